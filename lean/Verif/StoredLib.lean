/-
The known extensions and the numbers they hold: what the readers and the copies of the library make can be stored in its
precision, whatever the depth of the symbols.
-/
import Verif.StoredRead
import Verif.HeapPrintLib

set_option linter.unusedSectionVars false

namespace Osl
namespace Ext
namespace Dep

variable {c : Cfg}

/-- Spec: the domains of the dependences. -/
def Stored (c : Cfg) (l : List Dep) : Prop := ∀ d ∈ l, Rel.Stored c d.domain

theorem readLoop_stored (hc : c.Valid) {p : Int} : ∀ {n : Nat} {s pos : Option Str} {l : List Dep}, readLoop c p n s = .ok (l, pos) → Stored c l
  | 0, _, _, _, h => by simp only [readLoop] at h; cases h; exact fun d hd => by cases hd
  | n + 1, none, _, _, h => by simp only [readLoop] at h; cases h
  | n + 1, some s, pos, l, h => by
    simp only [readLoop] at h
    obtain ⟨⟨d, s1⟩, h1, h⟩ := Out.bind_eq_ok.mp h
    obtain ⟨⟨m, s2⟩, h2, h⟩ := Out.bind_eq_ok.mp h
    cases h
    refine List.forall_mem_cons.mpr ⟨?_, readLoop_stored hc h2⟩
    unfold readOne at h1
    obtain ⟨x1, _, h1⟩ := Out.bind_eq_ok.mp h1
    obtain ⟨x2, _, h1⟩ := Out.bind_eq_ok.mp h1
    obtain ⟨x3, _, h1⟩ := Out.bind_eq_ok.mp h1
    obtain ⟨x4, _, h1⟩ := Out.bind_eq_ok.mp h1
    obtain ⟨x5, _, h1⟩ := Out.bind_eq_ok.mp h1
    obtain ⟨x6, _, h1⟩ := Out.bind_eq_ok.mp h1
    obtain ⟨x7, _, h1⟩ := Out.bind_eq_ok.mp h1
    obtain ⟨⟨dom, y⟩, h3, h1⟩ := Out.bind_eq_ok.mp h1
    cases h1
    exact Rel.relation_psread_stored hc h3

/-- The dependences which are read can be stored. -/
theorem psread_stored (hc : c.Valid) {p : Int} {s pos : Option Str} {l : List Dep} (h : psread c p s = .ok (l, pos)) : Stored c l := by
  cases s with
  | none => simp only [psread] at h; cases h; exact fun d hd => by cases hd
  | some s =>
    simp only [psread] at h
    obtain ⟨x, _, h⟩ := Out.bind_eq_ok.mp h
    exact readLoop_stored hc h

/-- The copy of dependences can be stored. -/
theorem clone_stored (hc : c.Valid) {l m : List Dep} (hl : ∀ d ∈ l, Mem.RelFits c d.domain) (h : clone c l = .ok m) : Stored c m := by
  refine Rel.mapOut_forall (fun d : Dep => Rel.Stored c d.domain) h (fun a ha b hb => ?_)
  unfold cloneOne at hb
  obtain ⟨dom, h1, hb⟩ := Out.bind_eq_ok.mp hb
  cases hb
  exact Rel.clone_fit hc (hl a ha) h1

end Dep

namespace Symbol

open Mem (goodList goodSymbol goodSymbols)

variable {D : Type} {E : Env D} {good : D → Prop}

theorem readOne_good (K : Keeps E good) {registry : Ifaces} {s rest : Str} {x : Symbol D} (h : readOne E registry s = .ok (x, rest)) : goodSymbol good x := by
  unfold readOne at h
  obtain ⟨x1, _, h⟩ := Out.bind_eq_ok.mp h
  obtain ⟨x2, _, h⟩ := Out.bind_eq_ok.mp h
  obtain ⟨x3, _, h⟩ := Out.bind_eq_ok.mp h
  obtain ⟨⟨a, _⟩, h4, h⟩ := Out.bind_eq_ok.mp h
  obtain ⟨⟨b, _⟩, h5, h⟩ := Out.bind_eq_ok.mp h
  obtain ⟨⟨c, _⟩, h6, h⟩ := Out.bind_eq_ok.mp h
  obtain ⟨⟨d, _⟩, h7, h⟩ := Out.bind_eq_ok.mp h
  cases h
  exact ⟨GList.sread_one_good K h4, GList.sread_one_good K h5, GList.sread_one_good K h6, GList.sread_one_good K h7⟩

theorem readLoop_good (K : Keeps E good) {registry : Ifaces} : ∀ {n : Nat} {s rest : Str} {l : List (Symbol D)}, readLoop E registry n s = .ok (l, rest) →
    ∀ x ∈ l, goodSymbol good x
  | 0, _, _, _, h => by simp only [readLoop] at h; cases h; exact fun d hd => by cases hd
  | n + 1, s, rest, l, h => by
    simp only [readLoop] at h
    obtain ⟨⟨d, s1⟩, h1, h⟩ := Out.bind_eq_ok.mp h
    obtain ⟨⟨m, s2⟩, h2, h⟩ := Out.bind_eq_ok.mp h
    cases h
    exact List.forall_mem_cons.mpr ⟨readOne_good K h1, readLoop_good K h2⟩

theorem sread_good (K : Keeps E good) {registry : Ifaces} {s pos : Option Str} {l : List (Symbol D)} (h : sread E registry s = .ok (l, pos)) :
    ∀ x ∈ l, goodSymbol good x := by
  cases s with
  | none => simp only [sread] at h; cases h; exact fun d hd => by cases hd
  | some s =>
    simp only [sread] at h
    split at h
    · cases h
    · obtain ⟨⟨n, s1⟩, _, h⟩ := Out.bind_eq_ok.mp h
      obtain ⟨⟨m, s2⟩, h2, h⟩ := Out.bind_eq_ok.mp h
      cases h
      unfold readSymbols at h2
      split at h2
      · obtain ⟨_, _, h2⟩ := Out.bind_eq_ok.mp h2
        cases h2
      · exact readLoop_good K h2

theorem cloneOne_good (K : Keeps E good) {x y : Symbol D} (hx : goodSymbol good x) (h : cloneOne E x = .ok y) : goodSymbol good y := by
  unfold cloneOne at h
  obtain ⟨a, h4, h⟩ := Out.bind_eq_ok.mp h
  obtain ⟨b, h5, h⟩ := Out.bind_eq_ok.mp h
  obtain ⟨c, h6, h⟩ := Out.bind_eq_ok.mp h
  obtain ⟨d, h7, h⟩ := Out.bind_eq_ok.mp h
  cases h
  exact ⟨GList.clone_good K hx.1 h4, GList.clone_good K hx.2.1 h5, GList.clone_good K hx.2.2.1 h6, GList.clone_good K hx.2.2.2 h7⟩

theorem ncloneLoop_good (K : Keeps E good) {n : Int} : ∀ {i : Nat} {l acc m : List (Symbol D)}, (∀ x ∈ l, goodSymbol good x) → (∀ x ∈ acc, goodSymbol good x) →
    ncloneLoop E n i l acc = .ok m → ∀ x ∈ m, goodSymbol good x
  | _, [], _, _, _, ha, h => by simp only [ncloneLoop] at h; cases h; exact ha
  | i, s :: l, acc, m, hl, ha, h => by
    simp only [ncloneLoop] at h
    split at h
    · obtain ⟨a, h1, h⟩ := Out.bind_eq_ok.mp h
      refine ncloneLoop_good K (fun x hx => hl x (List.mem_cons_of_mem _ hx)) ?_ h
      intro x hx
      rcases List.mem_append.mp hx with hx | hx
      · exact ha x hx
      · rw [List.mem_singleton.mp hx]
        exact cloneOne_good K (hl s List.mem_cons_self) h1
    · cases h; exact ha

/-- The operations of the symbols keep their numbers stored. -/
theorem ops_sread_good (K : Keeps E good) {registry : Ifaces} {s pos : Option Str} {x : NE (Symbol D)} (h : (ops E registry).sread s = .ok (some x, pos)) :
    goodSymbols good x := by
  obtain ⟨⟨l, q⟩, h1, h⟩ := Out.bind_eq_ok.mp h
  have := sread_good K h1
  injection h with h
  injection h with h _
  rw [← NE.elems_ofList l, h] at this
  exact this

theorem ops_clone_good (K : Keeps E good) {registry : Ifaces} {d : Option (NE (Symbol D))} {x : NE (Symbol D)} (hd : ∀ y, d = some y → goodSymbols good y)
    (h : (ops E registry).clone d = .ok (some x)) : goodSymbols good x := by
  obtain ⟨l, h1, h⟩ := Out.bind_eq_ok.mp h
  have hl : ∀ y ∈ NE.elems d, goodSymbol good y := by
    cases d with
    | none => intro y hy; cases hy
    | some z => exact hd z rfl
  have := ncloneLoop_good K hl (fun x hx => by cases hx) h1
  injection h with h
  rw [← NE.elems_ofList l, h] at this
  exact this

end Symbol
end Ext

namespace Data

open Ext (Ops NE)
open Mem (goodData goodRelation goodDependence)

variable {S : Type} {c : Cfg}

/-- The functions of one extension make data which can be printed. -/
structure KeepsOps {X : Type} (o : Ops X) (good : X → Prop) : Prop where
  sread : ∀ {s d pos}, o.sread s = .ok (some d, pos) → good d
  clone : ∀ {x d}, (∀ y, x = some y → good y) → o.clone x = .ok (some d) → good d

theorem lift_keeps {X : Type} {k : Kind S X} {o : Ops X} {good : X → Prop} {dg : Data S → Prop} (K : KeepsOps o good) (hin : ∀ x, good x → dg (k.inj x))
    (hout : ∀ d x, dg d → k.proj d = some x → good x) : KeepsOps (lift k o) dg where
  sread := fun {s d pos} h => by
    obtain ⟨⟨x, q⟩, h1, h⟩ := Out.bind_eq_ok.mp h
    injection h with h
    injection h with h _
    cases x with
    | none => cases h
    | some x => injection h with h; rw [← h]; exact hin x (K.sread h1)
  clone := fun {x d} hx h => by
    cases x with
    | none =>
      obtain ⟨y, h1, h⟩ := Out.bind_eq_ok.mp h
      injection h with h
      cases y with
      | none => cases h
      | some y => injection h with h; rw [← h]; exact hin y (K.clone (fun _ h => by cases h) h1)
    | some x =>
      simp only [lift] at h
      split at h
      · next z hz =>
        obtain ⟨y, h1, h⟩ := Out.bind_eq_ok.mp h
        injection h with h
        cases y with
        | none => cases h
        | some y =>
          injection h with h
          rw [← h]
          exact hin y (K.clone (fun w hw => by injection hw with hw; rw [← hw]; exact hout x z (hx x rfl) hz) h1)
      · cases h

theorem keeps_any {X : Type} {o : Ops X} : KeepsOps o (fun _ => True) := ⟨fun _ => trivial, fun _ _ => trivial⟩

theorem relation_keeps (hc : c.Valid) {e : Option Str} : KeepsOps (relationOps c e) (goodRelation c) where
  sread := fun {s d pos} h => by
    cases s with
    | none => cases h
    | some s =>
      obtain ⟨⟨r, q⟩, h1, h⟩ := Out.bind_eq_ok.mp h
      have := (Rel.relation_psread_stored hc h1).fits
      injection h with h
      injection h with h _
      rw [← NE.elems_ofList r, h] at this
      exact this
  clone := fun {x d} hx h => by
    obtain ⟨r, h1, h⟩ := Out.bind_eq_ok.mp h
    have hf : Mem.RelFits c (NE.elems x) := by
      cases x with
      | none => intro a ha; cases ha
      | some z => exact hx z rfl
    have := (Rel.clone_fit hc hf h1).fits
    injection h with h
    rw [← NE.elems_ofList r, h] at this
    exact this

theorem dependence_keeps (hc : c.Valid) {e : Option Str} : KeepsOps (Ext.Dep.ops c e) (goodDependence c) where
  sread := fun {s d pos} h => by
    obtain ⟨⟨r, q⟩, h1, h⟩ := Out.bind_eq_ok.mp h
    have : ∀ d ∈ r, Mem.RelFits c d.domain := fun d hd => (Ext.Dep.psread_stored hc h1 d hd).fits
    injection h with h
    injection h with h _
    rw [← NE.elems_ofList r, h] at this
    exact this
  clone := fun {x d} hx h => by
    obtain ⟨r, h1, h⟩ := Out.bind_eq_ok.mp h
    have hf : ∀ d ∈ NE.elems x, Mem.RelFits c d.domain := by
      cases x with
      | none => intro a ha; cases ha
      | some z => exact hx z rfl
    have : ∀ d ∈ r, Mem.RelFits c d.domain := fun d hd => (Ext.Dep.clone_stored hc hf h1 d hd).fits
    injection h with h
    rw [← NE.elems_ofList r, h] at this
    exact this

/-- The library makes data which can be printed. -/
theorem env_keeps (hc : c.Valid) {e : Option Str} {o : Ops S} {sym : S → Prop} (K : KeepsOps o sym) : Keeps (env c e o) (goodData c sym) := by
  have key : ∀ (k : Nat) (x : Ops (Data S)), (table c e o)[k]? = some x → KeepsOps x (goodData c sym) := by
    intro k x hx
    have hk : k < 18 := by
      rcases Nat.lt_or_ge k 18 with h | h
      · exact h
      · rw [List.getElem?_eq_none h] at hx; cases hx
    have triv : ∀ {X : Type} {K : Kind S X} {o : Ops X}, (∀ x, goodData c sym (K.inj x)) → KeepsOps (lift K o) (goodData c sym) :=
      fun h => lift_keeps keeps_any (fun x _ => h x) (fun _ _ _ _ => trivial)
    rcases k with _|_|_|_|_|_|_|_|_|_|_|_|_|_|_|_|_|_|k
    all_goals first
      | omega
      | (injection hx with hx; subst hx; first
          | exact triv (fun _ => trivial)
          | exact lift_keeps (relation_keeps hc) (fun _ h => h) (fun d x hd hp => by cases d <;> first | (injection hp with hp; subst hp; exact hd) | cases hp)
          | exact lift_keeps (dependence_keeps hc) (fun _ h => h) (fun d x hd hp => by cases d <;> first | (injection hp with hp; subst hp; exact hd) | cases hp)
          | exact lift_keeps K (fun _ h => h) (fun d x hd hp => by cases d <;> first | (injection hp with hp; subst hp; exact hd) | cases hp))
  refine ⟨fun {k s d} h => ?_, fun {k x d} hx h => ?_⟩
  · simp only [env] at h
    split at h
    · next y hy =>
      obtain ⟨⟨z, q⟩, h1, h⟩ := Out.bind_eq_ok.mp h
      injection h with h
      dsimp only at h; rw [h] at h1
      exact (key k y hy).sread h1
    · cases h
  · simp only [env] at h
    split at h
    · next y hy => exact (key k y hy).clone hx h
    · cases h

end Data

theorem envAt_keeps {c : Cfg} (hc : c.Valid) {e : Option Str} : ∀ n, Keeps (envAt c e n) (Mem.goodAt c n)
  | 0 => Data.env_keeps hc (sym := Mem.anyData) ⟨fun _ => trivial, fun _ _ => trivial⟩
  | n + 1 => Data.env_keeps hc ⟨fun h => Ext.Symbol.ops_sread_good (envAt_keeps hc n) h, fun hx h => Ext.Symbol.ops_clone_good (envAt_keeps hc n) hx h⟩

/-- The library, whatever the depth of the symbols, makes data which can be printed. -/
theorem libAt_keeps {c : Cfg} (hc : c.Valid) {e : Option Str} (n : Nat) : Keeps (libAt c e n).toEnv (Mem.goodAt c n) := by
  cases n with
  | zero => exact envAt_keeps hc 0
  | succ n => exact envAt_keeps hc (n + 1)

end Osl
