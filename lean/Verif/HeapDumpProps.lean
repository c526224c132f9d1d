import Verif.HeapDump
import Verif.HeapPrintLib
import Verif.HeapIrrTextProps
import Verif.HeapQueryExtProps4
import Verif.HeapVecRel
/-!
# The display functions in memory (C80): calls which give a value, loops, linked structures
-/

set_option linter.unusedSectionVars false

namespace Osl.Mem

open Osl.Ext
open Osl.Dump (bars blank line)

variable [Allocator] {α β γ : Type}

/-- The call `m` gives the value `v`; the memory described by `P` is described by `P` again (specification). -/
def Gives (P : Assn) (m : M α) (v : α) : Prop := Triple P m (fun r => pur (r = v) ∗ P)

/-! ## Rules -/

theorem Query.gives {P : Assn} {m : M α} {v : α} (q : Query P m v) : Gives P m v := q.triple

theorem Gives.ret {P : Assn} {v w : α} (h : v = w) : Gives P (pure v) w := Triple.ret (fun _ hh => pur_sep_iff.mpr ⟨h, hh⟩)

theorem Gives.lift {P : Assn} {x : Out α} {v : α} (hx : x = .ok v) : Gives P (Mem.lift x) v := (Query.lift hx).gives

theorem Gives.bind {P : Assn} {m : M α} {f : α → M β} {v : α} {w : β} (h1 : Gives P m v) (h2 : Gives P (f v) w) : Gives P (m >>= f) w := by
  refine Triple.bind h1 (fun r => Triple.fact (fun hr => ?_))
  rw [hr]
  exact h2

theorem Gives.left {P F : Assn} {m : M α} {v : α} (q : Gives P m v) : Gives (P ∗ F) m v :=
  (Triple.frame F q).post (fun _ _ hh => by rwa [sep_assoc] at hh)

theorem Gives.right {P F : Assn} {m : M α} {v : α} (q : Gives P m v) : Gives (F ∗ P) m v := by
  rw [sep_comm]
  exact q.left

theorem Gives.ex {A : γ → Assn} {m : M α} {v : α} (q : ∀ x, Gives (A x) m v) : Gives (ex A) m v := by
  refine Triple.exi (fun x => (q x).post (fun r h hh => ?_))
  obtain ⟨h1, h2⟩ := pur_sep_iff.mp hh
  exact pur_sep_iff.mpr ⟨h1, x, h2⟩

theorem Gives.fact {φ : Prop} {P : Assn} {m : M α} {v : α} (q : φ → Gives P m v) : Gives (pur φ ∗ P) m v :=
  Triple.fact (fun hf => (q hf).post (fun _ _ hh => by
    obtain ⟨h1, h2⟩ := pur_sep_iff.mp hh
    exact pur_sep_iff.mpr ⟨h1, pur_sep_iff.mpr ⟨hf, h2⟩⟩))

theorem Gives.of_fact {φ : Prop} {P : Assn} {m : M α} {v : α} (hp : ∀ h, P h → φ) (q : φ → Gives P m v) : Gives P m v := Triple.of_fact hp q

theorem Gives.fact1 {φ : Prop} {m : M α} {v : α} (q : φ → Gives emp m v) : Gives (pur φ) m v := by
  have := Gives.fact (P := emp) q
  rwa [sep_emp] at this

/-- A call which needs less memory. -/
syntax "gfind " term : tactic
macro_rules
  | `(tactic| gfind $t) => `(tactic| first | exact $t | (apply Gives.left; gfind $t) | (apply Gives.right; gfind $t))

/-- The first command is this call. -/
syntax "gstep " term : tactic
macro_rules
  | `(tactic| gstep $t) => `(tactic| (refine Gives.bind (by gfind $t) ?_; try dsimp only))

/-- The first command is this call, found quickly. -/
syntax "gquick " term : tactic
macro_rules
  | `(tactic| gquick $t) => `(tactic| first | with_reducible exact $t | (apply Gives.left; gquick $t) | (apply Gives.right; gquick $t))

/-- The first command is this call. -/
syntax "gcall " term : tactic
macro_rules
  | `(tactic| gcall $t) => `(tactic| (have hcall := $t; refine Gives.bind (by gquick hcall) ?_; clear hcall; try dsimp only))

/-! ## Loops -/

theorem cat_map {f : α → Out Str} : ∀ {l : List α} {t : Str}, Dump.cat f l = .ok t → ∃ us, Out.mapOut f l = .ok us ∧ t = us.flatten
  | [], _, h => by
    cases h
    exact ⟨[], rfl, rfl⟩
  | a :: l, t, h => by
    obtain ⟨s, h1, h⟩ := Out.bind_eq_ok.mp h
    obtain ⟨u, h2, h⟩ := Out.bind_eq_ok.mp h
    obtain ⟨us, h3, rfl⟩ := cat_map h2
    cases h
    exact ⟨s :: us, Out.mapOut_cons_eq_ok.mpr ⟨s, us, h1, h3, rfl⟩, rfl⟩

theorem textsLoop_from {l : List α} {g : α → Out Str} {f : Int → M Str} {F : Assn} (hb : ∀ (i : Nat) a u, l[i]? = some a → g a = .ok u → Gives F (f i) u) :
    ∀ (suf pre : List α) (t : Str) (us : List Str), l = pre ++ suf → Out.mapOut g suf = .ok us →
    Gives F (forNS (fun i t => f i >>= fun u => pure (t ++ u)) suf.length pre.length t) (t ++ us.flatten)
  | [], pre, t, us, _, h => by
    cases h
    simp only [List.flatten_nil, List.append_nil]
    exact Gives.ret rfl
  | a :: suf, pre, t, us, hl, h => by
    obtain ⟨u, us1, h1, h2, rfl⟩ := Out.mapOut_cons_eq_ok.mp h
    have h3 := hb pre.length a u (by rw [hl]; simp) h1
    refine Gives.bind (v := t ++ u) (h3.bind (Gives.ret rfl)) ?_
    have := textsLoop_from hb suf (pre ++ [a]) (t ++ u) us1 (by rw [hl]; simp) h2
    simp only [List.length_append, List.length_cons, List.length_nil, List.append_assoc] at this
    rw [List.flatten_cons]
    exact this

/-- A loop on the indices of a list which writes the text `g` of each element. -/
theorem texts_spec {l : List α} {g : α → Out Str} {f : Int → M Str} {F : Assn} {us : List Str} {n : Int} (hn : n.toNat = l.length)
    (hb : ∀ (i : Nat) a u, l[i]? = some a → g a = .ok u → Gives F (f i) u) (h : Out.mapOut g l = .ok us) : Gives F (texts n f) us.flatten := by
  unfold texts forS
  rw [show (n - 0).toNat = l.length by omega]
  exact textsLoop_from hb l [] [] us rfl h

theorem texts_cat {l : List α} {g : α → Out Str} {f : Int → M Str} {F : Assn} {t : Str} {n : Int} (hn : n.toNat = l.length)
    (hb : ∀ (i : Nat) a u, l[i]? = some a → g a = .ok u → Gives F (f i) u) (h : Dump.cat g l = .ok t) : Gives F (texts n f) t := by
  obtain ⟨us, h1, rfl⟩ := cat_map h
  exact texts_spec hn hb h1

/-- The text of each element is always defined. -/
theorem texts_map {l : List α} {g : α → Str} {f : Int → M Str} {F : Assn} {n : Int} (hn : n.toNat = l.length)
    (hb : ∀ (i : Nat) a, l[i]? = some a → Gives F (f i) (g a)) : Gives F (texts n f) (l.map g).flatten :=
  texts_spec (g := fun a => .ok (g a)) hn (fun i a u hi hu => by cases hu; exact hb i a hi) (mapOut_map _ l)

/-! ## Linked structures -/

/-- What one turn of the loop writes, after the previous ones. -/
def nodeText (hd : Nat → α → Str) (g : α → Out Str) (sep : Str) (a : α) (last : Bool) (s : Nat × Str) : Out (Nat × Str) := do
  let t ← g a
  return (s.1 + 1, s.2 ++ ((if s.1 = 1 then [] else hd s.1 a) ++ t ++ (if last then [] else sep)))

theorem nodes_fold {hd : Nat → α → Str} {g : α → Out Str} {sep : Str} : ∀ {l : List α} {k : Nat} {t u : Str}, Dump.nodes hd g sep k l = .ok u →
    foldOut (nodeText hd g sep) l (k, t) = .ok (k + l.length, t ++ u)
  | [], k, t, u, h => by
    cases h
    simp [foldOut]
  | a :: l, k, t, u, h => by
    obtain ⟨s, h1, h⟩ := Out.bind_eq_ok.mp h
    obtain ⟨v, h2, h⟩ := Out.bind_eq_ok.mp h
    simp only [Out.pure_eq, Out.ok.injEq] at h
    subst h
    refine Out.bind_eq_ok.mpr ⟨(k + 1, t ++ ((if k = 1 then [] else hd k a) ++ s ++ (if l.isEmpty then [] else sep))), ?_, ?_⟩
    · unfold nodeText
      rw [h1]
      rfl
    · rw [nodes_fold h2]
      simp only [List.append_assoc, List.length_cons]
      rw [show k + 1 + l.length = k + (l.length + 1) by omega]

theorem nodeTurn_spec {N : Chain α} {G : Assn} {hd : Nat → α → Str} {g : α → Out Str} {sep : Str} {head : Nat → Ptr → M Str} {body : Ptr → M Str} {a : α} {p n : Ptr}
    (hh : ∀ k, Gives (N.at_ p a n ∗ G) (head k p) (hd k a)) (hb : ∀ t, g a = .ok t → Gives (N.at_ p a n ∗ G) (body p) t) {s t' : Nat × Str}
    (h : nodeText hd g sep a (decide (n = 0)) s = .ok t') : Gives (N.at_ p a n ∗ G) (nodeTurn N.toNext head body sep p s) t' := by
  unfold nodeText at h
  obtain ⟨t, h1, h⟩ := Out.bind_eq_ok.mp h
  simp only [Out.pure_eq, Out.ok.injEq] at h
  unfold nodeTurn
  refine Gives.bind (v := if s.1 = 1 then [] else hd s.1 a) ?_ (Gives.bind (hb t h1) (Gives.bind (Gives.left (N.get_spec p a n)) (Gives.ret ?_)))
  · unfold nodeHead
    by_cases hk : s.1 = 1
    · rw [if_pos hk, if_pos hk]
      exact Gives.ret rfl
    · rw [if_neg hk, if_neg hk]
      exact hh s.1
  · rw [← h]
    by_cases hn : n = 0
    · simp [hn]
    · simp [hn]

/-- The display functions of the linked structures, which may look at some other memory `G`. -/
theorem dumpFrame_spec {N : Chain α} {G : Assn} {l : List α} {p : Ptr} {title : M Str} {t0 : Str} {hd : Nat → α → Str} {g : α → Out Str} {sep last : Str} {head : Nat → Ptr → M Str}
    {body : Ptr → M Str} (ht : Gives (N.list p l) title t0) (hh : ∀ a ∈ l, ∀ k p n, Gives (N.at_ p a n ∗ G) (head k p) (hd k a))
    (hb : ∀ a ∈ l, ∀ p n t, g a = .ok t → Gives (N.at_ p a n ∗ G) (body p) t) {t : Str}
    (h : Dump.nodes hd g sep 1 l = .ok t) : Gives (N.list p l ∗ G) (dumpList N.toNext title head body sep last p) (t0 ++ t ++ last) := by
  unfold dumpList
  refine Gives.bind (Gives.left ht) ?_
  refine Gives.bind (v := (1 + l.length, [] ++ t)) ?_ (Gives.ret rfl)
  have := walk_spec (N := N) (act := nodeTurn N.toNext head body sep) (g := nodeText hd g sep) (A := fun (s t : Nat × Str) => pur (s = t) ∗ G) (p := p) (s := (1, [])) (t := (1, [])) (l := l)
    (t' := (1 + l.length, [] ++ t)) (fun a ha p n s t t' h => by
      refine Triple.pre (P := pur (s = t) ∗ N.at_ p a n ∗ G) (Triple.fact (fun hs => ?_)) (fun _ hx => hx.perm (by ac_rfl))
      subst hs
      exact (nodeTurn_spec (N := N) (G := G) (a := a) (p := p) (n := n) (hd := hd) (fun k => hh a ha k p n) (fun t => hb a ha p n t) h).post (fun _ _ hx => hx.perm (by ac_rfl))) (nodes_fold h)
  refine (this.pre (fun h hx => ?_)).post (fun _ _ hx => hx.perm (by ac_rfl))
  have : (pur (((1, []) : Nat × Str) = (1, [])) ∗ N.list p l ∗ G) h := pur_sep_iff.mpr ⟨rfl, hx⟩
  exact this.perm (by ac_rfl)

/-- The display functions of the linked structures. -/
theorem dumpList_spec {N : Chain α} {l : List α} {p : Ptr} {title : M Str} {t0 : Str} {hd : Nat → α → Str} {g : α → Out Str} {sep last : Str} {head : Nat → Ptr → M Str} {body : Ptr → M Str}
    (ht : Gives (N.list p l) title t0) (hh : ∀ a ∈ l, ∀ k p n, Gives (N.at_ p a n) (head k p) (hd k a)) (hb : ∀ a ∈ l, ∀ p n t, g a = .ok t → Gives (N.at_ p a n) (body p) t) {t : Str}
    (h : Dump.nodes hd g sep 1 l = .ok t) : Gives (N.list p l) (dumpList N.toNext title head body sep last p) (t0 ++ t ++ last) := by
  have := dumpFrame_spec (G := emp) (last := last) ht (fun a ha k p n => (hh a ha k p n).left) (fun a ha p n t h => (hb a ha p n t h).left) h
  rwa [sep_emp] at this

theorem title_spec {N : Chain α} {l : List α} {p : Ptr} {level : Nat} {a b : Str} : Gives (N.list p l) (oneTitle p level a b) (line level (match l with | _ :: _ => a | [] => b)) := by
  unfold oneTitle
  cases l with
  | nil =>
    rw [Chain.list_null]
    refine Gives.fact1 (fun hp => ?_)
    subst hp
    exact Gives.ret rfl
  | cons x l =>
    refine Gives.of_fact (fun _ hh => Chain.list_cons_ne hh) (fun hp => ?_)
    rw [if_pos hp]
    exact Gives.ret rfl

/-- The first line, whether the structure is empty or not. -/
def titled (l : List α) (a b : Str) : Str := match l with | _ :: _ => a | [] => b

/-- The display functions of the linked structures whose first line is the same for all nodes. -/
theorem dumpTitled_spec {N : Chain α} {l : List α} {p : Ptr} {level : Nat} {a b : Str} {hd : Nat → α → Str} {g : α → Out Str} {sep last : Str} {head : Nat → Ptr → M Str} {body : Ptr → M Str}
    (hh : ∀ a ∈ l, ∀ k p n, Gives (N.at_ p a n) (head k p) (hd k a)) (hb : ∀ a ∈ l, ∀ p n t, g a = .ok t → Gives (N.at_ p a n) (body p) t) {t u : Str}
    (h : Dump.nodes hd g sep 1 l = .ok t) (hu : titled l (line level a) (line level b) ++ t ++ last = u) :
    Gives (N.list p l) (dumpList N.toNext (oneTitle p level a b) head body sep last p) u := by
  have := dumpList_spec (N := N) (last := last) (title_spec (N := N) (l := l) (p := p) (level := level) (a := a) (b := b)) hh hb h
  subst hu
  cases l <;> exact this

/-- A display function with a case for NULL. -/
theorem dumpOpt_spec {at_ : Ptr → α → Assn} {p : Ptr} {d : Option α} (hp : ∀ p x h, at_ p x h → p ≠ 0) {m m0 : M Str} {t : Str} (h0 : d = none → Gives emp m0 t)
    (h1 : ∀ x, d = some x → p ≠ 0 → Gives (at_ p x) m t) : Gives (optAt at_ p d) (if p ≠ 0 then m else m0) t := by
  cases d with
  | none =>
    rw [optAt_none]
    refine Gives.fact1 (fun e => ?_)
    subst e
    rw [if_neg (by simp)]
    exact h0 rfl
  | some x =>
    rw [optAt_some]
    refine Gives.of_fact (hp p x) (fun e => ?_)
    rw [if_pos e]
    exact h1 x rfl e

/-! ## Reading -/

theorem uri_chars {s : Ptr} {u : Option Str} {t : Str} (h : Ext.str u = .ok t) : Gives (uriAt s u) (loadChars s) t := by
  cases u with
  | none => cases h
  | some w =>
    cases h
    exact loadChars_spec

theorem uri_opt {s : Ptr} {u : Option Str} : Gives (uriAt s u) (loadOpt s) u := loadOpt_spec

theorem field_gives {p x : Ptr} {i : Nat} {l : List Ptr} (h : nth l i = .ok x) : Gives (p ↦ .ptrs l) (getField p i) x := getField_spec h

theorem ptr_gives {p x : Ptr} {i : Nat} {is : List Int} {l : List Ptr} (h : nth l i = .ok x) : Gives (p ↦ .node is l) (getPtr p i) x := getPtr_spec h

theorem int_gives {p : Ptr} {x : Int} {i : Nat} {is : List Int} {l : List Ptr} (h : nth is i = .ok x) : Gives (p ↦ .node is l) (getInt p i) x := getInt_spec h

end Osl.Mem
