import Verif.DumpExt
import Verif.ExtDepProps
/-!
# What the display functions of the default registry show

The dependences, the symbols, and all the display functions of the default registry together.
-/

set_option linter.unusedSectionVars false

namespace Osl
namespace Dump

open Ext

section
variable {D : Type}

/-! ## Dependences -/

theorem depType_noNL (t : Int) : NoNL (depType t) := by
  unfold depType NoNL
  split
  · decide
  split
  · decide
  split
  · decide
  split
  · decide
  split
  · decide
  split
  · decide
  · decide

theorem depType_inj {t u : Int} (ht : Dep.KnownType t) (hu : Dep.KnownType u) (e : depType t = depType u) : t = u := by
  rcases ht with h | h | h | h | h | h <;> rcases hu with g | g | g | g | g | g <;> subst h <;> subst g <;>
    first | rfl | (exact absurd e (by decide))

theorem dimsLine_inj {a b : Dep} (e : Dep.dimsLine a = Dep.dimsLine b) : a.src_out_dom = b.src_out_dom ∧ a.src_out_acc = b.src_out_acc ∧
    a.tgt_out_dom = b.tgt_out_dom ∧ a.tgt_out_acc = b.tgt_out_acc ∧ a.src_loc_dom = b.src_loc_dom ∧ a.src_loc_acc = b.src_loc_acc ∧
    a.tgt_loc_dom = b.tgt_loc_dom ∧ a.tgt_loc_acc = b.tgt_loc_acc := by
  simp only [Dep.dimsLine] at e
  obtain ⟨h1, e⟩ := showInt_follow (c := ' ') (d := ' ') (by decide) (by decide) e
  injection e with _ e
  obtain ⟨h2, e⟩ := showInt_follow (c := ' ') (d := ' ') (by decide) (by decide) e
  injection e with _ e
  obtain ⟨h3, e⟩ := showInt_follow (c := ' ') (d := ' ') (by decide) (by decide) e
  injection e with _ e
  obtain ⟨h4, e⟩ := showInt_follow (c := ' ') (d := ' ') (by decide) (by decide) e
  injection e with _ e
  obtain ⟨h5, e⟩ := showInt_follow (c := ' ') (d := ' ') (by decide) (by decide) e
  injection e with _ e
  obtain ⟨h6, e⟩ := showInt_follow (c := ' ') (d := ' ') (by decide) (by decide) e
  injection e with _ e
  obtain ⟨h7, e⟩ := showInt_follow (c := ' ') (d := ' ') (by decide) (by decide) e
  injection e with _ e
  exact ⟨h1, h2, h3, h4, h5, h6, h7, showInt_inj e⟩

/-- A dependence the text can tell, with the statements it points to. -/
structure DepShown (c : Cfg) (reg : Ifaces) (Q : Nat → Option D → Prop) (x : DepPtrs D) : Prop where
  type : Dep.KnownType x.dep.type
  domain : ∀ p ∈ x.dep.domain, PartShown c p
  source : ∀ s, x.source = some s → StmtShown c reg Q s
  target : ∀ s, x.target = some s → StmtShown c reg Q s

theorem depStmt_shows {c : Cfg} {reg : Ifaces} (hr : Registry reg) {F : Fn D} {Q : Nat → Option D → Prop} (hF : FShows F Q) (n : Nat) :
    Shows (fun o : Option (Stmt D) => ∀ s, o = some s → StmtShown c reg Q s) (fun o => depStmt c F o n) := by
  intro a b s t u v ha hb h1 h2 e
  cases a with
  | none => cases h1
  | some a =>
    cases b with
    | none => cases h2
    | some b =>
      obtain ⟨k, e⟩ := statement_shows (c := c) hr hF n [a] [b] s t u v (fun x hx => List.mem_singleton.mp hx ▸ ha a rfl)
        (fun x hx => List.mem_singleton.mp hx ▸ hb b rfl) h1 h2 e
      injection k with k
      exact ⟨by rw [k], e⟩

theorem depBody_shows {c : Cfg} {reg : Ifaces} (hr : Registry reg) {F : Fn D} {Q : Nat → Option D → Prop} (hF : FShows F Q) (n : Nat) :
    Shows (DepShown c reg Q) (depBody c F n) := by
  intro a b s t u v ha hb h1 h2 e
  simp only [depBody, Out.bind_eq_ok, Out.pure_eq] at h1 h2
  obtain ⟨s1, h1, s2, h3, s3, h5, e1⟩ := h1
  obtain ⟨t1, h2, t2, h4, t3, h6, e2⟩ := h2
  injection e1 with e1; injection e2 with e2
  subst e1; subst e2
  simp only [List.append_assoc] at e
  have na := depType_noNL a.dep.type
  have nb := depType_noNL b.dep.type
  obtain ⟨k1, e⟩ := line_inj (by nonl) (by nonl) (List.append_cancel_left e)
  obtain ⟨k2, e⟩ := line_inj (by nonl) (by nonl) (List.append_cancel_left e)
  obtain ⟨k3, e⟩ := line_inj (by nonl) (by nonl) (List.append_cancel_left e)
  obtain ⟨k4, e⟩ := line_inj (by nonl) (by nonl) (List.append_cancel_left e)
  obtain ⟨k5, e⟩ := depStmt_shows hr hF (n + 1) _ _ _ _ _ _ ha.source hb.source h1 h2 e
  obtain ⟨k6, e⟩ := line_inj (by nonl) (by nonl) e
  obtain ⟨k7, e⟩ := depStmt_shows hr hF (n + 1) _ _ _ _ _ _ ha.target hb.target h3 h4 e
  obtain ⟨k8, e⟩ := line_inj (Dep.dimsLine_noNL _) (Dep.dimsLine_noNL _) e
  obtain ⟨k9, e⟩ := relation_shows c (n + 1) _ _ _ _ _ _ ha.domain hb.domain h5 h6 e
  have k1 := depType_inj ha.type hb.type (List.append_cancel_left k1)
  have k2 := showInt_inj (List.append_cancel_left k2)
  obtain ⟨k31, k3⟩ := showInt_follow (c := ',') (d := ',') (x := " Ref target: ".toList ++ showInt a.dep.ref_target)
    (y := " Ref target: ".toList ++ showInt b.dep.ref_target) (by decide) (by decide) (List.append_cancel_left k3)
  injection k3 with _ k3
  have k3 := showInt_inj (List.append_cancel_left k3)
  have k4 := showInt_inj (List.append_cancel_left k4)
  have k6 := showInt_inj (List.append_cancel_left k6)
  obtain ⟨d1, d2, d3, d4, d5, d6, d7, d8⟩ := dimsLine_inj k8
  refine ⟨?_, e⟩
  obtain ⟨⟨⟩, _, _⟩ := a
  obtain ⟨⟨⟩, _, _⟩ := b
  simp only at k1 k2 k31 k3 k4 k5 k6 k7 k9 d1 d2 d3 d4 d5 d6 d7 d8
  rw [k1, k2, k31, k3, k4, k5, k6, k7, k9, d1, d2, d3, d4, d5, d6, d7, d8]

theorem dependence_eq (c : Cfg) (F : Fn D) (l : List (DepPtrs D)) (n : Nat) : dependence c F l n =
    linked (line n "+-- NULL dependence".toList) (fun _ => line n "+-- osl_dependence_p".toList)
      (fun _ _ => line n "|   osl_dependence_p".toList) (depBody c F n) (line (n + 1) ['V']) (blank (n + 1)) l := by
  cases l <;> rfl

/-- C70: `osl_dependence_dump` tells the dependences and the statements they point to. -/
theorem dependence_shows {c : Cfg} {reg : Ifaces} (hr : Registry reg) {F : Fn D} {Q : Nat → Option D → Prop} (hF : FShows F Q) (n : Nat) :
    Shows (fun l : List (DepPtrs D) => ∀ x ∈ l, DepShown c reg Q x) (fun l => dependence c F l n) := by
  have hb := depBody_shows (c := c) hr hF n
  have h := linked_shows (null := line n "+-- NULL dependence".toList) (fin := blank (n + 1)) (sep := line (n + 1) ['V'])
    (v_sep (n + 1)) (fun a x y _ => line_ne (by nonl) (by nonl) (by decide))
    (hb.same (line n "+-- osl_dependence_p".toList)) (fun _ => hb.same (line n "|   osl_dependence_p".toList))
  intro a b s t u v ha hb h1 h2
  dsimp only at h1 h2
  rw [dependence_eq] at h1 h2
  exact h a b s t u v ha hb h1 h2

/-- C70: `osl_dependence_dump` is defined exactly when the statements are known and they and the domain can be displayed. -/
theorem dependence_ok_iff (c : Cfg) (F : Fn D) (l : List (DepPtrs D)) (n : Nat) : (∃ t, dependence c F l n = .ok t) ↔
    ∀ x ∈ l, (∃ s, x.source = some s ∧ ∃ t, statement c F [s] (n + 1) = .ok t) ∧
      (∃ s, x.target = some s ∧ ∃ t, statement c F [s] (n + 1) = .ok t) ∧ ∃ t, relation c x.dep.domain (n + 1) = .ok t := by
  rw [dependence_eq, linked_ok]
  refine forall_congr' fun x => forall_congr' fun _ => ?_
  have hs : ∀ o : Option (Stmt D), (∃ t, depStmt c F o (n + 1) = .ok t) ↔ ∃ s, o = some s ∧ ∃ t, statement c F [s] (n + 1) = .ok t := by
    intro o
    cases o with
    | none => exact ⟨fun h => (by obtain ⟨t, h⟩ := h; cases h), fun h => (by obtain ⟨s, h, _⟩ := h; cases h)⟩
    | some s => exact ⟨fun h => ⟨s, rfl, h⟩, fun h => (by obtain ⟨s', h, g⟩ := h; injection h with h; subst h; exact g)⟩
  rw [← hs, ← hs]
  constructor
  · rintro ⟨t, h⟩
    simp only [depBody, Out.bind_eq_ok] at h
    obtain ⟨s1, h1, s2, h3, s3, h5, _⟩ := h
    exact ⟨⟨s1, h1⟩, ⟨s2, h3⟩, ⟨s3, h5⟩⟩
  · rintro ⟨⟨s1, h1⟩, ⟨s2, h2⟩, ⟨s3, h3⟩⟩
    exact ⟨_, by simp only [depBody, h1, h2, h3, Out.ok_bind, Out.pure_eq]; rfl⟩

/-! ## Symbols -/

/-- The kinds of symbols (include/osl/extensions/symbols.h:82-86). -/
def SymKnown (t : Int) : Prop := t = UNDEFINED ∨ t = 1 ∨ t = 2 ∨ t = 3 ∨ t = 4

theorem symType_noNL (t : Int) : NoNL (symType t) := by
  unfold symType
  split
  · refine NoNL.append (by nonl) ?_
    split
    · nonl
    split
    · nonl
    split
    · nonl
    split
    · nonl
    · nonl
  · nonl

theorem symType_inj {t u : Int} (ht : SymKnown t) (hu : SymKnown u) (e : symType t = symType u) : t = u := by
  rcases ht with h | h | h | h | h <;> rcases hu with g | g | g | g | g <;> subst h <;> subst g <;>
    first | rfl | (exact absurd e (by decide))

/-- An optional number: different texts for different numbers. -/
theorem optional_inj {p q : Str} {a b : Int} (hpq : ∀ x, p ++ x ≠ q)
    (e : (if a ≠ UNDEFINED then p ++ showInt a else q) = if b ≠ UNDEFINED then p ++ showInt b else q) : a = b := by
  split at e
  · split at e
    · exact showInt_inj (List.append_cancel_left e)
    · exact absurd e (hpq _)
  · rename_i ha
    split at e
    · exact absurd e.symm (hpq _)
    · rename_i hb
      rw [Classical.not_not.mp ha, Classical.not_not.mp hb]

theorem optional_noNL {p q : Str} {a : Int} (hp : NoNL p) (hq : NoNL q) : NoNL (if a ≠ UNDEFINED then p ++ showInt a else q) := by
  split
  · exact hp.append (noNL_showInt a)
  · exact hq

/-- A symbol the text can tell. -/
structure SymShown (reg : Ifaces) (Q : Nat → Option D → Prop) (x : Symbol D) : Prop where
  type : SymKnown x.type
  identifier : ∀ g ∈ x.identifier, GenericShown reg Q g
  datatype : ∀ g ∈ x.datatype, GenericShown reg Q g
  scope : ∀ g ∈ x.scope, GenericShown reg Q g
  extent : ∀ g ∈ x.extent, GenericShown reg Q g

theorem origin_ne (x : Str) : "+-- Origin: ".toList ++ x ≠ "+-- Undefined origin".toList := by
  intro h
  have := congrArg (List.take 5) h
  exact absurd this (by simp)

theorem dims_ne (x : Str) : "+-- Number of Dimensions: ".toList ++ x ≠ "+-- Undefined number of dimensions".toList := by
  intro h
  have := congrArg (List.take 5) h
  exact absurd this (by simp)

theorem symBody_shows {reg : Ifaces} (hr : Registry reg) {F : Fn D} {Q : Nat → Option D → Prop} (hF : FShows F Q) (n : Nat) :
    Shows (SymShown reg Q) (symBody F n) := by
  intro a b s t u v ha hb h1 h2 e
  simp only [symBody, Out.bind_eq_ok, Out.pure_eq] at h1 h2
  obtain ⟨s1, h1, s2, h3, s3, h5, s4, h7, e1⟩ := h1
  obtain ⟨t1, h2, t2, h4, t3, h6, t4, h8, e2⟩ := h2
  injection e1 with e1; injection e2 with e2
  subst e1; subst e2
  simp only [List.append_assoc] at e
  obtain ⟨k1, e⟩ := line_inj (symType_noNL _) (symType_noNL _) (List.append_cancel_left e)
  obtain ⟨k2, e⟩ := line_inj (optional_noNL (by nonl) (by nonl)) (optional_noNL (by nonl) (by nonl)) (List.append_cancel_left e)
  obtain ⟨k3, e⟩ := line_inj (optional_noNL (by nonl) (by nonl)) (optional_noNL (by nonl) (by nonl)) (List.append_cancel_left e)
  have e := List.append_cancel_left e
  have k1 := symType_inj ha.type hb.type k1
  have k2 := optional_inj origin_ne k2
  have k3 := optional_inj dims_ne k3
  obtain ⟨k4, e⟩ := generic_shows hr hF (n + 1) _ _ _ _ _ _ ha.identifier hb.identifier h1 h2 e
  obtain ⟨k5, e⟩ := generic_shows hr hF (n + 1) _ _ _ _ _ _ ha.datatype hb.datatype h3 h4 e
  obtain ⟨k6, e⟩ := generic_shows hr hF (n + 1) _ _ _ _ _ _ ha.scope hb.scope h5 h6 e
  obtain ⟨k7, e⟩ := generic_shows hr hF (n + 1) _ _ _ _ _ _ ha.extent hb.extent h7 h8 e
  refine ⟨?_, e⟩
  cases a; cases b
  simp only at k1 k2 k3 k4 k5 k6 k7
  rw [k1, k2, k3, k4, k5, k6, k7]

theorem symbols_eq (F : Fn D) (l : List (Symbol D)) (n : Nat) : symbols F l n =
    linked (line n "+-- NULL symbols".toList) (fun _ => line n "+-- osl_symbols_t".toList)
      (fun k _ => line n ("|   osl_symbol_t (node ".toList ++ showNat k ++ ")".toList)) (symBody F n) (line (n + 1) ['V']) (blank (n + 1)) l := by
  cases l <;> rfl

/-- C70: `osl_symbols_dump` tells the symbols. -/
theorem symbols_shows {reg : Ifaces} (hr : Registry reg) {F : Fn D} {Q : Nat → Option D → Prop} (hF : FShows F Q) (n : Nat) :
    Shows (fun l : List (Symbol D) => ∀ x ∈ l, SymShown reg Q x) (fun l => symbols F l n) := by
  have hb := symBody_shows hr hF n
  have h := linked_shows (null := line n "+-- NULL symbols".toList) (fin := blank (n + 1)) (sep := line (n + 1) ['V'])
    (v_sep (n + 1)) (fun a x y _ => line_ne (by nonl) (by nonl) (by decide))
    (hb.same (line n "+-- osl_symbols_t".toList)) (fun k => hb.same (line n ("|   osl_symbol_t (node ".toList ++ showNat k ++ ")".toList)))
  intro a b s t u v ha hb h1 h2
  dsimp only at h1 h2
  rw [symbols_eq] at h1 h2
  exact h a b s t u v ha hb h1 h2

/-- C70: `osl_symbols_dump` is defined exactly when the four extensions of every symbol can be displayed. -/
theorem symbols_ok_iff (F : Fn D) (l : List (Symbol D)) (n : Nat) : (∃ t, symbols F l n = .ok t) ↔
    ∀ x ∈ l, ∀ g ∈ [x.identifier, x.datatype, x.scope, x.extent], ∃ t, generic F g (n + 1) = .ok t := by
  rw [symbols_eq, linked_ok]
  refine forall_congr' fun x => forall_congr' fun _ => ?_
  constructor
  · rintro ⟨t, h⟩ g hg
    simp only [symBody, Out.bind_eq_ok] at h
    obtain ⟨s1, h1, s2, h3, s3, h5, s4, h7, _⟩ := h
    simp only [List.mem_cons, List.not_mem_nil, or_false] at hg
    rcases hg with hg | hg | hg | hg <;> subst hg
    · exact ⟨_, h1⟩
    · exact ⟨_, h3⟩
    · exact ⟨_, h5⟩
    · exact ⟨_, h7⟩
  · intro h
    obtain ⟨s1, h1⟩ := h x.identifier (List.mem_cons_self ..)
    obtain ⟨s2, h2⟩ := h x.datatype (List.mem_cons_of_mem _ (List.mem_cons_self ..))
    obtain ⟨s3, h3⟩ := h x.scope (List.mem_cons_of_mem _ (List.mem_cons_of_mem _ (List.mem_cons_self ..)))
    obtain ⟨s4, h4⟩ := h x.extent (List.mem_cons_of_mem _ (List.mem_cons_of_mem _ (List.mem_cons_of_mem _ (List.mem_cons_self ..))))
    exact ⟨_, by simp only [symBody, h1, h2, h3, h4, Out.ok_bind, Out.pure_eq]; rfl⟩

end

/-! ## The default registry -/

section
variable {S : Type}

theorem lift_shows {X : Type} (k : Data.Kind S X) (hk : ∀ d x, k.proj d = some x → d = k.inj x) {P : X → Prop} {f : Option X → Nat → Out Str} {n : Nat}
    (h : Shows (fun o : Option X => ∀ x, o = some x → P x) fun o => f o n) :
    Shows (fun d : Option (Data S) => ∀ x, d = some x → ∀ y, k.proj x = some y → P y) fun d => lift k f d n := by
  have hf : ∀ (d : Option (Data S)) t, lift k f d n = .ok t → ∃ o : Option X, d = o.map k.inj ∧ f o n = .ok t := by
    intro d t h
    cases d with
    | none => exact ⟨none, rfl, h⟩
    | some d =>
      simp only [lift] at h
      split at h
      · rename_i x hx
        exact ⟨some x, by rw [hk d x hx]; rfl, h⟩
      · cases h
  intro a b s t u v ha hb h1 h2 e
  obtain ⟨o1, e1, g1⟩ := hf _ _ h1
  obtain ⟨o2, e2, g2⟩ := hf _ _ h2
  subst e1; subst e2
  obtain ⟨k1, k2⟩ := h o1 o2 s t u v (fun x hx => (by subst hx; exact ha _ rfl x (k.proj_inj x)))
    (fun x hx => (by subst hx; exact hb _ rfl x (k.proj_inj x))) g1 g2 e
  exact ⟨by rw [k1], k2⟩

theorem elems_shows {X : Type} {P : X → Prop} {f : List X → Out Str} (h : Shows (fun l : List X => ∀ x ∈ l, P x) f) :
    Shows (fun o : Option (NE X) => ∀ x, o = some x → ∀ y ∈ NE.elems (some x), P y) fun o => f (NE.elems o) := by
  intro a b s t u v ha hb h1 h2 e
  have hm : ∀ o : Option (NE X), (∀ x, o = some x → ∀ y ∈ NE.elems (some x), P y) → ∀ y ∈ NE.elems o, P y := by
    intro o ho y hy
    cases o with
    | none => cases hy
    | some x => exact ho x rfl y hy
  obtain ⟨k, e⟩ := h _ _ s t u v (hm a ha) (hm b hb) h1 h2 e
  exact ⟨NE.elems_inj k, e⟩

/-- The data of an extension its display function can tell, `PS` being the symbols it can tell. -/
def DataShown (c : Cfg) (PS : S → Prop) : Data S → Prop
  | .strings x => WordsOnly x
  | .body x => BodyShown x
  | .relation x => ∀ p ∈ NE.elems (some x), PartShown c p
  | .textual x => ∀ s, x.textual = some s → NoNL s ∧ s.length ≤ 40
  | .comment x => ∀ s, x.comment = some s → NoNL s
  | .null _ => True
  | .scatinfos _ => True
  | .scatnames x => ∀ y, x.names = some y → WordsOnly y
  | .arrays x => ∀ p ∈ x.pairs, NoNL p.2
  | .coordinates x => ∀ s, x.name = some s → NoNL s
  | .clay x => ∀ s, x.script = some s → NoNL s
  | .dependence _ => True
  | .symbols x => PS x
  | .extbody x => ∀ y, x.body = some y → BodyShown y
  | .loop x => ∀ y ∈ NE.elems (some x), LoopShown y
  | .unroll x => ∀ y ∈ NE.elems (some x), UnrollShown y
  | .region _ => False
  | .annotation _ => False

/-- NULL, or data which can be told. -/
def Shown (c : Cfg) (PS : S → Prop) (_k : Nat) (d : Option (Data S)) : Prop := ∀ x, d = some x → DataShown c PS x


theorem ub_shows {X : Type} {P : X → Prop} {f : X → Out Str} (h : ∀ a t, f a ≠ .ok t) : Shows P f :=
  fun a _ s _ _ _ _ _ h1 => absurd h1 (h a s)

/-- The display functions of the default registry tell the data, if that of the symbols does. -/
theorem fns_shows (c : Cfg) {sym : Option S → Nat → Out Str} {PS : S → Prop}
    (hs : ∀ n, Shows (fun o : Option S => ∀ x, o = some x → PS x) fun o => sym o n) : FShows (fns c sym) (Shown c PS) := by
  have go : ∀ {X : Type} (k : Data.Kind S X) {P : X → Prop} {f : Option X → Nat → Out Str} {n : Nat} (i : Nat),
      (∀ d x, k.proj d = some x → d = k.inj x) → Shows (fun o : Option X => ∀ x, o = some x → P x) (fun o => f o n) →
      (∀ x, DataShown c PS (k.inj x) → P x) → Shows (Shown c PS i) fun d => lift k f d n := by
    intro X k P f n i hk h hp
    refine (lift_shows k hk h).mono fun d hd x hx y hy => ?_
    have := hd x hx
    rw [hk x y hy] at this
    exact hp y this
  intro k n
  match k with
  | 0 =>
    show Shows (Shown c PS 0) fun d => lift Data.kStrings (fun x n => .ok (strings x n)) d n
    exact go Data.kStrings 0 (fun d x h => by cases d <;> cases h; rfl) (strings_shows n) (fun _ h => h)
  | 1 =>
    show Shows (Shown c PS 1) fun d => lift Data.kBody (fun x n => .ok (body x n)) d n
    exact go Data.kBody 1 (fun d x h => by cases d <;> cases h; rfl) (body_shows n) (fun _ h => h)
  | 2 =>
    show Shows (Shown c PS 2) fun d => lift Data.kRelation (fun x n => relation c (NE.elems x) n) d n
    exact go Data.kRelation 2 (fun d x h => by cases d <;> cases h; rfl) (elems_shows (relation_shows c n)) (fun _ h => h)
  | 3 =>
    show Shows (Shown c PS 3) fun d => lift Data.kTextual textual d n
    exact go Data.kTextual 3 (fun d x h => by cases d <;> cases h; rfl) (textual_shows n) (fun _ h => h)
  | 4 =>
    show Shows (Shown c PS 4) fun d => lift Data.kComment comment d n
    exact go Data.kComment 4 (fun d x h => by cases d <;> cases h; rfl) (comment_shows n) (fun _ h => h)
  | 5 =>
    show Shows (Shown c PS 5) fun d => lift Data.kNull (fun x n => .ok (null x n)) d n
    exact go Data.kNull (P := fun _ => True) 5 (fun d x h => by cases d <;> cases h; rfl) ((null_shows n).mono fun _ _ => trivial) (fun _ _ => trivial)
  | 6 =>
    show Shows (Shown c PS 6) fun d => lift Data.kScatinfos (fun x n => .ok (scatinfos x n)) d n
    exact go Data.kScatinfos (P := fun _ => True) 6 (fun d x h => by cases d <;> cases h; rfl) ((scatinfos_shows n).mono fun _ _ => trivial) (fun _ _ => trivial)
  | 7 =>
    show Shows (Shown c PS 7) fun d => lift Data.kScatnames (fun x n => .ok (scatnames x n)) d n
    exact go Data.kScatnames 7 (fun d x h => by cases d <;> cases h; rfl) (scatnames_shows n) (fun _ h => h)
  | 8 =>
    show Shows (Shown c PS 8) fun d => lift Data.kArrays (fun x n => .ok (arrays x n)) d n
    exact go Data.kArrays 8 (fun d x h => by cases d <;> cases h; rfl) (arrays_shows n) (fun _ h => h)
  | 9 =>
    show Shows (Shown c PS 9) fun d => lift Data.kCoordinates (fun x n => .ok (coordinates x n)) d n
    exact go Data.kCoordinates 9 (fun d x h => by cases d <;> cases h; rfl) (coordinates_shows n) (fun _ h => h)
  | 10 =>
    show Shows (Shown c PS 10) fun d => lift Data.kClay clay d n
    exact go Data.kClay 10 (fun d x h => by cases d <;> cases h; rfl) (clay_shows n) (fun _ h => h)
  | 11 =>
    show Shows (Shown c PS 11) fun d => lift Data.kDependence (fun x n => dependence (D := Empty) c (fun _ _ _ => .ub) ((NE.elems x).map fun d => ⟨d, none, none⟩) n) d n
    refine go Data.kDependence (P := fun _ => True) 11 (fun d x h => by cases d <;> cases h; rfl) ?_ (fun _ _ => trivial)
    intro a b s t u v _ _ h1 h2 e
    have hn : ∀ (o : Option (NE Dep)) t, dependence (D := Empty) c (fun _ _ _ => .ub) ((NE.elems o).map fun d => ⟨d, none, none⟩) n = .ok t →
        o = none := by
      intro o t h
      cases o with
      | none => rfl
      | some x =>
        obtain ⟨⟨s, hs, _⟩, _⟩ := (dependence_ok_iff c _ _ n).mp ⟨t, h⟩ _ (List.mem_cons_self ..)
        cases hs
    have ea := hn a s h1
    have eb := hn b t h2
    subst ea; subst eb
    dsimp only at h1 h2
    rw [h1] at h2
    injection h2 with h2
    subst h2
    exact ⟨rfl, List.append_cancel_left e⟩
  | 12 =>
    show Shows (Shown c PS 12) fun d => lift Data.kSymbols sym d n
    exact go Data.kSymbols 12 (fun d x h => by cases d <;> cases h; rfl) (hs n) (fun _ h => h)
  | 13 =>
    show Shows (Shown c PS 13) fun d => lift Data.kExtbody (fun x n => .ok (extbody x n)) d n
    exact go Data.kExtbody 13 (fun d x h => by cases d <;> cases h; rfl) (extbody_shows n) (fun _ h => h)
  | 14 =>
    show Shows (Shown c PS 14) fun d => lift Data.kLoop (fun x n => loop (NE.elems x) n) d n
    exact go Data.kLoop 14 (fun d x h => by cases d <;> cases h; rfl) (elems_shows (loop_shows n)) (fun _ h => h)
  | 15 =>
    show Shows (Shown c PS 15) fun d => lift Data.kUnroll (fun x n => unroll (NE.elems x) n) d n
    exact go Data.kUnroll 15 (fun d x h => by cases d <;> cases h; rfl) (elems_shows (unroll_shows n)) (fun _ h => h)
  | 16 =>
    show Shows (Shown c PS 16) fun d => lift Data.kRegion (fun x n => region (NE.elems x) n) d n
    refine go Data.kRegion (P := fun _ => False) 16 (fun d x h => by cases d <;> cases h; rfl) ?_ (fun _ h => h)
    intro a b s t u v ha hb h1 h2 e
    cases a with
    | some a => exact (ha a rfl).elim
    | none =>
      cases b with
      | some b => exact (hb b rfl).elim
      | none =>
        dsimp only at h1 h2
        rw [h1] at h2
        injection h2 with h2
        subst h2
        exact ⟨rfl, List.append_cancel_left e⟩
  | 17 =>
    show Shows (Shown c PS 17) fun d => lift Data.kAnnotation annotation d n
    refine go Data.kAnnotation (P := fun _ => False) 17 (fun d x h => by cases d <;> cases h; rfl) ?_ (fun _ h => h)
    intro a b s t u v ha hb h1 h2 e
    cases a with
    | some a => exact (ha a rfl).elim
    | none => cases h1
  | k + 18 => exact ub_shows fun a t h => (by cases h)

end

/-- The data, with symbols nested at most `n` times, the display functions of the default registry can tell. -/
def ShownAt (c : Cfg) (reg : Ifaces) : (n : Nat) → Nat → Option (DataAt n) → Prop
  | 0 => Shown c fun _ => True
  | n + 1 => Shown c fun x : NE (Symbol (DataAt n)) => ∀ s ∈ NE.elems (some x), SymShown reg (ShownAt c reg n) s

/-- C70: the display functions of the default registry tell the data of the extensions. -/
theorem fnsAt_shows (c : Cfg) {reg : Ifaces} (hr : Registry reg) : ∀ n, FShows (fnsAt c n) (ShownAt c reg n) := by
  intro n
  induction n with
  | zero => exact fns_shows c fun n => ub_shows fun a t h => (by cases h)
  | succ n ih => exact fns_shows c fun k => elems_shows (symbols_shows hr ih k)

/-- C69: two lists of scops of the default registry displayed by the same text are equal. -/
theorem scop_dump_default_inj (c : Cfg) {reg : Ifaces} (hr : Registry reg) (n level : Nat) {a b : Scops (DataAt n)} {t : Str}
    (ha : ∀ s ∈ a, ScopShown c reg (ShownAt c reg n) s) (hb : ∀ s ∈ b, ScopShown c reg (ShownAt c reg n) s)
    (h1 : scop c (fnsAt c n) a level = .ok t) (h2 : scop c (fnsAt c n) b level = .ok t) : a = b :=
  (scop_shows (c := c) hr (fnsAt_shows c hr n) level).inj ha hb h1 h2

end Dump
end Osl
