import Verif.HeapPrintTopProps
/-!
# Printing scops in memory (C74): the parameters, the scops
-/

set_option linter.unusedSectionVars false

namespace Osl.Mem

open Osl.Ext

variable [Allocator] {D : Type}

/-! ## Generics at known places -/

section

variable {E : Env D} {O : DataMem D E}

/-- A generic, the places of its interface and of its data being known. -/
def genPinAt (O : DataMem D E) (p : Ptr) (g : Generic D × Ptr × Ptr) (n : Ptr) : Assn := p ↦ .ptrs [g.2.1, g.2.2, n] ∗ contentAt O g.2.1 g.2.2 g.1

/-- The chain of these generics. -/
def pinChain (O : DataMem D E) : Chain (Generic D × Ptr × Ptr) where
  toNext := genNext
  at_ := genPinAt O
  nonnull := fun hh => pto_ne_sep _ hh
  own := fun hh => own_pto hh
  big := fun p e n => (Big.pto _ _).sep (Big.zero _)
  get_spec := by
    intro p g n
    refine Triple.last (F := contentAt O g.2.1 g.2.2 g.1) (getField_spec (l := [g.2.1, g.2.2, n]) (x := n) rfl) rfl (fun r h hh => ?_)
    rw [sep_assoc] at hh
    exact hh
  set_spec := by
    intro p g n n'
    exact Triple.last (F := contentAt O g.2.1 g.2.2 g.1) (setField_spec (l' := [g.2.1, g.2.2, n']) rfl) rfl (fun _ h hh => hh)

theorem glist_pin : ∀ {l : GList D} {p : Ptr} {h : PHeap}, glistAt O p l h → ∃ m, m.map (·.1) = l ∧ (pinChain O).list p m h
  | [], p, h, hh => ⟨[], rfl, hh⟩
  | g :: l, p, h, hh => by
    have hh : (genChain O).list p (g :: l) h := hh
    rw [Chain.list_cons] at hh
    obtain ⟨n, h1, h2, hd, rfl, ⟨x, y, hg⟩, hl⟩ := hh
    obtain ⟨m, hm, hk⟩ := glist_pin (l := l) (p := n) hl
    refine ⟨(g, x, y) :: m, by rw [List.map_cons, hm], ?_⟩
    rw [Chain.list_cons]
    exact ⟨n, h1, h2, hd, rfl, hg, hk⟩

theorem glist_unpin : ∀ {m : List (Generic D × Ptr × Ptr)} {p : Ptr} {h : PHeap}, (pinChain O).list p m h → glistAt O p (m.map (·.1)) h
  | [], p, h, hh => hh
  | g :: m, p, h, hh => by
    rw [Chain.list_cons] at hh
    obtain ⟨n, h1, h2, hd, rfl, hg, hl⟩ := hh
    show (genChain O).list p (g.1 :: m.map (·.1)) _
    rw [Chain.list_cons]
    exact ⟨n, h1, h2, hd, rfl, ⟨g.2.1, g.2.2, hg⟩, glist_unpin hl⟩

theorem foldText_map {α β : Type} {f : α → β} {g : Nat → β → Bool → Out Str} : ∀ {l : List α} {k : Nat}, foldText g k (l.map f) = foldText (fun k a => g k (f a)) k l
  | [], _ => rfl
  | a :: l, k => by
    simp only [List.map_cons, foldText]
    rw [foldText_map]
    have : (l.map f).isEmpty = l.isEmpty := by cases l <;> rfl
    rw [this]

theorem genSprintStep_pin (R : DataPrint O) {p n : Ptr} {g : Generic D × Ptr × Ptr} (hg : ∀ x, g.1.data = some x → R.good x) {b : StrBuf} {t : Str} {ps : List Str}
    (h : GList.pieces E g.1 = .ok ps) : Triple (genPinAt O p g n ∗ bufAt b t) (genSprintStep R.sprint p b)
      (fun b' => genPinAt O p g n ∗ bufAt b' (t ++ (ps.flatten ++ (if n = 0 then [] else ['\n'])))) := by
  unfold genSprintStep genPinAt
  hstep (getField_spec (p := p) (i := 0) (x := g.2.1) rfl)
  hstep (getField_spec (p := p) (i := 1) (x := g.2.2) rfl)
  hstep (genContent_spec R (x := g.2.1) (y := g.2.2) hg h)
  hstep (getField_spec (p := p) (i := 2) (x := n) rfl)
  hlast bufCats_spec
  have e : (if n ≠ 0 then [['\n']] else []).flatten = (if n = 0 then [] else ['\n']) := by
    by_cases h : n = 0
    · rw [if_pos h, if_neg (by simpa using h)]
      rfl
    · rw [if_neg h, if_pos h]
      rfl
  rw [e, List.append_assoc]
  hret

/-- `osl_generic_print`, the generics being kept at their places. -/
theorem generic_print_pin (R : DataPrint O) {p : Ptr} {m : List (Generic D × Ptr × Ptr)} (hl : goodList R.good (m.map (·.1))) {t : Str} (h : GList.sprint E (m.map (·.1)) = .ok t) :
    Triple ((pinChain O).list p m) (genPrint R.sprint p) (fun s => pur (s = t) ∗ (pinChain O).list p m) := by
  unfold GList.sprint at h
  obtain ⟨ps, h1, h⟩ := Out.bind_eq_ok.mp h
  have h := emit_ok h
  subst h
  unfold genPrint
  have hs : Triple ((pinChain O).list p m) (genSprint R.sprint p) (fun q => (pinChain O).list p m ∗ q ↦ .chars ps.flatten) := by
    unfold genSprint
    hstep bufNew_spec
    have hf := generic_fold (k := 0) h1
    rw [foldText_map] at hf
    hstep (walkPlain_spec (N := pinChain O) (act := genSprintStep R.sprint) (p := p) (fun g hg p n k b t u hu => by
      obtain ⟨us, h3, hu⟩ := Out.bind_eq_ok.mp hu
      cases hu
      have := genSprintStep_pin R (p := p) (n := n) (b := b) (t := t) (hl g.1 (List.mem_map_of_mem hg)) h3
      simp only [decide_eq_true_eq]
      exact this) hf)
    hconv bufAt_text
    rw [List.nil_append]
    hret
  hstep hs
  hlast writeFree_spec
  hret

theorem gen_is_pin {p n : Ptr} {g : Generic D × Ptr × Ptr} {t : Str} : Query (genPinAt O p g n) (genIs t p) (GList.has_URI g.1 t) :=
  (generic_has_uri_query (O := O) (p := p) (n := n)).mono (fun h hh => sep_anything (show genAt O p g.1 n h from ⟨g.2.1, g.2.2, hh⟩))

theorem genListIs_pin {p : Ptr} {m : List (Generic D × Ptr × Ptr)} {t : Str} : Query ((pinChain O).list p m) (genListIs t p) (Scops.hasURI (m.map (·.1)) t) := by
  unfold genListIs
  cases m with
  | nil =>
    refine Query.of_fact (φ := p = 0) (fun h hh => hh.1) (fun hp => ?_)
    rw [if_pos hp]
    exact Query.ret _
  | cons g m =>
    refine Query.of_fact (φ := p ≠ 0) (fun h hh => Chain.list_cons_ne hh) (fun hp => ?_)
    rw [if_neg hp, Chain.list_cons]
    refine Query.ex (fun n => ?_)
    exact gen_is_pin.left

end

/-! ## Names -/

theorem pinSet_comm {v : Nat → Ptr} {x y : Ptr} : pinSet (pinSet v 0 x) 4 y = pinSet (pinSet v 4 y) 0 x := by
  funext i
  unfold pinSet
  by_cases h : i = 0
  · subst h
    simp
  · by_cases h4 : i = 4
    · subst h4
      simp
    · simp [h, h4]

theorem namesSwap_params {v : Nat → Ptr} {q y : Ptr} {nm : Names} {s : Option Strings} : Triple (namesPin v q nm ∗ stringsAt y s) (namesSwap q 0 y)
    (fun b => pur (b = v 0) ∗ namesPin (pinSet v 0 y) q { nm with parameters := s } ∗ stringsAt (v 0) nm.parameters) := by
  unfold namesSwap namesPin
  hstep (getField_spec (p := q) (i := 0) (x := v 0) rfl)
  hstep (setField_spec (p := q) (i := 0) (x := y) (l' := [y, v 1, v 2, v 3, v 4]) rfl)
  have e0 : pinSet v 0 y 0 = y := rfl
  have e1 : pinSet v 0 y 1 = v 1 := rfl
  have e2 : pinSet v 0 y 2 = v 2 := rfl
  have e3 : pinSet v 0 y 3 = v 3 := rfl
  have e4 : pinSet v 0 y 4 = v 4 := rfl
  simp only [e0, e1, e2, e3, e4]
  hret

theorem namesBack_params {v : Nat → Ptr} {q y : Ptr} {nm : Names} {s : Option Strings} :
    Triple (namesPin (pinSet v 0 y) q { nm with parameters := s } ∗ stringsAt (v 0) nm.parameters) (setField q 0 (v 0)) (fun _ => namesPin v q nm ∗ stringsAt y s) := by
  unfold namesPin
  have e0 : pinSet v 0 y 0 = y := rfl
  have e1 : pinSet v 0 y 1 = v 1 := rfl
  have e2 : pinSet v 0 y 2 = v 2 := rfl
  have e3 : pinSet v 0 y 3 = v 3 := rfl
  have e4 : pinSet v 0 y 4 = v 4 := rfl
  simp only [e0, e1, e2, e3, e4]
  hlast (setField_spec (p := q) (i := 0) (x := v 0) (l' := [v 0, v 1, v 2, v 3, v 4]) rfl)
  hret

theorem namesSwap_arrays {v : Nat → Ptr} {q y : Ptr} {nm : Names} {s : Option Strings} : Triple (namesPin v q nm ∗ stringsAt y s) (namesSwap q 4 y)
    (fun b => pur (b = v 4) ∗ namesPin (pinSet v 4 y) q { nm with arrays := s } ∗ stringsAt (v 4) nm.arrays) := by
  unfold namesSwap namesPin
  hstep (getField_spec (p := q) (i := 4) (x := v 4) rfl)
  hstep (setField_spec (p := q) (i := 4) (x := y) (l' := [v 0, v 1, v 2, v 3, y]) rfl)
  have e0 : pinSet v 4 y 0 = v 0 := rfl
  have e1 : pinSet v 4 y 1 = v 1 := rfl
  have e2 : pinSet v 4 y 2 = v 2 := rfl
  have e3 : pinSet v 4 y 3 = v 3 := rfl
  have e4 : pinSet v 4 y 4 = y := rfl
  simp only [e0, e1, e2, e3, e4]
  hret

theorem scopRestoreArrays_spec {v : Nat → Ptr} {q y a : Ptr} {nm : Names} {s : Option Strings} (ha : a ≠ 0) :
    Triple (namesPin (pinSet v 4 y) q { nm with arrays := s } ∗ stringsAt (v 4) nm.arrays) (scopRestoreArrays q a (v 4)) (fun _ => namesPin v q nm) := by
  unfold scopRestoreArrays
  rw [if_pos ha]
  unfold namesPin
  have e0 : pinSet v 4 y 0 = v 0 := rfl
  have e1 : pinSet v 4 y 1 = v 1 := rfl
  have e2 : pinSet v 4 y 2 = v 2 := rfl
  have e3 : pinSet v 4 y 3 = v 3 := rfl
  have e4 : pinSet v 4 y 4 = y := rfl
  simp only [e0, e1, e2, e3, e4]
  hstep (getField_spec (p := q) (i := 4) (x := y) rfl)
  hstep (strings_free_memory y s)
  hlast (setField_spec (p := q) (i := 4) (x := v 4) (l' := [v 0, v 1, v 2, v 3, v 4]) rfl)
  hret

end Osl.Mem
