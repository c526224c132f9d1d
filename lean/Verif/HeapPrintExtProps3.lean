import Verif.HeapPrintExtProps2
/-!
# Printing extensions in memory (C74): arrays, texts, lists
-/

set_option linter.unusedSectionVars false

namespace Osl.Mem

open Osl.Ext

variable [Allocator]

/-! ## Extbody, arrays -/

theorem map_get {α β : Type} {l : List α} {i : Nat} {a : α} (f : α → β) (h : l[i]? = some a) : (l.map f)[i]? = some (f a) := by
  rw [List.getElem?_map, h]
  rfl

/-- C74: `osl_extbody_sprint`. -/
theorem extbody_sprint_memory {p : Ptr} {d : Option Extbody} {t : Option Str} (h : Extbody.sprint d = .ok t) :
    Triple (optAt extbodyAt p d) (extbodySprint p) (fun q => optAt extbodyAt p d ∗ uriAt q t) := by
  unfold extbodySprint
  refine print_cases (g := Extbody.sprint) h (fun h => extbodyAt_ne _ h) rfl (fun x u hx => ?_) (fun x hx => ?_)
  · simp only [Extbody.sprint] at hx
    obtain ⟨us, h1, hx⟩ := Out.bind_eq_ok.mp hx
    obtain ⟨v, h2, hx⟩ := Out.bind_eq_ok.mp hx
    have hx := some_of_emit hx
    injection hx with hx
    subst hx
    hstep bufNew_spec
    hopen extbodyAt
    rename_i b0
    revert s l b
    intro ps pl pb
    hstep (getInt_spec (p := p) (i := 0) (x := (x.access.length : Int)) rfl)
    hstep bufCats_spec
    hstep bufCats_spec
    hstep (getPtr_spec (p := p) (i := 0) (x := ps) rfl)
    hstep (getPtr_spec (p := p) (i := 1) (x := pl) rfl)
    hstep (printLoop_spec (l := x.access) (g := Extbody.accPiece) (body := extbodyStep ps pl) (F := intsAt ps (x.access.map (·.1)) ∗ intsAt pl (x.access.map (·.2))) rfl
      (fun i a b t u hi hu => by
        unfold extbodyStep
        rw [Int.toNat_natCast]
        hstep (ints_get (a := ps) (map_get (·.1) hi))
        hstep (ints_get (a := pl) (map_get (·.2) hi))
        hlast (bufPrint_spec hu)
        hret) h1)
    hstep (getPtr_spec (p := p) (i := 2) (x := pb) rfl)
    hstep (body_sprint_memory h2)
    hstep bufTake_spec
    have e : (if (x.access.length : Int) ≠ 0 then ["# Access coordinates (start/length)\n".toList] else []) =
        (if x.access.length ≠ 0 then ["# Access coordinates (start/length)\n".toList] else []) := by
      by_cases h : x.access.length ≠ 0
      · rw [if_pos h, if_pos (by omega)]
      · rw [if_neg h, if_neg (by omega)]
    rw [e]
    simp only [List.flatten_cons, List.flatten_append, List.flatten_nil, List.append_nil, List.nil_append, List.append_assoc]
    hconv bufAt_text
    hret
  · simp only [Extbody.sprint] at hx
    obtain ⟨us, h1, hx⟩ := Out.bind_eq_ok.mp hx
    obtain ⟨v, h2, hx⟩ := Out.bind_eq_ok.mp hx
    have hx := some_of_emit hx
    cases hx

/-- C74: `osl_arrays_sprint`. -/
theorem arrays_sprint_memory {p : Ptr} {d : Option Arrays} {t : Option Str} (h : Arrays.sprint d = .ok t) :
    Triple (optAt arraysAt p d) (arraysSprint p) (fun q => optAt arraysAt p d ∗ uriAt q t) := by
  unfold arraysSprint
  refine print_cases (g := Arrays.sprint) h (fun h => arraysAt_ne _ h) rfl (fun x u hx => ?_) (fun x hx => ?_)
  · simp only [Arrays.sprint] at hx
    obtain ⟨us, h1, hx⟩ := Out.bind_eq_ok.mp hx
    have hx := some_of_emit hx
    injection hx with hx
    subst hx
    hstep bufNew_spec
    hopen arraysAt
    revert d a
    intro pd pa
    hstep (getInt_spec (p := p) (i := 0) (x := (x.pairs.length : Int)) rfl)
    hstep bufCats_spec
    hstep bufCats_spec
    hstep (getPtr_spec (p := p) (i := 0) (x := pd) rfl)
    hstep (getPtr_spec (p := p) (i := 1) (x := pa) rfl)
    hstep (printLoop_spec (l := x.pairs) (g := Arrays.piece) (body := arraysStep pd pa) (F := intsAt pd (x.pairs.map (·.1)) ∗ strsAt pa (x.pairs.map (·.2))) rfl
      (fun i a b t u hi hu => by
        unfold arraysStep
        rw [Int.toNat_natCast]
        hstep (ints_get (a := pd) (map_get (·.1) hi))
        hstep (loadWord_spec (a := pa) (map_get (·.2) hi))
        hlast (bufPrint_spec hu)
        hret) h1)
    hlast bufDone_spec
    have e : (if (x.pairs.length : Int) ≠ 0 then ["# Mapping array-identifiers/array-names\n".toList] else []) =
        (if x.pairs.length ≠ 0 then ["# Mapping array-identifiers/array-names\n".toList] else []) := by
      by_cases h : x.pairs.length ≠ 0
      · rw [if_pos h, if_pos (by omega)]
      · rw [if_neg h, if_neg (by omega)]
    rw [e]
    simp only [List.flatten_cons, List.flatten_append, List.flatten_nil, List.append_nil, List.nil_append, List.append_assoc]
    hret
  · simp only [Arrays.sprint] at hx
    obtain ⟨us, h1, hx⟩ := Out.bind_eq_ok.mp hx
    have hx := some_of_emit hx
    cases hx

/-! ## Texts -/

theorem mapOut_flatten {α β : Type} {f : α → Out (List (List β))} {l : List α} {us : List (List (List β))} (h : Out.mapOut f l = .ok us) :
    Out.mapOut (fun a => f a >>= fun l => .ok l.flatten) l = .ok (us.map List.flatten) := by
  induction l generalizing us with
  | nil => cases h; rfl
  | cons a x ih =>
    obtain ⟨u, us1, e1, e2, rfl⟩ := Out.mapOut_cons_eq_ok.mp h
    refine Out.mapOut_cons_eq_ok.mpr ⟨u.flatten, us1.map List.flatten, ?_, ih e2, rfl⟩
    rw [e1]
    rfl

theorem flatten_map_flatten {β : Type} (us : List (List (List β))) : (us.map List.flatten).flatten = us.flatten.flatten := by
  induction us with
  | nil => rfl
  | cons a us ih => simp [ih]

theorem textSprint_spec {p : Ptr} {is : List Int} {l : List Ptr} {k : Nat} {r : TextRec} {x : Lines} (h0 : nth is k = .ok r.count) (h1 : nth l (2 * k : Nat) = .ok r.types)
    (h2 : nth l (2 * k + 1 : Nat) = .ok r.lines) {name : Str} {ps : List Str} (h : Lines.pieces name x = .ok ps) {b : StrBuf} {t : Str} :
    Triple (p ↦ .node is l ∗ textAt r x ∗ bufAt b t) (textSprint p k name b) (fun b' => p ↦ .node is l ∗ textAt r x ∗ bufAt b' (t ++ ps.flatten)) := by
  unfold Lines.pieces at h
  obtain ⟨v1, g1, h⟩ := Out.bind_eq_ok.mp h
  obtain ⟨v2, g2, h⟩ := Out.bind_eq_ok.mp h
  obtain ⟨v3, g3, h⟩ := Out.bind_eq_ok.mp h
  obtain ⟨us, g4, h⟩ := Out.bind_eq_ok.mp h
  cases h
  have g5 := mapOut_flatten g4
  obtain ⟨cnt, ty, li⟩ := r
  unfold textSprint
  hopen textAt
  rename_i hc
  change cnt = _ at hc
  subst hc
  hstep (getText_spec (p := p) (k := k) h0 h1 h2)
  dsimp only
  hstep (bufPrint_spec g1)
  hstep (bufPrint_spec g2)
  hstep (bufPrint_spec g3)
  hlast (printLoop_spec (l := x) (body := textStep ⟨(x.length : Int), ty, li⟩) (F := intsAt ty (x.map (·.1)) ∗ strsAt li (x.map (·.2))) rfl
    (fun i a b t u hi hu => by
      obtain ⟨lp, e1, hu⟩ := Out.bind_eq_ok.mp hu
      cases hu
      unfold Lines.linePieces at e1
      obtain ⟨w1, f1, e1⟩ := Out.bind_eq_ok.mp e1
      obtain ⟨w2, f2, e1⟩ := Out.bind_eq_ok.mp e1
      cases e1
      unfold textStep
      rw [Int.toNat_natCast]
      dsimp only
      hstep (ints_get (a := ty) (map_get (·.1) hi))
      hstep (bufPrint_spec f1)
      hstep (loadWord_spec (a := li) (map_get (·.2) hi))
      hlast (bufPrint_spec f2)
      simp only [List.flatten_cons, List.flatten_nil, List.append_nil, List.append_assoc]
      hret) g5)
  rw [flatten_map_flatten]
  simp only [List.flatten_cons, List.flatten_append, List.flatten_nil, List.append_nil, List.append_assoc]
  hret

end Osl.Mem
