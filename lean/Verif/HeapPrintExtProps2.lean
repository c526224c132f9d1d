import Verif.HeapPrintExtProps
/-!
# Printing extensions in memory (C74): one structure
-/

set_option linter.unusedSectionVars false

namespace Osl.Mem

open Osl.Ext

variable [Allocator]

/-- The function `sprint` of a kind of data, on the data which satisfy `good`: it allocates exactly its result. -/
structure KindPrint {X : Type} {o : Ops X} (K : KindMem X o) (good : X → Prop) where
  sprint : Ptr → M Ptr
  spec : ∀ {p d t}, (∀ x, d = some x → good x) → o.sprint d = .ok t → Triple (optAt K.at_ p d) (sprint p) (fun q => optAt K.at_ p d ∗ uriAt q t)

/-- How to prove the specification of a printer which gives NULL for NULL. -/
theorem print_cases {X : Type} {f : Ptr → X → Assn} {p : Ptr} {d : Option X} {t : Option Str} {m : M Ptr} {g : Option X → Out (Option Str)} (hd : g d = .ok t)
    (hne : ∀ {p x h}, f p x h → p ≠ 0) (h0 : g none = .ok none) (h : ∀ x u, g (some x) = .ok (some u) → Triple (f p x) m (fun q => f p x ∗ q ↦ .chars u))
    (hs : ∀ x, g (some x) ≠ .ok none) : Triple (optAt f p d) (if p ≠ 0 then m else pure 0) (fun q => optAt f p d ∗ uriAt q t) := by
  cases d with
  | none =>
    rw [h0] at hd
    cases hd
    refine Triple.fact1 (fun hp => ?_)
    subst hp
    rw [if_neg (by simp)]
    refine Triple.ret (fun h hh => ?_)
    simp only [optAt_none, uriAt, pur_true, emp_sep]
    exact hh
  | some x =>
    refine Triple.of_fact (P := f p x) (fun h hh => hne hh) (fun hp => ?_)
    rw [if_pos hp]
    cases t with
    | none => exact absurd hd (hs x)
    | some u => exact h x u hd

/-- The shape of most printers. -/
theorem some_of_emit {l : List Str} {t : Option Str} (h : (Util.emit l >>= fun r => Out.ok (some r)) = .ok t) : t = some l.flatten := by
  obtain ⟨r, h1, h⟩ := Out.bind_eq_ok.mp h
  cases h
  rw [emit_ok h1]

/-! ## One string -/

theorem stringSprint_spec {p : Ptr} {o : Option Str} {w t : Str} (hw : str o = .ok w) (hb : buf w = .ok t) :
    Triple (stringFieldAt p o) (do
      let b ← bufNew
      let s ← getField p 0
      let w ← loadChars s
      let b ← bufPrint b w
      bufDone b) (fun q => stringFieldAt p o ∗ q ↦ .chars t) := by
  cases o with
  | none => cases hw
  | some w' =>
    cases hw
    hstep bufNew_spec
    hopen stringFieldAt
    hstep (getField_spec (p := p) (i := 0) (x := s) rfl)
    simp only [uriAt]
    hstep (loadChars_spec (p := s) (w := w))
    hstep (bufPrint_spec hb)
    hlast bufDone_spec
    refine Triple.ret (fun h hh => sep_mono (P := p ↦ .ptrs [s] ∗ s ↦ .chars w) (fun _ hx => ⟨s, hx⟩) (fun _ h => h) ?_)
    rw [List.nil_append] at hh
    exact hh.perm (by ac_rfl)

/-- C74: `osl_comment_sprint`. -/
theorem comment_sprint_memory {p : Ptr} {d : Option Comment} {t : Option Str} (h : Comment.sprint d = .ok t) :
    Triple (optAt (fun p (x : Comment) => stringFieldAt p x.comment) p d) (stringSprint p) (fun q => optAt (fun p (x : Comment) => stringFieldAt p x.comment) p d ∗ uriAt q t) := by
  unfold stringSprint
  refine print_cases (g := Comment.sprint) h (fun h => stringFieldAt_ne _ h) rfl (fun x u hx => ?_) (fun x hx => ?_)
  · simp only [Comment.sprint] at hx
    obtain ⟨w, h1, hx⟩ := Out.bind_eq_ok.mp hx
    obtain ⟨v, h2, hx⟩ := Out.bind_eq_ok.mp hx
    have hx := some_of_emit hx
    injection hx with hx
    rw [List.flatten_cons, List.flatten_nil, List.append_nil] at hx
    subst hx
    exact stringSprint_spec h1 h2
  · simp only [Comment.sprint] at hx
    obtain ⟨w, h1, hx⟩ := Out.bind_eq_ok.mp hx
    obtain ⟨v, h2, hx⟩ := Out.bind_eq_ok.mp hx
    have hx := some_of_emit hx
    cases hx

/-- C74: `osl_clay_sprint`. -/
theorem clay_sprint_memory {p : Ptr} {d : Option Clay} {t : Option Str} (h : Clay.sprint d = .ok t) :
    Triple (optAt (fun p (x : Clay) => stringFieldAt p x.script) p d) (stringSprint p) (fun q => optAt (fun p (x : Clay) => stringFieldAt p x.script) p d ∗ uriAt q t) := by
  unfold stringSprint
  refine print_cases (g := Clay.sprint) h (fun h => stringFieldAt_ne _ h) rfl (fun x u hx => ?_) (fun x hx => ?_)
  · simp only [Clay.sprint] at hx
    obtain ⟨w, h1, hx⟩ := Out.bind_eq_ok.mp hx
    obtain ⟨v, h2, hx⟩ := Out.bind_eq_ok.mp hx
    have hx := some_of_emit hx
    injection hx with hx
    rw [List.flatten_cons, List.flatten_nil, List.append_nil] at hx
    subst hx
    exact stringSprint_spec h1 h2
  · simp only [Clay.sprint] at hx
    obtain ⟨w, h1, hx⟩ := Out.bind_eq_ok.mp hx
    obtain ⟨v, h2, hx⟩ := Out.bind_eq_ok.mp hx
    have hx := some_of_emit hx
    cases hx

/-- C74: `osl_textual_sprint`. -/
theorem textual_sprint_memory {p : Ptr} {d : Option Textual} {t : Option Str} (h : Textual.sprint d = .ok t) :
    Triple (optAt (fun p (x : Textual) => stringFieldAt p x.textual) p d) (textualSprint p) (fun q => optAt (fun p (x : Textual) => stringFieldAt p x.textual) p d ∗ uriAt q t) := by
  cases h
  refine Triple.ret (fun h hh => ?_)
  rw [uriAt, pur_true rfl, sep_emp]
  exact hh

/-- C74: `osl_null_sprint`. -/
theorem null_sprint_memory {p : Ptr} {d : Option Null} {t : Option Str} (h : Null.sprint d = .ok t) :
    Triple (optAt (fun p (_ : Null) => p ↦ .ptrs []) p d) (nullSprint p) (fun q => optAt (fun p (_ : Null) => p ↦ .ptrs []) p d ∗ uriAt q t) := by
  unfold nullSprint
  refine print_cases (g := Null.sprint) h (fun h => pto_ne _ h) rfl (fun x u hx => ?_) (fun x hx => ?_)
  · cases hx
    hlast Triple.alloc
    hret
  · cases hx

/-! ## Coordinates -/

/-- C74: `osl_coordinates_sprint`. -/
theorem coordinates_sprint_memory {p : Ptr} {d : Option Coordinates} {t : Option Str} (h : Coordinates.sprint d = .ok t) :
    Triple (optAt coordAt p d) (coordSprint p) (fun q => optAt coordAt p d ∗ uriAt q t) := by
  unfold coordSprint
  refine print_cases (g := Coordinates.sprint) h (fun h => coordAt_ne _ h) rfl (fun x u hx => ?_) (fun x hx => ?_)
  · simp only [Coordinates.sprint] at hx
    obtain ⟨w, h0, hx⟩ := Out.bind_eq_ok.mp hx
    obtain ⟨v1, h1, hx⟩ := Out.bind_eq_ok.mp hx
    obtain ⟨v2, h2, hx⟩ := Out.bind_eq_ok.mp hx
    obtain ⟨v3, h3, hx⟩ := Out.bind_eq_ok.mp hx
    obtain ⟨v4, h4, hx⟩ := Out.bind_eq_ok.mp hx
    have hx := some_of_emit hx
    injection hx with hx
    subst hx
    hstep bufNew_spec
    hopen coordAt
    hstep (getPtr_spec (p := p) (i := 0) (x := s) rfl)
    cases hn : x.name with
    | none => rw [hn] at h0; cases h0
    | some w' =>
      rw [hn] at h0
      cases h0
      simp only [uriAt]
      hstep (loadChars_spec (p := s) (w := w))
      hstep (bufPrint_spec h1)
      hstep (getInt_spec (p := p) (i := 0) (x := x.line_start) rfl)
      hstep (getInt_spec (p := p) (i := 2) (x := x.column_start) rfl)
      hstep (bufPrint_spec h2)
      hstep (getInt_spec (p := p) (i := 1) (x := x.line_end) rfl)
      hstep (getInt_spec (p := p) (i := 3) (x := x.column_end) rfl)
      hstep (bufPrint_spec h3)
      hstep (getInt_spec (p := p) (i := 4) (x := x.indent) rfl)
      hstep (bufPrint_spec h4)
      hlast bufDone_spec
      simp only [List.flatten_cons, List.flatten_nil, List.append_nil, List.nil_append, List.append_assoc]
      unfold coordAt
      rw [hn]
      refine Triple.ret (fun h hh => sep_mono (P := p ↦ .node [x.line_start, x.line_end, x.column_start, x.column_end, x.indent] [s] ∗ uriAt s (some w)) (fun _ hx => ⟨s, hx⟩) (fun _ h => h) ?_)
      exact hh.perm (by simp only [uriAt]; ac_rfl)
  · simp only [Coordinates.sprint] at hx
    obtain ⟨w, h0, hx⟩ := Out.bind_eq_ok.mp hx
    obtain ⟨v1, h1, hx⟩ := Out.bind_eq_ok.mp hx
    obtain ⟨v2, h2, hx⟩ := Out.bind_eq_ok.mp hx
    obtain ⟨v3, h3, hx⟩ := Out.bind_eq_ok.mp hx
    obtain ⟨v4, h4, hx⟩ := Out.bind_eq_ok.mp hx
    have hx := some_of_emit hx
    cases hx

/-! ## Scatnames, scatinfos -/

/-- C74: `osl_scatnames_sprint`. -/
theorem scatnames_sprint_memory {p : Ptr} {d : Option Scatnames} {t : Option Str} (h : Scatnames.sprint d = .ok t) :
    Triple (optAt scatnamesAt p d) (scatnamesSprint p) (fun q => optAt scatnamesAt p d ∗ uriAt q t) := by
  cases d with
  | none => cases h
  | some x =>
    simp only [Scatnames.sprint] at h
    obtain ⟨u, h1, h⟩ := Out.bind_eq_ok.mp h
    cases h
    simp only [optAt_some, uriAt]
    unfold scatnamesSprint
    hopen scatnamesAt
    hstep (getField_spec (p := p) (i := 0) (x := s) rfl)
    hlast (strings_sprint_memory h1)
    hret

/-- The memory of one of the arrays of `osl_scatinfos_sprint`: its title, its elements. -/
theorem scatinfosRow_spec {p a : Ptr} {ps : List Ptr} {l : List Int} {n k : Nat} (hk : nth ps k = .ok a) (hn : n = l.length) {title : Str} {b : StrBuf} {t : Str} :
    Triple (p ↦ .node [(n : Int)] ps ∗ intsAt a l ∗ bufAt b t) (scatinfosRow p k title b)
      (fun b' => p ↦ .node [(n : Int)] ps ∗ intsAt a l ∗ bufAt b' (t ++ ((if n > 0 then [title] else []).flatten ++ Scatinfos.row l))) := by
  unfold scatinfosRow
  hstep (getInt_spec (p := p) (i := 0) (x := (n : Int)) rfl)
  have e : (if (n : Int) > 0 then [title] else []) = (if n > 0 then [title] else []) := by
    by_cases h : n > 0
    · rw [if_pos h, if_pos (by omega)]
    · rw [if_neg h, if_neg (by omega)]
  rw [e]
  hstep bufCats_spec
  hstep (getPtr_spec (p := p) hk)
  hlast (printInts_spec (l := l) (n := (n : Int)) (by omega))
  rw [List.append_assoc]
  unfold Scatinfos.row
  hret

/-- C74: `osl_scatinfos_sprint`. -/
theorem scatinfos_sprint_memory {p : Ptr} {d : Option Scatinfos} {t : Option Str} (h : Scatinfos.sprint d = .ok t) :
    Triple (optAt scatinfosAt p d) (scatinfosSprint p) (fun q => optAt scatinfosAt p d ∗ uriAt q t) := by
  unfold scatinfosSprint
  refine print_cases (g := Scatinfos.sprint) h (fun h => scatinfosAt_ne _ h) rfl (fun x u hx => ?_) (fun x hx => ?_)
  · simp only [Scatinfos.sprint] at hx
    have hx := some_of_emit hx
    injection hx with hx
    subst hx
    hstep bufNew_spec
    refine Triple.pre (P := scatinfosAt p x ∗ bufAt b []) ?_ (fun h hh => hh.perm (by ac_rfl))
    unfold scatinfosAt
    rw [ex_sep]
    refine Triple.exi (fun pa => ?_)
    rw [ex_sep]
    refine Triple.exi (fun pb => ?_)
    rw [ex_sep]
    refine Triple.exi (fun pt => ?_)
    rw [sep_assoc]
    refine Triple.fact (fun hz => ?_)
    hstep (getInt_spec (p := p) (i := 0) (x := (x.parallel.length : Int)) rfl)
    hstep bufCats_spec
    hstep (scatinfosRow_spec (p := p) (a := pa) (k := 0) (n := x.parallel.length) (l := x.parallel) rfl rfl)
    hstep (scatinfosRow_spec (p := p) (a := pb) (k := 1) (n := x.parallel.length) (l := x.permutable) rfl hz.1.symm)
    hstep (scatinfosRow_spec (p := p) (a := pt) (k := 2) (n := x.parallel.length) (l := x.type) rfl hz.2.symm)
    hstep bufCats_spec
    hlast bufDone_spec
    have e : (if (x.parallel.length : Int) > 0 then ["\n".toList] else []) = (if x.parallel.length > 0 then ["\n".toList] else []) := by
      by_cases h : x.parallel.length > 0
      · rw [if_pos h, if_pos (by omega)]
      · rw [if_neg h, if_neg (by omega)]
    rw [e]
    simp only [List.flatten_cons, List.flatten_append, List.flatten_nil, List.append_nil, List.nil_append, List.append_assoc]
    refine Triple.ret (fun h hh => ?_)
    refine sep_mono (P := p ↦ .node [(x.parallel.length : Int)] [pa, pb, pt] ∗ intsAt pa x.parallel ∗ intsAt pb x.permutable ∗ intsAt pt x.type)
      (fun _ hx => ⟨pa, pb, pt, pur_sep_iff.mpr ⟨hz, hx⟩⟩) (fun _ h => h) ?_
    exact hh.perm (by simp only [showInt]; ac_rfl)
  · simp only [Scatinfos.sprint] at hx
    have hx := some_of_emit hx
    cases hx

end Osl.Mem
