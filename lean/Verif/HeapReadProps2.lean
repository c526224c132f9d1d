import Verif.HeapReadProps
/-!
# The readers in memory: the extensions without lists (C72)
-/

set_option linter.unusedSectionVars false

namespace Osl.Mem

open Osl.Ext

variable [Allocator]

/-- `osl_strings_sread` (source/strings.c:185-238) as a function of the interface: NULL is dereferenced. -/
def strSreadI : Option Str → M (Ptr × Option Str)
  | none => undef
  | some s => strSread s

/-- `osl_body_sread` (source/body.c:239-265) as a function of the interface: NULL is dereferenced. -/
def bodySreadI : Option Str → M (Ptr × Option Str)
  | none => undef
  | some s => do
    let r ← bodySread s
    pure (r.1, some r.2)

/-- The strings (source/strings.c:185-238). -/
def stringsRead : KindRead stringsMem where
  sread := strSreadI
  lost := fun _ => []
  spec := fun {s d pos} h => by
    cases s with
    | none => cases h
    | some s =>
      refine got_lost (A := fun p => optAt stringsMem.at_ p d) ?_
      show Triple emp (strSread s) (got p, pos in optAt (fun p s => stringsAt p (some s)) p d)
      simp only [optAt_strings]
      exact strings_sread_memory h

/-- The body (source/body.c:239-265). -/
def bodyRead : KindRead bodyMem where
  sread := bodySreadI
  lost := fun _ => []
  spec := fun {s d pos} h => by
    cases s with
    | none => cases h
    | some s =>
      obtain ⟨⟨d', t⟩, h1, h⟩ := Out.bind_eq_ok.mp h
      injection h with h
      injection h with h2 h3
      subst h2 h3
      refine got_lost (A := fun p => optAt bodyMem.at_ p d') ?_
      simp only [bodySreadI]
      hstep (body_sread_memory h1)
      show Triple _ _ (got p, some t in optAt bodyAt p d')
      hret

/-- C72: `osl_textual_sread` allocates exactly the textual. -/
theorem textual_sread_memory {s pos : Option Str} {d : Option Textual} (h : Textual.sread s = .ok (d, pos)) :
    Triple emp (textualSread s) (got p, pos in optAt (fun p x => stringFieldAt p x.textual) p d) := by
  cases s with
  | none =>
    cases h
    exact Triple.ret (fun h hh => ⟨0, pur_sep_iff.mpr ⟨rfl, rfl, hh⟩⟩)
  | some s =>
    cases h
    simp only [textualSread, stringMalloc]
    hstep Triple.alloc
    hstep Triple.alloc
    hstep setField_spec
    refine Triple.ret (fun h hh => ⟨t, pur_sep_iff.mpr ⟨rfl, d, ?_⟩⟩)
    show (t ↦ .ptrs [d] ∗ d ↦ .chars s) h
    exact hh

/-- C72: `osl_comment_sread` allocates exactly the comment. -/
theorem comment_sread_memory {s pos : Option Str} {d : Option Comment} (h : Comment.sread s = .ok (d, pos)) :
    Triple emp (commentSread s) (got p, pos in optAt (fun p x => stringFieldAt p x.comment) p d) := by
  cases s with
  | none =>
    cases h
    exact Triple.ret (fun h hh => ⟨0, pur_sep_iff.mpr ⟨rfl, rfl, hh⟩⟩)
  | some s =>
    simp only [Comment.sread] at h
    simp only [commentSread, stringMalloc]
    split at h
    · cases h
    rename_i hl
    rw [if_neg hl]
    cases h
    hstep Triple.alloc
    hstep Triple.alloc
    hstep setField_spec
    refine Triple.ret (fun h hh => ⟨t, pur_sep_iff.mpr ⟨rfl, d, ?_⟩⟩)
    show (t ↦ .ptrs [d] ∗ d ↦ .chars s) h
    exact hh

/-- C72: `osl_clay_sread` allocates exactly the script. -/
theorem clay_sread_memory {s pos : Option Str} {d : Option Clay} (h : Clay.sread s = .ok (d, pos)) :
    Triple emp (claySread s) (got p, pos in optAt (fun p x => stringFieldAt p x.script) p d) := by
  cases s with
  | none =>
    cases h
    exact Triple.ret (fun h hh => ⟨0, pur_sep_iff.mpr ⟨rfl, rfl, hh⟩⟩)
  | some s =>
    simp only [Clay.sread] at h
    simp only [claySread, stringMalloc]
    split at h
    · cases h
    rename_i hl
    rw [if_neg hl]
    cases h
    hstep Triple.alloc
    hstep Triple.alloc
    hstep setField_spec
    refine Triple.ret (fun h hh => ⟨t, pur_sep_iff.mpr ⟨rfl, d, ?_⟩⟩)
    show (t ↦ .ptrs [d] ∗ d ↦ .chars (s.dropWhile (fun c => c == '\n'))) h
    exact hh

/-- C72: `osl_null_sread` allocates exactly the structure. -/
theorem null_sread_memory {s pos : Option Str} {d : Option Null} (h : Null.sread s = .ok (d, pos)) :
    Triple emp (nullSread s) (got p, pos in optAt (fun p _ => p ↦ .ptrs []) p d) := by
  cases s with
  | none =>
    cases h
    exact Triple.ret (fun h hh => ⟨0, pur_sep_iff.mpr ⟨rfl, rfl, hh⟩⟩)
  | some s =>
    cases h
    simp only [nullSread, nullMalloc]
    hstep Triple.alloc
    exact Triple.ret (fun h hh => ⟨p, pur_sep_iff.mpr ⟨rfl, hh⟩⟩)

/-- C72: `osl_coordinates_sread` allocates exactly the coordinates. -/
theorem coordinates_sread_memory {s pos : Option Str} {d : Option Coordinates} (h : Coordinates.sread s = .ok (d, pos)) :
    Triple emp (coordSread s) (got p, pos in optAt coordAt p d) := by
  cases s with
  | none =>
    cases h
    exact Triple.ret (fun h hh => ⟨0, pur_sep_iff.mpr ⟨rfl, rfl, hh⟩⟩)
  | some s =>
    simp only [Coordinates.sread] at h
    simp only [coordSread, coordMalloc]
    obtain ⟨⟨w, t⟩, h1, h⟩ := Out.bind_eq_ok.mp h
    hstep Triple.alloc
    hstep (read_line_memory h1)
    hstep setPtr_spec
    hread a, h2, h
    hstep setInt_spec
    hread b, h3, h
    hstep setInt_spec
    hread e, h4, h
    hstep setInt_spec
    hread f, h5, h
    hstep setInt_spec
    hread g, h6, h
    hstep setInt_spec
    cases h
    show Triple _ _ (got p, some g.2 in coordAt p _)
    unfold coordAt
    hret

theorem scatnamesBuild_spec {q : Ptr} {d : Option Strings} :
    Triple (stringsAt q d) (scatnamesBuild q) (fun p => optAt scatnamesAt p (d.map fun n => { names := some n })) := by
  cases d with
  | none =>
    refine Triple.fact1 (fun hq => ?_)
    subst hq
    exact Triple.ret (fun h hh => ⟨rfl, hh⟩)
  | some n =>
    refine Triple.of_fact (φ := q ≠ 0) (fun h hh => stringsAt_ne h hh) (fun hq => ?_)
    unfold scatnamesBuild scatnamesMalloc
    rw [if_pos hq]
    hstep Triple.alloc
    hstep setField_spec
    show Triple _ _ (fun p => scatnamesAt p { names := some n })
    unfold scatnamesAt
    hret

/-- C72: `osl_scatnames_sread` allocates exactly the names. -/
theorem scatnames_sread_memory {s pos : Option Str} {d : Option Scatnames} (h : Scatnames.sread s = .ok (d, pos)) :
    Triple emp (scatnamesSread s) (got p, pos in optAt scatnamesAt p d) := by
  cases s with
  | none =>
    cases h
    exact Triple.ret (fun h hh => ⟨0, pur_sep_iff.mpr ⟨rfl, rfl, hh⟩⟩)
  | some s =>
    simp only [Scatnames.sread] at h
    simp only [scatnamesSread]
    obtain ⟨⟨w, t⟩, h1, h⟩ := Out.bind_eq_ok.mp h
    cases h
    hstep (strings_sread_memory h1)
    hstep scatnamesBuild_spec
    hret

/-! ## Arrays of integers -/

theorem intsReadLoop_spec {a : Ptr} : ∀ (n i : Nat) (qs : List Int) (s : Str) (l : List Int) (pos : Str), qs.length = i → Loop.readInts n s = .ok (l, pos) →
    Triple (a ↦ .node (qs ++ List.replicate n 0) []) (intsReadLoop a n i s) (fun r => pur (r = pos) ∗ a ↦ .node (qs ++ l) [])
  | 0, i, qs, s, l, pos, hi, h => by
    cases h
    exact Triple.ret (fun h hh => pur_sep_iff.mpr ⟨rfl, hh⟩)
  | n + 1, i, qs, s, l, pos, hi, h => by
    simp only [Loop.readInts] at h
    simp only [intsReadLoop]
    hread x, h1, h
    obtain ⟨⟨l', t⟩, h2, h⟩ := Out.bind_eq_ok.mp h
    cases h
    show Triple (a ↦ .node (qs ++ 0 :: List.replicate n 0) []) _ _
    hstep (setInt_spec (setNth_append_mid hi))
    have := intsReadLoop_spec (a := a) n (i + 1) (qs ++ [x.1]) x.2 l' t (by simp [hi]) h2
    simp only [List.append_assoc, List.cons_append, List.nil_append] at this
    exact this

theorem readInts_length : ∀ {n : Nat} {s pos : Str} {l : List Int}, Loop.readInts n s = .ok (l, pos) → l.length = n
  | 0, s, pos, l, h => by cases h; rfl
  | n + 1, s, pos, l, h => by
    simp only [Loop.readInts] at h
    obtain ⟨x, h1, h⟩ := Out.bind_eq_ok.mp h
    obtain ⟨⟨l', t⟩, h2, h⟩ := Out.bind_eq_ok.mp h
    cases h
    simp [readInts_length h2]

theorem scatinfosReadArray_spec {p : Ptr} {is : List Int} {l2 : List Ptr} {k n : Nat} {s pos : Str} {l : List Int} (h : Loop.readInts n s = .ok (l, pos))
    (h' : ∀ a, ∃ l', setNth l2 k a = .ok l') :
    Triple (p ↦ .node is l2) (scatinfosReadArray p k n s)
      (fun r => pur (r = pos) ∗ ex fun a => ex fun l' => pur (setNth l2 k a = .ok l') ∗ p ↦ .node is l' ∗ intsAt a l) := by
  unfold scatinfosReadArray
  hstep allocInts_spec
  obtain ⟨l', hl⟩ := h' a
  hstep (setPtr_spec hl)
  hlast (intsReadLoop_spec n 0 [] s l pos rfl h)
  hconv (ints_intro (p := a) (l := [] ++ l))
  rw [List.nil_append]
  hret

/-- C72: `osl_scatinfos_sread` allocates exactly the three arrays and the structure. -/
theorem scatinfos_sread_memory {s pos : Option Str} {d : Option Scatinfos} (h : Scatinfos.sread s = .ok (d, pos)) :
    Triple emp (scatinfosSread s) (got p, pos in optAt scatinfosAt p d) := by
  cases s with
  | none =>
    cases h
    exact Triple.ret (fun h hh => ⟨0, pur_sep_iff.mpr ⟨rfl, rfl, hh⟩⟩)
  | some s =>
    simp only [Scatinfos.sread] at h
    simp only [scatinfosSread, scatinfosMalloc]
    hstep Triple.alloc
    hread x, h1, h
    hstep setInt_spec
    obtain ⟨⟨d', t⟩, h2, h⟩ := Out.bind_eq_ok.mp h
    cases h
    unfold Scatinfos.readArrays at h2
    split at h2
    · cases h2
    rename_i hn
    refine Triple.liftStep (a := x.1.toNat) (if_neg hn) ?_
    obtain ⟨⟨la, t1⟩, h3, h2⟩ := Out.bind_eq_ok.mp h2
    obtain ⟨⟨b, t2⟩, h4, h2⟩ := Out.bind_eq_ok.mp h2
    obtain ⟨⟨e, t3⟩, h5, h2⟩ := Out.bind_eq_ok.mp h2
    cases h2
    hstep (scatinfosReadArray_spec (k := 0) h3 (fun a => ⟨_, rfl⟩))
    rename_i h6
    cases h6
    hstep (scatinfosReadArray_spec (k := 1) h4 (fun a => ⟨_, rfl⟩))
    rename_i h6
    cases h6
    hstep (scatinfosReadArray_spec (k := 2) h5 (fun a => ⟨_, rfl⟩))
    rename_i h6
    cases h6
    have e1 := readInts_length h3
    have e2 := readInts_length h4
    have e3 := readInts_length h5
    have hsz : Scatinfos.Sized { parallel := la, permutable := b, type := e } := ⟨by simp [e1, e2], by simp [e1, e3]⟩
    have hx : x.1 = (la.length : Int) := by omega
    show Triple _ _ (got p, some t in scatinfosAt p { parallel := la, permutable := b, type := e })
    unfold scatinfosAt
    show Triple (p ↦ .node [x.1] _ ∗ _) _ _
    rw [hx]
    hret

/-! ## Extbody -/

theorem extbodyReadLoop_spec {a b : Ptr} : ∀ (n i : Nat) (as bs : List Int) (s : Str) (l : List (Int × Int)) (pos : Str), as.length = i → bs.length = i →
    Extbody.readLoop n s = .ok (l, pos) →
    Triple (a ↦ .node (as ++ List.replicate n 0) [] ∗ b ↦ .node (bs ++ List.replicate n 0) []) (extbodyReadLoop a b n i s)
      (fun r => pur (r = pos) ∗ a ↦ .node (as ++ l.map (·.1)) [] ∗ b ↦ .node (bs ++ l.map (·.2)) [])
  | 0, i, as, bs, s, l, pos, ha, hb, h => by
    cases h
    exact Triple.ret (fun h hh => pur_sep_iff.mpr ⟨rfl, hh⟩)
  | n + 1, i, as, bs, s, l, pos, ha, hb, h => by
    simp only [Extbody.readLoop] at h
    simp only [extbodyReadLoop]
    show Triple (a ↦ .node (as ++ 0 :: List.replicate n 0) [] ∗ b ↦ .node (bs ++ 0 :: List.replicate n 0) []) _ _
    hread x, h1, h
    hstep (setInt_spec (setNth_append_mid ha))
    hread y, h2, h
    hstep (setInt_spec (setNth_append_mid hb))
    obtain ⟨⟨l', t⟩, h3, h⟩ := Out.bind_eq_ok.mp h
    cases h
    have := extbodyReadLoop_spec (a := a) (b := b) n (i + 1) (as ++ [x.1]) (bs ++ [y.1]) y.2 l' t (by simp [ha]) (by simp [hb]) h3
    simp only [List.append_assoc, List.cons_append, List.nil_append] at this
    exact this.pre (fun h hh => hh.perm (by ac_rfl))

theorem extbody_readLoop_length : ∀ {n : Nat} {s pos : Str} {l : List (Int × Int)}, Extbody.readLoop n s = .ok (l, pos) → l.length = n
  | 0, s, pos, l, h => by cases h; rfl
  | n + 1, s, pos, l, h => by
    simp only [Extbody.readLoop] at h
    obtain ⟨x, h1, h⟩ := Out.bind_eq_ok.mp h
    obtain ⟨y, h1, h⟩ := Out.bind_eq_ok.mp h
    obtain ⟨⟨l', t⟩, h2, h⟩ := Out.bind_eq_ok.mp h
    cases h
    simp [extbody_readLoop_length h2]

/-- C72: `osl_extbody_sread` allocates exactly the extbody. -/
theorem extbody_sread_memory {s pos : Option Str} {d : Option Extbody} (h : Extbody.sread s = .ok (d, pos)) :
    Triple emp (extbodySread s) (got p, pos in optAt extbodyAt p d) := by
  cases s with
  | none => cases h
  | some s =>
    simp only [Extbody.sread] at h
    simp only [extbodySread, extbodyMalloc]
    hread x, h1, h
    obtain ⟨⟨l, t⟩, h2, h⟩ := Out.bind_eq_ok.mp h
    obtain ⟨⟨b', t'⟩, h3, h⟩ := Out.bind_eq_ok.mp h
    cases h
    unfold Extbody.readAccess at h2
    split at h2
    · cases h2
    rename_i hn
    refine Triple.liftStep (a := x.1.toNat) (if_neg hn) ?_
    have hx : x.1 = (l.length : Int) := by have := extbody_readLoop_length h2; omega
    hstep Triple.alloc
    hstep allocInts_spec
    hstep setPtr_spec
    hstep allocInts_spec
    hstep setPtr_spec
    hstep setInt_spec
    hstep (extbodyReadLoop_spec _ 0 [] [] _ l t rfl rfl h2)
    hstep (body_sread_memory h3)
    hstep setPtr_spec
    hconv (ints_intro (p := a) (l := [] ++ l.map (·.1)))
    hconv (ints_intro (p := b) (l := [] ++ l.map (·.2)))
    simp only [List.nil_append]
    show Triple _ _ (got p, some t' in extbodyAt p { body := b', access := l })
    unfold extbodyAt
    show Triple (_ ∗ _ ∗ _ ∗ _) _ _
    rw [hx]
    hret

/-! ## Arrays -/

theorem arraysReadLoop_spec {d a : Ptr} : ∀ (n i : Nat) (ds : List Int) (ps : List Ptr) (s : Str) (l : List (Int × Str)) (pos : Str), ds.length = i → ps.length = i →
    Arrays.readLoop n s = .ok (l, pos) →
    Triple (d ↦ .node (ds ++ List.replicate n 0) [] ∗ a ↦ .ptrs (ps ++ List.replicate n 0)) (arraysReadLoop d a n i s)
      (fun r => pur (r = pos) ∗ ex fun qs => d ↦ .node (ds ++ l.map (·.1)) [] ∗ a ↦ .ptrs (ps ++ qs) ∗ wordsAt qs (l.map (·.2)))
  | 0, i, ds, ps, s, l, pos, ha, hb, h => by
    cases h
    refine Triple.ret (fun h hh => pur_sep_iff.mpr ⟨rfl, [], ?_⟩)
    show (_ ∗ _ ∗ emp) h
    rw [sep_emp]
    exact hh
  | n + 1, i, ds, ps, s, l, pos, ha, hb, h => by
    simp only [Arrays.readLoop] at h
    simp only [arraysReadLoop]
    show Triple (d ↦ .node (ds ++ 0 :: List.replicate n 0) [] ∗ a ↦ .ptrs (ps ++ 0 :: List.replicate n 0)) _ _
    hread x, h1, h
    hstep (setInt_spec (setNth_append_mid ha))
    obtain ⟨⟨w, t1⟩, h2, h⟩ := Out.bind_eq_ok.mp h
    obtain ⟨⟨l', t⟩, h3, h⟩ := Out.bind_eq_ok.mp h
    cases h
    hstep (read_string_memory h2)
    hstep (setField_spec (setNth_append_mid hb))
    have := arraysReadLoop_spec (d := d) (a := a) n (i + 1) (ds ++ [x.1]) (ps ++ [p]) t1 l' t (by simp [ha]) (by simp [hb]) h3
    simp only [List.append_assoc, List.cons_append, List.nil_append] at this
    refine Triple.last (F := p ↦ .chars w) this (by ac_rfl) (fun r h hh => ?_)
    rw [sep_assoc] at hh
    refine sep_mono (fun _ h => h) (fun h hh => ?_) hh
    rw [ex_sep] at hh
    obtain ⟨qs, hh⟩ := hh
    refine ⟨p :: qs, ?_⟩
    show (d ↦ .node (ds ++ x.1 :: l'.map (·.1)) [] ∗ a ↦ .ptrs (ps ++ p :: qs) ∗ p ↦ .chars w ∗ wordsAt qs (l'.map (·.2))) h
    exact hh.perm (by ac_rfl)

theorem arrays_readLoop_length : ∀ {n : Nat} {s pos : Str} {l : List (Int × Str)}, Arrays.readLoop n s = .ok (l, pos) → l.length = n
  | 0, s, pos, l, h => by cases h; rfl
  | n + 1, s, pos, l, h => by
    simp only [Arrays.readLoop] at h
    obtain ⟨x, h1, h⟩ := Out.bind_eq_ok.mp h
    obtain ⟨y, h1, h⟩ := Out.bind_eq_ok.mp h
    obtain ⟨⟨l', t⟩, h2, h⟩ := Out.bind_eq_ok.mp h
    cases h
    simp [arrays_readLoop_length h2]

/-- C72: `osl_arrays_sread` allocates exactly the arrays extension. -/
theorem arrays_sread_memory {s pos : Option Str} {d : Option Arrays} (h : Arrays.sread s = .ok (d, pos)) :
    Triple emp (arraysSread s) (got p, pos in optAt arraysAt p d) := by
  cases s with
  | none => cases h
  | some s =>
    simp only [Arrays.sread] at h
    simp only [arraysSread, arraysMalloc]
    hread x, h1, h
    obtain ⟨⟨l, t⟩, h2, h⟩ := Out.bind_eq_ok.mp h
    cases h
    unfold Arrays.readPairs at h2
    split at h2
    · cases h2
    rename_i hn
    refine Triple.liftStep (a := x.1.toNat) (if_neg hn) ?_
    have hx : x.1 = (l.length : Int) := by have := arrays_readLoop_length h2; omega
    hstep Triple.alloc
    hstep allocInts_spec
    hstep setPtr_spec
    hstep allocPtrs_spec
    hstep setPtr_spec
    hstep setInt_spec
    hstep (arraysReadLoop_spec _ 0 [] [] _ l t rfl rfl h2)
    hconv (ints_intro (p := d) (l := [] ++ l.map (·.1)))
    hconv (strs_intro (p := a) (ps := [] ++ qs) (ws := l.map (·.2)))
    simp only [List.nil_append]
    show Triple _ _ (got p, some t in arraysAt p { pairs := l })
    unfold arraysAt
    show Triple (_ ∗ _ ∗ _) _ _
    rw [hx]
    hret

end Osl.Mem
