import Verif.HeapExtProps2
/-!
# The data of the extensions in memory: arrays, texts, annotations (C56)
-/

set_option linter.unusedSectionVars false

namespace Osl.Mem

open Osl.Ext

variable [Allocator]

/-! ## Arrays -/

/-- The memory of an arrays structure. -/
def arraysAt (p : Ptr) (x : Arrays) : Assn :=
  ex fun d => ex fun a => p ↦ .node [(x.pairs.length : Int)] [d, a] ∗ intsAt d (x.pairs.map (·.1)) ∗ strsAt a (x.pairs.map (·.2))

theorem arraysAt_ne {p : Ptr} {x : Arrays} : ∀ h, arraysAt p x h → p ≠ 0 := by
  rintro h ⟨a, b, hh⟩
  exact pto_ne_sep h hh

theorem freeWords_loop {a : Ptr} : ∀ (ps : List Ptr) (ws : List Str) (u : List Ptr) (i : Nat), u.length = i → ps.length = ws.length →
    Triple (a ↦ .ptrs (u ++ ps) ∗ wordsAt ps ws) (freeWords a ps.length i) (fun _ => a ↦ .ptrs (u ++ ps))
  | [], [], u, i, _, _ => by
    have e : wordsAt [] [] = emp := rfl
    rw [e, sep_emp]
    exact Triple.ret (fun h hh => hh)
  | [], _ :: _, _, _, _, h => by simp at h
  | _ :: _, [], _, _, _, h => by simp at h
  | p :: ps, w :: ws, u, i, hu, hl => by
    show Triple (_ ∗ p ↦ .chars w ∗ wordsAt ps ws) (getField a i >>= fun s => free s >>= fun _ => freeWords a ps.length (i + 1)) _
    hstep (getField_spec (nth_append_mid hu))
    hstep (Triple.free (b := .chars w))
    have := freeWords_loop (a := a) ps ws (u ++ [p]) (i + 1) (by simp [hu]) (by simpa using hl)
    simp only [List.append_assoc, List.cons_append, List.nil_append] at this
    exact this.pre (fun h hh => hh.perm (by ac_rfl))

/-- An array of pointers, or NULL. -/
def ptrsIf (a : Ptr) : Assn := if a = 0 then emp else ex fun ps => a ↦ .ptrs ps

theorem free_ptrsIf {a : Ptr} : Triple (ptrsIf a) (free a) (fun _ => emp) := by
  unfold ptrsIf
  by_cases ha : a = 0
  · subst ha
    rw [if_pos rfl]
    exact Triple.freeNull
  · rw [if_neg ha]
    hnorm
    exact Triple.free _ _

theorem freeWords_spec {a : Ptr} {ws : List Str} {n : Nat} (hn : n = ws.length) : Triple (strsAt a ws) (freeWords a n 0) (fun _ => ptrsIf a) := by
  subst hn
  unfold ptrsIf
  by_cases ha : a = 0
  · subst ha
    rw [strsAt_null, if_pos rfl]
    refine Triple.fact1 (fun hl => ?_)
    subst hl
    exact Triple.ret (fun h hh => hh)
  · rw [strsAt_ne ha, if_neg ha]
    hnorm
    rename_i ps
    hfact wordsAt_len
    intro hl
    rw [← hl]
    have := freeWords_loop (a := a) ps ws [] 0 rfl hl
    simp only [List.nil_append] at this
    exact this.post (fun _ h hh => ⟨ps, hh⟩)

theorem arraysLoop_ne {d ar d' a' : Ptr} : ∀ (b1 : List Int) (ps : List Ptr) (ws : List Str) (a1 : List Int) (u qs : List Ptr) (i : Nat), a1.length = i → u.length = i →
    qs.length = i → ps.length = b1.length → ws.length = b1.length →
    Triple (d ↦ .node (a1 ++ b1) [] ∗ ar ↦ .ptrs (u ++ ps) ∗ wordsAt ps ws ∗ d' ↦ .node (a1 ++ List.replicate b1.length 0) [] ∗
        a' ↦ .ptrs (qs ++ List.replicate b1.length 0))
      (arraysLoop d ar d' a' b1.length i)
      (fun _ => d ↦ .node (a1 ++ b1) [] ∗ ar ↦ .ptrs (u ++ ps) ∗ wordsAt ps ws ∗ d' ↦ .node (a1 ++ b1) [] ∗ ex fun rs => a' ↦ .ptrs (qs ++ rs) ∗ wordsAt rs ws)
  | [], [], [], a1, u, qs, i, _, _, _, _, _ => by
    show Triple _ (pure ()) _
    refine Triple.ret (fun h hh => ?_)
    refine sep_mono (fun _ h => h) (fun _ h => sep_mono (fun _ h => h) (fun _ h => sep_mono (fun _ h => h) (fun _ h => sep_mono (fun _ h => h) (fun h hh => ?_) h) h) h) hh
    refine ⟨[], ?_⟩
    show (a' ↦ .ptrs (qs ++ []) ∗ emp) h
    rw [sep_emp]
    exact hh
  | [], _ :: _, _, _, _, _, _, _, _, _, h, _ => by simp at h
  | [], [], _ :: _, _, _, _, _, _, _, _, _, h => by simp at h
  | _ :: _, [], _, _, _, _, _, _, _, _, h, _ => by simp at h
  | _ :: _, _ :: _, [], _, _, _, _, _, _, _, _, h => by simp at h
  | x :: b1, p :: ps, w :: ws, a1, u, qs, i, h1, h2, h3, h4, h5 => by
    show Triple (_ ∗ _ ∗ (p ↦ .chars w ∗ wordsAt ps ws) ∗ d' ↦ .node (a1 ++ 0 :: List.replicate b1.length 0) [] ∗ a' ↦ .ptrs (qs ++ 0 :: List.replicate b1.length 0))
      (getInt d i >>= fun x => setInt d' i x >>= fun _ => getField ar i >>= fun s => hStrdup s >>= fun s' => setField a' i s' >>= fun _ => arraysLoop d ar d' a' b1.length (i + 1))
      (fun _ => _ ∗ _ ∗ (p ↦ .chars w ∗ wordsAt ps ws) ∗ _ ∗ _)
    hstep (getInt_spec (nth_append_mid h1))
    hstep (setInt_spec (setNth_append_mid h1))
    hstep (getField_spec (nth_append_mid h2))
    hstep (hStrdup_spec (w := w))
    hstep (setField_spec (setNth_append_mid h3))
    have := arraysLoop_ne (d := d) (ar := ar) (d' := d') (a' := a') b1 ps ws (a1 ++ [x]) (u ++ [p]) (qs ++ [s']) (i + 1) (by simp [h1]) (by simp [h2]) (by simp [h3]) (by simpa using h4)
      (by simpa using h5)
    simp only [List.append_assoc, List.cons_append, List.nil_append] at this
    hlast this
    refine Triple.ret (fun h hh => ?_)
    have hh2 : (d ↦ .node (a1 ++ x :: b1) [] ∗ ar ↦ .ptrs (u ++ p :: ps) ∗ (p ↦ .chars w ∗ wordsAt ps ws) ∗ d' ↦ .node (a1 ++ x :: b1) [] ∗
      (a' ↦ .ptrs (qs ++ s' :: rs) ∗ s' ↦ .chars w ∗ wordsAt rs ws)) h := hh.perm (by ac_rfl)
    exact sep_mono (fun _ h => h) (fun _ h => sep_mono (fun _ h => h) (fun _ h => sep_mono (fun _ h => h) (fun _ h => sep_mono (fun _ h => h) (fun h hh => ⟨s' :: rs, hh⟩) h) h) h) hh2

theorem ints_pos {p : Ptr} {l : List Int} (hl : l ≠ []) : ∀ h, intsAt p l h → p ≠ 0 := by
  intro h hh hp
  subst hp
  rw [intsAt_null] at hh
  exact hl hh.1

theorem strs_pos {p : Ptr} {l : List Str} (hl : l ≠ []) : ∀ h, strsAt p l h → p ≠ 0 := by
  intro h hh hp
  subst hp
  rw [strsAt_null] at hh
  exact hl hh.1

theorem arraysLoop_spec {d a d' a' : Ptr} {l : List Int} {ws : List Str} {n : Nat} (hn : n = l.length) (hw : ws.length = l.length) :
    Triple (intsAt d l ∗ strsAt a ws ∗ d' ↦ .node (List.replicate n 0) [] ∗ a' ↦ .ptrs (List.replicate n 0)) (arraysLoop d a d' a' n 0)
      (fun _ => intsAt d l ∗ strsAt a ws ∗ intsAt d' l ∗ strsAt a' ws) := by
  subst hn
  cases l with
  | nil =>
    have : ws = [] := by simpa using hw
    subst this
    refine Triple.ret (fun h hh => ?_)
    refine sep_mono (fun _ h => h) (fun _ h => sep_mono (fun _ h => h) (fun _ h => sep_mono ints_intro (fun h hh => ?_) h) h) hh
    refine strs_intro (ps := []) h ?_
    show (a' ↦ .ptrs [] ∗ emp) h
    rw [sep_emp]
    exact hh
  | cons x l =>
    hfact (ints_pos (l := x :: l) (by simp))
    intro hd
    hfact (strs_pos (l := ws) (by intro h; rw [h] at hw; simp at hw))
    intro ha
    rw [intsAt_ne hd, strsAt_ne ha]
    hnorm
    rename_i ps
    hfact wordsAt_len
    intro hl
    have := arraysLoop_ne (d := d) (ar := a) (d' := d') (a' := a') (x :: l) ps ws [] [] [] 0 rfl rfl rfl (by rw [hl, hw]) hw
    simp only [List.nil_append] at this
    hlast this
    hconv (ints_intro (p := d'))
    hconv (strs_intro (p := a'))
    hret

/-- The arrays (source/extensions/arrays.c:360-373). -/
def arraysMem : KindMem Arrays Arrays.ops where
  free := arraysFree
  clone := arraysClone
  at_ := arraysAt
  nullOk := true
  nonnull := fun h => arraysAt_ne _ h
  null_clone := by intro d h; cases h
  free_spec := fun {p d} _ => by
    unfold arraysFree
    refine free_cases (fun h => arraysAt_ne _ h) (Triple.ret fun _ h => h) (fun x => ?_)
    hopen arraysAt
    hstep getPtr_spec
    hstep free_ints
    hstep getInt_spec
    hstep getPtr_spec
    hstep (freeWords_spec (ws := x.pairs.map (·.2)) (n := (x.pairs.length : Int).toNat) (by simp))
    hstep free_ptrsIf
    hlast Triple.free
    hret
  clone_spec := fun {p d d'} h => by
    unfold arraysClone
    refine clone_cases h (fun h => arraysAt_ne _ h) rfl (fun x hx => ?_)
    cases hx
    show Triple _ _ (fun q => _ ∗ arraysAt q { pairs := x.pairs.map fun p => (p.1, Util.strdup p.2) })
    have e : (x.pairs.map fun p => (p.1, Util.strdup p.2)) = x.pairs := by simp [Util.strdup]
    rw [e]
    unfold arraysMalloc
    hopen arraysAt
    hstep Triple.alloc
    hstep copyInt_spec
    hstep getInt_spec
    hstep allocInts_spec
    hstep setPtr_spec
    hstep allocPtrs_spec
    hstep setPtr_spec
    hstep getPtr_spec
    hstep getPtr_spec
    hstep (arraysLoop_spec (n := x.pairs.length) (l := x.pairs.map (·.1)) (ws := x.pairs.map (·.2)) (by simp) (by simp))
    hret

/-- An array of strings which has grown by one element. -/
theorem growStrs_spec {p : Ptr} {ws : List Str} {n : Nat} (hn : n = ws.length + 1) :
    Triple (strsAt p ws) (reallocPtrs p n) (fun q => ex fun ps => q ↦ .ptrs (ps ++ [0]) ∗ wordsAt ps ws) := by
  subst hn
  unfold reallocPtrs
  by_cases hp : p = 0
  · subst hp
    rw [strsAt_null, if_pos rfl]
    refine Triple.fact1 (fun hl => ?_)
    subst hl
    refine (Triple.alloc _).post (fun q h hh => ⟨[], ?_⟩)
    show (q ↦ .ptrs [0] ∗ emp) h
    rw [sep_emp]
    exact hh
  · rw [strsAt_ne hp, if_neg hp]
    hnorm
    rename_i ps
    hfact wordsAt_len
    intro hl
    hstep loadPtrs_spec
    hstep Triple.free
    hlast Triple.alloc
    refine Triple.ret (fun h hh => ⟨ps, ?_⟩)
    simpa [← hl, take_all (Nat.le_succ _)] using hh

theorem words_last {ps : List Ptr} {ws : List Str} {q : Ptr} {w : Str} : ∀ h, (wordsAt ps ws ∗ q ↦ .chars w) h → wordsAt (ps ++ [q]) (ws ++ [w]) h := by
  intro h hh
  have hl : ps.length = ws.length := by
    obtain ⟨h1, h2, _, _, h1', _⟩ := hh
    exact wordsAt_len _ h1'
  rw [wordsAt_append hl]
  show (wordsAt ps ws ∗ q ↦ .chars w ∗ emp) h
  rw [sep_emp]
  exact hh

/-- What `osl_arrays_add` does to the value (specification). -/
def addPair (x : Arrays) (id : Int) (name : Str) : Arrays := { pairs := x.pairs ++ [(id, name)] }

/-- C56: `osl_arrays_add` adds a pair with a copy of the name, and returns the new number of pairs. -/
theorem arrays_add_memory (p nm : Ptr) (x : Arrays) (id : Int) (name : Str) :
    Triple (arraysAt p x ∗ nm ↦ .chars name) (arraysAdd p id nm)
      (fun r => pur (r = x.pairs.length + 1) ∗ arraysAt p (addPair x id name) ∗ nm ↦ .chars name) := by
  unfold arraysAdd
  hfact arraysAt_ne
  intro hp
  hfact (pto_ne (p := nm))
  intro hs
  refine Triple.of_if_neg (by simp [hp, hs]) ?_
  unfold arraysAddTo
  hopen arraysAt
  hstep getInt_spec
  hstep getPtr_spec
  hstep (reallocInts_spec (n := ((x.pairs.length : Int) + 1).toNat) (l := x.pairs.map (·.1)) (by simp))
  hstep setPtr_spec
  hstep getPtr_spec
  hstep (growStrs_spec (n := ((x.pairs.length : Int) + 1).toNat) (ws := x.pairs.map (·.2)) (by simp))
  hstep setPtr_spec
  hstep (setInt_spec (setNth_last (l := x.pairs.map (·.1)) (n := (x.pairs.length : Int).toNat) (by simp)))
  hstep (hStrdup_spec (w := name))
  hfact (wordsAt_len (ps := ps))
  intro hl
  hstep (setField_spec (setNth_last (l := ps) (n := (x.pairs.length : Int).toNat) (by simp [hl])))
  hstep setInt_spec
  hlast getInt_spec
  hconv (ints_intro (p := d'))
  hconv (words_last (ps := ps) (q := s))
  hconv (strs_intro (p := a'))
  have e : ([((x.pairs.length : Int) + 1)] : List Int) = [(((addPair x id name).pairs.length : Nat) : Int)] := by simp [addPair]
  have e1 : (x.pairs.map (·.1) ++ [id]) = (addPair x id name).pairs.map (·.1) := by simp [addPair]
  have e2 : (x.pairs.map (·.2) ++ [name]) = (addPair x id name).pairs.map (·.2) := by simp [addPair]
  rw [e1, e2]
  change Triple (_ ∗ _ ∗ p ↦ .node [((x.pairs.length : Int) + 1)] [d', a'] ∗ _) _ _
  rw [e]
  hret

/-! ## Texts -/

/-- The memory of a text. -/
def textAt (t : TextRec) (x : Lines) : Assn := pur (t.count = x.length) ∗ intsAt t.types (x.map (·.1)) ∗ strsAt t.lines (x.map (·.2))

theorem textAppend_spec {t : TextRec} {x : Lines} {type : Int} {line : Ptr} {w : Str} :
    Triple (textAt t x ∗ line ↦ .chars w) (textAppend t type line) (fun t' => textAt t' (Lines.append x type w)) := by
  obtain ⟨cnt, ty, li⟩ := t
  unfold textAppend
  hopen textAt
  rename_i hc
  change cnt = _ at hc
  subst hc
  hstep (growStrs_spec (n := ((x.length : Int) + 1).toNat) (ws := x.map (·.2)) (by simp))
  hstep (reallocInts_spec (n := ((x.length : Int) + 1).toNat) (l := x.map (·.1)) (by simp))
  hfact (wordsAt_len (ps := ps))
  intro hl
  hstep (setField_spec (setNth_last (l := ps) (n := (x.length : Int).toNat) (by simp [hl])))
  hstep (setInt_spec (setNth_last (l := x.map (·.1)) (n := (x.length : Int).toNat) (by simp)))
  hconv (ints_intro (p := types))
  hconv (words_last (ps := ps))
  hconv (strs_intro (p := lines))
  have e1 : (x.map (·.1) ++ [type]) = (Lines.append x type w).map (·.1) := by simp [Lines.append]
  have e2 : (x.map (·.2) ++ [w]) = (Lines.append x type w).map (·.2) := by simp [Lines.append]
  rw [e1, e2]
  hret
  simp [Lines.append]

theorem textCloneLoop_ne {ty li : Ptr} {cnt : Int} : ∀ (x : Lines) (ps : List Ptr) (a1 : List Int) (u : List Ptr) (i : Nat) (dst : TextRec) (acc : Lines), a1.length = i → u.length = i →
    ps.length = x.length →
    Triple (ty ↦ .node (a1 ++ x.map (·.1)) [] ∗ li ↦ .ptrs (u ++ ps) ∗ wordsAt ps (x.map (·.2)) ∗ textAt dst acc)
      (textCloneLoop ⟨cnt, ty, li⟩ x.length i dst)
      (fun t => ty ↦ .node (a1 ++ x.map (·.1)) [] ∗ li ↦ .ptrs (u ++ ps) ∗ wordsAt ps (x.map (·.2)) ∗ textAt t (Lines.cloneLoop acc x))
  | [], [], a1, u, i, dst, acc, _, _, _ => by
    show Triple _ (pure dst) _
    exact Triple.ret (fun h hh => hh)
  | [], _ :: _, _, _, _, _, _, _, _, h => by simp at h
  | _ :: _, [], _, _, _, _, _, _, _, h => by simp at h
  | (t, w) :: x, p :: ps, a1, u, i, dst, acc, h1, h2, h3 => by
    show Triple (ty ↦ .node (a1 ++ t :: x.map (·.1)) [] ∗ _ ∗ (p ↦ .chars w ∗ wordsAt ps (x.map (·.2))) ∗ _)
      (getField li i >>= fun s => libcStrdup s >>= fun line => getInt ty i >>= fun type => textAppend dst type line >>= fun dst' => textCloneLoop ⟨cnt, ty, li⟩ x.length (i + 1) dst')
      (fun r => ty ↦ .node (a1 ++ t :: x.map (·.1)) [] ∗ _ ∗ (p ↦ .chars w ∗ wordsAt ps (x.map (·.2))) ∗ textAt r (Lines.cloneLoop (Lines.append acc t (Util.strdup w)) x))
    hstep (getField_spec (nth_append_mid h2))
    hstep (libcStrdup_spec (w := w))
    hstep (getInt_spec (nth_append_mid h1))
    hstep (textAppend_spec (x := acc) (w := w))
    have := textCloneLoop_ne (ty := ty) (li := li) (cnt := cnt) x ps (a1 ++ [t]) (u ++ [p]) (i + 1) dst' (Lines.append acc t w) (by simp [h1]) (by simp [h2]) (by simpa using h3)
    simp only [List.append_assoc, List.cons_append, List.nil_append] at this
    hlast this
    refine Triple.ret (fun h hh => hh.perm ?_)
    show _ = (_ ∗ _ ∗ _ ∗ textAt _ (Lines.cloneLoop (Lines.append acc t w) x))
    ac_rfl

theorem textClone_spec {t : TextRec} {x : Lines} : Triple (textAt t x) (textClone t) (fun t' => textAt t x ∗ textAt t' (Lines.clone x)) := by
  obtain ⟨cnt, ty, li⟩ := t
  unfold textClone
  hopen textAt
  rename_i hc
  change cnt = _ at hc
  subst hc
  have en : (((x.length : Nat) : Int)).toNat = x.length := by omega
  have e0 : emp = textAt ⟨0, 0, 0⟩ [] := by
    unfold textAt
    show emp = (pur _ ∗ intsAt 0 [] ∗ strsAt 0 [])
    rw [intsAt_null, strsAt_null, pur_true rfl, pur_true rfl, emp_sep, sep_emp]
    exact (pur_true rfl).symm
  cases x with
  | nil =>
    refine Triple.ret (fun h hh => ?_)
    show (textAt ⟨0, ty, li⟩ [] ∗ textAt ⟨0, 0, 0⟩ []) h
    rw [← e0, sep_emp]
    exact pur_sep_iff.mpr ⟨rfl, hh⟩
  | cons y x =>
    hfact (ints_pos (l := (y :: x).map (·.1)) (by simp))
    intro hd
    hfact (strs_pos (l := (y :: x).map (·.2)) (by simp))
    intro ha
    suffices hs : Triple (intsAt ty ((y :: x).map (·.1)) ∗ strsAt li ((y :: x).map (·.2))) (textCloneLoop ⟨((y :: x).length : Nat), ty, li⟩ (y :: x).length 0 ⟨0, 0, 0⟩)
        (fun t' => (intsAt ty ((y :: x).map (·.1)) ∗ strsAt li ((y :: x).map (·.2))) ∗ textAt t' (Lines.clone (y :: x))) by
      refine hs.post (fun t' h hh => sep_mono (fun h hh => ?_) (fun _ h => h) hh)
      exact pur_sep_iff.mpr ⟨rfl, hh⟩
    rw [intsAt_ne hd, strsAt_ne ha]
    hnorm
    rename_i ps
    hfact (wordsAt_len (ps := ps))
    intro hl
    have := textCloneLoop_ne (ty := ty) (li := li) (cnt := ((y :: x).length : Nat)) (y :: x) ps [] [] 0 ⟨0, 0, 0⟩ [] rfl rfl (by simpa using hl)
    rw [← e0] at this
    simp only [List.nil_append] at this
    hlast this
    hret

theorem textCleanLoop_spec {li : Ptr} : ∀ (ps : List Ptr) (ws : List Str) (u : List Ptr) (i : Nat), u.length = i → ps.length = ws.length →
    Triple (li ↦ .ptrs (u ++ ps) ∗ wordsAt ps ws) (textCleanLoop li ps.length i) (fun _ => li ↦ .ptrs (u ++ ps))
  | [], [], u, i, _, _ => by
    have e : wordsAt [] [] = emp := rfl
    rw [e, sep_emp]
    exact Triple.ret (fun h hh => hh)
  | [], _ :: _, _, _, _, h => by simp at h
  | _ :: _, [], _, _, _, h => by simp at h
  | p :: ps, w :: ws, u, i, hu, hl => by
    show Triple (_ ∗ p ↦ .chars w ∗ wordsAt ps ws) (getField li i >>= fun s => freeIf s >>= fun _ => textCleanLoop li ps.length (i + 1)) _
    simp only [freeIf_eq]
    hstep (getField_spec (nth_append_mid hu))
    hstep (Triple.free (b := .chars w))
    have := textCleanLoop_spec (li := li) ps ws (u ++ [p]) (i + 1) (by simp [hu]) (by simpa using hl)
    simp only [List.append_assoc, List.cons_append, List.nil_append] at this
    exact this.pre (fun h hh => hh.perm (by ac_rfl))

theorem textCleanLines_spec {li : Ptr} {ws : List Str} {n : Nat} (hn : n = ws.length) : Triple (strsAt li ws) (textCleanLines li n) (fun _ => emp) := by
  subst hn
  unfold textCleanLines
  by_cases ha : li = 0
  · subst ha
    rw [strsAt_null, if_neg (by simp)]
    exact Triple.fact1 (fun hl => Triple.ret (fun h hh => hh))
  · rw [strsAt_ne ha, if_pos ha]
    hnorm
    rename_i ps
    hfact wordsAt_len
    intro hl
    rw [← hl]
    have := textCleanLoop_spec (li := li) ps ws [] 0 rfl hl
    simp only [List.nil_append] at this
    hstep this
    hlast Triple.free
    hret

theorem textClean_spec {t : TextRec} {x : Lines} : Triple (textAt t x) (textClean t) (fun _ => emp) := by
  obtain ⟨cnt, ty, li⟩ := t
  unfold textClean
  hopen textAt
  rename_i hc
  change cnt = _ at hc
  subst hc
  hstep (textCleanLines_spec (n := ((x.length : Nat) : Int).toNat) (ws := x.map (·.2)) (by simp))
  hlast freeIf_ints
  hret

/-! ## Texts in a structure -/

theorem setNth_ok {α : Type} {l : List α} {i : Nat} {x : α} (h : i < l.length) : setNth l i x = .ok (l.set i x) := by simp [setNth, h]

theorem getText_spec {p : Ptr} {is : List Int} {l : List Ptr} {k : Nat} {t : TextRec} (h0 : nth is k = .ok t.count) (h1 : nth l (2 * k) = .ok t.types)
    (h2 : nth l (2 * k + 1) = .ok t.lines) : Triple (p ↦ .node is l) (getText p k) (fun r => pur (r = t) ∗ p ↦ .node is l) := by
  unfold getText
  hstep (getInt_spec h0)
  hstep (getPtr_spec h1)
  hstep (getPtr_spec h2)
  hret

theorem setText_spec {p : Ptr} {is : List Int} {l : List Ptr} {k : Nat} {t : TextRec} (h0 : k < is.length) (h1 : 2 * k + 1 < l.length) :
    Triple (p ↦ .node is l) (setText p k t) (fun _ => p ↦ .node (is.set k t.count) ((l.set (2 * k) t.types).set (2 * k + 1) t.lines)) := by
  unfold setText
  hstep (setInt_spec (setNth_ok h0))
  hstep (setPtr_spec (setNth_ok (l := l) (i := 2 * k) (by omega)))
  hlast (setPtr_spec (setNth_ok (l := l.set (2 * k) t.types) (i := 2 * k + 1) (by simpa using h1)))
  hret

theorem copyText_spec {p q : Ptr} {is js : List Int} {l m : List Ptr} {k : Nat} {t : TextRec} {x : Lines} (h0 : nth is k = .ok t.count) (h1 : nth l (2 * k) = .ok t.types)
    (h2 : nth l (2 * k + 1) = .ok t.lines) (h3 : decide (k < js.length) = true) (h4 : decide (2 * k + 1 < m.length) = true) :
    Triple (p ↦ .node is l ∗ textAt t x ∗ q ↦ .node js m) (copyText p q k)
      (fun _ => ex fun t' => p ↦ .node is l ∗ textAt t x ∗ textAt t' (Lines.clone x) ∗ q ↦ .node (js.set k t'.count) ((m.set (2 * k) t'.types).set (2 * k + 1) t'.lines)) := by
  unfold copyText
  hstep (getText_spec h0 h1 h2)
  hstep (textClone_spec (x := x))
  hlast (setText_spec (of_decide_eq_true h3) (of_decide_eq_true h4))
  hret

theorem appendText_spec {p line : Ptr} {is : List Int} {l : List Ptr} {k : Nat} {t : TextRec} {x : Lines} {type : Int} {w : Str} (h0 : nth is k = .ok t.count)
    (h1 : nth l (2 * k) = .ok t.types) (h2 : nth l (2 * k + 1) = .ok t.lines) (h3 : decide (k < is.length) = true) (h4 : decide (2 * k + 1 < l.length) = true) :
    Triple (p ↦ .node is l ∗ textAt t x ∗ line ↦ .chars w) (appendText p k type line)
      (fun _ => ex fun t' => textAt t' (Lines.append x type w) ∗ p ↦ .node (is.set k t'.count) ((l.set (2 * k) t'.types).set (2 * k + 1) t'.lines)) := by
  unfold appendText
  hstep (getText_spec h0 h1 h2)
  hstep (textAppend_spec (x := x) (w := w))
  hlast (setText_spec (of_decide_eq_true h3) (of_decide_eq_true h4))
  hret

/-! ## Annotations -/

/-- The memory of an annotation. -/
def annAt (p : Ptr) (x : Annotation) : Assn :=
  ex fun t => ex fun u => p ↦ .node [t.count, u.count] [t.types, t.lines, u.types, u.lines] ∗ textAt t x.pre ∗ textAt u x.suf

theorem annAt_ne {p : Ptr} {x : Annotation} : ∀ h, annAt p x h → p ≠ 0 := by
  rintro h ⟨a, b, hh⟩
  exact pto_ne_sep h hh

/-- The annotations (source/extensions/annotation.c:327-341): NULL is dereferenced by `free` and `clone`. -/
def annotationMem : KindMem Annotation Annotation.ops where
  free := annFree
  clone := annClone
  at_ := annAt
  nullOk := false
  nonnull := fun h => annAt_ne _ h
  null_clone := by intro d h; cases h
  free_spec := fun {p d} h => by
    cases d with
    | none => cases h rfl
    | some x =>
      show Triple (annAt p x) (annFree p) _
      unfold annFree
      hopen annAt
      hstep (getText_spec (t := t) rfl rfl rfl)
      hstep textClean_spec
      hstep (getText_spec (t := u) rfl rfl rfl)
      hstep textClean_spec
      hlast Triple.free
      hret
  clone_spec := fun {p d d'} h => by
    cases d with
    | none => cases h
    | some x =>
      cases h
      show Triple (annAt p x) (annClone p) (fun q => annAt p x ∗ annAt q { pre := Lines.clone x.pre, suf := Lines.clone x.suf })
      unfold annClone annMalloc
      hopen annAt
      hstep Triple.alloc
      hstep (copyText_spec (t := t) rfl rfl rfl)
      hstep (copyText_spec (t := u) rfl rfl rfl)
      hret

/-- C56: `osl_annotation_free` of NULL is undefined. -/
theorem annotation_free_null (h : Heap) : annFree 0 h = .ub := rfl

/-- C56: `osl_annotation_append_prefix` adds the line to the prefix, which now owns it. -/
theorem annotation_append_prefix_memory (p line : Ptr) (x : Annotation) (type : Int) (w : Str) :
    Triple (annAt p x ∗ line ↦ .chars w) (appendText p 0 type line) (fun _ => annAt p { x with pre := x.pre ++ [(type, w)] }) := by
  hopen annAt
  hlast (appendText_spec (t := t) (x := x.pre) (w := w) rfl rfl rfl)
  hret

/-- C56: `osl_annotation_append_suffix` adds the line to the suffix, which now owns it. -/
theorem annotation_append_suffix_memory (p line : Ptr) (x : Annotation) (type : Int) (w : Str) :
    Triple (annAt p x ∗ line ↦ .chars w) (appendText p 1 type line) (fun _ => annAt p { x with suf := x.suf ++ [(type, w)] }) := by
  hopen annAt
  hlast (appendText_spec (t := u) (x := x.suf) (w := w) rfl rfl rfl)
  hret

end Osl.Mem
