import Verif.HeapRead
import Verif.HeapExtProps3
/-!
# The readers in memory: theorems (C72)

Each theorem says: when the reader which gives values (of the other modules) succeeds on a text, the reader in memory returns the same position,
and a pointer to newly allocated memory which contains exactly the value read.  Nothing else is left allocated (the buffers have been freed), nothing else is
changed.
-/

set_option linter.unusedSectionVars false

namespace Osl.Mem

open Osl.Ext

/-- The result of a reader: a pointer `p` and the position `pos`, with the memory `A`. -/
macro "got " p:ident ", " pos:term " in " A:term : term => `(fun r => ex fun $p => pur (r = ($p, $pos)) ∗ $A)

/-- The next call of the reader which gives values. -/
macro "hread " r:ident ", " hr:ident ", " h:ident : tactic =>
  `(tactic| (obtain ⟨$r, $hr, $h⟩ := Out.bind_eq_ok.mp $h; (try dsimp only at $h:ident); refine Triple.liftStep $hr ?_; (try dsimp only)))

variable [Allocator]

/-! ## Utilities -/

theorem reallocChars_spec {p : Ptr} {v w : Str} : Triple (p ↦ .chars v) (reallocChars p w) (fun q => q ↦ .chars w) := by
  unfold reallocChars
  hstep Triple.free
  hlast Triple.alloc
  hret

/-- C72: `osl_util_read_string` allocates exactly the string. -/
theorem read_string_memory {s w pos : Str} (h : Util.read_string s = .ok (w, pos)) :
    Triple emp (hReadString s) (got p, pos in p ↦ .chars w) := by
  unfold hReadString
  hstep Triple.alloc
  refine Triple.liftStep h ?_
  hstep Triple.store
  hstep reallocChars_spec
  hret

/-- C72: `osl_util_read_string`, from a file. -/
theorem fread_string_memory {s w pos : Str} (h : Util.fread_string s = .ok (w, pos)) :
    Triple emp (hFReadString s) (got p, pos in p ↦ .chars w) := by
  unfold hFReadString
  hstep Triple.alloc
  refine Triple.liftStep h ?_
  hstep Triple.store
  hstep reallocChars_spec
  hret

/-- C72: `osl_util_read_line` allocates exactly the line. -/
theorem read_line_memory {s w pos : Str} (h : Util.read_line s = .ok (w, pos)) :
    Triple emp (hReadLine s) (got p, pos in p ↦ .chars w) := by
  unfold hReadLine
  hstep Triple.alloc
  refine Triple.liftStep h ?_
  hstep Triple.store
  hstep reallocChars_spec
  hret

theorem allocTag_spec {o : Option Str} : Triple emp (allocTag o) (fun p => uriAt p o) := by
  cases o with
  | none =>
    refine Triple.ret (fun h hh => ?_)
    exact ⟨rfl, hh⟩
  | some w =>
    simp only [allocTag]
    hstep Triple.alloc
    hstep Triple.store
    hret

/-- C72: `osl_util_read_tag` allocates exactly the tag, nothing when it returns NULL. -/
theorem read_tag_memory {s pos : Str} {o : Option Str} (h : Util.read_tag s = .ok (o, pos)) :
    Triple emp (hReadTag s) (got p, pos in uriAt p o) := by
  unfold hReadTag
  refine Triple.liftStep h ?_
  hstep allocTag_spec
  hret

/-- C72: `osl_util_read_tag`, from a file. -/
theorem fread_tag_memory {s pos : Str} {o : Option Str} (h : Util.fread_tag s = .ok (o, pos)) :
    Triple emp (hFReadTag s) (got p, pos in uriAt p o) := by
  unfold hFReadTag
  refine Triple.liftStep h ?_
  hstep allocTag_spec
  hret

theorem uptoEnd_spec {o : Option Str} {res : Ptr} {w : Str} : Triple (res ↦ .chars w) (uptoEnd res o) (fun p => uriAt p o) := by
  cases o with
  | none =>
    simp only [uptoEnd]
    hstep Triple.free
    refine Triple.ret (fun h hh => ?_)
    exact ⟨rfl, hh⟩
  | some v =>
    simp only [uptoEnd]
    hstep Triple.store
    exact reallocChars_spec

/-- C72: `osl_util_read_uptoflag` allocates exactly the string before the flag; nothing when the flag is not found. -/
theorem read_uptoflag_memory {s flag pos : Str} {o : Option Str} (h : Util.read_uptoflag s flag = .ok (o, pos)) :
    Triple emp (hReadUptoflag s flag) (got p, pos in uriAt p o) := by
  unfold hReadUptoflag
  hstep Triple.alloc
  refine Triple.liftStep h ?_
  hstep uptoEnd_spec
  hret

/-! ## Strings -/

theorem strReadLoop_spec {arr : Ptr} : ∀ (n i : Nat) (qs : List Ptr) (s : Str) (ws : List Str) (pos : Option Str), qs.length = i →
    Strings.readLoop n s = .ok (ws, pos) →
    Triple (arr ↦ .ptrs (qs ++ List.replicate (n + 1) 0)) (strReadLoop arr n i s)
      (fun r => pur (r = pos) ∗ ex fun ps => arr ↦ .ptrs (qs ++ (ps ++ [0])) ∗ wordsAt ps ws)
  | 0, i, qs, s, ws, pos, hi, h => by
    injection h with h
    injection h with h1 h2
    subst h1 h2
    refine Triple.ret (fun h hh => ?_)
    rw [pur_true rfl, emp_sep]
    refine ⟨[], ?_⟩
    show (_ ∗ emp) h
    rw [sep_emp]
    exact hh
  | n + 1, i, qs, s, ws, pos, hi, h => by
    unfold Strings.readLoop at h
    unfold strReadLoop
    dsimp only at h
    by_cases hl : (s.takeWhile Strings.tokChar).length ≥ MAX_STRING
    · rw [if_pos hl] at h
      cases h
    rw [if_neg hl] at h ⊢
    show Triple (arr ↦ .ptrs (qs ++ 0 :: List.replicate (n + 1) 0)) _ _
    hstep Triple.alloc
    hstep (setField_spec (setNth_append_mid hi))
    cases hd : s.dropWhile Strings.tokChar with
    | nil =>
      rw [hd] at h
      dsimp only at h ⊢
      by_cases hn : n = 0
      · rw [if_pos hn] at h ⊢
        injection h with h
        injection h with h1 h2
        subst h1 h2 hn
        refine Triple.ret (fun h hh => ?_)
        rw [pur_true rfl, emp_sep]
        refine ⟨[d], ?_⟩
        show (_ ∗ d ↦ .chars _ ∗ emp) h
        rw [sep_emp]
        exact hh.perm (by ac_rfl)
      · rw [if_neg hn] at h
        cases h
    | cons c t =>
      rw [hd] at h
      dsimp only at h ⊢
      cases hr : Strings.readLoop n (if c = '#' then c :: t else t) with
      | err => rw [hr] at h; cases h
      | ub => rw [hr] at h; cases h
      | ok r =>
        rw [hr] at h
        obtain ⟨ws', pos'⟩ := r
        injection h with h
        injection h with h1 h2
        subst h1 h2
        have := strReadLoop_spec (arr := arr) n (i + 1) (qs ++ [d]) _ ws' pos' (by simp [hi]) hr
        simp only [List.append_assoc, List.cons_append, List.nil_append] at this
        refine Triple.last (F := d ↦ .chars (s.takeWhile Strings.tokChar)) this (by ac_rfl) (fun r h hh => ?_)
        rw [sep_assoc] at hh
        refine sep_mono (fun _ h => h) (fun h hh => ?_) hh
        rw [ex_sep] at hh
        obtain ⟨ps, hh⟩ := hh
        refine ⟨d :: ps, ?_⟩
        show (arr ↦ .ptrs (qs ++ (d :: (ps ++ [0]))) ∗ d ↦ .chars _ ∗ wordsAt ps ws') h
        exact hh.perm (by ac_rfl)

/-- C72: `osl_strings_sread` allocates exactly the strings. -/
theorem strings_sread_memory {s : Str} {d : Option Strings} {pos : Option Str} (h : Strings.sread s = .ok (d, pos)) :
    Triple emp (strSread s) (got p, pos in stringsAt p d) := by
  unfold Strings.sread at h
  unfold strSread strReadWords
  dsimp only at h
  generalize Util.sskip s = t at h ⊢
  generalize Strings.countLoop (t.length + 1) t 0 = nb at h ⊢
  by_cases hn : nb > 0
  · rw [if_pos hn] at h ⊢
    cases hr : Strings.readLoop nb t with
    | err => rw [hr] at h; cases h
    | ub => rw [hr] at h; cases h
    | ok r =>
      rw [hr] at h
      obtain ⟨ws, pos'⟩ := r
      injection h with h
      injection h with h1 h2
      subst h1 h2
      hstep allocPtrs_spec
      hstep (strReadLoop_spec nb 0 [] t ws pos' rfl hr)
      hstep strMalloc_spec
      show Triple ((ex fun a => strings ↦ .ptrs [a] ∗ arrayAt a []) ∗ _) _ _
      hnorm
      rw [arrayAt_nil]
      hstep getField_spec
      hstep Triple.free
      hstep setField_spec
      refine Triple.ret (fun h hh => ⟨strings, pur_sep_iff.mpr ⟨rfl, ?_⟩⟩)
      refine ⟨arr, ?_⟩
      have hh2 : (strings ↦ .ptrs [arr] ∗ arr ↦ .ptrs (ps ++ [0]) ∗ wordsAt ps ws) h := by
        first | exact hh | exact hh.perm (by ac_rfl)
      exact sep_mono (fun _ h => h) (fun h hh => ⟨ps, hh⟩) hh2
  · rw [if_neg hn] at h ⊢
    injection h with h
    injection h with h1 h2
    subst h1 h2
    refine Triple.ret (fun h hh => ⟨0, pur_sep_iff.mpr ⟨rfl, rfl, hh⟩⟩)

/-- C72: `osl_strings_read` allocates exactly the strings. -/
theorem strings_read_memory {s pos : Str} {d : Option Strings} (h : Strings.read s = .ok (d, pos)) :
    Triple emp (strRead s) (got p, pos in stringsAt p d) := by
  unfold Strings.read at h
  unfold strRead
  cases hf : Util.fskip s with
  | mk o rest =>
    rw [hf] at h
    dsimp only at h ⊢
    cases o with
    | none => cases h
    | some line =>
      dsimp only at h ⊢
      cases hr : Strings.sread line with
      | err => rw [hr] at h; cases h
      | ub => rw [hr] at h; cases h
      | ok r =>
        rw [hr] at h
        obtain ⟨d', pos'⟩ := r
        injection h with h
        injection h with h1 h2
        subst h1 h2
        hstep (strings_sread_memory hr)
        hret

/-! ## Bodies -/

theorem bodyReadIters_spec {n : Int} {s : Str} {d : Option Strings} {pos : Option Str} (h : Body.readIters n s = .ok (d, pos)) :
    Triple emp (bodyReadIters n s) (got p, pos in stringsAt p d) := by
  unfold Body.readIters at h
  unfold bodyReadIters
  split at h
  · rename_i hn
    rw [if_pos hn]
    exact strings_sread_memory h
  · rename_i hn
    rw [if_neg hn]
    injection h with h
    injection h with h1 h2
    subst h1 h2
    hstep strMalloc_spec
    hret

/-- C72: `osl_body_sread` allocates exactly the body. -/
theorem body_sread_memory {s pos : Str} {d : Option Body} (h : Body.sread s = .ok (d, pos)) :
    Triple emp (bodySread s) (got p, pos in optAt bodyAt p d) := by
  unfold Body.sread at h
  unfold bodySread bodyMalloc
  hstep Triple.alloc
  hread n, hn, h
  obtain ⟨⟨its, t⟩, h1, h⟩ := Out.bind_eq_ok.mp h
  dsimp only at h
  cases t with
  | none => cases h
  | some t =>
    dsimp only at h
    obtain ⟨⟨e, t'⟩, h2, h⟩ := Out.bind_eq_ok.mp h
    injection h with h
    injection h with h3 h4
    subst h3 h4
    hstep (bodyReadIters_spec h1)
    hstep setField_spec
    refine Triple.liftStep (a := t) rfl ?_
    hstep (read_line_memory h2)
    hstep strings_encapsulate_memory
    hstep setField_spec
    show Triple _ _ (got p, t' in bodyAt p _)
    hret

/-! ## One kind of data -/

/-- Strings which stay allocated although nothing points to them. -/
def looseAt (l : List Str) : Assn := ex fun ps => wordsAt ps l

theorem looseAt_nil : looseAt [] = emp := by
  funext h
  refine propext ⟨?_, fun hh => ⟨[], hh⟩⟩
  rintro ⟨ps, hh⟩
  cases ps with
  | nil => exact hh
  | cons p ps => exact hh.1.elim

theorem looseAt_append {l m : List Str} : ∀ h, (looseAt l ∗ looseAt m) h → looseAt (l ++ m) h := by
  rintro h ⟨a, b, hd, e, ⟨ps, ha⟩, qs, hb⟩
  refine ⟨ps ++ qs, ?_⟩
  show wordsAt (ps ++ qs) (l ++ m) h
  rw [wordsAt_append (wordsAt_length ha)]
  exact ⟨a, b, hd, e, ha, hb⟩

theorem looseAt_one {p : Ptr} {w : Str} : ∀ h, (p ↦ .chars w) h → looseAt [w] h := by
  intro h hh
  refine ⟨[p], ?_⟩
  show (p ↦ .chars w ∗ emp) h
  rw [sep_emp]
  exact hh

/-- The reader of a kind of data in memory (specification): when the reader which gives values succeeds, it returns the same position and the memory of the value.
`lost` are the strings which it leaves allocated and which do not belong to the value. -/
structure KindRead {X : Type} {o : Ops X} (K : KindMem X o) where
  sread : Option Str → M (Ptr × Option Str)
  lost : Option Str → List Str
  spec : ∀ {s d pos}, o.sread s = .ok (d, pos) → Triple emp (sread s) (got p, pos in (optAt K.at_ p d ∗ looseAt (lost s)))

/-- A reader which loses nothing. -/
theorem got_lost {pos : Option Str} {A : Ptr → Assn} {m : M (Ptr × Option Str)}
    (h : Triple emp m (got p, pos in A p)) : Triple emp m (got p, pos in (A p ∗ looseAt [])) := by
  rw [looseAt_nil]
  simp only [sep_emp]
  exact h


end Osl.Mem
