import Verif.HeapStrings
/-!
# Strings and names in memory: theorems (C52)
-/

namespace Osl.Mem

/-! ## Assertions (specification) -/

/-- The C strings `ws` at the addresses `ps`. -/
def wordsAt : List Ptr → List Str → Assn
  | [], [] => emp
  | p :: ps, w :: ws => p ↦ .chars w ∗ wordsAt ps ws
  | _, _ => pur False

/-- The memory of an array of strings: the array with its final NULL, and the strings. -/
def arrayAt (a : Ptr) (ws : List Str) : Assn := ex fun ps => a ↦ .ptrs (ps ++ [0]) ∗ wordsAt ps ws

/-- The memory of the field `string`. -/
def stringAt (a : Ptr) : Option (List Str) → Assn
  | none => pur (a = 0)
  | some ws => arrayAt a ws

/-- The memory of an `osl_strings_t`. -/
def stringsAt (p : Ptr) : Option Strings → Assn
  | none => pur (p = 0)
  | some s => ex fun a => p ↦ .ptrs [a] ∗ stringAt a s.string

/-- The memory of an `osl_names_t`. -/
def namesAt (p : Ptr) : Option Names → Assn
  | none => pur (p = 0)
  | some n => ex fun a => ex fun b => ex fun c => ex fun d => ex fun e => p ↦ .ptrs [a, b, c, d, e] ∗ stringsAt a n.parameters ∗
      stringsAt b n.iterators ∗ stringsAt c n.scatt_dims ∗ stringsAt d n.local_dims ∗ stringsAt e n.arrays

/-! ## Lemmas -/

theorem wordsAt_length : ∀ {ps : List Ptr} {ws : List Str} {h : PHeap}, wordsAt ps ws h → ps.length = ws.length
  | [], [], _, _ => rfl
  | [], _ :: _, _, hh => absurd hh.1 id
  | _ :: _, [], _, hh => absurd hh.1 id
  | _ :: ps, _ :: ws, _, hh => by
    obtain ⟨_, _, _, _, _, h2⟩ := hh
    simp [wordsAt_length h2]

theorem wordsAt_len {ps : List Ptr} {ws : List Str} : ∀ h, wordsAt ps ws h → ps.length = ws.length := fun _ hh => wordsAt_length hh

theorem wordsAt_ne : ∀ {ps : List Ptr} {ws : List Str} {h : PHeap}, wordsAt ps ws h → ∀ p ∈ ps, p ≠ 0
  | [], _, _, _ => by simp
  | _ :: _, [], _, hh => absurd hh.1 id
  | q :: ps, _ :: ws, _, hh => by
    obtain ⟨_, _, _, _, h1, h2⟩ := hh
    intro p hp
    rcases List.mem_cons.mp hp with rfl | hp
    · exact h1.1
    · exact wordsAt_ne h2 p hp

theorem wordsAt_append : ∀ {ps qs : List Ptr} {ws vs : List Str}, ps.length = ws.length → wordsAt (ps ++ qs) (ws ++ vs) = (wordsAt ps ws ∗ wordsAt qs vs)
  | [], qs, [], vs, _ => by simp [wordsAt]
  | [], _, _ :: _, _, h => by simp at h
  | _ :: _, _, [], _, h => by simp at h
  | p :: ps, qs, w :: ws, vs, h => by
    simp only [List.cons_append, wordsAt, wordsAt_append (ps := ps) (ws := ws) (by simpa using h), sep_assoc]

theorem arrayAt_ne {a : Ptr} {ws : List Str} : ∀ h, arrayAt a ws h → a ≠ 0 := by
  rintro h ⟨ps, hh⟩
  exact pto_ne_sep h hh

theorem stringsAt_ne {p : Ptr} {s : Strings} : ∀ h, stringsAt p (some s) h → p ≠ 0 := by
  rintro h ⟨a, hh⟩
  exact pto_ne_sep h hh

theorem hStrdup_spec [Allocator] {s : Ptr} {w : Str} : Triple (s ↦ .chars w) (hStrdup s) (fun d => s ↦ .chars w ∗ d ↦ .chars w) := by
  refine Triple.of_fact pto_ne (fun hs => ?_)
  unfold hStrdup
  rw [if_pos hs]
  refine Triple.loadStep (F := emp) (by rw [sep_emp]) ?_
  refine Triple.liftStep (a := w) rfl ?_
  exact Triple.last (P := emp) (F := s ↦ .chars w) (Triple.alloc _) (by rw [emp_sep]) (fun d h hh => hh.perm (by ac_rfl))

theorem strMalloc_spec [Allocator] : Triple emp strMalloc (fun p => stringsAt p (some Strings.malloc)) := by
  unfold strMalloc
  refine Triple.bind (Triple.alloc _) (fun a => ?_)
  refine Triple.last (P := emp) (F := a ↦ .ptrs [0]) (Triple.alloc _) (by rw [emp_sep]) (fun p h hh => ⟨a, ?_⟩)
  refine sep_mono (fun _ h => h) (fun h hh => ⟨[], ?_⟩) hh
  show (a ↦ .ptrs [0] ∗ emp) h
  rw [sep_emp]
  exact hh

/-! ## Deallocation -/

theorem strFreeLoop_spec {arr : Ptr} : ∀ (ps : List Ptr) (ws : List Str) (f i : Nat) (done : List Ptr), done.length = i → ps.length < f →
    Triple (arr ↦ .ptrs (done ++ (ps ++ [0])) ∗ wordsAt ps ws) (strFreeLoop arr f i) (fun _ => arr ↦ .ptrs (done ++ (ps ++ [0])))
  | ps, ws, 0, _, _, _, hf => absurd hf (by omega)
  | [], [], f + 1, i, done, hi, _ => by
    unfold strFreeLoop
    refine Triple.stepEq (F := wordsAt [] []) (getField_spec (l := done ++ ([] ++ [0])) (x := 0) (nth_mid (by omega))) rfl ?_
    rw [if_pos rfl]
    exact Triple.ret (fun h hh => by have : wordsAt [] [] = emp := rfl; rw [this, sep_emp] at hh; exact hh)
  | [], _ :: _, _ + 1, _, _, _, _ => by
    refine Triple.of_fact (φ := False) ?_ (fun h => h.elim)
    rintro h ⟨_, _, _, _, _, hh⟩
    exact hh.1
  | _ :: _, [], _ + 1, _, _, _, _ => by
    refine Triple.of_fact (φ := False) ?_ (fun h => h.elim)
    rintro h ⟨_, _, _, _, _, hh⟩
    exact hh.1
  | p :: ps, w :: ws, f + 1, i, done, hi, hf => by
    show Triple (arr ↦ .ptrs (done ++ (p :: ps ++ [0])) ∗ p ↦ .chars w ∗ wordsAt ps ws) _ _
    have e : (arr ↦ .ptrs (done ++ (p :: ps ++ [0])) ∗ p ↦ .chars w ∗ wordsAt ps ws) = (p ↦ .chars w ∗ arr ↦ .ptrs (done ++ (p :: ps ++ [0])) ∗ wordsAt ps ws) := by
      ac_rfl
    rw [e]
    refine Triple.frame_fact pto_ne (fun hp => ?_)
    unfold strFreeLoop
    refine Triple.stepEq (F := p ↦ .chars w ∗ wordsAt ps ws) (getField_spec (p := arr) (l := done ++ (p :: (ps ++ [0]))) (i := i) (x := p) (nth_mid (by omega)))
      (by show _ = arr ↦ .ptrs (done ++ (p :: ps ++ [0])) ∗ _; ac_rfl) ?_
    rw [if_neg hp]
    refine Triple.step (Triple.free p _) rfl (fun _ => ?_)
    rw [emp_sep]
    have := strFreeLoop_spec (arr := arr) ps ws f (i + 1) (done ++ [p]) (by simp [hi]) (by simpa using hf)
    simpa using this

theorem strFreeArray_spec {a : Ptr} {s : Option (List Str)} : Triple (stringAt a s) (strFreeArray a) (fun _ => emp) := by
  unfold strFreeArray
  cases s with
  | none =>
    refine Triple.of_fact (φ := a = 0) (fun h hh => hh.1) (fun ha => ?_)
    rw [if_neg (by simp [ha])]
    exact Triple.ret (fun h hh => hh.2)
  | some ws =>
    show Triple (arrayAt a ws) _ _
    refine Triple.of_fact arrayAt_ne (fun ha => ?_)
    rw [if_pos ha]
    refine Triple.exi (fun ps => ?_)
    refine Triple.stepEq loadPtrs_spec rfl ?_
    refine Triple.bind (Q := fun _ => a ↦ .ptrs (ps ++ [0])) ?_ (fun _ => Triple.free a _)
    simpa using strFreeLoop_spec (arr := a) ps ws (ps.length + 1) 0 [] rfl (by omega)

/-- C52: `osl_strings_free` frees the structure, the array and the strings, and nothing else. -/
theorem strings_free_memory (p : Ptr) (s : Option Strings) : Triple (stringsAt p s) (strFree p) (fun _ => emp) := by
  unfold strFree
  cases s with
  | none =>
    refine Triple.of_fact (φ := p = 0) (fun h hh => hh.1) (fun hp => ?_)
    rw [if_neg (by simp [hp])]
    exact Triple.ret (fun h hh => hh.2)
  | some s =>
    refine Triple.of_fact stringsAt_ne (fun hp => ?_)
    rw [if_pos hp]
    refine Triple.exi (fun a => ?_)
    refine Triple.stepEq (getField_spec (l := [a]) (x := a) rfl) rfl ?_
    refine Triple.step (F := p ↦ .ptrs [a]) strFreeArray_spec (by rw [sep_comm]) (fun _ => ?_)
    rw [emp_sep]
    exact Triple.free p _

/-! ## Number of strings -/

theorem strSizeLoop_spec {arr : Ptr} : ∀ (ps : List Ptr) (f i : Nat) (done : List Ptr), (∀ p ∈ ps, p ≠ 0) → done.length = i → ps.length < f →
    Triple (arr ↦ .ptrs (done ++ (ps ++ [0]))) (strSizeLoop arr f i) (fun n => pur (n = i + ps.length) ∗ arr ↦ .ptrs (done ++ (ps ++ [0])))
  | ps, 0, _, _, _, _, hf => absurd hf (by omega)
  | [], f + 1, i, done, _, hi, _ => by
    unfold strSizeLoop
    refine Triple.stepEq (F := emp) (getField_spec (l := done ++ ([] ++ [0])) (x := 0) (nth_mid (by omega))) (by rw [sep_emp]) ?_
    rw [if_pos rfl]
    exact Triple.ret (fun h hh => pur_sep_iff.mpr ⟨rfl, hh⟩)
  | p :: ps, f + 1, i, done, hn, hi, hf => by
    unfold strSizeLoop
    refine Triple.stepEq (F := emp) (getField_spec (p := arr) (l := done ++ (p :: (ps ++ [0]))) (i := i) (x := p) (nth_mid (by omega))) (by rw [sep_emp]; rfl) ?_
    rw [if_neg (hn p (by simp))]
    have := strSizeLoop_spec (arr := arr) ps f (i + 1) (done ++ [p]) (fun q hq => hn q (by simp [hq])) (by simp [hi]) (by simpa using hf)
    simpa [Nat.add_assoc, Nat.add_comm 1] using this

theorem strSizeArray_spec {a : Ptr} {s : Option (List Str)} :
    Triple (stringAt a s) (strSizeArray a) (fun n => pur (n = (s.getD []).length) ∗ stringAt a s) := by
  unfold strSizeArray
  cases s with
  | none =>
    refine Triple.of_fact (φ := a = 0) (fun h hh => hh.1) (fun ha => ?_)
    rw [if_neg (by simp [ha])]
    exact Triple.ret (fun h hh => pur_sep_iff.mpr ⟨rfl, hh⟩)
  | some ws =>
    show Triple (arrayAt a ws) _ (fun n => _ ∗ arrayAt a ws)
    refine Triple.of_fact arrayAt_ne (fun ha => ?_)
    rw [if_pos ha]
    refine Triple.exi (fun ps => ?_)
    rw [sep_comm]
    refine Triple.frame_fact (φ := ps.length = ws.length ∧ ∀ p ∈ ps, p ≠ 0) (fun h hh => ⟨wordsAt_length hh, wordsAt_ne hh⟩) (fun hps => ?_)
    rw [sep_comm]
    refine Triple.stepEq loadPtrs_spec rfl ?_
    refine Triple.last (strSizeLoop_spec (arr := a) ps _ 0 [] hps.2 rfl (by simp)) rfl (fun n h hh => ?_)
    rw [sep_assoc] at hh
    obtain ⟨hn, hh2⟩ := pur_sep_iff.mp hh
    exact pur_sep_iff.mpr ⟨by rw [hn, hps.1]; simp, ps, hh2⟩

theorem strings_size_eq (s : Strings) : Strings.size (some s) = (s.string.getD []).length := by
  unfold Strings.size
  obtain ⟨o⟩ := s
  cases o <;> rfl

/-- C52: `osl_strings_size` reads only. -/
theorem strings_size_memory (p : Ptr) (s : Option Strings) : Triple (stringsAt p s) (strSize p) (fun n => pur (n = Strings.size s) ∗ stringsAt p s) := by
  unfold strSize
  cases s with
  | none =>
    refine Triple.of_fact (φ := p = 0) (fun h hh => hh.1) (fun hp => ?_)
    rw [if_neg (by simp [hp])]
    exact Triple.ret (fun h hh => pur_sep_iff.mpr ⟨rfl, hh⟩)
  | some s =>
    refine Triple.of_fact stringsAt_ne (fun hp => ?_)
    rw [if_pos hp]
    refine Triple.exi (fun a => ?_)
    refine Triple.stepEq (getField_spec (l := [a]) (x := a) rfl) rfl ?_
    refine Triple.last (F := p ↦ .ptrs [a]) strSizeArray_spec (by rw [sep_comm]) (fun n h hh => ?_)
    rw [sep_assoc] at hh
    obtain ⟨hn, hh2⟩ := pur_sep_iff.mp hh
    exact pur_sep_iff.mpr ⟨by rw [hn, strings_size_eq], a, hh2.perm (sep_comm _ _)⟩

/-! ## Copies -/

theorem strDupLoop_spec [Allocator] {src dst : Ptr} : ∀ (ps : List Ptr) (ws : List Str) (i : Nat) (done qs : List Ptr), done.length = i → qs.length = i →
    Triple (src ↦ .ptrs (done ++ (ps ++ [0])) ∗ wordsAt ps ws ∗ dst ↦ .ptrs (qs ++ List.replicate (ps.length + 1) 0)) (strDupLoop src dst ps.length i)
      (fun _ => src ↦ .ptrs (done ++ (ps ++ [0])) ∗ wordsAt ps ws ∗ ex fun rs => dst ↦ .ptrs (qs ++ (rs ++ [0])) ∗ wordsAt rs ws)
  | [], [], i, done, qs, _, _ => by
    refine Triple.ret (fun h hh => ?_)
    refine sep_mono (fun _ h => h) (fun h hh => sep_mono (fun _ h => h) (fun h hh => ⟨[], ?_⟩) hh) hh
    show (dst ↦ .ptrs (qs ++ [0]) ∗ emp) h
    rw [sep_emp]
    exact hh
  | [], _ :: _, _, _, _, _, _ => by
    refine Triple.of_fact (φ := False) ?_ (fun h => h.elim)
    rintro h ⟨_, _, _, _, _, _, _, _, _, hh, _⟩
    exact hh.1
  | _ :: _, [], _, _, _, _, _ => by
    refine Triple.of_fact (φ := False) ?_ (fun h => h.elim)
    rintro h ⟨_, _, _, _, _, _, _, _, _, hh, _⟩
    exact hh.1
  | p :: ps, w :: ws, i, done, qs, hd, hq => by
    show Triple (src ↦ .ptrs (done ++ (p :: ps ++ [0])) ∗ (p ↦ .chars w ∗ wordsAt ps ws) ∗ dst ↦ .ptrs (qs ++ List.replicate (ps.length + 1 + 1) 0)) (strDupLoop src dst (ps.length + 1) i)
      (fun _ => src ↦ .ptrs (done ++ (p :: ps ++ [0])) ∗ (p ↦ .chars w ∗ wordsAt ps ws) ∗ ex fun rs => dst ↦ .ptrs (qs ++ (rs ++ [0])) ∗ wordsAt rs (w :: ws))
    unfold strDupLoop
    generalize hS : src ↦ .ptrs (done ++ (p :: ps ++ [0])) = S
    have hgs : Triple S (getField src i) (fun r => pur (r = p) ∗ S) := by
      rw [← hS]
      exact getField_spec (l := done ++ (p :: (ps ++ [0]))) (i := i) (x := p) (nth_mid (l1 := done) (by omega))
    refine Triple.stepEq hgs rfl ?_
    refine Triple.step (F := S ∗ wordsAt ps ws ∗ dst ↦ .ptrs (qs ++ List.replicate (ps.length + 1 + 1) 0)) (hStrdup_spec (s := p) (w := w)) (by ac_rfl) (fun d => ?_)
    have hset : Triple (dst ↦ .ptrs (qs ++ List.replicate (ps.length + 1 + 1) 0)) (setField dst i d) (fun _ => dst ↦ .ptrs ((qs ++ [d]) ++ List.replicate (ps.length + 1) 0)) := by
      refine setField_spec ?_
      rw [List.replicate_succ, List.append_assoc]
      exact setNth_mid (l1 := qs) (by omega)
    refine Triple.step (F := S ∗ p ↦ .chars w ∗ wordsAt ps ws ∗ d ↦ .chars w) hset (by ac_rfl) (fun _ => ?_)
    have ih := strDupLoop_spec (src := src) (dst := dst) ps ws (i + 1) (done ++ [p]) (qs ++ [d]) (by simp [hd]) (by simp [hq])
    have e1 : src ↦ .ptrs (done ++ [p] ++ (ps ++ [0])) = S := by rw [← hS]; simp
    rw [e1] at ih
    refine Triple.last (F := p ↦ .chars w ∗ d ↦ .chars w) ih (by ac_rfl) (fun _ h hh => ?_)
    have hh' : ((ex fun rs => dst ↦ .ptrs (qs ++ [d] ++ (rs ++ [0])) ∗ wordsAt rs ws) ∗ d ↦ .chars w ∗ S ∗ p ↦ .chars w ∗ wordsAt ps ws) h := hh.perm (by ac_rfl)
    rw [ex_sep] at hh'
    obtain ⟨rs, hh2⟩ := hh'
    have hh3 : (S ∗ (p ↦ .chars w ∗ wordsAt ps ws) ∗ dst ↦ .ptrs (qs ++ [d] ++ (rs ++ [0])) ∗ d ↦ .chars w ∗ wordsAt rs ws) h := hh2.perm (by ac_rfl)
    refine sep_mono (fun _ h => h) (fun h hh => sep_mono (fun _ h => h) (fun h hh => ⟨d :: rs, ?_⟩) hh) hh3
    have e2 : qs ++ (d :: rs ++ [0]) = qs ++ [d] ++ (rs ++ [0]) := by simp
    show (dst ↦ .ptrs (qs ++ (d :: rs ++ [0])) ∗ d ↦ .chars w ∗ wordsAt rs ws) h
    rw [e2]
    exact hh

theorem Strings.clone_some (s : Strings) : Strings.clone (some s) = some { string := some (s.string.getD []) } := by
  show (if Strings.size (some s) = 0 then some Strings.malloc else some { string := some (s.words.map Util.strdup) }) = _
  rw [strings_size_eq]
  obtain ⟨o⟩ := s
  cases o with
  | none => rfl
  | some l =>
    cases l with
    | nil => rfl
    | cons w ws =>
      have : Util.strdup = id := rfl
      simp [Strings.words, this]

/-- C52: `osl_strings_clone` makes a copy in new memory. -/
theorem strings_clone_memory [Allocator] (p : Ptr) (s : Option Strings) :
    Triple (stringsAt p s) (strClone p) (fun q => stringsAt p s ∗ stringsAt q (Strings.clone s)) := by
  unfold strClone
  cases s with
  | none =>
    refine Triple.of_fact (φ := p = 0) (fun h hh => hh.1) (fun hp => ?_)
    rw [if_pos hp]
    refine Triple.ret (fun h hh => ?_)
    show (stringsAt p none ∗ pur ((0 : Ptr) = 0)) h
    rw [pur_true rfl, sep_emp]
    exact hh
  | some s =>
    refine Triple.of_fact stringsAt_ne (fun hp => ?_)
    rw [if_neg hp, Strings.clone_some]
    refine Triple.step (P := emp) strMalloc_spec (by rw [emp_sep]) (fun q => ?_)
    refine Triple.stepEq (F := stringsAt q (some Strings.malloc)) (strings_size_memory p (some s)) (by rw [sep_comm]) ?_
    rw [strings_size_eq]
    unfold strCloneWords
    split
    · rename_i hz
      refine Triple.ret (fun h hh => ?_)
      have : s.string.getD [] = [] := List.length_eq_zero_iff.mp hz
      rw [this]
      exact hh.perm (by rw [sep_comm]; rfl)
    · rename_i hz
      obtain ⟨o⟩ := s
      cases o with
      | none => simp at hz
      | some ws =>
        have e0 : (stringsAt q (some Strings.malloc) ∗ stringsAt p (some ⟨some ws⟩)) =
            ex fun a => (q ↦ .ptrs [a] ∗ arrayAt a []) ∗ stringsAt p (some ⟨some ws⟩) := by
          show (ex fun a => q ↦ .ptrs [a] ∗ arrayAt a []) ∗ _ = _
          rw [ex_sep]
        rw [e0]
        refine Triple.exi (fun a => ?_)
        refine Triple.stepEq (F := arrayAt a [] ∗ stringsAt p (some ⟨some ws⟩)) (getField_spec (p := q) (l := [a]) (x := a) rfl) (by ac_rfl) ?_
        have e1 : arrayAt a [] = a ↦ .ptrs [0] := by
          funext h
          apply propext
          constructor
          · rintro ⟨ps, hh⟩
            cases ps with
            | nil => have hh' : (a ↦ .ptrs ([] ++ [0]) ∗ emp) h := hh; rw [sep_emp] at hh'; exact hh'
            | cons _ _ =>
              obtain ⟨_, _, _, _, _, hh⟩ := hh
              exact absurd hh.1 id
          · intro hh
            refine ⟨[], ?_⟩
            show (a ↦ .ptrs [0] ∗ emp) h
            rw [sep_emp]
            exact hh
        rw [e1]
        refine Triple.step (F := q ↦ .ptrs [a] ∗ stringsAt p (some ⟨some ws⟩)) (Triple.free a (.ptrs [0])) (by ac_rfl) (fun _ => ?_)
        rw [emp_sep]
        refine Triple.step (P := emp) (F := q ↦ .ptrs [a] ∗ stringsAt p (some ⟨some ws⟩)) (Triple.alloc _) (by rw [emp_sep]) (fun arr => ?_)
        refine Triple.step (F := arr ↦ .ptrs (List.replicate (ws.length + 1) 0) ∗ stringsAt p (some ⟨some ws⟩)) (setField_spec (p := q) (l := [a]) (l' := [arr]) (i := 0) (x := arr) rfl)
          (by show arr ↦ .ptrs (List.replicate (ws.length + 1) 0) ∗ _ = _; ac_rfl) (fun _ => ?_)
        have e2 : (q ↦ .ptrs [arr] ∗ arr ↦ .ptrs (List.replicate (ws.length + 1) 0) ∗ stringsAt p (some ⟨some ws⟩)) =
            ex fun b => ex fun ps => wordsAt ps ws ∗ p ↦ .ptrs [b] ∗ b ↦ .ptrs (ps ++ [0]) ∗ q ↦ .ptrs [arr] ∗ arr ↦ .ptrs (List.replicate (ws.length + 1) 0) := by
          have : stringsAt p (some ⟨some ws⟩) = ex fun b => ex fun ps => wordsAt ps ws ∗ p ↦ .ptrs [b] ∗ b ↦ .ptrs (ps ++ [0]) := by
            show (ex fun b => p ↦ .ptrs [b] ∗ ex fun ps => b ↦ .ptrs (ps ++ [0]) ∗ wordsAt ps ws) = _
            congr 1
            funext b
            rw [sep_ex]
            congr 1
            funext ps
            ac_rfl
          rw [this, ← sep_assoc, sep_ex]
          congr 1
          funext b
          rw [sep_ex]
          congr 1
          funext ps
          ac_rfl
        rw [e2]
        refine Triple.exi (fun b => Triple.exi (fun ps => ?_))
        refine Triple.frame_fact (φ := ps.length = ws.length) wordsAt_len (fun hl => ?_)
        refine Triple.stepEq (F := wordsAt ps ws ∗ b ↦ .ptrs (ps ++ [0]) ∗ q ↦ .ptrs [arr] ∗ arr ↦ .ptrs (List.replicate (ws.length + 1) 0))
          (getField_spec (p := p) (l := [b]) (i := 0) (x := b) rfl) (by ac_rfl) ?_
        have := strDupLoop_spec (src := b) (dst := arr) ps ws 0 [] [] rfl rfl
        simp only [List.nil_append, hl] at this
        refine Triple.step (F := p ↦ .ptrs [b] ∗ q ↦ .ptrs [arr]) this (by ac_rfl) (fun _ => ?_)
        refine Triple.ret (fun h hh => ?_)
        have hh' : ((p ↦ .ptrs [b] ∗ b ↦ .ptrs (ps ++ [0]) ∗ wordsAt ps ws) ∗ q ↦ .ptrs [arr] ∗ ex fun rs => arr ↦ .ptrs (rs ++ [0]) ∗ wordsAt rs ws) h := hh.perm (by ac_rfl)
        exact sep_mono (fun h hh => ⟨b, sep_mono (fun _ h => h) (fun h hh => ⟨ps, hh⟩) hh⟩) (fun h hh => ⟨arr, hh⟩) hh'

/-! ## Additions -/

theorem arrayAt_nil {a : Ptr} : arrayAt a [] = a ↦ .ptrs [0] := by
  funext h
  apply propext
  constructor
  · rintro ⟨ps, hh⟩
    cases ps with
    | nil => have hh' : (a ↦ .ptrs ([] ++ [0]) ∗ emp) h := hh; rw [sep_emp] at hh'; exact hh'
    | cons _ _ =>
      obtain ⟨_, _, _, _, _, hh⟩ := hh
      exact absurd hh.1 id
  · intro hh
    refine ⟨[], ?_⟩
    show (a ↦ .ptrs [0] ∗ emp) h
    rw [sep_emp]
    exact hh

/-- The array after `realloc`: the strings are still there, with two free places. -/
theorem reallocPtrs_spec [Allocator] {a : Ptr} {s : Option (List Str)} : Triple (stringAt a s) (reallocPtrs a ((s.getD []).length + 1 + 1))
    (fun b => ex fun ps => wordsAt ps (s.getD []) ∗ b ↦ .ptrs (ps ++ [0, 0])) := by
  unfold reallocPtrs
  cases s with
  | none =>
    refine Triple.of_fact (φ := a = 0) (fun h hh => hh.1) (fun ha => ?_)
    rw [if_pos ha]
    have : stringAt a none = emp := pur_true ha
    rw [this]
    refine (Triple.alloc _).post (fun b h hh => ⟨[], ?_⟩)
    show (emp ∗ b ↦ .ptrs [0, 0]) h
    rw [emp_sep]
    exact hh
  | some ws =>
    show Triple (arrayAt a ws) _ _
    refine Triple.of_fact arrayAt_ne (fun ha => ?_)
    rw [if_neg ha]
    refine Triple.exi (fun ps => ?_)
    rw [sep_comm]
    refine Triple.frame_fact (φ := ps.length = ws.length) wordsAt_len (fun hl => ?_)
    rw [sep_comm]
    refine Triple.stepEq loadPtrs_spec rfl ?_
    refine Triple.step (Triple.free a _) rfl (fun _ => ?_)
    rw [emp_sep]
    refine Triple.last (P := emp) (Triple.alloc _) (by rw [emp_sep]) (fun b h hh => ⟨ps, ?_⟩)
    have e : ((ps ++ [0]).take ((some ws).getD []).length.succ.succ ++ List.replicate (((some ws).getD []).length + 1 + 1 - (ps ++ [0]).length) 0) = ps ++ [0, 0] := by
      rw [List.take_of_length_le (by simp [hl]), Option.getD_some, ← hl]
      simp
    rw [e] at hh
    exact hh.perm (sep_comm _ _)

/-- C52: `osl_strings_add` puts a copy of the string at the end; the string itself is not in the structure. -/
theorem strings_add_memory [Allocator] (p q : Ptr) (s : Strings) (w : Str) :
    Triple (stringsAt p (some s) ∗ q ↦ .chars w) (strAdd p q) (fun _ => stringsAt p (some (Strings.add s w)) ∗ q ↦ .chars w) := by
  unfold strAdd
  refine Triple.stepEq (strings_size_memory p (some s)) rfl ?_
  rw [strings_size_eq]
  have e : (stringsAt p (some s) ∗ q ↦ .chars w) = ex fun a => p ↦ .ptrs [a] ∗ stringAt a s.string ∗ q ↦ .chars w := by
    show (ex fun a => p ↦ .ptrs [a] ∗ stringAt a s.string) ∗ _ = _
    rw [ex_sep]
    congr 1
    funext a
    rw [sep_assoc]
  rw [e]
  refine Triple.exi (fun a => ?_)
  refine Triple.stepEq (getField_spec (l := [a]) (x := a) rfl) rfl ?_
  refine Triple.step (F := p ↦ .ptrs [a] ∗ q ↦ .chars w) (reallocPtrs_spec (a := a) (s := s.string)) (by ac_rfl) (fun arr => ?_)
  rw [ex_sep]
  refine Triple.exi (fun ps => ?_)
  rw [sep_assoc]
  refine Triple.frame_fact (φ := ps.length = (s.string.getD []).length) wordsAt_len (fun hl => ?_)
  generalize hW : wordsAt ps (s.string.getD []) = W
  refine Triple.step (F := W ∗ arr ↦ .ptrs (ps ++ [0, 0]) ∗ q ↦ .chars w) (setField_spec (p := p) (l := [a]) (l' := [arr]) (i := 0) (x := arr) rfl) (by ac_rfl) (fun _ => ?_)
  have h1 : setNth (ps ++ [0, 0]) (((s.string.getD []).length + 1 : Nat) : Int) 0 = .ok (ps ++ [0, 0]) := by
    have := setNth_mid (l1 := ps ++ [0]) (l2 := []) (x := 0) (y := 0) (i := (((s.string.getD []).length + 1 : Nat) : Int)) (by simp [hl])
    simpa using this
  refine Triple.step (F := W ∗ p ↦ .ptrs [arr] ∗ q ↦ .chars w) (setField_spec (p := arr) h1) (by ac_rfl) (fun _ => ?_)
  refine Triple.step (F := W ∗ p ↦ .ptrs [arr] ∗ arr ↦ .ptrs (ps ++ [0, 0])) (hStrdup_spec (s := q) (w := w)) (by ac_rfl) (fun d => ?_)
  have h2 : setNth (ps ++ [0, 0]) (((s.string.getD []).length : Nat) : Int) d = .ok (ps ++ [d, 0]) := setNth_mid (by rw [hl])
  refine Triple.last (F := W ∗ p ↦ .ptrs [arr] ∗ q ↦ .chars w ∗ d ↦ .chars w) (setField_spec (p := arr) h2) (by ac_rfl) (fun _ h hh => ?_)
  have hh' : ((p ↦ .ptrs [arr] ∗ arr ↦ .ptrs (ps ++ [d, 0]) ∗ W ∗ d ↦ .chars w ∗ emp) ∗ q ↦ .chars w) h := hh.perm (by rw [sep_emp]; ac_rfl)
  refine sep_mono (fun h hh => ⟨arr, sep_mono (fun _ h => h) (fun h hh => ⟨ps ++ [d], ?_⟩) hh⟩) (fun _ h => h) hh'
  show (arr ↦ .ptrs (ps ++ [d] ++ [0]) ∗ wordsAt (ps ++ [d]) (s.words ++ [w])) h
  rw [wordsAt_append (by rw [hl]; rfl)]
  have e2 : ps ++ [d] ++ [0] = ps ++ [d, 0] := by simp
  rw [e2]
  have e3 : wordsAt ps s.words = W := hW
  rw [e3]
  exact hh

/-- C52: `osl_strings_encapsulate` puts the string itself (not a copy) in the structure: the structure owns it. -/
theorem strings_encapsulate_memory [Allocator] (q : Ptr) (w : Str) :
    Triple (q ↦ .chars w) (strEncapsulate q) (fun p => stringsAt p (some (Strings.encapsulate w))) := by
  unfold strEncapsulate
  refine Triple.step (P := emp) strMalloc_spec (by rw [emp_sep]) (fun p => ?_)
  show Triple ((ex fun a => p ↦ .ptrs [a] ∗ arrayAt a []) ∗ _) _ _
  rw [ex_sep]
  refine Triple.exi (fun a => ?_)
  rw [arrayAt_nil]
  refine Triple.stepEq (F := a ↦ .ptrs [0] ∗ q ↦ .chars w) (getField_spec (l := [a]) (x := a) rfl) (by ac_rfl) ?_
  refine Triple.step (F := p ↦ .ptrs [a] ∗ q ↦ .chars w) (Triple.free a (.ptrs [0])) (by ac_rfl) (fun _ => ?_)
  rw [emp_sep]
  refine Triple.step (P := emp) (F := p ↦ .ptrs [a] ∗ q ↦ .chars w) (Triple.alloc _) (by rw [emp_sep]) (fun arr => ?_)
  refine Triple.step (F := arr ↦ .ptrs [q, 0] ∗ q ↦ .chars w) (setField_spec (p := p) (l := [a]) (l' := [arr]) (i := 0) (x := arr) rfl) (by ac_rfl) (fun _ => ?_)
  refine Triple.ret (fun h hh => ⟨arr, sep_mono (fun _ h => h) (fun h hh => ⟨[q], ?_⟩) hh⟩)
  show (arr ↦ .ptrs [q, 0] ∗ q ↦ .chars w ∗ emp) h
  rw [sep_emp]
  exact hh

theorem strGenLoop_spec [Allocator] {pre : Str} {arr : Ptr} : ∀ (n i : Nat) (qs : List Ptr), qs.length = i →
    Triple (arr ↦ .ptrs (qs ++ List.replicate (n + 1) 0)) (strGenLoop pre arr n i)
      (fun _ => ex fun rs => arr ↦ .ptrs (qs ++ (rs ++ [0])) ∗ wordsAt rs (Strings.genLoop pre i n))
  | 0, i, qs, _ => by
    refine Triple.ret (fun h hh => ⟨[], ?_⟩)
    show (arr ↦ .ptrs (qs ++ [0]) ∗ emp) h
    rw [sep_emp]
    exact hh
  | n + 1, i, qs, hq => by
    unfold strGenLoop
    refine Triple.step (P := emp) (Triple.alloc _) (by rw [emp_sep]) (fun d => ?_)
    have hset : Triple (arr ↦ .ptrs (qs ++ List.replicate (n + 1 + 1) 0)) (setField arr i d) (fun _ => arr ↦ .ptrs ((qs ++ [d]) ++ List.replicate (n + 1) 0)) := by
      refine setField_spec ?_
      rw [List.replicate_succ, List.append_assoc]
      exact setNth_mid (l1 := qs) (by omega)
    refine Triple.step (F := d ↦ .chars (pre ++ showNat (i + 1))) hset (by rw [sep_comm]) (fun _ => ?_)
    refine Triple.last (strGenLoop_spec n (i + 1) (qs ++ [d]) (by simp [hq])) rfl (fun _ h hh => ?_)
    rw [ex_sep] at hh
    obtain ⟨rs, hh2⟩ := hh
    refine ⟨d :: rs, ?_⟩
    have e2 : qs ++ (d :: rs ++ [0]) = qs ++ [d] ++ (rs ++ [0]) := by simp
    show (arr ↦ .ptrs (qs ++ (d :: rs ++ [0])) ∗ d ↦ .chars (pre ++ showNat (i + 1)) ∗ wordsAt rs (Strings.genLoop pre (i + 1) n)) h
    rw [e2]
    exact hh2.perm (by ac_rfl)

theorem strGenArray_spec [Allocator] {pre : Str} {n : Int} {s : Strings} (h : Strings.generate pre n = .ok s) :
    Triple emp (strGenArray pre n) (fun a => stringAt a s.string) := by
  unfold Strings.generate at h
  unfold strGenArray
  split at h
  · rename_i hn
    rw [if_pos hn]
    injection h with h
    subst h
    exact Triple.ret (fun h hh => ⟨rfl, hh⟩)
  · rename_i hn
    split at h
    · simp at h
    · rename_i hn2
      rw [if_neg hn, if_neg hn2]
      injection h with h
      subst h
      refine Triple.bind (Triple.alloc _) (fun arr => ?_)
      have := strGenLoop_spec (pre := pre) (arr := arr) n.toNat 0 [] rfl
      refine Triple.step (F := emp) this (by rw [sep_emp]; rfl) (fun _ => ?_)
      rw [sep_emp]
      exact Triple.ret (fun h hh => hh)

/-- C52: the generated structure is in new memory. -/
theorem strings_generate_memory [Allocator] {pre : Str} {n : Int} {s : Strings} (h : Strings.generate pre n = .ok s) :
    Triple emp (strGenerate pre n) (fun p => stringsAt p (some s)) := by
  unfold strGenerate
  refine Triple.bind (strGenArray_spec h) (fun arr => ?_)
  refine Triple.step (P := emp) strMalloc_spec (by rw [emp_sep]) (fun p => ?_)
  show Triple ((ex fun a => p ↦ .ptrs [a] ∗ arrayAt a []) ∗ _) _ _
  rw [ex_sep]
  refine Triple.exi (fun a => ?_)
  rw [arrayAt_nil]
  refine Triple.stepEq (F := a ↦ .ptrs [0] ∗ stringAt arr s.string) (getField_spec (l := [a]) (x := a) rfl) (by ac_rfl) ?_
  refine Triple.step (F := p ↦ .ptrs [a] ∗ stringAt arr s.string) (Triple.free a (.ptrs [0])) (by ac_rfl) (fun _ => ?_)
  rw [emp_sep]
  refine Triple.step (setField_spec (p := p) (l := [a]) (l' := [arr]) (i := 0) (x := arr) rfl) rfl (fun _ => ?_)
  exact Triple.ret (fun h hh => ⟨arr, hh⟩)

theorem Strings.addLoop_some : ∀ (ws : List Str) (s : Strings), Strings.addLoop (some s) ws = .ok (some (ws.foldl Strings.add s))
  | [], _ => rfl
  | w :: ws, s => by
    show Strings.addLoop (some (Strings.add s w)) ws = _
    rw [Strings.addLoop_some ws]
    rfl

theorem strAddLoop_spec [Allocator] {res arr : Ptr} : ∀ (ps : List Ptr) (ws : List Str) (f i : Nat) (done : List Ptr) (s : Strings), done.length = i → ps.length < f →
    Triple (arr ↦ .ptrs (done ++ (ps ++ [0])) ∗ wordsAt ps ws ∗ stringsAt res (some s)) (strAddLoop res arr f i)
      (fun _ => arr ↦ .ptrs (done ++ (ps ++ [0])) ∗ wordsAt ps ws ∗ stringsAt res (some (ws.foldl Strings.add s)))
  | ps, ws, 0, _, _, _, _, hf => absurd hf (by omega)
  | [], [], f + 1, i, done, s, hi, _ => by
    unfold strAddLoop
    refine Triple.stepEq (getField_spec (l := done ++ ([] ++ [0])) (x := 0) (nth_mid (by omega))) rfl ?_
    rw [if_pos rfl]
    exact Triple.ret (fun h hh => hh)
  | [], _ :: _, _ + 1, _, _, _, _, _ => by
    refine Triple.of_fact (φ := False) ?_ (fun h => h.elim)
    rintro h ⟨_, _, _, _, _, _, _, _, _, hh, _⟩
    exact hh.1
  | _ :: _, [], _ + 1, _, _, _, _, _ => by
    refine Triple.of_fact (φ := False) ?_ (fun h => h.elim)
    rintro h ⟨_, _, _, _, _, _, _, _, _, hh, _⟩
    exact hh.1
  | p :: ps, w :: ws, f + 1, i, done, s, hi, hf => by
    generalize hS : arr ↦ .ptrs (done ++ (p :: ps ++ [0])) = S
    show Triple (S ∗ (p ↦ .chars w ∗ wordsAt ps ws) ∗ stringsAt res (some s)) _ (fun _ => S ∗ (p ↦ .chars w ∗ wordsAt ps ws) ∗ stringsAt res (some (ws.foldl Strings.add (Strings.add s w))))
    have e : (S ∗ (p ↦ .chars w ∗ wordsAt ps ws) ∗ stringsAt res (some s)) = (p ↦ .chars w ∗ S ∗ wordsAt ps ws ∗ stringsAt res (some s)) := by ac_rfl
    rw [e]
    refine Triple.frame_fact pto_ne (fun hp => ?_)
    unfold strAddLoop
    have hgs : Triple S (getField arr i) (fun r => pur (r = p) ∗ S) := by
      rw [← hS]
      exact getField_spec (l := done ++ (p :: (ps ++ [0]))) (i := i) (x := p) (nth_mid (l1 := done) (by omega))
    refine Triple.stepEq (F := p ↦ .chars w ∗ wordsAt ps ws ∗ stringsAt res (some s)) hgs (by ac_rfl) ?_
    rw [if_neg hp]
    refine Triple.step (F := S ∗ wordsAt ps ws) (strings_add_memory res p s w) (by ac_rfl) (fun _ => ?_)
    have ih := strAddLoop_spec (res := res) (arr := arr) ps ws f (i + 1) (done ++ [p]) (Strings.add s w) (by simp [hi]) (by simpa using hf)
    have e1 : arr ↦ .ptrs (done ++ [p] ++ (ps ++ [0])) = S := by rw [← hS]; simp
    rw [e1] at ih
    exact Triple.last (F := p ↦ .chars w) ih (by ac_rfl) (fun _ h hh => hh.perm (by ac_rfl))

theorem strings_add_strings_core [Allocator] {p1 p2 : Ptr} {s1 s2 s' : Option Strings} (h : Strings.add_strings s1 s2 = .ok s') {P F1 F2 : Assn}
    (e1 : P = (stringsAt p1 s1 ∗ F1)) (e2 : P = (stringsAt p2 s2 ∗ F2)) : Triple P (strAddStrings p1 p2) (fun q => P ∗ stringsAt q s') := by
  unfold Strings.add_strings at h
  match s2, h with
  | none, h => simp at h
  | some ⟨none⟩, h => simp at h
  | some ⟨some l⟩, h =>
    obtain ⟨x, hx⟩ : ∃ x, l = [] ∧ s' = Strings.clone s1 ∨ Strings.clone s1 = some x ∧ s' = some (l.foldl Strings.add x) := by
      change Strings.addLoop (Strings.clone s1) l = _ at h
      cases hc : Strings.clone s1 with
      | none =>
        rw [hc] at h
        cases l with
        | nil => injection h with h; exact ⟨Strings.malloc, .inl ⟨rfl, h.symm⟩⟩
        | cons _ _ => simp [Strings.addLoop] at h
      | some x =>
        rw [hc, Strings.addLoop_some] at h
        injection h with h
        exact ⟨x, .inr ⟨rfl, h.symm⟩⟩
    unfold strAddStrings
    refine Triple.step (strings_clone_memory p1 s1) e1 (fun q => ?_)
    have e3 : ((stringsAt p1 s1 ∗ stringsAt q (Strings.clone s1)) ∗ F1) = ex fun b => ex fun ps => p2 ↦ .ptrs [b] ∗ b ↦ .ptrs (ps ++ [0]) ∗ wordsAt ps l ∗ F2 ∗ stringsAt q (Strings.clone s1) := by
      have : ((stringsAt p1 s1 ∗ stringsAt q (Strings.clone s1)) ∗ F1) = (stringsAt p2 (some ⟨some l⟩) ∗ F2 ∗ stringsAt q (Strings.clone s1)) := by
        have : ((stringsAt p1 s1 ∗ stringsAt q (Strings.clone s1)) ∗ F1) = ((stringsAt p1 s1 ∗ F1) ∗ stringsAt q (Strings.clone s1)) := by ac_rfl
        rw [this, ← e1, e2]
        ac_rfl
      rw [this]
      show (ex fun b => p2 ↦ .ptrs [b] ∗ ex fun ps => b ↦ .ptrs (ps ++ [0]) ∗ wordsAt ps l) ∗ _ = _
      rw [ex_sep]
      congr 1
      funext b
      rw [sep_ex, ex_sep]
      congr 1
      funext ps
      ac_rfl
    rw [e3]
    refine Triple.exi (fun b => Triple.exi (fun ps => ?_))
    refine Triple.stepEq (getField_spec (p := p2) (l := [b]) (i := 0) (x := b) rfl) rfl ?_
    refine Triple.stepEq (F := p2 ↦ .ptrs [b] ∗ wordsAt ps l ∗ F2 ∗ stringsAt q (Strings.clone s1)) (loadPtrs_spec (p := b) (l := ps ++ [0])) (by ac_rfl) ?_
    have fin : ∀ y, ∀ h, (p2 ↦ .ptrs [b] ∗ b ↦ .ptrs (ps ++ [0]) ∗ wordsAt ps l ∗ F2 ∗ stringsAt q y) h → (P ∗ stringsAt q y) h := by
      intro y h hh
      have hh' : (((p2 ↦ .ptrs [b] ∗ b ↦ .ptrs (ps ++ [0]) ∗ wordsAt ps l) ∗ F2) ∗ stringsAt q y) h := hh.perm (by ac_rfl)
      rw [e2]
      exact sep_mono (fun h hh => sep_mono (fun h hh => ⟨b, sep_mono (fun _ h => h) (fun h hh => ⟨ps, hh⟩) hh⟩) (fun _ h => h) hh) (fun _ h => h) hh'
    rcases hx with ⟨rfl, rfl⟩ | ⟨hc, rfl⟩
    · cases ps with
      | nil =>
        refine Triple.bind (Q := fun _ => p2 ↦ .ptrs [b] ∗ b ↦ .ptrs ([] ++ [0]) ∗ wordsAt [] [] ∗ F2 ∗ stringsAt q (Strings.clone s1)) ?_ (fun _ => Triple.ret (fun h hh => fin _ h hh))
        show Triple _ (strAddLoop q b 1 0) _
        unfold strAddLoop
        refine Triple.stepEq (F := p2 ↦ .ptrs [b] ∗ wordsAt [] [] ∗ F2 ∗ stringsAt q (Strings.clone s1)) (getField_spec (p := b) (l := [] ++ [0]) (i := 0) (x := 0) rfl) (by ac_rfl) ?_
        rw [if_pos rfl]
        exact Triple.ret (fun h hh => hh)
      | cons a ps =>
        refine Triple.of_fact (φ := False) ?_ (fun h => h.elim)
        rintro h ⟨_, _, _, _, _, _, _, _, _, _, _, _, _, _, hh, _⟩
        exact hh.1
    · rw [hc]
      have := strAddLoop_spec (res := q) (arr := b) ps l (ps ++ [0]).length 0 [] x rfl (by simp)
      simp only [List.nil_append] at this
      refine Triple.step (F := p2 ↦ .ptrs [b] ∗ F2) this (by ac_rfl) (fun _ => ?_)
      exact Triple.ret (fun h hh => fin _ h (hh.perm (by ac_rfl)))

/-- C52: the concatenation of two structures is in new memory. -/
theorem strings_add_strings_memory [Allocator] (p1 p2 : Ptr) {s1 s2 s' : Option Strings} (h : Strings.add_strings s1 s2 = .ok s') :
    Triple (stringsAt p1 s1 ∗ stringsAt p2 s2) (strAddStrings p1 p2) (fun q => (stringsAt p1 s1 ∗ stringsAt p2 s2) ∗ stringsAt q s') :=
  strings_add_strings_core h rfl (sep_comm _ _)

/-- C52: also of a structure with itself. -/
theorem strings_add_strings_same_memory [Allocator] (p : Ptr) {s s' : Option Strings} (h : Strings.add_strings s s = .ok s') :
    Triple (stringsAt p s) (strAddStrings p p) (fun q => stringsAt p s ∗ stringsAt q s') :=
  strings_add_strings_core (F1 := emp) (F2 := emp) h (by rw [sep_emp]) (by rw [sep_emp])

/-! ## Names -/

/-- C52: `osl_names_free` frees the five structures and the shell. -/
theorem names_free_memory (p : Ptr) (n : Option Names) : Triple (namesAt p n) (namesFree p) (fun _ => emp) := by
  unfold namesFree
  cases n with
  | none =>
    refine Triple.of_fact (φ := p = 0) (fun h hh => hh.1) (fun hp => ?_)
    rw [if_neg (by simp [hp])]
    exact Triple.ret (fun h hh => hh.2)
  | some n =>
    refine Triple.exi (fun a => Triple.exi (fun b => Triple.exi (fun c => Triple.exi (fun d => Triple.exi (fun e => ?_)))))
    refine Triple.frame_fact pto_ne (fun hp => ?_)
    rw [if_pos hp]
    refine Triple.stepEq (getField_spec (l := [a, b, c, d, e]) (x := a) rfl) rfl ?_
    refine Triple.step (F := p ↦ .ptrs [a, b, c, d, e] ∗ stringsAt b n.iterators ∗ stringsAt c n.scatt_dims ∗ stringsAt d n.local_dims ∗ stringsAt e n.arrays)
      (strings_free_memory a n.parameters) (by ac_rfl) (fun _ => ?_)
    rw [emp_sep]
    refine Triple.stepEq (getField_spec (l := [a, b, c, d, e]) (x := b) rfl) rfl ?_
    refine Triple.step (F := p ↦ .ptrs [a, b, c, d, e] ∗ stringsAt c n.scatt_dims ∗ stringsAt d n.local_dims ∗ stringsAt e n.arrays)
      (strings_free_memory b n.iterators) (by ac_rfl) (fun _ => ?_)
    rw [emp_sep]
    refine Triple.stepEq (getField_spec (l := [a, b, c, d, e]) (x := c) rfl) rfl ?_
    refine Triple.step (F := p ↦ .ptrs [a, b, c, d, e] ∗ stringsAt d n.local_dims ∗ stringsAt e n.arrays) (strings_free_memory c n.scatt_dims) (by ac_rfl) (fun _ => ?_)
    rw [emp_sep]
    refine Triple.stepEq (getField_spec (l := [a, b, c, d, e]) (x := d) rfl) rfl ?_
    refine Triple.step (F := p ↦ .ptrs [a, b, c, d, e] ∗ stringsAt e n.arrays) (strings_free_memory d n.local_dims) (by ac_rfl) (fun _ => ?_)
    rw [emp_sep]
    refine Triple.stepEq (getField_spec (l := [a, b, c, d, e]) (x := e) rfl) rfl ?_
    refine Triple.step (F := p ↦ .ptrs [a, b, c, d, e]) (strings_free_memory e n.arrays) (by ac_rfl) (fun _ => ?_)
    rw [emp_sep]
    exact Triple.free p _

theorem namesCloneField_spec [Allocator] {p q : Ptr} {l1 l2 : List Ptr} {i : Nat} {x : Ptr} {s : Option Strings} (h1 : nth l1 i = .ok x)
    (h2 : ∀ y, setNth l2 i y = .ok (l2.set i y)) :
    Triple (p ↦ .ptrs l1 ∗ q ↦ .ptrs l2 ∗ stringsAt x s) (namesCloneField p q i)
      (fun _ => ex fun y => (p ↦ .ptrs l1 ∗ stringsAt x s) ∗ q ↦ .ptrs (l2.set i y) ∗ stringsAt y (Strings.clone s)) := by
  unfold namesCloneField
  refine Triple.stepEq (getField_spec h1) rfl ?_
  refine Triple.step (F := p ↦ .ptrs l1 ∗ q ↦ .ptrs l2) (strings_clone_memory x s) (by ac_rfl) (fun y => ?_)
  refine Triple.last (F := (p ↦ .ptrs l1 ∗ stringsAt x s) ∗ stringsAt y (Strings.clone s)) (setField_spec (p := q) (h2 y)) (by ac_rfl) (fun _ h hh => ⟨y, hh.perm (by ac_rfl)⟩)

theorem namesMalloc_spec [Allocator] : Triple emp namesMalloc (fun p => p ↦ .ptrs [0, 0, 0, 0, 0]) := Triple.alloc _

/-- C52: a copy of a names structure is in new memory. -/
theorem names_clone_memory [Allocator] (p : Ptr) (n : Option Names) :
    Triple (namesAt p n) (namesClone p) (fun q => namesAt p n ∗ namesAt q (Names.clone n)) := by
  unfold namesClone
  cases n with
  | none =>
    refine Triple.of_fact (φ := p = 0) (fun h hh => hh.1) (fun hp => ?_)
    rw [if_neg (by simp [hp])]
    refine Triple.ret (fun h hh => ?_)
    show (namesAt p none ∗ pur ((0 : Ptr) = 0)) h
    rw [pur_true rfl, sep_emp]
    exact hh
  | some n =>
    refine Triple.exi (fun a => Triple.exi (fun b => Triple.exi (fun c => Triple.exi (fun d => Triple.exi (fun e => ?_)))))
    refine Triple.frame_fact pto_ne (fun hp => ?_)
    rw [if_pos hp]
    generalize hA : stringsAt a n.parameters = A
    generalize hB : stringsAt b n.iterators = B
    generalize hC : stringsAt c n.scatt_dims = C
    generalize hD : stringsAt d n.local_dims = D
    generalize hE : stringsAt e n.arrays = E
    refine Triple.step (P := emp) namesMalloc_spec (by rw [emp_sep]) (fun q => ?_)
    refine Triple.step (F := B ∗ C ∗ D ∗ E) (namesCloneField_spec (p := p) (q := q) (l1 := [a, b, c, d, e]) (l2 := [0, 0, 0, 0, 0]) (i := 0) (x := a) (s := n.parameters) rfl (fun _ => rfl))
      (by rw [hA]; ac_rfl) (fun _ => ?_)
    rw [ex_sep]
    refine Triple.exi (fun a' => ?_)
    rw [hA]
    generalize hA' : stringsAt a' (Strings.clone n.parameters) = A'
    refine Triple.step (F := A ∗ A' ∗ C ∗ D ∗ E) (namesCloneField_spec (p := p) (q := q) (l1 := [a, b, c, d, e]) (l2 := [a', 0, 0, 0, 0]) (i := 1) (x := b) (s := n.iterators) rfl (fun _ => rfl))
      (by rw [hB]; show (_ ∗ q ↦ .ptrs [a', 0, 0, 0, 0] ∗ _) ∗ _ = _; ac_rfl) (fun _ => ?_)
    rw [ex_sep]
    refine Triple.exi (fun b' => ?_)
    rw [hB]
    generalize hB' : stringsAt b' (Strings.clone n.iterators) = B'
    refine Triple.step (F := A ∗ A' ∗ B ∗ B' ∗ D ∗ E) (namesCloneField_spec (p := p) (q := q) (l1 := [a, b, c, d, e]) (l2 := [a', b', 0, 0, 0]) (i := 2) (x := c) (s := n.scatt_dims) rfl (fun _ => rfl))
      (by rw [hC]; show (_ ∗ q ↦ .ptrs [a', b', 0, 0, 0] ∗ _) ∗ _ = _; ac_rfl) (fun _ => ?_)
    rw [ex_sep]
    refine Triple.exi (fun c' => ?_)
    rw [hC]
    generalize hC' : stringsAt c' (Strings.clone n.scatt_dims) = C'
    refine Triple.step (F := A ∗ A' ∗ B ∗ B' ∗ C ∗ C' ∗ E) (namesCloneField_spec (p := p) (q := q) (l1 := [a, b, c, d, e]) (l2 := [a', b', c', 0, 0]) (i := 3) (x := d) (s := n.local_dims) rfl (fun _ => rfl))
      (by rw [hD]; show (_ ∗ q ↦ .ptrs [a', b', c', 0, 0] ∗ _) ∗ _ = _; ac_rfl) (fun _ => ?_)
    rw [ex_sep]
    refine Triple.exi (fun d' => ?_)
    rw [hD]
    generalize hD' : stringsAt d' (Strings.clone n.local_dims) = D'
    refine Triple.step (F := A ∗ A' ∗ B ∗ B' ∗ C ∗ C' ∗ D ∗ D') (namesCloneField_spec (p := p) (q := q) (l1 := [a, b, c, d, e]) (l2 := [a', b', c', d', 0]) (i := 4) (x := e) (s := n.arrays) rfl (fun _ => rfl))
      (by rw [hE]; show (_ ∗ q ↦ .ptrs [a', b', c', d', 0] ∗ _) ∗ _ = _; ac_rfl) (fun _ => ?_)
    rw [ex_sep]
    refine Triple.exi (fun e' => ?_)
    rw [hE]
    generalize hE' : stringsAt e' (Strings.clone n.arrays) = E'
    refine Triple.ret (fun h hh => ?_)
    have hh' : ((p ↦ .ptrs [a, b, c, d, e] ∗ A ∗ B ∗ C ∗ D ∗ E) ∗ q ↦ .ptrs [a', b', c', d', e'] ∗ A' ∗ B' ∗ C' ∗ D' ∗ E') h :=
      hh.perm (by show ((_ ∗ _) ∗ q ↦ .ptrs [a', b', c', d', e'] ∗ _) ∗ _ = _; ac_rfl)
    subst hA hB hC hD hE hA' hB' hC' hD' hE'
    exact sep_mono (fun h hh => ⟨a, b, c, d, e, hh⟩) (fun h hh => ⟨a', b', c', d', e', hh⟩) hh'

/-- C52: the generated names are in new memory. -/
theorem names_generate_memory [Allocator] {pp ip sp lp ap : Str} {np ni ns nl na : Int} {n : Names}
    (h : Names.generate pp np ip ni sp ns lp nl ap na = .ok n) : Triple emp (namesGenerate pp np ip ni sp ns lp nl ap na) (fun q => namesAt q (some n)) := by
  obtain ⟨sa, h1, h⟩ := Out.bind_eq_ok.mp h
  obtain ⟨sb, h2, h⟩ := Out.bind_eq_ok.mp h
  obtain ⟨sc, h3, h⟩ := Out.bind_eq_ok.mp h
  obtain ⟨sd, h4, h⟩ := Out.bind_eq_ok.mp h
  obtain ⟨se, h5, h⟩ := Out.bind_eq_ok.mp h
  injection h with h
  subst h
  unfold namesGenerate
  refine Triple.bind namesMalloc_spec (fun q => ?_)
  refine Triple.step (P := emp) (strings_generate_memory h1) (by rw [emp_sep]) (fun a => ?_)
  refine Triple.step (F := stringsAt a (some sa)) (setField_spec (p := q) (l := [0, 0, 0, 0, 0]) (l' := [a, 0, 0, 0, 0]) (i := 0) (x := a) rfl) (by ac_rfl) (fun _ => ?_)
  refine Triple.step (P := emp) (strings_generate_memory h2) (by rw [emp_sep]) (fun b => ?_)
  refine Triple.step (F := stringsAt a (some sa) ∗ stringsAt b (some sb)) (setField_spec (p := q) (l := [a, 0, 0, 0, 0]) (l' := [a, b, 0, 0, 0]) (i := 1) (x := b) rfl) (by ac_rfl) (fun _ => ?_)
  refine Triple.step (P := emp) (strings_generate_memory h3) (by rw [emp_sep]) (fun c => ?_)
  refine Triple.step (F := stringsAt a (some sa) ∗ stringsAt b (some sb) ∗ stringsAt c (some sc)) (setField_spec (p := q) (l := [a, b, 0, 0, 0]) (l' := [a, b, c, 0, 0]) (i := 2) (x := c) rfl) (by ac_rfl) (fun _ => ?_)
  refine Triple.step (P := emp) (strings_generate_memory h4) (by rw [emp_sep]) (fun d => ?_)
  refine Triple.step (F := stringsAt a (some sa) ∗ stringsAt b (some sb) ∗ stringsAt c (some sc) ∗ stringsAt d (some sd))
    (setField_spec (p := q) (l := [a, b, c, 0, 0]) (l' := [a, b, c, d, 0]) (i := 3) (x := d) rfl) (by ac_rfl) (fun _ => ?_)
  refine Triple.step (P := emp) (strings_generate_memory h5) (by rw [emp_sep]) (fun e => ?_)
  refine Triple.step (F := stringsAt a (some sa) ∗ stringsAt b (some sb) ∗ stringsAt c (some sc) ∗ stringsAt d (some sd) ∗ stringsAt e (some se))
    (setField_spec (p := q) (l := [a, b, c, d, 0]) (l' := [a, b, c, d, e]) (i := 4) (x := e) rfl) (by ac_rfl) (fun _ => ?_)
  exact Triple.ret (fun h hh => ⟨a, b, c, d, e, hh⟩)

end Osl.Mem
