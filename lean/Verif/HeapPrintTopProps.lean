import Verif.HeapPrintStmtProps
/-!
# Printing scops in memory (C74): the names of the arrays, the parameters, the scops
-/

set_option linter.unusedSectionVars false

namespace Osl.Mem

open Osl.Ext

variable [Allocator] {D : Type}

/-! ## The names of the arrays -/

/-- A copy of a string of an array without final NULL. -/
theorem strs_dup {src : Ptr} {ws : List Str} {i : Nat} {w : Str} (hw : ws[i]? = some w) :
    Triple (strsAt src ws) (dupField src i) (fun d => strsAt src ws ∗ d ↦ .chars w) := by
  unfold dupField
  by_cases ha : src = 0
  · subst ha
    rw [strsAt_null]
    refine Triple.fact1 (fun h => ?_)
    subst h
    cases hw
  · rw [strsAt_ne ha]
    refine Triple.exi (fun ps => ?_)
    refine Triple.frame_fact (fun h hh => (wordsAt_length hh)) (fun hl => ?_) |>.pre (fun h hh => hh.perm (sep_comm _ _))
    obtain ⟨hi, rfl⟩ := List.getElem?_eq_some_iff.mp hw
    have hi' : i < ps.length := by omega
    have e1 := split_at hi'
    have e2 := split_at hi
    have e3 : wordsAt ps ws = (ps[i] ↦ .chars ws[i] ∗ wordsAt (ps.take i) (ws.take i) ∗ wordsAt (ps.drop (i + 1)) (ws.drop (i + 1))) := by
      have := wordsAt_append (ps := ps.take i) (qs := ps[i] :: ps.drop (i + 1)) (ws := ws.take i) (vs := ws[i] :: ws.drop (i + 1)) (by simp; omega)
      rw [← e1, ← e2] at this
      rw [this]
      simp only [wordsAt]
      ac_rfl
    have hn : nth ps i = .ok ps[i] := by
      unfold nth
      rw [if_neg (by omega)]
      simp [hi']
    hstep (getField_spec (p := src) (l := ps) (x := ps[i]) hn)
    rw [e3]
    hlast (hStrdup_spec (s := ps[i]) (w := ws[i]))
    refine Triple.ret (fun h hh => ?_)
    refine sep_mono (P := src ↦ .ptrs ps ∗ wordsAt ps ws) (fun _ hx => ⟨ps, hx⟩) (fun _ h => h) ?_
    rw [e3]
    exact hh.perm (by ac_rfl)

theorem arrMaxLoop_spec {id : Ptr} {l : List Int} : ∀ (k : List (Int × Str)) (i : Nat) (m : Int), (∀ j x, k[j]? = some x → l[i + j]? = some x.1) →
    Triple (intsAt id l) (arrMaxLoop id k.length i m) (fun r => pur (r = Arrays.maxLoop m k) ∗ intsAt id l)
  | [], i, m, _ => by
    refine Triple.ret (fun h hh => pur_sep_iff.mpr ⟨rfl, hh⟩)
  | x :: k, i, m, hk => by
    simp only [List.length_cons, arrMaxLoop, Arrays.maxLoop]
    hstep (ints_get (a := id) (hk 0 x rfl))
    exact arrMaxLoop_spec k (i + 1) _ (fun j y hy => by
      have := hk (j + 1) y (by simpa using hy)
      rw [← this]
      congr 1
      omega)

theorem arrMaxId_spec {id : Ptr} {l : List (Int × Str)} :
    Triple (intsAt id (l.map (·.1))) (arrMaxId id l.length) (fun r => pur (r = Arrays.maxId l) ∗ intsAt id (l.map (·.1))) := by
  unfold arrMaxId
  cases l with
  | nil =>
    rw [if_neg (by simp)]
    exact Triple.ret (fun h hh => pur_sep_iff.mpr ⟨rfl, hh⟩)
  | cons x l =>
    rw [if_pos (by simp only [List.length_cons]; omega)]
    simp only [Arrays.maxId]
    hstep (ints_get (a := id) (l := (x :: l).map (·.1)) (i := 0) (v := x.1) rfl)
    have e : (((x :: l).length : Nat) : Int).toNat - 1 = l.length := by simp
    rw [e]
    exact arrMaxLoop_spec l 1 x.1 (fun j y hy => by
      rw [List.getElem?_map, Nat.add_comm, List.getElem?_cons_succ, hy]
      rfl)

/-- The strings being filled. -/
theorem arrStore_spec {strings arr id names : Ptr} {l : List (Int × Str)} {i : Nat} {x : Int × Str} {ws : List Str} (hx : l[i]? = some x) (h1 : 1 ≤ x.1) (h2 : x.1 ≤ ws.length) :
    Triple (intsAt id (l.map (·.1)) ∗ strsAt names (l.map (·.2)) ∗ strings ↦ .ptrs [arr] ∗ arrayAt arr ws) (arrStore strings id names i)
      (fun _ => intsAt id (l.map (·.1)) ∗ strsAt names (l.map (·.2)) ∗ strings ↦ .ptrs [arr] ∗ arrayAt arr (ws.set (x.1 - 1).toNat x.2)) := by
  unfold arrStore
  hstep (ints_get (a := id) (map_get (·.1) hx))
  rw [if_neg (by omega)]
  hstep (lift_spec (x := .ok ()) rfl)
  hstep (getField_spec (p := strings) (i := 0) (x := arr) rfl)
  have hlt : (x.1 - 1).toNat < ws.length := by omega
  refine Triple.pre (P := arrayAt arr ws ∗ intsAt id (l.map (·.1)) ∗ strsAt names (l.map (·.2)) ∗ strings ↦ .ptrs [arr]) ?_ (fun h hh => hh.perm (by ac_rfl))
  refine Triple.opened (fun h0 hh => ?_)
  obtain ⟨ps1, ps2, q, ws1, ws2, g1, g2, g3, hf⟩ := arrayAt_focus (List.getElem?_eq_getElem hlt) hh
  refine ⟨arrFocus arr ps1 ps2 q ws1 ws2 ws[(x.1 - 1).toNat], hf, ?_⟩
  generalize ws[(x.1 - 1).toNat] = w at g3
  have gs : ws.set (x.1 - 1).toNat x.2 = ws1 ++ x.2 :: ws2 := by
    rw [g3, List.set_append, if_neg (by omega), g2, Nat.sub_self]
    rfl
  rw [gs]
  hopen arrFocus
  hstep (getField_spec (p := arr) (nth_append_mid g1))
  hstep (Triple.free (p := q))
  hstep (strs_dup (src := names) (map_get (·.2) hx))
  hlast (setField_spec (p := arr) (setNth_append_mid g1))
  refine Triple.ret (fun h hh => ?_)
  have hh : (arrFocus arr ps1 ps2 s ws1 ws2 x.2 ∗ intsAt id (l.map (·.1)) ∗ strsAt names (l.map (·.2)) ∗ strings ↦ .ptrs [arr]) h := by
    unfold arrFocus
    exact hh.perm (by ac_rfl)
  have hh := sep_mono (arrFocus_close (by omega)) (fun _ h => h) hh
  exact hh.perm (by ac_rfl)

theorem arrStoreLoop_spec {strings arr id names : Ptr} {l : List (Int × Str)} : ∀ (k : List (Int × Str)) (i : Nat) (ws ws' : List Str), (∀ j x, k[j]? = some x → l[i + j]? = some x) →
    Arrays.fillLoop ws k = .ok ws' →
    Triple (intsAt id (l.map (·.1)) ∗ strsAt names (l.map (·.2)) ∗ strings ↦ .ptrs [arr] ∗ arrayAt arr ws) (arrStoreLoop strings id names k.length i)
      (fun _ => intsAt id (l.map (·.1)) ∗ strsAt names (l.map (·.2)) ∗ strings ↦ .ptrs [arr] ∗ arrayAt arr ws')
  | [], i, ws, ws', _, h => by
    cases h
    exact Triple.ret (fun h hh => hh)
  | x :: k, i, ws, ws', hk, h => by
    simp only [List.length_cons, arrStoreLoop]
    unfold Arrays.fillLoop at h
    by_cases hx : 1 ≤ x.1 ∧ x.1 ≤ ws.length
    · rw [if_pos hx] at h
      refine Triple.bind (arrStore_spec (hk 0 x rfl) hx.1 hx.2) (fun _ => ?_)
      exact arrStoreLoop_spec k (i + 1) _ ws' (fun j y hy => by
        have := hk (j + 1) y (by simpa using hy)
        rw [← this]
        congr 1
        omega) h
    · rw [if_neg hx] at h
      cases h

/-- C74: `osl_arrays_to_strings` allocates the array of the names. -/
theorem arrays_to_strings_memory {p : Ptr} {a : Arrays} {r : Option Strings} (h : Arrays.to_strings (some a) = .ok r) :
    Triple (arraysAt p a) (arrToStrings p) (fun q => arraysAt p a ∗ stringsAt q r) := by
  unfold arrToStrings
  refine Triple.of_fact (fun h hh => arraysAt_ne h hh) (fun hp => ?_)
  rw [if_neg hp]
  unfold Arrays.to_strings at h
  obtain ⟨s, h1, h⟩ := Out.bind_eq_ok.mp h
  generalize "Dummy".toList = dummy at h1 ⊢
  show Triple (arraysAt p a) _ _
  unfold arraysAt
  refine Triple.exi (fun id => Triple.exi (fun names => ?_))
  hstep (getInt_spec (p := p) (i := 0) (x := (a.pairs.length : Int)) rfl)
  hstep (getPtr_spec (p := p) (i := 0) (x := id) rfl)
  hstep (arrMaxId_spec (id := id) (l := a.pairs))
  hstep (strings_generate_memory h1)
  hstep (getPtr_spec (p := p) (i := 1) (x := names) rfl)
  rw [Int.toNat_natCast]
  obtain ⟨pairs⟩ := a
  dsimp only at h h1 ⊢
  revert strings
  intro sp
  have fin : Triple (stringsAt sp (some s) ∗ intsAt id (pairs.map (·.1)) ∗ strsAt names (pairs.map (·.2))) (arrStoreLoop sp id names pairs.length 0)
      (fun _ => stringsAt sp r ∗ intsAt id (pairs.map (·.1)) ∗ strsAt names (pairs.map (·.2))) := by
    cases pairs with
    | nil =>
      rw [if_pos (show ([] : List (Int × Str)).isEmpty = true from rfl)] at h
      cases h
      exact Triple.ret (fun h hh => hh)
    | cons x k =>
      rw [if_neg (by simp)] at h
      obtain ⟨ws, h2, h⟩ := Out.bind_eq_ok.mp h
      cases h
      obtain ⟨w⟩ := s
      cases w with
      | none =>
        exfalso
        unfold Arrays.fillLoop at h2
        rw [if_neg (by simp [Strings.words]; omega)] at h2
        cases h2
      | some w =>
        simp only [stringsAt, stringAt]
        rw [ex_sep]
        refine Triple.exi (fun arr => ?_)
        have := arrStoreLoop_spec (strings := sp) (arr := arr) (id := id) (names := names) (l := x :: k) (x :: k) 0 w ws (fun j y hy => by rw [Nat.zero_add]; exact hy) h2
        hlast this
        hret
  hstep fin
  hret

end Osl.Mem
