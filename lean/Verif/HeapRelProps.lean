import Verif.HeapMat
/-!
# Copies of matrices in memory
-/

namespace Osl.Mem

variable {α β : Type}

/-- Replace a part of the precondition by what it entails. -/
theorem Triple.opened {P F : Assn} {m : M α} {Q : α → Assn} (h : ∀ h0, P h0 → ∃ P', P' h0 ∧ Triple (P' ∗ F) m Q) :
    Triple (P ∗ F) m Q := by
  intro R hh hr
  rw [sep_assoc] at hr
  obtain ⟨a, b, d, e, hp, hq⟩ := hr
  obtain ⟨P', hp', ht⟩ := h a hp
  exact ht R hh (by rw [sep_assoc]; exact ⟨a, b, d, e, hp', hq⟩)

theorem Triple.opened_all {P : Assn} {m : M α} {Q : α → Assn} (h : ∀ h0, P h0 → ∃ P', P' h0 ∧ Triple P' m Q) :
    Triple P m Q := by
  have := Triple.opened (F := emp) (P := P) (m := m) (Q := Q) (fun h0 hp => by
    obtain ⟨P', hp', ht⟩ := h h0 hp
    exact ⟨P', hp', by simpa using ht⟩)
  simpa using this

theorem matAt_rect {k : Option Kind} {m : Ptr} {R C : Int} {mat : Matrix} {h : PHeap} (hh : matAt k m R C mat h) : Rect mat R C :=
  (pur_sep_iff.mp hh).1

theorem list_set_mid {α : Type} {l v1 v2 : List α} {v w : α} {n : Nat} (hl : l = v1 ++ v :: v2) (hn : v1.length = n) :
    l.set n w = v1 ++ w :: v2 := by
  subst hl hn
  rw [List.set_append_right _ _ (by omega)]
  simp

/-- One assignment `dst[i'][j'] = src[i][j]` between two matrices. -/
theorem copyCell_spec {k : Option Kind} (hk : k ≠ none) {ms md : Ptr} {R C R' C' : Int} {s d d' : Matrix} {i j i' j' v : Int}
    (hg : get2 s i j = .ok v) (hs : set2 d i' j' v = .ok d') :
    Triple (matAt k ms R' C' s ∗ matAt k md R C d) (do let x ← readCell ms i j; assignCell k md i' j' x)
      (fun _ => matAt k ms R' C' s ∗ matAt k md R C d') := by
  refine Triple.opened (fun h0 hh => ?_)
  have hrs := matAt_rect hh
  obtain ⟨a1, a2, a3, a4, a5⟩ := get2_bounds hrs hg
  obtain ⟨-, qs, ls1, xs, ls2, vs1, vs2, hl1, hl2, hfs, hh⟩ := matAt_focus a1 a2 a3 a4 a5 hh
  refine ⟨_, hh, ?_⟩
  rw [sep_comm]
  refine Triple.opened (fun h0 hh => ?_)
  have hrd := matAt_rect hh
  obtain ⟨b1, b2, b3, b4, b5, b6⟩ := set2_bounds hrd hs
  have hlt : flatIdx C i' j' < d.flatten.length := by rw [flatten_length hrd]; exact idx_lt b1 b2 b3 b4
  obtain ⟨-, qd, ld1, xd, ld2, vd1, vd2, hl3, hl4, hfd, hh⟩ := matAt_focus b1 b2 b3 b4 (List.getElem?_eq_getElem hlt) hh
  refine ⟨_, hh, ?_⟩
  have hfd' : d'.flatten = vd1 ++ v :: vd2 := by
    rw [b5]; exact list_set_mid hfd (by omega)
  generalize d.flatten[flatIdx C i' j'] = w at *
  -- the read
  unfold hole
  refine Triple.stepEq (readCell_spec (q := qs) (x := xs) (l2 := ls2) a1 a2 a3 hl1) (F := cellAt k xs v ∗ (cellsAt k ls1 vs1 ∗ cellsAt k ls2 vs2) ∗
    (qd ↦ .ints (ld1 ++ xd :: ld2) ∗ cellAt k xd w ∗ md ↦ .rows (rowPtrs qd R C) ∗ cellsAt k ld1 vd1 ∗ cellsAt k ld2 vd2))
    (by ac_rfl) ?_
  have fin : ∀ {y : Cell}, ∀ h, ((ms ↦ .rows (rowPtrs qs R' C') ∗ qs ↦ .ints (ls1 ++ xs :: ls2)) ∗ cellAt k xs v ∗
      (cellsAt k ls1 vs1 ∗ cellsAt k ls2 vs2) ∗
      (qd ↦ .ints (ld1 ++ y :: ld2) ∗ cellAt k y v ∗ md ↦ .rows (rowPtrs qd R C) ∗ cellsAt k ld1 vd1 ∗ cellsAt k ld2 vd2)) h →
      (matAt k ms R' C' s ∗ matAt k md R C d') h := by
    intro y h hh
    refine sep_mono (matAt_unfocus (q := qs) (l2 := ls2) (x := xs) hrs a1 a2 a3 a4 hl2 hfs)
      (matAt_unfocus (q := qd) (l2 := ld2) (x := y) b6 b1 b2 b3 b4 hl4 hfd') ?_
    · unfold hole
      have e : ∀ A B X Y Z A' B' X' Y' Z' : Assn, ((A ∗ B) ∗ X ∗ (Y ∗ Z) ∗ (A' ∗ B' ∗ X' ∗ Y' ∗ Z')) =
        ((B ∗ X ∗ A ∗ Y ∗ Z) ∗ (A' ∗ B' ∗ X' ∗ Y' ∗ Z')) := by intros; ac_rfl
      rw [e] at hh
      exact hh
  -- bring the two elements to the front
  have arr : ∀ A1 X1 A2 A3 A4 B1 X2 B2 B3 B4 : Assn, ((B1 ∗ X2 ∗ B2 ∗ B3 ∗ B4) ∗ (A1 ∗ X1 ∗ A2 ∗ A3 ∗ A4)) =
      (X1 ∗ X2 ∗ (B2 ∗ B1) ∗ (A2 ∗ A1) ∗ (A3 ∗ A4) ∗ (B3 ∗ B4)) := by intros; ac_rfl
  have arr' : ∀ A1 X1 A2 A3 A4 B1 X2 B2 B3 B4 : Assn, ((A2 ∗ A1) ∗ X1 ∗ (A3 ∗ A4) ∗ (B1 ∗ X2 ∗ B2 ∗ B3 ∗ B4)) =
      (X1 ∗ X2 ∗ (B2 ∗ B1) ∗ (A2 ∗ A1) ∗ (A3 ∗ A4) ∗ (B3 ∗ B4)) := by intros; ac_rfl
  rw [arr]
  simp only [arr'] at fin
  generalize hRest : ((cellsAt k ls1 vs1 ∗ cellsAt k ls2 vs2) ∗ (cellsAt k ld1 vd1 ∗ cellsAt k ld2 vd2)) = Rest at *
  cases k with
  | none => exact absurd rfl hk
  | some k =>
    cases k with
    | fixed wd =>
      refine Triple.fact (fun hx => Triple.fact (fun hx2 => ?_))
      unfold assignCell
      refine Triple.liftStep (a := v) (by rw [hx]; rfl) ?_
      refine Triple.last (writeCell_spec (.val v) b1 b2 b3 hl3) rfl ?_
      intro _ h hh
      refine fin (y := .val v) h ?_
      simp only [cellAt]
      rw [pur_sep_iff, pur_sep_iff]
      exact ⟨hx, by trivial, hh⟩
    | mp =>
      simp only [cellAt] at fin ⊢
      rw [ex_sep]
      refine Triple.exi (fun ps => ?_)
      rw [sep_assoc]
      refine Triple.fact (fun hx => ?_)
      rw [sep_comm, sep_assoc, ex_sep]
      refine Triple.exi (fun pd => ?_)
      rw [sep_assoc]
      refine Triple.fact (fun hx2 => ?_)
      unfold assignCell
      refine Triple.stepEq (readCell_spec (q := qd) (x := xd) (l2 := ld2) b1 b2 b3 hl3) (F := pd ↦ .mpz w ∗ ps ↦ .mpz v ∗
        (ms ↦ .rows (rowPtrs qs R' C') ∗ qs ↦ .ints (ls1 ++ xs :: ls2)) ∗ Rest) (by ac_rfl) ?_
      refine Triple.liftStep (a := pd) (by rw [hx2]; rfl) ?_
      refine Triple.liftStep (a := ps) (by rw [hx]; rfl) ?_
      refine Triple.loadStep (p := ps) (b := .mpz v) (F := pd ↦ .mpz w ∗ (md ↦ .rows (rowPtrs qd R C) ∗ qd ↦ .ints (ld1 ++ xd :: ld2)) ∗
        (ms ↦ .rows (rowPtrs qs R' C') ∗ qs ↦ .ints (ls1 ++ xs :: ls2)) ∗ Rest) (by ac_rfl) ?_
      refine Triple.liftStep (a := v) rfl ?_
      refine Triple.loadStep (p := pd) (b := .mpz w) rfl ?_
      refine Triple.liftStep (a := w) rfl ?_
      refine Triple.last (Triple.store pd _ (.mpz v)) rfl ?_
      intro _ h hh
      refine fin (y := xd) h ?_
      rw [ex_sep]
      refine ⟨ps, ?_⟩
      show ((pur (xs = .mp ps) ∗ ps ↦ .mpz v) ∗ _) h
      rw [sep_assoc, pur_sep_iff]
      refine ⟨hx, ?_⟩
      rw [sep_comm, sep_assoc, ex_sep]
      refine ⟨pd, ?_⟩
      show ((pur (xd = .mp pd) ∗ pd ↦ .mpz v) ∗ _) h
      rw [sep_assoc, pur_sep_iff]
      refine ⟨hx2, ?_⟩
      exact hh.perm (by ac_rfl)

/-! ## Loops -/

/-- A loop on the memory which follows a loop on values. -/
theorem Triple.loopN {σ : Type} {body : Int → σ → Out σ} {hb : Int → M Unit} {A : σ → Assn}
    (hstep : ∀ i s s', body i s = .ok s' → Triple (A s) (hb i) (fun _ => A s')) : ∀ (n : Nat) (i : Int) (s s' : σ),
    Osl.loopN body n i s = .ok s' → Triple (A s) (Mem.forN hb n i) (fun _ => A s')
  | 0, i, s, s', h => by
    injection h with h
    subst h
    exact Triple.ret (fun _ h => h)
  | n + 1, i, s, s', h => by
    simp only [Osl.loopN] at h
    cases hbd : body i s with
    | ok s1 =>
      rw [hbd] at h
      exact Triple.bind (hstep i s s1 hbd) (fun _ => Triple.loopN hstep n (i + 1) s1 s' h)
    | err => rw [hbd] at h; cases h
    | ub => rw [hbd] at h; cases h

/-- The copy of a block of a matrix into another has the effect of `copyBlock` on the values. -/
theorem hcopy_spec {c : Cfg} {p : Int} {ms md : Ptr} {R C R' C' : Int} {s d d' : Matrix} {ilo ihi dro sro jlo jhi dco sco : Int}
    (h : copyBlock c p s ilo ihi dro sro jlo jhi dco sco d = .ok d') :
    Triple (matAt (kind c p) ms R' C' s ∗ matAt (kind c p) md R C d) (hcopy (kind c p) ms ilo ihi dro sro jlo jhi dco sco md)
      (fun _ => matAt (kind c p) ms R' C' s ∗ matAt (kind c p) md R C d') := by
  unfold copyBlock loop at h
  unfold hcopy Mem.forM
  refine Triple.loopN (A := fun d => matAt (kind c p) ms R' C' s ∗ matAt (kind c p) md R C d) ?_ _ _ _ _ h
  intro i d1 d2 h1
  unfold loop at h1
  refine Triple.loopN (A := fun d => matAt (kind c p) ms R' C' s ∗ matAt (kind c p) md R C d) ?_ _ _ _ _ h1
  intro j e1 e2 h2
  obtain ⟨v, hv, h3⟩ := Out.bind_eq_ok.mp h2
  obtain ⟨v', hv', h4⟩ := Out.bind_eq_ok.mp h3
  have hk : kind c p ≠ none := by
    intro hk; simp [OInt.assign, hk] at hv'
  have : v' = v := by
    unfold OInt.assign at hv'
    split at hv'
    · injection hv' with e; exact e.symm
    · cases hv'
  subst this
  exact copyCell_spec hk hv h4

/-! ## Allocation and deallocation of a matrix -/

theorem initSi_spec [Allocator] {k : Option Kind} (hk : k ≠ none) (i : Int) : Triple emp (initSi k i) (fun x => cellAt k x i) := by
  unfold initSi cellAt
  cases k with
  | none => exact absurd rfl hk
  | some k =>
    cases k with
    | fixed w => exact Triple.ret (fun h hh => ⟨rfl, hh⟩)
    | mp =>
      refine Triple.bind (Triple.alloc (.mpz i)) (fun p => ?_)
      refine Triple.ret (fun h hh => ⟨p, ?_⟩)
      exact pur_sep_iff.mpr ⟨rfl, hh⟩

/-- The first `n` elements of a new matrix are initialised. -/
def initInv (k : Option Kind) (p q : Ptr) (R C : Int) (n : Nat) : Assn :=
  ex fun l : List Cell => pur (l.length = n) ∗ p ↦ .rows (rowPtrs q R C) ∗
    q ↦ .ints (l ++ List.replicate (R.toNat * C.toNat - n) .garbage) ∗ cellsAt k l (List.replicate n 0)

theorem cellsAt_snoc {k : Option Kind} {l : List Cell} {n : Nat} (hl : l.length = n) (x : Cell) :
    cellsAt k (l ++ [x]) (List.replicate (n + 1) 0) = (cellsAt k l (List.replicate n 0) ∗ cellAt k x 0) := by
  rw [List.replicate_succ', cellsAt_append (by simp [hl])]
  simp [cellsAt]

theorem mallocMatrix_spec [Allocator] {k : Option Kind} (hk : k ≠ none) {R C : Int} (hR : 0 < R) (hC : 0 < C) :
    Triple emp (mallocMatrix k R C)
      (fun p => matAt k p R C (List.replicate R.toNat (List.replicate C.toNat 0))) := by
  unfold mallocMatrix
  refine Triple.bind (Triple.alloc _) (fun q => ?_)
  refine Triple.step (F := q ↦ .ints (List.replicate (R.toNat * C.toNat) .garbage)) (Triple.alloc (.rows (rowPtrs q R C)))
    (by rw [emp_sep]) (fun p => ?_)
  have loop : Triple (initInv k p q R C (flatIdx C 0 0)) (Mem.forM 0 R (fun i =>
      Mem.forM 0 C (fun j => do
        let x ← initSi k 0
        writeCell p i j x))) (fun _ => initInv k p q R C (flatIdx C R 0)) := by
    refine Triple.forM (Inv := fun i => initInv k p q R C (flatIdx C i 0)) (by omega) (fun i hi hi' => ?_)
    have hnext : flatIdx C (i + 1) 0 = flatIdx C i C := by
      unfold flatIdx
      rw [show (i + 1).toNat = i.toNat + 1 by omega, Nat.add_mul]
      simp
    rw [hnext]
    refine Triple.forM (Inv := fun j => initInv k p q R C (flatIdx C i j)) (by omega) (fun j hj hj' => ?_)
    have hlt := idx_lt hi hi' hj hj'
    have hn : flatIdx C i (j + 1) = flatIdx C i j + 1 := by
      unfold flatIdx
      rw [show (j + 1).toNat = j.toNat + 1 by omega]
      omega
    rw [hn]
    generalize hN : R.toNat * C.toNat = N at *
    refine Triple.exi (fun l => Triple.fact (fun hl => ?_))
    refine Triple.step (F := p ↦ .rows (rowPtrs q R C) ∗
      q ↦ .ints (l ++ List.replicate (N - flatIdx C i j) .garbage) ∗ cellsAt k l (List.replicate (flatIdx C i j) 0))
      (initSi_spec hk 0) (by rw [hN, emp_sep]) (fun x => ?_)
    have hg : List.replicate (N - flatIdx C i j) Cell.garbage = .garbage :: List.replicate (N - (flatIdx C i j + 1)) .garbage := by
      rw [← List.replicate_succ]; congr 1; omega
    rw [hg]
    refine Triple.last (F := cellAt k x 0 ∗ cellsAt k l (List.replicate (flatIdx C i j) 0))
      (writeCell_spec (q := q) (x := .garbage) (l1 := l) (l2 := List.replicate (N - (flatIdx C i j + 1)) .garbage) x hi hi' hj hl)
      (by ac_rfl) ?_
    intro _ h hh
    refine ⟨l ++ [x], ?_⟩
    refine pur_sep_iff.mpr ⟨by simp [hl], ?_⟩
    rw [cellsAt_snoc hl, hN, List.append_assoc]
    exact hh.perm (by simp only [List.singleton_append]; ac_rfl)
  refine Triple.step (F := emp) (loop.pre ?_) (by rw [sep_emp]) (fun _ => ?_)
  · intro h hh
    refine ⟨[], ?_⟩
    refine pur_sep_iff.mpr ⟨by simp [flatIdx], ?_⟩
    simpa [cellsAt, flatIdx] using hh
  · refine Triple.ret ?_
    intro h hh
    rw [sep_emp] at hh
    obtain ⟨l, hh⟩ := hh
    obtain ⟨hl, hh⟩ := pur_sep_iff.mp hh
    have hf : flatIdx C R 0 = R.toNat * C.toNat := by simp [flatIdx]
    rw [hf] at hl hh
    unfold matAt
    rw [pur_sep_iff, if_neg (by omega)]
    refine ⟨?_, q, l, ?_⟩
    · have := rect_replicate R.toNat C.toNat 0
      rw [show ((R.toNat : Nat) : Int) = R by omega, show ((C.toNat : Nat) : Int) = C by omega] at this
      exact this
    · rw [Nat.sub_self, List.replicate_zero, List.append_nil] at hh
      show (p ↦ .rows (rowPtrs q R C) ∗ q ↦ .ints l ∗ cellsAt k l _) h
      rw [List.flatten_replicate_replicate]
      exact hh

/-- One element is cleared. -/
theorem clearCell_spec {k : Option Kind} {m q : Ptr} {R C i j v : Int} {l1 l2 : List Cell} {x : Cell} (hi : 0 ≤ i) (hi' : i < R) (hj : 0 ≤ j)
    (hl : l1.length = flatIdx C i j) :
    Triple (m ↦ .rows (rowPtrs q R C) ∗ q ↦ .ints (l1 ++ x :: l2) ∗ cellAt k x v) (clearCell k m i j)
      (fun _ => ex fun y => m ↦ .rows (rowPtrs q R C) ∗ q ↦ .ints (l1 ++ y :: l2)) := by
  unfold clearCell
  cases k with
  | none =>
    refine Triple.opened_all (fun h0 hh => ?_)
    obtain ⟨_, _, _, _, _, hh⟩ := hh
    obtain ⟨_, _, _, _, _, hh⟩ := hh
    exact hh.1.elim
  | some k =>
    cases k with
    | fixed w =>
      refine Triple.last (F := cellAt (some (.fixed w)) x v) (writeCell_spec (q := q) (x := x) (l2 := l2) (.val 0) hi hi' hj hl) (by ac_rfl) ?_
      intro _ h hh
      refine ⟨.val 0, ?_⟩
      obtain ⟨_, _, _, rfl, h1, h2⟩ := hh
      have := h2.2
      rw [this]
      have e : ∀ f : PHeap, join f (fun _ => none) = f := by intro f; funext x; simp [join]
      rw [e]; exact h1
    | mp =>
      have e : (m ↦ .rows (rowPtrs q R C) ∗ q ↦ .ints (l1 ++ x :: l2) ∗ cellAt (some .mp) x v) =
          (cellAt (some .mp) x v ∗ m ↦ .rows (rowPtrs q R C) ∗ q ↦ .ints (l1 ++ x :: l2)) := by ac_rfl
      rw [e]
      simp only [cellAt]
      rw [ex_sep]
      refine Triple.exi (fun d => ?_)
      rw [sep_assoc]
      refine Triple.fact (fun hx => ?_)
      refine Triple.stepEq (F := d ↦ .mpz v) (readCell_spec (q := q) (x := x) (l2 := l2) hi hi' hj hl) (by ac_rfl) ?_
      refine Triple.liftStep (a := d) (by rw [hx]; rfl) ?_
      refine Triple.loadStep (p := d) (b := .mpz v) rfl ?_
      refine Triple.liftStep (a := v) rfl ?_
      refine Triple.last (Triple.free d _) rfl ?_
      intro _ h hh
      rw [emp_sep] at hh
      exact ⟨x, hh⟩

/-- The elements from the `n`-th on are not yet cleared. -/
def clearInv (k : Option Kind) (m q : Ptr) (R C : Int) (vals : List Int) (n : Nat) : Assn :=
  ex fun l1 : List Cell => ex fun l2 : List Cell => pur (l1.length = n) ∗ m ↦ .rows (rowPtrs q R C) ∗ q ↦ .ints (l1 ++ l2) ∗
    cellsAt k l2 (vals.drop n)

theorem clearLoop_spec {k : Option Kind} {m q : Ptr} {R C : Int} {vals : List Int} (hR : 0 < R) (hC : 0 < C)
    (hv : vals.length = R.toNat * C.toNat) :
    Triple (clearInv k m q R C vals 0) (Mem.forM 0 (R * C) (fun i => clearCell k m 0 i))
      (fun _ => clearInv k m q R C vals (R.toNat * C.toNat)) := by
  have hRC : R * C = ((R.toNat * C.toNat : Nat) : Int) := by
    rw [Int.natCast_mul, Int.toNat_of_nonneg (by omega), Int.toNat_of_nonneg (by omega)]
  rw [hRC]
  generalize hN : R.toNat * C.toNat = N at *
  have := Triple.forM (Inv := fun i => clearInv k m q R C vals i.toNat) (body := fun i => clearCell k m 0 i) (lo := 0) (hi := (N : Int))
    (by omega) (fun i hi hi' => ?_)
  · simpa using this
  · refine Triple.exi (fun l1 => Triple.exi (fun l2 => Triple.fact (fun hl => ?_)))
    have hd : vals.drop i.toNat = vals[i.toNat]'(by omega) :: vals.drop (i.toNat + 1) := List.drop_eq_getElem_cons (by omega)
    rw [hd]
    generalize vals[i.toNat]'(by omega) = v
    rw [show (i + 1).toNat = i.toNat + 1 by omega]
    cases l2 with
    | nil =>
      refine Triple.opened_all (fun h0 hh => ?_)
      obtain ⟨_, _, _, _, _, hh⟩ := hh
      obtain ⟨_, _, _, _, _, hh⟩ := hh
      exact hh.1.elim
    | cons x l2 =>
      refine Triple.last (F := cellsAt k l2 (vals.drop (i.toNat + 1)))
        (clearCell_spec (k := k) (q := q) (R := R) (C := C) (i := 0) (j := i) (v := v) (l1 := l1) (x := x) (l2 := l2) (by omega) hR hi
          (by simp [flatIdx, hl])) (by simp only [cellsAt]; ac_rfl) ?_
      intro _ h hh
      rw [ex_sep] at hh
      obtain ⟨y, hh⟩ := hh
      refine ⟨l1 ++ [y], l2, ?_⟩
      refine pur_sep_iff.mpr ⟨by simp [hl], ?_⟩
      rw [List.append_assoc]
      exact hh.perm (by simp only [List.singleton_append]; ac_rfl)

end Osl.Mem
