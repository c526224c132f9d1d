import Verif.HeapIntProps2
/-!
# Integers in memory (C77): every function of source/int.c on the integers of an array

`v[0], v[1], …` are the `osl_int_t` of an array (`arrAt`: the array, and in multiple precision one GMP integer per element); `call2 f v r a b` is the C call
`f(&v[r], v[a], v[b])`.  The indices are any: the result may be an operand.
-/

set_option linter.unusedSectionVars false

namespace Osl.Mem

variable [Allocator] {c : Cfg} {p i : Int} {v : Ptr} {vs : List Int} {r a b : Nat} {va vb : Int}

/-! ## Operations -/

/-- C77: `osl_int_assign`. -/
theorem int_assign_memory (ha : vs[a]? = some va) (hr : r < vs.length) :
    Does (arrAt (kind c p) v vs) (call1 (intAssign c p) v r a) (OInt.assign c p va) (fun w => arrAt (kind c p) v (vs.set r w)) :=
  call1_does ha hr (fun _ _ hr hx => op1_does hr hx)

/-- C77: `osl_int_oppose`. -/
theorem int_oppose_memory (ha : vs[a]? = some va) (hr : r < vs.length) :
    Does (arrAt (kind c p) v vs) (call1 (intOppose c p) v r a) (OInt.oppose c p va) (fun w => arrAt (kind c p) v (vs.set r w)) :=
  call1_does ha hr (fun _ _ hr hx => op1_does hr hx)

/-- C77: `osl_int_abs`. -/
theorem int_abs_memory (ha : vs[a]? = some va) (hr : r < vs.length) :
    Does (arrAt (kind c p) v vs) (call1 (intAbs c p) v r a) (OInt.abs c p va) (fun w => arrAt (kind c p) v (vs.set r w)) :=
  call1_does ha hr (fun _ _ hr hx => op1_does hr hx)

/-- C77: `osl_int_mul_si`. -/
theorem int_mul_si_memory (ha : vs[a]? = some va) (hr : r < vs.length) :
    Does (arrAt (kind c p) v vs) (call1 (fun r x => intMulSi c p r x i) v r a) (OInt.mul_si c p va i) (fun w => arrAt (kind c p) v (vs.set r w)) :=
  call1_does (f := fun r x => intMulSi c p r x i) ha hr (fun _ _ hr hx => int_mul_si_does hr hx)

/-- C77: `osl_int_add_si`. -/
theorem int_add_si_memory (ha : vs[a]? = some va) (hr : r < vs.length) :
    Does (arrAt (kind c p) v vs) (call1 (fun r x => intAddSi c p r x i) v r a) (OInt.add_si c p va i) (fun w => arrAt (kind c p) v (vs.set r w)) :=
  call1_does (f := fun r x => intAddSi c p r x i) ha hr (fun _ _ hr hx => int_add_si_does hr hx)

/-- C77: `osl_int_increment`. -/
theorem int_increment_memory (ha : vs[a]? = some va) (hr : r < vs.length) :
    Does (arrAt (kind c p) v vs) (call1 (intIncrement c p) v r a) (OInt.increment c p va) (fun w => arrAt (kind c p) v (vs.set r w)) :=
  call1_does ha hr (fun _ _ hr hx => int_add_si_does hr hx)

/-- C77: `osl_int_decrement`. -/
theorem int_decrement_memory (ha : vs[a]? = some va) (hr : r < vs.length) :
    Does (arrAt (kind c p) v vs) (call1 (intDecrement c p) v r a) (OInt.decrement c p va) (fun w => arrAt (kind c p) v (vs.set r w)) :=
  call1_does ha hr (fun _ _ hr hx => int_add_si_does hr hx)

/-- C77: `osl_int_add`. -/
theorem int_add_memory (ha : vs[a]? = some va) (hb : vs[b]? = some vb) (hr : r < vs.length) :
    Does (arrAt (kind c p) v vs) (call2 (intAdd c p) v r a b) (OInt.add c p va vb) (fun w => arrAt (kind c p) v (vs.set r w)) :=
  call2_does ha hb hr (fun _ _ _ hr hx hy => op2_does hr hx hy)

/-- C77: `osl_int_sub`. -/
theorem int_sub_memory (ha : vs[a]? = some va) (hb : vs[b]? = some vb) (hr : r < vs.length) :
    Does (arrAt (kind c p) v vs) (call2 (intSub c p) v r a b) (OInt.sub c p va vb) (fun w => arrAt (kind c p) v (vs.set r w)) :=
  call2_does ha hb hr (fun _ _ _ hr hx hy => int_sub_does hr hx hy)

/-- C77: `osl_int_mul`. -/
theorem int_mul_memory (ha : vs[a]? = some va) (hb : vs[b]? = some vb) (hr : r < vs.length) :
    Does (arrAt (kind c p) v vs) (call2 (intMul c p) v r a b) (OInt.mul c p va vb) (fun w => arrAt (kind c p) v (vs.set r w)) :=
  call2_does ha hb hr (fun _ _ _ hr hx hy => int_mul_does hr hx hy)

/-- C77: `osl_int_div_exact`. -/
theorem int_div_exact_memory (ha : vs[a]? = some va) (hb : vs[b]? = some vb) (hr : r < vs.length) :
    Does (arrAt (kind c p) v vs) (call2 (intDivExact c p) v r a b) (OInt.div_exact c p va vb) (fun w => arrAt (kind c p) v (vs.set r w)) :=
  call2_does ha hb hr (fun _ _ _ hr hx hy => op2_does hr hx hy)

/-- C77: `osl_int_floor_div_q`. -/
theorem int_floor_div_q_memory (ha : vs[a]? = some va) (hb : vs[b]? = some vb) (hr : r < vs.length) :
    Does (arrAt (kind c p) v vs) (call2 (intFloorDivQ c p) v r a b) (OInt.floor_div_q c p va vb) (fun w => arrAt (kind c p) v (vs.set r w)) :=
  call2_does ha hb hr (fun _ _ _ hr hx hy => int_floor_div_q_does hr hx hy)

/-- C77: `osl_int_floor_div_r`. -/
theorem int_floor_div_r_memory (ha : vs[a]? = some va) (hb : vs[b]? = some vb) (hr : r < vs.length) :
    Does (arrAt (kind c p) v vs) (call2 (intFloorDivR c p) v r a b) (OInt.floor_div_r c p va vb) (fun w => arrAt (kind c p) v (vs.set r w)) :=
  call2_does ha hb hr (fun _ _ _ hr hx hy => int_floor_div_r_does hr hx hy)

/-- C77: `osl_int_mod`. -/
theorem int_mod_memory (ha : vs[a]? = some va) (hb : vs[b]? = some vb) (hr : r < vs.length) :
    Does (arrAt (kind c p) v vs) (call2 (intMod c p) v r a b) (OInt.mod c p va vb) (fun w => arrAt (kind c p) v (vs.set r w)) :=
  call2_does ha hb hr (fun _ _ _ hr hx hy => int_mod_does hr hx hy)

/-- C77: `osl_int_gcd`. -/
theorem int_gcd_memory (ha : vs[a]? = some va) (hb : vs[b]? = some vb) (hr : r < vs.length) :
    Does (arrAt (kind c p) v vs) (call2 (intGcd c p) v r a b) (OInt.gcd c p va vb) (fun w => arrAt (kind c p) v (vs.set r w)) :=
  call2_does ha hb hr (fun _ _ _ hr hx hy => op2_does hr hx hy)

/-- C77: `osl_int_lcm`. -/
theorem int_lcm_memory (ha : vs[a]? = some va) (hb : vs[b]? = some vb) (hr : r < vs.length) :
    Does (arrAt (kind c p) v vs) (call2 (intLcm c p) v r a b) (OInt.lcm c p va vb) (fun w => arrAt (kind c p) v (vs.set r w)) :=
  call2_does ha hb hr (fun _ _ _ hr hx hy => int_lcm_does hr hx hy)

/-- C77: `osl_int_set_si`. -/
theorem int_set_si_memory (hr : r < vs.length) :
    Does (arrAt (kind c p) v vs) (intSetSi c p (v, (r : Int)) i) (OInt.set_si c p i) (fun w => arrAt (kind c p) v (vs.set r w)) := by
  have := Does.lift (P := arrAt (kind c p) v vs) (x := OInt.set_si c p i) (f := fun w => setLoc (kind c p) (v, (r : Int)) w) (g := fun w => Out.ok w)
    (Q := fun w => arrAt (kind c p) v (vs.set r w)) (fun w _ => Does.done (arr_set w hr))
  unfold intSetSi
  cases hf : OInt.set_si c p i <;> rw [hf] at this <;> exact this

/-- C77: `osl_int_set_long`. -/
theorem int_set_long_memory (hr : r < vs.length) :
    Does (arrAt (kind c p) v vs) (intSetLong c p (v, (r : Int)) i) (OInt.set_long c p i) (fun w => arrAt (kind c p) v (vs.set r w)) := by
  have := Does.lift (P := arrAt (kind c p) v vs) (x := OInt.set_long c p i) (f := fun w => setLoc (kind c p) (v, (r : Int)) w) (g := fun w => Out.ok w)
    (Q := fun w => arrAt (kind c p) v (vs.set r w)) (fun w _ => Does.done (arr_set w hr))
  unfold intSetLong
  cases hf : OInt.set_long c p i <;> rw [hf] at this <;> exact this

/-- C77: `osl_int_set_long_long`. -/
theorem int_set_long_long_memory (hr : r < vs.length) :
    Does (arrAt (kind c p) v vs) (intSetLongLong c p (v, (r : Int)) i) (OInt.set_long_long c p i) (fun w => arrAt (kind c p) v (vs.set r w)) := by
  have := Does.lift (P := arrAt (kind c p) v vs) (x := OInt.set_long_long c p i) (f := fun w => setLoc (kind c p) (v, (r : Int)) w) (g := fun w => Out.ok w)
    (Q := fun w => arrAt (kind c p) v (vs.set r w)) (fun w _ => Does.done (arr_set w hr))
  unfold intSetLongLong
  cases hf : OInt.set_long_long c p i <;> rw [hf] at this <;> exact this

/-! ## Tests and conversions -/

/-- C77: `osl_int_get_si` only reads. -/
theorem int_get_si_memory (ha : vs[a]? = some va) : Asks (arrAt (kind c p) v vs) (ask1 (intGetSi c p) v a) (OInt.get_si c p va) := ask1_asks ha

/-- C77: `osl_int_get_long` only reads. -/
theorem int_get_long_memory (ha : vs[a]? = some va) : Asks (arrAt (kind c p) v vs) (ask1 (intGetLong c p) v a) (OInt.get_long c p va) := ask1_asks ha

/-- C77: `osl_int_get_long_long` only reads. -/
theorem int_get_long_long_memory (ha : vs[a]? = some va) : Asks (arrAt (kind c p) v vs) (ask1 (intGetLongLong c p) v a) (OInt.get_long_long c p va) := ask1_asks ha

/-- C77: `osl_int_pos` only reads. -/
theorem int_pos_memory (ha : vs[a]? = some va) : Asks (arrAt (kind c p) v vs) (ask1 (intPos c p) v a) (OInt.pos c p va) := ask1_asks ha

/-- C77: `osl_int_neg` only reads. -/
theorem int_neg_memory (ha : vs[a]? = some va) : Asks (arrAt (kind c p) v vs) (ask1 (intNeg c p) v a) (OInt.neg c p va) := ask1_asks ha

/-- C77: `osl_int_zero` only reads. -/
theorem int_zero_memory (ha : vs[a]? = some va) : Asks (arrAt (kind c p) v vs) (ask1 (intZero c p) v a) (OInt.zero c p va) := ask1_asks ha

/-- C77: `osl_int_one` only reads. -/
theorem int_one_memory (ha : vs[a]? = some va) : Asks (arrAt (kind c p) v vs) (ask1 (intOne c p) v a) (OInt.one c p va) := ask1_asks ha

/-- C77: `osl_int_mone` only reads. -/
theorem int_mone_memory (ha : vs[a]? = some va) : Asks (arrAt (kind c p) v vs) (ask1 (intMone c p) v a) (OInt.mone c p va) := ask1_asks ha

/-- C77: `osl_int_size_in_base_2` only reads. -/
theorem int_size_in_base_2_memory (ha : vs[a]? = some va) : Asks (arrAt (kind c p) v vs) (ask1 (intSize2 c p) v a) (OInt.size_in_base_2 c p va) := ask1_asks ha

/-- C77: `osl_int_eq` only reads. -/
theorem int_eq_memory (ha : vs[a]? = some va) (hb : vs[b]? = some vb) : Asks (arrAt (kind c p) v vs) (ask2 (intEq c p) v a b) (OInt.eq c p va vb) := ask2_asks ha hb

/-- C77: `osl_int_ne` only reads. -/
theorem int_ne_memory (ha : vs[a]? = some va) (hb : vs[b]? = some vb) : Asks (arrAt (kind c p) v vs) (ask2 (intNe c p) v a b) (OInt.ne c p va vb) := ask2_asks ha hb

/-- C77: `osl_int_lt` only reads. -/
theorem int_lt_memory (ha : vs[a]? = some va) (hb : vs[b]? = some vb) : Asks (arrAt (kind c p) v vs) (ask2 (intLt c p) v a b) (OInt.lt c p va vb) := ask2_asks ha hb

/-- C77: `osl_int_le` only reads. -/
theorem int_le_memory (ha : vs[a]? = some va) (hb : vs[b]? = some vb) : Asks (arrAt (kind c p) v vs) (ask2 (intLe c p) v a b) (OInt.le c p va vb) := ask2_asks ha hb

/-- C77: `osl_int_gt` only reads. -/
theorem int_gt_memory (ha : vs[a]? = some va) (hb : vs[b]? = some vb) : Asks (arrAt (kind c p) v vs) (ask2 (intGt c p) v a b) (OInt.gt c p va vb) := ask2_asks ha hb

/-- C77: `osl_int_ge` only reads. -/
theorem int_ge_memory (ha : vs[a]? = some va) (hb : vs[b]? = some vb) : Asks (arrAt (kind c p) v vs) (ask2 (intGe c p) v a b) (OInt.ge c p va vb) := ask2_asks ha hb

/-- C77: `osl_int_divisible` only reads. -/
theorem int_divisible_memory (ha : vs[a]? = some va) (hb : vs[b]? = some vb) : Asks (arrAt (kind c p) v vs) (ask2 (intDivisible c p) v a b) (OInt.divisible c p va vb) := ask2_asks ha hb

/-! ## Allocation, initialisation, deallocation -/

/-- The integers of an array are at most one per element: one integer. -/
theorem arr_one {k : Option Kind} {q : Ptr} {y : Cell} {w : Int} : ∀ h, (q ↦ .ints [y] ∗ cellAt k y w) h → arrAt k q [w] h := by
  intro h hh
  unfold arrAt
  rw [if_neg (by simp)]
  refine ⟨[y], ?_⟩
  simp only [cellsAt, sep_emp]
  exact hh

/-- C77: `osl_int_init` of a new variable. -/
theorem int_init_memory {q : Ptr} : Does (q ↦ .ints [.garbage]) (intInit (kind c p) (q, 0)) (OInt.init c p) (fun w => arrAt (kind c p) q [w]) := by
  cases hk : kind c p with
  | none => unfold intInit OInt.init; rw [hk]; exact Does.fail
  | some kk =>
    have e : OInt.init c p = .ok 0 := by unfold OInt.init; rw [hk]
    rw [e, ← hk]
    refine Does.done ?_
    have := intInit_spec (k := kind c p) (by rw [hk]; simp) (q := q) (i := 0) (l1 := []) (l2 := []) rfl
    exact this.post (fun _ h ⟨y, hh⟩ => arr_one h hh)

/-- C77: `osl_int_malloc` allocates exactly one integer, zero. -/
theorem int_malloc_memory (hk : kind c p ≠ none) : Triple emp (intMalloc c p) (fun q => arrAt (kind c p) q [0]) := by
  unfold intMalloc
  hstep Triple.alloc
  hstep (intInit_spec hk (q := variable_) (i := 0) (l1 := []) (l2 := []) rfl)
  exact Triple.ret (fun h hh => arr_one (y := y) h hh)

/-- C77: `osl_int_free` frees everything. -/
theorem int_free_memory {q : Ptr} {u : Int} : Triple (arrAt (kind c p) q [u]) (intFree c p q) (fun _ => emp) := by
  refine Triple.opened_all (fun h0 hh => ?_)
  unfold arrAt at hh
  rw [if_neg (by simp)] at hh
  obtain ⟨cs, hh⟩ := hh
  have hl : cs.length = 1 := by
    obtain ⟨_, h2, _, _, _, hc⟩ := hh
    exact cellsAt_length hc
  match cs, hl with
  | [x1], _ =>
    simp only [cellsAt, sep_emp] at hh
    refine ⟨_, hh, ?_⟩
    unfold intFree
    hstep (clearLoc_spec (k := kind c p) (q := q) (v := u) (l1 := []) (x := x1) (l2 := []) rfl)
    hlast Triple.free
    hret

/-- C77: `osl_int_init_set_si` of a new variable. -/
theorem int_init_set_si_memory {q : Ptr} : Does (q ↦ .ints [.garbage]) (intInitSetSi c p (q, 0) i) (OInt.init_set_si c p i) (fun w => arrAt (kind c p) q [w]) := by
  unfold intInitSetSi
  cases hk : kind c p with
  | none => unfold OInt.init_set_si; rw [hk]; intro R h _; rfl
  | some kk =>
    have e : OInt.init_set_si c p i = .ok i := by unfold OInt.init_set_si; rw [hk]
    rw [e, ← hk]
    refine Does.done ?_
    hstep (initSi_spec (k := kind c p) (by rw [hk]; simp) i)
    refine Triple.last (writeLoc_spec (q := q) (i := 0) (l1 := []) (l2 := []) (x := .garbage) x rfl) (F := cellAt (kind c p) x i) (by rw [sep_comm]; rfl) (fun _ h hh => ?_)
    exact arr_one (y := x) h hh

theorem new_num {q : Ptr} {w : Nat} {u : Int} : Triple (q ↦ .ints [.garbage]) (writeLoc (q, 0) (.val u)) (fun _ => arrAt (some (.fixed w)) q [u]) :=
  (writeLoc_spec (q := q) (i := 0) (l1 := []) (l2 := []) (x := .garbage) (.val u) rfl).post (fun _ h hh => by
    refine arr_one (y := .val u) h ?_
    unfold cellAt
    rw [sep_comm]
    exact pur_sep_iff.mpr ⟨rfl, hh⟩)

/-- C77: `osl_int_init_set_long` of a new variable: undefined in multiple precision. -/
theorem int_init_set_long_memory {q : Ptr} : Does (q ↦ .ints [.garbage]) (intInitSetLong c p (q, 0) i) (OInt.init_set_long c p i) (fun w => arrAt (kind c p) q [w]) := by
  unfold intInitSetLong OInt.init_set_long
  cases hk : kind c p with
  | none =>
    rw [if_neg (by rintro ⟨h1, h2⟩; subst h1; simp [kind, h2, PREC_MP, PREC_SP, PREC_DP] at hk)]
    unfold OInt.set_long
    rw [hk]
    exact Does.fail
  | some kk =>
    cases kk with
    | mp =>
      rw [if_pos (kind_mp hk)]
      exact Does.undef
    | fixed w =>
      rw [if_neg (kind_not_mp hk)]
      dsimp only
      have := Does.lift (P := q ↦ .ints [.garbage]) (x := OInt.set_long c p i) (f := fun u => writeLoc (q, 0) (.val u)) (g := fun u => Out.ok u)
        (Q := fun u => arrAt (some (.fixed w)) q [u]) (fun u _ => Does.done new_num)
      cases hf : OInt.set_long c p i <;> rw [hf] at this <;> exact this

/-- C77: `osl_int_init_set_long_long` of a new variable: undefined in multiple precision (after the check of the range). -/
theorem int_init_set_long_long_memory {q : Ptr} :
    Does (q ↦ .ints [.garbage]) (intInitSetLongLong c p (q, 0) i) (OInt.init_set_long_long c p i) (fun w => arrAt (kind c p) q [w]) := by
  unfold intInitSetLongLong OInt.init_set_long_long
  cases hk : kind c p with
  | none =>
    rw [if_neg (by rintro ⟨h1, h2⟩; subst h1; simp [kind, h2, PREC_MP, PREC_SP, PREC_DP] at hk)]
    unfold OInt.set_long_long
    rw [if_neg (by rintro rfl; simp [kind] at hk), if_neg (by rintro rfl; simp [kind, PREC_SP, PREC_DP] at hk), if_neg (by rintro ⟨h1, h2⟩; subst h1; simp [kind, h2, PREC_MP, PREC_SP, PREC_DP] at hk)]
    exact Does.fail
  | some kk =>
    cases kk with
    | mp =>
      rw [if_pos (kind_mp hk)]
      exact Does.lift (fun _ _ => Does.undef)
    | fixed w =>
      rw [if_neg (kind_not_mp hk)]
      dsimp only
      have := Does.lift (P := q ↦ .ints [.garbage]) (x := OInt.set_long_long c p i) (f := fun u => writeLoc (q, 0) (.val u)) (g := fun u => Out.ok u)
        (Q := fun u => arrAt (some (.fixed w)) q [u]) (fun u _ => Does.done new_num)
      cases hf : OInt.set_long_long c p i <;> rw [hf] at this <;> exact this

/-- C77: `osl_int_init_set` of a new variable, from an integer of an array. -/
theorem int_init_set_memory {q : Ptr} (ha : vs[a]? = some va) :
    Does (arrAt (kind c p) v vs ∗ q ↦ .ints [.garbage])
      (do
        let x ← readLoc (v, (a : Int))
        intInitSet c p (q, 0) x)
      (OInt.assign c p va) (fun w => arrAt (kind c p) v vs ∗ arrAt (kind c p) q [w]) := by
  refine Does.opened (fun h0 hh => ?_)
  obtain ⟨h1, h2, hd, e, hp, hq⟩ := hh
  obtain ⟨cs, P, hp, op⟩ := arr_opened (by rintro rfl; simp at ha) hp
  refine ⟨P ∗ q ↦ .ints [.garbage], ⟨h1, h2, hd, e, hp, hq⟩, ?_⟩
  obtain ⟨x, _, hx, hxa⟩ := op.cell ha
  refine Does.ask hx.left ?_
  refine Does.known hxa.left (fun hk => ?_)
  unfold intInitSet
  have h1 := intInit_spec hk (q := q) (i := 0) (l1 := []) (l2 := []) rfl
  refine Does.write (P' := P ∗ arrAt (kind c p) q [0]) ((Triple.withF h1).post (fun _ h hh => ?_)) ?_
  · exact sep_mono (fun _ h => h) (fun h ⟨y, hh⟩ => arr_one h hh) hh
  refine (op1_does (f := OInt.assign c p) (arr_var (k := kind c p) (v := q) (vs := [0]) (r := 0) (by simp)).frameR hxa.left).conseq (fun _ h => h) (fun w h hh => ?_)
  exact sep_mono op.close (fun _ h => h) hh

/-! ## Unknown precisions -/

/-- C77: with an unknown precision, every function ends with an error (before anything is read or written). -/
theorem int_unknown_memory (hk : kind c p = none) (q r : Loc) (x y : Cell) (h : Heap) :
    (intInit (kind c p) r h = .err ∧ intAssign c p r x h = .err ∧ intSetSi c p r i h = .err ∧ intInitSetSi c p r i h = .err ∧ intSwap (kind c p) q r h = .err) ∧
    (intAdd c p r x y h = .err ∧ intAddSi c p r x i h = .err ∧ intMul c p r x y h = .err ∧ intMulSi c p r x i h = .err ∧ intOppose c p r x h = .err ∧ intAbs c p r x h = .err) ∧
    (intDivExact c p r x y h = .err ∧ intFloorDivQ c p r x y h = .err ∧ intFloorDivR c p r x y h = .err ∧ intFloorDivQR c p q r x y h = .err ∧ intMod c p r x y h = .err ∧ intGcd c p r x y h = .err) ∧
    (intPos c p x h = .err ∧ intZero c p x h = .err ∧ intEq c p x y h = .err ∧ intLt c p x y h = .err ∧ intDivisible c p x y h = .err ∧ intGetSi c p x h = .err) := by
  refine ⟨⟨?_, ?_, ?_, ?_, ?_⟩, ⟨?_, ?_, ?_, ?_, ?_, ?_⟩, ⟨?_, ?_, ?_, ?_, ?_, ?_⟩, ⟨?_, ?_, ?_, ?_, ?_, ?_⟩⟩
  all_goals first
    | (unfold intInit; rw [hk]; rfl)
    | (unfold intAssign intOp1; rw [hk]; rfl)
    | (unfold intSetSi OInt.set_si; rw [hk]; rfl)
    | (unfold intInitSetSi; rw [hk]; rfl)
    | (unfold intSwap; rw [hk]; rfl)
    | (unfold intAdd intOp2; rw [hk]; rfl)
    | (unfold intAddSi; rw [hk]; rfl)
    | (unfold intMul; rw [hk]; rfl)
    | (unfold intMulSi; rw [hk]; rfl)
    | (unfold intOppose intOp1; rw [hk]; rfl)
    | (unfold intAbs intOp1; rw [hk]; rfl)
    | (unfold intDivExact intOp2; rw [hk]; rfl)
    | (unfold intFloorDivQ; rw [hk]; rfl)
    | (unfold intFloorDivR; rw [hk]; rfl)
    | (unfold intFloorDivQR; rw [hk]; rfl)
    | (unfold intMod; rw [hk]; rfl)
    | (unfold intGcd intOp2; rw [hk]; rfl)
    | (unfold intPos intAsk1; rw [hk]; rfl)
    | (unfold intZero intAsk1; rw [hk]; rfl)
    | (unfold intEq intAsk2; rw [hk]; rfl)
    | (unfold intLt intAsk2; rw [hk]; rfl)
    | (unfold intDivisible intAsk2; rw [hk]; rfl)
    | (unfold intGetSi intAsk1; rw [hk]; rfl)

end Osl.Mem
