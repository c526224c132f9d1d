import Verif.HeapIntProps
import Verif.HeapPrintProps4
import Verif.HeapQueryTac
/-!
# Integers in memory (C77): local integers, and the variables of an array
-/

set_option linter.unusedSectionVars false

namespace Osl.Mem

variable [Allocator] {α β : Type} {c : Cfg} {p : Int} {k : Option Kind}

/-! ## Rules -/

theorem Does.alloc {P : Assn} {b : Block} {f : Ptr → M Unit} {o : Out α} {Q : α → Assn} (hf : ∀ t, Does (P ∗ t ↦ b) (f t) o Q) : Does P (Mem.alloc b >>= f) o Q := by
  refine Does.step (P' := fun t => P ∗ t ↦ b) ?_ hf
  have := Triple.withF (F := P) (Triple.alloc b)
  rw [sep_emp] at this
  exact this

theorem Var.frameR {r : Loc} {P F : Assn} {A : Int → Assn} (h : Var k r P A) : Var k r (F ∗ P) (fun u => F ∗ A u) :=
  ⟨fun w => (h.first w).withF, fun u w => (h.set u w).withF,
    fun u => ((h.get u).withF).post (fun x h0 hh => hh.perm (by ac_rfl))⟩

theorem holds_mp {q : Ptr} {v : Int} : Holds (some .mp) (q ↦ .mpz v) (.mp q) v := by
  refine ⟨?_, fun w h => by cases h⟩
  unfold cellVal
  dsimp only
  qstep Query.lift (x := asMp (.mp q)) rfl
  qstep Query.load
  exact Query.lift rfl

theorem holds_num {w : Nat} {P : Assn} {v : Int} : Holds (some (.fixed w)) P (.val v) v := ⟨Query.lift rfl, fun _ _ => rfl⟩

/-- An operand in its own memory. -/
theorem holds_cell {x : Cell} {v : Int} {h0 : PHeap} (hx : cellAt k x v h0) : Holds k (cellAt k x v) x v := by
  unfold cellAt at hx ⊢
  match k with
  | none => exact hx.1.elim
  | some (.fixed w) =>
    dsimp only at hx ⊢
    obtain ⟨hx, _⟩ := hx
    subst hx
    exact holds_num
  | some .mp =>
    dsimp only at hx ⊢
    refine ⟨?_, fun w h => by cases h⟩
    refine Query.ex (fun q => ?_)
    refine Query.fact (fun hx => ?_)
    subst hx
    exact holds_mp.get

/-- One integer of an array. -/
theorem cellsAt_split {cs : List Cell} {vs : List Int} {i : Nat} {x : Cell} {v : Int} (hl : cs.length = vs.length) (hx : cs[i]? = some x) (hv : vs[i]? = some v) :
    cellsAt k cs vs = (cellsAt k (cs.take i) (vs.take i) ∗ cellAt k x v ∗ cellsAt k (cs.drop (i + 1)) (vs.drop (i + 1))) := by
  obtain ⟨h1, e1⟩ := List.getElem?_eq_some_iff.mp hx
  obtain ⟨h2, e2⟩ := List.getElem?_eq_some_iff.mp hv
  have a1 : cs = cs.take i ++ x :: cs.drop (i + 1) := by rw [← e1, List.getElem_cons_drop, List.take_append_drop]
  have a2 : vs = vs.take i ++ v :: vs.drop (i + 1) := by rw [← e2, List.getElem_cons_drop, List.take_append_drop]
  rw [show cellsAt k cs vs = cellsAt k (cs.take i ++ x :: cs.drop (i + 1)) (vs.take i ++ v :: vs.drop (i + 1)) by rw [← a1, ← a2], cellsAt_append (by simp [hl])]
  rfl

theorem cells_differ {cs : List Cell} {vs : List Int} {i j : Nat} {x y : Cell} {u v : Int} (hij : i < j) (hx : cs[i]? = some x) (hy : cs[j]? = some y)
    (hu : vs[i]? = some u) (hv : vs[j]? = some v) {h : PHeap} (hh : cellsAt (some .mp) cs vs h) : x ≠ y := by
  have hl := cellsAt_length hh
  rw [cellsAt_split hl hx hu] at hh
  have hl2 : (cs.drop (i + 1)).length = (vs.drop (i + 1)).length := by simp [hl]
  have hy2 : (cs.drop (i + 1))[j - (i + 1)]? = some y := by rw [List.getElem?_drop, ← hy]; congr 1; omega
  have hv2 : (vs.drop (i + 1))[j - (i + 1)]? = some v := by rw [List.getElem?_drop, ← hv]; congr 1; omega
  rw [cellsAt_split hl2 hy2 hv2] at hh
  have hh : (cellAt (some .mp) x u ∗ cellAt (some .mp) y v ∗ (cellsAt (some .mp) (cs.take i) (vs.take i) ∗ cellsAt (some .mp) ((cs.drop (i + 1)).take (j - (i + 1))) ((vs.drop (i + 1)).take (j - (i + 1))) ∗
      cellsAt (some .mp) ((cs.drop (i + 1)).drop (j - (i + 1) + 1)) ((vs.drop (i + 1)).drop (j - (i + 1) + 1)))) h := hh.perm (by ac_rfl)
  obtain ⟨h1, h2, hd, e, ⟨q1, hq1⟩, h3, h4, hd2, e2, ⟨q2, hq2⟩, _⟩ := hh
  obtain ⟨e1, hp1⟩ := pur_sep_iff.mp hq1
  obtain ⟨e2', hp2⟩ := pur_sep_iff.mp hq2
  rintro rfl
  rw [e1] at e2'
  injection e2' with e3
  subst e3
  obtain ⟨hn, hs1⟩ := hp1
  obtain ⟨_, hs2⟩ := hp2
  have := (disj_join_right.mp (e2 ▸ hd)).1 q1
  rw [hs1, hs2] at this
  simp at this

/-- The integers of an array, with its content: each one can be read, and set. -/
structure Opened (k : Option Kind) (v : Ptr) (vs : List Int) (cs : List Cell) (P : Assn) : Prop where
  len : cs.length = vs.length
  read : ∀ (a : Nat) (x : Cell), cs[a]? = some x → Query P (readLoc (v, (a : Int))) x
  holds : ∀ (a : Nat) (x : Cell) (u : Int), cs[a]? = some x → vs[a]? = some u → Holds k P x u
  var : ∀ r, r < vs.length → Var k (v, (r : Int)) P (fun w => arrAt k v (vs.set r w))
  close : ∀ h, P h → arrAt k v vs h
  differ : k = some .mp → ∀ (i j : Nat) (x y : Cell), i ≠ j → cs[i]? = some x → cs[j]? = some y → x ≠ y

theorem nth_of_some {γ : Type} {l : List γ} {i : Nat} {x : γ} (h : l[i]? = some x) : nth l (i : Int) = .ok x := by
  obtain ⟨h1, e1⟩ := List.getElem?_eq_some_iff.mp h
  have a1 : l = l.take i ++ x :: l.drop (i + 1) := by rw [← e1, List.getElem_cons_drop, List.take_append_drop]
  rw [a1]
  exact nth_mid (by simp; omega)

theorem arr_var {v : Ptr} {vs : List Int} {r : Nat} (hr : r < vs.length) : Var k (v, (r : Int)) (arrAt k v vs) (fun w => arrAt k v (vs.set r w)) := by
  refine ⟨fun w => arr_set w hr, fun u w => ?_, fun u => arr_get (by simp [hr])⟩
  have := arr_set (k := k) (q := v) (l := vs.set r u) (i := r) w (by simpa using hr)
  rw [List.set_set] at this
  exact this

theorem arr_opened {v : Ptr} {vs : List Int} (hn : vs ≠ []) {h : PHeap} (hh : arrAt k v vs h) : ∃ cs P, P h ∧ Opened k v vs cs P := by
  unfold arrAt at hh
  rw [if_neg hn] at hh
  obtain ⟨cs, hh⟩ := hh
  refine ⟨cs, _, hh, ?_⟩
  obtain ⟨_, h2, _, _, _, hc⟩ := hh
  have hl := cellsAt_length hc
  have hclose : ∀ h, (v ↦ Block.ints cs ∗ cellsAt k cs vs) h → arrAt k v vs h := by
    intro h hh
    unfold arrAt
    rw [if_neg hn]
    exact ⟨cs, hh⟩
  refine ⟨hl, fun a x hx => ?_, fun a x u hx hu => ?_, fun r hr => ?_, hclose, fun hk i j x y hij hx hy => ?_⟩
  · unfold readLoc
    qstep Query.load
    qstep Query.lift rfl
    exact Query.lift (nth_of_some hx)
  · rw [cellsAt_split hl hx hu] at hc ⊢
    obtain ⟨_, _, _, _, _, _, _, _, _, hc, _⟩ := hc
    exact (holds_cell hc).left.right.right
  · obtain ⟨a1, a2, a3⟩ := arr_var (k := k) (v := v) hr
    exact ⟨fun w => (a1 w).pre hclose, a2, a3⟩
  · subst hk
    have hi : i < vs.length := by rw [← hl]; exact (List.getElem?_eq_some_iff.mp hx).1
    have hj : j < vs.length := by rw [← hl]; exact (List.getElem?_eq_some_iff.mp hy).1
    rcases Nat.lt_or_gt_of_ne hij with h | h
    · exact cells_differ h hx hy (List.getElem?_eq_getElem hi) (List.getElem?_eq_getElem hj) hc
    · exact (cells_differ h hy hx (List.getElem?_eq_getElem hj) (List.getElem?_eq_getElem hi) hc).symm

/-- An operand of an array. -/
theorem Opened.cell {v : Ptr} {vs : List Int} {cs : List Cell} {P : Assn} (o : Opened k v vs cs P) {a : Nat} {u : Int} (h : vs[a]? = some u) :
    ∃ x, cs[a]? = some x ∧ Query P (readLoc (v, (a : Int))) x ∧ Holds k P x u := by
  obtain ⟨h1, _⟩ := List.getElem?_eq_some_iff.mp h
  have h2 : a < cs.length := by rw [o.len]; exact h1
  have hx : cs[a]? = some cs[a] := List.getElem?_eq_getElem h2
  exact ⟨_, hx, o.read a _ hx, o.holds a _ _ hx h⟩

/-! ## Calls whose arguments are integers of an array (specification) -/

/-- `f(&v[r], v[a])`. -/
def call1 (f : Loc → Cell → M Unit) (v : Ptr) (r a : Nat) : M Unit := do
  let x ← readLoc (v, (a : Int))
  f (v, (r : Int)) x

/-- `f(&v[r], v[a], v[b])`. -/
def call2 (f : Loc → Cell → Cell → M Unit) (v : Ptr) (r a b : Nat) : M Unit := do
  let x ← readLoc (v, (a : Int))
  let y ← readLoc (v, (b : Int))
  f (v, (r : Int)) x y

/-- `f(v[a])`. -/
def ask1 (f : Cell → M β) (v : Ptr) (a : Nat) : M β := do
  let x ← readLoc (v, (a : Int))
  f x

/-- `f(v[a], v[b])`. -/
def ask2 (f : Cell → Cell → M β) (v : Ptr) (a b : Nat) : M β := do
  let x ← readLoc (v, (a : Int))
  let y ← readLoc (v, (b : Int))
  f x y

theorem call1_does {f : Loc → Cell → M Unit} {o : Out Int} {v : Ptr} {vs : List Int} {r a : Nat} {va : Int} (ha : vs[a]? = some va) (hr : r < vs.length)
    (hf : ∀ P x, Var k (v, (r : Int)) P (fun w => arrAt k v (vs.set r w)) → Holds k P x va → Does P (f (v, (r : Int)) x) o (fun w => arrAt k v (vs.set r w))) :
    Does (arrAt k v vs) (call1 f v r a) o (fun w => arrAt k v (vs.set r w)) := by
  refine Does.opened (fun h0 hh => ?_)
  obtain ⟨cs, P, hh, op⟩ := arr_opened (by rintro rfl; simp at hr) hh
  refine ⟨P, hh, ?_⟩
  obtain ⟨x, _, hx, hxa⟩ := op.cell ha
  exact Does.ask hx (hf P x (op.var r hr) hxa)

theorem call2_does {f : Loc → Cell → Cell → M Unit} {o : Out Int} {v : Ptr} {vs : List Int} {r a b : Nat} {va vb : Int} (ha : vs[a]? = some va) (hb : vs[b]? = some vb) (hr : r < vs.length)
    (hf : ∀ P x y, Var k (v, (r : Int)) P (fun w => arrAt k v (vs.set r w)) → Holds k P x va → Holds k P y vb → Does P (f (v, (r : Int)) x y) o (fun w => arrAt k v (vs.set r w))) :
    Does (arrAt k v vs) (call2 f v r a b) o (fun w => arrAt k v (vs.set r w)) := by
  refine Does.opened (fun h0 hh => ?_)
  obtain ⟨cs, P, hh, op⟩ := arr_opened (by rintro rfl; simp at hr) hh
  refine ⟨P, hh, ?_⟩
  obtain ⟨x, _, hx, hxa⟩ := op.cell ha
  obtain ⟨y, _, hy, hyb⟩ := op.cell hb
  exact Does.ask hx (Does.ask hy (hf P x y (op.var r hr) hxa hyb))

theorem Asks.ask {P : Assn} {q : M α} {v : α} {f : α → M β} {o : Out β} (hq : Query P q v) (hf : Asks P (f v) o) : Asks P (q >>= f) o := by
  intro h hh
  rw [bind_ok (hq h hh)]
  exact hf h hh

theorem Asks.lift {P : Assn} {o : Out β} : Asks P (Mem.lift o) o := by
  intro h hh
  cases o <;> rfl

theorem Asks.opened {P : Assn} {m : M β} {o : Out β} (hp : ∀ h, P h → ∃ P', P' h ∧ Asks P' m o) : Asks P m o := by
  intro h hh
  obtain ⟨h1, h2, hd, e, ha, hb⟩ := hh
  obtain ⟨P', hx, hm⟩ := hp h1 ha
  exact hm h ⟨h1, h2, hd, e, hx, hb⟩

theorem ask1_asks {f : Int → Out β} {v : Ptr} {vs : List Int} {a : Nat} {va : Int} (ha : vs[a]? = some va) : Asks (arrAt k v vs) (ask1 (intAsk1 f k) v a) (f va) := by
  refine Asks.opened (fun h0 hh => ?_)
  obtain ⟨cs, P, hh, op⟩ := arr_opened (by rintro rfl; simp at ha) hh
  refine ⟨P, hh, ?_⟩
  obtain ⟨x, _, hx, hxa⟩ := op.cell ha
  exact Asks.ask hx (Asks.ask hxa.get Asks.lift)

theorem ask2_asks {f : Int → Int → Out β} {v : Ptr} {vs : List Int} {a b : Nat} {va vb : Int} (ha : vs[a]? = some va) (hb : vs[b]? = some vb) :
    Asks (arrAt k v vs) (ask2 (intAsk2 f k) v a b) (f va vb) := by
  refine Asks.opened (fun h0 hh => ?_)
  obtain ⟨cs, P, hh, op⟩ := arr_opened (by rintro rfl; simp at ha) hh
  refine ⟨P, hh, ?_⟩
  obtain ⟨x, _, hx, hxa⟩ := op.cell ha
  obtain ⟨y, _, hy, hyb⟩ := op.cell hb
  exact Asks.ask hx (Asks.ask hy (Asks.ask hxa.get (Asks.ask hyb.get Asks.lift)))

/-! ## Operations with local integers -/

theorem int_add_si_does {r : Loc} {x : Cell} {a i : Int} {P : Assn} {A : Int → Assn} (hr : Var (kind c p) r P A) (hx : Holds (kind c p) P x a) :
    Does P (intAddSi c p r x i) (OInt.add_si c p a i) A := by
  refine Does.known hx (fun hk => ?_)
  unfold intAddSi
  cases hkk : kind c p with
  | none => exact absurd hkk hk
  | some kk =>
    rw [hkk] at hr hx
    cases kk with
    | fixed w => exact op1_does (f := fun a => OInt.add_si c p a i) hr hx
    | mp =>
      unfold OInt.add_si
      rw [hkk]
      dsimp only
      refine Does.alloc (fun si => ?_)
      refine Does.after (op2_does (f := fun a b => .ok (a + b)) hr.frame hx.left holds_mp.right) (fun w => ?_)
      have := Triple.withF (F := A w) (Triple.free si (.mpz i))
      rw [sep_emp] at this
      exact this

theorem local_read {t : Ptr} {x : Cell} : Query (t ↦ .ints [x]) (readLoc (t, 0)) x := by
  unfold readLoc
  qstep Query.load
  qstep Query.lift rfl
  exact Query.lift rfl

theorem local_get {t : Ptr} {w : Nat} {u : Int} : Query (t ↦ .ints [.val u]) (getLoc (some (.fixed w)) (t, 0)) u := by
  unfold getLoc
  dsimp only
  qstep local_read
  exact Query.lift rfl

theorem int_sub_does {r : Loc} {x y : Cell} {a b : Int} {P : Assn} {A : Int → Assn} (hr : Var (kind c p) r P A) (hx : Holds (kind c p) P x a) (hy : Holds (kind c p) P y b) :
    Does P (intSub c p r x y) (OInt.sub c p a b) A := by
  refine Does.known hx (fun hk => ?_)
  unfold intSub OInt.sub
  cases hkk : kind c p with
  | none => exact absurd hkk hk
  | some kk =>
    cases kk with
    | mp =>
      rw [hkk] at hr hx hy
      rw [if_pos (kind_mp hkk)]
      exact op2_does (f := fun a b => .ok (a - b)) hr hx hy
    | fixed w =>
      rw [if_neg (kind_not_mp hkk)]
      have hi : OInt.init c p = .ok 0 := by unfold OInt.init; rw [hkk]
      rw [hi, Out.ok_bind]
      dsimp only
      refine Does.alloc (fun t => ?_)
      have hv : Var (some (.fixed w)) (t, 0) (t ↦ .ints [.val 0]) (fun u => t ↦ .ints [.val u]) :=
        ⟨fun u => writeLoc_spec (l1 := []) (x := .val 0) (.val u) rfl, fun u u2 => writeLoc_spec (l1 := []) (x := .val u) (.val u2) rfl,
          fun u => (local_get).triple⟩
      refine Does.write (P' := P ∗ t ↦ .ints [.val 0]) (Triple.withF (writeLoc_spec (l1 := []) (x := .garbage) (.val 0) rfl)) ?_
      have h1 : Does (P ∗ t ↦ .ints [.val 0]) (intOppose c p (t, 0) y) (OInt.oppose c p b) (fun u => P ∗ t ↦ .ints [.val u]) := by
        unfold intOppose
        rw [hkk] at hy ⊢
        exact op1_does hv.frameR hy.left
      refine Does.seq h1 (fun mb _ => ?_)
      refine Does.ask (v := .val mb) local_read.right ?_
      have h2 : Does (P ∗ t ↦ .ints [.val mb]) (intAdd c p r x (.val mb)) (OInt.add c p a mb) (fun u => A u ∗ t ↦ .ints [.val mb]) := by
        unfold intAdd
        rw [hkk] at hr hx ⊢
        exact op2_does hr.frame hx.left holds_num
      refine Does.after h2 (fun u => ?_)
      have := Triple.withF (F := A u) (Triple.free t (.ints [.val mb]))
      rw [sep_emp] at this
      exact this

/-! ## The least common multiple -/

/-- The memory of the three local integers, whatever their values. -/
def localsAt (k : Option Kind) (t : Ptr) : Assn := ex fun l => pur (l.length = 3) ∗ arrAt k t l

theorem localsAt_of {t : Ptr} {l : List Int} (hl : l.length = 3) : ∀ h, arrAt k t l h → localsAt k t h := fun _ hh => ⟨l, pur_sep_iff.mpr ⟨hl, hh⟩⟩

theorem intInit_spec (hk : k ≠ none) {q : Ptr} {i : Int} {l1 l2 : List Cell} (hl : (l1.length : Int) = i) :
    Triple (q ↦ .ints (l1 ++ .garbage :: l2)) (intInit k (q, i)) (fun _ => ex fun y => q ↦ .ints (l1 ++ y :: l2) ∗ cellAt k y 0) := by
  unfold intInit cellAt
  match k with
  | none => exact absurd rfl hk
  | some (.fixed _) =>
    dsimp only
    hlast (writeLoc_spec (x := .garbage) (l2 := l2) (.val 0) hl)
    hret
  | some .mp =>
    dsimp only
    hstep Triple.alloc
    hlast (writeLoc_spec (x := .garbage) (l2 := l2) (.mp p) hl)
    hret

theorem lcmLocals_spec (hk : kind c p ≠ none) : Triple emp (lcmLocals c p) (fun t => arrAt (kind c p) t [0, 0, 0]) := by
  unfold lcmLocals
  hstep Triple.alloc
  hstep (intInit_spec hk (q := t) (l1 := []) (l2 := [.garbage, .garbage]) rfl)
  revert y; intro y1
  hstep (intInit_spec hk (q := t) (l1 := [y1]) (l2 := [.garbage]) rfl)
  revert y; intro y2
  hstep (intInit_spec hk (q := t) (l1 := [y1, y2]) (l2 := []) rfl)
  revert y; intro y3
  refine Triple.ret (fun h hh => ?_)
  unfold arrAt
  rw [if_neg (by simp)]
  refine ⟨[y1, y2, y3], ?_⟩
  simp only [cellsAt, sep_emp]
  exact hh.perm (by simp only [List.nil_append, List.cons_append]; ac_rfl)

theorem arr3_clear {t : Ptr} {a b d : Int} : Triple (arrAt (kind c p) t [a, b, d]) (lcmClear c p t) (fun _ => emp) := by
  refine Triple.opened_all (fun h0 hh => ?_)
  unfold arrAt at hh
  rw [if_neg (by simp)] at hh
  obtain ⟨cs, hh⟩ := hh
  have hl : cs.length = 3 := by
    obtain ⟨_, h2, _, _, _, hc⟩ := hh
    exact cellsAt_length hc
  match cs, hl with
  | [x1, x2, x3], _ =>
    simp only [cellsAt, sep_emp] at hh
    refine ⟨_, hh, ?_⟩
    unfold lcmClear
    hstep (clearLoc_spec (k := kind c p) (q := t) (v := a) (l1 := []) (x := x1) (l2 := [x2, x3]) rfl)
    revert y; intro y1
    hstep (clearLoc_spec (k := kind c p) (q := t) (v := b) (l1 := [y1]) (x := x2) (l2 := [x3]) rfl)
    revert y; intro y2
    hstep (clearLoc_spec (k := kind c p) (q := t) (v := d) (l1 := [y1, y2]) (x := x3) (l2 := []) rfl)
    hlast Triple.free
    hret

theorem lcmClear_spec {t : Ptr} : Triple (localsAt (kind c p) t) (lcmClear c p t) (fun _ => emp) := by
  unfold localsAt
  refine Triple.exi (fun l => ?_)
  refine Triple.fact (fun hl => ?_)
  match l, hl with
  | [a, b, d], _ => exact arr3_clear

/-- The result: the local integers are `g`, `pa`, `pb`. -/
theorem lcmResult_does {r : Loc} {t : Ptr} {P : Assn} {A : Int → Assn} {g pa pb : Int} (hk : kind c p ≠ none) (hr : Var (kind c p) r P A) :
    Does (P ∗ arrAt (kind c p) t [g, pa, pb]) (lcmResult c p r t)
      (do
        let z ← OInt.zero c p g
        if z then OInt.set_si c p 0
        else do
          let pa ← OInt.div_exact c p pa g
          OInt.mul c p pa pb)
      (fun w => A w ∗ localsAt (kind c p) t) := by
  refine Does.opened (fun h0 hh => ?_)
  obtain ⟨h1, h2, hd, e, hp, ha⟩ := hh
  obtain ⟨cs, L, hl, op⟩ := arr_opened (by simp) ha
  refine ⟨P ∗ L, ⟨h1, h2, hd, e, hp, hl⟩, ?_⟩
  unfold lcmResult
  obtain ⟨x, _, hx, hxg⟩ := op.cell (a := 0) (u := g) rfl
  obtain ⟨y, _, hy, hyp⟩ := op.cell (a := 1) (u := pa) rfl
  refine Does.ask hx.right ?_
  have hz : OInt.zero c p g = .ok (decide (g = 0)) := by
    unfold OInt.zero
    cases hkk : kind c p with
    | none => exact absurd hkk hk
    | some _ => rfl
  rw [hz, Out.ok_bind]
  refine Does.ask (v := decide (g = 0)) (Query.right ?_) ?_
  · exact Query.bind hxg.get (Query.lift hz)
  by_cases hg : decide (g = 0) = true
  · rw [if_pos hg, if_pos hg]
    unfold intSetSi
    have := Does.lift (P := P ∗ L) (x := OInt.set_si c p 0) (f := fun w => setLoc (kind c p) r w) (g := fun w => Out.ok w) (Q := fun w => A w ∗ localsAt (kind c p) t)
      (fun w _ => Does.done (((hr.first w).frame L).post (fun _ h hh => sep_mono (fun _ h => h) (fun h hh => localsAt_of rfl h (op.close h hh)) hh)))
    cases hf : OInt.set_si c p 0 <;> rw [hf] at this <;> exact this
  · rw [if_neg hg, if_neg hg]
    refine Does.ask hy.right ?_
    refine Does.seq (op2_does (op.var 1 (by simp)).frameR hyp.right hxg.right) (fun q _ => ?_)
    show Does (P ∗ arrAt (kind c p) t [g, q, pb]) _ _ _
    refine Does.opened (fun h0 hh => ?_)
    obtain ⟨h1, h2, hd, e, hp, ha⟩ := hh
    obtain ⟨cs, L, hl, op⟩ := arr_opened (by simp) ha
    refine ⟨P ∗ L, ⟨h1, h2, hd, e, hp, hl⟩, ?_⟩
    obtain ⟨x, _, hx, hxq⟩ := op.cell (a := 1) (u := q) rfl
    obtain ⟨y, _, hy, hyb⟩ := op.cell (a := 2) (u := pb) rfl
    refine Does.ask hx.right (Does.ask hy.right ?_)
    refine (int_mul_does hr.frame hxq.right hyb.right).conseq (fun _ h => h) (fun w h hh => ?_)
    exact sep_mono (fun _ h => h) (fun h hh => localsAt_of rfl h (op.close h hh)) hh

theorem int_lcm_does {r : Loc} {x y : Cell} {a b : Int} {P : Assn} {A : Int → Assn} (hr : Var (kind c p) r P A) (hx : Holds (kind c p) P x a) (hy : Holds (kind c p) P y b) :
    Does P (intLcm c p r x y) (OInt.lcm c p a b) A := by
  refine Does.known hx (fun hk => ?_)
  have hi : OInt.init c p = .ok 0 := by
    unfold OInt.init
    cases hkk : kind c p with
    | none => exact absurd hkk hk
    | some _ => rfl
  unfold intLcm OInt.lcm
  rw [hi, Out.ok_bind]
  refine Does.step (P' := fun t => P ∗ arrAt (kind c p) t [0, 0, 0]) ?_ (fun t => ?_)
  · have := Triple.withF (F := P) (lcmLocals_spec hk)
    rw [sep_emp] at this
    exact this
  refine Does.seq (op1_does (arr_var (r := 1) (by simp)).frameR hx.left) (fun pa _ => ?_)
  refine Does.seq (op1_does (arr_var (r := 2) (by simp)).frameR hy.left) (fun pb _ => ?_)
  show Does (P ∗ arrAt (kind c p) t [0, pa, pb]) _ _ _
  refine Does.opened (fun h0 hh => ?_)
  obtain ⟨h1, h2, hd, e, hp, ha⟩ := hh
  obtain ⟨cs, L, hl, op⟩ := arr_opened (by simp) ha
  refine ⟨P ∗ L, ⟨h1, h2, hd, e, hp, hl⟩, ?_⟩
  obtain ⟨x, _, hx, hxa⟩ := op.cell (a := 1) (u := pa) rfl
  obtain ⟨y, _, hy, hyb⟩ := op.cell (a := 2) (u := pb) rfl
  refine Does.ask hx.right (Does.ask hy.right ?_)
  refine Does.seq (op2_does (op.var 0 (by simp)).frameR hxa.right hyb.right) (fun g _ => ?_)
  show Does (P ∗ arrAt (kind c p) t [g, pa, pb]) _ _ _
  refine Does.after (lcmResult_does hk hr) (fun w => ?_)
  have := Triple.withF (F := A w) (lcmClear_spec (c := c) (p := p) (t := t))
  rw [sep_emp] at this
  exact this

/-! ## The quotient and the remainder -/

theorem mpzFdivQr_does {v : Ptr} {vs : List Int} {q r : Nat} {x y : Cell} {a b : Int} {cs : List Cell} {P : Assn} (op : Opened (some .mp) v vs cs P)
    (hq : q < vs.length) (hr : r < vs.length) (hx : Holds (some .mp) P x a) (hy : Holds (some .mp) P y b) :
    Does P (mpzFdivQr c p (v, (q : Int)) (v, (r : Int)) x y) (if q = r then .ub else OInt.floor_div_q_r c p a b) (fun w => arrAt (some .mp) v ((vs.set q w.1).set r w.2)) := by
  unfold mpzFdivQr
  obtain ⟨d, hd1, hd2, _⟩ := op.cell (List.getElem?_eq_getElem hq)
  obtain ⟨e, he1, he2, _⟩ := op.cell (List.getElem?_eq_getElem hr)
  refine Does.ask hx.get (Does.ask hy.get (Does.ask hd2 (Does.ask he2 ?_)))
  have hde : d = e ↔ q = r := by
    constructor
    · intro h
      exact Classical.byContradiction (fun hn => op.differ rfl q r d e hn hd1 he1 h)
    · intro h
      subst h
      rw [hd1] at he1
      injection he1
  by_cases hqr : q = r
  · rw [if_pos (hde.mpr hqr), if_pos hqr]
    exact Does.undef
  · rw [if_neg (fun h => hqr (hde.mp h)), if_neg hqr]
    have := Does.lift (P := P) (x := OInt.floor_div_q_r c p a b) (f := fun w => do setLoc (some .mp) (v, (q : Int)) w.1; setLoc (some .mp) (v, (r : Int)) w.2) (g := fun w => Out.ok w)
      (Q := fun w => arrAt (some .mp) v ((vs.set q w.1).set r w.2))
      (fun w _ => Does.done (Triple.bind ((op.var q hq).first w.1) (fun _ => arr_set w.2 (by simpa using hr))))
    cases hf : OInt.floor_div_q_r c p a b <;> rw [hf] at this <;> exact this

/-- `osl_int_floor_div_q_r`: the two results in an array, as C evaluates it: the quotient is stored, then the remainder.  With GMP they must be different variables. -/
theorem int_floor_div_q_r_does {v : Ptr} {vs : List Int} {q r a b : Nat} {va vb : Int} (ha : vs[a]? = some va) (hb : vs[b]? = some vb) (hq : q < vs.length) (hr : r < vs.length) :
    Does (arrAt (kind c p) v vs)
      (do
        let x ← readLoc (v, (a : Int))
        let y ← readLoc (v, (b : Int))
        intFloorDivQR c p (v, (q : Int)) (v, (r : Int)) x y)
      (if kind c p = some .mp ∧ q = r then .ub else OInt.floor_div_q_r c p va vb) (fun w => arrAt (kind c p) v ((vs.set q w.1).set r w.2)) := by
  refine Does.opened (fun h0 hh => ?_)
  have hne : vs ≠ [] := by rintro rfl; simp at ha
  obtain ⟨cs, P, hp, op⟩ := arr_opened hne hh
  refine ⟨P, hp, ?_⟩
  obtain ⟨x, _, hx, hxa⟩ := op.cell ha
  obtain ⟨y, _, hy, hyb⟩ := op.cell hb
  refine Does.ask hx (Does.ask hy ?_)
  refine Does.known hxa (fun hk => ?_)
  unfold intFloorDivQR
  cases hkk : kind c p with
  | none => exact absurd hkk hk
  | some kk =>
    cases kk with
    | mp =>
      rw [hkk] at op hxa hyb
      simp only [true_and]
      exact mpzFdivQr_does op hq hr hxa hyb
    | fixed w =>
      rw [if_neg (by rintro ⟨h, _⟩; cases h)]
      have hd := int_floor_div_q_does (op.var q hq) hxa hyb
      unfold OInt.floor_div_q_r
      rw [hkk] at hd hxa hyb
      rw [hkk]
      dsimp only
      refine Does.seq hd (fun u _ => ?_)
      unfold intRest
      refine Does.ask hxa.fixed (Does.read (arr_get (v := u) (by simp [hq])) (Does.ask hyb.fixed (Does.lift (fun t _ => ?_))))
      refine Does.lift (g := fun d => pure (u, d)) (fun d _ => Does.done ?_)
      exact arr_set d (by simpa using hr)

/-! ## The exchange of two integers -/

/-- `osl_int_swap` exchanges any two integers of an array, and leaves nothing else in memory (also when they are the same). -/
theorem int_swap_memory {v : Ptr} {vs : List Int} {i j : Nat} {a b : Int} (hi : vs[i]? = some a) (hj : vs[j]? = some b) :
    Triple (arrAt k v vs) (intSwap k (v, (i : Int)) (v, (j : Int))) (fun _ => arrAt k v ((vs.set i b).set j a)) := by
  have hil : i < vs.length := (List.getElem?_eq_some_iff.mp hi).1
  have hjl : j < vs.length := (List.getElem?_eq_some_iff.mp hj).1
  unfold intSwap
  match k with
  | none =>
    refine Triple.opened_all (fun h0 hh => ?_)
    obtain ⟨cs, P, hp, op⟩ := arr_opened (by rintro rfl; simp at hi) hh
    obtain ⟨x, _, _, hx⟩ := op.cell hi
    refine ⟨P, hp, ?_⟩
    intro R h1 hh1
    have := hx.get h1 (sep_mono (fun _ h => h) (fun _ _ => trivial) hh1)
    cases this
  | some (.fixed w) =>
    dsimp only
    hstep (arr_get hi)
    hstep (arr_get hj)
    hstep (arr_set b hil)
    hlast (arr_set a (show j < (vs.set i b).length by simpa using hjl))
    hret
  | some .mp =>
    dsimp only
    hstep Triple.alloc
    hstep (arr_get hi)
    hstep Triple.store
    hstep (arr_get hj)
    hstep (arr_set b hil)
    hstep Triple.load
    refine Triple.liftStep (a := a) rfl ?_
    hstep (arr_set a (show j < (vs.set i b).length by simpa using hjl))
    hlast Triple.free
    hret

end Osl.Mem
