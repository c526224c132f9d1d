import Verif.HeapInt
import Verif.HeapVecOps
import Verif.HeapQueryProps
/-!
# Integers in memory (C77): the result of an operation may be one of its operands

`Does P m o Q`: from every memory with `P` (and anything else), the run `m` ends as the function on values says: with the value `w`, in a memory with `Q w` (and the
same rest), when `o` is `w`; with an error when `o` is an error; undefined when `o` is.
-/

set_option linter.unusedSectionVars false

namespace Osl.Mem

variable [Allocator] {α β : Type} {c : Cfg} {p : Int} {k : Option Kind}

/-! ## Runs with the outcome of a function on values (specification) -/

/-- The run `m` has the outcome `o`; after the value `w`, the memory is `Q w` (see above). -/
def Does (P : Assn) (m : M Unit) (o : Out α) (Q : α → Assn) : Prop :=
  ∀ (R : Assn) (h : Heap), (P ∗ R) h.get →
    match o with
    | .ok w => ∃ h', m h = .ok ((), h') ∧ (Q w ∗ R) h'.get
    | .err => m h = .err
    | .ub => m h = .ub

/-- The run `m` only reads, and has the outcome `o`. -/
def Asks (P : Assn) (m : M β) (o : Out β) : Prop :=
  ∀ h : Heap, (P ∗ anything) h.get →
    match o with
    | .ok v => m h = .ok (v, h)
    | .err => m h = .err
    | .ub => m h = .ub

/-! ## Rules -/

theorem bind_ok {m : M β} {f : β → M α} {h h' : Heap} {a : β} (e : m h = .ok (a, h')) : (m >>= f) h = f a h' := by
  show (match m h with | .ok (a, h') => f a h' | .err => .err | .ub => .ub) = _
  rw [e]

theorem bind_err {m : M β} {f : β → M α} {h : Heap} (e : m h = .err) : (m >>= f) h = .err := by
  show (match m h with | .ok (a, h') => f a h' | .err => .err | .ub => .ub) = _
  rw [e]

theorem bind_ub {m : M β} {f : β → M α} {h : Heap} (e : m h = .ub) : (m >>= f) h = .ub := by
  show (match m h with | .ok (a, h') => f a h' | .err => .err | .ub => .ub) = _
  rw [e]

theorem Does.step {P : Assn} {q : M β} {P' : β → Assn} {f : β → M Unit} {o : Out α} {Q : α → Assn} (hq : Triple P q P') (hf : ∀ r, Does (P' r) (f r) o Q) : Does P (q >>= f) o Q := by
  intro R h hh
  obtain ⟨r, h', e, hx⟩ := hq R h hh
  rw [bind_ok e]
  exact hf r R h' hx

theorem Does.read {P : Assn} {q : M β} {v : β} {f : β → M Unit} {o : Out α} {Q : α → Assn} (hq : Triple P q (fun r => pur (r = v) ∗ P)) (hf : Does P (f v) o Q) :
    Does P (q >>= f) o Q := by
  intro R h hh
  obtain ⟨r, h', e, hx⟩ := hq R h hh
  rw [sep_assoc] at hx
  obtain ⟨hr, hy⟩ := pur_sep_iff.mp hx
  rw [hr] at e
  rw [bind_ok e]
  exact hf R h' hy

theorem Does.ask {P : Assn} {q : M β} {v : β} {f : β → M Unit} {o : Out α} {Q : α → Assn} (hq : Query P q v) (hf : Does P (f v) o Q) : Does P (q >>= f) o Q :=
  Does.read hq.triple hf

theorem Does.lift {P : Assn} {x : Out β} {f : β → M Unit} {g : β → Out α} {Q : α → Assn} (hf : ∀ v, x = .ok v → Does P (f v) (g v) Q) : Does P (Mem.lift x >>= f) (x >>= g) Q := by
  intro R h hh
  cases x with
  | ok v => exact hf v rfl R h hh
  | err => rfl
  | ub => rfl

theorem Does.write {P P' : Assn} {m m2 : M Unit} {o : Out α} {Q : α → Assn} (hm : Triple P m (fun _ => P')) (hf : Does P' m2 o Q) : Does P (m >>= fun _ => m2) o Q :=
  Does.step hm (fun _ => hf)

theorem Does.seq {P : Assn} {m m2 : M Unit} {o : Out β} {g : β → Out α} {P' : β → Assn} {Q : α → Assn} (hm : Does P m o P') (hf : ∀ w, o = .ok w → Does (P' w) m2 (g w) Q) :
    Does P (m >>= fun _ => m2) (o >>= g) Q := by
  intro R h hh
  have := hm R h hh
  cases o with
  | ok w =>
    obtain ⟨h', e, hx⟩ := this
    rw [bind_ok e]
    exact hf w rfl R h' hx
  | err => exact bind_err this
  | ub => exact bind_ub this

theorem Does.done {P : Assn} {m : M Unit} {w : α} {Q : α → Assn} (hm : Triple P m (fun _ => Q w)) : Does P m (.ok w) Q := by
  intro R h hh
  obtain ⟨_, h', e, hh'⟩ := hm R h hh
  exact ⟨h', e, hh'⟩

theorem Does.after {P : Assn} {m m2 : M Unit} {o : Out α} {P' Q : α → Assn} (hm : Does P m o P') (hf : ∀ w, Triple (P' w) m2 (fun _ => Q w)) : Does P (m >>= fun _ => m2) o Q := by
  have := Does.seq (g := fun w => Out.ok w) hm (fun w _ => Does.done (hf w))
  cases o <;> exact this

theorem Does.fail {P : Assn} {Q : α → Assn} : Does P Mem.fail .err Q := fun _ _ _ => rfl

theorem Does.undef {P : Assn} {Q : α → Assn} : Does P Mem.undef .ub Q := fun _ _ _ => rfl

theorem Does.ret {P : Assn} {w : α} {Q : α → Assn} (h : ∀ h, P h → Q w h) : Does P (pure ()) (.ok w) Q := Does.done (Triple.ret (fun h0 hh => h h0 hh))

theorem Does.conseq {P P' : Assn} {m : M Unit} {o : Out α} {Q Q' : α → Assn} (hm : Does P m o Q) (hp : ∀ h, P' h → P h) (hq : ∀ w h, Q w h → Q' w h) : Does P' m o Q' := by
  intro R h hh
  have := hm R h (sep_mono hp (fun _ h => h) hh)
  cases o with
  | ok w =>
    obtain ⟨h', e, hh'⟩ := this
    exact ⟨h', e, sep_mono (hq w) (fun _ h => h) hh'⟩
  | err => exact this
  | ub => exact this

theorem Does.opened {P : Assn} {m : M Unit} {o : Out α} {Q : α → Assn} (hp : ∀ h, P h → ∃ P', P' h ∧ Does P' m o Q) : Does P m o Q := by
  intro R h hh
  obtain ⟨h1, h2, hd, e, ha, hb⟩ := hh
  obtain ⟨P', hx, hm⟩ := hp h1 ha
  exact hm R h ⟨h1, h2, hd, e, hx, hb⟩

theorem Does.frame {P F : Assn} {m : M Unit} {o : Out α} {Q : α → Assn} (hm : Does P m o Q) : Does (P ∗ F) m o (fun w => Q w ∗ F) := by
  intro R h hh
  rw [sep_assoc] at hh
  have := hm (F ∗ R) h hh
  cases o with
  | ok w =>
    obtain ⟨h', e, hh'⟩ := this
    exact ⟨h', e, by rw [sep_assoc]; exact hh'⟩
  | err => exact this
  | ub => exact this

/-! ## Variables and operands -/

/-- From the memory `P`, and afterwards, the integer at `r` can be set; `A u` is the memory where it has the value `u`. -/
structure Var (k : Option Kind) (r : Loc) (P : Assn) (A : Int → Assn) : Prop where
  first : ∀ w, Triple P (setLoc k r w) (fun _ => A w)
  set : ∀ u w, Triple (A u) (setLoc k r w) (fun _ => A w)
  get : ∀ u, Triple (A u) (getLoc k r) (fun x => pur (x = u) ∗ A u)

/-- In the memory `P`, the operand `x` has the value `v`. -/
structure Holds (k : Option Kind) (P : Assn) (x : Cell) (v : Int) : Prop where
  get : Query P (cellVal k x) v
  num : ∀ w, k = some (.fixed w) → x = .val v

theorem Holds.fixed {w : Nat} {P P' : Assn} {x : Cell} {v : Int} (h : Holds (some (.fixed w)) P x v) : Query P' (cellVal (some (.fixed w)) x) v := by
  rw [h.num w rfl]
  exact Query.ret _

theorem Holds.left {P F : Assn} {x : Cell} {v : Int} (h : Holds k P x v) : Holds k (P ∗ F) x v := ⟨h.get.left, h.num⟩

theorem Holds.right {P F : Assn} {x : Cell} {v : Int} (h : Holds k P x v) : Holds k (F ∗ P) x v := ⟨h.get.right, h.num⟩

theorem Var.frame {r : Loc} {P F : Assn} {A : Int → Assn} (h : Var k r P A) : Var k r (P ∗ F) (fun u => A u ∗ F) :=
  ⟨fun w => (h.first w).frame F, fun u w => (h.set u w).frame F, fun u => ((h.get u).frame F).post (fun x h0 hh => by rw [sep_assoc] at hh; exact hh)⟩

/-- An unknown precision has no operand. -/
theorem Does.known {P : Assn} {x : Cell} {v : Int} {m : M Unit} {o : Out α} {Q : α → Assn} (hx : Holds k P x v) (h : k ≠ none → Does P m o Q) : Does P m o Q := by
  intro R h0 hh
  refine h ?_ R h0 hh
  intro e
  subst e
  have := hx.get h0 (sep_mono (fun _ h => h) (fun _ _ => trivial) hh)
  cases this

/-! ## The operations, for any variable and operands -/

theorem op1_does {f : Int → Out Int} {r : Loc} {x : Cell} {a : Int} {P : Assn} {A : Int → Assn} (hr : Var k r P A) (hx : Holds k P x a) : Does P (intOp1 f k r x) (f a) A := by
  unfold intOp1
  refine Does.ask hx.get ?_
  have := Does.lift (P := P) (x := f a) (f := fun w => setLoc k r w) (g := fun w => Out.ok w) (Q := A) (fun w _ => Does.done (hr.first w))
  cases hf : f a <;> rw [hf] at this <;> exact this

theorem op2_does {f : Int → Int → Out Int} {r : Loc} {x y : Cell} {a b : Int} {P : Assn} {A : Int → Assn} (hr : Var k r P A) (hx : Holds k P x a) (hy : Holds k P y b) :
    Does P (intOp2 f k r x y) (f a b) A := by
  unfold intOp2
  refine Does.ask hx.get ?_
  refine Does.ask hy.get ?_
  have := Does.lift (P := P) (x := f a b) (f := fun w => setLoc k r w) (g := fun w => Out.ok w) (Q := A) (fun w _ => Does.done (hr.first w))
  cases hf : f a b <;> rw [hf] at this <;> exact this

theorem mulCheck_does {w : Nat} {r : Loc} {a b v : Int} {P : Assn} {A : Int → Assn} (hr : Var (some (.fixed w)) r P A) :
    Does (A v) (mulCheck c w r a b) (if c.ndebug = false ∧ a ≠ 0 ∧ b ≠ 0 then do
      let q ← sdiv w v b
      if q ≠ a then Out.err else Out.ok v
    else Out.ok v) A := by
  unfold mulCheck
  by_cases hc : c.ndebug = false ∧ a ≠ 0 ∧ b ≠ 0
  · rw [if_pos hc, if_pos hc]
    refine Does.read (hr.get v) ?_
    refine Does.lift (fun q _ => ?_)
    by_cases hq : q ≠ a
    · rw [if_pos hq, if_pos hq]; exact Does.fail
    · rw [if_neg hq, if_neg hq]; exact Does.ret (fun _ h => h)
  · rw [if_neg hc, if_neg hc]
    exact Does.ret (fun _ h => h)

theorem int_mul_does {r : Loc} {x y : Cell} {a b : Int} {P : Assn} {A : Int → Assn} (hr : Var (kind c p) r P A) (hx : Holds (kind c p) P x a) (hy : Holds (kind c p) P y b) :
    Does P (intMul c p r x y) (OInt.mul c p a b) A := by
  refine Does.known hx (fun hk => ?_)
  unfold intMul OInt.mul
  cases hkk : kind c p with
  | none => exact absurd hkk hk
  | some kk =>
    rw [hkk] at hr hx hy
    cases kk with
    | mp => exact op2_does (f := fun a b => .ok (a * b)) hr hx hy
    | fixed w =>
      dsimp only
      refine Does.ask hx.get (Does.ask hy.get (Does.lift (fun v _ => ?_)))
      exact Does.write (hr.first v) (mulCheck_does hr)

theorem int_mul_si_does {r : Loc} {x : Cell} {a i : Int} {P : Assn} {A : Int → Assn} (hr : Var (kind c p) r P A) (hx : Holds (kind c p) P x a) :
    Does P (intMulSi c p r x i) (OInt.mul_si c p a i) A := by
  refine Does.known hx (fun hk => ?_)
  unfold intMulSi OInt.mul_si
  cases hkk : kind c p with
  | none => exact absurd hkk hk
  | some kk =>
    rw [hkk] at hr hx
    cases kk with
    | mp => exact op1_does (f := fun a => .ok (a * i)) hr hx
    | fixed w =>
      dsimp only
      refine Does.ask hx.get (Does.lift (fun v _ => ?_))
      exact Does.write (hr.first v) (mulCheck_does hr)

theorem intDown_does {w : Nat} {q : Loc} {v : Int} {P : Assn} {A : Int → Assn} (hr : Var (some (.fixed w)) q P A) : Does (A v) (intDown c w q) (sarith c w (v - 1)) A := by
  unfold intDown
  refine Does.read (hr.get v) ?_
  have := Does.lift (P := A v) (x := sarith c w (v - 1)) (f := fun u => setLoc (some (.fixed w)) q u) (g := fun u => Out.ok u) (Q := A) (fun u _ => Does.done (hr.set v u))
  cases hf : sarith c w (v - 1) <;> rw [hf] at this <;> exact this

theorem int_floor_div_q_does {r : Loc} {x y : Cell} {a b : Int} {P : Assn} {A : Int → Assn} (hr : Var (kind c p) r P A) (hx : Holds (kind c p) P x a) (hy : Holds (kind c p) P y b) :
    Does P (intFloorDivQ c p r x y) (OInt.floor_div_q c p a b) A := by
  refine Does.known hx (fun hk => ?_)
  cases hkk : kind c p with
  | none => exact absurd hkk hk
  | some kk =>
    unfold intFloorDivQ
    rw [hkk] at hr hx hy
    cases kk with
    | mp => rw [hkk]; exact op2_does (f := OInt.floor_div_q c p) hr hx hy
    | fixed w =>
      unfold OInt.floor_div_q
      rw [hkk]
      dsimp only
      refine Does.ask hx.get (Does.ask hy.get (Does.lift (fun v _ => ?_)))
      refine Does.write (hr.first v) ?_
      unfold floorFix
      refine Does.read (hr.get v) ?_
      by_cases h1 : v < 0
      · rw [if_pos h1, if_pos h1]
        refine Does.lift (fun m _ => ?_)
        by_cases h2 : m ≠ 0
        · rw [if_pos h2, if_pos h2]; exact intDown_does hr
        · rw [if_neg h2, if_neg h2]; exact Does.ret (fun _ h => h)
      · rw [if_neg h1, if_neg h1]
        by_cases h2 : v = 0
        · rw [if_pos h2, if_pos h2]
          by_cases h3 : (a > 0 ∧ b < 0) ∨ (a < 0 ∧ b > 0)
          · rw [if_pos h3, if_pos h3]; exact intDown_does hr
          · rw [if_neg h3, if_neg h3]; exact Does.ret (fun _ h => h)
        · rw [if_neg h2, if_neg h2]; exact Does.ret (fun _ h => h)

/-- The remainder from the quotient: the quotient is in `q`, and `r` can be set. -/
theorem intRest_does {w : Nat} {q r : Loc} {x y : Cell} {a b v : Int} {P P' : Assn} {Q : Int → Assn} (hx : Holds (some (.fixed w)) P x a) (hy : Holds (some (.fixed w)) P y b)
    (hq : Triple P' (getLoc (some (.fixed w)) q) (fun x => pur (x = v) ∗ P')) (hr : ∀ u, Triple P' (setLoc (some (.fixed w)) r u) (fun _ => Q u)) :
    Does P' (intRest c w q r x y) (do let t ← sarith c w (v * b); sarith c w (a - t)) Q := by
  unfold intRest
  refine Does.ask hx.fixed (Does.read hq (Does.ask hy.fixed (Does.lift (fun t _ => ?_))))
  have := Does.lift (P := P') (x := sarith c w (a - t)) (f := fun u => setLoc (some (.fixed w)) r u) (g := fun u => Out.ok u) (Q := Q) (fun u _ => Does.done (hr u))
  cases hf : sarith c w (a - t) <;> rw [hf] at this <;> exact this

theorem int_floor_div_r_does {r : Loc} {x y : Cell} {a b : Int} {P : Assn} {A : Int → Assn} (hr : Var (kind c p) r P A) (hx : Holds (kind c p) P x a) (hy : Holds (kind c p) P y b) :
    Does P (intFloorDivR c p r x y) (OInt.floor_div_r c p a b) A := by
  refine Does.known hx (fun hk => ?_)
  cases hkk : kind c p with
  | none => exact absurd hkk hk
  | some kk =>
    unfold intFloorDivR
    have hd := int_floor_div_q_does hr hx hy
    rw [hkk] at hr hx hy
    cases kk with
    | mp => rw [hkk]; exact op2_does (f := OInt.floor_div_r c p) hr hx hy
    | fixed w =>
      unfold OInt.floor_div_r
      rw [hkk]
      dsimp only
      refine Does.seq hd (fun v _ => ?_)
      exact intRest_does hx hy (hr.get v) (hr.set v)

theorem int_mod_does {r : Loc} {x y : Cell} {a b : Int} {P : Assn} {A : Int → Assn} (hr : Var (kind c p) r P A) (hx : Holds (kind c p) P x a) (hy : Holds (kind c p) P y b) :
    Does P (intMod c p r x y) (OInt.mod c p a b) A := by
  refine Does.known hx (fun hk => ?_)
  cases hkk : kind c p with
  | none => exact absurd hkk hk
  | some kk =>
    unfold intMod
    rw [hkk] at hr hx hy
    cases kk with
    | mp => rw [hkk]; exact op2_does (f := OInt.mod c p) hr hx hy
    | fixed w =>
      unfold OInt.mod
      rw [hkk]
      dsimp only
      refine Does.ask hx.get (Does.ask hy.get (Does.lift (fun v _ => ?_)))
      refine Does.write (hr.first v) ?_
      unfold modFix
      refine Does.read (hr.get v) ?_
      by_cases h1 : v < 0
      · rw [if_pos h1, if_pos h1]
        refine Does.lift (fun ab _ => ?_)
        have := Does.lift (P := A v) (x := sarith c w (v + ab)) (f := fun u => setLoc (some (.fixed w)) r u) (g := fun u => Out.ok u) (Q := A) (fun u _ => Does.done (hr.set v u))
        cases hf : sarith c w (v + ab) <;> rw [hf] at this <;> exact this
      · rw [if_neg h1, if_neg h1]
        exact Does.ret (fun _ h => h)

end Osl.Mem
