/-!
# Outcomes of C code and C integer arithmetic

Common base of the model.  A modelled C function returns an `Out`:

* `ok a`  : the function returned normally with result `a`;
* `err`   : the function called `OSL_error` / `OSL_overflow`
            (include/osl/macros.h:144-150), which prints a message and calls `exit(1)`;
* `ub`    : the function executed undefined behaviour (signed overflow, division by
            zero, NULL or out of bounds dereference, infinite recursion).
-/

namespace Osl

/-- Outcome of a C call (see the file header). `err` models `OSL_error`
(include/osl/macros.h:144-148: `fprintf(stderr, ...); exit(1);`). -/
inductive Out (α : Type u) where
  | ok (a : α)
  | err
  | ub
deriving Repr, DecidableEq

namespace Out

/-- Sequencing: `err` and `ub` stop the execution. -/
@[inline] protected def bind {α : Type u} {β : Type v} : Out α → (α → Out β) → Out β
  | ok a, f => f a
  | err, _ => err
  | ub, _ => ub

instance : Monad Out where
  pure := ok
  bind := Out.bind

@[simp] theorem ok_bind {α β : Type u} (a : α) (f : α → Out β) : (ok a >>= f) = f a := rfl
@[simp] theorem err_bind {α β : Type u} (f : α → Out β) : ((err : Out α) >>= f) = err := rfl
@[simp] theorem ub_bind {α β : Type u} (f : α → Out β) : ((ub : Out α) >>= f) = ub := rfl
@[simp] theorem pure_eq {α : Type u} (a : α) : (pure a : Out α) = ok a := rfl

theorem bind_eq_ok {α β : Type u} {x : Out α} {f : α → Out β} {b : β} :
    (x >>= f) = ok b ↔ ∃ a, x = ok a ∧ f a = ok b := by
  cases x <;> simp

theorem bind_assoc {α β γ : Type u} (x : Out α) (f : α → Out β) (g : β → Out γ) :
    (x >>= f) >>= g = x >>= fun a => f a >>= g := by
  cases x <;> rfl

/-- Left-to-right loop over the elements of an array or linked list, stopping at the
first error. -/
def mapOut {α : Type u} {β : Type v} (f : α → Out β) : List α → Out (List β)
  | [] => ok []
  | a :: as =>
    match f a with
    | ok b =>
      match mapOut f as with
      | ok bs => ok (b :: bs)
      | err => err
      | ub => ub
    | err => err
    | ub => ub

theorem mapOut_ok {α : Type u} {β : Type v} {f : α → Out β} {g : α → β} {l : List α}
    (h : ∀ a ∈ l, f a = ok (g a)) : mapOut f l = ok (l.map g) := by
  induction l with
  | nil => rfl
  | cons a as ih =>
    have h1 := h a (by simp)
    have h2 := ih (fun b hb => h b (by simp [hb]))
    simp [mapOut, h1, h2]

theorem mapOut_cons_eq_ok {α : Type u} {β : Type v} {f : α → Out β} {a : α} {as : List α}
    {r : List β} : mapOut f (a :: as) = ok r ↔
      ∃ b bs, f a = ok b ∧ mapOut f as = ok bs ∧ r = b :: bs := by
  constructor
  · intro h
    simp only [mapOut] at h
    cases hf : f a with
    | ok b =>
      cases hm : mapOut f as with
      | ok bs => rw [hf, hm] at h; exact ⟨b, bs, rfl, rfl, by simpa using h.symm⟩
      | err => rw [hf, hm] at h; simp at h
      | ub => rw [hf, hm] at h; simp at h
    | err => rw [hf] at h; simp at h
    | ub => rw [hf] at h; simp at h
  · rintro ⟨b, bs, h1, h2, rfl⟩
    simp [mapOut, h1, h2]

theorem mapOut_length {α : Type u} {β : Type v} {f : α → Out β} {l : List α} {r : List β}
    (h : mapOut f l = ok r) : r.length = l.length := by
  induction l generalizing r with
  | nil => simp [mapOut] at h; simp [← h]
  | cons a as ih =>
    obtain ⟨b, bs, _, h2, rfl⟩ := mapOut_cons_eq_ok.mp h
    simp [ih h2]

end Out

/-! ## Build configuration and C integers -/

/-- Build configuration of the library and of the C implementation:
* `gmp`      : `OSL_GMP_IS_HERE` is defined (include/osl/int.h:80-83);
* `ndebug`   : `NDEBUG` is defined (guards of source/int.c, e.g. 760, 773);
* `longBits` : width of `long int` (64 on LP64 systems, 32 on ILP32 and LLP64 ones);
               `long long int` has 64 bits and `int` has 32;
* `wrapv`    : the compiler defines signed overflow as two's complement wrap around
               (`-fwrapv`); with `false` it is undefined behaviour, as in ISO C. -/
structure Cfg where
  gmp : Bool
  ndebug : Bool
  longBits : Nat
  wrapv : Bool
deriving Repr, DecidableEq

/-- The widths of `long int` the model covers. -/
def Cfg.Valid (c : Cfg) : Prop := c.longBits = 32 ∨ c.longBits = 64

instance (c : Cfg) : Decidable c.Valid := by unfold Cfg.Valid; infer_instance

/-- The usual build: ISO C, LP64, GMP available, assertions enabled. -/
def Cfg.std : Cfg := { gmp := true, ndebug := false, longBits := 64, wrapv := false }

/-- Least value of a signed type of `w` bits (`INT_MIN`, `LONG_MIN`, `LLONG_MIN`). -/
def cMin (w : Nat) : Int := -(2 ^ (w - 1))

/-- Greatest value of a signed type of `w` bits. -/
def cMax (w : Nat) : Int := 2 ^ (w - 1) - 1

/-- Representability in a signed type of `w` bits. -/
def fits (w : Nat) (x : Int) : Prop := cMin w ≤ x ∧ x ≤ cMax w

instance (w : Nat) (x : Int) : Decidable (fits w x) := by unfold fits; infer_instance

/-- Two's complement reduction to `w` bits: C conversion to a narrower signed type
(implementation defined in ISO C, and this on every compiler the library supports). -/
def wrap (w : Nat) (x : Int) : Int := (x + 2 ^ (w - 1)) % 2 ^ w - 2 ^ (w - 1)

/-- Result `x` of a signed `+`, `-` or `*` at width `w`. -/
def sarith (c : Cfg) (w : Nat) (x : Int) : Out Int :=
  if fits w x then .ok x else if c.wrapv then .ok (wrap w x) else .ub

/-- C `a / b` at width `w`: undefined for a zero divisor and for `MIN / -1`. -/
def sdiv (w : Nat) (a b : Int) : Out Int :=
  if b = 0 then .ub else if fits w (a.tdiv b) then .ok (a.tdiv b) else .ub

/-- C `a % b` at width `w`: undefined exactly when `a / b` is (C11 6.5.5p6). -/
def smod (w : Nat) (a b : Int) : Out Int :=
  if b = 0 then .ub else if fits w (a.tdiv b) then .ok (a.tmod b) else .ub

/-- C `labs` / `llabs`: undefined when the result is not representable (C11 7.22.6.1). -/
def sabs (w : Nat) (a : Int) : Out Int :=
  if fits w a.natAbs then .ok a.natAbs else .ub

end Osl
