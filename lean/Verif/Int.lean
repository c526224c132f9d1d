import Verif.C
/-!
# Model of source/int.c

`osl_int_t` is a union (include/osl/int.h:78-84).  A value is modelled by the
mathematical integer it holds; which member is live is decided by the `precision`
argument, as in the code.  Values held in single precision (a `long int`) or double
precision (`long long int`) must be representable in that type: predicate `InPrec`.
GMP's `mpz_*` functions are trusted to compute on unbounded integers.
Allocation (`OSL_malloc`) is assumed to succeed.
-/

namespace Osl

/-- include/osl/macros.h:74 -/
def PREC_SP : Int := 32
/-- include/osl/macros.h:75 -/
def PREC_DP : Int := 64
/-- include/osl/macros.h:76 -/
def PREC_MP : Int := 0
/-- include/osl/macros.h:88 -/
def UNDEFINED : Int := -1

/-- How a precision stores its values. -/
inductive Kind where
  /-- a signed machine integer of `w` bits -/
  | fixed (w : Nat)
  /-- a GMP integer -/
  | mp
deriving Repr, DecidableEq

/-- The `switch (precision)` shared by all the functions of source/int.c (e.g. 758-793):
`none` is the `default:` branch, which calls `OSL_error("unknown precision")`. -/
def kind (c : Cfg) (p : Int) : Option Kind :=
  if p = PREC_SP then some (.fixed c.longBits)
  else if p = PREC_DP then some (.fixed 64)
  else if p = PREC_MP ∧ c.gmp then some .mp
  else none

/-- `osl_int_is_precision_supported` (source/int.c:90-103). -/
def is_precision_supported (c : Cfg) (p : Int) : Bool :=
  if p = PREC_SP then true
  else if p = PREC_DP then true
  else if p = PREC_MP ∧ c.gmp then true
  else false

/-- A value that can be stored in precision `p`. -/
def InPrec (c : Cfg) (p : Int) (x : Int) : Prop :=
  match kind c p with
  | some (.fixed w) => fits w x
  | some .mp => True
  | none => False

instance (c : Cfg) (p x : Int) : Decidable (InPrec c p x) := by
  unfold InPrec; split <;> infer_instance

/-- Reading the member `sp` (a `long int`) of a union whose member `dp` was written:
on a little-endian machine the low `longBits` bits (source/int.c:1383, 1407, 1431, 1455
do this in double precision). -/
def viewSp (c : Cfg) (x : Int) : Int := wrap c.longBits x

namespace OInt

/-- `osl_int_init` (source/int.c:135-155). -/
def init (c : Cfg) (p : Int) : Out Int :=
  match kind c p with
  | some _ => .ok 0
  | none => .err

/-- `osl_int_assign` (source/int.c:175-195): the new content of `*variable`. -/
def assign (c : Cfg) (p : Int) (v : Int) : Out Int :=
  match kind c p with
  | some _ => .ok v
  | none => .err

/-- `osl_int_set_si` (source/int.c:203-223); `i` is a C `int`. -/
def set_si (c : Cfg) (p : Int) (i : Int) : Out Int :=
  match kind c p with
  | some _ => .ok i
  | none => .err

/-- `osl_int_init_set_si` (source/int.c:461-482). -/
def init_set_si (c : Cfg) (p : Int) (i : Int) : Out Int :=
  match kind c p with
  | some _ => .ok i
  | none => .err

/-- `osl_int_set_long` (source/int.c:231-257); `i` is a `long int`, so the two guards
of lines 245-248 never fire. -/
def set_long (c : Cfg) (p : Int) (i : Int) : Out Int :=
  match kind c p with
  | some _ => .ok i
  | none => .err

/-- `osl_int_set_long_long` (source/int.c:265-297); `i` is a `long long int`. -/
def set_long_long (c : Cfg) (p : Int) (i : Int) : Out Int :=
  if p = PREC_SP then
    if c.ndebug = false ∧ i > cMax c.longBits then .err
    else if c.ndebug = false ∧ i < cMin c.longBits then .err
    else .ok (wrap c.longBits i)
  else if p = PREC_DP then .ok i
  else if p = PREC_MP ∧ c.gmp then
    if c.ndebug = false ∧ i > cMax c.longBits then .err
    else if c.ndebug = false ∧ i < cMin c.longBits then .err
    else .ok (wrap c.longBits i)
  else .err

/-- `osl_int_init_set_long` (source/int.c:490-498): in multiple precision the `mpz_t` is
allocated but never initialised, so `mpz_set_si` reads indeterminate memory. -/
def init_set_long (c : Cfg) (p : Int) (i : Int) : Out Int :=
  if p = PREC_MP ∧ c.gmp then .ub else set_long c p i

/-- `osl_int_init_set_long_long` (source/int.c:506-514): same remark, after the check of the range. -/
def init_set_long_long (c : Cfg) (p : Int) (i : Int) : Out Int :=
  if p = PREC_MP ∧ c.gmp then (do
    let _ ← set_long_long c p i
    .ub)
  else set_long_long c p i

/-- `mpz_get_si`: the value when it fits a `long int`; otherwise GMP documents "the least
significant part of op, with the same sign" (manual, "Converting Integers"). -/
def mpz_get_si (c : Cfg) (v : Int) : Int :=
  if fits c.longBits v then v
  else if 0 ≤ v then v % 2 ^ (c.longBits - 1)
  else -1 - ((-v - 1) % 2 ^ (c.longBits - 1))

/-- `osl_int_get_si` (source/int.c:305-337). With `NDEBUG` the value is converted to `int`
without check. -/
def get_si (c : Cfg) (p : Int) (v : Int) : Out Int :=
  match kind c p with
  | some (.fixed _) =>
    if c.ndebug = false ∧ v > cMax 32 then .err
    else if c.ndebug = false ∧ v < cMin 32 then .err
    else .ok (wrap 32 v)
  | some .mp =>
    if c.ndebug = false ∧ ¬ fits 32 v then .err
    else .ok (wrap 32 (mpz_get_si c v))
  | none => .err

/-- `osl_int_get_long` (source/int.c:345-377). -/
def get_long (c : Cfg) (p : Int) (v : Int) : Out Int :=
  match kind c p with
  | some (.fixed _) =>
    if c.ndebug = false ∧ v > cMax c.longBits then .err
    else if c.ndebug = false ∧ v < cMin c.longBits then .err
    else .ok (wrap c.longBits v)
  | some .mp =>
    if c.ndebug = false ∧ ¬ fits c.longBits v then .err
    else .ok (mpz_get_si c v)
  | none => .err

/-- `osl_int_get_long_long` (source/int.c:385-417): note the conversions to `long int` of
lines 394 and 404, which cut a double precision value when `long` has 32 bits. -/
def get_long_long (c : Cfg) (p : Int) (v : Int) : Out Int :=
  match kind c p with
  | some (.fixed _) =>
    if c.ndebug = false ∧ v > cMax 64 then .err
    else if c.ndebug = false ∧ v < cMin 64 then .err
    else .ok (wrap c.longBits v)
  | some .mp =>
    if c.ndebug = false ∧ ¬ fits c.longBits v then .err
    else .ok (mpz_get_si c v)
  | none => .err

/-- `osl_int_swap` (source/int.c:522-554): the new contents of `(*var1, *var2)`. -/
def swap (c : Cfg) (p : Int) (a b : Int) : Out (Int × Int) :=
  match kind c p with
  | some _ => .ok (b, a)
  | none => .err

/-- `osl_int_pos` (source/int.c:1474-1490). -/
def pos (c : Cfg) (p : Int) (v : Int) : Out Bool :=
  match kind c p with
  | some _ => .ok (decide (v > 0))
  | none => .err

/-- `osl_int_neg` (source/int.c:1498-1514). -/
def neg (c : Cfg) (p : Int) (v : Int) : Out Bool :=
  match kind c p with
  | some _ => .ok (decide (v < 0))
  | none => .err

/-- `osl_int_zero` (source/int.c:1522-1538). -/
def zero (c : Cfg) (p : Int) (v : Int) : Out Bool :=
  match kind c p with
  | some _ => .ok (decide (v = 0))
  | none => .err

/-- `osl_int_one` (source/int.c:1546-1562). -/
def one (c : Cfg) (p : Int) (v : Int) : Out Bool :=
  match kind c p with
  | some _ => .ok (decide (v = 1))
  | none => .err

/-- `osl_int_mone` (source/int.c:1570-1586). -/
def mone (c : Cfg) (p : Int) (v : Int) : Out Bool :=
  match kind c p with
  | some _ => .ok (decide (v = -1))
  | none => .err

/-- `osl_int_eq` (source/int.c:1341-1358). -/
def eq (c : Cfg) (p : Int) (a b : Int) : Out Bool :=
  match kind c p with
  | some _ => .ok (decide (a = b))
  | none => .err

/-- `osl_int_ne` (source/int.c:1367-1370). -/
def ne (c : Cfg) (p : Int) (a b : Int) : Out Bool := do
  let e ← eq c p a b
  return !e

/-- The common shape of `osl_int_lt/le/gt/ge`: single and double precision share one case
which reads the member `sp` (a `long int`) of both operands. -/
def cmpSp (c : Cfg) (p : Int) (rel : Int → Int → Bool) (a b : Int) : Out Bool :=
  if p = PREC_SP then .ok (rel a b)
  else if p = PREC_DP then .ok (rel (viewSp c a) (viewSp c b))
  else if p = PREC_MP ∧ c.gmp then .ok (rel a b)
  else .err

/-- `osl_int_lt` (source/int.c:1379-1394). -/
def lt (c : Cfg) (p : Int) (a b : Int) : Out Bool := cmpSp c p (fun x y => decide (x < y)) a b
/-- `osl_int_le` (source/int.c:1403-1418). -/
def le (c : Cfg) (p : Int) (a b : Int) : Out Bool := cmpSp c p (fun x y => decide (x ≤ y)) a b
/-- `osl_int_gt` (source/int.c:1427-1442). -/
def gt (c : Cfg) (p : Int) (a b : Int) : Out Bool := cmpSp c p (fun x y => decide (x > y)) a b
/-- `osl_int_ge` (source/int.c:1451-1466). -/
def ge (c : Cfg) (p : Int) (a b : Int) : Out Bool := cmpSp c p (fun x y => decide (x ≥ y)) a b

/-- `osl_int_add` (source/int.c:756-794): the new content of `*variable`. -/
def add (c : Cfg) (p : Int) (a b : Int) : Out Int :=
  match kind c p with
  | some (.fixed w) => do
    if c.ndebug = false then
      if a > 0 ∧ b > 0 then
        let d ← sarith c w (cMax w - a)
        if d < b then .err else sarith c w (a + b)
      else if a < 0 ∧ b < 0 then
        let d ← sarith c w (a - cMin w)
        let nb ← sarith c w (-b)
        if d < nb then .err else sarith c w (a + b)
      else sarith c w (a + b)
    else sarith c w (a + b)
  | some .mp => .ok (a + b)
  | none => .err

/-- `osl_int_add_si` (source/int.c:803-845); `i` is a C `int`, so `-i` (lines 812, 827)
is computed at width 32. -/
def add_si (c : Cfg) (p : Int) (a i : Int) : Out Int :=
  match kind c p with
  | some (.fixed w) => do
    if c.ndebug = false then
      if a > 0 ∧ i > 0 then
        let d ← sarith c w (cMax w - a)
        if d < i then .err else sarith c w (a + i)
      else if a < 0 ∧ i < 0 then
        let d ← sarith c w (a - cMin w)
        let ni ← sarith c 32 (-i)
        if d < ni then .err else sarith c w (a + i)
      else sarith c w (a + i)
    else sarith c w (a + i)
  | some .mp => .ok (a + i)
  | none => .err

/-- `osl_int_increment` (source/int.c:733-736). -/
def increment (c : Cfg) (p : Int) (a : Int) : Out Int := add_si c p a 1
/-- `osl_int_decrement` (source/int.c:744-747). -/
def decrement (c : Cfg) (p : Int) (a : Int) : Out Int := add_si c p a (-1)

/-- `osl_int_oppose` (source/int.c:1203-1223). -/
def oppose (c : Cfg) (p : Int) (a : Int) : Out Int :=
  match kind c p with
  | some (.fixed w) => sarith c w (-a)
  | some .mp => .ok (-a)
  | none => .err

/-- `osl_int_sub` (source/int.c:854-867). -/
def sub (c : Cfg) (p : Int) (a b : Int) : Out Int :=
  if p = PREC_MP ∧ c.gmp then .ok (a - b)
  else do
    let _ ← init c p
    let mb ← oppose c p b
    add c p a mb

/-- `osl_int_mul` (source/int.c:876-910): the product is computed first, the check
divides it back. -/
def mul (c : Cfg) (p : Int) (a b : Int) : Out Int :=
  match kind c p with
  | some (.fixed w) => do
    let r ← sarith c w (a * b)
    if c.ndebug = false ∧ a ≠ 0 ∧ b ≠ 0 then
      let q ← sdiv w r b
      if q ≠ a then .err else .ok r
    else .ok r
  | some .mp => .ok (a * b)
  | none => .err

/-- `osl_int_mul_si` (source/int.c:919-953); `i` is a C `int`. -/
def mul_si (c : Cfg) (p : Int) (a i : Int) : Out Int :=
  match kind c p with
  | some (.fixed w) => do
    let r ← sarith c w (a * i)
    if c.ndebug = false ∧ a ≠ 0 ∧ i ≠ 0 then
      let q ← sdiv w r i
      if q ≠ a then .err else .ok r
    else .ok r
  | some .mp => .ok (a * i)
  | none => .err

/-- `osl_int_div_exact` (source/int.c:963-983). `mpz_divexact` is specified only when the
division is exact (GMP manual, "Integer Division"). -/
def div_exact (c : Cfg) (p : Int) (a b : Int) : Out Int :=
  match kind c p with
  | some (.fixed w) => sdiv w a b
  | some .mp => if b = 0 then .ub else if a.tmod b = 0 then .ok (a.tdiv b) else .ub
  | none => .err

/-- `osl_int_floor_div_q` (source/int.c:992-1030). GMP's `mpz_fdiv_q` rounds towards minus
infinity and raises a division by zero signal for `b = 0`. -/
def floor_div_q (c : Cfg) (p : Int) (a b : Int) : Out Int :=
  match kind c p with
  | some (.fixed w) => do
    let q ← sdiv w a b
    if q < 0 then
      let m ← smod w a b
      if m ≠ 0 then sarith c w (q - 1) else .ok q
    else if q = 0 then
      if (a > 0 ∧ b < 0) ∨ (a < 0 ∧ b > 0) then sarith c w (q - 1) else .ok q
    else .ok q
  | some .mp => if b = 0 then .ub else .ok (a.fdiv b)
  | none => .err

/-- `osl_int_floor_div_r` (source/int.c:1039-1061). -/
def floor_div_r (c : Cfg) (p : Int) (a b : Int) : Out Int :=
  match kind c p with
  | some (.fixed w) => do
    let q ← floor_div_q c p a b
    let t ← sarith c w (q * b)
    sarith c w (a - t)
  | some .mp => if b = 0 then .ub else .ok (a.fmod b)
  | none => .err

/-- `osl_int_floor_div_q_r` (source/int.c:1071-1094): the new contents of `(*q, *r)`. -/
def floor_div_q_r (c : Cfg) (p : Int) (a b : Int) : Out (Int × Int) :=
  match kind c p with
  | some (.fixed w) => do
    let q ← floor_div_q c p a b
    let t ← sarith c w (q * b)
    let r ← sarith c w (a - t)
    return (q, r)
  | some .mp => if b = 0 then .ub else .ok (a.fdiv b, a.fmod b)
  | none => .err

/-- `osl_int_mod` (source/int.c:1104-1128). GMP's `mpz_mod` always gives a non-negative
result. -/
def mod (c : Cfg) (p : Int) (a b : Int) : Out Int :=
  match kind c p with
  | some (.fixed w) => do
    let m ← smod w a b
    if m < 0 then
      let ab ← sabs w b
      sarith c w (m + ab)
    else .ok m
  | some .mp => if b = 0 then .ub else .ok (a % (b.natAbs : Int))
  | none => .err

theorem smod_lt {w : Nat} {a b m : Int} (h : b ≠ 0) (hm : smod w a b = .ok m) :
    m.natAbs < b.natAbs := by
  unfold smod at hm
  rw [if_neg h] at hm
  split at hm
  · injection hm with hm
    subst hm
    rw [Int.natAbs_tmod]
    exact Nat.mod_lt _ (by omega)
  · cases hm

/-- `llgcd` (source/int.c:1131-1133), always at the width of `long long int`. The
recursion is on `|b|`, which decreases. -/
def llgcd (a b : Int) : Out Int :=
  if h : b = 0 then .ok a
  else
    match hm : smod 64 a b with
    | .ok m => llgcd b m
    | .err => .err
    | .ub => .ub
  termination_by b.natAbs
  decreasing_by exact smod_lt h hm

/-- `osl_int_gcd` (source/int.c:1142-1162). In single precision the result is passed to
`labs`, whose parameter is a `long int`. -/
def gcd (c : Cfg) (p : Int) (a b : Int) : Out Int :=
  match kind c p with
  | some (.fixed w) => do
    let g ← llgcd a b
    sabs w (wrap w g)
  | some .mp => .ok (Int.gcd a b)
  | none => .err

/-- `osl_int_abs` (source/int.c:1231-1251). -/
def abs (c : Cfg) (p : Int) (a : Int) : Out Int :=
  match kind c p with
  | some (.fixed w) => if a > 0 then .ok a else sarith c w (-a)
  | some .mp => .ok a.natAbs
  | none => .err

/-- `osl_int_lcm` (source/int.c:1172-1195). -/
def lcm (c : Cfg) (p : Int) (a b : Int) : Out Int := do
  let _ ← init c p
  let pa ← abs c p a
  let pb ← abs c p b
  let g ← gcd c p pa pb
  let z ← zero c p g
  if z then set_si c p 0
  else do
    let pa ← div_exact c p pa g
    mul c p pa pb

/-- The loop of `lllog2` (source/int.c:1259-1262) on a non-negative value: number of
iterations of `x >>= 1` before `x` is zero. -/
def log2Loop (x : Nat) : Nat := if h : x = 0 then 0 else log2Loop (x / 2) + 1
  termination_by x
  decreasing_by omega

/-- The loop of `lllog10` (source/int.c:1297-1300). -/
def log10Loop (x : Nat) : Nat := if h : x = 0 then 0 else log10Loop (x / 10) + 1
  termination_by x
  decreasing_by omega

/-- `osl_int_size_in_base_2` (source/int.c:1254-1266, 1273-1289). GMP's
`mpz_sizeinbase(v, 2)` is exact, and 1 for zero. -/
def size_in_base_2 (c : Cfg) (p : Int) (v : Int) : Out Nat :=
  match kind c p with
  | some (.fixed _) => do
    let x ← sabs 64 v
    let n := log2Loop x.toNat
    return (if n = 0 then 1 else n)
  | some .mp => .ok (if v = 0 then 1 else log2Loop v.natAbs)
  | none => .err

/-- `osl_int_size_in_base_10` (source/int.c:1292-1304, 1312-1328), fixed width only:
GMP's `mpz_sizeinbase(v, 10)` may be one too large, so multiple precision is not
modelled here and gives `none`. -/
def size_in_base_10 (c : Cfg) (p : Int) (v : Int) : Out (Option Nat) :=
  match kind c p with
  | some (.fixed _) => do
    let x ← sabs 64 v
    return some (log10Loop x.toNat)
  | some .mp => .ok none
  | none => .err

/-- `osl_int_divisible` (source/int.c:1595-1612). GMP's `mpz_divisible_p(a, 0)` is true
exactly for `a = 0`. -/
def divisible (c : Cfg) (p : Int) (a b : Int) : Out Bool :=
  match kind c p with
  | some (.fixed w) => do
    let m ← smod w a b
    return decide (m = 0)
  | some .mp => .ok (if b = 0 then decide (a = 0) else decide (a.tmod b = 0))
  | none => .err

/-- `osl_int_set_precision` (source/int.c:1624-1631); `osl_int_clear` can only fail for an
unknown precision, which `get_si` has already rejected. -/
def set_precision (c : Cfg) (p np : Int) (v : Int) : Out Int :=
  if p ≠ np then do
    let i ← get_si c p v
    init_set_si c np i
  else .ok v

end OInt
end Osl
