import Verif.HeapVec
/-!
# Integers in memory (source/int.c)

Each function on the memory: an `osl_int_t` variable is an element of an array of `osl_int_t` (its address is a `Loc`), an operand passed by value is a `Cell` (a
number, or the pointer to a GMP integer, shared with the variable it comes from).  So a result may be stored in an operand.

Simplifications: the expressions on numbers are evaluated by the functions of `Verif/Int.lean`; a GMP call reads its operands, then writes its result (GMP allows
a result to be an operand); local variables (`osl_int_t` or `mpz_t`) are blocks which are allocated at the beginning and freed at the end.
-/

namespace Osl.Mem

/-- The value of an operand: the number itself, or `*value.mp` (for instance source/int.c:179, 183, 188). -/
def cellVal (k : Option Kind) (x : Cell) : M Int :=
  match k with
  | none => fail
  | some (.fixed _) => lift (asVal x)
  | some .mp => do
    let p ← lift (asMp x)
    let b ← load p
    lift (asMpz b)

/-- `*variable = f(value)`, the operand being read before the result is written. -/
def intOp1 (f : Int → Out Int) (k : Option Kind) (r : Loc) (x : Cell) : M Unit := do
  let a ← cellVal k x
  let w ← lift (f a)
  setLoc k r w

/-- `*variable = f(val1, val2)`, the operands being read before the result is written. -/
def intOp2 (f : Int → Int → Out Int) (k : Option Kind) (r : Loc) (x y : Cell) : M Unit := do
  let a ← cellVal k x
  let b ← cellVal k y
  let w ← lift (f a b)
  setLoc k r w

/-! ## Initialisation, assignment, deallocation -/

/-- `osl_int_init` (source/int.c:135-155). -/
def intInit [Allocator] (k : Option Kind) (r : Loc) : M Unit :=
  match k with
  | none => fail
  | some (.fixed _) => writeLoc r (.val 0)
  | some .mp => do
    let p ← alloc (.mpz 0)
    writeLoc r (.mp p)

/-- `osl_int_malloc` (source/int.c:161-167). -/
def intMalloc [Allocator] (c : Cfg) (precision : Int) : M Ptr := do
  let variable_ ← alloc (.ints [.garbage])
  intInit (kind c precision) (variable_, 0)
  pure variable_

/-- `osl_int_assign` (source/int.c:175-195). -/
def intAssign (c : Cfg) (precision : Int) : Loc → Cell → M Unit := intOp1 (OInt.assign c precision) (kind c precision)

/-- `osl_int_set_si` (source/int.c:203-223). -/
def intSetSi (c : Cfg) (precision : Int) (r : Loc) (i : Int) : M Unit := do
  let w ← lift (OInt.set_si c precision i)
  setLoc (kind c precision) r w

/-- `osl_int_set_long` (source/int.c:231-257). -/
def intSetLong (c : Cfg) (precision : Int) (r : Loc) (i : Int) : M Unit := do
  let w ← lift (OInt.set_long c precision i)
  setLoc (kind c precision) r w

/-- `osl_int_set_long_long` (source/int.c:265-297). -/
def intSetLongLong (c : Cfg) (precision : Int) (r : Loc) (i : Int) : M Unit := do
  let w ← lift (OInt.set_long_long c precision i)
  setLoc (kind c precision) r w

/-- `osl_int_init_set` (source/int.c:449-453). -/
def intInitSet [Allocator] (c : Cfg) (precision : Int) (r : Loc) (x : Cell) : M Unit := do
  intInit (kind c precision) r
  intAssign c precision r x

/-- `osl_int_init_set_si` (source/int.c:461-482). -/
def intInitSetSi [Allocator] (c : Cfg) (precision : Int) (r : Loc) (i : Int) : M Unit := do
  let x ← initSi (kind c precision) i
  writeLoc r x

/-- `osl_int_init_set_long` (source/int.c:490-498): the new `mpz_t` is not initialised when it is set. -/
def intInitSetLong [Allocator] (c : Cfg) (precision : Int) (r : Loc) (i : Int) : M Unit :=
  match kind c precision with
  | none => fail
  | some (.fixed _) => do
    let w ← lift (OInt.set_long c precision i)
    writeLoc r (.val w)
  | some .mp => undef

/-- `osl_int_init_set_long_long` (source/int.c:506-514): the same, after the check of the range. -/
def intInitSetLongLong [Allocator] (c : Cfg) (precision : Int) (r : Loc) (i : Int) : M Unit :=
  match kind c precision with
  | none => fail
  | some (.fixed _) => do
    let w ← lift (OInt.set_long_long c precision i)
    writeLoc r (.val w)
  | some .mp => do
    let _ ← lift (OInt.set_long_long c precision i)
    undef

/-- `osl_int_swap` (source/int.c:522-554). -/
def intSwap [Allocator] (k : Option Kind) (a b : Loc) : M Unit :=
  match k with
  | none => fail
  | some (.fixed w) => do
    let temp ← getLoc (some (.fixed w)) a
    let v ← getLoc (some (.fixed w)) b
    setLoc (some (.fixed w)) a v
    setLoc (some (.fixed w)) b temp
  | some .mp => do
    let temp ← alloc (.mpz 0)
    let u ← getLoc (some .mp) a
    store temp (.mpz u)
    let v ← getLoc (some .mp) b
    setLoc (some .mp) a v
    let t ← load temp
    let u ← lift (asMpz t)
    setLoc (some .mp) b u
    free temp

/-- `osl_int_free` (source/int.c:588-591). -/
def intFree (c : Cfg) (precision : Int) (v : Ptr) : M Unit := do
  clearLoc (kind c precision) (v, 0)
  free v

/-! ## Arithmetic -/

/-- `osl_int_add` (source/int.c:756-794). -/
def intAdd (c : Cfg) (precision : Int) : Loc → Cell → Cell → M Unit := intOp2 (OInt.add c precision) (kind c precision)

/-- `osl_int_add_si` (source/int.c:803-845): in multiple precision, `si` is a local GMP integer. -/
def intAddSi [Allocator] (c : Cfg) (precision : Int) (r : Loc) (x : Cell) (i : Int) : M Unit :=
  match kind c precision with
  | none => fail
  | some (.fixed w) => intOp1 (fun a => OInt.add_si c precision a i) (some (.fixed w)) r x
  | some .mp => do
    let si ← alloc (.mpz i)
    intOp2 (fun a b => .ok (a + b)) (some .mp) r x (.mp si)
    free si

/-- `osl_int_increment` (source/int.c:733-736). -/
def intIncrement [Allocator] (c : Cfg) (precision : Int) (r : Loc) (x : Cell) : M Unit := intAddSi c precision r x 1

/-- `osl_int_decrement` (source/int.c:744-747). -/
def intDecrement [Allocator] (c : Cfg) (precision : Int) (r : Loc) (x : Cell) : M Unit := intAddSi c precision r x (-1)

/-- `osl_int_oppose` (source/int.c:1203-1223). -/
def intOppose (c : Cfg) (precision : Int) : Loc → Cell → M Unit := intOp1 (OInt.oppose c precision) (kind c precision)

/-- `osl_int_sub` (source/int.c:854-867): in fixed precision, `mval2` is a local integer. -/
def intSub [Allocator] (c : Cfg) (precision : Int) (r : Loc) (x y : Cell) : M Unit :=
  match kind c precision with
  | some .mp => intOp2 (fun a b => .ok (a - b)) (some .mp) r x y
  | k => do
    let mval2 ← alloc (.ints [.garbage])
    intInit k (mval2, 0)
    intOppose c precision (mval2, 0) y
    let m ← readLoc (mval2, 0)
    intAdd c precision r x m
    free mval2

/-- The check of a product (source/int.c:881-887, 893-899): `r` has the product. -/
def mulCheck (c : Cfg) (w : Nat) (r : Loc) (a b : Int) : M Unit :=
  if c.ndebug = false ∧ a ≠ 0 ∧ b ≠ 0 then do
    let v ← getLoc (some (.fixed w)) r
    let q ← lift (sdiv w v b)
    if q ≠ a then fail else pure ()
  else pure ()

/-- `osl_int_mul` (source/int.c:876-910): the result is written before the check. -/
def intMul (c : Cfg) (precision : Int) (r : Loc) (x y : Cell) : M Unit :=
  match kind c precision with
  | none => fail
  | some (.fixed w) => do
    let a ← cellVal (some (.fixed w)) x
    let b ← cellVal (some (.fixed w)) y
    let v ← lift (sarith c w (a * b))
    setLoc (some (.fixed w)) r v
    mulCheck c w r a b
  | some .mp => intOp2 (fun a b => .ok (a * b)) (some .mp) r x y

/-- `osl_int_mul_si` (source/int.c:919-953): the result is written before the check. -/
def intMulSi (c : Cfg) (precision : Int) (r : Loc) (x : Cell) (i : Int) : M Unit :=
  match kind c precision with
  | none => fail
  | some (.fixed w) => do
    let a ← cellVal (some (.fixed w)) x
    let v ← lift (sarith c w (a * i))
    setLoc (some (.fixed w)) r v
    mulCheck c w r a i
  | some .mp => intOp1 (fun a => .ok (a * i)) (some .mp) r x

/-- `osl_int_div_exact` (source/int.c:963-983). -/
def intDivExact (c : Cfg) (precision : Int) : Loc → Cell → Cell → M Unit := intOp2 (OInt.div_exact c precision) (kind c precision)

/-- `--q->sp` (source/int.c:999, 1004, 1012, 1017). -/
def intDown (c : Cfg) (w : Nat) (q : Loc) : M Unit := do
  let v ← getLoc (some (.fixed w)) q
  let v ← lift (sarith c w (v - 1))
  setLoc (some (.fixed w)) q v

/-- The correction of a quotient (source/int.c:997-1006, 1010-1019): `q` has the truncated quotient. -/
def floorFix (c : Cfg) (w : Nat) (q : Loc) (a b : Int) : M Unit := do
  let v ← getLoc (some (.fixed w)) q
  if v < 0 then do
    let m ← lift (smod w a b)
    if m ≠ 0 then intDown c w q else pure ()
  else if v = 0 then
    if (a > 0 ∧ b < 0) ∨ (a < 0 ∧ b > 0) then intDown c w q else pure ()
  else pure ()

/-- `osl_int_floor_div_q` (source/int.c:992-1030). -/
def intFloorDivQ (c : Cfg) (precision : Int) (q : Loc) (x y : Cell) : M Unit :=
  match kind c precision with
  | none => fail
  | some (.fixed w) => do
    let a ← cellVal (some (.fixed w)) x
    let b ← cellVal (some (.fixed w)) y
    let v ← lift (sdiv w a b)
    setLoc (some (.fixed w)) q v
    floorFix c w q a b
  | some .mp => intOp2 (OInt.floor_div_q c precision) (some .mp) q x y

/-- `r->sp = a.sp - q->sp * b.sp` (source/int.c:1044, 1049, 1077, 1082). -/
def intRest (c : Cfg) (w : Nat) (q r : Loc) (x y : Cell) : M Unit := do
  let a ← cellVal (some (.fixed w)) x
  let v ← getLoc (some (.fixed w)) q
  let b ← cellVal (some (.fixed w)) y
  let t ← lift (sarith c w (v * b))
  let d ← lift (sarith c w (a - t))
  setLoc (some (.fixed w)) r d

/-- `osl_int_floor_div_r` (source/int.c:1039-1061). -/
def intFloorDivR (c : Cfg) (precision : Int) (r : Loc) (x y : Cell) : M Unit :=
  match kind c precision with
  | none => fail
  | some (.fixed w) => do
    intFloorDivQ c precision r x y
    intRest c w r r x y
  | some .mp => intOp2 (OInt.floor_div_r c precision) (some .mp) r x y

/-- `mpz_fdiv_qr` (source/int.c:1087): the two results must be different variables. -/
def mpzFdivQr (c : Cfg) (precision : Int) (q r : Loc) (x y : Cell) : M Unit := do
  let a ← cellVal (some .mp) x
  let b ← cellVal (some .mp) y
  let d ← readLoc q
  let e ← readLoc r
  if d = e then undef
  else do
    let v ← lift (OInt.floor_div_q_r c precision a b)
    setLoc (some .mp) q v.1
    setLoc (some .mp) r v.2

/-- `osl_int_floor_div_q_r` (source/int.c:1071-1094). -/
def intFloorDivQR (c : Cfg) (precision : Int) (q r : Loc) (x y : Cell) : M Unit :=
  match kind c precision with
  | none => fail
  | some (.fixed w) => do
    intFloorDivQ c precision q x y
    intRest c w q r x y
  | some .mp => mpzFdivQr c precision q r x y

/-- `if (mod->sp < 0) mod->sp += labs(b.sp)` (source/int.c:1109-1110, 1115-1116). -/
def modFix (c : Cfg) (w : Nat) (r : Loc) (b : Int) : M Unit := do
  let m ← getLoc (some (.fixed w)) r
  if m < 0 then do
    let ab ← lift (sabs w b)
    let v ← lift (sarith c w (m + ab))
    setLoc (some (.fixed w)) r v
  else pure ()

/-- `osl_int_mod` (source/int.c:1104-1128). -/
def intMod (c : Cfg) (precision : Int) (r : Loc) (x y : Cell) : M Unit :=
  match kind c precision with
  | none => fail
  | some (.fixed w) => do
    let a ← cellVal (some (.fixed w)) x
    let b ← cellVal (some (.fixed w)) y
    let v ← lift (smod w a b)
    setLoc (some (.fixed w)) r v
    modFix c w r b
  | some .mp => intOp2 (OInt.mod c precision) (some .mp) r x y

/-- `osl_int_gcd` (source/int.c:1142-1162). -/
def intGcd (c : Cfg) (precision : Int) : Loc → Cell → Cell → M Unit := intOp2 (OInt.gcd c precision) (kind c precision)

/-- `osl_int_abs` (source/int.c:1231-1251). -/
def intAbs (c : Cfg) (precision : Int) : Loc → Cell → M Unit := intOp1 (OInt.abs c precision) (kind c precision)

/-! ## Tests and conversions -/

/-- A function of the value of an operand. -/
def intAsk1 {β : Type} (f : Int → Out β) (k : Option Kind) (x : Cell) : M β := do
  let a ← cellVal k x
  lift (f a)

/-- A function of the values of two operands. -/
def intAsk2 {β : Type} (f : Int → Int → Out β) (k : Option Kind) (x y : Cell) : M β := do
  let a ← cellVal k x
  let b ← cellVal k y
  lift (f a b)

/-- `osl_int_get_si` (source/int.c:305-337). -/
def intGetSi (c : Cfg) (precision : Int) : Cell → M Int := intAsk1 (OInt.get_si c precision) (kind c precision)
/-- `osl_int_get_long` (source/int.c:345-377). -/
def intGetLong (c : Cfg) (precision : Int) : Cell → M Int := intAsk1 (OInt.get_long c precision) (kind c precision)
/-- `osl_int_get_long_long` (source/int.c:385-417). -/
def intGetLongLong (c : Cfg) (precision : Int) : Cell → M Int := intAsk1 (OInt.get_long_long c precision) (kind c precision)
/-- `osl_int_pos` (source/int.c:1474-1490). -/
def intPos (c : Cfg) (precision : Int) : Cell → M Bool := intAsk1 (OInt.pos c precision) (kind c precision)
/-- `osl_int_neg` (source/int.c:1498-1514). -/
def intNeg (c : Cfg) (precision : Int) : Cell → M Bool := intAsk1 (OInt.neg c precision) (kind c precision)
/-- `osl_int_zero` (source/int.c:1522-1538). -/
def intZero (c : Cfg) (precision : Int) : Cell → M Bool := intAsk1 (OInt.zero c precision) (kind c precision)
/-- `osl_int_one` (source/int.c:1546-1562). -/
def intOne (c : Cfg) (precision : Int) : Cell → M Bool := intAsk1 (OInt.one c precision) (kind c precision)
/-- `osl_int_mone` (source/int.c:1570-1586). -/
def intMone (c : Cfg) (precision : Int) : Cell → M Bool := intAsk1 (OInt.mone c precision) (kind c precision)
/-- `osl_int_size_in_base_2` (source/int.c:1273-1289). -/
def intSize2 (c : Cfg) (precision : Int) : Cell → M Nat := intAsk1 (OInt.size_in_base_2 c precision) (kind c precision)
/-- `osl_int_eq` (source/int.c:1341-1358). -/
def intEq (c : Cfg) (precision : Int) : Cell → Cell → M Bool := intAsk2 (OInt.eq c precision) (kind c precision)
/-- `osl_int_ne` (source/int.c:1367-1370). -/
def intNe (c : Cfg) (precision : Int) : Cell → Cell → M Bool := intAsk2 (OInt.ne c precision) (kind c precision)
/-- `osl_int_lt` (source/int.c:1379-1394). -/
def intLt (c : Cfg) (precision : Int) : Cell → Cell → M Bool := intAsk2 (OInt.lt c precision) (kind c precision)
/-- `osl_int_le` (source/int.c:1403-1418). -/
def intLe (c : Cfg) (precision : Int) : Cell → Cell → M Bool := intAsk2 (OInt.le c precision) (kind c precision)
/-- `osl_int_gt` (source/int.c:1427-1442). -/
def intGt (c : Cfg) (precision : Int) : Cell → Cell → M Bool := intAsk2 (OInt.gt c precision) (kind c precision)
/-- `osl_int_ge` (source/int.c:1451-1466). -/
def intGe (c : Cfg) (precision : Int) : Cell → Cell → M Bool := intAsk2 (OInt.ge c precision) (kind c precision)
/-- `osl_int_divisible` (source/int.c:1595-1612). -/
def intDivisible (c : Cfg) (precision : Int) : Cell → Cell → M Bool := intAsk2 (OInt.divisible c precision) (kind c precision)

/-! ## The least common multiple, with its local integers -/

/-- The result (source/int.c:1184-1190): `t` is the array `gcd`, `pa`, `pb`. -/
def lcmResult (c : Cfg) (precision : Int) (lcm : Loc) (t : Ptr) : M Unit := do
  let g ← readLoc (t, 0)
  let z ← intZero c precision g
  if z then intSetSi c precision lcm 0
  else do
    let pa ← readLoc (t, 1)
    intDivExact c precision (t, 1) pa g
    let pa ← readLoc (t, 1)
    let pb ← readLoc (t, 2)
    intMul c precision lcm pa pb

/-- The three initialisations (source/int.c:1177-1179). -/
def lcmLocals [Allocator] (c : Cfg) (precision : Int) : M Ptr := do
  let t ← alloc (.ints [.garbage, .garbage, .garbage])
  intInit (kind c precision) (t, 0)
  intInit (kind c precision) (t, 1)
  intInit (kind c precision) (t, 2)
  pure t

/-- The three deallocations (source/int.c:1192-1194). -/
def lcmClear (c : Cfg) (precision : Int) (t : Ptr) : M Unit := do
  clearLoc (kind c precision) (t, 0)
  clearLoc (kind c precision) (t, 1)
  clearLoc (kind c precision) (t, 2)
  free t

/-- `osl_int_lcm` (source/int.c:1172-1195). -/
def intLcm [Allocator] (c : Cfg) (precision : Int) (lcm : Loc) (x y : Cell) : M Unit := do
  let t ← lcmLocals c precision
  intAbs c precision (t, 1) x
  intAbs c precision (t, 2) y
  let pa ← readLoc (t, 1)
  let pb ← readLoc (t, 2)
  intGcd c precision (t, 0) pa pb
  lcmResult c precision lcm t
  lcmClear c precision t

end Osl.Mem
