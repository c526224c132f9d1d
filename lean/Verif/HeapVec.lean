import Verif.HeapRelation
import Verif.Vector
import Verif.Util
/-!
# Vectors in memory (source/vector.c), and the functions of source/relation.c which use a vector

Simplifications: fields which a function does not modify are read once; the arithmetic of `osl_int_*` on the values is the one of `Verif/Int.lean`, its effect on
the memory is the reading of the operands and the writing of the result (the GMP temporaries, for instance source/int.c:545-551, are local variables).
-/

namespace Osl.Mem

def asVec : Block → Out (Int × Int × Ptr)
  | .vec p s v => .ok (p, s, v)
  | _ => .ub

/-- The fields of the vector at `p` (include/osl/vector.h): precision, size, `v`. -/
def loadVec (p : Ptr) : M (Int × Int × Ptr) := do
  let b ← load p
  lift (asVec b)

/-! ## Integers at an address -/

/-- An address `&v[i]`: a block and an index. -/
abbrev Loc := Ptr × Int

/-- The address `&m[i][j]` in a matrix. -/
def mloc (m : Ptr) (i j : Int) : M Loc := do
  let b ← load m
  let l ← lift (asRows b)
  let r ← lift (nth l i)
  pure (r.1, r.2 + j)

/-- The content of the address. -/
def readLoc (a : Loc) : M Cell := do
  let b ← load a.1
  let cs ← lift (asInts b)
  lift (nth cs a.2)

/-- Writes the content of the address. -/
def writeLoc (a : Loc) (x : Cell) : M Unit := do
  let b ← load a.1
  let cs ← lift (asInts b)
  let cs ← lift (setNth cs a.2 x)
  store a.1 (.ints cs)

/-- The value of the `osl_int_t` at an address (for instance source/int.c:179, 183, 188). -/
def getLoc (k : Option Kind) (a : Loc) : M Int :=
  match k with
  | none => fail
  | some (.fixed _) => do
    let x ← readLoc a
    lift (asVal x)
  | some .mp => do
    let x ← readLoc a
    let p ← lift (asMp x)
    let b ← load p
    lift (asMpz b)

/-- The `osl_int_t` at an address gets a value (for instance source/int.c:179, 183, 188): a GMP integer is written in place. -/
def setLoc (k : Option Kind) (a : Loc) (w : Int) : M Unit :=
  match k with
  | none => fail
  | some (.fixed _) => writeLoc a (.val w)
  | some .mp => do
    let x ← readLoc a
    let p ← lift (asMp x)
    let b ← load p
    let _ ← lift (asMpz b)
    store p (.mpz w)

/-- The value of `m[i][j]`. -/
def mget (k : Option Kind) (m : Ptr) (i j : Int) : M Int := do
  let d ← mloc m i j
  getLoc k d

/-- `m[i][j]` gets a value. -/
def mset (k : Option Kind) (m : Ptr) (i j w : Int) : M Unit := do
  let d ← mloc m i j
  setLoc k d w

/-- `osl_int_clear` (source/int.c:561-581) of the integer at an address. -/
def clearLoc (k : Option Kind) (a : Loc) : M Unit :=
  match k with
  | none => fail
  | some (.fixed _) => writeLoc a (.val 0)
  | some .mp => do
    let x ← readLoc a
    let p ← lift (asMp x)
    let b ← load p
    let _ ← lift (asMpz b)
    free p

/-! ## source/vector.c -/

/-- `osl_vector_pmalloc` (source/vector.c:148-163); a negative size makes the allocation fail. -/
def vecPmalloc [Allocator] (c : Cfg) (precision size : Int) : M Ptr := do
  let vector ← alloc (.vec precision size 0)
  if size = 0 then pure vector
  else if size < 0 then fail
  else do
    let v ← alloc (.ints (List.replicate size.toNat .garbage))
    store vector (.vec precision size v)
    forM 0 size (fun i => do
      let x ← initSi (kind c precision) 0
      writeLoc (v, i) x)
    pure vector

/-- `osl_vector_malloc` (source/vector.c:175-178); `e` is the environment variable. -/
def vecMalloc [Allocator] (c : Cfg) (e : Option Str) (size : Int) : M Ptr := vecPmalloc c (Util.get_precision c e) size

/-- `osl_vector_free` (source/vector.c:185-197). -/
def vecFree (c : Cfg) (vector : Ptr) : M Unit :=
  if vector = 0 then pure ()
  else do
    let x ← loadVec vector
    if x.2.2 ≠ 0 then do
      forM 0 x.2.1 (fun i => clearLoc (kind c x.1) (x.2.2, i))
      free x.2.2
      free vector
    else free vector

/-- `osl_vector_add_scalar` (source/vector.c:212-229). -/
def vecAddScalar [Allocator] (c : Cfg) (vector : Ptr) (scalar : Int) : M Ptr :=
  if vector = 0 then fail
  else do
    let x ← loadVec vector
    if x.2.1 < 2 then fail
    else do
      let result ← vecPmalloc c x.1 x.2.1
      let r ← loadVec result
      forM 0 x.2.1 (fun i => do
        let a ← getLoc (kind c x.1) (x.2.2, i)
        let a ← lift (OInt.assign c x.1 a)
        setLoc (kind c x.1) (r.2.2, i) a)
      let a ← getLoc (kind c x.1) (x.2.2, x.2.1 - 1)
      let a ← lift (OInt.add_si c x.1 a scalar)
      setLoc (kind c x.1) (r.2.2, x.2.1 - 1) a
      pure result

/-- The common body of `osl_vector_add` (source/vector.c:240-253) and `osl_vector_sub` (264-277); `op` is `osl_int_add` or `osl_int_sub`. -/
def vecZip [Allocator] (c : Cfg) (op : Int → Int → Int → Out Int) (v1 v2 : Ptr) : M Ptr :=
  if v1 = 0 ∨ v2 = 0 then fail
  else do
    let x ← loadVec v1
    let y ← loadVec v2
    if x.2.1 ≠ y.2.1 ∨ x.1 ≠ y.1 then fail
    else do
      let v3 ← vecPmalloc c x.1 x.2.1
      let r ← loadVec v3
      forM 0 x.2.1 (fun i => do
        let a ← getLoc (kind c x.1) (x.2.2, i)
        let b ← getLoc (kind c x.1) (y.2.2, i)
        let w ← lift (op x.1 a b)
        setLoc (kind c x.1) (r.2.2, i) w)
      pure v3

/-- `osl_vector_add` (source/vector.c:240-253). -/
def vecAdd [Allocator] (c : Cfg) (v1 v2 : Ptr) : M Ptr := vecZip c (OInt.add c) v1 v2

/-- `osl_vector_sub` (source/vector.c:264-277). -/
def vecSub [Allocator] (c : Cfg) (v1 v2 : Ptr) : M Ptr := vecZip c (OInt.sub c) v1 v2

/-- The body of `osl_vector_tag_inequality` (source/vector.c:287-291) and `osl_vector_tag_equality` (301-305). -/
def vecTag (c : Cfg) (vector : Ptr) (i : Int) : M Unit :=
  if vector = 0 then fail
  else do
    let x ← loadVec vector
    if x.2.1 < 1 then fail
    else do
      let a ← lift (OInt.set_si c x.1 i)
      setLoc (kind c x.1) (x.2.2, 0) a

/-- `osl_vector_tag_inequality` (source/vector.c:287-291). -/
def vecTagInequality (c : Cfg) (vector : Ptr) : M Unit := vecTag c vector 1

/-- `osl_vector_tag_equality` (source/vector.c:301-305). -/
def vecTagEquality (c : Cfg) (vector : Ptr) : M Unit := vecTag c vector 0

/-- The loop of `osl_vector_equal` (source/vector.c:325-327). -/
def vecEqualLoop (c : Cfg) (precision : Int) (v1 v2 : Ptr) : Nat → Int → M Bool
  | 0, _ => pure true
  | n + 1, i => do
    let a ← getLoc (kind c precision) (v1, i)
    let b ← getLoc (kind c precision) (v2, i)
    let d ← lift (OInt.ne c precision a b)
    if d then pure false else vecEqualLoop c precision v1 v2 n (i + 1)

/-- `osl_vector_equal` (source/vector.c:315-330). -/
def vecEqual (c : Cfg) (v1 v2 : Ptr) : M Bool :=
  if v1 = v2 then pure true
  else do
    let x ← loadVec v1
    let y ← loadVec v2
    if x.2.1 ≠ y.2.1 ∨ x.1 ≠ y.1 then pure false
    else vecEqualLoop c x.1 x.2.2 y.2.2 x.2.1.toNat 0

/-- `osl_vector_mul_scalar` (source/vector.c:340-348). -/
def vecMulScalar [Allocator] (c : Cfg) (v : Ptr) (scalar : Int) : M Ptr := do
  let x ← loadVec v
  let result ← vecPmalloc c x.1 x.2.1
  let r ← loadVec result
  forM 0 x.2.1 (fun i => do
    let a ← getLoc (kind c x.1) (x.2.2, i)
    let w ← lift (OInt.mul_si c x.1 a scalar)
    setLoc (kind c x.1) (r.2.2, i) w)
  pure result

/-- The loop of `osl_vector_is_scalar` (source/vector.c:363-365). -/
def vecScalarLoop (c : Cfg) (precision : Int) (v : Ptr) : Nat → Int → M Bool
  | 0, _ => pure true
  | n + 1, i => do
    let a ← getLoc (kind c precision) (v, i)
    let z ← lift (OInt.zero c precision a)
    if z then vecScalarLoop c precision v n (i + 1) else pure false

/-- `osl_vector_is_scalar` (source/vector.c:357-367). -/
def vecIsScalar (c : Cfg) (vector : Ptr) : M Bool :=
  if vector = 0 then pure false
  else do
    let x ← loadVec vector
    vecScalarLoop c x.1 x.2.2 (x.2.1 - 1).toNat 0

/-! ## Relations and vectors (source/relation.c) -/

/-- `osl_relation_replace_vector` (source/relation.c:1856-1868). -/
def relReplaceVector (c : Cfg) (relation vector : Ptr) (row : Int) : M Unit :=
  if relation = 0 ∨ vector = 0 then fail
  else do
    let r ← loadRel relation
    let x ← loadVec vector
    if r.1.precision ≠ x.1 ∨ r.1.nb_columns ≠ x.2.1 ∨ row ≥ r.1.nb_rows ∨ row < 0 then fail
    else
      forM 0 x.2.1 (fun i => do
        let a ← getLoc (kind c r.1.precision) (x.2.2, i)
        let a ← lift (OInt.assign c r.1.precision a)
        mset (kind c r.1.precision) r.2.1 row i a)

/-- The common body of `osl_relation_add_vector` (source/relation.c:1879-1895) and `osl_relation_sub_vector` (1906-1922). -/
def relCombineVector (c : Cfg) (op : Int → Int → Int → Out Int) (relation vector : Ptr) (row : Int) : M Unit :=
  if relation = 0 ∨ vector = 0 then fail
  else do
    let r ← loadRel relation
    let x ← loadVec vector
    if r.1.precision ≠ x.1 ∨ r.1.nb_columns ≠ x.2.1 ∨ row ≥ r.1.nb_rows ∨ row < 0 then fail
    else do
      let t ← mget (kind c r.1.precision) r.2.1 row 0
      let t ← lift (OInt.get_si c r.1.precision t)
      relCombineFirst c r.1.precision r.2.1 row x.2.2 t
      forM 1 x.2.1 (fun i => do
        let a ← mget (kind c r.1.precision) r.2.1 row i
        let b ← getLoc (kind c r.1.precision) (x.2.2, i)
        let w ← lift (op r.1.precision a b)
        mset (kind c r.1.precision) r.2.1 row i w)
where
  /-- The marker of the row (source/relation.c:1889-1890, 1916-1917). -/
  relCombineFirst (c : Cfg) (precision : Int) (m : Ptr) (row : Int) (v : Ptr) (t : Int) : M Unit :=
    if t = 0 then do
      let a ← getLoc (kind c precision) (v, 0)
      let a ← lift (OInt.assign c precision a)
      mset (kind c precision) m row 0 a
    else pure ()

/-- `osl_relation_add_vector` (source/relation.c:1879-1895). -/
def relAddVector (c : Cfg) (relation vector : Ptr) (row : Int) : M Unit := relCombineVector c (OInt.add c) relation vector row

/-- `osl_relation_sub_vector` (source/relation.c:1906-1922). -/
def relSubVector (c : Cfg) (relation vector : Ptr) (row : Int) : M Unit := relCombineVector c (OInt.sub c) relation vector row

/-- `osl_relation_from_vector` (source/relation.c:2033-2042). -/
def relFromVector [Allocator] (c : Cfg) (vector : Ptr) : M Ptr :=
  if vector = 0 then pure 0
  else do
    let x ← loadVec vector
    let relation ← pmalloc c x.1 1 x.2.1
    relReplaceVector c relation vector 0
    pure relation

/-- `osl_relation_insert_vector` (source/relation.c:1937-1944). -/
def relInsertVector [Allocator] (c : Cfg) (relation vector : Ptr) (row : Int) : M Unit := do
  let temp ← relFromVector c vector
  relInsert c relation temp row
  relFree c temp

/-- `osl_relation_concat_vector` (source/relation.c:1957-1965). -/
def relConcatVector [Allocator] (c : Cfg) (relation vector : Ptr) : M Ptr := do
  let temp ← relFromVector c vector
  let new ← relConcat c relation temp
  relFree c temp
  pure new

/-- `osl_relation_insert_blank_row` (source/relation.c:1974-1982). -/
def relInsertBlankRow [Allocator] (c : Cfg) (relation : Ptr) (row : Int) : M Unit :=
  if relation = 0 then pure ()
  else do
    let r ← loadRel relation
    let vector ← vecPmalloc c r.1.precision r.1.nb_columns
    relInsertVector c relation vector row
    vecFree c vector

/-- `osl_relation_swap_constraints` (source/relation.c:2126-2138), with `osl_int_swap` (source/int.c:522-554). -/
def relSwap (c : Cfg) (relation : Ptr) (c1 c2 : Int) : M Unit :=
  if relation = 0 ∨ c1 = c2 then pure ()
  else do
    let r ← loadRel relation
    if c1 ≥ r.1.nb_rows ∨ c1 < 0 ∨ c2 ≥ r.1.nb_rows ∨ c2 < 0 then fail
    else
      forM 0 r.1.nb_columns (fun i => do
        let a ← mget (kind c r.1.precision) r.2.1 c1 i
        let b ← mget (kind c r.1.precision) r.2.1 c2 i
        let ab ← lift (OInt.swap c r.1.precision a b)
        mset (kind c r.1.precision) r.2.1 c1 i ab.1
        mset (kind c r.1.precision) r.2.1 c2 i ab.2)

end Osl.Mem
