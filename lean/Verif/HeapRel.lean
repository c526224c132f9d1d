import Verif.HeapSep
/-!
# Relations in memory (source/relation.c, source/int.c)

The functions of source/relation.c which allocate, copy, link and free relations, on the memory of `Verif/Heap.lean`.

Simplifications: an expression `relation->m` in a loop is evaluated once before the loop (the loops do not modify the
structure); the pointers to the rows (source/relation.c:1620) are set when their array is allocated; the C `int` products do not
overflow.
-/

namespace Osl.Mem

/-! ## Access to blocks -/

def asRows : Block → Out (List (Ptr × Nat))
  | .rows l => .ok l
  | _ => .ub

def asInts : Block → Out (List Cell)
  | .ints l => .ok l
  | _ => .ub

def asMpz : Block → Out Int
  | .mpz v => .ok v
  | _ => .ub

def asRel : Block → Out (Hdr × Ptr × Ptr)
  | .rel h m n => .ok (h, m, n)
  | _ => .ub

/-- `t[i]` for an array of known length. -/
def nth {α : Type} (l : List α) (i : Int) : Out α :=
  if i < 0 then .ub
  else match l[i.toNat]? with
    | some x => .ok x
    | none => .ub

/-- `t[i] = x`. -/
def setNth {α : Type} (l : List α) (i : Int) (x : α) : Out (List α) :=
  if i < 0 ∨ l.length ≤ i.toNat then .ub else .ok (l.set i.toNat x)

/-- The fields of the relation at `p`. -/
def loadRel (p : Ptr) : M (Hdr × Ptr × Ptr) := do
  let b ← load p
  lift (asRel b)

/-- The expression `m[i][j]`, where `m` is an array of pointers. -/
def readCell (m : Ptr) (i j : Int) : M Cell := do
  let b ← load m
  let l ← lift (asRows b)
  let r ← lift (nth l i)
  let b ← load r.1
  let cs ← lift (asInts b)
  lift (nth cs (r.2 + j))

/-- The assignment `m[i][j] = x`. -/
def writeCell (m : Ptr) (i j : Int) (x : Cell) : M Unit := do
  let b ← load m
  let l ← lift (asRows b)
  let r ← lift (nth l i)
  let b ← load r.1
  let cs ← lift (asInts b)
  let cs ← lift (setNth cs (r.2 + j) x)
  store r.1 (.ints cs)

/-! ## Integers (source/int.c) -/

/-- The pointer of a multiple precision integer. -/
def asMp : Cell → Out Ptr
  | .mp p => .ok p
  | _ => .ub

/-- The value of a fixed precision integer. -/
def asVal : Cell → Out Int
  | .val v => .ok v
  | _ => .ub

/-- `osl_int_init_set_si` (source/int.c:461-482): the new content of the variable. -/
def initSi [Allocator] (k : Option Kind) (i : Int) : M Cell :=
  match k with
  | none => fail
  | some (.fixed _) => pure (.val i)
  | some .mp => do
    let p ← alloc (.mpz i)
    pure (.mp p)

/-- `osl_int_assign` (source/int.c:175-195) to `m[i][j]`. -/
def assignCell (k : Option Kind) (m : Ptr) (i j : Int) (value : Cell) : M Unit :=
  match k with
  | none => fail
  | some (.fixed _) => do
    let v ← lift (asVal value)
    writeCell m i j (.val v)
  | some .mp => do
    let x ← readCell m i j
    let d ← lift (asMp x)
    let s ← lift (asMp value)
    let b ← load s
    let v ← lift (asMpz b)
    let b ← load d
    let _ ← lift (asMpz b)
    store d (.mpz v)

/-- `osl_int_clear` (source/int.c:561-581) of `m[i][j]`. -/
def clearCell (k : Option Kind) (m : Ptr) (i j : Int) : M Unit :=
  match k with
  | none => fail
  | some (.fixed _) => writeCell m i j (.val 0)
  | some .mp => do
    let x ← readCell m i j
    let d ← lift (asMp x)
    let b ← load d
    let _ ← lift (asMpz b)
    free d

/-- The double copy loop of source/relation.c (for instance 1722-1724), see `copyBlock`. -/
def hcopy (k : Option Kind) (src : Ptr) (ilo ihi dro sro jlo jhi dco sco : Int) (dst : Ptr) : M Unit :=
  forM ilo ihi (fun i =>
    forM jlo jhi (fun j => do
      let x ← readCell src (i + sro) (j + sco)
      assignCell k dst (i + dro) (j + dco) x))

/-! ## Allocation and deallocation of relations -/

/-- The row pointers `q + i * nb_columns` (source/relation.c:1619-1620). -/
def rowPtrs (q : Ptr) (R C : Int) : List (Ptr × Nat) := (List.range R.toNat).map (fun i => (q, i * C.toNat))

/-- The allocation of a matrix (source/relation.c:1616-1624). -/
def mallocMatrix [Allocator] (k : Option Kind) (R C : Int) : M Ptr := do
  let q ← alloc (.ints (List.replicate (R.toNat * C.toNat) .garbage))
  let p ← alloc (.rows (rowPtrs q R C))
  forM 0 R (fun i =>
    forM 0 C (fun j => do
      let x ← initSi k 0
      writeCell p i j x))
  pure p

/-- `osl_relation_pmalloc` (source/relation.c:1589-1630). -/
def pmalloc [Allocator] (c : Cfg) (precision nb_rows nb_columns : Int) : M Ptr :=
  if precision ≠ PREC_SP ∧ precision ≠ PREC_DP ∧ precision ≠ PREC_MP then fail
  else if nb_rows < 0 ∨ nb_columns < 0 then fail
  else
    let hdr : Hdr := ⟨UNDEFINED, precision, nb_rows, nb_columns, UNDEFINED, UNDEFINED, UNDEFINED, UNDEFINED⟩
    if nb_rows = 0 ∨ nb_columns = 0 then alloc (.rel hdr 0 0)
    else do
      let m ← mallocMatrix (kind c precision) nb_rows nb_columns
      alloc (.rel hdr m 0)

/-- The end of `osl_relation_free_inside` (source/relation.c:1665-1669). -/
def freeMatrix (m : Ptr) (nb_elements : Int) : M Unit :=
  if m ≠ 0 then
    if nb_elements > 0 then do
      let b ← load m
      let l ← lift (asRows b)
      let r ← lift (nth l 0)
      let _ ← lift (if r.2 = 0 then .ok () else .ub)
      free r.1
      free m
    else free m
  else pure ()

/-- `osl_relation_free_inside` (source/relation.c:1654-1670). -/
def free_inside (c : Cfg) (p : Ptr) : M Unit :=
  if p = 0 then pure ()
  else do
    let r ← loadRel p
    forM 0 (r.1.nb_rows * r.1.nb_columns) (fun i => clearCell (kind c r.1.precision) r.2.1 0 i)
    freeMatrix r.2.1 (r.1.nb_rows * r.1.nb_columns)

end Osl.Mem
