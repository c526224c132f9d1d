import Verif.HeapPrintExt
import Verif.HeapQueryExt
import Verif.ExtIrregular
/-!
# The irregular extension in memory (source/extensions/irregular.c)

The structure (include/osl/extensions/irregular.h:86-103) is a block with the integers nb_control, nb_exit, nb_statements and the pointers nb_iterators, iterators, body,
nb_predicates, predicates.  An array which has just been allocated is held in a local variable (the code reads it again from the structure).  The elements of a new
array are 0 or NULL in the model.  `malloc(0)` is not NULL; an allocation of a negative number of elements fails.
-/

namespace Osl.Mem

open Osl.Ext

/-! ## Arrays with an index of type `int` -/

/-- `a[i]`, in an array of pointers. -/
def slotPtr (a : Ptr) (i : Int) : M Ptr := do
  let l ← loadPtrs a
  lift (nth l i)

/-- `a[i] = x`, in an array of pointers. -/
def slotSet (a : Ptr) (i : Int) (x : Ptr) : M Unit := do
  let l ← loadPtrs a
  let l ← lift (setNth l i x)
  store a (.ptrs l)

/-- `a[i]`, in an array of integers. -/
def slotInt (a : Ptr) (i : Int) : M Int := do
  let l ← loadNode a
  lift (nth l.1 i)

/-- `a[i] = x`, in an array of integers. -/
def slotPut (a : Ptr) (i : Int) (x : Int) : M Unit := do
  let l ← loadNode a
  let q ← lift (setNth l.1 i x)
  store a (.node q l.2)

/-- `malloc(sizeof(char*) * n)` followed by the test of the result (for instance source/extensions/irregular.c:536-541). -/
def mallocPtrs [Allocator] (n : Int) : M Ptr := if n < 0 then fail else allocPtrs n.toNat

/-- `malloc(sizeof(int) * n)` followed by the test of the result (for instance source/extensions/irregular.c:576-581). -/
def mallocInts [Allocator] (n : Int) : M Ptr := if n < 0 then fail else allocInts n.toNat

/-- The copy of the string `a[i]`, by `OSL_strdup` (include/osl/macros.h:164-173). -/
def dupSlot [Allocator] (a : Ptr) (i : Int) : M Ptr := do
  let s ← slotPtr a i
  hStrdup s

/-- The sum of two `int`s. -/
def addInt (a b : Int) : M Int := lift (Irregular.addI a b)

/-! ## Allocation -/

/-- `osl_irregular_malloc` (source/extensions/irregular.c:343-357). -/
def irrMalloc [Allocator] : M Ptr := alloc (.node [0, 0, 0] [0, 0, 0, 0, 0])

/-- One turn of the first loop of `osl_irregular_free` (source/extensions/irregular.c:369-370). -/
def irrFreeStmt (pr : Ptr) (i : Int) : M Unit := do
  let s ← slotPtr pr i
  free s

/-- One turn of the loop on the iterators (source/extensions/irregular.c:377-378). -/
def irrFreeIter (it : Ptr) (i j : Int) : M Unit := do
  let s ← slotPtr it i
  let w ← slotPtr s j
  free w

/-- One turn of the loop on the predicates (source/extensions/irregular.c:376-382). -/
def irrFreePred (nb it bo : Ptr) (i : Int) : M Unit := do
  let n ← slotInt nb i
  Mem.forM 0 n (irrFreeIter it i)
  let s ← slotPtr it i
  free s
  let b ← slotPtr bo i
  free b

/-- `osl_irregular_free` (source/extensions/irregular.c:365-392). -/
def irrFree (p : Ptr) : M Unit :=
  if p ≠ 0 then do
    let s ← getInt p 2
    let pr ← getPtr p 4
    Mem.forM 0 s (irrFreeStmt pr)
    freeIf pr
    let c ← getInt p 0
    let e ← getInt p 1
    let t ← addInt c e
    let nb ← getPtr p 0
    let it ← getPtr p 1
    let bo ← getPtr p 2
    Mem.forM 0 t (irrFreePred nb it bo)
    freeIf it
    freeIf nb
    freeIf bo
    let np ← getPtr p 3
    freeIf np
    free p
  else pure ()

/-! ## Copies -/

/-- The copy of a string of an array in an array of arrays: `OSL_strdup(a[j], it[i][j])` (source/extensions/irregular.c:461, 543, 567, 620, 685). -/
def irrCopyIter [Allocator] (it a : Ptr) (i j : Int) : M Unit := do
  let s ← slotPtr it i
  let w' ← dupSlot s j
  slotSet a j w'

/-- The copy of the predicate number `i` to the place `k` (source/extensions/irregular.c:532-543, 556-567, 609-620, 674-685). -/
def irrCopyPred [Allocator] (nb it bo nb' it' bo' : Ptr) (i k : Int) : M Unit := do
  let n ← slotInt nb i
  slotPut nb' k n
  let b' ← dupSlot bo i
  slotSet bo' k b'
  let a ← mallocPtrs n
  slotSet it' k a
  Mem.forM 0 n (irrCopyIter it a i)

/-- `OSL_strdup(a[j], iterators[j])` (source/extensions/irregular.c:552, 630). -/
def irrNewIter [Allocator] (its a : Ptr) (j : Int) : M Unit := do
  let w' ← dupSlot its j
  slotSet a j w'

/-- The new predicate, at the place `k` (source/extensions/irregular.c:545-554, 622-632). -/
def irrNewPred [Allocator] (its : Ptr) (n : Int) (body nb' it' bo' : Ptr) (k : Int) : M Unit := do
  let a ← mallocPtrs n
  slotSet it' k a
  Mem.forM 0 n (irrNewIter its a)
  slotPut nb' k n
  let b' ← hStrdup body
  slotSet bo' k b'

/-- The copy of one number: `a[j] = pr[i][j]` (source/extensions/irregular.c:434, 584, 649, 702). -/
def irrCopyNum (pr a : Ptr) (i j : Int) : M Unit := do
  let s ← slotPtr pr i
  let v ← slotInt s j
  slotPut a j v

/-- The copy of the list of the statement number `i` (source/extensions/irregular.c:427-435, 575-585, 640-650, 693-703). -/
def irrCopyStmt [Allocator] (np pr np' pr' : Ptr) (i : Int) : M Unit := do
  let n ← slotInt np i
  slotPut np' i n
  let a ← mallocInts n
  slotSet pr' i a
  Mem.forM 0 n (irrCopyNum pr a i)

/-- The arrays of the predicates of the new structure `r` (source/extensions/irregular.c:523-530, 600-607, 665-672): the arrays nb_iterators, iterators, body. -/
def irrArrays [Allocator] (r : Ptr) (t : Int) : M (Ptr × Ptr × Ptr) := do
  let it' ← mallocPtrs t
  setPtr r 1 it'
  let nb' ← mallocInts t
  setPtr r 0 nb'
  let bo' ← mallocPtrs t
  setPtr r 2 bo'
  pure (nb', it', bo')

/-- The arrays of the statements of the new structure `r`, for `m` statements, and the copy of the `s` statements of `p`
(source/extensions/irregular.c:413-435, 569-585, 634-650, 687-703): the arrays nb_predicates, predicates. -/
def irrStmts [Allocator] (p r : Ptr) (m s : Int) : M (Ptr × Ptr) := do
  let np' ← mallocInts m
  setPtr r 3 np'
  let pr' ← mallocPtrs m
  setPtr r 4 pr'
  let np ← getPtr p 3
  let pr ← getPtr p 4
  Mem.forM 0 s (irrCopyStmt np pr np' pr')
  pure (np', pr')

/-- The arrays nb_iterators, iterators, body of a structure. -/
def irrPreds (p : Ptr) : M (Ptr × Ptr × Ptr) := do
  let nb ← getPtr p 0
  let it ← getPtr p 1
  let bo ← getPtr p 2
  pure (nb, it, bo)

/-- `osl_irregular_add_control` (source/extensions/irregular.c:512-587). -/
def irrAddControl [Allocator] (p its : Ptr) (n : Int) (body : Ptr) : M Ptr := do
  let r ← irrMalloc
  let c ← getInt p 0
  let c1 ← addInt c 1
  setInt r 0 c1
  let e ← getInt p 1
  setInt r 1 e
  let s ← getInt p 2
  setInt r 2 s
  let t ← addInt c1 e
  let d ← irrArrays r t
  let o ← irrPreds p
  Mem.forM 0 c (fun i => irrCopyPred o.1 o.2.1 o.2.2 d.1 d.2.1 d.2.2 i i)
  irrNewPred its n body d.1 d.2.1 d.2.2 c
  Mem.forM c1 t (fun i => irrCopyPred o.1 o.2.1 o.2.2 d.1 d.2.1 d.2.2 (i - 1) i)
  let _ ← irrStmts p r s s
  pure r

/-- `osl_irregular_add_exit` (source/extensions/irregular.c:589-652). -/
def irrAddExit [Allocator] (p its : Ptr) (n : Int) (body : Ptr) : M Ptr := do
  let r ← irrMalloc
  let c ← getInt p 0
  setInt r 0 c
  let e ← getInt p 1
  let e1 ← addInt e 1
  setInt r 1 e1
  let s ← getInt p 2
  setInt r 2 s
  let t ← addInt c e1
  let d ← irrArrays r t
  let o ← irrPreds p
  Mem.forM 0 (t - 1) (fun i => irrCopyPred o.1 o.2.1 o.2.2 d.1 d.2.1 d.2.2 i i)
  irrNewPred its n body d.1 d.2.1 d.2.2 (t - 1)
  let _ ← irrStmts p r s s
  pure r

/-- `a[i] = predicates[i]` (source/extensions/irregular.c:712). -/
def irrNewNum (l a : Ptr) (i : Int) : M Unit := do
  let v ← slotInt l i
  slotPut a i v

/-- The new statement (source/extensions/irregular.c:704-713). -/
def irrNewStmt [Allocator] (l : Ptr) (n : Int) (np' pr' : Ptr) (s : Int) : M Unit := do
  let a ← mallocInts n
  slotSet pr' s a
  Mem.forM 0 n (irrNewNum l a)
  slotPut np' s n

/-- `osl_irregular_add_predicates` (source/extensions/irregular.c:654-716). -/
def irrAddPredicates [Allocator] (p l : Ptr) (n : Int) : M Ptr := do
  let r ← irrMalloc
  let c ← getInt p 0
  setInt r 0 c
  let e ← getInt p 1
  setInt r 1 e
  let s ← getInt p 2
  let s1 ← addInt s 1
  setInt r 2 s1
  let t ← addInt c e
  let d ← irrArrays r t
  let o ← irrPreds p
  Mem.forM 0 t (fun i => irrCopyPred o.1 o.2.1 o.2.2 d.1 d.2.1 d.2.2 i i)
  let f ← irrStmts p r s1 s
  irrNewStmt l n f.1 f.2 s
  pure r

/-- The copy of the iterators of one predicate by `osl_irregular_clone` (source/extensions/irregular.c:454-461): their number and the new array. -/
def irrCloneIters [Allocator] (nb it nb' it' : Ptr) (i : Int) : M (Int × Ptr) := do
  let n ← slotInt nb i
  slotPut nb' i n
  let a ← mallocPtrs n
  slotSet it' i a
  Mem.forM 0 n (irrCopyIter it a i)
  pure (n, a)

/-- The copy of one predicate by `osl_irregular_clone` (source/extensions/irregular.c:453-463): the last line writes the body after the iterators, in the array of the
iterators, where `j` is their number. -/
def irrClonePred [Allocator] (nb it bo nb' it' : Ptr) (i : Int) : M Unit := do
  let d ← irrCloneIters nb it nb' it' i
  let b' ← dupSlot bo i
  slotSet d.2 d.1 b'

/-- `osl_irregular_clone`, before its last loop (source/extensions/irregular.c:411-452): the new structure, the number of predicates, the arrays of the predicates, the new
arrays nb_iterators and iterators. -/
def irrCloneHead [Allocator] (p : Ptr) : M (Ptr × Int × (Ptr × Ptr × Ptr) × Ptr × Ptr) := do
  let r ← irrMalloc
  let s ← getInt p 2
  setInt r 2 s
  let _ ← irrStmts p r s s
  let c ← getInt p 0
  setInt r 0 c
  let e ← getInt p 1
  setInt r 1 e
  let t ← addInt c e
  let nb' ← mallocInts t
  setPtr r 0 nb'
  let it' ← mallocPtrs t
  setPtr r 1 it'
  let bo' ← mallocPtrs t
  setPtr r 2 bo'
  let o ← irrPreds p
  pure (r, t, o, nb', it')

/-- `osl_irregular_clone` (source/extensions/irregular.c:405-466). -/
def irrClone [Allocator] (p : Ptr) : M Ptr :=
  if p = 0 then pure 0
  else do
    let d ← irrCloneHead p
    Mem.forM 0 d.2.1 (irrClonePred d.2.2.1.1 d.2.2.1.2.1 d.2.2.1.2.2 d.2.2.2.1 d.2.2.2.2)
    pure d.1

/-! ## Equality -/

/-- `strcmp(a, b)`; only the sign of the result is known (C11 7.24.4.2). -/
def strCmpAt (cmp : Str → Str → Int) (a b : Ptr) : M Int := do
  let s ← loadChars a
  let t ← loadChars b
  pure (cmp s t)

/-- One turn of the first loop (source/extensions/irregular.c:490-493): whether the numbers are the same. -/
def irrEqualStmt (np np' : Ptr) (i : Nat) : M Bool := do
  let a ← slotInt np i
  let b ← slotInt np' i
  pure (decide (a = b))

/-- One turn of the loop on the iterators (source/extensions/irregular.c:502-505). -/
def irrEqualIter (cmp : Str → Str → Int) (it it' : Ptr) (i j : Nat) : M Bool := do
  let s ← slotPtr it i
  let w ← slotPtr s j
  let s' ← slotPtr it' i
  let w' ← slotPtr s' j
  let v ← strCmpAt cmp w w'
  pure (decide (v = 0))

/-- The comparison of the bodies number `i` (source/extensions/irregular.c:500). -/
def slotCmp (cmp : Str → Str → Int) (a b : Ptr) (i : Nat) : M Int := do
  let s ← slotPtr a i
  let s' ← slotPtr b i
  strCmpAt cmp s s'

/-- One turn of the loop on the predicates (source/extensions/irregular.c:498-507); the sum does not overflow (simplification). -/
def irrEqualPred (cmp : Str → Str → Int) (o o' : Ptr × Ptr × Ptr) (i : Nat) : M Bool := do
  let n ← slotInt o.1 i
  let n' ← slotInt o'.1 i
  let v ← slotCmp cmp o.2.2 o'.2.2 i
  if (if n ≠ n' then 1 else 0) + v ≠ 0 then pure false
  else allBelow (irrEqualIter cmp o.2.1 o'.2.1 i) n.toNat 0

/-- The loop over the predicates (source/extensions/irregular.c:497-509). -/
def irrEqualPreds (cmp : Str → Str → Int) (p q : Ptr) : M Bool := do
  let c ← getInt p 0
  let e ← getInt p 1
  let t ← addInt c e
  let o ← irrPreds p
  let o' ← irrPreds q
  allBelow (irrEqualPred cmp o o') t.toNat 0

/-- The loops (source/extensions/irregular.c:488-509). -/
def irrEqualArrays (cmp : Str → Str → Int) (p q : Ptr) (s : Int) : M Bool := do
  let np ← getPtr p 3
  let np' ← getPtr q 3
  let b ← allBelow (irrEqualStmt np np') s.toNat 0
  if b then irrEqualPreds cmp p q else pure false

/-- The comparison of two structures (source/extensions/irregular.c:485-509). -/
def irrEqualNodes (cmp : Str → Str → Int) (p q : Ptr) : M Bool := do
  let s ← getInt p 2
  let s' ← getInt q 2
  let c ← getInt p 0
  let c' ← getInt q 0
  let e ← getInt p 1
  let e' ← getInt q 1
  if s ≠ s' ∨ c ≠ c' ∨ e ≠ e' then pure false else irrEqualArrays cmp p q s

/-- `osl_irregular_equal` (source/extensions/irregular.c:476-510). -/
def irrEqual (cmp : Str → Str → Int) (p q : Ptr) : M Bool := eqNodes p q (irrEqualNodes cmp p q)

end Osl.Mem
