import Verif.HeapQuery
import Verif.HeapExt
/-!
# The comparisons of the extensions in memory

The functions `equal` of the interfaces of the default registry, on the memory of `Verif/Heap.lean`.

Simplifications: the messages (OSL_info) are omitted; a field which is read several times in a row is read once.
-/

namespace Osl.Mem

/-! ## Pieces shared by the comparisons -/

/-- The beginning of the comparisons: equal pointers are equal, NULL is equal to no structure (source/body.c:336-342, source/extensions/clay.c:266-272,
comment.c:261-267, coordinates.c:301-305, scatinfos.c:349-355, scatnames.c:239-243, arrays.c:306-312, extbody.c:316-322, loop.c:454-460, 525-531, null.c:225-231,
annotation.c:314-318, region.c:416-420, symbols.c:503-507). -/
def eqNodes (p q : Ptr) (m : M Bool) : M Bool :=
  if p = q then pure true
  else if (p = 0 ∧ q ≠ 0) ∨ (p ≠ 0 ∧ q = 0) then pure false
  else m

/-- The loops `for (i = 0; i < n; i++) if (!t(i)) return 0; return 1;`. -/
def allBelow (t : Nat → M Bool) : Nat → Nat → M Bool
  | 0, _ => pure true
  | n + 1, i => do
    let b ← t i
    if b then allBelow t n (i + 1) else pure false

/-- The loops `for (j = 0; j < n; j++) if (t(j)) { found = 1; break; }`. -/
def anyBelow (t : Nat → M Bool) : Nat → Nat → M Bool
  | 0, _ => pure false
  | n + 1, i => do
    let b ← t i
    if b then pure true else anyBelow t n (i + 1)

/-- `a && b`: the second is evaluated only if the first holds. -/
def andAlso (a b : M Bool) : M Bool := do
  let x ← a
  if x then b else pure false

/-- `!strcmp(a[i], b[j])`. -/
def wordsEq (a b : Ptr) (i j : Nat) : M Bool := do
  let x ← getField a i
  let y ← getField b j
  strEq x y

/-- `a[i] == b[j]`. -/
def intsEq (a b : Ptr) (i j : Nat) : M Bool := do
  let x ← getInt a i
  let y ← getInt b j
  pure (decide (x = y))

/-- `p->x == q->x` for each of the integer fields. -/
def fieldsEq (p q : Ptr) : List Nat → M Bool
  | [] => pure true
  | i :: l => andAlso (intsEq p q i i) (fieldsEq p q l)

/-! ## Strings and bodies -/

/-- `!strcmp(s1->string[i], s2->string[i])` (source/strings.c:385). -/
def strEqualAt (p q : Ptr) (i : Nat) : M Bool := do
  let a ← getField p 0
  let b ← getField q 0
  wordsEq a b i i

/-- The comparison of the sizes, and the loop (source/strings.c:381-388). -/
def strEqualNodes (p q : Ptr) : M Bool := do
  let n ← strSize p
  let m ← strSize q
  if n ≠ m then pure false else allBelow (strEqualAt p q) n 0

/-- `osl_strings_equal` (source/strings.c:373-389). -/
def stringsEqual (p q : Ptr) : M Bool := eqNodes p q (strEqualNodes p q)

/-- A field of two structures. -/
def fieldStrings (p q : Ptr) (i : Nat) : M Bool := do
  let a ← getField p i
  let b ← getField q i
  stringsEqual a b

/-- `osl_body_equal` (source/body.c:335-355). -/
def bodyEqual (p q : Ptr) : M Bool := eqNodes p q (andAlso (fieldStrings p q 0) (fieldStrings p q 1))

/-- `osl_scatnames_equal` (source/extensions/scatnames.c:237-249). -/
def scatnamesEqual (p q : Ptr) : M Bool := eqNodes p q (fieldStrings p q 0)

/-! ## Texts -/

/-- `osl_textual_equal` (source/extensions/textual.c:292-296). -/
def textualEqual (_ _ : Ptr) : M Bool := pure true

/-- The comparison of `osl_comment_equal`, whose result is ignored (source/extensions/comment.c:269-274). -/
def commentNodes (p q : Ptr) : M Bool := do
  let _ ← wordsEq p q 0 0
  pure true

/-- `osl_comment_equal` (source/extensions/comment.c:259-277). -/
def commentEqual (p q : Ptr) : M Bool := eqNodes p q (commentNodes p q)

/-- `osl_clay_equal` (source/extensions/clay.c:265-280). -/
def clayEqual (p q : Ptr) : M Bool := eqNodes p q (wordsEq p q 0 0)

/-- `osl_null_equal` (source/extensions/null.c:224-234). -/
def nullEqual (p q : Ptr) : M Bool := eqNodes p q (pure true)

/-! ## Coordinates, scattering informations, extended bodies, arrays -/

/-- The comparison of the names (source/extensions/coordinates.c:307-310). -/
def coordNames (p q : Ptr) : M Bool := do
  let x ← getPtr p 0
  let y ← getPtr q 0
  strEq x y

/-- `osl_coordinates_equal` (source/extensions/coordinates.c:299-338): line_start, column_start, line_end, column_end, indent. -/
def coordEqual (p q : Ptr) : M Bool := eqNodes p q (andAlso (coordNames p q) (fieldsEq p q [0, 2, 1, 3, 4]))

/-- `p->a[i] == q->a[j]` for the array in the field number `k`. -/
def itemsEq (p q : Ptr) (k i j : Nat) : M Bool := do
  let a ← getPtr p k
  let b ← getPtr q k
  intsEq a b i j

/-- `!strcmp(p->a[i], q->a[j])` for the array in the field number `k`. -/
def namesEq (p q : Ptr) (k i j : Nat) : M Bool := do
  let a ← getPtr p k
  let b ← getPtr q k
  wordsEq a b i j

/-- One turn of the loop of `osl_scatinfos_equal` (source/extensions/scatinfos.c:364-369). -/
def scatinfosTurn (p q : Ptr) (i : Nat) : M Bool := andAlso (itemsEq p q 0 i i) (andAlso (itemsEq p q 1 i i) (itemsEq p q 2 i i))

/-- The comparison of the sizes, and the loop (source/extensions/scatinfos.c:358-372). -/
def scatinfosNodes (p q : Ptr) : M Bool := do
  let n ← getInt p 0
  let m ← getInt q 0
  if n ≠ m then pure false else allBelow (scatinfosTurn p q) n.toNat 0

/-- `osl_scatinfos_equal` (source/extensions/scatinfos.c:347-373). -/
def scatinfosEqual (p q : Ptr) : M Bool := eqNodes p q (scatinfosNodes p q)

/-- The comparison of two accesses (source/extensions/extbody.c:335). -/
def accessEq (p q : Ptr) (i j : Nat) : M Bool := andAlso (itemsEq p q 0 i j) (itemsEq p q 1 i j)

/-- The comparison of the bodies (source/extensions/extbody.c:346). -/
def extbodyBodies (p q : Ptr) : M Bool := do
  let a ← getPtr p 2
  let b ← getPtr q 2
  bodyEqual a b

/-- The comparison of the sizes, the loops, and the bodies (source/extensions/extbody.c:325-346). -/
def extbodyNodes (p q : Ptr) : M Bool := do
  let n ← getInt p 0
  let m ← getInt q 0
  if n ≠ m then pure false
  else andAlso (allBelow (fun i => anyBelow (accessEq p q i) m.toNat 0) n.toNat 0) (extbodyBodies p q)

/-- `osl_extbody_equal` (source/extensions/extbody.c:312-347). -/
def extbodyEqual (p q : Ptr) : M Bool := eqNodes p q (extbodyNodes p q)

/-- The comparison of two arrays (source/extensions/arrays.c:325). -/
def arrayEq (p q : Ptr) (i j : Nat) : M Bool := andAlso (itemsEq p q 0 i j) (namesEq p q 1 i j)

/-- The comparison of the sizes, and the loops (source/extensions/arrays.c:315-336). -/
def arraysNodes (p q : Ptr) : M Bool := do
  let n ← getInt p 0
  let m ← getInt q 0
  if n ≠ m then pure false else allBelow (fun i => anyBelow (arrayEq p q i) m.toNat 0) n.toNat 0

/-- `osl_arrays_equal` (source/extensions/arrays.c:302-337). -/
def arraysEqual (p q : Ptr) : M Bool := eqNodes p q (arraysNodes p q)

/-! ## Annotations and regions -/

/-- One turn of the loop (source/extensions/annotation.c:159-161, region.c:157-159). -/
def textTurn (t u : TextRec) (i : Nat) : M Bool := andAlso (intsEq t.types u.types i i) (wordsEq t.lines u.lines i i)

/-- `osl_annotation_text_equal` (source/extensions/annotation.c:148-165), `osl_region_text_equal` (source/extensions/region.c:146-163), on the texts of two different
structures. -/
def textEqual (t u : TextRec) : M Bool := if t.count ≠ u.count then pure false else allBelow (textTurn t u) t.count.toNat 0

/-- The comparison of the texts number `k` of two structures. -/
def textsEqual (p q : Ptr) (k : Nat) : M Bool := do
  let t ← getText p k
  let u ← getText q k
  textEqual t u

/-- `osl_annotation_equal` (source/extensions/annotation.c:312-325). -/
def annEqual (p q : Ptr) : M Bool := eqNodes p q (andAlso (textsEqual p q 0) (textsEqual p q 1))

/-- `osl_region_equal_one` (source/extensions/region.c:414-429). -/
def regionEqualOne (p q : Ptr) : M Bool :=
  eqNodes p q (andAlso (intsEq p q 4 4) (andAlso (textsEqual p q 0) (andAlso (textsEqual p q 1) (andAlso (textsEqual p q 2) (textsEqual p q 3)))))

/-- `osl_region_equal` (source/extensions/region.c:431-438): two NULL pointers are equal for `osl_region_equal_one`, and are then dereferenced. -/
def regionEqualLoop : Nat → Ptr → Ptr → M Bool
  | 0, _, _ => undef
  | f + 1, p, q => do
    let e ← regionEqualOne p q
    if e then do
      let n ← regionNext.get p
      let o ← regionNext.get q
      regionEqualLoop f n o
    else pure false

/-- `osl_region_equal` (source/extensions/region.c:431-438). -/
def regionEqual (p q : Ptr) : M Bool := do
  let f ← heapSize
  regionEqualLoop (f + 1) p q

/-! ## Loops -/

/-- `(a == b) || !strcmp(a, b)` for the field number `k` (source/extensions/loop.c:489-494, 502-506). -/
def loopStr (p q : Ptr) (k : Nat) : M Bool := do
  let a ← getPtr p k
  let b ← getPtr q k
  if a ≠ b then strEq a b else pure true

/-- The comparison of the iterators (source/extensions/loop.c:468). -/
def loopIters (p q : Ptr) : M Bool := do
  let a ← getPtr p 0
  let b ← getPtr q 0
  strEq a b

/-- The comparison of two loops (source/extensions/loop.c:463-508). -/
def loopOneNodes (p q : Ptr) : M Bool := do
  let n ← getInt p 0
  let m ← getInt q 0
  if n ≠ m then pure false
  else andAlso (loopIters p q) (andAlso (allBelow (fun i => anyBelow (itemsEq p q 1 i) m.toNat 0) n.toNat 0)
    (andAlso (loopStr p q 2) (andAlso (intsEq p q 1 1) (loopStr p q 3))))

/-- `osl_loop_equal_one` (source/extensions/loop.c:450-509). -/
def loopEqualOne (p q : Ptr) : M Bool := eqNodes p q (loopOneNodes p q)

/-- One turn of the inner loop of `osl_loop_equal` (source/extensions/loop.c:543-547). -/
def loopMeet (x y : Ptr) (_ : Unit) : M (Unit ⊕ Bool) := do
  let e ← loopEqualOne x y
  if e then pure (.inr true) else pure (.inl ())

/-- One turn of the outer loop of `osl_loop_equal` (source/extensions/loop.c:539-554). -/
def loopTurn (q x : Ptr) (_ : Unit) : M (Unit ⊕ Bool) := do
  let e ← chase loopNext (loopMeet x) (fun _ => false) q ()
  if e then pure (.inl ()) else pure (.inr false)

/-- The comparison of the lengths, and the loops (source/extensions/loop.c:533-557). -/
def loopNodes (p q : Ptr) : M Bool := do
  let n ← countAll loopNext p
  let m ← countAll loopNext q
  if n ≠ m then pure false else chase loopNext (loopTurn q) (fun _ => true) p ()

/-- `osl_loop_equal` (source/extensions/loop.c:522-558). -/
def loopEqual (p q : Ptr) : M Bool := eqNodes p q (loopNodes p q)

/-! ## Unrollings -/

/-- The comparison of the iterators (source/extensions/pluto_unroll.c:379-389). -/
def unrollIters (p q : Ptr) : M Bool := do
  let a ← getPtr p 0
  let b ← getPtr q 0
  if a = 0 ∧ b ≠ 0 then pure false
  else if a ≠ 0 ∧ b = 0 then pure false
  else if a ≠ 0 then strEq a b
  else pure true

/-- The comparison of two nodes (source/extensions/pluto_unroll.c:378-397). -/
def unrollEqualOne (p q : Ptr) : M Bool := andAlso (unrollIters p q) (fieldsEq p q [0, 1])

/-- `osl_pluto_unroll_equal` (source/extensions/pluto_unroll.c:363-412): the tests of the pointers before the loop (lines 365-375) and at the end of a turn
(lines 399-409) are the same, here at the beginning of a turn. -/
def unrollEqual (p q : Ptr) : M Bool := sharedAll unrollNext unrollEqualOne p q

/-! ## Dependences -/

/-- The comparison of the domains (source/extensions/dependence.c:589-590). -/
def depDomains (c : Cfg) (p q : Ptr) : M Bool := do
  let a ← getPtr p 0
  let b ← getPtr q 0
  relEqual c a b

/-- The comparison of two dependences (source/extensions/dependence.c:589-614). -/
def depEqualOne (c : Cfg) (p q : Ptr) : M Bool := andAlso (depDomains c p q) (fieldsEq p q [0, 1, 2, 3, 4, 5, 6, 7, 8, 9, 10, 11, 12, 13])

/-- `osl_dependence_equal` (source/extensions/dependence.c:576-615), a recursive function. -/
def depEqualLoop (c : Cfg) : Nat → Ptr → Ptr → M Bool
  | 0, p, q => if p = q then pure true else undef
  | f + 1, p, q =>
    if p = q then pure true
    else do
      let n ← depNext.get p
      let o ← depNext.get q
      if (n ≠ 0 ∧ o = 0) ∨ (n = 0 ∧ o ≠ 0) then pure false
      else if n ≠ 0 ∧ o ≠ 0 then andAlso (depEqualLoop c f n o) (depEqualOne c p q)
      else depEqualOne c p q

/-- `osl_dependence_equal` (source/extensions/dependence.c:576-615). -/
def depEqual (c : Cfg) (p q : Ptr) : M Bool := do
  let f ← heapSize
  depEqualLoop c f p q

/-! ## Symbols -/

/-- The comparison of two lists of generics (source/extensions/symbols.c:511-514). -/
def symFieldEqual (eqf : Nat → Ptr → Ptr → M Bool) (p q : Ptr) (k : Nat) : M Bool := do
  let a ← getPtr p k
  let b ← getPtr q k
  genEqual eqf a b

/-- `osl_symbols_equal` (source/extensions/symbols.c:502-523): the symbols after the first ones are not looked at. -/
def symEqual (eqf : Nat → Ptr → Ptr → M Bool) (p q : Ptr) : M Bool :=
  eqNodes p q (andAlso (fieldsEq p q [0, 1, 2]) (andAlso (symFieldEqual eqf p q 0) (andAlso (symFieldEqual eqf p q 1)
    (andAlso (symFieldEqual eqf p q 2) (symFieldEqual eqf p q 3)))))

/-! ## The functions of the default registry -/

/-- The functions `equal` of the interfaces, in the order of `osl_interface_get_default_registry` (source/interface.c:366-393). -/
def extEqual (c : Cfg) (sym : Ptr → Ptr → M Bool) : List (Ptr → Ptr → M Bool) :=
  [stringsEqual, bodyEqual, relEqual c, textualEqual, commentEqual, nullEqual, scatinfosEqual, scatnamesEqual, arraysEqual, coordEqual, clayEqual, depEqual c, sym,
    extbodyEqual, loopEqual, unrollEqual, regionEqual, annEqual]

/-- A call of the function `equal` of the `k`th interface (source/generic.c:607). -/
def extEqualFn (c : Cfg) (sym : Ptr → Ptr → M Bool) (k : Nat) (p q : Ptr) : M Bool :=
  match (extEqual c sym)[k]? with
  | some f => f p q
  | none => undef

/-- No symbols: never called. -/
def noSymEqual (_ _ : Ptr) : M Bool := undef

/-- The functions `equal` (source/interface.c:366-393) on data with symbols nested at most `n` times. -/
def equalAt (c : Cfg) : Nat → Nat → Ptr → Ptr → M Bool
  | 0 => extEqualFn c noSymEqual
  | n + 1 => extEqualFn c (symEqual (equalAt c n))

end Osl.Mem
