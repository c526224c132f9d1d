import Verif.HeapVecRel
import Verif.HeapQuery
import Verif.HeapQueryExt
import Verif.HeapScop
/-!
# Updates and searches in memory (source/relation.c, source/int.c, source/strings.c, source/extensions/arrays.c, source/scop.c)

The functions which set the fields of a relation or change its precision, those which search a name or an identifier, and `osl_scop_register_extension`, on the memory of
`Verif/Heap.lean`.

Simplifications: the integer fields of a relation are read and written at once; `size_t` indices are natural numbers.
-/

namespace Osl.Mem

/-! ## Fields of relations -/

/-- Some integer fields of the relation at `p` get new values. -/
def relSetHdr (f : Hdr → Hdr) (p : Ptr) : M Unit := do
  let r ← loadRel p
  store p (.rel (f r.1) r.2.1 r.2.2)

/-- `osl_relation_set_attributes_one` (source/relation.c:2566-2575). -/
def relSetAttributesOne (p : Ptr) (o i l n : Int) : M Unit :=
  if p ≠ 0 then relSetHdr (fun h => { h with nb_output_dims := o, nb_input_dims := i, nb_local_dims := l, nb_parameters := n }) p else pure ()

/-- `osl_relation_set_attributes` (source/relation.c:2587-2595). -/
def relSetAttributes (p : Ptr) (o i l n : Int) : M Unit := eachNode relNext (fun p => relSetAttributesOne p o i l n) p

/-- `osl_relation_set_type` (source/relation.c:2604-2609). -/
def relSetType (p : Ptr) (type : Int) : M Unit := eachNode relNext (relSetHdr (fun h => { h with type := type })) p

/-! ## Precision -/

/-- `osl_int_set_precision` (source/int.c:1624-1631) of `m[i][j]`: its value is read, the integer is cleared, and initialised again. -/
def intSetPrecision [Allocator] (c : Cfg) (precision new_precision : Int) (m : Ptr) (i j : Int) : M Unit :=
  if precision ≠ new_precision then do
    let x ← mget (kind c precision) m i j
    let v ← lift (OInt.get_si c precision x)
    clearCell (kind c precision) m i j
    let y ← initSi (kind c new_precision) v
    writeCell m i j y
  else pure ()

/-- The change of one part (source/relation.c:2908-2917). -/
def relConvert [Allocator] (c : Cfg) (precision : Int) (h : Hdr) (m : Ptr) (p : Ptr) : M Unit := do
  forM 0 h.nb_rows (fun i => forM 0 h.nb_columns (fun j => intSetPrecision c h.precision precision m i j))
  relSetHdr (fun h => { h with precision := precision }) p

/-- One turn of the loop on the parts (source/relation.c:2908-2917). -/
def relSetPrecisionOne [Allocator] (c : Cfg) (precision : Int) (p : Ptr) : M Unit := do
  let r ← loadRel p
  if precision ≠ r.1.precision then relConvert c precision r.1 r.2.1 p else pure ()

/-- `osl_relation_set_precision` (source/relation.c:2906-2920). -/
def relSetPrecision [Allocator] (c : Cfg) (precision : Int) (p : Ptr) : M Unit := eachNode relNext (relSetPrecisionOne c precision) p

/-- The precision both relations get (source/relation.c:2931-2939), if any. -/
def samePrecision (a b : Int) : Option Int :=
  if a ≠ b then
    if a = PREC_MP ∨ b = PREC_MP then some PREC_MP
    else if a = PREC_DP ∨ b = PREC_DP then some PREC_DP
    else none
  else none

/-- Two calls of `osl_relation_set_precision` (source/relation.c:2933-2934, 2937-2938). -/
def relSetBoth [Allocator] (c : Cfg) (p q : Ptr) : Option Int → M Unit
  | some precision => do
    relSetPrecision c precision p
    relSetPrecision c precision q
  | none => pure ()

/-- `osl_relation_set_same_precision` (source/relation.c:2929-2941). -/
def relSetSamePrecision [Allocator] (c : Cfg) (p q : Ptr) : M Unit :=
  if p ≠ 0 ∧ q ≠ 0 then do
    let a ← loadRel p
    let b ← loadRel q
    relSetBoth c p q (samePrecision a.1.precision b.1.precision)
  else pure ()

/-! ## Searches -/

/-- `!strcmp(strings->string[i], string)` (source/strings.c:344). -/
def strFindAt (p string : Ptr) (i : Nat) : M Bool := do
  let a ← getField p 0
  let w ← getField a i
  strEq w string

/-- The loop of `osl_strings_find` (source/strings.c:343-348): the size is computed at each turn. -/
def strFindLoop (p string : Ptr) : Nat → Nat → M Nat
  | 0, _ => undef
  | f + 1, i => do
    let n ← strSize p
    if i < n then do
      let b ← strFindAt p string i
      if b then pure i else strFindLoop p string f (i + 1)
    else pure i

/-- `osl_strings_find` (source/strings.c:340-349). -/
def strFind (p string : Ptr) : M Nat := do
  let n ← strSize p
  strFindLoop p string (n + 1) 0

/-- The loops `for (i = 0; i < n; i++) if (t(i)) break;`: the last value of `i`. -/
def firstBelow (t : Nat → M Bool) : Nat → Nat → M Nat
  | 0, i => pure i
  | n + 1, i => do
    let b ← t i
    if b then pure i else firstBelow t n (i + 1)

/-- `arrays->id[i] == id` (source/extensions/arrays.c:411). -/
def arrHasId (p : Ptr) (id : Int) (i : Nat) : M Bool := do
  let a ← getPtr p 0
  let v ← getInt a i
  pure (decide (v = id))

/-- `!strcmp(arrays->names[i], name)` (source/extensions/arrays.c:434). -/
def arrHasName (p name : Ptr) (i : Nat) : M Bool := do
  let a ← getPtr p 1
  let w ← getField a i
  strEq w name

/-- `osl_arrays_get_index_from_id` (source/extensions/arrays.c:404-416). -/
def arrIndexFromId (p : Ptr) (id : Int) : M Nat :=
  if p = 0 then pure 0
  else do
    let n ← getInt p 0
    firstBelow (arrHasId p id) n.toNat 0

/-- `osl_arrays_get_index_from_name` (source/extensions/arrays.c:426-440). -/
def arrIndexFromName (p name : Ptr) : M Nat :=
  if p = 0 ∨ name = 0 then pure 0
  else do
    let n ← getInt p 0
    firstBelow (arrHasName p name) n.toNat 0

/-! ## Registration of extensions -/

/-- `osl_scop_register_extension` (source/scop.c:879-893): when data is found under the URI, it is used as a generic (line 888), which it is not: undefined. -/
def scopRegister (p interface : Ptr) : M Unit :=
  if interface ≠ 0 ∧ p ≠ 0 then do
    let r ← getPtr p 4
    let registry ← ifaceAdd r interface
    setPtr p 4 registry
    let e ← getPtr p 5
    let i ← loadIface interface
    let q ← genLookup e i.uri
    if q ≠ 0 then undef else pure ()
  else pure ()

end Osl.Mem
