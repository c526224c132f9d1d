import Verif.HeapRead
import Verif.HeapRelation
import Verif.RelationText
/-!
# The readers in memory: relations (source/relation.c)

The text and the local arrays of characters (`s`, `str`) are values, as in `RelationText.lean`; what is allocated, filled, linked and freed is
in memory.
-/

namespace Osl.Mem

open Osl.Rel (RState Header)

/-- The test of the first string in `osl_relation_read_type` (source/relation.c:1277-1316). -/
def relTypeOf (strings : Ptr) : M Int := do
  let n ← strSize strings
  if n = 0 then fail
  else do
    let arr ← getField strings 0
    let w ← getField arr 0
    let s ← loadChars w
    lift (Rel.typeOfWord s)

/-- `osl_relation_read_type` (source/relation.c:1264-1323) on a string: the strings are freed. -/
def relReadType [Allocator] (input : Str) : M (Int × Option Str) := do
  let s ← strSread input
  let t ← relTypeOf s.1
  strFree s.1
  pure (t, s.2)

/-- `osl_relation_read_type` (source/relation.c:1264-1323) on a file: the strings are freed. -/
def relFReadType [Allocator] (file : Str) : M (Int × Str) := do
  let s ← strRead file
  let t ← relTypeOf s.1
  strFree s.1
  pure (t, s.2)

/-- What `osl_int_sread` (source/int.c:718-721) does once the value is read: `m[i][j]` receives it; with GMP it is written in the
number which `m[i][j]` points to. -/
def setCell (k : Option Kind) (m : Ptr) (i j v : Int) : M Unit :=
  match k with
  | none => fail
  | some (.fixed _) => writeCell m i j (.val v)
  | some .mp => do
    let x ← readCell m i j
    let d ← lift (asMp x)
    let b ← load d
    let _ ← lift (asMpz b)
    store d (.mpz v)

/-- The loop on the columns (source/relation.c:1390-1401, 1510-1521), from the column `j` on. -/
def readCells (c : Cfg) (p : Int) (m : Ptr) (i : Int) : Nat → Int → RState → M RState
  | 0, _, s => pure s
  | n + 1, j, s => do
    let r ← lift (Rel.readVal c p s)
    setCell (kind c p) m i j r.1
    readCells c p m i n (j + 1) r.2

/-- The loop on the rows, from a string (source/relation.c:1505-1522), from the row `i` on. -/
def readRowsS (c : Cfg) (p : Int) (m : Ptr) (ncols : Nat) : Nat → Int → RState → M RState
  | 0, _, s => pure s
  | n + 1, i, s => do
    let input ← lift (position s.pos)
    let s ← readCells c p m i ncols 0 { s with pos := some (Util.sskip input) }
    readRowsS c p m ncols n (i + 1) s

/-- The loop on the rows, from a file (source/relation.c:1385-1402), from the row `i` on. -/
def readRowsF (c : Cfg) (p : Int) (m : Ptr) (ncols : Nat) : Nat → Int → Option (Str × Nat) × Str → M (Option (Str × Nat) × Str)
  | 0, _, s => pure s
  | n + 1, i, s =>
    match (Util.fskip s.2).1 with
    | none => fail
    | some line => do
      let t ← readCells c p m i ncols 0 { pos := some line, last := s.1 }
      readRowsF c p m ncols n (i + 1) (t.last, (Util.fskip s.2).2)

/-- The allocation of a part and the assignment of its attributes (source/relation.c:1377-1382, 1498-1502): the part and its matrix.  From a string the type
is left undefined. -/
def relNewPart [Allocator] (c : Cfg) (p type : Int) (h : Header) : M (Ptr × Ptr) := do
  let q ← pmalloc c p h.nb_rows h.nb_columns
  let r ← loadRel q
  store q (.rel { r.1 with type := type, nb_output_dims := h.nb_output_dims, nb_input_dims := h.nb_input_dims, nb_local_dims := h.nb_local_dims, nb_parameters := h.nb_parameters } r.2.1 r.2.2)
  pure (q, r.2.1)

/-- One part read from a string (source/relation.c:1498-1522). -/
def relReadBody [Allocator] (c : Cfg) (p : Int) (h : Header) (s : RState) : M (Ptr × RState) := do
  let q ← relNewPart c p UNDEFINED h
  let s ← readRowsS c p q.2 h.nb_columns.toNat h.nb_rows.toNat 0 s
  pure (q.1, s)

/-- One part read from a file (source/relation.c:1377-1402). -/
def relFReadBody [Allocator] (c : Cfg) (p type : Int) (h : Header) (s : Option (Str × Nat) × Str) : M (Ptr × Option (Str × Nat) × Str) := do
  let q ← relNewPart c p type h
  let s ← readRowsF c p q.2 h.nb_columns.toNat h.nb_rows.toNat 0 s
  pure (q.1, s)

/-- A header, not a number of parts (source/relation.c:1363-1365, 1484-1486). -/
def asHeader : Rel.FirstLine → Out Header
  | .count _ => .err
  | .header h => .ok h

/-- One part after the number of parts, from a string (source/relation.c:1459-1522). -/
def relReadPart [Allocator] (c : Cfg) (p : Int) (s : RState) : M (Ptr × RState) := do
  let l ← lift (Rel.sLineAt s)
  let h ← lift (asHeader l.1)
  relReadBody c p h l.2

/-- One part after the number of parts, from a file (source/relation.c:1348-1402). -/
def relFReadPart [Allocator] (c : Cfg) (p type : Int) (s : Option (Str × Nat) × Str) : M (Ptr × Option (Str × Nat) × Str) := do
  let l ← lift (Rel.fLine s.2)
  let h ← lift (asHeader l.1)
  relFReadBody c p type h (s.1, l.2)

/-- A list of `n` structures read one after the other and linked (source/relation.c:1404-1412, 1524-1532). -/
def readCount {σ : Type} (N : Next) (one : σ → M (Ptr × σ)) : Nat → Ptr → Ptr → σ → M (Ptr × σ)
  | 0, head, _, s => pure (head, s)
  | n + 1, head, previous, s => do
    let r ← one s
    let head ← linkNode N head previous r.1
    readCount N one n head r.1 r.2

/-- `osl_relation_psread_polylib` (source/relation.c:1447-1536) after its first line. -/
def relReadParts [Allocator] (c : Cfg) (p : Int) (l : Rel.FirstLine) (s : RState) : M (Ptr × RState) :=
  match l with
  | .count n => if n < 1 then fail else readCount relNext (relReadPart c p) n.toNat 0 0 s
  | .header h => relReadBody c p h s

/-- `osl_relation_psread_polylib` (source/relation.c:1447-1536). -/
def relPsreadPolylib [Allocator] (c : Cfg) (p : Int) (input : Option Str) : M (Ptr × Option Str) := do
  let l ← lift (Rel.sLineAt { pos := input, last := none })
  let r ← relReadParts c p l.1 l.2
  pure (r.1, r.2.pos)

/-- `osl_relation_psread` (source/relation.c:1425-1434). -/
def relPsread [Allocator] (c : Cfg) (p : Int) (input : Str) : M (Ptr × Option Str) := do
  let t ← relReadType input
  let r ← relPsreadPolylib c p t.2
  let h ← loadRel r.1
  store r.1 (.rel { h.1 with type := t.1 } h.2.1 h.2.2)
  pure r

/-- `osl_relation_pread` (source/relation.c:1333-1416) after its first line. -/
def relFReadParts [Allocator] (c : Cfg) (p type : Int) (l : Rel.FirstLine) (file : Str) : M (Ptr × Option (Str × Nat) × Str) :=
  match l with
  | .count n => if n < 1 then fail else readCount relNext (relFReadPart c p type) n.toNat 0 0 (none, file)
  | .header h => relFReadBody c p type h (none, file)

/-- `osl_relation_pread` (source/relation.c:1333-1416). -/
def relPread [Allocator] (c : Cfg) (p : Int) (file : Str) : M (Ptr × Str) := do
  let t ← relFReadType file
  let l ← lift (Rel.fLine t.2)
  let r ← relFReadParts c p t.1 l.1 l.2
  pure (r.1, r.2.2)

end Osl.Mem
