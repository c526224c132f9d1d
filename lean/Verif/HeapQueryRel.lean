import Verif.HeapVecRel
import Verif.Relation
/-!
# Read-only functions on relations in memory (source/relation.c)

`osl_relation_is_access`, `osl_relation_get_array_id`, `osl_relation_get_attributes`, `osl_relation_integrity_check`, `osl_relation_part_equal` and
`osl_relation_equal` on the memory of `Verif/Heap.lean`.

Simplifications: the warnings and the dumps to stderr are omitted (they only read); the integer fields of a relation are read at once; the pointers to the
accumulators of `osl_relation_get_attributes` and to the expected values of `osl_relation_check_attribute` are local variables of the callers: values here.
-/

namespace Osl.Mem

/-! ## Loops -/

/-- `n` iterations of a `for` loop from index `i` on, with a state. -/
def forNS {σ : Type} (body : Int → σ → M σ) : Nat → Int → σ → M σ
  | 0, _, s => pure s
  | n + 1, i, s => do
    let s ← body i s
    forNS body n (i + 1) s

/-- C loop `for (i = lo; i < hi; i++) body`, with a state. -/
def forS {σ : Type} (lo hi : Int) (body : Int → σ → M σ) (s : σ) : M σ := forNS body (hi - lo).toNat lo s

/-- A `while` loop on the nodes of a list which may `return`: `act` gives the next state or the result, `done` the result at the end of the list. -/
def chaseLoop {σ ρ : Type} (N : Next) (act : Ptr → σ → M (σ ⊕ ρ)) (done : σ → ρ) : Nat → Ptr → σ → M ρ
  | 0, p, s => if p = 0 then pure (done s) else undef
  | f + 1, p, s =>
    if p = 0 then pure (done s)
    else do
      let x ← act p s
      match x with
      | .inr r => pure r
      | .inl s => do
        let n ← N.get p
        chaseLoop N act done f n s

/-- A `while` loop on the nodes of a list which may `return` (for instance source/relation.c:2636-2702). -/
def chase {σ ρ : Type} (N : Next) (act : Ptr → σ → M (σ ⊕ ρ)) (done : σ → ρ) (p : Ptr) (s : σ) : M ρ := do
  let f ← heapSize
  chaseLoop N act done f p s

/-- The relation with the integer fields `h` and a matrix. -/
def hdrPart (h : Hdr) (m : Matrix) : Part := ⟨h.type, h.precision, h.nb_rows, h.nb_columns, h.nb_output_dims, h.nb_input_dims, h.nb_local_dims, h.nb_parameters, m⟩

/-! ## Array identifiers -/

/-- The test of the types (source/relation.c:2716-2719). -/
def typeIsAccess (t : Int) : Bool := decide (t = TYPE_ACCESS) || decide (t = TYPE_READ) || decide (t = TYPE_WRITE) || decide (t = TYPE_MAY_WRITE)

/-- `osl_relation_is_access` (source/relation.c:2712-2722). -/
def relIsAccess (p : Ptr) : M Bool :=
  if p = 0 then pure false
  else do
    let r ← loadRel p
    pure (typeIsAccess r.1.type)

/-- One turn of the first loop of `osl_relation_get_array_id` (source/relation.c:2652-2656). -/
def relIdRowStep (c : Cfg) (h : Hdr) (m : Ptr) (i : Int) (s : Int × Int) : M (Int × Int) := do
  let a ← mget (kind c h.precision) m i 1
  let z ← lift (OInt.zero c h.precision a)
  pure (if z then s else (s.1 + 1, i))

/-- The second loop of `osl_relation_get_array_id` (source/relation.c:2666-2671): false when it returns. -/
def relIdRowOk (c : Cfg) (h : Hdr) (m : Ptr) (row_id : Int) : Nat → Int → M Bool
  | 0, _ => pure true
  | n + 1, i =>
    if i ≠ 1 then do
      let a ← mget (kind c h.precision) m row_id i
      let z ← lift (OInt.zero c h.precision a)
      if z then relIdRowOk c h m row_id n (i + 1) else pure false
    else relIdRowOk c h m row_id n (i + 1)

/-- The identifier in the row `row_id` (source/relation.c:2672-2684): `none` when the function returns. -/
def relIdValue (c : Cfg) (h : Hdr) (m : Ptr) (row_id : Int) : M (Option Int) := do
  let last ← mget (kind c h.precision) m row_id (h.nb_columns - 1)
  let one ← mget (kind c h.precision) m row_id 1
  let d ← lift (OInt.divisible c h.precision last one)
  if d = false then pure none
  else do
    let last ← mget (kind c h.precision) m row_id (h.nb_columns - 1)
    let l ← lift (OInt.get_si c h.precision last)
    let nl ← lift (sarith c 32 (-l))
    let one ← mget (kind c h.precision) m row_id 1
    let o ← lift (OInt.get_si c h.precision one)
    let id ← lift (sdiv 32 nl o)
    pure (if id ≤ 0 then none else some id)

/-- The identifier and its row, in the rows of a part (source/relation.c:2650-2684). -/
def relIdRows (c : Cfg) (h : Hdr) (m : Ptr) (row_id : Int) : M (Option (Int × Int)) := do
  let s ← forS 0 h.nb_rows (relIdRowStep c h m) (0, row_id)
  if s.1 = 0 then pure none
  else if s.1 > 1 then pure none
  else do
    let z ← relIdRowOk c h m s.2 (h.nb_columns - 1).toNat 0
    if z = false then pure none
    else do
      let id ← relIdValue c h m s.2
      pure (id.map (fun x => (x, s.2)))

/-- The first part of a turn of the loop (source/relation.c:2637-2684). -/
def relIdPart (c : Cfg) (p : Ptr) (row_id : Int) : M (Option (Int × Int)) := do
  let r ← loadRel p
  if r.1.nb_rows < 1 ∨ r.1.nb_columns < 3 then pure none
  else relIdRows c r.1 r.2.1 row_id

/-- The variables of the loop of `osl_relation_get_array_id`: `ref` is `reference_array_id` once `first` is 0. -/
structure IdState where
  ref : Option Int
  array_id : Int
  row_id : Int

/-- The end of a turn of the loop (source/relation.c:2686-2699). -/
def idNext (s : IdState) : Option (Int × Int) → IdState ⊕ Int
  | none => .inr UNDEFINED
  | some x =>
    match s.ref with
    | none => .inl ⟨some x.1, x.1, x.2⟩
    | some k => if k ≠ x.1 then .inr UNDEFINED else .inl ⟨some k, x.1, x.2⟩

/-- One turn of the loop of `osl_relation_get_array_id` (source/relation.c:2636-2702). -/
def relIdStep (c : Cfg) (p : Ptr) (s : IdState) : M (IdState ⊕ Int) := do
  let x ← relIdPart c p s.row_id
  pure (idNext s x)

/-- `osl_relation_get_array_id` (source/relation.c:2619-2703). -/
def relArrayId (c : Cfg) (p : Ptr) : M Int :=
  if p = 0 then pure UNDEFINED
  else do
    let a ← relIsAccess p
    if a then chase relNext (relIdStep c) IdState.array_id p ⟨none, UNDEFINED, 0⟩
    else pure UNDEFINED

/-! ## Attributes -/

/-- The local attributes of a part (source/relation.c:2756-2799). -/
def relLocalAttrs (c : Cfg) (p : Ptr) : M Rel.Attrs := do
  let a ← relIsAccess p
  let r ← loadRel p
  let type := if a then TYPE_ACCESS else r.1.type
  if type = TYPE_CONTEXT then pure ⟨r.1.nb_parameters, 0, 0, r.1.nb_local_dims, 0⟩
  else if type = TYPE_DOMAIN then pure ⟨r.1.nb_parameters, r.1.nb_output_dims, 0, r.1.nb_local_dims, 0⟩
  else if type = TYPE_SCATTERING then pure ⟨r.1.nb_parameters, r.1.nb_input_dims, r.1.nb_output_dims, r.1.nb_local_dims, 0⟩
  else if type = TYPE_ACCESS then do
    let id ← relArrayId c p
    pure ⟨r.1.nb_parameters, r.1.nb_input_dims, 0, r.1.nb_local_dims, id⟩
  else pure ⟨r.1.nb_parameters, r.1.nb_input_dims, r.1.nb_output_dims, r.1.nb_local_dims, 0⟩

/-- The update of the accumulators (source/relation.c:2803-2807). -/
def attrsMax (a l : Rel.Attrs) : Rel.Attrs :=
  ⟨Rel.omax a.nb_parameters l.nb_parameters, Rel.omax a.nb_iterators l.nb_iterators, Rel.omax a.nb_scattdims l.nb_scattdims, Rel.omax a.nb_localdims l.nb_localdims,
    Rel.omax a.array_id l.array_id⟩

/-- One turn of the loop of `osl_relation_get_attributes` (source/relation.c:2755-2808). -/
def relAttrsStep (c : Cfg) (p : Ptr) (a : Rel.Attrs) : M (Rel.Attrs ⊕ Rel.Attrs) := do
  let l ← relLocalAttrs c p
  pure (.inl (attrsMax a l))

/-- `osl_relation_get_attributes` (source/relation.c:2742-2810): the new values of the accumulators. -/
def relAttributes (c : Cfg) (p : Ptr) (a : Rel.Attrs) : M Rel.Attrs := chase relNext (relAttrsStep c) id p a

/-! ## Integrity -/

/-- The check of the first column (source/relation.c:2531-2540), from row `i` on. -/
def relTagsOk (c : Cfg) (h : Hdr) (m : Ptr) : Nat → Int → M Bool
  | 0, _ => pure true
  | n + 1, i => do
    let a ← mget (kind c h.precision) m i 0
    let z ← lift (OInt.zero c h.precision a)
    if z then relTagsOk c h m n (i + 1)
    else do
      let o ← lift (OInt.one c h.precision a)
      if o then relTagsOk c h m n (i + 1) else pure false

/-- The condition on the first column (source/relation.c:2530-2542). -/
def relTags (c : Cfg) (h : Hdr) (m : Ptr) : M Bool := if h.nb_rows > 0 ∧ h.nb_columns > 0 then relTagsOk c h m h.nb_rows.toNat 0 else pure true

/-- The check of the array identifier (source/relation.c:2545-2549). -/
def relIdKnown (c : Cfg) (p : Ptr) : M Bool := do
  let a ← relIsAccess p
  if a then do
    let id ← relArrayId c p
    pure (decide (id ≠ UNDEFINED))
  else pure true

/-- One turn of the loop of `osl_relation_integrity_check` (source/relation.c:2509-2551). -/
def relIntegrityStep (c : Cfg) (eo ei ep : Int) (p : Ptr) (_ : Unit) : M (Unit ⊕ Bool) := do
  let r ← loadRel p
  if eo ≠ r.1.nb_output_dims ∨ ei ≠ r.1.nb_input_dims ∨ ep ≠ r.1.nb_parameters then pure (.inr false)
  else if Rel.check_nb_columns (hdrPart r.1 []) eo ei ep = false then pure (.inr false)
  else do
    let t ← relTags c r.1 r.2.1
    if t = false then pure (.inr false)
    else do
      let k ← relIdKnown c p
      pure (if k then .inl () else .inr false)

/-- The checks of the first part (source/relation.c:2464-2506): the expected values, or nothing when the function returns 0; `access` is the answer of
`osl_relation_is_access`. -/
def integrityHead (h : Hdr) (access : Bool) (expected_type eo ei ep : Int) : Option (Int × Int × Int) :=
  if (expected_type ≠ TYPE_ACCESS ∧ expected_type ≠ h.type) ∨ (expected_type = TYPE_ACCESS ∧ access = false) then none
  else if h.nb_output_dims = UNDEFINED ∨ h.nb_input_dims = UNDEFINED ∨ h.nb_local_dims = UNDEFINED ∨ h.nb_parameters = UNDEFINED then none
  else if h.type = TYPE_CONTEXT ∧ h.nb_output_dims ≠ 0 then none
  else if (h.type = TYPE_DOMAIN ∨ h.type = TYPE_CONTEXT) ∧ h.nb_input_dims ≠ 0 then none
  else if (Rel.check_attribute eo h.nb_output_dims).1 = false then none
  else if (Rel.check_attribute ei h.nb_input_dims).1 = false then none
  else if (Rel.check_attribute ep h.nb_parameters).1 = false then none
  else some ((Rel.check_attribute eo h.nb_output_dims).2, (Rel.check_attribute ei h.nb_input_dims).2, (Rel.check_attribute ep h.nb_parameters).2)

/-- The loop of `osl_relation_integrity_check` (source/relation.c:2509-2553), when the first part is fine. -/
def relIntegrityLoop (c : Cfg) (p : Ptr) : Option (Int × Int × Int) → M Bool
  | none => pure false
  | some e => chase relNext (relIntegrityStep c e.1 e.2.1 e.2.2) (fun _ => true) p ()

/-- `osl_relation_integrity_check` (source/relation.c:2443-2554). -/
def relIntegrity (c : Cfg) (p : Ptr) (expected_type eo ei ep : Int) : M Bool :=
  if p = 0 then pure true
  else do
    let r ← loadRel p
    let a ← relIsAccess p
    relIntegrityLoop c p (integrityHead r.1 a expected_type eo ei ep)

/-! ## Comparisons -/

/-- The inner loop of `osl_relation_part_equal` (source/relation.c:2334-2336): true when it returns. -/
def relRowNe (c : Cfg) (precision : Int) (k1 k2 : Option Kind) (m1 m2 : Ptr) (i : Int) : Nat → Int → M Bool
  | 0, _ => pure false
  | n + 1, j => do
    let a ← mget k1 m1 i j
    let b ← mget k2 m2 i j
    let d ← lift (OInt.ne c precision a b)
    if d then pure true else relRowNe c precision k1 k2 m1 m2 i n (j + 1)

/-- The outer loop of `osl_relation_part_equal` (source/relation.c:2333-2336): true when it returns. -/
def relRowsNe (c : Cfg) (precision : Int) (k1 k2 : Option Kind) (m1 m2 : Ptr) (ncols : Nat) : Nat → Int → M Bool
  | 0, _ => pure false
  | n + 1, i => do
    let d ← relRowNe c precision k1 k2 m1 m2 i ncols 0
    if d then pure true else relRowsNe c precision k1 k2 m1 m2 ncols n (i + 1)

/-- The comparisons of the fields (source/relation.c:2325-2331): true when they differ. -/
def hdrDiffer (a b : Hdr) : Bool :=
  decide (a.type ≠ b.type) || decide (a.precision ≠ b.precision) || decide (a.nb_rows ≠ b.nb_rows) || decide (a.nb_columns ≠ b.nb_columns) ||
    decide (a.nb_output_dims ≠ b.nb_output_dims) || decide (a.nb_input_dims ≠ b.nb_input_dims) || decide (a.nb_local_dims ≠ b.nb_local_dims) ||
    decide (a.nb_parameters ≠ b.nb_parameters)

/-- The comparison of two relation parts (source/relation.c:2325-2338). -/
def relPartEqualNodes (c : Cfg) (p q : Ptr) : M Bool := do
  let a ← loadRel p
  let b ← loadRel q
  if hdrDiffer a.1 b.1 then pure false
  else do
    let d ← relRowsNe c a.1.precision (kind c a.1.precision) (kind c b.1.precision) a.2.1 b.2.1 a.1.nb_columns.toNat a.1.nb_rows.toNat 0
    pure (!d)

/-- `osl_relation_part_equal` (source/relation.c:2315-2339). -/
def relPartEqual (c : Cfg) (p q : Ptr) : M Bool :=
  if p = q then pure true
  else if p = 0 ∧ q ≠ 0 ∨ p ≠ 0 ∧ q = 0 then pure false
  else relPartEqualNodes c p q

/-- A `while ((p != NULL) && (q != NULL))` loop which returns 0 when `eq` says the nodes differ, with the comparison of the lengths at the end
(for instance source/relation.c:2350-2361). -/
def equalLoop (N : Next) (eq : Ptr → Ptr → M Bool) : Nat → Ptr → Ptr → M Bool
  | 0, p, q => if p = 0 ∨ q = 0 then pure (decide (p = 0 ∧ q = 0)) else undef
  | f + 1, p, q =>
    if p = 0 ∨ q = 0 then pure (decide (p = 0 ∧ q = 0))
    else do
      let b ← eq p q
      if b then do
        let n ← N.get p
        let k ← N.get q
        equalLoop N eq f n k
      else pure false

/-- The comparison of two lists, node by node. -/
def equalAll (N : Next) (eq : Ptr → Ptr → M Bool) (p q : Ptr) : M Bool := do
  let f ← heapSize
  equalLoop N eq f p q

/-- `osl_relation_equal` (source/relation.c:2349-2362). -/
def relEqual (c : Cfg) (p q : Ptr) : M Bool := equalAll relNext (relPartEqual c) p q

end Osl.Mem
