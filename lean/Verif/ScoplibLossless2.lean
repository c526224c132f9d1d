import Verif.ScoplibLossless
/-!
# Accesses recovered from a SCoPLib text (C67)
-/

namespace Osl
namespace Rel

open Scops (NegIdentity)

/-- An access to an array with at least one index, in the usual form (specification): the first row fixes the array, the others are the indices, the output columns are
the opposite of the identity. -/
structure ArrayAccess (c : Cfg) (p : Part) : Prop where
  valid : p.Valid c
  dims : p.Dims
  rows : 2 ≤ p.nb_rows
  outputs : p.nb_output_dims = p.nb_rows
  array : ∃ id, id ≠ 0 ∧ p.m.head? = some ((0 :: -1 :: List.replicate (p.nb_columns.toNat - 3) 0) ++ [id])
  equalities : ∀ row ∈ p.m, row.headD 0 = 0
  identity : NegIdentity p

/-- The rows written for such an access: the first one begins with the array, the others with zero. -/
theorem accessTable_array {c : Cfg} {p : Part} (h : ArrayAccess c p) : ∃ id row row' rows, id ≠ 0 ∧ p.m = row :: row' :: rows ∧ constantOf row = id ∧
    row = (0 :: -1 :: List.replicate (p.nb_columns.toNat - 3) 0) ++ [id] ∧
    accessTable p false = (id :: row'.drop (1 + p.nb_output_dims.toNat)) :: rows.map (fun r => 0 :: r.drop (1 + p.nb_output_dims.toNat)) := by
  obtain ⟨id, hid, ha⟩ := h.array
  have hr := h.valid.rows
  have h2 := h.rows
  match hm : p.m with
  | [] => rw [hm] at hr; simp at hr; omega
  | [_] => rw [hm] at hr; simp at hr; omega
  | row :: row' :: rows =>
    rw [hm] at ha
    simp only [List.head?_cons, Option.some.injEq] at ha
    have hc : constantOf row = id := by rw [ha]; unfold constantOf; rw [List.getLastD_eq_getLast?, List.getLast?_concat]; rfl
    refine ⟨id, row, row', rows, hid, rfl, hc, ha, ?_⟩
    unfold accessTable
    rw [hm]
    simp only [otherRow_eq, hc]
    congr 1
    exact List.map_congr_left fun r _ => otherRow_eq p 0 r

/-- Two such accesses followed by rows beginning with an array: they have the same rows. -/
theorem accessTable_split {c : Cfg} {p q : Part} (hp : ArrayAccess c p) (hq : ArrayAccess c q) {rest rest' : List (List Int)}
    (hrest : ∀ row, rest.head? = some row → row.headD 0 ≠ 0) (hrest' : ∀ row, rest'.head? = some row → row.headD 0 ≠ 0)
    (e : accessTable p false ++ rest = accessTable q false ++ rest') : accessTable p false = accessTable q false ∧ rest = rest' := by
  obtain ⟨id, row, row', rows, _, hm, _, _, e1⟩ := accessTable_array hp
  obtain ⟨id2, row2, row2', rows2, _, hm2, _, _, e2⟩ := accessTable_array hq
  rw [e1, e2] at e ⊢
  rw [List.cons_append, List.cons_append] at e
  injection e with e3 e4
  have key : ∀ (a : List (List Int)) (o : Nat) (rest : List (List Int)), (∀ row, rest.head? = some row → row.headD 0 ≠ 0) →
      (a.map (fun r => 0 :: r.drop o) ++ rest).takeWhile (fun r => decide (r.headD 0 = 0)) = a.map (fun r => 0 :: r.drop o) := by
    intro a o rest hr
    exact (takeWhile_append_stop (by intro x hx; obtain ⟨y, _, rfl⟩ := List.mem_map.mp hx; simp) (by intro x hx; simpa using hr x hx)).1
  have e5 := congrArg (List.takeWhile (fun r : List Int => decide (r.headD 0 = 0))) e4
  rw [key _ _ _ hrest, key _ _ _ hrest'] at e5
  refine ⟨by rw [e3, e5], ?_⟩
  rw [e5] at e4
  exact List.append_cancel_left e4

/-- C67: the table of such an access determines its matrix, when the number of columns besides the output ones is the same. -/
theorem accessTable_inj {c : Cfg} {p q : Part} (hp : ArrayAccess c p) (hq : ArrayAccess c q) (hk : p.nb_columns - p.nb_output_dims = q.nb_columns - q.nb_output_dims)
    (e : accessTable p false = accessTable q false) : p.m = q.m := by
  obtain ⟨id, row, row', rows, _, hm, _, hrow, e1⟩ := accessTable_array hp
  obtain ⟨id2, row2, row2', rows2, _, hm2, _, hrow2, e2⟩ := accessTable_array hq
  rw [e1, e2] at e
  injection e with e3 e4
  injection e3 with e3 e5
  have hlen : rows.length = rows2.length := by simpa using congrArg List.length e4
  have ho : p.nb_output_dims = q.nb_output_dims := by
    rw [hp.outputs, hq.outputs, ← hp.valid.rows, ← hq.valid.rows, hm, hm2]
    simp [hlen]
  have hc : p.nb_columns = q.nb_columns := by omega
  have hml : p.m.length = q.m.length := by rw [hm, hm2]; simp [hlen]
  have wide : ∀ {p : Part}, ArrayAccess c p → ∀ (i : Nat) (hi : i < p.m.length), 1 + p.nb_output_dims.toNat ≤ p.m[i].length := by
    intro p hp i hi
    have h1 := hp.valid.cols p.m[i] (List.getElem_mem hi)
    have h2 := hp.dims
    unfold Part.Dims at h2
    omega
  apply List.ext_getElem hml
  intro i hi hi'
  rw [row_recovered hp.identity hi (wide hp i hi), row_recovered hq.identity hi' (wide hq i hi'), hp.equalities _ (List.getElem_mem hi), hq.equalities _ (List.getElem_mem hi'), ho]
  congr 2
  have e6 : (row.drop (1 + q.nb_output_dims.toNat)) = (row2.drop (1 + q.nb_output_dims.toNat)) := by rw [hrow, hrow2, e3, hc]
  rw [ho] at e5
  have e7 : p.m.map (List.drop (1 + q.nb_output_dims.toNat)) = q.m.map (List.drop (1 + q.nb_output_dims.toNat)) := by
    rw [hm, hm2]
    simp only [List.map_cons]
    rw [e6, e5]
    congr 2
    rw [ho] at e4
    have := congrArg (List.map List.tail) e4
    simpa [List.map_map, Function.comp_def] using this
  have := congrArg (fun l => l[i]?) e7
  simpa [List.getElem?_map, List.getElem?_eq_getElem hi, List.getElem?_eq_getElem hi'] using this

end Rel

namespace RList

open Rel (ArrayAccess accessTable)

/-- All the accesses of type `type` are to arrays, in the usual form, with `k` columns besides the output ones. -/
def ArrayAccesses (c : Cfg) (type k : Int) (l : RList) : Prop := ∀ r ∈ l, ofType type r = true → ∃ p, r = [p] ∧ ArrayAccess c p ∧ p.nb_columns - p.nb_output_dims = k

theorem accessesTable_head {c : Cfg} {type k : Int} (ht : Rel.isAccessArray type = true) : ∀ {l : RList}, ArrayAccesses c type k l →
    ∀ row, (accessesTable false type l).head? = some row → row.headD 0 ≠ 0
  | [], _, row, h => by simp [accessesTable] at h
  | r :: l, hl, row, h => by
    by_cases hr : ofType type r = true
    · obtain ⟨p, rfl, hp, _⟩ := hl r (by simp) hr
      have hpt : p.type = type := by simpa [ofType] using hr
      obtain ⟨id, _, row', rows, hid, _, _, _, e⟩ := Rel.accessTable_array hp
      simp only [accessesTable, hr, List.filter_cons_of_pos, List.map_cons, List.flatten_cons, relTable_access ht hpt, e] at h
      simp only [List.cons_append, List.head?_cons, Option.some.injEq] at h
      rw [← h]
      exact hid
    · exact accessesTable_head ht (l := l) (fun r hr => hl r (by simp [hr])) row (by simpa [accessesTable, hr] using h)

/-- C67: the accesses of a type can be recovered from their table. -/
theorem accessesTable_inj {c : Cfg} {type k : Int} (ht : Rel.isAccessArray type = true) : ∀ {l l' : RList}, (∀ r ∈ l, ofType type r = true) → (∀ r ∈ l', ofType type r = true) →
    ArrayAccesses c type k l → ArrayAccesses c type k l' → accessesTable false type l = accessesTable false type l' → l.map (List.map (·.m)) = l'.map (List.map (·.m))
  | [], [], _, _, _, _, _ => rfl
  | [], r :: l', _, h', _, hl', e => by
    exfalso
    obtain ⟨p, rfl, hp, _⟩ := hl' r (by simp) (h' r (by simp))
    have hpt : p.type = type := by simpa [ofType] using h' [p] (by simp)
    obtain ⟨id, _, row', rows, hid, _, _, _, e'⟩ := Rel.accessTable_array hp
    simp [accessesTable, h' [p] (by simp), relTable_access ht hpt, e'] at e
  | r :: l, [], h, _, hl, _, e => by
    exfalso
    obtain ⟨p, rfl, hp, _⟩ := hl r (by simp) (h r (by simp))
    have hpt : p.type = type := by simpa [ofType] using h [p] (by simp)
    obtain ⟨id, _, row', rows, hid, _, _, _, e'⟩ := Rel.accessTable_array hp
    simp [accessesTable, h [p] (by simp), relTable_access ht hpt, e'] at e
  | r :: l, r' :: l', h, h', hl, hl', e => by
    obtain ⟨p, rfl, hp, hk⟩ := hl r (by simp) (h r (by simp))
    obtain ⟨q, rfl, hq, hk'⟩ := hl' r' (by simp) (h' r' (by simp))
    have hpt : p.type = type := by simpa [ofType] using h [p] (by simp)
    have hqt : q.type = type := by simpa [ofType] using h' [q] (by simp)
    have split : ∀ {p : Part} (l : RList), p.type = type → accessesTable false type ([p] :: l) = accessTable p false ++ accessesTable false type l := by
      intro p l hpt
      simp [accessesTable, ofType, hpt, relTable_access ht hpt]
    rw [split l hpt, split l' hqt] at e
    have hal : ArrayAccesses c type k l := fun r hr => hl r (by simp [hr])
    have hal' : ArrayAccesses c type k l' := fun r hr => hl' r (by simp [hr])
    obtain ⟨e1, e2⟩ := Rel.accessTable_split hp hq (accessesTable_head ht hal) (accessesTable_head ht hal') e
    have hm := Rel.accessTable_inj hp hq (by omega) e1
    have ih := accessesTable_inj ht (fun r hr => h r (by simp [hr])) (fun r hr => h' r (by simp [hr])) hal hal' e2
    simp only [List.map_cons, List.map_nil]
    rw [hm, ih]

end RList
end Osl
