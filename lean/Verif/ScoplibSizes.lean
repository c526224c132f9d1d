import Verif.ScoplibProps
/-!
# The sizes announced in a SCoPLib text (C64, C65)
-/

namespace Osl
namespace Rel

/-- A matrix (specification): its numbers of rows and columns, and as many rows of as many entries. -/
def IsMatrix (t : List (List Int)) : Prop := ∃ n k rows, t = [n, k] :: rows ∧ (rows.length : Int) = n ∧ ∀ row ∈ rows, (row.length : Int) = k

theorem isMatrix_iff {n k : Int} {rows : List (List Int)} : IsMatrix ([n, k] :: rows) ↔ (rows.length : Int) = n ∧ ∀ row ∈ rows, (row.length : Int) = k := by
  constructor
  · rintro ⟨n', k', rows', e, h1, h2⟩
    injection e with e1 e2
    injection e1 with e1 e3
    injection e3 with e3 _
    subst e1 e2 e3
    exact ⟨h1, h2⟩
  · rintro ⟨h1, h2⟩
    exact ⟨n, k, rows, rfl, h1, h2⟩

theorem domainRow_length {p : Part} (hd : p.Dims) {row : List Int} (h : (row.length : Int) = p.nb_columns) : ((domainRow p row).length : Int) = p.nb_columns - p.nb_input_dims := by
  unfold Part.Dims at hd
  unfold domainRow
  simp only [List.length_append, List.length_take, List.length_drop]
  omega

theorem otherRow_length {p : Part} (hd : p.Dims) (fake : Bool) (first : Int) {row : List Int} (h : (row.length : Int) = p.nb_columns) :
    ((otherRow p fake first row).length : Int) = p.nb_columns - p.nb_output_dims + if fake then 1 else 0 := by
  unfold Part.Dims at hd
  unfold otherRow
  simp only [List.length_append, List.length_take, List.length_drop, List.length_cons]
  cases fake <;> simp <;> omega

/-- C64: without fake iterator, the size announced for a matrix is that of the rows which follow. -/
theorem scoplib_size_correct {c : Cfg} {p : Part} (hv : p.Valid c) (hd : p.Dims) : IsMatrix (partTable p false) := by
  unfold partTable
  simp only [Bool.false_eq_true, if_false]
  split
  · rw [isMatrix_iff]
    refine ⟨by rw [List.length_map]; exact hv.rows, ?_⟩
    intro row hrow
    obtain ⟨r, hr, rfl⟩ := List.mem_map.mp hrow
    exact domainRow_length hd (hv.cols r hr)
  · rw [isMatrix_iff]
    refine ⟨by rw [List.length_map]; exact hv.rows, ?_⟩
    intro row hrow
    obtain ⟨r, hr, rfl⟩ := List.mem_map.mp hrow
    simpa using otherRow_length hd false (r.headD 0) (hv.cols r hr)

/-- C64: the matrix of a domain with a fake iterator is right exactly when the domain has no iterator and no local dimension. -/
theorem scoplib_fake_domain_iff {c : Cfg} {p : Part} (hv : p.Valid c) (hd : p.Dims) (ht : p.type = TYPE_DOMAIN) (hm : p.m = []) :
    IsMatrix (partTable p true) ↔ p.nb_output_dims = 0 ∧ p.nb_local_dims = 0 := by
  have h0 : p.nb_rows = 0 := by rw [← hv.rows, hm]; rfl
  unfold Part.Dims at hd
  unfold partTable
  simp only [if_pos ht, if_true, hm, List.map_nil]
  rw [isMatrix_iff]
  simp only [List.length_cons, List.length_nil, List.mem_singleton, forall_eq, List.length_append, List.length_replicate]
  omega

/-- C64: the matrix of a scattering of one row with a fake iterator is right exactly when it has one output dimension. -/
theorem scoplib_fake_scattering_iff {c : Cfg} {p : Part} (hv : p.Valid c) (hd : p.Dims) (ht : p.type = TYPE_SCATTERING) {row : List Int} (hm : p.m = [row]) :
    IsMatrix (partTable p true) ↔ p.nb_output_dims = 1 := by
  have h1 : p.nb_rows = 1 := by rw [← hv.rows, hm]; rfl
  have hr := otherRow_length hd true (row.headD 0) (hv.cols row (by rw [hm]; simp))
  unfold Part.Dims at hd
  have hnd : p.type ≠ TYPE_DOMAIN := by rw [ht]; decide
  unfold partTable
  simp only [if_neg hnd, if_true, if_pos ht, hm]
  rw [isMatrix_iff]
  simp only [fakeLines, List.take_succ_cons, List.take_zero, List.map_cons, List.map_nil, List.cons_append, List.nil_append,
    if_neg (show ¬ ([row] = ([] : List (List Int))) by simp), List.length_cons, List.length_nil, List.mem_cons, List.not_mem_nil, or_false, forall_eq_or_imp, forall_eq,
    List.length_map, List.length_range, List.length_replicate]
  simp only [if_true] at hr
  rw [h1]
  omega

/-! ## Accesses -/

/-- The number of rows of an access in the SCoPLib format. -/
def accessRows (p : Part) : Int := if p.nb_rows = 1 then 1 else p.nb_rows - 1

theorem accessTable_length {c : Cfg} {p : Part} (hv : p.Valid c) (hm : p.m ≠ []) (fake : Bool) : ((accessTable p fake).length : Int) = accessRows p := by
  have hr := hv.rows
  unfold accessTable accessRows
  match hm' : p.m with
  | [] => exact absurd hm' hm
  | [row] => rw [hm'] at hr; simp at hr; simp [← hr]
  | row :: row' :: rows =>
    rw [hm'] at hr
    simp at hr
    rw [if_neg (by omega)]
    simp
    omega

theorem accessTable_cols {c : Cfg} {p : Part} (hv : p.Valid c) (hd : p.Dims) (fake : Bool) : ∀ row ∈ accessTable p fake,
    (row.length : Int) = p.nb_columns - p.nb_output_dims + if fake then 1 else 0 := by
  unfold accessTable
  match hm : p.m with
  | [] => simp
  | [row] =>
    have := otherRow_length hd fake (constantOf row) (hv.cols row (by rw [hm]; simp))
    intro x hx
    simp only [List.mem_singleton] at hx
    subst hx
    have hne : 0 < (otherRow p fake (constantOf row) row).length := by unfold otherRow; simp
    simp only [List.length_append, List.length_dropLast, List.length_singleton]
    omega
  | row :: row' :: rows =>
    intro x hx
    rcases List.mem_cons.mp hx with rfl | hx
    · exact otherRow_length hd fake _ (hv.cols row' (by rw [hm]; simp))
    · obtain ⟨y, hy, rfl⟩ := List.mem_map.mp hx
      exact otherRow_length hd fake _ (hv.cols y (by rw [hm]; simp [hy]))

end Rel

namespace RList

open Rel (IsMatrix isMatrix_iff relTable accessTable PartFits Named suffixes ScoplibPart isScoplibAccess)

/-- The relation is of the type `type` (that of its first part). -/
def ofType (type : Int) : Rel → Bool
  | [] => false
  | p :: _ => decide (p.type = type)

/-- The accesses of type `type` as the SCoPLib printer writes them. -/
def accessesTable (fake : Bool) (type : Int) (l : RList) : List (List Int) :=
  ((List.filter (ofType type) l).map (relTable false fake)).flatten

/-- What the printer requires of the relations of a list. -/
structure ScoplibRel (c : Cfg) (names : Names) (fake : Bool) (r : Rel) : Prop where
  fits : ∀ p ∈ r, PartFits c p
  named : ∀ ps ∈ suffixes r, Named c names ps.1 ps.2
  parts : ∀ p ∈ r, ScoplibPart (isScoplibAccess r) fake p

theorem accessLoop_says {c : Cfg} (hv : c.Valid) {names : Names} (hn : Rel.NamesNoNL names) {fake : Bool} (type : Int) : ∀ (l : RList), (∀ r ∈ l, ScoplibRel c names fake r) →
    ∃ t, accessLoop c (some names) fake type l = .ok t ∧ SaysInts t (accessesTable fake type l)
  | [], _ => ⟨_, rfl, SaysInts.nil⟩
  | [] :: l, h => by
    obtain ⟨t, e, ht⟩ := accessLoop_says hv hn type l fun r hr => h r (by simp [hr])
    refine ⟨t, e, ?_⟩
    simpa [accessesTable, ofType] using ht
  | (p :: r) :: l, h => by
    obtain ⟨t, e, ht⟩ := accessLoop_says hv hn type l fun r hr => h r (by simp [hr])
    simp only [accessLoop]
    by_cases hp : p.type = type
    · rw [if_pos hp]
      have h0 := h (p :: r) (by simp)
      obtain ⟨u, e1, h1⟩ := Rel.relation_scoplib_says hv hn h0.fits h0.named (nth := false) (fake := fake) h0.parts
      rw [e1, e]
      refine ⟨_, rfl, ?_⟩
      have := h1.append ht
      simpa [accessesTable, ofType, hp] using this
    · rw [if_neg hp]
      refine ⟨t, e, ?_⟩
      simpa [accessesTable, ofType, hp] using ht

/-- A list the accesses of type `type` of which can be announced: each has one part, at least a row, and `k` columns besides the output ones. -/
def Announced (type k : Int) (l : RList) : Prop := ∀ r ∈ l, ofType type r = true → ∃ p, r = [p] ∧ p.m ≠ [] ∧ p.nb_columns - p.nb_output_dims = k

theorem accessSize_eq {c : Cfg} {type k : Int} (ht : Rel.isAccessArray type = true) : ∀ {l : RList} (a b : Int), (∀ r ∈ l, Rel.Valid c r) → Announced type k l →
    (accessSize type l (a, b)).1 = a + ((accessesTable false type l).length : Int) ∧
    ((accessesTable false type l) ≠ [] → (accessSize type l (a, b)).2 = k)
  | [], a, b, _, _ => by simp [accessSize, accessesTable]
  | [] :: l, a, b, hv, h => by
    have := accessSize_eq (c := c) ht (l := l) a b (fun r hr => hv r (by simp [hr])) (fun r hr => h r (by simp [hr]))
    simpa [accessSize, accessesTable, ofType] using this
  | (p :: r) :: l, a, b, hv, h => by
    by_cases hp : p.type = type
    · obtain ⟨q, e, hm, hk⟩ := h (p :: r) (by simp) (by simp [ofType, hp])
      injection e with e1 e2
      subst e1 e2
      have hvp := hv [p] (by simp) p (by simp)
      have hlen := Rel.accessTable_length hvp hm false
      have hrel : relTable false false [p] = accessTable p false := by
        simp [relTable, Rel.partsTable, isScoplibAccess, hp, ht]
      have htab : accessesTable false type ([p] :: l) = accessTable p false ++ accessesTable false type l := by
        simp [accessesTable, ofType, hp, hrel]
      have ih := accessSize_eq (c := c) ht (l := l) (if p.nb_rows = 1 then a + 1 else a + (p.nb_rows - 1)) (p.nb_columns - p.nb_output_dims) (fun r hr => hv r (by simp [hr]))
        (fun r hr => h r (by simp [hr]))
      rw [htab]
      simp only [accessSize, if_pos hp]
      refine ⟨?_, ?_⟩
      · rw [ih.1, List.length_append]
        unfold Rel.accessRows at hlen
        split <;> rename_i h1 <;> simp only [h1, if_true, if_false] at hlen <;> omega
      · intro _
        by_cases hne : accessesTable false type l = []
        · have key : ∀ {l : RList} (s : Int × Int), (∀ r ∈ l, Rel.Valid c r) → Announced type k l → accessesTable false type l = [] → (accessSize type l s).2 = s.2 := by
            intro l
            induction l with
            | nil => intros; rfl
            | cons r l ih =>
              intro s hv h he
              cases r with
              | nil => exact ih s (fun r hr => hv r (by simp [hr])) (fun r hr => h r (by simp [hr])) (by simpa [accessesTable, ofType] using he)
              | cons q r =>
                by_cases hq : q.type = type
                · exfalso
                  obtain ⟨q', e, hm', _⟩ := h (q :: r) (by simp) (by simp [ofType, hq])
                  injection e with e1 e2
                  subst e1 e2
                  have h1 := Rel.accessTable_length (hv [q] (by simp) q (by simp)) hm' false
                  have h2 : accessTable q false = [] := by
                    have : relTable false false [q] = accessTable q false := by simp [relTable, Rel.partsTable, isScoplibAccess, hq, ht]
                    simp [accessesTable, ofType, hq, this] at he
                    exact he.1
                  rw [h2] at h1
                  have h3 := (hv [q] (by simp) q (by simp)).rows
                  have h4 := List.length_pos_iff.mpr hm'
                  unfold Rel.accessRows at h1
                  simp only [List.length_nil] at h1
                  split at h1 <;> omega
                · simp only [accessSize, if_neg hq]
                  exact ih s (fun r hr => hv r (by simp [hr])) (fun r hr => h r (by simp [hr])) (by simpa [accessesTable, ofType, hq] using he)
          rw [key _ (fun r hr => hv r (by simp [hr])) (fun r hr => h r (by simp [hr])) hne]
          exact hk
        · exact ih.2 hne
    · have := accessSize_eq (c := c) ht (l := l) a b (fun r hr => hv r (by simp [hr])) (fun r hr => h r (by simp [hr]))
      simpa [accessSize, accessesTable, ofType, hp] using this

end RList
end Osl
