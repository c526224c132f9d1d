import Verif.ScoplibSizes
/-!
# The accesses of a statement in a SCoPLib text (C65)
-/

namespace Osl
namespace RList

open Rel (IsMatrix isMatrix_iff relTable accessTable PartFits Named suffixes ScoplibPart isScoplibAccess)

theorem relTable_access {type : Int} (ht : Rel.isAccessArray type = true) {p : Part} (hp : p.type = type) (fake : Bool) : relTable false fake [p] = accessTable p fake := by
  simp [relTable, Rel.partsTable, isScoplibAccess, hp, ht]

/-- The number of rows does not depend on the fake iterator. -/
theorem accessesTable_length {c : Cfg} {type k : Int} (ht : Rel.isAccessArray type = true) (fake : Bool) : ∀ {l : RList}, (∀ r ∈ l, Rel.Valid c r) → Announced type k l →
    (accessesTable fake type l).length = (accessesTable false type l).length
  | [], _, _ => rfl
  | r :: l, hv, h => by
    have ih := accessesTable_length (c := c) ht fake (l := l) (fun r hr => hv r (by simp [hr])) (fun r hr => h r (by simp [hr]))
    by_cases hr : ofType type r = true
    · obtain ⟨p, rfl, hm, hk⟩ := h r (by simp) hr
      have hp : p.type = type := by simpa [ofType] using hr
      have hvp := hv [p] (by simp) p (by simp)
      have h1 := Rel.accessTable_length hvp hm fake
      have h2 := Rel.accessTable_length hvp hm false
      have e : ∀ f, accessesTable f type ([p] :: l) = accessTable p f ++ accessesTable f type l := by
        intro f; simp [accessesTable, hr, relTable_access ht hp]
      rw [e, e, List.length_append, List.length_append, ih]
      omega
    · simpa [accessesTable, hr] using ih

/-- Every row of the accesses has the announced number of columns. -/
theorem accessesTable_cols {c : Cfg} {type k : Int} (ht : Rel.isAccessArray type = true) {fake : Bool} {l : RList} (hv : ∀ r ∈ l, Rel.Valid c r) (hd : ∀ r ∈ l, ∀ p ∈ r, p.Dims)
    (h : Announced type k l) : ∀ row ∈ accessesTable fake type l, (row.length : Int) = k + if fake then 1 else 0 := by
  intro row hrow
  obtain ⟨t, ht', hrow⟩ := List.mem_flatten.mp hrow
  obtain ⟨r, hr, rfl⟩ := List.mem_map.mp ht'
  obtain ⟨hr, ho⟩ := List.mem_filter.mp hr
  obtain ⟨p, rfl, hm, hk⟩ := h r hr ho
  have hp : p.type = type := by simpa [ofType] using ho
  rw [relTable_access ht hp] at hrow
  rw [Rel.accessTable_cols (hv [p] hr p (by simp)) (hd [p] hr p (by simp)) fake row hrow, hk]

/-- The size written before the accesses of a type. -/
def announced (fake : Bool) (type : Int) (l : RList) : List Int := [(accessSize type l (0, 0)).1, (accessSize type l (0, 0)).2 + if fake then 1 else 0]

/-- C65: the size announced for the accesses of a type is that of the rows which follow. -/
theorem scoplib_access_size_correct {c : Cfg} {type k : Int} (ht : type = TYPE_READ ∨ type = TYPE_WRITE) {fake : Bool} {l : RList} (hv : ∀ r ∈ l, Rel.Valid c r)
    (hd : ∀ r ∈ l, ∀ p ∈ r, p.Dims) (h : Announced type k l) : IsMatrix (announced fake type l :: accessesTable fake type l) := by
  have ht : Rel.isAccessArray type = true := by rcases ht with rfl | rfl <;> rfl
  have h1 := accessSize_eq (c := c) ht 0 0 hv h
  have h2 := accessesTable_length (c := c) ht fake hv h
  unfold announced
  rw [isMatrix_iff]
  refine ⟨by rw [h1.1, h2]; omega, ?_⟩
  intro row hrow
  rw [accessesTable_cols ht hv hd h row hrow]
  rw [h1.2 (by intro e; rw [e] at h2; have := List.length_pos_iff.mpr (List.ne_nil_of_mem hrow); simp at h2; simp [h2] at this)]

theorem accessBlock_says {c : Cfg} (hv : c.Valid) {names : Names} (hn : Rel.NamesNoNL names) {fake : Bool} {u : Str} (hu : NoNL u) (type : Int) {l : RList}
    (h : ∀ r ∈ l, ScoplibRel c names fake r) : ∃ t, accessBlock c (some names) fake ('#' :: u ++ ['\n']) type l = .ok t ∧
      SaysInts t (announced fake type l :: accessesTable fake type l) := by
  obtain ⟨t, e, ht⟩ := accessLoop_says hv hn type l h
  unfold accessBlock
  rw [e]
  refine ⟨_, rfl, ?_⟩
  have := SaysInts.append (a := []) (Says.comment hu) ((Rel.sizeLine_says (accessSize type l (0, 0)).1 ((accessSize type l (0, 0)).2 + if fake then 1 else 0)).append ht)
  simpa [announced] using this

/-- The tables of the accesses of a statement: the reads, the writes and, if there are any, the may-writes. -/
def accessesTables (fake : Bool) (l : RList) : List (List Int) :=
  if count l > 0 then
    (announced fake TYPE_READ l :: accessesTable fake TYPE_READ l) ++ (announced fake TYPE_WRITE l :: accessesTable fake TYPE_WRITE l) ++
      (if (accessSize TYPE_MAY_WRITE l (0, 0)).1 > 0 then announced fake TYPE_MAY_WRITE l :: accessesTable fake TYPE_MAY_WRITE l else [])
  else []

/-- C65: the accesses of a statement are printed. -/
theorem scoplib_accesses_says {c : Cfg} (hv : c.Valid) {names : Names} (hn : Rel.NamesNoNL names) {fake : Bool} {l : RList}
    (h : ∀ r ∈ l, ScoplibRel c names fake r) : ∃ t, pprint_access_array_scoplib c l (some names) fake = .ok t ∧ SaysInts t (accessesTables fake l) := by
  unfold pprint_access_array_scoplib accessesTables
  split
  · obtain ⟨a, ea, ha⟩ := accessBlock_says hv hn (fake := fake) (u := " Read access informations".toList) (by unfold NoNL; decide) TYPE_READ h
    obtain ⟨b, eb, hb⟩ := accessBlock_says hv hn (fake := fake) (u := " Write access informations".toList) (by unfold NoNL; decide) TYPE_WRITE h
    obtain ⟨d, ed, hd⟩ := accessBlock_says hv hn (fake := fake) (u := " May Write access informations".toList) (by unfold NoNL; decide) TYPE_MAY_WRITE h
    rw [show "# Read access informations\n".toList = '#' :: " Read access informations".toList ++ ['\n'] from rfl, ea,
      show "# Write access informations\n".toList = '#' :: " Write access informations".toList ++ ['\n'] from rfl, eb]
    unfold mayBlock
    split
    · rw [show "# May Write access informations\n".toList = '#' :: " May Write access informations".toList ++ ['\n'] from rfl, ed]
      refine ⟨_, rfl, ?_⟩
      rw [List.append_assoc]
      exact ha.append (hb.append hd)
    · refine ⟨_, rfl, ?_⟩
      rw [List.append_assoc]
      exact ha.append (hb.append SaysInts.nil)
  · exact ⟨_, rfl, Says.comment (u := " NULL relation list".toList) (by unfold NoNL; decide)⟩

/-- A relation whose accesses are all reads and writes (no may-write): the text is two matrices. -/
theorem scoplib_accesses_two {c : Cfg} {k k' : Int} {fake : Bool} {l : RList} (hc : count l > 0) (hv : ∀ r ∈ l, Rel.Valid c r) (hd : ∀ r ∈ l, ∀ p ∈ r, p.Dims)
    (hr : Announced TYPE_READ k l) (hw : Announced TYPE_WRITE k' l) (hm : ∀ r ∈ l, ofType TYPE_MAY_WRITE r = false) :
    ∃ a b, accessesTables fake l = a ++ b ∧ IsMatrix a ∧ IsMatrix b ∧ a.tail = accessesTable fake TYPE_READ l ∧ b.tail = accessesTable fake TYPE_WRITE l := by
  have key : ∀ {l : RList} (s : Int × Int), (∀ r ∈ l, ofType TYPE_MAY_WRITE r = false) → accessSize TYPE_MAY_WRITE l s = s := by
    intro l
    induction l with
    | nil => intros; rfl
    | cons r l ih =>
      intro s h
      cases r with
      | nil => exact ih s fun r hr => h r (by simp [hr])
      | cons q r =>
        have hq : q.type ≠ TYPE_MAY_WRITE := by have := h (q :: r) (by simp); simpa [ofType] using this
        simp only [accessSize, if_neg hq]
        exact ih s fun r hr => h r (by simp [hr])
  refine ⟨_, _, ?_, scoplib_access_size_correct (fake := fake) (.inl rfl) hv hd hr, scoplib_access_size_correct (fake := fake) (.inr rfl) hv hd hw, rfl, rfl⟩
  unfold accessesTables
  rw [if_pos hc, key _ hm, if_neg (by decide), List.append_nil]

end RList
end Osl
