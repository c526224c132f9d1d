import Verif.RelationProps5
/-!
# Properties C22 (integrity), C23 (attributes), C27 (type), C08 (relation precision)
-/

namespace Osl
namespace Rel
open OInt

/-! ## C22: integrity check -/

/-- Spec: the type expected by the caller matches; `OSL_TYPE_ACCESS` stands for any access type. -/
def TypeMatches (expected actual : Int) : Prop :=
  if expected = TYPE_ACCESS then
    actual = TYPE_ACCESS ∨ actual = TYPE_READ ∨ actual = TYPE_WRITE ∨ actual = TYPE_MAY_WRITE
  else actual = expected

/-- Spec: number of local dimensions, an undefined number counting for none. -/
def localDims (p : Part) : Int := if p.nb_local_dims = -1 then 0 else p.nb_local_dims

/-- Spec: a part agrees with the dimensions `o i n` (output, input, parameters) and is well-formed:
the columns are those required, and each row is an equality or an inequality. -/
def PartWellFormed (o i n : Int) (p : Part) : Prop :=
  p.nb_output_dims = o ∧ p.nb_input_dims = i ∧ p.nb_parameters = n ∧
  p.nb_columns = o + i + localDims p + n + 2 ∧
  ∀ row ∈ p.m, ∀ t, row.head? = some t → t = 0 ∨ t = 1

/-- Spec: from every access part on, the parts agree on one positive array identifier. -/
def ArraysOk : Rel → Prop
  | [] => True
  | p :: rest => (is_access [p] = true → ∃ k, 0 < k ∧ ∀ q ∈ p :: rest, FixesFirst q k) ∧ ArraysOk rest

/-- Spec: the (non NULL) relation starting with `p` is well-formed for the expected type and
dimensions (-1 meaning that any value is accepted). -/
structure RelWellFormed (p : Part) (rest : Rel) (type o i n : Int) : Prop where
  type_ok : TypeMatches type p.type
  known : p.nb_output_dims ≠ -1 ∧ p.nb_input_dims ≠ -1 ∧ p.nb_local_dims ≠ -1 ∧ p.nb_parameters ≠ -1
  context : p.type = TYPE_CONTEXT → p.nb_output_dims = 0 ∧ p.nb_input_dims = 0
  domain : p.type = TYPE_DOMAIN → p.nb_input_dims = 0
  out_ok : o = -1 ∨ p.nb_output_dims = o
  in_ok : i = -1 ∨ p.nb_input_dims = i
  par_ok : n = -1 ∨ p.nb_parameters = n
  parts : ∀ q ∈ p :: rest, PartWellFormed p.nb_output_dims p.nb_input_dims p.nb_parameters q
  arrays : ArraysOk (p :: rest)

theorem tagsOk_spec {c : Cfg} {p : Part} (h : p.WF c) (hc : 0 < p.nb_columns) (n : Nat) (i : Int)
    (hi : 0 ≤ i) (hn : i + n = p.nb_rows) :
    ∃ b, tagsOk c p n i = .ok b ∧ (b = true ↔ ∀ y, i ≤ y → y < p.nb_rows → cell p.m y 0 = 0 ∨ cell p.m y 0 = 1) := by
  obtain ⟨k, hk⟩ := Option.ne_none_iff_exists'.mp h.prec
  induction n generalizing i with
  | zero => exact ⟨true, rfl, by simp; intros; omega⟩
  | succ n ih =>
    obtain ⟨b, e, hb⟩ := ih (i + 1) (by omega) (by omega)
    unfold tagsOk
    rw [get2_ok h.rect hi (by omega) (by omega) hc]
    simp only [OInt.zero, OInt.one, hk]
    by_cases h0 : cell p.m i 0 = 0 ∨ cell p.m i 0 = 1
    · refine ⟨b, ?_, hb.trans ?_⟩
      · rw [if_neg (by rcases h0 with h | h <;> simp [h])]
        exact e
      · constructor
        · intro h y hy hy'
          by_cases hyi : y = i
          · rw [hyi]; exact h0
          · exact h y (by omega) hy'
        · intro h y hy hy'; exact h y (by omega) hy'
    · refine ⟨false, ?_, ?_⟩
      · rw [if_pos (by simp; omega)]
      · constructor
        · intro h; cases h
        · intro h; exact absurd (h i (by omega) (by omega)) h0

/-- Rows of a well-shaped part, by index. -/
theorem rows_iff_cells {c : Cfg} {p : Part} (h : p.WF c) (hc : 0 < p.nb_columns) (P : Int → Prop) :
    (∀ row ∈ p.m, ∀ t, row.head? = some t → P t) ↔ ∀ y, 0 ≤ y → y < p.nb_rows → P (cell p.m y 0) := by
  constructor
  · intro hh y hy hy'
    have hm := mem_rowAt h.rect hy hy'
    have hl := rowAt_length h.rect hy hy'
    rw [cell_eq_rc]
    apply hh _ hm
    cases hr : rowAt p.m y with
    | nil => rw [hr] at hl; simp at hl; omega
    | cons a as => simp [rc]
  · intro hh row hrow t ht
    obtain ⟨i, hi, rfl⟩ := List.mem_iff_getElem.mp hrow
    have := hh i (by omega) (by have := h.rect.1; omega)
    rw [cell_eq_rc, rowAt_get hi] at this
    cases hr : p.m[i] with
    | nil => rw [hr] at ht; cases ht
    | cons a as =>
      rw [hr] at ht this
      simp at ht
      subst ht
      simpa [rc] using this

theorem isAccess_single (p : Part) : is_access [p] = isAccessPart p := rfl

theorem integrityLoop_spec {c : Cfg} (hv : c.Valid) (hd : c.ndebug = false) {o i n : Int} (ho : o ≠ -1)
    (hi : i ≠ -1) (hn : n ≠ -1) (r : Rel) (h : Rel.Valid c r)
    (hint : r.any isAccessPart = true → ∀ p ∈ r, IntEntries p) :
    ∃ b, integrityLoop c o i n r = .ok b ∧ (b = true ↔ (∀ q ∈ r, PartWellFormed o i n q) ∧ ArraysOk r) := by
  induction r with
  | nil => exact ⟨true, rfl, by simp [ArraysOk]⟩
  | cons p rest ih =>
    obtain ⟨b, e, hb⟩ := ih (fun q hq => h q (by simp [hq]))
      (fun ha q hq => hint (by simp [ha]) q (by simp [hq]))
    have hp := h.wf p (by simp)
    unfold integrityLoop
    by_cases h1 : o ≠ p.nb_output_dims ∨ i ≠ p.nb_input_dims ∨ n ≠ p.nb_parameters
    · rw [if_pos h1]
      refine ⟨false, rfl, ?_⟩
      constructor
      · intro h; cases h
      · rintro ⟨h2, _⟩
        obtain ⟨a, b, c', _⟩ := h2 p (by simp)
        omega
    rw [if_neg h1]
    have hcols : check_nb_columns p o i n = decide (p.nb_columns = o + i + localDims p + n + 2) := by
      unfold check_nb_columns localDims
      have hu : (UNDEFINED : Int) = -1 := rfl
      rw [if_pos (by rw [hu]; exact ⟨ho, hi, hn⟩), hu]
      simp only
      by_cases hx : o + i + (if p.nb_local_dims = -1 then 0 else p.nb_local_dims) + n + 2 = p.nb_columns
      · rw [if_neg (by simpa using hx), ← hx]; simp
      · rw [if_pos hx]
        exact (decide_eq_false (fun h => hx h.symm)).symm
    rw [hcols]
    by_cases h2 : p.nb_columns = o + i + localDims p + n + 2
    rotate_left
    · rw [if_pos (by simpa using h2)]
      refine ⟨false, rfl, ?_⟩
      constructor
      · intro h; cases h
      · rintro ⟨h3, _⟩
        exact absurd (h3 p (by simp)).2.2.2.1 h2
    rw [if_neg (by simpa using h2)]
    have htags : ∃ b, (if p.nb_rows > 0 ∧ p.nb_columns > 0 then tagsOk c p p.nb_rows.toNat 0 else .ok true) = .ok b ∧
        (b = true ↔ ∀ row ∈ p.m, ∀ t, row.head? = some t → t = 0 ∨ t = 1) := by
      by_cases hrc : p.nb_rows > 0 ∧ p.nb_columns > 0
      · rw [if_pos hrc]
        obtain ⟨b, e, hb⟩ := tagsOk_spec hp hrc.2 p.nb_rows.toNat 0 (by omega) (by omega)
        exact ⟨b, e, hb.trans (rows_iff_cells hp hrc.2 (fun t => t = 0 ∨ t = 1)).symm⟩
      · rw [if_neg hrc]
        refine ⟨true, rfl, fun _ => ?_, fun _ => rfl⟩
        intro row hrow t ht
        have hlen := hp.rect.1
        have hrl := hp.rect.2 row hrow
        have : 0 < p.m.length := List.length_pos_of_mem hrow
        have : row.length = 0 := by have := hp.cols; omega
        rw [List.length_eq_zero_iff.mp this] at ht
        cases ht
    obtain ⟨bt, et, hbt⟩ := htags
    rw [et]
    have hpw : bt = true ↔ PartWellFormed o i n p := by
      rw [hbt]
      constructor
      · intro h; exact ⟨by omega, by omega, by omega, h2, h⟩
      · intro h; exact h.2.2.2.2
    cases bt with
    | false =>
      refine ⟨false, rfl, ?_⟩
      constructor
      · intro h; cases h
      · rintro ⟨h3, _⟩
        exact absurd (hpw.mpr (h3 p (by simp))) (by simp)
    | true =>
      have hpw' := hpw.mp rfl
      simp only
      by_cases ha : isAccessPart p = true
      · rw [if_pos ha]
        obtain ⟨id, eid, h3, h4⟩ := relation_get_array_id_iff hv hd h (hint (by simp [ha])) (r := p :: rest) (by exact ha)
        rw [eid]
        simp only
        by_cases hid : id = UNDEFINED
        · rw [if_pos hid]
          refine ⟨false, rfl, ?_⟩
          constructor
          · intro h; cases h
          · rintro ⟨_, h5, _⟩
            exact absurd (h5 ha) (h4.mp hid)
        · rw [if_neg hid]
          refine ⟨b, e, hb.trans ?_⟩
          have hex : ∃ k, 0 < k ∧ ∀ q ∈ p :: rest, FixesFirst q k := by
            apply Classical.byContradiction
            intro hno
            exact hid (h4.mpr hno)
          constructor
          · rintro ⟨h5, h6⟩
            refine ⟨?_, fun _ => hex, h6⟩
            intro q hq
            rcases List.mem_cons.mp hq with rfl | hq
            · exact hpw'
            · exact h5 q hq
          · rintro ⟨h5, _, h6⟩
            exact ⟨fun q hq => h5 q (by simp [hq]), h6⟩
      · rw [if_neg ha]
        refine ⟨b, e, hb.trans ?_⟩
        constructor
        · rintro ⟨h5, h6⟩
          refine ⟨?_, fun h => absurd h ha, h6⟩
          intro q hq
          rcases List.mem_cons.mp hq with rfl | hq
          · exact hpw'
          · exact h5 q hq
        · rintro ⟨h5, _, h6⟩
          exact ⟨fun q hq => h5 q (by simp [hq]), h6⟩

theorem isAccessPart_iff (p : Part) : isAccessPart p = true ↔
    p.type = TYPE_ACCESS ∨ p.type = TYPE_READ ∨ p.type = TYPE_WRITE ∨ p.type = TYPE_MAY_WRITE := by
  simp [isAccessPart, or_assoc]

theorem check_attribute_spec (e a : Int) (ha : a ≠ -1) :
    ((check_attribute e a).1 = true ↔ e = -1 ∨ a = e) ∧ ((check_attribute e a).1 = true → (check_attribute e a).2 = a) := by
  unfold check_attribute
  have hu : (UNDEFINED : Int) = -1 := rfl
  rw [hu]
  by_cases h1 : e = -1
  · simp [h1]
  · rw [if_pos h1]
    by_cases h2 : a = e
    · simp [h2]
    · rw [if_pos ⟨ha, h2⟩]; simp [h1, h2]

/-- C22: the answer of the check on a non NULL relation, exactly: it accepts the well-formed
relations and no other one. -/
theorem relation_integrity_check_iff {c : Cfg} (hv : c.Valid) (hd : c.ndebug = false) {p : Part} {rest : Rel}
    (hr : Rel.Valid c (p :: rest)) (hint : (p :: rest).any isAccessPart = true → ∀ q ∈ p :: rest, IntEntries q)
    (type o i n : Int) :
    ∃ b, integrity_check c (p :: rest) type o i n = .ok b ∧ (b = true ↔ RelWellFormed p rest type o i n) := by
  unfold integrity_check
  have hu : (UNDEFINED : Int) = -1 := rfl
  simp only
  -- the type
  have hty : ((type ≠ TYPE_ACCESS ∧ type ≠ p.type) ∨ (type = TYPE_ACCESS ∧ isAccessPart p = false)) ↔ ¬ TypeMatches type p.type := by
    unfold TypeMatches
    have hia := isAccessPart_iff p
    by_cases ht : type = TYPE_ACCESS
    · rw [if_pos ht]
      cases hb : isAccessPart p
      · rw [hb] at hia
        constructor
        · intro _ h; exact absurd (hia.mpr h) (by simp)
        · intro _; exact .inr ⟨ht, rfl⟩
      · rw [hb] at hia
        constructor
        · rintro (⟨h, _⟩ | ⟨_, h⟩)
          · exact absurd ht h
          · cases h
        · intro h; exact absurd (hia.mp rfl) h
    · rw [if_neg ht]
      constructor
      · rintro (⟨_, h⟩ | ⟨h, _⟩)
        · intro h'; exact h h'.symm
        · exact absurd h ht
      · intro h; exact .inl ⟨ht, fun h' => h h'.symm⟩
  by_cases h1 : (type ≠ TYPE_ACCESS ∧ type ≠ p.type) ∨ (type = TYPE_ACCESS ∧ isAccessPart p = false)
  · rw [if_pos h1]
    exact ⟨false, rfl, by simp only [Bool.false_eq_true, false_iff]; exact fun h => hty.mp h1 h.type_ok⟩
  rw [if_neg h1]
  have htm : TypeMatches type p.type := Classical.byContradiction (fun h => h1 (hty.mpr h))
  rw [hu]
  by_cases h2 : p.nb_output_dims = -1 ∨ p.nb_input_dims = -1 ∨ p.nb_local_dims = -1 ∨ p.nb_parameters = -1
  · rw [if_pos h2]
    exact ⟨false, rfl, by simp only [Bool.false_eq_true, false_iff]; intro h; have := h.known; omega⟩
  rw [if_neg h2]
  have hkn : p.nb_output_dims ≠ -1 ∧ p.nb_input_dims ≠ -1 ∧ p.nb_local_dims ≠ -1 ∧ p.nb_parameters ≠ -1 := by omega
  by_cases h3 : p.type = TYPE_CONTEXT ∧ p.nb_output_dims ≠ 0
  · rw [if_pos h3]
    exact ⟨false, rfl, by simp only [Bool.false_eq_true, false_iff]; intro h; exact h3.2 (h.context h3.1).1⟩
  rw [if_neg h3]
  by_cases h4 : (p.type = TYPE_DOMAIN ∨ p.type = TYPE_CONTEXT) ∧ p.nb_input_dims ≠ 0
  · rw [if_pos h4]
    refine ⟨false, rfl, ?_⟩
    simp only [Bool.false_eq_true, false_iff]
    intro h
    rcases h4.1 with h5 | h5
    · exact h4.2 (h.domain h5)
    · exact h4.2 (h.context h5).2
  rw [if_neg h4]
  obtain ⟨ao, ao'⟩ := check_attribute_spec o p.nb_output_dims hkn.1
  obtain ⟨ai, ai'⟩ := check_attribute_spec i p.nb_input_dims hkn.2.1
  obtain ⟨an, an'⟩ := check_attribute_spec n p.nb_parameters hkn.2.2.2
  by_cases h5 : (check_attribute o p.nb_output_dims).1 = true
  rotate_left
  · rw [if_pos (by simpa using h5)]
    exact ⟨false, rfl, by simp only [Bool.false_eq_true, false_iff]; intro h; exact h5 (ao.mpr h.out_ok)⟩
  rw [if_neg (by simpa using h5)]
  by_cases h6 : (check_attribute i p.nb_input_dims).1 = true
  rotate_left
  · rw [if_pos (by simpa using h6)]
    exact ⟨false, rfl, by simp only [Bool.false_eq_true, false_iff]; intro h; exact h6 (ai.mpr h.in_ok)⟩
  rw [if_neg (by simpa using h6)]
  by_cases h7 : (check_attribute n p.nb_parameters).1 = true
  rotate_left
  · rw [if_pos (by simpa using h7)]
    exact ⟨false, rfl, by simp only [Bool.false_eq_true, false_iff]; intro h; exact h7 (an.mpr h.par_ok)⟩
  rw [if_neg (by simpa using h7), ao' h5, ai' h6, an' h7]
  obtain ⟨b, e, hb⟩ := integrityLoop_spec hv hd (o := p.nb_output_dims) (i := p.nb_input_dims)
    (n := p.nb_parameters) hkn.1 hkn.2.1 hkn.2.2.2 (p :: rest) hr hint
  refine ⟨b, e, hb.trans ?_⟩
  constructor
  · rintro ⟨h8, h9⟩
    refine ⟨htm, hkn, fun hc => ⟨?_, ?_⟩, fun hc => ?_, ao.mp h5, ai.mp h6, an.mp h7, h8, h9⟩
    · exact Classical.byContradiction (fun h => h3 ⟨hc, h⟩)
    · exact Classical.byContradiction (fun h => h4 ⟨.inr hc, h⟩)
    · exact Classical.byContradiction (fun h => h4 ⟨.inl hc, h⟩)
  · intro h
    exact ⟨h.parts, h.arrays⟩

/-- C22: a NULL relation is accepted. -/
theorem relation_integrity_check_null (c : Cfg) (type o i n : Int) : integrity_check c [] type o i n = .ok true := rfl

/-- C22, soundness in the words of the property, for relations of one part or whose later parts
also have a known number of local dimensions (the check does not look at it, see
`relation_integrity_accepts_unknown_locals`) and the type of the first part (not checked either, see
`relation_integrity_accepts_mixed_types`). -/
theorem relation_integrity_sound_uniform {c : Cfg} (hv : c.Valid) (hd : c.ndebug = false) {r : Rel} {type o i n : Int}
    (hr : Rel.Valid c r) (hint : r.any isAccessPart = true → ∀ q ∈ r, IntEntries q)
    (hloc : ∀ q ∈ r.tail, q.nb_local_dims ≠ -1) (htype : ∀ p q, p ∈ r → q ∈ r → p.type = q.type)
    (h : integrity_check c r type o i n = .ok true) :
    ∀ p ∈ r, TypeMatches type p.type ∧
      p.nb_columns = p.nb_output_dims + p.nb_input_dims + p.nb_local_dims + p.nb_parameters + 2 ∧
      (o ≠ -1 → p.nb_output_dims = o) ∧ (i ≠ -1 → p.nb_input_dims = i) ∧ (n ≠ -1 → p.nb_parameters = n) ∧
      (∀ row ∈ p.m, ∀ t, row.head? = some t → t = 0 ∨ t = 1) ∧
      (type = TYPE_ACCESS → ∃ k, 0 < k ∧ get_array_id c r = .ok k ∧ ∀ q ∈ r, FixesFirst q k) := by
  cases r with
  | nil => intro p hp; cases hp
  | cons p0 rest =>
    obtain ⟨b, e, hb⟩ := relation_integrity_check_iff hv hd hr hint type o i n
    rw [e] at h
    injection h with h
    have hw := hb.mp h
    intro p hp
    obtain ⟨a1, a2, a3, a4, a5⟩ := hw.parts p hp
    have hl : localDims p = p.nb_local_dims := by
      unfold localDims
      rw [if_neg]
      rcases List.mem_cons.mp hp with rfl | hp
      · exact hw.known.2.2.1
      · exact hloc p hp
    refine ⟨by rw [htype p p0 hp (by simp)]; exact hw.type_ok, by rw [a4, hl, a1, a2, a3], ?_, ?_, ?_, a5, ?_⟩
    · intro h; rw [a1]; rcases hw.out_ok with h' | h'
      · exact absurd h' h
      · exact h'
    · intro h; rw [a2]; rcases hw.in_ok with h' | h'
      · exact absurd h' h
      · exact h'
    · intro h; rw [a3]; rcases hw.par_ok with h' | h'
      · exact absurd h' h
      · exact h'
    · intro ht
      have h1 := hw.type_ok
      unfold TypeMatches at h1
      rw [if_pos ht] at h1
      have hacc : isAccessPart p0 = true := (isAccessPart_iff p0).mpr h1
      obtain ⟨k, hk, hall⟩ := hw.arrays.1 hacc
      obtain ⟨id, eid, h3, _⟩ := relation_get_array_id_iff hv hd hr (hint (by simp [hacc])) (r := p0 :: rest) hacc
      exact ⟨k, hk, by rw [eid, (h3 k hk).mpr hall], hall⟩

/-- A domain and, as a second part, a part typed as a scattering. -/
def exMixed : Rel := [exDomain, { exDomain with type := TYPE_SCATTERING }]

/-- A domain with 4 columns whose second part has an unknown number of local dimensions. -/
def exNoLocals : Rel := [exDomain, { exDomain with nb_local_dims := -1 }]

/-- Finding (C22): a union whose second part has another type than the expected one is accepted. -/
theorem relation_integrity_accepts_mixed_types :
    integrity_check Cfg.std exMixed TYPE_DOMAIN (-1) (-1) (-1) = .ok true ∧
      ¬ ∀ p ∈ exMixed, TypeMatches TYPE_DOMAIN p.type := by
  constructor
  · decide
  · intro h
    have := h { exDomain with type := TYPE_SCATTERING } (by simp [exMixed])
    simp [TypeMatches, TYPE_DOMAIN, TYPE_ACCESS, TYPE_SCATTERING] at this

/-- Finding (C22): a later part with an unknown number of local dimensions is accepted; then
nb_columns is not the sum of the dimensions. -/
theorem relation_integrity_accepts_unknown_locals :
    integrity_check Cfg.std exNoLocals TYPE_DOMAIN (-1) (-1) (-1) = .ok true ∧
      ¬ ∀ p ∈ exNoLocals, p.nb_columns = p.nb_output_dims + p.nb_input_dims + p.nb_local_dims + p.nb_parameters + 2 := by
  decide

/-- Finding (C22): negative dimensions other than -1 are accepted when they add up. -/
theorem relation_integrity_accepts_negative_dims :
    ∃ p : Part, p.Valid Cfg.std ∧ p.nb_output_dims = -2 ∧ integrity_check Cfg.std [p] TYPE_DOMAIN (-1) (-1) (-1) = .ok true := by
  refine ⟨{ exDomain with nb_output_dims := -2, nb_parameters := exDomain.nb_parameters + exDomain.nb_output_dims + 2 }, ?_, rfl, by decide⟩
  exact ⟨exDomain_valid.rows, exDomain_valid.cols, exDomain_valid.ncols, exDomain_valid.prec, exDomain_valid.ents⟩

example : integrity_check Cfg.std [exAccess] TYPE_ACCESS 2 1 1 = .ok true ∧
    integrity_check Cfg.std [exAccess] TYPE_ACCESS 2 2 1 = .ok false := by decide

/-! ## C27 (relation part): setting the type -/

/-- C27: after `osl_relation_set_type` every part has the type, and nothing else changes. -/
theorem relation_set_type (r : Rel) (t : Int) :
    (set_type r t).length = r.length ∧ ∀ (i : Nat) (h : i < r.length),
      (set_type r t)[i]? = some { r[i] with type := t } := by
  refine ⟨by simp [set_type], fun i h => by simp [set_type, h]⟩

/-- C27: the points are unchanged. -/
theorem relation_set_type_mem (r : Rel) (t : Int) (x y n : List Int) : Rel.Mem (set_type r t) x y n ↔ Rel.Mem r x y n := by
  unfold Rel.Mem set_type
  constructor
  · rintro ⟨p, hp, hm⟩
    obtain ⟨q, hq, rfl⟩ := List.mem_map.mp hp
    exact ⟨q, hq, hm⟩
  · rintro ⟨p, hp, hm⟩
    exact ⟨_, List.mem_map.mpr ⟨p, hp, rfl⟩, hm⟩

/-- C27: `osl_relation_set_attributes` gives the attributes to all parts. -/
theorem relation_set_attributes (r : Rel) (o i l n : Int) :
    (set_attributes r o i l n).length = r.length ∧ ∀ p ∈ set_attributes r o i l n,
      p.nb_output_dims = o ∧ p.nb_input_dims = i ∧ p.nb_local_dims = l ∧ p.nb_parameters = n := by
  refine ⟨by simp [set_attributes], ?_⟩
  intro p hp
  obtain ⟨q, _, rfl⟩ := List.mem_map.mp hp
  exact ⟨rfl, rfl, rfl, rfl⟩

/-! ## C23: attribute maxima -/

/-- Componentwise order on the accumulators. -/
def Attrs.Le (a b : Attrs) : Prop :=
  a.nb_parameters ≤ b.nb_parameters ∧ a.nb_iterators ≤ b.nb_iterators ∧ a.nb_scattdims ≤ b.nb_scattdims ∧
  a.nb_localdims ≤ b.nb_localdims ∧ a.array_id ≤ b.array_id

/-- Spec: what one part contributes: (parameters, iterators, scattering dimensions, local
dimensions) according to its type, the array identifier apart. -/
def Contributes (p : Part) (l : Attrs) : Prop :=
  l.nb_parameters = p.nb_parameters ∧ l.nb_localdims = p.nb_local_dims ∧
  (p.type = TYPE_CONTEXT → l.nb_iterators = 0 ∧ l.nb_scattdims = 0 ∧ l.array_id = 0) ∧
  (p.type = TYPE_DOMAIN → l.nb_iterators = p.nb_output_dims ∧ l.nb_scattdims = 0 ∧ l.array_id = 0) ∧
  (p.type = TYPE_SCATTERING → l.nb_iterators = p.nb_input_dims ∧ l.nb_scattdims = p.nb_output_dims ∧ l.array_id = 0) ∧
  (isAccessPart p = true → l.nb_iterators = p.nb_input_dims ∧ l.nb_scattdims = 0)

theorem omax_le {a b z : Int} : omax a b ≤ z ↔ a ≤ z ∧ b ≤ z := by unfold omax; split <;> omega

theorem localAttrs_ok {c : Cfg} (hv : c.Valid) (hd : c.ndebug = false) {p : Part} {rest : Rel}
    (hr : Rel.Valid c (p :: rest)) (hint : (p :: rest).any isAccessPart = true → ∀ q ∈ p :: rest, IntEntries q) :
    ∃ l, localAttrs c p (p :: rest) = .ok l ∧ Contributes p l ∧
      (isAccessPart p = true → get_array_id c (p :: rest) = .ok l.array_id) := by
  unfold localAttrs
  by_cases ha : isAccessPart p = true
  · obtain ⟨id, eid, _⟩ := relation_get_array_id_iff hv hd hr (hint (by simp [ha])) (r := p :: rest) (by exact ha)
    have ht := (isAccessPart_iff p).mp ha
    simp only [ha, if_true]
    rw [if_neg (by decide), if_neg (by decide), if_neg (by decide), eid]
    refine ⟨_, rfl, ⟨rfl, rfl, ?_, ?_, ?_, fun _ => ⟨rfl, rfl⟩⟩, fun _ => rfl⟩ <;>
    · intro h; rw [h] at ht; exact absurd ht (by decide)
  · have ht : ¬ (p.type = TYPE_ACCESS ∨ p.type = TYPE_READ ∨ p.type = TYPE_WRITE ∨ p.type = TYPE_MAY_WRITE) :=
      fun h => ha ((isAccessPart_iff p).mpr h)
    simp only [ha, if_false, Bool.false_eq_true, false_implies]
    by_cases h1 : p.type = TYPE_CONTEXT
    · rw [if_pos h1]
      refine ⟨_, rfl, ⟨rfl, rfl, fun _ => ⟨rfl, rfl, rfl⟩, fun h => ?_, fun h => ?_, fun h => absurd h ha⟩, trivial⟩ <;>
      exact absurd (h1.symm.trans h) (by decide)
    rw [if_neg h1]
    by_cases h2 : p.type = TYPE_DOMAIN
    · rw [if_pos h2]
      refine ⟨_, rfl, ⟨rfl, rfl, fun h => absurd h h1, fun _ => ⟨rfl, rfl, rfl⟩, fun h => ?_, fun h => absurd h ha⟩, trivial⟩
      exact absurd (h2.symm.trans h) (by decide)
    rw [if_neg h2]
    by_cases h3 : p.type = TYPE_SCATTERING
    · rw [if_pos h3]
      exact ⟨_, rfl, ⟨rfl, rfl, fun h => absurd h h1, fun h => absurd h h2, fun _ => ⟨rfl, rfl, rfl⟩, fun h => absurd h ha⟩, trivial⟩
    rw [if_neg h3, if_neg (fun h => ht (.inl h))]
    exact ⟨_, rfl, ⟨rfl, rfl, fun h => absurd h h1, fun h => absurd h h2, fun h => absurd h h3, fun h => absurd h ha⟩, trivial⟩

/-- The suffixes of a union, one per part. -/
def suffixes : Rel → List (Part × Rel)
  | [] => []
  | p :: rest => (p, p :: rest) :: suffixes rest

/-- C23: `osl_relation_get_attributes` gives the least upper bound of the accumulators on entry and
the contributions of all parts. -/
theorem relation_get_attributes_lub {c : Cfg} (hv : c.Valid) (hd : c.ndebug = false) {r : Rel}
    (hr : Rel.Valid c r) (hint : r.any isAccessPart = true → ∀ q ∈ r, IntEntries q) (a : Attrs) :
    ∃ a', get_attributes c r a = .ok a' ∧
      ∀ z, Attrs.Le a' z ↔ Attrs.Le a z ∧
        ∀ ps ∈ suffixes r, ∃ l, Contributes ps.1 l ∧ (isAccessPart ps.1 = true → get_array_id c ps.2 = .ok l.array_id) ∧
          localAttrs c ps.1 ps.2 = .ok l ∧ Attrs.Le l z := by
  induction r generalizing a with
  | nil => exact ⟨a, rfl, by simp [suffixes]⟩
  | cons p rest ih =>
    obtain ⟨l, el, hl, hid⟩ := localAttrs_ok hv hd hr hint
    obtain ⟨a', e, h⟩ := ih (fun q hq => hr q (by simp [hq])) (fun ha q hq => hint (by simp [ha]) q (by simp [hq]))
      ⟨omax a.nb_parameters l.nb_parameters, omax a.nb_iterators l.nb_iterators,
         omax a.nb_scattdims l.nb_scattdims, omax a.nb_localdims l.nb_localdims,
         omax a.array_id l.array_id⟩
    refine ⟨a', by rw [get_attributes, el]; exact e, fun z => (h z).trans ?_⟩
    simp only [Attrs.Le, omax_le, suffixes, List.mem_cons]
    constructor
    · rintro ⟨⟨h1, h2, h3, h4, h5⟩, h6⟩
      refine ⟨⟨h1.1, h2.1, h3.1, h4.1, h5.1⟩, ?_⟩
      intro ps hps
      rcases hps with rfl | hps
      · exact ⟨l, hl, hid, el, h1.2, h2.2, h3.2, h4.2, h5.2⟩
      · exact h6 ps hps
    · rintro ⟨⟨h1, h2, h3, h4, h5⟩, h6⟩
      obtain ⟨l', _, _, el', g1, g2, g3, g4, g5⟩ := h6 (p, p :: rest) (.inl rfl)
      rw [el] at el'
      injection el' with el'
      subst el'
      exact ⟨⟨⟨h1, g1⟩, ⟨h2, g2⟩, ⟨h3, g3⟩, ⟨h4, g4⟩, ⟨h5, g5⟩⟩, fun ps hps => h6 ps (.inr hps)⟩

/-- C23: no accumulator is lowered, whatever the relation. -/
theorem relation_get_attributes_monotone {c : Cfg} {r : Rel} {a a' : Attrs} (h : get_attributes c r a = .ok a') : Attrs.Le a a' := by
  induction r generalizing a with
  | nil => injection h with h; subst h; exact ⟨Int.le_refl _, Int.le_refl _, Int.le_refl _, Int.le_refl _, Int.le_refl _⟩
  | cons p rest ih =>
    rw [get_attributes] at h
    cases hl : localAttrs c p (p :: rest) with
    | ok l =>
      rw [hl] at h
      obtain ⟨h1, h2, h3, h4, h5⟩ := ih h
      simp only [omax_le] at h1 h2 h3 h4 h5
      exact ⟨h1.1, h2.1, h3.1, h4.1, h5.1⟩
    | err => rw [hl] at h; cases h
    | ub => rw [hl] at h; cases h

example : get_attributes Cfg.std [exAccess] ⟨0, 3, 0, 0, 0⟩ = .ok ⟨1, 3, 0, 0, 5⟩ := by decide

/-! ## C08 (relation part): changing the precision of a relation -/

/-- In a debug build a successful change of precision of a part keeps the matrix. -/
theorem setPrecisionPart_preserves {c : Cfg} (hv : c.Valid) (hd : c.ndebug = false) {p p' : Part} (h : p.Valid c) {np : Int}
    (e : setPrecisionPart c np p = .ok p') : p' = { p with precision := np } := by
  unfold setPrecisionPart at e
  by_cases hne : np = p.precision
  · rw [if_neg (by simpa using hne)] at e
    injection e with e
    subst e; subst hne; rfl
  rw [if_pos hne] at e
  have hw : p.WF c := ⟨⟨h.rows, h.cols⟩, h.ncols, h.prec⟩
  obtain ⟨m', e1, e2⟩ := Out.bind_eq_ok.mp e
  injection e2 with e2
  have hcell : ∀ i j, 0 ≤ i → i < p.nb_rows → 0 ≤ j → j < p.nb_columns → InPrec c p.precision (cell p.m i j) := by
    intro i j hi hi' hj hj'
    have hm := mem_rowAt hw.rect hi hi'
    have hl := rowAt_length hw.rect hi hi'
    rw [cell_eq_rc]
    exact h.ents _ hm _ (rc_mem hj (by omega))
  have hset : ∀ i j, 0 ≤ i → i < p.nb_rows → 0 ≤ j → j < p.nb_columns → set2 p.m i j (cell p.m i j) = .ok p.m := by
    intro i j hi hi' hj hj'
    obtain ⟨m', e, hr, hc⟩ := set2_ok hw.rect hi hi' hj hj' (cell p.m i j)
    rw [e]
    congr 1
    apply rect_ext hr hw.rect
    intro x y hx hx' hy hy'
    rw [hc x y]
    split
    · rename_i hxy; rw [hxy.1, hxy.2]
    · rfl
  have hm : m' = p.m := by
    refine loop_rule_partial (fun _ m => m = p.m) e1 rfl ?_ hw.rows
    intro i s s' hi hi' hs hb
    subst hs
    refine loop_rule_partial (fun _ m => m = p.m) hb rfl ?_ hw.cols
    intro j s s' hj hj' hs hb
    subst hs
    rw [get2_ok hw.rect hi hi' hj hj'] at hb
    simp only [Out.ok_bind] at hb
    obtain ⟨v, hv1, hv2⟩ := Out.bind_eq_ok.mp hb
    rw [int_set_precision_preserves_partial hv hd (hcell i j hi hi' hj hj') hv1, hset i j hi hi' hj hj'] at hv2
    injection hv2 with hv2
    exact hv2.symm
  rw [← e2, hm]

/-- C08: in a debug build a successful `osl_relation_set_precision` changes the precision of every
part and no coefficient. -/
theorem relation_set_precision_preserves {c : Cfg} (hv : c.Valid) (hd : c.ndebug = false) {r r' : Rel} (h : Rel.Valid c r) {np : Int}
    (e : set_precision c np r = .ok r') : r' = r.map (fun p => { p with precision := np }) := by
  unfold set_precision at e
  induction r generalizing r' with
  | nil => injection e with e; subst e; rfl
  | cons p rest ih =>
    obtain ⟨b, bs, h1, h2, rfl⟩ := Out.mapOut_cons_eq_ok.mp e
    rw [setPrecisionPart_preserves hv hd (h p (by simp)) h1, ih (fun q hq => h q (by simp [hq])) h2]
    rfl

/-- C08: the change succeeds when all coefficients are in the range of a C `int` and the new
precision is supported. -/
theorem relation_set_precision_succeeds {c : Cfg} (hv : c.Valid) (hd : c.ndebug = false) {r : Rel} (h : Rel.Valid c r) {np : Int}
    (hk : kind c np ≠ none) (hin : ∀ p ∈ r, ∀ row ∈ p.m, ∀ a ∈ row, fits 32 a) :
    set_precision c np r = .ok (r.map (fun p => { p with precision := np })) := by
  unfold set_precision
  apply Out.mapOut_ok
  intro p hp
  have hpv := h p hp
  have hw : p.WF c := ⟨⟨hpv.rows, hpv.cols⟩, hpv.ncols, hpv.prec⟩
  have hex : ∃ p', setPrecisionPart c np p = .ok p' := by
    unfold setPrecisionPart
    by_cases hne : np = p.precision
    · rw [if_neg (by simpa using hne)]; exact ⟨_, rfl⟩
    rw [if_pos hne]
    obtain ⟨m', e, _⟩ := loop_rule (body := fun i m => loop 0 p.nb_columns (fun j m => do
        let v ← get2 m i j
        let v ← OInt.set_precision c p.precision np v
        set2 m i j v) m) (lo := 0) (hi := p.nb_rows) (s := p.m) (fun _ m => Rect m p.nb_rows p.nb_columns ∧ ∀ x y, cell m x y = cell p.m x y)
      ⟨hw.rect, fun _ _ => rfl⟩ (by
        intro i m hi hi' hm
        obtain ⟨m'', e, hinv, _⟩ := loop_rule (body := fun j m => do
            let v ← get2 m i j
            let v ← OInt.set_precision c p.precision np v
            set2 m i j v) (lo := 0) (hi := p.nb_columns) (s := m) (fun _ m => Rect m p.nb_rows p.nb_columns ∧ ∀ x y, cell m x y = cell p.m x y) hm (by
          intro j m hj hj' hm
          have hrow := mem_rowAt hw.rect hi hi'
          have hl := rowAt_length hw.rect hi hi'
          have hmem : rc (rowAt p.m i) j ∈ rowAt p.m i := rc_mem hj (by omega)
          rw [get2_ok hm.1 hi hi' hj hj', hm.2]
          simp only [Out.ok_bind]
          rw [int_set_precision_debug hv hd (by rw [cell_eq_rc]; exact hpv.ents _ hrow _ hmem) (Option.isSome_iff_ne_none.mpr hk) (fun h => hne h.symm),
            if_pos (by rw [cell_eq_rc]; exact hin p hp _ hrow _ hmem)]
          simp only [Out.ok_bind]
          obtain ⟨m2, e2, hr2, hc2⟩ := set2_ok hm.1 hi hi' hj hj' (cell p.m i j)
          refine ⟨m2, e2, hr2, fun x y => ?_⟩
          rw [hc2]
          split
          · rename_i hxy; rw [hxy.1, hxy.2]
          · exact hm.2 x y)
        exact ⟨m'', e, hinv hw.cols⟩)
    exact ⟨_, by rw [e]; rfl⟩
  obtain ⟨p', e⟩ := hex
  rw [e, setPrecisionPart_preserves hv hd hpv e]

/-- The two relations have the same precision in all parts after
`osl_relation_set_same_precision`, and the same coefficients (debug build, `int` coefficients,
each union being homogeneous). -/
theorem relation_set_same_precision {c : Cfg} (hv : c.Valid) (hd : c.ndebug = false) {p q : Part} {r s : Rel}
    (hr : Rel.Valid c (p :: r)) (hs : Rel.Valid c (q :: s))
    (hhr : ∀ x ∈ p :: r, x.precision = p.precision) (hhs : ∀ x ∈ q :: s, x.precision = q.precision)
    (hir : ∀ x ∈ p :: r, ∀ row ∈ x.m, ∀ a ∈ row, fits 32 a) (his : ∀ x ∈ q :: s, ∀ row ∈ x.m, ∀ a ∈ row, fits 32 a) :
    ∃ np, (np = p.precision ∨ np = q.precision) ∧
      set_same_precision c (p :: r) (q :: s) =
        .ok ((p :: r).map (fun p => { p with precision := np }), (q :: s).map (fun p => { p with precision := np })) := by
  have hkp := (hr p (by simp)).prec
  have hkq := (hs q (by simp)).prec
  have hid : ∀ (l : Rel) (np : Int), (∀ x ∈ l, x.precision = np) → l.map (fun p => { p with precision := np }) = l := by
    intro l np hl
    induction l with
    | nil => rfl
    | cons a as ih =>
      rw [List.map_cons, ih (fun x hx => hl x (by simp [hx]))]
      congr 1
      have := hl a (by simp)
      subst this; rfl
  unfold set_same_precision
  simp only
  by_cases h1 : p.precision = q.precision
  · rw [if_neg (by simpa using h1)]
    refine ⟨p.precision, .inl rfl, ?_⟩
    rw [hid _ _ hhr, hid _ _ (fun x hx => by rw [hhs x hx, h1])]
  rw [if_pos h1]
  have hp3 := kind_prec hkp
  have hq3 := kind_prec hkq
  by_cases h2 : p.precision = PREC_MP ∨ q.precision = PREC_MP
  · rw [if_pos h2]
    have hk : kind c PREC_MP ≠ none := by
      rcases h2 with h2 | h2
      · rw [← h2]; exact hkp
      · rw [← h2]; exact hkq
    refine ⟨PREC_MP, by omega, ?_⟩
    rw [relation_set_precision_succeeds hv hd hr hk hir, relation_set_precision_succeeds hv hd hs hk his]
    rfl
  rw [if_neg h2]
  have h3 : p.precision = PREC_DP ∨ q.precision = PREC_DP := by omega
  rw [if_pos h3]
  have hk : kind c PREC_DP ≠ none := by
    rcases h3 with h3 | h3
    · rw [← h3]; exact hkp
    · rw [← h3]; exact hkq
  refine ⟨PREC_DP, by omega, ?_⟩
  rw [relation_set_precision_succeeds hv hd hr hk hir, relation_set_precision_succeeds hv hd hs hk his]
  rfl

example : set_precision Cfg.std 0 [exAccess] = .ok [{ exAccess with precision := 0 }] := by decide

end Rel
end Osl
