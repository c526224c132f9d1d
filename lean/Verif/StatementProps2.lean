import Verif.StatementProps
/-!
# Statements: attributes (C23) and integrity (C42)
-/

namespace Osl
namespace Stmts
open Rel (TypeMatches Attrs isAccessPart IntEntries RelWellFormed exDomain exDomain2 exAccess suffixes Contributes localAttrs get_array_id)

variable {D : Type}

/-! ## C23: attributes -/

/-- What the library functions need of a relation: it is well-shaped, and the coefficients of an access fit in `int`. -/
def Checkable (c : Cfg) (r : Rel) : Prop := Rel.Valid c r ∧ (r.any isAccessPart = true → ∀ q ∈ r, IntEntries q)

/-- Spec: the bound `z` is above the contributions of all the parts of the relation. -/
def RelBound (c : Cfg) (r : Rel) (z : Attrs) : Prop :=
  ∀ ps ∈ suffixes r, ∃ k, Contributes ps.1 k ∧ (isAccessPart ps.1 = true → get_array_id c ps.2 = .ok k.array_id) ∧
    localAttrs c ps.1 ps.2 = .ok k ∧ Attrs.Le k z

/-- All the relations of a statement are checkable. -/
structure SCheckable (c : Cfg) (s : Stmt D) : Prop where
  domain : Checkable c s.domain
  scattering : Checkable c s.scattering
  access : ∀ r ∈ s.access, Checkable c r

/-- Spec: a bound of the contributions of all the parts of all the relations of a statement. -/
def StmtBound (c : Cfg) (s : Stmt D) (z : Attrs) : Prop :=
  RelBound c s.domain z ∧ RelBound c s.scattering z ∧ ∀ r ∈ s.access, RelBound c r z

theorem attrs_le_refl (a : Attrs) : Attrs.Le a a := ⟨Int.le_refl _, Int.le_refl _, Int.le_refl _, Int.le_refl _, Int.le_refl _⟩

theorem attrs_le_trans {a b z : Attrs} (h1 : Attrs.Le a b) (h2 : Attrs.Le b z) : Attrs.Le a z := by
  obtain ⟨a1, a2, a3, a4, a5⟩ := h1
  obtain ⟨b1, b2, b3, b4, b5⟩ := h2
  exact ⟨by omega, by omega, by omega, by omega, by omega⟩

theorem maxAttrs_le {a l z : Attrs} : Attrs.Le (maxAttrs a l) z ↔ Attrs.Le a z ∧ Attrs.Le l z := by
  simp only [maxAttrs, Attrs.Le, Rel.omax_le]
  constructor
  · rintro ⟨h1, h2, h3, h4, h5⟩
    exact ⟨⟨h1.1, h2.1, h3.1, h4.1, h5.1⟩, ⟨h1.2, h2.2, h3.2, h4.2, h5.2⟩⟩
  · rintro ⟨⟨h1, h2, h3, h4, h5⟩, ⟨g1, g2, g3, g4, g5⟩⟩
    exact ⟨⟨h1, g1⟩, ⟨h2, g2⟩, ⟨h3, g3⟩, ⟨h4, g4⟩, ⟨h5, g5⟩⟩

/-- All accumulators at `OSL_UNDEFINED`. -/
def undef : Attrs := ⟨UNDEFINED, UNDEFINED, UNDEFINED, UNDEFINED, UNDEFINED⟩

theorem attrs_list {c : Cfg} (hv : c.Valid) (hd : c.ndebug = false) {l : RList} (h : ∀ r ∈ l, Checkable c r) {a : Attrs} (ha : Attrs.Le undef a) :
    ∃ a', RList.get_attributes c l a = .ok a' ∧ ∀ z, Attrs.Le a' z ↔ Attrs.Le a z ∧ ∀ r ∈ l, RelBound c r z := by
  by_cases hl : l = []
  · subst hl; exact ⟨a, rfl, by simp⟩
  · obtain ⟨a', e, h1⟩ := RList.list_get_attributes_lub hv hd (l := l) (fun r hr => (h r hr).1) (fun r hr => (h r hr).2) hl a
    refine ⟨a', e, fun z => (h1 z).trans ⟨fun h2 => ⟨h2.1, h2.2.2⟩, fun h2 => ⟨h2.1, ?_, h2.2⟩⟩⟩
    exact attrs_le_trans ha h2.1

theorem attrsLoop_spec {c : Cfg} (hv : c.Valid) (hd : c.ndebug = false) : ∀ {ss : Stmts D} {loc a : Attrs},
    (∀ s ∈ ss, SCheckable c s) → Attrs.Le undef loc →
    ∃ a', attrsLoop c ss loc a = .ok a' ∧ ∀ z, Attrs.Le a' z ↔ Attrs.Le a z ∧ (ss ≠ [] → Attrs.Le loc z) ∧ ∀ s ∈ ss, StmtBound c s z
  | [], loc, a, _, _ => ⟨a, rfl, by simp⟩
  | s :: ss, loc, a, h, hl => by
    have hs := h s (by simp)
    obtain ⟨l1, e1, h1⟩ := Rel.relation_get_attributes_lub hv hd hs.domain.1 hs.domain.2 loc
    obtain ⟨l2, e2, h2⟩ := Rel.relation_get_attributes_lub hv hd hs.scattering.1 hs.scattering.2 l1
    have g1 : Attrs.Le undef l2 := attrs_le_trans (attrs_le_trans hl ((h1 l1).mp (attrs_le_refl _)).1) ((h2 l2).mp (attrs_le_refl _)).1
    obtain ⟨l3, e3, h3⟩ := attrs_list hv hd hs.access g1
    have g3 : Attrs.Le undef l3 := attrs_le_trans g1 ((h3 l3).mp (attrs_le_refl _)).1
    obtain ⟨a', e4, h4⟩ := attrsLoop_spec hv hd (ss := ss) (loc := l3) (a := maxAttrs a l3) (fun x hx => h x (by simp [hx])) g3
    refine ⟨a', by rw [attrsLoop, e1]; simp [e2, e3, e4], fun z => (h4 z).trans ?_⟩
    rw [maxAttrs_le, h3 z, h2 z, h1 z]
    constructor
    · rintro ⟨⟨x1, ⟨⟨x2, x3⟩, x4⟩, x5⟩, x6, x7⟩
      refine ⟨x1, fun _ => x2, ?_⟩
      intro t ht
      rcases List.mem_cons.mp ht with rfl | ht
      · exact ⟨x3, x4, x5⟩
      · exact x7 t ht
    · rintro ⟨x1, x2, x3⟩
      obtain ⟨y1, y2, y3⟩ := x3 s (by simp)
      have hz : Attrs.Le l3 z := (h3 z).mpr ⟨(h2 z).mpr ⟨(h1 z).mpr ⟨x2 (by simp), y1⟩, y2⟩, y3⟩
      exact ⟨⟨x1, ⟨⟨x2 (by simp), y1⟩, y2⟩, y3⟩, fun _ => ⟨⟨⟨x2 (by simp), y1⟩, y2⟩, y3⟩, fun t ht => x3 t (by simp [ht])⟩

/-- C23: on a non empty statement list the result is the least upper bound of the accumulators on entry, of `OSL_UNDEFINED`
(-1), and of the contributions of all the parts of all the relations of all the statements; on NULL nothing changes. -/
theorem statement_get_attributes_lub {c : Cfg} (hv : c.Valid) (hd : c.ndebug = false) {ss : Stmts D} (h : ∀ s ∈ ss, SCheckable c s) (a : Attrs) :
    ∃ a', get_attributes c ss a = .ok a' ∧
      ∀ z, Attrs.Le a' z ↔ Attrs.Le a z ∧ (ss ≠ [] → Attrs.Le ⟨-1, -1, -1, -1, -1⟩ z) ∧ ∀ s ∈ ss, StmtBound c s z :=
  attrsLoop_spec hv hd h (attrs_le_refl undef)

/-! ## C42: integrity -/

/-- Spec: the relation is NULL or well-formed for the type and the dimensions (-1 accepting any). -/
def RelOk (r : Rel) (type o i n : Int) : Prop := ∀ p rest, r = p :: rest → RelWellFormed p rest type o i n

/-- Spec: the number of iterators of a statement, -1 when it has no domain. -/
def iterators (s : Stmt D) : Int := match s.domain with | [] => -1 | p :: _ => p.nb_output_dims

/-- Spec: a well formed statement for `np` parameters (-1 accepting any): the relations are well formed, the scattering and
the accesses start from the iterators of the domain, and the body names as many iterators as the domain has. -/
structure StmtOk (L : Lib D) (np : Int) (s : Stmt D) : Prop where
  domain : RelOk s.domain TYPE_DOMAIN (-1) 0 np
  scattering : RelOk s.scattering TYPE_SCATTERING (-1) (iterators s) np
  access : ∀ r ∈ s.access, RelOk r TYPE_ACCESS (-1) (iterators s) np
  body : ∀ b l, s.domain ≠ [] → lookupBody L s.extension = .ok (some b) → b.iterators = some l → ((Strings.words l).length : Int) = iterators s

/-- The data under OSL_URI_BODY is a body, whose list of iterators fits in memory; the number of iterators fits in `int`. -/
structure BodyFine (L : Lib D) (s : Stmt D) : Prop where
  cast : ∀ d, GList.lookup s.extension URI_BODY = some d → L.body d ≠ none
  size : ∀ b l, lookupBody L s.extension = .ok (some b) → b.iterators = some l → (Strings.words l).length < 2 ^ 63
  int : ∀ p, s.domain.head? = some p → fits 32 p.nb_output_dims

theorem rel_integrity {c : Cfg} (hv : c.Valid) (hd : c.ndebug = false) {r : Rel} (h : Checkable c r) (type o i n : Int) :
    ∃ b, Rel.integrity_check c r type o i n = .ok b ∧ (b = true ↔ RelOk r type o i n) := by
  cases r with
  | nil => exact ⟨true, rfl, by simp [RelOk]⟩
  | cons p rest =>
    obtain ⟨b, e, hb⟩ := Rel.relation_integrity_check_iff hv hd h.1 h.2 type o i n
    refine ⟨b, e, hb.trans ⟨?_, fun h => h p rest rfl⟩⟩
    intro h q rs e
    injection e with e1 e2
    subst e1; subst e2; exact h

theorem integrityOne_spec {c : Cfg} (hv : c.Valid) (hd : c.ndebug = false) {L : Lib D} {s : Stmt D} (h : SCheckable c s) (hb : BodyFine L s) (np : Int) :
    ∃ b, integrityOne c L np s = .ok b ∧ (b = true ↔ StmtOk L np s) := by
  have hits : expectedIters s.domain = iterators s := by
    unfold iterators expectedIters; cases s.domain <;> rfl
  unfold integrityOne
  simp only [hits]
  have hu : (UNDEFINED : Int) = -1 := rfl
  rw [hu]
  obtain ⟨b1, e1, h1⟩ := rel_integrity hv hd h.domain TYPE_DOMAIN (-1) 0 np
  obtain ⟨b2, e2, h2⟩ := rel_integrity hv hd h.scattering TYPE_SCATTERING (-1) (iterators s) np
  obtain ⟨b3, e3, h3⟩ := RList.list_integrity_check_iff hv hd (l := s.access) (fun r hr => (h.access r hr).1) (fun r hr => (h.access r hr).2)
    TYPE_ACCESS (-1) (iterators s) np
  rw [e1]
  cases b1 with
  | false => exact ⟨false, rfl, by simp only [Bool.false_eq_true, false_iff]; exact fun g => absurd (h1.mpr g.domain) (by simp)⟩
  | true =>
    simp only [e2]
    cases b2 with
    | false => exact ⟨false, rfl, by simp only [Bool.false_eq_true, false_iff]; exact fun g => absurd (h2.mpr g.scattering) (by simp)⟩
    | true =>
      simp only [e3]
      cases b3 with
      | false => exact ⟨false, rfl, by simp only [Bool.false_eq_true, false_iff]; exact fun g => absurd (h3.mpr g.access) (by simp)⟩
      | true =>
        simp only
        obtain ⟨bo, ebo⟩ : ∃ bo, lookupBody L s.extension = .ok bo := by
          have := hb.cast
          unfold lookupBody
          cases hl : GList.lookup s.extension URI_BODY with
          | none => exact ⟨none, rfl⟩
          | some d =>
            cases hc : L.body d with
            | none => exact absurd hc (this d hl)
            | some b => exact ⟨some b, by simp [hc]⟩
        rw [ebo]
        refine ⟨_, rfl, ?_⟩
        have hdom := h1.mp rfl
        have key : (!bodyBad (iterators s) bo) = true ↔
            ∀ b l, s.domain ≠ [] → lookupBody L s.extension = .ok (some b) → b.iterators = some l → ((Strings.words l).length : Int) = iterators s := by
          cases bo with
          | none => simp [bodyBad, ebo]
          | some b =>
            cases hi : b.iterators with
            | none =>
              simp only [bodyBad, hi, Option.isSome_none, Bool.and_false, Bool.false_and, Bool.not_false, true_iff]
              intro b' l _ e3 e4
              rw [ebo] at e3; injection e3 with e3; injection e3 with e3; subst e3
              rw [hi] at e4; cases e4
            | some l =>
              have hsz := hb.size b l ebo hi
              have hall : (∀ b l, s.domain ≠ [] → lookupBody L s.extension = .ok (some b) → b.iterators = some l → ((Strings.words l).length : Int) = iterators s) ↔
                  (s.domain ≠ [] → ((Strings.words l).length : Int) = iterators s) := by
                constructor
                · intro h hne; exact h b l hne ebo hi
                · intro h b' l' hne e3 e4
                  rw [ebo] at e3; injection e3 with e3; injection e3 with e3; subst e3
                  rw [hi] at e4; injection e4 with e4; subst e4; exact h hne
              rw [hall]
              cases hd' : s.domain with
              | nil =>
                have : iterators s = -1 := by simp [iterators, hd']
                simp [bodyBad, this, UNDEFINED]
              | cons p rest =>
                have hit : iterators s = p.nb_output_dims := by simp [iterators, hd']
                have hk := (hdom p rest hd').known.1
                have h32 := hb.int p (by simp [hd'])
                have hsize : Strings.size (some l) = (Strings.words l).length := by
                  obtain ⟨l⟩ := l; cases l <;> rfl
                simp only [bodyBad, hit, hi, hsize, UNDEFINED, Option.isSome_some, Bool.and_true, ne_eq, hk, not_false_eq_true, decide_true, Bool.true_and,
                  reduceCtorEq, true_implies]
                unfold fits cMin cMax at h32
                by_cases hneg : p.nb_output_dims < 0
                · rw [if_pos hneg]
                  simp only [Bool.not_eq_true', decide_eq_false_iff_not, Classical.not_not]
                  omega
                · rw [if_neg hneg]
                  simp only [Bool.not_eq_true', decide_eq_false_iff_not, Classical.not_not]
                  omega
        rw [key]
        exact ⟨fun g => ⟨hdom, h2.mp rfl, fun r hr p rest e => h3.mp rfl r hr p rest e, g⟩, fun g => g.body⟩

/-- C42 (statements): the check accepts exactly the lists of well formed statements. -/
theorem statement_integrity_check_iff {c : Cfg} (hv : c.Valid) (hd : c.ndebug = false) {L : Lib D} {ss : Stmts D}
    (h : ∀ s ∈ ss, SCheckable c s) (hb : ∀ s ∈ ss, BodyFine L s) (np : Int) :
    ∃ b, integrity_check c L np ss = .ok b ∧ (b = true ↔ ∀ s ∈ ss, StmtOk L np s) := by
  induction ss with
  | nil => exact ⟨true, rfl, by simp⟩
  | cons s ss ih =>
    obtain ⟨b, e, h1⟩ := ih (fun x hx => h x (by simp [hx])) (fun x hx => hb x (by simp [hx]))
    obtain ⟨b2, e2, h2⟩ := integrityOne_spec hv hd (h s (by simp)) (hb s (by simp)) np
    rw [integrity_check, e2]
    cases b2 with
    | false => exact ⟨false, rfl, by simp only [Bool.false_eq_true, false_iff]; exact fun g => absurd (h2.mpr (g s (by simp))) (by simp)⟩
    | true => exact ⟨b, e, by rw [h1]; simp [h2.mp rfl]⟩

/-! ## C28-like accessors -/

/-- `osl_statement_get_body` gives the body found under "body", else the body of the extended body. -/
theorem statement_get_body_correct {L : Lib D} (s : Stmt D) (next : Stmts D) (b : Body) (d : D) :
    (GList.lookup s.extension URI_BODY = some d → L.body d = some b → get_body L (s :: next) = .ok (some b)) ∧
    (GList.lookup s.extension URI_BODY = none → GList.lookup s.extension URI_EXTBODY = some d → L.extbody d = some (some b) →
      get_body L (s :: next) = .ok (some b)) ∧
    (GList.lookup s.extension URI_BODY = none → GList.lookup s.extension URI_EXTBODY = none → get_body L (s :: next) = .ok none) := by
  refine ⟨fun h1 h2 => by simp [get_body, h1, h2], fun h1 h2 h3 => by simp [get_body, h1, h2, h3], fun h1 h2 => by simp [get_body, h1, h2]⟩

/-! Witnesses. -/

theorem exStmt_checkable : SCheckable Cfg.std exStmt where
  domain := ⟨exStmt_valid.domain, fun h => absurd h (by decide)⟩
  scattering := ⟨exStmt_valid.scattering, fun h => absurd h (by decide)⟩
  access := by
    intro r hr
    refine ⟨exStmt_valid.access r hr, fun _ q hq => ?_⟩
    simp [exStmt] at hr; subst hr; simp at hq; subst hq
    intro row hrow a ha
    simp only [exAccess, List.mem_cons, List.not_mem_nil, or_false] at hrow
    rcases hrow with rfl | rfl <;>
    · simp only [List.mem_cons, List.not_mem_nil, or_false] at ha
      rcases ha with rfl | rfl | rfl | rfl | rfl | rfl <;> decide

theorem exStmt_body : BodyFine natLib exStmt where
  cast := by intro d h; rw [show GList.lookup exStmt.extension URI_BODY = none by decide] at h; cases h
  size := by intro b l h; revert h; simp [lookupBody, show GList.lookup exStmt.extension URI_BODY = none by decide]
  int := by intro p h; simp [exStmt] at h; subst h; decide

example : integrity_check Cfg.std natLib 1 [exStmt, exStmt] = .ok true ∧ integrity_check Cfg.std natLib 2 [exStmt] = .ok false ∧
    get_attributes Cfg.std [exStmt] ⟨0, 0, 0, 0, 0⟩ = .ok ⟨1, 1, 2, 0, 5⟩ := by decide

end Stmts
end Osl
