import Verif.Statement
import Verif.RelationListProps
import Verif.GenericProps
/-!
# Properties of the statements: C37, C38, C41 (statements), C23 (statements), C42 (statements)
-/

namespace Osl
namespace Stmts
open Rel (TypeMatches Attrs isAccessPart IntEntries RelWellFormed exDomain exDomain2 exAccess)

variable {D : Type}

/-! ## C37: dispatch -/

/-- Spec: two different positions of the list hold a relation of the type. -/
def TwoOf (type : Int) (l : RList) : Prop :=
  ∃ (i j : Nat) (a b : Rel), i < j ∧ l[i]? = some a ∧ l[j]? = some b ∧ RList.HasType type a ∧ RList.HasType type b

/-- Spec: a non NULL relation which is neither a domain, nor a scattering, nor an access. -/
def Unexpected (e : Rel) : Prop :=
  e ≠ [] ∧ ¬ RList.HasType TYPE_DOMAIN e ∧ ¬ RList.HasType TYPE_SCATTERING e ∧ ¬ RList.HasType TYPE_ACCESS e

/-- Spec: `r` is the relation of the type in `l`, NULL when there is none. -/
def TheOnly (type : Int) (l : RList) (r : Rel) : Prop :=
  (r = [] ∧ ∀ e ∈ l, ¬ RList.HasType type e) ∨ (r ∈ l ∧ RList.HasType type r)

theorem filter_two {type : Int} {l : RList} : 1 < (List.filter (RList.keeps type) l).length ↔ TwoOf type l := by
  have one : ∀ l : RList, 0 < (List.filter (RList.keeps type) l).length ↔ ∃ (i : Nat) (a : Rel), l[i]? = some a ∧ RList.HasType type a := by
    intro l
    rw [List.length_pos_iff_exists_mem]
    constructor
    · rintro ⟨a, ha⟩
      obtain ⟨h1, h2⟩ := List.mem_filter.mp ha
      obtain ⟨i, hi⟩ := List.getElem?_of_mem h1
      exact ⟨i, a, hi, (RList.keeps_iff _ _).mp h2⟩
    · rintro ⟨i, a, h1, h2⟩
      exact ⟨a, List.mem_filter.mpr ⟨List.mem_of_getElem? h1, (RList.keeps_iff _ _).mpr h2⟩⟩
  induction l with
  | nil => simp [TwoOf]
  | cons e l ih =>
    by_cases h : RList.keeps type e
    · rw [List.filter_cons_of_pos h, List.length_cons]
      have : 1 < (List.filter (RList.keeps type) l).length + 1 ↔ 0 < (List.filter (RList.keeps type) l).length := by omega
      rw [this, one]
      constructor
      · rintro ⟨i, a, h1, h2⟩
        exact ⟨0, i + 1, e, a, by omega, rfl, h1, (RList.keeps_iff _ _).mp h, h2⟩
      · rintro ⟨i, j, a, b, h1, _, h3, _, h4⟩
        obtain ⟨j, rfl⟩ : ∃ k, j = k + 1 := ⟨j - 1, by omega⟩
        exact ⟨j, b, h3, h4⟩
    · rw [List.filter_cons_of_neg h]
      refine ih.trans ?_
      constructor
      · rintro ⟨i, j, a, b, h1, h2, h3, h4, h5⟩
        exact ⟨i + 1, j + 1, a, b, by omega, h2, h3, h4, h5⟩
      · rintro ⟨i, j, a, b, h1, h2, h3, h4, h5⟩
        cases i with
        | zero =>
          simp at h2; subst h2
          exact absurd ((RList.keeps_iff _ _).mpr h4) h
        | succ i =>
          obtain ⟨j, rfl⟩ : ∃ k, j = k + 1 := ⟨j - 1, by omega⟩
          exact ⟨i, j, a, b, by omega, h2, h3, h4, h5⟩

theorem types_disjoint (e : Rel) :
    ¬ (RList.HasType TYPE_DOMAIN e ∧ RList.HasType TYPE_SCATTERING e) ∧
    ¬ (RList.HasType TYPE_DOMAIN e ∧ RList.HasType TYPE_ACCESS e) ∧ ¬ (RList.HasType TYPE_SCATTERING e ∧ RList.HasType TYPE_ACCESS e) := by
  unfold RList.HasType TypeMatches
  refine ⟨?_, ?_, ?_⟩ <;>
  · rintro ⟨⟨p, r, rfl, h1⟩, q, s, e, h2⟩
    injection e with e1 e2
    subst e1
    simp [TYPE_DOMAIN, TYPE_SCATTERING, TYPE_ACCESS, TYPE_READ, TYPE_WRITE, TYPE_MAY_WRITE] at h1 h2
    omega

theorem keeps_nil (t : Int) : RList.keeps t [] = false := rfl

/-- The count of the non NULL elements against the counts of the three filters. -/
theorem count_split (l : RList) :
    (List.filter (RList.keeps TYPE_DOMAIN) l).length + (List.filter (RList.keeps TYPE_SCATTERING) l).length +
      (List.filter (RList.keeps TYPE_ACCESS) l).length ≤ RList.count l ∧
    ((List.filter (RList.keeps TYPE_DOMAIN) l).length + (List.filter (RList.keeps TYPE_SCATTERING) l).length +
      (List.filter (RList.keeps TYPE_ACCESS) l).length = RList.count l ↔ ∀ e ∈ l, ¬ Unexpected e) := by
  induction l with
  | nil => simp [RList.count]
  | cons e l ih =>
    obtain ⟨d1, d2, d3⟩ := types_disjoint e
    simp only [← RList.keeps_iff] at d1 d2 d3
    have hu : Unexpected e ↔ e ≠ [] ∧ ¬ RList.keeps TYPE_DOMAIN e = true ∧ ¬ RList.keeps TYPE_SCATTERING e = true ∧ ¬ RList.keeps TYPE_ACCESS e = true := by
      simp only [Unexpected, RList.keeps_iff]
    have hall : (∀ x ∈ e :: l, ¬ Unexpected x) ↔ ¬ Unexpected e ∧ ∀ x ∈ l, ¬ Unexpected x := by simp
    rw [hall, hu]
    cases e with
    | nil =>
      simp only [RList.count, List.filter_cons, keeps_nil, Bool.false_eq_true, if_false, ne_eq, not_true_eq_false, false_and, not_false_eq_true, true_and]
      simpa using ih
    | cons p r =>
      have hc : RList.count ((p :: r) :: l) = 1 + RList.count l := rfl
      rw [hc]
      simp only [List.filter_cons]
      obtain ⟨ih1, ih2⟩ := ih
      rw [← ih2]
      clear ih2 hall hu hc
      generalize (List.filter (RList.keeps TYPE_DOMAIN) l) = fd at *
      generalize (List.filter (RList.keeps TYPE_SCATTERING) l) = fs at *
      generalize (List.filter (RList.keeps TYPE_ACCESS) l) = fa at *
      generalize RList.count l = n at *
      cases h1 : RList.keeps TYPE_DOMAIN (p :: r) <;> cases h2 : RList.keeps TYPE_SCATTERING (p :: r) <;>
        cases h3 : RList.keeps TYPE_ACCESS (p :: r) <;> simp [h1, h2, h3] at d1 d2 d3 <;> simp <;> omega

/-- C37: dispatching a list of relations.  It is an error exactly when there are two domains, two scatterings or a
relation of an unexpected type; otherwise the domain and the scattering are the only ones of the list, the accesses
are all the accesses of the list in order, and nothing is lost. -/
theorem statement_dispatch_correct {c : Cfg} {l : RList} (h : RList.Valid c l) :
    (dispatch c l = .err ∧ (TwoOf TYPE_DOMAIN l ∨ TwoOf TYPE_SCATTERING l ∨ ∃ e ∈ l, Unexpected e)) ∨
    (∃ d s al, dispatch c l = .ok (d, s, al) ∧ ¬ TwoOf TYPE_DOMAIN l ∧ ¬ TwoOf TYPE_SCATTERING l ∧ (∀ e ∈ l, ¬ Unexpected e) ∧
      TheOnly TYPE_DOMAIN l d ∧ TheOnly TYPE_SCATTERING l s ∧
      al.Sublist l ∧ (∀ e ∈ al, RList.HasType TYPE_ACCESS e) ∧
      (∀ sub : RList, sub.Sublist l → (∀ e ∈ sub, RList.HasType TYPE_ACCESS e) → sub.Sublist al) ∧
      (List.filter (fun e : Rel => decide (e ≠ [])) l).length =
        (List.filter (fun e : Rel => decide (e ≠ [])) [d, s]).length + al.length) := by
  have hf : ∀ t, RList.filter c l t = .ok (List.filter (RList.keeps t) l) := by
    intro t; simp [RList.filter, RList.clone_ok h, RList.filterLoop_eq]
  have hcnt : ∀ t, RList.count (List.filter (RList.keeps t) l) = (List.filter (RList.keeps t) l).length :=
    fun t => RList.list_filter_count h t (hf t)
  have hd2 := @filter_two TYPE_DOMAIN l
  have hs2 := @filter_two TYPE_SCATTERING l
  obtain ⟨hle, heq⟩ := count_split l
  unfold dispatch
  rw [hf]
  simp only [Out.ok_bind]
  rw [hcnt]
  by_cases h1 : (List.filter (RList.keeps TYPE_DOMAIN) l).length > 1
  · rw [if_pos h1]; exact .inl ⟨rfl, .inl (hd2.mp h1)⟩
  rw [if_neg h1, hf]
  simp only [Out.ok_bind]
  rw [hcnt]
  by_cases h2 : (List.filter (RList.keeps TYPE_SCATTERING) l).length > 1
  · rw [if_pos h2]; exact .inl ⟨rfl, .inr (.inl (hs2.mp h2))⟩
  rw [if_neg h2, hf]
  simp only [Out.ok_bind]
  rw [hcnt]
  by_cases h3 : (List.filter (RList.keeps TYPE_DOMAIN) l).length + (List.filter (RList.keeps TYPE_SCATTERING) l).length +
      (List.filter (RList.keeps TYPE_ACCESS) l).length ≠ RList.count l
  · rw [if_pos h3]
    refine .inl ⟨rfl, .inr (.inr ?_)⟩
    apply Classical.byContradiction
    intro hn
    exact h3 (heq.mpr (fun e he hu => hn ⟨e, he, hu⟩))
  rw [if_neg h3]
  have h3 : (List.filter (RList.keeps TYPE_DOMAIN) l).length + (List.filter (RList.keeps TYPE_SCATTERING) l).length +
      (List.filter (RList.keeps TYPE_ACCESS) l).length = RList.count l := by omega
  have only : ∀ t, TheOnly t l (headRel (List.filter (RList.keeps t) l)) := by
    intro t
    cases hfl : List.filter (RList.keeps t) l with
    | nil =>
      refine .inl ⟨rfl, ?_⟩
      intro e he ht
      have : e ∈ List.filter (RList.keeps t) l := List.mem_filter.mpr ⟨he, (RList.keeps_iff _ _).mpr ht⟩
      rw [hfl] at this; cases this
    | cons x xs =>
      have : x ∈ List.filter (RList.keeps t) l := by rw [hfl]; simp
      obtain ⟨a, b⟩ := List.mem_filter.mp this
      exact .inr ⟨a, (RList.keeps_iff _ _).mp b⟩
  have len : ∀ t, (List.filter (RList.keeps t) l).length ≤ 1 →
      (List.filter (fun e : Rel => decide (e ≠ [])) [headRel (List.filter (RList.keeps t) l)]).length = (List.filter (RList.keeps t) l).length := by
    intro t ht
    cases hfl : List.filter (RList.keeps t) l with
    | nil => simp [headRel]
    | cons x xs =>
      have : x ∈ List.filter (RList.keeps t) l := by rw [hfl]; simp
      obtain ⟨p, r, rfl, _⟩ := (RList.keeps_iff _ _).mp (List.mem_filter.mp this).2
      rw [hfl] at ht
      have : xs = [] := by cases xs with | nil => rfl | cons y ys => simp at ht
      subst this
      simp [headRel]
  obtain ⟨l', e', s1, s2, s3⟩ := RList.list_filter h TYPE_ACCESS
  rw [hf] at e'
  injection e' with e'
  subst e'
  refine .inr ⟨_, _, _, rfl, fun x => h1 (hd2.mpr x), fun x => h2 (hs2.mpr x), heq.mp h3, only _, only _, s1, s2, s3, ?_⟩
  rw [← RList.list_count, ← h3]
  have e1 := len TYPE_DOMAIN (by omega)
  have e2 := len TYPE_SCATTERING (by omega)
  have e3 : ∀ a b : Rel, (List.filter (fun e : Rel => decide (e ≠ [])) [a, b]).length =
      (List.filter (fun e : Rel => decide (e ≠ [])) [a]).length + (List.filter (fun e : Rel => decide (e ≠ [])) [b]).length := by
    intro a b
    rw [← List.length_append, ← List.filter_append]; rfl
  rw [e3, e1, e2]

/-- A scattering `[i] -> [0, i]` with one parameter. -/
def exScatt : Part :=
  { type := TYPE_SCATTERING, precision := 64, nb_rows := 2, nb_columns := 6, nb_output_dims := 2, nb_input_dims := 1,
    nb_local_dims := 0, nb_parameters := 1, m := [[0, -1, 0, 0, 0, 0], [0, 0, -1, 1, 0, 0]] }

theorem exScatt_valid : exScatt.Valid Cfg.std := ⟨rfl, by decide, by decide, by decide, by decide⟩

example : dispatch Cfg.std [[exAccess], [exScatt], [], [exDomain, exDomain2], [exAccess]] =
      .ok ([exDomain, exDomain2], [exScatt], [[exAccess], [exAccess]]) ∧
    dispatch Cfg.std [[exDomain], [exScatt], [exDomain2]] = .err ∧
    dispatch Cfg.std [[{ exDomain with type := TYPE_CONTEXT }]] = .err := by decide

/-! ## C38: removal of the unions -/

/-- Well-shaped relations and well formed extensions. -/
structure SValid (c : Cfg) (s : Stmt D) : Prop where
  domain : Rel.Valid c s.domain
  scattering : Rel.Valid c s.scattering
  access : RList.Valid c s.access
  extension : GList.Unique s.extension

/-- Spec: the parts of a relation, each as a relation of its own; NULL has NULL as its only part. -/
def parts (r : Rel) : List Rel := if r = [] then [[]] else r.map (fun p => [p])

/-- Spec: a relation which does not constrain (NULL) or contains the point. -/
def Allows (r : Rel) (x y n : List Int) : Prop := r = [] ∨ Rel.Mem r x y n

/-- Spec: for the parameters `n`, the statement executes the iteration `x` at date `t`. -/
def Executes (s : Stmt D) (x t n : List Int) : Prop := Allows s.domain x [] n ∧ Allows s.scattering t x n

theorem allows_parts (r : Rel) (x y n : List Int) : Allows r x y n ↔ ∃ q ∈ parts r, Allows q x y n := by
  unfold Allows parts
  cases r with
  | nil => simp
  | cons p r =>
    simp only [Rel.Mem, List.map_cons, reduceCtorEq, if_false, false_or]
    constructor
    · rintro ⟨q, hq, hm⟩
      exact ⟨[q], by simpa using hq, .inr ⟨q, by simp, hm⟩⟩
    · rintro ⟨q, hq, hm⟩
      simp only [List.mem_cons, List.mem_map] at hq
      rcases hq with rfl | ⟨a, ha, rfl⟩
      · rcases hm with hm | ⟨b, hb, hm⟩
        · simp at hm
        · simp at hb; subst hb; exact ⟨b, by simp, hm⟩
      · rcases hm with hm | ⟨b, hb, hm⟩
        · simp at hm
        · simp at hb; subst hb; exact ⟨b, by simp [ha], hm⟩

theorem parts_cons (p q : Part) (r : Rel) : parts (p :: q :: r) = [p] :: parts (q :: r) := by simp [parts]

theorem valid_tail {c : Cfg} {p : Part} {r : Rel} (h : Rel.Valid c (p :: r)) : Rel.Valid c r := fun q hq => h q (by simp [hq])

theorem clone_one_safe_ok {c : Cfg} {r : Rel} (h : Rel.Valid c r) : clone_one_safe c r = .ok (r.take 1) := by
  cases r with
  | nil => rfl
  | cons p r =>
    have := (Rel.relation_nclone_prefix h 1).1 (by simp)
    simpa [clone_one_safe] using this

theorem unionOne_ok {c : Cfg} {L : Lib D} {s : Stmt D} (ha : RList.Valid c s.access) {e : GList D}
    (he : GList.clone L.toEnv s.extension = .ok e) {d t : Rel} (hd : Rel.Valid c d) (ht : Rel.Valid c t) :
    unionOne c L s d t = .ok { domain := d.take 1, scattering := t.take 1, access := s.access, extension := e } := by
  simp [unionOne, clone_one_safe_ok hd, clone_one_safe_ok ht, RList.clone_ok ha, he]

theorem unionInner_ok {c : Cfg} {L : Lib D} {s : Stmt D} (ha : RList.Valid c s.access) {e : GList D}
    (he : GList.clone L.toEnv s.extension = .ok e) {d : Rel} (hd : Rel.Valid c d) : ∀ {t : Rel}, Rel.Valid c t →
    unionInner c L s d t = .ok ((parts t).map fun q => { domain := d.take 1, scattering := q, access := s.access, extension := e })
  | [], ht => by simp [unionInner, unionOne_ok ha he hd ht, parts]
  | [p], ht => by simp [unionInner, unionOne_ok ha he hd ht, parts]
  | p :: q :: r, ht => by
    rw [unionInner, unionOne_ok ha he hd ht, unionInner_ok ha he hd (valid_tail ht), parts_cons]
    simp

theorem unionOuter_ok {c : Cfg} {L : Lib D} {s : Stmt D} (ha : RList.Valid c s.access) (hs : Rel.Valid c s.scattering) {e : GList D}
    (he : GList.clone L.toEnv s.extension = .ok e) : ∀ {d : Rel}, Rel.Valid c d →
    unionOuter c L s d = .ok ((parts d).flatMap fun a => (parts s.scattering).map fun q =>
      { domain := a, scattering := q, access := s.access, extension := e })
  | [], hd => by simp [unionOuter, unionInner_ok ha he hd hs, parts]
  | [p], hd => by simp [unionOuter, unionInner_ok ha he hd hs, parts]
  | p :: q :: r, hd => by
    rw [unionOuter, unionInner_ok ha he hd hs, unionOuter_ok ha hs he (valid_tail hd), parts_cons]
    simp

/-- C38: removing the unions of a statement gives one statement per pair of a part of the domain and a part of the
scattering, in order, each without union, with the accesses and (equal copies of) the extensions of the statement. -/
theorem statement_remove_unions_product {c : Cfg} {L : Lib D} {s : Stmt D} (h : SValid c s) (hc : GList.CloneOk L.toEnv s.extension)
    (next : Stmts D) :
    ∃ out, remove_unions c L (s :: next) = .ok out ∧
      out.map (fun t => (t.domain, t.scattering)) = (parts s.domain).flatMap (fun d => (parts s.scattering).map fun q => (d, q)) ∧
      ∀ t ∈ out, t.domain.length ≤ 1 ∧ t.scattering.length ≤ 1 ∧ t.access = s.access ∧ SValid c t ∧
        GList.equal L.toEnv s.extension t.extension = .ok true := by
  obtain ⟨e, h1, h2, h3, h4, h5⟩ := GList.generic_clone_correct h.extension hc
  refine ⟨_, unionOuter_ok h.access h.scattering h1 h.domain, ?_, ?_⟩
  · rw [List.map_flatMap]
    simp [Function.comp_def]
  · have hp : ∀ {r : Rel}, Rel.Valid c r → ∀ q ∈ parts r, q.length ≤ 1 ∧ Rel.Valid c q := by
      intro r hr q hq
      unfold parts at hq
      split at hq
      · simp at hq; subst hq; exact ⟨by simp, fun p hp => by cases hp⟩
      · obtain ⟨p, hp, rfl⟩ := List.mem_map.mp hq
        refine ⟨by simp, fun p' hp' => ?_⟩
        simp at hp'; subst hp'; exact hr _ hp
    intro t ht
    obtain ⟨a, ha, ht⟩ := List.mem_flatMap.mp ht
    obtain ⟨q, hq, rfl⟩ := List.mem_map.mp ht
    exact ⟨(hp h.domain _ ha).1, (hp h.scattering _ hq).1, rfl, ⟨(hp h.domain _ ha).2, (hp h.scattering _ hq).2, h.access, h2⟩, h5⟩

/-- C38: together, the statements obtained execute exactly the same iterations at the same dates. -/
theorem statement_remove_unions_executes {c : Cfg} {L : Lib D} {s : Stmt D} (h : SValid c s) (hc : GList.CloneOk L.toEnv s.extension)
    (next : Stmts D) :
    ∃ out, remove_unions c L (s :: next) = .ok out ∧ ∀ x t n, (∃ u ∈ out, Executes u x t n) ↔ Executes s x t n := by
  obtain ⟨out, h1, h2, _⟩ := statement_remove_unions_product h hc next
  refine ⟨out, h1, ?_⟩
  intro x t n
  have hm : (∃ u ∈ out, Executes u x t n) ↔ ∃ ds ∈ out.map (fun t => (t.domain, t.scattering)), Allows ds.1 x [] n ∧ Allows ds.2 t x n := by
    constructor
    · rintro ⟨u, hu, h⟩; exact ⟨_, List.mem_map.mpr ⟨u, hu, rfl⟩, h⟩
    · rintro ⟨ds, hds, h⟩
      obtain ⟨u, hu, rfl⟩ := List.mem_map.mp hds
      exact ⟨u, hu, h⟩
  rw [hm, h2]
  unfold Executes
  rw [allows_parts s.domain, allows_parts s.scattering]
  constructor
  · rintro ⟨ds, hds, h⟩
    obtain ⟨a, ha, hds⟩ := List.mem_flatMap.mp hds
    obtain ⟨q, hq, rfl⟩ := List.mem_map.mp hds
    exact ⟨⟨a, ha, h.1⟩, ⟨q, hq, h.2⟩⟩
  · rintro ⟨⟨a, ha, h1⟩, ⟨q, hq, h2⟩⟩
    exact ⟨(a, q), List.mem_flatMap.mpr ⟨a, ha, List.mem_map.mpr ⟨q, hq, rfl⟩⟩, h1, h2⟩

/-- C38: NULL gives NULL. -/
theorem statement_remove_unions_null (c : Cfg) (L : Lib D) : remove_unions c L [] = .ok [] := rfl

/-! ## C41: clones and equality -/

/-- Spec: the same relations, and extensions with the same content. -/
def SameStmt (L : Lib D) (a b : Stmt D) : Prop :=
  a.domain = b.domain ∧ a.scattering = b.scattering ∧ a.access = b.access ∧ GList.SameExts L.toEnv a.extension b.extension

/-- Spec: the lists are the same, element by element. -/
def SameStmts (L : Lib D) (x y : Stmts D) : Prop :=
  x.length = y.length ∧ ∀ (i : Nat) (a b : Stmt D), x[i]? = some a → y[i]? = some b → SameStmt L a b

theorem sameStmts_cons (L : Lib D) (a b : Stmt D) (x y : Stmts D) :
    SameStmts L (a :: x) (b :: y) ↔ SameStmt L a b ∧ SameStmts L x y := by
  unfold SameStmts
  constructor
  · rintro ⟨h1, h2⟩
    exact ⟨h2 0 a b rfl rfl, by simpa using h1, fun i u v hu hv => h2 (i + 1) u v (by simpa using hu) (by simpa using hv)⟩
  · rintro ⟨h1, h2, h3⟩
    refine ⟨by simp [h2], ?_⟩
    intro i u v hu hv
    cases i with
    | zero => simp at hu hv; subst hu; subst hv; exact h1
    | succ i => exact h3 i u v (by simpa using hu) (by simpa using hv)

theorem equalOne_spec {c : Cfg} {L : Lib D} {a b : Stmt D} (ha : SValid c a) (hb : SValid c b)
    (ht : GList.EqualTotal L.toEnv a.extension b.extension) : ∃ r, equalOne c L a b = .ok r ∧ (r = true ↔ SameStmt L a b) := by
  unfold equalOne SameStmt
  rw [Rel.equal_ok ha.domain.wf hb.domain.wf, Rel.equal_ok ha.scattering.wf hb.scattering.wf, RList.list_equal_iff ha.access hb.access]
  by_cases h1 : a.domain = b.domain
  · by_cases h2 : a.scattering = b.scattering
    · by_cases h3 : a.access = b.access
      · simp only [h1, h2, h3, decide_true, true_and]
        rcases GList.generic_equal_correct ht ha.extension hb.extension with ⟨e, s⟩ | ⟨e, s⟩
        · exact ⟨true, e, by simp [s]⟩
        · exact ⟨false, e, by simp [s]⟩
      · exact ⟨false, by simp [h1, h2, h3], by simp [h3]⟩
    · exact ⟨false, by simp [h1, h2], by simp [h2]⟩
  · exact ⟨false, by simp [h1], by simp [h1]⟩

/-- C41: the equality of two non NULL statement lists decides componentwise equality. -/
theorem statement_equal_correct {c : Cfg} {L : Lib D} : ∀ {x y : Stmts D}, x ≠ [] → y ≠ [] → (∀ a ∈ x, SValid c a) → (∀ b ∈ y, SValid c b) →
    (∀ a ∈ x, ∀ b ∈ y, GList.EqualTotal L.toEnv a.extension b.extension) →
    ∃ r, equal c L x y = .ok r ∧ (r = true ↔ SameStmts L x y)
  | [a], [b], _, _, hx, hy, ht => by
    obtain ⟨r, e, h⟩ := equalOne_spec (hx a (by simp)) (hy b (by simp)) (ht a (by simp) b (by simp))
    refine ⟨r, by simpa [equal] using e, h.trans ?_⟩
    rw [sameStmts_cons]
    simp [SameStmts]
  | a :: a' :: as, [b], _, _, _, _, _ => ⟨false, by simp [equal], by simp [SameStmts]⟩
  | [a], b :: b' :: bs, _, _, _, _, _ => ⟨false, by simp [equal], by simp [SameStmts]⟩
  | a :: a' :: as, b :: b' :: bs, _, _, hx, hy, ht => by
    obtain ⟨r, e, h⟩ := statement_equal_correct (x := a' :: as) (y := b' :: bs) (by simp) (by simp) (fun z hz => hx z (List.mem_cons_of_mem _ hz))
      (fun z hz => hy z (List.mem_cons_of_mem _ hz)) (fun z hz w hw => ht z (List.mem_cons_of_mem _ hz) w (List.mem_cons_of_mem _ hw))
    rw [equal, e, sameStmts_cons]
    cases r with
    | false => exact ⟨false, rfl, by constructor; intro h; cases h; intro h2; exact absurd (h.mpr h2.2) (by simp)⟩
    | true =>
      obtain ⟨r2, e2, h2⟩ := equalOne_spec (hx a (by simp)) (hy b (by simp)) (ht a (by simp) b (by simp))
      exact ⟨r2, e2, by rw [h2]; simp [h.mp rfl]⟩
  | [], _, h, _, _, _, _ => absurd rfl h
  | _ :: _, [], _, h, _, _, _ => absurd rfl h

/-- C41: two NULL lists are equal; the comparison of NULL with a statement is undefined (a NULL pointer is
dereferenced, source/statement.c:675). -/
theorem statement_equal_null_violates (c : Cfg) (L : Lib D) (s : Stmt D) :
    equal c L [] [] = .ok true ∧ equal c L [s] [] = .ub ∧ equal c L [] [s] = .ub := ⟨rfl, rfl, rfl⟩

theorem cloneOne_ok {c : Cfg} {L : Lib D} {a : Stmt D} (h : SValid c a) (hc : GList.CloneOk L.toEnv a.extension) :
    ∃ b, cloneOne c L a = .ok b ∧ SValid c b ∧ b.domain = a.domain ∧ b.scattering = a.scattering ∧ b.access = a.access ∧
      b.extension.map (·.interface) = a.extension.map (·.interface) ∧ GList.equal L.toEnv a.extension b.extension = .ok true := by
  obtain ⟨e, h1, h2, h3, h4, h5⟩ := GList.generic_clone_correct h.extension hc
  exact ⟨{ domain := a.domain, scattering := a.scattering, access := a.access, extension := e },
    by simp [cloneOne, Rel.clone_ok h.domain.wf, Rel.clone_ok h.scattering.wf, RList.clone_ok h.access, h1],
    ⟨h.domain, h.scattering, h.access, h2⟩, rfl, rfl, rfl, h4, h5⟩

theorem equalOne_true {c : Cfg} {L : Lib D} {a b : Stmt D} (ha : SValid c a) (h1 : b.domain = a.domain) (h2 : b.scattering = a.scattering)
    (h3 : b.access = a.access) (h4 : GList.equal L.toEnv a.extension b.extension = .ok true) : equalOne c L a b = .ok true := by
  unfold equalOne
  rw [h1, h2, h3, Rel.equal_ok ha.domain.wf ha.domain.wf, Rel.equal_ok ha.scattering.wf ha.scattering.wf, RList.list_equal_iff ha.access ha.access]
  simpa using h4

theorem equal_cons_true {c : Cfg} {L : Lib D} {a b : Stmt D} {x y : Stmts D} (h1 : equalOne c L a b = .ok true)
    (h2 : equal c L x y = .ok true) (h3 : x.length = y.length) : equal c L (a :: x) (b :: y) = .ok true := by
  cases x with
  | nil =>
    cases y with
    | nil => simpa [equal] using h1
    | cons => simp at h3
  | cons x xs =>
    cases y with
    | nil => simp at h3
    | cons y ys => rw [equal, h2]; exact h1

/-- C41: a clone of a statement list: as many statements, with the same relations, the same interfaces in the same order,
and equal for the library. -/
theorem statement_clone_equal {c : Cfg} {L : Lib D} {x : Stmts D} (h : ∀ a ∈ x, SValid c a) (hc : ∀ a ∈ x, GList.CloneOk L.toEnv a.extension) :
    ∃ y, clone c L x = .ok y ∧ (∀ b ∈ y, SValid c b) ∧ y.map (·.domain) = x.map (·.domain) ∧ y.map (·.scattering) = x.map (·.scattering) ∧
      y.map (·.access) = x.map (·.access) ∧
      y.map (fun s => s.extension.map (·.interface)) = x.map (fun s => s.extension.map (·.interface)) ∧ equal c L x y = .ok true := by
  unfold clone nclone
  rw [if_pos rfl]
  induction x with
  | nil => exact ⟨[], rfl, by simp, rfl, rfl, rfl, rfl, rfl⟩
  | cons a x ih =>
    obtain ⟨y, e, h1, h2, h3, h4, h5, h6⟩ := ih (fun b hb => h b (by simp [hb])) (fun b hb => hc b (by simp [hb]))
    obtain ⟨b, e', g0, g1, g2, g3, g4, g5⟩ := cloneOne_ok (h a (by simp)) (hc a (by simp))
    refine ⟨b :: y, Out.mapOut_cons_eq_ok.mpr ⟨b, y, e', e, rfl⟩, ?_, by simp [g1, h2], by simp [g2, h3], by simp [g3, h4], by simp [g4, h5], ?_⟩
    · intro z hz
      rcases List.mem_cons.mp hz with rfl | hz
      · exact g0
      · exact h1 z hz
    · refine equal_cons_true (equalOne_true (h a (by simp)) g1 g2 g3 g5) h6 ?_
      simpa using (congrArg List.length h2).symm

/-- C41: `osl_statement_nclone` clones the first `n` statements. -/
theorem statement_nclone_prefix (c : Cfg) (L : Lib D) (x : Stmts D) (n : Nat) :
    nclone c L x n = clone c L (x.take n) := by
  unfold clone nclone
  rw [if_neg (by omega), if_pos rfl]; simp

/-- C41: `osl_statement_add` appends and `osl_statement_number` counts. -/
theorem statement_add_number (x y : Stmts D) : number (add x y) = number x + number y ∧
    (∀ i, i < x.length → (add x y)[i]? = x[i]?) ∧ (∀ i, (add x y)[x.length + i]? = y[i]?) := by
  refine ⟨by simp [number, add], fun i hi => List.getElem?_append_left hi, fun i => ?_⟩
  show (x ++ y)[x.length + i]? = _
  rw [List.getElem?_append_right (by omega)]; simp

/-! Witness: a statement with a domain of two parts, a scattering, an access and an extension. -/

/-- Numbers as data. -/
def natLib : Lib Nat := { GList.natEnv with body := fun _ => none, extbody := fun _ => none }

def exStmt : Stmt Nat :=
  { domain := [exDomain, exDomain2], scattering := [exScatt], access := [[exAccess]], extension := [⟨some (Ifaces.mk 1 "arrays"), some 8⟩] }

theorem exStmt_valid : SValid Cfg.std exStmt where
  domain := Rel.exRel_valid
  scattering := by intro p hp; simp [exStmt] at hp; subst hp; exact exScatt_valid
  access := by
    intro r hr p hp; simp [exStmt] at hr; subst hr; simp at hp; subst hp; exact Rel.exAccess_valid
  extension := by unfold GList.Unique; decide

theorem exStmt_clone : GList.CloneOk natLib.toEnv exStmt.extension := by
  intro g hg i hi
  simp [exStmt] at hg; subst hg
  exact ⟨8, rfl, by simp [natLib, GList.natEnv]⟩

example : remove_unions Cfg.std natLib [exStmt] = .ok [{ exStmt with domain := [exDomain] }, { exStmt with domain := [exDomain2] }] ∧
    equal Cfg.std natLib [exStmt] [exStmt] = .ok true ∧ equal Cfg.std natLib [exStmt] [exStmt, exStmt] = .ok false ∧
    equal Cfg.std natLib [exStmt] [{ exStmt with domain := [exDomain] }] = .ok false := by decide

/-- The iteration 2 at date (0, 2) for the parameter 5. -/
example : Executes exStmt [2] [0, 2] [5] ∧ ¬ Executes exStmt [6] [0, 6] [5] := by
  constructor
  · exact ⟨.inr ⟨exDomain, by simp [exStmt], by decide, by decide, by decide, [], by decide, by decide⟩,
      .inr ⟨exScatt, by simp [exStmt], by decide, by decide, by decide, [], by decide, by decide⟩⟩
  · rintro ⟨h | ⟨p, hp, _, _, _, loc, hl, hh⟩, _⟩
    · simp [exStmt] at h
    · simp [exStmt] at hp
      have : loc = [] := by
        rcases hp with rfl | rfl <;> · simpa [exDomain, exDomain2] using hl
      subst this
      rcases hp with rfl | rfl
      · exact absurd hh (by decide)
      · exact absurd hh (by decide)

end Stmts
end Osl
