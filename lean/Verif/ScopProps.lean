import Verif.Scop
import Verif.StatementProps2
/-!
# Properties of the scops: C39, C40, C41, C42, C23
-/

namespace Osl
namespace Scops
open Rel (Attrs exDomain exDomain2 exAccess)
open Stmts (SValid SCheckable BodyFine Checkable RelOk StmtOk exStmt exScatt natLib)

variable {D : Type}

/-! ## C39: union removal -/

/-- Well-shaped relations, well formed extensions and registry. -/
structure SVal (c : Cfg) (s : Scop D) : Prop where
  context : Rel.Valid c s.context
  parameters : GList.Unique s.parameters
  statement : ∀ a ∈ s.statement, SValid c a
  registry : Ifaces.Unique s.registry
  extension : GList.Unique s.extension

/-- The clone functions of the extensions of the scop work. -/
structure SClone (L : Lib D) (s : Scop D) : Prop where
  parameters : GList.CloneOk L.toEnv s.parameters
  statement : ∀ a ∈ s.statement, GList.CloneOk L.toEnv a.extension
  extension : GList.CloneOk L.toEnv s.extension

/-- What the loop keeps of the expansions of the statements: the first statement of each, and all of the last. -/
def keptOf : List (Stmts D) → Stmts D
  | [] => []
  | [e] => e
  | e :: es => e.take 1 ++ keptOf es

theorem parts_ne (r : Rel) : Stmts.parts r ≠ [] := by
  unfold Stmts.parts
  split
  · simp
  · rename_i h; simpa using h

/-- The expansion of a statement is never empty. -/
theorem expansion {c : Cfg} {L : Lib D} {s : Stmt D} (h : SValid c s) (hc : GList.CloneOk L.toEnv s.extension) (next : Stmts D) :
    ∃ e, Stmts.remove_unions c L (s :: next) = .ok e ∧ Stmts.remove_unions c L [s] = .ok e ∧ e ≠ [] := by
  obtain ⟨e, h1, h2, _⟩ := Stmts.statement_remove_unions_product h hc next
  refine ⟨e, h1, h1, ?_⟩
  rintro rfl
  simp only [List.map_nil] at h2
  have := congrArg List.length h2
  obtain ⟨d, hd⟩ := List.exists_mem_of_ne_nil _ (parts_ne s.domain)
  obtain ⟨q, hq⟩ := List.exists_mem_of_ne_nil _ (parts_ne s.scattering)
  have hm : (d, q) ∈ (Stmts.parts s.domain).flatMap (fun d => (Stmts.parts s.scattering).map fun q => (d, q)) :=
    List.mem_flatMap.mpr ⟨d, hd, List.mem_map.mpr ⟨q, hq, rfl⟩⟩
  rw [← h2] at hm; cases hm

theorem unionsLoop_some {c : Cfg} {L : Lib D} : ∀ {ss : Stmts D}, (∀ s ∈ ss, SValid c s) → (∀ s ∈ ss, GList.CloneOk L.toEnv s.extension) →
    ∀ (pre last : Stmts D), last ≠ [] →
    ∃ es, Out.mapOut (fun s => Stmts.remove_unions c L [s]) ss = .ok es ∧
      unionsLoop c L ss (pre ++ last) (some pre.length) = .ok (pre ++ keptOf (last :: es))
  | [], _, _, pre, last, _ => ⟨[], rfl, by simp [unionsLoop, keptOf]⟩
  | s :: ss, h, hc, pre, last, hl => by
    obtain ⟨e, e1, e2, hne⟩ := expansion (h s (by simp)) (hc s (by simp)) ss
    obtain ⟨x, last', rfl⟩ := List.exists_cons_of_ne_nil hl
    obtain ⟨es, h1, h2⟩ := unionsLoop_some (ss := ss) (fun s hs => h s (by simp [hs])) (fun s hs => hc s (by simp [hs])) (pre ++ [x]) e hne
    refine ⟨e :: es, Out.mapOut_cons_eq_ok.mpr ⟨e, es, e2, h1, rfl⟩, ?_⟩
    rw [unionsLoop, e1]
    have he : e.isEmpty = false := by cases e <;> simp_all
    have ht : (pre ++ x :: last').take (pre.length + 1) = pre ++ [x] := by
      rw [List.take_append, List.take_of_length_le (by omega)]; simp
    simp only [Out.ok_bind, he, Bool.false_eq_true, if_false, ht]
    rw [show pre.length + 1 = (pre ++ [x]).length by simp, h2]
    simp [keptOf]

/-- What `osl_scop_remove_unions` really computes: with the expansions `es` of the statements, it keeps the first statement
of each expansion but the last, and the whole last expansion. -/
theorem unionsLoop_kept {c : Cfg} {L : Lib D} {ss : Stmts D} (h : ∀ s ∈ ss, SValid c s) (hc : ∀ s ∈ ss, GList.CloneOk L.toEnv s.extension) :
    ∃ es, Out.mapOut (fun s => Stmts.remove_unions c L [s]) ss = .ok es ∧ unionsLoop c L ss [] none = .ok (keptOf es) := by
  cases ss with
  | nil => exact ⟨[], rfl, rfl⟩
  | cons s ss =>
    obtain ⟨e, e1, e2, hne⟩ := expansion (h s (by simp)) (hc s (by simp)) ss
    obtain ⟨es, h1, h2⟩ := unionsLoop_some (ss := ss) (fun s hs => h s (by simp [hs])) (fun s hs => hc s (by simp [hs])) [] e hne
    refine ⟨e :: es, Out.mapOut_cons_eq_ok.mpr ⟨e, es, e2, h1, rfl⟩, ?_⟩
    rw [unionsLoop, e1]
    have he : e.isEmpty = false := by cases e <;> simp_all
    simp only [Out.ok_bind, he, Bool.false_eq_true, if_false]
    simpa using h2

/-- The statements of the result of `osl_scop_remove_unions`, exactly, and everything else is the same or an equal copy. -/
theorem scop_remove_unions_kept {c : Cfg} {L : Lib D} {s : Scop D} (h : SVal c s) (hc : SClone L s) :
    ∃ es s', Out.mapOut (fun a => Stmts.remove_unions c L [a]) s.statement = .ok es ∧ remove_unions c L [s] = .ok [s'] ∧
      s'.statement = keptOf es ∧ s'.version = s.version ∧ s'.language = s.language ∧ s'.context = s.context ∧ s'.registry = s.registry ∧
      GList.equal L.toEnv s.parameters s'.parameters = .ok true ∧ GList.equal L.toEnv s.extension s'.extension = .ok true := by
  obtain ⟨es, h1, h2⟩ := unionsLoop_kept h.statement hc.statement
  obtain ⟨e, e1, _, _, _, e5⟩ := GList.generic_clone_correct h.extension hc.extension
  obtain ⟨p, p1, _, _, _, p5⟩ := GList.generic_clone_correct h.parameters hc.parameters
  refine ⟨es, { version := s.version, language := s.language, context := s.context, parameters := p, statement := keptOf es, registry := s.registry, extension := e },
    h1, ?_, rfl, rfl, rfl, rfl, rfl, p5, e5⟩
  have hr := (Ifaces.interface_clone_correct h.registry).1
  refine Out.mapOut_cons_eq_ok.mpr ⟨_, [], ?_, rfl, rfl⟩
  simp [unionsOne, h2, Rel.clone_ok h.context.wf, e1, p1, hr]

theorem keptOf_flatten : ∀ {es : List (Stmts D)}, (∀ e ∈ es.dropLast, e.length = 1) → keptOf es = es.flatten
  | [], _ => rfl
  | [e], _ => by simp [keptOf]
  | e :: f :: es, h => by
    have h1 := h e (by simp)
    have h2 := keptOf_flatten (es := f :: es) (fun x hx => h x (by simp [hx]))
    rw [keptOf]
    · rw [h2, List.take_of_length_le (by omega)]; simp
    · simp

/-- C39, for scops where no statement but the last one has a union in its domain or scattering: the statements of the
result are the expansions of the statements of the scop, in order, and all else is the same or an equal copy.  The
general case is `scop_remove_unions_kept`. -/
theorem scop_remove_unions_one_part {c : Cfg} {L : Lib D} {s : Scop D} (h : SVal c s) (hc : SClone L s)
    (hone : ∀ a ∈ s.statement.dropLast, a.domain.length ≤ 1 ∧ a.scattering.length ≤ 1) :
    ∃ es s', Out.mapOut (fun a => Stmts.remove_unions c L [a]) s.statement = .ok es ∧ remove_unions c L [s] = .ok [s'] ∧
      s'.statement = es.flatten ∧ s'.version = s.version ∧ s'.language = s.language ∧ s'.context = s.context ∧ s'.registry = s.registry ∧
      GList.equal L.toEnv s.parameters s'.parameters = .ok true ∧ GList.equal L.toEnv s.extension s'.extension = .ok true := by
  obtain ⟨es, s', h1, h2, h3, h4⟩ := scop_remove_unions_kept h hc
  refine ⟨es, s', h1, h2, ?_, h4⟩
  rw [h3, keptOf_flatten]
  have hst := h.statement
  have hcs := hc.statement
  clear h2 h3 h4
  generalize s.statement = ss at *
  have hp : ∀ r : Rel, r.length ≤ 1 → (Stmts.parts r).length = 1 := by
    intro r hr
    unfold Stmts.parts
    split
    · rfl
    · rename_i hne; cases r with
      | nil => simp at hne
      | cons p r => simp at hr ⊢; exact hr
  induction ss generalizing es with
  | nil => simp [Out.mapOut] at h1; subst h1; simp
  | cons a ss ih =>
    obtain ⟨e, es', g1, g2, rfl⟩ := Out.mapOut_cons_eq_ok.mp h1
    cases ss with
    | nil => simp [Out.mapOut] at g2; subst g2; simp
    | cons b ss =>
      have ih := ih es' (fun x hx => hone x (by simp at hx ⊢; exact .inr hx)) g2 (fun x hx => hst x (by simp [hx])) (fun x hx => hcs x (by simp [hx]))
      obtain ⟨f, es'', g3, g4, rfl⟩ := Out.mapOut_cons_eq_ok.mp g2
      intro x hx
      simp only [List.dropLast_cons₂, List.mem_cons] at hx
      rcases hx with rfl | hx
      · obtain ⟨o, o1, o2, _⟩ := Stmts.statement_remove_unions_product (hst a (by simp)) (hcs a (by simp)) []
        rw [g1] at o1
        injection o1 with o1
        subst o1
        have hl := congrArg List.length o2
        obtain ⟨q1, q2⟩ := hone a (by simp)
        rw [List.length_map] at hl
        rw [hl]
        obtain ⟨d, hd⟩ := List.length_eq_one_iff.mp (hp _ q1)
        obtain ⟨t, ht⟩ := List.length_eq_one_iff.mp (hp _ q2)
        simp [hd, ht]
      · exact ih x (by simpa using hx)

/-- A scop with two statements, each with a union of two domains. -/
def exScop : Scop Nat :=
  { version := 1, language := some "C".toList, context := [{ exDomain with type := TYPE_CONTEXT, nb_output_dims := 0, nb_rows := 0, nb_columns := 3, m := [] }],
    parameters := [⟨some (Ifaces.mk 0 "strings"), some 3⟩], statement := [exStmt, exStmt], registry := [Ifaces.mk 0 "strings", Ifaces.mk 1 "arrays"],
    extension := [⟨some (Ifaces.mk 1 "arrays"), some 8⟩] }

/-- Finding (C39): a scop of two statements with a domain of two parts each should give four statements; the result
has three, the second part of the domain of the first statement is lost. -/
theorem scop_remove_unions_violates :
    ∃ s', remove_unions Cfg.std natLib [exScop] = .ok [s'] ∧
      s'.statement = [{ exStmt with domain := [exDomain] }, { exStmt with domain := [exDomain] }, { exStmt with domain := [exDomain2] }] ∧
      Out.mapOut (fun a => Stmts.remove_unions Cfg.std natLib [a]) exScop.statement =
        .ok [[{ exStmt with domain := [exDomain] }, { exStmt with domain := [exDomain2] }],
             [{ exStmt with domain := [exDomain] }, { exStmt with domain := [exDomain2] }]] := by
  refine ⟨{ exScop with statement := _ }, ?_, rfl, ?_⟩ <;> decide

/-! ## C40: normalisation of the scatterings -/

/-- Spec: `m` is the greatest number of output dimensions of the scatterings (0 when there is none). -/
def IsMaxScatt (ss : Stmts D) (m : Int) : Prop :=
  0 ≤ m ∧ (∀ s ∈ ss, ∀ p, s.scattering.head? = some p → p.nb_output_dims ≤ m) ∧
    (m = 0 ∨ ∃ s ∈ ss, ∃ p, s.scattering.head? = some p ∧ p.nb_output_dims = m)

theorem maxScatt_spec : ∀ (ss : Stmts D) (m : Int), m ≤ maxScatt ss m ∧
    (∀ s ∈ ss, ∀ p, s.scattering.head? = some p → p.nb_output_dims ≤ maxScatt ss m) ∧
    (maxScatt ss m = m ∨ ∃ s ∈ ss, ∃ p, s.scattering.head? = some p ∧ p.nb_output_dims = maxScatt ss m)
  | [], m => ⟨by simp [maxScatt], by simp, .inl rfl⟩
  | s :: ss, m => by
    rw [maxScatt]
    cases hs : s.scattering with
    | nil =>
      obtain ⟨h1, h2, h3⟩ := maxScatt_spec ss m
      refine ⟨h1, ?_, ?_⟩
      · intro t ht p hp
        rcases List.mem_cons.mp ht with rfl | ht
        · rw [hs] at hp; cases hp
        · exact h2 t ht p hp
      · rcases h3 with h3 | ⟨t, ht, h⟩
        · exact .inl h3
        · exact .inr ⟨t, by simp [ht], h⟩
    | cons q rest =>
      obtain ⟨h1, h2, h3⟩ := maxScatt_spec ss (Rel.omax m q.nb_output_dims)
      have hom := (Rel.omax_le (a := m) (b := q.nb_output_dims)).mp h1
      refine ⟨hom.1, ?_, ?_⟩
      · intro t ht p hp
        rcases List.mem_cons.mp ht with rfl | ht
        · rw [hs] at hp; injection hp with hp; subst hp; exact hom.2
        · exact h2 t ht p hp
      · rcases h3 with h3 | ⟨t, ht, h⟩
        · by_cases hlt : m < q.nb_output_dims
          · refine .inr ⟨s, by simp, q, by simp [hs], ?_⟩
            simp only [h3]; unfold Rel.omax; split <;> omega
          · left; simp only [h3]; unfold Rel.omax; split <;> omega
        · exact .inr ⟨t, by simp [ht], h⟩

/-- Spec: how a normalised statement relates to the statement: only the scattering differs, NULL stays NULL, and
otherwise all the parts have `m` output dimensions and the dates are the old ones completed by zeros. -/
def Normalized (m : Int) (a b : Stmt D) : Prop :=
  b.domain = a.domain ∧ b.access = a.access ∧ b.extension = a.extension ∧ (a.scattering = [] → b.scattering = []) ∧
  b.scattering.length = a.scattering.length ∧ (∀ p ∈ b.scattering, p.nb_output_dims = m) ∧
  ∀ X y n, Rel.Mem b.scattering X y n ↔ ∃ x k, X = x ++ List.replicate k 0 ∧ (X.length : Int) = m ∧ Rel.Mem a.scattering x y n

/-- C40: normalising a scop gives all the parts of all the scatterings the same number of output dimensions, the maximum over
the scatterings of the scop, and completes the dates by zeros; nothing else changes.  Requires that the parts of a
scattering do not have more output dimensions than this maximum, taken on the first parts
(see `scop_normalize_later_part_violates`), and that they have the same precision. -/
theorem scop_normalize_scattering_correct {c : Cfg} {s : Scop D} {next : Scops D} (hval : ∀ a ∈ s.statement, Rel.Valid c a.scattering)
    (hdims : ∀ a ∈ s.statement, ∀ p ∈ a.scattering, p.Dims)
    (hprec : ∀ a ∈ s.statement, ∀ p ∈ a.scattering, ∀ q ∈ a.scattering, p.precision = q.precision)
    (hparts : ∀ m, IsMaxScatt s.statement m → ∀ a ∈ s.statement, ∀ p ∈ a.scattering, p.nb_output_dims ≤ m) :
    ∃ s' m, normalize_scattering c (s :: next) = .ok (s' :: next) ∧ IsMaxScatt s.statement m ∧
      s' = { s with statement := s'.statement } ∧ s'.statement.length = s.statement.length ∧
      ∀ (i : Nat) (a b : Stmt D), s.statement[i]? = some a → s'.statement[i]? = some b → Normalized m a b := by
  obtain ⟨m1, m2, m3⟩ := maxScatt_spec s.statement 0
  have hm : IsMaxScatt s.statement (maxScatt s.statement 0) := ⟨m1, m2, m3⟩
  have hp := hparts _ hm
  generalize hM : maxScatt s.statement 0 = M at *
  have key : ∀ ss : Stmts D, (∀ a ∈ ss, a ∈ s.statement) → ∃ ss', Out.mapOut (normalizeOne c M) ss = .ok ss' ∧ ss'.length = ss.length ∧
      ∀ (i : Nat) (a b : Stmt D), ss[i]? = some a → ss'[i]? = some b → Normalized M a b := by
    intro ss
    induction ss with
    | nil => intro _; exact ⟨[], rfl, rfl, by simp⟩
    | cons a ss ih =>
      intro hin
      obtain ⟨ss', e, hl, h⟩ := ih (fun x hx => hin x (by simp [hx]))
      have ha := hin a (by simp)
      have one : ∃ b, normalizeOne c M a = .ok b ∧ Normalized M a b := by
        unfold normalizeOne
        cases hsc : a.scattering with
        | nil =>
          refine ⟨a, rfl, rfl, rfl, rfl, fun h => h, rfl, ?_, ?_⟩
          · rw [hsc]; simp
          · intro X y n
            rw [hsc]
            simp [Rel.Mem]
        | cons p rest =>
          obtain ⟨r, e, r1, r2, r3⟩ := Rel.relation_extend_output_mem (c := c) (r := p :: rest) (dim := M) (by simp)
            (by rw [← hsc]; exact hval a ha) (by rw [← hsc]; exact hdims a ha) (by rw [← hsc]; exact hprec a ha) (by rw [← hsc]; exact hp a ha)
          refine ⟨{ a with scattering := r }, by simp [e], rfl, rfl, rfl, ?_, ?_, fun p hp => (r2 p hp).1, ?_⟩
          · rw [hsc]; intro h; cases h
          · rw [hsc]; exact r1
          · rw [hsc]; exact r3
      obtain ⟨b, e', hb⟩ := one
      refine ⟨b :: ss', Out.mapOut_cons_eq_ok.mpr ⟨b, ss', e', e, rfl⟩, by simp [hl], ?_⟩
      intro i x y hx hy
      cases i with
      | zero => simp at hx hy; subst hx; subst hy; exact hb
      | succ i => exact h i x y (by simpa using hx) (by simpa using hy)
  obtain ⟨ss', e, hl, h⟩ := key s.statement (fun _ h => h)
  refine ⟨{ s with statement := ss' }, M, ?_, hm, rfl, hl, h⟩
  simp [normalize_scattering, hM, e]

/-- C40: completing dates of the same length by zeros does not change their lexicographic order. -/
theorem zero_padding_order : ∀ {x y : List Int}, x.length = y.length → ∀ k,
    (x ++ List.replicate k (0 : Int) < y ++ List.replicate k 0 ↔ x < y)
  | [], [], _, k => by
    simp only [List.nil_append]
    constructor
    · intro h; exact absurd h (List.lt_irrefl _)
    · intro h; exact absurd h (List.lt_irrefl _)
  | a :: x, b :: y, h, k => by
    have ih := zero_padding_order (x := x) (y := y) (by simpa using h) k
    simp only [List.cons_append, List.cons_lt_cons_iff, ih]

/-- C40: normalising NULL, or a scop without statements, changes nothing. -/
theorem scop_normalize_null (c : Cfg) : normalize_scattering c ([] : Scops D) = .ok [] := rfl

/-- Finding (C40): the maximum is taken on the first parts of the scatterings only; a later part with more output
dimensions makes the function fail. -/
theorem scop_normalize_later_part_violates :
    normalize_scattering Cfg.std [{ exScop with statement := [{ exStmt with scattering := [{ exScatt with nb_output_dims := 1, nb_rows := 1, nb_columns := 5, m := [[0, -1, 1, 0, 0]] }, exScatt] }] }] = .err := by
  decide

/-- A scop with scatterings of one and two dimensions meets the hypotheses; the first scattering gets a second dimension
equal to zero. -/
def exScatt1 : Part := { exScatt with nb_output_dims := 1, nb_rows := 1, nb_columns := 5, m := [[0, -1, 1, 0, 0]] }

example : normalize_scattering Cfg.std [{ exScop with statement := [{ exStmt with scattering := [exScatt1] }, exStmt] }] =
    .ok [{ exScop with statement := [{ exStmt with scattering := [{ exScatt1 with nb_output_dims := 2, nb_rows := 2, nb_columns := 6, m := [[0, -1, 0, 1, 0, 0], [0, 0, -1, 0, 0, 0]] }] }, exStmt] }] := by decide

/-! ## C41: clones and equality -/

/-- Spec: componentwise equality of two scops, the registries being compared by their first interface only. -/
structure SameScop (L : Lib D) (a b : Scop D) : Prop where
  version : a.version = b.version
  language : a.language = b.language
  context : a.context = b.context
  parameters : GList.SameExts L.toEnv a.parameters b.parameters
  statement : Stmts.SameStmts L a.statement b.statement
  registry : a.registry.head? = b.registry.head?
  extension : GList.SameExts L.toEnv a.extension b.extension

/-- What the comparison of two scops needs: languages, both without statements or both with, and equality functions
which answer. -/
structure Comparable (L : Lib D) (a b : Scop D) : Prop where
  lang : a.language ≠ none ∧ b.language ≠ none
  statement : a.statement = [] ↔ b.statement = []
  ptotal : GList.EqualTotal L.toEnv a.parameters b.parameters
  stotal : ∀ x ∈ a.statement, ∀ y ∈ b.statement, GList.EqualTotal L.toEnv x.extension y.extension
  etotal : GList.EqualTotal L.toEnv a.extension b.extension

theorem registry_equal {x y : Ifaces} (hx : Ifaces.Unique x) (hy : Ifaces.Unique y) :
    Ifaces.equal x.head? y.head? = .ok (decide (x.head? = y.head?)) := by
  cases x with
  | nil => cases y <;> simp [Ifaces.equal]
  | cons i x =>
    cases y with
    | nil => simp [Ifaces.equal]
    | cons j y =>
      have := GList.iface_equal_cases (i := i) (j := j) (hx.2 i (by simp)) (hy.2 j (by simp))
      simpa using this

theorem equalOne_spec {c : Cfg} {L : Lib D} {a b : Scop D} (ha : SVal c a) (hb : SVal c b) (h : Comparable L a b) :
    ∃ r, equalOne c L a b = .ok r ∧ (r = true ↔ SameScop L a b) := by
  unfold equalOne
  by_cases h1 : a.version = b.version
  rotate_left
  · rw [if_pos h1]; exact ⟨false, rfl, by simp only [Bool.false_eq_true, false_iff]; exact fun g => h1 g.version⟩
  rw [if_neg (by simp [h1])]
  obtain ⟨u, hu⟩ := Option.ne_none_iff_exists'.mp h.lang.1
  obtain ⟨v, hv⟩ := Option.ne_none_iff_exists'.mp h.lang.2
  rw [hu, hv]
  simp only
  by_cases h2 : u = v
  rotate_left
  · rw [if_pos h2]
    refine ⟨false, rfl, ?_⟩
    simp only [Bool.false_eq_true, false_iff]
    intro g; have := g.language; rw [hu, hv] at this; injection this with this; exact h2 this
  rw [if_neg (by simp [h2])]
  unfold equalRest
  rw [Rel.equal_ok ha.context.wf hb.context.wf]
  by_cases h3 : a.context = b.context
  rotate_left
  · exact ⟨false, by simp [h3], by simp only [Bool.false_eq_true, false_iff]; exact fun g => h3 g.context⟩
  simp only [h3, decide_true]
  rcases GList.generic_equal_correct h.ptotal ha.parameters hb.parameters with ⟨e4, h4⟩ | ⟨e4, h4⟩
  rotate_left
  · rw [e4]; exact ⟨false, rfl, by simp only [Bool.false_eq_true, false_iff]; exact fun g => h4 g.parameters⟩
  rw [e4]
  simp only
  have h5 : ∃ r, Stmts.equal c L a.statement b.statement = .ok r ∧ (r = true ↔ Stmts.SameStmts L a.statement b.statement) := by
    by_cases hn : a.statement = []
    · have hn' := h.statement.mp hn
      rw [hn, hn']
      exact ⟨true, rfl, by simp [Stmts.SameStmts]⟩
    · exact Stmts.statement_equal_correct hn (fun hb' => hn (h.statement.mpr hb')) ha.statement hb.statement h.stotal
  obtain ⟨r5, e5, h5⟩ := h5
  rw [e5]
  cases r5 with
  | false => exact ⟨false, rfl, by simp only [Bool.false_eq_true, false_iff]; exact fun g => absurd (h5.mpr g.statement) (by simp)⟩
  | true =>
    simp only [registry_equal ha.registry hb.registry]
    by_cases h6 : a.registry.head? = b.registry.head?
    rotate_left
    · exact ⟨false, by simp [h6], by simp only [Bool.false_eq_true, false_iff]; exact fun g => h6 g.registry⟩
    simp only [h6, decide_true]
    rcases GList.generic_equal_correct h.etotal ha.extension hb.extension with ⟨e7, h7⟩ | ⟨e7, h7⟩
    · exact ⟨true, e7, by simp only [true_iff]; exact ⟨h1, by rw [hu, hv, h2], h3, h4, h5.mp rfl, h6, h7⟩⟩
    · exact ⟨false, e7, by simp only [Bool.false_eq_true, false_iff]; exact fun g => h7 g.extension⟩

/-- C41: the equality of two scop lists decides componentwise equality, except that only the first interfaces of the
registries are compared, and that a scop without language, or without statement, cannot be compared with
one which has some (see the findings below). -/
theorem scop_equal_correct {c : Cfg} {L : Lib D} : ∀ {x y : Scops D}, (∀ a ∈ x, SVal c a) → (∀ b ∈ y, SVal c b) →
    (∀ a ∈ x, ∀ b ∈ y, Comparable L a b) →
    ∃ r, equal c L x y = .ok r ∧
      (r = true ↔ x.length = y.length ∧ ∀ (i : Nat) (a b : Scop D), x[i]? = some a → y[i]? = some b → SameScop L a b)
  | [], [], _, _, _ => ⟨true, rfl, by simp⟩
  | [], _ :: _, _, _, _ => ⟨false, rfl, by simp⟩
  | _ :: _, [], _, _, _ => ⟨false, rfl, by simp⟩
  | a :: x, b :: y, hx, hy, h => by
    obtain ⟨r, e, h1⟩ := equalOne_spec (hx a (by simp)) (hy b (by simp)) (h a (by simp) b (by simp))
    obtain ⟨r2, e2, h2⟩ := scop_equal_correct (x := x) (y := y) (fun z hz => hx z (by simp [hz])) (fun z hz => hy z (by simp [hz]))
      (fun z hz w hw => h z (by simp [hz]) w (by simp [hw]))
    rw [equal, e]
    cases r with
    | false =>
      refine ⟨false, rfl, ?_⟩
      simp only [Bool.false_eq_true, false_iff]
      intro g
      exact absurd (h1.mpr (g.2 0 a b rfl rfl)) (by simp)
    | true =>
      refine ⟨r2, e2, h2.trans ?_⟩
      constructor
      · rintro ⟨g1, g2⟩
        refine ⟨by simp [g1], ?_⟩
        intro i u v hu hv
        cases i with
        | zero => simp at hu hv; subst hu; subst hv; exact h1.mp rfl
        | succ i => exact g2 i u v (by simpa using hu) (by simpa using hv)
      · rintro ⟨g1, g2⟩
        exact ⟨by simpa using g1, fun i u v hu hv => g2 (i + 1) u v (by simpa using hu) (by simpa using hv)⟩

/-- C41: cloning a scop list gives a list with the same components (equal copies of the extensions), and equal for the library
when the scops have a language. -/
theorem scop_clone_equal {c : Cfg} {L : Lib D} {x : Scops D} (h : ∀ a ∈ x, SVal c a) (hc : ∀ a ∈ x, SClone L a) :
    ∃ y, clone c L x = .ok y ∧ y.length = x.length ∧
      (∀ (i : Nat) (a b : Scop D), x[i]? = some a → y[i]? = some b → b.version = a.version ∧ b.language = a.language ∧ b.context = a.context ∧
        b.registry = a.registry ∧ GList.equal L.toEnv a.parameters b.parameters = .ok true ∧ Stmts.equal c L a.statement b.statement = .ok true ∧
        GList.equal L.toEnv a.extension b.extension = .ok true) ∧
      ((∀ a ∈ x, a.language ≠ none) → equal c L x y = .ok true) := by
  induction x with
  | nil => exact ⟨[], rfl, rfl, by simp, fun _ => rfl⟩
  | cons a x ih =>
    obtain ⟨y, e, hl, h1, h2⟩ := ih (fun z hz => h z (by simp [hz])) (fun z hz => hc z (by simp [hz]))
    have ha := h a (by simp)
    have hca := hc a (by simp)
    obtain ⟨pe, p1, p2, _, _, p5⟩ := GList.generic_clone_correct ha.parameters hca.parameters
    obtain ⟨ee, e1, e2, _, _, e5⟩ := GList.generic_clone_correct ha.extension hca.extension
    obtain ⟨st, s1, s2, s3, s4, s5, s6, s7⟩ := Stmts.statement_clone_equal ha.statement hca.statement
    have hr := (Ifaces.interface_clone_correct ha.registry).1
    refine ⟨{ version := a.version, language := a.language, context := a.context, parameters := pe, statement := st, registry := a.registry, extension := ee } :: y,
      ?_, by simp [hl], ?_, ?_⟩
    · refine Out.mapOut_cons_eq_ok.mpr ⟨_, y, ?_, e, rfl⟩
      simp [cloneOne, Rel.clone_ok ha.context.wf, p1, s1, hr, e1]
    · intro i u v hu hv
      cases i with
      | zero => simp at hu hv; subst hu; subst hv; exact ⟨rfl, rfl, rfl, rfl, p5, s7, e5⟩
      | succ i => exact h1 i u v (by simpa using hu) (by simpa using hv)
    · intro hlang
      obtain ⟨u, hu⟩ := Option.ne_none_iff_exists'.mp (hlang a (by simp))
      have : equalOne c L a { version := a.version, language := a.language, context := a.context, parameters := pe, statement := st, registry := a.registry, extension := ee } = .ok true := by
        unfold equalOne
        rw [if_neg (by simp)]
        simp only [hu, ne_eq, not_true_eq_false, if_false]
        unfold equalRest
        simp only [Rel.equal_ok ha.context.wf ha.context.wf, decide_true, p5, s7, registry_equal ha.registry ha.registry]
        exact e5
      rw [equal, this]
      exact h2 (fun z hz => hlang z (by simp [hz]))

/-- Findings (C41): two registries with the same first interface are equal whatever follows; a scop without language
cannot be compared, even with its copy; nor a scop without statement with one which has some (undefined behaviours). -/
theorem scop_equal_violates :
    equal Cfg.std natLib [exScop] [{ exScop with registry := [Ifaces.mk 0 "strings"] }] = .ok true ∧
    equal Cfg.std natLib [{ exScop with language := none }] [{ exScop with language := none }] = .ub ∧
    equal Cfg.std natLib [exScop] [{ exScop with statement := [] }] = .ub := by decide

/-- C41: `osl_scop_add` appends and `osl_scop_number` counts. -/
theorem scop_add_number (x y : Scops D) : number (add x y) = number x + number y ∧
    (∀ i, i < x.length → (add x y)[i]? = x[i]?) ∧ (∀ i, (add x y)[x.length + i]? = y[i]?) := by
  refine ⟨by simp [number, add], fun i hi => List.getElem?_append_left hi, fun i => ?_⟩
  show (x ++ y)[x.length + i]? = _
  rw [List.getElem?_append_right (by omega)]; simp

/-! ## C42: integrity -/

/-- Spec: a well formed scop: a well formed context, and statements well formed for its number of parameters. -/
def ScopOk (L : Lib D) (s : Scop D) : Prop :=
  RelOk s.context TYPE_CONTEXT (-1) (-1) (-1) ∧ ∀ a ∈ s.statement, StmtOk L (expectedParams s.context) a

theorem scop_integrity_check_iff {c : Cfg} (hv : c.Valid) (hd : c.ndebug = false) {L : Lib D} {x : Scops D}
    (hctx : ∀ s ∈ x, Checkable c s.context) (h : ∀ s ∈ x, ∀ a ∈ s.statement, SCheckable c a) (hb : ∀ s ∈ x, ∀ a ∈ s.statement, BodyFine L a) :
    ∃ b, integrity_check c L x = .ok b ∧ (b = true ↔ ∀ s ∈ x, ScopOk L s) := by
  induction x with
  | nil => exact ⟨true, rfl, by simp⟩
  | cons s x ih =>
    obtain ⟨b, e, h1⟩ := ih (fun z hz => hctx z (by simp [hz])) (fun z hz => h z (by simp [hz])) (fun z hz => hb z (by simp [hz]))
    obtain ⟨b2, e2, h2⟩ := Stmts.rel_integrity hv hd (hctx s (by simp)) TYPE_CONTEXT (-1) (-1) (-1)
    obtain ⟨b3, e3, h3⟩ := Stmts.statement_integrity_check_iff hv hd (h s (by simp)) (hb s (by simp)) (expectedParams s.context)
    have hu : (UNDEFINED : Int) = -1 := rfl
    rw [integrity_check, hu, e2]
    have hall : (∀ t ∈ s :: x, ScopOk L t) ↔ (RelOk s.context TYPE_CONTEXT (-1) (-1) (-1) ∧ ∀ a ∈ s.statement, StmtOk L (expectedParams s.context) a) ∧ ∀ t ∈ x, ScopOk L t := by
      simp [ScopOk]
    rw [hall, ← h2, ← h3, ← h1]
    cases b2 with
    | false => exact ⟨false, rfl, by simp⟩
    | true =>
      simp only [e3]
      cases b3 with
      | false => exact ⟨false, rfl, by simp⟩
      | true => exact ⟨b, e, by simp⟩

/-- C42, in the words of the property: when the check answers 1, the context has no iterators, every part of every domain,
scattering and access has the number of parameters of the context, and the scatterings and accesses start from as many
dimensions as their domain has. -/
theorem scop_integrity_sound {c : Cfg} (hv : c.Valid) (hd : c.ndebug = false) {L : Lib D} {x : Scops D}
    (hctx : ∀ s ∈ x, Checkable c s.context) (h : ∀ s ∈ x, ∀ a ∈ s.statement, SCheckable c a) (hb : ∀ s ∈ x, ∀ a ∈ s.statement, BodyFine L a)
    (hi : integrity_check c L x = .ok true) {s : Scop D} (hs : s ∈ x) {ctx : Part} {crest : Rel} (hc : s.context = ctx :: crest) :
    ctx.type = TYPE_CONTEXT ∧ (∀ q ∈ s.context, q.nb_output_dims = 0 ∧ q.nb_input_dims = 0 ∧ q.nb_parameters = ctx.nb_parameters) ∧
    ∀ a ∈ s.statement,
      (∀ q ∈ a.domain, q.nb_input_dims = 0 ∧ q.nb_parameters = ctx.nb_parameters) ∧
      (∀ q ∈ a.scattering, q.nb_parameters = ctx.nb_parameters) ∧ (∀ r ∈ a.access, ∀ q ∈ r, q.nb_parameters = ctx.nb_parameters) ∧
      ∀ d drest, a.domain = d :: drest →
        (∀ q ∈ a.domain, q.nb_output_dims = d.nb_output_dims) ∧ (∀ q ∈ a.scattering, q.nb_input_dims = d.nb_output_dims) ∧
        ∀ r ∈ a.access, ∀ q ∈ r, q.nb_input_dims = d.nb_output_dims := by
  obtain ⟨b, e, h1⟩ := scop_integrity_check_iff hv hd hctx h hb
  rw [e] at hi
  injection hi with hi
  obtain ⟨h2, h3⟩ := h1.mp hi s hs
  have hw := h2 ctx crest hc
  have ht : ctx.type = TYPE_CONTEXT := by
    have := hw.type_ok
    unfold Rel.TypeMatches at this
    rw [if_neg (by decide)] at this
    exact this
  have hep : expectedParams s.context = ctx.nb_parameters := by simp [expectedParams, hc]
  have hkn := hw.known.2.2.2
  rw [hep] at h3
  refine ⟨ht, ?_, ?_⟩
  · intro q hq
    rw [hc] at hq
    obtain ⟨a1, a2, a3, _⟩ := hw.parts q hq
    obtain ⟨b1, b2⟩ := hw.context ht
    exact ⟨by omega, by omega, a3⟩
  · have par : ∀ {r : Rel} {t o i : Int}, RelOk r t o i ctx.nb_parameters → ∀ q ∈ r, q.nb_parameters = ctx.nb_parameters ∧ (i ≠ -1 → q.nb_input_dims = i) := by
      intro r t o i hr q hq
      cases r with
      | nil => cases hq
      | cons p rest =>
        have hw' := hr p rest rfl
        obtain ⟨a1, a2, a3, _⟩ := hw'.parts q hq
        refine ⟨?_, ?_⟩
        · rcases hw'.par_ok with h | h
          · exact absurd h hkn
          · omega
        · intro hne
          rcases hw'.in_ok with h | h
          · exact absurd h hne
          · omega
    intro a ha
    obtain ⟨g1, g2, g3, _⟩ := h3 a ha
    refine ⟨fun q hq => ⟨(par g1 q hq).2 (by omega), (par g1 q hq).1⟩, fun q hq => (par g2 q hq).1, fun r hr q hq => (par (g3 r hr) q hq).1, ?_⟩
    intro d drest hd'
    have hw' := g1 d drest hd'
    have hit : Stmts.iterators a = d.nb_output_dims := by simp [Stmts.iterators, hd']
    rw [hit] at g2 g3
    refine ⟨?_, fun q hq => (par g2 q hq).2 hw'.known.1, fun r hr q hq => (par (g3 r hr) q hq).2 hw'.known.1⟩
    intro q hq
    rw [hd'] at hq
    exact (hw'.parts q hq).1

theorem exScop_valid : SVal Cfg.std exScop where
  context := by intro p hp; simp [exScop] at hp; subst hp; exact ⟨rfl, by simp, by decide, by decide, by simp⟩
  parameters := by unfold GList.Unique; decide
  statement := by intro a ha; simp [exScop] at ha; subst ha; exact Stmts.exStmt_valid
  registry := by unfold Ifaces.Unique; decide
  extension := by unfold GList.Unique; decide

theorem exScop_clone : SClone natLib exScop where
  parameters := by intro g hg i hi; simp [exScop] at hg; subst hg; exact ⟨3, rfl, by simp [natLib, GList.natEnv]⟩
  statement := by intro a ha; simp [exScop] at ha; subst ha; exact Stmts.exStmt_clone
  extension := by intro g hg i hi; simp [exScop] at hg; subst hg; exact ⟨8, rfl, by simp [natLib, GList.natEnv]⟩

example : integrity_check Cfg.std natLib [exScop] = .ok true ∧
    integrity_check Cfg.std natLib [{ exScop with context := [exDomain] }] = .ok false ∧ clone Cfg.std natLib [exScop] = .ok [exScop] := by decide

/-! ## C23: attributes of a scop -/

/-- C23: on a non empty scop list the result is the least upper bound of the accumulators on entry, of -1 and of the
contributions of all the parts of all the relations. -/
theorem scop_get_attributes_lub {c : Cfg} (hv : c.Valid) (hd : c.ndebug = false) {x : Scops D} (hctx : ∀ s ∈ x, Checkable c s.context)
    (h : ∀ s ∈ x, ∀ a ∈ s.statement, SCheckable c a) (a : Attrs) :
    ∃ a', get_attributes c x a = .ok a' ∧
      ∀ z, Attrs.Le a' z ↔ Attrs.Le a z ∧ (x ≠ [] → Attrs.Le ⟨-1, -1, -1, -1, -1⟩ z) ∧
        ∀ s ∈ x, Stmts.RelBound c s.context z ∧ ∀ st ∈ s.statement, Stmts.StmtBound c st z := by
  have key : ∀ (x : Scops D) (loc a : Attrs), (∀ s ∈ x, Checkable c s.context) → (∀ s ∈ x, ∀ a ∈ s.statement, SCheckable c a) → Attrs.Le Stmts.undef loc →
      ∃ a', attrsLoop c x loc a = .ok a' ∧ ∀ z, Attrs.Le a' z ↔ Attrs.Le a z ∧ (x ≠ [] → Attrs.Le loc z) ∧
        ∀ s ∈ x, Stmts.RelBound c s.context z ∧ ∀ st ∈ s.statement, Stmts.StmtBound c st z := by
    intro x
    induction x with
    | nil => intro loc a _ _ _; exact ⟨a, rfl, by simp⟩
    | cons s x ih =>
      intro loc a hctx h hl
      have hs := hctx s (by simp)
      obtain ⟨l1, e1, h1⟩ := Rel.relation_get_attributes_lub hv hd hs.1 hs.2 loc
      have g1 : Attrs.Le Stmts.undef l1 := Stmts.attrs_le_trans hl ((h1 l1).mp (Stmts.attrs_le_refl _)).1
      obtain ⟨l2, e2, h2⟩ := Stmts.statement_get_attributes_lub hv hd (h s (by simp)) l1
      have g2 : Attrs.Le Stmts.undef l2 := Stmts.attrs_le_trans g1 ((h2 l2).mp (Stmts.attrs_le_refl _)).1
      obtain ⟨a', e3, h3⟩ := ih l2 (Stmts.maxAttrs a l2) (fun z hz => hctx z (by simp [hz])) (fun z hz => h z (by simp [hz])) g2
      refine ⟨a', by rw [attrsLoop, e1]; simp [e2, e3], fun z => (h3 z).trans ?_⟩
      have h12 : Attrs.Le l2 z ↔ Attrs.Le loc z ∧ Stmts.RelBound c s.context z ∧ ∀ st ∈ s.statement, Stmts.StmtBound c st z := by
        rw [h2 z, h1 z]
        constructor
        · rintro ⟨⟨x1, x2⟩, _, x4⟩; exact ⟨x1, x2, x4⟩
        · rintro ⟨x1, x2, x3⟩; exact ⟨⟨x1, x2⟩, fun _ => Stmts.attrs_le_trans hl x1, x3⟩
      rw [Stmts.maxAttrs_le, h12]
      constructor
      · rintro ⟨⟨x1, x2, x3⟩, _, x5⟩
        refine ⟨x1, fun _ => x2, ?_⟩
        intro t ht
        rcases List.mem_cons.mp ht with rfl | ht
        · exact x3
        · exact x5 t ht
      · rintro ⟨x1, x2, x3⟩
        have y := x3 s (by simp)
        exact ⟨⟨x1, x2 (by simp), y⟩, fun _ => ⟨x2 (by simp), y⟩, fun t ht => x3 t (by simp [ht])⟩
  exact key x Stmts.undef a hctx h (Stmts.attrs_le_refl _)

/-! ## C34: registration of an interface in a scop -/

/-- C34: registering an interface with a new URI adds it to the registry of the scop. -/
theorem scop_register_extension_new {s : Scop D} (hr : Ifaces.Unique s.registry) {i : Iface} {u : Str} (hu : i.URI = some u)
    (hn : Ifaces.lookup s.registry (some u) = none) (hx : GList.lookup s.extension u = none) :
    register_extension s [i] = .ok { s with registry := s.registry ++ [i] } := by
  rcases Ifaces.interface_add_correct hr i with ⟨h, _⟩ | ⟨_, h⟩
  · simp [register_extension, h, hu, hx]
  · rcases h with h | ⟨j, hj, h⟩
    · rw [hu] at h; cases h
    · exact absurd (h.trans hu) (Ifaces.lookup_none_iff.mp hn j hj)

/-- Finding: when the scop already has an extension with the URI (kept as unknown text, say), which is what the function is
meant for, the data of the extension is used as if it were a list node: undefined behaviour. -/
theorem scop_register_extension_violates :
    register_extension { exScop with extension := [⟨some (Ifaces.mk 7 "mine"), some 5⟩] } [Ifaces.mk 7 "mine"] = .ub := by decide

end Scops
end Osl
