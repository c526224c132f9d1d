import Verif.RelationPrintProps
import Verif.ScopTextProps
import Verif.LibraryProps
/-!
# Printing statements and scops succeeds (C60)

`osl_scop_print` chooses the names of the dimensions for all the scops of the list, replaces those of the parameters, of the
arrays and of the iterators by the ones given in the extensions, and prints every relation with them in buffers of
OSL_MAX_STRING bytes.  Here: whatever the shape of the scops, if their relations fit in the buffers (the condition of C59) and the
given names are enough, the whole text is written; it is read back as the same list.
-/

namespace Osl
namespace Rel

theorem Enough.mono {s : Option Strings} {m n : Int} (h : Enough s n) (hm : m ≤ n) : Enough s m := by
  intro hpos
  obtain ⟨l, e, h1, h2⟩ := h (by omega)
  exact ⟨l, e, by omega, h2⟩

/-- The names are enough for the numbers `z` of dimensions. -/
structure Covers (names : Names) (z : Attrs) : Prop where
  params : Enough names.parameters z.nb_parameters
  iters : Enough names.iterators z.nb_iterators
  scatt : Enough names.scatt_dims z.nb_scattdims
  locals : Enough names.local_dims z.nb_localdims
  arrays : Enough names.arrays z.array_id
  here : names.arrays ≠ none

theorem part_dims {c : Cfg} {p : Part} (h : PartFits c p) : 0 ≤ p.nb_output_dims ∧ 0 ≤ p.nb_input_dims ∧ 0 ≤ p.nb_local_dims ∧ 0 ≤ p.nb_parameters ∧
    p.nb_output_dims ≤ 2 ^ 31 - 2 ∧ p.nb_input_dims ≤ 2 ^ 31 - 2 ∧ p.nb_local_dims ≤ 2 ^ 31 - 2 ∧ p.nb_parameters ≤ 2 ^ 31 - 2 := by
  have hd := h.dims
  have hs := h.small.2.1
  unfold Part.Dims at hd
  unfold fits cMax at hs
  simp at hs
  omega

theorem part_types (p : Part) : p.type = TYPE_CONTEXT ∨ p.type = TYPE_DOMAIN ∨ isAccessPart p = true ∨
    (isAccessPart p = false ∧ p.type ≠ TYPE_CONTEXT ∧ p.type ≠ TYPE_DOMAIN) := by
  by_cases h1 : p.type = TYPE_CONTEXT
  · exact .inl h1
  by_cases h2 : p.type = TYPE_DOMAIN
  · exact .inr (.inl h2)
  cases h3 : isAccessPart p with
  | true => exact .inr (.inr (.inl rfl))
  | false => exact .inr (.inr (.inr ⟨rfl, h1, h2⟩))

/-- The array identifier of an access, and the dimension it fixes. -/
theorem typed_array {c : Cfg} (hv : c.Valid) (hnd : c.ndebug = false) {r : Rel} (hf : ∀ p ∈ r, PartFits c p) (ht : Typed r) {ps : Part × Rel}
    (hps : ps ∈ suffixes r) (ha : isAccessPart ps.1 = true) : ∃ k, get_array_id c ps.2 = .ok k ∧ 0 < k ∧ k < 2 ^ 31 - 1 ∧ ∀ q ∈ r, FixesFirst q k := by
  obtain ⟨m1, ⟨rest, m2⟩, m3⟩ := suffixes_mem hps
  obtain ⟨hall, k, k1, k2, k3⟩ := ht.access (List.any_eq_true.mpr ⟨ps.1, m1, ha⟩)
  obtain ⟨id, e1, e2, _⟩ := relation_get_array_id_iff hv hnd (r := ps.2) (fun q hq => (hf q (m3 q hq)).valid) (fun q hq => (hall q (m3 q hq)).2) (by
    rw [m2]; exact ha)
  have := (e2 k k1).mpr fun q hq => k3 q (m3 q hq)
  exact ⟨id, e1, by omega, by omega, fun q hq => by rw [this]; exact k3 q hq⟩

/-- The bounds on the contributions of the parts. -/
theorem bound_range {c : Cfg} (hv : c.Valid) (hnd : c.ndebug = false) {r : Rel} (hf : ∀ p ∈ r, PartFits c p) (ht : Typed r) {z : Attrs}
    (h : Stmts.RelBound c r z) : Stmts.RelBound c r ⟨2 ^ 31 - 2, 2 ^ 31 - 2, 2 ^ 31 - 2, 2 ^ 31 - 2, 2 ^ 31 - 2⟩ ∧
      (r ≠ [] → 0 ≤ z.nb_parameters ∧ 0 ≤ z.nb_iterators ∧ 0 ≤ z.nb_scattdims ∧ 0 ≤ z.nb_localdims ∧ 0 ≤ z.array_id) := by
  have key : ∀ ps ∈ suffixes r, ∀ l, localAttrs c ps.1 ps.2 = .ok l → Attrs.Le l ⟨2 ^ 31 - 2, 2 ^ 31 - 2, 2 ^ 31 - 2, 2 ^ 31 - 2, 2 ^ 31 - 2⟩ ∧
      Attrs.Le ⟨0, 0, 0, 0, 0⟩ l := by
    intro ps hps l hl
    have hd := part_dims (hf ps.1 (suffixes_mem hps).1)
    obtain ⟨c1, c2, c3, c4, c5, c6⟩ := localAttrs_cases hl
    unfold Attrs.Le
    dsimp only
    rcases part_types ps.1 with ty | ty | ty | ⟨ty1, ty2, ty3⟩
    · have := c3 ty; omega
    · have := c4 ty; omega
    · obtain ⟨k, k1, k2, k3, _⟩ := typed_array hv hnd hf ht hps ty
      have := c5 ty
      rw [k1] at this
      have hk := this.2.2
      injection hk with hk
      omega
    · have := c6 ty1 ty2 ty3; omega
  constructor
  · intro ps hps
    obtain ⟨l, l1, l2, l3, _⟩ := h ps hps
    exact ⟨l, l1, l2, l3, (key ps hps l l3).1⟩
  · intro hne
    cases r with
    | nil => exact absurd rfl hne
    | cons p rest =>
      have hps : (p, p :: rest) ∈ suffixes (p :: rest) := by simp [suffixes]
      obtain ⟨l, _, _, l3, g⟩ := h _ hps
      have := Stmts.attrs_le_trans (key _ hps l l3).2 g
      unfold Attrs.Le at this
      dsimp only at this
      omega

/-- Names which cover a bound of the contributions of a relation cover its parts. -/
theorem named_of_bound {c : Cfg} (hv : c.Valid) (hnd : c.ndebug = false) {r : Rel} (hf : ∀ p ∈ r, PartFits c p) (ht : Typed r) {z : Attrs}
    (h : Stmts.RelBound c r z) {names : Names} (hc : Covers names z) : ∀ ps ∈ suffixes r, Named c names ps.1 ps.2 := by
  intro ps hps
  obtain ⟨l, l1, l2, l3, g1, g2, g3, g4, g5⟩ := h _ hps
  obtain ⟨c1, c2, c3, c4, c5, c6⟩ := localAttrs_cases l3
  have hm := (suffixes_mem hps).1
  have hd := part_dims (hf _ hm)
  constructor
  · rintro (ty | ty)
    · exact hc.iters.mono (by have := c4 ty; omega)
    · intro hpos; have := (ht.context _ hm ty).1; omega
  · intro t1 t2 t3
    exact hc.scatt.mono (by have := c6 t1 t3 t2; omega)
  · rcases part_types ps.1 with ty | ty | ty | ⟨ty1, ty2, ty3⟩
    · intro hpos; have := (ht.context _ hm ty).2; omega
    · exact hc.iters.mono (by have := c4 ty; have := ht.domain _ hm ty; omega)
    · exact hc.iters.mono (by have := c5 ty; omega)
    · exact hc.iters.mono (by have := c6 ty1 ty2 ty3; omega)
  · exact hc.locals.mono (by omega)
  · exact hc.params.mono (by omega)
  · exact hc.here
  · intro ty
    obtain ⟨k, k1, k2, k3, _⟩ := typed_array hv hnd hf ht hps ty
    refine ⟨k, k1, k2, hc.arrays.mono ?_⟩
    have := (c5 ty).2.2
    rw [k1] at this
    injection this with this
    omega

/-- The generated names cover the numbers they are generated from. -/
theorem generate_covers {z : Attrs} (h0 : 0 ≤ z.nb_parameters ∧ 0 ≤ z.nb_iterators ∧ 0 ≤ z.nb_scattdims ∧ 0 ≤ z.nb_localdims ∧ 0 ≤ z.array_id)
    (h1 : Attrs.Le z ⟨2 ^ 31 - 2, 2 ^ 31 - 2, 2 ^ 31 - 2, 2 ^ 31 - 2, 2 ^ 31 - 2⟩) :
    ∃ n, Names.generate ['P'] z.nb_parameters ['i'] z.nb_iterators ['c'] z.nb_scattdims ['l'] z.nb_localdims ['A'] z.array_id = .ok n ∧ Covers n z := by
  obtain ⟨u1, u2, u3, u4, u5⟩ := h1
  dsimp only at u1 u2 u3 u4 u5
  obtain ⟨s1, e1, n1⟩ := generate_enough (pre := ['P']) rfl h0.1 (by omega)
  obtain ⟨s2, e2, n2⟩ := generate_enough (pre := ['i']) rfl h0.2.1 (by omega)
  obtain ⟨s3, e3, n3⟩ := generate_enough (pre := ['c']) rfl h0.2.2.1 (by omega)
  obtain ⟨s4, e4, n4⟩ := generate_enough (pre := ['l']) rfl h0.2.2.2.1 (by omega)
  obtain ⟨s5, e5, n5⟩ := generate_enough (pre := ['A']) rfl h0.2.2.2.2 (by omega)
  refine ⟨⟨some s1, some s2, some s3, some s4, some s5⟩, ?_, n1 _ (Int.le_refl _), n2 _ (Int.le_refl _), n3 _ (Int.le_refl _), n4 _ (Int.le_refl _), n5 _ (Int.le_refl _), by simp⟩
  unfold Names.generate
  rw [e1, e2, e3, e4, e5]
  rfl

/-! ## Names which are replaced or copied -/

theorem Enough.clone {s : Option Strings} {n : Int} (h : Enough s n) : Enough (Strings.clone s) n := by
  intro hpos
  obtain ⟨l, rfl, h1, h2⟩ := h hpos
  refine ⟨l.map Util.strdup, ?_, by simpa using h1, ?_⟩
  · simp only [Strings.clone]
    rw [if_neg]
    · rfl
    · simp [Strings.size]; intro e; subst e; simp at h1; omega
  · intro w hw
    obtain ⟨v, hv, rfl⟩ := List.mem_map.mp hw
    exact h2 v hv

theorem Named.clone {c : Cfg} {n m : Names} {p : Part} {u : Rel} (h : Named c n p u) (e : Names.clone (some n) = some m) : Named c m p u := by
  simp only [Names.clone] at e
  injection e with e
  subst e
  refine ⟨fun t => (h.domain t).clone, fun t1 t2 t3 => (h.scatt t1 t2 t3).clone, h.iters.clone, h.locals.clone, h.params.clone, ?_, ?_⟩
  · have := h.arrays
    intro e
    apply this
    cases ha : n.arrays with
    | none => rfl
    | some a =>
      rw [ha] at e
      simp only [Strings.clone] at e
      split at e <;> cases e
  · intro ha
    obtain ⟨id, e1, e2, e3⟩ := h.array ha
    exact ⟨id, e1, e2, e3.clone⟩

theorem Named.params' {c : Cfg} {n : Names} {p : Part} {u : Rel} (h : Named c n p u) {s : Option Strings} (hs : Enough s p.nb_parameters) :
    Named c { n with parameters := s } p u := ⟨h.domain, h.scatt, h.iters, h.locals, hs, h.arrays, h.array⟩

theorem Named.iters' {c : Cfg} {n : Names} {p : Part} {u : Rel} (h : Named c n p u) {s : Option Strings} (hs : Enough s p.nb_input_dims)
    (hd : p.type = TYPE_DOMAIN ∨ p.type = TYPE_CONTEXT → Enough s p.nb_output_dims) :
    Named c { n with iterators := s } p u := ⟨hd, h.scatt, hs, h.locals, h.params, h.arrays, h.array⟩

theorem Named.arrays' {c : Cfg} {n : Names} {p : Part} {u : Rel} (h : Named c n p u) {s : Strings}
    (hs : isAccessPart p = true → ∀ id, get_array_id c u = .ok id → 1 ≤ id → Enough (some s) id) :
    Named c { n with arrays := some s } p u := by
  refine ⟨h.domain, h.scatt, h.iters, h.locals, h.params, by simp, ?_⟩
  intro ha
  obtain ⟨id, e1, e2, e3⟩ := h.array ha
  exact ⟨id, e1, e2, hs ha id e1 e2⟩

/-- What is needed of a relation to be printed (specification): its parts fit in the buffers and its types are used as documented. -/
structure Prints (c : Cfg) (r : Rel) : Prop where
  parts : ∀ p ∈ r, PartFits c p
  typed : Typed r

theorem Prints.checkable {c : Cfg} {r : Rel} (h : Prints c r) : Stmts.Checkable c r :=
  ⟨fun p hp => (h.parts p hp).valid, fun ha q hq => ((h.typed.access ha).1 q hq).2⟩

/-- What is needed of a relation accepted by the integrity check to be printed (specification): its parts fit in the buffers and have one
type, the entries of accesses are C integers, and their array identifiers are less than the greatest one. -/
structure Printable (c : Cfg) (r : Rel) : Prop where
  parts : ∀ p ∈ r, PartFits c p
  uniform : ∀ p ∈ r, ∀ q ∈ r, p.type = q.type
  entries : r.any isAccessPart = true → ∀ p ∈ r, IntEntries p ∧ ∀ k, FixesFirst p k → k < 2 ^ 31 - 1

theorem Printable.checkable {c : Cfg} {r : Rel} (h : Printable c r) : Stmts.Checkable c r :=
  ⟨fun p hp => (h.parts p hp).valid, fun ha q hq => (h.entries ha q hq).1⟩

theorem isAccessPart_type {p q : Part} (h : p.type = q.type) : isAccessPart p = isAccessPart q := by
  have h1 := isAccessPart_iff p
  have h2 := isAccessPart_iff q
  rw [h] at h1
  cases h3 : isAccessPart p <;> cases h4 : isAccessPart q <;> simp_all

theorem Printable.prints {c : Cfg} {r : Rel} (h : Printable c r) {type o i n : Int} (hok : Stmts.RelOk r type o i n) : Prints c r := by
  refine ⟨h.parts, ?_⟩
  cases r with
  | nil => exact ⟨by simp, by simp, by simp⟩
  | cons p rest =>
    have hw := hok p rest rfl
    refine ⟨fun q hq ht => ?_, fun q hq ht => ?_, fun ha => ?_⟩
    · have := hw.context (by rw [← ht]; exact h.uniform p (by simp) q hq)
      obtain ⟨h1, h2, _⟩ := hw.parts q hq
      omega
    · have := hw.domain (by rw [← ht]; exact h.uniform p (by simp) q hq)
      obtain ⟨h1, h2, _⟩ := hw.parts q hq
      have := part_dims (h.parts q hq)
      omega
    · obtain ⟨q, hq, haq⟩ := List.any_eq_true.mp ha
      have hp : isAccessPart p = true := by rw [isAccessPart_type (h.uniform p (by simp) q hq)]; exact haq
      refine ⟨fun x hx => ⟨by rw [isAccessPart_type (h.uniform x hx p (by simp))]; exact hp, (h.entries ha x hx).1⟩, ?_⟩
      obtain ⟨k, h1, h2⟩ := hw.arrays.1 hp
      exact ⟨k, h1, (h.entries ha p (by simp)).2 k (h2 p (by simp)), h2⟩

/-- The names cover all the parts of a relation. -/
def AllNamed (c : Cfg) (names : Names) (r : Rel) : Prop := ∀ ps ∈ suffixes r, Named c names ps.1 ps.2

end Rel

namespace RList

theorem eltsLoop_total {c : Cfg} (hv : c.Valid) {names : Names} : ∀ {l : RList}, (∀ r ∈ l, Rel.Prints c r) → (∀ r ∈ l, Rel.AllNamed c names r) →
    ∃ t, eltsLoop c (some names) l = .ok t
  | [], _, _ => ⟨_, rfl⟩
  | [] :: l, h, hn => by
    obtain ⟨t, e⟩ := eltsLoop_total hv (l := l) (fun r hr => h r (by simp [hr])) (fun r hr => hn r (by simp [hr]))
    exact ⟨t, by simp only [eltsLoop]; exact e⟩
  | (p :: ps) :: l, h, hn => by
    obtain ⟨t, e⟩ := eltsLoop_total hv (l := l) (fun r hr => h r (by simp [hr])) (fun r hr => hn r (by simp [hr]))
    obtain ⟨u, e1⟩ := Rel.relation_spprint_total hv (h (p :: ps) (by simp)).parts (hn (p :: ps) (by simp))
    simp only [eltsLoop]
    rw [e1, e]
    exact ⟨_, rfl⟩

theorem pprint_elts_total {c : Cfg} (hv : c.Valid) {names : Names} {l : RList} (h : ∀ r ∈ l, Rel.Prints c r) (hn : ∀ r ∈ l, Rel.AllNamed c names r) :
    ∃ t, pprint_elts c l (some names) = .ok t := by
  unfold pprint_elts
  split
  · exact eltsLoop_total hv h hn
  · exact ⟨_, rfl⟩

end RList

namespace Stmts

open Rel (Attrs)

variable {D : Type}

/-- The relations of a statement. -/
def rels (s : Stmt D) : List Rel := s.domain :: s.scattering :: s.access

/-- The names of iterators given by the body of a statement, if any, are enough for its relations and have at most 12
characters (specification). -/
def IterNames (L : Lib D) (s : Stmt D) : Prop :=
  ∃ b, lookupBody L s.extension = .ok b ∧ ∀ body i, b = some body → body.iterators = some i →
    ∀ r ∈ rels s, ∀ q ∈ r, Rel.Enough (some i) q.nb_input_dims ∧ (q.type = TYPE_DOMAIN → Rel.Enough (some i) q.nb_output_dims)

/-- What is needed of a statement to be printed (specification). -/
structure Prints (c : Cfg) (L : Lib D) (s : Stmt D) : Prop where
  rels : ∀ r ∈ rels s, Rel.Prints c r
  iters : IterNames L s
  exts : ∃ t, GList.sprint L.toEnv s.extension = .ok t

theorem withBody_named {c : Cfg} {L : Lib D} {s : Stmt D} (h : Prints c L s) {names : Names} (hn : ∀ r ∈ Stmts.rels s, Rel.AllNamed c names r)
    {b : Option Body} (hb : lookupBody L s.extension = .ok b) : ∀ r ∈ Stmts.rels s, Rel.AllNamed c (withBody names b) r := by
  intro r hr ps hps
  unfold withBody
  split
  · rename_i i x
    obtain ⟨b', e, h1⟩ := h.iters
    rw [hb] at e
    injection e with e
    have hm := (Rel.suffixes_mem hps).1
    obtain ⟨h2, h3⟩ := h1 _ i e.symm rfl r hr ps.1 hm
    refine (hn r hr ps hps).iters' h2 ?_
    rintro (t | t)
    · exact h3 t
    · intro hpos
      have := ((h.rels r hr).typed.context _ hm t).1
      omega
  · exact hn r hr ps hps

theorem printOne_total {c : Cfg} (hv : c.Valid) {L : Lib D} {s : Stmt D} (h : Prints c L s) {names : Names} (hn : ∀ r ∈ Stmts.rels s, Rel.AllNamed c names r)
    (number : Nat) : ∃ t, printOne c L names number s = .ok t := by
  obtain ⟨b, e, _⟩ := h.iters
  have hw := withBody_named h hn e
  obtain ⟨t1, e1⟩ := Rel.relation_spprint_total hv (h.rels s.domain (by simp [Stmts.rels])).parts (hw s.domain (by simp [Stmts.rels]))
  obtain ⟨t2, e2⟩ := Rel.relation_spprint_total hv (h.rels s.scattering (by simp [Stmts.rels])).parts (hw s.scattering (by simp [Stmts.rels]))
  obtain ⟨t3, e3⟩ := RList.pprint_elts_total hv (l := s.access) (fun r hr => h.rels r (by simp [Stmts.rels, hr])) (fun r hr => hw r (by simp [Stmts.rels, hr]))
  have e4 : ∃ t, printExts L s.extension = .ok t := by
    unfold printExts
    split
    · exact h.exts
    · exact ⟨_, rfl⟩
  obtain ⟨t4, e4⟩ := e4
  unfold printOne
  rw [e]
  simp only [Out.ok_bind]
  rw [e1, e2, e3, e4]
  exact ⟨_, rfl⟩

theorem printLoop_total {c : Cfg} (hv : c.Valid) {L : Lib D} {names : Names} : ∀ {ss : Stmts D} (number : Nat), (∀ s ∈ ss, Prints c L s) →
    (∀ s ∈ ss, ∀ r ∈ Stmts.rels s, Rel.AllNamed c names r) → ∃ t, printLoop c L names number ss = .ok t
  | [], _, _, _ => ⟨_, rfl⟩
  | s :: ss, number, h, hn => by
    obtain ⟨t, e⟩ := printOne_total hv (h s (by simp)) (hn s (by simp)) number
    obtain ⟨u, e1⟩ := printLoop_total hv (ss := ss) (number + 1) (fun x hx => h x (by simp [hx])) (fun x hx => hn x (by simp [hx]))
    simp only [printLoop]
    rw [e, e1]
    exact ⟨_, rfl⟩

theorem pprint_total {c : Cfg} (hv : c.Valid) {L : Lib D} {names : Names} {ss : Stmts D} (h : ∀ s ∈ ss, Prints c L s)
    (hn : ∀ s ∈ ss, ∀ r ∈ Stmts.rels s, Rel.AllNamed c names r) : ∃ t, pprint c L ss (some names) = .ok t := by
  have : ∃ m, Names.clone (some names) = some m := ⟨_, rfl⟩
  obtain ⟨m, hm⟩ := this
  unfold pprint
  simp only [chooseNames, hm, Option.getD_some, Out.ok_bind]
  exact printLoop_total hv 1 h fun s hs r hr ps hps => (hn s hs r hr ps hps).clone hm

theorem stmtBound_rels {c : Cfg} {s : Stmt D} {z : Attrs} : StmtBound c s z ↔ ∀ r ∈ rels s, RelBound c r z := by
  simp [StmtBound, rels]

/-- C60: a list of statements, of any shape, with at least one relation, is printed. -/
theorem statement_print_total {c : Cfg} (hv : c.Valid) (hnd : c.ndebug = false) {L : Lib D} {ss : Stmts D} (h : ∀ s ∈ ss, Prints c L s)
    (hne : ∃ s ∈ ss, ∃ r ∈ rels s, r ≠ []) : ∃ t, print c L ss = .ok t := by
  have hs : ∀ s ∈ ss, SCheckable c s := fun s hs => ⟨((h s hs).rels _ (by simp [rels])).checkable, ((h s hs).rels _ (by simp [rels])).checkable,
    fun r hr => ((h s hs).rels r (by simp [rels, hr])).checkable⟩
  obtain ⟨z, e, hz⟩ := statement_get_attributes_lub hv hnd hs ⟨UNDEFINED, UNDEFINED, UNDEFINED, UNDEFINED, UNDEFINED⟩
  have hb : ∀ s ∈ ss, ∀ r ∈ rels s, RelBound c r z := fun s hs => stmtBound_rels.mp (((hz z).mp (attrs_le_refl z)).2.2 s hs)
  have hr : ∀ s ∈ ss, ∀ r ∈ rels s, _ := fun s hs r hr => Rel.bound_range hv hnd ((h s hs).rels r hr).parts ((h s hs).rels r hr).typed (hb s hs r hr)
  obtain ⟨n, e1, hn⟩ := Rel.generate_covers (z := z) (by
    obtain ⟨s, h1, r, h2, h3⟩ := hne
    exact (hr s h1 r h2).2 h3) ((hz _).mpr ⟨by unfold Attrs.Le; simp only [UNDEFINED]; omega, fun _ => by unfold Attrs.Le; dsimp only; omega, fun s hs => stmtBound_rels.mpr fun r h2 => (hr s hs r h2).1⟩)
  unfold print pprint
  simp only [chooseNames, names]
  rw [e]
  simp only [Out.ok_bind]
  rw [e1]
  exact printLoop_total hv 1 h fun s hs r h2 => Rel.named_of_bound hv hnd ((h s hs).rels r h2).parts ((h s hs).rels r h2).typed (hb s hs r h2) hn

end Stmts

namespace Scops

open Rel (Attrs)

variable {D : Type}

/-- The relations of a scop. -/
def rels (s : Scop D) : List Rel := s.context :: s.statement.flatMap Stmts.rels

/-- What is needed of a scop to be printed (specification): relations which fit in the buffers, extensions which are printed, and, when
they are given, enough names of parameters, of arrays and of iterators. -/
structure Prints (c : Cfg) (L : TextLib D) (s : Scop D) : Prop where
  context : Rel.Prints c s.context
  statement : ∀ st ∈ s.statement, Stmts.Prints c L.toLib st
  params : hasURI s.parameters URI_STRINGS = true → ∃ p, paramNames L s.parameters = .ok p ∧ ∀ r ∈ rels s, ∀ q ∈ r, Rel.Enough p q.nb_parameters
  arrays : ∀ d, GList.lookup s.extension URI_ARRAYS = some d → ∃ a, L.arraysNames d = .ok (some a) ∧
    ∀ r ∈ rels s, ∀ q ∈ r, Rel.isAccessPart q = true → ∀ k, 0 < k → Rel.FixesFirst q k → Rel.Enough (some a) k
  paramsText : ∃ t, GList.sprint L.toEnv s.parameters = .ok t
  extsText : ∃ t, GList.sprint L.toEnv s.extension = .ok t
  sizes : ∀ st ∈ s.statement, ∀ b l, Stmts.lookupBody L.toLib st.extension = .ok (some b) → b.iterators = some l → (Strings.words l).length < 2 ^ 63

theorem Prints.rels {c : Cfg} {L : TextLib D} {s : Scop D} (h : Prints c L s) : ∀ r ∈ rels s, Rel.Prints c r := by
  intro r hr
  rcases List.mem_cons.mp hr with rfl | hr
  · exact h.context
  · obtain ⟨st, h1, h2⟩ := List.mem_flatMap.mp hr
    exact (h.statement st h1).rels r h2

theorem Prints.bodyFine {c : Cfg} {L : TextLib D} {s : Scop D} (h : Prints c L s) {st : Stmt D} (hst : st ∈ s.statement) : Stmts.BodyFine L.toLib st where
  cast := by
    intro d hd hb
    obtain ⟨b, e, _⟩ := (h.statement st hst).iters
    simp only [Stmts.lookupBody, hd, hb] at e
    cases e
  size := h.sizes st hst
  int := by
    intro p hp
    have hm : p ∈ st.domain := by
      cases hd : st.domain with
      | nil => rw [hd] at hp; cases hp
      | cons q r => rw [hd] at hp; simp at hp; simp [hp]
    have := Rel.part_dims (((h.statement st hst).rels st.domain (by simp [Stmts.rels])).parts p hm)
    unfold fits cMin cMax
    simp
    omega

theorem Prints.checkable {c : Cfg} {L : TextLib D} {s : Scop D} (h : Prints c L s) : ∀ st ∈ s.statement, Stmts.SCheckable c st := fun st hst =>
  ⟨((h.statement st hst).rels _ (by simp [Stmts.rels])).checkable, ((h.statement st hst).rels _ (by simp [Stmts.rels])).checkable,
    fun r hr => ((h.statement st hst).rels r (by simp [Stmts.rels, hr])).checkable⟩

theorem withParams_named {c : Cfg} {L : TextLib D} {s : Scop D} (h : Prints c L s) {n : Names} (hn : ∀ r ∈ rels s, Rel.AllNamed c n r) :
    ∃ m, withParams L s n = .ok m ∧ ∀ r ∈ rels s, Rel.AllNamed c m r := by
  unfold withParams
  by_cases hu : hasURI s.parameters URI_STRINGS = true
  · rw [if_pos hu]
    obtain ⟨p, e, hp⟩ := h.params hu
    rw [e]
    exact ⟨_, rfl, fun r hr ps hps => (hn r hr ps hps).params' (hp r hr ps.1 (Rel.suffixes_mem hps).1)⟩
  · rw [if_neg hu]
    exact ⟨_, rfl, hn⟩

theorem withArrays_named {c : Cfg} (hv : c.Valid) (hnd : c.ndebug = false) {L : TextLib D} {s : Scop D} (h : Prints c L s) {n : Names}
    (hn : ∀ r ∈ rels s, Rel.AllNamed c n r) : ∃ m, withArrays L s n = .ok m ∧ ∀ r ∈ rels s, Rel.AllNamed c m r := by
  unfold withArrays
  cases hl : GList.lookup s.extension URI_ARRAYS with
  | none => exact ⟨_, rfl, hn⟩
  | some d =>
    obtain ⟨a, e, ha⟩ := h.arrays d hl
    simp only [e, Out.ok_bind]
    refine ⟨_, rfl, fun r hr ps hps => (hn r hr ps hps).arrays' fun hacc id hid hpos => ?_⟩
    obtain ⟨k, k1, k2, k3, k4⟩ := Rel.typed_array hv hnd (h.rels r hr).parts (h.rels r hr).typed hps hacc
    rw [k1] at hid
    injection hid with hid
    subst hid
    have hm := (Rel.suffixes_mem hps).1
    exact ha r hr ps.1 hm hacc k k2 (k4 ps.1 hm)

theorem printOne_total {c : Cfg} (hv : c.Valid) (hnd : c.ndebug = false) {L : TextLib D} {s : Scop D} (h : Prints c L s) {n : Names}
    (hn : ∀ r ∈ rels s, Rel.AllNamed c n r) : ∃ t, printOne c L n s = .ok t := by
  obtain ⟨n1, e1, hn⟩ := withParams_named h hn
  obtain ⟨n2, e2, hn⟩ := withArrays_named hv hnd h hn
  obtain ⟨t1, e3⟩ := Rel.relation_spprint_total hv h.context.parts (hn s.context (by simp [rels]))
  obtain ⟨t2, e4⟩ := h.paramsText
  obtain ⟨t3, e5⟩ := Stmts.pprint_total hv h.statement (names := n2) (fun st hst r hr => hn r (by simp only [rels, List.mem_cons, List.mem_flatMap]; exact .inr ⟨st, hst, hr⟩))
  have e6 : ∃ t, printExtension L s.extension = .ok t := by
    obtain ⟨t, e⟩ := h.extsText
    cases hx : s.extension with
    | nil => exact ⟨_, rfl⟩
    | cons g l =>
      rw [hx] at e
      simp only [printExtension, e, Out.ok_bind]
      exact ⟨_, rfl⟩
  obtain ⟨t4, e6⟩ := e6
  unfold printOne
  rw [e1]
  simp only [Out.ok_bind]
  rw [e2]
  simp only [Out.ok_bind]
  rw [e3, e4, e5, e6]
  exact ⟨_, rfl⟩

theorem printLoop_total {c : Cfg} (hv : c.Valid) (hnd : c.ndebug = false) {L : TextLib D} {n : Names} : ∀ {x : Scops D}, (∀ s ∈ x, Prints c L s) →
    (∀ s ∈ x, ∀ r ∈ rels s, Rel.AllNamed c n r) → ∃ t, printLoop c L n x = .ok t
  | [], _, _ => ⟨_, rfl⟩
  | s :: x, h, hn => by
    obtain ⟨t, e⟩ := printOne_total hv hnd (h s (by simp)) (hn s (by simp))
    obtain ⟨u, e1⟩ := printLoop_total hv hnd (x := x) (fun y hy => h y (by simp [hy])) (fun y hy => hn y (by simp [hy]))
    simp only [printLoop]
    rw [e, e1]
    exact ⟨_, rfl⟩

theorem scopBound_rels {c : Cfg} {s : Scop D} {z : Attrs} :
    (Stmts.RelBound c s.context z ∧ ∀ st ∈ s.statement, Stmts.StmtBound c st z) ↔ ∀ r ∈ rels s, Stmts.RelBound c r z := by
  simp only [Stmts.stmtBound_rels, rels, List.mem_cons, List.mem_flatMap]
  constructor
  · rintro ⟨h1, h2⟩ r (rfl | ⟨st, h3, h4⟩)
    · exact h1
    · exact h2 st h3 r h4
  · intro h
    exact ⟨h _ (.inl rfl), fun st h1 r h2 => h r (.inr ⟨st, h1, h2⟩)⟩

/-- The names generated for a list of scops cover all the relations. -/
theorem scop_names_cover {c : Cfg} (hv : c.Valid) (hnd : c.ndebug = false) {L : TextLib D} {x : Scops D} (h : ∀ s ∈ x, Prints c L s)
    (hne : ∃ s ∈ x, ∃ r ∈ rels s, r ≠ []) : ∃ n, names c x = .ok n ∧ ∀ s ∈ x, ∀ r ∈ rels s, Rel.AllNamed c n r := by
  obtain ⟨z, e, hz⟩ := scop_get_attributes_lub hv hnd (fun s hs => (h s hs).context.checkable) (fun s hs => (h s hs).checkable)
    ⟨UNDEFINED, UNDEFINED, UNDEFINED, UNDEFINED, UNDEFINED⟩
  have hb : ∀ s ∈ x, ∀ r ∈ rels s, Stmts.RelBound c r z := fun s hs => scopBound_rels.mp (((hz z).mp (Stmts.attrs_le_refl z)).2.2 s hs)
  have hr : ∀ s ∈ x, ∀ r ∈ rels s, _ := fun s hs r hr => Rel.bound_range hv hnd ((h s hs).rels r hr).parts ((h s hs).rels r hr).typed (hb s hs r hr)
  obtain ⟨n, e1, hn⟩ := Rel.generate_covers (z := z) (by
    obtain ⟨s, h1, r, h2, h3⟩ := hne
    exact (hr s h1 r h2).2 h3) ((hz _).mpr ⟨by unfold Rel.Attrs.Le; simp only [UNDEFINED]; omega, fun _ => by unfold Rel.Attrs.Le; dsimp only; omega, fun s hs => scopBound_rels.mpr fun r h2 => (hr s hs r h2).1⟩)
  refine ⟨n, ?_, fun s hs r h2 => Rel.named_of_bound hv hnd ((h s hs).rels r h2).parts ((h s hs).rels r h2).typed (hb s hs r h2) hn⟩
  unfold names
  rw [e]
  exact e1

/-- C60: a list of scops of any shape, with at least one relation, is printed. -/
theorem scop_print_total {c : Cfg} (hv : c.Valid) (hnd : c.ndebug = false) {L : TextLib D} (release : Str) {x : Scops D} (h : ∀ s ∈ x, Prints c L s)
    (hne : ∃ s ∈ x, ∃ r ∈ rels s, r ≠ []) : ∃ t, print c L release x = .ok t := by
  obtain ⟨n, e1, hn⟩ := scop_names_cover hv hnd h hne
  obtain ⟨b, e2, _⟩ := scop_integrity_check_iff hv hnd (L := L.toLib) (fun s hs => (h s hs).context.checkable) (fun s hs => (h s hs).checkable)
    (fun s hs st hst => (h s hs).bodyFine hst)
  obtain ⟨t, e3⟩ := printLoop_total hv hnd h hn
  cases x with
  | nil => exact ⟨_, rfl⟩
  | cons s x =>
    simp only [print]
    rw [e2, e1]
    simp only [Out.ok_bind]
    rw [e3]
    exact ⟨_, rfl⟩

/-! ## Scops accepted by the integrity check -/

/-- What is needed of a scop accepted by the integrity check to be printed (specification): relations which fit in the buffers, a context, a
domain for each statement, extensions which are printed, names of iterators of at most 12 characters and, when they are given, enough
names of parameters and of arrays, of at most 12 characters. -/
structure Printable (c : Cfg) (L : TextLib D) (s : Scop D) : Prop where
  rels : ∀ r ∈ rels s, Rel.Printable c r
  context : s.context ≠ []
  domain : ∀ st ∈ s.statement, st.domain ≠ []
  bodies : ∀ st ∈ s.statement, ∃ b, Stmts.lookupBody L.toLib st.extension = .ok b ∧ ∀ body i, b = some body → body.iterators = some i →
    (Strings.words i).length < 2 ^ 63 ∧ ∀ w ∈ Strings.words i, w.length ≤ 12
  params : hasURI s.parameters URI_STRINGS = true → ∃ p, paramNames L s.parameters = .ok p ∧ Rel.Enough p (expectedParams s.context)
  arrays : ∀ d, GList.lookup s.extension URI_ARRAYS = some d → ∃ a, L.arraysNames d = .ok (some a) ∧
    ∀ st ∈ s.statement, ∀ r ∈ st.access, ∀ q ∈ r, ∀ k, 0 < k → Rel.FixesFirst q k → Rel.Enough (some a) k
  paramsText : ∃ t, GList.sprint L.toEnv s.parameters = .ok t
  extsText : ∃ t, GList.sprint L.toEnv s.extension = .ok t
  stmtText : ∀ st ∈ s.statement, ∃ t, GList.sprint L.toEnv st.extension = .ok t

theorem words_enough {i : Strings} (h : ∀ w ∈ Strings.words i, w.length ≤ 12) : Rel.Enough (some i) (Strings.words i).length := by
  intro hpos
  cases i with
  | mk o =>
    cases o with
    | none => simp [Strings.words] at hpos
    | some l => exact ⟨l, rfl, by simp [Strings.words], by simpa [Strings.words] using h⟩

theorem not_access_types {type t : Int} (h : Rel.TypeMatches type t) (h1 : type = TYPE_CONTEXT ∨ type = TYPE_DOMAIN ∨ type = TYPE_SCATTERING) : t = type := by
  unfold Rel.TypeMatches at h
  rw [if_neg] at h
  · exact h
  · rcases h1 with rfl | rfl | rfl <;> decide

theorem Printable.prints {c : Cfg} {L : TextLib D} {s : Scop D} (h : Printable c L s) (hok : ScopOk L.toLib s) : Prints c L s := by
  have hmem : ∀ st ∈ s.statement, ∀ r ∈ Stmts.rels st, r ∈ Scops.rels s := fun st h1 r h2 => by
    simp only [Scops.rels, List.mem_cons, List.mem_flatMap]; exact .inr ⟨st, h1, h2⟩
  have hctx : s.context ∈ Scops.rels s := by simp [Scops.rels]
  have hp0 : 0 ≤ expectedParams s.context := by
    cases hc : s.context with
    | nil => exact absurd hc h.context
    | cons p rest =>
      have := Rel.part_dims ((h.rels s.context hctx).parts p (by simp [hc]))
      simp only [expectedParams]; omega
  have par : ∀ r ∈ Scops.rels s, ∀ q ∈ r, q.nb_parameters = expectedParams s.context := by
    have one : ∀ {r : Rel} {type o i : Int}, Stmts.RelOk r type o i (expectedParams s.context) → ∀ q ∈ r, q.nb_parameters = expectedParams s.context := by
      intro r type o i hr q hq
      cases r with
      | nil => simp at hq
      | cons p rest =>
        have hw := hr p rest rfl
        have := (hw.parts q hq).2.2.1
        rcases hw.par_ok with h1 | h1
        · omega
        · omega
    intro r hr q hq
    simp only [Scops.rels, List.mem_cons, List.mem_flatMap] at hr
    rcases hr with rfl | ⟨st, h1, h2⟩
    · cases hc : s.context with
      | nil => rw [hc] at hq; simp at hq
      | cons p rest =>
        rw [hc] at hq
        have hw := hok.1 p rest hc
        exact (hw.parts q hq).2.2.1
    · have ho := hok.2 st h1
      simp only [Stmts.rels, List.mem_cons] at h2
      rcases h2 with rfl | rfl | h2
      · exact one ho.domain q hq
      · exact one ho.scattering q hq
      · exact one (ho.access r h2) q hq
  refine ⟨(h.rels _ hctx).prints hok.1, ?_, ?_, ?_, h.paramsText, h.extsText, ?_⟩
  · intro st h1
    have ho := hok.2 st h1
    refine ⟨?_, ?_, h.stmtText st h1⟩
    · intro r h2
      have hr := h.rels r (hmem st h1 r h2)
      simp only [Stmts.rels, List.mem_cons] at h2
      rcases h2 with rfl | rfl | h2
      · exact hr.prints ho.domain
      · exact hr.prints ho.scattering
      · exact hr.prints (ho.access r h2)
    · obtain ⟨b, e, hb⟩ := h.bodies st h1
      refine ⟨b, e, ?_⟩
      rintro body i rfl hi r h2 q hq
      obtain ⟨_, hw⟩ := hb body i rfl hi
      have hlen := ho.body body i (h.domain st h1) e hi
      have hen := words_enough hw
      rw [hlen] at hen
      cases hd : st.domain with
      | nil => exact absurd hd (h.domain st h1)
      | cons p rest =>
        have hwd := ho.domain p rest hd
        have hit : Stmts.iterators st = p.nb_output_dims := by simp [Stmts.iterators, hd]
        have hpd := Rel.part_dims ((h.rels st.domain (hmem st h1 _ (by simp [Stmts.rels]))).parts p (by simp [hd]))
        have one : ∀ {type : Int}, Stmts.RelOk r type (-1) (Stmts.iterators st) (expectedParams s.context) → (type = TYPE_SCATTERING ∨ type = TYPE_ACCESS) →
            Rel.Enough (some i) q.nb_input_dims ∧ (q.type = TYPE_DOMAIN → Rel.Enough (some i) q.nb_output_dims) := by
          intro type hr hty
          cases r with
          | nil => simp at hq
          | cons p' rest' =>
            have hw' := hr p' rest' rfl
            have h4 := (hw'.parts q hq).2.1
            have h5 := hw'.in_ok
            refine ⟨hen.mono (by omega), ?_⟩
            intro hqt
            have hq' := (h.rels _ (hmem st h1 _ h2)).uniform p' (by simp) q hq
            have ht := hw'.type_ok
            rw [hq', hqt] at ht
            exfalso
            rcases hty with rfl | rfl <;> exact absurd ht (by unfold Rel.TypeMatches; decide)
        have h3 := h2
        simp only [Stmts.rels, List.mem_cons] at h3
        rcases h3 with rfl | rfl | h3
        · rw [hd] at hq
          have h4 := hwd.parts q hq
          have h5 := hwd.in_ok
          refine ⟨hen.mono (by have := h4.2.1; omega), fun _ => hen.mono (by have := h4.1; omega)⟩
        · exact one ho.scattering (.inl rfl)
        · exact one (ho.access r h3) (.inr rfl)
  · intro hu
    obtain ⟨p, e, hp⟩ := h.params hu
    exact ⟨p, e, fun r hr q hq => by rw [par r hr q hq]; exact hp⟩
  · intro d hd
    obtain ⟨a, e, ha⟩ := h.arrays d hd
    refine ⟨a, e, ?_⟩
    intro r hr q hq hacc k hk hfix
    simp only [Scops.rels, List.mem_cons, List.mem_flatMap] at hr
    rcases hr with rfl | ⟨st, h1, h2⟩
    · exfalso
      cases hc : s.context with
      | nil => exact absurd hc h.context
      | cons p rest =>
        have hw := (hok.1 p rest hc).type_ok
        have h3 := not_access_types hw (.inl rfl)
        have h4 := (h.rels _ hctx).uniform q hq p (by simp [hc])
        rw [Rel.isAccess_types (.inr (h4.trans h3))] at hacc
        cases hacc
    · have ho := hok.2 st h1
      have hu := (h.rels r (hmem st h1 r h2)).uniform
      have no : ∀ {type o i n : Int}, Stmts.RelOk r type o i n → type = TYPE_DOMAIN ∨ type = TYPE_SCATTERING → False := by
        intro type o i n hr hty
        cases r with
        | nil => simp at hq
        | cons p rest =>
          have h3 := not_access_types (hr p rest rfl).type_ok (.inr hty)
          have h4 := (hu q hq p (by simp)).trans h3
          have h5 := (Rel.isAccessPart_iff q).mp hacc
          rw [h4] at h5
          rcases hty with rfl | rfl <;> exact absurd h5 (by decide)
      simp only [Stmts.rels, List.mem_cons] at h2
      rcases h2 with rfl | rfl | h2
      · exact (no ho.domain (.inl rfl)).elim
      · exact (no ho.scattering (.inr rfl)).elim
      · exact ha st h1 r h2 q hq k hk hfix
  · intro st h1 b l hb hl
    obtain ⟨b', e, h2⟩ := h.bodies st h1
    rw [hb] at e
    injection e with e
    exact (h2 b l e.symm hl).1

theorem Printable.checkable {c : Cfg} {L : TextLib D} {s : Scop D} (h : Printable c L s) :
    Stmts.Checkable c s.context ∧ (∀ st ∈ s.statement, Stmts.SCheckable c st) ∧ ∀ st ∈ s.statement, Stmts.BodyFine L.toLib st := by
  have hmem : ∀ st ∈ s.statement, ∀ r ∈ Stmts.rels st, Rel.Printable c r := fun st h1 r h2 => h.rels r (by
    simp only [Scops.rels, List.mem_cons, List.mem_flatMap]; exact .inr ⟨st, h1, h2⟩)
  refine ⟨(h.rels _ (by simp [Scops.rels])).checkable, fun st h1 => ⟨(hmem st h1 _ (by simp [Stmts.rels])).checkable, (hmem st h1 _ (by simp [Stmts.rels])).checkable,
    fun r hr => (hmem st h1 r (by simp [Stmts.rels, hr])).checkable⟩, fun st h1 => ⟨?_, ?_, ?_⟩⟩
  · intro d hd hb
    obtain ⟨b, e, _⟩ := h.bodies st h1
    simp only [Stmts.lookupBody, hd, hb] at e
    cases e
  · intro b l hb hl
    obtain ⟨b', e, h2⟩ := h.bodies st h1
    rw [hb] at e
    injection e with e
    exact (h2 b l e.symm hl).1
  · intro p hp
    have hm : p ∈ st.domain := by
      cases hd : st.domain with
      | nil => rw [hd] at hp; cases hp
      | cons q r => rw [hd] at hp; simp at hp; simp [hp]
    have := Rel.part_dims ((hmem st h1 st.domain (by simp [Stmts.rels])).parts p hm)
    unfold fits cMin cMax
    simp
    omega

/-- C60: every list of scops which the integrity check accepts, whose relations fit in the buffers and whose given names are
enough, is printed. -/
theorem scop_print_checked {c : Cfg} (hv : c.Valid) (hnd : c.ndebug = false) {L : TextLib D} (release : Str) {x : Scops D}
    (h : ∀ s ∈ x, Printable c L s) (hok : integrity_check c L.toLib x = .ok true) : ∃ t, print c L release x = .ok t := by
  obtain ⟨b, e, hb⟩ := scop_integrity_check_iff hv hnd (L := L.toLib) (fun s hs => (h s hs).checkable.1) (fun s hs => (h s hs).checkable.2.1)
    (fun s hs => (h s hs).checkable.2.2)
  rw [hok] at e
  injection e with e
  have hall := hb.mp e.symm
  cases x with
  | nil => exact ⟨_, rfl⟩
  | cons s x =>
    exact scop_print_total hv hnd release (fun y hy => (h y hy).prints (hall y hy)) ⟨s, by simp, s.context, by simp [Scops.rels], (h s (by simp)).context⟩

end Scops

/-! ## The text is read back -/

namespace RList

theorem eltsLoop_short {c : Cfg} (hv : c.Valid) {names : Names} : ∀ {l : RList} {t : Str}, (∀ r ∈ l, Rel.Prints c r) → (∀ r ∈ l, Rel.AllNamed c names r) →
    (∀ r ∈ l, (∀ p ∈ r, Rel.LineFits p) ∧ (r.length : Int) < 2 ^ 31) → eltsLoop c (some names) l = .ok t → Rel.ShortText t
  | [], t, _, _, _, h => by simp only [eltsLoop] at h; cases h; exact .nil
  | [] :: l, t, h1, h2, h3, h => by
    simp only [eltsLoop] at h
    exact eltsLoop_short hv (l := l) (fun r hr => h1 r (by simp [hr])) (fun r hr => h2 r (by simp [hr])) (fun r hr => h3 r (by simp [hr])) h
  | (p :: ps) :: l, t, h1, h2, h3, h => by
    simp only [eltsLoop] at h
    obtain ⟨a, e1, h⟩ := Out.bind_eq_ok.mp h
    obtain ⟨b, e2, h⟩ := Out.bind_eq_ok.mp h
    injection h with h
    subst h
    have s1 := Rel.spprint_short hv (h1 (p :: ps) (by simp)).parts (h3 (p :: ps) (by simp)).1 (h2 (p :: ps) (by simp)) (h3 (p :: ps) (by simp)).2 e1
    have s2 := eltsLoop_short hv (l := l) (fun r hr => h1 r (by simp [hr])) (fun r hr => h2 r (by simp [hr])) (fun r hr => h3 r (by simp [hr])) e2
    refine (s1.append ?_).append s2
    split
    · exact .nil
    · exact .line (s := []) (by decide)

theorem pprint_elts_short {c : Cfg} (hv : c.Valid) {names : Names} {l : RList} {t : Str} (h1 : ∀ r ∈ l, Rel.Prints c r) (h2 : ∀ r ∈ l, Rel.AllNamed c names r)
    (h3 : ∀ r ∈ l, (∀ p ∈ r, Rel.LineFits p) ∧ (r.length : Int) < 2 ^ 31) (h : pprint_elts c l (some names) = .ok t) : Rel.ShortText t := by
  unfold pprint_elts at h
  split at h
  · exact eltsLoop_short hv h1 h2 h3 h
  · injection h with h
    subst h
    exact .line (s := "# NULL relation list".toList) (by decide)

end RList

namespace Rel

theorem ShortText.newline : ShortText ['\n'] := .line (s := []) (by decide)

theorem ShortText.nat {n : Nat} (h : n < 10 ^ 100) : ShortText (showNat n ++ ['\n']) :=
  .line (by have := Util.showNat_length_le n 99 (by omega); have : MAX_STRING = 2048 := rfl; omega)

end Rel

namespace Stmts

variable {D : Type}

/-- The lines of the text of a statement are short (specification): its relations have short lines, and so have its extensions. -/
structure Short (L : Lib D) (s : Stmt D) : Prop where
  rels : ∀ r ∈ rels s, (∀ p ∈ r, Rel.LineFits p) ∧ (r.length : Int) < 2 ^ 31
  exts : ∀ t, GList.sprint L.toEnv s.extension = .ok t → Rel.ShortText t
  access : (s.access.length : Int) < 2 ^ 31
  extensions : (s.extension.length : Int) < 2 ^ 31

theorem partLine_short {number : Nat} (hn : number < 10 ^ 100) {title : Str} (ht : title.length < 100) : Rel.ShortText (partLine number title) := by
  have : partLine number title = ("# ---------------------------------------------- ".toList ++ (pad2 number ++ title)) ++ ['\n'] := by
    unfold partLine
    rw [List.append_assoc, List.append_assoc, show "\n".toList = ['\n'] from rfl]
  rw [this]
  refine .line ?_
  have := Util.showNat_length_le number 99 (by omega)
  have : MAX_STRING = 2048 := rfl
  simp only [pad2, List.length_append, List.length_replicate, show "# ---------------------------------------------- ".toList.length = 49 from by decide]
  omega

theorem printOne_short {c : Cfg} (hv : c.Valid) {L : Lib D} {s : Stmt D} (h : Prints c L s) (hs : Short L s) {names : Names}
    (hn : ∀ r ∈ Stmts.rels s, Rel.AllNamed c names r) {number : Nat} (hnum : number < 10 ^ 100) {t : Str} (e : printOne c L names number s = .ok t) : Rel.ShortText t := by
  unfold printOne at e
  obtain ⟨b, e0, e⟩ := Out.bind_eq_ok.mp e
  obtain ⟨d, e1, e⟩ := Out.bind_eq_ok.mp e
  obtain ⟨sc, e2, e⟩ := Out.bind_eq_ok.mp e
  obtain ⟨a, e3, e⟩ := Out.bind_eq_ok.mp e
  obtain ⟨x, e4, e⟩ := Out.bind_eq_ok.mp e
  injection e with e
  subst e
  have hw := withBody_named h hn e0
  have s1 := Rel.spprint_short hv (h.rels s.domain (by simp [Stmts.rels])).parts (hs.rels s.domain (by simp [Stmts.rels])).1 (hw s.domain (by simp [Stmts.rels]))
    (hs.rels s.domain (by simp [Stmts.rels])).2 e1
  have s2 := Rel.spprint_short hv (h.rels s.scattering (by simp [Stmts.rels])).parts (hs.rels s.scattering (by simp [Stmts.rels])).1 (hw s.scattering (by simp [Stmts.rels]))
    (hs.rels s.scattering (by simp [Stmts.rels])).2 e2
  have s3 := RList.pprint_elts_short hv (l := s.access) (fun r hr => h.rels r (by simp [Stmts.rels, hr])) (fun r hr => hw r (by simp [Stmts.rels, hr]))
    (fun r hr => hs.rels r (by simp [Stmts.rels, hr])) e3
  have s4 : Rel.ShortText x := by
    unfold printExts at e4
    split at e4
    · exact hs.exts x e4
    · cases e4; exact .nil
  have hm : MAX_STRING = 2048 := rfl
  have hnb : nbRelations s < 10 ^ 100 := by
    have h1 : RList.count s.access ≤ s.access.length := by rw [RList.list_count]; exact List.length_filter_le _ _
    have := hs.access
    unfold nbRelations
    have : (if s.domain.isEmpty then 0 else 1) ≤ 1 := by split <;> omega
    have : (if s.scattering.isEmpty then 0 else 1) ≤ 1 := by split <;> omega
    omega
  have hx : (showInt (GList.number s.extension)).length < 100 := by
    have h1 : fits 32 (GList.number s.extension) := by
      have := hs.extensions
      unfold GList.number fits cMin cMax
      simp
      omega
    have := Util.showInt_length h1
    omega
  have l1 := Rel.ShortText.line (s := "# =============================================== Statement ".toList ++ showNat number) (by
    have := Util.showNat_length_le number 99 (by omega)
    simp only [List.length_append, show "# =============================================== Statement ".toList.length = 60 from by decide]
    omega)
  have l2 := Rel.ShortText.line (s := "# Number of relations describing the statement:".toList) (by decide)
  have l3 := Rel.ShortText.line (s := "# Number of Statement Extensions".toList) (by decide)
  have l4 := Rel.ShortText.line (s := showInt (GList.number s.extension)) (by omega)
  have nl := Rel.ShortText.newline
  have := l1.append (l2.append ((Rel.ShortText.nat hnb).append (nl.append ((partLine_short hnum (title := ".1 Domain".toList) (by decide)).append (s1.append (nl.append
    ((partLine_short hnum (title := ".2 Scattering".toList) (by decide)).append (s2.append (nl.append
    ((partLine_short hnum (title := ".3 Access".toList) (by decide)).append (s3.append (nl.append
    ((partLine_short hnum (title := ".4 Statement Extensions".toList) (by decide)).append (l3.append (l4.append (s4.append nl))))))))))))))))
  simpa using this

theorem printLoop_short {c : Cfg} (hv : c.Valid) {L : Lib D} {names : Names} : ∀ {ss : Stmts D} {number : Nat} {t : Str}, (∀ s ∈ ss, Prints c L s) →
    (∀ s ∈ ss, Short L s) → (∀ s ∈ ss, ∀ r ∈ Stmts.rels s, Rel.AllNamed c names r) → number + ss.length < 10 ^ 100 →
    printLoop c L names number ss = .ok t → Rel.ShortText t
  | [], _, _, _, _, _, _, e => by simp only [printLoop] at e; cases e; exact .nil
  | s :: ss, number, t, h, hs, hn, hnum, e => by
    simp only [printLoop] at e
    simp only [List.length_cons] at hnum
    obtain ⟨a, e1, e⟩ := Out.bind_eq_ok.mp e
    obtain ⟨b, e2, e⟩ := Out.bind_eq_ok.mp e
    injection e with e
    subst e
    exact (printOne_short hv (h s (by simp)) (hs s (by simp)) (hn s (by simp)) (by omega) e1).append
      (printLoop_short hv (ss := ss) (number := number + 1) (fun x hx => h x (by simp [hx])) (fun x hx => hs x (by simp [hx])) (fun x hx => hn x (by simp [hx])) (by omega) e2)

theorem pprint_short {c : Cfg} (hv : c.Valid) {L : Lib D} {names : Names} {ss : Stmts D} {t : Str} (h : ∀ s ∈ ss, Prints c L s)
    (hs : ∀ s ∈ ss, Short L s) (hn : ∀ s ∈ ss, ∀ r ∈ Stmts.rels s, Rel.AllNamed c names r) (hlen : (ss.length : Int) < 2 ^ 31)
    (e : pprint c L ss (some names) = .ok t) : Rel.ShortText t := by
  have : ∃ m, Names.clone (some names) = some m := ⟨_, rfl⟩
  obtain ⟨m, hm⟩ := this
  unfold pprint at e
  simp only [chooseNames, hm, Option.getD_some, Out.ok_bind] at e
  exact printLoop_short hv h hs (fun s hs r hr ps hps => (hn s hs r hr ps hps).clone hm) (by omega) e

end Stmts

namespace Scops

variable {D : Type}

/-- The lines of the text of a scop are short (specification). -/
structure Short (L : TextLib D) (s : Scop D) : Prop where
  context : (∀ p ∈ s.context, Rel.LineFits p) ∧ (s.context.length : Int) < 2 ^ 31
  language : (languageText s).length < MAX_STRING - 1
  statement : ∀ st ∈ s.statement, Stmts.Short L.toLib st
  statements : (s.statement.length : Int) < 2 ^ 31
  paramsText : ∀ t, GList.sprint L.toEnv s.parameters = .ok t → Rel.ShortText t
  extsText : ∀ t, GList.sprint L.toEnv s.extension = .ok t → Rel.ShortText t

theorem provided_short (b : Bool) : Rel.ShortText (provided b "Parameters are".toList) := by
  cases b
  · exact .line (s := "# Parameters are not provided\n0\n".toList) (by decide)
  · exact .line (s := "# Parameters are provided\n1".toList) (by decide)

theorem printOne_short {c : Cfg} (hv : c.Valid) (hnd : c.ndebug = false) {L : TextLib D} {s : Scop D} (h : Prints c L s) (hs : Short L s) {n : Names}
    (hn : ∀ r ∈ rels s, Rel.AllNamed c n r) {t : Str} (e : printOne c L n s = .ok t) : Rel.ShortText t := by
  obtain ⟨n1, e1, hn⟩ := withParams_named h hn
  obtain ⟨n2, e2, hn⟩ := withArrays_named hv hnd h hn
  unfold printOne at e
  rw [e1] at e
  simp only [Out.ok_bind] at e
  rw [e2] at e
  simp only [Out.ok_bind] at e
  obtain ⟨ctx, e3, e⟩ := Out.bind_eq_ok.mp e
  obtain ⟨par, e4, e⟩ := Out.bind_eq_ok.mp e
  obtain ⟨st, e5, e⟩ := Out.bind_eq_ok.mp e
  obtain ⟨ext, e6, e⟩ := Out.bind_eq_ok.mp e
  injection e with e
  subst e
  have s1 := Rel.spprint_short hv h.context.parts hs.context.1 (hn s.context (by simp [rels])) hs.context.2 e3
  have s2 := hs.paramsText par e4
  have s3 := Stmts.pprint_short hv h.statement hs.statement
    (fun st hst r hr => hn r (by simp only [rels, List.mem_cons, List.mem_flatMap]; exact .inr ⟨st, hst, hr⟩)) hs.statements e5
  have s4 : Rel.ShortText ext := by
    cases hx : s.extension with
    | nil => rw [hx] at e6; simp only [printExtension] at e6; cases e6; exact .nil
    | cons g l =>
      rw [hx] at e6
      simp only [printExtension] at e6
      obtain ⟨t, e7, e6⟩ := Out.bind_eq_ok.mp e6
      injection e6 with e6
      subst e6
      have := (Rel.ShortText.line (s := "# =============================================== Extensions".toList) (by decide)).append (hs.extsText t (by rw [hx]; exact e7))
      simpa using this
  have hnum : (showInt (Stmts.number s.statement)).length < 100 := by
    have h1 : fits 32 (Stmts.number s.statement) := by
      have := hs.statements
      unfold Stmts.number fits cMin cMax
      simp
      omega
    have := Util.showInt_length h1
    omega
  have hm : MAX_STRING = 2048 := rfl
  have nl := Rel.ShortText.newline
  have := (Rel.ShortText.line (s := "\n<OpenScop>".toList) (by decide)).append
    ((Rel.ShortText.line (s := "\n# =============================================== Global\n# Language".toList) (by decide)).append
    ((Rel.ShortText.line (s := languageText s) hs.language).append (nl.append
    ((Rel.ShortText.line (s := "# Context".toList) (by decide)).append (s1.append (nl.append ((provided_short (hasURI s.parameters URI_STRINGS)).append (s2.append
    ((Rel.ShortText.line (s := "\n# Number of statements".toList) (by decide)).append ((Rel.ShortText.line (s := showInt (Stmts.number s.statement)) (by omega)).append (nl.append
    (s3.append (s4.append (Rel.ShortText.line (s := "\n</OpenScop>\n".toList) (by decide)))))))))))))))
  simpa using this

theorem printLoop_short {c : Cfg} (hv : c.Valid) (hnd : c.ndebug = false) {L : TextLib D} {n : Names} : ∀ {x : Scops D} {t : Str}, (∀ s ∈ x, Prints c L s) →
    (∀ s ∈ x, Short L s) → (∀ s ∈ x, ∀ r ∈ rels s, Rel.AllNamed c n r) → printLoop c L n x = .ok t → Rel.ShortText t
  | [], _, _, _, _, e => by simp only [printLoop] at e; cases e; exact .nil
  | s :: x, t, h, hs, hn, e => by
    simp only [printLoop] at e
    obtain ⟨a, e1, e⟩ := Out.bind_eq_ok.mp e
    obtain ⟨b, e2, e⟩ := Out.bind_eq_ok.mp e
    injection e with e
    subst e
    exact (printOne_short hv hnd (h s (by simp)) (hs s (by simp)) (hn s (by simp)) e1).append
      (printLoop_short hv hnd (x := x) (fun y hy => h y (by simp [hy])) (fun y hy => hs y (by simp [hy])) (fun y hy => hn y (by simp [hy])) e2)

theorem print_short {c : Cfg} (hv : c.Valid) (hnd : c.ndebug = false) {L : TextLib D} {release : Str} (hrel : release.length < 1000) {x : Scops D}
    (h : ∀ s ∈ x, Prints c L s) (hs : ∀ s ∈ x, Short L s) (hne : ∃ s ∈ x, ∃ r ∈ rels s, r ≠ []) {t : Str} (e : print c L release x = .ok t) : Rel.ShortText t := by
  obtain ⟨n, e1, hn⟩ := scop_names_cover hv hnd h hne
  cases x with
  | nil => simp only [print] at e; cases e; exact .line (s := "# NULL scop".toList) (by decide)
  | cons s x =>
    simp only [print] at e
    obtain ⟨b, _, e⟩ := Out.bind_eq_ok.mp e
    rw [e1] at e
    simp only [Out.ok_bind] at e
    obtain ⟨u, e2, e⟩ := Out.bind_eq_ok.mp e
    injection e with e
    subst e
    have := (Rel.ShortText.line (s := "# [File generated by the OpenScop Library ".toList ++ (release ++ "]".toList)) (by
      have : MAX_STRING = 2048 := rfl
      simp only [List.length_append, show "# [File generated by the OpenScop Library ".toList.length = 42 from by decide, show "]".toList.length = 1 from rfl]
      omega)).append (printLoop_short hv hnd h hs hn e2)
    simpa using this

/-- C60: a list of scops accepted by the integrity check, of any shape, is printed, and the text is read back as the same list. -/
theorem scop_print_read {c : Cfg} (hv : c.Valid) (hnd : c.ndebug = false) {L : TextLib D} {registry : Ifaces} (hreg : Ifaces.Unique registry) {prec : Int}
    {release : Str} (hrel : release.length < 1000) (hrel' : '<' ∉ release) {x : Scops D} (h : ∀ s ∈ x, Printable c L s) (hs : ∀ s ∈ x, Short L s)
    (ht : ∀ s ∈ x, TextScop c L registry prec s) (hok : integrity_check c L.toLib x = .ok true) :
    ∃ t, print c L release x = .ok t ∧ pread c L registry prec t = .ok x := by
  obtain ⟨t, e⟩ := scop_print_checked hv hnd release h hok
  refine ⟨t, e, scop_text_round_trip hreg hrel' ht e ?_⟩
  obtain ⟨b, e', hb⟩ := scop_integrity_check_iff hv hnd (L := L.toLib) (fun s hs => (h s hs).checkable.1) (fun s hs => (h s hs).checkable.2.1)
    (fun s hs => (h s hs).checkable.2.2)
  rw [hok] at e'
  injection e' with e'
  have hall := hb.mp e'.symm
  cases x with
  | nil =>
    simp only [print] at e
    cases e
    exact (Rel.ShortText.line (s := "# NULL scop".toList) (by decide)).shortLines
  | cons s x =>
    exact (print_short hv hnd hrel (fun y hy => (h y hy).prints (hall y hy)) hs ⟨s, by simp, s.context, by simp [Scops.rels], (h s (by simp)).context⟩ e).shortLines

end Scops
end Osl
