import Verif.DumpRel
/-!
# What `osl_interface_dump`, `osl_generic_dump`, `osl_statement_dump`, `osl_scop_dump`, `osl_names_dump` and `osl_body_dump` show

The interfaces are known by their URIs only, so they are supposed to be those of a registry without duplicates; the data of the
generics is displayed by the functions `F` of their interfaces.
-/

set_option linter.unusedSectionVars false

namespace Osl
namespace Dump

/-- A registry whose interfaces have distinct URIs, without ends of lines. -/
structure Registry (reg : Ifaces) : Prop where
  uri : ∀ i ∈ reg, ∃ u, i.URI = some u ∧ NoNL u
  unique : ∀ i ∈ reg, ∀ j ∈ reg, i.URI = j.URI → i = j

theorem interface_eq {l : Ifaces} (h : ∀ i ∈ l, i.URI ≠ none) (n : Nat) : interface l n =
    linked (line n "+-- NULL interface".toList) (fun i => line n ("+-- osl_interface_t: URI = ".toList ++ uriText i.URI))
      (fun _ i => line n ("|   osl_interface_t: URI = ".toList ++ uriText i.URI)) (fun _ => .ok [])
      (blank (n + 2) ++ line (n + 1) ['V']) (blank (n + 1)) l := by
  cases l with
  | nil => rfl
  | cons i l =>
    cases hu : i.URI with
    | none => exact absurd hu (h i (List.mem_cons_self ..))
    | some u => simp only [interface, linked, hu, Ext.str, Out.ok_bind, uriText]

/-- `osl_interface_dump` succeeds exactly when the first interface, if any, has a URI. -/
theorem interface_ok_iff (l : Ifaces) (n : Nat) : (∃ t, interface l n = .ok t) ↔ ∀ i m, l = i :: m → i.URI ≠ none := by
  have hn : ∀ head : Nat → Iface → Str, ∀ sep, ∃ t, nodes head (fun _ => .ok []) sep 1 l = .ok t := fun head sep =>
    nodes_ok.mpr fun _ _ => ⟨[], rfl⟩
  cases l with
  | nil => exact ⟨fun _ i m e => (by cases e), fun _ => ⟨_, rfl⟩⟩
  | cons i l =>
    cases hu : i.URI with
    | none =>
      constructor
      · rintro ⟨t, h⟩
        simp only [interface, hu, Ext.str] at h
        cases h
      · intro h
        exact absurd hu (h i l rfl)
    | some u =>
      refine ⟨fun _ j m e => ?_, fun _ => ?_⟩
      · injection e with e _
        rw [← e, hu]; simp
      · simp only [interface, hu, Ext.str, Out.ok_bind]
        obtain ⟨t, ht⟩ := hn (fun _ i => line n ("|   osl_interface_t: URI = ".toList ++ uriText i.URI)) (blank (n + 2) ++ line (n + 1) ['V'])
        exact ⟨_, by rw [ht]; rfl⟩

theorem iface_shows {reg : Ifaces} (hr : Registry reg) (n : Nat) (pre : Str) (hp : NoNL pre) :
    Shows (fun i => i ∈ reg) fun i => (.ok [] : Out Str) >>= fun t => .ok (line n (pre ++ uriText i.URI) ++ t) := by
  intro a b s t u v ha hb h1 h2 e
  injection h1 with h1; injection h2 with h2
  subst h1; subst h2
  obtain ⟨x, hx, nx⟩ := hr.uri a ha
  obtain ⟨y, hy, ny⟩ := hr.uri b hb
  simp only [hx, hy, uriText, List.append_nil] at e
  obtain ⟨k1, k2⟩ := line_inj (by nonl) (by nonl) e
  exact ⟨hr.unique a ha b hb (by rw [hx, hy, List.append_cancel_left k1]), k2⟩

/-- C69: the text of `osl_interface_dump` tells the URIs, hence the interfaces among those of a registry. -/
theorem interface_shows {reg : Ifaces} (hr : Registry reg) (n : Nat) :
    Shows (fun l : Ifaces => ∀ i ∈ l, i ∈ reg) (fun l => interface l n) := by
  have h := linked_shows (P := fun i => i ∈ reg) (null := line n "+-- NULL interface".toList)
    (sep := blank (n + 2) ++ line (n + 1) ['V']) (fin := blank (n + 1))
    (fun x y => by
      rw [blank_eq, blank_eq, List.append_assoc, line_lower (n + 1) 1]
      exact line_ne (by nonl) (by nonl) (by decide))
    (fun i x y hi => by
      obtain ⟨u, hu, nu⟩ := hr.uri i hi
      rw [hu]
      exact line_ne (by simp only [uriText]; nonl) (by nonl) (by simp [uriText]))
    (iface_shows hr n "+-- osl_interface_t: URI = ".toList (by nonl)) (fun _ => iface_shows hr n "|   osl_interface_t: URI = ".toList (by nonl))
  intro a b s t u v ha hb h1 h2
  have na : ∀ l : Ifaces, (∀ i ∈ l, i ∈ reg) → ∀ i ∈ l, i.URI ≠ none := fun l hl i hi => by
    obtain ⟨u, hu, _⟩ := hr.uri i (hl i hi)
    rw [hu]; simp
  dsimp only at h1 h2
  rw [interface_eq (na _ ha)] at h1
  rw [interface_eq (na _ hb)] at h2
  exact h a b s t u v ha hb h1 h2

section
variable {D : Type}

/-- The display functions tell the data satisfying `Q`. -/
def FShows (F : Fn D) (Q : Nat → Option D → Prop) : Prop := ∀ k n, Shows (Q k) fun d => F k d n

/-- A generic with an interface of the registry and data its display function can tell. -/
def GenericShown (reg : Ifaces) (Q : Nat → Option D → Prop) (g : Generic D) : Prop :=
  ∃ i, g.interface = some i ∧ i ∈ reg ∧ Q i.fns.idump g.data

theorem genericBody_shows {reg : Ifaces} (hr : Registry reg) {F : Fn D} {Q : Nat → Option D → Prop} (hF : FShows F Q) (n : Nat) :
    Shows (GenericShown reg Q) (genericBody F n) := by
  intro a b s t u v ha hb h1 h2 e
  obtain ⟨i, ia, ir, iq⟩ := ha
  obtain ⟨j, jb, jr, jq⟩ := hb
  simp only [genericBody, ia, jb, Out.bind_eq_ok, Out.pure_eq] at h1 h2
  obtain ⟨s1, h1, s2, h3, e1⟩ := h1
  obtain ⟨t1, h2, t2, h4, e2⟩ := h2
  injection e1 with e1; injection e2 with e2
  subst e1; subst e2
  simp only [List.append_assoc] at e
  obtain ⟨k1, e⟩ := interface_shows hr (n + 1) [i] [j] s1 t1 _ _ (fun x hx => by rw [List.mem_singleton.mp hx]; exact ir)
    (fun x hx => by rw [List.mem_singleton.mp hx]; exact jr) h1 h2 (List.append_cancel_left e)
  injection k1 with k1 _
  subst k1
  obtain ⟨k2, e⟩ := hF i.fns.idump (n + 1) a.data b.data s2 t2 u v iq jq h3 h4 e
  refine ⟨?_, e⟩
  cases a; cases b
  simp only at ia jb k2
  rw [ia, jb, k2]

theorem generic_eq (F : Fn D) (l : GList D) (n : Nat) : generic F l n =
    linked (line n "+-- NULL generic".toList) (fun _ => line n "+-- osl_generic_t".toList) (fun _ _ => line n "|   osl_generic_t".toList)
      (genericBody F n) (line (n + 1) ['V']) (blank (n + 1)) l := by
  cases l <;> rfl

theorem v_sep (n : Nat) (x y : Str) : line n ['V'] ++ x ≠ blank n ++ y := by
  rw [blank_eq]
  exact line_ne (by nonl) (by nonl) (by decide)

/-- C69: the text of `osl_generic_dump` tells the extensions. -/
theorem generic_shows {reg : Ifaces} (hr : Registry reg) {F : Fn D} {Q : Nat → Option D → Prop} (hF : FShows F Q) (n : Nat) :
    Shows (fun l : GList D => ∀ g ∈ l, GenericShown reg Q g) (fun l => generic F l n) := by
  have hb := genericBody_shows hr hF n
  have h := linked_shows (null := line n "+-- NULL generic".toList) (fin := blank (n + 1)) (sep := line (n + 1) ['V'])
    (v_sep (n + 1)) (fun a x y _ => line_ne (by nonl) (by nonl) (by decide))
    (hb.same (line n "+-- osl_generic_t".toList)) (fun _ => hb.same (line n "|   osl_generic_t".toList))
  intro a b s t u v ha hb h1 h2
  dsimp only at h1 h2
  rw [generic_eq] at h1 h2
  exact h a b s t u v ha hb h1 h2

/-! ## Statements -/

/-- A statement the text can tell. -/
structure StmtShown (c : Cfg) (reg : Ifaces) (Q : Nat → Option D → Prop) (s : Stmt D) : Prop where
  domain : ∀ p ∈ s.domain, PartShown c p
  scattering : ∀ p ∈ s.scattering, PartShown c p
  access : ∀ r ∈ s.access, ∀ p ∈ r, PartShown c p
  extension : ∀ g ∈ s.extension, GenericShown reg Q g

theorem stmtBody_shows {c : Cfg} {reg : Ifaces} (hr : Registry reg) {F : Fn D} {Q : Nat → Option D → Prop} (hF : FShows F Q) (n : Nat) :
    Shows (StmtShown c reg Q) (stmtBody c F n) := by
  intro a b s t u v ha hb h1 h2 e
  simp only [stmtBody, Out.bind_eq_ok, Out.pure_eq] at h1 h2
  obtain ⟨s1, h1, s2, h3, s3, h5, s4, h7, e1⟩ := h1
  obtain ⟨t1, h2, t2, h4, t3, h6, t4, h8, e2⟩ := h2
  injection e1 with e1; injection e2 with e2
  subst e1; subst e2
  simp only [List.append_assoc] at e
  obtain ⟨k1, e⟩ := relation_shows c (n + 1) _ _ _ _ _ _ ha.domain hb.domain h1 h2 (List.append_cancel_left e)
  obtain ⟨k2, e⟩ := relation_shows c (n + 1) _ _ _ _ _ _ ha.scattering hb.scattering h3 h4 e
  obtain ⟨k3, e⟩ := relation_list_shows c (n + 1) _ _ _ _ _ _ ha.access hb.access h5 h6 e
  obtain ⟨k4, e⟩ := generic_shows hr hF (n + 1) _ _ _ _ _ _ ha.extension hb.extension h7 h8 e
  refine ⟨?_, e⟩
  cases a; cases b
  simp only at k1 k2 k3 k4
  rw [k1, k2, k3, k4]

theorem statement_eq (c : Cfg) (F : Fn D) (l : Stmts D) (n : Nat) : statement c F l n =
    linked (line n "+-- NULL statement".toList) (fun _ => line n "+-- osl_statement_t (S1)".toList)
      (fun k _ => line n ("|   osl_statement_t (S".toList ++ showNat k ++ ")".toList)) (stmtBody c F n) (line (n + 1) ['V']) (blank (n + 1)) l := by
  cases l <;> rfl

/-- C69: the text of `osl_statement_dump` tells the statements: domains, scatterings, accesses and extensions. -/
theorem statement_shows {c : Cfg} {reg : Ifaces} (hr : Registry reg) {F : Fn D} {Q : Nat → Option D → Prop} (hF : FShows F Q) (n : Nat) :
    Shows (fun l : Stmts D => ∀ s ∈ l, StmtShown c reg Q s) (fun l => statement c F l n) := by
  have hb := stmtBody_shows (c := c) hr hF n
  have h := linked_shows (null := line n "+-- NULL statement".toList) (fin := blank (n + 1)) (sep := line (n + 1) ['V'])
    (v_sep (n + 1)) (fun a x y _ => line_ne (by nonl) (by nonl) (by decide))
    (hb.same (line n "+-- osl_statement_t (S1)".toList)) (fun k => hb.same (line n ("|   osl_statement_t (S".toList ++ showNat k ++ ")".toList)))
  intro a b s t u v ha hb h1 h2
  dsimp only at h1 h2
  rw [statement_eq] at h1 h2
  exact h a b s t u v ha hb h1 h2

/-! ## Scops -/

/-- A scop the text can tell. -/
structure ScopShown (c : Cfg) (reg : Ifaces) (Q : Nat → Option D → Prop) (s : Scop D) : Prop where
  language : ∀ l, s.language = some l → NoNL l
  context : ∀ p ∈ s.context, PartShown c p
  parameters : ∀ g ∈ s.parameters, GenericShown reg Q g
  statement : ∀ x ∈ s.statement, StmtShown c reg Q x
  registry : ∀ i ∈ s.registry, i ∈ reg
  extension : ∀ g ∈ s.extension, GenericShown reg Q g

theorem scopBody_shows {c : Cfg} {reg : Ifaces} (hr : Registry reg) {F : Fn D} {Q : Nat → Option D → Prop} (hF : FShows F Q) (n : Nat) :
    Shows (ScopShown c reg Q) (scopBody c F n) := by
  intro a b s t u v ha hb h1 h2 e
  simp only [scopBody, Out.bind_eq_ok, Out.pure_eq] at h1 h2
  obtain ⟨l1, g1, s1, h1, s2, h3, s3, h5, s4, h7, s5, h9, e1⟩ := h1
  obtain ⟨l2, g2, t1, h2, t2, h4, t3, h6, t4, h8, t5, h10, e2⟩ := h2
  injection e1 with e1; injection e2 with e2
  subst e1; subst e2
  have q1 : a.language = some l1 := by
    cases h : a.language with
    | none => rw [h] at g1; cases g1
    | some x => rw [h] at g1; injection g1 with g1; rw [g1]
  have q2 : b.language = some l2 := by
    cases h : b.language with
    | none => rw [h] at g2; cases g2
    | some x => rw [h] at g2; injection g2 with g2; rw [g2]
  have n1 := ha.language l1 q1
  have n2 := hb.language l2 q2
  simp only [List.append_assoc] at e
  have e := List.append_cancel_left e
  obtain ⟨kv, e⟩ := line_inj (by nonl) (by nonl) e
  have e := List.append_cancel_left e
  obtain ⟨kl, e⟩ := line_inj (by nonl) (by nonl) e
  have e := List.append_cancel_left e
  have kv := showInt_inj (List.append_cancel_left kv)
  have kl := List.append_cancel_left kl
  obtain ⟨k1, e⟩ := relation_shows c (n + 1) _ _ _ _ _ _ ha.context hb.context h1 h2 e
  obtain ⟨k2, e⟩ := generic_shows hr hF (n + 1) _ _ _ _ _ _ ha.parameters hb.parameters h3 h4 e
  obtain ⟨k3, e⟩ := statement_shows hr hF (n + 1) _ _ _ _ _ _ ha.statement hb.statement h5 h6 e
  obtain ⟨k4, e⟩ := interface_shows hr (n + 1) _ _ _ _ _ _ ha.registry hb.registry h7 h8 e
  obtain ⟨k5, e⟩ := generic_shows hr hF (n + 1) _ _ _ _ _ _ ha.extension hb.extension h9 h10 e
  refine ⟨?_, e⟩
  cases a; cases b
  simp only at k1 k2 k3 k4 k5 kv q1 q2
  rw [k1, k2, k3, k4, k5, kv, q1, q2, kl]

theorem scop_eq (c : Cfg) (F : Fn D) (l : Scops D) (n : Nat) : scop c F l n =
    linked (line n "+-- NULL scop".toList) (fun _ => line n "+-- osl_scop_t".toList) (fun _ _ => line n "|   osl_scop_t".toList)
      (scopBody c F n) (line (n + 1) ['V']) (blank (n + 1)) l := by
  cases l <;> rfl

/-- C69: the text of `osl_scop_dump` tells the scops: version, language, context, parameters, statements, registry, extensions. -/
theorem scop_shows {c : Cfg} {reg : Ifaces} (hr : Registry reg) {F : Fn D} {Q : Nat → Option D → Prop} (hF : FShows F Q) (n : Nat) :
    Shows (fun l : Scops D => ∀ s ∈ l, ScopShown c reg Q s) (fun l => scop c F l n) := by
  have hb := scopBody_shows (c := c) hr hF n
  have h := linked_shows (null := line n "+-- NULL scop".toList) (fin := blank (n + 1)) (sep := line (n + 1) ['V'])
    (v_sep (n + 1)) (fun a x y _ => line_ne (by nonl) (by nonl) (by decide))
    (hb.same (line n "+-- osl_scop_t".toList)) (fun _ => hb.same (line n "|   osl_scop_t".toList))
  intro a b s t u v ha hb h1 h2
  dsimp only at h1 h2
  rw [scop_eq] at h1 h2
  exact h a b s t u v ha hb h1 h2

/-! ## When the text is defined -/

/-- `osl_generic_dump` succeeds exactly when every interface has a URI and its function succeeds. -/
theorem generic_ok_iff (F : Fn D) (l : GList D) (n : Nat) : (∃ t, generic F l n = .ok t) ↔
    ∀ g ∈ l, ∀ i, g.interface = some i → i.URI ≠ none ∧ ∃ t, F i.fns.idump g.data (n + 1) = .ok t := by
  rw [generic_eq, linked_ok]
  refine forall_congr' fun g => forall_congr' fun _ => ?_
  cases hi : g.interface with
  | none =>
    refine ⟨fun _ i e => (by cases e), fun _ => ?_⟩
    simp only [genericBody, hi]
    exact ⟨_, rfl⟩
  | some i =>
    have k := interface_ok_iff [i] (n + 1)
    constructor
    · rintro ⟨t, h⟩ j e
      injection e with e
      subst e
      simp only [genericBody, hi, Out.bind_eq_ok, Out.pure_eq] at h
      obtain ⟨s1, h1, s2, h2, _⟩ := h
      exact ⟨k.mp ⟨s1, h1⟩ i [] rfl, s2, h2⟩
    · intro h
      obtain ⟨h1, t2, h2⟩ := h i rfl
      obtain ⟨t1, h1⟩ := k.mpr fun j m e => by injection e with e _; rw [← e]; exact h1
      exact ⟨_, by simp only [genericBody, hi, h1, h2, Out.ok_bind, Out.pure_eq]; rfl⟩

/-- `osl_statement_dump` succeeds exactly when the display of every domain, scattering, access and extension does. -/
theorem statement_ok_iff (c : Cfg) (F : Fn D) (l : Stmts D) (n : Nat) : (∃ t, statement c F l n = .ok t) ↔
    ∀ s ∈ l, (∃ t, relation c s.domain (n + 1) = .ok t) ∧ (∃ t, relation c s.scattering (n + 1) = .ok t) ∧
      (∀ r ∈ s.access, ∃ t, relation c r (n + 2) = .ok t) ∧ (∃ t, generic F s.extension (n + 1) = .ok t) := by
  rw [statement_eq, linked_ok]
  refine forall_congr' fun s => forall_congr' fun _ => ?_
  have ka : (∃ t, relation_list c s.access (n + 1) = .ok t) ↔ ∀ r ∈ s.access, ∃ t, relation c r (n + 2) = .ok t := by
    rw [relation_list_eq, linked_ok]
    refine forall_congr' fun r => forall_congr' fun _ => ?_
    constructor
    · rintro ⟨t, h⟩
      simp only [Out.bind_eq_ok] at h
      exact ⟨_, h.choose_spec.1⟩
    · rintro ⟨t, h⟩
      exact ⟨_, by rw [h, Out.ok_bind]⟩
  rw [← ka]
  constructor
  · rintro ⟨t, h⟩
    simp only [stmtBody, Out.bind_eq_ok, Out.pure_eq] at h
    obtain ⟨s1, h1, s2, h2, s3, h3, s4, h4, _⟩ := h
    exact ⟨⟨s1, h1⟩, ⟨s2, h2⟩, ⟨s3, h3⟩, ⟨s4, h4⟩⟩
  · rintro ⟨⟨s1, h1⟩, ⟨s2, h2⟩, ⟨s3, h3⟩, ⟨s4, h4⟩⟩
    exact ⟨_, by simp only [stmtBody, h1, h2, h3, h4, Out.ok_bind, Out.pure_eq]; rfl⟩

/-- C69: `osl_scop_dump` succeeds exactly when every scop has a language, the first interface of every registry has a URI, and the
display of the contexts, parameters, statements and extensions succeeds: a scop without language makes it undefined. -/
theorem scop_ok_iff (c : Cfg) (F : Fn D) (l : Scops D) (n : Nat) : (∃ t, scop c F l n = .ok t) ↔
    ∀ s ∈ l, s.language ≠ none ∧ (∃ t, relation c s.context (n + 1) = .ok t) ∧ (∃ t, generic F s.parameters (n + 1) = .ok t) ∧
      (∃ t, statement c F s.statement (n + 1) = .ok t) ∧ (∀ i m, s.registry = i :: m → i.URI ≠ none) ∧
      (∃ t, generic F s.extension (n + 1) = .ok t) := by
  rw [scop_eq, linked_ok]
  refine forall_congr' fun s => forall_congr' fun _ => ?_
  rw [← interface_ok_iff s.registry (n + 1)]
  constructor
  · rintro ⟨t, h⟩
    simp only [scopBody, Out.bind_eq_ok, Out.pure_eq] at h
    obtain ⟨s0, h0, s1, h1, s2, h2, s3, h3, s4, h4, s5, h5, _⟩ := h
    refine ⟨fun e => ?_, ⟨s1, h1⟩, ⟨s2, h2⟩, ⟨s3, h3⟩, ⟨s4, h4⟩, ⟨s5, h5⟩⟩
    rw [e] at h0
    cases h0
  · rintro ⟨h0, ⟨s1, h1⟩, ⟨s2, h2⟩, ⟨s3, h3⟩, ⟨s4, h4⟩, ⟨s5, h5⟩⟩
    cases hl : s.language with
    | none => exact absurd hl h0
    | some x => exact ⟨_, by simp only [scopBody, hl, Ext.str, h1, h2, h3, h4, h5, Out.ok_bind, Out.pure_eq]; rfl⟩

end

/-! ## Names and bodies -/

/-- C69: the text of `osl_names_dump` tells the names. -/
theorem names_shows (n : Nat) : Shows (fun s : Option Names => ∀ x, s = some x → ∀ l ∈ [x.parameters, x.iterators, x.scatt_dims, x.local_dims, x.arrays],
    ∀ y, l = some y → WordsOnly y) (fun s => .ok (names s n)) := by
  intro a b s t u v ha hb h1 h2 e
  injection h1 with h1; injection h2 with h2
  subst h1; subst h2
  cases a with
  | none =>
    cases b with
    | none => exact ⟨rfl, List.append_cancel_left e⟩
    | some b =>
      simp only [names, List.append_assoc] at e
      exact absurd (line_inj (by nonl) (by nonl) e).1 (by decide)
  | some a =>
    cases b with
    | none =>
      simp only [names, List.append_assoc] at e
      exact absurd (line_inj (by nonl) (by nonl) e).1 (by decide)
    | some b =>
      have ha := ha a rfl
      have hb := hb b rfl
      simp only [names, List.append_assoc] at e
      have e := List.append_cancel_left (same_line e)
      obtain ⟨k1, e⟩ := strings_shows (n + 1) _ _ _ _ _ _ (ha _ (by simp)) (hb _ (by simp)) rfl rfl e
      obtain ⟨k2, e⟩ := strings_shows (n + 1) _ _ _ _ _ _ (ha _ (by simp)) (hb _ (by simp)) rfl rfl e
      obtain ⟨k3, e⟩ := strings_shows (n + 1) _ _ _ _ _ _ (ha _ (by simp)) (hb _ (by simp)) rfl rfl e
      obtain ⟨k4, e⟩ := strings_shows (n + 1) _ _ _ _ _ _ (ha _ (by simp)) (hb _ (by simp)) rfl rfl e
      obtain ⟨k5, e⟩ := strings_shows (n + 1) _ _ _ _ _ _ (ha _ (by simp)) (hb _ (by simp)) rfl rfl e
      refine ⟨?_, List.append_cancel_left e⟩
      cases a; cases b
      simp only at k1 k2 k3 k4 k5
      rw [k1, k2, k3, k4, k5]

/-- A single string without end of line: the form `osl_body_sread` (source/body.c:261) gives to the expressions. -/
def Single (s : Strings) : Prop := ∃ w, s.string = some [w] ∧ NoNL w

/-- The text of a single string, which may have spaces. -/
theorem single_shows (n : Nat) : Shows (fun s : Option Strings => ∀ x, s = some x → Single x) (fun s => .ok (strings s n)) := by
  intro a b s t u v ha hb e1 e2 e
  injection e1 with e1; injection e2 with e2
  subst e1; subst e2
  simp only [strings_eq, List.append_assoc] at e
  cases a with
  | none =>
    cases b with
    | none => exact ⟨rfl, List.append_cancel_left (same_line e)⟩
    | some b =>
      obtain ⟨w, hw, nw⟩ := hb b rfl
      have nb : NoNL (b.words.map fun w => ' ' :: w).flatten := by
        simp only [Strings.words, hw, Option.getD_some, List.map_cons, List.map_nil, List.flatten_cons, List.flatten_nil, List.append_nil]
        exact NoNL.cons (by decide) nw
      exact absurd (line_inj (by nonl) (by nonl) e).1 (by simp)
  | some a =>
    obtain ⟨x, hx, nx⟩ := ha a rfl
    have na : NoNL (' ' :: x) := NoNL.cons (by decide) nx
    simp only [Strings.words, hx, Option.getD_some, List.map_cons, List.map_nil, List.flatten_cons, List.flatten_nil, List.append_nil] at e
    cases b with
    | none => exact absurd (line_inj (by nonl) (by nonl) e).1 (by simp)
    | some b =>
      obtain ⟨w, hw, nw⟩ := hb b rfl
      have nb : NoNL (' ' :: w) := NoNL.cons (by decide) nw
      simp only [hw, Option.getD_some, List.map_cons, List.map_nil, List.flatten_cons, List.flatten_nil, List.append_nil] at e
      obtain ⟨k1, k2⟩ := line_inj (by nonl) (by nonl) e
      have k1 := List.append_cancel_left k1
      injection k1 with _ k1
      refine ⟨?_, List.append_cancel_left k2⟩
      cases a; cases b
      simp only at hx hw
      rw [hx, hw, k1]

/-- A body whose iterators are words and whose expression is a single string. -/
def BodyShown (b : Body) : Prop := (∀ y, b.iterators = some y → WordsOnly y) ∧ ∀ y, b.expression = some y → Single y

/-- C69: the text of `osl_body_dump` tells the iterators and the expression. -/
theorem body_shows (n : Nat) : Shows (fun b : Option Body => ∀ x, b = some x → BodyShown x) (fun b => .ok (body b n)) := by
  intro a b s t u v ha hb h1 h2 e
  injection h1 with h1; injection h2 with h2
  subst h1; subst h2
  cases a with
  | none =>
    cases b with
    | none => exact ⟨rfl, List.append_cancel_left e⟩
    | some b =>
      simp only [body, List.append_assoc] at e
      exact absurd (line_inj (by nonl) (by nonl) e).1 (by decide)
  | some a =>
    cases b with
    | none =>
      simp only [body, List.append_assoc] at e
      exact absurd (line_inj (by nonl) (by nonl) e).1 (by decide)
    | some b =>
      have ha := ha a rfl
      have hb := hb b rfl
      simp only [body, List.append_assoc] at e
      have e := List.append_cancel_left (same_line e)
      obtain ⟨k1, e⟩ := strings_shows (n + 1) _ _ _ _ _ _ ha.1 hb.1 rfl rfl e
      obtain ⟨k2, e⟩ := single_shows (n + 1) _ _ _ _ _ _ ha.2 hb.2 rfl rfl e
      refine ⟨?_, List.append_cancel_left e⟩
      cases a; cases b
      simp only at k1 k2
      rw [k1, k2]

/-- Finding: the text does not tell a string with a space from two strings. -/
theorem strings_space_ambiguous (n : Nat) :
    strings (some { string := some ["a b".toList] }) n = strings (some { string := some ["a".toList, "b".toList] }) n := rfl

end Dump
end Osl
