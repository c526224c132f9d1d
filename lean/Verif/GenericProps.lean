import Verif.Generic
import Verif.InterfaceProps
import Verif.ReadLemmas
/-!
# Properties of the extension lists (C34, C35)
-/

namespace Osl
namespace GList

variable {D : Type}

/-- The URI of a generic (specification). -/
def uri (g : Generic D) : Option Str := g.interface.bind (·.URI)

/-- A well formed extension list: every generic has an interface with a URI, no two have the same URI. -/
def Unique (l : GList D) : Prop := (l.map uri).Nodup ∧ ∀ g ∈ l, uri g ≠ none

/-- Every generic has its data. -/
def HasData (l : GList D) : Prop := ∀ g ∈ l, g.data ≠ none

theorem has_URI_iff {g : Generic D} {u : Str} : has_URI g u = true ↔ uri g = some u := by
  obtain ⟨i, d⟩ := g
  cases i <;> simp [has_URI, uri]

theorem lookup_absent {l : GList D} {u : Str} (h : ∀ g ∈ l, uri g ≠ some u) : lookup l u = none := by
  induction l with
  | nil => rfl
  | cons g l ih =>
    rw [lookup, if_neg]
    · exact ih fun x hx => h x (by simp [hx])
    · rw [has_URI_iff]; exact h g (by simp)

theorem Unique.tail {g : Generic D} {l : GList D} (h : Unique (g :: l)) : Unique l :=
  ⟨(List.nodup_cons.mp (by simpa using h.1)).2, fun x hx => h.2 x (by simp [hx])⟩

theorem Unique.head {g : Generic D} {l : GList D} (h : Unique (g :: l)) : ∀ x ∈ l, uri x ≠ uri g := by
  intro x hx e
  have := (List.nodup_cons.mp (show (uri g :: l.map uri).Nodup from h.1)).1
  exact this (by rw [← e]; exact List.mem_map.mpr ⟨x, hx, rfl⟩)

theorem Unique.inj {l : GList D} (hl : Unique l) {g h : Generic D} (hg : g ∈ l) (hh : h ∈ l) (e : GList.uri g = GList.uri h) : g = h := by
  induction l with
  | nil => simp at hh
  | cons z l ih =>
    rcases List.mem_cons.mp hh with rfl | k1 <;> rcases List.mem_cons.mp hg with rfl | k2
    · rfl
    · exact absurd e (hl.head _ k2)
    · exact absurd e.symm (hl.head _ k1)
    · exact ih hl.tail k2 k1

theorem lookup_mem {l : GList D} (hl : Unique l) {g : Generic D} (hg : g ∈ l) {u : Str} (hu : uri g = some u) :
    lookup l u = g.data := by
  induction l with
  | nil => simp at hg
  | cons x l ih =>
    rw [lookup]
    rcases List.mem_cons.mp hg with rfl | hg
    · rw [if_pos (has_URI_iff.mpr hu)]
    · rw [if_neg]
      · exact ih hl.tail hg
      · rw [has_URI_iff]; intro e; exact hl.head g hg (hu.trans e.symm)

/-- C34: in a well formed list a lookup gives the data of the generic with the URI, NULL when there is none. -/
theorem generic_lookup_correct {l : GList D} (hl : Unique l) (u : Str) :
    (∀ g ∈ l, uri g = some u → lookup l u = g.data) ∧ ((∀ g ∈ l, uri g ≠ some u) → lookup l u = none) :=
  ⟨fun _ hg hu => lookup_mem hl hg hu, lookup_absent⟩

theorem checkLoop_single {l : GList D} {g : Generic D} : checkLoop l [g] =
    match uri g with
    | none => .err
    | some u => match lookup l u with | some _ => .err | none => .ok () := by
  obtain ⟨i, d⟩ := g
  cases i with
  | none => rfl
  | some i =>
    obtain ⟨u, f⟩ := i
    cases u with
    | none => rfl
    | some u =>
      simp only [checkLoop, uri, Option.bind]
      cases lookup l u <;> rfl

/-- A specification of the list as a map from URIs to data: adding a generic. -/
def mapAdd (m : Str → Option D) (u : Str) (d : D) : Str → Option D := fun v => if v = u then some d else m v

/-- ... and removing a URI. -/
def mapDel (m : Str → Option D) (u : Str) : Str → Option D := fun v => if v = u then none else m v

/-- C34: adding a generic which has a URI and data to a list: an error when the URI is present, and otherwise the
list is well formed and associates the data to the URI, nothing else changing. -/
theorem generic_add_correct {l : GList D} (hl : Unique l) (hd : HasData l) {g : Generic D} {u : Str} {d : D}
    (hu : uri g = some u) (hg : g.data = some d) :
    (lookup l u ≠ none ∧ add l [g] = .err) ∨
    (lookup l u = none ∧ ∃ l', add l [g] = .ok l' ∧ Unique l' ∧ HasData l' ∧ l' = l ++ [g] ∧
      lookup l' = mapAdd (lookup l) u d) := by
  cases hk : lookup l u with
  | some x =>
    left
    refine ⟨by simp, ?_⟩
    simp [add, checkLoop_single, hu, hk]
  | none =>
    right
    have habs : ∀ x ∈ l, uri x ≠ some u := by
      intro x hx e
      have := lookup_mem hl hx e
      rw [hk] at this
      exact hd x hx this.symm
    have hun : Unique (l ++ [g]) := by
      refine ⟨?_, ?_⟩
      · rw [List.map_append, List.nodup_append]
        refine ⟨hl.1, by simp, ?_⟩
        intro a ha b hb
        obtain ⟨x, hx, rfl⟩ := List.mem_map.mp ha
        simp at hb; subst hb; rw [hu]; exact habs x hx
      · intro x hx
        rcases List.mem_append.mp hx with hx | hx
        · exact hl.2 x hx
        · simp at hx; subst hx; simp [hu]
    refine ⟨rfl, l ++ [g], by simp [add, checkLoop_single, hu, hk], hun, ?_, rfl, ?_⟩
    · intro x hx
      rcases List.mem_append.mp hx with hx | hx
      · exact hd x hx
      · simp at hx; subst hx; simp [hg]
    · funext v
      unfold mapAdd
      split
      · rename_i e; subst e
        rw [lookup_mem hun (by simp) hu, hg]
      · rename_i e
        by_cases h : ∃ x ∈ l, uri x = some v
        · obtain ⟨x, hx, e2⟩ := h
          rw [lookup_mem hun (by simp [hx]) e2, lookup_mem hl hx e2]
        · have h : ∀ x ∈ l, uri x ≠ some v := fun x hx e => h ⟨x, hx, e⟩
          rw [lookup_absent h, lookup_absent]
          intro x hx
          rcases List.mem_append.mp hx with hx | hx
          · exact h x hx
          · simp at hx; subst hx; rw [hu]; intro e2; injection e2 with e2; exact e e2.symm

theorem remove_eq {l : GList D} (hl : Unique l) (u : Str) :
    remove l u = l.filter (fun g => decide (uri g ≠ some u)) := by
  induction l with
  | nil => rfl
  | cons g l ih =>
    rw [remove]
    split
    · rename_i h
      have hu := has_URI_iff.mp h
      rw [List.filter_cons_of_neg (by simp [hu])]
      symm
      rw [List.filter_eq_self]
      intro x hx
      have := hl.head x hx
      rw [hu] at this
      simpa using this
    · rename_i h
      rw [has_URI_iff] at h
      rw [List.filter_cons_of_pos (by simpa using h), ih hl.tail]

/-- C34: removing a URI gives a well formed list without it, the other generics staying in order. -/
theorem generic_remove_correct {l : GList D} (hl : Unique l) (hd : HasData l) (u : Str) :
    Unique (remove l u) ∧ HasData (remove l u) ∧ lookup (remove l u) = mapDel (lookup l) u ∧
    remove l u = l.filter (fun g => decide (uri g ≠ some u)) := by
  have e := remove_eq hl u
  have hun : Unique (remove l u) := by
    rw [e]
    refine ⟨?_, fun x hx => hl.2 x (List.mem_filter.mp hx).1⟩
    exact List.Nodup.sublist (List.Sublist.map _ (List.filter_sublist)) hl.1
  refine ⟨hun, ?_, ?_, e⟩
  · rw [e]; intro x hx; exact hd x (List.mem_filter.mp hx).1
  · funext v
    unfold mapDel
    split
    · rename_i h; subst h
      apply lookup_absent
      rw [e]
      intro x hx
      simpa using (List.mem_filter.mp hx).2
    · rename_i h
      by_cases hx : ∃ x ∈ l, uri x = some v
      · obtain ⟨x, hx, e2⟩ := hx
        have hm : x ∈ remove l u := by
          rw [e, List.mem_filter]
          refine ⟨hx, ?_⟩
          simp [e2, h]
        rw [lookup_mem hl hx e2, lookup_mem hun hm e2]
      · have hx : ∀ x ∈ l, uri x ≠ some v := fun x h e => hx ⟨x, h, e⟩
        rw [lookup_absent hx, lookup_absent]
        rw [e]
        intro x hm
        exact hx x (List.mem_filter.mp hm).1

/-- An operation on an extension list. -/
inductive Op (D : Type) where
  | add (i : Iface) (d : D)
  | remove (u : Str)

/-- A history of calls. -/
def run : List (Op D) → GList D → Out (GList D)
  | [], l => .ok l
  | .add i d :: ops, l => add l [{ interface := some i, data := some d }] >>= run ops
  | .remove u :: ops, l => run ops (remove l u)

/-- The same history on maps from URIs to data; `none` when a URI is added twice, or an interface has no URI. -/
def runMap : List (Op D) → (Str → Option D) → Option (Str → Option D)
  | [], m => some m
  | .add i d :: ops, m =>
    match i.URI with
    | none => none
    | some u => match m u with | some _ => none | none => runMap ops (mapAdd m u d)
  | .remove u :: ops, m => runMap ops (mapDel m u)

/-- C34: along every history of additions and removals, the list behaves as a map from URIs to data: errors
happen exactly when a URI is added twice, lookups give the last data added, and there is one entry per URI. -/
theorem generic_history_map : ∀ (ops : List (Op D)) {l : GList D}, Unique l → HasData l →
    match runMap ops (lookup l) with
    | none => run ops l = .err
    | some m => ∃ l', run ops l = .ok l' ∧ Unique l' ∧ HasData l' ∧ lookup l' = m := by
  intro ops
  induction ops with
  | nil => intro l h1 h2; exact ⟨l, rfl, h1, h2, rfl⟩
  | cons op ops ih =>
    intro l h1 h2
    cases op with
    | remove u =>
      obtain ⟨a, b, c, _⟩ := generic_remove_correct h1 h2 u
      have := ih a b
      rw [c] at this
      exact this
    | add i d =>
      cases hu : i.URI with
      | none =>
        simp only [runMap, hu]
        simp [run, add, checkLoop, hu]
      | some u =>
        rcases generic_add_correct h1 h2 (g := { interface := some i, data := some d }) (u := u) (d := d)
          (by simp [uri, hu]) rfl with ⟨a, b⟩ | ⟨a, l', b, c, e, _, f⟩
        · obtain ⟨x, hx⟩ := Option.ne_none_iff_exists'.mp a
          simp only [runMap, hu, hx]
          simp [run, b]
        · simp only [runMap, hu, a]
          have := ih c e
          rw [f] at this
          simp only [run, b, Out.ok_bind]
          exact this

/-- Finding (C34): a generic without data is not seen by the check, and its URI can be added again. -/
theorem generic_add_null_violates (i : Iface) (u : Str) (hu : i.URI = some u) (d : D) :
    add [{ interface := some i, data := none }] [{ interface := some i, data := some d }] =
      .ok [{ interface := some i, data := none }, { interface := some i, data := some d }] ∧
    lookup [{ interface := some i, data := none }, { interface := some i, data := some d }] u = (none : Option D) := by
  simp [add, checkLoop, hu, lookup, has_URI]

/-- Finding (C34): a list holding the same URI twice can be added to a list without it. -/
theorem generic_add_list_violates (i : Iface) (u : Str) (hu : i.URI = some u) (d e : D) :
    ∃ l, add [] [{ interface := some i, data := some d }, { interface := some i, data := some e }] = .ok l ∧ ¬ Unique l := by
  refine ⟨_, by simp [add, checkLoop, hu, lookup]; rfl, ?_⟩
  simp [Unique, uri]

/-- C34: the counts. -/
theorem generic_count_correct (l : GList D) : count l = l.length ∧ number l = l.length := ⟨rfl, rfl⟩

example : Unique [(⟨some (Ifaces.mk 0 "body"), some 7⟩ : Generic Nat), ⟨some (Ifaces.mk 1 "arrays"), some 8⟩] ∧
    HasData [(⟨some (Ifaces.mk 0 "body"), some 7⟩ : Generic Nat), ⟨some (Ifaces.mk 1 "arrays"), some 8⟩] := by
  unfold Unique HasData; decide

/-! ## C35 -/

/-- Two generics are the same: same interface and equal data for the function of the interface. -/
def SameGeneric (E : Env D) (g h : Generic D) : Prop :=
  ∃ i, g.interface = some i ∧ h.interface = some i ∧ E.equal i.fns.equal g.data h.data = .ok true

/-- Two extension lists have the same content, whatever the order. -/
def SameExts (E : Env D) (x y : GList D) : Prop :=
  (∀ g ∈ x, ∃ h ∈ y, SameGeneric E g h) ∧ (∀ h ∈ y, ∃ g ∈ x, SameGeneric E g h)

/-- The equality function of an interface answers on the data that the two lists hold for this interface. -/
def EqualTotal (E : Env D) (x y : GList D) : Prop :=
  ∀ g ∈ x, ∀ h ∈ y, ∀ i, g.interface = some i → h.interface = some i → ∃ r, E.equal i.fns.equal g.data h.data = .ok r

/-- The pigeonhole principle. -/
theorem nodup_subset_length {α : Type} [DecidableEq α] {l m : List α} (hl : l.Nodup) (h : ∀ a ∈ l, a ∈ m) : l.length ≤ m.length := by
  induction l generalizing m with
  | nil => simp
  | cons a l ih =>
    rw [List.nodup_cons] at hl
    have ha := h a (by simp)
    have := ih (m := m.erase a) hl.2 (fun b hb => by
      rw [List.mem_erase_of_ne]
      · exact h b (by simp [hb])
      · rintro rfl; exact hl.1 hb)
    rw [List.length_erase_of_mem ha] at this
    have := List.length_pos_of_mem ha
    simp; omega

theorem nodup_subset_eq {α : Type} [DecidableEq α] {l m : List α} (hl : l.Nodup) (h : ∀ a ∈ l, a ∈ m) (hm : m.length ≤ l.length) :
    ∀ a ∈ m, a ∈ l := by
  intro a ha
  apply Classical.byContradiction
  intro hn
  have := nodup_subset_length (l := a :: l) (m := m) (by rw [List.nodup_cons]; exact ⟨hn, hl⟩)
    (fun b hb => by rcases List.mem_cons.mp hb with rfl | hb; exact ha; exact h b hb)
  simp at this; omega

theorem uri_some {g : Generic D} (h : uri g ≠ none) : ∃ i u, g.interface = some i ∧ i.URI = some u ∧ uri g = some u := by
  obtain ⟨i, d⟩ := g
  cases i with
  | none => simp [uri] at h
  | some i =>
    cases hu : i.URI with
    | none => simp [uri, hu] at h
    | some u => exact ⟨i, u, rfl, hu, by simp [uri, hu]⟩

theorem SameGeneric.uri_eq {E : Env D} {g h : Generic D} (s : SameGeneric E g h) : GList.uri g = GList.uri h := by
  obtain ⟨i, h1, h2, _⟩ := s
  simp [uri, h1, h2]

theorem iface_equal_cases {i j : Iface} (hi : i.URI ≠ none) (hj : j.URI ≠ none) :
    Ifaces.equal (some i) (some j) = .ok (decide (i = j)) := by
  obtain ⟨h1, h2⟩ := Ifaces.interface_equal_iff hi hj
  by_cases h : i = j
  · rw [h1.mpr h]; simp [h]
  · rcases h2 with h2 | h2
    · exact absurd (h1.mp h2) h
    · rw [h2]; simp [h]

theorem findEqual_spec {E : Env D} {g : Generic D} (hg : uri g ≠ none) {l : GList D} (hE : EqualTotal E [g] l) (hl : Unique l) :
    (findEqual E g l = .ok true ∧ ∃ h ∈ l, SameGeneric E g h) ∨ (findEqual E g l = .ok false ∧ ∀ h ∈ l, ¬ SameGeneric E g h) := by
  obtain ⟨i, u, h1, h2, h3⟩ := uri_some hg
  induction l with
  | nil => right; simp [findEqual]
  | cons h l ih =>
    obtain ⟨j, v, k1, k2, k3⟩ := uri_some (hl.2 h (by simp))
    have e := iface_equal_cases (i := i) (j := j) (by simp [h2]) (by simp [k2])
    unfold findEqual
    rw [h1, k1, e]
    by_cases hij : i = j
    · subst hij
      obtain ⟨r, hr⟩ := hE g (by simp) h (by simp) i h1 k1
      simp only [decide_true, hr]
      have rest : ∀ x ∈ l, ¬ SameGeneric E g x := by
        rintro x hx s
        have := s.uri_eq
        apply hl.head x hx
        rw [← this, h3, k3, ← k2, h2]
      cases r with
      | true => left; exact ⟨rfl, h, by simp, i, h1, k1, hr⟩
      | false =>
        right
        refine ⟨rfl, ?_⟩
        intro x hx s
        rcases List.mem_cons.mp hx with rfl | hx
        · obtain ⟨i', s1, s2, s3⟩ := s
          rw [h1] at s1; injection s1 with s1; subst s1
          rw [hr] at s3; simp at s3
        · exact rest x hx s
    · simp only [hij, decide_false]
      have hn : ¬ SameGeneric E g h := by
        rintro ⟨i', s1, s2, _⟩
        rw [h1] at s1; rw [k1] at s2
        injection s1 with s1; injection s2 with s2
        exact hij (s1.trans s2.symm)
      rcases ih (fun z hz x hx => hE z hz x (by simp [hx])) hl.tail with ⟨a, x, hx, s⟩ | ⟨a, b⟩
      · left; exact ⟨a, x, by simp [hx], s⟩
      · right
        refine ⟨a, ?_⟩
        intro x hx s
        rcases List.mem_cons.mp hx with rfl | hx
        · exact hn s
        · exact b x hx s

theorem equalLoop_spec {E : Env D} {x y : GList D} (hE : EqualTotal E x y) (hx : ∀ g ∈ x, uri g ≠ none) (hy : Unique y) :
    (equalLoop E y x = .ok true ∧ ∀ g ∈ x, ∃ h ∈ y, SameGeneric E g h) ∨
    (equalLoop E y x = .ok false ∧ ∃ g ∈ x, ∀ h ∈ y, ¬ SameGeneric E g h) := by
  induction x with
  | nil => left; simp [equalLoop]
  | cons g x ih =>
    unfold equalLoop
    rcases findEqual_spec (hx g (by simp)) (fun z hz => hE z (by simp_all)) hy with ⟨a, h, hh, s⟩ | ⟨a, b⟩
    · rw [a]
      rcases ih (fun z hz => hE z (by simp [hz])) (fun z hz => hx z (by simp [hz])) with ⟨c, d⟩ | ⟨c, z, hz, d⟩
      · left
        refine ⟨c, ?_⟩
        intro z hz
        rcases List.mem_cons.mp hz with rfl | hz
        · exact ⟨h, hh, s⟩
        · exact d z hz
      · right; exact ⟨c, z, by simp [hz], d⟩
    · rw [a]; right; exact ⟨rfl, g, by simp, b⟩

/-- C35: the equality of two well formed extension lists always answers, and answers true exactly when the two lists
have the same content, whatever the order of the extensions. -/
theorem generic_equal_correct {E : Env D} {x y : GList D} (hE : EqualTotal E x y) (hx : Unique x) (hy : Unique y) :
    (equal E x y = .ok true ∧ SameExts E x y) ∨ (equal E x y = .ok false ∧ ¬ SameExts E x y) := by
  unfold equal
  by_cases hc : count x ≠ count y
  · rw [if_pos hc]
    right
    refine ⟨rfl, ?_⟩
    rintro ⟨h1, h2⟩
    apply hc
    have a := nodup_subset_length hx.1 (m := y.map uri) (fun a ha => by
      obtain ⟨g, hg, rfl⟩ := List.mem_map.mp ha
      obtain ⟨h, hh, s⟩ := h1 g hg
      exact List.mem_map.mpr ⟨h, hh, s.uri_eq.symm⟩)
    have b := nodup_subset_length hy.1 (m := x.map uri) (fun a ha => by
      obtain ⟨g, hg, rfl⟩ := List.mem_map.mp ha
      obtain ⟨h, hh, s⟩ := h2 g hg
      exact List.mem_map.mpr ⟨h, hh, s.uri_eq⟩)
    simp only [List.length_map] at a b
    unfold count; omega
  · rw [if_neg hc]
    have hc : x.length = y.length := by unfold count at hc; omega
    rcases equalLoop_spec hE hx.2 hy with ⟨a, b⟩ | ⟨a, g, hg, b⟩
    · left
      refine ⟨a, b, ?_⟩
      intro h hh
      have hm : uri h ∈ x.map uri := nodup_subset_eq hx.1 (m := y.map uri) (fun a ha => by
        obtain ⟨g, hg, rfl⟩ := List.mem_map.mp ha
        obtain ⟨h, hh, s⟩ := b g hg
        exact List.mem_map.mpr ⟨h, hh, s.uri_eq.symm⟩) (by simp; omega) _ (List.mem_map.mpr ⟨h, hh, rfl⟩)
      obtain ⟨g, hg, e⟩ := List.mem_map.mp hm
      obtain ⟨h', hh', s⟩ := b g hg
      have e2 : uri h' = uri h := s.uri_eq.symm.trans e
      have : h' = h := hy.inj hh' hh e2
      subst this
      exact ⟨g, hg, s⟩
    · right
      refine ⟨a, ?_⟩
      rintro ⟨h1, _⟩
      obtain ⟨h, hh, s⟩ := h1 g hg
      exact b h hh s

theorem SameExts.perm {E : Env D} {x x' y y' : GList D} (hx : x.Perm x') (hy : y.Perm y') :
    SameExts E x y ↔ SameExts E x' y' := by
  unfold SameExts
  simp only [hx.mem_iff, hy.mem_iff]

theorem Unique.perm {x x' : GList D} (h : x.Perm x') (hx : Unique x) : Unique x' :=
  ⟨(h.map uri).nodup_iff.mp hx.1, fun g hg => hx.2 g (h.mem_iff.mpr hg)⟩

theorem EqualTotal.perm {E : Env D} {x x' y y' : GList D} (hE : EqualTotal E x y) (hx : x.Perm x') (hy : y.Perm y') : EqualTotal E x' y' :=
  fun g hg h hh => hE g (hx.mem_iff.mpr hg) h (hy.mem_iff.mpr hh)

/-- C35: the answer does not depend on the order of the extensions of either list. -/
theorem generic_equal_order {E : Env D} {x x' y y' : GList D} (hE : EqualTotal E x y) (hx : Unique x) (hy : Unique y)
    (px : x.Perm x') (py : y.Perm y') : equal E x' y' = equal E x y := by
  have hp := SameExts.perm (E := E) px py
  rcases generic_equal_correct hE hx hy with ⟨a, b⟩ | ⟨a, b⟩ <;>
  rcases generic_equal_correct (hE.perm px py) (hx.perm px) (hy.perm py) with ⟨c, d⟩ | ⟨c, d⟩
  · rw [a, c]
  · exact absurd (hp.mp b) d
  · exact absurd (hp.mpr d) b
  · rw [a, c]

/-- C35: reflexivity, on a copy, when the equality functions of the interfaces are reflexive. -/
theorem generic_equal_refl {E : Env D} {x : GList D} (hr : ∀ g ∈ x, ∀ i, g.interface = some i → E.equal i.fns.equal g.data g.data = .ok true)
    (hx : Unique x) : equal E x x = .ok true := by
  have hE : EqualTotal E x x := by
    intro g hg h hh i h1 h2
    have : g = h := hx.inj hg hh (by simp [uri, h1, h2])
    subst this
    exact ⟨true, hr g hg i h1⟩
  rcases generic_equal_correct hE hx hx with ⟨a, _⟩ | ⟨_, b⟩
  · exact a
  · exfalso
    apply b
    have : ∀ g ∈ x, ∃ h ∈ x, SameGeneric E g h := by
      intro g hg
      obtain ⟨i, _, h1, _, _⟩ := uri_some (hx.2 g hg)
      exact ⟨g, hg, i, h1, h1, hr g hg i h1⟩
    refine ⟨this, ?_⟩
    intro g hg
    obtain ⟨i, _, h1, _, _⟩ := uri_some (hx.2 g hg)
    exact ⟨g, hg, i, h1, h1, hr g hg i h1⟩

/-- C35: symmetry, when the equality functions of the interfaces are symmetric. -/
theorem generic_equal_symm {E : Env D} {x y : GList D} (hE : EqualTotal E x y)
    (hs : ∀ g ∈ x, ∀ h ∈ y, ∀ i, g.interface = some i → h.interface = some i → E.equal i.fns.equal g.data h.data = E.equal i.fns.equal h.data g.data)
    (hx : Unique x) (hy : Unique y) : equal E x y = equal E y x := by
  have sym : ∀ g ∈ x, ∀ h ∈ y, (SameGeneric E g h ↔ SameGeneric E h g) := by
    intro g hg h hh
    constructor
    · rintro ⟨i, a, b, c⟩; exact ⟨i, b, a, by rw [← hs g hg h hh i a b]; exact c⟩
    · rintro ⟨i, a, b, c⟩; exact ⟨i, b, a, by rw [hs g hg h hh i b a]; exact c⟩
  have ss : SameExts E x y ↔ SameExts E y x := by
    constructor
    · rintro ⟨a, b⟩
      refine ⟨fun g hg => ?_, fun g hg => ?_⟩
      · obtain ⟨h, hh, s⟩ := b g hg; exact ⟨h, hh, (sym _ hh _ hg).mp s⟩
      · obtain ⟨h, hh, s⟩ := a g hg; exact ⟨h, hh, (sym _ hg _ hh).mp s⟩
    · rintro ⟨a, b⟩
      refine ⟨fun g hg => ?_, fun g hg => ?_⟩
      · obtain ⟨h, hh, s⟩ := b g hg; exact ⟨h, hh, (sym _ hg _ hh).mpr s⟩
      · obtain ⟨h, hh, s⟩ := a g hg; exact ⟨h, hh, (sym _ hh _ hg).mpr s⟩
  have hE' : EqualTotal E y x := fun g hg h hh i a b => by
    rw [← hs h hh g hg i b a]; exact hE h hh g hg i b a
  rcases generic_equal_correct hE hx hy with ⟨a, b⟩ | ⟨a, b⟩ <;>
  rcases generic_equal_correct hE' hy hx with ⟨c, d⟩ | ⟨c, d⟩
  · rw [a, c]
  · exact absurd (ss.mp b) d
  · exact absurd (ss.mpr d) b
  · rw [a, c]

/-- What is needed of the clone functions of the interfaces of a list: they return, a non NULL copy of a non NULL
data, which their equality function identifies to the data. -/
def CloneOk (E : Env D) (l : GList D) : Prop :=
  ∀ g ∈ l, ∀ i, g.interface = some i → ∃ d, E.clone i.fns.clone g.data = .ok (some d) ∧ E.equal i.fns.equal g.data (some d) = .ok true

theorem iface_clone_single {i : Iface} (h : i.URI ≠ none) : Ifaces.clone [i] = .ok [i] ∧ Ifaces.nclone [i] 1 = .ok [i] := by
  have hu : Ifaces.Unique [i] := ⟨by simp, by simp [h]⟩
  obtain ⟨h1, h2⟩ := Ifaces.interface_clone_correct hu
  exact ⟨h1, by simpa using h2 1⟩

/-- The loop of the clone: the copies are appended. -/
theorem ncloneLoop_spec {E : Env D} {l : GList D} (hu : ∀ g ∈ l, uri g ≠ none) (hc : CloneOk E l) : ∀ (acc : GList D),
    HasData acc → ((acc.map uri) ++ (l.map uri)).Nodup →  (∀ g ∈ acc, uri g ≠ none) →
    ∃ l', ncloneLoop E l.length l acc = .ok (acc ++ l') ∧ l'.map (·.interface) = l.map (·.interface) ∧ HasData l' ∧
      ∀ k (h : k < l.length) (h' : k < l'.length), SameGeneric E l[k] l'[k] := by
  induction l with
  | nil => intro acc _ _ _; exact ⟨[], by simp [ncloneLoop], rfl, by simp [HasData], by simp⟩
  | cons g l ih =>
    intro acc hd hn hacc
    obtain ⟨i, u, h1, h2, h3⟩ := uri_some (hu g (by simp))
    obtain ⟨d, c1, c2⟩ := hc g (by simp) i h1
    have hg' : uri ({ interface := some i, data := some d } : Generic D) = some u := by simp [uri, h2]
    have hacc' : Unique acc := ⟨(List.nodup_append.mp hn).1, hacc⟩
    have habs : ∀ x ∈ acc, uri x ≠ some u := by
      intro x hx e
      exact (List.nodup_append.mp hn).2.2 _ (List.mem_map.mpr ⟨x, hx, rfl⟩) (uri g) (by simp) (by rw [e, h3])
    rcases generic_add_correct hacc' hd hg' rfl with ⟨a, _⟩ | ⟨_, l1, a1, a2, a3, a4, _⟩
    · exact absurd (lookup_absent habs) a
    · subst a4
      obtain ⟨l', b1, b2, b3, b4⟩ := ih (fun x hx => hu x (by simp [hx])) (fun x hx => hc x (by simp [hx]))
        (acc ++ [{ interface := some i, data := some d }]) a3 (by
          simp only [List.map_append, List.map_cons, List.map_nil, List.append_assoc, List.singleton_append]
          rw [hg', ← h3]; simpa using hn) a2.2
      refine ⟨{ interface := some i, data := some d } :: l', ?_, ?_, ?_, ?_⟩
      · simp only [List.length_cons, ncloneLoop, h1, c1, Out.ok_bind, (iface_clone_single (i := i) (by simp [h2])).1, List.head?_cons, a1, b1]
        simp
      · simp [b2, h1]
      · intro x hx
        rcases List.mem_cons.mp hx with rfl | hx
        · simp
        · exact b3 x hx
      · intro k hk hk'
        cases k with
        | zero => exact ⟨i, h1, rfl, c2⟩
        | succ k => simpa using b4 k (by simpa using hk) (by simpa using hk')

theorem same_of_pointwise {E : Env D} {l l' : GList D} (hl : Unique l) (b : l'.map (·.interface) = l.map (·.interface))
    (d : ∀ k (h : k < l.length) (h' : k < l'.length), SameGeneric E l[k] l'[k]) : Unique l' ∧ equal E l l' = .ok true := by
  have hlen : l'.length = l.length := by simpa using congrArg List.length b
  have hmap : l'.map uri = l.map uri := by
    have : ∀ x : GList D, x.map uri = (x.map (·.interface)).map (fun o => o.bind (·.URI)) := by
      intro x; rw [List.map_map]; rfl
    rw [this, this, b]
  have hu' : Unique l' := by
    refine ⟨by rw [hmap]; exact hl.1, ?_⟩
    intro g hg e
    have : uri g ∈ l.map uri := by rw [← hmap]; exact List.mem_map.mpr ⟨g, hg, rfl⟩
    obtain ⟨x, hx, e2⟩ := List.mem_map.mp this
    exact hl.2 x hx (e2.trans e)
  refine ⟨hu', ?_⟩
  have hE : EqualTotal E l l' := by
    intro g hg h hh i h1 h2
    obtain ⟨k, hk, rfl⟩ := List.getElem_of_mem hg
    obtain ⟨i', s1, s2, s3⟩ := d k hk (by omega)
    have : l'[k]'(by omega) = h := hu'.inj (List.getElem_mem _) hh (by
      rw [h1] at s1; injection s1 with s1; subst s1; simp [uri, s2, h2])
    subst this
    rw [h1] at s1; injection s1 with s1; subst s1
    exact ⟨true, s3⟩
  rcases generic_equal_correct hE hl hu' with ⟨x, _⟩ | ⟨_, x⟩
  · exact x
  · exfalso
    apply x
    constructor
    · intro g hg
      obtain ⟨k, hk, rfl⟩ := List.getElem_of_mem hg
      exact ⟨l'[k]'(by omega), List.getElem_mem _, d k hk (by omega)⟩
    · intro g hg
      obtain ⟨k, hk, rfl⟩ := List.getElem_of_mem hg
      exact ⟨l[k]'(by omega), List.getElem_mem _, d k (by omega) hk⟩

/-- C35: cloning a well formed list gives a well formed list with the same interfaces in the same order, which is
equal to the list. -/
theorem generic_clone_correct {E : Env D} {l : GList D} (hl : Unique l) (hc : CloneOk E l) :
    ∃ l', clone E l = .ok l' ∧ Unique l' ∧ HasData l' ∧ l'.map (·.interface) = l.map (·.interface) ∧ equal E l l' = .ok true := by
  obtain ⟨l', a, b, c, d⟩ := ncloneLoop_spec hl.2 hc [] (by simp [HasData]) (by simpa using hl.1) (by simp)
  obtain ⟨hu', he⟩ := same_of_pointwise hl b d
  exact ⟨l', by simpa [clone, nclone, count] using a, hu', c, b, he⟩

/-- An environment of numbers compared by equality: the hypotheses above are met. -/
def natEnv : Env Nat where
  sprint := fun _ d => .ok (d.map fun n => showNat n ++ ['\n'])
  sread := fun _ s => match s with
    | none => .ok none
    | some s => match scanInt s with | .val v _ => .ok (some v.toNat) | _ => .err
  clone := fun _ d => .ok d
  equal := fun _ a b => .ok (decide (a = b))

theorem natEnv_total (x y : GList Nat) : EqualTotal natEnv x y := fun _ _ _ _ _ _ _ => ⟨_, rfl⟩

example (x y : GList Nat) : EqualTotal natEnv x y ∧ (∀ f a, natEnv.equal f a a = .ok true) ∧ (∀ f a b, natEnv.equal f a b = natEnv.equal f b a) := by
  refine ⟨natEnv_total x y, fun f a => by simp [natEnv], fun f a b => by simp [natEnv, eq_comm]⟩

example : CloneOk natEnv [⟨some (Ifaces.mk 0 "body"), some 7⟩, ⟨some (Ifaces.mk 1 "arrays"), some 8⟩] := by
  intro g hg i hi
  rcases List.mem_cons.mp hg with rfl | hg
  · exact ⟨7, rfl, by simp [natEnv]⟩
  · simp at hg; subst hg; exact ⟨8, rfl, by simp [natEnv]⟩

/-- Finding (C35): with the same URI twice, equality is not symmetric. -/
theorem generic_equal_dup_violates :
    let i := Ifaces.mk 0 "body"
    let j := Ifaces.mk 1 "arrays"
    let x : GList Nat := [⟨some i, some 1⟩, ⟨some i, some 1⟩]
    let y : GList Nat := [⟨some i, some 1⟩, ⟨some j, some 1⟩]
    equal natEnv x y = .ok true ∧ equal natEnv y x = .ok false := by decide

end GList
end Osl
