import Verif.Interface
/-!
# Properties of the interface registry (C33)
-/

namespace Osl
namespace Ifaces

/-- The specification of a registry: every interface has a URI and no two have the same. -/
def Unique (l : Ifaces) : Prop := (l.map (·.URI)).Nodup ∧ ∀ i ∈ l, i.URI ≠ none

theorem lookup_none_iff {l : Ifaces} {u : Str} : lookup l (some u) = none ↔ ∀ i ∈ l, i.URI ≠ some u := by
  induction l with
  | nil => simp [lookup]
  | cons i l ih =>
    simp only [lookup]
    split
    · rename_i h; simp [h]
    · rename_i h; rw [ih]; simp [h]

theorem lookup_some {l : Ifaces} {u : Str} {i : Iface} (h : lookup l (some u) = some i) : i ∈ l ∧ i.URI = some u := by
  induction l with
  | nil => simp [lookup] at h
  | cons j l ih =>
    simp only [lookup] at h
    split at h
    · rename_i h'; injection h with h; subst h; exact ⟨by simp, h'⟩
    · obtain ⟨h1, h2⟩ := ih h; exact ⟨by simp [h1], h2⟩

/-- C33: in a registry, a lookup finds the interface registered under the URI, and it is the only one; it finds
nothing exactly when the URI is not registered. -/
theorem interface_lookup_correct {l : Ifaces} (hl : Unique l) (u : Str) :
    (∀ i, lookup l (some u) = some i ↔ i ∈ l ∧ i.URI = some u) ∧
    (lookup l (some u) = none ↔ ∀ i ∈ l, i.URI ≠ some u) := by
  refine ⟨fun i => ⟨lookup_some, ?_⟩, lookup_none_iff⟩
  rintro ⟨hi, hu⟩
  obtain ⟨h1, _⟩ := hl
  induction l with
  | nil => simp at hi
  | cons j l ih =>
    simp only [List.map_cons, List.nodup_cons] at h1
    simp only [lookup]
    rcases List.mem_cons.mp hi with rfl | hi'
    · rw [if_pos hu]
    · rw [if_neg]
      · exact ih hi' h1.2 (fun x hx => by rename_i h; exact h x (by simp [hx]))
      · intro hj
        exact h1.1 (by rw [hj, ← hu]; exact List.mem_map.mpr ⟨i, hi', rfl⟩)

theorem checkLoop_ok {list is : Ifaces} : checkLoop list is = .ok () ↔
    ∀ i ∈ is, i.URI ≠ none ∧ ∀ j ∈ list, j.URI ≠ i.URI := by
  induction is with
  | nil => simp [checkLoop]
  | cons i is ih =>
    simp only [checkLoop]
    split
    · rename_i h; simp [h]
    · rename_i h
      obtain ⟨u, hu⟩ := Option.ne_none_iff_exists'.mp h
      split
      · rename_i h2
        simp only [reduceCtorEq, false_iff]
        intro H
        apply h2
        rw [hu, lookup_none_iff]
        intro j hj
        rw [← hu]
        exact (H i (by simp)).2 j hj
      · rename_i h2
        have h2 : lookup list i.URI = none := Classical.byContradiction fun h => h2 h
        rw [hu, lookup_none_iff] at h2
        rw [ih]
        simp only [List.mem_cons, forall_eq_or_imp]
        exact ⟨fun H => ⟨⟨h, by rw [hu]; exact h2⟩, H⟩, fun H => H.2⟩

theorem checkLoop_err {list is : Ifaces} (h : checkLoop list is ≠ .ok ()) : checkLoop list is = .err := by
  induction is with
  | nil => simp [checkLoop] at h
  | cons i is ih =>
    simp only [checkLoop] at h ⊢
    split at h
    · rename_i h1; rw [if_pos h1]
    · rename_i h1; rw [if_neg h1]
      split at h
      · rename_i h2; rw [if_pos h2]
      · rename_i h2; rw [if_neg h2]; exact ih h

/-- C33: adding one interface to a registry gives a registry with the interface at the end, or an error, which
happens exactly when the interface has no URI or its URI is registered. -/
theorem interface_add_correct {l : Ifaces} (hl : Unique l) (i : Iface) :
    (add l [i] = .ok (l ++ [i]) ∧ Unique (l ++ [i]) ∧ (∀ j ∈ l, j.URI ≠ i.URI) ∧ i.URI ≠ none) ∨
    (add l [i] = .err ∧ (i.URI = none ∨ ∃ j ∈ l, j.URI = i.URI)) := by
  by_cases h : checkLoop l [i] = .ok ()
  · left
    have hc := checkLoop_ok.mp h i (by simp)
    refine ⟨by simp [add, h], ⟨?_, ?_⟩, hc.2, hc.1⟩
    · rw [List.map_append, List.nodup_append]
      refine ⟨hl.1, by simp, ?_⟩
      intro a ha b hb
      obtain ⟨j, hj, rfl⟩ := List.mem_map.mp ha
      simp at hb; subst hb
      exact hc.2 j hj
    · intro j hj
      rcases List.mem_append.mp hj with hj | hj
      · exact hl.2 j hj
      · simp at hj; subst hj; exact hc.1
  · right
    refine ⟨by simp [add, checkLoop_err h], ?_⟩
    rw [checkLoop_ok] at h
    simp only [List.mem_singleton, forall_eq, not_and] at h
    by_cases h1 : i.URI = none
    · exact .inl h1
    · right
      have := h h1
      exact Classical.byContradiction fun H => this fun j hj e => H ⟨j, hj, e⟩

/-- C33: all histories of registrations of single interfaces starting from an empty registry end with an error or
with a registry with unique URIs which holds exactly the interfaces registered, in order. -/
theorem interface_history_unique : ∀ (is : List Iface) (l : Ifaces), Unique l →
    addAll is l = .err ∨ (addAll is l = .ok (l ++ is) ∧ Unique (l ++ is)) := by
  intro is
  induction is with
  | nil => intro l hl; right; simp [addAll, hl]
  | cons i is ih =>
    intro l hl
    simp only [addAll]
    rcases interface_add_correct hl i with ⟨h1, h2, _⟩ | ⟨h1, _⟩
    · rw [h1]
      simp only [Out.ok_bind]
      have := ih (l ++ [i]) h2
      simpa using this
    · left; rw [h1]; rfl

/-- Finding (C33): adding a list of interfaces which contains the same URI twice is accepted: only the
conflicts with the previous list are checked. -/
theorem interface_add_list_violates : ∃ l, add [] [mk 0 "body", mk 1 "body"] = .ok l ∧ ¬ Unique l :=
  ⟨_, rfl, by unfold Unique; decide⟩

/-- C33: the default registry exists and holds the 18 documented URIs, all distinct. -/
theorem default_registry_correct : ∃ l, get_default_registry = .ok l ∧ Unique l ∧ number l = 18 ∧
    l.map (·.URI) = defaultURIs.map (fun u => some u.toList) := by
  refine ⟨numbered 0 defaultURIs, by decide, ?_, by decide, by decide⟩
  unfold Unique
  decide

/-- C33: every documented URI is found in the default registry. -/
theorem default_registry_lookup {u : String} (hu : u ∈ defaultURIs) :
    ∃ l i, get_default_registry = .ok l ∧ lookup l (some u.toList) = some i ∧ i.URI = some u.toList := by
  obtain ⟨l, h1, h2, _, h3⟩ := default_registry_correct
  have : some u.toList ∈ l.map (·.URI) := by rw [h3]; exact List.mem_map.mpr ⟨u, hu, rfl⟩
  obtain ⟨i, hi, e⟩ := List.mem_map.mp this
  exact ⟨l, i, h1, ((interface_lookup_correct h2 u.toList).1 i).mpr ⟨hi, e⟩, e⟩

theorem ncloneLoop_ok : ∀ (l : Ifaces) (n : Option Nat) (acc : Ifaces), Unique (acc ++ l) →
    ncloneLoop n l acc = .ok (acc ++ (match n with | none => l | some k => l.take k)) := by
  intro l
  induction l with
  | nil => intro n acc _; cases n <;> simp [ncloneLoop]
  | cons i l ih =>
    intro n acc h
    have h' : Unique (acc ++ [i] ++ l) := by simpa using h
    have hacc : Unique acc := by
      refine ⟨?_, fun j hj => h.2 j (by simp [hj])⟩
      have := h.1
      rw [List.map_append, List.nodup_append] at this
      exact this.1
    have hadd : add acc [{ URI := i.URI, fns := i.fns }] = .ok (acc ++ [i]) := by
      rcases interface_add_correct hacc i with ⟨h1, _⟩ | ⟨_, h2 | ⟨j, hj, e⟩⟩
      · exact h1
      · exact absurd h2 (h.2 i (by simp))
      · exfalso
        have := h.1
        rw [List.map_append, List.nodup_append] at this
        exact this.2.2 j.URI (List.mem_map.mpr ⟨j, hj, rfl⟩) i.URI (by simp) e
    cases n with
    | none =>
      simp only [ncloneLoop, hadd, Out.ok_bind]
      have := ih none (acc ++ [i]) h'
      simpa using this
    | some k =>
      cases k with
      | zero => simp [ncloneLoop]
      | succ k =>
        simp only [ncloneLoop, hadd, Out.ok_bind]
        have := ih (some k) (acc ++ [i]) h'
        simpa using this

/-- C33: cloning a registry gives a registry with the same interfaces; cloning `n` nodes gives the first `n`. -/
theorem interface_clone_correct {l : Ifaces} (hl : Unique l) : clone l = .ok l ∧
    ∀ n : Nat, nclone l n = .ok (l.take n) := by
  constructor
  · have := ncloneLoop_ok l none [] (by simpa using hl)
    simpa [clone, nclone] using this
  · intro n
    have := ncloneLoop_ok l (some n) [] (by simpa using hl)
    simpa [nclone] using this

/-- C33: `osl_interface_equal` of two interfaces with a URI decides the equality of the URIs and of all functions. -/
theorem interface_equal_iff {a b : Iface} (ha : a.URI ≠ none) (hb : b.URI ≠ none) :
    (equal (some a) (some b) = .ok true ↔ a = b) ∧ (equal (some a) (some b) = .ok true ∨ equal (some a) (some b) = .ok false) := by
  obtain ⟨u, f⟩ := a
  obtain ⟨v, g⟩ := b
  cases u with
  | none => exact absurd rfl ha
  | some u =>
    cases v with
    | none => exact absurd rfl hb
    | some v =>
      refine ⟨by simp [equal], ?_⟩
      simp only [equal]
      cases decide (u = v) && decide (f = g) <;> simp

/-- The hypotheses are met: a registry of two interfaces, a third one added. -/
example : Unique [mk 0 "strings", mk 1 "body"] ∧ add [mk 0 "strings", mk 1 "body"] [mk 2 "relation"] =
    .ok [mk 0 "strings", mk 1 "body", mk 2 "relation"] ∧ add [mk 0 "strings"] [mk 2 "strings"] = .err := by
  unfold Unique; decide

end Ifaces
end Osl
