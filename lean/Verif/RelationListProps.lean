import Verif.RelationList
import Verif.RelationProps6
/-!
# Properties C25, C26, C27 (list part), C23 and C22 (list part)
-/

namespace Osl
namespace RList
open Rel

/-- Every element is a well-shaped relation (or NULL). -/
def Valid (c : Cfg) (l : RList) : Prop := ∀ r ∈ l, Rel.Valid c r

theorem clone_ok {c : Cfg} {l : RList} (h : Valid c l) : clone c l = .ok l := by
  have := Out.mapOut_ok (f := Rel.clone c) (g := id) (l := l) (fun r hr => Rel.clone_ok (h r hr).wf)
  simpa [clone] using this

/-! ## C25: stack -/

/-- C25: popping after a push of one node gives the node back and restores the list. -/
theorem list_pop_push (head : RList) (e : Rel) : pop (push head [e]) = ([e], head) := rfl

/-- C25: pushing NULL does nothing; popping an empty list gives NULL and an empty list. -/
theorem list_push_null (head : RList) : push head [] = head ∧ pop [] = ([], []) := ⟨rfl, rfl⟩

/-- C25: pushing what was popped from a non empty list restores it. -/
theorem list_push_pop (head : RList) : push (pop head).2 (pop head).1 = head := by
  cases head <;> rfl

/-- C25: only the first node of a pushed list is kept: the others are lost (their `next` pointer is
overwritten). -/
theorem list_push_tail_lost (head tail : RList) (e : Rel) : push head (e :: tail) = push head [e] := rfl

/-- C25: `dup` puts on the top a second relation, equal to the top; an empty list stays empty. -/
theorem list_dup {c : Cfg} {head : RList} (h : Valid c head) :
    (∀ e rest, head = e :: rest → ∃ e', dup c head = .ok (e :: e' :: rest) ∧ Rel.equal c e e' = .ok true) ∧
    (head = [] → dup c head = .ok []) := by
  constructor
  · rintro e rest rfl
    have he := (h e (by simp)).wf
    refine ⟨e, ?_, by rw [equal_ok he he]; simp⟩
    unfold dup
    simp only [pop]
    rw [clone_ok (fun r hr => h r (by simp at hr; simp [hr]))]
    rfl
  · rintro rfl; rfl

/-- C25: `drop` removes the top only. -/
theorem list_drop (e : Rel) (rest : RList) : drop (e :: rest) = rest ∧ drop [] = [] := ⟨rfl, rfl⟩

/-- C25: `destroy` empties the list. -/
theorem list_destroy (head : RList) : destroy head = [] := by
  unfold destroy
  induction head with
  | nil => rfl
  | cons e rest ih => exact ih

/-- One operation of a stack user. -/
inductive StackOp where
  | push (e : Rel)
  | pop
  | dup
  | drop

/-- Execution of one operation by the library: new list, popped element if any. -/
def stackStep (c : Cfg) (head : RList) : StackOp → Out (RList × RList)
  | .push e => .ok (RList.push head [e], [])
  | .pop => .ok ((RList.pop head).2, (RList.pop head).1)
  | .dup => do let h ← RList.dup c head; return (h, [])
  | .drop => .ok (RList.drop head, [])

/-- Spec: a mathematical stack, with its top at the head of the list. -/
def specStep (s : List Rel) : StackOp → List Rel × Option Rel
  | .push e => (e :: s, none)
  | .pop => (s.tail, s.head?)
  | .dup => (match s.head? with | none => s | some e => e :: s, none)
  | .drop => (s.tail, none)

/-- Runs of the library and of the specification. -/
def stackRun (c : Cfg) : RList → List StackOp → Out (RList × List RList)
  | h, [] => .ok (h, [])
  | h, op :: ops => do
    let s ← stackStep c h op
    let t ← stackRun c s.1 ops
    return (t.1, s.2 :: t.2)

def specRun : List Rel → List StackOp → List Rel × List (Option Rel)
  | s, [] => (s, [])
  | s, op :: ops => let x := specStep s op; let y := specRun x.1 ops; (y.1, x.2 :: y.2)

/-- C25: over any history of stack operations from the NULL list the library behaves as a stack:
it never fails, the list is the stack and the popped nodes hold the popped values. -/
theorem list_stack_refinement {c : Cfg} (ops : List StackOp)
    (hv : ∀ e, StackOp.push e ∈ ops → Rel.Valid c e) :
    stackRun c [] ops = .ok ((specRun [] ops).1, (specRun [] ops).2.map Option.toList) := by
  have key : ∀ (ops : List StackOp) (h : RList), Valid c h → (∀ e, StackOp.push e ∈ ops → Rel.Valid c e) →
      stackRun c h ops = .ok ((specRun h ops).1, (specRun h ops).2.map Option.toList) := by
    intro ops
    induction ops with
    | nil => intro h _ _; rfl
    | cons op ops ih =>
      intro h hh hp
      have step : ∃ h', stackStep c h op = .ok (h', (specStep h op).2.toList) ∧ h' = (specStep h op).1 ∧ Valid c h' := by
        cases op with
        | push e =>
          refine ⟨_, rfl, rfl, ?_⟩
          intro r hr
          rcases List.mem_cons.mp hr with rfl | hr
          · exact hp _ (by simp)
          · exact hh r hr
        | pop =>
          cases h with
          | nil => exact ⟨[], rfl, rfl, hh⟩
          | cons e rest => exact ⟨rest, rfl, rfl, fun r hr => hh r (by simp [hr])⟩
        | dup =>
          cases h with
          | nil => exact ⟨[], rfl, rfl, hh⟩
          | cons e rest =>
            refine ⟨e :: e :: rest, ?_, rfl, ?_⟩
            · simp only [stackStep, dup, pop]
              rw [clone_ok (fun r hr => hh r (by simp at hr; simp [hr]))]
              rfl
            · intro r hr
              apply hh
              rcases List.mem_cons.mp hr with hr | hr
              · simp [hr]
              · exact hr
        | drop =>
          cases h with
          | nil => exact ⟨[], rfl, rfl, hh⟩
          | cons e rest => exact ⟨rest, rfl, rfl, fun r hr => hh r (by simp [hr])⟩
      obtain ⟨h', e1, e2, hv'⟩ := step
      unfold stackRun
      rw [e1]
      simp only [Out.ok_bind]
      rw [ih h' hv' (fun e he => hp e (by simp [he]))]
      subst e2
      rfl
  exact key ops [] (fun r hr => by cases hr) hv

/-! ## C26: clone, concat, add, count, filter, equality -/

/-- C26: a clone is the same sequence and is equal for the library. -/
theorem list_clone_equal {c : Cfg} {l : RList} (h : Valid c l) :
    ∃ l', clone c l = .ok l' ∧ l' = l ∧ equal c l l' = .ok true := by
  refine ⟨l, clone_ok h, rfl, ?_⟩
  induction l with
  | nil => rfl
  | cons e l ih =>
    have he := (h e (by simp)).wf
    rw [equal, equal_ok he he]
    simp only [decide_true]
    exact ih (fun r hr => h r (by simp [hr]))

/-- C26: the equality test decides equality of the sequences of relations. -/
theorem list_equal_iff {c : Cfg} {l1 l2 : RList} (h1 : Valid c l1) (h2 : Valid c l2) :
    equal c l1 l2 = .ok (decide (l1 = l2)) := by
  induction l1 generalizing l2 with
  | nil => cases l2 <;> simp [equal]
  | cons a l1 ih =>
    cases l2 with
    | nil => simp [equal]
    | cons b l2 =>
      rw [equal, equal_ok (h1 a (by simp)).wf (h2 b (by simp)).wf]
      by_cases hab : a = b
      · simp only [hab, decide_true]
        rw [ih (fun r hr => h1 r (by simp [hr])) (fun r hr => h2 r (by simp [hr]))]
        simp
      · simp [hab]

/-- C26: `concat` is the concatenation of the two sequences; `add` too. -/
theorem list_concat {c : Cfg} {l1 l2 : RList} (h1 : Valid c l1) (h2 : Valid c l2) :
    concat c l1 l2 = .ok (l1 ++ l2) ∧ add l1 l2 = l1 ++ l2 := by
  refine ⟨?_, rfl⟩
  cases l1 with
  | nil => simp [concat, clone_ok h2]
  | cons a l1 =>
    cases l2 with
    | nil => simp [concat, clone_ok h1]
    | cons b l2 => simp [concat, clone_ok h1, clone_ok h2]

/-- C26: `node` is the list of one copy of a non NULL relation. -/
theorem list_node {c : Cfg} {r : Rel} (h : Rel.Valid c r) (hne : r ≠ []) : node c r = .ok [r] ∧ node c [] = .ok [] := by
  refine ⟨?_, rfl⟩
  cases r with
  | nil => exact absurd rfl hne
  | cons p rest => simp [node, Rel.clone_ok h.wf]

/-- C26: `count` is the number of non NULL elements. -/
theorem list_count (l : RList) : count l = (List.filter (fun e : Rel => decide (e ≠ [])) l).length := by
  induction l with
  | nil => rfl
  | cons e l ih =>
    cases e with
    | nil => simp [count, ih]
    | cons p r => simp [count, ih]; omega

theorem filterLoop_eq (type : Int) (kept l : RList) : filterLoop type kept l = kept ++ List.filter (keeps type) l := by
  induction l generalizing kept with
  | nil => simp [filterLoop]
  | cons e l ih =>
    rw [filterLoop]
    by_cases h : keeps type e
    · rw [if_pos h, ih, List.filter_cons_of_pos h]; simp
    · rw [if_neg h, ih, List.filter_cons_of_neg h]

/-- Spec: the relation has the requested type: that of its first part, `OSL_TYPE_ACCESS` standing
for all the access types.  NULL has none. -/
def HasType (type : Int) (e : Rel) : Prop := ∃ p rest, e = p :: rest ∧ TypeMatches type p.type

theorem keeps_iff (type : Int) (e : Rel) : keeps type e = true ↔ HasType type e := by
  cases e with
  | nil => simp [keeps, HasType]
  | cons p rest =>
    have hia := isAccessPart_iff p
    simp only [keeps, HasType, TypeMatches, is_access, List.cons.injEq, Bool.or_eq_true, Bool.and_eq_true, decide_eq_true_eq]
    constructor
    · intro h
      refine ⟨p, rest, ⟨rfl, rfl⟩, ?_⟩
      rcases h with ⟨h1, h2⟩ | ⟨h1, h2⟩
      · rw [if_pos h1]; exact hia.mp h2
      · rw [if_neg h1]; exact h2.symm
    · rintro ⟨p', rest', ⟨rfl, rfl⟩, h⟩
      by_cases ht : type = TYPE_ACCESS
      · rw [if_pos ht] at h; exact .inl ⟨ht, hia.mpr h⟩
      · rw [if_neg ht] at h; exact .inr ⟨ht, h.symm⟩

/-- C26: `filter` returns the elements of the requested type, in order, and nothing else. -/
theorem list_filter {c : Cfg} {l : RList} (h : Valid c l) (type : Int) :
    ∃ l', filter c l type = .ok l' ∧ l'.Sublist l ∧ (∀ e ∈ l', HasType type e) ∧
      (∀ s : RList, s.Sublist l → (∀ e ∈ s, HasType type e) → s.Sublist l') := by
  refine ⟨List.filter (keeps type) l, by simp [filter, clone_ok h, filterLoop_eq], List.filter_sublist, ?_, ?_⟩
  · intro e he
    exact (keeps_iff type e).mp (List.mem_filter.mp he).2
  · intro s hs hall
    have := hs.filter (keeps type)
    rwa [List.filter_eq_self.mpr (fun e he => (keeps_iff type e).mpr (hall e he))] at this

/-- C26: filtering with the type splits the count: nothing is counted twice nor lost. -/
theorem list_filter_count {c : Cfg} {l l' : RList} (h : Valid c l) (type : Int) (e : filter c l type = .ok l') :
    count l' = (List.filter (keeps type) l).length := by
  have : l' = List.filter (keeps type) l := by
    simp [filter, clone_ok h, filterLoop_eq] at e; exact e.symm
  subst this
  rw [list_count]
  congr 1
  apply List.filter_eq_self.mpr
  intro x hx
  have := (keeps_iff type x).mp (List.mem_filter.mp hx).2
  obtain ⟨p, rest, rfl, _⟩ := this
  simp

/-! ## C27: type of a list -/

/-- C27: `osl_relation_list_set_type` gives the type to the first part of every element and
changes nothing else; so for elements of one part it does what the property says. -/
theorem list_set_type_first_parts (l : RList) (type : Int) :
    (set_type l type).length = l.length ∧
    (∀ (i : Nat) (p : Part) (rest : Rel), l[i]? = some (p :: rest) → (set_type l type)[i]? = some ({ p with type := type } :: rest)) ∧
    (∀ (i : Nat), l[i]? = some [] → (set_type l type)[i]? = some []) ∧
    ((∀ r ∈ l, r.length ≤ 1) → ∀ r ∈ set_type l type, ∀ p ∈ r, p.type = type) := by
  refine ⟨by simp [set_type], ?_, ?_, ?_⟩
  · intro i p rest h; simp [set_type, h]
  · intro i h; simp [set_type, h]
  · intro hl r hr p hp
    obtain ⟨e, he, rfl⟩ := List.mem_map.mp hr
    have := hl e he
    cases e with
    | nil => cases hp
    | cons q rest =>
      cases rest with
      | nil => simp at hp; subst hp; rfl
      | cons a b => simp at this

/-- Finding (C27): the later parts of a union keep their type. -/
theorem list_set_type_violates : ∃ l : RList, Valid Cfg.std l ∧ ∃ r ∈ set_type l TYPE_READ, ∃ p ∈ r, p.type ≠ TYPE_READ := by
  refine ⟨[[exAccess, exAccess]], ?_, [{ exAccess with type := TYPE_READ }, exAccess], by decide, exAccess, by decide, by decide⟩
  intro r hr p hp
  simp at hr; subst hr
  simp at hp; subst hp
  exact exAccess_valid

/-! ## C22: integrity of a list -/

/-- C22: the list check accepts exactly when every element is NULL or well-formed. -/
theorem list_integrity_check_iff {c : Cfg} (hv : c.Valid) (hd : c.ndebug = false) {l : RList} (h : Valid c l)
    (hint : ∀ r ∈ l, r.any isAccessPart = true → ∀ q ∈ r, IntEntries q) (type o i n : Int) :
    ∃ b, integrity_check c type o i n l = .ok b ∧
      (b = true ↔ ∀ e ∈ l, ∀ p rest, e = p :: rest → RelWellFormed p rest type o i n) := by
  induction l with
  | nil => exact ⟨true, rfl, by simp⟩
  | cons e l ih =>
    obtain ⟨b, eb, hb⟩ := ih (fun r hr => h r (by simp [hr])) (fun r hr => hint r (by simp [hr]))
    rw [integrity_check]
    cases e with
    | nil =>
      rw [relation_integrity_check_null]
      refine ⟨b, eb, hb.trans ?_⟩
      constructor
      · intro h1 e he p rest hp
        rcases List.mem_cons.mp he with rfl | he
        · cases hp
        · exact h1 e he p rest hp
      · intro h1 e he; exact h1 e (by simp [he])
    | cons p rest =>
      obtain ⟨b', e', hb'⟩ := relation_integrity_check_iff hv hd (h (p :: rest) (by simp)) (hint (p :: rest) (by simp)) type o i n
      rw [e']
      cases b' with
      | false =>
        refine ⟨false, rfl, ?_⟩
        constructor
        · intro h; cases h
        · intro h1; exact absurd (hb'.mpr (h1 _ (by simp) p rest rfl)) (by simp)
      | true =>
        refine ⟨b, eb, hb.trans ?_⟩
        constructor
        · intro h1 e he q rs hq
          rcases List.mem_cons.mp he with rfl | he
          · injection hq with h3 h4; subst h3; subst h4; exact hb'.mp rfl
          · exact h1 e he q rs hq
        · intro h1 e he; exact h1 e (by simp [he])

/-! ## C23: attributes of a list -/

/-- C23: no accumulator is lowered. -/
theorem list_get_attributes_monotone {c : Cfg} {l : RList} {a a' : Attrs} (h : get_attributes c l a = .ok a') : Attrs.Le a a' := by
  unfold get_attributes at h
  generalize (⟨UNDEFINED, UNDEFINED, UNDEFINED, UNDEFINED, UNDEFINED⟩ : Attrs) = loc at h
  induction l generalizing loc a with
  | nil => injection h with h; subst h; exact ⟨Int.le_refl _, Int.le_refl _, Int.le_refl _, Int.le_refl _, Int.le_refl _⟩
  | cons e l ih =>
    rw [attrsLoop] at h
    cases hl : Rel.get_attributes c e loc with
    | ok loc' =>
      rw [hl] at h
      obtain ⟨h1, h2, h3, h4, h5⟩ := ih loc' h
      simp only [omax_le] at h1 h2 h3 h4 h5
      exact ⟨h1.1, h2.1, h3.1, h4.1, h5.1⟩
    | err => rw [hl] at h; cases h
    | ub => rw [hl] at h; cases h

/-- C23: on a non empty list the result is the least upper bound of the accumulators on entry, of
`OSL_UNDEFINED` (-1), and of the contributions of all the parts of all the elements. -/
theorem list_get_attributes_lub {c : Cfg} (hv : c.Valid) (hd : c.ndebug = false) {l : RList} (h : Valid c l)
    (hint : ∀ r ∈ l, r.any isAccessPart = true → ∀ q ∈ r, IntEntries q) (hne : l ≠ []) (a : Attrs) :
    ∃ a', get_attributes c l a = .ok a' ∧
      ∀ z, Attrs.Le a' z ↔ Attrs.Le a z ∧ Attrs.Le ⟨-1, -1, -1, -1, -1⟩ z ∧
        ∀ r ∈ l, ∀ ps ∈ suffixes r, ∃ k, Contributes ps.1 k ∧ (isAccessPart ps.1 = true → get_array_id c ps.2 = .ok k.array_id) ∧
          localAttrs c ps.1 ps.2 = .ok k ∧ Attrs.Le k z := by
  have key : ∀ (l : RList), Valid c l → (∀ r ∈ l, r.any isAccessPart = true → ∀ q ∈ r, IntEntries q) → ∀ (loc a : Attrs),
      ∃ a', attrsLoop c l loc a = .ok a' ∧ ∀ z, Attrs.Le a' z ↔ Attrs.Le a z ∧ (l ≠ [] → Attrs.Le loc z) ∧
        ∀ r ∈ l, ∀ ps ∈ suffixes r, ∃ k, Contributes ps.1 k ∧ (isAccessPart ps.1 = true → get_array_id c ps.2 = .ok k.array_id) ∧
          localAttrs c ps.1 ps.2 = .ok k ∧ Attrs.Le k z := by
    intro l
    induction l with
    | nil => intro _ _ loc a; exact ⟨a, rfl, by simp⟩
    | cons e l ih =>
      intro h hint loc a
      obtain ⟨loc', e1, h1⟩ := relation_get_attributes_lub hv hd (h e (by simp)) (hint e (by simp)) loc
      obtain ⟨a', e2, h2⟩ := ih (fun r hr => h r (by simp [hr])) (fun r hr => hint r (by simp [hr])) loc'
        ⟨omax a.nb_parameters loc'.nb_parameters, omax a.nb_iterators loc'.nb_iterators,
         omax a.nb_scattdims loc'.nb_scattdims, omax a.nb_localdims loc'.nb_localdims,
         omax a.array_id loc'.array_id⟩
      refine ⟨a', by rw [attrsLoop, e1]; exact e2, fun z => (h2 z).trans ?_⟩
      have hj : Attrs.Le ⟨omax a.nb_parameters loc'.nb_parameters, omax a.nb_iterators loc'.nb_iterators,
         omax a.nb_scattdims loc'.nb_scattdims, omax a.nb_localdims loc'.nb_localdims,
         omax a.array_id loc'.array_id⟩ z ↔ Attrs.Le a z ∧ Attrs.Le loc' z := by
        simp only [Attrs.Le, omax_le]
        constructor
        · rintro ⟨h1, h2, h3, h4, h5⟩
          exact ⟨⟨h1.1, h2.1, h3.1, h4.1, h5.1⟩, ⟨h1.2, h2.2, h3.2, h4.2, h5.2⟩⟩
        · rintro ⟨⟨h1, h2, h3, h4, h5⟩, ⟨g1, g2, g3, g4, g5⟩⟩
          exact ⟨⟨h1, g1⟩, ⟨h2, g2⟩, ⟨h3, g3⟩, ⟨h4, g4⟩, ⟨h5, g5⟩⟩
      rw [hj, h1 z]
      constructor
      · rintro ⟨⟨x1, x2, x3⟩, _, x5⟩
        refine ⟨x1, fun _ => x2, ?_⟩
        intro r hr
        rcases List.mem_cons.mp hr with rfl | hr
        · exact x3
        · exact x5 r hr
      · rintro ⟨x1, x2, x3⟩
        have y2 := x2 (by simp)
        exact ⟨⟨x1, y2, x3 e (by simp)⟩, fun _ => ⟨y2, x3 e (by simp)⟩, fun r hr => x3 r (by simp [hr])⟩
  obtain ⟨a', e, h1⟩ := key l h hint ⟨UNDEFINED, UNDEFINED, UNDEFINED, UNDEFINED, UNDEFINED⟩ a
  refine ⟨a', e, fun z => (h1 z).trans ?_⟩
  have hu : (UNDEFINED : Int) = -1 := rfl
  rw [hu]
  simp only [hne, ne_eq, not_false_eq_true, true_implies]

/-! Witnesses: a list of a write access, a NULL element and a domain. -/

def exList : RList := [[exAccess], [], [exDomain]]

theorem exList_valid : Valid Cfg.std exList := by
  intro r hr p hp
  simp only [exList, List.mem_cons, List.not_mem_nil, or_false] at hr
  rcases hr with rfl | rfl | rfl
  · simp at hp; subst hp; exact exAccess_valid
  · cases hp
  · simp at hp; subst hp; exact exDomain_valid

example : count exList = 2 ∧ filter Cfg.std exList TYPE_ACCESS = .ok [[exAccess]] ∧
    filter Cfg.std exList TYPE_DOMAIN = .ok [[exDomain]] ∧
    get_attributes Cfg.std exList ⟨-1, -1, -1, -1, -1⟩ = .ok ⟨1, 1, 0, 0, 5⟩ := by decide

example : stackRun Cfg.std [] [.push [exAccess], .dup, .pop, .drop, .pop] = .ok ([], [[], [], [[exAccess]], [], []]) := by decide

end RList
end Osl
