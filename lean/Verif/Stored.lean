import Verif.RelationProps6
import Verif.ReadShape
/-!
# C82: the integers of the relations can always be stored in their precisions

An integer of a relation is a cell of memory: in fixed precision it is a `long int` or a `long long int`.  In the model it is a mathematical integer.
Here it is proved that the functions of source/relation.c never make a relation which memory cannot hold: whatever the sequence of calls, the integers of the
relations are in the range of their types.
-/

namespace Osl
namespace Rel
open OInt

/-- Spec: every entry of the matrix can be stored in precision `p`. -/
def Fit (c : Cfg) (p : Int) (m : Matrix) : Prop := ∀ row ∈ m, ∀ v ∈ row, InPrec c p v

/-- Spec: a part whose matrix has the advertised size, and holds integers of its precision. -/
def PStored (c : Cfg) (q : Part) : Prop := PShape q ∧ Fit c q.precision q.m

/-- Spec: all the parts of the relation are so. -/
def Stored (c : Cfg) (r : Rel) : Prop := ∀ q ∈ r, PStored c q

/-- Spec: the entries of a vector can be stored in its precision. -/
def VStored (c : Cfg) (v : Option Vec) : Prop := ∀ w, v = some w → ∀ x ∈ w.v, InPrec c w.precision x

variable {c : Cfg}

theorem stored_nil : Stored c [] := fun q hq => by cases hq

theorem stored_cons {q : Part} {r : Rel} : Stored c (q :: r) ↔ PStored c q ∧ Stored c r := by
  simp only [Stored, List.mem_cons, forall_eq_or_imp]

theorem stored_append {r s : Rel} (hr : Stored c r) (hs : Stored c s) : Stored c (r ++ s) := by
  intro q hq
  rcases List.mem_append.mp hq with h | h
  · exact hr q h
  · exact hs q h

theorem Stored.shape {r : Rel} (h : Stored c r) : Shape r := (shape_iff r).mpr (fun q hq => (h q hq).1)

theorem Rel.Valid.stored {r : Rel} (h : Rel.Valid c r) : Stored c r := fun q hq =>
  ⟨⟨⟨(h q hq).rows, (h q hq).cols⟩, (h q hq).ncols⟩, (h q hq).ents⟩

theorem get2_fit {p : Int} {m : Matrix} (h : Fit c p m) {i j v : Int} (hv : get2 m i j = .ok v) : InPrec c p v := by
  unfold get2 at hv
  split at hv
  · cases hv
  · split at hv
    · cases hv
    · rename_i r hr
      split at hv
      · cases hv
      · rename_i w hw
        cases hv
        exact h r (List.mem_of_getElem? hr) _ (List.mem_of_getElem? hw)

theorem set2_fit {p : Int} {m m' : Matrix} (h : Fit c p m) {i j v : Int} (hv : InPrec c p v) (hs : set2 m i j v = .ok m') : Fit c p m' := by
  unfold set2 at hs
  split at hs
  · cases hs
  · split at hs
    · cases hs
    · rename_i r hr
      split at hs
      · cases hs
        intro row hrow x hx
        rcases List.mem_or_eq_of_mem_set hrow with hrow | rfl
        · exact h row hrow x hx
        · rcases List.mem_or_eq_of_mem_set hx with hx | rfl
          · exact h r (List.mem_of_getElem? hr) x hx
          · exact hv
      · cases hs

theorem assign_eq {p v w : Int} (h : assign c p v = .ok w) : w = v := by
  unfold assign at h
  split at h
  · cases h; rfl
  · cases h

theorem copyBlock_fit {p : Int} {src dst d : Matrix} {ilo ihi dro sro jlo jhi dco sco : Int}
    (h : copyBlock c p src ilo ihi dro sro jlo jhi dco sco dst = .ok d) (hs : Fit c p src) (hd : Fit c p dst) : Fit c p d := by
  unfold copyBlock at h
  refine loop_pres (fun d => Fit c p d) h ?_ hd
  intro i s s' hb hd
  refine loop_pres (fun d => Fit c p d) hb ?_ hd
  intro j s s' hb hd
  obtain ⟨v, h1, hb⟩ := Out.bind_eq_ok.mp hb
  obtain ⟨w, h2, hb⟩ := Out.bind_eq_ok.mp hb
  rw [assign_eq h2] at hb
  exact set2_fit hd (get2_fit hs h1) hb

theorem pmalloc_fit (hc : c.Valid) {p R C : Int} {node : Part} (h : pmalloc c p R C = .ok node) : node.precision = p ∧ Fit c p node.m := by
  unfold pmalloc at h
  split at h
  · cases h
  · split at h
    · cases h
    · simp only at h
      split at h
      · next hz =>
        cases h
        refine ⟨rfl, fun row hrow v hv => ?_⟩
        have h1 := List.mem_replicate.mp hrow
        rw [h1.2] at hv
        have h2 := List.mem_replicate.mp hv
        omega
      · split at h
        · next k hk =>
          cases h
          refine ⟨rfl, fun row hrow v hv => ?_⟩
          rw [(List.mem_replicate.mp hrow).2] at hv
          rw [(List.mem_replicate.mp hv).2]
          exact inPrec_zero hc (by rw [hk]; simp)
        · cases h

/-- C82: a new relation. -/
theorem relation_pmalloc_stored (hc : c.Valid) {p R C : Int} {node : Part} (h : pmalloc c p R C = .ok node) : Stored c [node] := by
  have h1 := (shape_iff _).mp (relation_pmalloc_shape h) node (by simp)
  have h2 := pmalloc_fit hc h
  refine stored_cons.mpr ⟨⟨h1, ?_⟩, stored_nil⟩
  rw [h2.1]
  exact h2.2

theorem clonePart_stored (hc : c.Valid) {r q : Part} {n : Int} (hr : Fit c r.precision r.m) (h : clonePart c r n = .ok q) : PStored c q := by
  refine ⟨clonePart_shape h, ?_⟩
  unfold clonePart at h
  obtain ⟨node, h1, h⟩ := Out.bind_eq_ok.mp h
  obtain ⟨m, h2, h⟩ := Out.bind_eq_ok.mp h
  cases h
  obtain ⟨e1, e2⟩ := pmalloc_fit hc h1
  show Fit c node.precision m
  rw [e1]
  exact copyBlock_fit h2 hr e2

theorem nclone_stored (hc : c.Valid) {r s : Rel} {n : Int} (hr : Stored c r) (h : nclone c r n = .ok s) : Stored c s := by
  unfold nclone at h
  simp only at h
  generalize (if n = -1 then r.nb_components else n) = k at h
  split at h
  · cases h
  · exact mapOut_forall (PStored c) h (fun a ha b hb => clonePart_stored hc (hr a (List.mem_of_mem_take ha)).2 hb)

theorem clone_stored (hc : c.Valid) {r s : Rel} (hr : Stored c r) (h : clone c r = .ok s) : Stored c s := by
  unfold clone at h
  split at h
  · cases h; exact stored_nil
  · exact nclone_stored hc hr h

/-- A copy has the advertised size, whatever the relation. -/
theorem nclone_fit (hc : c.Valid) {r s : Rel} {n : Int} (hr : ∀ q ∈ r, Fit c q.precision q.m) (h : nclone c r n = .ok s) : Stored c s := by
  unfold nclone at h
  simp only at h
  generalize (if n = -1 then r.nb_components else n) = k at h
  split at h
  · cases h
  · exact mapOut_forall (PStored c) h (fun a ha b hb => clonePart_stored hc (hr a (List.mem_of_mem_take ha)) hb)

/-- A copy has the advertised size, whatever the relation. -/
theorem clone_fit (hc : c.Valid) {r s : Rel} (hr : ∀ q ∈ r, Fit c q.precision q.m) (h : clone c r = .ok s) : Stored c s := by
  unfold clone at h
  split at h
  · cases h; exact stored_nil
  · exact nclone_fit hc hr h

theorem clone_nconstraints_stored (hc : c.Valid) {r s : Rel} {n : Int} (hr : Stored c r) (h : clone_nconstraints c r n = .ok s) : Stored c s := by
  refine mapOut_forall (PStored c) h (fun a ha b hb => ?_)
  simp only at hb
  generalize (if n = -1 then a.nb_rows else n) = k at hb
  split at hb
  · cases hb
  · exact clonePart_stored hc (hr a ha).2 hb

theorem union_stored (hc : c.Valid) {r s q : Rel} (hr : Stored c r) (hs : Stored c s) (h : union c r s = .ok q) : Stored c q := by
  unfold union at h
  split at h
  · cases h; exact stored_nil
  · obtain ⟨a, h1, h⟩ := Out.bind_eq_ok.mp h
    obtain ⟨b, h2, h⟩ := Out.bind_eq_ok.mp h
    cases h
    exact stored_append (clone_stored hc hr h1) (clone_stored hc hs h2)

theorem vectorGuard_precision {r : Part} {w : Vec} {row : Int} (h : ¬ vectorGuard r w row = true) : r.precision = w.precision := by
  unfold vectorGuard at h
  simp at h
  exact h.1.1.1

theorem fit_vector {v : Vec} (hv : VStored c (some v)) : Fit c v.precision [v.v] := by
  intro row hrow x hx
  rw [List.mem_singleton.mp hrow] at hx
  exact hv v rfl x hx

theorem replaceVectorPart_stored {r q : Part} {v : Option Vec} {row : Int} (hr : PStored c r) (hv : VStored c v)
    (h : replaceVectorPart c r v row = .ok q) : PStored c q := by
  refine ⟨replaceVectorPart_shape hr.1 h, ?_⟩
  unfold replaceVectorPart at h
  split at h
  · cases h
  · split at h
    · cases h
    · next hg =>
      obtain ⟨m, h1, h⟩ := Out.bind_eq_ok.mp h
      cases h
      refine copyBlock_fit h1 ?_ hr.2
      rw [vectorGuard_precision hg]
      exact fit_vector hv

theorem from_vector_stored (hc : c.Valid) {v : Option Vec} {s : Rel} (hv : VStored c v) (h : from_vector c v = .ok s) : Stored c s := by
  unfold from_vector at h
  split at h
  · cases h; exact stored_nil
  · obtain ⟨node, h1, h⟩ := Out.bind_eq_ok.mp h
    simp only [replace_vector] at h
    obtain ⟨q, h2, h⟩ := Out.bind_eq_ok.mp h
    cases h
    exact stored_cons.mpr ⟨replaceVectorPart_stored (relation_pmalloc_stored hc h1 node (by simp)) hv h2, stored_nil⟩

/-- The result of an operation on two integers, when there is one, can be stored. -/
def Closed (c : Cfg) (p : Int) (op : Int → Int → Out Int) : Prop := ∀ a b s, InPrec c p a → InPrec c p b → op a b = .ok s → InPrec c p s

theorem sarith_fits {w : Nat} (hw : w = 32 ∨ w = 64) {x y : Int} (h : sarith c w x = .ok y) : fits w y := by
  unfold sarith at h
  split at h
  · next hf => cases h; exact hf
  · split at h
    · cases h; exact wrap_fits hw x
    · cases h

theorem combineRow_stored {op : Int → Int → Out Int} {p : Part} {v : Vec} {row : Int} {m : Matrix} (hop : Closed c p.precision op)
    (hp : PStored c p) (hv : Fit c p.precision [v.v]) (h : combineRow c op p v row = .ok m) : Fit c p.precision m := by
  unfold combineRow at h
  obtain ⟨t, _, h⟩ := Out.bind_eq_ok.mp h
  obtain ⟨i, _, h⟩ := Out.bind_eq_ok.mp h
  obtain ⟨m1, h1, h⟩ := Out.bind_eq_ok.mp h
  have hm1 : Fit c p.precision m1 := by
    split at h1
    · obtain ⟨a, h2, h1⟩ := Out.bind_eq_ok.mp h1
      obtain ⟨b, h3, h1⟩ := Out.bind_eq_ok.mp h1
      rw [assign_eq h3] at h1
      exact set2_fit hp.2 (get2_fit hv h2) h1
    · cases h1; exact hp.2
  refine loop_pres (fun d => Fit c p.precision d) h ?_ hm1
  intro j s s' hb hs
  obtain ⟨a, h2, hb⟩ := Out.bind_eq_ok.mp hb
  obtain ⟨b, h3, hb⟩ := Out.bind_eq_ok.mp hb
  obtain ⟨d, h4, hb⟩ := Out.bind_eq_ok.mp hb
  exact set2_fit hs (hop _ _ _ (get2_fit hs h2) (get2_fit hv h3) h4) hb

theorem add_closed (hc : c.Valid) (p : Int) : Closed c p (OInt.add c p) := by
  intro a b s _ _ h
  unfold InPrec
  cases hk : kind c p with
  | none => simp [OInt.add, hk] at h
  | some k =>
    cases k with
    | mp => trivial
    | fixed w =>
      have hw := kind_fixed hc hk
      unfold OInt.add at h
      simp only [hk] at h
      show fits w s
      split at h
      · split at h
        · obtain ⟨d, _, h⟩ := Out.bind_eq_ok.mp h
          split at h
          · cases h
          · exact sarith_fits hw h
        · split at h
          · obtain ⟨d, _, h⟩ := Out.bind_eq_ok.mp h
            obtain ⟨e, _, h⟩ := Out.bind_eq_ok.mp h
            split at h
            · cases h
            · exact sarith_fits hw h
          · exact sarith_fits hw h
      · exact sarith_fits hw h

theorem sub_closed (hc : c.Valid) (p : Int) : Closed c p (OInt.sub c p) := by
  intro a b s ha hb h
  unfold OInt.sub at h
  split at h
  · next hp =>
    unfold InPrec
    have : kind c p = some .mp := by
      unfold kind
      rw [if_neg (by rw [hp.1]; decide), if_neg (by rw [hp.1]; decide), if_pos hp]
    rw [this]; trivial
  · obtain ⟨_, _, h⟩ := Out.bind_eq_ok.mp h
    obtain ⟨m, hm, h⟩ := Out.bind_eq_ok.mp h
    refine add_closed hc p a m s ha ?_ h
    unfold oppose at hm
    unfold InPrec
    split at hm
    · next w hk => exact sarith_fits (kind_fixed hc hk) hm
    · trivial
    · cases hm

theorem replaceConstraintsPart_stored {r1 r2 q : Part} {row : Int} (h1 : PStored c r1) (h2 : Fit c r2.precision r2.m)
    (h : replaceConstraintsPart c r1 r2 row = .ok q) : PStored c q ∧ q.precision = r1.precision := by
  have hs := (replaceConstraintsPart_shape h1.1 h).1
  unfold replaceConstraintsPart at h
  split at h
  · cases h
  · next hg =>
    obtain ⟨m, h3, h⟩ := Out.bind_eq_ok.mp h
    cases h
    refine ⟨⟨hs, copyBlock_fit h3 ?_ h1.2⟩, rfl⟩
    have : r1.precision = r2.precision := by
      by_cases e : r1.precision = r2.precision
      · exact e
      · exact absurd (Or.inl e) hg
    rw [this]
    exact h2

theorem insert_constraints_stored (hc : c.Valid) {r s q : Rel} {row : Int} (hr : Stored c r) (hs : Stored c s)
    (h : insert_constraints c r s row = .ok q) : Stored c q := by
  have hsh := (shape_iff q).mp (insert_constraints_shape hr.shape h)
  unfold insert_constraints at h
  split at h
  · rename_i p1 rest p2 rest2
    simp only at h
    have key : ∀ row : Int, (if p1.nb_columns ≠ p2.nb_columns ∨ p1.precision ≠ p2.precision ∨ row > p1.nb_rows ∨ row < 0
        then Out.err else do
          let temp ← pmalloc c p1.precision (p1.nb_rows + p2.nb_rows) p1.nb_columns
          let m ← copyBlock c p1.precision p1.m 0 row 0 0 0 p1.nb_columns 0 0 temp.m
          let temp ← replaceConstraintsPart c { temp with m := m } p2 row
          let m ← copyBlock c p1.precision p1.m (row + p2.nb_rows) (p2.nb_rows + p1.nb_rows) 0
            (-p2.nb_rows) 0 p1.nb_columns 0 0 temp.m
          pure ({ p1 with nb_rows := temp.nb_rows, m := m } :: rest)) = Out.ok q → Stored c q := by
      intro row h
      split at h
      · cases h
      · obtain ⟨node, h1, h⟩ := Out.bind_eq_ok.mp h
        obtain ⟨m, h2, h⟩ := Out.bind_eq_ok.mp h
        obtain ⟨t, h3, h⟩ := Out.bind_eq_ok.mp h
        obtain ⟨m2, h4, h⟩ := Out.bind_eq_ok.mp h
        cases h
        obtain ⟨e1, e2⟩ := pmalloc_fit hc h1
        have hp1 := (stored_cons.mp hr).1
        have hp2 := (stored_cons.mp hs).1
        have hm := copyBlock_fit h2 hp1.2 e2
        have ht : Fit c p1.precision t.m := by
          unfold replaceConstraintsPart at h3
          split at h3
          · cases h3
          · next hg =>
            obtain ⟨m', h5, h3⟩ := Out.bind_eq_ok.mp h3
            cases h3
            dsimp only at h5 hg ⊢
            rw [e1] at h5 hg
            refine copyBlock_fit h5 ?_ hm
            have : p1.precision = p2.precision := by
              by_cases e : p1.precision = p2.precision
              · exact e
              · exact absurd (Or.inl e) hg
            rw [this]
            exact hp2.2
        refine stored_cons.mpr ⟨⟨hsh _ (by simp), copyBlock_fit h4 hp1.2 ht⟩, (stored_cons.mp hr).2⟩
    exact key _ h
  · cases h; exact hr

theorem concat_constraints_stored (hc : c.Valid) {r s q : Rel} (hr : Stored c r) (hs : Stored c s)
    (h : concat_constraints c r s = .ok q) : Stored c q := by
  unfold concat_constraints at h
  split at h
  · exact clone_stored hc hs h
  · exact clone_stored hc hr h
  · split at h
    · cases h
    · obtain ⟨node, h1, h⟩ := Out.bind_eq_ok.mp h
      obtain ⟨n1, h2, h⟩ := Out.bind_eq_ok.mp h
      obtain ⟨n2, h3, h⟩ := Out.bind_eq_ok.mp h
      cases h
      have f1 := replaceConstraintsPart_stored (relation_pmalloc_stored hc h1 node (by simp)) (stored_cons.mp hr).1.2 h2
      exact stored_cons.mpr ⟨(replaceConstraintsPart_stored f1.1 (stored_cons.mp hs).1.2 h3).1, stored_nil⟩

theorem insert_vector_stored (hc : c.Valid) {r q : Rel} {v : Option Vec} {row : Int} (hr : Stored c r) (hv : VStored c v)
    (h : insert_vector c r v row = .ok q) : Stored c q := by
  unfold insert_vector at h
  obtain ⟨t, h1, h⟩ := Out.bind_eq_ok.mp h
  exact insert_constraints_stored hc hr (from_vector_stored hc hv h1) h

theorem insert_blank_column_stored (hc : c.Valid) {r q : Rel} {column : Int} (hr : Stored c r) (h : insert_blank_column c r column = .ok q) : Stored c q := by
  have hsh := (shape_iff q).mp (relation_step_shape (op := .insertBlankColumn column) hr.shape shape_nil h)
  unfold insert_blank_column at h
  split at h
  · cases h; exact stored_nil
  · split at h
    · cases h
    · obtain ⟨node, h1, h⟩ := Out.bind_eq_ok.mp h
      obtain ⟨m1, h2, h⟩ := Out.bind_eq_ok.mp h
      obtain ⟨m2, h3, h⟩ := Out.bind_eq_ok.mp h
      cases h
      have hp := (stored_cons.mp hr).1.2
      exact stored_cons.mpr ⟨⟨hsh _ (by simp), copyBlock_fit h3 hp (copyBlock_fit h2 hp (pmalloc_fit hc h1).2)⟩, (stored_cons.mp hr).2⟩

theorem remove_row_stored (hc : c.Valid) {r q : Rel} {row : Int} (hr : Stored c r) (h : remove_row c r row = .ok q) : Stored c q := by
  have hsh := (shape_iff q).mp (relation_step_shape (op := .removeRow row) hr.shape shape_nil h)
  unfold remove_row at h
  split at h
  · cases h; exact stored_nil
  · split at h
    · cases h
    · obtain ⟨node, h1, h⟩ := Out.bind_eq_ok.mp h
      obtain ⟨m1, h2, h⟩ := Out.bind_eq_ok.mp h
      obtain ⟨m2, h3, h⟩ := Out.bind_eq_ok.mp h
      cases h
      have hp := (stored_cons.mp hr).1.2
      exact stored_cons.mpr ⟨⟨hsh _ (by simp), copyBlock_fit h3 hp (copyBlock_fit h2 hp (pmalloc_fit hc h1).2)⟩, (stored_cons.mp hr).2⟩

theorem remove_column_stored (hc : c.Valid) {r q : Rel} {column : Int} (hr : Stored c r) (h : remove_column c r column = .ok q) : Stored c q := by
  have hsh := (shape_iff q).mp (relation_step_shape (op := .removeColumn column) hr.shape shape_nil h)
  unfold remove_column at h
  split at h
  · cases h; exact stored_nil
  · split at h
    · cases h
    · obtain ⟨node, h1, h⟩ := Out.bind_eq_ok.mp h
      obtain ⟨m1, h2, h⟩ := Out.bind_eq_ok.mp h
      obtain ⟨m2, h3, h⟩ := Out.bind_eq_ok.mp h
      cases h
      have hp := (stored_cons.mp hr).1.2
      exact stored_cons.mpr ⟨⟨hsh _ (by simp), copyBlock_fit h3 hp (copyBlock_fit h2 hp (pmalloc_fit hc h1).2)⟩, (stored_cons.mp hr).2⟩

theorem insert_columns_stored (hc : c.Valid) {r s q : Rel} {column : Int} (hr : Stored c r) (hs : Stored c s)
    (h : insert_columns c r s column = .ok q) : Stored c q := by
  have hsh := (shape_iff q).mp (relation_step_shape (op := .insertColumns s column) hr.shape hs.shape h)
  unfold insert_columns at h
  split at h
  · rename_i p rest q rest2
    split at h
    · cases h
    · next hg =>
      obtain ⟨node, h1, h⟩ := Out.bind_eq_ok.mp h
      obtain ⟨m1, h2, h⟩ := Out.bind_eq_ok.mp h
      obtain ⟨m2, h3, h⟩ := Out.bind_eq_ok.mp h
      obtain ⟨m3, h4, h⟩ := Out.bind_eq_ok.mp h
      cases h
      have hp := (stored_cons.mp hr).1.2
      have hq := (stored_cons.mp hs).1.2
      have : p.precision = q.precision := by
        by_cases e : p.precision = q.precision
        · exact e
        · exact absurd (Or.inl e) hg
      rw [← this] at hq
      exact stored_cons.mpr ⟨⟨hsh _ (by simp), copyBlock_fit h4 hp (copyBlock_fit h3 hq (copyBlock_fit h2 hp (pmalloc_fit hc h1).2))⟩, (stored_cons.mp hr).2⟩
  · cases h; exact hr

theorem swap_eq {p a b : Int} {r : Int × Int} (h : OInt.swap c p a b = .ok r) : r = (b, a) := by
  unfold OInt.swap at h
  split at h
  · cases h; rfl
  · cases h

theorem swap_constraints_stored {r q : Rel} {i j : Int} (hr : Stored c r) (h : swap_constraints c r i j = .ok q) : Stored c q := by
  have hsh := (shape_iff q).mp (relation_step_shape (op := .swap i j) hr.shape shape_nil h)
  unfold swap_constraints at h
  split at h
  · cases h; exact stored_nil
  · split at h
    · cases h; exact hr
    · split at h
      · cases h
      · rename_i p rest _ _
        obtain ⟨m, h1, h⟩ := Out.bind_eq_ok.mp h
        cases h
        refine stored_cons.mpr ⟨⟨hsh _ (by simp), ?_⟩, (stored_cons.mp hr).2⟩
        refine loop_pres (fun d => Fit c p.precision d) h1 ?_ (stored_cons.mp hr).1.2
        intro j s s' hb hs
        obtain ⟨a, h2, hb⟩ := Out.bind_eq_ok.mp hb
        obtain ⟨b, h3, hb⟩ := Out.bind_eq_ok.mp hb
        obtain ⟨ab, h4, hb⟩ := Out.bind_eq_ok.mp hb
        obtain ⟨m, h5, hb⟩ := Out.bind_eq_ok.mp hb
        rw [swap_eq h4] at h5 hb
        exact set2_fit (set2_fit hs (get2_fit hs h3) h5) (get2_fit hs h2) hb

theorem set_si_small (hc : c.Valid) {p i v : Int} (hi : fits 32 i) (h : set_si c p i = .ok v) : InPrec c p v := by
  unfold set_si at h
  split at h
  · next k hk => cases h; exact inPrec_of_fits32 hc (by rw [hk]; simp) hi
  · cases h

theorem extendPart_stored (hc : c.Valid) {p : Int} {r q : Part} {dim : Int} (hr : PStored c r) (h : extendPart c p r dim = .ok q) : PStored c q := by
  have hsh := extendPart_shape h
  unfold extendPart at h
  split at h
  · cases h
  · simp only at h
    obtain ⟨node, h1, h⟩ := Out.bind_eq_ok.mp h
    split at h
    · cases h
    · next hp =>
      obtain ⟨m1, h2, h⟩ := Out.bind_eq_ok.mp h
      obtain ⟨m2, h3, h⟩ := Out.bind_eq_ok.mp h
      obtain ⟨m3, h4, h⟩ := Out.bind_eq_ok.mp h
      cases h
      have hp' : p = r.precision := by
        by_cases e : p = r.precision
        · exact e
        · exact absurd e hp
      obtain ⟨e1, e2⟩ := pmalloc_fit hc h1
      have hm := hr.2
      rw [← hp'] at hm
      have hm2 := copyBlock_fit h3 hm (copyBlock_fit h2 hm e2)
      refine ⟨hsh, ?_⟩
      show Fit c node.precision m3
      rw [e1]
      refine loop_pres (fun d => Fit c p d) h4 ?_ hm2
      intro i s s' hb hs
      refine loop_pres (fun d => Fit c p d) hb ?_ hs
      intro j s s' hb hs
      split at hb
      · obtain ⟨v, h5, hb⟩ := Out.bind_eq_ok.mp hb
        exact set2_fit hs (set_si_small hc (by decide) h5) hb
      · cases hb; exact hs

theorem extend_output_stored (hc : c.Valid) {r q : Rel} {dim : Int} (hr : Stored c r) (h : extend_output c r dim = .ok q) : Stored c q := by
  unfold extend_output at h
  split at h
  · cases h
  · exact mapOut_forall (PStored c) h (fun a ha b hb => extendPart_stored hc (hr a ha) hb)

theorem get_si_fits {p v i : Int} (h : get_si c p v = .ok i) : fits 32 i := by
  unfold get_si at h
  split at h
  · split at h
    · cases h
    · split at h
      · cases h
      · cases h; exact wrap_fits (.inl rfl) _
  · split at h
    · cases h
    · cases h; exact wrap_fits (.inl rfl) _
  · cases h

theorem int_set_precision_stored (hc : c.Valid) {p np v w : Int} (hne : p ≠ np) (h : OInt.set_precision c p np v = .ok w) : InPrec c np w := by
  unfold OInt.set_precision at h
  rw [if_pos hne] at h
  obtain ⟨i, h1, h⟩ := Out.bind_eq_ok.mp h
  unfold init_set_si at h
  split at h
  · next k hk => cases h; exact inPrec_of_fits32 hc (by rw [hk]; simp) (get_si_fits h1)
  · cases h

theorem fit_of_cells {p R C : Int} {m : Matrix} (hr : Rect m R C) (h : ∀ i j, 0 ≤ i → i < R → 0 ≤ j → j < C → InPrec c p (cell m i j)) : Fit c p m := by
  intro row hrow v hv
  obtain ⟨i, hi, rfl⟩ := List.getElem_of_mem hrow
  obtain ⟨j, hj, rfl⟩ := List.getElem_of_mem hv
  have h1 := hr.1
  have h2 := hr.2 _ (List.getElem_mem hi)
  have := h i j (by omega) (by omega) (by omega) (by omega)
  unfold cell at this
  rw [if_neg (by omega)] at this
  simpa [List.getElem?_eq_getElem hi, List.getElem?_eq_getElem hj] using this

theorem setPrecisionPart_stored (hc : c.Valid) {np : Int} {r q : Part} (hr : PStored c r) (h : setPrecisionPart c np r = .ok q) : PStored c q := by
  have hsh := setPrecisionPart_shape hr.1 h
  unfold setPrecisionPart at h
  split at h
  · next hne =>
    obtain ⟨m, h1, h⟩ := Out.bind_eq_ok.mp h
    cases h
    have hR : 0 ≤ r.nb_rows := by have := hr.1.1.1; omega
    have key : Rect m r.nb_rows r.nb_columns ∧ ∀ x y, 0 ≤ x → x < r.nb_rows → 0 ≤ y → y < r.nb_columns → InPrec c np (cell m x y) := by
      refine loop_rule_partial (fun i d => Rect d r.nb_rows r.nb_columns ∧ ∀ x y, 0 ≤ x → x < i → 0 ≤ y → y < r.nb_columns → InPrec c np (cell d x y)) h1
        ⟨hr.1.1, fun x y h1 h2 => absurd h1 (by omega)⟩ ?_ hR
      intro i s s' hi hi' hs hb
      have hin := loop_rule_partial (fun j d => Rect d r.nb_rows r.nb_columns ∧ (∀ x y, 0 ≤ x → x < i → 0 ≤ y → y < r.nb_columns → InPrec c np (cell d x y)) ∧
        ∀ y, 0 ≤ y → y < j → InPrec c np (cell d i y)) hb ⟨hs.1, hs.2, fun y h1 h2 => absurd h1 (by omega)⟩ ?_ hr.1.2
      · refine ⟨hin.1, fun x y hx hx' hy hy' => ?_⟩
        by_cases hxi : x = i
        · subst hxi; exact hin.2.2 y hy hy'
        · exact hin.2.1 x y hx (by omega) hy hy'
      · intro j d d' hj hj' hd hb
        obtain ⟨v, h2, hb⟩ := Out.bind_eq_ok.mp hb
        obtain ⟨w, h3, hb⟩ := Out.bind_eq_ok.mp hb
        have hw := int_set_precision_stored hc (fun e => hne e.symm) h3
        obtain ⟨d2, h4, h5, h6⟩ := set2_ok hd.1 hi hi' hj hj' w
        rw [h4] at hb
        cases hb
        refine ⟨h5, fun x y hx hx' hy hy' => ?_, fun y hy hy' => ?_⟩
        · rw [h6, if_neg (by omega)]; exact hd.2.1 x y hx hx' hy hy'
        · rw [h6]
          by_cases hyj : y = j
          · rw [if_pos ⟨rfl, hyj⟩]; exact hw
          · rw [if_neg (fun e => hyj e.2)]; exact hd.2.2 y hy (by omega)
    exact ⟨hsh, fit_of_cells key.1 key.2⟩
  · cases h; exact hr

theorem set_precision_stored (hc : c.Valid) {np : Int} {r q : Rel} (hr : Stored c r) (h : set_precision c np r = .ok q) : Stored c q :=
  mapOut_forall (PStored c) h (fun a ha b hb => setPrecisionPart_stored hc (hr a ha) hb)

theorem set_type_stored {r : Rel} (hr : Stored c r) (t : Int) : Stored c (set_type r t) := by
  intro q hq
  obtain ⟨q0, h0, rfl⟩ := List.mem_map.mp hq
  exact hr q0 h0

theorem set_attributes_stored {r : Rel} (hr : Stored c r) (o i l p : Int) : Stored c (set_attributes r o i l p) := by
  intro q hq
  obtain ⟨q0, h0, rfl⟩ := List.mem_map.mp hq
  exact hr q0 h0

theorem vec_pmalloc_stored (hc : c.Valid) {p n : Int} {v : Vec} (h : Vec.pmalloc c p n = .ok v) : VStored c (some v) := by
  intro w hw x hx
  cases hw
  unfold Vec.pmalloc at h
  split at h
  · cases h
  · split at h
    · next l hl =>
      cases h
      refine mapOut_forall (fun x => InPrec c p x) hl (fun z hz _ hb => ?_) x hx
      rw [(List.mem_replicate.mp hz).2] at hb
      unfold init_set_si at hb
      split at hb
      · next k hk => cases hb; exact inPrec_zero hc (by rw [hk]; simp)
      · cases hb
    · cases h
    · cases h

/-- C82, one step: a successful operation on a relation whose integers can be stored yields one. -/
theorem relation_step_stored (hc : c.Valid) {r r' : Rel} {op : Op} (hr : Stored c r) (ha : Stored c op.args) (hv : VStored c op.vec)
    (h : step c r op = .ok r') : Stored c r' := by
  cases op with
  | clone => exact clone_stored hc hr h
  | nclone n => exact nclone_stored hc hr h
  | cloneNconstraints n => exact clone_nconstraints_stored hc hr h
  | add s => simp only [step, Out.ok.injEq] at h; subst h; exact stored_append hr ha
  | union s => exact union_stored hc hr ha h
  | replaceVector v row =>
    simp only [step, replace_vector] at h
    split at h
    · cases h
    · obtain ⟨q, h1, h⟩ := Out.bind_eq_ok.mp h
      cases h
      exact stored_cons.mpr ⟨replaceVectorPart_stored (stored_cons.mp hr).1 hv h1, (stored_cons.mp hr).2⟩
  | addVector v row =>
    have hsh := (shape_iff r').mp (relation_step_shape hr.shape ha.shape h)
    simp only [step, add_vector] at h
    split at h
    · split at h
      · cases h
      · next hg =>
        obtain ⟨q, h1, h⟩ := Out.bind_eq_ok.mp h
        cases h
        have hp := (stored_cons.mp hr).1
        have hm := combineRow_stored (add_closed hc _) hp (by rw [vectorGuard_precision hg]; exact fit_vector hv) h1
        exact stored_cons.mpr ⟨⟨hsh _ (by simp), hm⟩, (stored_cons.mp hr).2⟩
    · cases h
  | subVector v row =>
    have hsh := (shape_iff r').mp (relation_step_shape hr.shape ha.shape h)
    simp only [step, sub_vector] at h
    split at h
    · split at h
      · cases h
      · next hg =>
        obtain ⟨q, h1, h⟩ := Out.bind_eq_ok.mp h
        cases h
        have hp := (stored_cons.mp hr).1
        have hm := combineRow_stored (sub_closed hc _) hp (by rw [vectorGuard_precision hg]; exact fit_vector hv) h1
        exact stored_cons.mpr ⟨⟨hsh _ (by simp), hm⟩, (stored_cons.mp hr).2⟩
    · cases h
  | insertVector v row => exact insert_vector_stored hc hr hv h
  | concatVector v =>
    simp only [step, concat_vector] at h
    obtain ⟨t, h1, h⟩ := Out.bind_eq_ok.mp h
    exact concat_constraints_stored hc hr (from_vector_stored hc hv h1) h
  | replaceConstraints s row =>
    simp only [step, replace_constraints] at h
    split at h
    · obtain ⟨q, h1, h⟩ := Out.bind_eq_ok.mp h
      cases h
      exact stored_cons.mpr ⟨(replaceConstraintsPart_stored (stored_cons.mp hr).1 (stored_cons.mp ha).1.2 h1).1, (stored_cons.mp hr).2⟩
    · cases h
  | insertConstraints s row => exact insert_constraints_stored hc hr ha h
  | concatConstraints s => exact concat_constraints_stored hc hr ha h
  | insertBlankRow row =>
    simp only [step, insert_blank_row] at h
    split at h
    · cases h; exact stored_nil
    · obtain ⟨v, h1, h⟩ := Out.bind_eq_ok.mp h
      exact insert_vector_stored hc hr (vec_pmalloc_stored hc h1) h
  | insertBlankColumn col => exact insert_blank_column_stored hc hr h
  | swap i j => exact swap_constraints_stored hr h
  | removeRow row => exact remove_row_stored hc hr h
  | removeColumn col => exact remove_column_stored hc hr h
  | insertColumns s col => exact insert_columns_stored hc hr ha h
  | setAttributes o i l p => simp only [step, Out.ok.injEq] at h; subst h; exact set_attributes_stored hr o i l p
  | setType t => simp only [step, Out.ok.injEq] at h; subst h; exact set_type_stored hr t
  | extendOutput dim => exact extend_output_stored hc hr h
  | setPrecision p => exact set_precision_stored hc hr h

/-- C82: after any sequence of successful operations, every integer of the relation is in the range of the type of its precision. -/
theorem relation_history_stored (hc : c.Valid) {ops : List Op} {r r' : Rel} (hr : Stored c r) (ha : ∀ op ∈ ops, Stored c op.args ∧ VStored c op.vec)
    (h : run c r ops = .ok r') : Stored c r' := by
  induction ops generalizing r with
  | nil => simp [run] at h; exact h ▸ hr
  | cons op ops ih =>
    simp only [run] at h
    obtain ⟨r1, h1, h⟩ := Out.bind_eq_ok.mp h
    exact ih (relation_step_stored hc hr (ha op (by simp)).1 (ha op (by simp)).2 h1) (fun op hop => ha op (by simp [hop])) h

end Rel
end Osl
