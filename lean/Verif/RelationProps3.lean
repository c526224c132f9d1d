import Verif.RelationProps2
/-!
# Properties C19 (shape invariant) and C20 (extension of the output dimensions)
-/

namespace Osl
namespace Rel
open OInt

/-! ## C19: the shape invariant over histories -/

/-- Spec: the matrix of every part has `nb_rows` rows of `nb_columns` entries. -/
def Shape (r : Rel) : Prop := ∀ p ∈ r, (p.m.length : Int) = p.nb_rows ∧
  (∀ row ∈ p.m, (row.length : Int) = p.nb_columns) ∧ 0 ≤ p.nb_columns

/-- The relation operations of the library, with their arguments. -/
inductive Op
  | clone | nclone (n : Int) | cloneNconstraints (n : Int)
  | add (s : Rel) | union (s : Rel)
  | replaceVector (v : Option Vec) (row : Int) | addVector (v : Option Vec) (row : Int)
  | subVector (v : Option Vec) (row : Int) | insertVector (v : Option Vec) (row : Int)
  | concatVector (v : Option Vec) | replaceConstraints (s : Rel) (row : Int)
  | insertConstraints (s : Rel) (row : Int) | concatConstraints (s : Rel)
  | insertBlankRow (row : Int) | insertBlankColumn (col : Int)
  | swap (i j : Int) | removeRow (row : Int) | removeColumn (col : Int)
  | insertColumns (s : Rel) (col : Int)
  | setAttributes (o i l p : Int) | setType (t : Int)
  | extendOutput (dim : Int) | setPrecision (p : Int)

/-- One call. -/
def step (c : Cfg) (r : Rel) : Op → Out Rel
  | .clone => Rel.clone c r
  | .nclone n => Rel.nclone c r n
  | .cloneNconstraints n => clone_nconstraints c r n
  | .add s => .ok (Rel.add r s)
  | .union s => Rel.union c r s
  | .replaceVector v row => replace_vector c r v row
  | .addVector v row => add_vector c r v row
  | .subVector v row => sub_vector c r v row
  | .insertVector v row => insert_vector c r v row
  | .concatVector v => concat_vector c r v
  | .replaceConstraints s row => replace_constraints c r s row
  | .insertConstraints s row => insert_constraints c r s row
  | .concatConstraints s => concat_constraints c r s
  | .insertBlankRow row => insert_blank_row c r row
  | .insertBlankColumn col => insert_blank_column c r col
  | .swap i j => swap_constraints c r i j
  | .removeRow row => remove_row c r row
  | .removeColumn col => remove_column c r col
  | .insertColumns s col => insert_columns c r s col
  | .setAttributes o i l p => .ok (set_attributes r o i l p)
  | .setType t => .ok (set_type r t)
  | .extendOutput dim => extend_output c r dim
  | .setPrecision p => set_precision c p r

/-- The relation arguments of an operation. -/
def Op.args : Op → Rel
  | .add s | .union s | .replaceConstraints s _ | .insertConstraints s _ | .concatConstraints s
  | .insertColumns s _ => s
  | _ => []

/-- A sequence of calls on one relation. -/
def run (c : Cfg) (r : Rel) : List Op → Out Rel
  | [] => .ok r
  | op :: ops => do
    let r ← step c r op
    run c r ops

/-! Preservation of the shape by successful loops. -/

theorem set2_rect {m m' : Matrix} {i j v R C : Int} (h : set2 m i j v = .ok m') (hr : Rect m R C) :
    Rect m' R C := by
  unfold set2 at h
  split at h
  · cases h
  · split at h
    · cases h
    · rename_i r hrow
      split at h
      · injection h with h
        subst h
        refine ⟨by simpa using hr.1, ?_⟩
        intro s hs
        rcases List.mem_or_eq_of_mem_set hs with hs | hs
        · exact hr.2 s hs
        · subst hs
          simp only [List.length_set]
          exact hr.2 r (List.mem_of_getElem? hrow)
      · cases h

theorem loop_pres {σ : Type} (P : σ → Prop) {body : Int → σ → Out σ} {lo hi : Int} {s s' : σ}
    (h : loop lo hi body s = .ok s') (hb : ∀ i s s', body i s = .ok s' → P s → P s') (h0 : P s) : P s' := by
  unfold loop at h
  generalize (hi - lo).toNat = n at h
  induction n generalizing lo s with
  | zero => simp [loopN] at h; exact h ▸ h0
  | succ n ih =>
    simp only [loopN] at h
    cases hbi : body lo s with
    | ok s1 => rw [hbi] at h; exact ih (hb lo s s1 hbi h0) h
    | err => rw [hbi] at h; cases h
    | ub => rw [hbi] at h; cases h

theorem copyBlock_rect {c : Cfg} {p : Int} {src dst d : Matrix} {ilo ihi dro sro jlo jhi dco sco R C : Int}
    (h : copyBlock c p src ilo ihi dro sro jlo jhi dco sco dst = .ok d) (hr : Rect dst R C) : Rect d R C := by
  unfold copyBlock at h
  refine loop_pres (fun d => Rect d R C) h ?_ hr
  intro i s s' hb hs
  refine loop_pres (fun d => Rect d R C) hb ?_ hs
  intro j s s' hb hs
  obtain ⟨v, _, hb⟩ := Out.bind_eq_ok.mp hb
  obtain ⟨v', _, hb⟩ := Out.bind_eq_ok.mp hb
  exact set2_rect hb hs

theorem pmalloc_shape {c : Cfg} {p R C : Int} {node : Part} (h : pmalloc c p R C = .ok node) :
    node.nb_rows = R ∧ node.nb_columns = C ∧ Rect node.m R C ∧ 0 ≤ R ∧ 0 ≤ C := by
  unfold pmalloc at h
  split at h
  · cases h
  · split at h
    · cases h
    · rename_i hneg
      have hz : Rect (List.replicate R.toNat (List.replicate C.toNat 0)) R C := rect_zero (by omega) (by omega)
      simp only at h
      split at h
      · injection h with h; subst h; exact ⟨rfl, rfl, hz, by omega, by omega⟩
      · split at h
        · injection h with h; subst h; exact ⟨rfl, rfl, hz, by omega, by omega⟩
        · cases h

/-- Shape of one part. -/
def PShape (p : Part) : Prop := Rect p.m p.nb_rows p.nb_columns ∧ 0 ≤ p.nb_columns

theorem shape_iff (r : Rel) : Shape r ↔ ∀ p ∈ r, PShape p := by
  unfold Shape PShape Rect
  constructor
  · intro h p hp; exact ⟨⟨(h p hp).1, (h p hp).2.1⟩, (h p hp).2.2⟩
  · intro h p hp; exact ⟨(h p hp).1.1, (h p hp).1.2, (h p hp).2⟩

theorem shape_cons {p : Part} {r : Rel} : Shape (p :: r) ↔ PShape p ∧ Shape r := by
  simp only [shape_iff, List.mem_cons, forall_eq_or_imp]

theorem shape_nil : Shape [] := by intro p hp; cases hp

theorem shape_append {r s : Rel} (hr : Shape r) (hs : Shape s) : Shape (r ++ s) := by
  intro p hp
  rcases List.mem_append.mp hp with h | h
  · exact hr p h
  · exact hs p h

theorem mapOut_forall {α β : Type} {f : α → Out β} {l : List α} {r : List β} (P : β → Prop)
    (h : Out.mapOut f l = .ok r) (hf : ∀ a ∈ l, ∀ b, f a = .ok b → P b) : ∀ b ∈ r, P b := by
  induction l generalizing r with
  | nil => simp [Out.mapOut] at h; subst h; simp
  | cons a as ih =>
    obtain ⟨b, bs, h1, h2, rfl⟩ := Out.mapOut_cons_eq_ok.mp h
    intro x hx
    rcases List.mem_cons.mp hx with rfl | hx
    · exact hf a (by simp) _ h1
    · exact ih h2 (fun a ha => hf a (by simp [ha])) x hx

theorem clonePart_shape {c : Cfg} {r q : Part} {n : Int} (h : clonePart c r n = .ok q) : PShape q := by
  unfold clonePart at h
  obtain ⟨node, h1, h⟩ := Out.bind_eq_ok.mp h
  obtain ⟨m, h2, h⟩ := Out.bind_eq_ok.mp h
  obtain ⟨e1, e2, e3, e4, e5⟩ := pmalloc_shape h1
  simp only [Out.pure_eq, Out.ok.injEq] at h
  subst h
  have := copyBlock_rect h2 e3
  refine ⟨?_, ?_⟩
  · simp only [e1, e2]; exact this
  · simp only [e2]; exact e5

theorem nclone_shape {c : Cfg} {r s : Rel} {n : Int} (h : nclone c r n = .ok s) : Shape s := by
  unfold nclone at h
  simp only at h
  generalize (if n = -1 then r.nb_components else n) = k at h
  split at h
  · cases h
  · exact (shape_iff s).mpr (mapOut_forall PShape h (fun a _ b hb => clonePart_shape hb))

theorem clone_shape {c : Cfg} {r s : Rel} (h : clone c r = .ok s) : Shape s := by
  unfold clone at h
  split at h
  · injection h with h; subst h; exact shape_nil
  · exact nclone_shape h

theorem replaceVectorPart_shape {c : Cfg} {r q : Part} {v : Option Vec} {row : Int} (hr : PShape r)
    (h : replaceVectorPart c r v row = .ok q) : PShape q := by
  unfold replaceVectorPart at h
  split at h
  · cases h
  · split at h
    · cases h
    · obtain ⟨m, h1, h⟩ := Out.bind_eq_ok.mp h
      simp only [Out.pure_eq, Out.ok.injEq] at h
      subst h
      exact ⟨copyBlock_rect h1 hr.1, hr.2⟩

theorem combineRow_shape {c : Cfg} {op : Int → Int → Out Int} {p : Part} {v : Vec} {row : Int} {m : Matrix}
    (hp : PShape p) (h : combineRow c op p v row = .ok m) : Rect m p.nb_rows p.nb_columns := by
  unfold combineRow at h
  obtain ⟨t, _, h⟩ := Out.bind_eq_ok.mp h
  obtain ⟨i, _, h⟩ := Out.bind_eq_ok.mp h
  obtain ⟨m1, h1, h⟩ := Out.bind_eq_ok.mp h
  have hm1 : Rect m1 p.nb_rows p.nb_columns := by
    split at h1
    · obtain ⟨a, _, h1⟩ := Out.bind_eq_ok.mp h1
      obtain ⟨b, _, h1⟩ := Out.bind_eq_ok.mp h1
      exact set2_rect h1 hp.1
    · injection h1 with h1; exact h1 ▸ hp.1
  refine loop_pres (fun d => Rect d p.nb_rows p.nb_columns) h ?_ hm1
  intro j s s' hb hs
  obtain ⟨a, _, hb⟩ := Out.bind_eq_ok.mp hb
  obtain ⟨b, _, hb⟩ := Out.bind_eq_ok.mp hb
  obtain ⟨d, _, hb⟩ := Out.bind_eq_ok.mp hb
  exact set2_rect hb hs

theorem replaceConstraintsPart_shape {c : Cfg} {r1 r2 q : Part} {row : Int} (hr : PShape r1)
    (h : replaceConstraintsPart c r1 r2 row = .ok q) : PShape q ∧ q.nb_rows = r1.nb_rows ∧
      q.nb_columns = r1.nb_columns := by
  unfold replaceConstraintsPart at h
  split at h
  · cases h
  · obtain ⟨m, h1, h⟩ := Out.bind_eq_ok.mp h
    simp only [Out.pure_eq, Out.ok.injEq] at h
    subst h
    exact ⟨⟨copyBlock_rect h1 hr.1, hr.2⟩, rfl, rfl⟩

theorem from_vector_shape {c : Cfg} {v : Option Vec} {s : Rel} (h : from_vector c v = .ok s) : Shape s := by
  unfold from_vector at h
  split at h
  · injection h with h; subst h; exact shape_nil
  · obtain ⟨node, h1, h⟩ := Out.bind_eq_ok.mp h
    obtain ⟨e1, e2, e3, e4, e5⟩ := pmalloc_shape h1
    simp only [replace_vector] at h
    obtain ⟨q, h2, h⟩ := Out.bind_eq_ok.mp h
    simp only [Out.pure_eq, Out.ok.injEq] at h
    subst h
    refine shape_cons.mpr ⟨replaceVectorPart_shape ⟨?_, by rw [e2]; exact e5⟩ h2, shape_nil⟩
    rw [e1, e2]; exact e3

theorem insert_constraints_shape {c : Cfg} {r s q : Rel} {row : Int} (hr : Shape r)
    (h : insert_constraints c r s row = .ok q) : Shape q := by
  unfold insert_constraints at h
  split at h
  · rename_i p1 rest p2 rest2
    simp only at h
    have key : ∀ row : Int, (if p1.nb_columns ≠ p2.nb_columns ∨ p1.precision ≠ p2.precision ∨ row > p1.nb_rows ∨ row < 0
        then Out.err else do
          let temp ← pmalloc c p1.precision (p1.nb_rows + p2.nb_rows) p1.nb_columns
          let m ← copyBlock c p1.precision p1.m 0 row 0 0 0 p1.nb_columns 0 0 temp.m
          let temp ← replaceConstraintsPart c { temp with m := m } p2 row
          let m ← copyBlock c p1.precision p1.m (row + p2.nb_rows) (p2.nb_rows + p1.nb_rows) 0
            (-p2.nb_rows) 0 p1.nb_columns 0 0 temp.m
          pure ({ p1 with nb_rows := temp.nb_rows, m := m } :: rest)) = Out.ok q → Shape q := by
      intro row h
      split at h
      · cases h
      · obtain ⟨node, h1, h⟩ := Out.bind_eq_ok.mp h
        obtain ⟨m, h2, h⟩ := Out.bind_eq_ok.mp h
        obtain ⟨t, h3, h⟩ := Out.bind_eq_ok.mp h
        obtain ⟨m2, h4, h⟩ := Out.bind_eq_ok.mp h
        simp only [Out.pure_eq, Out.ok.injEq] at h
        subst h
        obtain ⟨e1, e2, e3, e4, e5⟩ := pmalloc_shape h1
        have hrm := copyBlock_rect h2 e3
        obtain ⟨f1, f2, f3⟩ := replaceConstraintsPart_shape (r1 := { node with m := m })
          ⟨by simp only [e1, e2]; exact hrm, by simp only [e2]; exact e5⟩ h3
        simp only at f2 f3
        have := copyBlock_rect h4 f1.1
        rw [f2, f3, e1, e2] at this
        refine shape_cons.mpr ⟨⟨?_, ?_⟩, (shape_cons.mp hr).2⟩
        · simp only [f2, e1]; exact this
        · simp only; exact e5
    exact key _ h
  · injection h with h; subst h; exact hr

theorem concat_constraints_shape {c : Cfg} {r s q : Rel}
    (h : concat_constraints c r s = .ok q) : Shape q := by
  unfold concat_constraints at h
  split at h
  · exact clone_shape h
  · exact clone_shape h
  · split at h
    · cases h
    · obtain ⟨node, h1, h⟩ := Out.bind_eq_ok.mp h
      obtain ⟨n1, h2, h⟩ := Out.bind_eq_ok.mp h
      obtain ⟨n2, h3, h⟩ := Out.bind_eq_ok.mp h
      simp only [Out.pure_eq, Out.ok.injEq] at h
      subst h
      obtain ⟨e1, e2, e3, e4, e5⟩ := pmalloc_shape h1
      obtain ⟨f1, f2, f3⟩ := replaceConstraintsPart_shape ⟨by rw [e1, e2]; exact e3, by rw [e2]; exact e5⟩ h2
      obtain ⟨g1, g2, g3⟩ := replaceConstraintsPart_shape f1 h3
      exact shape_cons.mpr ⟨g1, shape_nil⟩

theorem insert_vector_shape {c : Cfg} {r q : Rel} {v : Option Vec} {row : Int} (hr : Shape r)
    (h : insert_vector c r v row = .ok q) : Shape q := by
  unfold insert_vector at h
  obtain ⟨t, h1, h⟩ := Out.bind_eq_ok.mp h
  exact insert_constraints_shape hr h

theorem extendPart_shape {c : Cfg} {prec : Int} {p q : Part} {dim : Int}
    (h : extendPart c prec p dim = .ok q) : PShape q := by
  unfold extendPart at h
  split at h
  · cases h
  · simp only at h
    obtain ⟨node, h1, h⟩ := Out.bind_eq_ok.mp h
    split at h
    · cases h
    · obtain ⟨m1, h2, h⟩ := Out.bind_eq_ok.mp h
      obtain ⟨m2, h3, h⟩ := Out.bind_eq_ok.mp h
      obtain ⟨m3, h4, h⟩ := Out.bind_eq_ok.mp h
      simp only [Out.pure_eq, Out.ok.injEq] at h
      subst h
      obtain ⟨e1, e2, e3, e4, e5⟩ := pmalloc_shape h1
      have hm2 := copyBlock_rect h3 (copyBlock_rect h2 e3)
      have hm3 : Rect m3 (p.nb_rows + (dim - p.nb_output_dims)) (p.nb_columns + (dim - p.nb_output_dims)) := by
        refine loop_pres (fun d => Rect d (p.nb_rows + (dim - p.nb_output_dims))
          (p.nb_columns + (dim - p.nb_output_dims))) h4 ?_ hm2
        intro i s s' hb hs
        refine loop_pres (fun d => Rect d (p.nb_rows + (dim - p.nb_output_dims))
          (p.nb_columns + (dim - p.nb_output_dims))) hb ?_ hs
        intro j s s' hb hs
        split at hb
        · obtain ⟨v, _, hb⟩ := Out.bind_eq_ok.mp hb
          exact set2_rect hb hs
        · injection hb with hb; exact hb ▸ hs
      exact ⟨by simp only [e1, e2]; exact hm3, by simp only [e2]; exact e5⟩

theorem setPrecisionPart_shape {c : Cfg} {prec : Int} {p q : Part} (hp : PShape p)
    (h : setPrecisionPart c prec p = .ok q) : PShape q := by
  unfold setPrecisionPart at h
  split at h
  · obtain ⟨m, h1, h⟩ := Out.bind_eq_ok.mp h
    simp only [Out.pure_eq, Out.ok.injEq] at h
    subst h
    have : Rect m p.nb_rows p.nb_columns := by
      refine loop_pres (fun d => Rect d p.nb_rows p.nb_columns) h1 ?_ hp.1
      intro i s s' hb hs
      refine loop_pres (fun d => Rect d p.nb_rows p.nb_columns) hb ?_ hs
      intro j s s' hb hs
      obtain ⟨v, _, hb⟩ := Out.bind_eq_ok.mp hb
      obtain ⟨v, _, hb⟩ := Out.bind_eq_ok.mp hb
      exact set2_rect hb hs
    exact ⟨this, hp.2⟩
  · injection h with h; exact h ▸ hp

/-- C19, one step: a successful operation on a well-shaped relation (with well-shaped relation
arguments) yields a well-shaped relation. -/
theorem relation_step_shape {c : Cfg} {r r' : Rel} {op : Op} (hr : Shape r) (ha : Shape op.args)
    (h : step c r op = .ok r') : Shape r' := by
  cases op with
  | clone => exact clone_shape h
  | nclone n => exact nclone_shape h
  | cloneNconstraints n =>
    refine (shape_iff _).mpr (mapOut_forall PShape h (fun a _ b hb => ?_))
    simp only at hb
    generalize (if n = -1 then a.nb_rows else n) = k at hb
    split at hb
    · cases hb
    · exact clonePart_shape hb
  | add s => simp only [step, Out.ok.injEq] at h; subst h; exact shape_append hr ha
  | union s =>
    simp only [step, Rel.union] at h
    split at h
    · injection h with h; subst h; exact shape_nil
    · obtain ⟨a, h1, h⟩ := Out.bind_eq_ok.mp h
      obtain ⟨b, h2, h⟩ := Out.bind_eq_ok.mp h
      simp only [Out.pure_eq, Out.ok.injEq] at h
      subst h
      exact shape_append (clone_shape h1) (clone_shape h2)
  | replaceVector v row =>
    simp only [step, replace_vector] at h
    split at h
    · cases h
    · obtain ⟨q, h1, h⟩ := Out.bind_eq_ok.mp h
      simp only [Out.pure_eq, Out.ok.injEq] at h
      subst h
      exact shape_cons.mpr ⟨replaceVectorPart_shape (shape_cons.mp hr).1 h1, (shape_cons.mp hr).2⟩
  | addVector v row =>
    simp only [step, add_vector] at h
    split at h
    · split at h
      · cases h
      · obtain ⟨q, h1, h⟩ := Out.bind_eq_ok.mp h
        simp only [Out.pure_eq, Out.ok.injEq] at h
        subst h
        have := combineRow_shape (shape_cons.mp hr).1 h1
        exact shape_cons.mpr ⟨⟨this, (shape_cons.mp hr).1.2⟩, (shape_cons.mp hr).2⟩
    · cases h
  | subVector v row =>
    simp only [step, sub_vector] at h
    split at h
    · split at h
      · cases h
      · obtain ⟨q, h1, h⟩ := Out.bind_eq_ok.mp h
        simp only [Out.pure_eq, Out.ok.injEq] at h
        subst h
        have := combineRow_shape (shape_cons.mp hr).1 h1
        exact shape_cons.mpr ⟨⟨this, (shape_cons.mp hr).1.2⟩, (shape_cons.mp hr).2⟩
    · cases h
  | insertVector v row => exact insert_vector_shape hr h
  | concatVector v =>
    simp only [step, concat_vector] at h
    obtain ⟨t, h1, h⟩ := Out.bind_eq_ok.mp h
    exact concat_constraints_shape h
  | replaceConstraints s row =>
    simp only [step, replace_constraints] at h
    split at h
    · obtain ⟨q, h1, h⟩ := Out.bind_eq_ok.mp h
      simp only [Out.pure_eq, Out.ok.injEq] at h
      subst h
      exact shape_cons.mpr ⟨(replaceConstraintsPart_shape (shape_cons.mp hr).1 h1).1, (shape_cons.mp hr).2⟩
    · cases h
  | insertConstraints s row => exact insert_constraints_shape hr h
  | concatConstraints s => exact concat_constraints_shape h
  | insertBlankRow row =>
    simp only [step, insert_blank_row] at h
    split at h
    · injection h with h; subst h; exact shape_nil
    · obtain ⟨v, h1, h⟩ := Out.bind_eq_ok.mp h
      exact insert_vector_shape hr h
  | insertBlankColumn col =>
    simp only [step, insert_blank_column] at h
    split at h
    · injection h with h; subst h; exact shape_nil
    · split at h
      · cases h
      · obtain ⟨node, h1, h⟩ := Out.bind_eq_ok.mp h
        obtain ⟨m1, h2, h⟩ := Out.bind_eq_ok.mp h
        obtain ⟨m2, h3, h⟩ := Out.bind_eq_ok.mp h
        simp only [Out.pure_eq, Out.ok.injEq] at h
        subst h
        obtain ⟨e1, e2, e3, e4, e5⟩ := pmalloc_shape h1
        have := copyBlock_rect h3 (copyBlock_rect h2 e3)
        exact shape_cons.mpr ⟨⟨by simp only [e2]; exact this, by simp only [e2]; exact e5⟩, (shape_cons.mp hr).2⟩
  | swap i j =>
    simp only [step, swap_constraints] at h
    split at h
    · injection h with h; subst h; exact shape_nil
    · split at h
      · injection h with h; subst h; exact hr
      · split at h
        · cases h
        · rename_i p rest _ _
          obtain ⟨m, h1, h⟩ := Out.bind_eq_ok.mp h
          simp only [Out.pure_eq, Out.ok.injEq] at h
          subst h
          have : Rect m p.nb_rows p.nb_columns := by
            refine loop_pres (fun d => Rect d p.nb_rows p.nb_columns) h1 ?_ (shape_cons.mp hr).1.1
            intro j s s' hb hs
            obtain ⟨a, _, hb⟩ := Out.bind_eq_ok.mp hb
            obtain ⟨b, _, hb⟩ := Out.bind_eq_ok.mp hb
            obtain ⟨ab, _, hb⟩ := Out.bind_eq_ok.mp hb
            obtain ⟨m, h1, hb⟩ := Out.bind_eq_ok.mp hb
            exact set2_rect hb (set2_rect h1 hs)
          exact shape_cons.mpr ⟨⟨this, (shape_cons.mp hr).1.2⟩, (shape_cons.mp hr).2⟩
  | removeRow row =>
    simp only [step, remove_row] at h
    split at h
    · injection h with h; subst h; exact shape_nil
    · split at h
      · cases h
      · obtain ⟨node, h1, h⟩ := Out.bind_eq_ok.mp h
        obtain ⟨m1, h2, h⟩ := Out.bind_eq_ok.mp h
        obtain ⟨m2, h3, h⟩ := Out.bind_eq_ok.mp h
        simp only [Out.pure_eq, Out.ok.injEq] at h
        subst h
        obtain ⟨e1, e2, e3, e4, e5⟩ := pmalloc_shape h1
        have := copyBlock_rect h3 (copyBlock_rect h2 e3)
        exact shape_cons.mpr ⟨⟨by simp only [e1]; exact this, e5⟩, (shape_cons.mp hr).2⟩
  | removeColumn col =>
    simp only [step, remove_column] at h
    split at h
    · injection h with h; subst h; exact shape_nil
    · split at h
      · cases h
      · obtain ⟨node, h1, h⟩ := Out.bind_eq_ok.mp h
        obtain ⟨m1, h2, h⟩ := Out.bind_eq_ok.mp h
        obtain ⟨m2, h3, h⟩ := Out.bind_eq_ok.mp h
        simp only [Out.pure_eq, Out.ok.injEq] at h
        subst h
        obtain ⟨e1, e2, e3, e4, e5⟩ := pmalloc_shape h1
        have := copyBlock_rect h3 (copyBlock_rect h2 e3)
        exact shape_cons.mpr ⟨⟨by simp only [e2]; exact this, by simp only [e2]; exact e5⟩, (shape_cons.mp hr).2⟩
  | insertColumns s col =>
    simp only [step, insert_columns] at h
    split at h
    · split at h
      · cases h
      · obtain ⟨node, h1, h⟩ := Out.bind_eq_ok.mp h
        obtain ⟨m1, h2, h⟩ := Out.bind_eq_ok.mp h
        obtain ⟨m2, h3, h⟩ := Out.bind_eq_ok.mp h
        obtain ⟨m3, h4, h⟩ := Out.bind_eq_ok.mp h
        simp only [Out.pure_eq, Out.ok.injEq] at h
        subst h
        obtain ⟨e1, e2, e3, e4, e5⟩ := pmalloc_shape h1
        have := copyBlock_rect h4 (copyBlock_rect h3 (copyBlock_rect h2 e3))
        exact shape_cons.mpr ⟨⟨by simp only [e2]; exact this, by simp only [e2]; exact e5⟩, (shape_cons.mp hr).2⟩
    · injection h with h; subst h; exact hr
  | setAttributes o i l p =>
    simp only [step, Out.ok.injEq] at h
    subst h
    refine (shape_iff _).mpr ?_
    intro q hq
    simp only [set_attributes, List.mem_map] at hq
    obtain ⟨q0, h0, rfl⟩ := hq
    exact (shape_iff _).mp hr q0 h0
  | setType t =>
    simp only [step, Out.ok.injEq] at h
    subst h
    refine (shape_iff _).mpr ?_
    intro q hq
    simp only [set_type, List.mem_map] at hq
    obtain ⟨q0, h0, rfl⟩ := hq
    exact (shape_iff _).mp hr q0 h0
  | extendOutput dim =>
    simp only [step, extend_output] at h
    split at h
    · cases h
    · exact (shape_iff _).mpr (mapOut_forall PShape h (fun a _ b hb => extendPart_shape hb))
  | setPrecision p =>
    simp only [step, set_precision] at h
    exact (shape_iff _).mpr (mapOut_forall PShape h
      (fun a ha b hb => setPrecisionPart_shape ((shape_iff _).mp hr a ha) hb))

/-- C19: after any sequence of successful operations from a well-shaped relation the matrices
have the advertised shape. -/
theorem relation_history_shape {c : Cfg} {ops : List Op} {r r' : Rel} (hr : Shape r)
    (ha : ∀ op ∈ ops, Shape op.args) (h : run c r ops = .ok r') : Shape r' := by
  induction ops generalizing r with
  | nil => simp [run] at h; exact h ▸ hr
  | cons op ops ih =>
    simp only [run] at h
    obtain ⟨r1, h1, h⟩ := Out.bind_eq_ok.mp h
    exact ih (relation_step_shape hr (ha op (by simp)) h1) (fun op hop => ha op (by simp [hop])) h

/-- C19: a freshly allocated relation is well-shaped. -/
theorem relation_pmalloc_shape {c : Cfg} {p R C : Int} {node : Part} (h : pmalloc c p R C = .ok node) :
    Shape [node] := by
  obtain ⟨e1, e2, e3, e4, e5⟩ := pmalloc_shape h
  exact shape_cons.mpr ⟨⟨by rw [e1, e2]; exact e3, by rw [e2]; exact e5⟩, shape_nil⟩

example : ∃ r', run Cfg.std [exDomain] [.insertBlankColumn 1, .insertVector (some ⟨64, [0, 1, 1, 1, 1]⟩) 0, .swap 0 2,
    .removeRow 1, .extendOutput 3] = .ok r' ∧ Shape r' := by
  obtain ⟨r', h⟩ : ∃ r', run Cfg.std [exDomain] [.insertBlankColumn 1, .insertVector (some ⟨64, [0, 1, 1, 1, 1]⟩) 0,
      .swap 0 2, .removeRow 1, .extendOutput 3] = .ok r' := ⟨_, rfl⟩
  refine ⟨r', h, relation_history_shape ?_ ?_ h⟩
  · exact shape_cons.mpr ⟨⟨by decide, by decide⟩, shape_nil⟩
  · intro op hop
    simp only [List.mem_cons, List.not_mem_nil, or_false] at hop
    rcases hop with rfl | rfl | rfl | rfl | rfl <;> exact shape_nil

end Rel
end Osl
