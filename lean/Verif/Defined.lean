import Verif.StoredVec
import Verif.IntExact
/-!
# C83: the functions on relations, vectors and relation lists have no undefined behaviour

A relation which the library has made has the matrix its header announces, and integers of its precision (C82).  Here: on such relations the functions of source/relation.c,
source/vector.c and source/relation_list.c either succeed or stop with the error of the library; they never index a matrix out of its bounds, and what their arithmetic needs
is said for each.
-/

namespace Osl

/-! ## Sequences, loops and matrices -/

theorem bind_defined {α β : Type} {x : Out α} {f : α → Out β} (h : x ≠ .ub) (hf : ∀ a, x = .ok a → f a ≠ .ub) : (x >>= f) ≠ .ub := by
  cases x with
  | ok a => exact hf a rfl
  | err => intro e; cases e
  | ub => exact absurd rfl h

theorem mapOut_defined {α β : Type} {f : α → Out β} {l : List α} (h : ∀ a ∈ l, f a ≠ .ub) : Out.mapOut f l ≠ .ub := by
  induction l with
  | nil => intro e; cases e
  | cons a l ih =>
    unfold Out.mapOut
    have h1 := h a List.mem_cons_self
    have h2 := ih (fun b hb => h b (List.mem_cons_of_mem _ hb))
    cases h3 : f a with
    | ub => exact absurd h3 h1
    | err => intro e; cases e
    | ok b =>
      cases h4 : Out.mapOut f l with
      | ub => exact absurd h4 h2
      | err => intro e; cases e
      | ok bs => intro e; cases e

theorem loop_defined {σ : Type} (P : σ → Prop) {body : Int → σ → Out σ} {lo hi : Int} {s : σ}
    (hb : ∀ i s, lo ≤ i → i < hi → P s → body i s ≠ .ub ∧ ∀ s', body i s = .ok s' → P s') (h0 : P s) : loop lo hi body s ≠ .ub := by
  unfold loop
  have key : ∀ (k : Nat) (i : Int) (s : σ), lo ≤ i → i + k ≤ max lo hi → P s → loopN body k i s ≠ .ub := by
    intro k
    induction k with
    | zero => intro i s _ _ _ e; cases e
    | succ k ih =>
      intro i s h1 h2 h3
      have hi' : i < hi := by omega
      obtain ⟨h4, h5⟩ := hb i s h1 hi' h3
      simp only [loopN]
      cases h6 : body i s with
      | ub => exact absurd h6 h4
      | err => intro e; cases e
      | ok s' => exact ih (i + 1) s' (by omega) (by omega) (h5 s' h6)
  exact key _ lo s (by omega) (by omega) h0

theorem get2_defined {m : Matrix} {R C i j : Int} (h : Rect m R C) (hi : 0 ≤ i) (hi' : i < R) (hj : 0 ≤ j) (hj' : j < C) : get2 m i j ≠ .ub := by
  rw [get2_ok h hi hi' hj hj']; intro e; cases e

theorem set2_defined {m : Matrix} {R C i j : Int} (h : Rect m R C) (hi : 0 ≤ i) (hi' : i < R) (hj : 0 ≤ j) (hj' : j < C) (v : Int) : set2 m i j v ≠ .ub := by
  obtain ⟨m', h', _⟩ := set2_ok h hi hi' hj hj' v
  rw [h']; intro e; cases e

namespace OInt
variable {c : Cfg} {p : Int}

theorem assign_defined {v : Int} : assign c p v ≠ .ub := by unfold assign; split <;> (intro e; cases e)
theorem set_si_defined {v : Int} : set_si c p v ≠ .ub := by unfold set_si; split <;> (intro e; cases e)
theorem init_set_si_defined {v : Int} : init_set_si c p v ≠ .ub := by unfold init_set_si; split <;> (intro e; cases e)
theorem zero_defined {v : Int} : zero c p v ≠ .ub := by unfold zero; split <;> (intro e; cases e)
theorem one_defined {v : Int} : one c p v ≠ .ub := by unfold one; split <;> (intro e; cases e)
theorem swap_defined {a b : Int} : swap c p a b ≠ .ub := by unfold swap; split <;> (intro e; cases e)
theorem eq_defined {a b : Int} : eq c p a b ≠ .ub := by unfold eq; split <;> (intro e; cases e)
theorem ne_defined {a b : Int} : ne c p a b ≠ .ub := bind_defined eq_defined (fun _ _ e => by cases e)
theorem get_si_defined {v : Int} : get_si c p v ≠ .ub := by
  unfold get_si
  split
  · split
    · intro e; cases e
    · split <;> (intro e; cases e)
  · split <;> (intro e; cases e)
  · intro e; cases e
theorem set_precision_defined {q v : Int} : set_precision c p q v ≠ .ub := by
  unfold set_precision
  split
  · exact bind_defined get_si_defined (fun _ _ => init_set_si_defined)
  · intro e; cases e

/-- An addition is undefined only if it overflows in a build without assertions, or if a negative integer is added to the least one. -/
theorem add_defined (hc : c.Valid) (hd : c.ndebug = false) {a b : Int} (ha : InPrec c p a) (hb : InPrec c p b) (hm : ¬ IsMin c p b) : add c p a b ≠ .ub := by
  obtain ⟨h1, h2, _⟩ := int_add_cases hc ha hb
  by_cases h : InPrec c p (a + b)
  · rw [h1 h]; intro e; cases e
  · rw [h2 h hd (fun h => hm h.2)]; intro e; cases e

theorem sub_defined (hc : c.Valid) (hd : c.ndebug = false) {a b : Int} (ha : InPrec c p a) (hb : InPrec c p b) (hm : ¬ IsMin c p b) : sub c p a b ≠ .ub := by
  obtain ⟨h1, h2, _⟩ := (int_sub_cases hc ha hb).1 hm
  by_cases h : InPrec c p (a - b)
  · rw [h1 h]; intro e; cases e
  · rw [h2 h hd]; intro e; cases e

theorem add_si_defined (hc : c.Valid) (hd : c.ndebug = false) {a i : Int} (ha : InPrec c p a) (hi : fits 32 i) (hm : i ≠ cMin 32) : add_si c p a i ≠ .ub := by
  obtain ⟨h1, h2, _⟩ := (int_add_si_cases hc ha hi).1 (fun h => hm h.2.2.1)
  by_cases h : InPrec c p (a + i)
  · rw [h1 h]; intro e; cases e
  · rw [h2 h hd]; intro e; cases e

theorem mul_si_defined {a i : Int} (ha : InPrec c p a) (h : InPrec c p (a * i)) : mul_si c p a i ≠ .ub := by
  unfold mul_si
  unfold InPrec at h ha
  cases hk : kind c p with
  | none => intro e; cases e
  | some k =>
    cases k with
    | mp => intro e; cases e
    | fixed w =>
      simp only [hk] at h ha ⊢
      rw [show sarith c w (a * i) = .ok (a * i) from if_pos h]
      simp only [Out.ok_bind]
      split
      · next hn =>
        have hq : sdiv w (a * i) i = .ok a := by
          unfold sdiv
          rw [if_neg hn.2.2, Int.mul_tdiv_cancel _ hn.2.2, if_pos ha]
        rw [hq]
        simp only [Out.ok_bind]
        split <;> (intro e; cases e)
      · intro e; cases e

end OInt

theorem copyBlock_defined {c : Cfg} {p : Int} {src dst : Matrix} {R C R' C' ilo ihi dro sro jlo jhi dco sco : Int} (hs : Rect src R' C') (hd : Rect dst R C)
    (hi : ilo < ihi → 0 ≤ ilo + dro ∧ ihi + dro ≤ R ∧ 0 ≤ ilo + sro ∧ ihi + sro ≤ R')
    (hj : ilo < ihi → jlo < jhi → 0 ≤ jlo + dco ∧ jhi + dco ≤ C ∧ 0 ≤ jlo + sco ∧ jhi + sco ≤ C') : copyBlock c p src ilo ihi dro sro jlo jhi dco sco dst ≠ .ub := by
  by_cases hk : kind c p = none
  · unfold copyBlock
    refine loop_defined (fun d => Rect d R C) (fun i d h1 h2 h3 => ⟨?_, fun d' h => ?_⟩) hd
    · have := hi (by omega)
      refine loop_defined (fun d => Rect d R C) (fun j d h4 h5 h6 => ⟨?_, fun d' h => ?_⟩) h3
      · have := hj (by omega) (by omega)
        refine bind_defined (get2_defined hs (by omega) (by omega) (by omega) (by omega)) (fun v _ => ?_)
        refine bind_defined OInt.assign_defined (fun w _ => ?_)
        exact set2_defined h6 (by omega) (by omega) (by omega) (by omega) w
      · obtain ⟨_, _, h⟩ := Out.bind_eq_ok.mp h
        obtain ⟨_, _, h⟩ := Out.bind_eq_ok.mp h
        exact Rel.set2_rect h h6
    · refine Rel.loop_pres (fun d => Rect d R C) h (fun j s s' hb hs => ?_) h3
      obtain ⟨_, _, hb⟩ := Out.bind_eq_ok.mp hb
      obtain ⟨_, _, hb⟩ := Out.bind_eq_ok.mp hb
      exact Rel.set2_rect hb hs
  · obtain ⟨d, h, _⟩ := copyBlock_ok hk hs hd hi hj
    rw [h]; intro e; cases e

namespace Rel
open OInt

variable {c : Cfg}

theorem pmalloc_defined {p R C : Int} : pmalloc c p R C ≠ .ub := by
  unfold pmalloc
  split
  · intro e; cases e
  · split
    · intro e; cases e
    · simp only
      split
      · intro e; cases e
      · split <;> (intro e; cases e)

theorem clonePart_defined {r : Part} {n : Int} (h : PShape r) (hn : n ≤ r.nb_rows) : clonePart c r n ≠ .ub := by
  unfold clonePart
  refine bind_defined pmalloc_defined (fun node h1 => ?_)
  obtain ⟨e1, e2, e3, e4, e5⟩ := pmalloc_shape h1
  exact bind_defined (copyBlock_defined h.1 e3 (by omega) (by omega)) (fun _ _ e => by cases e)

/-- C83: copies. -/
theorem nclone_defined {r : Rel} {n : Int} (h : Shape r) : nclone c r n ≠ .ub := by
  unfold nclone
  simp only
  generalize (if n = -1 then nb_components r else n) = k
  split
  · intro e; cases e
  · exact mapOut_defined (fun p hp => clonePart_defined ((shape_iff r).mp h p (List.mem_of_mem_take hp)) (by omega))

theorem clone_defined {r : Rel} (h : Shape r) : clone c r ≠ .ub := by
  unfold clone
  split
  · intro e; cases e
  · exact nclone_defined h

theorem clone_nconstraints_defined {r : Rel} {n : Int} (h : Shape r) : clone_nconstraints c r n ≠ .ub := by
  unfold clone_nconstraints
  refine mapOut_defined (fun p hp => ?_)
  simp only
  generalize (if n = -1 then p.nb_rows else n) = k
  split
  · intro e; cases e
  · exact clonePart_defined ((shape_iff r).mp h p hp) (by omega)

/-- C83: unions. -/
theorem union_defined {r s : Rel} (hr : Shape r) (hs : Shape s) : union c r s ≠ .ub := by
  unfold union
  split
  · intro e; cases e
  · exact bind_defined (clone_defined hr) (fun _ _ => bind_defined (clone_defined hs) (fun _ _ e => by cases e))

theorem replaceConstraintsPart_defined {p q : Part} {row : Int} (hp : PShape p) (hq : PShape q) : replaceConstraintsPart c p q row ≠ .ub := by
  unfold replaceConstraintsPart
  split
  · intro e; cases e
  · next h =>
    have h1 : p.nb_columns = q.nb_columns := Classical.byContradiction (fun e => h (.inr (.inl e)))
    exact bind_defined (copyBlock_defined hq.1 hp.1 (by omega) (by omega)) (fun _ _ e => by cases e)

/-- C83: insertions and concatenations of constraints. -/
theorem insert_constraints_defined {r s : Rel} {row : Int} (hr : Shape r) (hs : Shape s) : insert_constraints c r s row ≠ .ub := by
  unfold insert_constraints
  split
  · next p rest q rest' =>
    have hp := (shape_cons.mp hr).1
    have hq := (shape_cons.mp hs).1
    have h0 := hq.1.1
    simp only
    generalize (if row = -1 then p.nb_rows else row) = k
    split
    · intro e; cases e
    · next h =>
      have h1 : p.nb_columns = q.nb_columns := Classical.byContradiction (fun e => h (.inl e))
      refine bind_defined pmalloc_defined (fun temp h2 => ?_)
      obtain ⟨e1, e2, e3, e4, e5⟩ := pmalloc_shape h2
      refine bind_defined (copyBlock_defined hp.1 e3 (by omega) (by omega)) (fun m h3 => ?_)
      have hm := copyBlock_rect h3 e3
      refine bind_defined (replaceConstraintsPart_defined ⟨by simpa only [e1, e2] using hm, by simpa only [e2] using e5⟩ hq) (fun t h4 => ?_)
      obtain ⟨ht, h5, h6⟩ := replaceConstraintsPart_shape (r1 := { temp with m := m }) ⟨by simpa only [e1, e2] using hm, by simpa only [e2] using e5⟩ h4
      simp only [e1, e2] at h5 h6
      refine bind_defined (copyBlock_defined hp.1 ht.1 ?_ ?_) (fun _ _ e => by cases e) <;> omega
  · intro e; cases e

theorem concat_constraints_defined {r s : Rel} (hr : Shape r) (hs : Shape s) : concat_constraints c r s ≠ .ub := by
  unfold concat_constraints
  split
  · exact clone_defined hs
  · exact clone_defined hr
  · next p _ q _ =>
    have hp := (shape_cons.mp hr).1
    have hq := (shape_cons.mp hs).1
    split
    · intro e; cases e
    · refine bind_defined pmalloc_defined (fun new h2 => ?_)
      obtain ⟨e1, e2, e3, e4, e5⟩ := pmalloc_shape h2
      have hn : PShape new := ⟨by rw [e1, e2]; exact e3, by rw [e2]; exact e5⟩
      refine bind_defined (replaceConstraintsPart_defined hn hp) (fun t h4 => ?_)
      refine bind_defined (replaceConstraintsPart_defined (replaceConstraintsPart_shape hn h4).1 hq) (fun _ _ e => by cases e)

theorem replaceVectorPart_defined {p : Part} {v : Option Vec} {row : Int} (hp : PShape p) : replaceVectorPart c p v row ≠ .ub := by
  unfold replaceVectorPart
  split
  · intro e; cases e
  · next v =>
    split
    · intro e; cases e
    · next h =>
      have h' : p.nb_columns = v.size ∧ row < p.nb_rows ∧ 0 ≤ row := by
        unfold vectorGuard at h
        simp only [Bool.or_eq_true, decide_eq_true_eq, not_or, Int.not_le, ne_eq, Classical.not_not] at h
        exact ⟨h.1.1.2, by omega, by omega⟩
      exact bind_defined (copyBlock_defined (R' := 1) (C' := v.size) ⟨rfl, by simp⟩ hp.1 (by have := h'.2; omega) (by have := h'.1; omega)) (fun _ _ e => by cases e)

theorem replace_vector_defined {r : Rel} {v : Option Vec} {row : Int} (hr : Shape r) : replace_vector c r v row ≠ .ub := by
  unfold replace_vector
  split
  · intro e; cases e
  · exact bind_defined (replaceVectorPart_defined (shape_cons.mp hr).1) (fun _ _ e => by cases e)

theorem from_vector_defined {v : Option Vec} : from_vector c v ≠ .ub := by
  unfold from_vector
  split
  · intro e; cases e
  · exact bind_defined pmalloc_defined (fun _ h => replace_vector_defined (relation_pmalloc_shape h))

theorem insert_vector_defined {r : Rel} {v : Option Vec} {row : Int} (hr : Shape r) : insert_vector c r v row ≠ .ub :=
  bind_defined from_vector_defined (fun _ h => insert_constraints_defined hr (from_vector_shape h))

theorem concat_vector_defined {r : Rel} {v : Option Vec} (hr : Shape r) : concat_vector c r v ≠ .ub :=
  bind_defined from_vector_defined (fun _ h => concat_constraints_defined hr (from_vector_shape h))

theorem insert_blank_row_defined {r : Rel} {row : Int} (hr : Shape r) : insert_blank_row c r row ≠ .ub := by
  unfold insert_blank_row
  split
  · intro e; cases e
  · refine bind_defined ?_ (fun _ _ => insert_vector_defined hr)
    unfold Vec.pmalloc
    split
    · intro e; cases e
    · split
      · intro e; cases e
      · intro e; cases e
      · next h => exact absurd h (mapOut_defined (fun _ _ => OInt.init_set_si_defined))

/-- C83: columns and rows. -/
theorem insert_blank_column_defined {r : Rel} {column : Int} (hr : Shape r) : insert_blank_column c r column ≠ .ub := by
  unfold insert_blank_column
  split
  · intro e; cases e
  · next p rest =>
    have hp := (shape_cons.mp hr).1
    split
    · intro e; cases e
    · refine bind_defined pmalloc_defined (fun temp h2 => ?_)
      obtain ⟨e1, e2, e3, e4, e5⟩ := pmalloc_shape h2
      refine bind_defined (copyBlock_defined hp.1 e3 (by omega) (by omega)) (fun m h3 => ?_)
      exact bind_defined (copyBlock_defined hp.1 (copyBlock_rect h3 e3) (by omega) (by omega)) (fun _ _ e => by cases e)

theorem remove_row_defined {r : Rel} {row : Int} (hr : Shape r) : remove_row c r row ≠ .ub := by
  unfold remove_row
  split
  · intro e; cases e
  · next p rest =>
    have hp := (shape_cons.mp hr).1
    split
    · intro e; cases e
    · refine bind_defined pmalloc_defined (fun temp h2 => ?_)
      obtain ⟨e1, e2, e3, e4, e5⟩ := pmalloc_shape h2
      refine bind_defined (copyBlock_defined hp.1 e3 (by omega) (by omega)) (fun m h3 => ?_)
      exact bind_defined (copyBlock_defined hp.1 (copyBlock_rect h3 e3) (by omega) (by omega)) (fun _ _ e => by cases e)

theorem remove_column_defined {r : Rel} {column : Int} (hr : Shape r) : remove_column c r column ≠ .ub := by
  unfold remove_column
  split
  · intro e; cases e
  · next p rest =>
    have hp := (shape_cons.mp hr).1
    split
    · intro e; cases e
    · refine bind_defined pmalloc_defined (fun temp h2 => ?_)
      obtain ⟨e1, e2, e3, e4, e5⟩ := pmalloc_shape h2
      refine bind_defined (copyBlock_defined hp.1 e3 (by omega) (by omega)) (fun m h3 => ?_)
      exact bind_defined (copyBlock_defined hp.1 (copyBlock_rect h3 e3) (by omega) (by omega)) (fun _ _ e => by cases e)

theorem insert_columns_defined {r s : Rel} {column : Int} (hr : Shape r) (hs : Shape s) : insert_columns c r s column ≠ .ub := by
  unfold insert_columns
  split
  · next p rest q rest' =>
    have hp := (shape_cons.mp hr).1
    have hq := (shape_cons.mp hs).1
    have hq0 := hq.2
    split
    · intro e; cases e
    · refine bind_defined pmalloc_defined (fun temp h2 => ?_)
      obtain ⟨e1, e2, e3, e4, e5⟩ := pmalloc_shape h2
      refine bind_defined (copyBlock_defined hp.1 e3 (by omega) (by omega)) (fun m h3 => ?_)
      refine bind_defined (copyBlock_defined hq.1 (copyBlock_rect h3 e3) (by omega) (by omega)) (fun m h4 => ?_)
      exact bind_defined (copyBlock_defined hp.1 (copyBlock_rect h4 (copyBlock_rect h3 e3)) (by omega) (by omega)) (fun _ _ e => by cases e)
  · intro e; cases e

theorem swap_constraints_defined {r : Rel} {i j : Int} (hr : Shape r) : swap_constraints c r i j ≠ .ub := by
  unfold swap_constraints
  split
  · intro e; cases e
  · next p rest =>
    have hp := (shape_cons.mp hr).1
    split
    · intro e; cases e
    · split
      · intro e; cases e
      · refine bind_defined ?_ (fun _ _ e => by cases e)
        refine loop_defined (fun m => Rect m p.nb_rows p.nb_columns) (fun k m h1 h2 h3 => ⟨?_, fun m' h => ?_⟩) hp.1
        · refine bind_defined (get2_defined h3 (by omega) (by omega) (by omega) (by omega)) (fun a _ => ?_)
          refine bind_defined (get2_defined h3 (by omega) (by omega) (by omega) (by omega)) (fun b _ => ?_)
          refine bind_defined OInt.swap_defined (fun ab _ => ?_)
          refine bind_defined (set2_defined h3 (by omega) (by omega) (by omega) (by omega) _) (fun m' h4 => ?_)
          exact set2_defined (set2_rect h4 h3) (by omega) (by omega) (by omega) (by omega) _
        · obtain ⟨_, _, h⟩ := Out.bind_eq_ok.mp h
          obtain ⟨_, _, h⟩ := Out.bind_eq_ok.mp h
          obtain ⟨_, _, h⟩ := Out.bind_eq_ok.mp h
          obtain ⟨_, h4, h⟩ := Out.bind_eq_ok.mp h
          exact set2_rect h (set2_rect h4 h3)

theorem set_precision_defined {r : Rel} {p : Int} (hr : Shape r) : set_precision c p r ≠ .ub := by
  unfold set_precision
  refine mapOut_defined (fun q hq => ?_)
  have h := (shape_iff r).mp hr q hq
  unfold setPrecisionPart
  split
  · refine bind_defined ?_ (fun _ _ e => by cases e)
    refine loop_defined (fun m => Rect m q.nb_rows q.nb_columns) (fun i m h1 h2 h3 => ⟨?_, fun m' hm => ?_⟩) h.1
    · refine loop_defined (fun m => Rect m q.nb_rows q.nb_columns) (fun j m h4 h5 h6 => ⟨?_, fun m' hm => ?_⟩) h3
      · refine bind_defined (get2_defined h6 (by omega) (by omega) (by omega) (by omega)) (fun a _ => ?_)
        refine bind_defined OInt.set_precision_defined (fun b _ => ?_)
        exact set2_defined h6 (by omega) (by omega) (by omega) (by omega) _
      · obtain ⟨_, _, hm⟩ := Out.bind_eq_ok.mp hm
        obtain ⟨_, _, hm⟩ := Out.bind_eq_ok.mp hm
        exact set2_rect hm h6
    · refine loop_pres (fun m => Rect m q.nb_rows q.nb_columns) hm (fun j s s' hb hs => ?_) h3
      obtain ⟨_, _, hb⟩ := Out.bind_eq_ok.mp hb
      obtain ⟨_, _, hb⟩ := Out.bind_eq_ok.mp hb
      exact set2_rect hb hs
  · intro e; cases e

theorem set_same_precision_defined {r s : Rel} (hr : Shape r) (hs : Shape s) : set_same_precision c r s ≠ .ub := by
  unfold set_same_precision
  split
  · split
    · split
      · exact bind_defined (set_precision_defined hr) (fun _ _ => bind_defined (set_precision_defined hs) (fun _ _ e => by cases e))
      · split
        · exact bind_defined (set_precision_defined hr) (fun _ _ => bind_defined (set_precision_defined hs) (fun _ _ e => by cases e))
        · intro e; cases e
    · intro e; cases e
  · intro e; cases e

/-- C83: an extension needs a relation whose parts have all one precision, and numbers of output dimensions which are not greater than the columns. -/
theorem extend_output_defined {r : Rel} {dim : Int} (hr : Shape r) (h0 : r ≠ [])
    (h : ∀ p ∈ r, ∀ q ∈ r, p.precision = q.precision ∧ -1 ≤ q.nb_output_dims ∧ q.nb_output_dims < q.nb_columns) : extend_output c r dim ≠ .ub := by
  unfold extend_output
  split
  · exact absurd rfl h0
  · next p rest =>
    refine mapOut_defined (fun q hq => ?_)
    obtain ⟨h1, h2, h3⟩ := h p List.mem_cons_self q hq
    have hq := (shape_iff _).mp hr q hq
    have hR := hq.1.1
    unfold extendPart
    split
    · intro e; cases e
    · simp only
      refine bind_defined pmalloc_defined (fun node h4 => ?_)
      obtain ⟨e1, e2, e3, e4, e5⟩ := pmalloc_shape h4
      rw [if_neg (fun e => e h1)]
      refine bind_defined (copyBlock_defined hq.1 e3 (by omega) (by omega)) (fun m h5 => ?_)
      refine bind_defined (copyBlock_defined hq.1 (copyBlock_rect h5 e3) (by omega) (by omega)) (fun m' h6 => ?_)
      refine bind_defined ?_ (fun _ _ e => by cases e)
      have hm := copyBlock_rect h6 (copyBlock_rect h5 e3)
      refine loop_defined (fun m => Rect m (q.nb_rows + (dim - q.nb_output_dims)) (q.nb_columns + (dim - q.nb_output_dims)))
        (fun i m h1 h2 h3 => ⟨?_, fun m' hm => ?_⟩) hm
      · refine loop_defined (fun m => Rect m (q.nb_rows + (dim - q.nb_output_dims)) (q.nb_columns + (dim - q.nb_output_dims)))
          (fun j m h4 h5 h6 => ⟨?_, fun m' hm => ?_⟩) h3
        · split
          · exact bind_defined OInt.set_si_defined (fun v _ => set2_defined h6 (by omega) (by omega) (by omega) (by omega) v)
          · intro e; cases e
        · split at hm
          · obtain ⟨_, _, hm⟩ := Out.bind_eq_ok.mp hm
            exact set2_rect hm h6
          · cases hm; exact h6
      · refine loop_pres (fun m => Rect m (q.nb_rows + (dim - q.nb_output_dims)) (q.nb_columns + (dim - q.nb_output_dims))) hm (fun j s s' hb hs => ?_) h3
        split at hb
        · obtain ⟨_, _, hb⟩ := Out.bind_eq_ok.mp hb
          exact set2_rect hb hs
        · cases hb; exact hs

theorem rowNe_defined {p : Int} {m m' : Matrix} {R C i : Int} (h : Rect m R C) (h' : Rect m' R C) (h0 : 0 ≤ i) (hi : i < R) :
    ∀ (k : Nat) (j : Int), 0 ≤ j → j + k ≤ C → rowNe c p m m' i k j ≠ .ub
  | 0, _, _, _ => by intro e; cases e
  | k + 1, j, hj, hk => by
    unfold rowNe
    rw [get2_ok h h0 hi hj (by omega), get2_ok h' h0 hi hj (by omega)]
    simp only
    split
    · intro e; cases e
    · exact rowNe_defined h h' h0 hi k (j + 1) (by omega) (by omega)
    · intro e; cases e
    · next e => exact absurd e OInt.ne_defined

theorem rowsNe_defined {p : Int} {m m' : Matrix} {R C : Int} (h : Rect m R C) (h' : Rect m' R C) (hC : 0 ≤ C) :
    ∀ (k : Nat) (i : Int), 0 ≤ i → i + k ≤ R → rowsNe c p m m' C.toNat k i ≠ .ub
  | 0, _, _, _ => by intro e; cases e
  | k + 1, i, hi, hk => by
    unfold rowsNe
    split
    · intro e; cases e
    · exact rowsNe_defined h h' hC k (i + 1) (by omega) (by omega)
    · intro e; cases e
    · next e => exact absurd e (rowNe_defined h h' hi (by omega) _ _ (by omega) (by omega))

theorem part_equal_defined {p q : Part} (hp : PShape p) (hq : PShape q) : part_equal c p q ≠ .ub := by
  unfold part_equal
  split
  · intro e; cases e
  · next h =>
    simp only [not_or, Classical.not_not, ne_eq] at h
    have h1 := hp.1.1
    refine bind_defined (rowsNe_defined (R := p.nb_rows) hp.1 ?_ hp.2 _ _ (by omega) (by omega)) (fun _ _ e => by cases e)
    rw [h.2.2.1, h.2.2.2.1]
    exact hq.1

/-- C83: comparisons. -/
theorem equal_defined : ∀ {r s : Rel}, Shape r → Shape s → equal c r s ≠ .ub
  | [], [], _, _ => by unfold equal; intro e; cases e
  | [], _ :: _, _, _ => by unfold equal; intro e; cases e
  | _ :: _, [], _, _ => by unfold equal; intro e; cases e
  | p :: r, q :: s, hr, hs => by
    unfold equal
    split
    · intro e; cases e
    · exact equal_defined (shape_cons.mp hr).2 (shape_cons.mp hs).2
    · intro e; cases e
    · next e => exact absurd e (part_equal_defined (shape_cons.mp hr).1 (shape_cons.mp hs).1)

/-- Spec: the entries of the relation are in the type `int`, and none is its least integer: this is what the extraction of the number of an array needs. -/
def Small (r : Rel) : Prop := ∀ p ∈ r, ∀ row ∈ p.m, ∀ v ∈ row, fits 32 v ∧ v ≠ cMin 32

theorem get2_mem {m : Matrix} {i j v : Int} (h : get2 m i j = .ok v) : ∃ row ∈ m, v ∈ row := by
  unfold get2 at h
  split at h
  · cases h
  · split at h
    · cases h
    · next r hr =>
      split at h
      · cases h
      · next w hw =>
        cases h
        exact ⟨r, List.mem_of_getElem? hr, List.mem_of_getElem? hw⟩

theorem small_div {w : Nat} (hw : w = 32 ∨ w = 64) {a b : Int} (ha : fits 32 a) (hm : a ≠ cMin 32) : fits w (a.tdiv b) := by
  have h1 : (a.tdiv b).natAbs ≤ a.natAbs := by rw [Int.natAbs_tdiv]; exact Nat.div_le_self _ _
  rcases hw with rfl | rfl <;> (simp only [fits, cMin, cMax] at ha hm ⊢; omega)

theorem divisible_defined (hc : c.Valid) {p a b : Int} (ha : fits 32 a) (hm : a ≠ cMin 32) (hb : b ≠ 0) : divisible c p a b ≠ .ub := by
  unfold divisible
  split
  · next w hk =>
    refine bind_defined ?_ (fun _ _ e => by cases e)
    unfold smod
    rw [if_neg hb, if_pos (small_div (kind_fixed hc hk) ha hm)]
    intro e; cases e
  · intro e; cases e
  · intro e; cases e

theorem get_si_small (hc : c.Valid) {p v w : Int} (hv : fits 32 v) (h : get_si c p v = .ok w) : w = v := by
  unfold get_si at h
  split at h
  · split at h
    · cases h
    · split at h
      · cases h
      · cases h; exact wrap_of_fits (.inl rfl) hv
  · split at h
    · cases h
    · cases h
      have h1 : fits c.longBits v := by
        rcases hc with hc | hc <;> rw [hc] <;> (simp only [fits, cMin, cMax] at hv ⊢; omega)
      rw [show mpz_get_si c v = v from if_pos h1]
      exact wrap_of_fits (.inl rfl) hv
  · cases h

theorem arrayIdRows_defined {p : Part} (hp : PShape p) (hC : 3 ≤ p.nb_columns) {k : Int} : arrayIdRows c p k ≠ .ub := by
  unfold arrayIdRows
  refine loop_defined (fun _ => True) (fun i s h1 h2 _ => ⟨?_, fun _ _ => trivial⟩) trivial
  refine bind_defined (get2_defined hp.1 h1 h2 (by omega) (by omega)) (fun a _ => ?_)
  exact bind_defined zero_defined (fun _ _ e => by cases e)

theorem zero_ok {p v : Int} {z : Bool} (h : zero c p v = .ok z) : z = decide (v = 0) := by
  unfold zero at h
  split at h
  · cases h; rfl
  · cases h

theorem arrayIdRows_row {p : Part} {k : Int} {s : Int × Int} (h : arrayIdRows c p k = .ok s) :
    0 ≤ s.1 ∧ (s.1 = 0 ∨ ∃ a, get2 p.m s.2 1 = .ok a ∧ a ≠ 0) := by
  refine loop_pres (fun s : Int × Int => 0 ≤ s.1 ∧ (s.1 = 0 ∨ ∃ a, get2 p.m s.2 1 = .ok a ∧ a ≠ 0)) h (fun i s s' hb hs => ?_) ⟨Int.le_refl _, .inl rfl⟩
  obtain ⟨a, h1, hb⟩ := Out.bind_eq_ok.mp hb
  obtain ⟨z, h2, hb⟩ := Out.bind_eq_ok.mp hb
  cases hb
  rw [zero_ok h2]
  by_cases ha : a = 0
  · simp only [ha, decide_true, if_true]; exact hs
  · simp only [ha, decide_false, Bool.false_eq_true, if_false]
    exact ⟨by have := hs.1; omega, .inr ⟨a, h1, ha⟩⟩

theorem get2_row {m : Matrix} {R C i j v : Int} (hr : Rect m R C) (h : get2 m i j = .ok v) : 0 ≤ i ∧ i < R := by
  unfold get2 at h
  split at h
  · cases h
  · next hn =>
    split at h
    · cases h
    · next r hr' =>
      have := (List.getElem?_eq_some_iff.mp hr').1
      have := hr.1
      omega

theorem arrayIdRowOk_defined {p : Part} (hp : PShape p) {i : Int} (h0 : 0 ≤ i) (hi : i < p.nb_rows) :
    ∀ (k : Nat) (j : Int), 0 ≤ j → j + k ≤ p.nb_columns → arrayIdRowOk c p i k j ≠ .ub
  | 0, _, _, _ => by intro e; cases e
  | k + 1, j, hj, hk => by
    have ih := arrayIdRowOk_defined hp h0 hi k (j + 1) (by omega) (by omega)
    unfold arrayIdRowOk
    split
    · rw [get2_ok hp.1 h0 hi hj (by omega)]
      simp only
      split
      · exact ih
      · intro e; cases e
      · intro e; cases e
      · next e => exact absurd e zero_defined
    · exact ih

theorem arrayIdPart_defined (hc : c.Valid) {p : Part} (hp : PShape p) (hs : Small [p]) {k : Int} : arrayIdPart c p k ≠ .ub := by
  have small : ∀ {i j v : Int}, get2 p.m i j = .ok v → fits 32 v ∧ v ≠ cMin 32 := fun h => by
    obtain ⟨row, h1, h2⟩ := get2_mem h
    exact hs p (by simp) row h1 _ h2
  unfold arrayIdPart
  split
  · intro e; cases e
  · refine bind_defined (arrayIdRows_defined hp (by omega)) (fun s h => ?_)
    split
    · intro e; cases e
    · next h0 =>
      split
      · intro e; cases e
      · obtain ⟨a, ha, hne⟩ := (arrayIdRows_row h).2.resolve_left h0
        obtain ⟨h1, h2⟩ := get2_row hp.1 ha
        simp only
        refine bind_defined (arrayIdRowOk_defined hp h1 h2 _ _ (by omega) (by omega)) (fun z _ => ?_)
        split
        · intro e; cases e
        · refine bind_defined (get2_defined hp.1 h1 h2 (by omega) (by omega)) (fun last hl => ?_)
          rw [ha]
          simp only [Out.ok_bind]
          refine bind_defined (divisible_defined hc (small hl).1 (small hl).2 hne) (fun d _ => ?_)
          split
          · intro e; cases e
          · refine bind_defined get_si_defined (fun l h3 => ?_)
            rw [get_si_small hc (small hl).1 h3]
            obtain ⟨h4, h5⟩ := small hl
            have h6 : fits 32 (-last) ∧ -last ≠ cMin 32 := by simp only [fits, cMin, cMax] at h4 h5 ⊢; omega
            rw [show sarith c 32 (-last) = .ok (-last) from if_pos h6.1]
            simp only [Out.ok_bind]
            refine bind_defined get_si_defined (fun o h7 => ?_)
            rw [get_si_small hc (small ha).1 h7]
            refine bind_defined ?_ (fun id _ => ?_)
            · unfold sdiv
              rw [if_neg hne, if_pos (small_div (.inl rfl) h6.1 h6.2)]
              intro e; cases e
            · split <;> (intro e; cases e)

theorem arrayIdLoop_defined (hc : c.Valid) : ∀ {r : Rel} {ref : Option Int} {a k : Int}, Shape r → Small r → arrayIdLoop c r ref a k ≠ .ub
  | [], _, _, _, _, _ => by unfold arrayIdLoop; intro e; cases e
  | p :: rest, ref, a, k, hr, hs => by
    have ih : ∀ {ref : Option Int} {a k : Int}, arrayIdLoop c rest ref a k ≠ .ub :=
      arrayIdLoop_defined hc (shape_cons.mp hr).2 (fun q hq => hs q (List.mem_cons_of_mem _ hq))
    unfold arrayIdLoop
    split
    · intro e; cases e
    · next e => exact absurd e (arrayIdPart_defined hc (shape_cons.mp hr).1 (fun q hq => hs q (by rw [List.mem_singleton.mp hq]; exact List.mem_cons_self)))
    · intro e; cases e
    · split
      · exact ih
      · split
        · intro e; cases e
        · exact ih

/-- C83: the number of an array. -/
theorem get_array_id_defined (hc : c.Valid) {r : Rel} (hr : Shape r) (hs : Small r) : get_array_id c r ≠ .ub := by
  unfold get_array_id
  split
  · intro e; cases e
  · split
    · exact arrayIdLoop_defined hc hr hs
    · intro e; cases e

theorem tagsOk_defined {p : Part} (hp : PShape p) (hC : 0 < p.nb_columns) : ∀ (k : Nat) (i : Int), 0 ≤ i → i + k ≤ p.nb_rows → tagsOk c p k i ≠ .ub
  | 0, _, _, _ => by intro e; cases e
  | k + 1, i, hi, hk => by
    unfold tagsOk
    rw [get2_ok hp.1 hi (by omega) (Int.le_refl _) hC]
    simp only
    split
    · split
      · intro e; cases e
      · exact tagsOk_defined hp hC k (i + 1) (by omega) (by omega)
    · intro e; cases e

theorem integrityLoop_defined (hc : c.Valid) {eo ei ep : Int} : ∀ {r : Rel}, Shape r → Small r → integrityLoop c eo ei ep r ≠ .ub
  | [], _, _ => by unfold integrityLoop; intro e; cases e
  | p :: rest, hr, hs => by
    have ih := integrityLoop_defined hc (eo := eo) (ei := ei) (ep := ep) (shape_cons.mp hr).2 (fun q hq => hs q (List.mem_cons_of_mem _ hq))
    unfold integrityLoop
    split
    · intro e; cases e
    · split
      · intro e; cases e
      · split
        · intro e; cases e
        · next e =>
          split at e
          · next h => exact absurd e (tagsOk_defined (shape_cons.mp hr).1 h.2 _ _ (Int.le_refl _) (by omega))
          · cases e
        · intro e; cases e
        · split
          · split
            · intro e; cases e
            · next e => exact absurd e (get_array_id_defined hc hr hs)
            · split
              · intro e; cases e
              · exact ih
          · exact ih

/-- C83: the check of integrity. -/
theorem integrity_check_defined (hc : c.Valid) {r : Rel} {t eo ei ep : Int} (hr : Shape r) (hs : Small r) : integrity_check c r t eo ei ep ≠ .ub := by
  unfold integrity_check
  split
  · intro e; cases e
  · split
    · intro e; cases e
    · split
      · intro e; cases e
      · split
        · intro e; cases e
        · split
          · intro e; cases e
          · simp only
            split
            · intro e; cases e
            · split
              · intro e; cases e
              · split
                · intro e; cases e
                · exact integrityLoop_defined hc hr hs

theorem combineRow_defined {op : Int → Int → Out Int} {p : Part} {v : Vec} {row : Int} (hp : PStored c p) (hw : ∀ x ∈ v.v, InPrec c p.precision x) (hop : Closed c p.precision op)
    (hd : ∀ a, InPrec c p.precision a → ∀ b ∈ v.v, op a b ≠ .ub) (h0 : 0 ≤ row) (h1 : row < p.nb_rows) (hs : p.nb_columns = v.size) (hv : v.v ≠ []) : combineRow c op p v row ≠ .ub := by
  have hR : Rect [v.v] 1 v.size := ⟨rfl, by simp⟩
  have hv : 0 < v.v.length := List.length_pos_iff.mpr hv
  have hF : Fit c p.precision [v.v] := by
    intro r hr
    rw [List.mem_singleton.mp hr]
    exact hw
  have hsz : v.size = v.v.length := rfl
  unfold combineRow
  refine bind_defined (get2_defined hp.1.1 h0 h1 (Int.le_refl _) (by omega)) (fun t _ => ?_)
  refine bind_defined get_si_defined (fun i _ => ?_)
  refine bind_defined ?_ (fun m hm => ?_)
  · split
    · refine bind_defined (get2_defined hR (Int.le_refl _) (by omega) (Int.le_refl _) (by omega)) (fun a _ => ?_)
      refine bind_defined assign_defined (fun b _ => ?_)
      exact set2_defined hp.1.1 h0 h1 (Int.le_refl _) (by omega) b
    · intro e; cases e
  · have hm : Rect m p.nb_rows p.nb_columns ∧ Fit c p.precision m := by
      split at hm
      · obtain ⟨a, h2, hm⟩ := Out.bind_eq_ok.mp hm
        obtain ⟨b, h3, hm⟩ := Out.bind_eq_ok.mp hm
        rw [assign_eq h3] at hm
        exact ⟨set2_rect hm hp.1.1, set2_fit hp.2 (get2_fit hF h2) hm⟩
      · cases hm
        exact ⟨hp.1.1, hp.2⟩
    refine loop_defined (fun m => Rect m p.nb_rows p.nb_columns ∧ Fit c p.precision m) (fun j m h2 h3 h4 => ⟨?_, fun m' h => ?_⟩) hm
    · refine bind_defined (get2_defined h4.1 h0 h1 (by omega) (by omega)) (fun a ha => ?_)
      refine bind_defined (get2_defined hR (Int.le_refl _) (by omega) (by omega) (by omega)) (fun b hb => ?_)
      obtain ⟨r, hr, hbr⟩ := get2_mem hb
      rw [List.mem_singleton.mp hr] at hbr
      refine bind_defined (hd a (get2_fit h4.2 ha) b hbr) (fun s _ => ?_)
      exact set2_defined h4.1 h0 h1 (by omega) (by omega) s
    · obtain ⟨a, ha, h⟩ := Out.bind_eq_ok.mp h
      obtain ⟨b, hb, h⟩ := Out.bind_eq_ok.mp h
      obtain ⟨s, h5, h⟩ := Out.bind_eq_ok.mp h
      exact ⟨set2_rect h h4.1, set2_fit h4.2 (hop a b s (get2_fit h4.2 ha) (get2_fit hF hb) h5) h⟩

/-- Spec: a vector which can be added or subtracted: it has entries, and none is the least integer of its precision (C01, C02). -/
def Tame (c : Cfg) (v : Option Vec) : Prop := ∀ x, v = some x → x.v ≠ [] ∧ ∀ a ∈ x.v, ¬ IsMin c x.precision a

theorem vectorGuard_false {p : Part} {v : Vec} {row : Int} (h : ¬ vectorGuard p v row = true) :
    p.precision = v.precision ∧ p.nb_columns = v.size ∧ row < p.nb_rows ∧ 0 ≤ row := by
  unfold vectorGuard at h
  simp only [Bool.or_eq_true, decide_eq_true_eq, not_or, Int.not_le, ne_eq, Classical.not_not] at h
  exact ⟨h.1.1.1, h.1.1.2, by omega, by omega⟩

/-- C83: the addition of a vector to a row. -/
theorem add_vector_defined (hc : c.Valid) (hd : c.ndebug = false) {r : Rel} {v : Option Vec} {row : Int} (hr : Stored c r) (hv : VStored c v) (ht : Tame c v) : add_vector c r v row ≠ .ub := by
  unfold add_vector
  split
  · next p rest v =>
    split
    · intro e; cases e
    · next h =>
      obtain ⟨h1, h2, h3, h4⟩ := vectorGuard_false h
      have hw : ∀ x ∈ v.v, InPrec c p.precision x := by rw [h1]; exact hv v rfl
      refine bind_defined (combineRow_defined (stored_cons.mp hr).1 hw (add_closed hc _) (fun a ha b hb => ?_) h4 h3 h2 (ht v rfl).1) (fun _ _ e => by cases e)
      exact add_defined hc hd ha (hw b hb) (by rw [h1]; exact (ht v rfl).2 b hb)
  · intro e; cases e

theorem sub_vector_defined (hc : c.Valid) (hd : c.ndebug = false) {r : Rel} {v : Option Vec} {row : Int} (hr : Stored c r) (hv : VStored c v) (ht : Tame c v) : sub_vector c r v row ≠ .ub := by
  unfold sub_vector
  split
  · next p rest v =>
    split
    · intro e; cases e
    · next h =>
      obtain ⟨h1, h2, h3, h4⟩ := vectorGuard_false h
      have hw : ∀ x ∈ v.v, InPrec c p.precision x := by rw [h1]; exact hv v rfl
      refine bind_defined (combineRow_defined (stored_cons.mp hr).1 hw (sub_closed hc _) (fun a ha b hb => ?_) h4 h3 h2 (ht v rfl).1) (fun _ _ e => by cases e)
      exact sub_defined hc hd ha (hw b hb) (by rw [h1]; exact (ht v rfl).2 b hb)
  · intro e; cases e

end Rel

/-! ## Vectors -/

namespace Vec
open OInt

variable {c : Cfg}

theorem pmalloc_defined {p k : Int} : pmalloc c p k ≠ .ub := by
  unfold pmalloc
  split
  · intro e; cases e
  · split
    · intro e; cases e
    · intro e; cases e
    · next h => exact absurd h (mapOut_defined (fun _ _ => init_set_si_defined))

theorem zipOut_defined {f : Int → Int → Out Int} : ∀ {l m : List Int}, l.length = m.length → (∀ a ∈ l, ∀ b ∈ m, f a b ≠ .ub) → zipOut f l m ≠ .ub
  | [], [], _, _ => by unfold zipOut; intro e; cases e
  | [], _ :: _, h, _ => by cases h
  | _ :: _, [], h, _ => by cases h
  | a :: l, b :: m, h, hf => by
    have ih := zipOut_defined (f := f) (l := l) (m := m) (by simpa using h) (fun x hx y hy => hf x (List.mem_cons_of_mem _ hx) y (List.mem_cons_of_mem _ hy))
    have h1 := hf a List.mem_cons_self b List.mem_cons_self
    unfold zipOut
    split
    · split
      · intro e; cases e
      · intro e; cases e
      · next e => exact absurd e ih
    · intro e; cases e
    · next e => exact absurd e h1

/-- C83: the arithmetic of vectors. -/
theorem add_scalar_defined (hc : c.Valid) (hd : c.ndebug = false) {v : Option Vec} {k : Int} (hv : Rel.VStored c v) (hk : fits 32 k) (hm : k ≠ cMin 32) : add_scalar c v k ≠ .ub := by
  unfold add_scalar
  split
  · intro e; cases e
  · next x =>
    split
    · intro e; cases e
    · next h =>
      refine bind_defined pmalloc_defined (fun _ _ => ?_)
      refine bind_defined (mapOut_defined (fun _ _ => assign_defined)) (fun _ _ => ?_)
      refine bind_defined (add_si_defined hc hd ?_ hk hm) (fun _ _ e => by cases e)
      have hne : x.v ≠ [] := by intro e; apply h; simp [Vec.size, e]
      rw [List.getLastD_eq_getLast?, List.getLast?_eq_some_getLast hne]
      exact hv x rfl _ (List.getLast_mem hne)

theorem add_defined (hc : c.Valid) (hd : c.ndebug = false) {v w : Option Vec} (hv : Rel.VStored c v) (hw : Rel.VStored c w) (ht : Rel.Tame c w) : add c v w ≠ .ub := by
  unfold add
  split
  · next x y =>
    split
    · intro e; cases e
    · next h =>
      simp only [not_or, Classical.not_not, ne_eq] at h
      refine bind_defined pmalloc_defined (fun _ _ => ?_)
      refine bind_defined (zipOut_defined h.1 (fun a ha b hb => ?_)) (fun _ _ e => by cases e)
      exact OInt.add_defined hc hd (hv x rfl a ha) (by rw [h.2]; exact hw y rfl b hb) (by rw [h.2]; exact (ht y rfl).2 b hb)
  · intro e; cases e

theorem sub_defined (hc : c.Valid) (hd : c.ndebug = false) {v w : Option Vec} (hv : Rel.VStored c v) (hw : Rel.VStored c w) (ht : Rel.Tame c w) : sub c v w ≠ .ub := by
  unfold sub
  split
  · next x y =>
    split
    · intro e; cases e
    · next h =>
      simp only [not_or, Classical.not_not, ne_eq] at h
      refine bind_defined pmalloc_defined (fun _ _ => ?_)
      refine bind_defined (zipOut_defined h.1 (fun a ha b hb => ?_)) (fun _ _ e => by cases e)
      exact OInt.sub_defined hc hd (hv x rfl a ha) (by rw [h.2]; exact hw y rfl b hb) (by rw [h.2]; exact (ht y rfl).2 b hb)
  · intro e; cases e

theorem mul_scalar_defined {v : Option Vec} {k : Int} (hv : Rel.VStored c v) (h0 : v ≠ none) (hk : ∀ x, v = some x → ∀ a ∈ x.v, InPrec c x.precision (a * k)) : mul_scalar c v k ≠ .ub := by
  unfold mul_scalar
  split
  · exact absurd rfl h0
  · next x =>
    refine bind_defined pmalloc_defined (fun _ _ => ?_)
    exact bind_defined (mapOut_defined (fun a ha => mul_si_defined (hv x rfl a ha) (hk x rfl a ha))) (fun _ _ e => by cases e)

theorem tag_inequality_defined {v : Option Vec} : tag_inequality c v ≠ .ub := by
  unfold tag_inequality
  split
  · intro e; cases e
  · split
    · intro e; cases e
    · exact bind_defined set_si_defined (fun _ _ e => by cases e)

theorem tag_equality_defined {v : Option Vec} : tag_equality c v ≠ .ub := by
  unfold tag_equality
  split
  · intro e; cases e
  · split
    · intro e; cases e
    · exact bind_defined set_si_defined (fun _ _ e => by cases e)

theorem equalLoop_defined {p : Int} : ∀ {l m : List Int}, l.length = m.length → equalLoop c p l m ≠ .ub
  | [], _, _ => by unfold equalLoop; intro e; cases e
  | _ :: _, [], h => by cases h
  | a :: l, b :: m, h => by
    unfold equalLoop
    split
    · intro e; cases e
    · exact equalLoop_defined (by simpa using h)
    · intro e; cases e
    · next e => exact absurd e ne_defined

theorem equal_defined {v w : Option Vec} (h : v = none ↔ w = none) : equal c v w ≠ .ub := by
  unfold equal
  split
  · intro e; cases e
  · split
    · intro e; cases e
    · next x y hn =>
      simp only [not_or, Classical.not_not, ne_eq] at hn
      exact equalLoop_defined hn.1
  · next h1 h2 =>
    cases v with
    | none => cases w with
      | none => exact absurd rfl (h1 rfl)
      | some y => cases h.mp rfl
    | some x => cases w with
      | none => cases h.mpr rfl
      | some y => exact absurd rfl (h2 x y rfl)

theorem isScalarLoop_defined {p : Int} : ∀ {l : List Int}, isScalarLoop c p l ≠ .ub
  | [] => by unfold isScalarLoop; intro e; cases e
  | a :: l => by
    unfold isScalarLoop
    split
    · exact isScalarLoop_defined
    · intro e; cases e
    · intro e; cases e
    · next e => exact absurd e zero_defined

theorem is_scalar_defined {v : Option Vec} : is_scalar c v ≠ .ub := by
  unfold is_scalar
  split
  · intro e; cases e
  · exact isScalarLoop_defined

end Vec

/-! ## Relation lists -/

namespace RList

variable {c : Cfg}

theorem node_defined {r : Rel} (h : Rel.Shape r) : node c r ≠ .ub := by
  unfold node
  split
  · intro e; cases e
  · exact bind_defined (Rel.clone_defined h) (fun _ _ e => by cases e)

theorem clone_defined {l : RList} (h : ∀ r ∈ l, Rel.Shape r) : clone c l ≠ .ub := mapOut_defined (fun r hr => Rel.clone_defined (h r hr))

theorem concat_defined {l m : RList} (h : ∀ r ∈ l, Rel.Shape r) (h' : ∀ r ∈ m, Rel.Shape r) : concat c l m ≠ .ub := by
  unfold concat
  split
  · exact clone_defined h'
  · exact clone_defined h
  · exact bind_defined (clone_defined h) (fun _ _ => bind_defined (clone_defined h') (fun _ _ e => by cases e))

theorem dup_defined {l : RList} (h : ∀ r ∈ l, Rel.Shape r) : dup c l ≠ .ub := by
  unfold dup
  refine bind_defined (clone_defined (fun r hr => ?_)) (fun _ _ e => by cases e)
  cases l with
  | nil => cases hr
  | cons a l =>
    rw [List.mem_singleton.mp hr]
    exact h a List.mem_cons_self

theorem filter_defined {l : RList} {t : Int} (h : ∀ r ∈ l, Rel.Shape r) : filter c l t ≠ .ub := bind_defined (clone_defined h) (fun _ _ e => by cases e)

theorem equal_defined : ∀ {l m : RList}, (∀ r ∈ l, Rel.Shape r) → (∀ r ∈ m, Rel.Shape r) → equal c l m ≠ .ub
  | [], [], _, _ => by unfold equal; intro e; cases e
  | [], _ :: _, _, _ => by unfold equal; intro e; cases e
  | _ :: _, [], _, _ => by unfold equal; intro e; cases e
  | a :: l, b :: m, h, h' => by
    unfold equal
    split
    · intro e; cases e
    · exact equal_defined (fun r hr => h r (List.mem_cons_of_mem _ hr)) (fun r hr => h' r (List.mem_cons_of_mem _ hr))
    · intro e; cases e
    · next e => exact absurd e (Rel.equal_defined (h a List.mem_cons_self) (h' b List.mem_cons_self))

theorem integrity_check_defined (hc : c.Valid) {t o i p : Int} : ∀ {l : RList}, (∀ r ∈ l, Rel.Shape r) → (∀ r ∈ l, Rel.Small r) → integrity_check c t o i p l ≠ .ub
  | [], _, _ => by unfold integrity_check; intro e; cases e
  | a :: l, h, h' => by
    unfold integrity_check
    split
    · intro e; cases e
    · exact integrity_check_defined hc (fun r hr => h r (List.mem_cons_of_mem _ hr)) (fun r hr => h' r (List.mem_cons_of_mem _ hr))
    · intro e; cases e
    · next e => exact absurd e (Rel.integrity_check_defined hc (h a List.mem_cons_self) (h' a List.mem_cons_self))

end RList

end Osl
