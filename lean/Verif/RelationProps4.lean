import Verif.RelationProps3
/-!
# Properties C19 (no out-of-bounds access) and C20 (extension of the output dimensions)
-/

namespace Osl
namespace Rel
open OInt

/-! ## C19: no undefined behaviour of its own -/

theorem loop_total {σ : Type} (P : σ → Prop) {body : Int → σ → Out σ} {lo hi : Int} {s : σ} (h0 : P s)
    (hb : ∀ i s, lo ≤ i → i < hi → P s → body i s = .err ∨ ∃ s', body i s = .ok s' ∧ P s') :
    loop lo hi body s = .err ∨ ∃ s', loop lo hi body s = .ok s' ∧ P s' := by
  unfold loop
  obtain ⟨n, hn⟩ : ∃ n, n = (hi - lo).toNat := ⟨_, rfl⟩
  rw [← hn]
  have key : ∀ (n : Nat) (i : Int) (s : σ), (n = 0 ∨ i + n = hi) → lo ≤ i → P s →
      loopN body n i s = .err ∨ ∃ s', loopN body n i s = .ok s' ∧ P s' := by
    intro n
    induction n with
    | zero => intro i s _ _ hp; exact .inr ⟨s, rfl, hp⟩
    | succ n ih =>
      intro i s h1 h2 hp
      rcases hb i s h2 (by omega) hp with e | ⟨s', e, hp'⟩
      · left; simp [loopN, e]
      · rcases ih (i + 1) s' (by omega) (by omega) hp' with e' | ⟨s'', e', hp''⟩
        · left; simp [loopN, e, e']
        · right; exact ⟨s'', by simp [loopN, e, e'], hp''⟩
  exact key n lo s (by omega) (by omega) h0

theorem mapOut_not_ub {α β : Type} {f : α → Out β} {l : List α} (h : ∀ a ∈ l, f a ≠ .ub) :
    Out.mapOut f l ≠ .ub := by
  induction l with
  | nil => simp [Out.mapOut]
  | cons a as ih =>
    have h1 := h a (by simp)
    have h2 := ih (fun b hb => h b (by simp [hb]))
    simp only [Out.mapOut]
    cases hf : f a with
    | ok b =>
      cases hm : Out.mapOut f as with
      | ok bs => simp
      | err => simp
      | ub => exact absurd hm h2
    | err => simp
    | ub => exact absurd hf h1

/-- The vector argument of an operation, if any. -/
def Op.vec : Op → Option Vec
  | .replaceVector v _ | .addVector v _ | .subVector v _ | .insertVector v _ | .concatVector v => v
  | _ => none

/-- Operations which do no arithmetic on coefficients and do not use the dimension attributes. -/
def Op.structural : Op → Bool
  | .addVector _ _ | .subVector _ _ | .extendOutput _ => false
  | _ => true

theorem insert_constraints_not_ub {c : Cfg} {r s : Rel} (hr : WF c r) (hs : WF c s) (row : Int) :
    insert_constraints c r s row ≠ .ub := by
  match r, s with
  | [], s => simp [insert_constraints]
  | p1 :: rest, [] => simp [insert_constraints]
  | p1 :: rest, p2 :: rest2 =>
    have h1 := hr p1 (by simp)
    have h2 := hs p2 (by simp)
    by_cases hg : p1.nb_columns = p2.nb_columns ∧ p1.precision = p2.precision ∧ (row = -1 ∨ (0 ≤ row ∧ row ≤ p1.nb_rows))
    · obtain ⟨hc, hp, hrow⟩ := hg
      have h1r := h1.rows
      rcases hrow with rfl | ⟨ha, hb⟩
      · rw [insert_constraints_end h1, insert_constraints_ok h1 h2 hp hc h1r (by omega)]; simp
      · rw [insert_constraints_ok h1 h2 hp hc ha hb]; simp
    · have h1r := h1.rows
      unfold insert_constraints
      simp only
      by_cases hrow : row = -1
      · rw [if_pos hrow, if_pos (by omega)]; simp
      · rw [if_neg hrow, if_pos (by omega)]; simp

theorem from_vector_wf {c : Cfg} {v : Option Vec} (hv : ∀ w, v = some w → kind c w.precision ≠ none) :
    ∃ s, from_vector c v = .ok s ∧ WF c s := by
  cases v with
  | none => exact ⟨[], rfl, by intro p hp; cases hp⟩
  | some w =>
    have hk := hv w rfl
    refine ⟨_, from_vector_ok hk, ?_⟩
    intro p hp
    simp only [List.mem_singleton] at hp
    subst hp
    exact ⟨⟨rfl, by simp⟩, by simp, hk⟩

theorem replaceConstraintsPart_not_ub {c : Cfg} {p1 p2 : Part} (h1 : p1.WF c) (h2 : p2.WF c) (row : Int) :
    replaceConstraintsPart c p1 p2 row ≠ .ub := by
  by_cases hg : p1.precision ≠ p2.precision ∨ p1.nb_columns ≠ p2.nb_columns ∨ row + p2.nb_rows > p1.nb_rows ∨ row < 0
  · unfold replaceConstraintsPart; rw [if_pos hg]; simp
  · rw [replaceConstraintsPart_ok h1 h2 (by omega) (by omega) (by omega) (by omega)]; simp

theorem concat_constraints_not_ub {c : Cfg} {r s : Rel} (hr : WF c r) (hs : WF c s) :
    concat_constraints c r s ≠ .ub := by
  match r, s with
  | [], s => simp [concat_constraints, clone_ok hs]
  | p1 :: rest, [] => simp [concat_constraints, clone_ok hr]
  | p1 :: rest, p2 :: rest2 =>
    have h1 := hr p1 (by simp)
    have h2 := hs p2 (by simp)
    by_cases hc : p1.nb_columns = p2.nb_columns
    · by_cases hp : p1.precision = p2.precision
      · rw [concat_constraints_ok h1 h2 hp hc]; simp
      · have h1r := h1.rows
        have h2r := h2.rows
        unfold concat_constraints
        simp only
        rw [if_neg (by omega), pmalloc_ok h1.prec (by omega) h1.cols]
        simp only [Out.ok_bind]
        rw [replaceConstraintsPart_ok (r1 := blank _ _ _ _) (r2 := p1)
          ⟨rect_zero (by omega) h1.cols, h1.cols, h1.prec⟩ h1 rfl rfl (by omega) (by simp only; omega)]
        simp only [Out.ok_bind]
        unfold replaceConstraintsPart
        rw [if_pos (.inl hp)]
        simp
    · simp [concat_constraints, hc]

theorem clonePart_not_ub {c : Cfg} {p : Part} (h : p.WF c) {n : Int} (hn : n ≤ p.nb_rows) :
    clonePart c p n ≠ .ub := by
  by_cases h0 : 0 ≤ n
  · rw [clonePart_ok h h0 hn]; simp
  · unfold clonePart pmalloc
    rw [if_neg (kind_prec h.prec), if_pos (by omega)]
    simp

theorem setPrecisionPart_not_ub {c : Cfg} {p : Part} (h : p.WF c) (prec : Int) :
    setPrecisionPart c prec p ≠ .ub := by
  unfold setPrecisionPart
  split
  · have hl := loop_total (fun d => Rect d p.nb_rows p.nb_columns) (lo := 0) (hi := p.nb_rows) (s := p.m)
      (body := fun i m => loop 0 p.nb_columns (fun j m => do
        let v ← get2 m i j
        let v ← OInt.set_precision c p.precision prec v
        set2 m i j v) m) h.rect (by
      intro i s hi hi' hs
      apply loop_total (fun d => Rect d p.nb_rows p.nb_columns) hs
      intro j s hj hj' hs
      rw [get2_ok hs hi hi' hj hj']
      simp only [Out.ok_bind]
      have hsp : OInt.set_precision c p.precision prec (cell s i j) = .err ∨
          ∃ v, OInt.set_precision c p.precision prec (cell s i j) = .ok v := by
        unfold OInt.set_precision OInt.get_si OInt.init_set_si
        split
        · cases kind c p.precision with
          | none => simp
          | some k =>
            cases k with
            | mp =>
              simp only
              split
              · simp
              · cases kind c prec <;> simp
            | fixed w =>
              simp only
              split
              · simp
              · split
                · simp
                · cases kind c prec <;> simp
        · simp
      rcases hsp with e | ⟨v, e⟩
      · left; rw [e]; rfl
      · right
        obtain ⟨d, e2, hr, _⟩ := set2_ok hs hi hi' hj hj' v
        exact ⟨d, by rw [e]; exact e2, hr⟩)
    rcases hl with e | ⟨d, e, _⟩
    · rw [e]; simp
    · rw [e]; simp
  · simp

/-- C19: on well-shaped relations (and vectors) of supported precision, no structural operation
accesses memory out of bounds or executes any other undefined behaviour: it returns a relation or
reports an error. -/
theorem relation_step_in_bounds {c : Cfg} {r : Rel} {op : Op} (hr : Rel.Valid c r) (ha : Rel.Valid c op.args)
    (hv : ∀ v, op.vec = some v → kind c v.precision ≠ none) (hs : op.structural = true) :
    step c r op ≠ .ub := by
  have hr' := hr.wf
  have ha' := ha.wf
  cases op with
  | clone => simp [step, clone_ok hr']
  | nclone n =>
    simp only [step, nclone]
    generalize (if n = -1 then r.nb_components else n) = k
    split
    · simp
    · exact mapOut_not_ub (fun p hp => clonePart_not_ub (hr' p (List.mem_of_mem_take hp)) (by omega))
  | cloneNconstraints n =>
    simp only [step, clone_nconstraints]
    apply mapOut_not_ub
    intro p hp
    generalize (if n = -1 then p.nb_rows else n) = k
    split
    · simp
    · exact clonePart_not_ub (hr' p hp) (by omega)
  | add s => simp [step]
  | union s =>
    simp only [step, Rel.union]
    split
    · simp
    · rw [clone_ok hr', clone_ok (r := s) ha']; simp
  | replaceVector v row =>
    simp only [step, replace_vector]
    cases r with
    | nil => simp
    | cons p rest =>
      have hp := hr' p (by simp)
      cases v with
      | none => simp [replaceVectorPart]
      | some v =>
        by_cases hg : vectorGuard p v row = true
        · simp [replaceVectorPart, hg]
        · have hg' := hg
          simp only [vectorGuard, Bool.or_eq_true, decide_eq_true_eq, not_or, Vec.size] at hg'
          simp only
          rw [replaceVectorPart_ok hp (by omega) (by simp only [Vec.size]; omega) (by omega) (by omega)]
          simp
  | addVector v row => cases hs
  | subVector v row => cases hs
  | extendOutput dim => cases hs
  | insertVector v row =>
    obtain ⟨t, e, ht⟩ := from_vector_wf (c := c) (v := v) hv
    simp only [step, insert_vector, e, Out.ok_bind]
    exact insert_constraints_not_ub hr' ht row
  | concatVector v =>
    obtain ⟨t, e, ht⟩ := from_vector_wf (c := c) (v := v) hv
    simp only [step, concat_vector, e, Out.ok_bind]
    exact concat_constraints_not_ub hr' ht
  | replaceConstraints s row =>
    simp only [step, replace_constraints]
    split
    · rename_i p1 rest p2 rest2
      have := replaceConstraintsPart_not_ub (hr' p1 (by simp)) (ha' p2 (by simp [Op.args])) row
      cases hc : replaceConstraintsPart c p1 p2 row with
      | ok a => simp
      | err => simp
      | ub => exact absurd hc this
    · simp
  | insertConstraints s row => exact insert_constraints_not_ub hr' ha' row
  | concatConstraints s => exact concat_constraints_not_ub hr' ha'
  | insertBlankRow row =>
    simp only [step, insert_blank_row]
    split
    · simp
    · rename_i p rest
      have hp := hr' p (by simp)
      have : Vec.pmalloc c p.precision p.nb_columns = .ok ⟨p.precision, List.replicate p.nb_columns.toNat 0⟩ := by
        have := Vec.pmalloc_ok hp.prec p.nb_columns.toNat
        rwa [Int.toNat_of_nonneg hp.cols] at this
      simp only [this, Out.ok_bind, insert_vector]
      obtain ⟨t, e, ht⟩ := from_vector_wf (c := c) (v := some ⟨p.precision, List.replicate p.nb_columns.toNat 0⟩)
        (by intro w hw; injection hw with hw; subst hw; exact hp.prec)
      rw [e]
      exact insert_constraints_not_ub hr' ht row
  | insertBlankColumn col =>
    simp only [step]
    cases r with
    | nil => simp [insert_blank_column]
    | cons p rest =>
      by_cases hg : col < 0 ∨ col > p.nb_columns
      · unfold insert_blank_column; simp only; rw [if_pos hg]; simp
      · rw [insert_blank_column_ok (hr' p (by simp)) (by omega) (by omega)]; simp
  | swap i j =>
    simp only [step]
    cases r with
    | nil => simp [swap_constraints]
    | cons p rest =>
      by_cases he : i = j
      · unfold swap_constraints; simp [he]
      · by_cases hg : i ≥ p.nb_rows ∨ i < 0 ∨ j ≥ p.nb_rows ∨ j < 0
        · unfold swap_constraints; simp only; rw [if_neg he, if_pos hg]; simp
        · rw [swap_constraints_ok (hr' p (by simp)) he (by omega) (by omega) (by omega) (by omega)]; simp
  | removeRow row =>
    simp only [step]
    cases r with
    | nil => simp [remove_row]
    | cons p rest =>
      by_cases hg : row < 0 ∨ row ≥ p.nb_rows
      · unfold remove_row; simp only; rw [if_pos hg]; simp
      · rw [remove_row_ok (hr' p (by simp)) (by omega) (by omega)]; simp
  | removeColumn col =>
    simp only [step]
    cases r with
    | nil => simp [remove_column]
    | cons p rest =>
      by_cases hg : col < 0 ∨ col ≥ p.nb_columns
      · unfold remove_column; simp only; rw [if_pos hg]; simp
      · rw [remove_column_ok (hr' p (by simp)) (by omega) (by omega)]; simp
  | insertColumns s col =>
    simp only [step]
    match r, s with
    | [], s => simp [insert_columns]
    | p :: rest, [] => simp [insert_columns]
    | p :: rest, q :: rest2 =>
      by_cases hg : p.precision ≠ q.precision ∨ p.nb_rows ≠ q.nb_rows ∨ col < 0 ∨ col > p.nb_columns
      · unfold insert_columns; simp only; rw [if_pos hg]; simp
      · rw [insert_columns_ok (hr' p (by simp)) (ha' q (by simp [Op.args])) (by omega) (by omega) (by omega) (by omega)]
        simp
  | setAttributes o i l p => simp [step]
  | setType t => simp [step]
  | setPrecision p =>
    simp only [step, set_precision]
    exact mapOut_not_ub (fun q hq => setPrecisionPart_not_ub (hr' q hq) p)

example : step Cfg.std [exDomain, exDomain2] (.insertColumns [exDomain] 2) ≠ .ub :=
  relation_step_in_bounds exRel_valid (fun p hp => by
    simp [Op.args] at hp; subst hp; exact exDomain_valid) (by intro v h; cases h) rfl

/-- C19, the exception: combining with a vector reads the first column of the row, which a relation
without columns does not have. -/
theorem relation_add_vector_no_column_ub :
    step Cfg.std [{ exDomain with nb_rows := 1, nb_columns := 0, m := [[]] }] (.addVector (some ⟨64, []⟩) 0) = .ub := by
  decide

/-! ## C20: extension of the output dimensions -/

theorem dot_unit (w k : Nat) (l : List Int) (hl : l.length = w) (hk : k < w) :
    dot (unitRow w k) l = - (l[k]'(by omega)) := by
  induction w generalizing k l with
  | zero => omega
  | succ w ih =>
    cases l with
    | nil => simp at hl
    | cons x l =>
      have hl' : l.length = w := by simpa using hl
      have e : unitRow (w + 1) k = (if 0 = k then (-1 : Int) else 0) :: (List.range w).map (fun j => if j + 1 = k then (-1 : Int) else 0) := by
        simp only [unitRow, List.range_succ_eq_map, List.map_cons, List.map_map]
        rfl
      rw [e]
      simp only [dot]
      cases k with
      | zero =>
        have : (List.range w).map (fun j => if j + 1 = 0 then (-1 : Int) else 0) = List.replicate w 0 := by
          rw [List.eq_replicate_iff]
          constructor
          · simp
          · intro b hb
            simp only [List.mem_map] at hb
            obtain ⟨a, _, rfl⟩ := hb
            rw [if_neg (by omega)]
        rw [this, dot_zero]
        simp
      | succ k =>
        have : (List.range w).map (fun j => if j + 1 = k + 1 then (-1 : Int) else 0) = unitRow w k := by
          simp [unitRow]
        rw [this, ih k l hl' (by omega)]
        simp

theorem dot_replicate_zero_append {a b l z r : List Int} {n : Nat} (h1 : a.length = l.length) (h2 : z.length = n) :
    dot (a ++ List.replicate n 0 ++ b) (l ++ z ++ r) = dot (a ++ b) (l ++ r) := by
  rw [List.append_assoc, List.append_assoc, dot_append h1, dot_append (by simp [h2]), dot_append h1, dot_zero]
  omega

theorem rowHolds_ext {row x z rest : List Int} {o : Nat} (hx : x.length = o) (hl : o + 1 ≤ row.length) :
    RowHolds (row.take (o + 1) ++ List.replicate z.length 0 ++ row.drop (o + 1)) (x ++ z ++ rest) ↔
      RowHolds row (x ++ rest) := by
  cases row with
  | nil => simp at hl
  | cons t cs =>
    simp only [List.take_succ_cons, List.drop_succ_cons, List.cons_append, RowHolds]
    have e : dot (cs.take o ++ List.replicate z.length 0 ++ cs.drop o) (x ++ z ++ rest ++ [1]) =
        dot cs (x ++ rest ++ [1]) := by
      have hlen : (cs.take o).length = x.length := by simp at hl ⊢; omega
      rw [List.append_assoc (x ++ z), dot_replicate_zero_append hlen rfl, List.take_append_drop, List.append_assoc]
    rw [e]

theorem rowHolds_unit {w k : Nat} {pt : List Int} (hpt : pt.length + 2 = w) (hk : 1 ≤ k) (hk' : k - 1 < pt.length) :
    RowHolds (unitRow w k) pt ↔ pt[k - 1] = 0 := by
  obtain ⟨j, rfl⟩ : ∃ j, k = j + 1 := ⟨k - 1, by omega⟩
  obtain ⟨w', rfl⟩ : ∃ w', w = w' + 1 := ⟨w - 1, by omega⟩
  have e : unitRow (w' + 1) (j + 1) = 0 :: unitRow w' j := by
    simp only [unitRow, List.range_succ_eq_map, List.map_cons, List.map_map]
    congr 1
    apply List.map_congr_left
    intro a _
    simp
  rw [e]
  simp only [RowHolds, if_true]
  rw [dot_unit w' j (pt ++ [1]) (by simp; omega) (by simp at hk'; omega)]
  simp only [Nat.add_sub_cancel] at hk' ⊢
  rw [List.getElem_append_left hk']
  omega

/-- The extension of one part: exactly the old points with zeros appended to the output. -/
theorem extend_part_mem {p q : Part} {dim : Int} (hcols : ∀ row ∈ p.m, (row.length : Int) = p.nb_columns) (hd : p.Dims)
    (ho : p.nb_output_dims ≤ dim)
    (hq : q = { p with
      nb_rows := p.nb_rows + (dim - p.nb_output_dims)
      nb_columns := p.nb_columns + (dim - p.nb_output_dims)
      nb_output_dims := dim
      m := extMatrix p.nb_output_dims.toNat (dim - p.nb_output_dims).toNat
        (p.nb_columns + (dim - p.nb_output_dims)).toNat p.m }) (X y n : List Int) :
    Part.Mem q X y n ↔ ∃ x, X = x ++ List.replicate (dim - p.nb_output_dims).toNat 0 ∧ Part.Mem p x y n := by
  obtain ⟨d1, d2, d3, d4, d5⟩ := hd
  subst hq
  obtain ⟨off, hoff⟩ : ∃ off, off = (dim - p.nb_output_dims).toNat := ⟨_, rfl⟩
  obtain ⟨o, hoo⟩ : ∃ o, o = p.nb_output_dims.toNat := ⟨_, rfl⟩
  -- holds
  have hH : ∀ x z y loc n : List Int, x.length = o → z.length = off → (y.length : Int) = p.nb_input_dims →
      (loc.length : Int) = p.nb_local_dims → (n.length : Int) = p.nb_parameters →
      ((∀ row ∈ extMatrix o off (p.nb_columns + (dim - p.nb_output_dims)).toNat p.m,
          RowHolds row (x ++ z ++ y ++ loc ++ n)) ↔
        z = List.replicate off 0 ∧ p.Holds (x ++ y ++ loc ++ n)) := by
    intro x z y loc n hx hz hy hloc hn
    have ea : x ++ z ++ y ++ loc ++ n = x ++ z ++ (y ++ loc ++ n) := by simp
    have eb : x ++ y ++ loc ++ n = x ++ (y ++ loc ++ n) := by simp
    rw [ea, eb]
    have hlen : (x ++ z ++ (y ++ loc ++ n)).length + 2 = (p.nb_columns + (dim - p.nb_output_dims)).toNat := by
      simp; omega
    unfold extMatrix Part.Holds
    simp only [List.mem_append, List.mem_map, List.mem_range]
    constructor
    · intro h
      constructor
      · rw [List.eq_replicate_iff]
        refine ⟨hz, ?_⟩
        intro b hb
        obtain ⟨k, hk, rfl⟩ := List.getElem_of_mem hb
        have := h _ (.inr ⟨k, by omega, rfl⟩)
        rw [rowHolds_unit hlen (by omega) (by simp; omega)] at this
        have e : o + 1 + k - 1 = x.length + k := by omega
        simp only [e] at this
        rw [List.getElem_append_left (by simp; omega), List.getElem_append_right (by omega)] at this
        simpa using this
      · intro row hrow
        have hrl := hcols row hrow
        have := h _ (.inl ⟨row, hrow, rfl⟩)
        rw [← hz, rowHolds_ext hx (by omega)] at this
        exact this
    · rintro ⟨hz0, h⟩ row (⟨r0, hr0, rfl⟩ | ⟨k, hk, rfl⟩)
      · have hrl := hcols r0 hr0
        rw [← hz, rowHolds_ext hx (by omega)]
        exact h r0 hr0
      · rw [rowHolds_unit hlen (by omega) (by simp; omega)]
        have e : o + 1 + k - 1 = x.length + k := by omega
        simp only [e]
        rw [List.getElem_append_left (by simp; omega), List.getElem_append_right (by omega)]
        simp only [hz0, List.getElem_replicate]
  unfold Part.Mem
  simp only
  rw [← hoff, ← hoo]
  constructor
  · rintro ⟨hX, hy, hn, loc, hloc, hh⟩
    have hsplit : X = X.take o ++ X.drop o := (List.take_append_drop o X).symm
    have hx : (X.take o).length = o := by simp; omega
    have hz : (X.drop o).length = off := by simp; omega
    unfold Part.Holds at hh
    rw [hsplit] at hh
    have := (hH _ _ y loc n hx hz hy hloc hn).mp hh
    refine ⟨X.take o, ?_, by rw [hx]; omega, hy, hn, loc, hloc, this.2⟩
    rw [← this.1]; exact hsplit
  · rintro ⟨x, rfl, hx, hy, hn, loc, hloc, hh⟩
    refine ⟨by simp; omega, hy, hn, loc, hloc, ?_⟩
    exact (hH x _ y loc n (by omega) (by simp) hy hloc hn).mpr ⟨rfl, hh⟩

/-- C20: `osl_relation_extend_output` gives a relation all of whose parts have exactly `dim` output
dimensions and whose points are the old points completed by zeros. -/
theorem relation_extend_output_mem {c : Cfg} {r : Rel} {dim : Int} (hne : r ≠ []) (hr : Rel.Valid c r)
    (hdims : ∀ p ∈ r, p.Dims) (hprec : ∀ p ∈ r, ∀ q ∈ r, p.precision = q.precision)
    (hdim : ∀ p ∈ r, p.nb_output_dims ≤ dim) :
    ∃ s, extend_output c r dim = .ok s ∧ s.length = r.length ∧
      (∀ p ∈ s, p.nb_output_dims = dim ∧ p.Dims) ∧
      ∀ X y n, Rel.Mem s X y n ↔ ∃ x k, X = x ++ List.replicate k 0 ∧ (X.length : Int) = dim ∧ Rel.Mem r x y n := by
  cases r with
  | nil => exact absurd rfl hne
  | cons p0 rest =>
    have hmap := Out.mapOut_ok (f := fun q => extendPart c p0.precision q dim) (l := p0 :: rest)
      (g := fun p => { p with
        nb_rows := p.nb_rows + (dim - p.nb_output_dims)
        nb_columns := p.nb_columns + (dim - p.nb_output_dims)
        nb_output_dims := dim
        m := extMatrix p.nb_output_dims.toNat (dim - p.nb_output_dims).toNat
          (p.nb_columns + (dim - p.nb_output_dims)).toNat p.m })
      (by
        intro p hp
        have hd := hdims p hp
        rw [hprec p0 (by simp) p hp]
        exact extendPart_ok (hr p hp).wf hd.1 (by unfold Part.Dims at hd; omega) (hdim p hp))
    refine ⟨_, hmap, by simp, ?_, ?_⟩
    · intro q hq
      simp only [List.mem_map] at hq
      obtain ⟨p, hp, rfl⟩ := hq
      have hd := hdims p hp
      have ho := hdim p hp
      unfold Part.Dims at hd ⊢
      refine ⟨rfl, ?_⟩
      simp only
      omega
    · intro X y n
      unfold Rel.Mem
      constructor
      · rintro ⟨q, hq, hm⟩
        simp only [List.mem_map] at hq
        obtain ⟨p, hp, rfl⟩ := hq
        obtain ⟨x, hX, hx⟩ := (extend_part_mem (hr p hp).cols (hdims p hp) (hdim p hp) rfl X y n).mp hm
        exact ⟨x, _, hX, hm.1, p, hp, hx⟩
      · rintro ⟨x, k, hX, hlen, p, hp, hx⟩
        refine ⟨_, List.mem_map.mpr ⟨p, hp, rfl⟩, ?_⟩
        apply (extend_part_mem (hr p hp).cols (hdims p hp) (hdim p hp) rfl X y n).mpr
        refine ⟨x, ?_, hx⟩
        have h1 := hx.1
        have : k = (dim - p.nb_output_dims).toNat := by
          rw [hX] at hlen
          simp at hlen
          omega
        rw [← this]; exact hX

/-- C20: a part with more than `dim` output dimensions is reported (for the first such part, when the
parts before it are well-formed the call fails). -/
theorem relation_extend_output_error {c : Cfg} {p : Part} {rest : Rel} {dim : Int} (h : dim < p.nb_output_dims) :
    extend_output c (p :: rest) dim = .err := by
  simp [extend_output, Out.mapOut, extendPart_err h]

example : ∃ s, extend_output Cfg.std [exDomain, exDomain2] 3 = .ok s ∧ Rel.Mem s [2, 0, 0] [] [5] ∧
    ¬ Rel.Mem s [2, 0, 1] [] [5] := by
  obtain ⟨s, h1, h2, h3, h4⟩ := relation_extend_output_mem (c := Cfg.std) (r := [exDomain, exDomain2]) (dim := 3)
    (by simp) exRel_valid (by decide) (by decide) (by decide)
  refine ⟨s, h1, (h4 _ _ _).mpr ⟨[2], 2, rfl, rfl, exDomain, by simp, by decide, by decide, by decide, [], by decide, by decide⟩, ?_⟩
  intro h
  obtain ⟨x, k, hX, hl, p, hp, hm⟩ := (h4 _ _ _).mp h
  have hx1 : x.length = 1 := by
    have h1 := hm.1
    simp only [List.mem_cons, List.not_mem_nil, or_false] at hp
    rcases hp with rfl | rfl <;> simp [exDomain, exDomain2] at h1 <;> omega
  match x, k, hx1, hX with
  | [a], 0, _, hX => simp at hX
  | [a], 1, _, hX => simp [List.replicate] at hX
  | [a], 2, _, hX => simp [List.replicate] at hX
  | [a], k + 3, _, hX => simp [List.replicate] at hX

/-- C20, undefined case: the NULL relation is dereferenced. -/
theorem relation_extend_output_null (c : Cfg) (dim : Int) : extend_output c [] dim = .ub := rfl

end Rel
end Osl
