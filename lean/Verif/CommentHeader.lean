import Verif.CommentText
/-!
# C68: the line with the names of the columns
-/

namespace Osl
namespace Comment

/-- `cell` is the name `w` on four characters (specification): with blanks around it, or, for a long name, its three first characters and a point. -/
def Shows (w cell : Str) : Prop :=
  cell.length = 4 ∧ ((w.length ≤ 4 ∧ ∃ a b, cell = List.replicate a ' ' ++ (w ++ List.replicate b ' ')) ∨ (4 < w.length ∧ cell = w.take 3 ++ ['.']))

/-- `line` names the columns of the part `p` (specification): a `#`, and for each column its name on four characters, and a bar if it is the last of its
kind (tag, output dimensions, input dimensions, local dimensions, parameters), a blank otherwise. -/
def IsHeader (p : Part) (names : Names) (line : Str) : Prop :=
  line.head? = some '#' ∧ (line.length : Int) = 1 + 5 * p.nb_columns ∧
  ∀ (j : Nat) (w : Str), ("e/i".toList :: dimNames p names ++ [['1']])[j]? = some w →
    Shows w ((line.drop (1 + 5 * j)).take 4) ∧
    line[5 + 5 * j]? = some (if (j : Int) = 0 ∨ (j : Int) = p.nb_output_dims ∨ (j : Int) = p.nb_output_dims + p.nb_input_dims ∨
      (j : Int) = p.nb_output_dims + p.nb_input_dims + p.nb_local_dims ∨
      (j : Int) = p.nb_output_dims + p.nb_input_dims + p.nb_local_dims + p.nb_parameters then '|' else ' ')

/-- In the text `t`, the first row of `p` comes right after the line which names its columns. -/
def HeaderBefore (p : Part) (names : Names) (t : Str) : Prop :=
  ∀ row, p.m.head? = some row → ∃ line before after, IsHeader p names line ∧ t = before ++ (line ++ '\n' :: (entries row ++ after))

end Comment

open Comment

namespace Rel

theorem columnName_shows (w : Str) : Shows w (columnName w) := by
  unfold columnName
  dsimp only
  by_cases h : w.length ≤ 4
  · have hm : min 4 w.length = w.length := by omega
    rw [hm, if_pos (Nat.le_refl _)]
    have hw : w.take (w.length - 1) ++ (w.drop (w.length - 1)).take 1 = w := by
      rw [List.take_of_length_le (l := w.drop (w.length - 1)) (by simp only [List.length_drop]; omega), List.take_append_drop]
    rw [List.append_assoc (List.replicate _ _), hw]
    refine ⟨by simp only [List.length_append, List.length_replicate]; omega, .inl ⟨h, _, _, by rw [List.append_assoc]⟩⟩
  · have hm : min 4 w.length = 4 := by omega
    rw [hm, if_neg (by omega)]
    simp only [Nat.sub_self, Nat.zero_div, Nat.sub_zero, List.replicate_zero, List.nil_append, List.append_nil]
    exact ⟨by simp only [List.length_append, List.length_take, List.length_cons, List.length_nil]; omega, .inr ⟨by omega, rfl⟩⟩

theorem columns_size (r : Part) : ∀ (l : List Str) (i : Int), (columns r l i).length = 5 * l.length
  | [], _ => rfl
  | w :: l, i => by
    have := (columnName_shows w).1
    simp only [columns, List.length_append, List.length_cons, columns_size r l (i + 1)]
    omega

theorem columns_at (r : Part) : ∀ (l : List Str) (i : Int) (j : Nat) (w : Str), l[j]? = some w →
    ((columns r l i).drop (5 * j)).take 4 = columnName w ∧ (columns r l i)[4 + 5 * j]? = some (columnSep r (i + j + 1))
  | [], _, _, _, h => by cases h
  | v :: l, i, 0, w, h => by
    simp only [List.getElem?_cons_zero, Option.some.injEq] at h
    subst h
    have hl := (columnName_shows v).1
    simp only [columns]
    constructor
    · simp only [Nat.mul_zero, List.drop_zero]
      rw [List.take_append_of_le_length (by omega), List.take_of_length_le (by omega)]
    · rw [List.getElem?_append_right (by omega), hl]
      simp
  | v :: l, i, j + 1, w, h => by
    obtain ⟨h1, h2⟩ := columns_at r l (i + 1) j w (by simpa using h)
    have hl := (columnName_shows v).1
    simp only [columns]
    constructor
    · rw [List.drop_append, List.drop_eq_nil_of_le (by omega), List.nil_append, hl, show 5 * (j + 1) - 4 = 5 * j + 1 by omega, List.drop_succ_cons]
      exact h1
    · rw [List.getElem?_append_right (by omega), hl, show 4 + 5 * (j + 1) - 4 = 4 + 5 * j + 1 by omega, List.getElem?_cons_succ, h2]
      congr 2
      omega

theorem strings_length {p : Part} {names : Names} {l : List Str} (h : relation_strings p names = .ok l) : (l.length : Int) = p.nb_columns := by
  unfold relation_strings at h
  split at h
  · next hd =>
    obtain ⟨o, e1, h⟩ := Out.bind_eq_ok.mp h
    obtain ⟨i, e2, h⟩ := Out.bind_eq_ok.mp h
    obtain ⟨lo, e3, h⟩ := Out.bind_eq_ok.mp h
    obtain ⟨pa, e4, h⟩ := Out.bind_eq_ok.mp h
    cases h
    have h1 : o.length = p.nb_output_dims.toNat := by
      unfold outputNames at e1
      split at e1
      · cases e1; simp [upto_length]
      · split at e1
        · have := Out.mapOut_length e1; rw [upto_length] at this; omega
        · have := Out.mapOut_length e1; rw [upto_length] at this; omega
    have h2 := Out.mapOut_length e2
    have h3 := Out.mapOut_length e3
    have h4 := Out.mapOut_length e4
    rw [upto_length] at h2 h3 h4
    unfold Part.Dims at hd
    simp only [List.length_append, List.length_cons, List.length_nil]
    omega
  · cases h

theorem header_line {p : Part} (hd : p.Dims) {names : Names} {strings : List Str} (h : relation_strings p names = .ok strings) :
    IsHeader p names ('#' :: columns p strings 0) := by
  have hlen := strings_length h
  have he := relation_strings_dims h
  subst he
  refine ⟨rfl, by rw [List.length_cons, columns_size]; omega, fun j w hj => ?_⟩
  obtain ⟨h1, h2⟩ := columns_at p _ 0 j w hj
  refine ⟨?_, ?_⟩
  · rw [show 1 + 5 * j = 5 * j + 1 by omega, List.drop_succ_cons, h1]
    exact columnName_shows w
  · rw [show 5 + 5 * j = 4 + 5 * j + 1 by omega, List.getElem?_cons_succ, h2]
    unfold columnSep
    have hd := hd
    unfold Part.Dims at hd
    congr 1
    split <;> split <;> first | rfl | omega

theorem part_header {c : Cfg} {names : Names} {r : Part} {rest : Rel} (hf : PartFits c r) {nb part : Nat}
    {l : List Str} (e : partPieces c nb part r rest names = .ok l) : HeaderBefore r names l.flatten := by
  intro row hrow
  unfold partPieces at e
  obtain ⟨strings, es, e⟩ := Out.bind_eq_ok.mp e
  obtain ⟨col, ec, e⟩ := Out.bind_eq_ok.mp e
  obtain ⟨rows, er, e⟩ := Out.bind_eq_ok.mp e
  cases hm : r.m with
  | nil => rw [hm] at hrow; cases hrow
  | cons row' m =>
    have hi : 0 < r.m.length := by rw [hm]; simp
    have h0 : r.m[0] = row := by
      rw [List.head?_eq_getElem?, List.getElem?_eq_getElem hi] at hrow
      injection hrow
    have hl := Out.mapOut_length er
    rw [upto_length] at hl
    have hrows := hf.valid.rows
    have hi' : 0 < rows.length := by omega
    have := mapOut_get er 0 (by rw [upto_length]; omega) hi'
    simp only [upto, List.getElem_map, List.getElem_range, Int.ofNat_eq_natCast] at this
    unfold rowPieces at this
    obtain ⟨cells, e2, this⟩ := Out.bind_eq_ok.mp this
    obtain ⟨cm, e3, this⟩ := Out.bind_eq_ok.mp this
    have hc : cells.flatten.flatten = entries row := by
      rw [cells_entries (c := c) hf.valid.prec hi (hf.valid.cols _ (List.getElem_mem hi)) e2, h0]
    have hrow : rows[0].flatten = entries row ++ (cm ++ ['\n']) := by
      injection this with this
      rw [← this, List.flatten_append, hc]
      simp
    unfold columnPieces at ec
    rw [if_pos (by omega)] at ec
    obtain ⟨s, ec, ec'⟩ := Out.bind_eq_ok.mp ec
    injection ec' with ec'
    unfold column_string at ec
    have ec := (buffered_ok ec).1
    obtain ⟨a, rows', erows⟩ : ∃ a rows', rows = a :: rows' := by
      cases rows with
      | nil => simp at hi'
      | cons a b => exact ⟨a, b, rfl⟩
    subst erows
    injection e with e
    generalize (if nb > 1 then ["# Union part No.".toList ++ showNat part ++ ['\n']] else []) = x at e
    refine ⟨_, x.flatten ++ headerLine r, cm ++ ('\n' :: rows'.flatten.flatten), header_line hf.dims es, ?_⟩
    simp only [List.getElem_cons_zero] at hrow
    rw [← e, ← ec', ec]
    simp only [List.flatten_append, List.flatten_cons, List.flatten_nil, hrow, List.append_assoc, List.cons_append, List.nil_append, List.append_nil]

theorem HeaderBefore.mono {p : Part} {names : Names} {t u : Str} (h : HeaderBefore p names t) (a b : Str) (e : u = a ++ (t ++ b)) : HeaderBefore p names u := by
  intro row hrow
  obtain ⟨line, x, y, h1, h2⟩ := h row hrow
  exact ⟨line, a ++ x, y ++ b, h1, by rw [e, h2]; simp⟩

theorem parts_header {c : Cfg} {names : Names} {nb : Nat} : ∀ (r : Rel) (part : Nat) (l : List Str), (∀ p ∈ r, PartFits c p) →
    partsPieces c nb names part r = .ok l → ∀ p ∈ r, HeaderBefore p names l.flatten
  | [], _, _, _, _, p, hp => by cases hp
  | q :: r, part, l, hf, e, p, hp => by
    simp only [partsPieces] at e
    obtain ⟨a, e1, e⟩ := Out.bind_eq_ok.mp e
    obtain ⟨b, e2, e⟩ := Out.bind_eq_ok.mp e
    cases e
    rw [List.flatten_append]
    rcases List.mem_cons.mp hp with rfl | hp'
    · exact HeaderBefore.mono (part_header (hf p (by simp)) e1) [] b.flatten (by simp)
    · exact HeaderBefore.mono (parts_header r (part + 1) b (fun x hx => hf x (by simp [hx])) e2 p hp') a.flatten [] (by simp)

/-- C68: when a relation is printed, the first row of each part comes right after a line which names its columns. -/
theorem relation_headers_say {c : Cfg} {names : Names} {r : Rel} (hf : ∀ p ∈ r, PartFits c p) {t : Str} (e : spprint c r (some names) = .ok t) :
    ∀ p ∈ r, HeaderBefore p names t := by
  intro p hp
  cases r with
  | nil => cases hp
  | cons q r =>
    simp only [spprint, spprint_polylib, chooseNames, Out.ok_bind] at e
    obtain ⟨u, e1, e⟩ := Out.bind_eq_ok.mp e
    obtain ⟨l, e2, e1⟩ := Out.bind_eq_ok.mp e1
    rw [Util.emit_eq] at e1 e
    cases e1
    cases e
    exact HeaderBefore.mono (parts_header (q :: r) 1 l hf e2 p hp) (sprint_type q.type ++ (['\n'] ++ (if (q :: r).length > 1 then
      ["# Union with ".toList ++ showNat (q :: r).length ++ " parts\n".toList ++ showNat (q :: r).length ++ ['\n']] else []).flatten)) [] (by simp)

end Rel
end Osl
