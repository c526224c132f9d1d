import Verif.ScoplibTable
/-!
# The SCoPLib text of relations (C64)
-/

namespace Osl
namespace Rel

/-! ## Specification -/

/-- A constraint of a domain in the SCoPLib format: without its input columns. -/
def domainRow (p : Part) (row : List Int) : List Int :=
  row.take (1 + p.nb_output_dims.toNat) ++ row.drop (1 + p.nb_output_dims.toNat + p.nb_input_dims.toNat)

/-- A row of another relation in the SCoPLib format: a first column, then the row without its output columns, with a zero after the input columns if
there is a fake iterator. -/
def otherRow (p : Part) (fake : Bool) (first : Int) (row : List Int) : List Int :=
  first :: ((row.drop (1 + p.nb_output_dims.toNat)).take p.nb_input_dims.toNat ++ (if fake then [0] else []) ++
    row.drop (1 + p.nb_output_dims.toNat + p.nb_input_dims.toNat))

/-- The two rows added to a scattering which has a fake iterator. -/
def fakeLines (p : Part) : List (List Int) :=
  [(List.range p.nb_columns.toNat).map (fun j => if j = 1 then 1 else 0), List.replicate p.nb_columns.toNat 0]

/-- The matrix of a part which is not an access: its size and its rows. -/
def partTable (p : Part) (fake : Bool) : List (List Int) :=
  if p.type = TYPE_DOMAIN then
    if fake then [p.nb_rows + 1, p.nb_columns - p.nb_input_dims + 1] :: (0 :: 1 :: (List.replicate p.nb_parameters.toNat 0 ++ [0])) :: p.m.map (domainRow p)
    else [p.nb_rows, p.nb_columns - p.nb_input_dims] :: p.m.map (domainRow p)
  else if fake then
    [p.nb_rows + 2, p.nb_columns - p.nb_output_dims + 1] ::
      (if p.type = TYPE_SCATTERING then (p.m.take 1).map (fun row => otherRow p true (row.headD 0) row) ++ (if p.m = [] then [] else fakeLines p)
       else p.m.map fun row => otherRow p true (row.headD 0) row)
  else [p.nb_rows, p.nb_columns - p.nb_output_dims] :: p.m.map fun row => otherRow p false (row.headD 0) row

/-- The last entry of a row. -/
def constantOf (row : List Int) : Int := row.getLastD 0

/-- The rows of an access: the first row gives the array, its constant is the first column of the next one; it is written itself when it is the only one,
with zero for constant. -/
def accessTable (p : Part) (fake : Bool) : List (List Int) :=
  match p.m with
  | [] => []
  | [row] => [(otherRow p fake (constantOf row) row).dropLast ++ [0]]
  | row :: row' :: rows => otherRow p fake (constantOf row) row' :: rows.map (otherRow p fake 0)

/-- The parts of a relation, from the rank `k`: their ranks if `nth`, and their matrices. -/
def partsTable (access nth fake : Bool) : Nat → Rel → List (List Int)
  | _, [] => []
  | k, p :: r => (if nth then [[(k : Int)]] else []) ++ ((if access then accessTable p fake else partTable p fake) ++ partsTable access nth fake (k + 1) r)

/-- A relation is an access of the SCoPLib format (OSL_TYPE_READ and OSL_TYPE_WRITE only). -/
def isScoplibAccess : Rel → Bool
  | [] => false
  | p :: _ => isAccessArray p.type

/-- The table of a relation: the number of parts if there are several, and the parts. -/
def relTable (nth fake : Bool) (r : Rel) : List (List Int) :=
  (if r.length > 1 then [[(r.length : Int)]] else []) ++ partsTable (isScoplibAccess r) nth fake 1 r

/-! ## Cells -/

theorem ints_pad (v : Int) : Ints [v] (padLeft 4 (showInt v) ++ [' ']) := by
  have := Ints.cons (v := v) (4 - (showInt v).length) 0 Ints.nil
  simpa [padLeft] using this

theorem ints_zero (m n : Nat) : Ints [0] (List.replicate m ' ' ++ ('0' :: ' ' :: List.replicate n ' ')) := by
  have := Ints.cons (v := 0) m n Ints.nil
  simpa [show showInt 0 = ['0'] from by decide] using this

theorem cellPieces_total {c : Cfg} {r : Part} (hf : PartFits c r) {i j : Nat} (hi : i < r.m.length) (hj : j < r.m[i].length) :
    ∃ l, cellPieces c r i j = .ok l ∧ Ints [r.m[i][j]] l.flatten := by
  obtain ⟨k, hk⟩ := Option.ne_none_iff_exists'.mp hf.valid.prec
  have hw := hf.width r.m[i] (List.getElem_mem hi)
  have hd := rowWidth_drop r.m[i] j hj
  have hl := rowWidth_drop_le r.m[i] j
  unfold cellPieces
  rw [get2_nat hi hj]
  simp only [Out.ok_bind, OInt.sprint, hk]
  rw [buffered_lt (by simp only [padLeft, List.length_append, List.length_replicate]; omega)]
  exact ⟨_, rfl, by simpa using ints_pad r.m[i][j]⟩

theorem mapOut_range_ints {f : Int → Out (List Str)} {row : List Int} (a : Nat) : ∀ (n : Nat) (hn : a + n ≤ row.length),
    (∀ j (hj : j < row.length), a ≤ j → ∃ l, f j = .ok l ∧ Ints [row[j]] l.flatten) →
    ∃ l, Out.mapOut f ((List.range' a n).map Int.ofNat) = .ok l ∧ Ints ((row.drop a).take n) l.flatten.flatten
  | 0, _, _ => ⟨[], rfl, by simpa using Ints.nil⟩
  | n + 1, hn, h => by
    obtain ⟨x, e1, h1⟩ := h a (by omega) (Nat.le_refl _)
    obtain ⟨l, e2, h2⟩ := mapOut_range_ints (a + 1) n (by omega) (fun j hj hl => h j hj (by omega))
    refine ⟨x :: l, ?_, ?_⟩
    · rw [List.range'_succ, List.map_cons]
      exact Out.mapOut_cons_eq_ok.mpr ⟨x, l, e1, e2, rfl⟩
    · have e : (row.drop a).take (n + 1) = row[a] :: (row.drop (a + 1)).take n := by
        rw [List.drop_eq_getElem_cons (by omega), List.take_succ_cons]
      rw [e]
      have := h1.append h2
      simpa using this

theorem between_eq (a b : Nat) : between (a : Int) (b : Int) = (List.range' a (b - a)).map Int.ofNat := by
  unfold between upto
  rw [List.map_map, show ((b : Int) - a).toNat = b - a by omega, List.range'_eq_map_range, List.map_map]
  apply List.map_congr_left
  intro x _
  simp

/-- The entries from `a` to `b`. -/
theorem cells_between {f : Int → Out (List Str)} {row : List Int} {a b : Int} (ha : 0 ≤ a) (hab : a ≤ b) (hb : b ≤ row.length)
    (h : ∀ j (hj : j < row.length), a ≤ j → (j : Int) < b → ∃ l, f j = .ok l ∧ Ints [row[j]] l.flatten) :
    ∃ l, Out.mapOut f (between a b) = .ok l ∧ Ints ((row.drop a.toNat).take (b.toNat - a.toNat)) l.flatten.flatten := by
  obtain ⟨a, rfl⟩ := Int.eq_ofNat_of_zero_le ha
  obtain ⟨b, rfl⟩ := Int.eq_ofNat_of_zero_le (show 0 ≤ b by omega)
  rw [between_eq]
  have hr : (row.take b).length = b := by rw [List.length_take]; omega
  obtain ⟨l, e1, h1⟩ := mapOut_range_ints (f := f) (row := row.take b) a (b - a) (by rw [hr]; omega) (by
    intro j hj hl
    rw [hr] at hj
    obtain ⟨l, e, h1⟩ := h j (by omega) (by omega) (by omega)
    exact ⟨l, e, by rwa [List.getElem_take]⟩)
  refine ⟨l, e1, ?_⟩
  have e : ((row.take b).drop a).take (b - a) = (row.drop a).take (b - a) := by
    rw [List.drop_take, List.take_take, Nat.min_self]
  rw [e] at h1
  simpa using h1

/-! ## Rows -/

theorem rowComment_total {c : Cfg} (hv : c.Valid) {names : Names} (hnn : NamesNoNL names) {r : Part} {rest : Rel} (hf : PartFits c r)
    (h : Named c names r (r :: rest)) {i : Nat} (hi : i < r.m.length) {strings : List Str} (hn : (strings.length : Int) = r.nb_columns)
    (hs : ∀ w ∈ strings, w.length ≤ 12) (hsn : ∀ w ∈ strings, NoNL w) : ∃ t, rowComment c r rest i strings names = .ok t ∧ IsComment t := by
  obtain ⟨t, e, _⟩ := sprint_comment_total hv hf h hi hn hs
  refine ⟨t, e, ?_⟩
  unfold rowComment at e
  split at e
  · next a ha => exact sprint_comment_isComment hsn (by rw [← ha]; exact hnn.2.2.2.2) e
  · cases e

/-- The columns after the first one, for a row which is not that of a domain. -/
theorem restPieces_other {c : Cfg} {r : Part} (hf : PartFits c r) (ht : r.type ≠ TYPE_DOMAIN) {access fake : Bool} {i : Nat} (hi : i < r.m.length) :
    ∃ l, restPieces c r access fake i = .ok l ∧
      Ints (if access = true ∧ r.nb_rows = 1 then (otherRow r fake 0 r.m[i]).tail.dropLast ++ [0] else (otherRow r fake 0 r.m[i]).tail) l.flatten := by
  have hc := hf.valid.cols r.m[i] (List.getElem_mem hi)
  have hd := hf.dims
  unfold Part.Dims at hd
  have hcell : ∀ j (hj : j < r.m[i].length), ∃ l, cellPieces c r i j = .ok l ∧ Ints [r.m[i][j]] l.flatten := fun j hj => cellPieces_total hf hi hj
  unfold restPieces
  rw [if_neg ht]
  have hfk : Ints (if fake then [0] else []) (if fake then ["   0 ".toList] else []).flatten := by
    cases fake
    · exact Ints.nil
    · exact ints_zero 3 0
  have hlen : (1 + r.nb_output_dims + r.nb_input_dims).toNat = 1 + r.nb_output_dims.toNat + r.nb_input_dims.toNat := by omega
  have hlen1 : (1 + r.nb_output_dims).toNat = 1 + r.nb_output_dims.toNat := by omega
  by_cases hcond : access = true ∧ r.nb_rows = 1
  · rw [if_pos hcond]
    obtain ⟨rfl, h1⟩ := hcond
    have hset : (r.m[i].set (r.m[i].length - 1) 0).length = r.m[i].length := by simp
    have key : ∀ zero : Str, Ints [0] zero → ∀ j (hj : j < (r.m[i].set (r.m[i].length - 1) 0).length),
        ∃ l, accessPieces c r true zero i j = .ok l ∧ Ints [(r.m[i].set (r.m[i].length - 1) 0)[j]] l.flatten := by
      intro zero hz j hj
      rw [hset] at hj
      unfold accessPieces
      simp only [h1, decide_true, Bool.true_and]
      by_cases hl : (j : Int) = r.nb_columns - 1
      · rw [if_pos (by simpa using hl)]
        refine ⟨_, rfl, ?_⟩
        have : j = r.m[i].length - 1 := by omega
        rw [List.getElem_set, if_pos this.symm]
        simpa using hz
      · rw [if_neg (by simpa using hl)]
        rw [List.getElem_set, if_neg (by omega)]
        exact hcell j hj
    obtain ⟨la, ea, ha⟩ := cells_between (f := accessPieces c r true "   0 ".toList i) (row := r.m[i].set (r.m[i].length - 1) 0) (a := 1 + r.nb_output_dims)
      (b := 1 + r.nb_output_dims + r.nb_input_dims) (by omega) (by omega) (by rw [hset]; omega) (fun j hj _ _ => key _ (ints_zero 3 0) j hj)
    obtain ⟨lb, eb, hb⟩ := cells_between (f := accessPieces c r true "  0 ".toList i) (row := r.m[i].set (r.m[i].length - 1) 0)
      (a := 1 + r.nb_output_dims + r.nb_input_dims) (b := r.nb_columns) (by omega) (by omega) (by rw [hset]; omega) (fun j hj _ _ => key _ (ints_zero 2 0) j hj)
    rw [ea, eb]
    refine ⟨_, rfl, ?_⟩
    have hh := (ha.append hfk).append hb
    rw [hlen, hlen1] at hh
    have e : (otherRow r fake 0 r.m[i]).tail.dropLast ++ [0] =
        (((r.m[i].set (r.m[i].length - 1) 0).drop (1 + r.nb_output_dims.toNat)).take (1 + r.nb_output_dims.toNat + r.nb_input_dims.toNat - (1 + r.nb_output_dims.toNat)) ++
          if fake then [0] else []) ++ ((r.m[i].set (r.m[i].length - 1) 0).drop (1 + r.nb_output_dims.toNat + r.nb_input_dims.toNat)).take
            (r.nb_columns.toNat - (1 + r.nb_output_dims.toNat + r.nb_input_dims.toNat)) := by
      have h2 : r.m[i].drop (1 + r.nb_output_dims.toNat + r.nb_input_dims.toNat) ≠ [] := by
        rw [Ne, List.drop_eq_nil_iff]; omega
      unfold otherRow
      rw [List.tail_cons, List.dropLast_append_of_ne_nil h2, List.append_assoc]
      congr 1
      · congr 1
        rw [show 1 + r.nb_output_dims.toNat + r.nb_input_dims.toNat - (1 + r.nb_output_dims.toNat) = r.nb_input_dims.toNat by omega]
        apply List.ext_getElem
        · simp
        · intro k k1 k2
          simp only [List.length_take, List.length_drop] at k1
          simp only [List.getElem_take, List.getElem_drop]
          rw [List.getElem_set, if_neg (by omega)]
      · apply List.ext_getElem
        · simp; omega
        · intro k k1 k2
          simp only [List.length_append, List.length_dropLast, List.length_drop, List.length_singleton] at k1
          simp only [List.getElem_take, List.getElem_drop]
          rw [List.getElem_append]
          split
          · next hk =>
            simp only [List.length_dropLast, List.length_drop] at hk
            rw [List.getElem_set, if_neg (by omega), List.getElem_dropLast, List.getElem_drop]
          · next hk =>
            simp only [List.length_dropLast, List.length_drop] at hk
            rw [List.getElem_set, if_pos (by omega)]
            simp
    rw [e]
    simpa using hh
  · rw [if_neg hcond]
    have key : ∀ zero : Str, accessPieces c r access zero i = cellPieces c r i := by
      intro zero
      funext j
      unfold accessPieces
      rw [if_neg]
      simp only [Bool.and_eq_true, decide_eq_true_eq]
      rintro ⟨⟨h1, h2⟩, _⟩
      exact hcond ⟨h1, h2⟩
    rw [key, key]
    obtain ⟨la, ea, ha⟩ := cells_between (f := cellPieces c r i) (row := r.m[i]) (a := 1 + r.nb_output_dims)
      (b := 1 + r.nb_output_dims + r.nb_input_dims) (by omega) (by omega) (by omega) (fun j hj _ _ => hcell j hj)
    obtain ⟨lb, eb, hb⟩ := cells_between (f := cellPieces c r i) (row := r.m[i])
      (a := 1 + r.nb_output_dims + r.nb_input_dims) (b := r.nb_columns) (by omega) (by omega) (by omega) (fun j hj _ _ => hcell j hj)
    rw [ea, eb]
    refine ⟨_, rfl, ?_⟩
    have hh := (ha.append hfk).append hb
    rw [hlen, hlen1] at hh
    have e : (otherRow r fake 0 r.m[i]).tail =
        ((r.m[i].drop (1 + r.nb_output_dims.toNat)).take (1 + r.nb_output_dims.toNat + r.nb_input_dims.toNat - (1 + r.nb_output_dims.toNat)) ++
          if fake then [0] else []) ++ (r.m[i].drop (1 + r.nb_output_dims.toNat + r.nb_input_dims.toNat)).take
            (r.nb_columns.toNat - (1 + r.nb_output_dims.toNat + r.nb_input_dims.toNat)) := by
      unfold otherRow
      rw [List.tail_cons, show 1 + r.nb_output_dims.toNat + r.nb_input_dims.toNat - (1 + r.nb_output_dims.toNat) = r.nb_input_dims.toNat by omega]
      congr 1
      rw [List.take_of_length_le (by rw [List.length_drop]; omega)]
    rw [e]
    simpa using hh

theorem restPieces_domain {c : Cfg} {r : Part} (hf : PartFits c r) (ht : r.type = TYPE_DOMAIN) {access fake : Bool} {i : Nat} (hi : i < r.m.length) :
    ∃ l, restPieces c r access fake i = .ok l ∧ Ints (domainRow r r.m[i]).tail l.flatten := by
  have hc := hf.valid.cols r.m[i] (List.getElem_mem hi)
  have hd := hf.dims
  unfold Part.Dims at hd
  have hcell : ∀ j (hj : j < r.m[i].length), ∃ l, cellPieces c r i j = .ok l ∧ Ints [r.m[i][j]] l.flatten := fun j hj => cellPieces_total hf hi hj
  unfold restPieces
  rw [if_pos ht]
  obtain ⟨la, ea, ha⟩ := cells_between (f := cellPieces c r i) (row := r.m[i]) (a := 1)
    (b := 1 + r.nb_output_dims) (by omega) (by omega) (by omega) (fun j hj _ _ => hcell j hj)
  obtain ⟨lb, eb, hb⟩ := cells_between (f := cellPieces c r i) (row := r.m[i])
    (a := 1 + r.nb_output_dims + r.nb_input_dims) (b := r.nb_columns) (by omega) (by omega) (by omega) (fun j hj _ _ => hcell j hj)
  rw [ea, eb]
  refine ⟨_, rfl, ?_⟩
  have hh := ha.append hb
  have hlen : (1 + r.nb_output_dims + r.nb_input_dims).toNat = 1 + r.nb_output_dims.toNat + r.nb_input_dims.toNat := by omega
  have hlen1 : (1 + r.nb_output_dims).toNat = 1 + r.nb_output_dims.toNat := by omega
  rw [hlen, hlen1] at hh
  have e : (domainRow r r.m[i]).tail = ((r.m[i].drop (1 : Int).toNat).take (1 + r.nb_output_dims.toNat - (1 : Int).toNat)) ++
      (r.m[i].drop (1 + r.nb_output_dims.toNat + r.nb_input_dims.toNat)).take (r.nb_columns.toNat - (1 + r.nb_output_dims.toNat + r.nb_input_dims.toNat)) := by
    have h2 : (r.m[i].drop (1 + r.nb_output_dims.toNat + r.nb_input_dims.toNat)).take (r.nb_columns.toNat - (1 + r.nb_output_dims.toNat + r.nb_input_dims.toNat)) =
        r.m[i].drop (1 + r.nb_output_dims.toNat + r.nb_input_dims.toNat) := List.take_of_length_le (by rw [List.length_drop]; omega)
    unfold domainRow
    rw [h2]
    cases hrow : r.m[i] with
    | nil => rw [hrow] at hc; simp at hc; omega
    | cons a row =>
      rw [show 1 + r.nb_output_dims.toNat = r.nb_output_dims.toNat + 1 by omega]
      simp
  rw [e]
  simpa using hh

theorem mapOut_says {f : Int → Out (List Str)} : ∀ (rows : List (List Int)) (a : Nat), (∀ k (hk : k < rows.length), ∃ l, f ((a + k : Nat) : Int) = .ok l ∧ SaysInts l.flatten [rows[k]]) →
    ∃ l, Out.mapOut f ((List.range' a rows.length).map Int.ofNat) = .ok l ∧ SaysInts l.flatten.flatten rows
  | [], a, _ => ⟨[], rfl, SaysInts.nil⟩
  | row :: rows, a, h => by
    obtain ⟨x, e1, h1⟩ := h 0 (by simp)
    obtain ⟨l, e2, h2⟩ := mapOut_says rows (a + 1) (fun k hk => by
      obtain ⟨l, e, h⟩ := h (k + 1) (by simp; omega)
      exact ⟨l, by rw [show a + 1 + k = a + (k + 1) by omega]; exact e, by simpa using h⟩)
    refine ⟨x :: l, ?_, ?_⟩
    · rw [List.length_cons, List.range'_succ, List.map_cons]
      exact Out.mapOut_cons_eq_ok.mpr ⟨x, l, e1, e2, rfl⟩
    · have := h1.append h2
      simpa using this

theorem rows_between {f : Int → Out (List Str)} {rows : List (List Int)} {a : Nat} {b : Int} (hb : b = a + rows.length ∨ (rows = [] ∧ b ≤ a))
    (h : ∀ k (hk : k < rows.length), ∃ l, f ((a + k : Nat) : Int) = .ok l ∧ SaysInts l.flatten [rows[k]]) :
    ∃ l, Out.mapOut f (between a b) = .ok l ∧ SaysInts l.flatten.flatten rows := by
  obtain ⟨l, e, h⟩ := mapOut_says rows a h
  refine ⟨l, ?_, h⟩
  rw [← e]
  congr 1
  rcases hb with rfl | ⟨rfl, hb⟩
  · have := between_eq a (a + rows.length)
    rw [Int.natCast_add, Nat.add_sub_cancel_left] at this
    exact this
  · unfold between upto
    rw [show (b - (a : Int)).toNat = 0 by omega]
    rfl

/-- The hypotheses on a part and on the names of its columns. -/
structure RowReady (c : Cfg) (names : Names) (r : Part) (rest : Rel) (strings : List Str) : Prop where
  valid : c.Valid
  noNL : NamesNoNL names
  fits : PartFits c r
  named : Named c names r (r :: rest)
  length : (strings.length : Int) = r.nb_columns
  short : ∀ w ∈ strings, w.length ≤ 12
  stringsNoNL : ∀ w ∈ strings, NoNL w

theorem row_nonempty {c : Cfg} {r : Part} (hf : PartFits c r) {i : Nat} (hi : i < r.m.length) : 1 < r.m[i].length := by
  have hc := hf.valid.cols r.m[i] (List.getElem_mem hi)
  have hd := hf.dims
  unfold Part.Dims at hd
  omega

theorem headD_getElem {α : Type} {l : List α} (h : 0 < l.length) (d : α) : l.headD d = l[0] := by
  cases l with
  | nil => simp at h
  | cons a l => rfl

theorem domainRow_tail (r : Part) {row : List Int} (h : 0 < row.length) : [row[0]] ++ (domainRow r row).tail = domainRow r row := by
  unfold domainRow
  cases row with
  | nil => simp at h
  | cons a row => rw [show 1 + r.nb_output_dims.toNat = r.nb_output_dims.toNat + 1 by omega]; simp

/-- A row which is not that of an access. -/
theorem row_says {c : Cfg} {names : Names} {r : Part} {rest : Rel} {strings : List Str} (h : RowReady c names r rest strings) {fake : Bool} {start : Int} {i : Nat}
    (hi : i < r.m.length) : ∃ l, rowPiecesScoplib c r rest strings names false fake start i = .ok l ∧
      SaysInts l.flatten [if r.type = TYPE_DOMAIN then domainRow r r.m[i] else otherRow r fake (r.m[i].headD 0) r.m[i]] := by
  obtain ⟨t, et, ht⟩ := rowComment_total h.valid h.noNL h.fits h.named hi h.length h.short h.stringsNoNL
  have hne := row_nonempty h.fits hi
  obtain ⟨l0, e0, h0⟩ := cellPieces_total h.fits hi (j := 0) (by omega)
  have e0' : firstPieces c r false start i = .ok l0 := by simp only [firstPieces, Bool.not_false, if_true]; exact e0
  have hhead : r.m[i].headD 0 = r.m[i][0] := headD_getElem (by omega) 0
  unfold rowPiecesScoplib
  rw [e0', et]
  by_cases hd : r.type = TYPE_DOMAIN
  · obtain ⟨l1, e1, h1⟩ := restPieces_domain h.fits hd (access := false) (fake := fake) hi
    rw [e1, if_pos hd]
    refine ⟨_, rfl, ?_⟩
    have hh := (h0.append h1).says (by simp) ht.tail
    have e : [r.m[i][0]] ++ (domainRow r r.m[i]).tail = domainRow r r.m[i] := domainRow_tail r (by omega)
    rw [e] at hh
    simpa using hh
  · obtain ⟨l1, e1, h1⟩ := restPieces_other h.fits hd (access := false) (fake := fake) hi
    rw [if_neg (by simp)] at h1
    rw [e1, if_neg hd]
    refine ⟨_, rfl, ?_⟩
    have hh := (h0.append h1).says (by simp) ht.tail
    have e : [r.m[i][0]] ++ (otherRow r fake 0 r.m[i]).tail = otherRow r fake (r.m[i].headD 0) r.m[i] := by rw [hhead]; rfl
    rw [e] at hh
    simpa using hh

/-- A row of an access. -/
theorem access_row_says {c : Cfg} {names : Names} {r : Part} {rest : Rel} {strings : List Str} (h : RowReady c names r rest strings) (hd : r.type ≠ TYPE_DOMAIN) {fake : Bool}
    {start : Int} {i : Nat} (hi : i < r.m.length) : ∃ l, rowPiecesScoplib c r rest strings names true fake start i = .ok l ∧
      SaysInts l.flatten [let first := if (i : Int) = start then constantOf (r.m.headD []) else 0
        if r.nb_rows = 1 then (otherRow r fake first r.m[i]).dropLast ++ [0] else otherRow r fake first r.m[i]] := by
  obtain ⟨t, et, ht⟩ := rowComment_total h.valid h.noNL h.fits h.named hi h.length h.short h.stringsNoNL
  have hi0 : 0 < r.m.length := by omega
  have hc := h.fits.valid.cols r.m[0] (List.getElem_mem hi0)
  have hne := row_nonempty h.fits hi0
  obtain ⟨l0, e0, h0⟩ : ∃ l, firstPieces c r true start i = .ok l ∧ Ints [if (i : Int) = start then constantOf (r.m.headD []) else 0] l.flatten := by
    unfold firstPieces
    simp only [Bool.not_true, Bool.false_eq_true, if_false]
    by_cases he : (i : Int) = start
    · rw [if_pos he, if_pos he]
      obtain ⟨l, e, h⟩ := cellPieces_total h.fits hi0 (j := r.m[0].length - 1) (by omega)
      refine ⟨l, ?_, ?_⟩
      · rw [← e]; congr 1; omega
      · have : constantOf (r.m.headD []) = r.m[0][r.m[0].length - 1] := by
          have e1 : r.m.headD [] = r.m[0] := headD_getElem hi0 []
          unfold constantOf
          rw [e1, List.getLastD_eq_getLast?, List.getLast?_eq_getElem?, List.getElem?_eq_getElem (by omega)]
          rfl
        rw [this]; exact h
    · rw [if_neg he, if_neg he]
      exact ⟨_, rfl, ints_zero 3 1⟩
  obtain ⟨l1, e1, h1⟩ := restPieces_other h.fits hd (access := true) (fake := fake) hi
  unfold rowPiecesScoplib
  rw [e0, e1, et]
  refine ⟨_, rfl, ?_⟩
  dsimp only
  by_cases hr : r.nb_rows = 1
  · rw [if_pos (And.intro rfl hr)] at h1
    have hh := (h0.append h1).says (by simp) ht.tail
    rw [if_pos hr]
    have e : ∀ f : Int, [f] ++ ((otherRow r fake 0 r.m[i]).tail.dropLast ++ [0]) = (otherRow r fake f r.m[i]).dropLast ++ [0] := by
      intro f
      unfold otherRow
      have h2 : r.m[i].drop (1 + r.nb_output_dims.toNat + r.nb_input_dims.toNat) ≠ [] := by
        have := h.fits.valid.cols r.m[i] (List.getElem_mem hi)
        have hd := h.fits.dims
        unfold Part.Dims at hd
        rw [Ne, List.drop_eq_nil_iff]; omega
      rw [List.tail_cons, List.dropLast_cons_of_ne_nil (by simp [h2])]
      simp
    rw [e] at hh
    simpa using hh
  · rw [if_neg (fun e => hr e.2)] at h1
    have hh := (h0.append h1).says (by simp) ht.tail
    rw [if_neg hr]
    have e : ∀ f : Int, [f] ++ (otherRow r fake 0 r.m[i]).tail = otherRow r fake f r.m[i] := fun f => rfl
    rw [e] at hh
    simpa using hh

theorem columnsScoplib_length (r : Part) : ∀ (l : List Str) (i : Int), (columnsScoplib r l i).length ≤ 5 * l.length
  | [], _ => by simp [columnsScoplib]
  | s :: l, i => by
    have h1 := columnsScoplib_length r l (i + 1)
    have h2 := columnName_length (s := s)
    simp only [columnsScoplib, List.length_append, List.length_cons]
    split <;> simp <;> omega

theorem columnsScoplib_noNL (r : Part) : ∀ (l : List Str) (i : Int), (∀ w ∈ l, NoNL w) → NoNL (columnsScoplib r l i)
  | [], _, _ => NoNL.nil
  | s :: l, i, h => by
    have h1 := columnsScoplib_noNL r l (i + 1) fun w hw => h w (by simp [hw])
    unfold columnsScoplib
    refine NoNL.append ?_ h1
    split
    · refine (columnName_noNL (h s (by simp))).append (NoNL.cons ?_ NoNL.nil)
      unfold columnSep; split <;> decide
    · exact NoNL.nil

theorem fakeRow_says (r : Part) (i : Nat) (hi : i = 0 ∨ i = 1) (hc : 0 < r.nb_columns) : SaysInts (fakeRow r i).flatten
    [if i = 0 then (List.range r.nb_columns.toNat).map (fun j => if j = 1 then 1 else 0) else List.replicate r.nb_columns.toNat 0] := by
  have key : ∀ (f : Int → Int) (hf : ∀ j, f j = 0 ∨ f j = 1) (l : List Int), Ints (l.map f) (l.map fun j => if f j = 1 then "   1 ".toList else "   0 ".toList).flatten := by
    intro f hf l
    induction l with
    | nil => exact Ints.nil
    | cons j l ih =>
      have h1 : Ints [f j] (if f j = 1 then "   1 ".toList else "   0 ".toList) := by
        rcases hf j with h | h
        · rw [h]; exact ints_zero 3 0
        · rw [h]
          have := Ints.cons (v := 1) 3 0 Ints.nil
          exact this
      exact h1.append ih
  let f : Int → Int := fun j => if j = 1 ∧ i = 0 then 1 else 0
  have h := (key f (by intro j; dsimp only [f]; split <;> simp) (upto r.nb_columns)).says (by
    unfold upto
    intro e
    rw [List.map_eq_nil_iff, List.map_eq_nil_iff, List.range_eq_nil] at e
    omega) (.inl rfl)
  have e1 : (upto r.nb_columns).map f = if i = 0 then (List.range r.nb_columns.toNat).map (fun j => if j = 1 then 1 else 0) else List.replicate r.nb_columns.toNat 0 := by
    unfold upto
    rw [List.map_map]
    rcases hi with rfl | rfl
    · rw [if_pos rfl]
      apply List.map_congr_left
      intro j _
      dsimp only [f, Function.comp]
      by_cases hj : j = 1
      · subst hj; rfl
      · rw [if_neg (by rintro ⟨h1, _⟩; apply hj; exact Int.ofNat.inj h1), if_neg hj]
    · rw [if_neg (by decide)]
      have : (f ∘ Int.ofNat) = fun _ => 0 := by funext j; simp [f]
      rw [this, List.map_const']
      simp
  rw [e1] at h
  have e2 : (fakeRow r i).flatten = ((upto r.nb_columns).map fun j => if f j = 1 then "   1 ".toList else "   0 ".toList).flatten ++ ([] ++ ['\n']) := by
    unfold fakeRow
    rw [List.flatten_append]
    congr 2
    apply List.map_congr_left
    intro j _
    dsimp only [f]
    by_cases hj : j = 1 ∧ i = 0
    · simp only [if_pos hj, if_true]
    · simp only [if_neg hj]; rfl
  rw [e2]
  exact h

/-- What is required of the parts: they are all accesses of the SCoPLib format or none is, domains are not accesses, and a scattering with a fake iterator has
at most three rows. -/
structure ScoplibPart (access fake : Bool) (p : Part) : Prop where
  kind : access = isAccessArray p.type
  rows : fake = true → p.type = TYPE_SCATTERING → p.nb_rows ≤ 3

theorem isAccessArray_types {t : Int} (h : isAccessArray t = true) : t ≠ TYPE_DOMAIN ∧ t ≠ TYPE_SCATTERING := by
  unfold isAccessArray at h
  simp only [Bool.or_eq_true, decide_eq_true_eq] at h
  rcases h with rfl | rfl <;> exact ⟨by decide, by decide⟩

theorem size_says {r : Part} {strings : List Str} {fake : Bool} (hs : ∀ w ∈ strings, NoNL w) (hl : 5 * strings.length + 2 < MAX_STRING ∨ r.nb_rows ≤ 0) :
    ∃ l, sizePieces r strings fake = .ok l ∧ SaysInts l.flatten (
      if r.type = TYPE_DOMAIN then
        if fake then [[r.nb_rows + 1, r.nb_columns - r.nb_input_dims + 1], 0 :: 1 :: (List.replicate r.nb_parameters.toNat 0 ++ [0])]
        else [[r.nb_rows, r.nb_columns - r.nb_input_dims]]
      else if fake then [[r.nb_rows + 2, r.nb_columns - r.nb_output_dims + 1]] else [[r.nb_rows, r.nb_columns - r.nb_output_dims]]) := by
  obtain ⟨col, e1, h1⟩ : ∃ l, (if r.nb_rows > 0 then do
      let s ← column_string_scoplib r strings
      return [s]
    else .ok [] : Out (List Str)) = .ok l ∧ SaysInts l.flatten [] := by
    by_cases h0 : r.nb_rows > 0
    · rw [if_pos h0]
      have := columnsScoplib_length r strings 0
      unfold column_string_scoplib
      rw [buffered_lt (by simp only [List.length_append, List.length_cons, List.length_nil]; omega)]
      refine ⟨_, rfl, ?_⟩
      have := Says.comment (columnsScoplib_noNL r strings 0 hs)
      simpa [SaysInts] using this
    · rw [if_neg h0]; exact ⟨_, rfl, SaysInts.nil⟩
  unfold sizePieces
  rw [e1]
  refine ⟨_, rfl, ?_⟩
  rw [List.flatten_append]
  have app : ∀ {s : Str} {a : List (List Int)}, SaysInts s a → SaysInts (s ++ col.flatten) a := by
    intro s a h
    have := h.append h1
    simpa using this
  apply app
  by_cases hd : r.type = TYPE_DOMAIN
  · rw [if_pos hd, if_pos hd]
    cases fake with
    | false => simpa using sizeLine_says _ _
    | true =>
      simp only [if_true]
      have hrep : ∀ n : Nat, Ints (List.replicate n 0) (List.replicate n "   0 ".toList).flatten := by
        intro n
        induction n with
        | zero => exact Ints.nil
        | succ n ih =>
          rw [List.replicate_succ, List.replicate_succ, List.flatten_cons]
          exact Ints.append (a := [0]) (ints_zero 3 0) ih
      have hlast : Ints [0] "    0 ".toList := ints_zero 4 0
      have h1 : Ints [1] "   1 ".toList := Ints.cons (v := 1) 3 0 Ints.nil
      have hrow := (((Ints.append (a := [0]) (ints_zero 3 0) h1).append (hrep r.nb_parameters.toNat)).append hlast)
      have hline := hrow.says (t := " ## fakeiter == 0".toList) (by simp) (.inr ⟨1, "# fakeiter == 0".toList, rfl, by unfold NoNL; decide⟩)
      have hsays : SaysInts ("   0 ".toList ++ ("   1 ".toList ++ ((List.replicate r.nb_parameters.toNat "   0 ".toList).flatten ++ "    0  ## fakeiter == 0\n".toList)))
          [0 :: 1 :: (List.replicate r.nb_parameters.toNat 0 ++ [0])] := by
        simpa using hline
      have := (sizeLine_says (r.nb_rows + 1) (r.nb_columns - r.nb_input_dims + 1)).append hsays
      simpa using this
  · rw [if_neg hd, if_neg hd]
    cases fake with
    | false => simpa using sizeLine_says _ _
    | true => simpa using sizeLine_says _ _

theorem getElem_of_map {α β : Type} (f : α → β) (l : List α) {k : Nat} (hk : k < (l.map f).length) : (l.map f)[k] = f (l[k]'(by simpa using hk)) := by simp

/-- The rows of a part. -/
theorem rows_says {c : Cfg} {names : Names} {r : Part} {rest : Rel} {strings : List Str} (h : RowReady c names r rest strings) {access fake : Bool}
    (hp : ScoplibPart access fake r) : ∃ l, rowsPieces c r rest strings names access fake = .ok l ∧ SaysInts l.flatten (
      if access then accessTable r fake
      else if r.type = TYPE_DOMAIN then r.m.map (domainRow r)
      else if fake = true ∧ r.type = TYPE_SCATTERING then (r.m.take 1).map (fun row => otherRow r true (row.headD 0) row) ++ (if r.m = [] then [] else fakeLines r)
      else r.m.map fun row => otherRow r fake (row.headD 0) row) := by
  have hrows := h.fits.valid.rows
  have hcol : 0 < r.nb_columns := by have := h.fits.dims; unfold Part.Dims at this; omega
  cases access with
  | true =>
    have hk := isAccessArray_types (hp.kind.symm)
    rw [if_pos rfl]
    unfold rowsPieces
    rw [if_neg (by simp [hk.2])]
    have key := fun (i : Nat) (hi : i < r.m.length) (start : Int) => access_row_says h hk.1 (fake := fake) (start := start) hi
    obtain ⟨l, e, hl⟩ : ∃ l, Out.mapOut (rowPiecesScoplib c r rest strings names true fake (startRow r true)) (between (startRow r true) r.nb_rows) = .ok l ∧
        SaysInts l.flatten.flatten (accessTable r fake) := by
      match hm : r.m with
      | [] =>
        have h0 : r.nb_rows = 0 := by rw [hm] at hrows; simpa using hrows.symm
        have hs : startRow r true = (1 : Nat) := by simp [startRow, h0]
        rw [hs]
        have := rows_between (f := rowPiecesScoplib c r rest strings names true fake ((1 : Nat) : Int)) (rows := []) (a := 1) (b := r.nb_rows) (.inr ⟨rfl, by omega⟩) (by simp)
        simpa [accessTable, hm] using this
      | [row] =>
        have h1 : r.nb_rows = 1 := by rw [hm] at hrows; simpa using hrows.symm
        have hs : startRow r true = (0 : Nat) := by simp [startRow, h1]
        rw [hs]
        refine rows_between (.inl (by rw [h1]; simp [accessTable, hm])) ?_
        intro k hk'
        have hk0 : k = 0 := by simp [accessTable, hm] at hk'; omega
        subst hk0
        obtain ⟨l, e, hl⟩ := key 0 (by rw [hm]; simp) ((0 : Nat) : Int)
        refine ⟨l, e, ?_⟩
        simpa [h1, hm, accessTable] using hl
      | row :: row' :: rows =>
        have h1 : r.nb_rows = rows.length + 2 := by rw [hm] at hrows; simp at hrows; omega
        have hn1 : r.nb_rows ≠ 1 := by omega
        have hs : startRow r true = (1 : Nat) := by simp [startRow, hn1]
        rw [hs]
        refine rows_between (.inl (by rw [h1]; simp [accessTable, hm]; omega)) ?_
        intro k hk'
        have hk1 : k < rows.length + 1 := by simpa [accessTable, hm] using hk'
        obtain ⟨l, e, hl⟩ := key (1 + k) (by rw [hm]; simp; omega) ((1 : Nat) : Int)
        refine ⟨l, e, ?_⟩
        dsimp only at hl
        rw [if_neg hn1] at hl
        have e1 : (accessTable r fake)[k] = otherRow r fake (if ((1 + k : Nat) : Int) = ((1 : Nat) : Int) then constantOf (r.m.headD []) else 0) (r.m[1 + k]'(by rw [hm]; simp; omega)) := by
          cases k with
          | zero => simp [accessTable, hm]
          | succ k =>
            rw [if_neg (by omega)]
            simp [accessTable, hm, show 1 + (k + 1) = k + 2 by omega]
        rw [e1]
        exact hl
    rw [e]
    exact ⟨_, rfl, hl⟩
  | false =>
    rw [if_neg (by simp)]
    unfold rowsPieces
    by_cases hfs : fake = true ∧ r.type = TYPE_SCATTERING
    · obtain ⟨rfl, hsc⟩ := hfs
      have hnd : r.type ≠ TYPE_DOMAIN := by rw [hsc]; decide
      rw [if_neg hnd, if_pos (And.intro rfl hsc), if_pos (show (true && decide (r.type = TYPE_SCATTERING)) = true by simp [hsc]), if_neg (show ¬ (false = true) by simp)]
      unfold fakeRows
      match hm : r.m with
      | [] =>
        rw [if_pos (by rw [hm] at hrows; simp at hrows; omega)]
        exact ⟨_, rfl, by simpa using SaysInts.nil⟩
      | row :: rows =>
        rw [if_neg (by rw [hm] at hrows; simp at hrows; omega), if_neg (by have := hp.rows rfl hsc; omega)]
        obtain ⟨l, e, hl⟩ := row_says h (fake := true) (start := 0) (i := 0) (by rw [hm]; simp)
        rw [if_neg hnd] at hl
        have e' : rowPiecesScoplib c r rest strings names false true 0 0 = .ok l := e
        rw [e']
        refine ⟨_, rfl, ?_⟩
        have f0 := fakeRow_says r 0 (.inl rfl) hcol
        have f1 := fakeRow_says r 1 (.inr rfl) hcol
        have := (hl.append f0).append f1
        simpa [hm, fakeLines] using this
    · rw [if_neg (by simpa using hfs)]
      have hs : startRow r false = (0 : Nat) := by simp [startRow]
      rw [hs]
      have key : ∀ (g : List Int → List Int), (∀ i (hi : i < r.m.length), (if r.type = TYPE_DOMAIN then domainRow r r.m[i] else otherRow r fake (r.m[i].headD 0) r.m[i]) = g r.m[i]) →
          ∃ l, Out.mapOut (rowPiecesScoplib c r rest strings names false fake ((0 : Nat) : Int)) (between ((0 : Nat) : Int) r.nb_rows) = .ok l ∧ SaysInts l.flatten.flatten (r.m.map g) := by
        intro g hg
        refine rows_between (.inl (by rw [List.length_map]; omega)) ?_
        intro k hk
        rw [List.length_map] at hk
        obtain ⟨l, e, hl⟩ := row_says h (fake := fake) (start := ((0 : Nat) : Int)) hk
        rw [hg k hk] at hl
        refine ⟨l, by rw [Nat.zero_add]; exact e, ?_⟩
        rw [getElem_of_map]
        exact hl
      by_cases hd : r.type = TYPE_DOMAIN
      · rw [if_pos hd]
        obtain ⟨l, e, hl⟩ := key (domainRow r) (by intro i hi; rw [if_pos hd])
        rw [e]
        exact ⟨_, rfl, hl⟩
      · rw [if_neg hd, if_neg hfs]
        obtain ⟨l, e, hl⟩ := key (fun row => otherRow r fake (row.headD 0) row) (by intro i hi; rw [if_neg hd])
        rw [e]
        exact ⟨_, rfl, hl⟩

theorem says_union (nb part : Nat) : SaysInts (if nb > 1 then ["# Union part No.".toList ++ showNat part ++ ['\n']] else []).flatten [] := by
  split
  · have := Says.comment (u := " Union part No.".toList ++ showNat part) (NoNL.append (by unfold NoNL; decide) (noNL_showNat _))
    have e : ["# Union part No.".toList ++ showNat part ++ ['\n']].flatten = '#' :: (" Union part No.".toList ++ showNat part) ++ ['\n'] := by simp
    rw [e]; exact this
  · exact SaysInts.nil

/-- One part. -/
theorem part_says {c : Cfg} (hv : c.Valid) {names : Names} (hn : NamesNoNL names) {r : Part} {rest : Rel} (hf : PartFits c r) (h : Named c names r (r :: rest))
    {access nth fake : Bool} (hp : ScoplibPart access fake r) (nb part : Nat) :
    ∃ l, partPiecesScoplib c nb part r rest names access nth fake = .ok l ∧
      SaysInts l.flatten ((if nth then [[(part : Int)]] else []) ++ if access then accessTable r fake else partTable r fake) := by
  obtain ⟨strings, e1, hl, hs⟩ := relation_strings_total hf h
  have hsn := (relation_strings_noNL hn e1).2
  obtain ⟨rows, e3, h3⟩ := rows_says (rest := rest) (strings := strings) ⟨hv, hn, hf, h, hl, hs, hsn⟩ hp
  have hw : 5 * strings.length + 2 < MAX_STRING ∨ r.nb_rows ≤ 0 := by
    by_cases h0 : r.nb_rows ≤ 0
    · exact .inr h0
    · have hrows := hf.valid.rows
      have hi : 0 < r.m.length := by omega
      have hc := hf.valid.cols r.m[0] (List.getElem_mem hi)
      have hw := hf.width r.m[0] (List.getElem_mem hi)
      have := rowWidth_length r.m[0]
      have : MAX_STRING = 2048 := rfl
      left; omega
  have hnth : SaysInts (if nth then [showNat part ++ ['\n']] else []).flatten (if nth then [[(part : Int)]] else []) := by
    cases nth
    · exact SaysInts.nil
    · simpa using showNat_says part
  unfold partPiecesScoplib
  rw [e1]
  simp only [Out.ok_bind]
  rw [e3]
  cases access with
  | true =>
    refine ⟨_, rfl, ?_⟩
    have := ((says_union nb part).append hnth).append h3
    rw [List.nil_append] at this
    rw [List.flatten_append, List.flatten_append, List.flatten_append, List.flatten_nil, List.append_nil]
    exact this
  | false =>
    obtain ⟨size, e2, h2⟩ := size_says (r := r) (fake := fake) hsn hw
    have e2' : (if false = true then (.ok [] : Out (List Str)) else sizePieces r strings fake) = .ok size := e2
    rw [e2']
    refine ⟨_, rfl, ?_⟩
    have := (((says_union nb part).append hnth).append h2).append h3
    rw [List.nil_append] at this
    have e : (if r.type = TYPE_DOMAIN then
        if fake then [[r.nb_rows + 1, r.nb_columns - r.nb_input_dims + 1], 0 :: 1 :: (List.replicate r.nb_parameters.toNat 0 ++ [0])]
        else [[r.nb_rows, r.nb_columns - r.nb_input_dims]]
      else if fake then [[r.nb_rows + 2, r.nb_columns - r.nb_output_dims + 1]] else [[r.nb_rows, r.nb_columns - r.nb_output_dims]]) ++
      (if false = true then accessTable r fake
      else if r.type = TYPE_DOMAIN then r.m.map (domainRow r)
      else if fake = true ∧ r.type = TYPE_SCATTERING then (r.m.take 1).map (fun row => otherRow r true (row.headD 0) row) ++ (if r.m = [] then [] else fakeLines r)
      else r.m.map fun row => otherRow r fake (row.headD 0) row) = partTable r fake := by
      unfold partTable
      by_cases hd : r.type = TYPE_DOMAIN
      · simp only [if_pos hd]; cases fake <;> rfl
      · simp only [if_neg hd]
        cases fake
        · simp
        · by_cases hsc : r.type = TYPE_SCATTERING
          · simp [hsc]
          · simp [hsc]
    rw [List.append_assoc (if nth then [[(part : Int)]] else []), e] at this
    rw [List.flatten_append, List.flatten_append, List.flatten_append]
    exact this

theorem parts_says {c : Cfg} (hv : c.Valid) {names : Names} (hn : NamesNoNL names) {access nth fake : Bool} (nb : Nat) : ∀ (r : Rel) (part : Nat),
    (∀ p ∈ r, PartFits c p) → (∀ ps ∈ suffixes r, Named c names ps.1 ps.2) → (∀ p ∈ r, ScoplibPart access fake p) →
    ∃ l, partsPiecesScoplib c nb names access nth fake part r = .ok l ∧ SaysInts l.flatten (partsTable access nth fake part r)
  | [], _, _, _, _ => ⟨_, rfl, SaysInts.nil⟩
  | p :: r, part, hf, h, hp => by
    obtain ⟨a, e1, h1⟩ := part_says hv hn (hf p (by simp)) (h (p, p :: r) (by simp [suffixes])) (nth := nth) (hp p (by simp)) nb part
    obtain ⟨b, e2, h2⟩ := parts_says hv hn (access := access) (nth := nth) (fake := fake) nb r (part + 1) (fun q hq => hf q (by simp [hq])) (fun q hq => h q (by simp [suffixes, hq])) (fun q hq => hp q (by simp [hq]))
    simp only [partsPiecesScoplib]
    rw [e1, e2]
    refine ⟨_, rfl, ?_⟩
    have := h1.append h2
    simpa [partsTable] using this

/-- C64: the SCoPLib text of a relation is written without overflowing any buffer, and what it says is the table `relTable`: the number of parts if there are
several, and for each part its rank if it is asked for, the size of its matrix and its rows in the SCoPLib layout. -/
theorem relation_scoplib_says {c : Cfg} (hv : c.Valid) {names : Names} (hn : NamesNoNL names) {r : Rel} (hf : ∀ p ∈ r, PartFits c p)
    (h : ∀ ps ∈ suffixes r, Named c names ps.1 ps.2) {nth fake : Bool} (hp : ∀ p ∈ r, ScoplibPart (isScoplibAccess r) fake p) :
    ∃ t, spprint_scoplib c r (some names) nth fake = .ok t ∧ SaysInts t (relTable nth fake r) := by
  cases r with
  | nil => simp only [spprint_scoplib, Util.emit_eq]; exact ⟨_, rfl, SaysInts.nil⟩
  | cons p r =>
    obtain ⟨l, e, hl⟩ := parts_says hv hn (nth := nth) (p :: r).length (p :: r) 1 hf h hp
    simp only [spprint_scoplib, spprint_polylib_scoplib, chooseNames, Out.ok_bind]
    have e' : partsPiecesScoplib c (p :: r).length names (isAccessArray p.type) nth fake 1 (p :: r) = .ok l := e
    rw [e']
    simp only [Out.ok_bind, Util.emit_eq]
    refine ⟨_, rfl, ?_⟩
    have hu : SaysInts (if (p :: r).length > 1 then ["# Union with ".toList ++ showNat (p :: r).length ++ " parts\n".toList ++ showNat (p :: r).length ++ ['\n']] else []).flatten
        (if (p :: r).length > 1 then [[((p :: r).length : Int)]] else []) := by
      split
      · have h1 := Says.comment (u := " Union with ".toList ++ showNat (p :: r).length ++ " parts".toList)
          (NoNL.append (NoNL.append (by unfold NoNL; decide) (noNL_showNat _)) (by unfold NoNL; decide))
        have h2 := Says.append h1 (showNat_says (p :: r).length)
        unfold SaysInts
        simpa using h2
      · exact SaysInts.nil
    have := hu.append hl
    simpa [relTable] using this

/-- C64: without names given, they are generated and the text is the same. -/
theorem relation_scoplib_print {c : Cfg} (hv : c.Valid) (hnd : c.ndebug = false) {r : Rel} (hf : ∀ p ∈ r, PartFits c p) (ht : Typed r) {nth fake : Bool}
    (hp : ∀ p ∈ r, ScoplibPart (isScoplibAccess r) fake p) : ∃ t, spprint_scoplib c r none nth fake = .ok t ∧ SaysInts t (relTable nth fake r) := by
  cases r with
  | nil => simp only [spprint_scoplib, Util.emit_eq]; exact ⟨_, rfl, SaysInts.nil⟩
  | cons p r =>
    obtain ⟨names, e, hn⟩ := relation_names_cover hv hnd (r := p :: r) (by simp) hf ht
    obtain ⟨t, e1, h1⟩ := relation_scoplib_says hv (chooseNames_noNL (names := none) (by simp) e) hf hn (nth := nth) hp
    refine ⟨t, ?_, h1⟩
    rw [← e1]
    simp only [spprint_scoplib, spprint_polylib_scoplib, chooseNames, e]

/-- The hypotheses are met by a union of two domains. -/
example : ∃ t, spprint_scoplib Cfg.std [exPart, exPart] none true false = .ok t ∧ SaysInts t (relTable true false [exPart, exPart]) :=
  relation_scoplib_print (by decide) rfl (by
    intro p hp
    simp at hp; subst hp
    exact ⟨⟨by decide, by decide, by decide, by decide, by decide⟩, by decide, by unfold Part.Small; decide, notMin_of (w := 64) rfl (by decide), by decide⟩)
    ⟨by decide, by decide, fun h => absurd h (by decide)⟩ (by intro p hp; simp at hp; subst hp; exact ⟨by decide, by decide⟩)

end Rel
end Osl
