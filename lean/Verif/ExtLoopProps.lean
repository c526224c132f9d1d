import Verif.ExtLoop
import Verif.ExtDepProps
import Verif.ExtMiscProps
/-!
# Properties of the extensions loop and scatinfos (parts of C45, C46)
-/

namespace Osl
namespace Ext

/-! ## loop -/

namespace Loop

/-- Two loops with the same content, up to the order of the statement identifiers (specification). -/
def Same (a b : Loop) : Prop :=
  a.iter = b.iter ∧ a.stmt_ids.Perm b.stmt_ids ∧ a.private_vars = b.private_vars ∧ a.directive = b.directive ∧ a.user = b.user

theorem Same.refl (a : Loop) : Same a a := ⟨rfl, .refl _, rfl, rfl, rfl⟩
theorem Same.symm {a b : Loop} (h : Same a b) : Same b a := ⟨h.1.symm, h.2.1.symm, h.2.2.1.symm, h.2.2.2.1.symm, h.2.2.2.2.symm⟩
theorem Same.trans {a b c : Loop} (h : Same a b) (k : Same b c) : Same a c :=
  ⟨h.1.trans k.1, h.2.1.trans k.2.1, h.2.2.1.trans k.2.2.1, h.2.2.2.1.trans k.2.2.2.1, h.2.2.2.2.trans k.2.2.2.2⟩

/-- A loop with a name and distinct statement identifiers. -/
structure Clean (a : Loop) : Prop where
  named : a.iter ≠ none
  nodup : a.stmt_ids.Nodup

/-- The same strings are NULL in both loops. -/
def SameNulls (a b : Loop) : Prop := (a.private_vars = none ↔ b.private_vars = none) ∧ (a.user = none ↔ b.user = none)

theorem found_iff (i : Int) (m : List Int) : found i m = true ↔ i ∈ m := by
  induction m with
  | nil => simp [found]
  | cons j m ih => simp only [found, List.mem_cons]; by_cases h : i = j <;> simp [h, ih]

theorem idsLoop_iff (m l : List Int) : idsLoop m l = true ↔ ∀ i ∈ l, i ∈ m := by
  induction l with
  | nil => simp [idsLoop]
  | cons i l ih =>
    simp only [idsLoop]
    cases h : found i m with
    | true => have := (found_iff i m).mp h; simp [ih, this]
    | false =>
      have : i ∉ m := by intro hm; rw [(found_iff i m).mpr hm] at h; cases h
      simp [this]

theorem sameStr_eq {a b : Option Str} (h : a = none ↔ b = none) : sameStr a b = .ok (decide (a = b)) := by
  cases a <;> cases b <;> simp [sameStr] at h ⊢

theorem equalRest_eq {a b : Loop} (h : SameNulls a b) :
    equalRest a b = .ok (decide (a.private_vars = b.private_vars ∧ a.directive = b.directive ∧ a.user = b.user)) := by
  unfold equalRest
  rw [sameStr_eq h.1, sameStr_eq h.2]
  simp only [Out.ok_bind]
  by_cases h1 : a.private_vars = b.private_vars
  · by_cases h2 : a.directive = b.directive
    · by_cases h3 : a.user = b.user <;> simp [h1, h2, h3]
    · simp [h1, h2]
  · simp [h1]

theorem equalOne_eq {a b : Loop} (ha : Clean a) (hb : Clean b) (h : SameNulls a b) : ∃ r, equalOne a b = .ok r ∧ (r = true ↔ Same a b) := by
  obtain ⟨x, hx⟩ := Option.ne_none_iff_exists'.mp ha.named
  obtain ⟨y, hy⟩ := Option.ne_none_iff_exists'.mp hb.named
  unfold equalOne
  by_cases h1 : a.stmt_ids.length = b.stmt_ids.length
  · rw [if_neg (by simp [h1]), hx, hy, strEq_some]
    simp only [Out.ok_bind]
    by_cases h2 : x = y
    · subst h2
      simp only [decide_true, Bool.not_true, Bool.false_eq_true, if_false]
      cases h3 : idsLoop b.stmt_ids a.stmt_ids with
      | true =>
        have h4 := (idsLoop_iff _ _).mp h3
        have h5 : a.stmt_ids.Perm b.stmt_ids :=
          (List.perm_ext_iff_of_nodup ha.nodup hb.nodup).mpr fun i => ⟨h4 i, subset_of_length ha.nodup h1 h4 i⟩
        refine ⟨_, by simp only [Bool.not_true, Bool.false_eq_true, if_false]; exact equalRest_eq h, ?_⟩
        simp only [decide_eq_true_eq, Same, hx, hy, true_and, h5]
      | false =>
        refine ⟨false, rfl, ?_⟩
        simp only [Bool.false_eq_true, false_iff]
        intro hs
        rw [(idsLoop_iff _ _).mpr fun i hi => hs.2.1.mem_iff.mp hi] at h3
        cases h3
    · refine ⟨false, by simp [h2], ?_⟩
      simp only [Bool.false_eq_true, false_iff]
      intro hs
      have := hs.1; rw [hx, hy] at this; exact h2 (by simpa using this)
  · refine ⟨false, by simp [h1], ?_⟩
    simp only [Bool.false_eq_true, false_iff]
    intro hs
    exact h1 hs.2.1.length_eq

theorem foundLoop_eq {a : Loop} (ha : Clean a) : ∀ m : List Loop, (∀ b ∈ m, Clean b ∧ SameNulls a b) →
    ∃ r, foundLoop a m = .ok r ∧ (r = true ↔ ∃ b ∈ m, Same a b) := by
  intro m
  induction m with
  | nil => intro _; exact ⟨false, rfl, by simp⟩
  | cons b m ih =>
    intro h
    obtain ⟨r, e1, e2⟩ := equalOne_eq ha (h b (by simp)).1 (h b (by simp)).2
    obtain ⟨r', e3, e4⟩ := ih fun x hx => h x (by simp [hx])
    simp only [foundLoop, e1, Out.ok_bind]
    cases r with
    | true => exact ⟨true, rfl, by simp; exact .inl (e2.mp rfl)⟩
    | false =>
      refine ⟨r', by simpa using e3, ?_⟩
      rw [e4]
      have : ¬ Same a b := fun hs => by have := e2.mpr hs; cases this
      simp [this]

theorem equalLoop_eq : ∀ (l m : List Loop), (∀ a ∈ l, Clean a) → (∀ b ∈ m, Clean b) → (∀ a ∈ l, ∀ b ∈ m, SameNulls a b) →
    ∃ r, equalLoop m l = .ok r ∧ (r = true ↔ ∀ a ∈ l, ∃ b ∈ m, Same a b) := by
  intro l m
  induction l with
  | nil => intro _ _ _; exact ⟨true, rfl, by simp⟩
  | cons a l ih =>
    intro h1 h2 h3
    obtain ⟨r, e1, e2⟩ := foundLoop_eq (h1 a (by simp)) m fun b hb => ⟨h2 b hb, h3 a (by simp) b hb⟩
    obtain ⟨r', e3, e4⟩ := ih (fun x hx => h1 x (by simp [hx])) h2 (fun x hx => h3 x (by simp [hx]))
    simp only [equalLoop, e1, Out.ok_bind]
    cases r with
    | true =>
      refine ⟨r', by simpa using e3, ?_⟩
      rw [e4]
      have := e2.mp rfl
      simp only [List.mem_cons, forall_eq_or_imp]
      exact ⟨fun h => ⟨this, h⟩, fun h => h.2⟩
    | false =>
      refine ⟨false, rfl, ?_⟩
      simp only [Bool.false_eq_true, false_iff]
      intro h
      have := e2.mpr (h a (by simp))
      cases this

/-- C46 for loop: on lists of loops with names, distinct statement identifiers, and the same NULL strings everywhere,
`osl_loop_equal` answers, and it answers yes if and only if the lists have the same length and each loop of the first one
has the same content as a loop of the second one. -/
theorem loop_equal_iff {l m : NE Loop} (h1 : ∀ a ∈ NE.elems (some l), Clean a) (h2 : ∀ b ∈ NE.elems (some m), Clean b)
    (h3 : ∀ a ∈ NE.elems (some l), ∀ b ∈ NE.elems (some m), SameNulls a b) :
    ∃ r, ops.equal (some l) (some m) = .ok r ∧ (r = true ↔
      (NE.elems (some l)).length = (NE.elems (some m)).length ∧ ∀ a ∈ NE.elems (some l), ∃ b ∈ NE.elems (some m), Same a b) := by
  obtain ⟨r, e1, e2⟩ := equalLoop_eq _ _ h1 h2 h3
  have e : ops.equal (some l) (some m) =
      if (NE.elems (some l)).length ≠ (NE.elems (some m)).length then .ok false else equalLoop (NE.elems (some m)) (NE.elems (some l)) := rfl
  rw [e]
  by_cases hl : (NE.elems (some l)).length = (NE.elems (some m)).length
  · rw [if_neg (by simp [hl])]; exact ⟨r, e1, by rw [e2]; simp [hl]⟩
  · rw [if_pos hl]; exact ⟨false, rfl, by simp [hl]⟩

/-- In two lists of the same length, if the elements of the first one are pairwise different and all of them are in the second
one, then all elements of the second one are in the first one (for an equivalence `R`). -/
theorem onto_of_length {α : Type} {R : α → α → Prop} (hs : ∀ a b, R a b → R b a) (ht : ∀ a b c, R a b → R b c → R a c) :
    ∀ (l m : List α), l.length = m.length → l.Pairwise (fun a b => ¬ R a b) → (∀ a ∈ l, ∃ b ∈ m, R a b) → ∀ b ∈ m, ∃ a ∈ l, R b a := by
  intro l
  induction l with
  | nil => intro m h _ _ b hb; have : m = [] := List.length_eq_zero_iff.mp h.symm; simp [this] at hb
  | cons a l ih =>
    intro m h hp hm b hb
    obtain ⟨b0, hb0, r0⟩ := hm a (by simp)
    obtain ⟨m1, m2, rfl⟩ := List.append_of_mem hb0
    rw [List.pairwise_cons] at hp
    have key := ih (m1 ++ m2) (by simp at h ⊢; omega) hp.2 (by
      intro x hx
      obtain ⟨b1, hb1, r1⟩ := hm x (by simp [hx])
      simp only [List.mem_append, List.mem_cons] at hb1
      rcases hb1 with h | rfl | h
      · exact ⟨b1, by simp [h], r1⟩
      · exact absurd (ht _ _ _ r0 (hs _ _ r1)) (hp.1 x hx)
      · exact ⟨b1, by simp [h], r1⟩)
    simp only [List.mem_append, List.mem_cons] at hb
    rcases hb with h | rfl | h
    · obtain ⟨x, hx, r⟩ := key b (by simp [h]); exact ⟨x, by simp [hx], r⟩
    · exact ⟨a, by simp, hs _ _ r0⟩
    · obtain ⟨x, hx, r⟩ := key b (by simp [h]); exact ⟨x, by simp [hx], r⟩

/-- C46 for loop: when no loop is repeated the equality is symmetric. -/
theorem loop_equal_symm {l m : NE Loop} (h1 : ∀ a ∈ NE.elems (some l), Clean a) (h2 : ∀ b ∈ NE.elems (some m), Clean b)
    (h3 : ∀ a ∈ NE.elems (some l), ∀ b ∈ NE.elems (some m), SameNulls a b)
    (d1 : (NE.elems (some l)).Pairwise fun a b => ¬ Same a b) (d2 : (NE.elems (some m)).Pairwise fun a b => ¬ Same a b) :
    ops.equal (some l) (some m) = ops.equal (some m) (some l) := by
  obtain ⟨r, e1, e2⟩ := loop_equal_iff h1 h2 h3
  obtain ⟨r', e3, e4⟩ := loop_equal_iff h2 h1 (fun b hb a ha => ⟨(h3 a ha b hb).1.symm, (h3 a ha b hb).2.symm⟩)
  have : r = true ↔ r' = true := by
    rw [e2, e4]
    constructor
    · rintro ⟨x, y⟩; exact ⟨x.symm, onto_of_length (R := Same) (fun _ _ h => Same.symm h) (fun _ _ _ h k => Same.trans h k) _ _ x d1 y⟩
    · rintro ⟨x, y⟩; exact ⟨x.symm, onto_of_length (R := Same) (fun _ _ h => Same.symm h) (fun _ _ _ h k => Same.trans h k) _ _ x d2 y⟩
  rw [e1, e3, Bool.eq_iff_iff.mpr this]

/-- A loop for the examples. -/
def ex (ids : List Int) (pv : Option Str) : Loop := { iter := some ['i'], stmt_ids := ids, private_vars := pv, directive := 0, user := none }

/-- C46 findings for loop: with repeated statement identifiers or repeated loops the equality is not symmetric; a loop with
private variables cannot be compared with one without. -/
theorem loop_equal_violates :
    (ops.equal (some ⟨ex [1, 1] none, []⟩) (some ⟨ex [1, 2] none, []⟩) = .ok true ∧ ops.equal (some ⟨ex [1, 2] none, []⟩) (some ⟨ex [1, 1] none, []⟩) = .ok false) ∧
    (ops.equal (some ⟨ex [1] none, [ex [1] none]⟩) (some ⟨ex [1] none, [ex [2] none]⟩) = .ok true ∧
      ops.equal (some ⟨ex [1] none, [ex [2] none]⟩) (some ⟨ex [1] none, [ex [1] none]⟩) = .ok false) ∧
    ops.equal (some ⟨ex [1] none, []⟩) (some ⟨ex [1] (some ['a']), []⟩) = .ub := by decide

/-- The hypotheses of the theorems above are met. -/
example : Clean (ex [1, 2] none) ∧ SameNulls (ex [1, 2] none) (ex [2] none) ∧ ¬ Same (ex [1, 2] none) (ex [2] none) :=
  ⟨⟨by decide, by decide⟩, by unfold SameNulls; decide, fun h => by have := h.2.1.length_eq; simp [ex] at this⟩

theorem clone_eq (l : List Loop) : clone l = l := by
  induction l with
  | nil => rfl
  | cons a l ih =>
    obtain ⟨i, ids, p, d, u⟩ := a
    rw [clone, ih]
    cases i <;> cases p <;> cases u <;> rfl

/-- C46 for loop: the copy has the same content, and is equal to it. -/
theorem loop_clone_equal {l : NE Loop} (h1 : ∀ a ∈ NE.elems (some l), Clean a)
    (h3 : ∀ a ∈ NE.elems (some l), ∀ b ∈ NE.elems (some l), SameNulls a b) : ops.clone (some l) = .ok (some l) ∧ ops.CloneEqual l := by
  have e : ops.clone (some l) = .ok (some l) := by
    have : ops.clone (some l) = .ok (NE.ofList (clone (NE.elems (some l)))) := rfl
    rw [this, clone_eq, NE.ofList_elems]
  refine ⟨e, l, e, ?_⟩
  obtain ⟨r, e1, e2⟩ := loop_equal_iff h1 h1 h3
  rw [e1, e2.mpr ⟨rfl, fun a ha => ⟨a, ha, Same.refl a⟩⟩]

/-- `osl_loop_add` appends and `osl_loop_count` counts. -/
theorem loop_add_count (loop ll : List Loop) : add loop ll = ll ++ loop ∧ count ll = ll.length := by
  constructor
  · induction ll with
    | nil => rfl
    | cons a ll ih => simp [add, ih]
  · induction ll with
    | nil => rfl
    | cons a ll ih => simp [count, ih]

/-! ### Text -/

/-- A string which may be NULL and can be read back on a line. -/
def LineOrNull (s : Option Str) : Prop := ∀ l, s = some l → Util.Line l ∧ l ≠ "(null)".toList ∧ l.length + 1 < MAX_STRING

/-- A loop whose text can be read back. -/
structure Textable (a : Loop) : Prop where
  name : ∃ w, a.iter = some w ∧ Strings.Word w ∧ w.length + 1 < MAX_STRING
  ids : ∀ i ∈ a.stmt_ids, fits 32 i
  nb : (a.stmt_ids.length : Int) < 2 ^ 31
  priv : LineOrNull a.private_vars
  dir : fits 32 a.directive
  usr : LineOrNull a.user
  nouser : isUser a.directive = false → a.user = none

/-- The text of the identifiers. -/
def idsText : List Int → Str
  | [] => []
  | i :: l => showInt i ++ ("\n".toList ++ idsText l)

theorem idsText_eq (l : List Int) : (l.map fun i => showInt i ++ "\n".toList).flatten = idsText l := by
  induction l with
  | nil => rfl
  | cons i l ih =>
    have e : idsText (i :: l) = showInt i ++ ("\n".toList ++ idsText l) := rfl
    rw [List.map_cons, List.flatten_cons, ih, e, List.append_assoc]

/-- The text of the loops (specification). -/
def body : Nat → List Loop → Str
  | _, [] => []
  | n, a :: l =>
    "# ===========================================\n".toList ++ ("# Loop number ".toList ++ (showNat n ++ (" \n".toList ++
    ("# Iterator name\n".toList ++ (percentS a.iter ++ ("\n".toList ++ ("# Number of stmts\n".toList ++ (showInt a.stmt_ids.length ++ ("\n".toList ++
    ((if a.stmt_ids.length ≠ 0 then "# Statement identifiers\n".toList else []) ++ (idsText a.stmt_ids ++
    ("# Private variables\n".toList ++ (percentS a.private_vars ++ ("\n".toList ++ ("# Directive\n".toList ++ (showInt a.directive ++
    ((if isUser a.directive then " ".toList ++ percentS a.user else []) ++ ("\n".toList ++ body (n + 1) l))))))))))))))))))

theorem percentS_short {s : Option Str} (h : LineOrNull s) : (percentS s).length + 1 < MAX_STRING := by
  cases s with
  | none => decide
  | some l => exact (h l rfl).2.2

theorem piece_eq {a : Loop} (h : Textable a) (n : Nat) (l : List Loop) : ∃ p, piece n a = .ok p ∧ p ++ body (n + 1) l = body n (a :: l) := by
  obtain ⟨w, hw, _, hl⟩ := h.name
  have hp := percentS_short h.priv
  have hu := percentS_short h.usr
  have hd : directiveText a = .ok (showInt a.directive ++ (if isUser a.directive then " ".toList ++ percentS a.user else []) ++ "\n".toList) := by
    unfold directiveText
    cases isUser a.directive with
    | true =>
      simp only [if_true]
      rw [buf_bind _ (by simp only [List.length_append]; have : " ".toList.length = 1 := rfl; omega)]
      rfl
    | false => simp
  have nl : "\n".toList.length = 1 := rfl
  refine ⟨_, by
    unfold piece
    rw [buf_bind, buf_bind, hd, Out.ok_bind]
    · rfl
    · simp only [List.length_append, nl]; omega
    · rw [hw]; simp only [percentS, List.length_append, nl]; omega, ?_⟩
  have e : body n (a :: l) = "# ===========================================\n".toList ++ ("# Loop number ".toList ++ (showNat n ++ (" \n".toList ++
    ("# Iterator name\n".toList ++ (percentS a.iter ++ ("\n".toList ++ ("# Number of stmts\n".toList ++ (showInt a.stmt_ids.length ++ ("\n".toList ++
    ((if a.stmt_ids.length ≠ 0 then "# Statement identifiers\n".toList else []) ++ (idsText a.stmt_ids ++
    ("# Private variables\n".toList ++ (percentS a.private_vars ++ ("\n".toList ++ ("# Directive\n".toList ++ (showInt a.directive ++
    ((if isUser a.directive then " ".toList ++ percentS a.user else []) ++ ("\n".toList ++ body (n + 1) l)))))))))))))))))) := rfl
  rw [e, idsText_eq, Util.showNat_pos a.stmt_ids.length]
  simp only [List.append_assoc]

theorem pieces_eq : ∀ (l : List Loop) (n : Nat), (∀ a ∈ l, Textable a) → ∃ ps, pieces n l = .ok ps ∧ ps.flatten = body n l := by
  intro l
  induction l with
  | nil => intro n _; exact ⟨[], rfl, rfl⟩
  | cons a l ih =>
    intro n h
    obtain ⟨p, e1, e2⟩ := piece_eq (h a (by simp)) n l
    obtain ⟨ps, e3, e4⟩ := ih (n + 1) fun x hx => h x (by simp [hx])
    exact ⟨p :: ps, by rw [pieces, e1, Out.ok_bind, e3, Out.ok_bind]; rfl, by rw [List.flatten_cons, e4, e2]⟩

theorem readInts_text {pre : Str} (hp : Util.Skips pre) (l : List Int) (h : ∀ i ∈ l, fits 32 i) :
    ∃ pre', Util.Skips pre' ∧ ∀ rest, readInts l.length (pre ++ (idsText l ++ rest)) = .ok (l, pre' ++ rest) := by
  induction l generalizing pre with
  | nil => exact ⟨pre, hp, fun rest => rfl⟩
  | cons i l ih =>
    obtain ⟨pre', s1, r1⟩ := ih Util.Skips.newline fun j hj => h j (by simp [hj])
    refine ⟨pre', s1, fun rest => ?_⟩
    have e : idsText (i :: l) = showInt i ++ ("\n".toList ++ idsText l) := rfl
    rw [e]
    simp only [List.length_cons, readInts, List.append_assoc]
    rw [Util.read_int_pre hp (h i (by simp)) (Util.Sep.newline _)]
    simp only [Out.ok_bind]
    rw [r1]; rfl

theorem null_line : Util.Line "(null)".toList :=
  ⟨by decide, by decide, by intro c hc; simp at hc; subst hc; decide, by decide⟩

theorem read_nullLine {pre : Str} (hp : Util.Skips pre) {s : Option Str} (h : LineOrNull s) (rest : Str) :
    ∃ l, Util.read_line (pre ++ (percentS s ++ ("\n".toList ++ rest))) = .ok (l, "\n".toList ++ rest) ∧ nullLine l = s := by
  cases s with
  | none => exact ⟨_, Util.read_line_pre hp null_line rest, by decide⟩
  | some l => exact ⟨l, Util.read_line_pre hp (h l rfl).1 rest, by simp only [nullLine, if_neg (h l rfl).2.1]⟩

theorem readOne_text {a : Loop} (h : Textable a) (l : List Loop) (n : Nat) {pre : Str} (hp : Util.Skips pre) (rest : Str) :
    readOne (pre ++ (body n (a :: l) ++ rest)) = .ok (a, "\n".toList ++ (body (n + 1) l ++ rest)) := by
  obtain ⟨w, hw, hw1, hw2⟩ := h.name
  have s0 : Util.Skips (pre ++ ("# ===========================================\n".toList ++ ("# Loop number ".toList ++ (showNat n ++ (" \n".toList ++ "# Iterator name\n".toList))))) := by
    have s1 : Util.Skips ("# Loop number ".toList ++ (showNat n ++ " \n".toList)) := by
      have := Util.Skips.comment (l := " Loop number ".toList ++ (showNat n ++ " ".toList)) (by
        have : NoNL (" Loop number ".toList ++ (showNat n ++ " ".toList)) :=
          NoNL.append (by unfold NoNL; decide) (NoNL.append (noNL_showNat n) (by unfold NoNL; decide))
        exact this.ne)
      simp only [List.append_assoc] at this
      exact this
    have s2 := hp.append ((Util.skips_of (pre := "# ===========================================\n".toList) (by decide)).append (s1.append (Util.skips_of (pre := "# Iterator name\n".toList) (by decide))))
    simp only [List.append_assoc] at s2
    exact s2
  have s1 : Util.Skips ("\n".toList ++ "# Number of stmts\n".toList) := Util.skips_of (by decide)
  have s2 : Util.Skips ("\n".toList ++ (if a.stmt_ids.length ≠ 0 then "# Statement identifiers\n".toList else [])) := by
    split
    · exact Util.skips_of (by decide)
    · exact Util.skips_of (by decide)
  obtain ⟨p3, s3, r3⟩ := readInts_text s2 a.stmt_ids h.ids
  have s4 : Util.Skips (p3 ++ "# Private variables\n".toList) := s3.append (Util.skips_of (by decide))
  have s5 : Util.Skips ("\n".toList ++ "# Directive\n".toList) := Util.skips_of (by decide)
  have e : body n (a :: l) = "# ===========================================\n".toList ++ ("# Loop number ".toList ++ (showNat n ++ (" \n".toList ++
    ("# Iterator name\n".toList ++ (percentS a.iter ++ ("\n".toList ++ ("# Number of stmts\n".toList ++ (showInt a.stmt_ids.length ++ ("\n".toList ++
    ((if a.stmt_ids.length ≠ 0 then "# Statement identifiers\n".toList else []) ++ (idsText a.stmt_ids ++
    ("# Private variables\n".toList ++ (percentS a.private_vars ++ ("\n".toList ++ ("# Directive\n".toList ++ (showInt a.directive ++
    ((if isUser a.directive then " ".toList ++ percentS a.user else []) ++ ("\n".toList ++ body (n + 1) l)))))))))))))))))) := rfl
  rw [e, hw]
  simp only [percentS, List.append_assoc]
  unfold readOne
  rw [← List.append_assoc " \n".toList, ← List.append_assoc (showNat n), ← List.append_assoc "# Loop number ".toList,
    ← List.append_assoc "# ===========================================\n".toList, ← List.append_assoc pre,
    Util.read_string_pre s0 hw1.1 (Dep.wordChars hw1) hw1.2.1 (Util.Sep.newline _)]
  simp only [Out.ok_bind]
  rw [← List.append_assoc "\n".toList "# Number of stmts\n".toList, Util.read_int_pre s1 (Lines.fits_small h.nb) (Util.Sep.newline _)]
  simp only [Out.ok_bind, readIds]
  rw [if_neg (by omega)]
  simp only [Int.toNat_natCast]
  rw [← List.append_assoc "\n".toList (if a.stmt_ids.length ≠ 0 then _ else _), r3]
  simp only [Out.ok_bind]
  obtain ⟨pv, r4, n4⟩ := read_nullLine s4 h.priv ("# Directive\n".toList ++ (showInt a.directive ++
    ((if isUser a.directive = true then " ".toList ++ percentS a.user else []) ++ ("\n".toList ++ (body (n + 1) l ++ rest)))))
  rw [← List.append_assoc p3]
  unfold percentS at r4
  rw [r4]
  simp only [Out.ok_bind]
  cases hu : isUser a.directive with
  | false =>
    have hnu := h.nouser hu
    simp only [Bool.false_eq_true, if_false, List.nil_append]
    rw [← List.append_assoc "\n".toList "# Directive\n".toList, Util.read_int_pre s5 h.dir (Util.Sep.newline _)]
    simp only [Out.ok_bind, readUser, hu, Bool.false_eq_true, if_false, n4]
    obtain ⟨i, ids, p, d, u⟩ := a
    simp only at hw hnu
    subst hw hnu
    rfl
  | true =>
    simp only [if_true, List.append_assoc]
    rw [← List.append_assoc "\n".toList "# Directive\n".toList, Util.read_int_pre s5 h.dir (Util.Sep.space _)]
    obtain ⟨uv, r5, n5⟩ := read_nullLine Util.Skips.space h.usr (body (n + 1) l ++ rest)
    unfold percentS at r5
    simp only [Out.ok_bind, readUser, hu, if_true]
    rw [r5]
    simp only [Out.ok_bind, n4, n5]
    obtain ⟨i, ids, p, d, u⟩ := a
    simp only at hw
    subst hw
    rfl

theorem readLoop_text : ∀ (l : List Loop) (n fuel : Nat) (pre rest : Str), (∀ a ∈ l, Textable a) → Util.Skips pre → l.length < fuel →
    ∃ pos, readLoop fuel l.length (pre ++ (body n l ++ rest)) = .ok (l, pos) := by
  intro l
  induction l with
  | nil =>
    intro n fuel pre rest _ _ hf
    cases fuel with
    | zero => simp at hf
    | succ fuel => exact ⟨_, rfl⟩
  | cons a l ih =>
    intro n fuel pre rest h hp hf
    cases fuel with
    | zero => simp at hf
    | succ fuel =>
      obtain ⟨pos, e⟩ := ih (n + 1) fuel "\n".toList rest (fun x hx => h x (by simp [hx])) Util.Skips.newline (by simpa using hf)
      refine ⟨pos, ?_⟩
      rw [readLoop, if_neg (by simp; omega), readOne_text (h a (by simp)) l n hp rest]
      simp only [Out.ok_bind]
      have : ((a :: l).length : Int) - 1 = l.length := by simp
      rw [this, e]
      rfl

/-- C45 for loop: the text of the directive ends with the user directive exactly when the flag of value 8
(OSL_LOOP_DIRECTIVE_USER) is set, whatever the flags 1, 2 and 4. -/
theorem loop_directive_text {a : Loop} (h : Textable a) {flags : Int} (h0 : 0 ≤ flags) (h1 : flags < 8) :
    (a.directive = flags → directiveText a = .ok (showInt flags ++ "\n".toList)) ∧
    (a.directive = flags + 8 → directiveText a = .ok (showInt (flags + 8) ++ (" ".toList ++ percentS a.user) ++ "\n".toList)) := by
  have hu := percentS_short h.usr
  refine ⟨fun e => ?_, fun e => ?_⟩
  · have : isUser a.directive = false := by rw [e]; simp only [isUser, decide_eq_false_iff_not]; omega
    simp only [directiveText, this]; rw [e]; rfl
  · have : isUser a.directive = true := by rw [e]; simp only [isUser, decide_eq_true_eq]; omega
    simp only [directiveText, this, if_true]
    rw [buf_bind _ (by simp only [List.length_append]; have : " ".toList.length = 1 := rfl; omega), e]
    rfl

/-- C45 for loop: the reader inverts the printer (the result is not only equal: it is the same list). -/
theorem loop_text_round_trip {l : NE Loop} (h : ∀ a ∈ NE.elems (some l), Textable a) (hn : ((NE.elems (some l)).length : Int) < 2 ^ 31) :
    ∃ t, ops.sprint (some l) = .ok (some t) ∧ ∀ pre : Str, (∀ c ∈ pre, isSpace c = true) → ∃ rest, ops.sread (some (pre ++ t)) = .ok (some l, rest) := by
  obtain ⟨ps, e1, e2⟩ := pieces_eq (NE.elems (some l)) 1 h
  have s0 : Util.Skips "# Number of loops\n".toList := Util.skips_of (by decide)
  refine ⟨"# Number of loops\n".toList ++ (showInt (NE.elems (some l)).length ++ ("\n".toList ++ (body 1 (NE.elems (some l)) ++ []))), ?_, fun pre hp => ?_⟩
  · simp only [ops, sprint]
    rw [e1, Out.ok_bind, Util.emit_eq, Out.ok_bind, List.flatten_cons, e2]
    simp only [List.append_assoc, List.append_nil]
    rfl
  · simp only [ops, sread]
    rw [← List.append_assoc pre, Util.read_int_pre ((Util.Skips.blanks hp).append s0) (Lines.fits_small hn) (Util.Sep.newline _)]
    simp only [Out.ok_bind, Int.natAbs_natCast]
    obtain ⟨pos, e3⟩ := readLoop_text (NE.elems (some l)) 1
      ((NE.elems (some l)).length + ("\n".toList ++ (body 1 (NE.elems (some l)) ++ [])).length + 1) "\n".toList [] h Util.Skips.newline (by omega)
    refine ⟨some pos, ?_⟩
    rw [e3]
    simp only [Out.ok_bind]
    rfl

/-- A loop which meets the hypotheses. -/
example : Textable { iter := some "i".toList, stmt_ids := [0, 2], private_vars := some "x,y".toList, directive := 8, user := none } where
  name := ⟨"i".toList, rfl, by unfold Strings.Word; decide, by decide⟩
  ids := by decide
  nb := by decide
  priv := by
    intro l h
    simp only [Option.some.injEq] at h
    subst h
    exact ⟨⟨by decide, by decide, by intro c hc; simp at hc; subst hc; decide, by decide⟩, by decide, by decide⟩
  dir := by decide
  usr := by intro l h; cases h
  nouser := by intro h; rfl

set_option maxRecDepth 8000 in
/-- C45 finding for loop: private variables which are called `(null)` are read back as NULL. -/
theorem loop_text_null_violates : ∃ t, sprint [ex [] (some "(null)".toList)] = .ok (some t) ∧ ∃ p, sread (some t) = .ok ([ex [] none], p) :=
  ⟨"# Number of loops\n1\n# ===========================================\n# Loop number 1 \n# Iterator name\ni\n# Number of stmts\n0\n# Private variables\n(null)\n# Directive\n0\n".toList,
    by decide, some "\n".toList, by decide⟩

end Loop

/-! ## scatinfos -/

namespace Scatinfos

theorem equalLoop_iff : ∀ (a b t a' b' t' : List Int), b.length = a.length → t.length = a.length → a'.length = a.length → b'.length = a.length → t'.length = a.length →
    (equalLoop a b t a' b' t' = true ↔ a = a' ∧ b = b' ∧ t = t') := by
  intro a
  induction a with
  | nil =>
    intro b t a' b' t' h1 h2 h3 h4 h5
    simp only [List.length_nil, List.length_eq_zero_iff] at h1 h2 h3 h4 h5
    subst h1 h2 h3 h4 h5
    simp [equalLoop]
  | cons x a ih =>
    intro b t a' b' t' h1 h2 h3 h4 h5
    cases b with
    | nil => simp at h1
    | cons y b =>
    cases t with
    | nil => simp at h2
    | cons z t =>
    cases a' with
    | nil => simp at h3
    | cons x' a' =>
    cases b' with
    | nil => simp at h4
    | cons y' b' =>
    cases t' with
    | nil => simp at h5
    | cons z' t' =>
      simp only [List.length_cons, Nat.add_right_cancel_iff] at h1 h2 h3 h4 h5
      simp only [equalLoop, List.cons.injEq]
      by_cases e1 : x = x'
      · by_cases e2 : y = y'
        · by_cases e3 : z = z'
          · simp [e1, e2, e3, ih b t a' b' t' h1 h2 h3 h4 h5]
          · simp [e1, e2, e3]
        · simp [e1, e2]
      · simp [e1]

/-- C46 for scatinfos. -/
theorem scatinfos_equal_decides : ops.EqualDecides Sized id := by
  refine ⟨fun x y hx hy => ?_, rfl, fun _ => ⟨rfl, rfl⟩⟩
  rw [show ops.equal = equal from rfl]
  unfold equal
  simp only
  by_cases h : x.parallel.length = y.parallel.length
  · rw [if_neg (by simp [h])]
    refine ⟨_, rfl, ?_⟩
    rw [equalLoop_iff _ _ _ _ _ _ hx.1 hx.2 h.symm (hy.1.trans h.symm) (hy.2.trans h.symm)]
    cases x; cases y; simp
  · rw [if_pos h]
    refine ⟨false, rfl, ?_⟩
    simp only [Bool.false_eq_true, false_iff, id_eq]
    rintro rfl; exact h rfl

theorem scatinfos_clone_equal (s : Scatinfos) (h : Sized s) : ops.clone (some s) = .ok (some s) ∧ ops.CloneEqual s := by
  have e : ops.clone (some s) = .ok (some s) := by cases s; rfl
  refine ⟨e, s, e, ?_⟩
  obtain ⟨r, e1, e2⟩ := scatinfos_equal_decides.1 s s h h
  rw [e1, e2.mpr rfl]

theorem row_cons (i : Int) (l : List Int) : row (i :: l) = showInt i ++ (" ".toList ++ row l) := by
  unfold row
  rw [List.map_cons, List.flatten_cons, List.append_assoc]

theorem readInts_row {pre : Str} (hp : Util.Skips pre) (l : List Int) (h : ∀ i ∈ l, fits 32 i) :
    ∃ pre', Util.Skips pre' ∧ ∀ rest, Loop.readInts l.length (pre ++ (row l ++ rest)) = .ok (l, pre' ++ rest) := by
  induction l generalizing pre with
  | nil => exact ⟨pre, hp, fun rest => rfl⟩
  | cons i l ih =>
    obtain ⟨pre', s1, r1⟩ := ih Util.Skips.space fun j hj => h j (by simp [hj])
    refine ⟨pre', s1, fun rest => ?_⟩
    rw [row_cons]
    simp only [List.length_cons, Loop.readInts, List.append_assoc]
    rw [Util.read_int_pre hp (h i (by simp)) (Util.Sep.space _)]
    simp only [Out.ok_bind]
    rw [r1]; rfl

/-- The text (specification). -/
def text (s : Scatinfos) : Str :=
  "# Number of scattering dimensions\n".toList ++ (showInt s.parallel.length ++ ("\n".toList ++
    ((if s.parallel.length > 0 then "# Parallel info\n".toList else []) ++ (row s.parallel ++
    ((if s.parallel.length > 0 then "\n# Permutable info\n".toList else []) ++ (row s.permutable ++
    ((if s.parallel.length > 0 then "\n# Type info\n".toList else []) ++ (row s.type ++
    (if s.parallel.length > 0 then "\n".toList else [])))))))))

theorem sprint_text (s : Scatinfos) : sprint (some s) = .ok (some (text s)) := by
  unfold sprint
  simp only
  rw [Util.emit_eq, Out.ok_bind, Out.pure_eq]
  unfold text
  rw [Util.showNat_pos]
  by_cases h : s.parallel.length > 0
  · simp only [if_pos h, List.flatten_append, List.flatten_cons, List.flatten_nil, List.append_nil, List.append_assoc]
  · simp only [if_neg h, List.flatten_append, List.flatten_cons, List.flatten_nil, List.append_nil, List.nil_append, List.append_assoc]

/-- C45 for scatinfos: the reader inverts the printer, exactly. -/
theorem scatinfos_text_exact {s : Scatinfos} (h : Sized s) (h1 : ∀ i ∈ s.parallel, fits 32 i) (h2 : ∀ i ∈ s.permutable, fits 32 i)
    (h3 : ∀ i ∈ s.type, fits 32 i) (hn : (s.parallel.length : Int) < 2 ^ 31) :
    ops.sprint (some s) = .ok (some (text s)) ∧ ∀ pre : Str, (∀ c ∈ pre, isSpace c = true) → ∃ rest, ops.sread (some (pre ++ text s)) = .ok (some s, rest) := by
  have s0 : Util.Skips "# Number of scattering dimensions\n".toList := Util.skips_of (by decide)
  have s1 : Util.Skips ("\n".toList ++ (if s.parallel.length > 0 then "# Parallel info\n".toList else [])) := by
    split
    · exact Util.skips_of (by decide)
    · exact Util.skips_of (by decide)
  have t2 : Util.Skips (if s.parallel.length > 0 then "\n# Permutable info\n".toList else []) := by
    split
    · exact Util.skips_of (by decide)
    · exact Util.skips_of (by decide)
  have t3 : Util.Skips (if s.parallel.length > 0 then "\n# Type info\n".toList else []) := by
    split
    · exact Util.skips_of (by decide)
    · exact Util.skips_of (by decide)
  obtain ⟨p1, q1, r1⟩ := readInts_row s1 s.parallel h1
  obtain ⟨p2, q2, r2⟩ := readInts_row (q1.append t2) s.permutable h2
  obtain ⟨p3, q3, r3⟩ := readInts_row (q2.append t3) s.type h3
  rw [h.1] at r2
  rw [h.2] at r3
  refine ⟨sprint_text s, fun pre hp => ?_⟩
  refine ⟨some (p3 ++ (if s.parallel.length > 0 then "\n".toList else [])), ?_⟩
  rw [show ops.sread = sread from rfl]
  unfold sread text
  simp only
  rw [← List.append_assoc pre, Util.read_int_pre ((Util.Skips.blanks hp).append s0) (Lines.fits_small hn) (Util.Sep.newline _)]
  simp only [Out.ok_bind, readArrays]
  rw [if_neg (by omega)]
  simp only [Int.toNat_natCast]
  rw [← List.append_assoc "\n".toList, r1]
  simp only [Out.ok_bind]
  rw [← List.append_assoc p1, r2]
  simp only [Out.ok_bind]
  rw [← List.append_assoc p2, r3]
  simp only [Out.ok_bind]
  rfl

/-- C45 for scatinfos: the reader inverts the printer. -/
theorem scatinfos_text_round_trip {s : Scatinfos} (h : Sized s) (h1 : ∀ i ∈ s.parallel, fits 32 i) (h2 : ∀ i ∈ s.permutable, fits 32 i)
    (h3 : ∀ i ∈ s.type, fits 32 i) (hn : (s.parallel.length : Int) < 2 ^ 31) : ops.RoundTrip s := by
  obtain ⟨e1, e2⟩ := scatinfos_text_exact h h1 h2 h3 hn
  refine ⟨_, e1, fun pre hp => ?_⟩
  obtain ⟨rest, e3⟩ := e2 pre hp
  refine ⟨s, rest, e3, ?_⟩
  obtain ⟨r, e1, e2⟩ := scatinfos_equal_decides.1 s s h h
  rw [e1, e2.mpr rfl]

/-- The hypotheses are met. -/
example : Sized { parallel := [1, 0], permutable := [0, 0], type := [1, 1] } := ⟨rfl, rfl⟩

end Scatinfos
end Ext
end Osl
