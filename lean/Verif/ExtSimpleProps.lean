import Verif.ExtSimple
/-!
# Properties of the extensions textual, comment, clay, null and coordinates (parts of C45, C46)
-/

namespace Osl
namespace Ext

/-! ## textual -/

/-- C46 finding: two different textual extensions are equal, and NULL is equal to a textual extension. -/
theorem textual_equal_violates : Textual.ops.equal (some ⟨some "a".toList⟩) (some ⟨some "b".toList⟩) = .ok true ∧
    Textual.ops.equal none (some ⟨some "b".toList⟩) = .ok true := by decide

/-- C46, every case of `osl_textual_equal`: the answer is always 1. -/
theorem textual_equal_always (x y : Option Textual) : Textual.ops.equal x y = .ok true := rfl

/-- C45 finding: no textual extension has a text, so none can be read back. -/
theorem textual_text_violates (x : Textual) : ¬ Textual.ops.RoundTrip x := by
  rintro ⟨t, h, _⟩; cases h

/-- The copy and the reader keep the whole text. -/
theorem textual_clone_sread (x : Textual) (s : Str) : Textual.ops.CloneEqual x ∧ Textual.ops.clone (some x) = .ok (some x) ∧
    Textual.ops.sread (some s) = .ok (some ⟨some s⟩, some []) := by
  refine ⟨⟨⟨strdup x.textual⟩, rfl, rfl⟩, ?_, rfl⟩
  cases x with | mk t => cases t <;> rfl

/-! ## comment -/

/-- C45 for comments: the text is read back (the blanks before it become a part of the comment, which
`osl_comment_equal` ignores). -/
theorem comment_text_round_trip {s pre : Str} (h : pre.length + s.length < MAX_STRING) :
    Comment.ops.sprint (some ⟨some s⟩) = .ok (some s) ∧
    Comment.ops.sread (some (pre ++ s)) = .ok (some ⟨some (pre ++ s)⟩, some (pre ++ s)) ∧
    Comment.ops.equal (some ⟨some s⟩) (some ⟨some (pre ++ s)⟩) = .ok true := by
  have h1 : s.length < MAX_STRING := by omega
  have h2 : ¬ (pre ++ s).length > MAX_STRING := by simp only [List.length_append]; omega
  refine ⟨?_, ?_, ?_⟩
  · simp [Comment.ops, Comment.sprint, str, buf_ok h1, Util.emit_eq]
  · simp only [Comment.ops, Comment.sread, if_neg h2]; rfl
  · rfl

/-- C45 finding: in a string of extensions, the end of line after the tag becomes part of the comment read. -/
theorem comment_text_newline_violates (s : Str) (h : s.length < MAX_STRING) :
    ∃ y r, Comment.ops.sread (some ('\n' :: s)) = .ok (some y, r) ∧ y.comment ≠ some s := by
  refine ⟨⟨some ('\n' :: s)⟩, some ('\n' :: s), ?_, ?_⟩
  · simp only [Comment.ops, Comment.sread]
    rw [if_neg (by simp only [List.length_cons]; omega)]
    rfl
  · intro e
    have := congrArg (fun o => (o.map List.length).getD 0) e
    simp at this

/-- C45 finding: a comment of OSL_MAX_STRING characters or more overflows the buffer of the printer, although
the reader accepts OSL_MAX_STRING characters. -/
theorem comment_sprint_long_violates (s : Str) (h : s.length = MAX_STRING) :
    Comment.ops.sread (some s) = .ok (some ⟨some s⟩, some s) ∧ Comment.ops.sprint (some ⟨some s⟩) = .ub := by
  constructor
  · simp only [Comment.ops, Comment.sread]; rw [if_neg (by omega)]; rfl
  · simp [Comment.ops, Comment.sprint, str, buf, h]

/-- Finding: the position of the input is not updated, contrary to the documentation of the function. -/
theorem comment_position_violates (s : Str) (h : s.length ≤ MAX_STRING) :
    Comment.ops.sread (some s) = .ok (some ⟨some s⟩, some s) := by
  simp only [Comment.ops, Comment.sread]; rw [if_neg (by omega)]; rfl

/-- C46 finding: two different comments are equal. -/
theorem comment_equal_violates : Comment.ops.equal (some ⟨some "a".toList⟩) (some ⟨some "b".toList⟩) = .ok true := by decide

/-- C46, what holds: the answer on comments is always 1, NULL is only equal to NULL; a copy is equal. -/
theorem comment_equal_always : Comment.ops.EqualDecides (fun x => x.comment ≠ none) (fun _ => ()) := by
  refine ⟨?_, rfl, fun _ => ⟨rfl, rfl⟩⟩
  intro x y hx hy
  cases x with | mk x => cases y with | mk y =>
    cases x <;> cases y <;> simp_all [Comment.ops, Comment.equal, strEq, str]

theorem comment_clone (s : Str) : Comment.ops.clone (some ⟨some s⟩) = .ok (some ⟨some s⟩) ∧ Comment.ops.CloneEqual ⟨some s⟩ :=
  ⟨rfl, _, rfl, rfl⟩

/-! ## clay -/

/-- C45 for clay scripts: the script is read back exactly, when it fits in the buffers and does not start with an end of
line. -/
theorem clay_text_round_trip {s : Str} {n : Nat} (h : n + s.length < MAX_STRING) (hs : ∀ c, s.head? = some c → c ≠ '\n') :
    Clay.ops.sprint (some ⟨some s⟩) = .ok (some s) ∧
    ∃ r, Clay.ops.sread (some (List.replicate n '\n' ++ s)) = .ok (some ⟨some s⟩, r) := by
  have h1 : s.length < MAX_STRING := by omega
  refine ⟨by simp [Clay.ops, Clay.sprint, str, buf_ok h1, Util.emit_eq], some (List.replicate n '\n' ++ s), ?_⟩
  simp only [Clay.ops, Clay.sread]
  rw [if_neg (by simp only [List.length_append, List.length_replicate]; omega)]
  have := (takeWhile_append_stop (p := fun c => c == '\n') (s := List.replicate n '\n') (t := s)
    (fun a ha => by rw [List.eq_of_mem_replicate ha]; rfl) (fun c hc => by simpa using hs c hc)).2
  rw [this]; rfl

example : Clay.ops.sprint (some ⟨some "split([0,0],1);\n".toList⟩) = .ok (some "split([0,0],1);\n".toList) ∧
    ∃ r, Clay.ops.sread (some ("\n".toList ++ "split([0,0],1);\n".toList)) = .ok (some ⟨some "split([0,0],1);\n".toList⟩, r) :=
  clay_text_round_trip (n := 1) (by decide) (by decide)

/-- C45 finding: the ends of line at the beginning of a script are lost. -/
theorem clay_text_violates : ∃ r, Clay.ops.sprint (some ⟨some "\na".toList⟩) = .ok (some "\na".toList) ∧
    Clay.ops.sread (some "\na".toList) = .ok (some ⟨some "a".toList⟩, r) ∧
    Clay.ops.equal (some ⟨some "\na".toList⟩) (some ⟨some "a".toList⟩) = .ok false := ⟨some "\na".toList, by decide⟩

/-- C46: `osl_clay_equal` compares the scripts. -/
theorem clay_equal_decides : Clay.ops.EqualDecides (fun x => x.script ≠ none) (fun x => x) := by
  refine ⟨?_, rfl, fun _ => ⟨rfl, rfl⟩⟩
  intro x y hx hy
  cases x with | mk x => cases y with | mk y =>
    cases x <;> cases y <;> simp_all [Clay.ops, Clay.equal, strEq, str]

/-- C46 finding: a clay extension without script (as `osl_clay_malloc` leaves it) cannot be compared. -/
theorem clay_equal_null_violates (y : Clay) : Clay.ops.equal (some ⟨none⟩) (some y) = .ub := rfl

theorem clay_clone_equal (s : Str) : Clay.ops.clone (some ⟨some s⟩) = .ok (some ⟨some s⟩) ∧ Clay.ops.CloneEqual ⟨some s⟩ :=
  ⟨rfl, _, rfl, by simp [Clay.ops, Clay.equal, strEq, str, strdup, Util.strdup]⟩

/-! ## null -/

/-- C45, C46 for the null extension, which has no content. -/
theorem null_correct : (∀ x, Null.ops.RoundTrip x) ∧ (∀ x, Null.ops.CloneEqual x) ∧ Null.ops.EqualDecides (fun _ => True) (fun x => x) :=
  ⟨fun _ => ⟨[], rfl, fun _ _ => ⟨⟨⟩, _, rfl, rfl⟩⟩, fun _ => ⟨⟨⟩, rfl, rfl⟩,
    fun _ _ _ _ => ⟨true, rfl, by simp⟩, rfl, fun _ => ⟨rfl, rfl⟩⟩

/-! ## coordinates -/

/-- Coordinates whose text can be read back: the file name is a line without `#`, and the numbers are C `int`s. -/
structure Coordinates.Textable (c : Coordinates) (name : Str) : Prop where
  hname : c.name = some name
  line : Util.Line name
  short : name.length + 14 ≤ MAX_STRING - 1
  ints : fits 32 c.line_start ∧ fits 32 c.column_start ∧ fits 32 c.line_end ∧ fits 32 c.column_end ∧ fits 32 c.indent

/-- The text of coordinates (specification). -/
def Coordinates.text (c : Coordinates) (name : Str) : Str :=
  "# File name\n".toList ++ name ++ "\n".toList ++
  "# Starting line and column\n".toList ++ showInt c.line_start ++ " ".toList ++ showInt c.column_start ++ "\n".toList ++
  "# Ending line and column\n".toList ++ showInt c.line_end ++ " ".toList ++ showInt c.column_end ++ "\n".toList ++
  "# Indentation\n".toList ++ showInt c.indent ++ "\n".toList

theorem coordinates_sprint_text {c : Coordinates} {name : Str} (h : c.Textable name) :
    Coordinates.sprint (some c) = .ok (some (c.text name)) := by
  obtain ⟨h1, h2, h3, h4, h5⟩ := h.ints
  have l1 := Util.showInt_length h1
  have l2 := Util.showInt_length h2
  have l3 := Util.showInt_length h3
  have l4 := Util.showInt_length h4
  have l5 := Util.showInt_length h5
  have hs := h.short
  unfold Coordinates.sprint
  simp only [h.hname, str, Out.ok_bind]
  rw [buf_bind, buf_bind, buf_bind, buf_bind]
  · simp only [Util.emit_eq, Out.ok_bind, Out.pure_eq]
    unfold Coordinates.text
    simp only [List.flatten_cons, List.flatten_nil, List.append_nil, List.append_assoc]
  all_goals (simp [MAX_STRING] at hs ⊢; omega)

theorem coordinates_sread_text {c : Coordinates} {name : Str} (h : c.Textable name) {pre : Str} (hp : Util.Skips pre) (rest : Str) :
    Coordinates.sread (some (pre ++ (c.text name ++ rest))) = .ok (some c, some ("\n".toList ++ rest)) := by
  obtain ⟨h1, h2, h3, h4, h5⟩ := h.ints
  have skl := Util.Skips.newline
  unfold Coordinates.sread Coordinates.text
  simp only [List.append_assoc]
  rw [← List.append_assoc pre, Util.read_line_pre (hp.append (Util.skips_of (by decide))) h.line]
  simp only [Out.ok_bind]
  rw [← List.append_assoc "\n".toList, Util.read_int_pre (Util.skips_of (by decide)) h1 (Util.Sep.space _)]
  simp only [Out.ok_bind]
  rw [Util.read_int_pre (Util.skips_of (by decide)) h2 (Util.Sep.newline _)]
  simp only [Out.ok_bind]
  rw [← List.append_assoc "\n".toList, Util.read_int_pre (Util.skips_of (by decide)) h3 (Util.Sep.space _)]
  simp only [Out.ok_bind]
  rw [Util.read_int_pre (Util.skips_of (by decide)) h4 (Util.Sep.newline _)]
  simp only [Out.ok_bind]
  rw [← List.append_assoc "\n".toList, Util.read_int_pre (Util.skips_of (by decide)) h5 (Util.Sep.newline _)]
  simp only [Out.ok_bind, Out.pure_eq, ← h.hname]

/-- C46: `osl_coordinates_equal` decides that all the fields are the same. -/
theorem coordinates_equal_decides : Coordinates.ops.EqualDecides (fun x => x.name ≠ none) (fun x => x) := by
  refine ⟨?_, rfl, fun _ => ⟨rfl, rfl⟩⟩
  intro x y hx hy
  obtain ⟨nx, a1, a2, a3, a4, a5⟩ := x
  obtain ⟨ny, b1, b2, b3, b4, b5⟩ := y
  cases nx with
  | none => exact absurd rfl hx
  | some nx =>
    cases ny with
    | none => exact absurd rfl hy
    | some ny =>
      simp only [Coordinates.ops, Coordinates.equal, strEq_some, Out.ok_bind, Coordinates.mk.injEq, Option.some.injEq]
      by_cases e1 : nx = ny <;> by_cases e2 : a1 = b1 <;> by_cases e3 : a2 = b2 <;> by_cases e4 : a3 = b3 <;>
        by_cases e5 : a4 = b4 <;> by_cases e6 : a5 = b5 <;> simp [e1, e2, e3, e4, e5, e6]

/-- C46 finding: coordinates without a file name (as `osl_coordinates_malloc` leaves them) cannot be compared. -/
theorem coordinates_equal_null_violates (x y : Coordinates) (h : x.name = none) : Coordinates.ops.equal (some x) (some y) = .ub := by
  simp [Coordinates.ops, Coordinates.equal, strEq, str, h]

/-- C45 for coordinates. -/
theorem coordinates_text_round_trip {c : Coordinates} {name : Str} (h : c.Textable name) : Coordinates.ops.RoundTrip c := by
  refine ⟨c.text name, coordinates_sprint_text h, fun pre hp => ?_⟩
  have := coordinates_sread_text h (Util.Skips.blanks hp) []
  rw [List.append_nil] at this
  refine ⟨c, _, this, ?_⟩
  obtain ⟨b, h1, h2⟩ := coordinates_equal_decides.1 c c (by simp [h.hname]) (by simp [h.hname])
  rw [h1, h2.mpr rfl]

theorem coordinates_clone_equal {c : Coordinates} (h : c.name ≠ none) : Coordinates.ops.clone (some c) = .ok (some c) ∧ Coordinates.ops.CloneEqual c := by
  have : Coordinates.ops.clone (some c) = .ok (some c) := by
    cases c with | mk n => cases n <;> rfl
  obtain ⟨b, h1, h2⟩ := coordinates_equal_decides.1 c c h h
  exact ⟨this, c, this, by rw [h1, h2.mpr rfl]⟩

/-- The hypotheses are met. -/
example : Coordinates.Textable { name := some "src/my file.c".toList, line_start := 1, line_end := 12, column_start := 0, column_end := -1, indent := 2 } "src/my file.c".toList where
  hname := rfl
  line := ⟨by decide, by decide, by intro c hc; simp at hc; subst hc; decide, by decide⟩
  short := by decide
  ints := by decide

set_option maxRecDepth 8000 in
/-- C45 finding: a file name with a `#` is cut, and the rest of the line makes the reader fail or read other numbers. -/
theorem coordinates_text_hash_violates :
    ∃ t, Coordinates.sprint (some { name := some "a#b".toList, line_start := 1, line_end := 2, column_start := 3, column_end := 4, indent := 5 }) = .ok (some t) ∧
      ∃ y r, Coordinates.sread (some t) = .ok (some y, r) ∧ y.name = some "a".toList :=
  ⟨"# File name\na#b\n# Starting line and column\n1 3\n# Ending line and column\n2 4\n# Indentation\n5\n".toList, by decide,
    { name := some "a".toList, line_start := 1, line_end := 2, column_start := 3, column_end := 4, indent := 5 }, some "\n".toList, by decide⟩

end Ext
end Osl
