import Verif.Util
/-!
# Properties of source/util.c: C30 (growing buffers), C31 (tag search), C32 (identifier substitution)
-/

namespace Osl
namespace Util

/-! ## C30 -/

theorem growLoop_ge (n len hwm : Nat) : hwm ≤ growLoop n len hwm := by
  induction n generalizing hwm with
  | zero => simp [growLoop]
  | succ n ih =>
    rw [growLoop]
    split
    · have := ih (hwm + MAX_STRING); omega
    · omega

theorem growLoop_le (n len hwm : Nat) : growLoop n len hwm ≤ max hwm (len + MAX_STRING) := by
  induction n generalizing hwm with
  | zero => simp only [growLoop]; omega
  | succ n ih =>
    rw [growLoop]
    split
    · have := ih (hwm + MAX_STRING); omega
    · omega

theorem growLoop_gt (n len hwm : Nat) (h : len < n + hwm) : len < growLoop n len hwm := by
  induction n generalizing hwm with
  | zero => simp only [growLoop]; omega
  | succ n ih =>
    rw [growLoop]
    split
    · exact ih _ (by simp [MAX_STRING]; omega)
    · omega

/-- C30, one append: it succeeds, the content is the concatenation, the terminator still fits in the
buffer, whose size never decreases and exceeds the need by at most OSL_MAX_STRING. -/
theorem safe_strcat_correct (dst : Buf) (src : Str) : ∃ b, safe_strcat dst src = .ok b ∧
    b.str = dst.str ++ src ∧ b.str.length < b.hwm ∧ dst.hwm ≤ b.hwm ∧
    b.hwm ≤ max dst.hwm (b.str.length + MAX_STRING) := by
  have h := growLoop_gt (dst.str.length + src.length + 1) (dst.str.length + src.length) dst.hwm (by omega)
  refine ⟨{ str := dst.str ++ src, hwm := growLoop (dst.str.length + src.length + 1) (dst.str.length + src.length) dst.hwm }, ?_, rfl, ?_, growLoop_ge _ _ _, ?_⟩
  · simp only [safe_strcat]; rw [if_neg (by omega)]
  · simpa using h
  · simpa using growLoop_le _ _ _

/-- C30: over any history of appends no byte is written past the buffer, and the content is the
concatenation of everything which was appended. -/
theorem safe_strcat_history (b : Buf) (h : b.str.length < b.hwm) (ss : List Str) :
    ∃ b', appends b ss = .ok b' ∧ b'.str = b.str ++ ss.flatten ∧ b'.str.length < b'.hwm ∧ b.hwm ≤ b'.hwm := by
  induction ss generalizing b with
  | nil => exact ⟨b, rfl, by simp, h, Nat.le_refl _⟩
  | cons s ss ih =>
    obtain ⟨b1, h1, h2, h3, h4, _⟩ := safe_strcat_correct b s
    obtain ⟨b2, g1, g2, g3, g4⟩ := ih b1 h3
    exact ⟨b2, by simp [appends, h1, g1], by rw [g2, h2]; simp, g3, by omega⟩

theorem emit_eq (ss : List Str) : emit ss = .ok ss.flatten := by
  obtain ⟨b, h1, h2, _⟩ := safe_strcat_history { str := [], hwm := MAX_STRING } (by decide) ss
  simp [emit, h1, h2]

example : (⟨"ab".toList, 3⟩ : Buf).str.length < 3 ∧
    safe_strcat ⟨"ab".toList, 3⟩ "c".toList = .ok ⟨"abc".toList, 2051⟩ := by decide

/-! ## C31 -/

/-- `pre` is the text of `s` before the first occurrence of `flag`, `post` the text after it. -/
def IsFirst (flag s pre post : Str) : Prop :=
  s = pre ++ flag ++ post ∧ ∀ pre' post', s = pre' ++ flag ++ post' → pre.length ≤ pre'.length

theorem IsFirst.unique {flag s pre post pre' post' : Str} (h : IsFirst flag s pre post) (h' : IsFirst flag s pre' post') :
    pre = pre' ∧ post = post' := by
  have h1 := h.2 _ _ h'.1
  have h2 := h'.2 _ _ h.1
  have e := h.1.symm.trans h'.1
  rw [List.append_assoc, List.append_assoc] at e
  obtain ⟨a, b⟩ := List.append_inj e (by omega)
  exact ⟨a, List.append_cancel_left b⟩

theorem uptoLoop_spec {flag : Str} (hf : flag ≠ []) (s res : Str) (hwm : Nat) (hh : res.length < hwm)
    (hn : ¬ flag <:+: res) :
    (∃ pre post, IsFirst flag (res ++ s) pre post ∧ uptoLoop flag res hwm s = .ok (some pre, post)) ∨
    (¬ flag <:+: res ++ s ∧ uptoLoop flag res hwm s = .ok (none, [])) := by
  induction s generalizing res hwm with
  | nil => exact .inr ⟨by simpa using hn, rfl⟩
  | cons c s ih =>
    have hcat : res ++ c :: s = (res ++ [c]) ++ s := by simp
    rw [uptoLoop, if_neg (by omega)]
    simp only
    by_cases hc : flag.length ≤ (res ++ [c]).length ∧ (res ++ [c]).drop ((res ++ [c]).length - flag.length) = flag
    · rw [if_pos hc]
      refine .inl ⟨_, _, ⟨?_, ?_⟩, rfl⟩
      · have := List.take_append_drop ((res ++ [c]).length - flag.length) (res ++ [c])
        rw [hc.2] at this
        rw [hcat, this]
      · intro pre' post' e
        -- the occurrence cannot end inside `res`
        have hlen := congrArg List.length e
        simp only [List.length_append, List.length_cons] at hlen
        rw [List.length_take]
        by_cases hlt : (pre' ++ flag).length ≤ res.length
        · exfalso
          apply hn
          have e2 : res = (pre' ++ flag) ++ res.drop (pre' ++ flag).length := by
            have h3 := congrArg (List.take res.length) e
            rw [List.take_left] at h3
            have h4 := congrArg (List.take (pre' ++ flag).length) e
            rw [List.take_left, List.take_append_of_le_length hlt] at h4
            conv => lhs; rw [← List.take_append_drop (pre' ++ flag).length res, h4]
          exact ⟨pre', _, e2.symm⟩
        · simp only [List.length_append, List.length_cons, List.length_nil] at hlt ⊢
          omega
    · rw [if_neg hc, hcat]
      apply ih
      · split <;> simp only [List.length_append, List.length_cons, List.length_nil] at * <;> omega
      · rintro ⟨p, q, e⟩
        by_cases hq : q = []
        · subst hq
          apply hc
          rw [List.append_nil] at e
          have hl := congrArg List.length e
          simp only [List.length_append] at hl
          refine ⟨by rw [List.length_append, ← hl]; omega, ?_⟩
          rw [← e]
          have : (p ++ flag).length - flag.length = p.length := by simp
          rw [this, List.drop_left]
        · apply hn
          refine ⟨p, q.dropLast, ?_⟩
          have h3 := congrArg List.dropLast e
          rw [List.dropLast_append_of_ne_nil hq, List.dropLast_concat] at h3
          exact h3

/-- C31: the text before the first occurrence of the flag is returned and the input is left just
after it; NULL at the end of the input if the flag does not occur.  The buffer never overflows. -/
theorem read_uptoflag_correct (s flag : Str) (hf : flag ≠ []) :
    (∃ pre post, IsFirst flag s pre post ∧ read_uptoflag s flag = .ok (some pre, post)) ∨
    (¬ flag <:+: s ∧ read_uptoflag s flag = .ok (none, [])) := by
  have := uptoLoop_spec hf s [] MAX_STRING (by decide) (by simp; exact hf)
  simpa [read_uptoflag] using this

/-- C31, as an implication: if `pre` is the text before the first occurrence it is what is read. -/
theorem read_uptoflag_first {s flag pre post : Str} (hf : flag ≠ []) (h : IsFirst flag s pre post) :
    read_uptoflag s flag = .ok (some pre, post) := by
  rcases read_uptoflag_correct s flag hf with ⟨p, q, h1, h2⟩ | ⟨h1, _⟩
  · obtain ⟨rfl, rfl⟩ := h.unique h1; exact h2
  · exact absurd ⟨pre, post, h.1.symm⟩ h1

/-- C31 for `osl_util_read_uptoendtag`. -/
theorem read_uptoendtag_first {s name pre post : Str} (h : IsFirst (endTag name) s pre post) :
    read_uptoendtag s name = .ok (some pre, post) := read_uptoflag_first (by simp [endTag]) h

/-- C31 for `osl_util_read_uptotag`. -/
theorem read_uptotag_first {s name pre post : Str} (h : IsFirst (startTag name) s pre post) :
    read_uptotag s name = .ok (some pre, post) := read_uptoflag_first (by simp [startTag]) h

/-- Finding: with an empty flag the first character is eaten. -/
theorem read_uptoflag_empty_violates (c : Char) (s : Str) : read_uptoflag (c :: s) [] = .ok (some [c], s) := by
  simp [read_uptoflag, uptoLoop, MAX_STRING]

theorem findTag_spec {tag : Str} (ht : tag ≠ []) (s : Str) :
    (∃ pre post, IsFirst tag s pre post ∧ findTag tag s = some pre.length) ∨
    (¬ tag <:+: s ∧ findTag tag s = none) := by
  induction s with
  | nil => exact .inr ⟨by simp; exact ht, rfl⟩
  | cons c s ih =>
    rw [findTag]
    by_cases hp : tag.isPrefixOf (c :: s) = true
    · rw [if_pos hp]
      obtain ⟨t, ht⟩ := List.isPrefixOf_iff_prefix.mp hp
      exact .inl ⟨[], t, ⟨by simpa using ht.symm, by simp⟩, rfl⟩
    · rw [if_neg hp]
      have hnp : ¬ tag <+: c :: s := fun h => hp (List.isPrefixOf_iff_prefix.mpr h)
      rcases ih with ⟨pre, post, ⟨h1, h2⟩, h3⟩ | ⟨h1, h2⟩
      · refine .inl ⟨c :: pre, post, ⟨by rw [h1]; simp, ?_⟩, by simp [h3]⟩
        intro pre' post' e
        cases pre' with
        | nil => exact absurd ⟨post', by simpa using e.symm⟩ hnp
        | cons d pre' =>
          simp only [List.cons_append, List.cons.injEq] at e
          have := h2 pre' post' e.2
          simp; omega
      · refine .inr ⟨?_, by simp [h2]⟩
        rw [List.infix_cons_iff]
        rintro (h | h)
        · exact hnp h
        · exact h1 h

theorem findTag_first {tag s pre post : Str} (ht : tag ≠ []) (h : IsFirst tag s pre post) :
    findTag tag s = some pre.length := by
  rcases findTag_spec ht s with ⟨p, q, h1, h2⟩ | ⟨h1, _⟩
  · obtain ⟨rfl, rfl⟩ := h.unique h1; exact h2
  · exact absurd ⟨pre, post, h.1.symm⟩ h1

theorem findTag_absent {tag s : Str} (ht : tag ≠ []) (h : ¬ tag <:+: s) : findTag tag s = none := by
  rcases findTag_spec ht s with ⟨p, q, h1, _⟩ | ⟨_, h2⟩
  · exact absurd ⟨p, q, h1.1.symm⟩ h
  · exact h2

/-- C31: `osl_util_tag_content` returns the text between `<name>` and the next `</name>`
without its first character (which the format makes an end of line).  Not the whole
enclosed text: see `tag_content_violates`; all cases are in `tag_content_cases` (ExactProps). -/
theorem tag_content_correct {s name pre rest content post : Str} (h1 : IsFirst (startTag name) s pre rest)
    (h2 : IsFirst (endTag name) rest content post) (c : Char) (cs : Str) (hc : content = c :: cs) :
    tag_content s name = .ok (some cs) := by
  unfold tag_content
  rw [findTag_first (by simp [startTag]) h1]
  have e : s.drop (pre.length + (startTag name).length) = rest := by
    rw [h1.1, ← List.length_append, List.drop_left]
  simp only [e]
  rw [findTag_first (by simp [endTag]) h2]
  simp only
  rw [if_neg (by rw [hc]; simp), h2.1, List.append_assoc, List.take_left, hc]
  rfl

/-- C31: NULL when the start tag, or the end tag after it, is missing. -/
theorem tag_content_absent (s name : Str) :
    (¬ startTag name <:+: s → tag_content s name = .ok none) ∧
    (∀ pre rest, IsFirst (startTag name) s pre rest → ¬ endTag name <:+: rest → tag_content s name = .ok none) := by
  constructor
  · intro h
    unfold tag_content
    rw [findTag_absent (by simp [startTag]) h]
  · intro pre rest h1 h2
    unfold tag_content
    rw [findTag_first (by simp [startTag]) h1]
    have e : s.drop (pre.length + (startTag name).length) = rest := by
      rw [h1.1, ← List.length_append, List.drop_left]
    simp only [e]
    rw [findTag_absent (by simp [endTag]) h2]

/-- Finding (C31): the first character of the content is lost. -/
theorem tag_content_violates : tag_content "<a>xy</a>".toList "a".toList = .ok (some "y".toList) := by decide

/-- Finding (C31): an empty content makes the copy loop run out of the string, for every name. -/
theorem tag_content_empty_violates {s name pre rest post : Str} (h1 : IsFirst (startTag name) s pre rest)
    (h2 : IsFirst (endTag name) rest [] post) : tag_content s name = .ub := by
  unfold tag_content
  rw [findTag_first (by simp [startTag]) h1]
  have e : s.drop (pre.length + (startTag name).length) = rest := by
    rw [h1.1, ← List.length_append, List.drop_left]
  simp only [e]
  rw [findTag_first (by simp [endTag]) h2]
  simp

example : IsFirst "ab".toList "aabab".toList "a".toList "ab".toList ∧
    read_uptoflag "aabab".toList "ab".toList = .ok (some "a".toList, "ab".toList) ∧
    read_uptoendtag "x y</foo>z".toList "foo".toList = .ok (some "x y".toList, "z".toList) ∧
    tag_content "<a></a>".toList "a".toList = .ub := by
  refine ⟨⟨by decide, ?_⟩, by decide, by decide, by decide⟩
  intro pre' post' e
  match pre' with
  | [] => simp at e
  | _ :: _ => simp

/-! ## C32 -/

/-- Characters of identifiers: letters, digits and `_`. -/
def IdentC (c : Char) : Prop :=
  ('A' ≤ c ∧ c ≤ 'Z') ∨ ('a' ≤ c ∧ c ≤ 'z') ∨ ('0' ≤ c ∧ c ≤ '9') ∨ c = '_'

theorem identChar_iff (c : Char) : identChar c = true ↔ IdentC c := by
  simp [identChar, IdentC, or_assoc]

/-- An occurrence between the texts `pre` and `post` is a whole word: it is not preceded nor followed
by a character of identifiers. -/
def WholeWord (pre post : Str) : Prop :=
  (∀ c, pre.getLast? = some c → ¬ IdentC c) ∧ (∀ c, post.head? = some c → ¬ IdentC c)

/-- Anything may replace an identifier between `pre` and `post` without parentheses: the closest
character which is not a space is one of `[ ( + = ,` on the left and one of `] ) + , ;` on the right,
if any. -/
def Isolated (pre post : Str) : Prop :=
  (∀ p c sp, pre = p ++ [c] ++ sp → (∀ a ∈ sp, isSpace a = true) → isSpace c = false → c ∈ ['[', '(', '+', '=', ',']) ∧
  (∀ sp c p, post = sp ++ c :: p → (∀ a ∈ sp, isSpace a = true) → isSpace c = false → c ∈ [']', ')', '+', ',', ';'])

/-- A piece of the expression: a character which is copied, or an identifier which is replaced. -/
inductive Piece where
  | lit (c : Char)
  | sub (j : Nat) (id : Str) (par : Bool)
deriving Repr, DecidableEq

/-- The text of the expression a piece stands for. -/
def Piece.orig : Piece → Str
  | .lit c => [c]
  | .sub _ id _ => id

/-- The text a piece is replaced by. -/
def Piece.render : Piece → Str
  | .lit c => [c]
  | .sub j _ false => '@' :: showNat j ++ ['@']
  | .sub j _ true => '(' :: '@' :: showNat j ++ ['@', ')']

/-- Original text of a list of pieces. -/
def orig (ps : List Piece) : Str := (ps.map Piece.orig).flatten

/-- Text of a list of pieces after the substitution. -/
def render (ps : List Piece) : Str := (ps.map Piece.render).flatten

/-- `id` occurs as a whole word at the end of `pre`, in front of the text `rest`. -/
def Occurs (pre id rest : Str) : Prop := ∃ post, rest = id ++ post ∧ WholeWord pre post

/-- What a piece must be, between the texts `pre` and `post`: a character is copied only if no
identifier occurs there; an identifier is replaced by its first rank, with parentheses unless isolated. -/
def PieceOk (ids : List Str) (pre post : Str) : Piece → Prop
  | .lit c => ∀ id ∈ ids, ¬ Occurs pre id (c :: post)
  | .sub j id par => ids[j]? = some id ∧ WholeWord pre post ∧
      (∀ i id', i < j → ids[i]? = some id' → ¬ Occurs pre id' (id ++ post)) ∧ (par = false ↔ Isolated pre post)

/-- Specification of the substitution. -/
def SubstSpec (expr : Str) (ids : List Str) (ps : List Piece) : Prop :=
  orig ps = expr ∧ ∀ before p after, ps = before ++ p :: after → PieceOk ids (orig before) (orig after) p

theorem getLast?_map_identChar (pre rest : Str) :
    (((pre ++ rest)[pre.length - 1]?.map identChar).getD false = true ∧ pre.length > 0) ↔
      ∃ c, pre.getLast? = some c ∧ IdentC c := by
  cases hp : pre with
  | nil => simp
  | cons a as =>
    rw [← hp]
    have hlen : 0 < pre.length := by rw [hp]; simp
    have e : (pre ++ rest)[pre.length - 1]? = pre.getLast? := by
      rw [List.getElem?_append_left (by omega), List.getLast?_eq_getElem?]
    rw [e]
    cases hl : pre.getLast? with
    | none => simp at hl; simp [hl] at hlen
    | some c => simp [identChar_iff, hlen]

theorem identifier_is_here_iff (pre rest id : Str) :
    identifier_is_here (pre ++ rest) id pre.length = true ↔ Occurs pre id rest := by
  unfold identifier_is_here
  have hl := getLast?_map_identChar pre rest
  constructor
  · intro h
    split at h
    · cases h
    rename_i h1
    split at h
    · cases h
    rename_i h2
    split at h
    · cases h
    rename_i h3
    rw [List.drop_left] at h
    have h4 : rest.take id.length = id := by simpa using h
    refine ⟨rest.drop id.length, ?_, ?_, ?_⟩
    · conv => lhs; rw [← List.take_append_drop id.length rest, h4]
    · intro c hc hi
      exact h2 ((hl.mpr ⟨c, hc, hi⟩).symm)
    · intro c hc hi
      apply h3
      rw [List.head?_drop] at hc
      have hlt : id.length < rest.length := by
        have := List.getElem?_eq_some_iff.mp hc
        exact this.1
      refine ⟨by simp; omega, ?_⟩
      rw [Nat.add_comm, List.getElem?_append_right (by omega), Nat.add_sub_cancel_left, hc]
      simp [identChar_iff, hi]
  · rintro ⟨post, rfl, hw1, hw2⟩
    rw [if_neg (by simp only [List.length_append]; omega), if_neg, if_neg]
    · rw [List.drop_left, List.take_left]; simp
    · rintro ⟨h1, h2⟩
      rw [Nat.add_comm, List.getElem?_append_right (by omega), Nat.add_sub_cancel_left,
        List.getElem?_append_right (by omega), Nat.sub_self] at h2
      cases hp : post with
      | nil => rw [hp] at h2; simp at h2
      | cons a as =>
        rw [hp] at h2
        simp [identChar_iff] at h2
        exact hw2 a (by rw [hp]; rfl) h2
    · rintro ⟨h1, h2⟩
      obtain ⟨c, hc, hi⟩ := hl.mp ⟨h2, h1⟩
      exact hw1 c hc hi

theorem findIdent_spec (expr : Str) (index j0 : Nat) (ids : List Str) :
    (∃ j id, findIdent expr index j0 ids = some (j0 + j, id) ∧ ids[j]? = some id ∧
      identifier_is_here expr id index = true ∧
      ∀ i id', i < j → ids[i]? = some id' → identifier_is_here expr id' index = false) ∨
    (findIdent expr index j0 ids = none ∧ ∀ id ∈ ids, identifier_is_here expr id index = false) := by
  induction ids generalizing j0 with
  | nil => exact .inr ⟨rfl, by simp⟩
  | cons a ids ih =>
    rw [findIdent]
    by_cases h : identifier_is_here expr a index = true
    · rw [if_pos h]
      exact .inl ⟨0, a, rfl, rfl, h, fun i id' hi => absurd hi (by omega)⟩
    · rw [if_neg h]
      have hf : identifier_is_here expr a index = false := by simpa using h
      rcases ih (j0 + 1) with ⟨j, id, h1, h2, h3, h4⟩ | ⟨h1, h2⟩
      · refine .inl ⟨j + 1, id, by rw [h1]; congr 2; omega, by simpa using h2, h3, ?_⟩
        intro i id' hi hid
        cases i with
        | zero => simp at hid; subst hid; exact hf
        | succ i => exact h4 i id' (by omega) (by simpa using hid)
      · refine .inr ⟨h1, ?_⟩
        intro id hid
        rcases List.mem_cons.mp hid with rfl | hid
        · exact hf
        · exact h2 id hid

theorem lookBack_eq (expr : Str) (n : Nat) (h : n ≤ expr.length) :
    lookBack expr n = ((expr.take n).reverse.dropWhile isSpace).head? := by
  induction n with
  | zero => rfl
  | succ n ih =>
    rw [lookBack]
    have hn : n < expr.length := by omega
    rw [List.getElem?_eq_getElem hn, List.take_succ, List.getElem?_eq_getElem hn]
    simp only [Option.toList_some, List.reverse_append, List.reverse_cons, List.reverse_nil, List.nil_append,
      List.singleton_append, List.dropWhile_cons]
    cases hs : isSpace expr[n]
    · simp
    · simp only [if_true]; exact ih (by omega)

theorem lookBack_append (pre rest : Str) :
    lookBack (pre ++ rest) pre.length = (pre.reverse.dropWhile isSpace).head? := by
  rw [lookBack_eq _ _ (by simp), List.take_left]

/-- The first character which is not a space, as a decomposition. -/
theorem head_dropWhile_iff (s : Str) (c : Char) : (s.dropWhile isSpace).head? = some c ↔
    ∃ sp p, s = sp ++ c :: p ∧ (∀ a ∈ sp, isSpace a = true) ∧ isSpace c = false := by
  induction s with
  | nil => simp
  | cons a s ih =>
    rw [List.dropWhile_cons]
    cases ha : isSpace a
    · simp only [Bool.false_eq_true, if_false, List.head?_cons, Option.some.injEq]
      constructor
      · rintro rfl; exact ⟨[], s, rfl, by simp, ha⟩
      · rintro ⟨sp, p, e, h1, h2⟩
        cases sp with
        | nil => simp at e; exact e.1
        | cons b sp =>
          simp at e
          have := h1 b (by simp)
          rw [← e.1, ha] at this; cases this
    · simp only [if_true]
      rw [ih]
      constructor
      · rintro ⟨sp, p, e, h1, h2⟩
        exact ⟨a :: sp, p, by simp [e], by simpa [ha] using h1, h2⟩
      · rintro ⟨sp, p, e, h1, h2⟩
        cases sp with
        | nil => simp at e; rw [e.1, h2] at ha; cases ha
        | cons b sp =>
          simp at e
          exact ⟨sp, p, e.2, fun a ha => h1 a (by simp [ha]), h2⟩

theorem lazy_isolated_iff (pre id post : Str) :
    lazy_isolated (pre ++ (id ++ post)) id pre.length = true ↔ Isolated pre post := by
  unfold lazy_isolated
  have e : (pre ++ (id ++ post)).drop (pre.length + id.length) = post := by
    rw [← List.append_assoc, ← List.length_append, List.drop_left]
  rw [e, lookBack_append, lookAhead, Bool.and_eq_true]
  unfold Isolated
  apply and_congr
  · cases hh : (pre.reverse.dropWhile isSpace).head? with
    | none =>
      simp only [Option.map_none, Option.getD_none, true_iff]
      intro p c sp e1 h1 h2
      have : (pre.reverse.dropWhile isSpace).head? = some c :=
        (head_dropWhile_iff _ _).mpr ⟨sp.reverse, p.reverse, by rw [e1]; simp, by simpa using h1, h2⟩
      rw [hh] at this; cases this
    | some d =>
      simp only [Option.map_some, Option.getD_some]
      constructor
      · intro ho p c sp e1 h1 h2
        have : (pre.reverse.dropWhile isSpace).head? = some c :=
          (head_dropWhile_iff _ _).mpr ⟨sp.reverse, p.reverse, by rw [e1]; simp, by simpa using h1, h2⟩
        rw [hh] at this
        injection this with this
        subst this
        simpa [openChar, or_assoc] using ho
      · intro h
        obtain ⟨sp, p, e1, h1, h2⟩ := (head_dropWhile_iff _ _).mp hh
        have := h p.reverse d sp.reverse (by rw [← List.reverse_reverse pre, e1]; simp) (by simpa using h1) h2
        simpa [openChar, or_assoc] using this
  · cases hh : (post.dropWhile isSpace).head? with
    | none =>
      simp only [Option.map_none, Option.getD_none, true_iff]
      intro sp c p e1 h1 h2
      have := (head_dropWhile_iff _ _).mpr ⟨sp, p, e1, h1, h2⟩
      rw [hh] at this; cases this
    | some d =>
      simp only [Option.map_some, Option.getD_some]
      constructor
      · intro ho sp c p e1 h1 h2
        have := (head_dropWhile_iff _ _).mpr ⟨sp, p, e1, h1, h2⟩
        rw [hh] at this
        injection this with this
        subst this
        simpa [closeChar, or_assoc] using ho
      · intro h
        obtain ⟨sp, p, e1, h1, h2⟩ := (head_dropWhile_iff _ _).mp hh
        simpa [closeChar, or_assoc] using h sp d p e1 h1 h2

theorem substLoop_spec (ids : List Str) (hids : ∀ id ∈ ids, id ≠ []) (fuel : Nat) (pre rest : Str) (out : Buf)
    (hfuel : rest.length < fuel) :
    ∃ ps b, substLoop (pre ++ rest) ids fuel pre.length out = .ok b ∧ b.str = out.str ++ render ps ∧
      orig ps = rest ∧ ∀ before p after, ps = before ++ p :: after → PieceOk ids (pre ++ orig before) (orig after) p := by
  induction fuel generalizing pre rest out with
  | zero => omega
  | succ fuel ih =>
    rw [substLoop]
    cases hrest : rest with
    | nil =>
      rw [if_neg (by simp)]
      exact ⟨[], out, rfl, by simp [render], rfl, by simp⟩
    | cons c cs =>
      rw [← hrest]
      have hpos : 0 < rest.length := by rw [hrest]; simp
      rw [if_pos (by simp; omega)]
      rcases findIdent_spec (pre ++ rest) pre.length 0 ids with ⟨j, id, h1, h2, h3, h4⟩ | ⟨h1, h2⟩
      · rw [h1]
        simp only [Nat.zero_add]
        obtain ⟨post, hpost, hw⟩ := (identifier_is_here_iff pre rest id).mp h3
        have hid : 0 < id.length := List.length_pos_iff.mpr (hids id (List.mem_of_getElem? h2))
        obtain ⟨b1, g1, g2, _⟩ := safe_strcat_correct out (placeholder (!lazy_isolated (pre ++ rest) id pre.length) j)
        rw [g1]
        simp only [Out.ok_bind]
        have hlen := congrArg List.length hpost
        simp only [List.length_append] at hlen
        obtain ⟨ps, b, k1, k2, k3, k4⟩ := ih (pre ++ id) post b1 (by omega)
        rw [List.append_assoc, ← hpost, List.length_append] at k1
        refine ⟨.sub j id (!lazy_isolated (pre ++ rest) id pre.length) :: ps, b, k1, ?_, ?_, ?_⟩
        · rw [k2, g2]
          simp only [render, List.map_cons, List.flatten_cons, List.append_assoc]
          congr 2
          cases lazy_isolated (pre ++ rest) id pre.length <;> simp [placeholder, Piece.render]
        · simp only [orig, List.map_cons, List.flatten_cons, Piece.orig] at k3 ⊢
          rw [k3, hpost]
        · intro before p after e
          cases before with
          | nil =>
            simp only [List.nil_append, List.cons.injEq] at e
            obtain ⟨rfl, rfl⟩ := e
            have e0 : pre ++ orig [] = pre := by simp [orig]
            rw [e0, k3]
            refine ⟨h2, hw, ?_, ?_⟩
            · intro i id' hi hid' hocc
              rw [← hpost] at hocc
              have := (identifier_is_here_iff pre rest id').mpr hocc
              rw [h4 i id' hi hid'] at this
              cases this
            · rw [← lazy_isolated_iff pre id post, ← hpost]
              simp
          | cons q before =>
            simp only [List.cons_append, List.cons.injEq] at e
            obtain ⟨rfl, e⟩ := e
            have := k4 before p after e
            simpa [orig, Piece.orig] using this
      · rw [h1]
        simp only
        have hget : (pre ++ rest)[pre.length]? = some c := by
          rw [List.getElem?_append_right (by omega), Nat.sub_self, hrest]; rfl
        rw [hget]
        obtain ⟨b1, g1, g2, _⟩ := safe_strcat_correct out (Option.toList (some c))
        rw [g1]
        simp only [Out.ok_bind]
        have hlen : rest.length = cs.length + 1 := by rw [hrest]; simp
        obtain ⟨ps, b, k1, k2, k3, k4⟩ := ih (pre ++ [c]) cs b1 (by omega)
        have e1 : pre ++ [c] ++ cs = pre ++ rest := by rw [hrest]; simp
        rw [e1] at k1
        have e2 : (pre ++ [c]).length = pre.length + 1 := by simp
        rw [e2] at k1
        refine ⟨.lit c :: ps, b, k1, ?_, ?_, ?_⟩
        · rw [k2, g2]; simp [render, Piece.render]
        · simp only [orig, List.map_cons, List.flatten_cons, Piece.orig] at k3 ⊢
          rw [k3, hrest]; rfl
        · intro before p after e
          cases before with
          | nil =>
            simp only [List.nil_append, List.cons.injEq] at e
            obtain ⟨rfl, rfl⟩ := e
            have e0 : pre ++ orig [] = pre := by simp [orig]
            rw [e0, k3]
            intro id hid hocc
            have := (identifier_is_here_iff pre rest id).mpr (by rw [hrest]; exact hocc)
            rw [h2 id hid] at this
            cases this
          | cons q before =>
            simp only [List.cons_append, List.cons.injEq] at e
            obtain ⟨rfl, e⟩ := e
            have := k4 before p after e
            simpa [orig, Piece.orig] using this

/-- C32: with non-empty identifiers the substitution terminates, and its result is the expression
where exactly the whole word occurrences of the identifiers, read from left to right, are replaced
by the placeholder of the first matching rank, parenthesised unless isolated. -/
theorem identifier_substitution_correct (expr : Str) (ids : List Str) (hids : ∀ id ∈ ids, id ≠ []) :
    ∃ ps, identifier_substitution expr ids = .ok (render ps) ∧ SubstSpec expr ids ps := by
  obtain ⟨ps, b, h1, h2, h3, h4⟩ := substLoop_spec ids hids (expr.length + 1) [] expr { str := [], hwm := MAX_STRING } (by omega)
  refine ⟨ps, ?_, h3, ?_⟩
  · simp only [List.nil_append, List.length_nil] at h1
    simp only [identifier_substitution, h1, Out.ok_bind, Out.pure_eq]
    rw [h2]; simp
  · intro before p after e
    simpa using h4 before p after e

/-- The specification determines the pieces, hence the result. -/
theorem SubstSpec.unique {expr : Str} {ids : List Str} {ps qs : List Piece} (h : SubstSpec expr ids ps)
    (h' : SubstSpec expr ids qs) (hids : ∀ id ∈ ids, id ≠ []) : ps = qs := by
  suffices H : ∀ (pre rest : Str) (ps qs : List Piece), orig ps = rest → orig qs = rest →
      (∀ before p after, ps = before ++ p :: after → PieceOk ids (pre ++ orig before) (orig after) p) →
      (∀ before p after, qs = before ++ p :: after → PieceOk ids (pre ++ orig before) (orig after) p) → ps = qs by
    exact H [] expr ps qs h.1 h'.1 (fun b p a e => by simpa using h.2 b p a e) (fun b p a e => by simpa using h'.2 b p a e)
  intro pre rest ps
  induction ps generalizing pre rest with
  | nil =>
    intro qs h1 h2 _ k2
    cases qs with
    | nil => rfl
    | cons q qs =>
      exfalso
      simp [orig] at h1
      subst h1
      cases q with
      | lit c => simp [orig, Piece.orig] at h2
      | sub j id par =>
        simp [orig, Piece.orig] at h2
        have := (k2 [] _ _ rfl).1
        exact hids id (List.mem_of_getElem? this) h2.1
  | cons p ps ih =>
    intro qs h1 h2 k1 k2
    cases qs with
    | nil =>
      exfalso
      simp [orig] at h2
      subst h2
      cases p with
      | lit c => simp [orig, Piece.orig] at h1
      | sub j id par =>
        simp [orig, Piece.orig] at h1
        have := (k1 [] _ _ rfl).1
        exact hids id (List.mem_of_getElem? this) h1.1
    | cons q qs =>
      have a1 := k1 [] p ps rfl
      have a2 := k2 [] q qs rfl
      have e0 : pre ++ orig [] = pre := by simp [orig]
      rw [e0] at a1 a2
      have e1 : orig (p :: ps) = p.orig ++ orig ps := by simp [orig]
      have e2 : orig (q :: qs) = q.orig ++ orig qs := by simp [orig]
      have e3 : p.orig ++ orig ps = q.orig ++ orig qs := by rw [← e1, ← e2, h1, h2]
      have hpq : p = q := by
        cases p with
        | lit c =>
          cases q with
          | lit d => simp [Piece.orig] at e3; rw [e3.1]
          | sub j id par =>
            exfalso
            simp only [Piece.orig, List.singleton_append] at e3
            exact a1 id (List.mem_of_getElem? a2.1) ⟨_, e3, a2.2.1⟩
        | sub j id par =>
          cases q with
          | lit d =>
            exfalso
            simp only [Piece.orig, List.singleton_append] at e3
            exact a2 id (List.mem_of_getElem? a1.1) ⟨_, e3.symm, a1.2.1⟩
          | sub j' id' par' =>
            simp only [Piece.orig] at e3
            have hj : j = j' := by
              rcases Nat.lt_trichotomy j j' with hlt | heq | hlt
              · exact absurd ⟨_, e3.symm, a1.2.1⟩ (a2.2.2.1 j id hlt a1.1)
              · exact heq
              · exact absurd ⟨_, e3, a2.2.1⟩ (a1.2.2.1 j' id' hlt a2.1)
            subst hj
            have hid := a1.1.symm.trans a2.1
            injection hid with hid
            subst hid
            have ho := List.append_cancel_left e3
            have h5 := a1.2.2.2
            have h6 := a2.2.2.2
            rw [ho] at h5
            have : par = false ↔ par' = false := h5.trans h6.symm
            cases par <;> cases par' <;> simp at this ⊢
      subst hpq
      have e4 := List.append_cancel_left e3
      congr 1
      refine ih (pre ++ p.orig) (orig ps) qs rfl e4.symm ?_ ?_
      · intro b x a e
        have := k1 (p :: b) x a (by rw [e]; rfl)
        simpa [orig] using this
      · intro b x a e
        have := k2 (p :: b) x a (by rw [e]; rfl)
        simpa [orig] using this

/-- Finding (C32): an empty identifier makes the loop run forever (no number of iterations is enough). -/
theorem identifier_substitution_empty_diverges (fuel : Nat) (out : Buf) :
    substLoop "+".toList ["".toList] fuel 0 out = .ub := by
  induction fuel generalizing out with
  | zero => rfl
  | succ fuel ih =>
    rw [substLoop, if_pos (by decide)]
    have e : findIdent "+".toList 0 0 ["".toList] = some (0, []) := by decide
    rw [e]
    obtain ⟨b1, g1, _⟩ := safe_strcat_correct out (placeholder (!lazy_isolated "+".toList [] 0) 0)
    simp only
    rw [g1]
    exact ih b1

example : identifier_substitution "C[i+j]+=A[2*i]*B[j];".toList ["i".toList, "j".toList] =
    .ok "C[@0@+@1@]+=A[2*(@0@)]*B[@1@];".toList := by decide

example : WholeWord "A[".toList "]".toList ∧ ¬ WholeWord "A[x".toList "]".toList := by
  refine ⟨⟨?_, ?_⟩, ?_⟩
  · intro c hc; simp at hc; subst hc; rw [← identChar_iff]; decide
  · intro c hc; simp at hc; subst hc; rw [← identChar_iff]; decide
  · intro h; exact h.1 'x' (by decide) ((identChar_iff _).mp (by decide))

end Util
end Osl
