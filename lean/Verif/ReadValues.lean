import Verif.ReadLines
/-!
# Where the entries of a relation which is read come from (C61)

The specification of the text of a relation: its lines, comments and blank lines apart, are a line which starts with the name of the
type, possibly a line with the number of parts, and for each part a line with the six attributes and one line per row,
with the entries of the row as its first words.
-/

namespace Osl

/-! ## Specification -/

/-- The word starts with the integer `v`, written in decimal with an optional sign. -/
def LeadingInt (w : Str) (v : Int) (tail : Str) : Prop :=
  ∃ sign digits, w = sign ++ (digits ++ tail) ∧ digits ≠ [] ∧ (∀ ch ∈ digits, isDigit ch = true) ∧ (∀ ch, tail.head? = some ch → isDigit ch = false) ∧
    ((sign = [] ∨ sign = ['+']) ∧ v = digitsVal digits ∨ sign = ['-'] ∧ v = -(digitsVal digits : Int))

/-- The text starts with the integers `vs`, with blanks before each of them. -/
inductive StartsWithInts : List Int → Str → Prop
  | nil (s : Str) : StartsWithInts [] s
  | cons {v : Int} {vs : List Int} {blanks w tail : Str} : (∀ ch ∈ blanks, isSpace ch = true) → LeadingInt w v tail → StartsWithInts vs tail →
      StartsWithInts (v :: vs) (blanks ++ w)

/-- The words of a text: its longest parts without blanks; `cur` is the word being read. -/
def wordsFrom : Str → Str → List Str
  | cur, [] => if cur = [] then [] else [cur]
  | cur, ch :: s => if isSpace ch then (if cur = [] then wordsFrom [] s else cur :: wordsFrom [] s) else wordsFrom (cur ++ [ch]) s

/-- The words of a text. -/
def textWords (s : Str) : List Str := wordsFrom [] s

/-! ## Words -/

theorem wordsFrom_word {cur w : Str} (hw : ∀ ch ∈ w, isSpace ch = false) (s : Str) : wordsFrom cur (w ++ s) = wordsFrom (cur ++ w) s := by
  induction w generalizing cur with
  | nil => simp
  | cons ch w ih =>
    simp only [List.cons_append, wordsFrom]
    rw [if_neg (by simp [hw ch])]
    rw [ih (fun x hx => hw x (by simp [hx]))]
    simp

theorem wordsFrom_end {cur : Str} (hc : cur ≠ []) {s : Str} (hs : ∀ ch, s.head? = some ch → isSpace ch = true) : wordsFrom cur s = cur :: textWords s := by
  cases s with
  | nil => simp [wordsFrom, textWords, hc]
  | cons ch s =>
    have := hs ch rfl
    simp [wordsFrom, textWords, hc, this]

theorem textWords_blanks {b : Str} (hb : ∀ ch ∈ b, isSpace ch = true) (s : Str) : textWords (b ++ s) = textWords s := by
  induction b with
  | nil => rfl
  | cons ch b ih =>
    have := ih fun x hx => hb x (by simp [hx])
    have h := hb ch (by simp)
    simp only [textWords, List.cons_append, wordsFrom, h, if_true] at this ⊢
    exact this

theorem dropWhile_split (q : Char → Bool) (s : Str) : ∃ b, s = b ++ s.dropWhile q ∧ (∀ ch ∈ b, q ch = true) ∧ ∀ ch, (s.dropWhile q).head? = some ch → q ch = false := by
  refine ⟨s.takeWhile q, (List.takeWhile_append_dropWhile).symm, fun ch hch => ?_, fun ch hch => ?_⟩
  · have := List.all_takeWhile (p := q) (l := s)
    rw [List.all_eq_true] at this
    exact this ch hch
  · have := List.head?_dropWhile_not q s
    rw [hch] at this
    simpa using this

/-- The first word, and what follows it. -/
theorem scanToken_words {s : Str} : (scanToken s = none ∧ textWords s = []) ∨
    ∃ w rest b, scanToken s = some (w, rest) ∧ textWords s = w :: textWords rest ∧ s = b ++ (w ++ rest) ∧ (∀ ch ∈ b, isSpace ch = true) ∧
      w ≠ [] ∧ (∀ ch ∈ w, isSpace ch = false) ∧ ∀ ch, rest.head? = some ch → isSpace ch = true := by
  obtain ⟨b, e1, h1, h2⟩ := dropWhile_split isSpace s
  cases ht : s.dropWhile isSpace with
  | nil =>
    left
    rw [ht, List.append_nil] at e1
    refine ⟨by simp [scanToken, ht], ?_⟩
    rw [e1]
    have := textWords_blanks h1 []
    simpa [textWords, wordsFrom] using this
  | cons ch t =>
    right
    obtain ⟨w, e2, h3, h4⟩ := dropWhile_split (fun c => !isSpace c) (ch :: t)
    have hch : isSpace ch = false := h2 ch (by rw [ht]; rfl)
    have e3 : (ch :: t).takeWhile (fun c => !isSpace c) = w := by
      have := List.takeWhile_append_dropWhile (p := fun c => !isSpace c) (l := ch :: t)
      conv at this => rhs; rw [e2]
      exact List.append_cancel_right this
    have hw : w ≠ [] := by
      rw [← e3]
      simp [hch]
    have h3' : ∀ c ∈ w, isSpace c = false := fun c hc => by simpa using h3 c hc
    have h4' : ∀ c, ((ch :: t).dropWhile (fun c => !isSpace c)).head? = some c → isSpace c = true := fun c hc => by simpa using h4 c hc
    refine ⟨w, (ch :: t).dropWhile (fun c => !isSpace c), b, ?_, ?_, ?_, h1, hw, h3', h4'⟩
    · simp only [scanToken, ht]
      rw [e3]
    · rw [e1, textWords_blanks h1, ht]
      conv => lhs; rw [e2]
      unfold textWords
      rw [wordsFrom_word h3', List.nil_append]
      exact wordsFrom_end hw h4'
    · rw [← e2, ← ht]; exact e1

theorem scanDigits_leading {neg : Bool} {s rest : Str} {v : Int} (h : scanDigits neg s = .val v rest) : ∃ digits, s = digits ++ rest ∧ digits ≠ [] ∧
    (∀ ch ∈ digits, isDigit ch = true) ∧ (∀ ch, rest.head? = some ch → isDigit ch = false) ∧ v = if neg then -(digitsVal digits : Int) else digitsVal digits := by
  obtain ⟨d, e, h1, h2⟩ := dropWhile_split isDigit s
  have e2 : s.takeWhile isDigit = d := by
    have := List.takeWhile_append_dropWhile (p := isDigit) (l := s)
    conv at this => rhs; rw [e]
    exact List.append_cancel_right this
  unfold scanDigits at h
  rw [e2] at h
  cases d with
  | nil => cases h
  | cons a d =>
    simp only [Scan.val.injEq] at h
    obtain ⟨h3, h4⟩ := h
    subst h4
    exact ⟨a :: d, e, by simp, h1, h2, h3.symm⟩

theorem scanInt_leading {s rest : Str} {v : Int} (h : scanInt s = .val v rest) : ∃ b w, s = b ++ w ∧ (∀ ch ∈ b, isSpace ch = true) ∧ LeadingInt w v rest := by
  obtain ⟨b, e, h1, _⟩ := dropWhile_split isSpace s
  refine ⟨b, s.dropWhile isSpace, e, h1, ?_⟩
  unfold scanInt at h
  split at h
  · cases h
  · next t ht =>
    obtain ⟨d, e1, e2, e3, e4, e5⟩ := scanDigits_leading h
    exact ⟨['-'], d, by rw [ht, e1]; rfl, e2, e3, e4, .inr ⟨rfl, by simpa using e5⟩⟩
  · next t ht =>
    obtain ⟨d, e1, e2, e3, e4, e5⟩ := scanDigits_leading h
    exact ⟨['+'], d, by rw [ht, e1]; rfl, e2, e3, e4, .inl ⟨.inr rfl, by simpa using e5⟩⟩
  · next t _ _ =>
    obtain ⟨d, e1, e2, e3, e4, e5⟩ := scanDigits_leading h
    exact ⟨[], d, by rw [← e1]; rfl, e2, e3, e4, .inl ⟨.inl rfl, by simpa using e5⟩⟩

theorem scanInts_starts : ∀ {n : Nat} {s : Str} {l : List Int}, scanInts n s = .ok l → StartsWithInts l s
  | 0, s, _, h => by cases h; exact .nil s
  | n + 1, s, l, h => by
    simp only [scanInts] at h
    split at h
    · next v rest hv =>
      obtain ⟨b, w, e1, e2, e3⟩ := scanInt_leading hv
      split at h
      · split at h
        · next l' hl => cases h; rw [e1]; exact .cons e2 e3 (scanInts_starts hl)
        · cases h
        · cases h
      · cases h
    · cases h; exact .nil s

/-- A word: it is not empty and has no blank. -/
def IsWord (w : Str) : Prop := w ≠ [] ∧ ∀ ch ∈ w, isSpace ch = false

/-- The value read in a word is the integer at its beginning. -/
theorem sread_word {c : Cfg} {p : Int} {w : Str} (hw : IsWord w) {v : Int} {pos : Option Str} (h : OInt.sread c p w 0 = .ok (v, pos)) : ∃ tail, LeadingInt w v tail := by
  unfold OInt.sread at h
  split at h
  · next v' n hs =>
    cases h
    unfold OInt.sscanf at hs
    split at hs
    · cases hs
    · split at hs
      · next v'' rest' hi =>
        obtain ⟨b', w', e1, e2, e3⟩ := scanInt_leading hi
        have hb : b' = [] := by
          cases b' with
          | nil => rfl
          | cons x b' =>
            have a1 := e2 x (by simp)
            have a2 := hw.2 x (by rw [e1]; simp)
            rw [a1] at a2; cases a2
        subst hb
        rw [List.nil_append] at e1
        subst e1
        have : v'' = v := by
          split at hs
          · split at hs
            · cases hs; rfl
            · cases hs
          · cases hs; rfl
        subst this
        exact ⟨_, e3⟩
      · cases hs
      · next hi =>
        exfalso
        have : List.dropWhile isSpace w = w := by
          cases w with
          | nil => rfl
          | cons x w => simp [hw.2 x (by simp)]
        unfold scanInt at hi
        rw [this] at hi
        split at hi
        · exact hw.1 rfl
        all_goals
          unfold scanDigits at hi
          split at hi <;> cases hi
  · cases h
  · cases h

/-- The word for the entry of rank `j`: that of rank `j`, or the last one when there are not enough words. -/
def pick (prev : Option Str) (ws : List Str) (j : Nat) : Option Str := ws[j]?.or (ws.getLast?.or prev)

/-- The line holds the row: the entry of rank `j` is the integer at the beginning of the word of rank `j`; when the line has fewer words
than the row has entries, the last word stands for the missing ones. -/
def RowLine (row : List Int) (l : Str) : Prop :=
  ∀ (j : Nat) (v : Int), row[j]? = some v → ∃ w tail, pick none (textWords l) j = some w ∧ LeadingInt w v tail

theorem textWords_drop {s : Str} (h : textWords s = []) (n : Nat) : textWords (s.drop n) = [] := by
  rcases scanToken_words (s := s) with ⟨h1, _⟩ | ⟨w, rest, b, _, h2, _⟩
  · have hb : s.dropWhile isSpace = [] := by
      unfold scanToken at h1
      split at h1
      · next e => exact e
      · cases h1
    obtain ⟨b, e, h3, _⟩ := dropWhile_split isSpace s
    rw [hb, List.append_nil] at e
    have hall : ∀ ch ∈ s.drop n, isSpace ch = true := fun ch hch => h3 ch (e ▸ List.mem_of_mem_drop hch)
    have := textWords_blanks hall []
    simpa [textWords, wordsFrom] using this
  · rw [h2] at h; cases h

theorem textWords_newline (s : Str) : textWords (s ++ ['\n']) = textWords s := by
  have : ∀ (s cur : Str), wordsFrom cur (s ++ ['\n']) = wordsFrom cur s := by
    intro s
    induction s with
    | nil => intro cur; simp [wordsFrom, isSpace]
    | cons ch s ih => intro cur; simp only [List.cons_append, wordsFrom]; rw [ih, ih]
  exact this s []

namespace Rel

theorem readVals_pick {c : Cfg} {p : Int} : ∀ {n : Nat} {s s' : RState} {vs : List Int} {input : Str}, s.pos = some input →
    (∀ t, s.last = some t → IsWord t.1) → readVals c p n s = .ok (vs, s') →
    (∀ (j : Nat) (v : Int), vs[j]? = some v → ∃ w tail, pick (s.last.map (·.1)) (textWords input) j = some w ∧ LeadingInt w v tail) ∧
    (∀ t, s'.last = some t → IsWord t.1)
  | 0, _, _, _, _, _, hl, h => by cases h; exact ⟨by simp, hl⟩
  | n + 1, s, s', vs, input, hpos, hlast, h => by
    simp only [readVals] at h
    obtain ⟨⟨v0, s1⟩, h3, h⟩ := Out.bind_eq_ok.mp h
    obtain ⟨⟨vs', s2⟩, h4, h⟩ := Out.bind_eq_ok.mp h
    cases h
    unfold readVal at h3
    rw [hpos] at h3
    simp only at h3
    split at h3
    · cases h3
    · cases h3
    · rcases scanToken_words (s := input) with ⟨h1, h2⟩ | ⟨w, rest, b, h1, h2, _, _, h5, h6, _⟩
      · rw [h1] at h3
        simp only at h3
        split at h3
        · cases h3
        · next tok k hk =>
          obtain ⟨x, h8, h3⟩ := Out.bind_eq_ok.mp h3
          cases h3
          obtain ⟨tail, ht⟩ := sread_word (hlast _ hk) h8
          have hp0 : ∀ j, pick (s.last.map (·.1)) (textWords input) j = some tok := by intro j; simp [pick, h2, hk]
          by_cases hn : k ≤ input.length
          · rw [if_pos hn] at h4
            obtain ⟨g1, g2⟩ := readVals_pick (s := { pos := some (input.drop k), last := s.last }) rfl hlast h4
            refine ⟨?_, g2⟩
            intro j v hj
            cases j with
            | zero => simp at hj; subst hj; exact ⟨tok, tail, hp0 0, ht⟩
            | succ j =>
              obtain ⟨w, tail', e1, e2⟩ := g1 j v (by simpa using hj)
              dsimp only at e1
              rw [textWords_drop h2] at e1
              refine ⟨w, tail', ?_, e2⟩
              rw [hp0]
              simpa [pick, hk] using e1
          · rw [if_neg hn] at h4
            cases n with
            | zero =>
              cases h4
              refine ⟨?_, hlast⟩
              intro j v hj
              cases j with
              | zero => simp at hj; subst hj; exact ⟨tok, tail, hp0 0, ht⟩
              | succ j => simp at hj
            | succ n =>
              simp only [readVals] at h4
              obtain ⟨_, h9, _⟩ := Out.bind_eq_ok.mp h4
              simp [readVal] at h9
      · rw [h1] at h3
        simp only at h3
        split at h3
        · cases h3
        · obtain ⟨x, h8, h3⟩ := Out.bind_eq_ok.mp h3
          cases h3
          obtain ⟨tail, ht⟩ := sread_word ⟨h5, h6⟩ h8
          obtain ⟨g1, g2⟩ := readVals_pick (s := { pos := some rest, last := some (w, input.length - rest.length) }) rfl (by intro t ht; cases ht; exact ⟨h5, h6⟩) h4
          refine ⟨?_, g2⟩
          intro j v hj
          rw [h2]
          cases j with
          | zero => simp at hj; subst hj; exact ⟨w, tail, by simp [pick], ht⟩
          | succ j =>
            obtain ⟨w', tail', e1, e2⟩ := g1 j v (by simpa using hj)
            refine ⟨w', tail', ?_, e2⟩
            simp only [pick, List.getElem?_cons_succ, Option.map_some] at e1 ⊢
            rw [← e1]
            cases hr : textWords rest with
            | nil => simp
            | cons a l =>
              rw [List.getLast?_cons_cons]
              cases hg : (a :: l).getLast? with
              | none => simp at hg
              | some z => rfl

theorem pick_none {ws : List Str} (h : ws ≠ []) (prev : Option Str) (j : Nat) : pick prev ws j = pick none ws j := by
  unfold pick
  cases hg : ws.getLast? with
  | none => exact absurd (List.getLast?_eq_none_iff.mp hg) h
  | some z => rfl

/-- The rows are those of the next lines. -/
theorem fRows_lines {c : Cfg} {p : Int} {k : Nat} : ∀ {n : Nat} {last last' : Option (Str × Nat)} {ls : List Str} {rest : Str} {m : Matrix}, Util.TextLines ls →
    (∀ t, last = some t → IsWord t.1) → fRows c p k n last (Util.unlines ls) = .ok (m, last', rest) →
    ∃ rows ls', Util.TextLines ls' ∧ rest = Util.unlines ls' ∧ Util.content ls = rows ++ Util.content ls' ∧ rows.length = m.length ∧
      (∀ (i : Nat) (row : List Int) (l : Str), m[i]? = some row → rows[i]? = some l → RowLine row l) ∧ (∀ t, last' = some t → IsWord t.1)
  | 0, _, _, ls, _, _, ht, hlast, h => by cases h; exact ⟨[], ls, ht, rfl, rfl, rfl, by simp, hlast⟩
  | n + 1, last, last', ls, rest, m, ht, hlast, h => by
    simp only [fRows] at h
    rcases Util.fskip_lines ht with ⟨_, h1⟩ | ⟨l, ls1, h1, _, _, h3, h4, h5, h6⟩
    · rw [h1] at h; cases h
    · rw [h6] at h
      simp only at h
      obtain ⟨⟨row, s1⟩, h7, h⟩ := Out.bind_eq_ok.mp h
      obtain ⟨⟨m', last1, rest1⟩, h8, h⟩ := Out.bind_eq_ok.mp h
      cases h
      obtain ⟨g1, g2⟩ := readVals_pick (s := { pos := some (l ++ ['\n']), last := last }) rfl hlast h7
      obtain ⟨rows, ls', i1, i2, i3, i4, i5, i6⟩ := fRows_lines h4 g2 h8
      refine ⟨l :: rows, ls', i1, i2, by rw [h5, i3]; rfl, by simp [i4], ?_, i6⟩
      intro i row' l' hr hl
      cases i with
      | zero =>
        simp at hr hl
        subst hr; subst hl
        intro j v hj
        obtain ⟨w, tail, e1, e2⟩ := g1 j v hj
        rw [textWords_newline] at e1
        have hne : textWords l ≠ [] := by
          cases l with
          | nil => exact absurd rfl h1
          | cons ch l =>
            rcases scanToken_words (s := ch :: l) with ⟨a1, _⟩ | ⟨w, r, b, _, a2, _⟩
            · have := (h3 ch rfl).1
              simp [scanToken, this] at a1
            · rw [a2]; simp
        rw [pick_none hne] at e1
        exact ⟨w, tail, e1, e2⟩
      | succ i => exact i5 i row' l' (by simpa using hr) (by simpa using hl)

/-- The lines of a part: its six attributes, then its rows. -/
def PartLines (p : Part) (ls : List Str) : Prop :=
  ∃ h rows, ls = h :: rows ∧ StartsWithInts [p.nb_rows, p.nb_columns, p.nb_output_dims, p.nb_input_dims, p.nb_local_dims, p.nb_parameters] h ∧
    rows.length = p.m.length ∧ ∀ (i : Nat) (row : List Int) (l : Str), p.m[i]? = some row → rows[i]? = some l → RowLine row l

/-- The lines of the parts, in order. -/
inductive PartsLines : Rel → List Str → Prop
  | nil : PartsLines [] []
  | cons {p : Part} {r : Rel} {a b : List Str} : PartLines p a → PartsLines r b → PartsLines (p :: r) (a ++ b)

/-- The line starts with the name of the type. -/
def TypeLine (type : Int) (l : Str) : Prop :=
  ∃ tail, l = sprint_type type ++ tail ∧ ∀ ch, tail.head? = some ch → isSpace ch = true ∨ ch = '#'

/-- The lines of a relation (comments, blank lines and indentation apart): the type, the number of parts if there are several (it may
also be given when there is one), the parts. -/
def RelLines (r : Rel) (ls : List Str) : Prop :=
  ∃ t body, ls = t :: body ∧ (∀ p ∈ r, TypeLine p.type t) ∧
    ((∃ p, r = [p] ∧ PartLines p body) ∨ ∃ n parts, body = n :: parts ∧ StartsWithInts [(r.length : Int)] n ∧ PartsLines r parts)

theorem append_newline {a t l : Str} (ha : a ≠ []) (hn : ∀ ch, a.getLast? = some ch → ch ≠ '\n') (e : a ++ t = l ++ ['\n']) : ∃ t', t = t' ++ ['\n'] ∧ l = a ++ t' := by
  rcases List.eq_nil_or_concat t with rfl | ⟨t', x, rfl⟩
  · rw [List.append_nil] at e
    exact absurd rfl (hn '\n' (by rw [e]; simp))
  · rw [List.concat_eq_append, ← List.append_assoc] at e
    obtain ⟨e1, e2⟩ := List.append_inj' e rfl
    cases e2
    exact ⟨t', by simp, e1.symm⟩

theorem startsWithInts_newline {vs : List Int} : ∀ {l : Str}, StartsWithInts vs (l ++ ['\n']) → StartsWithInts vs l := by
  intro l h
  generalize hs : l ++ ['\n'] = s at h
  induction h generalizing l with
  | nil s => exact .nil l
  | @cons v vs blanks w tail hb hw _ ih =>
    obtain ⟨sign, digits, rfl, h1, h2, h3, h4⟩ := hw
    have e : (blanks ++ (sign ++ digits)) ++ tail = l ++ ['\n'] := by rw [hs]; simp
    obtain ⟨t', rfl, rfl⟩ := append_newline (by simp [h1]) (by
      intro ch hch
      have : ch ∈ digits := by
        rw [List.getLast?_append, List.getLast?_append, List.getLast?_eq_some_getLast h1] at hch
        simp only [Option.or_some, Option.some_or, Option.mem_def, Option.some.injEq] at hch
        rw [← hch]; exact List.getLast_mem h1
      exact isDigit_ne (h2 ch this) (by decide)) e
    rw [List.append_assoc]
    refine .cons (tail := t') hb ⟨sign, digits, by simp, h1, h2, ?_, h4⟩ (ih rfl)
    intro ch hch
    exact h3 ch (by cases t' with
      | nil => cases hch
      | cons a t' => simpa using hch)

theorem firstLine_starts {l : Str} {f : FirstLine} (h : firstLine (l ++ ['\n']) = .ok f) : (∀ n, f = .count n → StartsWithInts [n] l) ∧
    ∀ d, f = .header d → StartsWithInts [d.nb_rows, d.nb_columns, d.nb_output_dims, d.nb_input_dims, d.nb_local_dims, d.nb_parameters] l := by
  unfold firstLine at h
  obtain ⟨x, h1, h⟩ := Out.bind_eq_ok.mp h
  have := scanInts_starts h1
  split at h
  · cases h; exact ⟨fun n e => by cases e; exact startsWithInts_newline this, fun d e => by cases e⟩
  · cases h; exact ⟨fun n e => by (cases e), fun d e => by cases e; exact startsWithInts_newline this⟩
  · cases h

theorem fLine_lines {ls : List Str} (ht : Util.TextLines ls) {f : FirstLine} {rest : Str} (h : fLine (Util.unlines ls) = .ok (f, rest)) :
    ∃ l ls', Util.TextLines ls' ∧ rest = Util.unlines ls' ∧ Util.content ls = l :: Util.content ls' ∧ (∀ n, f = .count n → StartsWithInts [n] l) ∧
    ∀ d, f = .header d → StartsWithInts [d.nb_rows, d.nb_columns, d.nb_output_dims, d.nb_input_dims, d.nb_local_dims, d.nb_parameters] l := by
  unfold fLine at h
  rcases Util.fskip_lines ht with ⟨_, h1⟩ | ⟨l, ls1, h1, _, _, h3, h4, h5, h6⟩
  · rw [h1] at h; cases h
  · rw [h6] at h
    obtain ⟨x, h7, h⟩ := Out.bind_eq_ok.mp h
    cases h
    exact ⟨l, ls1, h4, rfl, h5, firstLine_starts h7⟩

theorem fBody_lines {c : Cfg} {p type : Int} {d : Header} {last last' : Option (Str × Nat)} {ls : List Str} {rest : Str} {q : Part} (ht : Util.TextLines ls)
    (hlast : ∀ t, last = some t → IsWord t.1) (h : fBody c p type d last (Util.unlines ls) = .ok (q, last', rest)) {hl : Str}
    (hh : StartsWithInts [d.nb_rows, d.nb_columns, d.nb_output_dims, d.nb_input_dims, d.nb_local_dims, d.nb_parameters] hl) :
    ∃ rows ls', Util.TextLines ls' ∧ rest = Util.unlines ls' ∧ Util.content ls = rows ++ Util.content ls' ∧ PartLines q (hl :: rows) ∧ (∀ t, last' = some t → IsWord t.1) := by
  unfold fBody at h
  obtain ⟨_, _, h⟩ := Out.bind_eq_ok.mp h
  obtain ⟨⟨m, last1, rest1⟩, h8, h⟩ := Out.bind_eq_ok.mp h
  cases h
  obtain ⟨rows, ls', i1, i2, i3, i4, i5, i6⟩ := fRows_lines ht hlast h8
  exact ⟨rows, ls', i1, i2, i3, ⟨hl, rows, rfl, hh, i4, i5⟩, i6⟩

theorem fParts_lines {c : Cfg} {p type : Int} : ∀ {n : Nat} {last : Option (Str × Nat)} {ls : List Str} {rest : Str} {r : Rel}, Util.TextLines ls →
    (∀ t, last = some t → IsWord t.1) → fParts c p type n last (Util.unlines ls) = .ok (r, rest) →
    ∃ parts ls', Util.TextLines ls' ∧ rest = Util.unlines ls' ∧ Util.content ls = parts ++ Util.content ls' ∧ PartsLines r parts
  | 0, _, ls, _, _, ht, _, h => by cases h; exact ⟨[], ls, ht, rfl, rfl, .nil⟩
  | n + 1, last, ls, rest, r, ht, hlast, h => by
    simp only [fParts] at h
    obtain ⟨⟨f, s1⟩, h1, h⟩ := Out.bind_eq_ok.mp h
    obtain ⟨l, ls1, a1, rfl, a3, a4, a5⟩ := fLine_lines ht h1
    cases f with
    | count _ => cases h
    | header d =>
      simp only at h
      obtain ⟨⟨q, last1, s2⟩, h2, h⟩ := Out.bind_eq_ok.mp h
      obtain ⟨⟨r', s3⟩, h3, h⟩ := Out.bind_eq_ok.mp h
      cases h
      obtain ⟨rows, ls2, b1, rfl, b3, b4, b5⟩ := fBody_lines a1 hlast h2 (a5 d rfl)
      obtain ⟨parts, ls3, c1, c2, c3, c4⟩ := fParts_lines b1 b5 h3
      exact ⟨(l :: rows) ++ parts, ls3, c1, c2, by rw [a3, b3, c3]; simp, .cons b4 c4⟩

theorem typeOfWord_name {w : Str} {t : Int} (h : typeOfWord w = .ok t) : w = sprint_type t := by
  unfold typeOfWord at h
  repeat' split at h
  all_goals first | (cases h; next e => rw [e]; decide) | cases h

theorem type_line {l : Str} (hne : l ≠ []) (hh : ∀ ch, l.head? = some ch → isSpace ch = false ∧ ch ≠ '#') {s : Option Strings} {pos : Option Str} {t : Int}
    (h : Strings.sread (l ++ ['\n']) = .ok (s, pos)) (ht : typeOfStrings s = .ok t) : TypeLine t l := by
  have hst : Util.sskip (l ++ ['\n']) = l ++ ['\n'] := by
    cases l with
    | nil => exact absurd rfl hne
    | cons ch l =>
      have := hh ch rfl
      simp [Util.sskip, Util.skip, this]
  unfold Strings.sread at h
  rw [hst] at h
  simp only at h
  split at h
  · next hnb =>
    obtain ⟨k, hk⟩ : ∃ k, Strings.countLoop ((l ++ ['\n']).length + 1) (l ++ ['\n']) 0 = k + 1 := ⟨_, (Nat.succ_pred_eq_of_pos hnb).symm⟩
    rw [hk] at h
    cases hr : Strings.readLoop (k + 1) (l ++ ['\n']) with
    | err => rw [hr] at h; cases h
    | ub => rw [hr] at h; cases h
    | ok x =>
      obtain ⟨ws, pos'⟩ := x
      rw [hr] at h
      cases h
      obtain ⟨w0, e0, g1, g2⟩ := dropWhile_split Strings.tokChar (l ++ ['\n'])
      have e3 : (l ++ ['\n']).takeWhile Strings.tokChar = w0 := by
        have := List.takeWhile_append_dropWhile (p := Strings.tokChar) (l := l ++ ['\n'])
        conv at this => rhs; rw [e0]
        exact List.append_cancel_right this
      have hw : ∃ ws', ws = w0 :: ws' := by
        simp only [Strings.readLoop] at hr
        split at hr
        · cases hr
        · split at hr
          · split at hr
            · cases hr; exact ⟨[], by rw [e3]⟩
            · cases hr
          · split at hr
            · next ws' _ _ => cases hr; exact ⟨ws', by rw [e3]⟩
            · cases hr
            · cases hr
      obtain ⟨ws', rfl⟩ := hw
      have hname := typeOfWord_name (t := t) (w := w0) ht
      generalize (l ++ ['\n']).dropWhile Strings.tokChar = tail at e0 g2
      have hw0 : w0 ≠ [] := by rw [hname]; exact (sprint_type_word t).1
      obtain ⟨t', rfl, rfl⟩ := append_newline hw0 (by
        intro ch hch
        have := g1 ch (List.mem_of_getLast? hch)
        rintro rfl
        revert this; decide) e0.symm
      refine ⟨t', by rw [hname], ?_⟩
      intro ch hch
      have := g2 ch (by cases t' with
        | nil => cases hch
        | cons a t' => simpa using hch)
      simp only [Strings.tokChar, Bool.and_eq_false_iff, Bool.not_eq_false', bne_eq_false_iff_eq] at this
      exact this
  · cases h; cases ht

/-- C61, files: the relation which is read is the one the text describes: its type, its number of parts, their attributes and their entries are those of
the lines of the file, in order, and the lines which follow them remain to be read. -/
theorem relation_pread_lines {c : Cfg} {p : Int} {ls : List Str} (ht : Util.TextLines ls) {r : Rel} {rest : Str} (hv : c.Valid) (hp : kind c p ≠ none)
    (h : pread c p (Util.unlines ls) = .ok (r, rest)) :
    ∃ lines ls', Util.TextLines ls' ∧ rest = Util.unlines ls' ∧ Util.content ls = lines ++ Util.content ls' ∧ RelLines r lines := by
  unfold pread at h
  obtain ⟨⟨type, s1⟩, h1, h⟩ := Out.bind_eq_ok.mp h
  unfold fread_type Strings.read at h1
  rcases Util.fskip_lines ht with ⟨_, a1⟩ | ⟨tl, ls1, a1, _, _, a3, a4, a5, a6⟩
  · rw [a1] at h1; cases h1
  · rw [a6] at h1
    obtain ⟨⟨st, s2⟩, h2, h1⟩ := Out.bind_eq_ok.mp h1
    obtain ⟨t, h3, h1⟩ := Out.bind_eq_ok.mp h1
    cases h1
    simp only at h2
    have htl : TypeLine type tl ∧ s1 = Util.unlines ls1 := by
      split at h2
      · next hs => cases h2; exact ⟨type_line a1 a3 hs h3, rfl⟩
      · cases h2
      · cases h2
    obtain ⟨htl, rfl⟩ := htl
    obtain ⟨⟨f, s3⟩, h4, h⟩ := Out.bind_eq_ok.mp h
    obtain ⟨l, ls2, b1, rfl, b3, b4, b5⟩ := fLine_lines a4 h4
    cases f with
    | count n =>
      simp only at h
      split at h
      · cases h
      · obtain ⟨parts, ls3, c1, c2, c3, c4⟩ := fParts_lines b1 (by simp) h
        obtain ⟨g1, g2⟩ := fParts_readable hv hp h
        refine ⟨tl :: l :: parts, ls3, c1, c2, by rw [a5, b3, c3]; simp, tl, l :: parts, rfl, ?_, .inr ⟨l, parts, rfl, ?_, c4⟩⟩
        · intro q hq; rw [(g2 q hq).2]; exact htl
        · have := b4 n rfl
          rw [g1, show ((n.toNat : Nat) : Int) = n by omega]; exact this
    | header d =>
      simp only at h
      obtain ⟨⟨q, last1, s2⟩, h5, h⟩ := Out.bind_eq_ok.mp h
      cases h
      obtain ⟨rows, ls3, c1, c2, c3, c4, _⟩ := fBody_lines b1 (by simp) h5 (b5 d rfl)
      have hq : q.type = type := by
        have := h5
        unfold fBody at this
        obtain ⟨_, _, this⟩ := Out.bind_eq_ok.mp this
        obtain ⟨_, _, this⟩ := Out.bind_eq_ok.mp this
        cases this; rfl
      refine ⟨tl :: l :: rows, ls3, c1, c2, by rw [a5, b3, c3]; simp, tl, l :: rows, rfl, ?_, .inl ⟨q, rfl, c4⟩⟩
      intro q' hq'
      simp at hq'
      subst hq'
      rw [hq]; exact htl

/-- The lines of a small domain, with a comment. -/
def exLines : List Str := ["# a domain".toList, "DOMAIN".toList, "".toList, "  2 4 1 0 0 1".toList, "1 1 0 0 ## i >= 0".toList, "\t1 -1 1 +0".toList]

/-- The hypotheses of the theorem are met. -/
example : Util.TextLines exLines ∧ pread Cfg.std PREC_DP (Util.unlines exLines) =
    .ok ([{ type := TYPE_DOMAIN, precision := PREC_DP, nb_rows := 2, nb_columns := 4, nb_output_dims := 1, nb_input_dims := 0, nb_local_dims := 0, nb_parameters := 1, m := [[1, 1, 0, 0], [1, -1, 1, 0]] }], []) :=
  ⟨by unfold Util.TextLines; decide, by decide⟩

/-- Finding (C61): a row with too few entries is not an error when a blank follows its last one: the last entry is repeated. -/
theorem relation_pread_short_row_violates : pread Cfg.std PREC_DP "DOMAIN\n1 4 1 0 0 1\n1 7 \n".toList =
    .ok ([{ type := TYPE_DOMAIN, precision := PREC_DP, nb_rows := 1, nb_columns := 4, nb_output_dims := 1, nb_input_dims := 0, nb_local_dims := 0, nb_parameters := 1, m := [[1, 7, 7, 7]] }], []) := by
  decide

/-- Finding (C61): a word which is not an integer is read as the integer at its beginning. -/
theorem relation_pread_word_violates : pread Cfg.std PREC_DP "DOMAIN\n1 3 1 0 0 0\n1 2i 3.5\n".toList =
    .ok ([{ type := TYPE_DOMAIN, precision := PREC_DP, nb_rows := 1, nb_columns := 3, nb_output_dims := 1, nb_input_dims := 0, nb_local_dims := 0, nb_parameters := 0, m := [[1, 2, 3]] }], []) := by
  decide

/-- Finding (C61): at the end of a file, the reader of a relation passes a NULL pointer to `sscanf` (source/relation.c:1354-1357), and the reader of its
type dereferences one. -/
theorem relation_pread_end_violates : pread Cfg.std PREC_DP [] = .ub ∧ pread Cfg.std PREC_DP "DOMAIN\n".toList = .ub := by decide

end Rel
end Osl
