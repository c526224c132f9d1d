import Verif.StatementTextProps
/-!
# What the readers return, whatever the input (C61)

For every file and every string, without any hypothesis on the text: when the reader of a relation, of a list of relations or of a
statement returns, the object it returns is well formed.
-/

namespace Osl

namespace OInt

/-- A value which is read fits in the precision. -/
theorem sread_inPrec {c : Cfg} {p : Int} {s : Str} {old v : Int} {pos : Option Str} (ho : InPrec c p old) (h : sread c p s old = .ok (v, pos)) : InPrec c p v := by
  unfold sread at h
  cases hs : sscanf c p s old with
  | err => rw [hs] at h; cases h
  | ub => rw [hs] at h; cases h
  | ok x =>
    rw [hs] at h
    simp only [Out.ok.injEq, Prod.mk.injEq] at h
    have hx : x.1 = v := h.1
    unfold sscanf at hs
    unfold InPrec at ho ⊢
    cases hk : kind c p with
    | none => rw [hk] at hs; cases hs
    | some k =>
      rw [hk] at hs ho
      simp only at hs ho ⊢
      cases hc : scanInt s with
      | fail => rw [hc] at hs; cases hs
      | eof => rw [hc] at hs; cases hs; rw [← hx]; exact ho
      | val w rest =>
        rw [hc] at hs
        simp only at hs
        cases k with
        | mp => trivial
        | fixed b =>
          simp only at hs
          split at hs
          · next hf => cases hs; rw [← hx]; exact hf
          · cases hs

theorem inPrec_zero {c : Cfg} (hv : c.Valid) {p : Int} (hp : kind c p ≠ none) : InPrec c p 0 := by
  unfold InPrec
  unfold Cfg.Valid at hv
  cases h : kind c p with
  | none => exact absurd h hp
  | some k =>
    cases k with
    | mp => trivial
    | fixed w =>
      have : 0 < w ∨ w = 0 := by omega
      simp only [fits, cMin, cMax]
      have h1 : (0 : Int) < 2 ^ (w - 1) := Int.pow_pos (by decide)
      omega

end OInt

namespace Rel

theorem readVal_inPrec {c : Cfg} (hv : c.Valid) {p : Int} (hp : kind c p ≠ none) {s s' : RState} {v : Int} (h : readVal c p s = .ok (v, s')) : InPrec c p v := by
  have h0 := OInt.inPrec_zero hv hp
  unfold readVal at h
  split at h
  · cases h
  · split at h
    · cases h
    · cases h
    · split at h
      · split at h
        · cases h
        · obtain ⟨x, h1, h2⟩ := Out.bind_eq_ok.mp h
          cases h2
          exact OInt.sread_inPrec h0 h1
      · split at h
        · cases h
        · obtain ⟨x, h1, h2⟩ := Out.bind_eq_ok.mp h
          cases h2
          exact OInt.sread_inPrec h0 h1

theorem readVals_shape {c : Cfg} (hv : c.Valid) {p : Int} (hp : kind c p ≠ none) : ∀ {n : Nat} {s s' : RState} {vs : List Int}, readVals c p n s = .ok (vs, s') →
    vs.length = n ∧ ∀ v ∈ vs, InPrec c p v
  | 0, _, _, _, h => by cases h; simp
  | n + 1, s, s', vs, h => by
    simp only [readVals] at h
    obtain ⟨x, h1, h⟩ := Out.bind_eq_ok.mp h
    obtain ⟨y, h2, h⟩ := Out.bind_eq_ok.mp h
    cases h
    obtain ⟨g1, g2⟩ := readVals_shape hv hp h2
    refine ⟨by simp [g1], ?_⟩
    intro v hvm
    rcases List.mem_cons.mp hvm with rfl | hvm
    · exact readVal_inPrec hv hp h1
    · exact g2 v hvm

theorem sRows_shape {c : Cfg} (hv : c.Valid) {p : Int} (hp : kind c p ≠ none) {k : Nat} : ∀ {n : Nat} {s s' : RState} {m : Matrix}, sRows c p k n s = .ok (m, s') →
    m.length = n ∧ ∀ row ∈ m, row.length = k ∧ ∀ v ∈ row, InPrec c p v
  | 0, _, _, _, h => by cases h; simp
  | n + 1, s, s', m, h => by
    simp only [sRows] at h
    split at h
    · cases h
    · obtain ⟨x, h1, h⟩ := Out.bind_eq_ok.mp h
      obtain ⟨y, h2, h⟩ := Out.bind_eq_ok.mp h
      cases h
      obtain ⟨g1, g2⟩ := sRows_shape hv hp h2
      refine ⟨by simp [g1], ?_⟩
      intro row hr
      rcases List.mem_cons.mp hr with rfl | hr
      · exact readVals_shape hv hp h1
      · exact g2 row hr

theorem fRows_shape {c : Cfg} (hv : c.Valid) {p : Int} (hp : kind c p ≠ none) {k : Nat} : ∀ {n : Nat} {last last' : Option (Str × Nat)} {file file' : Str} {m : Matrix},
    fRows c p k n last file = .ok (m, last', file') → m.length = n ∧ ∀ row ∈ m, row.length = k ∧ ∀ v ∈ row, InPrec c p v
  | 0, _, _, _, _, _, h => by cases h; simp
  | n + 1, last, last', file, file', m, h => by
    simp only [fRows] at h
    split at h
    · cases h
    · obtain ⟨x, h1, h⟩ := Out.bind_eq_ok.mp h
      obtain ⟨y, h2, h⟩ := Out.bind_eq_ok.mp h
      cases h
      obtain ⟨g1, g2⟩ := fRows_shape hv hp h2
      refine ⟨by simp [g1], ?_⟩
      intro row hr
      rcases List.mem_cons.mp hr with rfl | hr
      · exact readVals_shape hv hp h1
      · exact g2 row hr

theorem scanInts_small : ∀ {n : Nat} {s : Str} {l : List Int}, scanInts n s = .ok l → ∀ v ∈ l, fits 32 v
  | 0, _, _, h => by cases h; simp
  | n + 1, s, l, h => by
    simp only [scanInts] at h
    split at h
    · split at h
      · split at h
        · next hf _ l' hl =>
          cases h
          intro v hv
          rcases List.mem_cons.mp hv with rfl | hv
          · exact hf
          · exact scanInts_small hl v hv
        · cases h
        · cases h
      · cases h
    · cases h; simp

/-- The attributes read are C `int`s. -/
def Header.Small (h : Header) : Prop :=
  fits 32 h.nb_rows ∧ fits 32 h.nb_columns ∧ fits 32 h.nb_output_dims ∧ fits 32 h.nb_input_dims ∧ fits 32 h.nb_local_dims ∧ fits 32 h.nb_parameters

/-- The integers of a line are C `int`s. -/
def FirstLine.Small : FirstLine → Prop
  | .count n => fits 32 n
  | .header d => d.Small

theorem firstLine_small {s : Str} {l : FirstLine} (h : firstLine s = .ok l) : l.Small := by
  unfold firstLine at h
  obtain ⟨x, h1, h⟩ := Out.bind_eq_ok.mp h
  have := scanInts_small h1
  split at h
  · cases h; exact this _ (by simp)
  · cases h; exact ⟨this _ (by simp), this _ (by simp), this _ (by simp), this _ (by simp), this _ (by simp), this _ (by simp)⟩
  · cases h

theorem pmalloc_nonneg {c : Cfg} {p rows cols : Int} {q : Part} (h : pmalloc c p rows cols = .ok q) : 0 ≤ rows ∧ 0 ≤ cols := by
  unfold pmalloc at h
  split at h
  · cases h
  · split at h
    · cases h
    · omega

/-- A part with the attributes of a header and a matrix of their size is well formed. -/
theorem Header.part_readable {c : Cfg} {p : Int} (hp : kind c p ≠ none) {d : Header} (hd : d.Small) (hr : 0 ≤ d.nb_rows) (hc : 0 ≤ d.nb_columns) {m : Matrix}
    (hm : m.length = d.nb_rows.toNat) (hm2 : ∀ row ∈ m, row.length = d.nb_columns.toNat ∧ ∀ v ∈ row, InPrec c p v) (type : Int) :
    Readable c p (d.part p type m) where
  valid := by
    refine ⟨by show (m.length : Int) = d.nb_rows; omega, ?_, hc, hp, fun row hrow => (hm2 row hrow).2⟩
    intro row hrow
    show (row.length : Int) = d.nb_columns
    have := (hm2 row hrow).1
    omega
  prec := rfl
  small := hd

theorem sBody_readable {c : Cfg} (hv : c.Valid) {p : Int} (hp : kind c p ≠ none) {d : Header} (hd : d.Small) {s s' : RState} {q : Part}
    (h : sBody c p d s = .ok (q, s')) : Readable c p q ∧ q.type = UNDEFINED := by
  unfold sBody at h
  obtain ⟨x, h1, h⟩ := Out.bind_eq_ok.mp h
  obtain ⟨y, h2, h⟩ := Out.bind_eq_ok.mp h
  cases h
  obtain ⟨g1, g2⟩ := pmalloc_nonneg h1
  obtain ⟨g3, g4⟩ := sRows_shape hv hp h2
  exact ⟨Header.part_readable hp hd g1 g2 g3 g4 _, rfl⟩

theorem fBody_readable {c : Cfg} (hv : c.Valid) {p : Int} (hp : kind c p ≠ none) {type : Int} {d : Header} (hd : d.Small) {last last' : Option (Str × Nat)}
    {file file' : Str} {q : Part} (h : fBody c p type d last file = .ok (q, last', file')) : Readable c p q ∧ q.type = type := by
  unfold fBody at h
  obtain ⟨x, h1, h⟩ := Out.bind_eq_ok.mp h
  obtain ⟨y, h2, h⟩ := Out.bind_eq_ok.mp h
  cases h
  obtain ⟨g1, g2⟩ := pmalloc_nonneg h1
  obtain ⟨g3, g4⟩ := fRows_shape hv hp h2
  exact ⟨Header.part_readable hp hd g1 g2 g3 g4 _, rfl⟩

theorem fLine_small {file file' : Str} {l : FirstLine} (h : fLine file = .ok (l, file')) : l.Small := by
  unfold fLine at h
  split at h
  · cases h
  · obtain ⟨x, h1, h⟩ := Out.bind_eq_ok.mp h
    cases h
    exact firstLine_small h1

theorem sLineAt_small {s s' : RState} {l : FirstLine} (h : sLineAt s = .ok (l, s')) : l.Small := by
  unfold sLineAt at h
  split at h
  · cases h
  · obtain ⟨x, h1, h⟩ := Out.bind_eq_ok.mp h
    cases h
    unfold sLine at h1
    simp only at h1
    split at h1
    · cases h1
    · obtain ⟨y, h2, h1⟩ := Out.bind_eq_ok.mp h1
      cases h1
      exact firstLine_small h2

theorem fParts_readable {c : Cfg} (hv : c.Valid) {p : Int} (hp : kind c p ≠ none) {type : Int} : ∀ {n : Nat} {last : Option (Str × Nat)} {file file' : Str} {r : Rel},
    fParts c p type n last file = .ok (r, file') → r.length = n ∧ ∀ q ∈ r, Readable c p q ∧ q.type = type
  | 0, _, _, _, _, h => by cases h; simp
  | n + 1, last, file, file', r, h => by
    simp only [fParts] at h
    obtain ⟨x, h1, h⟩ := Out.bind_eq_ok.mp h
    have hs := fLine_small h1
    split at h
    · cases h
    · next d hd =>
      rw [hd] at hs
      obtain ⟨y, h2, h⟩ := Out.bind_eq_ok.mp h
      obtain ⟨z, h3, h⟩ := Out.bind_eq_ok.mp h
      cases h
      obtain ⟨g1, g2⟩ := fParts_readable hv hp h3
      refine ⟨by simp [g1], ?_⟩
      intro q hq
      rcases List.mem_cons.mp hq with rfl | hq
      · exact fBody_readable hv hp hs h2
      · exact g2 q hq

theorem sParts_readable {c : Cfg} (hv : c.Valid) {p : Int} (hp : kind c p ≠ none) : ∀ {n : Nat} {s s' : RState} {r : Rel},
    sParts c p n s = .ok (r, s') → r.length = n ∧ ∀ q ∈ r, Readable c p q ∧ q.type = UNDEFINED
  | 0, _, _, _, h => by cases h; simp
  | n + 1, s, s', r, h => by
    simp only [sParts] at h
    obtain ⟨x, h1, h⟩ := Out.bind_eq_ok.mp h
    have hs := sLineAt_small h1
    split at h
    · cases h
    · next d hd =>
      rw [hd] at hs
      obtain ⟨y, h2, h⟩ := Out.bind_eq_ok.mp h
      obtain ⟨z, h3, h⟩ := Out.bind_eq_ok.mp h
      cases h
      obtain ⟨g1, g2⟩ := sParts_readable hv hp h3
      refine ⟨by simp [g1], ?_⟩
      intro q hq
      rcases List.mem_cons.mp hq with rfl | hq
      · exact sBody_readable hv hp hs h2
      · exact g2 q hq

theorem typeOfWord_known {w : Str} {t : Int} (h : typeOfWord w = .ok t) : KnownType t := by
  unfold typeOfWord at h
  unfold KnownType
  repeat' split at h
  all_goals first | cases h | skip
  all_goals simp

theorem typeOfStrings_known {s : Option Strings} {t : Int} (h : typeOfStrings s = .ok t) : KnownType t := by
  unfold typeOfStrings at h
  split at h
  · exact typeOfWord_known h
  · cases h

/-- C61, files: whatever the file holds, a relation which is read has at least one part; each part has the size its attributes
announce, entries which fit in the precision, and the precision asked; all have one type, a known one. -/
theorem relation_pread_wellformed {c : Cfg} (hv : c.Valid) {p : Int} (hp : kind c p ≠ none) {file rest : Str} {r : Rel} (h : pread c p file = .ok (r, rest)) :
    TextRel c p r := by
  unfold pread at h
  obtain ⟨x, h1, h⟩ := Out.bind_eq_ok.mp h
  obtain ⟨y, h2, h⟩ := Out.bind_eq_ok.mp h
  have ht : KnownType x.1 := by
    unfold fread_type at h1
    obtain ⟨_, _, h1⟩ := Out.bind_eq_ok.mp h1
    obtain ⟨_, h3, h1⟩ := Out.bind_eq_ok.mp h1
    cases h1
    exact typeOfStrings_known h3
  have hs := fLine_small h2
  obtain ⟨y, file'⟩ := y
  dsimp only at h
  have key : ∀ r : Rel, r ≠ [] → (r.length : Int) < 2 ^ 31 → (∀ q ∈ r, Readable c p q ∧ q.type = x.1) → TextRel c p r := fun r h1 h2 h3 =>
    ⟨h1, fun q hq => (h3 q hq).1, h2, fun q hq => by rw [(h3 q hq).2]; exact ht, fun q hq q' hq' => by rw [(h3 q hq).2, (h3 q' hq').2]⟩
  split at h
  · next n =>
    simp only [FirstLine.Small] at hs
    split at h
    · cases h
    · next h1n =>
      obtain ⟨g1, g2⟩ := fParts_readable hv hp h
      unfold fits cMax at hs
      simp at hs
      refine key r ?_ (by omega) g2
      rintro rfl
      simp at g1
      omega
  · next d =>
    obtain ⟨z, h3, h⟩ := Out.bind_eq_ok.mp h
    cases h
    have := fBody_readable hv hp hs h3
    exact key [z.1] (by simp) (by simp) (by simpa using this)

/-- C61, strings: the same, but only the first part has the type of the text (see C24). -/
theorem relation_psread_wellformed {c : Cfg} (hv : c.Valid) {p : Int} (hp : kind c p ≠ none) {input : Str} {pos : Option Str} {r : Rel}
    (h : psread c p input = .ok (r, pos)) :
    r ≠ [] ∧ (r.length : Int) < 2 ^ 31 ∧ (∀ q ∈ r, Readable c p q) ∧ (∀ q, r.head? = some q → KnownType q.type) ∧ ∀ q ∈ r.tail, q.type = UNDEFINED := by
  unfold psread at h
  obtain ⟨x, h1, h⟩ := Out.bind_eq_ok.mp h
  obtain ⟨y, h2, h⟩ := Out.bind_eq_ok.mp h
  have ht : KnownType x.1 := by
    unfold read_type at h1
    obtain ⟨_, _, h1⟩ := Out.bind_eq_ok.mp h1
    obtain ⟨_, h3, h1⟩ := Out.bind_eq_ok.mp h1
    cases h1
    exact typeOfStrings_known h3
  have hy : (y.1.length : Int) < 2 ^ 31 ∧ ∀ q ∈ y.1, Readable c p q ∧ q.type = UNDEFINED := by
    unfold psread_polylib at h2
    obtain ⟨l, h3, h2⟩ := Out.bind_eq_ok.mp h2
    have hs := sLineAt_small h3
    obtain ⟨l, s'⟩ := l
    dsimp only at h2
    split at h2
    · next n =>
      simp only [FirstLine.Small] at hs
      split at h2
      · cases h2
      · obtain ⟨z, h4, h2⟩ := Out.bind_eq_ok.mp h2
        cases h2
        obtain ⟨g1, g2⟩ := sParts_readable hv hp h4
        unfold fits cMax at hs
        simp at hs
        exact ⟨by show (z.1.length : Int) < _; omega, g2⟩
    · next d =>
      obtain ⟨z, h4, h2⟩ := Out.bind_eq_ok.mp h2
      cases h2
      exact ⟨by simp, by simpa using sBody_readable hv hp hs h4⟩
  obtain ⟨y, pos'⟩ := y
  dsimp only at h hy
  split at h
  · cases h
  · next q rest =>
    cases h
    refine ⟨by simp, by simpa using hy.1, ?_, ?_, ?_⟩
    · intro q' hq'
      rcases List.mem_cons.mp hq' with rfl | hq'
      · have := (hy.2 q (by simp)).1
        exact ⟨⟨this.valid.rows, this.valid.cols, this.valid.ncols, this.valid.prec, this.valid.ents⟩, this.prec, this.small⟩
      · exact (hy.2 q' (by simp [hq'])).1
    · intro q' hq'
      simp at hq'
      subst hq'
      exact ht
    · intro q' hq'
      exact (hy.2 q' (by simp at hq'; simp [hq'])).2

/-- C61: reading is stable: whatever the file a relation was read from, if it can be printed, with any names, in lines which fit the reading buffer, reading
the text gives the same relation, and leaves what follows the text. -/
theorem relation_read_print_read {c : Cfg} (hv : c.Valid) {p : Int} (hp : kind c p ≠ none) {file rest : Str} {r : Rel} (h : pread c p file = .ok (r, rest))
    {names : Option Names} (hn : ∀ m, names = some m → NamesNoNL m) {t : Str} (ht : spprint c r names = .ok t) (hs : ShortLines t) (rest' : Str) :
    pread c p (t ++ rest') = .ok (r, rest') :=
  pread_text (relation_pread_wellformed hv hp h) hn ht hs rest'

end Rel

namespace RList

theorem readLoop_wellformed {c : Cfg} (hv : c.Valid) {p : Int} (hp : kind c p ≠ none) : ∀ {n : Nat} {file rest : Str} {l : RList},
    readLoop c p n file = .ok (l, rest) → l.length = n ∧ ∀ r ∈ l, Rel.TextRel c p r
  | 0, _, _, _, h => by cases h; simp
  | n + 1, file, rest, l, h => by
    simp only [readLoop] at h
    obtain ⟨x, h1, h⟩ := Out.bind_eq_ok.mp h
    obtain ⟨y, h2, h⟩ := Out.bind_eq_ok.mp h
    cases h
    obtain ⟨g1, g2⟩ := readLoop_wellformed hv hp h2
    refine ⟨by simp [g1], ?_⟩
    intro q hq
    rcases List.mem_cons.mp hq with rfl | hq
    · exact Rel.relation_pread_wellformed hv hp h1
    · exact g2 q hq

/-- C61: a list of relations which is read holds well-formed relations only, as many as announced; when none is announced, it is
one node without relation. -/
theorem list_pread_wellformed {c : Cfg} (hv : c.Valid) {p : Int} (hp : kind c p ≠ none) {file rest : Str} {l : RList} (h : pread c p file = .ok (l, rest)) :
    (l.length : Int) < 2 ^ 31 ∧ (l = [[]] ∨ ∀ r ∈ l, Rel.TextRel c p r) := by
  unfold pread at h
  obtain ⟨x, h1, h⟩ := Out.bind_eq_ok.mp h
  have hx : fits 32 x.1 := by
    unfold Util.fread_int at h1
    split at h1
    · cases h1
    · split at h1
      · split at h1
        · next hf => cases h1; exact hf
        · cases h1
      · cases h1
  simp only at h
  unfold fits cMax at hx
  simp at hx
  split at h
  · cases h
  · unfold readElts at h
    split at h
    · cases h; exact ⟨by decide, .inl rfl⟩
    · obtain ⟨g1, g2⟩ := readLoop_wellformed hv hp h
      exact ⟨by omega, .inr g2⟩

end RList
end Osl
