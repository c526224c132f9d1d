import Verif.ScopText
import Verif.StatementTextProps
import Verif.ScopProps
import Verif.ExtBase
/-!
# Text round trip of whole scops (C48)
-/

namespace Osl

namespace Util

theorem FSkip.ofNewlines {s : Str} (h : ∀ c ∈ s, c = '\n') : FSkip s := by
  induction s with
  | nil => exact .nil
  | cons c s ih =>
    have := h c (by simp)
    subst this
    exact FSkip.newline.append (ih fun d hd => h d (by simp [hd]))

/-- A flag which begins with a character is found after a text without this character. -/
theorem isFirst_of_notMem {c : Char} {f pre : Str} (h : c ∉ pre) (post : Str) : IsFirst (c :: f) (pre ++ ((c :: f) ++ post)) pre post := by
  refine ⟨by simp, ?_⟩
  intro pre' post' e
  apply Classical.byContradiction
  intro hlt
  have e1 := congrArg (fun s => s[pre'.length]?) e
  rw [List.getElem?_append_left (by omega), List.append_assoc, List.getElem?_append_right (by omega)] at e1
  simp at e1
  exact h (List.mem_of_getElem? e1)

theorem infix_of_notMem {c : Char} {f a b : Str} (h : c ∉ a) (hi : (c :: f) <:+: (a ++ b)) : (c :: f) <:+: b := by
  obtain ⟨p, q, e⟩ := hi
  by_cases hlt : p.length < a.length
  · have e1 := congrArg (fun s => s[p.length]?) e
    rw [List.append_assoc, List.getElem?_append_right (by omega), List.getElem?_append_left hlt] at e1
    simp at e1
    exact absurd (List.mem_of_getElem? e1.symm) h
  · have e1 := congrArg (List.drop a.length) e
    rw [List.append_assoc, List.drop_append_of_le_length (by omega), List.drop_left] at e1
    exact ⟨_, q, by rw [List.append_assoc]; exact e1⟩

theorem infix_of_last {f b : Str} {d : Char} (h : d ∉ f) (hi : f <:+: (b ++ [d])) : f <:+: b := by
  obtain ⟨p, q, e⟩ := hi
  rcases List.eq_nil_or_concat q with rfl | ⟨q', x, rfl⟩
  · rw [List.append_nil] at e
    rcases List.eq_nil_or_concat f with rfl | ⟨f', y, rfl⟩
    · exact ⟨[], b, rfl⟩
    · rw [List.concat_eq_append, ← List.append_assoc] at e
      have := List.append_inj_right' e rfl
      simp at this
      subst this
      exact absurd (by simp) h
  · rw [List.concat_eq_append, ← List.append_assoc] at e
    exact ⟨p, q', List.append_inj_left' e rfl⟩

end Util

/-- The library in which the extensions are equal when they are identical: a round trip in it gives the extensions back exactly. -/
noncomputable def Lib.exact {D : Type} (L : Lib D) : Lib D :=
  { L with equal := fun _ a b => .ok (@decide (a = b) (Classical.propDecidable _)) }

namespace GList

variable {D : Type}

theorem same_exact {L : Lib D} {l l' : GList D} (h1 : l'.map (·.interface) = l.map (·.interface))
    (h2 : ∀ k (h : k < l.length) (h' : k < l'.length), SameGeneric L.exact.toEnv l[k] l'[k]) : l' = l := by
  have hlen : l'.length = l.length := by simpa using congrArg List.length h1
  refine List.ext_getElem hlen ?_
  intro k hk hk'
  obtain ⟨i, a, b, e⟩ := h2 k hk' hk
  simp only [Lib.exact] at e
  injection e with e
  have e := @of_decide_eq_true _ (Classical.propDecidable _) e
  cases hx : l[k] with
  | mk i1 d1 =>
    cases hy : l'[k] with
    | mk i2 d2 =>
      rw [hx] at a e
      rw [hy] at b e
      simp only at a b e
      rw [a, b, e]

theorem piecesLoop_exact (L : Lib D) : ∀ l : GList D, piecesLoop L.exact.toEnv l = piecesLoop L.toEnv l
  | [] => rfl
  | g :: gs => by
    simp only [piecesLoop, piecesLoop_exact L gs]
    rfl

theorem sprint_exact (L : Lib D) (l : GList D) : sprint L.exact.toEnv l = sprint L.toEnv l := by
  unfold sprint; rw [piecesLoop_exact]

theorem fread_one_exact (L : Lib D) (registry : Ifaces) (file : Str) : fread_one L.exact.toEnv registry file = fread_one L.toEnv registry file := rfl

theorem sreadLoop_exact (L : Lib D) (registry : Ifaces) : ∀ (n : Nat) (s : Str) (acc : GList D),
    sreadLoop L.exact.toEnv registry n s acc = sreadLoop L.toEnv registry n s acc
  | 0, _, _ => rfl
  | _ + 1, [], _ => rfl
  | n + 1, c :: s, acc => by
    simp only [sreadLoop]
    have e : sread_one L.exact.toEnv registry (c :: s) = sread_one L.toEnv registry (c :: s) := rfl
    rw [e]
    congr; funext x; congr; funext y
    exact sreadLoop_exact L registry n x.2 y

end GList

namespace Stmts

variable {D : Type}

theorem readExts_exact (L : Lib D) (registry : Ifaces) : ∀ (n : Nat) (s : Str) (acc : GList D),
    readExts L.exact.toEnv registry n s acc = readExts L.toEnv registry n s acc
  | 0, _, _ => rfl
  | n + 1, s, acc => by
    simp only [readExts]
    rw [GList.fread_one_exact]
    congr; funext x; congr; funext y
    exact readExts_exact L registry n x.2 y

theorem pread_exact (c : Cfg) (L : Lib D) (registry : Ifaces) (prec : Int) (file : Str) :
    pread c L.exact registry prec file = pread c L registry prec file := by
  unfold pread
  simp only [readExts_exact]

theorem printOne_exact (c : Cfg) (L : Lib D) (names : Names) (number : Nat) (s : Stmt D) :
    printOne c L.exact names number s = printOne c L names number s := by
  unfold printOne
  have e1 : lookupBody L.exact s.extension = lookupBody L s.extension := rfl
  have e2 : printExts L.exact s.extension = printExts L s.extension := by unfold printExts; rw [GList.sprint_exact]
  rw [e1, e2]

/-- C48: reading the printed text of a statement gives the statement back, when its extensions are read back exactly. -/
theorem statement_text_exact {c : Cfg} {L : Lib D} {registry : Ifaces} {prec : Int} {s : Stmt D} (h : TextStmt c L.exact registry prec s)
    {names : Names} (hn : Rel.NamesNoNL names) {number : Nat} {t : Str} (ht : printOne c L names number s = .ok t) (hs : Rel.ShortLines t)
    {pre : Str} (hp : Util.FSkip pre) (rest : Str) :
    ∃ sk, pread c L registry prec (pre ++ (t ++ rest)) = .ok (s, sk ++ rest) ∧ (∀ x ∈ sk, x = '\n') := by
  obtain ⟨e', sk, h1, h2, h3, h4, h5, h6⟩ := statement_text_round_trip h hn ((printOne_exact ..).trans ht) hs hp rest
  rw [pread_exact, GList.same_exact h4 h6] at h1
  exact ⟨sk, h1, h2⟩

/-- `statement_text_exact`, with the number of extensions which the text announces. -/
theorem statement_text_announced {c : Cfg} {L : Lib D} {registry : Ifaces} {prec : Int} {s : Stmt D} (h : TextStmt c L.exact registry prec s)
    {names : Names} (hn : Rel.NamesNoNL names) {number : Nat} {t : Str} (ht : printOne c L names number s = .ok t) (hs : Rel.ShortLines t)
    {pre : Str} (hp : Util.FSkip pre) (rest : Str) :
    ∃ sk, pread c L registry prec (pre ++ (t ++ rest)) = .ok (s, sk ++ rest) ∧ (∀ x ∈ sk, x = '\n') ∧ Announced c prec (pre ++ (t ++ rest)) s.extension.length := by
  obtain ⟨e', sk, h1, h2, h3, h4, h5, h6, h7⟩ := statement_text_pieces h hn ((printOne_exact ..).trans ht) hs hp rest
  rw [pread_exact, GList.same_exact h4 h6] at h1
  exact ⟨sk, h1, h2, h7⟩

/-- The file holds the statements one after the other, each of which announces its number of extensions. -/
def AllAnnounced (c : Cfg) (L : Lib D) (registry : Ifaces) (prec : Int) : Stmts D → Str → Prop
  | [], _ => True
  | s :: ss, file => Announced c prec file s.extension.length ∧ ∃ rest, pread c L registry prec file = .ok (s, rest) ∧ AllAnnounced c L registry prec ss rest

end Stmts

namespace Scops

variable {D : Type}

theorem readStmts_text {c : Cfg} {L : Lib D} {registry : Ifaces} {prec : Int} {names : Names} (hn : Rel.NamesNoNL names) : ∀ {ss : Stmts D} {number : Nat} {t : Str},
    (∀ s ∈ ss, Stmts.TextStmt c L.exact registry prec s) → Stmts.printLoop c L names number ss = .ok t → Rel.ShortLines t →
    ∀ {pre : Str}, (∀ x ∈ pre, x = '\n') → ∀ rest : Str,
    ∃ sk, readStmts c L registry prec ss.length (pre ++ (t ++ rest)) = .ok (ss, sk ++ rest) ∧ (∀ x ∈ sk, x = '\n') ∧
      Stmts.AllAnnounced c L registry prec ss (pre ++ (t ++ rest))
  | [], number, t, _, ht, _, pre, hp, rest => by
    simp only [Stmts.printLoop] at ht
    cases ht
    exact ⟨pre, rfl, hp, trivial⟩
  | s :: ss, number, t, h, ht, hs, pre, hp, rest => by
    simp only [Stmts.printLoop] at ht
    obtain ⟨t1, h1, ht⟩ := Out.bind_eq_ok.mp ht
    obtain ⟨t2, h2, ht⟩ := Out.bind_eq_ok.mp ht
    injection ht with ht
    subst ht
    obtain ⟨sk, e1, e2, e0⟩ := Stmts.statement_text_announced (h s (by simp)) hn h1 hs.left (Util.FSkip.ofNewlines hp) (t2 ++ rest)
    obtain ⟨sk', e3, e4, e5⟩ := readStmts_text hn (fun x hx => h x (by simp [hx])) h2 hs.right e2 rest
    rw [List.append_assoc t1]
    refine ⟨sk', ?_, e4, e0, _, e1, e5⟩
    rw [List.length_cons]
    simp only [readStmts, e1, Out.ok_bind, e3]
    rfl

/-- What the text round trip needs from a scop: version 1, a language of one word, a context which can be read back, at most one
parameter extension, the `strings` one, statements which can be read back, extensions with distinct URIs which are read back
exactly and do not contain the end tag of the scop, and names without end of line. -/
structure TextScop (c : Cfg) (L : TextLib D) (registry : Ifaces) (prec : Int) (s : Scop D) : Prop where
  version : s.version = 1
  language : ∃ w, s.language = some w ∧ Strings.Word w
  context : Rel.TextRel c prec s.context
  parameters : s.parameters = [] ∨ ∃ g, s.parameters = [g] ∧ GList.uri g = some URI_STRINGS ∧ GList.FTextable L.toLib.exact.toEnv registry g
  paramNames : ∀ p, paramNames L s.parameters = .ok p → Rel.StringsNoNL p
  nbStatements : (s.statement.length : Int) < 2 ^ 31
  statement : ∀ st ∈ s.statement, Stmts.TextStmt c L.toLib.exact registry prec st
  sameRegistry : s.registry = registry
  unique : GList.Unique s.extension
  extension : ∀ g ∈ s.extension, GList.Textable L.toLib.exact.toEnv registry g
  noEnd : ∀ t, GList.sprint L.toEnv s.extension = .ok t → ¬ Util.endTag URI_SCOP <:+: t
  arrays : ∀ d a, GList.lookup s.extension URI_ARRAYS = some d → L.arraysNames d = .ok a → Rel.StringsNoNL a

theorem names_noNL {c : Cfg} {s : Scops D} {n : Names} (h : names c s = .ok n) : Rel.NamesNoNL n := by
  unfold names at h
  obtain ⟨a, _, h⟩ := Out.bind_eq_ok.mp h
  unfold Names.generate at h
  obtain ⟨p, h1, h⟩ := Out.bind_eq_ok.mp h
  obtain ⟨i, h2, h⟩ := Out.bind_eq_ok.mp h
  obtain ⟨s, h3, h⟩ := Out.bind_eq_ok.mp h
  obtain ⟨l, h4, h⟩ := Out.bind_eq_ok.mp h
  obtain ⟨a, h5, h⟩ := Out.bind_eq_ok.mp h
  injection h with h
  subst h
  have key : ∀ {pre : Str} {n : Int} {s : Strings}, NoNL pre → Strings.generate pre n = .ok s → Rel.StringsNoNL (some s) := by
    intro pre n s hp hg a ha
    injection ha with ha
    subst ha
    exact Rel.generated_noNL hp hg
  exact ⟨key (by decide) h1, key (by decide) h2, key (by decide) h3, key (by decide) h4, key (by decide) h5⟩

theorem clone_noNL {a : Option Strings} (h : Rel.StringsNoNL a) : Rel.StringsNoNL (Strings.clone a) := by
  cases a with
  | none => exact h
  | some a =>
    intro b hb w hw
    simp only [Strings.clone] at hb
    split at hb
    · injection hb with hb; subst hb; simp [Strings.malloc, Strings.words] at hw
    · injection hb with hb
      subst hb
      apply h a rfl w
      simpa [Strings.words, Util.strdup] using hw

theorem cloneNames_noNL {n : Names} (h : Rel.NamesNoNL n) : Rel.NamesNoNL ((Names.clone (some n)).getD n) := by
  obtain ⟨h1, h2, h3, h4, h5⟩ := h
  exact ⟨clone_noNL h1, clone_noNL h2, clone_noNL h3, clone_noNL h4, clone_noNL h5⟩

theorem withParams_noNL {c : Cfg} {L : TextLib D} {registry : Ifaces} {prec : Int} {s : Scop D} (h : TextScop c L registry prec s) {n n' : Names}
    (hn : Rel.NamesNoNL n) (e : withParams L s n = .ok n') : Rel.NamesNoNL n' := by
  unfold withParams at e
  split at e
  · obtain ⟨p, h1, e⟩ := Out.bind_eq_ok.mp e
    injection e with e
    subst e
    obtain ⟨h0, h2, h3, h4, h5⟩ := hn
    exact ⟨by first | exact h.paramNames p h1 | assumption, h2, h3, h4, h5⟩
  · injection e with e; subst e; exact hn

theorem withArrays_noNL {c : Cfg} {L : TextLib D} {registry : Ifaces} {prec : Int} {s : Scop D} (h : TextScop c L registry prec s) {n n' : Names}
    (hn : Rel.NamesNoNL n) (e : withArrays L s n = .ok n') : Rel.NamesNoNL n' := by
  unfold withArrays at e
  split at e
  · injection e with e; subst e; exact hn
  · rename_i d hd
    obtain ⟨p, h1, e⟩ := Out.bind_eq_ok.mp e
    injection e with e
    subst e
    obtain ⟨h1', h2, h3, h4, h5⟩ := hn
    exact ⟨h1', h2, h3, h4, by first | exact h.arrays d p hd h1 | exact h5⟩

/-- The language, one word on its line. -/
theorem readLanguage_line {pre w : Str} (hp : Util.FSkip pre) (hw : Strings.Word w) (hl : w.length < MAX_STRING - 1) (rest : Str) :
    readLanguage (pre ++ (w ++ '\n' :: rest)) = .ok (w, rest) := by
  have h1 := Strings.sread_line (l := [w]) (by simp) (by intro x hx; simp at hx; subst hx; exact hw) []
  simp only [Strings.line] at h1
  unfold readLanguage Strings.read
  rw [hp]
  cases hw' : w with
  | nil => exact absurd hw' hw.1
  | cons a as =>
    rw [hw'] at h1 hw hl
    have e := Util.fskip_line 0 (c := a) (l := as) (rest := rest) (hw.2.2 a (by simp)).1 (hw.2.2 a (by simp)).2
      (fun h => by have := (hw.2.2 _ (List.mem_cons_of_mem a h)).1; revert this; decide) (by simpa using hl)
    simp only [List.replicate_zero, List.nil_append] at e
    rw [e]
    simp only
    rw [h1]
    rfl

/-- What is read up to the end tag: ends of line, a title, and the text of the extensions. -/
theorem extension_content {c : Cfg} {L : TextLib D} {registry : Ifaces} {prec : Int} {s : Scop D} (h : TextScop c L registry prec s) {t : Str}
    (ht : printExtension L s.extension = .ok t) {sk : Str} (hsk : ∀ x ∈ sk, x = '\n') (rest : Str) :
    ∃ pre t', Util.Skips pre ∧ GList.ExtText L.toLib.exact.toEnv s.extension t' ∧
      Util.read_uptoendtag (sk ++ (t ++ ('\n' :: (Util.endTag URI_SCOP ++ rest)))) URI_SCOP = .ok (some (sk ++ (pre ++ (t' ++ ['\n']))), rest) := by
  have hlt : '<' ∉ sk := fun hx => absurd (hsk _ hx) (by decide)
  have hnlE : '\n' ∉ Util.endTag URI_SCOP := by decide
  have key : ∃ pre t', t = pre ++ t' ∧ Util.Skips pre ∧ '<' ∉ pre ∧ (t' = [] → pre = []) ∧ ¬ Util.endTag URI_SCOP <:+: t' ∧
      GList.ExtText L.toLib.exact.toEnv s.extension t' := by
    unfold printExtension at ht
    split at ht
    · rename_i hx
      injection ht with ht
      subst ht
      exact ⟨[], [], rfl, .nil, by simp, by simp, by decide, by rw [hx]; exact .nil⟩
    · rename_i hx
      obtain ⟨t', h1, ht⟩ := Out.bind_eq_ok.mp ht
      injection ht with ht
      have h2 := GList.generic_sprint_text h.extension
      obtain ⟨t'', h3, h4⟩ := h2
      rw [GList.sprint_exact, h1] at h3
      injection h3 with h3
      subst h3
      refine ⟨_, t', ht.symm, Util.skips_of (by decide), by decide, ?_, h.noEnd t' h1, h4⟩
      intro e
      subst e
      exfalso
      generalize s.extension = l at h4 hx
      cases h4 with
      | nil => exact hx rfl
  obtain ⟨pre, t', rfl, hpre, hpre', hemp, hno, htext⟩ := key
  have hinf : ¬ Util.endTag URI_SCOP <:+: (sk ++ (pre ++ (t' ++ ['\n']))) := by
    intro hi
    exact hno (Util.infix_of_last hnlE (Util.infix_of_notMem hpre' (Util.infix_of_notMem hlt hi)))
  have e1 := Util.read_uptoendtag_first (Util.endTag_first (by decide : '>' ∉ URI_SCOP) hinf rest)
  have e0 : sk ++ (pre ++ t' ++ ('\n' :: (Util.endTag URI_SCOP ++ rest))) = sk ++ (pre ++ (t' ++ ['\n'])) ++ Util.endTag URI_SCOP ++ rest := by simp
  exact ⟨pre, t', hpre, htext, by rw [e0]; exact e1⟩

/-- The extensions, up to the end tag. -/
theorem read_extension {c : Cfg} {L : TextLib D} {registry : Ifaces} {prec : Int} {s : Scop D} (h : TextScop c L registry prec s) {t : Str}
    (ht : printExtension L s.extension = .ok t) {sk : Str} (hsk : ∀ x ∈ sk, x = '\n') (rest : Str) :
    GList.read L.toEnv registry (sk ++ (t ++ ('\n' :: (Util.endTag URI_SCOP ++ rest)))) = .ok (s.extension, rest) := by
  have hsp : ∀ x ∈ sk, isSpace x = true := by intro x hx; rw [hsk x hx]; decide
  obtain ⟨pre, t', hpre, htext, e1⟩ := extension_content h ht hsk rest
  unfold GList.read
  rw [show "OpenScop".toList = URI_SCOP from rfl, e1]
  simp only [Out.ok_bind]
  -- the blanks and the title are skipped
  have e2 : ∀ (n : Nat) (acc : GList D), GList.sreadLoop L.toEnv registry (n + 1) (sk ++ (pre ++ (t' ++ ['\n']))) acc =
      GList.sreadLoop L.toEnv registry (n + 1) (t' ++ ['\n']) acc := by
    intro n acc
    have h1 : ∃ a as, sk ++ (pre ++ (t' ++ ['\n'])) = a :: as := by
      cases hx : sk ++ (pre ++ (t' ++ ['\n'])) with
      | nil => simp at hx
      | cons a as => exact ⟨a, as, rfl⟩
    have h2 : ∃ a as, t' ++ ['\n'] = a :: as := by
      cases hx : t' ++ ['\n'] with
      | nil => simp at hx
      | cons a as => exact ⟨a, as, rfl⟩
    have h3 : GList.sread_one L.toEnv registry (sk ++ (pre ++ (t' ++ ['\n']))) = GList.sread_one L.toEnv registry (t' ++ ['\n']) := by
      unfold GList.sread_one Util.read_tag
      rw [Util.Skips.blanks hsp, hpre]
    obtain ⟨a, as, h1⟩ := h1
    obtain ⟨b, bs, h2⟩ := h2
    rw [h1, h2] at h3 ⊢
    simp only [GList.sreadLoop, h3]
  unfold GList.sread
  rw [e2, ← GList.sreadLoop_exact]
  obtain ⟨l', g1, g2, g3, g4⟩ := GList.sreadLoop_ok htext h.extension (tr := ['\n']) (by decide) [] [] ((sk ++ (pre ++ (t' ++ ['\n']))).length + 1) (by simp)
    (by simp [GList.HasData]) (by simpa using h.unique.1) (by simp) (by simp; omega)
  rw [List.nil_append] at g1
  rw [g1, GList.same_exact g2 g4]
  rfl

/-- The parameters, after their provided line. -/
theorem read_params {c : Cfg} {L : TextLib D} {registry : Ifaces} {prec : Int} {s : Scop D} (h : TextScop c L registry prec s) {t : Str}
    (ht : GList.sprint L.toEnv s.parameters = .ok t) {pre : Str} (hp : Util.FSkip pre) (rest : Str) :
    ∃ sk n file, Util.fread_int (pre ++ (provided (hasURI s.parameters URI_STRINGS) "Parameters are".toList ++ (t ++ rest))) = .ok (n, file) ∧
      readParameters L.toEnv registry n file = .ok (s.parameters, sk ++ rest) ∧ (∀ x ∈ sk, x = '\n') ∧ (n > 0 → s.parameters ≠ []) := by
  rcases h.parameters with e | ⟨g, e, hu, hg⟩
  · rw [e] at ht ⊢
    have e1 : GList.sprint L.toEnv ([] : GList D) = .ok [] := by simp [GList.sprint, GList.piecesLoop, Util.emit_eq]
    rw [e1] at ht
    injection ht with ht
    subst ht
    have hsk := hp.append (Util.FSkip.comment (u := " Parameters are not provided".toList) (by decide) (by decide))
    have h1 := Util.fread_int_line hsk (v := 0) (by decide) ('\n' :: rest)
    refine ⟨['\n'], 0, '\n' :: rest, ?_, by simp [readParameters], by simp, by simp⟩
    rw [← h1]
    rw [List.append_assoc]
    rfl
  · rw [e] at ht ⊢
    have hhas : hasURI [g] URI_STRINGS = true := GList.has_URI_iff.mpr hu
    rw [hhas]
    have hsk := hp.append (Util.FSkip.comment (u := " Parameters are provided".toList) (by decide) (by decide))
    have h1 := Util.fread_int_line hsk (v := 1) (by decide) (t ++ rest)
    refine ⟨['\n'], 1, t ++ rest, ?_, ?_, by simp, by simp⟩
    · rw [← h1, List.append_assoc]
      rfl
    · have htext : GList.ExtText L.toLib.exact.toEnv [g] t :=
        GList.sprint_text_file (registry := registry) (by intro x hx; simp at hx; subst hx; exact hg) (by rw [GList.sprint_exact]; exact ht)
      obtain ⟨l', g1, g2, g3⟩ := Stmts.readExts_ok htext (registry := registry) (by intro x hx; simp at hx; subst hx; exact hg) [] [] Util.FSkip.nil
        (by simp [GList.HasData]) (by simp) (by simp) rest
      rw [GList.same_exact g2 g3, Stmts.readExts_exact] at g1
      simp only [List.nil_append, List.length_cons, List.length_nil, Stmts.readExts] at g1
      obtain ⟨⟨new, f⟩, k1, k2⟩ := Out.bind_eq_ok.mp g1
      obtain ⟨acc, k3, k4⟩ := Out.bind_eq_ok.mp k2
      simp only at k3
      injection k4 with k4
      obtain ⟨k4, k5⟩ := Prod.mk.inj k4
      unfold GList.add at k3
      obtain ⟨_, _, k3⟩ := Out.bind_eq_ok.mp k3
      injection k3 with k3
      rw [List.nil_append] at k3
      rw [k4] at k3
      rw [k3] at k1
      unfold readParameters
      simp only at k5
      rw [if_pos (by decide), k1, k5]
      simp

/-- The parts of the text of a scop, as they are read one after the other: the numbers which are announced are those of the scop. -/
def Pieces (c : Cfg) (L : TextLib D) (registry : Ifaces) (prec : Int) (s : Scop D) (file : Str) : Prop :=
  ∃ w f1 f2 np f3 f4 ns f5 sk t rest, readLanguage file = .ok (w, f1) ∧ Rel.pread c prec f1 = .ok (s.context, f2) ∧ Util.fread_int f2 = .ok (np, f3) ∧
    readParameters L.toEnv registry np f3 = .ok (s.parameters, f4) ∧ (np > 0 → s.parameters ≠ []) ∧ Util.fread_int f4 = .ok (ns, f5) ∧
    ns.toNat = s.statement.length ∧ Stmts.AllAnnounced c L.toLib registry prec s.statement f5 ∧
    readStmts c L.toLib registry prec s.statement.length f5 = .ok (s.statement, sk ++ (t ++ ('\n' :: (Util.endTag URI_SCOP ++ rest)))) ∧
    printExtension L s.extension = .ok t ∧ ∀ x ∈ sk, x = '\n'

/-- C48: reading the printed text of a scop, after its start tag, gives the scop back. -/
theorem readOne_text {c : Cfg} {L : TextLib D} {registry : Ifaces} (hreg : Ifaces.Unique registry) {prec : Int} {s : Scop D} (h : TextScop c L registry prec s) {names : Names}
    (hn : Rel.NamesNoNL names) {t : Str} (ht : printOne c L names s = .ok t) (hs : Rel.ShortLines t) (rest : Str) :
    ∃ body, t = '\n' :: (Util.startTag URI_SCOP ++ body) ∧ readOne c L registry prec (body ++ rest) = .ok (s, '\n' :: '\n' :: rest) ∧
      Pieces c L registry prec s (body ++ rest) := by
  unfold printOne at ht
  obtain ⟨n1, h1, ht⟩ := Out.bind_eq_ok.mp ht
  obtain ⟨n2, h2, ht⟩ := Out.bind_eq_ok.mp ht
  obtain ⟨ctx, h3, ht⟩ := Out.bind_eq_ok.mp ht
  obtain ⟨par, h4, ht⟩ := Out.bind_eq_ok.mp ht
  obtain ⟨st, h5, ht⟩ := Out.bind_eq_ok.mp ht
  obtain ⟨ext, h6, ht⟩ := Out.bind_eq_ok.mp ht
  injection ht with ht
  have hn2 := withArrays_noNL h (withParams_noNL h hn h1) h2
  obtain ⟨w, hw, hword⟩ := h.language
  have l1 : "\n<OpenScop>\n".toList = '\n' :: (Util.startTag URI_SCOP ++ ['\n']) := rfl
  have l2 : Util.FSkip "\n# =============================================== Global\n# Language\n".toList := by
    have := (Util.FSkip.newline.append (Util.FSkip.comment (u := " =============================================== Global".toList) (by decide) (by decide))).append
      (Util.FSkip.comment (u := " Language".toList) (by decide) (by decide))
    exact this
  have l3 : Util.FSkip "# Context\n".toList := Util.FSkip.comment (u := " Context".toList) (by decide) (by decide)
  have l4 : Util.FSkip "\n# Number of statements\n".toList :=
    Util.FSkip.newline.append (Util.FSkip.comment (u := " Number of statements".toList) (by decide) (by decide))
  have l5 : "\n\n".toList = ['\n', '\n'] := rfl
  have l6 : "\n".toList = ['\n'] := rfl
  have l7 : "\n</OpenScop>\n\n".toList = '\n' :: (Util.endTag URI_SCOP ++ ['\n', '\n']) := rfl
  have l8 : languageText s = w := by simp [languageText, hw]
  rw [l1, l5, l6, l7, l8] at ht
  generalize "\n# =============================================== Global\n# Language\n".toList = k1 at ht l2
  generalize "# Context\n".toList = k2 at ht l3
  generalize "\n# Number of statements\n".toList = k3 at ht l4
  subst ht
  have s1 := hs.right.right
  have hwl : w.length < MAX_STRING - 1 := s1.line (fun hx => by have := (hword.2.2 _ hx).1; revert this; decide)
  have s2 := s1.right.right.right
  have s3 := s2.right.right.right.right.right.right.right
  refine ⟨_, by simp only [List.append_assoc, List.cons_append]; rfl, ?_⟩
  have hreg' := (Ifaces.interface_clone_correct hreg).1
  -- the language
  have e1 := fun r => readLanguage_line (Util.FSkip.newline.append l2) hword hwl r
  -- the context
  have e2 : ∀ r, Rel.pread c prec (['\n'] ++ k2 ++ (ctx ++ r)) = .ok (s.context, r) := by
    intro r
    rw [Rel.pread_skip (Util.FSkip.newline.append l3),
      Rel.pread_text h.context (names := some n2) (by intro m hm; injection hm with hm; subst hm; exact hn2) h3 s2.left]
  -- the statements
  unfold Stmts.pprint at h5
  obtain ⟨n3, h7, h5⟩ := Out.bind_eq_ok.mp h5
  simp only [Stmts.chooseNames] at h7
  injection h7 with h7
  have hn3 : Rel.NamesNoNL n3 := by rw [← h7]; exact cloneNames_noNL hn2
  have hfit : fits 32 (Stmts.number s.statement) := by
    have := h.nbStatements
    unfold Stmts.number fits cMin cMax; simp; omega
  obtain ⟨sk1, e3, e4, e4'⟩ := readStmts_text hn3 h.statement h5 s3.left (pre := ['\n']) (by simp) (ext ++ '\n' :: (Util.endTag URI_SCOP ++ ['\n', '\n'] ++ rest))
  -- the parameters
  obtain ⟨sk2, n, file, e5, e6, e7, e7'⟩ := read_params h h4 Util.FSkip.newline (k3 ++ (showInt (Stmts.number s.statement) ++ ('\n' :: '\n' :: (st ++ (ext ++ '\n' :: (Util.endTag URI_SCOP ++ ['\n', '\n'] ++ rest))))))
  have e8 := Util.fread_int_line ((Util.FSkip.ofNewlines e7).append l4) hfit ('\n' :: (st ++ (ext ++ '\n' :: (Util.endTag URI_SCOP ++ ['\n', '\n'] ++ rest))))
  have e9 := read_extension h h6 e4 (['\n', '\n'] ++ rest)
  simp only [List.append_assoc, List.cons_append, List.nil_append] at e1 e2 e3 e4' e5 e6 e8 e9 ⊢
  refine ⟨?_, _, _, _, _, _, _, _, _, _, _, _, e1 _, e2 _, e5, e6, e7', e8, Int.toNat_natCast _, e4', e3, h6, e4⟩
  unfold readOne
  rw [hreg']
  simp only [Out.ok_bind]
  rw [e1]
  simp only [Out.ok_bind]
  rw [e2]
  simp only [Out.ok_bind]
  rw [e5]
  simp only [Out.ok_bind]
  rw [e6]
  simp only [Out.ok_bind]
  rw [e8]
  simp only [Out.ok_bind]
  rw [show (Stmts.number s.statement).toNat = s.statement.length from Int.toNat_natCast _, e3]
  simp only [Out.ok_bind]
  rw [e9]
  simp only [Out.ok_bind, Out.pure_eq]
  have hv := h.version
  have hr := h.sameRegistry
  cases s with
  | mk v la cx pa sm rg ex =>
    simp only at hv hr hw
    subst hv hr hw
    rfl

/-- Several scops, one after the other. -/
theorem readLoop_text {c : Cfg} {L : TextLib D} {registry : Ifaces} (hreg : Ifaces.Unique registry) {prec : Int} {names : Names} (hn : Rel.NamesNoNL names) :
    ∀ {ss : Scops D} {t : Str}, (∀ s ∈ ss, TextScop c L registry prec s) → printLoop c L names ss = .ok t → Rel.ShortLines t →
    ∀ {pre : Str} (fuel : Nat), '<' ∉ pre → ss.length < fuel → readLoop c L registry prec fuel (pre ++ t) = .ok ss
  | [], t, _, ht, _, pre, fuel, hp, hf => by
    simp only [printLoop] at ht
    injection ht with ht
    subst ht
    rw [List.append_nil]
    cases fuel with
    | zero => omega
    | succ fuel =>
      have : Util.read_uptotag pre URI_SCOP = .ok (none, []) := by
        rcases Util.read_uptoflag_correct pre (Util.startTag URI_SCOP) (by decide) with ⟨p, q, h1, _⟩ | ⟨_, h2⟩
        · exact absurd (by rw [h1.1]; simp [Util.startTag]) hp
        · exact h2
      simp only [readLoop, this, Out.ok_bind]
  | s :: ss, t, h, ht, hs, pre, fuel, hp, hf => by
    simp only [printLoop] at ht
    obtain ⟨t1, h1, ht⟩ := Out.bind_eq_ok.mp ht
    obtain ⟨t2, h2, ht⟩ := Out.bind_eq_ok.mp ht
    injection ht with ht
    subst ht
    obtain ⟨body, rfl, e1, _⟩ := readOne_text hreg (h s (by simp)) hn h1 hs.left t2
    cases fuel with
    | zero => omega
    | succ fuel =>
      have e2 := Util.read_uptotag_first (s := pre ++ ['\n'] ++ (Util.startTag URI_SCOP ++ (body ++ t2))) (name := URI_SCOP)
        (Util.isFirst_of_notMem (by simpa using hp) (body ++ t2))
      have e3 := readLoop_text hreg hn (fun x hx => h x (by simp [hx])) h2 hs.right (pre := ['\n', '\n']) fuel (by decide) (by simp at hf; omega)
      have e4 : pre ++ ('\n' :: (Util.startTag URI_SCOP ++ body) ++ t2) = pre ++ ['\n'] ++ (Util.startTag URI_SCOP ++ (body ++ t2)) := by simp
      rw [e4]
      simp only [List.cons_append, List.nil_append] at e3
      simp only [readLoop, e2, Out.ok_bind, e1, e3]
      rfl

/-- C48: printing a list of scops and reading the file gives the list back, identical. -/
theorem scop_text_round_trip {c : Cfg} {L : TextLib D} {registry : Ifaces} (hreg : Ifaces.Unique registry) {prec : Int} {release : Str} (hrel : '<' ∉ release)
    {s : Scops D} (h : ∀ x ∈ s, TextScop c L registry prec x) {t : Str} (ht : print c L release s = .ok t) (hs : Rel.ShortLines t) :
    pread c L registry prec t = .ok s := by
  cases s with
  | nil =>
    simp only [print] at ht
    injection ht with ht
    subst ht
    have := readLoop_text (L := L) (ss := []) (c := c) (prec := prec) hreg (names := Names.malloc) ⟨by simp [Names.malloc, Rel.StringsNoNL], by simp [Names.malloc, Rel.StringsNoNL], by simp [Names.malloc, Rel.StringsNoNL], by simp [Names.malloc, Rel.StringsNoNL], by simp [Names.malloc, Rel.StringsNoNL]⟩
      (by simp) rfl (by intro a b d e hb; simp at e; rw [e.2.1]; decide) (pre := "# NULL scop\n".toList) ("# NULL scop\n".toList.length + 1) (by decide) (by simp)
    rw [List.append_nil] at this
    unfold pread
    rw [this]
    rfl
  | cons x xs =>
    simp only [print] at ht
    obtain ⟨b, h1, ht⟩ := Out.bind_eq_ok.mp ht
    obtain ⟨n, h2, ht⟩ := Out.bind_eq_ok.mp ht
    obtain ⟨u, h3, ht⟩ := Out.bind_eq_ok.mp ht
    injection ht with ht
    have l1 : '<' ∉ "# [File generated by the OpenScop Library ".toList := by decide
    have l2 : '<' ∉ "]\n".toList := by decide
    generalize "# [File generated by the OpenScop Library ".toList = k1 at ht l1
    generalize "]\n".toList = k2 at ht l2
    have hlen : ∀ {ss : Scops D} {v : Str}, printLoop c L n ss = .ok v → ss.length ≤ v.length := by
      intro ss
      induction ss with
      | nil => intro v _; simp
      | cons y ys ih =>
        intro v hv
        simp only [printLoop] at hv
        obtain ⟨t1, g1, hv⟩ := Out.bind_eq_ok.mp hv
        obtain ⟨t2, g2, hv⟩ := Out.bind_eq_ok.mp hv
        injection hv with hv
        subst hv
        have := ih g2
        have h0 : 0 < t1.length := by
          unfold printOne at g1
          obtain ⟨_, _, g1⟩ := Out.bind_eq_ok.mp g1
          obtain ⟨_, _, g1⟩ := Out.bind_eq_ok.mp g1
          obtain ⟨_, _, g1⟩ := Out.bind_eq_ok.mp g1
          obtain ⟨_, _, g1⟩ := Out.bind_eq_ok.mp g1
          obtain ⟨_, _, g1⟩ := Out.bind_eq_ok.mp g1
          obtain ⟨_, _, g1⟩ := Out.bind_eq_ok.mp g1
          injection g1 with g1
          rw [← g1, List.length_append]
          have : 0 < "\n<OpenScop>\n".toList.length := by decide
          omega
        simp only [List.length_cons, List.length_append]
        omega
    subst ht
    have hl := hlen h3
    have e := readLoop_text hreg (names_noNL h2) h h3 hs.right.right.right (pre := k1 ++ (release ++ k2)) ((k1 ++ (release ++ (k2 ++ u))).length + 1)
      (by simp [l1, l2, hrel]) (by simp at hl ⊢; omega)
    unfold pread
    simp only [List.append_assoc] at e
    rw [e]
    simp only [Out.ok_bind, h1]
    rfl

end Scops
end Osl
