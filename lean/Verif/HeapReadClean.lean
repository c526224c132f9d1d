import Verif.HeapReadTop
import Verif.LibraryExample
/-!
# A file which the library has written loses nothing when it is read in memory (C72)
-/

set_option linter.unusedSectionVars false

namespace Osl.Mem

open Osl.Ext

/-! ## One generic -/

section

variable {D : Type} {E : Env D} {lost : Nat → Option Str → List Str} {Q : Option D → Prop}

/-- The reading of data which meet `Q` loses nothing. -/
def Quiet (E : Env D) (lost : Nat → Option Str → List Str) (Q : Option D → Prop) : Prop := ∀ k o d, E.sread k o = .ok d → Q d → lost k o = []

/-- Exactly one generic, whose data meet `Q`. -/
def Single (Q : Option D → Prop) (l : GList D) : Prop := ∃ g, l = [g] ∧ Q g.data

theorem lostTagged_single (hQ : Quiet E lost Q) {registry : Ifaces} {tag : Option Str} {rest pos : Str} {l : GList D}
    (h : GList.readTagged E registry tag rest = .ok (l, pos)) (hl : Single Q l) : lostTagged lost registry tag rest = [] := by
  obtain ⟨g, rfl, hg⟩ := hl
  unfold GList.readTagged at h
  unfold lostTagged
  match tag, h with
  | none, h => cases h
  | some [], h => cases h
  | some (a :: t), h =>
    dsimp only at h ⊢
    by_cases ha : a = '/'
    · rw [if_pos ha] at h; cases h
    rw [if_neg ha] at h ⊢
    obtain ⟨⟨content, r⟩, h1, h⟩ := Out.bind_eq_ok.mp h
    dsimp only at h
    rw [h1]
    cases hi : Ifaces.lookup registry (some (a :: t)) with
    | none => rfl
    | some i =>
      rw [hi] at h
      obtain ⟨is, h2, h⟩ := Out.bind_eq_ok.mp h
      obtain ⟨d, h3, h⟩ := Out.bind_eq_ok.mp h
      cases h
      exact hQ _ _ _ h3 hg

theorem lostSread_single (hQ : Quiet E lost Q) {registry : Ifaces} {s pos : Str} {l : GList D}
    (h : GList.sread_one E registry s = .ok (l, pos)) (hl : Single Q l) : lostSread lost registry s = [] := by
  unfold GList.sread_one at h
  obtain ⟨⟨tag, r⟩, h1, h⟩ := Out.bind_eq_ok.mp h
  unfold lostSread
  rw [h1]
  exact lostTagged_single hQ h hl

theorem lostFread_single (hQ : Quiet E lost Q) {registry : Ifaces} {s pos : Str} {l : GList D}
    (h : GList.fread_one E registry s = .ok (l, pos)) (hl : Single Q l) : lostFread lost registry s = [] := by
  unfold GList.fread_one at h
  obtain ⟨⟨tag, r⟩, h1, h⟩ := Out.bind_eq_ok.mp h
  unfold lostFread
  rw [h1]
  exact lostTagged_single hQ h hl

/-! ## Symbols -/

/-- The four parts of the symbol are there, and their data meet `Q`. -/
structure FullSymbol (Q : Option D → Prop) (x : Symbol D) : Prop where
  identifier : Single Q x.identifier
  datatype : Single Q x.datatype
  scope : Single Q x.scope
  extent : Single Q x.extent

theorem symOne_quiet (hQ : Quiet E lost Q) {registry : Ifaces} {s s' : Int × Str} {a : Symbol D} {w : List Str} {b : Bool}
    (h : symOne E lost registry s = .ok (a, w, b, s')) (ha : FullSymbol Q a) : w = [] := by
  unfold symOne at h
  obtain ⟨x1, h1, h⟩ := Out.bind_eq_ok.mp h
  obtain ⟨x2, h2, h⟩ := Out.bind_eq_ok.mp h
  obtain ⟨x3, h3, h⟩ := Out.bind_eq_ok.mp h
  obtain ⟨x4, h4, h⟩ := Out.bind_eq_ok.mp h
  obtain ⟨x5, h5, h⟩ := Out.bind_eq_ok.mp h
  obtain ⟨x6, h6, h⟩ := Out.bind_eq_ok.mp h
  obtain ⟨x7, h7, h⟩ := Out.bind_eq_ok.mp h
  cases h
  obtain ⟨a1, a2, a3, a4⟩ := ha
  rw [lostSread_single hQ h4 a1, lostSread_single hQ h5 a2, lostSread_single hQ h6 a3, lostSread_single hQ h7 a4]
  rfl

theorem fillList_quiet (hQ : Quiet E lost Q) {registry : Ifaces} : ∀ (k : Nat) {s s' : Int × Str} {l : List (Symbol D)} {w : List Str},
    fillList (symOne E lost registry) k s = .ok (l, w, s') → (∀ x ∈ l, FullSymbol Q x) → w = []
  | 0, s, s', l, w, h, _ => by cases h
  | k + 1, s, s', l, w, h, hl => by
    unfold fillList at h
    obtain ⟨⟨a, w1, b, s1⟩, h1, h⟩ := Out.bind_eq_ok.mp h
    dsimp only at h
    cases b with
    | false => cases h; exact symOne_quiet hQ h1 (hl _ (by simp))
    | true =>
      rw [if_pos rfl] at h
      obtain ⟨⟨l2, w2, s2⟩, h2, h⟩ := Out.bind_eq_ok.mp h
      cases h
      rw [symOne_quiet hQ h1 (hl _ (by simp)), fillList_quiet hQ k h2 (fun x hx => hl x (by simp [hx]))]
      rfl

theorem lostSymbols_quiet (hQ : Quiet E lost Q) {registry : Ifaces} {o pos : Option Str} {l : List (Symbol D)}
    (h : Symbol.sread E registry o = .ok (l, pos)) (hl : ∀ x ∈ l, FullSymbol Q x) : lostSymbols E lost registry o = [] := by
  cases o with
  | none => rfl
  | some s =>
    simp only [Symbol.sread] at h
    by_cases hs : s.length > MAX_STRING
    · rw [if_pos hs] at h; cases h
    rw [if_neg hs] at h
    obtain ⟨⟨n, s1⟩, h1, h⟩ := Out.bind_eq_ok.mp h
    obtain ⟨⟨l', s2⟩, h2, h⟩ := Out.bind_eq_ok.mp h
    cases h
    simp only [lostSymbols, h1]
    unfold lostSymList
    by_cases h0 : n = 0
    · rw [if_pos h0]
    rw [if_neg h0]
    unfold Symbol.readSymbols at h2
    by_cases hn : n < 0
    · rw [if_pos hn] at h2
      obtain ⟨_, _, h2⟩ := Out.bind_eq_ok.mp h2
      cases h2
    rw [if_neg hn] at h2
    obtain ⟨k, rfl⟩ : ∃ k : Nat, n = (k : Int) + 1 := ⟨(n - 1).toNat, by omega⟩
    have e : ((k : Int) + 1).toNat = k + 1 := by omega
    dsimp only at h2
    rw [e] at h2 ⊢
    obtain ⟨w, hw⟩ := sym_fillList lost registry k (k + 1 + s1.length + 1) s1 s2 l' (by omega) h2
    rw [hw]
    exact fillList_quiet hQ _ hw hl

end

/-! ## The data of the library -/

/-- The data in which all the symbols are full. -/
def FullData {D : Type} (Q : Option D → Prop) : Data (NE (Symbol D)) → Prop
  | .symbols l => ∀ x ∈ NE.elems (some l), FullSymbol Q x
  | _ => True

/-- At every depth, the symbols have their four parts (specification). -/
def fullAt : (n : Nat) → Option (DataAt n) → Prop
  | 0, _ => True
  | n + 1, d => ∀ x, d = some x → FullData (fullAt n) x

theorem tagsLost_quiet (c : Cfg) (e : Option Str) : ∀ n, Quiet (envAt c e n) (tagsLost c e n) (fullAt n)
  | 0 => by
    intro k o d _ _
    simp only [tagsLost, extLost]
    split <;> rfl
  | n + 1 => by
    intro k o d h hd
    simp only [tagsLost, extLost]
    split
    · rename_i hk
      subst hk
      have h : (Data.env c e (Symbol.ops (envAt c e n) defaultRegistry)).sread 12 o = .ok d := h
      simp only [Data.env, Data.table, List.getElem?_cons_succ, List.getElem?_cons_zero] at h
      obtain ⟨⟨d', pos⟩, h1, h⟩ := Out.bind_eq_ok.mp h
      cases h
      simp only [Data.lift] at h1
      obtain ⟨⟨d'', pos'⟩, h2, h1⟩ := Out.bind_eq_ok.mp h1
      simp only [Symbol.ops] at h2
      obtain ⟨⟨l, pos''⟩, h3, h2⟩ := Out.bind_eq_ok.mp h2
      refine lostSymbols_quiet (tagsLost_quiet c e n) h3 ?_
      cases h2
      cases h1
      cases l with
      | nil => intro x hx; cases hx
      | cons a as => exact hd _ rfl
    · rfl

/-! ## Statements and scops -/

section

variable {D : Type} {lost : Nat → Option Str → List Str} {Q : Option D → Prop}

theorem add_length {l new r : GList D} (h : GList.add l new = .ok r) : r = l ++ new := by
  unfold GList.add at h
  obtain ⟨_, _, h⟩ := Out.bind_eq_ok.mp h
  cases h
  rfl

theorem readTagged_length {E : Env D} {registry : Ifaces} {tag : Option Str} {rest pos : Str} {l : GList D}
    (h : GList.readTagged E registry tag rest = .ok (l, pos)) : l.length ≤ 1 := by
  unfold GList.readTagged at h
  match tag, h with
  | none, h => cases h; simp
  | some [], h => cases h; simp
  | some (a :: t), h =>
    dsimp only at h
    split at h
    · cases h; simp
    · obtain ⟨⟨content, r⟩, h1, h⟩ := Out.bind_eq_ok.mp h
      dsimp only at h
      split at h
      · cases h; simp
      · obtain ⟨is, h2, h⟩ := Out.bind_eq_ok.mp h
        obtain ⟨d, h3, h⟩ := Out.bind_eq_ok.mp h
        cases h
        simp

theorem fread_one_length {E : Env D} {registry : Ifaces} {s pos : Str} {l : GList D}
    (h : GList.fread_one E registry s = .ok (l, pos)) : l.length ≤ 1 := by
  unfold GList.fread_one at h
  obtain ⟨⟨tag, r⟩, _, h⟩ := Out.bind_eq_ok.mp h
  exact readTagged_length h

theorem readExts_length {E : Env D} {registry : Ifaces} : ∀ (n : Nat) {s pos : Str} {acc l : GList D},
    Stmts.readExts E registry n s acc = .ok (l, pos) → l.length ≤ acc.length + n
  | 0, s, pos, acc, l, h => by cases h; simp
  | n + 1, s, pos, acc, l, h => by
    simp only [Stmts.readExts] at h
    obtain ⟨⟨new, s1⟩, h1, h⟩ := Out.bind_eq_ok.mp h
    obtain ⟨acc', h2, h⟩ := Out.bind_eq_ok.mp h
    have h3 := readExts_length n h
    rw [add_length h2, List.length_append] at h3
    have := fread_one_length h1
    dsimp only at h3
    omega

theorem readExts_prefix {E : Env D} {registry : Ifaces} : ∀ (n : Nat) {s pos : Str} {acc l : GList D},
    Stmts.readExts E registry n s acc = .ok (l, pos) → ∀ g ∈ acc, g ∈ l
  | 0, s, pos, acc, l, h => by cases h; exact fun _ h => h
  | n + 1, s, pos, acc, l, h => by
    simp only [Stmts.readExts] at h
    obtain ⟨⟨new, s1⟩, h1, h⟩ := Out.bind_eq_ok.mp h
    obtain ⟨acc', h2, h⟩ := Out.bind_eq_ok.mp h
    intro g hg
    refine readExts_prefix n h g ?_
    rw [add_length h2]
    exact List.mem_append_left _ hg

/-- As many extensions as announced: none of the tags is lost. -/
theorem lostExts_quiet {E : Env D} (hQ : Quiet E lost Q) {registry : Ifaces} : ∀ (n : Nat) {s pos : Str} {acc l : GList D},
    Stmts.readExts E registry n s acc = .ok (l, pos) → l.length = acc.length + n → (∀ g ∈ l, Q g.data) → lostExts E lost registry n s = []
  | 0, s, pos, acc, l, h, _, _ => rfl
  | n + 1, s, pos, acc, l, h, hl, hq => by
    simp only [Stmts.readExts] at h
    obtain ⟨⟨new, s1⟩, h1, h⟩ := Out.bind_eq_ok.mp h
    obtain ⟨acc', h2, h⟩ := Out.bind_eq_ok.mp h
    have h3 := readExts_length n h
    have h4 := fread_one_length h1
    have h5 := readExts_prefix n h
    have e := add_length h2
    dsimp only at e h
    subst e
    rw [List.length_append] at h3
    have h6 : new.length = 1 := by omega
    obtain ⟨g, rfl⟩ : ∃ g, new = [g] := by
      match new, h6 with
      | [g], _ => exact ⟨g, rfl⟩
    simp only [lostExts, after, h1]
    rw [lostFread_single hQ h1 ⟨g, rfl, hq g (h5 g (by simp))⟩,
      lostExts_quiet hQ n h (by rw [List.length_append]; simp; omega) hq]
    rfl

theorem lostStmt_quiet {c : Cfg} {L : Lib D} (hQ : Quiet L.toEnv lost Q) {registry : Ifaces} {prec : Int} {file pos : Str} {s : Stmt D}
    (h : Stmts.pread c L registry prec file = .ok (s, pos)) (ha : Stmts.Announced c prec file s.extension.length) (hq : ∀ g ∈ s.extension, Q g.data) :
    lostStmt c L.toEnv lost registry prec file = [] := by
  obtain ⟨l, f1, n, f2, h1, h2, h3⟩ := ha
  unfold Stmts.pread at h
  rw [h1] at h
  simp only [Out.ok_bind] at h
  obtain ⟨⟨a, b, d⟩, _, h⟩ := Out.bind_eq_ok.mp h
  rw [h2] at h
  simp only [Out.ok_bind] at h
  obtain ⟨⟨e, f3⟩, h4, h⟩ := Out.bind_eq_ok.mp h
  cases h
  simp only [lostStmt, after, h1, h2]
  exact lostExts_quiet hQ _ h4 (by rw [h3]; simp) hq

theorem lostStmts_quiet {c : Cfg} {L : Lib D} (hQ : Quiet L.toEnv lost Q) {registry : Ifaces} {prec : Int} : ∀ {ss : Stmts D} {file : Str},
    Stmts.AllAnnounced c L registry prec ss file → (∀ s ∈ ss, ∀ g ∈ s.extension, Q g.data) → lostStmts c L lost registry prec ss.length file = []
  | [], _, _, _ => rfl
  | s :: ss, file, h, hq => by
    obtain ⟨h1, rest, h2, h3⟩ := h
    simp only [List.length_cons, lostStmts, after, h2]
    rw [lostStmt_quiet hQ h2 h1 (hq s (by simp)), lostStmts_quiet hQ h3 (fun x hx => hq x (by simp [hx]))]
    rfl

/-- The extensions of a scop, in the text of which there are only opening tags. -/
theorem lostLoop_text {L : Lib D} (hQ : Quiet L.toEnv lost Q) {registry : Ifaces} {l : GList D} {s : Str} (ht : GList.ExtText L.exact.toEnv l s)
    (h : ∀ g ∈ l, GList.Textable L.exact.toEnv registry g) (hq : ∀ g ∈ l, Q g.data) {tr : Str} (htr : ∀ x ∈ tr, isSpace x = true) :
    ∀ (n : Nat) (sp : Str), (∀ x ∈ sp, isSpace x = true) → lostLoop L.toEnv lost registry n (sp ++ (s ++ tr)) = [] := by
  have blank : ∀ (n : Nat) (sp : Str), (∀ x ∈ sp, isSpace x = true) → lostLoop L.toEnv lost registry n sp = [] := by
    intro n
    induction n with
    | zero => intros; rfl
    | succ n ih =>
      intro sp hs
      cases sp with
      | nil => rfl
      | cons a sp =>
        have hsk : Util.sskip (a :: sp) = [] := by
          have := Util.sskip_spaces hs []
          rw [List.append_nil] at this
          exact this
        have e1 : GList.sread_one L.toEnv registry (a :: sp) = .ok ([], []) := by
          simp [GList.sread_one, Util.read_tag, hsk, GList.readTagged]
        have e2 : lostSread lost registry (a :: sp) = [] := by
          simp [lostSread, Util.read_tag, hsk, lostTagged]
        simp only [lostLoop, e1, e2]
        rw [ih [] (by simp)]
        rfl
  have step : ∀ {g : Generic D} {i : Iface} {u t rest : Str}, g.interface = some i → i.URI = some u → L.exact.sprint i.fns.sprint g.data = .ok (some t) →
      GList.Textable L.exact.toEnv registry g → Q g.data → (∀ n, lostLoop L.toEnv lost registry n rest = []) → ∀ n {sp : Str}, (∀ x ∈ sp, isSpace x = true) →
      lostLoop L.toEnv lost registry n (sp ++ (Util.startTag u ++ "\n".toList ++ t ++ Util.endTag u ++ rest)) = [] := by
    intro g i u t rest e1 e2 e3 hg hq hr n sp hs
    obtain ⟨i', u', t', d, a1, a2, a3, a4, a5, a6, a7, a8, a9⟩ := hg
    obtain rfl : i' = i := by rw [e1] at a1; injection a1 with a1; exact a1.symm
    obtain rfl : u' = u := by rw [e2] at a2; injection a2 with a2; exact a2.symm
    obtain rfl : t' = t := by rw [e3] at a6; injection a6 with a6; injection a6 with a6; exact a6.symm
    have hd : g.data = some d := by
      simp only [Lib.exact] at a9
      injection a9 with a9
      exact @of_decide_eq_true _ (Classical.propDecidable _) a9
    have hr1 := GList.sread_one_ok (E := L.toEnv) a2 a3 a4 a5 a7 a8 hs rest
    have hne : ∃ a as, sp ++ (Util.startTag u' ++ "\n".toList ++ t' ++ Util.endTag u' ++ rest) = a :: as := by
      cases sp with
      | nil => exact ⟨'<', _, rfl⟩
      | cons a sp => exact ⟨a, _, rfl⟩
    obtain ⟨a, as, hcs⟩ := hne
    rw [hcs] at hr1 ⊢
    cases n with
    | zero => rfl
    | succ n =>
      simp only [lostLoop, hr1]
      rw [lostSread_single hQ hr1 ⟨_, rfl, by rw [hd] at hq; exact hq⟩, hr n]
      rfl
  induction ht with
  | nil =>
    intro n sp hs
    refine blank n _ ?_
    intro x hx
    rcases List.mem_append.mp hx with hx | hx
    · exact hs x hx
    · exact htr x hx
  | @one g i u t e1 e2 e3 =>
    intro n sp hs
    have := step (rest := "\n".toList ++ tr) e1 e2 e3 (h g (by simp)) (hq g (by simp)) (fun n => blank n _ (by
      intro x hx
      rcases List.mem_append.mp hx with hx | hx
      · simp at hx; subst hx; decide
      · exact htr x hx)) n hs
    rw [List.append_assoc _ "\n".toList tr]
    exact this
  | @cons g i u t g' l' s' e1 e2 e3 _ ih =>
    intro n sp hs
    have := step (rest := "\n".toList ++ "\n".toList ++ (s' ++ tr)) e1 e2 e3 (h g (by simp)) (hq g (by simp)) (fun n =>
      ih (fun x hx => h x (List.mem_cons_of_mem _ hx)) (fun x hx => hq x (List.mem_cons_of_mem _ hx)) n ("\n".toList ++ "\n".toList) (by decide)) n hs
    simp only [List.append_assoc] at this ⊢
    exact this

theorem lostRead_text {c : Cfg} {L : TextLib D} (hQ : Quiet L.toEnv lost Q) {registry : Ifaces} {prec : Int} {s : Scop D} (h : Scops.TextScop c L registry prec s)
    (hq : ∀ g ∈ s.extension, Q g.data) {t : Str} (ht : Scops.printExtension L s.extension = .ok t) {sk : Str} (hsk : ∀ x ∈ sk, x = '\n') (rest : Str) :
    lostRead L.toEnv lost registry (sk ++ (t ++ ('\n' :: (Util.endTag URI_SCOP ++ rest)))) = [] := by
  have hsp : ∀ x ∈ sk, isSpace x = true := by intro x hx; rw [hsk x hx]; decide
  obtain ⟨pre, t', hpre, htext, e1⟩ := Scops.extension_content h ht hsk rest
  unfold lostRead
  rw [show "OpenScop".toList = URI_SCOP from rfl, e1]
  dsimp only
  -- the blanks and the title are skipped
  have h1 : ∃ a as, sk ++ (pre ++ (t' ++ ['\n'])) = a :: as := by
    cases hx : sk ++ (pre ++ (t' ++ ['\n'])) with
    | nil => simp at hx
    | cons a as => exact ⟨a, as, rfl⟩
  have h2 : ∃ a as, t' ++ ['\n'] = a :: as := by
    cases hx : t' ++ ['\n'] with
    | nil => simp at hx
    | cons a as => exact ⟨a, as, rfl⟩
  have h0 : Util.read_tag (sk ++ (pre ++ (t' ++ ['\n']))) = Util.read_tag (t' ++ ['\n']) := by
    unfold Util.read_tag
    rw [Util.Skips.blanks hsp, hpre]
  have h3 : GList.sread_one L.toEnv registry (sk ++ (pre ++ (t' ++ ['\n']))) = GList.sread_one L.toEnv registry (t' ++ ['\n']) := by
    unfold GList.sread_one
    rw [h0]
  have h4 : lostSread lost registry (sk ++ (pre ++ (t' ++ ['\n']))) = lostSread lost registry (t' ++ ['\n']) := by
    unfold lostSread
    rw [h0]
  have key := lostLoop_text (L := L.toLib) hQ htext h.extension hq (tr := ['\n']) (by decide) ((sk ++ (pre ++ (t' ++ ['\n']))).length + 1) [] (by simp)
  rw [List.nil_append] at key
  rw [← key]
  generalize (sk ++ (pre ++ (t' ++ ['\n']))).length = k
  obtain ⟨a, as, h1⟩ := h1
  obtain ⟨b, bs, h2⟩ := h2
  rw [h1, h2] at h3 h4
  rw [h1, h2]
  simp only [lostLoop, h3, h4]

/-- All the data of a scop meet `Q`. -/
structure AllData (Q : Option D → Prop) (s : Scop D) : Prop where
  parameters : ∀ g ∈ s.parameters, Q g.data
  statement : ∀ st ∈ s.statement, ∀ g ∈ st.extension, Q g.data
  extension : ∀ g ∈ s.extension, Q g.data

theorem tagsScop_pieces {c : Cfg} {L : TextLib D} (hQ : Quiet L.toEnv lost Q) {registry : Ifaces} {prec : Int} {s : Scop D} (h : Scops.TextScop c L registry prec s)
    (hq : AllData Q s) {file : Str} (hp : Scops.Pieces c L registry prec s file) : tagsScop c L.toLib lost registry prec file = [] := by
  obtain ⟨w, f1, f2, np, f3, f4, ns, f5, sk, t, rest, e1, e2, e3, e4, e5, e6, e7, e8, e9, e10, e11⟩ := hp
  have p1 : lostParameters lost registry np f3 = [] := by
    unfold lostParameters
    split
    · rename_i hn
      unfold Scops.readParameters at e4
      rw [if_pos hn] at e4
      have hl := fread_one_length e4
      refine lostFread_single hQ e4 ?_
      match hs : s.parameters, e5 hn, hl with
      | [g], _, _ => exact ⟨g, rfl, hq.parameters g (by rw [hs]; simp)⟩
      | _ :: _ :: _, _, hl => simp at hl
    · rfl
  simp only [tagsScop, after, e1, e2, e3, e4, e6, e7, e9, p1]
  rw [lostStmts_quiet hQ e8 hq.statement, lostRead_text hQ h hq.extension e10 e11 rest]
  rfl

theorem tagsScops_text {c : Cfg} {L : TextLib D} (hQ : Quiet L.toEnv lost Q) {registry : Ifaces} (hreg : Ifaces.Unique registry) {prec : Int} {names : Names}
    (hn : Rel.NamesNoNL names) : ∀ {ss : Scops D} {t : Str}, (∀ s ∈ ss, Scops.TextScop c L registry prec s) → (∀ s ∈ ss, AllData Q s) →
    Scops.printLoop c L names ss = .ok t → Rel.ShortLines t → ∀ {pre : Str} (fuel : Nat), '<' ∉ pre → tagsScops c L lost registry prec fuel (pre ++ t) = []
  | [], t, _, _, ht, _, pre, fuel, hp => by
    simp only [Scops.printLoop] at ht
    cases ht
    rw [List.append_nil]
    cases fuel with
    | zero => rfl
    | succ fuel =>
      have : Util.read_uptotag pre URI_SCOP = .ok (none, []) := by
        rcases Util.read_uptoflag_correct pre (Util.startTag URI_SCOP) (by decide) with ⟨p, q, h1, _⟩ | ⟨_, h2⟩
        · exact absurd (by rw [h1.1]; simp [Util.startTag]) hp
        · exact h2
      simp [tagsScops, after, this]
  | s :: ss, t, h, hq, ht, hs, pre, fuel, hp => by
    simp only [Scops.printLoop] at ht
    obtain ⟨t1, h1, ht⟩ := Out.bind_eq_ok.mp ht
    obtain ⟨t2, h2, ht⟩ := Out.bind_eq_ok.mp ht
    injection ht with ht
    subst ht
    obtain ⟨body, rfl, e1, e5⟩ := Scops.readOne_text hreg (h s (by simp)) hn h1 hs.left t2
    cases fuel with
    | zero => rfl
    | succ fuel =>
      have e2 := Util.read_uptotag_first (s := pre ++ ['\n'] ++ (Util.startTag URI_SCOP ++ (body ++ t2))) (name := URI_SCOP)
        (Util.isFirst_of_notMem (by simpa using hp) (body ++ t2))
      have e3 := tagsScops_text hQ hreg hn (fun x hx => h x (by simp [hx])) (fun x hx => hq x (by simp [hx])) h2 hs.right (pre := ['\n', '\n']) fuel (by decide)
      have e4 : pre ++ ('\n' :: (Util.startTag URI_SCOP ++ body) ++ t2) = pre ++ ['\n'] ++ (Util.startTag URI_SCOP ++ (body ++ t2)) := by simp
      rw [e4]
      simp only [List.cons_append, List.nil_append] at e3
      simp only [tagsScops, after, e2, e1, e3]
      rw [tagsScop_pieces hQ (h s (by simp)) (hq s (by simp)) e5]
      rfl

/-- C72: a file which `osl_scop_print` has written loses nothing, for any registry and any extensions. -/
theorem tagsFile_print {c : Cfg} {L : TextLib D} (hQ : Quiet L.toEnv lost Q) {registry : Ifaces} (hreg : Ifaces.Unique registry) {prec : Int} {release : Str}
    (hrel : '<' ∉ release) {s : Scops D} (h : ∀ x ∈ s, Scops.TextScop c L registry prec x) (hq : ∀ x ∈ s, AllData Q x) {t : Str}
    (ht : Scops.print c L release s = .ok t) (hs : Rel.ShortLines t) : tagsFile c L lost registry prec t = [] := by
  unfold tagsFile
  cases s with
  | nil =>
    simp only [Scops.print] at ht
    cases ht
    have := tagsScops_text (L := L) (ss := []) (c := c) (prec := prec) hQ hreg (names := Names.malloc) ⟨by simp [Names.malloc, Rel.StringsNoNL], by simp [Names.malloc, Rel.StringsNoNL], by simp [Names.malloc, Rel.StringsNoNL], by simp [Names.malloc, Rel.StringsNoNL], by simp [Names.malloc, Rel.StringsNoNL]⟩
      (by simp) (by simp) rfl (by intro a b d e hb; simp at e; rw [e.2.1]; decide) (pre := "# NULL scop\n".toList) ("# NULL scop\n".toList.length + 1) (by decide)
    rw [List.append_nil] at this
    exact this
  | cons x xs =>
    simp only [Scops.print] at ht
    obtain ⟨b, h1, ht⟩ := Out.bind_eq_ok.mp ht
    obtain ⟨n, h2, ht⟩ := Out.bind_eq_ok.mp ht
    obtain ⟨u, h3, ht⟩ := Out.bind_eq_ok.mp ht
    injection ht with ht
    have l1 : '<' ∉ "# [File generated by the OpenScop Library ".toList := by decide
    have l2 : '<' ∉ "]\n".toList := by decide
    generalize "# [File generated by the OpenScop Library ".toList = k1 at ht l1
    generalize "]\n".toList = k2 at ht l2
    subst ht
    have e := tagsScops_text hQ hreg (Scops.names_noNL h2) h hq h3 hs.right.right.right (pre := k1 ++ (release ++ k2)) ((k1 ++ (release ++ (k2 ++ u))).length + 1)
      (by simp [l1, l2, hrel])
    simp only [List.append_assoc] at e
    exact e

end

/-! ## The default registry -/

/-- C72: with the default registry, a file which `osl_scop_print` has written loses nothing when it is read, when the symbols have their four parts: exactly the scops
which were written are allocated. -/
theorem printed_loses_nothing {c : Cfg} {e : Option Str} {n : Nat} {release : Str} (hrel : '<' ∉ release) {s : Scops (DataAt (n + 1))}
    (h : ∀ x ∈ s, Data.PlainScop c e (Ext.Symbol.ops (envAt c e n) defaultRegistry) (PlainSymbols c e n) (Util.get_precision c e) x) (hf : ∀ x ∈ s, AllData (fullAt (n + 1)) x)
    {t : Str} (ht : Scops.print c (libAt c e (n + 1)) release s = .ok t) (hs : Rel.ShortLines t) : libTags c e (n + 1) t = [] :=
  tagsFile_print (L := libAt c e (n + 1)) (tagsLost_quiet c e (n + 1)) default_registry_eq.2 hrel
    (fun x hx => (h x hx).text (fun _ => Ext.Symbol.Plain.back)) hf ht hs

/-- When the parts of the symbols are not themselves symbols, the scops whose text is read back have full symbols: the condition of `printed_loses_nothing` is
met by all of them. -/
theorem plain_full {c : Cfg} {e : Option Str} {prec : Int} {x : Scop (DataAt 1)}
    (h : Data.PlainScop c e (Ext.Symbol.ops (envAt c e 0) defaultRegistry) (PlainSymbols c e 0) prec x) : AllData (fullAt 1) x := by
  have one : ∀ d : DataAt 1, Data.PlainFile c e (PlainSymbols c e 0) d → fullAt 1 (some d) := by
    intro d hd y hy
    cases hy
    cases d with
    | symbols l =>
      rcases hd with hd | ⟨s, hs, _⟩
      · intro a ha
        have ht := (show Ext.Symbol.Plain (envAt c e 0) defaultRegistry l from hd).symbol a ha
        have g : ∀ {k : GList (DataAt 0)}, GList.Present (envAt c e 0).exact defaultRegistry k → Single (fullAt 0) k := by
          intro k hk
          obtain ⟨g, hg, _⟩ := hk
          exact ⟨g, hg, trivial⟩
        exact ⟨g ht.identifier, g ht.datatype, g ht.scope, g ht.extent⟩
      · cases hs
    | _ => trivial
  refine ⟨?_, ?_, ?_⟩
  · intro g hg
    rcases h.parameters with hp | ⟨ws, hp, _⟩
    · rw [hp] at hg; cases hg
    · rw [hp] at hg
      obtain rfl := List.mem_singleton.mp hg
      intro y hy
      cases hy
      trivial
  · intro st hst g hg
    obtain ⟨d, rfl, hd, _⟩ := (h.statement st hst).extension g hg
    exact one d hd
  · intro g hg
    obtain ⟨d, rfl, hd, _⟩ := h.extension g hg
    exact one d (.inl hd)

/-- C72: printing scops and reading the file allocates exactly a copy of these scops, identical to them, and nothing else. -/
theorem print_read_memory [Allocator] {c : Cfg} {e : Option Str} {n : Nat} {release : Str} (hrel : '<' ∉ release) {s : Scops (DataAt (n + 1))}
    (h : ∀ x ∈ s, Data.PlainScop c e (Ext.Symbol.ops (envAt c e n) defaultRegistry) (PlainSymbols c e n) (Util.get_precision c e) x) (hf : ∀ x ∈ s, AllData (fullAt (n + 1)) x)
    {t : Str} (ht : Scops.print c (libAt c e (n + 1)) release s = .ok t) (hs : Rel.ShortLines t) :
    Triple emp (scopRead c e (sreadAt c e (n + 1)) t) (fun p => libScopsAt c e (n + 1) p s) := by
  have hr : Scops.read c (libAt c e (n + 1)) e defaultRegistry t = .ok s := scop_default_text_symbols hrel h ht hs
  have := lib_scop_read_memory hr
  rw [printed_loses_nothing hrel h hf ht hs, looseAt_nil] at this
  exact this.post (fun p h hh => by rwa [sep_emp] at hh)

/-- C72: and after `osl_scop_free` nothing is allocated. -/
theorem print_read_free_memory [Allocator] {c : Cfg} {e : Option Str} {n : Nat} {release : Str} (hrel : '<' ∉ release) {s : Scops (DataAt (n + 1))}
    (h : ∀ x ∈ s, Data.PlainScop c e (Ext.Symbol.ops (envAt c e n) defaultRegistry) (PlainSymbols c e n) (Util.get_precision c e) x) (hf : ∀ x ∈ s, AllData (fullAt (n + 1)) x)
    {t : Str} (ht : Scops.print c (libAt c e (n + 1)) release s = .ok t) (hs : Rel.ShortLines t) :
    Triple emp (do let p ← scopRead c e (sreadAt c e (n + 1)) t; scopFree c (fnsAt c (n + 1)) p) (fun _ => emp) := by
  have hr : Scops.read c (libAt c e (n + 1)) e defaultRegistry t = .ok s := scop_default_text_symbols hrel h ht hs
  have := lib_scop_read_free_memory hr
  rwa [printed_loses_nothing hrel h hf ht hs, looseAt_nil] at this

open Osl.Data in
/-- The hypotheses are met by a list of two scops with symbols, arrays, coordinates, a comment and a body. -/
example [Allocator] : ∃ t, Scops.print Cfg.std (libAt Cfg.std (some "64".toList) 1) "0.9.1".toList [exScopL, exScopL] = .ok t ∧
    Triple emp (scopRead Cfg.std (some "64".toList) (sreadAt Cfg.std (some "64".toList) 1) t)
      (fun p => libScopsAt Cfg.std (some "64".toList) 1 p [exScopL, exScopL]) := by
  obtain ⟨t, ht⟩ := ok_of exScopL_printed
  have hl := Rel.shortLines_of (holds_of exScopL_printed ht)
  have hx : ∀ x ∈ [exScopL, exScopL], x = exScopL := by
    intro x hx
    rcases List.mem_cons.mp hx with h | h
    · exact h
    · exact List.mem_singleton.mp h
  exact ⟨t, ht, print_read_memory (by decide) (fun x h => hx x h ▸ exScopL_plain) (fun x h => hx x h ▸ plain_full exScopL_plain) ht hl⟩

end Osl.Mem
