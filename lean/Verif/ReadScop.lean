import Verif.ReadShape
import Verif.ScopTextProps
/-!
# What the readers of statements and scops return, whatever the file (C61)
-/

namespace Osl

namespace Util

theorem tagLoop_chars : ∀ {s res name rest : Str}, tagLoop res s = .ok (name, rest) → ∃ new, name = res ++ new ∧
    (∀ ch, new.head? = some ch → tagChar res.isEmpty ch = true) ∧ ∀ ch ∈ new.tail, tagChar false ch = true
  | [], _, _, _, h => by cases h
  | ch :: s, res, name, rest, h => by
    simp only [tagLoop] at h
    split at h
    · cases h; exact ⟨[], by simp, by simp, by simp⟩
    · split at h
      · next hc =>
        split at h
        · cases h
        · obtain ⟨new, e, h1, h2⟩ := tagLoop_chars h
          refine ⟨ch :: new, by simp [e], by simpa using hc, ?_⟩
          intro x hx
          cases new with
          | nil => cases hx
          | cons y new =>
            rcases List.mem_cons.mp hx with rfl | hx
            · have := h1 x rfl
              have e : List.isEmpty (res ++ [ch]) = false := by cases res <;> rfl
              rw [e] at this
              exact this
            · exact h2 x hx
      · cases h

/-- A tag which does not begin with a slash is a tag name. -/
theorem tagLoop_name {s rest : Str} {ch : Char} {name : Str} (h : tagLoop [] s = .ok (ch :: name, rest)) (hc : ch ≠ '/') : TagName (ch :: name) := by
  obtain ⟨new, e, h1, h2⟩ := tagLoop_chars h
  rw [List.nil_append] at e
  subst e
  refine ⟨by simp, ?_⟩
  intro x hx
  rcases List.mem_cons.mp hx with rfl | hx
  · have := h1 x rfl
    simp only [tagChar, List.isEmpty_nil, Bool.and_true] at this ⊢
    have e : (x == '/') = false := by simpa using hc
    rw [e] at this
    simpa using this
  · exact h2 x hx

theorem skipBlank_head {line t : Str} {c : Char} (h : skipBlank line = c :: t) (hc : c ≠ '\n') : isSpace c = false := by
  unfold skipBlank at h
  have := List.head?_dropWhile_not (fun c => isSpace c && c != '\n') line
  rw [h] at this
  simp only [List.head?_cons] at this
  have e : (c != '\n') = true := by simpa using hc
  rw [e, Bool.and_true] at this
  exact this

theorem fskip_starts {file line rest : Str} (h : fskip file = (some line, rest)) : line = [] ∨ ∃ ch t, line = ch :: t ∧ isSpace ch = false ∧ ch ≠ '#' := by
  unfold fskip at h
  generalize file.length + 1 = n at h
  induction n generalizing file with
  | zero => cases h
  | succ n ih =>
    simp only [fskipLoop] at h
    split at h
    · cases h
    · split at h
      · next hs =>
        split at h
        · exact ih h
        · next hc =>
          cases h
          refine .inr ⟨_, _, rfl, ?_, fun e => hc (.inl e)⟩
          exact skipBlank_head hs fun e => hc (.inr e)
      · cases h; exact .inl rfl

end Util

namespace Strings

theorem readLoop_words : ∀ {n : Nat} {s : Str} {ws : List Str} {pos : Option Str}, readLoop n s = .ok (ws, pos) →
    ws.length = n ∧ ∀ w ∈ ws, w.length < MAX_STRING ∧ ∀ c ∈ w, isSpace c = false ∧ c ≠ '#'
  | 0, _, _, _, h => by cases h; simp
  | n + 1, s, ws, pos, h => by
    have hw : ∀ c ∈ s.takeWhile tokChar, isSpace c = false ∧ c ≠ '#' := by
      intro c hc
      have := List.all_takeWhile (p := tokChar) (l := s)
      rw [List.all_eq_true] at this
      simpa [tokChar] using this c hc
    simp only [readLoop] at h
    split at h
    · cases h
    · next hlen =>
      split at h
      · split at h
        · next hn => cases h; subst hn; exact ⟨rfl, by simpa using ⟨by omega, by simpa using hw⟩⟩
        · cases h
      · split at h
        · next ws' pos' h1 =>
          cases h
          obtain ⟨i1, i2⟩ := readLoop_words h1
          refine ⟨by simp [i1], ?_⟩
          intro w hw'
          rcases List.mem_cons.mp hw' with rfl | hw'
          · exact ⟨by omega, hw⟩
          · exact i2 w hw'
        · cases h
        · cases h

/-- C61: strings which are read, whatever the text: at least one string, none of which holds a blank or a `#`. -/
theorem sread_words {input : Str} {s : Strings} {pos : Option Str} (h : sread input = .ok (some s, pos)) : s.words ≠ [] ∧
    ∀ w ∈ s.words, w.length < MAX_STRING ∧ ∀ c ∈ w, isSpace c = false ∧ c ≠ '#' := by
  unfold sread at h
  simp only at h
  split at h
  · next hnb =>
    split at h
    · next ws pos' h1 =>
      cases h
      obtain ⟨i1, i2⟩ := readLoop_words h1
      refine ⟨?_, i2⟩
      intro e
      have : ws = [] := e
      rw [this] at i1
      simp only [List.length_nil] at i1
      omega
    · cases h
    · cases h
  · cases h

end Strings

namespace GList

variable {D : Type}

/-- An extension as the readers make them (specification): its interface is the one the registry holds under its URI, a tag name, and its data is what the
reader of this interface makes of some content. -/
def FromRegistry (E : Env D) (registry : Ifaces) (g : Generic D) : Prop :=
  ∃ i u content, g.interface = some i ∧ i.URI = some u ∧ Util.TagName u ∧ Ifaces.lookup registry (some u) = some i ∧ E.sread i.fns.sread content = .ok g.data

theorem readTagged_from {E : Env D} {registry : Ifaces} {s s' name rest : Str} {l : GList D} {rest' : Str} (ht : Util.tagLoop [] s = .ok (name, s'))
    (h : readTagged E registry (some name) rest = .ok (l, rest')) : l = [] ∨ ∃ g, l = [g] ∧ FromRegistry E registry g := by
  cases name with
  | nil => cases h; exact .inl rfl
  | cons c t =>
    simp only [readTagged] at h
    split at h
    · cases h; exact .inl rfl
    · next hc =>
      have hn := Util.tagLoop_name ht hc
      obtain ⟨⟨content, r⟩, h1, h⟩ := Out.bind_eq_ok.mp h
      simp only at h
      cases hl : Ifaces.lookup registry (some (c :: t)) with
      | none => rw [hl] at h; cases h; exact .inl rfl
      | some i =>
        rw [hl] at h
        obtain ⟨is, h2, h⟩ := Out.bind_eq_ok.mp h
        obtain ⟨d, h3, h⟩ := Out.bind_eq_ok.mp h
        cases h
        have hu := (Ifaces.lookup_some hl).2
        have : is.head? = some i := by
          have e : Ifaces.nclone [i] 1 = .ok [i] := by
            have : (1 : Int) ≠ -1 := by decide
            simp [Ifaces.nclone, Ifaces.ncloneLoop, Ifaces.add, Ifaces.checkLoop, Ifaces.lookup, hu]
          rw [e] at h2
          cases h2; rfl
        exact .inr ⟨_, rfl, i, c :: t, content, this, hu, hn, hl, h3⟩

theorem fread_one_from {E : Env D} {registry : Ifaces} {file rest : Str} {l : GList D} (h : fread_one E registry file = .ok (l, rest)) :
    l = [] ∨ ∃ g, l = [g] ∧ FromRegistry E registry g := by
  unfold fread_one at h
  obtain ⟨⟨tag, r⟩, h1, h⟩ := Out.bind_eq_ok.mp h
  unfold Util.fread_tag at h1
  split at h1
  · cases h1; cases h; exact .inl rfl
  · split at h1
    · cases h1; cases h; exact .inl rfl
    · split at h1
      · cases h1; cases h; exact .inl rfl
      · split at h1
        · split at h1
          · next ht => cases h1; exact readTagged_from ht h
          · cases h1
          · cases h1
        · cases h1

theorem sread_one_from {E : Env D} {registry : Ifaces} {input rest : Str} {l : GList D} (h : sread_one E registry input = .ok (l, rest)) :
    l = [] ∨ ∃ g, l = [g] ∧ FromRegistry E registry g := by
  unfold sread_one at h
  obtain ⟨⟨tag, r⟩, h1, h⟩ := Out.bind_eq_ok.mp h
  unfold Util.read_tag at h1
  split at h1
  · cases h1; cases h; exact .inl rfl
  · split at h1
    · split at h1
      · next ht => cases h1; exact readTagged_from ht h
      · cases h1
      · cases h1
    · cases h1

/-- What is known of a list of extensions the readers make: they come from the registry, and those which have data have distinct URIs. -/
def ReadList (E : Env D) (registry : Ifaces) (l : GList D) : Prop := (∀ g ∈ l, FromRegistry E registry g) ∧ (HasData l → Unique l)

theorem FromRegistry.uri_ne {E : Env D} {registry : Ifaces} {g : Generic D} (h : FromRegistry E registry g) : uri g ≠ none := by
  obtain ⟨i, u, _, h1, h2, _⟩ := h
  simp [uri, h1, h2]

theorem add_read {E : Env D} {registry : Ifaces} {acc new l : GList D} (ha : ReadList E registry acc) (hn : new = [] ∨ ∃ g, new = [g] ∧ FromRegistry E registry g)
    (h : add acc new = .ok l) : ReadList E registry l ∧ l = acc ++ new ∧ l.length ≤ acc.length + 1 := by
  rcases hn with rfl | ⟨g, rfl, hg⟩
  · unfold add at h
    obtain ⟨_, _, h⟩ := Out.bind_eq_ok.mp h
    cases h
    rw [List.append_nil]
    exact ⟨ha, rfl, by omega⟩
  · have e : l = acc ++ [g] := by
      unfold add at h
      obtain ⟨_, _, h⟩ := Out.bind_eq_ok.mp h
      cases h; rfl
    refine ⟨⟨?_, ?_⟩, e, by simp [e]⟩
    · intro x hx
      rw [e] at hx
      rcases List.mem_append.mp hx with hx | hx
      · exact ha.1 x hx
      · rw [List.mem_singleton.mp hx]; exact hg
    · intro hd
      rw [e] at hd
      have hd1 : HasData acc := fun x hx => hd x (by simp [hx])
      cases hdata : g.data with
      | none => exact absurd hdata (hd g (by simp))
      | some d =>
        cases hu : uri g with
        | none => exact absurd hu hg.uri_ne
        | some u =>
          rcases generic_add_correct (ha.2 hd1) hd1 hu hdata with ⟨_, h2⟩ | ⟨_, l', h2, h3, _⟩
          · rw [h] at h2; cases h2
          · rw [h] at h2; cases h2; exact h3

theorem sreadLoop_read {E : Env D} {registry : Ifaces} : ∀ {n : Nat} {s rest : Str} {acc l : GList D}, ReadList E registry acc →
    sreadLoop E registry n s acc = .ok (l, rest) → ReadList E registry l
  | 0, _, _, _, _, _, h => by cases h
  | n + 1, [], _, _, _, ha, h => by cases h; exact ha
  | n + 1, c :: s, rest, acc, l, ha, h => by
    simp only [sreadLoop] at h
    obtain ⟨⟨new, r⟩, h1, h⟩ := Out.bind_eq_ok.mp h
    obtain ⟨acc', h2, h⟩ := Out.bind_eq_ok.mp h
    exact sreadLoop_read (add_read ha (sread_one_from h1) h2).1 h

/-- C61: the extensions of a scop, whatever the file. -/
theorem generic_read_wellformed {E : Env D} {registry : Ifaces} {file rest : Str} {l : GList D} (h : read E registry file = .ok (l, rest)) : ReadList E registry l := by
  unfold read at h
  obtain ⟨⟨s, r⟩, h1, h⟩ := Out.bind_eq_ok.mp h
  cases s with
  | none => cases h
  | some s =>
    simp only at h
    obtain ⟨⟨l', r'⟩, h2, h⟩ := Out.bind_eq_ok.mp h
    cases h
    exact sreadLoop_read ⟨by simp, fun _ => ⟨by simp, by simp⟩⟩ h2

end GList

namespace Stmts

variable {D : Type}

theorem readExts_read {E : Env D} {registry : Ifaces} : ∀ {n : Nat} {s rest : Str} {acc l : GList D}, GList.ReadList E registry acc →
    readExts E registry n s acc = .ok (l, rest) → GList.ReadList E registry l ∧ l.length ≤ acc.length + n
  | 0, _, _, _, _, ha, h => by cases h; exact ⟨ha, by omega⟩
  | n + 1, s, rest, acc, l, ha, h => by
    simp only [readExts] at h
    obtain ⟨⟨new, r⟩, h1, h⟩ := Out.bind_eq_ok.mp h
    obtain ⟨acc', h2, h⟩ := Out.bind_eq_ok.mp h
    obtain ⟨i1, i2, i3⟩ := GList.add_read ha (GList.fread_one_from h1) h2
    obtain ⟨j1, j2⟩ := readExts_read i1 h
    exact ⟨j1, by omega⟩

/-- A statement as the reader makes them (specification): a domain, a scattering and accesses which are absent or well formed, each of its own type, and extensions
of the registry. -/
structure ReadStmt (c : Cfg) (L : Lib D) (registry : Ifaces) (prec : Int) (s : Stmt D) : Prop where
  domain : s.domain = [] ∨ Rel.TextRel c prec s.domain ∧ ∀ p ∈ s.domain, p.type = TYPE_DOMAIN
  scattering : s.scattering = [] ∨ Rel.TextRel c prec s.scattering ∧ ∀ p ∈ s.scattering, p.type = TYPE_SCATTERING
  access : ∀ r ∈ s.access, Rel.TextRel c prec r ∧ ∀ p ∈ r, p.type = TYPE_READ ∨ p.type = TYPE_WRITE ∨ p.type = TYPE_MAY_WRITE
  accesses : (s.access.length : Int) < 2 ^ 31
  extensions : (s.extension.length : Int) < 2 ^ 31
  extension : GList.ReadList L.toEnv registry s.extension

theorem fread_int_fits {file rest : Str} {n : Int} (h : Util.fread_int file = .ok (n, rest)) : n < 2 ^ 31 := by
  have hx : fits 32 n := by
    unfold Util.fread_int at h
    split at h
    · cases h
    · split at h
      · split at h
        · next hf => cases h; exact hf
        · cases h
      · cases h
  unfold fits cMax at hx
  simp at hx
  omega

theorem type_of_head {c : Cfg} {prec : Int} {r : Rel} (ht : Rel.TextRel c prec r) {q : Int → Prop} (h : ∃ p rest, r = p :: rest ∧ q p.type) : ∀ p ∈ r, q p.type := by
  obtain ⟨p, rest, rfl, hq⟩ := h
  intro x hx
  rw [ht.uniform x hx p (by simp)]
  exact hq

/-- C61: a statement which is read is well formed, whatever the file. -/
theorem statement_pread_wellformed {c : Cfg} (hv : c.Valid) {L : Lib D} {registry : Ifaces} {p : Int} (hp : kind c p ≠ none) {file rest : Str} {s : Stmt D}
    (h : pread c L registry p file = .ok (s, rest)) : ReadStmt c L registry p s := by
  unfold pread at h
  obtain ⟨⟨l, f1⟩, h1, h⟩ := Out.bind_eq_ok.mp h
  obtain ⟨⟨d, sc, a⟩, h2, h⟩ := Out.bind_eq_ok.mp h
  obtain ⟨⟨n, f2⟩, h3, h⟩ := Out.bind_eq_ok.mp h
  obtain ⟨⟨e, f3⟩, h4, h⟩ := Out.bind_eq_ok.mp h
  cases h
  obtain ⟨g1, g2⟩ := RList.list_pread_wellformed hv hp h1
  have g2' : ∀ r ∈ l, r = [] ∨ Rel.TextRel c p r := by
    rcases g2 with rfl | g2
    · intro r hr; exact .inl (List.mem_singleton.mp hr)
    · exact fun r hr => .inr (g2 r hr)
  have hval : RList.Valid c l := by
    intro r hr
    rcases g2' r hr with rfl | h
    · exact fun q hq => by cases hq
    · exact h.valid
  have mem : ∀ {t : Int} {r : Rel}, r ∈ l → RList.HasType t r → Rel.TextRel c p r := by
    intro t r hr ht
    rcases g2' r hr with rfl | h
    · obtain ⟨_, _, e, _⟩ := ht; cases e
    · exact h
  rcases statement_dispatch_correct hval with ⟨e1, _⟩ | ⟨d', s', al, e1, _, _, _, i1, i2, i3, i4, _⟩
  · rw [e1] at h2; cases h2
  · rw [e1] at h2; cases h2
    obtain ⟨j1, j2⟩ := readExts_read (acc := []) ⟨by simp, fun _ => ⟨by simp, by simp⟩⟩ h4
    have hn := fread_int_fits h3
    refine ⟨?_, ?_, ?_, ?_, ?_, j1⟩
    · rcases i1 with ⟨e, _⟩ | ⟨m, t⟩
      · exact .inl e
      · refine .inr ⟨mem m t, type_of_head (mem m t) (q := fun t => t = TYPE_DOMAIN) ?_⟩
        obtain ⟨q, r, e, ht⟩ := t
        exact ⟨q, r, e, by simpa [Rel.TypeMatches, TYPE_DOMAIN, TYPE_ACCESS] using ht⟩
    · rcases i2 with ⟨e, _⟩ | ⟨m, t⟩
      · exact .inl e
      · refine .inr ⟨mem m t, type_of_head (mem m t) (q := fun t => t = TYPE_SCATTERING) ?_⟩
        obtain ⟨q, r, e, ht⟩ := t
        exact ⟨q, r, e, by simpa [Rel.TypeMatches, TYPE_SCATTERING, TYPE_ACCESS] using ht⟩
    · intro r hr
      have m := i3.subset hr
      have t := i4 r hr
      refine ⟨mem m t, type_of_head (mem m t) (q := fun t => t = TYPE_READ ∨ t = TYPE_WRITE ∨ t = TYPE_MAY_WRITE) ?_⟩
      obtain ⟨q, r', e, ht⟩ := t
      refine ⟨q, r', e, ?_⟩
      have hk := (mem m ⟨q, r', e, ht⟩).known q (by rw [e]; simp)
      revert ht hk
      simp only [Rel.TypeMatches, Rel.KnownType, UNDEFINED, TYPE_CONTEXT, TYPE_DOMAIN, TYPE_SCATTERING, TYPE_ACCESS, TYPE_READ, TYPE_WRITE, TYPE_MAY_WRITE, if_true]
      omega
    · have := i3.length_le; dsimp only; omega
    · dsimp only; simp at j2; omega

end Stmts

namespace Scops

variable {D : Type}

/-- A scop as the reader makes them (specification). -/
structure ReadScop (c : Cfg) (L : TextLib D) (registry : Ifaces) (prec : Int) (s : Scop D) : Prop where
  version : s.version = 1
  language : ∃ w, s.language = some w ∧ Strings.Word w
  context : Rel.TextRel c prec s.context
  parameters : s.parameters = [] ∨ ∃ g, s.parameters = [g] ∧ GList.FromRegistry L.toEnv registry g
  nbStatements : (s.statement.length : Int) < 2 ^ 31
  statement : ∀ st ∈ s.statement, Stmts.ReadStmt c L.toLib registry prec st
  sameRegistry : s.registry = registry
  extension : GList.ReadList L.toEnv registry s.extension

theorem readStmts_read {c : Cfg} (hv : c.Valid) {L : Lib D} {registry : Ifaces} {p : Int} (hp : kind c p ≠ none) : ∀ {n : Nat} {file rest : Str} {ss : Stmts D},
    readStmts c L registry p n file = .ok (ss, rest) → ss.length = n ∧ ∀ st ∈ ss, Stmts.ReadStmt c L registry p st
  | 0, _, _, _, h => by cases h; simp
  | n + 1, file, rest, ss, h => by
    simp only [readStmts] at h
    obtain ⟨⟨st, f⟩, h1, h⟩ := Out.bind_eq_ok.mp h
    obtain ⟨⟨ss', f'⟩, h2, h⟩ := Out.bind_eq_ok.mp h
    cases h
    obtain ⟨i1, i2⟩ := readStmts_read hv hp h2
    refine ⟨by simp [i1], ?_⟩
    intro x hx
    rcases List.mem_cons.mp hx with rfl | hx
    · exact Stmts.statement_pread_wellformed hv hp h1
    · exact i2 x hx

theorem readLanguage_word {file rest w : Str} (h : readLanguage file = .ok (w, rest)) : Strings.Word w := by
  unfold readLanguage at h
  obtain ⟨⟨l, f⟩, h1, h⟩ := Out.bind_eq_ok.mp h
  cases l with
  | none => cases h
  | some l =>
    simp only at h
    split at h
    · cases h
    · next w' ws hw =>
      cases h
      unfold Strings.read at h1
      split at h1
      · cases h1
      · next line r hsk =>
        split at h1
        · next hs =>
          cases h1
          have hws := (Strings.sread_words hs).2 w (by rw [hw]; simp)
          refine ⟨?_, hws.1, hws.2⟩
          rcases Util.fskip_starts hsk with rfl | ⟨ch, t, rfl, g1, g2⟩
          · cases hs
          · intro e
            subst e
            unfold Strings.sread at hs
            have : Util.sskip (ch :: t) = ch :: t := by simp [Util.sskip, Util.skip, g1, g2]
            rw [this] at hs
            simp only at hs
            split at hs
            · next hnb =>
              obtain ⟨k, hk⟩ : ∃ k, Strings.countLoop ((ch :: t).length + 1) (ch :: t) 0 = k + 1 := ⟨_, (Nat.succ_pred_eq_of_pos hnb).symm⟩
              rw [hk] at hs
              have htk : (ch :: t).takeWhile Strings.tokChar ≠ [] := by simp [Strings.tokChar, g1, g2]
              split at hs
              · next ws' pos' hr =>
                cases hs
                have hw : ws' = [] :: ws := hw
                subst hw
                simp only [Strings.readLoop] at hr
                split at hr
                · cases hr
                · split at hr
                  · split at hr
                    · injection hr with hr; injection hr with hr; injection hr with hr; exact htk hr
                    · cases hr
                  · split at hr
                    · injection hr with hr; injection hr with hr; injection hr with hr; exact htk hr
                    · cases hr
                    · cases hr
              · cases hs
              · cases hs
            · cases hs
        · cases h1
        · cases h1

theorem readOne_read {c : Cfg} (hv : c.Valid) {L : TextLib D} {registry : Ifaces} (hreg : Ifaces.Unique registry) {p : Int} (hp : kind c p ≠ none) {file rest : Str} {s : Scop D}
    (h : readOne c L registry p file = .ok (s, rest)) : ReadScop c L registry p s := by
  unfold readOne at h
  rw [(Ifaces.interface_clone_correct hreg).1] at h
  simp only [Out.ok_bind] at h
  obtain ⟨⟨lang, f1⟩, h1, h⟩ := Out.bind_eq_ok.mp h
  obtain ⟨⟨ctx, f2⟩, h2, h⟩ := Out.bind_eq_ok.mp h
  obtain ⟨⟨np, f3⟩, h3, h⟩ := Out.bind_eq_ok.mp h
  obtain ⟨⟨par, f4⟩, h4, h⟩ := Out.bind_eq_ok.mp h
  obtain ⟨⟨ns, f5⟩, h5, h⟩ := Out.bind_eq_ok.mp h
  obtain ⟨⟨st, f6⟩, h6, h⟩ := Out.bind_eq_ok.mp h
  obtain ⟨⟨ext, f7⟩, h7, h⟩ := Out.bind_eq_ok.mp h
  cases h
  obtain ⟨i1, i2⟩ := readStmts_read hv hp h6
  have hns := Stmts.fread_int_fits h5
  refine ⟨rfl, ⟨lang, rfl, readLanguage_word h1⟩, Rel.relation_pread_wellformed hv hp h2, ?_, ?_, i2, rfl, GList.generic_read_wellformed h7⟩
  · unfold readParameters at h4
    split at h4
    · exact GList.fread_one_from h4
    · cases h4; exact .inl rfl
  · dsimp only; rw [i1]; omega

theorem readLoop_read {c : Cfg} (hv : c.Valid) {L : TextLib D} {registry : Ifaces} (hreg : Ifaces.Unique registry) {p : Int} (hp : kind c p ≠ none) : ∀ {n : Nat} {file : Str}
    {ss : Scops D}, readLoop c L registry p n file = .ok ss → ∀ s ∈ ss, ReadScop c L registry p s
  | 0, _, _, h => by cases h
  | n + 1, file, ss, h => by
    simp only [readLoop] at h
    obtain ⟨⟨tmp, f⟩, g1, h⟩ := Out.bind_eq_ok.mp h
    cases tmp with
    | none => cases h; simp
    | some _ =>
      simp only at h
      obtain ⟨⟨s, f'⟩, g2, h⟩ := Out.bind_eq_ok.mp h
      obtain ⟨ss', g3, h⟩ := Out.bind_eq_ok.mp h
      cases h
      intro x hx
      rcases List.mem_cons.mp hx with rfl | hx
      · exact readOne_read hv hreg hp g2
      · exact readLoop_read hv hreg hp g3 x hx

/-- C61: the scops which are read are well formed, whatever the file. -/
theorem scop_pread_wellformed {c : Cfg} (hv : c.Valid) {L : TextLib D} {registry : Ifaces} (hreg : Ifaces.Unique registry) {p : Int} (hp : kind c p ≠ none) {file : Str}
    {ss : Scops D} (h : pread c L registry p file = .ok ss) : (∀ s ∈ ss, ReadScop c L registry p s) ∧ ∃ b, integrity_check c L.toLib ss = .ok b := by
  unfold pread at h
  obtain ⟨l, h1, h⟩ := Out.bind_eq_ok.mp h
  obtain ⟨b, h2, h⟩ := Out.bind_eq_ok.mp h
  cases h
  exact ⟨readLoop_read hv hreg hp h1, b, h2⟩

/-- Every URI of the registry fits in the buffer of its tags. -/
def ShortURIs (registry : Ifaces) : Prop := ∀ i ∈ registry, ∀ u, i.URI = some u → u.length + 4 < MAX_STRING

/-- The text of an extension is stable: it is printed without the end tag of the extension, and reading the text, after `pre`, gives the same data. -/
def StableText (E : Env D) (pre : Str) (g : Generic D) : Prop :=
  ∀ i, g.interface = some i → ∃ t d, g.data = some d ∧ E.sprint i.fns.sprint g.data = .ok (some t) ∧ E.sread i.fns.sread (some (pre ++ t)) = .ok (some d) ∧
    ∀ u, i.URI = some u → ¬ Util.endTag u <:+: t

/-- The extensions of a scop are stable: the reading of each extension gives back what it prints; the parameters are named by strings; the names used
by the printer do not hold an end of line, and the extensions do not hold the end tag of a scop. -/
structure StableScop (L : TextLib D) (s : Scop D) : Prop where
  parameters : ∀ g ∈ s.parameters, GList.uri g = some URI_STRINGS ∧ StableText L.toEnv [] g
  paramNames : ∀ p, paramNames L s.parameters = .ok p → Rel.StringsNoNL p
  accesses : ∀ st ∈ s.statement, (st.access.length : Int) < 2 ^ 31 - 2
  statement : ∀ st ∈ s.statement, ∀ g ∈ st.extension, StableText L.toEnv [] g
  iterators : ∀ st ∈ s.statement, ∀ b, Stmts.lookupBody L.toLib st.extension = .ok (some b) → Rel.StringsNoNL b.iterators
  extension : ∀ g ∈ s.extension, StableText L.toEnv ['\n'] g
  noEnd : ∀ t, GList.sprint L.toEnv s.extension = .ok t → ¬ Util.endTag URI_SCOP <:+: t
  arrays : ∀ d a, GList.lookup s.extension URI_ARRAYS = some d → L.arraysNames d = .ok a → Rel.StringsNoNL a

theorem stable_ftextable {L : Lib D} {registry : Ifaces} (hsh : ShortURIs registry) {g : Generic D} (h : GList.FromRegistry L.toEnv registry g) (hs : StableText L.toEnv [] g) :
    GList.FTextable L.exact.toEnv registry g := by
  obtain ⟨i, u, _, h1, h2, h3, h4, _⟩ := h
  obtain ⟨t, d, g1, g2, g3, g4⟩ := hs i h1
  refine ⟨i, u, t, d, h1, h2, h3, hsh i (Ifaces.lookup_some h4).1 u h2, h4, g2, g4 u h2, g3, ?_⟩
  simp only [Lib.exact]
  rw [@decide_eq_true _ (Classical.propDecidable _) g1]

theorem stable_textable {L : Lib D} {registry : Ifaces} (hsh : ShortURIs registry) {g : Generic D} (h : GList.FromRegistry L.toEnv registry g) (hs : StableText L.toEnv ['\n'] g) :
    GList.Textable L.exact.toEnv registry g := by
  obtain ⟨i, u, _, h1, h2, h3, h4, _⟩ := h
  obtain ⟨t, d, g1, g2, g3, g4⟩ := hs i h1
  refine ⟨i, u, t, d, h1, h2, h3, hsh i (Ifaces.lookup_some h4).1 u h2, h4, g2, g4 u h2, g3, ?_⟩
  simp only [Lib.exact]
  rw [@decide_eq_true _ (Classical.propDecidable _) g1]

theorem stable_unique {E : Env D} {registry : Ifaces} {pre : Str} {l : GList D} (h : GList.ReadList E registry l) (hs : ∀ g ∈ l, StableText E pre g) : GList.Unique l := by
  refine h.2 fun g hg => ?_
  obtain ⟨i, _, _, h1, _⟩ := h.1 g hg
  obtain ⟨_, d, e, _⟩ := hs g hg i h1
  rw [e]; simp

theorem stable_textScop {c : Cfg} {L : TextLib D} {registry : Ifaces} (hsh : ShortURIs registry) {p : Int} {s : Scop D} (h : ReadScop c L registry p s) (hs : StableScop L s) :
    TextScop c L registry p s where
  version := h.version
  language := h.language
  context := h.context
  parameters := by
    rcases h.parameters with e | ⟨g, e, hg⟩
    · exact .inl e
    · have := hs.parameters g (by rw [e]; simp)
      exact .inr ⟨g, e, this.1, stable_ftextable hsh hg this.2⟩
  paramNames := hs.paramNames
  nbStatements := h.nbStatements
  statement := fun st hst => {
    domain := (h.statement st hst).domain
    scattering := (h.statement st hst).scattering
    access := (h.statement st hst).access
    accesses := hs.accesses st hst
    unique := stable_unique (h.statement st hst).extension (hs.statement st hst)
    extensions := (h.statement st hst).extensions
    extension := fun g hg => stable_ftextable hsh ((h.statement st hst).extension.1 g hg) (hs.statement st hst g hg)
    iterators := hs.iterators st hst }
  sameRegistry := h.sameRegistry
  unique := stable_unique h.extension hs.extension
  extension := fun g hg => stable_textable hsh (h.extension.1 g hg) (hs.extension g hg)
  noEnd := hs.noEnd
  arrays := hs.arrays

theorem exact_eq {L : Lib D} {i : Nat} {a b : Option D} (h : L.exact.toEnv.equal i a b = .ok true) : a = b := by
  simp only [Lib.exact] at h
  injection h with h
  exact @of_decide_eq_true _ (Classical.propDecidable _) h

/-- The scops which the round trip gives back are stable. -/
theorem textScop_stable {c : Cfg} {L : TextLib D} {registry : Ifaces} {p : Int} {s : Scop D} (h : TextScop c L registry p s) : StableScop L s where
  parameters := by
    intro g hg
    rcases h.parameters with e | ⟨g', e, hu, i, u, t, d, a1, a2, a3, a4, a5, a6, a7, a8, a9⟩
    · rw [e] at hg; cases hg
    · rw [e] at hg
      have := List.mem_singleton.mp hg
      subst this
      refine ⟨hu, fun i' hi => ?_⟩
      rw [a1] at hi; cases hi
      exact ⟨t, d, exact_eq a9, a6, a8, fun u' hu' => by rw [a2] at hu'; cases hu'; exact a7⟩
  paramNames := h.paramNames
  accesses := fun st hst => (h.statement st hst).accesses
  statement := by
    intro st hst g hg i' hi
    obtain ⟨i, u, t, d, a1, a2, a3, a4, a5, a6, a7, a8, a9⟩ := (h.statement st hst).extension g hg
    rw [a1] at hi; cases hi
    exact ⟨t, d, exact_eq a9, a6, a8, fun u' hu' => by rw [a2] at hu'; cases hu'; exact a7⟩
  iterators := fun st hst => (h.statement st hst).iterators
  extension := by
    intro g hg i' hi
    obtain ⟨i, u, t, d, a1, a2, a3, a4, a5, a6, a7, a8, a9⟩ := h.extension g hg
    rw [a1] at hi; cases hi
    exact ⟨t, d, exact_eq a9, a6, a8, fun u' hu' => by rw [a2] at hu'; cases hu'; exact a7⟩
  noEnd := h.noEnd
  arrays := h.arrays

/-- C61: reading is stable: whatever the file some scops were read from, when the texts of their extensions are stable, printing the scops and reading the text
again gives the same scops. -/
theorem scop_read_print_read {c : Cfg} (hv : c.Valid) {L : TextLib D} {registry : Ifaces} (hreg : Ifaces.Unique registry) (hsh : ShortURIs registry) {p : Int} (hp : kind c p ≠ none)
    {file : Str} {ss : Scops D} (h : pread c L registry p file = .ok ss) (hst : ∀ s ∈ ss, StableScop L s) {release : Str} (hrel : '<' ∉ release) {t : Str}
    (ht : print c L release ss = .ok t) (hs : Rel.ShortLines t) : pread c L registry p t = .ok ss :=
  scop_text_round_trip hreg hrel (fun s hx => stable_textScop hsh ((scop_pread_wellformed hv hreg hp h).1 s hx) (hst s hx)) ht hs

end Scops
end Osl
