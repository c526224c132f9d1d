import Verif.Library
import Verif.ExtSymbolsProps
import Verif.ExtSimpleProps
import Verif.ExtTextProps
import Verif.ExtMiscProps
import Verif.ExtArraysProps
import Verif.ExtDepProps
import Verif.ExtLoopProps
import Verif.ScopTextProps
import Verif.InterfaceProps
/-!
# The whole library: text round trip of scops with the default registry (C48)

The extensions of the default registry are no longer abstract: for each kind of data, `Data.Plain` says, in terms of its
contents, when its text is read back identical, and the round trip of whole scops follows without hypothesis on the functions
of the extensions.
-/

namespace Osl

/-- The default registry of the code is `defaultRegistry`. -/
theorem default_registry_eq : Ifaces.get_default_registry = .ok defaultRegistry ∧ Ifaces.Unique defaultRegistry := by
  refine ⟨by decide, ?_⟩
  unfold Ifaces.Unique
  decide

namespace Ext

/-- The text of an extension is read back identical, right after the tag or after the end of line which follows the tag. -/
def Ops.Back {X : Type} (o : Ops X) (x : X) : Prop :=
  ∃ t, o.sprint (some x) = .ok (some t) ∧ ∀ pre : Str, pre = [] ∨ pre = ['\n'] → ∃ rest, o.sread (some (pre ++ t)) = .ok (some x, rest)

theorem Ops.Back.of {X : Type} {o : Ops X} {x : X} {t : Str} (h1 : o.sprint (some x) = .ok (some t))
    (h2 : ∀ pre : Str, (∀ c ∈ pre, isSpace c = true) → ∃ rest, o.sread (some (pre ++ t)) = .ok (some x, rest)) : o.Back x :=
  ⟨t, h1, fun pre hp => h2 pre (by rcases hp with rfl | rfl <;> decide)⟩

end Ext

namespace Rel

theorem psread_pre {c : Cfg} {prec : Int} {pre : Str} (hp : Util.Skips pre) (s : Str) : psread c prec (pre ++ s) = psread c prec s := by
  unfold psread read_type Strings.sread
  rw [hp]

end Rel

namespace Strings

theorem sread_pre {pre : Str} (hp : Util.Skips pre) (s : Str) : sread (pre ++ s) = sread s := by
  unfold sread
  rw [hp]

theorem Word.noNL {w : Str} (h : Word w) : NoNL w := by
  intro hc
  have := (h.2.2 _ hc).1
  exact absurd this (by decide)

end Strings

namespace Ext.Arrays

theorem fillLoop_mem : ∀ (l : List (Int × Str)) (ss r : List Str), fillLoop ss l = .ok r → ∀ w ∈ r, w ∈ ss ∨ ∃ p ∈ l, w = Util.strdup p.2
  | [], ss, r, h, w, hw => by
    simp only [fillLoop] at h; injection h with h; subst h; exact .inl hw
  | p :: l, ss, r, h, w, hw => by
    simp only [fillLoop] at h
    split at h
    · rcases fillLoop_mem l _ r h w hw with h1 | ⟨q, hq, e⟩
      · rcases List.mem_or_eq_of_mem_set h1 with h2 | h2
        · exact .inl h2
        · exact .inr ⟨p, by simp, h2⟩
      · exact .inr ⟨q, by simp [hq], e⟩
    · cases h

/-- The names of arrays have no end of line. -/
theorem to_strings_noNL {a : Arrays} (h : ∀ p ∈ a.pairs, NoNL p.2) {s : Option Strings} (hs : to_strings (some a) = .ok s) : Rel.StringsNoNL s := by
  intro x hx w hw
  subst hx
  simp only [to_strings] at hs
  obtain ⟨g, h1, hs⟩ := Out.bind_eq_ok.mp hs
  have key : ∀ w ∈ g.words, NoNL w := Rel.generated_noNL (by decide) h1
  split at hs
  · injection hs with hs; injection hs with hs; subst hs; exact key w hw
  · obtain ⟨l, h2, hs⟩ := Out.bind_eq_ok.mp hs
    injection hs with hs; injection hs with hs; subst hs
    rcases fillLoop_mem _ _ _ h2 w hw with h3 | ⟨p, hp, e⟩
    · exact key w h3
    · rw [e]; exact h p hp

end Ext.Arrays

namespace Data

variable {S : Type}

open Ext (Ops NE)

/-- The number of the interface of some data in the default registry. -/
def index : Data S → Nat
  | .strings _ => 0 | .body _ => 1 | .relation _ => 2 | .textual _ => 3 | .comment _ => 4 | .null _ => 5 | .scatinfos _ => 6
  | .scatnames _ => 7 | .arrays _ => 8 | .coordinates _ => 9 | .clay _ => 10 | .dependence _ => 11 | .symbols _ => 12
  | .extbody _ => 13 | .loop _ => 14 | .unroll _ => 15 | .region _ => 16 | .annotation _ => 17

/-- The body of one expression `ex` and iterators `its`, in the form the reader builds. -/
def oneBody (its : List Str) (ex : Str) : Body := { iterators := some { string := some its }, expression := some { string := some [ex] } }

/-- The data whose text is read back identical (specification): words without blanks, lines without `#`, numbers in the range of
C `int`, texts which fit the buffers.  Excluded: `textual`, which has no text, `comment`, to which the reader adds an end of line,
and, for `body`, several expressions. -/
def Plain (c : Cfg) (e : Option Str) (symbols : S → Prop) : Data S → Prop
  | .strings x => ∃ ws, x = { string := some ws } ∧ ws ≠ [] ∧ ∀ w ∈ ws, Strings.Word w
  | .body b => ∃ its ex, b = oneBody its ex ∧ Body.Textable b its ex
  | .relation r => (∀ q ∈ NE.elems (some r), Rel.Readable c (Util.get_precision c e) q) ∧ (r.tail.length : Int) < 2 ^ 31 - 1 ∧
      Rel.KnownType r.head.type ∧ (∀ q ∈ r.tail, q.type = UNDEFINED) ∧ ∃ t, Rel.sprint c (NE.elems (some r)) = .ok t
  | .textual _ => False
  | .comment _ => False
  | .null _ => True
  | .scatinfos s => s.Sized ∧ (∀ i ∈ s.parallel, fits 32 i) ∧ (∀ i ∈ s.permutable, fits 32 i) ∧ (∀ i ∈ s.type, fits 32 i) ∧
      (s.parallel.length : Int) < 2 ^ 31
  | .scatnames n => ∃ ws, n.names = some { string := some ws } ∧ ws ≠ [] ∧ ∀ w ∈ ws, Strings.Word w
  | .arrays a => a.Textable
  | .coordinates x => ∃ name, x.Textable name
  | .clay x => ∃ s, x.script = some s ∧ 1 + s.length < MAX_STRING ∧ ∀ c, s.head? = some c → c ≠ '\n'
  | .dependence a => (∀ d ∈ NE.elems (some a), Ext.Dep.Textable c (Util.get_precision c e) d) ∧ ((NE.elems (some a)).length : Int) < 2 ^ 31 - 1
  | .symbols s => symbols s
  | .extbody x => ∃ its ex, x.body = some (oneBody its ex) ∧ Body.Textable (oneBody its ex) its ex ∧ (∀ p ∈ x.access, fits 32 p.1 ∧ fits 32 p.2) ∧
      (x.access.length : Int) < 2 ^ 31
  | .loop l => (∀ a ∈ NE.elems (some l), a.Textable) ∧ ((NE.elems (some l)).length : Int) < 2 ^ 31
  | .unroll l => ∃ u : List (Ext.Unroll × Str), NE.elems (some l) = u.map Prod.fst ∧ (∀ p ∈ u, Ext.Unroll.Textable p.1 p.2) ∧
      (Ext.Unroll.text u).length < MAX_STRING
  | .region l => (∀ r ∈ NE.elems (some l), r.Textable) ∧ ((NE.elems (some l)).length : Int) < 2 ^ 31
  | .annotation a => Ext.Lines.Textable a.pre ∧ Ext.Lines.Textable a.suf

theorem Back.lift {X : Type} {k : Kind S X} {o : Ops X} {x : X} (h : o.Back x) : (lift k o).Back (k.inj x) := by
  obtain ⟨t, h1, h2⟩ := h
  refine ⟨t, by simp only [Data.lift, k.proj_inj, h1], fun pre hp => ?_⟩
  obtain ⟨rest, e⟩ := h2 pre hp
  exact ⟨rest, by simp only [Data.lift, e, Out.ok_bind]; rfl⟩

theorem body_back {its : List Str} {ex : Str} (h : Body.Textable (oneBody its ex) its ex) : bodyOps.Back (oneBody its ex) := by
  refine .of (t := Body.text its ex) ?_ fun pre hp => ?_
  · simp only [bodyOps, Body.sprint_text h, Out.ok_bind]
  · have := Body.sread_text_exact h.words h.nb h.line h.starts h.nonempty h.short (pre := pre) (Util.Skips.blanks hp) []
    rw [List.append_nil] at this
    exact ⟨some ("\n".toList ++ []), by simp only [bodyOps, this, Out.ok_bind]; rfl⟩

theorem strings_back {ws : List Str} (hne : ws ≠ []) (hw : ∀ w ∈ ws, Strings.Word w) : stringsOps.Back { string := some ws } := by
  refine .of (t := Strings.line ws ++ ['\n']) ?_ fun pre hp => ?_
  · simp only [stringsOps, Strings.sprint_eq (s := { string := some ws }) (fun w h => (hw w h).2.1), Out.ok_bind]; rfl
  · exact ⟨_, (Strings.sread_pre (Util.Skips.blanks hp) _).trans (Strings.sread_line hne hw [])⟩

theorem scatnames_back {ws : List Str} (hne : ws ≠ []) (hw : ∀ w ∈ ws, Strings.Word w) : Ext.Scatnames.ops.Back { names := some { string := some ws } } := by
  refine .of (t := Strings.line ws ++ ['\n']) ?_ fun pre hp => ⟨some [], ?_⟩
  · rw [show Ext.Scatnames.ops.sprint = Ext.Scatnames.sprint from rfl]
    simp only [Ext.Scatnames.sprint, Strings.sprint_eq (s := { string := some ws }) (fun w h => (hw w h).2.1), Out.ok_bind]; rfl
  · rw [show Ext.Scatnames.ops.sread = Ext.Scatnames.sread from rfl]
    have := (Strings.sread_pre (Util.Skips.blanks hp) _).trans (Strings.sread_line hne hw [])
    simp only [Ext.Scatnames.sread, this, Out.ok_bind]; rfl

theorem relation_back {c : Cfg} {e : Option Str} {r : NE Part} (h1 : ∀ q ∈ NE.elems (some r), Rel.Readable c (Util.get_precision c e) q)
    (h2 : (r.tail.length : Int) < 2 ^ 31 - 1) (h3 : Rel.KnownType r.head.type) (h4 : ∀ q ∈ r.tail, q.type = UNDEFINED)
    {t : Str} (ht : Rel.sprint c (NE.elems (some r)) = .ok t) : (relationOps c e).Back r := by
  refine .of (t := t) (by simp only [relationOps, ht, Out.ok_bind]) fun pre hp => ?_
  obtain ⟨pos, e1, _⟩ := Rel.relation_sread_sprint h1 h2 h3 (names := none) (by simp) ht []
  rw [List.append_nil] at e1
  refine ⟨some pos, ?_⟩
  simp only [relationOps, Rel.psread_pre (Util.Skips.blanks hp), e1, Out.ok_bind]
  have : ∀ q ∈ r.tail, (fun q : Part => { q with type := UNDEFINED }) q = q := by
    intro q hq; simp only; rw [← h4 q hq]
  rw [List.map_congr_left this, List.map_id']
  rfl

theorem coordinates_back {x : Ext.Coordinates} {name : Str} (h : x.Textable name) : Ext.Coordinates.ops.Back x := by
  refine .of (Ext.coordinates_sprint_text h) fun pre hp => ?_
  have := Ext.coordinates_sread_text h (Util.Skips.blanks hp) []
  rw [List.append_nil] at this
  exact ⟨_, this⟩

theorem clay_back {s : Str} (h : 1 + s.length < MAX_STRING) (hs : ∀ c, s.head? = some c → c ≠ '\n') : Ext.Clay.ops.Back ⟨some s⟩ := by
  refine ⟨s, (Ext.clay_text_round_trip (n := 1) h hs).1, fun pre hp => ?_⟩
  rcases hp with rfl | rfl
  · exact (Ext.clay_text_round_trip (n := 0) (by omega) hs).2
  · exact (Ext.clay_text_round_trip (n := 1) h hs).2

theorem annotation_back {a : Ext.Annotation} (h1 : Ext.Lines.Textable a.pre) (h2 : Ext.Lines.Textable a.suf) : Ext.Annotation.ops.Back a := by
  refine .of (Ext.annotation_sprint_text h1 h2) fun pre hp => ?_
  obtain ⟨tail, _, e⟩ := Ext.annotation_sread_text h1 h2 (Util.Skips.blanks hp)
  have e := e []
  rw [List.append_nil] at e
  exact ⟨_, e⟩

theorem region_back {l : NE Ext.Region} (h : ∀ r ∈ NE.elems (some l), r.Textable) (hn : ((NE.elems (some l)).length : Int) < 2 ^ 31) :
    Ext.Region.ops.Back l := by
  refine .of (Ext.region_text_round_trip (by simp [NE.elems]) hn h (pre := []) (by simp)).1 fun pre hp => ?_
  obtain ⟨rest, e⟩ := (Ext.region_text_round_trip (by simp [NE.elems]) hn h hp).2
  exact ⟨rest, by simp only [Ext.Region.ops, e, Out.ok_bind, NE.ofList_elems]⟩

theorem unroll_back {l : NE Ext.Unroll} {u : List (Ext.Unroll × Str)} (h1 : NE.elems (some l) = u.map Prod.fst)
    (h2 : ∀ p ∈ u, Ext.Unroll.Textable p.1 p.2) (h3 : (Ext.Unroll.text u).length < MAX_STRING) : Ext.Unroll.ops.Back l := by
  refine .of (t := Ext.Unroll.text u) ?_ fun pre hp => ?_
  · simp only [Ext.Unroll.ops, h1]
    exact (Ext.unroll_text_round_trip u h2 h3 (pre := []) (by simp)).1
  · obtain ⟨rest, e⟩ := (Ext.unroll_text_round_trip u h2 h3 hp).2
    exact ⟨rest, by simp only [Ext.Unroll.ops, e, Out.ok_bind, ← h1, NE.ofList_elems]⟩

theorem extbody_back {x : Ext.Extbody} {its : List Str} {ex : Str} (hb : x.body = some (oneBody its ex)) (h : Body.Textable (oneBody its ex) its ex)
    (h1 : ∀ p ∈ x.access, fits 32 p.1 ∧ fits 32 p.2) (h2 : (x.access.length : Int) < 2 ^ 31) : Ext.Extbody.ops.Back x := by
  obtain ⟨e1, e2⟩ := Ext.extbody_text_exact hb h h1 h2
  refine .of e1 fun pre hp => ?_
  obtain ⟨rest, e3⟩ := e2 pre hp
  refine ⟨rest, e3.trans ?_⟩
  obtain ⟨b, acc⟩ := x
  simp only at hb
  subst hb
  rfl

/-- C48: for each kind of extension, the reader of the default registry inverts the printer, exactly. -/
theorem plain_back {c : Cfg} {e : Option Str} {sym : Ops S} {PS : S → Prop} (hS : ∀ s, PS s → sym.Back s) {d : Data S} (h : Plain c e PS d) :
    ∃ o, (table c e sym)[d.index]? = some o ∧ o.Back d := by
  cases d with
  | strings x =>
    obtain ⟨ws, rfl, h1, h2⟩ := h
    exact ⟨_, rfl, Back.lift (k := kStrings) (strings_back h1 h2)⟩
  | body b =>
    obtain ⟨its, ex, rfl, h1⟩ := h
    exact ⟨_, rfl, Back.lift (k := kBody) (body_back h1)⟩
  | relation r =>
    obtain ⟨h1, h2, h3, h4, t, ht⟩ := h
    exact ⟨_, rfl, Back.lift (k := kRelation) (relation_back h1 h2 h3 h4 ht)⟩
  | textual x => exact absurd h id
  | comment x => exact absurd h id
  | null x => exact ⟨_, rfl, Back.lift (k := kNull) ⟨[], rfl, fun pre _ => ⟨some (pre ++ []), rfl⟩⟩⟩
  | scatinfos s =>
    obtain ⟨h1, h2, h3, h4, h5⟩ := h
    obtain ⟨e1, e2⟩ := Ext.Scatinfos.scatinfos_text_exact h1 h2 h3 h4 h5
    exact ⟨_, rfl, Back.lift (k := kScatinfos) (.of e1 e2)⟩
  | scatnames n =>
    obtain ⟨ws, h0, h1, h2⟩ := h
    obtain ⟨n⟩ := n
    simp only at h0
    subst h0
    exact ⟨_, rfl, Back.lift (k := kScatnames) (scatnames_back h1 h2)⟩
  | arrays a => exact ⟨_, rfl, Back.lift (k := kArrays) (.of (Ext.Arrays.sprint_text h) (Ext.Arrays.arrays_text_round_trip h).2)⟩
  | coordinates x => obtain ⟨name, h⟩ := h; exact ⟨_, rfl, Back.lift (k := kCoordinates) (coordinates_back h)⟩
  | clay x =>
    obtain ⟨s, h0, h1, h2⟩ := h
    obtain ⟨x⟩ := x
    simp only at h0
    subst h0
    exact ⟨_, rfl, Back.lift (k := kClay) (clay_back h1 h2)⟩
  | dependence a =>
    obtain ⟨t, e1, e2⟩ := Ext.Dep.dependence_text_exact c e h.1 h.2
    exact ⟨_, rfl, Back.lift (k := kDependence) (.of e1 e2)⟩
  | symbols s => exact ⟨_, rfl, Back.lift (k := kSymbols) (hS s h)⟩
  | extbody x =>
    obtain ⟨its, ex, h1, h2, h3, h4⟩ := h
    exact ⟨_, rfl, Back.lift (k := kExtbody) (extbody_back h1 h2 h3 h4)⟩
  | loop l =>
    obtain ⟨t, e1, e2⟩ := Ext.Loop.loop_text_round_trip h.1 h.2
    exact ⟨_, rfl, Back.lift (k := kLoop) (.of e1 e2)⟩
  | unroll l => obtain ⟨u, h1, h2, h3⟩ := h; exact ⟨_, rfl, Back.lift (k := kUnroll) (unroll_back h1 h2 h3)⟩
  | region l => exact ⟨_, rfl, Back.lift (k := kRegion) (region_back h.1 h.2)⟩
  | annotation a => exact ⟨_, rfl, Back.lift (k := kAnnotation) (annotation_back h.1 h.2)⟩

/-- The URI of the interface of some data. -/
def uriOf (d : Data S) : Str := ((Ifaces.defaultURIs[d.index]?).map String.toList).getD []

/-- Some data as an extension of the default registry. -/
def ext (d : Data S) : Generic (Data S) := { interface := defaultRegistry[d.index]?, data := some d }

theorem index_lt (d : Data S) : d.index < 18 := by cases d <;> simp [index]

theorem registry_at : ∀ k < 18, ∃ u, Ifaces.defaultURIs[k]?.map String.toList = some u ∧ defaultRegistry[k]? = some { URI := some u, fns := Ifaces.fnsOf k } ∧
    Util.TagName u ∧ u.length + 4 < MAX_STRING ∧ Ifaces.lookup defaultRegistry (some u) = some { URI := some u, fns := Ifaces.fnsOf k } := by
  intro k hk
  have : k = 0 ∨ k = 1 ∨ k = 2 ∨ k = 3 ∨ k = 4 ∨ k = 5 ∨ k = 6 ∨ k = 7 ∨ k = 8 ∨ k = 9 ∨ k = 10 ∨ k = 11 ∨ k = 12 ∨ k = 13 ∨ k = 14 ∨ k = 15 ∨ k = 16 ∨ k = 17 := by omega
  rcases this with rfl | rfl | rfl | rfl | rfl | rfl | rfl | rfl | rfl | rfl | rfl | rfl | rfl | rfl | rfl | rfl | rfl | rfl <;>
    exact ⟨_, rfl, rfl, by decide, by decide, by decide⟩

theorem ext_uri (d : Data S) : GList.uri (ext d) = some (uriOf d) := by
  obtain ⟨u, h1, h2, _⟩ := registry_at d.index d.index_lt
  simp only [GList.uri, ext, uriOf, h1, h2]
  rfl

/-- The text of some data does not contain the end tag of its extension. -/
def NoTag (c : Cfg) (e : Option Str) (sym : Ops S) (d : Data S) : Prop :=
  ∀ t, (env c e sym).sprint d.index (some d) = .ok (some t) → ¬ Util.endTag (uriOf d) <:+: t

/-- The data whose text is read back identical from a file: comments too. -/
def PlainFile (c : Cfg) (e : Option Str) (symbols : S → Prop) (d : Data S) : Prop :=
  Plain c e symbols d ∨ ∃ s, d = .comment ⟨some s⟩ ∧ s.length < MAX_STRING

theorem ext_textable {c : Cfg} {e : Option Str} {sym : Ops S} {PS : S → Prop} (hS : ∀ s, PS s → sym.Back s) {d : Data S} (h : Plain c e PS d)
    (hn : NoTag c e sym d) : GList.Textable (lib c e sym).toLib.exact.toEnv defaultRegistry (ext d) := by
  obtain ⟨o, h1, t, h2, h3⟩ := plain_back hS h
  obtain ⟨u, a1, a2, a3, a4, a5⟩ := registry_at d.index d.index_lt
  have hp : (env c e sym).sprint d.index (some d) = .ok (some t) := by simp only [env, h1, h2]
  obtain ⟨rest, h4⟩ := h3 ['\n'] (.inr rfl)
  have hr : (env c e sym).sread d.index (some ('\n' :: t)) = .ok (some d) := by
    simp only [env, h1]
    rw [show o.sread (some ('\n' :: t)) = .ok (some d, rest) from h4]
    rfl
  have hu : uriOf d = u := by simp only [uriOf, a1]; rfl
  refine ⟨{ URI := some u, fns := Ifaces.fnsOf d.index }, u, t, d, a2, rfl, a3, a4, a5, hp, hu ▸ hn t hp, hr, ?_⟩
  simp [Lib.exact, ext]

theorem ext_ftextable {c : Cfg} {e : Option Str} {sym : Ops S} {PS : S → Prop} (hS : ∀ s, PS s → sym.Back s) {d : Data S} (h : PlainFile c e PS d)
    (hn : NoTag c e sym d) : GList.FTextable (lib c e sym).toLib.exact.toEnv defaultRegistry (ext d) := by
  have key : ∃ o t rest, (table c e sym)[d.index]? = some o ∧ o.sprint (some d) = .ok (some t) ∧ o.sread (some t) = .ok (some d, rest) := by
    rcases h with h | ⟨s, rfl, h⟩
    · obtain ⟨o, h1, t, h2, h3⟩ := plain_back hS h
      obtain ⟨rest, h4⟩ := h3 [] (.inl rfl)
      exact ⟨o, t, rest, h1, h2, h4⟩
    · obtain ⟨h1, h2, _⟩ := Ext.comment_text_round_trip (s := s) (pre := []) (by simpa using h)
      refine ⟨_, s, some s, rfl, h1, ?_⟩
      rw [List.nil_append] at h2
      simp only [lift, h2, Out.ok_bind]
      rfl
  obtain ⟨o, t, rest, h1, h2, h3⟩ := key
  obtain ⟨u, a1, a2, a3, a4, a5⟩ := registry_at d.index d.index_lt
  have hp : (env c e sym).sprint d.index (some d) = .ok (some t) := by simp only [env, h1, h2]
  have hr : (env c e sym).sread d.index (some t) = .ok (some d) := by simp only [env, h1, h3]; rfl
  have hu : uriOf d = u := by simp only [uriOf, a1]; rfl
  refine ⟨{ URI := some u, fns := Ifaces.fnsOf d.index }, u, t, d, a2, rfl, a3, a4, a5, hp, hu ▸ hn t hp, hr, ?_⟩
  simp [Lib.exact, ext]

/-- A statement whose text is read back (specification): relations with the right types and readable, extensions of the default
registry with distinct URIs and plain contents. -/
structure PlainStmt (c : Cfg) (e : Option Str) (sym : Ops S) (PS : S → Prop) (prec : Int) (s : Stmt (Data S)) : Prop where
  domain : s.domain = [] ∨ Rel.TextRel c prec s.domain ∧ ∀ p ∈ s.domain, p.type = TYPE_DOMAIN
  scattering : s.scattering = [] ∨ Rel.TextRel c prec s.scattering ∧ ∀ p ∈ s.scattering, p.type = TYPE_SCATTERING
  access : ∀ r ∈ s.access, Rel.TextRel c prec r ∧ ∀ p ∈ r, p.type = TYPE_READ ∨ p.type = TYPE_WRITE ∨ p.type = TYPE_MAY_WRITE
  accesses : (s.access.length : Int) < 2 ^ 31 - 2
  unique : GList.Unique s.extension
  extensions : (s.extension.length : Int) < 2 ^ 31
  extension : ∀ g ∈ s.extension, ∃ d, g = ext d ∧ PlainFile c e PS d ∧ NoTag c e sym d

/-- A scop whose text is read back (specification). -/
structure PlainScop (c : Cfg) (e : Option Str) (sym : Ops S) (PS : S → Prop) (prec : Int) (s : Scop (Data S)) : Prop where
  version : s.version = 1
  language : ∃ w, s.language = some w ∧ Strings.Word w
  context : Rel.TextRel c prec s.context
  parameters : s.parameters = [] ∨ ∃ ws, s.parameters = [ext (.strings { string := some ws })] ∧ ws ≠ [] ∧ (∀ w ∈ ws, Strings.Word w) ∧
    NoTag c e sym (.strings { string := some ws })
  nbStatements : (s.statement.length : Int) < 2 ^ 31
  statement : ∀ st ∈ s.statement, PlainStmt c e sym PS prec st
  registry : s.registry = defaultRegistry
  unique : GList.Unique s.extension
  extension : ∀ g ∈ s.extension, ∃ d, g = ext d ∧ Plain c e PS d ∧ NoTag c e sym d
  noEnd : ∀ t, GList.sprint (lib c e sym).toEnv s.extension = .ok t → ¬ Util.endTag URI_SCOP <:+: t

theorem lookup_mem {l : GList (Data S)} {u : Str} {x : Data S} (h : GList.lookup l u = some x) : ∃ g ∈ l, g.data = some x := by
  induction l with
  | nil => simp [GList.lookup] at h
  | cons g l ih =>
    simp only [GList.lookup] at h
    split at h
    · exact ⟨g, by simp, h⟩
    · obtain ⟨g', h1, h2⟩ := ih h
      exact ⟨g', by simp [h1], h2⟩

theorem PlainStmt.text {c : Cfg} {e : Option Str} {sym : Ops S} {PS : S → Prop} (hS : ∀ s, PS s → sym.Back s) {prec : Int} {s : Stmt (Data S)}
    (h : PlainStmt c e sym PS prec s) : Stmts.TextStmt c (lib c e sym).toLib.exact defaultRegistry prec s where
  domain := h.domain
  scattering := h.scattering
  access := h.access
  accesses := h.accesses
  unique := h.unique
  extensions := h.extensions
  extension := by
    intro g hg
    obtain ⟨d, rfl, h1, h2⟩ := h.extension g hg
    exact ext_ftextable hS h1 h2
  iterators := by
    intro b hb
    unfold Stmts.lookupBody at hb
    split at hb
    · cases hb
    · rename_i x hx
      obtain ⟨g, hg, hd⟩ := lookup_mem hx
      obtain ⟨d, rfl, h1, h2⟩ := h.extension g hg
      simp only [ext, Option.some.injEq] at hd
      subst hd
      split at hb
      · rename_i b' hb'
        injection hb with hb
        injection hb with hb
        subst hb
        simp only [Lib.exact, lib, kBody] at hb'
        cases d <;> simp at hb'
        subst hb'
        rcases h1 with ⟨its, ex, e1, e2⟩ | ⟨s, e1, _⟩
        · intro a ha w hw
          rw [e1, oneBody] at ha
          simp only [Option.some.injEq] at ha
          subst ha
          exact (e2.words w hw).noNL
        · cases e1
      · cases hb

theorem PlainScop.text {c : Cfg} {e : Option Str} {sym : Ops S} {PS : S → Prop} (hS : ∀ s, PS s → sym.Back s) {prec : Int} {s : Scop (Data S)}
    (h : PlainScop c e sym PS prec s) : Scops.TextScop c (lib c e sym) defaultRegistry prec s where
  version := h.version
  language := h.language
  context := h.context
  parameters := by
    rcases h.parameters with h1 | ⟨ws, h1, h2, h3, h4⟩
    · exact .inl h1
    · exact .inr ⟨_, h1, ext_uri _, ext_ftextable hS (.inl ⟨ws, rfl, h2, h3⟩) h4⟩
  paramNames := by
    intro p hp
    rcases h.parameters with h1 | ⟨ws, h1, h2, h3, h4⟩
    · rw [h1] at hp
      simp only [Scops.paramNames] at hp
      injection hp with hp
      subst hp
      intro a ha; cases ha
    · rw [h1] at hp
      simp only [Scops.paramNames, ext, lib, kStrings] at hp
      injection hp with hp
      subst hp
      intro a ha w hw
      injection ha with ha
      subst ha
      exact (h3 w hw).noNL
  nbStatements := h.nbStatements
  statement := fun st hst => (h.statement st hst).text hS
  sameRegistry := h.registry
  unique := h.unique
  extension := by
    intro g hg
    obtain ⟨d, rfl, h1, h2⟩ := h.extension g hg
    exact ext_textable hS h1 h2
  noEnd := h.noEnd
  arrays := by
    intro x a hx ha
    obtain ⟨g, hg, hd⟩ := lookup_mem hx
    obtain ⟨d, rfl, h1, h2⟩ := h.extension g hg
    simp only [ext, Option.some.injEq] at hd
    subst hd
    simp only [lib, kArrays] at ha
    cases d <;> simp at ha
    exact Ext.Arrays.to_strings_noNL (fun p hp => ((Ext.Arrays.Textable.names h1) p hp).1.noNL) ha

/-- C48: with the default registry, printing a list of plain scops and reading the file gives the list back, identical; `PS` are
symbols which are read back. -/
theorem scop_default_text {c : Cfg} {e : Option Str} {sym : Ops S} {PS : S → Prop} (hS : ∀ s, PS s → sym.Back s) {prec : Int} {release : Str}
    (hrel : '<' ∉ release) {s : Scops (Data S)} (h : ∀ x ∈ s, PlainScop c e sym PS prec x) {t : Str}
    (ht : Scops.print c (lib c e sym) release s = .ok t) (hs : Rel.ShortLines t) :
    Scops.pread c (lib c e sym) defaultRegistry prec t = .ok s :=
  Scops.scop_text_round_trip default_registry_eq.2 hrel (fun x hx => (h x hx).text hS) ht hs

end Data

/-! ## Symbols, at each depth of nesting -/

/-- The environment in which extensions are equal when they are identical. -/
noncomputable def Env.exact {D : Type} (E : Env D) : Env D :=
  { E with equal := fun _ a b => .ok (@decide (a = b) (Classical.propDecidable _)) }

namespace GList

variable {D : Type}

theorem sprint_env_exact (E : Env D) (l : GList D) : sprint E.exact l = sprint E l :=
  sprint_exact { E with body := fun _ => none, extbody := fun _ => none } l

end GList

namespace Ext.Symbol

variable {D : Type}

theorem pieces_exact (E : Env D) (s : Symbol D) : pieces E.exact s = pieces E s := by
  unfold pieces
  simp only [GList.sprint_env_exact]

theorem sprint_exact (E : Env D) (l : List (Symbol D)) : sprint E.exact l = sprint E l := by
  have : ∀ l : List (Symbol D), piecesLoop E.exact l = piecesLoop E l := by
    intro l
    induction l with
    | nil => rfl
    | cons s l ih => simp only [piecesLoop, ih, pieces_exact]
  unfold sprint
  rw [this]

theorem sread_exact (E : Env D) (registry : Ifaces) (s : Option Str) : sread E.exact registry s = sread E registry s := by
  have h1 : ∀ s, readOne E.exact registry s = readOne E registry s := fun _ => rfl
  have h2 : ∀ n s, readLoop E.exact registry n s = readLoop E registry n s := by
    intro n
    induction n with
    | zero => intro s; rfl
    | succ n ih => intro s; simp only [readLoop, h1, ih]
  cases s with
  | none => rfl
  | some s => simp only [sread, readSymbols, h2]

theorem sameOne_exact {E : Env D} {l l' : GList D} (h : GList.SameOne E.exact l l') : l' = l := by
  obtain ⟨g, g', rfl, rfl, i, a, b, e⟩ := h
  simp only [Env.exact] at e
  injection e with e
  have e := @of_decide_eq_true _ (Classical.propDecidable _) e
  obtain ⟨i1, d1⟩ := g
  obtain ⟨i2, d2⟩ := g'
  simp only at a b e
  rw [a, b, e]

/-- The symbols whose text is read back identical (specification): at most OSL_MAX_STRING characters (with an end of line), and
parts which are present and read back. -/
structure Plain (E : Env D) (registry : Ifaces) (l : NE (Symbol D)) : Prop where
  nb : ((NE.elems (some l)).length : Int) < 2 ^ 31
  symbol : ∀ s ∈ NE.elems (some l), Textable E.exact registry s
  short : ∀ t, sprint E (NE.elems (some l)) = .ok (some t) → t.length < MAX_STRING

theorem Plain.back {E : Env D} {registry : Ifaces} {l : NE (Symbol D)} (h : Plain E registry l) : (ops E registry).Back l := by
  obtain ⟨t, h1, h2⟩ := symbols_text_back h.symbol h.nb
  rw [sprint_exact] at h1
  have hl := h.short t h1
  refine ⟨t, h1, fun pre hp => ?_⟩
  obtain ⟨l', pos, a, _, b, d⟩ := h2 pre (by rcases hp with rfl | rfl <;> decide) (by rcases hp with rfl | rfl <;> simp <;> omega)
  rw [sread_exact] at a
  have : l' = NE.elems (some l) := by
    refine List.ext_getElem b ?_
    intro k hk hk'
    have := d k hk' hk
    obtain ⟨c1, c2, c3, c4, c5, c6, c7⟩ := this
    cases hx : (NE.elems (some l))[k] with
    | mk =>
      cases hy : l'[k] with
      | mk =>
        rw [hx, hy] at c1 c2 c3 c4 c5 c6 c7
        have c4 := sameOne_exact c4
        have c5 := sameOne_exact c5
        have c6 := sameOne_exact c6
        have c7 := sameOne_exact c7
        simp only at c1 c2 c3 c4 c5 c6 c7
        rw [c1, c2, c3, c4, c5, c6, c7]
  refine ⟨some pos, ?_⟩
  simp only [ops, a, Out.ok_bind, this, NE.ofList_elems]

end Ext.Symbol

/-- The symbols read back at a depth of nesting. -/
def PlainSymbols (c : Cfg) (e : Option Str) (n : Nat) : Ext.NE (Ext.Symbol (DataAt n)) → Prop := Ext.Symbol.Plain (envAt c e n) defaultRegistry

/-- C48: with the default registry, printing a list of plain scops and reading the file gives the list back, identical; the data may
hold symbols. -/
theorem scop_default_text_symbols {c : Cfg} {e : Option Str} {n : Nat} {prec : Int} {release : Str} (hrel : '<' ∉ release)
    {s : Scops (DataAt (n + 1))} (h : ∀ x ∈ s, Data.PlainScop c e (Ext.Symbol.ops (envAt c e n) defaultRegistry) (PlainSymbols c e n) prec x) {t : Str}
    (ht : Scops.print c (libAt c e (n + 1)) release s = .ok t) (hs : Rel.ShortLines t) :
    Scops.pread c (libAt c e (n + 1)) defaultRegistry prec t = .ok s :=
  Data.scop_default_text (fun _ => Ext.Symbol.Plain.back) hrel h ht hs

/-! ## Copies with the default registry -/

namespace Data

variable {S : Type}

open Ext (Ops NE)

/-- The data whose copy is equal to it (specification): relations with a correct shape, strings which are there, and no region, whose
equality never answers yes. -/
def Copyable (c : Cfg) (symbols : S → Prop) : Data S → Prop
  | .strings _ | .body _ | .textual _ | .null _ | .scatnames _ | .arrays _ | .extbody _ | .unroll _ | .annotation _ => True
  | .relation r => Rel.Valid c (NE.elems (some r))
  | .comment x => x.comment ≠ none
  | .scatinfos s => s.Sized
  | .coordinates x => x.name ≠ none
  | .clay x => x.script ≠ none
  | .dependence a => ∀ d ∈ NE.elems (some a), Ext.Dep.Valid c d
  | .symbols s => symbols s
  | .loop l => (∀ a ∈ NE.elems (some l), Ext.Loop.Clean a) ∧ ∀ a ∈ NE.elems (some l), ∀ b ∈ NE.elems (some l), Ext.Loop.SameNulls a b
  | .region _ => False

theorem CloneEqual.lift {X : Type} {k : Kind S X} {o : Ops X} {x : X} (h : o.CloneEqual x) : (lift k o).CloneEqual (k.inj x) := by
  obtain ⟨y, h1, h2⟩ := h
  exact ⟨k.inj y, by simp only [Data.lift, k.proj_inj, h1, Out.ok_bind]; rfl, by simp only [Data.lift, k.proj_inj, h2]⟩

theorem copyable_equal {c : Cfg} {e : Option Str} {sym : Ops S} {PS : S → Prop} (hS : ∀ s, PS s → sym.CloneEqual s) {d : Data S} (h : Copyable c PS d) :
    ∃ o, (table c e sym)[d.index]? = some o ∧ o.CloneEqual d := by
  cases d with
  | strings x =>
    refine ⟨_, rfl, CloneEqual.lift (k := kStrings) ?_⟩
    have hx := Strings.strings_clone_equal (some x)
    cases hc : Strings.clone (some x) with
    | none => rw [hc] at hx; simp [Strings.equal] at hx
    | some y => exact ⟨y, by simp only [stringsOps, hc], by rw [← hc]; simp only [stringsOps, hx]⟩
  | body b =>
    refine ⟨_, rfl, CloneEqual.lift (k := kBody) ?_⟩
    have hx := Body.body_clone_equal (some b)
    cases hc : Body.clone (some b) with
    | none => rw [hc] at hx; simp [Body.equal] at hx
    | some y => exact ⟨y, by simp only [bodyOps, hc], by rw [← hc]; simp only [bodyOps, hx]⟩
  | relation r =>
    refine ⟨_, rfl, CloneEqual.lift (k := kRelation) ⟨r, ?_, ?_⟩⟩
    · simp only [relationOps, (Rel.relation_clone_equal h).1, Out.ok_bind, NE.ofList_elems]
    · obtain ⟨s, e1, e2⟩ := (Rel.relation_clone_equal h).2
      rw [(Rel.relation_clone_equal h).1] at e1
      injection e1 with e1
      subst e1
      exact e2
  | textual x => exact ⟨_, rfl, CloneEqual.lift (k := kTextual) (Ext.textual_clone_sread x []).1⟩
  | comment x =>
    obtain ⟨x⟩ := x
    cases x with
    | none => exact absurd rfl h
    | some s => exact ⟨_, rfl, CloneEqual.lift (k := kComment) (Ext.comment_clone s).2⟩
  | null x => exact ⟨_, rfl, CloneEqual.lift (k := kNull) (Ext.null_correct.2.1 x)⟩
  | scatinfos s => exact ⟨_, rfl, CloneEqual.lift (k := kScatinfos) (Ext.Scatinfos.scatinfos_clone_equal s h).2⟩
  | scatnames n => exact ⟨_, rfl, CloneEqual.lift (k := kScatnames) (Ext.scatnames_clone_equal n)⟩
  | arrays a => exact ⟨_, rfl, CloneEqual.lift (k := kArrays) (Ext.Arrays.arrays_clone_eq a).2⟩
  | coordinates x => exact ⟨_, rfl, CloneEqual.lift (k := kCoordinates) (Ext.coordinates_clone_equal h).2⟩
  | clay x =>
    obtain ⟨x⟩ := x
    cases x with
    | none => exact absurd rfl h
    | some s => exact ⟨_, rfl, CloneEqual.lift (k := kClay) (Ext.clay_clone_equal s).2⟩
  | dependence a => exact ⟨_, rfl, CloneEqual.lift (k := kDependence) (Ext.Dep.dependence_clone_equal c e h).2⟩
  | symbols s => exact ⟨_, rfl, CloneEqual.lift (k := kSymbols) (hS s h)⟩
  | extbody x => exact ⟨_, rfl, CloneEqual.lift (k := kExtbody) (Ext.extbody_clone_equal x)⟩
  | loop l => exact ⟨_, rfl, CloneEqual.lift (k := kLoop) (Ext.Loop.loop_clone_equal h.1 h.2).2⟩
  | unroll l => exact ⟨_, rfl, CloneEqual.lift (k := kUnroll) (Ext.unroll_clone_equal l).2⟩
  | region l => exact absurd h id
  | annotation a => exact ⟨_, rfl, CloneEqual.lift (k := kAnnotation) (Ext.annotation_clone_equal a).2⟩

/-- A list of extensions of the default registry which can be copied. -/
def CopyableList (c : Cfg) (PS : S → Prop) (l : GList (Data S)) : Prop := ∀ g ∈ l, ∃ d, g = ext d ∧ Copyable c PS d

theorem CopyableList.ok {c : Cfg} {e : Option Str} {sym : Ops S} {PS : S → Prop} (hS : ∀ s, PS s → sym.CloneEqual s) {l : GList (Data S)}
    (h : CopyableList c PS l) : GList.CloneOk (lib c e sym).toEnv l := by
  intro g hg i hi
  obtain ⟨d, rfl, h1⟩ := h g hg
  obtain ⟨o, h2, y, h3, h4⟩ := copyable_equal (e := e) hS h1
  obtain ⟨u, _, a2, _⟩ := registry_at d.index d.index_lt
  simp only [ext, a2] at hi
  injection hi with hi
  subst hi
  refine ⟨y, ?_, ?_⟩
  · simp only [lib, env, ext, Ifaces.fnsOf, h2, h3]
  · simp only [lib, env, ext, Ifaces.fnsOf, h2, h4]

/-- C41: with the default registry, the copy of a list of scops has the same components and is equal to the list, provided that the
extensions are of this registry and can be copied. -/
theorem scop_default_clone {c : Cfg} {e : Option Str} {sym : Ops S} {PS : S → Prop} (hS : ∀ s, PS s → sym.CloneEqual s) {x : Scops (Data S)}
    (h : ∀ a ∈ x, Scops.SVal c a) (h1 : ∀ a ∈ x, a.language ≠ none) (h2 : ∀ a ∈ x, CopyableList c PS a.parameters)
    (h3 : ∀ a ∈ x, ∀ st ∈ a.statement, CopyableList c PS st.extension) (h4 : ∀ a ∈ x, CopyableList c PS a.extension) :
    ∃ y, Scops.clone c (lib c e sym).toLib x = .ok y ∧ y.length = x.length ∧ Scops.equal c (lib c e sym).toLib x y = .ok true := by
  obtain ⟨y, a, b, _, d⟩ := Scops.scop_clone_equal (L := (lib c e sym).toLib) h
    (fun a ha => ⟨(h2 a ha).ok hS, fun st hst => (h3 a ha st hst).ok hS, (h4 a ha).ok hS⟩)
  exact ⟨y, a, b, d h1⟩

end Data

/-- The symbols whose copy is equal to them: their parts have distinct URIs and can be copied. -/
def CopyableSymbols (c : Cfg) (e : Option Str) (n : Nat) (l : Ext.NE (Ext.Symbol (DataAt n))) : Prop :=
  ∀ s ∈ Ext.NE.elems (some l), Ext.Symbol.Clonable (envAt c e n) s

theorem CopyableSymbols.equal {c : Cfg} {e : Option Str} {n : Nat} {l : Ext.NE (Ext.Symbol (DataAt n))} (h : CopyableSymbols c e n l) :
    (Ext.Symbol.ops (envAt c e n) defaultRegistry).CloneEqual l := by
  obtain ⟨l', h1, h2, _, h4⟩ := Ext.Symbol.symbols_clone_equal h
  cases l' with
  | nil => simp [Ext.NE.elems] at h2
  | cons a l' => exact ⟨⟨a, l'⟩, by simp only [Ext.Symbol.ops, h1, Out.ok_bind]; rfl, h4⟩

/-- A scop with a region. -/
def exRegionScop : Scop (Data Empty) :=
  { version := 1, language := some "C".toList, context := [], parameters := [], statement := [], registry := defaultRegistry, extension := [Data.ext (.region ⟨{ location := 1, pre := [(1, "a;".toList)], suf := [], prelude := [], postlude := [] }, []⟩)] }

/-- Finding (C41): the comparison of a scop which has a region with its copy reads a NULL pointer. -/
theorem scop_region_clone_violates :
    Scops.clone Cfg.std (Data.lib Cfg.std none noSymbols).toLib [exRegionScop] = .ok [exRegionScop] ∧
      Scops.equal Cfg.std (Data.lib Cfg.std none noSymbols).toLib [exRegionScop] [exRegionScop] = .ub := by
  decide +kernel

end Osl
