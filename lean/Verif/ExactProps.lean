import Verif.ScopProps
import Verif.ExtArraysProps
import Verif.ExtDepProps
import Verif.ExtSymbolsProps
/-!
# Exact answers at the edges

For the functions whose documented behaviour fails on some inputs, what they do on *all* inputs:
`osl_strings_generate`, `osl_strings_add_strings`, `osl_strings_sprint`/`sread`,
`osl_util_tag_content`, `osl_interface_add`, `osl_generic_add`, `osl_scop_normalize_scattering`,
`osl_scop_equal`, `osl_arrays_equal`, `osl_arrays_to_strings`, `osl_dependence_add`,
`osl_symbols_equal`.
-/

set_option linter.unusedSectionVars false

namespace Osl

/-- A loop where every step succeeds or fails, one failing, fails. -/
theorem Out.mapOut_err {α : Type u} {β : Type v} {f : α → Out β} {l : List α}
    (h : ∀ a ∈ l, (∃ b, f a = .ok b) ∨ f a = .err) (he : ∃ a ∈ l, f a = .err) :
    Out.mapOut f l = .err := by
  induction l with
  | nil => obtain ⟨a, ha, _⟩ := he; cases ha
  | cons a l ih =>
    rcases h a (by simp) with ⟨b, hb⟩ | hb
    · have : Out.mapOut f l = .err := by
        refine ih (fun x hx => h x (by simp [hx])) ?_
        obtain ⟨x, hx, hf⟩ := he
        rcases List.mem_cons.mp hx with rfl | hx
        · rw [hb] at hf; cases hf
        · exact ⟨x, hx, hf⟩
      simp [Out.mapOut, hb, this]
    · simp [Out.mapOut, hb]

namespace Util

/-- C31, every case of `osl_util_tag_content`: NULL when the start tag, or the end tag after it, is missing; undefined when
nothing is between the two; otherwise the text between the start tag and the first end tag after it, without its first
character. -/
theorem tag_content_cases (s name : Str) :
    (¬ startTag name <:+: s ∧ tag_content s name = .ok none) ∨
    ∃ pre rest, IsFirst (startTag name) s pre rest ∧
      ((¬ endTag name <:+: rest ∧ tag_content s name = .ok none) ∨
       ∃ content post, IsFirst (endTag name) rest content post ∧
        ((content = [] ∧ tag_content s name = .ub) ∨
         ∃ ch cs, content = ch :: cs ∧ tag_content s name = .ok (some cs))) := by
  rcases read_uptoflag_correct s (startTag name) (by simp [startTag]) with ⟨pre, rest, h, _⟩ | ⟨h, _⟩
  · right
    refine ⟨pre, rest, h, ?_⟩
    rcases read_uptoflag_correct rest (endTag name) (by simp [endTag]) with ⟨content, post, h', _⟩ | ⟨h', _⟩
    · right
      refine ⟨content, post, h', ?_⟩
      cases content with
      | nil => exact .inl ⟨rfl, tag_content_empty_violates h h'⟩
      | cons ch cs => exact .inr ⟨ch, cs, rfl, tag_content_correct h h' ch cs rfl⟩
    · exact .inl ⟨h', (tag_content_absent s name).2 pre rest h h'⟩
  · exact .inl ⟨h, (tag_content_absent s name).1 h⟩

/-- All cases occur. -/
example : tag_content "<a>\nxy</a>".toList "a".toList = .ok (some "xy".toList) ∧
    tag_content "<a></a>".toList "a".toList = .ub ∧
    tag_content "<a>x".toList "a".toList = .ok none ∧ tag_content "x".toList "a".toList = .ok none := by decide

end Util

namespace Strings

/-- C28, every case of `osl_strings_generate`: undefined exactly for a negative number and for
INT_MAX. -/
theorem strings_generate_cases (pre : Str) {n : Int} (hn : fits 32 n) :
    (n < 0 ∨ n = cMax 32 → generate pre n = .ub) ∧
    (¬ (n < 0 ∨ n = cMax 32) → ∃ s, generate pre n = .ok s ∧
      s.words = (List.range' 1 n.toNat).map (fun k => pre ++ showNat k)) := by
  refine ⟨fun h => ?_, fun h => ?_⟩
  · unfold generate
    rw [if_neg, if_pos h]
    rcases h with h | h
    · omega
    · rw [h]; decide
  · have h1 : 0 ≤ n := by omega
    have h2 : n ≤ cMax 32 := hn.2
    have h3 : cMax 32 = 2 ^ 31 - 1 := rfl
    obtain ⟨s, e, hw⟩ := strings_generate_correct pre n.toNat (by omega)
    have : ((n.toNat : Nat) : Int) = n := by omega
    rw [this] at e
    exact ⟨s, e, hw⟩

theorem addLoop_some (s : Strings) (l : List Str) :
    ∃ t, addLoop (some s) l = .ok (some t) ∧ t.words = s.words ++ l := by
  induction l generalizing s with
  | nil => exact ⟨s, rfl, by simp⟩
  | cons w l ih =>
    obtain ⟨t, h1, h2⟩ := ih (add s w)
    refine ⟨t, h1, ?_⟩
    rw [h2, (strings_add_correct s w).1]; simp

/-- C28, every case of `osl_strings_add_strings`: it is undefined exactly when the second operand
is NULL or has no array, or the first one is NULL and the second one is not empty; otherwise the
result holds the strings of the first operand followed by those of the second. -/
theorem strings_add_strings_cases (s1 s2 : Option Strings) :
    ((s2.bind (·.string) = none ∨ (s1 = none ∧ ∃ b, s2 = some b ∧ b.words ≠ [])) →
      add_strings s1 s2 = .ub) ∧
    (¬ (s2.bind (·.string) = none ∨ (s1 = none ∧ ∃ b, s2 = some b ∧ b.words ≠ [])) →
      (s1 = none → add_strings s1 s2 = .ok none) ∧
      ∀ a b, s1 = some a → s2 = some b →
        ∃ t, add_strings s1 s2 = .ok (some t) ∧ t.words = a.words ++ b.words) := by
  have hwords : ∀ l : List Str, Strings.words { string := some l } = l := fun l => rfl
  refine ⟨?_, ?_⟩
  · rintro (h | ⟨rfl, b, rfl, h⟩)
    · unfold add_strings
      cases s2 with
      | none => rfl
      | some b =>
        obtain ⟨b⟩ := b
        cases b with
        | none => rfl
        | some l => simp at h
    · obtain ⟨b⟩ := b
      cases b with
      | none => rfl
      | some l =>
        cases l with
        | nil => exact absurd rfl h
        | cons w l => rfl
  · intro h
    cases s2 with
    | none => exact absurd (.inl rfl) h
    | some b =>
      obtain ⟨b⟩ := b
      cases b with
      | none => exact absurd (.inl rfl) h
      | some l =>
        refine ⟨?_, ?_⟩
        · rintro rfl
          cases l with
          | nil => rfl
          | cons w l => exact absurd (.inr ⟨rfl, _, rfl, by simp [Strings.words]⟩) h
        · rintro a b rfl hb
          injection hb with hb
          subst hb
          exact strings_add_strings_some a _ (by simp)

/-- C29, every array of words: its text is read back as an equal array if and only if it is not
empty (the empty array is read back as NULL). -/
theorem strings_text_round_trip_iff (s : Strings) (hw : ∀ w ∈ s.words, Word w) :
    (∃ t r pos, sprint (some s) = .ok t ∧ sread t = .ok (r, pos) ∧ equal (some s) r = true) ↔
      s.words ≠ [] := by
  constructor
  · rintro ⟨t, r, pos, h1, h2, h3⟩ he
    have hp : sprint (some s) = .ok "\n".toList := by
      rw [sprint_eq (by rw [he]; simp), he]; rfl
    rw [hp] at h1
    injection h1 with h1
    subst h1
    rw [strings_text_empty_violates.2.1] at h2
    injection h2 with h2
    have : r = none := (Prod.mk.inj h2).1.symm
    subst this
    rw [strings_equal_iff] at h3
    rcases h3 with ⟨h3, _⟩ | ⟨a, b, _, h3, _⟩
    · cases h3
    · cases h3
  · intro hne
    obtain ⟨t, r, h1, h2, h3⟩ := strings_text_round_trip s hne hw []
    rw [List.append_nil] at h2
    exact ⟨t, some r, _, h1, h2, h3⟩

/-- All cases occur. -/
example : generate "p".toList (-1) = .ub ∧ generate "p".toList 2 = .ok { string := some ["p1".toList, "p2".toList] } ∧
    add_strings (some malloc) none = .ub ∧
    add_strings (some { string := some [['a']] }) (some { string := some [['b']] }) = .ok (some { string := some [['a'], ['b']] }) := by
  decide

end Strings

namespace Ifaces

/-- C33, every case of `osl_interface_add` with a list of interfaces: an error exactly when one of
them has no URI or the URI of a registered one; otherwise they are appended, and the URIs are
unique exactly when those of the added interfaces are. -/
theorem interface_add_cases {l : Ifaces} (hl : Unique l) (is : Ifaces) :
    ((∃ i ∈ is, i.URI = none ∨ ∃ j ∈ l, j.URI = i.URI) → add l is = .err) ∧
    (¬ (∃ i ∈ is, i.URI = none ∨ ∃ j ∈ l, j.URI = i.URI) →
      add l is = .ok (l ++ is) ∧ (Unique (l ++ is) ↔ (is.map (·.URI)).Nodup)) := by
  refine ⟨?_, fun h => ?_⟩
  · rintro ⟨i, hi, h⟩
    have : checkLoop l is ≠ .ok () := by
      intro hc
      have := checkLoop_ok.mp hc i hi
      rcases h with h | ⟨j, hj, h⟩
      · exact this.1 h
      · exact this.2 j hj h
    simp [add, checkLoop_err this]
  · have hall : ∀ i ∈ is, i.URI ≠ none ∧ ∀ j ∈ l, j.URI ≠ i.URI := fun i hi =>
      ⟨fun e => h ⟨i, hi, .inl e⟩, fun j hj e => h ⟨i, hi, .inr ⟨j, hj, e⟩⟩⟩
    have hc : checkLoop l is = .ok () := checkLoop_ok.mpr hall
    refine ⟨by simp [add, hc], ?_⟩
    unfold Unique
    rw [List.map_append, List.nodup_append]
    constructor
    · exact fun hu => hu.1.2.1
    · intro hn
      refine ⟨⟨hl.1, hn, ?_⟩, ?_⟩
      · intro a ha b hb
        obtain ⟨j, hj, rfl⟩ := List.mem_map.mp ha
        obtain ⟨i, hi, rfl⟩ := List.mem_map.mp hb
        exact (hall i hi).2 j hj
      · intro j hj
        rcases List.mem_append.mp hj with hj | hj
        · exact hl.2 j hj
        · exact (hall j hj).1

/-- All cases occur: a registered URI is refused, others are appended, even twice the same one. -/
example : Unique [mk 0 "strings"] ∧ add [mk 0 "strings"] [mk 1 "arrays", mk 2 "strings"] = .err ∧
    add [mk 0 "strings"] [mk 1 "arrays"] = .ok [mk 0 "strings", mk 1 "arrays"] ∧
    add [mk 0 "strings"] [mk 1 "arrays", mk 2 "arrays"] = .ok [mk 0 "strings", mk 1 "arrays", mk 2 "arrays"] := by
  refine ⟨⟨?_, ?_⟩, ?_⟩ <;> decide

end Ifaces

namespace GList
variable {D : Type}

theorem lookup_none_iff {l : GList D} (hl : Unique l) (u : Str) :
    lookup l u = none ↔ ∀ g ∈ l, uri g = some u → g.data = none := by
  constructor
  · intro h g hg hu; rw [← lookup_mem hl hg hu]; exact h
  · intro h
    by_cases hx : ∃ g ∈ l, uri g = some u
    · obtain ⟨g, hg, hu⟩ := hx
      rw [lookup_mem hl hg hu]; exact h g hg hu
    · exact lookup_absent fun g hg e => hx ⟨g, hg, e⟩

theorem checkLoop_cases (l gs : GList D) :
    ((∃ g ∈ gs, ∀ u, uri g = some u → lookup l u ≠ none) → checkLoop l gs = .err) ∧
    (¬ (∃ g ∈ gs, ∀ u, uri g = some u → lookup l u ≠ none) → checkLoop l gs = .ok ()) := by
  induction gs with
  | nil => exact ⟨(by rintro ⟨g, hg, _⟩; cases hg), fun _ => rfl⟩
  | cons g gs ih =>
    have key : checkLoop l (g :: gs) = match uri g with
        | none => .err
        | some u => match lookup l u with
          | some _ => .err
          | none => checkLoop l gs := by
      obtain ⟨i, d⟩ := g
      cases i with
      | none => rfl
      | some i =>
        obtain ⟨U, f⟩ := i
        cases U <;> rfl
    rw [key]
    cases hu : uri g with
    | none =>
      refine ⟨fun _ => rfl, fun h => absurd ⟨g, by simp, ?_⟩ h⟩
      intro u e; rw [hu] at e; cases e
    | some u =>
      simp only
      cases hk : lookup l u with
      | some d =>
        refine ⟨fun _ => rfl, fun h => absurd ⟨g, by simp, ?_⟩ h⟩
        intro v e; rw [hu] at e; injection e with e; subst e; rw [hk]; simp
      | none =>
        simp only
        have : (∃ x ∈ g :: gs, ∀ v, uri x = some v → lookup l v ≠ none) ↔
            (∃ x ∈ gs, ∀ v, uri x = some v → lookup l v ≠ none) := by
          constructor
          · rintro ⟨x, hx, h⟩
            rcases List.mem_cons.mp hx with rfl | hx
            · exact absurd hk (h u hu)
            · exact ⟨x, hx, h⟩
          · rintro ⟨x, hx, h⟩; exact ⟨x, by simp [hx], h⟩
        rw [this]; exact ih

/-- C34, every case of `osl_generic_add` with a list of generics: an error exactly when one of them
has no URI, or the URI of a generic with data of the list; otherwise they are appended, and the
URIs are unique exactly when those of the added generics are, and differ from those of the generics
without data. -/
theorem generic_add_cases {l : GList D} (hl : Unique l) (gs : GList D) :
    ((∃ g ∈ gs, uri g = none ∨ ∃ x ∈ l, uri x = uri g ∧ x.data ≠ none) → add l gs = .err) ∧
    (¬ (∃ g ∈ gs, uri g = none ∨ ∃ x ∈ l, uri x = uri g ∧ x.data ≠ none) →
      add l gs = .ok (l ++ gs) ∧
      (Unique (l ++ gs) ↔ (gs.map uri).Nodup ∧ ∀ g ∈ gs, ∀ x ∈ l, uri x ≠ uri g)) := by
  have hiff : (∃ g ∈ gs, uri g = none ∨ ∃ x ∈ l, uri x = uri g ∧ x.data ≠ none) ↔
      (∃ g ∈ gs, ∀ u, uri g = some u → lookup l u ≠ none) := by
    constructor
    · rintro ⟨g, hg, h⟩
      refine ⟨g, hg, fun u hu => ?_⟩
      rcases h with h | ⟨x, hx, h1, h2⟩
      · rw [h] at hu; cases hu
      · intro hn
        exact h2 ((lookup_none_iff hl u).mp hn x hx (h1.trans hu))
    · rintro ⟨g, hg, h⟩
      refine ⟨g, hg, ?_⟩
      cases hu : uri g with
      | none => exact .inl rfl
      | some u =>
        right
        have := h u hu
        rw [ne_eq, lookup_none_iff hl] at this
        exact Classical.byContradiction fun H => this fun x hx hxu =>
          Classical.byContradiction fun hd => H ⟨x, hx, hxu, hd⟩
  refine ⟨fun h => ?_, fun h => ?_⟩
  · simp [add, (checkLoop_cases l gs).1 (hiff.mp h)]
  · refine ⟨by simp [add, (checkLoop_cases l gs).2 (fun e => h (hiff.mpr e))], ?_⟩
    have hall : ∀ g ∈ gs, uri g ≠ none := fun g hg e => h ⟨g, hg, .inl e⟩
    unfold Unique
    rw [List.map_append, List.nodup_append]
    constructor
    · intro hu
      exact ⟨hu.1.2.1, fun g hg x hx => hu.1.2.2 _ (List.mem_map.mpr ⟨x, hx, rfl⟩) _ (List.mem_map.mpr ⟨g, hg, rfl⟩)⟩
    · rintro ⟨h1, h2⟩
      refine ⟨⟨hl.1, h1, ?_⟩, ?_⟩
      · intro a ha b hb
        obtain ⟨x, hx, rfl⟩ := List.mem_map.mp ha
        obtain ⟨g, hg, rfl⟩ := List.mem_map.mp hb
        exact h2 g hg x hx
      · intro x hx
        rcases List.mem_append.mp hx with hx | hx
        · exact hl.2 x hx
        · exact hall x hx

/-- All cases occur: a URI with data is refused, one without data is not. -/
example : let i := Ifaces.mk 0 "strings"
    add [⟨some i, some 1⟩] [(⟨some i, some 2⟩ : Generic Nat)] = .err ∧
    add [⟨some i, none⟩] [(⟨some i, some 2⟩ : Generic Nat)] = .ok [⟨some i, none⟩, ⟨some i, some 2⟩] := by
  decide

end GList

namespace Scops
variable {D : Type}

/-- C40, the other case: when some part of a scattering has more output dimensions than the first
parts of all the scatterings, the call fails. -/
theorem scop_normalize_scattering_error {c : Cfg} {s : Scop D} {next : Scops D}
    (hval : ∀ a ∈ s.statement, Rel.Valid c a.scattering)
    (hdims : ∀ a ∈ s.statement, ∀ p ∈ a.scattering, p.Dims)
    (hprec : ∀ a ∈ s.statement, ∀ p ∈ a.scattering, ∀ q ∈ a.scattering, p.precision = q.precision)
    {m : Int} (hm : IsMaxScatt s.statement m)
    (hbig : ∃ a ∈ s.statement, ∃ p ∈ a.scattering, m < p.nb_output_dims) :
    normalize_scattering c (s :: next) = .err := by
  obtain ⟨m1, m2, m3⟩ := maxScatt_spec s.statement 0
  have hM : maxScatt s.statement 0 = m := by
    obtain ⟨g1, g2, g3⟩ := hm
    have h1 : maxScatt s.statement 0 ≤ m := by
      rcases m3 with m3 | ⟨t, ht, p, hp, e⟩
      · omega
      · have := g2 t ht p hp; omega
    have h2 : m ≤ maxScatt s.statement 0 := by
      rcases g3 with g3 | ⟨t, ht, p, hp, e⟩
      · omega
      · have := m2 t ht p hp; omega
    omega
  have part : ∀ a ∈ s.statement, ∀ p0 rest, a.scattering = p0 :: rest → ∀ q ∈ a.scattering,
      (∃ b, Rel.extendPart c p0.precision q m = .ok b) ∨ Rel.extendPart c p0.precision q m = .err := by
    intro a ha p0 rest e q hq
    by_cases hlt : m < q.nb_output_dims
    · exact .inr (Rel.extendPart_err hlt)
    · left
      have hd := hdims a ha q hq
      have hp : p0.precision = q.precision := hprec a ha p0 (by rw [e]; simp) q hq
      rw [hp]
      exact ⟨_, Rel.extendPart_ok (hval a ha q hq).wf hd.1 (by unfold Part.Dims at hd; omega) (by omega)⟩
  have rel : ∀ a ∈ s.statement, ((∃ b, normalizeOne c m a = .ok b) ∨ normalizeOne c m a = .err) ∧
      ((∃ p ∈ a.scattering, m < p.nb_output_dims) → normalizeOne c m a = .err) := by
    intro a ha
    cases hs : a.scattering with
    | nil =>
      refine ⟨.inl ⟨a, by simp [normalizeOne, hs]⟩, ?_⟩
      rintro ⟨p, hp, _⟩; cases hp
    | cons p0 rest =>
      have hpart := part a ha p0 rest hs
      rw [hs] at hpart
      have e : normalizeOne c m a = (Out.mapOut (fun q => Rel.extendPart c p0.precision q m) (p0 :: rest) >>=
          fun x => .ok { a with scattering := x }) := by
        simp only [normalizeOne, hs, Rel.extend_output]; rfl
      have herr : (∃ p ∈ p0 :: rest, m < p.nb_output_dims) → normalizeOne c m a = .err := by
        rintro ⟨p, hp, hlt⟩
        rw [e, Out.mapOut_err hpart ⟨p, hp, Rel.extendPart_err hlt⟩]; rfl
      refine ⟨?_, herr⟩
      by_cases hx : ∃ p ∈ p0 :: rest, m < p.nb_output_dims
      · exact .inr (herr hx)
      · left
        obtain ⟨l, hl, -⟩ := Rel.relation_extend_output_mem (c := c) (r := p0 :: rest) (dim := m) (by simp)
          (hs ▸ hval a ha) (hs ▸ hdims a ha) (hs ▸ hprec a ha)
          (fun p hp => Classical.byContradiction fun h => hx ⟨p, hp, by omega⟩)
        refine ⟨{ a with scattering := l }, ?_⟩
        have : Out.mapOut (fun q => Rel.extendPart c p0.precision q m) (p0 :: rest) = .ok l := hl
        rw [e, this]; rfl
  simp only [normalize_scattering, hM]
  rw [Out.mapOut_err (fun a ha => (rel a ha).1)]
  · rfl
  · obtain ⟨a, ha, h⟩ := hbig
    exact ⟨a, ha, (rel a ha).2 h⟩

/-- The hypotheses can be met: the scop of `scop_normalize_later_part_violates`. -/
example : let ss : Stmts Nat := [{ Stmts.exStmt with scattering := [exScatt1, Stmts.exScatt] }]
    IsMaxScatt ss 1 ∧ (∃ a ∈ ss, ∃ p ∈ a.scattering, 1 < p.nb_output_dims) ∧ (∀ a ∈ ss, ∀ p ∈ a.scattering, p.Dims) := by
  intro ss
  refine ⟨⟨by decide, ?_, .inr ⟨_, List.mem_singleton.mpr rfl, exScatt1, rfl, rfl⟩⟩,
    ⟨_, List.mem_singleton.mpr rfl, Stmts.exScatt, List.mem_cons_of_mem _ (List.mem_singleton.mpr rfl), by decide⟩, ?_⟩
  · intro s hs p hp
    rw [List.mem_singleton.mp hs] at hp
    injection hp with hp
    subst hp; decide
  · intro s hs p hp
    rw [List.mem_singleton.mp hs] at hp
    rcases List.mem_cons.mp hp with rfl | hp
    · decide
    · rw [List.mem_singleton.mp hp]; decide

/-- C33, every case of `osl_scop_register_extension` with one interface: an error when it has no URI or the URI of a
registered one; the registration when the scop has no data under the URI; undefined when it has some, which is the case the
function is meant for (the data is used as a list node). -/
theorem scop_register_extension_cases {s : Scop D} (hr : Ifaces.Unique s.registry) (i : Iface) :
    ((i.URI = none ∨ ∃ j ∈ s.registry, j.URI = i.URI) → register_extension s [i] = .err) ∧
    (∀ u, i.URI = some u → (∀ j ∈ s.registry, j.URI ≠ i.URI) →
      (GList.lookup s.extension u = none → register_extension s [i] = .ok { s with registry := s.registry ++ [i] }) ∧
      (GList.lookup s.extension u ≠ none → register_extension s [i] = .ub)) := by
  rcases Ifaces.interface_add_correct hr i with ⟨h, _, h1, h2⟩ | ⟨h, h1⟩
  · refine ⟨?_, fun u hu _ => ⟨fun hx => ?_, fun hx => ?_⟩⟩
    · rintro (h' | ⟨j, hj, h'⟩)
      · exact absurd h' h2
      · exact absurd h' (h1 j hj)
    · simp [register_extension, h, hu, hx]
    · cases hx' : GList.lookup s.extension u with
      | none => exact absurd hx' hx
      | some d => simp [register_extension, h, hu, hx']
  · refine ⟨fun _ => by simp only [register_extension, h]; rfl, fun u hu hn => ?_⟩
    rcases h1 with h1 | ⟨j, hj, h1⟩
    · rw [h1] at hu; cases hu
    · exact absurd h1 (hn j hj)

/-- What the comparison of two scops needs from the extensions: equality functions which answer. -/
structure AnswersEq (L : Lib D) (a b : Scop D) : Prop where
  ptotal : GList.EqualTotal L.toEnv a.parameters b.parameters
  stotal : ∀ x ∈ a.statement, ∀ y ∈ b.statement, GList.EqualTotal L.toEnv x.extension y.extension
  etotal : GList.EqualTotal L.toEnv a.extension b.extension

/-- C41, every pair of valid scops: the comparison is undefined exactly when the versions are the
same and a language is missing, or all that is compared before the statements is the same and one
scop has statements and the other none; otherwise it answers, and the answer is right. -/
theorem scop_equal_cases {c : Cfg} {L : Lib D} {a b : Scop D} (ha : SVal c a) (hb : SVal c b)
    (h : AnswersEq L a b) :
    let bad := a.version = b.version ∧ ((a.language = none ∨ b.language = none) ∨
      (a.language = b.language ∧ a.context = b.context ∧
        GList.SameExts L.toEnv a.parameters b.parameters ∧ ¬ (a.statement = [] ↔ b.statement = [])))
    (bad → equal c L [a] [b] = .ub) ∧
    (¬ bad → ∃ r, equal c L [a] [b] = .ok r ∧ (r = true ↔ SameScop L a b)) := by
  intro bad
  have e1 : equal c L [a] [b] = match equalOne c L a b with | .ok true => .ok true | r => r := rfl
  have e2 : ∀ o : Out Bool, (match o with | .ok true => .ok true | r => r) = o := by
    intro o; cases o with
    | ok v => cases v <;> rfl
    | err => rfl
    | ub => rfl
  rw [e1, e2]
  by_cases h1 : a.version = b.version
  rotate_left
  · refine ⟨fun hx => absurd hx.1 h1, fun _ => ⟨false, ?_, ?_⟩⟩
    · unfold equalOne; rw [if_pos h1]
    · simp only [Bool.false_eq_true, false_iff]; exact fun g => h1 g.version
  cases hu : a.language with
  | none =>
    have : equalOne c L a b = .ub := by
      unfold equalOne; rw [if_neg (by simp [h1])]; simp only [hu]
    exact ⟨fun _ => this, fun hx => absurd ⟨h1, .inl (.inl hu)⟩ hx⟩
  | some u =>
    cases hv : b.language with
    | none =>
      have : equalOne c L a b = .ub := by
        unfold equalOne; rw [if_neg (by simp [h1])]; simp only [hu, hv]
      exact ⟨fun _ => this, fun hx => absurd ⟨h1, .inl (.inr hv)⟩ hx⟩
    | some v =>
      by_cases hs : a.statement = [] ↔ b.statement = []
      · refine ⟨?_, fun _ => equalOne_spec ha hb ⟨⟨by simp [hu], by simp [hv]⟩, hs, h.ptotal, h.stotal, h.etotal⟩⟩
        rintro ⟨_, (h2 | h2) | h2⟩
        · rw [hu] at h2; cases h2
        · rw [hv] at h2; cases h2
        · exact absurd hs h2.2.2.2
      · have hst : Stmts.equal c L a.statement b.statement = .ub := by
          cases hA : a.statement with
          | nil =>
            cases hB : b.statement with
            | nil => exact absurd (by simp [hA, hB]) hs
            | cons y ys => rfl
          | cons x xs =>
            cases hB : b.statement with
            | nil => cases xs <;> rfl
            | cons y ys => exact absurd (by simp [hA, hB]) hs
        by_cases h2 : u = v
        rotate_left
        · have hd : equalOne c L a b = .ok false := by
            unfold equalOne; rw [if_neg (by simp [h1])]; simp only [hu, hv]; rw [if_pos h2]
          refine ⟨?_, fun _ => ⟨false, hd, ?_⟩⟩
          · rintro ⟨_, (h3 | h3) | h3⟩
            · rw [hu] at h3; cases h3
            · rw [hv] at h3; cases h3
            · have := h3.1; rw [hu, hv] at this; injection this with this; exact absurd this h2
          · simp only [Bool.false_eq_true, false_iff]
            intro g; have := g.language; rw [hu, hv] at this; injection this with this; exact h2 this
        have er : equalOne c L a b = equalRest c L a b := by
          unfold equalOne; rw [if_neg (by simp [h1])]; simp only [hu, hv]; rw [if_neg (by simp [h2])]
        rw [er]
        unfold equalRest
        rw [Rel.equal_ok ha.context.wf hb.context.wf]
        by_cases h3 : a.context = b.context
        rotate_left
        · refine ⟨?_, fun _ => ⟨false, by simp [h3], ?_⟩⟩
          · rintro ⟨_, (h4 | h4) | h4⟩
            · rw [hu] at h4; cases h4
            · rw [hv] at h4; cases h4
            · exact absurd h4.2.1 h3
          · simp only [Bool.false_eq_true, false_iff]; exact fun g => h3 g.context
        simp only [h3, decide_true]
        rcases GList.generic_equal_correct h.ptotal ha.parameters hb.parameters with ⟨e4, h4⟩ | ⟨e4, h4⟩
        · rw [e4]
          simp only [hst]
          refine ⟨fun _ => trivial, fun hx => absurd ⟨h1, .inr ⟨by rw [hu, hv, h2], h3, h4, hs⟩⟩ hx⟩
        · rw [e4]
          refine ⟨?_, fun _ => ⟨false, rfl, ?_⟩⟩
          · rintro ⟨_, (h5 | h5) | h5⟩
            · rw [hu] at h5; cases h5
            · rw [hv] at h5; cases h5
            · exact absurd h5.2.2.1 h4
          · simp only [Bool.false_eq_true, false_iff]; exact fun g => h4 g.parameters

/-- Both cases occur. -/
example : equal Cfg.std Stmts.natLib [exScop] [{ exScop with statement := [] }] = .ub ∧
    equal Cfg.std Stmts.natLib [{ exScop with language := none }] [exScop] = .ub ∧
    equal Cfg.std Stmts.natLib [exScop] [{ exScop with version := exScop.version + 1 }] = .ok false ∧
    equal Cfg.std Stmts.natLib [exScop] [exScop] = .ok true := by decide

end Scops

namespace Ext

namespace Arrays

/-- C44, every pair of arrays: the equality answers yes exactly when the sizes are the same and
each pair of the first is in the second (so it is right when no pair is repeated,
`arrays_equal_nodup`). -/
theorem arrays_equal_iff (a b : Arrays) :
    ∃ r, ops.equal (some a) (some b) = .ok r ∧
      (r = true ↔ a.pairs.length = b.pairs.length ∧ ∀ p ∈ a.pairs, p ∈ b.pairs) := by
  by_cases h : a.pairs.length = b.pairs.length
  · refine ⟨equalLoop b.pairs a.pairs, by simp [ops, equal, h], ?_⟩
    rw [equalLoop_iff]; simp [h]
  · exact ⟨false, by simp [ops, equal, h], by simp [h]⟩

theorem fillLoop_ub (ss : List Str) (l : List (Int × Str))
    (h : ∃ p ∈ l, ¬ (1 ≤ p.1 ∧ p.1 ≤ ss.length)) : fillLoop ss l = .ub := by
  induction l generalizing ss with
  | nil => obtain ⟨p, hp, _⟩ := h; cases hp
  | cons q l ih =>
    unfold fillLoop
    split
    · rename_i hq
      apply ih
      obtain ⟨p, hp, hn⟩ := h
      rcases List.mem_cons.mp hp with rfl | hp
      · exact absurd hq hn
      · exact ⟨p, hp, by rw [List.length_set]; exact hn⟩
    · rfl

/-- C44, every arrays extension (with identifiers of type `int`): the conversion to strings is
undefined exactly when an identifier is not positive or is INT_MAX. -/
theorem arrays_to_strings_cases (a : Arrays) (hf : ∀ p ∈ a.pairs, fits 32 p.1) :
    ((∃ p ∈ a.pairs, p.1 < 1 ∨ p.1 = cMax 32) → to_strings (some a) = .ub) ∧
    (¬ (∃ p ∈ a.pairs, p.1 < 1 ∨ p.1 = cMax 32) →
      ∃ s, to_strings (some a) = .ok (some s) ∧ (s.words.length : Int) = maxId a.pairs ∧
        ∀ k : Nat, k < s.words.length →
          s.words[k]? = some ((nameOf a.pairs (k + 1)).getD ("Dummy".toList ++ showNat (k + 1)))) := by
  have hmax : cMax 32 = 2 ^ 31 - 1 := rfl
  refine ⟨?_, fun h => arrays_to_strings_correct a fun p hp => ?_⟩
  · intro h
    have hne : a.pairs ≠ [] := by
      obtain ⟨p, hp, _⟩ := h; intro e; rw [e] at hp; cases hp
    obtain ⟨m1, q, hq, m2⟩ := maxId_spec a.pairs hne
    have hmf := hf q hq
    rw [m2] at hmf
    have hE : a.pairs.isEmpty = false := by cases h : a.pairs <;> simp_all
    by_cases hbad : maxId a.pairs < 0 ∨ maxId a.pairs = cMax 32
    · have := (Strings.strings_generate_cases "Dummy".toList hmf).1 hbad
      simp only [to_strings, this]; rfl
    · obtain ⟨s, g1, g2⟩ := (Strings.strings_generate_cases "Dummy".toList hmf).2 hbad
      simp only [to_strings, g1, Out.ok_bind, hE, Bool.false_eq_true, if_false]
      rw [fillLoop_ub]
      · rfl
      · obtain ⟨p, hp, h⟩ := h
        refine ⟨p, hp, ?_⟩
        rcases h with h | h
        · omega
        · have := m1 p hp
          have h2 : maxId a.pairs ≤ cMax 32 := hmf.2
          exact absurd (.inr (by omega)) hbad
  · have h1 : p.1 ≤ cMax 32 := (hf p hp).2
    have h2 : ¬ (p.1 < 1 ∨ p.1 = cMax 32) := fun e => h ⟨p, hp, e⟩
    omega

/-- Both cases occur. -/
example : to_strings (some ⟨[(0, ['A'])]⟩) = .ub ∧
    to_strings (some ⟨[(2, ['B'])]⟩) = .ok (some { string := some ["Dummy1".toList, ['B']] }) := by decide

end Arrays

namespace Dep

/-- C47, every case of `osl_dependence_add`: what follows the node `*now` of the list is dropped,
the added list takes its place. -/
theorem dependence_add_cases (start l : List Dep) (now : Nat) :
    (l = [] → add start now l = .ok (start, now)) ∧
    (l ≠ [] → start = [] → add start now l = .ok (l, l.length - 1)) ∧
    (l ≠ [] → start ≠ [] → now < start.length →
      add start now l = .ok (start.take (now + 1) ++ l, now + l.length)) := by
  refine ⟨?_, ?_, ?_⟩
  · rintro rfl; rfl
  · rintro h rfl; cases l with
    | nil => exact absurd rfl h
    | cons _ _ => rfl
  · intro h1 h2 h3
    cases l with
    | nil => exact absurd rfl h1
    | cons _ _ =>
      cases start with
      | nil => exact absurd rfl h2
      | cons _ _ => simp only [add]; rw [if_pos h3]

end Dep

namespace Symbol
variable {D : Type}

/-- C49, every pair of lists: only the first symbols count. -/
theorem symbols_equal_first (E : Env D) (s t : Symbol D) (l m : List (Symbol D)) :
    equal E (s :: l) (t :: m) = equal E [s] [t] ∧ equal E [] [] = .ok true ∧
    equal E (s :: l) [] = .ok false ∧ equal E [] (t :: m) = .ok false := ⟨rfl, rfl, rfl, rfl⟩

end Symbol
end Ext
end Osl
