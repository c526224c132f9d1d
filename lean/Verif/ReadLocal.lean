import Verif.ReadScop
import Verif.ReadLines
/-!
# A reader consumes its own text, whatever follows it (C63)

For every file: what a reader returns depends on the text it consumes only, and files which hold scops can be concatenated.
-/

namespace Osl

namespace Util

/-- What a reader of files returns depends on the text it consumes only (specification): it consumes a prefix `pre` of the file, and when it has not reached the
end of the file, it returns the same value and leaves what follows `pre`, whatever follows it, as long as `P` holds of it. -/
def Local {α : Type} (P : Str → Prop) (f : Str → Out (α × Str)) : Prop :=
  ∀ s v rest, f s = .ok (v, rest) → ∃ pre, s = pre ++ rest ∧ (rest ≠ [] → ∀ rest', P rest' → f (pre ++ rest') = .ok (v, rest'))

/-- A condition on what follows which remains true when something is put before. -/
def Extends (P : Str → Prop) : Prop := ∀ a b, P b → P (a ++ b)

theorem Local.pure {α : Type} {P : Str → Prop} (v : α) : Local P (fun s => .ok (v, s)) := by
  intro s v' rest h
  cases h
  exact ⟨[], rfl, fun _ rest' _ => rfl⟩

theorem Local.err {α : Type} {P : Str → Prop} : Local P (fun _ => (.err : Out (α × Str))) := by
  intro s v' rest h; cases h

theorem Local.ub {α : Type} {P : Str → Prop} : Local P (fun _ => (.ub : Out (α × Str))) := by
  intro s v' rest h; cases h

theorem Local.bind {α β : Type} {P : Str → Prop} (hP : Extends P) {f : Str → Out (α × Str)} {g : α × Str → Out (β × Str)} (hf : Local P f) (hg : ∀ a, Local P (fun s => g (a, s))) :
    Local P (fun s => f s >>= g) := by
  intro s v rest h
  obtain ⟨⟨a, r1⟩, h1, h2⟩ := Out.bind_eq_ok.mp h
  obtain ⟨p1, e1, g1⟩ := hf s a r1 h1
  obtain ⟨p2, e2, g2⟩ := hg a r1 v rest h2
  refine ⟨p1 ++ p2, by rw [e1, e2]; simp, ?_⟩
  intro hr rest' hp
  have hr1 : r1 ≠ [] := by
    intro e; rw [e] at e2
    have := congrArg List.length e2
    simp at this
    exact hr (List.length_eq_zero_iff.mp (by omega))
  have := g1 hr1 (p2 ++ rest') (hP p2 rest' hp)
  rw [List.append_assoc]
  show f (p1 ++ (p2 ++ rest')) >>= g = _
  rw [this, Out.ok_bind]
  exact g2 hr rest' hp

/-- A step without effect on the file. -/
theorem Local.calc {α β : Type} {P : Str → Prop} (o : Out α) {g : α → Str → Out (β × Str)} (hg : ∀ a, Local P (g a)) : Local P (fun s => o >>= fun a => g a s) := by
  cases o with
  | ok a => exact hg a
  | err => exact Local.err
  | ub => exact Local.ub

theorem fgets_local {n : Nat} (hn : 0 < n) {s line rest : Str} (h : fgets n s = some (line, rest)) : s = line ++ rest ∧ (rest ≠ [] → ∀ rest', fgets n (line ++ rest') = some (line, rest')) := by
  cases s with
  | nil => cases h
  | cons ch s =>
    have hsplit : (ch :: s).takeWhile (fun c => c != '\n') ++ (ch :: s).dropWhile (fun c => c != '\n') = ch :: s := List.takeWhile_append_dropWhile
    have hno : ∀ x ∈ (ch :: s).takeWhile (fun c => c != '\n'), (x != '\n') = true := by
      have := List.all_takeWhile (p := fun c => c != '\n') (l := ch :: s)
      rw [List.all_eq_true] at this
      exact this
    have hhead := List.head?_dropWhile_not (fun c => c != '\n') (ch :: s)
    simp only [fgets] at h
    generalize hs : ch :: s = t at *
    have ht : t ≠ [] := by rw [← hs]; simp
    clear hs
    generalize hl : t.takeWhile (fun c => c != '\n') = l at *
    generalize hd : t.dropWhile (fun c => c != '\n') = d at *
    split at h
    · next hlt =>
      injection h with h; injection h with h1 h2
      have e1 : t.drop l.length = d := by rw [← hsplit]; simp
      have e2 : t.drop (l.length + 1) = d.drop 1 := by rw [← hsplit, List.drop_append]; simp
      rw [e1] at h1
      rw [e2] at h2
      subst h1 h2
      refine ⟨by rw [List.append_assoc, List.take_append_drop]; exact hsplit.symm, ?_⟩
      intro hr rest'
      cases d with
      | nil => exact absurd rfl hr
      | cons x d =>
        simp only [List.head?_cons] at hhead
        have hx : x = '\n' := by simpa using hhead
        subst hx
        have e3 : (l ++ List.take 1 ('\n' :: d) ++ rest').takeWhile (fun c => c != '\n') = l := by
          simp only [List.take_succ_cons, List.take_zero, List.append_assoc, List.cons_append, List.nil_append]
          rw [List.takeWhile_append_of_pos hno]
          simp
        simp only [fgets]
        split
        · next e => simp at e
        · simp only [e3]
          rw [if_pos hlt]
          simp
    · next hge =>
      injection h with h; injection h with h1 h2
      subst h1 h2
      refine ⟨(List.take_append_drop n t).symm, ?_⟩
      intro hr rest'
      have hlen : n < t.length := by
        apply Classical.byContradiction
        intro hc
        exact hr (List.drop_eq_nil_of_le (by omega))
      have e1 : t.take n = l.take n := by rw [← hsplit, List.take_append_of_le_length (by omega)]
      have hall : ∀ x ∈ t.take n, (x != '\n') = true := by
        intro x hx
        rw [e1] at hx
        exact hno x (List.mem_of_mem_take hx)
      have hlt : (t.take n).length = n := by rw [List.length_take]; omega
      generalize t.take n = a at *
      cases a with
      | nil => simp at hlt; omega
      | cons x a =>
        simp only [List.cons_append, fgets]
        rw [← List.cons_append, List.takeWhile_append_of_pos hall]
        rw [if_neg (by rw [List.length_append]; omega)]
        rw [← hlt]
        simp
theorem fskip_none {s rest : Str} (h : fskip s = (none, rest)) : rest = [] := by
  generalize hn : s.length = n
  induction n using Nat.strongRecOn generalizing s with
  | ind n ih =>
    rw [fskip_unfold] at h
    cases hg : fgets (MAX_STRING - 1) s with
    | none =>
      rw [hg] at h
      cases h
      cases rest with
      | nil => rfl
      | cons ch s => simp only [fgets] at hg; split at hg <;> cases hg
    | some x =>
      obtain ⟨line, r⟩ := x
      rw [hg] at h
      simp only at h
      have := fgets_lt (by decide) hg
      split at h
      · split at h
        · exact ih r.length (by omega) h rfl
        · cases h
      · cases h

theorem fskip_local {s line rest : Str} (h : fskip s = (some line, rest)) : ∃ pre, s = pre ++ rest ∧ (rest ≠ [] → ∀ rest', fskip (pre ++ rest') = (some line, rest')) := by
  generalize hn : s.length = n
  induction n using Nat.strongRecOn generalizing s with
  | ind n ih =>
    rw [fskip_unfold] at h
    cases hg : fgets (MAX_STRING - 1) s with
    | none => rw [hg] at h; cases h
    | some x =>
      obtain ⟨l, r⟩ := x
      rw [hg] at h
      simp only at h
      have hlt := fgets_lt (by decide) hg
      obtain ⟨e1, g1⟩ := fgets_local (by decide) hg
      cases hb : skipBlank l with
      | nil =>
        rw [hb] at h
        cases h
        refine ⟨l, e1, fun hr rest' => ?_⟩
        rw [fskip_unfold, g1 hr rest']
        simp only [hb]
      | cons ch t =>
        rw [hb] at h
        simp only at h
        split at h
        · next hc =>
          obtain ⟨p2, e2, g2⟩ := ih r.length (by omega) h rfl
          refine ⟨l ++ p2, by rw [e1, e2]; simp, fun hr rest' => ?_⟩
          have hr1 : r ≠ [] := by
            intro e; rw [e] at e2
            have := congrArg List.length e2
            simp at this
            exact hr (List.length_eq_zero_iff.mp (by omega))
          rw [fskip_unfold, List.append_assoc, g1 hr1]
          simp only [hb]
          rw [if_pos hc]
          exact g2 hr rest'
        · next hc =>
          cases h
          refine ⟨l, e1, fun hr rest' => ?_⟩
          rw [fskip_unfold, g1 hr rest']
          simp only [hb]
          rw [if_neg hc]

/-- A reader which reads a line first. -/
theorem Local.line {α : Type} {P : Str → Prop} {bad : Out (α × Str)} (hbad : ∀ x, bad ≠ .ok x) {k : Str → Str → Out (α × Str)} (hk : ∀ line, Local P (k line)) :
    Local P (fun s => match fskip s with | (none, _) => bad | (some line, rest) => k line rest) := by
  intro s v rest h
  cases hs : fskip s with
  | mk o r =>
    simp only [hs] at h
    cases o with
    | none => exact absurd h (hbad _)
    | some line =>
      obtain ⟨p1, e1, g1⟩ := fskip_local hs
      obtain ⟨p2, e2, g2⟩ := hk line r v rest h
      refine ⟨p1 ++ p2, by rw [e1, e2]; simp, fun hr rest' hp => ?_⟩
      have hr1 : r ≠ [] := by
        intro e; rw [e] at e2
        have := congrArg List.length e2
        simp at this
        exact hr (List.length_eq_zero_iff.mp (by omega))
      rw [List.append_assoc]
      simp only [g1 hr1 (p2 ++ rest')]
      exact g2 hr rest' hp

theorem fread_int_local {P : Str → Prop} (hP : Extends P) : Local P fread_int := by
  unfold fread_int
  refine Local.line (by simp) fun line => ?_
  cases scanInt line with
  | val v r =>
    simp only
    split
    · exact Local.pure v
    · exact Local.ub
  | fail => exact Local.err
  | eof => exact Local.err

end Util

namespace Strings

theorem read_local {P : Str → Prop} (hP : Util.Extends P) : Util.Local P read := by
  unfold read
  refine Util.Local.line (by simp) fun line => ?_
  cases sread line with
  | ok x => exact Util.Local.pure x.1
  | err => exact Util.Local.err
  | ub => exact Util.Local.ub

end Strings

namespace Rel

open Util (Local Extends)

theorem fread_type_local {P : Str → Prop} (hP : Extends P) : Local P fread_type := by
  unfold fread_type
  refine Local.bind hP (Strings.read_local hP) fun s => ?_
  exact Local.calc (typeOfStrings s) fun t => Local.pure t

theorem fLine_local {P : Str → Prop} (hP : Extends P) : Local P fLine := by
  unfold fLine
  refine Local.line (by simp) fun line => ?_
  exact Local.calc (firstLine line) fun t => Local.pure t

/-- A reader with a state, in the order of the other readers. -/
theorem local_swap {α β γ : Type} {P : Str → Prop} (hP : Extends P) {f : Str → Out (α × β × Str)} {g : α × β × Str → Out (γ × Str)}
    (hf : Local P (fun s => f s >>= fun x => .ok (swap3 x))) (hg : ∀ a b, Local P (fun s => g (a, b, s))) : Local P (fun s => f s >>= g) := by
  have h := Local.bind hP (g := fun x : (α × β) × Str => g (x.1.1, x.1.2, x.2)) hf fun a => hg a.1 a.2
  have e : (fun s => f s >>= g) = fun s => (f s >>= fun x => .ok (swap3 x)) >>= fun x : (α × β) × Str => g (x.1.1, x.1.2, x.2) := by
    funext s
    cases f s with
    | ok x => rfl
    | err => rfl
    | ub => rfl
  rw [e]
  exact h

theorem fRows_local {P : Str → Prop} (hP : Extends P) {c : Cfg} {p : Int} {k : Nat} : ∀ (n : Nat) (last : Option (Str × Nat)), Local P (fun s => fRows c p k n last s >>= fun x => .ok (swap3 x))
  | 0, last => Local.pure ([], last)
  | n + 1, last => by
    have h := Local.line (bad := .err) (by simp) (k := fun line rest => readVals c p k { pos := some line, last := last } >>= fun a =>
      fRows c p k n a.2.last rest >>= fun b => .ok ((a.1 :: b.1, b.2.1), b.2.2)) fun line =>
        Local.calc (readVals c p k { pos := some line, last := last }) fun a =>
          local_swap hP (fRows_local hP n a.2.last) fun m l => Local.pure (a.1 :: m, l)
    have e : (fun s => fRows c p k (n + 1) last s >>= fun x => Out.ok (swap3 x)) = fun s => match Util.fskip s with
      | (none, _) => .err
      | (some line, rest) => readVals c p k { pos := some line, last := last } >>= fun a => fRows c p k n a.2.last rest >>= fun b => .ok ((a.1 :: b.1, b.2.1), b.2.2) := by
      funext s
      simp only [fRows]
      cases Util.fskip s with
      | mk o r =>
        cases o with
        | none => rfl
        | some line =>
          simp only
          cases readVals c p k { pos := some line, last := last } with
          | err => rfl
          | ub => rfl
          | ok a =>
            simp only [Out.ok_bind]
            cases fRows c p k n a.2.last r with
            | err => rfl
            | ub => rfl
            | ok b => rfl
    rw [e]
    exact h

theorem fBody_local {P : Str → Prop} (hP : Extends P) {c : Cfg} {p type : Int} (d : Header) (last : Option (Str × Nat)) : Local P (fun s => fBody c p type d last s >>= fun x => .ok (swap3 x)) := by
  have h := Local.calc (P := P) (pmalloc c p d.nb_rows d.nb_columns) fun _ => local_swap hP (fRows_local (c := c) (p := p) (k := d.nb_columns.toNat) hP d.nb_rows.toNat last)
    (g := fun x => .ok ((d.part p type x.1, x.2.1), x.2.2)) fun m l => Local.pure (d.part p type m, l)
  have e : (fun s => fBody c p type d last s >>= fun x => Out.ok (swap3 x)) = fun s => pmalloc c p d.nb_rows d.nb_columns >>= fun _ =>
      fRows c p d.nb_columns.toNat d.nb_rows.toNat last s >>= fun x => .ok ((d.part p type x.1, x.2.1), x.2.2) := by
    funext s
    unfold fBody
    cases pmalloc c p d.nb_rows d.nb_columns with
    | err => rfl
    | ub => rfl
    | ok a =>
      simp only [Out.ok_bind]
      cases fRows c p d.nb_columns.toNat d.nb_rows.toNat last s with
      | err => rfl
      | ub => rfl
      | ok b => rfl
  rw [e]
  exact h

theorem fParts_local {P : Str → Prop} (hP : Extends P) {c : Cfg} {p type : Int} : ∀ (n : Nat) (last : Option (Str × Nat)), Local P (fParts c p type n last)
  | 0, last => Local.pure []
  | n + 1, last => by
    refine Local.bind hP (fLine_local hP) fun l => ?_
    cases l with
    | count _ => exact Local.err
    | header d => exact local_swap hP (fBody_local hP d last) fun q l => Local.bind hP (fParts_local hP n l) fun r => Local.pure (q :: r)

theorem pread_local {P : Str → Prop} (hP : Extends P) {c : Cfg} {p : Int} : Local P (pread c p) := by
  unfold pread
  refine Local.bind hP (fread_type_local hP) fun type => ?_
  refine Local.bind hP (fLine_local hP) fun l => ?_
  cases l with
  | count n =>
    simp only
    split
    · exact Local.err
    · exact fParts_local hP _ _
  | header d => exact local_swap hP (fBody_local hP d none) fun q l => Local.pure [q]

/-- C63: reading a relation consumes a prefix of the file, and what follows has no influence: when the reading does not reach the end of the file, the same relation is
read from the same prefix followed by anything, which remains to be read. -/
theorem relation_pread_local {c : Cfg} {p : Int} {file rest : Str} {r : Rel} (h : pread c p file = .ok (r, rest)) (hr : rest ≠ []) :
    ∃ pre, file = pre ++ rest ∧ ∀ rest', pread c p (pre ++ rest') = .ok (r, rest') := by
  obtain ⟨pre, e, g⟩ := pread_local (P := fun _ => True) (fun _ _ _ => trivial) file r rest h
  exact ⟨pre, e, fun rest' => g hr rest' trivial⟩

end Rel

namespace RList

open Util (Local Extends)

theorem readLoop_local {P : Str → Prop} (hP : Extends P) {c : Cfg} {p : Int} : ∀ n : Nat, Local P (readLoop c p n)
  | 0 => Local.pure []
  | n + 1 => Local.bind hP (Rel.pread_local hP) fun r => Local.bind hP (readLoop_local hP n) fun l => Local.pure (r :: l)

theorem pread_local {P : Str → Prop} (hP : Extends P) {c : Cfg} {p : Int} : Local P (pread c p) := by
  unfold pread
  refine Local.bind hP (Util.fread_int_local hP) fun n => ?_
  show Local P (fun s => if n < 0 then .err else readElts c p n s)
  split
  · exact Local.err
  · unfold readElts
    split
    · exact Local.pure [[]]
    · exact readLoop_local hP _

/-- C63 for a list of relations. -/
theorem list_pread_local {c : Cfg} {p : Int} {file rest : Str} {l : RList} (h : pread c p file = .ok (l, rest)) (hr : rest ≠ []) :
    ∃ pre, file = pre ++ rest ∧ ∀ rest', pread c p (pre ++ rest') = .ok (l, rest') := by
  obtain ⟨pre, e, g⟩ := pread_local (P := fun _ => True) (fun _ _ _ => trivial) file l rest h
  exact ⟨pre, e, fun rest' => g hr rest' trivial⟩

end RList

namespace Util

/-- Something follows. -/
def Follows (s : Str) : Prop := s ≠ []

theorem follows_extends : Extends Follows := fun a b h e => h (List.append_eq_nil_iff.mp e).2

/-- A reader which stops at a flag (specification): what it returns depends on the text it consumes only, whatever follows, the end of the file or not. -/
def LocalEnd {α : Type} (f : Str → Out (α × Str)) : Prop :=
  ∀ s v rest, f s = .ok (v, rest) → ∃ pre, s = pre ++ rest ∧ pre ≠ [] ∧ ∀ rest', f (pre ++ rest') = .ok (v, rest')

theorem LocalEnd.pre {α β : Type} {f : Str → Out (α × Str)} {g : α × Str → Out (β × Str)} (hf : Local Follows f) (hg : ∀ a, LocalEnd (fun s => g (a, s))) :
    LocalEnd (fun s => f s >>= g) := by
  intro s v rest h
  obtain ⟨⟨a, r1⟩, h1, h2⟩ := Out.bind_eq_ok.mp h
  obtain ⟨p1, e1, g1⟩ := hf s a r1 h1
  obtain ⟨p2, e2, hne, g2⟩ := hg a r1 v rest h2
  refine ⟨p1 ++ p2, by rw [e1, e2]; simp, fun e => hne (List.append_eq_nil_iff.mp e).2, ?_⟩
  intro rest'
  rw [List.append_assoc]
  show f (p1 ++ (p2 ++ rest')) >>= g = _
  rw [g1 (by rw [e2]; exact fun e => hne (List.append_eq_nil_iff.mp e).1) (p2 ++ rest') (fun e => hne (List.append_eq_nil_iff.mp e).1), Out.ok_bind]
  exact g2 rest'

theorem LocalEnd.calc {α β : Type} (o : Out α) {g : α → Str → Out (β × Str)} (hg : ∀ a, LocalEnd (g a)) : LocalEnd (fun s => o >>= fun a => g a s) := by
  cases o with
  | ok a => exact hg a
  | err => intro s v rest h; cases h
  | ub => intro s v rest h; cases h

theorem IsFirst.other {flag pre post : Str} (h : IsFirst flag (pre ++ flag ++ post) pre post) (post' : Str) : IsFirst flag (pre ++ flag ++ post') pre post' := by
  refine ⟨rfl, ?_⟩
  intro p q e
  apply Classical.byContradiction
  intro hlt
  have hle : (p ++ flag).length ≤ (pre ++ flag).length := by simp; omega
  have e1 : p ++ flag = (pre ++ flag).take (p ++ flag).length := by
    have := congrArg (List.take (p ++ flag).length) e
    rw [List.take_append_of_le_length hle, List.take_left] at this
    exact this.symm
  have := h.2 p ((pre ++ flag).drop (p ++ flag).length ++ post) (by
    have e2 := List.take_append_drop (p ++ flag).length (pre ++ flag)
    rw [← e1] at e2
    rw [← List.append_assoc, e2])
  omega

/-- Reading up to a flag. -/
theorem read_uptoflag_local {flag : Str} (hf : flag ≠ []) {s : Str} {o : Option Str} {rest : Str} (h : read_uptoflag s flag = .ok (o, rest)) :
    (o = none ∧ rest = [] ∧ ¬ flag <:+: s) ∨ ∃ x, o = some x ∧ IsFirst flag s x rest ∧ ∀ rest', read_uptoflag (x ++ flag ++ rest') flag = .ok (some x, rest') := by
  rcases read_uptoflag_correct s flag hf with ⟨pre, post, h1, h2⟩ | ⟨h1, h2⟩
  · rw [h] at h2
    cases h2
    refine .inr ⟨pre, rfl, h1, fun rest' => read_uptoflag_first hf ?_⟩
    have e := h1.1
    rw [e] at h1
    exact IsFirst.other h1 rest'
  · rw [h] at h2
    cases h2
    exact .inl ⟨rfl, rfl, h1⟩

theorem read_uptoendtag_local {P : Str → Prop} (name : Str) : Local P (fun s => read_uptoendtag s name) := by
  intro s o rest h
  rcases read_uptoflag_local (by simp [endTag]) h with ⟨_, rfl, _⟩ | ⟨x, rfl, h1, h2⟩
  · exact ⟨s, by simp, fun hr => absurd rfl hr⟩
  · exact ⟨x ++ endTag name, h1.1, fun _ rest' _ => h2 rest'⟩

theorem fread_tag_local : Local Follows fread_tag := by
  intro s v rest h
  unfold fread_tag at h
  cases hs : fskip s with
  | mk o r =>
    rw [hs] at h
    cases o with
    | none =>
      cases h
      have := fskip_none hs
      subst this
      exact ⟨s, by simp, fun hr => absurd rfl hr⟩
    | some line =>
      obtain ⟨p1, e1, g1⟩ := fskip_local hs
      simp only at h
      have hr : r = rest := by
        split at h
        · cases h; rfl
        · split at h
          · cases h; rfl
          · split at h
            · split at h
              · cases h; rfl
              · cases h
              · cases h
            · cases h
      subst hr
      refine ⟨p1, e1, fun hr rest' hf => ?_⟩
      unfold fread_tag
      rw [g1 hr rest']
      simp only
      rw [if_neg (fun hc => hr hc.1)] at h
      rw [if_neg (fun hc => hf hc.1)]
      split
      · cases h; rfl
      · split
        · next hc =>
          simp only [hc, if_true] at h
          split at h
          · cases h; rfl
          · cases h
          · cases h
        · next hc => simp only [hc, if_false] at h; cases h

end Util

namespace GList

open Util (Local LocalEnd Follows follows_extends)

variable {D : Type}

theorem readTagged_local {E : Env D} {registry : Ifaces} (tag : Option Str) : Local Follows (readTagged E registry tag) := by
  cases tag with
  | none => exact Local.pure []
  | some t =>
    cases t with
    | nil => exact Local.pure []
    | cons c t =>
      show Local Follows (fun rest => readTagged E registry (some (c :: t)) rest)
      simp only [readTagged]
      split
      · exact Local.pure []
      · refine Local.bind follows_extends (Util.read_uptoendtag_local (c :: t)) fun content => ?_
        show Local Follows (fun s => match Ifaces.lookup registry (some (c :: t)) with
          | none => .ok ([], s)
          | some i => Ifaces.nclone [i] 1 >>= fun is => E.sread i.fns.sread content >>= fun d => .ok ([({ interface := is.head?, data := d } : Generic D)], s))
        cases Ifaces.lookup registry (some (c :: t)) with
        | none => exact Local.pure []
        | some i => exact Local.calc _ fun is => Local.calc _ fun d => Local.pure _

theorem fread_one_local {E : Env D} {registry : Ifaces} : Local Follows (fread_one E registry) :=
  Local.bind follows_extends Util.fread_tag_local fun tag => readTagged_local tag

theorem read_localEnd {E : Env D} {registry : Ifaces} : LocalEnd (read E registry) := by
  intro s v rest h
  unfold read at h
  obtain ⟨⟨o, r⟩, h1, h⟩ := Out.bind_eq_ok.mp h
  rcases Util.read_uptoflag_local (by simp [Util.endTag]) h1 with ⟨rfl, _, _⟩ | ⟨x, rfl, h2, h3⟩
  · cases h
  · simp only at h
    obtain ⟨⟨l, r'⟩, h4, h⟩ := Out.bind_eq_ok.mp h
    cases h
    refine ⟨x ++ Util.endTag "OpenScop".toList, h2.1, by simp [Util.endTag], fun rest' => ?_⟩
    unfold read
    have := h3 rest'
    unfold Util.read_uptoendtag
    rw [this]
    simp only [Out.ok_bind, h4]
    rfl

end GList

namespace Stmts

open Util (Local LocalEnd Follows follows_extends)

variable {D : Type}

theorem readExts_local {E : Env D} {registry : Ifaces} : ∀ (n : Nat) (acc : GList D), Local Follows (fun s => readExts E registry n s acc)
  | 0, acc => Local.pure acc
  | n + 1, acc => Local.bind follows_extends GList.fread_one_local fun new => Local.calc (GList.add acc new) fun acc' => readExts_local n acc'

theorem pread_local {c : Cfg} {L : Lib D} {registry : Ifaces} {p : Int} : Local Follows (pread c L registry p) := by
  refine Local.bind follows_extends (RList.pread_local follows_extends) fun l => ?_
  refine Local.calc (dispatch c l) fun x => ?_
  refine Local.bind follows_extends (Util.fread_int_local follows_extends) fun n => ?_
  exact Local.bind follows_extends (readExts_local n.toNat []) fun e => Local.pure _

/-- C63 for a statement: what follows must not be empty, because the reader of the tags of the extensions looks for the end of the file. -/
theorem statement_pread_local {c : Cfg} {L : Lib D} {registry : Ifaces} {p : Int} {file rest : Str} {s : Stmt D} (h : pread c L registry p file = .ok (s, rest)) (hr : rest ≠ []) :
    ∃ pre, file = pre ++ rest ∧ ∀ rest', rest' ≠ [] → pread c L registry p (pre ++ rest') = .ok (s, rest') := by
  obtain ⟨pre, e, g⟩ := pread_local file s rest h
  exact ⟨pre, e, fun rest' hf => g hr rest' hf⟩

end Stmts

namespace Scops

open Util (Local LocalEnd Follows follows_extends)

variable {D : Type}

theorem readStmts_local {c : Cfg} {L : Lib D} {registry : Ifaces} {p : Int} : ∀ n : Nat, Local Follows (readStmts c L registry p n)
  | 0 => Local.pure []
  | n + 1 => Local.bind follows_extends Stmts.pread_local fun s => Local.bind follows_extends (readStmts_local n) fun ss => Local.pure (s :: ss)

theorem readLanguage_local : Local Follows readLanguage := by
  refine Local.bind follows_extends (Strings.read_local follows_extends) fun l => ?_
  cases l with
  | none => exact Local.err
  | some l =>
    show Local Follows (fun s => match l.words with | [] => .err | w :: _ => .ok (w, s))
    cases l.words with
    | nil => exact Local.err
    | cons w ws => exact Local.pure w

theorem readParameters_local {E : Env D} {registry : Ifaces} (n : Int) : Local Follows (readParameters E registry n) := by
  show Local Follows (fun s => readParameters E registry n s)
  unfold readParameters
  split
  · exact GList.fread_one_local
  · exact Local.pure []

theorem LocalEnd.map {α β : Type} {f : Str → Out (α × Str)} (hf : LocalEnd f) (g : α → β) : LocalEnd (fun s => f s >>= fun x => .ok (g x.1, x.2)) := by
  intro s v rest h
  obtain ⟨⟨a, r1⟩, h1, h2⟩ := Out.bind_eq_ok.mp h
  cases h2
  obtain ⟨p, e, hne, g1⟩ := hf s a _ h1
  exact ⟨p, e, hne, fun rest' => by simp only [g1, Out.ok_bind]⟩

theorem readOne_localEnd {c : Cfg} {L : TextLib D} {registry : Ifaces} {p : Int} : LocalEnd (readOne c L registry p) := by
  refine LocalEnd.calc (Ifaces.clone registry) fun reg => ?_
  refine LocalEnd.pre readLanguage_local fun lang => ?_
  refine LocalEnd.pre (Rel.pread_local follows_extends) fun ctx => ?_
  refine LocalEnd.pre (Util.fread_int_local follows_extends) fun np => ?_
  refine LocalEnd.pre (readParameters_local np) fun par => ?_
  refine LocalEnd.pre (Util.fread_int_local follows_extends) fun ns => ?_
  refine LocalEnd.pre (readStmts_local ns.toNat) fun st => ?_
  exact LocalEnd.map GList.read_localEnd _

theorem readLoop_fuel {c : Cfg} {L : TextLib D} {registry : Ifaces} {p : Int} : ∀ {n m : Nat} {s : Str} {l : Scops D}, readLoop c L registry p n s = .ok l → n ≤ m →
    readLoop c L registry p m s = .ok l
  | 0, _, _, _, h, _ => by cases h
  | n + 1, 0, _, _, _, hm => by omega
  | n + 1, m + 1, s, l, h, hm => by
    simp only [readLoop] at h ⊢
    obtain ⟨⟨o, r⟩, h1, h⟩ := Out.bind_eq_ok.mp h
    rw [h1, Out.ok_bind]
    cases o with
    | none => exact h
    | some x =>
      simp only at h ⊢
      obtain ⟨⟨sc, r'⟩, h2, h⟩ := Out.bind_eq_ok.mp h
      obtain ⟨l', h3, h⟩ := Out.bind_eq_ok.mp h
      cases h
      rw [h2, Out.ok_bind]
      simp only [readLoop_fuel h3 (by omega : n ≤ m), Out.ok_bind]
      rfl

/-- A flag without end of line is not across an end of line. -/
theorem infix_split {f a b : Str} (hf : '\n' ∉ f) {p q : Str} (e : p ++ f ++ q = a ++ '\n' :: b) : (∃ q', p ++ f ++ q' = a) ∨ ∃ p', p = a ++ '\n' :: p' := by
  rw [List.append_assoc] at e
  rcases List.append_eq_append_iff.mp e with ⟨as, e1, e2⟩ | ⟨bs, e1, e2⟩
  · left
    rcases List.append_eq_append_iff.mp e2 with ⟨as', e3, e4⟩ | ⟨bs', e3, e4⟩
    · exact ⟨as', by rw [e1, e3]; simp⟩
    · cases bs' with
      | nil => exact ⟨[], by rw [e1, e3]; simp⟩
      | cons x bs' =>
        simp only [List.cons_append, List.cons.injEq] at e4
        exact absurd (by rw [e3, ← e4.1]; simp) hf
  · cases bs with
    | nil =>
      cases f with
      | nil => exact .inl ⟨[], by simp [e1]⟩
      | cons x f =>
        simp only [List.nil_append, List.cons_append, List.cons.injEq] at e2
        exact absurd (by rw [e2.1]; simp) hf
    | cons x bs =>
      simp only [List.cons_append, List.cons.injEq] at e2
      exact .inr ⟨bs, by rw [e1, e2.1]⟩

theorem readLoop_append {c : Cfg} {L : TextLib D} {registry : Ifaces} {p : Int} {s2 : Str} {l2 : Scops D} {m : Nat} (h2 : readLoop c L registry p m s2 = .ok l2) :
    ∀ {n : Nat} {s : Str} {l : Scops D}, readLoop c L registry p n s = .ok l → readLoop c L registry p (n + m) (s ++ '\n' :: s2) = .ok (l ++ l2)
  | 0, _, _, h => by cases h
  | n + 1, s, l, h => by
    have hnl : '\n' ∉ Util.startTag URI_SCOP := by decide
    have hne : Util.startTag URI_SCOP ≠ [] := by decide
    simp only [readLoop] at h
    obtain ⟨⟨o, r⟩, h1, h⟩ := Out.bind_eq_ok.mp h
    rcases Util.read_uptoflag_local hne h1 with ⟨rfl, _, hno⟩ | ⟨x, rfl, hx, _⟩
    · cases h
      rw [List.nil_append]
      cases m with
      | zero => cases h2
      | succ m =>
        have e : ∃ k, n + 1 + (m + 1) = k + 1 ∧ m ≤ k := ⟨n + 1 + m, by omega, by omega⟩
        obtain ⟨k, e, hk⟩ := e
        rw [e]
        simp only [readLoop] at h2 ⊢
        obtain ⟨⟨o2, r2⟩, g1, h2⟩ := Out.bind_eq_ok.mp h2
        rcases Util.read_uptoflag_local hne g1 with ⟨rfl, rfl, hno2⟩ | ⟨x2, rfl, hx2, _⟩
        · cases h2
          have : Util.read_uptotag (s ++ '\n' :: s2) URI_SCOP = .ok (none, []) := by
            rcases Util.read_uptoflag_correct (s ++ '\n' :: s2) _ hne with ⟨pre, post, i1, _⟩ | ⟨_, i2⟩
            · rcases infix_split hnl i1.1.symm with ⟨q', e⟩ | ⟨p', e⟩
              · exact absurd ⟨pre, q', e⟩ hno
              · have := i1.1
                rw [e] at this
                simp only [List.append_assoc, List.cons_append, List.append_cancel_left_eq, List.cons.injEq, true_and] at this
                exact absurd ⟨p', post, by rw [this]; simp⟩ hno2
            · exact i2
          rw [this]; rfl
        · have : Util.read_uptotag (s ++ '\n' :: s2) URI_SCOP = .ok (some (s ++ '\n' :: x2), r2) := by
            refine Util.read_uptotag_first ⟨by rw [hx2.1]; simp, ?_⟩
            intro pre post e
            rcases infix_split hnl e.symm with ⟨q', e'⟩ | ⟨p', e'⟩
            · exact absurd ⟨pre, q', e'⟩ hno
            · rw [e'] at e
              simp only [List.append_assoc, List.cons_append, List.append_cancel_left_eq, List.cons.injEq, true_and] at e
              have := hx2.2 p' post (by rw [e]; simp)
              rw [e']
              simp only [List.length_append, List.length_cons]
              omega
          rw [this]
          simp only [Out.ok_bind] at h2 ⊢
          obtain ⟨⟨sc, r'⟩, g2, h2⟩ := Out.bind_eq_ok.mp h2
          obtain ⟨l', g3, h2⟩ := Out.bind_eq_ok.mp h2
          cases h2
          rw [g2, Out.ok_bind]
          simp only [readLoop_fuel g3 hk, Out.ok_bind]
          rfl
    · simp only at h
      obtain ⟨⟨sc, r'⟩, g2, h⟩ := Out.bind_eq_ok.mp h
      obtain ⟨l', g3, h⟩ := Out.bind_eq_ok.mp h
      cases h
      have e : n + 1 + m = (n + m) + 1 := by omega
      rw [e]
      simp only [readLoop]
      have : Util.read_uptotag (s ++ '\n' :: s2) URI_SCOP = .ok (some x, r ++ '\n' :: s2) := by
        refine Util.read_uptotag_first ?_
        have e := hx.1
        rw [e] at hx
        have := Util.IsFirst.other hx (r ++ '\n' :: s2)
        rw [← List.append_assoc, ← e] at this
        exact this
      rw [this]
      simp only [Out.ok_bind]
      obtain ⟨pre, e1, _, g4⟩ := readOne_localEnd r sc r' g2
      have e2 : r ++ '\n' :: s2 = pre ++ (r' ++ '\n' :: s2) := by rw [e1]; simp
      rw [e2, g4, Out.ok_bind]
      simp only [readLoop_append h2 g3, Out.ok_bind]
      rfl

theorem integrity_append {c : Cfg} {L : Lib D} : ∀ {l1 l2 : Scops D} {b1 b2 : Bool}, integrity_check c L l1 = .ok b1 → integrity_check c L l2 = .ok b2 →
    ∃ b, integrity_check c L (l1 ++ l2) = .ok b
  | [], _, _, b2, _, h2 => ⟨b2, h2⟩
  | s :: l1, l2, b1, b2, h1, h2 => by
    simp only [integrity_check, List.cons_append] at h1 ⊢
    cases e : Rel.integrity_check c s.context TYPE_CONTEXT UNDEFINED UNDEFINED UNDEFINED with
    | err => rw [e] at h1; cases h1
    | ub => rw [e] at h1; cases h1
    | ok b =>
      rw [e] at h1
      cases b with
      | false => exact ⟨false, rfl⟩
      | true =>
        simp only at h1 ⊢
        cases e' : Stmts.integrity_check c L (expectedParams s.context) s.statement with
        | err => rw [e'] at h1; cases h1
        | ub => rw [e'] at h1; cases h1
        | ok b =>
          rw [e'] at h1
          cases b with
          | false => exact ⟨false, rfl⟩
          | true => exact integrity_append h1 h2

/-- C63: files can be concatenated: when scops are read from two files, the file made of the first one, an end of line and the second one holds the scops of the first
one followed by those of the second one.  There is no hypothesis on what the files hold besides the scops. -/
theorem scop_pread_append {c : Cfg} {L : TextLib D} {registry : Ifaces} {p : Int} {s1 s2 : Str} {l1 l2 : Scops D} (h1 : pread c L registry p s1 = .ok l1)
    (h2 : pread c L registry p s2 = .ok l2) : pread c L registry p (s1 ++ '\n' :: s2) = .ok (l1 ++ l2) := by
  unfold pread at h1 h2 ⊢
  obtain ⟨x1, a1, h1⟩ := Out.bind_eq_ok.mp h1
  obtain ⟨b1, c1, h1⟩ := Out.bind_eq_ok.mp h1
  cases h1
  obtain ⟨x2, a2, h2⟩ := Out.bind_eq_ok.mp h2
  obtain ⟨b2, c2, h2⟩ := Out.bind_eq_ok.mp h2
  cases h2
  have h := readLoop_append a2 a1
  have e : s1.length + 1 + (s2.length + 1) = (s1 ++ '\n' :: s2).length + 1 := by simp; omega
  rw [e] at h
  obtain ⟨b, hb⟩ := integrity_append c1 c2
  simp only [h, Out.ok_bind, hb]
  rfl

end Scops
end Osl
