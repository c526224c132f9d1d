import Verif.ReadLemmas
/-!
# Common base of the extensions (source/extensions/*.c)

The printers of the extensions format their pieces with `sprintf` in a buffer of OSL_MAX_STRING bytes before
appending them; the readers are given the address of a string pointer, which may be NULL.

The equality functions start with a comparison of the pointers; the model has no addresses, so it describes the calls
on two different structures (possibly with the same content).
-/

namespace Osl
namespace Ext

/-- `sprintf(buffer, ...)` where `buffer` has OSL_MAX_STRING bytes (for instance source/extensions/coordinates.c:155, 162):
undefined when the text and its terminator do not fit. -/
def buf (s : Str) : Out Str := if s.length < MAX_STRING then .ok s else .ub

/-- The argument of a `%s` conversion or of `strcmp`, `strlen`: undefined for NULL. -/
def str (s : Option Str) : Out Str := match s with | some s => .ok s | none => .ub

/-- `OSL_strdup` (include/osl/macros.h:164-173): NULL gives NULL, with a message. -/
def strdup (s : Option Str) : Option Str := s.map Util.strdup

/-- `strcmp(a, b) == 0`. -/
def strEq (a b : Option Str) : Out Bool := do
  let a ← str a
  let b ← str b
  return decide (a = b)

/-- A linked list which is not NULL. -/
structure NE (α : Type) where
  head : α
  tail : List α
deriving Repr, DecidableEq

/-- The elements of a linked list, `none` being NULL. -/
def NE.elems {α : Type} : Option (NE α) → List α
  | none => []
  | some l => l.head :: l.tail

/-- The linked list of given elements. -/
def NE.ofList {α : Type} : List α → Option (NE α)
  | [] => none
  | a :: l => some ⟨a, l⟩

theorem NE.elems_ofList {α : Type} (l : List α) : NE.elems (NE.ofList l) = l := by cases l <;> rfl
theorem NE.ofList_elems {α : Type} (l : Option (NE α)) : NE.ofList (NE.elems l) = l := by cases l <;> rfl
theorem NE.elems_inj {α : Type} {l m : Option (NE α)} (h : NE.elems l = NE.elems m) : l = m := by
  rw [← NE.ofList_elems l, h, NE.ofList_elems]

/-- The functions of the interface of an extension (include/osl/interface.h:74-80), on structures `X`.  A reader also
leaves a position in the string (`none` for NULL). -/
structure Ops (X : Type) where
  sprint : Option X → Out (Option Str)
  sread : Option Str → Out (Option X × Option Str)
  clone : Option X → Out (Option X)
  equal : Option X → Option X → Out Bool

/-- Specification of the text round trip of an extension: its text, possibly after blanks, is read back as an extension
which is equal to it.  (The reader is given the text after an end of line when the extensions are read from a string, and
right after it when they are read from a file, see source/generic.c:257-328.) -/
def Ops.RoundTrip {X : Type} (o : Ops X) (x : X) : Prop :=
  ∃ t, o.sprint (some x) = .ok (some t) ∧ ∀ pre : Str, (∀ c ∈ pre, isSpace c = true) →
    ∃ y rest, o.sread (some (pre ++ t)) = .ok (some y, rest) ∧ o.equal (some x) (some y) = .ok true

/-- Specification of the copy: it succeeds and gives an equal extension. -/
def Ops.CloneEqual {X : Type} (o : Ops X) (x : X) : Prop :=
  ∃ y, o.clone (some x) = .ok (some y) ∧ o.equal (some x) (some y) = .ok true

/-- Specification of the equality on the structures satisfying `P`: it answers, and it answers yes exactly for the same
contents `f`; NULL is only equal to NULL. -/
def Ops.EqualDecides {X C : Type} (o : Ops X) (P : X → Prop) (f : X → C) : Prop :=
  (∀ x y, P x → P y → ∃ b, o.equal (some x) (some y) = .ok b ∧ (b = true ↔ f x = f y)) ∧
  o.equal none none = .ok true ∧ (∀ x, o.equal (some x) none = .ok false ∧ o.equal none (some x) = .ok false)

theorem buf_ok {s : Str} (h : s.length < MAX_STRING) : buf s = .ok s := by simp [buf, h]

theorem buf_bind {α : Type} {s : Str} (f : Str → Out α) (h : s.length < MAX_STRING) : (buf s >>= f) = f s := by
  rw [buf_ok h]; rfl

theorem buf_eq_ok {s t : Str} : buf s = .ok t ↔ s.length < MAX_STRING ∧ t = s := by
  unfold buf
  split
  · rename_i h; simp [h, eq_comm]
  · rename_i h; simp [h]

theorem str_eq_ok {s : Option Str} {t : Str} : str s = .ok t ↔ s = some t := by
  cases s <;> simp [str]

theorem strEq_some (a b : Str) : strEq (some a) (some b) = .ok (decide (a = b)) := rfl

end Ext

namespace Util

/-- A text the readers skip entirely. -/
def Skips (pre : Str) : Prop := ∀ s, sskip (pre ++ s) = sskip s

/-- The state (inside a comment or not) after a text which is skipped. -/
def skipState : Bool → Str → Option Bool
  | b, [] => some b
  | false, c :: s => if isSpace c then skipState false s else if c = '#' then skipState true s else none
  | true, c :: s => if c = '\n' then skipState false s else skipState true s

theorem skip_append {b b' : Bool} {pre : Str} (h : skipState b pre = some b') (s : Str) : skip b (pre ++ s) = skip b' s := by
  induction pre generalizing b with
  | nil => simp [skipState] at h; subst h; rfl
  | cons c pre ih =>
    cases b with
    | false =>
      simp only [skipState] at h
      simp only [List.cons_append, skip]
      split at h
      · rename_i h1; rw [if_pos h1]; exact ih h
      · rename_i h1
        split at h
        · rename_i h2; rw [if_neg h1, if_pos h2]; exact ih h
        · cases h
    | true =>
      simp only [skipState] at h
      simp only [List.cons_append, skip]
      split at h
      · rename_i h1; rw [if_pos h1]; exact ih h
      · rename_i h1; rw [if_neg h1]; exact ih h

theorem skips_of {pre : Str} (h : skipState false pre = some false) : Skips pre := fun s => skip_append h s

theorem skipState_append {b b' : Bool} {p : Str} (h : skipState b p = some b') (q : Str) :
    skipState b (p ++ q) = skipState b' q := by
  induction p generalizing b with
  | nil => simp [skipState] at h; subst h; rfl
  | cons c p ih =>
    cases b with
    | false =>
      simp only [skipState, List.cons_append] at h ⊢
      split at h
      · rename_i h1; rw [if_pos h1]; exact ih h
      · rename_i h1
        split at h
        · rename_i h2; rw [if_neg h1, if_pos h2]; exact ih h
        · cases h
    | true =>
      simp only [skipState, List.cons_append] at h ⊢
      split at h
      · rename_i h1; rw [if_pos h1]; exact ih h
      · rename_i h1; rw [if_neg h1]; exact ih h

theorem Skips.blanks {p : Str} (h : ∀ c ∈ p, isSpace c = true) : Skips p := fun s => sskip_spaces h s

theorem Skips.nil : Skips [] := fun _ => rfl
theorem Skips.newline : Skips "\n".toList := skips_of (by decide)
theorem Skips.space : Skips " ".toList := skips_of (by decide)
theorem Skips.append {p q : Str} (hp : Skips p) (hq : Skips q) : Skips (p ++ q) := by
  intro s; rw [List.append_assoc, hp, hq]
/-- A comment line. -/
theorem Skips.comment {l : Str} (h : ∀ c ∈ l, c ≠ '\n') : Skips ("#".toList ++ l ++ "\n".toList) := by
  intro s
  have := sskip_comment h s
  simpa using this

/-- What follows a value: a blank, a comment or nothing. -/
def Sep (rest : Str) : Prop := ∀ c, rest.head? = some c → wordChar c = false

theorem Sep.newline (s : Str) : Sep ("\n".toList ++ s) := by intro c hc; simp at hc; subst hc; decide
theorem Sep.space (s : Str) : Sep (" ".toList ++ s) := by intro c hc; simp at hc; subst hc; decide
theorem Sep.nil : Sep [] := by intro c hc; simp at hc

theorem read_int_pre {pre : Str} (hp : Skips pre) {v : Int} (hv : fits 32 v) {rest : Str} (hr : Sep rest) :
    read_int (pre ++ (showInt v ++ rest)) = .ok (v, rest) := by
  rw [read_int_skip, hp, ← read_int_skip]; exact read_int_show hv rest hr

theorem read_string_pre {pre : Str} (hp : Skips pre) {w rest : Str} (hw : w ≠ []) (h : ∀ c ∈ w, wordChar c = true)
    (hl : w.length < MAX_STRING) (hr : Sep rest) : read_string (pre ++ (w ++ rest)) = .ok (w, rest) := by
  rw [read_string_skip, hp, ← read_string_skip]; exact read_string_word hw h hl hr

/-- A line that can be read back: not empty, starting with a visible character, without `#`, short enough. -/
structure Line (l : Str) : Prop where
  ne : l ≠ []
  chars : ∀ c ∈ l, lineChar c = true
  starts : Starts l
  short : l.length < MAX_STRING

theorem read_line_pre {pre : Str} (hp : Skips pre) {l : Str} (h : Line l) (s : Str) :
    read_line (pre ++ (l ++ ("\n".toList ++ s))) = .ok (l, "\n".toList ++ s) := by
  have h2 : Starts (l ++ ("\n".toList ++ s)) := by
    have := h.ne
    cases l with
    | nil => exact absurd rfl this
    | cons a e => intro c hc; exact h.starts c hc
  rw [read_line_skip, hp, ← read_line_skip]
  exact read_line_line h2 h.chars h.short (by intro c hc; simp at hc; subst hc; decide)

theorem showNat_pos (n : Nat) : showNat n = showInt n := by
  unfold showInt
  rw [if_neg (by omega)]; simp

end Util
end Osl
