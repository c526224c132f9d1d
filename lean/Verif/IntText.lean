import Verif.Text
import Verif.IntProps
/-!
# Model of the text functions of source/int.c, and property C10
-/

namespace Osl
namespace OInt

/-- `osl_int_sprint` (source/int.c:616-640): formats "%4ld", "%4lld", "%4s" (macros.h:78-80).  The
caller provides the buffer. -/
def sprint (c : Cfg) (p v : Int) : Out Str :=
  match kind c p with
  | some _ => .ok (padLeft 4 (showInt v))
  | none => .err

/-- `osl_int_sprint_txt` (source/int.c:648-672): formats "%ld", "%lld", "%s". -/
def sprint_txt (c : Cfg) (p v : Int) : Out Str :=
  match kind c p with
  | some _ => .ok (showInt v)
  | none => .err

/-- `osl_int_sscanf` (source/int.c:681-710): the new value of `*i` (`old` is the one on entry) and the
returned count, which is the number of conversions and not of characters; at the end of the input
`sscanf` returns `EOF` (-1), which is not reported.  A value out of the range of the type is
undefined behaviour (C11 7.21.6.2p10). -/
def sscanf (c : Cfg) (p : Int) (s : Str) (old : Int) : Out (Int × Int) :=
  match kind c p with
  | none => .err
  | some k =>
    match scanInt s with
    | .val v _ =>
      match k with
      | .fixed w => if fits w v then .ok (v, 1) else .ub
      | .mp => .ok (v, 1)
    | .fail => .err
    | .eof => .ok (old, -1)

/-- `osl_int_sread` (source/int.c:718-721): the value read and the new position in the string, which is
`none` if the pointer is moved before the string. -/
def sread (c : Cfg) (p : Int) (s : Str) (old : Int) : Out (Int × Option Str) :=
  match sscanf c p s old with
  | .ok (v, n) => .ok (v, if n < 0 then none else some (s.drop n.toNat))
  | .err => .err
  | .ub => .ub

theorem sscanf_show {c : Cfg} {p v old : Int} (h : InPrec c p v) (n : Nat) (rest : Str)
    (hr : ∀ d, rest.head? = some d → isDigit d = false) :
    sscanf c p (List.replicate n ' ' ++ (showInt v ++ rest)) old = .ok (v, 1) := by
  unfold sscanf
  cases hk : kind c p with
  | none => exact absurd hk h.kind_ne_none
  | some k =>
    rw [scanInt_show v n rest hr]
    unfold InPrec at h
    rw [hk] at h
    cases k with
    | mp => rfl
    | fixed w => simp only; rw [if_pos h]

/-- C10: reading the text printed by `osl_int_sprint` or `osl_int_sprint_txt` gives the value back,
in every precision, also when the text is followed by a separator. -/
theorem int_text_round_trip {c : Cfg} {p v old : Int} (h : InPrec c p v) (rest : Str)
    (hr : ∀ d, rest.head? = some d → isDigit d = false) :
    (∃ t, sprint c p v = .ok t ∧ ∃ pos, sread c p (t ++ rest) old = .ok (v, pos)) ∧
    (∃ t, sprint_txt c p v = .ok t ∧ ∃ pos, sread c p (t ++ rest) old = .ok (v, pos)) := by
  obtain ⟨k, hk⟩ := Option.ne_none_iff_exists'.mp h.kind_ne_none
  constructor
  · refine ⟨padLeft 4 (showInt v), by simp [sprint, hk], ?_⟩
    have := sscanf_show (old := old) h (4 - (showInt v).length) rest hr
    exact ⟨_, by simp only [sread, padLeft, List.append_assoc]; rw [this]⟩
  · refine ⟨showInt v, by simp [sprint_txt, hk], ?_⟩
    have := sscanf_show (old := old) h 0 rest hr
    simp only [List.replicate_zero, List.nil_append] at this
    exact ⟨_, by simp only [sread]; rw [this]⟩

/-- C10: the text is at least four characters wide, the digits are the decimal expansion. -/
theorem int_sprint_width {c : Cfg} {p v : Int} {t : Str} (h : sprint c p v = .ok t) : 4 ≤ t.length := by
  unfold sprint at h
  split at h
  · injection h with h; subst h; simp [padLeft]; omega
  · cases h

/-- C10: distinct values have distinct texts. -/
theorem int_sprint_injective {c : Cfg} {p v w : Int} (h : InPrec c p v) (h' : InPrec c p w)
    (e : sprint c p v = sprint c p w) : v = w := by
  obtain ⟨⟨t, e1, pos, r1⟩, _⟩ := int_text_round_trip (old := 0) h [] (by simp)
  obtain ⟨⟨t', e2, pos', r2⟩, _⟩ := int_text_round_trip (old := 0) h' [] (by simp)
  rw [e1, e2] at e
  injection e with e
  subst e
  rw [r1] at r2
  injection r2 with r2
  exact (Prod.mk.inj r2).1

/-- Finding (C10): `osl_int_sread` promises to move the position after the number, but moves it by one
character: a second read starts inside the number. -/
theorem int_sread_position_violates :
    sread Cfg.std PREC_DP "123 45".toList 0 = .ok (123, some "23 45".toList) := by decide

/-- Finding (C10): at the end of the input nothing is reported, the value is unchanged, and the
position moves before the string. -/
theorem int_sread_eof_unreported (c : Cfg) {p : Int} (hk : kind c p ≠ none) (old : Int) :
    sread c p [] old = .ok (old, none) := by
  obtain ⟨k, hk⟩ := Option.ne_none_iff_exists'.mp hk
  simp [sread, sscanf, hk, scanInt]

/-- Letters are reported as an error. -/
theorem int_sread_letters (c : Cfg) {p old : Int} (s : Str) (h : ∀ ch, s.head? = some ch → isDigit ch = false ∧ isSpace ch = false ∧ ch ≠ '-' ∧ ch ≠ '+')
    (hne : s ≠ []) : sread c p s old = .err := by
  unfold sread sscanf
  cases hk : kind c p with
  | none => rfl
  | some k =>
    cases s with
    | nil => exact absurd rfl hne
    | cons a as =>
      obtain ⟨h1, h2, h3, h4⟩ := h a rfl
      have e : scanInt (a :: as) = .fail := by
        unfold scanInt
        simp only [List.dropWhile_cons, h2]
        simp only [Bool.false_eq_true, if_false]
        split
        · rename_i heq; cases heq
        · rename_i heq; injection heq with h5 h6; exact absurd h5 h3
        · rename_i heq; injection heq with h5 h6; exact absurd h5 h4
        · simp [scanDigits, h1]
      simp only [e]

example : InPrec Cfg.std PREC_DP (-9223372036854775808) ∧
    sprint Cfg.std PREC_DP (-42) = .ok " -42".toList ∧ sread Cfg.std PREC_DP " -42 7".toList 0 = .ok (-42, some "-42 7".toList) := by decide

end OInt
end Osl
