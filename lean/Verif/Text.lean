import Verif.Int
/-!
# C strings, decimal printing and scanning

A NUL-terminated C string is a list of characters (without the terminator); a `char*` position
inside a string is the list of the remaining characters.  This file models the parts of the C
library the code uses: `isspace`, `printf("%d")`, `printf("%4ld")`, `sscanf("%d")`, `sscanf("%s")`,
`fgets`.
-/

namespace Osl

/-- A C string (without its terminating NUL), or what remains of it. -/
abbrev Str := List Char

/-- OSL_MAX_STRING (include/osl/macros.h:89). -/
def MAX_STRING : Nat := 2048

/-- C `isspace` in the "C" locale (C11 7.4.1.10). -/
def isSpace (c : Char) : Bool :=
  c == ' ' || c == '\t' || c == '\n' || c == '\x0b' || c == '\x0c' || c == '\r'

/-- C `isdigit`. -/
def isDigit (c : Char) : Bool := c.isDigit

/-- The decimal digit `d < 10`. -/
def digitChar (d : Nat) : Char := Char.ofNat (48 + d)

/-- Value of a decimal digit. -/
def digitVal (c : Char) : Nat := c.toNat - 48

/-- Decimal digits, with fuel. -/
def showNatAux : Nat → Nat → Str
  | 0, _ => []
  | f + 1, n => if n < 10 then [digitChar n] else showNatAux f (n / 10) ++ [digitChar (n % 10)]

/-- Decimal digits of a natural number, most significant first (`printf`). -/
def showNat (n : Nat) : Str := showNatAux (n + 1) n

/-- `printf("%d")`, `"%ld"`, `"%lld"`, and `mpz_get_str(0, 10, ..)`. -/
def showInt (v : Int) : Str := if v < 0 then '-' :: showNat v.natAbs else showNat v.natAbs

/-- Field width of `printf("%4..")`: right justified. -/
def padLeft (w : Nat) (s : Str) : Str := List.replicate (w - s.length) ' ' ++ s

/-- Value of a list of decimal digits. -/
def digitsVal (s : Str) : Nat := s.foldl (fun acc c => 10 * acc + digitVal c) 0

/-- Result of one `sscanf` integer conversion: value and remaining string; matching failure; or end
of input before anything was read (`sscanf` then returns `EOF`). -/
inductive Scan where
  | val (v : Int) (rest : Str)
  | fail
  | eof
deriving Repr, DecidableEq

/-- Digits after an optional sign. -/
def scanDigits (neg : Bool) (s : Str) : Scan :=
  match s.takeWhile isDigit with
  | [] => .fail
  | d :: ds =>
    let n : Int := digitsVal (d :: ds)
    .val (if neg then -n else n) (s.dropWhile isDigit)

/-- `sscanf(s, "%d")` as a mathematical integer (C11 7.21.6.2: white space is skipped, then an
optional sign and digits are read).  The range is checked by the callers. -/
def scanInt (s : Str) : Scan :=
  match s.dropWhile isSpace with
  | [] => .eof
  | '-' :: t => scanDigits true t
  | '+' :: t => scanDigits false t
  | t => scanDigits false t

/-- `sscanf(s, "%s%n")`: the token and what remains, `none` at the end of the input. -/
def scanToken (s : Str) : Option (Str × Str) :=
  match s.dropWhile isSpace with
  | [] => none
  | t => some (t.takeWhile (fun c => !isSpace c), t.dropWhile (fun c => !isSpace c))

/-- `sscanf(s, " %d %d ...")` with `n` conversions into C `int`s: the values read, fewer than `n`
at the first failure; undefined when a value does not fit (C11 7.21.6.2p10). -/
def scanInts : Nat → Str → Out (List Int)
  | 0, _ => .ok []
  | n + 1, s =>
    match scanInt s with
    | .val v rest =>
      if fits 32 v then
        match scanInts n rest with
        | .ok l => .ok (v :: l)
        | .err => .err
        | .ub => .ub
      else .ub
    | _ => .ok []

/-! ## Lemmas -/

theorem digitChar_isDigit {d : Nat} (h : d < 10) : isDigit (digitChar d) = true := by
  have : ∀ d : Fin 10, isDigit (digitChar d.val) = true := by decide
  exact this ⟨d, h⟩

theorem digitVal_digitChar {d : Nat} (h : d < 10) : digitVal (digitChar d) = d := by
  have : ∀ d : Fin 10, digitVal (digitChar d.val) = d.val := by decide
  exact this ⟨d, h⟩

theorem showNatAux_fuel (f n : Nat) (h : n < f) : showNatAux f n = showNatAux (n + 1) n := by
  induction n using Nat.strongRecOn generalizing f with
  | ind n ih =>
    cases f with
    | zero => omega
    | succ f =>
      rw [showNatAux, showNatAux]
      split
      · rfl
      · rw [ih (n / 10) (by omega) f (by omega), ih (n / 10) (by omega) n (by omega)]

theorem showNat_eq (n : Nat) :
    showNat n = if n < 10 then [digitChar n] else showNat (n / 10) ++ [digitChar (n % 10)] := by
  unfold showNat
  rw [showNatAux]
  split
  · rfl
  · rw [showNatAux_fuel n (n / 10) (by omega)]

theorem showNat_digits (n : Nat) : ∀ c ∈ showNat n, isDigit c = true := by
  induction n using Nat.strongRecOn with
  | ind n ih =>
    intro c hc
    rw [showNat_eq] at hc
    split at hc
    · rename_i h; simp at hc; subst hc; exact digitChar_isDigit h
    · rcases List.mem_append.mp hc with hc | hc
      · exact ih (n / 10) (by omega) c hc
      · simp at hc; subst hc; exact digitChar_isDigit (by omega)

theorem showNat_ne_nil (n : Nat) : showNat n ≠ [] := by
  rw [showNat_eq]; split <;> simp

theorem digitsVal_append (s t : Str) : digitsVal (s ++ t) = t.foldl (fun acc c => 10 * acc + digitVal c) (digitsVal s) := by
  simp [digitsVal]

theorem digitsVal_showNat (n : Nat) : digitsVal (showNat n) = n := by
  induction n using Nat.strongRecOn with
  | ind n ih =>
    rw [showNat_eq]
    split
    · rename_i h; simp [digitsVal, digitVal_digitChar h]
    · rw [digitsVal_append, ih (n / 10) (by omega)]
      simp [digitVal_digitChar (show n % 10 < 10 by omega)]
      omega

theorem isDigit_not_space {c : Char} (h : isDigit c = true) : isSpace c = false := by
  cases hs : isSpace c
  · rfl
  · exfalso
    simp only [isSpace, Bool.or_eq_true, beq_iff_eq] at hs
    rcases hs with ((((h1 | h1) | h1) | h1) | h1) | h1 <;> (subst h1; exact absurd h (by decide))

theorem isDigit_ne {c d : Char} (h : isDigit c = true) (hd : isDigit d = false) : c ≠ d := by
  rintro rfl; rw [h] at hd; cases hd

theorem takeWhile_append_stop {α : Type} {p : α → Bool} {s t : List α} (hs : ∀ a ∈ s, p a = true)
    (ht : ∀ a, t.head? = some a → p a = false) : (s ++ t).takeWhile p = s ∧ (s ++ t).dropWhile p = t := by
  induction s with
  | nil =>
    cases t with
    | nil => simp
    | cons a t => simp [ht a rfl]
  | cons a s ih =>
    have ha := hs a (by simp)
    have := ih (fun b hb => hs b (by simp [hb]))
    simp [ha, this]

theorem scanDigits_show (neg : Bool) (n : Nat) (rest : Str) (h : ∀ c, rest.head? = some c → isDigit c = false) :
    scanDigits neg (showNat n ++ rest) = .val (if neg then -(n : Int) else n) rest := by
  obtain ⟨h1, h2⟩ := takeWhile_append_stop (showNat_digits n) h
  unfold scanDigits
  rw [h1, h2]
  cases hd : showNat n with
  | nil => exact absurd hd (showNat_ne_nil n)
  | cons d ds =>
    simp only
    rw [← hd, digitsVal_showNat]

theorem dropWhile_spaces {n : Nat} {t : Str} (h : ∀ c, t.head? = some c → isSpace c = false) :
    (List.replicate n ' ' ++ t).dropWhile isSpace = t :=
  (takeWhile_append_stop (p := isSpace) (s := List.replicate n ' ')
    (fun a ha => by rw [List.eq_of_mem_replicate ha]; decide) h).2

theorem showNat_head (n : Nat) : ∃ d ds, showNat n = d :: ds ∧ isDigit d = true := by
  cases h : showNat n with
  | nil => exact absurd h (showNat_ne_nil n)
  | cons d ds => exact ⟨d, ds, rfl, showNat_digits n d (by rw [h]; simp)⟩

/-- Scanning a printed integer, possibly padded and followed by something else than a digit. -/
theorem scanInt_show (v : Int) (n : Nat) (rest : Str) (h : ∀ c, rest.head? = some c → isDigit c = false) :
    scanInt (List.replicate n ' ' ++ (showInt v ++ rest)) = .val v rest := by
  unfold scanInt
  by_cases hv : v < 0
  · have e : showInt v = '-' :: showNat v.natAbs := by simp [showInt, hv]
    rw [e, dropWhile_spaces (by simp; decide)]
    simp only [List.cons_append]
    rw [scanDigits_show true v.natAbs rest h]
    simp only [if_true]
    congr 1; omega
  · have e : showInt v = showNat v.natAbs := by simp [showInt, hv]
    obtain ⟨d, ds, hd, hdig⟩ := showNat_head v.natAbs
    rw [e, dropWhile_spaces (by rw [hd]; simp; exact isDigit_not_space hdig), hd]
    have h1 : d ≠ '-' := isDigit_ne hdig (by decide)
    have h2 : d ≠ '+' := isDigit_ne hdig (by decide)
    have := scanDigits_show false v.natAbs rest h
    rw [hd] at this
    simp only [List.cons_append] at this ⊢
    split
    · rename_i heq; cases heq
    · rename_i heq; injection heq with h3 h4; exact absurd h3 h1
    · rename_i heq; injection heq with h3 h4; exact absurd h3 h2
    · rw [this]
      simp only [Bool.false_eq_true, if_false]
      congr 1; omega

theorem showInt_ne_nil (v : Int) : showInt v ≠ [] := by
  unfold showInt; split
  · simp
  · exact showNat_ne_nil _

/-- A printed integer has no white space. -/
theorem showInt_nospace (v : Int) : ∀ c ∈ showInt v, isSpace c = false := by
  intro c hc
  unfold showInt at hc
  split at hc
  · rcases List.mem_cons.mp hc with rfl | hc
    · decide
    · exact isDigit_not_space (showNat_digits _ c hc)
  · exact isDigit_not_space (showNat_digits _ c hc)

/-- A word is read back as a token. -/
theorem scanToken_word (n : Nat) (w rest : Str) (hw : w ≠ []) (hns : ∀ c ∈ w, isSpace c = false)
    (h : ∀ c, rest.head? = some c → isSpace c = true) :
    scanToken (List.replicate n ' ' ++ (w ++ rest)) = some (w, rest) := by
  unfold scanToken
  cases w with
  | nil => exact absurd rfl hw
  | cons a as =>
    rw [dropWhile_spaces (by simp; exact hns a (by simp))]
    obtain ⟨h1, h2⟩ := takeWhile_append_stop (p := fun c => !isSpace c) (s := a :: as) (t := rest)
      (fun c hc => by simp [hns c hc]) (fun c hc => by simp [h c hc])
    simp only [List.cons_append] at h1 h2 ⊢
    rw [h1, h2]

end Osl
