import Verif.ExtSymbols
import Verif.ExtLoopProps
import Verif.GenericTextProps
/-!
# Properties of the extension symbols (C49)
-/

namespace Osl

namespace GList

variable {D : Type}

/-- The reader skips blanks and comments before a tag. -/
theorem sread_one_pre {E : Env D} {registry : Ifaces} {pre : Str} (hp : Util.Skips pre) (s : Str) :
    sread_one E registry (pre ++ s) = sread_one E registry s := by
  unfold sread_one Util.read_tag
  rw [hp]

/-- A list of one extension which can be written and read back. -/
def Present (E : Env D) (registry : Ifaces) (l : GList D) : Prop := ∃ g, l = [g] ∧ Textable E registry g

/-- The same lists of one extension. -/
def SameOne (E : Env D) (l l' : GList D) : Prop := ∃ g g', l = [g] ∧ l' = [g'] ∧ SameGeneric E g g'

theorem Present.text {E : Env D} {registry : Ifaces} {l : GList D} (h : Present E registry l) :
    ∃ t l', sprint E l = .ok (t ++ "\n".toList) ∧ SameOne E l l' ∧ ∀ pre, Util.Skips pre → ∀ rest,
      sread_one E registry (pre ++ (t ++ rest)) = .ok (l', rest) := by
  obtain ⟨g, rfl, i, u, t, d, a1, a2, a3, a4, a5, a6, a7, a8, a9⟩ := h
  refine ⟨Util.startTag u ++ "\n".toList ++ t ++ Util.endTag u, [{ interface := some i, data := some d }], ?_, ⟨g, _, rfl, rfl, i, a1, rfl, a9⟩, ?_⟩
  · simp [sprint, piecesLoop, pieces, a1, a6, a2, a4, Util.emit_eq]
  · intro pre hp rest
    rw [sread_one_pre hp]
    have := sread_one_ok (E := E) a2 a3 a4 a5 a7 a8 (sp := []) (by simp) rest
    simpa using this

theorem SameOne.equal {E : Env D} {l l' : GList D} (h : SameOne E l l') (hu : ∀ g ∈ l, uri g ≠ none) : GList.equal E l l' = .ok true := by
  obtain ⟨g, g', rfl, rfl, i, a, b, c⟩ := h
  refine (same_of_pointwise (E := E) ⟨by simp, hu⟩ (by simp [a, b]) ?_).2
  intro k hk hk'
  have : k = 0 := by simp at hk; omega
  subst this
  exact ⟨i, a, b, c⟩

end GList

namespace Ext
namespace Symbol

variable {D : Type}

/-- What the text round trip needs from a symbol: a type with a name (or undefined), C integers, and the four parts present, each one an
extension which can be written and read back. -/
structure Textable (E : Env D) (registry : Ifaces) (s : Symbol D) : Prop where
  type : s.type = UNDEFINED ∨ s.type = 1 ∨ s.type = 2 ∨ s.type = 3 ∨ s.type = 4
  generated : fits 32 s.generated
  nb_dims : fits 32 s.nb_dims
  identifier : GList.Present E registry s.identifier
  datatype : GList.Present E registry s.datatype
  scope : GList.Present E registry s.scope
  extent : GList.Present E registry s.extent

/-- Two symbols are the same (specification): the same numbers, and parts with the same interfaces and equal data. -/
structure Same (E : Env D) (s t : Symbol D) : Prop where
  type : t.type = s.type
  generated : t.generated = s.generated
  nb_dims : t.nb_dims = s.nb_dims
  identifier : GList.SameOne E s.identifier t.identifier
  datatype : GList.SameOne E s.datatype t.datatype
  scope : GList.SameOne E s.scope t.scope
  extent : GList.SameOne E s.extent t.extent

theorem type_word {t : Int} (h : t = UNDEFINED ∨ t = 1 ∨ t = 2 ∨ t = 3 ∨ t = 4) :
    typeOf (typeText t) = t ∧ typeText t ≠ [] ∧ (∀ c ∈ typeText t, Util.wordChar c = true) ∧ (typeText t).length < MAX_STRING := by
  rcases h with rfl | rfl | rfl | rfl | rfl <;> decide

/-- The text of a symbol is read back, whatever follows it. -/
theorem readOne_text {E : Env D} {registry : Ifaces} {s : Symbol D} (h : Textable E registry s) :
    ∃ ps t s', pieces E s = .ok ps ∧ ps.flatten = t ++ "\n".toList ∧ Same E s s' ∧ ∀ pre, Util.Skips pre → ∀ rest,
      readOne E registry (pre ++ (t ++ rest)) = .ok (s', rest) := by
  obtain ⟨t1, l1, p1, q1, r1⟩ := h.identifier.text
  obtain ⟨t2, l2, p2, q2, r2⟩ := h.datatype.text
  obtain ⟨t3, l3, p3, q3, r3⟩ := h.scope.text
  obtain ⟨t4, l4, p4, q4, r4⟩ := h.extent.text
  obtain ⟨w1, w2, w3, w4⟩ := type_word h.type
  have s0 : Util.Skips ("# ===========================================\n".toList ++ ("# 1 Data for symbol number 1 \n".toList ++ "# 1.1 Symbol type\n".toList)) :=
    Util.skips_of (by decide)
  have s1 : Util.Skips ("\n".toList ++ "\n# 1.2 Generated Boolean\n".toList) := Util.skips_of (by decide)
  have s2 : Util.Skips ("\n".toList ++ "\n# 1.3 Number of dimensions\n".toList) := Util.skips_of (by decide)
  have s3 : Util.Skips ("\n".toList ++ "\n# 1.4 Identifier\n".toList) := Util.skips_of (by decide)
  have s4 : Util.Skips ("\n".toList ++ "\n# 1.5 Datatype\n".toList) := Util.skips_of (by decide)
  have s5 : Util.Skips ("\n".toList ++ "\n# 1.6 Scope\n".toList) := Util.skips_of (by decide)
  have s6 : Util.Skips ("\n".toList ++ "\n# 1.7 Extent\n".toList) := Util.skips_of (by decide)
  have hps : pieces E s = .ok ["# ===========================================\n".toList, "# 1 Data for symbol number 1 \n".toList,
    "# 1.1 Symbol type\n".toList, typeText s.type ++ "\n".toList,
    "\n# 1.2 Generated Boolean\n".toList ++ (showInt s.generated ++ "\n".toList),
    "\n# 1.3 Number of dimensions\n".toList ++ (showInt s.nb_dims ++ "\n".toList),
    "\n# 1.4 Identifier\n".toList, t1 ++ "\n".toList, "\n# 1.5 Datatype\n".toList, t2 ++ "\n".toList, "\n# 1.6 Scope\n".toList, t3 ++ "\n".toList,
    "\n# 1.7 Extent\n".toList, t4 ++ "\n".toList] := by
    unfold pieces
    rw [p1, p2, p3, p4]
    rfl
  rw [hps]
  generalize "# ===========================================\n".toList = k1 at s0
  generalize "# 1 Data for symbol number 1 \n".toList = k2 at s0
  generalize "# 1.1 Symbol type\n".toList = k3 at s0
  generalize "\n# 1.2 Generated Boolean\n".toList = k4 at s1
  generalize "\n# 1.3 Number of dimensions\n".toList = k5 at s2
  generalize "\n# 1.4 Identifier\n".toList = k6 at s3
  generalize "\n# 1.5 Datatype\n".toList = k7 at s4
  generalize "\n# 1.6 Scope\n".toList = k8 at s5
  generalize "\n# 1.7 Extent\n".toList = k9 at s6
  refine ⟨_, k1 ++ (k2 ++ (k3 ++ (typeText s.type ++ ("\n".toList ++ (k4 ++ (showInt s.generated ++ ("\n".toList ++ (k5 ++ (showInt s.nb_dims ++ ("\n".toList ++
    (k6 ++ (t1 ++ ("\n".toList ++ (k7 ++ (t2 ++ ("\n".toList ++ (k8 ++ (t3 ++ ("\n".toList ++ (k9 ++ t4)))))))))))))))))))),
    ⟨s.type, s.generated, s.nb_dims, l1, l2, l3, l4⟩, rfl, ?_, ⟨rfl, rfl, rfl, q1, q2, q3, q4⟩, fun pre hp rest => ?_⟩
  · simp only [List.flatten_cons, List.flatten_nil, List.append_assoc, List.append_nil]
  · simp only [List.append_assoc]
    unfold readOne
    rw [← List.append_assoc k2, ← List.append_assoc k1, ← List.append_assoc pre, Util.read_string_pre (hp.append s0) w2 w3 w4 (Util.Sep.newline _)]
    simp only [Out.ok_bind]
    rw [← List.append_assoc "\n".toList k4, Util.read_int_pre s1 h.generated (Util.Sep.newline _)]
    simp only [Out.ok_bind]
    rw [← List.append_assoc "\n".toList k5, Util.read_int_pre s2 h.nb_dims (Util.Sep.newline _)]
    simp only [Out.ok_bind]
    rw [← List.append_assoc "\n".toList k6, r1 _ s3]
    simp only [Out.ok_bind]
    rw [← List.append_assoc "\n".toList k7, r2 _ s4]
    simp only [Out.ok_bind]
    rw [← List.append_assoc "\n".toList k8, r3 _ s5]
    simp only [Out.ok_bind]
    rw [← List.append_assoc "\n".toList k9, r4 _ s6]
    simp only [Out.ok_bind, w1]
    rfl

theorem readLoop_text {E : Env D} {registry : Ifaces} : ∀ {l : List (Symbol D)}, (∀ s ∈ l, Textable E registry s) →
    ∃ ps l', piecesLoop E l = .ok ps ∧ l'.length = l.length ∧ (∀ k (h : k < l.length) (h' : k < l'.length), Same E l[k] l'[k]) ∧
      ∀ pre, Util.Skips pre → ∀ rest, ∃ sk, Util.Skips sk ∧ readLoop E registry l.length (pre ++ (ps.flatten ++ rest)) = .ok (l', sk ++ rest)
  | [], _ => ⟨[], [], rfl, rfl, by simp, fun pre hp rest => ⟨pre, hp, rfl⟩⟩
  | s :: l, h => by
    obtain ⟨ps, t, s', a1, a2, a3, a4⟩ := readOne_text (h s (by simp))
    obtain ⟨ps', l', b1, b2, b3, b4⟩ := readLoop_text (l := l) fun x hx => h x (by simp [hx])
    refine ⟨ps ++ ps', s' :: l', by simp only [piecesLoop, a1, b1]; rfl, by simp [b2], ?_, fun pre hp rest => ?_⟩
    · intro k hk hk'
      cases k with
      | zero => exact a3
      | succ k => exact b3 k (by simpa using hk) (by simpa using hk')
    · obtain ⟨sk, c1, c2⟩ := b4 "\n".toList Util.Skips.newline rest
      refine ⟨sk, c1, ?_⟩
      rw [List.flatten_append, a2]
      simp only [List.append_assoc, List.length_cons, readLoop]
      rw [a4 pre hp]
      simp only [Out.ok_bind]
      rw [c2]
      rfl

theorem Textable.uris {E : Env D} {registry : Ifaces} {l : GList D} (h : GList.Present E registry l) : ∀ g ∈ l, GList.uri g ≠ none := by
  obtain ⟨g, rfl, i, u, t, d, a1, a2, _⟩ := h
  intro x hx
  simp at hx; subst hx
  simp [GList.uri, a1, a2]

theorem Same.equal {E : Env D} {registry : Ifaces} {s t : Symbol D} (ht : Textable E registry s) (h : Same E s t) (l m : List (Symbol D)) :
    Symbol.equal E (s :: l) (t :: m) = .ok true := by
  simp only [Symbol.equal, h.type, h.generated, h.nb_dims, and_self, if_true, andThen]
  rw [h.identifier.equal (Textable.uris ht.identifier), h.datatype.equal (Textable.uris ht.datatype), h.scope.equal (Textable.uris ht.scope),
    h.extent.equal (Textable.uris ht.extent)]
  rfl

theorem wrap_small {n : Nat} (h : (n : Int) < 2 ^ 31) : wrap 32 (n : Int) = n := by
  unfold wrap
  have h2 : (2 : Int) ^ 31 = 2147483648 := rfl
  have h3 : (2 : Int) ^ 32 = 4294967296 := rfl
  rw [h2] at h
  first
    | (split <;> omega)
    | omega

/-- C49: the text of symbols whose parts are all present, if it has at most OSL_MAX_STRING characters, is read back: symbol for symbol the
same numbers and parts with equal data. -/
theorem symbols_text_back {E : Env D} {registry : Ifaces} {l : List (Symbol D)} (h : ∀ s ∈ l, Textable E registry s)
    (hn : (l.length : Int) < 2 ^ 31) :
    ∃ t, sprint E l = .ok (some t) ∧ ∀ pre : Str, (∀ c ∈ pre, isSpace c = true) → pre.length + t.length ≤ MAX_STRING →
      ∃ l' pos, sread E registry (some (pre ++ t)) = .ok (l', some pos) ∧ Util.sskip pos = [] ∧ l'.length = l.length ∧
        ∀ k (h : k < l.length) (h' : k < l'.length), Same E l[k] l'[k] := by
  obtain ⟨ps, l', b1, b2, b3, b4⟩ := readLoop_text h
  have s0 : Util.Skips "# Number of symbols\n".toList := Util.skips_of (by decide)
  unfold sprint
  rw [b1]
  simp only [Out.ok_bind, Util.emit_eq]
  generalize "# Number of symbols\n".toList = k0 at s0
  refine ⟨_, rfl, fun pre hp hlen => ?_⟩
  obtain ⟨sk, c1, c2⟩ := b4 "\n".toList Util.Skips.newline []
  refine ⟨l', sk, ?_, ?_, b2, b3⟩
  · simp only [sread]
    rw [if_neg (by rw [List.length_append]; omega), List.flatten_cons]
    simp only [List.append_assoc, number, wrap_small hn]
    rw [← List.append_assoc pre, Util.read_int_pre ((Util.Skips.blanks hp).append s0) (Lines.fits_small (by omega)) (Util.Sep.newline _)]
    simp only [Out.ok_bind, readSymbols]
    rw [if_neg (by omega), Int.toNat_natCast]
    rw [List.append_nil] at c2
    rw [c2]
    simp
  · have := c1 []
    rw [List.append_nil] at this
    rw [this]; rfl

/-- Finding (C49): the text of symbols longer than OSL_MAX_STRING characters, which the printer writes, is an error for the reader. -/
theorem symbols_sread_long_violates (E : Env D) (registry : Ifaces) (t : Str) (h : MAX_STRING < t.length) : sread E registry (some t) = .err := by
  simp only [sread]; rw [if_pos h]

/-- C49: adding appends, the number counts. -/
theorem symbols_add_number (l m : List (Symbol D)) : number (add l m) = number l + number m ∧ add l m = l ++ m := by
  simp [add, number]

/-- What the copy needs. -/
structure Clonable (E : Env D) (s : Symbol D) : Prop where
  identifier : GList.Unique s.identifier ∧ GList.CloneOk E s.identifier
  datatype : GList.Unique s.datatype ∧ GList.CloneOk E s.datatype
  scope : GList.Unique s.scope ∧ GList.CloneOk E s.scope
  extent : GList.Unique s.extent ∧ GList.CloneOk E s.extent

/-- A symbol and its copy (specification). -/
def CopyOf (E : Env D) (s t : Symbol D) : Prop :=
  t.type = s.type ∧ t.generated = s.generated ∧ t.nb_dims = s.nb_dims ∧
  (t.identifier.map (·.interface) = s.identifier.map (·.interface) ∧ GList.equal E s.identifier t.identifier = .ok true) ∧
  (t.datatype.map (·.interface) = s.datatype.map (·.interface) ∧ GList.equal E s.datatype t.datatype = .ok true) ∧
  (t.scope.map (·.interface) = s.scope.map (·.interface) ∧ GList.equal E s.scope t.scope = .ok true) ∧
  (t.extent.map (·.interface) = s.extent.map (·.interface) ∧ GList.equal E s.extent t.extent = .ok true)

theorem cloneOne_ok {E : Env D} {s : Symbol D} (h : Clonable E s) : ∃ t, cloneOne E s = .ok t ∧ CopyOf E s t := by
  obtain ⟨a, a1, _, _, a4, a5⟩ := GList.generic_clone_correct h.identifier.1 h.identifier.2
  obtain ⟨b, b1, _, _, b4, b5⟩ := GList.generic_clone_correct h.datatype.1 h.datatype.2
  obtain ⟨c, c1, _, _, c4, c5⟩ := GList.generic_clone_correct h.scope.1 h.scope.2
  obtain ⟨d, d1, _, _, d4, d5⟩ := GList.generic_clone_correct h.extent.1 h.extent.2
  refine ⟨⟨s.type, s.generated, s.nb_dims, a, b, c, d⟩, ?_, rfl, rfl, rfl, ⟨a4, a5⟩, ⟨b4, b5⟩, ⟨c4, c5⟩, ⟨d4, d5⟩⟩
  unfold cloneOne
  rw [a1, b1, c1, d1]
  rfl

theorem ncloneLoop_ok {E : Env D} {n : Int} (hn : -1 ≤ n) : ∀ {l : List (Symbol D)} {i : Nat} {acc : List (Symbol D)}, (∀ s ∈ l, Clonable E s) →
    ∃ l', ncloneLoop E n i l acc = .ok (acc ++ l') ∧
      l'.length = (if n = -1 then l.length else min (n.toNat - i) l.length) ∧
      ∀ k (h : k < l.length) (h' : k < l'.length), CopyOf E l[k] l'[k]
  | [], i, acc, _ => ⟨[], by simp [ncloneLoop], by simp, by simp⟩
  | s :: l, i, acc, h => by
    simp only [ncloneLoop]
    split
    · rename_i hc
      obtain ⟨t, a1, a2⟩ := cloneOne_ok (h s (by simp))
      obtain ⟨l', b1, b2, b3⟩ := ncloneLoop_ok hn (l := l) (i := i + 1) (acc := acc ++ [t]) fun x hx => h x (by simp [hx])
      refine ⟨t :: l', ?_, ?_, ?_⟩
      · rw [a1, Out.ok_bind]
        simp only [add, b1, List.append_assoc, List.singleton_append]
      · rw [List.length_cons, b2]
        split
        · rfl
        · rename_i hne
          have : (i : Int) < n := by rcases hc with e | e; exact absurd e hne; exact e
          simp only [List.length_cons]
          omega
      · intro k hk hk'
        cases k with
        | zero => exact a2
        | succ k => exact b3 k (by simpa using hk) (by simpa using hk')
    · rename_i hc
      refine ⟨[], by simp, ?_, by simp⟩
      rw [if_neg (fun e => hc (.inl e))]
      simp only [List.length_nil]
      have : ¬ (i : Int) < n := fun e => hc (.inr e)
      omega

/-- C49: `osl_symbols_nclone` copies exactly the first `n` symbols (all for -1), each copy has the numbers of the symbol and equal parts. -/
theorem symbols_nclone_correct {E : Env D} {l : List (Symbol D)} (h : ∀ s ∈ l, Clonable E s) {n : Int} (hn : -1 ≤ n) :
    ∃ l', nclone E l n = .ok l' ∧ l'.length = (if n = -1 then l.length else min n.toNat l.length) ∧
      ∀ k (h : k < l.length) (h' : k < l'.length), CopyOf E l[k] l'[k] := by
  obtain ⟨l', a, b, c⟩ := ncloneLoop_ok hn (i := 0) (acc := []) h
  exact ⟨l', by simpa [nclone] using a, by simpa using b, c⟩

theorem CopyOf.equal {E : Env D} {s t : Symbol D} (h : CopyOf E s t) (l m : List (Symbol D)) : Symbol.equal E (s :: l) (t :: m) = .ok true := by
  obtain ⟨h1, h2, h3, ⟨_, h4⟩, ⟨_, h5⟩, ⟨_, h6⟩, ⟨_, h7⟩⟩ := h
  simp only [Symbol.equal, h1, h2, h3, and_self, if_true, andThen, h4, h5, h6, h7]
  rfl

/-- C49: the copy of a list has as many symbols, each one a copy, and it is equal to the list. -/
theorem symbols_clone_equal {E : Env D} {l : List (Symbol D)} (h : ∀ s ∈ l, Clonable E s) :
    ∃ l', clone E l = .ok l' ∧ l'.length = l.length ∧ (∀ k (h : k < l.length) (h' : k < l'.length), CopyOf E l[k] l'[k]) ∧
      equal E l l' = .ok true := by
  obtain ⟨l', a, b, c⟩ := symbols_nclone_correct h (n := -1) (by omega)
  rw [if_pos rfl] at b
  refine ⟨l', a, b, c, ?_⟩
  cases l with
  | nil =>
    cases l' with
    | nil => rfl
    | cons y ys => simp at b
  | cons x xs =>
    cases l' with
    | nil => simp at b
    | cons y ys => exact (c 0 (by simp) (by simp)).equal xs ys

/-- C49: the equality of two lists of one symbol: the same numbers and the four parts equal. -/
theorem symbols_equal_one {E : Env D} {s t : Symbol D} (h1 : GList.EqualTotal E s.identifier t.identifier) (h2 : GList.EqualTotal E s.datatype t.datatype)
    (h3 : GList.EqualTotal E s.scope t.scope) (h4 : GList.EqualTotal E s.extent t.extent)
    (u1 : GList.Unique s.identifier ∧ GList.Unique t.identifier) (u2 : GList.Unique s.datatype ∧ GList.Unique t.datatype)
    (u3 : GList.Unique s.scope ∧ GList.Unique t.scope) (u4 : GList.Unique s.extent ∧ GList.Unique t.extent) :
    ∃ b, equal E [s] [t] = .ok b ∧ (b = true ↔ s.type = t.type ∧ s.generated = t.generated ∧ s.nb_dims = t.nb_dims ∧
      GList.SameExts E s.identifier t.identifier ∧ GList.SameExts E s.datatype t.datatype ∧ GList.SameExts E s.scope t.scope ∧
      GList.SameExts E s.extent t.extent) := by
  have e1 := GList.generic_equal_correct h1 u1.1 u1.2
  have e2 := GList.generic_equal_correct h2 u2.1 u2.2
  have e3 := GList.generic_equal_correct h3 u3.1 u3.2
  have e4 := GList.generic_equal_correct h4 u4.1 u4.2
  simp only [equal]
  split
  · rename_i hc
    obtain ⟨c1, c2, c3⟩ := hc
    rcases e1 with ⟨e, p⟩ | ⟨e, p⟩ <;> simp only [andThen, e, Out.ok_bind, if_true, Bool.false_eq_true, if_false]
    · rcases e2 with ⟨e, q⟩ | ⟨e, q⟩ <;> simp only [e, Out.ok_bind, if_true, Bool.false_eq_true, if_false]
      · rcases e3 with ⟨e, r⟩ | ⟨e, r⟩ <;> simp only [e, Out.ok_bind, if_true, Bool.false_eq_true, if_false]
        · rcases e4 with ⟨e, w⟩ | ⟨e, w⟩ <;> rw [e]
          · exact ⟨true, rfl, by simp [c1, c2, c3, p, q, r, w]⟩
          · exact ⟨false, rfl, by simp [w]⟩
        · exact ⟨false, rfl, by simp [r]⟩
      · exact ⟨false, rfl, by simp [q]⟩
    · exact ⟨false, rfl, by simp [p]⟩
  · rename_i hc
    refine ⟨false, rfl, ?_⟩
    constructor
    · intro h; cases h
    · rintro ⟨a, b, c, _⟩; exact absurd ⟨a, b, c⟩ hc

/-- Finding (C49): only the first symbols are compared: a list is equal to its first symbol alone, whatever follows. -/
theorem symbols_equal_violates (s t : Symbol Nat) (hs : s.identifier = [] ∧ s.datatype = [] ∧ s.scope = [] ∧ s.extent = []) :
    equal GList.natEnv [s, t] [s] = .ok true := by
  obtain ⟨h1, h2, h3, h4⟩ := hs
  simp [equal, andThen, h1, h2, h3, h4, GList.equal, GList.count, GList.equalLoop]

/-- A generic of a registry. -/
def exGen (n : Nat) : GList Nat := [⟨some (Ifaces.mk 0 "strings"), some n⟩]
def exRegistry : Ifaces := [Ifaces.mk 0 "strings", Ifaces.mk 1 "body"]

theorem exGen_present (n : Nat) (h : n = 3 ∨ n = 14 ∨ n = 5) : GList.Present GList.natEnv exRegistry (exGen n) := by
  rcases h with rfl | rfl | rfl
  · exact ⟨_, rfl, Ifaces.mk 0 "strings", "strings".toList, "3\n".toList, 3, rfl, rfl, by decide, by decide, by decide, by decide, by decide, by decide, by decide⟩
  · exact ⟨_, rfl, Ifaces.mk 0 "strings", "strings".toList, "14\n".toList, 14, rfl, rfl, by decide, by decide, by decide, by decide, by decide, by decide, by decide⟩
  · exact ⟨_, rfl, Ifaces.mk 0 "strings", "strings".toList, "5\n".toList, 5, rfl, rfl, by decide, by decide, by decide, by decide, by decide, by decide, by decide⟩

def exSymbol : Symbol Nat := { type := 3, generated := 0, nb_dims := 2, identifier := exGen 3, datatype := exGen 14, scope := exGen 5, extent := exGen 3 }

/-- The hypotheses of the text round trip are met. -/
theorem exSymbol_textable : Textable GList.natEnv exRegistry exSymbol where
  type := by decide
  generated := by decide
  nb_dims := by decide
  identifier := exGen_present _ (by decide)
  datatype := exGen_present _ (by decide)
  scope := exGen_present _ (by decide)
  extent := exGen_present _ (by decide)

/-- Finding (C49): when the datatype is absent, the scope is read as the datatype. -/
theorem symbols_text_null_violates : (do
      let t ← sprint GList.natEnv [{ exSymbol with datatype := [], extent := [] }]
      sread GList.natEnv exRegistry t) = .ok ([{ exSymbol with datatype := exGen 5, scope := [], extent := [] }], some []) := by
  decide +kernel

/-- The hypotheses of the copy and of the comparison are met. -/
example : Clonable GList.natEnv exSymbol where
  identifier := ⟨by unfold GList.Unique; decide, by intro g hg i hi; simp [exSymbol, exGen] at hg; subst hg; exact ⟨3, rfl, rfl⟩⟩
  datatype := ⟨by unfold GList.Unique; decide, by intro g hg i hi; simp [exSymbol, exGen] at hg; subst hg; exact ⟨14, rfl, rfl⟩⟩
  scope := ⟨by unfold GList.Unique; decide, by intro g hg i hi; simp [exSymbol, exGen] at hg; subst hg; exact ⟨5, rfl, rfl⟩⟩
  extent := ⟨by unfold GList.Unique; decide, by intro g hg i hi; simp [exSymbol, exGen] at hg; subst hg; exact ⟨3, rfl, rfl⟩⟩

example : GList.EqualTotal GList.natEnv exSymbol.identifier exSymbol.extent := GList.natEnv_total _ _

example : (match sprint GList.natEnv [exSymbol, exSymbol] with
    | .ok (some t) => decide (t.length ≤ MAX_STRING) && decide (sread GList.natEnv exRegistry (some t) = .ok ([exSymbol, exSymbol], some ['\n']))
    | _ => false) = true := by decide +kernel

end Symbol
end Ext
end Osl
