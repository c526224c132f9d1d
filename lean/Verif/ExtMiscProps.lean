import Verif.ExtMisc
import Verif.ExtTextProps
import Verif.BodyProps
/-!
# Properties of the extensions pluto_unroll and extbody (parts of C45, C46)
-/

namespace Osl
namespace Ext

/-! ## pluto_unroll -/

theorem unroll_equalOne_iff (a b : Unroll) : Unroll.equalOne a b = true ↔ a = b := by
  obtain ⟨i, j, f⟩ := a
  obtain ⟨i', j', f'⟩ := b
  unfold Unroll.equalOne
  cases i <;> cases i' <;> simp

/-- C46: `osl_pluto_unroll_equal` decides that the lists have the same contents. -/
theorem unroll_equal_iff (a b : List Unroll) : Unroll.equal a b = true ↔ a = b := by
  induction a generalizing b with
  | nil => cases b <;> simp [Unroll.equal]
  | cons x a ih =>
    cases b with
    | nil => simp [Unroll.equal]
    | cons y b =>
      simp only [Unroll.equal]
      by_cases h : x = y
      · rw [if_pos ((unroll_equalOne_iff x y).mpr h), ih]; simp [h]
      · rw [if_neg (fun e => h ((unroll_equalOne_iff x y).mp e))]; simp [h]

theorem unroll_equal_decides : Unroll.ops.EqualDecides (fun _ => True) (fun x => x) := by
  refine ⟨fun x y _ _ => ⟨_, rfl, ?_⟩, rfl, fun _ => ⟨rfl, rfl⟩⟩
  rw [unroll_equal_iff]
  constructor
  · intro h; exact Option.some.inj (NE.elems_inj h)
  · rintro rfl; rfl

/-- The copy of a list is the same list. -/
theorem unroll_clone_eq (l : List Unroll) : Unroll.clone l = l := by
  induction l with
  | nil => rfl
  | cons u l ih =>
    obtain ⟨i, j, f⟩ := u
    cases i <;> simp [Unroll.clone, Unroll.fill, Unroll.malloc, ih]

theorem unroll_clone_equal (l : NE Unroll) : Unroll.ops.clone (some l) = .ok (some l) ∧ Unroll.ops.CloneEqual l := by
  have : Unroll.ops.clone (some l) = .ok (some l) := by
    simp only [Unroll.ops, unroll_clone_eq, NE.ofList_elems]
  obtain ⟨b, e1, e2⟩ := unroll_equal_decides.1 l l trivial trivial
  exact ⟨this, l, this, by rw [e1, e2.mpr rfl]⟩

/-- An unrolling that can be read back: the iterator name is a line without `#`, the factor is at most `INT_MAX`. -/
structure Unroll.Textable (u : Unroll) (n : Str) : Prop where
  iter : u.iter = some n
  line : Util.Line n
  factor : (u.factor : Int) < 2 ^ 31

/-- The text of the nodes (specification). -/
def Unroll.body : List (Unroll × Str) → Str
  | [] => []
  | (u, n) :: us => "# Iterator name\n".toList ++ (n ++ ("\n".toList ++ ("# Jam\n".toList ++ (showInt (Unroll.ofBool u.jam) ++ ("\n".toList ++
      ("# Factor\n".toList ++ (showInt u.factor ++ ("\n".toList ++ ("# Next\n".toList ++ (showInt (if us.isEmpty then 0 else 1) ++ ("\n".toList ++ Unroll.body us)))))))))))

/-- The text of a list (specification). -/
def Unroll.text (l : List (Unroll × Str)) : Str :=
  "# Pluto unroll\n".toList ++ (showInt (if l.isEmpty then 0 else 1) ++ ("\n".toList ++ Unroll.body l))

theorem unroll_flag {α : Type} (l : List α) : (if l.isEmpty then "0\n".toList else "1\n".toList) = showInt (if l.isEmpty then 0 else 1) ++ "\n".toList := by
  cases l <;> rfl

theorem unroll_textLoop (l : List (Unroll × Str)) (h : ∀ p ∈ l, Unroll.Textable p.1 p.2) : Unroll.textLoop (l.map Prod.fst) = .ok (Unroll.body l) := by
  induction l with
  | nil => rfl
  | cons p l ih =>
    obtain ⟨u, n⟩ := p
    have hu := h (u, n) (by simp)
    have hi : u.iter = some n := hu.iter
    have e : Unroll.body ((u, n) :: l) = "# Iterator name\n".toList ++ (n ++ ("\n".toList ++ ("# Jam\n".toList ++ (showInt (Unroll.ofBool u.jam) ++ ("\n".toList ++
      ("# Factor\n".toList ++ (showInt u.factor ++ ("\n".toList ++ ("# Next\n".toList ++ (showInt (if l.isEmpty then 0 else 1) ++ ("\n".toList ++ Unroll.body l))))))))))) := rfl
    rw [List.map_cons, Unroll.textLoop, hi, ih (fun q hq => h q (by simp [hq])), e, unroll_flag, Util.showNat_pos]
    simp only [str, Out.ok_bind, Out.pure_eq, List.append_assoc, List.isEmpty_map]

theorem unroll_sprint_text (l : List (Unroll × Str)) (h : ∀ p ∈ l, Unroll.Textable p.1 p.2) (hs : (Unroll.text l).length < MAX_STRING) :
    Unroll.sprint (l.map Prod.fst) = .ok (some (Unroll.text l)) := by
  unfold Unroll.sprint
  rw [unroll_textLoop l h, Out.ok_bind, unroll_flag]
  have e : "# Pluto unroll\n".toList ++ (showInt (if (l.map Prod.fst).isEmpty then 0 else 1) ++ "\n".toList) ++ Unroll.body l = Unroll.text l := by
    unfold Unroll.text; simp only [List.isEmpty_map, List.append_assoc]
  rw [e, buf_bind _ hs]; rfl

theorem unroll_readLoop_body (l : List (Unroll × Str)) (hne : l ≠ []) (h : ∀ p ∈ l, Unroll.Textable p.1 p.2) (fuel : Nat) (hf : l.length ≤ fuel)
    {pre : Str} (hp : Util.Skips pre) (rest : Str) :
    Unroll.readLoop fuel (pre ++ (Unroll.body l ++ rest)) = .ok (l.map Prod.fst, "\n".toList ++ rest) := by
  induction l generalizing fuel pre with
  | nil => exact absurd rfl hne
  | cons p l ih =>
    obtain ⟨u, n⟩ := p
    have hu := h (u, n) (by simp)
    have hi : u.iter = some n := hu.iter
    have hfac : (u.factor : Int) < 2 ^ 31 := hu.factor
    cases fuel with
    | zero => simp at hf
    | succ fuel =>
      have e : Unroll.body ((u, n) :: l) = "# Iterator name\n".toList ++ (n ++ ("\n".toList ++ ("# Jam\n".toList ++ (showInt (Unroll.ofBool u.jam) ++ ("\n".toList ++
        ("# Factor\n".toList ++ (showInt u.factor ++ ("\n".toList ++ ("# Next\n".toList ++ (showInt (if l.isEmpty then 0 else 1) ++ ("\n".toList ++ Unroll.body l))))))))))) := rfl
      have hj : fits 32 (Unroll.ofBool u.jam) := by cases u.jam <;> decide
      have hx : fits 32 (if l.isEmpty then 0 else 1 : Int) := by split <;> decide
      rw [e]
      simp only [List.append_assoc, Unroll.readLoop]
      rw [← List.append_assoc pre, Util.read_line_pre (hp.append (Util.skips_of (by decide))) hu.line]
      simp only [Out.ok_bind]
      rw [← List.append_assoc "\n".toList, Util.read_int_pre (Util.skips_of (by decide)) hj (Util.Sep.newline _)]
      simp only [Out.ok_bind]
      rw [← List.append_assoc "\n".toList, Util.read_int_pre (Util.skips_of (by decide)) (Lines.fits_small hfac) (Util.Sep.newline _)]
      simp only [Out.ok_bind]
      rw [← List.append_assoc "\n".toList, Util.read_int_pre (Util.skips_of (by decide)) hx (Util.Sep.newline _)]
      simp only [Out.ok_bind]
      have eu : ({ iter := some n, jam := decide (Unroll.ofBool u.jam ≠ 0), factor := ((u.factor : Int) % 2 ^ 32).toNat } : Unroll) = u := by
        obtain ⟨i, j, f⟩ := u
        simp only at hi hfac ⊢
        subst hi
        have : ((f : Int) % 2 ^ 32).toNat = f := by omega
        rw [this]
        cases j <;> rfl
      rw [eu]
      cases l with
      | nil => rfl
      | cons q l =>
        simp only [List.isEmpty_cons, Bool.false_eq_true, if_false, if_true]
        rw [ih (by simp) (fun q hq => h q (by simp [hq])) fuel (by simpa using hf) Util.Skips.newline]
        rfl

/-- C45 for pluto_unroll: when the text fits in the buffer of the printer, the reader gives back the list. -/
theorem unroll_text_round_trip (l : List (Unroll × Str)) (h : ∀ p ∈ l, Unroll.Textable p.1 p.2) (hs : (Unroll.text l).length < MAX_STRING)
    {pre : Str} (hp : ∀ c ∈ pre, isSpace c = true) :
    Unroll.sprint (l.map Prod.fst) = .ok (some (Unroll.text l)) ∧
    ∃ rest, Unroll.sread (some (pre ++ Unroll.text l)) = .ok (l.map Prod.fst, rest) := by
  refine ⟨unroll_sprint_text l h hs, ?_⟩
  have hx : fits 32 (if l.isEmpty then 0 else 1 : Int) := by split <;> decide
  have hh : Util.Skips "# Pluto unroll\n".toList := Util.skips_of (by decide)
  unfold Unroll.sread Unroll.text
  simp only
  rw [← List.append_assoc pre, Util.read_int_pre ((Util.Skips.blanks hp).append hh) hx (Util.Sep.newline _)]
  simp only [Out.ok_bind, Unroll.readList]
  by_cases hl : l = []
  · subst hl; exact ⟨_, rfl⟩
  · have he : l.isEmpty = false := by cases l <;> simp_all
    simp only [he, Bool.false_eq_true, if_false, if_true]
    have hlen : l.length ≤ (Unroll.body l).length := by
      clear hs hx he hl
      induction l with
      | nil => simp
      | cons p l ih =>
        obtain ⟨u, n⟩ := p
        have := ih (fun q hq => h q (by simp [hq]))
        have e : Unroll.body ((u, n) :: l) = "# Iterator name\n".toList ++ (n ++ ("\n".toList ++ ("# Jam\n".toList ++ (showInt (Unroll.ofBool u.jam) ++ ("\n".toList ++
          ("# Factor\n".toList ++ (showInt u.factor ++ ("\n".toList ++ ("# Next\n".toList ++ (showInt (if l.isEmpty then 0 else 1) ++ ("\n".toList ++ Unroll.body l))))))))))) := rfl
        rw [e]
        simp only [List.length_append, List.length_cons]
        have : "\n".toList.length = 1 := rfl
        omega
    have := unroll_readLoop_body l hl h (("\n".toList ++ Unroll.body l).length + 1) (by simp only [List.length_append]; omega) Util.Skips.newline []
    rw [List.append_nil] at this
    rw [this]
    exact ⟨_, rfl⟩

/-- The hypotheses are met. -/
example : Unroll.Textable { iter := some "i".toList, jam := true, factor := 4 } "i".toList ∧
    (Unroll.text [({ iter := some "i".toList, jam := true, factor := 4 }, "i".toList)]).length < MAX_STRING :=
  ⟨⟨rfl, ⟨by decide, by decide, by intro c hc; simp at hc; subst hc; decide, by decide⟩, by decide⟩, by decide⟩

/-- C45 finding: a list whose text has OSL_MAX_STRING characters or more overflows the buffer of the printer. -/
theorem unroll_sprint_long_violates (l : List (Unroll × Str)) (h : ∀ p ∈ l, Unroll.Textable p.1 p.2) (hs : MAX_STRING ≤ (Unroll.text l).length) :
    Unroll.sprint (l.map Prod.fst) = .ub := by
  unfold Unroll.sprint
  rw [unroll_textLoop l h, Out.ok_bind, unroll_flag]
  have e : "# Pluto unroll\n".toList ++ (showInt (if (l.map Prod.fst).isEmpty then 0 else 1) ++ "\n".toList) ++ Unroll.body l = Unroll.text l := by
    unfold Unroll.text; simp only [List.isEmpty_map, List.append_assoc]
  rw [e]
  unfold buf
  rw [if_neg (by omega)]; rfl

set_option maxRecDepth 8000 in
/-- C45 finding: a factor above `INT_MAX` is printed but cannot be read (the conversion overflows). -/
theorem unroll_factor_violates : ∃ t, Unroll.sprint [{ iter := some "i".toList, jam := false, factor := 2 ^ 31 }] = .ok (some t) ∧
    Unroll.sread (some t) = .ub :=
  ⟨"# Pluto unroll\n1\n# Iterator name\ni\n# Jam\n0\n# Factor\n2147483648\n# Next\n0\n".toList, by decide, by decide⟩

/-! ## extbody -/

theorem extbody_found_iff (p : Int × Int) (m : List (Int × Int)) : Extbody.found p m = true ↔ p ∈ m := by
  induction m with
  | nil => simp [Extbody.found]
  | cons q m ih =>
    obtain ⟨a, b⟩ := p
    obtain ⟨c, d⟩ := q
    simp only [Extbody.found, List.mem_cons, Prod.mk.injEq]
    by_cases h : a = c ∧ b = d <;> simp [h, ih]

theorem extbody_equalLoop_iff (m l : List (Int × Int)) : Extbody.equalLoop m l = true ↔ ∀ p ∈ l, p ∈ m := by
  induction l with
  | nil => simp [Extbody.equalLoop]
  | cons p l ih =>
    simp only [Extbody.equalLoop]
    by_cases h : p ∈ m
    · simp [(extbody_found_iff p m).mpr h, ih, h]
    · have : Extbody.found p m = false := by
        cases hf : Extbody.found p m
        · rfl
        · exact absurd ((extbody_found_iff p m).mp hf) h
      simp [this, h]

/-- What `osl_extbody_equal` decides. -/
theorem extbody_equal_iff (a b : Extbody) : Extbody.equal (some a) (some b) = .ok true ↔
    a.access.length = b.access.length ∧ (∀ p ∈ a.access, p ∈ b.access) ∧ Body.equal a.body b.body = true := by
  unfold Extbody.equal
  by_cases h1 : a.access.length = b.access.length
  · by_cases h2 : Extbody.equalLoop b.access a.access = true
    · have h3 := (extbody_equalLoop_iff _ _).mp h2
      simp only [h1, h2, ne_eq, not_true_eq_false, if_false, Bool.not_true, Bool.false_eq_true, Out.ok.injEq, true_and]
      exact ⟨fun h => ⟨h3, h⟩, fun h => h.2⟩
    · have : Extbody.equalLoop b.access a.access = false := by simpa using h2
      have h3 : ¬ ∀ p ∈ a.access, p ∈ b.access := fun h => h2 ((extbody_equalLoop_iff _ _).mpr h)
      simp only [this, h1]
      simp only [ne_eq, not_true_eq_false, if_false, Bool.not_false, if_true, true_and, Out.ok.injEq, Bool.false_eq_true, false_iff]
      rintro ⟨h, _⟩; exact h3 h
  · simp [h1]

theorem subset_of_length {α : Type} [DecidableEq α] {l m : List α} (hl : l.Nodup) (hlen : l.length = m.length) (h : ∀ p ∈ l, p ∈ m) : ∀ p ∈ m, p ∈ l := by
  induction l generalizing m with
  | nil =>
    have : m = [] := List.length_eq_zero_iff.mp hlen.symm
    simp [this]
  | cons x l ih =>
    have hx := h x (by simp)
    have hl' := List.nodup_cons.mp hl
    have hlen' : l.length = (m.erase x).length := by rw [List.length_erase_of_mem hx, ← hlen]; simp
    have := ih (m := m.erase x) hl'.2 hlen' (by
      intro p hp
      have : p ≠ x := by rintro rfl; exact hl'.1 hp
      exact (List.mem_erase_of_ne this).mpr (h p (by simp [hp])))
    intro p hp
    by_cases e : p = x
    · simp [e]
    · exact List.mem_cons_of_mem _ (this p ((List.mem_erase_of_ne e).mpr hp))

/-- C46 for extbody, on extended bodies without a repeated access: the equality is that of the sets of accesses and of the
bodies, hence reflexive, symmetric and distinguishing the contents. -/
theorem extbody_equal_nodup {a b : Extbody} (ha : a.access.Nodup) (hb : b.access.Nodup) :
    ∃ r, Extbody.equal (some a) (some b) = .ok r ∧ Extbody.equal (some b) (some a) = .ok r ∧
      (r = true ↔ (∀ p, p ∈ a.access ↔ p ∈ b.access) ∧ Body.equal a.body b.body = true) := by
  have tot : ∀ x y : Extbody, ∃ r, Extbody.equal (some x) (some y) = .ok r := by
    intro x y; unfold Extbody.equal; simp only; split
    · exact ⟨_, rfl⟩
    · split <;> exact ⟨_, rfl⟩
  obtain ⟨r, h1⟩ := tot a b
  obtain ⟨r', h2⟩ := tot b a
  have i1 := extbody_equal_iff a b
  have i2 := extbody_equal_iff b a
  rw [h1] at i1
  rw [h2] at i2
  simp only [Out.ok.injEq] at i1 i2
  have hlen : (∀ p, p ∈ a.access ↔ p ∈ b.access) → a.access.length = b.access.length := fun h =>
    List.Perm.length_eq ((List.perm_ext_iff_of_nodup ha hb).mpr h)
  have hsym := Body.body_equal_equivalence.2.1
  have key : (r = true ↔ (∀ p, p ∈ a.access ↔ p ∈ b.access) ∧ Body.equal a.body b.body = true) := by
    rw [i1]
    constructor
    · rintro ⟨e1, e2, e3⟩; exact ⟨fun p => ⟨e2 p, subset_of_length ha e1 e2 p⟩, e3⟩
    · rintro ⟨e1, e2⟩; exact ⟨hlen e1, fun p => (e1 p).mp, e2⟩
  have key' : (r' = true ↔ (∀ p, p ∈ a.access ↔ p ∈ b.access) ∧ Body.equal a.body b.body = true) := by
    rw [i2, hsym b.body]
    constructor
    · rintro ⟨e1, e2, e3⟩; exact ⟨fun p => ⟨subset_of_length hb e1 e2 p, e2 p⟩, e3⟩
    · rintro ⟨e1, e2⟩; exact ⟨(hlen e1).symm, fun p => (e1 p).mpr, e2⟩
  have : r = r' := by
    rw [← key'] at key
    exact Bool.eq_iff_iff.mpr key
  subst this
  exact ⟨r, h1, h2, key⟩

example : ([(0, 3), (5, 1)] : List (Int × Int)).Nodup := by decide

/-- C46 finding: with repeated accesses the equality is not symmetric. -/
theorem extbody_equal_violates :
    Extbody.ops.equal (some { body := none, access := [(0, 1), (0, 1)] }) (some { body := none, access := [(0, 1), (2, 3)] }) = .ok true ∧
    Extbody.ops.equal (some { body := none, access := [(0, 1), (2, 3)] }) (some { body := none, access := [(0, 1), (0, 1)] }) = .ok false := by decide

theorem extbody_equal_refl (e : Extbody) : Extbody.equal (some e) (some e) = .ok true := by
  rw [extbody_equal_iff]
  exact ⟨rfl, fun _ h => h, Body.body_equal_equivalence.1 _⟩

theorem extbody_clone_equal (e : Extbody) : Extbody.ops.CloneEqual e := by
  refine ⟨_, rfl, ?_⟩
  rw [show Extbody.ops.equal = Extbody.equal from rfl, extbody_equal_iff]
  exact ⟨rfl, fun _ h => h, Body.body_clone_equal _⟩

/-- `osl_extbody_add` appends an access. -/
theorem extbody_add (e : Extbody) (s l : Int) : (Extbody.add e s l).access = e.access ++ [(s, l)] ∧ (Extbody.add e s l).body = e.body := ⟨rfl, rfl⟩

/-- The printed accesses (specification). -/
def Extbody.accText : List (Int × Int) → Str
  | [] => []
  | (a, b) :: l => showInt a ++ (" ".toList ++ (showInt b ++ ("\n".toList ++ Extbody.accText l)))

/-- The text of an extended body (specification). -/
def Extbody.text (acc : List (Int × Int)) (its : List Str) (ex : Str) : Str :=
  "# Number of accesses\n".toList ++ (showInt acc.length ++ ("\n".toList ++
    ((if acc.length ≠ 0 then "# Access coordinates (start/length)\n".toList else []) ++ (Extbody.accText acc ++ Body.text its ex))))

theorem extbody_accText_eq (l : List (Int × Int)) :
    (l.map fun p => showInt p.1 ++ " ".toList ++ showInt p.2 ++ "\n".toList).flatten = Extbody.accText l := by
  induction l with
  | nil => rfl
  | cons p l ih =>
    obtain ⟨a, b⟩ := p
    have e : Extbody.accText ((a, b) :: l) = showInt a ++ (" ".toList ++ (showInt b ++ ("\n".toList ++ Extbody.accText l))) := rfl
    rw [List.map_cons, List.flatten_cons, ih, e]
    simp only [List.append_assoc]

theorem extbody_sprint_text {e : Extbody} {b : Body} (hb : e.body = some b) {its : List Str} {ex : Str} (h : Body.Textable b its ex)
    (ha : ∀ p ∈ e.access, fits 32 p.1 ∧ fits 32 p.2) : Extbody.sprint (some e) = .ok (some (Extbody.text e.access its ex)) := by
  have hm : Out.mapOut Extbody.accPiece e.access = .ok (e.access.map fun p => showInt p.1 ++ " ".toList ++ showInt p.2 ++ "\n".toList) := by
    apply Out.mapOut_ok
    intro p hp
    have l1 := Util.showInt_length (ha p hp).1
    have l2 := Util.showInt_length (ha p hp).2
    exact buf_ok (by simp [MAX_STRING]; omega)
  unfold Extbody.sprint
  simp only [hb]
  rw [hm, Out.ok_bind, Body.sprint_text h, Out.ok_bind, Util.emit_eq, Out.ok_bind, Out.pure_eq]
  unfold Extbody.text
  rw [List.flatten_append, List.flatten_append, List.flatten_append, extbody_accText_eq, Util.showNat_pos]
  by_cases hn : e.access.length ≠ 0
  · simp only [if_pos hn, List.flatten_cons, List.flatten_nil, List.append_nil, List.append_assoc]
  · simp only [if_neg hn, List.flatten_cons, List.flatten_nil, List.append_nil, List.nil_append, List.append_assoc]

theorem extbody_readLoop_text (l : List (Int × Int)) (h : ∀ p ∈ l, fits 32 p.1 ∧ fits 32 p.2) {pre : Str} (hp : Util.Skips pre) :
    ∃ tail, Util.Skips tail ∧ ∀ rest, Extbody.readLoop l.length (pre ++ (Extbody.accText l ++ rest)) = .ok (l, tail ++ rest) := by
  induction l generalizing pre with
  | nil => exact ⟨pre, hp, fun rest => rfl⟩
  | cons p l ih =>
    obtain ⟨a, b⟩ := p
    have hab := h (a, b) (by simp)
    obtain ⟨tail, s1, r1⟩ := ih (fun q hq => h q (by simp [hq])) Util.Skips.newline
    refine ⟨tail, s1, fun rest => ?_⟩
    have e : Extbody.accText ((a, b) :: l) = showInt a ++ (" ".toList ++ (showInt b ++ ("\n".toList ++ Extbody.accText l))) := rfl
    rw [e]
    simp only [List.length_cons, Extbody.readLoop, List.append_assoc]
    rw [Util.read_int_pre hp hab.1 (Util.Sep.space _)]
    simp only [Out.ok_bind]
    rw [Util.read_int_pre Util.Skips.space hab.2 (Util.Sep.newline _)]
    simp only [Out.ok_bind]
    rw [r1]; rfl

/-- C45 for extbody: the text is read back. -/
theorem extbody_text_exact {e : Extbody} {b : Body} (hb : e.body = some b) {its : List Str} {ex : Str} (h : Body.Textable b its ex)
    (ha : ∀ p ∈ e.access, fits 32 p.1 ∧ fits 32 p.2) (hn : (e.access.length : Int) < 2 ^ 31) :
    Extbody.ops.sprint (some e) = .ok (some (Extbody.text e.access its ex)) ∧ ∀ pre : Str, (∀ c ∈ pre, isSpace c = true) →
      ∃ rest, Extbody.ops.sread (some (pre ++ Extbody.text e.access its ex)) =
        .ok (some { body := some { iterators := some { string := some its }, expression := some (Strings.encapsulate ex) }, access := e.access }, rest) := by
  refine ⟨extbody_sprint_text hb h ha, fun pre hp => ?_⟩
  have hh : Util.Skips "# Number of accesses\n".toList := Util.skips_of (by decide)
  have hc : Util.Skips ("\n".toList ++ (if e.access.length ≠ 0 then "# Access coordinates (start/length)\n".toList else [])) := by
    split
    · exact Util.skips_of (by decide)
    · exact Util.skips_of (by decide)
  obtain ⟨tail, s1, r1⟩ := extbody_readLoop_text e.access ha hc
  have r1 := r1 (Body.text its ex)
  have r2 := Body.sread_text_exact h.words h.nb h.line h.starts h.nonempty h.short (pre := tail) s1 []
  rw [List.append_nil] at r2
  refine ⟨some ("\n".toList ++ []), ?_⟩
  rw [show Extbody.ops.sread = Extbody.sread from rfl]
  unfold Extbody.sread Extbody.text
  simp only
  rw [← List.append_assoc pre, Util.read_int_pre ((Util.Skips.blanks hp).append hh) (Lines.fits_small hn) (Util.Sep.newline _)]
  simp only [Out.ok_bind, Extbody.readAccess]
  rw [if_neg (by omega)]
  simp only [Int.toNat_natCast]
  rw [← List.append_assoc "\n".toList, r1]
  simp only [Out.ok_bind]
  rw [r2]; rfl

/-- C45 for extbody. -/
theorem extbody_text_round_trip {e : Extbody} {b : Body} (hb : e.body = some b) {its : List Str} {ex : Str} (h : Body.Textable b its ex)
    (ha : ∀ p ∈ e.access, fits 32 p.1 ∧ fits 32 p.2) (hn : (e.access.length : Int) < 2 ^ 31) : Extbody.ops.RoundTrip e := by
  obtain ⟨e1, e2⟩ := extbody_text_exact hb h ha hn
  refine ⟨_, e1, fun pre hp => ?_⟩
  obtain ⟨rest, e3⟩ := e2 pre hp
  obtain ⟨x, h1, h2⟩ := h.iters
  obtain ⟨y, h3, h4⟩ := h.expr
  refine ⟨_, rest, e3, ?_⟩
  rw [show Extbody.ops.equal = Extbody.equal from rfl, extbody_equal_iff]
  refine ⟨rfl, fun _ h => h, ?_⟩
  rw [hb, Body.body_equal_iff]
  refine .inr ⟨b, _, rfl, rfl, ?_, ?_⟩
  · rw [Strings.strings_equal_iff]; exact .inr ⟨x, _, h1, rfl, h2⟩
  · rw [Strings.strings_equal_iff]; exact .inr ⟨y, _, h3, rfl, h4⟩

/-- Finding: an extended body without body is printed (`# NULL body`) but cannot be read back. -/
theorem extbody_null_body_violates : ∃ t, Extbody.ops.sprint (some { body := none, access := [] }) = .ok (some t) ∧ Extbody.ops.sread (some t) = .err :=
  ⟨"# Number of accesses\n0\n# NULL body\n".toList, by decide, by decide⟩

end Ext
end Osl
