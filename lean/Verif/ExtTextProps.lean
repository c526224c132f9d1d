import Verif.ExtText
/-!
# Properties of the extensions annotation and region (parts of C45, C46)
-/

namespace Osl
namespace Ext

namespace Lines

theorem cloneLoop_eq (dst src : Lines) : cloneLoop dst src = dst ++ src := by
  induction src generalizing dst with
  | nil => simp [cloneLoop]
  | cons p src ih => obtain ⟨ty, l⟩ := p; simp [cloneLoop, ih, append, Util.strdup]

theorem clone_eq (t : Lines) : clone t = t := by simp [clone, cloneLoop_eq]

theorem equalLoop_iff (a b : Lines) (h : a.length = b.length) : equalLoop a b = true ↔ a = b := by
  induction a generalizing b with
  | nil => cases b with
    | nil => simp [equalLoop]
    | cons _ _ => simp at h
  | cons p a ih =>
    cases b with
    | nil => simp at h
    | cons q b =>
      obtain ⟨t1, l1⟩ := p
      obtain ⟨t2, l2⟩ := q
      have := ih b (by simpa using h)
      simp only [equalLoop]
      by_cases e1 : t1 = t2 <;> by_cases e2 : l1 = l2 <;> simp [e1, e2, this]

theorem equal_iff (a b : Lines) : equal a b = true ↔ a = b := by
  unfold equal
  by_cases h : a.length = b.length
  · rw [if_neg (by simpa using h)]; exact equalLoop_iff a b h
  · rw [if_pos h]
    constructor
    · intro h; cases h
    · rintro rfl; exact absurd rfl h

/-- A text that can be read back: lines without `#` which start with a visible character, C `int` types. -/
structure Textable (t : Lines) : Prop where
  types : ∀ p ∈ t, fits 32 p.1
  lines : ∀ p ∈ t, Util.Line p.2 ∧ p.2.length + 1 < MAX_STRING
  nb : (t.length : Int) < 2 ^ 31

/-- The printed lines (specification). -/
def body : Lines → Str
  | [] => []
  | (ty, l) :: t => showInt ty ++ (" ".toList ++ (l ++ ("\n".toList ++ body t)))

/-- The text of typed lines (specification). -/
def text (name : Str) (t : Lines) : Str :=
  ("# ".toList ++ name ++ " count \n".toList) ++ (showInt t.length ++ ("\n".toList ++
    (("# ".toList ++ name ++ " lines (if any)\n".toList) ++ body t)))

theorem wrap_small {n : Nat} (h : (n : Int) < 2 ^ 31) : wrap 32 n = n := by
  unfold wrap
  have h1 : (32 - 1 : Nat) = 31 := rfl
  rw [h1]
  have e : (n : Int) + 2 ^ 31 < 2 ^ 32 := by omega
  rw [Int.emod_eq_of_lt (by omega) e]; omega

theorem fits_small {n : Nat} (h : (n : Int) < 2 ^ 31) : fits 32 (n : Int) := by
  unfold fits cMin cMax; simp at *; omega

theorem linePieces_ok {p : Int × Str} (h1 : fits 32 p.1) (h2 : p.2.length + 1 < MAX_STRING) :
    linePieces p = .ok [showInt p.1 ++ " ".toList, p.2 ++ "\n".toList] := by
  have l1 := Util.showInt_length h1
  unfold linePieces
  rw [buf_bind, buf_bind]
  · rfl
  · simp at h2 ⊢; omega
  · simp [MAX_STRING]; omega

theorem body_eq (t : Lines) : (t.map fun p => [showInt p.1 ++ " ".toList, p.2 ++ "\n".toList]).flatten.flatten = body t := by
  induction t with
  | nil => rfl
  | cons p t ih =>
    obtain ⟨ty, l⟩ := p
    have e : body ((ty, l) :: t) = showInt ty ++ (" ".toList ++ (l ++ ("\n".toList ++ body t))) := rfl
    rw [List.map_cons, List.flatten_cons, List.flatten_append, ih, e]
    simp only [List.flatten_cons, List.flatten_nil, List.append_nil, List.append_assoc]

theorem pieces_ok {name : Str} (hn : name.length ≤ 20) {t : Lines} (h : Textable t) :
    ∃ l, pieces name t = .ok l ∧ l.flatten = text name t := by
  have l1 := Util.showInt_length (fits_small h.nb)
  have hm : Out.mapOut linePieces t = .ok (t.map fun p => [showInt p.1 ++ " ".toList, p.2 ++ "\n".toList]) :=
    Out.mapOut_ok fun p hp => linePieces_ok (h.types p hp) (h.lines p hp).2
  unfold pieces
  rw [buf_bind, buf_bind, buf_bind, hm, wrap_small h.nb]
  · refine ⟨_, rfl, ?_⟩
    rw [List.flatten_append, body_eq]
    unfold text
    simp only [List.flatten_cons, List.flatten_nil, List.append_nil, List.append_assoc]
  · simp [MAX_STRING]; omega
  · rw [wrap_small h.nb]; simp [MAX_STRING]; omega
  · simp [MAX_STRING]; omega

theorem skips_count {name : Str} (hn : ∀ c ∈ name, c ≠ '\n') : Util.Skips ("# ".toList ++ name ++ " count \n".toList) := by
  have := Util.Skips.comment (l := " ".toList ++ name ++ " count ".toList)
    (by intro c hc; simp only [List.mem_append] at hc
        rcases hc with (h | h) | h
        · simp at h; subst h; decide
        · exact hn c h
        · exact (by decide : ∀ c ∈ " count ".toList, c ≠ '\n') c h)
  simpa using this

theorem skips_lines {name : Str} (hn : ∀ c ∈ name, c ≠ '\n') : Util.Skips ("# ".toList ++ name ++ " lines (if any)\n".toList) := by
  have := Util.Skips.comment (l := " ".toList ++ name ++ " lines (if any)".toList)
    (by intro c hc; simp only [List.mem_append] at hc
        rcases hc with (h | h) | h
        · simp at h; subst h; decide
        · exact hn c h
        · exact (by decide : ∀ c ∈ " lines (if any)".toList, c ≠ '\n') c h)
  simpa using this

theorem readLoop_body (t : Lines) (h1 : ∀ p ∈ t, fits 32 p.1) (h2 : ∀ p ∈ t, Util.Line p.2) {pre : Str} (hp : Util.Skips pre)
    (acc : Lines) : ∃ tail, Util.Skips tail ∧ ∀ rest, readLoop t.length (pre ++ (body t ++ rest)) acc = .ok (acc ++ t, tail ++ rest) := by
  induction t generalizing pre acc with
  | nil => exact ⟨pre, hp, fun rest => by simp [readLoop, body]⟩
  | cons p t ih =>
    obtain ⟨ty, l⟩ := p
    obtain ⟨tail, a1, a2⟩ := ih (fun p hp => h1 p (by simp [hp])) (fun p hp => h2 p (by simp [hp])) Util.Skips.newline (acc ++ [(ty, l)])
    refine ⟨tail, a1, fun rest => ?_⟩
    have := a2 rest
    unfold body
    simp only [List.append_assoc, List.length_cons, readLoop]
    rw [Util.read_int_pre hp (h1 (ty, l) (by simp)) (Util.Sep.space _)]
    simp only [Out.ok_bind]
    rw [Util.read_line_pre Util.Skips.space (h2 (ty, l) (by simp))]
    simp only [Out.ok_bind, append]
    rw [this]; simp

/-- Reading back a text. -/
theorem read_text {name : Str} (hn : ∀ c ∈ name, c ≠ '\n') {t : Lines} (h : Textable t) {pre : Str} (hp : Util.Skips pre) :
    ∃ tail, Util.Skips tail ∧ ∀ rest, read (pre ++ (text name t ++ rest)) = .ok (t, tail ++ rest) := by
  obtain ⟨tail, a1, a2⟩ := readLoop_body t h.types (fun p hp => (h.lines p hp).1) (pre := "\n".toList ++ ("# ".toList ++ name ++ " lines (if any)\n".toList))
    (Util.Skips.newline.append (skips_lines hn)) []
  refine ⟨tail, a1, fun rest => ?_⟩
  have := a2 rest
  unfold read text
  have e : toSize (t.length : Int) = t.length := by unfold toSize; rw [if_neg (by omega)]; simp
  rw [List.append_assoc, ← List.append_assoc pre, List.append_assoc (showInt _),
    Util.read_int_pre (hp.append (skips_count hn)) (fits_small h.nb) (by rw [List.append_assoc]; exact Util.Sep.newline _)]
  simp only [Out.ok_bind, e]
  rw [List.append_assoc, List.append_assoc] at *
  rw [← List.append_assoc] at this
  simpa using this

end Lines

/-! ## annotation -/

/-- The text of an annotation (specification). -/
def Annotation.text (a : Annotation) : Str :=
  "# ===========================================\n".toList ++ (Lines.text "Prefix".toList a.pre ++ Lines.text "Suffix".toList a.suf)

theorem annotation_sprint_text {a : Annotation} (h1 : Lines.Textable a.pre) (h2 : Lines.Textable a.suf) :
    Annotation.sprint (some a) = .ok (some a.text) := by
  obtain ⟨l1, e1, f1⟩ := Lines.pieces_ok (name := "Prefix".toList) (by decide) h1
  obtain ⟨l2, e2, f2⟩ := Lines.pieces_ok (name := "Suffix".toList) (by decide) h2
  unfold Annotation.sprint
  simp only
  rw [e1, e2]
  simp only [Out.ok_bind, Util.emit_eq, Out.pure_eq, List.flatten_append, f1, f2, List.flatten_cons, List.flatten_nil, List.append_nil, List.append_assoc]
  rfl

theorem annotation_sread_text {a : Annotation} (h1 : Lines.Textable a.pre) (h2 : Lines.Textable a.suf) {pre : Str} (hp : Util.Skips pre) :
    ∃ tail, Util.Skips tail ∧ ∀ rest, Annotation.sread (some (pre ++ (a.text ++ rest))) = .ok (some a, some (tail ++ rest)) := by
  have hr : Util.Skips "# ===========================================\n".toList := Util.skips_of (by decide)
  obtain ⟨t1, s1, r1⟩ := Lines.read_text (name := "Prefix".toList) (by decide) h1 (hp.append hr)
  obtain ⟨t2, s2, r2⟩ := Lines.read_text (name := "Suffix".toList) (by decide) h2 s1
  refine ⟨t2, s2, fun rest => ?_⟩
  have e1 := r1 (Lines.text "Suffix".toList a.suf ++ rest)
  rw [List.append_assoc] at e1
  unfold Annotation.sread Annotation.text
  simp only [List.append_assoc]
  rw [e1]
  simp only [Out.ok_bind]
  rw [r2 rest]
  rfl

/-- C46: `osl_annotation_equal` decides that the texts are the same. -/
theorem annotation_equal_decides : Annotation.ops.EqualDecides (fun _ => True) (fun x => x) := by
  refine ⟨?_, rfl, fun _ => ⟨rfl, rfl⟩⟩
  intro x y _ _
  refine ⟨_, rfl, ?_⟩
  rw [Bool.and_eq_true, Lines.equal_iff, Lines.equal_iff]
  cases x; cases y; simp

/-- C45 for annotations. -/
theorem annotation_text_round_trip {a : Annotation} (h1 : Lines.Textable a.pre) (h2 : Lines.Textable a.suf) : Annotation.ops.RoundTrip a := by
  refine ⟨a.text, annotation_sprint_text h1 h2, fun pre hp => ?_⟩
  obtain ⟨tail, _, h⟩ := annotation_sread_text h1 h2 (Util.Skips.blanks hp)
  have := h []
  rw [List.append_nil] at this
  obtain ⟨b, e1, e2⟩ := annotation_equal_decides.1 a a trivial trivial
  exact ⟨a, _, this, by rw [e1, e2.mpr rfl]⟩

theorem annotation_clone_equal (a : Annotation) : Annotation.ops.clone (some a) = .ok (some a) ∧ Annotation.ops.CloneEqual a := by
  have : Annotation.ops.clone (some a) = .ok (some a) := by simp [Annotation.ops, Annotation.clone, Lines.clone_eq]
  obtain ⟨b, e1, e2⟩ := annotation_equal_decides.1 a a trivial trivial
  exact ⟨this, a, this, by rw [e1, e2.mpr rfl]⟩

theorem annotation_append (a : Annotation) (ty : Int) (l : Str) :
    (Annotation.append_prefix a ty l).pre = a.pre ++ [(ty, l)] ∧ (Annotation.append_prefix a ty l).suf = a.suf ∧
    (Annotation.append_suffix a ty l).suf = a.suf ++ [(ty, l)] ∧ (Annotation.append_suffix a ty l).pre = a.pre := ⟨rfl, rfl, rfl, rfl⟩

/-- Findings: a NULL annotation is dereferenced by the printer and the copy (unlike all other extensions). -/
theorem annotation_null_violates : Annotation.ops.sprint none = .ub ∧ Annotation.ops.clone none = .ub ∧ Annotation.ops.sread none = .ub := ⟨rfl, rfl, rfl⟩

/-- The hypotheses are met. -/
example : Lines.Textable [(3, "pragma omp parallel for".toList), (1, "x = 0;".toList)] where
  types := by decide
  lines := by
    intro p hp
    simp only [List.mem_cons, List.not_mem_nil, or_false] at hp
    rcases hp with rfl | rfl <;> exact ⟨⟨by decide, by decide, by intro c hc; simp at hc; subst hc; decide, by decide⟩, by decide⟩
  nb := by decide

set_option maxRecDepth 8000 in
/-- C45 finding: a line starting with `#` (such as `#pragma omp`) is taken for a comment, and the rest of the text is read
in its place. -/
theorem annotation_text_hash_violates :
    ∃ t, Annotation.sprint (some { pre := [(1, "#pragma x".toList)], suf := [] }) = .ok (some t) ∧ Annotation.sread (some t) = .err :=
  ⟨"# ===========================================\n# Prefix count \n1\n# Prefix lines (if any)\n1 #pragma x\n# Suffix count \n0\n# Suffix lines (if any)\n".toList,
    by decide, by decide⟩

/-! ## region -/

/-- A region whose text can be read back. -/
structure Region.Textable (r : Region) : Prop where
  loc : fits 32 r.location
  pre : Lines.Textable r.pre
  suf : Lines.Textable r.suf
  prelude : Lines.Textable r.prelude
  postlude : Lines.Textable r.postlude

/-- The text of a region (specification). -/
def Region.text (count step : Nat) (r : Region) : Str :=
  "# ===========================================\n".toList ++
  ("# Region number ".toList ++ showInt (step + 1 : Nat) ++ " / ".toList ++ showInt count ++ " \n".toList) ++
  "# Location \n".toList ++ (showInt r.location ++ ("\n".toList ++
  (Lines.text "Prefix".toList r.pre ++ (Lines.text "Suffix".toList r.suf ++
  (Lines.text "Prelude".toList r.prelude ++ Lines.text "Postlude".toList r.postlude)))))

/-- The texts of the regions of rank `step + 1`, ... of a list (specification). -/
def Region.texts (count : Nat) : Nat → List Region → Str
  | _, [] => []
  | step, r :: rs => Region.text count step r ++ Region.texts count (step + 1) rs

theorem region_pieces_ok {count step : Nat} (hc : (count : Int) < 2 ^ 31) (hs : step < count) {r : Region} (h : r.Textable) :
    ∃ l, Region.pieces count step r = .ok l ∧ l.flatten = Region.text count step r := by
  obtain ⟨l1, e1, f1⟩ := Lines.pieces_ok (name := "Prefix".toList) (by decide) h.pre
  obtain ⟨l2, e2, f2⟩ := Lines.pieces_ok (name := "Suffix".toList) (by decide) h.suf
  obtain ⟨l3, e3, f3⟩ := Lines.pieces_ok (name := "Prelude".toList) (by decide) h.prelude
  obtain ⟨l4, e4, f4⟩ := Lines.pieces_ok (name := "Postlude".toList) (by decide) h.postlude
  have hs' : ((step + 1 : Nat) : Int) < 2 ^ 31 := by omega
  have g1 := Util.showInt_length (Lines.fits_small hs')
  have g2 := Util.showInt_length (Lines.fits_small hc)
  have g3 := Util.showInt_length h.loc
  unfold Region.pieces
  rw [Lines.wrap_small hs', Lines.wrap_small hc, buf_bind, buf_bind, e1, e2, e3, e4]
  · refine ⟨_, rfl, ?_⟩
    unfold Region.text Annotation.rule
    simp only [List.flatten_append, f1, f2, f3, f4, List.flatten_cons, List.flatten_nil, List.append_nil, List.append_assoc]
  · simp [MAX_STRING]; omega
  · simp [MAX_STRING] at *; omega

theorem region_piecesLoop_ok {count : Nat} (hc : (count : Int) < 2 ^ 31) (l : List Region) (step : Nat) (hs : step + l.length = count)
    (h : ∀ r ∈ l, r.Textable) : ∃ ps, Region.piecesLoop count step l = .ok ps ∧ ps.flatten = Region.texts count step l := by
  induction l generalizing step with
  | nil => exact ⟨[], rfl, rfl⟩
  | cons r l ih =>
    simp only [List.length_cons] at hs
    obtain ⟨p1, e1, f1⟩ := region_pieces_ok hc (step := step) (by omega) (h r (by simp))
    obtain ⟨p2, e2, f2⟩ := ih (step + 1) (by omega) (fun x hx => h x (by simp [hx]))
    refine ⟨p1 ++ p2, ?_, ?_⟩
    · simp only [Region.piecesLoop, e1, e2, Out.ok_bind]; rfl
    · rw [List.flatten_append, f1, f2]; rfl

/-- The text of a list of regions (specification). -/
def Region.listText (l : List Region) : Str :=
  "# Number of regions\n".toList ++ (showInt l.length ++ ("\n".toList ++ Region.texts l.length 0 l))

theorem region_sprint_text {l : List Region} (hl : (l.length : Int) < 2 ^ 31) (h : ∀ r ∈ l, r.Textable) :
    Region.sprint l = .ok (some (Region.listText l)) := by
  obtain ⟨ps, e, f⟩ := region_piecesLoop_ok hl l 0 (by omega) h
  have g := Util.showInt_length (Lines.fits_small hl)
  unfold Region.sprint Region.count
  rw [Lines.wrap_small hl, buf_bind, e]
  · simp only [Out.ok_bind, Util.emit_eq, Out.pure_eq, List.flatten_append, f, List.flatten_cons, List.flatten_nil, List.append_nil]
    unfold Region.listText
    simp only [List.append_assoc]
  · simp [MAX_STRING]; omega

theorem region_readOne_text (count step : Nat) {r : Region} (h : r.Textable) {pre : Str} (hp : Util.Skips pre) :
    ∃ tail, Util.Skips tail ∧ ∀ rest, Region.readOne (pre ++ (Region.text count step r ++ rest)) = .ok (r, tail ++ rest) := by
  have hr : Util.Skips "# ===========================================\n".toList := Util.skips_of (by decide)
  have hl : Util.Skips "# Location \n".toList := Util.skips_of (by decide)
  have hn : Util.Skips ("# Region number ".toList ++ showInt (step + 1 : Nat) ++ " / ".toList ++ showInt count ++ " \n".toList) := by
    have := Util.Skips.comment (l := " Region number ".toList ++ showInt (step + 1 : Nat) ++ " / ".toList ++ showInt count ++ " ".toList)
      (by
        have hw : ∀ v, ∀ c ∈ showInt v, c ≠ '\n' := by
          intro v c hc; have := Util.showInt_wordChar v c hc; rintro rfl; simp [Util.wordChar] at this
        intro c hc; simp only [List.mem_append] at hc
        rcases hc with (((h | h) | h) | h) | h
        · exact (by decide : ∀ c ∈ " Region number ".toList, c ≠ '\n') c h
        · exact hw _ c h
        · exact (by decide : ∀ c ∈ " / ".toList, c ≠ '\n') c h
        · exact hw _ c h
        · exact (by decide : ∀ c ∈ " ".toList, c ≠ '\n') c h)
    simpa using this
  obtain ⟨t1, s1, r1⟩ := Lines.read_text (name := "Prefix".toList) (by decide) h.pre Util.Skips.newline
  obtain ⟨t2, s2, r2⟩ := Lines.read_text (name := "Suffix".toList) (by decide) h.suf s1
  obtain ⟨t3, s3, r3⟩ := Lines.read_text (name := "Prelude".toList) (by decide) h.prelude s2
  obtain ⟨t4, s4, r4⟩ := Lines.read_text (name := "Postlude".toList) (by decide) h.postlude s3
  refine ⟨t4, s4, fun rest => ?_⟩
  unfold Region.readOne Region.text
  generalize hA : "# ===========================================\n".toList ++
    ("# Region number ".toList ++ showInt (step + 1 : Nat) ++ " / ".toList ++ showInt count ++ " \n".toList) ++ "# Location \n".toList = A
  have hA' : Util.Skips A := by rw [← hA]; exact (hr.append hn).append hl
  simp only [List.append_assoc]
  rw [← List.append_assoc pre, Util.read_int_pre (hp.append hA') h.loc (Util.Sep.newline _)]
  simp only [Out.ok_bind]
  rw [r1]; simp only [Out.ok_bind]
  rw [r2]; simp only [Out.ok_bind]
  rw [r3]; simp only [Out.ok_bind]
  rw [r4]; rfl

theorem region_readLoop_texts (count : Nat) (l : List Region) (step : Nat) (h : ∀ r ∈ l, r.Textable) {pre : Str} (hp : Util.Skips pre) :
    ∃ tail, Util.Skips tail ∧ ∀ rest, Region.readLoop l.length (pre ++ (Region.texts count step l ++ rest)) = .ok (l, tail ++ rest) := by
  induction l generalizing step pre with
  | nil => exact ⟨pre, hp, fun rest => rfl⟩
  | cons r l ih =>
    obtain ⟨t1, s1, r1⟩ := region_readOne_text count step (h r (by simp)) hp
    obtain ⟨t2, s2, r2⟩ := ih (step + 1) (fun x hx => h x (by simp [hx])) s1
    refine ⟨t2, s2, fun rest => ?_⟩
    unfold Region.texts
    simp only [List.length_cons, Region.readLoop, List.append_assoc]
    rw [r1]; simp only [Out.ok_bind]
    rw [r2]; rfl

/-- C45 for regions: the reader inverts the printer. -/
theorem region_text_round_trip {l : List Region} (hne : l ≠ []) (hl : (l.length : Int) < 2 ^ 31) (h : ∀ r ∈ l, r.Textable)
    {pre : Str} (hp : ∀ c ∈ pre, isSpace c = true) :
    Region.sprint l = .ok (some (Region.listText l)) ∧ ∃ rest, Region.sread (some (pre ++ Region.listText l)) = .ok (l, rest) := by
  refine ⟨region_sprint_text hl h, ?_⟩
  obtain ⟨tail, _, r⟩ := region_readLoop_texts l.length l 0 h Util.Skips.newline
  have r := r []
  rw [List.append_nil, List.append_nil] at r
  refine ⟨some tail, ?_⟩
  have hpos : 0 < l.length := List.length_pos_iff.mpr hne
  have hh : Util.Skips "# Number of regions\n".toList := Util.skips_of (by decide)
  unfold Region.sread Region.listText
  simp only
  rw [← List.append_assoc pre, Util.read_int_pre ((Util.Skips.blanks hp).append hh) (Lines.fits_small hl) (Util.Sep.newline _)]
  simp only [Out.ok_bind, Region.readRegions]
  rw [if_neg (by omega), if_neg (by omega)]
  simp only [Int.toNat_natCast]
  rw [r]; rfl

/-- The copy of a list of regions is the same list. -/
theorem region_clone_eq (l : List Region) : Region.clone l = l := by
  induction l with
  | nil => rfl
  | cons r l ih => simp [Region.clone, ih, Region.clone_one, Lines.clone_eq]

theorem region_equal_one_iff (a b : Region) : Region.equal_one a b = true ↔ a = b := by
  unfold Region.equal_one
  simp only [Bool.and_eq_true, Lines.equal_iff, decide_eq_true_eq]
  cases a; cases b; simp [and_assoc]

/-- C46 finding: `osl_region_equal` never answers 1: on equal lists it reaches the NULL ends, considers them equal, and
dereferences them. -/
theorem region_equal_never_true (a b : List Region) : Region.equal a b ≠ .ok true := by
  induction a generalizing b with
  | nil => cases b <;> simp [Region.equal]
  | cons x a ih =>
    cases b with
    | nil => simp [Region.equal]
    | cons y b =>
      simp only [Region.equal]
      split
      · exact ih b
      · simp

/-- C46 finding: comparing equal lists of regions is undefined. -/
theorem region_equal_violates (l : List Region) : Region.equal l l = .ub := by
  induction l with
  | nil => rfl
  | cons x l ih => simp [Region.equal, (region_equal_one_iff x x).mpr rfl, ih]

/-- C46 for regions, what holds: different lists are told different. -/
theorem region_equal_different (a b : List Region) : a ≠ b → Region.equal a b = .ok false := by
  induction a generalizing b with
  | nil => cases b <;> simp [Region.equal]
  | cons x a ih =>
    cases b with
    | nil => simp [Region.equal]
    | cons y b =>
      intro hne
      simp only [Region.equal]
      by_cases e : x = y
      · rw [if_pos ((region_equal_one_iff x y).mpr e)]
        exact ih b (by rintro rfl; exact hne (by rw [e]))
      · rw [if_neg (fun h => e ((region_equal_one_iff x y).mp h))]

/-- Finding: the text of the NULL list is read as NULL; a negative number of regions is read as one empty region. -/
theorem region_negative_count_violates : Region.sread (some "-1\n".toList) = .ok ([Region.malloc], some "\n".toList) := by decide

/-- The hypotheses are met. -/
example : Region.Textable { location := 1, pre := [(1, "a;".toList)], suf := [], prelude := [], postlude := [] } := by
  have : Lines.Textable [] := ⟨by simp, by simp, by decide⟩
  exact ⟨by decide, ⟨by decide, by
    intro p hp
    simp only [List.mem_cons, List.not_mem_nil, or_false] at hp
    subst hp; exact ⟨⟨by decide, by decide, by intro c hc; simp at hc; subst hc; decide, by decide⟩, by decide⟩, by decide⟩, this, this, this⟩

end Ext
end Osl
