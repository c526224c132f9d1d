import Verif.ExtDep
import Verif.ExtTextProps
import Verif.RelationTextProps
/-!
# Properties of the extension dependence (C47)
-/

namespace Osl
namespace Ext
namespace Dep

/-- The dependences whose domain is well shaped. -/
def Valid (c : Cfg) (d : Dep) : Prop := Rel.Valid c d.domain

theorem equalInts_iff (a b : Dep) (hd : a.domain = b.domain) : equalInts a b = true ↔ a = b := by
  obtain ⟨a1, a2, a3, a4, a5, a6, a7, a8, a9, a10, a11, a12, a13, a14, a15⟩ := a
  obtain ⟨b1, b2, b3, b4, b5, b6, b7, b8, b9, b10, b11, b12, b13, b14, b15⟩ := b
  simp only at hd
  simp only [equalInts, Dep.mk.injEq]
  subst hd
  split
  · rename_i h; simp only [Bool.false_eq_true, false_iff]; omega
  · rename_i h; simp only [true_iff]; simp only [not_or, ne_eq, Decidable.not_not] at h; simp [h]

theorem equalOne_eq {c : Cfg} {a b : Dep} (ha : Valid c a) (hb : Valid c b) : equalOne c a b = .ok (decide (a = b)) := by
  have he := Rel.equal_ok ha.wf hb.wf
  unfold equalOne
  rw [he]
  simp only [Out.ok_bind]
  by_cases h : a.domain = b.domain
  · simp only [h, decide_true, Bool.not_true, Bool.false_eq_true, if_false, Out.pure_eq, Out.ok.injEq]
    rw [Bool.eq_iff_iff, equalInts_iff a b h]; simp
  · have : a ≠ b := by rintro rfl; exact h rfl
    simp [h, this]

theorem equal_eq {c : Cfg} : ∀ (l m : List Dep), l ≠ [] → m ≠ [] → (∀ d ∈ l, Valid c d) → (∀ d ∈ m, Valid c d) →
    equal c l m = .ok (decide (l = m)) := by
  intro l
  induction l with
  | nil => intro m h; exact absurd rfl h
  | cons a l ih =>
    intro m _ hm ha hb
    cases m with
    | nil => exact absurd rfl hm
    | cons b m =>
      have h1 := equalOne_eq (ha a (by simp)) (hb b (by simp))
      cases l with
      | nil =>
        cases m with
        | nil => simp only [equal, h1]; simp
        | cons b' m => simp [equal]
      | cons a' l =>
        cases m with
        | nil => simp [equal]
        | cons b' m =>
          have h2 := ih (b' :: m) (by simp) (by simp) (fun d hd => ha d (by simp [hd])) (fun d hd => hb d (by simp [hd]))
          simp only [equal, h2, h1, andThen, Out.ok_bind]
          by_cases e1 : a' :: l = b' :: m
          · by_cases e2 : a = b <;> simp [e1, e2]
          · simp [e1]

/-- C47, C46: on lists which are not NULL, `osl_dependence_equal` decides equality of the contents. -/
theorem dependence_equal_correct (c : Cfg) (env : Option Str) {a b : NE Dep} (ha : ∀ d ∈ NE.elems (some a), Valid c d)
    (hb : ∀ d ∈ NE.elems (some b), Valid c d) :
    ∃ r, (ops c env).equal (some a) (some b) = .ok r ∧ (r = true ↔ NE.elems (some a) = NE.elems (some b)) := by
  refine ⟨_, equal_eq _ _ (by simp [NE.elems]) (by simp [NE.elems]) ha hb, by simp⟩

/-- C46 finding: comparing a dependence list with NULL dereferences NULL. -/
theorem dependence_equal_null_violates (c : Cfg) (env : Option Str) (a : NE Dep) :
    (ops c env).equal (some a) none = .ub ∧ (ops c env).equal none (some a) = .ub := ⟨rfl, rfl⟩

theorem cloneOne_eq {c : Cfg} {d : Dep} (h : Valid c d) : cloneOne c d = .ok d := by
  unfold cloneOne
  rw [Rel.clone_ok h.wf]
  rfl

/-- C47: the copy succeeds and is equal to the list. -/
theorem dependence_clone_equal (c : Cfg) (env : Option Str) {a : NE Dep} (ha : ∀ d ∈ NE.elems (some a), Valid c d) :
    (ops c env).clone (some a) = .ok (some a) ∧ (ops c env).CloneEqual a := by
  have h : clone c (NE.elems (some a)) = .ok (NE.elems (some a)) := by
    have := Out.mapOut_ok (f := cloneOne c) (g := id) (l := NE.elems (some a)) fun d hd => cloneOne_eq (ha d hd)
    rw [List.map_id] at this
    exact this
  have h' : (ops c env).clone (some a) = .ok (some a) := by
    simp only [ops]
    rw [h]
    rfl
  refine ⟨h', a, h', ?_⟩
  obtain ⟨r, e1, e2⟩ := dependence_equal_correct c env ha ha
  rw [e1, e2.mpr rfl]

/-- C47: `osl_nb_dependences` counts. -/
theorem dependence_nb_correct (l : List Dep) : nb l = l.length := by
  induction l with
  | nil => rfl
  | cons d l ih => simp [nb, ih]

/-- C47: when `*now` is the last node (or the list is empty), `osl_dependence_add` appends and `*now` is the last node again. -/
theorem dependence_add_correct {start l : List Dep} {now : Nat} (h : start ≠ [] → now + 1 = start.length) :
    ∃ now', add start now l = .ok (start ++ l, now') ∧ (start ++ l ≠ [] → now' + 1 = (start ++ l).length) := by
  cases l with
  | nil => exact ⟨now, by simp [add], by simpa using h⟩
  | cons d l =>
    cases start with
    | nil => exact ⟨l.length, rfl, fun _ => by simp⟩
    | cons s ss =>
      have hn := h (by simp)
      refine ⟨now + (d :: l).length, ?_, fun _ => by simp at hn ⊢; omega⟩
      simp only [add]
      rw [if_pos (by omega), hn, List.take_length]

/-- The successive additions to an empty list. -/
def addAll : List (List Dep) → List Dep × Nat → Out (List Dep × Nat)
  | [], s => .ok s
  | l :: ls, s => add s.1 s.2 l >>= addAll ls

/-- C47: any history of additions from an empty list gives the concatenation of the added lists. -/
theorem dependence_add_history (ls : List (List Dep)) (now : Nat) : ∃ now', addAll ls ([], now) = .ok (ls.flatten, now') := by
  have key : ∀ (ls : List (List Dep)) (s : List Dep) (now : Nat), (s ≠ [] → now + 1 = s.length) → ∃ now', addAll ls (s, now) = .ok (s ++ ls.flatten, now') := by
    intro ls
    induction ls with
    | nil => intro s now _; exact ⟨now, by simp [addAll]⟩
    | cons l ls ih =>
      intro s now h
      obtain ⟨n1, e1, h1⟩ := dependence_add_correct (l := l) h
      obtain ⟨n2, e2⟩ := ih (s ++ l) n1 h1
      exact ⟨n2, by rw [addAll, e1, Out.ok_bind, e2]; simp⟩
  have := key ls [] now (by simp)
  simpa using this

/-- Finding: when `*now` is not the last node, the nodes after it are lost. -/
theorem dependence_add_violates : add [malloc, malloc] 0 [malloc] = .ok ([malloc, malloc], 1) := by decide

/-! ### Text -/

/-- The types which have a text. -/
def KnownType (t : Int) : Prop := t = UNDEFINED ∨ t = 1 ∨ t = 2 ∨ t = 3 ∨ t = 4 ∨ t = 5

/-- A dependence whose text can be read back: C `int`s, a known type, a domain which can be printed and read back (one
part, or untyped parts after the first one, see C24). -/
structure Textable (c : Cfg) (prec : Int) (d : Dep) : Prop where
  ints : fits 32 d.label_source ∧ fits 32 d.label_target ∧ fits 32 d.ref_source ∧ fits 32 d.ref_target ∧ fits 32 d.depth
  dims : fits 32 d.src_out_dom ∧ fits 32 d.src_out_acc ∧ fits 32 d.tgt_out_dom ∧ fits 32 d.tgt_out_acc ∧
    fits 32 d.src_loc_dom ∧ fits 32 d.src_loc_acc ∧ fits 32 d.tgt_loc_dom ∧ fits 32 d.tgt_loc_acc
  type : KnownType d.type
  ne : d.domain ≠ []
  readable : ∀ q ∈ d.domain, Rel.Readable c prec q
  len : (d.domain.length : Int) < 2 ^ 31
  rtype : ∀ p r, d.domain = p :: r → Rel.KnownType p.type ∧ ∀ q ∈ r, q.type = UNDEFINED
  prints : ∃ t, Rel.sprint c d.domain = .ok t

theorem Textable.valid {c : Cfg} {prec : Int} {d : Dep} (h : Textable c prec d) : Valid c d := fun q hq => (h.readable q hq).valid

/-- The word of a type and the comment after it. -/
theorem typeText_known {t : Int} (h : KnownType t) : ∃ w cm, typeText t = .ok (w ++ cm) ∧ typeOf w = t ∧ Strings.Word w ∧
    (cm ++ "\n".toList).length < 20 ∧ (w.length < 13) ∧ (∀ s, Util.Sep (cm ++ ("\n".toList ++ s))) ∧ Util.Skips (cm ++ "\n".toList) := by
  rcases h with rfl | rfl | rfl | rfl | rfl | rfl
  · exact ⟨"UNSET".toList, [], rfl, by decide, by unfold Strings.Word; decide, by decide, by decide, fun s => Util.Sep.newline s, Util.skips_of (by decide)⟩
  · exact ⟨"RAW".toList, " #(flow)".toList, rfl, by decide, by unfold Strings.Word; decide, by decide, by decide, fun s => Util.Sep.space ("#(flow)".toList ++ ("\n".toList ++ s)), Util.skips_of (by decide)⟩
  · exact ⟨"WAR".toList, " #(anti)".toList, rfl, by decide, by unfold Strings.Word; decide, by decide, by decide, fun s => Util.Sep.space ("#(anti)".toList ++ ("\n".toList ++ s)), Util.skips_of (by decide)⟩
  · exact ⟨"WAW".toList, " #(output)".toList, rfl, by decide, by unfold Strings.Word; decide, by decide, by decide, fun s => Util.Sep.space ("#(output)".toList ++ ("\n".toList ++ s)), Util.skips_of (by decide)⟩
  · exact ⟨"RAR".toList, " #(input)".toList, rfl, by decide, by unfold Strings.Word; decide, by decide, by decide, fun s => Util.Sep.space ("#(input)".toList ++ ("\n".toList ++ s)), Util.skips_of (by decide)⟩
  · exact ⟨"RAW_SCALPRIV".toList, " #(scalar priv)".toList, rfl, by decide, by unfold Strings.Word; decide, by decide, by decide, fun s => Util.Sep.space ("#(scalar priv)".toList ++ ("\n".toList ++ s)), Util.skips_of (by decide)⟩

theorem wordChars {w : Str} (hw : Strings.Word w) : ∀ c ∈ w, Util.wordChar c = true := by
  intro c hc
  obtain ⟨x1, x2⟩ := hw.2.2 c hc
  have x3 : c ≠ '\n' := by rintro rfl; simp [isSpace] at x1
  simp [Util.wordChar, x1, x2, x3]

theorem truncated_short {s : Str} (h : s.length < MAX_STRING) : Rel.truncated s = s := by
  unfold Rel.truncated; exact List.take_of_length_le (by omega)

theorem scan_dims {d : Dep} (h : fits 32 d.src_out_dom ∧ fits 32 d.src_out_acc ∧ fits 32 d.tgt_out_dom ∧ fits 32 d.tgt_out_acc ∧
    fits 32 d.src_loc_dom ∧ fits 32 d.src_loc_acc ∧ fits 32 d.tgt_loc_dom ∧ fits 32 d.tgt_loc_acc) :
    scanInts 8 (dimsLine d) = .ok [d.src_out_dom, d.src_out_acc, d.tgt_out_dom, d.tgt_out_acc, d.src_loc_dom, d.src_loc_acc, d.tgt_loc_dom, d.tgt_loc_acc] := by
  obtain ⟨h1, h2, h3, h4, h5, h6, h7, h8⟩ := h
  have sp : ∀ R : Str, ∀ c, (" ".toList ++ R).head? = some c → isDigit c = false := by intro R c hc; simp at hc; subst hc; decide
  have a8 : scanInts 1 (" ".toList ++ (showInt d.tgt_loc_acc ++ [])) = .ok [d.tgt_loc_acc] :=
    Rel.scanInts_step h8 1 (by simp) (n := 0) (l := []) rfl
  rw [List.append_nil] at a8
  have a7 : scanInts 2 (" ".toList ++ (showInt d.tgt_loc_dom ++ _)) = _ := Rel.scanInts_step h7 1 (sp _) a8
  have a6 : scanInts 3 (" ".toList ++ (showInt d.src_loc_acc ++ _)) = _ := Rel.scanInts_step h6 1 (sp _) a7
  have a5 : scanInts 4 (" ".toList ++ (showInt d.src_loc_dom ++ _)) = _ := Rel.scanInts_step h5 1 (sp _) a6
  have a4 : scanInts 5 (" ".toList ++ (showInt d.tgt_out_acc ++ _)) = _ := Rel.scanInts_step h4 1 (sp _) a5
  have a3 : scanInts 6 (" ".toList ++ (showInt d.tgt_out_dom ++ _)) = _ := Rel.scanInts_step h3 1 (sp _) a4
  have a2 : scanInts 7 (" ".toList ++ (showInt d.src_out_acc ++ _)) = _ := Rel.scanInts_step h2 1 (sp _) a3
  have a1 : scanInts 8 (showInt d.src_out_dom ++ _) = _ := Rel.scanInts_step h1 0 (sp _) a2
  exact a1

theorem dimsLine_noNL (d : Dep) : NoNL (dimsLine d) := by
  have sp : NoNL " ".toList := by unfold NoNL; decide
  unfold dimsLine
  repeat (first | exact noNL_showInt _ | refine (noNL_showInt _).append ?_ | refine sp.append ?_)

theorem dimsLine_length {d : Dep} (h : fits 32 d.src_out_dom ∧ fits 32 d.src_out_acc ∧ fits 32 d.tgt_out_dom ∧ fits 32 d.tgt_out_acc ∧
    fits 32 d.src_loc_dom ∧ fits 32 d.src_loc_acc ∧ fits 32 d.tgt_loc_dom ∧ fits 32 d.tgt_loc_acc) : (dimsLine d).length ≤ 95 := by
  obtain ⟨h1, h2, h3, h4, h5, h6, h7, h8⟩ := h
  have := Util.showInt_length h1
  have := Util.showInt_length h2
  have := Util.showInt_length h3
  have := Util.showInt_length h4
  have := Util.showInt_length h5
  have := Util.showInt_length h6
  have := Util.showInt_length h7
  have := Util.showInt_length h8
  have sp : " ".toList.length = 1 := rfl
  unfold dimsLine
  simp only [List.length_append, sp]
  omega

theorem takeWhile_line {l : Str} (h : NoNL l) (s : Str) : (l ++ ("\n".toList ++ s)).takeWhile (fun ch => ch != '\n') = l := by
  refine (takeWhile_append_stop ?_ ?_).1
  · intro c hc; have := NoNL.ne h c hc; simpa using this
  · intro c hc; simp at hc; subst hc; decide

theorem readDims_text {d : Dep} (h : fits 32 d.src_out_dom ∧ fits 32 d.src_out_acc ∧ fits 32 d.tgt_out_dom ∧ fits 32 d.tgt_out_acc ∧
    fits 32 d.src_loc_dom ∧ fits 32 d.src_loc_acc ∧ fits 32 d.tgt_loc_dom ∧ fits 32 d.tgt_loc_acc) {pre : Str} (hp : Util.Skips pre) (s : Str) :
    readDims (pre ++ (dimsLine d ++ ("\n".toList ++ s))) =
      .ok ([d.src_out_dom, d.src_out_acc, d.tgt_out_dom, d.tgt_out_acc, d.src_loc_dom, d.src_loc_acc, d.tgt_loc_dom, d.tgt_loc_acc], "\n".toList ++ s) := by
  have hs : Util.Starts (dimsLine d ++ ("\n".toList ++ s)) := by
    unfold dimsLine; rw [List.append_assoc]; exact Rel.starts_showInt _ _
  have hl := dimsLine_length h
  unfold readDims
  simp only
  rw [hp, Util.sskip_starts hs, takeWhile_line (dimsLine_noNL d), if_neg (by simp [MAX_STRING]; omega), scan_dims h]
  simp

/-- The value of a successful computation (specification). -/
def val : Out Str → Str
  | .ok s => s
  | _ => []

/-- The text of a list of dependences (specification). -/
def body (c : Cfg) : Nat → List Dep → Str
  | _, [] => []
  | n, d :: l =>
    "# Description of dependence ".toList ++ (showNat n ++ ("\n".toList ++ ("# type\n".toList ++ (val (typeText d.type) ++ ("\n".toList ++
    ("# From source statement id\n".toList ++ (showInt d.label_source ++ ("\n".toList ++
    ("# To target statement id\n".toList ++ (showInt d.label_target ++ ("\n".toList ++
    ("# Depth \n".toList ++ (showInt d.depth ++ ("\n".toList ++
    ("# From source access ref\n".toList ++ (showInt d.ref_source ++ ("\n".toList ++
    ("# To target access ref\n".toList ++ (showInt d.ref_target ++ ("\n".toList ++
    ("# Dimension information\n# 1 src-out-dom, 2 src-out-acc, 3 tgt-out-dom, 4 tgt-out-acc\n# 5 src-loc-dom, 6 src-loc-acc, 7 tgt-loc-dom, 8 tgt-loc-acc\n".toList ++
    (dimsLine d ++ ("\n# Dependence domain\n".toList ++ (val (Rel.sprint c d.domain) ++ body c (n + 1) l))))))))))))))))))))))))

set_option maxRecDepth 4000 in
theorem pieces_text {c : Cfg} {prec : Int} : ∀ (l : List Dep) (n : Nat), (∀ d ∈ l, Textable c prec d) → ((n + l.length : Nat) : Int) < 2 ^ 31 →
    ∃ ps, pieces c n l = .ok ps ∧ ps.flatten = body c n l := by
  intro l
  induction l with
  | nil => intro n _ _; exact ⟨[], rfl, rfl⟩
  | cons d l ih =>
    intro n h hn
    have hd := h d (by simp)
    obtain ⟨ps, e1, e2⟩ := ih (n + 1) (fun x hx => h x (by simp [hx])) (by simp at hn ⊢; omega)
    obtain ⟨w, cm, e3, _, _, l1, l2, _, _⟩ := typeText_known hd.type
    obtain ⟨t, e4⟩ := hd.prints
    obtain ⟨i1, i2, i3, i4, i5⟩ := hd.ints
    refine ⟨_, by rw [pieces, e3, Out.ok_bind, e4, Out.ok_bind, e1, Out.ok_bind]; rfl, ?_⟩
    have b1 := Util.showInt_length i1
    have b2 := Util.showInt_length i2
    have b3 := Util.showInt_length i3
    have b4 := Util.showInt_length i4
    have b5 := Util.showInt_length i5
    have b6 : (showNat n).length ≤ 11 := by
      rw [Util.showNat_pos]; exact Util.showInt_length (Lines.fits_small (by simp at hn; omega))
    have b7 := dimsLine_length hd.dims
    have m : MAX_STRING = 2048 := rfl
    simp only [List.flatten_cons, e2]
    unfold infoText dimsText
    rw [truncated_short, truncated_short]
    · have e : body c n (d :: l) = "# Description of dependence ".toList ++ (showNat n ++ ("\n".toList ++ ("# type\n".toList ++ (val (typeText d.type) ++ ("\n".toList ++
        ("# From source statement id\n".toList ++ (showInt d.label_source ++ ("\n".toList ++
        ("# To target statement id\n".toList ++ (showInt d.label_target ++ ("\n".toList ++
        ("# Depth \n".toList ++ (showInt d.depth ++ ("\n".toList ++
        ("# From source access ref\n".toList ++ (showInt d.ref_source ++ ("\n".toList ++
        ("# To target access ref\n".toList ++ (showInt d.ref_target ++ ("\n".toList ++
        ("# Dimension information\n# 1 src-out-dom, 2 src-out-acc, 3 tgt-out-dom, 4 tgt-out-acc\n# 5 src-loc-dom, 6 src-loc-acc, 7 tgt-loc-dom, 8 tgt-loc-acc\n".toList ++
        (dimsLine d ++ ("\n# Dependence domain\n".toList ++ (val (Rel.sprint c d.domain) ++ body c (n + 1) l)))))))))))))))))))))))) := rfl
      rw [e, e3, e4]
      simp only [val, List.append_assoc]
    · simp only [List.length_append, String.length_toList]
      have : "# Dimension information\n# 1 src-out-dom, 2 src-out-acc, 3 tgt-out-dom, 4 tgt-out-acc\n# 5 src-loc-dom, 6 src-loc-acc, 7 tgt-loc-dom, 8 tgt-loc-acc\n".length < 300 := by decide
      have : "\n# Dependence domain\n".length < 30 := by decide
      omega
    · simp only [List.length_append, String.length_toList] at l1 ⊢
      have : "# Description of dependence ".length < 50 := by decide
      have : "# From source statement id\n".length < 50 := by decide
      have : "# To target statement id\n".length < 50 := by decide
      have : "# From source access ref\n".length < 50 := by decide
      have : "# To target access ref\n".length < 50 := by decide
      have : "# Depth \n".length < 50 := by decide
      have : "# type\n".length < 50 := by decide
      have : "\n".length = 1 := by decide
      omega

theorem psread_skip (c : Cfg) (prec : Int) (s : Str) : Rel.psread c prec s = Rel.psread c prec (Util.sskip s) := by
  unfold Rel.psread Rel.read_type Strings.sread
  simp only [Util.sskip_idem]

theorem readOne_skip (c : Cfg) (prec : Int) (s : Str) : readOne c prec s = readOne c prec (Util.sskip s) := by
  unfold readOne
  rw [Util.read_string_skip]

set_option maxRecDepth 4000 in
theorem readOne_text {c : Cfg} {prec : Int} {d : Dep} {l : List Dep} (h : Textable c prec d) (n : Nat) (rest : Str) :
    ∃ pos, readOne c prec (body c n (d :: l) ++ rest) = .ok (d, some pos) ∧ Util.sskip pos = Util.sskip (body c (n + 1) l ++ rest) := by
  obtain ⟨w, cm, e3, t1, t2, _, _, t3, t4⟩ := typeText_known h.type
  obtain ⟨t, e4⟩ := h.prints
  obtain ⟨i1, i2, i3, i4, i5⟩ := h.ints
  have e : body c n (d :: l) = "# Description of dependence ".toList ++ (showNat n ++ ("\n".toList ++ ("# type\n".toList ++ (val (typeText d.type) ++ ("\n".toList ++
        ("# From source statement id\n".toList ++ (showInt d.label_source ++ ("\n".toList ++
        ("# To target statement id\n".toList ++ (showInt d.label_target ++ ("\n".toList ++
        ("# Depth \n".toList ++ (showInt d.depth ++ ("\n".toList ++
        ("# From source access ref\n".toList ++ (showInt d.ref_source ++ ("\n".toList ++
        ("# To target access ref\n".toList ++ (showInt d.ref_target ++ ("\n".toList ++
        ("# Dimension information\n# 1 src-out-dom, 2 src-out-acc, 3 tgt-out-dom, 4 tgt-out-acc\n# 5 src-loc-dom, 6 src-loc-acc, 7 tgt-loc-dom, 8 tgt-loc-acc\n".toList ++
        (dimsLine d ++ ("\n# Dependence domain\n".toList ++ (val (Rel.sprint c d.domain) ++ body c (n + 1) l)))))))))))))))))))))))) := rfl
  obtain ⟨p, r, hdom⟩ : ∃ p r, d.domain = p :: r := by
    have := h.ne
    cases hd : d.domain with
    | nil => exact absurd hd this
    | cons p r => exact ⟨p, r, rfl⟩
  obtain ⟨k1, k2⟩ := h.rtype p r hdom
  have hr := h.readable
  rw [hdom] at hr
  have e4' := e4
  rw [hdom] at e4'
  obtain ⟨pos, e5, e6⟩ := Rel.relation_sread_sprint hr (by have := h.len; rw [hdom] at this; simp at this; omega) k1 (names := none) (by simp) e4' (body c (n + 1) l ++ rest)
  have hu : r.map (fun q => { q with type := UNDEFINED }) = r := by
    have : ∀ q ∈ r, (fun q : Part => { q with type := UNDEFINED }) q = q := by
      intro q hq; simp only; rw [← k2 q hq]
    rw [List.map_congr_left this, List.map_id']
  rw [hu, ← hdom] at e5
  have s0 : Util.Skips ("# Description of dependence ".toList ++ (showNat n ++ ("\n".toList ++ "# type\n".toList))) := by
    have s1 : Util.Skips ("# Description of dependence ".toList ++ (showNat n ++ "\n".toList)) := by
      have := Util.Skips.comment (l := " Description of dependence ".toList ++ showNat n) (by
        have : NoNL (" Description of dependence ".toList ++ showNat n) := NoNL.append (by unfold NoNL; decide) (noNL_showNat n)
        exact this.ne)
      rw [List.append_assoc, List.append_assoc] at this
      exact this
    have := s1.append (Util.skips_of (pre := "# type\n".toList) (by decide))
    simp only [List.append_assoc] at this
    exact this
  have s1 : Util.Skips ((cm ++ "\n".toList) ++ "# From source statement id\n".toList) := t4.append (Util.skips_of (by decide))
  have s2 : Util.Skips ("\n".toList ++ "# To target statement id\n".toList) := Util.skips_of (by decide)
  have s3 : Util.Skips ("\n".toList ++ "# Depth \n".toList) := Util.skips_of (by decide)
  have s4 : Util.Skips ("\n".toList ++ "# From source access ref\n".toList) := Util.skips_of (by decide)
  have s5 : Util.Skips ("\n".toList ++ "# To target access ref\n".toList) := Util.skips_of (by decide)
  have s6 : Util.Skips ("\n".toList ++ "# Dimension information\n# 1 src-out-dom, 2 src-out-acc, 3 tgt-out-dom, 4 tgt-out-acc\n# 5 src-loc-dom, 6 src-loc-acc, 7 tgt-loc-dom, 8 tgt-loc-acc\n".toList) :=
    Util.skips_of (by decide)
  have s7 : Util.Skips ("\n".toList ++ "# Dependence domain\n".toList) := Util.skips_of (by decide)
  refine ⟨pos, ?_, e6⟩
  rw [e, e3, e4]
  have e7 : "\n# Dependence domain\n".toList = "\n".toList ++ "# Dependence domain\n".toList := rfl
  rw [e7]
  simp only [val, List.append_assoc]
  unfold readOne
  rw [← List.append_assoc "\n".toList "# type\n".toList, ← List.append_assoc (showNat n), ← List.append_assoc "# Description of dependence ".toList]
  rw [Util.read_string_pre s0 t2.1 (wordChars t2) t2.2.1 (t3 _)]
  simp only [Out.ok_bind]
  rw [← List.append_assoc "\n".toList "# From source statement id\n".toList, ← List.append_assoc cm, ← List.append_assoc cm, Util.read_int_pre s1 i1 (Util.Sep.newline _)]
  simp only [Out.ok_bind]
  rw [← List.append_assoc "\n".toList "# To target statement id\n".toList, Util.read_int_pre s2 i2 (Util.Sep.newline _)]
  simp only [Out.ok_bind]
  rw [← List.append_assoc "\n".toList "# Depth \n".toList, Util.read_int_pre s3 i5 (Util.Sep.newline _)]
  simp only [Out.ok_bind]
  rw [← List.append_assoc "\n".toList "# From source access ref\n".toList, Util.read_int_pre s4 i3 (Util.Sep.newline _)]
  simp only [Out.ok_bind]
  rw [← List.append_assoc "\n".toList "# To target access ref\n".toList, Util.read_int_pre s5 i4 (Util.Sep.newline _)]
  simp only [Out.ok_bind]
  rw [← List.append_assoc "\n".toList "# Dimension information\n# 1 src-out-dom, 2 src-out-acc, 3 tgt-out-dom, 4 tgt-out-acc\n# 5 src-loc-dom, 6 src-loc-acc, 7 tgt-loc-dom, 8 tgt-loc-acc\n".toList,
    readDims_text h.dims s6]
  simp only [Out.ok_bind]
  rw [← List.append_assoc "\n".toList "# Dependence domain\n".toList, psread_skip, s7, ← psread_skip, e5]
  simp only [Out.ok_bind, t1]
  rfl

theorem readLoop_text {c : Cfg} {prec : Int} : ∀ (l : List Dep) (n : Nat) (rest s : Str), (∀ d ∈ l, Textable c prec d) →
    Util.sskip s = Util.sskip (body c n l ++ rest) →
    ∃ pos, readLoop c prec l.length (some s) = .ok (l, some pos) ∧ Util.sskip pos = Util.sskip rest := by
  intro l
  induction l with
  | nil => intro n rest s _ h; exact ⟨s, rfl, h⟩
  | cons d l ih =>
    intro n rest s h hs
    obtain ⟨pos, e1, e2⟩ := readOne_text (h d (by simp)) (l := l) n rest
    obtain ⟨pos', e3, e4⟩ := ih (n + 1) rest pos (fun x hx => h x (by simp [hx])) e2
    refine ⟨pos', ?_, e4⟩
    simp only [List.length_cons, readLoop]
    rw [readOne_skip, hs, ← readOne_skip, e1]
    simp only [Out.ok_bind]
    rw [e3]
    rfl

set_option maxRecDepth 4000 in
/-- C47: reading the text of a list of dependences gives the same list. -/
theorem dependence_text_exact (c : Cfg) (env : Option Str) {a : NE Dep}
    (h : ∀ d ∈ NE.elems (some a), Textable c (Util.get_precision c env) d) (hn : ((NE.elems (some a)).length : Int) < 2 ^ 31 - 1) :
    ∃ t, (ops c env).sprint (some a) = .ok (some t) ∧ ∀ pre : Str, (∀ c ∈ pre, isSpace c = true) →
      ∃ rest, (ops c env).sread (some (pre ++ t)) = .ok (some a, rest) := by
  obtain ⟨ps, e1, e2⟩ := pieces_text (NE.elems (some a)) 1 h (by omega)
  have s0 : Util.Skips "# Number of dependences\n".toList := Util.skips_of (by decide)
  refine ⟨"# Number of dependences\n".toList ++ (showInt (NE.elems (some a)).length ++ ("\n".toList ++ body c 1 (NE.elems (some a)))), ?_, fun pre hp => ?_⟩
  · simp only [ops, sprint]
    rw [e1, Out.ok_bind, Util.emit_eq, Out.ok_bind, List.flatten_cons, e2]
    simp only [List.append_assoc]
    rfl
  · obtain ⟨pos, e3, e4⟩ := readLoop_text (NE.elems (some a)) 1 [] ("\n".toList ++ body c 1 (NE.elems (some a))) h (by
      rw [List.append_nil, Util.Skips.newline])
    refine ⟨some pos, ?_⟩
    simp only [ops, psread]
    rw [← List.append_assoc pre, Util.read_int_pre ((Util.Skips.blanks hp).append s0) (Lines.fits_small (by omega)) (Util.Sep.newline _)]
    simp only [Out.ok_bind, Int.toNat_natCast]
    rw [e3]
    simp only [Out.ok_bind, NE.ofList_elems]

/-- C47: reading the text of a list of dependences gives an equal list. -/
theorem dependence_text_round_trip (c : Cfg) (env : Option Str) {a : NE Dep}
    (h : ∀ d ∈ NE.elems (some a), Textable c (Util.get_precision c env) d) (hn : ((NE.elems (some a)).length : Int) < 2 ^ 31 - 1) :
    (ops c env).RoundTrip a := by
  obtain ⟨t, e1, e2⟩ := dependence_text_exact c env h hn
  refine ⟨t, e1, fun pre hp => ?_⟩
  obtain ⟨rest, e3⟩ := e2 pre hp
  refine ⟨a, rest, e3, ?_⟩
  obtain ⟨r, r1, r2⟩ := dependence_equal_correct c env (fun d hd => (h d hd).valid) (fun d hd => (h d hd).valid)
  rw [r1, r2.mpr rfl]

/-- A dependence. -/
def exDep : Dep := { malloc with label_source := 0, label_target := 1, ref_source := 0, ref_target := 2, depth := 1, type := 1, domain := [{ Rel.exPart with precision := PREC_DP }], src_out_dom := 1, src_out_acc := 0, tgt_out_dom := 0, tgt_out_acc := 0, src_loc_dom := 0, src_loc_acc := 0, tgt_loc_dom := 0, tgt_loc_acc := 0 }

set_option maxRecDepth 8000 in
/-- The hypotheses are met. -/
example : Textable Cfg.std (Util.get_precision Cfg.std (some "64".toList)) exDep where
  ints := by decide
  dims := by decide
  type := .inr (.inl rfl)
  ne := by decide
  readable := by
    intro q hq
    simp [exDep] at hq; subst hq
    exact ⟨⟨by decide, by decide, by decide, by decide, by decide⟩, by decide, by unfold Rel.Part.Small; decide⟩
  len := by decide
  rtype := by
    intro p r h
    simp only [exDep, List.cons.injEq] at h
    obtain ⟨rfl, rfl⟩ := h
    exact ⟨by decide, by simp⟩
  prints := ⟨Rel.exText, by decide⟩

/-- Finding: a type without name makes the printer exit the program. -/
theorem dependence_type_violates (c : Cfg) (env : Option Str) {d : Dep} (l : List Dep) (h : ¬ KnownType d.type) :
    (ops c env).sprint (some ⟨d, l⟩) = .err := by
  have : typeText d.type = .err := by
    unfold typeText
    simp only [KnownType, not_or] at h
    simp [h]
  simp only [ops, sprint, NE.elems, pieces, this]
  rfl

/-- Finding: a NULL domain has no text, and nothing cannot be read as a domain. -/
theorem dependence_null_domain_violates (c : Cfg) (prec : Int) : Rel.sprint c [] = .ok [] ∧ Rel.psread c prec [] = .err := by
  refine ⟨rfl, ?_⟩
  rfl

end Dep
end Ext
end Osl
