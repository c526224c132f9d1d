import Verif.ExtIrregular
/-!
# The irregular extension: C57

Additions for all histories, the text, copies and equality.
-/

namespace Osl
namespace Ext
namespace Irregular

/-! ## Specification -/

/-- A well-formed extension: the arrays of predicates have `nb_control + nb_exit` elements. -/
structure WF (x : Irregular) : Prop where
  control : 0 ≤ x.nbControl
  exit : 0 ≤ x.nbExit
  preds : (x.preds.length : Int) = x.nbControl + x.nbExit

/-- The control predicates. -/
def controls (x : Irregular) : List Pred := x.preds.take x.nbControl.toNat

/-- The exit predicates. -/
def exits (x : Irregular) : List Pred := x.preds.drop x.nbControl.toNat

/-- What a user adds. -/
inductive Add where
  | control (iters : List (Option Str)) (body : Option Str)
  | exit (iters : List (Option Str)) (body : Option Str)
  | predicates (l : List Int)

/-- One addition. -/
def add (x : Irregular) : Add → Out Irregular
  | .control its b => addControl x its b
  | .exit its b => addExit x its b
  | .predicates l => addPredicates x l

/-- A history of additions. -/
def adds : Irregular → List Add → Out Irregular
  | x, [] => .ok x
  | x, a :: l => add x a >>= fun y => adds y l

/-- The control predicates of a history. -/
def Add.controls : List Add → List Pred
  | [] => []
  | .control its b :: l => ⟨its, b⟩ :: controls l
  | _ :: l => controls l

/-- The exit predicates of a history. -/
def Add.exits : List Add → List Pred
  | [] => []
  | .exit its b :: l => ⟨its, b⟩ :: exits l
  | _ :: l => exits l

/-- The lists of predicates of the statements of a history. -/
def Add.stmts : List Add → List (List Int)
  | [] => []
  | .predicates p :: l => p :: stmts l
  | _ :: l => stmts l

/-! ## Lemmas -/

theorem strdup_eq (s : Option Str) : strdup s = s := by cases s <;> rfl

theorem copyPred_eq (p : Pred) : copyPred p = p := by
  cases p
  rename_i its b
  have : its.map strdup = its := by
    induction its with
    | nil => rfl
    | cons a l ih => simp [strdup_eq, ih]
  simp [copyPred, strdup_eq, this]

theorem atI_nat {α : Type} (l : List α) (k : Nat) : atI l (k : Int) = match l[k]? with | some a => .ok a | none => .ub := by
  unfold atI
  rw [if_neg (by omega), Int.toNat_natCast]
  cases l[k]? <;> rfl

theorem range_copy {α : Type} (l : List α) (lo n : Nat) (h : lo + n ≤ l.length) {β : Type} (f : α → Out β) {r : List β}
    (hf : Out.mapOut f ((l.drop lo).take n) = .ok r) :
    Out.mapOut (fun k : Nat => atI l ((lo : Int) + k) >>= f) (List.range n) = .ok r := by
  induction n generalizing lo r with
  | zero => simpa [Out.mapOut] using hf
  | succ n ih =>
    have h1 : lo < l.length := by omega
    rw [List.drop_eq_getElem_cons h1, List.take_succ_cons, Out.mapOut_cons_eq_ok] at hf
    obtain ⟨b, bs, e1, e2, e3⟩ := hf
    have := ih (lo + 1) (by omega) e2
    rw [List.range_succ_eq_map, Out.mapOut_cons_eq_ok]
    refine ⟨b, bs, ?_, ?_, e3⟩
    · have : atI l ((lo : Int) + (0 : Nat)) = .ok l[lo] := by
        simp [atI_nat, h1]
      rw [this]; exact e1
    · rw [← this]
      clear ih this e1 e2 e3
      generalize List.range n = m
      induction m with
      | nil => rfl
      | cons k m ih2 =>
        simp only [List.map_cons, Out.mapOut]
        rw [ih2]
        have : ((lo : Int) + (k + 1 : Nat)) = ((lo + 1 : Nat) : Int) + k := by omega
        rw [show Nat.succ k = k + 1 from rfl, this]

theorem mapOut_pure {α β : Type} (f : α → β) (l : List α) : Out.mapOut (fun a => (.ok (f a) : Out β)) l = .ok (l.map f) := by
  induction l with
  | nil => rfl
  | cons a l ih => simp [Out.mapOut, ih]

theorem copyPreds_eq {l : List Pred} {lo n : Int} (h1 : 0 ≤ lo) (h2 : 0 ≤ n) (h3 : lo + n ≤ l.length) :
    copyPreds l lo n = .ok ((l.drop lo.toNat).take n.toNat) := by
  obtain ⟨a, rfl⟩ := Int.eq_ofNat_of_zero_le h1
  obtain ⟨b, rfl⟩ := Int.eq_ofNat_of_zero_le h2
  unfold copyPreds
  apply range_copy l a b (by omega)
  have := mapOut_pure copyPred ((List.drop (a : Int).toNat l).take (b : Int).toNat)
  have e : (fun p => copyPred p) = id := by funext p; exact copyPred_eq p
  simp only [e, List.map_id] at this
  simpa [copyPred_eq] using this

theorem addI_ok {a b : Int} (h1 : 0 ≤ a) (h2 : 0 ≤ b) (h : a + b < 2 ^ 31) : addI a b = .ok (a + b) := by
  unfold addI
  rw [if_pos]
  simp only [fits, cMin, cMax]; omega

theorem alloc_ok {a : Int} (h1 : 0 ≤ a) : alloc a = .ok a.toNat := by
  unfold alloc
  rw [if_neg (by omega)]

/-! ## Additions -/

/-- C57: `osl_irregular_add_control` adds a control predicate after the others and keeps everything else. -/
theorem irregular_add_control {x : Irregular} (h : x.WF) (hn : x.nbControl + x.nbExit + 1 < 2 ^ 31) (its : List (Option Str)) (b : Option Str) :
    ∃ y, addControl x its b = .ok y ∧ y.WF ∧ y.controls = x.controls ++ [⟨its, b⟩] ∧ y.exits = x.exits ∧ y.stmts = x.stmts ∧
      y.nbControl = x.nbControl + 1 ∧ y.nbExit = x.nbExit := by
  have h1 := h.control
  have h2 := h.exit
  have h3 := h.preds
  have e : addControl x its b = .ok { nbControl := x.nbControl + 1, nbExit := x.nbExit, preds := x.controls ++ ⟨its, b⟩ :: x.exits, stmts := x.stmts } := by
    unfold addControl
    rw [addI_ok h1 (by omega) (by omega), Out.ok_bind, addI_ok (by omega) h2 (by omega), Out.ok_bind, alloc_ok (by omega), Out.ok_bind,
      copyPreds_eq (by omega) h1 (by omega), Out.ok_bind, copyPreds_eq h1 (by omega) (by omega), Out.ok_bind, copyPred_eq]
    have e1 : ((List.drop (0 : Int).toNat x.preds).take x.nbControl.toNat) = x.controls := by simp [controls]
    have e2 : ((List.drop x.nbControl.toNat x.preds).take (((x.nbControl + 1 + x.nbExit).toNat : Int) - (x.nbControl + 1)).toNat) = x.exits := by
      rw [List.take_of_length_le]; · rfl
      · rw [List.length_drop]; omega
    rw [e1, e2]; rfl
  have hl : x.controls.length = x.nbControl.toNat := by simp [controls]; omega
  refine ⟨_, e, ⟨by simp; omega, h2, ?_⟩, ?_, ?_, rfl, rfl, rfl⟩
  · simp [controls, exits]; omega
  · simp only [controls] at hl ⊢
    rw [show (x.nbControl + 1).toNat = (List.take x.nbControl.toNat x.preds).length + 1 by omega]
    rw [List.take_append]
    simp only [Nat.add_sub_cancel_left, List.take_succ_cons, List.take_zero]
    rw [List.take_of_length_le (by omega)]
  · simp only [controls, exits] at hl ⊢
    rw [show (x.nbControl + 1).toNat = (List.take x.nbControl.toNat x.preds).length + 1 by omega]
    rw [List.drop_append]
    simp

/-- C57: `osl_irregular_add_exit` adds an exit predicate after the others and keeps everything else. -/
theorem irregular_add_exit {x : Irregular} (h : x.WF) (hn : x.nbControl + x.nbExit + 1 < 2 ^ 31) (its : List (Option Str)) (b : Option Str) :
    ∃ y, addExit x its b = .ok y ∧ y.WF ∧ y.controls = x.controls ∧ y.exits = x.exits ++ [⟨its, b⟩] ∧ y.stmts = x.stmts ∧
      y.nbControl = x.nbControl ∧ y.nbExit = x.nbExit + 1 := by
  have h1 := h.control
  have h2 := h.exit
  have h3 := h.preds
  have e : addExit x its b = .ok { nbControl := x.nbControl, nbExit := x.nbExit + 1, preds := x.preds ++ [⟨its, b⟩], stmts := x.stmts } := by
    unfold addExit
    rw [addI_ok h2 (by omega) (by omega), Out.ok_bind, addI_ok (by omega) (by omega) (by omega), Out.ok_bind, alloc_ok (by omega), Out.ok_bind,
      copyPreds_eq (by omega) (by omega) (by omega), Out.ok_bind, copyPred_eq]
    rw [List.take_of_length_le (by rw [List.length_drop]; omega)]
    simp
  refine ⟨_, e, ⟨h1, by simp; omega, by simp; omega⟩, ?_, ?_, rfl, rfl, rfl⟩
  · simp only [controls]
    rw [List.take_append_of_le_length (by omega)]
  · simp only [exits]
    rw [List.drop_append_of_le_length (by omega)]

/-- C57: `osl_irregular_add_predicates` adds a statement with its predicates after the others and keeps everything else. -/
theorem irregular_add_predicates {x : Irregular} (h : x.WF) (hn : x.nbControl + x.nbExit < 2 ^ 31) (hs : (x.stmts.length : Int) + 1 < 2 ^ 31) (l : List Int) :
    addPredicates x l = .ok { x with stmts := x.stmts ++ [l] } := by
  have h1 := h.control
  have h2 := h.exit
  have h3 := h.preds
  unfold addPredicates
  rw [addI_ok (by omega) (by omega) (by omega), Out.ok_bind, addI_ok h1 h2 hn, Out.ok_bind, alloc_ok (by omega), Out.ok_bind,
    copyPreds_eq (by omega) (by omega) (by omega), Out.ok_bind]
  rw [List.take_of_length_le (by rw [List.length_drop]; omega)]
  simp

theorem adds_spec (l : List Add) {x : Irregular} (h : x.WF) (hn : x.nbControl + x.nbExit + l.length < 2 ^ 31)
    (hs : (x.stmts.length : Int) + l.length < 2 ^ 31) :
    ∃ y, adds x l = .ok y ∧ y.WF ∧ y.controls = x.controls ++ Add.controls l ∧ y.exits = x.exits ++ Add.exits l ∧
      y.stmts = x.stmts ++ Add.stmts l := by
  induction l generalizing x with
  | nil => exact ⟨x, rfl, h, by simp [Add.controls], by simp [Add.exits], by simp [Add.stmts]⟩
  | cons a l ih =>
    simp only [List.length_cons] at hn hs
    cases a with
    | control its b =>
      obtain ⟨y, e, w, f1, f2, f3, f4, f5⟩ := irregular_add_control h (by omega) its b
      obtain ⟨z, e', w', g1, g2, g3⟩ := ih w (by omega) (by rw [f3]; omega)
      refine ⟨z, ?_, w', ?_, ?_, ?_⟩
      · simp only [adds, add]; rw [e]; exact e'
      · rw [g1, f1]; simp [Add.controls]
      · rw [g2, f2]; rfl
      · rw [g3, f3]; rfl
    | exit its b =>
      obtain ⟨y, e, w, f1, f2, f3, f4, f5⟩ := irregular_add_exit h (by omega) its b
      obtain ⟨z, e', w', g1, g2, g3⟩ := ih w (by omega) (by rw [f3]; omega)
      refine ⟨z, ?_, w', ?_, ?_, ?_⟩
      · simp only [adds, add]; rw [e]; exact e'
      · rw [g1, f1]; rfl
      · rw [g2, f2]; simp [Add.exits]
      · rw [g3, f3]; rfl
    | predicates p =>
      have e := irregular_add_predicates h (by omega) (by omega) p
      obtain ⟨z, e', w', g1, g2, g3⟩ := ih (x := { x with stmts := x.stmts ++ [p] }) ⟨h.control, h.exit, h.preds⟩ (by simp; omega) (by simp; omega)
      refine ⟨z, ?_, w', g1, g2, ?_⟩
      · simp only [adds, add]; rw [e]; exact e'
      · rw [g3]; simp [Add.stmts]

/-- C57, all histories: from an empty extension, after any sequence of additions, the extension has exactly the control
predicates, the exit predicates and the statements which were added, each in the order of the additions. -/
theorem irregular_history (l : List Add) (hl : (l.length : Int) < 2 ^ 31) :
    ∃ y, adds malloc l = .ok y ∧ y.WF ∧ y.nbControl = (Add.controls l).length ∧ y.nbExit = (Add.exits l).length ∧
      y.preds = Add.controls l ++ Add.exits l ∧ y.stmts = Add.stmts l := by
  have hw : malloc.WF := ⟨by decide, by decide, by decide⟩
  obtain ⟨y, e, w, h1, h2, h3⟩ := adds_spec l hw (by simp [malloc]; omega) (by simp [malloc]; omega)
  have h1' : y.controls = Add.controls l := by rw [h1]; rfl
  have h2' : y.exits = Add.exits l := by rw [h2]; rfl
  have hc := congrArg List.length h1'
  have he := congrArg List.length h2'
  have w1 := w.control
  have w2 := w.exit
  have w3 := w.preds
  simp only [controls, List.length_take] at hc
  simp only [exits, List.length_drop] at he
  refine ⟨y, e, w, by omega, by omega, ?_, by rw [h3]; rfl⟩
  rw [← h1', ← h2']
  simp [controls, exits]

/-- A history: an exit predicate, a control predicate, a statement. -/
example : adds malloc [.exit [] (some "x < 0".toList), .control [some "i".toList] (some "A[i] > 0".toList), .predicates [0, 1]] =
    .ok { nbControl := 1, nbExit := 1, preds := [⟨[some "i".toList], some "A[i] > 0".toList⟩, ⟨[], some "x < 0".toList⟩], stmts := [[0, 1]] } := by decide

/-! ## Text -/

/-- The text of the list of one statement. -/
def stmtText (l : List Int) : Str :=
  showInt l.length ++ " ".toList ++ (l.map fun v => showInt v ++ " ".toList).flatten ++ "\n".toList

/-- The text of one predicate. -/
def predText (its : List Str) (b : Str) : Str :=
  showInt its.length ++ " ".toList ++ (its.map fun s => s ++ " ".toList).flatten ++ "\n".toList ++ b ++ "\n".toList

/-- The text of the predicates. -/
def predsText (l : List (List Str × Str)) : Str := (l.map fun p => predText p.1 p.2).flatten

/-- The text of the statements. -/
def stmtsText (l : List (List Int)) : Str := (l.map stmtText).flatten

/-- The text between the tags of an extension with the given predicates (without NULL strings). -/
def bodyText (x : Irregular) (l : List (List Str × Str)) : Str :=
  "\n".toList ++ showInt x.stmts.length ++ "\n".toList ++ stmtsText x.stmts ++ showInt x.nbControl ++ "\n".toList ++
    showInt x.nbExit ++ "\n".toList ++ predsText l

/-- A predicate without NULL strings. -/
def mkPred (p : List Str × Str) : Pred := ⟨p.1.map some, some p.2⟩

theorem grow_fits (n off : Nat) : ∀ (f size : Nat), 0 < size → n + off < size + f → off ≤ size → n < grow n off f size - off ∧ size ≤ grow n off f size := by
  intro f
  induction f with
  | zero => intro size h1 h2 h3; simp only [grow]; omega
  | succ f ih =>
    intro size h1 h2 h3
    simp only [grow]
    by_cases h : n < size - off
    · rw [if_pos h]; omega
    · rw [if_neg h]
      have := ih (size * 2) (by omega) (by omega) (by omega)
      omega

/-- Whatever its size, the buffer of `printf_in_buf` holds the text printed so far, the new text and the final null character:
it grows when it has to. -/
theorem irregular_buffer_fits {args : Bool} {t : Str} {b b' : PBuf} (h : b.str.length < b.size) (e : printfInBuf args t b = .ok b') :
    b'.str = b.str ++ t ∧ b'.str.length < b'.size ∧ b.size ≤ b'.size := by
  unfold printfInBuf at e
  split at e
  · next h1 => cases e; refine ⟨rfl, ?_, Nat.le_refl _⟩; simp only [List.length_append]; omega
  · next h1 =>
    cases args with
    | true => cases e
    | false =>
      cases e
      have := grow_fits t.length b.str.length (t.length + b.str.length + 1) b.size (by omega) (by omega) (by omega)
      refine ⟨rfl, ?_, this.2⟩
      simp only [List.length_append]; omega

theorem printAll_ok (l : List (Bool × Str)) (b : PBuf) (h : b.str.length + (l.map (·.2)).flatten.length < b.size) :
    ∃ b', printAll l b = .ok b' ∧ b'.str = b.str ++ (l.map (·.2)).flatten := by
  induction l generalizing b with
  | nil => exact ⟨b, rfl, by simp⟩
  | cons p l ih =>
    simp only [List.map_cons, List.flatten_cons, List.length_append] at h
    have e : printfInBuf p.1 p.2 b = .ok { b with str := b.str ++ p.2 } := by
      unfold printfInBuf; rw [if_pos (by omega)]
    obtain ⟨b', e1, e2⟩ := ih { b with str := b.str ++ p.2 } (by simp only [List.length_append]; omega)
    refine ⟨b', ?_, ?_⟩
    · simp only [printAll]; rw [e]; exact e1
    · rw [e2]; simp

theorem iterPieces_ok (its : List Str) : Out.mapOut (fun s => strPiece [] s " ".toList) (its.map some) =
    .ok (its.map fun s => (true, s ++ " ".toList)) := by
  induction its with
  | nil => rfl
  | cons a l ih =>
    simp only [List.map_cons, Out.mapOut]
    rw [ih]
    simp [strPiece, str]

theorem predPieces_ok (p : List Str × Str) : ∃ r, predPieces (mkPred p) = .ok r ∧ (r.map (·.2)).flatten = predText p.1 p.2 := by
  refine ⟨numPiece (p.1.map some).length :: (p.1.map (fun s => (true, s ++ " ".toList)) ++ [(true, "\n".toList ++ p.2 ++ "\n".toList)]), ?_, ?_⟩
  · unfold predPieces mkPred
    simp only
    rw [iterPieces_ok, Out.ok_bind]
    rfl
  · simp [predText, numPiece, List.map_map, Function.comp_def]

theorem predLoop_ok {l : List (List Str × Str)} {lo n : Nat} (h : lo + n ≤ l.length) :
    ∃ r, predLoop (l.map mkPred) lo n = .ok r ∧ (r.flatten.map (·.2)).flatten = predsText ((l.drop lo).take n) := by
  have : ∀ m : List (List Str × Str), ∃ r, Out.mapOut predPieces (m.map mkPred) = .ok r ∧ (r.flatten.map (·.2)).flatten = predsText m := by
    intro m
    induction m with
    | nil => exact ⟨[], rfl, rfl⟩
    | cons p m ih =>
      obtain ⟨r, e1, e2⟩ := ih
      obtain ⟨q, f1, f2⟩ := predPieces_ok p
      refine ⟨q :: r, ?_, ?_⟩
      · simp [Out.mapOut, e1, f1]
      · simp only [List.flatten_cons, List.map_append, List.flatten_append, f2, e2, predsText, List.map_cons]
  obtain ⟨r, e1, e2⟩ := this ((l.drop lo).take n)
  refine ⟨r, ?_, e2⟩
  unfold predLoop
  apply range_copy
  · simpa using h
  · rw [← e1]; simp [List.map_take, List.map_drop]

theorem stmtPieces_text (l : List (List Int)) : ((l.map stmtPieces).flatten.map (·.2)).flatten = stmtsText l := by
  induction l with
  | nil => rfl
  | cons a l ih =>
    simp only [List.map_cons, List.flatten_cons, List.map_append, List.flatten_append, stmtsText] at ih ⊢
    rw [ih]
    simp [stmtPieces, stmtText, numPiece, Function.comp_def]

/-- C57: the text of an extension. -/
theorem irregular_sprint {x : Irregular} (h : x.WF) {l : List (List Str × Str)} (hl : x.preds = l.map mkPred)
    (hs : (bodyText x l).length < MAX_STRING) :
    sprint (some x) = .ok (some ("<irregular>".toList ++ bodyText x l ++ "</irregular>\n".toList)) := by
  have h1 := h.control
  have h2 := h.exit
  have h3 := h.preds
  obtain ⟨c, hc⟩ := Int.eq_ofNat_of_zero_le h1
  obtain ⟨e, he⟩ := Int.eq_ofNat_of_zero_le h2
  have hlen : l.length = c + e := by
    have := congrArg List.length hl
    simp at this; omega
  obtain ⟨r1, e1, f1⟩ := predLoop_ok (l := l) (lo := 0) (n := c) (by omega)
  obtain ⟨r2, e2, f2⟩ := predLoop_ok (l := l) (lo := c) (n := e) (by omega)
  have hp : ∃ ps, pieces x = .ok ps ∧ (ps.map (·.2)).flatten = bodyText x l := by
    refine ⟨(true, "\n".toList ++ showInt x.stmts.length ++ "\n".toList) ::
      ((x.stmts.map stmtPieces).flatten ++ ((true, showInt c ++ "\n".toList) :: (true, showInt e ++ "\n".toList) ::
        (r1.flatten ++ r2.flatten))), ?_, ?_⟩
    · unfold pieces
      rw [hl, hc, he]
      rw [show (0 : Int) = ((0 : Nat) : Int) from rfl, e1, Out.ok_bind, e2, Out.ok_bind]
      rfl
    · simp only [List.map_cons, List.flatten_cons, List.map_append, List.flatten_append, f1, f2, stmtPieces_text, bodyText, hc, he]
      have : predsText l = predsText ((l.drop 0).take c) ++ predsText ((l.drop c).take e) := by
        rw [List.take_of_length_le (i := e) (by rw [List.length_drop]; omega)]
        simp only [predsText, List.drop_zero]
        rw [← List.flatten_append, ← List.map_append, List.take_append_drop]
      rw [this]
      simp only [List.append_assoc]
  obtain ⟨ps, e3, f3⟩ := hp
  obtain ⟨b, e4, f4⟩ := printAll_ok ps { str := [], size := MAX_STRING } (by rw [f3]; simpa using hs)
  simp only [sprint]
  rw [e3, Out.ok_bind, e4, Out.ok_bind, Util.emit_eq, Out.ok_bind, f4, f3]
  simp

/-! ### Reading -/

theorem strtok_word {d : Char → Bool} {pre w : Str} (hp : ∀ c ∈ pre, d c = true) (hw : w ≠ []) (h : ∀ c ∈ w, d c = false) {rest : Str}
    (hr : ∀ c, rest.head? = some c → d c = true) : strtok d (pre ++ (w ++ rest)) = (some w, rest.drop 1) := by
  have e1 : (pre ++ (w ++ rest)).dropWhile d = w ++ rest := by
    rw [List.dropWhile_append_of_pos hp]
    cases w with
    | nil => exact absurd rfl hw
    | cons a w => simp [h a (by simp)]
  have e2 := takeWhile_append_stop (p := fun c => !d c) (s := w) (t := rest) (by intro a ha; simp [h a ha])
    (by intro c hc; simp [hr c hc])
  unfold strtok
  rw [e1]
  cases w with
  | nil => exact absurd rfl hw
  | cons a w => simp only [List.cons_append] at e2 ⊢; rw [e2.1, e2.2]

theorem showInt_blank (v : Int) : ∀ c ∈ showInt v, blank c = false := by
  intro c hc
  rcases Util.showInt_chars v c hc with rfl | h
  · decide
  · have h1 := isDigit_ne h (d := ' ') (by decide)
    have h2 := isDigit_ne h (d := '\n') (by decide)
    simp [blank, h1, h2]

theorem atoi_show {v : Int} (hv : fits 32 v) : atoi (some (showInt v)) = .ok v := by
  have := scanInt_show v 0 [] (by simp)
  simp at this
  simp [atoi, this, hv]

theorem readNum_show {pre : Str} (hp : ∀ c ∈ pre, blank c = true) {v : Int} (hv : fits 32 v) {a : Char} (ha : blank a = true) (rest : Str) :
    readNum (pre ++ (showInt v ++ (a :: rest))) = .ok (v, rest) := by
  have := strtok_word (d := blank) hp (showInt_ne_nil v) (showInt_blank v) (rest := a :: rest) (by intro c hc; simp at hc; subst hc; exact ha)
  unfold readNum
  rw [this]
  simp [atoi_show hv]

theorem readNums_text (l : List Int) (hl : ∀ v ∈ l, fits 32 v) {pre : Str} (hp : ∀ c ∈ pre, blank c = true) (rest : Str) :
    ∃ pre', (∀ c ∈ pre', blank c = true) ∧
      readNums l.length (pre ++ ((l.map fun v => showInt v ++ " ".toList).flatten ++ ("\n".toList ++ rest))) = .ok (l, pre' ++ ("\n".toList ++ rest)) := by
  induction l generalizing pre with
  | nil => exact ⟨pre, hp, by simp [readNums]⟩
  | cons v l ih =>
    obtain ⟨pre', h1, h2⟩ := ih (fun w hw => hl w (by simp [hw])) (pre := []) (by simp)
    refine ⟨pre', h1, ?_⟩
    have := readNum_show hp (hl v (by simp)) (a := ' ') (by decide) ((l.map fun v => showInt v ++ " ".toList).flatten ++ ("\n".toList ++ rest))
    simp only [List.length_cons, readNums, List.map_cons, List.flatten_cons, List.append_assoc]
    simp only [show " ".toList = [' '] from rfl, List.cons_append, List.nil_append] at this h2 ⊢
    rw [this, Out.ok_bind]
    simp only
    rw [h2]
    rfl

theorem fits_len {n : Nat} (h : (n : Int) < 2 ^ 31) : fits 32 (n : Int) := by
  simp only [fits, cMin, cMax]; omega

theorem readStmts_text (l : List (List Int)) (hl : ∀ s ∈ l, (s.length : Int) < 2 ^ 31 ∧ ∀ v ∈ s, fits 32 v) {pre : Str}
    (hp : ∀ c ∈ pre, blank c = true) (rest : Str) :
    ∃ pre', (∀ c ∈ pre', blank c = true) ∧ readStmts l.length (pre ++ (stmtsText l ++ rest)) = .ok (l, pre' ++ rest) := by
  induction l generalizing pre with
  | nil => exact ⟨pre, hp, by simp [readStmts, stmtsText]⟩
  | cons a l ih =>
    obtain ⟨h1, h2⟩ := hl a (by simp)
    obtain ⟨p1, q1, r1⟩ := readNums_text a h2 (pre := []) (by simp) (stmtsText l ++ rest)
    obtain ⟨p2, q2, r2⟩ := ih (fun w hw => hl w (by simp [hw])) (pre := p1 ++ "\n".toList)
      (by intro c hc; rcases List.mem_append.mp hc with h | h; exact q1 c h; simp at h; subst h; decide)
    refine ⟨p2, q2, ?_⟩
    have := readNum_show hp (fits_len h1) (a := ' ') (by decide) ((a.map fun v => showInt v ++ " ".toList).flatten ++ ("\n".toList ++ (stmtsText l ++ rest)))
    simp only [List.length_cons, readStmts, stmtsText, List.map_cons, List.flatten_cons, stmtText, List.append_assoc] at *
    simp only [show " ".toList = [' '] from rfl, List.cons_append, List.nil_append] at this r1 ⊢
    rw [this, Out.ok_bind]
    simp only
    rw [alloc_ok (by omega), Out.ok_bind, Int.toNat_natCast, r1, Out.ok_bind]
    simp only
    rw [r2]
    rfl

/-- The numbers of an extension are C `int`s. -/
structure Ints (x : Irregular) : Prop where
  total : x.nbControl + x.nbExit < 2 ^ 31
  stmts : (x.stmts.length : Int) < 2 ^ 31
  stmt : ∀ s ∈ x.stmts, (s.length : Int) < 2 ^ 31 ∧ ∀ v ∈ s, fits 32 v

/-- The reader reaches the predicates. -/
theorem sread_body {x : Irregular} (h : x.WF) (hi : x.Ints) {l : List (List Str × Str)} (hs : (bodyText x l).length ≤ MAX_STRING) :
    ∃ r, sread (some (bodyText x l)) = (readPreds (x.nbControl + x.nbExit).toNat (predsText l) >>= fun (ps, _) => .ok (some { x with preds := ps }, r)) := by
  have h1 := h.control
  have h2 := h.exit
  have ht := hi.total
  have b1 : ∀ c ∈ "\n".toList, blank c = true := by decide
  obtain ⟨p, q, r⟩ := readStmts_text x.stmts hi.stmt (pre := []) (by simp)
    (showInt x.nbControl ++ "\n".toList ++ showInt x.nbExit ++ "\n".toList ++ predsText l)
  have e1 := readNum_show (pre := "\n".toList) b1 (fits_len hi.stmts) (a := '\n') (by decide)
    (stmtsText x.stmts ++ (showInt x.nbControl ++ "\n".toList ++ showInt x.nbExit ++ "\n".toList ++ predsText l))
  have e2 := readNum_show q (v := x.nbControl) (by simp only [fits, cMin, cMax]; omega) (a := '\n') (by decide) (showInt x.nbExit ++ "\n".toList ++ predsText l)
  have e3 := readNum_show (pre := []) (by simp) (v := x.nbExit) (by simp only [fits, cMin, cMax]; omega) (a := '\n') (by decide) (predsText l)
  refine ⟨some ((bodyText x l).takeWhile blank ++ ((bodyText x l).dropWhile blank).takeWhile fun c => !blank c), ?_⟩
  simp only [sread]
  rw [if_neg (by omega)]
  simp only [bodyText, List.append_assoc, show "\n".toList = ['\n'] from rfl, List.cons_append, List.nil_append] at r e1 e2 e3 ⊢
  rw [e1, Out.ok_bind]
  simp only
  rw [alloc_ok (by omega), Out.ok_bind, Int.toNat_natCast, r, Out.ok_bind]
  simp only
  rw [e2, Out.ok_bind]
  simp only
  rw [e3, Out.ok_bind]
  simp only
  rw [addI_ok h1 h2 ht, Out.ok_bind, alloc_ok (by omega), Out.ok_bind]
  rfl

/-- C57: without predicates, the text between the tags is read back as the same extension. -/
theorem irregular_read_no_predicates {x : Irregular} (h : x.WF) (hi : x.Ints) (hp : x.preds = []) (hs : (bodyText x []).length ≤ MAX_STRING) :
    ∃ r, sread (some (bodyText x [])) = .ok (some x, r) := by
  obtain ⟨r, e⟩ := sread_body h hi hs
  have h1 := h.control
  have h2 := h.exit
  have h3 := h.preds
  rw [hp] at h3
  simp at h3
  have : (x.nbControl + x.nbExit).toNat = 0 := by omega
  rw [this] at e
  refine ⟨r, ?_⟩
  rw [e]
  simp [readPreds]
  cases x; simp at hp; simp [hp]

/-! The reader skips one token before each string: the number of lines which remain decreases too fast. -/

/-- The number of non empty lines; the first argument tells whether the text starts inside a line. -/
def runs : Bool → Str → Nat
  | _, [] => 0
  | b, c :: s => if c = '\n' then runs false s else (if b then 0 else 1) + runs true s

theorem runs_le (s : Str) : runs true s ≤ runs false s ∧ runs false s ≤ runs true s + 1 := by
  cases s with
  | nil => simp [runs]
  | cons c s => simp only [runs]; split <;> simp <;> omega

theorem runs_cons (c : Char) (s : Str) : runs false s ≤ runs false (c :: s) := by
  simp only [runs]
  split
  · omega
  · have := runs_le s; simp; omega

theorem runs_suffix {s t : Str} (h : s <:+ t) : runs false s ≤ runs false t := by
  obtain ⟨u, rfl⟩ := h
  induction u with
  | nil => simp
  | cons c u ih => exact Nat.le_trans ih (runs_cons c _)

theorem strtok_suffix (d : Char → Bool) (s : Str) : (strtok d s).2 <:+ s := by
  unfold strtok
  cases h : s.dropWhile d with
  | nil => simp
  | cons a t =>
    simp only
    refine (List.drop_suffix _ _).trans ((List.dropWhile_suffix _).trans ?_)
    rw [← h]; exact List.dropWhile_suffix _

theorem runs_line {l : Str} (h : ∀ c ∈ l, c ≠ '\n') (s : Str) (b : Bool) : runs b (l ++ '\n' :: s) = (if l = [] ∨ b = true then 0 else 1) + runs false s := by
  induction l generalizing b with
  | nil => simp [runs]
  | cons c l ih =>
    simp only [List.cons_append, runs]
    rw [if_neg (h c (by simp)), ih (fun a ha => h a (by simp [ha]))]
    cases b <;> simp

theorem strtok_eol {s t s' : Str} (h : strtok eol s = (some t, s')) : runs false s = runs false s' + 1 := by
  have key : ∀ u : Str, runs false u = runs false (u.dropWhile eol) := by
    intro u
    induction u with
    | nil => rfl
    | cons c u ih =>
      by_cases hc : c = '\n'
      · subst hc; simp only [runs, if_true]; rw [ih]; simp [List.dropWhile, eol]
      · have : eol c = false := by simp [eol, hc]
        simp [List.dropWhile, this]
  rw [key]
  unfold strtok at h
  have hh : ∀ c, (s.dropWhile eol).head? = some c → c ≠ '\n' := by
    intro c hc he
    subst he
    have := List.head?_dropWhile_not eol s
    rw [hc] at this
    simp [eol] at this
  cases hs : s.dropWhile eol with
  | nil => rw [hs] at h; simp at h
  | cons a u =>
    rw [hs] at h hh
    have ha : a ≠ '\n' := hh a rfl
    simp only [Prod.mk.injEq, Option.some.injEq] at h
    obtain ⟨_, rfl⟩ := h
    clear hs hh key
    simp only [runs]
    rw [if_neg ha]
    have : ∀ v : Str, runs true v = runs false ((v.dropWhile fun c => !eol c).drop 1) := by
      intro v
      induction v with
      | nil => rfl
      | cons c v ih =>
        by_cases hc : c = '\n'
        · subst hc; simp [runs, List.dropWhile, eol]
        · have : eol c = false := by simp [eol, hc]
          simp [runs, List.dropWhile, this, hc, ih]
    have ha' : eol a = false := by simp [eol, ha]
    simp [List.dropWhile, ha', this u]; omega

theorem dupTok_suffix {d : Char → Bool} {s s' : Str} {t : Option Str} (h : dupTok d s = .ok (t, s')) : s' <:+ s := by
  unfold dupTok at h
  have a := strtok_suffix d s
  split at h
  · rename_i u e; rw [e] at a; cases h; exact a
  · rename_i t' u e
    rw [e] at a
    have b := strtok_suffix d u
    split at h
    · cases h
    · rename_i t2 v e2; rw [e2] at b; cases h; exact b.trans a

theorem dupTok_eol {s s' t : Str} (h : dupTok eol s = .ok (some t, s')) : runs false s = runs false s' + 2 := by
  unfold dupTok at h
  split at h
  · cases h
  · rename_i t' u e
    split at h
    · cases h
    · rename_i t2 v e2; cases h; rw [strtok_eol e, strtok_eol e2]

theorem readNum_suffix {s s' : Str} {v : Int} (h : readNum s = .ok (v, s')) : s' <:+ s := by
  unfold readNum at h
  obtain ⟨a, _, e⟩ := Out.bind_eq_ok.mp h
  have := strtok_suffix blank s
  cases e; exact this

theorem readIters_suffix {n : Nat} {s s' : Str} {r : List (Option Str)} (h : readIters n s = .ok (r, s')) : s' <:+ s := by
  induction n generalizing s s' r with
  | zero => simp [readIters] at h; rw [h.2]; exact List.suffix_refl _
  | succ n ih =>
    simp only [readIters] at h
    obtain ⟨⟨t, s1⟩, e1, h⟩ := Out.bind_eq_ok.mp h
    obtain ⟨⟨l, s2⟩, e2, h⟩ := Out.bind_eq_ok.mp h
    cases h
    exact (ih e2).trans (dupTok_suffix e1)

theorem readPreds_runs {n : Nat} {s s' : Str} {ps : List Pred} (h : readPreds n s = .ok (ps, s')) (hb : ∀ p ∈ ps, p.body ≠ none) :
    runs false s' + 2 * n ≤ runs false s := by
  induction n generalizing s s' ps with
  | zero => simp [readPreds] at h; rw [h.2]; omega
  | succ n ih =>
    simp only [readPreds] at h
    obtain ⟨⟨k, s1⟩, e1, h⟩ := Out.bind_eq_ok.mp h
    obtain ⟨k', e2, h⟩ := Out.bind_eq_ok.mp h
    obtain ⟨⟨its, s2⟩, e3, h⟩ := Out.bind_eq_ok.mp h
    obtain ⟨⟨b, s3⟩, e4, h⟩ := Out.bind_eq_ok.mp h
    obtain ⟨⟨qs, s4⟩, e5, h⟩ := Out.bind_eq_ok.mp h
    cases h
    cases b with
    | none => exact absurd rfl (hb _ (List.mem_cons_self))
    | some b =>
      have := ih e5 (fun p hp => hb p (by simp [hp]))
      have a1 := runs_suffix (readNum_suffix e1)
      have a2 := runs_suffix (readIters_suffix e3)
      have a3 := dupTok_eol e4
      dsimp only at this a1 a2 a3 ⊢
      omega

/-- A word: not empty, without space or end of line. -/
def Word (w : Str) : Prop := w ≠ [] ∧ ∀ c ∈ w, blank c = false

/-- Words, each followed by a space, the end of the line, and a text. -/
def line (its : List Str) (tail : Str) : Str := (its.map fun s => s ++ " ".toList).flatten ++ '\n' :: tail

/-- At most `m` words remain before the end of the line. -/
def Past (tail : Str) (m : Nat) (s : Str) : Prop :=
  (∃ its, its.length ≤ m ∧ (∀ w ∈ its, Word w) ∧ s = line its tail) ∨ runs false s ≤ runs false tail

theorem Past.strtok {tail s : Str} {m : Nat} (h : Past tail (m + 1) s) : Past tail m (Irregular.strtok blank s).2 := by
  rcases h with ⟨its, h1, h2, rfl⟩ | h
  · cases its with
    | nil =>
      right
      have := runs_suffix (strtok_suffix blank (line [] tail))
      simpa [line, runs] using this
    | cons w its =>
      left
      refine ⟨its, by simpa using h1, fun v hv => h2 v (by simp [hv]), ?_⟩
      have hw := h2 w (by simp)
      have := strtok_word (d := blank) (pre := []) (by simp) hw.1 hw.2 (rest := ' ' :: line its tail) (by intro c hc; simp at hc; subst hc; decide)
      simp only [List.nil_append, List.drop_one, List.tail_cons] at this
      have e : line (w :: its) tail = w ++ ' ' :: line its tail := by simp [line]
      rw [e, this]
  · right
    exact Nat.le_trans (runs_suffix (strtok_suffix blank s)) h

theorem Past.mono {tail s : Str} {m : Nat} (h : Past tail m s) : Past tail (m + 1) s := by
  rcases h with ⟨its, h1, h2, h3⟩ | h
  · exact Or.inl ⟨its, by omega, h2, h3⟩
  · exact Or.inr h

theorem Past.zero {tail s : Str} (h : Past tail 0 s) : runs false s ≤ runs false tail := by
  rcases h with ⟨its, h1, h2, rfl⟩ | h
  · cases its with
    | nil => simp [line, runs]
    | cons a l => simp at h1
  · exact h

theorem Past.strtok' {tail s : Str} {m : Nat} (h : Past tail m s) : Past tail m (Irregular.strtok blank s).2 := by
  cases m with
  | zero => exact Or.inr (Nat.le_trans (runs_suffix (strtok_suffix blank s)) h.zero)
  | succ m => exact h.strtok.mono

theorem Past.readIters {tail s s' : Str} {n : Nat} {r : List (Option Str)} (h : Past tail n s) (e : Irregular.readIters n s = .ok (r, s')) :
    runs false s' ≤ runs false tail := by
  induction n generalizing s s' r with
  | zero => simp [Irregular.readIters] at e; rw [← e.2]; exact h.zero
  | succ n ih =>
    simp only [Irregular.readIters] at e
    obtain ⟨⟨t, s1⟩, e1, e⟩ := Out.bind_eq_ok.mp e
    obtain ⟨⟨l, s2⟩, e2, e⟩ := Out.bind_eq_ok.mp e
    cases e
    have a := h.strtok
    refine ih ?_ e2
    unfold dupTok at e1
    split at e1
    · rename_i u f; rw [f] at a; cases e1; exact a
    · rename_i t' u f
      rw [f] at a
      have b := a.strtok'
      split at e1
      · cases e1
      · rename_i t2 v f2; rw [f2] at b; cases e1; exact b

/-- A predicate whose text has two lines: the iterators are words, their number is an `int`, the body is on one line. -/
structure TwoLines (p : List Str × Str) : Prop where
  nb : (p.1.length : Int) < 2 ^ 31
  words : ∀ w ∈ p.1, Word w
  body : ∀ c ∈ p.2, c ≠ '\n'

theorem predsText_runs (l : List (List Str × Str)) (h : ∀ p ∈ l, TwoLines p) : runs false (predsText l) ≤ 2 * l.length := by
  induction l with
  | nil => simp [predsText, runs]
  | cons p l ih =>
    have hp := h p (by simp)
    have := ih (fun q hq => h q (by simp [hq]))
    have e : predsText (p :: l) = (showInt p.1.length ++ " ".toList ++ (p.1.map fun s => s ++ " ".toList).flatten) ++ '\n' :: (p.2 ++ '\n' :: predsText l) := by
      simp [predsText, predText]
    have h1 : ∀ c ∈ showInt p.1.length ++ " ".toList ++ (p.1.map fun s => s ++ " ".toList).flatten, c ≠ '\n' := by
      intro c hc he
      subst he
      simp only [List.mem_append, List.mem_flatten, List.mem_map] at hc
      rcases hc with (hc | hc) | ⟨_, ⟨w, hw, rfl⟩, hc⟩
      · exact absurd (showInt_blank _ _ hc) (by decide)
      · simp at hc
      · rcases List.mem_append.mp hc with hc | hc
        · exact absurd ((hp.words w hw).2 _ hc) (by decide)
        · simp at hc
    rw [e, runs_line h1, runs_line hp.body]
    simp only [List.length_cons]
    split <;> split <;> omega

/-- C57, refutation for all extensions with a predicate: whatever the reader makes of the text between the tags of an
extension with at least one predicate, one of the predicates it returns has no body. -/
theorem irregular_read_predicates_violates {x : Irregular} (h : x.WF) (hi : x.Ints) {l : List (List Str × Str)} (hl : x.preds = l.map mkPred)
    (hne : l ≠ []) (h2 : ∀ p ∈ l, TwoLines p) (hs : (bodyText x l).length ≤ MAX_STRING) {y : Option Irregular} {r : Option Str}
    (hr : sread (some (bodyText x l)) = .ok (y, r)) : ∃ z, y = some z ∧ ∃ q ∈ z.preds, q.body = none := by
  obtain ⟨r', e⟩ := sread_body h hi hs
  rw [e] at hr
  obtain ⟨⟨ps, s'⟩, e1, e2⟩ := Out.bind_eq_ok.mp hr
  cases e2
  refine ⟨_, rfl, ?_⟩
  by_cases hb : ∃ q ∈ ps, q.body = none
  · exact hb
  · exfalso
    have hb' : ∀ q ∈ ps, q.body ≠ none := fun q hq hn => hb ⟨q, hq, hn⟩
    have h3 := h.preds
    have hlen : (x.nbControl + x.nbExit).toNat = l.length := by
      have := congrArg List.length hl
      simp at this; omega
    rw [hlen] at e1
    cases l with
    | nil => exact hne rfl
    | cons p l =>
      have hp := h2 p (by simp)
      have hru := predsText_runs l (fun q hq => h2 q (by simp [hq]))
      simp only [List.length_cons, readPreds] at e1
      obtain ⟨⟨k, s1⟩, f1, e1⟩ := Out.bind_eq_ok.mp e1
      obtain ⟨k', f2, e1⟩ := Out.bind_eq_ok.mp e1
      obtain ⟨⟨its, s2⟩, f3, e1⟩ := Out.bind_eq_ok.mp e1
      obtain ⟨⟨b, s3⟩, f4, e1⟩ := Out.bind_eq_ok.mp e1
      obtain ⟨⟨qs, s4⟩, f5, e1⟩ := Out.bind_eq_ok.mp e1
      cases e1
      have et : predsText (p :: l) = [] ++ (showInt p.1.length ++ ' ' :: line p.1 (p.2 ++ '\n' :: predsText l)) := by
        simp [predsText, predText, line]
      rw [et, readNum_show (by simp) (fits_len hp.nb) (by decide)] at f1
      cases f1
      rw [alloc_ok (by omega)] at f2
      cases f2
      simp only [Int.toNat_natCast] at f3
      have hpast : Past (p.2 ++ '\n' :: predsText l) p.1.length (line p.1 (p.2 ++ '\n' :: predsText l)) := Or.inl ⟨p.1, Nat.le_refl _, hp.words, rfl⟩
      have a1 := hpast.readIters f3
      have a2 := readPreds_runs f5 (fun q hq => hb' q (by simp [hq]))
      rw [runs_line hp.body] at a1
      cases b with
      | none => exact hb' _ (List.mem_cons_self) rfl
      | some b =>
        have a3 := dupTok_eol f4
        dsimp only at a1 a2 a3
        split at a1 <;> omega

/-- The tag which starts the text is not a number. -/
theorem readNum_tag (rest : Str) : readNum ("<irregular>".toList ++ ('\n' :: rest)) = .ok (0, rest) := by
  have := strtok_word (d := blank) (pre := []) (w := "<irregular>".toList) (by simp) (by decide) (by decide) (rest := '\n' :: rest)
    (by intro c hc; simp at hc; subst hc; decide)
  rw [List.nil_append] at this
  unfold readNum
  rw [this]
  have : atoi (some "<irregular>".toList) = .ok 0 := by decide
  rw [this]
  rfl

/-- C57: the text of an extension (with the tags the printer adds, and which the reader does not expect) is read back as an
equal extension if and only if the extension is empty. -/
theorem irregular_text_iff (cmp : Str → Str → Int) {x : Irregular} (h : x.WF) (hi : x.Ints) {l : List (List Str × Str)} (hl : x.preds = l.map mkPred)
    (hs : (bodyText x l).length < MAX_STRING) :
    (∃ t y r, sprint (some x) = .ok (some t) ∧ sread (some t) = .ok (some y, r) ∧ equal cmp (some x) (some y) = .ok true) ↔
      x.stmts = [] ∧ x.preds = [] := by
  have h1 := h.control
  have h2 := h.exit
  have h3 := h.preds
  constructor
  · rintro ⟨t, y, r, e1, e2, e3⟩
    rw [irregular_sprint h hl hs] at e1
    cases e1
    simp only [equal] at e3
    split at e3
    · cases e3
    rename_i hne
    simp only [not_or, Decidable.not_not] at hne
    obtain ⟨g1, g2, g3⟩ := hne
    simp only [sread] at e2
    split at e2
    · cases e2
    have et : "<irregular>".toList ++ bodyText x l ++ "</irregular>\n".toList = "<irregular>".toList ++ ('\n' :: ([] ++ (showInt x.stmts.length ++
        ('\n' :: (stmtsText x.stmts ++ (showInt x.nbControl ++ ('\n' :: (showInt x.nbExit ++ ('\n' :: (predsText l ++ "</irregular>\n".toList)))))))))) := by
      simp [bodyText]
    obtain ⟨⟨n, s1⟩, f1, e2⟩ := Out.bind_eq_ok.mp e2
    rw [et, readNum_tag] at f1
    cases f1
    obtain ⟨n', f2, e2⟩ := Out.bind_eq_ok.mp e2
    rw [alloc_ok (by omega)] at f2
    cases f2
    obtain ⟨⟨st, s2⟩, f3, e2⟩ := Out.bind_eq_ok.mp e2
    simp only [Int.toNat_zero, readStmts] at f3
    cases f3
    obtain ⟨⟨c, s3⟩, f4, e2⟩ := Out.bind_eq_ok.mp e2
    rw [readNum_show (by simp) (fits_len hi.stmts) (by decide)] at f4
    cases f4
    obtain ⟨⟨e, s4⟩, f5, e2⟩ := Out.bind_eq_ok.mp e2
    obtain ⟨t1, f6, e2⟩ := Out.bind_eq_ok.mp e2
    obtain ⟨t2, f7, e2⟩ := Out.bind_eq_ok.mp e2
    obtain ⟨⟨ps, s5⟩, f8, e2⟩ := Out.bind_eq_ok.mp e2
    cases e2
    simp only [List.length_nil, List.length_eq_zero_iff] at g1
    rw [g1] at g2
    simp only [List.length_nil, Int.natCast_zero] at g2
    rw [g1, g2] at f5
    have := readNum_show (pre := []) (by simp) (v := 0) (by decide) (a := '\n') (by decide) (showInt x.nbExit ++ ('\n' :: (predsText l ++ "</irregular>\n".toList)))
    simp only [stmtsText, List.map_nil, List.flatten_nil] at f5
    rw [this] at f5
    cases f5
    simp only at g3
    refine ⟨g1, List.length_eq_zero_iff.mp (by omega)⟩
  · rintro ⟨g1, g2⟩
    rw [g2] at h3
    simp at h3
    have hx : x = malloc := by
      cases x; simp only [malloc, mk.injEq] at *; exact ⟨by omega, by omega, g2, g1⟩
    subst hx
    refine ⟨"<irregular>\n0\n0\n0\n</irregular>\n".toList, malloc, some "<irregular>".toList, by decide, by decide, rfl⟩

/-! ## Equality -/

/-- What C says about `strcmp`. -/
def CmpSpec (cmp : Str → Str → Int) : Prop := ∀ a b, cmp a b = 0 ↔ a = b

theorem equalStmts_iff {l m : List (List Int)} (h : l.length = m.length) : equalStmts l m = true ↔ l.map List.length = m.map List.length := by
  induction l generalizing m with
  | nil => cases m <;> simp_all [equalStmts]
  | cons a l ih =>
    cases m with
    | nil => simp at h
    | cons b m =>
      simp only [equalStmts]
      split
      · rename_i hab; simp [hab]
      · rename_i hab
        rw [ih (by simpa using h)]
        simp at hab
        simp [hab]

theorem equalIters_iff {cmp : Str → Str → Int} (hc : CmpSpec cmp) {l m : List Str} (h : l.length = m.length) :
    ∃ b, equalIters cmp (l.map some) (m.map some) = .ok b ∧ (b = true ↔ l = m) := by
  induction l generalizing m with
  | nil => cases m <;> simp_all [equalIters]
  | cons a l ih =>
    cases m with
    | nil => simp at h
    | cons c m =>
      obtain ⟨b, e1, e2⟩ := ih (by simpa using h)
      simp only [List.map_cons, equalIters, strCmp, str, Out.ok_bind, Out.pure_eq]
      by_cases hac : cmp a c = 0
      · refine ⟨b, by simp [hac, e1], ?_⟩
        rw [e2]; simp [(hc a c).mp hac]
      · refine ⟨false, by simp [hac], ?_⟩
        have : a ≠ c := fun e => hac ((hc a c).mpr e)
        simp [this]

theorem equalPreds_iff {cmp : Str → Str → Int} (hc : CmpSpec cmp) {l m : List (List Str × Str)} (h : l.map (·.1.length) = m.map (·.1.length)) :
    ∃ b, equalPreds cmp l.length (l.map mkPred) (m.map mkPred) = .ok b ∧ (b = true ↔ l = m) := by
  induction l generalizing m with
  | nil => cases m <;> simp_all [equalPreds]
  | cons p l ih =>
    cases m with
    | nil => simp at h
    | cons q m =>
      simp only [List.map_cons, List.cons.injEq] at h
      obtain ⟨b, e1, e2⟩ := ih h.2
      obtain ⟨b', f1, f2⟩ := equalIters_iff hc h.1
      simp only [List.map_cons, List.length_cons, equalPreds, mkPred, strCmp, str, Out.ok_bind, Out.pure_eq, List.length_map, h.1, ne_eq, not_true_eq_false,
        if_false, Int.zero_add]
      by_cases hb : cmp p.2 q.2 = 0
      · simp only [hb, not_true_eq_false, if_false, f1, Out.ok_bind]
        cases b' with
        | false =>
          refine ⟨false, by simp, ?_⟩
          have : p.1 ≠ q.1 := fun e => by simpa using f2.mpr e
          simp only [Bool.false_eq_true, false_iff]
          intro e; cases e; exact this rfl
        | true =>
          refine ⟨b, by simp only [if_true]; exact e1, ?_⟩
          rw [e2]
          have a1 := f2.mp rfl
          have a2 := (hc _ _).mp hb
          have : p = q := Prod.ext a1 a2
          simp [this]
      · refine ⟨false, by simp [hb], ?_⟩
        have : p.2 ≠ q.2 := fun e => hb ((hc _ _).mpr e)
        simp only [Bool.false_eq_true, false_iff]
        intro e; cases e; exact this rfl

theorem mkPred_inj {l m : List (List Str × Str)} (h : l.map mkPred = m.map mkPred) : l = m := by
  induction l generalizing m with
  | nil => cases m <;> simp_all
  | cons p l ih =>
    cases m with
    | nil => simp at h
    | cons q m =>
      simp only [List.map_cons, List.cons.injEq, mkPred, Pred.mk.injEq, Option.some.injEq] at h
      have h1 : p.1 = q.1 := by
        have := h.1.1
        exact (List.map_inj_right (by intro a b hab; exact Option.some.inj hab)).mp this
      rw [ih h.2, show p = q from Prod.ext h1 h.1.2]

/-- C57: on extensions whose predicates have pairwise the same numbers of iterators, the equality test answers, and it answers
yes exactly when the predicates are the same and the statements have the same numbers of predicates.  (Which predicates they
are is not compared: `irregular_equal_statements_violates`.) -/
theorem irregular_equal_same_sizes {cmp : Str → Str → Int} (hc : CmpSpec cmp) {x y : Irregular} (hx : x.WF) (hy : y.WF) {l m : List (List Str × Str)}
    (hl : x.preds = l.map mkPred) (hm : y.preds = m.map mkPred) (hs : l.length = m.length → l.map (·.1.length) = m.map (·.1.length)) :
    ∃ b, equal cmp (some x) (some y) = .ok b ∧
      (b = true ↔ x.nbControl = y.nbControl ∧ x.nbExit = y.nbExit ∧ x.preds = y.preds ∧ x.stmts.map List.length = y.stmts.map List.length) := by
  have x1 := hx.control
  have x2 := hx.exit
  have x3 := hx.preds
  have y1 := hy.control
  have y2 := hy.exit
  have y3 := hy.preds
  have lx := congrArg List.length hl
  have ly := congrArg List.length hm
  rw [List.length_map] at lx ly
  simp only [equal]
  split
  · rename_i h
    refine ⟨false, rfl, ?_⟩
    simp only [Bool.false_eq_true, false_iff]
    rintro ⟨a, b, c, d⟩
    have := congrArg List.length d
    simp at this
    rcases h with h | h | h
    · exact h this
    · exact h a
    · exact h b
  · rename_i h
    simp only [not_or, Decidable.not_not] at h
    obtain ⟨h1, h2, h3⟩ := h
    split
    · rename_i h4
      refine ⟨false, rfl, ?_⟩
      simp only [Bool.false_eq_true, false_iff]
      rintro ⟨_, _, _, d⟩
      rw [(equalStmts_iff h1).mpr d] at h4
      cases h4
    · rename_i h4
      simp only [Bool.not_eq_false] at h4
      obtain ⟨b, e1, e2⟩ := equalPreds_iff hc (hs (by omega))
      refine ⟨b, ?_, ?_⟩
      · rw [hl, hm, show (x.nbControl + x.nbExit).toNat = l.length by omega]; exact e1
      · rw [e2]
        constructor
        · rintro rfl
          exact ⟨h2, h3, by rw [hl, hm], (equalStmts_iff h1).mp h4⟩
        · rintro ⟨_, _, c, _⟩
          rw [hl, hm] at c
          exact mkPred_inj c

/-- C57 finding: the predicates of the statements are not compared: two extensions which only differ by them are equal, for
all extensions. -/
theorem irregular_equal_statements_violates {cmp : Str → Str → Int} (hc : CmpSpec cmp) {x : Irregular} (hx : x.WF) {l : List (List Str × Str)}
    (hl : x.preds = l.map mkPred) (st : List (List Int)) (hs : st.map List.length = x.stmts.map List.length) :
    equal cmp (some x) (some { x with stmts := st }) = .ok true := by
  obtain ⟨b, e1, e2⟩ := irregular_equal_same_sizes hc hx (y := { x with stmts := st }) ⟨hx.control, hx.exit, hx.preds⟩ hl hl (fun _ => rfl)
  rw [e1, e2.mpr ⟨rfl, rfl, rfl, hs.symm⟩]

/-- C57 finding: a difference of the numbers of iterators and a `strcmp` of -1 cancel out: with any `strcmp` which gives -1
for "a" and "b", two extensions with different predicates are equal, and in the other direction the test reads after the end
of an array. -/
theorem irregular_equal_cancels {cmp : Str → Str → Int} (h : cmp "a".toList "b".toList = -1) :
    equal cmp (some { nbControl := 1, nbExit := 0, preds := [⟨[], some "a".toList⟩], stmts := [] })
      (some { nbControl := 1, nbExit := 0, preds := [⟨[some "i".toList], some "b".toList⟩], stmts := [] }) = .ok true ∧
    equal cmp (some { nbControl := 1, nbExit := 0, preds := [⟨[some "i".toList], some "a".toList⟩], stmts := [] })
      (some { nbControl := 1, nbExit := 0, preds := [⟨[], some "b".toList⟩], stmts := [] }) = .ub := by
  have h' : cmp ['a'] ['b'] = -1 := h
  constructor <;> simp [equal, equalStmts, equalPreds, equalIters, strCmp, str, h']

/-- C57: NULL is only equal to NULL. -/
theorem irregular_equal_null (cmp : Str → Str → Int) (x : Irregular) :
    equal cmp none none = .ok true ∧ equal cmp (some x) none = .ok false ∧ equal cmp none (some x) = .ok false := ⟨rfl, rfl, rfl⟩

/-! ## Copies -/

/-- C57: the copy of an extension without predicates is the same extension; the copy of any other extension writes after the
end of an array. -/
theorem irregular_clone_iff {x : Irregular} (h : x.WF) (ht : x.nbControl + x.nbExit < 2 ^ 31) :
    clone (some x) = if x.preds = [] then .ok (some x) else .ub := by
  have h1 := h.control
  have h2 := h.exit
  have h3 := h.preds
  simp only [clone]
  rw [addI_ok h1 h2 ht, Out.ok_bind, alloc_ok (by omega), Out.ok_bind]
  split
  · rename_i hp
    rw [hp] at h3
    simp at h3
    rw [show (x.nbControl + x.nbExit).toNat = 0 by omega]
    simp only [List.range_zero, Out.mapOut, Out.ok_bind, Out.pure_eq]
    cases x; simp at hp; simp [hp]
  · rename_i hp
    have hsl : ∀ (l : List (Option Str)) (slots : List (Option Str)) (j : Nat), (∃ r, slotsWrite slots j l = .ok r ∧ r.length = slots.length) ∨ slotsWrite slots j l = .ub := by
      intro l
      induction l with
      | nil => intro slots j; exact Or.inl ⟨slots, rfl, rfl⟩
      | cons a l ih =>
        intro slots j
        simp only [slotsWrite, slotWrite]
        split
        · simp only [Out.ok_bind]
          rcases ih (slots.set j (strdup a)) (j + 1) with ⟨r, e1, e2⟩ | e
          · exact Or.inl ⟨r, e1, by simpa using e2⟩
          · exact Or.inr e
        · exact Or.inr rfl
    have hcl : ∀ p, clonePred p = .ub := by
      intro p
      unfold clonePred
      rcases hsl p.iters (List.replicate p.iters.length none) 0 with ⟨r, e1, e2⟩ | e
      · rw [e1, Out.ok_bind]
        simp only [List.length_replicate] at e2
        simp [slotWrite, e2]
      · rw [e]; rfl
    have hpos : 0 < x.preds.length := by
      cases hx : x.preds with
      | nil => exact absurd hx hp
      | cons a l => simp
    obtain ⟨n, hn⟩ : ∃ n, (x.nbControl + x.nbExit).toNat = n + 1 := ⟨(x.nbControl + x.nbExit).toNat - 1, by omega⟩
    rw [hn, List.range_succ_eq_map]
    simp only [Out.mapOut, atI_nat]
    cases hx : x.preds with
    | nil => exact absurd hx hp
    | cons a l => simp [hcl]

/-- A well-formed extension with a predicate and a statement, which meets the hypotheses of the theorems. -/
def sample : Irregular := { nbControl := 1, nbExit := 0, preds := [⟨[some "i".toList], some "A[i] > 0".toList⟩], stmts := [[0]] }

example : sample.WF ∧ sample.Ints ∧ sample.preds = [(["i".toList], "A[i] > 0".toList)].map mkPred ∧
    TwoLines (["i".toList], "A[i] > 0".toList) ∧ (bodyText sample [(["i".toList], "A[i] > 0".toList)]).length < MAX_STRING :=
  ⟨⟨by decide, by decide, by decide⟩, ⟨by decide, by decide, by decide⟩, by decide, ⟨by decide, by unfold Word; decide, by decide⟩, by decide⟩

/-- The reader answers on this text: the body of its predicate is lost, here with an undefined behaviour. -/
example : sread (some (bodyText sample [(["i".toList], "A[i] > 0".toList)])) = .ub := by decide

/-- An extension on which the reader returns something. -/
example : sread (some "\n0\n1\n1\n0 \nx\n0 \ny\n".toList) =
    .ok (some { nbControl := 1, nbExit := 1, preds := [⟨[], some "0 ".toList⟩, ⟨[], none⟩], stmts := [] }, some "\n0".toList) := by decide

/-- `strcmp` exists. -/
example : ∃ cmp : Str → Str → Int, CmpSpec cmp ∧ cmp "a".toList "b".toList = -1 :=
  ⟨fun a b => if a = b then 0 else -1, fun a b => by by_cases h : a = b <;> simp [h], by decide⟩

end Irregular
end Ext
end Osl
