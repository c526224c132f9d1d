import Verif.RelationTextLemmas
/-!
# Text round trip of relations (C24)
-/

namespace Osl
namespace Util

/-! ## Lines of a file -/

theorem fgets_line {l : Str} (h : NoNL l) (hl : l.length < MAX_STRING - 1) (rest : Str) :
    fgets (MAX_STRING - 1) (l ++ '\n' :: rest) = some (l ++ ['\n'], rest) := by
  have e : (l ++ '\n' :: rest).takeWhile (fun c => c != '\n') = l :=
    (takeWhile_append_stop (fun a ha => by simpa using h.ne a ha) (by simp)).1
  have e2 : fgets (MAX_STRING - 1) (l ++ '\n' :: rest) =
      if ((l ++ '\n' :: rest).takeWhile (fun c => c != '\n')).length < MAX_STRING - 1 then
        some ((l ++ '\n' :: rest).takeWhile (fun c => c != '\n') ++ ((l ++ '\n' :: rest).drop ((l ++ '\n' :: rest).takeWhile (fun c => c != '\n')).length).take 1, (l ++ '\n' :: rest).drop (((l ++ '\n' :: rest).takeWhile (fun c => c != '\n')).length + 1))
      else some ((l ++ '\n' :: rest).take (MAX_STRING - 1), (l ++ '\n' :: rest).drop (MAX_STRING - 1)) := by
    cases l <;> rfl
  rw [e2, e, if_pos hl]
  simp

theorem fgets_lt {n : Nat} (hn : 0 < n) {s line rest : Str} (h : fgets n s = some (line, rest)) : rest.length < s.length := by
  cases s with
  | nil => simp [fgets] at h
  | cons c s =>
    simp only [fgets] at h
    split at h <;> (injection h with h; obtain ⟨_, rfl⟩ := Prod.mk.inj h; simp; omega)

theorem fskipLoop_fuel : ∀ (n m : Nat) (s : Str), s.length < n → s.length < m → fskipLoop n s = fskipLoop m s := by
  intro n
  induction n with
  | zero => intro m s h; omega
  | succ n ih =>
    intro m s h1 h2
    cases m with
    | zero => omega
    | succ m =>
      simp only [fskipLoop]
      cases hg : fgets (MAX_STRING - 1) s with
      | none => rfl
      | some lr =>
        obtain ⟨line, rest⟩ := lr
        have := fgets_lt (by decide) hg
        simp only
        split
        · rw [ih m rest (by omega) (by omega)]
        · rfl

theorem fskip_unfold (s : Str) : fskip s =
    match fgets (MAX_STRING - 1) s with
    | none => (none, s)
    | some (line, rest) =>
      match skipBlank line with
      | c :: t => if c = '#' ∨ c = '\n' then fskip rest else (some (c :: t), rest)
      | [] => (some [], rest) := by
  show fskipLoop (s.length + 1) s = _
  simp only [fskipLoop]
  cases hg : fgets (MAX_STRING - 1) s with
  | none => rfl
  | some lr =>
    obtain ⟨line, rest⟩ := lr
    have := fgets_lt (by decide) hg
    simp only [fskip]
    rw [fskipLoop_fuel s.length (rest.length + 1) rest (by omega) (by omega)]
    cases skipBlank line <;> rfl

/-- A line with something useful after `n` blanks. -/
theorem fskip_line (n : Nat) {c : Char} {l rest : Str} (hc : isSpace c = false) (hh : c ≠ '#') (hl : NoNL l)
    (hlen : n + l.length + 1 < MAX_STRING - 1) :
    fskip (List.replicate n ' ' ++ (c :: l ++ '\n' :: rest)) = (some (c :: l ++ ['\n']), rest) := by
  have hcn : c ≠ '\n' := by rintro rfl; revert hc; decide
  rw [fskip_unfold]
  have := fgets_line (l := List.replicate n ' ' ++ c :: l) ((noNL_replicate n).append (NoNL.cons hcn hl)) (by simp; omega) rest
  rw [List.append_assoc] at this
  rw [this]
  have e : skipBlank (List.replicate n ' ' ++ c :: l ++ ['\n']) = c :: l ++ ['\n'] := by
    unfold skipBlank
    rw [List.append_assoc]
    refine (takeWhile_append_stop (p := fun c => isSpace c && c != '\n') ?_ ?_).2
    · intro a ha; rw [List.eq_of_mem_replicate ha]; decide
    · intro a ha; simp at ha; subst ha; simp [hc]
  simp only [e]
  simp [hh, hcn]

/-- A comment line of a file is skipped. -/
theorem fskip_comment {u rest : Str} (hu : NoNL u) (hlen : u.length + 1 < MAX_STRING - 1) :
    fskip ('#' :: u ++ '\n' :: rest) = fskip rest := by
  rw [fskip_unfold]
  have := fgets_line (l := '#' :: u) (NoNL.cons (by decide) hu) (by simpa using hlen) rest
  rw [this]
  have e : skipBlank ('#' :: u ++ ['\n']) = '#' :: u ++ ['\n'] := by
    simp [skipBlank, isSpace]
  simp only [e]
  simp

/-- An empty line of a file is skipped. -/
theorem fskip_newline (rest : Str) : fskip ('\n' :: rest) = fskip rest := by
  rw [fskip_unfold]
  have := fgets_line (l := []) NoNL.nil (by decide) rest
  simp only [List.nil_append] at this
  rw [this]
  simp [skipBlank]

end Util

namespace Rel

/-! ## Reading the entries -/

theorem showInt_head_ne (v : Int) : ∃ a as, showInt v = a :: as ∧ isSpace a = false ∧ a ≠ '#' ∧ a ≠ '\n' := by
  cases h : showInt v with
  | nil => exact absurd h (showInt_ne_nil v)
  | cons a as =>
    have h1 : a ∈ showInt v := by rw [h]; simp
    refine ⟨a, as, rfl, showInt_nospace v a h1, ?_, (noNL_showInt v).ne a h1⟩
    have := Util.showInt_wordChar v a h1
    rintro rfl
    revert this; decide

theorem readVal_show {c : Cfg} {p v : Int} (hv : InPrec c p v) (hl : (showInt v).length < MAX_STRING) (j : Nat) (R : Str)
    (last : Option (Str × Nat)) :
    ∃ last', readVal c p { pos := some (List.replicate j ' ' ++ (showInt v ++ ' ' :: R)), last := last } = .ok (v, { pos := some (' ' :: R), last := last' }) := by
  have tok := scanToken_word j (showInt v) (' ' :: R) (showInt_ne_nil v) (showInt_nospace v) (by simp; decide)
  obtain ⟨a, as, ha, h1, h2, h3⟩ := showInt_head_ne v
  have hr : OInt.sread c p (showInt v) 0 = .ok (v, some ((showInt v).drop 1)) := by
    have := OInt.sscanf_show (old := 0) hv 0 [] (by simp)
    simp only [List.replicate_zero, List.nil_append, List.append_nil] at this
    unfold OInt.sread
    rw [this]
    rfl
  unfold readVal
  simp only
  split
  · rename_i heq; cases j with
    | zero => rw [ha] at heq; simp at heq; exact absurd heq.1 h2
    | succ j => simp [List.replicate_succ] at heq
  · rename_i heq; cases j with
    | zero => rw [ha] at heq; simp at heq; exact absurd heq.1 h3
    | succ j => simp [List.replicate_succ] at heq
  · rw [tok]
    simp only
    rw [if_neg (by omega), hr]
    simp only [Out.ok_bind]
    exact ⟨_, rfl⟩

theorem readVals_cells {c : Cfg} {p : Int} : ∀ (vs : List Int) (v : Int) (j : Nat) (k : Str) (last : Option (Str × Nat)),
    (∀ w ∈ v :: vs, InPrec c p w ∧ (showInt w).length < MAX_STRING) →
    ∃ last', readVals c p (vs.length + 1) { pos := some (List.replicate j ' ' ++ (showInt v ++ ' ' :: (cells vs ++ k))), last := last } =
      .ok (v :: vs, { pos := some (' ' :: k), last := last' }) := by
  intro vs
  induction vs with
  | nil =>
    intro v j k last h
    obtain ⟨l', e⟩ := readVal_show (h v (by simp)).1 (h v (by simp)).2 j (cells [] ++ k) last
    refine ⟨l', ?_⟩
    simp only [List.length_nil, Nat.zero_add, readVals]
    rw [e]
    simp [cells, readVals]
  | cons w vs ih =>
    intro v j k last h
    obtain ⟨l1, e1⟩ := readVal_show (h v (by simp)).1 (h v (by simp)).2 j (cells (w :: vs) ++ k) last
    obtain ⟨l2, e2⟩ := ih w (1 + (4 - (showInt w).length)) k l1 (fun x hx => h x (List.mem_cons_of_mem _ hx))
    refine ⟨l2, ?_⟩
    rw [List.length_cons]
    show (do
      let (v, s) ← readVal c p _
      let (vs, s) ← readVals c p (vs.length + 1) s
      return (v :: vs, s)) = _
    rw [e1]
    simp only [Out.ok_bind]
    have : ' ' :: (cells (w :: vs) ++ k) = List.replicate (1 + (4 - (showInt w).length)) ' ' ++ (showInt w ++ ' ' :: (cells vs ++ k)) := by
      rw [Nat.add_comm 1, List.replicate_succ]; simp [cells, padLeft]
    rw [this, e2]
    rfl

/-- A printed row, its comment and its end of line are skipped once the entries are read. -/
theorem sskip_comment_end {cm : Str} (h : IsComment cm) (s : Str) : Util.sskip (' ' :: (cm ++ '\n' :: s)) = Util.sskip s := by
  obtain ⟨u, rfl, hu⟩ := h
  have : ' ' :: ("   #".toList ++ u ++ '\n' :: s) = "    ".toList ++ ('#' :: u ++ '\n' :: s) := by simp
  rw [this, Util.sskip_spaces (by decide), Util.sskip_comment hu.ne]

theorem sskip_commentLine {cm : Str} (h : CommentLine cm) (s : Str) : Util.sskip (cm ++ s) = Util.sskip s := by
  rcases h with rfl | ⟨u, rfl, hu⟩
  · rfl
  · have := Util.sskip_comment hu.ne s
    simpa using this

theorem sskip_cells (v : Int) (vs : List Int) (k : Str) :
    Util.sskip (cells (v :: vs) ++ k) = showInt v ++ ' ' :: (cells vs ++ k) := by
  have : cells (v :: vs) ++ k = List.replicate (4 - (showInt v).length) ' ' ++ (showInt v ++ ' ' :: (cells vs ++ k)) := by
    simp [cells, padLeft]
  rw [this, Util.sskip_spaces (fun c hc => by rw [List.eq_of_mem_replicate hc]; decide)]
  exact Util.sskip_starts (Util.word_starts (showInt_ne_nil v) (Util.showInt_wordChar v))

theorem sRows_text {c : Cfg} {p : Int} {n : Nat} (hn : n ≠ 0) {m : Matrix} {t : Str} (h : RowsText m t) :
    (∀ row ∈ m, row.length = n ∧ ∀ v ∈ row, InPrec c p v) → ∀ (s rest : Str) (last : Option (Str × Nat)), Util.sskip s = Util.sskip (t ++ rest) →
    ∃ pos last', sRows c p n m.length { pos := some s, last := last } = .ok (m, { pos := some pos, last := last' }) ∧
      Util.sskip pos = Util.sskip rest := by
  induction h with
  | nil => intro _ s rest last e; exact ⟨s, last, rfl, e⟩
  | @cons row m cm t hc hl _ ih =>
    intro hm s rest last e
    obtain ⟨hlen, hp⟩ := hm row (by simp)
    cases row with
    | nil => simp at hlen; exact absurd hlen.symm hn
    | cons v vs =>
      have e0 : cells (v :: vs) ++ (cm ++ '\n' :: t) ++ rest = cells (v :: vs) ++ (cm ++ '\n' :: (t ++ rest)) := by simp
      rw [e0, sskip_cells] at e
      obtain ⟨l1, e1⟩ := readVals_cells vs v 0 (cm ++ '\n' :: (t ++ rest)) last (fun w hw => ⟨hp w hw, hl w hw⟩)
      obtain ⟨pos, l2, e2, e3⟩ := ih (fun r hr => hm r (by simp [hr])) (' ' :: (cm ++ '\n' :: (t ++ rest))) rest l1
        (sskip_comment_end hc _)
      refine ⟨pos, l2, ?_, e3⟩
      simp only [List.length_cons, sRows]
      rw [e]
      simp only [List.replicate_zero, List.nil_append, List.length_cons] at e1 hlen
      rw [← hlen, e1]
      simp only [Out.ok_bind]
      rw [hlen, e2]
      rfl

/-! ## Reading the attributes -/

/-- The line of the attributes without its end. -/
def hdr (p : Part) : Str :=
  showInt p.nb_rows ++ ' ' :: showInt p.nb_columns ++ ' ' :: showInt p.nb_output_dims ++ ' ' :: showInt p.nb_input_dims ++
    ' ' :: showInt p.nb_local_dims ++ ' ' :: showInt p.nb_parameters

/-- The attributes of a part fit in a C `int`. -/
def Part.Small (p : Part) : Prop :=
  fits 32 p.nb_rows ∧ fits 32 p.nb_columns ∧ fits 32 p.nb_output_dims ∧ fits 32 p.nb_input_dims ∧ fits 32 p.nb_local_dims ∧
    fits 32 p.nb_parameters

/-- The header of a part. -/
def headerOf (p : Part) : Header :=
  ⟨p.nb_rows, p.nb_columns, p.nb_output_dims, p.nb_input_dims, p.nb_local_dims, p.nb_parameters⟩

theorem scanInts_step {n : Nat} {v : Int} (hv : fits 32 v) (j : Nat) {R : Str} (hR : ∀ c, R.head? = some c → isDigit c = false) {l : List Int}
    (h : scanInts n R = .ok l) : scanInts (n + 1) (List.replicate j ' ' ++ (showInt v ++ R)) = .ok (v :: l) := by
  simp only [scanInts]
  rw [scanInt_show v j R hR]
  simp only
  rw [if_pos hv, h]

theorem firstLine_hdr {p : Part} (h : Part.Small p) (k : Str) (hk : ∀ c, k.head? = some c → isDigit c = false) :
    firstLine (hdr p ++ k) = .ok (.header (headerOf p)) := by
  obtain ⟨h1, h2, h3, h4, h5, h6⟩ := h
  have sp : ∀ R : Str, ∀ c, (' ' :: R).head? = some c → isDigit c = false := by intro R c hc; simp at hc; subst hc; decide
  have a6 : scanInts 1 (' ' :: (showInt p.nb_parameters ++ k)) = .ok [p.nb_parameters] := scanInts_step h6 1 hk (n := 0) (l := []) rfl
  have a5 : scanInts 2 (' ' :: (showInt p.nb_local_dims ++ _)) = _ := scanInts_step h5 1 (sp _) a6
  have a4 : scanInts 3 (' ' :: (showInt p.nb_input_dims ++ _)) = _ := scanInts_step h4 1 (sp _) a5
  have a3 : scanInts 4 (' ' :: (showInt p.nb_output_dims ++ _)) = _ := scanInts_step h3 1 (sp _) a4
  have a2 : scanInts 5 (' ' :: (showInt p.nb_columns ++ _)) = _ := scanInts_step h2 1 (sp _) a3
  have a1 : scanInts 6 (showInt p.nb_rows ++ _) = _ := scanInts_step h1 0 (sp _) a2
  unfold firstLine
  have e : hdr p ++ k = showInt p.nb_rows ++ (' ' :: (showInt p.nb_columns ++ (' ' :: (showInt p.nb_output_dims ++ (' ' :: (showInt p.nb_input_dims ++ (' ' :: (showInt p.nb_local_dims ++ (' ' :: (showInt p.nb_parameters ++ k)))))))))) := by
    simp [hdr]
  rw [e, a1]
  rfl

theorem firstLine_count {n : Nat} (h : fits 32 (n : Int)) (k : Str) (hk : k = [] ∨ k = ['\n']) :
    firstLine (showNat n ++ k) = .ok (.count n) := by
  have e : showNat n = showInt (n : Int) := by simp [showInt]
  have hk' : ∀ c, k.head? = some c → isDigit c = false := by
    rcases hk with rfl | rfl
    · simp
    · simp; decide
  have hs : scanInts 5 k = .ok [] := by
    rcases hk with rfl | rfl <;> decide
  have := scanInts_step h 0 hk' hs
  unfold firstLine
  rw [e]
  simp only [List.replicate_zero, List.nil_append] at this
  rw [this]
  rfl

theorem hdr_noNL (p : Part) : NoNL (hdr p) := by
  have sp : ∀ {s t : Str}, NoNL s → NoNL t → NoNL (s ++ ' ' :: t) := fun hs ht => hs.append (NoNL.cons (by decide) ht)
  have := sp (sp (sp (sp (sp (noNL_showInt p.nb_rows) (noNL_showInt p.nb_columns)) (noNL_showInt p.nb_output_dims)) (noNL_showInt p.nb_input_dims))
    (noNL_showInt p.nb_local_dims)) (noNL_showInt p.nb_parameters)
  simpa [hdr] using this

theorem hdr_length {p : Part} (h : Part.Small p) : (hdr p).length ≤ 71 := by
  obtain ⟨h1, h2, h3, h4, h5, h6⟩ := h
  have := Util.showInt_length h1
  have := Util.showInt_length h2
  have := Util.showInt_length h3
  have := Util.showInt_length h4
  have := Util.showInt_length h5
  have := Util.showInt_length h6
  simp [hdr]; omega

theorem headerLine_hdr (p : Part) (s : Str) : headerLine p ++ s = hdr p ++ '\n' :: s := by simp [headerLine, hdr]

/-- A line which starts with a printed number. -/
theorem starts_showInt (v : Int) (s : Str) : Util.Starts (showInt v ++ s) :=
  Util.word_starts (showInt_ne_nil v) (Util.showInt_wordChar v)

theorem sLineAt_text {s l R : Str} {last : Option (Str × Nat)} {fl : FirstLine} (hs : Util.sskip s = l ++ '\n' :: R) (hl : NoNL l)
    (hlen : l.length < MAX_STRING) (hf : firstLine l = .ok fl) :
    ∃ last', sLineAt { pos := some s, last := last } = .ok (fl, { pos := some ('\n' :: R), last := last' }) := by
  have e : (l ++ '\n' :: R).takeWhile (fun ch => ch != '\n') = l :=
    (takeWhile_append_stop (fun a ha => by simpa using hl.ne a ha) (by simp)).1
  refine ⟨last.map fun t => (l, t.2), ?_⟩
  simp only [sLineAt, sLine]
  rw [hs, e, if_neg (by omega), hf]
  simp

/-- What the text round trip needs from a part: well shaped, with its dimensions known, in the precision asked
for, with sizes which are C `int`s. -/
structure Readable (c : Cfg) (prec : Int) (p : Part) : Prop where
  valid : p.Valid c
  prec : p.precision = prec
  small : Part.Small p

theorem Readable.rows {c : Cfg} {prec : Int} {p : Part} (h : Readable c prec p) : p.nb_rows.toNat = p.m.length := by
  have := h.valid.rows; omega

theorem header_part {c : Cfg} {prec : Int} {p : Part} (h : Readable c prec p) (type : Int) :
    (headerOf p).part prec type p.m = { p with type := type } := by
  simp [headerOf, Header.part, ← h.prec]

theorem pmalloc_readable {c : Cfg} {prec : Int} {p : Part} (h : Readable c prec p) : ∃ q, pmalloc c prec p.nb_rows p.nb_columns = .ok q :=
  ⟨_, pmalloc_ok (by rw [← h.prec]; exact h.valid.prec) (by have := h.valid.rows; omega) h.valid.ncols⟩

theorem sPart_text {c : Cfg} {prec : Int} {p : Part} {t : Str} (hr : Readable c prec p) (hd : p.Dims) (h : PartText p t) (s rest : Str)
    (last : Option (Str × Nat)) (e : Util.sskip s = Util.sskip (t ++ rest)) :
    ∃ st l pos last', sLineAt { pos := some s, last := last } = .ok (.header (headerOf p), { pos := some st, last := l }) ∧
      sBody c prec (headerOf p) { pos := some st, last := l } = .ok ({ p with type := UNDEFINED }, { pos := some pos, last := last' }) ∧
      Util.sskip pos = Util.sskip rest := by
  obtain ⟨pre, col, rows, rfl, h1, h2, h3, _⟩ := h
  have e' : Util.sskip s = hdr p ++ '\n' :: (col ++ (rows ++ rest)) := by
    rw [e, List.append_assoc, sskip_commentLine h1, List.append_assoc, headerLine_hdr, List.append_assoc]
    refine Util.sskip_starts ?_
    have := starts_showInt p.nb_rows (' ' :: (showInt p.nb_columns ++ ' ' :: (showInt p.nb_output_dims ++ ' ' :: (showInt p.nb_input_dims ++ ' ' :: (showInt p.nb_local_dims ++ ' ' :: (showInt p.nb_parameters ++ '\n' :: (col ++ (rows ++ rest))))))))
    simpa [hdr] using this
  have hf := firstLine_hdr hr.small [] (by simp)
  rw [List.append_nil] at hf
  obtain ⟨l', el⟩ := sLineAt_text (last := last) e' (hdr_noNL p) (by have := hdr_length hr.small; simp [MAX_STRING]; omega) hf
  obtain ⟨pos, l'', er, ep⟩ := sRows_text (c := c) (p := prec) (n := p.nb_columns.toNat) (by have := hd.2.2.2.2; have := hd.1; have := hd.2.1; have := hd.2.2.1; have := hd.2.2.2.1; omega) h3
    (fun row hrow => ⟨by have := hr.valid.cols row hrow; omega, fun v hv => by have := hr.valid.ents row hrow v hv; rwa [hr.prec] at this⟩)
    ('\n' :: (col ++ (rows ++ rest))) rest l' (by rw [Util.sskip_newline, sskip_commentLine h2])
  refine ⟨_, l', pos, l'', el, ?_, ep⟩
  obtain ⟨q, hq⟩ := pmalloc_readable hr
  unfold sBody
  simp only [headerOf]
  rw [hq, hr.rows, er]
  simp only [Out.ok_bind]
  have := header_part hr UNDEFINED
  simp only [headerOf] at this
  rw [this]
  rfl

theorem sParts_text {c : Cfg} {prec : Int} {r : Rel} {t : Str} (h : PartsText r t) : (∀ p ∈ r, Readable c prec p) → ∀ (s rest : Str) (last : Option (Str × Nat)),
    Util.sskip s = Util.sskip (t ++ rest) →
    ∃ pos last', sParts c prec r.length { pos := some s, last := last } = .ok (r.map (fun p => { p with type := UNDEFINED }), { pos := some pos, last := last' }) ∧
      Util.sskip pos = Util.sskip rest := by
  induction h with
  | nil => intro _ s rest last e; exact ⟨s, last, rfl, e⟩
  | @cons p r t u hd hp _ ih =>
    intro hr s rest last e
    rw [List.append_assoc] at e
    obtain ⟨st, l, pos, l', e1, e2, e3⟩ := sPart_text (hr p (by simp)) hd hp s (u ++ rest) last e
    obtain ⟨pos', l'', e4, e5⟩ := ih (fun q hq => hr q (by simp [hq])) pos rest l' e3
    refine ⟨pos', l'', ?_, e5⟩
    simp only [List.length_cons, sParts]
    rw [e1]
    simp only [Out.ok_bind]
    rw [e2]
    simp only [Out.ok_bind]
    rw [e4]
    rfl

/-! ## The type -/

/-- The types which have a name of their own in the text (OSL_TYPE_ACCESS has none). -/
def KnownType (t : Int) : Prop :=
  t = UNDEFINED ∨ t = TYPE_CONTEXT ∨ t = TYPE_DOMAIN ∨ t = TYPE_SCATTERING ∨ t = TYPE_READ ∨ t = TYPE_WRITE ∨ t = TYPE_MAY_WRITE

instance (t : Int) : Decidable (KnownType t) := by unfold KnownType; infer_instance

theorem typeOfWord_sprint {t : Int} (h : KnownType t) : typeOfWord (sprint_type t) = .ok t := by
  rcases h with rfl | rfl | rfl | rfl | rfl | rfl | rfl <;> decide

theorem sprint_type_word (t : Int) : Strings.Word (sprint_type t) := by
  unfold sprint_type
  repeat' split
  all_goals (unfold Strings.Word; decide)

theorem read_type_text {t : Int} (h : KnownType t) (rest : Str) : read_type (sprint_type t ++ '\n' :: rest) = .ok (t, some rest) := by
  have := Strings.sread_line (l := [sprint_type t]) (by simp) (by intro w hw; simp at hw; subst hw; exact sprint_type_word t) rest
  unfold read_type
  simp only [Strings.line] at this
  rw [this]
  simp only [Out.ok_bind, typeOfStrings, typeOfWord_sprint h]
  rfl

/-- C24, reading from a string: what `osl_relation_psread` returns for the text of a relation printed by
`osl_relation_spprint` (with any names free of ends of line) followed by anything: the same relation, except
that the types of the parts after the first one are lost; the position is after the text, up to blanks and comments. -/
theorem relation_sread_sprint {c : Cfg} {prec : Int} {p : Part} {r : Rel} {names : Option Names} {t : Str}
    (hr : ∀ q ∈ p :: r, Readable c prec q) (hlen : (r.length : Int) < 2 ^ 31 - 1) (ht : KnownType p.type) (hn : ∀ m, names = some m → NamesNoNL m)
    (h : spprint c (p :: r) names = .ok t) (rest : Str) :
    ∃ pos, psread c prec (t ++ rest) = .ok (p :: r.map (fun q => { q with type := UNDEFINED }), some pos) ∧
      Util.sskip pos = Util.sskip rest := by
  obtain ⟨cnt, body, rfl, hb, hc⟩ := spprint_text (fun q hq => ⟨(hr q hq).valid.rows, (hr q hq).valid.cols⟩) hn h
  have e0 : sprint_type p.type ++ '\n' :: (cnt ++ body) ++ rest = sprint_type p.type ++ '\n' :: (cnt ++ (body ++ rest)) := by simp
  unfold psread
  rw [e0, read_type_text ht]
  simp only [Out.ok_bind, psread_polylib]
  rcases hc with ⟨rfl, rfl⟩ | ⟨hne, cm, hcm, rfl⟩
  · cases hb with
    | cons hd hp hnil =>
      cases hnil
      rw [List.append_nil, List.nil_append]
      obtain ⟨st, l, pos, l', e1, e2, e3⟩ := sPart_text (hr p (by simp)) hd hp _ rest none rfl
      refine ⟨pos, ?_, e3⟩
      rw [e1]
      simp only [Out.ok_bind]
      rw [e2]
      simp
  · have e1 : Util.sskip (cm ++ (showNat (r.length + 1) ++ ['\n']) ++ (body ++ rest)) = showNat (r.length + 1) ++ '\n' :: (body ++ rest) := by
      rw [List.append_assoc, sskip_commentLine hcm, List.append_assoc]
      have := starts_showInt ((r.length + 1 : Nat) : Int) (['\n'] ++ (body ++ rest))
      simp only [showInt, Int.natAbs_natCast] at this
      rw [if_neg (by omega)] at this
      exact Util.sskip_starts this
    have hfit : fits 32 ((r.length + 1 : Nat) : Int) := by unfold fits cMin cMax; simp; omega
    have hf := firstLine_count hfit [] (.inl rfl)
    rw [List.append_nil] at hf
    have hlen' : (showNat (r.length + 1)).length < MAX_STRING := by
      have := Util.showInt_length hfit
      simp only [showInt, Int.natAbs_natCast] at this
      rw [if_neg (by omega)] at this
      simp [MAX_STRING]; omega
    obtain ⟨l', el⟩ := sLineAt_text (last := none) e1 (noNL_showNat _) hlen' hf
    obtain ⟨pos, l'', ep, es⟩ := sParts_text hb hr ('\n' :: (body ++ rest)) rest l' (Util.sskip_newline _)
    refine ⟨pos, ?_, es⟩
    rw [el]
    simp only [Out.ok_bind]
    rw [if_neg (by omega)]
    simp only [Int.toNat_natCast]
    rw [List.length_cons] at ep
    rw [ep]
    simp

/-! ## Reading from a file -/

/-- Every line of a text fits in the buffer which `osl_util_skip_blank_and_comments` passes to `fgets`. -/
def ShortLines (t : Str) : Prop := ∀ a b d, t = a ++ (b ++ d) → NoNL b → b.length < MAX_STRING - 1

theorem ShortLines.left {s t : Str} (h : ShortLines (s ++ t)) : ShortLines s := by
  intro a b d e hb
  exact h a b (d ++ t) (by rw [e]; simp) hb

theorem ShortLines.right {s t : Str} (h : ShortLines (s ++ t)) : ShortLines t := by
  intro a b d e hb
  exact h (s ++ a) b d (by rw [e]; simp) hb

theorem ShortLines.line {s t : Str} (h : ShortLines (s ++ t)) (hs : NoNL s) : s.length < MAX_STRING - 1 :=
  h [] s t (by simp) hs

theorem fskip_commentLine {cm : Str} (h : CommentLine cm) (hs : ShortLines cm) (s : Str) : Util.fskip (cm ++ s) = Util.fskip s := by
  rcases h with rfl | ⟨u, rfl, hu⟩
  · rfl
  · have hl := ShortLines.line (s := '#' :: u) (t := ['\n']) hs (NoNL.cons (by decide) hu)
    have := Util.fskip_comment (rest := s) hu (by simpa using hl)
    simpa using this

theorem cells_noNL (vs : List Int) : NoNL (cells vs) := by
  induction vs with
  | nil => exact NoNL.nil
  | cons v vs ih =>
    exact ((noNL_replicate _).append (noNL_showInt v)).append (NoNL.cons (by decide) ih)

theorem IsComment.noNL {cm : Str} (h : IsComment cm) : NoNL cm := by
  obtain ⟨u, rfl, hu⟩ := h
  exact NoNL.append (by simp [NoNL]) hu

/-- One printed row is read as one line. -/
theorem fskip_row {v : Int} {vs : List Int} {cm : Str} (hc : IsComment cm) (hs : ShortLines (cells (v :: vs) ++ cm)) (rest : Str) :
    Util.fskip (cells (v :: vs) ++ (cm ++ '\n' :: rest)) = (some (showInt v ++ ' ' :: (cells vs ++ (cm ++ ['\n']))), rest) := by
  obtain ⟨a, as, ha, h1, h2, h3⟩ := showInt_head_ne v
  have hnl : NoNL (as ++ ' ' :: (cells vs ++ cm)) := by
    have hv := noNL_showInt v
    rw [ha] at hv
    exact NoNL.append (fun h => hv (List.mem_cons_of_mem _ h)) (NoNL.cons (by decide) ((cells_noNL vs).append hc.noNL))
  have hlen := ShortLines.line (t := []) (by rw [List.append_nil]; exact hs) ((cells_noNL (v :: vs)).append hc.noNL)
  have := Util.fskip_line (4 - (showInt v).length) (c := a) (l := as ++ ' ' :: (cells vs ++ cm)) (rest := rest) h1 h2 hnl (by
    simp [cells, padLeft, ha] at hlen ⊢; omega)
  have e : cells (v :: vs) ++ (cm ++ '\n' :: rest) = List.replicate (4 - (showInt v).length) ' ' ++ (a :: (as ++ ' ' :: (cells vs ++ cm)) ++ '\n' :: rest) := by
    simp [cells, padLeft, ha]
  rw [e, this, ha]
  simp

theorem fRows_text {c : Cfg} {p : Int} {n : Nat} (hn : n ≠ 0) {m : Matrix} {t : Str} (h : RowsText m t) :
    (∀ row ∈ m, row.length = n ∧ ∀ v ∈ row, InPrec c p v) → ShortLines t → ∀ (s rest : Str) (last : Option (Str × Nat)),
    (m = [] → s = rest) → (m ≠ [] → Util.fskip s = Util.fskip (t ++ rest)) →
    ∃ last', fRows c p n m.length last s = .ok (m, last', rest) := by
  induction h with
  | nil => intro _ _ s rest last e _; rw [e rfl]; exact ⟨last, rfl⟩
  | @cons row m cm t hc hl ht ih =>
    intro hm hs s rest last _ e
    obtain ⟨hlen, hp⟩ := hm row (by simp)
    cases row with
    | nil => simp at hlen; exact absurd hlen.symm hn
    | cons v vs =>
      have e0 : cells (v :: vs) ++ (cm ++ '\n' :: t) ++ rest = cells (v :: vs) ++ (cm ++ '\n' :: (t ++ rest)) := by simp
      have e := e (by simp)
      have hs1 : ShortLines (cells (v :: vs) ++ cm) := by
        have : cells (v :: vs) ++ (cm ++ '\n' :: t) = (cells (v :: vs) ++ cm) ++ '\n' :: t := by simp
        rw [this] at hs; exact hs.left
      have hs2 : ShortLines t := by
        have : cells (v :: vs) ++ (cm ++ '\n' :: t) = (cells (v :: vs) ++ (cm ++ ['\n'])) ++ t := by simp
        rw [this] at hs; exact hs.right
      rw [e0, fskip_row hc hs1] at e
      obtain ⟨l1, e1⟩ := readVals_cells vs v 0 (cm ++ ['\n']) last (fun w hw => ⟨hp w hw, hl w hw⟩)
      obtain ⟨l2, e2⟩ := ih (fun r hr => hm r (by simp [hr])) hs2 (t ++ rest) rest l1 (by
        intro h0
        subst h0
        cases ht
        rfl) (fun _ => rfl)
      refine ⟨l2, ?_⟩
      simp only [List.length_cons, fRows]
      rw [e]
      simp only [List.replicate_zero, List.nil_append, List.length_cons] at e1 hlen
      simp only
      rw [← hlen, e1]
      simp only [Out.ok_bind]
      rw [hlen, e2]
      rfl

theorem fLine_text {s l R : Str} {fl : FirstLine} {a : Char} {as : Str} (hs : Util.fskip s = Util.fskip (l ++ '\n' :: R)) (hl : NoNL l)
    (ha : l = a :: as) (h1 : isSpace a = false) (h2 : a ≠ '#') (hlen : l.length < MAX_STRING - 1) (hf : firstLine (l ++ ['\n']) = .ok fl) :
    fLine s = .ok (fl, R) := by
  subst ha
  have := Util.fskip_line 0 (rest := R) h1 h2 (fun h => hl (List.mem_cons_of_mem _ h)) (by simp at hlen ⊢; omega)
  simp only [List.replicate_zero, List.nil_append] at this
  unfold fLine
  rw [hs, this]
  simp only
  rw [hf]
  rfl

theorem fPart_text {c : Cfg} {prec : Int} {p : Part} {t : Str} (hr : Readable c prec p) (hd : p.Dims) (h : PartText p t) (hs : ShortLines t) (s rest : Str)
    (type : Int) (last : Option (Str × Nat)) (e : Util.fskip s = Util.fskip (t ++ rest)) :
    ∃ st last', fLine s = .ok (.header (headerOf p), st) ∧
      fBody c prec type (headerOf p) last st = .ok ({ p with type := type }, last', rest) := by
  obtain ⟨pre, col, rows, rfl, h1, h2, h3, h4⟩ := h
  have e' : Util.fskip s = Util.fskip (hdr p ++ '\n' :: (col ++ (rows ++ rest))) := by
    rw [e, List.append_assoc, fskip_commentLine h1 hs.left, List.append_assoc, headerLine_hdr, List.append_assoc]
  have hf := firstLine_hdr hr.small ['\n'] (by simp; decide)
  obtain ⟨a, as, ha, g1, g2, g3⟩ := showInt_head_ne p.nb_rows
  have el := fLine_text (a := a) (as := as ++ ' ' :: showInt p.nb_columns ++ ' ' :: showInt p.nb_output_dims ++ ' ' :: showInt p.nb_input_dims ++
    ' ' :: showInt p.nb_local_dims ++ ' ' :: showInt p.nb_parameters) e' (hdr_noNL p) (by simp [hdr, ha]) g1 g2
    (by have := hdr_length hr.small; simp [MAX_STRING]; omega) hf
  have hs1 : ShortLines (col ++ rows) := by
    have : pre ++ (headerLine p ++ (col ++ rows)) = (pre ++ headerLine p) ++ (col ++ rows) := by simp
    rw [this] at hs; exact hs.right
  obtain ⟨l'', er⟩ := fRows_text (c := c) (p := prec) (n := p.nb_columns.toNat) (by have := hd.2.2.2.2; have := hd.1; have := hd.2.1; have := hd.2.2.1; have := hd.2.2.2.1; omega) h3
    (fun row hrow => ⟨by have := hr.valid.cols row hrow; omega, fun v hv => by have := hr.valid.ents row hrow v hv; rwa [hr.prec] at this⟩) hs1.right
    (col ++ (rows ++ rest)) rest last (by
      intro hm
      rw [h4 hm]
      rw [hm] at h3
      cases h3
      rfl) (fun _ => fskip_commentLine h2 hs1.left _)
  refine ⟨_, l'', el, ?_⟩
  obtain ⟨q, hq⟩ := pmalloc_readable hr
  unfold fBody
  simp only [headerOf]
  rw [hq, hr.rows, er]
  simp only [Out.ok_bind]
  have := header_part hr type
  simp only [headerOf] at this
  rw [this]
  rfl

theorem fParts_text {c : Cfg} {prec type : Int} {r : Rel} {t : Str} (h : PartsText r t) : (∀ p ∈ r, Readable c prec p) → ShortLines t → ∀ (rest : Str) (last : Option (Str × Nat)),
    fParts c prec type r.length last (t ++ rest) = .ok (r.map (fun p => { p with type := type }), rest) := by
  induction h with
  | nil => intro _ _ rest last; rfl
  | @cons p r t u hd hp _ ih =>
    intro hr hs rest last
    rw [List.append_assoc]
    obtain ⟨st, l', e1, e2⟩ := fPart_text (hr p (by simp)) hd hp hs.left (t ++ (u ++ rest)) (u ++ rest) type last rfl
    have e4 := ih (fun q hq => hr q (by simp [hq])) hs.right rest l'
    simp only [List.length_cons, fParts]
    rw [e1]
    simp only [Out.ok_bind]
    rw [e2]
    simp only [Out.ok_bind]
    rw [e4]
    rfl

theorem fread_type_text {t : Int} (h : KnownType t) (rest : Str) : fread_type (sprint_type t ++ '\n' :: rest) = .ok (t, rest) := by
  have hw := sprint_type_word t
  have h1 : ∃ a as, sprint_type t = a :: as ∧ isSpace a = false ∧ a ≠ '#' ∧ NoNL as ∧ as.length < 100 := by
    unfold sprint_type
    repeat' split
    all_goals (refine ⟨_, _, rfl, ?_⟩; unfold NoNL; decide)
  obtain ⟨a, as, ha, h2, h3, h4, h5⟩ := h1
  have e := Util.fskip_line 0 (rest := rest) h2 h3 h4 (by simp [MAX_STRING]; omega)
  have := Strings.sread_line (l := [sprint_type t]) (by simp) (by intro w hw'; simp at hw'; subst hw'; exact hw) []
  simp only [Strings.line] at this
  simp only [List.replicate_zero, List.nil_append] at e
  unfold fread_type Strings.read
  rw [ha] at this ⊢
  rw [e]
  simp only
  rw [this]
  simp only [Out.ok_bind, typeOfStrings]
  rw [← ha, typeOfWord_sprint h]
  rfl

/-- C24, reading from a file: what `osl_relation_pread` returns for the text of a relation printed by
`osl_relation_pprint` (that is by `osl_relation_spprint`) followed by anything: the same relation, except
that all the parts take the type of the first one; the file is left just after the text. -/
theorem relation_read_print {c : Cfg} {prec : Int} {p : Part} {r : Rel} {names : Option Names} {t : Str}
    (hr : ∀ q ∈ p :: r, Readable c prec q) (hlen : (r.length : Int) < 2 ^ 31 - 1) (ht : KnownType p.type) (hn : ∀ m, names = some m → NamesNoNL m)
    (h : spprint c (p :: r) names = .ok t) (hs : ShortLines t) (rest : Str) :
    pread c prec (t ++ rest) = .ok ((p :: r).map (fun q => { q with type := p.type }), rest) := by
  obtain ⟨cnt, body, rfl, hb, hc⟩ := spprint_text (fun q hq => ⟨(hr q hq).valid.rows, (hr q hq).valid.cols⟩) hn h
  have e0 : sprint_type p.type ++ '\n' :: (cnt ++ body) ++ rest = sprint_type p.type ++ '\n' :: (cnt ++ (body ++ rest)) := by simp
  have hs1 : ShortLines (cnt ++ body) := by
    have : sprint_type p.type ++ '\n' :: (cnt ++ body) = (sprint_type p.type ++ ['\n']) ++ (cnt ++ body) := by simp
    rw [this] at hs; exact hs.right
  unfold pread
  rw [e0, fread_type_text ht]
  simp only [Out.ok_bind]
  rcases hc with ⟨rfl, rfl⟩ | ⟨hne, cm, hcm, rfl⟩
  · cases hb with
    | cons hd hp hnil =>
      cases hnil
      rw [List.append_nil, List.nil_append]
      rw [List.append_nil, List.nil_append] at hs1
      obtain ⟨st, l', e1, e2⟩ := fPart_text (hr p (by simp)) hd hp hs1 _ rest p.type none rfl
      rw [e1]
      simp only [Out.ok_bind]
      rw [e2]
      rfl
  · have hfit : fits 32 ((r.length + 1 : Nat) : Int) := by unfold fits cMin cMax; simp; omega
    have hf := firstLine_count hfit ['\n'] (.inr rfl)
    obtain ⟨a, as, ha, g1, g2, g3⟩ := showInt_head_ne ((r.length + 1 : Nat) : Int)
    have hlen' := Util.showInt_length hfit
    simp only [showInt, Int.natAbs_natCast] at ha hlen'
    rw [if_neg (by omega)] at ha hlen'
    have e1 : Util.fskip (cm ++ (showNat (r.length + 1) ++ ['\n']) ++ (body ++ rest)) = Util.fskip (showNat (r.length + 1) ++ '\n' :: (body ++ rest)) := by
      rw [List.append_assoc, fskip_commentLine hcm hs1.left.left]
      simp
    have el := fLine_text e1 (noNL_showNat _) ha g1 g2 (by simp [MAX_STRING]; omega) hf
    rw [el]
    simp only [Out.ok_bind]
    rw [if_neg (by omega)]
    simp only [Int.toNat_natCast]
    have := fParts_text (type := p.type) hb hr hs1.right rest none
    rw [List.length_cons] at this
    rw [this]

/-! ## C24 -/

/-- C24: for a relation with one part, and for a union which parts after the first one have no type, reading from
a string the printed text gives a relation which `osl_relation_equal` finds equal. -/
theorem relation_text_round_trip_untyped {c : Cfg} {prec : Int} {p : Part} {r : Rel} {t : Str}
    (hr : ∀ q ∈ p :: r, Readable c prec q) (hlen : (r.length : Int) < 2 ^ 31 - 1) (ht : KnownType p.type) (hu : ∀ q ∈ r, q.type = UNDEFINED)
    (h : sprint c (p :: r) = .ok t) :
    ∃ r' pos, psread c prec t = .ok (r', pos) ∧ equal c (p :: r) r' = .ok true := by
  obtain ⟨pos, e, _⟩ := relation_sread_sprint hr hlen ht (names := none) (by simp) h []
  rw [List.append_nil] at e
  refine ⟨_, _, e, ?_⟩
  have : r.map (fun q => { q with type := UNDEFINED }) = r := by
    have : ∀ q ∈ r, (fun q : Part => { q with type := UNDEFINED }) q = q := by
      intro q hq; simp only; rw [← hu q hq]
    rw [List.map_congr_left this, List.map_id']
  rw [this]
  have hv : Rel.Valid c (p :: r) := fun q hq => (hr q hq).valid
  exact (relation_equal_iff hv hv).mpr ⟨rfl, fun i _ _ => by simp⟩

/-- Finding (C24): reading from a string the printed text of any union with a typed part after the first one
gives a relation which is not equal: `osl_relation_psread` sets the type of the first part only. -/
theorem relation_sread_union_violates {c : Cfg} {prec : Int} {p : Part} {r : Rel} {t : Str}
    (hr : ∀ q ∈ p :: r, Readable c prec q) (hlen : (r.length : Int) < 2 ^ 31 - 1) (ht : KnownType p.type) {q : Part} (hq : q ∈ r) (hu : q.type ≠ UNDEFINED)
    (h : sprint c (p :: r) = .ok t) :
    ∃ r' pos, psread c prec t = .ok (r', pos) ∧ equal c (p :: r) r' = .ok false := by
  obtain ⟨pos, e, _⟩ := relation_sread_sprint hr hlen ht (names := none) (by simp) h []
  rw [List.append_nil] at e
  refine ⟨_, _, e, ?_⟩
  have hv : Rel.Valid c (p :: r) := fun q hq => (hr q hq).valid
  have hv' : Rel.Valid c (p :: r.map (fun q => { q with type := UNDEFINED })) := by
    intro x hx
    rcases List.mem_cons.mp hx with rfl | hx
    · exact hv x (by simp)
    · obtain ⟨y, hy, rfl⟩ := List.mem_map.mp hx
      have := hv y (by simp [hy])
      exact ⟨this.rows, this.cols, this.ncols, this.prec, this.ents⟩
  rcases (relation_equal_equivalence hv hv' hv).1 with h1 | h1
  · exfalso
    obtain ⟨_, h2⟩ := (relation_equal_iff hv hv').mp h1
    obtain ⟨i, hi, rfl⟩ := List.mem_iff_getElem.mp hq
    have := (h2 (i + 1) (by simp; omega) (by simp; omega)).1
    simp at this
    exact hu this
  · exact h1

/-- C24: reading from a file the printed text of a relation, all the parts of which have the same type, gives an
equal relation, provided no line of the text is longer than the reading buffer. -/
theorem relation_file_round_trip {c : Cfg} {prec : Int} {p : Part} {r : Rel} {names : Option Names} {t : Str}
    (hr : ∀ q ∈ p :: r, Readable c prec q) (hlen : (r.length : Int) < 2 ^ 31 - 1) (ht : KnownType p.type) (hu : ∀ q ∈ r, q.type = p.type)
    (hn : ∀ m, names = some m → NamesNoNL m) (h : spprint c (p :: r) names = .ok t) (hs : ShortLines t) (rest : Str) :
    ∃ r', pread c prec (t ++ rest) = .ok (r', rest) ∧ equal c (p :: r) r' = .ok true := by
  have e := relation_read_print hr hlen ht hn h hs rest
  refine ⟨_, e, ?_⟩
  have : (p :: r).map (fun q => { q with type := p.type }) = p :: r := by
    have : ∀ q ∈ p :: r, (fun q : Part => { q with type := p.type }) q = q := by
      intro q hq
      rcases List.mem_cons.mp hq with rfl | hq
      · rfl
      · simp only; rw [← hu q hq]
    rw [List.map_congr_left this, List.map_id']
  rw [this]
  have hv : Rel.Valid c (p :: r) := fun q hq => (hr q hq).valid
  exact (relation_equal_iff hv hv).mpr ⟨rfl, fun i _ _ => by simp⟩

/-- Finding (C24): in a matrix with a missing entry at the end of the input, the last token is used twice and
no error is reported (the `EOF` result of `sscanf` is not tested). -/
theorem relation_sread_truncated_violates :
    psread Cfg.std PREC_SP "DOMAIN\n1 3 1 0 0 0\n 0 7".toList =
      .ok ([{ type := TYPE_DOMAIN, precision := PREC_SP, nb_rows := 1, nb_columns := 3, nb_output_dims := 1, nb_input_dims := 0, nb_local_dims := 0, nb_parameters := 0, m := [[0, 7, 7]] }], none) := by
  decide

/-- A domain `i1 >= 0, P1 - i1 >= 0`. -/
def exPart : Part := { type := TYPE_DOMAIN, precision := PREC_SP, nb_rows := 2, nb_columns := 4, nb_output_dims := 1, nb_input_dims := 0, nb_local_dims := 0, nb_parameters := 1, m := [[1, 1, 0, 0], [1, -1, 1, 0]] }

/-- Its printed text. -/
def exText : Str := "DOMAIN\n2 4 1 0 0 1\n# e/i| i1 | P1 |  1  \n   1    1    0    0    ## i1 >= 0\n   1   -1    1    0    ## -i1+P1 >= 0\n".toList

example : sprint Cfg.std [exPart] = .ok exText := by decide

set_option maxRecDepth 4000 in
/-- The hypotheses of the round trip theorems are met. -/
example : (∀ q ∈ [exPart], Readable Cfg.std PREC_SP q) ∧ KnownType exPart.type ∧ ShortLines exText := by
  refine ⟨?_, by decide, ?_⟩
  · intro q hq
    simp at hq; subst hq
    exact ⟨⟨by decide, by decide, by decide, by decide, by decide⟩, by decide, by unfold Part.Small; decide⟩
  · intro a b d e _
    have h1 : exText.length < 200 := by decide
    have : exText.length = (a ++ (b ++ d)).length := by rw [e]
    simp at this
    simp [MAX_STRING]; omega

set_option maxRecDepth 4000 in
example : psread Cfg.std PREC_SP exText = .ok ([exPart], some "    ## -i1+P1 >= 0\n".toList) := by decide

set_option maxRecDepth 4000 in
example : pread Cfg.std PREC_SP exText = .ok ([exPart], []) := by decide

end Rel
end Osl
