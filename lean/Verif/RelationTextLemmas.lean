import Verif.RelationText
import Verif.RelationProps6
import Verif.StringsProps
/-!
# The shape of the text printed by `osl_relation_spprint`
-/

namespace Osl

/-- No end of line in a text. -/
def NoNL (s : Str) : Prop := '\n' ∉ s

theorem NoNL.append {s t : Str} (hs : NoNL s) (ht : NoNL t) : NoNL (s ++ t) := by
  unfold NoNL at *; simp [hs, ht]

theorem NoNL.cons {c : Char} {s : Str} (hc : c ≠ '\n') (hs : NoNL s) : NoNL (c :: s) := by
  unfold NoNL at *; simp [hs]; exact fun h => hc h.symm

theorem NoNL.nil : NoNL [] := by simp [NoNL]

theorem NoNL.take {s : Str} (hs : NoNL s) (n : Nat) : NoNL (s.take n) := fun h => hs (List.mem_of_mem_take h)

theorem NoNL.ne {s : Str} (hs : NoNL s) : ∀ c ∈ s, c ≠ '\n' := by
  rintro c hc rfl; exact hs hc

theorem noNL_showNat (n : Nat) : NoNL (showNat n) := fun h => by
  have := showNat_digits n _ h; revert this; decide

theorem noNL_showInt (v : Int) : NoNL (showInt v) := fun h => by
  have := showInt_nospace v _ h; revert this; decide

theorem noNL_replicate (n : Nat) : NoNL (List.replicate n ' ') := fun h => by
  have := List.eq_of_mem_replicate h; revert this; decide

namespace Rel

theorem buffered_ok {s t : Str} (h : buffered s = .ok t) : t = s ∧ s.length < MAX_STRING := by
  unfold buffered at h; split at h
  · injection h with h; exact ⟨h.symm, by assumption⟩
  · cases h

/-- Names without end of line. -/
def StringsNoNL (s : Option Strings) : Prop := ∀ a, s = some a → ∀ w ∈ a.words, NoNL w

/-- All the names are free of ends of line. -/
def NamesNoNL (n : Names) : Prop :=
  StringsNoNL n.parameters ∧ StringsNoNL n.iterators ∧ StringsNoNL n.scatt_dims ∧ StringsNoNL n.local_dims ∧ StringsNoNL n.arrays

theorem nameAt_noNL {s : Option Strings} (h : StringsNoNL s) {i : Int} {w : Str} (e : nameAt s i = .ok w) : NoNL w := by
  unfold nameAt at e
  split at e
  · rename_i l
    split at e
    · rename_i w' hw
      injection e with e
      subst e
      exact h _ rfl _ (List.mem_of_getElem? hw)
    · cases e
  · cases e

theorem mapOut_all {α β : Type} {f : α → Out β} {P : β → Prop} (hf : ∀ a b, f a = .ok b → P b) :
    ∀ {l : List α} {r : List β}, Out.mapOut f l = .ok r → ∀ b ∈ r, P b := by
  intro l
  induction l with
  | nil => intro r h; simp [Out.mapOut] at h; subst h; simp
  | cons a as ih =>
    intro r h
    obtain ⟨b, bs, h1, h2, rfl⟩ := Out.mapOut_cons_eq_ok.mp h
    intro x hx
    rcases List.mem_cons.mp hx with rfl | hx
    · exact hf _ _ h1
    · exact ih h2 x hx

theorem outputNames_noNL {p : Part} {n : Names} (hn : NamesNoNL n) {l : List Str} (h : outputNames p n = .ok l) :
    ∀ w ∈ l, NoNL w := by
  unfold outputNames at h
  split at h
  · injection h with h
    subst h
    intro w hw
    obtain ⟨i, _, rfl⟩ := List.mem_map.mp hw
    split
    · simp [NoNL]
    · exact NoNL.cons (by decide) ((noNL_showInt _).append (by simp [NoNL]))
  · split at h <;> exact mapOut_all (fun a b e => nameAt_noNL (by first | exact hn.2.1 | exact hn.2.2.1) e) h

theorem relation_strings_noNL {p : Part} {n : Names} (hn : NamesNoNL n) {l : List Str} (h : relation_strings p n = .ok l) :
    p.Dims ∧ ∀ w ∈ l, NoNL w := by
  unfold relation_strings at h
  split at h
  · rename_i hd
    refine ⟨hd, ?_⟩
    obtain ⟨outs, h1, h⟩ := Out.bind_eq_ok.mp h
    obtain ⟨ins, h2, h⟩ := Out.bind_eq_ok.mp h
    obtain ⟨locs, h3, h⟩ := Out.bind_eq_ok.mp h
    obtain ⟨pars, h4, h⟩ := Out.bind_eq_ok.mp h
    simp only [Out.pure_eq, Out.ok.injEq] at h
    subst h
    have a1 := outputNames_noNL hn h1
    have a2 : ∀ w ∈ ins, NoNL w := mapOut_all (fun a b e => nameAt_noNL (by first | exact hn.2.1 | exact hn.1 | exact hn.2.2.1 | exact hn.2.2.2.1) e) h2
    have a3 : ∀ w ∈ locs, NoNL w := mapOut_all (fun a b e => nameAt_noNL (by first | exact hn.2.2.2.1 | exact hn.1 | exact hn.2.1 | exact hn.2.2.1) e) h3
    have a4 : ∀ w ∈ pars, NoNL w := mapOut_all (fun a b e => nameAt_noNL (by first | exact hn.1 | exact hn.2.1 | exact hn.2.2.1 | exact hn.2.2.2.1) e) h4
    intro w hw
    simp only [List.cons_append, List.mem_cons, List.mem_append, List.not_mem_nil, or_false] at hw
    rcases hw with hw | (((hw | hw) | hw) | hw) | hw <;>
      first
      | (subst hw; simp [NoNL]; done)
      | exact a1 w hw
      | exact a2 w hw
      | exact a3 w hw
      | exact a4 w hw
  · cases h

theorem expression_element_noNL {c : Cfg} {p v : Int} {first cst : Bool} {name : Str} {r : Str × Bool}
    (hn : NoNL name) (h : expression_element c p v first cst name = .ok r) : NoNL r.1 := by
  unfold expression_element OInt.zero OInt.neg OInt.one OInt.mone OInt.sprint_txt OInt.pos at h
  cases hk : kind c p with
  | none => rw [hk] at h; simp at h
  | some k =>
    rw [hk] at h
    simp only [Out.ok_bind, Out.pure_eq] at h
    have ht := noNL_showInt v
    have key : ∀ (s : Str) (b : Bool), NoNL s → (buffered s >>= fun s => Out.ok (s, b)) = .ok r → NoNL r.1 := by
      intro s b hs e
      obtain ⟨t, h1, h2⟩ := Out.bind_eq_ok.mp e
      obtain ⟨rfl, _⟩ := buffered_ok h1
      injection h2 with h2
      subst h2
      exact hs
    repeat' (split at h)
    all_goals first
      | (injection h with h; subst h; exact NoNL.nil)
      | exact key _ _ (by repeat (first | exact hn | exact ht | exact NoNL.nil | apply NoNL.cons (by decide) | apply NoNL.append)) h

theorem strAt_noNL {l : List Str} (h : ∀ w ∈ l, NoNL w) {i : Int} {w : Str} (e : strAt l i = .ok w) : NoNL w := by
  unfold strAt at e
  split at e
  · rename_i hw; injection e with e; subst e; exact h _ (List.mem_of_getElem? hw)
  · cases e

theorem subexpression_noNL {c : Cfg} {r : Part} {row start stop : Int} {op : Bool} {strings : List Str} {t : Str}
    (hs : ∀ w ∈ strings, NoNL w) (h : subexpression c r row start stop op strings = .ok t) : NoNL t := by
  unfold subexpression at h
  obtain ⟨s, h1, h2⟩ := Out.bind_eq_ok.mp h
  injection h2 with h2
  subst h2
  have gen : ∀ (a b : Int), (loop a b (fun i (s : Str × Bool) => do
      let v ← get2 r.m row i
      let v ← if op then OInt.oppose c r.precision v else .ok v
      let name ← strAt strings i
      let (t, first) ← expression_element c r.precision v s.2 (decide (i = r.nb_columns - 1)) name
      let line ← buffered (s.1 ++ t)
      return (line, first)) ([], true)) = .ok s → NoNL s.1 := by
   intro a b h1
   by_cases hle : a ≤ b
   · refine loop_rule_partial (fun _ (s : Str × Bool) => NoNL s.1) h1 NoNL.nil ?_ hle
     intro i s s' _ _ hi e
     obtain ⟨v, e1, e⟩ := Out.bind_eq_ok.mp e
     have key : ∀ v, (do
         let name ← strAt strings i
         let (t, first) ← expression_element c r.precision v s.2 (decide (i = r.nb_columns - 1)) name
         let line ← buffered (s.1 ++ t)
         return (line, first)) = .ok s' → NoNL s'.1 := by
       intro v e
       obtain ⟨name, e3, e⟩ := Out.bind_eq_ok.mp e
       obtain ⟨tf, e4, e⟩ := Out.bind_eq_ok.mp e
       obtain ⟨line, e5, e⟩ := Out.bind_eq_ok.mp e
       injection e with e
       subst e
       obtain ⟨rfl, _⟩ := buffered_ok e5
       exact hi.append (expression_element_noNL (strAt_noNL hs e3) e4)
     simp only at e
     split at e
     · obtain ⟨v', e2, e⟩ := Out.bind_eq_ok.mp e
       exact key _ e
     · exact key v e
   · unfold loop at h1
     have : (b - a).toNat = 0 := by omega
     rw [this] at h1
     simp [loopN] at h1
     subst h1
     exact NoNL.nil
  exact gen _ _ h1

/-- The comment printed after a row: blanks, `##` and a text on the same line. -/
def IsComment (s : Str) : Prop := ∃ u, s = "   #".toList ++ u ∧ NoNL u

theorem emit_ok {l : List Str} {t : Str} (h : Util.emit l = .ok t) : t = l.flatten := by
  rw [Util.emit_eq] at h; injection h with h; exact h.symm

theorem sprint_comment_isComment {c : Cfg} {r : Part} {rest : Rel} {row : Int} {strings : List Str} {arrays : Option Strings}
    {t : Str} (hs : ∀ w ∈ strings, NoNL w) (ha : StringsNoNL arrays)
    (h : sprint_comment c r rest row strings arrays = .ok t) : IsComment t := by
  have key : ∀ e u : Str, NoNL e → NoNL u → Util.emit [truncated ("   ## ".toList ++ e), u] = .ok t → IsComment t := by
    intro e u he hu h
    have := emit_ok h
    refine ⟨"# ".toList ++ e.take (MAX_STRING - 1 - 6) ++ u, ?_, ?_⟩
    · rw [this]; simp [truncated, MAX_STRING]
    · exact (NoNL.append (by simp [NoNL]) (he.take _)).append hu
  unfold sprint_comment at h
  obtain ⟨sign, h0, h⟩ := Out.bind_eq_ok.mp h
  split at h
  · obtain ⟨e1, h1, h⟩ := Out.bind_eq_ok.mp h
    obtain ⟨v, h2, h⟩ := Out.bind_eq_ok.mp h
    obtain ⟨z, h3, h⟩ := Out.bind_eq_ok.mp h
    have n1 := subexpression_noNL hs h1
    split at h
    · obtain ⟨e2, h4, h⟩ := Out.bind_eq_ok.mp h
      have n2 := subexpression_noNL hs h4
      exact key _ _ n1 ((NoNL.append (by simp [NoNL]) n2).take _) h
    · obtain ⟨id, h4, h⟩ := Out.bind_eq_ok.mp h
      split at h
      · cases h
      · obtain ⟨a, h5, h⟩ := Out.bind_eq_ok.mp h
        exact key _ _ n1 ((NoNL.append (by simp [NoNL]) (nameAt_noNL ha h5)).take _) h
  · obtain ⟨e, h1, h⟩ := Out.bind_eq_ok.mp h
    obtain ⟨v, h2, h⟩ := Out.bind_eq_ok.mp h
    obtain ⟨z, h3, h⟩ := Out.bind_eq_ok.mp h
    exact key _ _ (subexpression_noNL hs h1) (by split <;> simp [NoNL]) h

/-- Elementwise relation between two lists. -/
inductive All2 {α β : Type} (Q : α → β → Prop) : List α → List β → Prop
  | nil : All2 Q [] []
  | cons {a b l r} : Q a b → All2 Q l r → All2 Q (a :: l) (b :: r)

theorem mapOut_map {α β γ : Type} (f : β → Out γ) (g : α → β) (l : List α) :
    Out.mapOut f (l.map g) = Out.mapOut (fun a => f (g a)) l := by
  induction l with
  | nil => rfl
  | cons a l ih => simp [Out.mapOut, ih]

theorem mapOut_range'_all2 {α β : Type} {f : Int → Out β} {Q : α → β → Prop} :
    ∀ {l : List α} {r : List β} (k : Nat), (∀ (i : Nat) (h : i < l.length) b, f ((k + i : Nat) : Int) = .ok b → Q l[i] b) →
      Out.mapOut (fun i : Nat => f i) (List.range' k l.length) = .ok r → All2 Q l r := by
  intro l
  induction l with
  | nil => intro r k _ h; simp [Out.mapOut] at h; subst h; exact .nil
  | cons a l ih =>
    intro r k hf h
    rw [List.length_cons, List.range'_succ] at h
    obtain ⟨b, bs, h1, h2, rfl⟩ := Out.mapOut_cons_eq_ok.mp h
    refine .cons (hf 0 (by simp) b (by simpa using h1)) (ih (k + 1) ?_ h2)
    intro i hi b hb
    have := hf (i + 1) (by simp; omega) b (by rw [show k + (i + 1) = k + 1 + i by omega]; exact hb)
    simpa using this

theorem mapOut_upto_all2 {α β : Type} {f : Int → Out β} {Q : α → β → Prop} {l : List α} {r : List β} {n : Int} (hn : (l.length : Int) = n)
    (hf : ∀ (i : Nat) (h : i < l.length) b, f (i : Int) = .ok b → Q l[i] b) (h : Out.mapOut f (upto n) = .ok r) : All2 Q l r := by
  subst hn
  unfold upto at h
  rw [mapOut_map, Int.toNat_natCast, List.range_eq_range'] at h
  refine mapOut_range'_all2 0 ?_ h
  intro i hi b hb
  exact hf i hi b (by simpa using hb)

/-- The printed entries of a row. -/
def cells : List Int → Str
  | [] => []
  | v :: vs => padLeft 4 (showInt v) ++ ' ' :: cells vs

/-- The printed rows of a matrix with some comments. -/
inductive RowsText : Matrix → Str → Prop
  | nil : RowsText [] []
  | cons {row : List Int} {m : Matrix} {cm t : Str} : IsComment cm → (∀ v ∈ row, (showInt v).length < MAX_STRING) →
      RowsText m t → RowsText (row :: m) (cells row ++ (cm ++ '\n' :: t))

/-- Nothing or a comment line. -/
def CommentLine (s : Str) : Prop := s = [] ∨ ∃ u, s = '#' :: u ++ ['\n'] ∧ NoNL u

/-- The printed text of a part. -/
def PartText (p : Part) (t : Str) : Prop :=
  ∃ pre col rows, t = pre ++ (headerLine p ++ (col ++ rows)) ∧ CommentLine pre ∧ CommentLine col ∧ RowsText p.m rows ∧ (p.m = [] → col = [])

/-- The printed text of union parts. -/
inductive PartsText : Rel → Str → Prop
  | nil : PartsText [] []
  | cons {p : Part} {r : Rel} {t u : Str} : p.Dims → PartText p t → PartsText r u → PartsText (p :: r) (t ++ u)

theorem cells_of_pieces {c : Cfg} {p : Int} {row : List Int} {cs : List (List Str)}
    (h : All2 (fun v ts => (do let t ← OInt.sprint c p v; let t ← buffered t; return [t, [' ']]) = Out.ok ts) row cs) :
    cs.flatten.flatten = cells row ∧ ∀ v ∈ row, (showInt v).length < MAX_STRING := by
  induction h with
  | nil => simp [cells]
  | @cons v ts l r h _ ih =>
    obtain ⟨t, h1, h⟩ := Out.bind_eq_ok.mp h
    obtain ⟨t', h2, h⟩ := Out.bind_eq_ok.mp h
    injection h with h
    subst h
    obtain ⟨rfl, hl⟩ := buffered_ok h2
    unfold OInt.sprint at h1
    split at h1
    · injection h1 with h1
      subst h1
      constructor
      · simp [cells, ← ih.1]
      · intro w hw
        rcases List.mem_cons.mp hw with rfl | hw
        · simp [padLeft] at hl; omega
        · exact ih.2 w hw
    · cases h1

theorem columnName_noNL {s : Str} (h : NoNL s) : NoNL (columnName s) := by
  unfold columnName
  refine (((noNL_replicate _).append (h.take _)).append ?_).append (noNL_replicate _)
  split
  · exact fun hm => h (List.mem_of_mem_drop (List.mem_of_mem_take hm))
  · simp [NoNL]

theorem columns_noNL (r : Part) : ∀ (l : List Str) (i : Int), (∀ w ∈ l, NoNL w) → NoNL (columns r l i) := by
  intro l
  induction l with
  | nil => intros; exact NoNL.nil
  | cons s l ih =>
    intro i h
    refine (columnName_noNL (h s (by simp))).append (NoNL.cons ?_ (ih _ (fun w hw => h w (by simp [hw]))))
    unfold columnSep; split <;> decide

theorem RowsText.of_pieces {m : Matrix} {rs : List (List Str)}
    (h : All2 (fun (row : List Int) ps => ∃ cm, List.flatten ps = cells row ++ (cm ++ ['\n']) ∧ IsComment cm ∧ ∀ v ∈ row, (showInt v).length < MAX_STRING) m rs) :
    RowsText m rs.flatten.flatten := by
  induction h with
  | nil => exact .nil
  | cons h _ ih =>
    obtain ⟨cm, h1, h2, h3⟩ := h
    have := RowsText.cons h2 h3 ih
    simp only [List.flatten_cons, List.flatten_append, h1]
    simpa using this

theorem partPieces_text {c : Cfg} {nb part : Nat} {r : Part} {rest : Rel} {names : Names} {l : List Str}
    (hv : (r.m.length : Int) = r.nb_rows ∧ ∀ row ∈ r.m, (row.length : Int) = r.nb_columns) (hn : NamesNoNL names)
    (h : partPieces c nb part r rest names = .ok l) : r.Dims ∧ PartText r l.flatten := by
  unfold partPieces at h
  obtain ⟨strings, h1, h⟩ := Out.bind_eq_ok.mp h
  obtain ⟨hd, hs⟩ := relation_strings_noNL hn h1
  refine ⟨hd, ?_⟩
  obtain ⟨scol, h2, h⟩ := Out.bind_eq_ok.mp h
  obtain ⟨rows, h3, h⟩ := Out.bind_eq_ok.mp h
  injection h with h
  have hc : CommentLine scol.flatten := by
    unfold columnPieces at h2
    split at h2
    · obtain ⟨s, h4, h2⟩ := Out.bind_eq_ok.mp h2
      injection h2 with h2
      subst h2
      obtain ⟨rfl, _⟩ := buffered_ok h4
      exact .inr ⟨_, by simp, columns_noNL r strings 0 hs⟩
    · injection h2 with h2; subst h2; exact .inl rfl
  have hc0 : r.m = [] → scol.flatten = [] := by
    intro hm
    have := hv.1
    rw [hm] at this
    unfold columnPieces at h2
    rw [if_neg (by simp at this; omega)] at h2
    injection h2 with h2; subst h2; rfl
  have hr : RowsText r.m rows.flatten.flatten := by
    refine RowsText.of_pieces (mapOut_upto_all2 hv.1 ?_ h3)
    intro i hi ps hps
    unfold rowPieces at hps
    obtain ⟨cs, h4, hps⟩ := Out.bind_eq_ok.mp hps
    have hcs := cells_of_pieces (c := c) (p := r.precision) (row := r.m[i]) (cs := cs) (by
      refine mapOut_upto_all2 (hv.2 _ (List.getElem_mem hi)) ?_ h4
      intro j hj b hb
      obtain ⟨v, h5, hb⟩ := Out.bind_eq_ok.mp hb
      unfold get2 at h5
      rw [if_neg (by omega)] at h5
      simp [hi, hj] at h5
      subst h5
      exact hb)
    obtain ⟨cm, h5, hps⟩ := Out.bind_eq_ok.mp hps
    injection hps with hps
    subst hps
    unfold rowComment at h5
    split at h5
    · rename_i a ha
      refine ⟨cm, ?_, sprint_comment_isComment hs (by rw [← ha]; exact hn.2.2.2.2) h5, hcs.2⟩
      simp [hcs.1]
    · cases h5
  subst h
  refine ⟨(if nb > 1 then ["# Union part No.".toList ++ showNat part ++ ['\n']] else []).flatten, scol.flatten, rows.flatten.flatten, ?_, ?_, hc, hr, hc0⟩
  · simp only [List.flatten_append, List.flatten_cons, List.append_assoc, List.cons_append]
  split
  · exact .inr ⟨" Union part No.".toList ++ showNat part, by simp, NoNL.append (by simp [NoNL]) (noNL_showNat _)⟩
  · exact .inl rfl

/-- The declared size of the matrix is its size. -/
def Sized (r : Rel) : Prop := ∀ p ∈ r, (p.m.length : Int) = p.nb_rows ∧ ∀ row ∈ p.m, (row.length : Int) = p.nb_columns

theorem partsPieces_text {c : Cfg} {nb : Nat} {names : Names} (hn : NamesNoNL names) :
    ∀ {r : Rel} {part : Nat} {l : List Str}, Sized r → partsPieces c nb names part r = .ok l → PartsText r l.flatten := by
  intro r
  induction r with
  | nil => intro part l _ h; simp [partsPieces] at h; subst h; exact .nil
  | cons p r ih =>
    intro part l hv h
    simp only [partsPieces] at h
    obtain ⟨a, h1, h⟩ := Out.bind_eq_ok.mp h
    obtain ⟨b, h2, h⟩ := Out.bind_eq_ok.mp h
    injection h with h
    subst h
    have hp := partPieces_text (hv p (by simp)) hn h1
    rw [List.flatten_append]
    exact .cons hp.1 hp.2 (ih (fun q hq => hv q (by simp [hq])) h2)

theorem generated_noNL {pre : Str} (hp : NoNL pre) {n : Int} {s : Strings} (h : Strings.generate pre n = .ok s) : ∀ w ∈ s.words, NoNL w := by
  unfold Strings.generate at h
  split at h
  · cases h; simp [Strings.words]
  · split at h
    · cases h
    · injection h with h
      subst h
      intro w hw
      simp only [Strings.words, Option.getD_some, Strings.genLoop_eq] at hw
      obtain ⟨k, _, rfl⟩ := List.mem_map.mp hw
      exact hp.append (noNL_showNat k)

theorem chooseNames_noNL {c : Cfg} {r : Rel} {names : Option Names} {n : Names} (hn : ∀ m, names = some m → NamesNoNL m)
    (h : chooseNames c r names = .ok n) : NamesNoNL n := by
  cases names with
  | some m => simp [chooseNames] at h; subst h; exact hn _ rfl
  | none =>
    simp only [chooseNames, relation_names] at h
    obtain ⟨a, _, h⟩ := Out.bind_eq_ok.mp h
    unfold Names.generate at h
    obtain ⟨p, h1, h⟩ := Out.bind_eq_ok.mp h
    obtain ⟨i, h2, h⟩ := Out.bind_eq_ok.mp h
    obtain ⟨s, h3, h⟩ := Out.bind_eq_ok.mp h
    obtain ⟨l, h4, h⟩ := Out.bind_eq_ok.mp h
    obtain ⟨a, h5, h⟩ := Out.bind_eq_ok.mp h
    injection h with h
    subst h
    have key : ∀ {pre : Str} {n : Int} {s : Strings}, NoNL pre → Strings.generate pre n = .ok s → StringsNoNL (some s) := by
      intro pre n s hp hg a ha
      injection ha with ha
      subst ha
      exact generated_noNL hp hg
    exact ⟨key (by simp [NoNL]) h1, key (by simp [NoNL]) h2, key (by simp [NoNL]) h3, key (by simp [NoNL]) h4, key (by simp [NoNL]) h5⟩

/-- The whole printed text: the type, the number of parts if there are several, and the parts. -/
theorem spprint_text {c : Cfg} {p : Part} {r : Rel} {names : Option Names} {t : Str} (hs : Sized (p :: r))
    (hn : ∀ m, names = some m → NamesNoNL m) (h : spprint c (p :: r) names = .ok t) :
    ∃ cnt body, t = sprint_type p.type ++ '\n' :: (cnt ++ body) ∧ PartsText (p :: r) body ∧
      (r = [] ∧ cnt = [] ∨ r ≠ [] ∧ ∃ cm, CommentLine cm ∧ cnt = cm ++ (showNat (r.length + 1) ++ ['\n'])) := by
  unfold spprint at h
  obtain ⟨t1, h1, h⟩ := Out.bind_eq_ok.mp h
  have e := emit_ok h
  unfold spprint_polylib at h1
  obtain ⟨n, h2, h1⟩ := Out.bind_eq_ok.mp h1
  obtain ⟨parts, h3, h1⟩ := Out.bind_eq_ok.mp h1
  have e1 := emit_ok h1
  have hp := partsPieces_text (chooseNames_noNL hn h2) hs h3
  refine ⟨(if (p :: r).length > 1 then ["# Union with ".toList ++ showNat (p :: r).length ++ " parts\n".toList ++ showNat (p :: r).length ++ ['\n']] else []).flatten, parts.flatten, ?_, hp, ?_⟩
  · rw [e, e1]; simp
  · cases r with
    | nil => left; simp
    | cons q r =>
      right
      refine ⟨by simp, '#' :: (" Union with ".toList ++ showNat (q :: r).length.succ ++ " parts".toList) ++ ['\n'], .inr ⟨_, rfl, ?_⟩, ?_⟩
      · exact (NoNL.append (by simp [NoNL]) (noNL_showNat _)).append (by simp [NoNL])
      · simp

end Rel
end Osl
