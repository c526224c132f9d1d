import Verif.HeapPrint
import Verif.HeapQueryRelProps
import Verif.HeapReadLib
import Verif.IntProps
/-!
# Printing relations in memory (C74): the strings, the names and the expressions
-/

set_option linter.unusedSectionVars false

namespace Osl.Mem

/-! ## Loops -/

/-- A loop with a state which follows a loop on values. -/
theorem Triple.forNS {σ τ : Type} {body : Int → σ → M σ} {f : Int → τ → Out τ} {A : σ → τ → Assn}
    (step : ∀ i s t t', f i t = .ok t' → Triple (A s t) (body i s) (fun s' => A s' t')) : ∀ (n : Nat) (i : Int) (s : σ) (t t' : τ),
    Osl.loopN f n i t = .ok t' → Triple (A s t) (Mem.forNS body n i s) (fun s' => A s' t')
  | 0, i, s, t, t', h => by
    cases h
    exact Triple.ret (fun _ h => h)
  | n + 1, i, s, t, t', h => by
    simp only [Osl.loopN] at h
    cases hb : f i t with
    | ok t1 =>
      rw [hb] at h
      exact Triple.bind (step i s t t1 hb) (fun s1 => Triple.forNS step n (i + 1) s1 t1 t' h)
    | err => rw [hb] at h; cases h
    | ub => rw [hb] at h; cases h

/-- The indices of a loop. -/
def idx : Nat → Int → List Int
  | 0, _ => []
  | n + 1, i => i :: idx n (i + 1)

theorem idx_eq : ∀ (n : Nat) (i : Int), idx n i = (List.range n).map (fun k => i + Int.ofNat k)
  | 0, i => rfl
  | n + 1, i => by
    rw [List.range_succ_eq_map]
    simp only [idx, List.map_cons, List.map_map, idx_eq n (i + 1)]
    congr 1
    · simp
    · apply List.map_congr_left
      intro k _
      simp only [Function.comp, Int.ofNat_eq_natCast]
      omega

theorem upto_idx (n : Int) : Rel.upto n = idx n.toNat 0 := by
  rw [idx_eq]
  unfold Rel.upto
  apply List.map_congr_left
  intro k _
  simp

/-- A loop with a state which adds one element to a list at each turn. -/
theorem Triple.forNS_map {σ α : Type} {body : Int → σ → M σ} {f : Int → Out α} {A : σ → List α → Assn}
    (step : ∀ i s l a, f i = .ok a → Triple (A s l) (body i s) (fun s' => A s' (l ++ [a]))) : ∀ (n : Nat) (i : Int) (s : σ) (l l' : List α),
    Out.mapOut f (idx n i) = .ok l' → Triple (A s l) (Mem.forNS body n i s) (fun s' => A s' (l ++ l'))
  | 0, i, s, l, l', h => by
    cases h
    rw [List.append_nil]
    exact Triple.ret (fun _ h => h)
  | n + 1, i, s, l, l', h => by
    obtain ⟨a, l1, h1, h2, rfl⟩ := Out.mapOut_cons_eq_ok.mp h
    refine Triple.bind (step i s l a h1) (fun s1 => ?_)
    have := Triple.forNS_map step n (i + 1) s1 (l ++ [a]) l1 h2
    simpa using this

/-! ## Strings which grow -/

variable [Allocator]

/-- The memory of a growing string; the string and its final NUL fit in the buffer. -/
def bufAt (b : StrBuf) (t : Str) : Assn := pur (t.length < b.hwm) ∗ b.ptr ↦ .chars t

theorem bufAt_text {b : StrBuf} {t : Str} : ∀ h, bufAt b t h → (b.ptr ↦ .chars t) h := fun _ hh => (pur_sep_iff.mp hh).2

theorem bufNew_spec : Triple emp bufNew (fun b => bufAt b []) := by
  unfold bufNew
  refine Triple.bind (Triple.alloc _) (fun p => Triple.ret (fun h hh => pur_sep_iff.mpr ⟨?_, hh⟩))
  show 0 < MAX_STRING
  decide

/-- C74: `osl_util_safe_strcat` leaves the concatenation, in the same block or in a new one; then the old block is freed. -/
theorem safe_strcat_memory {b : StrBuf} {t src : Str} : Triple (bufAt b t) (bufCat b src) (fun b' => bufAt b' (t ++ src)) := by
  obtain ⟨r, h1, h2, h3, _⟩ := Util.safe_strcat_correct ⟨t, b.hwm⟩ src
  refine Triple.pre ?_ bufAt_text
  unfold bufCat
  hstep loadChars_spec
  hstep (lift_spec h1)
  dsimp only at h2
  rw [h2] at h3 ⊢
  by_cases hh : r.hwm = b.hwm
  · rw [if_pos hh]
    hstep Triple.store
    exact Triple.ret (fun h hx => pur_sep_iff.mpr ⟨by rw [← hh]; exact h3, hx⟩)
  · rw [if_neg hh]
    hstep Triple.free
    hstep Triple.alloc
    exact Triple.ret (fun h hx => pur_sep_iff.mpr ⟨h3, hx⟩)

theorem bufTake_spec {b : StrBuf} {t s : Str} {temp : Ptr} : Triple (bufAt b t ∗ temp ↦ .chars s) (bufTake b temp) (fun b' => bufAt b' (t ++ s)) := by
  unfold bufTake
  hstep (loadChars_spec (p := temp) (w := s))
  hstep safe_strcat_memory
  hstep (Triple.free (p := temp) (b := .chars s))
  hret

theorem bufCats_spec : ∀ {l : List Str} {b : StrBuf} {t : Str}, Triple (bufAt b t) (bufCats b l) (fun b' => bufAt b' (t ++ l.flatten))
  | [], b, t => by
    simp only [List.flatten_nil, List.append_nil]
    exact Triple.ret (fun _ h => h)
  | s :: l, b, t => by
    unfold bufCats
    refine Triple.bind safe_strcat_memory (fun b' => ?_)
    have := bufCats_spec (l := l) (b := b') (t := t ++ s)
    simpa using this

theorem bufExpr_spec {b : StrBuf} {t s pre : Str} {e : Ptr} :
    Triple (bufAt b t ∗ e ↦ .chars s) (bufExpr b pre e) (fun b' => bufAt b' (t ++ Rel.truncated (pre ++ s))) := by
  unfold bufExpr
  hstep (loadChars_spec (p := e) (w := s))
  hstep safe_strcat_memory
  hstep (Triple.free (p := e) (b := .chars s))
  hret

theorem writeFree_spec {p : Ptr} {s : Str} : Triple (p ↦ .chars s) (writeFree p) (fun r => pur (r = s)) := by
  unfold writeFree
  hstep loadChars_spec
  hstep Triple.free
  hret

/-! ## Reading a relation -/

theorem rect_get2 {mat : Matrix} {i j : Nat} (hi : i < mat.length) (hj : j < mat[i].length) :
    get2 mat i j = .ok mat[i][j] := by
  unfold get2
  rw [if_neg (by omega)]
  simp [List.getElem?_eq_getElem hi, List.getElem?_eq_getElem hj]

theorem hdrPart_hdr (a : Part) : hdrPart (hdr a) a.m = a := rfl

/-! ## Words of an array -/

/-- An array of strings, seen around one of them. -/
def arrFocus (a : Ptr) (ps1 ps2 : List Ptr) (q : Ptr) (ws1 ws2 : List Str) (w : Str) : Assn :=
  a ↦ .ptrs (ps1 ++ q :: (ps2 ++ [0])) ∗ q ↦ .chars w ∗ wordsAt ps1 ws1 ∗ wordsAt ps2 ws2

theorem arrayAt_focus {a : Ptr} {ws : List Str} {i : Nat} {w : Str} (hw : ws[i]? = some w) {h : PHeap} (hh : arrayAt a ws h) :
    ∃ ps1 ps2 q ws1 ws2, ps1.length = i ∧ ws1.length = i ∧ ws = ws1 ++ w :: ws2 ∧ arrFocus a ps1 ps2 q ws1 ws2 w h := by
  obtain ⟨ps, hh⟩ := hh
  have hl : ps.length = ws.length := by
    obtain ⟨_, _, _, _, _, h2⟩ := hh
    exact wordsAt_length h2
  obtain ⟨hi, rfl⟩ := List.getElem?_eq_some_iff.mp hw
  have hi' : i < ps.length := by omega
  refine ⟨ps.take i, ps.drop (i + 1), ps[i], ws.take i, ws.drop (i + 1), by simp; omega, by simp; omega, split_at hi, ?_⟩
  have e1 := split_at hi'
  have e2 := split_at hi
  have e3 : wordsAt ps ws = (ps[i] ↦ .chars ws[i] ∗ wordsAt (ps.take i) (ws.take i) ∗ wordsAt (ps.drop (i + 1)) (ws.drop (i + 1))) := by
    have := wordsAt_append (ps := ps.take i) (qs := ps[i] :: ps.drop (i + 1)) (ws := ws.take i) (vs := ws[i] :: ws.drop (i + 1)) (by simp; omega)
    rw [← e1, ← e2] at this
    rw [this]
    simp only [wordsAt]
    ac_rfl
  unfold arrFocus
  rw [← e3]
  have e4 : ps.take i ++ ps[i] :: (ps.drop (i + 1) ++ [0]) = ps ++ [0] := by
    have : ps ++ [0] = (ps.take i ++ ps[i] :: ps.drop (i + 1)) ++ [0] := by rw [← e1]
    rw [this]
    simp only [List.append_assoc, List.cons_append]
  rw [e4]
  exact hh

theorem arrFocus_close {a : Ptr} {ps1 ps2 : List Ptr} {q : Ptr} {ws1 ws2 : List Str} {w : Str} (hl : ps1.length = ws1.length) :
    ∀ h, arrFocus a ps1 ps2 q ws1 ws2 w h → arrayAt a (ws1 ++ w :: ws2) h := by
  intro h hh
  refine ⟨ps1 ++ q :: ps2, ?_⟩
  show (a ↦ .ptrs ((ps1 ++ q :: ps2) ++ [0]) ∗ wordsAt (ps1 ++ q :: ps2) (ws1 ++ w :: ws2)) h
  rw [wordsAt_append hl]
  simp only [wordsAt, List.append_assoc, List.cons_append]
  unfold arrFocus at hh
  exact hh.perm (by ac_rfl)

/-- A call which uses one string of an array. -/
theorem with_word {α : Type} {arr : Ptr} {ws : List Str} {i : Nat} {w : Str} (hw : ws[i]? = some w) {F : Assn} {f : Ptr → M α} {Q : α → Assn}
    (h : ∀ q, Triple (q ↦ .chars w ∗ F) (f q) (fun r => q ↦ .chars w ∗ Q r)) :
    Triple (arrayAt arr ws ∗ F) (getField arr i >>= f) (fun r => arrayAt arr ws ∗ Q r) := by
  refine Triple.opened (fun h0 hh => ?_)
  obtain ⟨ps1, ps2, q, ws1, ws2, h1, h2, rfl, hf⟩ := arrayAt_focus hw hh
  refine ⟨arrFocus arr ps1 ps2 q ws1 ws2 w, hf, ?_⟩
  hopen arrFocus
  hstep (getField_spec (p := arr) (nth_append_mid h1))
  have := h q
  hlast this
  refine Triple.ret (fun hp hh => ?_)
  refine sep_mono (P := arrFocus arr ps1 ps2 q ws1 ws2 w) (arrFocus_close (by omega)) (fun _ h => h) ?_
  unfold arrFocus
  exact hh.perm (by ac_rfl)

/-! ## Expressions -/

theorem relExprElement_spec {c : Cfg} {pr v : Int} {first first' cst : Bool} {name : Ptr} {w t : Str}
    (h : Rel.expression_element c pr v first cst w = .ok (t, first')) :
    Triple (name ↦ .chars w) (relExprElement c pr v first cst name) (fun r => pur (r.2 = first') ∗ name ↦ .chars w ∗ r.1 ↦ .chars t) := by
  unfold relExprElement
  hstep Triple.alloc
  hstep Triple.alloc
  hstep Triple.alloc
  hstep (loadChars_spec (p := name) (w := w))
  hstep (lift_spec h)
  hstep (Triple.store (p := sval))
  hstep (Triple.free (p := temp))
  hstep (Triple.free (p := body))
  hret

theorem oppose_oppose {c : Cfg} (hc : c.Valid) {p v w : Int} (hv : InPrec c p v) (h : OInt.oppose c p v = .ok w) : OInt.oppose c p w = .ok v := by
  unfold OInt.oppose InPrec at *
  cases hk : kind c p with
  | none => rw [hk] at h; cases h
  | some k =>
    cases k with
    | mp =>
      rw [hk] at h
      cases h
      simp
    | fixed n =>
      rw [hk] at h hv
      dsimp only at h hv ⊢
      have hw := kind_fixed hc hk
      by_cases hf : fits n (-v)
      · rw [sarith_of_fits hf] at h
        cases h
        rw [Int.neg_neg]
        exact sarith_of_fits hv
      · cases hq : c.wrapv with
        | false => rw [sarith_not_fits_iso hq hf] at h; cases h
        | true =>
          rw [sarith_wrapv hq hw] at h ⊢
          cases h
          rcases hw with rfl | rfl
          · simp only [fits, wrap, cMin, cMax] at *; congr 1; omega
          · simp only [fits, wrap, cMin, cMax] at *; congr 1; omega

theorem get2_set2 {mat : Matrix} {i j v : Int} (h : get2 mat i j = .ok v) (w : Int) :
    ∃ mat', set2 mat i j w = .ok mat' ∧ get2 mat' i j = .ok w ∧ set2 mat' i j v = .ok mat := by
  unfold get2 at h
  split at h
  · cases h
  · rename_i hn
    split at h
    · cases h
    · rename_i r e
      split at h
      · cases h
      · rename_i x ex
        cases h
        obtain ⟨h1, e1⟩ := List.getElem?_eq_some_iff.mp e
        obtain ⟨h2, e2⟩ := List.getElem?_eq_some_iff.mp ex
        refine ⟨mat.set i.toNat (r.set j.toNat w), ?_, ?_, ?_⟩
        · unfold set2
          rw [if_neg hn, e]
          simp [h2]
        · unfold get2
          rw [if_neg hn]
          simp [h1, h2]
        · subst e1
          subst e2
          unfold set2
          rw [if_neg hn]
          simp [h1, h2]

/-- The values of a matrix can be stored in its precision (specification). -/
def MatFits (c : Cfg) (p : Int) (m : Matrix) : Prop := ∀ row ∈ m, ∀ v ∈ row, InPrec c p v

theorem MatFits.get {c : Cfg} {p : Int} {m : Matrix} (h : MatFits c p m) {i j v : Int} (hv : get2 m i j = .ok v) : InPrec c p v := by
  unfold get2 at hv
  split at hv
  · cases hv
  · split at hv
    · cases hv
    · rename_i r e
      split at hv
      · cases hv
      · rename_i x ex
        cases hv
        exact h r (List.mem_of_getElem? e) _ (List.mem_of_getElem? ex)

theorem relOppose_spec {c : Cfg} {pr : Int} {m : Ptr} {R C row i v w : Int} {mat mat' : Matrix} (hv : get2 mat row i = .ok v) (ho : OInt.oppose c pr v = .ok w)
    (hs : set2 mat row i w = .ok mat') : Triple (matAt (kind c pr) m R C mat) (relOppose c pr m row i) (fun _ => matAt (kind c pr) m R C mat') := by
  unfold relOppose
  hstep (mat_get hv)
  hstep (lift_spec ho)
  hlast (mat_set hs)
  hret

/-- What is printed for one element of an expression, opposed or not. -/
def elemValue (c : Cfg) (pr : Int) (oppose : Bool) (v : Int) : Out Int := if oppose then OInt.oppose c pr v else .ok v

/-- One turn of the loop: the matrix is the same afterwards. -/
theorem relSubexprStep_spec {c : Cfg} (hc : c.Valid) {a : Part} (hm : MatFits c a.precision a.m) {m strings sline : Ptr} {row i : Int} {oppose first first' : Bool} {ws : List Str}
    {line t t' name : Str} {v w : Int} (hv : get2 a.m row i = .ok v) (hw : elemValue c a.precision oppose v = .ok w) (hn : Rel.strAt ws i = .ok name)
    (he : Rel.expression_element c a.precision w first (decide (i = a.nb_columns - 1)) name = .ok (t, first')) (hb : Rel.buffered (line ++ t) = .ok t') :
    Triple (matAt (kind c a.precision) m a.nb_rows a.nb_columns a.m ∗ arrayAt strings ws ∗ sline ↦ .chars line)
      (relSubexprStep c (hdr a) m row oppose strings sline i first)
      (fun r => pur (r = first') ∗ matAt (kind c a.precision) m a.nb_rows a.nb_columns a.m ∗ arrayAt strings ws ∗ sline ↦ .chars t') := by
  have hn' : ws[i.toNat]? = some name := by
    unfold Rel.strAt at hn
    split at hn
    · cases hn; assumption
    · cases hn
  have hin := hm.get hv
  unfold relSubexprStep
  have main : ∀ mat : Matrix, get2 mat row i = .ok w →
      Triple (matAt (kind c a.precision) m a.nb_rows a.nb_columns mat) (relOpposeIf c a.precision m oppose row i) (fun _ => matAt (kind c a.precision) m a.nb_rows a.nb_columns a.m) →
      Triple (matAt (kind c a.precision) m a.nb_rows a.nb_columns mat ∗ arrayAt strings ws ∗ sline ↦ .chars line)
        (do
          let v ← mget (kind c (hdr a).precision) m row i
          let name ← getField strings i.toNat
          let r ← relExprElement c (hdr a).precision v first (decide (i = (hdr a).nb_columns - 1)) name
          relOpposeIf c (hdr a).precision m oppose row i
          let s ← loadChars r.1
          let line ← loadChars sline
          let t ← lift (Rel.buffered (line ++ s))
          store sline (.chars t)
          free r.1
          pure r.2)
        (fun r => pur (r = first') ∗ matAt (kind c a.precision) m a.nb_rows a.nb_columns a.m ∗ arrayAt strings ws ∗ sline ↦ .chars t') := by
    intro mat h1 h2
    hstep (mat_get h1)
    have tail := with_word (arr := strings) (F := matAt (kind c a.precision) m a.nb_rows a.nb_columns mat ∗ sline ↦ .chars line) hn' (f := fun name => do
        let r ← relExprElement c (hdr a).precision w first (decide (i = (hdr a).nb_columns - 1)) name
        relOpposeIf c (hdr a).precision m oppose row i
        let s ← loadChars r.1
        let line ← loadChars sline
        let t ← lift (Rel.buffered (line ++ s))
        store sline (.chars t)
        free r.1
        pure r.2)
      (Q := fun r => pur (r = first') ∗ matAt (kind c a.precision) m a.nb_rows a.nb_columns a.m ∗ sline ↦ .chars t') (fun q => by
        have he' : Rel.expression_element c (hdr a).precision w first (decide (i = (hdr a).nb_columns - 1)) name = .ok (t, first') := he
        hstep (relExprElement_spec he')
        hstep h2
        hstep (loadChars_spec (p := r.1) (w := t))
        hstep (loadChars_spec (p := sline) (w := line))
        hstep (lift_spec hb)
        hstep (Triple.store (p := sline))
        hstep (Triple.free (p := r.1))
        hret)
    refine (tail.pre (fun h hh => hh.perm (by ac_rfl))).post (fun r h hh => hh.perm (by ac_rfl))
  cases oppose with
  | false =>
    have hw : Out.ok v = .ok w := hw
    cases hw
    refine Triple.bind (Q := fun _ => matAt (kind c a.precision) m a.nb_rows a.nb_columns a.m ∗ arrayAt strings ws ∗ sline ↦ .chars line) (Triple.ret (fun _ h => h)) (fun _ => ?_)
    exact main a.m hv (Triple.ret (fun _ h => h))
  | true =>
    have hw : OInt.oppose c a.precision v = .ok w := hw
    obtain ⟨mat', s1, s2, s3⟩ := get2_set2 hv w
    have o1 : Triple (matAt (kind c a.precision) m a.nb_rows a.nb_columns a.m) (relOpposeIf c (hdr a).precision m true row i) (fun _ => matAt (kind c a.precision) m a.nb_rows a.nb_columns mat') :=
      relOppose_spec hv hw s1
    hstep o1
    exact main mat' s2 (relOppose_spec s2 (oppose_oppose hc hin hw) s3)

/-- C74: `osl_relation_subexpression` gives a new string; the matrix, in which it opposes coefficients, is unchanged afterwards. -/
theorem subexpression_memory {c : Cfg} (hc : c.Valid) {a : Part} (hm : MatFits c a.precision a.m) {m strings : Ptr} {row start stop : Int} {oppose : Bool} {ws : List Str} {t : Str}
    (h : Rel.subexpression c a row start stop oppose ws = .ok t) :
    Triple (matAt (kind c a.precision) m a.nb_rows a.nb_columns a.m ∗ arrayAt strings ws) (relSubexpr c (hdr a) m row start stop oppose strings)
      (fun q => matAt (kind c a.precision) m a.nb_rows a.nb_columns a.m ∗ arrayAt strings ws ∗ q ↦ .chars t) := by
  unfold Rel.subexpression at h
  obtain ⟨⟨s, f⟩, h1, h⟩ := Out.bind_eq_ok.mp h
  cases h
  unfold relSubexpr
  hstep Triple.alloc
  have loop := Triple.forNS (A := fun (first : Bool) (x : Str × Bool) => pur (first = x.2) ∗ matAt (kind c a.precision) m a.nb_rows a.nb_columns a.m ∗ arrayAt strings ws ∗ sline ↦ .chars x.1)
    (body := relSubexprStep c (hdr a) m row oppose strings sline) (f := _) (fun i first x x' hx => by
      refine Triple.fact (fun hf => ?_)
      subst hf
      obtain ⟨v, hv, hx⟩ := Out.bind_eq_ok.mp hx
      have hx : (elemValue c a.precision oppose v >>= fun v => do
          let name ← Rel.strAt ws i
          let (t, first) ← Rel.expression_element c a.precision v x.2 (decide (i = a.nb_columns - 1)) name
          let line ← Rel.buffered (x.1 ++ t)
          return (line, first)) = .ok x' := by
        rw [← hx]
        cases oppose <;> rfl
      obtain ⟨w, hw, hx⟩ := Out.bind_eq_ok.mp hx
      obtain ⟨name, hn, hx⟩ := Out.bind_eq_ok.mp hx
      obtain ⟨⟨t1, f1⟩, he, hx⟩ := Out.bind_eq_ok.mp hx
      obtain ⟨t2, hb, hx⟩ := Out.bind_eq_ok.mp hx
      cases hx
      exact relSubexprStep_spec hc hm hv hw hn he hb) _ _ true _ _ h1
  show Triple _ (Mem.forNS _ _ _ _ >>= _) _
  hstep loop
  hret

end Osl.Mem
