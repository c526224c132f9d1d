import Verif.HeapScoplib
import Verif.HeapPrintTopProps3
/-!
# Printing in the SCoPLib format in memory (C79): relations
-/

set_option linter.unusedSectionVars false

namespace Osl.Mem

variable [Allocator]

/-! ## What is added to a string -/

/-- `f` adds the text `s` to a string, and keeps `F`. -/
def Adds (F : Assn) (f : StrBuf → M StrBuf) (s : Str) : Prop := ∀ b t, Triple (F ∗ bufAt b t) (f b) (fun b' => F ∗ bufAt b' (t ++ s))

theorem Adds.cat {F : Assn} {s : Str} : Adds F (fun b => bufCat b s) s := fun _ _ => safe_strcat_memory.withF

theorem Adds.cats {F : Assn} {l : List Str} : Adds F (fun b => bufCats b l) l.flatten := fun _ _ => bufCats_spec.withF

theorem Adds.none {F : Assn} : Adds F (fun b => pure b) [] := fun b t => by
  rw [List.append_nil]
  exact Triple.ret (fun _ h => h)

theorem Adds.bind {F : Assn} {f g : StrBuf → M StrBuf} {s u : Str} (hf : Adds F f s) (hg : Adds F g u) : Adds F (fun b => f b >>= g) (s ++ u) := fun b t => by
  refine Triple.bind (hf b t) (fun b1 => ?_)
  have := hg b1 (t ++ s)
  rwa [List.append_assoc] at this

theorem Adds.text {F : Assn} {f : StrBuf → M StrBuf} {s u : Str} (hf : Adds F f s) (h : s = u) : Adds F f u := h ▸ hf

/-- With more memory. -/
theorem Adds.frame {P F R : Assn} {f : StrBuf → M StrBuf} {s : Str} (hf : Adds P f s) (h : F = (P ∗ R)) : Adds F f s := fun b t => by
  subst h
  exact Triple.last (hf b t) (F := R) (by ac_rfl) (fun b' h hh => hh.perm (by ac_rfl))

theorem between_idx (lo hi : Int) : Rel.between lo hi = idx (hi - lo).toNat lo := by
  unfold Rel.between
  rw [upto_idx, idx_eq, idx_eq, List.map_map]
  apply List.map_congr_left
  intro k _
  simp [Function.comp]

/-- A loop which adds a text at each turn. -/
theorem Adds.loop {F : Assn} {f : Int → StrBuf → M StrBuf} {g : Int → Out (List Str)} {lo hi : Int} {l : List (List Str)} (hf : ∀ i s, g i = .ok s → Adds F (f i) s.flatten)
    (h : Out.mapOut g (Rel.between lo hi) = .ok l) : Adds F (fun b => forS lo hi f b) l.flatten.flatten := fun b t => by
  rw [between_idx] at h
  have loop := Triple.forNS_map (A := fun (b : StrBuf) (l : List (List Str)) => F ∗ bufAt b (t ++ l.flatten.flatten)) (body := f) (f := g) (fun i b l x hx => by
      have := hf i x hx b (t ++ l.flatten.flatten)
      simpa using this) (hi - lo).toNat lo b [] l h
  simp only [List.flatten_nil, List.append_nil, List.nil_append] at loop
  exact loop

theorem upto_between (n : Int) : Rel.upto n = Rel.between 0 n := by
  rw [between_idx, upto_idx, Int.sub_zero]

/-! ## Rows -/

section

variable {c : Cfg} {p : Ptr} {a : Part} {m n : Ptr} {rest : Rel} {strings : Ptr} {ws : List Str} {v : Nat → Ptr} {names : Ptr} {nm : Names}

theorem printAt_mat : printAt c p a m n rest strings ws v names nm = (partMat c m a ∗ (p ↦ .rel (hdr a) m n ∗ relAt c n rest ∗ arrayAt strings ws ∗ namesPin v names nm)) := by
  unfold printAt
  ac_rfl

theorem printAt_array : printAt c p a m n rest strings ws v names nm = (arrayAt strings ws ∗ (p ↦ .rel (hdr a) m n ∗ partMat c m a ∗ relAt c n rest ∗ namesPin v names nm)) := by
  unfold printAt
  ac_rfl

theorem cell_adds {i j : Int} {l : List Str} (h : Rel.cellPieces c a i j = .ok l) : Adds (partMat c m a) (fun b => relPrintCell c (hdr a) m i j b) l.flatten := fun b t => by
  unfold Rel.cellPieces at h
  obtain ⟨x, h1, h⟩ := Out.bind_eq_ok.mp h
  obtain ⟨u, h2, h⟩ := Out.bind_eq_ok.mp h
  obtain ⟨u', h3, h⟩ := Out.bind_eq_ok.mp h
  cases h
  have := relPrintCell_spec (m := m) (b := b) (t := t) h1 h2 h3
  simpa using this

theorem scFirst_adds {access : Bool} {start i : Int} {l : List Str} (h : Rel.firstPieces c a access start i = .ok l) :
    Adds (partMat c m a) (fun b => scFirst c (hdr a) m access start i b) l.flatten := by
  unfold Rel.firstPieces at h
  unfold scFirst
  cases access with
  | false => exact cell_adds h
  | true =>
    rw [if_neg (by simp)] at h
    by_cases hi : i = start
    · rw [if_pos hi] at h
      simp only [hi, if_true]
      exact cell_adds h
    · rw [if_neg hi] at h
      cases h
      simp only [hi, if_false]
      exact Adds.cats

theorem scCell_adds {access : Bool} {zero : Str} {i j : Int} {l : List Str} (h : Rel.accessPieces c a access zero i j = .ok l) :
    Adds (partMat c m a) (fun b => scCell c (hdr a) m access zero i j b) l.flatten := by
  unfold Rel.accessPieces at h
  unfold scCell
  by_cases hi : (access && decide (a.nb_rows = 1) && decide (j = a.nb_columns - 1)) = true
  · rw [if_pos hi] at h
    cases h
    have hi' : (access && decide ((hdr a).nb_rows = 1) && decide (j = (hdr a).nb_columns - 1)) = true := hi
    simp only [hi', if_true]
    exact Adds.cat.text (by simp)
  · rw [if_neg hi] at h
    have hi' : ¬ (access && decide ((hdr a).nb_rows = 1) && decide (j = (hdr a).nb_columns - 1)) = true := hi
    simp only [hi', if_false]
    exact cell_adds h

theorem scRest_adds {access fake : Bool} {i : Int} {l : List Str} (h : Rel.restPieces c a access fake i = .ok l) :
    Adds (partMat c m a) (fun b => scRest c (hdr a) m access fake i b) l.flatten := by
  unfold Rel.restPieces at h
  unfold scRest
  by_cases ht : a.type = TYPE_DOMAIN
  · rw [if_pos ht] at h
    obtain ⟨x, h1, h⟩ := Out.bind_eq_ok.mp h
    obtain ⟨y, h2, h⟩ := Out.bind_eq_ok.mp h
    cases h
    have ht' : (hdr a).type = TYPE_DOMAIN := ht
    simp only [ht', if_true]
    exact (Adds.bind (Adds.loop (fun j s hs => cell_adds hs) h1) (Adds.loop (fun j s hs => cell_adds hs) h2)).text (by simp)
  · rw [if_neg ht] at h
    obtain ⟨x, h1, h⟩ := Out.bind_eq_ok.mp h
    obtain ⟨y, h2, h⟩ := Out.bind_eq_ok.mp h
    cases h
    have ht' : ¬ (hdr a).type = TYPE_DOMAIN := ht
    simp only [ht', if_false]
    exact (Adds.bind (Adds.loop (fun j s hs => scCell_adds hs) h1) (Adds.bind Adds.cats (Adds.loop (fun j s hs => scCell_adds hs) h2))).text (by simp)

/-- The comment and the end of the line. -/
theorem scComment_adds (hc : c.Valid) (hm : MatFits c a.precision a.m) {i : Int} {comment : Str} (h2 : Rel.rowComment c a rest i ws nm = .ok comment) :
    Adds (printAt c p a m n rest strings ws v names nm) (fun b => scComment c p (hdr a) m strings names i b) (comment ++ ['\n']) := fun b1 t => by
  unfold Rel.rowComment at h2
  split at h2
  · rename_i s hs
    have tail := names_arrays (v := v) (names := names) hs (F := bufAt b1 t ∗ p ↦ .rel (hdr a) m n ∗ partMat c m a ∗ relAt c n rest ∗ arrayAt strings ws)
      (f := fun arrays => do
        let comment ← relComment c p (hdr a) m i strings arrays
        let b ← bufTake b1 comment.ptr
        bufCat b ['\n'])
      (Q := fun b' => bufAt b' (t ++ (comment ++ ['\n'])) ∗ p ↦ .rel (hdr a) m n ∗ partMat c m a ∗ relAt c n rest ∗ arrayAt strings ws)
      (fun arrays => by
        have h3 := sprint_comment_memory (p := p) (m := m) (n := n) (strings := strings) (arrays := arrays) (arrs := s.string) hc hm h2
        refine Triple.bind (Q := fun b2 => (rowAt c p a m n rest strings ws arrays s.string ∗ bufAt b2 comment) ∗ bufAt b1 t) ?_ (fun b2 => ?_)
        · refine (h3.frame (bufAt b1 t)).pre (fun h hh => ?_)
          unfold rowAt
          exact hh.perm (by ac_rfl)
        · hopen rowAt
          refine Triple.bind (Q := fun b3 => bufAt b3 (t ++ comment) ∗ p ↦ .rel (hdr a) m n ∗ partMat c m a ∗ relAt c n rest ∗ arrayAt strings ws ∗ stringAt arrays s.string) ?_ (fun b3 => ?_)
          · have := bufTake_spec (b := b1) (t := t) (s := comment) (temp := b2.ptr)
            hconv (bufAt_text (b := b2))
            hlast this
            hret
          · hlast safe_strcat_memory
            rw [List.append_assoc]
            hret)
    refine Triple.conseq tail (fun h hh => ?_) (fun b' h hh => ?_)
    · unfold printAt at hh
      exact hh.perm (by ac_rfl)
    · unfold printAt
      exact hh.perm (by ac_rfl)
  · cases h2

theorem scRow_adds (hc : c.Valid) (hm : MatFits c a.precision a.m) {access fake : Bool} {start i : Int} {l : List Str}
    (h : Rel.rowPiecesScoplib c a rest ws nm access fake start i = .ok l) :
    Adds (printAt c p a m n rest strings ws v names nm) (fun b => scRow c p (hdr a) m strings names access fake start i b) l.flatten := by
  unfold Rel.rowPiecesScoplib at h
  obtain ⟨x, h1, h⟩ := Out.bind_eq_ok.mp h
  obtain ⟨y, h2, h⟩ := Out.bind_eq_ok.mp h
  obtain ⟨comment, h3, h⟩ := Out.bind_eq_ok.mp h
  cases h
  unfold scRow
  exact (Adds.bind ((scFirst_adds h1).frame printAt_mat) (Adds.bind ((scRest_adds h2).frame printAt_mat) (scComment_adds hc hm h3))).text (by simp)

theorem mapOut_ok {α β : Type} (f : α → β) : ∀ l : List α, Out.mapOut (fun x => Out.ok (f x)) l = .ok (l.map f)
  | [] => rfl
  | x :: l => by
    refine Out.mapOut_cons_eq_ok.mpr ⟨f x, l.map f, rfl, mapOut_ok f l, rfl⟩

theorem scFakeRow_adds {F : Assn} {i : Nat} : Adds F (fun b => scFakeRow (hdr a) i b) (Rel.fakeRow a i).flatten := by
  unfold scFakeRow Rel.fakeRow
  have h1 : Out.mapOut (fun j : Int => Out.ok [if j = 1 ∧ i = 0 then "   1 ".toList else "   0 ".toList]) (Rel.between 0 a.nb_columns) = .ok _ := mapOut_ok _ _
  have := Adds.loop (F := F) (f := fun j b => bufCat b (if j = 1 ∧ (i : Int) = 0 then "   1 ".toList else "   0 ".toList)) (fun j s hs => by
    cases hs
    have e : ((i : Int) = 0) = (i = 0) := by apply propext; omega
    simp only [e]
    exact Adds.cat.text (by simp)) h1
  refine (Adds.bind this Adds.cat).text ?_
  rw [upto_between]
  generalize Rel.between 0 a.nb_columns = k
  simp only [List.flatten_append, List.flatten_cons, List.flatten_nil, List.append_nil]
  congr 1
  induction k with
  | nil => rfl
  | cons x k ih =>
    simp only [List.map_cons, List.flatten_cons, List.flatten_append, List.flatten_nil, List.append_nil] at ih ⊢
    rw [ih]

/-! ## The loop on the rows -/

/-- Without a fake iterator, or for a relation which is not a scattering. -/
theorem scRows_plain (hc : c.Valid) (hm : MatFits c a.precision a.m) {access fake : Bool} (hf : ¬ (fake && decide (a.type = TYPE_SCATTERING)) = true) {start : Int} :
    ∀ (k : Nat) (f : Nat) (i : Int) (l : List (List Str)), a.nb_rows - i ≤ k → k ≤ f → (k : Int) ≤ (a.nb_rows - i).toNat →
    Out.mapOut (Rel.rowPiecesScoplib c a rest ws nm access fake start) (idx k i) = .ok l →
    Adds (printAt c p a m n rest strings ws v names nm) (fun b => scRows c p (hdr a) m strings names access fake start f i b) l.flatten.flatten
  | 0, f, i, l, h1, h2, h3, h => by
    cases h
    have hi : ¬ i < (hdr a).nb_rows := by
      show ¬ i < a.nb_rows
      omega
    cases f with
    | zero =>
      unfold scRows
      simp only [hi, if_false]
      exact Adds.none
    | succ f =>
      unfold scRows
      simp only [hi, if_false]
      exact Adds.none
  | k + 1, 0, i, l, h1, h2, h3, h => by omega
  | k + 1, f + 1, i, l, h1, h2, h3, h => by
    obtain ⟨x, l1, g1, g2, rfl⟩ := Out.mapOut_cons_eq_ok.mp h
    have hi : i < (hdr a).nb_rows := by
      show i < a.nb_rows
      omega
    unfold scRows
    simp only [hi, if_true]
    have ih := scRows_plain hc hm hf (start := start) (access := access) k f (i + 1) l1 (by omega) (by omega) (by omega) g2
    refine (Adds.bind (scRow_adds hc hm g1) (g := fun b => scAfter (hdr a) fake i b >>= fun r => scRows c p (hdr a) m strings names access fake start f (r.1 + 1) r.2) (u := l1.flatten.flatten) ?_).text (by simp)
    have hn : ¬ (decide ((hdr a).nb_rows > 0) && fake && decide ((hdr a).type = TYPE_SCATTERING)) = true := by
      intro hx
      apply hf
      simp only [Bool.and_eq_true] at hx ⊢
      exact ⟨hx.1.2, hx.2⟩
    intro b t
    dsimp only
    unfold scAfter
    rw [if_neg hn]
    refine Triple.bind (Q := fun r => pur (r = (i, b)) ∗ printAt c p a m n rest strings ws v names nm ∗ bufAt b t) (Triple.ret (fun h hh => pur_sep_iff.mpr ⟨rfl, hh⟩)) (fun r => Triple.fact (fun hr => ?_))
    subst hr
    exact ih b t

/-- With a fake iterator: one row, the two rows of the fake iterator, and the loop ends. -/
theorem scRows_fake (hc : c.Valid) (hm : MatFits c a.precision a.m) (ht : a.type = TYPE_SCATTERING) {l : List Str} (h : Rel.fakeRows c a rest ws nm false = .ok l) :
    Adds (printAt c p a m n rest strings ws v names nm) (fun b => scRows c p (hdr a) m strings names false true 0 a.nb_rows.toNat 0 b) l.flatten := by
  unfold Rel.fakeRows at h
  by_cases h0 : a.nb_rows ≤ 0
  · rw [if_pos h0] at h
    cases h
    have e : a.nb_rows.toNat = 0 := by omega
    rw [e]
    unfold scRows
    have hi : ¬ (0 : Int) < (hdr a).nb_rows := by
      show ¬ (0 : Int) < a.nb_rows
      omega
    simp only [hi, if_false]
    exact Adds.none
  · rw [if_neg h0] at h
    by_cases h3 : a.nb_rows > 3
    · rw [if_pos h3] at h
      cases h
    · rw [if_neg h3] at h
      obtain ⟨x, h1, h⟩ := Out.bind_eq_ok.mp h
      cases h
      obtain ⟨f, hf⟩ : ∃ f, a.nb_rows.toNat = f + 1 := ⟨a.nb_rows.toNat - 1, by omega⟩
      rw [hf]
      unfold scRows
      have hi : (0 : Int) < (hdr a).nb_rows := by
        show (0 : Int) < a.nb_rows
        omega
      simp only [hi, if_true]
      refine (Adds.bind (scRow_adds hc hm h1) (g := fun b => scAfter (hdr a) true 0 b >>= fun r => scRows c p (hdr a) m strings names false true 0 f (r.1 + 1) r.2)
        (u := (Rel.fakeRow a 0).flatten ++ (Rel.fakeRow a 1).flatten) ?_).text (by simp)
      have hn : (decide ((hdr a).nb_rows > 0) && true && decide ((hdr a).type = TYPE_SCATTERING)) = true := by
        simp only [Bool.and_eq_true, decide_eq_true_eq]
        exact ⟨⟨hi, trivial⟩, ht⟩
      intro b t
      have a0 := scFakeRow_adds (a := a) (F := printAt c p a m n rest strings ws v names nm) (i := 0)
      have a1 := scFakeRow_adds (a := a) (F := printAt c p a m n rest strings ws v names nm) (i := 1)
      have after : Triple (printAt c p a m n rest strings ws v names nm ∗ bufAt b t) (scAfter (hdr a) true 0 b)
          (fun r => pur (r.1 = 2) ∗ printAt c p a m n rest strings ws v names nm ∗ bufAt r.2 (t ++ ((Rel.fakeRow a 0).flatten ++ (Rel.fakeRow a 1).flatten))) := by
        unfold scAfter
        rw [if_pos hn]
        refine Triple.bind (a0 b t) (fun b1 => Triple.bind (a1 b1 _) (fun b2 => Triple.ret (fun h hh => pur_sep_iff.mpr ⟨rfl, ?_⟩)))
        rwa [List.append_assoc] at hh
      refine Triple.bind after (fun r => Triple.fact (fun hr => ?_))
      rw [hr]
      have hi2 : ¬ (2 + 1 : Int) < (hdr a).nb_rows := by
        show ¬ (2 + 1 : Int) < a.nb_rows
        omega
      cases f with
      | zero =>
        unfold scRows
        rw [if_neg hi2]
        exact Triple.ret (fun _ h => h)
      | succ f =>
        unfold scRows
        rw [if_neg hi2]
        exact Triple.ret (fun _ h => h)

theorem scStart_eq (a : Part) (access : Bool) : scStart (hdr a) access = Rel.startRow a access := rfl

theorem scRows_adds (hc : c.Valid) (hm : MatFits c a.precision a.m) {access fake : Bool} {l : List Str} (h : Rel.rowsPieces c a rest ws nm access fake = .ok l) :
    Adds (printAt c p a m n rest strings ws v names nm)
      (fun b => scRows c p (hdr a) m strings names access fake (scStart (hdr a) access) (hdr a).nb_rows.toNat (scStart (hdr a) access) b) l.flatten := by
  rw [scStart_eq]
  unfold Rel.rowsPieces at h
  by_cases hf : (fake && decide (a.type = TYPE_SCATTERING)) = true
  · rw [if_pos hf] at h
    simp only [Bool.and_eq_true, decide_eq_true_eq] at hf
    obtain ⟨rfl, ht⟩ := hf
    cases access with
    | true => cases h
    | false => exact scRows_fake hc hm ht h
  · rw [if_neg hf] at h
    obtain ⟨x, h1, h⟩ := Out.bind_eq_ok.mp h
    cases h
    rw [between_idx] at h1
    have hs : 0 ≤ Rel.startRow a access := by
      unfold Rel.startRow
      split
      · omega
      · split <;> omega
    exact scRows_plain hc hm hf (start := Rel.startRow a access) (a.nb_rows - Rel.startRow a access).toNat (hdr a).nb_rows.toNat (Rel.startRow a access) x (by omega)
      (by show _ ≤ a.nb_rows.toNat; omega) (by omega) h1

end

end Osl.Mem
