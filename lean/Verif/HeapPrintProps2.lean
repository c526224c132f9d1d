import Verif.HeapPrintProps
/-!
# Printing relations in memory (C74): the comments
-/

set_option linter.unusedSectionVars false

namespace Osl.Mem

variable [Allocator]

theorem matAt_ne {k : Option Kind} {m : Ptr} {R C i j v : Int} {mat : Matrix} (hv : get2 mat i j = .ok v) : ∀ h, matAt k m R C mat h → m ≠ 0 := by
  intro h hh
  obtain ⟨b1, b2, b3, b4, _⟩ := get2_bounds (matAt_rect hh) hv
  unfold matAt at hh
  rw [pur_sep_iff, if_neg (by omega)] at hh
  obtain ⟨_, q, cells, hh⟩ := hh
  exact pto_ne_sep _ hh

/-- The memory of the matrix of a part. -/
def partMat (c : Cfg) (m : Ptr) (a : Part) : Assn := matAt (kind c a.precision) m a.nb_rows a.nb_columns a.m

theorem part_get {c : Cfg} {m : Ptr} {a : Part} {i j v : Int} (hv : get2 a.m i j = .ok v) :
    Triple (partMat c m a) (mget (kind c (hdr a).precision) m i j) (fun r => pur (r = v) ∗ partMat c m a) := mat_get hv

theorem relSimpleLoop_spec {c : Cfg} {a : Part} {m : Ptr} {row : Int} : ∀ {n : Nat} {i : Int} {first : Bool} {sign s : Int},
    Rel.simpleLoop c a row n i first sign = .ok s → Triple (partMat c m a) (relSimpleLoop c (hdr a) m row n i first sign) (fun r => pur (r = s) ∗ partMat c m a)
  | 0, i, first, sign, s, h => by
    cases h
    exact Triple.ret (fun h hh => pur_sep_iff.mpr ⟨rfl, hh⟩)
  | n + 1, i, first, sign, s, h => by
    unfold Rel.simpleLoop at h
    unfold relSimpleLoop
    split at h
    · rename_i v hv
      hstep (part_get hv)
      split at h
      · rename_i z o mo hz ho hmo
        have hz : OInt.zero c (hdr a).precision v = .ok z := hz
        have ho : OInt.one c (hdr a).precision v = .ok o := ho
        have hmo : OInt.mone c (hdr a).precision v = .ok mo := hmo
        hstep (lift_spec hz)
        cases z with
        | true => exact relSimpleLoop_spec h
        | false =>
          cases first with
          | false =>
            cases h
            exact Triple.ret (fun h hh => pur_sep_iff.mpr ⟨rfl, hh⟩)
          | true =>
            show Triple _ (lift (OInt.one c (hdr a).precision v) >>= _) _
            hstep (lift_spec ho)
            cases o with
            | true => exact relSimpleLoop_spec h
            | false =>
              show Triple _ (lift (OInt.mone c (hdr a).precision v) >>= _) _
              hstep (lift_spec hmo)
              cases mo with
              | true => exact relSimpleLoop_spec h
              | false =>
                cases h
                exact Triple.ret (fun h hh => pur_sep_iff.mpr ⟨rfl, hh⟩)
      · cases h
    · cases h
    · cases h

/-- C74: `osl_relation_is_simple_output` changes nothing. -/
theorem simple_output_memory {c : Cfg} {a : Part} {m : Ptr} {row s : Int} (h : Rel.is_simple_output c a row = .ok s) :
    Triple (partMat c m a) (relSimple c (hdr a) m row) (fun r => pur (r = s) ∗ partMat c m a) := by
  unfold Rel.is_simple_output at h
  unfold relSimple
  by_cases h0 : a.nb_output_dims = 0
  · rw [if_pos h0] at h
    cases h
    have h0' : m = 0 ∨ (hdr a).nb_output_dims = 0 := Or.inr h0
    rw [if_pos h0']
    exact Triple.ret (fun h hh => pur_sep_iff.mpr ⟨rfl, hh⟩)
  · rw [if_neg h0] at h
    by_cases h1 : row < 0 ∨ row > a.nb_rows
    · rw [if_pos h1] at h; cases h
    · rw [if_neg h1] at h
      obtain ⟨v, hv, h⟩ := Out.bind_eq_ok.mp h
      obtain ⟨z, hz, h⟩ := Out.bind_eq_ok.mp h
      refine Triple.of_fact (φ := m ≠ 0) (matAt_ne hv) (fun hm => ?_)
      rw [if_neg (by rintro (h | h); exact hm h; exact h0 h)]
      have h1' : ¬ (row < 0 ∨ row > (hdr a).nb_rows) := h1
      rw [if_neg h1']
      hstep (part_get hv)
      have hz : OInt.zero c (hdr a).precision v = .ok z := hz
      hstep (lift_spec hz)
      cases z with
      | true => exact relSimpleLoop_spec h
      | false =>
        cases h
        exact Triple.ret (fun h hh => pur_sep_iff.mpr ⟨rfl, hh⟩)

theorem access_hdr (a : Part) : Rel.isAccessPart (hdrPart (hdr a) []) = Rel.isAccessPart a := rfl

theorem relNotArray_spec {c : Cfg} {a : Part} {m : Ptr} {row v : Int} {z : Bool} (hv : get2 a.m row 1 = .ok v) (hz : OInt.zero c a.precision v = .ok z) :
    Triple (partMat c m a) (relNotArray c (hdr a) m row) (fun r => pur (r = (!Rel.isAccessPart a || z)) ∗ partMat c m a) := by
  unfold relNotArray
  rw [access_hdr]
  cases Rel.isAccessPart a with
  | false => exact Triple.ret (fun h hh => pur_sep_iff.mpr ⟨rfl, hh⟩)
  | true =>
    simp only [if_true]
    hstep (part_get hv)
    hlast (lift_spec (x := OInt.zero c (hdr a).precision v) hz)
    hret

theorem relSign_spec {c : Cfg} {a : Part} {m : Ptr} {row v : Int} {z : Bool} (hv : get2 a.m row 0 = .ok v) (hz : OInt.zero c a.precision v = .ok z) :
    Triple (partMat c m a) (relSign c (hdr a) m row) (fun r => pur (r = if z then " == 0".toList else " >= 0".toList) ∗ partMat c m a) := by
  unfold relSign
  hstep (part_get hv)
  hstep (lift_spec (x := OInt.zero c (hdr a).precision v) hz)
  hret

/-- What the comment of a row needs: the union from the part on, the names of the columns and those of the arrays. -/
def rowAt (c : Cfg) (p : Ptr) (a : Part) (m n : Ptr) (rest : Rel) (strings : Ptr) (ws : List Str) (arrays : Ptr) (arrs : Option (List Str)) : Assn :=
  p ↦ .rel (hdr a) m n ∗ partMat c m a ∗ relAt c n rest ∗ arrayAt strings ws ∗ stringAt arrays arrs

section

variable {c : Cfg} {p : Ptr} {a : Part} {m n : Ptr} {rest : Rel} {strings : Ptr} {ws : List Str} {arrays : Ptr} {arrs : Option (List Str)}

theorem row_subexpr (hc : c.Valid) (hm : MatFits c a.precision a.m) {row start stop : Int} {oppose : Bool} {t : Str}
    (h : Rel.subexpression c a row start stop oppose ws = .ok t) :
    Triple (rowAt c p a m n rest strings ws arrays arrs) (relSubexpr c (hdr a) m row start stop oppose strings)
      (fun q => rowAt c p a m n rest strings ws arrays arrs ∗ q ↦ .chars t) := by
  unfold rowAt partMat
  hlast (subexpression_memory hc hm h)
  hret

theorem row_array_id {id : Int} (h : Rel.get_array_id c (a :: rest) = .ok id) : Query (rowAt c p a m n rest strings ws arrays arrs) (relArrayId c p) id :=
  (relation_get_array_id_query h).mono (fun h hh => by
    unfold rowAt at hh
    have : (((p ↦ .rel (hdr a) m n ∗ partMat c m a) ∗ relAt c n rest) ∗ (arrayAt strings ws ∗ stringAt arrays arrs)) h := hh.perm (by ac_rfl)
    refine sep_mono (fun _ hx => ?_) (fun _ _ => trivial) this
    rw [relAt_open]
    exact ⟨n, m, hx⟩)

theorem relRhs_spec (hc : c.Valid) (hm : MatFits c a.precision a.m) {row sign v : Int} {z : Bool} {b : StrBuf} {t u : Str} (hv : get2 a.m row 1 = .ok v)
    (hz : OInt.zero c a.precision v = .ok z)
    (h : (if !Rel.isAccessPart a || z then Rel.subexpression c a row (a.nb_output_dims + 1) (a.nb_columns - 1) (decide (sign > 0)) ws
      else Rel.get_array_id c (a :: rest) >>= fun id => if id < 1 then .ub else Rel.nameAt (some ⟨arrs⟩) (id - 1)) = .ok u) :
    Triple (rowAt c p a m n rest strings ws arrays arrs ∗ bufAt b t) (relRhs c p (hdr a) m row sign strings arrays b)
      (fun b' => rowAt c p a m n rest strings ws arrays arrs ∗ bufAt b' (t ++ Rel.truncated (" == ".toList ++ u))) := by
  unfold relRhs
  have e1 : Triple (rowAt c p a m n rest strings ws arrays arrs) (relNotArray c (hdr a) m row)
      (fun r => pur (r = (!Rel.isAccessPart a || z)) ∗ rowAt c p a m n rest strings ws arrays arrs) := by
    unfold rowAt
    hlast (relNotArray_spec hv hz)
    hret
  hstep e1
  by_cases hx : (!Rel.isAccessPart a || z) = true
  · rw [if_pos hx] at h ⊢
    have h : Rel.subexpression c a row ((hdr a).nb_output_dims + 1) ((hdr a).nb_columns - 1) (decide (sign > 0)) ws = .ok u := h
    hstep (row_subexpr hc hm h)
    hlast bufExpr_spec
    hret
  · rw [if_neg hx] at h ⊢
    obtain ⟨id, hid, h⟩ := Out.bind_eq_ok.mp h
    split at h
    · cases h
    · rename_i hlt
      hstep ((row_array_id hid).triple)
      rw [if_neg hlt]
      hstep (lift_spec (x := .ok ()) rfl)
      have hs : ∃ l, arrs = some l ∧ l[(id - 1).toNat]? = some u := by
        unfold Rel.nameAt at h
        split at h
        · rename_i l heq
          injection heq with heq
          injection heq with heq
          split at h
          · rename_i w hw
            cases h
            exact ⟨l, heq, hw⟩
          · cases h
        · cases h
      obtain ⟨l, rfl, hl⟩ := hs
      have w := with_word (arr := arrays) (F := bufAt b t) hl (f := fun a => do
        let s ← loadChars a
        bufCat b (Rel.truncated (" == ".toList ++ s))) (Q := fun b' => bufAt b' (t ++ Rel.truncated (" == ".toList ++ u))) (fun q => by
          hstep (loadChars_spec (p := q) (w := u))
          hlast safe_strcat_memory
          hret)
      hopen rowAt
      hlast w
      hret

/-- C74: `osl_relation_sprint_comment` gives a new string and changes nothing. -/
theorem sprint_comment_memory (hc : c.Valid) (hm : MatFits c a.precision a.m) {row : Int} {t : Str} (h : Rel.sprint_comment c a rest row ws (some ⟨arrs⟩) = .ok t) :
    Triple (rowAt c p a m n rest strings ws arrays arrs) (relComment c p (hdr a) m row strings arrays)
      (fun b => rowAt c p a m n rest strings ws arrays arrs ∗ bufAt b t) := by
  unfold Rel.sprint_comment at h
  obtain ⟨sign, hs, h⟩ := Out.bind_eq_ok.mp h
  unfold relComment
  hstep bufNew_spec
  have e1 : Triple (rowAt c p a m n rest strings ws arrays arrs) (relSimple c (hdr a) m row)
      (fun r => pur (r = sign) ∗ rowAt c p a m n rest strings ws arrays arrs) := by
    unfold rowAt
    hlast (simple_output_memory hs)
    hret
  hstep e1
  by_cases h0 : sign ≠ 0
  · rw [if_pos h0] at h ⊢
    obtain ⟨e1, he1, h⟩ := Out.bind_eq_ok.mp h
    obtain ⟨v, hv, h⟩ := Out.bind_eq_ok.mp h
    obtain ⟨z, hz, h⟩ := Out.bind_eq_ok.mp h
    have key : ∃ u, (if !Rel.isAccessPart a || z then Rel.subexpression c a row (a.nb_output_dims + 1) (a.nb_columns - 1) (decide (sign > 0)) ws
        else Rel.get_array_id c (a :: rest) >>= fun id => if id < 1 then .ub else Rel.nameAt (some ⟨arrs⟩) (id - 1)) = .ok u ∧
        t = Rel.truncated ("   ## ".toList ++ e1) ++ Rel.truncated (" == ".toList ++ u) := by
      split at h
      · rename_i hx
        obtain ⟨e2, he2, h⟩ := Out.bind_eq_ok.mp h
        rw [Util.emit_eq] at h
        cases h
        exact ⟨e2, by rw [if_pos hx]; exact he2, by simp only [List.flatten_cons, List.flatten_nil, List.append_nil]⟩
      · rename_i hx
        obtain ⟨id, hid, h⟩ := Out.bind_eq_ok.mp h
        split at h
        · cases h
        · rename_i hlt
          obtain ⟨u, hu, h⟩ := Out.bind_eq_ok.mp h
          rw [Util.emit_eq] at h
          cases h
          refine ⟨u, ?_, by simp only [List.flatten_cons, List.flatten_nil, List.append_nil]⟩
          rw [if_neg hx, hid]
          show (if id < 1 then _ else _) = _
          rw [if_neg hlt]
          exact hu
    obtain ⟨u, hu, rfl⟩ := key
    have he1' : Rel.subexpression c a row 1 (hdr a).nb_output_dims (decide (sign < 0)) ws = .ok e1 := he1
    hstep (row_subexpr hc hm he1')
    hstep bufExpr_spec
    hlast (relRhs_spec hc hm hv hz hu)
    hret
  · rw [if_neg h0] at h ⊢
    obtain ⟨e, he, h⟩ := Out.bind_eq_ok.mp h
    obtain ⟨v, hv, h⟩ := Out.bind_eq_ok.mp h
    obtain ⟨z, hz, h⟩ := Out.bind_eq_ok.mp h
    rw [Util.emit_eq] at h
    cases h
    have he : Rel.subexpression c a row 1 ((hdr a).nb_columns - 1) false ws = .ok e := he
    unfold relExpression
    hstep (row_subexpr hc hm he)
    hstep bufExpr_spec
    have e2 : Triple (rowAt c p a m n rest strings ws arrays arrs) (relSign c (hdr a) m row)
        (fun r => pur (r = if z then " == 0".toList else " >= 0".toList) ∗ rowAt c p a m n rest strings ws arrays arrs) := by
      unfold rowAt
      hlast (relSign_spec hv hz)
      hret
    hstep e2
    hlast safe_strcat_memory
    simp only [List.flatten_cons, List.flatten_nil, List.append_nil, List.nil_append]
    hret

end

end Osl.Mem
