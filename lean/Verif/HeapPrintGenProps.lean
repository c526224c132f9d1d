import Verif.HeapPrintExtProps4
/-!
# Printing generics, symbols and the data of the whole library in memory (C74)
-/

set_option linter.unusedSectionVars false

namespace Osl.Mem

open Osl.Ext

variable [Allocator] {D : Type} {E : Env D}

/-- The functions `sprint` of the interfaces on the data which satisfy `good`: they allocate exactly their result. -/
structure DataPrint (O : DataMem D E) where
  sprint : Nat → Ptr → M Ptr
  good : D → Prop
  spec : ∀ {k p d t}, (∀ x, d = some x → good x) → E.sprint k d = .ok t → Triple (optAt O.at_ p d) (sprint k p) (fun q => optAt O.at_ p d ∗ uriAt q t)

/-- The data of the generics can be printed. -/
def goodList {D : Type} (good : D → Prop) (l : GList D) : Prop := ∀ g ∈ l, ∀ x, g.data = some x → good x

variable {O : DataMem D E}

/-! ## Generics -/

theorem generic_fold {l : GList D} {k : Nat} {ps : List Str} (h : GList.piecesLoop E l = .ok ps) :
    foldText (fun _ g last => GList.pieces E g >>= fun u => .ok (u.flatten ++ (if last then [] else ['\n']))) k l = .ok ps.flatten := by
  induction l generalizing k ps with
  | nil => cases h; rfl
  | cons x l ih =>
    unfold GList.piecesLoop at h
    obtain ⟨u, h1, h⟩ := Out.bind_eq_ok.mp h
    obtain ⟨v, h2, h⟩ := Out.bind_eq_ok.mp h
    cases h
    unfold foldText
    rw [h1, Out.ok_bind, Out.ok_bind, ih h2, Out.ok_bind, List.flatten_append, List.flatten_append]
    cases l.isEmpty <;> rfl

theorem startTag_buf {u : Str} (h : u.length + 4 < MAX_STRING) : buf (Util.startTag u ++ ['\n']) = .ok (Util.startTag u ++ ['\n']) := by
  unfold buf
  rw [if_pos]
  simp [Util.startTag]
  omega

theorem endTag_buf {u : Str} (h : u.length + 4 < MAX_STRING) : buf (Util.endTag u ++ ['\n']) = .ok (Util.endTag u ++ ['\n']) := by
  unfold buf
  rw [if_pos]
  simp [Util.endTag]
  omega

/-- The text of a generic whose data have this text (source/generic.c:164-171; specification). -/
def tagged (content uri : Option Str) : Out (List Str) :=
  match content, uri with
  | none, _ => .ok []
  | some _, none => .ub
  | some t, some u => if u.length + 4 < MAX_STRING then .ok [Util.startTag u ++ ['\n'], t, Util.endTag u ++ ['\n']] else .ub

theorem genTags_spec {q x : Ptr} {content uri : Option Str} {b : StrBuf} {t : Str} {ps : List Str} (h : tagged content uri = .ok ps) :
    Triple (uriAt q content ∗ uriAt x uri ∗ bufAt b t) (genTags q x b) (fun b' => uriAt x uri ∗ bufAt b' (t ++ ps.flatten)) := by
  unfold genTags
  cases content with
  | none =>
    cases h
    refine Triple.fact (fun hq => ?_)
    subst hq
    rw [if_neg (by simp), List.flatten_nil, List.append_nil]
    exact Triple.ret (fun _ hh => hh)
  | some w =>
    cases uri with
    | none => cases h
    | some u =>
      simp only [tagged] at h
      split at h
      · rename_i hu
        cases h
        refine Triple.frame_fact (P := uriAt q (some w)) (fun h hh => pto_ne h hh) (fun hq => ?_)
        rw [if_pos hq]
        simp only [uriAt]
        hstep (loadChars_spec (p := x) (w := u))
        hstep (bufPrint_spec (startTag_buf hu))
        hstep (bufTake_spec (temp := q))
        hlast (bufPrint_spec (endTag_buf hu))
        simp only [List.flatten_cons, List.flatten_nil, List.append_nil, List.append_assoc]
        hret
      · cases h

theorem genContent_spec (R : DataPrint O) {x y : Ptr} {g : Generic D} (hg : ∀ x, g.data = some x → R.good x) {b : StrBuf} {t : Str} {ps : List Str} (h : GList.pieces E g = .ok ps) :
    Triple (contentAt O x y g ∗ bufAt b t) (genContent R.sprint x y b) (fun b' => contentAt O x y g ∗ bufAt b' (t ++ ps.flatten)) := by
  unfold GList.pieces at h
  unfold contentAt
  unfold genContent
  cases hi : g.interface with
  | none =>
    rw [hi] at h
    cases h
    refine Triple.fact (fun hx => ?_)
    rw [hx.1, if_neg (by simp), List.flatten_nil, List.append_nil]
    exact Triple.ret (fun _ hh => pur_sep_iff.mpr ⟨⟨rfl, hx.2⟩, hh⟩)
  | some i =>
    rw [hi] at h
    dsimp only at h ⊢
    obtain ⟨ct, h1, h⟩ := Out.bind_eq_ok.mp h
    have h : tagged ct i.URI = .ok ps := h
    rw [sep_assoc]
    refine Triple.fact (fun hf => ?_)
    rw [ifacesAt_one]
    refine Triple.frame_fact (P := ifaceAt x i 0 ∗ O.opt y g.data) (φ := x ≠ 0) (fun h hh => ?_) (fun hx => ?_)
    · obtain ⟨h1, h2, _, _, ha, _⟩ := hh
      exact ifaceAt_ne _ ha
    rw [if_pos hx]
    unfold ifaceAt
    rw [sep_assoc, ex_sep]
    refine Triple.exi (fun u => ?_)
    hstep (loadIface_spec (p := x))
    dsimp only
    unfold DataMem.opt
    hstep (R.spec (p := y) hg h1)
    hlast (genTags_spec (x := u) h)
    refine Triple.ret (fun h hh => ?_)
    refine sep_mono (P := (x ↦ .iface u i.fns 0 ∗ uriAt u i.URI) ∗ optAt O.at_ y g.data) (fun hp hx => pur_sep_iff.mpr ⟨hf, sep_mono (fun _ hy => ⟨u, hy⟩) (fun _ h => h) hx⟩) (fun _ h => h) ?_
    exact hh.perm (by ac_rfl)

theorem genSprintStep_spec (R : DataPrint O) {p n : Ptr} {g : Generic D} (hg : ∀ x, g.data = some x → R.good x) {b : StrBuf} {t : Str} {ps : List Str} (h : GList.pieces E g = .ok ps) :
    Triple (genAt O p g n ∗ bufAt b t) (genSprintStep R.sprint p b) (fun b' => genAt O p g n ∗ bufAt b' (t ++ (ps.flatten ++ (if n = 0 then [] else ['\n'])))) := by
  unfold genSprintStep genAt
  rw [ex_sep]
  refine Triple.exi (fun x => ?_)
  rw [ex_sep]
  refine Triple.exi (fun y => ?_)
  hstep (getField_spec (p := p) (i := 0) (x := x) rfl)
  hstep (getField_spec (p := p) (i := 1) (x := y) rfl)
  hstep (genContent_spec R (x := x) (y := y) hg h)
  hstep (getField_spec (p := p) (i := 2) (x := n) rfl)
  hlast bufCats_spec
  have e : (if n ≠ 0 then [['\n']] else []).flatten = (if n = 0 then [] else ['\n']) := by
    by_cases h : n = 0
    · rw [if_pos h, if_neg (by simpa using h)]
      rfl
    · rw [if_neg h, if_pos h]
      rfl
  rw [e, List.append_assoc]
  refine Triple.ret (fun h hh => ?_)
  refine sep_mono (P := p ↦ .ptrs [x, y, n] ∗ contentAt O x y g) (fun hp hx => ⟨x, y, hx⟩) (fun _ h => h) ?_
  exact hh.perm (by ac_rfl)

/-- C74: `osl_generic_sprint`. -/
theorem generic_sprint_memory (R : DataPrint O) {p : Ptr} {l : GList D} (hl : goodList R.good l) {t : Str} (h : GList.sprint E l = .ok t) :
    Triple (glistAt O p l) (genSprint R.sprint p) (fun q => glistAt O p l ∗ q ↦ .chars t) := by
  unfold GList.sprint at h
  obtain ⟨ps, h1, h⟩ := Out.bind_eq_ok.mp h
  have h := emit_ok h
  subst h
  unfold genSprint glistAt
  hstep bufNew_spec
  hstep (walkPlain_spec (N := genChain O) (act := genSprintStep R.sprint) (p := p) (fun g hg p n k b t u hu => by
    obtain ⟨us, h3, hu⟩ := Out.bind_eq_ok.mp hu
    cases hu
    have := genSprintStep_spec R (p := p) (n := n) (b := b) (t := t) (hl g hg) h3
    simp only [decide_eq_true_eq]
    exact this) (generic_fold h1))
  hconv bufAt_text
  rw [List.nil_append]
  hret

/-- C74: `osl_generic_print`. -/
theorem generic_print_memory (R : DataPrint O) {p : Ptr} {l : GList D} (hl : goodList R.good l) {t : Str} (h : GList.sprint E l = .ok t) :
    Triple (glistAt O p l) (genPrint R.sprint p) (fun s => pur (s = t) ∗ glistAt O p l) := by
  unfold genPrint
  hstep (generic_sprint_memory R hl h)
  hlast writeFree_spec
  hret

/-! ## Symbols -/

/-- The data of the generics of a symbol can be printed. -/
def goodSymbol {D : Type} (good : D → Prop) (x : Symbol D) : Prop := goodList good x.identifier ∧ goodList good x.datatype ∧ goodList good x.scope ∧ goodList good x.extent

theorem symbol_fold {l : List (Symbol D)} {k : Nat} {ps : List Str} (h : Symbol.piecesLoop E l = .ok ps) :
    foldText (fun _ x _ => Symbol.pieces E x >>= fun u => .ok u.flatten) k l = .ok ps.flatten := by
  induction l generalizing k ps with
  | nil => cases h; rfl
  | cons x l ih =>
    unfold Symbol.piecesLoop at h
    obtain ⟨u, h1, h⟩ := Out.bind_eq_ok.mp h
    obtain ⟨v, h2, h⟩ := Out.bind_eq_ok.mp h
    cases h
    unfold foldText
    rw [h1, Out.ok_bind, Out.ok_bind, ih h2, Out.ok_bind, List.flatten_append]
    rfl

theorem symPrintField_spec (R : DataPrint O) {p a : Ptr} {is : List Int} {l : List Ptr} {k : Nat} {g : GList D} (hk : nth l k = .ok a) (hg : goodList R.good g) {title : Str} {b : StrBuf} {t u : Str}
    (h : GList.sprint E g = .ok u) :
    Triple (p ↦ .node is l ∗ glistAt O a g ∗ bufAt b t) (symPrintField R.sprint p k title b) (fun b' => p ↦ .node is l ∗ glistAt O a g ∗ bufAt b' (t ++ (title ++ u))) := by
  unfold symPrintField
  hstep safe_strcat_memory
  hstep (getPtr_spec (p := p) hk)
  hstep (generic_sprint_memory R hg h)
  hlast bufTake_spec
  rw [List.append_assoc]
  hret

theorem symStep_spec (R : DataPrint O) {p n : Ptr} {x : Symbol D} (hx : goodSymbol R.good x) {b : StrBuf} {t : Str} {ps : List Str} (h : Symbol.pieces E x = .ok ps) :
    Triple (symAt O p x n ∗ bufAt b t) (symStep R.sprint p b) (fun b' => symAt O p x n ∗ bufAt b' (t ++ ps.flatten)) := by
  unfold Symbol.pieces at h
  obtain ⟨v1, h1, h⟩ := Out.bind_eq_ok.mp h
  obtain ⟨v2, h2, h⟩ := Out.bind_eq_ok.mp h
  obtain ⟨v3, h3, h⟩ := Out.bind_eq_ok.mp h
  obtain ⟨v4, h4, h⟩ := Out.bind_eq_ok.mp h
  simp only [Out.pure_eq, Out.ok.injEq] at h
  subst h
  unfold symStep
  unfold symAt
  rw [ex_sep]
  refine Triple.exi (fun p1 => ?_)
  rw [ex_sep]
  refine Triple.exi (fun p2 => ?_)
  rw [ex_sep]
  refine Triple.exi (fun p3 => ?_)
  rw [ex_sep]
  refine Triple.exi (fun p4 => ?_)
  hstep (getInt_spec (p := p) (i := 0) (x := x.type) rfl)
  hstep bufCats_spec
  hstep (getInt_spec (p := p) (i := 1) (x := x.generated) rfl)
  hstep safe_strcat_memory
  hstep (getInt_spec (p := p) (i := 2) (x := x.nb_dims) rfl)
  hstep safe_strcat_memory
  hstep (symPrintField_spec R (p := p) (k := 0) (a := p1) rfl hx.1 h1)
  hstep (symPrintField_spec R (p := p) (k := 1) (a := p2) rfl hx.2.1 h2)
  hstep (symPrintField_spec R (p := p) (k := 2) (a := p3) rfl hx.2.2.1 h3)
  hlast (symPrintField_spec R (p := p) (k := 3) (a := p4) rfl hx.2.2.2 h4)
  simp only [List.flatten_cons, List.flatten_nil, List.append_nil, List.append_assoc]
  refine Triple.ret (fun h hh => ?_)
  refine sep_mono (P := p ↦ .node [x.type, x.generated, x.nb_dims] [p1, p2, p3, p4, n] ∗ glistAt O p1 x.identifier ∗ glistAt O p2 x.datatype ∗
    glistAt O p3 x.scope ∗ glistAt O p4 x.extent) (fun _ hx => ⟨p1, p2, p3, p4, hx⟩) (fun _ h => h) ?_
  exact hh.perm (by ac_rfl)

theorem symStep_all (R : DataPrint O) {l : List (Symbol D)} (hl : ∀ x ∈ l, goodSymbol R.good x) : ∀ x ∈ l, ∀ (p n : Ptr) (_ : Nat) (b : StrBuf) (t u : Str),
    (Symbol.pieces E x >>= fun u => .ok u.flatten) = .ok u →
    Triple (symAt O p x n ∗ bufAt b t) (symStep R.sprint p b) (fun b' => symAt O p x n ∗ bufAt b' (t ++ u)) := by
  intro x hx p n _ b t u hu
  obtain ⟨us, h3, hu⟩ := Out.bind_eq_ok.mp hu
  injection hu with hu
  subst hu
  exact symStep_spec R (hl x hx) h3

/-- C74: `osl_symbols_sprint`. -/
theorem symbols_sprint_memory (R : DataPrint O) {p : Ptr} {l : List (Symbol D)} (hl : ∀ x ∈ l, goodSymbol R.good x) {t : Option Str} (h : Symbol.sprint E l = .ok t) :
    Triple ((symChain O).list p l) (symSprint R.sprint p) (fun q => (symChain O).list p l ∗ uriAt q t) := by
  unfold Symbol.sprint Symbol.number at h
  obtain ⟨v2, h2, h⟩ := Out.bind_eq_ok.mp h
  have h := some_of_emit h
  subst h
  unfold symSprint
  hstep bufNew_spec
  hstep ((symChain O).countAll_spec l p)
  generalize ("# Number of symbols\n".toList ++ (showInt (wrap 32 l.length) ++ "\n".toList)) = w
  hstep safe_strcat_memory
  rw [List.nil_append]
  have hw := walkPlain_spec (N := symChain O) (act := symStep R.sprint) (p := p) (b := b) (t := w) (g := fun _ x _ => Symbol.pieces E x >>= fun u => .ok u.flatten) (symStep_all R hl) (symbol_fold h2)
  hstep hw
  hlast bufDone_spec
  simp only [uriAt, List.flatten_cons]
  hret

end Osl.Mem
