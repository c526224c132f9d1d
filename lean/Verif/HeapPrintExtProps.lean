import Verif.HeapPrintExt
/-!
# Printing strings, bodies and simple extensions in memory (C74)
-/

set_option linter.unusedSectionVars false

namespace Osl.Mem

open Osl.Ext

variable [Allocator]

/-! ## Strings which grow -/

theorem buf_eq {s u : Str} (h : buf s = .ok u) : u = s := by
  unfold buf at h
  split at h
  · cases h; rfl
  · cases h

theorem bufPrint_spec {b : StrBuf} {t s u : Str} (h : buf s = .ok u) : Triple (bufAt b t) (bufPrint b s) (fun b' => bufAt b' (t ++ u)) := by
  unfold bufPrint
  hstep (lift_spec h)
  hlast safe_strcat_memory
  hret

theorem bufDone_spec {b : StrBuf} {t : Str} : Triple (bufAt b t) (bufDone b) (fun q => q ↦ .chars t) := by
  refine Triple.pre ?_ bufAt_text
  unfold bufDone
  hstep (loadChars_spec (p := b.ptr) (w := t))
  hstep Triple.free
  hlast Triple.alloc
  hret

theorem loadWord_array {arr : Ptr} {ws : List Str} {i : Nat} {w : Str} (hw : ws[i]? = some w) :
    Triple (arrayAt arr ws) (loadWord arr i) (fun r => pur (r = w) ∗ arrayAt arr ws) := by
  unfold loadWord
  have := with_word (arr := arr) hw (F := emp) (f := loadChars) (Q := fun r => pur (r = w)) (fun q => by
    hlast (loadChars_spec (p := q) (w := w))
    hret)
  rw [sep_emp] at this
  exact this.post (fun r h hh => hh.perm (by ac_rfl))

/-- A string of an array without final NULL. -/
theorem loadWord_spec {a : Ptr} {ws : List Str} {i : Nat} {w : Str} (hw : ws[i]? = some w) :
    Triple (strsAt a ws) (loadWord a i) (fun r => pur (r = w) ∗ strsAt a ws) := by
  by_cases ha : a = 0
  · subst ha
    rw [strsAt_null]
    refine Triple.fact1 (fun h => ?_)
    subst h
    cases hw
  · rw [strsAt_ne ha]
    refine Triple.exi (fun ps => ?_)
    refine Triple.frame_fact (fun h hh => (wordsAt_length hh)) (fun hl => ?_) |>.pre (fun h hh => hh.perm (sep_comm _ _))
    obtain ⟨hi, rfl⟩ := List.getElem?_eq_some_iff.mp hw
    have hi' : i < ps.length := by omega
    have e1 := split_at hi'
    have e2 := split_at hi
    have e3 : wordsAt ps ws = (ps[i] ↦ .chars ws[i] ∗ wordsAt (ps.take i) (ws.take i) ∗ wordsAt (ps.drop (i + 1)) (ws.drop (i + 1))) := by
      have := wordsAt_append (ps := ps.take i) (qs := ps[i] :: ps.drop (i + 1)) (ws := ws.take i) (vs := ws[i] :: ws.drop (i + 1)) (by simp; omega)
      rw [← e1, ← e2] at this
      rw [this]
      simp only [wordsAt]
      ac_rfl
    have hn : nth ps i = .ok ps[i] := by
      unfold nth
      rw [if_neg (by omega)]
      simp [hi']
    unfold loadWord
    hstep (getField_spec (p := a) (l := ps) (x := ps[i]) hn)
    rw [e3]
    hlast (loadChars_spec (p := ps[i]) (w := ws[i]))
    refine Triple.ret (fun h hh => pur_sep_iff.mpr ⟨rfl, ps, ?_⟩)
    show (a ↦ .ptrs ps ∗ wordsAt ps ws) h
    rw [e3]
    exact hh.perm (by ac_rfl)

theorem ints_get {a : Ptr} {l : List Int} {i : Nat} {v : Int} (hv : l[i]? = some v) : Triple (intsAt a l) (getInt a i) (fun r => pur (r = v) ∗ intsAt a l) := by
  by_cases ha : a = 0
  · subst ha
    rw [intsAt_null]
    refine Triple.fact1 (fun h => ?_)
    subst h
    cases hv
  · rw [intsAt_ne ha]
    refine getInt_spec ?_
    unfold nth
    rw [if_neg (by omega)]
    simp [hv]

/-! ## Loops -/

/-- A loop on the indices of a list which appends the text `g` of each element. -/
theorem printLoop_from {α : Type} {l : List α} {g : α → Out Str} {body : Int → StrBuf → M StrBuf} {F : Assn}
    (hb : ∀ (i : Nat) a b t u, l[i]? = some a → g a = .ok u → Triple (F ∗ bufAt b t) (body i b) (fun b' => F ∗ bufAt b' (t ++ u))) :
    ∀ (suf pre : List α) (b : StrBuf) (t : Str) (us : List Str), l = pre ++ suf → Out.mapOut g suf = .ok us →
    Triple (F ∗ bufAt b t) (forNS body suf.length pre.length b) (fun b' => F ∗ bufAt b' (t ++ us.flatten))
  | [], pre, b, t, us, _, h => by
    cases h
    simp only [List.flatten_nil, List.append_nil]
    exact Triple.ret (fun _ h => h)
  | a :: suf, pre, b, t, us, hl, h => by
    obtain ⟨u, us1, h1, h2, rfl⟩ := Out.mapOut_cons_eq_ok.mp h
    refine Triple.bind (hb pre.length a b t u (by rw [hl]; simp) h1) (fun b1 => ?_)
    have := printLoop_from hb suf (pre ++ [a]) b1 (t ++ u) us1 (by rw [hl]; simp) h2
    simp only [List.length_append, List.length_cons, List.length_nil, List.append_assoc] at this
    rw [List.flatten_cons]
    exact this

theorem printLoop_spec {α : Type} {l : List α} {g : α → Out Str} {body : Int → StrBuf → M StrBuf} {F : Assn} {b : StrBuf} {t : Str} {us : List Str} {n : Int} (hn : n = l.length)
    (hb : ∀ (i : Nat) a b t u, l[i]? = some a → g a = .ok u → Triple (F ∗ bufAt b t) (body i b) (fun b' => F ∗ bufAt b' (t ++ u))) (h : Out.mapOut g l = .ok us) :
    Triple (F ∗ bufAt b t) (forS 0 n body b) (fun b' => F ∗ bufAt b' (t ++ us.flatten)) := by
  subst hn
  unfold forS
  have := printLoop_from hb l [] b t us rfl h
  simpa using this

theorem printInts_spec {a : Ptr} {l : List Int} {n : Int} (hn : n = l.length) {s : Str} {b : StrBuf} {t : Str} :
    Triple (intsAt a l ∗ bufAt b t) (printInts a n s b) (fun b' => intsAt a l ∗ bufAt b' (t ++ (l.map fun i => showInt i ++ s).flatten)) := by
  unfold printInts
  refine printLoop_spec (l := l) (g := fun v => .ok (showInt v ++ s)) hn (fun i v b t u hi hu => ?_) (mapOut_map _ l)
  cases hu
  rw [Int.toNat_natCast]
  hstep (ints_get hi)
  hlast safe_strcat_memory
  hret

/-! ## Strings and bodies -/

theorem strSprintStep_spec {p : Ptr} {ws : List Str} {i n : Nat} {w : Str} (hi : ws[i]? = some w) (hw : w.length < MAX_STRING) {b : StrBuf} {t : Str} :
    Triple (stringsAt p (some ⟨some ws⟩) ∗ bufAt b t) (strSprintStep p n i b)
      (fun b' => stringsAt p (some ⟨some ws⟩) ∗ bufAt b' (t ++ (w ++ (if (i : Int) < (n : Int) - 1 then [' '] else [])))) := by
  unfold strSprintStep
  simp only [stringsAt]
  rw [ex_sep]
  refine Triple.exi (fun arr => ?_)
  simp only [stringAt]
  rw [sep_assoc]
  hstep (getField_spec (p := p) (i := 0) (x := arr) rfl)
  rw [Int.toNat_natCast]
  hstep (loadWord_array (arr := arr) hi)
  refine Triple.bind (Q := fun b' => p ↦ .ptrs [arr] ∗ arrayAt arr ws ∗ bufAt b' (t ++ w)) ?_ (fun b1 => ?_)
  · hlast (bufPrint_spec (b := b) (t := t) (buf_ok hw))
    hret
  by_cases h : (i : Int) < (n : Int) - 1
  · rw [if_pos h, if_pos h]
    hlast safe_strcat_memory
    rw [List.append_assoc]
    refine Triple.ret (fun h hh => sep_mono (P := p ↦ .ptrs [arr] ∗ arrayAt arr ws) (fun _ hx => ⟨_, hx⟩) (fun _ h => h) (hh.perm (by ac_rfl)))
  · rw [if_neg h, if_neg h, List.append_nil]
    refine Triple.ret (fun h hh => sep_mono (P := p ↦ .ptrs [arr] ∗ arrayAt arr ws) (fun _ hx => ⟨_, hx⟩) (fun _ h => h) (hh.perm (by ac_rfl)))

theorem strLoop_spec {p : Ptr} {ws : List Str} : ∀ (suf pre : List Str) (b : StrBuf) (t : Str), ws = pre ++ suf → (∀ w ∈ suf, w.length < MAX_STRING) →
    Triple (stringsAt p (some ⟨some ws⟩) ∗ bufAt b t) (forNS (strSprintStep p ws.length) suf.length pre.length b)
      (fun b' => stringsAt p (some ⟨some ws⟩) ∗ bufAt b' (t ++ (Strings.pieces suf).flatten))
  | [], pre, b, t, _, _ => by
    simp only [Strings.pieces, List.flatten_nil, List.append_nil]
    exact Triple.ret (fun _ h => h)
  | w :: suf, pre, b, t, hl, hw => by
    refine Triple.bind (strSprintStep_spec (i := pre.length) (n := ws.length) (w := w) (by rw [hl]; simp) (hw w (List.mem_cons_self ..))) (fun b1 => ?_)
    have := strLoop_spec (p := p) (ws := ws) suf (pre ++ [w]) b1 (t ++ (w ++ (if (pre.length : Int) < (ws.length : Int) - 1 then [' '] else []))) (by rw [hl]; simp)
      (fun x hx => hw x (List.mem_cons_of_mem _ hx))
    simp only [List.length_append, List.length_cons, List.length_nil] at this
    refine this.post (fun b2 h hh => ?_)
    have e : (t ++ (w ++ (if (pre.length : Int) < (ws.length : Int) - 1 then [' '] else []))) ++ (Strings.pieces suf).flatten = t ++ (Strings.pieces (w :: suf)).flatten := by
      have hlen : ws.length = pre.length + (suf.length + 1) := by rw [hl]; simp
      cases suf with
      | nil =>
        rw [if_neg (by simp at hlen; omega)]
        simp [Strings.pieces]
      | cons v suf =>
        rw [if_pos (by simp at hlen; omega)]
        simp [Strings.pieces]
    rw [e] at hh
    exact hh

/-- C74: `osl_strings_sprint` allocates exactly its result. -/
theorem strings_sprint_memory {p : Ptr} {s : Option Strings} {t : Str} (h : Strings.sprint s = .ok t) :
    Triple (stringsAt p s) (strSprint p) (fun q => stringsAt p s ∗ q ↦ .chars t) := by
  unfold strSprint
  refine Triple.bind (Q := fun b => stringsAt p s ∗ bufAt b []) ?_ (fun b => ?_)
  · hlast bufNew_spec
    hret
  cases s with
  | none =>
    have h := emit_ok h
    subst h
    refine Triple.fact (fun hp => ?_)
    subst hp
    rw [if_neg (by simp)]
    refine Triple.bind safe_strcat_memory (fun b1 => ?_)
    refine Triple.ret (fun h hh => ?_)
    exact pur_sep_iff.mpr ⟨rfl, bufAt_text _ hh⟩
  | some s =>
    simp only [Strings.sprint] at h
    split at h
    · rename_i hw
      have h := emit_ok h
      subst h
      refine Triple.frame_fact (fun h hh => stringsAt_ne h hh) (fun hp => ?_)
      rw [if_pos hp]
      hstep (strings_size_memory p (some s))
      rw [strings_size_eq]
      obtain ⟨o⟩ := s
      cases o with
      | none =>
        show Triple _ (forS 0 ((0 : Nat) : Int) _ b >>= _) _
        refine Triple.bind (Q := fun b' => stringsAt p (some ⟨none⟩) ∗ bufAt b' []) (Triple.ret (fun h hh => hh.perm (by ac_rfl))) (fun b1 => ?_)
        refine Triple.bind (Q := fun b' => stringsAt p (some ⟨none⟩) ∗ bufAt b' ['\n']) ?_ (fun b2 => Triple.ret (fun _ h => sep_mono (fun _ h => h) bufAt_text h))
        hlast safe_strcat_memory
        hret
      | some ws =>
        have loop := strLoop_spec (p := p) ws [] b [] rfl (fun w hx => of_decide_eq_true (List.all_eq_true.mp hw w hx))
        refine Triple.bind (Q := fun b' => stringsAt p (some ⟨some ws⟩) ∗ bufAt b' (Strings.pieces ws).flatten) ?_ (fun b1 => ?_)
        · unfold forS
          show Triple _ (forNS (strSprintStep p ws.length) (((ws.length : Nat) : Int) - 0).toNat 0 b) _
          rw [Int.sub_zero, Int.toNat_natCast]
          exact loop.pre (fun h hh => hh.perm (by ac_rfl))
        refine Triple.bind (Q := fun b' => stringsAt p (some ⟨some ws⟩) ∗ bufAt b' ((Strings.pieces ws).flatten ++ ['\n'])) ?_ (fun b2 => Triple.ret (fun h hh => ?_))
        · hlast safe_strcat_memory
          hret
        · have e : Strings.words ⟨some ws⟩ = ws := rfl
          rw [e, List.flatten_append]
          exact sep_mono (fun _ h => h) bufAt_text hh
    · cases h

/-- C74: `osl_strings_print` allocates nothing in the end and writes the text. -/
theorem strings_print_memory {p : Ptr} {s : Option Strings} {t : Str} (h : Strings.sprint s = .ok t) :
    Triple (stringsAt p s) (strPrint p) (fun u => pur (u = t) ∗ stringsAt p s) := by
  unfold strPrint
  hstep (strings_sprint_memory h)
  hlast writeFree_spec
  hret

theorem bodySprintIters_spec {p : Ptr} {s : Option Strings} {l : List Str} (h : Body.iterPieces s = .ok l) {b : StrBuf} {t : Str} :
    Triple (stringsAt p s ∗ bufAt b t) (bodySprintIters p (Strings.size s) b) (fun b' => stringsAt p s ∗ bufAt b' (t ++ l.flatten)) := by
  unfold bodySprintIters
  unfold Body.iterPieces at h
  split at h
  · rename_i hs
    obtain ⟨u, h1, h⟩ := Out.bind_eq_ok.mp h
    cases h
    rw [if_pos hs]
    refine Triple.bind (Q := fun b' => stringsAt p s ∗ bufAt b' (t ++ "# List of original iterators\n".toList)) ?_ (fun b1 => ?_)
    · hlast safe_strcat_memory
      hret
    hstep (strings_sprint_memory h1)
    hlast bufTake_spec
    simp only [List.flatten_cons, List.flatten_nil, List.append_nil, List.append_assoc]
    hret
  · rename_i hs
    cases h
    rw [if_neg hs]
    simp only [List.flatten_nil, List.append_nil]
    hret

/-- C74: `osl_body_sprint` allocates exactly its result. -/
theorem body_sprint_memory {p : Ptr} {d : Option Body} {t : Str} (h : Body.sprint d = .ok t) :
    Triple (optAt bodyAt p d) (bodySprint p) (fun q => optAt bodyAt p d ∗ q ↦ .chars t) := by
  unfold bodySprint
  refine Triple.bind (Q := fun b => optAt bodyAt p d ∗ bufAt b []) ?_ (fun b => ?_)
  · hlast bufNew_spec
    hret
  cases d with
  | none =>
    have h := emit_ok h
    subst h
    refine Triple.fact (fun hp => ?_)
    subst hp
    rw [if_neg (by simp)]
    refine Triple.bind safe_strcat_memory (fun b1 => ?_)
    refine Triple.ret (fun h hh => ?_)
    exact pur_sep_iff.mpr ⟨rfl, bufAt_text _ hh⟩
  | some d =>
    simp only [Body.sprint] at h
    obtain ⟨l, h1, h⟩ := Out.bind_eq_ok.mp h
    obtain ⟨u, h2, h⟩ := Out.bind_eq_ok.mp h
    have h := emit_ok h
    subst h
    refine Triple.frame_fact (fun h hh => bodyAt_ne h hh) (fun hp => ?_)
    rw [if_pos hp]
    simp only [optAt_some]
    hopen bodyAt
    hstep (getField_spec (p := p) (i := 0) (x := x) rfl)
    hstep (strings_size_memory x d.iterators)
    generalize e1 : ("# Number of original iterators\n".toList ++ showNat (Strings.size d.iterators) ++ "\n".toList) = s1
    generalize e2 : "# Statement body expression\n".toList = s2
    refine Triple.bind (Q := fun b' => p ↦ .ptrs [x, y] ∗ stringsAt x d.iterators ∗ stringsAt y d.expression ∗ bufAt b' s1) ?_ (fun b1 => ?_)
    · hlast safe_strcat_memory
      hret
    refine Triple.bind (Q := fun b' => p ↦ .ptrs [x, y] ∗ stringsAt x d.iterators ∗ stringsAt y d.expression ∗ bufAt b' (s1 ++ l.flatten)) ?_ (fun b2 => ?_)
    · hlast (bodySprintIters_spec h1)
      hret
    refine Triple.bind (Q := fun b' => p ↦ .ptrs [x, y] ∗ stringsAt x d.iterators ∗ stringsAt y d.expression ∗ bufAt b' ((s1 ++ l.flatten) ++ s2)) ?_ (fun b3 => ?_)
    · hlast safe_strcat_memory
      hret
    hstep (getField_spec (p := p) (i := 1) (x := y) rfl)
    hstep (strings_sprint_memory h2)
    refine Triple.bind (Q := fun b' => p ↦ .ptrs [x, y] ∗ stringsAt x d.iterators ∗ stringsAt y d.expression ∗ bufAt b' (((s1 ++ l.flatten) ++ s2) ++ u)) ?_ (fun b4 => ?_)
    · hlast bufTake_spec
      hret
    have e : ([s1] ++ l ++ [s2, u]).flatten = ((s1 ++ l.flatten) ++ s2) ++ u := by simp
    rw [e]
    hconv bufAt_text
    hret

/-- The text of `osl_body_print` (source/body.c:133-151; specification). -/
def bodyText : Option Body → Out Str
  | none => .ok "# NULL statement body\n".toList
  | some b => do
    let its ← (if Strings.size b.iterators > 0 then Strings.sprint b.iterators >>= fun t => .ok ("\n# List of original iterators\n".toList ++ t) else .ok [])
    let e ← Strings.sprint b.expression
    return "# Number of original iterators\n".toList ++ showNat (Strings.size b.iterators) ++ "\n".toList ++ its ++ "\n# Statement body expression\n".toList ++ e

/-- C74: `osl_body_print` allocates nothing in the end. -/
theorem body_print_memory {p : Ptr} {d : Option Body} {t : Str} (h : bodyText d = .ok t) :
    Triple (optAt bodyAt p d) (bodyPrint p) (fun u => pur (u = t) ∗ optAt bodyAt p d) := by
  unfold bodyPrint
  cases d with
  | none =>
    cases h
    refine Triple.fact1 (fun hp => ?_)
    subst hp
    rw [if_neg (by simp)]
    refine Triple.ret (fun h hh => pur_sep_iff.mpr ⟨rfl, ?_⟩)
    rw [optAt_none, pur_true rfl]
    exact hh
  | some d =>
    simp only [bodyText] at h
    obtain ⟨l, h1, h⟩ := Out.bind_eq_ok.mp h
    obtain ⟨u, h2, h⟩ := Out.bind_eq_ok.mp h
    cases h
    refine Triple.of_fact (fun h hh => bodyAt_ne h hh) (fun hp => ?_)
    rw [if_pos hp]
    simp only [optAt_some]
    hopen bodyAt
    hstep (getField_spec (p := p) (i := 0) (x := x) rfl)
    hstep (strings_size_memory x d.iterators)
    have hit : Triple (stringsAt x d.iterators) (bodyPrintIters x (Strings.size d.iterators)) (fun r => pur (r = l) ∗ stringsAt x d.iterators) := by
      unfold bodyPrintIters
      split at h1
      · rename_i hs
        obtain ⟨v, h3, h1⟩ := Out.bind_eq_ok.mp h1
        cases h1
        rw [if_pos hs]
        hstep (strings_print_memory h3)
        hret
      · rename_i hs
        cases h1
        rw [if_neg hs]
        hret
    hstep hit
    hstep (getField_spec (p := p) (i := 1) (x := y) rfl)
    hstep (strings_print_memory h2)
    hret

end Osl.Mem
