import Verif.HeapIrr
import Verif.HeapExtProps3
import Verif.HeapIntProps2
import Verif.ExtIrregularProps
/-!
# The irregular extension in memory (C78): tables, allocation and release
-/

set_option linter.unusedSectionVars false

namespace Osl.Mem

open Osl.Ext

variable [Allocator] {K X Y : Type}

/-! ## Assertions (specification) -/

/-- Several things in memory, one for each place. -/
def eachAt (f : K → X → Assn) : List K → List X → Assn
  | [], [] => emp
  | k :: ks, x :: l => f k x ∗ eachAt f ks l
  | _, _ => pur False

/-- The memory of an array of pointers to things: NULL is an empty array. -/
def tableAt (f : Ptr → X → Assn) (p : Ptr) (l : List X) : Assn := if p = 0 then pur (l = []) else ex fun ps => p ↦ .ptrs ps ∗ eachAt f ps l

/-- The memory of the predicates: the arrays nb_iterators, iterators and body. -/
def predsAt (nb it bo : Ptr) (l : List Pred) : Assn :=
  intsAt nb (l.map fun x => (x.iters.length : Int)) ∗ tableAt (tableAt uriAt) it (l.map Pred.iters) ∗ tableAt uriAt bo (l.map Pred.body)

/-- The memory of the lists of the statements: the arrays nb_predicates and predicates. -/
def stmtListsAt (np pr : Ptr) (l : List (List Int)) : Assn := intsAt np (l.map fun x => (x.length : Int)) ∗ tableAt intsAt pr l

/-- The memory of an irregular extension. -/
def irrAt (p : Ptr) (x : Irregular) : Assn :=
  ex fun nb => ex fun it => ex fun bo => ex fun np => ex fun pr =>
    p ↦ .node [x.nbControl, x.nbExit, (x.stmts.length : Int)] [nb, it, bo, np, pr] ∗ predsAt nb it bo x.preds ∗ stmtListsAt np pr x.stmts

/-! ## Several things -/

theorem eachAt_cons {f : K → X → Assn} {k : K} {ks : List K} {x : X} {l : List X} : eachAt f (k :: ks) (x :: l) = (f k x ∗ eachAt f ks l) := rfl

theorem eachAt_len {f : K → X → Assn} : ∀ {ks : List K} {l : List X} (h : PHeap), eachAt f ks l h → ks.length = l.length
  | [], [], _, _ => rfl
  | _ :: ks, _ :: l, _, ⟨_, _, _, _, _, hh⟩ => by simp [eachAt_len _ hh]
  | [], _ :: _, _, hh => hh.1.elim
  | _ :: _, [], _, hh => hh.1.elim

theorem eachAt_app {f : K → X → Assn} : ∀ {ks ks' : List K} {l l' : List X}, ks.length = l.length → eachAt f (ks ++ ks') (l ++ l') = (eachAt f ks l ∗ eachAt f ks' l')
  | [], _, [], _, _ => by show _ = (emp ∗ _); rw [emp_sep]; rfl
  | k :: ks, ks', x :: l, l', h => by
    rw [List.cons_append, List.cons_append, eachAt_cons, eachAt_cons, eachAt_app (by simpa using h), sep_assoc]
  | [], _, _ :: _, _, h => by simp at h
  | _ :: _, _, [], _, h => by simp at h

theorem eachAt_one {f : K → X → Assn} {k : K} {x : X} : eachAt f [k] [x] = f k x := by
  show (f k x ∗ emp) = _
  rw [sep_emp]

theorem eachAt_take {f : K → X → Assn} : ∀ {i : Nat} {ks : List K} {l : List X} {k : K} {x : X}, ks[i]? = some k → l[i]? = some x →
    eachAt f ks l = (f k x ∗ eachAt f (ks.eraseIdx i) (l.eraseIdx i))
  | 0, _ :: _, _ :: _, _, _, h1, h2 => by
    cases h1; cases h2; rfl
  | i + 1, k :: ks, x :: l, _, _, h1, h2 => by
    have := eachAt_take (f := f) (i := i) (ks := ks) (l := l) h1 h2
    rw [eachAt_cons, this]
    show _ = (_ ∗ f k x ∗ eachAt f (ks.eraseIdx i) (l.eraseIdx i))
    ac_rfl
  | _, [], _, _, _, h1, _ => by simp at h1
  | _, _ :: _, [], _, _, _, h2 => by simp at h2

theorem eachAt_zip {K' : Type} {f : K → X → Assn} {f' : K' → Y → Assn} {Z : Type} {g : Z → X} {g' : Z → Y} : ∀ {ks : List K} {ks' : List K'} {l : List Z}, ks.length = l.length → ks'.length = l.length →
    (eachAt f ks (l.map g) ∗ eachAt f' ks' (l.map g')) = eachAt (fun k z => f k.1 (g z) ∗ f' k.2 (g' z)) (ks.zip ks') l
  | [], [], [], _, _ => by show (emp ∗ emp) = _; rw [emp_sep]; rfl
  | k :: ks, k' :: ks', z :: l, h1, h2 => by
    rw [List.zip_cons_cons, eachAt_cons, ← eachAt_zip (g := g) (g' := g') (f := f) (f' := f') (by simpa using h1) (by simpa using h2)]
    show ((_ ∗ eachAt f ks (l.map g)) ∗ (_ ∗ eachAt f' ks' (l.map g'))) = _
    ac_rfl
  | [], _, _ :: _, h, _ => by simp at h
  | _ :: _, _, [], h, _ => by simp at h
  | _, [], _ :: _, _, h => by simp at h
  | _, _ :: _, [], _, h => by simp at h

theorem each_consume {f : K → X → Assn} {P : Assn} {body : Int → M Unit} : ∀ (ks : List K) (l : List X) (i : Nat), ks.length = l.length →
    (∀ (j : Nat) k x, ks[j]? = some k → l[j]? = some x → Triple (P ∗ f k x) (body ((i + j : Nat) : Int)) (fun _ => P)) →
    Triple (P ∗ eachAt f ks l) (Mem.forN body l.length i) (fun _ => P)
  | [], [], i, _, _ => by
    refine Triple.ret (fun h hh => ?_)
    have hh : (P ∗ emp) h := hh
    rwa [sep_emp] at hh
  | k :: ks, x :: l, i, hl, hs => by
    show Triple _ (body i >>= fun _ => Mem.forN body l.length (i + 1)) _
    rw [eachAt_cons]
    have h0 := hs 0 k x rfl rfl
    refine Triple.step h0 (F := eachAt f ks l) (by rw [sep_assoc]) (fun _ => ?_)
    have := each_consume (f := f) (P := P) (body := body) ks l (i + 1) (by simpa using hl) (fun j k' x' h1 h2 => by
      have := hs (j + 1) k' x' h1 h2
      rwa [show i + (j + 1) = i + 1 + j by omega] at this)
    exact this
  | [], _ :: _, _, h, _ => by simp at h
  | _ :: _, [], _, h, _ => by simp at h

/-! ## Tables -/

theorem tableAt_null {f : Ptr → X → Assn} {l : List X} : tableAt f 0 l = pur (l = []) := if_pos rfl

theorem tableAt_ne {f : Ptr → X → Assn} {p : Ptr} (hp : p ≠ 0) {l : List X} : tableAt f p l = ex fun ps => p ↦ .ptrs ps ∗ eachAt f ps l := if_neg hp

theorem table_intro {f : Ptr → X → Assn} {p : Ptr} {ps : List Ptr} {l : List X} : ∀ h, (p ↦ .ptrs ps ∗ eachAt f ps l) h → tableAt f p l h := by
  intro h hh
  rw [tableAt_ne (pto_ne_sep h hh)]
  exact ⟨ps, hh⟩

theorem slotPtr_spec {p : Ptr} {l : List Ptr} {i : Int} {x : Ptr} (h : nth l i = .ok x) : Triple (p ↦ .ptrs l) (slotPtr p i) (fun r => pur (r = x) ∗ p ↦ .ptrs l) := by
  unfold slotPtr
  refine Triple.stepEq (F := emp) loadPtrs_spec (by rw [sep_emp]) ?_
  exact Triple.liftLast h

theorem slotSet_spec {p : Ptr} {l l' : List Ptr} {i : Int} {x : Ptr} (h : setNth l i x = .ok l') : Triple (p ↦ .ptrs l) (slotSet p i x) (fun _ => p ↦ .ptrs l') := by
  unfold slotSet
  refine Triple.stepEq (F := emp) loadPtrs_spec (by rw [sep_emp]) ?_
  refine Triple.liftStep h ?_
  exact Triple.store p _ _

theorem slotInt_spec {p : Ptr} {is : List Int} {l : List Ptr} {i : Int} {x : Int} (h : nth is i = .ok x) : Triple (p ↦ .node is l) (slotInt p i) (fun r => pur (r = x) ∗ p ↦ .node is l) := by
  unfold slotInt
  refine Triple.stepEq (F := emp) loadNode_spec (by rw [sep_emp]) ?_
  exact Triple.liftLast h

theorem slotPut_spec {p : Ptr} {is is' : List Int} {l : List Ptr} {i : Int} {x : Int} (h : setNth is i x = .ok is') : Triple (p ↦ .node is l) (slotPut p i x) (fun _ => p ↦ .node is' l) := by
  unfold slotPut
  refine Triple.stepEq (F := emp) loadNode_spec (by rw [sep_emp]) ?_
  refine Triple.liftStep h ?_
  exact Triple.store p _ _

theorem ints_slot {a : Ptr} {l : List Int} {i : Nat} {v : Int} (hv : l[i]? = some v) : Triple (intsAt a l) (slotInt a i) (fun r => pur (r = v) ∗ intsAt a l) := by
  by_cases ha : a = 0
  · subst ha
    rw [intsAt_null]
    refine Triple.fact1 (fun h => ?_)
    subst h
    cases hv
  · rw [intsAt_ne ha]
    exact slotInt_spec (nth_of_some hv)

theorem each_some {f : K → X → Assn} {ks : List K} {l : List X} {i : Nat} {x : X} (hx : l[i]? = some x) {h : PHeap} (hh : eachAt f ks l h) : ∃ k, ks[i]? = some k := by
  have := eachAt_len h hh
  have hi := (List.getElem?_eq_some_iff.mp hx).1
  exact ⟨ks[i], by rw [List.getElem?_eq_getElem (by omega)]⟩

/-- What can be done with the thing number `i` can be done through the table. -/
theorem table_use {f : Ptr → X → Assn} {α : Type} {a : Ptr} {l : List X} {i : Nat} {x : X} (hx : l[i]? = some x) {m : Ptr → M α} {F : Assn} {G : α → Assn}
    (hm : ∀ p, Triple (f p x ∗ F) (m p) (fun r => f p x ∗ G r)) : Triple (tableAt f a l ∗ F) (slotPtr a i >>= m) (fun r => tableAt f a l ∗ G r) := by
  refine Triple.opened (fun h0 hh => ?_)
  by_cases ha : a = 0
  · subst ha
    rw [tableAt_null] at hh
    rw [hh.1] at hx
    cases hx
  · rw [tableAt_ne ha] at hh
    obtain ⟨ps, hh⟩ := hh
    refine ⟨_, hh, ?_⟩
    obtain ⟨_, _, _, _, _, he⟩ := hh
    obtain ⟨p, hp⟩ := each_some hx he
    rw [eachAt_take hp hx]
    refine Triple.stepEq (slotPtr_spec (nth_of_some hp)) (F := (f p x ∗ eachAt f (ps.eraseIdx i) (l.eraseIdx i)) ∗ F) (by rw [sep_assoc]) ?_
    have := (hm p).frame (a ↦ .ptrs ps ∗ eachAt f (ps.eraseIdx i) (l.eraseIdx i))
    refine this.conseq (fun h hh => hh.perm (by ac_rfl)) (fun r h hh => ?_)
    have hh : ((a ↦ .ptrs ps ∗ eachAt f ps l) ∗ G r) h := by
      rw [eachAt_take hp hx]
      exact hh.perm (by ac_rfl)
    exact sep_mono table_intro (fun _ h => h) hh

/-- A table whose things are used up, one after the other. -/
theorem table_consume {f : Ptr → X → Assn} {a : Ptr} {l : List X} {P : Assn} {body : Int → M Unit} {n : Int} (hn : n = l.length)
    (hs : ∀ (ps : List Ptr) (j : Nat) p x, ps[j]? = some p → l[j]? = some x → Triple (P ∗ a ↦ .ptrs ps ∗ f p x) (body j) (fun _ => P ∗ a ↦ .ptrs ps)) :
    Triple (P ∗ tableAt f a l) (Mem.forM 0 n body) (fun _ => P ∗ ptrsIf a) := by
  subst hn
  unfold Mem.forM ptrsIf
  rw [show ((l.length : Int) - 0).toNat = l.length by omega]
  rw [sep_comm]
  refine Triple.opened (fun h0 hh => ?_)
  by_cases ha : a = 0
  · subst ha
    rw [tableAt_null] at hh
    obtain ⟨hl, hh⟩ := hh
    subst hl
    refine ⟨emp, hh, ?_⟩
    rw [if_pos rfl, emp_sep, sep_emp]
    exact Triple.ret (fun _ h => h)
  · rw [tableAt_ne ha] at hh
    obtain ⟨ps, hh⟩ := hh
    refine ⟨_, hh, ?_⟩
    obtain ⟨_, _, _, _, _, he⟩ := hh
    have hlen := eachAt_len _ he
    rw [if_neg ha]
    have := each_consume (f := f) (P := P ∗ a ↦ .ptrs ps) (body := body) ps l 0 hlen (fun j k x h1 h2 => by
      rw [Nat.zero_add, sep_assoc]
      exact hs ps j k x h1 h2)
    refine this.conseq (fun h hh => hh.perm (by ac_rfl)) (fun _ h hh => ?_)
    exact sep_mono (fun _ h => h) (fun _ h => ⟨ps, h⟩) hh

theorem freeIf_ptrsIf {a : Ptr} : Triple (ptrsIf a) (freeIf a) (fun _ => emp) := by
  rw [freeIf_eq]
  exact free_ptrsIf

/-! ## Allocation and release -/

theorem irrAt_ne {p : Ptr} {x : Irregular} : ∀ h, irrAt p x h → p ≠ 0 := by
  rintro h ⟨a, b, c, d, e, hh⟩
  exact pto_ne_sep h hh

/-- C78: `osl_irregular_malloc` gives an empty extension. -/
theorem irregular_malloc_memory : Triple emp irrMalloc (fun p => irrAt p Irregular.malloc) := by
  unfold irrMalloc
  refine (Triple.alloc _).post (fun p h hh => ⟨0, 0, 0, 0, 0, ?_⟩)
  show (p ↦ .node [0, 0, 0] [0, 0, 0, 0, 0] ∗ (intsAt 0 [] ∗ tableAt (tableAt uriAt) 0 [] ∗ tableAt uriAt 0 []) ∗ (intsAt 0 [] ∗ tableAt intsAt 0 [])) h
  rw [intsAt_null, tableAt_null, tableAt_null, tableAt_null]
  rw [pur_true rfl, pur_true rfl, pur_true rfl, pur_true rfl]
  simp only [emp_sep, sep_emp]
  exact hh

theorem irrFreeStmts_spec {pr : Ptr} {l : List (List Int)} {n : Int} (hn : n = l.length) : Triple (tableAt intsAt pr l) (Mem.forM 0 n (irrFreeStmt pr)) (fun _ => ptrsIf pr) := by
  have := table_consume (P := emp) (f := intsAt) (a := pr) (l := l) (body := irrFreeStmt pr) hn (fun ps j p x h1 h2 => by
    rw [emp_sep, emp_sep]
    unfold irrFreeStmt
    hstep (slotPtr_spec (nth_of_some h1))
    hlast (free_ints (p := p) (l := x))
    hret)
  rwa [emp_sep, emp_sep] at this

theorem irrFreeIters_spec {it s : Ptr} {ks : List Ptr} {i : Nat} {l : List (Option Str)} (hs : ks[i]? = some s) :
    Triple (it ↦ .ptrs ks ∗ tableAt uriAt s l) (Mem.forM 0 l.length (irrFreeIter it i)) (fun _ => it ↦ .ptrs ks ∗ ptrsIf s) := by
  refine table_consume rfl (fun ps j p x h1 h2 => ?_)
  unfold irrFreeIter
  hstep (slotPtr_spec (nth_of_some hs))
  hstep (slotPtr_spec (nth_of_some h1))
  hlast (free_str (o := x))
  hret

theorem irrFreePred_spec {nb it bo s b : Ptr} {ns : List Int} {ks bs : List Ptr} {i : Nat} {x : Pred} (hn : ns[i]? = some (x.iters.length : Int)) (hs : ks[i]? = some s) (hb : bs[i]? = some b) :
    Triple (nb ↦ .node ns [] ∗ it ↦ .ptrs ks ∗ bo ↦ .ptrs bs ∗ tableAt uriAt s x.iters ∗ uriAt b x.body) (irrFreePred nb it bo i)
      (fun _ => nb ↦ .node ns [] ∗ it ↦ .ptrs ks ∗ bo ↦ .ptrs bs) := by
  unfold irrFreePred
  hstep (slotInt_spec (nth_of_some hn))
  hstep (irrFreeIters_spec (l := x.iters) hs)
  hstep (slotPtr_spec (nth_of_some hs))
  hstep free_ptrsIf
  hstep (slotPtr_spec (nth_of_some hb))
  hlast (free_str (o := x.body))
  hret

theorem each_map_len {f : K → X → Assn} {g : Y → X} {ks : List K} {l : List Y} : ∀ h, eachAt f ks (l.map g) h → ks.length = l.length := by
  intro h hh
  simpa using eachAt_len h hh

/-- The three arrays, or NULL. -/
theorem irrFreePreds_spec {nb it bo : Ptr} {l : List Pred} {n : Int} (hn : n = l.length) :
    Triple (predsAt nb it bo l) (Mem.forM 0 n (irrFreePred nb it bo)) (fun _ => intsAt nb (l.map fun x => (x.iters.length : Int)) ∗ ptrsIf it ∗ ptrsIf bo) := by
  subst hn
  unfold predsAt ptrsIf
  cases hl : l with
  | nil =>
    refine Triple.ret (fun h hh => sep_mono (fun _ h => h) (fun _ h => sep_mono (fun h hh => ?_) (fun h hh => ?_) h) hh)
    · by_cases ha : it = 0
      · subst ha
        rw [if_pos rfl]
        rw [tableAt_null] at hh
        exact hh.2
      · rw [if_neg ha]
        rw [tableAt_ne ha] at hh
        obtain ⟨ps, hh⟩ := hh
        have e := eachAt_len _ hh.choose_spec.choose_spec.2.2.2
        cases List.eq_nil_of_length_eq_zero e
        refine ⟨[], ?_⟩
        have hh : (it ↦ .ptrs [] ∗ emp) h := hh
        rwa [sep_emp] at hh
    · by_cases ha : bo = 0
      · subst ha
        rw [if_pos rfl]
        rw [tableAt_null] at hh
        exact hh.2
      · rw [if_neg ha]
        rw [tableAt_ne ha] at hh
        obtain ⟨ps, hh⟩ := hh
        have e := eachAt_len _ hh.choose_spec.choose_spec.2.2.2
        cases List.eq_nil_of_length_eq_zero e
        refine ⟨[], ?_⟩
        have hh : (bo ↦ .ptrs [] ∗ emp) h := hh
        rwa [sep_emp] at hh
  | cons x0 l0 =>
    rw [← hl]
    have hne : ∀ {Z : Type} (g : Pred → Z), l.map g ≠ [] := by intro Z g; rw [hl]; simp
    have tp : ∀ {Z : Type} {f : Ptr → Z → Assn} {a : Ptr} {g : Pred → Z} (h : PHeap), tableAt f a (l.map g) h → a ≠ 0 := by
      intro Z f a g h hh e
      subst e
      rw [tableAt_null] at hh
      exact hne g hh.1
    hfact (ints_pos (p := nb) (hne fun x => (x.iters.length : Int)))
    intro h1
    hfact (tp (f := tableAt uriAt) (a := it) (g := Pred.iters))
    intro h2
    hfact (tp (f := uriAt) (a := bo) (g := Pred.body))
    intro h3
    rw [if_neg h2, if_neg h3, intsAt_ne h1, tableAt_ne h2, tableAt_ne h3]
    hnorm
    rename_i ks
    revert ks ps
    intro ks bs
    hfact (each_map_len (f := tableAt uriAt) (g := Pred.iters) (ks := ks) (l := l))
    intro e1
    hfact (each_map_len (f := uriAt) (g := Pred.body) (ks := bs) (l := l))
    intro e2
    unfold Mem.forM
    rw [show ((l.length : Int) - 0).toNat = l.length by omega]
    have := each_consume (f := fun (k : Ptr × Ptr) (z : Pred) => tableAt uriAt k.1 z.iters ∗ uriAt k.2 z.body)
      (P := nb ↦ .node (l.map fun x => (x.iters.length : Int)) [] ∗ it ↦ .ptrs ks ∗ bo ↦ .ptrs bs) (body := irrFreePred nb it bo) (ks.zip bs) l 0 (by simp [e1, e2])
      (fun j k x g1 g2 => by
        rw [Nat.zero_add, List.getElem?_zip_eq_some] at *
        have := irrFreePred_spec (nb := nb) (it := it) (bo := bo) (ns := l.map fun x => (x.iters.length : Int)) (i := j) (x := x) (by simp [g2]) g1.1 g1.2
        exact this.pre (fun h hh => hh.perm (by ac_rfl)))
    rw [← eachAt_zip (g := Pred.iters) (g' := Pred.body) e1 e2] at this
    refine this.conseq (fun h hh => hh.perm (by ac_rfl)) (fun _ h hh => ?_)
    exact sep_mono (fun _ h => h) (fun _ h => sep_mono (fun _ h => ⟨ks, h⟩) (fun _ h => ⟨bs, h⟩) h) hh

/-- C78: `osl_irregular_free` frees all the memory of a well-formed extension. -/
theorem irregular_free_memory (p : Ptr) (d : Option Irregular) (hw : ∀ x, d = some x → x.WF ∧ x.nbControl + x.nbExit < 2 ^ 31) :
    Triple (optAt irrAt p d) (irrFree p) (fun _ => emp) := by
  unfold irrFree
  cases d with
  | none =>
    refine Triple.fact1 (fun hp => ?_)
    rw [if_neg (by simp [hp])]
    exact Triple.ret (fun _ h => h)
  | some x =>
    obtain ⟨hw, hn⟩ := hw x rfl
    refine Triple.of_fact (φ := p ≠ 0) (fun h hh => irrAt_ne h hh) (fun hp => ?_)
    rw [if_pos hp]
    have ht : Irregular.addI x.nbControl x.nbExit = .ok (x.nbControl + x.nbExit) := Irregular.addI_ok hw.control hw.exit hn
    show Triple (irrAt p x) _ _
    hopen irrAt
    unfold stmtListsAt
    hnorm
    hstep (getInt_spec (x := (x.stmts.length : Int)) rfl)
    hstep (getPtr_spec (x := pr) rfl)
    hstep (irrFreeStmts_spec (l := x.stmts) rfl)
    hstep freeIf_ptrsIf
    hstep (getInt_spec (x := x.nbControl) rfl)
    hstep (getInt_spec (x := x.nbExit) rfl)
    hstep (lift_spec ht)
    hstep (getPtr_spec (x := nb) rfl)
    hstep (getPtr_spec (x := it) rfl)
    hstep (getPtr_spec (x := bo) rfl)
    hstep (irrFreePreds_spec (l := x.preds) hw.preds.symm)
    hstep freeIf_ptrsIf
    hstep freeIf_ints
    hstep freeIf_ptrsIf
    hstep (getPtr_spec (x := np) rfl)
    hstep freeIf_ints
    hlast Triple.free
    hret

end Osl.Mem
