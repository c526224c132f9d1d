import Verif.HeapIrrProps
/-!
# The irregular extension in memory (C78): copies
-/

set_option linter.unusedSectionVars false

namespace Osl.Mem

open Osl.Ext

variable [Allocator] {K X Y : Type}

/-! ## Arrays which are filled from the left -/

/-- An array of `n` integers, the first of which have been written. -/
def intsFill (a : Ptr) (n : Nat) (l : List Int) : Assn := a ↦ .node (l ++ List.replicate (n - l.length) 0) []

/-- An array of `n` pointers, the first of which have been written. -/
def tableFill (f : Ptr → X → Assn) (a : Ptr) (n : Nat) (l : List X) : Assn := ex fun ks => a ↦ .ptrs (ks ++ List.replicate (n - l.length) 0) ∗ eachAt f ks l

/-- The same array, with the address of something which is not yet there. -/
def tableHole (f : Ptr → X → Assn) (a : Ptr) (n : Nat) (l : List X) (q : Ptr) : Assn :=
  ex fun ks => a ↦ .ptrs (ks ++ q :: List.replicate (n - (l.length + 1)) 0) ∗ eachAt f ks l

theorem tableFill_done {f : Ptr → X → Assn} {a : Ptr} {n : Nat} {l : List X} (h : l.length = n) : ∀ hp, tableFill f a n l hp → tableAt f a l hp := by
  rintro hp ⟨ks, hh⟩
  rw [show n - l.length = 0 by omega] at hh
  simp only [List.replicate_zero, List.append_nil] at hh
  exact table_intro _ hh

theorem intsFill_done {a : Ptr} {n : Nat} {l : List Int} (h : l.length = n) : ∀ hp, intsFill a n l hp → intsAt a l hp := by
  intro hp hh
  unfold intsFill at hh
  rw [show n - l.length = 0 by omega] at hh
  simp only [List.replicate_zero, List.append_nil] at hh
  exact ints_intro _ hh

theorem tableHole_close {f : Ptr → X → Assn} {a q : Ptr} {n : Nat} {l : List X} {x : X} : ∀ hp, (tableHole f a n l q ∗ f q x) hp → tableFill f a n (l ++ [x]) hp := by
  intro hp hh
  unfold tableHole at hh
  rw [ex_sep] at hh
  obtain ⟨ks, hh⟩ := hh
  have hl : ks.length = l.length := by
    obtain ⟨_, _, _, _, ⟨_, _, _, _, _, he⟩, _⟩ := hh
    exact eachAt_len _ he
  refine ⟨ks ++ [q], ?_⟩
  show (a ↦ .ptrs ((ks ++ [q]) ++ List.replicate (n - (l ++ [x]).length) 0) ∗ eachAt f (ks ++ [q]) (l ++ [x])) hp
  rw [eachAt_app hl, eachAt_one, List.append_assoc]
  rw [List.length_append]
  exact hh.perm (by simp only [List.cons_append, List.nil_append, List.length_singleton]; ac_rfl)

theorem tableFill_set {f : Ptr → X → Assn} {a q : Ptr} {n : Nat} {l : List X} {k : Int} (hk : k = l.length) (hn : l.length < n) :
    Triple (tableFill f a n l) (slotSet a k q) (fun _ => tableHole f a n l q) := by
  unfold tableFill
  refine Triple.exi (fun ks => ?_)
  hfact (eachAt_len (f := f) (ks := ks) (l := l))
  intro hl
  have e : List.replicate (n - l.length) (0 : Ptr) = 0 :: List.replicate (n - (l.length + 1)) 0 := by
    rw [show n - l.length = (n - (l.length + 1)) + 1 by omega]; rfl
  rw [e]
  refine Triple.conseq ((slotSet_spec (p := a) (l' := ks ++ q :: List.replicate (n - (l.length + 1)) 0) (setNth_mid (by omega))).frame (eachAt f ks l)) (fun _ h => h) (fun _ h hh => ⟨ks, hh⟩)

theorem intsFill_put {a : Ptr} {n : Nat} {l : List Int} {k v : Int} (hk : k = l.length) (hn : l.length < n) : Triple (intsFill a n l) (slotPut a k v) (fun _ => intsFill a n (l ++ [v])) := by
  unfold intsFill
  have e : List.replicate (n - l.length) (0 : Int) = 0 :: List.replicate (n - (l.length + 1)) 0 := by
    rw [show n - l.length = (n - (l.length + 1)) + 1 by omega]; rfl
  rw [e, List.append_assoc, List.length_append]
  exact slotPut_spec (setNth_mid (by omega))

theorem mallocPtrs_fill {f : Ptr → X → Assn} {m : Nat} {n : Int} (hn : n = m) : Triple emp (mallocPtrs n) (fun a => tableFill f a m []) := by
  subst hn
  unfold mallocPtrs
  rw [if_neg (by omega), Int.toNat_natCast]
  refine allocPtrs_spec.post (fun a h hh => ⟨[], ?_⟩)
  show (a ↦ .ptrs (List.replicate m 0) ∗ emp) h
  rwa [sep_emp]

theorem mallocInts_fill {m : Nat} {n : Int} (hn : n = m) : Triple emp (mallocInts n) (fun a => intsFill a m []) := by
  subst hn
  unfold mallocInts
  rw [if_neg (by omega), Int.toNat_natCast]
  exact allocInts_spec

/-- A loop which adds the elements of a list, one by one. -/
theorem fillLoop {A : List X → Assn} {P : Assn} {body : Int → M Unit} {l pre : List X} {lo hi : Int} (hh : hi = lo + l.length)
    (step : ∀ (j : Nat) x, l[j]? = some x → Triple (P ∗ A (pre ++ l.take j)) (body (lo + j)) (fun _ => P ∗ A (pre ++ l.take j ++ [x]))) :
    Triple (P ∗ A pre) (Mem.forM lo hi body) (fun _ => P ∗ A (pre ++ l)) := by
  subst hh
  have := Triple.forM (Inv := fun k => P ∗ A (pre ++ l.take (k - lo).toNat)) (body := body) (lo := lo) (hi := lo + l.length) (by omega) (fun i h1 h2 => by
    obtain ⟨j, rfl⟩ : ∃ j : Nat, i = lo + j := ⟨(i - lo).toNat, by omega⟩
    have hj : j < l.length := by omega
    have hx : l[j]? = some l[j] := List.getElem?_eq_getElem hj
    have := step j l[j] hx
    have e1 : (lo + (j : Int) - lo).toNat = j := by omega
    have e2 : (lo + (j : Int) + 1 - lo).toNat = j + 1 := by omega

    rw [e1, e2, List.take_add_one, hx]
    rw [List.append_assoc] at this
    exact this)

  rw [show (lo - lo).toNat = 0 by omega, show (lo + (l.length : Int) - lo).toNat = l.length by omega] at this
  simpa using this

/-! ## Strings -/

theorem dupSlot_spec {a : Ptr} {l : List (Option Str)} {i : Nat} {x : Option Str} (hx : l[i]? = some x) : Triple (tableAt uriAt a l) (dupSlot a i) (fun d => tableAt uriAt a l ∗ uriAt d x) := by
  unfold dupSlot
  have := table_use (f := uriAt) (a := a) (F := emp) (G := fun d => uriAt d x) hx (m := hStrdup) (fun p => by
    rw [sep_emp]
    exact uriDup_spec)
  rwa [sep_emp] at this

/-- One string more. -/
theorem dup_fill {s a : Ptr} {l done : List (Option Str)} {n : Nat} {j : Nat} {x : Option Str} (hx : l[j]? = some x) (hd : done.length = j) (hn : j < n) :
    Triple (tableAt uriAt s l ∗ tableFill uriAt a n done) (dupSlot s j >>= fun w => slotSet a j w) (fun _ => tableAt uriAt s l ∗ tableFill uriAt a n (done ++ [x])) := by
  hstep (dupSlot_spec hx)
  hlast (tableFill_set (f := uriAt) (l := done) (n := n) (k := (j : Int)) (by omega) (by omega))
  hconv tableHole_close (f := uriAt) (x := x)
  hret

theorem take_len {l : List X} {j : Nat} {x : X} (h : l[j]? = some x) : (l.take j).length = j := by
  have := (List.getElem?_eq_some_iff.mp h).1
  simp; omega

theorem irrCopyIters_spec {it a : Ptr} {src : List (List (Option Str))} {i : Nat} {l : List (Option Str)} (hi : src[i]? = some l) :
    Triple (tableAt (tableAt uriAt) it src ∗ tableFill uriAt a l.length []) (Mem.forM 0 l.length (irrCopyIter it a i)) (fun _ => tableAt (tableAt uriAt) it src ∗ tableAt uriAt a l) := by
  have := fillLoop (A := tableFill uriAt a l.length) (P := tableAt (tableAt uriAt) it src) (body := irrCopyIter it a i) (l := l) (pre := []) (lo := 0) (hi := l.length) (by omega)
    (fun j x hx => by
      rw [Int.zero_add, List.nil_append]
      unfold irrCopyIter
      exact table_use hi (fun s => dup_fill hx (take_len hx) (List.getElem?_eq_some_iff.mp hx).1))
  rw [List.nil_append] at this
  exact this.post (fun _ h hh => sep_mono (fun _ h => h) (tableFill_done rfl) hh)

theorem irrNewIters_spec {its a : Ptr} {l : List (Option Str)} :
    Triple (tableAt uriAt its l ∗ tableFill uriAt a l.length []) (Mem.forM 0 l.length (irrNewIter its a)) (fun _ => tableAt uriAt its l ∗ tableAt uriAt a l) := by
  have := fillLoop (A := tableFill uriAt a l.length) (P := tableAt uriAt its l) (body := irrNewIter its a) (l := l) (pre := []) (lo := 0) (hi := l.length) (by omega)
    (fun j x hx => by
      rw [Int.zero_add, List.nil_append]
      unfold irrNewIter
      exact dup_fill hx (take_len hx) (List.getElem?_eq_some_iff.mp hx).1)
  rw [List.nil_append] at this
  exact this.post (fun _ h hh => sep_mono (fun _ h => h) (tableFill_done rfl) hh)

/-! ## Predicates -/

/-- The arrays of the predicates, the first of which have been written. -/
def partPreds (d : Ptr × Ptr × Ptr) (n : Nat) (l : List Pred) : Assn :=
  intsFill d.1 n (l.map fun x => (x.iters.length : Int)) ∗ tableFill (tableAt uriAt) d.2.1 n (l.map Pred.iters) ∗ tableFill uriAt d.2.2 n (l.map Pred.body)

theorem partPreds_done {d : Ptr × Ptr × Ptr} {n : Nat} {l : List Pred} (h : l.length = n) : ∀ hp, partPreds d n l hp → predsAt d.1 d.2.1 d.2.2 l hp := by
  intro hp hh
  exact sep_mono (intsFill_done (by simpa using h)) (fun _ hh => sep_mono (tableFill_done (by simpa using h)) (tableFill_done (by simpa using h)) hh) hh

theorem irrCopyPred_spec {nb it bo : Ptr} {d : Ptr × Ptr × Ptr} {n : Nat} {src done : List Pred} {i : Nat} {j k : Int} {x : Pred} (hx : src[i]? = some x) (hi : j = i) (hk : k = done.length) (hn : done.length < n) :
    Triple (predsAt nb it bo src ∗ partPreds d n done) (irrCopyPred nb it bo d.1 d.2.1 d.2.2 j k) (fun _ => predsAt nb it bo src ∗ partPreds d n (done ++ [x])) := by
  subst hi
  obtain ⟨nb', it', bo'⟩ := d
  unfold partPreds predsAt
  simp only [List.map_append, List.map_cons, List.map_nil]
  unfold irrCopyPred
  hstep (ints_slot (a := nb) (l := src.map fun x => (x.iters.length : Int)) (i := i) (v := (x.iters.length : Int)) (by simp [hx]))
  hstep (intsFill_put (a := nb') (n := n) (l := done.map fun x => (x.iters.length : Int)) (by simpa using hk) (by simpa using hn))
  hstep (dupSlot_spec (a := bo) (l := src.map Pred.body) (i := i) (x := x.body) (by simp [hx]))
  hstep (tableFill_set (f := uriAt) (a := bo') (n := n) (l := done.map Pred.body) (by simpa using hk) (by simpa using hn))
  hconv tableHole_close (f := uriAt) (a := bo') (x := x.body)
  hstep (mallocPtrs_fill (f := uriAt) (m := x.iters.length) rfl)
  hstep (tableFill_set (f := tableAt uriAt) (a := it') (n := n) (l := done.map Pred.iters) (by simpa using hk) (by simpa using hn))
  hlast (irrCopyIters_spec (it := it) (src := src.map Pred.iters) (i := i) (l := x.iters) (by simp [hx]))
  hconv tableHole_close (f := tableAt uriAt) (a := it') (x := x.iters)
  hret

theorem irrNewPred_spec {its b : Ptr} {l : List (Option Str)} {o : Option Str} {d : Ptr × Ptr × Ptr} {n : Nat} {done : List Pred} {k m : Int} (hm : m = l.length) (hk : k = done.length) (hn : done.length < n) :
    Triple (tableAt uriAt its l ∗ uriAt b o ∗ partPreds d n done) (irrNewPred its m b d.1 d.2.1 d.2.2 k) (fun _ => tableAt uriAt its l ∗ uriAt b o ∗ partPreds d n (done ++ [⟨l, o⟩])) := by
  subst hm
  obtain ⟨nb', it', bo'⟩ := d
  unfold partPreds
  simp only [List.map_append, List.map_cons, List.map_nil]
  unfold irrNewPred
  hstep (mallocPtrs_fill (f := uriAt) (m := l.length) rfl)
  hstep (tableFill_set (f := tableAt uriAt) (a := it') (n := n) (l := done.map Pred.iters) (by simpa using hk) (by simpa using hn))
  hstep (irrNewIters_spec (its := its) (l := l))
  hconv tableHole_close (f := tableAt uriAt) (a := it') (x := l)
  hstep (intsFill_put (a := nb') (n := n) (l := done.map fun x => (x.iters.length : Int)) (by simpa using hk) (by simpa using hn))
  hstep (uriDup_spec (u := b) (o := o))
  hlast (tableFill_set (f := uriAt) (a := bo') (n := n) (l := done.map Pred.body) (by simpa using hk) (by simpa using hn))
  hconv tableHole_close (f := uriAt) (a := bo') (x := o)
  hret

/-- The copy of the predicates `lo`, ..., to the places which follow `pre`. -/
theorem irrCopyPreds_spec {nb it bo : Ptr} {d : Ptr × Ptr × Ptr} {n lo : Nat} {src pre l : List Pred} {body : Int → M Unit} {a b : Int} (ha : a = pre.length) (hb : b = a + l.length) (hn : pre.length + l.length ≤ n)
    (hl : ∀ (j : Nat) x, l[j]? = some x → src[lo + j]? = some x)
    (hbody : ∀ j : Nat, body (a + j) = irrCopyPred nb it bo d.1 d.2.1 d.2.2 ((lo + j : Nat) : Int) (a + j)) :
    Triple (predsAt nb it bo src ∗ partPreds d n pre) (Mem.forM a b body) (fun _ => predsAt nb it bo src ∗ partPreds d n (pre ++ l)) := by
  refine fillLoop (A := partPreds d n) hb (fun j x hx => ?_)
  rw [hbody j]
  have hj := (List.getElem?_eq_some_iff.mp hx).1
  have ht := take_len hx
  exact irrCopyPred_spec (hl j x hx) rfl (by simp only [List.length_append, ht]; omega) (by simp only [List.length_append, ht]; omega)

/-! ## Statements -/

/-- The arrays of the statements, the first of which have been written. -/
def partStmts (d : Ptr × Ptr) (n : Nat) (l : List (List Int)) : Assn := intsFill d.1 n (l.map fun x => (x.length : Int)) ∗ tableFill intsAt d.2 n l

theorem partStmts_done {d : Ptr × Ptr} {n : Nat} {l : List (List Int)} (h : l.length = n) : ∀ hp, partStmts d n l hp → stmtListsAt d.1 d.2 l hp := by
  intro hp hh
  exact sep_mono (intsFill_done (by simpa using h)) (tableFill_done h) hh

theorem irrCopyNums_spec {pr a : Ptr} {src : List (List Int)} {i : Nat} {l : List Int} (hi : src[i]? = some l) :
    Triple (tableAt intsAt pr src ∗ intsFill a l.length []) (Mem.forM 0 l.length (irrCopyNum pr a i)) (fun _ => tableAt intsAt pr src ∗ intsAt a l) := by
  have := fillLoop (A := intsFill a l.length) (P := tableAt intsAt pr src) (body := irrCopyNum pr a i) (l := l) (pre := []) (lo := 0) (hi := l.length) (by omega)
    (fun j x hx => by
      rw [Int.zero_add, List.nil_append]
      unfold irrCopyNum
      have ht := take_len hx
      have hj := (List.getElem?_eq_some_iff.mp hx).1
      refine table_use hi (fun s => ?_)
      hstep (ints_slot hx)
      hlast (intsFill_put (a := a) (n := l.length) (l := l.take j) (k := (j : Int)) (by omega) (by omega))
      hret)
  rw [List.nil_append] at this
  exact this.post (fun _ h hh => sep_mono (fun _ h => h) (intsFill_done rfl) hh)

theorem irrNewNums_spec {p a : Ptr} {l : List Int} :
    Triple (intsAt p l ∗ intsFill a l.length []) (Mem.forM 0 l.length (irrNewNum p a)) (fun _ => intsAt p l ∗ intsAt a l) := by
  have := fillLoop (A := intsFill a l.length) (P := intsAt p l) (body := irrNewNum p a) (l := l) (pre := []) (lo := 0) (hi := l.length) (by omega)
    (fun j x hx => by
      rw [Int.zero_add, List.nil_append]
      unfold irrNewNum
      have ht := take_len hx
      have hj := (List.getElem?_eq_some_iff.mp hx).1
      hstep (ints_slot hx)
      hlast (intsFill_put (a := a) (n := l.length) (l := l.take j) (k := (j : Int)) (by omega) (by omega))
      hret)
  rw [List.nil_append] at this
  exact this.post (fun _ h hh => sep_mono (fun _ h => h) (intsFill_done rfl) hh)

theorem irrCopyStmt_spec {np pr : Ptr} {d : Ptr × Ptr} {n : Nat} {src done : List (List Int)} {i : Nat} {x : List Int} (hx : src[i]? = some x) (hk : i = done.length) (hn : done.length < n) :
    Triple (stmtListsAt np pr src ∗ partStmts d n done) (irrCopyStmt np pr d.1 d.2 i) (fun _ => stmtListsAt np pr src ∗ partStmts d n (done ++ [x])) := by
  obtain ⟨np', pr'⟩ := d
  unfold partStmts stmtListsAt
  simp only [List.map_append, List.map_cons, List.map_nil]
  unfold irrCopyStmt
  hstep (ints_slot (a := np) (l := src.map fun x => (x.length : Int)) (i := i) (v := (x.length : Int)) (by simp [hx]))
  hstep (intsFill_put (a := np') (n := n) (l := done.map fun x => (x.length : Int)) (k := (i : Int)) (by simp [hk]) (by simpa using hn))
  hstep (mallocInts_fill (m := x.length) rfl)
  hstep (tableFill_set (f := intsAt) (a := pr') (n := n) (l := done) (k := (i : Int)) (by simp [hk]) hn)
  hlast (irrCopyNums_spec (pr := pr) (src := src) (i := i) (l := x) hx)
  hconv tableHole_close (f := intsAt) (a := pr') (x := x)
  hret

theorem irrNewStmt_spec {p : Ptr} {d : Ptr × Ptr} {n : Nat} {l : List Int} {done : List (List Int)} {k m : Int} (hm : m = l.length) (hk : k = done.length) (hn : done.length < n) :
    Triple (intsAt p l ∗ partStmts d n done) (irrNewStmt p m d.1 d.2 k) (fun _ => intsAt p l ∗ partStmts d n (done ++ [l])) := by
  subst hm
  obtain ⟨np', pr'⟩ := d
  unfold partStmts
  simp only [List.map_append, List.map_cons, List.map_nil]
  unfold irrNewStmt
  hstep (mallocInts_fill (m := l.length) rfl)
  hstep (tableFill_set (f := intsAt) (a := pr') (n := n) (l := done) hk hn)
  hstep (irrNewNums_spec (p := p) (l := l))
  hconv tableHole_close (f := intsAt) (a := pr') (x := l)
  hlast (intsFill_put (a := np') (n := n) (l := done.map fun x => (x.length : Int)) (by simpa using hk) (by simpa using hn))
  hret

theorem irrStmts_spec {p r nb it bo np pr q0 q1 q2 q3 q4 : Ptr} {is js : List Int} {l : List (List Int)} {m : Nat} {k s : Int} (hk : k = m) (hs : s = l.length) (hm : l.length ≤ m) :
    Triple (p ↦ .node is [nb, it, bo, np, pr] ∗ stmtListsAt np pr l ∗ r ↦ .node js [q0, q1, q2, q3, q4]) (irrStmts p r k s)
      (fun d => p ↦ .node is [nb, it, bo, np, pr] ∗ stmtListsAt np pr l ∗ r ↦ .node js [q0, q1, q2, d.1, d.2] ∗ partStmts d m l) := by
  unfold irrStmts
  hstep (mallocInts_fill hk)
  hstep (setPtr_spec (p := r) (l' := [q0, q1, q2, np', q4]) rfl)
  hstep (mallocPtrs_fill (f := intsAt) hk)
  hstep (setPtr_spec (p := r) (l' := [q0, q1, q2, np', pr']) rfl)
  hstep (getPtr_spec (p := p) (x := np) rfl)
  hstep (getPtr_spec (p := p) (x := pr) rfl)
  have := fillLoop (A := partStmts (np', pr') m) (P := stmtListsAt np pr l) (body := irrCopyStmt np pr np' pr') (l := l) (pre := []) (lo := 0) (hi := s) (by omega)
    (fun j x hx => by
      rw [Int.zero_add, List.nil_append]
      have ht := take_len hx
      have hj := (List.getElem?_eq_some_iff.mp hx).1
      exact irrCopyStmt_spec (d := (np', pr')) hx ht.symm (by omega))
  rw [List.nil_append] at this
  have e : (intsFill np' m [] ∗ tableFill intsAt pr' m []) = partStmts (np', pr') m [] := rfl
  refine Triple.pre ?_ (fun h hh => ?_) (P := p ↦ .node is [nb, it, bo, np, pr] ∗ r ↦ .node js [q0, q1, q2, np', pr'] ∗ stmtListsAt np pr l ∗ partStmts (np', pr') m [])
  · hstep this
    hret
  · rw [← e]
    exact hh.perm (by ac_rfl)

theorem irrArrays_spec {r q0 q1 q2 q3 q4 : Ptr} {js : List Int} {n : Nat} {t : Int} (ht : t = n) :
    Triple (r ↦ .node js [q0, q1, q2, q3, q4]) (irrArrays r t) (fun d => r ↦ .node js [d.1, d.2.1, d.2.2, q3, q4] ∗ partPreds d n []) := by
  unfold irrArrays partPreds
  hstep (mallocPtrs_fill (f := tableAt uriAt) ht)
  hstep (setPtr_spec (p := r) (l' := [q0, it', q2, q3, q4]) rfl)
  hstep (mallocInts_fill ht)
  hstep (setPtr_spec (p := r) (l' := [nb', it', q2, q3, q4]) rfl)
  hstep (mallocPtrs_fill (f := uriAt) ht)
  hstep (setPtr_spec (p := r) (l' := [nb', it', bo', q3, q4]) rfl)
  hret

theorem irrPreds_spec {p nb it bo np pr : Ptr} {is : List Int} :
    Triple (p ↦ .node is [nb, it, bo, np, pr]) (irrPreds p) (fun r => pur (r = (nb, it, bo)) ∗ p ↦ .node is [nb, it, bo, np, pr]) := by
  unfold irrPreds
  hstep (getPtr_spec (p := p) (x := nb) rfl)
  hstep (getPtr_spec (p := p) (x := it) rfl)
  hstep (getPtr_spec (p := p) (x := bo) rfl)
  hret

end Osl.Mem
