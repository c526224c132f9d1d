import Verif.HeapExtProps5
/-!
# The data of the extensions in memory: symbols (C56)
-/

set_option linter.unusedSectionVars false

namespace Osl.Mem

open Osl.Ext

variable [Allocator] {D : Type} {E : Env D} {O : DataMem D E}

/-- The memory of a symbol, with its `next` pointer. -/
def symAt (O : DataMem D E) (p : Ptr) (x : Symbol D) (n : Ptr) : Assn :=
  ex fun a => ex fun b => ex fun d => ex fun e => p ↦ .node [x.type, x.generated, x.nb_dims] [a, b, d, e, n] ∗ glistAt O a x.identifier ∗ glistAt O b x.datatype ∗
    glistAt O d x.scope ∗ glistAt O e x.extent

theorem symAt_ne {p n : Ptr} {x : Symbol D} : ∀ h, symAt O p x n h → p ≠ 0 := by
  rintro h ⟨a, b, c, d, hh⟩
  exact pto_ne_sep h hh

/-- The chain of the symbols. -/
def symChain (O : DataMem D E) : Chain (Symbol D) where
  toNext := symNext
  at_ := symAt O
  nonnull := fun h => symAt_ne _ h
  own := by
    rintro p s n h ⟨a, b, c, d, hh⟩
    exact own_pto hh
  big := fun p s n => Big.ex (fun _ => Big.ex (fun _ => Big.ex (fun _ => Big.ex (fun _ => (Big.pto _ _).sep (Big.zero _)))))
  get_spec := by
    intro p s n
    unfold symNext
    hopen symAt
    hlast getPtr_spec
    hret
  set_spec := by
    intro p s n n'
    unfold symNext
    hopen symAt
    hlast setPtr_spec
    hret

theorem symFreeStep_spec (p : Ptr) (x : Symbol D) (n : Ptr) : Triple (symAt O p x n) (symFreeStep O.toDataFns p) (fun r => pur (r = n)) := by
  unfold symFreeStep symNext
  hopen symAt
  hstep getPtr_spec
  hstep getPtr_spec
  hstep generic_free_memory
  hstep getPtr_spec
  hstep generic_free_memory
  hstep getPtr_spec
  hstep generic_free_memory
  hstep getPtr_spec
  hstep generic_free_memory
  hstep Triple.free
  hret

/-- C56: `osl_symbols_free` frees exactly the symbols and their generics. -/
theorem symbols_free_memory (p : Ptr) (l : List (Symbol D)) : Triple ((symChain O).list p l) (symFree O.toDataFns p) (fun _ => emp) :=
  Chain.freeAll_spec (N := symChain O) symFreeStep_spec l p

/-- C56: `osl_symbols_add` links the two lists. -/
theorem symbols_add_memory (l1 l2 : List (Symbol D)) (p1 p2 : Ptr) :
    Triple ((symChain O).list p1 l1 ∗ (symChain O).list p2 l2) (symAdd p1 p2) (fun p => (symChain O).list p (Symbol.add l1 l2)) :=
  Chain.append_spec (N := symChain O) l1 l2 p1 p2

/-- C56: `osl_symbols_get_nb_symbols` only reads. -/
theorem symbols_count_memory (p : Ptr) (l : List (Symbol D)) :
    Triple ((symChain O).list p l) (symCount p) (fun n => pur (n = l.length) ∗ (symChain O).list p l) := Chain.countAll_spec (N := symChain O) l p

theorem symField_spec {p q x : Ptr} {is js : List Int} {m : List Ptr} {l : List Ptr} {i : Nat} {g g' : GList D} (hg : GList.clone E g = .ok g') (h : nth l i = .ok x)
    (hi : decide (i < m.length) = true) :
    Triple (p ↦ .node is l ∗ glistAt O x g ∗ q ↦ .node js m) (symField O.toDataFns p q i)
      (fun _ => ex fun y => p ↦ .node is l ∗ glistAt O x g ∗ glistAt O y g' ∗ q ↦ .node js (m.set i y)) := by
  unfold symField
  hstep (getPtr_spec h)
  hstep (generic_clone_memory hg)
  hlast (setPtr_spec (setNth_ok (l := m) (of_decide_eq_true hi)))
  hret

theorem symCopy_spec (p : Ptr) (x : Symbol D) (n : Ptr) (x' : Symbol D) (h : Symbol.cloneOne E x = .ok x') :
    Triple (symAt O p x n) (symCopy O.toDataFns p) (fun q => symAt O p x n ∗ symAt O q x' 0) := by
  obtain ⟨g1, h1, h⟩ := Out.bind_eq_ok.mp h
  obtain ⟨g2, h2, h⟩ := Out.bind_eq_ok.mp h
  obtain ⟨g3, h3, h⟩ := Out.bind_eq_ok.mp h
  obtain ⟨g4, h4, h⟩ := Out.bind_eq_ok.mp h
  injection h with h
  subst h
  unfold symCopy symMalloc
  hopen symAt
  hstep Triple.alloc
  hstep copyInt_spec
  hstep copyInt_spec
  hstep copyInt_spec
  hstep (symField_spec h1 (i := 0))
  hstep (symField_spec h2 (i := 1))
  hstep (symField_spec h3 (i := 2))
  hstep (symField_spec h4 (i := 3))
  hret

/-- What remains to be copied (specification): `n` is -1 when all the symbols are copied. -/
def leftOf (n : Int) (i : Nat) : Option Nat := if n = -1 then none else some (n - i).toNat

theorem symNcloneLoop_spec : ∀ (f : Nat) (k : Int) (i : Nat) (l acc l' : List (Symbol D)) (p cl : Ptr), l.length ≤ f → Symbol.ncloneLoop E k i l acc = .ok l' →
    Triple ((symChain O).list p l ∗ (symChain O).list cl acc) (symNcloneLoop O.toDataFns f (leftOf k i) p cl) (fun q => (symChain O).list p l ∗ (symChain O).list q l') := by
  intro f
  have fin : ∀ (f : Nat) (k : Int) (i : Nat) (acc l' : List (Symbol D)) (p cl : Ptr), Symbol.ncloneLoop E k i [] acc = .ok l' →
    Triple ((symChain O).list p [] ∗ (symChain O).list cl acc) (symNcloneLoop O.toDataFns f (leftOf k i) p cl) (fun q => (symChain O).list p [] ∗ (symChain O).list q l') := by
    intro f k i acc l' p cl h
    have h : acc = l' := by simpa [Symbol.ncloneLoop] using h
    subst h
    rw [Chain.list_null]
    refine Triple.fact (fun hp => ?_)
    have e : symNcloneLoop O.toDataFns f (leftOf k i) p cl = pure cl := by cases f <;> simp [symNcloneLoop, hp]
    rw [e]
    exact Triple.ret (fun h hh => pur_sep_iff.mpr ⟨hp, hh⟩)
  induction f with
  | zero =>
    intro k i l acc l' p cl hl h
    have : l = [] := List.length_eq_zero_iff.mp (by omega)
    subst this
    exact fin 0 k i acc l' p cl h
  | succ f ih =>
    intro k i l acc l' p cl hl h
    cases l with
    | nil => exact fin _ k i acc l' p cl h
    | cons x l =>
      hfact (fun h (hh : (symChain O).list p (x :: l) h) => Chain.list_cons_ne hh)
      intro hp
      unfold Symbol.ncloneLoop at h
      by_cases hc : k = -1 ∨ (i : Int) < k
      · rw [if_pos hc] at h
        obtain ⟨x', hx, h⟩ := Out.bind_eq_ok.mp h
        have hleft : leftOf k i ≠ some 0 := by
          unfold leftOf
          split
          · simp
          · intro h
            injection h with h
            omega
        have hnext : (leftOf k i).map (· - 1) = leftOf k (i + 1) := by
          unfold leftOf
          split
          · rfl
          · simp
            omega
        unfold symNcloneLoop
        rw [if_pos ⟨hp, hleft⟩, Chain.list_cons]
        hnorm
        have e1 : (symChain O).at_ p x n = symAt O p x n := rfl
        rw [e1, hnext]
        hstep (symCopy_spec p x n x' hx)
        have e2 : symAt O new x' 0 = (symChain O).list new [x'] := (Chain.list_one (N := symChain O)).symm
        rw [e2]
        hstep (symbols_add_memory acc [x'])
        hstep ((symChain O).get_spec p x n)
        hlast (ih k (i + 1) l _ l' n _ (by simpa using hl) h)
        refine Triple.ret (fun h hh => ?_)
        have hh' : (((symChain O).at_ p x n ∗ (symChain O).list n l) ∗ (symChain O).list a l') h := hh.perm (by ac_rfl)
        exact sep_mono (fun h hh => ⟨n, hh⟩) (fun _ h => h) hh'
      · rw [if_neg hc] at h
        injection h with h
        subst h
        have hleft : leftOf k i = some 0 := by
          unfold leftOf
          rw [if_neg (by omega)]
          congr 1
          omega
        unfold symNcloneLoop
        refine Triple.of_if_neg (by simp [hleft]) ?_
        exact Triple.ret (fun h hh => hh)

/-- C56: `osl_symbols_nclone` copies the first symbols in a separate memory. -/
theorem symbols_nclone_memory {l l' : List (Symbol D)} {n : Int} (h : Symbol.nclone E l n = .ok l') (p : Ptr) :
    Triple ((symChain O).list p l) (symNclone O.toDataFns p n) (fun q => (symChain O).list p l ∗ (symChain O).list q l') := by
  unfold symNclone
  refine Triple.bind (Triple.heapSize (Chain.seg_big l p 0)) (fun fuel => Triple.fact (fun hf => ?_))
  have := symNcloneLoop_spec (O := O) fuel n 0 l [] l' p 0 hf h
  rw [Chain.list_nil, sep_emp] at this
  have e : leftOf n 0 = if n = -1 then none else some n.toNat := by simp [leftOf]
  rw [e] at this
  exact this

/-- C56: `osl_symbols_clone` is a copy in a separate memory. -/
theorem symbols_clone_memory {l l' : List (Symbol D)} (h : Symbol.clone E l = .ok l') (p : Ptr) :
    Triple ((symChain O).list p l) (symClone O.toDataFns p) (fun q => (symChain O).list p l ∗ (symChain O).list q l') := symbols_nclone_memory h p

theorem ncloneLoop_ne : ∀ {l acc : List (Symbol D)} {i : Nat}, acc ≠ [] → Symbol.ncloneLoop E (-1) i l acc ≠ .ok []
  | [], acc, i, h => by
    intro h'
    injection h' with h'
    exact h h'
  | x :: l, acc, i, h => by
    intro h'
    unfold Symbol.ncloneLoop at h'
    rw [if_pos (Or.inl rfl)] at h'
    obtain ⟨a, _, h'⟩ := Out.bind_eq_ok.mp h'
    exact ncloneLoop_ne (acc := Symbol.add acc [a]) (by simp [Symbol.add]) h'

theorem symbols_clone_nil {l : List (Symbol D)} (h : Symbol.clone E l = .ok []) : l = [] := by
  cases l with
  | nil => rfl
  | cons x l =>
    have h : Symbol.ncloneLoop E (-1) 0 (x :: l) [] = .ok [] := h
    unfold Symbol.ncloneLoop at h
    rw [if_pos (Or.inl rfl)] at h
    obtain ⟨a, _, h⟩ := Out.bind_eq_ok.mp h
    exact absurd h (ncloneLoop_ne (by simp [Symbol.add]))

/-- The symbols (source/extensions/symbols.c:548-560). -/
def symbolsMem (O : DataMem D E) (registry : Ifaces) : KindMem (NE (Symbol D)) (Symbol.ops E registry) :=
  listMem (symChain O) (symFree O.toDataFns) (symClone O.toDataFns) _ (Symbol.clone E) (fun _ => rfl) symbols_clone_nil symbols_free_memory
    (fun p _ _ h => symbols_clone_memory h p)

end Osl.Mem
