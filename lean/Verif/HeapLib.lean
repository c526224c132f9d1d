import Verif.HeapExtProps6
/-!
# The data of the whole library in memory (C56)
-/

set_option linter.unusedSectionVars false

namespace Osl.Mem

open Osl.Ext

variable [Allocator] {S : Type}

/-! ## The memory of any data -/

/-- The memory of the data of the known extensions (specification): `sym` is the memory of the symbols. -/
def dataAt (c : Cfg) (sym : Ptr → S → Assn) (p : Ptr) : Data S → Assn
  | .strings x => stringsAt p (some x)
  | .body x => bodyAt p x
  | .relation x => relAt c p (NE.elems (some x))
  | .textual x => stringFieldAt p x.textual
  | .comment x => stringFieldAt p x.comment
  | .null _ => p ↦ .ptrs []
  | .scatinfos x => scatinfosAt p x
  | .scatnames x => scatnamesAt p x
  | .arrays x => arraysAt p x
  | .coordinates x => coordAt p x
  | .clay x => stringFieldAt p x.script
  | .dependence x => (depChain c).list p (NE.elems (some x))
  | .symbols x => sym p x
  | .extbody x => extbodyAt p x
  | .loop x => loopChain.list p (NE.elems (some x))
  | .unroll x => unrollChain.list p (NE.elems (some x))
  | .region x => regionChain.list p (NE.elems (some x))
  | .annotation x => annAt p x

/-- The number of the interface of some data in the default registry (source/interface.c:366-393). -/
def kindNo : Data S → Nat
  | .strings _ => 0
  | .body _ => 1
  | .relation _ => 2
  | .textual _ => 3
  | .comment _ => 4
  | .null _ => 5
  | .scatinfos _ => 6
  | .scatnames _ => 7
  | .arrays _ => 8
  | .coordinates _ => 9
  | .clay _ => 10
  | .dependence _ => 11
  | .symbols _ => 12
  | .extbody _ => 13
  | .loop _ => 14
  | .unroll _ => 15
  | .region _ => 16
  | .annotation _ => 17

/-- The functions are those of the kind of the data (specification).  A NULL pointer is data of any kind but annotation (number 17), whose functions
dereference it. -/
def dataFits (f : Fns) (d : Option (Data S)) : Prop :=
  f.free = f.clone ∧ match d with | some d => f.clone = kindNo d | none => f.clone < 17

theorem lift_clone_spec {X : Type} {o : Ops X} (M : KindMem X o) (inj : X → Data S) {at_ : Ptr → Data S → Assn} (hat : ∀ p x, at_ p (inj x) = M.at_ p x) {p : Ptr}
    {d : Option X} {d' : Option (Data S)} (h : (o.clone d >>= fun p => .ok (p.map inj)) = .ok d') :
    Triple (optAt at_ p (d.map inj)) (M.clone p) (fun q => optAt at_ p (d.map inj) ∗ optAt at_ q d') := by
  obtain ⟨y, hy, h⟩ := Out.bind_eq_ok.mp h
  injection h with h
  subst h
  have e : ∀ (p : Ptr) (z : Option X), optAt at_ p (z.map inj) = optAt M.at_ p z := by
    intro p z
    cases z with
    | none => rfl
    | some z => exact hat p z
  simp only [e]
  exact M.clone_spec hy

theorem lift_free_spec {X : Type} {o : Ops X} (M : KindMem X o) (inj : X → Data S) {at_ : Ptr → Data S → Assn} (hat : ∀ p x, at_ p (inj x) = M.at_ p x) {p : Ptr}
    {d : Option X} (h : d = none → M.nullOk = true) : Triple (optAt at_ p (d.map inj)) (M.free p) (fun _ => emp) := by
  have e : ∀ (p : Ptr) (z : Option X), optAt at_ p (z.map inj) = optAt M.at_ p z := by
    intro p z
    cases z with
    | none => rfl
    | some z => exact hat p z
  rw [e]
  exact M.free_spec h

theorem lift_clone_fits {X : Type} {o : Ops X} (M : KindMem X o) (inj : X → Data S) {d : Option X} {d' : Option (Data S)} {f : Fns} {k : Nat} (hk : ∀ x, kindNo (inj x) = k)
    (hf : f.free = f.clone) (hc : f.clone = k) (hn : d = none → k < 17) (h : (o.clone d >>= fun p => .ok (p.map inj)) = .ok d') : dataFits f d' := by
  obtain ⟨y, hy, h⟩ := Out.bind_eq_ok.mp h
  injection h with h
  subst h
  refine ⟨hf, ?_⟩
  cases y with
  | some y => show f.clone = kindNo (inj y); rw [hk, hc]
  | none =>
    show f.clone < 17
    rw [hc]
    cases d with
    | none => exact hn rfl
    | some d => exact absurd hy M.null_clone

section

variable {so : Ops S} (c : Cfg) (e : Option Str) (sm : KindMem S so)

theorem below17 {k : Nat} (h : k < 17) : k = 0 ∨ k = 1 ∨ k = 2 ∨ k = 3 ∨ k = 4 ∨ k = 5 ∨ k = 6 ∨ k = 7 ∨ k = 8 ∨ k = 9 ∨ k = 10 ∨ k = 11 ∨ k = 12 ∨ k = 13 ∨ k = 14 ∨
    k = 15 ∨ k = 16 := by omega

/-- C56: the `free` function of the interface of some data frees exactly its memory. -/
theorem data_free_memory (hs : sm.nullOk = true) {f : Fns} {p : Ptr} {d : Option (Data S)} (h : dataFits f d) :
    Triple (optAt (dataAt c sm.at_) p d) ((extFns c sm.free sm.clone).free f.free p) (fun _ => emp) := by
  obtain ⟨hf, hd⟩ := h
  rw [hf]
  cases d with
  | none =>
    have hd : f.clone < 17 := hd
    generalize f.clone = k at hd
    rcases below17 hd with rfl | rfl | rfl | rfl | rfl | rfl | rfl | rfl | rfl | rfl | rfl | rfl | rfl | rfl | rfl | rfl | rfl
    · exact lift_free_spec stringsMem .strings (d := none) (fun _ _ => rfl) (fun _ => rfl)
    · exact lift_free_spec bodyMem .body (d := none) (fun _ _ => rfl) (fun _ => rfl)
    · exact lift_free_spec (relationMem c none) .relation (d := none) (fun _ _ => rfl) (fun _ => rfl)
    · exact lift_free_spec textualMem .textual (d := none) (fun _ _ => rfl) (fun _ => rfl)
    · exact lift_free_spec commentMem .comment (d := none) (fun _ _ => rfl) (fun _ => rfl)
    · exact lift_free_spec nullMem .null (d := none) (fun _ _ => rfl) (fun _ => rfl)
    · exact lift_free_spec scatinfosMem .scatinfos (d := none) (fun _ _ => rfl) (fun _ => rfl)
    · exact lift_free_spec scatnamesMem .scatnames (d := none) (fun _ _ => rfl) (fun _ => rfl)
    · exact lift_free_spec arraysMem .arrays (d := none) (fun _ _ => rfl) (fun _ => rfl)
    · exact lift_free_spec coordMem .coordinates (d := none) (fun _ _ => rfl) (fun _ => rfl)
    · exact lift_free_spec clayMem .clay (d := none) (fun _ _ => rfl) (fun _ => rfl)
    · exact lift_free_spec (dependenceMem c none) .dependence (d := none) (fun _ _ => rfl) (fun _ => rfl)
    · exact lift_free_spec sm .symbols (d := none) (fun _ _ => rfl) (fun _ => hs)
    · exact lift_free_spec extbodyMem .extbody (d := none) (fun _ _ => rfl) (fun _ => rfl)
    · exact lift_free_spec loopMem .loop (d := none) (fun _ _ => rfl) (fun _ => rfl)
    · exact lift_free_spec unrollMem .unroll (d := none) (fun _ _ => rfl) (fun _ => rfl)
    · exact lift_free_spec regionMem .region (d := none) (fun _ _ => rfl) (fun _ => rfl)
  | some d =>
    have hd : f.clone = kindNo d := hd
    rw [hd]
    cases d with
    | strings x => exact lift_free_spec stringsMem .strings (d := some x) (fun _ _ => rfl) (by simp)
    | body x => exact lift_free_spec bodyMem .body (d := some x) (fun _ _ => rfl) (by simp)
    | relation x => exact lift_free_spec (relationMem c none) .relation (d := some x) (fun _ _ => rfl) (by simp)
    | textual x => exact lift_free_spec textualMem .textual (d := some x) (fun _ _ => rfl) (by simp)
    | comment x => exact lift_free_spec commentMem .comment (d := some x) (fun _ _ => rfl) (by simp)
    | null x => exact lift_free_spec nullMem .null (d := some x) (fun _ _ => rfl) (by simp)
    | scatinfos x => exact lift_free_spec scatinfosMem .scatinfos (d := some x) (fun _ _ => rfl) (by simp)
    | scatnames x => exact lift_free_spec scatnamesMem .scatnames (d := some x) (fun _ _ => rfl) (by simp)
    | arrays x => exact lift_free_spec arraysMem .arrays (d := some x) (fun _ _ => rfl) (by simp)
    | coordinates x => exact lift_free_spec coordMem .coordinates (d := some x) (fun _ _ => rfl) (by simp)
    | clay x => exact lift_free_spec clayMem .clay (d := some x) (fun _ _ => rfl) (by simp)
    | dependence x => exact lift_free_spec (dependenceMem c none) .dependence (d := some x) (fun _ _ => rfl) (by simp)
    | symbols x => exact lift_free_spec sm .symbols (d := some x) (fun _ _ => rfl) (by simp)
    | extbody x => exact lift_free_spec extbodyMem .extbody (d := some x) (fun _ _ => rfl) (by simp)
    | loop x => exact lift_free_spec loopMem .loop (d := some x) (fun _ _ => rfl) (by simp)
    | unroll x => exact lift_free_spec unrollMem .unroll (d := some x) (fun _ _ => rfl) (by simp)
    | region x => exact lift_free_spec regionMem .region (d := some x) (fun _ _ => rfl) (by simp)
    | annotation x => exact lift_free_spec annotationMem .annotation (d := some x) (fun _ _ => rfl) (by simp)

/-- C56: the `clone` function of the interface of some data is a copy in a separate memory. -/
theorem data_clone_memory {f : Fns} {p : Ptr} {d d' : Option (Data S)} (h : dataFits f d) (hd' : (Data.env c e so).clone f.clone d = .ok d') :
    dataFits f d' ∧ Triple (optAt (dataAt c sm.at_) p d) ((extFns c sm.free sm.clone).clone f.clone p)
      (fun q => optAt (dataAt c sm.at_) p d ∗ optAt (dataAt c sm.at_) q d') := by
  obtain ⟨hf, hd⟩ := h
  cases d with
  | none =>
    have hd : f.clone < 17 := hd
    rcases below17 hd with hk | hk | hk | hk | hk | hk | hk | hk | hk | hk | hk | hk | hk | hk | hk | hk | hk <;> rw [hk] at hd' <;> rw [hk]
    · exact ⟨lift_clone_fits stringsMem .strings (d := none) (fun _ => rfl) hf hk (fun _ => by decide) hd', lift_clone_spec stringsMem .strings (d := none) (fun _ _ => rfl) hd'⟩
    · exact ⟨lift_clone_fits bodyMem .body (d := none) (fun _ => rfl) hf hk (fun _ => by decide) hd', lift_clone_spec bodyMem .body (d := none) (fun _ _ => rfl) hd'⟩
    · exact ⟨lift_clone_fits (relationMem c e) .relation (d := none) (fun _ => rfl) hf hk (fun _ => by decide) hd', lift_clone_spec (relationMem c e) .relation (d := none) (fun _ _ => rfl) hd'⟩
    · exact ⟨lift_clone_fits textualMem .textual (d := none) (fun _ => rfl) hf hk (fun _ => by decide) hd', lift_clone_spec textualMem .textual (d := none) (fun _ _ => rfl) hd'⟩
    · exact ⟨lift_clone_fits commentMem .comment (d := none) (fun _ => rfl) hf hk (fun _ => by decide) hd', lift_clone_spec commentMem .comment (d := none) (fun _ _ => rfl) hd'⟩
    · exact ⟨lift_clone_fits nullMem .null (d := none) (fun _ => rfl) hf hk (fun _ => by decide) hd', lift_clone_spec nullMem .null (d := none) (fun _ _ => rfl) hd'⟩
    · exact ⟨lift_clone_fits scatinfosMem .scatinfos (d := none) (fun _ => rfl) hf hk (fun _ => by decide) hd', lift_clone_spec scatinfosMem .scatinfos (d := none) (fun _ _ => rfl) hd'⟩
    · exact ⟨lift_clone_fits scatnamesMem .scatnames (d := none) (fun _ => rfl) hf hk (fun _ => by decide) hd', lift_clone_spec scatnamesMem .scatnames (d := none) (fun _ _ => rfl) hd'⟩
    · exact ⟨lift_clone_fits arraysMem .arrays (d := none) (fun _ => rfl) hf hk (fun _ => by decide) hd', lift_clone_spec arraysMem .arrays (d := none) (fun _ _ => rfl) hd'⟩
    · exact ⟨lift_clone_fits coordMem .coordinates (d := none) (fun _ => rfl) hf hk (fun _ => by decide) hd', lift_clone_spec coordMem .coordinates (d := none) (fun _ _ => rfl) hd'⟩
    · exact ⟨lift_clone_fits clayMem .clay (d := none) (fun _ => rfl) hf hk (fun _ => by decide) hd', lift_clone_spec clayMem .clay (d := none) (fun _ _ => rfl) hd'⟩
    · exact ⟨lift_clone_fits (dependenceMem c e) .dependence (d := none) (fun _ => rfl) hf hk (fun _ => by decide) hd', lift_clone_spec (dependenceMem c e) .dependence (d := none) (fun _ _ => rfl) hd'⟩
    · exact ⟨lift_clone_fits sm .symbols (d := none) (fun _ => rfl) hf hk (fun _ => by decide) hd', lift_clone_spec sm .symbols (d := none) (fun _ _ => rfl) hd'⟩
    · exact ⟨lift_clone_fits extbodyMem .extbody (d := none) (fun _ => rfl) hf hk (fun _ => by decide) hd', lift_clone_spec extbodyMem .extbody (d := none) (fun _ _ => rfl) hd'⟩
    · exact ⟨lift_clone_fits loopMem .loop (d := none) (fun _ => rfl) hf hk (fun _ => by decide) hd', lift_clone_spec loopMem .loop (d := none) (fun _ _ => rfl) hd'⟩
    · exact ⟨lift_clone_fits unrollMem .unroll (d := none) (fun _ => rfl) hf hk (fun _ => by decide) hd', lift_clone_spec unrollMem .unroll (d := none) (fun _ _ => rfl) hd'⟩
    · exact ⟨lift_clone_fits regionMem .region (d := none) (fun _ => rfl) hf hk (fun _ => by decide) hd', lift_clone_spec regionMem .region (d := none) (fun _ _ => rfl) hd'⟩
  | some d =>
    replace hd : f.clone = kindNo d := hd
    rw [hd] at hd'
    cases d <;> rename_i x <;> rw [hd]
    · exact ⟨lift_clone_fits stringsMem .strings (d := some x) (fun _ => rfl) hf hd (by simp) hd', lift_clone_spec stringsMem .strings (d := some x) (fun _ _ => rfl) hd'⟩
    · exact ⟨lift_clone_fits bodyMem .body (d := some x) (fun _ => rfl) hf hd (by simp) hd', lift_clone_spec bodyMem .body (d := some x) (fun _ _ => rfl) hd'⟩
    · exact ⟨lift_clone_fits (relationMem c e) .relation (d := some x) (fun _ => rfl) hf hd (by simp) hd', lift_clone_spec (relationMem c e) .relation (d := some x) (fun _ _ => rfl) hd'⟩
    · exact ⟨lift_clone_fits textualMem .textual (d := some x) (fun _ => rfl) hf hd (by simp) hd', lift_clone_spec textualMem .textual (d := some x) (fun _ _ => rfl) hd'⟩
    · exact ⟨lift_clone_fits commentMem .comment (d := some x) (fun _ => rfl) hf hd (by simp) hd', lift_clone_spec commentMem .comment (d := some x) (fun _ _ => rfl) hd'⟩
    · exact ⟨lift_clone_fits nullMem .null (d := some x) (fun _ => rfl) hf hd (by simp) hd', lift_clone_spec nullMem .null (d := some x) (fun _ _ => rfl) hd'⟩
    · exact ⟨lift_clone_fits scatinfosMem .scatinfos (d := some x) (fun _ => rfl) hf hd (by simp) hd', lift_clone_spec scatinfosMem .scatinfos (d := some x) (fun _ _ => rfl) hd'⟩
    · exact ⟨lift_clone_fits scatnamesMem .scatnames (d := some x) (fun _ => rfl) hf hd (by simp) hd', lift_clone_spec scatnamesMem .scatnames (d := some x) (fun _ _ => rfl) hd'⟩
    · exact ⟨lift_clone_fits arraysMem .arrays (d := some x) (fun _ => rfl) hf hd (by simp) hd', lift_clone_spec arraysMem .arrays (d := some x) (fun _ _ => rfl) hd'⟩
    · exact ⟨lift_clone_fits coordMem .coordinates (d := some x) (fun _ => rfl) hf hd (by simp) hd', lift_clone_spec coordMem .coordinates (d := some x) (fun _ _ => rfl) hd'⟩
    · exact ⟨lift_clone_fits clayMem .clay (d := some x) (fun _ => rfl) hf hd (by simp) hd', lift_clone_spec clayMem .clay (d := some x) (fun _ _ => rfl) hd'⟩
    · exact ⟨lift_clone_fits (dependenceMem c e) .dependence (d := some x) (fun _ => rfl) hf hd (by simp) hd', lift_clone_spec (dependenceMem c e) .dependence (d := some x) (fun _ _ => rfl) hd'⟩
    · exact ⟨lift_clone_fits sm .symbols (d := some x) (fun _ => rfl) hf hd (by simp) hd', lift_clone_spec sm .symbols (d := some x) (fun _ _ => rfl) hd'⟩
    · exact ⟨lift_clone_fits extbodyMem .extbody (d := some x) (fun _ => rfl) hf hd (by simp) hd', lift_clone_spec extbodyMem .extbody (d := some x) (fun _ _ => rfl) hd'⟩
    · exact ⟨lift_clone_fits loopMem .loop (d := some x) (fun _ => rfl) hf hd (by simp) hd', lift_clone_spec loopMem .loop (d := some x) (fun _ _ => rfl) hd'⟩
    · exact ⟨lift_clone_fits unrollMem .unroll (d := some x) (fun _ => rfl) hf hd (by simp) hd', lift_clone_spec unrollMem .unroll (d := some x) (fun _ _ => rfl) hd'⟩
    · exact ⟨lift_clone_fits regionMem .region (d := some x) (fun _ => rfl) hf hd (by simp) hd', lift_clone_spec regionMem .region (d := some x) (fun _ _ => rfl) hd'⟩
    · exact ⟨lift_clone_fits annotationMem .annotation (d := some x) (fun _ => rfl) hf hd (by simp) hd', lift_clone_spec annotationMem .annotation (d := some x) (fun _ _ => rfl) hd'⟩

theorem dataAt_ne {p : Ptr} {d : Data S} {h : PHeap} (hh : dataAt c sm.at_ p d h) : p ≠ 0 := by
  cases d with
  | strings x => exact stringsMem.nonnull (x := x) hh
  | body x => exact bodyMem.nonnull (x := x) hh
  | relation x => exact (relationMem c none).nonnull (x := x) hh
  | textual x => exact textualMem.nonnull (x := x) hh
  | comment x => exact commentMem.nonnull (x := x) hh
  | null x => exact nullMem.nonnull (x := x) hh
  | scatinfos x => exact scatinfosMem.nonnull (x := x) hh
  | scatnames x => exact scatnamesMem.nonnull (x := x) hh
  | arrays x => exact arraysMem.nonnull (x := x) hh
  | coordinates x => exact coordMem.nonnull (x := x) hh
  | clay x => exact clayMem.nonnull (x := x) hh
  | dependence x => exact (dependenceMem c none).nonnull (x := x) hh
  | symbols x => exact sm.nonnull (x := x) hh
  | extbody x => exact extbodyMem.nonnull (x := x) hh
  | loop x => exact loopMem.nonnull (x := x) hh
  | unroll x => exact unrollMem.nonnull (x := x) hh
  | region x => exact regionMem.nonnull (x := x) hh
  | annotation x => exact annotationMem.nonnull (x := x) hh

/-- The data of the known extensions, with the functions of the default registry (source/interface.c:366-393). -/
def dataMem (hs : sm.nullOk = true) : DataMem (Data S) (Data.env c e so) where
  toDataFns := extFns c sm.free sm.clone
  at_ := dataAt c sm.at_
  nonnull := fun hh => dataAt_ne c sm hh
  fits := dataFits
  fits_clone := fun h hd => (data_clone_memory c e sm (p := 0) h hd).1
  free_opt := fun h => data_free_memory c sm hs h
  clone_opt := fun h hd => (data_clone_memory c e sm h hd).2

end

/-! ## Symbols nested at any depth -/

/-- No symbols: the memory of nothing. -/
def noSymMem : KindMem Empty noSymbols where
  free := noSymFree
  clone := noSymClone
  at_ := fun _ x => x.elim
  nullOk := true
  nonnull := fun {_ x _} _ => x.elim
  null_clone := fun {d} => d.elim
  free_spec := fun {p d} _ => by
    unfold noSymFree
    exact free_cases (fun {_ x _} _ => x.elim) (Triple.ret fun _ h => h) (fun x => x.elim)
  clone_spec := fun {_ _ _} h => by cases h

/-- The memory of the data with symbols nested at most `n` times, and the functions of the default registry on it. -/
def memAt (c : Cfg) (e : Option Str) : (n : Nat) → DataMem (DataAt n) (envAt c e n)
  | 0 => dataMem c e noSymMem rfl
  | n + 1 => dataMem c e (symbolsMem (memAt c e n) defaultRegistry) rfl

theorem memAt_fns (c : Cfg) (e : Option Str) : ∀ n, (memAt c e n).toDataFns = fnsAt c n
  | 0 => rfl
  | n + 1 => by
    show extFns c (symFree (memAt c e n).toDataFns) (symClone (memAt c e n).toDataFns) = extFns c (symFree (fnsAt c n)) (symClone (fnsAt c n))
    rw [memAt_fns c e n]

/-- The memory of the data, as data of the library. -/
def libMem (c : Cfg) (e : Option Str) : (n : Nat) → DataMem (DataAt n) (libAt c e n).toLib.toEnv
  | 0 => memAt c e 0
  | n + 1 => memAt c e (n + 1)

theorem libMem_fns (c : Cfg) (e : Option Str) : ∀ n, (libMem c e n).toDataFns = fnsAt c n
  | 0 => memAt_fns c e 0
  | n + 1 => memAt_fns c e (n + 1)

/-! ## The library with the functions of the default registry -/

section

variable {c : Cfg} {e : Option Str} {n : Nat}

/-- C56: `osl_generic_free` frees exactly a list of extensions of the default registry. -/
theorem lib_generic_free_memory (p : Ptr) (l : GList (DataAt n)) : Triple (glistAt (libMem c e n) p l) (genFree (fnsAt c n) p) (fun _ => emp) := by
  have := generic_free_memory (O := libMem c e n) p l
  rwa [libMem_fns] at this

/-- C56: `osl_generic_clone` copies them in new memory. -/
theorem lib_generic_clone_memory {l l' : GList (DataAt n)} (h : GList.clone (libAt c e n).toEnv l = .ok l') (p : Ptr) :
    Triple (glistAt (libMem c e n) p l) (genClone (fnsAt c n) p) (fun q => glistAt (libMem c e n) p l ∗ glistAt (libMem c e n) q l') := by
  have := generic_clone_memory (O := libMem c e n) h p
  rwa [libMem_fns] at this

/-- C56: `osl_statement_free` frees exactly statements with such extensions. -/
theorem lib_statement_free_memory (p : Ptr) (l : Stmts (DataAt n)) :
    Triple (stmtsAt c (L := (libAt c e n).toLib) (libMem c e n) p l) (stmtFree c (fnsAt c n) p) (fun _ => emp) := by
  have := statement_free_memory (c := c) (L := (libAt c e n).toLib) (O := libMem c e n) p l
  rwa [libMem_fns] at this

/-- C56: `osl_statement_clone` copies them in new memory. -/
theorem lib_statement_clone_memory {l l' : Stmts (DataAt n)} (h : Stmts.clone c (libAt c e n).toLib l = .ok l') (p : Ptr) :
    Triple (stmtsAt c (L := (libAt c e n).toLib) (libMem c e n) p l) (stmtClone c (fnsAt c n) p)
      (fun q => stmtsAt c (L := (libAt c e n).toLib) (libMem c e n) p l ∗ stmtsAt c (L := (libAt c e n).toLib) (libMem c e n) q l') := by
  have := statement_clone_memory (L := (libAt c e n).toLib) (O := libMem c e n) h p
  rwa [libMem_fns] at this

/-- The memory of scops of the library. -/
def libScopsAt (c : Cfg) (e : Option Str) (n : Nat) (p : Ptr) (l : Scops (DataAt n)) : Assn := scopsAt c (L := (libAt c e n).toLib) (libMem c e n) p l

/-- C56: `osl_scop_free` frees exactly scops with extensions of the default registry anywhere. -/
theorem lib_scop_free_memory (p : Ptr) (l : Scops (DataAt n)) : Triple (libScopsAt c e n p l) (scopFree c (fnsAt c n) p) (fun _ => emp) := by
  have := scop_free_memory (c := c) (L := (libAt c e n).toLib) (O := libMem c e n) p l
  rwa [libMem_fns] at this

/-- C56: `osl_scop_clone` copies them in new memory. -/
theorem lib_scop_clone_memory {l l' : Scops (DataAt n)} (h : Scops.clone c (libAt c e n).toLib l = .ok l') (p : Ptr) :
    Triple (libScopsAt c e n p l) (scopClone c (fnsAt c n) p) (fun q => libScopsAt c e n p l ∗ libScopsAt c e n q l') := by
  have := scop_clone_memory (L := (libAt c e n).toLib) (O := libMem c e n) h p
  rwa [libMem_fns] at this

/-- C56: `osl_scop_remove_unions` with the extensions of the default registry, when it loses no statement. -/
theorem lib_scop_remove_unions_memory {l l' : Scops (DataAt n)} (h : Scops.remove_unions c (libAt c e n).toLib l = .ok l') (p : Ptr)
    (one : ∀ s ∈ l, ∀ a ∈ s.statement.dropLast, a.domain.length ≤ 1 ∧ a.scattering.length ≤ 1) :
    Triple (libScopsAt c e n p l) (scopRemoveUnions c (fnsAt c n) p) (fun q => libScopsAt c e n p l ∗ libScopsAt c e n q l') := by
  have := scop_remove_unions_no_leak (L := (libAt c e n).toLib) (O := libMem c e n) h p one
  rwa [libMem_fns] at this

/-- C56: a copy does not share memory with the original: freeing the original first leaves the copy whole, and freeing both leaves nothing. -/
theorem lib_scop_copy_outlives {l l' : Scops (DataAt n)} (h : Scops.clone c (libAt c e n).toLib l = .ok l') (p : Ptr) :
    Triple (libScopsAt c e n p l) (do let q ← scopClone c (fnsAt c n) p; scopFree c (fnsAt c n) p; pure q) (fun q => libScopsAt c e n q l') ∧
    Triple (libScopsAt c e n p l) (do let q ← scopClone c (fnsAt c n) p; scopFree c (fnsAt c n) p; scopFree c (fnsAt c n) q) (fun _ => emp) := by
  constructor
  · refine Triple.bind (lib_scop_clone_memory h p) (fun q => ?_)
    hstep (lib_scop_free_memory (c := c) (e := e) p l)
    hret
  · refine Triple.bind (lib_scop_clone_memory h p) (fun q => ?_)
    hstep (lib_scop_free_memory (c := c) (e := e) p l)
    exact lib_scop_free_memory q l'

end

end Osl.Mem
