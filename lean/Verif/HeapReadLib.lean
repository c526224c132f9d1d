import Verif.HeapReadGenProps
/-!
# The readers of the data of the whole library in memory (C72)
-/

set_option linter.unusedSectionVars false

namespace Osl.Mem

open Osl.Ext

/-! ## The functions of the default registry -/

/-- `osl_relation_sread` (source/relation.c:1545-1548) as a function of the interface: NULL is dereferenced. -/
def relSreadI [Allocator] (c : Cfg) (e : Option Str) : Option Str → M (Ptr × Option Str)
  | none => undef
  | some s => relPsread c (Util.get_precision c e) s

/-- The functions `sread` of the interfaces, in the order of `osl_interface_get_default_registry` (source/interface.c:366-393). -/
def extSread [Allocator] (c : Cfg) (e : Option Str) (sym : Option Str → M (Ptr × Option Str)) : List (Option Str → M (Ptr × Option Str)) :=
  [strSreadI, bodySreadI, relSreadI c e, textualSread, commentSread, nullSread, scatinfosSread, scatnamesSread, arraysSread, coordSread, claySread,
    depPsread c (Util.get_precision c e), sym, extbodySread, loopSread, unrollSread, regionSread, annSread]

/-- A call of the function `sread` of the `k`th interface (source/generic.c:280, 322); the position is dropped. -/
def extSreadFn [Allocator] (c : Cfg) (e : Option Str) (sym : Option Str → M (Ptr × Option Str)) (k : Nat) (s : Option Str) : M Ptr :=
  match (extSread c e sym)[k]? with
  | some f => do
    let r ← f s
    pure r.1
  | none => undef

/-- No symbols: never called. -/
def noSymSread (_ : Option Str) : M (Ptr × Option Str) := undef

/-- The functions `sread` (source/interface.c:366-393) on data with symbols nested at most `n` times. -/
def sreadAt [Allocator] (c : Cfg) (e : Option Str) : Nat → Nat → Option Str → M Ptr
  | 0 => extSreadFn c e noSymSread
  | n + 1 => extSreadFn c e (symSread (sreadAt c e n))

variable [Allocator]

/-! ## The kinds -/

/-- A reader which loses nothing, of a kind of data. -/
def plainRead {X : Type} {o : Ops X} (K : KindMem X o) (f : Option Str → M (Ptr × Option Str))
    (h : ∀ {s d pos}, o.sread s = .ok (d, pos) → Triple emp (f s) (got p, pos in optAt K.at_ p d)) : KindRead K where
  sread := f
  lost := fun _ => []
  spec := fun {s d pos} hd => got_lost (A := fun p => optAt K.at_ p d) (h hd)

/-- A reader of a list which loses nothing. -/
theorem plain_list {X : Type} {N : Chain X} {f : Option Str → M (Ptr × Option Str)} {g : Option Str → Out (List X × Option Str)}
    (hf : ∀ {s l pos}, g s = .ok (l, pos) → Triple emp (f s) (got p, pos in N.list p l)) {s : Option Str} {d : Option (NE X)} {pos : Option Str}
    (h : (g s >>= fun p => .ok (NE.ofList p.1, p.2)) = .ok (d, pos)) :
    Triple emp (f s) (got p, pos in optAt (fun p x => N.list p (NE.elems (some x))) p d) := by
  obtain ⟨⟨l, t⟩, h1, h⟩ := Out.bind_eq_ok.mp h
  cases h
  exact got_ofList (hf h1)

def textualRead : KindRead textualMem := plainRead _ textualSread textual_sread_memory
def commentRead : KindRead commentMem := plainRead _ commentSread comment_sread_memory
def nullRead : KindRead nullMem := plainRead _ nullSread null_sread_memory
def scatinfosRead : KindRead scatinfosMem := plainRead _ scatinfosSread scatinfos_sread_memory
def scatnamesRead : KindRead scatnamesMem := plainRead _ scatnamesSread scatnames_sread_memory
def arraysRead : KindRead arraysMem := plainRead _ arraysSread arrays_sread_memory
def coordRead : KindRead coordMem := plainRead _ coordSread coordinates_sread_memory
def clayRead : KindRead clayMem := plainRead _ claySread clay_sread_memory
def extbodyRead : KindRead extbodyMem := plainRead _ extbodySread extbody_sread_memory
def annotationRead : KindRead annotationMem := plainRead _ annSread annotation_sread_memory
def loopRead : KindRead loopMem := plainRead _ loopSread (fun {s d pos} h => plain_list (f := loopSread) (g := Loop.sread) (fun h => loop_sread_memory h) h)
def unrollRead : KindRead unrollMem := plainRead _ unrollSread (fun {s d pos} h => plain_list (f := unrollSread) (g := Unroll.sread) (fun h => unroll_sread_memory h) h)
def regionRead : KindRead regionMem := plainRead _ regionSread (fun {s d pos} h => plain_list (f := regionSread) (g := Region.sread) (fun h => region_sread_memory h) h)
def dependenceRead (c : Cfg) (e : Option Str) : KindRead (dependenceMem c e) := plainRead _ (depPsread c (Util.get_precision c e)) (plain_list dependence_psread_memory)

def relationRead (c : Cfg) (e : Option Str) : KindRead (relationMem c e) :=
  plainRead _ (relSreadI c e) (by
    intro s d pos h
    cases s with
    | none => cases h
    | some s =>
      obtain ⟨⟨l, t⟩, h1, h⟩ := Out.bind_eq_ok.mp h
      cases h
      exact got_ofList (relation_psread_memory h1))

/-- The symbols. -/
def symbolsRead {D : Type} {E : Env D} {O : DataMem D E} (R : DataRead O) (hr : ∀ i ∈ defaultRegistry, R.good i.fns) : KindRead (symbolsMem O defaultRegistry) where
  sread := symSread R.sread
  lost := lostSymbols E R.lost defaultRegistry
  spec := fun {s d pos} h => by
    obtain ⟨⟨l, t⟩, h1, h⟩ := Out.bind_eq_ok.mp h
    cases h
    show Triple emp _ (got p, t in (optAt (fun p x => (symChain O).list p (NE.elems (some x))) p (NE.ofList l) ∗ _))
    simp only [optAt_list, NE.elems_ofList]
    exact symbols_sread_memory R hr h1

/-- No symbols. -/
def noSymRead : KindRead noSymMem where
  sread := noSymSread
  lost := fun _ => []
  spec := fun {_ _ _} h => by cases h

/-! ## Any data -/

variable {S : Type}

/-- The function pointers of one interface have the same number. -/
def sameFns (f : Fns) : Prop := f.free = f.clone ∧ f.sread = f.clone

theorem lift_read {X : Type} {o : Ops X} {K : KindMem X o} (R : KindRead K) (inj : X → Data S) {at_ : Ptr → Data S → Assn} (hat : ∀ p x, at_ p (inj x) = K.at_ p x)
    {s : Option Str} {d : Option (Data S)} {f : Fns} {k : Nat} (hk : ∀ x, kindNo (inj x) = k) (hf : f.free = f.clone) (hc : f.clone = k)
    (hn : k < 17 ∨ ∀ pos, o.sread s ≠ .ok (none, pos)) (h : ((o.sread s >>= fun p => .ok (p.1.map inj, p.2)) >>= fun p => .ok p.1) = .ok d) :
    dataFits f d ∧ Triple emp (R.sread s >>= fun r => pure r.1) (fun p => optAt at_ p d ∗ looseAt (R.lost s)) := by
  obtain ⟨⟨d1, t1⟩, h1, h⟩ := Out.bind_eq_ok.mp h
  obtain ⟨⟨x, t⟩, h2, h1⟩ := Out.bind_eq_ok.mp h1
  cases h1
  cases h
  have e : ∀ (p : Ptr) (z : Option X), optAt at_ p (z.map inj) = optAt K.at_ p z := by
    intro p z
    cases z with
    | none => rfl
    | some z => exact hat p z
  refine ⟨⟨hf, ?_⟩, ?_⟩
  · cases x with
    | some x => show f.clone = kindNo (inj x); rw [hk, hc]
    | none =>
      show f.clone < 17
      rcases hn with hn | hn
      · omega
      · exact absurd h2 (hn t)
  · simp only [e]
    hstep (R.spec h2)
    hret

theorem annotation_not_null {s pos : Option Str} : Annotation.sread s ≠ .ok (none, pos) := by
  intro h
  cases s with
  | none => cases h
  | some s =>
    simp only [Annotation.sread] at h
    obtain ⟨_, _, h⟩ := Out.bind_eq_ok.mp h
    obtain ⟨_, _, h⟩ := Out.bind_eq_ok.mp h
    cases h

section

variable {so : Ops S} (c : Cfg) (e : Option Str) {sm : KindMem S so} (sr : KindRead sm)

/-- The strings lost by the readers: only those of the symbols lose some. -/
def extLost (lost : Option Str → List Str) (k : Nat) (s : Option Str) : List Str := if k = 12 then lost s else []

/-- C72: the `sread` function of the interface of some data allocates exactly the data, besides the tags lost by the symbols. -/
theorem data_sread_memory {f : Fns} {s : Option Str} {d : Option (Data S)} (h : sameFns f) (hd : (Data.env c e so).sread f.sread s = .ok d) :
    dataFits f d ∧ Triple emp (extSreadFn c e sr.sread f.sread s) (fun p => optAt (dataAt c sm.at_) p d ∗ looseAt (extLost sr.lost f.sread s)) := by
  obtain ⟨hf, hs⟩ := h
  by_cases hk : f.clone < 18
  · rcases (by omega : f.clone < 17 ∨ f.clone = 17) with hk | hk
    · rw [hs] at hd ⊢
      rcases below17 hk with hk | hk | hk | hk | hk | hk | hk | hk | hk | hk | hk | hk | hk | hk | hk | hk | hk <;> rw [hk] at hd ⊢
      · exact lift_read stringsRead .strings (fun _ _ => rfl) (fun _ => rfl) hf hk (.inl (by decide)) hd
      · exact lift_read bodyRead .body (fun _ _ => rfl) (fun _ => rfl) hf hk (.inl (by decide)) hd
      · exact lift_read (relationRead c e) .relation (fun _ _ => rfl) (fun _ => rfl) hf hk (.inl (by decide)) hd
      · exact lift_read textualRead .textual (fun _ _ => rfl) (fun _ => rfl) hf hk (.inl (by decide)) hd
      · exact lift_read commentRead .comment (fun _ _ => rfl) (fun _ => rfl) hf hk (.inl (by decide)) hd
      · exact lift_read nullRead .null (fun _ _ => rfl) (fun _ => rfl) hf hk (.inl (by decide)) hd
      · exact lift_read scatinfosRead .scatinfos (fun _ _ => rfl) (fun _ => rfl) hf hk (.inl (by decide)) hd
      · exact lift_read scatnamesRead .scatnames (fun _ _ => rfl) (fun _ => rfl) hf hk (.inl (by decide)) hd
      · exact lift_read arraysRead .arrays (fun _ _ => rfl) (fun _ => rfl) hf hk (.inl (by decide)) hd
      · exact lift_read coordRead .coordinates (fun _ _ => rfl) (fun _ => rfl) hf hk (.inl (by decide)) hd
      · exact lift_read clayRead .clay (fun _ _ => rfl) (fun _ => rfl) hf hk (.inl (by decide)) hd
      · exact lift_read (dependenceRead c e) .dependence (fun _ _ => rfl) (fun _ => rfl) hf hk (.inl (by decide)) hd
      · exact lift_read sr .symbols (fun _ _ => rfl) (fun _ => rfl) hf hk (.inl (by decide)) hd
      · exact lift_read extbodyRead .extbody (fun _ _ => rfl) (fun _ => rfl) hf hk (.inl (by decide)) hd
      · exact lift_read loopRead .loop (fun _ _ => rfl) (fun _ => rfl) hf hk (.inl (by decide)) hd
      · exact lift_read unrollRead .unroll (fun _ _ => rfl) (fun _ => rfl) hf hk (.inl (by decide)) hd
      · exact lift_read regionRead .region (fun _ _ => rfl) (fun _ => rfl) hf hk (.inl (by decide)) hd
    · rw [hs] at hd ⊢
      rw [hk] at hd ⊢
      exact lift_read annotationRead .annotation (fun _ _ => rfl) (fun _ => rfl) hf hk (.inr (fun _ => annotation_not_null)) hd
  · rw [hs] at hd
    have : (Data.table c e so)[f.clone]? = none := by
      rw [List.getElem?_eq_none_iff]
      show 18 ≤ f.clone
      omega
    simp only [Data.env, this] at hd
    cases hd

/-- The readers of the default registry on the data of the known extensions. -/
def dataRead (hs : sm.nullOk = true) : DataRead (dataMem c e sm hs) where
  sread := extSreadFn c e sr.sread
  lost := extLost sr.lost
  good := sameFns
  spec := fun h hd => data_sread_memory c e sr h hd

end

theorem numbered_same : ∀ (us : List String) (k : Nat), ∀ i ∈ Ifaces.numbered k us, sameFns i.fns
  | [], k, i, h => by cases h
  | u :: us, k, i, h => by
    rcases List.mem_cons.mp h with rfl | h
    · exact ⟨rfl, rfl⟩
    · exact numbered_same us (k + 1) i h

theorem default_same : ∀ i ∈ defaultRegistry, sameFns i.fns := numbered_same _ _

/-- The readers of the default registry on data with symbols nested at most `n` times. -/
def readAt (c : Cfg) (e : Option Str) : (n : Nat) → { R : DataRead (memAt c e n) // R.good = sameFns }
  | 0 => ⟨dataRead c e noSymRead rfl, rfl⟩
  | n + 1 => ⟨dataRead c e (symbolsRead (readAt c e n).1 (by rw [(readAt c e n).2]; exact default_same)) rfl, rfl⟩

theorem readAt_sread (c : Cfg) (e : Option Str) : ∀ n, (readAt c e n).1.sread = sreadAt c e n
  | 0 => rfl
  | n + 1 => by
    show extSreadFn c e (symSread (readAt c e n).1.sread) = extSreadFn c e (symSread (sreadAt c e n))
    rw [readAt_sread c e n]

/-- The strings which the readers lose, for data with symbols nested at most `n` times (specification). -/
def tagsLost (c : Cfg) (e : Option Str) : Nat → Nat → Option Str → List Str
  | 0 => extLost (fun _ => [])
  | n + 1 => extLost (lostSymbols (envAt c e n) (tagsLost c e n) defaultRegistry)

theorem readAt_tags (c : Cfg) (e : Option Str) : ∀ n, (readAt c e n).1.lost = tagsLost c e n
  | 0 => rfl
  | n + 1 => by
    show extLost (lostSymbols (envAt c e n) (readAt c e n).1.lost defaultRegistry) = _
    rw [readAt_tags c e n]
    rfl

end Osl.Mem
