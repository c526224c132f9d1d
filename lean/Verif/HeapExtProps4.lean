import Verif.HeapExtProps3
/-!
# The data of the extensions in memory: linked lists (C56)
-/

set_option linter.unusedSectionVars false

namespace Osl.Mem

open Osl.Ext

variable [Allocator]

/-! ## Kinds of data which are linked lists -/

theorem optAt_list {X : Type} {N : Chain X} {p : Ptr} {d : Option (NE X)} : optAt (fun p x => N.list p (NE.elems (some x))) p d = N.list p (NE.elems d) := by
  cases d <;> rfl

/-- The memory of a kind of data which is a linked list. -/
def listMem {X : Type} (N : Chain X) (free : Ptr → M Unit) (clone : Ptr → M Ptr) (o : Ops (NE X)) (f : List X → Out (List X))
    (ho : ∀ d, o.clone d = f (NE.elems d) >>= fun r => .ok (NE.ofList r)) (hl : ∀ {l}, f l = .ok [] → l = [])
    (hfree : ∀ p l, Triple (N.list p l) (free p) (fun _ => emp))
    (hclone : ∀ p l l', f l = .ok l' → Triple (N.list p l) (clone p) (fun q => N.list p l ∗ N.list q l')) : KindMem (NE X) o where
  free := free
  clone := clone
  at_ := fun p x => N.list p (NE.elems (some x))
  nullOk := true
  nonnull := fun {p x h} hh => by
    cases x
    exact Chain.list_cons_ne hh
  null_clone := by
    intro d h
    rw [ho] at h
    obtain ⟨r, hr, h⟩ := Out.bind_eq_ok.mp h
    injection h with h
    cases r with
    | nil =>
      have := hl hr
      cases d
      cases this
    | cons a r => cases h
  free_spec := fun {p d} _ => by
    rw [optAt_list]
    exact hfree p _
  clone_spec := fun {p d d'} h => by
    rw [ho] at h
    obtain ⟨r, hr, h⟩ := Out.bind_eq_ok.mp h
    injection h with h
    subst h
    simp only [optAt_list, NE.elems_ofList]
    exact hclone p _ _ hr

theorem mapOut_pure {X : Type} (f : X → X) : ∀ l : List X, Out.mapOut (fun x => .ok (f x)) l = .ok (l.map f)
  | [] => rfl
  | x :: l => by simp [Out.mapOut, mapOut_pure f l, Out.bind]

theorem mapOut_nil {X Y : Type} {f : X → Out Y} {l : List X} (h : Out.mapOut f l = .ok []) : l = [] := by
  cases l with
  | nil => rfl
  | cons a l =>
    obtain ⟨b, m, _, _, e⟩ := Out.mapOut_cons_eq_ok.mp h
    cases e

/-! ## Relations -/

theorem rel_clone_nil {c : Cfg} {r : Rel} (h : Rel.clone c r = .ok []) : r = [] := by
  cases r with
  | nil => rfl
  | cons a r =>
    have h : Rel.nclone c (a :: r) (-1) = .ok [] := h
    unfold Rel.nclone at h
    rw [if_pos rfl, if_neg (by omega)] at h
    have h := mapOut_nil h
    simpa [Rel.nb_components] using h

/-- The relations (source/relation.c:2885-2898). -/
def relationMem (c : Cfg) (e : Option Str) : KindMem (NE Part) (Data.relationOps c e) :=
  listMem (relChain c) (relFree c) (relClone c) _ (Rel.clone c) (fun _ => rfl) rel_clone_nil
    (fun p l => relation_free_memory p l) (fun p _ _ h => relation_clone_memory h p)

/-! ## Regions -/

/-- The memory of a region, with its `next` pointer. -/
def regionAt (p : Ptr) (x : Region) (n : Ptr) : Assn :=
  ex fun t => ex fun u => ex fun v => ex fun w =>
    p ↦ .node [t.count, u.count, v.count, w.count, x.location] [t.types, t.lines, u.types, u.lines, v.types, v.lines, w.types, w.lines, n] ∗
      textAt t x.pre ∗ textAt u x.suf ∗ textAt v x.prelude ∗ textAt w x.postlude

theorem regionAt_ne {p n : Ptr} {x : Region} : ∀ h, regionAt p x n h → p ≠ 0 := by
  rintro h ⟨a, b, c, d, hh⟩
  exact pto_ne_sep h hh

/-- The chain of the regions. -/
def regionChain : Chain Region where
  toNext := regionNext
  at_ := regionAt
  nonnull := fun h => regionAt_ne _ h
  own := by
    rintro p s n h ⟨a, b, c, d, hh⟩
    exact own_pto hh
  big := fun p s n => Big.ex (fun _ => Big.ex (fun _ => Big.ex (fun _ => Big.ex (fun _ => (Big.pto _ _).sep (Big.zero _)))))
  get_spec := by
    intro p s n
    unfold regionNext
    hopen regionAt
    hlast getPtr_spec
    hret
  set_spec := by
    intro p s n n'
    unfold regionNext
    hopen regionAt
    hlast setPtr_spec
    hret

theorem regionFreeStep_spec (p : Ptr) (x : Region) (n : Ptr) : Triple (regionAt p x n) (regionFreeStep p) (fun r => pur (r = n)) := by
  unfold regionFreeStep regionNext
  hopen regionAt
  hstep (getText_spec (t := t) rfl rfl rfl)
  hstep textClean_spec
  hstep (getText_spec (t := u) rfl rfl rfl)
  hstep textClean_spec
  hstep (getText_spec (t := v) rfl rfl rfl)
  hstep textClean_spec
  hstep (getText_spec (t := w) rfl rfl rfl)
  hstep textClean_spec
  hstep getPtr_spec
  hstep Triple.free
  hret

/-- C56: `osl_region_free` frees exactly the regions and their texts. -/
theorem region_free_memory (p : Ptr) (l : List Region) : Triple (regionChain.list p l) (regionFree p) (fun _ => emp) :=
  Chain.freeAll_spec (N := regionChain) regionFreeStep_spec l p

theorem regionCopy_spec (p : Ptr) (x : Region) (n : Ptr) : Triple (regionAt p x n) (regionCopy p) (fun q => regionAt p x n ∗ regionAt q (Region.clone_one x) 0) := by
  unfold regionCopy regionMalloc
  show Triple _ _ (fun q => _ ∗ regionAt q { location := x.location, pre := Lines.clone x.pre, suf := Lines.clone x.suf, prelude := Lines.clone x.prelude, postlude := Lines.clone x.postlude } 0)
  hopen regionAt
  hstep Triple.alloc
  hstep copyInt_spec
  hstep (copyText_spec (t := t) rfl rfl rfl)
  hstep (copyText_spec (t := u) rfl rfl rfl)
  hstep (copyText_spec (t := v) rfl rfl rfl)
  hstep (copyText_spec (t := w) rfl rfl rfl)
  hret

theorem region_clone_map : ∀ l : List Region, Region.clone l = l.map Region.clone_one
  | [] => rfl
  | r :: l => by simp [Region.clone, region_clone_map l]

/-- C56: `osl_region_clone` is a copy in a separate memory. -/
theorem region_clone_memory (p : Ptr) (l : List Region) :
    Triple (regionChain.list p l) (regionClone p) (fun q => regionChain.list p l ∗ regionChain.list q (Region.clone l)) := by
  rw [region_clone_map]
  exact Chain.copyAll_spec (N := regionChain) (f := fun x => .ok (Region.clone_one x)) (fun p a n a' h => by cases h; exact regionCopy_spec p a n) (mapOut_pure _ l) p

/-- C56: `osl_region_count` only reads. -/
theorem region_count_memory (p : Ptr) (l : List Region) :
    Triple (regionChain.list p l) (regionCount p) (fun n => pur (n = Region.count l) ∗ regionChain.list p l) := Chain.countAll_spec (N := regionChain) l p

/-- The regions (source/extensions/region.c:448-462). -/
def regionMem : KindMem (NE Region) Region.ops :=
  listMem regionChain regionFree regionClone _ (fun l => .ok (Region.clone l)) (fun _ => rfl)
    (fun {l} h => by
      injection h with h
      rw [region_clone_map] at h
      simpa using h)
    region_free_memory (fun p l l' h => by injection h with h; subst h; exact region_clone_memory p l)

/-! ## Loops -/

/-- The memory of a loop, with its `next` pointer. -/
def loopAt (p : Ptr) (x : Loop) (n : Ptr) : Assn :=
  ex fun s => ex fun a => ex fun v => ex fun u => p ↦ .node [(x.stmt_ids.length : Int), x.directive] [s, a, v, u, n] ∗ uriAt s x.iter ∗ intsAt a x.stmt_ids ∗
    uriAt v x.private_vars ∗ uriAt u x.user

theorem loopAt_ne {p n : Ptr} {x : Loop} : ∀ h, loopAt p x n h → p ≠ 0 := by
  rintro h ⟨a, b, c, d, hh⟩
  exact pto_ne_sep h hh

/-- The chain of the loops. -/
def loopChain : Chain Loop where
  toNext := loopNext
  at_ := loopAt
  nonnull := fun h => loopAt_ne _ h
  own := by
    rintro p s n h ⟨a, b, c, d, hh⟩
    exact own_pto hh
  big := fun p s n => Big.ex (fun _ => Big.ex (fun _ => Big.ex (fun _ => Big.ex (fun _ => (Big.pto _ _).sep (Big.zero _)))))
  get_spec := by
    intro p s n
    unfold loopNext
    hopen loopAt
    hlast getPtr_spec
    hret
  set_spec := by
    intro p s n n'
    unfold loopNext
    hopen loopAt
    hlast setPtr_spec
    hret

theorem loopFreeStep_spec (p : Ptr) (x : Loop) (n : Ptr) : Triple (loopAt p x n) (loopFreeStep p) (fun r => pur (r = n)) := by
  unfold loopFreeStep loopNext
  hopen loopAt
  hstep getPtr_spec
  hstep freeIf_str
  hstep getPtr_spec
  hstep freeIf_ints
  hstep getPtr_spec
  hstep freeIf_str
  hstep getPtr_spec
  hstep freeIf_str
  hstep getPtr_spec
  hstep Triple.free
  hret

/-- C56: `osl_loop_free` frees exactly the loops. -/
theorem loop_free_memory (p : Ptr) (l : List Loop) : Triple (loopChain.list p l) (loopFree p) (fun _ => emp) :=
  Chain.freeAll_spec (N := loopChain) loopFreeStep_spec l p

theorem nth_some {α : Type} {l : List α} {i : Nat} {x : α} (h : nth l i = .ok x) : l[i]? = some x := by
  unfold nth at h
  rw [if_neg (by omega)] at h
  simp only [Int.toNat_natCast] at h
  cases hs : l[i]? with
  | none => rw [hs] at h; cases h
  | some y => rw [hs] at h; injection h with h; rw [h]

theorem set_same {α : Type} {l : List α} {i : Nat} {x : α} (h : nth l i = .ok x) : l.set i x = l := by
  obtain ⟨hi, rfl⟩ := List.getElem?_eq_some_iff.mp (nth_some h)
  simp

theorem nth_lt {α : Type} {l : List α} {i : Nat} {x : α} (h : nth l i = .ok x) : i < l.length := (List.getElem?_eq_some_iff.mp (nth_some h)).1

theorem copyStrIf_spec {s q : Ptr} {o : Option Str} {is : List Int} {m : List Ptr} {i : Nat} (h : nth m i = .ok 0) :
    Triple (uriAt s o ∗ q ↦ .node is m) (copyStrIf s q i) (fun _ => ex fun d => uriAt s o ∗ uriAt d o ∗ q ↦ .node is (m.set i d)) := by
  unfold copyStrIf
  by_cases hs : s = 0
  · rw [if_neg (by simp [hs])]
    refine Triple.ret (fun h' hh => ⟨0, ?_⟩)
    show (uriAt s o ∗ uriAt 0 o ∗ q ↦ .node is (m.set i 0)) h'
    rw [set_same h]
    have ho : o = none := by
      obtain ⟨h1, h2, _, _, h1', _⟩ := hh
      cases o with
      | none => rfl
      | some w =>
        have : (s ↦ .chars w) h1 := h1'
        exact absurd hs this.1
    subst ho
    have : uriAt 0 none = emp := pur_true rfl
    rw [this, emp_sep]
    exact hh
  · rw [if_pos hs]
    hstep (uriDup_spec (o := o))
    hlast (setPtr_spec (setNth_ok (l := m) (nth_lt h)))
    hret

theorem loopCopy_spec (p : Ptr) (x : Loop) (n : Ptr) : Triple (loopAt p x n) (loopCopy p) (fun q => loopAt p x n ∗ loopAt q (Loop.cloneOne x) 0) := by
  have e : Loop.cloneOne x = x := by simp [Loop.cloneOne, strdup_id]
  rw [e]
  unfold loopCopy loopMalloc
  hopen loopAt
  hstep Triple.alloc
  hstep getPtr_spec
  hstep uriDup_spec
  hstep setPtr_spec
  hstep copyInt_spec
  hstep getInt_spec
  hstep allocInts_spec
  hstep setPtr_spec
  hstep getPtr_spec
  hstep (copyInts_spec (l := x.stmt_ids) (n := (x.stmt_ids.length : Int).toNat) (by simp))
  hstep copyInt_spec
  hstep getPtr_spec
  hstep (copyStrIf_spec (o := x.private_vars) rfl)
  hstep getPtr_spec
  hstep (copyStrIf_spec (o := x.user) rfl)
  hret

theorem loop_clone_map : ∀ l : List Loop, Loop.clone l = l.map Loop.cloneOne
  | [] => rfl
  | r :: l => by simp [Loop.clone, loop_clone_map l]

/-- C56: `osl_loop_clone` is a copy in a separate memory. -/
theorem loop_clone_memory (p : Ptr) (l : List Loop) :
    Triple (loopChain.list p l) (loopClone p) (fun q => loopChain.list p l ∗ loopChain.list q (Loop.clone l)) := by
  rw [loop_clone_map]
  exact Chain.copyAll_spec (N := loopChain) (f := fun x => .ok (Loop.cloneOne x)) (fun p a n a' h => by cases h; exact loopCopy_spec p a n) (mapOut_pure _ l) p

/-- C56: `osl_loop_add` links the two lists. -/
theorem loop_add_memory (l1 l2 : List Loop) (p1 p2 : Ptr) :
    Triple (loopChain.list p1 l1 ∗ loopChain.list p2 l2) (loopAdd p2 p1) (fun p => loopChain.list p (l1 ++ l2)) :=
  Chain.append_spec (N := loopChain) l1 l2 p1 p2

/-- C56: `osl_loop_count` only reads. -/
theorem loop_count_memory (p : Ptr) (l : List Loop) :
    Triple (loopChain.list p l) (loopCount p) (fun n => pur (n = l.length) ∗ loopChain.list p l) := Chain.countAll_spec (N := loopChain) l p

/-- The loops (source/extensions/loop.c:567-580). -/
def loopMem : KindMem (NE Loop) Loop.ops :=
  listMem loopChain loopFree loopClone _ (fun l => .ok (Loop.clone l)) (fun _ => rfl)
    (fun {l} h => by
      injection h with h
      rw [loop_clone_map] at h
      simpa using h)
    loop_free_memory (fun p l l' h => by injection h with h; subst h; exact loop_clone_memory p l)

end Osl.Mem
