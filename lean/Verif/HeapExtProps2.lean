import Verif.HeapExtProps
/-!
# The data of the extensions in memory: extbody, arrays, texts (C56)
-/

set_option linter.unusedSectionVars false

namespace Osl.Mem

open Osl.Ext

variable [Allocator]

/-! ## Extbody -/

/-- The memory of an extbody. -/
def extbodyAt (p : Ptr) (x : Extbody) : Assn :=
  ex fun s => ex fun l => ex fun b => p ↦ .node [(x.access.length : Int)] [s, l, b] ∗ intsAt s (x.access.map (·.1)) ∗ intsAt l (x.access.map (·.2)) ∗
    optAt bodyAt b x.body

theorem extbodyAt_ne {p : Ptr} {x : Extbody} : ∀ h, extbodyAt p x h → p ≠ 0 := by
  rintro h ⟨a, b, t, hh⟩
  exact pto_ne_sep h hh

theorem extbodyLoop_ne {s l s' l' : Ptr} : ∀ (b1 b2 a1 a2 : List Int) (i : Nat), a1.length = i → a2.length = i → b2.length = b1.length →
    Triple (s ↦ .node (a1 ++ b1) [] ∗ l ↦ .node (a2 ++ b2) [] ∗ s' ↦ .node (a1 ++ List.replicate b1.length 0) [] ∗ l' ↦ .node (a2 ++ List.replicate b1.length 0) [])
      (extbodyLoop s l s' l' b1.length i)
      (fun _ => s ↦ .node (a1 ++ b1) [] ∗ l ↦ .node (a2 ++ b2) [] ∗ s' ↦ .node (a1 ++ b1) [] ∗ l' ↦ .node (a2 ++ b2) [])
  | [], [], a1, a2, i, _, _, _ => by
    show Triple _ (pure ()) _
    exact Triple.ret (fun h hh => hh)
  | [], _ :: _, _, _, _, _, _, h => by simp at h
  | _ :: _, [], _, _, _, _, _, h => by simp at h
  | x :: b1, y :: b2, a1, a2, i, h1, h2, hb => by
    show Triple (_ ∗ _ ∗ s' ↦ .node (a1 ++ 0 :: List.replicate b1.length 0) [] ∗ l' ↦ .node (a2 ++ 0 :: List.replicate b1.length 0) [])
      (getInt s i >>= fun x => setInt s' i x >>= fun _ => getInt l i >>= fun y => setInt l' i y >>= fun _ => extbodyLoop s l s' l' b1.length (i + 1)) _
    hstep (getInt_spec (nth_append_mid h1))
    hstep (setInt_spec (setNth_append_mid h1))
    hstep (getInt_spec (nth_append_mid h2))
    hstep (setInt_spec (setNth_append_mid h2))
    have := extbodyLoop_ne (s := s) (l := l) (s' := s') (l' := l') b1 b2 (a1 ++ [x]) (a2 ++ [y]) (i + 1) (by simp [h1]) (by simp [h2]) (by simpa using hb)
    simp only [List.append_assoc, List.cons_append, List.nil_append] at this
    exact this.pre (fun h hh => hh.perm (by ac_rfl))

theorem extbodyLoop_spec {s l s' l' : Ptr} {b1 b2 : List Int} {n : Nat} (hn : n = b1.length) (hb : b2.length = b1.length) :
    Triple (intsAt s b1 ∗ intsAt l b2 ∗ s' ↦ .node (List.replicate n 0) [] ∗ l' ↦ .node (List.replicate n 0) [])
      (extbodyLoop s l s' l' n 0) (fun _ => intsAt s b1 ∗ intsAt l b2 ∗ intsAt s' b1 ∗ intsAt l' b2) := by
  subst hn
  cases b1 with
  | nil =>
    have : b2 = [] := by simpa using hb
    subst this
    refine Triple.ret (fun h hh => ?_)
    exact sep_mono (fun _ h => h) (fun _ h => sep_mono (fun _ h => h) (fun _ h => sep_mono ints_intro ints_intro h) h) hh
  | cons x b1 =>
    have hp : ∀ {p : Ptr} {b : List Int}, b ≠ [] → ∀ h, intsAt p b h → p ≠ 0 := by
      intro p b hb h hh hp
      subst hp
      rw [intsAt_null] at hh
      exact hb hh.1
    hfact (hp (b := x :: b1) (by simp))
    intro hs
    hfact (hp (b := b2) (by intro h; rw [h] at hb; simp at hb))
    intro hl
    have := extbodyLoop_ne (s := s) (l := l) (s' := s') (l' := l') (x :: b1) b2 [] [] 0 rfl rfl hb
    simp only [List.nil_append] at this
    rw [intsAt_ne hs, intsAt_ne hl]
    refine this.post (fun _ h hh => ?_)
    exact sep_mono (fun _ h => h) (fun _ h => sep_mono (fun _ h => h) (fun _ h => sep_mono ints_intro ints_intro h) h) hh

/-- The extended bodies (source/extensions/extbody.c:355-368). -/
def extbodyMem : KindMem Extbody Extbody.ops where
  free := extbodyFree
  clone := extbodyClone
  at_ := extbodyAt
  nullOk := true
  nonnull := fun h => extbodyAt_ne _ h
  null_clone := by intro d h; cases h
  free_spec := fun {p d} _ => by
    unfold extbodyFree
    refine free_cases (fun h => extbodyAt_ne _ h) (Triple.ret fun _ h => h) (fun x => ?_)
    hopen extbodyAt
    hstep getPtr_spec
    hstep free_ints
    hstep getPtr_spec
    hstep free_ints
    hstep getPtr_spec
    hstep body_free_memory
    hlast Triple.free
    hret
  clone_spec := fun {p d d'} h => by
    unfold extbodyClone
    refine clone_cases h (fun h => extbodyAt_ne _ h) rfl (fun x hx => ?_)
    cases hx
    show Triple _ _ (fun q => _ ∗ extbodyAt q { body := Body.clone x.body, access := x.access })
    unfold extbodyMalloc
    hopen extbodyAt
    hstep Triple.alloc
    hstep copyInt_spec
    hstep getInt_spec
    hstep allocInts_spec
    hstep setPtr_spec
    hstep allocInts_spec
    hstep setPtr_spec
    hstep getPtr_spec
    hstep getPtr_spec
    hstep (extbodyLoop_spec (n := x.access.length) (b1 := x.access.map (·.1)) (b2 := x.access.map (·.2)) (by simp) (by simp))
    hstep getPtr_spec
    hstep body_clone_memory
    hstep setPtr_spec
    hret

/-- What `osl_extbody_add` does to the value (specification). -/
def addAccess (x : Extbody) (start length : Int) : Extbody := { x with access := x.access ++ [(start, length)] }

theorem take_all {α : Type} {l : List α} {n : Nat} (h : l.length ≤ n) : l.take n = l := List.take_of_length_le h

/-- An array which has grown by one element. -/
theorem reallocInts_spec {p : Ptr} {l : List Int} {n : Nat} (hn : n = l.length + 1) :
    Triple (intsAt p l) (reallocInts p n) (fun q => q ↦ .node (l ++ [0]) []) := by
  subst hn
  unfold reallocInts
  by_cases hp : p = 0
  · subst hp
    rw [intsAt_null, if_pos rfl]
    refine Triple.fact1 (fun hl => ?_)
    subst hl
    exact allocInts_spec
  · rw [intsAt_ne hp, if_neg hp]
    hstep loadNode_spec
    hstep Triple.free
    hlast Triple.alloc
    refine Triple.ret (fun h hh => ?_)
    simpa [take_all (Nat.le_succ _)] using hh

theorem setNth_last {α : Type} {l : List α} {x y : α} {n : Nat} (hn : n = l.length) : setNth (l ++ [x]) n y = .ok (l ++ [y]) := setNth_append_mid hn.symm

/-- C56: `osl_extbody_add` adds one pair; the arrays are reallocated. -/
theorem extbody_add_memory (p : Ptr) (x : Extbody) (start length : Int) :
    Triple (extbodyAt p x) (extbodyAdd p start length) (fun _ => extbodyAt p (addAccess x start length)) := by
  unfold extbodyAdd
  have hn : ((x.access.length : Int) + 1).toNat = x.access.length + 1 := by omega
  hopen extbodyAt
  hstep getInt_spec
  hstep setInt_spec
  hstep getPtr_spec
  hstep (reallocInts_spec (n := ((x.access.length : Int) + 1).toNat) (l := x.access.map (·.1)) (by simp))
  hstep setPtr_spec
  hstep getPtr_spec
  hstep (reallocInts_spec (n := ((x.access.length : Int) + 1).toNat) (l := x.access.map (·.2)) (by simp))
  hstep setPtr_spec
  hstep (setInt_spec (setNth_last (l := x.access.map (·.1)) (n := (x.access.length : Int).toNat) (by simp)))
  hlast (setInt_spec (setNth_last (l := x.access.map (·.2)) (n := (x.access.length : Int).toNat) (by simp)))
  hconv (ints_intro (p := s'))
  hconv (ints_intro (p := l'))
  have e : ([((x.access.length : Int) + 1)] : List Int) = [(((addAccess x start length).access.length : Nat) : Int)] := by simp [addAccess]
  have e1 : (x.access.map (·.1) ++ [start]) = (addAccess x start length).access.map (·.1) := by simp [addAccess]
  have e2 : (x.access.map (·.2) ++ [length]) = (addAccess x start length).access.map (·.2) := by simp [addAccess]
  have e3 : x.body = (addAccess x start length).body := rfl
  rw [e1, e2, e3]
  refine Triple.ret (fun h hh => ?_)
  change (_ ∗ _ ∗ p ↦ .node [((x.access.length : Int) + 1)] [s', l', b] ∗ _) h at hh
  rw [e] at hh
  refine ⟨s', l', b, ?_⟩
  exact hh.perm (by ac_rfl)

end Osl.Mem
