import Verif.HeapIrrTextProps
import Verif.HeapLibExample
import Verif.HeapUpdateExample
/-!
# Memories with irregular extensions (C78)

Every irregular extension can be built in memory; the hypotheses of the theorems on a concrete one.
-/

set_option linter.unusedSectionVars false

namespace Osl.Mem

open Osl.Ext

section
variable [Allocator] {X : Type}

theorem makes_each {f : Ptr → X → Assn} (hf : ∀ x, Makes (fun p => f p x)) : ∀ l : List X, ∃ m : M (List Ptr), Triple emp m (fun ps => eachAt f ps l)
  | [] => ⟨pure [], Triple.ret (fun _ h => h)⟩
  | x :: l => by
    obtain ⟨m, hm⟩ := hf x
    obtain ⟨k, hk⟩ := makes_each hf l
    refine ⟨do let p ← m; let ps ← k; pure (p :: ps), ?_⟩
    hstep hm
    hstep hk
    refine Triple.ret (fun h hh => ?_)
    show (f p x ∗ eachAt f ps l) h
    exact hh.perm (by ac_rfl)

theorem makes_table {f : Ptr → X → Assn} (hf : ∀ x, Makes (fun p => f p x)) (l : List X) : Makes (fun p => tableAt f p l) := by
  obtain ⟨m, hm⟩ := makes_each hf l
  refine ⟨do let ps ← m; alloc (.ptrs ps), ?_⟩
  hstep hm
  refine Triple.last (P := emp) (Triple.alloc _) (by rw [emp_sep]) (fun p h hh => ?_)
  exact table_intro h hh

/-- Every irregular extension can be built. -/
theorem makes_irr (x : Irregular) : Makes (fun p => irrAt p x) := by
  obtain ⟨m1, h1⟩ := makes_ints (x.preds.map fun y => (y.iters.length : Int))
  obtain ⟨m2, h2⟩ := makes_table (fun l => makes_table makes_uri l) (x.preds.map Pred.iters)
  obtain ⟨m3, h3⟩ := makes_table makes_uri (x.preds.map Pred.body)
  obtain ⟨m4, h4⟩ := makes_ints (x.stmts.map fun y => (y.length : Int))
  obtain ⟨m5, h5⟩ := makes_table makes_ints x.stmts
  refine ⟨do
    let nb ← m1
    let it ← m2
    let bo ← m3
    let np ← m4
    let pr ← m5
    alloc (.node [x.nbControl, x.nbExit, (x.stmts.length : Int)] [nb, it, bo, np, pr]), ?_⟩
  unfold irrAt predsAt stmtListsAt
  hstep h1
  hstep h2
  hstep h3
  hstep h4
  hstep h5
  refine Triple.last (P := emp) (Triple.alloc _) (by rw [emp_sep]) (fun p h hh => ?_)
  exact ⟨nb, it, bo, np, pr, hh.perm (by ac_rfl)⟩

end

local instance irrExampleAlloc : Allocator := bumpAlloc

/-- The sample of `ExtIrregularProps` meets the hypotheses, and it can be in memory beside a copy of itself. -/
example : Irregular.sample.WF ∧ Irregular.sample.nbControl + Irregular.sample.nbExit < 2 ^ 31 ∧ ∃ (h : Heap) (p q : Ptr), (irrAt p Irregular.sample ∗ irrAt q Irregular.sample) h.get :=
  ⟨⟨by decide, by decide, by decide⟩, by decide, both_exist (makes_irr _) (makes_irr _)⟩

/-- The text of the sample. -/
def sampleText : Str := "<irregular>\n1\n1 0 \n1\n0\n1 i \nA[i] > 0\n</irregular>\n".toList

/-- In memory, the sample is printed. -/
example : ∃ (h h' : Heap) (p q : Ptr), irrSprint p h = .ok (q, h') ∧ (uriAt q (some sampleText) ∗ anything) h'.get := by
  obtain ⟨h, p, q, hh⟩ := both_exist (makes_irr Irregular.sample) (makes_irr Irregular.sample)
  obtain ⟨r, h', hr, hp⟩ := irregular_sprint_memory (p := p) (d := some Irregular.sample) (t := some sampleText) (fun x hx => by
    cases hx
    exact ⟨⟨by decide, by decide, by decide⟩, by decide⟩) (by decide +kernel) _ h hh
  exact ⟨h, h', p, r, hr, sep_mono (fun _ h => h) (fun _ _ => trivial) (hp.perm (by ac_rfl) : (uriAt r (some sampleText) ∗ optAt irrAt p (some Irregular.sample) ∗ irrAt q Irregular.sample) h'.get)⟩

/-- In memory, the sample is equal to another copy of it, for any `strcmp`. -/
example {cmp : Str → Str → Int} (hc : Irregular.CmpSpec cmp) : ∃ (h : Heap) (p q : Ptr), irrEqual cmp p q h = .ok (true, h) := by
  obtain ⟨h, p, q, hh⟩ := both_exist (makes_irr Irregular.sample) (makes_irr Irregular.sample)
  refine ⟨h, p, q, irregular_equal_query (d := some Irregular.sample) (e := some Irregular.sample) (fun x hx => by
    cases hx
    exact ⟨⟨by decide, by decide, by decide⟩, by decide⟩) ?_ h (sep_anything hh)⟩
  have h1 : cmp "A[i] > 0".toList "A[i] > 0".toList = 0 := (hc _ _).mpr rfl
  have h2 : cmp "i".toList "i".toList = 0 := (hc _ _).mpr rfl
  have e : Irregular.equal cmp (some Irregular.sample) (some Irregular.sample) = Irregular.equalPreds cmp 1 Irregular.sample.preds Irregular.sample.preds := rfl
  rw [e]
  show (Out.ok (cmp "A[i] > 0".toList "A[i] > 0".toList) >>= fun v => if (0 + v ≠ 0) then pure false else
    ((Out.ok (cmp "i".toList "i".toList) >>= fun v => if v ≠ 0 then pure false else .ok true) >>= fun b => if b then .ok true else pure false)) = .ok true
  rw [h1, h2]
  rfl

/-- In memory, the copy of the sample is undefined. -/
example : ∃ (h : Heap) (p : Ptr), irrClone p h = .ub := by
  obtain ⟨h, p, q, hh⟩ := both_exist (makes_irr Irregular.sample) (makes_irr Irregular.sample)
  exact ⟨h, p, irregular_clone_undef_memory (x := Irregular.sample) ⟨by decide, by decide, by decide⟩ (by decide) (by decide) _ h hh⟩

/-! ## Runs -/

/-- A structure with two predicates and a statement, made by the functions of the library. -/
def irrBuild : M Ptr := do
  let s ← alloc (.chars "i".toList)
  let its ← alloc (.ptrs [s])
  let b ← alloc (.chars "A[i] > 0".toList)
  let l ← alloc (.node [0] [])
  let p ← irrMalloc
  let p1 ← irrAddControl p its 1 b
  let p2 ← irrAddExit p1 its 1 b
  let p3 ← irrAddPredicates p2 l 1
  irrFree p
  irrFree p1
  irrFree p2
  free s
  free its
  free b
  free l
  pure p3

set_option maxRecDepth 20000 in
/-- The text of this structure; after the deallocation of the structure nothing is left. -/
example : runLeaves (do
      let p ← irrBuild
      let q ← irrSprint p
      irrFree p
      writeFree q) = some ("<irregular>\n1\n1 0 \n1\n1\n1 i \nA[i] > 0\n1 i \nA[i] > 0\n</irregular>\n".toList, 0) := by decide +kernel

set_option maxRecDepth 20000 in
/-- A text is read; the string is cut after its first word, nothing else is left when the structure is freed. -/
example : runLeaves (do
      let s ← alloc (.chars "\n1\n2 5 6\n1\n1\n0 \nx\n0 \ny\n".toList)
      let p ← irrSread s
      let np ← getPtr p 4
      let l ← slotPtr np 0
      let v ← slotInt l 1
      irrFree p
      let t ← writeFree s
      pure (v, t)) = some ((6, "\n1".toList), 0) := by decide +kernel

end Osl.Mem
