import Verif.HeapPrintScop
import Verif.HeapPrintGenProps
import Verif.HeapQueryScopProps
/-!
# Printing statements in memory (C74)
-/

set_option linter.unusedSectionVars false

namespace Osl.Mem

open Osl.Ext

/-! ## Borrowing a part of the memory -/

/-- The memory which, with `A`, is `B`. -/
def wand (A B : Assn) : Assn := fun h => ∀ h', disj h h' → A h' → B (join h h')

theorem wand_intro {F A B : Assn} (hf : ∀ h, (F ∗ A) h → B h) : ∀ h, F h → wand A B h := fun h hh h' hd ha => hf _ ⟨h, h', hd, rfl, hh, ha⟩

theorem wand_elim {A B : Assn} : ∀ h, (A ∗ wand A B) h → B h := by
  intro h hh
  rw [sep_comm] at hh
  obtain ⟨a, b, hd, rfl, hw, ha⟩ := hh
  exact hw b hd ha

theorem wand_back {A B F : Assn} {h : PHeap} (hh : (A ∗ wand A B ∗ F) h) : (B ∗ F) h := by
  rw [← sep_assoc] at hh
  exact sep_mono wand_elim (fun _ h => h) hh

variable [Allocator] {D : Type}

section

variable {E : Env D} {O : DataMem D E}

/-- The data found under a URI can be used, and given back. -/
theorem genFindLoop_borrow {t : Str} : ∀ (f : Nat) (l : GList D) (p : Ptr), l.length ≤ f →
    Triple (glistAt O p l) (genFindLoop t f p) (fun y => O.opt y (GList.lookup l t) ∗ wand (O.opt y (GList.lookup l t)) (glistAt O p l))
  | f, [], p, _ => by
    refine Triple.of_fact (φ := p = 0) (fun _ hh => hh.1) (fun hp => ?_)
    subst hp
    have : Triple (glistAt O 0 ([] : GList D)) (pure 0) (fun y => O.opt y (GList.lookup ([] : GList D) t) ∗ wand (O.opt y (GList.lookup ([] : GList D) t)) (glistAt O 0 [])) := by
      refine Triple.ret (fun h hh => pur_sep_iff.mpr ⟨rfl, ?_⟩)
      refine wand_intro (F := glistAt O 0 []) (fun h hh => ?_) h hh
      rw [sep_comm] at hh
      exact (pur_sep_iff.mp hh).2
    cases f <;> exact this
  | 0, a :: l, p, h => by simp at h
  | f + 1, g :: l, p, hf => by
    refine Triple.of_fact (fun _ hh => Chain.list_cons_ne hh) (fun hp => ?_)
    unfold genFindLoop
    rw [if_neg hp]
    show Triple ((genChain O).list p (g :: l)) _ _
    rw [Chain.list_cons]
    refine Triple.exi (fun n => ?_)
    have hq : Query (genAt O p g n ∗ (genChain O).list n l) (genIs t p) (GList.has_URI g t) := (generic_has_uri_query (t := t)).left
    refine Triple.bind hq.triple (fun b => Triple.fact (fun hb => ?_))
    subst hb
    by_cases hu : GList.has_URI g t = true
    · rw [if_pos hu]
      simp only [GList.lookup, if_pos hu]
      show Triple (genAt O p g n ∗ _) _ _
      unfold genAt
      rw [ex_sep]
      refine Triple.exi (fun x => ?_)
      rw [ex_sep]
      refine Triple.exi (fun y => ?_)
      hlast (getField_spec (p := p) (i := 1) (x := y) rfl)
      have hback : ∀ h, ((p ↦ .ptrs [x, y, n] ∗ contentAt O x y g) ∗ (genChain O).list n l) h → glistAt O p (g :: l) h := by
        intro h hh
        show (genChain O).list p (g :: l) h
        rw [Chain.list_cons]
        exact ⟨n, sep_mono (fun _ hx => ⟨x, y, hx⟩) (fun _ h => h) hh⟩
      obtain ⟨i, d⟩ := g
      cases i with
      | none => simp [GList.has_URI] at hu
      | some i =>
        rw [contentAt_some] at hback ⊢
        refine Triple.ret (fun h hh => ?_)
        refine sep_mono (P := O.opt y d) (fun _ h => h) (wand_intro (F := p ↦ .ptrs [x, y, n] ∗ pur (O.fits i.fns d) ∗ ifacesAt x [i] ∗ (genChain O).list n l) (fun h hh => ?_)) ?_
        · exact hback _ (hh.perm (by ac_rfl))
        · exact hh.perm (by ac_rfl)
    · rw [if_neg hu]
      simp only [GList.lookup, if_neg hu]
      have hn : Query (genAt O p g n ∗ (genChain O).list n l) (getField p 2) n := (gen_next p g n).left
      refine Triple.bind hn.triple (fun b => Triple.fact (fun hb => ?_))
      rw [hb]
      have ih := genFindLoop_borrow (t := t) f l n (by simpa using hf)
      refine Triple.last ih (F := genAt O p g n) (by rw [sep_comm]; rfl) (fun y h hh => ?_)
      refine sep_mono (P := O.opt y (GList.lookup l t)) (fun _ h => h) (wand_intro (F := genAt O p g n ∗ wand (O.opt y (GList.lookup l t)) (glistAt O n l)) (fun h hh => ?_)) (hh.perm (by ac_rfl))
      show (genChain O).list p (g :: l) h
      rw [Chain.list_cons]
      refine ⟨n, ?_⟩
      have : (genAt O p g n ∗ (O.opt y (GList.lookup l t) ∗ wand (O.opt y (GList.lookup l t)) (glistAt O n l))) h := hh.perm (by ac_rfl)
      exact sep_mono (fun _ h => h) wand_elim this

/-- `osl_generic_lookup` (for a constant URI): the data can be used, and given back. -/
theorem genFind_borrow {t : Str} {l : GList D} {p : Ptr} :
    Triple (glistAt O p l) (genFind t p) (fun y => O.opt y (GList.lookup l t) ∗ wand (O.opt y (GList.lookup l t)) (glistAt O p l)) := by
  unfold genFind
  refine Triple.bind (Triple.heapSize (Chain.seg_big (N := genChain O) l p 0)) (fun f => Triple.fact (fun hf => ?_))
  exact genFindLoop_borrow f l p hf

end

end Osl.Mem
