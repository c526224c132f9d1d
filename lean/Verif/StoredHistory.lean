/-
C82: the structures which a client obtains can always be printed: the condition which the calls of printing put on the values of the run (Verif/HeapHistory.lean) is
met by all that any history of calls makes.
-/
import Verif.StoredLib
import Verif.StoredVec
import Verif.HeapHistoryExample

set_option linter.unusedSectionVars false

namespace Osl.Client

open Osl.Mem Osl.Ext

section

variable {c : Cfg} {e : Option Str} {release : Str} {n : Nat}

/-- Spec: the numbers of the value of a variable can be stored in the precision of their relation. -/
def Fits (c : Cfg) (n : Nat) : (k : Ty) → Value n k → Prop
  | .rel, r => Rel.Stored c r
  | .list, l => RList.Stored c l
  | .stmt, l => Stmts.Stored c (goodAt c n) l
  | .scop, l => Scops.Stored c (goodAt c n) l
  | .gen, l => goodList (goodAt c n) l
  | .vec, l => ∀ x ∈ l, Rel.VStored c (some x)

/-- Spec: so can those of all the variables. -/
def AllFit (c : Cfg) (n : Nat) (σ : State n) : Prop := ∀ v ∈ σ, Fits c n v.ty v.value

theorem fits_nil : ∀ k : Ty, Fits c n k []
  | .rel => Rel.stored_nil
  | .list => RList.stored_nil
  | .stmt => Stmts.stored_nil
  | .scop => Scops.stored_nil
  | .gen => GList.good_nil
  | .vec => fun _ h => by cases h

theorem allFit_nulls (ks : List Ty) : AllFit c n (nulls n ks) := by
  intro v hv
  obtain ⟨k, _, rfl⟩ := List.mem_map.mp hv
  exact fits_nil k

theorem AllFit.get {σ : State n} (hσ : AllFit c n σ) {k : Ty} {x : Nat} {v : Value n k} (h : get σ k x = .ok v) : Fits c n k v := by
  unfold Client.get at h
  split at h
  · next w hw =>
    split at h
    · next hk =>
      have := hσ w (List.mem_of_getElem? hw)
      obtain ⟨ty, value⟩ := w
      dsimp only at hk
      subst hk
      injection h with h
      rw [← h]
      exact this
    · cases h
  · cases h

theorem AllFit.set {σ : State n} (hσ : AllFit c n σ) (k : Ty) (x : Nat) {v : Value n k} (hv : Fits c n k v) : AllFit c n (σ.set x ⟨k, v⟩) := by
  intro w hw
  rcases List.mem_or_eq_of_mem_set hw with hw | hw
  · exact hσ w hw
  · rw [hw]; exact hv

theorem must_of {p : Prop} (h : p) : must p = .ok () := if_pos h

/-! ## The shapes of the calls -/

theorem on1_fits {k : Ty} {x : Nat} {f : Value n k → Out (Value n k × Obs)} {σ : State n} {r : State n × Obs} (hσ : AllFit c n σ)
    (hf : ∀ {v y}, Fits c n k v → f v = .ok y → Fits c n k y.1) (h : on1 k x f σ = .ok r) : AllFit c n r.1 := by
  obtain ⟨v, h1, h⟩ := Out.bind_eq_ok.mp h
  obtain ⟨y, h2, h⟩ := Out.bind_eq_ok.mp h
  injection h with h
  rw [← h]
  exact hσ.set k x (hf (hσ.get h1) h2)

theorem on2_fits {k j : Ty} {x y : Nat} {f : Value n k → Value n j → Out (Value n k × Value n j × Obs)} {σ : State n} {r : State n × Obs} (hσ : AllFit c n σ)
    (hf : ∀ {v w z}, Fits c n k v → Fits c n j w → f v w = .ok z → Fits c n k z.1 ∧ Fits c n j z.2.1) (h : on2 k x j y f σ = .ok r) : AllFit c n r.1 := by
  unfold on2 at h
  split at h
  · cases h
  · obtain ⟨v, h1, h⟩ := Out.bind_eq_ok.mp h
    obtain ⟨w, h2, h⟩ := Out.bind_eq_ok.mp h
    obtain ⟨z, h3, h⟩ := Out.bind_eq_ok.mp h
    injection h with h
    rw [← h]
    have := hf (hσ.get h1) (hσ.get h2) h3
    exact (hσ.set k x this.1).set j y this.2

theorem on3_fits {k j : Ty} {x y z : Nat} {f : Value n k → Value n j → Out (Value n k)} {σ : State n} {r : State n × Obs} (hσ : AllFit c n σ)
    (hf : ∀ {v w u}, Fits c n k v → Fits c n j w → f v w = .ok u → Fits c n k u) (h : on3 k x y j z f σ = .ok r) : AllFit c n r.1 := by
  unfold on3 at h
  split at h
  · cases h
  · obtain ⟨v, h1, h⟩ := Out.bind_eq_ok.mp h
    obtain ⟨_, _, h⟩ := Out.bind_eq_ok.mp h
    obtain ⟨w, h2, h⟩ := Out.bind_eq_ok.mp h
    obtain ⟨u, h3, h⟩ := Out.bind_eq_ok.mp h
    obtain ⟨q, h4, h⟩ := Out.bind_eq_ok.mp h
    injection h with h
    rw [← h]
    exact hσ.set k x (hf (hσ.get h2) (hσ.get h3) h4)

theorem make_fits {k : Ty} {x : Nat} {f : Out (Value n k)} {σ : State n} {r : State n × Obs} (hσ : AllFit c n σ)
    (hf : ∀ {y}, f = .ok y → Fits c n k y) (h : make k x f σ = .ok r) : AllFit c n r.1 := by
  refine on1_fits hσ (fun {v y} hv hy => ?_) h
  obtain ⟨_, _, hy⟩ := Out.bind_eq_ok.mp hy
  obtain ⟨q, h1, hy⟩ := Out.bind_eq_ok.mp hy
  injection hy with hy
  rw [← hy]
  exact hf h1

theorem from_fits {k j : Ty} {x y : Nat} {f : Value n j → Out (Value n k)} {σ : State n} {r : State n × Obs} (hσ : AllFit c n σ)
    (hf : ∀ {v w}, Fits c n j v → f v = .ok w → Fits c n k w) (h : from_ k x j y f σ = .ok r) : AllFit c n r.1 := by
  refine on2_fits hσ (fun {v w z} hv hw hz => ?_) h
  obtain ⟨_, _, hz⟩ := Out.bind_eq_ok.mp hz
  obtain ⟨q, h1, hz⟩ := Out.bind_eq_ok.mp hz
  injection hz with hz
  rw [← hz]
  exact ⟨hf hw h1, hw⟩

theorem change_fits {k : Ty} {x : Nat} {f : Value n k → Out (Value n k)} {σ : State n} {r : State n × Obs} (hσ : AllFit c n σ)
    (hf : ∀ {v w}, Fits c n k v → f v = .ok w → Fits c n k w) (h : change k x f σ = .ok r) : AllFit c n r.1 := by
  refine on1_fits hσ (fun {v y} hv hy => ?_) h
  obtain ⟨q, h1, hy⟩ := Out.bind_eq_ok.mp hy
  injection hy with hy
  rw [← hy]
  exact hf hv h1

theorem look_fits {k : Ty} {x : Nat} {f : Value n k → Out Obs} {σ : State n} {r : State n × Obs} (hσ : AllFit c n σ) (h : look k x f σ = .ok r) : AllFit c n r.1 := by
  refine on1_fits hσ (fun {v y} hv hy => ?_) h
  obtain ⟨q, h1, hy⟩ := Out.bind_eq_ok.mp hy
  injection hy with hy
  rw [← hy]
  exact hv

theorem with_fits {k j : Ty} {x y : Nat} {f : Value n k → Value n j → Out (Value n k)} {σ : State n} {r : State n × Obs} (hσ : AllFit c n σ)
    (hf : ∀ {v w u}, Fits c n k v → Fits c n j w → f v w = .ok u → Fits c n k u) (h : with_ k x j y f σ = .ok r) : AllFit c n r.1 := by
  refine on2_fits hσ (fun {v w z} hv hw hz => ?_) h
  obtain ⟨q, h1, hz⟩ := Out.bind_eq_ok.mp hz
  injection hz with hz
  rw [← hz]
  exact ⟨hf hv hw h1, hw⟩

theorem move_fits {k j : Ty} {x y : Nat} {f : Value n k → Value n j → Out (Value n k)} {σ : State n} {r : State n × Obs} (hσ : AllFit c n σ)
    (hf : ∀ {v w u}, Fits c n k v → Fits c n j w → f v w = .ok u → Fits c n k u) (h : move k x j y f σ = .ok r) : AllFit c n r.1 := by
  refine on2_fits hσ (fun {v w z} hv hw hz => ?_) h
  obtain ⟨q, h1, hz⟩ := Out.bind_eq_ok.mp hz
  injection hz with hz
  rw [← hz]
  exact ⟨hf hv hw h1, fits_nil j⟩

theorem compare_fits {k : Ty} {x y : Nat} {f : Value n k → Value n k → Out Bool} {σ : State n} {r : State n × Obs} (hσ : AllFit c n σ)
    (h : compare k x y f σ = .ok r) : AllFit c n r.1 := by
  unfold compare at h
  split at h
  · exact look_fits hσ h
  · refine on2_fits hσ (fun {v w z} hv hw hz => ?_) h
    obtain ⟨q, h1, hz⟩ := Out.bind_eq_ok.mp hz
    injection hz with hz
    rw [← hz]
    exact ⟨hv, hw⟩

theorem swap_fits {k j : Ty} {x y : Nat} {old : Elem n k → Value n j} {put : Elem n k → Value n j → Elem n k} {σ : State n} {r : State n × Obs} (hσ : AllFit c n σ)
    (hf : ∀ {a l w}, Fits c n k (a :: l) → Fits c n j w → Fits c n k (put a w :: l) ∧ Fits c n j (old a)) (h : swap x y old put σ = .ok r) : AllFit c n r.1 := by
  refine on2_fits hσ (fun {v w z} hv hw hz => ?_) h
  cases v with
  | nil => cases hz
  | cons a l =>
    injection hz with hz
    rw [← hz]
    exact hf hv hw

/-! ## The calls -/

theorem stmt_keep {x : Stmt (DataAt n)} {l : Stmts (DataAt n)} {y : Stmt (DataAt n)} (h : Fits c n .stmt (x :: l)) (hy : Stmts.Kept c (goodAt c n) y) : Fits c n .stmt (y :: l) :=
  Stmts.stored_cons.mpr ⟨hy, (Stmts.stored_cons.mp h).2⟩

theorem scop_keep {x : Scop (DataAt n)} {l : Scops (DataAt n)} {y : Scop (DataAt n)} (h : Fits c n .scop (x :: l)) (hy : Scops.Kept c (goodAt c n) y) : Fits c n .scop (y :: l) :=
  Scops.stored_cons.mpr ⟨hy, (Scops.stored_cons.mp h).2⟩

theorem vector_fits {v : List Vec} {a : Option Vec} (hv : Fits c n .vec v) (h : vector v = .ok a) : Rel.VStored c a := by
  have := vector_ok h
  subst this
  intro w hw
  subst hw
  exact hv w List.mem_cons_self w rfl

theorem on_vector_fits {f : Option Vec → Out Vec} {v r : List Vec} (hf : ∀ {a z}, Rel.VStored c a → f a = .ok z → Rel.VStored c (some z)) (hv : Fits c n .vec v)
    (h : onVector f v = .ok r) : Fits c n .vec r := by
  obtain ⟨a, ha, h⟩ := Out.bind_eq_ok.mp h
  obtain ⟨b, hb, h⟩ := Out.bind_eq_ok.mp h
  injection h with h
  rw [← h]
  intro x hx
  rw [List.mem_singleton.mp hx]
  exact hf (vector_fits hv ha) hb

theorem on_vectors_fits {f : Option Vec → Option Vec → Out Vec} {v w r : List Vec}
    (hf : ∀ {a b z}, Rel.VStored c a → Rel.VStored c b → f a b = .ok z → Rel.VStored c (some z)) (hv : Fits c n .vec v) (hw : Fits c n .vec w)
    (h : onVectors f v w = .ok r) : Fits c n .vec r := by
  obtain ⟨a, ha, h⟩ := Out.bind_eq_ok.mp h
  obtain ⟨b, hb, h⟩ := Out.bind_eq_ok.mp h
  obtain ⟨z, hz, h⟩ := Out.bind_eq_ok.mp h
  injection h with h
  rw [← h]
  intro x hx
  rw [List.mem_singleton.mp hx]
  exact hf (vector_fits hv ha) (vector_fits hw hb) hz

/-- A call makes values which can be stored from values which can be. -/
theorem run_fits (hc : c.Valid) (a : Call) {σ : State n} {r : State n × Obs} (hσ : AllFit c n σ) (h : run c e release n a σ = .ok r) : AllFit c n r.1 := by
  have K := libAt_keeps hc (e := e) n
  have hS : ∀ {x : Stmt (DataAt n)} {l : Stmts (DataAt n)}, Fits c n .stmt (x :: l) → Stmts.Kept c (goodAt c n) x := fun h => (Stmts.stored_cons.mp h).1
  have hP : ∀ {x : Scop (DataAt n)} {l : Scops (DataAt n)}, Fits c n .scop (x :: l) → Scops.Kept c (goodAt c n) x := fun h => (Scops.stored_cons.mp h).1
  cases a with
  | relPmalloc x p r s =>
    refine make_fits hσ (fun {y} hy => ?_) h
    obtain ⟨a, h1, hy⟩ := Out.bind_eq_ok.mp hy
    injection hy with hy
    rw [← hy]
    exact Rel.relation_pmalloc_stored hc h1
  | relRead x p file =>
    refine make_fits hσ (fun {y} hy => ?_) h
    obtain ⟨⟨a, b⟩, h1, hy⟩ := Out.bind_eq_ok.mp hy
    injection hy with hy
    rw [← hy]
    exact Rel.relation_pread_stored hc h1
  | relFree x => (refine change_fits hσ ?_ h; exact fun _ h => by cases h; exact Rel.stored_nil)
  | relClone x y => (refine from_fits hσ ?_ h; exact fun hv h => Rel.clone_stored hc hv h)
  | relNclone x y k => (refine from_fits hσ ?_ h; exact fun hv h => Rel.nclone_stored hc hv h)
  | relCloneRows x y k => (refine from_fits hσ ?_ h; exact fun hv h => Rel.clone_nconstraints_stored hc hv h)
  | relUnion x y z =>
    simp only [run] at h
    split at h
    · (refine from_fits hσ ?_ h; exact fun hv h => Rel.union_stored hc hv hv h)
    · (refine on3_fits hσ ?_ h; exact fun hv hw h => Rel.union_stored hc hv hw h)
  | relConcat x y z => (refine on3_fits hσ ?_ h; exact fun hv hw h => Rel.concat_constraints_stored hc hv hw h)
  | relAdd x y => (refine move_fits hσ ?_ h; exact fun hv hw h => by cases h; exact Rel.stored_append hv hw)
  | relInsert x y row => (refine with_fits hσ ?_ h; exact fun hv hw h => Rel.insert_constraints_stored hc hv hw h)
  | relInsertColumns x y column => (refine with_fits hσ ?_ h; exact fun hv hw h => Rel.insert_columns_stored hc hv hw h)
  | relInsertColumn x column => (refine change_fits hσ ?_ h; exact fun hv h => Rel.insert_blank_column_stored hc hv h)
  | relRemoveRow x row => (refine change_fits hσ ?_ h; exact fun hv h => Rel.remove_row_stored hc hv h)
  | relRemoveColumn x column => (refine change_fits hσ ?_ h; exact fun hv h => Rel.remove_column_stored hc hv h)
  | relExtend x y dim => (refine from_fits hσ ?_ h; exact fun hv h => Rel.extend_output_stored hc hv h)
  | relSetType x t => (refine change_fits hσ ?_ h; exact fun hv h => by cases h; exact Rel.set_type_stored hv t)
  | relSetPrecision x p => (refine change_fits hσ ?_ h; exact fun hv h => Rel.set_precision_stored hc hv h)
  | relEqual x y => exact compare_fits hσ h
  | relIntegrity x t o i p => exact look_fits hσ h
  | relSetAttributes x o i l p => (refine change_fits hσ ?_ h; exact fun hv h => by cases h; exact Rel.set_attributes_stored hv o i l p)
  | relSwap x i j => (refine change_fits hσ ?_ h; exact fun hv h => Rel.swap_constraints_stored hv h)
  | relInsertRow x row => (refine change_fits hσ ?_ h; exact fun hv h => Rel.relation_step_stored hc (op := .insertBlankRow row) hv Rel.stored_nil (fun _ h => by cases h) h)
  | relSamePrecision x y =>
    refine on2_fits hσ (fun {v w z} hv hw hz => ?_) h
    obtain ⟨u, hu, hz⟩ := Out.bind_eq_ok.mp hz
    injection hz with hz
    rw [← hz]
    exact Rel.set_same_precision_stored hc hv hw hu
  | relIsAccess x => exact look_fits hσ h
  | relArrayId x => exact look_fits hσ h
  | relFromVector x y =>
    refine from_fits hσ (fun {v w} hv h => ?_) h
    obtain ⟨a, ha, h⟩ := Out.bind_eq_ok.mp h
    exact Rel.from_vector_stored hc (vector_fits hv ha) h
  | relReplaceVector x y row =>
    refine with_fits hσ (fun {v w u} hv hw h => ?_) h
    obtain ⟨a, ha, h⟩ := Out.bind_eq_ok.mp h
    exact Rel.relation_step_stored hc (op := .replaceVector a row) hv Rel.stored_nil (vector_fits hw ha) h
  | relAddVector x y row =>
    refine with_fits hσ (fun {v w u} hv hw h => ?_) h
    obtain ⟨a, ha, h⟩ := Out.bind_eq_ok.mp h
    exact Rel.relation_step_stored hc (op := .addVector a row) hv Rel.stored_nil (vector_fits hw ha) h
  | relSubVector x y row =>
    refine with_fits hσ (fun {v w u} hv hw h => ?_) h
    obtain ⟨a, ha, h⟩ := Out.bind_eq_ok.mp h
    exact Rel.relation_step_stored hc (op := .subVector a row) hv Rel.stored_nil (vector_fits hw ha) h
  | relInsertVector x y row =>
    refine with_fits hσ (fun {v w u} hv hw h => ?_) h
    obtain ⟨a, ha, h⟩ := Out.bind_eq_ok.mp h
    exact Rel.relation_step_stored hc (op := .insertVector a row) hv Rel.stored_nil (vector_fits hw ha) h
  | relConcatVector x y z =>
    refine on3_fits hσ (fun {v w u} hv hw h => ?_) h
    obtain ⟨a, ha, h⟩ := Out.bind_eq_ok.mp h
    exact Rel.relation_step_stored hc (op := .concatVector a) hv Rel.stored_nil (vector_fits hw ha) h
  | vecMalloc x p k =>
    refine make_fits hσ (fun {y} hy => ?_) h
    obtain ⟨a, h1, hy⟩ := Out.bind_eq_ok.mp hy
    injection hy with hy
    rw [← hy]
    intro x hx
    rw [List.mem_singleton.mp hx]
    exact Rel.vec_pmalloc_stored hc h1
  | vecFree x => (refine change_fits hσ ?_ h; exact fun _ h => by cases h; exact fun _ h => by cases h)
  | vecAddScalar x y k => (refine from_fits hσ ?_ h; exact fun hv h => on_vector_fits (fun ha h => Vec.add_scalar_stored hc ha h) hv h)
  | vecMulScalar x y k => (refine from_fits hσ ?_ h; exact fun hv h => on_vector_fits (fun ha h => Vec.mul_scalar_stored hc ha h) hv h)
  | vecAdd x y z =>
    simp only [run] at h
    split at h
    · (refine from_fits hσ ?_ h; exact fun hv h => on_vectors_fits (fun ha hb h => Vec.add_stored hc ha hb h) hv hv h)
    · (refine on3_fits hσ ?_ h; exact fun hv hw h => on_vectors_fits (fun ha hb h => Vec.add_stored hc ha hb h) hv hw h)
  | vecSub x y z =>
    simp only [run] at h
    split at h
    · (refine from_fits hσ ?_ h; exact fun hv h => on_vectors_fits (fun ha hb h => Vec.sub_stored hc ha hb h) hv hv h)
    · (refine on3_fits hσ ?_ h; exact fun hv hw h => on_vectors_fits (fun ha hb h => Vec.sub_stored hc ha hb h) hv hw h)
  | vecTagInequality x => (refine change_fits hσ ?_ h; exact fun hv h => on_vector_fits (fun ha h => Vec.tag_inequality_stored hc ha h) hv h)
  | vecTagEquality x => (refine change_fits hσ ?_ h; exact fun hv h => on_vector_fits (fun ha h => Vec.tag_equality_stored hc ha h) hv h)
  | vecEqual x y => exact compare_fits hσ h
  | vecIsScalar x => exact look_fits hσ h
  | relPrint x => exact look_fits hσ h
  | relDump x => exact look_fits hσ h
  | listRead x p file =>
    refine make_fits hσ (fun {y} hy => ?_) h
    obtain ⟨⟨a, b⟩, h1, hy⟩ := Out.bind_eq_ok.mp hy
    injection hy with hy
    rw [← hy]
    exact RList.list_pread_stored hc h1
  | listNode x y => (refine from_fits hσ ?_ h; exact fun hv h => RList.node_stored hc hv h)
  | listFree x => (refine change_fits hσ ?_ h; exact fun _ h => by cases h; exact RList.stored_nil)
  | listClone x y => (refine from_fits hσ ?_ h; exact fun hv h => RList.clone_stored hc hv h)
  | listConcat x y z =>
    simp only [run] at h
    split at h
    · (refine from_fits hσ ?_ h; exact fun hv h => RList.concat_stored hc hv hv h)
    · (refine on3_fits hσ ?_ h; exact fun hv hw h => RList.concat_stored hc hv hw h)
  | listAdd x y => (refine move_fits hσ ?_ h; exact fun hv hw h => by cases h; exact RList.stored_append hv hw)
  | listPush x y =>
    refine move_fits hσ (fun {v w u} hv hw h => ?_) h
    unfold pushOne at h
    split at h
    · cases h; exact hv
    · cases h; exact RList.stored_append hw hv
    · cases h
  | listPop x y =>
    refine on2_fits hσ (fun {v w z} hv hw hz => ?_) h
    obtain ⟨_, _, hz⟩ := Out.bind_eq_ok.mp hz
    injection hz with hz
    rw [← hz]
    exact ⟨(RList.pop_stored hv).2, (RList.pop_stored hv).1⟩
  | listDup x => (refine change_fits hσ ?_ h; exact fun hv h => RList.dup_stored hc hv h)
  | listDrop x => (refine change_fits hσ ?_ h; exact fun hv h => by cases h; exact fun r hr => hv r (List.mem_of_mem_drop (i := 1) (by cases ‹Value n .list› <;> exact hr)))
  | listDestroy x => (refine change_fits hσ ?_ h; exact fun _ h => by cases h; exact RList.stored_nil)
  | listSetType x t => (refine change_fits hσ ?_ h; exact fun hv h => by cases h; exact RList.set_type_stored hv t)
  | listFilter x y t => (refine from_fits hσ ?_ h; exact fun hv h => RList.filter_stored hc hv h)
  | listEqual x y => exact compare_fits hσ h
  | listCount x => exact look_fits hσ h
  | listIntegrity x t o i p => exact look_fits hσ h
  | listPrint x => exact look_fits hσ h
  | listDump x => exact look_fits hσ h
  | genFree x => (refine change_fits hσ ?_ h; exact fun _ h => by cases h; exact GList.good_nil)
  | genClone x y => (refine from_fits hσ ?_ h; exact fun hv h => GList.clone_good K hv h)
  | genAdd x y => (refine move_fits hσ ?_ h; exact fun hv hw h => GList.add_good hv hw h)
  | genEqual x y => exact compare_fits hσ h
  | genCount x => exact look_fits hσ h
  | genRemove x t => (refine change_fits hσ ?_ h; exact fun hv h => by cases h; exact GList.remove_good hv)
  | genPrint x => exact look_fits hσ h
  | genDump x => exact look_fits hσ h
  | stmtMalloc x =>
    refine make_fits hσ (fun {y} hy => ?_) h
    injection hy with hy
    rw [← hy]
    exact Stmts.stored_cons.mpr ⟨⟨Rel.stored_nil, Rel.stored_nil, RList.stored_nil, GList.good_nil⟩, Stmts.stored_nil⟩
  | stmtFree x => (refine change_fits hσ ?_ h; exact fun _ h => by cases h; exact Stmts.stored_nil)
  | stmtClone x y => (refine from_fits hσ ?_ h; exact fun hv h => Stmts.nclone_stored hc K hv h)
  | stmtNclone x y k => (refine from_fits hσ ?_ h; exact fun hv h => Stmts.nclone_stored hc K hv h)
  | stmtAdd x y => (refine move_fits hσ ?_ h; exact fun hv hw h => by cases h; exact Stmts.stored_append hv hw)
  | stmtNumber x => exact look_fits hσ h
  | stmtDispatch x y =>
    refine move_fits hσ (fun {v w u} hv hw h => ?_) h
    cases v with
    | nil => cases h
    | cons s l =>
      unfold dispatch at h
      obtain ⟨_, _, h⟩ := Out.bind_eq_ok.mp h
      obtain ⟨_, _, h⟩ := Out.bind_eq_ok.mp h
      obtain ⟨_, _, h⟩ := Out.bind_eq_ok.mp h
      obtain ⟨⟨d, sc, a⟩, h4, h⟩ := Out.bind_eq_ok.mp h
      injection h with h
      rw [← h]
      obtain ⟨h5, h6, h7⟩ := Stmts.dispatch_stored hc hw h4
      exact stmt_keep hv ⟨h5, h6, h7, (hS hv).extension⟩
  | stmtUnions x y =>
    refine from_fits hσ (fun {v w} hv h => ?_) h
    cases v with
    | nil => cases h; exact Stmts.stored_nil
    | cons a l => exact Stmts.remove_unions_stored hc K hv h
  | stmtEqual x y => exact compare_fits hσ h
  | stmtIntegrity x p => exact look_fits hσ h
  | stmtPrint x => exact look_fits hσ h
  | stmtDump x => exact look_fits hσ h
  | stmtDomain x y => (refine swap_fits hσ ?_ h; exact fun hv hw => ⟨stmt_keep hv ⟨hw, (hS hv).scattering, (hS hv).access, (hS hv).extension⟩, (hS hv).domain⟩)
  | stmtScattering x y => (refine swap_fits hσ ?_ h; exact fun hv hw => ⟨stmt_keep hv ⟨(hS hv).domain, hw, (hS hv).access, (hS hv).extension⟩, (hS hv).scattering⟩)
  | stmtAccess x y => (refine swap_fits hσ ?_ h; exact fun hv hw => ⟨stmt_keep hv ⟨(hS hv).domain, (hS hv).scattering, hw, (hS hv).extension⟩, (hS hv).access⟩)
  | stmtExtension x y => (refine swap_fits hσ ?_ h; exact fun hv hw => ⟨stmt_keep hv ⟨(hS hv).domain, (hS hv).scattering, (hS hv).access, hw⟩, (hS hv).extension⟩)
  | scopMalloc x =>
    refine make_fits hσ (fun {y} hy => ?_) h
    injection hy with hy
    rw [← hy]
    exact Scops.stored_cons.mpr ⟨Scops.malloc_kept, Scops.stored_nil⟩
  | scopRead x file => (refine make_fits hσ ?_ h; exact fun hy => Scops.read_stored hc K hy)
  | scopFree x => (refine change_fits hσ ?_ h; exact fun _ h => by cases h; exact Scops.stored_nil)
  | scopClone x y => (refine from_fits hσ ?_ h; exact fun hv h => Scops.clone_stored hc K hv h)
  | scopUnions x y =>
    refine from_fits hσ (fun {v w} hv h => ?_) h
    obtain ⟨_, _, h⟩ := Out.bind_eq_ok.mp h
    exact Scops.remove_unions_stored hc K hv h
  | scopAdd x y => (refine move_fits hσ ?_ h; exact fun hv hw h => by cases h; exact Scops.stored_append hv hw)
  | scopNumber x => exact look_fits hσ h
  | scopNormalize x => (refine change_fits hσ ?_ h; exact fun hv h => Scops.normalize_stored hc hv h)
  | scopEqual x y => exact compare_fits hσ h
  | scopIntegrity x => exact look_fits hσ h
  | scopCheckScoplib x => exact look_fits hσ h
  | scopPrint x => exact look_fits hσ h
  | scopPrintScoplib x => exact look_fits hσ h
  | scopDump x => exact look_fits hσ h
  | scopContext x y => (refine swap_fits hσ ?_ h; exact fun hv hw => ⟨scop_keep hv ⟨hw, (hP hv).parameters, (hP hv).statement, (hP hv).extension⟩, (hP hv).context⟩)
  | scopParameters x y => (refine swap_fits hσ ?_ h; exact fun hv hw => ⟨scop_keep hv ⟨(hP hv).context, hw, (hP hv).statement, (hP hv).extension⟩, (hP hv).parameters⟩)
  | scopStatement x y => (refine swap_fits hσ ?_ h; exact fun hv hw => ⟨scop_keep hv ⟨(hP hv).context, (hP hv).parameters, hw, (hP hv).extension⟩, (hP hv).statement⟩)
  | scopExtension x y => (refine swap_fits hσ ?_ h; exact fun hv hw => ⟨scop_keep hv ⟨(hP hv).context, (hP hv).parameters, (hP hv).statement, hw⟩, (hP hv).extension⟩)

/-- C82: whatever a client does, the numbers in its structures can be stored in the precision of their relations. -/
theorem history_fits (hc : c.Valid) : ∀ {l : List Call} {σ : State n} {t : State n × List Obs}, AllFit c n σ → runs c e release n l σ = .ok t → AllFit c n t.1
  | [], _, _, hσ, h => by cases h; exact hσ
  | a :: l, σ, t, hσ, h => by
    obtain ⟨r, h1, h⟩ := Out.bind_eq_ok.mp h
    obtain ⟨u, h2, h⟩ := Out.bind_eq_ok.mp h
    injection h with h
    have := history_fits hc (run_fits hc a hσ h1) h2
    rw [← h]
    exact this

/-! ## Histories without the conditions -/

/-- A call on values, where the calls of printing have no condition on the numbers they print. -/
noncomputable def runPlain (c : Cfg) (e : Option Str) (release : Str) (n : Nat) : Call → State n → Out (State n × Obs)
  | .relPrint x => look .rel x (fun r => do let t ← Rel.sprint c r; return .text t)
  | .listPrint x => look .list x (fun l => do let t ← RList.print c l; return .text t)
  | .genPrint x => look .gen x (fun l => do let t ← GList.sprint (libAt c e n).toEnv l; return .text t)
  | .stmtPrint x => look .stmt x (fun l => do let t ← Stmts.print c (libAt c e n).toLib l; return .text t)
  | .scopPrint x => look .scop x (fun l => do let t ← Scops.print c (libAt c e n) release l; return .text t)
  | .scopPrintScoplib x => look .scop x (fun l => do let t ← Scops.print_scoplib c (scoplibAt c e n) release l; return .text t)
  | a => run c e release n a

/-- The history of such calls. -/
noncomputable def runsPlain (c : Cfg) (e : Option Str) (release : Str) (n : Nat) : List Call → State n → Out (State n × List Obs)
  | [], σ => .ok (σ, [])
  | a :: l, σ => do
    let r ← runPlain c e release n a σ
    let t ← runsPlain c e release n l r.1
    return (t.1, r.2 :: t.2)

theorem look_must {k : Ty} {x : Nat} {P : Value n k → Prop} {f : Value n k → Out Obs} {σ : State n} (hσ : AllFit c n σ)
    (hP : ∀ {v}, Fits c n k v → P v) : look k x (fun v => do must (P v); f v) σ = look k x f σ := by
  unfold look on1
  cases hg : get σ k x with
  | err => rfl
  | ub => rfl
  | ok v =>
    show (do let o ← (do must (P v); f v); return (v, o) : Out (Value n k × Obs)) >>= _ = _ 
    rw [must_of (hP (hσ.get hg))]
    rfl

/-- C82: the conditions of the calls of printing always hold. -/
theorem runPlain_eq (a : Call) {σ : State n} (hσ : AllFit c n σ) : runPlain c e release n a σ = run c e release n a σ := by
  cases a with
  | relPrint x => exact (look_must (k := .rel) (P := fun v => RelFits c v) hσ (fun {v} (hv : Rel.Stored c v) => hv.fits)).symm
  | listPrint x => exact (look_must (k := .list) (P := fun v => ∀ r ∈ v, RelFits c r) hσ (fun {v} (hv : RList.Stored c v) r hr => (hv r hr).fits)).symm
  | genPrint x => exact (look_must (k := .gen) (P := fun v => goodList (goodAt c n) v) hσ (fun hv => hv)).symm
  | stmtPrint x => exact (look_must (k := .stmt) (P := fun v => StmtsFit c (goodAt c n) v) hσ (fun {v} (hv : Stmts.Stored c (goodAt c n) v) => hv.fit)).symm
  | scopPrint x =>
    exact (look_must (k := .scop) (P := fun v => ∀ s ∈ v, ScopFits c (goodAt c n) s) hσ (fun {v} (hv : Scops.Stored c (goodAt c n) v) s hs => (hv s hs).fits)).symm
  | scopPrintScoplib x =>
    exact (look_must (k := .scop) (P := fun v => ∀ s ∈ v, ScopFitsScoplib c s) hσ
      (fun {v} (hv : Scops.Stored c (goodAt c n) v) s hs => ⟨(hv s hs).context.fits, fun y hy => ((hv s hs).statement.fit y hy).1⟩)).symm
  | _ => rfl

/-- C82: of a client whose variables are NULL at the start, the run with the conditions and the run without them are the same. -/
theorem runsPlain_eq (hc : c.Valid) : ∀ (l : List Call) {σ : State n}, AllFit c n σ → runsPlain c e release n l σ = runs c e release n l σ
  | [], _, _ => rfl
  | a :: l, σ, hσ => by
    unfold runsPlain runs
    rw [runPlain_eq a hσ]
    cases h : run c e release n a σ with
    | err => rfl
    | ub => rfl
    | ok r =>
      show (runsPlain c e release n l r.1 >>= fun t => _) = (runs c e release n l r.1 >>= fun t => _)
      rw [runsPlain_eq hc l (run_fits hc a hσ h)]

/-- C82: so the histories in memory need no condition on the numbers. -/
theorem history_memory_plain [Allocator] (hc : c.Valid) (l : List Call) (ks : List Ty) {t : State n × List Obs}
    (h : runsPlain c e release n l (nulls n ks) = .ok t) :
    Triple (varsAt c e n (List.replicate ks.length 0) (nulls n ks)) (execs c e release n l (List.replicate ks.length 0))
      (fun s => pur (s.2 = t.2) ∗ varsAt c e n s.1 t.1 ∗ looseAt (lostAll c e n l)) :=
  history_memory hc l ((runsPlain_eq hc l (allFit_nulls ks)).symm.trans h)

/-- A client which chooses its calls, on values, without the conditions. -/
noncomputable def runClientPlain (c : Cfg) (e : Option Str) (release : Str) (n : Nat) : Client → State n → Out (State n × List Obs × List Call)
  | .stop, σ => .ok (σ, [], [])
  | .call a next, σ => do
    let r ← runPlain c e release n a σ
    let t ← runClientPlain c e release n (next r.2) r.1
    return (t.1, r.2 :: t.2.1, a :: t.2.2)

/-- C82: the same of a client which chooses its calls. -/
theorem runClientPlain_eq (hc : c.Valid) : ∀ (p : Client) {σ : State n}, AllFit c n σ → runClientPlain c e release n p σ = runClient c e release n p σ
  | .stop, _, _ => rfl
  | .call a next, σ, hσ => by
    unfold runClientPlain runClient
    rw [runPlain_eq a hσ]
    cases h : run c e release n a σ with
    | err => rfl
    | ub => rfl
    | ok r =>
      show (runClientPlain c e release n (next r.2) r.1 >>= fun t => _) = (runClient c e release n (next r.2) r.1 >>= fun t => _)
      rw [runClientPlain_eq hc (next r.2) (run_fits hc a hσ h)]

/-- C82: so are its executions in memory. -/
theorem client_memory_plain [Allocator] (hc : c.Valid) (p : Client) (ks : List Ty) {t : State n × List Obs × List Call}
    (h : runClientPlain c e release n p (nulls n ks) = .ok t) :
    Triple (varsAt c e n (List.replicate ks.length 0) (nulls n ks)) (execClient c e release n p (List.replicate ks.length 0))
      (fun s => pur (s.2 = t.2) ∗ varsAt c e n s.1 t.1 ∗ looseAt (lostAll c e n t.2.2)) :=
  client_memory hc p ((runClientPlain_eq hc p (allFit_nulls ks)).symm.trans h)

end

/-! ## A case -/

/-- A client which reads a scop, prints its context, takes the domain of the first statement, puts it in a list with a copy of it, prints both, puts all back, prints the
scop in the two formats and frees all. -/
def printer : List Call :=
  [.scopRead 0 Data.handText, .scopContext 0 1, .relPrint 1, .scopContext 0 1, .scopStatement 0 2, .stmtDomain 2 1, .relPrint 1, .listNode 3 1, .listDup 3, .listPrint 3, .stmtDomain 2 1,
   .stmtPrint 2, .scopStatement 0 2, .scopPrint 0, .scopPrintScoplib 0, .listFree 3, .scopFree 0]

set_option maxRecDepth 100000 in
/-- Its run meets the hypothesis of `history_memory_plain`; it sees six texts, and its variables are NULL at the end. -/
example : Data.okAnd (runsPlain Cfg.std (some "64".toList) "0.9.7".toList 0 printer (nulls 0 [.scop, .rel, .stmt, .list]))
    (fun t => decide ((t.2.filter (fun o => match o with | .text s => s.length > 10 | _ => false)).length = 6) && t.1.all (fun v => v.value.isEmpty)) = true := by decide +kernel

/-- Not all values can be stored: the conditions are not empty. -/
example : ¬ Fits Cfg.std 0 .rel [{ type := 0, precision := 64, nb_rows := 1, nb_columns := 1, nb_output_dims := 0, nb_input_dims := 0, nb_local_dims := 0, nb_parameters := 0, m := [[2 ^ 63]] }] := by
  intro h
  have := (h _ List.mem_cons_self).2 [2 ^ 63] List.mem_cons_self (2 ^ 63) List.mem_cons_self
  revert this
  decide

end Osl.Client
