import Verif.HeapHistoryVec
import Verif.HeapPrintLibExample
set_option linter.unusedSectionVars false
/-!
# Histories of calls in memory (C81): every call
-/

namespace Osl.Client

open Osl.Mem Osl.Ext

variable [Allocator] {c : Cfg} {e : Option Str} {release : Str} {n : Nat}

/-! ## Fields -/

/-- The memory of a statement which is followed by `m`. -/
def aStmt (c : Cfg) (e : Option Str) (n : Nat) (p : Ptr) (s : Stmt (DataAt n)) (m : Ptr) : Assn := stmtAt c (L := (libAt c e n).toLib) (libMem c e n) p s m

/-- The memory of a scop which is followed by `m`. -/
def aScop (c : Cfg) (e : Option Str) (n : Nat) (p : Ptr) (s : Scop (DataAt n)) (m : Ptr) : Assn := scopAt c (L := (libAt c e n).toLib) (libMem c e n) p s m

theorem sound_swap_stmt {j : Ty} {m : Ptr → Ptr → M Ptr} {old : Stmt (DataAt n) → Value n j} {put : Stmt (DataAt n) → Value n j → Stmt (DataAt n)}
    (hm : ∀ (a : Stmt (DataAt n)) (w : Value n j) (p q o : Ptr),
      Triple (aStmt c e n p a o ∗ valueAt c e n j q w) (m p q) (fun t => aStmt c e n p (put a w) o ∗ valueAt c e n j t (old a)))
    {x y : Nat} {ps : List Ptr} {σ : State n} {t : State n × Obs} (h : swap (k := .stmt) (j := j) x y old put σ = .ok t) :
    Sound c e n ps σ (swapWith x y m ps) t [] := by
  unfold swap at h
  unfold swapWith
  refine sound2 (fun v w r hr p q => ?_) h
  cases v with
  | nil => cases hr
  | cons a l =>
    cases hr
    show Triple (libStmtsAt c e n p (a :: l) ∗ _) _ _
    have hx : ∀ b : Stmt (DataAt n), libStmtsAt c e n p (b :: l) = ex fun m => aStmt c e n p b m ∗ libStmtsAt c e n m l := fun _ => rfl
    rw [hx, ex_sep]
    refine Triple.exi (fun o => ?_)
    refine Triple.pre (P := (aStmt c e n p a o ∗ valueAt c e n j q w) ∗ libStmtsAt c e n o l) ?_ (fun h0 hh => hh.perm (by ac_rfl))
    refine ((hm a w p q o).frame _).bind (fun t => Triple.ret (fun h0 hh => pur_sep_iff.mpr ⟨rfl, ?_⟩))
    show (libStmtsAt c e n p (put a w :: l) ∗ valueAt c e n j t (old a)) h0
    rw [hx, ex_sep]
    exact ⟨o, hh.perm (by ac_rfl)⟩

theorem sound_swap_scop {j : Ty} {m : Ptr → Ptr → M Ptr} {old : Scop (DataAt n) → Value n j} {put : Scop (DataAt n) → Value n j → Scop (DataAt n)}
    (hm : ∀ (a : Scop (DataAt n)) (w : Value n j) (p q o : Ptr),
      Triple (aScop c e n p a o ∗ valueAt c e n j q w) (m p q) (fun t => aScop c e n p (put a w) o ∗ valueAt c e n j t (old a)))
    {x y : Nat} {ps : List Ptr} {σ : State n} {t : State n × Obs} (h : swap (k := .scop) (j := j) x y old put σ = .ok t) :
    Sound c e n ps σ (swapWith x y m ps) t [] := by
  unfold swap at h
  unfold swapWith
  refine sound2 (fun v w r hr p q => ?_) h
  cases v with
  | nil => cases hr
  | cons a l =>
    cases hr
    show Triple (libScopsAt c e n p (a :: l) ∗ _) _ _
    have hx : ∀ b : Scop (DataAt n), libScopsAt c e n p (b :: l) = ex fun m => aScop c e n p b m ∗ libScopsAt c e n m l := fun _ => rfl
    rw [hx, ex_sep]
    refine Triple.exi (fun o => ?_)
    refine Triple.pre (P := (aScop c e n p a o ∗ valueAt c e n j q w) ∗ libScopsAt c e n o l) ?_ (fun h0 hh => hh.perm (by ac_rfl))
    refine ((hm a w p q o).frame _).bind (fun t => Triple.ret (fun h0 hh => pur_sep_iff.mpr ⟨rfl, ?_⟩))
    show (libScopsAt c e n p (put a w :: l) ∗ valueAt c e n j t (old a)) h0
    rw [hx, ex_sep]
    exact ⟨o, hh.perm (by ac_rfl)⟩

theorem stmt_domain_swap (a : Stmt (DataAt n)) (w : Rel) (p q o : Ptr) :
    Triple (aStmt c e n p a o ∗ relAt c q w) (exchangeField p 0 q) (fun t => aStmt c e n p { a with domain := w } o ∗ relAt c t a.domain) := by
  unfold exchangeField aStmt
  hopen stmtAt
  hstep getField_spec
  hstep setField_spec
  hret

theorem stmt_scattering_swap (a : Stmt (DataAt n)) (w : Rel) (p q o : Ptr) :
    Triple (aStmt c e n p a o ∗ relAt c q w) (exchangeField p 1 q) (fun t => aStmt c e n p { a with scattering := w } o ∗ relAt c t a.scattering) := by
  unfold exchangeField aStmt
  hopen stmtAt
  hstep getField_spec
  hstep setField_spec
  hret

theorem stmt_access_swap (a : Stmt (DataAt n)) (w : RList) (p q o : Ptr) :
    Triple (aStmt c e n p a o ∗ rlistAt c q w) (exchangeField p 2 q) (fun t => aStmt c e n p { a with access := w } o ∗ rlistAt c t a.access) := by
  unfold exchangeField aStmt
  hopen stmtAt
  hstep getField_spec
  hstep setField_spec
  hret

theorem stmt_extension_swap (a : Stmt (DataAt n)) (w : GList (DataAt n)) (p q o : Ptr) :
    Triple (aStmt c e n p a o ∗ glistAt (libMem c e n) q w) (exchangeField p 3 q)
      (fun t => aStmt c e n p { a with extension := w } o ∗ glistAt (libMem c e n) t a.extension) := by
  unfold exchangeField aStmt
  hopen stmtAt
  hstep getField_spec
  hstep setField_spec
  hret

theorem scop_context_swap (a : Scop (DataAt n)) (w : Rel) (p q o : Ptr) :
    Triple (aScop c e n p a o ∗ relAt c q w) (exchangePtr p 1 q) (fun t => aScop c e n p { a with context := w } o ∗ relAt c t a.context) := by
  unfold exchangePtr aScop
  hopen scopAt
  hstep getPtr_spec
  hstep setPtr_spec
  hret

theorem scop_parameters_swap (a : Scop (DataAt n)) (w : GList (DataAt n)) (p q o : Ptr) :
    Triple (aScop c e n p a o ∗ glistAt (libMem c e n) q w) (exchangePtr p 2 q)
      (fun t => aScop c e n p { a with parameters := w } o ∗ glistAt (libMem c e n) t a.parameters) := by
  unfold exchangePtr aScop
  hopen scopAt
  hstep getPtr_spec
  hstep setPtr_spec
  hret

theorem scop_statement_swap (a : Scop (DataAt n)) (w : Stmts (DataAt n)) (p q o : Ptr) :
    Triple (aScop c e n p a o ∗ libStmtsAt c e n q w) (exchangePtr p 3 q)
      (fun t => aScop c e n p { a with statement := w } o ∗ libStmtsAt c e n t a.statement) := by
  unfold exchangePtr aScop libStmtsAt
  hopen scopAt
  hstep getPtr_spec
  hstep setPtr_spec
  hret

theorem scop_extension_swap (a : Scop (DataAt n)) (w : GList (DataAt n)) (p q o : Ptr) :
    Triple (aScop c e n p a o ∗ glistAt (libMem c e n) q w) (exchangePtr p 5 q)
      (fun t => aScop c e n p { a with extension := w } o ∗ glistAt (libMem c e n) t a.extension) := by
  unfold exchangePtr aScop
  hopen scopAt
  hstep getPtr_spec
  hstep setPtr_spec
  hret

/-! ## Statements, scops -/

theorem stmt_malloc_spec : Triple emp stmtMalloc (fun p => libStmtsAt c e n p [{ domain := [], scattering := [], access := [], extension := [] }]) := by
  have hf : Triple emp stmtMalloc (fun p => stmtAt c (L := (libAt c e n).toLib) (libMem c e n) p ⟨[], [], [], []⟩ 0) := by
    refine (Triple.alloc _).post (fun p h hh => ⟨0, 0, 0, 0, ?_⟩)
    show (_ ∗ pur ((0 : Ptr) = 0) ∗ pur ((0 : Ptr) = 0) ∗ pur ((0 : Ptr) = 0) ∗ pur ((0 : Ptr) = 0)) h
    rw [pur_true rfl]
    simp only [sep_emp]
    exact hh
  exact hf.post (fun p h0 hh => by
    show stmtsAt c (L := (libAt c e n).toLib) (libMem c e n) p [_] h0
    rw [stmtsAt_one]
    exact hh)

theorem scop_malloc_spec : Triple emp scopMalloc (fun p => libScopsAt c e n p [Scops.malloc]) := by
  have hf : Triple emp scopMalloc (fun p => scopAt c (L := (libAt c e n).toLib) (libMem c e n) p Scops.malloc 0) := by
    refine (Triple.alloc _).post (fun p h hh => ⟨0, 0, 0, 0, 0, 0, ?_⟩)
    show (_ ∗ pur ((0 : Ptr) = 0) ∗ pur ((0 : Ptr) = 0) ∗ pur ((0 : Ptr) = 0) ∗ pur ((0 : Ptr) = 0) ∗ pur ((0 : Ptr) = 0) ∗ pur ((0 : Ptr) = 0)) h
    rw [pur_true rfl]
    simp only [sep_emp]
    exact hh
  exact hf.post (fun p h0 hh => by
    show scopsAt c (L := (libAt c e n).toLib) (libMem c e n) p [_] h0
    rw [scopsAt_one]
    exact hh)

theorem stmt_nclone_spec {l l' : Stmts (DataAt n)} {k : Int} (h : Stmts.nclone c (libAt c e n).toLib l k = .ok l') (p : Ptr) :
    Triple (libStmtsAt c e n p l) (stmtNclone c (fnsAt c n) p k) (fun q => libStmtsAt c e n p l ∗ libStmtsAt c e n q l') := by
  have := statement_nclone_memory (L := (libAt c e n).toLib) (O := libMem c e n) h p
  rwa [libMem_fns] at this

theorem stmt_unions_spec {l l' : Stmts (DataAt n)}
    (h : (match l with | [] => .ok [] | a :: l => Stmts.remove_unions c (libAt c e n).toLib (a :: l) : Out (Stmts (DataAt n))) = .ok l') (p : Ptr) :
    Triple (libStmtsAt c e n p l) (stmtRemoveUnions c (fnsAt c n) p) (fun q => libStmtsAt c e n p l ∗ libStmtsAt c e n q l') := by
  cases l with
  | nil =>
    cases h
    show Triple (pur (p = 0)) _ (fun q => pur (p = 0) ∗ pur (q = 0))
    refine Triple.fact1 (fun hp => ?_)
    subst hp
    exact Triple.ret (fun h0 hh => pur_sep_iff.mpr ⟨rfl, rfl, hh⟩)
  | cons a l =>
    have hx : libStmtsAt c e n p (a :: l) = ex fun m => aStmt c e n p a m ∗ libStmtsAt c e n m l := rfl
    rw [hx]
    refine Triple.exi (fun m => ?_)
    have := statement_remove_unions_memory (L := (libAt c e n).toLib) (O := libMem c e n) h p m
    rw [libMem_fns] at this
    exact (this.frame (libStmtsAt c e n m l)).post (fun q h0 hh => by
      rw [ex_sep]
      exact ⟨m, hh.perm (by unfold aStmt libStmtsAt; ac_rfl)⟩)

theorem push_spec {l m r : RList} (h : pushOne l m = .ok r) (p q : Ptr) :
    Triple (rlistAt c p l ∗ rlistAt c q m) (listPush p q) (fun s => rlistAt c s r) := by
  match m, h with
  | [], h =>
    cases h
    rw [rlistAt_nil, sep_comm]
    refine Triple.fact (fun hq => ?_)
    subst hq
    exact Triple.ret (fun h0 hh => hh)
  | [a], h =>
    cases h
    rw [sep_comm]
    exact list_push_memory a l q p
  | _ :: _ :: _, h => cases h

theorem dispatch_spec {v r : Stmts (DataAt n)} {w : RList} (h : dispatch c v w = .ok r) (p q : Ptr) :
    Triple (libStmtsAt c e n p v ∗ rlistAt c q w) (do stmtDispatch c p q; pure p) (fun s => libStmtsAt c e n s r) := by
  cases v with
  | nil => cases h
  | cons s l =>
    unfold dispatch at h
    obtain ⟨_, h1, h⟩ := Out.bind_eq_ok.mp h
    obtain ⟨_, h2, h⟩ := Out.bind_eq_ok.mp h
    obtain ⟨_, h3, h⟩ := Out.bind_eq_ok.mp h
    obtain ⟨⟨d, sc, a⟩, h4, h⟩ := Out.bind_eq_ok.mp h
    cases h
    have hx : ∀ b : Stmt (DataAt n), libStmtsAt c e n p (b :: l) = ex fun m => aStmt c e n p b m ∗ libStmtsAt c e n m l := fun _ => rfl
    rw [hx, ex_sep]
    refine Triple.exi (fun m => ?_)
    refine Triple.pre (P := (aStmt c e n p s m ∗ rlistAt c q w) ∗ libStmtsAt c e n m l) ?_ (fun h0 hh => hh.perm (by ac_rfl))
    refine ((statement_dispatch_memory (L := (libAt c e n).toLib) (O := libMem c e n) h4 s (null_ok h1) (null_ok h2) (null_ok h3) p m q).frame _).bind
      (fun _ => Triple.ret (fun h0 hh => ?_))
    rw [hx]
    exact ⟨m, hh⟩

theorem remove_string_spec (l : GList (DataAt n)) (t : Str) (p : Ptr) :
    Triple (glistAt (libMem c e n) p l) (removeString (fnsAt c n) t p) (fun q => glistAt (libMem c e n) q (GList.remove l t)) := by
  unfold removeString
  have hr : ∀ v, Triple (glistAt (libMem c e n) p l ∗ v ↦ .chars t) (genRemove (fnsAt c n) p v) (fun q => glistAt (libMem c e n) q (GList.remove l t) ∗ v ↦ .chars t) := by
    intro v
    have := generic_remove_memory (O := libMem c e n) p v l t
    rwa [libMem_fns] at this
  refine Triple.pre (P := emp ∗ glistAt (libMem c e n) p l) ?_ (fun h0 hh => by rw [emp_sep]; exact hh)
  refine ((Triple.alloc _).frame _).bind (fun v => ?_)
  rw [sep_comm]
  refine (hr v).bind (fun q => ?_)
  rw [sep_comm]
  refine ((Triple.free v _).frame _).bind (fun _ => Triple.ret (fun h0 hh => ?_))
  rwa [emp_sep] at hh

/-- The result of a reading function which also gives the rest of the file. -/
theorem read_spec {α : Type} {A : Ptr → Assn} {pos : α} {m : M (Ptr × α)} (h : Triple emp m (fun r => ex fun q => pur (r = (q, pos)) ∗ A q)) :
    Triple emp (do let r ← m; pure r.1) A := by
  refine h.bind (fun r => Triple.exi (fun q => Triple.fact (fun hr => ?_)))
  subst hr
  exact Triple.ret (fun h0 hh => hh)

/-! ## Every call -/

/-- C81: a call in memory does what the call on values does. -/
theorem call_memory (hc : c.Valid) {ps : List Ptr} {σ : State n} (a : Call) {t : State n × Obs} (h : run c e release n a σ = .ok t) :
    Sound c e n ps σ (exec c e release n a ps) t (lost c e n a) := by
  cases a with
  | relPmalloc x p r s =>
    refine sound_make0 (fun v hv => ?_) h
    obtain ⟨b, hb, hv⟩ := Out.bind_eq_ok.mp hv
    cases hv
    exact relation_pmalloc_memory hb
  | relRead x p file =>
    refine sound_make0 (fun v hv => ?_) h
    obtain ⟨b, hb, hv⟩ := Out.bind_eq_ok.mp hv
    cases hv
    exact read_spec (A := fun q => relAt c q b.1) (pos := b.2) (relation_pread_memory hb)
  | relFree x =>
    refine sound_release ?_ h
    exact fun v p => relation_free_memory p v
  | relClone x y =>
    refine sound_from ?_ h
    exact fun w r hr q => relation_clone_memory hr q
  | relNclone x y k =>
    refine sound_from ?_ h
    exact fun w r hr q => relation_nclone_memory hr q
  | relCloneRows x y k =>
    refine sound_from ?_ h
    exact fun w r hr q => relation_clone_nconstraints_memory hr q
  | relUnion x y z =>
    simp only [run] at h
    split at h
    · next hyz =>
      subst hyz
      refine sound3_same ?_ h
      exact fun w r hr q => relation_union_same_memory hr q
    · refine sound3 ?_ h
      exact fun w u r hr q s => relation_union_memory hr q s
  | relConcat x y z =>
    refine sound3 ?_ h
    exact fun w u r hr q s => relation_concat_constraints_memory hr q s
  | relAdd x y =>
    refine sound_give (fun v w r hr p q => ?_) h
    cases hr
    exact relation_add_memory v w p q
  | relInsert x y row =>
    refine sound_with ?_ h
    exact fun v w r hr p q => relation_insert_constraints_memory hr p q
  | relInsertColumns x y column =>
    refine sound_with ?_ h
    exact fun v w r hr p q => relation_insert_columns_memory hr p q
  | relInsertColumn x column =>
    refine sound_act ?_ h
    exact fun v r hr p => relation_insert_blank_column_memory hr p
  | relRemoveRow x row =>
    refine sound_act ?_ h
    exact fun v r hr p => relation_remove_row_memory hr p
  | relRemoveColumn x column =>
    refine sound_act ?_ h
    exact fun v r hr p => relation_remove_column_memory hr p
  | relExtend x y dim =>
    refine sound_from ?_ h
    exact fun w r hr q => relation_extend_output_memory hr q
  | relSetType x type =>
    refine sound_act (fun v r hr p => ?_) h
    cases hr
    exact relation_set_type_memory v type p
  | relSetPrecision x k =>
    refine sound_act ?_ h
    exact fun v r hr p => relation_set_precision_memory hr p
  | relEqual x y =>
    refine sound_compare ?_ ?_ h
    · exact fun v w b hb p q => (relation_equal_query hb).triple
    · exact fun v p => (relation_equal_self_query).triple
  | relIntegrity x t o i k =>
    refine sound_answer ?_ h
    exact fun v b hb p => (relation_integrity_check_query hb).triple
  | relSetAttributes x o i l k =>
    refine sound_act (fun v r hr p => ?_) h
    cases hr
    exact relation_set_attributes_memory v o i l k p
  | relSwap x i j =>
    refine sound_act ?_ h
    exact fun v r hr p => relation_swap_constraints_memory hr p
  | relInsertRow x row =>
    refine sound_act ?_ h
    exact fun v r hr p => relation_insert_blank_row_memory hr p
  | relSamePrecision x y =>
    refine sound2 (fun v w r hr p q => ?_) h
    obtain ⟨u, hu, hr⟩ := Out.bind_eq_ok.mp hr
    cases hr
    exact (relation_set_same_precision_memory hu p q).bind (fun _ => Triple.ret (fun h0 hh => pur_sep_iff.mpr ⟨rfl, hh⟩))
  | relIsAccess x =>
    refine sound_answer (fun v b hb p => ?_) h
    cases hb
    exact relation_is_access_query.triple
  | relArrayId x =>
    refine sound_integer ?_ h
    exact fun v b hb p => (relation_get_array_id_query hb).triple
  | relFromVector x y =>
    refine sound_from ?_ h
    exact fun w r hr q => from_vector_spec hr q
  | relReplaceVector x y row =>
    refine sound_with ?_ h
    exact fun v w r hr p q => with_vector_spec (f := fun a => Rel.replace_vector c v a row) (fun hn => by cases v <;> cases hn) (fun _ hx p q => relation_replace_vector_memory hx p q) hr p q
  | relAddVector x y row =>
    refine sound_with ?_ h
    exact fun v w r hr p q => with_vector_spec (f := fun a => Rel.add_vector c v a row) (fun hn => by cases v <;> cases hn) (fun _ hx p q => relation_add_vector_memory hx p q) hr p q
  | relSubVector x y row =>
    refine sound_with ?_ h
    exact fun v w r hr p q => with_vector_spec (f := fun a => Rel.sub_vector c v a row) (fun hn => by cases v <;> cases hn) (fun _ hx p q => relation_sub_vector_memory hx p q) hr p q
  | relInsertVector x y row =>
    refine sound_with ?_ h
    exact fun v w r hr p q => insert_vector_spec hr p q
  | relConcatVector x y z =>
    refine sound3 ?_ h
    exact fun w u r hr q s => concat_vector_spec hr q s
  | vecMalloc x p k =>
    refine sound_make0 (fun v hv => ?_) h
    obtain ⟨b, hb, hv⟩ := Out.bind_eq_ok.mp hv
    cases hv
    exact vector_pmalloc_memory hb
  | vecFree x =>
    refine sound_release ?_ h
    exact fun v p => vector_free_spec p v
  | vecAddScalar x y k =>
    refine sound_from ?_ h
    exact fun w r hr q => on_vector_spec (fun hn => by cases hn) (fun _ hx p => vector_add_scalar_memory hx p) hr q
  | vecMulScalar x y k =>
    refine sound_from ?_ h
    exact fun w r hr q => on_vector_spec (fun hn => by cases hn) (fun _ hx p => vector_mul_scalar_memory hx p) hr q
  | vecAdd x y z =>
    simp only [run] at h
    split at h
    · next hyz =>
      subst hyz
      refine sound3_same ?_ h
      exact fun w r hr q => on_same_vectors_spec (fun hn => by cases hn) (fun _ hx p => vector_add_same_memory hx p) hr q
    · refine sound3 ?_ h
      exact fun w u r hr q s => on_vectors_spec (fun {a b z} hn => by cases a <;> cases b <;> first | exact ⟨rfl, rfl⟩ | cases hn) (fun _ _ hx p q => vector_add_memory hx p q) hr q s
  | vecSub x y z =>
    simp only [run] at h
    split at h
    · next hyz =>
      subst hyz
      refine sound3_same ?_ h
      exact fun w r hr q => on_same_vectors_spec (fun hn => by cases hn) (fun _ hx p => vector_sub_same_memory hx p) hr q
    · refine sound3 ?_ h
      exact fun w u r hr q s => on_vectors_spec (fun {a b z} hn => by cases a <;> cases b <;> first | exact ⟨rfl, rfl⟩ | cases hn) (fun _ _ hx p q => vector_sub_memory hx p q) hr q s
  | vecTagInequality x =>
    refine sound_act ?_ h
    exact fun v r hr p => change_vector_spec (fun hn => by cases hn) (fun _ hx p => vector_tag_inequality_memory hx p) hr p
  | vecTagEquality x =>
    refine sound_act ?_ h
    exact fun v r hr p => change_vector_spec (fun hn => by cases hn) (fun _ hx p => vector_tag_equality_memory hx p) hr p
  | vecEqual x y =>
    refine sound_compare ?_ ?_ h
    · exact fun v w b hb p q => vector_equal_spec hb p q
    · exact fun v p => vector_equal_self_spec v p
  | vecIsScalar x =>
    refine sound_answer ?_ h
    exact fun v b hb p => vector_is_scalar_spec hb p
  | relPrint x =>
    refine sound_print ?_ h
    exact fun v b hv hb p => relation_print_memory hc hv hb
  | relDump x =>
    refine sound_text ?_ h
    exact fun v b hb p => relation_idump_memory hb
  | listRead x p file =>
    refine sound_make0 (fun v hv => ?_) h
    obtain ⟨b, hb, hv⟩ := Out.bind_eq_ok.mp hv
    cases hv
    exact read_spec (A := fun q => rlistAt c q b.1) (pos := b.2) (relation_list_pread_memory hb)
  | listNode x y =>
    refine sound_from ?_ h
    exact fun w r hr q => list_node_memory hr q
  | listFree x =>
    refine sound_release ?_ h
    exact fun v p => list_free_memory p v
  | listClone x y =>
    refine sound_from ?_ h
    exact fun w r hr q => list_clone_memory hr q
  | listConcat x y z =>
    simp only [run] at h
    split at h
    · next hyz =>
      subst hyz
      refine sound3_same ?_ h
      exact fun w r hr q => list_concat_same_memory hr q
    · refine sound3 ?_ h
      exact fun w u r hr q s => list_concat_memory hr q s
  | listAdd x y =>
    refine sound_give (fun v w r hr p q => ?_) h
    cases hr
    exact list_add_memory v w p q
  | listPush x y =>
    refine sound_give ?_ h
    exact fun v w r hr p q => push_spec hr p q
  | listPop x y =>
    refine sound2 (fun v w r hr p q => ?_) h
    obtain ⟨_, hn, hr⟩ := Out.bind_eq_ok.mp hr
    cases hr
    rw [null_ok hn]
    show Triple (rlistAt c p v ∗ pur (q = 0)) _ _
    rw [sep_comm]
    refine Triple.fact (fun _ => (list_pop_memory v p).bind (fun t => Triple.ret (fun h0 hh => pur_sep_iff.mpr ⟨rfl, ?_⟩)))
    show (rlistAt c t.2 (RList.pop v).2 ∗ rlistAt c t.1 (RList.pop v).1) h0
    rw [sep_comm]
    exact hh
  | listDup x =>
    refine sound_renew ?_ h
    exact fun v r hr p => list_dup_memory hr p
  | listDrop x =>
    refine sound_renew (fun v r hr p => ?_) h
    cases hr
    exact list_drop_memory v p
  | listDestroy x =>
    refine sound_renew (fun v r hr p => ?_) h
    cases hr
    exact list_destroy_memory v p
  | listSetType x type =>
    refine sound_act (fun v r hr p => ?_) h
    cases hr
    exact list_set_type_memory v p type
  | listFilter x y type =>
    refine sound_from ?_ h
    exact fun w r hr q => list_filter_memory hr q
  | listEqual x y =>
    refine sound_compare ?_ ?_ h
    · exact fun v w b hb p q => (list_equal_query hb).triple
    · exact fun v p => (list_equal_self_query).triple
  | listCount x =>
    refine sound_number (fun v p => ?_) h
    refine (list_count_memory v p).post (fun a h0 hh => ?_)
    obtain ⟨h1, h2⟩ := pur_sep_iff.mp hh
    exact pur_sep_iff.mpr ⟨by rw [h1], h2⟩
  | listIntegrity x t o i k =>
    refine sound_answer ?_ h
    exact fun v b hb p => (list_integrity_check_query hb).triple
  | listPrint x =>
    refine sound_print ?_ h
    exact fun v b hv hb p => list_print_memory hc hv hb
  | listDump x =>
    refine sound_text ?_ h
    exact fun v b hb p => relation_list_idump_memory hb
  | genFree x =>
    refine sound_release ?_ h
    exact fun v p => lib_generic_free_memory p v
  | genClone x y =>
    refine sound_from ?_ h
    exact fun w r hr q => lib_generic_clone_memory hr q
  | genAdd x y =>
    refine sound_give ?_ h
    exact fun v w r hr p q => generic_add_memory hr p q
  | genEqual x y =>
    refine sound_compare ?_ ?_ h
    · exact fun v w b hb p q => (lib_generic_equal_query hb).triple
    · exact fun v p => (generic_equal_self_query).triple
  | genCount x =>
    refine sound_number ?_ h
    exact fun v p => generic_count_memory p v
  | genRemove x t =>
    refine sound_renew (fun v r hr p => ?_) h
    cases hr
    exact remove_string_spec v t p
  | genPrint x =>
    refine sound_print ?_ h
    exact fun v b hv hb p => lib_generic_print_memory hc hv hb
  | genDump x =>
    refine sound_text ?_ h
    exact fun v b hb p => lib_generic_idump_memory e hb
  | stmtMalloc x =>
    refine sound_make0 (fun v hv => ?_) h
    cases hv
    exact stmt_malloc_spec
  | stmtFree x =>
    refine sound_release ?_ h
    exact fun v p => lib_statement_free_memory p v
  | stmtClone x y =>
    refine sound_from ?_ h
    exact fun w r hr q => lib_statement_clone_memory hr q
  | stmtNclone x y k =>
    refine sound_from ?_ h
    exact fun w r hr q => stmt_nclone_spec hr q
  | stmtAdd x y =>
    refine sound_give (fun v w r hr p q => ?_) h
    cases hr
    exact statement_add_memory v w p q
  | stmtNumber x =>
    refine sound_number ?_ h
    exact fun v p => statement_number_memory p v
  | stmtDispatch x y =>
    refine sound_give ?_ h
    exact fun v w r hr p q => dispatch_spec hr p q
  | stmtUnions x y =>
    refine sound_from ?_ h
    exact fun w r hr q => stmt_unions_spec hr q
  | stmtEqual x y =>
    refine sound_compare ?_ ?_ h
    · exact fun v w b hb p q => (lib_statement_equal_query hb).triple
    · exact fun v p => (statement_equal_self_query).triple
  | stmtIntegrity x k =>
    refine sound_answer ?_ h
    exact fun v b hb p => (lib_statement_integrity_check_query hb).triple
  | stmtPrint x =>
    refine sound_print ?_ h
    exact fun v b hv hb p => lib_statement_print_memory hc hv hb
  | stmtDump x =>
    refine sound_text ?_ h
    exact fun v b hb p => lib_statement_idump_memory e hb
  | stmtDomain x y =>
    refine sound_swap_stmt ?_ h
    exact fun a w p q o => stmt_domain_swap a w p q o
  | stmtScattering x y =>
    refine sound_swap_stmt ?_ h
    exact fun a w p q o => stmt_scattering_swap a w p q o
  | stmtAccess x y =>
    refine sound_swap_stmt ?_ h
    exact fun a w p q o => stmt_access_swap a w p q o
  | stmtExtension x y =>
    refine sound_swap_stmt ?_ h
    exact fun a w p q o => stmt_extension_swap a w p q o
  | scopMalloc x =>
    refine sound_make0 (fun v hv => ?_) h
    cases hv
    exact scop_malloc_spec
  | scopRead x file =>
    refine sound_make ?_ h
    exact fun v hv => lib_scop_read_memory hv
  | scopFree x =>
    refine sound_release ?_ h
    exact fun v p => lib_scop_free_memory p v
  | scopClone x y =>
    refine sound_from ?_ h
    exact fun w r hr q => lib_scop_clone_memory hr q
  | scopUnions x y =>
    refine sound_from (fun w r hr q => ?_) h
    obtain ⟨_, hu, hr⟩ := Out.bind_eq_ok.mp hr
    exact lib_scop_remove_unions_memory hr q (must_ok hu)
  | scopAdd x y =>
    refine sound_give (fun v w r hr p q => ?_) h
    cases hr
    exact scop_add_memory v w p q
  | scopNumber x =>
    refine sound_number (fun v p => ?_) h
    refine (scop_number_memory (L := (libAt c e n).toLib) (O := libMem c e n) p v).post (fun a h0 hh => ?_)
    obtain ⟨h1, h2⟩ := pur_sep_iff.mp hh
    exact pur_sep_iff.mpr ⟨by rw [h1], h2⟩
  | scopNormalize x =>
    refine sound_act ?_ h
    exact fun v r hr p => scop_normalize_scattering_memory hr p
  | scopEqual x y =>
    refine sound_compare ?_ ?_ h
    · exact fun v w b hb p q => (lib_scop_equal_query hb).triple
    · exact fun v p => (scop_equal_self_query).triple
  | scopIntegrity x =>
    refine sound_answer ?_ h
    exact fun v b hb p => (lib_scop_integrity_check_query hb).triple
  | scopCheckScoplib x =>
    refine sound_answer ?_ h
    exact fun v b hb p => (lib_scop_check_compatible_scoplib_query hb).triple
  | scopPrint x =>
    refine sound_print ?_ h
    exact fun v b hv hb p => lib_scop_print_memory hc hv hb
  | scopPrintScoplib x =>
    refine sound_print ?_ h
    exact fun v b hv hb p => lib_scop_print_scoplib_memory hc hv hb
  | scopDump x =>
    refine sound_text ?_ h
    exact fun v b hb p => lib_scop_dump_memory e hb
  | scopContext x y =>
    refine sound_swap_scop ?_ h
    exact fun a w p q o => scop_context_swap a w p q o
  | scopParameters x y =>
    refine sound_swap_scop ?_ h
    exact fun a w p q o => scop_parameters_swap a w p q o
  | scopStatement x y =>
    refine sound_swap_scop ?_ h
    exact fun a w p q o => scop_statement_swap a w p q o
  | scopExtension x y =>
    refine sound_swap_scop ?_ h
    exact fun a w p q o => scop_extension_swap a w p q o

end Osl.Client
