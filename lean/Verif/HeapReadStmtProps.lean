import Verif.HeapReadScop
import Verif.HeapScopProps
/-!
# The readers of relation lists and statements in memory: theorems (C72)
-/

set_option linter.unusedSectionVars false

namespace Osl.Mem

variable [Allocator] {c : Cfg}

/-! ## Relation lists -/

/-- A node which has just been allocated. -/
def listFresh (p : Ptr) : Assn := p ↦ .ptrs [0, 0]

/-- One relation, as a value. -/
def listOne (c : Cfg) (prec : Int) (s : Nat × Str) : Out (Rel × List Str × Bool × Nat × Str) := do
  let r ← Rel.pread c prec s.2
  return (r.1, [], decide (1 < s.1), s.1 - 1, r.2)

theorem listReadFill_spec {prec : Int} (m : Ptr) (s : Nat × Str) (a : Rel) (w : List Str) (more : Bool) (s' : Nat × Str)
    (h : listOne c prec s = .ok (a, w, more, s')) :
    Triple (listFresh m) (listReadFill c prec m s) (fun r => pur (r = (more, s')) ∗ nodeAt c m a 0 ∗ looseAt w) := by
  obtain ⟨n, s⟩ := s
  obtain ⟨⟨r, s1⟩, h1, h⟩ := Out.bind_eq_ok.mp h
  cases h
  unfold listReadFill listFresh
  hstep (relation_pread_memory h1)
  hstep setField_spec
  rw [looseAt_nil]
  simp only [sep_emp]
  unfold nodeAt
  hret

theorem list_fillList {prec : Int} : ∀ (n : Nat) (s s' : Str) (l : RList), RList.readLoop c prec (n + 1) s = .ok (l, s') →
    fillList (listOne c prec) (n + 1) (n + 1, s) = .ok (l, [], 0, s')
  | 0, s, s', l, h => by
    simp only [RList.readLoop] at h
    obtain ⟨⟨r, s1⟩, h1, h⟩ := Out.bind_eq_ok.mp h
    cases h
    simp [fillList, listOne, h1]
  | n + 1, s, s', l, h => by
    unfold RList.readLoop at h
    obtain ⟨⟨r, s1⟩, h1, h⟩ := Out.bind_eq_ok.mp h
    obtain ⟨⟨l', s2⟩, h2, h⟩ := Out.bind_eq_ok.mp h
    cases h
    have := list_fillList n s1 s' l' h2
    unfold fillList
    have e : listOne c prec (n + 1 + 1, s) = .ok (r, [], true, n + 1, s1) := by simp [listOne, h1]
    rw [e]
    show (fillList (listOne c prec) (n + 1) (n + 1, s1) >>= _) = _
    rw [this]
    rfl

theorem listReadElts_spec {prec n : Int} (hn : ¬ n < 0) {s s' : Str} {l : RList} (h : RList.readElts c prec n s = .ok (l, s')) :
    Triple emp (listReadElts c prec n.toNat s) (got p, s' in rlistAt c p l) := by
  unfold RList.readElts at h
  unfold listReadElts
  hstep (show Triple emp listMalloc listFresh from Triple.alloc _)
  by_cases h0 : n = 0
  · rw [if_pos h0] at h
    cases h
    rw [if_pos (by omega)]
    refine Triple.ret (fun h hh => ⟨p, pur_sep_iff.mpr ⟨rfl, ?_⟩⟩)
    rw [rlistAt_one]
    refine ⟨0, ?_⟩
    show (_ ∗ pur ((0 : Ptr) = 0)) h
    rw [pur_true rfl, sep_emp]
    exact hh
  · rw [if_neg h0] at h
    rw [if_neg (by omega)]
    obtain ⟨k, e⟩ : ∃ k, n.toNat = k + 1 := ⟨n.toNat - 1, by omega⟩
    rw [e] at h ⊢
    have := fillAll_spec (N := listChain c) (malloc := listMalloc) (fresh := listFresh) (Triple.alloc _) (listReadFill_spec (prec := prec)) _ p (k + 1, s) (0, s') l []
      (list_fillList k s s' l h)
    rw [looseAt_nil] at this
    simp only [sep_emp] at this
    hstep this
    exact Triple.ret (fun h hh => ⟨p, pur_sep_iff.mpr ⟨rfl, hh⟩⟩)

/-- C72: `osl_relation_list_pread` allocates exactly the list. -/
theorem relation_list_pread_memory {prec : Int} {s s' : Str} {l : RList} (h : RList.pread c prec s = .ok (l, s')) :
    Triple emp (listPread c prec s) (got p, s' in rlistAt c p l) := by
  unfold RList.pread at h
  unfold listPread
  hread n, h1, h
  by_cases hn : n.1 < 0
  · rw [if_pos hn] at h
    cases h
  · rw [if_neg hn] at h ⊢
    exact listReadElts_spec hn h

/-! ## Statements -/

variable {D : Type} {L : Lib D} {O : DataMem D L.toEnv}

/-- What is lost after a successful step. -/
def after {α : Type} (x : Out (α × Str)) (f : α → Str → List Str) : List Str :=
  match x with
  | .ok (a, s) => f a s
  | _ => []

/-- The strings lost by the reading of `n` extensions of a statement (specification). -/
def lostExts (E : Env D) (lost : Nat → Option Str → List Str) (registry : Ifaces) : Nat → Str → List Str
  | 0, _ => []
  | n + 1, file => lostFread lost registry file ++ after (GList.fread_one E registry file) fun _ file => lostExts E lost registry n file

/-- The strings lost by the reading of a statement (specification): those lost by its extensions. -/
def lostStmt (c : Cfg) (E : Env D) (lost : Nat → Option Str → List Str) (registry : Ifaces) (prec : Int) (file : Str) : List Str :=
  after (RList.pread c prec file) fun _ file => after (Util.fread_int file) fun n file => lostExts E lost registry n.toNat file

section

variable (R : DataRead O) {registry : Ifaces} (hr : ∀ i ∈ registry, R.good i.fns)
include hr

theorem stmtReadExts_spec (r m nx : Ptr) (dm sct : Rel) (ac : RList) : ∀ (n : Nat) (s pos : Str) (acc l : GList D),
    Stmts.readExts L.toEnv registry n s acc = .ok (l, pos) →
    Triple (ifacesAt r registry ∗ stmtAt c O m ⟨dm, sct, ac, acc⟩ nx) (stmtReadExts R.sread r m n s)
      (fun x => pur (x = pos) ∗ ifacesAt r registry ∗ stmtAt c O m ⟨dm, sct, ac, l⟩ nx ∗ looseAt (lostExts L.toEnv R.lost registry n s))
  | 0, s, pos, acc, l, h => by
    cases h
    simp only [lostExts, looseAt_nil, sep_emp]
    exact Triple.ret (fun h hh => pur_sep_iff.mpr ⟨rfl, hh⟩)
  | n + 1, s, pos, acc, l, h => by
    unfold Stmts.readExts at h
    obtain ⟨⟨g, s1⟩, h1, h⟩ := Out.bind_eq_ok.mp h
    obtain ⟨acc', h2, h⟩ := Out.bind_eq_ok.mp h
    unfold stmtReadExts
    hopen stmtAt
    hstep (generic_read_one_memory R hr h1 r)
    hstep getField_spec
    hstep (generic_add_memory h2)
    hstep setField_spec
    simp only [lostExts, h1, after, looseAt_app]
    have := stmtReadExts_spec r m nx dm sct ac n s1 pos acc' l h
    unfold stmtAt at this ⊢
    hlast this
    generalize looseAt (lostFread R.lost registry s) = w1
    generalize looseAt (lostExts L.toEnv R.lost registry n s1) = w2
    hret

/-- C72: `osl_statement_pread` allocates exactly the statement, besides the tags which are lost. -/
theorem statement_pread_memory {prec : Int} {s pos : Str} {x : Stmt D} (h : Stmts.pread c L registry prec s = .ok (x, pos)) (r : Ptr) :
    Triple (ifacesAt r registry) (stmtPread c R.sread r prec s)
      (got p, pos in (ifacesAt r registry ∗ stmtAt c O p x 0 ∗ looseAt (lostStmt c L.toEnv R.lost registry prec s))) := by
  unfold Stmts.pread at h
  obtain ⟨⟨l, s1⟩, h1, h⟩ := Out.bind_eq_ok.mp h
  obtain ⟨⟨dm, sct, ac⟩, h2, h⟩ := Out.bind_eq_ok.mp h
  obtain ⟨⟨n, s2⟩, h3, h⟩ := Out.bind_eq_ok.mp h
  obtain ⟨⟨ex, s3⟩, h4, h⟩ := Out.bind_eq_ok.mp h
  cases h
  have hf : Triple emp stmtMalloc (fun p => stmtAt c O p ⟨[], [], [], []⟩ 0) := by
    refine (Triple.alloc _).post (fun p h hh => ⟨0, 0, 0, 0, ?_⟩)
    show (_ ∗ pur ((0 : Ptr) = 0) ∗ pur ((0 : Ptr) = 0) ∗ pur ((0 : Ptr) = 0) ∗ pur ((0 : Ptr) = 0)) h
    rw [pur_true rfl]
    simp only [sep_emp]
    exact hh
  unfold stmtPread
  simp only [lostStmt, h1, after, h3]
  hstep hf
  hstep (relation_list_pread_memory h1)
  hstep (statement_dispatch_memory (O := O) h2 ⟨[], [], [], []⟩ rfl rfl rfl stmt 0)
  refine Triple.liftStep h3 ?_
  hstep (stmtReadExts_spec R hr r stmt 0 dm sct ac n.toNat s2 pos [] ex h4)
  exact Triple.ret (fun h hh => ⟨stmt, pur_sep_iff.mpr ⟨rfl, hh.perm (by ac_rfl)⟩⟩)

end

/-- C72: `osl_statement_read` allocates exactly the statement, besides the tags which are lost: the registry which it builds is freed. -/
theorem statement_read_memory (R : DataRead O) (hr : ∀ i ∈ defaultRegistry, R.good i.fns) {e : Option Str} {s pos : Str} {x : Stmt D}
    (h : Stmts.pread c L defaultRegistry (Util.get_precision c e) s = .ok (x, pos)) :
    Triple emp (stmtRead c e R.sread s)
      (got p, pos in (stmtAt c O p x 0 ∗ looseAt (lostStmt c L.toEnv R.lost defaultRegistry (Util.get_precision c e) s))) := by
  unfold stmtRead
  hstep (default_registry_memory default_registry_eq.1)
  hstep (statement_pread_memory R hr h registry)
  hstep interface_free_memory
  exact Triple.ret (fun h hh => ⟨p, pur_sep_iff.mpr ⟨rfl, hh⟩⟩)

end Osl.Mem
