import Verif.Defined
import Verif.DefinedExt
import Verif.DefinedText
import Verif.DefinedPrint
import Verif.ScoplibText
import Verif.DefinedRead
import Verif.StoredHistory
import Verif.RelationPrintProps
/-!
# C83: a client which meets the preconditions of the calls has no undefined behaviour

What the functions on relations, vectors and lists (Verif/Defined.lean), on statements, scops and extensions (Verif/DefinedExt.lean), the displays (Verif/DefinedText.lean), the
printers (Verif/DefinedPrint.lean) and the readers (Verif/DefinedRead.lean) need from the client is written as a precondition of each call.  A history whose calls meet their preconditions is never undefined: it ends, or stops with the error of the library.
-/

namespace Osl.Client

open Osl.Mem Osl.Ext

section

variable {c : Cfg} {e : Option Str} {release : Str} {n : Nat}

/-! ## The preconditions -/

/-- Spec: the variable `x` is of type `k`, and what it holds is such that `P`. -/
def One (σ : State n) (k : Ty) (x : Nat) (P : Value n k → Prop) : Prop := ∃ v : Value n k, σ[x]? = some ⟨k, v⟩ ∧ P v

/-- Spec: the variables `x` and `y` are different, of types `k` and `j`, and what they hold is such that `P`. -/
def Two (σ : State n) (k : Ty) (x : Nat) (j : Ty) (y : Nat) (P : Value n k → Value n j → Prop) : Prop :=
  x ≠ y ∧ ∃ (v : Value n k) (w : Value n j), σ[x]? = some ⟨k, v⟩ ∧ σ[y]? = some ⟨j, w⟩ ∧ P v w

/-- Spec: the variable `x`, of type `k`, is NULL. -/
def Empty (σ : State n) (k : Ty) (x : Nat) : Prop := One σ k x (fun v => v = [])

/-- Spec: `x` is NULL, and what the variable `y`, of type `j`, holds is such that `P`. -/
def From (σ : State n) (k : Ty) (x : Nat) (j : Ty) (y : Nat) (P : Value n j → Prop) : Prop := Two σ k x j y (fun v w => v = [] ∧ P w)

/-- Spec: `x` is NULL, `y` and `z` are two other variables, and what they hold is such that `P`. -/
def Three (σ : State n) (k : Ty) (x y : Nat) (j : Ty) (z : Nat) (P : Value n k → Value n j → Prop) : Prop :=
  x ≠ y ∧ x ≠ z ∧ Empty σ k x ∧ Two σ k y j z P

/-- Spec: anything. -/
def any {α : Type} : α → Prop := fun _ => True

/-- Spec: anything. -/
def any2 {α β : Type} : α → β → Prop := fun _ _ => True

/-- Spec: a vector or NULL, with a condition. -/
def IsVec (P : Option Vec → Prop) (v : List Vec) : Prop := ∃ a : Option Vec, v = a.toList ∧ P a

/-- Spec: the lists of extensions of a scop and of its statements satisfy `P`. -/
def EachExt {D : Type} (P : GList D → Prop) (s : Scop D) : Prop := P s.parameters ∧ P s.extension ∧ ∀ a ∈ s.statement, P a.extension

/-- Spec: a statement has a text: its relations are printed with their declared dimensions, there are names for its iterators, and its extensions have a text. -/
structure StmtText (c : Cfg) (e : Option Str) (s : Stmt (DataAt n)) : Prop where
  relations : ∀ r ∈ Stmts.rels s, Rel.Prints c r
  iterators : Stmts.IterNames (libAt c e n).toLib s
  extension : Textful c n s.extension

/-- Spec: a scop has a text: besides, there are enough names of parameters and of arrays where they are given. -/
structure ScopText (c : Cfg) (e : Option Str) (s : Scop (DataAt n)) : Prop where
  context : Rel.Prints c s.context
  statement : ∀ a ∈ s.statement, StmtText c e a
  parameters : Textful c n s.parameters
  extension : Textful c n s.extension
  params : Scops.hasURI s.parameters URI_STRINGS = true → ∃ p, Scops.paramNames (libAt c e n) s.parameters = .ok p ∧ ∀ r ∈ Scops.rels s, ∀ q ∈ r, Rel.Enough p q.nb_parameters
  arrays : ∀ d, GList.lookup s.extension URI_ARRAYS = some d → ∃ a, (libAt c e n).arraysNames d = .ok (some a) ∧
    ∀ r ∈ Scops.rels s, ∀ q ∈ r, Rel.isAccessPart q = true → ∀ k, 0 < k → Rel.FixesFirst q k → Rel.Enough (some a) k
  sizes : ∀ a ∈ s.statement, ∀ b l, Stmts.lookupBody (libAt c e n).toLib a.extension = .ok (some b) → b.iterators = some l → (Strings.words l).length < 2 ^ 63

/-- Spec: the SCoPLib printer checks the scops, and refuses them or writes a single one: that one has a text, and what the SCoPLib format writes of it, its language, its parameters, its bodies
and its options, are words and lines. -/
def ScoplibText (c : Cfg) (e : Option Str) (l : Scops (DataAt n)) : Prop :=
  (∀ s ∈ l, Rel.Small s.context ∧ ∀ a ∈ s.statement, Stmts.Small a ∧ Bodied n a.extension) ∧ (∀ s, l = [s] → ∃ p, ∀ a ∈ s.statement, Scops.Flat p a) ∧
    (Scops.check_compatible_scoplib c (libAt c e n).toLib l = .ok true → ∀ s ∈ l, ScopText c e s ∧ (∃ r ∈ Scops.rels s, r ≠ []) ∧
      ∃ language ps m options, Scops.ScoplibPrints (scoplibAt c e n) s language ps m options)

/-- Spec: what a call needs from the client. -/
def Pre (c : Cfg) (e : Option Str) (σ : State n) : Call → Prop
  | .relPmalloc x _ _ _ => Empty σ .rel x
  | .relFree x => One σ .rel x any
  | .relClone x y => From σ .rel x .rel y any
  | .relNclone x y _ => From σ .rel x .rel y any
  | .relCloneRows x y _ => From σ .rel x .rel y any
  | .relUnion x y z => if y = z then From σ .rel x .rel y any else Three σ .rel x y .rel z any2
  | .relConcat x y z => Three σ .rel x y .rel z any2
  | .relAdd x y => Two σ .rel x .rel y any2
  | .relInsert x y _ => Two σ .rel x .rel y any2
  | .relInsertColumns x y _ => Two σ .rel x .rel y any2
  | .relInsertColumn x _ => One σ .rel x any
  | .relRemoveRow x _ => One σ .rel x any
  | .relRemoveColumn x _ => One σ .rel x any
  | .relExtend x y _ => From σ .rel x .rel y (fun r => r ≠ [] ∧ ∀ p ∈ r, ∀ q ∈ r, p.precision = q.precision ∧ -1 ≤ q.nb_output_dims ∧ q.nb_output_dims < q.nb_columns)
  | .relSetType x _ => One σ .rel x any
  | .relSetPrecision x _ => One σ .rel x any
  | .relEqual x y => if x = y then One σ .rel x any else Two σ .rel x .rel y any2
  | .relIntegrity x _ _ _ _ => One σ .rel x Rel.Small
  | .relSetAttributes x _ _ _ _ => One σ .rel x any
  | .relSwap x _ _ => One σ .rel x any
  | .relInsertRow x _ => One σ .rel x any
  | .relSamePrecision x y => Two σ .rel x .rel y any2
  | .relIsAccess x => One σ .rel x any
  | .relArrayId x => One σ .rel x Rel.Small
  | .relFromVector x y => From σ .rel x .vec y (IsVec any)
  | .relReplaceVector x y _ => Two σ .rel x .vec y (fun _ v => IsVec any v)
  | .relAddVector x y _ => Two σ .rel x .vec y (fun _ v => IsVec (Rel.Tame c) v)
  | .relSubVector x y _ => Two σ .rel x .vec y (fun _ v => IsVec (Rel.Tame c) v)
  | .relInsertVector x y _ => Two σ .rel x .vec y (fun _ v => IsVec any v)
  | .relConcatVector x y z => Three σ .rel x y .vec z (fun _ v => IsVec any v)
  | .relPrint x => One σ .rel x (Rel.Prints c)
  | .relDump x => One σ .rel x Rel.Short
  | .relRead x p file => Empty σ .rel x ∧ Rel.Written c p file
  | .listRead x p file => Empty σ .list x ∧ RList.Written c p file
  | .scopRead x file => Empty σ .scop x ∧ Scops.Written c e n file
  | .vecMalloc x _ _ => Empty σ .vec x
  | .vecFree x => One σ .vec x any
  | .vecAddScalar x y k => fits 32 k ∧ k ≠ cMin 32 ∧ From σ .vec x .vec y (IsVec any)
  | .vecMulScalar x y k => From σ .vec x .vec y (IsVec (fun a => a ≠ none ∧ ∀ w, a = some w → ∀ v ∈ w.v, InPrec c w.precision (v * k)))
  | .vecAdd x y z => if y = z then From σ .vec x .vec y (IsVec (Rel.Tame c)) else Three σ .vec x y .vec z (fun v w => IsVec any v ∧ IsVec (Rel.Tame c) w)
  | .vecSub x y z => if y = z then From σ .vec x .vec y (IsVec (Rel.Tame c)) else Three σ .vec x y .vec z (fun v w => IsVec any v ∧ IsVec (Rel.Tame c) w)
  | .vecTagInequality x => One σ .vec x (IsVec any)
  | .vecTagEquality x => One σ .vec x (IsVec any)
  | .vecEqual x y => if x = y then One σ .vec x any else Two σ .vec x .vec y (fun v w => ∃ a b : Option Vec, v = a.toList ∧ w = b.toList ∧ (a = none ↔ b = none))
  | .vecIsScalar x => One σ .vec x (IsVec any)
  | .listNode x y => From σ .list x .rel y any
  | .listFree x => One σ .list x any
  | .listClone x y => From σ .list x .list y any
  | .listConcat x y z => if y = z then From σ .list x .list y any else Three σ .list x y .list z any2
  | .listAdd x y => Two σ .list x .list y any2
  | .listPush x y => Two σ .list x .list y (fun _ m => m.length ≤ 1)
  | .listPop x y => Two σ .list x .list y (fun _ m => m = [])
  | .listDup x => One σ .list x any
  | .listDrop x => One σ .list x any
  | .listDestroy x => One σ .list x any
  | .listSetType x _ => One σ .list x any
  | .listFilter x y _ => From σ .list x .list y any
  | .listEqual x y => if x = y then One σ .list x any else Two σ .list x .list y any2
  | .listCount x => One σ .list x any
  | .listIntegrity x _ _ _ _ => One σ .list x (fun l => ∀ r ∈ l, Rel.Small r)
  | .listPrint x => One σ .list x (fun l => ∀ r ∈ l, Rel.Prints c r)
  | .listDump x => One σ .list x (fun l => ∀ r ∈ l, Rel.Short r)
  | .genFree x => One σ .gen x any
  | .genClone x y => From σ .gen x .gen y (Copyable n)
  | .genAdd x y => Two σ .gen x .gen y any2
  | .genEqual x y => if x = y then One σ .gen x any else Two σ .gen x .gen y (fun l m => Matchable n l ∧ Matchable n m)
  | .genCount x => One σ .gen x any
  | .genPrint x => One σ .gen x (Textful c n)
  | .genDump x => One σ .gen x (Showable n)
  | .genRemove x _ => One σ .gen x any
  | .stmtMalloc x => Empty σ .stmt x
  | .stmtFree x => One σ .stmt x any
  | .stmtClone x y => From σ .stmt x .stmt y (fun l => ∀ s ∈ l, Copyable n s.extension)
  | .stmtNclone x y _ => From σ .stmt x .stmt y (fun l => ∀ s ∈ l, Copyable n s.extension)
  | .stmtUnions x y => From σ .stmt x .stmt y (fun l => ∀ s ∈ l, Copyable n s.extension)
  | .stmtEqual x y => if x = y then One σ .stmt x any else Two σ .stmt x .stmt y (fun l m => (l = [] ↔ m = []) ∧ (∀ s ∈ l, Matchable n s.extension) ∧ ∀ s ∈ m, Matchable n s.extension)
  | .stmtIntegrity x _ => One σ .stmt x (fun l => ∀ s ∈ l, Stmts.Small s ∧ Bodied n s.extension)
  | .stmtPrint x => One σ .stmt x (fun l => (∀ s ∈ l, StmtText c e s) ∧ ∃ s ∈ l, ∃ r ∈ Stmts.rels s, r ≠ [])
  | .stmtDump x => One σ .stmt x (fun l => ∀ s ∈ l, Showable n s.extension ∧ ∀ r ∈ Stmts.rels s, Rel.Short r)
  | .stmtAdd x y => Two σ .stmt x .stmt y any2
  | .stmtNumber x => One σ .stmt x any
  | .stmtDispatch x y => Two σ .stmt x .list y (fun l _ => ∃ s r, l = s :: r ∧ s.domain = [] ∧ s.scattering = [] ∧ s.access = [])
  | .stmtDomain x y => Two σ .stmt x .rel y (fun l _ => l ≠ [])
  | .stmtScattering x y => Two σ .stmt x .rel y (fun l _ => l ≠ [])
  | .stmtAccess x y => Two σ .stmt x .list y (fun l _ => l ≠ [])
  | .stmtExtension x y => Two σ .stmt x .gen y (fun l _ => l ≠ [])
  | .scopMalloc x => Empty σ .scop x
  | .scopFree x => One σ .scop x any
  | .scopClone x y => From σ .scop x .scop y (fun l => ∀ s ∈ l, EachExt (Copyable n) s)
  | .scopUnions x y => From σ .scop x .scop y (fun l => unionsKeep l ∧ ∀ s ∈ l, EachExt (Copyable n) s)
  | .scopNormalize x => One σ .scop x (fun l => ∀ s r, l = s :: r → ∀ a ∈ s.statement, Scops.Extensible a.scattering)
  | .scopEqual x y => if x = y then One σ .scop x any else
      Two σ .scop x .scop y (fun l m => (∀ s ∈ l, EachExt (Matchable n) s) ∧ (∀ s ∈ m, EachExt (Matchable n) s) ∧ ∀ a ∈ l, ∀ b ∈ m, Scops.Alike a b)
  | .scopIntegrity x => One σ .scop x (fun l => ∀ s ∈ l, Rel.Small s.context ∧ ∀ a ∈ s.statement, Stmts.Small a ∧ Bodied n a.extension)
  | .scopPrint x => One σ .scop x (fun l => (∀ s ∈ l, ScopText c e s) ∧ ∃ s ∈ l, ∃ r ∈ Scops.rels s, r ≠ [])
  | .scopPrintScoplib x => One σ .scop x (ScoplibText c e)
  | .scopDump x => One σ .scop x (fun l => ∀ s ∈ l, EachExt (Showable n) s ∧ s.language ≠ none ∧ (∀ i, s.registry.head? = some i → i.URI ≠ none) ∧ ∀ r ∈ Scops.rels s, Rel.Short r)
  | .scopCheckScoplib x => One σ .scop x (fun l => l ≠ [] ∧ (∀ s ∈ l, Rel.Small s.context ∧ ∀ a ∈ s.statement, Stmts.Small a ∧ Bodied n a.extension) ∧
      ∀ s, l = [s] → ∃ p, ∀ a ∈ s.statement, Scops.Flat p a)
  | .scopAdd x y => Two σ .scop x .scop y any2
  | .scopNumber x => One σ .scop x any
  | .scopContext x y => Two σ .scop x .rel y (fun l _ => l ≠ [])
  | .scopParameters x y => Two σ .scop x .gen y (fun l _ => l ≠ [])
  | .scopStatement x y => Two σ .scop x .stmt y (fun l _ => l ≠ [])
  | .scopExtension x y => Two σ .scop x .gen y (fun l _ => l ≠ [])

/-- Spec: every call of the history meets its precondition, when it comes to be made. -/
def Meets (c : Cfg) (e : Option Str) (release : Str) : List Call → State n → Prop
  | [], _ => True
  | a :: l, σ => Pre c e σ a ∧ ∀ r, run c e release n a σ = .ok r → Meets c e release l r.1

/-! ## Forms of calls -/

theorem get_of {σ : State n} {k : Ty} {x : Nat} {v : Value n k} (h : σ[x]? = some ⟨k, v⟩) : get σ k x = .ok v := by
  unfold get
  rw [h]
  exact dif_pos rfl

theorem fits_of {σ : State n} (hσ : AllFit c n σ) {k : Ty} {x : Nat} {v : Value n k} (h : σ[x]? = some ⟨k, v⟩) : Fits c n k v := hσ _ (List.mem_of_getElem? h)

theorem on1_defined {k : Ty} {x : Nat} {P : Value n k → Prop} {f : Value n k → Out (Value n k × Obs)} {σ : State n} (hσ : AllFit c n σ) (h : One σ k x P)
    (hf : ∀ v, Fits c n k v → P v → f v ≠ .ub) : on1 k x f σ ≠ .ub := by
  obtain ⟨v, h1, h2⟩ := h
  unfold on1
  rw [get_of h1]
  show (f v >>= _) ≠ .ub
  exact bind_defined (hf v (fits_of hσ h1) h2) (fun _ _ e => by cases e)

theorem on2_defined {k j : Ty} {x y : Nat} {P : Value n k → Value n j → Prop} {f : Value n k → Value n j → Out (Value n k × Value n j × Obs)} {σ : State n} (hσ : AllFit c n σ)
    (h : Two σ k x j y P) (hf : ∀ v w, Fits c n k v → Fits c n j w → P v w → f v w ≠ .ub) : on2 k x j y f σ ≠ .ub := by
  obtain ⟨hn, v, w, h1, h2, h3⟩ := h
  unfold on2
  rw [if_neg hn, get_of h1, get_of h2]
  show (f v w >>= _) ≠ .ub
  exact bind_defined (hf v w (fits_of hσ h1) (fits_of hσ h2) h3) (fun _ _ e => by cases e)

theorem on3_defined {k j : Ty} {x y z : Nat} {P : Value n k → Value n j → Prop} {f : Value n k → Value n j → Out (Value n k)} {σ : State n} (hσ : AllFit c n σ)
    (h : Three σ k x y j z P) (hf : ∀ v w, Fits c n k v → Fits c n j w → P v w → f v w ≠ .ub) : on3 k x y j z f σ ≠ .ub := by
  obtain ⟨h1, h2, ⟨u, h3, h4⟩, h5, v, w, h6, h7, h8⟩ := h
  subst h4
  unfold on3
  rw [if_neg (fun e => e.elim h1 (fun e => e.elim h2 h5)), get_of h3, get_of h6, get_of h7]
  show (f v w >>= _) ≠ .ub
  exact bind_defined (hf v w (fits_of hσ h6) (fits_of hσ h7) h8) (fun _ _ e => by cases e)

theorem make_defined {k : Ty} {x : Nat} {f : Out (Value n k)} {σ : State n} (hσ : AllFit c n σ) (h : Empty σ k x) (hf : f ≠ .ub) : make k x f σ ≠ .ub := by
  refine on1_defined hσ h (fun v _ hv => ?_)
  rw [hv]
  show (f >>= _) ≠ .ub
  exact bind_defined hf (fun _ _ e => by cases e)

theorem from_defined {k j : Ty} {x y : Nat} {P : Value n j → Prop} {f : Value n j → Out (Value n k)} {σ : State n} (hσ : AllFit c n σ) (h : From σ k x j y P)
    (hf : ∀ v, Fits c n j v → P v → f v ≠ .ub) : from_ k x j y f σ ≠ .ub := by
  refine on2_defined hσ h (fun v w _ hw hp => ?_)
  rw [hp.1]
  show (f w >>= _) ≠ .ub
  exact bind_defined (hf w hw hp.2) (fun _ _ e => by cases e)

theorem change_defined {k : Ty} {x : Nat} {P : Value n k → Prop} {f : Value n k → Out (Value n k)} {σ : State n} (hσ : AllFit c n σ) (h : One σ k x P)
    (hf : ∀ v, Fits c n k v → P v → f v ≠ .ub) : change k x f σ ≠ .ub :=
  on1_defined hσ h (fun v hv hp => bind_defined (hf v hv hp) (fun _ _ e => by cases e))

theorem look_defined {k : Ty} {x : Nat} {P : Value n k → Prop} {f : Value n k → Out Obs} {σ : State n} (hσ : AllFit c n σ) (h : One σ k x P)
    (hf : ∀ v, Fits c n k v → P v → f v ≠ .ub) : look k x f σ ≠ .ub :=
  on1_defined hσ h (fun v hv hp => bind_defined (hf v hv hp) (fun _ _ e => by cases e))

theorem with_defined {k j : Ty} {x y : Nat} {P : Value n k → Value n j → Prop} {f : Value n k → Value n j → Out (Value n k)} {σ : State n} (hσ : AllFit c n σ)
    (h : Two σ k x j y P) (hf : ∀ v w, Fits c n k v → Fits c n j w → P v w → f v w ≠ .ub) : with_ k x j y f σ ≠ .ub :=
  on2_defined hσ h (fun v w hv hw hp => bind_defined (hf v w hv hw hp) (fun _ _ e => by cases e))

theorem move_defined {k j : Ty} {x y : Nat} {P : Value n k → Value n j → Prop} {f : Value n k → Value n j → Out (Value n k)} {σ : State n} (hσ : AllFit c n σ)
    (h : Two σ k x j y P) (hf : ∀ v w, Fits c n k v → Fits c n j w → P v w → f v w ≠ .ub) : move k x j y f σ ≠ .ub :=
  on2_defined hσ h (fun v w hv hw hp => bind_defined (hf v w hv hw hp) (fun _ _ e => by cases e))

theorem compare_defined {k : Ty} {x y : Nat} {P : Value n k → Value n k → Prop} {f : Value n k → Value n k → Out Bool} {σ : State n} (hσ : AllFit c n σ)
    (h : if x = y then One σ k x any else Two σ k x k y P) (hf : ∀ v w, Fits c n k v → Fits c n k w → P v w → f v w ≠ .ub) : compare k x y f σ ≠ .ub := by
  unfold compare
  split
  · next he =>
    rw [if_pos he] at h
    exact look_defined hσ h (fun _ _ _ e => by cases e)
  · next he =>
    rw [if_neg he] at h
    exact on2_defined hσ h (fun v w hv hw hp => bind_defined (hf v w hv hw hp) (fun _ _ e => by cases e))

theorem swap_defined {k j : Ty} {x y : Nat} {old : Elem n k → Value n j} {put : Elem n k → Value n j → Elem n k} {σ : State n} (hσ : AllFit c n σ)
    (h : Two σ k x j y (fun v _ => v ≠ [])) : swap x y old put σ ≠ .ub := by
  refine on2_defined hσ h (fun v w _ _ hp => ?_)
  cases v with
  | nil => exact absurd rfl hp
  | cons a l => intro e; cases e

/-! ## Vectors in variables -/

theorem vector_toList (a : Option Vec) : vector a.toList = .ok a := by cases a <;> rfl

theorem vec_stored {a : Option Vec} (h : Fits c n .vec a.toList) : Rel.VStored c a := by
  intro w hw
  subst hw
  exact h w (List.mem_singleton.mpr rfl) w rfl

theorem with_vector_defined {α : Type} {P : Option Vec → Prop} {f : Option Vec → Out α} {v : List Vec} (hv : Fits c n .vec v) (h : IsVec P v)
    (hf : ∀ a, Rel.VStored c a → P a → f a ≠ .ub) : (vector v >>= f) ≠ .ub := by
  obtain ⟨a, rfl, ha⟩ := h
  rw [vector_toList]
  exact hf a (vec_stored hv) ha

theorem on_vector_defined {P : Option Vec → Prop} {f : Option Vec → Out Vec} {v : List Vec} (hv : Fits c n .vec v) (h : IsVec P v)
    (hf : ∀ a, Rel.VStored c a → P a → f a ≠ .ub) : onVector f v ≠ .ub :=
  with_vector_defined hv h (fun a h1 h2 => bind_defined (hf a h1 h2) (fun _ _ e => by cases e))

theorem on_vectors_defined {P Q : Option Vec → Prop} {f : Option Vec → Option Vec → Out Vec} {v w : List Vec} (hv : Fits c n .vec v) (hw : Fits c n .vec w) (h : IsVec P v) (h' : IsVec Q w)
    (hf : ∀ a b, Rel.VStored c a → Rel.VStored c b → Q b → f a b ≠ .ub) : onVectors f v w ≠ .ub :=
  with_vector_defined hv h (fun a h1 _ => with_vector_defined hw h' (fun b h2 h3 => bind_defined (hf a b h1 h2 h3) (fun _ _ e => by cases e)))

theorem IsVec.weak {P : Option Vec → Prop} {v : List Vec} (h : IsVec P v) : IsVec any v := by
  obtain ⟨a, h1, _⟩ := h
  exact ⟨a, h1, trivial⟩

/-! ## The calls -/

theorem checkLoop_defined {α : Type} {first : GList α} : ∀ {l : GList α}, GList.checkLoop first l ≠ .ub
  | [] => by intro e; cases e
  | x :: l => by
    have ih := checkLoop_defined (first := first) (l := l)
    unfold GList.checkLoop
    split
    · intro e; cases e
    · split
      · intro e; cases e
      · split
        · intro e; cases e
        · exact ih

theorem gadd_defined {α : Type} {l m : GList α} : GList.add l m ≠ .ub := by
  unfold GList.add
  exact bind_defined checkLoop_defined (fun _ _ e => by cases e)

theorem StmtText.prints {s : Stmt (DataAt n)} (hc : c.Valid) (hd : c.ndebug = false) (h : StmtText c e s) : Stmts.Prints c (libAt c e n).toLib s :=
  ⟨h.relations, h.iterators, by rw [libAt_env]; exact text_defined hc hd n h.extension⟩

theorem ScopText.prints {s : Scop (DataAt n)} (hc : c.Valid) (hd : c.ndebug = false) (h : ScopText c e s) : Scops.Prints c (libAt c e n) s :=
  ⟨h.context, fun a ha => (h.statement a ha).prints hc hd, h.params, h.arrays, by rw [libAt_env]; exact text_defined hc hd n h.parameters, by rw [libAt_env]; exact text_defined hc hd n h.extension, h.sizes⟩

theorem must_defined {α : Type} {p : Prop} {f : Out α} (hp : p) (h : f ≠ .ub) : (must p >>= fun _ => f) ≠ .ub := by
  unfold must
  rw [if_pos hp]
  exact h

theorem dispatch_defined {s : Stmt (DataAt n)} {l : Stmts (DataAt n)} {m : RList} (h1 : s.domain = []) (h2 : s.scattering = []) (h3 : s.access = []) (hm : ∀ r ∈ m, Rel.Shape r) :
    dispatch c (s :: l) m ≠ .ub := by
  show (null s.domain >>= fun _ => null s.scattering >>= fun _ => null s.access >>= fun _ => Stmts.dispatch c m >>= _) ≠ .ub
  rw [h1, h2, h3]
  show (Stmts.dispatch c m >>= _) ≠ .ub
  refine bind_defined ?_ (fun _ _ e => by cases e)
  unfold Stmts.dispatch
  refine bind_defined (RList.filter_defined hm) (fun _ _ => ?_)
  split
  · intro e; cases e
  · refine bind_defined (RList.filter_defined hm) (fun _ _ => ?_)
    split
    · intro e; cases e
    · refine bind_defined (RList.filter_defined hm) (fun _ _ => ?_)
      split <;> (intro e; cases e)

theorem stmt_shape {P : GList (DataAt n) → Prop} {good : DataAt n → Prop} {s : Stmt (DataAt n)} (h : Stmts.Kept c good s) (hp : P s.extension) : Stmts.Shape P s :=
  ⟨Rel.Stored.shape h.domain, Rel.Stored.shape h.scattering, fun r hr => Rel.Stored.shape (h.access r hr), hp⟩

theorem scop_shape {P : GList (DataAt n) → Prop} {good : DataAt n → Prop} {s : Scop (DataAt n)} (h : Scops.Kept c good s) (hp : EachExt P s) : Scops.Shape P s :=
  ⟨Rel.Stored.shape h.context, hp.1, fun a ha => stmt_shape (h.statement a ha) (hp.2.2 a ha), hp.2.1⟩

/-- A list of scops which is compatible with the SCoPLib format is a single one. -/
theorem compatible_single {L : Lib (DataAt n)} {l : Scops (DataAt n)} (h : Scops.check_compatible_scoplib c L l = .ok true) (hl : l ≠ []) : ∃ s, l = [s] := by
  unfold Scops.check_compatible_scoplib at h
  split at h
  · split at h
    · exact absurd rfl hl
    · cases h
    · exact ⟨_, rfl⟩
  · next r hr => exact absurd h (hr ·)

/-- The SCoPLib printer. -/
theorem print_scoplib_defined (hc : c.Valid) (hd : c.ndebug = false) {l : Scops (DataAt n)} (hl : ∀ s ∈ l, Scops.Kept c (goodAt c n) s) (h : ScoplibText c e l) :
    Scops.print_scoplib c (scoplibAt c e n) release l ≠ .ub := by
  obtain ⟨h1, h2, h3⟩ := h
  cases l with
  | nil => intro e; cases e
  | cons s l =>
    have hk := Scops.check_compatible_scoplib_defined (L := (libAt c e n).toLib) hc
      (fun s hs => ⟨Rel.Stored.shape (hl s hs).context, fun a ha => stmt_shape ((hl s hs).statement a ha) (lookupBody_defined ((h1 s hs).2 a ha).2)⟩)
      (fun s hs => ⟨(h1 s hs).1, fun a ha => ((h1 s hs).2 a ha).1⟩) (by intro e; cases e) h2
    show (Scops.check_compatible_scoplib c (scoplibAt c e n).toTextLib.toLib (s :: l) >>= _) ≠ .ub
    rw [scoplibAt_text]
    refine bind_defined hk (fun b hb => ?_)
    cases b with
    | false => intro e; cases e
    | true =>
      obtain ⟨x, hx⟩ := compatible_single hb (by intro e; cases e)
      obtain ⟨h4, h5, language, ps, m, options, h6⟩ := h3 hb s List.mem_cons_self
      injection hx with _ hx
      subst hx
      have hp : Scops.Prints c (scoplibAt c e n).toTextLib s := by rw [scoplibAt_text]; exact h4.prints hc hd
      obtain ⟨w, e1, hn⟩ := Scops.scop_names_cover hc hd (L := (scoplibAt c e n).toTextLib) (x := [s]) (fun y hy => by rw [List.mem_singleton.mp hy]; exact hp) ⟨s, List.mem_cons_self, h5⟩
      obtain ⟨t, e2, _⟩ := Scops.printOneScoplib_says hc hd hp h6 (Scops.names_noNL e1) (hn s List.mem_cons_self)
      rw [if_pos rfl, e1, Out.ok_bind]
      unfold Scops.printLoopScoplib
      rw [e2]
      intro e; cases e

/-- A call which meets its precondition is defined: it succeeds, or stops with the error of the library. -/
theorem run_defined (hc : c.Valid) (hd : c.ndebug = false) (a : Call) {σ : State n} (hσ : AllFit c n σ) (h : Pre c e σ a) : run c e release n a σ ≠ .ub := by
  have S : ∀ {r : Rel}, Fits c n .rel r → Rel.Shape r := fun h => Rel.Stored.shape h
  have L : ∀ {l : RList}, Fits c n .list l → ∀ r ∈ l, Rel.Shape r := fun h r hr => Rel.Stored.shape (h r hr)
  have C : ∀ {l : GList (DataAt n)}, Copyable n l → GList.clone (libAt c e n).toEnv l ≠ .ub := fun h => by rw [libAt_env]; exact copy_defined n h
  have M : ∀ l m : GList (DataAt n), Matchable n l → Matchable n m → GList.equal (libAt c e n).toEnv l m ≠ .ub := fun l m h h' => by rw [libAt_env]; exact match_defined n h h'
  cases a with
  | relPmalloc x p r s => exact make_defined hσ h (bind_defined Rel.pmalloc_defined (fun _ _ e => by cases e))
  | relFree x => exact change_defined hσ h (fun _ _ _ e => by cases e)
  | relClone x y => exact from_defined hσ h (fun v hv _ => Rel.clone_defined (S hv))
  | relNclone x y k => exact from_defined hσ h (fun v hv _ => Rel.nclone_defined (S hv))
  | relCloneRows x y k => exact from_defined hσ h (fun v hv _ => Rel.clone_nconstraints_defined (S hv))
  | relUnion x y z =>
    simp only [run]
    simp only [Pre] at h
    split
    · next he => rw [if_pos he] at h; exact from_defined hσ h (fun v hv _ => Rel.union_defined (S hv) (S hv))
    · next he => rw [if_neg he] at h; exact on3_defined hσ h (fun v w hv hw _ => Rel.union_defined (S hv) (S hw))
  | relConcat x y z => exact on3_defined hσ h (fun v w hv hw _ => Rel.concat_constraints_defined (S hv) (S hw))
  | relAdd x y => exact move_defined hσ h (fun _ _ _ _ _ e => by cases e)
  | relInsert x y row => exact with_defined hσ h (fun v w hv hw _ => Rel.insert_constraints_defined (S hv) (S hw))
  | relInsertColumns x y column => exact with_defined hσ h (fun v w hv hw _ => Rel.insert_columns_defined (S hv) (S hw))
  | relInsertColumn x column => exact change_defined hσ h (fun v hv _ => Rel.insert_blank_column_defined (S hv))
  | relRemoveRow x row => exact change_defined hσ h (fun v hv _ => Rel.remove_row_defined (S hv))
  | relRemoveColumn x column => exact change_defined hσ h (fun v hv _ => Rel.remove_column_defined (S hv))
  | relExtend x y dim => exact from_defined hσ h (fun v hv hp => Rel.extend_output_defined (S hv) hp.1 hp.2)
  | relSetType x type => exact change_defined hσ h (fun _ _ _ e => by cases e)
  | relSetPrecision x p => exact change_defined hσ h (fun v hv _ => Rel.set_precision_defined (S hv))
  | relEqual x y => exact compare_defined hσ h (fun v w hv hw _ => Rel.equal_defined (S hv) (S hw))
  | relIntegrity x t o i p => exact look_defined hσ h (fun v hv hp => bind_defined (Rel.integrity_check_defined hc (S hv) hp) (fun _ _ e => by cases e))
  | relSetAttributes x o i l p => exact change_defined hσ h (fun _ _ _ e => by cases e)
  | relSwap x i j => exact change_defined hσ h (fun v hv _ => Rel.swap_constraints_defined (S hv))
  | relInsertRow x row => exact change_defined hσ h (fun v hv _ => Rel.insert_blank_row_defined (S hv))
  | relSamePrecision x y => exact on2_defined hσ h (fun v w hv hw _ => bind_defined (Rel.set_same_precision_defined (S hv) (S hw)) (fun _ _ e => by cases e))
  | relIsAccess x => exact look_defined hσ h (fun _ _ _ e => by cases e)
  | relArrayId x => exact look_defined hσ h (fun v hv hp => bind_defined (Rel.get_array_id_defined hc (S hv) hp) (fun _ _ e => by cases e))
  | relFromVector x y => exact from_defined hσ h (fun v hv hp => with_vector_defined hv hp (fun _ _ _ => Rel.from_vector_defined))
  | relReplaceVector x y row => exact with_defined hσ h (fun v w hv hw hp => with_vector_defined hw hp (fun _ _ _ => Rel.replace_vector_defined (S hv)))
  | relAddVector x y row => exact with_defined hσ h (fun v w hv hw hp => with_vector_defined hw hp (fun _ h1 h2 => Rel.add_vector_defined hc hd hv h1 h2))
  | relSubVector x y row => exact with_defined hσ h (fun v w hv hw hp => with_vector_defined hw hp (fun _ h1 h2 => Rel.sub_vector_defined hc hd hv h1 h2))
  | relInsertVector x y row => exact with_defined hσ h (fun v w hv hw hp => with_vector_defined hw hp (fun _ _ _ => Rel.insert_vector_defined (S hv)))
  | relConcatVector x y z => exact on3_defined hσ h (fun v w hv hw hp => with_vector_defined hw hp (fun _ _ _ => Rel.concat_vector_defined (S hv)))
  | relPrint x =>
    refine look_defined hσ h (fun v hv hp => ?_)
    obtain ⟨t, ht⟩ := Rel.relation_sprint_total hc hd hp.parts hp.typed
    rw [ht]
    refine bind_defined ?_ (fun _ _ e => by cases e)
    unfold must
    split
    · intro e; cases e
    · next hn => exact absurd (Rel.Stored.fits hv) hn
  | relDump x => exact look_defined hσ h (fun v hv hp => bind_defined (Dump.relation_defined (S hv) hp) (fun _ _ e => by cases e))
  | relRead x p file => exact make_defined hσ h.1 (bind_defined (Rel.pread_defined h.2) (fun _ _ e => by cases e))
  | listRead x p file => exact make_defined hσ h.1 (bind_defined (RList.pread_defined h.2) (fun _ _ e => by cases e))
  | scopRead x file => exact make_defined hσ h.1 (Scops.read_defined h.2).1
  | vecMalloc x p size => exact make_defined hσ h (bind_defined Vec.pmalloc_defined (fun _ _ e => by cases e))
  | vecFree x => exact change_defined hσ h (fun _ _ _ e => by cases e)
  | vecAddScalar x y k => exact from_defined hσ h.2.2 (fun v hv hp => on_vector_defined hv hp (fun a h1 _ => Vec.add_scalar_defined hc hd h1 h.1 h.2.1))
  | vecMulScalar x y k => exact from_defined hσ h (fun v hv hp => on_vector_defined hv hp (fun a h1 h2 => Vec.mul_scalar_defined h1 h2.1 h2.2))
  | vecAdd x y z =>
    simp only [run]
    simp only [Pre] at h
    split
    · next he => rw [if_pos he] at h; exact from_defined hσ h (fun v hv hp => on_vectors_defined hv hv hp.weak hp (fun a b h1 h2 h3 => Vec.add_defined hc hd h1 h2 h3))
    · next he => rw [if_neg he] at h; exact on3_defined hσ h (fun v w hv hw hp => on_vectors_defined hv hw hp.1 hp.2 (fun a b h1 h2 h3 => Vec.add_defined hc hd h1 h2 h3))
  | vecSub x y z =>
    simp only [run]
    simp only [Pre] at h
    split
    · next he => rw [if_pos he] at h; exact from_defined hσ h (fun v hv hp => on_vectors_defined hv hv hp.weak hp (fun a b h1 h2 h3 => Vec.sub_defined hc hd h1 h2 h3))
    · next he => rw [if_neg he] at h; exact on3_defined hσ h (fun v w hv hw hp => on_vectors_defined hv hw hp.1 hp.2 (fun a b h1 h2 h3 => Vec.sub_defined hc hd h1 h2 h3))
  | vecTagInequality x => exact change_defined hσ h (fun v hv hp => on_vector_defined hv hp (fun _ _ _ => Vec.tag_inequality_defined))
  | vecTagEquality x => exact change_defined hσ h (fun v hv hp => on_vector_defined hv hp (fun _ _ _ => Vec.tag_equality_defined))
  | vecEqual x y =>
    refine compare_defined hσ h (fun v w hv hw hp => ?_)
    obtain ⟨a, b, rfl, rfl, hab⟩ := hp
    rw [vector_toList, vector_toList]
    exact Vec.equal_defined hab
  | vecIsScalar x => exact look_defined hσ h (fun v hv hp => bind_defined (with_vector_defined hv hp (fun _ _ _ => Vec.is_scalar_defined)) (fun _ _ e => by cases e))
  | listNode x y => exact from_defined hσ h (fun v hv _ => RList.node_defined (S hv))
  | listFree x => exact change_defined hσ h (fun _ _ _ e => by cases e)
  | listClone x y => exact from_defined hσ h (fun v hv _ => RList.clone_defined (L hv))
  | listConcat x y z =>
    simp only [run]
    simp only [Pre] at h
    split
    · next he => rw [if_pos he] at h; exact from_defined hσ h (fun v hv _ => RList.concat_defined (L hv) (L hv))
    · next he => rw [if_neg he] at h; exact on3_defined hσ h (fun v w hv hw _ => RList.concat_defined (L hv) (L hw))
  | listAdd x y => exact move_defined hσ h (fun _ _ _ _ _ e => by cases e)
  | listPush x y =>
    refine move_defined hσ h (fun v w _ _ hp => ?_)
    match w, hp with
    | [], _ => intro e; cases e
    | [a], _ => intro e; cases e
  | listPop x y =>
    refine on2_defined hσ h (fun v w _ _ hp => ?_)
    rw [hp]
    intro e; cases e
  | listDup x => exact change_defined hσ h (fun v hv _ => RList.dup_defined (L hv))
  | listDrop x => exact change_defined hσ h (fun _ _ _ e => by cases e)
  | listDestroy x => exact change_defined hσ h (fun _ _ _ e => by cases e)
  | listSetType x type => exact change_defined hσ h (fun _ _ _ e => by cases e)
  | listFilter x y type => exact from_defined hσ h (fun v hv _ => RList.filter_defined (L hv))
  | listEqual x y => exact compare_defined hσ h (fun v w hv hw _ => RList.equal_defined (L hv) (L hw))
  | listCount x => exact look_defined hσ h (fun _ _ _ e => by cases e)
  | listIntegrity x t o i p => exact look_defined hσ h (fun v hv hp => bind_defined (RList.integrity_check_defined hc (L hv) hp) (fun _ _ e => by cases e))
  | listPrint x =>
    exact look_defined hσ h (fun v hv hp => must_defined (fun r hr => Rel.Stored.fits (hv r hr)) (bind_defined (RList.print_defined hc hd hp) (fun _ _ e => by cases e)))
  | listDump x => exact look_defined hσ h (fun v hv hp => bind_defined (Dump.relation_list_defined (L hv) hp) (fun _ _ e => by cases e))
  | genFree x => exact change_defined hσ h (fun _ _ _ e => by cases e)
  | genClone x y => exact from_defined hσ h (fun v _ hp => C hp)
  | genAdd x y => exact move_defined hσ h (fun _ _ _ _ _ => gadd_defined)
  | genEqual x y => exact compare_defined hσ h (fun v w _ _ hp => M v w hp.1 hp.2)
  | genCount x => exact look_defined hσ h (fun _ _ _ e => by cases e)
  | genPrint x =>
    refine look_defined hσ h (fun v hv hp => must_defined hv ?_)
    obtain ⟨t, ht⟩ := text_defined (e := e) hc hd n hp
    rw [libAt_env, ht]
    intro e; cases e
  | genDump x => exact look_defined hσ h (fun v _ hp => bind_defined (Dump.show_defined n hp) (fun _ _ e => by cases e))
  | genRemove x t => exact change_defined hσ h (fun _ _ _ e => by cases e)
  | stmtMalloc x => exact make_defined hσ h (fun e => by cases e)
  | stmtFree x => exact change_defined hσ h (fun _ _ _ e => by cases e)
  | stmtClone x y => exact from_defined hσ h (fun v hv hp => Stmts.clone_defined (fun s hs => stmt_shape (hv s hs) (C (hp s hs))))
  | stmtNclone x y k => exact from_defined hσ h (fun v hv hp => Stmts.nclone_defined (fun s hs => stmt_shape (hv s hs) (C (hp s hs))))
  | stmtUnions x y =>
    refine from_defined hσ h (fun v hv hp => ?_)
    cases v with
    | nil => intro e; cases e
    | cons s v => exact Stmts.remove_unions_defined (fun s hs => stmt_shape (hv s hs) (C (hp s hs)))
  | stmtEqual x y => exact compare_defined hσ h (fun v w hv hw hp => Stmts.equal_defined M hp.1 (fun s hs => stmt_shape (hv s hs) (hp.2.1 s hs)) (fun s hs => stmt_shape (hw s hs) (hp.2.2 s hs)))
  | stmtIntegrity x k =>
    exact look_defined hσ h (fun v hv hp => bind_defined (Stmts.integrity_check_defined hc (fun s hs => stmt_shape (hv s hs) (lookupBody_defined (hp s hs).2)) (fun s hs => (hp s hs).1))
      (fun _ _ e => by cases e))
  | stmtPrint x =>
    refine look_defined hσ h (fun v hv hp => must_defined (Stmts.Stored.fit hv) ?_)
    obtain ⟨t, ht⟩ := Stmts.statement_print_total hc hd (fun s hs => (hp.1 s hs).prints hc hd) hp.2
    rw [ht]
    intro e; cases e
  | stmtDump x =>
    exact look_defined hσ h (fun v hv hp => bind_defined (Dump.statement_defined (fun s hs => stmt_shape (P := fun l => ∀ k, Dump.generic (Dump.fnsAt c n) l k ≠ .ub) (hv s hs) (fun k => Dump.show_defined n (hp s hs).1)) (fun s hs =>
      ⟨(hp s hs).2 _ (by simp [Stmts.rels]), (hp s hs).2 _ (by simp [Stmts.rels]), fun r hr => (hp s hs).2 r (by simp [Stmts.rels, hr])⟩)) (fun _ _ e => by cases e))
  | stmtAdd x y => exact move_defined hσ h (fun _ _ _ _ _ e => by cases e)
  | stmtNumber x => exact look_defined hσ h (fun _ _ _ e => by cases e)
  | stmtDispatch x y =>
    refine move_defined hσ h (fun v w hv hw hp => ?_)
    obtain ⟨s, r, rfl, h1, h2, h3⟩ := hp
    exact dispatch_defined h1 h2 h3 (L hw)
  | stmtDomain x y => exact swap_defined hσ h
  | stmtScattering x y => exact swap_defined hσ h
  | stmtAccess x y => exact swap_defined hσ h
  | stmtExtension x y => exact swap_defined hσ h
  | scopMalloc x => exact make_defined hσ h (fun e => by cases e)
  | scopFree x => exact change_defined hσ h (fun _ _ _ e => by cases e)
  | scopClone x y => exact from_defined hσ h (fun v hv hp => Scops.clone_defined (fun s hs => scop_shape (hv s hs) ⟨C (hp s hs).1, C (hp s hs).2.1, fun a ha => C ((hp s hs).2.2 a ha)⟩))
  | scopUnions x y =>
    refine from_defined hσ h (fun v hv hp => bind_defined ?_ (fun _ _ => Scops.remove_unions_defined (fun s hs =>
      scop_shape (hv s hs) ⟨C (hp.2 s hs).1, C (hp.2 s hs).2.1, fun a ha => C ((hp.2 s hs).2.2 a ha)⟩)))
    unfold must
    split
    · intro e; cases e
    · next hn => exact absurd hp.1 hn
  | scopNormalize x => exact change_defined hσ h (fun v hv hp => Scops.normalize_scattering_defined (fun s hs a ha => Rel.Stored.shape ((hv s hs).statement a ha).scattering) hp)
  | scopEqual x y =>
    exact compare_defined hσ h (fun v w hv hw hp => Scops.equal_defined M (fun s hs => scop_shape (hv s hs) (hp.1 s hs)) (fun s hs => scop_shape (hw s hs) (hp.2.1 s hs)) hp.2.2)
  | scopIntegrity x =>
    exact look_defined hσ h (fun v hv hp => bind_defined (Scops.integrity_check_defined hc
      (fun s hs => ⟨Rel.Stored.shape (hv s hs).context, fun a ha => stmt_shape ((hv s hs).statement a ha) (lookupBody_defined ((hp s hs).2 a ha).2)⟩)
      (fun s hs => ⟨(hp s hs).1, fun a ha => ((hp s hs).2 a ha).1⟩)) (fun _ _ e => by cases e))
  | scopCheckScoplib x =>
    exact look_defined hσ h (fun v hv hp => bind_defined (Scops.check_compatible_scoplib_defined hc
      (fun s hs => ⟨Rel.Stored.shape (hv s hs).context, fun a ha => stmt_shape ((hv s hs).statement a ha) (lookupBody_defined ((hp.2.1 s hs).2 a ha).2)⟩)
      (fun s hs => ⟨(hp.2.1 s hs).1, fun a ha => ((hp.2.1 s hs).2 a ha).1⟩) hp.1 hp.2.2) (fun _ _ e => by cases e))
  | scopPrint x =>
    refine look_defined hσ h (fun v hv hp => must_defined (fun s hs => (hv s hs).fits) ?_)
    obtain ⟨t, ht⟩ := Scops.scop_print_total hc hd release (fun s hs => (hp.1 s hs).prints hc hd) hp.2
    rw [ht]
    intro e; cases e
  | scopPrintScoplib x => exact look_defined hσ h (fun v hv hp => must_defined (fun s hs => ⟨(hv s hs).fits.1, fun a ha => ((hv s hs).fits.2.2.1 a ha).1⟩)
      (bind_defined (print_scoplib_defined hc hd hv hp) (fun _ _ e => by cases e)))
  | scopDump x =>
    refine look_defined hσ h (fun v hv hp => bind_defined (Dump.scop_defined (fun s hs => ?_) (fun s hs => ?_)) (fun _ _ e => by cases e))
    · exact scop_shape (P := fun l => ∀ k, Dump.generic (Dump.fnsAt c n) l k ≠ .ub) (hv s hs) ⟨fun k => Dump.show_defined n (hp s hs).1.1, fun k => Dump.show_defined n (hp s hs).1.2.1,
        fun a ha k => Dump.show_defined n ((hp s hs).1.2.2 a ha)⟩
    · obtain ⟨_, h1, h2, h3⟩ := hp s hs
      have hm : ∀ a ∈ s.statement, ∀ r ∈ Stmts.rels a, r ∈ Scops.rels s := fun a ha r hr => List.mem_cons_of_mem _ (List.mem_flatMap.mpr ⟨a, ha, hr⟩)
      exact ⟨h1, h2, h3 _ List.mem_cons_self, fun a ha => ⟨h3 _ (hm a ha _ (by simp [Stmts.rels])), h3 _ (hm a ha _ (by simp [Stmts.rels])), fun r hr => h3 r (hm a ha r (by simp [Stmts.rels, hr]))⟩⟩
  | scopAdd x y => exact move_defined hσ h (fun _ _ _ _ _ e => by cases e)
  | scopNumber x => exact look_defined hσ h (fun _ _ _ e => by cases e)
  | scopContext x y => exact swap_defined hσ h
  | scopParameters x y => exact swap_defined hσ h
  | scopStatement x y => exact swap_defined hσ h
  | scopExtension x y => exact swap_defined hσ h

/-- A history whose calls meet their preconditions is defined. -/
theorem history_defined (hc : c.Valid) (hd : c.ndebug = false) : ∀ {l : List Call} {σ : State n}, AllFit c n σ → Meets c e release l σ → runs c e release n l σ ≠ .ub
  | [], _, _, _ => by intro e; cases e
  | a :: l, σ, hσ, h => by
    refine bind_defined (run_defined hc hd a hσ h.1) (fun r hr => ?_)
    exact bind_defined (history_defined hc hd (run_fits hc a hσ hr) (h.2 r hr)) (fun _ _ e => by cases e)

/-- The covered calls lose no string. -/
theorem lost_none : ∀ {l : List Call} {σ : State n} {t : State n × List Obs}, Meets c e release l σ → runs c e release n l σ = .ok t → lostAll c e n l = []
  | [], _, _, _, _ => rfl
  | a :: l, σ, t, h, hr => by
    obtain ⟨r, h1, hr⟩ := Out.bind_eq_ok.mp hr
    obtain ⟨u, h2, _⟩ := Out.bind_eq_ok.mp hr
    have ih := lost_none (h.2 r h1) h2
    have ha : lost c e n a = [] := by
      cases a with
      | scopRead x file => exact (Scops.read_defined h.1.2).2
      | _ => rfl
    show lost c e n a ++ lostAll c e n l = []
    rw [ha, ih]
    rfl

/-- The same in memory, from variables which are NULL: unless the library stops with an error, the history of such a client is executed without a fault, and if it frees what it holds, the
memory is what it was. -/
theorem history_safe [Allocator] (hc : c.Valid) (hd : c.ndebug = false) {l : List Call} {ks : List Ty} (h : Meets c e release l (nulls n ks)) :
    runs c e release n l (nulls n ks) = .err ∨
      ∃ (σ : State n) (obs : List Obs), runs c e release n l (nulls n ks) = .ok (σ, obs) ∧ AllFit c n σ ∧
        ∀ m : Heap, (∃ ps m', execs c e release n l (List.replicate ks.length 0) m = .ok ((ps, obs), m')) ∧
          ((∀ v ∈ σ, v.value = []) → ∃ ps m', execs c e release n l (List.replicate ks.length 0) m = .ok ((ps, obs), m') ∧ m'.get = m.get) := by
  cases hr : runs c e release n l (nulls n ks) with
  | ub => exact absurd hr (history_defined hc hd (allFit_nulls ks) h)
  | err => exact .inl rfl
  | ok t =>
    refine .inr ⟨t.1, t.2, rfl, history_fits hc (allFit_nulls ks) hr, fun m => ⟨?_, fun hv => ?_⟩⟩
    · obtain ⟨ps, _, o, _, h1, _⟩ := history_allocator hc ‹Allocator› ‹Allocator› l ks hr m m
      exact ⟨ps, o, h1⟩
    · exact history_no_leak hc l ks hr hv (lost_none h hr) m

/-! ## Cases -/

/-- The state after a call, if it succeeds. -/
noncomputable def next (c : Cfg) (e : Option Str) (release : Str) (a : Call) (σ : State n) : State n :=
  match run c e release n a σ with
  | .ok r => r.1
  | _ => σ

theorem meets_cons {a : Call} {l : List Call} {σ : State n} (h : Pre c e σ a) (h' : Meets c e release l (next c e release a σ)) : Meets c e release (a :: l) σ := by
  refine ⟨h, fun r hr => ?_⟩
  unfold next at h'
  rw [hr] at h'
  exact h'

end

/-- A client which makes two vectors, relations of them, subtracts a vector from a row, removes a row, compares, makes an output dimension, and frees all. -/
def rows : List Call :=
  [.vecMalloc 0 64 4, .vecTagInequality 0, .vecAddScalar 1 0 7, .relFromVector 2 1, .relConcatVector 3 2 0, .relSubVector 3 0 1, .relRemoveRow 3 0, .relEqual 2 3, .relInsertRow 3 1,
   .relSetAttributes 3 1 1 0 0, .relExtend 4 3 2, .relArrayId 4, .relFree 2, .relFree 3, .relFree 4, .vecFree 0, .vecFree 1]

set_option maxRecDepth 100000 in
/-- It meets the preconditions. -/
theorem rows_meets : Meets Cfg.std none [] rows (nulls 0 [.vec, .vec, .rel, .rel, .rel]) := by
  refine meets_cons ⟨_, rfl, rfl⟩ ?_
  refine meets_cons ⟨_, rfl, some _, rfl, trivial⟩ ?_
  refine meets_cons ⟨by decide, by decide, by decide, _, _, rfl, rfl, rfl, some _, rfl, trivial⟩ ?_
  refine meets_cons ⟨by decide, _, _, rfl, rfl, rfl, some _, rfl, trivial⟩ ?_
  refine meets_cons ⟨by decide, by decide, ⟨_, rfl, rfl⟩, by decide, _, _, rfl, rfl, some _, rfl, trivial⟩ ?_
  refine meets_cons ⟨by decide, _, _, rfl, rfl, some _, rfl, ?_⟩ ?_
  · intro x hx
    cases hx
    refine ⟨by decide, fun a ha ⟨w, _, h⟩ => ?_⟩
    have h1 : 0 ≤ a := (by decide : ∀ a ∈ [(1 : Int), 0, 0, 0], 0 ≤ a) a ha
    have h2 : (0 : Int) < 2 ^ (w - 1) := Int.pow_pos (by decide)
    unfold cMin at h
    omega
  refine meets_cons ⟨_, rfl, trivial⟩ ?_
  refine meets_cons ⟨by decide, _, _, rfl, rfl, trivial⟩ ?_
  refine meets_cons ⟨_, rfl, trivial⟩ ?_
  refine meets_cons ⟨_, rfl, trivial⟩ ?_
  refine meets_cons ⟨by decide, _, _, rfl, rfl, rfl, ?_⟩ ?_
  · exact ⟨by decide, by decide⟩
  refine meets_cons ⟨_, rfl, by unfold Rel.Small fits; decide⟩ ?_
  refine meets_cons ⟨_, rfl, trivial⟩ ?_
  refine meets_cons ⟨_, rfl, trivial⟩ ?_
  refine meets_cons ⟨_, rfl, trivial⟩ ?_
  refine meets_cons ⟨_, rfl, trivial⟩ ?_
  exact meets_cons ⟨_, rfl, trivial⟩ trivial

set_option maxRecDepth 100000 in
/-- It sees this: the row which is left is not that of the other relation, and the relation is no access. -/
theorem rows_seen : seen (runs Cfg.std none [] 0 rows (nulls 0 [.vec, .vec, .rel, .rel, .rel])) =
    some ([.none, .none, .none, .none, .none, .none, .none, .answer false, .none, .none, .none, .number (-1), .none, .none, .none, .none, .none], true) := by
  decide +kernel

set_option maxRecDepth 100000 in
/-- It is executed in memory without a fault, whatever the addresses the system gives, and leaves the memory as it was. -/
example [Allocator] (m : Heap) : ∃ obs ps m', execs Cfg.std none [] 0 rows [0, 0, 0, 0, 0] m = .ok ((ps, obs), m') ∧ m'.get = m.get := by
  obtain ⟨σ, h1, h2⟩ := seen_ok rows_seen
  rcases history_safe (c := Cfg.std) (by decide) rfl rows_meets with h | ⟨τ, obs, h3, _, h4⟩
  · rw [h1] at h
    cases h
  · rw [h1] at h3
    injection h3 with h3
    injection h3 with h3 h5
    subst h3
    obtain ⟨ps, m', h6, h7⟩ := (h4 m).2 h2
    exact ⟨obs, ps, m', h6, h7⟩

/-! The preconditions are needed: without them these calls are not defined. -/

/-- `osl_relation_extend_output` of NULL. -/
example : run Cfg.std none [] 0 (.relExtend 0 1 3) (nulls 0 [.rel, .rel]) = .ub := rfl

/-- `osl_vector_mul_scalar` of NULL. -/
example : run Cfg.std none [] 0 (.vecMulScalar 0 1 3) (nulls 0 [.vec, .vec]) = .ub := rfl

/-- `osl_vector_add_scalar` of the least int. -/
example : (match run Cfg.std none [] 0 (.vecAddScalar 0 1 (-2147483648)) [⟨.vec, []⟩, ⟨.vec, [⟨32, [0, -1]⟩]⟩] with | .ub => true | _ => false) = true := by decide +kernel

/-- A variable which holds a relation is assigned: the relation is lost. -/
example : run Cfg.std none [] 0 (.relClone 0 1) [⟨.rel, [⟨0, 32, 0, 0, 0, 0, 0, 0, []⟩]⟩, ⟨.rel, []⟩] = .ub := rfl

/-- The field of NULL. -/
example : run Cfg.std none [] 0 (.stmtDomain 0 1) (nulls 0 [.stmt, .rel]) = .ub := rfl

/-- The last node of several is pushed. -/
example : run Cfg.std none [] 0 (.listPush 0 1) [⟨.list, []⟩, ⟨.list, [[], []]⟩] = .ub := rfl

/-- The integers of a relation which are not ints are no identifiers of arrays. -/
example : (match run Cfg.std none [] 0 (.relArrayId 0) [⟨.rel, [⟨TYPE_READ, 64, 1, 3, 1, 0, 0, 0, [[0, 1, -2147483648]]⟩]⟩] with | .ub => true | _ => false) = true := by
  decide +kernel

end Osl.Client
