import Verif.HeapQueryExtProps4
import Verif.HeapQueryScopProps
import Verif.HeapLib
/-!
# Comparing and checking the data of the whole library only reads the memory (C75)
-/

set_option linter.unusedSectionVars false

namespace Osl.Mem

open Osl.Ext

variable [Allocator] {D : Type} {E : Env D} {O : DataMem D E}

/-! ## The kinds of data of the library -/

/-- A function `equal` which only reads the two data, and answers as on values (specification). -/
def EqualReads {X : Type} {o : Ops X} (K : KindMem X o) (f : Ptr → Ptr → M Bool) : Prop :=
  ∀ {p q : Ptr} {d e : Option X} {v : Bool}, o.equal d e = .ok v → Query (optAt K.at_ p d ∗ optAt K.at_ q e) (f p q) v

theorem strings_opt {p : Ptr} : ∀ {d : Option Strings}, optAt stringsMem.at_ p d = stringsAt p d
  | none => rfl
  | some _ => rfl

theorem relation_opt {c : Cfg} {e : Option Str} {p : Ptr} : ∀ {d : Option (NE Part)}, optAt (relationMem c e).at_ p d = relAt c p (NE.elems d)
  | none => relAt_nil_eq.symm
  | some _ => rfl

theorem strings_reads : EqualReads stringsMem stringsEqual := fun {p q d e v} h => by
  rw [strings_opt, strings_opt]
  have h : Out.ok (Strings.equal d e) = .ok v := h
  injection h with h
  subst h
  exact strings_equal_query

theorem body_reads : EqualReads bodyMem bodyEqual := fun {p q d e v} h => by
  have h : Out.ok (Body.equal d e) = .ok v := h
  injection h with h
  subst h
  exact body_equal_query

theorem relation_reads {c : Cfg} (e : Option Str) : EqualReads (relationMem c e) (relEqual c) := fun h => by
  rw [relation_opt, relation_opt]
  exact relation_equal_query h

theorem dependence_reads {c : Cfg} (e : Option Str) : EqualReads (dependenceMem c e) (depEqual c) := fun {p q d d' v} h => by
  show Query (optAt (fun p x => (depChain c).list p (NE.elems (some x))) p d ∗ optAt (fun p x => (depChain c).list p (NE.elems (some x))) q d') _ _
  simp only [optAt_list]
  exact dependence_equal_query h

theorem loop_reads : EqualReads loopMem loopEqual := fun {p q d d' v} h => by
  show Query (optAt (fun p x => loopChain.list p (NE.elems (some x))) p d ∗ optAt (fun p x => loopChain.list p (NE.elems (some x))) q d') _ _
  simp only [optAt_list]
  exact loop_equal_query h

theorem unroll_reads : EqualReads unrollMem unrollEqual := fun {p q d d' v} h => by
  show Query (optAt (fun p x => unrollChain.list p (NE.elems (some x))) p d ∗ optAt (fun p x => unrollChain.list p (NE.elems (some x))) q d') _ _
  simp only [optAt_list]
  have h : Out.ok (Unroll.equal (NE.elems d) (NE.elems d')) = .ok v := h
  injection h with h
  subst h
  exact unroll_equal_query

theorem region_reads : EqualReads regionMem regionEqual := fun {p q d d' v} h => by
  show Query (optAt (fun p x => regionChain.list p (NE.elems (some x))) p d ∗ optAt (fun p x => regionChain.list p (NE.elems (some x))) q d') _ _
  simp only [optAt_list]
  exact region_equal_query h

theorem symbols_reads (Q : EqMem O) : EqualReads (symbolsMem O defaultRegistry) (symEqual Q.equal) := fun {p q d d' v} h => by
  show Query (optAt (fun p x => (symChain O).list p (NE.elems (some x))) p d ∗ optAt (fun p x => (symChain O).list p (NE.elems (some x))) q d') _ _
  simp only [optAt_list]
  exact symbols_equal_query Q h

theorem noSym_reads : EqualReads noSymMem noSymEqual := fun h => by cases h

theorem textual_reads : EqualReads textualMem textualEqual := fun {_ _ d e _} h => textual_equal_query (d := d) (e := e) h
theorem comment_reads : EqualReads commentMem commentEqual := fun h => comment_equal_query h
theorem null_reads : EqualReads nullMem nullEqual := fun h => null_equal_query h
theorem scatinfos_reads : EqualReads scatinfosMem scatinfosEqual := fun h => scatinfos_equal_query h
theorem scatnames_reads : EqualReads scatnamesMem scatnamesEqual := fun h => scatnames_equal_query h
theorem arrays_reads : EqualReads arraysMem arraysEqual := fun h => arrays_equal_query h
theorem coordinates_reads : EqualReads coordMem coordEqual := fun h => coordinates_equal_query h
theorem clay_reads : EqualReads clayMem clayEqual := fun h => clay_equal_query h
theorem extbody_reads : EqualReads extbodyMem extbodyEqual := fun h => extbody_equal_query h
theorem annotation_reads : EqualReads annotationMem annEqual := fun h => annotation_equal_query h

/-! ## Any data -/

section

variable {S : Type}

theorem lift_equal {X : Type} {o : Ops X} {K : KindMem X o} {f : Ptr → Ptr → M Bool} (R : EqualReads K f) (k : Data.Kind S X) {at_ : Ptr → Data S → Assn}
    (hat : ∀ p x, at_ p (k.inj x) = K.at_ p x) (hk : ∀ d x, k.proj d = some x → d = k.inj x) {p q : Ptr} {d d' : Option (Data S)} {v : Bool}
    (h : (Data.lift k o).equal d d' = .ok v) : Query (optAt at_ p d ∗ optAt at_ q d') (f p q) v := by
  have one : ∀ {d : Data S} {x : X} {p : Ptr}, k.proj d = some x → optAt at_ p (some d) = optAt K.at_ p (some x) := by
    intro d x p hx
    have := hk d x hx
    subst this
    simp only [optAt_some, hat]
  have no : ∀ {p : Ptr}, optAt at_ p (none : Option (Data S)) = optAt K.at_ p none := fun {p} => rfl
  cases d with
  | none =>
    cases d' with
    | none => rw [no, no]; exact R h
    | some d' =>
      simp only [Data.lift] at h
      cases hy : k.proj d' with
      | none => rw [hy] at h; cases h
      | some y =>
        rw [hy] at h
        rw [no, one hy]
        exact R h
  | some d =>
    cases d' with
    | none =>
      simp only [Data.lift] at h
      cases hx : k.proj d with
      | none => rw [hx] at h; cases h
      | some x =>
        rw [hx] at h
        rw [no, one hx]
        exact R h
    | some d' =>
      simp only [Data.lift] at h
      cases hx : k.proj d with
      | none => rw [hx] at h; cases h
      | some x =>
        cases hy : k.proj d' with
        | none => rw [hx, hy] at h; cases h
        | some y =>
          rw [hx, hy] at h
          rw [one hx, one hy]
          exact R h

variable {so : Ops S} {c : Cfg} (e : Option Str) {sm : KindMem S so} {sf : Ptr → Ptr → M Bool} (sr : EqualReads sm sf)

include sr in
/-- C75: the function `equal` of the interface of some data only reads the two data. -/
theorem data_equal_query {k : Nat} {p q : Ptr} {d d' : Option (Data S)} {v : Bool} (h : (Data.env c e so).equal k d d' = .ok v) :
    Query (optAt (dataAt c sm.at_) p d ∗ optAt (dataAt c sm.at_) q d') (extEqualFn c sf k p q) v := by
  by_cases hk : k < 18
  · rcases (by omega : k < 17 ∨ k = 17) with hk | hk
    · rcases below17 hk with hk | hk | hk | hk | hk | hk | hk | hk | hk | hk | hk | hk | hk | hk | hk | hk | hk <;> subst hk
      · exact lift_equal strings_reads Data.kStrings (fun _ _ => rfl) (fun d x hx => by cases d <;> cases hx <;> rfl) h
      · exact lift_equal body_reads Data.kBody (fun _ _ => rfl) (fun d x hx => by cases d <;> cases hx <;> rfl) h
      · exact lift_equal (relation_reads e) Data.kRelation (fun _ _ => rfl) (fun d x hx => by cases d <;> cases hx <;> rfl) h
      · exact lift_equal textual_reads Data.kTextual (fun _ _ => rfl) (fun d x hx => by cases d <;> cases hx <;> rfl) h
      · exact lift_equal comment_reads Data.kComment (fun _ _ => rfl) (fun d x hx => by cases d <;> cases hx <;> rfl) h
      · exact lift_equal null_reads Data.kNull (fun _ _ => rfl) (fun d x hx => by cases d <;> cases hx <;> rfl) h
      · exact lift_equal scatinfos_reads Data.kScatinfos (fun _ _ => rfl) (fun d x hx => by cases d <;> cases hx <;> rfl) h
      · exact lift_equal scatnames_reads Data.kScatnames (fun _ _ => rfl) (fun d x hx => by cases d <;> cases hx <;> rfl) h
      · exact lift_equal arrays_reads Data.kArrays (fun _ _ => rfl) (fun d x hx => by cases d <;> cases hx <;> rfl) h
      · exact lift_equal coordinates_reads Data.kCoordinates (fun _ _ => rfl) (fun d x hx => by cases d <;> cases hx <;> rfl) h
      · exact lift_equal clay_reads Data.kClay (fun _ _ => rfl) (fun d x hx => by cases d <;> cases hx <;> rfl) h
      · exact lift_equal (dependence_reads e) Data.kDependence (fun _ _ => rfl) (fun d x hx => by cases d <;> cases hx <;> rfl) h
      · exact lift_equal sr Data.kSymbols (fun _ _ => rfl) (fun d x hx => by cases d <;> cases hx <;> rfl) h
      · exact lift_equal extbody_reads Data.kExtbody (fun _ _ => rfl) (fun d x hx => by cases d <;> cases hx <;> rfl) h
      · exact lift_equal loop_reads Data.kLoop (fun _ _ => rfl) (fun d x hx => by cases d <;> cases hx <;> rfl) h
      · exact lift_equal unroll_reads Data.kUnroll (fun _ _ => rfl) (fun d x hx => by cases d <;> cases hx <;> rfl) h
      · exact lift_equal region_reads Data.kRegion (fun _ _ => rfl) (fun d x hx => by cases d <;> cases hx <;> rfl) h
    · subst hk
      exact lift_equal annotation_reads Data.kAnnotation (fun _ _ => rfl) (fun d x hx => by cases d <;> cases hx <;> rfl) h
  · have : (Data.table c e so)[k]? = none := by
      rw [List.getElem?_eq_none_iff]
      show 18 ≤ k
      omega
    simp only [Data.env, this] at h
    cases h

/-- The functions `equal` of the default registry on the data of the known extensions. -/
def dataEqual (hs : sm.nullOk = true) : EqMem (dataMem c e sm hs) where
  equal := extEqualFn c sf
  equal_query := fun h => data_equal_query e sr h

end

/-- The functions `equal` of the default registry on data with symbols nested at most `n` times. -/
def equalsAt (c : Cfg) (e : Option Str) : (n : Nat) → EqMem (memAt c e n)
  | 0 => dataEqual e noSym_reads rfl
  | n + 1 => dataEqual e (symbols_reads (equalsAt c e n)) rfl

theorem equalsAt_equal (c : Cfg) (e : Option Str) : ∀ n, (equalsAt c e n).equal = equalAt c n
  | 0 => rfl
  | n + 1 => by
    show extEqualFn c (symEqual (equalsAt c e n).equal) = extEqualFn c (symEqual (equalAt c n))
    rw [equalsAt_equal c e n]

/-- The functions `equal` of the default registry for the library. -/
def libEqual (c : Cfg) (e : Option Str) : (n : Nat) → EqMem (libMem c e n)
  | 0 => equalsAt c e 0
  | n + 1 => equalsAt c e (n + 1)

theorem libEqual_equal (c : Cfg) (e : Option Str) : ∀ n, (libEqual c e n).equal = equalAt c n
  | 0 => equalsAt_equal c e 0
  | n + 1 => equalsAt_equal c e (n + 1)

/-- The bodies of the library. -/
theorem data_bodies {S : Type} {so : Ops S} {c : Cfg} (e : Option Str) {sm : KindMem S so} (hs : sm.nullOk = true) :
    BodyView (L := (Data.lib c e so).toLib) (dataMem c e sm hs) where
  body := fun {d b p h} hb hh => by
    have : d = .body b := by cases d <;> cases hb <;> rfl
    subst this
    exact hh
  extbody := fun {d o p h} hb hh => by
    cases d <;> first | (rename_i x; exact ⟨x, by simpa [Data.lib, Data.kExtbody] using hb, hh⟩) | (simp [Data.lib, Data.kExtbody] at hb)

theorem lib_bodies (c : Cfg) (e : Option Str) : ∀ n, BodyView (L := (libAt c e n).toLib) (libMem c e n)
  | 0 => data_bodies e rfl
  | _ + 1 => data_bodies e rfl

/-! ## The library -/

section

variable {c : Cfg} {e : Option Str} {n : Nat}

/-- The memory of statements of the library. -/
def libStmtsAt (c : Cfg) (e : Option Str) (n : Nat) (p : Ptr) (l : Stmts (DataAt n)) : Assn := stmtsAt c (L := (libAt c e n).toLib) (libMem c e n) p l

/-- C75: `osl_generic_equal` with the extensions of the default registry only reads the two lists. -/
theorem lib_generic_equal_query {p q : Ptr} {l k : GList (DataAt n)} {b : Bool} (h : GList.equal (libAt c e n).toEnv l k = .ok b) :
    Query (glistAt (libMem c e n) p l ∗ glistAt (libMem c e n) q k) (genEqual (equalAt c n) p q) b := by
  have := generic_equal_query (Q := libEqual c e n) (p := p) (q := q) h
  rwa [libEqual_equal] at this

/-- C75: `osl_statement_equal` only reads the two lists of statements. -/
theorem lib_statement_equal_query {p q : Ptr} {l k : Stmts (DataAt n)} {b : Bool} (h : Stmts.equal c (libAt c e n).toLib l k = .ok b) :
    Query (libStmtsAt c e n p l ∗ libStmtsAt c e n q k) (stmtEqual c (equalAt c n) p q) b := by
  have := statement_equal_query (Q := libEqual c e n) (p := p) (q := q) h
  rwa [libEqual_equal] at this

/-- C75: `osl_statement_integrity_check` only reads the statements. -/
theorem lib_statement_integrity_check_query {p : Ptr} {l : Stmts (DataAt n)} {np : Int} {b : Bool} (h : Stmts.integrity_check c (libAt c e n).toLib np l = .ok b) :
    Query (libStmtsAt c e n p l) (stmtIntegrity c p np) b := statement_integrity_check_query (lib_bodies c e n) h

/-- C75: `osl_statement_get_body` only reads, and finds the body. -/
theorem lib_statement_get_body_finds {p : Ptr} {l : Stmts (DataAt n)} {b : Option Body} (h : Stmts.get_body (libAt c e n).toLib l = .ok b) :
    Finds (libStmtsAt c e n p l) (stmtGetBody p) (fun q => optAt bodyAt q b) := statement_get_body_finds (lib_bodies c e n) h

/-- C75: `osl_scop_equal` only reads the two lists of scops. -/
theorem lib_scop_equal_query {p q : Ptr} {l k : Scops (DataAt n)} {b : Bool} (h : Scops.equal c (libAt c e n).toLib l k = .ok b) :
    Query (libScopsAt c e n p l ∗ libScopsAt c e n q k) (scopEqual c (equalAt c n) p q) b := by
  have := scop_equal_query (Q := libEqual c e n) (p := p) (q := q) h
  rwa [libEqual_equal] at this

/-- C75: `osl_scop_integrity_check` only reads the scops. -/
theorem lib_scop_integrity_check_query {p : Ptr} {l : Scops (DataAt n)} {b : Bool} (h : Scops.integrity_check c (libAt c e n).toLib l = .ok b) :
    Query (libScopsAt c e n p l) (scopIntegrity c p) b := scop_integrity_check_query (lib_bodies c e n) h

/-- C75: `osl_scop_check_compatible_scoplib` only reads the scops. -/
theorem lib_scop_check_compatible_scoplib_query {p : Ptr} {l : Scops (DataAt n)} {b : Bool} (h : Scops.check_compatible_scoplib c (libAt c e n).toLib l = .ok b) :
    Query (libScopsAt c e n p l) (scopCheckScoplib c p) b := scop_check_compatible_scoplib_query (lib_bodies c e n) h

end

end Osl.Mem
