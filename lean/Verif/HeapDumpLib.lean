import Verif.HeapDumpProps4
import Verif.HeapDumpDep
import Verif.HeapQueryLib
import Verif.HeapScoplibLib
/-!
# Displaying the data of the whole library in memory (C80)
-/

set_option linter.unusedSectionVars false

namespace Osl.Mem

open Osl.Ext

section

variable [Allocator]

/-! ## The kinds of data of the library -/

/-- The display function of an extension in memory (specification): it writes the text which `f` gives. -/
def KindDump {X : Type} {o : Ops X} (K : KindMem X o) (f : Option X → Nat → Out Str) (m : Ptr → Nat → M Str) : Prop :=
  ∀ p d level t, f d level = .ok t → Gives (optAt K.at_ p d) (m p level) t

theorem stringsDump_kind : KindDump stringsMem (fun x n => .ok (Dump.strings x n)) strDump := by
  intro p d level t h
  cases h
  have := strings_idump_memory (p := p) (s := d) level
  cases d <;> exact this

theorem bodyDump_kind : KindDump bodyMem (fun x n => .ok (Dump.body x n)) bodyDump := by
  intro p d level t h
  cases h
  exact body_idump_memory level

theorem relationDump_kind (c : Cfg) (e : Option Str) : KindDump (relationMem c e) (fun x n => Dump.relation c (NE.elems x) n) (relDump c) := by
  intro p d level t h
  have := relation_idump_memory (p := p) h
  cases d with
  | none => rw [show NE.elems (none : Option (NE Part)) = [] from rfl, relAt_nil_eq] at this; exact this
  | some x => exact this

theorem textualDump_kind : KindDump textualMem Dump.textual textualDump := fun _ _ _ _ h => textual_idump_memory h

theorem commentDump_kind : KindDump commentMem Dump.comment commentDump := fun _ _ _ _ h => comment_idump_memory h

theorem clayDump_kind : KindDump clayMem Dump.clay clayDump := fun _ _ _ _ h => clay_idump_memory h

theorem nullDump_kind : KindDump nullMem (fun x n => .ok (Dump.null x n)) nullDump := by
  intro p d level t h
  cases h
  exact null_idump_memory level

theorem scatinfosDump_kind : KindDump scatinfosMem (fun x n => .ok (Dump.scatinfos x n)) scatinfosDump := by
  intro p d level t h
  cases h
  exact scatinfos_idump_memory level

theorem scatnamesDump_kind : KindDump scatnamesMem (fun x n => .ok (Dump.scatnames x n)) scatnamesDump := by
  intro p d level t h
  cases h
  exact scatnames_idump_memory level

theorem arraysDump_kind : KindDump arraysMem (fun x n => .ok (Dump.arrays x n)) arraysDump := by
  intro p d level t h
  cases h
  exact arrays_idump_memory level

theorem coordinatesDump_kind : KindDump coordMem (fun x n => .ok (Dump.coordinates x n)) coordDump := by
  intro p d level t h
  cases h
  exact coordinates_idump_memory level

theorem extbodyDump_kind : KindDump extbodyMem (fun x n => .ok (Dump.extbody x n)) extbodyDump := by
  intro p d level t h
  cases h
  exact extbody_idump_memory level

theorem annotationDump_kind : KindDump annotationMem Dump.annotation annDump := fun _ _ _ _ h => annotation_idump_memory h

/-- The dependences as read: their pointers to statements are NULL, so only an empty list can be displayed. -/
theorem dependenceDump_kind (c : Cfg) (e : Option Str) (stmt : Ptr → Nat → M Str) :
    KindDump (dependenceMem c e) (fun x n => Dump.dependence (D := Empty) c (fun _ _ _ => .ub) ((NE.elems x).map fun d => ⟨d, none, none⟩) n) (depDump c stmt) := by
  intro p d level t h
  have h : Dump.dependence (D := Empty) c (fun _ _ _ => .ub) ((NE.elems d).map fun d => ⟨d, none, none⟩) level = .ok t := h
  cases hd : NE.elems d with
  | cons a l =>
    rw [hd] at h
    obtain ⟨u, h1, h⟩ := Out.bind_eq_ok.mp h
    exfalso
    rw [List.map_cons, Dump.nodes] at h1
    obtain ⟨v, h2, h1⟩ := Out.bind_eq_ok.mp h1
    cases h2
  | nil =>
    show Gives (optAt (fun p x => (depChain c).list p (NE.elems (some x))) p d) _ _
    rw [optAt_list]
    rw [hd] at h ⊢
    obtain ⟨u, h1, h⟩ := Out.bind_eq_ok.mp h
    simp only [Out.pure_eq, Out.ok.injEq] at h
    subst h
    exact dumpList_spec (N := depChain c) (l := []) (p := p) (last := Dump.blank (level + 1)) (sep := Dump.line (level + 1) ['V']) (g := fun _ => .ub)
      (head := oneHead level "|   osl_dependence_p".toList) (body := depDumpBody c stmt level) (hd := fun _ _ => [])
      (title_spec (N := depChain c) (l := []) (p := p) (level := level) (a := "+-- osl_dependence_p".toList) (b := "+-- NULL dependence".toList))
      (by intro a ha; cases ha) (by intro a ha; cases ha) h1

theorem loopDump_kind : KindDump loopMem (fun x n => Dump.loop (NE.elems x) n) loopDump := by
  intro p d level t h
  show Gives (optAt (fun p x => loopChain.list p (NE.elems (some x))) p d) _ _
  rw [optAt_list]
  exact loop_idump_memory h

theorem unrollDump_kind : KindDump unrollMem (fun x n => Dump.unroll (NE.elems x) n) unrollDump := by
  intro p d level t h
  show Gives (optAt (fun p x => unrollChain.list p (NE.elems (some x))) p d) _ _
  rw [optAt_list]
  exact unroll_idump_memory h

theorem regionDump_kind : KindDump regionMem (fun x n => Dump.region (NE.elems x) n) regionDump := by
  intro p d level t h
  show Gives (optAt (fun p x => regionChain.list p (NE.elems (some x))) p d) _ _
  rw [optAt_list]
  exact region_idump_memory h

theorem symbolsDump_kind {D : Type} {E : Env D} {O : DataMem D E} {F : Dump.Fn D} {fs : Nat → Ptr → Nat → M Str} (R : DataDumps O F fs) :
    KindDump (symbolsMem O defaultRegistry) (fun x n => Dump.symbols F (NE.elems x) n) (symDump fs) := by
  intro p d level t h
  show Gives (optAt (fun p x => (symChain O).list p (NE.elems (some x))) p d) _ _
  rw [optAt_list]
  exact symbols_idump_memory R h

/-! ## Any data -/

theorem lift_dump {S X : Type} {o : Ops X} {K : KindMem X o} {f : Option X → Nat → Out Str} {m : Ptr → Nat → M Str} (R : KindDump K f m) (k : Data.Kind S X)
    {at_ : Ptr → Data S → Assn} (hat : ∀ p x, at_ p (k.inj x) = K.at_ p x) (hk : ∀ d x, k.proj d = some x → d = k.inj x) {p : Ptr} {d : Option (Data S)} {level : Nat}
    {t : Str} (h : Dump.lift k f d level = .ok t) : Gives (optAt at_ p d) (m p level) t := by
  cases d with
  | none => exact R p none level t h
  | some d =>
    simp only [Dump.lift] at h
    cases hx : k.proj d with
    | none => rw [hx] at h; cases h
    | some x =>
      rw [hx] at h
      have := hk d x hx
      subst this
      simp only [optAt_some, hat]
      exact R p (some x) level t h

variable {S : Type} {so : Ops S} {c : Cfg} (e : Option Str) {sm : KindMem S so} {sym : Option S → Nat → Out Str} {symM : Ptr → Nat → M Str}

/-- C80: the function `idump` of the interface of some data displays the text of the function on values, and leaves the data as it was. -/
theorem data_dumps (hs : sm.nullOk = true) (stmt : Ptr → Nat → M Str) (sr : KindDump sm sym symM) :
    DataDumps (dataMem c e sm hs) (Dump.fns c sym) (extDumpFn c stmt symM) := by
  intro k p d level t h
  show Gives (optAt (dataAt c sm.at_) p d) _ _
  by_cases hk : k < 18
  · rcases (by omega : k < 17 ∨ k = 17) with hk | hk
    · rcases below17 hk with hk | hk | hk | hk | hk | hk | hk | hk | hk | hk | hk | hk | hk | hk | hk | hk | hk <;> subst hk
      · exact lift_dump stringsDump_kind Data.kStrings (fun _ _ => rfl) (fun d x hx => by cases d <;> cases hx <;> rfl) h
      · exact lift_dump bodyDump_kind Data.kBody (fun _ _ => rfl) (fun d x hx => by cases d <;> cases hx <;> rfl) h
      · exact lift_dump (relationDump_kind c e) Data.kRelation (fun _ _ => rfl) (fun d x hx => by cases d <;> cases hx <;> rfl) h
      · exact lift_dump textualDump_kind Data.kTextual (fun _ _ => rfl) (fun d x hx => by cases d <;> cases hx <;> rfl) h
      · exact lift_dump commentDump_kind Data.kComment (fun _ _ => rfl) (fun d x hx => by cases d <;> cases hx <;> rfl) h
      · exact lift_dump nullDump_kind Data.kNull (fun _ _ => rfl) (fun d x hx => by cases d <;> cases hx <;> rfl) h
      · exact lift_dump scatinfosDump_kind Data.kScatinfos (fun _ _ => rfl) (fun d x hx => by cases d <;> cases hx <;> rfl) h
      · exact lift_dump scatnamesDump_kind Data.kScatnames (fun _ _ => rfl) (fun d x hx => by cases d <;> cases hx <;> rfl) h
      · exact lift_dump arraysDump_kind Data.kArrays (fun _ _ => rfl) (fun d x hx => by cases d <;> cases hx <;> rfl) h
      · exact lift_dump coordinatesDump_kind Data.kCoordinates (fun _ _ => rfl) (fun d x hx => by cases d <;> cases hx <;> rfl) h
      · exact lift_dump clayDump_kind Data.kClay (fun _ _ => rfl) (fun d x hx => by cases d <;> cases hx <;> rfl) h
      · exact lift_dump (dependenceDump_kind c e stmt) Data.kDependence (fun _ _ => rfl) (fun d x hx => by cases d <;> cases hx <;> rfl) h
      · exact lift_dump sr Data.kSymbols (fun _ _ => rfl) (fun d x hx => by cases d <;> cases hx <;> rfl) h
      · exact lift_dump extbodyDump_kind Data.kExtbody (fun _ _ => rfl) (fun d x hx => by cases d <;> cases hx <;> rfl) h
      · exact lift_dump loopDump_kind Data.kLoop (fun _ _ => rfl) (fun d x hx => by cases d <;> cases hx <;> rfl) h
      · exact lift_dump unrollDump_kind Data.kUnroll (fun _ _ => rfl) (fun d x hx => by cases d <;> cases hx <;> rfl) h
      · exact lift_dump regionDump_kind Data.kRegion (fun _ _ => rfl) (fun d x hx => by cases d <;> cases hx <;> rfl) h
    · subst hk
      exact lift_dump annotationDump_kind Data.kAnnotation (fun _ _ => rfl) (fun d x hx => by cases d <;> cases hx <;> rfl) h
  · have : (Dump.table c sym)[k]? = none := by
      rw [List.getElem?_eq_none_iff]
      show 18 ≤ k
      omega
    simp only [Dump.fns, this] at h
    cases h

theorem noSymDump_kind : KindDump noSymMem (fun _ _ => .ub) noDump := fun _ _ _ _ h => by cases h

theorem data_dumpsAt (c : Cfg) (e : Option Str) : ∀ n, DataDumps (memAt c e n) (Dump.fnsAt c n) (dumpAt c n)
  | 0 => data_dumps e rfl noDump noSymDump_kind
  | n + 1 => data_dumps e rfl (stmtDump c (dumpAt c n)) (symbolsDump_kind (data_dumpsAt c e n))

/-- C80: the display functions of the extensions of the default registry, symbols being nested at any depth. -/
theorem lib_dumps (c : Cfg) (e : Option Str) : ∀ n, DataDumps (libMem c e n) (Dump.fnsAt c n) (dumpAt c n)
  | 0 => data_dumpsAt c e 0
  | n + 1 => data_dumpsAt c e (n + 1)

variable {n : Nat}

/-- C80: `osl_generic_idump` with the extensions of the default registry. -/
theorem lib_generic_idump_memory {p : Ptr} {l : GList (DataAt n)} {level : Nat} {t : Str} (h : Dump.generic (Dump.fnsAt c n) l level = .ok t) :
    Gives (glistAt (libMem c e n) p l) (genDump (dumpAt c n) p level) t := generic_idump_memory (lib_dumps c e n) h

/-- C80: `osl_statement_idump` with the extensions of the default registry. -/
theorem lib_statement_idump_memory {p : Ptr} {l : Stmts (DataAt n)} {level : Nat} {t : Str} (h : Dump.statement c (Dump.fnsAt c n) l level = .ok t) :
    Gives (libStmtsAt c e n p l) (stmtDump c (dumpAt c n) p level) t :=
  statement_idump_memory (L := (libAt c e n).toLib) (O := libMem c e n) (lib_dumps c e n) h

/-- C80: `osl_scop_idump` with the extensions of the default registry. -/
theorem lib_scop_idump_memory {p : Ptr} {l : Scops (DataAt n)} {level : Nat} {t : Str} (h : Dump.scop c (Dump.fnsAt c n) l level = .ok t) :
    Gives (libScopsAt c e n p l) (scopDump c (dumpAt c n) p level) t :=
  scop_idump_memory (L := (libAt c e n).toLib) (O := libMem c e n) (lib_dumps c e n) h

/-- C80: `osl_scop_dump` with the extensions of the default registry: it writes the text of the function on values at level 0; the scops, and the rest of memory, are as before. -/
theorem lib_scop_dump_memory {p : Ptr} {l : Scops (DataAt n)} {t : Str} (h : Dump.scop c (Dump.fnsAt c n) l 0 = .ok t) :
    Triple (libScopsAt c e n p l) (dump0 (scopDump c (dumpAt c n)) p) (fun s => pur (s = t) ∗ libScopsAt c e n p l) := lib_scop_idump_memory e h

end

/-! ## Cases -/

set_option maxRecDepth 20000 in
/-- The scop of `ReadScopExample` in memory is displayed: the text is the one of the function on values, and the memory holds it as before. -/
example : ∃ (h : Heap) (p : Ptr) (t : Str) (h' : Heap), Dump.scop Cfg.std (Dump.fnsAt Cfg.std 0) [Data.handScop] 0 = .ok t ∧
    dump0 (scopDump Cfg.std (@dumpAt bumpAlloc Cfg.std 0)) p h = .ok (t, h') ∧ @libScopsAt bumpAlloc Cfg.std (some "64".toList) 0 p [Data.handScop] h'.get := by
  obtain ⟨h, p, hh⟩ := libScopsAt_exists Cfg.std (some "64".toList) 0 (l := [Data.handScop]) (all_cons handScop_fine all_nil)
  obtain ⟨t, ht⟩ : ∃ t, Dump.scop Cfg.std (Dump.fnsAt Cfg.std 0) [Data.handScop] 0 = .ok t := Data.ok_of (p := fun _ => true) (by decide +kernel)
  obtain ⟨r, h', hr, hh'⟩ := @lib_scop_dump_memory bumpAlloc Cfg.std (some "64".toList) 0 p [Data.handScop] _ ht emp h (by rw [sep_emp]; exact hh)
  rw [sep_emp] at hh'
  obtain ⟨hrt, hk⟩ := pur_sep_iff.mp hh'
  subst hrt
  exact ⟨h, p, r, h', ht, hr, hk⟩

section

local instance dumpExampleAlloc : Allocator := bumpAlloc

/-- Two empty statements, and a dependence from the second to the first. -/
def buildDependence : M (Ptr × Ptr) := do
  let b ← stmtMalloc
  let a ← alloc (.ptrs [0, 0, 0, 0, b])
  let d ← alloc (.node [1, 0, 2, 3, 1, 1, -1, -1, -1, -1, -1, -1, -1, -1] [0, b, a, 0, 0, 0, 0])
  pure (d, a)

/-- The dependence of `buildDependence`. -/
def exDependence : Dep :=
  { label_source := 1, label_target := 0, ref_source := 2, ref_target := 3, depth := 1, type := 1, domain := [], src_out_dom := -1, src_out_acc := -1, tgt_out_dom := -1,
    tgt_out_acc := -1, src_loc_dom := -1, src_loc_acc := -1, tgt_loc_dom := -1, tgt_loc_acc := -1 }

/-- An empty statement. -/
def exStatement : Stmt (DataAt 0) := { domain := [], scattering := [], access := [], extension := [] }

set_option maxRecDepth 20000 in
/-- A run: the dependence and its two statements are displayed; the target, which is the first of a list of two, is displayed alone, and it is still followed by the source: freeing
the list frees both. -/
example : (leavesText (Dump.dependence Cfg.std (Dump.fnsAt Cfg.std 0) [⟨exDependence, some exStatement, some exStatement⟩] 1)).isSome = true ∧
    runLeaves (do
      let da ← buildDependence
      let t ← depDump Cfg.std (stmtDump Cfg.std (dumpAt Cfg.std 0)) da.1 1
      free da.1
      stmtFree Cfg.std (fnsAt Cfg.std 0) da.2
      pure t) = leavesText (Dump.dependence Cfg.std (Dump.fnsAt Cfg.std 0) [⟨exDependence, some exStatement, some exStatement⟩] 1) := by decide +kernel

end

end Osl.Mem
