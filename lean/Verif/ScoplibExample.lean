import Verif.ScoplibLossless2
import Verif.ScopPrintDefault
/-!
# SCoPLib: an example and findings (C64, C65, C66, C67)
-/

namespace Osl

open Rel (IsMatrix isMatrix_iff partTable accessTable relTable)

/-- A text and the lines it is made of, checked by evaluation. -/
theorem says_of (ls : List Str) {t : Str} {rows : List (List Str)} (h : (ls.all (fun l => !l.contains '\n') && decide (t = Util.unlines ls) && decide (rowsOf ls = rows)) = true) :
    Says t rows := by
  simp only [Bool.and_eq_true, List.all_eq_true, decide_eq_true_eq] at h
  refine ⟨ls, ?_, h.1.2, h.2⟩
  intro l hl hm
  have := h.1.1 l hl
  simp [hm] at this

namespace Data

open Ext (Ops)

variable {S : Type}

/-- The library as the SCoPLib printer sees it: the data under the URI `arrays` are printed by the sprint function of the arrays (source/generic.c:209-211). -/
def scoplib (c : Cfg) (e : Option Str) (sym : Ops S) : ScoplibLib (Data S) :=
  { lib c e sym with arraysText := fun d => match kArrays.proj d with | some a => Ext.Arrays.sprint (some a) | none => .ub }

/-- C66, with the default registry, for the scops of C60 which the check accepts. -/
theorem scoplib_default_says {c : Cfg} (hv : c.Valid) (hnd : c.ndebug = false) {e : Option Str} {sym : Ops S} {PS : S → Prop} (hS : ∀ s, PS s → sym.Back s) {prec : Int}
    {release : Str} (hrel : NoNL release) {s : Scop (Data S)} (hp : PlainScop c e sym PS prec s) (hs : PrintScop c e sym s) {language : Str} {ps : List Str}
    {l : List (Stmt (Data S) × Option (List Str × Str))} {options : List (List Str)} (h : Scops.ScoplibPrints (scoplib c e sym) s language ps l options)
    (hc : Scops.check_compatible_scoplib c (lib c e sym).toLib [s] = .ok true) :
    ∃ t, Scops.print_scoplib c (scoplib c e sym) release [s] = .ok t ∧ Says t (Scops.scoplibTable language s ps l options) := by
  have hpr := hs.printable hS hp
  have hok : Scops.integrity_check c (lib c e sym).toLib [s] = .ok true := by
    unfold Scops.check_compatible_scoplib at hc
    split at hc
    · assumption
    · exact hc
  obtain ⟨b, e1, hb⟩ := Scops.scop_integrity_check_iff hv hnd (L := (lib c e sym).toLib) (x := [s]) (by intro x hx; simp at hx; subst hx; exact hpr.checkable.1)
    (by intro x hx; simp at hx; subst hx; exact hpr.checkable.2.1) (by intro x hx; simp at hx; subst hx; exact hpr.checkable.2.2)
  rw [hok] at e1
  injection e1 with e1
  exact Scops.scop_scoplib_says hv hnd (L := scoplib c e sym) hrel (hpr.prints (hb.mp e1.symm s (by simp))) ⟨s.context, by simp [Scops.rels], hpr.context⟩ h hc

/-- The options of the example. -/
def exOptions : List (List Str) := [["<arrays>".toList], ["2".toList], ["1".toList, "A".toList], ["5".toList, "B".toList], ["</arrays>".toList]]

/-- The body of the statements of the example. -/
def exBodyRow : Option (List Str × Str) := some (["i".toList], "A[i] = i + 1;".toList)

theorem exStmtM_scoplib : Stmts.ScoplibPrints exStmtM where
  domain := by decide
  scattering := by decide
  uniform := by
    intro r hr
    simp only [Stmts.rels, exStmtM, exStmtL, List.mem_cons, List.not_mem_nil, or_false] at hr
    rcases hr with rfl | rfl | rfl <;> decide
  rows := by
    intro h
    exact absurd h (by simp [Stmts.fakeOf, exStmtM, exStmtL, Rel.exDomain])

theorem exScopM_scoplib : Scops.ScoplibPrints (scoplib Cfg.std (some "64".toList) exSym) exScopM "C".toList ["N".toList, "M".toList] [(exStmtM, exBodyRow), (exStmtM, exBodyRow)] exOptions where
  language := ⟨rfl, by decide, by decide, by decide⟩
  context := by decide
  statements := rfl
  each := by intro x hx; simp at hx; subst hx; exact exStmtM_scoplib
  bodies := by
    intro x hx
    simp at hx; subst hx
    exact ⟨oneBody ["i".toList] "A[i] = i + 1;".toList, rfl, exBodyM_textable⟩
  params := .inr ⟨exNames ["N", "M"], rfl, by decide, by
    intro w hw
    simp only [List.mem_cons, List.not_mem_nil, or_false] at hw
    rcases hw with rfl | rfl <;> exact ⟨by decide, by decide, by decide⟩⟩
  arrays := by
    intro d a hd ha
    have hd' : GList.lookup exScopM.extension URI_ARRAYS = some exArrays := rfl
    rw [hd'] at hd
    injection hd with hd
    subst hd
    have ha' : (scoplib Cfg.std (some "64".toList) exSym).arraysNames exArrays = .ok (some ⟨some ["A".toList, "Dummy2".toList, "Dummy3".toList, "Dummy4".toList, "B".toList]⟩) := by decide +kernel
    rw [ha'] at ha
    injection ha with ha
    subst ha
    intro x hx
    injection hx with hx
    subst hx
    simp only [Strings.words, Option.getD_some]
    unfold NoNL
    decide
  options := ⟨_, rfl, says_of ["# =============================================== Options".toList, "<arrays>".toList, "# Number of arrays".toList, "2".toList,
    "# Mapping array-identifiers/array-names".toList, "1 A".toList, "5 B".toList, "</arrays>".toList] (by decide +kernel)⟩

theorem exScopM_compatible : Scops.check_compatible_scoplib Cfg.std (lib Cfg.std (some "64".toList) exSym).toLib [exScopM] = .ok true := by decide +kernel

/-- All the hypotheses are met by a scop with a union of domains, given names, an array access and bodies. -/
example : ∃ t, Scops.print_scoplib Cfg.std (scoplib Cfg.std (some "64".toList) exSym) "0.9.1".toList [exScopM] = .ok t ∧
    Says t (Scops.scoplibTable "C".toList exScopM ["N".toList, "M".toList] [(exStmtM, exBodyRow), (exStmtM, exBodyRow)] exOptions) :=
  scoplib_default_says (by decide) rfl (fun _ => Ext.Symbol.Plain.back) (by unfold NoNL; decide) exScopM_plain exScopM_print exScopM_scoplib exScopM_compatible

/-- The table of its statements: two parts for the domain, the scattering, no read and one write. -/
example : Stmts.scoplibTable exStmtM exBodyRow = ([["2"], ["1"], ["2", "4"], ["1", "1", "0", "0"], ["1", "-1", "1", "0"], ["2"], ["1", "4"], ["0", "1", "-1", "0"],
    ["1"], ["2", "4"], ["0", "0", "0", "0"], ["0", "1", "0", "0"],
    ["1"], ["0", "0"], ["1", "4"], ["5", "1", "0", "0"], ["1"], ["i"], ["A[i]", "=", "i", "+", "1;"]].map fun r => r.map String.toList) := by decide +kernel

end Data

/-! ## The hypotheses are met -/

open Rel (exDomain exAccess exAccess_valid exDomain_valid Recoverable ArrayAccess)
open Stmts (exScatt exScatt_valid)

example : IsMatrix (partTable exDomain false) ∧ IsMatrix (partTable exScatt false) :=
  ⟨Rel.scoplib_size_correct exDomain_valid (by decide), Rel.scoplib_size_correct exScatt_valid (by decide)⟩

theorem exScatt_negIdentity : Scops.NegIdentity exScatt := by
  intro i hi j hj
  have hi' : i < 2 := hi
  have hj' : j < 2 := by have : exScatt.nb_output_dims = 2 := rfl; omega
  match i, j, hi', hj' with
  | 0, 0, _, _ => rfl
  | 0, 1, _, _ => rfl
  | 1, 0, _, _ => rfl
  | 1, 1, _, _ => rfl

/-- The scattering of the example is recoverable, so are its domain and its access. -/
theorem exScatt_recoverable : Recoverable Cfg.std TYPE_SCATTERING exScatt := ⟨exScatt_valid, by decide, rfl, by decide, by decide, fun _ => ⟨rfl, exScatt_negIdentity⟩⟩

theorem exDomain_recoverable : Recoverable Cfg.std TYPE_DOMAIN exDomain := ⟨exDomain_valid, by decide, rfl, by decide, by decide, fun h => absurd h (by decide)⟩

theorem exAccess_array : ArrayAccess Cfg.std exAccess where
  valid := exAccess_valid
  dims := by decide
  rows := by decide
  outputs := rfl
  array := ⟨5, by decide, rfl⟩
  equalities := by decide
  identity := by
    intro i hi j hj
    have hi' : i < 2 := hi
    have hj' : j < 2 := by have : exAccess.nb_output_dims = 2 := rfl; omega
    match i, j, hi', hj' with
    | 0, 0, _, _ => rfl
    | 0, 1, _, _ => rfl
    | 1, 0, _, _ => rfl
    | 1, 1, _, _ => rfl

/-- The check accepts the statements of the example, as `scoplib_check_iff` says. -/
example : ∀ s ∈ Data.exScopM.statement, Scops.ScoplibStmt s :=
  (Scops.scoplib_check_iff (c := Cfg.std) (k := 64) (L := (Data.lib Cfg.std (some "64".toList) Data.exSym).toLib) (x := Data.exScopM) (by decide +kernel) (by
    intro s hs
    simp [Data.exScopM] at hs; subst hs
    exact ⟨exScatt, rfl, rfl, exScatt_valid, by decide⟩)).1.mp Data.exScopM_compatible

/-- The accesses of the example are announced. -/
example : IsMatrix (RList.announced true TYPE_WRITE [[exAccess], [exAccess]] :: RList.accessesTable true TYPE_WRITE [[exAccess], [exAccess]]) :=
  RList.scoplib_access_size_correct (c := Cfg.std) (k := 4) (.inr rfl) (by intro r hr; simp at hr; subst hr; intro p hp; simp at hp; subst hp; exact exAccess_valid)
    (by intro r hr; simp at hr; subst hr; intro p hp; simp at hp; subst hp; decide) (by intro r hr _; simp at hr; subst hr; exact ⟨_, rfl, by decide, by decide⟩)

/-! ## Findings -/

/-- Finding (C64): a statement whose domain has an iterator but no constraint, and whose scattering has one row, gets a fake iterator besides its own: the
matrix printed for its domain announces five columns and has a row of four entries. -/
theorem scoplib_fake_domain_violates : partTable { exDomain with nb_rows := 0, m := [] } true = [[1, 5], [0, 1, 0, 0]] := by decide

/-- Finding (C64): a scattering of one row with two output dimensions and a fake iterator announces five columns and has two rows of six entries. -/
theorem scoplib_fake_scattering_violates : partTable { exScatt with nb_rows := 1, m := [[0, -1, 0, 1, 0, 0]] } true = [[3, 5], [0, 1, 0, 0, 0], [0, 1, 0, 0, 0, 0], [0, 0, 0, 0, 0, 0]] := by
  decide

/-- Finding (C64): with a fake iterator, the loop on the rows of a scattering never ends if a part has more than three rows. -/
theorem scoplib_fake_union_violates : Rel.spprint_scoplib Cfg.std [{ exScatt with nb_rows := 1, m := [[0, -1, 0, 1, 0, 0]] },
    { exScatt with nb_rows := 4, m := List.replicate 4 [0, -1, 0, 1, 0, 0] }] none false true = .ub := by decide +kernel

/-- Finding (C65): a may-write access is not written as an access: the size announces one row, and it is followed by another size and two rows. -/
theorem scoplib_may_write_violates : RList.accessesTables false [[{ exAccess with type := TYPE_MAY_WRITE }]] =
    [[0, 0], [0, 0], [1, 4], [2, 4], [0, 0, 0, 5], [0, 1, 0, 0]] := by decide

/-- Finding (C65): the first part of an access only is counted: one row is announced for a union of two accesses, the number of parts is written as a row, and two rows follow. -/
theorem scoplib_access_union_violates : RList.accessesTables false [[exAccess, exAccess]] = [[0, 0], [1, 4], [2], [5, 1, 0, 0], [5, 1, 0, 0]] := by decide

/-- Finding (C65): the columns announced are those of the last access: here an access with a local dimension comes first. -/
theorem scoplib_access_locals_violates : RList.accessesTables false [[{ exAccess with nb_columns := 7, nb_local_dims := 1, m := [[0, -1, 0, 0, 0, 0, 5], [0, 0, -1, 1, 2, 0, 0]] }], [exAccess]] =
    [[0, 0], [2, 4], [5, 1, 2, 0, 0], [5, 1, 0, 0]] := by decide

/-- Finding (C66): a statement without scattering passes the integrity check, and the check of compatibility dereferences a NULL pointer; so does a NULL scop. -/
theorem scoplib_check_null_violates :
    Scops.integrity_check Cfg.std (Data.lib Cfg.std (some "64".toList) Data.exSym).toLib [{ Data.exScopM with statement := [{ Data.exStmtM with scattering := [] }] }] = .ok true ∧
    Scops.check_compatible_scoplib Cfg.std (Data.lib Cfg.std (some "64".toList) Data.exSym).toLib [{ Data.exScopM with statement := [{ Data.exStmtM with scattering := [] }] }] = .ub ∧
    Scops.check_compatible_scoplib Cfg.std (Data.lib Cfg.std (some "64".toList) Data.exSym).toLib [] = .ub := by decide +kernel

/-- Finding (C66): the check looks at the first part of a scattering only: a union whose second part has local dimensions and other output columns is accepted. -/
theorem scoplib_check_union_violates :
    Scops.check_compatible_scoplib Cfg.std (Data.lib Cfg.std (some "64".toList) Data.exSym).toLib [{ Data.exScopM with statement := [{ Data.exStmtM with
      scattering := [exScatt, { exScatt with nb_rows := 1, nb_columns := 7, nb_local_dims := 1, m := [[0, 3, 0, 0, 0, 0, 0]] }] }] }] = .ok true := by decide +kernel

/-- Finding (C67): the check does not look at the accesses: two different accesses (2 x = i and x = i) are accepted and written as the same rows. -/
theorem scoplib_access_lost_violates :
    Scops.check_compatible_scoplib Cfg.std (Data.lib Cfg.std (some "64".toList) Data.exSym).toLib [{ Data.exScopM with statement := [{ Data.exStmtM with
      access := [[{ exAccess with m := [[0, -1, 0, 0, 0, 5], [0, 0, -2, 1, 0, 0]] }]] }] }] = .ok true ∧
    accessTable { exAccess with m := [[0, -1, 0, 0, 0, 5], [0, 0, -2, 1, 0, 0]] } false = accessTable exAccess false := by decide +kernel

/-- Finding (C67): the access to a scalar is written as the access to the first element of an array. -/
theorem scoplib_scalar_lost_violates :
    accessTable { exAccess with nb_rows := 1, nb_columns := 5, nb_output_dims := 1, m := [[0, -1, 0, 0, 5]] } false =
    accessTable { exAccess with m := [[0, -1, 0, 0, 0, 5], [0, 0, -1, 0, 0, 0]] } false := by decide

end Osl
