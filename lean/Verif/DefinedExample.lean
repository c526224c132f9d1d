import Verif.DefinedHistory
import Verif.LibraryExample
import Verif.ScoplibExample
/-!
# C83: a client which reads a file

A client which reads a file of two scops with symbols, arrays, coordinates, comments and bodies, displays them, checks them, copies them, and frees all, meets the preconditions.  Without them
the calls are not defined.
-/

namespace Osl.Client

open Osl.Mem Osl.Ext Osl.Data

/-- The client; `t` is the file. -/
def reads (t : Str) : List Call := [.scopRead 0 t, .scopDump 0, .scopClone 1 0, .scopFree 0, .scopFree 1]

/-! ## The extensions of the file -/

theorem own_ext {S : Type} {nosym : Prop} {good : Data S → Prop} {d : Data S} (h : good d) : Own nosym good (Data.ext d) := ⟨d.index, index_lt d, rfl, rfl, h⟩

theorem full_ext {S : Type} {good : Data S → Prop} {d : Data S} (h : good d) : Full good (Data.ext d) := ⟨d, rfl, rfl, h⟩

/-- A property of lists of extensions holds for all those of the scop if it holds for its data. -/
theorem each_ext {P : GList (DataAt 1) → Prop} {Q : exData → Prop} (hP : ∀ l : List exData, (∀ d ∈ l, Q d) → P (l.map Data.ext))
    (h1 : Q (.strings (exNames ["N", "M"]))) (h2 : Q exArrays) (h3 : Q exCoordinates) (h4 : Q (.symbols exSymbols)) (h5 : Q (.comment ⟨some "a comment".toList⟩)) (h6 : Q exBody) : EachExt P exScopL := by
  refine ⟨hP [.strings (exNames ["N", "M"])] ?_, hP [exArrays, exCoordinates, .symbols exSymbols] ?_, ?_⟩
  · intro d hd
    rw [List.mem_singleton.mp hd]
    exact h1
  · intro d hd
    simp only [List.mem_cons, List.not_mem_nil, or_false] at hd
    rcases hd with rfl | rfl | rfl
    · exact h2
    · exact h3
    · exact h4
  · intro a ha
    have : a = exStmtL := by
      rcases List.mem_cons.mp ha with h | h
      · exact h
      · exact List.mem_singleton.mp h
    subst this
    refine hP [.comment ⟨some "a comment".toList⟩, exBody] ?_
    intro d hd
    simp only [List.mem_cons, List.not_mem_nil, or_false] at hd
    rcases hd with rfl | rfl
    · exact h5
    · exact h6

theorem symbols_ex {P : GList (DataAt 0) → Prop} (h : ∀ l ∈ [["A"], ["double"], ["global"], ["N", "M"]], P (exPart0 l)) :
    ∀ y ∈ NE.elems (some exSymbols), P y.identifier ∧ P y.datatype ∧ P y.scope ∧ P y.extent := by
  intro y hy
  obtain rfl : y = _ := List.mem_singleton.mp hy
  exact ⟨h _ (by simp), h _ (by simp), h _ (by simp), h _ (by simp)⟩

theorem exScopL_copyable : EachExt (Copyable 1) exScopL := by
  refine each_ext (Q := Data.Shaped (fun s : NE (Symbol (DataAt 0)) => ∀ y ∈ NE.elems (some s), Copyable 0 y.identifier ∧ Copyable 0 y.datatype ∧ Copyable 0 y.scope ∧ Copyable 0 y.extent))
    (fun l h g hg => ?_) trivial trivial trivial ?_ trivial trivial
  · obtain ⟨d, h1, rfl⟩ := List.mem_map.mp hg
    exact own_ext (h d h1)
  · refine symbols_ex (fun l _ g hg => ?_)
    rw [List.mem_singleton.mp hg]
    exact own_ext (S := _root_.Empty) trivial

theorem exScopL_matchable : EachExt (Matchable 1) exScopL := by
  refine each_ext (Q := Data.Comparable (fun s : NE (Symbol (DataAt 0)) => ∀ y ∈ NE.elems (some s), Matchable 0 y.identifier ∧ Matchable 0 y.datatype ∧ Matchable 0 y.scope ∧ Matchable 0 y.extent))
    (fun l h g hg => ?_) trivial trivial (fun e => by cases e) ?_ (fun e => by cases e) trivial
  · obtain ⟨d, h1, rfl⟩ := List.mem_map.mp hg
    exact full_ext (h d h1)
  · refine symbols_ex (fun l _ g hg => ?_)
    rw [List.mem_singleton.mp hg]
    exact full_ext (S := _root_.Empty) trivial

theorem exScopL_showable : EachExt (Showable 1) exScopL := by
  refine each_ext (Q := Data.Displayable (fun s : NE (Symbol (DataAt 0)) => ∀ y ∈ NE.elems (some s), Showable 0 y.identifier ∧ Showable 0 y.datatype ∧ Showable 0 y.scope ∧ Showable 0 y.extent))
    (fun l h g hg => ?_) trivial trivial trivial ?_ (fun e => by cases e) trivial
  · obtain ⟨d, h1, rfl⟩ := List.mem_map.mp hg
    exact own_ext (h d h1)
  · refine symbols_ex (fun l _ g hg => ?_)
    rw [List.mem_singleton.mp hg]
    exact own_ext (S := _root_.Empty) trivial

theorem fit_words {l : List Str} (h : ∀ w ∈ l, w.length < MAX_STRING) : Strings.Fit (some ⟨some l⟩) := by
  intro x hx w hw
  cases hx
  exact h w hw

theorem exScopL_textful : EachExt (Textful Cfg.std 1) exScopL := by
  refine each_ext (Q := Data.Texted Cfg.std (fun s : NE (Symbol (DataAt 0)) => ∀ y ∈ NE.elems (some s), Textful Cfg.std 0 y.identifier ∧ Textful Cfg.std 0 y.datatype ∧ Textful Cfg.std 0 y.scope ∧
    Textful Cfg.std 0 y.extent)) (fun l h g hg => ?_) (fit_words (by decide)) ?_ ?_ ?_ ⟨_, rfl, by decide⟩ ⟨fit_words (by decide), fit_words (by decide)⟩
  · obtain ⟨d, h1, rfl⟩ := List.mem_map.mp hg
    exact full_ext (h d h1)
  · show ∀ p ∈ [((1 : Int), "A".toList), (5, "B".toList)], fits 32 p.1 ∧ p.2.length + 13 < MAX_STRING
    unfold fits
    decide
  · refine ⟨⟨_, rfl, by decide⟩, ?_⟩
    unfold fits
    decide
  · refine symbols_ex (fun l hl g hg => ?_)
    rw [List.mem_singleton.mp hg]
    refine full_ext (S := _root_.Empty) (fit_words ?_)
    clear hg
    revert l
    decide

/-! ## The calls -/

theorem exScopL_short : ∀ r ∈ Scops.rels exScopL, Rel.Short r := by
  unfold Rel.Short
  decide +kernel

theorem on1_ok {n : Nat} {k : Ty} {x : Nat} {f : Value n k → Out (Value n k × Obs)} {σ : State n} {v : Value n k} (hx : σ[x]? = some ⟨k, v⟩) {r : State n × Obs} (h : on1 k x f σ = .ok r) :
    ∃ u, f v = .ok u ∧ r.1 = σ.set x ⟨k, u.1⟩ := by
  unfold on1 at h
  rw [get_of hx, Out.ok_bind] at h
  obtain ⟨u, h1, h⟩ := Out.bind_eq_ok.mp h
  injection h with h
  exact ⟨u, h1, by rw [← h]⟩

theorem on2_ok {n : Nat} {k j : Ty} {x y : Nat} {f : Value n k → Value n j → Out (Value n k × Value n j × Obs)} {σ : State n} {v : Value n k} {w : Value n j} (hxy : x ≠ y)
    (hx : σ[x]? = some ⟨k, v⟩) (hy : σ[y]? = some ⟨j, w⟩) {r : State n × Obs} (h : on2 k x j y f σ = .ok r) : ∃ u, f v w = .ok u ∧ r.1 = (σ.set x ⟨k, u.1⟩).set y ⟨j, u.2.1⟩ := by
  unfold on2 at h
  rw [if_neg hxy, get_of hx, get_of hy, Out.ok_bind, Out.ok_bind] at h
  obtain ⟨u, h1, h⟩ := Out.bind_eq_ok.mp h
  injection h with h
  exact ⟨u, h1, by rw [← h]⟩

/-- The file of the two scops. -/
theorem ex_written : ∃ t, Scops.Written Cfg.std (some "64".toList) 1 t ∧ Scops.read Cfg.std (libAt Cfg.std (some "64".toList) 1) (some "64".toList) defaultRegistry t = .ok [exScopL, exScopL] := by
  obtain ⟨t, ht⟩ := ok_of exScopL_printed
  have hl := Rel.shortLines_of (holds_of exScopL_printed ht)
  have hx : ∀ x ∈ [exScopL, exScopL], x = exScopL := by
    intro x hx
    rcases List.mem_cons.mp hx with h | h
    · exact h
    · exact List.mem_singleton.mp h
  exact ⟨t, ⟨"0.9.1".toList, [exScopL, exScopL], by decide, fun x h => hx x h ▸ exScopL_plain, fun x h => hx x h ▸ plain_full exScopL_plain, ht, hl⟩,
    scop_default_text_symbols (by decide) (fun x h => hx x h ▸ exScopL_plain) ht hl⟩

/-- The client meets the preconditions. -/
theorem reads_meets {t : Str} (hw : Scops.Written Cfg.std (some "64".toList) 1 t)
    (hr : Scops.read Cfg.std (libAt Cfg.std (some "64".toList) 1) (some "64".toList) defaultRegistry t = .ok [exScopL, exScopL]) :
    Meets Cfg.std (some "64".toList) [] (reads t) (nulls 1 [.scop, .scop]) := by
  have two : ∀ {P : Scop exData → Prop}, P exScopL → ∀ x ∈ [exScopL, exScopL], P x := by
    intro P hP x hx
    rcases List.mem_cons.mp hx with h | h
    · rw [h]; exact hP
    · rw [List.mem_singleton.mp h]; exact hP
  refine ⟨⟨⟨_, rfl, rfl⟩, hw⟩, fun r h => ?_⟩
  obtain ⟨u, h1, h2⟩ := on1_ok (k := .scop) (x := 0) (v := ([] : Scops (DataAt 1))) rfl h
  have hu : u.1 = [exScopL, exScopL] := by
    have h1 : (Scops.read Cfg.std (libAt Cfg.std (some "64".toList) 1) (some "64".toList) defaultRegistry t >>= fun r => Out.ok (r, Obs.none)) = .ok u := h1
    rw [hr] at h1
    injection h1 with h1
    rw [← h1]
    rfl
  rw [hu] at h2
  rw [h2]
  clear h h1 h2 hu
  refine ⟨⟨[exScopL, exScopL], rfl, two ⟨exScopL_showable, (fun e => by cases e), ?_, exScopL_short⟩⟩, fun r h => ?_⟩
  · intro i hi
    obtain ⟨j, h3, _, h4⟩ := Data.registry_get (k := 0) (by decide)
    have : some i = some j := by rw [← hi, ← h3]; rfl
    injection this with this
    rw [this]
    exact h4
  obtain ⟨u, h1, h2⟩ := on1_ok (k := .scop) (x := 0) (v := ([exScopL, exScopL] : Scops (DataAt 1))) rfl h
  obtain ⟨o, _, h1⟩ := Out.bind_eq_ok.mp h1
  injection h1 with h1
  rw [← h1] at h2
  rw [h2]
  clear h h1 h2
  refine ⟨⟨by decide, [], [exScopL, exScopL], rfl, rfl, rfl, two exScopL_copyable⟩, fun r h => ?_⟩
  obtain ⟨u, _, h2⟩ := on2_ok (k := .scop) (j := .scop) (x := 1) (y := 0) (v := ([] : Scops (DataAt 1))) (w := ([exScopL, exScopL] : Scops (DataAt 1))) (by decide) rfl rfl h
  rw [h2]
  refine ⟨⟨_, rfl, trivial⟩, fun r h => ?_⟩
  obtain ⟨v, _, h3⟩ := on1_ok (k := .scop) (x := 0) (v := u.2.1) rfl h
  rw [h3]
  exact ⟨⟨_, rfl, trivial⟩, fun _ _ => trivial⟩

/-- So it is executed in memory without a fault, or the library stops with an error. -/
example [Allocator] : ∃ t, runs Cfg.std (some "64".toList) [] 1 (reads t) (nulls 1 [.scop, .scop]) = .err ∨ ∀ m : Heap, ∃ obs ps m', execs Cfg.std (some "64".toList) [] 1 (reads t) [0, 0] m = .ok ((ps, obs), m') := by
  obtain ⟨t, hw, hr⟩ := ex_written
  refine ⟨t, ?_⟩
  rcases history_safe (c := Cfg.std) (by decide) rfl (reads_meets hw hr) with h | ⟨τ, obs, _, _, h4⟩
  · exact .inl h
  · refine .inr (fun m => ?_)
    obtain ⟨ps, m', h⟩ := (h4 m).1
    exact ⟨obs, ps, m', h⟩

/-! ## A client which writes the scop in both formats -/

/-- The client; `t` is the file. -/
def writes (t : Str) : List Call := [.scopRead 0 t, .scopPrint 0, .scopPrintScoplib 0, .scopFree 0]

theorem exStmtM_textful : Textful Cfg.std 1 exStmtM.extension := by
  intro g hg
  have hg := (List.mem_cons.mp hg).imp_right List.mem_singleton.mp
  rcases hg with rfl | rfl
  · exact full_ext (S := NE (Symbol (DataAt 0))) ⟨_, rfl, by decide⟩
  · exact full_ext (S := NE (Symbol (DataAt 0))) ⟨fit_words (by decide), fit_words (by decide)⟩

theorem exScopM_prints : Scops.Prints Cfg.std (libAt Cfg.std (some "64".toList) 1) exScopM := by
  have hpr := exScopM_print.printable (fun _ => Symbol.Plain.back) exScopM_plain
  have hok : Scops.integrity_check Cfg.std (lib Cfg.std (some "64".toList) exSym).toLib [exScopM] = .ok true := by decide +kernel
  obtain ⟨b, e1, hb⟩ := Scops.scop_integrity_check_iff (c := Cfg.std) (by decide) rfl (L := (lib Cfg.std (some "64".toList) exSym).toLib) (x := [exScopM])
    (by intro x hx; simp at hx; subst hx; exact hpr.checkable.1) (by intro x hx; simp at hx; subst hx; exact hpr.checkable.2.1) (by intro x hx; simp at hx; subst hx; exact hpr.checkable.2.2)
  rw [hok] at e1
  injection e1 with e1
  exact hpr.prints (hb.mp e1.symm exScopM (by simp))

theorem exScopM_text : ScopText (n := 1) Cfg.std (some "64".toList) exScopM := by
  have h := exScopM_prints
  refine ⟨h.context, fun a ha => ⟨(h.statement a ha).rels, (h.statement a ha).iters, ?_⟩, exScopL_textful.1, exScopL_textful.2.1, h.params, h.arrays, h.sizes⟩
  have : a = exStmtM := by
    rcases List.mem_cons.mp ha with h | h
    · exact h
    · exact List.mem_singleton.mp h
  rw [this]
  exact exStmtM_textful

theorem exScopM_related : ∃ r ∈ Scops.rels exScopM, r ≠ [] := by decide

theorem exStmtM_bodied : Bodied 1 exStmtM.extension := by
  intro g hg i hi hu d hd
  have hg := (List.mem_cons.mp hg).imp_right List.mem_singleton.mp
  rcases hg with rfl | rfl
  · exfalso
    revert hu
    have hi : defaultRegistry[4]? = some i := hi
    have : some i = defaultRegistry[4]? := hi.symm
    injection this with this
    rw [this]
    decide
  · injection hd with hd
    subst hd
    exact ⟨_, rfl⟩

theorem exScopM_scoplibText : ScoplibText (n := 1) Cfg.std (some "64".toList) [exScopM] := by
  have hs : ∀ a ∈ exScopM.statement, a = exStmtM := by
    intro a ha
    rcases List.mem_cons.mp ha with h | h
    · exact h
    · exact List.mem_singleton.mp h
  refine ⟨fun s h => ?_, fun s h => ?_, fun _ s h => ?_⟩
  · rw [List.mem_singleton.mp h]
    refine ⟨by unfold Rel.Small fits; decide, fun a ha => ?_⟩
    rw [hs a ha]
    exact ⟨⟨by unfold Rel.Small fits; decide, by unfold Rel.Small fits; decide, by unfold Rel.Small fits; decide⟩, exStmtM_bodied⟩
  · injection h with h
    subst h
    refine ⟨64, fun a ha => ?_⟩
    rw [hs a ha]
    exact ⟨_, _, rfl, by decide, by decide⟩
  · rw [List.mem_singleton.mp h]
    exact ⟨exScopM_text, exScopM_related, _, _, _, _, exScopM_scoplib⟩

theorem exScopM_printed : okAnd (Scops.print Cfg.std (lib Cfg.std (some "64".toList) exSym) "0.9.1".toList [exScopM]) (Rel.shortFrom 0) = true := by decide +kernel

theorem exM_written : ∃ t, Scops.Written Cfg.std (some "64".toList) 1 t ∧ Scops.read Cfg.std (libAt Cfg.std (some "64".toList) 1) (some "64".toList) defaultRegistry t = .ok [exScopM] := by
  obtain ⟨t, ht⟩ := ok_of exScopM_printed
  have hl := Rel.shortLines_of (holds_of exScopM_printed ht)
  have hx : ∀ x ∈ [exScopM], x = exScopM := fun x hx => List.mem_singleton.mp hx
  exact ⟨t, ⟨"0.9.1".toList, [exScopM], by decide, fun x h => hx x h ▸ exScopM_plain, fun x h => hx x h ▸ plain_full exScopM_plain, ht, hl⟩,
    scop_default_text_symbols (by decide) (fun x h => hx x h ▸ exScopM_plain) ht hl⟩

/-- The client meets the preconditions. -/
theorem writes_meets {release t : Str} (hw : Scops.Written Cfg.std (some "64".toList) 1 t)
    (hr : Scops.read Cfg.std (libAt Cfg.std (some "64".toList) 1) (some "64".toList) defaultRegistry t = .ok [exScopM]) :
    Meets Cfg.std (some "64".toList) release (writes t) (nulls 1 [.scop]) := by
  refine ⟨⟨⟨_, rfl, rfl⟩, hw⟩, fun r h => ?_⟩
  obtain ⟨u, h1, h2⟩ := on1_ok (k := .scop) (x := 0) (v := ([] : Scops (DataAt 1))) rfl h
  have hu : u.1 = [exScopM] := by
    have h1 : (Scops.read Cfg.std (libAt Cfg.std (some "64".toList) 1) (some "64".toList) defaultRegistry t >>= fun r => Out.ok (r, Obs.none)) = .ok u := h1
    rw [hr] at h1
    injection h1 with h1
    rw [← h1]
    rfl
  rw [hu] at h2
  rw [h2]
  clear h h1 h2 hu
  refine ⟨⟨[exScopM], rfl, fun s h => List.mem_singleton.mp h ▸ exScopM_text, exScopM, List.mem_cons_self, exScopM_related⟩, fun r h => ?_⟩
  obtain ⟨u, h1, h2⟩ := on1_ok (k := .scop) (x := 0) (v := ([exScopM] : Scops (DataAt 1))) rfl h
  obtain ⟨o, _, h1⟩ := Out.bind_eq_ok.mp h1
  injection h1 with h1
  rw [← h1] at h2
  rw [h2]
  clear h h1 h2
  refine ⟨⟨[exScopM], rfl, exScopM_scoplibText⟩, fun r h => ?_⟩
  obtain ⟨u, h1, h2⟩ := on1_ok (k := .scop) (x := 0) (v := ([exScopM] : Scops (DataAt 1))) rfl h
  obtain ⟨o, _, h1⟩ := Out.bind_eq_ok.mp h1
  injection h1 with h1
  rw [← h1] at h2
  rw [h2]
  exact ⟨⟨_, rfl, trivial⟩, fun _ _ => trivial⟩

/-- So it is not undefined, whatever the release. -/
example (release : Str) : ∃ t, runs Cfg.std (some "64".toList) release 1 (writes t) (nulls 1 [.scop]) ≠ .ub := by
  obtain ⟨t, hw, hr⟩ := exM_written
  exact ⟨t, history_defined (by decide) rfl (allFit_nulls _) (writes_meets hw hr)⟩

/-! ## The preconditions are needed -/

/-- The end of the file is read beyond (C24). -/
example : (match run Cfg.std none [] 0 (.relRead 0 64 []) (nulls 0 [.rel]) with | .ub => true | _ => false) = true := by decide +kernel

/-- `strcmp` of the NULL languages of two scops which were made with `osl_scop_malloc`. -/
example : (match run Cfg.std none [] 0 (.scopEqual 0 1) [⟨.scop, [Scops.malloc]⟩, ⟨.scop, [Scops.malloc]⟩] with | .ub => true | _ => false) = true := by decide +kernel

/-- The display of a dependence whose statements are NULL: all those which the library reads. -/
example : (match run Cfg.std none [] 0 (.genDump 0) [⟨.gen, [Data.ext (S := _root_.Empty) (.dependence ⟨Dep.malloc, []⟩)]⟩] with | .ub => true | _ => false) = true := by decide +kernel

/-- The comparison of coordinates without a name. -/
example : (match run Cfg.std none [] 0 (.genEqual 0 1) [⟨.gen, [Data.ext (S := _root_.Empty) (.coordinates ⟨none, 0, 0, 0, 0, 0⟩)]⟩, ⟨.gen, [Data.ext (S := _root_.Empty) (.coordinates ⟨none, 0, 0, 0, 0, 0⟩)]⟩] with
    | .ub => true | _ => false) = true := by decide +kernel

/-- The copy of an extension whose data are not of the kind of its interface. -/
example : (match run Cfg.std none [] 0 (.genClone 0 1) [⟨.gen, []⟩, ⟨.gen, [⟨defaultRegistry[0]?, some (.null (S := _root_.Empty) ⟨⟩)⟩]⟩] with | .ub => true | _ => false) = true := by decide +kernel

end Osl.Client
