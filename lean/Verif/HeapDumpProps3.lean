import Verif.HeapDumpProps2
/-!
# The display functions in memory (C80): names, bodies and extensions
-/

set_option linter.unusedSectionVars false

namespace Osl.Mem

open Osl.Ext
open Osl.Dump (bars blank line)

variable [Allocator] {α : Type}

/-! ## Names, bodies -/

/-- C80: `osl_names_idump`. -/
theorem names_idump_memory {p : Ptr} {x : Option Names} (level : Nat) : Gives (namesAt p x) (namesDump p level) (Dump.names x level) := by
  unfold namesDump
  cases x with
  | none =>
    refine Gives.fact1 (fun hp => ?_)
    subst hp
    exact Gives.ret rfl
  | some x =>
    refine Gives.of_fact (φ := p ≠ 0) (fun h hh => ?_) (fun hp => ?_)
    · obtain ⟨a, b, c, d, e, hh⟩ := hh
      exact pto_ne_sep h hh
    rw [if_pos hp]
    refine Gives.ex (fun q1 => Gives.ex (fun q2 => Gives.ex (fun q3 => Gives.ex (fun q4 => Gives.ex (fun q5 => ?_)))))
    gstep (field_gives (x := q1) rfl)
    gcall (strings_idump_memory (p := q1) (s := x.parameters) (level + 1))
    gstep (field_gives (x := q2) rfl)
    gcall (strings_idump_memory (p := q2) (s := x.iterators) (level + 1))
    gstep (field_gives (x := q3) rfl)
    gcall (strings_idump_memory (p := q3) (s := x.scatt_dims) (level + 1))
    gstep (field_gives (x := q4) rfl)
    gcall (strings_idump_memory (p := q4) (s := x.local_dims) (level + 1))
    gstep (field_gives (x := q5) rfl)
    gcall (strings_idump_memory (p := q5) (s := x.arrays) (level + 1))
    exact Gives.ret rfl

/-- C80: `osl_body_idump`. -/
theorem body_idump_memory {p : Ptr} {x : Option Body} (level : Nat) : Gives (optAt bodyAt p x) (bodyDump p level) (Dump.body x level) := by
  unfold bodyDump
  refine dumpOpt_spec (fun p x h hh => bodyAt_ne h hh) (fun e => by subst e; exact Gives.ret rfl) (fun x e _ => ?_)
  subst e
  refine Gives.ex (fun q1 => Gives.ex (fun q2 => ?_))
  gstep (field_gives (x := q1) rfl)
  gcall (strings_idump_memory (p := q1) (s := x.iterators) (level + 1))
  gstep (field_gives (x := q2) rfl)
  gcall (strings_idump_memory (p := q2) (s := x.expression) (level + 1))
  exact Gives.ret rfl

/-! ## Textual, comments, Clay scripts -/

theorem lineFree_spec {s : Ptr} {o : Option Str} {w : Str} (h : Ext.str o = .ok w) : Gives (uriAt s o) (lineFree s) (Dump.oneLine w) := by
  cases o with
  | none => cases h
  | some v =>
    cases h
    unfold lineFree lineCopy
    show Triple (s ↦ .chars w) _ (fun r => pur (r = Dump.oneLine w) ∗ s ↦ .chars w)
    refine Triple.bind (Q := fun t => s ↦ .chars w ∗ t ↦ .chars (Dump.oneLine w)) ?_ (fun t => ?_)
    · hstep (loadChars_spec (p := s) (w := w))
      hstep Triple.alloc
      hstep Triple.store
      hret
    · generalize Dump.oneLine w = v
      hstep (loadChars_spec (p := t) (w := v))
      hstep Triple.free
      hret

/-- C80: `osl_textual_idump`. -/
theorem textual_idump_memory {p : Ptr} {x : Option Textual} {level : Nat} {t : Str} (h : Dump.textual x level = .ok t) :
    Gives (optAt (fun p x => stringFieldAt p x.textual) p x) (textualDump p level) t := by
  unfold textualDump
  refine dumpOpt_spec (fun p x h hh => stringFieldAt_ne h hh) (fun e => ?_) (fun x e _ => ?_)
  · subst e
    injection h with h
    exact Gives.ret h
  · subst e
    obtain ⟨s, h1, h⟩ := Out.bind_eq_ok.mp h
    simp only [Out.pure_eq, Out.ok.injEq] at h
    refine Gives.ex (fun q => ?_)
    gstep (field_gives (x := q) rfl)
    gcall (lineFree_spec (s := q) h1)
    exact Gives.ret h

/-- C80: `osl_comment_idump`. -/
theorem comment_idump_memory {p : Ptr} {x : Option Comment} {level : Nat} {t : Str} (h : Dump.comment x level = .ok t) :
    Gives (optAt (fun p x => stringFieldAt p x.comment) p x) (commentDump p level) t := by
  unfold commentDump
  refine dumpOpt_spec (fun p x h hh => stringFieldAt_ne h hh) (fun e => ?_) (fun x e _ => ?_)
  · subst e
    injection h with h
    exact Gives.ret h
  · subst e
    obtain ⟨s, h1, h⟩ := Out.bind_eq_ok.mp h
    simp only [Out.pure_eq, Out.ok.injEq] at h
    refine Gives.ex (fun q => ?_)
    gstep (field_gives (x := q) rfl)
    gcall (lineFree_spec (s := q) h1)
    exact Gives.ret h

/-- C80: `osl_clay_idump`. -/
theorem clay_idump_memory {p : Ptr} {x : Option Clay} {level : Nat} {t : Str} (h : Dump.clay x level = .ok t) :
    Gives (optAt (fun p x => stringFieldAt p x.script) p x) (clayDump p level) t := by
  unfold clayDump
  refine dumpOpt_spec (fun p x h hh => stringFieldAt_ne h hh) (fun e => ?_) (fun x e _ => ?_)
  · subst e
    injection h with h
    exact Gives.ret h
  · subst e
    obtain ⟨s, h1, h⟩ := Out.bind_eq_ok.mp h
    simp only [Out.pure_eq, Out.ok.injEq] at h
    refine Gives.ex (fun q => ?_)
    gstep (field_gives (x := q) rfl)
    gcall (lineFree_spec (s := q) h1)
    exact Gives.ret h

/-! ## Simple extensions -/

/-- C80: `osl_null_idump`. -/
theorem null_idump_memory {p : Ptr} {x : Option Null} (level : Nat) : Gives (optAt (fun p (_ : Null) => p ↦ .ptrs []) p x) (nullDump p level) (Dump.null x level) := by
  unfold nullDump
  cases x with
  | none =>
    refine Gives.fact1 (fun hp => ?_)
    subst hp
    exact Gives.ret rfl
  | some x =>
    refine Gives.of_fact (fun h hh => pto_ne h hh) (fun hp => ?_)
    rw [if_pos hp]
    exact Gives.ret rfl

theorem intItems_spec {a : Ptr} {l : List Int} {n : Int} (hn : n = l.length) : Gives (intsAt a l) (texts n (intItem a)) (Dump.intList l) := by
  refine texts_map (l := l) (by rw [hn]; simp) (fun i v hi => ?_)
  unfold intItem
  rw [Int.toNat_natCast]
  exact Gives.bind (ints_get hi) (Gives.ret rfl)

/-- C80: `osl_scatinfos_idump`. -/
theorem scatinfos_idump_memory {p : Ptr} {x : Option Scatinfos} (level : Nat) : Gives (optAt scatinfosAt p x) (scatinfosDump p level) (Dump.scatinfos x level) := by
  unfold scatinfosDump
  refine dumpOpt_spec (fun p x h hh => scatinfosAt_ne h hh) (fun e => by subst e; exact Gives.ret rfl) (fun x e _ => ?_)
  subst e
  refine Gives.ex (fun q1 => Gives.ex (fun q2 => Gives.ex (fun q3 => Gives.fact (fun hs => ?_))))
  gstep (int_gives (x := (x.parallel.length : Int)) rfl)
  gstep (ptr_gives (x := q1) rfl)
  gcall (intItems_spec (a := q1) (l := x.parallel) rfl)
  gstep (ptr_gives (x := q2) rfl)
  gcall (intItems_spec (a := q2) (l := x.permutable) (n := (x.parallel.length : Int)) (by rw [hs.1]))
  gstep (ptr_gives (x := q3) rfl)
  gcall (intItems_spec (a := q3) (l := x.type) (n := (x.parallel.length : Int)) (by rw [hs.2]))
  exact Gives.ret rfl

/-- C80: `osl_scatnames_idump`. -/
theorem scatnames_idump_memory {p : Ptr} {x : Option Scatnames} (level : Nat) : Gives (optAt scatnamesAt p x) (scatnamesDump p level) (Dump.scatnames x level) := by
  unfold scatnamesDump
  refine dumpOpt_spec (fun p x h hh => scatnamesAt_ne h hh) (fun e => by subst e; exact Gives.ret rfl) (fun x e _ => ?_)
  subst e
  refine Gives.ex (fun q => ?_)
  gstep (field_gives (x := q) rfl)
  gcall (strings_idump_memory (p := q) (s := x.names) (level + 1))
  exact Gives.ret rfl

/-- C80: `osl_arrays_idump`. -/
theorem arrays_idump_memory {p : Ptr} {x : Option Arrays} (level : Nat) : Gives (optAt arraysAt p x) (arraysDump p level) (Dump.arrays x level) := by
  unfold arraysDump
  refine dumpOpt_spec (fun p x h hh => arraysAt_ne h hh) (fun e => by subst e; exact Gives.ret rfl) (fun x e _ => ?_)
  subst e
  refine Gives.ex (fun q1 => Gives.ex (fun q2 => ?_))
  gstep (int_gives (x := (x.pairs.length : Int)) rfl)
  gstep (ptr_gives (x := q1) rfl)
  gstep (ptr_gives (x := q2) rfl)
  refine Gives.bind (Gives.right (texts_map (l := x.pairs) (g := fun p => line (level + 1) ("id: ".toList ++ padLeft 2 (showInt p.1) ++ ", name: ".toList ++ p.2)) (by simp) (fun i v hi => ?_)))
    (Gives.ret rfl)
  unfold arraysDumpItem
  rw [Int.toNat_natCast]
  refine Gives.bind (Gives.left (ints_get (map_getQ hi))) ?_
  exact Gives.bind (Gives.right (loadWord_spec (map_getQ hi))) (Gives.ret rfl)

/-- C80: `osl_coordinates_idump`. -/
theorem coordinates_idump_memory {p : Ptr} {x : Option Coordinates} (level : Nat) : Gives (optAt coordAt p x) (coordDump p level) (Dump.coordinates x level) := by
  unfold coordDump
  refine dumpOpt_spec (fun p x h hh => coordAt_ne h hh) (fun e => by subst e; exact Gives.ret rfl) (fun x e _ => ?_)
  subst e
  refine Gives.ex (fun q => ?_)
  gstep (ptr_gives (x := q) rfl)
  gcall (uri_opt (s := q) (u := x.name))
  gstep (int_gives (x := x.line_start) rfl)
  gstep (int_gives (x := x.column_start) rfl)
  gstep (int_gives (x := x.line_end) rfl)
  gstep (int_gives (x := x.column_end) rfl)
  gstep (int_gives (x := x.indent) rfl)
  exact Gives.ret rfl

/-- C80: `osl_extbody_idump`. -/
theorem extbody_idump_memory {p : Ptr} {x : Option Extbody} (level : Nat) : Gives (optAt extbodyAt p x) (extbodyDump p level) (Dump.extbody x level) := by
  unfold extbodyDump
  refine dumpOpt_spec (fun p x h hh => extbodyAt_ne h hh) (fun e => by subst e; exact Gives.ret rfl) (fun x e _ => ?_)
  subst e
  refine Gives.ex (fun q1 => Gives.ex (fun q2 => Gives.ex (fun q3 => ?_)))
  gstep (int_gives (x := (x.access.length : Int)) rfl)
  gstep (ptr_gives (x := q1) rfl)
  gstep (ptr_gives (x := q2) rfl)
  refine Gives.bind (Gives.right (texts_map (l := x.access) (g := fun p => line (level + 1) ("start: ".toList ++ showInt p.1 ++ ", length: ".toList ++ showInt p.2)) (by simp) (fun i v hi => ?_))) ?_
  · unfold extbodyDumpItem
    rw [Int.toNat_natCast]
    refine Gives.bind (Gives.left (ints_get (map_getQ hi))) ?_
    exact Gives.bind (Gives.right (Gives.left (ints_get (map_getQ hi)))) (Gives.ret rfl)
  gstep (ptr_gives (x := q3) rfl)
  gcall (body_idump_memory (p := q3) (x := x.body) level)
  exact Gives.ret rfl

/-! ## Lists -/

/-- C80: `osl_loop_idump`. -/
theorem loop_idump_memory {p : Ptr} {l : List Loop} {level : Nat} {t : Str} (h : Dump.loop l level = .ok t) : Gives (loopChain.list p l) (loopDump p level) t := by
  obtain ⟨u, h1, h⟩ := Out.bind_eq_ok.mp h
  simp only [Out.pure_eq, Out.ok.injEq] at h
  unfold loopDump
  refine dumpTitled_spec (N := loopChain) ?_ ?_ h1 (by cases l <;> exact h)
  · exact fun a _ k p n => Gives.ret rfl
  intro x _ p n t ht
  obtain ⟨it, h2, ht⟩ := Out.bind_eq_ok.mp ht
  obtain ⟨pv, h3, ht⟩ := Out.bind_eq_ok.mp ht
  obtain ⟨us, h4, ht⟩ := Out.bind_eq_ok.mp ht
  simp only [Out.pure_eq, Out.ok.injEq] at ht
  unfold loopDumpBody
  refine Gives.ex (fun q1 => Gives.ex (fun q2 => Gives.ex (fun q3 => Gives.ex (fun q4 => ?_))))
  gstep (ptr_gives (x := q1) rfl)
  gcall (uri_chars (s := q1) h2)
  gstep (int_gives (x := (x.stmt_ids.length : Int)) rfl)
  gstep (ptr_gives (x := q2) rfl)
  refine Gives.bind (Gives.right (Gives.right (Gives.left (texts_map (l := x.stmt_ids) (g := fun i => padLeft 2 (showInt i) ++ ", ".toList) (by simp) (fun i v hi => ?_))))) ?_
  · unfold loopDumpId
    rw [Int.toNat_natCast]
    exact Gives.bind (ints_get hi) (Gives.ret rfl)
  gstep (ptr_gives (x := q3) rfl)
  gcall (uri_chars (s := q3) h3)
  gstep (int_gives (x := x.directive) rfl)
  gstep (ptr_gives (x := q4) rfl)
  gcall (uri_chars (s := q4) h4)
  exact Gives.ret ht

/-- C80: `osl_pluto_unroll_idump`. -/
theorem unroll_idump_memory {p : Ptr} {l : List Unroll} {level : Nat} {t : Str} (h : Dump.unroll l level = .ok t) : Gives (unrollChain.list p l) (unrollDump p level) t := by
  obtain ⟨u, h1, h⟩ := Out.bind_eq_ok.mp h
  simp only [Out.pure_eq, Out.ok.injEq] at h
  unfold unrollDump
  refine dumpTitled_spec (N := unrollChain) ?_ ?_ h1 (by cases l <;> exact h)
  · exact fun a _ k p n => Gives.ret rfl
  intro x _ p n t ht
  obtain ⟨it, h2, ht⟩ := Out.bind_eq_ok.mp ht
  simp only [Out.pure_eq, Out.ok.injEq] at ht
  unfold unrollDumpBody
  refine Gives.ex (fun q => ?_)
  gstep (ptr_gives (x := q) rfl)
  gcall (uri_chars (s := q) h2)
  gstep (int_gives (x := Unroll.ofBool x.jam) rfl)
  gstep (int_gives (x := (x.factor : Int)) rfl)
  exact Gives.ret ht

/-- What the loop of the lines of a text writes. -/
theorem textLines_map (level : Nat) : ∀ (l : Lines) (k : Nat), Dump.textLines level k l =
    ((l.zipIdx k).map fun x => line level ("+--type ".toList ++ showNat x.2 ++ ": ".toList ++ showInt x.1.1) ++ line 0 ("+--line ".toList ++ showNat x.2 ++ ": ".toList ++ x.1.2)).flatten
  | [], _ => rfl
  | (ty, w) :: l, k => by
    rw [List.zipIdx_cons, List.map_cons, List.flatten_cons, ← textLines_map level l (k + 1)]
    rfl

theorem textItems_spec {t : TextRec} {x : Lines} {level : Nat} : Gives (textAt t x) (texts t.count (textItem level t)) (Dump.textLines level 0 x) := by
  unfold textAt
  refine Gives.fact (fun hc => ?_)
  rw [textLines_map]
  refine texts_map (l := x.zipIdx) (by rw [hc]; simp) (fun i v hi => ?_)
  rw [List.getElem?_zipIdx] at hi
  cases hx : x[i]? with
  | none => rw [hx] at hi; cases hi
  | some y =>
    rw [hx] at hi
    simp only [Option.map_some, Nat.zero_add, Option.some.injEq] at hi
    subst hi
    unfold textItem
    rw [Int.toNat_natCast]
    refine Gives.bind (Gives.left (ints_get (map_getQ hx))) ?_
    exact Gives.bind (Gives.right (loadWord_spec (map_getQ hx))) (Gives.ret rfl)

/-- C80: `osl_annotation_idump`. -/
theorem annotation_idump_memory {p : Ptr} {x : Option Annotation} {level : Nat} {t : Str} (h : Dump.annotation x level = .ok t) : Gives (optAt annAt p x) (annDump p level) t := by
  cases x with
  | none => cases h
  | some x =>
    simp only [Dump.annotation, Out.ok.injEq] at h
    refine Gives.ex (fun a => Gives.ex (fun b => ?_))
    unfold annDump textDump
    refine Gives.bind (v := Dump.textLines (level + 2) 0 x.pre) ?_ ?_
    · gstep (show Gives (p ↦ .node _ _) _ a from getText_spec (t := a) rfl rfl rfl)
      exact Gives.right (Gives.left textItems_spec)
    refine Gives.bind (v := Dump.textLines (level + 2) 0 x.suf) ?_ ?_
    · gstep (show Gives (p ↦ .node _ _) _ b from getText_spec (t := b) rfl rfl rfl)
      exact Gives.right (Gives.right textItems_spec)
    exact Gives.ret h

/-- C80: `osl_region_idump`. -/
theorem region_idump_memory {p : Ptr} {l : List Region} {level : Nat} {t : Str} (h : Dump.region l level = .ok t) : Gives (regionChain.list p l) (regionDump p level) t := by
  obtain ⟨u, h1, h⟩ := Out.bind_eq_ok.mp h
  simp only [Out.pure_eq, Out.ok.injEq] at h
  unfold regionDump
  refine dumpTitled_spec (N := regionChain) ?_ ?_ h1 (by cases l <;> exact h)
  · exact fun a _ k p n => Gives.ret rfl
  intro x _ p n t ht
  simp only [Out.ok.injEq] at ht
  refine Gives.ex (fun a => Gives.ex (fun b => Gives.ex (fun d => Gives.ex (fun e => ?_))))
  unfold regionDumpBody textDump
  gstep (int_gives (x := x.location) rfl)
  refine Gives.bind (v := Dump.textLines (level + 2) 0 x.pre) ?_ ?_
  · gstep (show Gives (p ↦ .node _ _) _ a from getText_spec (t := a) rfl rfl rfl)
    exact Gives.right (Gives.left textItems_spec)
  refine Gives.bind (v := Dump.textLines (level + 2) 0 x.suf) ?_ ?_
  · gstep (show Gives (p ↦ .node _ _) _ b from getText_spec (t := b) rfl rfl rfl)
    exact Gives.right (Gives.right (Gives.left textItems_spec))
  refine Gives.bind (v := Dump.textLines (level + 2) 0 x.prelude) ?_ ?_
  · gstep (show Gives (p ↦ .node _ _) _ d from getText_spec (t := d) rfl rfl rfl)
    exact Gives.right (Gives.right (Gives.right (Gives.left textItems_spec)))
  refine Gives.bind (v := Dump.textLines (level + 2) 0 x.postlude) ?_ ?_
  · gstep (show Gives (p ↦ .node _ _) _ e from getText_spec (t := e) rfl rfl rfl)
    exact Gives.right (Gives.right (Gives.right (Gives.right textItems_spec)))
  exact Gives.ret ht

end Osl.Mem
