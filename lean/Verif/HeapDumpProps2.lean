import Verif.HeapDumpProps
/-!
# The display functions in memory (C80): strings, vectors, relations, interfaces, generics, statements, scops
-/

set_option linter.unusedSectionVars false

namespace Osl.Mem

open Osl.Ext
open Osl.Dump (bars blank line)

variable [Allocator] {α : Type}

/-! ## Strings -/

theorem strings_words {p : Ptr} {ws : List Str} {i : Nat} {w : Str} (hi : ws[i]? = some w) : Gives (stringsAt p (some ⟨some ws⟩)) (strDumpWord p i) (' ' :: w) := by
  unfold strDumpWord
  rw [Int.toNat_natCast]
  refine Gives.ex (fun a => ?_)
  gstep (field_gives (x := a) rfl)
  gstep (show Gives (stringAt a (some ws)) _ _ from loadWord_array hi)
  exact Gives.ret rfl

/-- C80: `osl_strings_idump`. -/
theorem strings_idump_memory {p : Ptr} {s : Option Strings} (level : Nat) : Gives (stringsAt p s) (strDump p level) (Dump.strings s level) := by
  unfold strDump
  cases s with
  | none =>
    refine Gives.fact1 (fun hp => ?_)
    subst hp
    refine Gives.ret ?_
    simp only [Dump.strings, line, List.append_assoc]
    rfl
  | some s =>
    refine Gives.of_fact (φ := p ≠ 0) (fun h hh => ?_) (fun hp => ?_)
    · obtain ⟨a, hh⟩ := hh
      exact pto_ne_sep h hh
    rw [if_pos hp]
    refine Gives.bind strings_size_query.gives ?_
    refine Gives.bind (v := (s.words.map fun w => ' ' :: w).flatten) ?_ (Gives.ret ?_)
    · obtain ⟨o⟩ := s
      cases o with
      | none => exact texts_map (l := []) (by rfl) (fun i a hi => by cases hi)
      | some ws => exact texts_map (l := ws) (by rfl) (fun i a hi => strings_words hi)
    · simp only [Dump.strings, line, List.append_assoc]

/-! ## Vectors -/

theorem intText_spec {c : Cfg} {p v : Int} {t : Str} {P : Assn} (h : Dump.int c p v = .ok t) : Gives P (intText c p v) (t ++ [' ']) := by
  unfold intText
  gstep (Gives.lift h)
  exact Gives.ret rfl

/-- C80: `osl_vector_idump`. -/
theorem vector_idump_memory {c : Cfg} {p : Ptr} {v : Option Vec} (hv : ∀ x, v = some x → x.size = x.v.length) {level : Nat} {t : Str} (h : Dump.vector c v level = .ok t) :
    Gives (optVecAt c p v) (vecDump c p level) t := by
  unfold vecDump
  cases v with
  | none =>
    refine Gives.fact1 (fun hp => ?_)
    subst hp
    simp only [Dump.vector, Out.ok.injEq] at h
    subst h
    exact Gives.ret rfl
  | some x =>
    obtain ⟨e, h1, h⟩ := Out.bind_eq_ok.mp h
    simp only [Out.pure_eq, Out.ok.injEq] at h
    subst h
    refine Gives.of_fact (fun h hh => vecAt_ne h hh) (fun hp => ?_)
    rw [if_pos hp]
    refine Gives.ex (fun q => ?_)
    gstep (show Gives (p ↦ .vec x.precision x.size q) _ _ from loadVec_spec)
    refine Gives.bind (v := e) (Gives.right (texts_cat (l := x.v) (by rw [hv x rfl]; simp) (fun i a u hi hu => ?_) h1)) (Gives.ret rfl)
    obtain ⟨t, h2, hu⟩ := Out.bind_eq_ok.mp hu
    cases hu
    unfold vecDumpCell
    refine Gives.bind (arr_get hi) ?_
    exact intText_spec h2

/-! ## Relations -/

theorem relRow_spec {c : Cfg} {a : Part} {m : Ptr} {level i : Nat} {t : Str} (h : Dump.relRow c level a i = .ok t) : Gives (partMat c m a) (relDumpRow c level (hdr a) m i) t := by
  obtain ⟨e, h1, h⟩ := Out.bind_eq_ok.mp h
  simp only [Out.pure_eq, Out.ok.injEq] at h
  subst h
  unfold relDumpRow
  refine Gives.bind (v := e) (texts_cat (l := List.range a.nb_columns.toNat) (by rw [List.length_range]; rfl) (fun j k u hi hu => ?_) h1) (Gives.ret rfl)
  obtain ⟨hj, rfl⟩ := List.getElem?_eq_some_iff.mp hi
  rw [List.getElem_range] at hu
  obtain ⟨v, h2, hu⟩ := Out.bind_eq_ok.mp hu
  obtain ⟨t, h3, hu⟩ := Out.bind_eq_ok.mp hu
  cases hu
  unfold relDumpCell
  exact Gives.bind (part_get h2) (intText_spec h3)

theorem relBody_spec {c : Cfg} {p n : Ptr} {a : Part} {level : Nat} {t : Str} (h : Dump.relBody c level a = .ok t) : Gives (partAt c p a n) (relDumpBody c level p) t := by
  obtain ⟨rows, h1, h⟩ := Out.bind_eq_ok.mp h
  simp only [Out.pure_eq, Out.ok.injEq] at h
  subst h
  unfold relDumpBody
  refine Gives.ex (fun m => ?_)
  gstep (show Gives (p ↦ .rel (hdr a) m n) _ _ from loadRel_spec)
  refine Gives.bind (v := rows) (Gives.right (texts_cat (l := List.range a.nb_rows.toNat) (by rw [List.length_range]; rfl) (fun i k u hi hu => ?_) h1)) (Gives.ret rfl)
  obtain ⟨hj, rfl⟩ := List.getElem?_eq_some_iff.mp hi
  rw [List.getElem_range] at hu
  exact relRow_spec (m := m) hu

theorem relHeadLine_spec {c : Cfg} {p n : Ptr} {a : Part} {level k : Nat} :
    Gives (partAt c p a n) (relHeadLine c level k p) (line level ("|   osl_relation_t ".toList ++ Dump.relType c a)) := by
  unfold relHeadLine
  refine Gives.ex (fun m => ?_)
  gstep (show Gives (p ↦ .rel (hdr a) m n) _ _ from loadRel_spec)
  exact Gives.ret rfl

theorem Gives.head {N : Chain α} {p : Ptr} {a : α} {l : List α} {m : M Str} {t : Str} (h : ∀ n, Gives (N.at_ p a n) m t) : Gives (N.list p (a :: l)) m t := by
  rw [Chain.list_cons]
  exact Gives.ex (fun n => (h n).left)

/-- C80: `osl_relation_idump`. -/
theorem relation_idump_memory {c : Cfg} {p : Ptr} {r : Rel} {level : Nat} {t : Str} (h : Dump.relation c r level = .ok t) : Gives (relAt c p r) (relDump c p level) t := by
  obtain ⟨u, h1, h⟩ := Out.bind_eq_ok.mp h
  simp only [Out.pure_eq, Out.ok.injEq] at h
  subst h
  unfold relDump
  refine dumpList_spec (N := relChain c) (l := r) (hd := fun _ p => line level ("|   osl_relation_t ".toList ++ Dump.relType c p)) (g := Dump.relBody c level) ?_
    (fun a _ k p n => relHeadLine_spec) (fun a _ p n t ht => relBody_spec ht) h1
  unfold relTitle
  cases r with
  | nil =>
    rw [Chain.list_null]
    refine Gives.fact1 (fun hp => ?_)
    subst hp
    exact Gives.ret rfl
  | cons a l =>
    refine Gives.of_fact (fun _ hh => Chain.list_cons_ne hh) (fun hp => ?_)
    rw [if_pos hp]
    refine Gives.head (fun n => Gives.ex (fun m => ?_))
    gstep (show Gives (p ↦ .rel (hdr a) m n) _ _ from loadRel_spec)
    exact Gives.ret rfl

/-- C80: `osl_relation_list_idump`. -/
theorem relation_list_idump_memory {c : Cfg} {p : Ptr} {l : RList} {level : Nat} {t : Str} (h : Dump.relation_list c l level = .ok t) :
    Gives (rlistAt c p l) (listDump c p level) t := by
  obtain ⟨u, h1, h⟩ := Out.bind_eq_ok.mp h
  simp only [Out.pure_eq, Out.ok.injEq] at h
  unfold listDump
  refine dumpTitled_spec (N := listChain c) (fun a _ k p n => Gives.ret rfl) (fun a _ p n t ht => ?_) h1 (by cases l <;> exact h)
  obtain ⟨v, h2, ht⟩ := Out.bind_eq_ok.mp ht
  cases ht
  unfold listDumpBody
  refine Gives.ex (fun x => ?_)
  gstep (field_gives (x := x) rfl)
  gstep (relation_idump_memory (p := x) h2)
  exact Gives.ret rfl

/-! ## Interfaces -/

/-- The first line of the text of the interfaces. -/
def ifaceFirst (l : Ifaces) (level : Nat) : Out Str :=
  match l with
  | i :: _ => Ext.str i.URI >>= fun u => .ok (line level ("+-- osl_interface_t: URI = ".toList ++ u))
  | [] => .ok (line level "+-- NULL interface".toList)

theorem interface_parts {l : Ifaces} {level : Nat} {t : Str} (h : Dump.interface l level = .ok t) : ∃ v u, ifaceFirst l level = .ok v ∧
    Dump.nodes (fun _ i => line level ("|   osl_interface_t: URI = ".toList ++ Dump.uriText i.URI)) (fun _ => .ok []) (blank (level + 2) ++ line (level + 1) ['V']) 1 l = .ok u ∧
    t = v ++ u ++ blank (level + 1) := by
  cases l with
  | nil =>
    obtain ⟨w, h0, h⟩ := Out.bind_eq_ok.mp h
    obtain ⟨u, h1, h⟩ := Out.bind_eq_ok.mp h
    simp only [Out.pure_eq, Out.ok.injEq] at h
    exact ⟨w, u, h0, h1, h.symm⟩
  | cons i l =>
    obtain ⟨w, h0, h⟩ := Out.bind_eq_ok.mp h
    obtain ⟨u, h1, h⟩ := Out.bind_eq_ok.mp h
    simp only [Out.pure_eq, Out.ok.injEq] at h
    exact ⟨_, u, h0, h1, h.symm⟩

/-- C80: `osl_interface_idump`. -/
theorem interface_idump_memory {p : Ptr} {l : Ifaces} {level : Nat} {t : Str} (h : Dump.interface l level = .ok t) : Gives (ifacesAt p l) (ifaceDump p level) t := by
  obtain ⟨v, u, h0, h1, rfl⟩ := interface_parts h
  unfold ifaceDump
  refine dumpList_spec (N := ifaceChain) (l := l) (hd := fun _ i => line level ("|   osl_interface_t: URI = ".toList ++ Dump.uriText i.URI)) (g := fun _ => .ok []) ?_
    (fun i _ k p n => ?_) (fun a _ p n t ht => by cases ht; exact Gives.ret rfl) h1
  · unfold ifaceTitle
    cases l with
    | nil =>
      have h0 : Out.ok (line level "+-- NULL interface".toList) = .ok v := h0
      injection h0 with h0
      subst h0
      rw [Chain.list_null]
      refine Gives.fact1 (fun hp => ?_)
      subst hp
      exact Gives.ret rfl
    | cons i l =>
      refine Gives.of_fact (fun _ hh => Chain.list_cons_ne hh) (fun hp => ?_)
      rw [if_pos hp]
      obtain ⟨w, h2, h0⟩ := Out.bind_eq_ok.mp h0
      simp only [Out.ok.injEq] at h0
      subst h0
      refine Gives.head (fun n => Gives.ex (fun u => ?_))
      gstep (show Gives (p ↦ .iface u i.fns n) _ _ from loadIface_spec)
      gstep (uri_chars (s := u) h2)
      exact Gives.ret rfl
  · unfold ifaceHead
    refine Gives.ex (fun u => ?_)
    gstep (show Gives (p ↦ .iface u i.fns n) _ _ from loadIface_spec)
    gstep (uri_opt (s := u) (u := i.URI))
    exact Gives.ret rfl

/-! ## Generics -/

/-- The display functions of the data in memory (specification): each writes the text which `F` gives. -/
def DataDumps {D : Type} {E : Env D} (O : DataMem D E) (F : Dump.Fn D) (idump : Nat → Ptr → Nat → M Str) : Prop :=
  ∀ k p d level t, F k d level = .ok t → Gives (O.opt p d) (idump k p level) t

variable {D : Type} {E : Env D} {O : DataMem D E} {F : Dump.Fn D} {fs : Nat → Ptr → Nat → M Str}

/-- C80: `osl_generic_idump`. -/
theorem generic_idump_memory (R : DataDumps O F fs) {p : Ptr} {l : GList D} {level : Nat} {t : Str} (h : Dump.generic F l level = .ok t) :
    Gives (glistAt O p l) (genDump fs p level) t := by
  obtain ⟨u, h1, h⟩ := Out.bind_eq_ok.mp h
  simp only [Out.pure_eq, Out.ok.injEq] at h
  unfold genDump
  refine dumpTitled_spec (N := genChain O) (fun a _ k p n => Gives.ret rfl) (fun g _ p n t ht => ?_) h1 (by cases l <;> exact h)
  unfold genDumpBody
  refine Gives.ex (fun x => Gives.ex (fun y => ?_))
  gstep (field_gives (x := x) rfl)
  obtain ⟨i, d⟩ := g
  obtain ⟨v, h2, ht⟩ := Out.bind_eq_ok.mp ht
  cases i with
  | none =>
    obtain ⟨w, h3, ht⟩ := Out.bind_eq_ok.mp ht
    cases h3
    simp only [Out.pure_eq, Out.ok.injEq] at ht
    subst ht
    rw [contentAt_none, sep_comm]
    refine Gives.fact (fun hx => ?_)
    obtain ⟨rfl, rfl, rfl⟩ := hx
    have h2 := interface_idump_memory (p := 0) h2
    have h2 : Gives emp (ifaceDump 0 (level + 1)) v := by
      rw [ifacesAt, Chain.list_null, pur_true rfl] at h2
      exact h2
    have h2 : Gives (p ↦ .ptrs [0, 0, n]) (ifaceDump 0 (level + 1)) v := by
      have := h2.right (F := p ↦ .ptrs [0, 0, n])
      rwa [sep_emp] at this
    gstep h2
    gstep (field_gives (x := 0) rfl)
    exact Gives.bind (v := []) (Gives.ret rfl) (Gives.ret rfl)
  | some i =>
    obtain ⟨w, h3, ht⟩ := Out.bind_eq_ok.mp ht
    simp only [Out.pure_eq, Out.ok.injEq] at ht
    subst ht
    rw [contentAt_some]
    gstep (interface_idump_memory (p := x) h2)
    gstep (field_gives (x := y) rfl)
    refine Gives.bind (v := w) ?_ (Gives.ret rfl)
    unfold genDumpData
    refine Gives.right (Gives.right ?_)
    refine Gives.of_fact (φ := x ≠ 0) (fun h hh => ifacesAt_one_ne h hh) (fun hx => ?_)
    rw [if_pos hx]
    refine ifaceFns_spec (fun q => ?_)
    exact Gives.right (R _ _ _ _ _ h3)

/-! ## Statements and scops -/

variable {L : Lib D} {O : DataMem D L.toEnv} {c : Cfg}

theorem stmtBody_spec (R : DataDumps O F fs) {p n : Ptr} {s : Stmt D} {level : Nat} {t : Str} (h : Dump.stmtBody c F level s = .ok t) :
    Gives (stmtAt c O p s n) (stmtDumpBody c fs level p) t := by
  obtain ⟨d, h1, h⟩ := Out.bind_eq_ok.mp h
  obtain ⟨sc, h2, h⟩ := Out.bind_eq_ok.mp h
  obtain ⟨a, h3, h⟩ := Out.bind_eq_ok.mp h
  obtain ⟨e, h4, h⟩ := Out.bind_eq_ok.mp h
  simp only [Out.pure_eq, Out.ok.injEq] at h
  unfold stmtDumpBody
  refine Gives.ex (fun q1 => Gives.ex (fun q2 => Gives.ex (fun q3 => Gives.ex (fun q4 => ?_))))
  gstep (field_gives (x := q1) rfl)
  gcall (relation_idump_memory (p := q1) h1)
  gstep (field_gives (x := q2) rfl)
  gcall (relation_idump_memory (p := q2) h2)
  gstep (field_gives (x := q3) rfl)
  gcall (relation_list_idump_memory (p := q3) h3)
  gstep (field_gives (x := q4) rfl)
  gcall (generic_idump_memory R (p := q4) h4)
  exact Gives.ret h

/-- C80: `osl_statement_idump`. -/
theorem statement_idump_memory (R : DataDumps O F fs) {p : Ptr} {l : Stmts D} {level : Nat} {t : Str} (h : Dump.statement c F l level = .ok t) :
    Gives (stmtsAt c O p l) (stmtDump c fs p level) t := by
  obtain ⟨u, h1, h⟩ := Out.bind_eq_ok.mp h
  simp only [Out.pure_eq, Out.ok.injEq] at h
  unfold stmtDump
  refine dumpTitled_spec (N := stmtChain c O) ?_ ?_ h1 (by cases l <;> exact h)
  · exact fun a _ k p n => Gives.ret rfl
  · exact fun s _ p n t ht => stmtBody_spec R ht

theorem scopBody_spec (R : DataDumps O F fs) {p n : Ptr} {s : Scop D} {level : Nat} {t : Str} (h : Dump.scopBody c F level s = .ok t) :
    Gives (scopAt c O p s n) (scopDumpBody c fs level p) t := by
  obtain ⟨lang, h1, h⟩ := Out.bind_eq_ok.mp h
  obtain ⟨ctx, h2, h⟩ := Out.bind_eq_ok.mp h
  obtain ⟨par, h3, h⟩ := Out.bind_eq_ok.mp h
  obtain ⟨st, h4, h⟩ := Out.bind_eq_ok.mp h
  obtain ⟨reg, h5, h⟩ := Out.bind_eq_ok.mp h
  obtain ⟨ext, h6, h⟩ := Out.bind_eq_ok.mp h
  simp only [Out.pure_eq, Out.ok.injEq] at h
  unfold scopDumpBody
  refine Gives.ex (fun q1 => Gives.ex (fun q2 => Gives.ex (fun q3 => Gives.ex (fun q4 => Gives.ex (fun q5 => Gives.ex (fun q6 => ?_))))))
  gstep (int_gives (x := s.version) rfl)
  gstep (ptr_gives (x := q1) rfl)
  gstep (uri_chars (s := q1) h1)
  gstep (ptr_gives (x := q2) rfl)
  gcall (relation_idump_memory (p := q2) h2)
  gstep (ptr_gives (x := q3) rfl)
  gcall (generic_idump_memory R (p := q3) h3)
  gstep (ptr_gives (x := q4) rfl)
  gcall (statement_idump_memory R (p := q4) h4)
  gstep (ptr_gives (x := q5) rfl)
  gcall (interface_idump_memory (p := q5) h5)
  gstep (ptr_gives (x := q6) rfl)
  gcall (generic_idump_memory R (p := q6) h6)
  exact Gives.ret h

/-- C80: `osl_scop_idump`. -/
theorem scop_idump_memory (R : DataDumps O F fs) {p : Ptr} {l : Scops D} {level : Nat} {t : Str} (h : Dump.scop c F l level = .ok t) :
    Gives (scopsAt c O p l) (scopDump c fs p level) t := by
  obtain ⟨u, h1, h⟩ := Out.bind_eq_ok.mp h
  simp only [Out.pure_eq, Out.ok.injEq] at h
  unfold scopDump
  refine dumpTitled_spec (N := scopChain c O) ?_ ?_ h1 (by cases l <;> exact h)
  · exact fun a _ k p n => Gives.ret rfl
  · exact fun s _ p n t ht => scopBody_spec R ht

end Osl.Mem
