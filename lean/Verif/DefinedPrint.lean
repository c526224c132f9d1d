import Verif.DefinedText
/-!
# C83: extensions which have a text

What the printers of the extensions (`.._sprint`) need: integers of C, strings which are not NULL where they are written with `%s`, and texts which fit the buffers of OSL_MAX_STRING bytes in
which they are written without a check.
-/

namespace Osl

open Osl.Ext

/-! ## Specification -/

/-- Spec: each string fits the buffer. -/
def Strings.Fit (s : Option Strings) : Prop := ∀ x, s = some x → ∀ w ∈ x.words, w.length < MAX_STRING

/-- Spec: the iterators and the expression fit the buffer. -/
def Body.Fit (b : Body) : Prop := Strings.Fit b.iterators ∧ Strings.Fit b.expression

/-- Spec: each line, with its end, fits the buffer. -/
def Ext.Lines.Fit (t : Lines) : Prop := ∀ p ∈ t, fits 32 p.1 ∧ p.2.length + 1 < MAX_STRING

namespace Data

variable {S : Type}

/-- Spec: the data have a text; `sym` is what is asked of the symbols. -/
def Texted (c : Cfg) (sym : S → Prop) : Data S → Prop
  | .strings x => Strings.Fit (some x)
  | .body x => Body.Fit x
  | .relation x => Rel.Prints c (NE.elems (some x))
  | .textual _ => True
  | .comment x => ∃ s, x.comment = some s ∧ s.length < MAX_STRING
  | .null _ => True
  | .scatinfos _ => True
  | .scatnames x => Strings.Fit x.names
  | .arrays x => ∀ p ∈ x.pairs, fits 32 p.1 ∧ p.2.length + 13 < MAX_STRING
  | .coordinates x => (∃ s, x.name = some s ∧ s.length + 13 < MAX_STRING) ∧ fits 32 x.line_start ∧ fits 32 x.line_end ∧ fits 32 x.column_start ∧ fits 32 x.column_end ∧ fits 32 x.indent
  | .clay x => ∃ s, x.script = some s ∧ s.length < MAX_STRING
  | .dependence x => ∀ d ∈ NE.elems (some x), Rel.Prints c d.domain ∧ (d.type = UNDEFINED ∨ 1 ≤ d.type ∧ d.type ≤ 5)
  | .symbols s => sym s
  | .extbody x => (∀ p ∈ x.access, fits 32 p.1 ∧ fits 32 p.2) ∧ ∀ b, x.body = some b → Body.Fit b
  | .loop x => ∀ l ∈ NE.elems (some x), ∀ s, l.iter = some s ∨ l.private_vars = some s ∨ l.user = some s → s.length + 1 < MAX_STRING
  | .unroll x => (∀ u ∈ NE.elems (some x), u.iter ≠ none) ∧ ((NE.elems (some x)).map (fun u => (u.iter.getD []).length + (showNat u.factor).length + 64)).sum + 20 < MAX_STRING
  | .region x => ∀ r ∈ NE.elems (some x), fits 32 r.location ∧ Lines.Fit r.pre ∧ Lines.Fit r.suf ∧ Lines.Fit r.prelude ∧ Lines.Fit r.postlude
  | .annotation x => Lines.Fit x.pre ∧ Lines.Fit x.suf

end Data

/-- Spec: the extensions have a text, those of the symbols too. -/
def Textful (c : Cfg) : (n : Nat) → GList (DataAt n) → Prop
  | 0, l => ∀ g ∈ l, Full (Data.Texted c (fun _ : Empty => True)) g
  | n + 1, l => ∀ g ∈ l, Full (Data.Texted c (fun s : NE (Symbol (DataAt n)) => ∀ y ∈ NE.elems (some s),
      Textful c n y.identifier ∧ Textful c n y.datatype ∧ Textful c n y.scope ∧ Textful c n y.extent)) g

/-! ## Texts -/

theorem ok_bind {α β : Type} {o : Out α} {f : α → Out β} (h : ∃ a, o = .ok a) (hf : ∀ a, ∃ b, f a = .ok b) : ∃ b, (o >>= f) = .ok b := by
  obtain ⟨a, rfl⟩ := h
  exact hf a

theorem mapOut_ok {α β : Type} {f : α → Out β} : ∀ {l : List α}, (∀ a ∈ l, ∃ b, f a = .ok b) → ∃ b, Out.mapOut f l = .ok b
  | [], _ => ⟨_, rfl⟩
  | a :: l, h => by
    obtain ⟨b, h1⟩ := h a List.mem_cons_self
    obtain ⟨m, h2⟩ := mapOut_ok (fun x hx => h x (List.mem_cons_of_mem _ hx))
    unfold Out.mapOut
    rw [h1, h2]
    exact ⟨_, rfl⟩

theorem emit_ok {l : List Str} : ∃ t, Util.emit l = .ok t := ⟨_, Util.emit_eq l⟩

theorem buf_fit {s : Str} (h : s.length < MAX_STRING) : ∃ t, buf s = .ok t := by
  unfold buf
  rw [if_pos h]
  exact ⟨_, rfl⟩

theorem emit_some {l : List Str} : ∃ t, (Util.emit l >>= fun r => Out.ok (some r)) = .ok (some t) := by
  rw [Util.emit_eq]
  exact ⟨_, rfl⟩

theorem Strings.sprint_ok {s : Option Strings} (h : Strings.Fit s) : ∃ t, Strings.sprint s = .ok t := by
  cases s with
  | none => exact emit_ok
  | some x =>
    show ∃ t, (if (x.words.all (fun w => decide (w.length < MAX_STRING))) = true then Util.emit (Strings.pieces x.words ++ [['\n']]) else .ub) = .ok t
    rw [if_pos (List.all_eq_true.mpr (fun w hw => decide_eq_true (h x rfl w hw)))]
    exact emit_ok

theorem Body.sprint_ok {b : Option Body} (h : ∀ x, b = some x → Body.Fit x) : ∃ t, Body.sprint b = .ok t := by
  cases b with
  | none => exact emit_ok
  | some x =>
    refine ok_bind ?_ (fun _ => ok_bind (Strings.sprint_ok (h x rfl).2) (fun _ => emit_ok))
    unfold iterPieces
    split
    · exact ok_bind (Strings.sprint_ok (h x rfl).1) (fun _ => ⟨_, rfl⟩)
    · exact ⟨_, rfl⟩

namespace Ext

theorem Lines.pieces_fit {name : Str} (hn : name.length < 100) {t : Lines} (h : Lines.Fit t) : ∃ l, Lines.pieces name t = .ok l := by
  have hw := Util.showInt_length (wrap_fits (w := 32) (.inl rfl) (t.length : Int))
  refine ok_bind (buf_fit (by simp [MAX_STRING]; omega)) (fun _ => ok_bind (buf_fit (by simp [MAX_STRING]; omega)) (fun _ => ok_bind (buf_fit (by simp [MAX_STRING]; omega)) (fun _ =>
    ok_bind (mapOut_ok (fun p hp => ?_)) (fun _ => ⟨_, rfl⟩))))
  obtain ⟨h1, h2⟩ := h p hp
  have := Util.showInt_length h1
  exact ok_bind (buf_fit (by simp [MAX_STRING]; omega)) (fun _ => ok_bind (buf_fit (by simp [MAX_STRING] at h2 ⊢; omega)) (fun _ => ⟨_, rfl⟩))

theorem Region.piecesLoop_ok {count : Nat} : ∀ {l : List Region} {step : Nat},
    (∀ r ∈ l, fits 32 r.location ∧ Lines.Fit r.pre ∧ Lines.Fit r.suf ∧ Lines.Fit r.prelude ∧ Lines.Fit r.postlude) → ∃ t, Region.piecesLoop count step l = .ok t
  | [], _, _ => ⟨_, rfl⟩
  | r :: l, step, h => by
    refine ok_bind ?_ (fun _ => ok_bind (Region.piecesLoop_ok (fun x hx => h x (List.mem_cons_of_mem _ hx))) (fun _ => ⟨_, rfl⟩))
    obtain ⟨h1, h2, h3, h4, h5⟩ := h r List.mem_cons_self
    have w1 := Util.showInt_length (wrap_fits (w := 32) (.inl rfl) ((step + 1 : Nat) : Int))
    have w2 := Util.showInt_length (wrap_fits (w := 32) (.inl rfl) (count : Int))
    have w3 := Util.showInt_length h1
    refine ok_bind (buf_fit ?_) (fun _ => ok_bind (buf_fit ?_) (fun _ => ok_bind (Lines.pieces_fit (by decide) h2) (fun _ => ok_bind (Lines.pieces_fit (by decide) h3) (fun _ =>
      ok_bind (Lines.pieces_fit (by decide) h4) (fun _ => ok_bind (Lines.pieces_fit (by decide) h5) (fun _ => ⟨_, rfl⟩))))))
    · simp only [List.length_append]
      have : "# Region number ".toList.length = 16 := rfl
      have : " / ".toList.length = 3 := rfl
      have : " \n".toList.length = 2 := rfl
      unfold MAX_STRING
      omega
    · simp [MAX_STRING]; omega

theorem Region.sprint_ok {l : List Region} (h : ∀ r ∈ l, fits 32 r.location ∧ Lines.Fit r.pre ∧ Lines.Fit r.suf ∧ Lines.Fit r.prelude ∧ Lines.Fit r.postlude) : ∃ t, Region.sprint l = .ok t := by
  have W : ∀ z : Int, (showInt (wrap 32 z)).length ≤ 11 := fun z => Util.showInt_length (wrap_fits (w := 32) (.inl rfl) z)
  have B : ∀ z : Int, ("# Number of regions\n".toList ++ showInt (wrap 32 z) ++ "\n".toList).length < MAX_STRING := by
    intro z
    have := W z
    have : "# Number of regions\n".toList.length = 20 := rfl
    have : "\n".toList.length = 1 := rfl
    rw [List.length_append, List.length_append]
    unfold MAX_STRING
    omega
  obtain ⟨b, hb⟩ := Region.piecesLoop_ok (count := Region.count l) (step := 0) h
  obtain ⟨a, ha⟩ := buf_fit (B (Region.count l : Nat))
  unfold Region.sprint
  rw [ha, Out.ok_bind, hb, Out.ok_bind, Util.emit_eq, Out.ok_bind]
  exact ⟨_, rfl⟩

theorem Unroll.textLoop_ok : ∀ {l : List Unroll}, (∀ u ∈ l, u.iter ≠ none) →
    ∃ t, Unroll.textLoop l = .ok t ∧ t.length ≤ (l.map (fun u => (u.iter.getD []).length + (showNat u.factor).length + 64)).sum
  | [], _ => ⟨_, rfl, Nat.zero_le _⟩
  | u :: l, h => by
    obtain ⟨t, h1, h2⟩ := Unroll.textLoop_ok (fun x hx => h x (List.mem_cons_of_mem _ hx))
    cases hi : u.iter with
    | none => exact absurd hi (h u List.mem_cons_self)
    | some n =>
      unfold Unroll.textLoop
      rw [hi, h1]
      refine ⟨_, rfl, ?_⟩
      have hj : (showInt (Unroll.ofBool u.jam)).length = 1 := by cases u.jam <;> rfl
      simp only [List.length_append, List.map_cons, List.sum_cons, hi, Option.getD_some, hj]
      have : "# Iterator name\n".toList.length = 16 := rfl
      have : "\n".toList.length = 1 := rfl
      have : "# Jam\n".toList.length = 6 := rfl
      have : "# Factor\n".toList.length = 9 := rfl
      have : "# Next\n".toList.length = 7 := rfl
      have : (if l.isEmpty = true then "0\n".toList else "1\n".toList).length = 2 := by split <;> rfl
      omega

theorem Unroll.sprint_ok {l : List Unroll} (h : (∀ u ∈ l, u.iter ≠ none) ∧ (l.map (fun u => (u.iter.getD []).length + (showNat u.factor).length + 64)).sum + 20 < MAX_STRING) :
    ∃ t, Unroll.sprint l = .ok t := by
  obtain ⟨t, h1, h2⟩ := Unroll.textLoop_ok h.1
  have h3 := h.2
  unfold Unroll.sprint
  rw [h1, Out.ok_bind]
  refine ok_bind (buf_fit ?_) (fun _ => ⟨_, rfl⟩)
  have : (if l.isEmpty = true then "0\n".toList else "1\n".toList).length = 2 := by split <;> rfl
  have : "# Pluto unroll\n".toList.length = 15 := rfl
  simp only [List.length_append]
  omega

theorem Loop.pieces_ok : ∀ {l : List Loop} {k : Nat}, (∀ x ∈ l, ∀ s, x.iter = some s ∨ x.private_vars = some s ∨ x.user = some s → s.length + 1 < MAX_STRING) → ∃ t, Loop.pieces k l = .ok t
  | [], _, _ => ⟨_, rfl⟩
  | x :: l, k, h => by
    refine ok_bind ?_ (fun _ => ok_bind (Loop.pieces_ok (fun y hy => h y (List.mem_cons_of_mem _ hy))) (fun _ => ⟨_, rfl⟩))
    have h := h x List.mem_cons_self
    have P : ∀ o : Option Str, (∀ s, o = some s → s.length + 1 < MAX_STRING) → (Loop.percentS o).length + 1 < MAX_STRING := by
      intro o ho
      cases o with
      | none => decide
      | some s => exact ho s rfl
    have h1 := P x.iter (fun s e => h s (.inl e))
    have h2 := P x.private_vars (fun s e => h s (.inr (.inl e)))
    have h3 := P x.user (fun s e => h s (.inr (.inr e)))
    refine ok_bind (buf_fit (by rw [List.length_append]; exact h1)) (fun _ => ok_bind (buf_fit (by rw [List.length_append]; exact h2)) (fun _ => ok_bind ?_ (fun _ => ⟨_, rfl⟩)))
    unfold Loop.directiveText
    split
    · exact ok_bind (buf_fit (by rw [List.length_append, Nat.add_comm]; exact h3)) (fun _ => ⟨_, rfl⟩)
    · exact ⟨_, rfl⟩

theorem Dep.pieces_ok {c : Cfg} (hc : c.Valid) (hd : c.ndebug = false) : ∀ {l : List Dep} {k : Nat}, (∀ d ∈ l, Rel.Prints c d.domain ∧ (d.type = UNDEFINED ∨ 1 ≤ d.type ∧ d.type ≤ 5)) →
    ∃ t, Dep.pieces c k l = .ok t
  | [], _, _ => ⟨_, rfl⟩
  | d :: l, k, h => by
    obtain ⟨h1, h2⟩ := h d List.mem_cons_self
    refine ok_bind ?_ (fun _ => ok_bind (Rel.relation_sprint_total hc hd h1.parts h1.typed) (fun _ =>
      ok_bind (Dep.pieces_ok hc hd (fun x hx => h x (List.mem_cons_of_mem _ hx))) (fun _ => ⟨_, rfl⟩)))
    unfold Dep.typeText
    repeat (split; · exact ⟨_, rfl⟩)
    exfalso
    omega

end Ext

namespace Data

variable {S : Type} {c : Cfg} {e : Option Str} {sym : Ops S}

theorem texted_sprint {P : S → Prop} (hc : c.Valid) (hd : c.ndebug = false) (hS : ∀ s, P s → ∃ t, sym.sprint (some s) = .ok t) {d : Data S} (h : Texted c P d) :
    ∃ t, (env c e sym).sprint (Ifaces.fnsOf d.index).sprint (some d) = .ok t := by
  show ∃ t, (match (table c e sym)[d.index]? with | some o => o.sprint (some d) | none => .ub) = .ok t
  have V : ∀ {X : Type} {k : Kind S X} {o : Ops X} {x : X}, (∃ t, o.sprint (some x) = .ok t) → ∃ t, (lift k o).sprint (some (k.inj x)) = .ok t := fun {X k o x} h => by
    simp only [lift, k.proj_inj]
    exact h
  cases d with
  | strings x => exact V (k := kStrings) (o := stringsOps) (x := x) (ok_bind (Strings.sprint_ok h) (fun _ => ⟨_, rfl⟩))
  | body x => exact V (k := kBody) (o := bodyOps) (x := x) (ok_bind (Body.sprint_ok (fun y hy => by cases hy; exact h)) (fun _ => ⟨_, rfl⟩))
  | relation x => exact V (k := kRelation) (o := relationOps c e) (x := x) (ok_bind (Rel.relation_sprint_total hc hd h.parts h.typed) (fun _ => ⟨_, rfl⟩))
  | textual x => exact V (k := kTextual) (o := Ext.Textual.ops) (x := x) ⟨_, rfl⟩
  | comment x =>
    refine V (k := kComment) (o := Ext.Comment.ops) (x := x) ?_
    obtain ⟨s, h1, h2⟩ := h
    show ∃ t, Ext.Comment.sprint (some x) = .ok t
    simp only [Ext.Comment.sprint, h1, Ext.str, Out.ok_bind]
    exact ok_bind (buf_fit h2) (fun _ => ok_bind emit_ok (fun _ => ⟨_, rfl⟩))
  | null x => exact V (k := kNull) (o := Ext.Null.ops) (x := x) ⟨_, rfl⟩
  | scatinfos x => exact V (k := kScatinfos) (o := Ext.Scatinfos.ops) (x := x) (ok_bind emit_ok (fun _ => ⟨_, rfl⟩))
  | scatnames x => exact V (k := kScatnames) (o := Ext.Scatnames.ops) (x := x) (ok_bind (Strings.sprint_ok h) (fun _ => ⟨_, rfl⟩))
  | arrays x =>
    refine V (k := kArrays) (o := Ext.Arrays.ops) (x := x) (ok_bind (mapOut_ok (fun p hp => buf_fit ?_)) (fun _ => ok_bind emit_ok (fun _ => ⟨_, rfl⟩)))
    obtain ⟨h1, h2⟩ := h p hp
    have := Util.showInt_length h1
    simp [MAX_STRING] at h2 ⊢
    omega
  | coordinates x =>
    refine V (k := kCoordinates) (o := Ext.Coordinates.ops) (x := x) ?_
    obtain ⟨⟨s, h1, h2⟩, a1, a2, a3, a4, a5⟩ := h
    have a1 := Util.showInt_length a1
    have a2 := Util.showInt_length a2
    have a3 := Util.showInt_length a3
    have a4 := Util.showInt_length a4
    have a5 := Util.showInt_length a5
    show ∃ t, Ext.Coordinates.sprint (some x) = .ok t
    simp only [Ext.Coordinates.sprint, h1, Ext.str, Out.ok_bind]
    exact ok_bind (buf_fit (by simp [MAX_STRING] at h2 ⊢; omega)) (fun _ => ok_bind (buf_fit (by simp [MAX_STRING]; omega)) (fun _ => ok_bind (buf_fit (by simp [MAX_STRING]; omega)) (fun _ =>
      ok_bind (buf_fit (by simp [MAX_STRING]; omega)) (fun _ => ok_bind emit_ok (fun _ => ⟨_, rfl⟩)))))
  | clay x =>
    refine V (k := kClay) (o := Ext.Clay.ops) (x := x) ?_
    obtain ⟨s, h1, h2⟩ := h
    show ∃ t, Ext.Clay.sprint (some x) = .ok t
    simp only [Ext.Clay.sprint, h1, Ext.str, Out.ok_bind]
    exact ok_bind (buf_fit h2) (fun _ => ok_bind emit_ok (fun _ => ⟨_, rfl⟩))
  | dependence x => exact V (k := kDependence) (o := Ext.Dep.ops c e) (x := x) (ok_bind (Ext.Dep.pieces_ok hc hd h) (fun _ => ok_bind emit_ok (fun _ => ⟨_, rfl⟩)))
  | symbols s => exact V (k := kSymbols) (o := sym) (x := s) (hS s h)
  | extbody x =>
    refine V (k := kExtbody) (o := Ext.Extbody.ops) (x := x) (ok_bind (mapOut_ok (fun p hp => buf_fit ?_)) (fun _ => ok_bind (Body.sprint_ok h.2) (fun _ => ok_bind emit_ok (fun _ => ⟨_, rfl⟩))))
    obtain ⟨h1, h2⟩ := h.1 p hp
    have := Util.showInt_length h1
    have := Util.showInt_length h2
    simp [MAX_STRING]
    omega
  | loop x => exact V (k := kLoop) (o := Ext.Loop.ops) (x := x) (ok_bind (Ext.Loop.pieces_ok h) (fun _ => ok_bind emit_ok (fun _ => ⟨_, rfl⟩)))
  | unroll x => exact V (k := kUnroll) (o := Ext.Unroll.ops) (x := x) (Ext.Unroll.sprint_ok h)
  | region x => exact V (k := kRegion) (o := Ext.Region.ops) (x := x) (Ext.Region.sprint_ok h)
  | annotation x =>
    exact V (k := kAnnotation) (o := Ext.Annotation.ops) (x := x) (ok_bind (Ext.Lines.pieces_fit (by decide) h.1) (fun _ => ok_bind (Ext.Lines.pieces_fit (by decide) h.2) (fun _ =>
      ok_bind emit_ok (fun _ => ⟨_, rfl⟩))))

end Data

/-! ## Lists of extensions -/

theorem registry_short : ∀ i ∈ defaultRegistry, ∃ u, i.URI = some u ∧ u.length + 4 < MAX_STRING := by
  have : ∀ i ∈ defaultRegistry, i.URI.isSome = true ∧ (i.URI.getD []).length + 4 < MAX_STRING := by decide
  intro i hi
  obtain ⟨h1, h2⟩ := this i hi
  obtain ⟨u, hu⟩ := Option.isSome_iff_exists.mp h1
  rw [hu] at h2
  exact ⟨u, hu, h2⟩

theorem glist_sprint_ok {D : Type} {E : Env D} : ∀ {l : GList D}, (∀ g ∈ l, ∃ i, g.interface = some i ∧ (∃ u, i.URI = some u ∧ u.length + 4 < MAX_STRING) ∧ ∃ t, E.sprint i.fns.sprint g.data = .ok t) →
    ∃ t, GList.piecesLoop E l = .ok t
  | [], _ => ⟨_, rfl⟩
  | g :: l, h => by
    refine ok_bind ?_ (fun _ => ok_bind (glist_sprint_ok (fun x hx => h x (List.mem_cons_of_mem _ hx))) (fun _ => ⟨_, rfl⟩))
    obtain ⟨i, h1, ⟨u, h2, h3⟩, t, h4⟩ := h g List.mem_cons_self
    unfold GList.pieces
    rw [h1]
    show ∃ a, (E.sprint i.fns.sprint g.data >>= _) = .ok a
    rw [h4]
    cases t with
    | none => exact ⟨_, rfl⟩
    | some t =>
      simp only [Out.ok_bind, h2]
      rw [if_pos h3]
      exact ⟨_, rfl⟩

theorem full_sprint {S : Type} {c : Cfg} {e : Option Str} {sym : Ops S} {P : S → Prop} (hc : c.Valid) (hd : c.ndebug = false) (hS : ∀ s, P s → ∃ t, sym.sprint (some s) = .ok t)
    {g : Generic (Data S)} (h : Full (Data.Texted c P) g) :
    ∃ i, g.interface = some i ∧ (∃ u, i.URI = some u ∧ u.length + 4 < MAX_STRING) ∧ ∃ t, (Data.env c e sym).sprint i.fns.sprint g.data = .ok t := by
  obtain ⟨d, h1, h2, h3⟩ := h
  obtain ⟨i, h4, h5, _⟩ := Data.registry_get (Data.index_lt d)
  refine ⟨i, by rw [h2, h4], registry_short i (List.mem_of_getElem? h4), ?_⟩
  rw [h5, h1]
  exact Data.texted_sprint hc hd hS h3

theorem Ext.Symbol.piecesLoop_ok {D : Type} {E : Env D} : ∀ {l : List (Symbol D)},
    (∀ y ∈ l, (∃ t, GList.sprint E y.identifier = .ok t) ∧ (∃ t, GList.sprint E y.datatype = .ok t) ∧ (∃ t, GList.sprint E y.scope = .ok t) ∧ ∃ t, GList.sprint E y.extent = .ok t) →
    ∃ t, Symbol.piecesLoop E l = .ok t
  | [], _ => ⟨_, rfl⟩
  | y :: l, h => by
    obtain ⟨h1, h2, h3, h4⟩ := h y List.mem_cons_self
    exact ok_bind (ok_bind h1 (fun _ => ok_bind h2 (fun _ => ok_bind h3 (fun _ => ok_bind h4 (fun _ => ⟨_, rfl⟩)))))
      (fun _ => ok_bind (Ext.Symbol.piecesLoop_ok (fun x hx => h x (List.mem_cons_of_mem _ hx))) (fun _ => ⟨_, rfl⟩))

/-- Extensions of the library have a text. -/
theorem text_defined {c : Cfg} {e : Option Str} (hc : c.Valid) (hd : c.ndebug = false) : ∀ (n : Nat) {l : GList (DataAt n)}, Textful c n l → ∃ t, GList.sprint (envAt c e n) l = .ok t
  | 0, l, h => ok_bind (glist_sprint_ok (fun g hg => full_sprint (sym := noSymbols) hc hd (fun s => nomatch s) (h g hg))) (fun _ => emit_ok)
  | n + 1, l, h => by
    refine ok_bind (glist_sprint_ok (fun g hg => full_sprint (sym := Symbol.ops (envAt c e n) defaultRegistry) hc hd (fun s hs => ?_) (h g hg))) (fun _ => emit_ok)
    refine ok_bind (Ext.Symbol.piecesLoop_ok (l := NE.elems (some s)) (fun y hy => ?_)) (fun _ => ok_bind emit_ok (fun _ => ⟨_, rfl⟩))
    obtain ⟨h1, h2, h3, h4⟩ := hs y hy
    exact ⟨text_defined hc hd n h1, text_defined hc hd n h2, text_defined hc hd n h3, text_defined hc hd n h4⟩

end Osl
