import Verif.DumpLevel
/-!
# The level of a display: the extensions

The display functions of the annotation and region extensions do not respect the level.
-/

set_option linter.unusedSectionVars false

namespace Osl
namespace Dump

open Ext

/-! ## Names and bodies -/

/-- C71: `osl_names_idump`. -/
theorem names_level {x : Option Names} (h : ∀ n, x = some n → ∀ s ∈ [n.parameters, n.iterators, n.scatt_dims, n.local_dims, n.arrays], StringsLine s) :
    Levelled fun n => .ok (names x n) := by
  cases x with
  | none => exact LS.ok (g := fun n => line n "+-- NULL names".toList ++ blank (n + 1)) (by lvl)
  | some x =>
    have h := h x rfl
    have h1 := (LS.strings (h x.parameters (by simp))).add 1
    have h2 := (LS.strings (h x.iterators (by simp))).add 1
    have h3 := (LS.strings (h x.scatt_dims (by simp))).add 1
    have h4 := (LS.strings (h x.local_dims (by simp))).add 1
    have h5 := (LS.strings (h x.arrays (by simp))).add 1
    simp only [names]
    exact LS.ok (by lvl)

/-- No end of line in a body. -/
def BodyLine (b : Option Body) : Prop := ∀ x, b = some x → StringsLine x.iterators ∧ StringsLine x.expression

theorem LS.body {b : Option Body} (h : BodyLine b) : LS fun n => body b n := by
  cases b with
  | none => simp only [Dump.body]; lvl
  | some x =>
    have h1 := (LS.strings (h x rfl).1).add 1
    have h2 := (LS.strings (h x rfl).2).add 1
    simp only [Dump.body]
    lvl

/-- C71: `osl_body_idump`. -/
theorem body_level {b : Option Body} (h : BodyLine b) : Levelled fun n => .ok (body b n) := (LS.body h).ok

/-! ## Texts -/

theorem NoNL.take {s : Str} (h : NoNL s) (n : Nat) : NoNL (s.take n) := fun hm => h (List.mem_of_mem_take hm)
theorem NoNL.drop {s : Str} (h : NoNL s) (n : Nat) : NoNL (s.drop n) := fun hm => h (List.mem_of_mem_drop hm)

/-- C71: `osl_textual_idump`, whatever the text. -/
theorem textual_level (x : Option Textual) : Levelled fun n => textual x n := by
  cases x with
  | none => exact LS.ok (g := fun n => line n "+-- NULL textual".toList ++ blank (n + 1)) (by lvl)
  | some x =>
    simp only [textual]
    refine Levelled.const fun s _ => ?_
    have h := oneLine_noNL s
    have h' : NoNL (if (oneLine s).length > 40 then (oneLine s).take 20 ++ "   ...   ".toList ++ (oneLine s).drop ((oneLine s).length - 20) else oneLine s) := by
      split
      · exact ((NoNL.take h _).append (noNL_lit (by simp))).append (NoNL.drop h _)
      · exact h
    exact LS.ok (by lvl)

/-- C71: `osl_comment_idump`, whatever the comment. -/
theorem comment_level (x : Option Comment) : Levelled fun n => comment x n := by
  cases x with
  | none => exact LS.ok (g := fun n => line n "+-- NULL comment".toList ++ blank (n + 1)) (by lvl)
  | some x =>
    simp only [comment]
    refine Levelled.const fun s _ => ?_
    have h := oneLine_noNL s
    exact LS.ok (by lvl)

/-- C71: `osl_clay_idump`, whatever the script. -/
theorem clay_level (x : Option Clay) : Levelled fun n => clay x n := by
  cases x with
  | none => exact LS.ok (g := fun n => line n "+-- NULL clay".toList ++ blank (n + 1)) (by lvl)
  | some x =>
    simp only [clay]
    refine Levelled.const fun s _ => ?_
    have h := oneLine_noNL s
    exact LS.ok (by lvl)

/-! ## Numbers and names -/

/-- C71: `osl_null_idump`. -/
theorem null_level (x : Option Null) : Levelled fun n => .ok (null x n) := by
  cases x <;> simp only [null] <;> exact LS.ok (by lvl)

/-- C71: `osl_scatinfos_idump`. -/
theorem scatinfos_level (x : Option Scatinfos) : Levelled fun n => .ok (scatinfos x n) := by
  cases x with
  | none => simp only [scatinfos]; exact LS.ok (by lvl)
  | some x =>
    have h1 := intList_noNL x.parallel
    have h2 := intList_noNL x.permutable
    have h3 := intList_noNL x.type
    simp only [scatinfos]
    exact LS.ok (by lvl)

/-- C71: `osl_scatnames_idump`. -/
theorem scatnames_level {x : Option Scatnames} (h : ∀ y, x = some y → StringsLine y.names) : Levelled fun n => .ok (scatnames x n) := by
  cases x with
  | none => simp only [scatnames]; exact LS.ok (by lvl)
  | some x =>
    have h1 := (LS.strings (h x rfl)).add 1
    simp only [scatnames]
    exact LS.ok (by lvl)

/-- C71: `osl_arrays_idump`. -/
theorem arrays_level {x : Option Arrays} (h : ∀ y, x = some y → ∀ p ∈ y.pairs, NoNL p.2) : Levelled fun n => .ok (arrays x n) := by
  cases x with
  | none => simp only [arrays]; exact LS.ok (by lvl)
  | some x =>
    have h1 : LS fun n => (x.pairs.map fun p => line (n + 1) ("id: ".toList ++ padLeft 2 (showInt p.1) ++ ", name: ".toList ++ p.2)).flatten := by
      refine LS.flatten (f := fun n (p : Int × Str) => line (n + 1) ("id: ".toList ++ padLeft 2 (showInt p.1) ++ ", name: ".toList ++ p.2)) fun p hp => ?_
      have := h x rfl p hp
      lvl
    simp only [arrays]
    exact LS.ok (by lvl)

/-- C71: `osl_coordinates_idump`. -/
theorem coordinates_level {x : Option Coordinates} (h : ∀ y, x = some y → ∀ s, y.name = some s → NoNL s) : Levelled fun n => .ok (coordinates x n) := by
  cases x with
  | none => simp only [coordinates]; exact LS.ok (by lvl)
  | some x =>
    have h1 : NoNL (coordName x.name) := by
      cases hn : x.name with
      | none => exact noNL_lit (by simp)
      | some s => exact NoNL.append (noNL_lit (by simp)) (h x rfl s hn)
    simp only [coordinates]
    exact LS.ok (by lvl)

/-- C71: `osl_extbody_idump`. -/
theorem extbody_level {x : Option Extbody} (h : ∀ y, x = some y → BodyLine y.body) : Levelled fun n => .ok (extbody x n) := by
  cases x with
  | none => simp only [extbody]; exact LS.ok (by lvl)
  | some x =>
    have h1 : LS fun n => (x.access.map fun p => line (n + 1) ("start: ".toList ++ showInt p.1 ++ ", length: ".toList ++ showInt p.2)).flatten := by
      refine LS.flatten (f := fun n (p : Int × Int) => line (n + 1) ("start: ".toList ++ showInt p.1 ++ ", length: ".toList ++ showInt p.2)) fun p hp => ?_
      lvl
    have h2 := LS.body (h x rfl)
    simp only [extbody]
    exact LS.ok (by lvl)

/-! ## Linked extensions -/

/-- C71: `osl_loop_idump`. -/
theorem loop_level {l : List Loop} (h : ∀ x ∈ l, LoopShown x) : Levelled fun n => loop l n := by
  simp only [loop_eq]
  refine Levelled.linked (by lvl) (fun _ _ => by lvl) (fun _ _ _ => by lvl) (fun x hx => ?_) (by lvl) (by lvl)
  simp only [loopBody]
  refine Levelled.const fun s1 h1 => Levelled.const fun s2 h2 => Levelled.const fun s3 h3 => ?_
  have h1 := (h x hx).1 s1 (str_ok h1)
  have h2 := (h x hx).2.1 s2 (str_ok h2)
  have h3 := (h x hx).2.2 s3 (str_ok h3)
  have h4 := padList_noNL x.stmt_ids
  exact LS.ok (by lvl)

/-- C71: `osl_pluto_unroll_idump`. -/
theorem unroll_level {l : List Unroll} (h : ∀ x ∈ l, UnrollShown x) : Levelled fun n => unroll l n := by
  simp only [unroll_eq]
  refine Levelled.linked (by lvl) (fun _ _ => by lvl) (fun _ _ _ => by lvl) (fun x hx => ?_) (by lvl) (by lvl)
  simp only [unrollBody]
  refine Levelled.const fun s1 h1 => ?_
  have h1 := h x hx s1 (str_ok h1)
  exact LS.ok (by lvl)

section
variable {D : Type}

/-- C71: `osl_dependence_idump`. -/
theorem dependence_level (c : Cfg) {F : Fn D} {Q : Option D → Prop} (hF : FLevel F Q) {l : List (DepPtrs D)}
    (h : ∀ x ∈ l, ∀ s, x.source = some s ∨ x.target = some s → ∀ g ∈ s.extension, GenericLine Q g) :
    Levelled fun n => dependence c F l n := by
  have hs : ∀ o : Option (Stmt D), (∀ s, o = some s → ∀ g ∈ s.extension, GenericLine Q g) → Levelled fun n => depStmt c F o n := by
    intro o ho
    cases o with
    | none => exact Levelled.ub
    | some s => exact statement_level c hF fun x hx => List.mem_singleton.mp hx ▸ ho s rfl
  simp only [dependence_eq]
  refine Levelled.linked (by lvl) (fun _ _ => by lvl) (fun _ _ _ => by lvl) (fun x hx => ?_) (by lvl) (by lvl)
  simp only [depBody]
  refine ((hs x.source fun s e => h x hx s (.inl e)).add 1).bind fun _ _ _ => ?_
  refine ((hs x.target fun s e => h x hx s (.inr e)).add 1).bind fun _ _ _ => ?_
  refine ((relation_level c x.dep.domain).add 1).bind fun _ _ _ => ?_
  have h1 := depType_noNL x.dep.type
  have h2 := Dep.dimsLine_noNL x.dep
  exact LS.ok (by lvl)

/-- C71: `osl_symbols_idump`. -/
theorem symbols_level {F : Fn D} {Q : Option D → Prop} (hF : FLevel F Q) {l : List (Symbol D)}
    (h : ∀ x ∈ l, ∀ e ∈ [x.identifier, x.datatype, x.scope, x.extent], ∀ g ∈ e, GenericLine Q g) : Levelled fun n => symbols F l n := by
  simp only [symbols_eq]
  refine Levelled.linked (by lvl) (fun _ _ => by lvl) (fun _ _ _ => by lvl) (fun x hx => ?_) (by lvl) (by lvl)
  have h := h x hx
  simp only [symBody]
  refine ((generic_level hF (h x.identifier (by simp))).add 1).bind fun _ _ _ => ?_
  refine ((generic_level hF (h x.datatype (by simp))).add 1).bind fun _ _ _ => ?_
  refine ((generic_level hF (h x.scope (by simp))).add 1).bind fun _ _ _ => ?_
  refine ((generic_level hF (h x.extent (by simp))).add 1).bind fun _ _ _ => ?_
  have h1 := symType_noNL x.type
  have h2 : NoNL (if x.generated ≠ UNDEFINED then "+-- Origin: ".toList ++ showInt x.generated else "+-- Undefined origin".toList) :=
    optional_noNL (by nonl) (by nonl)
  have h3 : NoNL (if x.nb_dims ≠ UNDEFINED then "+-- Number of Dimensions: ".toList ++ showInt x.nb_dims else "+-- Undefined number of dimensions".toList) :=
    optional_noNL (by nonl) (by nonl)
  exact LS.ok (by lvl)

end

/-! ## The default registry -/

section
variable {S : Type}

/-- The data displayed line by line at the right level: no end of line inside a text, no annotation, no region; `PS` for the symbols. -/
def DataLine (PS : S → Prop) : Data S → Prop
  | .strings x => StringsLine (some x)
  | .body x => BodyLine (some x)
  | .scatnames x => StringsLine x.names
  | .arrays x => ∀ p ∈ x.pairs, NoNL p.2
  | .coordinates x => ∀ s, x.name = some s → NoNL s
  | .symbols x => PS x
  | .extbody x => BodyLine x.body
  | .loop x => ∀ y ∈ NE.elems (some x), LoopShown y
  | .unroll x => ∀ y ∈ NE.elems (some x), UnrollShown y
  | .region _ => False
  | .annotation _ => False
  | _ => True

/-- NULL, or data displayed line by line. -/
def Lined (PS : S → Prop) (d : Option (Data S)) : Prop := ∀ x, d = some x → DataLine PS x

theorem fns_level (c : Cfg) {sym : Option S → Nat → Out Str} {PS : S → Prop} (hs : ∀ o, (∀ x, o = some x → PS x) → Levelled fun n => sym o n) :
    FLevel (fns c sym) (Lined PS) := by
  have go : ∀ {X : Type} (k : Data.Kind S X) {f : Option X → Nat → Out Str} (d : Option (Data S)), Lined PS d →
      (∀ d x, k.proj d = some x → d = k.inj x) → (∀ o : Option X, (∀ x, o = some x → DataLine PS (k.inj x)) → Levelled fun n => f o n) →
      Levelled fun n => lift k f d n := by
    intro X k f d hd hk h
    cases d with
    | none => exact h none fun x hx => (by cases hx)
    | some d =>
      simp only [lift]
      cases hp : k.proj d with
      | none => exact Levelled.ub
      | some x =>
        refine h (some x) fun y hy => ?_
        injection hy with hy
        subst hy
        have := hd d rfl
        rw [hk d x hp] at this
        exact this
  have he : ∀ {X : Type} (o : Option (NE X)) (P : X → Prop), (∀ x, o = some x → ∀ y ∈ NE.elems (some x), P y) → ∀ y ∈ NE.elems o, P y := by
    intro X o P h y hy
    cases o with
    | none => cases hy
    | some x => exact h x rfl y hy
  intro k d hd
  match k with
  | 0 => exact go Data.kStrings d hd (fun d x h => by cases d <;> cases h; rfl) fun o h => strings_level fun x hx => h x hx x rfl
  | 1 => exact go Data.kBody d hd (fun d x h => by cases d <;> cases h; rfl) fun o h => body_level fun x hx => h x hx x rfl
  | 2 => exact go Data.kRelation d hd (fun d x h => by cases d <;> cases h; rfl) fun o _ => relation_level c _
  | 3 => exact go Data.kTextual d hd (fun d x h => by cases d <;> cases h; rfl) fun o _ => textual_level o
  | 4 => exact go Data.kComment d hd (fun d x h => by cases d <;> cases h; rfl) fun o _ => comment_level o
  | 5 => exact go Data.kNull d hd (fun d x h => by cases d <;> cases h; rfl) fun o _ => null_level o
  | 6 => exact go Data.kScatinfos d hd (fun d x h => by cases d <;> cases h; rfl) fun o _ => scatinfos_level o
  | 7 => exact go Data.kScatnames d hd (fun d x h => by cases d <;> cases h; rfl) fun o h => scatnames_level h
  | 8 => exact go Data.kArrays d hd (fun d x h => by cases d <;> cases h; rfl) fun o h => arrays_level h
  | 9 => exact go Data.kCoordinates d hd (fun d x h => by cases d <;> cases h; rfl) fun o h => coordinates_level h
  | 10 => exact go Data.kClay d hd (fun d x h => by cases d <;> cases h; rfl) fun o _ => clay_level o
  | 11 =>
    refine go Data.kDependence (f := fun x n => dependence (D := Empty) c (fun _ _ _ => .ub) ((NE.elems x).map fun d => ⟨d, none, none⟩) n) d hd (fun d x h => by cases d <;> cases h; rfl) fun o _ => ?_
    refine dependence_level c (Q := fun _ => True) (fun _ _ _ => Levelled.ub) fun x hx s hs => ?_
    obtain ⟨y, _, rfl⟩ := List.mem_map.mp hx
    rcases hs with hs | hs <;> cases hs
  | 12 => exact go Data.kSymbols d hd (fun d x h => by cases d <;> cases h; rfl) fun o h => hs o h
  | 13 => exact go Data.kExtbody d hd (fun d x h => by cases d <;> cases h; rfl) fun o h => extbody_level h
  | 14 => exact go Data.kLoop d hd (fun d x h => by cases d <;> cases h; rfl) fun o h => loop_level (he o _ h)
  | 15 => exact go Data.kUnroll d hd (fun d x h => by cases d <;> cases h; rfl) fun o h => unroll_level (he o _ h)
  | 16 =>
    refine go Data.kRegion (f := fun x n => region (NE.elems x) n) d hd (fun d x h => by cases d <;> cases h; rfl) fun o h => ?_
    cases o with
    | none => exact LS.ok (g := fun n => line n "+-- NULL region".toList ++ [] ++ blank (n + 0)) (by lvl)
    | some x => exact (h x rfl).elim
  | 17 =>
    refine go Data.kAnnotation (f := annotation) d hd (fun d x h => by cases d <;> cases h; rfl) fun o h => ?_
    cases o with
    | none => exact Levelled.ub
    | some x => exact (h x rfl).elim
  | k + 18 => exact Levelled.ub

end

/-- The data, with symbols nested at most `n` times, displayed line by line. -/
def LinedAt : (n : Nat) → Option (DataAt n) → Prop
  | 0 => Lined fun _ => True
  | n + 1 => Lined fun x : NE (Symbol (DataAt n)) => ∀ s ∈ NE.elems (some x), ∀ e ∈ [s.identifier, s.datatype, s.scope, s.extent], ∀ g ∈ e,
      GenericLine (LinedAt n) g

/-- C71: the display functions of the default registry respect the level. -/
theorem fnsAt_level (c : Cfg) : ∀ n, FLevel (fnsAt c n) (LinedAt n) := by
  intro n
  induction n with
  | zero => exact fns_level c fun o _ => Levelled.ub
  | succ n ih =>
    refine fns_level c fun o h => symbols_level ih fun x hx => ?_
    cases o with
    | none => cases hx
    | some y => exact h y rfl x hx

/-- C71: the text of `osl_scop_idump` at a level is that of `osl_scop_dump` with bars before each line. -/
theorem scop_dump_level (c : Cfg) (depth : Nat) {l : Scops (DataAt depth)} (h : ∀ s ∈ l, ScopLine (LinedAt depth) s) {t : Str}
    (h0 : scop c (fnsAt c depth) l 0 = .ok t) : ∃ ls : List Str, (∀ l ∈ ls, NoNL l) ∧ t = (ls.map fun l => l ++ ['\n']).flatten ∧
    ∀ n, scop c (fnsAt c depth) l n = .ok (ls.map fun l => bars n ++ l ++ ['\n']).flatten :=
  (scop_level c (fnsAt_level c depth) h).shift h0

/-! ## Findings -/

theorem indented_head {n : Nat} {t : Str} (h : Indented (n + 1) t) (ht : t ≠ []) : t.head? = some '|' := by
  obtain ⟨ls, _, rfl⟩ := h
  cases ls with
  | nil => exact absurd rfl ht
  | cons l ls => rfl

/-- After a line, an indented text goes on with a line. -/
theorem indented_tail {n : Nat} {s u : Str} (hs : NoNL s) (h : Indented (n + 1) (s ++ '\n' :: u)) : Indented (n + 1) u := by
  obtain ⟨ls, h1, e⟩ := h
  cases ls with
  | nil => cases s <;> cases e
  | cons l ls =>
    simp only [List.map_cons, List.flatten_cons, List.append_assoc, List.cons_append, List.nil_append] at e
    rw [← List.append_assoc] at e
    obtain ⟨_, e2⟩ := split_line hs ((bars_noNL _).append (h1 l (List.mem_cons_self ..))) e
    exact ⟨ls, fun x hx => h1 x (List.mem_cons_of_mem _ hx), by rw [e2]; simp only [List.append_assoc]⟩

/-- Finding (C71): `osl_annotation_idump` writes the lines of the texts without bars, at any level but 0. -/
theorem annotation_level_violates {a : Annotation} {ty : Int} {s : Str} {ls : Lines} (h : a.pre = (ty, s) :: ls) {n : Nat} {t : Str}
    (ht : annotation (some a) (n + 1) = .ok t) : ¬ Indented (n + 1) t := by
  injection ht with ht
  subst ht
  intro hi
  simp only [h, textLines, List.append_assoc, line, blank] at hi
  have hi := indented_tail (s := bars (n + 1) ++ "+-- osl_annotation_t".toList) (by nonl) (by simpa using hi)
  have hi := indented_tail (s := bars (n + 1)) (by nonl) (by simpa using hi)
  have hi := indented_tail (s := bars (n + 1 + 2) ++ ("+--type ".toList ++ (showNat 0 ++ (": ".toList ++ showInt ty)))) (by nonl) (by simpa using hi)
  have := indented_head hi (by simp [bars])
  simp [bars] at this

/-- Finding (C71): the same for `osl_region_idump`. -/
theorem region_level_violates {r : Region} {l : List Region} {ty : Int} {s : Str} {ls : Lines} (h : r.pre = (ty, s) :: ls) {n : Nat} {t : Str}
    (ht : region (r :: l) (n + 1) = .ok t) : ¬ Indented (n + 1) t := by
  simp only [region, nodes, Out.ok_bind, Out.bind_eq_ok, Out.pure_eq] at ht
  obtain ⟨x, ⟨y, _, e1⟩, e2⟩ := ht
  injection e1 with e1
  subst e1
  injection e2 with e2
  subst e2
  intro hi
  simp only [h, regionBody, textLines, List.append_assoc, line, blank, if_pos] at hi
  have hi := indented_tail (s := bars (n + 1) ++ "+-- osl_region_t".toList) (by nonl) (by simpa using hi)
  have hi := indented_tail (s := bars (n + 1)) (by nonl) (by simpa using hi)
  have hi := indented_tail (s := bars (n + 1) ++ ("+--location: ".toList ++ showInt r.location)) (by nonl) (by simpa using hi)
  have hi := indented_tail (s := bars (n + 1 + 2) ++ ("+--type ".toList ++ (showNat 0 ++ (": ".toList ++ showInt ty)))) (by nonl) (by simpa using hi)
  have := indented_head hi (by simp [bars])
  simp [bars] at this

end Dump
end Osl
