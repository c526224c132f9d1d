import Verif.HeapExt
import Verif.HeapScopProps
/-!
# The data of the extensions in memory: arrays, simple extensions (C56)
-/

set_option linter.unusedSectionVars false

namespace Osl.Mem

open Osl.Ext

/-! ## Arrays -/

/-- The memory of an array of integers: NULL is an empty array. -/
def intsAt (p : Ptr) (l : List Int) : Assn := if p = 0 then pur (l = []) else p ↦ .node l []

/-- The memory of an array of strings, without a final NULL: NULL is an empty array. -/
def strsAt (p : Ptr) (ws : List Str) : Assn := if p = 0 then pur (ws = []) else ex fun ps => p ↦ .ptrs ps ∗ wordsAt ps ws

theorem intsAt_null {l : List Int} : intsAt 0 l = pur (l = []) := if_pos rfl

theorem intsAt_ne {p : Ptr} (hp : p ≠ 0) {l : List Int} : intsAt p l = p ↦ .node l [] := if_neg hp

theorem strsAt_null {ws : List Str} : strsAt 0 ws = pur (ws = []) := if_pos rfl

theorem strsAt_ne {p : Ptr} (hp : p ≠ 0) {ws : List Str} : strsAt p ws = ex fun ps => p ↦ .ptrs ps ∗ wordsAt ps ws := if_neg hp

theorem ints_intro {p : Ptr} {l : List Int} : ∀ h, (p ↦ .node l []) h → intsAt p l h := by
  intro h hh
  rw [intsAt_ne hh.1]
  exact hh

theorem strs_intro {p : Ptr} {ps : List Ptr} {ws : List Str} : ∀ h, (p ↦ .ptrs ps ∗ wordsAt ps ws) h → strsAt p ws h := by
  intro h hh
  rw [strsAt_ne (pto_ne_sep h hh)]
  exact ⟨ps, hh⟩

theorem freeIf_eq (p : Ptr) : freeIf p = free p := by
  unfold freeIf
  by_cases h : p = 0
  · subst h
    rfl
  · rw [if_pos h]

theorem free_str {u : Ptr} {o : Option Str} : Triple (uriAt u o) (free u) (fun _ => emp) := by
  rw [← freeIf_eq]
  exact freeUri_spec

theorem freeIf_str {u : Ptr} {o : Option Str} : Triple (uriAt u o) (freeIf u) (fun _ => emp) := freeUri_spec

theorem free_ints {p : Ptr} {l : List Int} : Triple (intsAt p l) (free p) (fun _ => emp) := by
  by_cases hp : p = 0
  · subst hp
    rw [intsAt_null]
    exact Triple.fact1 (fun _ => Triple.freeNull)
  · rw [intsAt_ne hp]
    exact Triple.free _ _

theorem freeIf_ints {p : Ptr} {l : List Int} : Triple (intsAt p l) (freeIf p) (fun _ => emp) := by
  rw [freeIf_eq]
  exact free_ints

variable [Allocator]

theorem nth_append_mid {α : Type} {a b : List α} {x : α} {i : Nat} (h : a.length = i) : nth (a ++ x :: b) i = .ok x := nth_mid (by omega)

theorem setNth_append_mid {α : Type} : ∀ {a b : List α} {x y : α} {i : Nat}, a.length = i → setNth (a ++ x :: b) i y = .ok (a ++ y :: b) := by
  intro a b x y i h
  subst h
  simp [setNth]

theorem copyInts_loop {src dst : Ptr} : ∀ (b a : List Int) (i : Nat), a.length = i →
    Triple (src ↦ .node (a ++ b) [] ∗ dst ↦ .node (a ++ List.replicate b.length 0) []) (copyInts src dst b.length i)
      (fun _ => src ↦ .node (a ++ b) [] ∗ dst ↦ .node (a ++ b) [])
  | [], a, i, hi => by
    show Triple _ (pure ()) _
    exact Triple.ret (fun h hh => hh)
  | x :: b, a, i, hi => by
    show Triple (_ ∗ dst ↦ .node (a ++ 0 :: List.replicate b.length 0) []) (getInt src i >>= fun x => setInt dst i x >>= fun _ => copyInts src dst b.length (i + 1)) _
    hstep (getInt_spec (nth_append_mid hi))
    hstep (setInt_spec (setNth_append_mid hi))
    have := copyInts_loop (src := src) (dst := dst) b (a ++ [x]) (i + 1) (by simp [hi])
    simp only [List.append_assoc, List.cons_append, List.nil_append] at this
    exact this.pre (fun h hh => hh.perm (by ac_rfl))

theorem copyInts_spec {src dst : Ptr} {l : List Int} {n : Nat} (hn : n = l.length) :
    Triple (intsAt src l ∗ dst ↦ .node (List.replicate n 0) []) (copyInts src dst n 0) (fun _ => intsAt src l ∗ intsAt dst l) := by
  subst hn
  by_cases hs : src = 0
  · subst hs
    rw [intsAt_null]
    refine Triple.fact (fun hl => ?_)
    subst hl
    refine Triple.ret (fun h hh => ?_)
    rw [pur_true rfl, emp_sep]
    exact ints_intro h hh
  · rw [intsAt_ne hs]
    refine (copyInts_loop (src := src) (dst := dst) l [] 0 rfl).post (fun _ h hh => sep_mono (fun _ h => h) (fun h hh => ints_intro h hh) hh)

theorem allocInts_spec {n : Nat} : Triple emp (allocInts n) (fun p => p ↦ .node (List.replicate n 0) []) := Triple.alloc _

theorem allocPtrs_spec {n : Nat} : Triple emp (allocPtrs n) (fun p => p ↦ .ptrs (List.replicate n 0)) := Triple.alloc _

theorem copyInt_spec {p q : Ptr} {is js js' : List Int} {l m : List Ptr} {i : Nat} {x : Int} (h : nth is i = .ok x) (h' : setNth js i x = .ok js') :
    Triple (p ↦ .node is l ∗ q ↦ .node js m) (copyInt p q i) (fun _ => p ↦ .node is l ∗ q ↦ .node js' m) := by
  unfold copyInt
  hstep (getInt_spec h)
  hlast (setInt_spec h')
  hret

theorem libcStrdup_spec {s : Ptr} {w : Str} : Triple (s ↦ .chars w) (libcStrdup s) (fun d => s ↦ .chars w ∗ d ↦ .chars w) := by
  unfold libcStrdup
  refine Triple.loadStep (F := emp) (by rw [sep_emp]) ?_
  refine Triple.liftStep (a := w) rfl ?_
  exact Triple.last (P := emp) (F := s ↦ .chars w) (Triple.alloc _) (by rw [emp_sep]) (fun d h hh => hh.perm (by ac_rfl))

/-! ## The memory of one kind of data -/

/-- The memory of a kind of data (specification): where a value is, what the functions `free` and `clone` do.  `nullOk` tells whether
they accept NULL. -/
structure KindMem (X : Type) (o : Ops X) where
  free : Ptr → M Unit
  clone : Ptr → M Ptr
  at_ : Ptr → X → Assn
  nullOk : Bool
  nonnull : ∀ {p x h}, at_ p x h → p ≠ 0
  null_clone : ∀ {d}, o.clone (some d) ≠ .ok none
  free_spec : ∀ {p d}, (d = none → nullOk = true) → Triple (optAt at_ p d) (free p) (fun _ => emp)
  clone_spec : ∀ {p d d'}, o.clone d = .ok d' → Triple (optAt at_ p d) (clone p) (fun q => optAt at_ p d ∗ optAt at_ q d')

theorem optAt_none {X : Type} {f : Ptr → X → Assn} {p : Ptr} : optAt f p none = pur (p = 0) := rfl
theorem optAt_some {X : Type} {f : Ptr → X → Assn} {p : Ptr} {x : X} : optAt f p (some x) = f p x := rfl

/-- How to prove the specification of `free` for a function which accepts NULL. -/
theorem free_cases {X : Type} {f : Ptr → X → Assn} {p : Ptr} {d : Option X} {m m' : M Unit} {Q : Unit → Assn} (hne : ∀ {p x h}, f p x h → p ≠ 0)
    (h0 : Triple emp m' Q) (h : ∀ x, Triple (f p x) m Q) : Triple (optAt f p d) (if p ≠ 0 then m else m') Q := by
  cases d with
  | none =>
    refine Triple.fact1 (fun hp => ?_)
    rw [if_neg (by simp [hp])]
    exact h0
  | some x =>
    refine Triple.of_fact (φ := p ≠ 0) (fun h hh => hne hh) (fun hp => ?_)
    rw [if_pos hp]
    exact h x

/-- How to prove the specification of `clone` for a function which accepts NULL. -/
theorem clone_cases {X : Type} {f : Ptr → X → Assn} {p : Ptr} {d d' : Option X} {m : M Ptr} {g : Option X → Out (Option X)} (hd : g d = .ok d')
    (hne : ∀ {p x h}, f p x h → p ≠ 0) (h0 : g none = .ok none) (h : ∀ x, g (some x) = .ok d' → Triple (f p x) m (fun q => f p x ∗ optAt f q d')) :
    Triple (optAt f p d) (if p = 0 then pure 0 else m) (fun q => optAt f p d ∗ optAt f q d') := by
  cases d with
  | none =>
    refine Triple.fact1 (fun hp => ?_)
    rw [if_pos hp]
    refine Triple.ret (fun h hh => ?_)
    rw [h0] at hd
    injection hd with hd
    subst hd
    rw [optAt_none, pur_true hp, optAt_none, pur_true rfl, emp_sep]
    exact hh
  | some x =>
    refine Triple.of_fact (φ := p ≠ 0) (fun h hh => hne hh) (fun hp => ?_)
    rw [if_neg hp]
    exact h x hd

theorem if_ne_eq {α : Type} {p : Ptr} {m : M α} {a : M α} : (if p ≠ 0 then m else a) = (if p = 0 then a else m) := by
  by_cases h : p = 0 <;> simp [h]

/-! ## Strings, bodies -/

theorem optAt_strings {q : Ptr} {o : Option Strings} : optAt (fun p s => stringsAt p (some s)) q o = stringsAt q o := by cases o <;> rfl

/-- The strings (source/strings.c:433-446). -/
def stringsMem : KindMem Strings Data.stringsOps where
  free := strFree
  clone := strClone
  at_ := fun p s => stringsAt p (some s)
  nullOk := true
  nonnull := fun h => stringsAt_ne _ h
  null_clone := by
    intro d h
    have h : Strings.clone (some d) = none := by simpa [Data.stringsOps] using h
    rw [Strings.clone_some] at h
    cases h
  free_spec := fun {p d} _ => by rw [optAt_strings]; exact strings_free_memory p d
  clone_spec := fun {p d d'} h => by
    have h : Strings.clone d = d' := by simpa [Data.stringsOps] using h
    subst h
    rw [optAt_strings]
    simp only [optAt_strings]
    exact strings_clone_memory p d

/-- The memory of a body. -/
def bodyAt (p : Ptr) (b : Body) : Assn := ex fun x => ex fun y => p ↦ .ptrs [x, y] ∗ stringsAt x b.iterators ∗ stringsAt y b.expression

theorem bodyAt_ne {p : Ptr} {b : Body} : ∀ h, bodyAt p b h → p ≠ 0 := by
  rintro h ⟨x, y, hh⟩
  exact pto_ne_sep h hh

/-- C56: `osl_body_free` frees exactly the body. -/
theorem body_free_memory (p : Ptr) (d : Option Body) : Triple (optAt bodyAt p d) (bodyFree p) (fun _ => emp) := by
  unfold bodyFree
  refine free_cases (fun h => bodyAt_ne _ h) (Triple.ret fun _ h => h) (fun b => ?_)
  hopen bodyAt
  hstep getField_spec
  hstep strings_free_memory
  hstep getField_spec
  hstep strings_free_memory
  hlast Triple.free
  hret

/-- C56: `osl_body_clone` is a copy in a separate memory. -/
theorem body_clone_memory (p : Ptr) (d : Option Body) : Triple (optAt bodyAt p d) (bodyClone p) (fun q => optAt bodyAt p d ∗ optAt bodyAt q (Body.clone d)) := by
  unfold bodyClone
  rw [if_ne_eq]
  refine clone_cases (g := fun d => .ok (Body.clone d)) rfl (fun h => bodyAt_ne _ h) rfl (fun b hb => ?_)
  injection hb with hb
  rw [← hb]
  show Triple _ _ (fun q => _ ∗ bodyAt q { iterators := Strings.clone b.iterators, expression := Strings.clone b.expression })
  unfold bodyMalloc
  hopen bodyAt
  hstep Triple.alloc
  hstep getField_spec
  hstep strings_clone_memory
  hstep setField_spec
  hstep getField_spec
  hstep strings_clone_memory
  hstep setField_spec
  hret

/-- The bodies (source/body.c:363-376). -/
def bodyMem : KindMem Body Data.bodyOps where
  free := bodyFree
  clone := bodyClone
  at_ := bodyAt
  nullOk := true
  nonnull := fun h => bodyAt_ne _ h
  null_clone := by
    intro d h
    have h : Body.clone (some d) = none := by simpa [Data.bodyOps] using h
    cases h
  free_spec := fun {p d} _ => body_free_memory p d
  clone_spec := fun {p d d'} h => by
    have h : Body.clone d = d' := by simpa [Data.bodyOps] using h
    subst h
    exact body_clone_memory p d

/-! ## One string: textual, comment, clay -/

/-- The memory of a structure with one string. -/
def stringFieldAt (p : Ptr) (o : Option Str) : Assn := ex fun s => p ↦ .ptrs [s] ∗ uriAt s o

theorem stringFieldAt_ne {p : Ptr} {o : Option Str} : ∀ h, stringFieldAt p o h → p ≠ 0 := by
  rintro h ⟨x, hh⟩
  exact pto_ne_sep h hh

theorem stringFree_spec {X : Type} {f : X → Option Str} {p : Ptr} {d : Option X} :
    Triple (optAt (fun p x => stringFieldAt p (f x)) p d) (stringFree p) (fun _ => emp) := by
  unfold stringFree
  refine free_cases (fun h => stringFieldAt_ne _ h) (Triple.ret fun _ h => h) (fun x => ?_)
  hopen stringFieldAt
  hstep getField_spec
  hstep freeIf_str
  hlast Triple.free
  hret

theorem stringClone_spec {X : Type} {f : X → Option Str} {g : Option X → Out (Option X)} {p : Ptr} {d d' : Option X} (h0 : g none = .ok none)
    (h1 : ∀ x y, g (some x) = .ok y → ∃ x', y = some x' ∧ f x' = f x) (h : g d = .ok d') :
    Triple (optAt (fun p x => stringFieldAt p (f x)) p d) (stringClone p)
      (fun q => optAt (fun p x => stringFieldAt p (f x)) p d ∗ optAt (fun p x => stringFieldAt p (f x)) q d') := by
  unfold stringClone
  refine clone_cases h (fun h => stringFieldAt_ne _ h) h0 (fun x hx => ?_)
  obtain ⟨x', rfl, hf⟩ := h1 x _ hx
  show Triple _ _ (fun q => _ ∗ stringFieldAt q (f x'))
  rw [hf]
  unfold stringMalloc
  hopen stringFieldAt
  hstep Triple.alloc
  hstep getField_spec
  hstep uriDup_spec
  hstep setField_spec
  hret

theorem strdup_id (o : Option Str) : Ext.strdup o = o := by cases o <;> rfl

/-- The textual forms (source/extensions/textual.c:305-318). -/
def textualMem : KindMem Textual Textual.ops where
  free := stringFree
  clone := stringClone
  at_ := fun p x => stringFieldAt p x.textual
  nullOk := true
  nonnull := fun h => stringFieldAt_ne _ h
  null_clone := by intro d h; cases h
  free_spec := fun _ => stringFree_spec (f := Textual.textual)
  clone_spec := fun h => stringClone_spec (f := Textual.textual) (g := Textual.clone) rfl (fun x y hy => by cases hy; exact ⟨_, rfl, strdup_id _⟩) h

/-- The comments (source/extensions/comment.c:285-298). -/
def commentMem : KindMem Comment Comment.ops where
  free := stringFree
  clone := stringClone
  at_ := fun p x => stringFieldAt p x.comment
  nullOk := true
  nonnull := fun h => stringFieldAt_ne _ h
  null_clone := by intro d h; cases h
  free_spec := fun _ => stringFree_spec (f := Comment.comment)
  clone_spec := fun h => stringClone_spec (f := Comment.comment) (g := Comment.clone) rfl (fun x y hy => by cases hy; exact ⟨_, rfl, strdup_id _⟩) h

/-- The Clay scripts (source/extensions/clay.c:288-301). -/
def clayMem : KindMem Clay Clay.ops where
  free := stringFree
  clone := stringClone
  at_ := fun p x => stringFieldAt p x.script
  nullOk := true
  nonnull := fun h => stringFieldAt_ne _ h
  null_clone := by intro d h; cases h
  free_spec := fun _ => stringFree_spec (f := Clay.script)
  clone_spec := fun h => stringClone_spec (f := Clay.script) (g := Clay.clone) rfl (fun x y hy => by cases hy; exact ⟨_, rfl, strdup_id _⟩) h

/-! ## Null, coordinates -/

/-- The empty structure (source/extensions/null.c:242-255). -/
def nullMem : KindMem Null Null.ops where
  free := nullFree
  clone := nullClone
  at_ := fun p _ => p ↦ .ptrs []
  nullOk := true
  nonnull := fun h => pto_ne _ h
  null_clone := by intro d h; cases h
  free_spec := fun {p d} _ => by
    unfold nullFree
    exact free_cases (fun h => pto_ne _ h) (Triple.ret fun _ h => h) (fun b => Triple.free p _)
  clone_spec := fun {p d d'} h => by
    unfold nullClone
    refine clone_cases h (fun h => pto_ne _ h) rfl (fun x hx => ?_)
    cases hx
    show Triple (p ↦ .ptrs []) nullMalloc (fun q => p ↦ .ptrs [] ∗ q ↦ .ptrs [])
    unfold nullMalloc
    hlast Triple.alloc
    hret

/-- The memory of coordinates. -/
def coordAt (p : Ptr) (x : Coordinates) : Assn :=
  ex fun s => p ↦ .node [x.line_start, x.line_end, x.column_start, x.column_end, x.indent] [s] ∗ uriAt s x.name

theorem coordAt_ne {p : Ptr} {x : Coordinates} : ∀ h, coordAt p x h → p ≠ 0 := by
  rintro h ⟨x, hh⟩
  exact pto_ne_sep h hh

/-- The coordinates (source/extensions/coordinates.c:346-359). -/
def coordMem : KindMem Coordinates Coordinates.ops where
  free := coordFree
  clone := coordClone
  at_ := coordAt
  nullOk := true
  nonnull := fun h => coordAt_ne _ h
  null_clone := by intro d h; cases h
  free_spec := fun {p d} _ => by
    unfold coordFree
    refine free_cases (fun h => coordAt_ne _ h) (Triple.ret fun _ h => h) (fun x => ?_)
    hopen coordAt
    hstep getPtr_spec
    hstep free_str
    hlast Triple.free
    hret
  clone_spec := fun {p d d'} h => by
    unfold coordClone
    refine clone_cases h (fun h => coordAt_ne _ h) rfl (fun x hx => ?_)
    cases hx
    show Triple _ _ (fun q => _ ∗ coordAt q { name := Ext.strdup x.name, line_start := x.line_start, line_end := x.line_end, column_start := x.column_start, column_end := x.column_end, indent := x.indent })
    rw [strdup_id]
    unfold coordMalloc
    hopen coordAt
    hstep Triple.alloc
    hstep getPtr_spec
    hstep uriDup_spec
    hstep setPtr_spec
    hstep copyInt_spec
    hstep copyInt_spec
    hstep copyInt_spec
    hstep copyInt_spec
    hstep copyInt_spec
    hret

/-! ## Scatnames, scatinfos -/

/-- The memory of scatnames. -/
def scatnamesAt (p : Ptr) (x : Scatnames) : Assn := ex fun s => p ↦ .ptrs [s] ∗ stringsAt s x.names

theorem scatnamesAt_ne {p : Ptr} {x : Scatnames} : ∀ h, scatnamesAt p x h → p ≠ 0 := by
  rintro h ⟨x, hh⟩
  exact pto_ne_sep h hh

/-- The names of the scattering dimensions (source/extensions/scatnames.c:257-270). -/
def scatnamesMem : KindMem Scatnames Scatnames.ops where
  free := scatnamesFree
  clone := scatnamesClone
  at_ := scatnamesAt
  nullOk := true
  nonnull := fun h => scatnamesAt_ne _ h
  null_clone := by intro d h; cases h
  free_spec := fun {p d} _ => by
    unfold scatnamesFree
    refine free_cases (fun h => scatnamesAt_ne _ h) (Triple.ret fun _ h => h) (fun x => ?_)
    hopen scatnamesAt
    hstep getField_spec
    hstep strings_free_memory
    hlast Triple.free
    hret
  clone_spec := fun {p d d'} h => by
    unfold scatnamesClone
    refine clone_cases h (fun h => scatnamesAt_ne _ h) rfl (fun x hx => ?_)
    cases hx
    show Triple _ _ (fun q => _ ∗ scatnamesAt q { names := Strings.clone x.names })
    unfold scatnamesMalloc
    hopen scatnamesAt
    hstep Triple.alloc
    hstep getField_spec
    hstep strings_clone_memory
    hstep setField_spec
    hret

/-- The memory of scatinfos: the three arrays have `nb_scatdims` elements. -/
def scatinfosAt (p : Ptr) (x : Scatinfos) : Assn :=
  ex fun a => ex fun b => ex fun t => pur x.Sized ∗ p ↦ .node [(x.parallel.length : Int)] [a, b, t] ∗ intsAt a x.parallel ∗ intsAt b x.permutable ∗ intsAt t x.type

theorem scatinfosAt_ne {p : Ptr} {x : Scatinfos} : ∀ h, scatinfosAt p x h → p ≠ 0 := by
  rintro h ⟨a, b, t, hh⟩
  exact pto_ne_sep h (pur_sep_iff.mp hh).2

theorem scatinfosArray_spec {p q s : Ptr} {l l2 : List Ptr} {i n : Nat} {ds : List Int} (hn : n = ds.length) (h : nth l i = .ok s)
    (h' : ∀ a, ∃ l', setNth l2 i a = .ok l') :
    Triple (p ↦ .node [(n : Int)] l ∗ q ↦ .node [(n : Int)] l2 ∗ intsAt s ds) (scatinfosArray p q i)
      (fun _ => ex fun a => ex fun l' => pur (setNth l2 i a = .ok l') ∗ p ↦ .node [(n : Int)] l ∗ q ↦ .node [(n : Int)] l' ∗ intsAt s ds ∗ intsAt a ds) := by
  unfold scatinfosArray
  hstep getInt_spec
  hstep allocInts_spec
  obtain ⟨l', hl⟩ := h' a
  hstep (setPtr_spec hl)
  hstep (getPtr_spec h)
  hlast (copyInts_spec (l := ds) hn)
  hret

/-- The scattering information (source/extensions/scatinfos.c:381-394). -/
def scatinfosMem : KindMem Scatinfos Scatinfos.ops where
  free := scatinfosFree
  clone := scatinfosClone
  at_ := scatinfosAt
  nullOk := true
  nonnull := fun h => scatinfosAt_ne _ h
  null_clone := by intro d h; cases h
  free_spec := fun {p d} _ => by
    unfold scatinfosFree
    refine free_cases (fun h => scatinfosAt_ne _ h) (Triple.ret fun _ h => h) (fun x => ?_)
    hopen scatinfosAt
    hstep getPtr_spec
    hstep freeIf_ints
    hstep getPtr_spec
    hstep freeIf_ints
    hstep getPtr_spec
    hstep freeIf_ints
    hlast Triple.free
    hret
  clone_spec := fun {p d d'} h => by
    unfold scatinfosClone
    refine clone_cases h (fun h => scatinfosAt_ne _ h) rfl (fun x hx => ?_)
    cases hx
    show Triple _ _ (fun q => _ ∗ scatinfosAt q { parallel := x.parallel, permutable := x.permutable, type := x.type })
    unfold scatinfosMalloc
    hopen scatinfosAt
    rename_i hsz
    hstep Triple.alloc
    hstep copyInt_spec
    hstep (scatinfosArray_spec (n := x.parallel.length) (ds := x.parallel) (i := 0) rfl rfl (fun a => ⟨_, rfl⟩))
    rename_i h1
    cases h1
    hstep (scatinfosArray_spec (n := x.parallel.length) (ds := x.permutable) (i := 1) hsz.1.symm rfl (fun a => ⟨_, rfl⟩))
    rename_i h1
    cases h1
    hstep (scatinfosArray_spec (n := x.parallel.length) (ds := x.type) (i := 2) hsz.2.symm rfl (fun a => ⟨_, rfl⟩))
    rename_i h1
    cases h1
    hret

end Osl.Mem
