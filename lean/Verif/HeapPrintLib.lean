import Verif.HeapPrintGenProps
/-!
# Printing the data of the whole library in memory (C74)
-/

set_option linter.unusedSectionVars false

namespace Osl.Mem

open Osl.Ext

variable [Allocator] {D : Type} {E : Env D} {O : DataMem D E}

/-! ## The kinds of data of the library -/

/-- No condition. -/
def anyData {X : Type} (_ : X) : Prop := True

def stringsPrint : KindPrint stringsMem anyData where
  sprint := strSprint
  spec := fun {p d t} _ h => by
    obtain ⟨u, h1, h⟩ := Out.bind_eq_ok.mp h
    cases h
    have := strings_sprint_memory (p := p) h1
    cases d <;> exact this

def bodyPrintK : KindPrint bodyMem anyData where
  sprint := bodySprint
  spec := fun {p d t} _ h => by
    obtain ⟨u, h1, h⟩ := Out.bind_eq_ok.mp h
    cases h
    exact body_sprint_memory h1

/-- The values of the relation can be stored in its precision. -/
def goodRelation (c : Cfg) (x : NE Part) : Prop := RelFits c (NE.elems (some x))

def relationPrint {c : Cfg} (hc : c.Valid) (e : Option Str) : KindPrint (relationMem c e) (goodRelation c) where
  sprint := relSprint c
  spec := fun {p d t} hd h => by
    obtain ⟨u, h1, h⟩ := Out.bind_eq_ok.mp h
    cases h
    have hf : RelFits c (NE.elems d) := by
      cases d with
      | none => intro a ha; cases ha
      | some x => exact hd x rfl
    have := relation_sprint_memory hc (p := p) hf h1
    cases d with
    | none => rw [show NE.elems (none : Option (NE Part)) = [] from rfl, relAt_nil_eq] at this; exact this
    | some x => exact this

/-- The values of the domains of the dependences can be stored in their precisions. -/
def goodDependence (c : Cfg) (x : NE Dep) : Prop := ∀ d ∈ NE.elems (some x), RelFits c d.domain

def dependencePrint {c : Cfg} (hc : c.Valid) (e : Option Str) : KindPrint (dependenceMem c e) (goodDependence c) where
  sprint := depSprint c
  spec := fun {p d t} hd h => by
    have hf : ∀ x ∈ NE.elems d, RelFits c x.domain := by
      cases d with
      | none => intro a ha; cases ha
      | some x => exact hd x rfl
    have := dependence_sprint_memory hc (p := p) hf h
    show Triple (optAt (fun p x => (depChain c).list p (NE.elems (some x))) p d) _ (fun q => optAt (fun p x => (depChain c).list p (NE.elems (some x))) p d ∗ uriAt q t)
    simp only [optAt_list]
    exact this

def textualPrint : KindPrint textualMem anyData := ⟨textualSprint, fun _ h => textual_sprint_memory h⟩
def commentPrint : KindPrint commentMem anyData := ⟨stringSprint, fun _ h => comment_sprint_memory h⟩
def nullPrint : KindPrint nullMem anyData := ⟨nullSprint, fun _ h => null_sprint_memory h⟩
def scatinfosPrint : KindPrint scatinfosMem anyData := ⟨scatinfosSprint, fun _ h => scatinfos_sprint_memory h⟩
def scatnamesPrint : KindPrint scatnamesMem anyData := ⟨scatnamesSprint, fun _ h => scatnames_sprint_memory h⟩
def arraysPrint : KindPrint arraysMem anyData := ⟨arraysSprint, fun _ h => arrays_sprint_memory h⟩
def coordinatesPrint : KindPrint coordMem anyData := ⟨coordSprint, fun _ h => coordinates_sprint_memory h⟩
def clayPrint : KindPrint clayMem anyData := ⟨stringSprint, fun _ h => clay_sprint_memory h⟩
def extbodyPrint : KindPrint extbodyMem anyData := ⟨extbodySprint, fun _ h => extbody_sprint_memory h⟩
def annotationPrint : KindPrint annotationMem anyData := ⟨annSprint, fun _ h => annotation_sprint_memory h⟩

def loopPrintK : KindPrint loopMem anyData where
  sprint := loopSprint
  spec := fun {p d t} _ h => by
    have := loop_sprint_memory (p := p) h
    show Triple (optAt (fun p x => loopChain.list p (NE.elems (some x))) p d) _ (fun q => optAt (fun p x => loopChain.list p (NE.elems (some x))) p d ∗ uriAt q t)
    simp only [optAt_list]
    exact this

def unrollPrintK : KindPrint unrollMem anyData where
  sprint := unrollSprint
  spec := fun {p d t} _ h => by
    have := unroll_sprint_memory (p := p) h
    show Triple (optAt (fun p x => unrollChain.list p (NE.elems (some x))) p d) _ (fun q => optAt (fun p x => unrollChain.list p (NE.elems (some x))) p d ∗ uriAt q t)
    simp only [optAt_list]
    exact this

def regionPrintK : KindPrint regionMem anyData where
  sprint := regionSprint
  spec := fun {p d t} _ h => by
    have := region_sprint_memory (p := p) h
    show Triple (optAt (fun p x => regionChain.list p (NE.elems (some x))) p d) _ (fun q => optAt (fun p x => regionChain.list p (NE.elems (some x))) p d ∗ uriAt q t)
    simp only [optAt_list]
    exact this

/-- The data of the generics of the symbols can be printed. -/
def goodSymbols {D : Type} (good : D → Prop) (x : NE (Symbol D)) : Prop := ∀ y ∈ NE.elems (some x), goodSymbol good y

def symbolsPrint (R : DataPrint O) : KindPrint (symbolsMem O defaultRegistry) (goodSymbols R.good) where
  sprint := symSprint R.sprint
  spec := fun {p d t} hd h => by
    have hf : ∀ x ∈ NE.elems d, goodSymbol R.good x := by
      cases d with
      | none => intro a ha; cases ha
      | some x => exact hd x rfl
    have := symbols_sprint_memory R (p := p) hf h
    show Triple (optAt (fun p x => (symChain O).list p (NE.elems (some x))) p d) _ (fun q => optAt (fun p x => (symChain O).list p (NE.elems (some x))) p d ∗ uriAt q t)
    simp only [optAt_list]
    exact this

def noSymPrint : KindPrint noSymMem anyData where
  sprint := noSymSprint
  spec := fun _ h => by cases h

/-! ## Any data -/

section

variable {S : Type}

/-- The relations of the data (but those of the symbols) have values which can be stored in their precisions (specification). -/
def goodData (c : Cfg) (sym : S → Prop) : Data S → Prop
  | .relation x => goodRelation c x
  | .dependence x => goodDependence c x
  | .symbols x => sym x
  | _ => True

theorem lift_print {X : Type} {o : Ops X} {K : KindMem X o} {good : X → Prop} (R : KindPrint K good) (k : Data.Kind S X) {at_ : Ptr → Data S → Assn}
    (hat : ∀ p x, at_ p (k.inj x) = K.at_ p x) (hk : ∀ d x, k.proj d = some x → d = k.inj x) {dg : Data S → Prop} (hg : ∀ x, dg (k.inj x) → good x) {p : Ptr} {d : Option (Data S)}
    {t : Option Str} (hd : ∀ x, d = some x → dg x) (h : (Data.lift k o).sprint d = .ok t) : Triple (optAt at_ p d) (R.sprint p) (fun q => optAt at_ p d ∗ uriAt q t) := by
  cases d with
  | none => exact R.spec (p := p) (d := none) (fun _ h => by cases h) h
  | some d =>
    simp only [Data.lift] at h
    cases hx : k.proj d with
    | none => rw [hx] at h; cases h
    | some x =>
      rw [hx] at h
      have := hk d x hx
      subst this
      simp only [optAt_some, hat]
      exact R.spec (p := p) (d := some x) (fun y hy => by cases hy; exact hg x (hd _ rfl)) h

variable {so : Ops S} {c : Cfg} (hc : c.Valid) (e : Option Str) {sm : KindMem S so} {sg : S → Prop} (sr : KindPrint sm sg)

include hc in
/-- C74: the function `sprint` of the interface of some data allocates exactly the text. -/
theorem data_sprint_memory {k : Nat} {p : Ptr} {d : Option (Data S)} {t : Option Str} (hg : ∀ x, d = some x → goodData c sg x) (h : (Data.env c e so).sprint k d = .ok t) :
    Triple (optAt (dataAt c sm.at_) p d) (extSprintFn c sr.sprint k p) (fun q => optAt (dataAt c sm.at_) p d ∗ uriAt q t) := by
  by_cases hk : k < 18
  · rcases (by omega : k < 17 ∨ k = 17) with hk | hk
    · rcases below17 hk with hk | hk | hk | hk | hk | hk | hk | hk | hk | hk | hk | hk | hk | hk | hk | hk | hk <;> subst hk
      · exact lift_print stringsPrint Data.kStrings (fun _ _ => rfl) (fun d x hx => by cases d <;> cases hx <;> rfl) (fun x hx => trivial) hg h
      · exact lift_print bodyPrintK Data.kBody (fun _ _ => rfl) (fun d x hx => by cases d <;> cases hx <;> rfl) (fun x hx => trivial) hg h
      · exact lift_print (relationPrint hc e) Data.kRelation (fun _ _ => rfl) (fun d x hx => by cases d <;> cases hx <;> rfl) (fun x hx => hx) hg h
      · exact lift_print textualPrint Data.kTextual (fun _ _ => rfl) (fun d x hx => by cases d <;> cases hx <;> rfl) (fun x hx => trivial) hg h
      · exact lift_print commentPrint Data.kComment (fun _ _ => rfl) (fun d x hx => by cases d <;> cases hx <;> rfl) (fun x hx => trivial) hg h
      · exact lift_print nullPrint Data.kNull (fun _ _ => rfl) (fun d x hx => by cases d <;> cases hx <;> rfl) (fun x hx => trivial) hg h
      · exact lift_print scatinfosPrint Data.kScatinfos (fun _ _ => rfl) (fun d x hx => by cases d <;> cases hx <;> rfl) (fun x hx => trivial) hg h
      · exact lift_print scatnamesPrint Data.kScatnames (fun _ _ => rfl) (fun d x hx => by cases d <;> cases hx <;> rfl) (fun x hx => trivial) hg h
      · exact lift_print arraysPrint Data.kArrays (fun _ _ => rfl) (fun d x hx => by cases d <;> cases hx <;> rfl) (fun x hx => trivial) hg h
      · exact lift_print coordinatesPrint Data.kCoordinates (fun _ _ => rfl) (fun d x hx => by cases d <;> cases hx <;> rfl) (fun x hx => trivial) hg h
      · exact lift_print clayPrint Data.kClay (fun _ _ => rfl) (fun d x hx => by cases d <;> cases hx <;> rfl) (fun x hx => trivial) hg h
      · exact lift_print (dependencePrint hc e) Data.kDependence (fun _ _ => rfl) (fun d x hx => by cases d <;> cases hx <;> rfl) (fun x hx => hx) hg h
      · exact lift_print sr Data.kSymbols (fun _ _ => rfl) (fun d x hx => by cases d <;> cases hx <;> rfl) (fun x hx => hx) hg h
      · exact lift_print extbodyPrint Data.kExtbody (fun _ _ => rfl) (fun d x hx => by cases d <;> cases hx <;> rfl) (fun x hx => trivial) hg h
      · exact lift_print loopPrintK Data.kLoop (fun _ _ => rfl) (fun d x hx => by cases d <;> cases hx <;> rfl) (fun x hx => trivial) hg h
      · exact lift_print unrollPrintK Data.kUnroll (fun _ _ => rfl) (fun d x hx => by cases d <;> cases hx <;> rfl) (fun x hx => trivial) hg h
      · exact lift_print regionPrintK Data.kRegion (fun _ _ => rfl) (fun d x hx => by cases d <;> cases hx <;> rfl) (fun x hx => trivial) hg h
    · subst hk
      exact lift_print annotationPrint Data.kAnnotation (fun _ _ => rfl) (fun d x hx => by cases d <;> cases hx <;> rfl) (fun x hx => trivial) hg h
  · have : (Data.table c e so)[k]? = none := by
      rw [List.getElem?_eq_none_iff]
      show 18 ≤ k
      omega
    simp only [Data.env, this] at h
    cases h

/-- The functions `sprint` of the default registry on the data of the known extensions. -/
def dataPrint (hs : sm.nullOk = true) : DataPrint (dataMem c e sm hs) where
  sprint := extSprintFn c sr.sprint
  good := goodData c sg
  spec := fun hd h => data_sprint_memory hc e sr hd h

end

/-- The functions `sprint` of the default registry on data with symbols nested at most `n` times. -/
def printersAt {c : Cfg} (hc : c.Valid) (e : Option Str) : (n : Nat) → DataPrint (memAt c e n)
  | 0 => dataPrint hc e noSymPrint rfl
  | n + 1 => dataPrint hc e (symbolsPrint (printersAt hc e n)) rfl

theorem printersAt_sprint {c : Cfg} (hc : c.Valid) (e : Option Str) : ∀ n, (printersAt hc e n).sprint = sprintAt c n
  | 0 => rfl
  | n + 1 => by
    show extSprintFn c (symSprint (printersAt hc e n).sprint) = extSprintFn c (symSprint (sprintAt c n))
    rw [printersAt_sprint hc e n]

/-- The values of all the relations in the data, at any depth, can be stored in their precisions (specification). -/
def goodAt (c : Cfg) : (n : Nat) → DataAt n → Prop
  | 0 => goodData c anyData
  | n + 1 => goodData c (goodSymbols (goodAt c n))

theorem printersAt_good {c : Cfg} (hc : c.Valid) (e : Option Str) : ∀ n, (printersAt hc e n).good = goodAt c n
  | 0 => rfl
  | n + 1 => by
    show goodData c (goodSymbols (printersAt hc e n).good) = goodData c (goodSymbols (goodAt c n))
    rw [printersAt_good hc e n]

end Osl.Mem
