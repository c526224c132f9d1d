import Verif.HeapReadGen
import Verif.HeapReadListProps
import Verif.HeapLib
import Verif.LibraryProps
/-!
# The readers of generics and symbols in memory: theorems (C72)

A generic which is read is newly allocated, with its interface and its data.  The only strings which stay allocated besides it are the tags which are empty
or which are closing tags (`lostTagged`): `osl_generic_sread_one` and `osl_generic_read_one` do not free them.
-/

set_option linter.unusedSectionVars false

namespace Osl.Mem

open Osl.Ext

variable [Allocator] {D : Type} {E : Env D} {O : DataMem D E}

/-! ## What is lost (specification) -/

/-- The readers of the data of the interfaces (specification): they allocate exactly the data, besides the strings `lost`. -/
structure DataRead (O : DataMem D E) where
  sread : Nat → Option Str → M Ptr
  lost : Nat → Option Str → List Str
  good : Fns → Prop
  spec : ∀ {f s d}, good f → E.sread f.sread s = .ok d → O.fits f d ∧ Triple emp (sread f.sread s) (fun p => optAt O.at_ p d ∗ looseAt (lost f.sread s))

/-- The strings which are lost by the reading of one generic after its tag: the tag itself when it is empty or a closing one, otherwise those which
the reading of the data loses. -/
def lostTagged (lost : Nat → Option Str → List Str) (registry : Ifaces) (tag : Option Str) (rest : Str) : List Str :=
  match tag with
  | none => []
  | some [] => [[]]
  | some (c :: w) =>
    if c = '/' then [c :: w]
    else match Util.read_uptoendtag rest (c :: w), Ifaces.lookup registry (some (c :: w)) with
      | .ok (content, _), some i => lost i.fns.sread content
      | _, _ => []

/-- The strings lost by the reading of one generic in a string. -/
def lostSread (lost : Nat → Option Str → List Str) (registry : Ifaces) (s : Str) : List Str :=
  match Util.read_tag s with
  | .ok (tag, rest) => lostTagged lost registry tag rest
  | _ => []

/-- The strings lost by the reading of one generic in a file. -/
def lostFread (lost : Nat → Option Str → List Str) (registry : Ifaces) (s : Str) : List Str :=
  match Util.fread_tag s with
  | .ok (tag, rest) => lostTagged lost registry tag rest
  | _ => []

/-- The strings lost by the reading of the generics of a string. -/
def lostLoop (E : Env D) (lost : Nat → Option Str → List Str) (registry : Ifaces) : Nat → Str → List Str
  | 0, _ => []
  | _ + 1, [] => []
  | n + 1, c :: s =>
    lostSread lost registry (c :: s) ++ match GList.sread_one E registry (c :: s) with
      | .ok (_, rest) => lostLoop E lost registry n rest
      | _ => []

/-- The strings lost by the reading of the generics at the end of a scop. -/
def lostRead (E : Env D) (lost : Nat → Option Str → List Str) (registry : Ifaces) (file : Str) : List Str :=
  match Util.read_uptoendtag file "OpenScop".toList with
  | .ok (some s, _) => lostLoop E lost registry (s.length + 1) s
  | _ => []

theorem looseAt_app {l m : List Str} : looseAt (l ++ m) = (looseAt l ∗ looseAt m) := by
  funext h
  refine propext ⟨?_, looseAt_append h⟩
  rintro ⟨ps, hh⟩
  have hl := wordsAt_length hh
  have e : ps = ps.take l.length ++ ps.drop l.length := (List.take_append_drop _ _).symm
  have hl2 : (ps.take l.length).length = l.length := by
    rw [List.length_append] at hl
    rw [List.length_take]
    omega
  rw [e, wordsAt_append hl2] at hh
  exact sep_mono (fun h hh => ⟨_, hh⟩) (fun h hh => ⟨_, hh⟩) hh

/-! ## Reading one generic -/

theorem loadOpt_spec {p : Ptr} {o : Option Str} : Triple (uriAt p o) (loadOpt p) (fun r => pur (r = o) ∗ uriAt p o) := by
  unfold loadOpt
  cases o with
  | none =>
    show Triple (pur (p = 0)) _ (fun r => pur (r = none) ∗ pur (p = 0))
    refine Triple.fact1 (fun hp => ?_)
    rw [if_pos hp]
    exact Triple.ret (fun h hh => pur_sep_iff.mpr ⟨rfl, hp, hh⟩)
  | some w =>
    show Triple (p ↦ .chars w) _ (fun r => pur (r = some w) ∗ p ↦ .chars w)
    refine Triple.of_fact (φ := p ≠ 0) (fun h hh => hh.1) (fun hp => ?_)
    rw [if_neg hp]
    hstep loadChars_spec
    hret

theorem freeOpt_spec {p : Ptr} {o : Option Str} : Triple (uriAt p o) (free p) (fun _ => emp) := by
  cases o with
  | none =>
    show Triple (pur (p = 0)) _ _
    refine Triple.fact1 (fun hp => ?_)
    rw [hp]
    exact Triple.freeNull
  | some w => exact Triple.free _ _

theorem nclone_head {i : Iface} {l is : Ifaces} (h : Ifaces.nclone [i] 1 = .ok is) : Ifaces.nclone (i :: l) 1 = .ok [i] ∧ is = [i] := by
  obtain ⟨u, f⟩ := i
  cases u with
  | none => cases h
  | some u =>
    injection h with h
    refine ⟨?_, h.symm⟩
    cases l <;> rfl

theorem glistAt_zero : glistAt O 0 [] = emp := by
  show pur ((0 : Ptr) = 0) = emp
  rw [pur_true rfl]

/-- The memory of the generic which is being read. -/
theorem genReadData_spec {R : DataRead O} {x c : Ptr} {z : Iface} {l : Ifaces} {is : Ifaces} {o : Option Str} {v : Option D} (hg : R.good z.fns)
    (hi : Ifaces.nclone [z] 1 = .ok is) (hd : E.sread z.fns.sread o = .ok v) :
    Triple (ifacesAt x (z :: l) ∗ uriAt c o) (genReadData R.sread x c)
      (fun p => ifacesAt x (z :: l) ∗ uriAt c o ∗ glistAt O p [⟨is.head?, v⟩] ∗ looseAt (R.lost z.fns.sread o)) := by
  obtain ⟨hn, rfl⟩ := nclone_head (l := l) hi
  obtain ⟨hf, hs⟩ := R.spec hg hd
  unfold genReadData genMalloc
  refine Triple.of_fact (φ := x ≠ 0) (fun h hh => ?_) (fun hx => ?_)
  · obtain ⟨_, _, _, _, hh, _⟩ := hh
    exact Chain.list_cons_ne hh
  rw [if_neg hx]
  hstep Triple.alloc
  hstep (interface_nclone_memory hn x)
  hstep setField_spec
  have e : ifacesAt x (z :: l) = ex fun n => ex fun u => x ↦ .iface u z.fns n ∗ uriAt u z.URI ∗ ifacesAt n l := by
    unfold ifacesAt
    rw [Chain.list_cons]
    congr 1; funext n
    show ifaceAt x z n ∗ _ = _
    unfold ifaceAt
    rw [ex_sep]
    congr 1; funext u; ac_rfl
  rw [e]
  hnorm
  hstep loadIface_spec
  hstep loadOpt_spec
  hstep hs
  hstep setField_spec
  have e2 : ∀ p : Ptr, glistAt O p [⟨[z].head?, v⟩] = ex fun x => ex fun y => p ↦ .ptrs [x, y, 0] ∗ ifacesAt x [z] ∗ optAt O.at_ y v := by
    intro p
    rw [glistAt_one]
    unfold genAt
    simp only [List.head?_cons, contentAt_some]
    rw [pur_true hf]
    simp only [emp_sep]
    rfl
  simp only [e2]
  hret

theorem found_known {p q : Ptr} {l : Ifaces} {t : Str} {i : Iface} (h : Ifaces.lookup l (some t) = some i) :
    ∃ l1 l2, l = l1 ++ i :: l2 ∧ ifaceChain.found (hasName t) p l q = (ifaceChain.seg p l1 q ∗ ifacesAt q (i :: l2)) := by
  rw [lookup_split] at h
  cases hs : Chain.splitFirst (hasName t) l with
  | none => rw [hs] at h; cases h
  | some x =>
    obtain ⟨l1, a, l2⟩ := x
    rw [hs] at h
    injection h with h
    subst h
    refine ⟨l1, l2, (Chain.splitFirst_some hs).1, ?_⟩
    rw [Chain.found_some hs]
    unfold ifacesAt
    rw [Chain.list_cons, sep_comm, ex_sep]
    congr 1; funext n; ac_rfl

/-- C72: reading one generic, after its tag: the tag is freed, except when it is empty or a closing one. -/
theorem readTagged_memory (R : DataRead O) {registry : Ifaces} (hr : ∀ i ∈ registry, R.good i.fns) {tag : Option Str} {rest pos : Str} {l : GList D}
    (h : GList.readTagged E registry tag rest = .ok (l, pos)) (r t : Ptr) :
    Triple (ifacesAt r registry ∗ uriAt t tag) (genReadTagged R.sread r t rest)
      (got p, pos in (ifacesAt r registry ∗ glistAt O p l ∗ looseAt (lostTagged R.lost registry tag rest))) := by
  unfold genReadTagged
  hstep loadOpt_spec
  unfold GList.readTagged at h
  match tag with
  | none =>
    cases h
    simp only [lostTagged, looseAt_nil, sep_emp]
    refine Triple.ret (fun h hh => ⟨0, pur_sep_iff.mpr ⟨rfl, ?_⟩⟩)
    rw [glistAt_zero, sep_emp]
    exact (pur_sep_iff.mp hh).2
  | some [] =>
    cases h
    simp only [lostTagged]
    refine Triple.ret (fun h hh => ⟨0, pur_sep_iff.mpr ⟨rfl, ?_⟩⟩)
    rw [glistAt_zero, emp_sep]
    exact sep_mono (fun _ h => h) (looseAt_one (p := t)) (hh.perm (by ac_rfl))
  | some (c :: w) =>
    dsimp only at h ⊢
    simp only [lostTagged]
    by_cases hc : c = '/'
    · rw [if_pos hc] at h ⊢
      rw [if_pos hc]
      cases h
      refine Triple.ret (fun h hh => ⟨0, pur_sep_iff.mpr ⟨rfl, ?_⟩⟩)
      rw [glistAt_zero, emp_sep]
      exact sep_mono (fun _ h => h) (looseAt_one (p := t)) (hh.perm (by ac_rfl))
    rw [if_neg hc] at h ⊢
    rw [if_neg hc]
    unfold genReadOpen
    obtain ⟨⟨o, s1⟩, h1, h⟩ := Out.bind_eq_ok.mp h
    dsimp only at h
    rw [h1]
    hstep (read_uptoflag_memory h1)
    show Triple (_ ∗ t ↦ .chars (c :: w) ∗ _) _ _
    hstep (interface_lookup_memory r t registry (c :: w))
    dsimp only
    cases hl : Ifaces.lookup registry (some (c :: w)) with
    | none =>
      rw [hl] at h
      cases h
      have hs : Chain.splitFirst (hasName (c :: w)) registry = none := by
        rw [lookup_split] at hl
        cases hs : Chain.splitFirst (hasName (c :: w)) registry with
        | none => rfl
        | some x => rw [hs] at hl; cases hl
      rw [Chain.found_none hs]
      hnorm
      rw [genReadData, if_pos rfl]
      simp only [looseAt_nil, sep_emp]
      hstep (Triple.ret (P := emp) (Q := fun x => pur (x = 0)) (a := (0 : Ptr)) (fun h hh => ⟨rfl, hh⟩))
      hstep freeOpt_spec
      hstep Triple.free
      refine Triple.ret (fun h hh => ⟨0, pur_sep_iff.mpr ⟨rfl, ?_⟩⟩)
      rw [glistAt_zero, sep_emp]
      exact hh
    | some i =>
      rw [hl] at h
      dsimp only at h ⊢
      obtain ⟨is, h2, h⟩ := Out.bind_eq_ok.mp h
      obtain ⟨d, h3, h⟩ := Out.bind_eq_ok.mp h
      cases h
      obtain ⟨l1, l2, e, hf⟩ := found_known (p := r) (q := interface) hl
      rw [hf]
      hstep (genReadData_spec (l := l2) (hr i (by simp [e])) h2 h3)
      hstep freeOpt_spec
      hstep Triple.free
      refine Triple.ret (fun h hh => ⟨generic, pur_sep_iff.mpr ⟨rfl, ?_⟩⟩)
      have hh' : ((ifaceChain.seg r l1 interface ∗ ifacesAt interface (i :: l2)) ∗ (glistAt O generic [⟨is.head?, d⟩] ∗ looseAt (R.lost i.fns.sread o))) h :=
        hh.perm (by ac_rfl)
      refine sep_mono (fun h hh => ?_) (fun _ h => h) hh'
      rw [e]
      exact Chain.seg_append h hh

section

variable (R : DataRead O) {registry : Ifaces} (hr : ∀ i ∈ registry, R.good i.fns)
include hr

/-- C72: `osl_generic_sread_one` allocates exactly the generic, besides the tags which it loses. -/
theorem generic_sread_one_memory {s pos : Str} {l : GList D} (h : GList.sread_one E registry s = .ok (l, pos)) (r : Ptr) :
    Triple (ifacesAt r registry) (genSreadOne R.sread r s) (got p, pos in (ifacesAt r registry ∗ glistAt O p l ∗ looseAt (lostSread R.lost registry s))) := by
  unfold GList.sread_one at h
  unfold genSreadOne lostSread
  obtain ⟨⟨t, s1⟩, h1, h⟩ := Out.bind_eq_ok.mp h
  rw [h1]
  hstep (read_tag_memory h1)
  exact (readTagged_memory R hr h r p).pre (fun h hh => hh.perm (by ac_rfl))

/-- C72: `osl_generic_read_one` allocates exactly the generic, besides the tags which it loses. -/
theorem generic_read_one_memory {s pos : Str} {l : GList D} (h : GList.fread_one E registry s = .ok (l, pos)) (r : Ptr) :
    Triple (ifacesAt r registry) (genFreadOne R.sread r s) (got p, pos in (ifacesAt r registry ∗ glistAt O p l ∗ looseAt (lostFread R.lost registry s))) := by
  unfold GList.fread_one at h
  unfold genFreadOne lostFread
  obtain ⟨⟨t, s1⟩, h1, h⟩ := Out.bind_eq_ok.mp h
  rw [h1]
  hstep (fread_tag_memory h1)
  exact (readTagged_memory R hr h r p).pre (fun h hh => hh.perm (by ac_rfl))

theorem genSreadLoop_spec (r : Ptr) : ∀ (n : Nat) (s pos : Str) (acc l : GList D) (a : Ptr), GList.sreadLoop E registry n s acc = .ok (l, pos) →
    Triple (ifacesAt r registry ∗ glistAt O a acc) (genSreadLoop R.sread r n s a)
      (got p, pos in (ifacesAt r registry ∗ glistAt O p l ∗ looseAt (lostLoop E R.lost registry n s)))
  | 0, s, pos, acc, l, a, h => by cases h
  | n + 1, [], pos, acc, l, a, h => by
    cases h
    simp only [lostLoop, looseAt_nil, sep_emp]
    exact Triple.ret (fun h hh => ⟨a, pur_sep_iff.mpr ⟨rfl, hh⟩⟩)
  | n + 1, c :: s, pos, acc, l, a, h => by
    unfold GList.sreadLoop at h
    obtain ⟨⟨new, s1⟩, h1, h⟩ := Out.bind_eq_ok.mp h
    obtain ⟨acc', h2, h⟩ := Out.bind_eq_ok.mp h
    unfold genSreadLoop
    hstep (generic_sread_one_memory R hr h1 r)
    hstep (generic_add_memory h2)
    rename_i list
    simp only [lostLoop, h1]
    have := genSreadLoop_spec r n s1 pos acc' l list h
    refine Triple.last (F := looseAt (lostSread R.lost registry (c :: s))) this (by ac_rfl) (fun x h hh => ?_)
    rw [ex_sep] at hh
    obtain ⟨p, hh⟩ := hh
    refine ⟨p, ?_⟩
    have hh' : ((pur (x = (p, pos)) ∗ ifacesAt r registry ∗ glistAt O p l) ∗
      (looseAt (lostSread R.lost registry (c :: s)) ∗ looseAt (lostLoop E R.lost registry n s1))) h := hh.perm (by ac_rfl)
    have := sep_mono (fun _ h => h) (looseAt_append) hh'
    exact this.perm (by ac_rfl)

/-- C72: `osl_generic_sread` allocates exactly the generics, besides the tags which are lost. -/
theorem generic_sread_memory {s pos : Str} {l : GList D} (h : GList.sread E registry s = .ok (l, pos)) (r : Ptr) :
    Triple (ifacesAt r registry) (genSread R.sread r s)
      (got p, pos in (ifacesAt r registry ∗ glistAt O p l ∗ looseAt (lostLoop E R.lost registry (s.length + 1) s))) := by
  unfold genSread
  refine (genSreadLoop_spec R hr r _ s pos [] l 0 h).pre (fun h hh => ?_)
  rw [glistAt_zero, sep_emp]
  exact hh

/-- C72: `osl_generic_read` allocates exactly the generics of the end of a scop, besides the tags which are lost. -/
theorem generic_read_memory {s pos : Str} {l : GList D} (h : GList.read E registry s = .ok (l, pos)) (r : Ptr) :
    Triple (ifacesAt r registry) (genRead R.sread r s) (got p, pos in (ifacesAt r registry ∗ glistAt O p l ∗ looseAt (lostRead E R.lost registry s))) := by
  unfold GList.read at h
  unfold genRead lostRead
  obtain ⟨⟨o, s1⟩, h1, h⟩ := Out.bind_eq_ok.mp h
  rw [h1]
  cases o with
  | none => cases h
  | some w =>
    dsimp only at h
    obtain ⟨⟨l', s2⟩, h2, h⟩ := Out.bind_eq_ok.mp h
    cases h
    hstep (read_uptoflag_memory h1)
    show Triple (p ↦ .chars w ∗ _) _ _
    hstep loadChars_spec
    hstep (generic_sread_memory R hr h2 r)
    hstep Triple.free
    hret

end

/-! ## Lists filled in place, with other memory -/

theorem fillAll_with {α σ : Type} {N : Chain α} {malloc : M Ptr} {fresh : Ptr → Assn} {fill : Ptr → σ → M (Bool × σ)} {f : σ → Out (α × List Str × Bool × σ)} {X : Assn}
    (hm : Triple emp malloc fresh)
    (hf : ∀ p s a w more s', f s = .ok (a, w, more, s') → Triple (fresh p ∗ X) (fill p s) (fun r => pur (r = (more, s')) ∗ N.at_ p a 0 ∗ looseAt w ∗ X)) :
    ∀ (k : Nat) (p : Ptr) (s s' : σ) (l : List α) (w : List Str), fillList f k s = .ok (l, w, s') →
    Triple (fresh p ∗ X) (fillAll N.toNext malloc fill k p s) (fun r => pur (r = s') ∗ N.list p l ∗ looseAt w ∗ X)
  | 0, p, s, s', l, w, h => by cases h
  | k + 1, p, s, s', l, w, h => by
    simp only [fillList] at h
    simp only [fillAll]
    obtain ⟨⟨a, w1, more, s1⟩, h1, h⟩ := Out.bind_eq_ok.mp h
    dsimp only at h
    hstep (hf p s a w1 more s1 h1)
    dsimp only
    cases more with
    | false =>
      rw [if_neg (by simp)] at h ⊢
      cases h
      exact Triple.ret (fun h hh => pur_sep_iff.mpr ⟨rfl, by rw [Chain.list_one]; exact hh⟩)
    | true =>
      rw [if_pos rfl] at h ⊢
      obtain ⟨⟨l', v, s2⟩, h2, h⟩ := Out.bind_eq_ok.mp h
      cases h
      hstep hm
      hstep (N.set_spec p a 0 q)
      hlast (fillAll_with (X := X) hm hf k q s1 s2 l' v h2)
      refine Triple.ret (fun h hh => pur_sep_iff.mpr ⟨rfl, ?_⟩)
      rw [Chain.list_cons, ex_sep]
      refine ⟨q, ?_⟩
      show (((N.at_ p a q) ∗ N.list q l') ∗ looseAt (w1 ++ v) ∗ X) h
      rw [looseAt_app]
      exact hh.perm (by ac_rfl)

/-! ## Symbols -/

/-- One symbol, with the strings which its reading loses (specification). -/
def symOne (E : Env D) (lost : Nat → Option Str → List Str) (registry : Ifaces) (s : Int × Str) : Out (Symbol D × List Str × Bool × Int × Str) := do
  let w ← Util.read_string s.2
  let g ← Util.read_int w.2
  let n ← Util.read_int g.2
  let a ← GList.sread_one E registry n.2
  let b ← GList.sread_one E registry a.2
  let c ← GList.sread_one E registry b.2
  let d ← GList.sread_one E registry c.2
  return ({ type := Symbol.typeOf w.1, generated := g.1, nb_dims := n.1, identifier := a.1, datatype := b.1, scope := c.1, extent := d.1 },
    ((lostSread lost registry n.2 ++ lostSread lost registry a.2) ++ lostSread lost registry b.2) ++ lostSread lost registry c.2, decide (s.1 - 1 ≠ 0), s.1 - 1, d.2)

/-- A symbol which has just been allocated. -/
def symFresh (p : Ptr) : Assn := p ↦ .node [-1, -1, -1] [0, 0, 0, 0, 0]

section

variable (R : DataRead O) {registry : Ifaces} (hr : ∀ i ∈ registry, R.good i.fns)
include hr

theorem symReadField_spec {m r : Ptr} {i : Nat} {is : List Int} {l : List Ptr} {s pos : Str} {g : GList D} (h : GList.sread_one E registry s = .ok (g, pos))
    (hi : decide (i < l.length) = true) :
    Triple (m ↦ .node is l ∗ ifacesAt r registry) (symReadField R.sread r m i s)
      (fun x => pur (x = pos) ∗ ex fun q => m ↦ .node is (l.set i q) ∗ glistAt O q g ∗ looseAt (lostSread R.lost registry s) ∗ ifacesAt r registry) := by
  unfold symReadField
  hstep (generic_sread_one_memory R hr h r)
  hstep (setPtr_spec (setNth_ok (l := l) (of_decide_eq_true hi)))
  hret

theorem symFill_spec (r : Ptr) (m : Ptr) (s : Int × Str) (a : Symbol D) (w : List Str) (more : Bool) (s' : Int × Str)
    (h : symOne E R.lost registry s = .ok (a, w, more, s')) :
    Triple (symFresh m ∗ ifacesAt r registry) (symFill R.sread r m s) (fun x => pur (x = (more, s')) ∗ symAt O m a 0 ∗ looseAt w ∗ ifacesAt r registry) := by
  obtain ⟨k, s⟩ := s
  unfold symOne at h
  obtain ⟨⟨v, s1⟩, h1, h⟩ := Out.bind_eq_ok.mp h
  obtain ⟨⟨g, s2⟩, h2, h⟩ := Out.bind_eq_ok.mp h
  obtain ⟨⟨n, s3⟩, h3, h⟩ := Out.bind_eq_ok.mp h
  obtain ⟨⟨x1, s4⟩, h4, h⟩ := Out.bind_eq_ok.mp h
  obtain ⟨⟨x2, s5⟩, h5, h⟩ := Out.bind_eq_ok.mp h
  obtain ⟨⟨x3, s6⟩, h6, h⟩ := Out.bind_eq_ok.mp h
  obtain ⟨⟨x4, s7⟩, h7, h⟩ := Out.bind_eq_ok.mp h
  cases h
  unfold symFill symFresh
  hstep (read_string_memory h1)
  hstep loadChars_spec
  hstep setInt_spec
  hstep Triple.free
  refine Triple.liftStep h2 ?_
  hstep setInt_spec
  refine Triple.liftStep h3 ?_
  hstep setInt_spec
  hstep (symReadField_spec R hr h4 (i := 0))
  hstep (symReadField_spec R hr h5 (i := 1))
  hstep (symReadField_spec R hr h6 (i := 2))
  hstep (symReadField_spec R hr h7 (i := 3))
  simp only [looseAt_app]
  generalize looseAt (lostSread R.lost registry (n, s3).2) = w1
  generalize looseAt (lostSread R.lost registry (x1, s4).2) = w2
  generalize looseAt (lostSread R.lost registry (x2, s5).2) = w3
  generalize looseAt (lostSread R.lost registry (x3, s6).2) = w4
  hret

end

omit [Allocator] in
theorem sym_fillList (lost : Nat → Option Str → List Str) (registry : Ifaces) : ∀ (k fuel : Nat) (s s' : Str) (l : List (Symbol D)), k + 1 ≤ fuel →
    Symbol.readLoop E registry (k + 1) s = .ok (l, s') → ∃ w, fillList (symOne E lost registry) fuel ((k : Int) + 1, s) = .ok (l, w, 0, s') := by
  intro k
  induction k with
  | zero =>
    intro fuel s s' l hk h
    obtain ⟨fuel, rfl⟩ : ∃ f, fuel = f + 1 := ⟨fuel - 1, by omega⟩
    simp only [Symbol.readLoop, Symbol.readOne] at h
    obtain ⟨⟨a, s0⟩, h0, h⟩ := Out.bind_eq_ok.mp h
    obtain ⟨⟨v, s1⟩, h1, h0⟩ := Out.bind_eq_ok.mp h0
    obtain ⟨⟨g, s2⟩, h2, h0⟩ := Out.bind_eq_ok.mp h0
    obtain ⟨⟨n, s3⟩, h3, h0⟩ := Out.bind_eq_ok.mp h0
    obtain ⟨⟨x1, s4⟩, h4, h0⟩ := Out.bind_eq_ok.mp h0
    obtain ⟨⟨x2, s5⟩, h5, h0⟩ := Out.bind_eq_ok.mp h0
    obtain ⟨⟨x3, s6⟩, h6, h0⟩ := Out.bind_eq_ok.mp h0
    obtain ⟨⟨x4, s7⟩, h7, h0⟩ := Out.bind_eq_ok.mp h0
    cases h0
    cases h
    simp [fillList, symOne, h1, h2, h3, h4, h5, h6, h7]
  | succ k ih =>
    intro fuel s s' l hk h
    obtain ⟨fuel, rfl⟩ : ∃ f, fuel = f + 1 := ⟨fuel - 1, by omega⟩
    unfold Symbol.readLoop at h
    obtain ⟨⟨a, s0⟩, h0, h⟩ := Out.bind_eq_ok.mp h
    obtain ⟨⟨l', s8⟩, h8, h⟩ := Out.bind_eq_ok.mp h
    cases h
    unfold Symbol.readOne at h0
    obtain ⟨⟨v, s1⟩, h1, h0⟩ := Out.bind_eq_ok.mp h0
    obtain ⟨⟨g, s2⟩, h2, h0⟩ := Out.bind_eq_ok.mp h0
    obtain ⟨⟨n, s3⟩, h3, h0⟩ := Out.bind_eq_ok.mp h0
    obtain ⟨⟨x1, s4⟩, h4, h0⟩ := Out.bind_eq_ok.mp h0
    obtain ⟨⟨x2, s5⟩, h5, h0⟩ := Out.bind_eq_ok.mp h0
    obtain ⟨⟨x3, s6⟩, h6, h0⟩ := Out.bind_eq_ok.mp h0
    obtain ⟨⟨x4, s7⟩, h7, h0⟩ := Out.bind_eq_ok.mp h0
    cases h0
    obtain ⟨w, hw⟩ := ih fuel _ s' l' (by omega) h8
    have e : ((k + 1 : Nat) : Int) + 1 - 1 = (k : Int) + 1 := by omega
    have e2 : (decide (((k + 1 : Nat) : Int) + 1 - 1 ≠ 0)) = true := by
      rw [e]
      simp
      omega
    refine ⟨(((lostSread lost registry s3 ++ lostSread lost registry s4) ++ lostSread lost registry s5) ++ lostSread lost registry s6) ++ w, ?_⟩
    simp only [fillList, symOne, h1, h2, h3, h4, h5, h6, h7, Out.ok_bind, Out.pure_eq]
    rw [e2, if_pos rfl, e, hw]
    rfl

/-- The strings lost by the reading of symbols after their number. -/
def lostSymList (E : Env D) (lost : Nat → Option Str → List Str) (registry : Ifaces) (n : Int) (s : Str) : List Str :=
  if n = 0 then []
  else match fillList (symOne E lost registry) (n.toNat + s.length + 1) (n, s) with
    | .ok (_, w, _) => w
    | _ => []

/-- The strings lost by the reading of the symbols. -/
def lostSymbols (E : Env D) (lost : Nat → Option Str → List Str) (registry : Ifaces) : Option Str → List Str
  | none => []
  | some s => match Util.read_int s with
    | .ok (n, s) => lostSymList E lost registry n s
    | _ => []

theorem symReadList_spec (R : DataRead O) (hr : ∀ i ∈ defaultRegistry, R.good i.fns) {n : Int} {s pos : Str} {l : List (Symbol D)}
    (h : Symbol.readSymbols E defaultRegistry n s = .ok (l, pos)) :
    Triple emp (symReadList R.sread n s) (got p, pos in ((symChain O).list p l ∗ looseAt (lostSymList E R.lost defaultRegistry n s))) := by
  unfold Symbol.readSymbols at h
  unfold symReadList lostSymList
  by_cases hn : n < 0
  · rw [if_pos hn] at h
    obtain ⟨_, _, h⟩ := Out.bind_eq_ok.mp h
    cases h
  rw [if_neg hn] at h
  by_cases h0 : n = 0
  · subst h0
    have h : Symbol.readLoop E defaultRegistry 0 s = .ok (l, pos) := h
    cases h
    rw [if_pos rfl, if_pos rfl]
    simp only [looseAt_nil, sep_emp]
    exact Triple.ret (fun h hh => ⟨0, pur_sep_iff.mpr ⟨rfl, rfl, hh⟩⟩)
  · rw [if_neg h0, if_neg h0]
    obtain ⟨k, rfl⟩ : ∃ k : Nat, n = (k : Int) + 1 := ⟨(n - 1).toNat, by omega⟩
    have e : ((k : Int) + 1).toNat = k + 1 := by omega
    rw [e] at h ⊢
    obtain ⟨w, hw⟩ := sym_fillList R.lost defaultRegistry k (k + 1 + s.length + 1) s pos l (by omega) h
    rw [hw]
    have := fun p r => fillAll_with (N := symChain O) (malloc := symMalloc) (fresh := symFresh) (X := ifacesAt r defaultRegistry) (Triple.alloc _)
      (symFill_spec R hr r) (k + 1 + s.length + 1) p ((k : Int) + 1, s) (0, pos) l w hw
    unfold symFresh at this
    unfold symMalloc at this ⊢
    hstep Triple.alloc
    hstep (default_registry_memory default_registry_eq.1)
    hstep (this p registry)
    hstep interface_free_memory
    dsimp only
    hret

/-- C72: `osl_symbols_sread` allocates exactly the symbols, besides the tags which are lost: the registry which it builds is freed. -/
theorem symbols_sread_memory (R : DataRead O) (hr : ∀ i ∈ defaultRegistry, R.good i.fns) {s pos : Option Str} {l : List (Symbol D)}
    (h : Symbol.sread E defaultRegistry s = .ok (l, pos)) :
    Triple emp (symSread R.sread s) (got p, pos in ((symChain O).list p l ∗ looseAt (lostSymbols E R.lost defaultRegistry s))) := by
  cases s with
  | none =>
    cases h
    simp only [lostSymbols, looseAt_nil, sep_emp]
    exact Triple.ret (fun h hh => ⟨0, pur_sep_iff.mpr ⟨rfl, rfl, hh⟩⟩)
  | some s =>
    simp only [Symbol.sread] at h
    simp only [symSread]
    by_cases hs : s.length > MAX_STRING
    · rw [if_pos hs] at h
      cases h
    rw [if_neg hs] at h ⊢
    obtain ⟨⟨n, s1⟩, h1, h⟩ := Out.bind_eq_ok.mp h
    obtain ⟨⟨l', s2⟩, h2, h⟩ := Out.bind_eq_ok.mp h
    cases h
    refine Triple.liftStep h1 ?_
    simp only [lostSymbols, h1]
    hstep (symReadList_spec R hr h2)
    hret

end Osl.Mem
