import Verif.HeapReadList
import Verif.HeapReadProps2
import Verif.HeapReadRelProps
import Verif.HeapExtProps6
/-!
# The readers in memory: extensions which are linked lists (C72)
-/

set_option linter.unusedSectionVars false

namespace Osl.Mem

open Osl.Ext

variable [Allocator]

/-! ## Texts, annotations -/

theorem textAt_zero : textAt ⟨0, 0, 0⟩ [] = emp := by
  unfold textAt
  show (pur _ ∗ intsAt 0 [] ∗ strsAt 0 []) = emp
  rw [pur_true (show (0 : Int) = (([] : Lines).length : Int) from rfl), emp_sep]
  show (pur _ ∗ pur _) = emp
  rw [pur_true rfl, pur_true rfl, emp_sep]

theorem nth_set_self {α : Type} {l : List α} {k : Nat} {i : Int} {x : α} (h : k < l.length) (hi : i = k) : nth (l.set k x) i = .ok x := by
  subst hi
  simp [nth, h]

theorem nth_set_other {α : Type} {l : List α} {j : Nat} {i : Int} {x y : α} (h : nth l i = .ok x) (hj : (j : Int) ≠ i) : nth (l.set j y) i = .ok x := by
  unfold nth at h ⊢
  split at h
  · cases h
  rename_i hi
  rw [if_neg hi, List.getElem?_set_ne (by omega)]
  exact h

theorem textReadLoop_spec {m : Ptr} {k : Nat} {w : Str} : ∀ (n : Nat) (is : List Int) (l : List Ptr) (s : Str) (t : TextRec) (acc x : Lines),
    decide (k < is.length) = true → decide (2 * k + 1 < l.length) = true → Lines.readLoop n s acc = .ok (x, w) →
    Triple (m ↦ .node (is.set k t.count) ((l.set (2 * k) t.types).set (2 * k + 1) t.lines) ∗ textAt t acc) (textReadLoop m k n s)
      (fun r => pur (r = w) ∗ ex fun t' => textAt t' x ∗ m ↦ .node (is.set k t'.count) ((l.set (2 * k) t'.types).set (2 * k + 1) t'.lines))
  | 0, is, l, s, t, acc, x, h3, h4, h => by
    cases h
    exact Triple.ret (fun h hh => pur_sep_iff.mpr ⟨rfl, t, hh.perm (by ac_rfl)⟩)
  | n + 1, is, l, s, t, acc, x, h3, h4, h => by
    simp only [Lines.readLoop] at h
    simp only [textReadLoop]
    hread ty, h1, h
    obtain ⟨⟨li, s'⟩, h2, h⟩ := Out.bind_eq_ok.mp h
    dsimp only at h
    hstep (read_line_memory h2)
    have h3' := of_decide_eq_true h3
    have h4' := of_decide_eq_true h4
    have e0 : nth (is.set k t.count) k = .ok t.count := nth_set_self h3' rfl
    have e1 : nth ((l.set (2 * k) t.types).set (2 * k + 1) t.lines) (2 * k) = .ok t.types := 
      nth_set_other (nth_set_self (by omega) (by omega)) (by omega)
    have e2 : nth ((l.set (2 * k) t.types).set (2 * k + 1) t.lines) (2 * k + 1) = .ok t.lines := nth_set_self (by simpa using h4') (by omega)
    have e3 : decide (k < (is.set k t.count).length) = true := by simpa using h3'
    have e4 : decide (2 * k + 1 < ((l.set (2 * k) t.types).set (2 * k + 1) t.lines).length) = true := by simpa using h4'
    hstep (appendText_spec (t := t) (x := acc) (w := li) e0 e1 e2 e3 e4)
    have := textReadLoop_spec (m := m) n is l s' t' (Lines.append acc ty.1 li) x h3 h4 h
    have q1 : (is.set k t.count).set k t'.count = is.set k t'.count := by simp
    have q2 : ((((l.set (2 * k) t.types).set (2 * k + 1) t.lines).set (2 * k) t'.types).set (2 * k + 1) t'.lines) = (l.set (2 * k) t'.types).set (2 * k + 1) t'.lines := by
      apply List.ext_getElem (by simp)
      intro i a b
      simp only [List.getElem_set]
      split
      · rfl
      · split <;> rfl
    rw [q1, q2]
    exact this.pre (fun h hh => hh.perm (by ac_rfl))

/-- C72: a text of an annotation or a region. -/
theorem textRead_spec {m : Ptr} {k : Nat} {is : List Int} {l : List Ptr} {s w : Str} {x : Lines} (h : Lines.read s = .ok (x, w))
    (h3 : decide (k < is.length) = true) (h4 : decide (2 * k + 1 < l.length) = true) (e1 : is.set k 0 = is) (e2 : (l.set (2 * k) 0).set (2 * k + 1) 0 = l) :
    Triple (m ↦ .node is l) (textRead m k s)
      (fun r => pur (r = w) ∗ ex fun t' => textAt t' x ∗ m ↦ .node (is.set k t'.count) ((l.set (2 * k) t'.types).set (2 * k + 1) t'.lines)) := by
  unfold Lines.read at h
  unfold textRead
  hread n, h1, h
  have := textReadLoop_spec (m := m) (Lines.toSize n.1) is l n.2 ⟨0, 0, 0⟩ [] x h3 h4 h
  rw [textAt_zero, sep_emp] at this
  dsimp only at this
  rw [e1, e2] at this
  exact this

/-- C72: `osl_annotation_sread` allocates exactly the annotation. -/
theorem annotation_sread_memory {s pos : Option Str} {d : Option Annotation} (h : Annotation.sread s = .ok (d, pos)) :
    Triple emp (annSread s) (got p, pos in optAt annAt p d) := by
  cases s with
  | none => cases h
  | some s =>
    simp only [Annotation.sread] at h
    simp only [annSread, annMalloc]
    obtain ⟨⟨x, s1⟩, h1, h⟩ := Out.bind_eq_ok.mp h
    obtain ⟨⟨y, s2⟩, h2, h⟩ := Out.bind_eq_ok.mp h
    cases h
    hstep Triple.alloc
    hstep (textRead_spec (k := 0) h1 rfl rfl rfl rfl)
    hstep (textRead_spec (k := 1) h2 rfl rfl rfl rfl)
    show Triple _ _ (got p, some s2 in annAt p _)
    unfold annAt
    hret

/-! ## Lists which are filled in place -/

/-- The lists which `fillAll` reads, as values: the elements, the strings which are lost, the position. -/
def fillList {α σ : Type} (f : σ → Out (α × List Str × Bool × σ)) : Nat → σ → Out (List α × List Str × σ)
  | 0, _ => .ub
  | k + 1, s => do
    let (a, w, more, s) ← f s
    if more then do
      let (l, v, s) ← fillList f k s
      return (a :: l, w ++ v, s)
    else .ok ([a], w, s)

theorem fillAll_spec {α σ : Type} {N : Chain α} {malloc : M Ptr} {fresh : Ptr → Assn} {fill : Ptr → σ → M (Bool × σ)} {f : σ → Out (α × List Str × Bool × σ)}
    (hm : Triple emp malloc fresh)
    (hf : ∀ p s a w more s', f s = .ok (a, w, more, s') → Triple (fresh p) (fill p s) (fun r => pur (r = (more, s')) ∗ N.at_ p a 0 ∗ looseAt w)) :
    ∀ (k : Nat) (p : Ptr) (s s' : σ) (l : List α) (w : List Str), fillList f k s = .ok (l, w, s') →
    Triple (fresh p) (fillAll N.toNext malloc fill k p s) (fun r => pur (r = s') ∗ N.list p l ∗ looseAt w)
  | 0, p, s, s', l, w, h => by cases h
  | k + 1, p, s, s', l, w, h => by
    simp only [fillList] at h
    simp only [fillAll]
    obtain ⟨⟨a, w1, more, s1⟩, h1, h⟩ := Out.bind_eq_ok.mp h
    dsimp only at h
    hstep (hf p s a w1 more s1 h1)
    dsimp only
    cases more with
    | false =>
      rw [if_neg (by simp)] at h ⊢
      cases h
      exact Triple.ret (fun h hh => pur_sep_iff.mpr ⟨rfl, by rw [Chain.list_one]; exact hh⟩)
    | true =>
      rw [if_pos rfl] at h ⊢
      obtain ⟨⟨l', v, s2⟩, h2, h⟩ := Out.bind_eq_ok.mp h
      cases h
      hstep hm
      hstep (N.set_spec p a 0 q)
      hlast (fillAll_spec hm hf k q s1 s2 l' v h2)
      refine Triple.ret (fun h hh => pur_sep_iff.mpr ⟨rfl, ?_⟩)
      rw [Chain.list_cons, ex_sep]
      refine ⟨q, ?_⟩
      have h3 : (((N.at_ p a q) ∗ N.list q l') ∗ (looseAt w1 ∗ looseAt v)) h := hh.perm (by ac_rfl)
      exact sep_mono (fun _ h => h) (fun h hh => looseAt_append h hh) h3

/-- A list kind: the pointer and the list. -/
theorem got_ofList {X : Type} {N : Chain X} {m : M (Ptr × Option Str)} {pos : Option Str} {l : List X} (h : Triple emp m (got p, pos in N.list p l)) :
    Triple emp m (got p, pos in optAt (fun p x => N.list p (NE.elems (some x))) p (NE.ofList l)) := by
  simp only [optAt_list, NE.elems_ofList]
  exact h

/-! ## Regions -/

/-- One region, as a value. -/
def regionOne (s : Nat × Str) : Out (Region × List Str × Bool × Nat × Str) := do
  let r ← Region.readOne s.2
  return (r.1, [], decide (1 < s.1), s.1 - 1, r.2)

/-- A region which has just been allocated. -/
def regionFresh (p : Ptr) : Assn := p ↦ .node [0, 0, 0, 0, 0] [0, 0, 0, 0, 0, 0, 0, 0, 0]

theorem regionFill_spec (p : Ptr) (s : Nat × Str) (a : Region) (w : List Str) (more : Bool) (s' : Nat × Str) (h : regionOne s = .ok (a, w, more, s')) :
    Triple (regionFresh p) (regionFill p s) (fun r => pur (r = (more, s')) ∗ regionAt p a 0 ∗ looseAt w) := by
  obtain ⟨n, s⟩ := s
  unfold regionOne at h
  obtain ⟨⟨r, s5⟩, h0, h⟩ := Out.bind_eq_ok.mp h
  cases h
  unfold Region.readOne at h0
  unfold regionFill regionFresh
  hread loc, h1, h0
  obtain ⟨⟨x, s1⟩, h2, h0⟩ := Out.bind_eq_ok.mp h0
  obtain ⟨⟨y, s2⟩, h3, h0⟩ := Out.bind_eq_ok.mp h0
  obtain ⟨⟨z, s3⟩, h4, h0⟩ := Out.bind_eq_ok.mp h0
  obtain ⟨⟨u, s4⟩, h5, h0⟩ := Out.bind_eq_ok.mp h0
  cases h0
  hstep setInt_spec
  hstep (textRead_spec (k := 0) h2 rfl rfl rfl rfl)
  hstep (textRead_spec (k := 1) h3 rfl rfl rfl rfl)
  hstep (textRead_spec (k := 2) h4 rfl rfl rfl rfl)
  hstep (textRead_spec (k := 3) h5 rfl rfl rfl rfl)
  rw [looseAt_nil]
  simp only [sep_emp]
  unfold regionAt
  hret

theorem region_fillList : ∀ (n : Nat) (s s' : Str) (l : List Region), Region.readLoop (n + 1) s = .ok (l, s') →
    fillList regionOne (n + 1) (n + 1, s) = .ok (l, [], 0, s')
  | 0, s, s', l, h => by
    simp only [Region.readLoop] at h
    obtain ⟨⟨r, s1⟩, h1, h⟩ := Out.bind_eq_ok.mp h
    cases h
    simp [fillList, regionOne, h1]
  | n + 1, s, s', l, h => by
    unfold Region.readLoop at h
    obtain ⟨⟨r, s1⟩, h1, h⟩ := Out.bind_eq_ok.mp h
    obtain ⟨⟨l', s2⟩, h2, h⟩ := Out.bind_eq_ok.mp h
    cases h
    have := region_fillList n s1 s' l' h2
    unfold fillList
    simp [regionOne, h1, this]

theorem regionReadList_spec {n : Int} {s s' : Str} {l : List Region} (h : Region.readRegions n s = .ok (l, s')) :
    Triple emp (regionReadList n s) (got p, s' in regionChain.list p l) := by
  unfold Region.readRegions at h
  unfold regionReadList
  split at h
  · rename_i hn
    rw [if_pos hn]
    cases h
    exact Triple.ret (fun h hh => ⟨0, pur_sep_iff.mpr ⟨rfl, rfl, hh⟩⟩)
  · rename_i hn
    rw [if_neg hn]
    unfold regionMalloc
    hstep Triple.alloc
    split at h
    · rename_i hn2
      rw [if_neg (by omega)]
      cases h
      refine Triple.ret (fun h hh => ⟨p, pur_sep_iff.mpr ⟨rfl, ?_⟩⟩)
      rw [Chain.list_one]
      refine ⟨⟨0, 0, 0⟩, ⟨0, 0, 0⟩, ⟨0, 0, 0⟩, ⟨0, 0, 0⟩, ?_⟩
      simp only [Region.malloc, textAt_zero, sep_emp]
      exact hh
    · rename_i hn2
      rw [if_pos (by omega)]
      obtain ⟨k, hk⟩ : ∃ k, n.toNat = k + 1 := ⟨n.toNat - 1, by omega⟩
      rw [hk] at h ⊢
      have := fillAll_spec (N := regionChain) (malloc := regionMalloc) (fresh := regionFresh) (Triple.alloc _) regionFill_spec (k + 1) p (k + 1, s) (0, s') l []
        (region_fillList k s s' l h)
      rw [looseAt_nil] at this
      simp only [sep_emp] at this
      unfold regionFresh at this
      hstep this
      exact Triple.ret (fun h hh => ⟨p, pur_sep_iff.mpr ⟨rfl, hh⟩⟩)

/-- C72: `osl_region_sread` allocates exactly the regions. -/
theorem region_sread_memory {s pos : Option Str} {l : List Region} (h : Region.sread s = .ok (l, pos)) :
    Triple emp (regionSread s) (got p, pos in regionChain.list p l) := by
  cases s with
  | none => cases h
  | some s =>
    simp only [Region.sread] at h
    simp only [regionSread]
    hread n, h1, h
    obtain ⟨⟨l', s2⟩, h2, h⟩ := Out.bind_eq_ok.mp h
    cases h
    hstep (regionReadList_spec h2)
    hret

/-! ## Loops -/

/-- A loop which has just been allocated. -/
def loopFresh (p : Ptr) : Assn := p ↦ .node [0, 0] [0, 0, 0, 0, 0]

theorem loopLine_spec {m : Ptr} {i : Nat} {is : List Int} {l : List Ptr} {s w pos : Str} (h : Util.read_line s = .ok (w, pos)) (hi : decide (i < l.length) = true) :
    Triple (m ↦ .node is l) (loopLine m i s) (fun r => pur (r = pos) ∗ ex fun q => m ↦ .node is (l.set i q) ∗ uriAt q (Loop.nullLine w)) := by
  have hi := of_decide_eq_true hi
  unfold loopLine
  hstep (read_line_memory h)
  hstep (setPtr_spec (setNth_ok hi))
  hstep loadChars_spec
  split
  · rename_i hw
    hstep Triple.free
    hstep (setPtr_spec (setNth_ok (l := l.set i p) (by simpa using hi)))
    refine Triple.ret (fun h hh => pur_sep_iff.mpr ⟨rfl, 0, ?_⟩)
    show ((m ↦ .node is (l.set i 0)) ∗ uriAt 0 (Loop.nullLine w)) h
    unfold Loop.nullLine
    rw [if_pos hw, sep_comm]
    refine pur_sep_iff.mpr ⟨rfl, ?_⟩
    simpa using hh
  · rename_i hw
    refine Triple.ret (fun h hh => pur_sep_iff.mpr ⟨rfl, p, ?_⟩)
    show ((m ↦ .node is (l.set i p)) ∗ uriAt p (Loop.nullLine w)) h
    unfold Loop.nullLine
    rw [if_neg hw]
    exact hh.perm (by show _ = (_ ∗ _ ↦ _); ac_rfl)

theorem loopUser_spec {m : Ptr} {is : List Int} {l : List Ptr} {d : Int} {s pos : Str} {w : Option Str} (h : Loop.readUser d s = .ok (w, pos))
    (hi : decide (3 < l.length) = true) (e : l.set 3 0 = l) :
    Triple (m ↦ .node is l) (loopUser m d s) (fun r => pur (r = pos) ∗ ex fun q => m ↦ .node is (l.set 3 q) ∗ uriAt q w) := by
  unfold Loop.readUser at h
  unfold loopUser
  split at h
  · rename_i hu
    rw [if_pos hu]
    obtain ⟨⟨u, s1⟩, h1, h⟩ := Out.bind_eq_ok.mp h
    cases h
    exact loopLine_spec h1 hi
  · rename_i hu
    rw [if_neg hu]
    cases h
    refine Triple.ret (fun h hh => pur_sep_iff.mpr ⟨rfl, 0, ?_⟩)
    show ((m ↦ .node is (l.set 3 0)) ∗ uriAt 0 none) h
    rw [e, sep_comm]
    exact pur_sep_iff.mpr ⟨rfl, hh⟩

/-- One loop, as a value. -/
def loopOne (s : Int × Str) : Out (Loop × List Str × Bool × Int × Str) := do
  let r ← Loop.readOne s.2
  return (r.1, [], decide (s.1 - 1 ≠ 0), s.1 - 1, r.2)

theorem loopFill_spec (m : Ptr) (s : Int × Str) (a : Loop) (w : List Str) (more : Bool) (s' : Int × Str) (h : loopOne s = .ok (a, w, more, s')) :
    Triple (loopFresh m) (loopFill m s) (fun r => pur (r = (more, s')) ∗ loopAt m a 0 ∗ looseAt w) := by
  obtain ⟨n, s⟩ := s
  unfold loopOne at h
  obtain ⟨⟨r, s5⟩, h0, h⟩ := Out.bind_eq_ok.mp h
  cases h
  unfold Loop.readOne at h0
  unfold loopFill loopFresh
  obtain ⟨⟨it, s1⟩, h1, h0⟩ := Out.bind_eq_ok.mp h0
  dsimp only at h0
  hstep (read_string_memory h1)
  hstep setPtr_spec
  dsimp only
  hread k, h2, h0
  hstep setInt_spec
  obtain ⟨⟨ids, s2⟩, h3, h0⟩ := Out.bind_eq_ok.mp h0
  unfold Loop.readIds at h3
  split at h3
  · cases h3
  rename_i hn
  refine Triple.liftStep (a := k.1.toNat) (if_neg hn) ?_
  hstep allocInts_spec
  hstep setPtr_spec
  have hl := readInts_length h3
  have e : k.1 = (ids.length : Int) := by omega
  hstep (intsReadLoop_spec (a := a) k.1.toNat 0 [] k.2 ids s2 rfl h3)
  hconv (ints_intro (p := a) (l := [] ++ ids))
  rw [List.nil_append]
  obtain ⟨⟨pv, s3⟩, h4, h0⟩ := Out.bind_eq_ok.mp h0
  dsimp only at h0
  hstep (loopLine_spec (m := m) (i := 2) h4 rfl)
  hread d, h5, h0
  obtain ⟨⟨u, s4⟩, h6, h0⟩ := Out.bind_eq_ok.mp h0
  cases h0
  hstep setInt_spec
  hstep (loopUser_spec (m := m) h6 rfl rfl)
  rw [looseAt_nil, e]
  simp only [sep_emp]
  unfold loopAt
  hret

theorem loop_fillList : ∀ (k : Nat) (n : Int) (s s' : Str) (l : List Loop), n ≠ 0 → Loop.readLoop (k + 1) n s = .ok (l, s') →
    ∃ n', fillList loopOne k (n, s) = .ok (l, [], n', s')
  | 0, n, s, s', l, hn, h => by
    simp only [Loop.readLoop] at h
    rw [if_neg hn] at h
    obtain ⟨⟨r, s1⟩, h1, h⟩ := Out.bind_eq_ok.mp h
    cases h
  | k + 1, n, s, s', l, hn, h => by
    unfold Loop.readLoop at h
    rw [if_neg hn] at h
    obtain ⟨⟨r, s1⟩, h1, h⟩ := Out.bind_eq_ok.mp h
    obtain ⟨⟨l', s2⟩, h2, h⟩ := Out.bind_eq_ok.mp h
    cases h
    by_cases hn1 : n - 1 = 0
    · unfold Loop.readLoop at h2
      rw [if_pos hn1] at h2
      cases h2
      exact ⟨n - 1, by simp [fillList, loopOne, h1, hn1]⟩
    · obtain ⟨n', e⟩ := loop_fillList k (n - 1) s1 s' l' hn1 h2
      exact ⟨n', by simp [fillList, loopOne, h1, hn1, e]⟩

theorem loopReadList_spec {n : Int} {s s' : Str} {l : List Loop} (h : Loop.readLoop (n.natAbs + s.length + 1) n s = .ok (l, s')) :
    Triple emp (loopReadList n s) (got p, s' in loopChain.list p l) := by
  unfold loopReadList
  split
  · rename_i hn
    unfold Loop.readLoop at h
    rw [if_pos hn] at h
    cases h
    exact Triple.ret (fun h hh => ⟨0, pur_sep_iff.mpr ⟨rfl, rfl, hh⟩⟩)
  · rename_i hn
    obtain ⟨n', e⟩ := loop_fillList _ n s s' l hn h
    hstep (show Triple emp loopMalloc loopFresh from Triple.alloc _)
    have := fillAll_spec (N := loopChain) (malloc := loopMalloc) (fresh := loopFresh) (Triple.alloc _) loopFill_spec _ p (n, s) (n', s') l [] e
    rw [looseAt_nil] at this
    simp only [sep_emp] at this
    hstep this
    exact Triple.ret (fun h hh => ⟨p, pur_sep_iff.mpr ⟨rfl, hh⟩⟩)

/-- C72: `osl_loop_sread` allocates exactly the loops. -/
theorem loop_sread_memory {s pos : Option Str} {l : List Loop} (h : Loop.sread s = .ok (l, pos)) :
    Triple emp (loopSread s) (got p, pos in loopChain.list p l) := by
  cases s with
  | none => cases h
  | some s =>
    simp only [Loop.sread] at h
    simp only [loopSread]
    hread n, h1, h
    obtain ⟨⟨l', s2⟩, h2, h⟩ := Out.bind_eq_ok.mp h
    cases h
    hstep (loopReadList_spec h2)
    hret

/-! ## Unrollings -/

/-- An unrolling which has just been allocated. -/
def unrollFresh (p : Ptr) : Assn := p ↦ .node [0, 0] [0, 0]

/-- One unrolling, as a value. -/
def unrollOne (s : Str) : Out (Unroll × List Str × Bool × Str) := do
  let (n, s) ← Util.read_line s
  let (j, s) ← Util.read_int s
  let (f, s) ← Util.read_int s
  let (next, s) ← Util.read_int s
  return ({ iter := some n, jam := decide (j ≠ 0), factor := (f % 2 ^ 32).toNat }, [], decide (next = 1), s)

theorem unrollFill_spec' (m : Ptr) (s : Str) (a : Unroll) (w : List Str) (more : Bool) (s' : Str) (h : unrollOne s = .ok (a, w, more, s')) :
    Triple (unrollFresh m) (unrollReadFill m s) (fun r => pur (r = (more, s')) ∗ unrollAt m a 0 ∗ looseAt w) := by
  unfold unrollOne at h
  unfold unrollReadFill unrollFresh
  obtain ⟨⟨it, s1⟩, h1, h⟩ := Out.bind_eq_ok.mp h
  dsimp only at h
  hstep (read_line_memory h1)
  hstep setPtr_spec
  dsimp only
  hread j, h2, h
  hstep setInt_spec
  hread f, h3, h
  hstep setInt_spec
  hread n, h4, h
  cases h
  rw [looseAt_nil]
  simp only [sep_emp]
  have e : f.1 % 2 ^ 32 = (((f.1 % 2 ^ 32).toNat : Nat) : Int) := by omega
  rw [e]
  unfold unrollAt
  hret

theorem unroll_fillList : ∀ (k : Nat) (s s' : Str) (l : List Unroll), Unroll.readLoop k s = .ok (l, s') → fillList unrollOne k s = .ok (l, [], s')
  | 0, s, s', l, h => by cases h
  | k + 1, s, s', l, h => by
    unfold Unroll.readLoop at h
    obtain ⟨⟨it, s1⟩, h1, h⟩ := Out.bind_eq_ok.mp h
    dsimp only at h
    obtain ⟨⟨j, s2⟩, h2, h⟩ := Out.bind_eq_ok.mp h
    dsimp only at h
    obtain ⟨⟨f, s3⟩, h3, h⟩ := Out.bind_eq_ok.mp h
    dsimp only at h
    obtain ⟨⟨n, s4⟩, h4, h⟩ := Out.bind_eq_ok.mp h
    dsimp only at h
    split at h
    · rename_i hn
      obtain ⟨⟨l', s5⟩, h5, h⟩ := Out.bind_eq_ok.mp h
      cases h
      simp [fillList, unrollOne, h1, h2, h3, h4, hn, unroll_fillList k s4 s5 l' h5]
    · rename_i hn
      cases h
      simp [fillList, unrollOne, h1, h2, h3, h4, hn]

theorem unrollReadList_spec {n : Int} {s s' : Str} {l : List Unroll} (h : Unroll.readList n s = .ok (l, s')) :
    Triple emp (unrollReadList n s) (got p, s' in unrollChain.list p l) := by
  unfold Unroll.readList at h
  unfold unrollReadList
  split at h
  · rename_i hn
    rw [if_pos hn]
    hstep (show Triple emp unrollMalloc unrollFresh from Triple.alloc _)
    have := fillAll_spec (N := unrollChain) (malloc := unrollMalloc) (fresh := unrollFresh) (Triple.alloc _) unrollFill_spec' _ p s s' l [] (unroll_fillList _ s s' l h)
    rw [looseAt_nil] at this
    simp only [sep_emp] at this
    hstep this
    exact Triple.ret (fun h hh => ⟨p, pur_sep_iff.mpr ⟨rfl, hh⟩⟩)
  · rename_i hn
    rw [if_neg hn]
    cases h
    exact Triple.ret (fun h hh => ⟨0, pur_sep_iff.mpr ⟨rfl, rfl, hh⟩⟩)

/-- C72: `osl_pluto_unroll_sread` allocates exactly the list. -/
theorem unroll_sread_memory {s pos : Option Str} {l : List Unroll} (h : Unroll.sread s = .ok (l, pos)) :
    Triple emp (unrollSread s) (got p, pos in unrollChain.list p l) := by
  cases s with
  | none => cases h
  | some s =>
    simp only [Unroll.sread] at h
    simp only [unrollSread]
    hread n, h1, h
    obtain ⟨⟨l', s2⟩, h2, h⟩ := Out.bind_eq_ok.mp h
    cases h
    hstep (unrollReadList_spec h2)
    hret

/-! ## Dependences -/

theorem depSetDims_spec {p : Ptr} {ps : List Ptr} : ∀ (l : List Int) (i : Nat) (is js : List Int), is.length = i → js.length = l.length →
    Triple (p ↦ .node (is ++ js) ps) (depSetDims p i l) (fun _ => p ↦ .node (is ++ l) ps)
  | [], i, is, js, hi, hj => by
    cases js with
    | nil => exact Triple.ret (fun h hh => hh)
    | cons a js => simp at hj
  | v :: l, i, is, js, hi, hj => by
    cases js with
    | nil => simp at hj
    | cons a js =>
      simp only [depSetDims]
      hstep (setInt_spec (setNth_append_mid hi))
      have := depSetDims_spec (p := p) (ps := ps) l (i + 1) (is ++ [v]) js (by simp [hi]) (by simpa using hj)
      simp only [List.append_assoc, List.cons_append, List.nil_append] at this
      exact this

theorem eight {l : List Int} (h : l.length = 8) : l = [l.getD 0 0, l.getD 1 0, l.getD 2 0, l.getD 3 0, l.getD 4 0, l.getD 5 0, l.getD 6 0, l.getD 7 0] := by
  match l, h with
  | [a, b, c, d, e, f, g, i], _ => rfl

theorem readDims_eight {s pos : Str} {l : List Int} (h : Dep.readDims s = .ok (l, pos)) : l.length = 8 := by
  unfold Dep.readDims at h
  dsimp only at h
  split at h
  · cases h
  obtain ⟨l', _, h⟩ := Out.bind_eq_ok.mp h
  split at h
  · cases h
  rename_i h8
  cases h
  exact Classical.byContradiction h8

/-- C72: one dependence. -/
theorem depReadOne_spec {c : Cfg} {prec : Int} {s : Str} {d : Dep} {pos : Option Str} (h : Dep.readOne c prec s = .ok (d, pos)) :
    Triple emp (depReadOne c prec s) (got p, pos in depAt c p d 0) := by
  unfold Dep.readOne at h
  unfold depReadOne depMalloc
  obtain ⟨⟨w, s1⟩, h1, h⟩ := Out.bind_eq_ok.mp h
  dsimp only at h
  hstep Triple.alloc
  hstep (read_string_memory h1)
  hstep loadChars_spec
  hstep setInt_spec
  hstep Triple.free
  hread a1, h2, h
  hstep setInt_spec
  hread a2, h3, h
  hstep setInt_spec
  hread a3, h4, h
  hstep setInt_spec
  hread a4, h5, h
  hstep setInt_spec
  hread a5, h6, h
  hstep setInt_spec
  hread ds, h7, h
  have hd : ds.1.length = 8 := readDims_eight (pos := ds.2) h7
  obtain ⟨⟨dom, pos'⟩, h8, h⟩ := Out.bind_eq_ok.mp h
  cases h
  hstep (depSetDims_spec (ps := [0, 0, 0, 0, 0, 0, 0]) ds.1 6 [a1.1, a2.1, a4.1, a5.1, a3.1, Dep.typeOf w] [-1, -1, -1, -1, -1, -1, -1, -1] rfl (by rw [hd]; rfl))
  hstep (relation_psread_memory h8)
  hstep setPtr_spec
  rw [eight hd]
  unfold depAt
  hret

/-- One dependence from a position, as a value. -/
def depOne (c : Cfg) (prec : Int) (pos : Option Str) : Out (Dep × Option Str) := position pos >>= Dep.readOne c prec

/-- C72: `osl_dependence_psread` allocates exactly the dependences. -/
theorem dependence_psread_memory {c : Cfg} {prec : Int} {s pos : Option Str} {l : List Dep} (h : Dep.psread c prec s = .ok (l, pos)) :
    Triple emp (depPsread c prec s) (got p, pos in (depChain c).list p l) := by
  cases s with
  | none =>
    cases h
    exact Triple.ret (fun h hh => ⟨0, pur_sep_iff.mpr ⟨rfl, rfl, hh⟩⟩)
  | some s =>
    simp only [Dep.psread] at h
    simp only [depPsread]
    hread n, h1, h
    have := readCount_spec (N := depChain c) (one := depReadAt c prec) (f := depOne c prec) (F := Dep.readLoop c prec) (g := id)
      (fun s a s' h => by
        obtain ⟨x, h1, h⟩ := Out.bind_eq_ok.mp h
        refine Triple.liftStep h1 ?_
        exact depReadOne_spec h)
      (fun s l t h => by cases h; exact ⟨rfl, rfl⟩)
      (fun n s l t h => by
        cases s with
        | none => cases h
        | some s =>
          simp only [Dep.readLoop] at h
          obtain ⟨⟨a, s1⟩, h1, h⟩ := Out.bind_eq_ok.mp h
          obtain ⟨⟨l', s2⟩, h2, h⟩ := Out.bind_eq_ok.mp h
          cases h
          exact ⟨a, s1, l', h1, h2, rfl⟩) n.1.toNat 0 0 [] l (some n.2) pos h
    refine Triple.conseq this (fun h hh => ?_) (fun r h hh => ?_)
    · rw [Chain.done_nil]
      exact ⟨⟨rfl, rfl⟩, hh⟩
    · obtain ⟨hr, hh⟩ := pur_sep_iff.mp hh
      exact ⟨r.1, pur_sep_iff.mpr ⟨Prod.ext rfl hr, hh⟩⟩

end Osl.Mem
