import Verif.HeapRelProps
/-!
# Linked lists in memory

All the lists of the library are chains of structures with a `next` pointer, and the same loops appear in many files.  They are
modelled here once, with the operations on one structure as parameters; the other modules say which functions of the
library they are.
-/

namespace Osl.Mem

/-! ## The loops -/

/-- The operations on the `next` field of a structure. -/
structure Next where
  get : Ptr → M Ptr
  set : Ptr → Ptr → M Unit

/-- `while (p != NULL) p = step(p)`. -/
def whileNext (step : Ptr → M Ptr) : Nat → Ptr → M Unit
  | 0, p => if p = 0 then pure () else undef
  | f + 1, p =>
    if p = 0 then pure ()
    else do
      let q ← step p
      whileNext step f q

/-- A loop which frees a list; one step frees the first structure and gives the next one. -/
def freeAll (step : Ptr → M Ptr) (p : Ptr) : M Unit := do
  let f ← heapSize
  whileNext step f p

/-- Walk to the last structure and set its `next` field. -/
def setLast (N : Next) (l2 : Ptr) : Nat → Ptr → M Unit
  | 0, _ => undef
  | f + 1, p => do
    let q ← N.get p
    if q = 0 then N.set p l2 else setLast N l2 f q

/-- `while (*l1 != NULL) l1 = &((*l1)->next); *l1 = l2`: the new value of the pointer. -/
def append (N : Next) (l1 l2 : Ptr) : M Ptr :=
  if l1 = 0 then pure l2
  else do
    let f ← heapSize
    setLast N l2 f l1
    pure l1

/-- Link a new structure after the last one (`first` being "there is no last one"): the new head. -/
def linkNode (N : Next) (head previous node : Ptr) : M Ptr :=
  if previous = 0 then pure node
  else do
    N.set previous node
    pure head

/-- The copy loop: `p` is to be copied, `head` and `previous` are the first and last structures of the copy. -/
def copyLoop (N : Next) (copy : Ptr → M Ptr) : Nat → Ptr → Ptr → Ptr → M Ptr
  | 0, p, head, _ => if p = 0 then pure head else undef
  | f + 1, p, head, previous =>
    if p = 0 then pure head
    else do
      let node ← copy p
      let head ← linkNode N head previous node
      let q ← N.get p
      copyLoop N copy f q head node

/-- A copy of a list. -/
def copyAll (N : Next) (copy : Ptr → M Ptr) (p : Ptr) : M Ptr := do
  let f ← heapSize
  copyLoop N copy f p 0 0

/-- The copy loop with a number of iterations, without test of the end. -/
def copyCount (N : Next) (copy : Ptr → M Ptr) : Nat → Ptr → Ptr → Ptr → M Ptr
  | 0, _, head, _ => pure head
  | n + 1, p, head, previous => do
    let node ← copy p
    let head ← linkNode N head previous node
    let q ← N.get p
    copyCount N copy n q head node

/-- The length of a list. -/
def countLoop (N : Next) : Nat → Ptr → Nat → M Nat
  | 0, p, n => if p = 0 then pure n else undef
  | f + 1, p, n =>
    if p = 0 then pure n
    else do
      let q ← N.get p
      countLoop N f q (n + 1)

/-- `while (p != NULL) { n++; p = p->next; }`. -/
def countAll (N : Next) (p : Ptr) : M Nat := do
  let f ← heapSize
  countLoop N f p 0

/-- The loop of a search: `while (p != NULL) { if (test(p)) return p; p = p->next; } return NULL`. -/
def findLoop (N : Next) (test : Ptr → M Bool) : Nat → Ptr → M Ptr
  | 0, p => if p = 0 then pure 0 else undef
  | f + 1, p =>
    if p = 0 then pure 0
    else do
      let b ← test p
      if b then pure p
      else do
        let q ← N.get p
        findLoop N test f q

/-- The first structure of a list which passes a test, or NULL. -/
def findNode (N : Next) (test : Ptr → M Bool) (p : Ptr) : M Ptr := do
  let f ← heapSize
  findLoop N test f p

/-- A loop over a list which reads or updates its structures one after the other: `while (p != NULL) { act(p); p = p->next; }`. -/
def eachLoop (N : Next) (act : Ptr → M Unit) : Nat → Ptr → M Unit
  | 0, p => if p = 0 then pure () else undef
  | f + 1, p =>
    if p = 0 then pure ()
    else do
      act p
      let q ← N.get p
      eachLoop N act f q

/-- A walk along a list. -/
def eachNode (N : Next) (act : Ptr → M Unit) (p : Ptr) : M Unit := do
  let f ← heapSize
  eachLoop N act f p

/-- `while (tmp->next != x && tmp->next != NULL) tmp = tmp->next`: the last value of `tmp`. -/
def beforeLoop (N : Next) (x : Ptr) : Nat → Ptr → M Ptr
  | 0, _ => undef
  | f + 1, p => do
    let q ← N.get p
    if q ≠ x ∧ q ≠ 0 then beforeLoop N x f q else pure p

/-- The copy loop with a bound on the number of structures, and a test of the end of the list. -/
def copyBound (N : Next) (copy : Ptr → M Ptr) : Nat → Ptr → Ptr → Ptr → M Ptr
  | 0, _, head, _ => pure head
  | n + 1, p, head, previous =>
    if p = 0 then pure head
    else do
      let node ← copy p
      let head ← linkNode N head previous node
      let q ← N.get p
      copyBound N copy n q head node

/-! ## Assertions -/

/-- The memory of a structure: `at p a n` when the structure at `p` has the content `a` and the `next` pointer `n`; and the
operations on its `next` field. -/
structure Chain (α : Type) extends Next where
  at_ : Ptr → α → Ptr → Assn
  nonnull : ∀ {p a n h}, at_ p a n h → p ≠ 0
  own : ∀ {p a n h}, at_ p a n h → h p ≠ none
  big : ∀ p a n, Big (at_ p a n) 1
  get_spec : ∀ p a n, Triple (at_ p a n) (get p) (fun r => pur (r = n) ∗ at_ p a n)
  set_spec : ∀ p a n n', Triple (at_ p a n) (set p n') (fun _ => at_ p a n')

variable {α : Type}

namespace Chain

/-- The structures from `p` to (excluded) `q`. -/
def seg (N : Chain α) : Ptr → List α → Ptr → Assn
  | p, [], q => pur (p = q)
  | p, a :: l, q => ex fun n => N.at_ p a n ∗ N.seg n l q

/-- A whole list. -/
def list (N : Chain α) (p : Ptr) (l : List α) : Assn := N.seg p l 0

variable {N : Chain α}

theorem seg_nil {p : Ptr} {l : List α} {h : PHeap} (hh : N.list p l h) (hp : p = 0) : l = [] ∧ emp h := by
  cases l with
  | nil => exact ⟨rfl, hh.2⟩
  | cons a l =>
    obtain ⟨n, a1, b1, _, _, h1, _⟩ := hh
    exact absurd hp (N.nonnull h1)

theorem list_nil : N.list 0 [] = emp := by
  unfold list seg
  exact pur_true rfl

theorem list_null {p : Ptr} : N.list p [] = pur (p = 0) := rfl

theorem list_cons {p : Ptr} {a : α} {l : List α} : N.list p (a :: l) = ex fun n => N.at_ p a n ∗ N.list n l := rfl

theorem list_cons_ne {p : Ptr} {a : α} {l : List α} {h : PHeap} (hh : N.list p (a :: l) h) : p ≠ 0 := by
  obtain ⟨n, _, _, _, _, h1, _⟩ := hh
  exact N.nonnull h1

theorem list_one {p : Ptr} {a : α} : N.list p [a] = N.at_ p a 0 := by
  funext h
  apply propext
  constructor
  · rintro ⟨n, hh⟩
    have hh' : (N.at_ p a n ∗ pur (n = 0)) h := hh
    rw [sep_comm, pur_sep_iff] at hh'
    obtain ⟨rfl, hh'⟩ := hh'
    exact hh'
  · intro hh
    refine ⟨0, ?_⟩
    show (N.at_ p a 0 ∗ pur ((0 : Ptr) = 0)) h
    rw [sep_comm, pur_sep_iff]
    exact ⟨rfl, hh⟩

theorem seg_append {q r : Ptr} : ∀ {l1 l2 : List α} {p : Ptr}, ∀ h, (N.seg p l1 q ∗ N.seg q l2 r) h → N.seg p (l1 ++ l2) r h
  | [], l2, p, h, hh => by
    obtain ⟨e, hh⟩ := pur_sep_iff.mp hh
    subst e
    exact hh
  | a :: l1, l2, p, h, hh => by
    have hh' : (ex (fun n => N.at_ p a n ∗ N.seg n l1 q) ∗ N.seg q l2 r) h := hh
    rw [ex_sep] at hh'
    obtain ⟨n, hh'⟩ := hh'
    rw [sep_assoc] at hh'
    exact ⟨n, sep_mono (fun _ h => h) (seg_append (l1 := l1)) hh'⟩

theorem seg_at {p q r : Ptr} {l : List α} {a : α} : ∀ h, (N.seg p l q ∗ N.at_ q a r) h → N.seg p (l ++ [a]) r h := by
  intro h hh
  refine seg_append (q := q) h (sep_mono (fun _ h => h) ?_ hh)
  intro h' hh'
  refine ⟨r, ?_⟩
  show (N.at_ q a r ∗ pur (r = r)) h'
  rw [sep_comm, pur_sep_iff]
  exact ⟨rfl, hh'⟩

theorem seg_big : ∀ (l : List α) (p q : Ptr), Big (N.seg p l q) l.length
  | [], _, _ => Big.zero _
  | a :: l, p, q => by
    refine Big.ex (fun n => ?_)
    have := (N.big p a n).sep (seg_big l n q)
    rw [List.length_cons, Nat.add_comm]; exact this

/-! ## Effect of the loops -/

theorem whileNext_spec {step : Ptr → M Ptr} (hs : ∀ p a n, Triple (N.at_ p a n) (step p) (fun r => pur (r = n))) :
    ∀ (f : Nat) (l : List α) (p : Ptr), l.length ≤ f → Triple (N.list p l) (whileNext step f p) (fun _ => emp)
  | 0, l, p, hl => by
    have : l = [] := List.length_eq_zero_iff.mp (by omega)
    subst this
    refine Triple.of_fact (φ := p = 0) (fun h hh => hh.1) (fun hp => ?_)
    unfold whileNext
    rw [if_pos hp]
    exact Triple.ret (fun h hh => hh.2)
  | f + 1, [], p, _ => by
    refine Triple.of_fact (φ := p = 0) (fun h hh => hh.1) (fun hp => ?_)
    unfold whileNext
    rw [if_pos hp]
    exact Triple.ret (fun h hh => hh.2)
  | f + 1, a :: l, p, hl => by
    refine Triple.of_fact (φ := p ≠ 0) (fun h hh => list_cons_ne hh) (fun hp => ?_)
    unfold whileNext
    rw [if_neg hp, list_cons]
    refine Triple.exi (fun n => ?_)
    refine Triple.step (hs p a n) rfl (fun q => Triple.fact (fun hq => ?_))
    subst hq
    exact whileNext_spec hs f l q (by simpa using hl)

theorem freeAll_spec {step : Ptr → M Ptr} (hs : ∀ p a n, Triple (N.at_ p a n) (step p) (fun r => pur (r = n))) (l : List α) (p : Ptr) :
    Triple (N.list p l) (freeAll step p) (fun _ => emp) := by
  unfold freeAll
  refine Triple.bind (Triple.heapSize (seg_big l p 0)) (fun f => Triple.fact (fun hf => ?_))
  exact whileNext_spec hs f l p hf

theorem setLast_spec (l2 : List α) (p2 : Ptr) : ∀ (f : Nat) (l : List α) (p : Ptr), l ≠ [] → l.length ≤ f →
    Triple (N.list p l ∗ N.list p2 l2) (setLast N.toNext p2 f p) (fun _ => N.list p (l ++ l2))
  | 0, l, p, hn, hl => absurd (List.length_eq_zero_iff.mp (by omega)) hn
  | f + 1, [], _, hn, _ => absurd rfl hn
  | f + 1, a :: l, p, _, hl => by
    unfold setLast
    rw [list_cons, ex_sep]
    refine Triple.exi (fun n => ?_)
    refine Triple.stepEq (F := N.list n l ∗ N.list p2 l2) (N.get_spec p a n) (by ac_rfl) ?_
    cases l with
    | nil =>
      rw [list_null]
      have e : ((N.at_ p a n ∗ pur (n = 0)) ∗ N.list p2 l2) = (pur (n = 0) ∗ N.at_ p a n ∗ N.list p2 l2) := by ac_rfl
      rw [e]
      refine Triple.fact (fun hn => ?_)
      rw [if_pos hn]
      refine Triple.last (N.set_spec p a n p2) rfl ?_
      intro _ h hh
      exact ⟨p2, hh⟩
    | cons b l =>
      refine Triple.of_fact (φ := n ≠ 0) ?_ (fun hn => ?_)
      · rintro h ⟨_, _, _, _, ⟨_, _, _, _, _, hh⟩, _⟩
        exact list_cons_ne hh
      · rw [if_neg hn]
        refine Triple.last (F := N.at_ p a n) (setLast_spec l2 p2 f (b :: l) n (by simp) (by simpa using hl)) (by ac_rfl) ?_
        intro _ h hh
        exact ⟨n, hh.perm (sep_comm _ _)⟩

theorem append_spec (l1 l2 : List α) (p1 p2 : Ptr) :
    Triple (N.list p1 l1 ∗ N.list p2 l2) (append N.toNext p1 p2) (fun p => N.list p (l1 ++ l2)) := by
  unfold append
  cases l1 with
  | nil =>
    rw [list_null]
    refine Triple.fact (fun hp => ?_)
    rw [if_pos hp]
    exact Triple.ret (fun _ h => h)
  | cons a l1 =>
    refine Triple.of_fact (φ := p1 ≠ 0) ?_ (fun hp => ?_)
    · rintro h ⟨_, _, _, _, hh, _⟩
      exact list_cons_ne hh
    · rw [if_neg hp]
      refine Triple.step (F := N.list p2 l2) (Triple.heapSize (seg_big (a :: l1) p1 0)) rfl (fun f => ?_)
      rw [sep_assoc]
      refine Triple.fact (fun hf => ?_)
      refine Triple.bind (setLast_spec l2 p2 f (a :: l1) p1 (by simp) hf) (fun _ => ?_)
      exact Triple.ret (fun _ h => h)

/-- The copy done so far. -/
def done (N : Chain α) (head previous : Ptr) (d : List α) : Assn :=
  match d.getLast? with
  | none => pur (previous = 0 ∧ head = 0)
  | some a => N.seg head d.dropLast previous ∗ N.at_ previous a 0

theorem done_nil {head previous : Ptr} : N.done head previous [] = pur (previous = 0 ∧ head = 0) := rfl

theorem done_list {head previous : Ptr} {d : List α} : ∀ h, N.done head previous d h → N.list head d h := by
  intro h hh
  unfold done at hh
  cases hd : d.getLast? with
  | none =>
    rw [hd] at hh
    have : d = [] := List.getLast?_eq_none_iff.mp hd
    subst this
    exact ⟨hh.1.2, hh.2⟩
  | some a =>
    rw [hd] at hh
    obtain ⟨hne, ha⟩ : ∃ hne : d ≠ [], d.getLast hne = a := by
      have hne : d ≠ [] := by rintro rfl; cases hd
      refine ⟨hne, ?_⟩
      rw [List.getLast?_eq_some_getLast hne] at hd
      injection hd
    have := seg_at h hh
    rw [← ha, List.dropLast_concat_getLast hne] at this
    exact this

theorem linkNode_spec (head previous node : Ptr) (d : List α) (b : α) :
    Triple (N.done head previous d ∗ N.at_ node b 0) (linkNode N.toNext head previous node)
      (fun head' => N.done head' node (d ++ [b])) := by
  have post : ∀ {head'}, ∀ h, (N.seg head' d node ∗ N.at_ node b 0) h → N.done head' node (d ++ [b]) h := by
    intro head' h hh
    unfold done
    simp only [List.getLast?_append, List.getLast?_singleton, Option.some_or, List.dropLast_concat]
    exact hh
  unfold linkNode
  cases hd : d.getLast? with
  | none =>
    have : d = [] := List.getLast?_eq_none_iff.mp hd
    subst this
    rw [done_nil]
    refine Triple.fact (fun ⟨hp, _⟩ => ?_)
    rw [if_pos hp]
    refine Triple.ret (fun h hh => post h ?_)
    exact pur_sep_iff.mpr ⟨rfl, hh⟩
  | some a =>
    have e : N.done head previous d = (N.seg head d.dropLast previous ∗ N.at_ previous a 0) := by unfold done; rw [hd]
    obtain ⟨hne, ha⟩ : ∃ hne : d ≠ [], d.getLast hne = a := by
      have hne : d ≠ [] := by rintro rfl; cases hd
      refine ⟨hne, ?_⟩
      rw [List.getLast?_eq_some_getLast hne] at hd
      injection hd
    rw [e]
    refine Triple.of_fact (φ := previous ≠ 0) ?_ (fun hp => ?_)
    · rintro h ⟨_, _, _, _, ⟨_, _, _, _, _, hh⟩, _⟩
      exact N.nonnull hh
    · rw [if_neg hp]
      refine Triple.step (F := N.seg head d.dropLast previous ∗ N.at_ node b 0) (N.set_spec previous a 0 node) (by ac_rfl) (fun _ => ?_)
      refine Triple.ret (fun h hh => post h ?_)
      have hh' : ((N.seg head d.dropLast previous ∗ N.at_ previous a node) ∗ N.at_ node b 0) h := hh.perm (by ac_rfl)
      refine sep_mono ?_ (fun _ h => h) hh'
      intro h' hs
      have := seg_at h' hs
      rw [← ha, List.dropLast_concat_getLast hne] at this
      exact this

variable {f : α → Out α} {copy : Ptr → M Ptr}

theorem copyLoop_spec (hc : ∀ p a n a', f a = .ok a' → Triple (N.at_ p a n) (copy p) (fun q => N.at_ p a n ∗ N.at_ q a' 0)) :
    ∀ (fuel : Nat) (l l' : List α) (p p0 head previous : Ptr) (l0 d : List α), l.length ≤ fuel → Out.mapOut f l = .ok l' →
    Triple (N.seg p0 l0 p ∗ N.list p l ∗ N.done head previous d) (copyLoop N.toNext copy fuel p head previous)
      (fun r => N.list p0 (l0 ++ l) ∗ N.list r (d ++ l')) := by
  have fin : ∀ (fuel : Nat) (l' : List α) (p p0 head previous : Ptr) (l0 d : List α), Out.mapOut f [] = .ok l' →
      Triple (N.seg p0 l0 p ∗ N.list p [] ∗ N.done head previous d) (copyLoop N.toNext copy fuel p head previous)
      (fun r => N.list p0 (l0 ++ []) ∗ N.list r (d ++ l')) := by
    intro fuel l' p p0 head previous l0 d hl'
    injection hl' with hl'
    subst hl'
    have e : (N.seg p0 l0 p ∗ N.list p [] ∗ N.done head previous d) = (pur (p = 0) ∗ N.seg p0 l0 p ∗ N.done head previous d) := by
      rw [list_null]; ac_rfl
    rw [e]
    refine Triple.fact (fun hp => ?_)
    have e2 : copyLoop N.toNext copy fuel p head previous = pure head := by
      cases fuel <;> simp [copyLoop, hp]
    rw [e2, hp, List.append_nil, List.append_nil]
    exact Triple.ret (fun h hh => sep_mono (fun _ h => h) done_list hh)
  intro fuel
  induction fuel with
  | zero =>
    intro l l' p p0 head previous l0 d hl hm
    have : l = [] := List.length_eq_zero_iff.mp (by omega)
    subst this
    exact fin 0 l' p p0 head previous l0 d hm
  | succ fuel ih =>
    intro l l' p p0 head previous l0 d hl hm
    cases l with
    | nil => exact fin _ l' p p0 head previous l0 d hm
    | cons a l =>
      obtain ⟨a', l2, ha, hm2, rfl⟩ := Out.mapOut_cons_eq_ok.mp hm
      refine Triple.of_fact (φ := p ≠ 0) ?_ (fun hp => ?_)
      · rintro h ⟨_, _, _, _, _, ⟨_, _, _, _, hh, _⟩⟩
        exact list_cons_ne hh
      · unfold copyLoop
        rw [if_neg hp]
        have e : (N.seg p0 l0 p ∗ N.list p (a :: l) ∗ N.done head previous d) =
            ex fun n => N.at_ p a n ∗ N.seg p0 l0 p ∗ N.list n l ∗ N.done head previous d := by
          rw [list_cons, ex_sep, sep_ex]
          congr 1; funext n; ac_rfl
        rw [e]
        refine Triple.exi (fun n => ?_)
        refine Triple.step (hc p a n a' ha) rfl (fun node => ?_)
        refine Triple.step (F := N.at_ p a n ∗ N.seg p0 l0 p ∗ N.list n l) (linkNode_spec head previous node d a') (by ac_rfl) (fun head' => ?_)
        refine Triple.stepEq (F := N.done head' node (d ++ [a']) ∗ N.seg p0 l0 p ∗ N.list n l) (N.get_spec p a n) (by ac_rfl) ?_
        have := ih l l2 n p0 head' node (l0 ++ [a]) (d ++ [a']) (by simpa using hl) hm2
        rw [List.append_assoc, List.append_assoc] at this
        refine this.pre ?_
        intro h hh
        have hh' : ((N.seg p0 l0 p ∗ N.at_ p a n) ∗ N.list n l ∗ N.done head' node (d ++ [a'])) h := hh.perm (by ac_rfl)
        exact sep_mono seg_at (fun _ h => h) hh'

theorem copyAll_spec (hc : ∀ p a n a', f a = .ok a' → Triple (N.at_ p a n) (copy p) (fun q => N.at_ p a n ∗ N.at_ q a' 0))
    {l l' : List α} (hm : Out.mapOut f l = .ok l') (p : Ptr) :
    Triple (N.list p l) (copyAll N.toNext copy p) (fun q => N.list p l ∗ N.list q l') := by
  unfold copyAll
  refine Triple.bind (Triple.heapSize (seg_big l p 0)) (fun fuel => Triple.fact (fun hf => ?_))
  have := copyLoop_spec hc fuel l l' p p 0 0 [] [] hf hm
  refine this.pre ?_
  intro h hh
  refine pur_sep_iff.mpr ⟨rfl, ?_⟩
  rw [done_nil, sep_comm]
  exact pur_sep_iff.mpr ⟨⟨rfl, rfl⟩, hh⟩

/-- The counted copy of the first `n` elements. -/
theorem copyCount_spec (hc : ∀ p a n a', f a = .ok a' → Triple (N.at_ p a n) (copy p) (fun q => N.at_ p a n ∗ N.at_ q a' 0)) :
    ∀ (k : Nat) (l l' : List α) (p p0 head previous : Ptr) (l0 d : List α), k ≤ l.length → Out.mapOut f (l.take k) = .ok l' →
    Triple (N.seg p0 l0 p ∗ N.list p l ∗ N.done head previous d) (copyCount N.toNext copy k p head previous)
      (fun r => N.list p0 (l0 ++ l) ∗ N.list r (d ++ l')) := by
  intro k
  induction k with
  | zero =>
    intro l l' p p0 head previous l0 d _ hl'
    injection hl' with hl'
    subst hl'
    rw [List.append_nil]
    refine Triple.ret (fun h hh => ?_)
    rw [← sep_assoc] at hh
    exact sep_mono seg_append done_list hh
  | succ k ih =>
    intro l l' p p0 head previous l0 d hl hm
    cases l with
    | nil => simp at hl
    | cons a l =>
      rw [List.take_succ_cons] at hm
      obtain ⟨a', l2, ha, hm2, rfl⟩ := Out.mapOut_cons_eq_ok.mp hm
      unfold copyCount
      have e : (N.seg p0 l0 p ∗ N.list p (a :: l) ∗ N.done head previous d) =
          ex fun n => N.at_ p a n ∗ N.seg p0 l0 p ∗ N.list n l ∗ N.done head previous d := by
        rw [list_cons, ex_sep, sep_ex]
        congr 1; funext n; ac_rfl
      rw [e]
      refine Triple.exi (fun n => ?_)
      refine Triple.step (hc p a n a' ha) rfl (fun node => ?_)
      refine Triple.step (F := N.at_ p a n ∗ N.seg p0 l0 p ∗ N.list n l) (linkNode_spec head previous node d a') (by ac_rfl) (fun head' => ?_)
      refine Triple.stepEq (F := N.done head' node (d ++ [a']) ∗ N.seg p0 l0 p ∗ N.list n l) (N.get_spec p a n) (by ac_rfl) ?_
      have := ih l l2 n p0 head' node (l0 ++ [a]) (d ++ [a']) (by simpa using hl) hm2
      rw [List.append_assoc, List.append_assoc] at this
      refine this.pre ?_
      intro h hh
      have hh' : ((N.seg p0 l0 p ∗ N.at_ p a n) ∗ N.list n l ∗ N.done head' node (d ++ [a'])) h := hh.perm (by ac_rfl)
      exact sep_mono seg_at (fun _ h => h) hh'

theorem countLoop_spec : ∀ (fuel : Nat) (l : List α) (p p0 : Ptr) (l0 : List α) (n : Nat), l.length ≤ fuel →
    Triple (N.seg p0 l0 p ∗ N.list p l) (countLoop N.toNext fuel p n) (fun r => pur (r = n + l.length) ∗ N.list p0 (l0 ++ l)) := by
  have fin : ∀ (fuel : Nat) (p p0 : Ptr) (l0 : List α) (n : Nat),
      Triple (N.seg p0 l0 p ∗ N.list p []) (countLoop N.toNext fuel p n) (fun r => pur (r = n + 0) ∗ N.list p0 (l0 ++ [])) := by
    intro fuel p p0 l0 n
    rw [sep_comm, list_null]
    refine Triple.fact (fun hp => ?_)
    have e2 : countLoop N.toNext fuel p n = pure n := by
      cases fuel <;> simp [countLoop, hp]
    rw [e2, hp, List.append_nil]
    exact Triple.ret (fun h hh => pur_sep_iff.mpr ⟨rfl, hh⟩)
  intro fuel
  induction fuel with
  | zero =>
    intro l p p0 l0 n hl
    have : l = [] := List.length_eq_zero_iff.mp (by omega)
    subst this
    exact fin 0 p p0 l0 n
  | succ fuel ih =>
    intro l p p0 l0 n hl
    cases l with
    | nil => exact fin _ p p0 l0 n
    | cons a l =>
      refine Triple.of_fact (φ := p ≠ 0) ?_ (fun hp => ?_)
      · rintro h ⟨_, _, _, _, _, hh⟩
        exact list_cons_ne hh
      · unfold countLoop
        rw [if_neg hp, list_cons, sep_ex]
        refine Triple.exi (fun q => ?_)
        refine Triple.stepEq (F := N.seg p0 l0 p ∗ N.list q l) (N.get_spec p a q) (by ac_rfl) ?_
        have := ih l q p0 (l0 ++ [a]) (n + 1) (by simpa using hl)
        rw [List.append_assoc] at this
        refine this.conseq ?_ ?_
        · intro h hh
          have hh' : ((N.seg p0 l0 p ∗ N.at_ p a q) ∗ N.list q l) h := hh.perm (by ac_rfl)
          exact sep_mono seg_at (fun _ h => h) hh'
        · intro r h hh
          obtain ⟨e, hh⟩ := pur_sep_iff.mp hh
          exact pur_sep_iff.mpr ⟨by rw [e, List.length_cons]; omega, hh⟩

theorem countAll_spec (l : List α) (p : Ptr) : Triple (N.list p l) (countAll N.toNext p) (fun r => pur (r = l.length) ∗ N.list p l) := by
  unfold countAll
  refine Triple.bind (Triple.heapSize (seg_big l p 0)) (fun fuel => Triple.fact (fun hf => ?_))
  have := countLoop_spec (N := N) fuel l p p [] 0 hf
  rw [Nat.zero_add] at this
  exact this.pre (fun h hh => pur_sep_iff.mpr ⟨rfl, hh⟩)

/-! ## Searches -/

/-- The first element with a property, what is before it and what is after it. -/
def splitFirst (t : α → Bool) : List α → Option (List α × α × List α)
  | [] => none
  | a :: l => if t a then some ([], a, l) else (splitFirst t l).map (fun x => (a :: x.1, x.2.1, x.2.2))

theorem splitFirst_none {t : α → Bool} : ∀ {l : List α}, splitFirst t l = none → ∀ a ∈ l, t a = false
  | [], _, _, h => by simp at h
  | b :: l, hs, a, ha => by
    simp only [splitFirst] at hs
    split at hs
    · cases hs
    · rename_i hb
      have hs' : splitFirst t l = none := by
        cases h : splitFirst t l with
        | none => rfl
        | some x => rw [h] at hs; cases hs
      rcases List.mem_cons.mp ha with rfl | ha
      · simpa using hb
      · exact splitFirst_none hs' a ha

theorem splitFirst_some {t : α → Bool} : ∀ {l l1 l2 : List α} {a : α}, splitFirst t l = some (l1, a, l2) →
    l = l1 ++ a :: l2 ∧ t a = true ∧ ∀ b ∈ l1, t b = false
  | [], _, _, _, h => by cases h
  | b :: l, l1, l2, a, h => by
    simp only [splitFirst] at h
    split at h
    · rename_i hb
      injection h with h
      injection h with h1 h
      injection h with h2 h3
      subst h1 h2 h3
      exact ⟨rfl, hb, by simp⟩
    · rename_i hb
      cases hs : splitFirst t l with
      | none => rw [hs] at h; cases h
      | some x =>
        rw [hs] at h
        injection h with h
        obtain ⟨x1, x2, x3⟩ := x
        injection h with h1 h
        injection h with h2 h3
        subst h1 h2 h3
        obtain ⟨e, ha, hl⟩ := splitFirst_some hs
        refine ⟨by rw [e]; rfl, ha, ?_⟩
        intro c hc
        rcases List.mem_cons.mp hc with rfl | hc
        · simpa using hb
        · exact hl c hc

/-- What a search finds: the list opened at the first structure with the property, or the whole list and NULL. -/
def found (N : Chain α) (t : α → Bool) (p : Ptr) (l : List α) (q : Ptr) : Assn :=
  match splitFirst t l with
  | none => pur (q = 0) ∗ N.list p l
  | some (l1, a, l2) => ex fun n => N.seg p l1 q ∗ N.at_ q a n ∗ N.list n l2

theorem found_none {t : α → Bool} {p q : Ptr} {l : List α} (hs : splitFirst t l = none) : N.found t p l q = (pur (q = 0) ∗ N.list p l) := by
  unfold found
  rw [hs]

theorem found_some {t : α → Bool} {p q : Ptr} {l l1 l2 : List α} {a : α} (hs : splitFirst t l = some (l1, a, l2)) :
    N.found t p l q = ex fun n => N.seg p l1 q ∗ N.at_ q a n ∗ N.list n l2 := by
  unfold found
  rw [hs]

theorem found_list {t : α → Bool} {p q : Ptr} {l : List α} : ∀ h, N.found t p l q h → N.list p l h := by
  intro h hh
  cases hs : splitFirst t l with
  | none =>
    rw [found_none hs] at hh
    exact (pur_sep_iff.mp hh).2
  | some x =>
    obtain ⟨l1, a, l2⟩ := x
    rw [found_some hs] at hh
    obtain ⟨e, _, _⟩ := splitFirst_some hs
    obtain ⟨n, hh⟩ := hh
    rw [e]
    exact seg_append h (sep_mono (fun _ h => h) (fun h hh => ⟨n, hh⟩) hh)

theorem found_null {t : α → Bool} {p q : Ptr} {l : List α} : ∀ h, N.found t p l q h → (q = 0 ↔ splitFirst t l = none) := by
  intro h hh
  cases hs : splitFirst t l with
  | none =>
    rw [found_none hs] at hh
    simp [(pur_sep_iff.mp hh).1]
  | some x =>
    obtain ⟨l1, a, l2⟩ := x
    rw [found_some hs] at hh
    obtain ⟨n, _, _, _, _, _, ⟨_, _, _, _, hh, _⟩⟩ := hh
    simp [N.nonnull hh]

theorem findLoop_spec {t : α → Bool} {test : Ptr → M Bool} {X : Assn}
    (ht : ∀ p a n, Triple (N.at_ p a n ∗ X) (test p) (fun r => pur (r = t a) ∗ N.at_ p a n ∗ X)) :
    ∀ (fuel : Nat) (l : List α) (p p0 : Ptr) (l0 : List α), l.length ≤ fuel → (∀ b ∈ l0, t b = false) →
    Triple (N.seg p0 l0 p ∗ N.list p l ∗ X) (findLoop N.toNext test fuel p) (fun q => N.found t p0 (l0 ++ l) q ∗ X) := by
  have pre : ∀ {l0 l : List α}, (∀ b ∈ l0, t b = false) → splitFirst t (l0 ++ l) = (splitFirst t l).map (fun x => (l0 ++ x.1, x.2.1, x.2.2)) := by
    intro l0 l h0
    induction l0 with
    | nil => simp
    | cons b l0 ih =>
      rw [List.cons_append]
      simp only [splitFirst]
      rw [h0 b (by simp), ih (fun c hc => h0 c (by simp [hc]))]
      simp [Option.map_map, Function.comp_def]
  have fin : ∀ (fuel : Nat) (p p0 : Ptr) (l0 : List α), (∀ b ∈ l0, t b = false) →
      Triple (N.seg p0 l0 p ∗ N.list p [] ∗ X) (findLoop N.toNext test fuel p) (fun q => N.found t p0 (l0 ++ []) q ∗ X) := by
    intro fuel p p0 l0 h0
    have e : (N.seg p0 l0 p ∗ N.list p [] ∗ X) = (pur (p = 0) ∗ N.seg p0 l0 p ∗ X) := by rw [list_null]; ac_rfl
    rw [e]
    refine Triple.fact (fun hp => ?_)
    have e2 : findLoop N.toNext test fuel p = pure 0 := by
      cases fuel <;> simp [findLoop, hp]
    rw [e2, hp]
    refine Triple.ret (fun h hh => sep_mono (fun h hh => ?_) (fun _ h => h) hh)
    unfold found
    rw [pre h0]
    simp only [splitFirst, Option.map_none]
    rw [List.append_nil]
    exact pur_sep_iff.mpr ⟨trivial, hh⟩
  intro fuel
  induction fuel with
  | zero =>
    intro l p p0 l0 hl h0
    have : l = [] := List.length_eq_zero_iff.mp (by omega)
    subst this
    exact fin 0 p p0 l0 h0
  | succ fuel ih =>
    intro l p p0 l0 hl h0
    cases l with
    | nil => exact fin _ p p0 l0 h0
    | cons a l =>
      refine Triple.of_fact (φ := p ≠ 0) ?_ (fun hp => ?_)
      · rintro h ⟨_, _, _, _, _, ⟨_, _, _, _, hh, _⟩⟩
        exact list_cons_ne hh
      · unfold findLoop
        rw [if_neg hp]
        have e : (N.seg p0 l0 p ∗ N.list p (a :: l) ∗ X) = ex fun n => (N.at_ p a n ∗ X) ∗ N.seg p0 l0 p ∗ N.list n l := by
          rw [list_cons, ex_sep, sep_ex]
          congr 1; funext n; ac_rfl
        rw [e]
        refine Triple.exi (fun n => ?_)
        refine Triple.stepEq (ht p a n) rfl ?_
        cases ha : t a with
        | true =>
          rw [if_pos rfl]
          refine Triple.ret (fun h hh => ?_)
          have hh' : ((N.seg p0 l0 p ∗ N.at_ p a n ∗ N.list n l) ∗ X) h := hh.perm (by ac_rfl)
          refine sep_mono (fun h hh => ?_) (fun _ h => h) hh'
          unfold found
          rw [pre h0]
          simp only [splitFirst, ha, if_true, Option.map_some, List.append_nil]
          exact ⟨n, hh⟩
        | false =>
          rw [if_neg (by simp)]
          refine Triple.stepEq (F := X ∗ N.seg p0 l0 p ∗ N.list n l) (N.get_spec p a n) (by ac_rfl) ?_
          have := ih l n p0 (l0 ++ [a]) (by simpa using hl) (by
            intro b hb
            rcases List.mem_append.mp hb with hb | hb
            · exact h0 b hb
            · rw [List.mem_singleton.mp hb]; exact ha)
          rw [List.append_assoc] at this
          refine this.pre (fun h hh => ?_)
          have hh' : ((N.seg p0 l0 p ∗ N.at_ p a n) ∗ N.list n l ∗ X) h := hh.perm (by ac_rfl)
          exact sep_mono seg_at (fun _ h => h) hh'

theorem findNode_spec {t : α → Bool} {test : Ptr → M Bool} {X : Assn}
    (ht : ∀ p a n, Triple (N.at_ p a n ∗ X) (test p) (fun r => pur (r = t a) ∗ N.at_ p a n ∗ X)) (l : List α) (p : Ptr) :
    Triple (N.list p l ∗ X) (findNode N.toNext test p) (fun q => N.found t p l q ∗ X) := by
  unfold findNode
  refine Triple.step (Triple.heapSize (seg_big l p 0)) rfl (fun fuel => ?_)
  rw [sep_assoc]
  refine Triple.fact (fun hf => ?_)
  have := findLoop_spec ht fuel l p p [] hf (by simp)
  exact this.pre (fun h hh => pur_sep_iff.mpr ⟨rfl, hh⟩)

/-! ## Walks -/

theorem eachLoop_spec {g : α → α} {ok : α → Prop} {act : Ptr → M Unit} {X : Assn}
    (ht : ∀ p a n, ok a → Triple (N.at_ p a n ∗ X) (act p) (fun _ => N.at_ p (g a) n ∗ X)) :
    ∀ (fuel : Nat) (l : List α) (p p0 : Ptr) (l0 : List α), l.length ≤ fuel → (∀ a ∈ l, ok a) →
    Triple (N.seg p0 l0 p ∗ N.list p l ∗ X) (eachLoop N.toNext act fuel p) (fun _ => N.list p0 (l0 ++ l.map g) ∗ X) := by
  have fin : ∀ (fuel : Nat) (p p0 : Ptr) (l0 : List α),
      Triple (N.seg p0 l0 p ∗ N.list p [] ∗ X) (eachLoop N.toNext act fuel p) (fun _ => N.list p0 (l0 ++ []) ∗ X) := by
    intro fuel p p0 l0
    have e : (N.seg p0 l0 p ∗ N.list p [] ∗ X) = (pur (p = 0) ∗ N.seg p0 l0 p ∗ X) := by rw [list_null]; ac_rfl
    rw [e]
    refine Triple.fact (fun hp => ?_)
    have e2 : eachLoop N.toNext act fuel p = pure () := by
      cases fuel <;> simp [eachLoop, hp]
    rw [e2, hp, List.append_nil]
    exact Triple.ret (fun h hh => hh)
  intro fuel
  induction fuel with
  | zero =>
    intro l p p0 l0 hl _
    have : l = [] := List.length_eq_zero_iff.mp (by omega)
    subst this
    exact fin 0 p p0 l0
  | succ fuel ih =>
    intro l p p0 l0 hl hok
    cases l with
    | nil => exact fin _ p p0 l0
    | cons a l =>
      refine Triple.of_fact (φ := p ≠ 0) ?_ (fun hp => ?_)
      · rintro h ⟨_, _, _, _, _, ⟨_, _, _, _, hh, _⟩⟩
        exact list_cons_ne hh
      · unfold eachLoop
        rw [if_neg hp]
        have e : (N.seg p0 l0 p ∗ N.list p (a :: l) ∗ X) = ex fun n => (N.at_ p a n ∗ X) ∗ N.seg p0 l0 p ∗ N.list n l := by
          rw [list_cons, ex_sep, sep_ex]
          congr 1; funext n; ac_rfl
        rw [e]
        refine Triple.exi (fun n => ?_)
        refine Triple.step (ht p a n (hok a (by simp))) rfl (fun _ => ?_)
        refine Triple.stepEq (F := X ∗ N.seg p0 l0 p ∗ N.list n l) (N.get_spec p (g a) n) (by ac_rfl) ?_
        have := ih l n p0 (l0 ++ [g a]) (by simpa using hl) (fun b hb => hok b (by simp [hb]))
        rw [List.append_assoc] at this
        refine this.pre (fun h hh => ?_)
        have hh' : ((N.seg p0 l0 p ∗ N.at_ p (g a) n) ∗ N.list n l ∗ X) h := hh.perm (by ac_rfl)
        exact sep_mono seg_at (fun _ h => h) hh'

theorem eachNode_spec {g : α → α} {ok : α → Prop} {act : Ptr → M Unit} {X : Assn}
    (ht : ∀ p a n, ok a → Triple (N.at_ p a n ∗ X) (act p) (fun _ => N.at_ p (g a) n ∗ X)) (l : List α) (hok : ∀ a ∈ l, ok a) (p : Ptr) :
    Triple (N.list p l ∗ X) (eachNode N.toNext act p) (fun _ => N.list p (l.map g) ∗ X) := by
  unfold eachNode
  refine Triple.step (Triple.heapSize (seg_big l p 0)) rfl (fun fuel => ?_)
  rw [sep_assoc]
  refine Triple.fact (fun hf => ?_)
  have := eachLoop_spec ht fuel l p p [] hf hok
  exact this.pre (fun h hh => pur_sep_iff.mpr ⟨rfl, hh⟩)

/-! ## Unlinking -/

/-- Two structures which are in separate memory have different addresses. -/
theorem at_ne {p q : Ptr} {a b : α} {m n : Ptr} {F : Assn} : ∀ h, (N.at_ p a m ∗ N.at_ q b n ∗ F) h → p ≠ q := by
  rintro h ⟨h1, h2, hd, rfl, hp, ⟨h3, h4, _, rfl, hq, _⟩⟩ rfl
  have o1 := N.own hp
  have o2 := N.own hq
  rcases hd p with h | h
  · exact o1 h
  · unfold join at h
    cases h3p : h3 p with
    | none => exact o2 h3p
    | some b => rw [h3p] at h; simp at h

theorem beforeLoop_spec {x : Ptr} {b : α} {n : Ptr} {l2 : List α} {p : Ptr} : ∀ (f : Nat) (l1 l0 : List α) (y : α) (pr rl : Ptr), l1.length < f →
    Triple (N.seg p l0 pr ∗ N.at_ pr y rl ∗ N.seg rl l1 x ∗ N.at_ x b n ∗ N.list n l2) (beforeLoop N.toNext x f pr)
      (fun r => ex fun l0' => ex fun y' => pur (l0' ++ [y'] = l0 ++ y :: l1) ∗ N.seg p l0' r ∗ N.at_ r y' x ∗ N.at_ x b n ∗ N.list n l2) := by
  intro f
  induction f with
  | zero => intro l1 _ _ _ _ hl; omega
  | succ f ih =>
    intro l1 l0 y pr rl hl
    unfold beforeLoop
    refine Triple.stepEq (F := N.seg p l0 pr ∗ N.seg rl l1 x ∗ N.at_ x b n ∗ N.list n l2) (N.get_spec pr y rl) (by ac_rfl) ?_
    cases l1 with
    | nil =>
      have e : (N.seg p l0 pr ∗ N.at_ pr y rl ∗ N.seg rl [] x ∗ N.at_ x b n ∗ N.list n l2) =
          (pur (rl = x) ∗ N.seg p l0 pr ∗ N.at_ pr y rl ∗ N.at_ x b n ∗ N.list n l2) := by
        show _ ∗ _ ∗ pur (rl = x) ∗ _ = _
        ac_rfl
      rw [e]
      refine Triple.fact (fun hx => ?_)
      subst hx
      rw [if_neg (by simp)]
      refine Triple.ret (fun h hh => ⟨l0, y, ?_⟩)
      exact pur_sep_iff.mpr ⟨rfl, hh⟩
    | cons z l1 =>
      have e : (N.seg p l0 pr ∗ N.at_ pr y rl ∗ N.seg rl (z :: l1) x ∗ N.at_ x b n ∗ N.list n l2) =
          ex fun k => N.at_ rl z k ∗ N.at_ x b n ∗ N.seg p l0 pr ∗ N.at_ pr y rl ∗ N.seg k l1 x ∗ N.list n l2 := by
        show _ ∗ _ ∗ (ex fun k => N.at_ rl z k ∗ N.seg k l1 x) ∗ _ = _
        rw [ex_sep, sep_ex, sep_ex]
        congr 1; funext k
        ac_rfl
      rw [e]
      refine Triple.exi (fun k => ?_)
      refine Triple.of_fact at_ne (fun hne => ?_)
      refine Triple.of_fact (φ := rl ≠ 0) ?_ (fun h0 => ?_)
      · rintro h ⟨_, _, _, _, hh, _⟩
        exact N.nonnull hh
      rw [if_pos ⟨hne, h0⟩]
      have := ih l1 (l0 ++ [y]) z rl k (by simpa using hl)
      refine this.conseq (fun h hh => ?_) (fun r h hh => ?_)
      · have hh' : ((N.seg p l0 pr ∗ N.at_ pr y rl) ∗ N.at_ rl z k ∗ N.seg k l1 x ∗ N.at_ x b n ∗ N.list n l2) h := hh.perm (by ac_rfl)
        exact sep_mono seg_at (fun _ h => h) hh'
      · obtain ⟨l0', y', hh⟩ := hh
        refine ⟨l0', y', ?_⟩
        obtain ⟨e', hh⟩ := pur_sep_iff.mp hh
        exact pur_sep_iff.mpr ⟨by rw [e']; simp, hh⟩

/-! ## Bounded copies -/

theorem copyBound_spec (hc : ∀ p a n a', f a = .ok a' → Triple (N.at_ p a n) (copy p) (fun q => N.at_ p a n ∗ N.at_ q a' 0)) :
    ∀ (k : Nat) (l l' : List α) (p p0 head previous : Ptr) (l0 d : List α), Out.mapOut f (l.take k) = .ok l' →
    Triple (N.seg p0 l0 p ∗ N.list p l ∗ N.done head previous d) (copyBound N.toNext copy k p head previous)
      (fun r => N.list p0 (l0 ++ l) ∗ N.list r (d ++ l')) := by
  intro k
  induction k with
  | zero =>
    intro l l' p p0 head previous l0 d hl'
    injection hl' with hl'
    subst hl'
    rw [List.append_nil]
    refine Triple.ret (fun h hh => ?_)
    rw [← sep_assoc] at hh
    exact sep_mono seg_append done_list hh
  | succ k ih =>
    intro l l' p p0 head previous l0 d hm
    cases l with
    | nil =>
      injection hm with hm
      subst hm
      have e : (N.seg p0 l0 p ∗ N.list p [] ∗ N.done head previous d) = (pur (p = 0) ∗ N.seg p0 l0 p ∗ N.done head previous d) := by
        rw [list_null]; ac_rfl
      rw [e]
      refine Triple.fact (fun hp => ?_)
      unfold copyBound
      rw [if_pos hp, hp, List.append_nil, List.append_nil]
      exact Triple.ret (fun h hh => sep_mono (fun _ h => h) done_list hh)
    | cons a l =>
      rw [List.take_succ_cons] at hm
      obtain ⟨a', l2, ha, hm2, rfl⟩ := Out.mapOut_cons_eq_ok.mp hm
      refine Triple.of_fact (φ := p ≠ 0) ?_ (fun hp => ?_)
      · rintro h ⟨_, _, _, _, _, ⟨_, _, _, _, hh, _⟩⟩
        exact list_cons_ne hh
      unfold copyBound
      rw [if_neg hp]
      have e : (N.seg p0 l0 p ∗ N.list p (a :: l) ∗ N.done head previous d) =
          ex fun n => N.at_ p a n ∗ N.seg p0 l0 p ∗ N.list n l ∗ N.done head previous d := by
        rw [list_cons, ex_sep, sep_ex]
        congr 1; funext n; ac_rfl
      rw [e]
      refine Triple.exi (fun n => ?_)
      refine Triple.step (hc p a n a' ha) rfl (fun node => ?_)
      refine Triple.step (F := N.at_ p a n ∗ N.seg p0 l0 p ∗ N.list n l) (linkNode_spec head previous node d a') (by ac_rfl) (fun head' => ?_)
      refine Triple.stepEq (F := N.done head' node (d ++ [a']) ∗ N.seg p0 l0 p ∗ N.list n l) (N.get_spec p a n) (by ac_rfl) ?_
      have := ih l l2 n p0 head' node (l0 ++ [a]) (d ++ [a']) hm2
      rw [List.append_assoc, List.append_assoc] at this
      refine this.pre ?_
      intro h hh
      have hh' : ((N.seg p0 l0 p ∗ N.at_ p a n) ∗ N.list n l ∗ N.done head' node (d ++ [a'])) h := hh.perm (by ac_rfl)
      exact sep_mono seg_at (fun _ h => h) hh'

theorem copyBound_all (hc : ∀ p a n a', f a = .ok a' → Triple (N.at_ p a n) (copy p) (fun q => N.at_ p a n ∗ N.at_ q a' 0))
    {k : Nat} {l l' : List α} (hm : Out.mapOut f (l.take k) = .ok l') (p : Ptr) :
    Triple (N.list p l) (copyBound N.toNext copy k p 0 0) (fun q => N.list p l ∗ N.list q l') := by
  have := copyBound_spec hc k l l' p p 0 0 [] [] hm
  refine this.pre ?_
  intro h hh
  refine pur_sep_iff.mpr ⟨rfl, ?_⟩
  rw [done_nil, sep_comm]
  exact pur_sep_iff.mpr ⟨⟨rfl, rfl⟩, hh⟩

end Chain
end Osl.Mem
