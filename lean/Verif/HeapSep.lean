import Verif.Heap
/-!
# Rules of the separation logic of `Verif/Heap.lean`
-/

namespace Osl.Mem

theorem disj_comm {a b : PHeap} (h : disj a b) : disj b a := fun x => (h x).symm

theorem join_comm {a b : PHeap} (h : disj a b) : join a b = join b a := by
  funext x
  unfold join
  rcases h x with h | h <;> simp [h]

theorem join_assoc (a b c : PHeap) : join (join a b) c = join a (join b c) := by
  funext x
  unfold join
  exact Option.or_assoc

theorem disj_join_left {a b c : PHeap} : disj (join a b) c ↔ disj a c ∧ disj b c := by
  unfold disj join
  constructor
  · intro h
    refine ⟨fun x => ?_, fun x => ?_⟩
    · rcases h x with h | h
      · exact Or.inl (Option.or_eq_none_iff.mp h).1
      · exact Or.inr h
    · rcases h x with h | h
      · exact Or.inl (Option.or_eq_none_iff.mp h).2
      · exact Or.inr h
  · rintro ⟨h1, h2⟩ x
    rcases h1 x with h | h
    · rcases h2 x with h' | h'
      · exact Or.inl (Option.or_eq_none_iff.mpr ⟨h, h'⟩)
      · exact Or.inr h'
    · exact Or.inr h

theorem disj_join_right {a b c : PHeap} : disj a (join b c) ↔ disj a b ∧ disj a c := by
  constructor
  · intro h
    obtain ⟨h1, h2⟩ := disj_join_left.mp (disj_comm h)
    exact ⟨disj_comm h1, disj_comm h2⟩
  · rintro ⟨h1, h2⟩
    exact disj_comm (disj_join_left.mpr ⟨disj_comm h1, disj_comm h2⟩)

theorem sep_comm (P Q : Assn) : P ∗ Q = Q ∗ P := by
  funext h
  apply propext
  constructor <;> rintro ⟨a, b, d, rfl, hp, hq⟩ <;> exact ⟨b, a, disj_comm d, join_comm d, hq, hp⟩

theorem sep_assoc (P Q R : Assn) : (P ∗ Q) ∗ R = P ∗ (Q ∗ R) := by
  funext h
  apply propext
  constructor
  · rintro ⟨ab, c, d, rfl, ⟨a, b, d', rfl, hp, hq⟩, hr⟩
    obtain ⟨d1, d2⟩ := disj_join_left.mp d
    exact ⟨a, join b c, disj_join_right.mpr ⟨d', d1⟩, join_assoc _ _ _, hp, b, c, d2, rfl, hq, hr⟩
  · rintro ⟨a, bc, d, rfl, hp, b, c, d', rfl, hq, hr⟩
    obtain ⟨d1, d2⟩ := disj_join_right.mp d
    exact ⟨join a b, c, disj_join_left.mpr ⟨d2, d'⟩, (join_assoc _ _ _).symm, ⟨a, b, d1, rfl, hp, hq⟩, hr⟩

instance : Std.Associative sep := ⟨sep_assoc⟩
instance : Std.Commutative sep := ⟨sep_comm⟩

@[simp] theorem emp_sep (P : Assn) : emp ∗ P = P := by
  funext h
  apply propext
  constructor
  · rintro ⟨a, b, _, rfl, rfl, hp⟩
    have : join (fun _ => none) b = b := by funext x; simp [join]
    rw [this]; exact hp
  · intro hp
    exact ⟨fun _ => none, h, fun x => Or.inl rfl, by funext x; simp [join], rfl, hp⟩

@[simp] theorem sep_emp (P : Assn) : P ∗ emp = P := by rw [sep_comm, emp_sep]

theorem pur_sep_iff {φ : Prop} {P : Assn} {h : PHeap} : (pur φ ∗ P) h ↔ φ ∧ P h := by
  constructor
  · rintro ⟨a, b, d, rfl, ⟨hf, rfl⟩, hp⟩
    refine ⟨hf, ?_⟩
    have : join (fun _ => none) b = b := by funext x; simp [join]
    rw [this]; exact hp
  · rintro ⟨hf, hp⟩
    have : (emp ∗ P) h := by rw [emp_sep]; exact hp
    obtain ⟨a, b, d, e, ha, hb⟩ := this
    exact ⟨a, b, d, e, ⟨hf, ha⟩, hb⟩

theorem pur_true {φ : Prop} (hf : φ) : pur φ = emp := by
  funext h
  simp [pur, hf]

theorem ex_sep {α : Type} (P : α → Assn) (Q : Assn) : ex P ∗ Q = ex (fun a => P a ∗ Q) := by
  funext h
  apply propext
  constructor
  · rintro ⟨a, b, d, e, ⟨x, hp⟩, hq⟩; exact ⟨x, a, b, d, e, hp, hq⟩
  · rintro ⟨x, a, b, d, e, hp, hq⟩; exact ⟨a, b, d, e, ⟨x, hp⟩, hq⟩

theorem sep_ex {α : Type} (P : α → Assn) (Q : Assn) : Q ∗ ex P = ex (fun a => Q ∗ P a) := by
  rw [sep_comm, ex_sep]
  congr 1
  funext a
  rw [sep_comm]

theorem sep_mono {P P' Q Q' : Assn} (hp : ∀ h, P h → P' h) (hq : ∀ h, Q h → Q' h) {h : PHeap} (hh : (P ∗ Q) h) : (P' ∗ Q') h := by
  obtain ⟨a, b, d, e, h1, h2⟩ := hh
  exact ⟨a, b, d, e, hp a h1, hq b h2⟩

theorem sep.perm {P Q S : Assn} {h : PHeap} (hh : (P ∗ Q) h) (e : (P ∗ Q) = S) : S h := e ▸ hh

/-! ## Triples -/

variable {α β : Type}

theorem Triple.conseq {P P' : Assn} {m : M α} {Q Q' : α → Assn} (h : Triple P m Q) (hp : ∀ h, P' h → P h)
    (hq : ∀ a h, Q a h → Q' a h) : Triple P' m Q' := by
  intro R hh hr
  obtain ⟨a, h', e, hQ⟩ := h R hh (sep_mono hp (fun _ h => h) hr)
  exact ⟨a, h', e, sep_mono (hq a) (fun _ h => h) hQ⟩

theorem Triple.post {P : Assn} {m : M α} {Q Q' : α → Assn} (h : Triple P m Q) (hq : ∀ a h, Q a h → Q' a h) : Triple P m Q' :=
  h.conseq (fun _ h => h) hq

theorem Triple.pre {P P' : Assn} {m : M α} {Q : α → Assn} (h : Triple P m Q) (hp : ∀ h, P' h → P h) : Triple P' m Q :=
  h.conseq hp (fun _ _ h => h)

theorem Triple.frame {P : Assn} {m : M α} {Q : α → Assn} (F : Assn) (h : Triple P m Q) :
    Triple (P ∗ F) m (fun a => Q a ∗ F) := by
  intro R hh hr
  rw [sep_assoc] at hr
  obtain ⟨a, h', e, hQ⟩ := h (F ∗ R) hh hr
  exact ⟨a, h', e, by rw [sep_assoc]; exact hQ⟩

theorem Triple.bind {P : Assn} {m : M α} {Q : α → Assn} {f : α → M β} {S : β → Assn} (h1 : Triple P m Q)
    (h2 : ∀ a, Triple (Q a) (f a) S) : Triple P (m >>= f) S := by
  intro R h hr
  obtain ⟨a, h', e, hq⟩ := h1 R h hr
  obtain ⟨b, h'', e', hs⟩ := h2 a R h' hq
  refine ⟨b, h'', ?_, hs⟩
  show (match m h with | .ok (a, h') => f a h' | .err => .err | .ub => .ub) = _
  rw [e]; exact e'

/-- The main rule: one call which uses a part of the memory, the rest being framed. -/
theorem Triple.step {P P' F : Assn} {m : M α} {Q : α → Assn} {f : α → M β} {S : β → Assn} (h1 : Triple P m Q)
    (e : P' = (P ∗ F)) (h2 : ∀ a, Triple (Q a ∗ F) (f a) S) : Triple P' (m >>= f) S := by
  rw [e]; exact (h1.frame F).bind h2

/-- The last call. -/
theorem Triple.last {P P' F : Assn} {m : M α} {Q S : α → Assn} (h1 : Triple P m Q)
    (e : P' = (P ∗ F)) (h2 : ∀ a h, (Q a ∗ F) h → S a h) : Triple P' m S := by
  rw [e]; exact (h1.frame F).post h2

theorem Triple.ret {P : Assn} {a : α} {Q : α → Assn} (h : ∀ h, P h → Q a h) : Triple P (pure a) Q := by
  intro R hh hr
  exact ⟨a, hh, rfl, sep_mono h (fun _ h => h) hr⟩

theorem Triple.exi {γ : Type} {P : γ → Assn} {m : M α} {Q : α → Assn} (h : ∀ x, Triple (P x) m Q) : Triple (ex P) m Q := by
  intro R hh hr
  rw [ex_sep] at hr
  obtain ⟨x, hr⟩ := hr
  exact h x R hh hr

theorem Triple.fact {φ : Prop} {P : Assn} {m : M α} {Q : α → Assn} (h : φ → Triple P m Q) : Triple (pur φ ∗ P) m Q := by
  intro R hh hr
  rw [sep_assoc] at hr
  obtain ⟨hf, hr⟩ := pur_sep_iff.mp hr
  exact h hf R hh hr

theorem Triple.of_fact {P : Assn} {φ : Prop} (hP : ∀ h, P h → φ) {m : M α} {Q : α → Assn} (h : φ → Triple P m Q) : Triple P m Q := by
  intro R hh hr
  obtain ⟨a, b, _, _, hp, _⟩ := hr
  exact h (hP a hp) R hh ⟨a, b, by assumption, by assumption, hp, by assumption⟩

theorem Triple.liftOk {x : Out α} {a : α} (h : x = .ok a) : Triple emp (lift x) (fun r => pur (r = a)) := by
  intro R hh hr
  refine ⟨a, hh, by simp [lift, h], ?_⟩
  rw [pur_sep_iff]
  rw [emp_sep] at hr
  exact ⟨rfl, hr⟩

/-! ## The primitives -/

theorem lookup_filter (l : List (Ptr × Block)) (p q : Ptr) :
    lookup (l.filter (fun x => decide (x.1 ≠ p))) q = if q = p then none else lookup l q := by
  induction l with
  | nil => simp [lookup]
  | cons x l ih =>
    obtain ⟨r, b⟩ := x
    simp only [List.filter_cons]
    by_cases hr : r = p
    · subst hr
      simp only [ne_eq, not_true_eq_false, decide_false, Bool.false_eq_true, if_false, ih, lookup]
      by_cases hq : q = r
      · simp [hq]
      · rw [if_neg hq, if_neg hq, if_neg (fun h => hq h.symm)]
    · simp only [ne_eq, hr, not_false_eq_true, decide_true, if_true, lookup, ih]
      by_cases hq : q = p
      · subst hq; simp [hr]
      · simp [hq]

theorem get_remove (h : Heap) (p : Ptr) : (h.remove p).get = fun x => if x = p then none else h.get x := by
  funext x
  exact lookup_filter h.cells p x

theorem get_put (h : Heap) (p : Ptr) (b : Block) : (h.put p b).get = fun x => if x = p then some b else h.get x := by
  funext x
  show lookup ((p, b) :: (h.remove p).cells) x = _
  simp only [lookup]
  by_cases hx : p = x
  · subst hx; simp
  · rw [if_neg hx, if_neg (fun e => hx e.symm)]
    have := congrFun (get_remove h p) x
    simp only [if_neg (fun e : x = p => hx e.symm)] at this
    exact this

theorem pto_get {p : Ptr} {b : Block} {R : Assn} {h : Heap} (hh : (p ↦ b ∗ R) h.get) : p ≠ 0 ∧ h.get p = some b := by
  obtain ⟨x, y, d, e, ⟨hp, hx⟩, _⟩ := hh
  refine ⟨hp, ?_⟩
  rw [e]
  simp [join, hx]

theorem Triple.alloc [A : Allocator] (b : Block) : Triple emp (Mem.alloc b) (fun p => p ↦ b) := by
  intro R h hr
  rw [emp_sep] at hr
  refine ⟨_, _, rfl, ?_⟩
  rw [get_put]
  refine ⟨_, h.get, ?_, ?_, ⟨A.nonnull h, rfl⟩, hr⟩
  · intro x
    by_cases hx : x = A.pick h
    · right; rw [hx]; exact A.fresh h
    · left; simp [hx]
  · funext x
    unfold join
    by_cases hx : x = A.pick h <;> simp [hx]

theorem Triple.free (p : Ptr) (b : Block) : Triple (p ↦ b) (Mem.free p) (fun _ => emp) := by
  intro R h hr
  obtain ⟨hp, hg⟩ := pto_get hr
  refine ⟨(), h.remove p, by simp [Mem.free, hp, hg], ?_⟩
  obtain ⟨x, y, d, e, ⟨_, hx⟩, hy⟩ := hr
  rw [emp_sep, get_remove]
  have : (fun z => if z = p then none else h.get z) = y := by
    funext z
    by_cases hz : z = p
    · subst hz
      rcases d z with d | d
      · rw [hx] at d; simp at d
      · simp [d]
    · rw [e]; simp [join, hx, hz]
  rw [this]; exact hy

theorem Triple.freeNull : Triple emp (Mem.free 0) (fun _ => emp) := by
  intro R h hr
  exact ⟨(), h, rfl, hr⟩

theorem Triple.load (p : Ptr) (b : Block) : Triple (p ↦ b) (Mem.load p) (fun r => pur (r = b) ∗ p ↦ b) := by
  intro R h hr
  obtain ⟨hp, hg⟩ := pto_get hr
  refine ⟨b, h, by simp [Mem.load, hp, hg], ?_⟩
  rw [sep_assoc, pur_sep_iff]
  exact ⟨rfl, hr⟩

theorem Triple.store (p : Ptr) (b b' : Block) : Triple (p ↦ b) (Mem.store p b') (fun _ => p ↦ b') := by
  intro R h hr
  obtain ⟨hp, hg⟩ := pto_get hr
  refine ⟨(), h.put p b', by simp [Mem.store, hp, hg], ?_⟩
  obtain ⟨x, y, d, e, ⟨_, hx⟩, hy⟩ := hr
  rw [get_put]
  refine ⟨_, y, ?_, ?_, ⟨hp, rfl⟩, hy⟩
  · intro z
    by_cases hz : z = p
    · right
      rcases d z with d | d
      · rw [hx] at d; simp [hz] at d
      · exact d
    · left; simp [hz]
  · funext z
    unfold join
    by_cases hz : z = p
    · simp [hz]
    · simp only [hz, if_false, Option.none_or]
      rw [e]; simp [join, hx, hz]

theorem pto_ne {p : Ptr} {b : Block} : ∀ h, (p ↦ b) h → p ≠ 0 := fun _ h => h.1

theorem pto_ne_sep {p : Ptr} {b : Block} {F : Assn} : ∀ h, (p ↦ b ∗ F) h → p ≠ 0 := by
  rintro h ⟨_, _, _, _, h1, _⟩
  exact h1.1

theorem own_pto {p : Ptr} {b : Block} {F : Assn} {h : PHeap} (hh : (p ↦ b ∗ F) h) : h p ≠ none := by
  obtain ⟨h1, h2, _, rfl, ⟨_, rfl⟩, _⟩ := hh
  simp [join]

/-- A call without effect whose result is known. -/
theorem Triple.stepEq {P P' F : Assn} {m : M α} {a : α} {f : α → M β} {S : β → Assn}
    (h1 : Triple P m (fun r => pur (r = a) ∗ P)) (e : P' = (P ∗ F)) (h2 : Triple P' (f a) S) : Triple P' (m >>= f) S := by
  refine Triple.step h1 e (fun r => ?_)
  rw [sep_assoc]
  refine Triple.fact (fun hr => ?_)
  rw [hr, ← e]; exact h2

theorem Triple.loadStep {P F : Assn} {p : Ptr} {b : Block} {f : Block → M β} {S : β → Assn} (e : P = (p ↦ b ∗ F))
    (h : Triple P (f b) S) : Triple P (Mem.load p >>= f) S := Triple.stepEq (Triple.load p b) e h

theorem Triple.liftStep {P : Assn} {x : Out α} {a : α} {f : α → M β} {S : β → Assn} (hx : x = .ok a)
    (h : Triple P (f a) S) : Triple P (Mem.lift x >>= f) S := by
  refine Triple.stepEq (P := emp) (F := P) ?_ (by rw [emp_sep]) h
  simpa using Triple.liftOk hx

theorem Triple.liftLast {P : Assn} {x : Out α} {a : α} (hx : x = .ok a) : Triple P (Mem.lift x) (fun r => pur (r = a) ∗ P) := by
  have := (Triple.liftOk hx).frame P
  simpa using this

/-! ## Counting blocks -/

/-- A part of the memory with `P` has at least `k` blocks. -/
def Big (P : Assn) (k : Nat) : Prop := ∀ f, P f → ∃ l : List Ptr, l.length = k ∧ l.Nodup ∧ ∀ a ∈ l, f a ≠ none

theorem Big.zero (P : Assn) : Big P 0 := fun _ _ => ⟨[], rfl, List.nodup_nil, by simp⟩

theorem Big.pto (p : Ptr) (b : Block) : Big (p ↦ b) 1 := by
  rintro f ⟨_, rfl⟩
  exact ⟨[p], rfl, by simp, by simp⟩

theorem Big.sep {P Q : Assn} {j k : Nat} (hp : Big P j) (hq : Big Q k) : Big (P ∗ Q) (j + k) := by
  rintro f ⟨a, b, d, rfl, h1, h2⟩
  obtain ⟨l1, e1, n1, m1⟩ := hp a h1
  obtain ⟨l2, e2, n2, m2⟩ := hq b h2
  refine ⟨l1 ++ l2, by simp [e1, e2], ?_, ?_⟩
  · rw [List.nodup_append]
    refine ⟨n1, n2, ?_⟩
    rintro x hx y hy rfl
    rcases d x with d | d
    · exact m1 x hx d
    · exact m2 x hy d
  · intro x hx hn
    obtain ⟨n1, n2⟩ := Option.or_eq_none_iff.mp hn
    rcases List.mem_append.mp hx with hx | hx
    · exact m1 x hx n1
    · exact m2 x hx n2

theorem Big.ex {γ : Type} {P : γ → Assn} {k : Nat} (h : ∀ x, Big (P x) k) : Big (ex P) k := by
  rintro f ⟨x, hx⟩
  exact h x f hx

theorem Big.fact {φ : Prop} {P : Assn} {k : Nat} (h : φ → Big P k) : Big (pur φ ∗ P) k := by
  intro f hf
  obtain ⟨hf, hp⟩ := pur_sep_iff.mp hf
  exact h hf f hp

theorem lookup_mem {l : List (Ptr × Block)} {p : Ptr} (h : lookup l p ≠ none) : p ∈ l.map (·.1) := by
  induction l with
  | nil => simp [lookup] at h
  | cons x l ih =>
    obtain ⟨q, b⟩ := x
    simp only [lookup] at h
    by_cases hq : q = p
    · simp [hq]
    · rw [if_neg hq] at h
      simp only [List.map_cons, List.mem_cons]
      exact Or.inr (ih h)

theorem nodup_length_le : ∀ {l k : List Ptr}, l.Nodup → (∀ a ∈ l, a ∈ k) → l.length ≤ k.length
  | [], _, _, _ => by simp
  | a :: l, k, hn, hs => by
    have h1 := List.nodup_cons.mp hn
    have hak : a ∈ k := hs a (by simp)
    have := nodup_length_le (l := l) (k := k.erase a) h1.2 (by
      intro b hb
      refine (List.mem_erase_of_ne ?_).mpr (hs b (by simp [hb]))
      rintro rfl; exact h1.1 hb)
    rw [List.length_erase_of_mem hak] at this
    have : 0 < k.length := List.length_pos_of_mem hak
    simp only [List.length_cons]
    omega

theorem Triple.heapSize {P : Assn} {k : Nat} (hb : Big P k) : Triple P Mem.heapSize (fun n => pur (k ≤ n) ∗ P) := by
  intro R h hr
  refine ⟨h.size, h, rfl, ?_⟩
  rw [sep_assoc, pur_sep_iff]
  refine ⟨?_, hr⟩
  obtain ⟨l, e, hn, hm⟩ := (hb.sep (Big.zero R)) _ hr
  have := nodup_length_le hn (fun a ha => lookup_mem (hm a ha))
  simpa [e, Heap.size] using this

/-! ## Loops -/

theorem Triple.forN {Inv : Int → Assn} {body : Int → M Unit} : ∀ (n : Nat) (lo : Int),
    (∀ i, lo ≤ i → i < lo + n → Triple (Inv i) (body i) (fun _ => Inv (i + 1))) →
    Triple (Inv lo) (Mem.forN body n lo) (fun _ => Inv (lo + n))
  | 0, lo, _ => by
    refine Triple.ret ?_
    intro h hh
    simpa using hh
  | n + 1, lo, hb => by
    have e : Mem.forN body (n + 1) lo = (do body lo; Mem.forN body n (lo + 1)) := rfl
    rw [e]
    refine Triple.bind (hb lo (by omega) (by omega)) (fun _ => ?_)
    have := Triple.forN (Inv := Inv) (body := body) n (lo + 1) (fun i h1 h2 => hb i (by omega) (by omega))
    refine this.post ?_
    intro _ h hh
    have e2 : lo + 1 + (n : Int) = lo + ((n + 1 : Nat) : Int) := by omega
    rw [← e2]; exact hh

theorem Triple.forM {Inv : Int → Assn} {body : Int → M Unit} {lo hi : Int} (hle : lo ≤ hi)
    (hb : ∀ i, lo ≤ i → i < hi → Triple (Inv i) (body i) (fun _ => Inv (i + 1))) :
    Triple (Inv lo) (Mem.forM lo hi body) (fun _ => Inv hi) := by
  unfold Mem.forM
  have := Triple.forN (Inv := Inv) (body := body) (hi - lo).toNat lo (fun i h1 h2 => hb i h1 (by omega))
  have e : lo + ((hi - lo).toNat : Int) = hi := by omega
  rw [e] at this
  exact this

theorem Triple.forM_empty {P : Assn} {body : Int → M Unit} {lo hi : Int} (hle : hi ≤ lo) :
    Triple P (Mem.forM lo hi body) (fun _ => P) := by
  unfold Mem.forM
  have : (hi - lo).toNat = 0 := by omega
  rw [this]
  exact Triple.ret (fun _ h => h)

end Osl.Mem
