import Verif.HeapQueryRel
/-!
# Functions which only read the memory (C75)

`Query P m v`: in every memory which holds `P`, among anything else, the call `m` returns `v` and the memory is the very same.
-/

set_option linter.unusedSectionVars false

namespace Osl.Mem

/-- Any part of the memory. -/
def anything : Assn := fun _ => True

/-- In every memory which holds `P`, the call `m` returns `v` and does not change the memory. -/
def Query {α : Type} (P : Assn) (m : M α) (v : α) : Prop := ∀ h : Heap, (P ∗ anything) h.get → m h = .ok (v, h)

variable {α β : Type}

/-! ## Rules -/

theorem sep_anything {P : Assn} {h : PHeap} (hp : P h) : (P ∗ anything) h := by
  have : (P ∗ emp) h := by rw [sep_emp]; exact hp
  exact sep_mono (fun _ h => h) (fun _ _ => trivial) this

theorem Query.triple {P : Assn} {m : M α} {v : α} (q : Query P m v) : Triple P m (fun r => pur (r = v) ∗ P) := by
  intro R h hh
  refine ⟨v, h, q h (sep_mono (fun _ h => h) (fun _ _ => trivial) hh), ?_⟩
  rw [sep_assoc]
  exact pur_sep_iff.mpr ⟨rfl, hh⟩

theorem Query.mono {P P' : Assn} {m : M α} {v : α} (q : Query P m v) (hp : ∀ h, P' h → (P ∗ anything) h) : Query P' m v := by
  intro h hh
  refine q h ?_
  have := sep_mono (Q' := anything) hp (fun _ h => h) hh
  rw [sep_assoc] at this
  exact sep_mono (fun _ h => h) (fun _ _ => trivial) this

theorem Query.left {P F : Assn} {m : M α} {v : α} (q : Query P m v) : Query (P ∗ F) m v :=
  q.mono (fun _ hh => sep_mono (fun _ h => h) (fun _ _ => trivial) hh)

theorem Query.right {P F : Assn} {m : M α} {v : α} (q : Query P m v) : Query (F ∗ P) m v := by
  rw [sep_comm]
  exact q.left

theorem Query.bind {P : Assn} {m : M α} {f : α → M β} {v : α} {w : β} (q : Query P m v) (q2 : Query P (f v) w) : Query P (m >>= f) w := by
  intro h hh
  show (match m h with | .ok (a, h') => f a h' | .err => .err | .ub => .ub) = _
  rw [q h hh]
  exact q2 h hh

theorem Query.ret {P : Assn} (v : α) : Query P (pure v) v := fun _ _ => rfl

theorem Query.lift {P : Assn} {x : Out α} {v : α} (hx : x = .ok v) : Query P (Mem.lift x) v := by
  subst hx
  exact fun _ _ => rfl

theorem Query.load {p : Ptr} {b : Block} : Query (p ↦ b) (Mem.load p) b := by
  intro h hh
  obtain ⟨x, y, hd, e, ⟨hp, hx⟩, _⟩ := hh
  have : h.get p = some b := by rw [e, join, hx]; simp
  unfold Mem.load
  rw [if_neg hp, this]

theorem Query.ex {A : β → Assn} {m : M α} {v : α} (q : ∀ x, Query (A x) m v) : Query (ex A) m v := by
  intro h hh
  rw [ex_sep] at hh
  obtain ⟨x, hh⟩ := hh
  exact q x h hh

theorem Query.fact {φ : Prop} {P : Assn} {m : M α} {v : α} (q : φ → Query P m v) : Query (pur φ ∗ P) m v := by
  intro h hh
  rw [sep_assoc] at hh
  obtain ⟨hf, hh⟩ := pur_sep_iff.mp hh
  exact q hf h hh

theorem Query.of_fact {φ : Prop} {P : Assn} {m : M α} {v : α} (hp : ∀ h, P h → φ) (q : φ → Query P m v) : Query P m v := by
  intro h hh
  have hf : φ := by
    obtain ⟨a, _, _, _, ha, _⟩ := hh
    exact hp a ha
  exact q hf h hh

theorem Query.opened {P : Assn} {m : M α} {v : α} (q : ∀ h, P h → ∃ P', P' h ∧ Query P' m v) : Query P m v := by
  intro h hh
  obtain ⟨a, b, hd, e, ha, hb⟩ := hh
  obtain ⟨P', h1, h2⟩ := q a ha
  exact h2 h ⟨a, b, hd, e, h1, hb⟩

theorem Query.heapSize {P : Assn} {k : Nat} {f : Nat → M α} {v : α} (hb : Big P k) (q : ∀ n, k ≤ n → Query P (f n) v) : Query P (Mem.heapSize >>= f) v := by
  intro h hh
  have hk : k ≤ h.size := by
    obtain ⟨l, e, hn, hm⟩ := (hb.sep (Big.zero anything)) _ hh
    have := nodup_length_le hn (fun a ha => lookup_mem (hm a ha))
    simpa [e, Heap.size] using this
  exact q h.size hk h hh

/-- A query which needs less memory. -/
syntax "qfind " term : tactic
macro_rules
  | `(tactic| qfind $t) => `(tactic| first | exact $t | (apply Query.left; qfind $t) | (apply Query.right; qfind $t))

/-- The first command is this query. -/
syntax "qstep " term : tactic
macro_rules
  | `(tactic| qstep $t) => `(tactic| (refine Query.bind (by qfind $t) ?_; try dsimp only))

/-- A call which finds something in the memory without changing it (specification): in every memory which holds `P`, the call `m` returns some `v`, the memory is
the very same, and `R v` is a part of it. -/
def Finds {α : Type} (P : Assn) (m : M α) (R : α → Assn) : Prop := ∀ h : Heap, (P ∗ anything) h.get → ∃ v, m h = .ok (v, h) ∧ (R v ∗ anything) h.get

theorem Finds.mono {P P' : Assn} {m : M α} {R : α → Assn} (q : Finds P m R) (hp : ∀ h, P' h → (P ∗ anything) h) : Finds P' m R := by
  intro h hh
  refine q h ?_
  have := sep_mono (Q' := anything) hp (fun _ h => h) hh
  rw [sep_assoc] at this
  exact sep_mono (fun _ h => h) (fun _ _ => trivial) this

theorem Finds.left {P F : Assn} {m : M α} {R : α → Assn} (q : Finds P m R) : Finds (P ∗ F) m R :=
  q.mono (fun _ hh => sep_mono (fun _ h => h) (fun _ _ => trivial) hh)

theorem Finds.right {P F : Assn} {m : M α} {R : α → Assn} (q : Finds P m R) : Finds (F ∗ P) m R := by
  rw [sep_comm]
  exact q.left

/-- A query, then a call which finds something. -/
theorem Finds.bind {P : Assn} {m : M α} {f : α → M β} {v : α} {R : β → Assn} (q : Query P m v) (q2 : Finds P (f v) R) : Finds P (m >>= f) R := by
  intro h hh
  obtain ⟨w, h1, h2⟩ := q2 h hh
  refine ⟨w, ?_, h2⟩
  show (match m h with | .ok (a, h') => f a h' | .err => .err | .ub => .ub) = _
  rw [q h hh]
  exact h1

theorem Finds.ret {P : Assn} {v : α} {R : α → Assn} (hp : ∀ h, P h → (R v ∗ anything) h) : Finds P (pure v) R := by
  intro h hh
  refine ⟨v, rfl, ?_⟩
  have := sep_mono (Q' := anything) hp (fun _ h => h) hh
  rw [sep_assoc] at this
  exact sep_mono (fun _ h => h) (fun _ _ => trivial) this

/-- A query whose value is known to be somewhere. -/
theorem Finds.of_query {P : Assn} {m : M α} {v : α} {R : α → Assn} (q : Query P m v) (hp : ∀ h, P h → (R v ∗ anything) h) : Finds P m R := by
  intro h hh
  refine ⟨v, q h hh, ?_⟩
  have := sep_mono (Q' := anything) hp (fun _ h => h) hh
  rw [sep_assoc] at this
  exact sep_mono (fun _ h => h) (fun _ _ => trivial) this

/-- What was found is then used. -/
theorem Finds.query {P : Assn} {m : M α} {f : α → M β} {R : α → Assn} {w : β} (q : Finds P m R) (q2 : ∀ v, Query (R v) (f v) w) : Query P (m >>= f) w := by
  intro h hh
  obtain ⟨v, h1, h2⟩ := q h hh
  show (match m h with | .ok (a, h') => f a h' | .err => .err | .ub => .ub) = _
  rw [h1]
  exact q2 v h h2

/-- What was found is used to find something else. -/
theorem Finds.seq {P : Assn} {m : M α} {f : α → M β} {R : α → Assn} {R2 : β → Assn} (q : Finds P m R) (q2 : ∀ v, Finds (R v) (f v) R2) : Finds P (m >>= f) R2 := by
  intro h hh
  obtain ⟨v, h1, h2⟩ := q h hh
  obtain ⟨w, h3, h4⟩ := q2 v h h2
  refine ⟨w, ?_, h4⟩
  show (match m h with | .ok (a, h') => f a h' | .err => .err | .ub => .ub) = _
  rw [h1]
  exact h3

/-- What was found, or the memory it was found in, is used to find something else. -/
theorem Finds.both {P : Assn} {m : M α} {f : α → M β} {R : α → Assn} {R2 : β → Assn} (q : Finds P m R)
    (q2 : ∀ v (h : Heap), (P ∗ anything) h.get → (R v ∗ anything) h.get → ∃ w, f v h = .ok (w, h) ∧ (R2 w ∗ anything) h.get) : Finds P (m >>= f) R2 := by
  intro h hh
  obtain ⟨v, h1, h2⟩ := q h hh
  obtain ⟨w, h3, h4⟩ := q2 v h hh h2
  refine ⟨w, ?_, h4⟩
  show (match m h with | .ok (a, h') => f a h' | .err => .err | .ub => .ub) = _
  rw [h1]
  exact h3

theorem Finds.ex {A : β → Assn} {m : M α} {R : α → Assn} (q : ∀ x, Finds (A x) m R) : Finds (Mem.ex A) m R := by
  intro h hh
  rw [ex_sep] at hh
  obtain ⟨x, hh⟩ := hh
  exact q x h hh

theorem Finds.fact {φ : Prop} {P : Assn} {m : M α} {R : α → Assn} (q : φ → Finds P m R) : Finds (pur φ ∗ P) m R := by
  intro h hh
  rw [sep_assoc] at hh
  obtain ⟨hf, hh⟩ := pur_sep_iff.mp hh
  exact q hf h hh

theorem Finds.of_fact {φ : Prop} {P : Assn} {m : M α} {R : α → Assn} (hp : ∀ h, P h → φ) (q : φ → Finds P m R) : Finds P m R := by
  intro h hh
  have hf : φ := by
    obtain ⟨a, _, _, _, ha, _⟩ := hh
    exact hp a ha
  exact q hf h hh

theorem Finds.heapSize {P : Assn} {k : Nat} {f : Nat → M α} {R : α → Assn} (hb : Big P k) (q : ∀ n, k ≤ n → Finds P (f n) R) : Finds P (Mem.heapSize >>= f) R := by
  intro h hh
  have hk : k ≤ h.size := by
    obtain ⟨l, e, hn, hm⟩ := (hb.sep (Big.zero anything)) _ hh
    have := nodup_length_le hn (fun a ha => lookup_mem (hm a ha))
    simpa [e, Heap.size] using this
  exact q h.size hk h hh

/-! ## Fields and coefficients -/

theorem loadRel_query {p : Ptr} {h : Hdr} {m n : Ptr} : Query (p ↦ .rel h m n) (loadRel p) (h, m, n) := by
  unfold loadRel
  qstep Query.load
  exact Query.lift rfl

theorem getLoc_query {k : Option Kind} {q : Ptr} {i v : Int} {l1 l2 : List Cell} {x : Cell} (hl : (l1.length : Int) = i) :
    Query (q ↦ .ints (l1 ++ x :: l2) ∗ cellAt k x v) (getLoc k (q, i)) v := by
  have hn : nth (l1 ++ x :: l2) i = .ok x := by
    subst hl
    exact nth_mid rfl
  unfold getLoc cellAt
  match k with
  | none => exact Query.of_fact (φ := False) (by rintro h ⟨_, _, _, _, _, hf, _⟩; exact hf) (fun h => h.elim)
  | some (.fixed w) =>
    dsimp only
    rw [sep_comm]
    refine Query.fact (fun hx => ?_)
    subst hx
    have : Query (q ↦ .ints (l1 ++ .val v :: l2)) (readLoc (q, i)) (.val v) := by
      unfold readLoc
      qstep Query.load
      qstep Query.lift rfl
      exact Query.lift hn
    qstep this
    exact Query.lift rfl
  | some .mp =>
    dsimp only
    rw [sep_ex]
    refine Query.ex (fun p => ?_)
    rw [show (q ↦ Block.ints (l1 ++ x :: l2) ∗ pur (x = .mp p) ∗ p ↦ .mpz v) = (pur (x = .mp p) ∗ q ↦ Block.ints (l1 ++ x :: l2) ∗ p ↦ .mpz v) by ac_rfl]
    refine Query.fact (fun hx => ?_)
    subst hx
    have : Query (q ↦ .ints (l1 ++ .mp p :: l2)) (readLoc (q, i)) (.mp p) := by
      unfold readLoc
      qstep Query.load
      qstep Query.lift rfl
      exact Query.lift hn
    qstep this
    qstep Query.lift (x := asMp (.mp p)) rfl
    qstep Query.load
    exact Query.lift rfl

/-- Reading `m[i][j]`. -/
theorem mat_query {k : Option Kind} {m : Ptr} {R C i j v : Int} {mat : Matrix} (hv : get2 mat i j = .ok v) : Query (matAt k m R C mat) (mget k m i j) v := by
  refine Query.opened (fun h0 hh => ?_)
  obtain ⟨b1, b2, b3, b4, b5⟩ := get2_bounds (matAt_rect hh) hv
  obtain ⟨hr, q, l1, x, l2, v1, v2, hl, hl', hm, hh⟩ := matAt_focus b1 b2 b3 b4 b5 hh
  refine ⟨_, hh, ?_⟩
  unfold hole mget
  have h1 : Query (m ↦ .rows (rowPtrs q R C)) (mloc m i j) (q, (flatIdx C i j : Int)) := by
    unfold mloc
    qstep Query.load
    qstep Query.lift rfl
    qstep Query.lift (rowPtrs_nth b1 b2)
    have : (q, (((i.toNat * C.toNat : Nat) : Int) + j)) = (q, (flatIdx C i j : Int)) := by
      unfold flatIdx
      simp only [Int.natCast_add, Int.toNat_of_nonneg b3]
    rw [← this]
    exact Query.ret _
  qstep h1
  rw [← sep_assoc]
  exact (getLoc_query (k := k) (by rw [hl])).left

/-! ## Loops -/

/-- A loop with a state which follows a loop on values. -/
theorem forNS_query {σ : Type} {P : Assn} {body : Int → σ → M σ} {f : Int → σ → Out σ} (step : ∀ i s s', f i s = .ok s' → Query P (body i s) s') : ∀ (n : Nat) (i : Int) (s s' : σ),
    Osl.loopN f n i s = .ok s' → Query P (forNS body n i s) s'
  | 0, i, s, s', h => by
    cases h
    exact Query.ret _
  | n + 1, i, s, s', h => by
    simp only [Osl.loopN] at h
    cases hb : f i s with
    | ok t =>
      rw [hb] at h
      exact Query.bind (step i s t hb) (forNS_query step n (i + 1) t s' h)
    | err => rw [hb] at h; cases h
    | ub => rw [hb] at h; cases h

/-- A computation along a list which may stop: `g` gets the element and what follows it (specification). -/
def until_ {σ ρ : Type} (g : α → List α → σ → Out (σ ⊕ ρ)) (done : σ → ρ) : List α → σ → Out ρ
  | [], s => .ok (done s)
  | a :: l, s =>
    match g a l s with
    | .ok (.inr r) => .ok r
    | .ok (.inl s) => until_ g done l s
    | .err => .err
    | .ub => .ub

theorem chaseLoop_query {σ ρ : Type} {N : Chain α} {F : Assn} (hget : ∀ p a n, Query (N.at_ p a n) (N.get p) n) {act : Ptr → σ → M (σ ⊕ ρ)} {done : σ → ρ}
    {g : α → List α → σ → Out (σ ⊕ ρ)} : ∀ (f : Nat) (l : List α) (p : Ptr) (s : σ) (v : ρ), l.length ≤ f →
    (∀ a k l1, l = l1 ++ a :: k → ∀ p s x, g a k s = .ok x → Query (N.list p (a :: k) ∗ F) (act p s) x) →
    until_ g done l s = .ok v → Query (N.list p l ∗ F) (chaseLoop N.toNext act done f p s) v
  | f, [], p, s, v, _, _, h => by
    cases h
    rw [Chain.list_null]
    refine Query.fact (fun hp => ?_)
    subst hp
    cases f <;> exact Query.ret _
  | 0, a :: l, p, s, v, h, _, _ => by simp at h
  | f + 1, y :: l, p, s, v, hf, hact, h => by
    refine Query.of_fact (φ := p ≠ 0) (fun _ hh => ?_) (fun hp => ?_)
    · obtain ⟨_, _, _, _, h1, _⟩ := hh
      exact Chain.list_cons_ne h1
    unfold chaseLoop
    rw [if_neg hp]
    simp only [until_] at h
    cases hg : g y l s with
    | ok x =>
      rw [hg] at h
      refine Query.bind (hact y l [] rfl p s x hg) ?_
      cases x with
      | inr r =>
        cases h
        exact Query.ret _
      | inl s1 =>
        dsimp only at h ⊢
        rw [Chain.list_cons, ex_sep]
        refine Query.ex (fun n => ?_)
        qstep (hget p y n)
        rw [sep_assoc]
        refine Query.right ?_
        exact chaseLoop_query hget f l n s1 v (by simpa using hf) (fun a k l1 e => hact a k (y :: l1) (by rw [e]; rfl)) h
    | err => rw [hg] at h; cases h
    | ub => rw [hg] at h; cases h

/-- A loop on a list which may return, next to other memory. -/
theorem chase_near {σ ρ : Type} {N : Chain α} {F : Assn} (hget : ∀ p a n, Query (N.at_ p a n) (N.get p) n) {act : Ptr → σ → M (σ ⊕ ρ)} {done : σ → ρ}
    {g : α → List α → σ → Out (σ ⊕ ρ)} {l : List α} {p : Ptr} {s : σ} {v : ρ}
    (hact : ∀ a k l1, l = l1 ++ a :: k → ∀ p s x, g a k s = .ok x → Query (N.list p (a :: k) ∗ F) (act p s) x) (h : until_ g done l s = .ok v) :
    Query (N.list p l ∗ F) (chase N.toNext act done p s) v := by
  unfold chase
  exact Query.heapSize ((Chain.seg_big l p 0).sep (Big.zero _)) (fun f hf => chaseLoop_query hget f l p s v (by simpa using hf) hact h)

/-- A loop on a list which may return. -/
theorem chase_query {σ ρ : Type} {N : Chain α} (hget : ∀ p a n, Query (N.at_ p a n) (N.get p) n) {act : Ptr → σ → M (σ ⊕ ρ)} {done : σ → ρ}
    {g : α → List α → σ → Out (σ ⊕ ρ)} {l : List α} {p : Ptr} {s : σ} {v : ρ}
    (hact : ∀ a k l1, l = l1 ++ a :: k → ∀ p s x, g a k s = .ok x → Query (N.list p (a :: k)) (act p s) x) (h : until_ g done l s = .ok v) :
    Query (N.list p l) (chase N.toNext act done p s) v := by
  have := chase_near (F := emp) (N := N) (p := p) hget (act := act) (done := done) (g := g) (fun a k l1 e p s x hx => by rw [sep_emp]; exact hact a k l1 e p s x hx) h
  rw [sep_emp] at this
  exact this

/-- Counting the nodes of a list. -/
theorem countLoop_query {N : Chain α} (hget : ∀ p a n, Query (N.at_ p a n) (N.get p) n) : ∀ (f : Nat) (l : List α) (p : Ptr) (k : Nat), l.length ≤ f →
    Query (N.list p l) (countLoop N.toNext f p k) (k + l.length)
  | f, [], p, k, _ => by
    refine Query.of_fact (φ := p = 0) (fun _ hh => hh.1) (fun hp => ?_)
    subst hp
    cases f <;> exact Query.ret _
  | 0, a :: l, p, k, h => by simp at h
  | f + 1, y :: l, p, k, hf => by
    refine Query.of_fact (fun _ hh => Chain.list_cons_ne hh) (fun hp => ?_)
    unfold countLoop
    rw [if_neg hp, Chain.list_cons]
    refine Query.ex (fun n => ?_)
    qstep (hget p y n)
    have := countLoop_query hget f l n (k + 1) (by simpa using hf)
    rw [show k + 1 + l.length = k + (y :: l).length by simp; omega] at this
    exact this.right

theorem countAll_query {N : Chain α} (hget : ∀ p a n, Query (N.at_ p a n) (N.get p) n) {l : List α} {p : Ptr} : Query (N.list p l) (countAll N.toNext p) l.length := by
  unfold countAll
  refine Query.heapSize (Chain.seg_big l p 0) (fun f hf => ?_)
  have := countLoop_query hget f l p 0 hf
  rw [Nat.zero_add] at this
  exact this

/-- The comparison of two lists, element by element (specification). -/
def sameAll (eq : α → α → Out Bool) : List α → List α → Out Bool
  | [], [] => .ok true
  | a :: l, b :: k =>
    match eq a b with
    | .ok true => sameAll eq l k
    | r => r
  | _, _ => .ok false

theorem equalLoop_query {N : Chain α} (hget : ∀ p a n, Query (N.at_ p a n) (N.get p) n) {eq : Ptr → Ptr → M Bool} {g : α → α → Out Bool} :
    ∀ (f : Nat) (l k : List α) (p q : Ptr) (v : Bool), l.length ≤ f →
    (∀ a ∈ l, ∀ b ∈ k, ∀ p q n o x, g a b = .ok x → Query (N.at_ p a n ∗ N.at_ q b o) (eq p q) x) →
    sameAll g l k = .ok v → Query (N.list p l ∗ N.list q k) (equalLoop N.toNext eq f p q) v
  | f, [], k, p, q, v, _, _, h => by
    rw [Chain.list_null]
    refine Query.fact (fun hp => ?_)
    subst hp
    cases k with
    | nil =>
      cases h
      refine Query.of_fact (φ := q = 0) (fun _ hh => hh.1) (fun hq => ?_)
      subst hq
      cases f <;> exact Query.ret _
    | cons b k =>
      cases h
      refine Query.of_fact (fun _ hh => Chain.list_cons_ne hh) (fun hq => ?_)
      have e : decide ((0 : Ptr) = 0 ∧ q = 0) = false := by simp [hq]
      cases f <;> (unfold equalLoop; rw [if_pos (Or.inl rfl), e]; exact Query.ret _)
  | 0, a :: l, k, p, q, v, h, _, _ => by simp at h
  | f + 1, y :: l, [], p, q, v, _, _, h => by
    cases h
    rw [sep_comm, Chain.list_null]
    refine Query.fact (fun hq => ?_)
    subst hq
    refine Query.of_fact (fun _ hh => Chain.list_cons_ne hh) (fun hp => ?_)
    have e : decide (p = 0 ∧ (0 : Ptr) = 0) = false := by simp [hp]
    unfold equalLoop
    rw [if_pos (Or.inr rfl), e]
    exact Query.ret _
  | f + 1, y :: l, z :: k, p, q, v, hf, heq, h => by
    refine Query.of_fact (φ := p ≠ 0 ∧ q ≠ 0) (fun _ hh => ?_) (fun hp => ?_)
    · obtain ⟨_, _, _, _, h1, h2⟩ := hh
      exact ⟨Chain.list_cons_ne h1, Chain.list_cons_ne h2⟩
    unfold equalLoop
    rw [if_neg (by rintro (h | h); exact hp.1 h; exact hp.2 h)]
    rw [Chain.list_cons, Chain.list_cons, ex_sep]
    refine Query.ex (fun n => ?_)
    rw [sep_ex]
    refine Query.ex (fun o => ?_)
    rw [show ((N.at_ p y n ∗ N.list n l) ∗ N.at_ q z o ∗ N.list o k) = ((N.at_ p y n ∗ N.at_ q z o) ∗ N.list n l ∗ N.list o k) by ac_rfl]
    simp only [sameAll] at h
    cases hg : g y z with
    | ok x =>
      rw [hg] at h
      refine Query.bind (heq y (by simp) z (by simp) p q n o x hg).left ?_
      cases x with
      | false =>
        cases h
        exact Query.ret _
      | true =>
        dsimp only at h ⊢
        rw [if_pos rfl]
        refine Query.bind ((hget p y n).left.left) ?_
        refine Query.bind ((hget q z o).right.left) ?_
        refine Query.right ?_
        exact equalLoop_query hget f l k n o v (by simpa using hf) (fun a ha b hb => heq a (by simp [ha]) b (by simp [hb])) h
    | err => rw [hg] at h; cases h
    | ub => rw [hg] at h; cases h

/-- The comparison of two lists. -/
theorem equalAll_query {N : Chain α} (hget : ∀ p a n, Query (N.at_ p a n) (N.get p) n) {eq : Ptr → Ptr → M Bool} {g : α → α → Out Bool} {l k : List α} {p q : Ptr} {v : Bool}
    (heq : ∀ a ∈ l, ∀ b ∈ k, ∀ p q n o x, g a b = .ok x → Query (N.at_ p a n ∗ N.at_ q b o) (eq p q) x) (h : sameAll g l k = .ok v) :
    Query (N.list p l ∗ N.list q k) (equalAll N.toNext eq p q) v := by
  unfold equalAll
  exact Query.heapSize ((Chain.seg_big l p 0).sep (Big.zero _)) (fun f hf => equalLoop_query hget f l k p q v (by simpa using hf) heq h)

/-- A list compared with itself, when every node is equal to itself. -/
theorem equalLoop_self {N : Chain α} (hget : ∀ p a n, Query (N.at_ p a n) (N.get p) n) {eq : Ptr → Ptr → M Bool} : ∀ (f : Nat) (l : List α) (p : Ptr), l.length ≤ f →
    (∀ a ∈ l, ∀ p n, Query (N.at_ p a n) (eq p p) true) → Query (N.list p l) (equalLoop N.toNext eq f p p) true
  | f, [], p, _, _ => by
    refine Query.of_fact (φ := p = 0) (fun _ hh => hh.1) (fun hp => ?_)
    subst hp
    cases f <;> exact Query.ret _
  | 0, a :: l, p, h, _ => by simp at h
  | f + 1, y :: l, p, hf, heq => by
    refine Query.of_fact (fun _ hh => Chain.list_cons_ne hh) (fun hp => ?_)
    unfold equalLoop
    rw [if_neg (by rintro (h | h) <;> exact hp h), Chain.list_cons]
    refine Query.ex (fun n => ?_)
    qstep (heq y (by simp) p n)
    rw [if_pos rfl]
    qstep (hget p y n)
    qstep (hget p y n)
    exact (equalLoop_self hget f l n (by simpa using hf) (fun a ha => heq a (by simp [ha]))).right

theorem equalAll_self {N : Chain α} (hget : ∀ p a n, Query (N.at_ p a n) (N.get p) n) {eq : Ptr → Ptr → M Bool} {l : List α} {p : Ptr}
    (heq : ∀ a ∈ l, ∀ p n, Query (N.at_ p a n) (eq p p) true) : Query (N.list p l) (equalAll N.toNext eq p p) true := by
  unfold equalAll
  exact Query.heapSize (Chain.seg_big l p 0) (fun f hf => equalLoop_self hget f l p hf heq)

end Osl.Mem
