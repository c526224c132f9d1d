import Verif.HeapQueryExt
import Verif.HeapQueryStmtProps
import Verif.HeapExtProps6
/-!
# The comparisons of the extensions only read the memory (C75): the pieces, and the extensions with one node
-/

set_option linter.unusedSectionVars false

namespace Osl.Mem

open Osl.Ext

variable [Allocator] {α β : Type}

/-! ## Pieces -/

theorem nth_of_get {l : List α} {i : Nat} {x : α} (h : l[i]? = some x) : nth l i = .ok x := by
  unfold nth
  rw [if_neg (by omega), Int.toNat_natCast, h]

theorem andAlso_query {P : Assn} {a b : M Bool} {x y : Bool} (ha : Query P a x) (hb : x = true → Query P b y) : Query P (andAlso a b) (x && y) := by
  unfold andAlso
  refine Query.bind ha ?_
  cases x with
  | false => exact Query.ret _
  | true => rw [if_pos rfl, Bool.true_and]; exact hb rfl

theorem allBelow_from {P : Assn} {t : Nat → M Bool} {f : α → Bool} : ∀ (l u : List α), (∀ j x, (u ++ l)[j]? = some x → Query P (t j) (f x)) →
    Query P (allBelow t l.length u.length) (l.all f)
  | [], _, _ => Query.ret _
  | x :: l, u, h => by
    show Query P (allBelow t (l.length + 1) u.length) _
    unfold allBelow
    refine Query.bind (h u.length x (by simp)) ?_
    rw [List.all_cons]
    cases hx : f x with
    | false => exact Query.ret _
    | true =>
      rw [if_pos rfl, Bool.true_and]
      have := allBelow_from (P := P) (t := t) (f := f) l (u ++ [x]) (by simpa using h)
      simpa using this

theorem allBelow_query {P : Assn} {t : Nat → M Bool} {f : α → Bool} {l : List α} {n : Nat} (hn : n = l.length) (h : ∀ j x, l[j]? = some x → Query P (t j) (f x)) :
    Query P (allBelow t n 0) (l.all f) := by
  subst hn
  exact allBelow_from l [] h

theorem anyBelow_from {P : Assn} {t : Nat → M Bool} {f : α → Bool} : ∀ (l u : List α), (∀ j x, (u ++ l)[j]? = some x → Query P (t j) (f x)) →
    Query P (anyBelow t l.length u.length) (l.any f)
  | [], _, _ => Query.ret _
  | x :: l, u, h => by
    show Query P (anyBelow t (l.length + 1) u.length) _
    unfold anyBelow
    refine Query.bind (h u.length x (by simp)) ?_
    rw [List.any_cons]
    cases hx : f x with
    | true => exact Query.ret _
    | false =>
      rw [if_neg (by simp), Bool.false_or]
      have := anyBelow_from (P := P) (t := t) (f := f) l (u ++ [x]) (by simpa using h)
      simpa using this

theorem anyBelow_query {P : Assn} {t : Nat → M Bool} {f : α → Bool} {l : List α} {n : Nat} (hn : n = l.length) (h : ∀ j x, l[j]? = some x → Query P (t j) (f x)) :
    Query P (anyBelow t n 0) (l.any f) := by
  subst hn
  exact anyBelow_from l [] h

theorem own_ne {P Q : Assn} {p q : Ptr} (hp : ∀ h, P h → h p ≠ none) (hq : ∀ h, Q h → h q ≠ none) : ∀ h, (P ∗ Q) h → p ≠ q := by
  rintro h ⟨h1, h2, hd, _, a, b⟩ e
  subst e
  rcases hd p with x | x
  · exact hp _ a x
  · exact hq _ b x

/-- The comparison of two structures, or NULL. -/
theorem eqNodes_query {X : Type} {f : Ptr → X → Assn} {g : Option X → Option X → Out Bool} (hn : ∀ {p x h}, f p x h → p ≠ 0) (ho : ∀ {p x h}, f p x h → h p ≠ none)
    (g0 : g none none = .ok true) (g1 : ∀ x, g (some x) none = .ok false) (g2 : ∀ x, g none (some x) = .ok false) {p q : Ptr} {d e : Option X} {m : M Bool} {v : Bool}
    (hm : ∀ x y, g (some x) (some y) = .ok v → Query (f p x ∗ f q y) m v) (h : g d e = .ok v) : Query (optAt f p d ∗ optAt f q e) (eqNodes p q m) v := by
  unfold eqNodes
  cases d with
  | none =>
    rw [optAt_none]
    refine Query.fact (fun hp => ?_)
    subst hp
    cases e with
    | none =>
      rw [g0] at h
      cases h
      refine Query.of_fact (φ := q = 0) (fun _ hh => hh.1) (fun hq => ?_)
      subst hq
      exact Query.ret _
    | some y =>
      rw [g2] at h
      cases h
      refine Query.of_fact (φ := q ≠ 0) (fun _ hh => hn hh) (fun hq => ?_)
      rw [if_neg (fun e => hq e.symm), if_pos (Or.inl ⟨rfl, hq⟩)]
      exact Query.ret _
  | some x =>
    cases e with
    | none =>
      rw [g1] at h
      cases h
      rw [sep_comm, optAt_none]
      refine Query.fact (fun hq => ?_)
      subst hq
      refine Query.of_fact (φ := p ≠ 0) (fun _ hh => hn hh) (fun hp => ?_)
      rw [if_neg hp, if_pos (Or.inr ⟨hp, rfl⟩)]
      exact Query.ret _
    | some y =>
      rw [optAt_some, optAt_some]
      refine Query.of_fact (φ := p ≠ 0 ∧ q ≠ 0 ∧ p ≠ q) (fun h0 hh => ?_) (fun hp => ?_)
      · refine ⟨?_, ?_, own_ne (fun _ h => ho h) (fun _ h => ho h) h0 hh⟩
        · obtain ⟨_, _, _, _, h1, _⟩ := hh; exact hn h1
        · obtain ⟨_, _, _, _, _, h2⟩ := hh; exact hn h2
      · rw [if_neg hp.2.2, if_neg (by simp [hp.1, hp.2.1])]
        exact hm x y h

/-- A structure compared with itself, or NULL with NULL. -/
theorem eqNodes_self {P : Assn} {p : Ptr} {m : M Bool} : Query P (eqNodes p p m) true := by
  unfold eqNodes
  rw [if_pos rfl]
  exact Query.ret _

/-! ## Arrays -/

theorem wordsAt_get : ∀ {ps : List Ptr} {ws : List Str} {i : Nat} {w : Str}, ws[i]? = some w → ∀ h, wordsAt ps ws h → ∃ s, ps[i]? = some s ∧ (s ↦ .chars w ∗ anything) h
  | [], [], _, _, e, _, _ => by simp at e
  | [], _ :: _, _, _, _, _, hh => absurd hh.1 id
  | _ :: _, [], _, _, _, _, hh => absurd hh.1 id
  | p :: ps, v :: ws, 0, w, e, h, hh => by
    simp at e
    subst e
    exact ⟨p, rfl, sep_mono (fun _ h => h) (fun _ _ => trivial) hh⟩
  | p :: ps, v :: ws, i + 1, w, e, h, hh => by
    obtain ⟨h1, h2, hd, rfl, ha, hb⟩ := hh
    obtain ⟨s, hs, hx⟩ := wordsAt_get (ps := ps) (ws := ws) (i := i) (w := w) (by simpa using e) h2 hb
    refine ⟨s, by simpa using hs, ?_⟩
    have : (s ↦ .chars w ∗ (anything ∗ p ↦ .chars v)) (join h1 h2) := by
      have h3 : (p ↦ .chars v ∗ (s ↦ .chars w ∗ anything)) (join h1 h2) := ⟨h1, h2, hd, rfl, ha, hx⟩
      exact h3.perm (by ac_rfl)
    exact sep_mono (fun _ h => h) (fun _ _ => trivial) this

theorem words_query {a b : Ptr} {ps t qs u : List Ptr} {ws vs : List Str} {i j : Nat} {w v : Str} (hw : ws[i]? = some w) (hv : vs[j]? = some v) :
    Query ((a ↦ .ptrs (ps ++ t) ∗ wordsAt ps ws) ∗ b ↦ .ptrs (qs ++ u) ∗ wordsAt qs vs) (wordsEq a b i j) (decide (w = v)) := by
  refine Query.opened (fun h hh => ?_)
  obtain ⟨h1, h2, hd, rfl, ⟨x1, x2, xd, rfl, xa, xb⟩, ⟨y1, y2, yd, rfl, ya, yb⟩⟩ := hh
  obtain ⟨s, hs, xb⟩ := wordsAt_get hw _ xb
  obtain ⟨r, hr, yb⟩ := wordsAt_get hv _ yb
  refine ⟨((a ↦ .ptrs (ps ++ t) ∗ (s ↦ .chars w ∗ anything)) ∗ b ↦ .ptrs (qs ++ u) ∗ (r ↦ .chars v ∗ anything)), ?_, ?_⟩
  · exact ⟨_, _, hd, rfl, ⟨x1, x2, xd, rfl, xa, xb⟩, ⟨y1, y2, yd, rfl, ya, yb⟩⟩
  · have ls : i < ps.length := (List.getElem?_eq_some_iff.mp hs).1
    have lr : j < qs.length := (List.getElem?_eq_some_iff.mp hr).1
    unfold wordsEq
    qstep (getField_query (p := a) (i := i) (nth_of_get (by rw [List.getElem?_append_left ls]; exact hs)))
    qstep (getField_query (p := b) (i := j) (nth_of_get (by rw [List.getElem?_append_left lr]; exact hr)))
    rw [show ((a ↦ .ptrs (ps ++ t) ∗ (s ↦ .chars w ∗ anything)) ∗ b ↦ .ptrs (qs ++ u) ∗ (r ↦ .chars v ∗ anything)) =
      ((s ↦ .chars w ∗ r ↦ .chars v) ∗ a ↦ .ptrs (ps ++ t) ∗ anything ∗ b ↦ .ptrs (qs ++ u) ∗ anything) by ac_rfl]
    exact strEq_query.left

theorem strs_query {a b : Ptr} {ws vs : List Str} {i j : Nat} {w v : Str} (hw : ws[i]? = some w) (hv : vs[j]? = some v) :
    Query (strsAt a ws ∗ strsAt b vs) (wordsEq a b i j) (decide (w = v)) := by
  refine Query.of_fact (φ := a ≠ 0 ∧ b ≠ 0) (fun h hh => ?_) (fun hp => ?_)
  · obtain ⟨_, _, _, _, h1, h2⟩ := hh
    constructor
    · intro e
      subst e
      rw [strsAt_null] at h1
      rw [h1.1] at hw
      cases hw
    · intro e
      subst e
      rw [strsAt_null] at h2
      rw [h2.1] at hv
      cases hv
  · rw [strsAt_ne hp.1, strsAt_ne hp.2, ex_sep]
    refine Query.ex (fun ps => ?_)
    rw [sep_ex]
    refine Query.ex (fun qs => ?_)
    have := words_query (a := a) (b := b) (ps := ps) (t := []) (qs := qs) (u := []) hw hv
    simpa using this

theorem array_query {a b : Ptr} {ws vs : List Str} {i j : Nat} {w v : Str} (hw : ws[i]? = some w) (hv : vs[j]? = some v) :
    Query (arrayAt a ws ∗ arrayAt b vs) (wordsEq a b i j) (decide (w = v)) := by
  unfold arrayAt
  rw [ex_sep]
  refine Query.ex (fun ps => ?_)
  rw [sep_ex]
  refine Query.ex (fun qs => ?_)
  exact words_query hw hv

theorem int_query {a : Ptr} {l : List Int} {i : Nat} {x : Int} (hx : l[i]? = some x) : Query (intsAt a l) (getInt a i) x := by
  refine Query.of_fact (φ := a ≠ 0) (fun h hh => ?_) (fun hp => ?_)
  · intro e
    subst e
    rw [intsAt_null] at hh
    rw [hh.1] at hx
    cases hx
  · rw [intsAt_ne hp]
    exact getInt_query (nth_of_get hx)

theorem ints_query {a b : Ptr} {l m : List Int} {i j : Nat} {x y : Int} (hx : l[i]? = some x) (hy : m[j]? = some y) :
    Query (intsAt a l ∗ intsAt b m) (intsEq a b i j) (decide (x = y)) := by
  unfold intsEq
  qstep (int_query (a := a) hx)
  qstep (int_query (a := b) hy)
  exact Query.ret _

theorem field_ints_query {p q : Ptr} {is js : List Int} {ps qs : List Ptr} {i j : Nat} {x y : Int} (hx : is[i]? = some x) (hy : js[j]? = some y) :
    Query (p ↦ .node is ps ∗ q ↦ .node js qs) (intsEq p q i j) (decide (x = y)) := by
  unfold intsEq
  qstep (getInt_query (p := p) (nth_of_get hx))
  qstep (getInt_query (p := q) (nth_of_get hy))
  exact Query.ret _

theorem fields_query {p q : Ptr} {is js : List Int} {ps qs : List Ptr} (n : Nat) (hn : is.length = n) (hm : js.length = n) : ∀ (l : List Nat), (∀ i ∈ l, i < n) →
    Query (p ↦ .node is ps ∗ q ↦ .node js qs) (fieldsEq p q l) (l.all fun i => decide (is[i]? = js[i]?))
  | [], _ => Query.ret _
  | i :: l, h => by
    have hi : i < n := h i (by simp)
    rw [List.all_cons]
    refine andAlso_query ?_ (fun _ => fields_query n hn hm l (fun j hj => h j (by simp [hj])))
    have e1 : is[i]? = some (is[i]'(by omega)) := List.getElem?_eq_getElem _
    have e2 : js[i]? = some (js[i]'(by omega)) := List.getElem?_eq_getElem _
    rw [e1, e2]
    have := field_ints_query (p := p) (q := q) (ps := ps) (qs := qs) e1 e2
    simpa using this

theorem items_query {p q a b : Ptr} {is js l m : List Int} {ps qs : List Ptr} {k i j : Nat} {x y : Int} (ha : nth ps k = .ok a) (hb : nth qs k = .ok b)
    (hx : l[i]? = some x) (hy : m[j]? = some y) :
    Query ((p ↦ .node is ps ∗ intsAt a l) ∗ (q ↦ .node js qs ∗ intsAt b m)) (itemsEq p q k i j) (decide (x = y)) := by
  unfold itemsEq
  qstep (getPtr_query (p := p) ha)
  qstep (getPtr_query (p := q) hb)
  rw [show ((p ↦ .node is ps ∗ intsAt a l) ∗ (q ↦ .node js qs ∗ intsAt b m)) = ((intsAt a l ∗ intsAt b m) ∗ p ↦ .node is ps ∗ q ↦ .node js qs) by ac_rfl]
  exact (ints_query hx hy).left

theorem names_query {p q a b : Ptr} {is js : List Int} {l m : List Str} {ps qs : List Ptr} {k i j : Nat} {x y : Str} (ha : nth ps k = .ok a) (hb : nth qs k = .ok b)
    (hx : l[i]? = some x) (hy : m[j]? = some y) :
    Query ((p ↦ .node is ps ∗ strsAt a l) ∗ (q ↦ .node js qs ∗ strsAt b m)) (namesEq p q k i j) (decide (x = y)) := by
  unfold namesEq
  qstep (getPtr_query (p := p) ha)
  qstep (getPtr_query (p := q) hb)
  rw [show ((p ↦ .node is ps ∗ strsAt a l) ∗ (q ↦ .node js qs ∗ strsAt b m)) = ((strsAt a l ∗ strsAt b m) ∗ p ↦ .node is ps ∗ q ↦ .node js qs) by ac_rfl]
  exact (strs_query hx hy).left

/-- The comparison of two strings which are not NULL. -/
theorem uri_query {a b : Ptr} {s t : Option Str} {v : Bool} (h : Ext.strEq s t = .ok v) : Query (uriAt a s ∗ uriAt b t) (strEq a b) v := by
  cases s with
  | none => cases h
  | some s =>
    cases t with
    | none => cases h
    | some t =>
      cases h
      exact strEq_query

/-! ## Strings and bodies -/

theorem zip_get {l : List α} {m : List β} {j : Nat} {z : α × β} (h : (l.zip m)[j]? = some z) : l[j]? = some z.1 ∧ m[j]? = some z.2 := by
  obtain ⟨x, y⟩ := z
  have := List.getElem?_zip_eq_some.mp h
  exact this

theorem strings_loop : ∀ (a b : List Str), Strings.equalLoop a b = (a.zip b).all fun z => decide (z.1 = z.2)
  | [], _ => by simp [Strings.equalLoop]
  | _ :: _, [] => by simp [Strings.equalLoop]
  | x :: a, y :: b => by
    simp only [Strings.equalLoop, List.zip_cons_cons, List.all_cons]
    rw [← strings_loop a b]
    by_cases h : x = y <;> simp [h]

theorem stringAt_array {a : Ptr} {s : Strings} (h : s.words ≠ []) : stringAt a s.string = arrayAt a s.words := by
  obtain ⟨o⟩ := s
  cases o with
  | none => exact absurd rfl h
  | some ws => rfl

theorem size_words {s : Strings} : Strings.size (some s) = s.words.length := by
  obtain ⟨o⟩ := s
  rw [strings_size_eq]
  cases o <;> rfl

theorem strEqualAt_query {p q : Ptr} {s t : Strings} {i : Nat} {w v : Str} (hw : s.words[i]? = some w) (hv : t.words[i]? = some v) :
    Query (stringsAt p (some s) ∗ stringsAt q (some t)) (strEqualAt p q i) (decide (w = v)) := by
  have es : s.words ≠ [] := by intro e; rw [e] at hw; cases hw
  have et : t.words ≠ [] := by intro e; rw [e] at hv; cases hv
  show Query ((ex fun a => p ↦ .ptrs [a] ∗ stringAt a s.string) ∗ (ex fun a => q ↦ .ptrs [a] ∗ stringAt a t.string)) _ _
  rw [ex_sep]
  refine Query.ex (fun a => ?_)
  rw [sep_ex]
  refine Query.ex (fun b => ?_)
  unfold strEqualAt
  rw [stringAt_array es, stringAt_array et]
  qstep (getField_query (p := p) (i := 0) rfl)
  qstep (getField_query (p := q) (i := 0) rfl)
  rw [show ((p ↦ .ptrs [a] ∗ arrayAt a s.words) ∗ (q ↦ .ptrs [b] ∗ arrayAt b t.words)) = ((arrayAt a s.words ∗ arrayAt b t.words) ∗ p ↦ .ptrs [a] ∗ q ↦ .ptrs [b]) by ac_rfl]
  exact (array_query hw hv).left

theorem stringsAt_own {p : Ptr} {s : Strings} {h : PHeap} (hh : stringsAt p (some s) h) : h p ≠ none := by
  obtain ⟨a, hh⟩ := hh
  exact own_pto hh

/-- C75: `osl_strings_equal` on two separate structures only reads them. -/
theorem strings_equal_query {p q : Ptr} {s t : Option Strings} : Query (stringsAt p s ∗ stringsAt q t) (stringsEqual p q) (Strings.equal s t) := by
  have key := eqNodes_query (f := fun p (s : Strings) => stringsAt p (some s)) (g := fun s t => .ok (Strings.equal s t)) (hn := fun h => stringsAt_ne _ h) (ho := stringsAt_own) rfl
    (fun _ => rfl) (fun _ => rfl) (p := p) (q := q) (d := s) (e := t) (m := strEqualNodes p q) (v := Strings.equal s t) (fun x y h => ?_) rfl
  · unfold stringsEqual
    cases s <;> cases t <;> exact key
  · injection h with h
    rw [← h]
    unfold strEqualNodes
    qstep (strings_size_query (p := p))
    qstep (strings_size_query (p := q))
    show Query _ _ (if Strings.size (some x) ≠ Strings.size (some y) then false else Strings.equalLoop x.words y.words)
    by_cases hs : Strings.size (some x) ≠ Strings.size (some y)
    · rw [if_pos hs, if_pos hs]
      exact Query.ret _
    · rw [if_neg hs, if_neg hs, strings_loop]
      have hs : Strings.size (some x) = Strings.size (some y) := Classical.byContradiction hs
      rw [size_words, size_words] at hs
      refine allBelow_query (l := x.words.zip y.words) (by rw [size_words, List.length_zip, ← hs, Nat.min_self]) (fun j z hz => ?_)
      obtain ⟨h1, h2⟩ := zip_get hz
      exact strEqualAt_query h1 h2

/-- C75: `osl_strings_equal` of a structure with itself. -/
theorem strings_equal_self_query {p : Ptr} {s : Option Strings} : Query (stringsAt p s) (stringsEqual p p) true := eqNodes_self

theorem fieldStrings_query {p q a b : Ptr} {ps qs : List Ptr} {i : Nat} {s t : Option Strings} (ha : nth ps i = .ok a) (hb : nth qs i = .ok b) :
    Query ((p ↦ .ptrs ps ∗ stringsAt a s) ∗ (q ↦ .ptrs qs ∗ stringsAt b t)) (fieldStrings p q i) (Strings.equal s t) := by
  unfold fieldStrings
  qstep (getField_query (p := p) ha)
  qstep (getField_query (p := q) hb)
  rw [show ((p ↦ .ptrs ps ∗ stringsAt a s) ∗ (q ↦ .ptrs qs ∗ stringsAt b t)) = ((stringsAt a s ∗ stringsAt b t) ∗ p ↦ .ptrs ps ∗ q ↦ .ptrs qs) by ac_rfl]
  exact strings_equal_query.left

theorem bodyAt_own {p : Ptr} {b : Body} {h : PHeap} (hh : bodyAt p b h) : h p ≠ none := by
  obtain ⟨x, y, hh⟩ := hh
  exact own_pto hh

/-- C75: `osl_body_equal` on two separate bodies only reads them. -/
theorem body_equal_query {p q : Ptr} {d e : Option Body} : Query (optAt bodyAt p d ∗ optAt bodyAt q e) (bodyEqual p q) (Body.equal d e) := by
  refine eqNodes_query (g := fun s t => .ok (Body.equal s t)) (hn := fun h => bodyAt_ne _ h) (ho := bodyAt_own) rfl (fun _ => rfl) (fun _ => rfl) (fun x y h => ?_) rfl
  injection h with h
  rw [← h]
  unfold bodyAt
  rw [ex_sep]; refine Query.ex (fun a => ?_)
  rw [ex_sep]; refine Query.ex (fun b => ?_)
  rw [sep_ex]; refine Query.ex (fun a' => ?_)
  rw [sep_ex]; refine Query.ex (fun b' => ?_)
  have e : Body.equal (some x) (some y) = (Strings.equal x.iterators y.iterators && Strings.equal x.expression y.expression) := by
    show (if !Strings.equal x.iterators y.iterators then false else Strings.equal x.expression y.expression) = _
    cases Strings.equal x.iterators y.iterators <;> rfl
  rw [e]
  refine andAlso_query ?_ (fun _ => ?_)
  · rw [show ((p ↦ .ptrs [a, b] ∗ stringsAt a x.iterators ∗ stringsAt b x.expression) ∗ q ↦ .ptrs [a', b'] ∗ stringsAt a' y.iterators ∗ stringsAt b' y.expression) =
      (((p ↦ .ptrs [a, b] ∗ stringsAt a x.iterators) ∗ (q ↦ .ptrs [a', b'] ∗ stringsAt a' y.iterators)) ∗ stringsAt b x.expression ∗ stringsAt b' y.expression) by ac_rfl]
    exact (fieldStrings_query rfl rfl).left
  · rw [show ((p ↦ .ptrs [a, b] ∗ stringsAt a x.iterators ∗ stringsAt b x.expression) ∗ q ↦ .ptrs [a', b'] ∗ stringsAt a' y.iterators ∗ stringsAt b' y.expression) =
      (((p ↦ .ptrs [a, b] ∗ stringsAt b x.expression) ∗ (q ↦ .ptrs [a', b'] ∗ stringsAt b' y.expression)) ∗ stringsAt a x.iterators ∗ stringsAt a' y.iterators) by ac_rfl]
    exact (fieldStrings_query rfl rfl).left

/-- C75: `osl_scatnames_equal` on two separate structures only reads them. -/
theorem scatnames_equal_query {p q : Ptr} {d e : Option Scatnames} {v : Bool} (h : Scatnames.equal d e = .ok v) :
    Query (optAt scatnamesAt p d ∗ optAt scatnamesAt q e) (scatnamesEqual p q) v := by
  refine eqNodes_query (g := Scatnames.equal) (hn := fun h => scatnamesAt_ne _ h) (ho := ?_) rfl (fun _ => rfl) (fun _ => rfl) (fun x y h => ?_) h
  · rintro p x h ⟨a, hh⟩
    exact own_pto hh
  · have e : v = Strings.equal x.names y.names := by
      have h : (if !Strings.equal x.names y.names then Out.ok false else Out.ok true) = .ok v := h
      cases he : Strings.equal x.names y.names <;> rw [he] at h <;> cases h <;> rfl
    subst e
    unfold scatnamesAt
    rw [ex_sep]; refine Query.ex (fun a => ?_)
    rw [sep_ex]; refine Query.ex (fun b => ?_)
    exact fieldStrings_query rfl rfl

/-! ## Texts -/

theorem field_query {p q : Ptr} {s t : Option Str} {v : Bool} (h : Ext.strEq s t = .ok v) : Query (stringFieldAt p s ∗ stringFieldAt q t) (wordsEq p q 0 0) v := by
  unfold stringFieldAt
  rw [ex_sep]; refine Query.ex (fun a => ?_)
  rw [sep_ex]; refine Query.ex (fun b => ?_)
  unfold wordsEq
  qstep (getField_query (p := p) (i := 0) rfl)
  qstep (getField_query (p := q) (i := 0) rfl)
  rw [show ((p ↦ .ptrs [a] ∗ uriAt a s) ∗ q ↦ .ptrs [b] ∗ uriAt b t) = ((uriAt a s ∗ uriAt b t) ∗ p ↦ .ptrs [a] ∗ q ↦ .ptrs [b]) by ac_rfl]
  exact (uri_query h).left

theorem fieldAt_own {p : Ptr} {s : Option Str} {h : PHeap} (hh : stringFieldAt p s h) : h p ≠ none := by
  obtain ⟨x, hh⟩ := hh
  exact own_pto hh

/-- C75: `osl_textual_equal` does not even read. -/
theorem textual_equal_query {P : Assn} {p q : Ptr} {d e : Option Textual} {v : Bool} (h : Textual.equal d e = .ok v) : Query P (textualEqual p q) v := by
  cases h
  exact Query.ret _

/-- C75: `osl_comment_equal` on two separate comments only reads them. -/
theorem comment_equal_query {p q : Ptr} {d e : Option Comment} {v : Bool} (h : Comment.equal d e = .ok v) :
    Query (optAt (fun p (x : Comment) => stringFieldAt p x.comment) p d ∗ optAt (fun p (x : Comment) => stringFieldAt p x.comment) q e) (commentEqual p q) v := by
  refine eqNodes_query (g := Comment.equal) (hn := fun h => stringFieldAt_ne _ h) (ho := fieldAt_own) rfl (fun _ => rfl) (fun _ => rfl) (fun x y h => ?_) h
  obtain ⟨b, hb, h⟩ := Out.bind_eq_ok.mp h
  cases h
  unfold commentNodes
  qstep (field_query hb)
  exact Query.ret _

/-- C75: `osl_clay_equal` on two separate scripts only reads them. -/
theorem clay_equal_query {p q : Ptr} {d e : Option Clay} {v : Bool} (h : Clay.equal d e = .ok v) :
    Query (optAt (fun p (x : Clay) => stringFieldAt p x.script) p d ∗ optAt (fun p (x : Clay) => stringFieldAt p x.script) q e) (clayEqual p q) v :=
  eqNodes_query (g := Clay.equal) (hn := fun h => stringFieldAt_ne _ h) (ho := fieldAt_own) rfl (fun _ => rfl) (fun _ => rfl) (fun _ _ h => field_query h) h

/-- C75: `osl_null_equal`. -/
theorem null_equal_query {p q : Ptr} {d e : Option Null} {v : Bool} (h : Null.equal d e = .ok v) :
    Query (optAt (fun p (_ : Null) => p ↦ .ptrs []) p d ∗ optAt (fun p (_ : Null) => p ↦ .ptrs []) q e) (nullEqual p q) v := by
  refine eqNodes_query (g := Null.equal) (hn := fun h => pto_ne _ h) (ho := ?_) rfl (fun _ => rfl) (fun _ => rfl) (fun x y h => ?_) h
  · intro p x h hh
    rw [← sep_emp (p ↦ _)] at hh
    exact own_pto hh
  · cases h
    exact Query.ret _

end Osl.Mem
