import Verif.HeapQueryProps
import Verif.HeapRelationOps
/-!
# Read-only functions on relations in memory (C75)
-/

set_option linter.unusedSectionVars false

namespace Osl.Mem

variable {c : Cfg}

theorem part_next (p : Ptr) (a : Part) (n : Ptr) : Query ((relChain c).at_ p a n) ((relChain c).get p) n := by
  refine Query.ex (fun m => ?_)
  show Query _ (do let r ← loadRel p; pure r.2.2) n
  qstep loadRel_query
  exact Query.ret _

/-- A relation seen around its first part. -/
theorem rel_open {α : Type} {p : Ptr} {a : Part} {l : Rel} {m : M α} {v : α}
    (h : ∀ n mp, Query (p ↦ .rel (hdr a) mp n ∗ matAt (kind c a.precision) mp a.nb_rows a.nb_columns a.m ∗ relAt c n l) m v) : Query (relAt c p (a :: l)) m v := by
  rw [relAt_open]
  refine Query.ex (fun n => Query.ex (fun mp => ?_))
  unfold openAt
  rw [sep_assoc]
  exact h n mp

theorem rel_ne {α : Type} {p : Ptr} {a : Part} {l : Rel} {m : M α} {v : α} (h : p ≠ 0 → Query (relAt c p (a :: l)) m v) : Query (relAt c p (a :: l)) m v :=
  Query.of_fact (fun _ hh => Chain.list_cons_ne hh) h

theorem rel_nil {α : Type} {p : Ptr} {m : M α} {v : α} (h : p = 0 → Query (relAt c p []) m v) : Query (relAt c p []) m v :=
  Query.of_fact (φ := p = 0) (fun _ hh => hh.1) h

/-! ## Array identifiers -/

theorem typeIsAccess_part (a : Part) : typeIsAccess a.type = Rel.isAccessPart a := rfl

/-- C75: `osl_relation_is_access`. -/
theorem relation_is_access_query {p : Ptr} {r : Rel} : Query (relAt c p r) (relIsAccess p) (Rel.is_access r) := by
  cases r with
  | nil =>
    refine rel_nil (fun hp => ?_)
    unfold relIsAccess
    rw [if_pos hp]
    exact Query.ret _
  | cons a l =>
    refine rel_ne (fun hp => rel_open (fun n mp => ?_))
    unfold relIsAccess
    rw [if_neg hp]
    qstep loadRel_query
    exact Query.ret _

theorem relIdRowOk_query {P : Assn} {a : Part} {m : Ptr} {row : Int} (hm : ∀ j v, get2 a.m row j = .ok v → Query P (mget (kind c a.precision) m row j) v) :
    ∀ (n : Nat) (i : Int) (b : Bool), Rel.arrayIdRowOk c a row n i = .ok b → Query P (relIdRowOk c (hdr a) m row n i) b
  | 0, i, b, h => by
    cases h
    exact Query.ret _
  | n + 1, i, b, h => by
    unfold Rel.arrayIdRowOk at h
    unfold relIdRowOk
    by_cases hi : i ≠ 1
    · rw [if_pos hi] at h ⊢
      cases hg : get2 a.m row i with
      | ok v =>
        rw [hg] at h
        dsimp only at h
        qstep (hm i v hg)
        cases hz : OInt.zero c a.precision v with
        | ok z =>
          rw [hz] at h
          have hz : OInt.zero c (hdr a).precision v = .ok z := hz
          qstep (Query.lift hz)
          cases z with
          | true => exact relIdRowOk_query hm n (i + 1) b h
          | false =>
            cases h
            exact Query.ret _
        | err => rw [hz] at h; cases h
        | ub => rw [hz] at h; cases h
      | err => rw [hg] at h; cases h
      | ub => rw [hg] at h; cases h
    · rw [if_neg hi] at h ⊢
      exact relIdRowOk_query hm n (i + 1) b h

theorem relIdPart_query {p : Ptr} {a : Part} {l : Rel} {row : Int} {x : Option (Int × Int)} (h : Rel.arrayIdPart c a row = .ok x) :
    Query (relAt c p (a :: l)) (relIdPart c p row) x := by
  refine rel_open (fun n m => ?_)
  unfold relIdPart
  qstep loadRel_query
  generalize hP : (p ↦ Block.rel (hdr a) m n ∗ matAt (kind c a.precision) m a.nb_rows a.nb_columns a.m ∗ relAt c n l) = P
  have hm : ∀ i j v, get2 a.m i j = .ok v → Query P (mget (kind c (hdr a).precision) m i j) v := by
    intro i j v hv
    rw [← hP]
    exact (mat_query hv).left.right
  unfold Rel.arrayIdPart at h
  by_cases h0 : a.nb_rows < 1 ∨ a.nb_columns < 3
  · rw [if_pos h0] at h
    cases h
    have h0' : (hdr a).nb_rows < 1 ∨ (hdr a).nb_columns < 3 := h0
    rw [if_pos h0']
    exact Query.ret _
  · rw [if_neg h0] at h
    have h0' : ¬ ((hdr a).nb_rows < 1 ∨ (hdr a).nb_columns < 3) := h0
    rw [if_neg h0']
    unfold relIdRows
    obtain ⟨s, hs, h⟩ := Out.bind_eq_ok.mp h
    have q1 : Query P (forS 0 (hdr a).nb_rows (relIdRowStep c (hdr a) m) (0, row)) s := by
      refine forNS_query (f := fun i s => do
        let b ← get2 a.m i 1
        let z ← OInt.zero c a.precision b
        return (if z then s else (s.1 + 1, i))) (fun i t t' ht => ?_) _ _ _ _ hs
      obtain ⟨v, hv, ht⟩ := Out.bind_eq_ok.mp ht
      obtain ⟨z, hz, ht⟩ := Out.bind_eq_ok.mp ht
      unfold relIdRowStep
      qstep (hm i 1 v hv)
      have hz : OInt.zero c (hdr a).precision v = .ok z := hz
      qstep (Query.lift hz)
      cases ht
      exact Query.ret _
    qstep q1
    by_cases h1 : s.1 = 0
    · rw [if_pos h1] at h ⊢
      cases h
      exact Query.ret _
    rw [if_neg h1] at h ⊢
    by_cases h2 : s.1 > 1
    · rw [if_pos h2] at h ⊢
      cases h
      exact Query.ret _
    rw [if_neg h2] at h ⊢
    obtain ⟨z, hz, h⟩ := Out.bind_eq_ok.mp h
    qstep (relIdRowOk_query (fun j v hv => hm s.2 j v hv) _ _ _ hz)
    cases z with
    | false =>
      rw [if_pos rfl] at h ⊢
      cases h
      exact Query.ret _
    | true =>
      rw [if_neg (by simp)] at h ⊢
      obtain ⟨last, hlast, h⟩ := Out.bind_eq_ok.mp h
      obtain ⟨one, hone, h⟩ := Out.bind_eq_ok.mp h
      obtain ⟨d, hd, h⟩ := Out.bind_eq_ok.mp h
      have hlast : get2 a.m s.2 ((hdr a).nb_columns - 1) = .ok last := hlast
      have hd : OInt.divisible c (hdr a).precision last one = .ok d := hd
      cases d with
      | false =>
        rw [if_pos rfl] at h
        cases h
        have : Query P (relIdValue c (hdr a) m s.2) none := by
          unfold relIdValue
          qstep (hm _ _ _ hlast)
          qstep (hm _ _ _ hone)
          qstep (Query.lift hd)
          rw [if_pos rfl]
          exact Query.ret _
        qstep this
        exact Query.ret _
      | true =>
        rw [if_neg (by simp)] at h
        obtain ⟨l1, hl, h⟩ := Out.bind_eq_ok.mp h
        obtain ⟨nl, hnl, h⟩ := Out.bind_eq_ok.mp h
        obtain ⟨o, ho, h⟩ := Out.bind_eq_ok.mp h
        obtain ⟨id, hid, h⟩ := Out.bind_eq_ok.mp h
        have hl : OInt.get_si c (hdr a).precision last = .ok l1 := hl
        have ho : OInt.get_si c (hdr a).precision one = .ok o := ho
        have : Query P (relIdValue c (hdr a) m s.2) (if id ≤ 0 then none else some id) := by
          unfold relIdValue
          qstep (hm _ _ _ hlast)
          qstep (hm _ _ _ hone)
          qstep (Query.lift hd)
          rw [if_neg (by simp)]
          qstep (hm _ _ _ hlast)
          qstep (Query.lift hl)
          qstep (Query.lift hnl)
          qstep (hm _ _ _ hone)
          qstep (Query.lift ho)
          qstep (Query.lift hid)
          exact Query.ret _
        qstep this
        by_cases h3 : id ≤ 0
        · rw [if_pos h3] at h ⊢
          cases h
          exact Query.ret _
        · rw [if_neg h3] at h ⊢
          cases h
          exact Query.ret _

/-- One turn of the loop, on values. -/
def idTurn (c : Cfg) (a : Part) (_ : Rel) (s : IdState) : Out (IdState ⊕ Int) :=
  match Rel.arrayIdPart c a s.row_id with
  | .ok x => .ok (idNext s x)
  | .err => .err
  | .ub => .ub

theorem arrayIdLoop_until : ∀ (r : Rel) (ref : Option Int) (id row : Int), Rel.arrayIdLoop c r ref id row = until_ (idTurn c) IdState.array_id r ⟨ref, id, row⟩
  | [], _, _, _ => rfl
  | a :: r, ref, id, row => by
    simp only [Rel.arrayIdLoop, until_, idTurn]
    cases h : Rel.arrayIdPart c a row with
    | err => rfl
    | ub => rfl
    | ok x =>
      cases x with
      | none => rfl
      | some x =>
        obtain ⟨k, row'⟩ := x
        cases ref with
        | none => exact arrayIdLoop_until r _ _ _
        | some j =>
          by_cases hj : j ≠ k
          · simp only [idNext, if_pos hj]
          · simp only [idNext, if_neg hj]
            exact arrayIdLoop_until r _ _ _

/-- C75: `osl_relation_get_array_id` only reads. -/
theorem relation_get_array_id_query {p : Ptr} {r : Rel} {v : Int} (h : Rel.get_array_id c r = .ok v) : Query (relAt c p r) (relArrayId c p) v := by
  cases r with
  | nil =>
    cases h
    refine rel_nil (fun hp => ?_)
    unfold relArrayId
    rw [if_pos hp]
    exact Query.ret _
  | cons a l =>
    refine rel_ne (fun hp => ?_)
    unfold relArrayId
    rw [if_neg hp]
    qstep relation_is_access_query
    unfold Rel.get_array_id at h
    dsimp only at h
    rw [show Rel.is_access (a :: l) = Rel.isAccessPart a from rfl]
    by_cases ha : Rel.isAccessPart a = true
    · rw [if_pos ha] at h ⊢
      rw [arrayIdLoop_until] at h
      refine chase_query (N := relChain c) part_next (fun a k l1 _ p s x hx => ?_) h
      unfold relIdStep
      unfold idTurn at hx
      cases hp : Rel.arrayIdPart c a s.row_id with
      | err => rw [hp] at hx; cases hx
      | ub => rw [hp] at hx; cases hx
      | ok y =>
        rw [hp] at hx
        cases hx
        have := relIdPart_query (p := p) (l := k) hp
        unfold relAt at this
        qstep this
        exact Query.ret _
    · rw [if_neg ha] at h ⊢
      cases h
      exact Query.ret _

/-! ## Attributes -/

theorem relLocalAttrs_query {p : Ptr} {a : Part} {l : Rel} {v : Rel.Attrs} (h : Rel.localAttrs c a (a :: l) = .ok v) : Query (relAt c p (a :: l)) (relLocalAttrs c p) v := by
  unfold relLocalAttrs
  qstep relation_is_access_query
  rw [show Rel.is_access (a :: l) = Rel.isAccessPart a from rfl]
  have hr : ∃ m n, Query (relAt c p (a :: l)) (loadRel p) (hdr a, m, n) ∨ True := ⟨0, 0, Or.inr trivial⟩
  unfold Rel.localAttrs at h
  dsimp only at h
  refine Query.opened (fun h0 hh => ?_)
  have hh' := hh
  rw [relAt_open] at hh'
  obtain ⟨n, m, hh'⟩ := hh'
  refine ⟨openAt c p a m n ∗ relAt c n l, hh', ?_⟩
  have q1 : Query (openAt c p a m n ∗ relAt c n l) (loadRel p) (hdr a, m, n) := by
    unfold openAt
    rw [sep_assoc]
    exact loadRel_query.left
  refine Query.bind q1 ?_
  dsimp only
  have e : (if Rel.isAccessPart a = true then TYPE_ACCESS else (hdr a).type) = (if Rel.isAccessPart a = true then TYPE_ACCESS else a.type) := rfl
  rw [e]
  generalize (if Rel.isAccessPart a = true then TYPE_ACCESS else a.type) = ty at h ⊢
  by_cases h1 : ty = TYPE_CONTEXT
  · rw [if_pos h1] at h ⊢
    cases h
    exact Query.ret _
  rw [if_neg h1] at h ⊢
  by_cases h2 : ty = TYPE_DOMAIN
  · rw [if_pos h2] at h ⊢
    cases h
    exact Query.ret _
  rw [if_neg h2] at h ⊢
  by_cases h3 : ty = TYPE_SCATTERING
  · rw [if_pos h3] at h ⊢
    cases h
    exact Query.ret _
  rw [if_neg h3] at h ⊢
  by_cases h4 : ty = TYPE_ACCESS
  · rw [if_pos h4] at h ⊢
    obtain ⟨id, hid, h⟩ := Out.bind_eq_ok.mp h
    cases h
    have := (relation_get_array_id_query (p := p) hid).mono (P' := openAt c p a m n ∗ relAt c n l) (fun h hh => sep_anything (by
      rw [relAt_open]
      exact ⟨n, m, hh⟩))
    qstep this
    exact Query.ret _
  rw [if_neg h4] at h ⊢
  cases h
  exact Query.ret _

/-- One turn of the loop, on values. -/
def attrsTurn (c : Cfg) (a : Part) (l : Rel) (s : Rel.Attrs) : Out (Rel.Attrs ⊕ Rel.Attrs) :=
  match Rel.localAttrs c a (a :: l) with
  | .ok x => .ok (.inl (attrsMax s x))
  | .err => .err
  | .ub => .ub

theorem get_attributes_until : ∀ (r : Rel) (s : Rel.Attrs), Rel.get_attributes c r s = until_ (attrsTurn c) id r s
  | [], _ => rfl
  | a :: r, s => by
    simp only [Rel.get_attributes, until_, attrsTurn]
    cases h : Rel.localAttrs c a (a :: r) with
    | err => rfl
    | ub => rfl
    | ok x => exact get_attributes_until r _

/-- C75: `osl_relation_get_attributes` only reads. -/
theorem relation_get_attributes_query {p : Ptr} {r : Rel} {s v : Rel.Attrs} (h : Rel.get_attributes c r s = .ok v) : Query (relAt c p r) (relAttributes c p s) v := by
  rw [get_attributes_until] at h
  refine chase_query (N := relChain c) part_next (fun a k l1 _ p s x hx => ?_) h
  unfold relAttrsStep
  unfold attrsTurn at hx
  cases hp : Rel.localAttrs c a (a :: k) with
  | err => rw [hp] at hx; cases hx
  | ub => rw [hp] at hx; cases hx
  | ok y =>
    rw [hp] at hx
    cases hx
    have := relLocalAttrs_query (p := p) (l := k) hp
    unfold relAt at this
    qstep this
    exact Query.ret _

/-! ## Integrity -/

theorem relTagsOk_query {P : Assn} {a : Part} {m : Ptr} (hm : ∀ i j v, get2 a.m i j = .ok v → Query P (mget (kind c (hdr a).precision) m i j) v) :
    ∀ (n : Nat) (i : Int) (b : Bool), Rel.tagsOk c a n i = .ok b → Query P (relTagsOk c (hdr a) m n i) b
  | 0, i, b, h => by
    cases h
    exact Query.ret _
  | n + 1, i, b, h => by
    unfold Rel.tagsOk at h
    unfold relTagsOk
    cases hg : get2 a.m i 0 with
    | err => rw [hg] at h; cases h
    | ub => rw [hg] at h; cases h
    | ok v =>
      rw [hg] at h
      dsimp only at h
      qstep (hm i 0 v hg)
      split at h
      · rename_i z o hz ho
        have hz : OInt.zero c (hdr a).precision v = .ok z := hz
        have ho : OInt.one c (hdr a).precision v = .ok o := ho
        qstep (Query.lift hz)
        cases z with
        | true => exact relTagsOk_query hm n (i + 1) b h
        | false =>
          rw [if_neg (by simp)]
          qstep (Query.lift ho)
          cases o with
          | true => exact relTagsOk_query hm n (i + 1) b h
          | false =>
            cases h
            exact Query.ret _
      · cases h

theorem relIdKnown_query {p : Ptr} {r : Rel} {b : Bool} (h : (if Rel.is_access r then match Rel.get_array_id c r with
      | .ok id => .ok (decide (id ≠ UNDEFINED))
      | .err => .err
      | .ub => .ub
    else .ok true) = Out.ok b) : Query (relAt c p r) (relIdKnown c p) b := by
  unfold relIdKnown
  qstep relation_is_access_query
  cases ha : Rel.is_access r with
  | false =>
    rw [ha] at h
    cases h
    exact Query.ret _
  | true =>
    rw [ha] at h
    rw [if_pos rfl] at h ⊢
    cases hi : Rel.get_array_id c r with
    | err => rw [hi] at h; cases h
    | ub => rw [hi] at h; cases h
    | ok id =>
      rw [hi] at h
      cases h
      qstep (relation_get_array_id_query hi)
      exact Query.ret _

/-- One turn of the loop, on values. -/
def integrityTurn (c : Cfg) (eo ei ep : Int) (a : Part) (l : Rel) (_ : Unit) : Out (Unit ⊕ Bool) :=
  if eo ≠ a.nb_output_dims ∨ ei ≠ a.nb_input_dims ∨ ep ≠ a.nb_parameters then .ok (.inr false)
  else if Rel.check_nb_columns a eo ei ep = false then .ok (.inr false)
  else
    match (if a.nb_rows > 0 ∧ a.nb_columns > 0 then Rel.tagsOk c a a.nb_rows.toNat 0 else .ok true) with
    | .err => .err
    | .ub => .ub
    | .ok false => .ok (.inr false)
    | .ok true =>
      match (if Rel.is_access (a :: l) then match Rel.get_array_id c (a :: l) with
          | .ok id => .ok (decide (id ≠ UNDEFINED))
          | .err => .err
          | .ub => .ub
        else Out.ok true) with
      | .ok true => .ok (.inl ())
      | .ok false => .ok (.inr false)
      | .err => .err
      | .ub => .ub

theorem integrityLoop_until {eo ei ep : Int} : ∀ (r : Rel), Rel.integrityLoop c eo ei ep r = until_ (integrityTurn c eo ei ep) (fun _ => true) r ()
  | [] => rfl
  | a :: r => by
    simp only [Rel.integrityLoop, until_, integrityTurn]
    by_cases h1 : eo ≠ a.nb_output_dims ∨ ei ≠ a.nb_input_dims ∨ ep ≠ a.nb_parameters
    · rw [if_pos h1, if_pos h1]
    rw [if_neg h1, if_neg h1]
    by_cases h2 : Rel.check_nb_columns a eo ei ep = false
    · rw [if_pos h2, if_pos h2]
    rw [if_neg h2, if_neg h2]
    generalize (if a.nb_rows > 0 ∧ a.nb_columns > 0 then Rel.tagsOk c a a.nb_rows.toNat 0 else Out.ok true) = t
    cases t with
    | err => rfl
    | ub => rfl
    | ok b =>
      cases b with
      | false => rfl
      | true =>
        dsimp only
        rw [show Rel.is_access (a :: r) = Rel.isAccessPart a from rfl]
        cases ha : Rel.isAccessPart a with
        | false => exact integrityLoop_until r
        | true =>
          simp only [if_true]
          cases hi : Rel.get_array_id c (a :: r) with
          | err => rfl
          | ub => rfl
          | ok id =>
            dsimp only
            by_cases hu : id = UNDEFINED
            · subst hu
              rfl
            · rw [if_neg hu]
              have : decide (id ≠ UNDEFINED) = true := by simpa using hu
              rw [this]
              exact integrityLoop_until r

theorem relIntegrityStep_query {eo ei ep : Int} {p : Ptr} {a : Part} {l : Rel} {x : Unit ⊕ Bool} (h : integrityTurn c eo ei ep a l () = .ok x) :
    Query (relAt c p (a :: l)) (relIntegrityStep c eo ei ep p ()) x := by
  refine Query.opened (fun h0 hh => ?_)
  have hh' := hh
  rw [relAt_open] at hh'
  obtain ⟨n, m, hh'⟩ := hh'
  refine ⟨openAt c p a m n ∗ relAt c n l, hh', ?_⟩
  have q1 : Query (openAt c p a m n ∗ relAt c n l) (loadRel p) (hdr a, m, n) := by
    unfold openAt
    rw [sep_assoc]
    exact loadRel_query.left
  have hm : ∀ i j v, get2 a.m i j = .ok v → Query (openAt c p a m n ∗ relAt c n l) (mget (kind c (hdr a).precision) m i j) v := by
    intro i j v hv
    unfold openAt
    exact (mat_query hv).right.left
  have whole : ∀ h, (openAt c p a m n ∗ relAt c n l) h → (relAt c p (a :: l) ∗ anything) h := fun h hh => sep_anything (by
    rw [relAt_open]
    exact ⟨n, m, hh⟩)
  unfold relIntegrityStep
  refine Query.bind q1 ?_
  dsimp only
  unfold integrityTurn at h
  by_cases h1 : eo ≠ a.nb_output_dims ∨ ei ≠ a.nb_input_dims ∨ ep ≠ a.nb_parameters
  · rw [if_pos h1] at h
    cases h
    have h1' : eo ≠ (hdr a).nb_output_dims ∨ ei ≠ (hdr a).nb_input_dims ∨ ep ≠ (hdr a).nb_parameters := h1
    rw [if_pos h1']
    exact Query.ret _
  rw [if_neg h1] at h
  have h1' : ¬ (eo ≠ (hdr a).nb_output_dims ∨ ei ≠ (hdr a).nb_input_dims ∨ ep ≠ (hdr a).nb_parameters) := h1
  rw [if_neg h1']
  rw [show Rel.check_nb_columns (hdrPart (hdr a) []) eo ei ep = Rel.check_nb_columns a eo ei ep from rfl]
  by_cases h2 : Rel.check_nb_columns a eo ei ep = false
  · rw [if_pos h2] at h ⊢
    cases h
    exact Query.ret _
  rw [if_neg h2] at h ⊢
  cases ht : (if a.nb_rows > 0 ∧ a.nb_columns > 0 then Rel.tagsOk c a a.nb_rows.toNat 0 else Out.ok true) with
  | err => rw [ht] at h; cases h
  | ub => rw [ht] at h; cases h
  | ok t =>
    rw [ht] at h
    have q2 : Query (openAt c p a m n ∗ relAt c n l) (relTags c (hdr a) m) t := by
      unfold relTags
      by_cases h3 : a.nb_rows > 0 ∧ a.nb_columns > 0
      · have h3' : (hdr a).nb_rows > 0 ∧ (hdr a).nb_columns > 0 := h3
        rw [if_pos h3'] 
        rw [if_pos h3] at ht
        exact relTagsOk_query hm _ _ _ ht
      · have h3' : ¬ ((hdr a).nb_rows > 0 ∧ (hdr a).nb_columns > 0) := h3
        rw [if_neg h3']
        rw [if_neg h3] at ht
        cases ht
        exact Query.ret _
    qstep q2
    cases t with
    | false =>
      cases h
      exact Query.ret _
    | true =>
      dsimp only at h
      rw [if_neg (by simp)]
      generalize hk : (if Rel.is_access (a :: l) then match Rel.get_array_id c (a :: l) with
          | .ok id => .ok (decide (id ≠ UNDEFINED))
          | .err => .err
          | .ub => .ub
        else Out.ok true) = k at h
      cases k with
      | err => cases h
      | ub => cases h
      | ok b =>
        have q3 := (relIdKnown_query (p := p) hk).mono whole
        qstep q3
        cases b <;> (cases h; exact Query.ret _)

/-- C75: `osl_relation_integrity_check` only reads. -/
theorem relation_integrity_check_query {p : Ptr} {r : Rel} {ty eo ei ep : Int} {b : Bool} (h : Rel.integrity_check c r ty eo ei ep = .ok b) :
    Query (relAt c p r) (relIntegrity c p ty eo ei ep) b := by
  cases r with
  | nil =>
    cases h
    refine rel_nil (fun hp => ?_)
    unfold relIntegrity
    rw [if_pos hp]
    exact Query.ret _
  | cons a l =>
    have key : ∃ e, integrityHead (hdr a) (Rel.is_access (a :: l)) ty eo ei ep = e ∧
        (match e with | none => Out.ok false | some e => Rel.integrityLoop c e.1 e.2.1 e.2.2 (a :: l)) = .ok b := by
      refine ⟨_, rfl, ?_⟩
      unfold integrityHead
      unfold Rel.integrity_check at h
      dsimp only at h
      rw [show Rel.is_access (a :: l) = Rel.isAccessPart a from rfl]
      split at h
      · rename_i h0; rw [if_pos (show ((ty ≠ TYPE_ACCESS ∧ ty ≠ (hdr a).type) ∨ (ty = TYPE_ACCESS ∧ Rel.isAccessPart a = false)) from h0)]; exact h
      rename_i h0; rw [if_neg (show ¬ ((ty ≠ TYPE_ACCESS ∧ ty ≠ (hdr a).type) ∨ (ty = TYPE_ACCESS ∧ Rel.isAccessPart a = false)) from h0)]
      split at h
      · rename_i h0; rw [if_pos (show ((hdr a).nb_output_dims = UNDEFINED ∨ (hdr a).nb_input_dims = UNDEFINED ∨ (hdr a).nb_local_dims = UNDEFINED ∨ (hdr a).nb_parameters = UNDEFINED) from h0)]; exact h
      rename_i h0; rw [if_neg (show ¬ ((hdr a).nb_output_dims = UNDEFINED ∨ (hdr a).nb_input_dims = UNDEFINED ∨ (hdr a).nb_local_dims = UNDEFINED ∨ (hdr a).nb_parameters = UNDEFINED) from h0)]
      split at h
      · rename_i h0; rw [if_pos (show ((hdr a).type = TYPE_CONTEXT ∧ (hdr a).nb_output_dims ≠ 0) from h0)]; exact h
      rename_i h0; rw [if_neg (show ¬ ((hdr a).type = TYPE_CONTEXT ∧ (hdr a).nb_output_dims ≠ 0) from h0)]
      split at h
      · rename_i h0; rw [if_pos (show (((hdr a).type = TYPE_DOMAIN ∨ (hdr a).type = TYPE_CONTEXT) ∧ (hdr a).nb_input_dims ≠ 0) from h0)]; exact h
      rename_i h0; rw [if_neg (show ¬ (((hdr a).type = TYPE_DOMAIN ∨ (hdr a).type = TYPE_CONTEXT) ∧ (hdr a).nb_input_dims ≠ 0) from h0)]
      split at h
      · rename_i h0; rw [if_pos (show ((Rel.check_attribute eo (hdr a).nb_output_dims).1 = false) from h0)]; exact h
      rename_i h0; rw [if_neg (show ¬ ((Rel.check_attribute eo (hdr a).nb_output_dims).1 = false) from h0)]
      split at h
      · rename_i h0; rw [if_pos (show ((Rel.check_attribute ei (hdr a).nb_input_dims).1 = false) from h0)]; exact h
      rename_i h0; rw [if_neg (show ¬ ((Rel.check_attribute ei (hdr a).nb_input_dims).1 = false) from h0)]
      split at h
      · rename_i h0; rw [if_pos (show ((Rel.check_attribute ep (hdr a).nb_parameters).1 = false) from h0)]; exact h
      rename_i h0; rw [if_neg (show ¬ ((Rel.check_attribute ep (hdr a).nb_parameters).1 = false) from h0)]
      exact h
    obtain ⟨e, he, hv⟩ := key
    have q : Query (relAt c p (a :: l)) (relIntegrityLoop c p e) b := by
      unfold relIntegrityLoop
      cases e with
      | none =>
        cases hv
        exact Query.ret _
      | some e =>
        dsimp only at hv ⊢
        rw [integrityLoop_until] at hv
        exact chase_query (N := relChain c) part_next (fun a k l1 _ p s x hx => relIntegrityStep_query hx) hv
    refine rel_ne (fun hp => ?_)
    unfold relIntegrity
    rw [if_neg hp]
    refine Query.opened (fun h0 hh => ?_)
    have hh' := hh
    rw [relAt_open] at hh'
    obtain ⟨n, m, hh'⟩ := hh'
    refine ⟨openAt c p a m n ∗ relAt c n l, hh', ?_⟩
    have whole : ∀ h, (openAt c p a m n ∗ relAt c n l) h → (relAt c p (a :: l) ∗ anything) h := fun h hh => sep_anything (by
      rw [relAt_open]
      exact ⟨n, m, hh⟩)
    have q1 : Query (openAt c p a m n ∗ relAt c n l) (loadRel p) (hdr a, m, n) := by
      unfold openAt
      rw [sep_assoc]
      exact loadRel_query.left
    refine Query.bind q1 ?_
    refine Query.bind (relation_is_access_query.mono whole) ?_
    dsimp only
    rw [he]
    exact q.mono whole

/-! ## Comparisons -/

theorem relRowNe_query {P : Assn} {pr : Int} {k1 k2 : Option Kind} {m1 m2 : Ptr} {x y : Matrix} {i : Int} (h1 : ∀ i j v, get2 x i j = .ok v → Query P (mget k1 m1 i j) v)
    (h2 : ∀ i j v, get2 y i j = .ok v → Query P (mget k2 m2 i j) v) : ∀ (n : Nat) (j : Int) (b : Bool), Rel.rowNe c pr x y i n j = .ok b →
    Query P (relRowNe c pr k1 k2 m1 m2 i n j) b
  | 0, j, b, h => by
    cases h
    exact Query.ret _
  | n + 1, j, b, h => by
    unfold Rel.rowNe at h
    unfold relRowNe
    split at h
    · rename_i u v hu hv
      qstep (h1 _ _ _ hu)
      qstep (h2 _ _ _ hv)
      split at h
      · rename_i hd
        cases h
        qstep (Query.lift hd)
        exact Query.ret _
      · rename_i hd
        qstep (Query.lift hd)
        exact relRowNe_query h1 h2 n (j + 1) b h
      · cases h
      · cases h
    · cases h

theorem relRowsNe_query {P : Assn} {pr : Int} {k1 k2 : Option Kind} {m1 m2 : Ptr} {x y : Matrix} {C : Nat} (h1 : ∀ i j v, get2 x i j = .ok v → Query P (mget k1 m1 i j) v)
    (h2 : ∀ i j v, get2 y i j = .ok v → Query P (mget k2 m2 i j) v) : ∀ (n : Nat) (i : Int) (b : Bool), Rel.rowsNe c pr x y C n i = .ok b →
    Query P (relRowsNe c pr k1 k2 m1 m2 C n i) b
  | 0, j, b, h => by
    cases h
    exact Query.ret _
  | n + 1, i, b, h => by
    unfold Rel.rowsNe at h
    unfold relRowsNe
    split at h
    · rename_i hd
      cases h
      qstep (relRowNe_query h1 h2 _ _ _ hd)
      exact Query.ret _
    · rename_i hd
      qstep (relRowNe_query h1 h2 _ _ _ hd)
      exact relRowsNe_query h1 h2 n (i + 1) b h
    · cases h
    · cases h

theorem hdrDiffer_parts (a b : Part) : hdrDiffer (hdr a) (hdr b) = decide (a.type ≠ b.type ∨ a.precision ≠ b.precision ∨ a.nb_rows ≠ b.nb_rows ∨ a.nb_columns ≠ b.nb_columns ∨
    a.nb_output_dims ≠ b.nb_output_dims ∨ a.nb_input_dims ≠ b.nb_input_dims ∨ a.nb_local_dims ≠ b.nb_local_dims ∨ a.nb_parameters ≠ b.nb_parameters) := by
  simp only [hdrDiffer, hdr, Bool.decide_or, Bool.or_assoc]
  rfl

theorem relPartEqual_query {p q n o : Ptr} {a b : Part} {v : Bool} (h : Rel.part_equal c a b = .ok v) : Query (partAt c p a n ∗ partAt c q b o) (relPartEqual c p q) v := by
  refine Query.of_fact (φ := p ≠ q ∧ p ≠ 0 ∧ q ≠ 0) (fun _ hh => ?_) (fun hp => ?_)
  · obtain ⟨x, y, hd, _, h1, h2⟩ := hh
    refine ⟨?_, partAt_ne _ h1, partAt_ne _ h2⟩
    rintro rfl
    have o1 := (relChain c).own h1
    have o2 := (relChain c).own h2
    rcases hd p with hd | hd
    · exact o1 hd
    · exact o2 hd
  unfold relPartEqual
  rw [if_neg hp.1, if_neg (by rintro (h | h); exact hp.2.1 h.1; exact hp.2.2 h.2)]
  unfold partAt
  rw [ex_sep]
  refine Query.ex (fun m1 => ?_)
  rw [sep_ex]
  refine Query.ex (fun m2 => ?_)
  unfold relPartEqualNodes
  refine Query.bind loadRel_query.left.left ?_
  refine Query.bind loadRel_query.left.right ?_
  dsimp only
  unfold Rel.part_equal at h
  by_cases hd : a.type ≠ b.type ∨ a.precision ≠ b.precision ∨ a.nb_rows ≠ b.nb_rows ∨ a.nb_columns ≠ b.nb_columns ∨ a.nb_output_dims ≠ b.nb_output_dims ∨
      a.nb_input_dims ≠ b.nb_input_dims ∨ a.nb_local_dims ≠ b.nb_local_dims ∨ a.nb_parameters ≠ b.nb_parameters
  · rw [if_pos hd] at h
    cases h
    have : hdrDiffer (hdr a) (hdr b) = true := by
      rw [hdrDiffer_parts]
      exact decide_eq_true hd
    rw [if_pos this]
    exact Query.ret _
  · rw [if_neg hd] at h
    have : ¬ hdrDiffer (hdr a) (hdr b) = true := by
      rw [hdrDiffer_parts]
      exact fun hx => hd (of_decide_eq_true hx)
    rw [if_neg this]
    obtain ⟨d, hd, h⟩ := Out.bind_eq_ok.mp h
    cases h
    refine Query.bind (relRowsNe_query (c := c) (fun i j v hv => (mat_query hv).right.left) (fun i j v hv => (mat_query hv).right.right) _ _ _ hd) ?_
    exact Query.ret _

theorem rel_sameAll : ∀ (r s : Rel) (b : Bool), Rel.equal c r s = .ok b → sameAll (Rel.part_equal c) r s = .ok b
  | [], [], b, h => h
  | [], _ :: _, b, h => h
  | _ :: _, [], b, h => h
  | x :: r, y :: s, b, h => by
    simp only [Rel.equal] at h
    simp only [sameAll]
    cases hp : Rel.part_equal c x y with
    | err => rw [hp] at h; cases h
    | ub => rw [hp] at h; cases h
    | ok t =>
      rw [hp] at h
      cases t with
      | false => exact h
      | true => exact rel_sameAll r s b h

/-- C75: `osl_relation_equal` on two relations only reads them. -/
theorem relation_equal_query {p q : Ptr} {r s : Rel} {b : Bool} (h : Rel.equal c r s = .ok b) : Query (relAt c p r ∗ relAt c q s) (relEqual c p q) b :=
  equalAll_query (N := relChain c) part_next (fun _ _ _ _ _ _ _ _ _ hx => relPartEqual_query hx) (rel_sameAll r s b h)

/-- C75: `osl_relation_equal` of a relation with itself. -/
theorem relation_equal_self_query {p : Ptr} {r : Rel} : Query (relAt c p r) (relEqual c p p) true :=
  equalAll_self (N := relChain c) part_next (fun a _ p n => by
    show Query _ (if p = p then _ else _) _
    rw [if_pos rfl]
    exact Query.ret _)

end Osl.Mem
