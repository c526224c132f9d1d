import Verif.StoredRead
/-!
# C82: the integers of the vectors can always be stored in their precisions
-/

namespace Osl
open OInt Rel

variable {c : Cfg}

/-- The precision of a relation of two relations which get the same: their integers can still be stored. -/
theorem Rel.set_same_precision_stored (hc : c.Valid) {a b : Rel} {u : Rel × Rel} (ha : Stored c a) (hb : Stored c b) (h : set_same_precision c a b = .ok u) :
    Stored c u.1 ∧ Stored c u.2 := by
  have two : ∀ {p : Int}, (do let a' ← set_precision c p a; let b' ← set_precision c p b; return (a', b')) = Out.ok u → Stored c u.1 ∧ Stored c u.2 := by
    intro p h
    obtain ⟨a', h1, h⟩ := Out.bind_eq_ok.mp h
    obtain ⟨b', h2, h⟩ := Out.bind_eq_ok.mp h
    cases h
    exact ⟨set_precision_stored hc ha h1, set_precision_stored hc hb h2⟩
  unfold set_same_precision at h
  split at h
  · split at h
    · split at h
      · exact two h
      · split at h
        · exact two h
        · cases h; exact ⟨ha, hb⟩
    · cases h; exact ⟨ha, hb⟩
  · cases h; exact ⟨ha, hb⟩

theorem GList.remove_good {D : Type} {good : D → Prop} {l : GList D} {t : Str} (hl : Mem.goodList good l) : Mem.goodList good (GList.remove l t) := by
  induction l with
  | nil => exact hl
  | cons g gs ih =>
    unfold GList.remove
    split
    · exact (GList.good_cons.mp hl).2
    · exact GList.good_cons.mpr ⟨(GList.good_cons.mp hl).1, ih (GList.good_cons.mp hl).2⟩

theorem zipOut_forall {f : Int → Int → Out Int} {P Q : Int → Prop} (hf : ∀ a b s, P a → P b → f a b = .ok s → Q s) :
    ∀ {l m r : List Int}, (∀ x ∈ l, P x) → (∀ x ∈ m, P x) → zipOut f l m = .ok r → ∀ x ∈ r, Q x
  | [], [], r, _, _, h => by cases h; exact fun _ h => by cases h
  | [], _ :: _, _, _, _, h => by cases h
  | _ :: _, [], _, _, _, h => by cases h
  | a :: l, b :: m, r, hl, hm, h => by
    simp only [zipOut] at h
    split at h
    · next x hx =>
      split at h
      · next xs hxs =>
        cases h
        intro y hy
        rcases List.mem_cons.mp hy with hy | hy
        · rw [hy]; exact hf a b x (hl a List.mem_cons_self) (hm b List.mem_cons_self) hx
        · exact zipOut_forall hf (fun x hx => hl x (List.mem_cons_of_mem _ hx)) (fun x hx => hm x (List.mem_cons_of_mem _ hx)) hxs y hy
      · cases h
      · cases h
    · cases h
    · cases h

/-- The sum of an integer and a C `int`, when there is one, can be stored. -/
theorem add_si_stored (hc : c.Valid) {p a i s : Int} (h : add_si c p a i = .ok s) : InPrec c p s := by
  unfold InPrec
  cases hk : kind c p with
  | none => simp [add_si, hk] at h
  | some k =>
    cases k with
    | mp => trivial
    | fixed w =>
      have hw := kind_fixed hc hk
      unfold add_si at h
      simp only [hk] at h
      show fits w s
      split at h
      · split at h
        · obtain ⟨d, _, h⟩ := Out.bind_eq_ok.mp h
          split at h
          · cases h
          · exact sarith_fits hw h
        · split at h
          · obtain ⟨d, _, h⟩ := Out.bind_eq_ok.mp h
            obtain ⟨e, _, h⟩ := Out.bind_eq_ok.mp h
            split at h
            · cases h
            · exact sarith_fits hw h
          · exact sarith_fits hw h
      · exact sarith_fits hw h

/-- The product of an integer and a C `int`, when there is one, can be stored. -/
theorem mul_si_stored (hc : c.Valid) {p a i s : Int} (h : mul_si c p a i = .ok s) : InPrec c p s := by
  unfold InPrec
  cases hk : kind c p with
  | none => simp [mul_si, hk] at h
  | some k =>
    cases k with
    | mp => trivial
    | fixed w =>
      have hw := kind_fixed hc hk
      unfold mul_si at h
      simp only [hk] at h
      show fits w s
      obtain ⟨r, hr, h⟩ := Out.bind_eq_ok.mp h
      have hf := sarith_fits hw hr
      split at h
      · obtain ⟨q, _, h⟩ := Out.bind_eq_ok.mp h
        split at h
        · cases h
        · cases h; exact hf
      · cases h; exact hf

namespace Vec

theorem stored_some {x : Vec} : VStored c (some x) ↔ ∀ a ∈ x.v, InPrec c x.precision a :=
  ⟨fun h => h x rfl, fun h w hw => by cases hw; exact h⟩

theorem add_stored (hc : c.Valid) {a b : Option Vec} {z : Vec} (ha : VStored c a) (hb : VStored c b) (h : add c a b = .ok z) : VStored c (some z) := by
  unfold add at h
  split at h
  · next x y =>
    split at h
    · cases h
    · next hp =>
      obtain ⟨_, _, h⟩ := Out.bind_eq_ok.mp h
      obtain ⟨l, hl, h⟩ := Out.bind_eq_ok.mp h
      cases h
      have he : x.precision = y.precision := Classical.byContradiction (fun hn => hp (Or.inr hn))
      have hy := stored_some.mp hb
      rw [← he] at hy
      have hx := stored_some.mp ha
      exact stored_some.mpr (zipOut_forall (add_closed hc _) hx hy hl)
  · cases h

theorem sub_stored (hc : c.Valid) {a b : Option Vec} {z : Vec} (ha : VStored c a) (hb : VStored c b) (h : sub c a b = .ok z) : VStored c (some z) := by
  unfold sub at h
  split at h
  · next x y =>
    split at h
    · cases h
    · next hp =>
      obtain ⟨_, _, h⟩ := Out.bind_eq_ok.mp h
      obtain ⟨l, hl, h⟩ := Out.bind_eq_ok.mp h
      cases h
      have he : x.precision = y.precision := Classical.byContradiction (fun hn => hp (Or.inr hn))
      have hy := stored_some.mp hb
      rw [← he] at hy
      have hx := stored_some.mp ha
      exact stored_some.mpr (zipOut_forall (sub_closed hc _) hx hy hl)
  · cases h

theorem mul_scalar_stored (hc : c.Valid) {a : Option Vec} {z : Vec} {k : Int} (_ : VStored c a) (h : mul_scalar c a k = .ok z) : VStored c (some z) := by
  unfold mul_scalar at h
  split at h
  · cases h
  · obtain ⟨_, _, h⟩ := Out.bind_eq_ok.mp h
    obtain ⟨l, hl, h⟩ := Out.bind_eq_ok.mp h
    cases h
    exact stored_some.mpr (mapOut_forall (fun x => InPrec c _ x) hl (fun _ _ _ hb => mul_si_stored hc hb))

theorem add_scalar_stored (hc : c.Valid) {a : Option Vec} {z : Vec} {k : Int} (ha : VStored c a) (h : add_scalar c a k = .ok z) : VStored c (some z) := by
  unfold add_scalar at h
  split at h
  · cases h
  · split at h
    · cases h
    · obtain ⟨_, _, h⟩ := Out.bind_eq_ok.mp h
      obtain ⟨l, hl, h⟩ := Out.bind_eq_ok.mp h
      obtain ⟨last, h1, h⟩ := Out.bind_eq_ok.mp h
      cases h
      refine stored_some.mpr (fun y hy => ?_)
      rcases List.mem_append.mp hy with hy | hy
      · refine mapOut_forall (fun x => InPrec c _ x) hl (fun x hx b hb => ?_) y ((List.dropLast_sublist _).subset hy)
        rw [assign_eq hb]
        exact stored_some.mp ha x hx
      · rw [List.mem_singleton.mp hy]
        exact add_si_stored hc h1

theorem tag_inequality_stored (hc : c.Valid) {a : Option Vec} {z : Vec} (ha : VStored c a) (h : tag_inequality c a = .ok z) : VStored c (some z) := by
  unfold tag_inequality at h
  split at h
  · cases h
  · split at h
    · cases h
    · next x t ht =>
      obtain ⟨one, h1, h⟩ := Out.bind_eq_ok.mp h
      cases h
      refine stored_some.mpr (fun y hy => ?_)
      rcases List.mem_cons.mp hy with hy | hy
      · rw [hy]; exact set_si_small hc (by decide) h1
      · exact stored_some.mp ha y (by rw [ht]; exact List.mem_cons_of_mem _ hy)

theorem tag_equality_stored (hc : c.Valid) {a : Option Vec} {z : Vec} (ha : VStored c a) (h : tag_equality c a = .ok z) : VStored c (some z) := by
  unfold tag_equality at h
  split at h
  · cases h
  · split at h
    · cases h
    · next x t ht =>
      obtain ⟨one, h1, h⟩ := Out.bind_eq_ok.mp h
      cases h
      refine stored_some.mpr (fun y hy => ?_)
      rcases List.mem_cons.mp hy with hy | hy
      · rw [hy]; exact set_si_small hc (by decide) h1
      · exact stored_some.mp ha y (by rw [ht]; exact List.mem_cons_of_mem _ hy)

end Vec
end Osl
