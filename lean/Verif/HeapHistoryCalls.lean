import Verif.HeapHistoryProps
set_option linter.unusedSectionVars false
/-!
# Histories of calls in memory (C81): the calls

The rules for the shapes of the calls, each call, and the histories.
-/

namespace Osl.Client

open Osl.Mem Osl.Ext

variable [Allocator] {c : Cfg} {e : Option Str} {release : Str} {n : Nat}

/-- The memory before and after a call, or a history, which goes from the variables `σ` to `t`; `l` are the strings which are lost. -/
def Sound (c : Cfg) (e : Option Str) (n : Nat) {α : Type} (ps : List Ptr) (σ : State n) (m : M (List Ptr × α)) (t : State n × α) (l : List Str) : Prop :=
  Triple (varsAt c e n ps σ) m (fun s => pur (s.2 = t.2) ∗ varsAt c e n s.1 t.1 ∗ looseAt l)

section

variable {k j : Ty} {x y z : Nat} {ps : List Ptr} {σ : State n} {t : State n × Obs}

theorem sound1 {f : Value n k → Out (Value n k × Obs)} {m : Ptr → M (Ptr × Obs)}
    (hm : ∀ v r, f v = .ok r → ∀ p, Triple (valueAt c e n k p v) (m p) (fun s => pur (s.2 = r.2) ∗ valueAt c e n k s.1 r.1))
    (h : on1 k x f σ = .ok t) : Sound c e n ps σ (call1 x m ps) t [] := by
  unfold Sound
  rw [looseAt_nil]
  refine call1_spec (fun v r hr p => ?_) h
  simp only [sep_emp]
  exact hm v r hr p

theorem sound2 {f : Value n k → Value n j → Out (Value n k × Value n j × Obs)} {m : Ptr → Ptr → M (Ptr × Ptr × Obs)}
    (hm : ∀ v w r, f v w = .ok r → ∀ p q, Triple (valueAt c e n k p v ∗ valueAt c e n j q w) (m p q)
      (fun s => pur (s.2.2 = r.2.2) ∗ valueAt c e n k s.1 r.1 ∗ valueAt c e n j s.2.1 r.2.1))
    (h : on2 k x j y f σ = .ok t) : Sound c e n ps σ (call2 x y m ps) t [] := by
  unfold Sound
  simp only [looseAt_nil, sep_emp]
  exact call2_spec hm h

theorem sound3 {f : Value n k → Value n j → Out (Value n k)} {m : Ptr → Ptr → M Ptr}
    (hm : ∀ w u r, f w u = .ok r → ∀ q s, Triple (valueAt c e n k q w ∗ valueAt c e n j s u) (m q s)
      (fun p => (valueAt c e n k q w ∗ valueAt c e n j s u) ∗ valueAt c e n k p r))
    (h : on3 k x y j z f σ = .ok t) : Sound c e n ps σ (call3 x y z m ps) t [] := by
  unfold Sound
  simp only [looseAt_nil, sep_emp]
  exact call3_spec hm h

theorem sound3_same {f : Value n k → Out (Value n k)} {m : Ptr → Ptr → M Ptr}
    (hm : ∀ w r, f w = .ok r → ∀ q, Triple (valueAt c e n k q w) (m q q) (fun p => valueAt c e n k q w ∗ valueAt c e n k p r))
    (h : from_ k x k y f σ = .ok t) : Sound c e n ps σ (call3 x y y m ps) t [] := by
  unfold Sound
  simp only [looseAt_nil, sep_emp]
  exact call3_same hm h

theorem sound_make {f : Out (Value n k)} {m : M Ptr} {l : List Str} (hm : ∀ r, f = .ok r → Triple emp m (fun q => valueAt c e n k q r ∗ looseAt l))
    (h : make k x f σ = .ok t) : Sound c e n ps σ (assign x m ps) t l := by
  unfold make at h
  unfold Sound assign
  refine call1_spec (fun v r hr p => ?_) h
  obtain ⟨_, hn, hr⟩ := Out.bind_eq_ok.mp hr
  obtain ⟨r', hr', hr⟩ := Out.bind_eq_ok.mp hr
  cases hr
  rw [null_ok hn, valueAt_null]
  refine Triple.fact1 (fun _ => ?_)
  refine (hm r' hr').bind (fun q => Triple.ret (fun h0 hh => pur_sep_iff.mpr ⟨rfl, hh⟩))

theorem sound_make0 {f : Out (Value n k)} {m : M Ptr} (hm : ∀ r, f = .ok r → Triple emp m (fun q => valueAt c e n k q r))
    (h : make k x f σ = .ok t) : Sound c e n ps σ (assign x m ps) t [] :=
  sound_make (fun r hr => (hm r hr).post (fun q h0 hh => by rw [looseAt_nil, sep_emp]; exact hh)) h

theorem sound_from {f : Value n j → Out (Value n k)} {m : Ptr → M Ptr}
    (hm : ∀ w r, f w = .ok r → ∀ q, Triple (valueAt c e n j q w) (m q) (fun p => valueAt c e n j q w ∗ valueAt c e n k p r))
    (h : from_ k x j y f σ = .ok t) : Sound c e n ps σ (assignFrom x y m ps) t [] := by
  unfold from_ at h
  unfold assignFrom
  refine sound2 (fun v w r hr p q => ?_) h
  obtain ⟨_, hn, hr⟩ := Out.bind_eq_ok.mp hr
  obtain ⟨r', hr', hr⟩ := Out.bind_eq_ok.mp hr
  cases hr
  rw [null_ok hn, valueAt_null]
  refine Triple.fact (fun _ => ?_)
  refine (hm w r' hr' q).bind (fun p => Triple.ret (fun h0 hh => pur_sep_iff.mpr ⟨rfl, ?_⟩))
  rw [sep_comm]
  exact hh

theorem sound_act {f : Value n k → Out (Value n k)} {m : Ptr → M Unit}
    (hm : ∀ v r, f v = .ok r → ∀ p, Triple (valueAt c e n k p v) (m p) (fun _ => valueAt c e n k p r))
    (h : change k x f σ = .ok t) : Sound c e n ps σ (act x m ps) t [] := by
  unfold change at h
  unfold act
  refine sound1 (fun v r hr p => ?_) h
  obtain ⟨r', hr', hr⟩ := Out.bind_eq_ok.mp hr
  cases hr
  exact (hm v r' hr' p).bind (fun _ => Triple.ret (fun h0 hh => pur_sep_iff.mpr ⟨rfl, hh⟩))

theorem sound_release {m : Ptr → M Unit} (hm : ∀ v p, Triple (valueAt c e n k p v) (m p) (fun _ => emp))
    (h : change k x (fun _ => .ok []) σ = .ok t) : Sound c e n ps σ (release_ x m ps) t [] := by
  unfold change at h
  unfold release_
  refine sound1 (fun v r hr p => ?_) h
  cases hr
  refine (hm v p).bind (fun _ => Triple.ret (fun h0 hh => pur_sep_iff.mpr ⟨rfl, ?_⟩))
  rw [valueAt_nil]
  exact hh

theorem sound_renew {f : Value n k → Out (Value n k)} {m : Ptr → M Ptr}
    (hm : ∀ v r, f v = .ok r → ∀ p, Triple (valueAt c e n k p v) (m p) (fun q => valueAt c e n k q r))
    (h : change k x f σ = .ok t) : Sound c e n ps σ (renew x m ps) t [] := by
  unfold change at h
  unfold renew
  refine sound1 (fun v r hr p => ?_) h
  obtain ⟨r', hr', hr⟩ := Out.bind_eq_ok.mp hr
  cases hr
  exact (hm v r' hr' p).bind (fun _ => Triple.ret (fun h0 hh => pur_sep_iff.mpr ⟨rfl, hh⟩))

/-- A call which only looks at what `x` holds. -/
theorem sound_look {α : Type} {f : Value n k → Out Obs} {m : Ptr → M α} {g : α → Obs}
    (hm : ∀ v o, f v = .ok o → ∀ p, Triple (valueAt c e n k p v) (m p) (fun a => pur (g a = o) ∗ valueAt c e n k p v))
    (h : look k x f σ = .ok t) : Sound c e n ps σ (call1 x (fun p => do let a ← m p; pure (p, g a)) ps) t [] := by
  unfold look at h
  refine sound1 (fun v r hr p => ?_) h
  obtain ⟨o, ho, hr⟩ := Out.bind_eq_ok.mp hr
  cases hr
  exact (hm v o ho p).bind (fun a => Triple.fact (fun ha => Triple.ret (fun h0 hh => pur_sep_iff.mpr ⟨ha, hh⟩)))

theorem sound_answer {f : Value n k → Out Bool} {m : Ptr → M Bool}
    (hm : ∀ v b, f v = .ok b → ∀ p, Triple (valueAt c e n k p v) (m p) (fun a => pur (a = b) ∗ valueAt c e n k p v))
    (h : look k x (fun v => do let b ← f v; return .answer b) σ = .ok t) : Sound c e n ps σ (answer x m ps) t [] := by
  refine sound_look (fun v o ho p => ?_) h
  obtain ⟨b, hb, ho⟩ := Out.bind_eq_ok.mp ho
  cases ho
  exact (hm v b hb p).post (fun a h0 hh => by
    obtain ⟨h1, h2⟩ := pur_sep_iff.mp hh
    exact pur_sep_iff.mpr ⟨by rw [h1], h2⟩)

theorem sound_text {f : Value n k → Out Str} {m : Ptr → M Str}
    (hm : ∀ v b, f v = .ok b → ∀ p, Triple (valueAt c e n k p v) (m p) (fun a => pur (a = b) ∗ valueAt c e n k p v))
    (h : look k x (fun v => do let b ← f v; return .text b) σ = .ok t) : Sound c e n ps σ (text x m ps) t [] := by
  refine sound_look (fun v o ho p => ?_) h
  obtain ⟨b, hb, ho⟩ := Out.bind_eq_ok.mp ho
  cases ho
  exact (hm v b hb p).post (fun a h0 hh => by
    obtain ⟨h1, h2⟩ := pur_sep_iff.mp hh
    exact pur_sep_iff.mpr ⟨by rw [h1], h2⟩)

theorem sound_print {f : Value n k → Out Str} {φ : Value n k → Prop} {m : Ptr → M Str}
    (hm : ∀ v b, φ v → f v = .ok b → ∀ p, Triple (valueAt c e n k p v) (m p) (fun a => pur (a = b) ∗ valueAt c e n k p v))
    (h : look k x (fun v => do must (φ v); let b ← f v; return .text b) σ = .ok t) : Sound c e n ps σ (text x m ps) t [] := by
  refine sound_look (fun v o ho p => ?_) h
  obtain ⟨_, hφ, ho⟩ := Out.bind_eq_ok.mp ho
  obtain ⟨b, hb, ho⟩ := Out.bind_eq_ok.mp ho
  cases ho
  exact (hm v b (must_ok hφ) hb p).post (fun a h0 hh => by
    obtain ⟨h1, h2⟩ := pur_sep_iff.mp hh
    exact pur_sep_iff.mpr ⟨by rw [h1], h2⟩)

theorem sound_number {f : Value n k → Int} {m : Ptr → M Nat}
    (hm : ∀ v p, Triple (valueAt c e n k p v) (m p) (fun a => pur ((a : Int) = f v) ∗ valueAt c e n k p v))
    (h : look k x (fun v => .ok (.number (f v))) σ = .ok t) : Sound c e n ps σ (number x m ps) t [] := by
  refine sound_look (fun v o ho p => ?_) h
  cases ho
  exact (hm v p).post (fun a h0 hh => by
    obtain ⟨h1, h2⟩ := pur_sep_iff.mp hh
    exact pur_sep_iff.mpr ⟨by rw [h1], h2⟩)

theorem sound_integer {f : Value n k → Out Int} {m : Ptr → M Int}
    (hm : ∀ v b, f v = .ok b → ∀ p, Triple (valueAt c e n k p v) (m p) (fun a => pur (a = b) ∗ valueAt c e n k p v))
    (h : look k x (fun v => do let b ← f v; return .number b) σ = .ok t) : Sound c e n ps σ (integer x m ps) t [] := by
  refine sound_look (fun v o ho p => ?_) h
  obtain ⟨b, hb, ho⟩ := Out.bind_eq_ok.mp ho
  cases ho
  exact (hm v b hb p).post (fun a h0 hh => by
    obtain ⟨h1, h2⟩ := pur_sep_iff.mp hh
    exact pur_sep_iff.mpr ⟨by rw [h1], h2⟩)

theorem sound_with {f : Value n k → Value n j → Out (Value n k)} {m : Ptr → Ptr → M Unit}
    (hm : ∀ v w r, f v w = .ok r → ∀ p q, Triple (valueAt c e n k p v ∗ valueAt c e n j q w) (m p q) (fun _ => valueAt c e n k p r ∗ valueAt c e n j q w))
    (h : with_ k x j y f σ = .ok t) : Sound c e n ps σ (act2 x y m ps) t [] := by
  unfold with_ at h
  unfold act2
  refine sound2 (fun v w r hr p q => ?_) h
  obtain ⟨r', hr', hr⟩ := Out.bind_eq_ok.mp hr
  cases hr
  exact (hm v w r' hr' p q).bind (fun _ => Triple.ret (fun h0 hh => pur_sep_iff.mpr ⟨rfl, hh⟩))

theorem sound_give {f : Value n k → Value n j → Out (Value n k)} {m : Ptr → Ptr → M Ptr}
    (hm : ∀ v w r, f v w = .ok r → ∀ p q, Triple (valueAt c e n k p v ∗ valueAt c e n j q w) (m p q) (fun s => valueAt c e n k s r))
    (h : move k x j y f σ = .ok t) : Sound c e n ps σ (give x y m ps) t [] := by
  unfold move at h
  unfold give
  refine sound2 (fun v w r hr p q => ?_) h
  obtain ⟨r', hr', hr⟩ := Out.bind_eq_ok.mp hr
  cases hr
  refine (hm v w r' hr' p q).bind (fun _ => Triple.ret (fun h0 hh => pur_sep_iff.mpr ⟨rfl, ?_⟩))
  rw [valueAt_nil, sep_emp]
  exact hh

theorem sound_compare {f : Value n k → Value n k → Out Bool} {m : Ptr → Ptr → M Bool}
    (hm : ∀ v w b, f v w = .ok b → ∀ p q, Triple (valueAt c e n k p v ∗ valueAt c e n k q w) (m p q) (fun a => pur (a = b) ∗ valueAt c e n k p v ∗ valueAt c e n k q w))
    (hs : ∀ v p, Triple (valueAt c e n k p v) (m p p) (fun a => pur (a = true) ∗ valueAt c e n k p v))
    (h : compare k x y f σ = .ok t) : Sound c e n ps σ (answer2 x y m ps) t [] := by
  unfold compare at h
  split at h
  · next hxy =>
    subst hxy
    unfold look on1 at h
    obtain ⟨v, hv, h⟩ := Out.bind_eq_ok.mp h
    obtain ⟨r, hr, h⟩ := Out.bind_eq_ok.mp h
    cases hr
    cases h
    have hσ := get_ok hv
    unfold Sound answer2 call2
    refine Triple.of_fact (varsAt_pointer hσ) ?_
    rintro ⟨p, hp⟩
    refine slot_spec hp (slot_spec hp ?_)
    rw [varsAt_split hp hσ]
    refine Triple.bind (Q := fun s => pur (s = (p, p, Obs.answer true)) ∗ valueAt c e n k p v ∗ varsAt c e n (ps.set x 0) (σ.set x ⟨k, []⟩)) ?_ (fun s => ?_)
    · refine ((hs v p).frame _).bind (fun b => ?_)
      rw [sep_assoc]
      refine Triple.fact (fun hb => Triple.ret (fun h0 hh => pur_sep_iff.mpr ⟨by rw [hb], hh⟩))
    · refine Triple.fact (fun hs => Triple.ret (fun h0 hh => pur_sep_iff.mpr ⟨by rw [hs], ?_⟩))
      rw [hs, looseAt_nil, sep_emp]
      show varsAt c e n ((ps.set x p).set x p) (σ.set x ⟨k, v⟩) h0
      rw [List.set_set, varsAt_put (lt_of_get hp) (lt_of_get hσ)]
      exact hh
  · refine sound2 (fun v w r hr p q => ?_) h
    obtain ⟨b, hb, hr⟩ := Out.bind_eq_ok.mp hr
    cases hr
    exact (hm v w b hb p q).bind (fun a => Triple.fact (fun ha => Triple.ret (fun h0 hh => pur_sep_iff.mpr ⟨by rw [ha], hh⟩)))

end

end Osl.Client
