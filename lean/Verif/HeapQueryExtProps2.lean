import Verif.HeapQueryExtProps
import Verif.HeapQueryTac
/-!
# The comparisons of the extensions only read the memory (C75): coordinates, scattering informations, extended bodies, arrays, annotations, lists
-/

set_option linter.unusedSectionVars false

namespace Osl.Mem

open Osl.Ext

variable [Allocator] {α β : Type}

/-! ## Coordinates -/

/-- C75: `osl_coordinates_equal` on two separate structures only reads them. -/
theorem coordinates_equal_query {p q : Ptr} {d e : Option Coordinates} {v : Bool} (h : Coordinates.equal d e = .ok v) :
    Query (optAt coordAt p d ∗ optAt coordAt q e) (coordEqual p q) v := by
  refine eqNodes_query (g := Coordinates.equal) (hn := fun h => coordAt_ne _ h) (ho := ?_) rfl (fun _ => rfl) (fun _ => rfl) (fun x y h => ?_) h
  · rintro p x h ⟨a, hh⟩
    exact own_pto hh
  · obtain ⟨b, hb, h⟩ := Out.bind_eq_ok.mp h
    have e : v = (b && [0, 2, 1, 3, 4].all fun i => decide (([x.line_start, x.line_end, x.column_start, x.column_end, x.indent] : List Int)[i]? =
        ([y.line_start, y.line_end, y.column_start, y.column_end, y.indent] : List Int)[i]?)) := by
      cases b with
      | false => cases h; rfl
      | true =>
        rw [if_neg (by simp)] at h
        simp only [List.all_cons, List.all_nil]
        by_cases h1 : x.line_start = y.line_start
        · rw [if_neg (by simp [h1])] at h
          by_cases h2 : x.column_start = y.column_start
          · rw [if_neg (by simp [h2])] at h
            by_cases h3 : x.line_end = y.line_end
            · rw [if_neg (by simp [h3])] at h
              by_cases h4 : x.column_end = y.column_end
              · rw [if_neg (by simp [h4])] at h
                by_cases h5 : x.indent = y.indent
                · rw [if_neg (by simp [h5])] at h; cases h; simp [h1, h2, h3, h4, h5]
                · rw [if_pos h5] at h; cases h; simp [h5]
              · rw [if_pos h4] at h; cases h; simp [h4]
            · rw [if_pos h3] at h; cases h; simp [h3]
          · rw [if_pos h2] at h; cases h; simp [h2]
        · rw [if_pos h1] at h; cases h; simp [h1]
    subst e
    unfold coordAt
    qnorm
    refine andAlso_query ?_ (fun _ => ?_)
    · unfold coordNames
      qnext (getPtr_query (p := p) (i := 0))
      qnext (getPtr_query (p := q) (i := 0))
      quse (uri_query hb)
    · quse (fields_query (p := p) (q := q) 5 rfl rfl [0, 2, 1, 3, 4] (by decide))

/-! ## Scattering informations -/

theorem scatinfos_loop : ∀ (a b t a' b' t' : List Int), b.length = a.length → t.length = a.length → a'.length = a.length → b'.length = a.length → t'.length = a.length →
    Scatinfos.equalLoop a b t a' b' t' = ((a.zip (b.zip t)).zip (a'.zip (b'.zip t'))).all fun z => decide (z.1.1 = z.2.1) && (decide (z.1.2.1 = z.2.2.1) && decide (z.1.2.2 = z.2.2.2))
  | [], [], [], [], [], [], _, _, _, _, _ => rfl
  | x :: a, y :: b, z :: t, x' :: a', y' :: b', z' :: t', h1, h2, h3, h4, h5 => by
    simp only [Scatinfos.equalLoop, List.zip_cons_cons, List.all_cons]
    rw [← scatinfos_loop a b t a' b' t' (by simpa using h1) (by simpa using h2) (by simpa using h3) (by simpa using h4) (by simpa using h5)]
    by_cases e1 : x = x' <;> by_cases e2 : y = y' <;> by_cases e3 : z = z' <;> simp [e1, e2, e3]
  | [], _ :: _, _, _, _, _, h, _, _, _, _ => by simp at h
  | [], _, _ :: _, _, _, _, _, h, _, _, _ => by simp at h
  | [], _, _, _ :: _, _, _, _, _, h, _, _ => by simp at h
  | [], _, _, _, _ :: _, _, _, _, _, h, _ => by simp at h
  | [], _, _, _, _, _ :: _, _, _, _, _, h => by simp at h
  | _ :: _, [], _, _, _, _, h, _, _, _, _ => by simp at h
  | _ :: _, _, [], _, _, _, _, h, _, _, _ => by simp at h
  | _ :: _, _, _, [], _, _, _, _, h, _, _ => by simp at h
  | _ :: _, _, _, _, [], _, _, _, _, h, _ => by simp at h
  | _ :: _, _, _, _, _, [], _, _, _, _, h => by simp at h

/-- C75: `osl_scatinfos_equal` on two separate structures only reads them. -/
theorem scatinfos_equal_query {p q : Ptr} {d e : Option Scatinfos} {v : Bool} (h : Scatinfos.equal d e = .ok v) :
    Query (optAt scatinfosAt p d ∗ optAt scatinfosAt q e) (scatinfosEqual p q) v := by
  refine eqNodes_query (g := Scatinfos.equal) (hn := fun h => scatinfosAt_ne _ h) (ho := ?_) rfl (fun _ => rfl) (fun _ => rfl) (fun x y h => ?_) h
  · rintro p x h ⟨a, b, t, hh⟩
    exact own_pto (pur_sep_iff.mp hh).2
  · unfold scatinfosAt
    qnorm
    rename_i a b t hx a' b' t' hy
    have h : (if x.parallel.length ≠ y.parallel.length then Out.ok false
      else .ok (Scatinfos.equalLoop x.parallel x.permutable x.type y.parallel y.permutable y.type)) = .ok v := h
    unfold scatinfosNodes
    qnext (getInt_query (p := p) (i := 0))
    qnext (getInt_query (p := q) (i := 0))
    by_cases hl : x.parallel.length = y.parallel.length
    · rw [if_neg (by simp [hl])] at h ⊢
      injection h with h
      obtain ⟨hx1, hx2⟩ := hx
      obtain ⟨hy1, hy2⟩ := hy
      rw [scatinfos_loop _ _ _ _ _ _ hx1 hx2 hl.symm (by omega) (by omega)] at h
      rw [← h]
      refine allBelow_query (by simp; omega) (fun j z hz => ?_)
      obtain ⟨h1, h2⟩ := zip_get hz
      obtain ⟨ha, h1⟩ := zip_get h1
      obtain ⟨hb, ht⟩ := zip_get h1
      obtain ⟨ha', h2⟩ := zip_get h2
      obtain ⟨hb', ht'⟩ := zip_get h2
      refine andAlso_query ?_ (fun _ => andAlso_query ?_ (fun _ => ?_))
      · quse (items_query (p := p) (q := q) (a := a) (b := a') rfl rfl ha ha')
      · quse (items_query (p := p) (q := q) (a := b) (b := b') rfl rfl hb hb')
      · quse (items_query (p := p) (q := q) (a := t) (b := t') rfl rfl ht ht')
    · rw [if_pos hl] at h
      rw [if_pos (by omega)]
      cases h
      exact Query.ret _

/-! ## Extended bodies -/

theorem map_getQ {f : α → β} {l : List α} {i : Nat} {x : α} (h : l[i]? = some x) : (l.map f)[i]? = some (f x) := by
  rw [List.getElem?_map, h]
  rfl

theorem access_found (z : Int × Int) : ∀ m : List (Int × Int), Extbody.found z m = m.any fun w => decide (z.1 = w.1) && decide (z.2 = w.2)
  | [] => rfl
  | w :: m => by
    simp only [Extbody.found, List.any_cons]
    rw [access_found z m]
    by_cases h1 : z.1 = w.1 <;> by_cases h2 : z.2 = w.2 <;> simp [h1, h2]

theorem access_loop (m : List (Int × Int)) : ∀ l, Extbody.equalLoop m l = l.all fun z => Extbody.found z m
  | [] => rfl
  | z :: l => by
    simp only [Extbody.equalLoop, List.all_cons]
    rw [access_loop m l]
    cases Extbody.found z m <;> rfl

/-- C75: `osl_extbody_equal` on two separate structures only reads them. -/
theorem extbody_equal_query {p q : Ptr} {d e : Option Extbody} {v : Bool} (h : Extbody.equal d e = .ok v) :
    Query (optAt extbodyAt p d ∗ optAt extbodyAt q e) (extbodyEqual p q) v := by
  refine eqNodes_query (g := Extbody.equal) (hn := fun h => extbodyAt_ne _ h) (ho := ?_) rfl (fun _ => rfl) (fun _ => rfl) (fun x y h => ?_) h
  · rintro p x h ⟨a, b, t, hh⟩
    exact own_pto hh
  · unfold extbodyAt
    qnorm
    rename_i s l b s' l' b'
    have h : (if x.access.length ≠ y.access.length then Out.ok false else if !Extbody.equalLoop y.access x.access then .ok false
      else .ok (Body.equal x.body y.body)) = .ok v := h
    unfold extbodyNodes
    qnext (getInt_query (p := p) (i := 0))
    qnext (getInt_query (p := q) (i := 0))
    by_cases hl : x.access.length = y.access.length
    · rw [if_neg (by simp [hl])] at h ⊢
      have e : v = (Extbody.equalLoop y.access x.access && Body.equal x.body y.body) := by
        cases hb : Extbody.equalLoop y.access x.access <;> rw [hb] at h <;> cases h <;> rfl
      subst e
      refine andAlso_query ?_ (fun _ => ?_)
      · rw [access_loop]
        refine allBelow_query (by simp) (fun i z hz => ?_)
        rw [access_found]
        refine anyBelow_query (by simp) (fun j w hw => ?_)
        refine andAlso_query ?_ (fun _ => ?_)
        · quse (items_query (p := p) (q := q) (a := s) (b := s') rfl rfl (map_getQ hz) (map_getQ hw))
        · quse (items_query (p := p) (q := q) (a := l) (b := l') rfl rfl (map_getQ hz) (map_getQ hw))
      · unfold extbodyBodies
        qnext (getPtr_query (p := p) (i := 2))
        qnext (getPtr_query (p := q) (i := 2))
        quse (body_equal_query (p := b) (q := b'))
    · rw [if_pos hl] at h
      rw [if_pos (by omega)]
      cases h
      exact Query.ret _

/-! ## Arrays -/

theorem arrays_found (z : Int × Str) : ∀ m : List (Int × Str), Arrays.found z m = m.any fun w => decide (z.1 = w.1) && decide (z.2 = w.2)
  | [] => rfl
  | w :: m => by
    simp only [Arrays.found, List.any_cons]
    rw [arrays_found z m]
    by_cases h1 : z.1 = w.1 <;> by_cases h2 : z.2 = w.2 <;> simp [h1, h2]

theorem arrays_loop (m : List (Int × Str)) : ∀ l, Arrays.equalLoop m l = l.all fun z => Arrays.found z m
  | [] => rfl
  | z :: l => by
    simp only [Arrays.equalLoop, List.all_cons]
    rw [arrays_loop m l]
    cases Arrays.found z m <;> rfl

/-- C75: `osl_arrays_equal` on two separate structures only reads them. -/
theorem arrays_equal_query {p q : Ptr} {d e : Option Arrays} {v : Bool} (h : Arrays.equal d e = .ok v) :
    Query (optAt arraysAt p d ∗ optAt arraysAt q e) (arraysEqual p q) v := by
  refine eqNodes_query (g := Arrays.equal) (hn := fun h => arraysAt_ne _ h) (ho := ?_) rfl (fun _ => rfl) (fun _ => rfl) (fun x y h => ?_) h
  · rintro p x h ⟨a, b, hh⟩
    exact own_pto hh
  · unfold arraysAt
    qnorm
    rename_i s l s' l'
    have h : (if x.pairs.length ≠ y.pairs.length then Out.ok false else .ok (Arrays.equalLoop y.pairs x.pairs)) = .ok v := h
    unfold arraysNodes
    qnext (getInt_query (p := p) (i := 0))
    qnext (getInt_query (p := q) (i := 0))
    by_cases hl : x.pairs.length = y.pairs.length
    · rw [if_neg (by simp [hl])] at h ⊢
      injection h with h
      rw [← h, arrays_loop]
      refine allBelow_query (by simp) (fun i z hz => ?_)
      rw [arrays_found]
      refine anyBelow_query (by simp) (fun j w hw => ?_)
      refine andAlso_query ?_ (fun _ => ?_)
      · quse (items_query (p := p) (q := q) (a := s) (b := s') rfl rfl (map_getQ hz) (map_getQ hw))
      · quse (names_query (p := p) (q := q) (a := l) (b := l') rfl rfl (map_getQ hz) (map_getQ hw))
    · rw [if_pos hl] at h
      rw [if_pos (by omega)]
      cases h
      exact Query.ret _

/-! ## Annotations and regions -/

theorem lines_loop : ∀ (a b : Lines), Lines.equalLoop a b = (a.zip b).all fun z => decide (z.1.1 = z.2.1) && decide (z.1.2 = z.2.2)
  | [], _ => by simp [Lines.equalLoop]
  | _ :: _, [] => by simp [Lines.equalLoop]
  | (t1, l1) :: a, (t2, l2) :: b => by
    simp only [Lines.equalLoop, List.zip_cons_cons, List.all_cons]
    rw [← lines_loop a b]
    by_cases h1 : t1 = t2 <;> by_cases h2 : l1 = l2 <;> simp [h1, h2]

theorem getText_query {p : Ptr} {is : List Int} {l : List Ptr} {k : Nat} {t : TextRec} (h0 : nth is k = .ok t.count) (h1 : nth l (2 * k) = .ok t.types)
    (h2 : nth l (2 * k + 1) = .ok t.lines) : Query (p ↦ .node is l) (getText p k) t := by
  unfold getText
  qnext (getInt_query h0)
  qnext (getPtr_query h1)
  qnext (getPtr_query h2)
  exact Query.ret _

theorem texts_query {p q : Ptr} {is js : List Int} {ps qs : List Ptr} {k : Nat} {t u : TextRec} {x y : Lines} (h0 : nth is k = .ok t.count) (h1 : nth ps (2 * k) = .ok t.types)
    (h2 : nth ps (2 * k + 1) = .ok t.lines) (h3 : nth js k = .ok u.count) (h4 : nth qs (2 * k) = .ok u.types) (h5 : nth qs (2 * k + 1) = .ok u.lines) :
    Query ((p ↦ .node is ps ∗ textAt t x) ∗ (q ↦ .node js qs ∗ textAt u y)) (textsEqual p q k) (Lines.equal x y) := by
  unfold textsEqual
  qnext (getText_query (p := p) (t := t) h0 h1 h2)
  qnext (getText_query (p := q) (t := u) h3 h4 h5)
  unfold textAt
  qnorm
  rename_i hx hy
  unfold textEqual Lines.equal
  rw [hx, hy]
  by_cases hl : x.length = y.length
  · rw [if_neg (by simp [hl]), if_neg (by simp [hl]), lines_loop]
    refine allBelow_query (by simp; omega) (fun j z hz => ?_)
    obtain ⟨h1, h2⟩ := zip_get hz
    refine andAlso_query ?_ (fun _ => ?_)
    · quse (ints_query (a := t.types) (b := u.types) (map_getQ h1) (map_getQ h2))
    · quse (strs_query (a := t.lines) (b := u.lines) (map_getQ h1) (map_getQ h2))
  · rw [if_pos hl, if_pos (by omega)]
    exact Query.ret _

/-- C75: `osl_annotation_equal` on two separate annotations only reads them. -/
theorem annotation_equal_query {p q : Ptr} {d e : Option Annotation} {v : Bool} (h : Annotation.equal d e = .ok v) :
    Query (optAt annAt p d ∗ optAt annAt q e) (annEqual p q) v := by
  refine eqNodes_query (g := Annotation.equal) (hn := fun h => annAt_ne _ h) (ho := ?_) rfl (fun _ => rfl) (fun _ => rfl) (fun x y h => ?_) h
  · rintro p x h ⟨a, b, hh⟩
    exact own_pto hh
  · injection h with h
    rw [← h]
    unfold annAt
    qnorm
    rename_i t u t' u'
    refine andAlso_query ?_ (fun _ => ?_)
    · quse (texts_query (p := p) (q := q) (k := 0) (t := t) (u := t') (x := x.pre) (y := y.pre) rfl rfl rfl rfl rfl rfl)
    · quse (texts_query (p := p) (q := q) (k := 1) (t := u) (u := u') (x := x.suf) (y := y.suf) rfl rfl rfl rfl rfl rfl)

end Osl.Mem
