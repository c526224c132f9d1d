import Verif.ScoplibText
/-!
# Nothing is lost in a SCoPLib text (C67)

The SCoPLib format has no output dimensions: the output columns of contexts (there is none), of scatterings and of accesses are not written.  Here: when they are
as the check of compatibility wants them, the matrices can be recovered from the text.
-/

namespace Osl
namespace Rel

open Scops (NegIdentity)

/-- A part which can be recovered from a SCoPLib text (specification): a domain without input dimensions, a context without output dimensions, a scattering with as
many rows as output dimensions, the output columns of which are the opposite of the identity. -/
structure Recoverable (c : Cfg) (type : Int) (p : Part) : Prop where
  valid : p.Valid c
  dims : p.Dims
  kind : p.type = type
  domain : type = TYPE_DOMAIN → p.nb_input_dims = 0
  context : type = TYPE_CONTEXT → p.nb_output_dims = 0
  scattering : type = TYPE_SCATTERING → p.nb_output_dims = p.nb_rows ∧ NegIdentity p

theorem domainRow_id {p : Part} (h : p.nb_input_dims = 0) (row : List Int) : domainRow p row = row := by
  unfold domainRow
  rw [h]
  simp

theorem otherRow_eq (p : Part) (first : Int) (row : List Int) : otherRow p false first row = first :: row.drop (1 + p.nb_output_dims.toNat) := by
  unfold otherRow
  simp only [Bool.false_eq_true, if_false, List.append_nil]
  congr 1
  have := List.take_append_drop p.nb_input_dims.toNat (row.drop (1 + p.nb_output_dims.toNat))
  rw [List.drop_drop] at this
  exact this

/-- A row is recovered from what is written of it, its index and the number of output dimensions. -/
theorem row_recovered {p : Part} (h : NegIdentity p) {i : Nat} (hi : i < p.m.length) (hl : 1 + p.nb_output_dims.toNat ≤ p.m[i].length) :
    p.m[i] = (p.m[i].headD 0) :: ((List.range p.nb_output_dims.toNat).map (fun j => if i = j then (-1 : Int) else 0) ++ p.m[i].drop (1 + p.nb_output_dims.toNat)) := by
  have key : ∀ (row : List Int) (o : Nat) (f : Nat → Int), 1 + o ≤ row.length → (∀ j, j < o → row[j + 1]? = some (f j)) →
      row = row.headD 0 :: ((List.range o).map f ++ row.drop (1 + o)) := by
    intro row o f hl hf
    cases row with
    | nil => simp at hl
    | cons a row =>
      simp only [List.headD_cons]
      congr 1
      rw [show 1 + o = o + 1 by omega, List.drop_succ_cons]
      have : row.take o = (List.range o).map f := by
        apply List.ext_getElem?
        intro j
        by_cases hj : j < o
        · rw [List.getElem?_take_of_lt hj]
          have := hf j hj
          simp only [List.getElem?_cons_succ] at this
          rw [this]
          simp [hj]
        · rw [List.getElem?_eq_none (by simp; omega), List.getElem?_eq_none (by simp; omega)]
      rw [← this, List.take_append_drop]
  exact key p.m[i] p.nb_output_dims.toNat (fun j => if i = j then -1 else 0) hl fun j hj => h i hi j (by omega)

theorem mats_split {n k n' k' : Int} {rows rows' rest rest' : List (List Int)} (h : (rows.length : Int) = n) (h' : (rows'.length : Int) = n')
    (e : ([n, k] :: rows) ++ rest = ([n', k'] :: rows') ++ rest') : n = n' ∧ k = k' ∧ rows = rows' ∧ rest = rest' := by
  rw [List.cons_append, List.cons_append] at e
  injection e with e1 e2
  injection e1 with e1 e3
  injection e3 with e3 _
  have := List.append_inj e2 (by omega)
  exact ⟨e1, e3, this.1, this.2⟩

/-- The matrix of a recoverable part: size and rows. -/
theorem partTable_plain {c : Cfg} {type : Int} {p : Part} (h : Recoverable c type p) : ∃ k rows, partTable p false = [p.nb_rows, k] :: rows ∧ (rows.length : Int) = p.nb_rows := by
  unfold partTable
  simp only [Bool.false_eq_true, if_false]
  split
  · exact ⟨_, _, rfl, by rw [List.length_map]; exact h.valid.rows⟩
  · exact ⟨_, _, rfl, by rw [List.length_map]; exact h.valid.rows⟩

theorem partTable_inj {c : Cfg} {type : Int} (ht : type = TYPE_DOMAIN ∨ type = TYPE_CONTEXT ∨ type = TYPE_SCATTERING) {p q : Part} (hp : Recoverable c type p)
    (hq : Recoverable c type q) (e : partTable p false = partTable q false) : p.m = q.m := by
  have rows_cols : ∀ {p : Part}, Recoverable c type p → ∀ (i : Nat) (hi : i < p.m.length), 1 + p.nb_output_dims.toNat ≤ p.m[i].length := by
    intro p hp i hi
    have h1 := hp.valid.cols p.m[i] (List.getElem_mem hi)
    have h2 := hp.dims
    unfold Part.Dims at h2
    omega
  unfold partTable at e
  simp only [Bool.false_eq_true, if_false, hp.kind, hq.kind] at e
  have rebuild : type ≠ TYPE_DOMAIN → p.nb_output_dims = q.nb_output_dims → NegIdentity p → NegIdentity q → p.m = q.m := by
    intro hnd ho h1 h2
    rw [if_neg hnd, if_neg hnd] at e
    injection e with _ e
    have hlen : p.m.length = q.m.length := by
      have := congrArg List.length e
      simpa using this
    apply List.ext_getElem hlen
    intro i hi hi'
    rw [row_recovered h1 hi (rows_cols hp i hi), row_recovered h2 hi' (rows_cols hq i hi')]
    have he : otherRow p false (p.m[i].headD 0) p.m[i] = otherRow q false (q.m[i].headD 0) q.m[i] := by
      have := congrArg (fun l => l[i]?) e
      simp only [List.getElem?_map, List.getElem?_eq_getElem hi, List.getElem?_eq_getElem hi', Option.map_some, Option.some.injEq] at this
      exact this
    rw [otherRow_eq, otherRow_eq] at he
    injection he with h3 h4
    rw [h3, h4, ho]
  rcases ht with rfl | rfl | rfl
  · simp only [if_true] at e
    injection e with _ e
    have f : ∀ {p : Part}, p.nb_input_dims = 0 → p.m.map (domainRow p) = p.m := by
      intro p h
      conv => rhs; rw [← List.map_id p.m]
      exact List.map_congr_left fun row _ => domainRow_id h row
    rw [f (hp.domain rfl), f (hq.domain rfl)] at e
    exact e
  · have h1 := hp.context rfl
    have h2 := hq.context rfl
    exact rebuild (by decide) (by rw [h1, h2]) (by intro i hi j hj; omega) (by intro i hi j hj; omega)
  · have h1 := hp.scattering rfl
    have h2 := hq.scattering rfl
    refine rebuild (by decide) ?_ h1.2 h2.2
    rw [h1.1, h2.1]
    rw [if_neg (by decide), if_neg (by decide)] at e
    injection e with e _
    injection e with e _

theorem partsTable_inj {c : Cfg} {type : Int} (ht : type = TYPE_DOMAIN ∨ type = TYPE_CONTEXT ∨ type = TYPE_SCATTERING) (nth : Bool) : ∀ {r r' : Rel} (k : Nat) (rest rest' : List (List Int)),
    (∀ p ∈ r, Recoverable c type p) → (∀ p ∈ r', Recoverable c type p) → r.length = r'.length →
    partsTable false nth false k r ++ rest = partsTable false nth false k r' ++ rest' → r.map (·.m) = r'.map (·.m) ∧ rest = rest'
  | [], [], _, _, _, _, _, _, e => ⟨rfl, by simpa [partsTable] using e⟩
  | [], _ :: _, _, _, _, _, _, hl, _ => by simp at hl
  | _ :: _, [], _, _, _, _, _, hl, _ => by simp at hl
  | p :: r, q :: r', k, rest, rest', hp, hq, hl, e => by
    have h1 := hp p (by simp)
    have h2 := hq q (by simp)
    simp only [partsTable, Bool.false_eq_true, if_false, List.append_assoc] at e
    have e := List.append_cancel_left e
    obtain ⟨c1, rows1, t1, l1⟩ := partTable_plain h1
    obtain ⟨c2, rows2, t2, l2⟩ := partTable_plain h2
    rw [t1, t2] at e
    obtain ⟨a1, a2, a3, a4⟩ := mats_split l1 l2 e
    have hm := partTable_inj ht h1 h2 (by rw [t1, t2, a1, a2, a3])
    obtain ⟨h3, h4⟩ := partsTable_inj ht nth (k + 1) rest rest' (fun p hp' => hp p (by simp [hp'])) (fun p hp' => hq p (by simp [hp'])) (by simpa using hl) a4
    exact ⟨by simp only [List.map_cons]; rw [hm, h3], h4⟩

theorem isScoplibAccess_recoverable {c : Cfg} {type : Int} (ht : type = TYPE_DOMAIN ∨ type = TYPE_CONTEXT ∨ type = TYPE_SCATTERING) {r : Rel} (h : ∀ p ∈ r, Recoverable c type p) :
    isScoplibAccess r = false := by
  cases r with
  | nil => rfl
  | cons p r =>
    simp only [isScoplibAccess, (h p (by simp)).kind]
    rcases ht with rfl | rfl | rfl <;> decide

/-- The tables of two recoverable relations, each followed by something: the parts are the same. -/
theorem relTable_inj {c : Cfg} {type : Int} (ht : type = TYPE_DOMAIN ∨ type = TYPE_CONTEXT ∨ type = TYPE_SCATTERING) {nth : Bool} {r r' : Rel} (hne : r ≠ []) (hne' : r' ≠ [])
    (h : ∀ p ∈ r, Recoverable c type p) (h' : ∀ p ∈ r', Recoverable c type p) {rest rest' : List (List Int)}
    (e : relTable nth false r ++ rest = relTable nth false r' ++ rest') : r.map (·.m) = r'.map (·.m) ∧ rest = rest' := by
  unfold relTable at e
  rw [isScoplibAccess_recoverable ht h, isScoplibAccess_recoverable ht h'] at e
  have hp0 := List.length_pos_iff.mpr hne
  have hp1 := List.length_pos_iff.mpr hne'
  have front : ∀ {r : Rel} (rest : List (List Int)), r ≠ [] → (∀ p ∈ r, Recoverable c type p) → ∃ a b t, partsTable false nth false 1 r ++ rest =
      (if nth then [[1]] else []) ++ ([a, b] :: t) := by
    intro r rest hne h
    cases r with
    | nil => exact absurd rfl hne
    | cons p r =>
      obtain ⟨k, rows, e, _⟩ := partTable_plain (h p (by simp))
      refine ⟨p.nb_rows, k, rows ++ (partsTable false nth false 2 r ++ rest), ?_⟩
      simp only [partsTable, Bool.false_eq_true, if_false, e]
      simp
  have hlen : r.length = r'.length := by
    by_cases h1 : r.length > 1
    · rw [if_pos h1] at e
      by_cases h2 : r'.length > 1
      · rw [if_pos h2] at e
        rw [List.append_assoc, List.append_assoc] at e
        simp only [List.singleton_append] at e
        injection e with e _
        injection e with e _
        omega
      · rw [if_neg h2, List.nil_append] at e
        obtain ⟨a, b, t, e2⟩ := front rest' hne' h'
        rw [e2] at e
        rw [List.append_assoc] at e
        simp only [List.singleton_append] at e
        cases nth with
        | true => simp only [if_true, List.singleton_append] at e; injection e with e _; injection e with e _; omega
        | false => simp only [Bool.false_eq_true, if_false, List.nil_append] at e; injection e with e _; injection e with e e3; cases e3
    · rw [if_neg h1, List.nil_append] at e
      by_cases h2 : r'.length > 1
      · rw [if_pos h2] at e
        obtain ⟨a, b, t, e2⟩ := front rest hne h
        rw [e2] at e
        rw [List.append_assoc] at e
        simp only [List.singleton_append] at e
        cases nth with
        | true => simp only [if_true, List.singleton_append] at e; injection e with e _; injection e with e _; omega
        | false => simp only [Bool.false_eq_true, if_false, List.nil_append] at e; injection e with e _; injection e with e e3; cases e3
      · omega
  rw [hlen, List.append_assoc, List.append_assoc] at e
  have e := List.append_cancel_left e
  exact partsTable_inj ht nth 1 rest rest' h h' hlen e

/-- C67: two recoverable relations with the same SCoPLib text have the same matrices. -/
theorem scoplib_text_lossless {c : Cfg} (hv : c.Valid) {names names' : Names} (hn : NamesNoNL names) (hn' : NamesNoNL names') {type : Int}
    (ht : type = TYPE_DOMAIN ∨ type = TYPE_CONTEXT ∨ type = TYPE_SCATTERING) {nth : Bool} {r r' : Rel} (hne : r ≠ []) (hne' : r' ≠ []) (hf : ∀ p ∈ r, PartFits c p)
    (hf' : ∀ p ∈ r', PartFits c p) (hd : ∀ ps ∈ suffixes r, Named c names ps.1 ps.2) (hd' : ∀ ps ∈ suffixes r', Named c names' ps.1 ps.2)
    (h : ∀ p ∈ r, Recoverable c type p) (h' : ∀ p ∈ r', Recoverable c type p)
    (e : spprint_scoplib c r (some names) nth false = spprint_scoplib c r' (some names') nth false) : r.map (·.m) = r'.map (·.m) := by
  have part : ∀ {r : Rel}, (∀ p ∈ r, Recoverable c type p) → ∀ p ∈ r, ScoplibPart (isScoplibAccess r) false p := by
    intro r h p hp
    refine ⟨?_, by simp⟩
    rw [isScoplibAccess_recoverable ht h, (h p hp).kind]
    rcases ht with rfl | rfl | rfl <;> decide
  obtain ⟨t, e1, h1⟩ := relation_scoplib_says hv hn hf hd (nth := nth) (fake := false) (part h)
  obtain ⟨t', e2, h2⟩ := relation_scoplib_says hv hn' hf' hd' (nth := nth) (fake := false) (part h')
  rw [e1, e2] at e
  injection e with e
  subst e
  have := SaysInts.unique h1 h2
  exact (relTable_inj ht hne hne' h h' (rest := []) (rest' := []) (by rw [this])).1

end Rel
end Osl
