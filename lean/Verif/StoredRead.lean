import Verif.Stored
import Verif.HeapPrintLib
import Verif.HeapPrintTopProps3
/-!
# C82: reading, lists, statements, scops

What is read, and what the functions on lists, statements and scops make, can be stored, and printed.
-/

namespace Osl
namespace Rel
open OInt

variable {c : Cfg}

theorem sread_kind {p : Int} {s : Str} {old v : Int} {pos : Option Str} (h : OInt.sread c p s old = .ok (v, pos)) : kind c p ≠ none := by
  intro hk
  unfold OInt.sread OInt.sscanf at h
  rw [hk] at h
  cases h

theorem readVal_kind {p v : Int} {s s' : RState} (h : readVal c p s = .ok (v, s')) : kind c p ≠ none := by
  unfold readVal at h
  split at h
  · cases h
  · split at h
    · cases h
    · cases h
    · split at h
      · split at h
        · cases h
        · obtain ⟨x, h1, _⟩ := Out.bind_eq_ok.mp h
          exact sread_kind h1
      · split at h
        · cases h
        · obtain ⟨x, h1, _⟩ := Out.bind_eq_ok.mp h
          exact sread_kind h1

theorem readVals_fit (hc : c.Valid) {p : Int} : ∀ {n : Nat} {s s' : RState} {vs : List Int}, readVals c p n s = .ok (vs, s') → vs.length = n ∧ ∀ v ∈ vs, InPrec c p v
  | 0, _, _, _, h => by cases h; simp
  | n + 1, s, s', vs, h => by
    have h' := h
    simp only [readVals] at h
    obtain ⟨x, h1, h⟩ := Out.bind_eq_ok.mp h
    exact readVals_shape hc (readVal_kind h1) h'

theorem sRows_fit (hc : c.Valid) {p : Int} {k : Nat} : ∀ {n : Nat} {s s' : RState} {m : Matrix}, sRows c p k n s = .ok (m, s') →
    m.length = n ∧ ∀ row ∈ m, row.length = k ∧ ∀ v ∈ row, InPrec c p v
  | 0, _, _, _, h => by cases h; simp
  | n + 1, s, s', m, h => by
    simp only [sRows] at h
    split at h
    · cases h
    · obtain ⟨x, h1, h⟩ := Out.bind_eq_ok.mp h
      obtain ⟨y, h2, h⟩ := Out.bind_eq_ok.mp h
      cases h
      obtain ⟨g1, g2⟩ := sRows_fit hc h2
      refine ⟨by simp [g1], ?_⟩
      intro row hr
      rcases List.mem_cons.mp hr with rfl | hr
      · exact readVals_fit hc h1
      · exact g2 row hr

theorem fRows_fit (hc : c.Valid) {p : Int} {k : Nat} : ∀ {n : Nat} {last last' : Option (Str × Nat)} {file file' : Str} {m : Matrix},
    fRows c p k n last file = .ok (m, last', file') → m.length = n ∧ ∀ row ∈ m, row.length = k ∧ ∀ v ∈ row, InPrec c p v
  | 0, _, _, _, _, _, h => by cases h; simp
  | n + 1, last, last', file, file', m, h => by
    simp only [fRows] at h
    split at h
    · cases h
    · obtain ⟨x, h1, h⟩ := Out.bind_eq_ok.mp h
      obtain ⟨y, h2, h⟩ := Out.bind_eq_ok.mp h
      cases h
      obtain ⟨g1, g2⟩ := fRows_fit hc h2
      refine ⟨by simp [g1], ?_⟩
      intro row hr
      rcases List.mem_cons.mp hr with rfl | hr
      · exact readVals_fit hc h1
      · exact g2 row hr

theorem Header.part_stored {p : Int} {d : Header} (hr : 0 ≤ d.nb_rows) (hc : 0 ≤ d.nb_columns) {m : Matrix}
    (hm : m.length = d.nb_rows.toNat) (hm2 : ∀ row ∈ m, row.length = d.nb_columns.toNat ∧ ∀ v ∈ row, InPrec c p v) (type : Int) :
    PStored c (d.part p type m) := by
  refine ⟨⟨⟨?_, ?_⟩, hc⟩, fun row hrow => (hm2 row hrow).2⟩
  · show (m.length : Int) = d.nb_rows
    omega
  · intro row hrow
    show (row.length : Int) = d.nb_columns
    have := (hm2 row hrow).1
    omega

theorem sBody_stored (hc : c.Valid) {p : Int} {d : Header} {s s' : RState} {q : Part} (h : sBody c p d s = .ok (q, s')) : PStored c q := by
  unfold sBody at h
  obtain ⟨x, h1, h⟩ := Out.bind_eq_ok.mp h
  obtain ⟨y, h2, h⟩ := Out.bind_eq_ok.mp h
  cases h
  obtain ⟨g1, g2⟩ := pmalloc_nonneg h1
  obtain ⟨g3, g4⟩ := sRows_fit hc h2
  exact Header.part_stored g1 g2 g3 g4 _

theorem fBody_stored (hc : c.Valid) {p type : Int} {d : Header} {last last' : Option (Str × Nat)} {file file' : Str} {q : Part}
    (h : fBody c p type d last file = .ok (q, last', file')) : PStored c q := by
  unfold fBody at h
  obtain ⟨x, h1, h⟩ := Out.bind_eq_ok.mp h
  obtain ⟨y, h2, h⟩ := Out.bind_eq_ok.mp h
  cases h
  obtain ⟨g1, g2⟩ := pmalloc_nonneg h1
  obtain ⟨g3, g4⟩ := fRows_fit hc h2
  exact Header.part_stored g1 g2 g3 g4 _

theorem sParts_stored (hc : c.Valid) {p : Int} : ∀ {n : Nat} {s s' : RState} {r : Rel}, sParts c p n s = .ok (r, s') → Stored c r
  | 0, _, _, _, h => by cases h; exact stored_nil
  | n + 1, s, s', r, h => by
    simp only [sParts] at h
    obtain ⟨x, h1, h⟩ := Out.bind_eq_ok.mp h
    split at h
    · cases h
    · obtain ⟨y, h2, h⟩ := Out.bind_eq_ok.mp h
      obtain ⟨z, h3, h⟩ := Out.bind_eq_ok.mp h
      cases h
      exact stored_cons.mpr ⟨sBody_stored hc h2, sParts_stored hc h3⟩

theorem fParts_stored (hc : c.Valid) {p type : Int} : ∀ {n : Nat} {last : Option (Str × Nat)} {file file' : Str} {r : Rel},
    fParts c p type n last file = .ok (r, file') → Stored c r
  | 0, _, _, _, _, h => by cases h; exact stored_nil
  | n + 1, last, file, file', r, h => by
    simp only [fParts] at h
    obtain ⟨x, h1, h⟩ := Out.bind_eq_ok.mp h
    split at h
    · cases h
    · obtain ⟨y, h2, h⟩ := Out.bind_eq_ok.mp h
      obtain ⟨z, h3, h⟩ := Out.bind_eq_ok.mp h
      cases h
      exact stored_cons.mpr ⟨fBody_stored hc h2, fParts_stored hc h3⟩

/-- C82: whatever the file, and the precision, the integers of a relation which is read can be stored. -/
theorem relation_pread_stored (hc : c.Valid) {p : Int} {file rest : Str} {r : Rel} (h : pread c p file = .ok (r, rest)) : Stored c r := by
  unfold pread at h
  obtain ⟨x, h1, h⟩ := Out.bind_eq_ok.mp h
  obtain ⟨y, h2, h⟩ := Out.bind_eq_ok.mp h
  obtain ⟨y, file'⟩ := y
  dsimp only at h
  split at h
  · split at h
    · cases h
    · exact fParts_stored hc h
  · obtain ⟨z, h3, h⟩ := Out.bind_eq_ok.mp h
    cases h
    exact stored_cons.mpr ⟨fBody_stored hc h3, stored_nil⟩

/-- C82: the same for a string. -/
theorem relation_psread_stored (hc : c.Valid) {p : Int} {input : Str} {pos : Option Str} {r : Rel} (h : psread c p input = .ok (r, pos)) : Stored c r := by
  unfold psread at h
  obtain ⟨x, h1, h⟩ := Out.bind_eq_ok.mp h
  obtain ⟨y, h2, h⟩ := Out.bind_eq_ok.mp h
  have hy : Stored c y.1 := by
    unfold psread_polylib at h2
    obtain ⟨l, h3, h2⟩ := Out.bind_eq_ok.mp h2
    obtain ⟨l, s'⟩ := l
    dsimp only at h2
    split at h2
    · split at h2
      · cases h2
      · obtain ⟨z, h4, h2⟩ := Out.bind_eq_ok.mp h2
        cases h2
        exact sParts_stored hc h4
    · obtain ⟨z, h4, h2⟩ := Out.bind_eq_ok.mp h2
      cases h2
      exact stored_cons.mpr ⟨sBody_stored hc h4, stored_nil⟩
  obtain ⟨y, pos'⟩ := y
  dsimp only at h hy
  split at h
  · cases h
  · cases h
    exact stored_cons.mpr ⟨(stored_cons.mp hy).1, (stored_cons.mp hy).2⟩

theorem Stored.fits {r : Rel} (h : Stored c r) : Mem.RelFits c r := fun q hq => (h q hq).2

end Rel

/-! ## Lists of relations -/

namespace RList

variable {c : Cfg}

/-- Spec: the relations of the list can be stored. -/
def Stored (c : Cfg) (l : RList) : Prop := ∀ r ∈ l, Rel.Stored c r

theorem stored_nil : Stored c [] := fun r hr => by cases hr

theorem stored_cons {r : Rel} {l : RList} : Stored c (r :: l) ↔ Rel.Stored c r ∧ Stored c l := by
  simp only [Stored, List.mem_cons, forall_eq_or_imp]

theorem stored_append {l m : RList} (hl : Stored c l) (hm : Stored c m) : Stored c (l ++ m) := by
  intro q hq
  rcases List.mem_append.mp hq with h | h
  · exact hl q h
  · exact hm q h

theorem node_stored (hc : c.Valid) {r : Rel} {l : RList} (hr : Rel.Stored c r) (h : node c r = .ok l) : Stored c l := by
  unfold node at h
  split at h
  · cases h; exact stored_nil
  · obtain ⟨e, h1, h⟩ := Out.bind_eq_ok.mp h
    cases h
    exact stored_cons.mpr ⟨Rel.clone_stored hc hr h1, stored_nil⟩

theorem clone_stored (hc : c.Valid) {l m : RList} (hl : Stored c l) (h : clone c l = .ok m) : Stored c m :=
  Rel.mapOut_forall (Rel.Stored c) h (fun a ha b hb => Rel.clone_stored hc (hl a ha) hb)

theorem concat_stored (hc : c.Valid) {l m q : RList} (hl : Stored c l) (hm : Stored c m) (h : concat c l m = .ok q) : Stored c q := by
  unfold concat at h
  split at h
  · exact clone_stored hc hm h
  · exact clone_stored hc hl h
  · obtain ⟨a, h1, h⟩ := Out.bind_eq_ok.mp h
    obtain ⟨b, h2, h⟩ := Out.bind_eq_ok.mp h
    cases h
    exact stored_append (clone_stored hc hl h1) (clone_stored hc hm h2)

theorem push_stored {l m : RList} (hl : Stored c l) (hm : Stored c m) : Stored c (push l m) := by
  unfold push
  split
  · exact hl
  · exact stored_cons.mpr ⟨(stored_cons.mp hm).1, hl⟩

theorem pop_stored {l : RList} (hl : Stored c l) : Stored c (pop l).1 ∧ Stored c (pop l).2 := by
  cases l with
  | nil => exact ⟨stored_nil, stored_nil⟩
  | cons r l => exact ⟨stored_cons.mpr ⟨(stored_cons.mp hl).1, stored_nil⟩, (stored_cons.mp hl).2⟩

theorem dup_stored (hc : c.Valid) {l q : RList} (hl : Stored c l) (h : dup c l = .ok q) : Stored c q := by
  unfold dup at h
  obtain ⟨a, h1, h⟩ := Out.bind_eq_ok.mp h
  cases h
  have hp := pop_stored hl
  exact push_stored (push_stored hp.2 (clone_stored hc hp.1 h1)) hp.1

theorem set_type_stored {l : RList} (hl : Stored c l) (t : Int) : Stored c (set_type l t) := by
  intro q hq
  obtain ⟨q0, h0, rfl⟩ := List.mem_map.mp hq
  have := hl q0 h0
  cases q0 with
  | nil => exact Rel.stored_nil
  | cons p r => exact Rel.stored_cons.mpr ⟨(Rel.stored_cons.mp this).1, (Rel.stored_cons.mp this).2⟩

theorem filterLoop_stored {t : Int} : ∀ {l kept : RList}, Stored c kept → Stored c l → Stored c (filterLoop t kept l)
  | [], _, hk, _ => hk
  | e :: l, kept, hk, hl => by
    unfold filterLoop
    split
    · exact filterLoop_stored (stored_append hk (stored_cons.mpr ⟨(stored_cons.mp hl).1, stored_nil⟩)) (stored_cons.mp hl).2
    · exact filterLoop_stored hk (stored_cons.mp hl).2

theorem filter_stored (hc : c.Valid) {l q : RList} {t : Int} (hl : Stored c l) (h : filter c l t = .ok q) : Stored c q := by
  unfold filter at h
  obtain ⟨a, h1, h⟩ := Out.bind_eq_ok.mp h
  cases h
  exact filterLoop_stored stored_nil (clone_stored hc hl h1)

theorem readLoop_stored (hc : c.Valid) {p : Int} : ∀ {n : Nat} {file rest : Str} {l : RList}, readLoop c p n file = .ok (l, rest) → Stored c l
  | 0, _, _, _, h => by cases h; exact stored_nil
  | n + 1, file, rest, l, h => by
    simp only [readLoop] at h
    obtain ⟨x, h1, h⟩ := Out.bind_eq_ok.mp h
    obtain ⟨y, h2, h⟩ := Out.bind_eq_ok.mp h
    cases h
    exact stored_cons.mpr ⟨Rel.relation_pread_stored hc h1, readLoop_stored hc h2⟩

/-- C82: the relations of a list which is read can be stored. -/
theorem list_pread_stored (hc : c.Valid) {p : Int} {file rest : Str} {l : RList} (h : pread c p file = .ok (l, rest)) : Stored c l := by
  unfold pread at h
  obtain ⟨x, h1, h⟩ := Out.bind_eq_ok.mp h
  simp only at h
  split at h
  · cases h
  · unfold readElts at h
    split at h
    · cases h; exact stored_cons.mpr ⟨Rel.stored_nil, stored_nil⟩
    · exact readLoop_stored hc h

end RList

/-! ## Generics -/

open Mem (goodList)

/-- The functions of the interfaces make data which can be printed: what they read, and the copies of such data. -/
structure Keeps {D : Type} (E : Env D) (good : D → Prop) : Prop where
  sread : ∀ {k s d}, E.sread k s = .ok (some d) → good d
  clone : ∀ {k x d}, (∀ y, x = some y → good y) → E.clone k x = .ok (some d) → good d

namespace GList

variable {D : Type} {E : Env D} {good : D → Prop}

theorem good_nil : goodList good [] := fun g hg => by cases hg

theorem good_cons {g : Generic D} {l : GList D} : goodList good (g :: l) ↔ (∀ x, g.data = some x → good x) ∧ goodList good l := by
  simp only [goodList, List.mem_cons, forall_eq_or_imp]

theorem good_append {l m : GList D} (hl : goodList good l) (hm : goodList good m) : goodList good (l ++ m) := by
  intro g hg
  rcases List.mem_append.mp hg with h | h
  · exact hl g h
  · exact hm g h

theorem add_good {l m q : GList D} (hl : goodList good l) (hm : goodList good m) (h : add l m = .ok q) : goodList good q := by
  unfold add at h
  obtain ⟨_, _, h⟩ := Out.bind_eq_ok.mp h
  cases h
  exact good_append hl hm

theorem ncloneLoop_good (K : Keeps E good) : ∀ {n : Nat} {l acc q : GList D}, goodList good l → goodList good acc → ncloneLoop E n l acc = .ok q → goodList good q
  | 0, _, _, _, _, ha, h => by simp only [ncloneLoop] at h; cases h; exact ha
  | _ + 1, [], _, _, _, ha, h => by simp only [ncloneLoop] at h; cases h; exact ha
  | n + 1, g :: gs, acc, q, hl, ha, h => by
    simp only [ncloneLoop] at h
    split at h
    · exact ncloneLoop_good K (good_cons.mp hl).2 ha h
    · obtain ⟨x, h1, h⟩ := Out.bind_eq_ok.mp h
      obtain ⟨is, h2, h⟩ := Out.bind_eq_ok.mp h
      obtain ⟨acc', h3, h⟩ := Out.bind_eq_ok.mp h
      refine ncloneLoop_good K (good_cons.mp hl).2 (add_good ha (good_cons.mpr ⟨?_, good_nil⟩) h3) h
      intro y hy
      dsimp only at hy
      subst hy
      exact K.clone (good_cons.mp hl).1 h1

theorem clone_good (K : Keeps E good) {l q : GList D} (hl : goodList good l) (h : clone E l = .ok q) : goodList good q :=
  ncloneLoop_good K hl good_nil h

theorem readTagged_good (K : Keeps E good) {registry : Ifaces} {tag : Option Str} {rest rest' : Str} {l : GList D}
    (h : readTagged E registry tag rest = .ok (l, rest')) : goodList good l := by
  unfold readTagged at h
  split at h
  · cases h; exact good_nil
  · cases h; exact good_nil
  · split at h
    · cases h; exact good_nil
    · obtain ⟨x, h1, h⟩ := Out.bind_eq_ok.mp h
      dsimp only at h
      split at h
      · cases h; exact good_nil
      · obtain ⟨is, h2, h⟩ := Out.bind_eq_ok.mp h
        obtain ⟨d, h3, h⟩ := Out.bind_eq_ok.mp h
        cases h
        refine good_cons.mpr ⟨?_, good_nil⟩
        intro y hy
        dsimp only at hy
        subst hy
        exact K.sread h3

theorem sread_one_good (K : Keeps E good) {registry : Ifaces} {s rest : Str} {l : GList D} (h : sread_one E registry s = .ok (l, rest)) : goodList good l := by
  unfold sread_one at h
  obtain ⟨x, h1, h⟩ := Out.bind_eq_ok.mp h
  exact readTagged_good K h

theorem fread_one_good (K : Keeps E good) {registry : Ifaces} {s rest : Str} {l : GList D} (h : fread_one E registry s = .ok (l, rest)) : goodList good l := by
  unfold fread_one at h
  obtain ⟨x, h1, h⟩ := Out.bind_eq_ok.mp h
  exact readTagged_good K h

theorem sreadLoop_good (K : Keeps E good) {registry : Ifaces} : ∀ {n : Nat} {s rest : Str} {acc l : GList D}, goodList good acc →
    sreadLoop E registry n s acc = .ok (l, rest) → goodList good l
  | 0, _, _, _, _, _, h => by simp only [sreadLoop] at h; cases h
  | _ + 1, [], _, _, _, ha, h => by simp only [sreadLoop] at h; cases h; exact ha
  | n + 1, a :: s, rest, acc, l, ha, h => by
    simp only [sreadLoop] at h
    obtain ⟨x, h1, h⟩ := Out.bind_eq_ok.mp h
    obtain ⟨acc', h2, h⟩ := Out.bind_eq_ok.mp h
    exact sreadLoop_good K (add_good ha (sread_one_good K h1) h2) h

theorem read_good (K : Keeps E good) {registry : Ifaces} {s rest : Str} {l : GList D} (h : read E registry s = .ok (l, rest)) : goodList good l := by
  unfold read at h
  obtain ⟨x, h1, h⟩ := Out.bind_eq_ok.mp h
  dsimp only at h
  split at h
  · cases h
  · obtain ⟨y, h2, h⟩ := Out.bind_eq_ok.mp h
    cases h
    exact sreadLoop_good K good_nil h2

end GList

/-! ## Statements -/

namespace Stmts

variable {D : Type} {c : Cfg} {L : Lib D} {good : D → Prop}

/-- Spec: the relations of the statement can be stored, its extensions can be printed. -/
structure Kept (c : Cfg) (good : D → Prop) (s : Stmt D) : Prop where
  domain : Rel.Stored c s.domain
  scattering : Rel.Stored c s.scattering
  access : RList.Stored c s.access
  extension : goodList good s.extension

/-- Spec: so are all the statements. -/
def Stored (c : Cfg) (good : D → Prop) (l : Stmts D) : Prop := ∀ s ∈ l, Kept c good s

theorem stored_nil : Stored c good [] := fun s hs => by cases hs

theorem stored_cons {s : Stmt D} {l : Stmts D} : Stored c good (s :: l) ↔ Kept c good s ∧ Stored c good l := by
  simp only [Stored, List.mem_cons, forall_eq_or_imp]

theorem stored_append {l m : Stmts D} (hl : Stored c good l) (hm : Stored c good m) : Stored c good (l ++ m) := by
  intro q hq
  rcases List.mem_append.mp hq with h | h
  · exact hl q h
  · exact hm q h

theorem Stored.fit {l : Stmts D} (h : Stored c good l) : Mem.StmtsFit c good l := fun s hs =>
  ⟨⟨(h s hs).domain.fits, (h s hs).scattering.fits, fun e he => ((h s hs).access e he).fits⟩, (h s hs).extension⟩

theorem cloneOne_kept (hc : c.Valid) (K : Keeps L.toEnv good) {s q : Stmt D} (hs : Kept c good s) (h : cloneOne c L s = .ok q) : Kept c good q := by
  unfold cloneOne at h
  obtain ⟨d, h1, h⟩ := Out.bind_eq_ok.mp h
  obtain ⟨sc, h2, h⟩ := Out.bind_eq_ok.mp h
  obtain ⟨a, h3, h⟩ := Out.bind_eq_ok.mp h
  obtain ⟨e, h4, h⟩ := Out.bind_eq_ok.mp h
  cases h
  exact ⟨Rel.clone_stored hc hs.domain h1, Rel.clone_stored hc hs.scattering h2, RList.clone_stored hc hs.access h3, GList.clone_good K hs.extension h4⟩

theorem nclone_stored (hc : c.Valid) (K : Keeps L.toEnv good) {l q : Stmts D} {n : Int} (hl : Stored c good l) (h : nclone c L l n = .ok q) : Stored c good q := by
  refine Rel.mapOut_forall (Kept c good) h (fun a ha b hb => cloneOne_kept hc K (hl a ?_) hb)
  split at ha
  · exact ha
  · exact List.mem_of_mem_take ha

theorem clone_one_safe_stored (hc : c.Valid) {r s : Rel} (hr : Rel.Stored c r) (h : clone_one_safe c r = .ok s) : Rel.Stored c s := by
  unfold clone_one_safe at h
  split at h
  · cases h; exact Rel.stored_nil
  · exact Rel.nclone_stored hc hr h

theorem unionOne_kept (hc : c.Valid) (K : Keeps L.toEnv good) {s q : Stmt D} {d r : Rel} (hs : Kept c good s) (hd : Rel.Stored c d) (hr : Rel.Stored c r)
    (h : unionOne c L s d r = .ok q) : Kept c good q := by
  unfold unionOne at h
  obtain ⟨d', h1, h⟩ := Out.bind_eq_ok.mp h
  obtain ⟨sc, h2, h⟩ := Out.bind_eq_ok.mp h
  obtain ⟨a, h3, h⟩ := Out.bind_eq_ok.mp h
  obtain ⟨e, h4, h⟩ := Out.bind_eq_ok.mp h
  cases h
  exact ⟨clone_one_safe_stored hc hd h1, clone_one_safe_stored hc hr h2, RList.clone_stored hc hs.access h3, GList.clone_good K hs.extension h4⟩

theorem unionInner_stored (hc : c.Valid) (K : Keeps L.toEnv good) {s : Stmt D} {d : Rel} (hs : Kept c good s) (hd : Rel.Stored c d) :
    ∀ {r : Rel} {q : Stmts D}, Rel.Stored c r → unionInner c L s d r = .ok q → Stored c good q
  | [], q, hr, h => by
    simp only [unionInner] at h
    obtain ⟨x, h1, h⟩ := Out.bind_eq_ok.mp h
    cases h
    exact stored_cons.mpr ⟨unionOne_kept hc K hs hd hr h1, stored_nil⟩
  | [p], q, hr, h => by
    simp only [unionInner] at h
    obtain ⟨x, h1, h⟩ := Out.bind_eq_ok.mp h
    cases h
    exact stored_cons.mpr ⟨unionOne_kept hc K hs hd hr h1, stored_nil⟩
  | p :: p' :: r, q, hr, h => by
    simp only [unionInner] at h
    obtain ⟨x, h1, h⟩ := Out.bind_eq_ok.mp h
    obtain ⟨y, h2, h⟩ := Out.bind_eq_ok.mp h
    cases h
    exact stored_cons.mpr ⟨unionOne_kept hc K hs hd hr h1, unionInner_stored hc K hs hd (Rel.stored_cons.mp hr).2 h2⟩

theorem unionOuter_stored (hc : c.Valid) (K : Keeps L.toEnv good) {s : Stmt D} (hs : Kept c good s) :
    ∀ {d : Rel} {q : Stmts D}, Rel.Stored c d → unionOuter c L s d = .ok q → Stored c good q
  | [], q, hd, h => by
    simp only [unionOuter] at h
    exact unionInner_stored hc K hs hd hs.scattering h
  | [p], q, hd, h => by
    simp only [unionOuter] at h
    exact unionInner_stored hc K hs hd hs.scattering h
  | p :: p' :: d, q, hd, h => by
    simp only [unionOuter] at h
    obtain ⟨x, h1, h⟩ := Out.bind_eq_ok.mp h
    obtain ⟨y, h2, h⟩ := Out.bind_eq_ok.mp h
    cases h
    exact stored_append (unionInner_stored hc K hs hd hs.scattering h1) (unionOuter_stored hc K hs (Rel.stored_cons.mp hd).2 h2)

theorem remove_unions_stored (hc : c.Valid) (K : Keeps L.toEnv good) {l q : Stmts D} (hl : Stored c good l) (h : remove_unions c L l = .ok q) : Stored c good q := by
  cases l with
  | nil => simp only [remove_unions] at h; cases h; exact stored_nil
  | cons s l =>
    simp only [remove_unions] at h
    exact unionOuter_stored hc K (stored_cons.mp hl).1 (stored_cons.mp hl).1.domain h

theorem headRel_stored {l : RList} (hl : RList.Stored c l) : Rel.Stored c (headRel l) := by
  cases l with
  | nil => exact Rel.stored_nil
  | cons r l => exact (RList.stored_cons.mp hl).1

theorem dispatch_stored (hc : c.Valid) {l : RList} {d s : Rel} {a : RList} (hl : RList.Stored c l) (h : dispatch c l = .ok (d, s, a)) :
    Rel.Stored c d ∧ Rel.Stored c s ∧ RList.Stored c a := by
  unfold dispatch at h
  obtain ⟨dl, h1, h⟩ := Out.bind_eq_ok.mp h
  split at h
  · cases h
  · obtain ⟨sl, h2, h⟩ := Out.bind_eq_ok.mp h
    split at h
    · cases h
    · obtain ⟨al, h3, h⟩ := Out.bind_eq_ok.mp h
      split at h
      · cases h
      · cases h
        exact ⟨headRel_stored (RList.filter_stored hc hl h1), headRel_stored (RList.filter_stored hc hl h2), RList.filter_stored hc hl h3⟩

theorem readExts_good {E : Env D} (K : Keeps E good) {registry : Ifaces} : ∀ {n : Nat} {file rest : Str} {acc l : GList D}, goodList good acc →
    readExts E registry n file acc = .ok (l, rest) → goodList good l
  | 0, _, _, _, _, ha, h => by simp only [readExts] at h; cases h; exact ha
  | n + 1, file, rest, acc, l, ha, h => by
    simp only [readExts] at h
    obtain ⟨x, h1, h⟩ := Out.bind_eq_ok.mp h
    obtain ⟨acc', h2, h⟩ := Out.bind_eq_ok.mp h
    exact readExts_good K (GList.add_good ha (GList.fread_one_good K h1) h2) h

theorem pread_kept (hc : c.Valid) (K : Keeps L.toEnv good) {registry : Ifaces} {p : Int} {file rest : Str} {s : Stmt D}
    (h : pread c L registry p file = .ok (s, rest)) : Kept c good s := by
  unfold pread at h
  obtain ⟨x, h1, h⟩ := Out.bind_eq_ok.mp h
  obtain ⟨y, h2, h⟩ := Out.bind_eq_ok.mp h
  obtain ⟨z, h3, h⟩ := Out.bind_eq_ok.mp h
  obtain ⟨w, h4, h⟩ := Out.bind_eq_ok.mp h
  cases h
  obtain ⟨g1, g2, g3⟩ := dispatch_stored hc (RList.list_pread_stored hc h1) h2
  exact ⟨g1, g2, g3, readExts_good K GList.good_nil h4⟩

end Stmts

/-! ## Scops -/

namespace Scops

variable {D : Type} {c : Cfg} {good : D → Prop}

/-- Spec: the relations of the scop can be stored, its extensions can be printed. -/
structure Kept (c : Cfg) (good : D → Prop) (s : Scop D) : Prop where
  context : Rel.Stored c s.context
  parameters : goodList good s.parameters
  statement : Stmts.Stored c good s.statement
  extension : goodList good s.extension

/-- Spec: so are all the scops. -/
def Stored (c : Cfg) (good : D → Prop) (l : Scops D) : Prop := ∀ s ∈ l, Kept c good s

theorem stored_nil : Stored c good [] := fun s hs => by cases hs

theorem stored_cons {s : Scop D} {l : Scops D} : Stored c good (s :: l) ↔ Kept c good s ∧ Stored c good l := by
  simp only [Stored, List.mem_cons, forall_eq_or_imp]

theorem stored_append {l m : Scops D} (hl : Stored c good l) (hm : Stored c good m) : Stored c good (l ++ m) := by
  intro q hq
  rcases List.mem_append.mp hq with h | h
  · exact hl q h
  · exact hm q h

theorem Kept.fits {s : Scop D} (h : Kept c good s) : Mem.ScopFits c good s := ⟨h.context.fits, h.parameters, h.statement.fit, h.extension⟩

theorem malloc_kept : Kept c good (malloc : Scop D) := ⟨Rel.stored_nil, GList.good_nil, Stmts.stored_nil, GList.good_nil⟩

theorem cloneOne_kept {L : Lib D} (hc : c.Valid) (K : Keeps L.toEnv good) {s q : Scop D} (hs : Kept c good s) (h : cloneOne c L s = .ok q) : Kept c good q := by
  unfold cloneOne at h
  obtain ⟨d, h1, h⟩ := Out.bind_eq_ok.mp h
  obtain ⟨par, h2, h⟩ := Out.bind_eq_ok.mp h
  obtain ⟨st, h3, h⟩ := Out.bind_eq_ok.mp h
  obtain ⟨reg, h4, h⟩ := Out.bind_eq_ok.mp h
  obtain ⟨e, h5, h⟩ := Out.bind_eq_ok.mp h
  cases h
  exact ⟨Rel.clone_stored hc hs.context h1, GList.clone_good K hs.parameters h2, Stmts.nclone_stored hc K hs.statement h3, GList.clone_good K hs.extension h5⟩

theorem clone_stored {L : Lib D} (hc : c.Valid) (K : Keeps L.toEnv good) {l q : Scops D} (hl : Stored c good l) (h : clone c L l = .ok q) : Stored c good q :=
  Rel.mapOut_forall (Kept c good) h (fun a ha b hb => cloneOne_kept hc K (hl a ha) hb)

theorem unionsLoop_stored {L : Lib D} (hc : c.Valid) (K : Keeps L.toEnv good) : ∀ {l acc q : Stmts D} {ptr : Option Nat}, Stmts.Stored c good l → Stmts.Stored c good acc →
    unionsLoop c L l acc ptr = .ok q → Stmts.Stored c good q
  | [], _, _, _, _, ha, h => by simp only [unionsLoop] at h; cases h; exact ha
  | s :: l, acc, q, ptr, hl, ha, h => by
    simp only [unionsLoop] at h
    obtain ⟨new, h1, h⟩ := Out.bind_eq_ok.mp h
    have hn := Stmts.remove_unions_stored hc K hl h1
    split at h
    · exact unionsLoop_stored hc K (Stmts.stored_cons.mp hl).2 hn h
    · exact unionsLoop_stored hc K (Stmts.stored_cons.mp hl).2 (Stmts.stored_append (fun s hs => ha s (List.mem_of_mem_take hs)) hn) h

theorem remove_unions_stored {L : Lib D} (hc : c.Valid) (K : Keeps L.toEnv good) {l q : Scops D} (hl : Stored c good l) (h : remove_unions c L l = .ok q) :
    Stored c good q := by
  refine Rel.mapOut_forall (Kept c good) h (fun a ha b hb => ?_)
  have hs := hl a ha
  unfold unionsOne at hb
  obtain ⟨st, h1, hb⟩ := Out.bind_eq_ok.mp hb
  obtain ⟨ctx, h2, hb⟩ := Out.bind_eq_ok.mp hb
  obtain ⟨ext, h3, hb⟩ := Out.bind_eq_ok.mp hb
  obtain ⟨par, h4, hb⟩ := Out.bind_eq_ok.mp hb
  obtain ⟨reg, h5, hb⟩ := Out.bind_eq_ok.mp hb
  cases hb
  exact ⟨Rel.clone_stored hc hs.context h2, GList.clone_good K hs.parameters h4, unionsLoop_stored hc K hs.statement Stmts.stored_nil h1, GList.clone_good K hs.extension h3⟩

theorem normalize_stored (hc : c.Valid) {l q : Scops D} (hl : Stored c good l) (h : normalize_scattering c l = .ok q) : Stored c good q := by
  cases l with
  | nil => simp only [normalize_scattering] at h; cases h; exact stored_nil
  | cons x l =>
    simp only [normalize_scattering] at h
    obtain ⟨st, h1, h⟩ := Out.bind_eq_ok.mp h
    cases h
    have hx := (stored_cons.mp hl).1
    refine stored_cons.mpr ⟨⟨hx.context, hx.parameters, ?_, hx.extension⟩, (stored_cons.mp hl).2⟩
    refine Rel.mapOut_forall (Stmts.Kept c good) h1 (fun a ha b hb => ?_)
    have hs := hx.statement a ha
    unfold normalizeOne at hb
    split at hb
    · cases hb; exact hs
    · next e =>
      obtain ⟨r, h2, hb⟩ := Out.bind_eq_ok.mp hb
      cases hb
      have := hs.scattering
      rw [e] at this
      exact ⟨hs.domain, Rel.extend_output_stored hc this h2, hs.access, hs.extension⟩

theorem readStmts_stored {L : Lib D} (hc : c.Valid) (K : Keeps L.toEnv good) {registry : Ifaces} {p : Int} : ∀ {n : Nat} {file rest : Str} {l : Stmts D},
    readStmts c L registry p n file = .ok (l, rest) → Stmts.Stored c good l
  | 0, _, _, _, h => by simp only [readStmts] at h; cases h; exact Stmts.stored_nil
  | n + 1, file, rest, l, h => by
    simp only [readStmts] at h
    obtain ⟨x, h1, h⟩ := Out.bind_eq_ok.mp h
    obtain ⟨y, h2, h⟩ := Out.bind_eq_ok.mp h
    cases h
    exact Stmts.stored_cons.mpr ⟨Stmts.pread_kept hc K h1, readStmts_stored hc K h2⟩

theorem readOne_kept {L : TextLib D} (hc : c.Valid) (K : Keeps L.toEnv good) {registry : Ifaces} {p : Int} {file rest : Str} {s : Scop D}
    (h : readOne c L registry p file = .ok (s, rest)) : Kept c good s := by
  unfold readOne at h
  obtain ⟨reg, _, h⟩ := Out.bind_eq_ok.mp h
  obtain ⟨x1, _, h⟩ := Out.bind_eq_ok.mp h
  obtain ⟨x2, h2, h⟩ := Out.bind_eq_ok.mp h
  obtain ⟨x3, _, h⟩ := Out.bind_eq_ok.mp h
  obtain ⟨x4, h4, h⟩ := Out.bind_eq_ok.mp h
  obtain ⟨x5, _, h⟩ := Out.bind_eq_ok.mp h
  obtain ⟨x6, h6, h⟩ := Out.bind_eq_ok.mp h
  obtain ⟨x7, h7, h⟩ := Out.bind_eq_ok.mp h
  cases h
  refine ⟨Rel.relation_pread_stored hc h2, ?_, readStmts_stored (L := L.toLib) hc K h6, GList.read_good K h7⟩
  unfold readParameters at h4
  split at h4
  · exact GList.fread_one_good K h4
  · cases h4; exact GList.good_nil

theorem readLoop_stored {L : TextLib D} (hc : c.Valid) (K : Keeps L.toEnv good) {registry : Ifaces} {p : Int} : ∀ {n : Nat} {file : Str} {l : Scops D},
    readLoop c L registry p n file = .ok l → Stored c good l
  | 0, _, _, h => by simp only [readLoop] at h; cases h
  | n + 1, file, l, h => by
    simp only [readLoop] at h
    obtain ⟨x, h1, h⟩ := Out.bind_eq_ok.mp h
    split at h
    · cases h; exact stored_nil
    · obtain ⟨y, h2, h⟩ := Out.bind_eq_ok.mp h
      obtain ⟨z, h3, h⟩ := Out.bind_eq_ok.mp h
      cases h
      exact stored_cons.mpr ⟨readOne_kept hc K h2, readLoop_stored hc K h3⟩

theorem read_stored {L : TextLib D} (hc : c.Valid) (K : Keeps L.toEnv good) {env : Option Str} {registry : Ifaces} {file : Str} {l : Scops D}
    (h : read c L env registry file = .ok l) : Stored c good l := by
  unfold read pread at h
  obtain ⟨x, h1, h⟩ := Out.bind_eq_ok.mp h
  obtain ⟨_, _, h⟩ := Out.bind_eq_ok.mp h
  cases h
  exact readLoop_stored hc K h1

end Scops
end Osl
