import Verif.ScopTextProps
/-!
# A scop which meets the hypotheses of the text round trip (C48)
-/

namespace Osl

namespace Rel

/-- A decision of `ShortLines`, with the number of characters read on the current line. -/
def shortFrom : Nat → Str → Bool
  | _, [] => true
  | n, c :: s => if c = '\n' then shortFrom 0 s else decide (n + 1 < MAX_STRING - 1) && shortFrom (n + 1) s

theorem shortFrom_weaken : ∀ {t : Str} {n m : Nat}, m ≤ n → shortFrom n t = true → shortFrom m t = true
  | [], _, _, _, _ => rfl
  | c :: s, n, m, h, hs => by
    simp only [shortFrom] at hs ⊢
    split
    · rename_i hc; rw [if_pos hc] at hs; exact hs
    · rename_i hc
      rw [if_neg hc] at hs
      simp only [Bool.and_eq_true, decide_eq_true_eq] at hs ⊢
      exact ⟨by omega, shortFrom_weaken (by omega) hs.2⟩

theorem shortFrom_run : ∀ {b : Str} {n : Nat} {d : Str}, NoNL b → shortFrom n (b ++ d) = true → b = [] ∨ n + b.length < MAX_STRING - 1
  | [], _, _, _, _ => .inl rfl
  | c :: b, n, d, hb, h => by
    right
    have hc : c ≠ '\n' := fun e => hb (by simp [e])
    simp only [List.cons_append, shortFrom, if_neg hc, Bool.and_eq_true, decide_eq_true_eq] at h
    rcases shortFrom_run (fun hx => hb (by simp [hx])) h.2 with e | e
    · subst e; simpa using h.1
    · simp only [List.length_cons]; omega

theorem shortFrom_drop : ∀ {a : Str} {n : Nat} {d : Str}, shortFrom n (a ++ d) = true → shortFrom 0 d = true
  | [], _, _, h => shortFrom_weaken (by omega) h
  | c :: a, n, d, h => by
    simp only [List.cons_append, shortFrom] at h
    split at h
    · exact shortFrom_drop h
    · simp only [Bool.and_eq_true] at h
      exact shortFrom_drop h.2

theorem shortLines_of {t : Str} (h : shortFrom 0 t = true) : ShortLines t := by
  intro a b d e hb
  rw [e] at h
  rcases shortFrom_run hb (shortFrom_drop h) with e | e
  · subst e; simp [MAX_STRING]
  · omega

end Rel

namespace Scops

open Rel (exDomain exDomain2 exAccess)
open Stmts (exStmt exScatt natLib)

/-- Numbers as data; every number names one parameter, and five arrays. -/
def natText : TextLib Nat := { natLib with strings := fun n => some ⟨some [('N' :: showNat n)]⟩, arraysNames := fun _ => .ok (some ⟨some [['A'], ['B'], ['C'], ['D'], ['E']]⟩) }

theorem exDomain_text : Rel.TextRel Cfg.std 64 [exDomain, exDomain2] where
  nonempty := by simp
  readable := by
    intro p hp; simp at hp
    rcases hp with rfl | rfl
    · exact ⟨Rel.exDomain_valid, rfl, by unfold Rel.Part.Small; decide⟩
    · exact ⟨Rel.exDomain2_valid, rfl, by unfold Rel.Part.Small; decide⟩
  length := by decide
  known := by decide
  uniform := by decide

theorem one_text {p : Part} (h : Rel.Readable Cfg.std 64 p) (hk : Rel.KnownType p.type) : Rel.TextRel Cfg.std 64 [p] where
  nonempty := by simp
  readable := by intro q hq; simp at hq; subst hq; exact h
  length := by simp
  known := by intro q hq; simp at hq; subst hq; exact hk
  uniform := by intro q hq r hr; simp at hq hr; rw [hq, hr]

theorem exExt_file : GList.FTextable natText.toLib.exact.toEnv exScop.registry ⟨some (Ifaces.mk 1 "arrays"), some 8⟩ :=
  ⟨Ifaces.mk 1 "arrays", "arrays".toList, "8\n".toList, 8, rfl, rfl, by decide, by decide, by decide, by decide, by decide, by decide, by simp [Lib.exact]⟩

theorem exExt_text : GList.Textable natText.toLib.exact.toEnv exScop.registry ⟨some (Ifaces.mk 1 "arrays"), some 8⟩ :=
  ⟨Ifaces.mk 1 "arrays", "arrays".toList, "8\n".toList, 8, rfl, rfl, by decide, by decide, by decide, by decide, by decide, by decide, by simp [Lib.exact]⟩

theorem exStmt_text : Stmts.TextStmt Cfg.std natText.toLib.exact exScop.registry 64 exStmt where
  domain := .inr ⟨exDomain_text, by decide⟩
  scattering := .inr ⟨one_text ⟨Stmts.exScatt_valid, rfl, by unfold Rel.Part.Small; decide⟩ (by decide), by decide⟩
  access := by
    intro r hr
    simp [exStmt] at hr; subst hr
    exact ⟨one_text ⟨Rel.exAccess_valid, rfl, by unfold Rel.Part.Small; decide⟩ (by decide), by decide⟩
  accesses := by decide
  unique := by unfold GList.Unique; decide
  extensions := by decide
  extension := by intro g hg; simp [exStmt] at hg; subst hg; exact exExt_file
  iterators := by
    intro b hb
    rw [show Stmts.lookupBody natText.toLib.exact exStmt.extension = .ok none by decide] at hb
    cases hb

theorem exScop_text : TextScop Cfg.std natText exScop.registry 64 exScop where
  version := rfl
  language := ⟨"C".toList, rfl, by unfold Strings.Word; decide⟩
  context := one_text ⟨exScop_valid.context _ (by simp [exScop]), rfl, by unfold Rel.Part.Small; decide⟩ (by decide)
  parameters := .inr ⟨_, rfl, rfl, Ifaces.mk 0 "strings", "strings".toList, "3\n".toList, 3, rfl, rfl, by decide, by decide, by decide, by decide, by decide, by decide,
    by simp [Lib.exact]⟩
  paramNames := by
    intro p hp
    rw [show paramNames natText exScop.parameters = .ok (some ⟨some ["N3".toList]⟩) by decide] at hp
    injection hp with hp; subst hp
    unfold Rel.StringsNoNL; decide
  nbStatements := by decide
  statement := by intro st hst; simp [exScop] at hst; subst hst; exact exStmt_text
  sameRegistry := rfl
  unique := by unfold GList.Unique; decide
  extension := by intro g hg; simp [exScop] at hg; subst hg; exact exExt_text
  noEnd := by
    intro t ht
    rw [show GList.sprint natText.toEnv exScop.extension = .ok "<arrays>\n8\n</arrays>\n".toList by decide] at ht
    injection ht with ht; subst ht
    intro hi
    exact absurd (hi.subset (a := 'O') (by decide)) (by decide)
  arrays := by
    intro d a h1 h2
    simp only [natText] at h2
    injection h2 with h2; subst h2; unfold Rel.StringsNoNL; decide

/-- The text of two scops is written, with short lines. -/
theorem exScop_printed : (match print Cfg.std natText "0.9.1".toList [exScop, exScop] with | .ok t => Rel.shortFrom 0 t | _ => false) = true := by decide +kernel

/-- The hypotheses of `scop_text_round_trip` are met by a file with two scops. -/
example : ∃ t, print Cfg.std natText "0.9.1".toList [exScop, exScop] = .ok t ∧ pread Cfg.std natText exScop.registry 64 t = .ok [exScop, exScop] := by
  have h := exScop_printed
  cases ht : print Cfg.std natText "0.9.1".toList [exScop, exScop] with
  | ok t =>
    rw [ht] at h
    exact ⟨t, rfl, scop_text_round_trip (by unfold Ifaces.Unique; decide) (by decide) (by intro x hx; simp at hx; subst hx; exact exScop_text) ht (Rel.shortLines_of h)⟩
  | _ => rw [ht] at h; cases h

end Scops
end Osl
