import Verif.DefinedExt
import Verif.HeapReadClean
/-!
# C83: reading what the library wrote is defined

The readers need files of the documented form: the file of a relation ends too early is read beyond its end (C24).  Here is what they need: the files written by the printers of the library,
followed by anything for relations and lists.
-/

namespace Osl

/-- Spec: the file begins with the text, which the library wrote, of a relation of precision `p`. -/
def Rel.Written (c : Cfg) (p : Int) (file : Str) : Prop :=
  ∃ (q : Part) (r : Rel) (names : Option Names) (t rest : Str), (∀ s ∈ q :: r, Rel.Readable c p s) ∧ (r.length : Int) < 2 ^ 31 - 1 ∧ KnownType q.type ∧
    (∀ m, names = some m → Rel.NamesNoNL m) ∧ Rel.spprint c (q :: r) names = .ok t ∧ Rel.ShortLines t ∧ file = t ++ rest

/-- Spec: the file begins with the text, which the library wrote, of a list of relations of precision `p`. -/
def RList.Written (c : Cfg) (p : Int) (file : Str) : Prop :=
  ∃ (l : RList) (names : Option Names) (t rest : Str), (l.length : Int) < 2 ^ 31 ∧ (∀ r ∈ l, r = [] ∨ Rel.TextRel c p r) ∧
    (∀ m, names = some m → Rel.NamesNoNL m) ∧ RList.pprint c l names = .ok t ∧ Rel.ShortLines t ∧ file = t ++ rest

/-- Spec: the file is the text, which the library wrote, of a list of scops with extensions of the library and symbols (so at a level which is not zero). -/
def Scops.Written (c : Cfg) (e : Option Str) : Nat → Str → Prop
  | 0, _ => False
  | n + 1, file => ∃ (release : Str) (l : Scops (DataAt (n + 1))), '<' ∉ release ∧
      (∀ x ∈ l, Data.PlainScop c e (Ext.Symbol.ops (envAt c e n) defaultRegistry) (PlainSymbols c e n) (Util.get_precision c e) x) ∧ (∀ x ∈ l, Mem.AllData (Mem.fullAt (n + 1)) x) ∧
      Scops.print c (libAt c e (n + 1)) release l = .ok file ∧ Rel.ShortLines file

namespace Rel

theorem pread_defined {c : Cfg} {p : Int} {file : Str} (h : Written c p file) : pread c p file ≠ .ub := by
  obtain ⟨q, r, names, t, rest, h1, h2, h3, h4, h5, h6, rfl⟩ := h
  rw [relation_read_print h1 h2 h3 h4 h5 h6 rest]
  intro e; cases e

end Rel

namespace RList

theorem pread_defined {c : Cfg} {p : Int} {file : Str} (h : Written c p file) : pread c p file ≠ .ub := by
  obtain ⟨l, names, t, rest, h1, h2, h3, h4, h5, rfl⟩ := h
  obtain ⟨sk, _, e⟩ := list_text_back h3 h1 h2 h4 h5 rest
  rw [e]
  intro e; cases e

end RList

namespace Scops

theorem read_defined {c : Cfg} {e : Option Str} : ∀ {n : Nat} {file : Str}, Written c e n file → read c (libAt c e n) e defaultRegistry file ≠ .ub ∧ Mem.libTags c e n file = []
  | 0, _, h => h.elim
  | n + 1, _, ⟨release, l, h1, h2, h3, h4, h5⟩ => by
    have hr : read c (libAt c e (n + 1)) e defaultRegistry _ = .ok l := scop_default_text_symbols h1 h2 h4 h5
    refine ⟨?_, Mem.printed_loses_nothing h1 h2 h3 h4 h5⟩
    rw [hr]
    intro e; cases e

end Scops
end Osl
