import Verif.HeapReadTop
import Verif.ReadScopExample
/-!
# Reading scops in memory: examples (C72)
-/

set_option linter.unusedSectionVars false

namespace Osl.Mem

open Osl.Data

variable [Allocator]

/-- The file written by hand (comments, an unknown extension, a body, parameters) is read into the scop. -/
theorem hand_read : Scops.read Cfg.std (libAt Cfg.std (some "64".toList) 0) (some "64".toList) defaultRegistry handText = .ok [handScop] := by
  exact handText_read

set_option maxRecDepth 20000 in
theorem hand_clean : libTags Cfg.std (some "64".toList) 0 handText = [] := by decide +kernel

/-- The hypotheses of `lib_scop_read_memory` hold for that file, and nothing is lost: exactly the scop is allocated. -/
example : Triple emp (scopRead Cfg.std (some "64".toList) (sreadAt Cfg.std (some "64".toList) 0) handText)
    (fun p => libScopsAt Cfg.std (some "64".toList) 0 p [handScop]) := by
  have := lib_scop_read_memory hand_read
  rw [hand_clean, looseAt_nil] at this
  exact this.post (fun p h hh => by rwa [sep_emp] at hh)

/-- After `osl_scop_free` nothing is allocated. -/
example : Triple emp (do
    let p ← scopRead Cfg.std (some "64".toList) (sreadAt Cfg.std (some "64".toList) 0) handText
    scopFree Cfg.std (fnsAt Cfg.std 0) p) (fun _ => emp) := by
  have := lib_scop_read_free_memory hand_read
  rwa [hand_clean, looseAt_nil] at this

/-- A file with a closing tag and an empty tag among the extensions of the scop. -/
def strayText : Str := "<OpenScop>\nC\nCONTEXT\n0 2 0 0 0 0\n0\n0\n</body>\n<comment>\nhello\n</comment>\n<>\n</OpenScop>\n".toList

set_option maxRecDepth 20000 in
theorem stray_read : okAnd (Scops.read Cfg.std (libAt Cfg.std (some "64".toList) 0) (some "64".toList) defaultRegistry strayText)
    (fun l => l.length == 1 && l.all fun x => x.extension.length == 1) = true := by decide +kernel

set_option maxRecDepth 20000 in
theorem stray_tags : libTags Cfg.std (some "64".toList) 0 strayText = ["/body".toList, []] := by decide +kernel

/-- C72: the ideal (nothing but the scops is allocated) is false: after the reading of that file and `osl_scop_free`, the two tags stay allocated. -/
theorem scop_read_stray_leak :
    Triple emp (do
      let p ← scopRead Cfg.std (some "64".toList) (sreadAt Cfg.std (some "64".toList) 0) strayText
      scopFree Cfg.std (fnsAt Cfg.std 0) p) (fun _ => looseAt ["/body".toList, []]) := by
  obtain ⟨l, hl⟩ := ok_of stray_read
  have := lib_scop_read_free_memory hl
  rwa [stray_tags] at this

end Osl.Mem
