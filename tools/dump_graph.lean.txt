import Lean
import Verif
open Lean
def main : IO Unit := do
  initSearchPath (← findSysroot)
  let env ← importModules #[{module := `Verif}] {}
  let h ← IO.FS.Handle.mk "/tmp/deps/graph.txt" .write
  for (n, ci) in env.constants.map₁.toList do
    if (`Osl).isPrefixOf n then
      let used := ci.type.getUsedConstants ++ (match ci.value? (allowOpaque := true) with | some v => v.getUsedConstants | none => #[])
      let used := used.filter (fun m => (`Osl).isPrefixOf m || (`_private).isPrefixOf m)
      h.putStrLn (s!"{if ci.isTheorem then "T" else "D"} {n} " ++ " ".intercalate (used.toList.map toString))
    else if (`_private).isPrefixOf n && ((toString n).splitOn "Verif").length > 1 then
      let used := ci.type.getUsedConstants ++ (match ci.value? (allowOpaque := true) with | some v => v.getUsedConstants | none => #[])
      h.putStrLn (s!"P {n} " ++ " ".intercalate ((used.toList.filter (fun m => (`Osl).isPrefixOf m || (`_private).isPrefixOf m)).map toString))
