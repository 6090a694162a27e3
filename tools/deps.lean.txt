import Verif
open Lean

/-- Prints, for each declaration of this project, the project declarations it mentions. -/
def dump : CoreM Unit := do
  let env ← getEnv
  let mine (n : Name) : Bool := match env.getModuleIdxFor? n with
    | some i => (`Verif).isPrefixOf (env.header.moduleNames[i.toNat]!)
    | none => false
  for (n, c) in env.constants.map₁.toList do
    if mine n then
      let used := c.type.getUsedConstants ++ ((c.value? (allowOpaque := true)).map (·.getUsedConstants)).getD #[]
      let used := (used.toList.filter mine).eraseDups
      IO.println s!"{n}\t{" ".intercalate (used.map toString)}"

#eval dump
