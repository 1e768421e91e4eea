import Verif
open Lean
#eval show CoreM Unit from do
  let env ← getEnv
  let mut all : NameSet := {}
  for (n, c) in env.constants.map₁.toList do
    if (`Slip).isPrefixOf n && c.isTheorem then
      let ax ← collectAxioms n
      for a in ax do all := all.insert a
      let s := n.getString!
      if s.length > 4 && s.front == 'C' && (s.toList[1]!).isDigit && (s.toList[2]!).isDigit then
        IO.println s!"{n} {ax.toList}"
  IO.println s!"ALL {all.toList}"
