import Verif
open Lean
/-- dump, for every theorem of the library, the SF constants it uses transitively (one line each) -/
partial def visit (env : Environment) (n : Name) : StateM NameSet Unit := do
  if (← get).contains n then return
  modify (·.insert n)
  if let some ci := env.find? n then
    let mut cs := ci.type.getUsedConstantsAsSet
    if let some v := ci.value? (allowOpaque := true) then cs := cs.union v.getUsedConstantsAsSet
    for c in cs do
      if (`SF).isPrefixOf c then visit env c
run_cmd do
  let env ← getEnv
  for l in (← IO.FS.lines "/tmp/work/claimnames.txt") do
    let n := l.toName
    let (_, s) := (visit env n).run {}
    IO.println s!"{l}|{" ".intercalate (s.toList.map toString)}"
