import Lean
open Lean Elab

def lineDecl (env : Environment) (mod : Name) : IO Unit := pure ()

unsafe def main (args : List String) : IO UInt32 := do
  let [file, mod, olean] := args | return 2
  initSearchPath (← findSysroot)
  enableInitializersExecution
  let input ← IO.FS.readFile file
  let ictx := Parser.mkInputContext input file
  let (header, ps, messages) ← Parser.parseHeader ictx
  let opts : Options := {}
  let opts := Elab.async.set opts true
  let (env, messages) ← processHeader header opts messages ictx (mainModule := mod.toName)
  let s ← IO.processCommands ictx ps (Command.mkState env messages opts)
  let mut bad := false
  for m in s.commandState.messages.toList do
    if m.severity == .error then
      bad := true
      let t ← m.data.toString
      IO.println s!"{file}:{m.pos.line}: {(t.take 300)}"
  writeModule s.commandState.env olean
  return if bad then 1 else 0
