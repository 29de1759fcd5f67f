import Lean
open Lean

partial def tainted (env : Environment) (n : Name) : StateM (Std.HashMap Name Bool) Bool := do
  if n == ``sorryAx then return true
  if let some b := (← get)[n]? then return b
  modify (·.insert n false)
  let isV := match env.getModuleIdxFor? n with
    | some i => (env.header.moduleNames[i]!).getRoot == `Verif
    | none => false
  if !isV then return false
  let some ci := env.find? n | return true
  let mut r := false
  for c in ci.type.getUsedConstants do
    if ← tainted env c then r := true
  if let some v := ci.value? (allowOpaque := true) then
    for c in v.getUsedConstants do
      if ← tainted env c then r := true
  modify (·.insert n r)
  return r

unsafe def main (args : List String) : IO UInt32 := do
  initSearchPath (← findSysroot)
  let names := (← IO.FS.lines args.head!).toList.map String.toName
  let env ← importModules #[{ module := `Verif }] {} (loadExts := false)
  let mut st : Std.HashMap Name Bool := {}
  for n in names do
    match env.find? n with
    | none => IO.println s!"MISSING {n}"
    | some _ =>
      let (b, st') := (tainted env n).run st
      st := st'
      if b then IO.println s!"SORRY {n}"
  return 0
