#!/usr/bin/env python3
"""1. Lists the definitions of Verif/Model on which RustSrc.compiled and RustSrc.Leak.run (the functions generated from the
source text, without and with events) depend. Expected: only types, API classes, the model of core::fmt, the models of the CPU instructions, the machine arithmetic
of Profile and the vocabulary of configurations; no function that models a function of the crate.
2. Lists the generated functions that none of RustSrc.compiled, RustSrc.Leak.run and RustSrc.tests uses. Expected: none
(a public function of the crate that the public API of the model lacks would be here)."""
import subprocess, tempfile, os
L = r'''
import Lean
import Verif.Gen.CrateTests
import Verif.Gen.LeakCrate
open Lean Elab Command
partial def used (env : Environment) (n : Name) (seen : NameSet) : NameSet := Id.run do
  if seen.contains n then return seen
  let mut s := seen.insert n
  match env.find? n with
  | some c =>
    for m in (c.type.getUsedConstantsAsSet.toList ++ (match c.value? with | some v => v.getUsedConstantsAsSet.toList | none => [])) do
      s := used env m s
  | none => pure ()
  return s
run_cmd liftCoreM do
  let env ← getEnv
  let s := used env `RustSrc.Leak.run (used env `RustSrc.compiled {})
  for n in s.toList do
    match env.getModuleIdxFor? n with
    | some i =>
      let m := env.header.moduleNames[i.toNat]!
      if (`Verif.Model).isPrefixOf m && !n.isInternalDetail then IO.println s!"{m} {n}"
    | none => pure ()
  let s := used env `RustSrc.tests s
  for i in [0:env.header.moduleNames.size] do
    let m := env.header.moduleNames[i]!
    if (`Verif.Gen).isPrefixOf m then
      for n in env.header.moduleData[i]!.constNames do
        if !s.contains n && !n.isInternalDetail then
          match env.find? n with
          | some (.defnInfo _) => IO.println s!"unused: {m} {n}"
          | _ => pure ()
'''
with tempfile.TemporaryDirectory() as d:
    p = os.path.join(d, 'c.lean')
    open(p, 'w').write(L)
    lean = os.path.join(os.path.dirname(os.path.dirname(os.path.abspath(__file__))), 'lean')
    subprocess.run(['lake', 'env', 'lean', p], cwd=lean)
