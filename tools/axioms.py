#!/usr/bin/env python3
"""Write AXIOMS.txt: the axioms every property theorem depends on, as Lean reports them.
Needs a finished `lake build`."""
import pathlib, subprocess, tempfile

ROOT = pathlib.Path(__file__).resolve().parent.parent
SRC = r'''
import Lean.Elab.Command
import Verif
open Lean Elab Command
run_cmd do
  let env ← getEnv
  let mut out := #[]
  for (n, ci) in env.constants.map₁.toList do
    if let .thmInfo _ := ci then
      if n.getPrefix == `Dmi.Props && n.getString!.startsWith "C" then
        let ax ← liftCoreM (collectAxioms n)
        out := out.push (n.getString!, ax.qsort (·.toString < ·.toString))
  for (n, ax) in out.qsort (·.1 < ·.1) do
    IO.println s!"{n}: {", ".intercalate (ax.toList.map (·.toString))}"
'''
with tempfile.NamedTemporaryFile("w", suffix=".lean") as f:
    f.write(SRC)
    f.flush()
    out = subprocess.run(["lake", "env", "lean", f.name], cwd=ROOT / "lean", check=True,
                         capture_output=True, text=True).stdout
lines = [l.rstrip() for l in out.splitlines()]
allowed = {"propext", "Classical.choice", "Quot.sound"}
for l in lines:
    used = {a for a in l.split(": ", 1)[1].split(", ") if a} if ": " in l else set()
    assert used <= allowed, l
(ROOT / "AXIOMS.txt").write_text("\n".join(lines) + "\n")
print(len(lines), "theorems")
