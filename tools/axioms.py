#!/usr/bin/env python3
"""Writes AXIOMS.md: the axioms every theorem of MANIFEST.json depends on, and the axioms all declarations of the
library together depend on. Run after `lake build`."""
import json, os, re, subprocess, tempfile, collections
root = os.path.join(os.path.dirname(os.path.abspath(__file__)), "..")
claims = json.load(open(os.path.join(root, "MANIFEST.json")))["claims"]
names = []
for c in claims:
    for t in c["theorems"]:
        if t not in names: names.append(t)
src = "import Lean.Util.CollectAxioms\nimport Lean.Elab.Command\nimport Verif\nopen Lean Elab Command\n"
src += "def manifest : List Name := [" + ",\n  ".join("`" + n for n in names) + "]\n"
src += r'''

run_cmd do
  let env ← getEnv
  for n in manifest do
    unless env.contains n do throwError "no constant {n}"
    IO.println s!"T {n} {(← collectAxioms n).toList}"
  let mut all : NameSet := {}
  let mut k := 0
  for (n, ci) in env.constants.map₁.toList do
    if let some i := env.getModuleIdxFor? n then
      if (`Verif).isPrefixOf env.header.moduleNames[i.toNat]! then
        k := k + 1
        if let .axiomInfo _ := ci then IO.println s!"AXIOM {n}"
        for a in ← collectAxioms n do all := all.insert a
  IO.println s!"ALL {k} {all.toList}"
'''
f = "/tmp/axioms_check.lean"
open(f, "w").write(src)
r = subprocess.run(["lake", "env", "lean", f], cwd=os.path.join(root, "lean"), capture_output=True, text=True)
if r.returncode: print(r.stdout[-3000:], r.stderr[-3000:]); raise SystemExit(1)
groups = collections.OrderedDict(); allax = None
for line in r.stdout.splitlines():
    m = re.match(r"T (\S+) \[(.*)\]", line)
    if m: groups.setdefault(tuple(sorted(x.strip() for x in m[2].split(",") if x.strip())), []).append(m[1])
    m = re.match(r"ALL (\d+) \[(.*)\]", line)
    if m: allax = m[1], m[2]
    if line.startswith("AXIOM"): print(line)
out = ["# Axioms", "", "Written by `tools/axioms.py` from the built library; do not edit.", "",
 f"All {allax[0]} declarations of the library together depend on: {', '.join('`%s`' % a.strip() for a in allax[1].split(','))}.", "",
 "The library declares no axiom. Theorems of MANIFEST.json by the axioms they depend on:", ""]
for g in sorted(groups, key=len):
    out += ["## " + (", ".join(f"`{a}`" for a in g) or "none"), ""]
    out += [", ".join(f"`{t.removeprefix('Bips.')}`" for t in groups[g]), ""]
open(os.path.join(root, "AXIOMS.md"), "w").write("\n".join(out))
bad = {a for g in groups for a in g} | {a.strip() for a in allax[1].split(",")}
bad -= {"propext", "Classical.choice", "Quot.sound"}
print(sum(map(len, groups.values())), "theorems;", "unexpected: " + str(bad) if bad else "standard axioms only")
