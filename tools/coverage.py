#!/usr/bin/env python3
"""Write COVERAGE.md: every function, method and package-level declaration of the non-test Go files in /repo, with the definitions of
the model whose comment cites lines of it."""
import glob, os, re
here = os.path.dirname(os.path.abspath(__file__))
root = os.path.join(here, "..", "lean", "Verif")
repo = "/repo"

cites = []  # (go file, a, b, lean file, lean name)
for f in sorted(glob.glob(root + "/**/*.lean", recursive=True)):
    rel = os.path.relpath(f, root)
    if not rel.startswith(("Model", "Data", "Go", "Crypto", "Curve")):
        continue
    s = open(f).read()
    for m in re.finditer(r"((?:[a-zA-Z0-9_]+/)+[a-zA-Z0-9_]+\.go):(\d+)(?:-(\d+))?((?:, \d+(?:-\d+)?)*)", s):
        ranges = [(int(m.group(2)), int(m.group(3) or m.group(2)))]
        for x in re.findall(r", (\d+)(?:-(\d+))?", m.group(4) or ""):
            ranges.append((int(x[0]), int(x[1] or x[0])))
        d = re.search(r"^(?:@\[[^\]]*\] *)?(?:noncomputable |protected |private )?(def|structure|inductive|abbrev|instance|class|theorem|macro|elab|syntax)\s+([^\s:({\[]+)", s[m.end():], re.M)
        # the comment must be directly attached: no blank line after its end before the declaration
        name = None
        if d:
            between = s[m.end():m.end() + d.start()]
            if "-/" in between and between[between.index("-/") + 2:].strip() == "":
                name = d.group(2)
            elif "-/" not in between:
                name = d.group(2)
        for a, b in ranges:
            cites.append((m.group(1), a, b, rel, name or "(module comment)"))

out = ["# Which parts of /repo the model covers", "",
       "Generated by `tools/coverage.py` from the citations in the comments of the model. A row is a function, method or package-level",
       "declaration of a Go file (tests excluded); the last column names the Lean definitions whose comment cites lines of it.", ""]
none = []
WHY = {("util/util.go", 77): "alias of `bip32.Path`", ("examples/ui/one/main.go", 27): "not modelled: opens the window and calls `loop`",
       **{("examples/ui/one/main.go", n): "alias of a Gio type" for n in (39, 40, 41)}}
total = covered = 0
for p in sorted(glob.glob(repo + "/**/*.go", recursive=True)):
    rel = os.path.relpath(p, repo)
    if rel.endswith("_test.go"):
        continue
    lines = open(p, errors="replace").read().split("\n")
    decls = []
    i = 0
    while i < len(lines):
        l = lines[i]
        if re.match(r"(func|var|const|type)\b", l):
            j = i
            if l.rstrip().endswith(("{", "(", "`")) or (l.startswith("func") and not l.rstrip().endswith("}")):
                while j + 1 < len(lines) and not re.match(r"[})`]", lines[j + 1]):
                    j += 1
                j += 1
            head = l.strip().rstrip("{(`").strip()
            if l.rstrip() in ("var (", "const ("):
                head = l.split()[0] + " block"
            decls.append((i + 1, j + 1, head))
            i = j + 1
        else:
            i += 1
    out += [f"## {rel}", "", "| lines | declaration | modelled by |", "|---|---|---|"]
    for a, b, head in decls:
        total += 1
        found = []
        for g, x, y, lf, name in cites:
            if g == rel and x <= b and a <= y:
                t = f"`{name}` ({lf})" if name != "(module comment)" else f"{lf}"
                if t not in found:
                    found.append(t)
        if found:
            covered += 1
        else:
            if (rel, a) not in WHY: none.append((rel, a, b, head))
        head = head.replace("|", "\\|")
        if len(head) > 90:
            head = head[:87] + "..."
        out.append(f"| {a}-{b} | `{head}` | {', '.join(found[:6]) + (' and others' if len(found) > 6 else '') if found else WHY.get((rel, a), '**not cited**')} |")
    out.append("")
open(os.path.join(here, "..", "COVERAGE.md"), "w").write("\n".join(out))
print(total, "declarations,", covered, "cited")
for x in none:
    print("not cited:", *x)
