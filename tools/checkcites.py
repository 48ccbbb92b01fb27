#!/usr/bin/env python3
"""Check the citations of the model: every file:lines cited exists, and a citation `name` (file:a-b) has that name in lines a-b
(for a whole function, on line a)."""
import os, re, sys, glob
root = os.path.join(os.path.dirname(os.path.abspath(__file__)), "..", "lean", "Verif")
repo = "/repo"
bad = n = 0
for f in sorted(glob.glob(root + "/**/*.lean", recursive=True)):
    s = open(f).read()
    for m in re.finditer(r"(?:`([A-Za-z0-9_.]+)`[^`()]{0,25}\()?((?:[a-zA-Z0-9_]+/)+[a-zA-Z0-9_]+\.go):(\d+)(?:-(\d+))?", s):
        name, path, a, b = m.group(1), m.group(2), int(m.group(3)), int(m.group(4) or m.group(3))
        n += 1
        line = s.count("\n", 0, m.start()) + 1
        p = os.path.join(repo, path)
        if not os.path.exists(p):
            print(f"{f}:{line}: no file {path}"); bad += 1; continue
        lines = open(p, errors="replace").read().split("\n")
        if not (1 <= a <= b <= len(lines)):
            print(f"{f}:{line}: lines {a}-{b} of {path} ({len(lines)})"); bad += 1; continue
        if name:
            base = name.split(".")[-1]
            text = "\n".join(lines[a - 1:b])
            if not re.search(r"\b" + re.escape(base) + r"\b", text, re.I):
                print(f"{f}:{line}: `{name}` not in {path}:{a}-{b}"); bad += 1
            elif re.search(r"^func .*\b" + re.escape(base) + r"\(", open(p).read(), re.M):
                fl = [i + 1 for i, l in enumerate(lines) if re.match(r"func .*\b" + re.escape(base) + r"\(", l)]
                end = [next(j for j in range(i, len(lines) + 1) if lines[j - 1].startswith("}")) for i in fl]
                if not any(a == i and b == e for i, e in zip(fl, end)):
                    print(f"{f}:{line}: `{name}` is at {list(zip(fl, end))}, cited {a}-{b} ({path})"); bad += 1
print(n, "citations,", bad, "to check")
