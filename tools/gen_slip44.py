#!/usr/bin/env python3
"""Transcribes bip44/slip-0044.md to Lean (Verif/Data/Slip44.lean): every line as a list of cells, each a text and the
number of blanks behind it. The script checks that the cells put together give the file back byte by byte."""
raw = open('/repo/bip44/slip-0044.md', 'rb').read()
text = raw.decode('utf8')
assert text.endswith('\n')
lines = text[:-1].split('\n')
rows = []
for l in lines:
    f = l.split('| ')
    assert f[0] == ''
    cells = [(c.rstrip(' '), len(c) - len(c.rstrip(' '))) for c in f[1:]]
    for c, _ in cells:
        assert '|' not in c and '"' not in c and '\\' not in c and c == c.strip() and len(c.encode()) < 64
    rows.append(cells)
back = ''.join(''.join('| ' + c + ' ' * n for c, n in r) + '\n' for r in rows)
assert back.encode('utf8') == raw
o = ['import Verif.Data.SlipMacro', '', '''/-!
# bip44/slip-0044.md

Generated by tools/gen_slip44.py, one line of the file per line.
-/''', '', 'namespace Bips.Data.Slip44', '', 'set_option maxRecDepth 10000', '']
n = 0
for k in range(0, len(rows), 64):
    part = rows[k:k + 64]
    o += [f'/-- bip44/slip-0044.md:{k + 1}-{k + len(part)}. -/', f'def c{n} : List MdLine := [']
    o += ['  [' + ', '.join(f'md! "{c}" {w}' for c, w in r) + ']' + (',' if j + 1 < len(part) else ']') for j, r in enumerate(part)]
    o += ['']
    n += 1
o += ['/-- The whole file. -/', 'def lines : List MdLine :=',
      '  ' + ' ++ ('.join(f'c{k}' for k in range(n)) + ')' * (n - 1), '', 'end Bips.Data.Slip44', '']
open('/verif/lean/Verif/Data/Slip44.lean', 'w', encoding='utf8').write('\n'.join(o))
print(len(rows))
