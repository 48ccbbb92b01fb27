#!/usr/bin/env python3
"""Transcribes the table RegCoins of bip44/coins.go to Lean (Verif/Data/Coins.lean)."""
import re
src = open('/repo/bip44/coins.go', encoding='utf8').read().split('\n')
start = next(i for i, l in enumerate(src) if l.startswith('var RegCoins = []Coin{')) + 1
rows = []
i = start
while src[i] != '}':
    m = re.fullmatch(r'\t\{Type: (\d+), PathComponent: (0x[0-9a-f]+), Symbol: "([^"\\]*)", Name: "([^"\\]*)"\},', src[i])
    assert m, src[i]
    assert len(m[3].encode()) < 64 and len(m[4].encode()) < 64
    rows.append((i + 1, m))
    i += 1
o = ['import Verif.Data.CoinMacro', '', f'''/-!
# bip44/coins.go:{start}-{i + 1}, the table `RegCoins`

Generated by tools/gen_coins.py, one row of the source per line.
-/''', '', 'namespace Bips.Data.Coins', '', 'set_option maxRecDepth 10000', '']
n = 0
for k in range(0, len(rows), 64):
    part = rows[k:k + 64]
    o += [f'/-- bip44/coins.go:{part[0][0]}-{part[-1][0]}. -/', f'def c{n} : List CoinCode := [']
    o += ['  ' + f'coin! {m[1]} {m[2]} "{m[3]}" "{m[4]}"' + (',' if j + 1 < len(part) else ']') for j, (_, m) in enumerate(part)]
    o += ['']
    n += 1
o += ['/-- The whole table. -/', 'def codes : List CoinCode :=',
      '  ' + ' ++ ('.join(f'c{k}' for k in range(n)) + ')' * (n - 1), '', 'end Bips.Data.Coins', '']
open('/verif/lean/Verif/Data/Coins.lean', 'w', encoding='utf8').write('\n'.join(o))
print(len(rows), max(len(m[4].encode()) for _, m in rows))
