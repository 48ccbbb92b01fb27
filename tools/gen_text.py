#!/usr/bin/env python3
"""Copies the text of the tables of bip44/coins.go and bip32/reg_ver_bytes.go, byte for byte, into Lean (Verif/Data/CoinsText.lean and
Verif/Data/VersionsText.lean), in parts: the first line, some rows or one declaration each, and the end."""
HEAD = '''import Verif.Data.TextMacro

/-!
# {file}:{first}-{last}, byte for byte

Copied by tools/gen_text.py.
-/

namespace Bips.Data.{ns}

'''


def write(file, first, rows, last, step, ns, out):
    src = open('/repo/' + file, encoding='utf8').read().split('\n')
    o = HEAD.format(file=file, first=first, last=last, ns=ns)
    n = 0
    for k, e in [(first, first)] + [(k, min(k + step - 1, rows)) for k in range(first + 1, rows + 1, step)] + [(rows + 1, last)]:
        part = src[k - 1:e]
        text = ''.join(l + '\n' for l in part)
        assert '"#' not in text and all(len(l.encode()) < 256 and not l.startswith('\0') for l in part)
        o += f'/-- {file}:{k}-{e}. -/\ndef t{n} : List Nat := text! r#"{text}"#\n\n'
        n += 1
    o += '/-- The parts. -/\ndef parts : List (List Nat) := [' + ', '.join(f't{k}' for k in range(n)) + f']\n\nend Bips.Data.{ns}\n'
    open('/verif/lean/Verif/Data/' + out, 'w', encoding='utf8').write(o)


write('bip44/coins.go', 12, 1148, 1149, 64, 'CoinsText', 'CoinsText.lean')
write('bip32/reg_ver_bytes.go', 141, 402, 424, 9, 'VersionsText', 'VersionsText.lean')
