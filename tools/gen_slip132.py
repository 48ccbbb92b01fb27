#!/usr/bin/env python3
"""Transcribes the rows of bip32/slip-0132.md to Lean (Verif/Data/Slip132.lean), one text per line of the file."""
raw = open('/repo/bip32/slip-0132.md', 'rb').read().decode('ascii')
lines = raw.split('\n')
assert lines[4].startswith('Coin ') and lines[-1] == '' and not any(l.strip() for l in lines[34:])
rows = lines[5:34]
assert all(l.strip() and '"' not in l and '\\' not in l for l in rows) and len(rows) == 29
o = ['import Verif.Go.Bytes', '', '''/-!
# bip32/slip-0132.md

Generated by tools/gen_slip132.py, one line of the file per line, from line 6, behind the header, to the last line that
is not empty.
-/''', '', 'namespace Bips.Data.Slip132', '',
 '/-- bip32/slip-0132.md:6-34. -/', 'def lines : List Bytes := [']
o += [f'  str "{l}"' + (',' if k < 28 else ']') for k, l in enumerate(rows)]
o += ['', 'end Bips.Data.Slip132', '']
open('/verif/lean/Verif/Data/Slip132.lean', 'w').write('\n'.join(o))
