#!/usr/bin/env python3
"""Transcribes the VersionBytes literals and PathToHDBytesSlice of bip32/reg_ver_bytes.go to Lean."""
import re
src = open('/repo/bip32/reg_ver_bytes.go').read()
lines = src.split('\n')
out = ['import Verif.Model.Registry.Types', '',
'/-!', '# Transcription of bip32/reg_ver_bytes.go:141-424', '',
'Generated by tools/gen_registry.py from the source text; every entry cites its lines.', '-/', '',
'namespace Bips', '']
names = []
for m in re.finditer(r'\t(\w+) = VersionBytes\{\n(.*?)\n\t\}', src, re.S):
    name, body = m.group(1), m.group(2)
    l0 = src[:m.start()].count('\n') + 1
    l1 = src[:m.end()].count('\n') + 1
    f = dict(re.findall(r'(\w+):\s+(.*?),?$', body, re.M))
    encs = re.findall(r'P2\w+', f['AddrEncodings'])
    lname = name[0].lower() + name[1:]
    names.append(lname)
    out += [f'/-- `{name}` (bip32/reg_ver_bytes.go:{l0}-{l1}). -/',
      f'def {lname} : VersionBytes where',
      f'  coin := str {f["Coin"]}', f'  pvtKeyFlag := {f["PvtKeyFlag"]}', f'  pvKeyPrefix := str {f["PvKeyPrefix"]}',
      f'  pubKeyFlag := {f["PubKeyFlag"]}', f'  pubKeyPrefix := str {f["PubKeyPrefix"]}',
      f'  addrEncodings := [{", ".join("." + e[0].lower() + e[1:] for e in encs)}]',
      f'  path := str {f["Path"]}', '']
m = re.search(r'var PathToHDBytesSlice = map\[string\]\[\]VersionBytes\{(.*?)\n\}', src, re.S)
l0 = src[:m.start()].count('\n') + 1
l1 = src[:m.end()].count('\n') + 1
ents = re.findall(r'("[^"]+"):\s+\{(.*?)\}', m.group(1), re.S)
out += [f'/-- The entries of `PathToHDBytesSlice` in source order (bip32/reg_ver_bytes.go:{l0}-{l1}). -/',
  'def pathTable : List (Bytes × List VersionBytes) := [']
rows = []
used = []
for k, v in ents:
    vs = [x.strip() for x in v.replace('\n', ' ').split(',')]
    vs = [x[0].lower() + x[1:] for x in vs if x]
    used += vs
    rows.append(f'  (str {k}, [{", ".join(vs)}])')
out += [',\n'.join(rows) + ']', '', 'end Bips', '']
assert sorted(used) == sorted(names), set(names) ^ set(used)
open('/verif/lean/Verif/Data/Versions.lean', 'w').write('\n'.join(out))
print(len(names), len(ents))
