#!/usr/bin/env python3
"""Transcribes the word lists of bip39/wordlists/*.go to Lean, with the kernel checks of Verif/Data/Words/Check."""
import re, zlib
LISTS = ['chinese_simplified', 'chinese_traditional', 'czech', 'english', 'french', 'italian', 'japanese', 'korean',
         'portuguese', 'spanish']
for f in LISTS:
    src = open(f'/repo/bip39/wordlists/{f}.go', encoding='utf8').read()
    i, j = src.index('`'), src.rindex('`')
    text = src[i + 1:j]
    l0, l1 = src[:i].count('\n') + 1, src[:j].count('\n') + 1
    goname, = re.findall(r'^var (\w+) = strings.Split\(strings.TrimSpace\((\w+)\), "\\n"\)$', src, re.M)
    ws = text.split('\n')
    assert ws.pop() == '' and len(ws) == 2048 and '"' not in text and '\\' not in text
    name = f.split('_')[0] + ''.join(p.capitalize() for p in f.split('_')[1:])
    mod = name[0].upper() + name[1:]
    o = ['import Verif.Data.Words.Check', '', f'''/-!
# bip39/wordlists/{f}.go:{l0}-{l1}

Generated by tools/gen_words.py: the words of the text `{goname[1]}`, which has one word per line. The CRC-32 of the text,
proved here, is the constant of the file's `init`.
-/''', '', f'namespace Bips.Data.{mod}', '']
    c = 0xffffffff
    thms = []
    for k in range(32):
        part = ws[64 * k:64 * k + 64]
        body = ''
        line = ''
        lines = []
        for w in part:
            if len(line) + len(w) + 1 > 110:
                lines.append(line); line = w
            else:
                line = (line + ' ' + w) if line else w
        lines.append(line)
        body = '\n  '.join(lines)
        o += [f'/-- bip39/wordlists/{f}.go:{l0 + 64 * k}-{l0 + 64 * k + 63}. -/',
              f'def w{k} : List Nat := words! "{body}"', '']
        d = zlib.crc32(''.join(w + '\n' for w in part).encode(), c ^ 0xffffffff) ^ 0xffffffff
        thms.append((k, c, d))
        c = d
    o += ['/-- The whole list. -/', 'def codes : List Nat :=',
          '  ' + ' ++ ('.join(f'w{k}' for k in range(32)) + ')' * 31, '']
    o += ['set_option maxRecDepth 100000', '']
    for k, a, b in thms:
        o.append(f'theorem crc{k} : crcCodes w{k} {a:#x} = {b:#x} := by decide +kernel')
    o += ['', f'theorem crc : crcCodes codes 0xffffffff = {c:#x} := by', '  unfold codes',
          '  rw [' + ', '.join(f'crcCodes_append, crc{k}' for k in range(31)) + ', crc31]', '',
          'theorem length : codes.length = 2048 := by decide +kernel', '',
          'theorem distinct : distinct codes = true := by decide +kernel', '',
          'theorem good : codes.all goodCode = true := by decide +kernel', '',
          f'end Bips.Data.{mod}', '']
    s = '\n'.join(o)
    s = re.sub(r'rw \[(.*)\]', lambda m: 'rw [' + m.group(1).replace(', crcCodes_append, crc', ',\n    crcCodes_append, crc') + ']', s)
    open(f'/verif/lean/Verif/Data/Words/{mod}.lean', 'w', encoding='utf8').write(s)
