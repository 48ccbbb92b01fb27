#!/usr/bin/env python3
"""Writes lean/Verif/Vectors/Seed: the 2048 rounds of PBKDF2 for some mnemonics, in steps with the states in between."""
import os, re, unicodedata, hashlib, hmac as hm
here = os.path.dirname(os.path.abspath(__file__))
src = open(here + '/../lean/Verif/Crypto/Sha2.lean').read()
K = [int(x, 16) for x in re.findall(r'0x[0-9a-f]+', re.search(r'def sha512Params.*?k := \[(.*?)\]', src, re.S).group(1))]
IV = [0x6a09e667f3bcc908, 0xbb67ae8584caa73b, 0x3c6ef372fe94f82b, 0xa54ff53a5f1d36f1,
      0x510e527fade682d1, 0x9b05688c2b3e6c1f, 0x1f83d9abfb41bd6b, 0x5be0cd19137e2179]
M = 2**64
def rotr(x, n): return (x >> n | x << (64 - n)) % M
def compress(st, w):
    w = list(w)
    for i in range(16, 80):
        s0 = rotr(w[i-15], 1) ^ rotr(w[i-15], 8) ^ w[i-15] >> 7
        s1 = rotr(w[i-2], 19) ^ rotr(w[i-2], 61) ^ w[i-2] >> 6
        w.append((w[i-16] + s0 + w[i-7] + s1) % M)
    a, b, c, d, e, f, g, h = st
    for i in range(80):
        t1 = h + (rotr(e, 14) ^ rotr(e, 18) ^ rotr(e, 41)) + (e & f ^ (M - 1 - e) & g) + K[i] + w[i]
        t2 = (rotr(a, 28) ^ rotr(a, 34) ^ rotr(a, 39)) + (a & b ^ a & c ^ b & c)
        a, b, c, d, e, f, g, h = (t1 + t2) % M, a, b, c, (d + t1) % M, e, f, g
    return [(x + y) % M for x, y in zip(st, [a, b, c, d, e, f, g, h])]
def words(b): return [int.from_bytes(b[i:i+8], 'big') for i in range(0, len(b), 8)]
PAD = [2**63, 0, 0, 0, 0, 0, 0, 1536]
def lit(w): return '⟨' + ', '.join(map(str, w)) + '⟩'

STEP = 128
PARTS = 4
base = f'{here}/../lean/Verif/Vectors/Seed'
def gen(mod, doc, mn, pp):
    m, p = mn.encode(), pp.encode()
    key = m if len(m) <= 128 else hashlib.sha512(m).digest()
    key = key + bytes(128 - len(key))
    I = compress(IV, words(bytes(x ^ 0x36 for x in key)))
    O = compress(IV, words(bytes(x ^ 0x5c for x in key)))
    u = words(hm.new(m, b'mnemonic' + p + b'\0\0\0\1', hashlib.sha512).digest())
    states = [(u, u)]
    t = u
    counts = []
    left = 2047
    while left:
        n = min(STEP, left)
        for _ in range(n):
            u = compress(O, compress(I, u + PAD) + PAD)
            t = [x ^ y for x, y in zip(t, u)]
        states.append((u, t)); counts.append(n); left -= n
    seed = b''.join(x.to_bytes(8, 'big') for x in t)
    assert seed == hashlib.pbkdf2_hmac('sha512', m, b'mnemonic' + p, 2048)
    os.makedirs(f'{base}/{mod}', exist_ok=True)
    L = len(counts)
    out = [f'''import Verif.Crypto.Fast

/-!
# {doc}: states of the loop

Written by tools/gen_seed.py. The states of the loop of `pbkdf2.Key` after every {STEP} rounds; the kernel runs the rounds in between
(Part0 to Part{PARTS-1}).
-/

namespace Bips.Seed.{mod}

open Fast

def i : Words8 := {lit(I)}
def o : Words8 := {lit(O)}
''']
    for k, (a, b) in enumerate(states):
        out.append(f'def u{k} : Words8 := {lit(a)}\ndef t{k} : Words8 := {lit(b)}\n' if k else f'def u{k} : Words8 := {lit(a)}\n')
    out.append(f'end Bips.Seed.{mod}\n')
    open(f'{base}/{mod}/States.lean', 'w').write('\n'.join(out))
    for q in range(PARTS):
        out = [f'''import Verif.Vectors.Seed.{mod}.States

/-! Written by tools/gen_seed.py. -/

namespace Bips.Seed.{mod}

open Fast
''']
        for k in range(q * L // PARTS, (q + 1) * L // PARTS):
            out.append(f'''set_option maxRecDepth 100000 in
theorem step{k} : iter {counts[k]} i o u{k} {'t' if k else 'u'}{k} = (u{k+1}, t{k+1}) := by decide +kernel
''')
        out.append(f'end Bips.Seed.{mod}\n')
        open(f'{base}/{mod}/Part{q}.lean', 'w').write('\n'.join(out))
    e = 'step0'
    for k in range(1, L):
        e = f'iter_trans {sum(counts[:k+1])} rfl {e} step{k}'
        if k < L - 1: e = f'({e})'
    imports = '\n'.join(f'import Verif.Vectors.Seed.{mod}.Part{q}' for q in range(PARTS))
    open(f'{base}/{mod}.lean', 'w').write(f'''{imports}

/-!
# {doc}

Written by tools/gen_seed.py.
-/

namespace Bips.Seed.{mod}

open Fast

/-- The mnemonic. -/
def mnemonic : Bytes := str "{mn}"

/-- The passphrase. -/
def passphrase : Bytes := str "{pp}"

/-- The seed. -/
def seed : Bytes := [{', '.join('0x%02x' % x for x in seed)}]

/-- The whole loop. -/
theorem loop : iter 2047 i o u0 u0 = (u{L}, t{L}) :=
  {e}

set_option maxRecDepth 100000 in
theorem newSeed_eq : newSeed goHashes mnemonic passphrase = seed := by
  have hi : keyed mnemonic 0x36 = i := by decide +kernel
  have ho : keyed mnemonic 0x5c = o := by decide +kernel
  have hu : hmacSha512 mnemonic (str "mnemonic" ++ passphrase ++ [0, 0, 0, 1]) = bytesOf u0 := by decide +kernel
  have hs : bytesOf t{L} = seed := by decide +kernel
  rw [← hs]
  exact Fast.newSeed_eq hi ho
    (by constructor <;> decide +kernel) (by constructor <;> decide +kernel) (by constructor <;> decide +kernel) hu loop

end Bips.Seed.{mod}
''')
A = ' '.join(['abandon'] * 11 + ['about'])
gen('Plain', 'The seed of the first test vector of BIP-39 (bip39/bip39_test.go)', A, 'TREZOR')
gen('Space', 'The seed of the same words followed by a space', A + ' ', 'TREZOR')
P = '㍍ガバヴァぱばぐゞちぢ十人十色'
nfkd = lambda s: unicodedata.normalize('NFKD', s)
# the words as in the list, separated by ideographic spaces
J = '\u3000'.join([nfkd('あいこくしん')] * 11 + [nfkd('あおぞら')])
gen('Japanese', 'The seed of the first Japanese test vector of BIP-39 as the code computes it', J, P)
gen('JapaneseNfkd', 'The seed of the first Japanese test vector of BIP-39 after normalization', nfkd(J), nfkd(P))
