#!/usr/bin/env python3
"""Writes lean/Verif/Vectors/Address.lean: a well-known wallet, from its seed to its addresses, run in the model."""
import hashlib, hmac, os
P = 2**256 - 2**32 - 977
N = 0xFFFFFFFFFFFFFFFFFFFFFFFFFFFFFFFEBAAEDCE6AF48A03BBFD25E8CD0364141
G = (0x79BE667EF9DCBBAC55A06295CE870B07029BFCDB2DCE28D959F2815B16F81798,
     0x483ADA7726A3C4655DA4FBFC0E1108A8FD17B448A68554199C47D08FFB10D4B8)
def add(a, b):
    if a is None: return b
    if b is None: return a
    if a[0] == b[0]:
        if (a[1] + b[1]) % P == 0: return None
        l = 3 * a[0] * a[0] * pow(2 * a[1], -1, P) % P
    else: l = (b[1] - a[1]) * pow(b[0] - a[0], -1, P) % P
    x = (l * l - a[0] - b[0]) % P
    return x, (l * (a[0] - x) - a[1]) % P
def mul(k):
    r = None; q = G
    while k:
        if k & 1: r = add(r, q)
        q = add(q, q); k >>= 1
    return r
def pub(k):
    p = mul(k)
    return bytes([2 + (p[1] & 1)]) + p[0].to_bytes(32, 'big')
def ripe(b): return hashlib.new('ripemd160', hashlib.sha256(b).digest()).digest()
SEED = "5eb00bbddcf069084889a8ab9155568165f5c453ccb85e70811aaed6f6da5fc19a5ac40b389cd370d086206dec8aa6c43daea6690f20ad3d8d48b2d2ce9e38e4"
H = 1 << 31
def master():
    I = hmac.new(b"Bitcoin seed", bytes.fromhex(SEED), hashlib.sha512).digest()
    return bytes.fromhex("0488ade4") + bytes(9) + I[32:] + b'\0' + I[:32]
def child(key, i, ver):
    k, c = key[46:], key[13:45]
    kn = int.from_bytes(k, 'big')
    d = (b'\0' + k if i >= H else pub(kn)) + i.to_bytes(4, 'big')
    I = hmac.new(c, d, hashlib.sha512).digest()
    kk = (int.from_bytes(I[:32], 'big') + kn) % N
    return bytes.fromhex(ver) + bytes([key[4] + 1]) + ripe(pub(kn))[:4] + i.to_bytes(4, 'big') + I[32:] + b'\0' + kk.to_bytes(32, 'big')
names, out = {}, []
def keyn(b): return f"(keyN 0x{b.hex()})"
root = master()
out.append(f'''theorem wallet_root : rootKeyFromSeed goHashes (str "{SEED}") =
    .ok ({keyn(root)}, none) := by
  decide +kernel
''')
def walk(vals):
    k, th, keys = root, [], [root]
    for j, v in enumerate(vals):
        n = child(k, v, "0488ade4")
        name = "wallet_" + "_".join(str(x % H) + ("h" if x >= H else "") for x in vals[:j + 1])
        if name not in names:
            names[name] = n
            out.append(f'''theorem {name} : ({keyn(k)}.newChildKey goHashes reg {v}).1 =
    {keyn(n)} := by
  unfold Key.newChildKey Key.getIntermediary publicKeyForPrivateKey
  simp only [tableBaseMult_eq]
  decide +kernel
''')
        th.append(name); k = n; keys.append(n)
    return k, th, keys
def derive(nm, path, vals):
    k, th, keys = walk(vals)
    out.append(f'''theorem {nm}_key : ((deriveBIP32Result goHashes reg {keyn(root)} (str "{path}")).1.getLast?.map (·.key)) =
    some {keyn(k)} := by
  have hr : ({keyn(root)}.isValid goHashes) = true := by decide +kernel
  have hp : {keyn(root)}.isPrivate = true := by decide +kernel
  have hd : {keyn(root)}.byteAt depthStart = 0 := by decide +kernel
  have hv : pathIsValid (str "{path}") = true := by decide +kernel
  have hs : valuesAtDepth (str "{path}") = ({[0] + vals}, none) := by decide +kernel
  unfold deriveBIP32Result
  rw [hr, hp, hd, hv, hs]
  simp [deriveLoop, {', '.join(th)}]
''')
    return k
def addr(nm, k, fn, args, text):
    out.append(f'''theorem {nm} (p : Bytes) : (KeyPath.mk p {keyn(k)}).{fn} goHashes reg{args} =
    str "{text}" := by
  unfold KeyPath.{fn} Key.publicKeyHex Key.publicKeyExtended publicKeyForPrivateKey
  simp only [tableBaseMult_eq]
  decide +kernel
''')
k = derive("ethereum_0", "m/44'/60'/0'/0/0", [H + 44, H + 60, H, 0, 0])
addr("ethereum_0_address", k, "addrHex", "", "9858effd232b4033e47d90003d41ec34ecaeda94")
k = derive("bitcoin_0", "m/44'/0'/0'/0/0", [H + 44, H, H, 0, 0])
addr("bitcoin_0_address", k, "addrP2SH", " 0", "1LqBGSKuX5yYUonjxT5qGfpUsXKYYWeabA")
out.append('''/-! The defect of C50 in this wallet: the public key of the 63rd Ethereum account has a coordinate that begins with a zero
byte. The address shown is that of nobody; the one of the account, with both coordinates in 32 bytes, is the last one. -/
''')
k = derive("ethereum_62", "m/44'/60'/0'/0/62", [H + 44, H + 60, H, 0, 62])
addr("ethereum_62_address", k, "addrHex", "", "246f9234a380b33c1e547f95758efb167b0180ff")
out.append(f'''theorem ethereum_62_true_address :
    (let q := scalarBaseMult (beBytes 32 0x{k[46:].hex()})
     hexEncode ((goHashes.keccak256 (beBytes 32 q.1 ++ beBytes 32 q.2)).drop 12)) =
    str "059e1d7a2d1ecc50e5d7ab3d97a73d857c9530f1" := by
  simp only [tableBaseMult_eq]
  decide +kernel
''')
path = os.path.join(os.path.dirname(os.path.abspath(__file__)), "../lean/Verif/Vectors/Address.lean")
open(path, "w").write('''import Verif.Vectors.Base
import Verif.Model.Util

/-!
# A well-known wallet

The seed of the mnemonic "abandon … about" (eleven times "abandon") without a passphrase, and the first Ethereum and the first
Bitcoin address that every BIP-44 wallet gives for it. Tests of the model, like the other modules of this directory. Written by
tools/gen_addresses.py.
-/

namespace Bips

set_option maxRecDepth 100000

''' + "\n".join(out) + "\nend Bips\n")
