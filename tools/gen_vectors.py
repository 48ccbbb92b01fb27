#!/usr/bin/env python3
"""Writes lean/Verif/Vectors/*.lean: the test vectors of /repo/bip32/bip32_test.go, run in the model."""
import re, os
src=open('/repo/bip32/bip32_test.go').read()
A='123456789ABCDEFGHJKLMNPQRSTUVWXYZabcdefghijkmnopqrstuvwxyz'
def dec(s):
    n=0
    for c in s: n=n*58+A.index(c)
    return n.to_bytes(82,'big')[:78]
def keyn(b): return f"(keyN 0x{b.hex()})"
out=[]
vec=re.findall(r'vector\d := testMasterKey\{(.*?)\n\t\}\n',src,re.S)
assert len(vec)==3
for vi,v in enumerate(vec,1):
    seed=re.search(r'seed:\s*"(\w*)"',v).group(1)
    prv=re.findall(r'privKey:\s*"(\w+)"',v); pub=re.findall(r'pubKey:\s*"(\w+)"',v)
    frag=[eval(x.replace('hStart','0x80000000')) for x in re.findall(r'pathFragment:\s*([^,]+),',v)]
    assert len(prv)==len(pub)==len(frag)+1
    out.append(f'''/-! ### Vector {vi} -/

theorem vector{vi}_0 : newMasterKey goHashes (beBytes {len(seed)//2} 0x{seed}) =
    (some {keyn(dec(prv[0]))}, none) := by
  decide +kernel
''')
    for i in range(len(prv)):
        k=keyn(dec(prv[i]))
        if i:
            out.append(f'''theorem vector{vi}_{i} : {keyn(dec(prv[i-1]))}.newChildKey
      goHashes reg {frag[i-1]} = ({k}, none) := by
  unfold Key.newChildKey Key.getIntermediary publicKeyForPrivateKey
  simp only [tableBaseMult_eq]
  decide +kernel
''')
        out.append(f'''theorem vector{vi}_{i}_text : {k}.string goHashes =
    str "{prv[i]}" := by
  decide +kernel

theorem vector{vi}_{i}_public : ({k}.publicKeyExtended reg).string goHashes =
    str "{pub[i]}" := by
  unfold Key.publicKeyExtended publicKeyForPrivateKey
  simp only [tableBaseMult_eq]
  decide +kernel
''')
par=re.search(r'B58Deserialize\("(xpub\w+)"\)',src).group(1)
kids=re.findall(r'pathFragment: (\d+), hexPubKey: "(\w+)"',src)
assert len(kids)==20
pk=keyn(dec(par))
out.append(f'''/-! ### Public derivation -/

theorem public_parent : b58Deserialize goHashes
    (str "{par}") =
    ({pk}, none) := by decide +kernel
''')
for n,h in [kids[1],kids[19]]:
    out.append(f'''theorem public_child_{n} : ({pk}.newChildKey goHashes reg {n}).2 = none ∧
    ({pk}.newChildKey goHashes reg {n}).1.bytes.drop 45 = beBytes 33 0x{h} := by
  unfold Key.newChildKey Key.getIntermediary publicKeyForPrivateKey addPublicKeys curveAdd
  simp only [tableBaseMult_eq, ← fastAdd_eq]
  decide +kernel
''')
bad=re.findall(r'\{(Err\w+), "(\w+)"\}',src)
m={'ErrSerializedKeyWrongSize':'.serializedKeyWrongSize','ErrInvalidChecksum':'.invalidChecksum'}
out.append("/-! ### Texts that are no keys -/\n")
for i,(e,s) in enumerate(bad):
    out.append(f'''theorem bad_text_{i} : (b58Deserialize goHashes
    (str "{s}")).2 =
    some {m[e]} := by decide +kernel
''')
s=re.search(r'B58Deserialize\("(notbase58\w+)"\)',src).group(1)
out.append(f'''theorem bad_text_{len(bad)} : (b58Deserialize goHashes
    (str "{s}")).2 ≠
    none := by decide +kernel
''')
dir=os.path.join(os.path.dirname(os.path.abspath(__file__)),"../lean/Verif/Vectors")
os.makedirs(dir,exist_ok=True)
open(dir+"/Base.lean","w").write('''import Verif.Crypto.Go
import Verif.Curve.Table
import Verif.Model.Child

/-!
# The test vectors of bip32/bip32_test.go, run in the model

The modules in this directory are tests of the model, not properties: they show that it computes, with the real hash
functions, what the tests of the repo demand of the code. By C29 they hold for every map order. Of the twenty public
children two are run. Written by tools/gen_vectors.py.
-/

namespace Bips

/-- The key with the given 78 bytes. -/
def keyN (n : Nat) : Key := ⟨beBytes 78 n, by simp⟩

/-- The registry for one of the map orders. -/
def reg : Registry := Registry.init pathTable

end Bips
''')
full="\n".join(out)
parts=re.split(r'(?=/-! ### (?:Vector|Public))',full)[1:]
for name,body in zip(["One","Two","Three","Public"],parts):
    open(f"{dir}/{name}.lean","w").write(f'''import Verif.Vectors.Base

namespace Bips

set_option maxRecDepth 100000

{body}
end Bips
''')
