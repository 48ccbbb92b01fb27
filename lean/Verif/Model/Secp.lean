import Verif.Go.Bytes
import Verif.Curve.PowMod

/-!
# secp256k1 as used by bip32

Model of `curve = secp256k1.S256()` (repo: bip32/utils.go:16-19), i.e. of the methods `Params`, `Add`
and `ScalarBaseMult` of decred's `KoblitzCurve`.  The package is third-party and not in the repo; it is
modelled by contract: affine arithmetic modulo the field prime, the pair `(0,0)` standing for the point at
infinity (decred: `jacobianToBigAffine` of the point at infinity is `(0,0)`; `Add` treats `(0,0)` as the
identity).  Decred's Jacobian/field/scalar internals are not modelled.
-/

namespace Bips

/-- `curveParams.P`. -/
def secpP : Nat := 0xFFFFFFFFFFFFFFFFFFFFFFFFFFFFFFFFFFFFFFFFFFFFFFFFFFFFFFFEFFFFFC2F

/-- `curveParams.N`. -/
def secpN : Nat := 0xFFFFFFFFFFFFFFFFFFFFFFFFFFFFFFFEBAAEDCE6AF48A03BBFD25E8CD0364141

/-- `curveParams.B`. -/
def secpB : Nat := 7

/-- `curveParams.Gx, curveParams.Gy`. -/
def secpG : Nat × Nat :=
  (0x79BE667EF9DCBBAC55A06295CE870B07029BFCDB2DCE28D959F2815B16F81798,
   0x483ADA7726A3C4655DA4FBFC0E1108A8FD17B448A68554199C47D08FFB10D4B8)

/-- Inverse modulo the field prime (Fermat). -/
def fieldInv (a : Nat) : Nat := powMod secpP a (secpP - 2)

/-- Tangent rule.  Decred `DoubleNonConst`: a point with `y = 0` doubles to infinity. -/
def affineDouble (q : Nat × Nat) : Nat × Nat :=
  if q.2 = 0 then (0, 0) else
  let l := 3 * q.1 * q.1 % secpP * fieldInv (2 * q.2) % secpP
  let x := (l * l + 2 * secpP - q.1 - q.1) % secpP
  (x, (l * (q.1 + secpP - x) + secpP - q.2) % secpP)

/-- Chord rule on reduced coordinates with different x. -/
def affineChord (q r : Nat × Nat) : Nat × Nat :=
  let l := (q.2 + secpP - r.2) % secpP * fieldInv (q.1 + secpP - r.1) % secpP
  let x := (l * l + 2 * secpP - q.1 - r.1) % secpP
  (x, (l * (q.1 + secpP - x) + secpP - q.2) % secpP)

/-- Chord-and-tangent rule on reduced coordinates.  Decred `AddNonConst`. -/
def affineAdd (q r : Nat × Nat) : Nat × Nat :=
  if q = (0, 0) then r else if r = (0, 0) then q else
  if q.1 = r.1 then (if q.2 = r.2 then affineDouble q else (0, 0)) else affineChord q r

/-- `curve.Add(x1, y1, x2, y2)` for integers of at most 256 bits.  Field values made by `SetByteSlice` are not normalized: the tests
for the identity and for equal coordinates look at the integers as they are, the arithmetic at their residues.  For different
integers with the same residue the chord rule ends with z = 0, which is converted to (0,0). -/
def curveAdd (q r : Nat × Nat) : Nat × Nat :=
  if q = (0, 0) then r else if r = (0, 0) then q else
  if q.1 = r.1 then (if q.2 = r.2 then affineDouble (q.1 % secpP, q.2 % secpP) else (0, 0)) else
  if q.1 % secpP = r.1 % secpP then (0, 0) else
  affineChord (q.1 % secpP, q.2 % secpP) (r.1 % secpP, r.2 % secpP)

/-- Double-and-add: `acc + e·q`. First argument is fuel. -/
def smulAux : Nat → Nat → Nat × Nat → Nat × Nat → Nat × Nat
  | 0, _, _, acc => acc
  | f + 1, e, q, acc =>
    if e = 0 then acc
    else smulAux f (e / 2) (affineDouble q) (if e % 2 = 1 then affineAdd acc q else acc)

/-- `curve.ScalarBaseMult(k)`: the scalar is reduced modulo the group order. -/
def scalarBaseMult (k : Bytes) : Nat × Nat := smulAux 256 (setBytes k % secpN) secpG (0, 0)

end Bips
