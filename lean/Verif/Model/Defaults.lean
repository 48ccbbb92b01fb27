import Verif.Model.Child

/-!
# bip32/bip32.go: the default version as the variable it is

`DefaultMainnetVersion` is an exported variable that a caller may set. `Model/Child` takes its initial value; the two functions
that read it are repeated here with its value as a parameter.
-/

namespace Bips

/-- `NewMasterKey` (bip32/bip32.go:79-101) when `DefaultMainnetVersion` is `D`. -/
def newMasterKeyWith (D : VersionBytes) (H : Hashes) (seed : Bytes) : Option Key × Option Err :=
  let intermediary := H.hmacSha512 (str "Bitcoin seed") seed
  let keyBytes := slice intermediary 0 32
  let chainCode := slice intermediary 32 intermediary.length
  match validatePrivateKey keyBytes with
  | some err => (none, some err)
  | none => (some (((Key.zero.setVersion D.pvtKeyFlagBytes).setChainCode chainCode).setPvtKeyBytes keyBytes), none)

/-- `PublicKeyExtended` (bip32/bip32.go:202-225) when `DefaultMainnetVersion` is `D`. -/
def Key.publicKeyExtendedWith (D : VersionBytes) (R : Registry) (key : Key) : Key :=
  let vs := slice key.bytes versionStart versionEnd
  let vsVal := getUint32 vs
  if key.isPrivate then
    let vs := match R.pvtFlag vsVal with
      | [] => D.pubKeyFlagBytes
      | hd :: _ => hd.pubKeyFlagBytes
    (key.put pubKeyStart pubKeyEnd (publicKeyForPrivateKey (slice key.bytes pvtKeyStart 78))).setVersion vs
  else
    let vs := match R.pubFlag vsVal with
      | [] => D.pubKeyFlagBytes
      | _ :: _ => vs
    key.setVersion vs

end Bips
