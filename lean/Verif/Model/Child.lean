import Verif.Model.Registry

/-!
# bip32/bip32.go: master keys, child derivation, neutering, hex views

`H` are the hash functions, `R` the registry built by `init`.
-/

namespace Bips

/-- `NewMasterKey` (bip32/bip32.go:79-101). `(nil, err)` is `(none, some err)`. `hm.Write` never fails. -/
def newMasterKey (H : Hashes) (seed : Bytes) : Option Key × Option Err :=
  let intermediary := H.hmacSha512 (str "Bitcoin seed") seed
  let keyBytes := slice intermediary 0 32
  let chainCode := slice intermediary 32 intermediary.length
  match validatePrivateKey keyBytes with
  | some err => (none, some err)
  | none =>
    (some (((Key.zero.setVersion defaultMainnetVersion.pvtKeyFlagBytes).setChainCode chainCode).setPvtKeyBytes
      keyBytes), none)

namespace Key

/-- `getIntermediary` (bip32/bip32.go:174-196); its error is always nil. `data` is a 33-byte array, filled by
`copy`. -/
def getIntermediary (H : Hashes) (key : Key) (childIdx : UInt32) : Bytes :=
  let zero33 : Bytes := List.replicate 33 0
  let data :=
    if childIdx ≥ firstHardenedChild then copyAt zero33 1 33 (slice key.bytes pvtKeyStart pvtKeyEnd)
    else if key.isPrivate then
      copyAt zero33 0 33 (publicKeyForPrivateKey (slice key.bytes pvtKeyStart pvtKeyEnd))
    else copyAt zero33 0 33 (slice key.bytes pubKeyStart 78)
  H.hmacSha512 (slice key.bytes chainCodeStart chainCodeEnd) (data ++ uint32Bytes childIdx)

/-- `NewChildKey` (bip32/bip32.go:108-172). Every path returns a `Key` beside the error, as in Go; on the
late errors it is the partly filled child. -/
def newChildKey (H : Hashes) (R : Registry) (key : Key) (childIdx : UInt32) : Key × Option Err :=
  if !key.isPrivate && decide (childIdx ≥ firstHardenedChild) then (zero, some .hardenedChildPublicKey)
  else
    let intermediary := key.getIntermediary H childIdx
    let vs := slice key.bytes versionStart versionEnd
    let vsVal := getUint32 vs
    if key.isPrivate then
      if (R.pvtFlag vsVal).length = 0 then (zero, some .unSupportedHDVersionBytes)
      else
        let childKey := (((zero.setChildNumber (uint32Bytes childIdx)).setChainCode (slice intermediary 32 64)).setDepth
          (key.byteAt depthStart + 1)).setVersion vs
        let fingerprint := hashRipeMD160onSha256 H (publicKeyForPrivateKey (slice key.bytes pvtKeyStart pubKeyEnd))
        let childKey := childKey.setFingerPrint (slice fingerprint 0 4)
        let kbs := addPrivateKeys (slice intermediary 0 32) (slice key.bytes pvtKeyStart 78)
        let childKey := childKey.setPvtKeyBytes (slice kbs 0 32)
        (childKey, validatePrivateKey childKey.getPvtKeyBytes)
    else
      match R.pubFlag vsVal with
      | [] => (zero, some .unSupportedHDVersionBytes)
      | hd :: _ =>
        let vs := hd.pubKeyFlagBytes
        let childKey := (((zero.setChildNumber (uint32Bytes childIdx)).setChainCode (slice intermediary 32 64)).setDepth
          (key.byteAt depthStart + 1)).setVersion vs
        let keyBytes := publicKeyForPrivateKey (slice intermediary 0 32)
        match validateChildPublicKey keyBytes with
        | some err => (childKey, some err)
        | none =>
          let fingerprint := hashRipeMD160onSha256 H (slice key.bytes pubKeyStart 78)
          let childKey := childKey.put fingerPrintStart fingerPrintEnd (fingerprint.take 4)
          let kbs := addPublicKeys keyBytes (slice key.bytes pubKeyStart 78)
          (childKey.setPubKeyBytes (slice kbs 0 33), none)

/-- `PublicKeyExtended` (bip32/bip32.go:202-225). -/
def publicKeyExtended (R : Registry) (key : Key) : Key :=
  let vs := slice key.bytes versionStart versionEnd
  let vsVal := getUint32 vs
  if key.isPrivate then
    let vs := match R.pvtFlag vsVal with
      | [] => defaultMainnetVersion.pubKeyFlagBytes
      | hd :: _ => hd.pubKeyFlagBytes
    (key.put pubKeyStart pubKeyEnd (publicKeyForPrivateKey (slice key.bytes pvtKeyStart 78))).setVersion vs
  else
    let vs := match R.pubFlag vsVal with
      | [] => defaultMainnetVersion.pubKeyFlagBytes
      | _ :: _ => vs
    key.setVersion vs

/-- `PrivateKeyHex` (bip32/bip32.go:228-233). -/
def privateKeyHex (key : Key) : Bytes :=
  if key.isPrivate then hexEncode (slice key.bytes pvtKeyStart pvtKeyEnd) else []

/-- `PublicKeyHex` (bip32/bip32.go:236-242). -/
def publicKeyHex (R : Registry) (key : Key) : Bytes :=
  if key.isPrivate then hexEncode (slice (key.publicKeyExtended R).bytes pubKeyStart pubKeyEnd)
  else hexEncode (slice key.bytes pubKeyStart pubKeyEnd)

end Key

end Bips
