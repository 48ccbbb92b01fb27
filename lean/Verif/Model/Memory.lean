import Verif.Model.Child
import Verif.Model.Util

/-!
# The functions of package bip32 on memory

The other modules treat byte slices and `Key` arrays as values. Here the same functions are written down once more on a
memory of backing arrays, with slice headers and Go's `append`, so that it can be proved which memory they write
(`Props/Memory`), and that the values are those of the other modules.

Not modelled: slice expressions out of range (every one below is in range for the arguments considered), reuse of memory by
the garbage collector.
-/

namespace Bips

/-- The backing arrays allocated so far; the address of an array is its position. -/
abbrev Heap := List Bytes

/-- A `[]byte` header. -/
structure Sl where
  addr : Nat
  off : Nat
  len : Nat
  cap : Nat

/-- A computation on memory. -/
def Mem (α : Type) := Heap → α × Heap

instance : Monad Mem where
  pure a := fun h => (a, h)
  bind f g := fun h => g (f h).1 (f h).2

/-- The slice lies inside its array. -/
def Sl.InHeap (s : Sl) (h : Heap) : Prop :=
  s.addr < h.length ∧ s.len ≤ s.cap ∧ s.off + s.cap ≤ (h.getD s.addr []).length

/-- `s[i:j]`. -/
def Sl.sub (s : Sl) (i j : Nat) : Sl := ⟨s.addr, s.off + i, j - i, s.cap - i⟩

/-- `key[i:j]` for `key *Key` pointing at the array `p`; its capacity reaches to the end of the 78 bytes. -/
def keySl (p i j : Nat) : Sl := ⟨p, i, j - i, 78 - i⟩

/-- `a[i:j]` for an array variable of `n` bytes at address `p`. -/
def arraySl (p n i j : Nat) : Sl := ⟨p, i, j - i, n - i⟩

namespace Mem

/-- The bytes of a slice. -/
def read (s : Sl) : Mem Bytes := fun h => (slice (h.getD s.addr []) s.off (s.off + s.len), h)

/-- A new array variable (`var childKey Key`, `var data [33]byte`, `&Key{}`). -/
def newArray (b : Bytes) : Mem Nat := fun h => (h.length, h ++ [b])

/-- A slice made by a library function (`hash.Sum(nil)`, `x.Bytes()`, …): a new array, with `g` bytes of spare capacity. `g`
may depend on the number of arrays so far and on the length, and is arbitrary. -/
def fresh (g : Nat → Nat → Nat) (b : Bytes) : Mem Sl := fun h =>
  (⟨h.length, 0, b.length, b.length + g h.length b.length⟩, h ++ [b ++ List.replicate (g h.length b.length) 0])

/-- `make([]byte, n)`: no spare capacity. -/
def makeBytes (n : Nat) : Mem Sl := fun h => (⟨h.length, 0, n, n⟩, h ++ [List.replicate n 0])

/-- `copy(s, src)`. -/
def copyTo (s : Sl) (src : Bytes) : Mem Unit := fun h =>
  ((), h.modify s.addr fun a => copyAt a s.off (s.off + s.len) src)

/-- `append(s, src...)`: in place when the capacity suffices, otherwise into a new array. -/
def append (g : Nat → Nat → Nat) (s : Sl) (src : Bytes) : Mem Sl := fun h =>
  if s.len + src.length ≤ s.cap then
    (⟨s.addr, s.off, s.len + src.length, s.cap⟩,
      h.modify s.addr fun a => copyAt a (s.off + s.len) (s.off + s.len + src.length) src)
  else fresh g ((read s h).1 ++ src) h

variable (H : Hashes) (R : Registry) (g : Nat → Nat → Nat)

/-- `ChecksumDblSha256` (bip32/utils.go:41-44). -/
def checksumDblSha256 (data : Sl) : Mem Sl := do
  let d ← read data
  let hash ← fresh g (H.sha256 (H.sha256 d))
  pure (hash.sub 0 4)

/-- `AddChecksumDblSha256ToBytes` (bip32/utils.go:46-52). -/
def addChecksumDblSha256ToBytes (data : Sl) : Mem Sl := do
  let checksum ← checksumDblSha256 H g data
  let c ← read checksum
  append g data c

/-- `HashRipeMD160onSha256` (bip32/utils.go:31-39). -/
def hashRipeMD160onSha256 (data : Sl) : Mem Sl := do
  let d ← read data
  fresh g (Bips.hashRipeMD160onSha256 H d)

/-- `publicKeyForPrivateKey` (bip32/utils.go:63-65). -/
def publicKeyForPrivateKey (key : Sl) : Mem Sl := do
  let k ← read key
  fresh g (Bips.publicKeyForPrivateKey k)

/-- `addPublicKeys` (bip32/utils.go:67-71). -/
def addPublicKeys (key1 key2 : Sl) : Mem Sl := do
  let k1 ← read key1
  let k2 ← read key2
  fresh g (Bips.addPublicKeys k1 k2)

/-- `addPrivateKeys` (bip32/utils.go:73-88): the sum is written to a new array, `extra` is another one, and `append` to
`extra` makes a third. -/
def addPrivateKeys (key1 key2 : Sl) : Mem Sl := do
  let k1 ← read key1
  let k2 ← read key2
  let b ← fresh g (bigBytes ((setBytes k1 + setBytes k2) % secpN))
  if b.len < 32 then do
    let extra ← makeBytes (32 - b.len)
    let bs ← read b
    append g extra bs
  else pure b

/-- `uint32Bytes` (bip32/utils.go:143-147). -/
def uint32Bytes (i : UInt32) : Mem Sl := do
  let b ← makeBytes 4
  copyTo b (putUint32 i)
  pure b

/-- `Serialize` (bip32/bip32.go:246-263) of the key at `p`; `none` is the nil slice. -/
def serialize (p : Nat) : Mem (Option Sl × Option Err) := do
  let k ← read (keySl p 0 78)
  if k.all (· == 0) then pure (none, some .emptyKey)
  else do
    let serializedKey ← addChecksumDblSha256ToBytes H g (keySl p 0 78)
    pure (some serializedKey, none)

/-- `B58Serialize`, `String` (bip32/bip32.go:266-278); a Go string is immutable, hence a value. -/
def string (p : Nat) : Mem Bytes := do
  let r ← serialize H g p
  match r with
  | (some s, none) => do
    let b ← read s
    pure (b58Encode b)
  | _ => pure []

/-- `Deserialize` (bip32/bip32.go:293-313); the `Key` returned is a copy, hence a value. -/
def deserialize (data : Sl) : Mem (Bytes × Option Err) :=
  if data.len ≠ 82 then
    if data.len < 82 then do
      let exData ← makeBytes (82 - data.len)
      let z ← read exData
      let data ← append g data z
      let k ← read (data.sub 0 78)
      pure (k, some .serializedKeyWrongSize)
    else do
      let k ← read (data.sub 0 78)
      pure (k, some .serializedKeyWrongSize)
  else do
    let cs1 ← checksumDblSha256 H g (data.sub 0 (data.len - 4))
    let c1 ← read cs1
    let c2 ← read (data.sub (data.len - 4) data.len)
    let k ← read (data.sub 0 78)
    if checksumMatches c1 c2 then pure (k, none) else pure (k, some .invalidChecksum)

/-- `IsValid` (bip32/bip32.go:280-290). -/
def isValid (p : Nat) : Mem Bool := do
  let r ← serialize H g p
  match r with
  | (some bs, none) => do
    let d ← deserialize H g bs
    pure d.2.isNone
  | _ => pure false

/-- `IsPrivate` (bip32/bip32.go:103-105). -/
def isPrivate (p : Nat) : Mem Bool := do
  let b ← read (keySl p pubKeyStart (pubKeyStart + 1))
  pure (b == [0])

/-- `SetVersion` (bip32/bip32.go:320-322), and the other setters (bip32/bip32.go:333-375). -/
def setField (p i j : Nat) (v : Bytes) : Mem Unit := copyTo (keySl p i j) v

/-- `getIntermediary` (bip32/bip32.go:174-196). -/
def getIntermediary (p : Nat) (childIdx : UInt32) : Mem Sl := do
  let childIndexBytes ← uint32Bytes childIdx
  let data ← newArray (List.replicate 33 0)
  if childIdx ≥ firstHardenedChild then do
    let k ← read (keySl p pvtKeyStart pvtKeyEnd)
    copyTo (arraySl data 33 1 33) k
  else do
    let priv ← isPrivate p
    if priv then do
      let q ← publicKeyForPrivateKey g (keySl p pvtKeyStart pvtKeyEnd)
      let b ← read q
      copyTo (arraySl data 33 0 33) b
    else do
      let k ← read (keySl p pubKeyStart 78)
      copyTo (arraySl data 33 0 33) k
  let c ← read childIndexBytes
  let dataN ← append g (arraySl data 33 0 33) c
  let cc ← read (keySl p chainCodeStart chainCodeEnd)
  let d ← read dataN
  fresh g (H.hmacSha512 cc d)

/-- `NewChildKey` (bip32/bip32.go:108-172) for the key at `p`. The child is a local array, returned as a copy. -/
def newChildKey (p : Nat) (childIdx : UInt32) : Mem (Bytes × Option Err) := do
  let c ← newArray (List.replicate 78 0)
  let priv ← isPrivate p
  if !priv && decide (childIdx ≥ firstHardenedChild) then do
    let r ← read (keySl c 0 78)
    pure (r, some .hardenedChildPublicKey)
  else do
    let intermediary ← getIntermediary H g p childIdx
    let vs ← read (keySl p versionStart versionEnd)
    let vsVal := getUint32 vs
    if priv then
      if (R.pvtFlag vsVal).length = 0 then do
        let r ← read (keySl c 0 78)
        pure (r, some .unSupportedHDVersionBytes)
      else do
        let ib ← uint32Bytes childIdx
        let ibs ← read ib
        setField c childNumberStart childNumberEnd ibs
        let il ← read (intermediary.sub 32 64)
        setField c chainCodeStart chainCodeEnd il
        let d ← read (keySl p depthStart depthEnd)
        setField c depthStart depthEnd (d.map (· + 1))
        setField c versionStart versionEnd vs
        let q ← publicKeyForPrivateKey g (keySl p pvtKeyStart pubKeyEnd)
        let fingerprint ← hashRipeMD160onSha256 H g q
        let f ← read (fingerprint.sub 0 4)
        setField c fingerPrintStart fingerPrintEnd f
        let kbs ← addPrivateKeys g (intermediary.sub 0 32) (keySl p pvtKeyStart 78)
        let k ← read (kbs.sub 0 32)
        setField c pvtKeyStart pubKeyEnd k
        let pk ← read (keySl c pvtKeyStart pubKeyEnd)
        let r ← read (keySl c 0 78)
        pure (r, validatePrivateKey pk)
    else
      match R.pubFlag vsVal with
      | [] => do
        let r ← read (keySl c 0 78)
        pure (r, some .unSupportedHDVersionBytes)
      | hd :: _ => do
        let ib ← uint32Bytes childIdx
        let ibs ← read ib
        setField c childNumberStart childNumberEnd ibs
        let il ← read (intermediary.sub 32 64)
        setField c chainCodeStart chainCodeEnd il
        let d ← read (keySl p depthStart depthEnd)
        setField c depthStart depthEnd (d.map (· + 1))
        setField c versionStart versionEnd hd.pubKeyFlagBytes
        let keyBytes ← publicKeyForPrivateKey g (intermediary.sub 0 32)
        let kb ← read keyBytes
        match validateChildPublicKey kb with
        | some err => do
          let r ← read (keySl c 0 78)
          pure (r, some err)
        | none => do
          let fingerprint ← hashRipeMD160onSha256 H g (keySl p pubKeyStart 78)
          let f ← read fingerprint
          copyTo (keySl c fingerPrintStart fingerPrintEnd) f
          let kbs ← addPublicKeys g keyBytes (keySl p pubKeyStart 78)
          let k ← read (kbs.sub 0 33)
          setField c pubKeyStart pubKeyEnd k
          let r ← read (keySl c 0 78)
          pure (r, none)

/-- `PublicKeyExtended` (bip32/bip32.go:202-225). -/
def publicKeyExtended (p : Nat) : Mem Bytes := do
  let vs ← read (keySl p versionStart versionEnd)
  let vsVal := getUint32 vs
  let e ← newArray (List.replicate 78 0)
  let k ← read (keySl p 0 78)
  copyTo (keySl e 0 78) k
  let priv ← isPrivate p
  if priv then do
    let q ← publicKeyForPrivateKey g (keySl p pvtKeyStart 78)
    let b ← read q
    copyTo (keySl e pubKeyStart pubKeyEnd) b
    setField e versionStart versionEnd (match R.pvtFlag vsVal with
      | [] => defaultMainnetVersion.pubKeyFlagBytes
      | hd :: _ => hd.pubKeyFlagBytes)
    read (keySl e 0 78)
  else do
    setField e versionStart versionEnd (match R.pubFlag vsVal with
      | [] => defaultMainnetVersion.pubKeyFlagBytes
      | _ :: _ => vs)
    read (keySl e 0 78)

/-- `NewMasterKey` (bip32/bip32.go:79-101): the address of the new key, or nil. -/
def newMasterKey (seed : Sl) : Mem (Option Nat × Option Err) := do
  let s ← read seed
  let intermediary ← fresh g (H.hmacSha512 (str "Bitcoin seed") s)
  let keyBytes ← read (intermediary.sub 0 32)
  let chainCode ← read (intermediary.sub 32 64)
  match validatePrivateKey keyBytes with
  | some err => pure (none, some err)
  | none => do
    let key ← newArray (List.replicate 78 0)
    setField key versionStart versionEnd defaultMainnetVersion.pvtKeyFlagBytes
    setField key chainCodeStart chainCodeEnd chainCode
    setField key pvtKeyStart pubKeyEnd keyBytes
    pure (some key, none)

/-- `PrivateKeyHex` (bip32/bip32.go:228-233). -/
def privateKeyHex (p : Nat) : Mem Bytes := do
  let priv ← isPrivate p
  if priv then do
    let b ← read (keySl p pvtKeyStart pvtKeyEnd)
    pure (hexEncode b)
  else pure []

/-- `PublicKeyHex` (bip32/bip32.go:236-242). -/
def publicKeyHex (p : Nat) : Mem Bytes := do
  let priv ← isPrivate p
  if priv then do
    let k ← publicKeyExtended R g p
    pure (hexEncode (slice k pubKeyStart pubKeyEnd))
  else do
    let b ← read (keySl p pubKeyStart pubKeyEnd)
    pure (hexEncode b)

/-- `SetRootKey` (util/util.go:83-85) of the generator whose `rootKey` is at `p`. -/
def setRootKey (p : Nat) (k : Bytes) : Mem Unit := copyTo (keySl p 0 78) k

/-- `RootKey` (util/util.go:87-89): the address of the generator's own key. -/
def rootKey (p : Nat) : Mem Nat := pure p

/-- The loop of `DeriveBIP32Result` (util/util.go:114-124); `c` is the local variable `currentKey`. The elements of the result
hold copies of it. -/
def deriveLoop (c : Nat) : List UInt32 → Bytes → Mem (List (Bytes × Bytes))
  | [], _ => pure []
  | val :: vals, derivedPath => do
    let derivedPath := appendComponent derivedPath val
    let r ← newChildKey H R g c val
    copyTo (keySl c 0 78) r.1
    let cur ← read (keySl c 0 78)
    let rest ← deriveLoop c vals derivedPath
    pure ((pathFormatted derivedPath, cur) :: rest)

/-- `DeriveBIP32Result` (util/util.go:91-127) of the generator whose `rootKey` is at `p`. -/
def deriveBIP32Result (p : Nat) (path : Bytes) : Mem (List (Bytes × Bytes) × Option Err) := do
  let q ← rootKey p
  let valid ← isValid H g q
  let priv ← isPrivate q
  let depth ← read (keySl q depthStart depthEnd)
  if !valid || !priv || depth != [0] then pure ([], some .invalidRootKey)
  else if !pathIsValid path then pure ([], some .utilUnSupportedOrInvalidPath)
  else
    match valuesAtDepth path with
    | (_, some e) => pure ([], some e)
    | (pathItems, none) => do
      let k ← read (keySl q 0 78)
      let c ← newArray k
      if pathItems.length > 0 then do
        let rest ← deriveLoop H R g c (pathItems.drop 1) (str "m")
        pure ((str "m", k) :: rest, none)
      else pure ([(str "m", k)], none)

end Mem

end Bips
