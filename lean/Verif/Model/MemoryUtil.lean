import Verif.Model.Memory

/-!
# The functions of package util on memory

`Model/Memory` and `Model/MemoryWords` treat the lists of keys made by package util as values. Here the two functions that
build them are on memory, too, and `RootKeyFromSeed` is added. The lists are slices of `KeyPath` values, grown by `append`,
and `GenerateRange` stores one in its receiver; so there is a second kind of backing arrays, and a list of variables of type
`KeyPathRange`.

Not modelled: slice expressions out of range (none occurs for the arguments considered).
-/

namespace Bips

namespace Mem

variable (H : Hashes) (g : Nat → Nat → Nat)

/-- `RootKeyFromSeed` (util/util.go:56-75): the address of the key returned. -/
def rootKeyFromSeed (seed : Bytes) : Mem (Outcome (Nat × Option Err)) := do
  let rootKey ← newArray (List.replicate 78 0)
  match hexDecode seed with
  | none => pure (.ok (rootKey, some .hexDecode))
  | some b => do
    let seedBs ← fresh g b
    if seedBs.len < 16 then pure (.ok (rootKey, some .invalidBIP39Seed))
    else do
      let r ← newMasterKey H g seedBs
      match r.1 with
      | none => pure .panic
      | some rootKey => do
        let ser ← serialize H g rootKey
        match ser with
        | (some s, none) => do
          let d ← deserialize H g s
          pure (.ok (rootKey, d.2))
        | (_, e) => pure (.ok (rootKey, e))

end Mem

/-- A `KeyPath` value: the path and the 78 bytes of the key (util/key_path.go:11-14). -/
abbrev Row := Bytes × Bytes

/-- A variable of type `KeyPathRange` (util/key_path.go:69-74): its array `Key` is at `keyAddr`, its slice `KeyPaths` has the header
`keyPaths`. -/
structure RangeVar where
  startIndex : UInt32
  endIndex : UInt32
  path : Bytes
  keyAddr : Nat
  keyPaths : Sl

/-- Memory: byte arrays, arrays of `KeyPath` values, and variables of type `KeyPathRange`. -/
structure Store where
  heap : Heap
  rows : List (List Row)
  ranges : List RangeVar

/-- A computation on such a memory. -/
def StoreM (α : Type) := Store → α × Store

instance : Monad StoreM where
  pure a := fun s => (a, s)
  bind f k := fun s => k (f s).1 (f s).2

namespace StoreM

/-- A computation that touches byte arrays only. -/
def bytes {α : Type} (f : Mem α) : StoreM α := fun s => ((f s.heap).1, { s with heap := (f s.heap).2 })

/-- The zero `KeyPath`. -/
def zeroRow : Row := ([], List.replicate 78 0)

/-- A new array with these elements and `n` more. -/
def freshRows (l : List Row) (n : Nat) : StoreM Sl := fun s =>
  (⟨s.rows.length, 0, l.length, l.length + n⟩, { s with rows := s.rows ++ [l ++ List.replicate n zeroRow] })

/-- The elements of a slice of `KeyPath` values. -/
def readRows (t : Sl) (rows : List (List Row)) : List Row := ((rows.getD t.addr []).drop t.off).take t.len

/-- `append(keyPaths, r)`: in place when the capacity suffices, otherwise into a new array with `g` elements to spare. -/
def appendRow (g : Nat → Nat → Nat) (t : Sl) (r : Row) : StoreM Sl := fun s =>
  if t.len + 1 ≤ t.cap then
    (⟨t.addr, t.off, t.len + 1, t.cap⟩, { s with rows := s.rows.modify t.addr fun a => a.set (t.off + t.len) r })
  else freshRows (readRows t s.rows ++ [r]) (g s.rows.length t.len) s

variable (H : Hashes) (R : Registry) (g : Nat → Nat → Nat)

/-- The loop of `DeriveBIP32Result` (util/util.go:114-124); `c` is the local variable `currentKey`. -/
def deriveLoop (c : Nat) : List UInt32 → Bytes → Sl → StoreM Sl
  | [], _, keyPaths => pure keyPaths
  | val :: vals, derivedPath, keyPaths => do
    let derivedPath := appendComponent derivedPath val
    let r ← bytes (Mem.newChildKey H R g c val)
    bytes (Mem.copyTo (keySl c 0 78) r.1)
    let cur ← bytes (Mem.read (keySl c 0 78))
    let keyPaths ← appendRow g keyPaths (pathFormatted derivedPath, cur)
    deriveLoop c vals derivedPath keyPaths

/-- `DeriveBIP32Result` (util/util.go:91-127) of the generator whose `rootKey` is at `p`; `none` is the nil slice. -/
def deriveBIP32Result (p : Nat) (path : Bytes) : StoreM (Option Sl × Option Err) := do
  let valid ← bytes (Mem.isValid H g p)
  let priv ← bytes (Mem.isPrivate p)
  let depth ← bytes (Mem.read (keySl p depthStart depthEnd))
  if !valid || !priv || depth != [0] then pure (none, some .invalidRootKey)
  else if !pathIsValid path then pure (none, some .utilUnSupportedOrInvalidPath)
  else
    match valuesAtDepth path with
    | (_, some e) => pure (none, some e)
    | (pathItems, none) => do
      let k ← bytes (Mem.read (keySl p 0 78))
      let keyPaths ← freshRows [(str "m", k)] 0
      let c ← bytes (Mem.newArray k)
      if pathItems.length > 0 then do
        let keyPaths ← deriveLoop H R g c (pathItems.drop 1) (str "m") keyPaths
        pure (some keyPaths, none)
      else pure (some keyPaths, none)

/-- The loop of `GenerateRange` (util/key_path.go:93-103) at index `i`; `c` is the local variable `currentKey`. -/
def rangeLoop (c : Nat) (i endIndex : UInt32) (derivedPath : Bytes) (keyPaths : Sl) : StoreM Sl :=
  if h : i < endIndex then do
    let derivedPath := appendComponent derivedPath i
    let r ← bytes (Mem.newChildKey H R g c i)
    bytes (Mem.copyTo (keySl c 0 78) r.1)
    let cur ← bytes (Mem.read (keySl c 0 78))
    let keyPaths ← appendRow g keyPaths (pathFormatted derivedPath, cur)
    rangeLoop c (i + 1) endIndex derivedPath keyPaths
  else pure keyPaths
termination_by endIndex.toNat - i.toNat
decreasing_by
  have h1 : i.toNat < endIndex.toNat := UInt32.lt_iff_toNat_lt.1 h
  have h2 := endIndex.toNat_lt
  rw [UInt32.toNat_add, show (1 : UInt32).toNat = 1 from rfl, Nat.mod_eq_of_lt (by omega)]
  omega

/-- `k.KeyPaths = keyPaths` (util/key_path.go:104) for the variable number `v`. -/
def setKeyPaths (v : Nat) (keyPaths : Sl) : StoreM Unit := fun s =>
  ((), { s with ranges := s.ranges.modify v fun k => { k with keyPaths := keyPaths } })

/-- `GenerateRange` (util/key_path.go:76-106) of the variable number `v`, whose value is `k`. -/
def generateRange (v : Nat) (k : RangeVar) : StoreM (Option Err) :=
  if k.endIndex - k.startIndex < 1 then pure (some .invalidRangeProvided)
  else do
    let valid ← bytes (Mem.isValid H g k.keyAddr)
    if !valid then pure (some .invalidRootKey)
    else if !pathIsValid k.path then pure (some .utilUnSupportedOrInvalidPath)
    else do
      let cur ← bytes (Mem.read (keySl k.keyAddr 0 78))
      let c ← bytes (Mem.newArray cur)
      let keyPaths ← freshRows [] 0
      let keyPaths ← rangeLoop H R g c k.startIndex k.endIndex (pathString k.path) keyPaths
      setKeyPaths v keyPaths
      pure none

end StoreM

end Bips
