import Verif.Model.Util
import Verif.Spec.Address
import Verif.Props.Tree
import Verif.Crypto.Go
import Verif.Curve.Table

/-!
# C50–C52: addresses
-/

namespace Bips
open Spec

/-- The key holds the public point `Q`, as private scalar or directly. -/
def HoldsPoint (k : Key) (Q : Pt) : Prop := (∃ s, IsXprv k s ∧ Q = point s) ∨ IsXpub k Q

theorem hexEncode_eq_hex (b : Bytes) : hexEncode b = hex b := by
  have hd : ∀ n : Fin 16, hexDigit n.1 = (str "0123456789abcdef").getD n.1 0 := by decide +kernel
  unfold hexEncode hex
  apply List.flatMap_congr
  intro x _
  have := x.toNat_lt
  rw [hd ⟨x.toNat / 16, by omega⟩, hd ⟨x.toNat % 16, by omega⟩]

section
variable (H : Hashes) (order : List (Bytes × List VersionBytes)) (ho : order.Perm pathTable)
include ho

theorem publicBytes_of_holds {k : Key} {Q : Pt} (h : HoldsPoint k Q) :
    (k.publicKeyExtended (Registry.init order)).getKeyBytes = serP Q ∧ Q ≠ 0 := by
  rcases h with ⟨s, hs, rfl⟩ | h
  · exact ⟨(C27_neuter order ho k).2.2.1 s hs, point_ne_zero' hs.2.1 hs.2.2⟩
  · refine ⟨?_, h.2⟩
    rw [(C27_neuter order ho k).2.2.2.1, h.1]
    have hb := h.1
    obtain ⟨a, l, e⟩ : ∃ a l, serP Q = a :: l := by
      cases hQ : serP Q with
      | nil => have := serP_length Q h.2; rw [hQ] at this; simp at this
      | cons a l => exact ⟨a, l, rfl⟩
    rw [e] at hb
    rw [(isPrivate_of_keyBytes k hb).1]
    have : a ≠ 0 := by
      intro h0
      cases Q with
      | zero => exact h.2 rfl
      | some x y hxy =>
        have := (List.cons.inj e).1
        rw [h0] at this
        split at this <;> exact absurd this (by decide)
    simpa using this

/-! ### C50 -/

/-- **C50**, what the code does: it hashes the coordinates without their leading zero bytes, which is the right
preimage exactly when both coordinates need all 32 bytes. -/
theorem C50_addrHex_exact (p : Bytes) (k : Key) (Q : Pt) (h : HoldsPoint k Q) :
    (KeyPath.mk p k).addrHex H (Registry.init order) =
      hex ((H.keccak256 ((ser256 (coords Q).1).dropWhile (· == 0) ++ (ser256 (coords Q).2).dropWhile (· == 0))).drop 12) ∧
    ((ser256 (coords Q).1).dropWhile (· == 0) ++ (ser256 (coords Q).2).dropWhile (· == 0) = ethPreimage Q ↔
      256 ^ 31 ≤ (coords Q).1 ∧ 256 ^ 31 ≤ (coords Q).2) := by
  obtain ⟨hb, hQ⟩ := publicBytes_of_holds order ho h
  have hlt := coords_lt Q
  have hser : ∀ n, n < secpP → (ser256 n).dropWhile (· == 0) = bigBytes n := by
    intro n hn
    rw [ser256, ← bigBytes_setBytes, setBytes_beBytes, Nat.mod_eq_of_lt (lt_trans hn secpP_lt)]
  rw [hser _ hlt.1, hser _ hlt.2]
  constructor
  · rw [KeyPath.addrHex]
    dsimp only
    rw [(C35_hex_views order ho k).2.2.1.1, hb]
    dsimp only
    rw [expandPublicKey_serP Q hQ, hexEncode_eq_hex]
  · rw [ethPreimage]
    have hx := bigBytes_length_le (lt_trans hlt.1 secpP_lt)
    have hy := bigBytes_length_le (lt_trans hlt.2 secpP_lt)
    have full : ∀ n, n < secpP → (256 ^ 31 ≤ n ↔ (bigBytes n).length = 32) := by
      intro n hn
      constructor
      · intro h
        have h1 := bigBytes_length_gt h
        have h2 := bigBytes_length_le (lt_trans hn secpP_lt)
        omega
      · intro h
        by_contra hc
        have := bigBytes_length_le (Nat.lt_of_not_le hc)
        omega
    have pad : ∀ n, n < secpP → 256 ^ 31 ≤ n → bigBytes n = ser256 n := by
      intro n hn h
      have := padLeft_bigBytes (lt_trans hn secpP_lt)
      rw [ser256, ← this, padLeft, (full n hn).1 h]
      rfl
    constructor
    · intro e
      have := congrArg List.length e
      simp only [List.length_append, ser256_length] at this
      exact ⟨(full _ hlt.1).2 (by omega), (full _ hlt.2).2 (by omega)⟩
    · rintro ⟨h1, h2⟩
      rw [pad _ hlt.1 h1, pad _ hlt.2 h2]

/-- **C50** for points both of whose coordinates have a non-zero first byte. The missing part is points with a
coordinate below 2²⁴⁸, about one key in 128; there the code hashes something else (`C50_addrHex_exact`,
`C50_wrong_key`). -/
theorem C50_addrHex_partial (p : Bytes) (k : Key) (Q : Pt) (h : HoldsPoint k Q) (hx : 256 ^ 31 ≤ (coords Q).1)
    (hy : 256 ^ 31 ≤ (coords Q).2) :
    (KeyPath.mk p k).addrHex H (Registry.init order) = ethAddress H.keccak256 Q := by
  obtain ⟨h1, h2⟩ := C50_addrHex_exact H order ho p k Q h
  rw [h1, h2.2 ⟨hx, hy⟩, ethAddress]

omit ho in
/-- Coordinates of small multiples of the base point, by computation. -/
theorem coords_point (s : Nat) (q : Nat × Nat) (h : tableBaseMult (bigBytes s) = q) : coords (point s) = q := by
  rw [← h, ← tableBaseMult_eq, scalarBaseMult_eq, setBytes_bigBytes]; rfl

set_option maxRecDepth 100000 in
/-- **C50**, the deviation, with the hash functions the program runs with: the private key 153 has a point whose X
coordinate starts with a zero byte; the preimage is 63 bytes long and the address is the wrong one. -/
theorem C50_wrong_key (p : Bytes) : HoldsPoint (xprvKey 153) (point 153) ∧
    (KeyPath.mk p (xprvKey 153)).addrHex goHashes (Registry.init order) =
      str "c807272eaef8d53b1f0147467b9293984808c792" ∧
    ethAddress keccak256 (point 153) = str "2798ba84d7830c5f60d750f37f87d93277106905" := by
  have hx := xprvKey_isXprv (s := 153) (by decide) (by decide)
  have hh : HoldsPoint (xprvKey 153) (point 153) := .inl ⟨153, hx, rfl⟩
  obtain ⟨h1, -⟩ := C50_addrHex_exact goHashes order ho p _ _ hh
  refine ⟨hh, ?_, ?_⟩
  · rw [h1, coords_point 153 _ rfl]; decide +kernel
  · rw [ethAddress, ethPreimage, coords_point 153 _ rfl]; decide +kernel

set_option maxRecDepth 100000 in
/-- A key as in `C50_addrHex_partial`, with its address. -/
example (p : Bytes) : (KeyPath.mk p (xprvKey 1)).addrHex goHashes (Registry.init order) =
    str "7e5f4552091a69125d5dfcb7b8c2659029395bdf" := by
  have hh : HoldsPoint (xprvKey 1) (point 1) := .inl ⟨1, xprvKey_isXprv (s := 1) (by decide) (by decide), rfl⟩
  obtain ⟨h1, -⟩ := C50_addrHex_exact goHashes order ho p _ _ hh
  rw [h1, coords_point 1 _ rfl]; decide +kernel

/-- The hypotheses of the partial theorem are met by the private key 1. -/
example : HoldsPoint (xprvKey 1) (point 1) ∧ 256 ^ 31 ≤ (coords (point 1)).1 ∧ 256 ^ 31 ≤ (coords (point 1)).2 := by
  refine ⟨.inl ⟨1, xprvKey_isXprv (by decide) (by decide), rfl⟩, ?_⟩
  rw [coords_point 1 _ rfl]; decide +kernel

/-! ### C51 -/

/-- **C51.** The address is the Base58 text whose decoding is the version byte, the HASH160 of the compressed public
point and a matching checksum. -/
theorem C51_address (p : Bytes) (k : Key) (Q : Pt) (h : HoldsPoint k Q) (v : UInt8) :
    b58Decode ((KeyPath.mk p k).addrP2SH H (Registry.init order) v) =
      addrPayload H.sha256 v (hash160 H.sha256 H.ripemd160 (serP Q)) ∧
    (b58Decode ((KeyPath.mk p k).addrP2SH H (Registry.init order) v)).length = 25 := by
  have e : (KeyPath.mk p k).addrP2SH H (Registry.init order) v =
      b58Encode (addrPayload H.sha256 v (hash160 H.sha256 H.ripemd160 (serP Q))) := by
    rw [KeyPath.addrP2SH]
    dsimp only
    rw [(C35_hex_views order ho k).2.2.1.1, (publicBytes_of_holds order ho h).1]
    rfl
  rw [e, b58Decode_encode]
  exact ⟨rfl, by simp [addrPayload, hash160]⟩

/-- **C51**, injectivity, for all keys whatsoever: two addresses are equal exactly when the version bytes and the
hashes of the public key bytes are. -/
theorem C51_injective (p p' : Bytes) (k k' : Key) (v v' : UInt8) :
    let pub := fun k : Key => (k.publicKeyExtended (Registry.init order)).getKeyBytes
    (KeyPath.mk p k).addrP2SH H (Registry.init order) v = (KeyPath.mk p' k').addrP2SH H (Registry.init order) v' ↔
      v = v' ∧ hash160 H.sha256 H.ripemd160 (pub k) = hash160 H.sha256 H.ripemd160 (pub k') := by
  intro pub
  have e : ∀ p k v, (KeyPath.mk p k).addrP2SH H (Registry.init order) v =
      b58Encode (addrPayload H.sha256 v (hash160 H.sha256 H.ripemd160 (pub k))) := by
    intro p k v
    rw [KeyPath.addrP2SH]
    dsimp only
    rw [(C35_hex_views order ho k).2.2.1.1]
    rfl
  rw [e, e]
  constructor
  · intro h
    have h1 := b58Encode_injective h
    rw [addrPayload, addrPayload, List.cons_append, List.cons_append, List.cons.injEq] at h1
    exact ⟨h1.1, (List.append_inj h1.2 (by simp [hash160])).1⟩
  · rintro ⟨rfl, h⟩
    rw [h]

/-- The hypothesis of C51 is met; the public key has an address too. -/
example : HoldsPoint (xpubKey (point 7)) (point 7) := .inr (xpubKey_isXpub (point_ne_zero (by decide)))

/-! ### C52 -/

/-- **C52.** Addresses depend only on the public part: for every key, and whatever path is noted beside it, they are
unchanged by neutering. -/
theorem C52_neutered (p p' : Bytes) (k : Key) (v : UInt8) :
    (KeyPath.mk p (k.publicKeyExtended (Registry.init order))).addrHex H (Registry.init order) =
      (KeyPath.mk p' k).addrHex H (Registry.init order) ∧
    (KeyPath.mk p (k.publicKeyExtended (Registry.init order))).addrP2SH H (Registry.init order) v =
      (KeyPath.mk p' k).addrP2SH H (Registry.init order) v := by
  have h := (C35_hex_views order ho k).2.2.2.1
  rw [KeyPath.addrHex, KeyPath.addrHex, KeyPath.addrP2SH, KeyPath.addrP2SH]
  dsimp only
  rw [h]
  exact ⟨rfl, rfl⟩

/-! ### C70 -/

/-- **C70.** `AddrP2SH` gives the script address of a key exactly when the HASH160 of the witness script collides with the
HASH160 of the public key. -/
theorem C70_script_address_iff (p : Bytes) (k : Key) (Q : Pt) (h : HoldsPoint k Q) (v : UInt8) :
    b58Decode ((KeyPath.mk p k).addrP2SH H (Registry.init order) v) =
        addrPayload H.sha256 v (scriptHash H.sha256 H.ripemd160 Q) ↔
      hash160 H.sha256 H.ripemd160 (serP Q) =
        hash160 H.sha256 H.ripemd160 (0x00 :: 0x14 :: hash160 H.sha256 H.ripemd160 (serP Q)) := by
  rw [(C51_address H order ho p k Q h v).1]
  constructor
  · intro e
    have e1 : ∀ h : Bytes, h.length = 20 → ((addrPayload H.sha256 v h).drop 1).take 20 = h := by
      intro h hl
      simp [addrPayload, ← hl]
    have e2 := congrArg (fun b => (b.drop 1).take 20) e
    rw [e1 _ (by simp [hash160]), e1 _ (by simp [scriptHash, hash160])] at e2
    exact e2
  · intro e
    rw [scriptHash, ← e]

set_option maxRecDepth 100000 in
/-- **C70** with the hash functions the program runs with, on the key of the test vector in BIP-49: the script address is
the one given there, `AddrP2SH` gives another one, with the hash of the public key in place of the hash of the script. -/
theorem C70_bip49_vector (p : Bytes) :
    let s := 0xc9bdb49cfbaedca21c4b1f3a7803c34636b1d7dc55a717132443fc3f4c5867e8
    HoldsPoint (xprvKey s) (point s) ∧
    b58Encode (addrPayload sha256 196 (scriptHash sha256 ripemd160 (point s))) = str "2Mww8dCYPUpKHofjgcXcBCEGmniw9CoaiD2" ∧
    (KeyPath.mk p (xprvKey s)).addrP2SH goHashes (Registry.init order) 196 = str "2MxQSsE6jnqMBvxbXb6De9kmEgUAGcRr5yA" := by
  intro s
  have hh : HoldsPoint (xprvKey s) (point s) := .inl ⟨s, xprvKey_isXprv (s := s) (by decide) (by decide), rfl⟩
  have hp : serP (point s) = beBytes 33 0x03a1af804ac108a8a51782198c2d034b28bf90c8803f5a53f76276fa69a4eae77f := by
    rw [← compressPublicKey_coords _ (point_ne_zero (by decide)), coords_point s _ rfl]; decide +kernel
  refine ⟨hh, ?_, ?_⟩
  · rw [scriptHash, hp]; decide +kernel
  · obtain ⟨h1, h2⟩ := C51_address goHashes order ho p _ _ hh 196
    have h3 := b58Encode_decode ((KeyPath.mk p (xprvKey s)).addrP2SH goHashes (Registry.init order) 196)
      (fun h => by rw [h] at h2; cases h2)
    rw [← h3, h1, hp]
    decide +kernel

end

end Bips
