import Verif.Props.Addr
import Verif.Props.Prefix

/-!
# C106: how addresses look

A wallet tells the network and the kind of an address by its first character. These are facts about all keys whatsoever and
all hash functions.
-/

namespace Bips
open Spec

/-- The characters of Base58, in order. -/
def base58Letters : Bytes := str "123456789ABCDEFGHJKLMNPQRSTUVWXYZabcdefghijkmnopqrstuvwxyz"

theorem toDigitsBE_first (n K : Nat) (h1 : 58 ^ K ≤ n) (h2 : n < 58 ^ (K + 1)) :
    ∃ r, toDigitsBE 58 n = n / 58 ^ K :: r ∧ r.length = K := by
  have hpos : 0 < 58 ^ K := by positivity
  have hne : n / 58 ^ K ≠ 0 := by
    have := Nat.div_pos h1 hpos
    omega
  have hlt : n / 58 ^ K < 58 := by
    rw [Nat.div_lt_iff_lt_mul hpos, ← pow_succ']
    exact h2
  obtain ⟨r, hr, hl⟩ := toDigitsBE_div 58 (by decide) K n hne
  refine ⟨r, ?_, hl⟩
  rw [hr, toDigitsBE_step 58 (by decide) _ hne, Nat.div_eq_of_lt hlt, toDigitsBE_zero, Nat.mod_eq_of_lt hlt]
  rfl

section
variable (H : Hashes) (order : List (Bytes × List VersionBytes)) (ho : order.Perm pathTable)
include ho

/-- An address is the Base58 text of the version byte and 24 more bytes. -/
theorem addr_bytes (p : Bytes) (k : Key) (v : UInt8) :
    ∃ rest : Bytes, rest.length = 24 ∧ (KeyPath.mk p k).addrP2SH H (Registry.init order) v = b58Encode (v :: rest) := by
  refine ⟨hash160 H.sha256 H.ripemd160 (k.publicKeyExtended (Registry.init order)).getKeyBytes ++
    (H.sha256 (H.sha256 (v :: hash160 H.sha256 H.ripemd160 (k.publicKeyExtended (Registry.init order)).getKeyBytes))).take 4,
    by simp [hash160], ?_⟩
  rw [KeyPath.addrP2SH]
  dsimp only
  rw [(C35_hex_views order ho k).2.2.1.1]
  rfl

/-- **C106**, for every version byte but 0: the text has `K + 1` characters, the first of them the letter number `d` (from 0),
where `d · 58^K` and the number `(d + 1) · 58^K` enclose some number whose 25 bytes start with the version byte. -/
theorem C106_first_letter (p : Bytes) (k : Key) (v : UInt8) (hv : v ≠ 0) :
    ∃ n K d c r, v.toNat * 256 ^ 24 ≤ n ∧ n < (v.toNat + 1) * 256 ^ 24 ∧ 1 ≤ d ∧ d * 58 ^ K ≤ n ∧ n < (d + 1) * 58 ^ K ∧
      base58Letters[d]? = some c ∧ (KeyPath.mk p k).addrP2SH H (Registry.init order) v = c :: r ∧ r.length = K := by
  obtain ⟨rest, hl, e⟩ := addr_bytes H order ho p k v
  have hn : setBytes (v :: rest) = v.toNat * 256 ^ 24 + setBytes rest := by rw [setBytes_cons, hl]
  have hr := setBytes_lt rest
  rw [hl] at hr
  have hv1 : 1 ≤ v.toNat := by
    rcases Nat.eq_zero_or_pos v.toNat with h | h
    · exact absurd (UInt8.toNat_inj.1 h) hv
    · exact h
  have hpos : setBytes (v :: rest) ≠ 0 := by
    rw [hn]
    have : 0 < v.toNat * 256 ^ 24 := by positivity
    omega
  set n := setBytes (v :: rest) with hndef
  have h1 : 58 ^ Nat.log 58 n ≤ n := Nat.pow_log_le_self 58 hpos
  have h2 : n < 58 ^ (Nat.log 58 n + 1) := Nat.lt_pow_succ_log_self (by decide) n
  obtain ⟨r, hd, hrl⟩ := toDigitsBE_first n _ h1 h2
  set K := Nat.log 58 n
  have hpK : 0 < 58 ^ K := by positivity
  have hlt : n / 58 ^ K < 58 := by
    rw [Nat.div_lt_iff_lt_mul hpK, ← pow_succ']
    exact h2
  refine ⟨n, K, n / 58 ^ K, b58Char (n / 58 ^ K), r.map b58Char, by omega, ?_, Nat.div_pos h1 hpK, Nat.div_mul_le_self _ _,
    ?_, ?_, ?_, by rw [List.length_map, hrl]⟩
  · rw [hn, Nat.add_mul]; omega
  · exact (Nat.div_lt_iff_lt_mul hpK).1 (Nat.lt_succ_self _)
  · exact (by decide : ∀ d < 58, base58Letters[d]? = some (b58Char d)) _ hlt
  · have hvb : (v == 0) = false := by simpa using hv
    rw [e, b58Encode_eq, List.takeWhile_cons, hvb, ← hndef, hd]
    rfl

/-- **C106**, version byte 0: the text starts with 1 and has 25 to 34 characters. -/
theorem C106_zero (p : Bytes) (k : Key) :
    ∃ r, (KeyPath.mk p k).addrP2SH H (Registry.init order) 0 = 49 :: r ∧ 24 ≤ r.length ∧ r.length ≤ 33 := by
  obtain ⟨rest, hl, e⟩ := addr_bytes H order ho p k 0
  rw [e, b58Encode_eq]
  refine ⟨(rest.takeWhile (· == 0)).map (fun _ => b58Char 0) ++ (toDigitsBE 58 (setBytes (0 :: rest))).map b58Char, rfl, ?_⟩
  have hs : setBytes (0 :: rest) = setBytes (rest.dropWhile (· == 0)) := by
    have := congrArg setBytes (bigBytes_setBytes rest)
    rw [setBytes_bigBytes] at this
    rw [setBytes_cons, ← this]
    simp
  have hlen : (rest.takeWhile (· == 0)).length + (rest.dropWhile (· == 0)).length = 24 := by
    rw [← List.length_append, List.takeWhile_append_dropWhile, hl]
  have hhead := List.head?_dropWhile_not (fun x : UInt8 => x == 0) rest
  rw [hs, List.length_append, List.length_map, List.length_map]
  generalize rest.dropWhile (· == 0) = m at *
  have hm : m.length ≤ 24 := by omega
  have up := toDigitsBE_length_le 58 (by decide) (setBytes m) (9 + m.length)
    ((setBytes_lt m).trans_le ((by decide : ∀ l ≤ 24, 256 ^ l ≤ 58 ^ (9 + l)) _ hm))
  have lo : m.length ≤ (toDigitsBE 58 (setBytes m)).length := by
    cases m with
    | nil => exact Nat.zero_le _
    | cons a m =>
      have ha : 1 ≤ a.toNat := by
        rcases Nat.eq_zero_or_pos a.toNat with h | h
        · have : a = 0 := UInt8.toNat_inj.1 h
          simp [this] at hhead
        · exact h
      refine toDigitsBE_length_ge 58 (by decide) _ _ ?_
      rw [setBytes_cons]
      calc 58 ^ m.length ≤ 256 ^ m.length := Nat.pow_le_pow_left (by decide) _
        _ ≤ a.toNat * 256 ^ m.length := Nat.le_mul_of_pos_left _ ha
        _ ≤ _ := Nat.le_add_right _ _
  omega

/-- **C106**: only version byte 0 gives addresses that start with 1. -/
theorem C106_one_iff (p : Bytes) (k : Key) (v : UInt8) :
    ((KeyPath.mk p k).addrP2SH H (Registry.init order) v).head? = some 49 ↔ v = 0 := by
  constructor
  · intro h
    by_contra hv
    obtain ⟨n, K, d, c, r, -, -, hd, -, -, hc, e, -⟩ := C106_first_letter H order ho p k v hv
    rw [e] at h
    have hlt : d < 58 := by
      have := (List.getElem?_eq_some_iff.1 hc).1
      exact this.trans_eq (by decide)
    cases h
    exact (by decide : ∀ d < 58, 1 ≤ d → base58Letters[d]? ≠ some 49) d hlt hd hc
  · rintro rfl
    obtain ⟨r, e, -⟩ := C106_zero H order ho p k
    rw [e]; rfl

/-- **C106**: the number of characters of an address, by its version byte. -/
theorem C106_length (p : Bytes) (k : Key) (v : UInt8) :
    let l := ((KeyPath.mk p k).addrP2SH H (Registry.init order) v).length
    (v = 0 → 25 ≤ l ∧ l ≤ 34) ∧ (v = 1 → l = 33) ∧ (v = 2 → l = 33 ∨ l = 34) ∧ (3 ≤ v.toNat ∧ v.toNat ≤ 143 → l = 34) ∧
      (v = 144 → l = 34 ∨ l = 35) ∧ (145 ≤ v.toNat → l = 35) := by
  intro l
  by_cases hv : v = 0
  · subst hv
    obtain ⟨r, e, h1, h2⟩ := C106_zero H order ho p k
    have hl : l = r.length + 1 := by simp only [l, e, List.length_cons]
    refine ⟨fun _ => by omega, ?_, ?_, ?_, ?_, ?_⟩ <;> intro h <;> revert h <;> simp
  obtain ⟨n, K, d, c, r, h1, h2, hd, h3, h4, hc, e, hr⟩ := C106_first_letter H order ho p k v hv
  have hl : l = K + 1 := by simp only [l, e, List.length_cons, hr]
  have hd58 : d < 58 := by
    have := (List.getElem?_eq_some_iff.1 hc).1
    exact this.trans_eq (by decide)
  have h5 : 58 ^ K ≤ n := (Nat.le_mul_of_pos_left _ hd).trans h3
  have h6 : n < 58 ^ (K + 1) := h4.trans_le (by rw [pow_succ']; exact Nat.mul_le_mul_right _ hd58)
  have low : ∀ L, n < 58 ^ (L + 1) → K ≤ L := fun L h => by
    have := (Nat.pow_lt_pow_iff_right (by decide : 1 < 58)).1 (h5.trans_lt h); omega
  have high : ∀ L, 58 ^ L ≤ n → L ≤ K := fun L h => by
    have := (Nat.pow_lt_pow_iff_right (by decide : 1 < 58)).1 (h.trans_lt h6); omega
  have hvt := v.toNat_lt
  have l1 := low 32
  have l2 := low 33
  have l3 := low 34
  have g1 := high 32
  have g2 := high 33
  have g3 := high 34
  norm_num at l1 l2 l3 g1 g2 g3 h1 h2
  refine ⟨fun h => absurd h hv, ?_, ?_, fun h => ?_, ?_, fun h => ?_⟩
  · rintro rfl; have : (1 : UInt8).toNat = 1 := rfl; omega
  · rintro rfl; have : (2 : UInt8).toNat = 2 := rfl; omega
  · omega
  · rintro rfl; have : (144 : UInt8).toNat = 144 := rfl; omega
  · have : 1 ≤ v.toNat := by omega
    omega

/-- Version bytes in use, the first letters of their addresses and the number of characters. -/
def addressLooks : List (Nat × Bytes × Nat) :=
  [(5, str "3", 34), (28, str "C", 34), (30, str "D", 34), (38, str "G", 34), (48, str "L", 34), (50, str "M", 34),
   (55, str "P", 34), (60, str "R", 34), (76, str "X", 34), (111, str "mn", 34), (142, str "z", 34), (196, str "2", 35),
   (255, str "2", 35)]

/-- **C106**: the first letter of an address by its version byte. -/
theorem C106_letters (p : Bytes) (k : Key) (v : UInt8) (cs : Bytes) (l : Nat) (h : (v.toNat, cs, l) ∈ addressLooks) :
    ∃ c r, (KeyPath.mk p k).addrP2SH H (Registry.init order) v = c :: r ∧ c ∈ cs ∧ r.length + 1 = l := by
  have hv : v ≠ 0 := by
    rintro rfl
    simp [addressLooks] at h
  obtain ⟨n, K, d, c, r, h1, h2, hd, h3, h4, hc, e, hr⟩ := C106_first_letter H order ho p k v hv
  refine ⟨c, r, e, ?_⟩
  obtain ⟨-, -, -, len1, -, len2⟩ := C106_length H order ho p k v
  rw [e, List.length_cons] at len1 len2
  simp only [addressLooks, List.mem_cons, Prod.mk.injEq, List.not_mem_nil, or_false] at h
  rcases h with ⟨hn, rfl, rfl⟩ | ⟨hn, rfl, rfl⟩ | ⟨hn, rfl, rfl⟩ | ⟨hn, rfl, rfl⟩ | ⟨hn, rfl, rfl⟩ | ⟨hn, rfl, rfl⟩ | ⟨hn, rfl, rfl⟩ | ⟨hn, rfl, rfl⟩ | ⟨hn, rfl, rfl⟩ | ⟨hn, rfl, rfl⟩ | ⟨hn, rfl, rfl⟩ | ⟨hn, rfl, rfl⟩ | ⟨hn, rfl, rfl⟩
  · obtain rfl : K = 33 := by have := len1 (by omega); omega
    refine ⟨?_, by omega⟩
    norm_num at h1 h2 h3 h4
    obtain rfl : d = 2 := by omega
    cases hc; decide
  · obtain rfl : K = 33 := by have := len1 (by omega); omega
    refine ⟨?_, by omega⟩
    norm_num at h1 h2 h3 h4
    obtain rfl : d = 11 := by omega
    cases hc; decide
  · obtain rfl : K = 33 := by have := len1 (by omega); omega
    refine ⟨?_, by omega⟩
    norm_num at h1 h2 h3 h4
    obtain rfl : d = 12 := by omega
    cases hc; decide
  · obtain rfl : K = 33 := by have := len1 (by omega); omega
    refine ⟨?_, by omega⟩
    norm_num at h1 h2 h3 h4
    obtain rfl : d = 15 := by omega
    cases hc; decide
  · obtain rfl : K = 33 := by have := len1 (by omega); omega
    refine ⟨?_, by omega⟩
    norm_num at h1 h2 h3 h4
    obtain rfl : d = 19 := by omega
    cases hc; decide
  · obtain rfl : K = 33 := by have := len1 (by omega); omega
    refine ⟨?_, by omega⟩
    norm_num at h1 h2 h3 h4
    obtain rfl : d = 20 := by omega
    cases hc; decide
  · obtain rfl : K = 33 := by have := len1 (by omega); omega
    refine ⟨?_, by omega⟩
    norm_num at h1 h2 h3 h4
    obtain rfl : d = 22 := by omega
    cases hc; decide
  · obtain rfl : K = 33 := by have := len1 (by omega); omega
    refine ⟨?_, by omega⟩
    norm_num at h1 h2 h3 h4
    obtain rfl : d = 24 := by omega
    cases hc; decide
  · obtain rfl : K = 33 := by have := len1 (by omega); omega
    refine ⟨?_, by omega⟩
    norm_num at h1 h2 h3 h4
    obtain rfl : d = 30 := by omega
    cases hc; decide
  · obtain rfl : K = 33 := by have := len1 (by omega); omega
    refine ⟨?_, by omega⟩
    norm_num at h1 h2 h3 h4
    obtain rfl | rfl : d = 44 ∨ d = 45 := by omega
    all_goals cases hc; decide
  · obtain rfl : K = 33 := by have := len1 (by omega); omega
    refine ⟨?_, by omega⟩
    norm_num at h1 h2 h3 h4
    obtain rfl : d = 57 := by omega
    cases hc; decide
  · obtain rfl : K = 34 := by have := len2 (by omega); omega
    refine ⟨?_, by omega⟩
    norm_num at h1 h2 h3 h4
    obtain rfl : d = 1 := by omega
    cases hc; decide
  · obtain rfl : K = 34 := by have := len2 (by omega); omega
    refine ⟨?_, by omega⟩
    norm_num at h1 h2 h3 h4
    obtain rfl : d = 1 := by omega
    cases hc; decide

/-- **C106**: an Ethereum style address has 40 characters, all of them digits or small letters a to f: no `0x` in front and no
capital letters as check (EIP-55). -/
theorem C106_hex (p : Bytes) (k : Key) :
    let t := (KeyPath.mk p k).addrHex H (Registry.init order)
    t.length = 40 ∧ ∀ c ∈ t, c ∈ str "0123456789abcdef" := by
  intro t
  have e : ∃ b : Bytes, b.length = 20 ∧ t = hexEncode b := by
    simp only [t]
    rw [KeyPath.addrHex, (C35_hex_views order ho k).2.2.1.1]
    exact ⟨_, by simp, rfl⟩
  obtain ⟨b, hb, e⟩ := e
  rw [e, hexEncode_eq_hex]
  have hd : ∀ n < 16, (str "0123456789abcdef").getD n 0 ∈ str "0123456789abcdef" := by decide
  constructor
  · rw [hex, List.length_flatMap]
    simp [hb]
  · intro c hc
    rw [hex, List.mem_flatMap] at hc
    obtain ⟨x, -, hx⟩ := hc
    have := x.toNat_lt
    rw [List.mem_cons, List.mem_singleton] at hx
    rcases hx with rfl | rfl
    · exact hd _ (by omega)
    · exact hd _ (by omega)

set_option maxRecDepth 100000 in
/-- The key with scalar 1: its addresses on the Bitcoin network, on Litecoin's and on the test network. -/
example (p : Bytes) :
    let a := (KeyPath.mk p (xprvKey 1)).addrP2SH goHashes (Registry.init order)
    a 0 = str "1BgGZ9tcN4rm9KBzDn7KprQz87SZ26SAMH" ∧ a 48 = str "LVuDpNCSSj6pQ7t9Pv6d6sUkLKoqDEVUnJ" ∧
      a 111 = str "mrCDrCybB6J1vRfbwM5hemdJz73FwDBC8r" := by
  intro a
  have hp : serP (point 1) = beBytes 33 0x0279be667ef9dcbbac55a06295ce870b07029bfcdb2dce28d959f2815b16f81798 := by
    rw [← compressPublicKey_coords _ (point_ne_zero (by decide)), coords_point 1 _ rfl]; decide +kernel
  have e : ∀ v, a v = b58Encode (addrPayload sha256 v (hash160 sha256 ripemd160 (serP (point 1)))) := by
    intro v
    have hh : HoldsPoint (xprvKey 1) (point 1) := .inl ⟨1, xprvKey_isXprv (s := 1) (by decide) (by decide), rfl⟩
    obtain ⟨h1, h2⟩ := C51_address goHashes order ho p _ _ hh v
    rw [← b58Encode_decode (a v) (fun h => by simp only [a] at h; rw [h] at h2; cases h2), h1]
    rfl
  rw [e, e, e, hp]
  decide +kernel

end
end Bips
