import Verif.Props.Serial
import Verif.Props.Registry

/-! # C19: human-readable prefixes -/

namespace Bips

theorem toDigitsBE_div (b : Nat) (hb : 2 ≤ b) (k n : Nat) (h : n / b ^ k ≠ 0) :
    ∃ r, toDigitsBE b n = toDigitsBE b (n / b ^ k) ++ r ∧ r.length = k := by
  induction k generalizing n with
  | zero => exact ⟨[], by simp⟩
  | succ k ih =>
    have hn : n ≠ 0 := by rintro rfl; simp at h
    have e : n / b ^ (k + 1) = n / b / b ^ k := by rw [Nat.div_div_eq_div_mul, pow_succ']
    rw [e] at h ⊢
    obtain ⟨r, hr, hl⟩ := ih (n / b) h
    exact ⟨r ++ [n % b], by rw [toDigitsBE_step b hb n hn, hr, List.append_assoc], by simp [hl]⟩

/-- Base58 text of `v ‖ rest` when all values with that first four bytes share their leading digits. -/
theorem prefix_aux (v : UInt32) (rest : Bytes) (B K q : Nat) (hB : 256 ^ rest.length = B) (h24 : 2 ^ 24 ≤ v.toNat)
    (hq : q ≠ 0) (hlo : v.toNat * B / 58 ^ K = q) (hhi : (v.toNat * B + (B - 1)) / 58 ^ K = q) :
    ∃ r, b58Encode (putUint32 v ++ rest) = (toDigitsBE 58 q).map b58Char ++ r ∧ r.length = K := by
  have hval : setBytes (putUint32 v ++ rest) = v.toNat * B + setBytes rest := by
    rw [setBytes_append, hB]
    have := setBytes_beBytes 4 v.toNat
    rw [Nat.mod_eq_of_lt (by have := v.toNat_lt; omega)] at this
    rw [← this]; rfl
  have hrest : setBytes rest < B := by rw [← hB]; exact setBytes_lt rest
  have hdiv : setBytes (putUint32 v ++ rest) / 58 ^ K = q := by
    rw [hval]
    apply le_antisymm
    · rw [← hhi]
      exact Nat.div_le_div_right (by omega)
    · rw [← hlo]
      exact Nat.div_le_div_right (by omega)
  obtain ⟨r, hr1, hr2⟩ := toDigitsBE_div 58 (by omega) K (setBytes (putUint32 v ++ rest)) (by rw [hdiv]; exact hq)
  have hhead : (putUint32 v ++ rest).takeWhile (· == 0) = [] := by
    have hv : putUint32 v = beBytes 4 v.toNat := rfl
    rw [hv]
    cases hp : beBytes 4 v.toNat with
    | nil => have := congrArg List.length hp; simp at this
    | cons a l =>
      have hl : l.length = 3 := by have := congrArg List.length hp; simp at this; omega
      have ha : a ≠ 0 := by
        rintro rfl
        have h1 := setBytes_beBytes 4 v.toNat
        have h2 := setBytes_lt l
        rw [Nat.mod_eq_of_lt (by have := v.toNat_lt; omega), hp, setBytes_cons] at h1
        rw [hl] at h2
        simp only [UInt8.toNat_zero, Nat.zero_mul, Nat.zero_add] at h1
        omega
      simp [ha]
  refine ⟨r.map b58Char, ?_, by simp [hr2]⟩
  rw [b58Encode_eq, hhead, hr1, hdiv]; simp

/-- Decides that the texts of all 82-byte serializations under version `v` start with `pre` and have `K + 4`
characters: the two extreme values have the same leading digits. -/
def prefixCheck (v : UInt32) (pre : Bytes) (K : Nat) : Bool :=
  let lo := v.toNat * 256 ^ 78
  let hi := lo + (256 ^ 78 - 1)
  let q := lo / 58 ^ K
  decide (2 ^ 24 ≤ v.toNat) && decide (q ≠ 0) && decide (hi / 58 ^ K = q) &&
    decide ((toDigitsBE 58 q).map b58Char = pre) && decide (pre.length = 4)

theorem prefixCheck_iff (v : UInt32) (pre : Bytes) (K B : Nat) (hB : 256 ^ 78 = B) (h : prefixCheck v pre K = true) :
    2 ^ 24 ≤ v.toNat ∧ v.toNat * B / 58 ^ K ≠ 0 ∧ (v.toNat * B + (B - 1)) / 58 ^ K = v.toNat * B / 58 ^ K ∧
    (toDigitsBE 58 (v.toNat * B / 58 ^ K)).map b58Char = pre ∧ pre.length = 4 := by
  subst hB
  unfold prefixCheck at h
  generalize (256 ^ 78 : Nat) = B at h ⊢
  simp only [Bool.and_eq_true, decide_eq_true_eq] at h
  exact ⟨h.1.1.1.1, h.1.1.1.2, h.1.1.2, h.1.2, h.2⟩

theorem prefix_of_check {v : UInt32} {pre : Bytes} {K : Nat} (hc : prefixCheck v pre K = true) (H : Hashes) (k : Key)
    (hk : k.getVersion = v) : (k.string H).take 4 = pre ∧ (k.string H).length = K + 4 := by
  obtain ⟨B, hB⟩ : ∃ B : Nat, 256 ^ 78 = B := ⟨_, rfl⟩
  obtain ⟨h24, hq, hhi, hdig, hlen⟩ := prefixCheck_iff v pre K B hB hc
  have hvb := k.version_bytes
  rw [hk] at hvb
  have hne : k ≠ Key.zero := by
    rintro rfl
    have : v = 0 := by rw [← hk]; decide
    rw [this] at h24; simp at h24
  have hbytes : k.bytes = putUint32 v ++ k.bytes.drop 4 := by
    rw [← hvb]
    have : slice k.bytes 0 4 = k.bytes.take 4 := by simp [slice]
    rw [this, List.take_append_drop]
  obtain ⟨r, h1, h2⟩ := prefix_aux v (k.bytes.drop 4 ++ (H.sha256 (H.sha256 k.bytes)).take 4) B K _
    (by rw [← hB]; congr 1; simp [k.len]) h24 hq rfl hhi
  rw [Key.string, Key.b58Serialize_ne_zero H k hne, hbytes, List.append_assoc, ← hbytes, h1, hdig]
  constructor
  · rw [List.take_left' hlen]
  · simp [hlen, h2]; omega

/-- **C19** (partial). For every registered entry except three, every key with one of its versions, private or
public, prints as 111 characters beginning with the declared prefix, whatever the rest of the key and the hash
function. Missing: the three entries of `C19_wrong_prefixes`, for which the claim is false. -/
theorem C19_prefixes_partial (H : Hashes) (e : VersionBytes) (he : Registered e)
    (hx : e ≠ nexaxprvxpub ∧ e ≠ nexaxprvxpub2 ∧ e ≠ vertcoinvtcpvtcv) (k : Key) :
    (k.getVersion = e.pvtKeyFlag → (k.string H).take 4 = e.pvKeyPrefix ∧ (k.string H).length = 111) ∧
    (k.getVersion = e.pubKeyFlag → (k.string H).take 4 = e.pubKeyPrefix ∧ (k.string H).length = 111) := by
  have h : ∀ e ∈ entries, e ≠ nexaxprvxpub ∧ e ≠ nexaxprvxpub2 ∧ e ≠ vertcoinvtcpvtcv →
      prefixCheck e.pvtKeyFlag e.pvKeyPrefix 107 = true ∧ prefixCheck e.pubKeyFlag e.pubKeyPrefix 107 = true := by
    decide +kernel
  obtain ⟨h1, h2⟩ := h e ((registered_iff e).1 he) hx
  exact ⟨prefix_of_check h1 H k, prefix_of_check h2 H k⟩

/-- **C19**, the deviation: the declared prefixes of three registered entries are wrong for every key, and these
are the prefixes that are printed. -/
theorem C19_wrong_prefixes (H : Hashes) (k : Key) :
    (Registered nexaxprvxpub ∧ Registered nexaxprvxpub2 ∧ Registered vertcoinvtcpvtcv) ∧
    (k.getVersion = nexaxprvxpub.pvtKeyFlag → (k.string H).take 4 = str "F6rx" ∧ (k.string H).length = 112) ∧
    (k.getVersion = nexaxprvxpub.pubKeyFlag → (k.string H).take 4 = str "F6iY" ∧ (k.string H).length = 112) ∧
    (k.getVersion = nexaxprvxpub2.pvtKeyFlag → (k.string H).take 4 = str "tprv") ∧
    (k.getVersion = nexaxprvxpub2.pubKeyFlag → (k.string H).take 4 = str "tpub") ∧
    (k.getVersion = vertcoinvtcpvtcv.pvtKeyFlag → (k.string H).take 4 = str "xprv") ∧
    (k.getVersion = vertcoinvtcpvtcv.pubKeyFlag → (k.string H).take 4 = str "xpub") ∧
    (∀ e ∈ [nexaxprvxpub, nexaxprvxpub2, vertcoinvtcpvtcv],
      (k.getVersion = e.pvtKeyFlag → (k.string H).take 4 ≠ e.pvKeyPrefix) ∧
      (k.getVersion = e.pubKeyFlag → (k.string H).take 4 ≠ e.pubKeyPrefix)) := by
  have h1 := fun h => prefix_of_check (v := nexaxprvxpub.pvtKeyFlag) (pre := str "F6rx") (K := 108)
    (by decide +kernel) H k h
  have h2 := fun h => prefix_of_check (v := nexaxprvxpub.pubKeyFlag) (pre := str "F6iY") (K := 108)
    (by decide +kernel) H k h
  have h3 := fun h => (prefix_of_check (v := nexaxprvxpub2.pvtKeyFlag) (pre := str "tprv") (K := 107)
    (by decide +kernel) H k h).1
  have h4 := fun h => (prefix_of_check (v := nexaxprvxpub2.pubKeyFlag) (pre := str "tpub") (K := 107)
    (by decide +kernel) H k h).1
  have h5 := fun h => (prefix_of_check (v := vertcoinvtcpvtcv.pvtKeyFlag) (pre := str "xprv") (K := 107)
    (by decide +kernel) H k h).1
  have h6 := fun h => (prefix_of_check (v := vertcoinvtcpvtcv.pubKeyFlag) (pre := str "xpub") (K := 107)
    (by decide +kernel) H k h).1
  simp only [registered_iff]
  refine ⟨by decide +kernel, h1, h2, h3, h4, h5, h6, ?_⟩
  intro e he
  simp only [List.mem_cons, List.not_mem_nil, or_false] at he
  rcases he with rfl | rfl | rfl
  · exact ⟨fun h => by rw [(h1 h).1]; decide +kernel, fun h => by rw [(h2 h).1]; decide +kernel⟩
  · exact ⟨fun h => by rw [h3 h]; decide +kernel, fun h => by rw [h4 h]; decide +kernel⟩
  · exact ⟨fun h => by rw [h5 h]; decide +kernel, fun h => by rw [h6 h]; decide +kernel⟩

/-- A key meeting the hypotheses, with every field set. -/
example : Registered bitcoinxprvxpub ∧
    (bitcoinxprvxpub ≠ nexaxprvxpub ∧ bitcoinxprvxpub ≠ nexaxprvxpub2 ∧ bitcoinxprvxpub ≠ vertcoinvtcpvtcv) ∧
    (sampleKey.setVersion (putUint32 0x0488ade4)).getVersion = bitcoinxprvxpub.pvtKeyFlag := by
  rw [registered_iff]; decide +kernel

end Bips
