import Verif.Src.Interleave

/-!
# The accesses of `MnemonicToByteArray` and `NewSeedWithErrorChecking`

Both reach the package variables only through `EntropyFromMnemonic`; their trees are its lookups, with another end.
-/

set_option linter.unusedSimpArgs false
set_option exponentiation.threshold 300

namespace Bips.Src

open Bips

/-- `MnemonicToByteArray(mnemonic, raw…)` (bip39/bip39.go:217-238) after the call of `EntropyFromMnemonic` has given this. -/
def bytesAfter (H : Hashes) (mnemonic : Bytes) (raw : List Bool) : Outcome (Bytes × Option Err) → Outcome (Bytes × Option Err)
  | .panic => .panic
  | .ok (_, some e) => .ok ([], some e)
  | .ok (r, none) =>
    if raw.head? = some true then .ok (r, none)
    else .ok (padByteSlice (addChecksum H r) (((splitByte 32 mnemonic).length * 11 - (splitByte 32 mnemonic).length * 11 % 32) / 8 + 1), none)

/-- `NewSeedWithErrorChecking(mnemonic, password)` (bip39/bip39.go:242-249) after `EntropyFromMnemonic`, called by `MnemonicToByteArray`, has given this. -/
def seedAfter (H : Hashes) (mnemonic password : Bytes) : Outcome (Bytes × Option Err) → Outcome (Bytes × Option Err)
  | .panic => .panic
  | .ok (_, some e) => .ok ([], some e)
  | .ok (_, none) => .ok (newSeed H mnemonic password, none)

theorem bytesAfter_alone (H : Hashes) (S : WordState) (m : Bytes) (raw : List Bool) :
    bytesAfter H m raw (entropyFromMnemonic H S m) = mnemonicToByteArray H S m raw := by
  unfold mnemonicToByteArray
  rcases entropyFromMnemonic H S m with ⟨r, _ | e⟩ | _ <;> rfl

theorem seedAfter_bytes (H : Hashes) (m p : Bytes) (o : Outcome (Bytes × Option Err)) : seedAfter H m p (bytesAfter H m [] o) = seedAfter H m p o := by
  rcases o with ⟨r, _ | e⟩ | _ <;> rfl

theorem seedAfter_alone (H : Hashes) (S : WordState) (m p : Bytes) :
    seedAfter H m p (entropyFromMnemonic H S m) = newSeedWithErrorChecking H S m p := by
  rw [← seedAfter_bytes, bytesAfter_alone]
  unfold newSeedWithErrorChecking
  rcases mnemonicToByteArray H S m with ⟨r, _ | e⟩ | _ <;> rfl

theorem racing_length (H : Hashes) (ms : List (Bytes → Option Nat)) (m r : Bytes) (h : entropyRacing H ms m = .ok (r, none)) : r.length < 36 := by
  unfold entropyRacing at h
  rcases hsp : splitMnemonicWords m with ⟨ws, _ | _⟩
  · simp [hsp] at h
  · have hws : ws.length ≤ 24 := by
      unfold splitMnemonicWords at hsp
      dsimp only at hsp
      split at hsp
      · simp at hsp
      · simp only [Prod.mk.injEq, and_true] at hsp
        rw [← hsp]
        omega
    rcases hd : decodeWordsRacing ms ws 0 with b | e
    · rcases hm : checksumMask ws.length with _ | mask
      · simp [hsp, hd, hm] at h
      · have hlt := decodeRacing_lt ws ms 0 16 b (by norm_num) (le_refl _) hd
        have hbl : (bigBytes (b / (mask + 1))).length ≤ 35 := by
          refine bigBytes_length_le ?_
          calc b / (mask + 1) ≤ b := Nat.div_le_self _ _
            _ < 2 ^ (16 + 11 * ws.length) := hlt
            _ ≤ 2 ^ (8 * 35) := Nat.pow_le_pow_right (by norm_num) (by omega)
            _ = 256 ^ 35 := by rw [show (256 : Nat) = 2 ^ 8 from rfl, ← pow_mul]
        have hpl : (padByteSlice (bigBytes (b / (mask + 1))) (ws.length / 3 * 4)).length < 36 := by
          unfold padByteSlice
          split
          · omega
          · simp only [List.length_append, List.length_replicate]
            omega
        simp only [hsp, hd, hm] at h
        generalize padByteSlice (bigBytes (b / (mask + 1))) (ws.length / 3 * 4) = ent at *
        by_cases h24 : ws.length = 24
        · simp only [h24, ne_eq, not_true_eq_false, if_false] at h
          split at h <;> simp_all
        · rw [if_pos h24] at h
          rcases hs : checksumShift ws.length with _ | sh
          · simp [hs] at h
          · simp only [hs] at h
            split at h <;> simp_all
    · simp [hsp, hd] at h

variable (W : World) (L : Nat)

theorem acc_MnemonicToByteArray (hL : 32 < L) (n : Nat) (m : Bytes) (raw : List Bool) (hb : m.length < 2 ^ 59) :
    accRun W L (n + 3) .bip39_MnemonicToByteArray [.str m, .list (raw.map .bool)] =
      lookups (lookedUp m) [] fun got => .leaf (outcome (both .bytes) (bytesAfter W.H m raw (entropyLookups W.H got m))) := by
  rw [accRun_succ _ _ _ _ _ (by intro h; cases h)]
  have hsl := splitByte_length_le 32 m
  unfold bytesAfter
  generalize hk : (splitByte 32 m).length = k at *
  have hw1 : wrapInt ((k : Int) * 11) = ((k * 11 : Nat) : Int) := by rw [wrapInt_of] <;> omega
  have ht1 : ((k * 11 : Nat) : Int).tmod 32 = ((k * 11 % 32 : Nat) : Int) := by
    rw [Int.tmod_eq_emod_of_nonneg (by omega)]; omega
  have hsub : ((k * 11 : Nat) : Int) - ((k * 11 % 32 : Nat) : Int) = ((k * 11 - k * 11 % 32 : Nat) : Int) :=
    (Nat.cast_sub (Nat.mod_le _ _)).symm
  have hle : k * 11 - k * 11 % 32 ≤ k * 11 := Nat.sub_le _ _
  have hw2 : wrapInt (((k * 11 : Nat) : Int) - ((k * 11 % 32 : Nat) : Int)) = ((k * 11 - k * 11 % 32 : Nat) : Int) := by
    rw [hsub]
    clear hw1 ht1 hsub
    generalize k * 11 - k * 11 % 32 = j at *
    rw [wrapInt_of] <;> omega
  have ht2 : ((k * 11 - k * 11 % 32 : Nat) : Int).tdiv 8 = (((k * 11 - k * 11 % 32) / 8 : Nat) : Int) := by
    rw [Int.tdiv_eq_ediv_of_nonneg (by omega)]; omega
  have hw3 : wrapInt (((k * 11 - k * 11 % 32) / 8 : Nat) : Int) = (((k * 11 - k * 11 % 32) / 8 : Nat) : Int) := by rw [wrapInt_of] <;> omega
  have hw4 : wrapInt ((((k * 11 - k * 11 % 32) / 8 : Nat) : Int) + 1) = (((k * 11 - k * 11 % 32) / 8 + 1 : Nat) : Int) := by rw [wrapInt_of] <;> omega
  have hk63 : (k * 11 - k * 11 % 32) / 8 + 1 < 2 ^ 63 := by clear hw1 ht1 hw2 hw3 ht2 hw4; omega
  simp -implicitDefEqProofs only [src, bip39_MnemonicToByteArray, accS, accE, accLib, hk, hw1, hw2, hw3, hw4, ht1, ht2, List.length_map, Int.reduceEq,
    acc_EntropyFromMnemonic, lookups_bind]
  refine congrArg (lookups (lookedUp m) []) (funext fun got => ?_)
  rcases he : entropyLookups W.H got m with ⟨r, _ | e⟩ | _
  · have hrl := racing_length W.H _ m r he
    have hal := addChecksum_length W.H r hrl
    have hadd := words_addChecksum W L n r (by clear hw1 ht1 hw2 hw3 ht2 hw4 hb; omega) (by clear hw1 ht1 hw2 hw3 ht2 hw4 hb; omega)
    have hpad := words_padByteSlice W L (n + 1) (addChecksum W.H r) ((k * 11 - k * 11 % 32) / 8 + 1)
      (by clear hw1 ht1 hw2 hw3 ht2 hw4 hb; omega) hk63
    have hqa := fun vs => accRun_quiet W L (n + 2) .bip39_addChecksum vs rfl
    have hqp := fun vs => accRun_quiet W L (n + 2) .bip39_padByteSlice vs rfl
    rcases raw with _ | ⟨b, raw⟩
    · simp -implicitDefEqProofs only [src, accS, accE, accLib, hqa, hqp, hadd, hpad, outcome, both,
        List.head?_nil, List.head?_cons, Nat.cast_zero, Int.reduceLT, reduceCtorEq, List.length_nil, List.map_nil]
    · have hlen : (0 : Int) < ((raw.length + 1 : Nat) : Int) := by omega
      have hix : indexSem (.list (.bool b :: raw.map .bool)) 0 = .ok (.bool b) := rfl
      cases b <;> simp -implicitDefEqProofs only [src, accS, accE, accLib, hqa, hqp, hadd, hpad, outcome, both, List.length_cons, List.map_cons, List.length_map,
        List.head?_nil, List.head?_cons, hlen, hix, reduceCtorEq, Option.some.injEq]
  · simp -implicitDefEqProofs only [src, accS, accE, accLib, outcome, both]
  · simp -implicitDefEqProofs only [src, accS, accE, accLib, outcome, both]

theorem acc_NewSeedWithErrorChecking (hL : 32 < L) (n : Nat) (m p : Bytes) (hb : m.length < 2 ^ 59) :
    accRun W L (n + 4) .bip39_NewSeedWithErrorChecking [.str m, .str p] =
      lookups (lookedUp m) [] fun got => .leaf (outcome (both .bytes) (seedAfter W.H m p (entropyLookups W.H got m))) := by
  rw [accRun_succ _ _ _ _ _ (by intro h; cases h)]
  have hm := acc_MnemonicToByteArray W L hL n m [] hb
  have hq := fun vs => accRun_quiet W L (n + 3) .bip39_NewSeed vs rfl
  rw [List.map_nil] at hm
  simp -implicitDefEqProofs only [src, bip39_NewSeedWithErrorChecking, accS, accE, accLib, hm, lookups_bind]
  refine congrArg (lookups (lookedUp m) []) (funext fun got => ?_)
  rw [← seedAfter_bytes]
  rcases bytesAfter W.H m [] (entropyLookups W.H got m) with ⟨r, _ | e⟩ | _ <;>
    simp -implicitDefEqProofs [src, accS, accE, accLib, hq, words_NewSeed, seedAfter, outcome, both]

end Bips.Src
