import Verif.Props.Seed
import Verif.Vectors.Base

/-!
# The first test vector of bip39/bip39_test.go:264-266, from the mnemonic to the root key

A test of the model with the real hash functions, like the other modules of this directory. The root key text was
computed independently with Python's hashlib.
-/

namespace Bips
open Spec

set_option maxRecDepth 100000

theorem walletVector_mnemonic : newMnemonic goHashes (setWordList english.list) (List.replicate 16 0) =
    .ok (str "abandon abandon abandon abandon abandon abandon abandon abandon abandon abandon abandon about", none) := by
  obtain ⟨ws, h1, -, h2⟩ := C03_bip39_encoding goHashes english_list_good (List.replicate 16 0) (by decide)
  rw [h1, ← h2 _ (encodes_zero english_first_last.1 english_first_last.2.2)]
  have h : [32].intercalate (List.replicate 11 (str "abandon") ++ [str "about"]) =
    str "abandon abandon abandon abandon abandon abandon abandon abandon abandon abandon abandon about" := by decide +kernel
  rw [h]

theorem walletVector_hex : hexEncode Seed.Plain.seed =
    str "c55257c360c07c72029aebc1b53c05ed0362ada38ead3e3e9efa3708e53495531f09a6987599d18264c1e1c92f2cf141630c7a3c4ab7c81b2f001698e7463b04" := by
  decide +kernel

theorem walletVector_texts : Seed.Plain.mnemonic =
      str "abandon abandon abandon abandon abandon abandon abandon abandon abandon abandon abandon about" ∧
    Seed.Plain.passphrase = str "TREZOR" := by
  constructor <;> decide +kernel

theorem walletVector_seed : deriveSeedFromMnemonic goHashes (setWordList english.list)
      (str "abandon abandon abandon abandon abandon abandon abandon abandon abandon abandon abandon about") (str "TREZOR") =
    .ok (str "c55257c360c07c72029aebc1b53c05ed0362ada38ead3e3e9efa3708e53495531f09a6987599d18264c1e1c92f2cf141630c7a3c4ab7c81b2f001698e7463b04",
      none) := by
  rw [← walletVector_texts.1, ← walletVector_texts.2, ← walletVector_hex, ← Seed.Plain.newSeed_eq, deriveSeedFromMnemonic,
    C75_space_changes_seed.1]

theorem walletVector_root :
    ∃ k, rootKeyFromSeed goHashes (str "c55257c360c07c72029aebc1b53c05ed0362ada38ead3e3e9efa3708e53495531f09a6987599d18264c1e1c92f2cf141630c7a3c4ab7c81b2f001698e7463b04") =
      .ok (k, none) ∧ k.string goHashes =
        str "xprv9s21ZrQH143K3h3fDYiay8mocZ3afhfULfb5GX8kCBdno77K4HiA15Tg23wpbeF1pLfs1c5SPmYHrEpTuuRhxMwvKDwqdKiGJS9XFKzUsAF" := by
  have h : (match rootKeyFromSeed goHashes (str "c55257c360c07c72029aebc1b53c05ed0362ada38ead3e3e9efa3708e53495531f09a6987599d18264c1e1c92f2cf141630c7a3c4ab7c81b2f001698e7463b04") with
    | .ok (k, none) => decide (k.string goHashes =
        str "xprv9s21ZrQH143K3h3fDYiay8mocZ3afhfULfb5GX8kCBdno77K4HiA15Tg23wpbeF1pLfs1c5SPmYHrEpTuuRhxMwvKDwqdKiGJS9XFKzUsAF")
    | _ => false) = true := by decide +kernel
  split at h
  · rename_i k hk
    exact ⟨k, hk, of_decide_eq_true h⟩
  · exact absurd h (by decide)

end Bips
