import Verif.Src.Path
import Verif.Src.Utils
import Verif.Src.Key
import Verif.Src.Versions
import Verif.Src.Child
import Verif.Src.Words
import Verif.Src.Util
import Verif.Src.Coin

/-!
# C113: what the text of the functions says is what the model says

`Src/Code.lean` is the text of 82 functions of /repo, translated statement by statement by tools/gen_src.py; `Src/Lang.lean` says what the
statements, operators and library calls of Go do, panics included. Here every one of these functions is shown to end, on all values of the
types its parameters have, with the result of the definition of the model the other claims are about.
-/

namespace Bips

open Src

/-- The call of `f` with `args` ends with `r`: with any bounds on the depth of calls and on the rounds of a loop that are large enough. -/
def Ends (W : World) (f : Fn) (args : List Val) (r : Res (List Val)) : Prop :=
  ∃ N, ∀ n L, N ≤ n → N ≤ L → run W L n f args = r

/-- A call ends in one way only. -/
theorem Ends.unique {W : World} {f : Fn} {args : List Val} {r r' : Res (List Val)} (h : Ends W f args r) (h' : Ends W f args r') : r = r' := by
  obtain ⟨N, h⟩ := h
  obtain ⟨N', h'⟩ := h'
  rw [← h (max N N') (max N N') (le_max_left _ _) (le_max_left _ _), h' _ _ (le_max_right _ _) (le_max_right _ _)]

theorem Ends.of {W : World} {f : Fn} {args : List Val} {r : Res (List Val)} (d : Nat) (B : Nat)
    (h : ∀ L n, B < L → run W L (n + d) f args = r) : Ends W f args r := by
  refine ⟨max d (B + 1), fun n L hn hL => ?_⟩
  obtain ⟨m, rfl⟩ : ∃ m, n = m + d := ⟨n - d, by omega⟩
  exact h L m (by omega)

set_option linter.unusedVariables false

variable (W : World)

/-- **C113**, bip32/path.go. -/
theorem C113_paths :
    (∀ (p : Bytes), Ends W .bip32_Path_String [.str p] (.ok [.str (pathString p)])) ∧
    (∀ (p : Bytes), Ends W .bip32_Path_Formatted [.str p] (.ok [.str (pathFormatted p)])) ∧
    (∀ (p : Bytes), Ends W .bip32_Path_ValuesAtDepth [.str p] (.ok (both (fun vs => .list (vs.map .u32)) (valuesAtDepth p)))) ∧
    (∀ (p : Bytes), Ends W .bip32_Path_IsValid [.str p] (.ok [.bool (pathIsValid p)])) ∧
    (∀ (p : Bytes) (b : UInt8), Ends W .bip32_Path_ValueAtDepth [.str p, .u8 b] (outcome (both .u32) (valueAtDepth p b))) ∧
    (∀ (p : Bytes) (b : UInt8) (val : UInt32), Ends W .bip32_Path_ReplaceValueAtDepth [.str p, .u8 b, .u32 val] (outcome (both .str) (replaceValueAtDepth p b val))) :=
  ⟨fun p => .of 1 32 fun L n hL => Src.path_String W L n p,
    fun p => .of 2 32 fun L n hL => Src.path_Formatted W L n p,
    fun p => .of 2 32 fun L n hL => Src.path_ValuesAtDepth W L n p,
    fun p => .of 3 32 fun L n hL => Src.path_IsValid W L n p,
    fun p b => .of 3 32 fun L n hL => Src.path_ValueAtDepth W L n p b,
    fun p b val => .of 3 32 fun L n hL => Src.path_ReplaceValueAtDepth W L n p b val⟩

/-- **C113**, bip32/utils.go. -/
theorem C113_utils :
    (∀ (b : Bytes), Ends W .bip32_hashRipeMD160 [.bytes b] (.ok [.bytes (hashRipeMD160 W.H b), .err none])) ∧
    (∀ (b : Bytes), Ends W .bip32_HashRipeMD160onSha256 [.bytes b] (.ok [.bytes (hashRipeMD160onSha256 W.H b), .err none])) ∧
    (∀ (b : Bytes), Ends W .bip32_ChecksumDblSha256 [.bytes b] (.ok [.bytes (checksumDblSha256 W.H b), .err none])) ∧
    (∀ (b : Bytes), Ends W .bip32_AddChecksumDblSha256ToBytes [.bytes b] (.ok [.bytes (addChecksumDblSha256ToBytes W.H b), .err none])) ∧
    (∀ (b : Bytes), Ends W .bip32_ValidatePrivateKey [.bytes b] (.ok [.err (validatePrivateKey b)])) ∧
    (∀ (x y : Nat), x < 256 ^ 32 → Ends W .bip32_compressPublicKey [.big x, .big y] (.ok [.bytes (compressPublicKey (x, y))])) ∧
    (∀ (b : Bytes), Ends W .bip32_publicKeyForPrivateKey [.bytes b] (.ok [.bytes (publicKeyForPrivateKey b)])) ∧
    (∀ (b : Bytes), Ends W .bip32_ExpandPublicKey [.bytes b] (outcome (fun q => [.big q.1, .big q.2]) (expandPublicKeyGo b))) ∧
    (∀ (a b : Bytes), a.length = 33 → b.length = 33 → Ends W .bip32_addPublicKeys [.bytes a, .bytes b] (.ok [.bytes (addPublicKeys a b)])) ∧
    (∀ (a b : Bytes), Ends W .bip32_addPrivateKeys [.bytes a, .bytes b] (.ok [.bytes (addPrivateKeys a b)])) ∧
    (∀ (b : Bytes), b ≠ [] → Ends W .bip32_validateChildPublicKey [.bytes b] (.ok [.err (validateChildPublicKey b)])) ∧
    (∀ (i : UInt32), Ends W .bip32_uint32Bytes [.u32 i] (.ok [.bytes (uint32Bytes i)])) :=
  ⟨fun b => .of 1 32 fun L n hL => Src.utils_hashRipeMD160 W L n b,
    fun b => .of 2 32 fun L n hL => Src.utils_HashRipeMD160onSha256 W L n b,
    fun b => .of 1 32 fun L n hL => Src.utils_ChecksumDblSha256 W L n b,
    fun b => .of 2 32 fun L n hL => Src.utils_AddChecksumDblSha256ToBytes W L n b,
    fun b => .of 1 32 fun L n hL => Src.utils_ValidatePrivateKey W L n b,
    fun x y hx => .of 1 32 fun L n hL => Src.utils_compressPublicKey W L hL n x y hx,
    fun b => .of 2 32 fun L n hL => Src.utils_publicKeyForPrivateKey W L hL n b,
    fun b => .of 1 32 fun L n hL => Src.utils_ExpandPublicKey W L n b,
    fun a b ha hb => .of 2 32 fun L n hL => Src.utils_addPublicKeys W L hL n a b ha hb,
    fun a b => .of 1 32 fun L n hL => Src.utils_addPrivateKeys W L n a b,
    fun b hb => .of 2 32 fun L n hL => Src.utils_validateChildPublicKey W L n b hb,
    fun i => .of 1 32 fun L n hL => Src.utils_uint32Bytes W L n i⟩

/-- **C113**, bip32/bip32.go, fields and texts of keys. -/
theorem C113_keys :
    (∀ (k : Key), Ends W .bip32_Key_GetVersion [.bytes k.bytes] (.ok [.u32 k.getVersion])) ∧
    (∀ (k : Key), Ends W .bip32_Key_GetChainCode [.bytes k.bytes] (.ok [.bytes k.getChainCode])) ∧
    (∀ (k : Key), Ends W .bip32_Key_GetFingerPrint [.bytes k.bytes] (.ok [.bytes k.getFingerPrint])) ∧
    (∀ (k : Key), Ends W .bip32_Key_GetDepth [.bytes k.bytes] (.ok [.bytes k.getDepth])) ∧
    (∀ (k : Key), Ends W .bip32_Key_GetPvtKeyBytes [.bytes k.bytes] (.ok [.bytes k.getPvtKeyBytes])) ∧
    (∀ (k : Key), Ends W .bip32_Key_GetKeyBytes [.bytes k.bytes] (.ok [.bytes k.getKeyBytes])) ∧
    (∀ (k : Key), Ends W .bip32_Key_GetChildNumber [.bytes k.bytes] (.ok [.bytes k.getChildNumber])) ∧
    (∀ (k : Key) (v : Bytes), Ends W .bip32_Key_SetVersion [.bytes k.bytes, .bytes v] (.ok [.bytes (k.setVersion v).bytes])) ∧
    (∀ (k : Key) (v : Bytes), Ends W .bip32_Key_setChainCode [.bytes k.bytes, .bytes v] (.ok [.bytes (k.setChainCode v).bytes])) ∧
    (∀ (k : Key) (v : Bytes), Ends W .bip32_Key_setFingerPrint [.bytes k.bytes, .bytes v] (.ok [.bytes (k.setFingerPrint v).bytes])) ∧
    (∀ (k : Key) (v : Bytes), Ends W .bip32_Key_setPvtKeyBytes [.bytes k.bytes, .bytes v] (.ok [.bytes (k.setPvtKeyBytes v).bytes])) ∧
    (∀ (k : Key) (v : Bytes), Ends W .bip32_Key_setPubKeyBytes [.bytes k.bytes, .bytes v] (.ok [.bytes (k.setPubKeyBytes v).bytes])) ∧
    (∀ (k : Key) (v : Bytes), Ends W .bip32_Key_setChildNumber [.bytes k.bytes, .bytes v] (.ok [.bytes (k.setChildNumber v).bytes])) ∧
    (∀ (k : Key) (d : UInt8), Ends W .bip32_Key_setDepth [.bytes k.bytes, .u8 d] (.ok [.bytes (k.setDepth d).bytes])) ∧
    (∀ (k : Key) (v : UInt32), Ends W .bip32_Key_SetVersionUint32 [.bytes k.bytes, .u32 v] (.ok [.bytes (k.setVersionUint32 v).bytes])) ∧
    (∀ (k : Key) (v : UInt32), Ends W .bip32_Key_setChainCodeUint32 [.bytes k.bytes, .u32 v] (outcome (fun k => [.bytes k.bytes]) (k.setChainCodeUint32 v))) ∧
    (∀ (k : Key), Ends W .bip32_Key_IsPrivate [.bytes k.bytes] (.ok [.bool k.isPrivate])) ∧
    (∀ (k : Key), Ends W .bip32_Key_Serialize [.bytes k.bytes] (.ok (both .bytes (k.serialize W.H)))) ∧
    (∀ (k : Key), Ends W .bip32_Key_B58Serialize [.bytes k.bytes] (.ok [.str (k.b58Serialize W.H)])) ∧
    (∀ (k : Key), Ends W .bip32_Key_String [.bytes k.bytes] (.ok [.str (k.string W.H)])) ∧
    (∀ (data : Bytes), Ends W .bip32_Deserialize [.bytes data] (.ok (both (fun k => .bytes k.bytes) (deserialize W.H data)))) ∧
    (∀ (s : Bytes), Ends W .bip32_B58Deserialize [.str s] (.ok (both (fun k => .bytes k.bytes) (b58Deserialize W.H s)))) ∧
    (∀ (k : Key), Ends W .bip32_Key_IsValid [.bytes k.bytes] (.ok [.bool (k.isValid W.H)])) :=
  ⟨fun k => .of 1 32 fun L n hL => Src.key_GetVersion W L n k,
    fun k => .of 1 32 fun L n hL => Src.key_GetChainCode W L n k,
    fun k => .of 1 32 fun L n hL => Src.key_GetFingerPrint W L n k,
    fun k => .of 1 32 fun L n hL => Src.key_GetDepth W L n k,
    fun k => .of 1 32 fun L n hL => Src.key_GetPvtKeyBytes W L n k,
    fun k => .of 1 32 fun L n hL => Src.key_GetKeyBytes W L n k,
    fun k => .of 1 32 fun L n hL => Src.key_GetChildNumber W L n k,
    fun k v => .of 1 32 fun L n hL => Src.key_SetVersion W L n k v,
    fun k v => .of 1 32 fun L n hL => Src.key_setChainCode W L n k v,
    fun k v => .of 1 32 fun L n hL => Src.key_setFingerPrint W L n k v,
    fun k v => .of 1 32 fun L n hL => Src.key_setPvtKeyBytes W L n k v,
    fun k v => .of 1 32 fun L n hL => Src.key_setPubKeyBytes W L n k v,
    fun k v => .of 1 32 fun L n hL => Src.key_setChildNumber W L n k v,
    fun k d => .of 1 32 fun L n hL => Src.key_setDepth W L n k d,
    fun k v => .of 2 32 fun L n hL => Src.key_SetVersionUint32 W L n k v,
    fun k v => .of 2 32 fun L n hL => Src.key_setChainCodeUint32 W L n k v,
    fun k => .of 1 32 fun L n hL => Src.key_IsPrivate W L n k,
    fun k => .of 3 32 fun L n hL => Src.key_Serialize W L n k,
    fun k => .of 4 32 fun L n hL => Src.key_B58Serialize W L n k,
    fun k => .of 5 32 fun L n hL => Src.key_String W L n k,
    fun data => .of 2 32 fun L n hL => Src.key_Deserialize W L n data,
    fun s => .of 3 32 fun L n hL => Src.key_B58Deserialize W L n s,
    fun k => .of 4 32 fun L n hL => Src.key_IsValid W L n k⟩

/-- **C113**, bip32/versions.go. -/
theorem C113_versions :
    (∀ (h : VersionBytes), Ends W .bip32_VersionBytes_PvtKeyFlagBytes [.vb h] (.ok [.bytes h.pvtKeyFlagBytes])) ∧
    (∀ (h : VersionBytes), Ends W .bip32_VersionBytes_PubKeyFlagBytes [.vb h] (.ok [.bytes h.pubKeyFlagBytes])) ∧
    (∀ (h : VersionBytes), Ends W .bip32_VersionBytes_IsValid [.vb h] (.ok [.bool h.isValid])) ∧
    (∀ (h : VersionBytes), Ends W .bip32_VersionBytes_IsRegistered [.vb h] (.ok [.bool h.isRegistered])) ∧
    (∀ (h : VersionBytes), Ends W .bip32_VersionBytes_PurposeVal [.vb h] (outcome (both .u32) h.purposeVal)) ∧
    (∀ (h : VersionBytes), Ends W .bip32_VersionBytes_CoinVal [.vb h] (outcome (both .u32) h.coinVal)) ∧
    (∀ (h : VersionBytes), Ends W .bip32_VersionBytes_PurposeValFull [.vb h] (outcome (both .u32) h.purposeValFull)) ∧
    (∀ (h : VersionBytes), Ends W .bip32_VersionBytes_CoinValFull [.vb h] (outcome (both .u32) h.coinValFull)) :=
  ⟨fun h => .of 1 32 fun L n hL => Src.version_PvtKeyFlagBytes W L n h,
    fun h => .of 1 32 fun L n hL => Src.version_PubKeyFlagBytes W L n h,
    fun h => .of 2 32 fun L n hL => Src.version_IsValid W L n h,
    fun h => .of 2 32 fun L n hL => Src.version_IsRegistered W L n h,
    fun h => .of 3 32 fun L n hL => Src.version_PurposeVal W L n h,
    fun h => .of 3 32 fun L n hL => Src.version_CoinVal W L n h,
    fun h => .of 4 32 fun L n hL => Src.version_PurposeValFull W L n h,
    fun h => .of 4 32 fun L n hL => Src.version_CoinValFull W L n h⟩

/-- **C113**, bip32/bip32.go, derivation. -/
theorem C113_derivation :
    (∀ (seed : Bytes), Ends W .bip32_NewMasterKey [.bytes seed] (.ok [ match (newMasterKey W.H seed).1 with | some k => .bytes k.bytes | none => .nil, .err (newMasterKey W.H seed).2])) ∧
    (∀ (k : Key) (i : UInt32), Ends W .bip32_Key_getIntermediary [.bytes k.bytes, .u32 i] (.ok [.bytes (k.getIntermediary W.H i), .err none])) ∧
    (∀ (k : Key) (i : UInt32), Ends W .bip32_Key_NewChildKey [.bytes k.bytes, .u32 i] (.ok (both (fun k => .bytes k.bytes) (k.newChildKey W.H W.R i)))) ∧
    (∀ (k : Key), Ends W .bip32_Key_PublicKeyExtended [.bytes k.bytes] (.ok [.bytes (k.publicKeyExtended W.R).bytes])) ∧
    (∀ (k : Key), Ends W .bip32_Key_PrivateKeyHex [.bytes k.bytes] (.ok [.str k.privateKeyHex])) ∧
    (∀ (k : Key), Ends W .bip32_Key_PublicKeyHex [.bytes k.bytes] (.ok [.str (k.publicKeyHex W.R)])) :=
  ⟨fun seed => .of 2 32 fun L n hL => Src.key_NewMasterKey W L n seed,
    fun k i => .of 3 32 fun L n hL => Src.key_getIntermediary W L hL n k i,
    fun k i => .of 4 32 fun L n hL => Src.key_NewChildKey W L hL n k i,
    fun k => .of 3 32 fun L n hL => Src.key_PublicKeyExtended W L hL n k,
    fun k => .of 2 32 fun L n hL => Src.key_PrivateKeyHex W L n k,
    fun k => .of 4 32 fun L n hL => Src.key_PublicKeyHex W L hL n k⟩

/-- **C113**, bip39/bip39.go. -/
theorem C113_words :
    (Ends W .bip39_GetWordList [] (.ok [.list ((getWordList W.S).map .str)])) ∧
    (∀ (w : Bytes), Ends W .bip39_GetWordIndex [.str w] (.ok [.int (getWordIndex W.S w).1, .bool (getWordIndex W.S w).2])) ∧
    (∀ (i : Int), Ends W .bip39_validateEntropyBitSize [.int i] (.ok [.err (validateEntropyBitSize i)])) ∧
    (∀ (b : Bytes), Ends W .bip39_computeChecksum [.bytes b] (.ok [.bytes (computeChecksum W.H b)])) ∧
    (∀ (s : Bytes) (l : Nat), s.length < 2 ^ 63 → l < 2 ^ 63 → Ends W .bip39_padByteSlice [.bytes s, .int l] (.ok [.bytes (padByteSlice s l)])) ∧
    (∀ (i : Int), Ends W .bip39_NewEntropy [.int i] (.ok (both .bytes (newEntropy W.read i)))) ∧
    (∀ (m : Bytes), Ends W .bip39_splitMnemonicWords [.str m] (.ok [.list ((splitMnemonicWords m).1.map .str), .bool (splitMnemonicWords m).2])) ∧
    (∀ (b : Bytes), b.length < 2 ^ 63 → Ends W .bip39_addChecksum [.bytes b] (.ok [.bytes (addChecksum W.H b)])) ∧
    (∀ (m : Bytes), Ends W .bip39_EntropyFromMnemonic [.str m] (outcome (both .bytes) (entropyFromMnemonic W.H W.S m))) ∧
    (∀ (m : Bytes), Ends W .bip39_IsMnemonicValid [.str m] (outcome (fun b => [.bool b]) (isMnemonicValid W.H W.S m))) ∧
    (∀ (entropy : Bytes), entropy.length < 2 ^ 59 → Ends W .bip39_NewMnemonic [.bytes entropy] (outcome (both .str) (newMnemonic W.H W.S entropy))) ∧
    (∀ (m : Bytes) (raw : List Bool), m.length < 2 ^ 59 → Ends W .bip39_MnemonicToByteArray [.str m, .list (raw.map .bool)] (outcome (both .bytes) (mnemonicToByteArray W.H W.S m raw))) ∧
    (∀ (m p : Bytes), Ends W .bip39_NewSeed [.str m, .str p] (.ok [.bytes (newSeed W.H m p)])) ∧
    (∀ (m p : Bytes), m.length < 2 ^ 59 → Ends W .bip39_NewSeedWithErrorChecking [.str m, .str p] (outcome (both .bytes) (newSeedWithErrorChecking W.H W.S m p))) ∧
    (∀ (a b : Bytes), Ends W .bip39_compareByteSlices [.bytes a, .bytes b] (outcome (fun b => [.bool b]) (compareByteSlices a b))) :=
  ⟨.of 1 32 fun L n hL => Src.words_GetWordList W L n,
    fun w => .of 1 32 fun L n hL => Src.words_GetWordIndex W L n w,
    fun i => .of 1 32 fun L n hL => Src.words_validateEntropyBitSize W L n i,
    fun b => .of 1 32 fun L n hL => Src.words_computeChecksum W L n b,
    fun s l hs hl => .of 1 32 fun L n hL => Src.words_padByteSlice W L n s l hs hl,
    fun i => .of 2 32 fun L n hL => Src.words_NewEntropy W L n i,
    fun m => .of 1 32 fun L n hL => Src.words_splitMnemonicWords W L n m,
    fun b hb => .of 2 (b.length / 4) fun L n hL => Src.words_addChecksum W L n b (by omega) hb,
    fun m => .of 2 32 fun L n hL => Src.words_EntropyFromMnemonic W L n m,
    fun m => .of 3 32 fun L n hL => Src.words_IsMnemonicValid W L n m,
    fun entropy hb => .of 3 32 fun L n hL => Src.words_NewMnemonic W L hL n entropy hb,
    fun m raw hb => .of 3 32 fun L n hL => Src.words_MnemonicToByteArray W L hL n m raw hb,
    fun m p => .of 1 32 fun L n hL => Src.words_NewSeed W L n m p,
    fun m p hb => .of 4 32 fun L n hL => Src.words_NewSeedWithErrorChecking W L hL n m p hb,
    fun a b => .of 1 32 fun L n hL => Src.words_compareByteSlices W L n a b⟩

/-- **C113**, util/util.go and util/key_path.go. -/
theorem C113_util :
    (∀ (c : UInt8), (∀ n, (W.read n).length = n) → Ends W .util_GenerateMnemonic [.u8 c] (outcome (both .str) (generateMnemonic W.H W.S W.read c))) ∧
    (∀ (m p : Bytes), Ends W .util_DeriveSeedFromMnemonic [.str m, .str p] (outcome (both .str) (deriveSeedFromMnemonic W.H W.S m p))) ∧
    (Ends W .bip32_Key_Serialize [.nil] (.panic)) ∧
    (∀ (seed : Bytes), Ends W .util_RootKeyFromSeed [.str seed] (outcome (both (fun k => .bytes k.bytes)) (rootKeyFromSeed W.H seed))) ∧
    (∀ (old k : Key), Ends W .util_Generator_SetRootKey [.list [.bytes old.bytes], .bytes k.bytes] (.ok [.list [.bytes k.bytes]])) ∧
    (∀ (k : Key), Ends W .util_Generator_RootKey [.list [.bytes k.bytes]] (.ok [.bytes k.bytes])) ∧
    (∀ (k : Key) (p : Bytes), Ends W .util_Generator_DeriveBIP32Result [.list [.bytes k.bytes], .str p] (.ok (both (fun l => .list (l.map keyPathVal)) (deriveBIP32Result W.H W.R k p)))) ∧
    (∀ (k : KeyPath), Ends W .util_KeyPath_AddrHex [keyPathVal k] (.ok [.str (k.addrHex W.H W.R)])) ∧
    (∀ (k : KeyPath) (v : UInt8), Ends W .util_KeyPath_AddrP2SH [keyPathVal k, .u8 v] (.ok [.str (k.addrP2SH W.H W.R v)])) ∧
    (∀ (k : KeyPathRange), Ends W .util_KeyPathRange_GenerateRange [rangeVal k] (.ok [rangeVal (k.generateRange W.H W.R).1, .err (k.generateRange W.H W.R).2])) :=
  ⟨fun c hr => .of 4 32 fun L n hL => Src.util_GenerateMnemonic_eq W L hL hr n c,
    fun m p => .of 3 32 fun L n hL => Src.util_DeriveSeedFromMnemonic_eq W L n m p,
    .of 1 32 fun L n hL => Src.key_Serialize_nil W L n,
    fun seed => .of 4 32 fun L n hL => Src.util_RootKeyFromSeed_eq W L n seed,
    fun old k => .of 1 32 fun L n hL => Src.util_SetRootKey W L n old k,
    fun k => .of 1 32 fun L n hL => Src.util_RootKey W L n k,
    fun k p => .of 5 32 fun L n hL => Src.util_DeriveBIP32Result W L hL n k p,
    fun k => .of 5 32 fun L n hL => Src.util_AddrHex W L hL n k,
    fun k v => .of 5 32 fun L n hL => Src.util_AddrP2SH W L hL n k v,
    fun k => .of 5 (max 32 (k.endIndex.toNat - k.startIndex.toNat)) fun L n hL => Src.util_GenerateRange W L (by omega) n k (by omega)⟩

/-- **C113**, bip44/coin.go. -/
theorem C113_coins :
    (∀ (c : Coin), Ends W .bip44_Coin_StringForMD [coinVal c] (.ok [.str c.stringForMD])) ∧
    (∀ (c : Coin), Ends W .bip44_Coin_String [coinVal c] (.ok [.str c.string])) ∧
    (∀ (c : Coin), Ends W .bip44_Coin_IsValid [coinVal c] (.ok [.bool c.isValid])) :=
  ⟨fun c => .of 1 32 fun L n hL => Src.coin_StringForMD W L n c,
    fun c => .of 1 32 fun L n hL => Src.coin_String W L n c,
    fun c => .of 1 32 fun L n hL => Src.coin_IsValid W L n c⟩

set_option maxRecDepth 10000 in
/-- Running the text itself, by evaluation and without any of the theorems: `ValuesAtDepth` of `m/44'/1`, and `ValueAtDepth` where
it gives a value. -/
example : run W 8 2 .bip32_Path_ValuesAtDepth [.str (str "m/44'/1")] = .ok [.list [.u32 0, .u32 2147483692, .u32 1], .err none] ∧
    run W 8 3 .bip32_Path_ValueAtDepth [.str (str "m/44'/1"), .u8 2] = .ok [.u32 1, .err none] :=
  ⟨by rfl, by rfl⟩

end Bips
