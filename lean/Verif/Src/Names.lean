/-!
# Names of the functions

Written by tools/gen_src.py; do not edit.
-/

namespace Bips.Src

/-- The functions of the repository that are translated, each with its place in the text. -/
inductive Fn
  | bip32_Path_String -- bip32/path.go:24
  | bip32_Path_Formatted -- bip32/path.go:29
  | bip32_Path_IsValid -- bip32/path.go:33
  | bip32_Path_ValuesAtDepth -- bip32/path.go:45
  | bip32_Path_ValueAtDepth -- bip32/path.go:81
  | bip32_Path_ReplaceValueAtDepth -- bip32/path.go:91
  | bip32_hashRipeMD160 -- bip32/utils.go:21
  | bip32_HashRipeMD160onSha256 -- bip32/utils.go:31
  | bip32_ChecksumDblSha256 -- bip32/utils.go:41
  | bip32_AddChecksumDblSha256ToBytes -- bip32/utils.go:46
  | bip32_ValidatePrivateKey -- bip32/utils.go:54
  | bip32_publicKeyForPrivateKey -- bip32/utils.go:63
  | bip32_addPublicKeys -- bip32/utils.go:67
  | bip32_addPrivateKeys -- bip32/utils.go:73
  | bip32_compressPublicKey -- bip32/utils.go:90
  | bip32_ExpandPublicKey -- bip32/utils.go:107
  | bip32_validateChildPublicKey -- bip32/utils.go:132
  | bip32_uint32Bytes -- bip32/utils.go:143
  | bip32_NewMasterKey -- bip32/bip32.go:79
  | bip32_Key_IsPrivate -- bip32/bip32.go:103
  | bip32_Key_NewChildKey -- bip32/bip32.go:108
  | bip32_Key_getIntermediary -- bip32/bip32.go:174
  | bip32_Key_PublicKeyExtended -- bip32/bip32.go:202
  | bip32_Key_PrivateKeyHex -- bip32/bip32.go:228
  | bip32_Key_PublicKeyHex -- bip32/bip32.go:236
  | bip32_Key_Serialize -- bip32/bip32.go:246
  | bip32_Key_B58Serialize -- bip32/bip32.go:266
  | bip32_Key_String -- bip32/bip32.go:276
  | bip32_Key_IsValid -- bip32/bip32.go:280
  | bip32_Deserialize -- bip32/bip32.go:293
  | bip32_Key_SetVersionUint32 -- bip32/bip32.go:315
  | bip32_Key_SetVersion -- bip32/bip32.go:320
  | bip32_Key_GetVersion -- bip32/bip32.go:324
  | bip32_Key_setChainCodeUint32 -- bip32/bip32.go:328
  | bip32_Key_setChainCode -- bip32/bip32.go:333
  | bip32_Key_GetChainCode -- bip32/bip32.go:337
  | bip32_Key_setFingerPrint -- bip32/bip32.go:341
  | bip32_Key_GetFingerPrint -- bip32/bip32.go:345
  | bip32_Key_setDepth -- bip32/bip32.go:349
  | bip32_Key_GetDepth -- bip32/bip32.go:353
  | bip32_Key_setPvtKeyBytes -- bip32/bip32.go:357
  | bip32_Key_GetPvtKeyBytes -- bip32/bip32.go:361
  | bip32_Key_setPubKeyBytes -- bip32/bip32.go:365
  | bip32_Key_GetKeyBytes -- bip32/bip32.go:369
  | bip32_Key_setChildNumber -- bip32/bip32.go:373
  | bip32_Key_GetChildNumber -- bip32/bip32.go:377
  | bip32_B58Deserialize -- bip32/bip32.go:382
  | bip32_NewSeed -- bip32/bip32.go:388
  | bip32_VersionBytes_PvtKeyFlagBytes -- bip32/reg_ver_bytes.go:62
  | bip32_VersionBytes_PubKeyFlagBytes -- bip32/reg_ver_bytes.go:68
  | bip32_VersionBytes_IsValid -- bip32/reg_ver_bytes.go:74
  | bip32_VersionBytes_IsRegistered -- bip32/reg_ver_bytes.go:79
  | bip32_VersionBytes_PurposeVal -- bip32/reg_ver_bytes.go:86
  | bip32_VersionBytes_CoinVal -- bip32/reg_ver_bytes.go:104
  | bip32_VersionBytes_PurposeValFull -- bip32/reg_ver_bytes.go:120
  | bip32_VersionBytes_CoinValFull -- bip32/reg_ver_bytes.go:130
  | bip32_init -- bip32/reg_ver_bytes.go:426
  | bip39_init -- bip39/bip39.go:71
  | bip39_SetWordList -- bip39/bip39.go:77
  | bip39_GetWordList -- bip39/bip39.go:87
  | bip39_GetWordIndex -- bip39/bip39.go:92
  | bip39_NewEntropy -- bip39/bip39.go:101
  | bip39_EntropyFromMnemonic -- bip39/bip39.go:115
  | bip39_NewMnemonic -- bip39/bip39.go:170
  | bip39_MnemonicToByteArray -- bip39/bip39.go:217
  | bip39_NewSeedWithErrorChecking -- bip39/bip39.go:242
  | bip39_NewSeed -- bip39/bip39.go:253
  | bip39_IsMnemonicValid -- bip39/bip39.go:260
  | bip39_addChecksum -- bip39/bip39.go:267
  | bip39_computeChecksum -- bip39/bip39.go:293
  | bip39_validateEntropyBitSize -- bip39/bip39.go:300
  | bip39_padByteSlice -- bip39/bip39.go:310
  | bip39_compareByteSlices -- bip39/bip39.go:324
  | bip39_splitMnemonicWords -- bip39/bip39.go:338
  | util_GenerateMnemonic -- util/util.go:20
  | util_DeriveSeedFromMnemonic -- util/util.go:47
  | util_RootKeyFromSeed -- util/util.go:56
  | util_Generator_SetRootKey -- util/util.go:83
  | util_Generator_RootKey -- util/util.go:87
  | util_Generator_DeriveBIP32Result -- util/util.go:91
  | util_KeyPath_AddrHex -- util/key_path.go:16
  | util_KeyPath_AddrP2SH -- util/key_path.go:28
  | util_KeyPathRange_GenerateRange -- util/key_path.go:76
  | bip44_Coin_StringForMD -- bip44/coin.go:16
  | bip44_Coin_String -- bip44/coin.go:22
  | bip44_Coin_IsValid -- bip44/coin.go:33
  | bip44_less -- bip44/coins.go:1152
  | bip44_init -- bip44/coins.go:1151
  | main_Slider_PushLeft -- examples/ui/one/slider.go:31
  | main_Slider_PushRight -- examples/ui/one/slider.go:34
  | main_Slider_Layout -- examples/ui/one/slider.go:37
  | main_smooth -- examples/ui/one/slider.go:119
  | main_easeInOutCubic -- examples/ui/one/slider.go:127
  | main_onKeyPathChange -- examples/ui/one/main.go:76
  | main_onAutoCreateMnemonicClicked -- examples/ui/one/main.go:91
  | main_onMnemonicChange -- examples/ui/one/main.go:105
  | main_onMnemonicPassphraseChange -- examples/ui/one/main.go:117
  | main_onSeedChange -- examples/ui/one/main.go:129
  | main_onRootKeyStrChange -- examples/ui/one/main.go:141
  | main_OnDerivationPathChange -- examples/ui/one/main.go:158
  | main_start -- examples/ui/one/main.go:172
  | main_update -- examples/ui/one/main.go:180
  | main_left -- examples/ui/one/main.go:305
  | main_right -- examples/ui/one/main.go:357
  | main_tab -- examples/ui/one/main.go:321
  | main_tabText -- examples/ui/one/main.go:334
  | main_labels -- examples/ui/one/main.go:375
  | main_radio -- examples/ui/one/main.go:224
  | bip44_generateFileFromSlip44MD -- bip44/script.go:23
  | wordlists_chinese_simplified_init -- bip39/wordlists/chinese_simplified.go:9
  | wordlists_chinese_simplified_ChineseSimplified -- bip39/wordlists/chinese_simplified.go:22
  | wordlists_chinese_traditional_init -- bip39/wordlists/chinese_traditional.go:9
  | wordlists_chinese_traditional_ChineseTraditional -- bip39/wordlists/chinese_traditional.go:22
  | wordlists_czech_init -- bip39/wordlists/czech.go:9
  | wordlists_czech_Czech -- bip39/wordlists/czech.go:22
  | wordlists_english_init -- bip39/wordlists/english.go:9
  | wordlists_english_English -- bip39/wordlists/english.go:22
  | wordlists_french_init -- bip39/wordlists/french.go:9
  | wordlists_french_French -- bip39/wordlists/french.go:22
  | wordlists_italian_init -- bip39/wordlists/italian.go:9
  | wordlists_italian_Italian -- bip39/wordlists/italian.go:22
  | wordlists_japanese_init -- bip39/wordlists/japanese.go:9
  | wordlists_japanese_Japanese -- bip39/wordlists/japanese.go:22
  | wordlists_korean_init -- bip39/wordlists/korean.go:9
  | wordlists_korean_Korean -- bip39/wordlists/korean.go:22
  | wordlists_portuguese_init -- bip39/wordlists/portuguese.go:9
  | wordlists_portuguese_Portuguese -- bip39/wordlists/portuguese.go:22
  | wordlists_spanish_init -- bip39/wordlists/spanish.go:9
  | wordlists_spanish_Spanish -- bip39/wordlists/spanish.go:22
  deriving DecidableEq

end Bips.Src
