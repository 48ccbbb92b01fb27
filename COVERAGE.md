# Which parts of /repo the model covers

Generated by `tools/coverage.py` from the citations in the comments of the model. A row is a function, method or package-level
declaration of a Go file (tests excluded); the last column names the Lean definitions whose comment cites lines of it.

## bip32/bip32.go

| lines | declaration | modelled by |
|---|---|---|
| 13-13 | `type Version [4]byte` | `versionStart` (Model/Key.lean) |
| 14-14 | `type Depth [1]byte` | `versionStart` (Model/Key.lean) |
| 15-15 | `type FingerPrint [4]byte` | `versionStart` (Model/Key.lean) |
| 16-16 | `type ChildNumber [4]byte` | `versionStart` (Model/Key.lean) |
| 17-17 | `type ChainCode [32]byte` | `versionStart` (Model/Key.lean) |
| 20-20 | `type KeyBytes [33]byte` | `versionStart` (Model/Key.lean) |
| 22-22 | `type PvtKeyBytes [32]byte // If first byte of KeyBytes is zero` | `versionStart` (Model/Key.lean) |
| 26-26 | `type Key [78]byte` | `Key` (Model/Key.lean) |
| 28-43 | `const block` | `versionStart` (Model/Key.lean) |
| 45-50 | `const block` | `firstHardenedChild` (Model/Key.lean) |
| 52-52 | `var DefaultMainnetVersion = Bitcoinxprvxpub` | `defaultMainnetVersion` (Model/Registry.lean) |
| 53-53 | `var DefaultTestnetVersion = Bitcointprvtpub` | `defaultMainnetVersion` (Model/Registry.lean) |
| 55-75 | `var block` | Model/Err.lean |
| 79-101 | `func NewMasterKey(seed []byte) (*Key, error)` | Crypto/Sha2.lean, `newMasterKey` (Model/Checked.lean), `newMasterKey` (Model/Child.lean), `newMasterKeyWith` (Model/Defaults.lean), `newMasterKey` (Model/Memory.lean), `newMasterKey` (Model/Nums.lean) |
| 103-105 | `func (key *Key) IsPrivate() bool` | `isPrivate` (Model/Checked.lean), `isPrivate` (Model/Key.lean), `isPrivate` (Model/Memory.lean) |
| 108-172 | `func (key *Key) NewChildKey(childIdx uint32) (Key, error)` | `newChildKey` (Model/Checked.lean), `newChildKey` (Model/Child.lean), `newChildKey` (Model/Memory.lean), `newChildKey` (Model/Nums.lean), Model/Registry.lean |
| 174-196 | `func (key *Key) getIntermediary(childIdx uint32) ([]byte, error)` | `getIntermediary` (Model/Checked.lean), `getIntermediary` (Model/Child.lean), `getIntermediary` (Model/Memory.lean), `getIntermediary` (Model/Nums.lean) |
| 202-225 | `func (key *Key) PublicKeyExtended() Key` | `publicKeyExtended` (Model/Checked.lean), `publicKeyExtended` (Model/Child.lean), `Key.publicKeyExtendedWith` (Model/Defaults.lean), `publicKeyExtended` (Model/Memory.lean), `publicKeyExtended` (Model/Nums.lean) |
| 228-233 | `func (key *Key) PrivateKeyHex() string` | `privateKeyHex` (Model/Checked.lean), `privateKeyHex` (Model/Child.lean), `privateKeyHex` (Model/Memory.lean) |
| 236-242 | `func (key *Key) PublicKeyHex() string` | `publicKeyHex` (Model/Checked.lean), `publicKeyHex` (Model/Child.lean), `publicKeyHex` (Model/Memory.lean), `publicKeyHex` (Model/Nums.lean) |
| 246-263 | `func (key *Key) Serialize() ([]byte, error)` | `serialize` (Model/Checked.lean), `serialize` (Model/Key.lean), `serialize` (Model/Memory.lean) |
| 266-272 | `func (key *Key) B58Serialize() string` | Go/Base58.lean, `b58Serialize` (Model/Checked.lean), `b58Serialize` (Model/Key.lean), `string` (Model/Memory.lean) |
| 276-278 | `func (key *Key) String() string` | `b58Serialize` (Model/Checked.lean), `string` (Model/Key.lean), `string` (Model/Memory.lean) |
| 280-290 | `func (key *Key) IsValid() bool` | `isValid` (Model/Checked.lean), `Key.isValid` (Model/Key.lean), `isValid` (Model/Memory.lean) |
| 293-313 | `func Deserialize(data []byte) (Key, error)` | `compareLoop` (Model/Checked.lean), `deserialize` (Model/Checked.lean), `ofBytes` (Model/Key.lean), `checksumMatches` (Model/Key.lean), `deserialize` (Model/Key.lean), `deserialize` (Model/Memory.lean) |
| 315-318 | `func (key *Key) SetVersionUint32(v uint32)` | `setVersionUint32` (Model/Checked.lean), `setVersionUint32` (Model/Key.lean) |
| 320-322 | `func (key *Key) SetVersion(v Version)` | `setVersion` (Model/Checked.lean), `setVersion` (Model/Key.lean), `setField` (Model/Memory.lean) |
| 324-326 | `func (key *Key) GetVersion() uint32` | `getVersion` (Model/Checked.lean), `getVersion` (Model/Key.lean) |
| 328-331 | `func (key *Key) setChainCodeUint32(code uint32)` | `Key.setChainCodeUint32` (Model/Unused.lean) |
| 333-335 | `func (key *Key) setChainCode(code ChainCode)` | `setChainCode` (Model/Checked.lean), `setChainCode` (Model/Key.lean), `setField` (Model/Memory.lean) |
| 337-339 | `func (key *Key) GetChainCode() ChainCode` | `getField` (Model/Checked.lean), `getChainCode` (Model/Key.lean), `setField` (Model/Memory.lean) |
| 341-343 | `func (key *Key) setFingerPrint(f FingerPrint)` | `setFingerPrint` (Model/Checked.lean), `setFingerPrint` (Model/Key.lean), `setField` (Model/Memory.lean) |
| 345-347 | `func (key *Key) GetFingerPrint() FingerPrint` | `getField` (Model/Checked.lean), `getFingerPrint` (Model/Key.lean), `setField` (Model/Memory.lean) |
| 349-351 | `func (key *Key) setDepth(d byte)` | `setDepth` (Model/Checked.lean), `setDepth` (Model/Key.lean), `setField` (Model/Memory.lean) |
| 353-355 | `func (key *Key) GetDepth() Depth` | `getField` (Model/Checked.lean), `getDepth` (Model/Key.lean), `setField` (Model/Memory.lean) |
| 357-359 | `func (key *Key) setPvtKeyBytes(b PvtKeyBytes)` | `setPvtKeyBytes` (Model/Checked.lean), `setPvtKeyBytes` (Model/Key.lean), `setField` (Model/Memory.lean) |
| 361-363 | `func (key *Key) GetPvtKeyBytes() PvtKeyBytes` | `getField` (Model/Checked.lean), `getPvtKeyBytes` (Model/Key.lean), `setField` (Model/Memory.lean) |
| 365-367 | `func (key *Key) setPubKeyBytes(b KeyBytes)` | `setPubKeyBytes` (Model/Checked.lean), `setPubKeyBytes` (Model/Key.lean), `setField` (Model/Memory.lean) |
| 369-371 | `func (key *Key) GetKeyBytes() KeyBytes` | `getField` (Model/Checked.lean), `getKeyBytes` (Model/Key.lean), `setField` (Model/Memory.lean) |
| 373-375 | `func (key *Key) setChildNumber(c ChildNumber)` | `setChildNumber` (Model/Checked.lean), `setChildNumber` (Model/Key.lean), `setField` (Model/Memory.lean) |
| 377-379 | `func (key *Key) GetChildNumber() ChildNumber` | `getField` (Model/Checked.lean), `getChildNumber` (Model/Key.lean) |
| 382-385 | `func B58Deserialize(data string) (Key, error)` | `b58Deserialize` (Model/Checked.lean), `b58Deserialize` (Model/Key.lean) |
| 388-393 | `func NewSeed() ([]byte, error)` | `readLoop` (Model/Random.lean), `randRead` (Model/Random.lean), `newSeed32` (Model/Random.lean) |

## bip32/err.go

| lines | declaration | modelled by |
|---|---|---|
| 5-9 | `var block` | Model/Err.lean |

## bip32/path.go

| lines | declaration | modelled by |
|---|---|---|
| 11-13 | `var block` | Model/Err.lean |
| 20-20 | `type Path string` | Model/Path.lean |
| 22-22 | `var PathRegex = regexp.MustCompile(`^[mM](/\d+')*(/\d+)*$`)` | `pathRegex` (Model/Path.lean) |
| 24-27 | `func (p Path) String() string` | `pathString` (Model/Path.lean) |
| 29-31 | `func (p Path) Formatted() Path` | `pathFormatted` (Model/Path.lean) |
| 33-36 | `func (p Path) IsValid() bool` | `pathIsValid` (Model/Checked.lean), `pathIsValidW` (Model/Narrow.lean), `pathIsValid` (Model/Path.lean) |
| 45-75 | `func (p Path) ValuesAtDepth() ([]uint32, error)` | `valuesAtDepth` (Model/Checked.lean), `valuesLoopW` (Model/Narrow.lean), `valuesAtDepthW` (Model/Narrow.lean), `valuesLoop` (Model/Path.lean), `valuesAtDepth` (Model/Path.lean) |
| 81-90 | `func (p Path) ValueAtDepth(b byte) (uint32, error)` | `valueAtDepth` (Model/Checked.lean), `valueAtDepth` (Model/Path.lean) |
| 91-107 | `func (p Path) ReplaceValueAtDepth(b byte, val uint32) (Path, error)` | `replaceValueAtDepth` (Model/Checked.lean), `replaceValueAtDepth` (Model/Path.lean) |

## bip32/reg_ver_bytes.go

| lines | declaration | modelled by |
|---|---|---|
| 14-14 | `var PubFlagToHDBytesSlice = map[uint32][]VersionBytes{}` | `Registry` (Model/Registry.lean) |
| 18-18 | `var PvtFlagToHDBytesSlice = map[uint32][]VersionBytes{}` | `Registry` (Model/Registry.lean) |
| 21-21 | `var HDVersionBytesSlice []VersionBytes` | `Registry` (Model/Registry.lean) |
| 24-24 | `var PurposeToHDBytesSlice = map[uint32][]VersionBytes{}` | `Registry` (Model/Registry.lean) |
| 27-27 | `var PurposeFullToHDBytesSlice = map[uint32][]VersionBytes{}` | `Registry` (Model/Registry.lean) |
| 30-30 | `var CoinTypeToHDBytesSlice = map[uint32][]VersionBytes{}` | `Registry` (Model/Registry.lean) |
| 32-32 | `type AddrEncoding string` | `AddrEncoding` (Model/Registry/Types.lean) |
| 34-42 | `const block` | `AddrEncoding` (Model/Registry/Types.lean) |
| 44-60 | `type VersionBytes struct` | `VersionBytes` (Model/Registry/Types.lean) |
| 62-66 | `func (h VersionBytes) PvtKeyFlagBytes() [4]byte` | `pvtKeyFlagBytes` (Model/Registry/Types.lean) |
| 68-72 | `func (h VersionBytes) PubKeyFlagBytes() [4]byte` | `pubKeyFlagBytes` (Model/Registry/Types.lean) |
| 74-77 | `func (h VersionBytes) IsValid() bool` | `regex` (Model/Registry/Types.lean), `isValid` (Model/Registry/Types.lean) |
| 79-82 | `func (h VersionBytes) IsRegistered() bool` | `VersionBytes.isRegistered` (Model/Registry.lean) |
| 86-100 | `func (h VersionBytes) PurposeVal() (uint32, error)` | `VersionBytes.compValW` (Model/Narrow.lean), `compVal` (Model/Registry/Types.lean), `purposeVal` (Model/Registry/Types.lean) |
| 104-118 | `func (h VersionBytes) CoinVal() (uint32, error)` | `VersionBytes.compValW` (Model/Narrow.lean), `compVal` (Model/Registry/Types.lean), `coinVal` (Model/Registry/Types.lean) |
| 120-129 | `func (h VersionBytes) PurposeValFull() (uint32, error)` | `fullOf` (Model/Registry/Types.lean), `purposeValFull` (Model/Registry/Types.lean) |
| 130-139 | `func (h VersionBytes) CoinValFull() (uint32, error)` | `fullOf` (Model/Registry/Types.lean), `coinValFull` (Model/Registry/Types.lean) |
| 141-403 | `var block` | Data/Versions.lean, `bitcoinxprvxpub` (Data/Versions.lean), `bitcoinyprvypub` (Data/Versions.lean), `bitcoinzprvzpub` (Data/Versions.lean), `bitcoinYprvYpub` (Data/Versions.lean), `bitcoinZprvZpub` (Data/Versions.lean) and others |
| 406-424 | `var PathToHDBytesSlice = map[string][]VersionBytes` | Data/Versions.lean, `pathTable` (Data/Versions.lean), Data/VersionsText.lean, `t30` (Data/VersionsText.lean) |
| 426-442 | `func init()` | `Registry.add` (Model/Registry.lean), `Registry.addEntry` (Model/Registry.lean), `Registry.init` (Model/Registry.lean) |

## bip32/utils.go

| lines | declaration | modelled by |
|---|---|---|
| 16-19 | `var block` | Model/Nums.lean, `Pkg` (Model/Nums.lean), Model/Secp.lean |
| 21-28 | `func hashRipeMD160(data []byte) ([]byte, error)` | `hashRipeMD160` (Model/Bip32Utils.lean) |
| 31-39 | `func HashRipeMD160onSha256(data []byte) ([]byte, error)` | Crypto/Sha2.lean, `hashRipeMD160onSha256` (Model/Bip32Utils.lean), `hashRipeMD160onSha256` (Model/Memory.lean) |
| 41-44 | `func ChecksumDblSha256(data []byte) ([]byte, error)` | Crypto/Ripemd.lean, Crypto/Sha2.lean, `checksumDblSha256` (Model/Bip32Utils.lean), `checksumDblSha256` (Model/Checked.lean), `checksumDblSha256` (Model/Memory.lean) |
| 46-52 | `func AddChecksumDblSha256ToBytes(data []byte) ([]byte, error)` | Crypto/Ripemd.lean, `addChecksumDblSha256ToBytes` (Model/Bip32Utils.lean), `addChecksumDblSha256ToBytes` (Model/Checked.lean), `addChecksumDblSha256ToBytes` (Model/Memory.lean) |
| 54-60 | `func ValidatePrivateKey(key PvtKeyBytes) error` | `validatePrivateKey` (Model/Bip32Utils.lean), `validatePrivateKey` (Model/Nums.lean) |
| 63-65 | `func publicKeyForPrivateKey(key []byte) []byte` | `publicKeyForPrivateKey` (Model/Bip32Utils.lean), `publicKeyForPrivateKey` (Model/Memory.lean), `publicKeyForPrivateKey` (Model/Nums.lean) |
| 67-71 | `func addPublicKeys(key1 []byte, key2 []byte) []byte` | `addPublicKeys` (Model/Bip32Utils.lean), `addPublicKeys` (Model/Checked.lean), `addPublicKeys` (Model/Memory.lean), `addPublicKeys` (Model/Nums.lean) |
| 73-88 | `func addPrivateKeys(key1 []byte, key2 []byte) []byte` | `addPrivateKeys` (Model/Bip32Utils.lean), `addPrivateKeys` (Model/Checked.lean), `addPrivateKeys` (Model/Memory.lean), `addPrivateKeys` (Model/Nums.lean) |
| 90-104 | `func compressPublicKey(x *big.Int, y *big.Int) []byte` | `compressPublicKey` (Model/Bip32Utils.lean), `compressPublicKey` (Model/Nums.lean) |
| 107-130 | `func ExpandPublicKey(key []byte) (*big.Int, *big.Int)` | `modSqrt` (Model/Bip32Utils.lean), `expandCons` (Model/Bip32Utils.lean), `expandPublicKey` (Model/Bip32Utils.lean), `expandPublicKeyGo` (Model/Bip32Utils.lean), `expandPublicKey` (Model/Checked.lean), `modSqrt` (Model/Nums.lean) and others |
| 132-140 | `func validateChildPublicKey(key []byte) error` | `validateChildPublicKey` (Model/Bip32Utils.lean), `validateChildPublicKey` (Model/Checked.lean), `validateChildPublicKey` (Model/Nums.lean) |
| 143-147 | `func uint32Bytes(i uint32) []byte` | `uint32Bytes` (Model/Bip32Utils.lean), `uint32Bytes` (Model/Checked.lean), `uint32Bytes` (Model/Memory.lean) |

## bip39/bip39.go

| lines | declaration | modelled by |
|---|---|---|
| 21-52 | `var block` | `WordState` (Model/Bip39.lean), `checksumMask` (Model/Bip39.lean), `checksumShift` (Model/Bip39.lean), Model/Nums.lean, `Pkg` (Model/Nums.lean), `Pkg.init` (Model/Nums.lean) and others |
| 54-69 | `var block` | Model/Err.lean |
| 71-73 | `func init()` | `setWordList` (Model/Bip39.lean) |
| 77-84 | `func SetWordList(list []string)` | `fillWordMap` (Model/Bip39.lean), `setWordListFrom` (Model/Bip39.lean), Model/MapFatal.lean, `GoMap.empty` (Model/MapFatal.lean), `GoMap.assign` (Model/MapFatal.lean), `GoMap.store` (Model/MapFatal.lean) and others |
| 87-89 | `func GetWordList() []string` | `getWordList` (Model/Bip39.lean), Model/SliceWords.lean, `WordOrder` (Model/SliceWords.lean), `HeaderPc` (Model/SliceWords.lean), `HeaderRun.step` (Model/SliceWords.lean), `HeaderRun.begin` (Model/SliceWords.lean) and others |
| 92-95 | `func GetWordIndex(word string) (int, bool)` | `getWordIndex` (Model/Bip39.lean), Model/MapFatal.lean, `MapPc` (Model/MapFatal.lean), `MapRun.step` (Model/MapFatal.lean), Model/WordAlias.lean |
| 101-110 | `func NewEntropy(bitSize int) ([]byte, error)` | `newEntropy` (Model/Bip39.lean), `newEntropy` (Model/Checked.lean), `newEntropy` (Model/MemoryWords.lean), `readLoop` (Model/Random.lean), `randRead` (Model/Random.lean), `newEntropyFrom` (Model/Random.lean) |
| 115-165 | `func EntropyFromMnemonic(mnemonic string) ([]byte, error)` | `decodeWords` (Model/Bip39.lean), `entropyFromMnemonic` (Model/Bip39.lean), `decodeWords` (Model/Checked.lean), `entropyFromMnemonic` (Model/Checked.lean), Model/MapFatal.lean, `MapRun.step` (Model/MapFatal.lean) and others |
| 170-212 | `func NewMnemonic(entropy []byte) (string, error)` | `encodeWords` (Model/Bip39.lean), `newMnemonic` (Model/Bip39.lean), `encodeWords` (Model/Checked.lean), `newMnemonic` (Model/Checked.lean), `encodeWords` (Model/MemoryWords.lean), `newMnemonic` (Model/MemoryWords.lean) and others |
| 217-238 | `func MnemonicToByteArray(mnemonic string, raw ...bool) ([]byte, error)` | `mnemonicToByteArray` (Model/Bip39.lean), `mnemonicToByteArray` (Model/Checked.lean), `mnemonicToByteArray` (Model/MemoryWords.lean), `mnemonicToByteArray` (Model/Nums.lean) |
| 242-249 | `func NewSeedWithErrorChecking(mnemonic string, password string) ([]byte, error)` | `newSeedWithErrorChecking` (Model/Bip39.lean), `newSeedWithErrorChecking` (Model/MemoryWords.lean), `newSeedWithErrorChecking` (Model/Nums.lean) |
| 253-255 | `func NewSeed(mnemonic string, password string) []byte` | Crypto/Sha2.lean, `newSeed` (Model/Bip39.lean), `newSeed` (Model/MemoryWords.lean), Model/Pbkdf2.lean |
| 260-263 | `func IsMnemonicValid(mnemonic string) bool` | `isMnemonicValid` (Model/Bip39.lean), `isMnemonicValid` (Model/Nums.lean) |
| 267-291 | `func addChecksum(data []byte) []byte` | `addChecksumLoop` (Model/Bip39.lean), `addChecksum` (Model/Bip39.lean), `addChecksum` (Model/Checked.lean), `addChecksum` (Model/MemoryWords.lean), `addChecksumLoop` (Model/Nums.lean), `addChecksum` (Model/Nums.lean) |
| 293-296 | `func computeChecksum(data []byte) []byte` | `computeChecksum` (Model/Bip39.lean), `computeChecksum` (Model/MemoryWords.lean) |
| 300-306 | `func validateEntropyBitSize(bitSize int) error` | `validateEntropyBitSize` (Model/Bip39.lean) |
| 310-320 | `func padByteSlice(slice []byte, length int) []byte` | `padByteSlice` (Model/Bip39.lean), `padByteSlice` (Model/Checked.lean), `padByteSlice` (Model/MemoryWords.lean) |
| 324-336 | `func compareByteSlices(a, b []byte) bool` | `compareFrom` (Model/Unused.lean), `compareByteSlices` (Model/Unused.lean) |
| 338-351 | `func splitMnemonicWords(mnemonic string) ([]string, bool)` | Go/Utf8.lean, `splitMnemonicWords` (Model/Bip39.lean) |

## bip39/wordlists/chinese_simplified.go

| lines | declaration | modelled by |
|---|---|---|
| 9-18 | `func init()` | `chineseSimplified` (Model/Wordlists.lean) |
| 22-22 | `var ChineseSimplified = strings.Split(strings.TrimSpace(chineseSimplified), "\n")` | `chineseSimplified` (Model/Wordlists.lean) |
| 23-23 | `var chineseSimplified = `的` | Data/Words/ChineseSimplified.lean, `w0` (Data/Words/ChineseSimplified.lean) |

## bip39/wordlists/chinese_traditional.go

| lines | declaration | modelled by |
|---|---|---|
| 9-18 | `func init()` | `chineseTraditional` (Model/Wordlists.lean) |
| 22-22 | `var ChineseTraditional = strings.Split(strings.TrimSpace(chineseTraditional), "\n")` | `chineseTraditional` (Model/Wordlists.lean) |
| 23-23 | `var chineseTraditional = `的` | Data/Words/ChineseTraditional.lean, `w0` (Data/Words/ChineseTraditional.lean) |

## bip39/wordlists/czech.go

| lines | declaration | modelled by |
|---|---|---|
| 9-18 | `func init()` | `czech` (Model/Wordlists.lean) |
| 22-22 | `var Czech = strings.Split(strings.TrimSpace(czech), "\n")` | `czech` (Model/Wordlists.lean) |
| 23-23 | `var czech = `abdikace` | Data/Words/Czech.lean, `w0` (Data/Words/Czech.lean) |

## bip39/wordlists/english.go

| lines | declaration | modelled by |
|---|---|---|
| 9-18 | `func init()` | `english` (Model/Wordlists.lean) |
| 22-22 | `var English = strings.Split(strings.TrimSpace(english), "\n")` | `english` (Model/Wordlists.lean) |
| 23-23 | `var english = `abandon` | Data/Words/English.lean, `w0` (Data/Words/English.lean) |
| 1909-1909 | `type` | Data/Words/English.lean, `w29` (Data/Words/English.lean) |

## bip39/wordlists/french.go

| lines | declaration | modelled by |
|---|---|---|
| 9-18 | `func init()` | `french` (Model/Wordlists.lean) |
| 22-22 | `var French = strings.Split(strings.TrimSpace(french), "\n")` | `french` (Model/Wordlists.lean) |
| 23-23 | `var french = `abaisser` | Data/Words/French.lean, `w0` (Data/Words/French.lean) |

## bip39/wordlists/italian.go

| lines | declaration | modelled by |
|---|---|---|
| 9-18 | `func init()` | `italian` (Model/Wordlists.lean) |
| 22-22 | `var Italian = strings.Split(strings.TrimSpace(italian), "\n")` | `italian` (Model/Wordlists.lean) |
| 23-23 | `var italian = `abaco` | Data/Words/Italian.lean, `w0` (Data/Words/Italian.lean) |

## bip39/wordlists/japanese.go

| lines | declaration | modelled by |
|---|---|---|
| 9-18 | `func init()` | `japanese` (Model/Wordlists.lean) |
| 22-22 | `var Japanese = strings.Split(strings.TrimSpace(japanese), "\n")` | `japanese` (Model/Wordlists.lean) |
| 23-23 | `var japanese = `あいこくしん` | Data/Words/Japanese.lean, `w0` (Data/Words/Japanese.lean) |

## bip39/wordlists/korean.go

| lines | declaration | modelled by |
|---|---|---|
| 9-18 | `func init()` | `korean` (Model/Wordlists.lean) |
| 22-22 | `var Korean = strings.Split(strings.TrimSpace(korean), "\n")` | `korean` (Model/Wordlists.lean) |
| 23-23 | `var korean = `가격` | Data/Words/Korean.lean, `w0` (Data/Words/Korean.lean) |

## bip39/wordlists/portuguese.go

| lines | declaration | modelled by |
|---|---|---|
| 9-18 | `func init()` | `portuguese` (Model/Wordlists.lean) |
| 22-22 | `var Portuguese = strings.Split(strings.TrimSpace(portuguese), "\n")` | `portuguese` (Model/Wordlists.lean) |
| 23-23 | `var portuguese = `abacate` | Data/Words/Portuguese.lean, `w0` (Data/Words/Portuguese.lean) |

## bip39/wordlists/spanish.go

| lines | declaration | modelled by |
|---|---|---|
| 9-18 | `func init()` | `spanish` (Model/Wordlists.lean) |
| 22-22 | `var Spanish = strings.Split(strings.TrimSpace(spanish), "\n")` | `spanish` (Model/Wordlists.lean) |
| 23-23 | `var spanish = `ábaco` | Data/Words/Spanish.lean, `w0` (Data/Words/Spanish.lean) |

## bip44/coin.go

| lines | declaration | modelled by |
|---|---|---|
| 8-14 | `type Coin struct` | Go/Json.lean, `Coin` (Model/Coin.lean), `Coin.jsonFields` (Model/CoinJson.lean), `Coin.marshal` (Model/CoinJson.lean), `jsonFieldNames` (Model/CoinJson.lean), `Coin.store` (Model/CoinJson.lean) and others |
| 16-20 | `func (c Coin) StringForMD() string` | `Coin.stringForMD` (Model/Coin.lean) |
| 22-31 | `func (c Coin) String() string` | Go/Utf8.lean, `Coin.string` (Model/Coin.lean) |
| 33-37 | `func (c Coin) IsValid() bool` | Go/Utf8.lean, `Coin.isValid` (Model/Coin.lean) |

## bip44/coins.go

| lines | declaration | modelled by |
|---|---|---|
| 7-7 | `var RegBip44CoinsTypeToValMap = make(map[uint32]Coin)` | `CoinReg` (Model/Bip44.lean) |
| 8-8 | `var RegBip44CoinsPathCompToValMap = make(map[uint32]Coin)` | `CoinReg` (Model/Bip44.lean) |
| 9-9 | `var RegBip44CoinsNameToValMap = make(map[string]Coin)` | `CoinReg` (Model/Bip44.lean) |
| 12-1149 | `var RegCoins = []Coin` | Data/Coins.lean, `c0` (Data/Coins.lean), `c1` (Data/Coins.lean), `c2` (Data/Coins.lean), `c3` (Data/Coins.lean), `c4` (Data/Coins.lean) and others |
| 1151-1165 | `func init()` | `Coin.repair` (Model/Bip44.lean), `CoinReg.add` (Model/Bip44.lean), `SortOutcome` (Model/Bip44.lean), `CoinReg.init` (Model/Bip44.lean) |

## bip44/script.go

| lines | declaration | modelled by |
|---|---|---|
| 12-12 | `var Slip044FS embed.FS` | `slip44File` (Model/Slip44.lean) |
| 13-13 | `var Slip044FileName = "slip-0044.md"` | `slip44File` (Model/Slip44.lean) |
| 23-66 | `func generateFileFromSlip44MD()` | `mdFields` (Model/Slip44.lean), `genLine` (Model/Slip44.lean), `generateFile` (Model/Slip44.lean) |

## examples/ui/one/main.go

| lines | declaration | modelled by |
|---|---|---|
| 27-37 | `func main()` | not modelled: opens the window and calls `loop` |
| 39-39 | `type Gtx = layout.Context` | alias of a Gio type |
| 40-40 | `type Dim = layout.Dimensions` | alias of a Gio type |
| 41-41 | `type Flex = layout.Flex` | alias of a Gio type |
| 43-46 | `type KeyPathTab struct` | `Ui` (Model/Ui.lean) |
| 47-51 | `type KeyPathTabs struct` | `Ui` (Model/Ui.lean) |
| 53-53 | `var keyPathTabs KeyPathTabs` | `Ui` (Model/Ui.lean) |
| 55-55 | `var Rigid = layout.Rigid` | `Ui` (Model/Ui.lean) |
| 57-57 | `var bps = util.Generator{}` | `Ui` (Model/Ui.lean) |
| 58-58 | `var btnGenerateMnemonic widget.Clickable` | `Ui` (Model/Ui.lean) |
| 59-59 | `var radioGroupMnemonicWords widget.Enum` | `Ui` (Model/Ui.lean) |
| 60-60 | `var mnemonicField component.TextField` | `Ui` (Model/Ui.lean) |
| 61-61 | `var mnemonicPassphraseField component.TextField` | `Ui` (Model/Ui.lean) |
| 62-62 | `var bip39SeedField component.TextField` | `Ui` (Model/Ui.lean) |
| 63-63 | `var bip32RootKeyField component.TextField` | `Ui` (Model/Ui.lean) |
| 64-64 | `var derivationStr string` | `Ui` (Model/Ui.lean) |
| 65-65 | `var derivationPath util.Path` | `Ui` (Model/Ui.lean) |
| 66-66 | `var derivationField component.TextField` | `Ui` (Model/Ui.lean) |
| 67-67 | `var rootKeyStr string` | `Ui` (Model/Ui.lean) |
| 68-68 | `var mnemonic string` | `Ui` (Model/Ui.lean) |
| 69-69 | `var mnemonicPassPhrase string` | `Ui` (Model/Ui.lean) |
| 70-70 | `var seed string` | `Ui` (Model/Ui.lean) |
| 71-71 | `var outputLeftBtn widget.Clickable` | `Ui` (Model/Ui.lean) |
| 72-72 | `var outputRightBtn widget.Clickable` | `Ui` (Model/Ui.lean) |
| 73-73 | `var viewLayout = layout.List{Axis: layout.Vertical}` | `Ui` (Model/Ui.lean) |
| 74-74 | `var tabsSlider Slider` | `Slider.zero` (Model/Slider.lean), `Ui` (Model/Ui.lean) |
| 76-89 | `var onKeyPathChange = func()` | `Ui.currentPath` (Model/Ui.lean), `Ui.onKeyPathChange` (Model/Ui.lean) |
| 91-104 | `var onAutoCreateMnemonicClicked = func()` | `Ui.rootFromSeed` (Model/Ui.lean), `Ui.onAutoCreateMnemonicClicked` (Model/Ui.lean) |
| 105-115 | `var onMnemonicChange = func()` | `Ui.onMnemonicChange` (Model/Ui.lean) |
| 117-127 | `var onMnemonicPassphraseChange = func()` | `Ui.onMnemonicPassphraseChange` (Model/Ui.lean) |
| 129-139 | `var onSeedChange = func()` | `Ui.onSeedChange` (Model/Ui.lean) |
| 141-157 | `var onRootKeyStrChange = func()` | `Ui.onRootKeyStrChange` (Model/Ui.lean) |
| 158-166 | `var OnDerivationPathChange = func()` | `Ui.onDerivationPathChange` (Model/Ui.lean) |
| 168-413 | `func loop(w *app.Window) error` | `Ui.update` (Model/Ui.lean), `Ui.clickLeft` (Model/Ui.lean), `Ui.clickRight` (Model/Ui.lean), `Ui.clickTab` (Model/Ui.lean), `Ui.layout` (Model/Ui.lean), `Ui.shown` (Model/Ui.lean) and others |

## examples/ui/one/slider.go

| lines | declaration | modelled by |
|---|---|---|
| 13-13 | `const defaultDuration = 300 * time.Millisecond` | `defaultDuration` (Model/Slider.lean) |
| 16-28 | `type Slider struct` | `Slider` (Model/Slider.lean) |
| 31-31 | `func (s *Slider) PushLeft() { s.push = 1 }` | `Slider.pushLeft` (Model/Slider.lean) |
| 34-34 | `func (s *Slider) PushRight() { s.push = -1 }` | `Slider.pushRight` (Model/Slider.lean) |
| 37-116 | `func (s *Slider) Layout(gtx layout.Context, w layout.Widget) layout.Dimensions` | `timeSub` (Model/Slider.lean), `seconds` (Model/Slider.lean), `movement` (Model/Slider.lean), `stepOffset` (Model/Slider.lean), `shift` (Model/Slider.lean), `Slider.start` (Model/Slider.lean) and others |
| 119-124 | `func smooth(t float32) float32` | `smooth` (Model/Slider.lean) |
| 127-132 | `func easeInOutCubic(t float32) float32` | `easeInOutCubic` (Model/Slider.lean) |

## util/err.go

| lines | declaration | modelled by |
|---|---|---|
| 5-18 | `var block` | Model/Err.lean |

## util/key_path.go

| lines | declaration | modelled by |
|---|---|---|
| 11-14 | `type KeyPath struct` | `Row` (Model/MemoryUtil.lean), `KeyPath` (Model/Util.lean) |
| 16-26 | `func (b KeyPath) AddrHex() string` | Crypto/Ripemd.lean, `addrHex` (Model/Checked.lean), `addrHex` (Model/MemoryWords.lean), `addrHex` (Model/Nums.lean), `KeyPath.addrHex` (Model/Util.lean) |
| 28-44 | `func (b KeyPath) AddrP2SH(verPrefix byte) string` | `addrP2SH` (Model/Checked.lean), `addrP2SH` (Model/MemoryWords.lean), `addrP2SH` (Model/Nums.lean), `KeyPath.addrP2SH` (Model/Util.lean) |
| 69-74 | `type KeyPathRange struct` | `RangeVar` (Model/MemoryUtil.lean), `KeyPathRange` (Model/Util.lean) |
| 76-106 | `func (k *KeyPathRange) GenerateRange() error` | `rangeLoop` (Model/Checked.lean), `generateRange` (Model/Checked.lean), `rangeLoop` (Model/MemoryUtil.lean), `setKeyPaths` (Model/MemoryUtil.lean), `generateRange` (Model/MemoryUtil.lean), `rangeLoop` (Model/MemoryWords.lean) and others |

## util/util.go

| lines | declaration | modelled by |
|---|---|---|
| 10-16 | `const block` | `generateMnemonic` (Model/Util.lean) |
| 20-45 | `func GenerateMnemonic(wordsCount byte) (string, error)` | `generateMnemonic` (Model/Checked.lean), `generateMnemonic` (Model/Nums.lean), `generateMnemonicFrom` (Model/Random.lean), `generateMnemonic` (Model/Util.lean) |
| 47-53 | `func DeriveSeedFromMnemonic(mnemonic string, mnemonicPassphrase string) (string, error)` | `deriveSeedFromMnemonic` (Model/Checked.lean), `deriveSeedFromMnemonic` (Model/Nums.lean), `deriveSeedFromMnemonic` (Model/Util.lean) |
| 56-75 | `func RootKeyFromSeed(seed string) (*bip32.Key, error)` | `rootKeyFromSeed` (Model/Checked.lean), `rootKeyFromSeed` (Model/MemoryUtil.lean), `rootKeyFromSeed` (Model/Nums.lean), `rootKeyFromSeed` (Model/Util.lean) |
| 77-77 | `type Path = bip32.Path` | alias of `bip32.Path` |
| 79-81 | `type Generator struct` | `deriveBIP32ResultW` (Model/Narrow.lean), `deriveBIP32Result` (Model/Nums.lean), `deriveBIP32Result` (Model/Util.lean) |
| 83-85 | `func (g *Generator) SetRootKey(k bip32.Key)` | `setRootKey` (Model/Memory.lean), `deriveBIP32ResultW` (Model/Narrow.lean), `deriveBIP32Result` (Model/Nums.lean), `deriveBIP32Result` (Model/Util.lean) |
| 87-89 | `func (g *Generator) RootKey() *bip32.Key` | `rootKey` (Model/Memory.lean), `deriveBIP32ResultW` (Model/Narrow.lean), `deriveBIP32Result` (Model/Nums.lean), `deriveBIP32Result` (Model/Util.lean) |
| 91-127 | `func (g *Generator) DeriveBIP32Result(p bip32.Path) ([]KeyPath, error)` | `deriveLoop` (Model/Checked.lean), `rootRefused` (Model/Checked.lean), `deriveBIP32Result` (Model/Checked.lean), `deriveLoop` (Model/Memory.lean), `deriveBIP32Result` (Model/Memory.lean), `deriveLoop` (Model/MemoryUtil.lean) and others |
