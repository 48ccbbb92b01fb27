{"id": "C01", "title": "Entropy survives the trip through a mnemonic", "statement": "For every entropy of 16, 20, 24, 28 or 32 bytes and every well-formed word list (2048 distinct, non-empty words without white space), NewMnemonic succeeds and EntropyFromMnemonic applied to the result returns exactly the original bytes and no error.", "quantifier": "all byte strings of the five legal lengths, all well-formed word lists, all SHA-256 behaviours", "why_tests_cant": "There are 2^128 to 2^256 entropies per length; tests sample a few hundred, and the leading-zero and padding corner cases are exponentially rare.", "anchors": ["bip39/bip39.go: NewMnemonic, EntropyFromMnemonic, addChecksum, padByteSlice"]}
{"id": "C02", "title": "Accepted mnemonics are canonical", "statement": "Whenever EntropyFromMnemonic accepts a string and returns e, NewMnemonic(e) succeeds and equals the words of that string joined by single spaces; hence two accepted strings give the same entropy exactly when they have the same words.", "quantifier": "all byte strings accepted as mnemonic, all well-formed word lists", "why_tests_cant": "The set of accepted strings is infinite (white space) and has 2^128..2^256 word sequences.", "anchors": ["bip39/bip39.go: EntropyFromMnemonic, NewMnemonic, splitMnemonicWords"]}
{"id": "C03", "title": "NewMnemonic is the BIP-39 encoding", "statement": "The words returned by NewMnemonic(e) are, in order, the list entries addressed by the consecutive 11-bit groups of (bits of e) followed by the first len(e)/4 bits of SHA-256(e).", "quantifier": "all entropies of legal length, all well-formed word lists (for any other list see C80)", "why_tests_cant": "A reference vector checks one entropy; the claim is bit-for-bit conformance for all of them.", "anchors": ["bip39/bip39.go: NewMnemonic, addChecksum"]}
{"id": "C04", "title": "EntropyFromMnemonic accepts exactly the valid BIP-39 mnemonics", "statement": "EntropyFromMnemonic succeeds if and only if the string splits into 12, 15, 18, 21 or 24 words, all in the word list, whose 11-bit indices concatenate to entropy bits followed by the first len/4 bits of the SHA-256 of that entropy; the error reported is ErrInvalidMnemonic for a bad count, then the unknown-word error, then ErrChecksumIncorrect. It never panics. IsMnemonicValid is true exactly when it succeeds.", "quantifier": "all byte strings", "why_tests_cant": "Rejection must hold for every malformed string, an infinite set.", "anchors": ["bip39/bip39.go: EntropyFromMnemonic, IsMnemonicValid, splitMnemonicWords"]}
{"id": "C05", "title": "Entropy size validation is exact", "statement": "NewEntropy(n) and NewMnemonic(e) fail with ErrEntropyLengthInvalid exactly when the bit size is not one of 128, 160, 192, 224, 256; NewEntropy otherwise returns n/8 bytes; NewMnemonic otherwise returns 3*len(e)/4 words.", "quantifier": "all integers n, all byte strings e", "why_tests_cant": "Unbounded domain of sizes.", "anchors": ["bip39/bip39.go: NewEntropy, validateEntropyBitSize, NewMnemonic"]}
{"id": "C06", "title": "Mnemonic validity ignores white-space layout", "statement": "Two strings with the same sequence of white-space separated words (any Unicode white space, any amount, leading or trailing) are both accepted with the same entropy or both rejected; in particular the ideographic-space form of a Japanese mnemonic is equivalent to the ASCII-space form.", "quantifier": "all pairs of strings with equal word sequences", "why_tests_cant": "Infinite family of layouts.", "anchors": ["bip39/bip39.go: splitMnemonicWords, EntropyFromMnemonic"]}
{"id": "C07", "title": "MnemonicToByteArray agrees with EntropyFromMnemonic", "statement": "With raw=true MnemonicToByteArray returns exactly what EntropyFromMnemonic returns. Without it, for a valid mnemonic the result is the big-endian number (entropy bits ++ checksum bits) left-padded to len(entropy)+1 bytes, regardless of the white-space layout.", "quantifier": "all strings, both raw settings", "why_tests_cant": "Infinite domain; the size is computed from a different splitting function than the words.", "anchors": ["bip39/bip39.go: MnemonicToByteArray"]}
{"id": "C08", "title": "Checked seed derivation", "statement": "NewSeedWithErrorChecking succeeds exactly on the mnemonics IsMnemonicValid accepts; on success it returns PBKDF2-HMAC-SHA512(password=mnemonic bytes, salt='mnemonic'+passphrase, 2048 rounds, 64 bytes) as defined by RFC 8018, always 64 bytes, equal to NewSeed.", "quantifier": "all mnemonic and passphrase strings, all HMAC behaviours", "why_tests_cant": "Infinite input domain.", "anchors": ["bip39/bip39.go: NewSeedWithErrorChecking, NewSeed"]}
{"id": "C09", "title": "Word list and reverse index stay in step over any history", "statement": "After any sequence of SetWordList calls, GetWordList returns the last list set and GetWordIndex(w) reports (i,true) with list[i]=w (the last such i) when w occurs in it and (0,false) otherwise; for a duplicate-free list this makes index and list mutually inverse.", "quantifier": "all histories of SetWordList calls with arbitrary lists, all words", "why_tests_cant": "Histories and lists are unbounded.", "anchors": ["bip39/bip39.go: SetWordList, GetWordList, GetWordIndex"]}
{"id": "C10", "title": "Every shipped word list supports lossless mnemonics", "statement": "Each of the ten lists in bip39/wordlists has exactly 2048 distinct, non-empty words containing no Unicode white space, so that C01 and C02 hold for all entropies after SetWordList with that list.", "quantifier": "ten lists, all entropies", "why_tests_cant": "The list facts are finite but the consequence is for all entropies.", "anchors": ["bip39/wordlists/*.go", "bip39/bip39.go: SetWordList"]}
{"id": "C11", "title": "Checksum redundancy is exactly ENT/32 bits", "statement": "For every sequence of w-1 list words (w in 12,15,18,21,24) exactly 2^(11-w/3) of the 2048 candidate last words make the sentence valid.", "quantifier": "all word prefixes of the five lengths, all SHA-256 behaviours", "why_tests_cant": "2048^11 and more prefixes.", "anchors": ["bip39/bip39.go: EntropyFromMnemonic"]}
{"id": "C12", "title": "Mutating a list obtained from the package must not corrupt decoding", "statement": "Callers may expect that writing to a slice previously passed to SetWordList or returned by GetWordList does not break the round-trip. (The code aliases the slice; the model shows when the property fails.)", "quantifier": "all histories of SetWordList and element writes", "why_tests_cant": "Depends on aliasing history, not on one input.", "anchors": ["bip39/bip39.go: SetWordList, GetWordList"]}
{"id": "C13", "title": "Readers racing with SetWordList see one consistent list", "statement": "Under sequentially consistent interleaving, a reader concurrent with SetWordList should see either the old list and index or the new list and index. (The code publishes the list and fills the map in steps; the model exhibits torn reads, and mnemonics that NewMnemonic makes of words of both lists.)", "quantifier": "all interleavings of one writer and one reader", "why_tests_cant": "Schedules cannot be enumerated by tests.", "anchors": ["bip39/bip39.go: SetWordList, EntropyFromMnemonic, NewMnemonic"]}
{"id": "C14", "title": "Serialize then Deserialize is the identity", "statement": "For every Key that is not all zero, Serialize returns 82 bytes and no error, and Deserialize of them returns the same Key and no error; for the all-zero Key Serialize returns ErrEmptyKey.", "quantifier": "all 2^624 keys, all hash behaviours", "why_tests_cant": "Cannot enumerate keys.", "anchors": ["bip32/bip32.go: Serialize, Deserialize"]}
{"id": "C15", "title": "Deserialize accepts exactly checksummed 82-byte inputs", "statement": "Deserialize returns no error iff the input is 82 bytes and the last four equal the first four of SHA-256(SHA-256(first 78)); otherwise ErrSerializedKeyWrongSize or ErrInvalidChecksum respectively. It never panics and the returned Key is always the first 78 bytes (zero-padded when short).", "quantifier": "all byte strings of every length", "why_tests_cant": "Infinite input domain.", "anchors": ["bip32/bip32.go: Deserialize", "bip32/utils.go: ChecksumDblSha256"]}
{"id": "C16", "title": "Base58 strings round-trip to keys", "statement": "For every Key that is not all zero B58Deserialize(key.String()) returns that key and no error.", "quantifier": "all keys, all hash behaviours", "why_tests_cant": "Cannot enumerate keys.", "anchors": ["bip32/bip32.go: B58Serialize, String, B58Deserialize"]}
{"id": "C17", "title": "A key has exactly one accepted text form", "statement": "If B58Deserialize accepts a string s and returns a key that is not all zero, then key.String() = s. Distinct accepted strings denote distinct keys.", "quantifier": "all byte strings", "why_tests_cant": "Malleability would show only on adversarial strings.", "anchors": ["bip32/bip32.go: B58Deserialize, B58Serialize"]}
{"id": "C18", "title": "IsValid characterisation", "statement": "Key.IsValid holds iff the key is not all zero; in particular it does not check that the private scalar is in range, that the public bytes denote a curve point, or that the version is registered.", "quantifier": "all keys", "why_tests_cant": "Cannot enumerate keys.", "anchors": ["bip32/bip32.go: IsValid"]}
{"id": "C19", "title": "Human-readable prefixes", "statement": "For every registered VersionBytes v and every Key whose version is v.PvtKeyFlag (PubKeyFlag), the first four characters of key.String() are v.PvKeyPrefix (PubKeyPrefix).", "quantifier": "all keys under each registered version", "why_tests_cant": "2^592 keys per version.", "anchors": ["bip32/reg_ver_bytes.go: VersionBytes.PvKeyPrefix, PubKeyPrefix", "bip32/bip32.go: B58Serialize"]}
{"id": "C20", "title": "Field accessors are lenses", "statement": "Reading a field after setting it returns the value set, leaves all other fields unchanged, and the six field readers determine the key.", "quantifier": "all keys and field values", "why_tests_cant": "Cannot enumerate keys.", "anchors": ["bip32/bip32.go: SetVersion, SetVersionUint32, GetVersion, GetChainCode, GetDepth, GetFingerPrint, GetChildNumber, GetKeyBytes, GetPvtKeyBytes"]}
{"id": "C21", "title": "Master key generation follows BIP-32", "statement": "NewMasterKey(seed) fails with ErrInvalidPrivateKey iff the left half of HMAC-SHA512('Bitcoin seed', seed), read as a big-endian number, is 0 or >= n; otherwise the key is xprv version, depth 0, zero fingerprint and child number, chain code = right half, private key = left half.", "quantifier": "all seeds, all HMAC behaviours", "why_tests_cant": "The rejected seeds have probability 2^-127 and cannot be found by tests.", "anchors": ["bip32/bip32.go: NewMasterKey", "bip32/utils.go: ValidatePrivateKey"]}
{"id": "C22", "title": "Private derivation follows BIP-32 CKDpriv", "statement": "For a private key with scalar in [1,n-1] and registered version, NewChildKey(i) returns the key with scalar (parse256(IL)+k) mod n, chain code IR, depth+1, child number i, fingerprint = first 4 bytes of HASH160(serP(point(k))), same version, where I = HMAC-SHA512(c, 0x00||k||i) for hardened i and HMAC-SHA512(c, serP(point(k))||i) otherwise; it fails with ErrInvalidPrivateKey iff that scalar is 0 or parse256(IL) >= n.", "quantifier": "all keys, all indices, all hash behaviours", "why_tests_cant": "Error branches have probability 2^-127; the arithmetic must hold for all scalars.", "anchors": ["bip32/bip32.go: NewChildKey, getIntermediary", "bip32/utils.go: addPrivateKeys, publicKeyForPrivateKey"]}
{"id": "C23", "title": "Public derivation follows BIP-32 CKDpub", "statement": "For a public key encoding a point K of secp256k1 and registered version, NewChildKey(i), i non-hardened, returns serP(point(parse256(IL)) + K), chain code IR, depth+1, child number i, fingerprint = first 4 bytes of HASH160(serP(K)); it fails with ErrInvalidPublicKey iff parse256(IL) >= n or the sum is the point at infinity.", "quantifier": "all points, all indices, all hash behaviours", "why_tests_cant": "Needs the elliptic-curve group law for all points.", "anchors": ["bip32/bip32.go: NewChildKey", "bip32/utils.go: addPublicKeys, compressPublicKey, ExpandPublicKey, validateChildPublicKey"]}
{"id": "C24", "title": "Neutering commutes with non-hardened derivation", "statement": "For every private key with scalar in [1,n-1] and registered version and every non-hardened i for which private derivation succeeds (and IL is not 0 mod n), deriving the child of the neutered key gives exactly the neutered child: N(CKDpriv(k,i)) = CKDpub(N(k),i).", "quantifier": "all keys, all 2^31 indices, all hash behaviours", "why_tests_cant": "The central BIP-32 identity rests on the group law of secp256k1 for all scalars.", "anchors": ["bip32/bip32.go: NewChildKey, PublicKeyExtended"]}
{"id": "C25", "title": "Watch-only wallets see the same tree", "statement": "For any list of non-hardened indices, deriving step by step from the private key and neutering at the end equals neutering first and deriving publicly, provided each step succeeds.", "quantifier": "all keys and all index lists of any length", "why_tests_cant": "Unbounded depth.", "anchors": ["bip32/bip32.go: NewChildKey, PublicKeyExtended"]}
{"id": "C26", "title": "No hardened child of a public key", "statement": "NewChildKey(i) with i >= 2^31 on a key that is not private always returns ErrHardenedChildPublicKey and the all-zero key.", "quantifier": "all non-private keys, all hardened indices", "why_tests_cant": "Cannot enumerate.", "anchors": ["bip32/bip32.go: NewChildKey"]}
{"id": "C27", "title": "Neutering is sound and idempotent", "statement": "PublicKeyExtended returns a non-private key with the same depth, fingerprint, child number and chain code; for a private scalar k in [1,n-1] the key bytes are the SEC1 compressed encoding of k*G; applied to a public key of registered version it is the identity; it is idempotent.", "quantifier": "all keys", "why_tests_cant": "Cannot enumerate.", "anchors": ["bip32/bip32.go: PublicKeyExtended"]}
{"id": "C28", "title": "Non-hardened children do not protect the parent", "statement": "Given only the extended public parent key and the private key of any non-hardened child, the parent scalar is determined: k = (k_i - parse256(IL)) mod n with IL computable from public data. (Documented BIP-32 caveat; users must rely on hardening.)", "quantifier": "all keys, all non-hardened indices", "why_tests_cant": "An algebraic identity over all scalars.", "anchors": ["bip32/bip32.go: NewChildKey, getIntermediary"]}
{"id": "C29", "title": "Derivation does not depend on map iteration order", "statement": "The results of NewChildKey and PublicKeyExtended are the same for every order in which the package initialiser ranges over PathToHDBytesSlice.", "quantifier": "all iteration orders, all keys, all indices", "why_tests_cant": "Go randomises map order per run; a test sees a few orders out of 15!.", "anchors": ["bip32/reg_ver_bytes.go: init, PvtFlagToHDBytesSlice, PubFlagToHDBytesSlice", "bip32/bip32.go: NewChildKey, PublicKeyExtended"]}
{"id": "C30", "title": "Unregistered versions are rejected", "statement": "NewChildKey returns ErrUnSupportedHDVersionBytes iff (the request is not hardened-from-public and) the key's version is not registered for its kind (private/public); PublicKeyExtended uses the default xpub version in that case.", "quantifier": "all keys and indices", "why_tests_cant": "2^32 versions times keys.", "anchors": ["bip32/bip32.go: NewChildKey, PublicKeyExtended"]}
{"id": "C31", "title": "Depth counts derivation steps", "statement": "After d successful derivation steps from a depth-0 key the depth byte is d. (The byte wraps at 256; the model proves d mod 256 and exhibits the wrap.)", "quantifier": "all keys and index lists of any length", "why_tests_cant": "Unbounded depth.", "anchors": ["bip32/bip32.go: NewChildKey, setDepth"]}
{"id": "C32", "title": "Derivation preserves key validity", "statement": "Along any successful derivation path from a well-formed private key every key is private with scalar in [1,n-1]; along any successful public path from a public key on the curve every key is the compressed encoding of a curve point or (only if the sum is infinity) the encoding 02||0.", "quantifier": "all keys, all paths of any length", "why_tests_cant": "Unbounded histories.", "anchors": ["bip32/bip32.go: NewChildKey"]}
{"id": "C33", "title": "Compressed point encoding is invertible", "statement": "ExpandPublicKey inverts compression for every affine point of secp256k1, and compressing the expansion of any 33-byte string that encodes a curve point returns that string.", "quantifier": "all curve points / all encodings", "why_tests_cant": "2^256 points.", "anchors": ["bip32/utils.go: compressPublicKey, ExpandPublicKey"]}
{"id": "C34", "title": "Private scalar validation is exact", "statement": "ValidatePrivateKey accepts exactly the 32-byte strings whose big-endian value is in [1, n-1].", "quantifier": "all 32-byte strings", "why_tests_cant": "2^256 strings.", "anchors": ["bip32/utils.go: ValidatePrivateKey"]}
{"id": "C35", "title": "Hex views agree with the key", "statement": "PrivateKeyHex decodes to the 32 private bytes (empty for public keys); PublicKeyHex decodes to the 33 public bytes and is unchanged by neutering; both are lower-case of fixed length.", "quantifier": "all keys", "why_tests_cant": "Cannot enumerate.", "anchors": ["bip32/bip32.go: PrivateKeyHex, PublicKeyHex"]}
{"id": "C36", "title": "Path validity is exactly the grammar", "statement": "After removing ASCII white space a path is valid iff it is 'm' or 'M' followed by zero or more /digits' components and then zero or more /digits components, every number fitting a signed 64-bit integer and every hardened number being below 2^31 (modulo 2^32 in the code).", "quantifier": "all byte strings", "why_tests_cant": "Infinite language.", "anchors": ["bip32/path.go: PathRegex, ValuesAtDepth, IsValid"]}
{"id": "C37", "title": "Path components are read at face value", "statement": "For a valid path, ValuesAtDepth returns [0, v1, ..., vd] where vi is the i-th decimal number, plus 2^31 if it carries an apostrophe. (The code truncates numbers to 32 bits; the model proves the exact result and exhibits the truncation.)", "quantifier": "all valid paths", "why_tests_cant": "Infinite language; truncation shows only above 2^32.", "anchors": ["bip32/path.go: ValuesAtDepth"]}
{"id": "C38", "title": "White space in paths is immaterial", "statement": "String and Formatted remove exactly the ASCII white-space bytes, are idempotent, and validity and values of a path equal those of its formatted form.", "quantifier": "all byte strings", "why_tests_cant": "Infinite domain.", "anchors": ["bip32/path.go: String, Formatted, IsValid, ValuesAtDepth"]}
{"id": "C39", "title": "ValueAtDepth indexes ValuesAtDepth", "statement": "For a valid path with d components ValueAtDepth(b) returns the b-th entry for every b <= d and ErrUnSupportedOrInvalidPath for larger b. (The bound is compared modulo 256; exact behaviour and the failing case are both shown.) It never panics.", "quantifier": "all paths, all 256 depths", "why_tests_cant": "Paths are unbounded; the failure needs 255 or more components.", "anchors": ["bip32/path.go: ValueAtDepth"]}
{"id": "C40", "title": "ReplaceValueAtDepth is read-after-write", "statement": "After a successful replacement at depth b >= 1, reading depth b gives the new value and every other depth is unchanged. (Holds exactly when the replacement keeps hardened components before non-hardened ones; the failing cases are shown.)", "quantifier": "all valid paths, depths and values", "why_tests_cant": "Infinite domain.", "anchors": ["bip32/path.go: ReplaceValueAtDepth"]}
{"id": "C41", "title": "Printing and parsing paths are inverse", "statement": "For every list of values (hardened ones first) the canonical path text is valid and ValuesAtDepth returns the list back.", "quantifier": "all lists of 32-bit values with the hardened ones first", "why_tests_cant": "Unbounded lists.", "anchors": ["bip32/path.go: ValuesAtDepth", "util/util.go: DeriveBIP32Result"]}
{"id": "C42", "title": "Generated mnemonics are valid and have the requested size", "statement": "GenerateMnemonic(w) fails with ErrInvalidMnemonicWordsCount unless w is 12, 15, 18, 21 or 24; otherwise, whatever the random source returns, it yields a mnemonic of exactly w words that IsMnemonicValid accepts and whose entropy is the random bytes.", "quantifier": "all byte values w, all random source outputs, all well-formed word lists", "why_tests_cant": "All random outputs.", "anchors": ["util/util.go: GenerateMnemonic"]}
{"id": "C43", "title": "Mnemonic to seed text", "statement": "DeriveSeedFromMnemonic fails exactly on invalid mnemonics; otherwise it returns 128 lower-case hex characters that decode to NewSeed(mnemonic, passphrase).", "quantifier": "all strings", "why_tests_cant": "Infinite domain.", "anchors": ["util/util.go: DeriveSeedFromMnemonic"]}
{"id": "C44", "title": "Root key from seed text never crashes", "statement": "RootKeyFromSeed returns an error for non-hex input, ErrInvalidBIP39Seed for fewer than 16 bytes, an error when the seed yields no valid master key, and otherwise the master key; it never panics. (The code overwrites NewMasterKey's error and dereferences nil; the model proves the exact behaviour and the panic.)", "quantifier": "all seed strings, all HMAC behaviours", "why_tests_cant": "The failing seeds have probability 2^-127.", "anchors": ["util/util.go: RootKeyFromSeed"]}
{"id": "C45", "title": "Path derivation lists every ancestor", "statement": "For a valid private depth-0 root and valid path with d components DeriveBIP32Result returns d+1 entries; entry 0 is (m, root); entry j holds the key obtained by j successive NewChildKey steps along the path values and the text of the j-component prefix.", "quantifier": "all roots, all paths of any length", "why_tests_cant": "Unbounded paths.", "anchors": ["util/util.go: DeriveBIP32Result"]}
{"id": "C46", "title": "Path derivation reports failures", "statement": "If any step of the derivation fails, DeriveBIP32Result returns an error. (The code discards step errors; the model exhibits a root for which all-zero keys are returned without error.)", "quantifier": "all roots, all paths", "why_tests_cant": "Failure steps have probability 2^-127 or need unusual versions.", "anchors": ["util/util.go: DeriveBIP32Result"]}
{"id": "C47", "title": "Returned path labels are valid paths naming the same key", "statement": "Every label returned by DeriveBIP32Result is a valid path whose values are the first j values of the request, so re-deriving the label gives the same key. (Fails when a component >= 2^31 is written without apostrophe after a non-hardened one.)", "quantifier": "all roots, all valid paths", "why_tests_cant": "Infinite language.", "anchors": ["util/util.go: DeriveBIP32Result", "bip32/path.go: PathRegex"]}
{"id": "C48", "title": "DeriveBIP32Result guards its inputs", "statement": "It returns ErrInvalidRootKey exactly when the root is all-zero, not private or not depth 0, otherwise ErrUnSupportedOrInvalidPath exactly when the path is invalid, otherwise no error; results depend on the path only through its white-space-free text.", "quantifier": "all roots, all strings", "why_tests_cant": "Infinite domain.", "anchors": ["util/util.go: DeriveBIP32Result"]}
{"id": "C49", "title": "GenerateRange yields one key per index", "statement": "For start < end GenerateRange produces end-start entries, one for each index of [start,end), with matching labels; an empty or inverted range is rejected with ErrInvalidRangeProvided and leaves the receiver unchanged. (Inverted ranges are accepted by the code with an empty result, and entries are nested rather than siblings; both are shown.)", "quantifier": "all 32-bit ranges, keys and paths", "why_tests_cant": "2^64 ranges; the wrap-around comparison passes ordinary tests.", "anchors": ["util/key_path.go: GenerateRange"]}
{"id": "C50", "title": "AddrHex is the Ethereum address", "statement": "KeyPath.AddrHex equals the lower-case hex of the last 20 bytes of Keccak-256 over the 64-byte X||Y encoding of the public point. (The code drops leading zero bytes of X and Y; the model proves the exact set where it is right and gives a concrete key where it is wrong.)", "quantifier": "all keys", "why_tests_cant": "About 1 key in 128 is wrong; a handful of vectors will not show it.", "anchors": ["util/key_path.go: AddrHex", "bip32/utils.go: ExpandPublicKey"]}
{"id": "C51", "title": "AddrP2SH is Base58Check of HASH160(public key)", "statement": "KeyPath.AddrP2SH(v) is the Base58Check text of version byte v and HASH160 of the compressed public key; decoding it recovers v, the hash and a matching checksum; different hashes or versions give different addresses.", "quantifier": "all keys and version bytes", "why_tests_cant": "Cannot enumerate.", "anchors": ["util/key_path.go: AddrP2SH"]}
{"id": "C52", "title": "Addresses do not depend on owning the private key", "statement": "AddrHex and AddrP2SH of a private key equal those of its neutered form.", "quantifier": "all keys", "why_tests_cant": "Cannot enumerate.", "anchors": ["util/key_path.go: AddrHex, AddrP2SH", "bip32/bip32.go: PublicKeyExtended"]}
{"id": "C53", "title": "Registry indices are sound and complete for every initialisation order", "statement": "After package initialisation, in whatever map order, each index (by private flag, public flag, purpose, full purpose, coin type) maps a value to exactly the registered entries having that value, each once.", "quantifier": "all map iteration orders", "why_tests_cant": "15! orders.", "anchors": ["bip32/reg_ver_bytes.go: init"]}
{"id": "C54", "title": "Purpose and coin values are well-defined", "statement": "For every VersionBytes whose path matches the two-level hardened form with non-empty numbers, PurposeVal and CoinVal return the numbers at face value, below 2^31, and the Full variants add 2^31; otherwise they return an error; they never panic.", "quantifier": "all VersionBytes (all path strings)", "why_tests_cant": "Infinite domain.", "anchors": ["bip32/reg_ver_bytes.go: PurposeVal, CoinVal, PurposeValFull, CoinValFull, IsValid"]}
{"id": "C55", "title": "Private and public versions never clash", "statement": "No 32-bit flag is registered both as private and as public, and entries sharing a private flag share the public flag and conversely, so a serialized key's kind and neutered version are unambiguous.", "quantifier": "all registered entries, all flags", "why_tests_cant": "Stated for all 2^32 flags.", "anchors": ["bip32/reg_ver_bytes.go: PathToHDBytesSlice"]}
{"id": "C56", "title": "Every registered coin is valid after initialisation", "statement": "For every outcome of the (unstable) sort, after package initialisation every coin in RegCoins satisfies IsValid, RegCoins is sorted by name, and it is a permutation of the published table with only the Type field of inconsistent rows repaired.", "quantifier": "all sort outcomes", "why_tests_cant": "sort.Slice is unstable; tests see one outcome.", "anchors": ["bip44/coins.go: RegCoins, init", "bip44/coin.go: IsValid"]}
{"id": "C57", "title": "Coin lookups are coherent", "statement": "After initialisation a lookup by type t (path component c, name s) returns a coin with Type t (PathComponent c, Name s) that is in RegCoins, and succeeds for every registered coin; by type and path component it returns the unique such coin.", "quantifier": "all keys, all sort outcomes", "why_tests_cant": "Quantifies over all 2^32 keys and all sort outcomes.", "anchors": ["bip44/coins.go: init"]}
{"id": "C58", "title": "Coin.IsValid characterisation", "statement": "IsValid holds iff name or symbol is not blank, Type < 2^31 and PathComponent = Type + 2^31; the repair step applied to any coin with PathComponent >= 2^31 and a non-blank label makes it valid and changes nothing on valid coins.", "quantifier": "all coins", "why_tests_cant": "2^64 type pairs, all strings.", "anchors": ["bip44/coin.go: IsValid", "bip44/coins.go: init"]}
{"id": "C63", "title": "Coin labels are unambiguous", "statement": "The String form of a coin is its symbol and a dash (if it has a symbol), its name, and its type in decimal in parentheses; so coins of different types never print the same label; after initialisation no two registered coins print the same label.", "quantifier": "all coins; all registered coins", "why_tests_cant": "All pairs of coins, infinitely many strings.", "anchors": ["bip44/coin.go: String"]}
{"id": "C64", "title": "Generated coin rows keep the coin", "statement": "For coins whose texts contain no double quote, two coins with equal StringForMD text are equal, so the generated source loses nothing; with quotes in a name two different coins give the same text.", "quantifier": "all coins", "why_tests_cant": "Infinite domain of strings.", "anchors": ["bip44/coin.go: StringForMD"]}
{"id": "C59", "title": "The tab index never goes out of range", "statement": "Over every history of user events in the example UI, indexing the tab list never panics: the selected index is always -1 or a valid tab index whenever it is used.", "quantifier": "all event histories of any length", "why_tests_cant": "Unbounded histories.", "anchors": ["examples/ui/one/main.go: onKeyPathChange, loop"]}
{"id": "C60", "title": "Displayed keys always belong to the current root key", "statement": "After every frame the tabs show exactly the derivation of the current root key along the current path. (Entering an invalid root key leaves the previous tabs on screen; shown.)", "quantifier": "all event histories", "why_tests_cant": "Unbounded histories.", "anchors": ["examples/ui/one/main.go: onRootKeyStrChange, onKeyPathChange"]}
{"id": "C61", "title": "Idle frames change nothing", "statement": "After any frame the text fields and the remembered values agree, so a following frame without input leaves the whole state unchanged.", "quantifier": "all event histories", "why_tests_cant": "Unbounded histories.", "anchors": ["examples/ui/one/main.go: loop"]}
{"id": "C62", "title": "A displayed key set always has a selected tab", "statement": "Whenever tabs are displayed one of them is selected. (False: after the list was empty once, the selection stays at -1; shown. Exactly: no tab is selected if and only if some rebuild of the list left it empty and the user clicked neither a tab nor the right arrow, with tabs displayed, since.)", "quantifier": "all event histories", "why_tests_cant": "Unbounded histories.", "anchors": ["examples/ui/one/main.go: onKeyPathChange"]}
{"id": "C65", "title": "Mnemonic, seed and root key in the UI belong together", "statement": "After every history: a non-empty mnemonic together with the passphrase determines the seed shown, and if a mnemonic or seed is present the root key is the one RootKeyFromSeed gives for the seed, its text is the key's string and the tabs are its derivation.", "quantifier": "all event histories", "why_tests_cant": "Unbounded histories.", "anchors": ["examples/ui/one/main.go: handlers, loop"]}
{"id": "C66", "title": "Editing the passphrase discards a typed root key or seed", "statement": "In every reachable state without a mnemonic (the user typed a seed or a root key), an edit of the passphrase clears seed, root key, its text and all tabs, while the derivation path stays. (One would expect a typed key to be kept: the passphrase plays no role for it.)", "quantifier": "all event histories and passphrases", "why_tests_cant": "Unbounded histories.", "anchors": ["examples/ui/one/main.go: onMnemonicPassphraseChange"]}
{"id": "C67", "title": "The coin table is the shipped SLIP-44 document", "statement": "Reading slip-0044.md line by line, each line that names a coin (four columns, name other than reserved) reads as exactly one coin, and RegisteredCoins() starts as the list of these coins in document order: none missing, none added, no number, symbol or name altered.", "quantifier": "all lines of the shipped document and all ways to read them", "why_tests_cant": "1136 rows against a 1312 line document; tests look at a few coins.", "anchors": ["bip44/coins.go", "bip44/slip-0044.md"]}
{"id": "C68", "title": "What the table generator writes", "statement": "generateFileFromSlip44MD writes one entry per coin, in order, for every table whose path components are decimal (a row of three columns has no symbol, in a row of more than four the name is the rest with blanks between, rows without symbol and name or called reserved or dead are left out); rows with hexadecimal path components are dropped without a message. So on the shipped document (0x... throughout) it writes an empty file.", "quantifier": "all tables with any number of rows and any column widths", "why_tests_cant": "Unbounded inputs; the function is never run by tests.", "anchors": ["bip44/script.go: generateFileFromSlip44MD"]}
{"id": "C69", "title": "The version registry is the shipped SLIP-132 document", "statement": "Each of the 29 rows of slip-0132.md reads as exactly one row of data, and these are the registered VersionBytes, none missing and none added, with the same coin, flags, prefixes, encodings and path; except that the code gives the nine multi-signature entries a BIP-84 path where the document gives none, and lacks P2PKT for Nexa Testnet.", "quantifier": "all lines of the shipped document, all ways to read them, all registry load orders", "why_tests_cant": "29 rows of seven columns against a document, under every map iteration order; tests look at a few.", "anchors": ["bip32/reg_ver_bytes.go: VersionBytes table, init", "bip32/slip-0132.md"]}
{"id": "C70", "title": "AddrP2SH pays to the key hash, not to a script", "statement": "For a key holding the public point Q the text AddrP2SH(v) is a pay-to-script-hash address of that key (Base58Check of v and the HASH160 of the witness script 0x0014 || HASH160(serP(Q)), BIP-49) exactly when HASH160 of the witness script collides with HASH160(serP(Q)); in particular it is not on the BIP-49 test key, so under a script-hash version byte it names an unspendable script.", "quantifier": "all keys, version bytes and registry load orders", "why_tests_cant": "Unit tests compare with outputs recorded from the same function.", "anchors": ["util/key_path.go: AddrP2SH"]}
{"id": "C71", "title": "From the mnemonic to the texts on the screen", "statement": "For an accepted mnemonic, any passphrase and any valid path with numbers below 2^31: calling DeriveSeedFromMnemonic, RootKeyFromSeed and DeriveBIP32Result one after the other gives for every prefix of the path the node BIP-39 and BIP-32 define (wherever they define one), and its six texts - path, xprv, xpub, private and public key in hex, address - are the ones the documents give. In every state the example window can reach with an accepted mnemonic, the tabs are exactly these nodes and the selected one is shown.", "quantifier": "all mnemonics, passphrases, paths, word lists, hash functions, registry load orders and histories of the window", "why_tests_cant": "An end-to-end statement over all inputs and all user histories; tests follow a few fixed vectors.", "anchors": ["util/util.go: DeriveSeedFromMnemonic, RootKeyFromSeed, DeriveBIP32Result", "bip32/bip32.go: NewMasterKey, NewChildKey, PublicKeyExtended, String, PrivateKeyHex, PublicKeyHex", "util/key_path.go: AddrHex", "examples/ui/one/main.go: loop"]}
{"id": "C72", "title": "Reading a key changes no memory", "statement": "Whatever arrays, keys and slices a program holds, calling IsPrivate, String, IsValid, PrivateKeyHex, PublicKeyHex, PublicKeyExtended, NewChildKey, Serialize or NewMasterKey changes none of them, however append grows its buffers; the bytes returned by Serialize and the keys returned are new memory, so writing to them later changes no other key. A setter changes its field of its key and nothing else. The results are those of the value-level model.", "quantifier": "all memories, keys, slices and growth policies of append", "why_tests_cant": "Aliasing shows only for particular capacities and particular later writes; tests see one memory layout.", "anchors": ["bip32/bip32.go: Key methods, NewMasterKey, NewChildKey, Serialize, getIntermediary", "bip32/utils.go"]}
{"id": "C73", "title": "Deserialize does not touch the caller's buffer", "statement": "Deserialize(data) leaves the memory of the caller as it was. (False of the code: with fewer than 82 bytes in a slice of capacity 82 or more, append writes zeros behind the slice, erasing what the caller holds there. AddChecksumDblSha256ToBytes likewise writes into spare capacity.)", "quantifier": "all memories and slices, all growth policies of append", "why_tests_cant": "Shows only when the slice is a window of a larger buffer.", "anchors": ["bip32/bip32.go: Deserialize", "bip32/utils.go: AddChecksumDblSha256ToBytes"]}
{"id": "C74", "title": "A generator is not changed by using it", "statement": "DeriveBIP32Result changes no memory, so the same request gives the same result again whatever was derived in between, and the keys in results are copies. SetRootKey stores a copy of its argument. RootKey, however, returns the generator's own key: a setter called on it changes what the generator derives from then on.", "quantifier": "all memories, keys, paths and setters", "why_tests_cant": "Depends on pointers shared between values, over all sequences of calls.", "anchors": ["util/util.go: DeriveBIP32Result, SetRootKey, RootKey"]}
{"id": "C75", "title": "The seed depends on the words, not on how they are spaced", "statement": "Two accepted mnemonics that encode the same entropy under the same word list give the same seed for the same passphrase. (False of the code: every byte of the text enters the seed, while acceptance ignores the white space, so a trailing space gives another wallet without any error.)", "quantifier": "all mnemonics, passphrases, word lists and hash functions", "why_tests_cant": "Test vectors are written with single spaces.", "anchors": ["bip39/bip39.go: NewSeed, NewSeedWithErrorChecking, EntropyFromMnemonic, IsMnemonicValid"]}
{"id": "C76", "title": "Seeds are those of BIP-39, which normalizes both texts", "statement": "NewSeed(m, p) is PBKDF2 over the NFKD forms of the mnemonic and of the passphrase, as BIP-39 defines. (False of the code, which normalizes nothing: it holds exactly when both texts are in NFKD already. The mnemonics NewMnemonic makes from the ten shipped lists are; the first official Japanese vector, with its ideographic spaces and composed passphrase, is not and gets another seed.)", "quantifier": "all texts as sequences of Unicode scalar values, all hash functions, all character databases agreeing with the stated entries", "why_tests_cant": "The test vectors in the repository are ASCII, where normalization does nothing.", "anchors": ["bip39/bip39.go: NewSeed, NewMnemonic", "bip39/wordlists"]}
{"id": "C77", "title": "bip32.NewSeed returns a seed BIP-32 allows, or an error", "statement": "NewSeed returns the next bytes of the random source, used by no other call, in a number BIP-32 allows (128 to 512 bits); when the source fails it returns the error. (The length is false of the code: it is always 2048 bits.) The master key of the seed is BIP-32's, and RootKeyFromSeed on its hex text gives the same.", "quantifier": "all random sources, however they cut their bytes into chunks and wherever they fail, and all hash functions", "why_tests_cant": "Tests run with a working source and cannot see what is used twice or what happens on failure.", "anchors": ["bip32/bip32.go: NewSeed, NewMasterKey", "util/util.go: RootKeyFromSeed"]}
{"id": "C78", "title": "Without randomness there is no entropy", "statement": "NewEntropy and GenerateMnemonic return the next bytes of the random source, used by no other call, and report an error when it fails. (The second half is false of the code, which drops the error: the bytes missing are zero, and when the source fails at once everyone gets the mnemonic 'abandon ... about' with a nil error.)", "quantifier": "all random sources, however they cut their bytes into chunks and wherever they fail, all word lists and hash functions", "why_tests_cant": "Tests run with a working source.", "anchors": ["bip39/bip39.go: NewEntropy", "util/util.go: GenerateMnemonic"]}
{"id": "C79", "title": "The slide between two tabs", "statement": "After a click that selects another tab the example window shows the old picture and the new one side by side, the new one coming from the side where its tab lies. From frame to frame the new one only moves inwards, never past its place; the old one stays the picture of the last frame before the click. The slide is over once the duration (300 ms by default) has passed and not before, up to a stated rounding error; then only the new picture is drawn, at its place. A click that changes no selection starts no slide.", "quantifier": "all window states, clicks, frame times and frame counts, widths up to 2^24, durations, and both ways to compile x*y+z", "why_tests_cant": "Depends on the times of all frames and on rounding in every one of them; tests would sample a few.", "anchors": ["examples/ui/one/slider.go", "examples/ui/one/main.go: loop"]}
{"id": "C80", "title": "Word lists of the caller", "statement": "With a word list the caller has set, whatever it contains, decoding and seed functions never panic. NewMnemonic panics exactly when the entropy has a valid size and its sentence needs a word behind the end of the list. A list of at most 2048 entries loses no entropy exactly when it has 2048 different, non-empty entries without white space. A longer list, of at most 65536 entries, whose first 2048 are such, loses none exactly when none of these comes again. In general, for any list and index in the package variables, none is lost exactly when each of the first 2048 entries is one word, up to white space around it, whose index is the entry's position modulo 65536.", "quantifier": "all word lists (any length, any entries), all entropies, mnemonics and passwords", "why_tests_cant": "Quantifies over all lists; tests use the shipped ones only.", "anchors": ["bip39/bip39.go: SetWordList, NewMnemonic, EntropyFromMnemonic", "util/util.go: DeriveSeedFromMnemonic"]}
{"id": "C81", "title": "A mnemonic and the wrong language", "statement": "A mnemonic of one shipped word list is refused while another shipped list is set, with its first word in the error, except for two pairs of lists. Between the two Chinese lists it is either refused with a word that is not in the other list, or stands for the same entropy. A mnemonic accepted both as English and as French stands for two different entropies; such mnemonics exist.", "quantifier": "all ordered pairs of the ten lists, all mnemonics of any layout, all hash functions", "why_tests_cant": "Ninety ordered pairs of lists times all mnemonics; a test would try a few sentences.", "anchors": ["bip39/bip39.go: SetWordList, EntropyFromMnemonic", "bip39/wordlists"]}
{"id": "C82", "title": "Four letters of each word are enough", "statement": "In each of the ten shipped word lists a word is identified by its first four letters, even without accents and voiced sound marks and with a Korean syllable counted as one letter. Two sentences accepted under the same list whose words agree in their first four letters have the same words and the same entropy; two different entropies give sentences that differ in the first four letters of some word.", "quantifier": "all pairs of words of each list, all accepted sentences of any layout, all entropies, all hash functions", "why_tests_cant": "Two million pairs of words per list and unboundedly many sentences.", "anchors": ["bip39/bip39.go: NewMnemonic, EntropyFromMnemonic", "bip39/wordlists"]}
{"id": "C83", "title": "Concurrent calls of SetWordList", "statement": "When any number of concurrent calls of SetWordList have returned, the list in force is the argument of one of them and every word of it has an index, but the index may be the one from another call's list. For good lists: every entropy survives the way to the mnemonic and back after every interleaving if and only if no word has different positions in two of the lists. For the lists of the package that means: unless English and French are set at the same time.", "quantifier": "all numbers of calls, all lists, all interleavings, all entropies", "why_tests_cant": "Interleavings cannot be enumerated or provoked by tests; the damage is permanent and silent.", "anchors": ["bip39/bip39.go: SetWordList, NewMnemonic, EntropyFromMnemonic"]}
{"id": "C84", "title": "Calls running side by side do not disturb each other", "statement": "Goroutines that call NewMnemonic, EntropyFromMnemonic, MnemonicToByteArray, NewSeedWithErrorChecking, IsMnemonicValid, ValidatePrivateKey, ExpandPublicKey, NewMasterKey, NewChildKey, PublicKeyExtended, PublicKeyHex, GenerateMnemonic, DeriveSeedFromMnemonic, RootKeyFromSeed, DeriveBIP32Result, AddrHex, AddrP2SH and GenerateRange (each on its own range) at the same time, without SetWordList, get from every call what the call returns when it is made alone, and finish after a number of steps that does not depend on the others. No call ever overwrites one of the big integers the packages share (masks, shifts, curve parameters), so there is no data race on them and earlier calls do not influence later ones; the numbers ExpandPublicKey returns belong to the caller, who may overwrite them.", "quantifier": "any number of goroutines, any list of calls with any arguments in each, all interleavings of their accesses to big integers, all word lists, registries and hash functions", "why_tests_cant": "Interleavings are unbounded, and a method that writes to a shared big integer shows only in later or concurrent calls.", "anchors": ["bip39/bip39.go: NewMnemonic, EntropyFromMnemonic, MnemonicToByteArray, addChecksum, package variables", "bip32/utils.go: ExpandPublicKey, addPrivateKeys, addPublicKeys, curveParams", "bip32/bip32.go: NewChildKey, PublicKeyExtended, NewMasterKey", "util/util.go: DeriveBIP32Result", "util/key_path.go: AddrHex, GenerateRange"]}
{"id": "C85", "title": "Mnemonics and addresses leave the caller's memory alone", "statement": "NewMnemonic only reads the entropy it is given. The byte slices returned by EntropyFromMnemonic, MnemonicToByteArray, NewSeed, NewSeedWithErrorChecking and NewEntropy are new memory: nothing that existed is changed by the call, and writing to a result later changes neither arguments nor earlier results. AddrHex and AddrP2SH change no memory although they append to slices. GenerateRange does not change the key of its range, and assigns no list when it fails.", "quantifier": "all memories, slices with any spare capacity, mnemonics, keys, ranges and random sources", "why_tests_cant": "Sharing depends on capacities and on the runtime's allocation; a test sees one layout.", "anchors": ["bip39/bip39.go: NewMnemonic, EntropyFromMnemonic, MnemonicToByteArray, NewSeed, NewEntropy, padByteSlice", "util/key_path.go: AddrHex, AddrP2SH, GenerateRange"]}
{"id": "C86", "title": "From a seed or a root key on the screen to the texts shown", "statement": "In every state the example window can reach, however it got there: if the seed field holds, in hex, 16 or more bytes for which BIP-32 defines a master key, or the root key field holds the text of an extended private key of depth 0 with a scalar in range, then there is one tab for m and one for each component of the path, each shows the path, xprv, xpub, private and public key in hex and address of the node BIP-32 defines for that prefix, and the selected one is shown. If the root key field holds the text of an extended public key or of a private key below depth 0, there is no tab.", "quantifier": "all histories of the window, seeds, nodes, paths with numbers below 2^31, word lists, hash functions and registry load orders", "why_tests_cant": "The statement is about every reachable state of an interactive program, over all keys; tests click through a few.", "anchors": ["examples/ui/one/main.go: loop, onSeedChange, onRootKeyStrChange, onKeyPathChange", "util/util.go: RootKeyFromSeed, DeriveBIP32Result", "bip32/bip32.go: B58Deserialize, NewChildKey, String"]}
{"id": "C87", "title": "Networks a caller registers", "statement": "The registry maps and DefaultMainnetVersion are exported. After a program has entered version bytes of its own the way init does, private keys of the new version derive by BIP-32 keeping that version, neuter to the public version entered with it, and watch-only derivation from the neutered key agrees with private derivation; keys of versions registered before behave as before, whatever is added and however entries clash (the first one counts). For any contents of the maps whatsoever, public derivation from the neutered parent gives the neutered child exactly when the public version has an entry of its own naming that public version. Setting DefaultMainnetVersion changes the version of master keys and the fallback of PublicKeyExtended and nothing else.", "quantifier": "all registries (any contents of the exported maps), all sequences of added entries, keys, indices, index lists, hash functions and default versions", "why_tests_cant": "Over all contents of mutable package variables and all histories of registration; tests run with the shipped table.", "anchors": ["bip32/reg_ver_bytes.go: PvtFlagToHDBytesSlice, PubFlagToHDBytesSlice, init", "bip32/bip32.go: NewChildKey, PublicKeyExtended, NewMasterKey, DefaultMainnetVersion"]}
{"id": "C88", "title": "Paths mean the same on every platform", "statement": "Go's int, which strconv.Atoi answers, has 32 bits on some platforms and 64 on others. A path accepted on one is accepted on the other with the same child numbers and the same derived keys; the purpose and coin of a version's path do not depend on the platform either.", "quantifier": "all byte strings as paths, both widths of int, all root keys, registries and hash functions", "why_tests_cant": "Over all texts and a parameter of the platform; tests run on the one platform of the developer.", "anchors": ["bip32/path.go: ValuesAtDepth, IsValid", "util/util.go: DeriveBIP32Result", "bip32/reg_ver_bytes.go: PurposeVal, CoinVal"]}
{"id": "C89", "title": "No two keys are confused", "statement": "The text of a derived key tells its index, its depth and the fingerprint of its parent, so two different indices of one key never give the same text. Two sound private keys have the same public key exactly when they are the same private key. Two children of one key hold the same private or public key exactly when the left halves of their HMAC values agree modulo the group order. Two different paths of at most 255 steps below one root give the same text only if, at one of their steps, HMAC-SHA512 has two different inputs with the same right half of the output.", "quantifier": "all keys, indices, index lists, hash functions and registry load orders", "why_tests_cant": "Injectivity over all keys and paths, with the exact hash coincidence named where there is one; tests compare a few keys.", "anchors": ["bip32/bip32.go: NewChildKey, String, PublicKeyHex, PrivateKeyHex", "bip32/utils.go: compressPublicKey, addPrivateKeys, addPublicKeys"]}
{"id": "C90", "title": "Malformed extended keys", "statement": "Deserialize (and B58Deserialize) accepts exactly the valid extended keys of BIP-32 with their checksum, and so refuses each of the malformed keys that Test Vector 5 lists: version bytes that do not go with the kind of key, a wrong key prefix, a fingerprint or child number at depth 0, unknown version bytes, a secret that is 0 or not below the group order, and a public key that is not on the curve. (False of the code: every valid key is accepted, but so are 78 arbitrary bytes with their checksum. The checks a caller has to add are given exactly; of the nine defects NewChildKey finds only the four that concern kind and version, and derives children of keys with the other five without an error.)", "quantifier": "all byte strings, hash functions, keys, indices and registry load orders", "why_tests_cant": "Both directions range over all byte strings; a test of the listed keys would not show that the list of defects is complete.", "anchors": ["bip32/bip32.go: Deserialize, B58Deserialize, NewChildKey, IsPrivate", "bip32/utils.go: validatePrivateKey, validateChildPublicKey, expandPublicKey"]}
{"id": "C91", "title": "Which mnemonics share their seeds", "statement": "With the HMAC-SHA512 of the program, NewSeed gives the same seeds, for every passphrase, for texts with the same HMAC key block: zero bytes at the end of a text of at most 128 bytes are not seen, and a text of more than 128 bytes has the seeds of its SHA-512 digest. Texts accepted as mnemonics of shipped word lists contain no zero byte (with a zero byte NewSeedWithErrorChecking gives no seed), and two of them, of the same or of different languages, have the same key block only if they are the same text, or if both are longer than 128 bytes and have the same digest, or if the digest of one is the other one filled up with zeros.", "quantifier": "all texts, passphrases, shipped word lists, and hash functions inside HMAC with 64-byte digests", "why_tests_cant": "Quantifies over all pairs of texts; the coincidences of the hash function cannot be exhibited by a test, and texts with zero bytes are not tested.", "anchors": ["bip39/bip39.go: NewSeed, NewSeedWithErrorChecking, EntropyFromMnemonic"]}
{"id": "C92", "title": "Owner and watcher skip the same indices", "statement": "BIP-32 and the README tell programs to try the next index when NewChildKey reports that an index gives no key. For a valid private key and a non-hardened index, NewChildKey of the key and NewChildKey of its PublicKeyExtended both succeed or both fail, so that a wallet with the private key and a watch-only wallet skip the same indices, as BIP-32 has it. (False of the code: the private side fails when IL is minus the secret modulo the group order, the public side when IL is 0; wherever one of them skips an index, the other does not, and their loops stop at the same index exactly if both succeed at once.)", "quantifier": "all valid private keys, non-hardened indices, lengths of the loop, hash functions and registry load orders", "why_tests_cant": "The cases in question have probability 2^-256 per index; no test reaches them.", "anchors": ["bip32/bip32.go: NewChildKey, PublicKeyExtended", "bip32/utils.go: validatePrivateKey, validateChildPublicKey", "bip32/README.md"]}
{"id": "C93", "title": "Lists of derived keys stay as they were returned", "statement": "A list that DeriveBIP32Result returned, or that GenerateRange stored in KeyPaths, keeps showing the same keys and paths whatever is derived later, also by the same KeyPathRange and when the range was copied before: each call builds its list in new memory. A failed GenerateRange leaves its receiver as it was; a successful one sets KeyPaths and nothing else. RootKeyFromSeed changes no memory of the caller, and the key it points to is new, also beside an error. All results are those of the value-level model.", "quantifier": "all memories, keys, paths, ranges, slices kept by the caller and growth policies of append", "why_tests_cant": "Whether a later call overwrites an earlier result depends on capacities the runtime chooses and on all slices and copies a program keeps; tests look at one call.", "anchors": ["util/key_path.go: GenerateRange", "util/util.go: RootKeyFromSeed, DeriveBIP32Result"]}
{"id": "C94", "title": "Which calls crash", "statement": "No call of the exported functions of bip32, bip39 and util ends in a run-time panic, with three exceptions: ExpandPublicKey crashes on an empty slice, RootKeyFromSeed on a seed of 16 bytes or more whose HMAC starts with an invalid private key, and NewMnemonic (and with it GenerateMnemonic) when the word list set by the caller lacks a word of the sentence. This holds for malformed keys and unregistered versions as well; methods are called on a pointer that is not nil.", "quantifier": "all keys, indices, seeds, byte strings, paths, depths, mnemonics, word lists, ranges, hash functions and registries", "why_tests_cant": "The code slices, indexes and converts to arrays at more than a hundred places whose safety depends on lengths of other values (such as the bytes of a sum with leading zeros); tests reach few of the lengths.", "anchors": ["bip32/bip32.go: NewMasterKey, NewChildKey, PublicKeyExtended, Serialize, Deserialize", "bip32/utils.go: ExpandPublicKey, addPrivateKeys, compressPublicKey", "bip32/path.go: ValueAtDepth, ReplaceValueAtDepth", "bip39/bip39.go: NewMnemonic, EntropyFromMnemonic", "util/util.go: RootKeyFromSeed, DeriveBIP32Result", "util/key_path.go: AddrHex, AddrP2SH, GenerateRange"]}
{"id": "C95", "title": "A damaged word list stops the program", "statement": "The init functions of bip39/wordlists compare the CRC-32 of each list with a constant. If the text of a list is changed within four neighbouring bytes in any way (a mistyped letter, letters exchanged, a wrong accent), or if one or two bits anywhere in it are inverted, the program panics when it is loaded instead of making mnemonics of other words. The check does no more than that: whatever stands before and after them, exactly one choice of four neighbouring bytes makes a text pass.", "quantifier": "all ten lists, all places in the text, all replacements of the same length up to four bytes, all pairs of bits, all texts before and after the four bytes", "why_tests_cant": "A test sees the shipped text only; damaged texts cannot be enumerated.", "anchors": ["bip39/wordlists/*.go: init"]}
{"id": "C96", "title": "Changing the version bytes of a key", "statement": "SetVersion makes a yprv or zprv of an xprv, a ypub or zpub of an xpub. It does not matter when this is done: a key converted and then derived from, by any indices, gives the key derived first and converted afterwards, and fails in the same cases; DeriveBIP32Result with the converted root gives the same list with the same labels and every key converted; neutering a key converted to the private version of a registered pair gives the neutered key converted to the public version of the pair. So a watch-only wallet given an account key as zpub sees the public halves of what the owner derives, whatever versions the owner works with. The conversion leaves IsPrivate, the hex texts and the addresses as they are, can be undone, and the converted key can be read back from its text.", "quantifier": "all hash functions, all registry orders, all keys whose version fits their kind, all registered versions, all index lists, all paths; C96_views: all keys and all versions", "why_tests_cant": "Tests compare a few keys of one version; that conversion commutes with derivation for all keys, versions and paths cannot be enumerated.", "anchors": ["bip32/bip32.go: SetVersion, SetVersionUint32, NewChildKey, PublicKeyExtended, PrivateKeyHex, PublicKeyHex, String", "util/key_path.go: AddrHex, AddrP2SH", "util/util.go: DeriveBIP32Result"]}
{"id": "C97", "title": "What is derived from malformed keys", "statement": "NewChildKey accepts keys whose secret is 0 or not below the group order and whose public key is not a point (C90); this says what it returns for them. A private child holds IL plus the parent's number modulo the group order, so every key derived from a malformed private key without an error is a valid private key. Secrets that agree modulo the group order have the same public key and the same non-hardened children, so two different accepted keys stand for one wallet, but not the same hardened children, unless HMAC-SHA512 collides in its right half; owner and watcher agree on the non-hardened children also for malformed secrets. For a public key whose x, read modulo the field prime, is on the curve, a first byte 2 or 3 selects the even or odd y and any other byte but 0 selects the y that is not a square. If this x is not reduced and the point is IL times the generator, it is not doubled: the child is 02 followed by zeros. The public key 02 followed by zeros counts as the neutral element: all its children are IL times the generator, and everyone who knows the key knows their secrets. Any other key whose x is not on the curve is added as the point (x, 0), without an error, and the sum is not on the curve unless its x is that of IL times the generator.", "quantifier": "all hash functions, all registry orders, all private keys and public keys of registered versions with any 32 bytes of secret or x, all indices, all paths", "why_tests_cant": "Malformed keys are not in the tests, and what a computation does with one of them says nothing about the others.", "anchors": ["bip32/bip32.go: NewChildKey, PublicKeyExtended, getIntermediary", "bip32/utils.go: addPrivateKeys, addPublicKeys, ExpandPublicKey, validatePrivateKey, validateChildPublicKey"]}
{"id": "C98", "title": "Every mnemonic is equally likely", "statement": "With each of the ten word lists, every valid sentence of 12, 15, 18, 21 or 24 words comes out of GenerateMnemonic for exactly one value of the random bytes, so with uniform bytes all valid sentences of a length are equally likely, none is impossible and none is preferred; there are exactly 2^(32w/3) of them for w words. Every choice of the first words is equally likely too, as long as they hold only entropy (the first 11 of 12 words, the first 23 of 24): j given words start the sentences of exactly 2^(8n-11j) of the 2^(8n) entropies of n bytes.", "quantifier": "all word lists of 2048 different words, all hash functions, all sentence lengths, all sentences, all choices of first words, all sources of random bytes", "why_tests_cant": "A bias shows only in the number of preimages of each of the 2^128 sentences or more; a test draws a few.", "anchors": ["util/util.go: GenerateMnemonic", "bip39/bip39.go: NewEntropy, NewMnemonic"]}
{"id": "C99", "title": "Coins written as JSON", "statement": "json.Marshal of a Coin followed by json.Unmarshal into a new variable gives the same coin, without an error, exactly if symbol and name are valid UTF-8; this is so for every registered coin, and different such coins have different texts. Other bytes come back as U+FFFD. The text lists the members type, pathComponent, symbol and name in this order, leaving out those that are 0 or empty; it is always valid UTF-8, without control characters and without <, > or &, and for registered coins it has no escapes. Decoding into a variable that already holds a coin is different, as 0 and empty fields are not written (omitempty): it gives the encoded coin exactly if every field that is 0 or empty in it is so in the variable too. Bitcoin, which is coin type 0, takes on the type of the coin read before it, silently, and is no longer valid.", "quantifier": "all coins, all symbols and names as bytes, all previous contents of the variable, all orders of the registry", "why_tests_cant": "Round-trip tests use a few names and a new variable for each case; that a field keeps its old value depends on the pair of coins.", "anchors": ["bip44/coin.go: Coin", "bip44/coins.go: RegCoins"]}
{"id": "C100", "title": "The exported account key", "statement": "DeriveBIP32Result of a private root with a registered version: take two entries j <= k of the result with no hardened step between them, such that ValidatePrivateKey accepts the secrets of the entries from j to k. The text of PublicKeyExtended of entry j is read by B58Deserialize without an error, and deriving the remaining path numbers from it with NewChildKey, as long as no call reports an error, ends with a key that has the text of the neutered entry k, its public key in hex and both its addresses, and no private key. An error occurs exactly where the left half of the HMAC of a step is 0 modulo the group order. If a remaining number is hardened there is an error always.", "quantifier": "all hash functions, all roots, all paths and all pairs of entries, all orders of the registry, all address prefixes", "why_tests_cant": "The owner's and the watcher's code go different ways (scalars and points) and meet only in the texts; a test compares a few paths of one wallet.", "anchors": ["util/util.go: DeriveBIP32Result", "bip32/bip32.go: NewChildKey, PublicKeyExtended, String, B58Deserialize", "util/key_path.go: AddrHex, AddrP2SH"]}
{"id": "C101", "title": "Calls during SetWordList can end the program or read index 0", "statement": "Calls of SetWordList and lookups in the word index (GetWordIndex, EntropyFromMnemonic and what is built on it) running at the same time, with the runtime's check for concurrent use of a map: some interleaving ends the program with a fatal error, which cannot be recovered from, if and only if some call of SetWordList has a list that is not empty and there is another call of SetWordList, or a lookup. For a sentence: if and only if it has a permitted number of words. Calls made one after the other, in any order, never end it. If the program does not end, what concurrent calls of SetWordList leave behind is exactly what C83 describes. GetWordIndex during SetWordList(l) gives the old index, not found, the index in l, or 0 for any word of l, and each of these can occur; so even if the list is the one in force, EntropyFromMnemonic can return the result for the sentence with any one of its words replaced by the first of the list. A valid English sentence that then gives another entropy and no error is exhibited.", "quantifier": "all lists, sentences and words, any number of calls, all interleavings of the steps of map accesses, all hash functions", "why_tests_cant": "A fatal error or a wrong index needs an interleaving within a single map write; tests without the race detector practically never meet it.", "anchors": ["bip39/bip39.go: SetWordList, GetWordIndex, EntropyFromMnemonic"]}
{"id": "C102", "title": "A range continues the derivation its base came from", "statement": "Let the base of a KeyPathRange be an entry of DeriveBIP32Result(root, p) whose key is not zero and whose label is valid. For every entry of GenerateRange: deriving from the root along the entry's label gives the entries of the first derivation up to the base followed by the entries of the range up to that one, with no error, if the hardened components come first in the label; otherwise it is rejected as an invalid path. For ranges ending at 2^31 or below every label is accepted, so every label names the key beside it. A range that crosses 2^31 gives, for every root, an entry with a label the package rejects.", "quantifier": "all roots, paths, entries, ranges and indices, all hash functions and registries", "why_tests_cant": "The two loops are separate code that must agree at every index and depth; tests look at a few entries of one tree.", "anchors": ["util/key_path.go: GenerateRange", "util/util.go: DeriveBIP32Result"]}
{"id": "C103", "title": "Edits of a path compose", "statement": "Repeated calls of ReplaceValueAtDepth behave like edits of one list of values, as long as each result is a valid path: a second write at a depth gives the very text it gives on the original path (the last write wins), writes at two different depths can be made in either order with the same text, the value written is what ValueAtDepth reads and what ValueAtDepth reads (or the error it reports) at each of the other 255 depths is unchanged. On a canonical text the result is the canonical text of the changed list. Writing back the value read keeps all values, except for a plain number of 2^31 or more behind a plain one, where the result is not a valid path although no error is reported.", "quantifier": "every path, every pair of depths and values; every canonical list with fewer than 255 values", "why_tests_cant": "Laws about sequences of edits over all paths, depths and values; a test edits a few paths.", "anchors": ["bip32/path.go: ReplaceValueAtDepth", "bip32/path.go: ValueAtDepth"]}
{"id": "C104", "title": "Long ranges", "statement": "In a GenerateRange result the labels nest, so a range of n indices over a base label of b bytes (white space aside) takes at least n*b + n*(n+1) and at most n*b + 6*n*(n+1) bytes of label text: the size grows with the square of the number of indices. Entry q (from 0), where its steps succeed, carries the depth byte d + q + 1 modulo 256 for a base at depth d, and DeriveBIP32Result accepts it as a root key exactly when that is 0; likewise entry j of a DeriveBIP32Result is accepted as a root key exactly when j is a multiple of 256. So the guard that only roots are derived from is passed by a key 256 levels down.", "quantifier": "all ranges, base labels, registered private base keys and depths, all hash functions, all entries whose steps succeed", "why_tests_cant": "Ranges and paths of unbounded length; the 256-step wrap needs a long chain of successful derivations", "anchors": ["util/key_path.go: GenerateRange", "util/util.go: DeriveBIP32Result", "bip32/bip32.go: NewChildKey"]}
{"id": "C105", "title": "One private key below an exported account key gives the account away", "statement": "Whoever has the text of an extended public key, the PrivateKeyHex of any key reached from its private half by non-hardened numbers, over any number of steps, and these numbers, can write down the text of the extended private key: the public keys on the way come from NewChildKey, every step is undone by one HMAC and one subtraction. The result is String() of the private key with the version bytes of one's choice. In particular the xpub of entry j of DeriveBIP32Result and the private key of entry k give the xprv of entry j when no hardened number lies between them. (C28 is the single step and the secret alone. The exception is a step whose HMAC has a left half of 0 modulo the group order, where NewChildKey of the public key fails.)", "quantifier": "all hash functions, private keys with a registered version, lists of non-hardened numbers of any length whose steps succeed", "why_tests_cant": "Needs the algebra of all steps for every key and every hash function", "anchors": ["bip32/bip32.go: NewChildKey", "bip32/bip32.go: PublicKeyExtended", "util/util.go: DeriveBIP32Result"]}
{"id": "C106", "title": "How addresses look", "statement": "For every key whatsoever, every hash function and every path label, AddrP2SH(v) starts with 1 exactly when v is 0, and then has 25 to 34 characters. For v = 1 it has 33 characters, for v = 2 33 or 34, for 3 to 143 it has 34, for 144 34 or 35, and from 145 on 35. The first letter is fixed by the version byte up to the neighbours: 5 gives 3, 30 D, 48 L, 50 M, 60 R, 76 X, 111 m or n, 196 2. AddrHex always has 40 characters among 0-9 and a-f: no 0x and no EIP-55 capitals.", "quantifier": "all keys (well formed or not), all hash functions, all version bytes", "why_tests_cant": "The first letter of an address is a bound on 2^192 numbers for each version byte.", "anchors": ["util/key_path.go: AddrP2SH", "util/key_path.go: AddrHex"]}
{"id": "C107", "title": "Ranges of the owner and of the watcher", "statement": "GenerateRange from a private key and from its neutered form, with the same indices, gives as many entries with the same labels behind the two paths and no error. Entry by entry below index 2^31 the watcher has the neutered key of the owner, with the same addresses, exactly if no step has an HMAC whose left half is 0 modulo the group order. From index 2^31 on every entry of a public key, well formed or not, is the all-zero key, with a label and without an error.", "quantifier": "all private keys with registered versions, all public keys whatsoever, all paths and ranges, all hash functions", "why_tests_cant": "The two calls run different code; the entries build on each other, so all lengths and starts matter.", "anchors": ["util/key_path.go: GenerateRange", "bip32/bip32.go: PublicKeyExtended"]}
{"id": "C108", "title": "What the first four characters of an extended key tell", "statement": "For keys with registered versions the first four characters of the text tell whether the version is one of private or of public keys, and two texts begin alike exactly if the versions are the same. The text of PublicKeyExtended of any key whatsoever begins with the letters of a public key, is read back without an error, and has no private key in it. What is derived from a key whose version goes with its kind begins with the same letters. The letters do not prove anything of a text from elsewhere: every private key has a text that begins with xpub, is accepted, and still holds the private key.", "quantifier": "all keys with registered versions, all keys whatsoever for PublicKeyExtended, all paths, all hash functions", "why_tests_cant": "The letters come out of a conversion of 82 bytes to base 58; each version stands for 2^624 numbers.", "anchors": ["bip32/bip32.go: String", "bip32/bip32.go: PublicKeyExtended", "bip32/bip32.go: NewChildKey", "bip32/bip32.go: B58Deserialize"]}
{"id": "C109", "title": "Going through the tabs", "statement": "After any history of the window whose last frame brought no edit, and with tabs on display, any sequence of clicks on the two arrows and on the tabs leads where a row of tabs says, changes nothing but the selection, and shows the key of the tab it leads to. With tab s of n selected, m clicks on the right arrow show tab min(s+m, n-1) and m clicks on the left arrow tab s-m, or the first one. With no tab selected the right arrow begins with the first tab and the left arrow does nothing.", "quantifier": "all histories, all sequences of clicks of any length, all hash functions, word lists and registries", "why_tests_cant": "Every history and every sequence of clicks; the window must not derive again or change a text on the way.", "anchors": ["examples/ui/one/main.go: loop"]}
{"id": "C110", "title": "What is on the screen is enough to get it back", "statement": "The keys shown by the window depend on the texts in its fields only, not on how they got there: two windows with any histories whose paths agree but for white space have the same seed, root key and keys if they have the same mnemonic (not empty) and passphrase, the same root key and keys if they have the same seed (not empty), and the same keys if they have the same root key text and it is one that is accepted. And the texts can be carried over: in any other window at rest, whatever was done in it before, clearing the mnemonic and then typing passphrase, mnemonic and path, or typing the seed and the path, or the root key text and the path, does not crash and leads to the same seed (in the first two cases), root key text and keys.", "quantifier": "all pairs of histories, all texts, hash functions, word lists and registries", "why_tests_cant": "A statement about all pairs of histories; a test compares two.", "anchors": ["examples/ui/one/main.go: loop, handlers"]}
{"id": "C111", "title": "Every edit and every click takes effect", "statement": "In any window at rest, whatever was done in it before, each edit of one field has exactly one effect. A mnemonic or passphrase typed stays as typed, and seed, root key, its text and the keys become those DeriveSeedFromMnemonic, RootKeyFromSeed and DeriveBIP32Result give. A seed typed stays, the mnemonic is cleared, root key and keys follow. A root key text that is accepted stays, mnemonic and seed are cleared, the keys follow; one that is refused stays, and the root key is the zero key. A path typed stays and gives the keys of the same root key; one that differs only in white space changes nothing. The selected tab stays, or becomes the last if there are fewer now. All other fields keep their texts. A click on the button with 12, 15, 18, 21 or 24 words chosen gives a valid mnemonic with that many words whose entropy is what the random source gave, and seed, root key and keys as if it had been typed. The window crashes only where RootKeyFromSeed does.", "quantifier": "all histories of the window, all texts, random sources, hash functions and registries; for the last claim all word lists of 2048 distinct words", "why_tests_cant": "All histories and all texts; five checks run one after the other in every frame, and each may undo what the one before did.", "anchors": ["examples/ui/one/main.go: loop, handlers"]}
{"id": "C112", "title": "What IsRegistered looks at, and the two default versions", "statement": "IsRegistered holds of a VersionBytes value exactly if its path, white space aside, is the path of a registered entry. It does not look at the flags: with every pair of flags whatsoever the answer is the same, also for flags in no entry, which no lookup finds. DefaultMainnetVersion and DefaultTestnetVersion are registered, with the paths m/44'/0' and m/44'/1', and among the keys with registered versions those with their flags are exactly the ones whose texts begin with xprv, xpub, tprv and tpub.", "quantifier": "all VersionBytes values, all pairs of flags, all map orders, all keys, all hash functions", "why_tests_cant": "The test of the repo calls IsRegistered on registered entries only; no test uses DefaultTestnetVersion.", "anchors": ["bip32/reg_ver_bytes.go: IsRegistered", "bip32/reg_ver_bytes.go: IsValid", "bip32/bip32.go: DefaultMainnetVersion", "bip32/bip32.go: DefaultTestnetVersion"]}
{"id": "C113", "title": "What the text of the functions does", "statement": "The text of each of the 82 functions of packages bip32, bip39 and util and of bip44/coin.go (all but the init functions, SetWordList and bip32.NewSeed, for which see C116), translated mechanically and executed statement by statement with Go's integer types and run-time checks, ends for all arguments and in every state of the registry and the word tables, every loop included, with the results the model states for it, a panic where the model has one and nowhere else. Limits: entropies and mnemonics shorter than 2^59 bytes where their bits are counted in an int; for GenerateMnemonic a random source that fills the buffer it is given; for three unexported functions arguments of the sizes their callers use.", "quantifier": "all 82 functions, all arguments within the limits, all registries, word tables, hash functions and random sources", "why_tests_cant": "That two texts agree for all arguments is not settled by running them on some.", "anchors": ["bip32/bip32.go: all functions", "bip32/utils.go: all functions", "bip32/path.go: all functions", "bip32/reg_ver_bytes.go: all functions", "bip39/bip39.go: all functions", "util/util.go: all functions", "util/key_path.go: all functions", "bip44/coin.go: all functions"]}
{"id": "C114", "title": "The main promises, of the text itself", "statement": "Said of the text of the functions as C113 runs it, with the results described by the standards alone. On a word list of 2048 distinct words: NewMnemonic of 16, 20, 24, 28 or 32 bytes gives the BIP-39 sentence and refuses other sizes; EntropyFromMnemonic and IsMnemonicValid accept exactly the BIP-39 sentences, whatever white space separates the words, with their entropy; DeriveSeedFromMnemonic gives the hex text of the BIP-39 seed exactly then. RootKeyFromSeed of a hex text gives the BIP-32 master key, or panics where BIP-32 says there is none. NewChildKey of an extended private key gives that of the BIP-32 child; PublicKeyExtended gives the extended public key, and NewChildKey of that gives the public key of the same child, unless the left half of the HMAC is zero. String gives the one Base58Check text and B58Deserialize reads it back. From a sentence, a passphrase and a path, the functions of util called one after the other give one entry per prefix of the path, with the key of its node, and the methods behind the six labels give the texts a wallet shows for it. In every state of the tables, the listed calls return whatever they are given; NewMnemonic, GenerateMnemonic and RootKeyFromSeed panic exactly where there is no sentence, or no master key.", "quantifier": "all entropies, texts, passphrases, paths, keys and seeds, all hash functions, all word lists and map orders", "why_tests_cant": "All inputs, and the text rather than a reading of it.", "anchors": ["bip39/bip39.go: NewMnemonic, EntropyFromMnemonic, IsMnemonicValid", "util/util.go: DeriveSeedFromMnemonic, RootKeyFromSeed, DeriveBIP32Result", "bip32/bip32.go: NewChildKey, PublicKeyExtended, String, B58Deserialize", "util/key_path.go: AddrHex"]}
{"id": "C115", "title": "What the text of the window does", "statement": "The text of the seven handlers of examples/ui/one and of the pieces of its loop (the assignment before it, the checks of a frame, the arrows, a tab, the text of a tab, the labels, the radio buttons, the slider's PushLeft and PushRight), translated mechanically and executed, ends for all contents of the variables with the contents the model states, and with a panic where the model has one and nowhere else. So does a whole frame, with the edits and clicks the user makes in it, and the texts of the six labels are those the model shows; and so does the window from its start, whatever series of frames follows. Limits: a path typed is shorter than 2^61 bytes; the random source fills the buffer it is given.", "quantifier": "all contents of the variables, all series of frames, all texts and clicks, all registries, word tables, hash functions and random sources", "why_tests_cant": "All histories of a window; there are no tests of the window at all.", "anchors": ["examples/ui/one/main.go: onKeyPathChange, onAutoCreateMnemonicClicked, onMnemonicChange, onMnemonicPassphraseChange, onSeedChange, onRootKeyStrChange, OnDerivationPathChange, loop", "examples/ui/one/slider.go: PushLeft, PushRight"]}
{"id": "C116", "title": "What the text that fills the tables does", "statement": "The text of SetWordList, of the init functions of packages bip39, bip32 and bip44 and of bip32.NewSeed, translated mechanically and executed, always ends without a panic. After SetWordList the list is the one given, and a word is found in the map at the index of its last occurrence and nowhere else; init of bip39 leaves the English list and its map. init of bip32, run over the rows in any order the map gives, leaves the slice of all versions and the five maps the model has; a flag is found with exactly the versions that have it, in the order of the rows. The comparison the sort of coins is given is the order of the names; init of bip44, run on any outcome of that sort, leaves the coins and maps of the model, and every coin is found by its type and by its path component. NewSeed gives 256 bytes of the random source.", "quantifier": "all lists of words, all orders of the map, all outcomes of the sort, all random sources", "why_tests_cant": "All orders and all lists; tests see one order per run.", "anchors": ["bip39/bip39.go: SetWordList, init", "bip32/reg_ver_bytes.go: init", "bip44/coins.go: init", "bip32/bip32.go: NewSeed"]}
{"id": "C117", "title": "What the text of the word lists and of the generator script does", "statement": "The text of the ten files of bip39/wordlists, translated mechanically and executed on any text for the list: init returns if the CRC-32 of the text, in hexadecimal, is the constant of the file, and panics otherwise; the exported variable is the list of the lines of the trimmed text. On the shipped texts all ten init functions return and all ten lists are 2048 distinct words without white space; with any one bit inverted, init panics. The text of generateFileFromSlip44MD, run on any document shorter than 2^62 bytes and any earlier testing.go, always ends without a panic and leaves in testing.go the lines the model states: nothing for the shipped document, every coin in order for a table with decimal path components.", "quantifier": "all texts, all documents, all inverted bits", "why_tests_cant": "All texts: that no text makes the script fail or hang is not shown by one run; the script has no tests.", "anchors": ["bip39/wordlists/*.go: init and the list variables", "bip44/script.go: generateFileFromSlip44MD"]}
{"id": "C118", "title": "What the text of the slider does", "statement": "The text of PushLeft, PushRight, Layout, smooth and easeInOutCubic of examples/ui/one/slider.go, translated mechanically and executed with the rounding of float32 and float64, ends without a panic and without a number out of range, and gives what the model of C79 gives: smooth for every offset from -1 to 1, and Layout in every state a slider comes to by pushes and frames, at every time not before the last frame, for every content up to 2^60 pixels wide. What it draws is the content alone at its place once the slide is over; until then it asks for another frame and draws the content on its way in from the side it comes from, with the recording of what was there before beside it, exactly one width away. With Layout put into the frames of the window of C115, the whole window, whatever is done to it and whenever its frames come, leaves the variables the model leaves and panics only where the model does, between two calls of Layout the slider changes by nothing but a push, and the last thing drawn is the labels of the selected tab. Products and sums are rounded one by one (no fused multiply-add).", "quantifier": "all states reachable by pushes and frames, all times, durations, contents and widths, all series of frames of the window", "why_tests_cant": "All times and states, with the rounding of the machine; there are no tests of the window at all.", "anchors": ["examples/ui/one/slider.go: PushLeft, PushRight, Layout, smooth, easeInOutCubic", "examples/ui/one/main.go: loop"]}
{"id": "C119", "title": "What the text of the tables says", "statement": "The tables the lookups are filled from are exactly those written in the source. The lines of RegCoins in bip44/coins.go, byte for byte, are what StringForMD (its text, executed) prints for the coins of the table one after the other, with a tab in front and a comma behind; the lines declaring the VersionBytes variables in bip32/reg_ver_bytes.go are the declarations of the values of the table, in order; the literal of PathToHDBytesSlice, but for white space, names for each path the variables whose values the table has there. No other table of coins and no other list of declarations, without quotation marks, backslashes and line breaks in the texts, has this text; so whatever table is read from the text, init fills the maps with it and finds every coin it keeps by type and by path component.", "quantifier": "all tables (of any length) that might have the text; all orders the sort may leave", "why_tests_cant": "A test compares single rows; that no row is missing, doubled or changed is a statement about the whole text.", "anchors": ["bip44/coins.go: RegCoins, init", "bip44/coin.go: StringForMD", "bip32/reg_ver_bytes.go: VersionBytes variables, PathToHDBytesSlice"]}
{"id": "C120", "title": "What the text of package bip39 does when it runs concurrently", "statement": "The text of SetWordList, GetWordList, GetWordIndex, EntropyFromMnemonic, IsMnemonicValid and NewMnemonic, translated and executed access by access to wordList and wordMap, next to other calls making their accesses in between: any number of SetWordList calls pass through the states of the model of concurrent setters, schedule by schedule; beside one SetWordList call, GetWordList, GetWordIndex, EntropyFromMnemonic and NewMnemonic give exactly the results the model gives under its schedules, no others and all of them; at the level of the runtime's map accesses the text reaches the runtime's fatal error exactly if some SetWordList call has words to insert and another SetWordList call, or a reader that looks a word up, runs at the same time; a call made alone gives what the text gives in one piece; and while the list in force is set once more, EntropyFromMnemonic can reject, as unknown, a word of that list in any sentence it accepts before and after.", "quantifier": "all word lists, sentences, entropies, states of the package variables, numbers of concurrent calls and schedules", "why_tests_cant": "Schedules cannot be chosen in a test, and the race detector reports an access pair only if it happens to occur.", "anchors": ["bip39/bip39.go: SetWordList, GetWordList, GetWordIndex, EntropyFromMnemonic, IsMnemonicValid, NewMnemonic"]}
{"id": "C121", "title": "Replacing the word list is safe for memory exactly if the lists are equally long", "statement": "wordList is an address and a length, stored and loaded one after the other in an order the compiler chooses, without a lock. Beside SetWordList(l') while l is in force, one use of wordList (GetWordList, an index expression) gets l, l', or the address of one with the length of the other, exactly as the orders of stores and loads allow; an index expression can read memory beyond a list exactly if its index lies between the two lengths and the orders do not exclude it, and for every order there are lists for which it does (NewMnemonic included). Two SetWordList calls can leave the address of one list with the length of the other for good. With any number of calls, address and length each come from a list that was passed; so if all lists have the same length, as the shipped ones have, the package behaves exactly as if each assignment and each use were one step, which is what C13 and C120 take for granted.", "quantifier": "all word lists, orders of stores and loads, numbers of concurrent calls, schedules and entropies", "why_tests_cant": "A test sees the order of stores of one compiler and a few schedules; a torn read needs a switch between two machine instructions.", "anchors": ["bip39/bip39.go: SetWordList, GetWordList, NewMnemonic"]}
{"id": "C122", "title": "A seed is the right one or none, while the word list is being set", "statement": "While SetWordList runs beside it, and any number of calls of functions that do not write (all but SetWordList and init of package bip39), NewSeedWithErrorChecking(m, p) returns either the seed NewSeed(m, p) and no error, or no seed and the error that EntropyFromMnemonic gives for that interleaving; the interleaving decides which of the two, never the bytes. Setting the list in force once more can make it refuse every sentence that is valid before and after. MnemonicToByteArray gives exactly what it makes of the results EntropyFromMnemonic can have. Calls that only read do not change what each other can return. With Go's own map, the program can end with a fatal error exactly if a SetWordList call has words to insert and another one, or a call of GetWordIndex, EntropyFromMnemonic, IsMnemonicValid, MnemonicToByteArray or NewSeedWithErrorChecking that looks up a word, runs at the same time.", "quantifier": "all word lists, sentences, passwords, numbers of concurrent calls and schedules; the translated text of the functions", "why_tests_cant": "A race shows under few schedules; no set of runs shows that a wrong seed cannot come out.", "anchors": ["bip39/bip39.go: NewSeedWithErrorChecking, MnemonicToByteArray, NewSeed, SetWordList, EntropyFromMnemonic"]}
{"id": "C123", "title": "What each function depends on, besides its arguments", "statement": "The result of a call depends on its arguments and, of the state around it, on these parts only. On the words of the list in force: GetWordList, NewMnemonic, GenerateMnemonic. On the index of words: GetWordIndex, EntropyFromMnemonic, IsMnemonicValid, MnemonicToByteArray, NewSeedWithErrorChecking, DeriveSeedFromMnemonic. On the random source: NewEntropy, GenerateMnemonic and bip32.NewSeed. On the registry of versions: NewChildKey, PublicKeyExtended, DeriveBIP32Result, GenerateRange. (And handlers of the window that call them.) Each of these does depend on the part named; PublicKeyHex, AddrHex and AddrP2SH look at the registry and do not depend on it. All other functions, among them NewSeed, NewMasterKey, serialization and all of bip44, give the same result whatever word list is set and whatever the random source yields, and functions that use neither words nor index give it beside any concurrent calls, SetWordList included.", "quantifier": "every translated function (C113 to C119), all arguments, all states of the packages, all schedules of concurrent calls; the translated text of the functions", "why_tests_cant": "Independence of hidden state is a statement about pairs of runs, for all states; tests compare a few runs in one state.", "anchors": ["bip32/bip32.go, bip32/path.go, bip39/bip39.go, bip44/coin.go, util/util.go, util/key_path.go"]}
{"id": "C124", "title": "Generating mnemonics and seeds while the word list is being set", "statement": "While SetWordList runs beside it, and any number of calls of functions that do not write: util.DeriveSeedFromMnemonic returns the hexadecimal text of NewSeed(m, p) and no error, or no text and the error of EntropyFromMnemonic for that interleaving, and can refuse every valid sentence while the list in force is set once more. util.GenerateMnemonic(c) for 12, 15, 18, 21 or 24 words gives exactly what NewMnemonic gives for the random bytes under the interleavings; when the list in force is set once more the sentence is always the right one; when another list is set it can return, without an error, a sentence of words of both lists, split at any place, which is valid in neither if the lists are disjoint. Other numbers of words give an error whatever runs beside it. Every translated function is one of those of C120, C122 and C124, or touches the variables not at all (C123), or is a handler of the window.", "quantifier": "all word lists, sentences, passphrases, random bytes, numbers of concurrent calls and schedules; the translated text of the functions", "why_tests_cant": "A sentence mixed of two lists comes out under few schedules, and no error tells.", "anchors": ["util/util.go: GenerateMnemonic, DeriveSeedFromMnemonic; bip39/bip39.go: SetWordList, NewMnemonic, EntropyFromMnemonic"]}
{"id": "C125", "title": "What holds whatever runs beside a call", "statement": "Any number of calls of SetWordList with any lists run at the same time as any number of calls of any other functions of the packages. GetWordList returns a list that has been in force. GetWordIndex(w) returns the position of w in a list that has been in force, or (0, false); when an access to the map is several steps, as in the runtime, also (0, true). NewSeedWithErrorChecking(m, p) returns NewSeed(m, p) or no seed and an error, and DeriveSeedFromMnemonic(m, p) the hexadecimal text of it or none and an error: never another seed, never a panic. If all lists have 2048 different words: EntropyFromMnemonic returns an error or an entropy whose bits with checksum are the positions of the words, each in some list that has been in force (with the steps of the runtime, or 0), and IsMnemonicValid true only of such sentences; NewMnemonic(e), and GenerateMnemonic with the bytes read, never panic and return, without an error, a sentence for e in this sense. If moreover the lists agree on the positions of the words they share, a sentence made at any time and read at any time gives its entropy or an error, never another entropy; the shipped lists do so unless both English and French are among them.", "quantifier": "all lists, numbers of concurrent setters and other calls, arguments and schedules, with accesses as one step and (but for validity and the way there and back) as the steps of the runtime; the translated text of the functions; a use of the list is one step, which is exact for lists of one length (C121)", "why_tests_cant": "The schedules of many concurrent calls are beyond enumeration, and an unguarded map access shows only under some of them.", "anchors": ["bip39/bip39.go: SetWordList, GetWordList, GetWordIndex, EntropyFromMnemonic, NewMnemonic, NewSeedWithErrorChecking; util/util.go: GenerateMnemonic, DeriveSeedFromMnemonic"]}
{"id": "C126", "title": "No call waits for another", "statement": "Any number of calls of SetWordList with any lists run at the same time as any number of calls of any other functions of the packages. A call of GetWordIndex, EntropyFromMnemonic, IsMnemonicValid, MnemonicToByteArray, NewSeedWithErrorChecking, DeriveSeedFromMnemonic, NewMnemonic or GenerateMnemonic has returned (or panicked) after 24 accesses of its own to the word list and the map, GetWordList after one, and SetWordList after three more than the longest list that can be in force has words, whatever the other calls do and however often they go on in between; when an access to the map is several steps, as in the runtime, after six times as many, unless the program has ended with a fatal error. The bound is reached: alone, a function that looks up the words of a sentence that are all in the map has returned exactly when it has made one access for each. So NewSeedWithErrorChecking(m, p) after 24 accesses has returned NewSeed(m, p) or no seed and an error.", "quantifier": "all lists, numbers of concurrent setters and other calls, arguments and schedules, fair or not, with accesses as one step and as the steps of the runtime; the translated text of the functions; a use of the list is one step, which is exact for lists of one length (C121)", "why_tests_cant": "That a call ends under every schedule, also an unfair one, is not seen from runs that end.", "anchors": ["bip39/bip39.go: SetWordList, GetWordList, GetWordIndex, EntropyFromMnemonic, NewMnemonic, NewSeedWithErrorChecking, IsMnemonicValid, MnemonicToByteArray; util/util.go: GenerateMnemonic, DeriveSeedFromMnemonic"]}
