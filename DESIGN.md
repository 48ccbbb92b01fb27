# Formal model of mearaj/bips

`/repo` is a Go library for Bitcoin-style wallets: mnemonics (BIP-39), key trees (BIP-32), coins (BIP-44/SLIP-44), version
prefixes (SLIP-132), a package `util` on top of them, and an example window. It is read as text; nothing of it is run.
This directory holds a model of it in Lean 4 and proofs of the properties in `properties.jsonl`.

| file | contents |
|---|---|
| `properties.jsonl` | the properties, in terms of the API (written by `tools/mkprops.py`) |
| `MANIFEST.json` | for each property its theorems and whether it is proved or partial (`tools/mkmanifest.py`, `tools/notes.json`) |
| `COVERAGE.md` | every top-level Go declaration and the Lean definitions that model it (`tools/coverage.py`) |
| `AXIOMS.md` | the axioms each theorem depends on, asked from the built library (`tools/axioms.py`) |
| `seeded/LOG.jsonl` | wrong programs the theorems were tested against |
| `lean/Verif/` | the model, the specifications and the proofs |

## 1. How Go is read

* A string or `[]byte` is `List UInt8` (`Bytes`). Arrays have lists of the right length; the length is an invariant that is proved.
* A function returning `(T, error)` returns `T × Option Err`: the value next to an error is modelled too, because callers look at it.
* A function that can panic returns `Outcome T` with the cases `ok` and `panic`.
* A method that writes through its receiver returns the new value. Whether values share memory matters for some properties; for these
  there is a second model with a heap (section 3, `Model/Memory`), proved to compute the same values.
* Numbers: `uint32`, `uint8` wrap around (Lean's `UInt32`, `UInt8`); `int` is 64 bits wide (amd64, arm64, wasm; `Narrow` has both widths); `*big.Int` is `Nat`
  or `Int`, except in `Model/Nums`, where it is a cell.
* What Go leaves open is a universally quantified parameter: the order of map iteration, the order in which an unstable sort leaves
  equal elements, how far `append` grows a buffer, how a random source cuts its bytes into chunks and where it fails, the
  interleaving of goroutines (sequentially consistent), whether `x*y+z` is fused, the times of frames and what the user does.
* Hash functions are a parameter too: `Hashes` (SHA-256, HMAC-SHA-512, RIPEMD-160, Keccak-256) with nothing known but the lengths of
  the results. Theorems hold for all of them. Where a statement needs the real ones (counterexamples, test vectors), they are
  `goHashes`, written from the standards in `Crypto/Sha2`, `Crypto/Ripemd` and evaluated by the kernel.

## 2. Layers

| directory | contents |
|---|---|
| `Go/` | the parts of the Go library the code uses: slices, `big.Int` and hex conversions, base 58, `strconv`, `strings`, UTF-8, CRC-32, floating point numbers |
| `Crypto/` | hash functions as parameters; SHA-2, RIPEMD-160, Keccak; a version of PBKDF2 the kernel can run |
| `Curve/` | secp256k1: p and n are prime (Pratt certificates), the model's affine arithmetic is the group of Mathlib's `WeierstrassCurve.Affine`, its order is n |
| `Model/` | the packages of the repo, function by function; every definition cites file and lines |
| `Data/` | tables: version bytes, 1136 coins, 10 word lists, and the two SLIP documents shipped with the repo, line by line |
| `Spec/` | the specifications: BIP-32 in terms of Mathlib's group, BIP-39 on bits, paths, addresses, SLIP-44, SLIP-132, wallets, NFKD, streams |
| `Lemmas/`, `Props/` | proofs; `Props/` holds the theorems named after the properties, each followed by an instance |
| `Src/` | the text of 129 functions and pieces of functions as syntax (`Code`, generated), an interpreter for it (`Lang`, `Run`), and the proofs that running the text gives what the model says |
| `Vectors/` | the test vectors of the repo as theorems about the model |

Specifications do not use the model's functions. They share with it only data types (`Bytes`, `Hashes`) and, where named, encodings
from `Go/` whose own correctness is a property (base 58: C16; hex; numerals).

## 3. What is modelled

Package by package; `COVERAGE.md` has the table by declaration. Declarations nothing calls are in `Model/Unused`.

* **bip39** (`Model/Bip39`, `Wordlists`, `Pbkdf2`, `Random`): all of it. `WordAlias` and
  `WordRace`, `WordSetters` are refinements of the word list state: slices shared with callers, and `SetWordList` in single steps
  between which readers run (`WordRace`) or other calls of `SetWordList` (`WordSetters`); `MapFatal` splits the accesses to the map
  further, as the runtime of Go 1.22 has them, with its fatal errors for concurrent use. Not modelled there: weaker memory orders, and
  how entries move when a map grows.
* **shared numbers** (`Nums`): the functions of bip39, bip32 and util that work on `*big.Int` once more, with numbers as cells that methods
  overwrite and that goroutines share; proved to compute the same values in every interleaving (C84).
* **bip39/wordlists**: the ten lists as they are in the source, their CRC-32 check in `init`, and the strings they are split from.
* **bip32** (`Bip32Utils`, `Key`, `Child`, `Path`, `Registry`, `Defaults`, `Secp`, `Random`): all of it; `DefaultMainnetVersion` is fixed except in `Defaults`, and the width of `int` except in `Narrow`. `Model/Memory` repeats every function
  that handles slices or pointers on a heap; `Model/MemoryWords` does so for bip39 and for `util/key_path.go`;
  `Model/MemoryUtil` puts the lists of derived keys and the variables of type `KeyPathRange` on the heap as well.
* **bip44** (`Coin`, `CoinJson`, `Bip44`, `Slip44`): coins, their JSON (with `encoding/json` for such structs in `Go/Json`), registry, and the generator script `generateFileFromSlip44MD` as a reader of lines.
* **util** (`Util`): all of it.
* **panics** (`Checked`): bip39, bip32 and util once more, with every index, slice and conversion checked; proved to compute the same values (C94).
* **the text** (`Src/`): `tools/gen_src.py` parses the Go files (`tools/gosrc.py`) and writes every function of bip32, bip39, util and
  `bip44/coin.go`, `init` of bip44 and the text of examples/ui/one that changes variables as a term of a small statement language, expression by expression; `Src/Lang` is an interpreter for the language with the
  arithmetic of each integer type and the run-time checks of Go. C113 proves for each of the 82 functions that running its text ends, for all
  arguments, with the result of the model's definition. So for these functions the model is not trusted to be a faithful reading: what is
  trusted instead is the translator and the interpreter. Functions that assign package variables take them as their first parameters and
  return them as their first results: C116 (the `init` functions, `SetWordList`; a map is a list of pairs, ranging over the map of
  versions is ranging over its entries in a given order, `sort.Slice` in `init` of bip44 is left out and its outcome given, the comparison
  is translated) and C115 (the window: sixteen variables; of a widget only the text, value or clicked-ness is kept; the function `loop` is
  cut into pieces, which `srcFrame` puts together again in the order in which they occur; drawing and `ScrollTo` are left out). C117 does the same for bip39/wordlists (the variable with the raw text is a parameter of `init` and of the
  exported variable) and for bip44/script.go (the embedded document and the file `testing.go` are byte variables; `ReadFile` of the embedded
  document succeeds; `os.WriteFile` assigns; `panic` and `log.Fatal` are panics). C118 does it for the slider (a buffer of
  operations is a content at an address, `new` gives the next address, a recorded call is the address of its buffer; the widget is the content it
  draws and its width, the only dimension kept; drawing a call appends the shift and the content to a list; offsets add up until the function
  returns; times and durations are integers; `float32` and `float64` are rational numbers rounded after every operation, without fused
  multiply-add, and a result out of range stops the run) and puts its `Layout` into the frames of the window. Not translated: `main`. Values are copied in the interpreter; that sharing of memory makes no
  difference is C72–C74, C84, C85 and C93. A nil slice is the empty slice (the functions only ask for lengths). Map lookups in the
  registry and in the word map are lookups in the model's tables.
* **the text of the tables** (`Data/CoinsText`, `Data/VersionsText`): the lines of `RegCoins`, of the `VersionBytes` variables and of `PathToHDBytesSlice`, copied
  byte for byte by `tools/gen_text.py` (`diff` with the source is enough to check them). C119 proves that the model's tables, printed as Go source, are these
  texts and that no other tables are. White space in the map literal is left out of the comparison.
* **the text running concurrently** (`Src/Access`, `Src/AccessWords`, `Src/Interleave`, `Src/Alone`): a call is the tree of its reads and writes of `wordList` and `wordMap`
  (C120). Each access is one step (or, for maps, the steps of the runtime that `MapFatal` has), memory is sequentially consistent. In `SetWordList` the first two
  variables of the translation are the package variables; the translation's `return` of them is not an access. `MnemonicToByteArray` and `NewSeedWithErrorChecking` reach the
  variables through `EntropyFromMnemonic` only (`Src/AccessSeed`, C122). That a translated function other than `SetWordList` and `init` never writes the two variables is a theorem
  (C122_reads) about the translation, in which they can be written only by these two.
  `GenerateMnemonic` and `DeriveSeedFromMnemonic` reach them through `NewMnemonic` and `EntropyFromMnemonic` (`Src/AccessUtil`, C124). `Src/Safe` is an
  invariant of the steps for any number of setters and other calls, at both levels of steps (C125; `Spec/Among` states sentences of several lists). `Src/Steps`
  bounds the steps a call takes itself (C126): a step is an access to the two variables, what a call computes between accesses is not counted.
* What a function depends on (`Src/Footprint`, C123) is read off the translated text: which operations and variables of `World` (hash functions, registry,
  `wordList`, `wordMap`, random source) it mentions, itself or in the functions it calls. That this bounds what the result depends on is a theorem; so is, for
  packages bip32, bip39 and util and all parts but the hash functions, that the bound is reached.
* **the words of `wordList`** (`SliceWords`): the address and the length of the slice are stored and loaded one after the other, in any order (C121); the capacity, which the
  package never looks at, and the length and address of the single strings are left out, `range wordList` in `SetWordList` itself is one more use. C121 shows that for lists of one length this
  changes nothing, so that C13, C120, C122, C124, C125, C126 and `WordSetters`, which take an assignment or a use for one step, are exact there; for lists of different lengths they are not.
* **examples/ui/one** (`Ui`, `Slider`, `UiSlider`): the variables of the window, all handlers, the order of checks in a frame, the
  selection of tabs, the texts of the labels, and the slider with its rounding. Not modelled: layout in pixels other than the
  slider's shift, colours, fonts, the text editor widget (an edit may put any text into a field), the event loop of Gio.

Simplifications are stated at the definitions. The larger ones:

* `S256().Add`, `ScalarBaseMult` and `Params` of decred's secp256k1 are modelled by what they compute (affine arithmetic with (0,0) as
  the point at infinity, identity and equality tested on unreduced coordinates), not by their field implementation. `big.Int` is exact arithmetic. `regexp` is modelled for the literals used.
* `crypto/rand.Read` is `io.ReadFull` on a source (Go 1.22; later versions never return an error).
* Error values are an enumeration; errors made by `fmt.Errorf` or libraries keep the arguments that callers can see.
* Files and output of the generator script are texts.
* Unicode: `unicode.IsSpace` and UTF-8 decoding are modelled in full. Normalization (only in a specification, C76) takes the character
  database as a parameter with the entries stated in `Spec/Nfkd`.

## 4. Trusted base

* The kernel of Lean 4.33.0 (with GMP arithmetic, used by `decide +kernel`), and the axioms `propext`, `Classical.choice`, `Quot.sound`.
  No axiom is declared, there is no `sorry`, and neither `native_decide` nor `bv_decide` is used. `AXIOMS.md` lists the axioms per
  theorem; all declarations together depend on these three.
* Mathlib's definitions used in statements: `WeierstrassCurve.Affine.Point`, `ZMod`, `List.Perm`, `RegularExpression`, `ℚ`.
* That the specifications say what the BIPs say, and that `properties.jsonl` says what the theorems say.
* For the functions of C113 and C115–C118: that `tools/gen_src.py` writes down the text it reads (the generated `Src/Code.lean` can be compared with the
  source line by line) and that `Src/Lang` gives statements, operators and library calls the meaning Go gives them.
* For the tables: that `Data/CoinsText` and `Data/VersionsText` are the lines they cite, and that Go reads a literal as `coinSource`, `versionDecl` and `mapRow` write it.
* For the rest (JSON, memory, concurrency, randomness that fails): that the model reads the Go code faithfully. Help against mistakes: citations are checked to name existing lines that mention the
  function (`tools/checkcites.py`); tables are generated from the source by `tools/gen_*.py`; the test vectors of the repo hold in the
  model with the real hash functions (`Vectors/`: BIP-32 vectors 1–3 and public derivation, a BIP-39 vector from the mnemonic to the
  root key, the valid and invalid sentences of the repo's tests, seeds computed in full, and a well-known wallet from its seed to its first Ethereum and Bitcoin address); the SLIP documents agree with the tables (C67–C69).
* The Go compiler, runtime and the libraries named above.

Nothing is assumed or proved about the strength of hash functions, the quality of randomness, timing, or erasing of secrets.

## 5. Properties that are false of the code

These keep their full statement in `properties.jsonl` and have status `partial`: a theorem with suffix `_partial` proves the part that
holds, other theorems refute the rest, and where possible an "iff" gives the exact domain.

| property | what goes wrong |
|---|---|
| C07 | without `raw`, `MnemonicToByteArray` computes the size from the number of spaces, so spacing changes the result |
| C12, C13 | `GetWordList` hands out the package's own slice; readers beside `SetWordList` see a new list with an old map, and `NewMnemonic` can mix words of both lists in one sentence |
| C19 | three registered entries declare prefixes their keys never show |
| C22, C23 | IL ≥ n is accepted; public derivation refuses IL = 0, for which BIP-32 defines a child, and accepts the point at infinity |
| C31, C39 | depth is one byte: it wraps at 256 |
| C37, C47 | numbers in paths are reduced modulo 2^32 and labels may name numbers of 2^31 and more, which no path may contain |
| C40 | a replaced value can make the path invalid without error |
| C44 | `RootKeyFromSeed` dereferences nil when the HMAC gives no valid key |
| C46 | `DeriveBIP32Result` never reports a failed step and goes on with the zero key |
| C49 | `GenerateRange` nests keys instead of listing siblings and accepts inverted ranges |
| C50 | `AddrHex` hashes coordinates without leading zeros, so about one key in 128 gets a wrong address (`ethereum_62_address` in `Vectors/Address.lean`: the 63rd account of a well-known wallet) |
| C60, C62 | a refused root key leaves the old tabs; tabs can be shown with none selected |
| C73 | `Deserialize` may write zeros behind the caller's slice |
| C75, C76 | spacing and missing normalization change the seed |
| C77, C78 | `bip32.NewSeed` is four times too long; `NewEntropy` drops the error of the random source |
| C88 | path numbers of 2³¹ and more are accepted where `int` has 64 bits and refused where it has 32 |
| C90 | `Deserialize` checks length and checksum only: all malformed keys of BIP-32's Test Vector 5 are accepted |
| C92 | where deriving a private or a public child reports an error, the other of the two succeeds, so wallets skipping indices get out of step |

Other properties describe a defect as it is and are proved: C18 (`IsValid` accepts malformed keys), C57 (lookup by an ambiguous name),
C59 (the window crashes only through C44), C66 (editing the passphrase discards a typed root key), C68, C69 (where tables and
documents differ), C81 (a sentence can be valid both as English and as French), C83 (English and French set at the same time can leave a mixed index for good), C70 (`AddrP2SH` is not a script-hash address), C74 (`RootKey` exposes the generator's own key),
C97 (the public key 02 followed by zeros counts as the neutral element, so the secrets of all its children are public), C99 (type 0 is not
written to JSON, so Bitcoin read into a used variable keeps the type of the coin before), C101 (a lookup during `SetWordList` can end the
program, or find a word at index 0, so that a valid sentence gives another entropy without an error),
C104 (a key 256 levels down is taken as a root key; the text of a range grows with the square of its length),
C107 (`GenerateRange` from a public key fills hardened indices with the all-zero key, without an error),
C121 (replacing a word list by one of another length while it is used can read memory beyond it),
C124 (`GenerateMnemonic` beside `SetWordList` of another language can return, without an error, a sentence valid in neither).

## 6. How the theorems are tested

A theorem is worth something only if wrong programs fail it. In a copy outside this directory one definition of the model is edited
like a realistic bug, everything that depends on it is compiled again with failing proofs replaced, and the theorems that fail are
compared with the claims the bug makes false. A claim that is false now but still proves gets a stronger theorem. Each attempt is a
line in `seeded/LOG.jsonl`. For C113 to C118 the Go source itself is edited, translated again, and the proofs about the text compiled (entries `go…`).

## 7. Proof methods

* Mnemonics, keys, base 58: numerals as digit lists; both directions are inverse by induction, with no bound on sizes.
* Text: UTF-8 decoding and white space by induction on bytes; paths against a grammar and Mathlib's `RegularExpression`.
* Tables: theorems for every permutation of the entries. Word lists: kernel evaluation over the complete tables gives distinctness
  (C10), distinct first four letters (C82) and what lists have in common (C81), from which the claims follow for all mnemonics.
* Curve: group laws come from Mathlib; the model's formulas are shown equal to them for all points on the curve.
* Windows, generators, memory, concurrency: state machines with invariants by induction over all histories.
* Slider: rational numbers with rounding to nearest even; monotonicity and error bounds of `fl` carry everything.
