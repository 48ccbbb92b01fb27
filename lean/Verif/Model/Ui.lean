import Verif.Model.Util

/-!
# examples/ui/one/main.go: the state behind the window

The package variables are one state. Gio is modelled by contract: `SetText` makes the text of a field what it is given,
`Text` reads it, users may give any field any text while a frame is laid out, `Clicked` says whether a click came in.
Drawing is not modelled, except for which tab's key is shown and the texts of its labels.
-/

namespace Bips

/-- Continue unless the call panicked. -/
def Outcome.bind {α β : Type} (x : Outcome α) (f : α → Outcome β) : Outcome β :=
  match x with
  | .ok a => f a
  | .panic => .panic

/-- The package variables (examples/ui/one/main.go:53-74). Of `bps` its root key, of a tab (examples/ui/one/main.go:43-46, 47-51) its
`KeyPath`. -/
structure Ui where
  /-- texts of `mnemonicField`, `mnemonicPassphraseField`, `bip39SeedField`, `bip32RootKeyField`, `derivationField` -/
  mnemonicField : Bytes := []
  passphraseField : Bytes := []
  seedField : Bytes := []
  rootKeyField : Bytes := []
  derivationField : Bytes := []
  /-- `radioGroupMnemonicWords.Value` -/
  radio : Bytes := str "12"
  mnemonic : Bytes := []
  passphrase : Bytes := []
  seed : Bytes := []
  rootKeyStr : Bytes := []
  derivationStr : Bytes := []
  derivationPath : Bytes := []
  /-- root key of `bps` -/
  rootKey : Key := Key.zero
  /-- `keyPathTabs.tabs` and `keyPathTabs.selected` -/
  tabs : List KeyPath := []
  selected : Int := 0

/-- The path `onKeyPathChange` uses (examples/ui/one/main.go:77-80). -/
def Ui.currentPath (u : Ui) : Bytes := if pathIsValid u.derivationPath then pathString u.derivationPath else str "m"

/-- `onKeyPathChange` (examples/ui/one/main.go:76-89). -/
def Ui.onKeyPathChange (H : Hashes) (R : Registry) (u : Ui) : Ui :=
  let keyPaths := (deriveBIP32Result H R u.rootKey u.currentPath).1
  let selected := if u.selected ≥ keyPaths.length then (keyPaths.length : Int) - 1 else u.selected
  { u with tabs := keyPaths, selected := selected }

/-- The common end of four handlers (examples/ui/one/main.go:98-103,109-114,121-126,133-138). -/
def Ui.rootFromSeed (H : Hashes) (R : Registry) (u : Ui) : Outcome Ui :=
  (rootKeyFromSeed H u.seed).bind fun (rootKey, _) =>
    let u := { u with rootKey := rootKey }.onKeyPathChange H R
    let rootKeyStr := u.rootKey.string H
    .ok { u with rootKeyStr := rootKeyStr, rootKeyField := rootKeyStr }

/-- `onAutoCreateMnemonicClicked` (examples/ui/one/main.go:91-104); `read` is the random source of this call. `byte(…)`
of an `int` keeps the low eight bits. -/
def Ui.onAutoCreateMnemonicClicked (H : Hashes) (S : WordState) (R : Registry) (read : Nat → Bytes) (u : Ui) :
    Outcome Ui :=
  let wordsCount := (atoi u.radio).1
  (generateMnemonic H S read (UInt8.ofNat (wordsCount % 256).toNat)).bind fun (mnemonic, _) =>
    (deriveSeedFromMnemonic H S mnemonic u.passphrase).bind fun (seed, _) =>
      { u with mnemonic := mnemonic, mnemonicField := mnemonic, seed := seed, seedField := seed }.rootFromSeed H R

/-- `onMnemonicChange` (examples/ui/one/main.go:105-115). -/
def Ui.onMnemonicChange (H : Hashes) (S : WordState) (R : Registry) (u : Ui) : Outcome Ui :=
  let mnemonic := u.mnemonicField
  (deriveSeedFromMnemonic H S mnemonic u.passphrase).bind fun (seed, _) =>
    { u with mnemonic := mnemonic, seed := seed, seedField := seed }.rootFromSeed H R

/-- `onMnemonicPassphraseChange` (examples/ui/one/main.go:117-127). -/
def Ui.onMnemonicPassphraseChange (H : Hashes) (S : WordState) (R : Registry) (u : Ui) : Outcome Ui :=
  let passphrase := u.passphraseField
  (deriveSeedFromMnemonic H S u.mnemonic passphrase).bind fun (seed, _) =>
    { u with passphrase := passphrase, seed := seed, seedField := seed }.rootFromSeed H R

/-- `onSeedChange` (examples/ui/one/main.go:129-139). -/
def Ui.onSeedChange (H : Hashes) (R : Registry) (u : Ui) : Outcome Ui :=
  { u with seed := u.seedField, mnemonic := [], mnemonicField := [] }.rootFromSeed H R

/-- `onRootKeyStrChange` (examples/ui/one/main.go:141-157). -/
def Ui.onRootKeyStrChange (H : Hashes) (R : Registry) (u : Ui) : Ui :=
  let u := { u with rootKeyStr := u.rootKeyField, mnemonic := [], mnemonicField := [], seed := [], seedField := [] }
  match b58Deserialize H u.rootKeyStr with
  | (rootKey, none) =>
    let u := { u with rootKey := rootKey }.onKeyPathChange H R
    let rootKeyStr := u.rootKey.string H
    { u with rootKeyStr := rootKeyStr, rootKeyField := rootKeyStr }
  | (_, some _) => { u with rootKey := Key.zero }

/-- `OnDerivationPathChange` (examples/ui/one/main.go:158-166). -/
def Ui.onDerivationPathChange (H : Hashes) (R : Registry) (u : Ui) : Ui :=
  let u := { u with derivationStr := u.derivationField, derivationPath := pathFormatted u.derivationField }
  let u := u.onKeyPathChange H R
  let rootKeyStr := u.rootKey.string H
  { u with rootKeyStr := rootKeyStr, rootKeyField := rootKeyStr }

/-- What happens while one frame is laid out. -/
structure Frame where
  /-- a click on "Auto Generate Mnemonic", with the random source it reads -/
  generate : Option (Nat → Bytes) := none
  /-- what the user made of the texts of the fields and the radio buttons -/
  mnemonicEdit : Option Bytes := none
  passphraseEdit : Option Bytes := none
  seedEdit : Option Bytes := none
  rootKeyEdit : Option Bytes := none
  derivationEdit : Option Bytes := none
  radioEdit : Option Bytes := none
  /-- clicks on the arrows -/
  left : Bool := false
  right : Bool := false
  /-- clicks on tabs -/
  tabClicks : List Nat := []

/-- The checks before the layout (examples/ui/one/main.go:180-199). -/
def Ui.update (H : Hashes) (S : WordState) (R : Registry) (generate : Option (Nat → Bytes)) (u : Ui) : Outcome Ui :=
  let u := { u with derivationPath := pathFormatted u.derivationStr }
  (match generate with
    | some read => u.onAutoCreateMnemonicClicked H S R read
    | none => .ok u).bind fun u =>
  (if u.mnemonicField ≠ u.mnemonic then u.onMnemonicChange H S R else .ok u).bind fun u =>
  (if u.passphraseField ≠ u.passphrase then u.onMnemonicPassphraseChange H S R else .ok u).bind fun u =>
  (if u.seedField ≠ u.seed then u.onSeedChange H R else .ok u).bind fun u =>
  let u := if u.rootKeyStr ≠ u.rootKeyField then u.onRootKeyStrChange H R else u
  let u := if pathString u.derivationField ≠ pathString u.derivationStr then u.onDerivationPathChange H R else u
  .ok u

/-- The left arrow (examples/ui/one/main.go:305-311). -/
def Ui.clickLeft (u : Ui) : Ui := if u.selected > 0 then { u with selected := u.selected - 1 } else u

/-- The right arrow (examples/ui/one/main.go:357-363). -/
def Ui.clickRight (u : Ui) : Ui :=
  if u.selected < (u.tabs.length : Int) - 1 then { u with selected := u.selected + 1 } else u

/-- A click on a tab (examples/ui/one/main.go:320-329). The list lays out, and so asks, only tabs that exist. -/
def Ui.clickTab (u : Ui) (tabIdx : Nat) : Ui :=
  if tabIdx < u.tabs.length then { u with selected := tabIdx } else u

/-- The layout of one frame (examples/ui/one/main.go:200-409) as far as it changes the variables. The rigid children of
a flex come before the flexible one: both arrows, then the tabs. -/
def Ui.layout (f : Frame) (u : Ui) : Ui :=
  let u := { u with
    radio := f.radioEdit.getD u.radio
    mnemonicField := f.mnemonicEdit.getD u.mnemonicField
    passphraseField := f.passphraseEdit.getD u.passphraseField
    seedField := f.seedEdit.getD u.seedField
    rootKeyField := f.rootKeyEdit.getD u.rootKeyField
    derivationField := f.derivationEdit.getD u.derivationField }
  if u.tabs.length = 0 then u
  else
    let u := if f.left then u.clickLeft else u
    let u := if f.right then u.clickRight else u
    f.tabClicks.foldl Ui.clickTab u

/-- The key shown (examples/ui/one/main.go:375-381): `none` if nothing is shown. The index expression panics when out of
range. -/
def Ui.shown (u : Ui) : Outcome (Option KeyPath) :=
  let isValid := decide (u.selected < u.tabs.length) && decide (u.tabs.length ≠ 0) && decide (u.selected ≥ 0)
  if !isValid then .ok none
  else if u.selected < 0 then .panic
  else match u.tabs[u.selected.toNat]? with
    | some k => .ok (some k)
    | none => .panic

/-- The texts of the six labels below the tabs (examples/ui/one/main.go:384-403). -/
def KeyPath.labels (H : Hashes) (R : Registry) (keyPath : KeyPath) : List Bytes :=
  [pathString keyPath.path, keyPath.key.string H, (keyPath.key.publicKeyExtended R).string H, keyPath.key.privateKeyHex,
    (keyPath.key.publicKeyExtended R).publicKeyHex R, keyPath.addrHex H R]

/-- One frame (examples/ui/one/main.go:177-410). -/
def Ui.frame (H : Hashes) (S : WordState) (R : Registry) (u : Ui) (f : Frame) : Outcome Ui :=
  (u.update H S R f.generate).bind fun u =>
    let u := u.layout f
    u.shown.bind fun _ => .ok u

/-- The loop (examples/ui/one/main.go:172-412) over the given frames. -/
def Ui.run (H : Hashes) (S : WordState) (R : Registry) : Ui → List Frame → Outcome Ui
  | u, [] => .ok u
  | u, f :: fs => (u.frame H S R f).bind fun u => Ui.run H S R u fs

end Bips
