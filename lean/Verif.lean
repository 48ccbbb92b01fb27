import Verif.Go.Digits
import Verif.Go.Bytes
import Verif.Curve.Primes
import Verif.Curve.Group
import Verif.Props.Serial
import Verif.Props.Path
import Verif.Lemmas.Point
import Verif.Props.Registry
import Verif.Props.Child
import Verif.Props.Tree
import Verif.Props.Prefix
import Verif.Props.Bip39
import Verif.Props.Words
import Verif.Props.WordAlias
import Verif.Props.AliasExact
import Verif.Props.WordRace
import Verif.Props.MnemonicRace
import Verif.Props.RaceExact
import Verif.Props.WordsExamples
import Verif.Props.Util
import Verif.Props.Derive
import Verif.Props.Addr
import Verif.Props.Bip44
import Verif.Props.Ui
import Verif.Props.UiSelect
import Verif.Props.Exact
import Verif.Props.OwnVersions
import Verif.Props.Wallet
import Verif.Props.WalletTyped
import Verif.Props.Memory
import Verif.Props.Seed
import Verif.Props.Random
import Verif.Props.Slider
import Verif.Props.UiSlider
import Verif.Model.Unused
import Verif.Props.Slip44
import Verif.Props.Slip132
import Verif.Vectors.One
import Verif.Vectors.Two
import Verif.Vectors.Three
import Verif.Vectors.Public
import Verif.Vectors.Address
import Verif.Vectors.Wallet
import Verif.Vectors.Mnemonic
import Verif.Props.CustomList
import Verif.Props.SafeState
import Verif.Props.Lang
import Verif.Props.WordSetters
import Verif.Props.SettersLang
import Verif.Props.Letters
import Verif.Props.Nums
import Verif.Props.MemoryWords
import Verif.Props.Narrow
import Verif.Props.Distinct
import Verif.Spec.ExtendedKey
import Verif.Props.Malformed
import Verif.Spec.Hmac
import Verif.Props.SharedSeed
import Verif.Props.Skip
import Verif.Props.MemoryUtil
import Verif.Model.Checked
import Verif.Props.Checked
import Verif.Props.Crc
import Verif.Props.Convert
import Verif.Props.MalformedChild
import Verif.Props.Uniform
import Verif.Go.Json
import Verif.Model.CoinJson
import Verif.Props.CoinJson
import Verif.Props.Account
import Verif.Model.MapFatal
import Verif.Props.MapFatal
import Verif.Props.MapSim
import Verif.Props.MapZero
import Verif.Props.MapRaceVector
import Verif.Props.RangePath
import Verif.Props.LongRange
import Verif.Props.Leak
import Verif.Props.PathEdit
import Verif.Props.CoinLabel
import Verif.Props.AddrLook
import Verif.Props.WatchRange
import Verif.Props.Letters4
import Verif.Props.Browse
import Verif.Props.Restore
import Verif.Props.Typing
import Verif.Props.Membership
import Verif.Props.Source
import Verif.Props.SourceClaims
import Verif.Props.SourceWindow
import Verif.Src.Lists
import Verif.Src.Script
import Verif.Props.SourceLists
import Verif.Src.SlideVal
import Verif.Src.Slide
import Verif.Props.SourceSlide
import Verif.Props.SourceTables
import Verif.Src.Access
import Verif.Src.AccessWords
import Verif.Src.Interleave
import Verif.Src.Alone
import Verif.Props.SourceRace
import Verif.Model.SliceWords
import Verif.Props.SliceWords
import Verif.Src.AccessSeed
import Verif.Props.SourceSeed
import Verif.Src.Footprint
import Verif.Props.Footprint
import Verif.Props.FootprintExact
import Verif.Src.AccessUtil
import Verif.Props.SourceUtil
import Verif.Spec.Among
import Verif.Src.Safe
import Verif.Props.SourceSafe
import Verif.Props.SourceSafeLang
import Verif.Src.Steps
import Verif.Props.SourceSteps
