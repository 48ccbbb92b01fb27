import Verif.Data.Coins

/-!
# bip44/coins.go: the coin registry built by `init`

Go maps are functions to `Option`.
-/

namespace Bips

/-- The table `RegCoins` as written (bip44/coins.go:12-1149). -/
def coinTable : List Coin := Data.Coins.codes.map CoinCode.coin

/-- The package variables (bip44/coins.go:7-12). -/
structure CoinReg where
  coins : List Coin := []
  byType : UInt32 → Option Coin := fun _ => none
  byPathComponent : UInt32 → Option Coin := fun _ => none
  byName : Bytes → Option Coin := fun _ => none

/-- `m[k] = v`. -/
def mapSet {K : Type} [DecidableEq K] (m : K → Option Coin) (k : K) (v : Coin) : K → Option Coin :=
  fun k' => if k' = k then some v else m k'

/-- bip44/coins.go:1158-1160: the type of an invalid coin is computed from the path component. -/
def Coin.repair (c : Coin) : Coin :=
  if c.isValid then c else { c with type := c.pathComponent % 0x80000000 }

/-- Body of the loop of `init` (bip44/coins.go:1155-1164). -/
def CoinReg.add (r : CoinReg) (c : Coin) : CoinReg :=
  let c := c.repair
  { coins := r.coins ++ [c]
    byType := mapSet r.byType c.type c
    byName := mapSet r.byName c.name c
    byPathComponent := mapSet r.byPathComponent c.pathComponent c }

/-- What `sort.Slice` with the comparison of bip44/coins.go:1152-1154 may make of the table: a permutation in which no
coin has a name less than the name of an earlier coin. The sort is not stable, so the order of coins with the same
name is not determined. Strings are compared byte by byte. -/
structure SortOutcome (l sorted : List Coin) : Prop where
  perm : sorted.Perm l
  sorted : sorted.Pairwise fun a b => ¬ b.name < a.name

/-- `init` (bip44/coins.go:1151-1165) after the sort; the slice is updated in place, index by index. -/
def CoinReg.init (sorted : List Coin) : CoinReg := sorted.foldl CoinReg.add {}

end Bips
