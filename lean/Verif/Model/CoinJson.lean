import Verif.Go.Json
import Verif.Model.Coin

/-!
# bip44/coin.go: the tags of `Coin` for `encoding/json`
-/

namespace Bips

/-- The fields that `json.Marshal` writes, by the tags of `Coin` (bip44/coin.go:9-13): those that are neither 0 nor empty. -/
def Coin.jsonFields (c : Coin) : List (Bytes × Bytes) :=
  (if c.type = 0 then [] else [(str "type", decimal c.type.toNat)]) ++
  (if c.pathComponent = 0 then [] else [(str "pathComponent", decimal c.pathComponent.toNat)]) ++
  (if c.symbol = [] then [] else [(str "symbol", Json.quote c.symbol)]) ++
  (if c.name = [] then [] else [(str "name", Json.quote c.name)])

/-- `json.Marshal(c)` for a `Coin` (bip44/coin.go:8-14). It never fails. -/
def Coin.marshal (c : Coin) : Bytes := Json.object c.jsonFields

/-- The errors of `json.Unmarshal`. -/
inductive JsonErr where
  | syntaxError | typeError
  deriving DecidableEq

/-- A field of `Coin` found by its name in the text: as it is, else ignoring case (bip44/coin.go:9-13). -/
def jsonFieldNames : List Bytes := [str "type", str "pathComponent", str "symbol", str "name"]

/-- The index of the field for a key. -/
def jsonField (k : Bytes) : Option Nat :=
  match jsonFieldNames.findIdx? (· = k) with
  | some i => some i
  | none => (jsonFieldNames.map Json.fold).findIdx? (· = Json.fold k)

/-- One member of the object stored into the coin (bip44/coin.go:8-14). A value of the wrong type leaves the field, and the first
such error is reported in the end; `null` leaves the field without an error. -/
def Coin.store (d : Coin × Option JsonErr) (m : Bytes × Json.Val) : Coin × Option JsonErr :=
  let wrong := (d.1, d.2 <|> some .typeError)
  match jsonField m.1 with
  | none => d
  | some i =>
    match m.2 with
    | .null => d
    | .num t =>
      match Json.toUint32 t with
      | none => wrong
      | some n => if i = 0 then ({ d.1 with type := n }, d.2) else if i = 1 then ({ d.1 with pathComponent := n }, d.2) else wrong
    | .text s => if i = 2 then ({ d.1 with symbol := s }, d.2) else if i = 3 then ({ d.1 with name := s }, d.2) else wrong
    | _ => wrong

/-- `json.Unmarshal(s, &d)`: the coin variable afterwards and the error (bip44/coin.go:8-14). -/
def Coin.unmarshal (s : Bytes) (d : Coin) : Coin × Option JsonErr :=
  match Json.parse s with
  | none => (d, some .syntaxError)
  | some (.object ms) => ms.foldl Coin.store (d, none)
  | some .null => (d, none)
  | some _ => (d, some .typeError)

end Bips
