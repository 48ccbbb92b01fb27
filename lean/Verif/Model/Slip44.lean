import Verif.Data.Slip44

/-!
# bip44/script.go: `generateFileFromSlip44MD`

The function is unexported and its call in `init` is commented out (bip44/script.go:15-18); it was used to write the
coin table.
-/

namespace Bips

/-- The embedded file (bip44/script.go:11-13). -/
def slip44File : Bytes := Data.Slip44.lines.flatMap fun l => MdLine.bytes l ++ [10]

/-- `strings.Split(s, sep)` for a separator of two different bytes. -/
def splitTwo (a b : UInt8) : Bytes → List Bytes
  | [] => [[]]
  | [c] => [[c]]
  | c :: d :: rest =>
    if c = a ∧ d = b then [] :: splitTwo a b rest
    else match splitTwo a b (d :: rest) with
      | [] => [[c]]
      | w :: ws => (c :: w) :: ws

/-- `strings.Contains`. -/
def containsText (s sub : Bytes) : Bool := s.tails.any fun t => sub.isPrefixOf t

/-- Loop of `strconv.ParseUint(s, 10, 32)`; `cutoff` is `maxUint64/10 + 1`, which no number below 2³² reaches. -/
def parseUint32Loop : Bytes → Nat → Option Nat
  | [], n => some n
  | c :: rest, n =>
    if !isDigit c then none
    else if 2 ^ 32 ≤ n * 10 + (c.toNat - 48) then none
    else parseUint32Loop rest (n * 10 + (c.toNat - 48))

/-- `strconv.ParseUint(s, 10, 32)`; `none` is an error. -/
def parseUint32 (s : Bytes) : Option Nat := if s = [] then none else parseUint32Loop s 0

/-- The columns of a line (bip44/script.go:32-35). `strings.Split` gives at least one element, so `[1:]` does not
panic. -/
def mdFields (line : Bytes) : List Bytes := ((splitTwo 124 32 line).drop 1).map trimSpace

/-- The body of the loop (bip44/script.go:32-59): the coin appended for a line, if any. -/
def genLine (line : Bytes) : Option Coin :=
  let fields := mdFields line
  let last := fields.getLastD []
  if fields.length > 2 && !containsText last (str "reserved") && !containsText last (str "dead") then
    match parseUint32 (fields.getD 0 []) with
    | none => none
    | some coinType =>
      match parseUint32 (fields.getD 1 []) with
      | none => none
      | some pathComp =>
        let symbol := if fields.length = 3 then [] else fields.getD 2 []
        let name := if fields.length = 3 then fields.getD 2 [] else joinByte 32 (fields.drop 3)
        if symbol = [] ∧ name = [] then none
        else some ⟨UInt32.ofNat coinType, UInt32.ofNat pathComp, symbol, name⟩
  else none

/-- `generateFileFromSlip44MD` (bip44/script.go:23-66) on the given file: what is written to `testing.go`. -/
def generateFile (file : Bytes) : Bytes :=
  ((splitByte 10 file).filterMap genLine).flatMap fun c => c.stringForMD ++ str ",\n"

end Bips
