import Verif.Go.Bytes
import Verif.Model.Err
import Mathlib.Computability.RegularExpressions

/-!
# Go `strings`, `strconv`, `fmt %d`, `regexp` (as used by the repo)
-/

namespace Bips

/-- `strings.Split(s, sep)` for a one-byte separator. -/
def splitByte (sep : UInt8) : Bytes → List Bytes
  | [] => [[]]
  | c :: rest =>
    if c = sep then [] :: splitByte sep rest
    else match splitByte sep rest with
      | [] => [[c]]
      | w :: ws => (c :: w) :: ws

/-- `strings.Join(ws, sep)` for a one-byte separator. -/
def joinByte (sep : UInt8) : List Bytes → Bytes
  | [] => []
  | [w] => w
  | w :: ws => w ++ sep :: joinByte sep ws

/-- `strings.ReplaceAll(s, c, "")` for a one-byte pattern. -/
def removeByte (c : UInt8) (s : Bytes) : Bytes := s.filter (· ≠ c)

/-- Is `c` an ASCII digit? -/
def isDigit (c : UInt8) : Bool := 48 ≤ c.toNat && c.toNat ≤ 57

/-- Loop of `strconv.ParseUint(s, 10, 64)`: `cutoff` is `maxUint64/10 + 1`; the digit byte is checked before
the overflow tests. -/
def parseUintLoop : Bytes → Nat → Nat ⊕ Err
  | [], n => .inl n
  | c :: rest, n =>
    if !isDigit c then .inr .atoiSyntax
    else if 2 ^ 64 / 10 + 1 ≤ n then .inr .atoiRange
    else if 2 ^ 64 ≤ n * 10 + (c.toNat - 48) then .inr .atoiRange
    else parseUintLoop rest (n * 10 + (c.toNat - 48))

/-- `strconv.Atoi` on a 64-bit platform (the fast path for short strings agrees with `ParseInt(s, 10, 0)`,
which is what is modelled). The value beside an error is not modelled (0); callers discard it. -/
def atoi (s : Bytes) : Int × Option Err :=
  match s with
  | [] => (0, some .atoiSyntax)
  | c :: rest =>
    let neg := c = 45
    let body := if c = 43 ∨ c = 45 then rest else s
    if body = [] then (0, some .atoiSyntax) else
    match parseUintLoop body 0 with
    | .inr e => (0, some e)
    | .inl un =>
      if ¬neg ∧ 2 ^ 63 ≤ un then (0, some .atoiRange)
      else if neg ∧ 2 ^ 63 < un then (0, some .atoiRange)
      else (if neg then -(un : Int) else un, none)

/-- `uint32(v)` for an `int` `v`. -/
def intToUint32 (v : Int) : UInt32 := UInt32.ofNat (v % 2 ^ 32).toNat

/-- `fmt.Sprintf("%d", n)` for an unsigned `n`. -/
def decimal (n : Nat) : Bytes :=
  if n = 0 then [48] else (toDigitsBE 10 n).map fun d => UInt8.ofNat (48 + d)

/-! ## regexp -/

/-- One byte out of a set. -/
def reAny (cs : Bytes) : RegularExpression UInt8 := cs.foldr (fun c r => RegularExpression.char c + r) 0

/-- `\d` -/
def reDigit : RegularExpression UInt8 := reAny (str "0123456789")

/-- `r+` -/
def rePlus (r : RegularExpression UInt8) : RegularExpression UInt8 := r * r.star

/-- `r?` -/
def reOpt (r : RegularExpression UInt8) : RegularExpression UInt8 := 1 + r

end Bips
