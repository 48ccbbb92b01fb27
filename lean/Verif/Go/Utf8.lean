import Verif.Go.Bytes

/-!
# Go's UTF-8 decoding, `unicode.IsSpace`, `strings.Fields`, `strings.TrimSpace`

Standard library, modelled by its documented behaviour (Go 1.21). Used by bip39/bip39.go:340 and
bip39/wordlists/*.go:22 and bip44/coin.go:23-34.
-/

namespace Bips

/-- `utf8.DecodeRuneInString`: rune and width; an invalid sequence gives U+FFFD of width 1. Ranging over a string
decodes in the same way. -/
def decodeRune : Bytes → Nat × Nat
  | [] => (0xFFFD, 0)
  | b0 :: rest =>
    let x := b0.toNat
    if x < 0x80 then (x, 1)
    else if x < 0xC2 ∨ 0xF4 < x then (0xFFFD, 1)
    else
      let lo := if x = 0xE0 then 0xA0 else if x = 0xF0 then 0x90 else 0x80
      let hi := if x = 0xED then 0x9F else if x = 0xF4 then 0x8F else 0xBF
      match rest with
      | [] => (0xFFFD, 1)
      | b1 :: rest1 =>
        let y := b1.toNat
        if y < lo ∨ hi < y then (0xFFFD, 1)
        else if x < 0xE0 then (x % 32 * 64 + y % 64, 2)
        else match rest1 with
          | [] => (0xFFFD, 1)
          | b2 :: rest2 =>
            let z := b2.toNat
            if z < 0x80 ∨ 0xBF < z then (0xFFFD, 1)
            else if x < 0xF0 then (x % 16 * 4096 + y % 64 * 64 + z % 64, 3)
            else match rest2 with
              | [] => (0xFFFD, 1)
              | b3 :: _ =>
                let t := b3.toNat
                if t < 0x80 ∨ 0xBF < t then (0xFFFD, 1)
                else (x % 8 * 262144 + y % 64 * 4096 + z % 64 * 64 + t % 64, 4)

/-- `for _, r := range s`, keeping the bytes of each rune; the first argument bounds the number of runes. -/
def runesF : Nat → Bytes → List (Nat × Bytes)
  | 0, _ => []
  | _ + 1, [] => []
  | f + 1, c :: s =>
    let d := decodeRune (c :: s)
    (d.1, (c :: s).take d.2) :: runesF f ((c :: s).drop d.2)

/-- `for _, r := range s`. -/
def runes (s : Bytes) : List (Nat × Bytes) := runesF s.length s

/-- `unicode.IsSpace`. -/
def isSpace (r : Nat) : Bool :=
  (9 ≤ r && r ≤ 13) || r == 32 || r == 0x85 || r == 0xA0 || r == 0x1680 || (0x2000 ≤ r && r ≤ 0x200a) ||
    r == 0x2028 || r == 0x2029 || r == 0x202f || r == 0x205f || r == 0x3000

/-- The loop of `strings.FieldsFunc(s, unicode.IsSpace)`; `cur` is the field being collected (empty: none). -/
def fieldsLoop : List (Nat × Bytes) → Bytes → List Bytes
  | [], cur => if cur = [] then [] else [cur]
  | (r, b) :: rest, cur =>
    if isSpace r then (if cur = [] then fieldsLoop rest [] else cur :: fieldsLoop rest [])
    else fieldsLoop rest (cur ++ b)

/-- `strings.Fields`. -/
def fields (s : Bytes) : List Bytes := fieldsLoop (runes s) []

/-- `strings.TrimSpace`, for valid UTF-8 (on invalid UTF-8 Go decodes the tail backwards, which may differ). -/
def trimSpace (s : Bytes) : Bytes :=
  ((((runes s).dropWhile fun r => isSpace r.1).reverse.dropWhile fun r => isSpace r.1).reverse).flatMap (·.2)

end Bips
