import Verif.Go.Utf8
import Verif.Go.Strings
import Verif.Spec.Words

/-!
# `encoding/json`

Standard library (Go 1.22), for structs of numbers and texts such as bip44/coin.go:8-14. The limit of 10000 nested values is not
modelled.
-/

namespace Bips

namespace Json

/-! ## Writing -/

/-- `appendString`, a byte below 128: copied if it is in `htmlSafeSet`, else escaped. -/
def escapeByte (c : UInt8) : Bytes :=
  if c = 34 ∨ c = 92 then [92, c]
  else if c = 8 then [92, 98] else if c = 12 then [92, 102] else if c = 10 then [92, 110]
  else if c = 13 then [92, 114] else if c = 9 then [92, 116]
  else if c.toNat < 32 ∨ c = 60 ∨ c = 62 ∨ c = 38 then
    [92, 117, 48, 48, hexDigit (c.toNat / 16), hexDigit (c.toNat % 16)]
  else [c]

/-- `appendString`, a rune with its bytes. -/
def escapeRune (p : Nat × Bytes) : Bytes :=
  if p.1 < 128 then escapeByte (UInt8.ofNat p.1)
  else if p.1 = 0xFFFD ∧ p.2.length = 1 then [92, 117, 102, 102, 102, 100]
  else if p.1 = 0x2028 ∨ p.1 = 0x2029 then [92, 117, 50, 48, 50, hexDigit (p.1 % 16)]
  else p.2

/-- `appendString` with escaping for HTML, as in `json.Marshal`. -/
def quote (s : Bytes) : Bytes := 34 :: (runes s).flatMap escapeRune ++ [34]

/-- The object of a struct: the fields that are not omitted, with their values as texts. -/
def object : List (Bytes × Bytes) → Bytes
  | [] => [123, 125]
  | f :: fs => 123 :: quote f.1 ++ 58 :: f.2 ++ fs.flatMap (fun f => 44 :: quote f.1 ++ 58 :: f.2) ++ [125]

/-! ## Reading -/

/-- A value, as far as decoding into a struct of numbers and texts looks at it. -/
inductive Val where
  | null | bool
  | num (text : Bytes)
  | text (s : Bytes)
  | array
  | object (fields : List (Bytes × Val))

/-- `isSpace` of the scanner. -/
def isWs (c : UInt8) : Bool := c = 32 || c = 9 || c = 13 || c = 10

def skip (s : Bytes) : Bytes := s.dropWhile isWs

/-- `getu4` after `\u`: four hexadecimal digits. -/
def getu4 : Bytes → Option (Nat × Bytes)
  | a :: b :: c :: d :: rest => do
    let a ← fromHexChar a
    let b ← fromHexChar b
    let c ← fromHexChar c
    let d ← fromHexChar d
    some (((a * 16 + b) * 16 + c) * 16 + d, rest)
  | _ => none

/-- The rune of `\uXXXX`, joined with a second one to a surrogate pair, and what follows. A lone surrogate is U+FFFD. -/
def unquoteU (s : Bytes) : Option (Nat × Bytes) :=
  match getu4 s with
  | none => none
  | some (r, rest) =>
    if 0xD800 ≤ r ∧ r < 0xE000 then
      match rest with
      | 92 :: 117 :: t =>
        match getu4 t with
        | some (r1, rest1) =>
          if r < 0xDC00 ∧ 0xDC00 ≤ r1 ∧ r1 < 0xE000 then some ((r - 0xD800) * 1024 + (r1 - 0xDC00) + 0x10000, rest1)
          else some (0xFFFD, rest)
        | none => some (0xFFFD, rest)
      | _ => some (0xFFFD, rest)
    else some (r, rest)

/-- The one-letter escapes. -/
def escapes : List (UInt8 × UInt8) := [(34, 34), (92, 92), (47, 47), (98, 8), (102, 12), (110, 10), (114, 13), (116, 9)]

/-- `unquoteBytes`, from after the opening quote: the text and what follows the closing quote. The first argument bounds the number
of steps. -/
def unquote : Nat → Bytes → Option (Bytes × Bytes)
  | 0, _ => none
  | _ + 1, [] => none
  | f + 1, c :: s =>
    if c = 34 then some ([], s)
    else if c = 92 then
      match s with
      | [] => none
      | e :: s =>
        if e = 117 then
          match unquoteU s with
          | none => none
          | some (r, rest) => (unquote f rest).map fun p => (Spec.utf8 r ++ p.1, p.2)
        else
          match escapes.lookup e with
          | none => none
          | some b => (unquote f s).map fun p => (b :: p.1, p.2)
    else if c.toNat < 32 then none
    else
      let d := decodeRune (c :: s)
      (unquote f ((c :: s).drop d.2)).map fun p => (Spec.utf8 d.1 ++ p.1, p.2)

/-- One or more digits. -/
def digits1 (s : Bytes) : Option (Bytes × Bytes) :=
  if s.takeWhile isDigit = [] then none else some (s.takeWhile isDigit, s.dropWhile isDigit)

/-- The exponent of a number, if there is one. -/
def exponent : Bytes → Option (Bytes × Bytes)
  | c :: s =>
    if c = 101 ∨ c = 69 then
      match s with
      | [] => none
      | e :: t =>
        if e = 43 ∨ e = 45 then (digits1 t).map fun p => (c :: e :: p.1, p.2)
        else (digits1 s).map fun p => (c :: p.1, p.2)
    else some ([], c :: s)
  | [] => some ([], [])

/-- The fraction and the exponent of a number. -/
def fraction : Bytes → Option (Bytes × Bytes)
  | c :: s =>
    if c = 46 then
      match digits1 s with
      | none => none
      | some (d, rest) => (exponent rest).map fun p => (c :: d ++ p.1, p.2)
    else exponent (c :: s)
  | [] => some ([], [])

/-- The scanner's `-?(0|[1-9][0-9]*)(\.[0-9]+)?([eE][+-]?[0-9]+)?`. -/
def number (s : Bytes) : Option (Bytes × Bytes) :=
  let sign := s.takeWhile fun c => c = 45
  let body := s.dropWhile fun c => c = 45
  if 1 < sign.length then none
  else match body with
    | [] => none
    | c :: rest =>
      if c = 48 then (fraction rest).map fun p => (sign ++ c :: p.1, p.2)
      else match digits1 (c :: rest) with
        | none => none
        | some (d, rest) => (fraction rest).map fun p => (sign ++ d ++ p.1, p.2)

mutual
/-- A value and what follows it. The first argument bounds the number of steps. -/
def value : Nat → Bytes → Option (Val × Bytes)
  | 0, _ => none
  | f + 1, s =>
    match skip s with
    | [] => none
    | c :: r =>
      if c = 34 then (unquote r.length r).map fun p => (.text p.1, p.2)
      else if c = 123 then
        match skip r with
        | [] => none
        | d :: r' => if d = 125 then some (.object [], r') else (members f r).map fun p => (.object p.1, p.2)
      else if c = 91 then
        match skip r with
        | [] => none
        | d :: r' => if d = 93 then some (.array, r') else (elements f r).map fun p => (.array, p)
      else if (str "null").isPrefixOf (c :: r) then some (.null, (c :: r).drop 4)
      else if (str "true").isPrefixOf (c :: r) then some (.bool, (c :: r).drop 4)
      else if (str "false").isPrefixOf (c :: r) then some (.bool, (c :: r).drop 5)
      else (number (c :: r)).map fun p => (.num p.1, p.2)
/-- The members of an object after `{`, at least one. -/
def members : Nat → Bytes → Option (List (Bytes × Val) × Bytes)
  | 0, _ => none
  | f + 1, s =>
    match skip s with
    | [] => none
    | c :: r =>
      if c ≠ 34 then none
      else match unquote r.length r with
        | none => none
        | some (k, r) =>
          match skip r with
          | [] => none
          | c :: r =>
            if c ≠ 58 then none
            else match value f r with
              | none => none
              | some (v, r) =>
                match skip r with
                | [] => none
                | c :: r =>
                  if c = 125 then some ([(k, v)], r)
                  else if c = 44 then (members f r).map fun p => ((k, v) :: p.1, p.2)
                  else none
/-- The elements of an array after `[`, at least one. -/
def elements : Nat → Bytes → Option Bytes
  | 0, _ => none
  | f + 1, s =>
    match value f s with
    | none => none
    | some (_, r) =>
      match skip r with
      | [] => none
      | c :: r => if c = 93 then some r else if c = 44 then elements f r else none
end

/-- `checkValid` and the parsed value: white space may follow, nothing else. -/
def parse (s : Bytes) : Option Val :=
  match value (s.length + 1) s with
  | some (v, rest) => if skip rest = [] then some v else none
  | none => none

/-- `foldName` for the runes in the names of `Coin`: letters become capitals, and `ſ` (U+017F) becomes `S`. Other runes are left as
they are; whatever `unicode.SimpleFold` makes of them, it is none of the letters. -/
def fold (s : Bytes) : Bytes :=
  (runes s).flatMap fun p =>
    if 97 ≤ p.1 ∧ p.1 ≤ 122 then [UInt8.ofNat (p.1 - 32)] else if p.1 = 0x17F then [83]
    else if p.1 = 0x212A then [75] else p.2

/-- A number for a field of type `uint32`; `none` is an `UnmarshalTypeError`. -/
def toUint32 (text : Bytes) : Option UInt32 :=
  match text with
  | [] => none
  | _ => match parseUintLoop text 0 with
    | .inr _ => none
    | .inl n => if n < 2 ^ 32 then some (UInt32.ofNat n) else none

end Json

end Bips
