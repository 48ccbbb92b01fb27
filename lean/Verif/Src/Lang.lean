import Verif.Src.Attr
import Verif.Src.Names
import Verif.Model.Util
import Verif.Model.Coin
import Verif.Model.Wordlists
import Verif.Model.Slip44
import Verif.Model.Slider

/-!
# The language of the translated functions

`tools/gen_src.py` reads the Go files and writes each function as a term of the types `Expr` and `Stmt` (Verif/Src/Code.lean). This module
says what such terms do: `run` is an interpreter. It knows the part of Go the repository uses, with its run-time checks:

* the integer types with their own arithmetic: `int` and `int64` wrap at 64 bits, the unsigned types are those of Lean; division by zero,
  indices out of range, slices with wrong bounds, conversions of short slices to arrays, and uses of nil pointers panic;
* `float32`, with a rounding after every operation; infinities make it stuck;
* variables, assignments, calls, `if`, `for`, `range`, `break`, `return`;
* functions of libraries, by the same definitions the model uses (`Verif/Go`, `Model/Secp`, `Model/Pbkdf2`, `Hashes`).

What the interpreter cannot do makes it `stuck`: a value of the wrong type, a slice beyond the length (Go would look at the capacity), a format it
does not know, a loop longer than the bound. The theorems say that none of this happens.

Values are copied. Sharing of memory between slices is the subject of `Model/Memory` (C72-C74). A method that changes what its pointer receiver
points to returns the receiver as first result; the caller puts it back.
-/

namespace Bips.Src

/-! ### Values -/

/-- The hash functions with a state. -/
inductive HashKind
  | hmacSha512 | ripemd160 | keccak256
  deriving DecidableEq

/-- Go values. `list` is used for slices of everything but bytes, for structs (their fields in order) and for several results;
`bytes` for slices and arrays of bytes and for `bytes.Buffer`; `big` for `big.Int` and pointers to it; `nil` for nil pointers;
a nil slice is the empty one. A regular expression is its text. A time is the number of nanoseconds since the zero time, a duration a number of
nanoseconds, both as `int`. -/
inductive Val
  | int (i : Int)
  | i64 (i : Int)
  | uint (n : UInt64)
  | u8 (n : UInt8)
  | u16 (n : UInt16)
  | u32 (n : UInt32)
  | u64 (n : UInt64)
  | bool (b : Bool)
  | str (s : Bytes)
  | bytes (b : Bytes)
  | big (n : Nat)
  | list (l : List Val)
  | err (e : Option Err)
  | vb (v : VersionBytes)
  | hash (k : HashKind) (key buf : Bytes)
  | f32 (q : ℚ)
  | f64 (q : ℚ)
  | nil

/-- Integer types, as targets of conversions. -/
inductive IT
  | int | i64 | uint | u8 | u16 | u32 | u64

/-- What running something gives. -/
inductive Res (α : Type)
  | ok (a : α)
  | panic
  | stuck

/-- One after the other. -/
def Res.bind {α β : Type} : Res α → (α → Res β) → Res β
  | .ok a, f => f a
  | .panic, _ => .panic
  | .stuck, _ => .stuck

/-- Operators. -/
inductive Op
  | add | sub | mul | div | mod | band | shl | eq | ne | lt | le | gt | ge

/-- Package variables, and parameters of the curve. -/
inductive Glob
  | english | wordList | curveN | curveP | curveB

/-- Operations: those of Go that are not operators, and functions of libraries. -/
inductive Lib
  -- built into Go
  | len | index | setIndex | slice | sliceFrom | append | snoc | copyInto | makeBytes | makeList | bytesOf | toArray | toStr | toBytes
  | conv (t : IT) | isNil | deref | field (i : Nat) | setField (i : Nat)
  | tableGet | tableSet | mapGet | wordMapGet | pvtFlagGet | pubFlagGet | pathTableGet
  | vbPath | vbPvtKeyFlag | vbPubKeyFlag
  -- math/big
  | bigNew | bigSetBytes | bigBytes | bigMul | bigOr | bigAnd | bigDiv | bigAdd | bigSub | bigMod | bigExp | bigModSqrt | bigBit | bigUint64
  | bigSign | bigCmp
  -- hash functions, curve, codes
  | hmacNew | hashWrite | hashSum | sha256 | dblSha256 | baseMult | curveAdd | pbkdf2 | randRead
  | hexEncode | hexDecode | b58Encode | b58Decode | getUint16 | getUint32 | putUint16 | putUint32 | bytesCompare
  -- strings, strconv, fmt, regexp
  | split | contains | replaceAll | join | repeatStr | fields | trimSpace | atoi | sprintf | errorf | regexMatch | regexReplaceAll
  | parseUint
  -- hash/crc32, embed, panic
  | crc32 | readFile | goPanic
  -- signs, floats, time
  | neg | toF32 | truncF | timeSub | seconds

/-- Expressions. `nilL` and `cons` make lists, in particular lists of arguments. -/
inductive Expr
  | var (i : Nat)
  | lit (v : Val)
  | glob (g : Glob)
  | not (a : Expr)
  | bin (op : Op) (a b : Expr)
  | and (a b : Expr)
  | or (a b : Expr)
  | nilL
  | cons (a b : Expr)
  | lib (f : Lib) (args : Expr)

/-- Statements. -/
inductive Stmt
  | skip
  | seq (a b : Stmt)
  | set (i : Nat) (x : Expr)
  | setTuple (is : List Nat) (x : Expr)
  | call (is : List (Option Nat)) (f : Fn) (args : Expr)
  | ite (c : Expr) (a b : Stmt)
  | range (k v : Option Nat) (x : Expr) (body : Stmt)
  | for_ (c : Expr) (post body : Stmt)
  | ret (x : Expr)
  | brk

@[inherit_doc] infixr:30 " ;; " => Stmt.seq

/-- A list of expressions as one expression. -/
syntax "⟪" term,* "⟫" : term

macro_rules
  | `(⟪⟫) => `(Expr.nilL)
  | `(⟪$x⟫) => `(Expr.cons $x Expr.nilL)
  | `(⟪$x, $xs,*⟫) => `(Expr.cons $x ⟪$xs,*⟫)

/-- What the functions find around them: hash functions, the registry of package bip32, the word list and map of package bip39, and what
`rand.Read` delivers. -/
structure World where
  H : Hashes
  R : Registry
  S : WordState
  read : Nat → Bytes

/-! ### Operators -/

/-- Values of type `int` (64 bits). -/
def wrapInt (i : Int) : Int := i.bmod (2 ^ 64)

/-- Arithmetic on `int`. -/
def intOp : Op → Int → Int → Res Val
  | .add, a, b => .ok (.int (wrapInt (a + b)))
  | .sub, a, b => .ok (.int (wrapInt (a - b)))
  | .mul, a, b => .ok (.int (wrapInt (a * b)))
  | .div, a, b => if b = 0 then .panic else .ok (.int (wrapInt (a.tdiv b)))
  | .mod, a, b => if b = 0 then .panic else .ok (.int (a.tmod b))
  | .eq, a, b => .ok (.bool (decide (a = b)))
  | .ne, a, b => .ok (.bool (decide (a ≠ b)))
  | .lt, a, b => .ok (.bool (decide (a < b)))
  | .le, a, b => .ok (.bool (decide (a ≤ b)))
  | .gt, a, b => .ok (.bool (decide (b < a)))
  | .ge, a, b => .ok (.bool (decide (b ≤ a)))
  | _, _, _ => .stuck

/-- Arithmetic on `uint32`. -/
def u32Op : Op → UInt32 → UInt32 → Res Val
  | .add, a, b => .ok (.u32 (a + b))
  | .sub, a, b => .ok (.u32 (a - b))
  | .mod, a, b => if b = 0 then .panic else .ok (.u32 (a % b))
  | .eq, a, b => .ok (.bool (decide (a = b)))
  | .ne, a, b => .ok (.bool (decide (a ≠ b)))
  | .lt, a, b => .ok (.bool (decide (a < b)))
  | .le, a, b => .ok (.bool (decide (a ≤ b)))
  | .gt, a, b => .ok (.bool (decide (b < a)))
  | .ge, a, b => .ok (.bool (decide (b ≤ a)))
  | _, _, _ => .stuck

/-- Arithmetic on `byte`. -/
def u8Op : Op → UInt8 → UInt8 → Res Val
  | .add, a, b => .ok (.u8 (a + b))
  | .sub, a, b => .ok (.u8 (a - b))
  | .band, a, b => .ok (.u8 (a &&& b))
  | .eq, a, b => .ok (.bool (decide (a = b)))
  | .ne, a, b => .ok (.bool (decide (a ≠ b)))
  | .lt, a, b => .ok (.bool (decide (a < b)))
  | .le, a, b => .ok (.bool (decide (a ≤ b)))
  | .gt, a, b => .ok (.bool (decide (b < a)))
  | .ge, a, b => .ok (.bool (decide (b ≤ a)))
  | _, _, _ => .stuck

/-- Arithmetic on `uint` and `uint64`; `c` is the constructor of the result. -/
def u64Op (c : UInt64 → Val) : Op → UInt64 → UInt64 → Res Val
  | .add, a, b => .ok (c (a + b))
  | .sub, a, b => .ok (c (a - b))
  | .eq, a, b => .ok (.bool (decide (a = b)))
  | .ne, a, b => .ok (.bool (decide (a ≠ b)))
  | .lt, a, b => .ok (.bool (decide (a < b)))
  | .le, a, b => .ok (.bool (decide (a ≤ b)))
  | .gt, a, b => .ok (.bool (decide (b < a)))
  | .ge, a, b => .ok (.bool (decide (b ≤ a)))
  | _, _, _ => .stuck

/-- Operators on strings. -/
def strOp : Op → Bytes → Bytes → Res Val
  | .add, a, b => .ok (.str (a ++ b))
  | .eq, a, b => .ok (.bool (decide (a = b)))
  | .ne, a, b => .ok (.bool (decide (a ≠ b)))
  | .lt, a, b => .ok (.bool (decide (a < b)))
  | _, _, _ => .stuck

/-- A number rounded to `float32`. -/
def f32Res (q : ℚ) : Res Val := if |fl32 q| < 2 ^ 128 then .ok (.f32 (fl32 q)) else .stuck

/-- Arithmetic on `float32`. -/
def f32Op : Op → ℚ → ℚ → Res Val
  | .add, a, b => f32Res (a + b)
  | .sub, a, b => f32Res (a - b)
  | .mul, a, b => f32Res (a * b)
  | .div, a, b => if b = 0 then .stuck else f32Res (a / b)
  | .eq, a, b => .ok (.bool (decide (a = b)))
  | .ne, a, b => .ok (.bool (decide (a ≠ b)))
  | .lt, a, b => .ok (.bool (decide (a < b)))
  | .le, a, b => .ok (.bool (decide (a ≤ b)))
  | .gt, a, b => .ok (.bool (decide (b < a)))
  | .ge, a, b => .ok (.bool (decide (b ≤ a)))
  | _, _, _ => .stuck

/-- Binary operators. Both operands have the same type, except for shifts. -/
def binOp (op : Op) : Val → Val → Res Val
  | .int a, .int b => intOp op a b
  | .u32 a, .u32 b => u32Op op a b
  | .u8 a, .u8 b => u8Op op a b
  | .uint a, .uint b => u64Op .uint op a b
  | .u64 a, .u64 b => u64Op .u64 op a b
  | .str a, .str b => strOp op a b
  | .f32 a, .f32 b => f32Op op a b
  | .u8 a, .uint k => match op with
    | .shl => .ok (.u8 (if k.toNat < 8 then a <<< UInt8.ofNat k.toNat else 0))
    | _ => .stuck
  | _, _ => .stuck

/-! ### Conversions, formats and patterns -/

/-- The number an integer value stands for. -/
def Val.toInt? : Val → Option Int
  | .int i => some i
  | .i64 i => some i
  | .uint n => some n.toNat
  | .u8 n => some n.toNat
  | .u16 n => some n.toNat
  | .u32 n => some n.toNat
  | .u64 n => some n.toNat
  | _ => none

/-- `T(i)` for an integer type `T`. -/
def convTo : IT → Int → Val
  | .int, i => .int (wrapInt i)
  | .i64, i => .i64 (wrapInt i)
  | .uint, i => .uint (UInt64.ofNat (i % 2 ^ 64).toNat)
  | .u8, i => .u8 (UInt8.ofNat (i % 2 ^ 8).toNat)
  | .u16, i => .u16 (UInt16.ofNat (i % 2 ^ 16).toNat)
  | .u32, i => .u32 (UInt32.ofNat (i % 2 ^ 32).toNat)
  | .u64, i => .u64 (UInt64.ofNat (i % 2 ^ 64).toNat)

/-- `fmt.Sprintf` with the verbs `%s`, `%d` and `%x`. -/
def sprintf : Bytes → List Val → Option Bytes
  | [], [] => some []
  | [], _ :: _ => none
  | 37 :: 115 :: f, .str s :: vs => (sprintf f vs).map (s ++ ·)
  | 37 :: 100 :: f, .u32 n :: vs => (sprintf f vs).map (decimal n.toNat ++ ·)
  | 37 :: 120 :: f, .u32 n :: vs => (sprintf f vs).map (hexNumber n.toNat ++ ·)
  | 37 :: 120 :: f, .bytes b :: vs => (sprintf f vs).map (hexEncode b ++ ·)
  | 37 :: _, _ => none
  | c :: f, vs => (sprintf f vs).map (c :: ·)

/-- The loop of `strconv.ParseUint(s, 10, 32)`. An error comes with a value: the largest number if the number is too large, otherwise 0. -/
def parseUintLoop : Bytes → Nat → Nat × Option Err
  | [], n => (n, none)
  | c :: r, n =>
    if !isDigit c then (0, some .atoiSyntax)
    else if 2 ^ 32 ≤ n * 10 + (c.toNat - 48) then (2 ^ 32 - 1, some .atoiRange)
    else parseUintLoop r (n * 10 + (c.toNat - 48))

/-- `strconv.ParseUint(s, 10, 32)`. -/
def parseUint (s : Bytes) : Nat × Option Err := if s = [] then (0, some .atoiSyntax) else parseUintLoop s 0

/-- A part of a pattern being read: what is complete, and the last atom, to which a repetition would apply. -/
abbrev ReFrame := Option (RegularExpression UInt8) × Option (RegularExpression UInt8)

/-- The expression a part stands for. -/
def ReFrame.whole : ReFrame → RegularExpression UInt8
  | (none, none) => 1
  | (none, some a) => a
  | (some s, none) => s
  | (some s, some a) => s * a

/-- One more atom. -/
def ReFrame.add (f : ReFrame) (a : RegularExpression UInt8) : ReFrame :=
  match f with
  | (none, none) => (none, some a)
  | f => (some f.whole, some a)

/-- A pattern behind its `^`, up to the `$` at its end: single characters, `\d`, `[…]`, `(…)`, and the repetitions `*`, `+`, `?`, `{0,n}` for one
digit `n`. The first argument holds the groups that are open, the innermost first; the second is the class being read, if any. -/
def parseRe : List ReFrame → Option Bytes → Bytes → Option (RegularExpression UInt8)
  | f :: fs, some cs, 93 :: r => parseRe (f.add (reAny cs) :: fs) none r
  | f :: fs, some cs, c :: r => parseRe (f :: fs) (some (cs ++ [c])) r
  | [f], none, [36] => some f.whole
  | f :: fs, none, 91 :: r => parseRe (f :: fs) (some []) r
  | f :: fs, none, 40 :: r => parseRe ((none, none) :: f :: fs) none r
  | f :: g :: fs, none, 41 :: r => parseRe (g.add f.whole :: fs) none r
  | (s, some a) :: fs, none, 42 :: r => parseRe ((s, some a.star) :: fs) none r
  | (s, some a) :: fs, none, 43 :: r => parseRe ((s, some (rePlus a)) :: fs) none r
  | (s, some a) :: fs, none, 63 :: r => parseRe ((s, some (reOpt a)) :: fs) none r
  | (s, some a) :: fs, none, 123 :: 48 :: 44 :: d :: 125 :: r =>
    if isDigit d then parseRe ((s, some (reOpt a ^ (d.toNat - 48))) :: fs) none r else none
  | f :: fs, none, 92 :: 100 :: r => parseRe (f.add reDigit :: fs) none r
  | f :: fs, none, c :: r => if c ∈ str ".*+?()|[]{}^$\\" then none else parseRe (f.add (RegularExpression.char c) :: fs) none r
  | _, _, _ => none

/-- `regexp.MustCompile` for patterns between `^` and `$`. -/
def patternOf : Bytes → Option (RegularExpression UInt8)
  | 94 :: r => parseRe [(none, none)] none r
  | _ => none

/-! ### Operations -/

/-- The elements of a slice or array. -/
def Val.items : Val → Res (List Val)
  | .bytes b => .ok (b.map .u8)
  | .list l => .ok l
  | .nil => .panic
  | _ => .stuck

/-- `x[i]`. -/
def indexSem (x : Val) (i : Int) : Res Val :=
  match x with
  | .bytes b => if i < 0 then .panic else match b[i.toNat]? with
    | some c => .ok (.u8 c)
    | none => .panic
  | .list l => if i < 0 then .panic else match l[i.toNat]? with
    | some v => .ok v
    | none => .panic
  | .nil => .panic
  | _ => .stuck

/-- `x[i] = v`. -/
def setIndexSem (x : Val) (i : Int) (v : Val) : Res Val :=
  match x, v with
  | .bytes b, .u8 c => if 0 ≤ i ∧ i < b.length then .ok (.bytes (b.set i.toNat c)) else .panic
  | .list l, v => if 0 ≤ i ∧ i < l.length then .ok (.list (l.set i.toNat v)) else .panic
  | .nil, _ => .panic
  | _, _ => .stuck

/-- `x[lo:hi]`. Beyond the length the capacity would matter, which is not known here. -/
def sliceSem (x : Val) (lo hi : Int) : Res Val :=
  match x with
  | .bytes b => if lo < 0 ∨ hi < lo then .panic else if b.length < hi then .stuck else .ok (.bytes (slice b lo.toNat hi.toNat))
  | .list l => if lo < 0 ∨ hi < lo then .panic else if l.length < hi then .stuck else .ok (.list ((l.take hi.toNat).drop lo.toNat))
  | .nil => .panic
  | _ => .stuck

/-- `x[lo:]`. -/
def sliceFromSem (x : Val) (lo : Int) : Res Val :=
  match x with
  | .bytes b => if lo < 0 ∨ b.length < lo then .panic else .ok (.bytes (b.drop lo.toNat))
  | .list l => if lo < 0 ∨ l.length < lo then .panic else .ok (.list (l.drop lo.toNat))
  | .nil => .panic
  | _ => .stuck

/-- `len(x)`. -/
def lenSem : Val → Res Val
  | .bytes b => .ok (.int b.length)
  | .list l => .ok (.int l.length)
  | .str s => .ok (.int s.length)
  | _ => .stuck

/-- `copy(x[lo:hi], src)`: `x` afterwards. -/
def copyIntoSem (x : Val) (lo hi : Int) (src : Bytes) : Res Val :=
  match x with
  | .bytes b => if lo < 0 ∨ hi < lo then .panic else if b.length < hi then .stuck else .ok (.bytes (copyAt b lo.toNat hi.toNat src))
  | .nil => .panic
  | _ => .stuck

/-- The strings in a list. -/
def strings : List Val → Option (List Bytes)
  | [] => some []
  | .str s :: l => (strings l).map (s :: ·)
  | _ :: _ => none

/-- The bytes in a list. -/
def bytesIn : List Val → Option Bytes
  | [] => some []
  | .u8 c :: l => (bytesIn l).map (c :: ·)
  | _ :: _ => none

/-- `m[k]` for a map from `int` written as a list of pairs; the zero value is the nil pointer. -/
def mapGetSem : List Val → Int → Res Val
  | [], _ => .ok .nil
  | .list [.int a, v] :: l, k => if a = k then .ok v else mapGetSem l k
  | _ :: _, _ => .stuck

/-- Are two keys of a map the same? -/
def sameKey : Val → Val → Bool
  | .str a, .str b => a == b
  | .u32 a, .u32 b => a == b
  | _, _ => false

/-- The value of a key in a map, written as a list of pairs. -/
def tableGet : List Val → Val → Option Val
  | [], _ => none
  | .list [a, v] :: l, k => if sameKey a k then some v else tableGet l k
  | _ :: l, k => tableGet l k

/-- `m[k] = v` for a map written as a list of pairs. -/
def tableSet : List Val → Val → Val → List Val
  | [], k, v => [.list [k, v]]
  | .list [a, w] :: l, k, v => if sameKey a k then .list [a, v] :: l else .list [a, w] :: tableSet l k v
  | x :: l, k, v => x :: tableSet l k v

/-- A `big.Int` operation on two numbers; nil pointers panic. -/
def big2 (f : Nat → Nat → Res Val) : Val → Val → Res Val
  | .big a, .big b => f a b
  | .nil, .big _ | .big _, .nil | .nil, .nil => .panic
  | _, _ => .stuck

/-- A value that is there, or stuck. -/
def orStuck (f : Bytes → Val) : Option Bytes → Res Val
  | some b => .ok (f b)
  | none => .stuck

/-- `h.Sum(nil)`. -/
def hashSumSem (H : Hashes) : HashKind → Bytes → Bytes → Bytes
  | .hmacSha512, key, buf => H.hmacSha512 key buf
  | .ripemd160, _, buf => H.ripemd160 buf
  | .keccak256, _, buf => H.keccak256 buf

/-- Three-way comparisons. -/
def ordInt : Ordering → Int
  | .lt => -1
  | .eq => 0
  | .gt => 1

/-- A lookup in the registry: the slice, and whether the key is there. A key that is there has a non-empty slice (`init` only appends). -/
def regGet (l : List VersionBytes) : Val := .list [.list (l.map .vb), .bool (!l.isEmpty)]

/-- What an operation gives for its arguments. -/
def libSem (W : World) : Lib → List Val → Res Val
  | .len, [x] => lenSem x
  | .index, [x, i] => match i.toInt? with
    | some i => indexSem x i
    | none => .stuck
  | .setIndex, [x, i, v] => match i.toInt? with
    | some i => setIndexSem x i v
    | none => .stuck
  | .slice, [x, .int lo, .int hi] => sliceSem x lo hi
  | .sliceFrom, [x, .int lo] => sliceFromSem x lo
  | .append, [.bytes a, .bytes b] => .ok (.bytes (a ++ b))
  | .append, [.list a, .list b] => .ok (.list (a ++ b))
  | .snoc, [.bytes a, .u8 c] => .ok (.bytes (a ++ [c]))
  | .snoc, [.list a, v] => .ok (.list (a ++ [v]))
  | .copyInto, [x, .int lo, .int hi, .bytes src] => copyIntoSem x lo hi src
  | .makeBytes, [.int n] => if n < 0 then .panic else .ok (.bytes (List.replicate n.toNat 0))
  | .makeList, [z, .int n] => if n < 0 then .panic else .ok (.list (List.replicate n.toNat z))
  | .bytesOf, l => orStuck .bytes (bytesIn l)
  | .toArray, [.int n, .bytes b] => if b.length < n then .panic else .ok (.bytes (b.take n.toNat))
  | .toStr, [.bytes b] => .ok (.str b)
  | .toBytes, [.str s] => .ok (.bytes s)
  | .conv t, [x] => match x.toInt? with
    | some i => .ok (convTo t i)
    | none => .stuck
  | .isNil, [.err e] => .ok (.bool e.isNone)
  | .isNil, [.nil] => .ok (.bool true)
  | .isNil, [.int _] => .ok (.bool false) -- an address
  | .deref, [.nil] => .panic
  | .deref, [v] => .ok v
  | .field i, [.list l] => match l[i]? with
    | some v => .ok v
    | none => .stuck
  | .setField i, [.list l, v] => if i < l.length then .ok (.list (l.set i v)) else .stuck
  | .tableGet, [.list l, k, z] => match tableGet l k with
    | some v => .ok (.list [v, .bool true])
    | none => .ok (.list [z, .bool false])
  | .tableSet, [.list l, k, v] => .ok (.list (tableSet l k v))
  | .mapGet, [.list l, .int k] => mapGetSem l k
  | .wordMapGet, [.str w] => match W.S.map w with
    | some i => .ok (.list [.int i, .bool true])
    | none => .ok (.list [.int 0, .bool false])
  | .pvtFlagGet, [.u32 v] => .ok (regGet (W.R.pvtFlag v))
  | .pubFlagGet, [.u32 v] => .ok (regGet (W.R.pubFlag v))
  | .pathTableGet, [.str p] => match pathTable.find? (fun e => e.1 == p) with
    | some e => .ok (.list [.list (e.2.map .vb), .bool true])
    | none => .ok (.list [.list [], .bool false])
  | .vbPath, [.vb v] => .ok (.str v.path)
  | .vbPvtKeyFlag, [.vb v] => .ok (.u32 v.pvtKeyFlag)
  | .vbPubKeyFlag, [.vb v] => .ok (.u32 v.pubKeyFlag)
  | .bigNew, [.i64 i] => if i < 0 then .stuck else .ok (.big i.toNat)
  | .bigSetBytes, [.bytes b] => .ok (.big (setBytes b))
  | .bigBytes, [.big n] => .ok (.bytes (bigBytes n))
  | .bigMul, [a, b] => big2 (fun a b => .ok (.big (a * b))) a b
  | .bigOr, [a, b] => big2 (fun a b => .ok (.big (a ||| b))) a b
  | .bigAnd, [a, b] => big2 (fun a b => .ok (.big (a &&& b))) a b
  | .bigDiv, [a, b] => big2 (fun a b => if b = 0 then .panic else .ok (.big (a / b))) a b
  | .bigAdd, [a, b] => big2 (fun a b => .ok (.big (a + b))) a b
  | .bigSub, [a, b] => big2 (fun a b => if a < b then .stuck else .ok (.big (a - b))) a b
  | .bigMod, [a, b] => big2 (fun a b => if b = 0 then .panic else .ok (.big (a % b))) a b
  | .bigExp, [a, b] => big2 (fun a b => .ok (.big (a ^ b))) a b
  | .bigModSqrt, [.big y, .big a, .big p] =>
    if p = secpP then
      if a % secpP ≠ 0 ∧ powMod secpP (a % secpP) ((secpP - 1) / 2) ≠ 1 then .ok (.big y) else .ok (.big (modSqrt a))
    else .stuck
  | .bigBit, [.big n, .int i] => if i < 0 then .panic else .ok (.uint (UInt64.ofNat (n / 2 ^ i.toNat % 2)))
  | .bigUint64, [.big n] => .ok (.u64 (UInt64.ofNat n))
  | .bigSign, [.big n] => .ok (.int (if n = 0 then 0 else 1))
  | .bigCmp, [a, b] => big2 (fun a b => .ok (.int (ordInt (compare a b)))) a b
  | .hmacNew, [.bytes k] => .ok (.hash .hmacSha512 k [])
  | .hashWrite, [.hash k key buf, .bytes b] => .ok (.hash k key (buf ++ b))
  | .hashSum, [.hash k key buf] => .ok (.bytes (hashSumSem W.H k key buf))
  | .sha256, [.bytes b] => .ok (.bytes (W.H.sha256 b))
  | .dblSha256, [.bytes b] => .ok (.bytes (W.H.sha256 (W.H.sha256 b)))
  | .baseMult, [.bytes k] => .ok (.list [.big (scalarBaseMult k).1, .big (scalarBaseMult k).2])
  | .curveAdd, [.big a, .big b, .big c, .big d] =>
    if 256 ^ 32 ≤ a ∨ 256 ^ 32 ≤ b ∨ 256 ^ 32 ≤ c ∨ 256 ^ 32 ≤ d then .stuck else .ok (.list [.big (curveAdd (a, b) (c, d)).1, .big (curveAdd (a, b) (c, d)).2])
  | .pbkdf2, [.bytes pw, .bytes salt, .int iter, .int len] =>
    .ok (.bytes (pbkdf2Key (W.H.hmacSha512 pw) 64 salt iter.toNat len.toNat))
  | .randRead, [.bytes b] => .ok (.bytes (W.read b.length))
  | .hexEncode, [.bytes b] => .ok (.str (hexEncode b))
  | .hexDecode, [.str s] => match Bips.hexDecode s with
    | some b => .ok (.list [.bytes b, .err none])
    | none => .ok (.list [.bytes [], .err (some .hexDecode)])
  | .b58Encode, [.bytes b] => .ok (.str (b58Encode b))
  | .b58Decode, [.str s] => .ok (.bytes (b58Decode s))
  | .getUint16, [.bytes b] => if b.length < 2 then .panic else .ok (.u16 (UInt16.ofNat (setBytes (b.take 2))))
  | .getUint32, [.bytes b] => if b.length < 4 then .panic else .ok (.u32 (getUint32 (b.take 4)))
  | .putUint16, [.bytes b, .u16 v] => if b.length < 2 then .panic else .ok (.bytes (beBytes 2 v.toNat ++ b.drop 2))
  | .putUint32, [.bytes b, .u32 v] => if b.length < 4 then .panic else .ok (.bytes (putUint32 v ++ b.drop 4))
  | .bytesCompare, [.bytes a, .bytes b] => .ok (.int (ordInt (bytesCompare a b)))
  | .split, [.str s, .str [c]] => .ok (.list ((splitByte c s).map .str))
  | .split, [.str s, .str [c, d]] => if c = d then .stuck else .ok (.list ((splitTwo c d s).map .str))
  | .contains, [.str s, .str [c]] => .ok (.bool (s.contains c))
  | .contains, [.str s, .str (c :: d :: t)] => .ok (.bool (containsText s (c :: d :: t)))
  | .replaceAll, [.str s, .str [c], .str []] => .ok (.str (removeByte c s))
  | .join, [.list l, .str [c]] => orStuck .str ((strings l).map (joinByte c))
  | .repeatStr, [.str s, .int n] => if n < 0 then .panic else .ok (.str (List.replicate n.toNat s).flatten)
  | .fields, [.str s] => .ok (.list ((fields s).map .str))
  | .trimSpace, [.str s] => .ok (.str (trimSpace s))
  | .atoi, [.str s] => .ok (.list [.int (atoi s).1, .err (atoi s).2])
  | .sprintf, .str f :: vs => orStuck .str (sprintf f vs)
  | .errorf, [.str f, .str w] => if f = str "word `%v` not found in reverse map" then .ok (.err (some (.unknownWord w))) else .stuck
  | .regexMatch, [.str p, .str s] => match patternOf p with
    | some r => .ok (.bool (r.rmatch s))
    | none => .stuck
  | .regexReplaceAll, [.str p, .str s, .str []] =>
    if p = str "\\s" then .ok (.str (s.filter fun c => !isReSpace c)) else .stuck
  | .parseUint, [.str s, .int 10, .int 32] => .ok (.list [.u64 (UInt64.ofNat (parseUint s).1), .err (parseUint s).2])
  | .crc32, [.bytes b] => .ok (.u32 (UInt32.ofNat (checksumIEEE b)))
  | .readFile, [.bytes b, .str n] => if n = str "slip-0044.md" then .ok (.list [.bytes b, .err none]) else .stuck
  | .goPanic, _ => .panic
  | .neg, [.int i] => .ok (.int (wrapInt (-i)))
  | .neg, [.f32 q] => .ok (.f32 (-q))
  | .toF32, [.int i] => f32Res i
  | .toF32, [.f64 q] => f32Res q
  | .truncF, [.f32 q] => if -2 ^ 63 ≤ q ∧ q < 2 ^ 63 then .ok (.int (Ui.truncate q)) else .stuck
  | .timeSub, [.int a, .int b] => .ok (.int (Ui.timeSub a b))
  | .seconds, [.int d] => .ok (.f64 (Ui.seconds d))
  | _, _ => .stuck

/-- Package variables. -/
def globSem (W : World) : Glob → Val
  | .english => .list (english.list.map .str)
  | .wordList => .list (W.S.list.map .str)
  | .curveN => .big secpN
  | .curveP => .big secpP
  | .curveB => .big secpB

/-! ### Programs -/

/-- The variables of a function. -/
abbrev Env := List Val

/-- A condition. -/
def asBool : Val → Res Bool
  | .bool b => .ok b
  | _ => .stuck

/-- A list. -/
def asList : Val → Res (List Val)
  | .list l => .ok l
  | _ => .stuck

/-- The value of an expression. -/
def eval (W : World) : Expr → Env → Res Val
  | .var i, e => match e[i]? with
    | some v => .ok v
    | none => .stuck
  | .lit v, _ => .ok v
  | .glob g, _ => .ok (globSem W g)
  | .not a, e => (eval W a e).bind fun v => (asBool v).bind fun b => .ok (.bool (!b))
  | .bin op a b, e => (eval W a e).bind fun v => (eval W b e).bind fun w => binOp op v w
  | .and a b, e => (eval W a e).bind fun v => (asBool v).bind fun c => if c then eval W b e else .ok (.bool false)
  | .or a b, e => (eval W a e).bind fun v => (asBool v).bind fun c => if c then .ok (.bool true) else eval W b e
  | .nilL, _ => .ok (.list [])
  | .cons a b, e => (eval W a e).bind fun v => (eval W b e).bind fun w => (asList w).bind fun l => .ok (.list (v :: l))
  | .lib f a, e => (eval W a e).bind fun v => (asList v).bind fun l => libSem W f l

/-- How a statement ends. -/
inductive Flow
  | next (e : Env)
  | ret (vs : List Val)
  | brk (e : Env)

/-- Assignment to a variable, if there is one. -/
def setOpt (e : Env) : Option Nat → Val → Env
  | some i, v => e.set i v
  | none, _ => e

/-- Assignment of several results. -/
def setAll (e : Env) : List (Option Nat) → List Val → Res Env
  | [], [] => .ok e
  | i :: is, v :: vs => setAll (setOpt e i v) is vs
  | _, _ => .stuck

/-- What follows a statement, if it ends normally. -/
def Flow.andThen (f : Flow) (g : Env → Res Flow) : Res Flow :=
  match f with
  | .next e => g e
  | .ret vs => .ok (.ret vs)
  | .brk e => .ok (.brk e)

/-- What a loop does after a run of its body. -/
def Flow.again (f : Flow) (g : Env → Res Flow) : Res Flow :=
  match f with
  | .next e => g e
  | .ret vs => .ok (.ret vs)
  | .brk e => .ok (.next e)

/-- `for k, v := range items`, from index `i` on. -/
def iter (body : Env → Res Flow) (k v : Option Nat) : Int → List Val → Env → Res Flow
  | _, [], e => .ok (.next e)
  | i, x :: xs, e => (body (setOpt (setOpt e k (.int i)) v x)).bind fun f => f.again (iter body k v (i + 1) xs)

/-- `for ; cond; post`, at most `n` times. -/
def loop (cond : Env → Res Bool) (post body : Env → Res Flow) : Nat → Env → Res Flow
  | 0, _ => .stuck
  | n + 1, e => (cond e).bind fun b =>
    if b then (body e).bind fun f => f.again fun e => (post e).bind fun f => f.andThen (loop cond post body n)
    else .ok (.next e)

/-- Runs a statement; `call` says what calls give, `L` bounds the rounds of loops. -/
def exec (W : World) (L : Nat) (call : Fn → List Val → Res (List Val)) : Stmt → Env → Res Flow
  | .skip, e => .ok (.next e)
  | .seq a b, e => (exec W L call a e).bind fun f => f.andThen (exec W L call b)
  | .set i x, e => (eval W x e).bind fun v => .ok (.next (e.set i v))
  | .setTuple is x, e => (eval W x e).bind fun v => (asList v).bind fun vs => (setAll e (is.map some) vs).bind fun e => .ok (.next e)
  | .call is f x, e => (eval W x e).bind fun v => (asList v).bind fun vs => (call f vs).bind fun rs =>
    (setAll e is rs).bind fun e => .ok (.next e)
  | .ite c a b, e => (eval W c e).bind fun v => (asBool v).bind fun t => if t then exec W L call a e else exec W L call b e
  | .range k v x body, e => (eval W x e).bind fun l => l.items.bind fun items => iter (exec W L call body) k v 0 items e
  | .for_ c post body, e => loop (fun e => (eval W c e).bind asBool) (exec W L call post) (exec W L call body) L e
  | .ret x, e => (eval W x e).bind fun v => (asList v).bind fun vs => .ok (.ret vs)
  | .brk, e => .ok (.brk e)

end Bips.Src
