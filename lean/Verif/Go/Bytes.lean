import Verif.Go.Digits

/-!
# Go byte slices, `math/big` byte conversions, `encoding/binary`, `encoding/hex`

Go `[]byte` and `string` are lists of bytes.  Slices are immutable values here; `Verif/Model/Memory.lean` and
`Verif/Model/WordAlias.lean` model the memory behind them, and C72-C74 prove that the two levels agree.
-/

namespace Bips

/-- Go `[]byte` / `string`. -/
abbrev Bytes := List UInt8

/-- The bytes of a Go string literal (UTF-8). -/
def str (s : String) : Bytes := s.toUTF8.data.toList

/-- `b[i:j]` for `i ≤ j ≤ len(b)`. -/
def slice (b : Bytes) (i j : Nat) : Bytes := (b.take j).drop i

/-- `copy(b[i:j], src)`: overwrites `min (j-i) (len src)` bytes of `b` starting at `i`. -/
def copyAt (b : Bytes) (i j : Nat) (src : Bytes) : Bytes :=
  b.take i ++ src.take (j - i) ++ b.drop (i + min (j - i) src.length)

/-- `new(big.Int).SetBytes(b)`: big-endian value. -/
def setBytes (b : Bytes) : Nat := ofDigitsBE 256 (b.map UInt8.toNat)

/-- `x.Bytes()` for `x ≥ 0`: big-endian bytes without leading zeros. -/
def bigBytes (n : Nat) : Bytes := (toDigitsBE 256 n).map UInt8.ofNat

/-- Left-pad with zero bytes to length `k` (no effect on longer inputs). -/
def padLeft (k : Nat) (b : Bytes) : Bytes := List.replicate (k - b.length) 0 ++ b

/-- Fixed-width big-endian encoding of `n mod 256^k`. -/
def beBytes : Nat → Nat → Bytes
  | 0, _ => []
  | k + 1, n => beBytes k (n / 256) ++ [UInt8.ofNat (n % 256)]

/-- `bytes.Compare`. -/
def bytesCompare : Bytes → Bytes → Ordering
  | [], [] => .eq
  | [], _ :: _ => .lt
  | _ :: _, [] => .gt
  | a :: as, b :: bs =>
    if a.toNat < b.toNat then .lt else if b.toNat < a.toNat then .gt else bytesCompare as bs

/-- `binary.BigEndian.PutUint32` on a 4-byte buffer. -/
def putUint32 (v : UInt32) : Bytes := beBytes 4 v.toNat

/-- `binary.BigEndian.Uint32` of a 4-byte slice. -/
def getUint32 (b : Bytes) : UInt32 := UInt32.ofNat (setBytes b)

/-! ## `encoding/hex` -/

/-- Lower-case hex digit of `n < 16` (`hextable` of encoding/hex). -/
def hexDigit (n : Nat) : UInt8 := if n < 10 then UInt8.ofNat (48 + n) else UInt8.ofNat (87 + n)

/-- `hex.EncodeToString`. -/
def hexEncode (b : Bytes) : Bytes := b.flatMap fun x => [hexDigit (x.toNat / 16), hexDigit (x.toNat % 16)]

/-- `fromHexChar` of encoding/hex: accepts both cases. -/
def fromHexChar (c : UInt8) : Option Nat :=
  let n := c.toNat
  if 48 ≤ n ∧ n ≤ 57 then some (n - 48)
  else if 97 ≤ n ∧ n ≤ 102 then some (n - 87)
  else if 65 ≤ n ∧ n ≤ 70 then some (n - 55)
  else none

/-- `hex.DecodeString`; `none` is any error (odd length or invalid byte). The partial output that Go
returns beside the error is not modelled; no caller uses it. -/
def hexDecode : Bytes → Option Bytes
  | [] => some []
  | [_] => none
  | a :: b :: rest =>
    match fromHexChar a, fromHexChar b, hexDecode rest with
    | some x, some y, some r => some (UInt8.ofNat (x * 16 + y) :: r)
    | _, _, _ => none

/-! ## Lemmas -/

theorem ofNat_toNat (x : UInt8) : UInt8.ofNat x.toNat = x := by simp

theorem toNat_ofNat_lt {n : Nat} (h : n < 256) : (UInt8.ofNat n).toNat = n := by
  simp [UInt8.toNat_ofNat']; omega

theorem mapToNat_lt (b : Bytes) : ∀ d ∈ b.map UInt8.toNat, d < 256 := by
  intro d hd
  obtain ⟨x, -, rfl⟩ := List.mem_map.1 hd
  exact x.toNat_lt

theorem map_ofNat_toNat (b : Bytes) : (b.map UInt8.toNat).map UInt8.ofNat = b := by
  induction b <;> simp_all

theorem map_toNat_ofNat (l : List Nat) (h : ∀ d ∈ l, d < 256) :
    (l.map UInt8.ofNat).map UInt8.toNat = l := by
  induction l with
  | nil => rfl
  | cons a l ih =>
    simp only [List.map_cons]
    rw [ih (fun d hd => h d (by simp [hd])), toNat_ofNat_lt (h a (by simp))]

theorem toNat_injective : Function.Injective UInt8.toNat := fun _ _ h => UInt8.toNat_inj.1 h

@[simp] theorem setBytes_nil : setBytes [] = 0 := rfl

theorem setBytes_append (a b : Bytes) : setBytes (a ++ b) = setBytes a * 256 ^ b.length + setBytes b := by
  simp [setBytes, ofDigitsBE_append]

theorem setBytes_cons (x : UInt8) (b : Bytes) : setBytes (x :: b) = x.toNat * 256 ^ b.length + setBytes b := by
  simp [setBytes, ofDigitsBE_cons]

theorem setBytes_concat (b : Bytes) (x : UInt8) : setBytes (b ++ [x]) = setBytes b * 256 + x.toNat := by
  simp [setBytes, ofDigitsBE_concat]

theorem setBytes_lt (b : Bytes) : setBytes b < 256 ^ b.length := by
  have := ofDigitsBE_lt 256 (b.map UInt8.toNat) (mapToNat_lt b)
  simpa [setBytes] using this

theorem setBytes_bigBytes (n : Nat) : setBytes (bigBytes n) = n := by
  unfold setBytes bigBytes
  rw [map_toNat_ofNat _ (toDigitsBE_lt 256 (by omega) n), ofDigitsBE_toDigitsBE 256 (by omega)]

theorem setBytes_inj {a b : Bytes} (hl : a.length = b.length) (h : setBytes a = setBytes b) : a = b := by
  have := ofDigitsBE_inj 256 _ _ (by simpa using hl) (mapToNat_lt a) (mapToNat_lt b) h
  have h2 := congrArg (List.map UInt8.ofNat) this
  rwa [map_ofNat_toNat, map_ofNat_toNat] at h2

theorem bigBytes_setBytes (b : Bytes) : bigBytes (setBytes b) = b.dropWhile (· == 0) := by
  unfold bigBytes setBytes
  rw [toDigitsBE_ofDigitsBE 256 (by omega) _ (mapToNat_lt b)]
  induction b with
  | nil => rfl
  | cons a b ih =>
    simp only [List.map_cons, List.dropWhile_cons]
    by_cases h : a = 0
    · subst h; simpa using ih
    · have : a.toNat ≠ 0 := fun h' => h (UInt8.toNat_inj.1 (by simpa using h'))
      have e := map_ofNat_toNat b
      rw [List.map_map] at e
      simp [h, this, e]

theorem bigBytes_length_le {n k : Nat} (h : n < 256 ^ k) : (bigBytes n).length ≤ k := by
  simpa [bigBytes] using toDigitsBE_length_le 256 (by omega) n k h

theorem bigBytes_length_gt {n k : Nat} (h : 256 ^ k ≤ n) : k < (bigBytes n).length := by
  simpa [bigBytes] using toDigitsBE_length_ge 256 (by omega) n k h

@[simp] theorem bigBytes_zero : bigBytes 0 = [] := by simp [bigBytes]

theorem setBytes_replicate_zero (k : Nat) : setBytes (List.replicate k 0) = 0 := by
  induction k with
  | zero => rfl
  | succ k ih => rw [List.replicate_succ, setBytes_cons, ih]; simp

theorem setBytes_padLeft (k : Nat) (b : Bytes) : setBytes (padLeft k b) = setBytes b := by
  rw [padLeft, setBytes_append, setBytes_replicate_zero]; simp

theorem padLeft_length (k : Nat) (b : Bytes) (h : b.length ≤ k) : (padLeft k b).length = k := by
  simp [padLeft]; omega

@[simp] theorem beBytes_length (k n : Nat) : (beBytes k n).length = k := by
  induction k generalizing n with
  | zero => rfl
  | succ k ih => simp [beBytes, ih]

theorem setBytes_beBytes (k n : Nat) : setBytes (beBytes k n) = n % 256 ^ k := by
  induction k generalizing n with
  | zero => simp [beBytes, Nat.mod_one]
  | succ k ih =>
    rw [beBytes, setBytes_concat, ih, toNat_ofNat_lt (Nat.mod_lt _ (by omega)), pow_succ']
    rw [Nat.mod_mul]; ring

theorem padLeft_bigBytes {n k : Nat} (h : n < 256 ^ k) : padLeft k (bigBytes n) = beBytes k n := by
  apply setBytes_inj
  · rw [padLeft_length _ _ (bigBytes_length_le h), beBytes_length]
  · rw [setBytes_padLeft, setBytes_bigBytes, setBytes_beBytes, Nat.mod_eq_of_lt h]

theorem beBytes_setBytes (b : Bytes) : beBytes b.length (setBytes b) = b := by
  apply setBytes_inj (by simp)
  rw [setBytes_beBytes, Nat.mod_eq_of_lt (setBytes_lt b)]

theorem padLeft_bigBytes_setBytes (b : Bytes) : padLeft b.length (bigBytes (setBytes b)) = b := by
  rw [padLeft_bigBytes (setBytes_lt b), beBytes_setBytes]

theorem bytesCompare_eq (a b : Bytes) (h : a.length = b.length) :
    bytesCompare a b = compare (setBytes a) (setBytes b) := by
  induction a generalizing b with
  | nil =>
    obtain rfl : b = [] := by simpa using h.symm
    rfl
  | cons x a ih =>
    cases b with
    | nil => simp at h
    | cons y b =>
      simp only [List.length_cons, Nat.add_right_cancel_iff] at h
      have ha := setBytes_lt a
      have hb := setBytes_lt b
      rw [h] at ha
      rw [bytesCompare, setBytes_cons, setBytes_cons, h, ih b h]
      split
      · rename_i hlt
        symm; rw [Nat.compare_eq_lt]
        calc x.toNat * 256 ^ b.length + setBytes a < x.toNat * 256 ^ b.length + 256 ^ b.length := by omega
          _ = (x.toNat + 1) * 256 ^ b.length := by ring
          _ ≤ y.toNat * 256 ^ b.length := Nat.mul_le_mul_right _ hlt
          _ ≤ _ := by omega
      · split
        · rename_i hlt
          symm; rw [Nat.compare_eq_gt]
          calc y.toNat * 256 ^ b.length + setBytes b < y.toNat * 256 ^ b.length + 256 ^ b.length := by omega
            _ = (y.toNat + 1) * 256 ^ b.length := by ring
            _ ≤ x.toNat * 256 ^ b.length := Nat.mul_le_mul_right _ hlt
            _ ≤ _ := by omega
        · have : x.toNat = y.toNat := by omega
          rw [this]
          rcases Nat.lt_trichotomy (setBytes a) (setBytes b) with hc | hc | hc
          · rw [Nat.compare_eq_lt.2 hc, Nat.compare_eq_lt.2 (by omega)]
          · rw [Nat.compare_eq_eq.2 hc, Nat.compare_eq_eq.2 (by omega)]
          · rw [Nat.compare_eq_gt.2 hc, Nat.compare_eq_gt.2 (by omega)]

@[simp] theorem putUint32_length (v : UInt32) : (putUint32 v).length = 4 := by simp [putUint32]

theorem getUint32_putUint32 (v : UInt32) : getUint32 (putUint32 v) = v := by
  unfold getUint32 putUint32
  rw [setBytes_beBytes, Nat.mod_eq_of_lt (by have := v.toNat_lt; omega)]
  simp

theorem putUint32_getUint32 (b : Bytes) (h : b.length = 4) : putUint32 (getUint32 b) = b := by
  unfold getUint32 putUint32
  have h1 := setBytes_lt b
  rw [h] at h1
  rw [UInt32.toNat_ofNat', Nat.mod_eq_of_lt (by omega)]
  rw [← h, beBytes_setBytes]

theorem putUint32_injective : Function.Injective putUint32 := fun a b h => by
  rw [← getUint32_putUint32 a, h, getUint32_putUint32]

/-! ### slices -/

theorem slice_length (b : Bytes) (i j : Nat) (h : j ≤ b.length) : (slice b i j).length = j - i := by
  simp [slice, Nat.min_eq_left h]

@[simp] theorem copyAt_length (b : Bytes) (i j : Nat) (src : Bytes) (h : i ≤ j) (hj : j ≤ b.length) :
    (copyAt b i j src).length = b.length := by
  simp [copyAt]; omega

theorem slice_getElem? (b : Bytes) (i j k : Nat) :
    (slice b i j)[k]? = if i + k < j then b[i + k]? else none := by
  simp only [slice, List.getElem?_drop, List.getElem?_take]

theorem copyAt_getElem? (b : Bytes) (i j : Nat) (src : Bytes) (hs : src.length = j - i) (hij : i ≤ j)
    (hj : j ≤ b.length) (k : Nat) :
    (copyAt b i j src)[k]? = if k < i then b[k]? else if k < j then src[k - i]? else b[k]? := by
  have e1 : src.take (j - i) = src := List.take_of_length_le (by omega)
  have e2 : i + min (j - i) src.length = j := by omega
  rw [copyAt, e1, e2]
  by_cases h1 : k < i
  · rw [if_pos h1, List.append_assoc, List.getElem?_append_left (by simp; omega), List.getElem?_take_of_lt h1]
  · rw [if_neg h1]
    by_cases h2 : k < j
    · rw [if_pos h2, List.getElem?_append_left (by simp; omega),
        List.getElem?_append_right (by simp; omega)]
      simp [Nat.min_eq_left (show i ≤ b.length by omega)]
    · rw [if_neg h2, List.getElem?_append_right (by simp; omega), List.getElem?_drop]
      congr 1; simp; omega

theorem slice_copyAt_same (b : Bytes) (i j : Nat) (src : Bytes) (hs : src.length = j - i) (hij : i ≤ j)
    (hj : j ≤ b.length) : slice (copyAt b i j src) i j = src := by
  apply List.ext_getElem?
  intro k
  rw [slice_getElem?, copyAt_getElem? b i j src hs hij hj]
  split
  · rw [if_neg (by omega)]; simp
  · rw [List.getElem?_eq_none (by omega)]

theorem slice_copyAt_disjoint (b : Bytes) (i j : Nat) (src : Bytes) (hs : src.length = j - i) (hij : i ≤ j)
    (hj : j ≤ b.length) (i' j' : Nat) (hd : j' ≤ i ∨ j ≤ i') :
    slice (copyAt b i j src) i' j' = slice b i' j' := by
  apply List.ext_getElem?
  intro k
  rw [slice_getElem?, slice_getElem?, copyAt_getElem? b i j src hs hij hj]
  split
  · rcases hd with h | h
    · rw [if_pos (by omega)]
    · rw [if_neg (by omega), if_neg (by omega)]
  · rfl

theorem slice_append_slice (b : Bytes) (i j k : Nat) (h1 : i ≤ j) (h2 : j ≤ k) (hk : k ≤ b.length) :
    slice b i j ++ slice b j k = slice b i k := by
  apply List.ext_getElem?
  intro n
  rw [slice_getElem?]
  by_cases h : n < j - i
  · rw [List.getElem?_append_left (by rw [slice_length _ _ _ (by omega)]; exact h), slice_getElem?,
      if_pos (by omega), if_pos (by omega)]
  · rw [List.getElem?_append_right (by rw [slice_length _ _ _ (by omega)]; omega), slice_getElem?,
      slice_length _ _ _ (by omega)]
    have : j + (n - (j - i)) = i + n := by omega
    rw [this]

theorem slice_zero_length (b : Bytes) : slice b 0 b.length = b := by simp [slice]

/-! ### hex -/

theorem fromHexChar_hexDigit (n : Nat) (h : n < 16) : fromHexChar (hexDigit n) = some n := by
  have : ∀ n : Fin 16, fromHexChar (hexDigit n.1) = some n.1 := by decide
  exact this ⟨n, h⟩

/-- `hex.DecodeString(hex.EncodeToString(b)) = b`. -/
theorem hexDecode_hexEncode (b : Bytes) : hexDecode (hexEncode b) = some b := by
  induction b with
  | nil => rfl
  | cons x b ih =>
    have e : hexEncode (x :: b) = hexDigit (x.toNat / 16) :: hexDigit (x.toNat % 16) :: hexEncode b := by
      simp [hexEncode]
    have hx := x.toNat_lt
    rw [e, hexDecode, fromHexChar_hexDigit _ (by omega), fromHexChar_hexDigit _ (by omega), ih]
    simp only [Option.some.injEq, List.cons.injEq, and_true]
    rw [Nat.div_add_mod']; simp

@[simp] theorem hexEncode_length (b : Bytes) : (hexEncode b).length = 2 * b.length := by
  induction b with
  | nil => rfl
  | cons x b ih => simp [hexEncode] at ih ⊢; omega

theorem hexEncode_injective : Function.Injective hexEncode := fun a b h => by
  have := congrArg hexDecode h
  simpa [hexDecode_hexEncode] using this

theorem hexDecode_length {s b : Bytes} (h : hexDecode s = some b) : s.length = 2 * b.length := by
  fun_induction hexDecode s generalizing b with
  | case1 => simp at h; subst h; rfl
  | case2 => simp at h
  | case3 a c rest x y r hr hx hy ih =>
    simp at h; subst h; have := ih hr; simp; omega
  | case4 => simp at h

end Bips
