import Verif.Data.CoinsText
import Verif.Model.Bip44

/-!
# The text of the coin table, checked in the kernel

With numbers in place of bytes, which the kernel compares quickly.
-/

namespace Bips

/-- A row of the table. -/
def coinRow (c : Coin) : Bytes := str "\t" ++ c.stringForMD ++ str ",\n"

/-- A row with numbers for bytes, without the line break. -/
def CoinCode.row (c : CoinCode) : List Nat :=
  [9, 123, 84, 121, 112, 101, 58, 32] ++ ((bif Nat.beq c.type 0 then [48] else (toDigitsBE 10 c.type).map (48 + ·)) ++
    ([44, 32, 80, 97, 116, 104, 67, 111, 109, 112, 111, 110, 101, 110, 116, 58, 32, 48, 120] ++
      ((toDigitsBE 16 c.pathComponent).map (fun d => bif Nat.blt d 10 then 48 + d else 87 + d) ++
        ([44, 32, 83, 121, 109, 98, 111, 108, 58, 32, 34] ++ (natBytes 64 c.symbol [] ++
          ([34, 44, 32, 78, 97, 109, 101, 58, 32, 34] ++ (natBytes 64 c.name [] ++ [34, 125, 44])))))))

/-- Equality of lists of numbers. -/
def sameNats : List Nat → List Nat → Bool
  | [], [] => true
  | a :: l, b :: m => bif Nat.beq a b then sameNats l m else false
  | _, _ => false

theorem sameNats_eq {l m : List Nat} (h : sameNats l m = true) : l = m := by
  induction l generalizing m with
  | nil => cases m with
    | nil => rfl
    | cons b m => cases h
  | cons a l ih => cases m with
    | nil => cases h
    | cons b m =>
      rw [sameNats] at h
      cases hb : Nat.beq a b with
      | true => rw [hb] at h; rw [Nat.eq_of_beq_eq_true hb, ih h]
      | false => rw [hb] at h; cases h

theorem CoinCode.row_eq (c : CoinCode) (h1 : c.type < 2 ^ 32) (h2 : c.pathComponent < 2 ^ 32) (h3 : c.pathComponent ≠ 0) :
    c.row.map UInt8.ofNat ++ [10] = coinRow c.coin := by
  have e1 : str "\t" ++ str "{Type: " = [9, 123, 84, 121, 112, 101, 58, 32].map UInt8.ofNat := by decide +kernel
  have e2 : str ", PathComponent: 0x" = [44, 32, 80, 97, 116, 104, 67, 111, 109, 112, 111, 110, 101, 110, 116, 58, 32, 48, 120].map UInt8.ofNat := by decide +kernel
  have e3 : str ", Symbol: \"" = [44, 32, 83, 121, 109, 98, 111, 108, 58, 32, 34].map UInt8.ofNat := by decide +kernel
  have e4 : str "\", Name: \"" = [34, 44, 32, 78, 97, 109, 101, 58, 32, 34].map UInt8.ofNat := by decide +kernel
  have e5 : str "\"}" ++ str ",\n" = [34, 125, 44].map UInt8.ofNat ++ [10] := by decide +kernel
  have d : decimal (UInt32.ofNat c.type).toNat = (bif Nat.beq c.type 0 then [48] else (toDigitsBE 10 c.type).map (48 + ·)).map UInt8.ofNat := by
    rw [UInt32.toNat_ofNat', Nat.mod_eq_of_lt h1, decimal]
    by_cases h : c.type = 0
    · rw [if_pos h, h]; rfl
    · have : Nat.beq c.type 0 = false := by rw [Bool.eq_false_iff]; exact fun hb => h (Nat.eq_of_beq_eq_true hb)
      rw [if_neg h, this, cond_false, List.map_map]; rfl
  have x : hexNumber (UInt32.ofNat c.pathComponent).toNat =
      ((toDigitsBE 16 c.pathComponent).map fun d => bif Nat.blt d 10 then 48 + d else 87 + d).map UInt8.ofNat := by
    rw [UInt32.toNat_ofNat', Nat.mod_eq_of_lt h2, hexNumber, if_neg h3, List.map_map]
    refine List.map_congr_left fun d _ => ?_
    by_cases h : d < 10
    · have : Nat.blt d 10 = true := by rw [Nat.blt_eq]; exact h
      rw [hexDigit, if_pos h, Function.comp_apply, this, cond_true]
    · have : Nat.blt d 10 = false := by rw [Bool.eq_false_iff]; intro hb; rw [Nat.blt_eq] at hb; exact h hb
      rw [hexDigit, if_neg h, Function.comp_apply, this, cond_false]
  rw [coinRow, Coin.stringForMD, CoinCode.coin]
  dsimp only
  rw [d, x, e2, e3, e4]
  simp only [List.append_assoc]
  rw [e5, ← List.append_assoc (str "\t"), e1, CoinCode.row, codeWord, codeWord]
  simp only [List.map_append, List.append_assoc]

/-- The lines are the rows. -/
def RowsAre (t : List Nat) (c : List CoinCode) : Prop := t.map codeLine = c.map fun c => coinRow c.coin

/-- The check. -/
def checkRows : List Nat → List CoinCode → Bool
  | [], [] => true
  | n :: t, c :: l =>
    sameNats (natBytes 256 n []) c.row && Nat.blt c.type 4294967296 && Nat.blt c.pathComponent 4294967296 && Nat.blt 0 c.pathComponent && checkRows t l
  | _, _ => false

theorem RowsAre.of {t : List Nat} {l : List CoinCode} (h : checkRows t l = true) : RowsAre t l := by
  induction t generalizing l with
  | nil => cases l with
    | nil => rfl
    | cons c l => cases h
  | cons n t ih => cases l with
    | nil => cases h
    | cons c l =>
      simp only [checkRows, Bool.and_eq_true, Nat.blt_eq] at h
      obtain ⟨⟨⟨⟨h1, h2⟩, h3⟩, h4⟩, h5⟩ := h
      rw [RowsAre, List.map_cons, List.map_cons, ih h5, codeLine, sameNats_eq h1, c.row_eq h2 h3 (by omega)]

theorem RowsAre.append {t t' : List Nat} {c c' : List CoinCode} (h : RowsAre t c) (h' : RowsAre t' c') : RowsAre (t ++ t') (c ++ c') := by
  rw [RowsAre, List.map_append, List.map_append, h, h']

open Data Coins

theorem rows0 : RowsAre CoinsText.t1 c0 := .of (by decide +kernel)
theorem rows1 : RowsAre CoinsText.t2 c1 := .of (by decide +kernel)
theorem rows2 : RowsAre CoinsText.t3 c2 := .of (by decide +kernel)
theorem rows3 : RowsAre CoinsText.t4 c3 := .of (by decide +kernel)
theorem rows4 : RowsAre CoinsText.t5 c4 := .of (by decide +kernel)
theorem rows5 : RowsAre CoinsText.t6 c5 := .of (by decide +kernel)
theorem rows6 : RowsAre CoinsText.t7 c6 := .of (by decide +kernel)
theorem rows7 : RowsAre CoinsText.t8 c7 := .of (by decide +kernel)
theorem rows8 : RowsAre CoinsText.t9 c8 := .of (by decide +kernel)
theorem rows9 : RowsAre CoinsText.t10 c9 := .of (by decide +kernel)
theorem rows10 : RowsAre CoinsText.t11 c10 := .of (by decide +kernel)
theorem rows11 : RowsAre CoinsText.t12 c11 := .of (by decide +kernel)
theorem rows12 : RowsAre CoinsText.t13 c12 := .of (by decide +kernel)
theorem rows13 : RowsAre CoinsText.t14 c13 := .of (by decide +kernel)
theorem rows14 : RowsAre CoinsText.t15 c14 := .of (by decide +kernel)
theorem rows15 : RowsAre CoinsText.t16 c15 := .of (by decide +kernel)
theorem rows16 : RowsAre CoinsText.t17 c16 := .of (by decide +kernel)
theorem rows17 : RowsAre CoinsText.t18 c17 := .of (by decide +kernel)

/-- All rows of the text and of the table. -/
theorem rows_all : RowsAre (CoinsText.t1 ++ (CoinsText.t2 ++ (CoinsText.t3 ++ (CoinsText.t4 ++ (CoinsText.t5 ++ (CoinsText.t6 ++ (CoinsText.t7 ++ (CoinsText.t8 ++ (
    CoinsText.t9 ++ (CoinsText.t10 ++ (CoinsText.t11 ++ (CoinsText.t12 ++ (CoinsText.t13 ++ (CoinsText.t14 ++ (CoinsText.t15 ++ (
    CoinsText.t16 ++ (CoinsText.t17 ++ (CoinsText.t18)))))))))))))))))) codes :=
  rows0.append (rows1.append (rows2.append (rows3.append (rows4.append (rows5.append (rows6.append (rows7.append (rows8.append
    (rows9.append (rows10.append (rows11.append (rows12.append (rows13.append (rows14.append (rows15.append (rows16.append rows17))))))))))))))))

end Bips
