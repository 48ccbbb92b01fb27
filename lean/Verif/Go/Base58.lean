import Verif.Go.Bytes

/-!
# `github.com/btcsuite/btcutil/base58` v1.0.2

Third-party package (not in the repo); its algorithm is modelled.  Used by bip32/bip32.go:271,383 and
util/key_path.go.
-/

namespace Bips

/-- `alphabet` of btcutil/base58. -/
def b58Alphabet : Bytes := str "123456789ABCDEFGHJKLMNPQRSTUVWXYZabcdefghijkmnopqrstuvwxyz"

/-- `alphabet[i]`. -/
def b58Char (i : Nat) : UInt8 := b58Alphabet.getD i 0

/-- `b58[c]`: position of `c` in the alphabet, `none` for Go's 255. -/
def b58Digit (c : UInt8) : Option Nat := b58Alphabet.idxOf? c

/-- `base58.Encode`: repeated `DivMod` by 58, one `'1'` per leading zero byte, then reversal. -/
def b58Encode (b : Bytes) : Bytes :=
  ((leDigits 58 (setBytes b) (setBytes b)).map b58Char ++
    (b.takeWhile (· == 0)).map (fun _ => b58Char 0)).reverse

/-- The loop of `base58.Decode`, scanning from the last character: `answer += j*digit; j *= 58`. -/
def b58DecodeLoop : Bytes → Nat → Nat → Option Nat
  | [], answer, _ => some answer
  | c :: rest, answer, j =>
    match b58Digit c with
    | none => none
    | some d => b58DecodeLoop rest (answer + j * d) (j * 58)

/-- `base58.Decode`: empty result for any invalid character, otherwise one zero byte per leading `'1'`
followed by the big-endian bytes. -/
def b58Decode (s : Bytes) : Bytes :=
  match b58DecodeLoop s.reverse 0 1 with
  | none => []
  | some v => List.replicate (s.takeWhile (· == b58Char 0)).length 0 ++ bigBytes v

/-! ## Lemmas -/

theorem b58Digit_char : ∀ d, d < 58 → b58Digit (b58Char d) = some d := by
  have : ∀ d : Fin 58, b58Digit (b58Char d.1) = some d.1 := by decide +kernel
  exact fun d h => this ⟨d, h⟩

theorem b58Char_digit : ∀ c d, b58Digit c = some d → d < 58 ∧ b58Char d = c := by
  have : ∀ n : Fin 256, ∀ d, b58Digit (UInt8.ofNat n.1) = some d → d < 58 ∧ b58Char d = UInt8.ofNat n.1 := by
    have h : ∀ n : Fin 256, (match b58Digit (UInt8.ofNat n.1) with
        | none => true
        | some d => decide (d < 58 ∧ b58Char d = UInt8.ofNat n.1)) = true := by decide +kernel
    intro n d hd
    have := h n
    rw [hd] at this
    simpa using this
  intro c d h
  have := this ⟨c.toNat, c.toNat_lt⟩ d
  simp only [ofNat_toNat] at this
  exact this h

theorem b58Char_eq_zero_iff {d : Nat} (h : d < 58) : b58Char d = b58Char 0 ↔ d = 0 := by
  constructor
  · intro e
    have := congrArg b58Digit e
    rw [b58Digit_char d h, b58Digit_char 0 (by omega)] at this
    simpa using this
  · rintro rfl; rfl

theorem b58Encode_eq (b : Bytes) : b58Encode b =
    (b.takeWhile (· == 0)).map (fun _ => b58Char 0) ++ (toDigitsBE 58 (setBytes b)).map b58Char := by
  rw [b58Encode, List.reverse_append, ← List.map_reverse, ← List.map_reverse]
  congr 1
  simp [List.map_const']

theorem b58DecodeLoop_map (ds : List Nat) (h : ∀ d ∈ ds, d < 58) (a j : Nat) :
    b58DecodeLoop ((ds.map b58Char).reverse) a j = some (a + j * ofDigitsBE 58 ds) := by
  induction ds using List.reverseRecOn generalizing a j with
  | nil => simp [b58DecodeLoop, ofDigitsBE]
  | append_singleton ds d ih =>
    simp only [List.map_append, List.map_cons, List.map_nil, List.reverse_append, List.reverse_cons,
      List.reverse_nil, List.nil_append, List.cons_append]
    rw [b58DecodeLoop, b58Digit_char d (h d (by simp))]
    dsimp only
    rw [ih (fun d hd => h d (by simp [hd])), ofDigitsBE_concat]
    congr 1; ring

theorem b58DecodeLoop_inv (s : Bytes) (a j v : Nat) (h : b58DecodeLoop s.reverse a j = some v) :
    ∃ ds : List Nat, (∀ d ∈ ds, d < 58) ∧ s = ds.map b58Char ∧ v = a + j * ofDigitsBE 58 ds := by
  induction s using List.reverseRecOn generalizing a j with
  | nil => exact ⟨[], by simp, rfl, by simpa [b58DecodeLoop, ofDigitsBE] using h.symm⟩
  | append_singleton s c ih =>
    simp only [List.reverse_append, List.reverse_cons, List.reverse_nil, List.nil_append,
      List.cons_append] at h
    rw [b58DecodeLoop] at h
    cases hd : b58Digit c with
    | none => rw [hd] at h; simp at h
    | some d =>
      rw [hd] at h
      obtain ⟨ds, h1, h2, h3⟩ := ih _ _ h
      obtain ⟨hd1, hd2⟩ := b58Char_digit c d hd
      refine ⟨ds ++ [d], ?_, ?_, ?_⟩
      · intro e he
        rcases List.mem_append.1 he with he | he
        · exact h1 e he
        · simp at he; omega
      · simp [h2, hd2]
      · rw [h3, ofDigitsBE_concat]; ring

theorem takeWhile_map_b58 (ds : List Nat) (h : ∀ d ∈ ds, d < 58) :
    (ds.map b58Char).takeWhile (· == b58Char 0) = (ds.takeWhile (· == 0)).map b58Char := by
  induction ds with
  | nil => rfl
  | cons d ds ih =>
    have hd := h d (by simp)
    simp only [List.map_cons, List.takeWhile_cons]
    by_cases e : d = 0
    · subst e; simp [ih (fun d hd => h d (by simp [hd]))]
    · have : b58Char d ≠ b58Char 0 := fun h' => e ((b58Char_eq_zero_iff hd).1 h')
      simp [e, this]

theorem takeWhile_zero_eq_replicate (l : List Nat) :
    l.takeWhile (· == 0) = List.replicate (l.takeWhile (· == 0)).length 0 := by
  apply List.eq_replicate_of_mem
  intro x hx
  simpa using List.mem_takeWhile_imp hx

theorem ofDigitsBE_dropWhile (b : Nat) (l : List Nat) : ofDigitsBE b (l.dropWhile (· == 0)) = ofDigitsBE b l := by
  induction l with
  | nil => rfl
  | cons d l ih =>
    rw [List.dropWhile_cons]
    by_cases e : d = 0
    · subst e; simp [ih, ofDigitsBE_cons]
    · simp [e]

/-- `Decode ∘ Encode = id` on all byte strings. -/
theorem b58Decode_encode (b : Bytes) : b58Decode (b58Encode b) = b := by
  have hd := toDigitsBE_lt 58 (by omega) (setBytes b)
  have hrw : b58Encode b = (List.replicate (b.takeWhile (· == 0)).length 0 ++ toDigitsBE 58 (setBytes b)).map b58Char := by
    rw [b58Encode_eq]; simp [List.map_const']
  have hall : ∀ d ∈ List.replicate (b.takeWhile (· == 0)).length 0 ++ toDigitsBE 58 (setBytes b), d < 58 := by
    intro d h
    rcases List.mem_append.1 h with h | h
    · have := List.eq_of_mem_replicate h; omega
    · exact hd d h
  rw [b58Decode, hrw, b58DecodeLoop_map _ hall, takeWhile_map_b58 _ hall]
  have hv : ofDigitsBE 58 (List.replicate (b.takeWhile (· == 0)).length 0 ++ toDigitsBE 58 (setBytes b)) = setBytes b := by
    rw [ofDigitsBE_append, ofDigitsBE_toDigitsBE 58 (by omega)]
    have : ofDigitsBE 58 (List.replicate (b.takeWhile (· == 0)).length 0) = 0 := by
      generalize (b.takeWhile (· == 0)).length = k
      induction k with
      | zero => rfl
      | succ k ih => rw [List.replicate_succ, ofDigitsBE_cons, ih]; simp
    rw [this]; simp
  have ht : (List.replicate (b.takeWhile (· == 0)).length 0 ++ toDigitsBE 58 (setBytes b)).takeWhile (· == 0)
      = List.replicate (b.takeWhile (· == 0)).length 0 := by
    rw [List.takeWhile_append_of_pos (by intro a ha; simp [List.eq_of_mem_replicate ha])]
    have : (toDigitsBE 58 (setBytes b)).takeWhile (· == 0) = [] := by
      have h1 := toDigitsBE_head_ne_zero 58 (by omega) (setBytes b)
      have h2 := List.takeWhile_append_dropWhile (p := (· == 0)) (l := toDigitsBE 58 (setBytes b))
      rw [h1] at h2
      simpa using h2
    rw [this, List.append_nil]
  rw [ht]
  dsimp only
  rw [hv]
  simp only [Nat.one_mul, Nat.zero_add, List.length_map, List.length_replicate]
  rw [bigBytes_setBytes]
  have h3 := List.takeWhile_append_dropWhile (p := (· == (0 : UInt8))) (l := b)
  have h4 : List.replicate (b.takeWhile (· == 0)).length 0 = b.takeWhile (· == 0) := by
    symm; apply List.eq_replicate_of_mem
    intro x hx; simpa using List.mem_takeWhile_imp hx
  rw [h4]; exact h3

/-- `Encode ∘ Decode = id` on the strings `Decode` accepts (non-empty result). -/
theorem b58Encode_decode (s : Bytes) (h : b58Decode s ≠ []) : b58Encode (b58Decode s) = s := by
  unfold b58Decode at h ⊢
  cases hv : b58DecodeLoop s.reverse 0 1 with
  | none => rw [hv] at h; exact absurd rfl h
  | some v =>
    dsimp only
    obtain ⟨ds, h1, h2, h3⟩ := b58DecodeLoop_inv s 0 1 v hv
    have hz := takeWhile_map_b58 ds h1
    rw [← h2] at hz
    rw [hz, List.length_map, b58Encode_eq, setBytes_append, setBytes_replicate_zero, setBytes_bigBytes]
    have hbb : (bigBytes v).takeWhile (· == 0) = [] := by
      have e1 := bigBytes_setBytes (bigBytes v)
      rw [setBytes_bigBytes] at e1
      have e2 := List.takeWhile_append_dropWhile (p := (· == (0 : UInt8))) (l := bigBytes v)
      rw [← e1] at e2
      simpa using e2
    rw [List.takeWhile_append_of_pos (by intro a ha; simp [List.eq_of_mem_replicate ha]), hbb]
    have hv2 : v = ofDigitsBE 58 ds := by omega
    rw [Nat.zero_mul, Nat.zero_add, hv2, toDigitsBE_ofDigitsBE 58 (by omega) ds h1]
    conv_rhs => rw [h2, ← List.takeWhile_append_dropWhile (p := (· == 0)) (l := ds), List.map_append]
    congr 1
    conv_rhs => rw [takeWhile_zero_eq_replicate]
    simp

theorem b58Encode_injective : Function.Injective b58Encode := fun a b h => by
  rw [← b58Decode_encode a, h, b58Decode_encode]

end Bips
