import Mathlib.Data.Set.Card
import Mathlib.Order.Interval.Finset.Nat
import Verif.Props.Random

/-!
# C98: every mnemonic is equally likely

How often each sentence comes out when every byte string is equally likely: counted, without a theory of probability.
-/

namespace Bips
open Spec

section
variable (H : Hashes) {l : List Bytes} (hg : GoodList l)
include hg

theorem generate_eq (read : Nat → Bytes) (hread : ∀ n, (read n).length = n) (w : UInt8)
    (hw : w.toNat ∈ [12, 15, 18, 21, 24]) :
    generateMnemonic H (setWordList l) read w = newMnemonic H (setWordList l) (read (4 * w.toNat / 3)) := by
  have key : ∀ n : Nat, n ∈ entropySizes → (newEntropy read (8 * n : Int)) = (read n, none) →
      (match newEntropy read (8 * n : Int) with
        | (_, some e) => Outcome.ok (([] : Bytes), some e)
        | (bs, none) => match newMnemonic H (setWordList l) bs with
          | .panic => .panic
          | .ok (_, some e) => .ok ([], some e)
          | .ok (mnemonic, none) => .ok (mnemonic, none)) = newMnemonic H (setWordList l) (read n) := by
    intro n hn he
    obtain ⟨ws, h1, -⟩ := newMnemonic_eq H hg (read n) (by rw [hread]; exact hn)
    rw [he]
    dsimp only
    rw [h1]
  have hw' : ∀ n : Nat, n < 256 → ((w = UInt8.ofNat n) ↔ w.toNat = n) := by
    intro n hn
    rw [← UInt8.toNat_inj, toNat_ofNat_lt hn]
  simp only [List.mem_cons, List.not_mem_nil, or_false] at hw
  rcases hw with h | h | h | h | h <;> rw [h]
  · obtain rfl := (hw' 12 (by decide)).2 h
    exact key 16 (by decide) rfl
  · obtain rfl := (hw' 15 (by decide)).2 h
    exact key 20 (by decide) rfl
  · obtain rfl := (hw' 18 (by decide)).2 h
    exact key 24 (by decide) rfl
  · obtain rfl := (hw' 21 (by decide)).2 h
    exact key 28 (by decide) rfl
  · obtain rfl := (hw' 24 (by decide)).2 h
    exact key 32 (by decide) rfl

/-- **C98.** Each valid sentence of `w` words is what `GenerateMnemonic(w)` returns for exactly one value of the random bytes. -/
theorem C98_one_value (w : UInt8) (hw : w.toNat ∈ [12, 15, 18, 21, 24]) (ws : List Bytes) (hl : ws.length = w.toNat)
    (hws : ∀ x ∈ ws, x ∈ l) (hv : isMnemonicValid H (setWordList l) ([32].intercalate ws) = .ok true) :
    ∃ e : Bytes, e.length = 4 * w.toNat / 3 ∧
      ∀ read : Nat → Bytes, (∀ n, (read n).length = n) →
        (generateMnemonic H (setWordList l) read w = .ok ([32].intercalate ws, none) ↔ read (4 * w.toNat / 3) = e) := by
  have hlay := layout_intercalate (c := 0x20) (by decide) ws (fun x hx => hg.word x (hws x hx))
  obtain ⟨e, he⟩ : ∃ e, entropyFromMnemonic H (setWordList l) ([32].intercalate ws) = .ok (e, none) := by
    rw [isMnemonicValid] at hv
    cases h : entropyFromMnemonic H (setWordList l) ([32].intercalate ws) with
    | panic => rw [h] at hv; exact absurd hv (by simp)
    | ok r =>
      obtain ⟨e, _ | err⟩ := r
      · exact ⟨e, rfl⟩
      · rw [h] at hv; exact absurd hv (by simp)
  obtain ⟨ws', h1, h2, h3, h4⟩ := (C04_accepts_exactly H hg _ e).1 he
  obtain rfl : ws' = ws := (fields_layout h1).symm.trans (fields_layout hlay)
  obtain ⟨us, n1, n2, n3⟩ := newMnemonic_eq H hg e h3
  obtain rfl : us = ws' := encodes_unique H n2 h4
  have hel : e.length = 4 * w.toNat / 3 := by
    simp only [entropySizes, List.mem_cons, List.not_mem_nil, or_false] at h3
    omega
  refine ⟨e, hel, fun read hread => ?_⟩
  rw [generate_eq H hg read hread w hw]
  constructor
  · intro h
    have hs : (read (4 * w.toNat / 3)).length ∈ entropySizes := by rw [hread, ← hel]; exact h3
    obtain ⟨m, m1, m2, -⟩ := C01_roundtrip H hg _ hs
    rw [h] at m1
    obtain rfl : _ = m := (Prod.mk.inj (Outcome.ok.inj m1)).1
    rw [he] at m2
    exact (Prod.mk.inj (Outcome.ok.inj m2)).1.symm
  · intro h
    rw [h, n1]

omit hg in
/-- The positions of the first `j` words are the first `11j` bits of the entropy. -/
theorem first_positions {e : Bytes} {k : Nat} (hk : k ≤ 8) (he : e.length = 4 * k) {idx : List Nat} (hi : ∀ i ∈ idx, i < 2048)
    (h : idx.flatMap (bitsN 11) = mnemonicBits H.sha256 e) (j : Nat) (hj : 11 * j ≤ 32 * k) :
    idx.length = 3 * k ∧ ofDigitsBE 2048 (idx.take j) = setBytes e / 2 ^ (32 * k - 11 * j) := by
  obtain ⟨h1, h2⟩ := (encodes_bits_iff H e k he hk idx hi).1 h
  refine ⟨h1, ?_⟩
  have hc : ((H.sha256 e).headD 0).toNat / 2 ^ (8 - k) < 2 ^ k := by
    apply Nat.div_lt_of_lt_mul
    rw [← pow_add, show 8 - k + k = 8 by omega]
    exact ((H.sha256 e).headD 0).toNat_lt
  have hD := ofDigitsBE_append 2048 (idx.take j) (idx.drop j)
  rw [List.take_append_drop, h2] at hD
  have hB := ofDigitsBE_lt 2048 (idx.drop j) (fun d hd => hi d (List.mem_of_mem_drop hd))
  have hpow : (2048 : Nat) ^ (idx.drop j).length = 2 ^ k * 2 ^ (32 * k - 11 * j) := by
    rw [List.length_drop, h1, show (2048 : Nat) = 2 ^ 11 by norm_num, ← pow_mul, ← pow_add]
    congr 1; omega
  generalize ((H.sha256 e).headD 0).toNat / 2 ^ (8 - k) = c at *
  generalize (2048 : Nat) ^ (idx.drop j).length = M at *
  generalize ofDigitsBE 2048 (idx.drop j) = B at *
  have e1 : (setBytes e * 2 ^ k + c) / 2 ^ k = setBytes e := by
    rw [Nat.mul_comm, Nat.mul_add_div (by positivity), Nat.div_eq_of_lt hc, add_zero]
  have e2 : (setBytes e * 2 ^ k + c) / M = ofDigitsBE 2048 (idx.take j) := by
    rw [hD, Nat.mul_comm, Nat.mul_add_div (by omega), Nat.div_eq_of_lt hB, add_zero]
  rw [← e2, hpow, ← Nat.div_div_eq_div_mul, e1]

theorem positions_inj {a b : List Nat} (ha : ∀ i ∈ a, i < 2048) (hb : ∀ i ∈ b, i < 2048)
    (h : a.map (l[·]?) = b.map (l[·]?)) : a = b := by
  induction a generalizing b with
  | nil => simpa using h.symm
  | cons x a ih =>
    cases b with
    | nil => simp at h
    | cons y b =>
      simp only [List.map_cons, List.cons.injEq] at h
      have hx : x < l.length := by rw [hg.length]; exact ha x (by simp)
      have hxy : x = y := (List.getElem?_inj hx hg.nodup).1 h.1
      rw [hxy, ih (fun i hi => ha i (by simp [hi])) (fun i hi => hb i (by simp [hi])) h.2]

omit hg in
theorem ncard_bytes (n a b : Nat) (hb : b ≤ 256 ^ n) :
    {e : Bytes | e.length = n ∧ a ≤ setBytes e ∧ setBytes e < b}.ncard = b - a := by
  have : {e : Bytes | e.length = n ∧ a ≤ setBytes e ∧ setBytes e < b} = beBytes n '' (Finset.Ico a b : Set Nat) := by
    ext e
    simp only [Set.mem_ofPred_eq, Set.mem_image, Finset.coe_Ico, Set.mem_Ico]
    constructor
    · rintro ⟨h1, h2, h3⟩
      exact ⟨setBytes e, ⟨h2, h3⟩, by rw [← h1, beBytes_setBytes]⟩
    · rintro ⟨x, ⟨h1, h2⟩, rfl⟩
      rw [setBytes_beBytes, Nat.mod_eq_of_lt (by omega)]
      exact ⟨by simp, h1, h2⟩
  rw [this, Set.InjOn.ncard_image, Set.ncard_coe_finset, Nat.card_Ico]
  intro x hx y hy h
  simp only [Finset.coe_Ico, Set.mem_Ico] at hx hy
  have := congrArg setBytes h
  rwa [setBytes_beBytes, setBytes_beBytes, Nat.mod_eq_of_lt (by omega), Nat.mod_eq_of_lt (by omega)] at this

/-- **C98.** The first words. As long as they hold entropy only, every choice of `j` first words of the list comes out equally
often: for 2^(8n-11j) of the 2^(8n) entropies of `n` bytes. -/
theorem C98_first_words (n : Nat) (hn : n ∈ entropySizes) (pre : List Bytes) (hpre : ∀ x ∈ pre, x ∈ l)
    (hj : 11 * pre.length ≤ 8 * n) :
    {e : Bytes | e.length = n ∧ ∃ ws : List Bytes, newMnemonic H (setWordList l) e = .ok ([32].intercalate ws, none) ∧
      (∀ x ∈ ws, x ∈ l) ∧ pre <+: ws}.ncard = 2 ^ (8 * n - 11 * pre.length) := by
  obtain ⟨k, hk, hk1, hk2⟩ := (entropySizes_iff _).1 hn
  obtain ⟨pidx, p1, p2⟩ := idx_of_words hg pre hpre
  have hpl : pidx.length = pre.length := by simpa using (congrArg List.length p2).symm
  set r := 8 * n - 11 * pre.length with hr
  have hr' : r = 32 * k - 11 * pre.length := by omega
  have hP := ofDigitsBE_lt 2048 pidx p1
  rw [hpl, show (2048 : Nat) = 2 ^ 11 by norm_num, ← pow_mul] at hP
  norm_num only at hP
  have hset : {e : Bytes | e.length = n ∧ ∃ ws : List Bytes, newMnemonic H (setWordList l) e = .ok ([32].intercalate ws, none) ∧
      (∀ x ∈ ws, x ∈ l) ∧ pre <+: ws} =
      {e : Bytes | e.length = n ∧ ofDigitsBE 2048 pidx * 2 ^ r ≤ setBytes e ∧ setBytes e < (ofDigitsBE 2048 pidx + 1) * 2 ^ r} := by
    ext e
    simp only [Set.mem_ofPred_eq, and_congr_right_iff]
    intro he
    have hiv : (ofDigitsBE 2048 pidx * 2 ^ r ≤ setBytes e ∧ setBytes e < (ofDigitsBE 2048 pidx + 1) * 2 ^ r) ↔
        setBytes e / 2 ^ r = ofDigitsBE 2048 pidx := by
      rw [Nat.div_eq_iff (by positivity)]
      have : 0 < 2 ^ r := by positivity
      rw [Nat.add_mul, one_mul]
      omega
    rw [hiv]
    obtain ⟨us, n1, ⟨idx, i1, i2, i3⟩, -⟩ := newMnemonic_eq H hg e (by rw [he]; exact hn)
    obtain ⟨f1, f2⟩ := first_positions H hk2 (he.trans hk) i1 i3 pre.length (by omega)
    rw [hr', ← f2]
    have htake : (us.take pre.length).map some = (idx.take pre.length).map (l[·]?) := by
      rw [List.map_take, i2, List.map_take]
    have ht1 : ∀ i ∈ idx.take pre.length, i < 2048 := fun i hi => i1 i (List.mem_of_mem_take hi)
    constructor
    · rintro ⟨ws, w1, w2, w3⟩
      have hi : [32].intercalate us = [32].intercalate ws := by
        rw [n1] at w1; exact (Prod.mk.inj (Outcome.ok.inj w1)).1
      have hl1 := layout_intercalate (c := 0x20) (by decide) us (fun x hx => hg.word x (words_of_idx i2 x hx))
      have hl2 := layout_intercalate (c := 0x20) (by decide) ws (fun x hx => hg.word x (w2 x hx))
      obtain rfl : us = ws := (fields_layout hl1).symm.trans ((congrArg fields hi).trans (fields_layout hl2))
      rw [← List.prefix_iff_eq_take.1 w3, p2] at htake
      rw [positions_inj hg ht1 p1 htake.symm]
    · intro h
      have hidx : idx.take pre.length = pidx := by
        refine ofDigitsBE_inj 2048 _ _ ?_ ht1 p1 h
        rw [List.length_take, f1, hpl]; omega
      rw [hidx, ← p2] at htake
      refine ⟨us, n1, fun x hx => words_of_idx i2 x hx, ?_⟩
      rw [List.prefix_iff_eq_take]
      exact (List.map_injective_iff.2 (Option.some_injective _) htake).symm
  rw [hset, ncard_bytes]
  · rw [Nat.add_mul, one_mul, Nat.add_sub_cancel_left]
  · calc (ofDigitsBE 2048 pidx + 1) * 2 ^ r ≤ 2 ^ (11 * pre.length) * 2 ^ r := Nat.mul_le_mul_right _ hP
      _ = 256 ^ n := by
        rw [← pow_add, show (256 : Nat) = 2 ^ 8 by norm_num, ← pow_mul]; congr 1; omega

/-- The valid sentences of `w` words with single spaces, as texts. -/
def sentences (l : List Bytes) (w : Nat) : Set Bytes :=
  {m | ∃ ws : List Bytes, ws.length = w ∧ (∀ x ∈ ws, x ∈ l) ∧ m = [32].intercalate ws ∧
    isMnemonicValid H (setWordList l) m = .ok true}

/-- **C98.** There are exactly 2^(32w/3) valid sentences of `w` words. -/
theorem C98_number (w : Nat) (hw : w ∈ sentenceLengths) : (sentences H l w).ncard = 2 ^ (32 * w / 3) := by
  obtain ⟨k, rfl, hk1, hk2⟩ := (sentenceLengths_iff _).1 hw
  have hn : 4 * k ∈ entropySizes := (entropySizes_iff _).2 ⟨k, rfl, hk1, hk2⟩
  let f : Bytes → Bytes := fun e => match newMnemonic H (setWordList l) e with
    | .ok (m, _) => m
    | .panic => []
  have hf : ∀ e m, newMnemonic H (setWordList l) e = .ok (m, none) → f e = m := by
    intro e m h
    show (match newMnemonic H (setWordList l) e with | .ok (m, _) => m | .panic => []) = m
    rw [h]
  have hset : sentences H l (3 * k) = f '' {e : Bytes | e.length = 4 * k ∧ 0 ≤ setBytes e ∧ setBytes e < 256 ^ (4 * k)} := by
    ext m
    simp only [sentences, Set.mem_ofPred_eq, Set.mem_image]
    constructor
    · rintro ⟨ws, h1, h2, rfl, h4⟩
      obtain ⟨e, ws', e1, e2, e3, e4⟩ := ((C04_isMnemonicValid H hg _).1).1 h4
      have hlay := layout_intercalate (c := 0x20) (by decide) ws (fun x hx => hg.word x (h2 x hx))
      obtain rfl : ws' = ws := (fields_layout e1).symm.trans (fields_layout hlay)
      obtain ⟨us, n1, n2, -⟩ := newMnemonic_eq H hg e e3
      obtain rfl : us = ws' := encodes_unique H n2 e4
      obtain ⟨k', hk', -, hk2'⟩ := (entropySizes_iff _).1 e3
      obtain ⟨idx, i1, i2, i3⟩ := e4
      have hlen := (first_positions H hk2' hk' i1 i3 0 (by omega)).1
      have hul : us.length = idx.length := by simpa using congrArg List.length i2
      have hel : e.length = 4 * k := by omega
      exact ⟨e, ⟨hel, Nat.zero_le _, by rw [← hel]; exact setBytes_lt e⟩, hf _ _ n1⟩
    · rintro ⟨e, ⟨he, -⟩, rfl⟩
      obtain ⟨us, n1, ⟨idx, i1, i2, i3⟩, -⟩ := newMnemonic_eq H hg e (by rw [he]; exact hn)
      obtain ⟨m, m1, -, m3⟩ := C01_roundtrip H hg e (by rw [he]; exact hn)
      have hul : us.length = idx.length := by simpa using congrArg List.length i2
      refine ⟨us, hul.trans (first_positions H hk2 he i1 i3 0 (by omega)).1, fun x hx => words_of_idx i2 x hx, hf _ _ n1, ?_⟩
      rw [hf _ _ m1]
      exact m3
  rw [hset, Set.InjOn.ncard_image, ncard_bytes _ _ _ le_rfl, Nat.sub_zero, show (256 : Nat) = 2 ^ 8 by norm_num, ← pow_mul]
  · congr 1; omega
  · rintro a ⟨ha, -⟩ b ⟨hb, -⟩ hab
    obtain ⟨m, m1, m2, -⟩ := C01_roundtrip H hg a (by rw [ha]; exact hn)
    obtain ⟨m', m1', m2', -⟩ := C01_roundtrip H hg b (by rw [hb]; exact hn)
    rw [hf _ _ m1, hf _ _ m1'] at hab
    rw [← hab, m2] at m2'
    exact (Prod.mk.inj (Outcome.ok.inj m2')).1

end

/-- C98 with the English list: of the 2^128 valid sentences of twelve words, 2^117 start with any given word. -/
example (H : Hashes) : (sentences H english.list 12).ncard = 2 ^ 128 ∧
    {e : Bytes | e.length = 16 ∧ ∃ ws : List Bytes, newMnemonic H (setWordList english.list) e = .ok ([32].intercalate ws, none) ∧
      (∀ x ∈ ws, x ∈ english.list) ∧ [str "zoo"] <+: ws}.ncard = 2 ^ 117 :=
  ⟨C98_number H english_list_good 12 (by decide), C98_first_words H english_list_good 16 (by decide) [str "zoo"]
    (by simpa using List.mem_of_getElem? english_first_last.2.1) (by decide)⟩

/-- C98 with the test mnemonic: it comes out for one value of the sixteen bytes only. -/
example : ∃ e : Bytes, e.length = 16 ∧ ∀ read : Nat → Bytes, (∀ n, (read n).length = n) →
    (generateMnemonic goHashes (setWordList english.list) read 12 =
      .ok ([32].intercalate (List.replicate 11 (str "abandon") ++ [str "about"]), none) ↔ read 16 = e) := by
  refine C98_one_value goHashes english_list_good 12 (by decide) _ (by decide) ?_ ?_
  · intro x hx
    simp only [List.mem_append, List.mem_replicate, List.mem_singleton] at hx
    rcases hx with ⟨-, rfl⟩ | rfl
    exacts [List.mem_of_getElem? english_first_last.1, List.mem_of_getElem? english_first_last.2.2]
  · obtain ⟨m, m1, -, m2⟩ := C01_roundtrip goHashes english_list_good (List.replicate 16 0) (by decide)
    obtain ⟨ws, h1, -, h2⟩ := C03_bip39_encoding goHashes english_list_good (List.replicate 16 0) (by decide)
    rw [h1] at m1
    obtain rfl := (Prod.mk.inj (Outcome.ok.inj m1)).1
    rw [h2 _ (encodes_zero english_first_last.1 english_first_last.2.2)]
    exact m2

end Bips
