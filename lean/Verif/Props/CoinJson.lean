import Verif.Model.CoinJson
import Verif.Lemmas.Bip44
import Verif.Props.Bip44
import Verif.Spec.Nfkd

/-!
# C99: coins as JSON
-/

namespace Bips
open Spec

/-- A text in valid UTF-8. -/
def Spec.ValidUtf8 (s : Bytes) : Prop := ∃ cs : List Nat, (∀ c ∈ cs, Scalar c) ∧ s = utf8s cs

/-- Go's `string([]rune(s))`: every byte that belongs to no rune becomes U+FFFD. -/
def reencode (s : Bytes) : Bytes := (runes s).flatMap fun p => utf8 p.1

theorem runes_mem_len {s : Bytes} {p : Nat × Bytes} (h : p ∈ runes s) :
    IsScalar p.1 ∧ ((p.1 = 0xFFFD ∧ p.2.length = 1) ∨ p.2 = utf8 p.1) := by
  induction hn : s.length using Nat.strong_induction_on generalizing s with
  | _ n ih =>
    cases s with
    | nil => simp at h
    | cons c s =>
      have hw := decodeRune_width c s
      rw [runes_cons, List.mem_cons] at h
      rcases h with rfl | h
      · rcases decodeRune_cases c s with e | ⟨q, t, hq, e⟩
        · rw [e]; exact ⟨show IsScalar 65533 by unfold IsScalar; decide, .inl (by simp)⟩
        · rw [e, decodeRune_utf8 hq]
          exact ⟨hq, .inr (by simp)⟩
      · exact ih _ (by rw [← hn, List.length_drop, List.length_cons]; omega) h rfl

theorem reencode_utf8s (cs : List Nat) (h : ∀ c ∈ cs, Scalar c) : reencode (utf8s cs) = utf8s cs := by
  induction cs with
  | nil => rfl
  | cons c cs ih =>
    rw [reencode, utf8s, List.flatMap_cons, runes_utf8 (h c (by simp)), List.flatMap_cons]
    exact congrArg _ (ih fun x hx => h x (by simp [hx]))

theorem reencode_eq_iff (s : Bytes) : reencode s = s ↔ ValidUtf8 s := by
  constructor
  · intro h
    refine ⟨(runes s).map (·.1), ?_, ?_⟩
    · intro c hc
      obtain ⟨p, hp, rfl⟩ := List.mem_map.1 hc
      exact (runes_mem_len hp).1
    · rw [utf8s, List.flatMap_map]; exact h.symm
  · rintro ⟨cs, h, rfl⟩
    exact reencode_utf8s cs h

theorem reencode_valid (s : Bytes) : ValidUtf8 (reencode s) := by
  refine ⟨(runes s).map (·.1), ?_, by rw [utf8s, List.flatMap_map]; rfl⟩
  intro c hc
  obtain ⟨p, hp, rfl⟩ := List.mem_map.1 hc
  exact (runes_mem_len hp).1

theorem reencode_ne_nil {s : Bytes} (h : s ≠ []) : reencode s ≠ [] := by
  cases hr : runes s with
  | nil => exact absurd hr (runes_ne_nil h)
  | cons p l =>
    rw [reencode, hr, List.flatMap_cons]
    simp [utf8_ne_nil]

namespace Json

/-! ### Texts -/

theorem escapeByte_unquote (f : Nat) (n : Nat) (hn : n < 128) (t : Bytes) :
    unquote (f + 1) (escapeByte (UInt8.ofNat n) ++ t) = (unquote f t).map fun p => (utf8 n ++ p.1, p.2) := by
  have hu : utf8 n = [UInt8.ofNat n] := by rw [utf8, if_pos hn]
  have hc : (UInt8.ofNat n).toNat = n := toNat_ofNat_lt (by omega)
  have hx : ∀ m < 128, fromHexChar (hexDigit (m / 16)) = some (m / 16) ∧ fromHexChar (hexDigit (m % 16)) = some (m % 16) :=
    fun m hm => ⟨fromHexChar_hexDigit _ (by omega), fromHexChar_hexDigit _ (by omega)⟩
  rw [hu]
  generalize hcc : UInt8.ofNat n = c at *
  unfold escapeByte
  split
  · next h => rcases h with rfl | rfl <;> rfl
  split
  · next h => subst h; rfl
  split
  · next h => subst h; rfl
  split
  · next h => subst h; rfl
  split
  · next h => subst h; rfl
  split
  · next h => subst h; rfl
  split
  · rw [hc]
    have h0 : fromHexChar 48 = some 0 := by decide
    have : getu4 (48 :: 48 :: hexDigit (n / 16) :: hexDigit (n % 16) :: t) = some (n, t) := by
      rw [getu4, h0, (hx n hn).1, (hx n hn).2]
      show some (((0 * 16 + 0) * 16 + n / 16) * 16 + n % 16, t) = some (n, t)
      congr 2; omega
    simp only [List.cons_append, List.nil_append, unquote]
    rw [if_neg (by decide), if_pos trivial, if_pos trivial, unquoteU, this]
    dsimp only
    rw [if_neg (by omega)]
    dsimp only
    rw [hu]
    rfl
  · next h1 _ _ _ _ _ h2 =>
    simp only [List.cons_append, List.nil_append, unquote]
    rw [if_neg (fun e => h1 (.inl e)), if_neg (fun e => h1 (.inr e)), if_neg (fun e => h2 (.inl e))]
    have : decodeRune (c :: t) = (n, 1) := by
      have := decodeRune_utf8 (r := n) ⟨by omega, by omega⟩ t
      rwa [hu] at this
    rw [this]
    simp [hu]

theorem escapeRune_unquote (f : Nat) {p : Nat × Bytes} (h1 : IsScalar p.1)
    (h2 : (p.1 = 0xFFFD ∧ p.2.length = 1) ∨ p.2 = utf8 p.1) (t : Bytes) :
    unquote (f + 1) (escapeRune p ++ t) = (unquote f t).map fun q => (utf8 p.1 ++ q.1, q.2) := by
  unfold escapeRune
  split
  · next h => exact escapeByte_unquote f _ h t
  split
  · next h => rw [h.1]; rfl
  split
  · next h => rcases h with h | h <;> rw [h] <;> rfl
  · next h3 h4 _ =>
    rcases h2 with h2 | h2
    · exact absurd h2 h4
    have hd := decodeRune_utf8 h1 t
    obtain ⟨c, l, e, hc, -⟩ := utf8_shape h1
    have hc' : 0xBF < c.toNat := by
      rcases hc with hc | hc
      · exfalso
        apply h3
        have := decodeRune_utf8 h1 []
        rw [e, List.append_nil] at this
        unfold decodeRune at this
        dsimp only at this
        rw [if_pos hc, Prod.mk.injEq] at this
        omega
      · exact hc
    rw [e] at hd
    rw [h2, e]
    simp only [List.cons_append, unquote] at hd ⊢
    rw [if_neg (by rintro rfl; simp at hc'), if_neg (by rintro rfl; simp at hc'), if_neg (by omega), hd]
    simp [e]

theorem runesList_unquote (l : List (Nat × Bytes)) (h : ∀ p ∈ l, IsScalar p.1 ∧ ((p.1 = 0xFFFD ∧ p.2.length = 1) ∨ p.2 = utf8 p.1))
    (f : Nat) (hf : l.length < f) (t : Bytes) :
    unquote f (l.flatMap escapeRune ++ 34 :: t) = some (l.flatMap fun p => utf8 p.1, t) := by
  induction l generalizing f with
  | nil =>
    obtain ⟨g, rfl⟩ : ∃ g, f = g + 1 := ⟨f - 1, by simp at hf; omega⟩
    rfl
  | cons p l ih =>
    obtain ⟨g, rfl⟩ : ∃ g, f = g + 1 := ⟨f - 1, by simp at hf; omega⟩
    have hp := h p (by simp)
    rw [List.flatMap_cons, List.append_assoc, escapeRune_unquote g hp.1 hp.2,
      ih (fun q hq => h q (by simp [hq])) g (by simp at hf; omega)]
    rfl

theorem escapeRune_length (p : Nat × Bytes) (h : p.2 ≠ []) : 1 ≤ (escapeRune p).length := by
  unfold escapeRune escapeByte
  have := List.length_pos_iff.2 h
  split_ifs <;> simp
  omega

theorem runes_snd_ne_nil {s : Bytes} {p : Nat × Bytes} (h : p ∈ runes s) : p.2 ≠ [] := by
  rcases (runes_mem_len h).2 with h | h
  · intro e; rw [e] at h; simp at h
  · rw [h]; exact utf8_ne_nil _

theorem length_le_flatMap (l : List (Nat × Bytes)) (h : ∀ p ∈ l, p.2 ≠ []) : l.length ≤ (l.flatMap escapeRune).length := by
  induction l with
  | nil => simp
  | cons p l ih =>
    have := ih fun q hq => h q (by simp [hq])
    have := escapeRune_length p (h p (by simp))
    simp only [List.flatMap_cons, List.length_append, List.length_cons]
    omega

theorem unquote_quote (s t : Bytes) :
    unquote ((runes s).flatMap escapeRune ++ 34 :: t).length ((runes s).flatMap escapeRune ++ 34 :: t) = some (reencode s, t) := by
  refine runesList_unquote _ (fun p hp => runes_mem_len hp) _ ?_ t
  have := length_le_flatMap (runes s) fun p hp => runes_snd_ne_nil hp
  simp only [List.length_append, List.length_cons]
  omega

/-! ### Values -/

/-- The text `b` of a value `v`: it is read up to a comma or a closing brace. -/
def Reads (b : Bytes) (v : Val) : Prop :=
  ∀ (f : Nat) (c : UInt8) (rest : Bytes), c = 44 ∨ c = 125 → value (f + 1) (b ++ c :: rest) = some (v, c :: rest)

theorem reads_quote (s : Bytes) : Reads (quote s) (.text (reencode s)) := by
  intro f c rest _
  have : quote s ++ c :: rest = 34 :: ((runes s).flatMap escapeRune ++ 34 :: (c :: rest)) := by simp [quote]
  rw [this, value, show skip (34 :: ((runes s).flatMap escapeRune ++ 34 :: (c :: rest))) =
    34 :: ((runes s).flatMap escapeRune ++ 34 :: (c :: rest)) from rfl]
  dsimp only
  rw [if_pos rfl, unquote_quote]
  rfl

theorem takeWhile_digits {d : Bytes} (h : ∀ c ∈ d, 48 ≤ c.toNat ∧ c.toNat ≤ 57) {c : UInt8} (hc : c = 44 ∨ c = 125) (rest : Bytes) :
    (d ++ c :: rest).takeWhile isDigit = d ∧ (d ++ c :: rest).dropWhile isDigit = c :: rest := by
  have hd : ∀ x ∈ d, isDigit x = true := fun x hx => by simp [isDigit, h x hx]
  have hn : isDigit c = false := by rcases hc with rfl | rfl <;> decide
  constructor
  · rw [List.takeWhile_append_of_pos hd, List.takeWhile_cons_of_neg (by simp [hn]), List.append_nil]
  · rw [List.dropWhile_append_of_pos hd, List.dropWhile_cons_of_neg (by simp [hn])]

theorem decimal_head {n : Nat} (h : n ≠ 0) : ∃ c d, decimal n = c :: d ∧ c ≠ 48 := by
  have := (decimal_numeral n).1.1
  obtain ⟨c, d, e⟩ := List.exists_cons_of_ne_nil this
  refine ⟨c, d, e, ?_⟩
  rintro rfl
  have hd := toDigitsBE_lt 10 (by omega) n
  have hne := toDigitsBE_head_ne_zero 10 (by omega) n
  rw [decimal, if_neg h] at e
  cases hl : toDigitsBE 10 n with
  | nil => rw [hl] at e; simp at e
  | cons x l =>
    rw [hl] at e hne hd
    rw [List.map_cons, List.cons.injEq] at e
    have hx := hd x (by simp)
    have : x = 0 := by
      have := congrArg UInt8.toNat e.1
      rw [toNat_ofNat_lt (by omega)] at this
      simpa using this
    subst this
    rw [List.dropWhile_cons_of_pos (by simp)] at hne
    have := congrArg List.length hne
    have h2 := (List.dropWhile_suffix (p := (· == 0)) (l := l)).length_le
    simp at this
    omega

theorem reads_decimal {n : Nat} (h : n ≠ 0) : Reads (decimal n) (.num (decimal n)) := by
  intro f c rest hc
  obtain ⟨-, hd⟩ := (decimal_numeral n).1
  obtain ⟨a, d, e, ha⟩ := decimal_head h
  rw [e] at hd ⊢
  have hda := hd a (by simp)
  have ht := takeWhile_digits hd hc rest
  have hne : ∀ x : UInt8, (x.toNat < 48 ∨ 57 < x.toNat) → a ≠ x := by rintro x hx rfl; omega
  rw [value]
  have hsk : skip (a :: d ++ c :: rest) = a :: (d ++ c :: rest) := by
    rw [skip, List.cons_append, List.dropWhile_cons_of_neg]
    simp only [isWs, Bool.or_eq_true, decide_eq_true_eq]
    rintro (((h | h) | h) | h) <;> exact absurd h (hne _ (by decide))
  have hp : ∀ (x : UInt8) (t : Bytes), (x.toNat < 48 ∨ 57 < x.toNat) → (x :: t).isPrefixOf (a :: (d ++ c :: rest)) = false := by
    intro x t hx
    rw [List.isPrefixOf, Bool.and_eq_false_iff]
    left
    simpa using (hne x hx).symm
  rw [hsk]
  dsimp only
  rw [if_neg (hne _ (by decide)), if_neg (hne _ (by decide)), if_neg (hne _ (by decide)),
    if_neg (by rw [show str "null" = 110 :: str "ull" from by decide +kernel, hp _ _ (by decide)]; simp),
    if_neg (by rw [show str "true" = 116 :: str "rue" from by decide +kernel, hp _ _ (by decide)]; simp),
    if_neg (by rw [show str "false" = 102 :: str "alse" from by decide +kernel, hp _ _ (by decide)]; simp)]
  have h45 : decide (a = 45) = false := by simpa using hne 45 (by decide)
  have hfr : fraction (c :: rest) = some ([], c :: rest) := by rcases hc with rfl | rfl <;> rfl
  rw [number]
  simp only [List.takeWhile_cons, List.dropWhile_cons, h45, Bool.false_eq_true, if_false, List.length_nil, Nat.not_lt_zero]
  rw [if_neg ha, digits1, ← List.cons_append, ht.1, ht.2, if_neg (by simp)]
  dsimp only
  rw [hfr]
  simp

/-! ### Objects -/

/-- The members of an object without the first brace. -/
def tailText : List (Bytes × Bytes × Val) → Bytes
  | [] => [125]
  | m :: ms => 44 :: quote m.1 ++ 58 :: m.2.1 ++ tailText ms

theorem tailText_head (ms : List (Bytes × Bytes × Val)) :
    ∃ c t, tailText ms = c :: t ∧ (c = 44 ∨ c = 125) := by
  cases ms with
  | nil => exact ⟨_, _, rfl, .inr rfl⟩
  | cons m ms => exact ⟨_, _, rfl, .inl rfl⟩

theorem members_text (m : Bytes × Bytes × Val) (ms : List (Bytes × Bytes × Val))
    (h : ∀ x ∈ m :: ms, Reads x.2.1 x.2.2) (f : Nat) (hf : ms.length + 1 < f) :
    members f (quote m.1 ++ 58 :: m.2.1 ++ tailText ms) =
      some ((m :: ms).map fun x => (reencode x.1, x.2.2), []) := by
  induction ms generalizing m f with
  | nil =>
    obtain ⟨g, rfl⟩ : ∃ g, f = g + 1 + 1 := ⟨f - 2, by simp at hf; omega⟩
    have e : quote m.1 ++ 58 :: m.2.1 ++ tailText [] =
      34 :: ((runes m.1).flatMap escapeRune ++ 34 :: (58 :: (m.2.1 ++ 125 :: []))) := by simp [quote, tailText]
    rw [e, members, show ∀ t, skip (34 :: t) = 34 :: t from fun _ => rfl]
    dsimp only
    rw [if_neg (by decide), unquote_quote]
    dsimp only
    rw [show ∀ t, skip (58 :: t) = 58 :: t from fun _ => rfl]
    dsimp only
    rw [if_neg (by decide), h m (by simp) g 125 [] (.inr rfl)]
    rfl
  | cons m' ms ih =>
    obtain ⟨g, rfl⟩ : ∃ g, f = g + 1 + 1 := ⟨f - 2, by simp at hf; omega⟩
    have e : quote m.1 ++ 58 :: m.2.1 ++ tailText (m' :: ms) =
      34 :: ((runes m.1).flatMap escapeRune ++ 34 :: (58 :: (m.2.1 ++ 44 :: (quote m'.1 ++ 58 :: m'.2.1 ++ tailText ms)))) := by
      simp [quote, tailText]
    have hi := ih m' (fun x hx => h x (by simp [List.mem_cons.1 hx])) (g + 1) (by simp at hf; omega)
    rw [e, members, show ∀ t, skip (34 :: t) = 34 :: t from fun _ => rfl]
    dsimp only
    rw [if_neg (by decide), unquote_quote]
    dsimp only
    rw [show ∀ t, skip (58 :: t) = 58 :: t from fun _ => rfl]
    dsimp only
    rw [if_neg (by decide), h m (by simp) g 44 _ (.inl rfl)]
    dsimp only
    rw [show ∀ t, skip (44 :: t) = 44 :: t from fun _ => rfl]
    dsimp only
    rw [if_neg (by decide), if_pos rfl, hi]
    rfl

theorem object_text (m : Bytes × Bytes × Val) (ms : List (Bytes × Bytes × Val)) :
    object ((m :: ms).map fun x => (x.1, x.2.1)) = 123 :: (quote m.1 ++ 58 :: m.2.1 ++ tailText ms) := by
  have : ∀ ms : List (Bytes × Bytes × Val),
      (ms.map fun x => (x.1, x.2.1)).flatMap (fun f : Bytes × Bytes => 44 :: quote f.1 ++ 58 :: f.2) ++ [125] = tailText ms := by
    intro ms
    induction ms with
    | nil => rfl
    | cons m ms ih =>
      rw [List.map_cons, List.flatMap_cons, List.append_assoc, ih]
      rfl
  rw [← this ms]
  simp [object]

theorem tailText_length (ms : List (Bytes × Bytes × Val)) : ms.length ≤ (tailText ms).length := by
  induction ms with
  | nil => simp
  | cons m ms ih => simp only [tailText, List.length_cons, List.length_append]; omega

theorem parse_object (ms : List (Bytes × Bytes × Val)) (h : ∀ x ∈ ms, Reads x.2.1 x.2.2) :
    parse (object (ms.map fun x => (x.1, x.2.1))) = some (.object (ms.map fun x => (reencode x.1, x.2.2))) := by
  cases ms with
  | nil => rfl
  | cons m ms =>
    rw [object_text, parse, value, show ∀ t, skip (123 :: t) = 123 :: t from fun _ => rfl]
    have hm := members_text m ms h (123 :: (quote m.1 ++ 58 :: m.2.1 ++ tailText ms)).length (by
      have := tailText_length ms
      simp only [List.length_cons, List.length_append, quote]; omega)
    dsimp only
    rw [if_neg (by decide), if_pos rfl]
    have e : quote m.1 ++ 58 :: m.2.1 ++ tailText ms = 34 :: ((runes m.1).flatMap escapeRune ++ 34 :: (58 :: (m.2.1 ++ tailText ms))) := by
      simp [quote]
    have hs : skip (quote m.1 ++ 58 :: m.2.1 ++ tailText ms) = 34 :: ((runes m.1).flatMap escapeRune ++ 34 :: (58 :: (m.2.1 ++ tailText ms))) := by
      rw [e]; rfl
    rw [hs]
    dsimp only
    rw [if_neg (by decide), hm]
    rfl

theorem toUint32_decimal (n : UInt32) : toUint32 (decimal n.toNat) = some n := by
  obtain ⟨h, hv⟩ := decimal_numeral n.toNat
  have hp := parseUintLoop_digits _ h.2 0
  have hv' : (decimal n.toNat).foldl (fun a c => a * 10 + (c.toNat - 48)) 0 = n.toNat := hv
  have hn := n.toNat_lt
  rw [hv', if_pos (by omega)] at hp
  obtain ⟨c, d, e⟩ := List.exists_cons_of_ne_nil h.1
  rw [e] at hp ⊢
  rw [toUint32]
  · rw [hp]
    dsimp only
    rw [if_pos (by omega)]
    simp
  · simp

end Json

/-! ## The theorems -/

open Json in
/-- The fields of a coin with the values they are read as. -/
def Coin.jsonTriples (c : Coin) : List (Bytes × Bytes × Val) :=
  (if c.type = 0 then [] else [(str "type", decimal c.type.toNat, .num (decimal c.type.toNat))]) ++
  (if c.pathComponent = 0 then [] else [(str "pathComponent", decimal c.pathComponent.toNat, .num (decimal c.pathComponent.toNat))]) ++
  (if c.symbol = [] then [] else [(str "symbol", quote c.symbol, .text (reencode c.symbol))]) ++
  (if c.name = [] then [] else [(str "name", quote c.name, .text (reencode c.name))])

theorem Coin.jsonFields_eq (c : Coin) : c.jsonFields = c.jsonTriples.map fun x => (x.1, x.2.1) := by
  unfold Coin.jsonFields Coin.jsonTriples
  split_ifs <;> rfl

theorem Coin.jsonTriples_reads (c : Coin) : ∀ x ∈ c.jsonTriples, Json.Reads x.2.1 x.2.2 := by
  intro x hx
  have hnum : ∀ n : UInt32, n ≠ 0 → Json.Reads (decimal n.toNat) (.num (decimal n.toNat)) := fun n hn =>
    Json.reads_decimal fun e => hn (UInt32.toNat_inj.1 (by simpa using e))
  simp only [Coin.jsonTriples, List.mem_append] at hx
  rcases hx with ((hx | hx) | hx) | hx <;> (split at hx <;> [simp at hx; skip]) <;> rw [List.mem_singleton] at hx <;> subst hx
  · exact hnum _ ‹_›
  · exact hnum _ ‹_›
  · exact Json.reads_quote _
  · exact Json.reads_quote _

theorem store_keys (d : Coin) (n : UInt32) (s : Bytes) :
    Coin.store (d, none) (reencode (str "type"), .num (decimal n.toNat)) = ({ d with type := n }, none) ∧
    Coin.store (d, none) (reencode (str "pathComponent"), .num (decimal n.toNat)) = ({ d with pathComponent := n }, none) ∧
    Coin.store (d, none) (reencode (str "symbol"), .text s) = ({ d with symbol := s }, none) ∧
    Coin.store (d, none) (reencode (str "name"), .text s) = ({ d with name := s }, none) := by
  have h0 : jsonField (reencode (str "type")) = some 0 := by decide +kernel
  have h1 : jsonField (reencode (str "pathComponent")) = some 1 := by decide +kernel
  have h2 : jsonField (reencode (str "symbol")) = some 2 := by decide +kernel
  have h3 : jsonField (reencode (str "name")) = some 3 := by decide +kernel
  refine ⟨?_, ?_, ?_, ?_⟩
  · simp only [Coin.store, h0, Json.toUint32_decimal]; rfl
  · simp only [Coin.store, h1, Json.toUint32_decimal]; rfl
  · simp only [Coin.store, h2]; rfl
  · simp only [Coin.store, h3]; rfl

/-- What decoding the JSON of a coin does to a variable that already holds a coin `d`: there is never an error; a field that is 0 or
empty in the encoded coin keeps the value it has in `d`, the others are replaced, texts with every stray byte as U+FFFD. -/
theorem C99_into (c d : Coin) :
    Coin.unmarshal c.marshal d =
      (⟨if c.type = 0 then d.type else c.type, if c.pathComponent = 0 then d.pathComponent else c.pathComponent,
        if c.symbol = [] then d.symbol else reencode c.symbol, if c.name = [] then d.name else reencode c.name⟩, none) := by
  rw [Coin.unmarshal, Coin.marshal, Coin.jsonFields_eq, Json.parse_object _ c.jsonTriples_reads]
  dsimp only
  rw [Coin.jsonTriples]
  obtain ⟨t, p, s, n⟩ := c
  obtain ⟨t', p', s', n'⟩ := d
  by_cases h1 : t = 0 <;> by_cases h2 : p = 0 <;> by_cases h3 : s = [] <;> by_cases h4 : n = [] <;>
    simp only [h1, h2, h3, h4, if_true, if_false, List.map_cons, List.map_nil, List.nil_append, List.append_nil,
      List.cons_append, List.foldl_cons, List.foldl_nil, (store_keys _ _ []).1, (store_keys _ _ []).2.1, (store_keys _ 0 _).2.2.1,
      (store_keys _ 0 _).2.2.2]

/-- A coin written as JSON and read into a new variable is the same coin exactly if its symbol and its name are valid UTF-8. -/
theorem C99_roundtrip (c : Coin) :
    Coin.unmarshal c.marshal ⟨0, 0, [], []⟩ = (c, none) ↔ ValidUtf8 c.symbol ∧ ValidUtf8 c.name := by
  obtain ⟨t, p, s, n⟩ := c
  have hv : ∀ x : Bytes, (if x = [] then [] else reencode x) = x ↔ ValidUtf8 x := by
    intro x
    rw [← reencode_eq_iff]
    split
    · next h => subst h; exact ⟨fun _ => by simp [reencode], fun _ => rfl⟩
    · rfl
  rw [C99_into, Prod.mk.injEq, Coin.mk.injEq, ← hv, ← hv]
  have hz : ∀ x : UInt32, (if x = 0 then 0 else x) = x := by intro x; split <;> simp_all
  simp only [hz, true_and, and_true]

/-- Reading into a variable that holds another coin `d` gives the coin that was written exactly if no field that is 0 or empty in it
holds something else in `d`. -/
theorem C99_reused (c d : Coin) (hs : ValidUtf8 c.symbol) (hn : ValidUtf8 c.name) :
    (Coin.unmarshal c.marshal d).1 = c ↔
      (c.type = 0 → d.type = 0) ∧ (c.pathComponent = 0 → d.pathComponent = 0) ∧ (c.symbol = [] → d.symbol = []) ∧
        (c.name = [] → d.name = []) := by
  rw [C99_into, (reencode_eq_iff _).2 hs, (reencode_eq_iff _).2 hn]
  obtain ⟨t, p, s, n⟩ := c
  have key : ∀ {α : Type} [DecidableEq α] (x y z : α), (if x = z then y else x) = x ↔ (x = z → y = z) := by
    intro α _ x y z
    by_cases h : x = z
    · subst h; simp
    · simp [h]
  simp only [Coin.mk.injEq, key]

/-- Two coins with valid texts and the same JSON are the same. -/
theorem C99_injective (c d : Coin) (hs : ValidUtf8 c.symbol) (hn : ValidUtf8 c.name) (hs' : ValidUtf8 d.symbol)
    (hn' : ValidUtf8 d.name) (h : c.marshal = d.marshal) : c = d := by
  have h1 := (C99_roundtrip c).2 ⟨hs, hn⟩
  rw [h, (C99_roundtrip d).2 ⟨hs', hn'⟩, Prod.mk.injEq] at h1
  exact h1.1.symm


/-- Bitcoin is coin number 0, which is left out: read into a variable with a coin `d` it gets the type of `d`, without an error, and
the result is valid only if `d` has type 0 too. -/
theorem C99_bitcoin (d : Coin) :
    Coin.unmarshal (Coin.marshal ⟨0, 0x80000000, str "BTC", str "Bitcoin"⟩) d = (⟨d.type, 0x80000000, str "BTC", str "Bitcoin"⟩, none) ∧
    ((Coin.mk d.type 0x80000000 (str "BTC") (str "Bitcoin")).isValid = true ↔ d.type = 0) := by
  constructor
  · rw [C99_into]
    have h1 : reencode (str "BTC") = str "BTC" := by decide +kernel
    have h2 : reencode (str "Bitcoin") = str "Bitcoin" := by decide +kernel
    have h3 : str "BTC" ≠ [] := by decide +kernel
    have h4 : str "Bitcoin" ≠ [] := by decide +kernel
    simp only [h1, h2, h3, h4]
    rfl
  · constructor
    · intro h
      have h1 : 2 ^ 31 = d.type.toNat + 2 ^ 31 := ((isValid_iff _).1 h).component
      exact UInt32.toNat_inj.1 (by simpa using h1.symm)
    · intro h; rw [h]; decide +kernel

/-- A plain byte: no control character and none of `<`, `>`, `&`. -/
def Plain (b : UInt8) : Prop := 32 ≤ b.toNat ∧ b ≠ 60 ∧ b ≠ 62 ∧ b ≠ 38

theorem plain_high {b : UInt8} (h : 63 ≤ b.toNat ∨ (48 ≤ b.toNat ∧ b.toNat ≤ 57)) : Plain b := by
  refine ⟨by omega, ?_, ?_, ?_⟩ <;> (rintro rfl; simp at h)

theorem plain_hexDigit : ∀ n < 16, Plain (hexDigit n) := by unfold Plain; decide +kernel

theorem plain_escapeByte (c : UInt8) (b : UInt8) (h : b ∈ Json.escapeByte c) : Plain b := by
  have hp : ∀ l : Bytes, l ∈ [[92, 98], [92, 102], [92, 110], [92, 114], [92, 116], [92, 117, 48, 48], [92, 34], [(92 : UInt8), 92]] →
      ∀ x ∈ l, Plain x := by unfold Plain; decide +kernel
  have hc := c.toNat_lt
  unfold Json.escapeByte at h
  split at h
  · next e => rcases e with rfl | rfl <;> exact hp _ (by simp) b h
  split at h
  · exact hp _ (by simp) b h
  split at h
  · exact hp _ (by simp) b h
  split at h
  · exact hp _ (by simp) b h
  split at h
  · exact hp _ (by simp) b h
  split at h
  · exact hp _ (by simp) b h
  split at h
  · rw [show ∀ x y : UInt8, [92, 117, 48, 48, x, y] = [92, 117, 48, 48] ++ [x, y] from fun _ _ => rfl, List.mem_append] at h
    rcases h with h | h
    · exact hp _ (by simp) b h
    · rcases List.mem_cons.1 h with rfl | h
      · exact plain_hexDigit _ (by omega)
      · rw [List.mem_singleton] at h
        rw [h]; exact plain_hexDigit _ (by omega)
  · next h1 =>
    rw [List.mem_singleton] at h
    subst h
    push Not at h1
    exact h1

theorem plain_escapeRune {s : Bytes} {p : Nat × Bytes} (hp : p ∈ runes s) (b : UInt8) (h : b ∈ Json.escapeRune p) : Plain b := by
  obtain ⟨h1, h2⟩ := runes_mem_len hp
  unfold Json.escapeRune at h
  split at h
  · exact plain_escapeByte _ b h
  split at h
  · have : ∀ x ∈ [92, 117, 102, 102, 102, (100 : UInt8)], Plain x := by unfold Plain; decide +kernel
    exact this b h
  split at h
  · have : ∀ x ∈ [92, 117, 50, 48, (50 : UInt8)], Plain x := by unfold Plain; decide +kernel
    rw [show ∀ y : UInt8, [92, 117, 50, 48, 50, y] = [92, 117, 50, 48, 50] ++ [y] from fun _ => rfl, List.mem_append] at h
    rcases h with h | h
    · exact this b h
    · rw [List.mem_singleton] at h
      rw [h]; exact plain_hexDigit _ (by omega)
  · next h3 h4 _ =>
    rcases h2 with h2 | h2
    · exact absurd h2 h4
    obtain ⟨c, l, e, hc, hl⟩ := utf8_shape h1
    rw [h2, e] at h
    rcases List.mem_cons.1 h with rfl | h
    · rcases hc with hc | hc
      · exfalso
        apply h3
        have := decodeRune_utf8 h1 []
        rw [e, List.append_nil] at this
        unfold decodeRune at this
        dsimp only at this
        rw [if_pos hc, Prod.mk.injEq] at this
        omega
      · exact plain_high (.inl (by omega))
    · have := hl b h
      exact plain_high (.inl (by omega))

theorem plain_quote (s : Bytes) (b : UInt8) (h : b ∈ Json.quote s) : Plain b := by
  have h34 : Plain 34 := by unfold Plain; decide
  simp only [Json.quote, List.cons_append, List.mem_cons, List.mem_append, List.mem_flatMap, List.not_mem_nil, or_false] at h
  rcases h with rfl | ⟨p, hp, h⟩ | rfl
  · exact h34
  · exact plain_escapeRune hp b h
  · exact h34

theorem plain_object (fs : List (Bytes × Bytes)) (hf : ∀ f ∈ fs, ∀ b ∈ f.2, Plain b) (b : UInt8) (h : b ∈ Json.object fs) : Plain b := by
  have hp : ∀ x ∈ [123, 125, 58, (44 : UInt8)], Plain x := by unfold Plain; decide
  cases fs with
  | nil =>
    refine hp b ?_
    simp only [Json.object, List.mem_cons, List.not_mem_nil, or_false] at h ⊢
    tauto
  | cons f fs =>
    simp only [Json.object, List.cons_append, List.append_assoc, List.mem_cons, List.mem_append, List.mem_flatMap, List.not_mem_nil,
      or_false] at h
    rcases h with rfl | h | rfl | h | ⟨g, hg, rfl | h | rfl | h⟩ | rfl
    · exact hp _ (by simp)
    · exact plain_quote _ b h
    · exact hp _ (by simp)
    · exact hf f (by simp) b h
    · exact hp _ (by simp)
    · exact plain_quote _ b h
    · exact hp _ (by simp)
    · exact hf g (by simp [hg]) b h
    · exact hp _ (by simp)

/-- The text is plain: no control character, and none of `<`, `>`, `&`, so that it can stand in a page. -/
theorem C99_plain (c : Coin) (b : UInt8) (h : b ∈ c.marshal) : 32 ≤ b.toNat ∧ b ≠ 60 ∧ b ≠ 62 ∧ b ≠ 38 := by
  refine plain_object _ ?_ b h
  have hd : ∀ n, ∀ b ∈ decimal n, Plain b := fun n b hb => plain_high (.inr ((decimal_numeral n).1.2 b hb))
  intro f hf b hb
  simp only [Coin.jsonFields, List.mem_append] at hf
  rcases hf with ((hf | hf) | hf) | hf <;> (split at hf <;> [simp at hf; skip]) <;> rw [List.mem_singleton] at hf <;> subst hf
  · exact hd _ b hb
  · exact hd _ b hb
  · exact plain_quote _ b hb
  · exact plain_quote _ b hb

theorem valid_append {s t : Bytes} (h : ValidUtf8 s) (h' : ValidUtf8 t) : ValidUtf8 (s ++ t) := by
  obtain ⟨cs, hc, rfl⟩ := h
  obtain ⟨ds, hd, rfl⟩ := h'
  refine ⟨cs ++ ds, ?_, by simp [utf8s]⟩
  intro c h
  rcases List.mem_append.1 h with h | h
  · exact hc c h
  · exact hd c h

theorem valid_ascii {s : Bytes} (h : ∀ b ∈ s, b.toNat < 128) : ValidUtf8 s := by
  refine ⟨s.map UInt8.toNat, ?_, ?_⟩
  · intro c hc
    obtain ⟨b, hb, rfl⟩ := List.mem_map.1 hc
    have := h b hb
    exact ⟨by omega, by omega⟩
  · rw [utf8s, List.flatMap_map]
    induction s with
    | nil => rfl
    | cons b s ih =>
      rw [List.flatMap_cons, ← ih fun x hx => h x (by simp [hx]), utf8, if_pos (h b (by simp))]
      simp

theorem valid_flatMap {α : Type} (l : List α) (f : α → Bytes) (h : ∀ a ∈ l, ValidUtf8 (f a)) : ValidUtf8 (l.flatMap f) := by
  induction l with
  | nil => exact valid_ascii (by simp)
  | cons a l ih =>
    rw [List.flatMap_cons]
    exact valid_append (h a (by simp)) (ih fun x hx => h x (by simp [hx]))

theorem hexDigit_ascii : ∀ n < 16, (hexDigit n).toNat < 128 := by decide +kernel

theorem escapeByte_ascii : ∀ n < 128, ∀ b ∈ Json.escapeByte (UInt8.ofNat n), b.toNat < 128 := by decide +kernel

theorem valid_escapeRune {s : Bytes} {p : Nat × Bytes} (hp : p ∈ runes s) : ValidUtf8 (Json.escapeRune p) := by
  obtain ⟨h1, h2⟩ := runes_mem_len hp
  unfold Json.escapeRune
  split
  · next h => exact valid_ascii (escapeByte_ascii _ h)
  split
  · exact valid_ascii (by decide)
  split
  · have := hexDigit_ascii (p.1 % 16) (by omega)
    refine valid_ascii fun b hb => ?_
    simp only [List.mem_cons, List.not_mem_nil, or_false] at hb
    rcases hb with rfl | rfl | rfl | rfl | rfl | rfl <;> first | exact this | decide
  · next h4 _ =>
    rcases h2 with h2 | h2
    · exact absurd h2 h4
    · exact ⟨[p.1], fun c hc => by rw [List.mem_singleton] at hc; subst hc; exact h1, by rw [h2]; simp [utf8s]⟩

theorem valid_quote (s : Bytes) : ValidUtf8 (Json.quote s) :=
  valid_append (valid_append (s := [34]) (valid_ascii (by decide)) (valid_flatMap _ _ fun _ hp => valid_escapeRune hp))
    (valid_ascii (by decide))

/-- The text is valid UTF-8, even if symbol or name are not. -/
theorem C99_utf8 (c : Coin) : ValidUtf8 c.marshal := by
  have hd : ∀ n, ValidUtf8 (decimal n) := fun n => valid_ascii fun b hb => by
    have := (decimal_numeral n).1.2 b hb
    omega
  have hf : ∀ f ∈ c.jsonFields, ValidUtf8 f.2 := by
    intro f hf
    simp only [Coin.jsonFields, List.mem_append] at hf
    rcases hf with ((hf | hf) | hf) | hf <;> (split at hf <;> [simp at hf; skip]) <;> rw [List.mem_singleton] at hf <;> subst hf
    · exact hd _
    · exact hd _
    · exact valid_quote _
    · exact valid_quote _
  have h1 : ∀ b : UInt8, b ∈ [123, 125, 58, (44 : UInt8)] → ValidUtf8 [b] := by
    intro b hb
    refine valid_ascii fun x hx => ?_
    rw [List.mem_singleton] at hx
    subst hx
    revert hb
    simp only [List.mem_cons, List.not_mem_nil, or_false]
    rintro (rfl | rfl | rfl | rfl) <;> decide
  have hm : ∀ f ∈ c.jsonFields, ValidUtf8 (Json.quote f.1 ++ 58 :: f.2) := fun f h =>
    valid_append (valid_quote _) (valid_append (s := [58]) (h1 _ (by simp)) (hf f h))
  rw [Coin.marshal]
  cases hl : c.jsonFields with
  | nil => exact valid_ascii (by decide)
  | cons f fs =>
    rw [hl] at hm
    have := valid_append (valid_append (valid_append (s := [123]) (h1 _ (by simp)) (hm f (by simp)))
      (valid_flatMap fs (fun f => 44 :: (Json.quote f.1 ++ 58 :: f.2)) fun g hg =>
        valid_append (s := [44]) (h1 _ (by simp)) (hm g (by simp [hg])))) (h1 125 (by simp))
    simpa [Json.object] using this

/-! ### The text itself -/

/-- A text that JSON shows as it is: valid UTF-8 without control characters, quotes, backslashes, `<`, `>`, `&`, U+2028, U+2029. -/
def Spec.JsonPlain (s : Bytes) : Prop :=
  ∃ cs : List Nat, (∀ c ∈ cs, Scalar c ∧ 32 ≤ c ∧ c ∉ [34, 92, 60, 62, 38, 0x2028, 0x2029]) ∧ s = utf8s cs

theorem Spec.JsonPlain.valid {s : Bytes} (h : JsonPlain s) : ValidUtf8 s := by
  obtain ⟨cs, hcs, e⟩ := h
  exact ⟨cs, fun c hc => (hcs c hc).1, e⟩

/-- The object of a coin: the members that are neither 0 nor empty, in this order, separated by commas. -/
def Spec.coinJson (c : Coin) : Bytes :=
  str "{" ++ (str ",").intercalate
    (([(str "\"type\":", decimal c.type.toNat, decide (c.type ≠ 0)),
       (str "\"pathComponent\":", decimal c.pathComponent.toNat, decide (c.pathComponent ≠ 0)),
       (str "\"symbol\":", str "\"" ++ c.symbol ++ str "\"", decide (c.symbol ≠ [])),
       (str "\"name\":", str "\"" ++ c.name ++ str "\"", decide (c.name ≠ []))].filter (·.2.2)).map fun m => m.1 ++ m.2.1) ++
  str "}"

theorem quote_plain {s : Bytes} (h : JsonPlain s) : Json.quote s = 34 :: s ++ [34] := by
  obtain ⟨cs, hcs, rfl⟩ := h
  rw [Json.quote]
  congr 2
  induction cs with
  | nil => rfl
  | cons c cs ih =>
    obtain ⟨h1, h2, h3⟩ := hcs c (by simp)
    rw [utf8s, List.flatMap_cons, runes_utf8 h1, List.flatMap_cons]
    refine congrArg₂ _ ?_ (ih fun x hx => hcs x (by simp [hx]))
    simp only [List.mem_cons, List.not_mem_nil, not_or, or_false] at h3
    rw [Json.escapeRune]
    split
    · next h =>
      dsimp only at h ⊢
      have hn : ∀ m < 128, c ≠ m → UInt8.ofNat c ≠ UInt8.ofNat m := by
        intro m hm hne e
        have := congrArg UInt8.toNat e
        rw [toNat_ofNat_lt (by omega), toNat_ofNat_lt (by omega)] at this
        exact hne this
      have ht : (UInt8.ofNat c).toNat = c := toNat_ofNat_lt (by omega)
      have e : utf8 c = [UInt8.ofNat c] := by rw [utf8, if_pos h]
      have f1 : UInt8.ofNat c ≠ 34 := hn 34 (by omega) (by tauto)
      have f2 : UInt8.ofNat c ≠ 92 := hn 92 (by omega) (by tauto)
      have f3 : UInt8.ofNat c ≠ 60 := hn 60 (by omega) (by tauto)
      have f4 : UInt8.ofNat c ≠ 62 := hn 62 (by omega) (by tauto)
      have f5 : UInt8.ofNat c ≠ 38 := hn 38 (by omega) (by tauto)
      have g1 : UInt8.ofNat c ≠ 8 := hn 8 (by omega) (by omega)
      have g2 : UInt8.ofNat c ≠ 12 := hn 12 (by omega) (by omega)
      have g3 : UInt8.ofNat c ≠ 10 := hn 10 (by omega) (by omega)
      have g4 : UInt8.ofNat c ≠ 13 := hn 13 (by omega) (by omega)
      have g5 : UInt8.ofNat c ≠ 9 := hn 9 (by omega) (by omega)
      rw [Json.escapeByte, if_neg (not_or.2 ⟨f1, f2⟩), if_neg g1, if_neg g2, if_neg g3, if_neg g4, if_neg g5,
        if_neg (by rw [ht]; push Not; exact ⟨by omega, f3, f4, f5⟩), e]
    · next h =>
      have hl : ¬ (utf8 c).length = 1 := by
        intro hl
        dsimp only at h
        rw [utf8, if_neg h] at hl
        split_ifs at hl <;> simp at hl
      rw [if_neg (fun h => hl h.2), if_neg (by dsimp only; tauto)]

/-- The text of a coin whose symbol and name need no escapes. -/
theorem C99_text (c : Coin) (hs : JsonPlain c.symbol) (hn : JsonPlain c.name) : c.marshal = coinJson c := by
  have k1 : Json.quote (str "type") ++ [58] = str "\"type\":" := by decide +kernel
  have k2 : Json.quote (str "pathComponent") ++ [58] = str "\"pathComponent\":" := by decide +kernel
  have k3 : Json.quote (str "symbol") ++ [58] = str "\"symbol\":" := by decide +kernel
  have k4 : Json.quote (str "name") ++ [58] = str "\"name\":" := by decide +kernel
  have p1 : str "{" = [123] := by decide +kernel
  have p2 : str "}" = [125] := by decide +kernel
  have p3 : str "," = [44] := by decide +kernel
  have p4 : str "\"" = [34] := by decide +kernel
  rw [Coin.marshal, Coin.jsonFields, quote_plain hs, quote_plain hn, coinJson, ← k1, ← k2, ← k3, ← k4, p1, p2, p3, p4]
  obtain ⟨t, p, s, n⟩ := c
  by_cases h1 : t = 0 <;> by_cases h2 : p = 0 <;> by_cases h3 : s = [] <;> by_cases h4 : n = [] <;>
    simp [h1, h2, h3, h4, Json.object, List.intercalate]

/-- `JsonPlain`, for the kernel. -/
def plainText (s : Bytes) : Bool :=
  decide (reencode s = s) && (runes s).all fun p => decide (32 ≤ p.1 ∧ p.1 ∉ [34, 92, 60, 62, 38, 0x2028, 0x2029])

theorem plainText_plain {s : Bytes} (h : plainText s = true) : JsonPlain s := by
  rw [plainText, Bool.and_eq_true, decide_eq_true_eq, List.all_eq_true] at h
  refine ⟨(runes s).map (·.1), ?_, by rw [utf8s, List.flatMap_map]; exact h.1.symm⟩
  intro c hc
  obtain ⟨p, hp, rfl⟩ := List.mem_map.1 hc
  exact ⟨(runes_mem_len hp).1, by simpa only [decide_eq_true_eq] using h.2 p hp⟩

/-- A byte of ASCII that needs no escape. -/
def plainByte (b : Nat) : Bool :=
  bif Nat.ble 32 b then bif Nat.ble b 127 then bif Nat.beq b 34 then false else bif Nat.beq b 92 then false else
    bif Nat.beq b 60 then false else bif Nat.beq b 62 then false else bif Nat.beq b 38 then false else true else false else false

theorem plainByte_iff : ∀ b < 256, plainByte b = true → b < 128 ∧ 32 ≤ b ∧ b ∉ [34, 92, 60, 62, 38, 0x2028, 0x2029] := by
  decide +kernel

/-- `JsonPlain` of a text given by its code: fast for ASCII. -/
def plainCode (n : Nat) : Bool := bif (natBytes 64 n []).all plainByte then true else plainText (codeWord n)

theorem plainCode_plain {n : Nat} (h : plainCode n = true) : JsonPlain (codeWord n) := by
  rw [plainCode] at h
  cases ha : (natBytes 64 n []).all plainByte with
  | false => rw [ha] at h; exact plainText_plain h
  | true =>
    rw [← codeWord_toNat, List.all_map, List.all_eq_true] at ha
    generalize codeWord n = s at ha
    have hb : ∀ b ∈ s, _ := fun b hb => plainByte_iff b.toNat b.toNat_lt (ha b hb)
    refine ⟨s.map UInt8.toNat, ?_, ?_⟩
    · intro c hc
      obtain ⟨b, hbs, rfl⟩ := List.mem_map.1 hc
      have := hb b hbs
      exact ⟨⟨by omega, by omega⟩, this.2⟩
    · rw [utf8s, List.flatMap_map]
      clear ha
      induction s with
      | nil => rfl
      | cons b s ih =>
        rw [List.flatMap_cons, ← ih fun x hx => hb x (by simp [hx]), utf8, if_pos (hb b (by simp)).1]
        simp

set_option maxRecDepth 100000 in
theorem table_plainCode : Data.Coins.codes.all (fun c => bif plainCode c.symbol then plainCode c.name else false) = true := by
  decide +kernel

theorem table_plain {c : Coin} (h : c ∈ coinTable) : JsonPlain c.symbol ∧ JsonPlain c.name := by
  obtain ⟨d, hd, rfl⟩ := List.mem_map.1 h
  have := List.all_eq_true.1 table_plainCode d hd
  cases h1 : plainCode d.symbol with
  | false => rw [h1] at this; cases this
  | true =>
    rw [h1] at this
    exact ⟨plainCode_plain h1, plainCode_plain this⟩

theorem registered_plain {sorted : List Coin} (h : SortOutcome coinTable sorted) {c : Coin} (hc : c ∈ (CoinReg.init sorted).coins) :
    JsonPlain c.symbol ∧ JsonPlain c.name := by
  rw [init_coins] at hc
  obtain ⟨d, hd, rfl⟩ := List.mem_map.1 hc
  rw [(repair_sameRow d).2.1, (repair_sameRow d).2.2]
  exact table_plain (h.perm.mem_iff.1 hd)

/-- Every registered coin is written without escapes and survives being written and read into a new variable. -/
theorem C99_registered {sorted : List Coin} (h : SortOutcome coinTable sorted) {c : Coin} (hc : c ∈ (CoinReg.init sorted).coins) :
    c.marshal = coinJson c ∧ Coin.unmarshal c.marshal ⟨0, 0, [], []⟩ = (c, none) := by
  obtain ⟨h1, h2⟩ := registered_plain h hc
  exact ⟨C99_text c h1 h2, (C99_roundtrip c).2 ⟨h1.valid, h2.valid⟩⟩

/-! ### Examples -/

/-- The text of Bitcoin: the type is left out. -/
example : Coin.marshal ⟨0, 0x80000000, str "BTC", str "Bitcoin"⟩ =
    str "{\"pathComponent\":2147483648,\"symbol\":\"BTC\",\"name\":\"Bitcoin\"}" := by decide +kernel

/-- A name with a quote, a tag and a stray byte: written with escapes, and the stray byte is lost. -/
example : Coin.marshal ⟨5, 0, [], str "a\"<æ" ++ [0xFF]⟩ = str "{\"type\":5,\"name\":\"a\\\"\\u003cæ\\ufffd\"}" ∧
    Coin.unmarshal (Coin.marshal ⟨5, 0, [], str "a\"<æ" ++ [0xFF]⟩) ⟨0, 0, [], []⟩ = (⟨5, 0, [], str "a\"<æ�"⟩, none) ∧
    ¬ ValidUtf8 (str "a\"<æ" ++ [0xFF]) := by
  refine ⟨by decide +kernel, by decide +kernel, ?_⟩
  rw [← reencode_eq_iff]; decide +kernel

/-- A loop that reads Litecoin and then Bitcoin into the same variable ends with a Bitcoin of type 2. -/
example : (Coin.unmarshal (Coin.marshal ⟨0, 0x80000000, str "BTC", str "Bitcoin"⟩)
    (Coin.unmarshal (Coin.marshal ⟨2, 0x80000002, str "LTC", str "Litecoin"⟩) ⟨0, 0, [], []⟩).1).1 =
    ⟨2, 0x80000000, str "BTC", str "Bitcoin"⟩ := by decide +kernel

/-- Names are found whatever their case, unknown ones are ignored; a number that is too big is an error and changes nothing, but the
fields after it are stored. -/
example : Coin.unmarshal (str " { \"TYPE\" : 4294967296, \"x\": [1, {}], \"ſymbol\" : \"\\u0041\" } ") ⟨7, 8, [], []⟩ =
    (⟨7, 8, str "A", []⟩, some .typeError) ∧
    Coin.unmarshal (str "{\"type\":1,}") ⟨7, 8, [], []⟩ = (⟨7, 8, [], []⟩, some .syntaxError) := by decide +kernel

/-- The written text of a coin of type 0 and of one with all members. -/
example : coinJson ⟨0, 0x80000000, str "BTC", str "Bitcoin"⟩ =
    str "{\"pathComponent\":2147483648,\"symbol\":\"BTC\",\"name\":\"Bitcoin\"}" ∧
    coinJson ⟨457, 0x800001c9, str "AE", str "æternity"⟩ =
    str "{\"type\":457,\"pathComponent\":2147484105,\"symbol\":\"AE\",\"name\":\"æternity\"}" ∧
    JsonPlain (str "æternity") :=
  ⟨by decide +kernel, by decide +kernel, plainText_plain (by decide +kernel)⟩

end Bips
