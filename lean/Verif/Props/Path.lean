import Verif.Lemmas.Path
import Mathlib.Data.Nat.Digits.Defs

/-!
# C36–C41: derivation paths

`p` ranges over all byte strings. `PathText`, `decValue`, `stripSpace` are specified in `Verif/Spec/Path.lean`.
-/

namespace Bips
open Spec

/-- **C36.** A path is valid iff, after removing ASCII white space, it is `m`/`M` followed by hardened and then
plain components, every number is below 2⁶³, and every hardened number is below 2³¹ modulo 2³². -/
theorem C36_valid_iff_grammar (p : Bytes) :
    pathIsValid p = true ↔
      ∃ cs : List Comp, PathText (stripSpace p) cs ∧
        ∀ c ∈ cs, decValue c.digits < 2 ^ 63 ∧ (c.hardened = true → decValue c.digits % 2 ^ 32 < 2 ^ 31) :=
  pathIsValid_iff p

/-- A typical path meets the right-hand side. -/
def bip44Comps : List Comp := [⟨str "44", true⟩, ⟨str "0", true⟩, ⟨str "0", true⟩, ⟨str "0", false⟩, ⟨str "7", false⟩]

theorem bip44_text : PathText (stripSpace (str "m/44'/0'/0' /0/7")) bip44Comps := by
  refine ⟨.inl (by decide), ?_, 3, 2, by decide⟩
  intro c hc
  constructor
  · revert c; decide
  · revert c; decide

example : pathIsValid (str "m/44'/0'/0' /0/7") = true := by
  rw [C36_valid_iff_grammar]
  exact ⟨bip44Comps, bip44_text, by decide +kernel⟩

/-- Syntactically wrong texts are invalid; the condition excludes something. -/
example : pathIsValid (str "m/0/1'") = false := by
  rw [← Bool.not_eq_true, C36_valid_iff_grammar]
  rintro ⟨cs, ⟨h1, h2, h3⟩, -⟩
  have h : pathRegex.rmatch (stripSpace (str "m/0/1'")) = true := (pathRegex_iff _).2 ⟨cs, h1, h2, h3⟩
  revert h
  decide +kernel

/-- **C37**, exact behaviour: the list of values of a valid path is `0` followed by, for each component, its
number reduced modulo 2³², plus 2³¹ if it carries an apostrophe. -/
theorem C37_values_exact (p : Bytes) (hp : pathIsValid p = true) (cs : List Comp) (hcs : PathText (stripSpace p) cs) :
    valuesAtDepth p =
      (0 :: cs.map fun c => UInt32.ofNat (decValue c.digits % 2 ^ 32 + if c.hardened then 2 ^ 31 else 0), none) := by
  obtain ⟨cs', h1, h2, h3⟩ := valuesAtDepth_valid hp
  obtain rfl := pathText_unique hcs h1
  rw [h3]
  congr 2
  apply List.map_congr_left
  intro c hc
  unfold compVal
  apply UInt32.toNat_inj.1
  have := (h2 c hc).2
  cases hh : c.hardened
  · simp
  · simp only [if_true]
    rw [UInt32.toNat_add, UInt32.toNat_ofNat', UInt32.toNat_ofNat', hard_toNat]

/-- **C37** (partial): values are read at face value when every number fits 32 bits. Missing: numbers of
2³² and more, which the code accepts and truncates (`C37_truncation`). -/
theorem C37_values_face_partial (p : Bytes) (hp : pathIsValid p = true) (cs : List Comp)
    (hcs : PathText (stripSpace p) cs) (hsmall : ∀ c ∈ cs, decValue c.digits < 2 ^ 32) :
    (valuesAtDepth p).2 = none ∧ (valuesAtDepth p).1.map UInt32.toNat = 0 :: cs.map Comp.value := by
  rw [C37_values_exact p hp cs hcs]
  refine ⟨rfl, ?_⟩
  obtain ⟨cs', h1, h2, -⟩ := valuesAtDepth_valid hp
  obtain rfl := pathText_unique hcs h1
  simp only [List.map_cons, List.map_map]
  congr 1
  apply List.map_congr_left
  intro c hc
  have h3 := h2 c hc
  have h4 := hsmall c hc
  simp only [Function.comp, Comp.value, CompOk] at h3 ⊢
  rw [UInt32.toNat_ofNat', Nat.mod_eq_of_lt h4]
  rw [Nat.mod_eq_of_lt h4] at h3
  cases hh : c.hardened
  · rw [if_neg (by simp), Nat.add_zero, Nat.mod_eq_of_lt h4]
  · have := h3.2 hh
    rw [if_pos rfl, Nat.mod_eq_of_lt]
    norm_num at this ⊢
    omega

example : (valuesAtDepth (str "m/44'/0'/0' /0/7")).1.map UInt32.toNat =
    [0, 2 ^ 31 + 44, 2 ^ 31, 2 ^ 31, 0, 7] := by
  have hp : pathIsValid (str "m/44'/0'/0' /0/7") = true := by
    rw [C36_valid_iff_grammar]; exact ⟨bip44Comps, bip44_text, by decide +kernel⟩
  rw [(C37_values_face_partial _ hp _ bip44_text (by decide +kernel)).2]
  decide +kernel

/-- **C37**, the deviation: `m/4294967296` is accepted and read as `[0, 0]`, the same as `m/0`;
likewise `m/4294967296'` is read as `m/0'`. -/
theorem C37_truncation :
    valuesAtDepth (str "m/4294967296") = ([0, 0], none) ∧
    valuesAtDepth (str "m/0") = ([0, 0], none) ∧
    valuesAtDepth (str "m/4294967296'") = ([0, 2147483648], none) := by
  decide +kernel

/-- **C38.** `String` and `Formatted` remove exactly the ASCII white-space bytes, are idempotent, and leave
validity and values unchanged. -/
theorem C38_white_space (p : Bytes) :
    pathString p = stripSpace p ∧ pathFormatted p = stripSpace p ∧
    pathString (pathString p) = pathString p ∧
    pathIsValid (pathFormatted p) = pathIsValid p ∧
    valuesAtDepth (pathFormatted p) = valuesAtDepth p := by
  have h := valuesAtDepth_strip p
  refine ⟨pathString_eq p, pathString_eq p, ?_, ?_, ?_⟩
  · rw [pathString_eq, pathString_eq, stripSpace_idem]
  · rw [pathFormatted, pathString_eq, pathIsValid, pathIsValid, h]
  · rw [pathFormatted, pathString_eq, h]

/-- **C38**, corollary on two texts: equal up to white space means equal validity and values. -/
theorem C38_layout_irrelevant (p q : Bytes) (h : stripSpace p = stripSpace q) :
    pathIsValid p = pathIsValid q ∧ valuesAtDepth p = valuesAtDepth q := by
  have hv : valuesAtDepth p = valuesAtDepth q := by
    rw [← valuesAtDepth_strip p, h, valuesAtDepth_strip]
  exact ⟨by rw [pathIsValid, pathIsValid, hv], hv⟩

example : stripSpace (str " m / 44' /0\t") = stripSpace (str "m/44'/0") := by decide

/-- **C39**, exact behaviour, for every text and every depth: the error of `ValuesAtDepth` is passed on; otherwise
the depth is compared with the number of values modulo 256. It never panics. -/
theorem C39_valueAtDepth_exact (p : Bytes) (b : UInt8) :
    (∀ e, (valuesAtDepth p).2 = some e → valueAtDepth p b = .ok (0, some e)) ∧
    ((valuesAtDepth p).2 = none →
      (b.toNat < (valuesAtDepth p).1.length % 256 →
        ∃ v, (valuesAtDepth p).1[b.toNat]? = some v ∧ valueAtDepth p b = .ok (v, none)) ∧
      (¬ b.toNat < (valuesAtDepth p).1.length % 256 →
        valueAtDepth p b = .ok (0, some .unSupportedOrInvalidPath))) ∧
    valueAtDepth p b ≠ .panic := by
  have hcmp : ∀ n : Nat, b < UInt8.ofNat n ↔ b.toNat < n % 256 := by
    intro n
    rw [UInt8.lt_iff_toNat_lt, UInt8.toNat_ofNat']
  unfold valueAtDepth
  rcases hv : valuesAtDepth p with ⟨vals, _ | e⟩
  · simp only [reduceCtorEq, false_implies, implies_true, true_and, hcmp]
    have hb : b.toNat < vals.length % 256 → b.toNat < vals.length :=
      fun h => Nat.lt_of_lt_of_le h (Nat.mod_le _ _)
    by_cases h : b.toNat < vals.length % 256
    · have hs : vals[b.toNat]? = some (vals[b.toNat]'(hb h)) := List.getElem?_eq_getElem (hb h)
      simp [h, hs]
    · simp [h]
  · simp

/-- **C39** (partial): for a valid path with at most 254 components, `ValueAtDepth(b)` is the `b`-th value for
every `b` up to the number of components, and an error beyond. Missing: longer paths, where the bound wraps
(`C39_wraps`). -/
theorem C39_valueAtDepth_partial (p : Bytes) (b : UInt8) (hp : pathIsValid p = true)
    (hlen : (valuesAtDepth p).1.length ≤ 255) :
    valueAtDepth p b = match (valuesAtDepth p).1[b.toNat]? with
      | some v => .ok (v, none)
      | none => .ok (0, some .unSupportedOrInvalidPath) := by
  have h := (C39_valueAtDepth_exact p b).2.1 (by simpa [pathIsValid] using hp)
  rw [Nat.mod_eq_of_lt (by omega)] at h
  by_cases hb : b.toNat < (valuesAtDepth p).1.length
  · obtain ⟨v, h1, h2⟩ := h.1 hb
    rw [h1, h2]
  · rw [h.2 hb, List.getElem?_eq_none (Nat.le_of_not_lt hb)]

example : pathIsValid (str "m/44'/0'/0' /0/7") = true ∧
    valueAtDepth (str "m/44'/0'/0' /0/7") 5 = .ok (7, none) ∧
    valueAtDepth (str "m/44'/0'/0' /0/7") 6 = .ok (0, some .unSupportedOrInvalidPath) := by decide +kernel

/-- The path `m/0/0/…/0` with `n` components. -/
def zerosPath (n : Nat) : Bytes := str "m" ++ (List.replicate n (⟨str "0", false⟩ : Comp)).flatMap Comp.text

theorem zerosPath_values (n : Nat) :
    pathIsValid (zerosPath n) = true ∧ valuesAtDepth (zerosPath n) = (List.replicate (n + 1) 0, none) := by
  have ht : PathText (zerosPath n) (List.replicate n ⟨str "0", false⟩) := by
    refine ⟨.inl rfl, ?_, 0, n, by simp⟩
    intro c hc
    rw [List.eq_of_mem_replicate hc]
    exact ⟨by decide, by decide⟩
  have ht' : PathText (stripSpace (zerosPath n)) (List.replicate n ⟨str "0", false⟩) := by
    rw [stripSpace_of_pathText ht]; exact ht
  have hok : ∀ c ∈ List.replicate n (⟨str "0", false⟩ : Comp), CompOk c := by
    intro c hc
    rw [List.eq_of_mem_replicate hc]
    exact ⟨by decide, by decide⟩
  have hv := (valuesAtDepth_of_text ht').1 hok
  refine ⟨(pathIsValid_iff _).2 ⟨_, ht', hok⟩, ?_⟩
  rw [hv, List.map_replicate, List.replicate_succ]
  rfl

/-- **C39**, the deviation: on the valid path with 255 components every depth is reported as an error, although
256 values exist. -/
theorem C39_wraps (b : UInt8) :
    pathIsValid (zerosPath 255) = true ∧ (valuesAtDepth (zerosPath 255)).1[b.toNat]? = some 0 ∧
    valueAtDepth (zerosPath 255) b = .ok (0, some .unSupportedOrInvalidPath) := by
  obtain ⟨h1, h2⟩ := zerosPath_values 255
  refine ⟨h1, ?_, ?_⟩
  · rw [h2, List.getElem?_replicate, if_pos b.toNat_lt]
  · exact ((C39_valueAtDepth_exact _ b).2.1 (by rw [h2])).2
      (by rw [h2, List.length_replicate]; exact Nat.not_lt_zero _)

/-- All hardened flags come first. -/
def HardenedFirst (l : List Bool) : Prop := ∃ j k, l = List.replicate j true ++ List.replicate k false

/-- **C40**, exact behaviour, for a valid path with any number of components `cs`: a depth that is not below their number
plus one, modulo 256, is an error. At any other depth `b ≥ 1` replacement succeeds with some text `q`. If the hardened
components still come first after the replacement, `q` is valid, reading depth `b` gives the new value, and all other
depths are unchanged; otherwise `q` is not a valid path (and no error was reported). -/
theorem C40_replace_exact (p : Bytes) (cs : List Comp) (hp : pathIsValid p = true)
    (hcs : PathText (stripSpace p) cs) (b : UInt8) (val : UInt32) :
    (¬ b.toNat < (cs.length + 1) % 256 →
      replaceValueAtDepth p b val = .ok (p, some .unSupportedOrInvalidPath)) ∧
    (b.toNat < (cs.length + 1) % 256 → 1 ≤ b.toNat → ∃ q, replaceValueAtDepth p b val = .ok (q, none) ∧
      (HardenedFirst ((cs.map Comp.hardened).set (b.toNat - 1) (decide (2 ^ 31 ≤ val.toNat))) →
        valuesAtDepth q = ((valuesAtDepth p).1.set b.toNat val, none)) ∧
      (¬ HardenedFirst ((cs.map Comp.hardened).set (b.toNat - 1) (decide (2 ^ 31 ≤ val.toNat))) →
        pathIsValid q = false)) := by
  have hlen : ∀ {l : List Comp}, (b < UInt8.ofNat (0 :: l.map compVal).length ↔ b.toNat < (l.length + 1) % 256) := by
    intro l
    rw [UInt8.lt_iff_toNat_lt, UInt8.toNat_ofNat']
    simp only [List.length_cons, List.length_map]
  constructor
  · intro hb
    obtain ⟨cs', h1, hok, hv⟩ := valuesAtDepth_valid hp
    obtain rfl := pathText_unique hcs h1
    unfold replaceValueAtDepth
    rw [hv]
    dsimp only
    rw [if_pos (by rw [hlen]; exact hb)]
  intro hb' hb1
  have hb : b.toNat ≤ cs.length := by
    have := Nat.mod_le (cs.length + 1) 256
    omega
  obtain ⟨cs', h1, hok, hv⟩ := valuesAtDepth_valid hp
  obtain rfl := pathText_unique hcs h1
  obtain ⟨w, hw, hs, hsplit⟩ := splitByte_pathText hcs
  have hlt : b < UInt8.ofNat (0 :: cs.map compVal).length := hlen.2 hb'
  have hset : (w :: cs.map compBody).set b.toNat (compBody (printComp val)) =
      w :: (cs.set (b.toNat - 1) (printComp val)).map compBody := by
    obtain ⟨n, hn⟩ : ∃ n, b.toNat = n + 1 := ⟨b.toNat - 1, by omega⟩
    rw [hn, List.set_cons_succ, Nat.add_sub_cancel, List.map_set]
  have hset' : (0 :: cs.map compVal).set b.toNat val =
      0 :: (cs.set (b.toNat - 1) (printComp val)).map compVal := by
    obtain ⟨n, hn⟩ : ∃ n, b.toNat = n + 1 := ⟨b.toNat - 1, by omega⟩
    rw [hn, List.set_cons_succ, Nat.add_sub_cancel, List.map_set, (printComp_ok val).2]
  have hnum : ∀ c ∈ cs.set (b.toNat - 1) (printComp val), IsNumeral c.digits := by
    intro c hc
    rcases List.mem_or_eq_of_mem_set hc with hc | rfl
    · exact hcs.2.1 c hc
    · exact printComp_numeral val
  have hok' : ∀ c ∈ cs.set (b.toNat - 1) (printComp val), CompOk c := by
    intro c hc
    rcases List.mem_or_eq_of_mem_set hc with hc | rfl
    · exact hok c hc
    · exact (printComp_ok val).1
  have hflags : (cs.set (b.toNat - 1) (printComp val)).map Comp.hardened =
      (cs.map Comp.hardened).set (b.toNat - 1) (decide (2 ^ 31 ≤ val.toNat)) := by
    rw [List.map_set, printComp_hardened]; rfl
  have hw47 : (47 : UInt8) ∉ w := by rcases hw with rfl | rfl <;> decide
  refine ⟨w ++ (cs.set (b.toNat - 1) (printComp val)).flatMap Comp.text, ?_, ?_, ?_⟩
  · unfold replaceValueAtDepth
    rw [hv]
    dsimp only
    rw [if_neg (by simpa using hlt), pathString_eq, hsplit, replaceText_eq,
      if_pos (by simp; omega), hset, joinByte_cons_comps]
  · intro hf
    rw [← hflags] at hf
    have ht : PathText (w ++ (cs.set (b.toNat - 1) (printComp val)).flatMap Comp.text)
        (cs.set (b.toNat - 1) (printComp val)) := by
      refine ⟨?_, hnum, hf⟩
      rcases hw with rfl | rfl
      · exact .inl rfl
      · exact .inr rfl
    have ht' := ht
    rw [← stripSpace_of_pathText ht] at ht'
    rw [(valuesAtDepth_of_text ht').1 hok', hv, hset']
  · intro hf
    rw [← hflags] at hf
    rw [← Bool.not_eq_true, pathIsValid_iff]
    rintro ⟨cs', ht, -⟩
    have hstrip : stripSpace (w ++ (cs.set (b.toNat - 1) (printComp val)).flatMap Comp.text) =
        w ++ (cs.set (b.toNat - 1) (printComp val)).flatMap Comp.text := by
      have hpart : ∀ l : List Comp, (∀ c ∈ l, IsNumeral c.digits) → stripSpace (l.flatMap Comp.text) = l.flatMap Comp.text := by
        intro l
        induction l with
        | nil => intro _; rfl
        | cons c l ih =>
          intro hl
          have hone : PathText (str "m" ++ [c].flatMap Comp.text) [c] := by
            refine ⟨.inl rfl, fun x hx => hl x (by simp at hx; simp [hx]), ?_⟩
            cases hh : c.hardened
            · exact ⟨0, 1, by simp [hh]⟩
            · exact ⟨1, 0, by simp [hh]⟩
          have h2 := stripSpace_of_pathText hone
          simp only [stripSpace, List.filter_append] at h2 ih ⊢
          have h3 := List.append_cancel_left (as := str "m") h2
          rw [List.flatMap_cons, List.filter_append, ih (fun c hc => hl c (by simp [hc]))]
          simp only [List.flatMap_cons, List.flatMap_nil, List.append_nil] at h3
          rw [h3]
      have h4 := hpart _ hnum
      simp only [stripSpace, List.filter_append] at h4 ⊢
      rw [h4]
      rcases hw with rfl | rfl <;> rfl
    rw [hstrip] at ht
    obtain ⟨w', -, -, e⟩ := splitByte_pathText ht
    rw [splitByte_comps _ hw47 _ hnum] at e
    have := compBody_map_inj _ _ hnum ht.2.1 (List.cons.inj e).2
    rw [this] at hf
    exact hf ht.2.2

/-- **C40** for at most 254 components and every depth from 1 to their number: the replacement succeeds, and is read back
exactly when the hardened components still come first. The missing part is replacements that break this order, and
paths with more components, whose number is taken modulo 256 (`C40_replace_exact`). -/
theorem C40_replace_partial (p : Bytes) (cs : List Comp) (hp : pathIsValid p = true)
    (hcs : PathText (stripSpace p) cs) (hlen : cs.length ≤ 254)
    (b : UInt8) (hb1 : 1 ≤ b.toNat) (hb : b.toNat ≤ cs.length) (val : UInt32) :
    ∃ q, replaceValueAtDepth p b val = .ok (q, none) ∧
      (HardenedFirst ((cs.map Comp.hardened).set (b.toNat - 1) (decide (2 ^ 31 ≤ val.toNat))) ↔
        valuesAtDepth q = ((valuesAtDepth p).1.set b.toNat val, none)) := by
  obtain ⟨q, h1, h2, h3⟩ := (C40_replace_exact p cs hp hcs b val).2 (by omega) hb1
  refine ⟨q, h1, h2, fun h => ?_⟩
  by_contra hn
  have := h3 hn
  rw [pathIsValid, h] at this
  simp at this

/-- The good case of C40 is met: replacing the last index of a BIP-44 path. -/
example : HardenedFirst ((bip44Comps.map Comp.hardened).set (5 - 1) (decide (2 ^ 31 ≤ (9 : UInt32).toNat))) :=
  ⟨3, 2, by decide⟩

/-- The bad case of C40 occurs: writing a hardened value behind a plain one, and writing at depth 0. In both
cases no error is reported and the text returned is not a valid path. -/
theorem C40_invalid_without_error :
    replaceValueAtDepth (str "m/0/7") 2 0x80000001 = .ok (str "m/0/1'", none) ∧
    pathIsValid (str "m/0/1'") = false ∧
    replaceValueAtDepth (str "m/0/7") 0 5 = .ok (str "5/0/7", none) ∧
    pathIsValid (str "5/0/7") = false := by decide +kernel

/-- **C40**, at depth 0 the text returned is never a valid path. -/
theorem C40_depth_zero (p q : Bytes) (val : UInt32) (h : replaceValueAtDepth p 0 val = .ok (q, none)) :
    pathIsValid q = false := by
  unfold replaceValueAtDepth at h
  rcases hv : valuesAtDepth p with ⟨vals, _ | e⟩
  · rw [hv] at h
    dsimp only at h
    split at h
    · simp at h
    · rw [replaceText_eq] at h
      split at h
      · rw [Outcome.ok.injEq, Prod.mk.injEq] at h
        rw [← Bool.not_eq_true, pathIsValid_iff]
        rintro ⟨cs, ht, -⟩
        obtain ⟨hne, hdig⟩ := printComp_numeral val
        -- first byte of q is a digit
        have hq : ∃ c r, q = c :: r ∧ 48 ≤ c.toNat ∧ c.toNat ≤ 57 := by
          rw [← h.1]
          match hd : (printComp val).digits, hne with
          | c :: r, _ =>
            have hc := hdig c (by rw [hd]; simp)
            cases hsp : splitByte 47 (pathString p) with
            | nil => exact absurd hsp (splitByte_ne_nil _ _)
            | cons w ws =>
              have h0 : (0 : UInt8).toNat = 0 := rfl
              rw [h0, List.set_cons_zero, compBody, hd]
              cases ws with
              | nil => exact ⟨c, _, rfl, hc⟩
              | cons w' ws => exact ⟨c, _, rfl, hc⟩
        obtain ⟨c, r, rfl, hc⟩ := hq
        have hkeep : c ∉ str "\t\n\x0c\r " := by
          intro hm
          have h2 : ∀ y ∈ str "\t\n\x0c\r ", y.toNat < 48 := by decide
          have := h2 c hm
          omega
        have hst : stripSpace (c :: r) = c :: stripSpace r := by
          rw [stripSpace, List.filter_cons_of_pos (by simpa using hkeep)]; rfl
        rw [hst] at ht
        rcases ht.1 with e | e
        · have : c = 109 := (List.cons.inj e).1
          subst this; exact absurd hc (by decide)
        · have : c = 77 := (List.cons.inj e).1
          subst this; exact absurd hc (by decide)
      · simp at h
  · rw [hv] at h; simp at h

/-- Decimal numeral of `n` without leading zeros (digits by Mathlib's `Nat.digits`). -/
def Spec.numeral (n : Nat) : Bytes :=
  if n = 0 then str "0" else ((Nat.digits 10 n).reverse.map fun d => UInt8.ofNat (48 + d))

/-- Canonical text of a list of 32-bit values. -/
def Spec.canonicalPath (vs : List UInt32) : Bytes :=
  str "m" ++ vs.flatMap fun v =>
    if 2 ^ 31 ≤ v.toNat then str "/" ++ numeral (v.toNat - 2 ^ 31) ++ str "'" else str "/" ++ numeral v.toNat

theorem decimal_eq_numeral (n : Nat) : decimal n = numeral n := by
  have h : ∀ n, toDigitsBE 10 n = (Nat.digits 10 n).reverse := by
    intro n
    induction n using Nat.strongRecOn with
    | _ n ih =>
      by_cases h : n = 0
      · subst h; simp
      · rw [toDigitsBE_step 10 (by omega) n h, ih (n / 10) (by omega),
          Nat.digits_def' (b := 10) (n := n) (by omega) (by omega), List.reverse_cons]
  unfold decimal numeral
  rw [h]
  split <;> rfl

theorem canonicalPath_eq (vs : List UInt32) : canonicalPath vs = str "m" ++ (vs.map printComp).flatMap Comp.text := by
  rw [canonicalPath, List.flatMap_map]
  congr 1
  apply List.flatMap_congr
  intro v _
  simp only [printComp]
  have hh : (v ≥ firstHardenedChild) ↔ 2 ^ 31 ≤ v.toNat := Iff.rfl
  by_cases h : 2 ^ 31 ≤ v.toNat
  · rw [if_pos h, if_pos (hh.2 h), decimal_eq_numeral]
    have : (v % firstHardenedChild).toNat = v.toNat - 2 ^ 31 := by
      rw [UInt32.toNat_mod, hard_toNat]
      have := v.toNat_lt
      omega
    rw [this]
    simp [Comp.text]
  · rw [if_neg h, if_neg (fun e => h (hh.1 e)), decimal_eq_numeral]
    simp [Comp.text]

/-- **C41.** For every list of values in which the hardened ones come first, the canonical text is a valid path
whose values are the list. -/
theorem C41_print_parse (vs : List UInt32) (h : HardenedFirst (vs.map fun v => decide (2 ^ 31 ≤ v.toNat))) :
    pathIsValid (canonicalPath vs) = true ∧ valuesAtDepth (canonicalPath vs) = (0 :: vs, none) := by
  have ht : PathText (canonicalPath vs) (vs.map printComp) := by
    refine ⟨.inl (canonicalPath_eq vs), ?_, ?_⟩
    · intro c hc
      obtain ⟨v, -, rfl⟩ := List.mem_map.1 hc
      exact printComp_numeral v
    · obtain ⟨j, k, e⟩ := h
      refine ⟨j, k, ?_⟩
      rw [← e, List.map_map]
      apply List.map_congr_left
      intro v _
      exact printComp_hardened v
  have hok : ∀ c ∈ vs.map printComp, CompOk c := by
    intro c hc
    obtain ⟨v, -, rfl⟩ := List.mem_map.1 hc
    exact (printComp_ok v).1
  have ht' := ht
  rw [← stripSpace_of_pathText ht] at ht'
  refine ⟨(pathIsValid_iff _).2 ⟨_, ht', hok⟩, ?_⟩
  rw [(valuesAtDepth_of_text ht').1 hok, List.map_map]
  congr 2
  conv_rhs => rw [← List.map_id vs]
  apply List.map_congr_left
  intro v _
  exact (printComp_ok v).2

/-- **C41**, converse direction: printing the values of a valid path gives a text with the same values, provided
no plain component is 2³¹ or more. -/
theorem C41_parse_print (p : Bytes) (cs : List Comp) (hp : pathIsValid p = true) (hcs : PathText (stripSpace p) cs)
    (hsmall : ∀ c ∈ cs, decValue c.digits < 2 ^ 31) :
    valuesAtDepth (canonicalPath ((valuesAtDepth p).1.drop 1)) = valuesAtDepth p := by
  obtain ⟨cs', h1, hok, hv⟩ := valuesAtDepth_valid hp
  obtain rfl := pathText_unique hcs h1
  rw [hv]
  simp only [List.drop_succ_cons, List.drop_zero]
  apply (C41_print_parse _ _).2
  obtain ⟨j, k, e⟩ := hcs.2.2
  refine ⟨j, k, ?_⟩
  rw [← e, List.map_map]
  apply List.map_congr_left
  intro c hc
  have hs := hsmall c hc
  have hval : (compVal c).toNat = decValue c.digits + if c.hardened then 2 ^ 31 else 0 := by
    rw [compVal, UInt32.toNat_add, UInt32.toNat_ofNat']
    cases c.hardened
    · simp only [Bool.false_eq_true, if_false, UInt32.toNat_zero]; omega
    · simp only [if_true, hard_toNat]; omega
  simp only [Function.comp, hval]
  cases c.hardened
  · simp only [Bool.false_eq_true, if_false, decide_eq_false_iff_not]; omega
  · simp only [if_true, decide_eq_true_eq]; omega

example : HardenedFirst ([0x8000002C, 0x80000000, 5].map fun v : UInt32 => decide (2 ^ 31 ≤ v.toNat)) :=
  ⟨2, 1, by decide⟩

example : canonicalPath [0x8000002C, 0x80000000, 5] = str "m/44'/0'/5" := by decide +kernel

end Bips
