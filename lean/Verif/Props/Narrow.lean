import Verif.Lemmas.Narrow
import Verif.Props.Path
import Verif.Props.Exact

/-!
# Platforms with a 32-bit `int` (C88)

`p` ranges over all byte strings. The specification is `PathText`, `decValue` and `Comp.value` of `Verif/Spec/Path.lean`.
The full property - a path means the same on every platform - is false of the code (`C88_differs`): a number of 2³¹ or
more is a range error where `int` has 32 bits, and a child number, possibly cut to 32 bits, where it has 64.
-/

namespace Bips
open Spec

/-- The widths Go gives to `int`. -/
def IntWidth (w : Nat) : Prop := w = 32 ∨ w = 64

/-- What the program answers for a path: the values, or nothing. -/
def answer (r : List UInt32 × Option Err) : Option (List UInt32) := if r.2 = none then some r.1 else none

/-- The width-64 functions are the ones the rest of the development is about. -/
theorem C88_wide :
    valuesAtDepthW 64 = valuesAtDepth ∧ pathIsValidW 64 = pathIsValid ∧ deriveBIP32ResultW 64 = deriveBIP32Result :=
  ⟨valuesAtDepthW_64, pathIsValidW_64, deriveBIP32ResultW_64⟩

/-- **C88.** With a 32-bit `int` a path is valid exactly when it is written as a path and every number in it is below
2³¹ - the rule of BIP-32 itself. -/
theorem C88_valid_narrow (p : Bytes) :
    pathIsValidW 32 p = true ↔ ∃ cs, PathText (stripSpace p) cs ∧ ∀ c ∈ cs, decValue c.digits < 2 ^ 31 := by
  rw [pathIsValidW_iff 32 (by norm_num)]
  simp only [compOkW_32]

theorem compOk_of_small {c : Comp} (h : decValue c.digits < 2 ^ 31) : CompOk c :=
  ⟨by omega, fun _ => by omega⟩

/-- **C88.** With a 32-bit `int` a valid path has its values at face value: C37 holds there without exception. -/
theorem C88_face_narrow (p : Bytes) (hp : pathIsValidW 32 p = true) (cs : List Comp)
    (hcs : PathText (stripSpace p) cs) :
    (valuesAtDepthW 32 p).2 = none ∧ (valuesAtDepthW 32 p).1.map UInt32.toNat = 0 :: cs.map Comp.value := by
  obtain ⟨cs', h1, h2⟩ := (C88_valid_narrow p).1 hp
  obtain rfl := pathText_unique hcs h1
  have hv : pathIsValid p = true := (pathIsValid_iff p).2 ⟨cs, hcs, fun c hc => compOk_of_small (h2 c hc)⟩
  rw [(valuesAtDepthW_of_text 32 (by norm_num) hcs).1 (fun c hc => (compOkW_32 c).2 (h2 c hc)),
    ← (valuesAtDepth_of_text hcs).1 (fun c hc => compOk_of_small (h2 c hc))]
  exact C37_values_face_partial p hv cs hcs (fun c hc => by have := h2 c hc; omega)

/-- **C88.** What is valid with a 32-bit `int` is valid with a 64-bit `int`, with the same values. -/
theorem C88_narrow_wide (p : Bytes) (hp : pathIsValidW 32 p = true) :
    pathIsValid p = true ∧ valuesAtDepthW 32 p = valuesAtDepth p := by
  obtain ⟨cs, h1, h2⟩ := (C88_valid_narrow p).1 hp
  refine ⟨(pathIsValid_iff p).2 ⟨cs, h1, fun c hc => compOk_of_small (h2 c hc)⟩, ?_⟩
  rw [(valuesAtDepthW_of_text 32 (by norm_num) h1).1 (fun c hc => (compOkW_32 c).2 (h2 c hc)),
    (valuesAtDepth_of_text h1).1 (fun c hc => compOk_of_small (h2 c hc))]

/-- **C88**, the exact domain: the two platforms give the same answer for a path exactly when it is rejected by the
64-bit one or has no number of 2³¹ or more. -/
theorem C88_same_iff (p : Bytes) :
    answer (valuesAtDepthW 32 p) = answer (valuesAtDepth p) ↔
      (pathIsValid p = true → ∀ cs, PathText (stripSpace p) cs → ∀ c ∈ cs, decValue c.digits < 2 ^ 31) := by
  have key : ∀ w, (answer (valuesAtDepthW w p)).isSome = pathIsValidW w p := by
    intro w; unfold answer pathIsValidW; split <;> simp_all
  constructor
  · intro h hv cs hcs
    have h32 : pathIsValidW 32 p = true := by
      rw [← key, h, ← valuesAtDepthW_64, key, pathIsValidW_64, hv]
    obtain ⟨cs', h1, h2⟩ := (C88_valid_narrow p).1 h32
    obtain rfl := pathText_unique hcs h1
    exact h2
  · intro h
    by_cases hv : pathIsValid p = true
    · obtain ⟨cs, hcs, -⟩ := (pathIsValid_iff p).1 hv
      rw [(C88_narrow_wide p ((C88_valid_narrow p).2 ⟨cs, hcs, h hv cs hcs⟩)).2]
    · have h32 : ¬ pathIsValidW 32 p = true := fun h' => hv (C88_narrow_wide p h').1
      have a : (answer (valuesAtDepthW 32 p)) = none := by
        rw [← Option.not_isSome_iff_eq_none, key]; exact h32
      have b : (answer (valuesAtDepth p)) = none := by
        rw [← Option.not_isSome_iff_eq_none, ← valuesAtDepthW_64, key, pathIsValidW_64]; exact hv
      rw [a, b]

/-- **C88** for the paths BIP-32 has: every width gives the same validity, the same values and the same keys. -/
theorem C88_same_partial (w : Nat) (hw : IntWidth w) (p : Bytes) (cs : List Comp) (hcs : PathText (stripSpace p) cs)
    (hsmall : ∀ c ∈ cs, decValue c.digits < 2 ^ 31) (H : Hashes) (R : Registry) (root : Key) :
    pathIsValidW w p = true ∧ (valuesAtDepthW w p).1.map UInt32.toNat = 0 :: cs.map Comp.value ∧
    deriveBIP32ResultW w H R root p = deriveBIP32Result H R root p := by
  have h32 := (C88_valid_narrow p).2 ⟨cs, hcs, hsmall⟩
  obtain ⟨hv, he⟩ := C88_narrow_wide p h32
  rcases hw with rfl | rfl
  · refine ⟨h32, (C88_face_narrow p h32 cs hcs).2, ?_⟩
    rw [deriveBIP32ResultW, deriveBIP32Result, h32, hv, he]; rfl
  · rw [pathIsValidW_64, valuesAtDepthW_64, deriveBIP32ResultW_64, ← he]
    exact ⟨hv, (C88_face_narrow p h32 cs hcs).2, rfl⟩

/-- **C88.** With a 32-bit `int`, `DeriveBIP32Result` from a sound root refuses every path with a number of 2³¹ or more and
derives nothing. -/
theorem C88_refuses (p : Bytes) (cs : List Comp) (hcs : PathText (stripSpace p) cs) (c : Comp) (hc : c ∈ cs)
    (hbig : 2 ^ 31 ≤ decValue c.digits) (H : Hashes) (R : Registry) (root : Key) (hr : root.isValid H = true)
    (hp : root.isPrivate = true) (hd : root.byteAt depthStart = 0) :
    deriveBIP32ResultW 32 H R root p = ([], some .utilUnSupportedOrInvalidPath) := by
  have h32 : pathIsValidW 32 p = false := by
    rw [← Bool.not_eq_true, C88_valid_narrow]
    rintro ⟨cs', h1, h2⟩
    obtain rfl := pathText_unique hcs h1
    have := h2 c hc
    omega
  rw [deriveBIP32ResultW, hr, hp, hd, h32]
  rfl

/-- **C88.** The purpose and coin of a version's path do not depend on the width. -/
theorem C88_versions (w : Nat) (hw : IntWidth w) (h : VersionBytes) :
    h.compValW w 1 .invalidPurpose = h.purposeVal ∧ h.compValW w 2 .invalidCoin = h.coinVal := by
  have hw1 : 32 ≤ w := by rcases hw with rfl | rfl <;> norm_num
  have hw2 : w ≤ 64 := by rcases hw with rfl | rfl <;> norm_num
  by_cases hv : h.isValid = true
  · obtain ⟨d1, d2, h1, h2, hp⟩ := h.isValid_iff.1 hv
    obtain ⟨e1, e2, -, -⟩ := h.valid_vals h1 h2 hp
    rw [e1, e2]
    constructor
    · rw [VersionBytes.compValW, pathString_eq, hp, split_twoLevel h1 h2, hv]
      exact comp_readW w hw1 hw2 h1 _
    · rw [VersionBytes.compValW, pathString_eq, hp, split_twoLevel h1 h2, hv]
      exact comp_readW w hw1 hw2 h2 _
  · have hv' : h.isValid = false := by simpa using hv
    obtain ⟨e1, e2, -, -⟩ := h.invalid_vals hv'
    rw [e1, e2]
    simp [VersionBytes.compValW, hv']

/-- The full property is false: four paths on which the platforms disagree. The first is what a user writes who looks up
the child number of the first hardened child; the 64-bit program derives that child. -/
theorem C88_differs :
    pathIsValidW 32 (str "m/2147483648") = false ∧ valuesAtDepth (str "m/2147483648") = ([0, 2147483648], none) ∧
    valuesAtDepthW 32 (str "m/44'/2147483648") = ([0, 2147483692], some .atoiRange) ∧
    pathIsValid (str "m/44'/2147483648") = true ∧
    pathIsValidW 32 (str "m/4294967296'") = false ∧ pathIsValid (str "m/4294967296'") = true ∧
    pathIsValidW 32 (str "m/2147483648'") = false ∧ pathIsValid (str "m/2147483648'") = false := by
  decide +kernel

/-- The hypotheses of `C88_same_partial` are met by an ordinary path. -/
example : PathText (stripSpace (str "m/44'/0'/0' /0/7")) bip44Comps ∧ ∀ c ∈ bip44Comps, decValue c.digits < 2 ^ 31 :=
  ⟨bip44_text, by decide +kernel⟩

/-- The largest numbers that are the same everywhere. -/
example : valuesAtDepthW 32 (str "m/2147483647'/2147483647") = ([0, 4294967295, 2147483647], none) ∧
    valuesAtDepthW 64 (str "m/2147483647'/2147483647") = ([0, 4294967295, 2147483647], none) := by
  decide +kernel

end Bips
