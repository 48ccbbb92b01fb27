import Verif.Model.Secp
import Verif.Curve.Primes
import Mathlib.AlgebraicGeometry.EllipticCurve.Affine.Point
import Mathlib.FieldTheory.Finite.Basic

/-!
# The group of secp256k1

Links the executable affine arithmetic of `Verif/Model/Secp.lean` to Mathlib's group of nonsingular
points of `y² = x³ + 7` over `ZMod p`.
-/

set_option maxRecDepth 10000

namespace Bips

theorem secpP_prime : Nat.Prime secpP :=
  prime_115792089237316195423570985008687907853269984665640564039457584007908834671663

theorem secpN_prime : Nat.Prime secpN :=
  prime_115792089237316195423570985008687907852837564279074904382605163141518161494337

instance : Fact (Nat.Prime secpP) := ⟨secpP_prime⟩
instance : Fact (Nat.Prime secpN) := ⟨secpN_prime⟩

/-- The field of secp256k1. -/
abbrev Fp := ZMod secpP

/-- The curve `y² = x³ + 7`. -/
def secp : WeierstrassCurve.Affine Fp := ⟨0, 0, 0, 0, 7⟩

/-- Points of secp256k1 (with the point at infinity `0`); an additive commutative group by Mathlib. -/
abbrev Pt := secp.Point

theorem cast_powMod (a e : Nat) : ((powMod secpP a e : Nat) : Fp) = (a : Fp) ^ e := by
  rw [powMod_eq, ZMod.natCast_mod]; push_cast; rfl

theorem natCast_ne_zero {n : Nat} (h0 : n % secpP ≠ 0) : (n : Fp) ≠ 0 := by
  intro h
  rw [ZMod.natCast_eq_zero_iff] at h
  exact h0 (Nat.mod_eq_zero_of_dvd h)

theorem cast_secpP : ((secpP : Nat) : Fp) = 0 := by simp

theorem seven_nonresidue (y : Fp) : y ^ 2 ≠ 7 := by
  intro h
  have hy : y ≠ 0 := by
    rintro rfl
    have : ((7 : Nat) : Fp) ≠ 0 := natCast_ne_zero (by decide +kernel)
    apply this; push_cast; rw [← h]; ring
  have h1 : (7 : Fp) ^ ((secpP - 1) / 2) = 1 := by
    rw [← h, ← pow_mul, show 2 * ((secpP - 1) / 2) = secpP - 1 by decide +kernel]
    exact ZMod.pow_card_sub_one_eq_one hy
  have h2 := cast_powMod 7 ((secpP - 1) / 2)
  rw [show powMod secpP 7 ((secpP - 1) / 2) = secpP - 1 by decide +kernel] at h2
  have h3 : ((secpP - 1 : Nat) : Fp) = 1 := by rw [h2]; push_cast; exact h1
  have h4 : (secpP - 1) % secpP = 1 % secpP := (ZMod.natCast_eq_natCast_iff' _ _ _).1 (by simpa using h3)
  exact absurd h4 (by decide +kernel)

theorem neg_seven_noncube (x : Fp) : x ^ 3 + 7 ≠ 0 := by
  intro h
  have hx : x ≠ 0 := by
    rintro rfl
    have : ((7 : Nat) : Fp) ≠ 0 := natCast_ne_zero (by decide +kernel)
    apply this; push_cast; simpa using h
  have e : x ^ 3 = ((secpP - 7 : Nat) : Fp) := by
    rw [Nat.cast_sub (by decide +kernel), cast_secpP]; push_cast; linear_combination h
  have h1 : ((secpP - 7 : Nat) : Fp) ^ ((secpP - 1) / 3) = 1 := by
    rw [← e, ← pow_mul, show 3 * ((secpP - 1) / 3) = secpP - 1 by decide +kernel]
    exact ZMod.pow_card_sub_one_eq_one hx
  rw [← cast_powMod] at h1
  have h4 : (powMod secpP (secpP - 7) ((secpP - 1) / 3)) % secpP = 1 % secpP :=
    (ZMod.natCast_eq_natCast_iff' _ _ _).1 (by simpa using h1)
  exact absurd h4 (by decide +kernel)

theorem two_ne_zero' : (2 : Fp) ≠ 0 := by
  have : ((2 : Nat) : Fp) ≠ 0 := natCast_ne_zero (by decide +kernel)
  simpa using this

theorem secp_equation_iff (x y : Fp) : secp.Equation x y ↔ y ^ 2 = x ^ 3 + 7 := by
  rw [WeierstrassCurve.Affine.equation_iff]
  simp [secp]

theorem secp_nonsingular_iff (x y : Fp) : secp.Nonsingular x y ↔ y ^ 2 = x ^ 3 + 7 := by
  rw [WeierstrassCurve.Affine.nonsingular_iff, secp_equation_iff]
  constructor
  · exact fun h => h.1
  · intro h
    refine ⟨h, Or.inr ?_⟩
    simp only [secp]
    intro hy
    have hy0 : y = 0 := by
      have : (2 : Fp) * y = 0 := by linear_combination hy
      rcases mul_eq_zero.1 this with h | h
      · exact absurd h two_ne_zero'
      · exact h
    rw [hy0] at h
    exact neg_seven_noncube x (by linear_combination -h)

theorem secp_x_ne_zero {x y : Fp} (h : secp.Nonsingular x y) : x ≠ 0 := by
  rintro rfl
  rw [secp_nonsingular_iff] at h
  exact seven_nonresidue y (by rw [h]; ring)

theorem secp_y_ne_zero {x y : Fp} (h : secp.Nonsingular x y) : y ≠ 0 := by
  rintro rfl
  rw [secp_nonsingular_iff] at h
  exact neg_seven_noncube x (by rw [← h]; ring)

/-- Affine coordinates of a point as Go represents them: infinity is `(0,0)`. -/
def coords : Pt → Nat × Nat
  | .zero => (0, 0)
  | .some x y _ => (x.val, y.val)

@[simp] theorem coords_zero : coords 0 = (0, 0) := rfl

theorem coords_some {x y : Fp} (h : secp.Nonsingular x y) : coords (.some x y h) = (x.val, y.val) := rfl

theorem coords_eq_zero_iff (Q : Pt) : coords Q = (0, 0) ↔ Q = 0 := by
  constructor
  · intro h
    cases Q with
    | zero => rfl
    | some x y hxy =>
      rw [coords_some, Prod.mk.injEq] at h
      exact absurd ((ZMod.val_eq_zero x).1 h.1) (secp_x_ne_zero hxy)
  · rintro rfl; rfl

theorem coords_injective : Function.Injective coords := by
  intro P Q h
  cases P with
  | zero => exact ((coords_eq_zero_iff Q).1 h.symm).symm
  | some x y hxy =>
    cases Q with
    | zero => exact absurd ((coords_eq_zero_iff _).1 h) (WeierstrassCurve.Affine.Point.some_ne_zero hxy)
    | some x' y' hxy' =>
      rw [coords_some, coords_some, Prod.mk.injEq] at h
      obtain rfl := ZMod.val_injective _ h.1
      obtain rfl := ZMod.val_injective _ h.2
      rfl

theorem coords_lt (Q : Pt) : (coords Q).1 < secpP ∧ (coords Q).2 < secpP := by
  cases Q with
  | zero => exact ⟨secpP_prime.pos, secpP_prime.pos⟩
  | some x y h => exact ⟨ZMod.val_lt x, ZMod.val_lt y⟩

theorem val_of_cast_eq {n : Nat} {e : Fp} (hn : n < secpP) (h : (n : Fp) = e) : e.val = n := by
  rw [← h]; exact ZMod.val_natCast_of_lt hn

theorem cast_val (x : Fp) : ((x.val : Nat) : Fp) = x := ZMod.natCast_zmod_val x

theorem cast_fieldInv (a : Nat) (h : (a : Fp) ≠ 0) : ((fieldInv a : Nat) : Fp) = (a : Fp)⁻¹ := by
  unfold fieldInv
  rw [cast_powMod]
  apply eq_inv_of_mul_eq_one_left
  rw [← pow_succ, show secpP - 2 + 1 = secpP - 1 by decide +kernel]
  exact ZMod.pow_card_sub_one_eq_one h

theorem cast_sub_aux (a b : Nat) (hb : b ≤ a + secpP) : ((a + secpP - b : Nat) : Fp) = (a : Fp) - b := by
  rw [Nat.cast_sub hb]; push_cast; rw [cast_secpP]; ring

theorem cast_x3 (l a b : Nat) (ha : a < secpP) (hb : b < secpP) :
    (((l * l + 2 * secpP - a - b) % secpP : Nat) : Fp) = (l : Fp) ^ 2 - a - b := by
  rw [ZMod.natCast_mod, Nat.cast_sub (by omega), Nat.cast_sub (by omega)]
  push_cast; rw [cast_secpP]; ring

theorem cast_y3 (l a x b : Nat) (hx : x < secpP) (hb : b < secpP) :
    (((l * (a + secpP - x) + secpP - b) % secpP : Nat) : Fp) = (l : Fp) * (a - x) - b := by
  rw [ZMod.natCast_mod, cast_sub_aux _ _ (by omega)]
  push_cast
  rw [cast_sub_aux _ _ (by omega)]

theorem negY_secp (x y : Fp) : secp.negY x y = -y := by
  simp [WeierstrassCurve.Affine.negY, secp]

theorem addX_secp (x₁ x₂ l : Fp) : secp.addX x₁ x₂ l = l ^ 2 - x₁ - x₂ := by
  simp [WeierstrassCurve.Affine.addX, secp]

theorem addY_secp (x₁ x₂ y₁ l : Fp) : secp.addY x₁ x₂ y₁ l = l * (x₁ - (l ^ 2 - x₁ - x₂)) - y₁ := by
  simp only [WeierstrassCurve.Affine.addY, WeierstrassCurve.Affine.negAddY, negY_secp, addX_secp]
  ring

theorem affineDouble_coords (Q : Pt) : affineDouble (coords Q) = coords (Q + Q) := by
  cases Q with
  | zero => rfl
  | some x y h =>
    have hx := ZMod.val_lt x
    have hy := ZMod.val_lt y
    have hy0 := secp_y_ne_zero h
    have hyv : y.val ≠ 0 := fun h' => hy0 ((ZMod.val_eq_zero y).1 h')
    have hne : y ≠ secp.negY x y := by
      rw [negY_secp]; intro h'
      have : (2 : Fp) * y = 0 := by linear_combination h'
      rcases mul_eq_zero.1 this with h | h
      · exact two_ne_zero' h
      · exact hy0 h
    rw [WeierstrassCurve.Affine.Point.add_self_of_Y_ne hne, coords_some, coords_some]
    rw [WeierstrassCurve.Affine.slope_of_Y_ne rfl hne, addX_secp, addY_secp, negY_secp]
    rw [affineDouble, if_neg hyv]
    have hl : ((3 * x.val * x.val % secpP * fieldInv (2 * y.val) % secpP : Nat) : Fp)
        = (3 * x ^ 2 + 2 * secp.a₂ * x + secp.a₄ - secp.a₁ * y) / (y - -y) := by
      rw [ZMod.natCast_mod, Nat.cast_mul, ZMod.natCast_mod, cast_fieldInv]
      · push_cast; rw [cast_val, cast_val]
        simp only [secp]
        rw [div_eq_mul_inv]; congr 1
        · ring
        · congr 1; ring
      · push_cast; rw [cast_val]
        exact mul_ne_zero two_ne_zero' hy0
    generalize (3 * x.val * x.val % secpP * fieldInv (2 * y.val) % secpP) = l at hl ⊢
    rw [← hl]
    have hX : (((l * l + 2 * secpP - x.val - x.val) % secpP : Nat) : Fp) = (l : Fp) ^ 2 - x - x := by
      rw [cast_x3 _ _ _ hx hx, cast_val]
    have hlt : (l * l + 2 * secpP - x.val - x.val) % secpP < secpP := Nat.mod_lt _ secpP_prime.pos
    dsimp only
    generalize (l * l + 2 * secpP - x.val - x.val) % secpP = X at hX hlt ⊢
    rw [Prod.mk.injEq]
    constructor
    · exact (val_of_cast_eq hlt hX).symm
    · symm
      apply val_of_cast_eq (Nat.mod_lt _ secpP_prime.pos)
      rw [cast_y3 _ _ _ _ hlt hy, hX, cast_val, cast_val]

theorem affineAdd_coords (Q R : Pt) : affineAdd (coords Q) (coords R) = coords (Q + R) := by
  by_cases hQ : Q = 0
  · subst hQ; rw [affineAdd, coords_zero, if_pos rfl, zero_add]
  by_cases hR : R = 0
  · subst hR
    rw [affineAdd, if_neg (fun h => hQ ((coords_eq_zero_iff _).1 h)), coords_zero, if_pos rfl, add_zero]
  rw [affineAdd, if_neg (fun h => hQ ((coords_eq_zero_iff _).1 h)),
    if_neg (fun h => hR ((coords_eq_zero_iff _).1 h))]
  cases Q with
  | zero => exact absurd rfl hQ
  | some x y h =>
  cases R with
  | zero => exact absurd rfl hR
  | some x' y' h' =>
    have hx := ZMod.val_lt x
    have hy := ZMod.val_lt y
    have hx' := ZMod.val_lt x'
    have hy' := ZMod.val_lt y'
    rw [coords_some, coords_some]
    dsimp only
    by_cases hxx : x = x'
    · subst hxx
      rw [if_pos rfl]
      by_cases hyy : y = y'
      · subst hyy
        rw [if_pos rfl]
        exact affineDouble_coords (.some x y h)
      · rw [if_neg (fun e => hyy (ZMod.val_injective _ e))]
        have : y = secp.negY x y' := by
          rw [negY_secp]
          rw [secp_nonsingular_iff] at h h'
          have : (y - y') * (y + y') = 0 := by linear_combination h - h'
          rcases mul_eq_zero.1 this with e | e
          · exact absurd (sub_eq_zero.1 e) hyy
          · exact eq_neg_of_add_eq_zero_left e
        rw [WeierstrassCurve.Affine.Point.add_of_Y_eq rfl this]
        rfl
    · rw [if_neg (fun e => hxx (ZMod.val_injective _ e)), affineChord]
      rw [WeierstrassCurve.Affine.Point.add_of_X_ne hxx, coords_some]
      rw [WeierstrassCurve.Affine.slope_of_X_ne hxx, addX_secp, addY_secp]
      have hl : (((y.val + secpP - y'.val) % secpP * fieldInv (x.val + secpP - x'.val) % secpP : Nat) : Fp)
          = (y - y') / (x - x') := by
        rw [ZMod.natCast_mod, Nat.cast_mul, ZMod.natCast_mod, cast_fieldInv]
        · rw [cast_sub_aux _ _ (by omega), cast_sub_aux _ _ (by omega), cast_val, cast_val, cast_val, cast_val,
            div_eq_mul_inv]
        · rw [cast_sub_aux _ _ (by omega), cast_val, cast_val]
          exact sub_ne_zero.2 hxx
      generalize ((y.val + secpP - y'.val) % secpP * fieldInv (x.val + secpP - x'.val) % secpP) = l at hl ⊢
      rw [← hl]
      have hX : (((l * l + 2 * secpP - x.val - x'.val) % secpP : Nat) : Fp) = (l : Fp) ^ 2 - x - x' := by
        rw [cast_x3 _ _ _ hx hx', cast_val, cast_val]
      have hlt : (l * l + 2 * secpP - x.val - x'.val) % secpP < secpP := Nat.mod_lt _ secpP_prime.pos
      generalize (l * l + 2 * secpP - x.val - x'.val) % secpP = X at hX hlt ⊢
      rw [Prod.mk.injEq]
      constructor
      · exact (val_of_cast_eq hlt hX).symm
      · symm
        apply val_of_cast_eq (Nat.mod_lt _ secpP_prime.pos)
        rw [cast_y3 _ _ _ _ hlt hy, hX, cast_val, cast_val]

/-- `curve.Add` on (the coordinates of) curve points is the group operation. -/
theorem curveAdd_coords (Q R : Pt) : curveAdd (coords Q) (coords R) = coords (Q + R) := by
  have h1 := coords_lt Q
  have h2 := coords_lt R
  rw [← affineAdd_coords, curveAdd, Nat.mod_eq_of_lt h1.1, Nat.mod_eq_of_lt h1.2, Nat.mod_eq_of_lt h2.1,
    Nat.mod_eq_of_lt h2.2, affineAdd]
  by_cases hx : (coords Q).1 = (coords R).1
  · rw [if_pos hx, if_pos hx]
  · rw [if_neg hx, if_neg hx, if_neg hx]

theorem smulAux_coords (f e : Nat) (Q A : Pt) (he : e < 2 ^ f) :
    smulAux f e (coords Q) (coords A) = coords (A + e • Q) := by
  induction f generalizing e Q A with
  | zero => obtain rfl : e = 0 := by simpa using he
            simp [smulAux]
  | succ f ih =>
    rw [smulAux]
    by_cases h0 : e = 0
    · subst h0; simp
    rw [if_neg h0, affineDouble_coords]
    have he2 : e / 2 < 2 ^ f := by rw [pow_succ] at he; omega
    by_cases hodd : e % 2 = 1
    · rw [if_pos hodd, affineAdd_coords, ih _ _ _ he2]
      congr 1
      conv_rhs => rw [show e = 1 + 2 * (e / 2) by omega, add_nsmul, mul_comm, mul_nsmul, one_nsmul, two_nsmul]
      rw [add_assoc, nsmul_add]
    · rw [if_neg hodd, ih _ _ _ he2]
      congr 1
      conv_rhs => rw [show e = 2 * (e / 2) by omega, mul_comm, mul_nsmul, two_nsmul]
      rw [nsmul_add]

/-- The base point satisfies the curve equation. -/
theorem secpG_nonsingular : secp.Nonsingular ((secpG.1 : Nat) : Fp) ((secpG.2 : Nat) : Fp) := by
  rw [secp_nonsingular_iff]
  have h : (secpG.2 ^ 2) % secpP = (secpG.1 ^ 3 + 7) % secpP := by decide +kernel
  have := (ZMod.natCast_eq_natCast_iff' (secpG.2 ^ 2) (secpG.1 ^ 3 + 7) secpP).2 h
  push_cast at this
  exact this

/-- The base point of secp256k1. -/
def baseG : Pt := .some _ _ secpG_nonsingular

theorem coords_baseG : coords baseG = secpG := by
  rw [baseG, coords_some, ZMod.val_natCast_of_lt (by decide +kernel), ZMod.val_natCast_of_lt (by decide +kernel)]

theorem smul_secpN_coords : smulAux 256 secpN secpG (0, 0) = (0, 0) := by decide +kernel

/-- `n·G = 0`. -/
theorem secpN_smul_baseG : secpN • baseG = 0 := by
  have h := smulAux_coords 256 secpN baseG 0 (by decide +kernel)
  rw [coords_baseG, coords_zero, smul_secpN_coords, zero_add] at h
  exact (coords_eq_zero_iff _).1 h.symm

theorem baseG_ne_zero : baseG ≠ 0 := WeierstrassCurve.Affine.Point.some_ne_zero _

theorem addOrderOf_baseG : addOrderOf baseG = secpN :=
  addOrderOf_eq_prime secpN_smul_baseG baseG_ne_zero

theorem smul_baseG_eq_zero_iff (k : Nat) : k • baseG = 0 ↔ k % secpN = 0 := by
  rw [← addOrderOf_dvd_iff_nsmul_eq_zero, addOrderOf_baseG]
  exact ⟨Nat.mod_eq_zero_of_dvd, Nat.dvd_of_mod_eq_zero⟩

theorem mod_smul_baseG (k : Nat) : (k % secpN) • baseG = k • baseG := by
  conv_rhs => rw [← Nat.mod_add_div k secpN, add_nsmul, mul_nsmul, secpN_smul_baseG, nsmul_zero, add_zero]

/-- `curve.ScalarBaseMult(k)` is (the coordinates of) `k·G`. -/
theorem scalarBaseMult_eq (k : Bytes) : scalarBaseMult k = coords (setBytes k • baseG) := by
  unfold scalarBaseMult
  rw [← coords_baseG, ← coords_zero, smulAux_coords, zero_add, mod_smul_baseG]
  exact lt_of_lt_of_le (Nat.mod_lt _ secpN_prime.pos) (by decide +kernel)

end Bips
