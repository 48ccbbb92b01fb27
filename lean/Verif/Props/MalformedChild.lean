import Verif.Props.Malformed
import Verif.Props.Convert

/-!
# C97: what is derived from malformed keys

`NewChildKey` looks neither at the range of the secret nor at the point of the key it is given (C90). Here is what it makes of
such keys.
-/

namespace Bips
open Spec

theorem point_congr {a b : Nat} (h : a % secpN = b % secpN) : point a = point b := by
  rw [point, point, ← mod_smul_baseG a, ← mod_smul_baseG b, h]

theorem stored_sum (x y : Nat) (h : (x + y) % secpN ≠ 0) :
    storedPoint (point x + point y) = serP (point ((x + y) % secpN)) := by
  have hpt : point ((x + y) % secpN) = point x + point y := by rw [point_add]; exact mod_smul_baseG _
  rw [← hpt, storedPoint_of_ne (point_ne_zero (by rw [Nat.mod_mod]; exact h))]

/-- The y coordinate a first byte selects: 2 the even, 3 the odd one, and any other byte the one that is not a square. -/
def Selects (a : UInt8) (y : Fp) : Prop :=
  if a = 2 then y.val % 2 = 0 else if a = 3 then y.val % 2 = 1 else ¬ IsSquare y

theorem neg_one_nonsquare : ¬ IsSquare (-1 : Fp) := by
  rintro ⟨r, hr⟩
  have h0 : r ≠ 0 := by rintro rfl; simp at hr
  have h1 := ZMod.pow_card_sub_one_eq_one h0
  rw [show secpP - 1 = 2 * ((secpP - 1) / 2) by decide +kernel, pow_mul, sq, ← hr,
    Odd.neg_one_pow (by rw [Nat.odd_iff]; decide +kernel)] at h1
  have h2 : (2 : Fp) = 0 := by linear_combination -h1
  exact two_ne_zero' h2

/-- The root `math/big` finds is itself a square. -/
theorem modSqrt_isSquare (a : Nat) (y : Fp) (h : (a : Fp) = y ^ 2) : IsSquare ((modSqrt a : Nat) : Fp) := by
  rw [modSqrt]
  split
  · exact ⟨0, by simp⟩
  split
  · rw [cast_powMod, ZMod.natCast_mod, h]
    exact ⟨y ^ ((secpP + 1) / 4), by rw [← pow_mul, two_mul, pow_add]⟩
  · exact ⟨0, by simp⟩

theorem sign_other (a : UInt8) (h2 : a ≠ 2) (h3 : a ≠ 3) (Y : Nat) :
    (UInt64.ofNat a.toNat - 2 : UInt64) ≠ UInt64.ofNat (Y % 2) := by
  have key : ∀ n < 256, n ≠ 2 → n ≠ 3 → (UInt64.ofNat n - 2 : UInt64) ≠ 0 ∧ (UInt64.ofNat n - 2 : UInt64) ≠ 1 := by
    decide +kernel
  have key := key a.toNat a.toNat_lt (fun e => h2 (UInt8.toNat.inj e)) (fun e => h3 (UInt8.toNat.inj e))
  rcases Nat.mod_two_eq_zero_or_one Y with h | h <;> rw [h]
  · exact key.1
  · exact key.2

theorem expand_bytes (a : UInt8) (x : Bytes) (X y : Fp) (hX : ((setBytes x : Nat) : Fp) = X) (hxy : secp.Nonsingular X y)
    (hs : Selects a y) : (expandPublicKey (a :: x)).1 = setBytes x ∧ (expandPublicKey (a :: x)).2 = y.val := by
  have hy0 := secp_y_ne_zero hxy
  have hyl := ZMod.val_lt y
  have hypos : 0 < y.val := Nat.pos_of_ne_zero (fun h => hy0 ((ZMod.val_eq_zero y).1 h))
  have heq := (secp_nonsingular_iff X y).1 hxy
  have hcast : ((setBytes x ^ 3 + secpB : Nat) : Fp) = y ^ 2 := by
    rw [heq]; push_cast; rw [hX]; rfl
  have hroot := modSqrt_sq _ y hy0 hcast
  have hsq := modSqrt_isSquare _ y hcast
  have hlt := modSqrt_lt (setBytes x ^ 3 + secpB)
  simp only [expandPublicKey, expandCons]
  generalize modSqrt (setBytes x ^ 3 + secpB) = r at hroot hlt hsq
  have ho := secpP_odd
  have hr : y.val = r ∨ y.val = secpP - r := by
    rcases hroot with hr | hr
    · exact .inl (val_of_cast_eq hlt hr)
    · have : NeZero y := ⟨hy0⟩
      have e : secpP - y.val = r := by
        rw [← ZMod.val_neg_of_ne_zero y]; exact val_of_cast_eq hlt hr
      right; omega
  unfold Selects at hs
  by_cases h2 : a = 2
  · rw [if_pos h2] at hs
    have hi := sign_iff true r
    simp only [if_true, true_iff] at hi
    rw [h2]
    by_cases he : r % 2 = 0
    · rw [if_neg (by rw [hi]; exact fun h => h he)]
      exact ⟨rfl, by omega⟩
    · rw [if_pos (by rw [hi]; exact he)]
      exact ⟨rfl, by omega⟩
  rw [if_neg h2] at hs
  by_cases h3 : a = 3
  · rw [if_pos h3] at hs
    have hi := sign_iff false r
    simp only [Bool.false_eq_true, if_false, false_iff, not_not] at hi
    rw [h3]
    by_cases he : r % 2 = 0
    · rw [if_pos (by rw [hi]; exact he)]
      exact ⟨rfl, by omega⟩
    · rw [if_neg (by rw [hi]; exact he)]
      exact ⟨rfl, by omega⟩
  rw [if_neg h3] at hs
  rw [if_pos (sign_other a h2 h3 r)]
  refine ⟨rfl, ?_⟩
  rcases hroot with hr' | hr'
  · rw [hr'] at hsq; exact absurd hsq hs
  · have : NeZero y := ⟨hy0⟩
    have e : secpP - y.val = r := by
      rw [← ZMod.val_neg_of_ne_zero y]; exact val_of_cast_eq hlt hr'
    dsimp only
    omega

/-- For every point of the curve there is, at its x, exactly one y that the byte selects. -/
theorem selects_unique (a : UInt8) (x y : Fp) (h : secp.Nonsingular x y) :
    (Selects a y ∧ ¬ Selects a (-y)) ∨ (¬ Selects a y ∧ Selects a (-y)) := by
  have hy0 := secp_y_ne_zero h
  have : NeZero y := ⟨hy0⟩
  have hv : (-y).val = secpP - y.val := ZMod.val_neg_of_ne_zero y
  have hl := ZMod.val_lt y
  have ho := secpP_odd
  unfold Selects
  by_cases h2 : a = 2
  · simp only [if_pos h2]; omega
  simp only [if_neg h2]
  by_cases h3 : a = 3
  · simp only [if_pos h3]; omega
  simp only [if_neg h3]
  have h1 : IsSquare y ∨ IsSquare (-y) := by
    have hc : (((y ^ 2).val : Nat) : Fp) = y ^ 2 := cast_val _
    have hq := modSqrt_isSquare _ y hc
    rcases modSqrt_sq _ y hy0 hc with e | e <;> rw [e] at hq
    · exact .inl hq
    · exact .inr hq
  have h2 : ¬ (IsSquare y ∧ IsSquare (-y)) := by
    rintro ⟨⟨u, hu⟩, ⟨v, hv⟩⟩
    have hu0 : u ≠ 0 := by rintro rfl; exact hy0 (by simpa using hu)
    apply neg_one_nonsquare
    refine ⟨v / u, ?_⟩
    rw [div_mul_div_comm, ← hu, ← hv, neg_div, div_self hy0]
  tauto

/-- For an x that is not on the curve `math/big` leaves the y at 0; it is then subtracted from the field prime unless the first byte
is 2. -/
theorem expand_off_curve (a : UInt8) (x : Bytes) (h : ∀ y : Fp, y ^ 2 ≠ ((setBytes x : Nat) : Fp) ^ 3 + 7) :
    (expandPublicKey (a :: x)).1 = setBytes x ∧ (expandPublicKey (a :: x)).2 = if a = 2 then 0 else secpP := by
  have h0 : modSqrt (setBytes x ^ 3 + secpB) = 0 := by
    have hc : ((setBytes x ^ 3 + secpB : Nat) : Fp) = ((setBytes x : Nat) : Fp) ^ 3 + 7 := by push_cast; rfl
    rw [← hc] at h
    generalize setBytes x ^ 3 + secpB = n at h
    rw [modSqrt]
    split
    · rfl
    split
    · next _ h1 =>
      exfalso
      have e : ((n : Nat) : Fp) ^ ((secpP - 1) / 2) = 1 := by
        have := congrArg (fun m : Nat => (m : Fp)) h1
        simp only [cast_powMod, ZMod.natCast_mod] at this
        rw [this]; simp
      apply h ((n : Fp) ^ ((secpP + 1) / 4))
      rw [← pow_mul, show (secpP + 1) / 4 * 2 = (secpP - 1) / 2 + 1 by decide +kernel, pow_succ, e, one_mul]
    · rfl
  simp only [expandPublicKey, expandCons, h0]
  by_cases h2 : a = 2
  · rw [if_neg (by rw [h2]; decide), if_pos h2]
    exact ⟨rfl, rfl⟩
  · rw [if_neg h2, if_pos ?_]
    · exact ⟨rfl, Nat.sub_zero _⟩
    by_cases h3 : a = 3
    · rw [h3]; decide
    · exact sign_other a h2 h3 0

theorem curveAdd_chord {x₁ y₁ X : Fp} (h₁ : secp.Nonsingular x₁ y₁) (n m : Nat) (h0 : (n, m) ≠ (0, 0)) (hX : n % secpP = X.val)
    (hne : x₁ ≠ X) : curveAdd (x₁.val, y₁.val) (n, m) = affineChord (x₁.val, y₁.val) (X.val, m % secpP) := by
  have hx0 : x₁.val ≠ 0 := fun h => secp_x_ne_zero h₁ ((ZMod.val_eq_zero _).1 h)
  have hne' : x₁.val ≠ n % secpP := fun e => hne (ZMod.val_injective _ (e.trans hX))
  have hx := Nat.mod_eq_of_lt (ZMod.val_lt x₁)
  rw [curveAdd, if_neg (by simp [hx0]), if_neg h0]
  dsimp only
  rw [hx, if_neg hne', Nat.mod_eq_of_lt (ZMod.val_lt y₁), hX, if_neg]
  rintro rfl
  exact hne' hx.symm

/-- The point of IL added to a point whose x is given by any integer. -/
theorem curveAdd_unreduced {P : Pt} (hP : P ≠ 0) {X y : Fp} (h : secp.Nonsingular X y) (n : Nat) (hX : n % secpP = X.val) :
    curveAdd (coords P) (n, y.val) =
      coords (if secpP ≤ n ∧ P = .some X y h then 0 else P + .some X y h) := by
  have hy0 : y.val ≠ 0 := fun e => secp_y_ne_zero h ((ZMod.val_eq_zero _).1 e)
  by_cases hn : secpP ≤ n
  · cases P with
    | zero => exact absurd rfl hP
    | some x₁ y₁ h₁ =>
      by_cases hne : x₁ = X
      · subst hne
        have hz : (if secpP ≤ n ∧ WeierstrassCurve.Affine.Point.some x₁ y₁ h₁ = .some x₁ y h then 0
            else .some x₁ y₁ h₁ + .some x₁ y h : Pt) = 0 := by
          split
          · rfl
          · next hc =>
            have hyy : y₁ ≠ y := by rintro rfl; exact hc ⟨hn, rfl⟩
            have e1 := (secp_nonsingular_iff _ _).1 h₁
            have e2 := (secp_nonsingular_iff _ _).1 h
            have : (y₁ - y) * (y₁ + y) = 0 := by linear_combination e1 - e2
            refine WeierstrassCurve.Affine.Point.add_of_Y_eq rfl ?_
            rw [negY_secp]
            rcases mul_eq_zero.1 this with e | e
            · exact absurd (sub_eq_zero.1 e) hyy
            · exact eq_neg_of_add_eq_zero_left e
        have hx0 : x₁.val ≠ 0 := fun e => secp_x_ne_zero h₁ ((ZMod.val_eq_zero _).1 e)
        have hl := ZMod.val_lt x₁
        rw [hz, coords_some, coords_zero, curveAdd, if_neg (by simp [hx0]), if_neg (by simp [hy0])]
        dsimp only
        rw [if_neg (by omega), Nat.mod_eq_of_lt hl, if_pos hX.symm]
      · have hne2 : ¬ (secpP ≤ n ∧ WeierstrassCurve.Affine.Point.some x₁ y₁ h₁ = .some X y h) := by
          rintro ⟨-, e⟩
          exact hne (WeierstrassCurve.Affine.Point.some.inj e).1
        rw [if_neg hne2, ← affineAdd_coords, coords_some, coords_some, curveAdd_chord h₁ n y.val (by simp [hy0]) hX hne,
          Nat.mod_eq_of_lt (ZMod.val_lt y), affineAdd]
        have hx0 : x₁.val ≠ 0 := fun e => secp_x_ne_zero h₁ ((ZMod.val_eq_zero _).1 e)
        rw [if_neg (by simp [hx0]), if_neg (by simp [hy0])]
        dsimp only
        rw [if_neg (fun e => hne (ZMod.val_injective _ e))]
  · rw [if_neg (fun e => hn e.1), ← curveAdd_coords, coords_some, ← hX, Nat.mod_eq_of_lt (not_le.1 hn)]

theorem chord_off {X x₁ y₁ : Fp} (hne : x₁ ≠ X) :
    affineChord (x₁.val, y₁.val) (X.val, 0) =
      (((y₁ / (x₁ - X)) ^ 2 - x₁ - X).val,
        (y₁ / (x₁ - X) * (x₁ - ((y₁ / (x₁ - X)) ^ 2 - x₁ - X)) - y₁).val) := by
  have hx := ZMod.val_lt x₁
  have hy := ZMod.val_lt y₁
  have hx' := ZMod.val_lt X
  rw [affineChord]
  dsimp only
  have hl : (((y₁.val + secpP - 0) % secpP * fieldInv (x₁.val + secpP - X.val) % secpP : Nat) : Fp) = y₁ / (x₁ - X) := by
    rw [ZMod.natCast_mod, Nat.cast_mul, ZMod.natCast_mod, cast_fieldInv]
    · rw [cast_sub_aux _ _ (by omega), cast_sub_aux _ _ (by omega), cast_val, cast_val, cast_val, Nat.cast_zero, sub_zero,
        div_eq_mul_inv]
    · rw [cast_sub_aux _ _ (by omega), cast_val, cast_val]
      exact sub_ne_zero.2 hne
  generalize ((y₁.val + secpP - 0) % secpP * fieldInv (x₁.val + secpP - X.val) % secpP) = l at hl ⊢
  rw [← hl]
  have hX : (((l * l + 2 * secpP - x₁.val - X.val) % secpP : Nat) : Fp) = (l : Fp) ^ 2 - x₁ - X := by
    rw [cast_x3 _ _ _ hx hx', cast_val, cast_val]
  have hlt : (l * l + 2 * secpP - x₁.val - X.val) % secpP < secpP := Nat.mod_lt _ secpP_prime.pos
  generalize (l * l + 2 * secpP - x₁.val - X.val) % secpP = Y at hX hlt ⊢
  rw [Prod.mk.injEq]
  constructor
  · exact (val_of_cast_eq hlt hX).symm
  · symm
    apply val_of_cast_eq (Nat.mod_lt _ secpP_prime.pos)
    rw [cast_y3 _ _ _ _ hlt hy, hX, cast_val, cast_val]

section
variable (H : Hashes) (order : List (Bytes × List VersionBytes)) (ho : order.Perm pathTable)
include ho

/-- **C97**, private keys. Whatever number the 32 bytes of the secret are, the child holds IL plus this number modulo the group
order, and when `NewChildKey` reports no error this is a valid secret. The point hashed for non-hardened indices is that of the
secret modulo the group order, and 02 followed by zeros if there is none. -/
theorem C97_private (k : Key) (i : UInt32) (hp : k.isPrivate = true) (hv : PvtVersion k.getVersion) :
    let s := parse256 k.getPvtKeyBytes
    let I := H.hmacSha512 k.getChainCode
      ((if 2 ^ 31 ≤ i.toNat then 0 :: k.getPvtKeyBytes else storedPoint (point s)) ++ ser32 i.toNat)
    let t := (parse256 (I.take 32) + s) % secpN
    (k.newChildKey H (Registry.init order) i).2 = (if t = 0 then some .invalidPrivateKey else none) ∧
    (k.newChildKey H (Registry.init order) i).1.fields =
      ⟨k.getVersion, [k.byteAt depthStart + 1], (H.ripemd160 (H.sha256 (storedPoint (point s)))).take 4, ser32 i.toNat,
        I.drop 32, 0 :: ser256 t⟩ ∧
    (t ≠ 0 → IsXprv (k.newChildKey H (Registry.init order) i).1 t) := by
  intro s I t
  have hI : k.getIntermediary H i = I := by
    rw [getIntermediary_eq, hp, if_pos rfl, publicKeyForPrivateKey_eq, ← storedPoint_eq]; rfl
  obtain ⟨h1, h2⟩ := newChildKey_private H ho k i hp hv
  rw [hI, publicKeyForPrivateKey_eq, ← storedPoint_eq] at h1
  rw [hI] at h2
  refine ⟨h2, h1, fun ht => ⟨congrArg KeyFields.keyBytes h1, Nat.one_le_iff_ne_zero.2 ht, Nat.mod_lt _ secpN_prime.pos⟩⟩

/-- **C97**, malformed secrets do not spread: the key at the end of any non-empty path that was derived without an error is a valid
private key, whatever secret the first key had. -/
theorem C97_heals (k c : Key) (i : UInt32) (is : List UInt32) (hp : k.isPrivate = true) (hv : PvtVersion k.getVersion)
    (h : deriveAll (Key.newChildKey H (Registry.init order)) k (i :: is) = some c) :
    (∃ t, IsXprv c t) ∧ PvtVersion c.getVersion := by
  rw [deriveAll] at h
  obtain ⟨h1, h2, h3⟩ := C97_private H order ho k i hp hv
  rcases hc : k.newChildKey H (Registry.init order) i with ⟨d, _ | e⟩
  · rw [hc] at h h1 h2 h3
    dsimp only at h h1 h2 h3
    have hd : IsXprv d _ := h3 (by intro e; rw [if_pos e] at h1; simp at h1)
    have hdv : PvtVersion d.getVersion := by
      rw [show d.getVersion = k.getVersion from congrArg KeyFields.version h2]; exact hv
    obtain ⟨h4, h5, -⟩ := C32_private_validity H order ho is d c _ hd hdv h
    exact ⟨h4, h5 ▸ hdv⟩
  · rw [hc] at h; simp at h

/-- **C97**, secrets that agree modulo the group order. The two keys, also with different parents, have the same non-hardened
children, so that a secret out of range passes for another one, and the same public key. -/
theorem C97_congruent (k k' : Key) (hp : k.isPrivate = true) (hp' : k'.isPrivate = true)
    (hs : parse256 k.getPvtKeyBytes % secpN = parse256 k'.getPvtKeyBytes % secpN)
    (hv : k.getVersion = k'.getVersion) (hd : k.getDepth = k'.getDepth) (hc : k.getChainCode = k'.getChainCode) :
    (∀ i : UInt32, i.toNat < 2 ^ 31 →
      k.newChildKey H (Registry.init order) i = k'.newChildKey H (Registry.init order) i) ∧
    (k.publicKeyExtended (Registry.init order)).getKeyBytes = (k'.publicKeyExtended (Registry.init order)).getKeyBytes := by
  have hpt := point_congr hs
  constructor
  · intro i hi
    by_cases hreg : PvtVersion k.getVersion
    · obtain ⟨a1, a2, -⟩ := C97_private H order ho k i hp hreg
      obtain ⟨b1, b2, -⟩ := C97_private H order ho k' i hp' (hv ▸ hreg)
      have hdb : k.byteAt depthStart = k'.byteAt depthStart := by
        rw [Key.getDepth_eq, Key.getDepth_eq] at hd
        exact (List.cons.inj hd).1
      rw [if_neg (by omega : ¬ 2 ^ 31 ≤ i.toNat)] at a1 a2 b1 b2
      rw [hpt, hc] at a1 a2
      rw [hv, hdb] at a2
      have ht : ∀ x, (x + parse256 k.getPvtKeyBytes) % secpN = (x + parse256 k'.getPvtKeyBytes) % secpN := by
        intro x; rw [Nat.add_mod, hs, ← Nat.add_mod]
      rw [ht] at a1 a2
      exact Prod.ext (Key.fields_inj (a2.trans b2.symm)) (a1.trans b1.symm)
    · rw [newChildKey_unregistered H ho k i (.inl hp) (by rw [hp]; simpa using hreg),
        newChildKey_unregistered H ho k' i (.inl hp') (by rw [hp']; simpa [← hv] using hreg)]
  · have a := congrArg KeyFields.keyBytes (publicKeyExtended_private ho k hp)
    have b := congrArg KeyFields.keyBytes (publicKeyExtended_private ho k' hp')
    have e : publicKeyForPrivateKey k.getPvtKeyBytes = publicKeyForPrivateKey k'.getPvtKeyBytes := by
      rw [publicKeyForPrivateKey_eq, publicKeyForPrivateKey_eq]
      exact congrArg (fun P => compressPublicKey (coords P)) hpt
    exact (a.trans e).trans b.symm

/-- **C97**, hardened indices. There the bytes of the secret are hashed, and two keys with the same chain code and different
secrets have a common child only if HMAC-SHA512 has the same right half for two different messages. -/
theorem C97_hardened (k k' : Key) (hp : k.isPrivate = true) (hp' : k'.isPrivate = true)
    (hs : k.getPvtKeyBytes ≠ k'.getPvtKeyBytes) (hv : PvtVersion k.getVersion) (hv' : PvtVersion k'.getVersion)
    (hc : k.getChainCode = k'.getChainCode) (i : UInt32) (hi : 2 ^ 31 ≤ i.toNat)
    (h : (k.newChildKey H (Registry.init order) i).1 = (k'.newChildKey H (Registry.init order) i).1) :
    ∃ c m m', m ≠ m' ∧ (H.hmacSha512 c m).drop 32 = (H.hmacSha512 c m').drop 32 := by
  obtain ⟨-, a2, -⟩ := C97_private H order ho k i hp hv
  obtain ⟨-, b2, -⟩ := C97_private H order ho k' i hp' hv'
  rw [if_pos hi] at a2 b2
  rw [h, b2] at a2
  refine ⟨k.getChainCode, 0 :: k.getPvtKeyBytes ++ ser32 i.toNat, 0 :: k'.getPvtKeyBytes ++ ser32 i.toNat, ?_, ?_⟩
  · intro e
    exact hs (List.cons.inj (List.append_cancel_right e)).2
  · have := congrArg KeyFields.chainCode a2
    rw [← hc] at this
    exact this.symm

/-- **C97**, owner and watcher of a malformed private key derive the same non-hardened keys, as those of a valid one do. -/
theorem C97_watch (k c : Key) (i : UInt32) (hp : k.isPrivate = true) (hv : PvtVersion k.getVersion) (hi : i.toNat < 2 ^ 31)
    (hc : k.newChildKey H (Registry.init order) i = (c, none))
    (hIL : parse256 ((H.hmacSha512 k.getChainCode
      (storedPoint (point (parse256 k.getPvtKeyBytes)) ++ ser32 i.toNat)).take 32) % secpN ≠ 0) :
    (k.publicKeyExtended (Registry.init order)).newChildKey H (Registry.init order) i =
      (c.publicKeyExtended (Registry.init order), none) := by
  set N := k.publicKeyExtended (Registry.init order) with hN
  have hNf := publicKeyExtended_private ho k hp
  rw [← hN, publicKeyForPrivateKey_eq, ← storedPoint_eq] at hNf
  have hNk : N.getKeyBytes = storedPoint (point (parse256 k.getPvtKeyBytes)) := congrArg KeyFields.keyBytes hNf
  have hNv : N.getVersion = neuterVersion k.getVersion := congrArg KeyFields.version hNf
  have hNc : N.getChainCode = k.getChainCode := congrArg KeyFields.chainCode hNf
  have hNd : N.getDepth = k.getDepth := congrArg KeyFields.depth hNf
  obtain ⟨h1, h2, h3⟩ := C97_private H order ho k i hp hv
  have hpub := (C23_ckdPub_exact H order ho N _ i hNk (by rw [hNv]; exact neuterVersion_pub _) hi).2
  rw [if_neg (by omega : ¬ 2 ^ 31 ≤ i.toNat)] at h1 h2 h3
  rw [hNc] at hpub
  obtain ⟨p1, p2⟩ := hpub hIL
  rw [hc] at h1 h2 h3
  have ht : (parse256 ((H.hmacSha512 k.getChainCode
      (storedPoint (point (parse256 k.getPvtKeyBytes)) ++ ser32 i.toNat)).take 32) + parse256 k.getPvtKeyBytes) % secpN ≠ 0 := by
    intro e; rw [if_pos e] at h1; simp at h1
  have hcx := h3 ht
  refine Prod.ext (Key.fields_inj ?_) p1
  rw [p2, neuter_xprv order ho hcx, h2, hNv, hNd, show c.getVersion = k.getVersion from congrArg KeyFields.version h2]
  rw [stored_sum _ _ ht, Key.getDepth_eq]
  rfl

/-- **C97**, public keys at a point. Let the x read modulo the field prime be that of a point of the curve, whether it is reduced or
not, and the first byte be any but 0. The child is that of the point with this x and the y the byte selects. The exception: if the x
is not reduced and IL gives the same point, it is not doubled, and the child is 02 followed by zeros. -/
theorem C97_point (k : Key) (a : UInt8) (x : Bytes) (X y : Fp) (h : secp.Nonsingular X y) (i : UInt32) (ha : a ≠ 0)
    (hk : k.getKeyBytes = a :: x) (hX : ((parse256 x : Nat) : Fp) = X) (hs : Selects a y) (hv : PubVersion k.getVersion)
    (hi : i.toNat < 2 ^ 31) :
    let I := H.hmacSha512 k.getChainCode (a :: x ++ ser32 i.toNat)
    parse256 (I.take 32) % secpN ≠ 0 →
    (k.newChildKey H (Registry.init order) i).2 = none ∧
    (k.newChildKey H (Registry.init order) i).1.fields =
      ⟨k.getVersion, [k.byteAt depthStart + 1], (H.ripemd160 (H.sha256 (a :: x))).take 4, ser32 i.toNat, I.drop 32,
        storedPoint (if secpP ≤ parse256 x ∧ point (parse256 (I.take 32)) = .some X y h then 0
          else point (parse256 (I.take 32)) + .some X y h)⟩ := by
  intro I hIL
  have hp : k.isPrivate = false := by rw [(isPrivate_of_keyBytes k hk).1]; simpa using ha
  have hI : k.getIntermediary H i = I := by
    rw [getIntermediary_eq, if_neg (by omega), hp, hk]; rfl
  have hc := (newChildKey_public H ho k i hi hp hv).2
  rw [hI, hk] at hc
  obtain ⟨h1, h2⟩ := hc hIL
  have hIL' : point (setBytes (I.take 32)) ≠ 0 := point_ne_zero hIL
  refine ⟨h2, h1.trans ?_⟩
  obtain ⟨e1, e2⟩ := expand_bytes a x X y hX h hs
  have hxv : setBytes x % secpP = X.val := by
    rw [← hX, ZMod.val_natCast]; rfl
  rw [addPublicKeys, publicKeyForPrivateKey_eq, expandPublicKey_compress, ← Prod.eta (expandPublicKey (a :: x)), e1, e2,
    curveAdd_unreduced hIL' h _ hxv, ← storedPoint_eq]
  rfl

/-- **C97**, the public key 02 followed by zeros, which is what the code stores for the point at infinity: the key counts as the
neutral element. Every child is the point of IL, whose secret everyone who knows the key can compute. -/
theorem C97_zero_point (k : Key) (i : UInt32) (hk : k.getKeyBytes = 2 :: List.replicate 32 0) (hv : PubVersion k.getVersion)
    (hi : i.toNat < 2 ^ 31) :
    let I := H.hmacSha512 k.getChainCode (2 :: List.replicate 32 0 ++ ser32 i.toNat)
    parse256 (I.take 32) % secpN ≠ 0 →
    (k.newChildKey H (Registry.init order) i).2 = none ∧
    (k.newChildKey H (Registry.init order) i).1.getKeyBytes = serP (point (parse256 (I.take 32))) := by
  intro I hIL
  have hp : k.isPrivate = false := by rw [(isPrivate_of_keyBytes k hk).1]; decide
  have hI : k.getIntermediary H i = I := by
    rw [getIntermediary_eq, if_neg (by omega), hp, hk]; rfl
  have hc := (newChildKey_public H ho k i hi hp hv).2
  rw [hI, hk] at hc
  obtain ⟨h1, h2⟩ := hc hIL
  refine ⟨h2, (congrArg KeyFields.keyBytes h1).trans ?_⟩
  have hIL' : point (setBytes (I.take 32)) ≠ 0 := point_ne_zero hIL
  dsimp only
  rw [show (2 :: List.replicate 32 0 : Bytes) = storedPoint 0 from rfl, addPublicKeys_stored, add_zero, storedPoint_of_ne hIL']
  rfl

/-- **C97**, public keys off the curve. For any other key whose x is not that of a point, (x, 0) is added to the point (x₁, y₁) of IL by
the chord rule, and no error is reported. The sum is not a point of the curve, unless its x is x₁. -/
theorem C97_off_curve (k : Key) (a : UInt8) (x : Bytes) (X : Fp) (i : UInt32) (ha : a ≠ 0) (hk : k.getKeyBytes = a :: x)
    (hX : ((parse256 x : Nat) : Fp) = X) (h0 : ¬ (a = 2 ∧ parse256 x = 0)) (hoff : ∀ y : Fp, y ^ 2 ≠ X ^ 3 + 7)
    (hv : PubVersion k.getVersion) (hi : i.toNat < 2 ^ 31) :
    let I := H.hmacSha512 k.getChainCode (a :: x ++ ser32 i.toNat)
    parse256 (I.take 32) % secpN ≠ 0 →
    (k.newChildKey H (Registry.init order) i).2 = none ∧
    ∃ x₁ y₁ h₁, point (parse256 (I.take 32)) = .some x₁ y₁ h₁ ∧
      let l := y₁ / (x₁ - X)
      let x₃ := l ^ 2 - x₁ - X
      let y₃ := l * (x₁ - x₃) - y₁
      (k.newChildKey H (Registry.init order) i).1.getKeyBytes = (if y₃.val % 2 = 0 then 2 else 3) :: ser256 x₃.val ∧
      (y₃ ^ 2 = x₃ ^ 3 + 7 ↔ x₃ = x₁) := by
  intro I hIL
  have hp : k.isPrivate = false := by rw [(isPrivate_of_keyBytes k hk).1]; simpa using ha
  have hI : k.getIntermediary H i = I := by
    rw [getIntermediary_eq, if_neg (by omega), hp, hk]; rfl
  have hc := (newChildKey_public H ho k i hi hp hv).2
  rw [hI, hk] at hc
  obtain ⟨h1, h2⟩ := hc hIL
  refine ⟨h2, ?_⟩
  have hIL' : point (setBytes (I.take 32)) ≠ 0 := point_ne_zero hIL
  have hkb := congrArg KeyFields.keyBytes h1
  dsimp only at hkb
  obtain ⟨e1, e2⟩ := expand_off_curve a x (by rw [show ((setBytes x : Nat) : Fp) = X from hX]; exact hoff)
  have hxv : setBytes x % secpP = X.val := by
    rw [← hX, ZMod.val_natCast]; rfl
  rw [addPublicKeys, publicKeyForPrivateKey_eq, expandPublicKey_compress, ← Prod.eta (expandPublicKey (a :: x)), e1,
    e2] at hkb
  cases hQ : point (parse256 (I.take 32)) with
  | zero => exact absurd hQ hIL'
  | some x₁ y₁ h₁ =>
    refine ⟨x₁, y₁, h₁, rfl, ?_⟩
    intro l x₃ y₃
    have heq := (secp_nonsingular_iff _ _).1 h₁
    have hne : x₁ ≠ X := by rintro rfl; exact hoff y₁ heq
    have hr0 : (setBytes x, if a = 2 then 0 else secpP) ≠ (0, 0) := by
      intro e
      rw [Prod.mk.injEq] at e
      refine h0 ⟨?_, e.1⟩
      by_contra h2
      rw [if_neg h2] at e
      exact secpP_prime.ne_zero e.2
    have hm : (if a = 2 then 0 else secpP) % secpP = 0 := by split <;> simp
    rw [show point (setBytes (I.take 32)) = .some x₁ y₁ h₁ from hQ, coords_some, curveAdd_chord h₁ _ _ hr0 hxv hne, hm,
      chord_off hne] at hkb
    constructor
    · refine (show _ = _ from hkb).trans ?_
      rw [compressPublicKey, parityByte]
      dsimp only
      rw [compress_aux (lt_trans (ZMod.val_lt _) secpP_lt)]
      rfl
    · have hl : l * (x₁ - X) = y₁ := div_mul_cancel₀ _ (sub_ne_zero.2 hne)
      have key : (x₁ - X) * (y₃ ^ 2 - (x₃ ^ 3 + 7)) = (x₃ - x₁) * (X ^ 3 + 7) := by
        have hy₃ : y₃ = l * (x₁ - x₃) - y₁ := rfl
        have hx₃ : x₃ = l ^ 2 - x₁ - X := rfl
        clear_value l x₃ y₃
        rw [← hl] at heq hy₃
        rw [hy₃]
        subst hx₃
        linear_combination (l ^ 2 - x₁ - X - X) * heq
      constructor
      · intro e
        rw [e, sub_self, mul_zero] at key
        rcases mul_eq_zero.1 key.symm with h | h
        · exact sub_eq_zero.1 h
        · exact absurd (by rw [h]; ring) (hoff 0)
      · intro e
        rw [e, sub_self, zero_mul] at key
        rcases mul_eq_zero.1 key with h | h
        · exact absurd h (sub_ne_zero.2 hne)
        · rw [e]; exact sub_eq_zero.1 h

end

/-! ### The hypotheses are met -/

theorem xprvKey_secret (s : Nat) : (xprvKey s).isPrivate = true ∧ (xprvKey s).getPvtKeyBytes = ser256 s :=
  isPrivate_of_keyBytes _ (congrArg KeyFields.keyBytes (xprvKey_fields s))

/-- The secret 5 and the secret n + 5: different keys, both accepted, with the same children for non-hardened indices. -/
example (H : Hashes) (order : List (Bytes × List VersionBytes)) (ho : order.Perm pathTable) (i : UInt32) (hi : i.toNat < 2 ^ 31) :
    xprvKey 5 ≠ xprvKey (secpN + 5) ∧
    (xprvKey 5).newChildKey H (Registry.init order) i = (xprvKey (secpN + 5)).newChildKey H (Registry.init order) i := by
  have f := xprvKey_fields 5
  have g := xprvKey_fields (secpN + 5)
  refine ⟨fun e => ?_, (C97_congruent H order ho _ _ (xprvKey_secret 5).1 (xprvKey_secret _).1 ?_ ?_ ?_ ?_).1 i hi⟩
  · have := (xprvKey_secret 5).2
    rw [e, (xprvKey_secret _).2] at this
    exact absurd this (by decide +kernel)
  · rw [(xprvKey_secret 5).2, (xprvKey_secret _).2]; decide +kernel
  · exact (congrArg KeyFields.version f).trans (congrArg KeyFields.version g).symm
  · exact (congrArg KeyFields.depth f).trans (congrArg KeyFields.depth g).symm
  · exact (congrArg KeyFields.chainCode f).trans (congrArg KeyFields.chainCode g).symm

/-- The secret n, which is out of range: a path of two steps, and a key at the end that is in range. -/
example (order : List (Bytes × List VersionBytes)) (ho : order.Perm pathTable) :
    ∃ c, (defectiveKey .scalarOutOfRange).isPrivate = true ∧ PvtVersion (defectiveKey .scalarOutOfRange).getVersion ∧
      deriveAll (Key.newChildKey (hashesIL 1) (Registry.init order)) (defectiveKey .scalarOutOfRange) [0, 7] = some c := by
  have hp : (defectiveKey .scalarOutOfRange).isPrivate = true := by decide +kernel
  have hv : PvtVersion (defectiveKey .scalarOutOfRange).getVersion :=
    ⟨bitcoinxprvxpub, (registered_iff _).2 (by decide +kernel), by decide +kernel⟩
  have h1 := (C90_derives_from order ho .scalarOutOfRange).2 (by simp)
  rcases hc : (defectiveKey .scalarOutOfRange).newChildKey (hashesIL 1) (Registry.init order) 0 with ⟨c, e⟩
  rw [hc] at h1
  obtain rfl : e = none := h1
  obtain ⟨-, h2, h3⟩ := C97_private (hashesIL 1) order ho _ 0 hp hv
  rw [hashesIL_take, hc] at h2 h3
  have ht : (parse256 (beBytes 32 1) + parse256 (defectiveKey .scalarOutOfRange).getPvtKeyBytes) % secpN = 1 := by decide +kernel
  rw [ht] at h3
  have hx := h3 (by decide)
  have hcv : PvtVersion c.getVersion := by
    rw [show c.getVersion = (defectiveKey .scalarOutOfRange).getVersion from congrArg KeyFields.version h2]; exact hv
  obtain ⟨c', h4, -⟩ := long_paths order ho [7] c 1 hx hcv (by decide)
  refine ⟨c', hp, hv, ?_⟩
  rw [deriveAll, hc]
  exact h4

/-- First byte 4 and x = 1: both y are told apart, and one of them is selected. -/
example : ∃ (y : Fp) (_ : secp.Nonsingular ((1 : Nat) : Fp) y), Selects 4 y ∧
    (defectiveKey .publicPrefix).getKeyBytes = 4 :: beBytes 32 1 ∧ parse256 (beBytes 32 1) = 1 ∧
    PubVersion (defectiveKey .publicPrefix).getVersion := by
  have hv : PubVersion (defectiveKey .publicPrefix).getVersion :=
    ⟨bitcoinxprvxpub, (registered_iff _).2 (by decide +kernel), by decide +kernel⟩
  have hq : ((modSqrt 8 : Nat) : Fp) ^ 2 = ((1 : Nat) : Fp) ^ 3 + 7 := by
    have : ((modSqrt 8 ^ 2 : Nat) : Fp) = ((8 : Nat) : Fp) :=
      (ZMod.natCast_eq_natCast_iff' _ _ secpP).2 (by decide +kernel)
    push_cast at this ⊢
    rw [this]; norm_num
  have hn := (secp_nonsingular_iff _ _).2 hq
  have hn' : secp.Nonsingular ((1 : Nat) : Fp) (-((modSqrt 8 : Nat) : Fp)) :=
    (secp_nonsingular_iff _ _).2 (by rw [neg_sq]; exact hq)
  rcases selects_unique 4 _ _ hn with h | h
  · exact ⟨_, hn, h.1, by decide +kernel, by decide +kernel, hv⟩
  · exact ⟨_, hn', h.2, by decide +kernel, by decide +kernel, hv⟩

/-- x = 5, which is not on the curve, and a hash function for which IL is 1. -/
example : (defectiveKey .notOnCurve).getKeyBytes = 2 :: beBytes 32 5 ∧ parse256 (beBytes 32 5) ≠ 0 ∧
    (∀ y : Fp, y ^ 2 ≠ ((5 : Nat) : Fp) ^ 3 + 7) ∧ PubVersion (defectiveKey .notOnCurve).getVersion := by
  refine ⟨by decide +kernel, ?_, ?_, ⟨bitcoinxprvxpub, (registered_iff _).2 (by decide +kernel), by decide +kernel⟩⟩
  · decide +kernel
  · intro y h
    apply five_not_on_curve
    refine ⟨y.val, by decide +kernel, (ZMod.natCast_eq_natCast_iff' _ _ secpP).1 ?_⟩
    push_cast
    rw [cast_val, h]
    norm_num

/-- 02 followed by zeros: the public key of the secret n. -/
example (order : List (Bytes × List VersionBytes)) (ho : order.Perm pathTable) :
    ((defectiveKey .scalarOutOfRange).publicKeyExtended (Registry.init order)).getKeyBytes = 2 :: List.replicate 32 0 := by
  have h := congrArg KeyFields.keyBytes (publicKeyExtended_private ho (defectiveKey .scalarOutOfRange) (by decide +kernel))
  refine (show _ = publicKeyForPrivateKey (defectiveKey .scalarOutOfRange).getPvtKeyBytes from h).trans ?_
  rw [publicKeyForPrivateKey_eq, show point (setBytes (defectiveKey .scalarOutOfRange).getPvtKeyBytes) = 0 from
    (smul_baseG_eq_zero_iff _).2 (by decide +kernel), coords_zero, compressPublicKey_zero]

end Bips
