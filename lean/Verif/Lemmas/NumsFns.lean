import Verif.Lemmas.Nums

/-!
# The shared big integers: what each function gives

With the package numbers as initialised, each program over cells gives what the function of the same name in the other models
gives.
-/

namespace Bips.Nums

variable {H : Hashes} {S : WordState} {R : Registry}

/-! ### bip39 -/

theorem addChecksumLoop_wp (first : UInt8) (d k i v : Nat) (own : List Nat) (hd : d < own.length) (hv : own.getD d 0 = v) :
    wp Pkg.init (addChecksumLoop first (.own d) k i)
      (fun o own' => o = .ok () ∧ own' = own.set d (Bips.addChecksumLoop first k i v)) own := by
  induction k generalizing i v own with
  | zero =>
    refine ⟨rfl, ?_⟩
    subst hv
    show own = own.set d (own.getD d 0)
    rw [List.getD_eq_getElem _ _ hd, List.set_getElem_self]
  | succ k ih =>
    unfold addChecksumLoop Bips.addChecksumLoop
    rw [wp_bind, wp_op, after]
    have h1 : val Pkg.init own (.own d) = v := hv
    rw [h1]
    dsimp only
    have h2 : val Pkg.init own (.pkg .bigTwo) = 2 := rfl
    rw [h2]
    have hl : d < (own.set d (v * 2)).length := by simpa using hd
    generalize (first.toNat &&& if i ≤ 7 then 2 ^ (7 - i) else 0) = bit
    split
    · rw [wp_bind, wp_op, after]
      have h3 : val Pkg.init (own.set d (v * 2)) (.own d) = v * 2 := getD_set_self hd
      have h4 : val Pkg.init (own.set d (v * 2)) (.pkg .bigOne) = 1 := rfl
      rw [h3, h4, List.set_set]
      refine wp_mono ?_ (ih (i + 1) (v * 2 ||| 1) (own.set d (v * 2 ||| 1)) (by simpa using hd) (getD_set_self hd))
      rintro o own' ⟨ho, rfl⟩
      exact ⟨ho, List.set_set _⟩
    · refine wp_mono ?_ (ih (i + 1) (v * 2) (own.set d (v * 2)) hl (getD_set_self hd))
      rintro o own' ⟨ho, rfl⟩
      exact ⟨ho, List.set_set _⟩

theorem addChecksum_gives (data : Bytes) : Gives Pkg.init (addChecksum H data) (.ok (Bips.addChecksum H data)) := by
  intro own
  unfold addChecksum
  rw [wp_bind, wp_newInt, after, wp_bind, wp_store, after, wp_bind]
  have hl : own.length < ((own ++ [0]).set own.length (setBytes data)).length := by simp
  refine wp_mono ?_ (addChecksumLoop_wp _ own.length _ 0 (setBytes data) _ hl (getD_set_self (by simp)))
  rintro o own' ⟨rfl, rfl⟩
  rw [after, wp_bind, wp_load, after, wp_pure]
  rw [val, getD_set_self hl]
  rfl

theorem decodeWords_wp (map : Bytes → Option Nat) (b v : Nat) (ws : List Bytes) (own : List Nat) (hb : b < own.length)
    (hv : own.getD b 0 = v) :
    wp Pkg.init (decodeWords map (.own b) ws)
      (fun o own' => own.length ≤ own'.length ∧ match Bips.decodeWords map ws v with
        | .inl n => o = .ok none ∧ own'.getD b 0 = n
        | .inr e => o = .ok (some e)) own := by
  induction ws generalizing v own with
  | nil => exact ⟨le_rfl, rfl, hv⟩
  | cons w ws ih =>
    unfold decodeWords Bips.decodeWords
    cases map w with
    | none => exact ⟨le_rfl, rfl⟩
    | some index =>
      dsimp only
      rw [wp_bind, wp_op, after, wp_bind, wp_newInt, after, wp_bind, wp_store, after, wp_bind, wp_op, after]
      have h1 : val Pkg.init own (.own b) = v := hv
      have h2 : val Pkg.init own (.pkg .shift11BitsMask) = 2048 := rfl
      rw [h1, h2, List.length_set]
      generalize setBytes (beBytes 2 (index % 65536)) = t
      have hne : own.length ≠ b := by omega
      have h3 : val Pkg.init ((own.set b (v * 2048) ++ [0]).set own.length t) (.own b) = v * 2048 := by
        rw [val, getD_set_ne hne, getD_append_lt (by simpa using hb), getD_set_self hb]
      have h4 : val Pkg.init ((own.set b (v * 2048) ++ [0]).set own.length t) (.own own.length) = t := by
        rw [val, getD_set_self (by simp)]
      rw [h3, h4]
      refine wp_mono ?_ (ih (v * 2048 ||| t) _ ?_ (getD_set_self ?_))
      · rintro o own' ⟨hl, h⟩
        refine ⟨?_, h⟩
        simp only [List.length_set, List.length_append, List.length_singleton] at hl
        omega
      · simp only [List.length_set, List.length_append, List.length_singleton]
        omega
      · simp only [List.length_set, List.length_append, List.length_singleton]
        omega

theorem entropyFromMnemonic_gives (m : Bytes) :
    Gives Pkg.init (entropyFromMnemonic H S m) (Bips.entropyFromMnemonic H S m) := by
  intro own
  unfold entropyFromMnemonic Bips.entropyFromMnemonic
  rcases splitMnemonicWords m with ⟨ws, _ | _⟩
  · rfl
  · dsimp only
    rw [wp_bind, wp_newInt, after, wp_bind]
    refine wp_mono ?_ (decodeWords_wp S.map own.length 0 ws (own ++ [0]) (by simp) getD_append_self)
    rintro o own1 ⟨hl, h⟩
    cases hd : Bips.decodeWords S.map ws 0 with
    | inr e =>
      rw [hd] at h
      dsimp only at h
      subst h
      rfl
    | inl b =>
      rw [hd] at h
      obtain ⟨rfl, hb⟩ := h
      have hbl : own.length < own1.length := by simpa using hl
      generalize hn : own.length = n at hb hbl
      clear hl
      rw [after]
      dsimp only
      rw [wp_bind, wp_newInt, after]
      cases hm : checksumMask ws.length with
      | none => rfl
      | some mask =>
        dsimp only
        have hmask : ∀ o, val Pkg.init o (.pkg (.mask ws.length)) = mask := fun o => by
          show (checksumMask ws.length).getD 0 = mask
          rw [hm]; rfl
        rw [wp_bind, wp_op, after, wp_bind, wp_newInt, after, wp_bind, wp_op, after, wp_bind, wp_op, after, wp_bind,
          wp_load, after, wp_bind, wp_newInt, after]
        simp only [hmask, List.length_set, List.length_append, List.length_singleton]
        have hone : ∀ o, val Pkg.init o (.pkg .bigOne) = 1 := fun o => rfl
        simp only [hone]
        have e1 : val Pkg.init (own1 ++ [0]) (.own n) = b := by
          rw [val, getD_append_lt hbl]; exact hb
        rw [e1]
        generalize ho2 : (own1 ++ [0]).set own1.length (b &&& mask) = own2
        have l2 : own2.length = own1.length + 1 := by rw [← ho2]; simp
        have c2 : own2.getD own1.length 0 = b &&& mask := by rw [← ho2]; exact getD_set_self (by simp)
        have b2 : own2.getD n 0 = b := by
          rw [← ho2, getD_set_ne (by omega)]; exact e1
        generalize ho3 : (own2 ++ [0]).set (own1.length + 1) (mask + 1) = own3
        have l3 : own3.length = own1.length + 2 := by rw [← ho3]; simp [l2]
        have c3 : own3.getD own1.length 0 = b &&& mask := by
          rw [← ho3, getD_set_ne (by omega), getD_append_lt (by omega)]; exact c2
        have b3 : val Pkg.init own3 (.own n) = b := by
          rw [val, ← ho3, getD_set_ne (by omega), getD_append_lt (by omega)]; exact b2
        have t3 : val Pkg.init own3 (.own (own1.length + 1)) = mask + 1 := by
          rw [val, ← ho3]; exact getD_set_self (by simp [l2])
        rw [b3, t3]
        generalize ho4 : own3.set n (b / (mask + 1)) = own4
        have l4 : own4.length = own1.length + 2 := by rw [← ho4]; simp [l3]
        have c4 : own4.getD own1.length 0 = b &&& mask := by
          rw [← ho4, getD_set_ne (by omega)]; exact c3
        have b4 : val Pkg.init own4 (.own n) = b / (mask + 1) := by
          rw [val, ← ho4]; exact getD_set_self (by omega)
        rw [b4]
        rw [show own1.length + 1 + 1 = own4.length from l4.symm]
        generalize padByteSlice (bigBytes (b / (mask + 1))) (ws.length / 3 * 4) = entropy
        generalize ((computeChecksum H entropy).headD 0).toNat = c
        have key : ∀ (own5 : List Nat) (c' : Nat), own5.getD own1.length 0 = (b &&& mask) →
            own5.getD own4.length 0 = c' →
            wp Pkg.init (do
              if (← load (.own own1.length)) ≠ (← load (.own own4.length)) then
                pure (([] : Bytes), some Err.checksumIncorrect)
              else pure (entropy, none))
              (fun o _ => o = if (b &&& mask) ≠ c' then Outcome.ok (([] : Bytes), some Err.checksumIncorrect)
                else .ok (entropy, none)) own5 := by
          intro own5 c' h1 h2
          rw [wp_bind, wp_load, after, wp_bind, wp_load, after, val, val, h1, h2]
          split <;> rfl
        by_cases h24 : ws.length ≠ 24
        · rw [if_pos h24, if_pos h24]
          cases hs : checksumShift ws.length with
          | none => rfl
          | some sh =>
            dsimp only
            rw [wp_bind, wp_op, after]
            have e5 : val Pkg.init (own4 ++ [c]) (.own own4.length) = c := getD_append_self
            have e6 : val Pkg.init (own4 ++ [c]) (.pkg (.shift ws.length)) = sh := by
              show (checksumShift ws.length).getD 0 = sh
              rw [hs]; rfl
            rw [e5, e6]
            refine key _ _ ?_ (getD_set_self (by simp))
            rw [getD_set_ne (by omega), getD_append_lt (by omega)]
            exact c4
        · rw [if_neg h24, if_neg h24]
          refine key _ _ ?_ getD_append_self
          rw [getD_append_lt (by omega)]
          exact c4

theorem encodeWords_wp (list : List Bytes) (e w : Nat) (hew : e ≠ w) (k n : Nat) (acc : List Bytes) (own : List Nat)
    (he : e < own.length) (hw : w < own.length) (hn : own.getD e 0 = n) :
    wp Pkg.init (encodeWords list (.own e) (.own w) k acc) (fun o _ => o = Bips.encodeWords list k n acc) own := by
  induction k generalizing n acc own with
  | zero => rfl
  | succ k ih =>
    unfold encodeWords Bips.encodeWords
    rw [wp_bind, wp_op, after, wp_bind, wp_op, after, wp_bind, wp_load, after]
    have h1 : val Pkg.init own (.own e) = n := hn
    have h2 : val Pkg.init own (.pkg .last11BitsMask) = 2047 := rfl
    rw [h1, h2]
    have h3 : val Pkg.init (own.set w (n &&& 2047)) (.own e) = n := by rw [val, getD_set_ne hew.symm]; exact hn
    have h4 : val Pkg.init (own.set w (n &&& 2047)) (.pkg .shift11BitsMask) = 2048 := rfl
    rw [h3, h4]
    have h5 : val Pkg.init ((own.set w (n &&& 2047)).set e (n / 2048)) (.own w) = n &&& 2047 := by
      rw [val, getD_set_ne hew, getD_set_self hw]
    rw [h5]
    dsimp only
    cases list[setBytes (padByteSlice (bigBytes (n &&& 2047)) 2)]? with
    | none => rfl
    | some x =>
      refine ih (n / 2048) (x :: acc) _ (by simpa using he) (by simpa using hw) (getD_set_self (by simpa using he))

theorem newMnemonic_gives (e : Bytes) : Gives Pkg.init (newMnemonic H S e) (Bips.newMnemonic H S e) := by
  unfold newMnemonic Bips.newMnemonic
  dsimp only
  cases validateEntropyBitSize (e.length * 8 : Nat) with
  | some e => exact gives_pure _
  | none =>
    refine (addChecksum_gives e).bind (fun a ha => ?_) (fun h => by cases h)
    have ha := Outcome.ok.inj ha
    subst ha
    intro own
    rw [wp_bind, wp_newInt, after, wp_bind, wp_store, after, wp_bind, wp_newInt, after, wp_bind]
    simp only [List.length_set, List.length_append, List.length_singleton]
    refine wp_mono ?_ (encodeWords_wp S.list own.length (own.length + 1) (by omega) _ (setBytes (Bips.addChecksum H e)) []
      _ ?_ ?_ ?_)
    · intro o own' ho
      subst ho
      cases Bips.encodeWords S.list ((e.length * 8 + e.length * 8 / 32) / 11) (setBytes (Bips.addChecksum H e)) [] <;> rfl
    · simp
    · simp
    · rw [getD_append_lt (by simp), getD_set_self (by simp)]

theorem mnemonicToByteArray_gives (m : Bytes) (raw : List Bool) :
    Gives Pkg.init (mnemonicToByteArray H S m raw) (Bips.mnemonicToByteArray H S m raw) := by
  unfold mnemonicToByteArray Bips.mnemonicToByteArray
  dsimp only
  refine (entropyFromMnemonic_gives m).bind (fun a ha => ?_) (fun h => by rw [h])
  rw [ha]
  rcases a with ⟨r, _ | e⟩
  · dsimp only
    split
    · exact gives_pure _
    · refine (addChecksum_gives r).bind (fun a ha => ?_) (fun h => by cases h)
      have ha := Outcome.ok.inj ha
      subst ha
      exact gives_pure _
  · exact gives_pure _

theorem newSeedWithErrorChecking_gives (m p : Bytes) :
    Gives Pkg.init (newSeedWithErrorChecking H S m p) (Bips.newSeedWithErrorChecking H S m p) := by
  unfold newSeedWithErrorChecking Bips.newSeedWithErrorChecking
  refine (mnemonicToByteArray_gives m []).bind (fun a ha => ?_) (fun h => by rw [h])
  rw [ha]
  rcases a with ⟨r, _ | e⟩ <;> exact gives_pure _

theorem isMnemonicValid_gives (m : Bytes) :
    Gives Pkg.init (isMnemonicValid H S m) (Bips.isMnemonicValid H S m) := by
  unfold isMnemonicValid Bips.isMnemonicValid
  refine (entropyFromMnemonic_gives m).bind (fun a ha => ?_) (fun h => by rw [h])
  rw [ha]
  exact gives_pure _

/-! ### bip32 -/

theorem validatePrivateKey_gives (key : Bytes) :
    Gives Pkg.init (validatePrivateKey key) (.ok (Bips.validatePrivateKey key)) := by
  intro own
  unfold validatePrivateKey Bips.validatePrivateKey
  by_cases h : hexEncode key = List.replicate 64 48
  · rw [if_pos h, if_pos (.inl h)]
    rfl
  · rw [if_neg h, wp_bind, wp_load, after]
    have hN : val Pkg.init own (.pkg .curveN) = secpN := rfl
    rw [hN]
    simp only [h, false_or]
    split <;> rfl

theorem publicKeyForPrivateKey_gives (key : Bytes) :
    Gives Pkg.init (publicKeyForPrivateKey key) (.ok (Bips.publicKeyForPrivateKey key)) := by
  intro own
  unfold publicKeyForPrivateKey compressPublicKey Bips.publicKeyForPrivateKey
  generalize scalarBaseMult key = q
  rw [wp_bind, wp_newInt, after, wp_bind, wp_newInt, after, wp_bind, wp_load, after, wp_bind, wp_load, after, wp_pure]
  rw [val, val, getD_append_lt (by simp), getD_append_self, getD_append_self]

theorem modSqrt_wp (Y a : Nat) (own : List Nat) (hY : Y < own.length) (h0 : own.getD Y 0 = 0) :
    wp Pkg.init (modSqrt (.own Y) (.own a) (.pkg .curveP))
      (fun o own' => o = .ok () ∧ own' = own.set Y (Bips.modSqrt (own.getD a 0))) own := by
  unfold modSqrt Bips.modSqrt
  rw [wp_bind, wp_load, after, wp_bind, wp_load, after]
  have hP : val Pkg.init own (.pkg .curveP) = secpP := rfl
  rw [hP, val]
  clear hP
  generalize own.getD a 0 = r
  generalize secpP = p
  dsimp only
  split
  · exact ⟨rfl, rfl⟩
  · split
    · exact ⟨rfl, rfl⟩
    · refine ⟨rfl, ?_⟩
      rw [List.getD_eq_getElem _ _ hY] at h0
      rw [← h0, List.set_getElem_self]

theorem expandPublicKey_wp (k0 : UInt8) (rest : Bytes) (own : List Nat) :
    wp Pkg.init (expandPublicKey (k0 :: rest))
      (fun o own' => ∃ x y, o = .ok (.own x, .own y) ∧ Ext own own' ∧ x ≠ y ∧ x < own'.length ∧ y < own'.length ∧
        own'.getD x 0 = (expandCons k0 rest).1 ∧ own'.getD y 0 = (expandCons k0 rest).2) own := by
  unfold expandPublicKey expandCons
  rw [wp_bind, wp_newInt, after, wp_bind, wp_newInt, after, wp_bind, wp_store, after, wp_bind, wp_newInt, after,
    wp_bind, wp_newInt, after, wp_bind, wp_op, after, wp_bind, wp_op, after]
  simp only [List.length_set, List.length_append, List.length_singleton]
  generalize hn : own.length = n
  generalize hX : setBytes rest = X
  generalize ho1 : ((own ++ [0] ++ [0]).set (n + 1) X ++ [0] ++ [3]) = own1
  have l1 : own1.length = n + 4 := by rw [← ho1]; simp [hn]
  have e1 : Ext own own1 := by
    refine ⟨by omega, fun i hi => ?_⟩
    rw [← ho1, getD_append_lt (by simp; omega), getD_append_lt (by simp; omega), getD_set_ne (by omega),
      getD_append_lt (by simp; omega), getD_append_lt hi]
  have y1 : own1.getD n 0 = 0 := by
    rw [← ho1, getD_append_lt (by simp; omega), getD_append_lt (by simp; omega), getD_set_ne (by omega),
      getD_append_lt (by simp; omega), ← hn, getD_append_self]
  have x1 : val Pkg.init own1 (.own (n + 1)) = X := by
    rw [val, ← ho1, getD_append_lt (by simp; omega), getD_append_lt (by simp; omega), getD_set_self (by simp; omega)]
  have t1 : val Pkg.init own1 (.own (n + 1 + 1 + 1)) = 3 := by
    rw [val, ← ho1, show n + 1 + 1 + 1 = ((own ++ [0] ++ [0]).set (n + 1) X ++ [0]).length by simp [hn], getD_append_self]
  clear ho1
  rw [x1, t1]
  generalize ho2 : own1.set (n + 1 + 1) (X ^ 3) = own2
  have l2 : own2.length = n + 4 := by rw [← ho2]; simp [l1]
  have e2 : Ext own own2 := by
    refine ⟨by omega, fun i hi => ?_⟩
    rw [← ho2, getD_set_ne (by omega)]; exact e1.2 i hi
  have y2 : own2.getD n 0 = 0 := by rw [← ho2, getD_set_ne (by omega)]; exact y1
  have x2 : own2.getD (n + 1) 0 = X := by rw [← ho2, getD_set_ne (by omega)]; exact x1
  have q2 : val Pkg.init own2 (.own (n + 1 + 1)) = X ^ 3 := by rw [val, ← ho2, getD_set_self (by omega)]
  have B2 : val Pkg.init own2 (.pkg .curveB) = secpB := rfl
  clear ho2
  rw [q2, B2]
  generalize ho3 : own2.set (n + 1 + 1) (X ^ 3 + secpB) = own3
  have l3 : own3.length = n + 4 := by rw [← ho3]; simp [l2]
  have e3 : Ext own own3 := by
    refine ⟨by omega, fun i hi => ?_⟩
    rw [← ho3, getD_set_ne (by omega)]; exact e2.2 i hi
  have y3 : own3.getD n 0 = 0 := by rw [← ho3, getD_set_ne (by omega)]; exact y2
  have x3 : own3.getD (n + 1) 0 = X := by rw [← ho3, getD_set_ne (by omega)]; exact x2
  have q3 : own3.getD (n + 1 + 1) 0 = X ^ 3 + secpB := by rw [← ho3, getD_set_self (by omega)]
  clear ho3
  rw [wp_bind]
  refine wp_mono ?_ (modSqrt_wp n (n + 1 + 1) own3 (by omega) y3)
  rintro o own4 ⟨rfl, ho4⟩
  rw [q3] at ho4
  generalize Bips.modSqrt (X ^ 3 + secpB) = Y at ho4 ⊢
  have l4 : own4.length = n + 4 := by rw [ho4]; simp [l3]
  have e4 : Ext own own4 := by
    refine ⟨by omega, fun i hi => ?_⟩
    rw [ho4, getD_set_ne (by omega)]; exact e3.2 i hi
  have y4 : own4.getD n 0 = Y := by rw [ho4, getD_set_self (by omega)]
  have x4 : own4.getD (n + 1) 0 = X := by rw [ho4, getD_set_ne (by omega)]; exact x3
  clear ho4
  rw [after, wp_bind, wp_newInt, after, wp_bind, wp_newInt, after, wp_bind, wp_op, after, wp_bind, wp_load, after]
  simp only [List.length_append, List.length_singleton, l4]
  have y5 : val Pkg.init (own4 ++ [0] ++ [2]) (.own n) = Y := by
    rw [val, getD_append_lt (by simp; omega), getD_append_lt (by omega)]; exact y4
  have t5 : val Pkg.init (own4 ++ [0] ++ [2]) (.own (n + 4 + 1)) = 2 := by
    rw [val, show n + 4 + 1 = (own4 ++ [0]).length by simp [l4], getD_append_self]
  rw [y5, t5]
  generalize ho6 : (own4 ++ [0] ++ [2]).set (n + 4) (Y % 2) = own6
  have l6 : own6.length = n + 6 := by rw [← ho6]; simp [l4]
  have e6 : Ext own own6 := by
    refine ⟨by omega, fun i hi => ?_⟩
    rw [← ho6, getD_set_ne (by omega), getD_append_lt (by simp; omega), getD_append_lt (by omega)]; exact e4.2 i hi
  have y6 : own6.getD n 0 = Y := by rw [← ho6, getD_set_ne (by omega)]; exact y5
  have x6 : own6.getD (n + 1) 0 = X := by
    rw [← ho6, getD_set_ne (by omega), getD_append_lt (by simp; omega), getD_append_lt (by omega)]; exact x4
  have m6 : val Pkg.init own6 (.own (n + 4)) = Y % 2 := by rw [val, ← ho6, getD_set_self (by simp; omega)]
  clear ho6
  rw [m6]
  split
  · next hs =>
    rw [wp_bind, wp_op, after, wp_pure]
    have P6 : val Pkg.init own6 (.pkg .curveP) = secpP := rfl
    rw [P6, val, y6]
    refine ⟨n + 1, n, rfl, ⟨by simp; omega, fun i hi => ?_⟩, by omega, by simp; omega, by simp; omega, ?_, ?_⟩
    · rw [getD_set_ne (by omega)]; exact e6.2 i hi
    · rw [getD_set_ne (by omega)]; exact x6
    · rw [getD_set_self (by omega)]
  · exact ⟨n + 1, n, rfl, e6, by omega, by omega, by omega, x6, y6⟩

theorem validateChildPublicKey_gives {key : Bytes} (hk : key ≠ []) :
    Gives Pkg.init (validateChildPublicKey key) (.ok (Bips.validateChildPublicKey key)) := by
  cases key with
  | nil => exact absurd rfl hk
  | cons k0 rest =>
    intro own
    unfold validateChildPublicKey
    rw [wp_bind]
    refine wp_mono ?_ (expandPublicKey_wp k0 rest own)
    rintro o own' ⟨x, y, rfl, -, -, -, -, hx, hy⟩
    rw [after]
    dsimp only
    rw [wp_bind, wp_load, after, val, hx]
    unfold Bips.validateChildPublicKey Bips.expandPublicKey
    dsimp only
    by_cases h1 : (expandCons k0 rest).1 = 0
    · rw [if_pos h1, if_pos (.inl h1)]; rfl
    · rw [if_neg h1, wp_bind, wp_load, after, val, hy]
      simp only [h1, false_or]
      split <;> rfl

theorem addPublicKeys_gives {key1 key2 : Bytes} (h1 : key1 ≠ []) (h2 : key2 ≠ []) :
    Gives Pkg.init (addPublicKeys key1 key2) (.ok (Bips.addPublicKeys key1 key2)) := by
  cases key1 with
  | nil => exact absurd rfl h1
  | cons a r =>
    cases key2 with
    | nil => exact absurd rfl h2
    | cons b s =>
      intro own
      unfold addPublicKeys compressPublicKey
      rw [wp_bind]
      refine wp_mono ?_ (expandPublicKey_wp a r own)
      rintro o own1 ⟨x1, y1, rfl, -, -, lx1, ly1, hx1, hy1⟩
      rw [after]
      dsimp only
      rw [wp_bind]
      refine wp_mono ?_ (expandPublicKey_wp b s own1)
      rintro o own2 ⟨x2, y2, rfl, he, -, lx2, ly2, hx2, hy2⟩
      rw [after]
      dsimp only
      rw [wp_bind, wp_load, after, wp_bind, wp_load, after, wp_bind, wp_load, after, wp_bind, wp_load, after]
      rw [val, val, val, val, he.2 _ lx1, he.2 _ ly1, hx1, hy1, hx2, hy2]
      rw [wp_bind, wp_newInt, after, wp_bind, wp_newInt, after, wp_bind, wp_load, after, wp_bind, wp_load, after, wp_pure]
      rw [val, val, getD_append_lt (by simp), getD_append_self, getD_append_self]
      rfl

theorem addPrivateKeys_gives (key1 key2 : Bytes) :
    Gives Pkg.init (addPrivateKeys key1 key2) (.ok (Bips.addPrivateKeys key1 key2)) := by
  intro own
  unfold addPrivateKeys Bips.addPrivateKeys
  rw [wp_bind, wp_newInt, after, wp_bind, wp_newInt, after, wp_bind, wp_store, after, wp_bind, wp_store, after,
    wp_bind, wp_op, after, wp_bind, wp_op, after, wp_bind, wp_load, after, wp_pure]
  simp only [List.length_append, List.length_singleton]
  generalize setBytes key1 = a
  generalize setBytes key2 = b
  generalize hn : own.length = n
  generalize ho1 : ((own ++ [0] ++ [0]).set n a).set (n + 1) b = own1
  have l1 : own1.length = n + 2 := by rw [← ho1]; simp [hn]
  have a1 : val Pkg.init own1 (.own n) = a := by
    rw [val, ← ho1, getD_set_ne (by omega), getD_set_self (by simp; omega)]
  have b1 : val Pkg.init own1 (.own (n + 1)) = b := by
    rw [val, ← ho1, getD_set_self (by simp; omega)]
  rw [a1, b1]
  have s2 : val Pkg.init (own1.set n (a + b)) (.own n) = a + b := getD_set_self (by omega)
  have N2 : val Pkg.init (own1.set n (a + b)) (.pkg .curveN) = secpN := rfl
  rw [s2, N2, val, getD_set_self (by simp; omega)]

theorem newMasterKey_gives (seed : Bytes) :
    Gives Pkg.init (newMasterKey H seed) (.ok (Bips.newMasterKey H seed)) := by
  unfold newMasterKey Bips.newMasterKey
  dsimp only
  refine (validatePrivateKey_gives _).bind (fun a ha => ?_) (fun h => by cases h)
  have ha := Outcome.ok.inj ha
  rw [ha]
  cases a <;> exact gives_pure _

theorem gives_of_eq {α : Type} {pkg : Pkg → Nat} {p : Prog α} {r s : Outcome α} (h : Gives pkg p r) (hrs : r = s) :
    Gives pkg p s := hrs ▸ h

theorem getIntermediary_gives (key : Key) (i : UInt32) :
    Gives Pkg.init (getIntermediary H key i) (.ok (key.getIntermediary H i)) := by
  unfold getIntermediary Key.getIntermediary
  dsimp only
  split
  · exact gives_pure _
  · split
    · refine (publicKeyForPrivateKey_gives _).bind (fun a ha => ?_) (fun h => by cases h)
      have ha := Outcome.ok.inj ha
      subst ha
      exact gives_pure _
    · exact gives_pure _

theorem publicKeyForPrivateKey_ne_nil (b : Bytes) : Bips.publicKeyForPrivateKey b ≠ [] := by
  unfold Bips.publicKeyForPrivateKey Bips.compressPublicKey
  simp

theorem keyBytes_ne_nil (key : Key) : slice key.bytes pubKeyStart 78 ≠ [] := by
  intro h
  have := congrArg List.length h
  simp [slice, key.len] at this

theorem newChildKey_gives (key : Key) (i : UInt32) :
    Gives Pkg.init (newChildKey H R key i) (.ok (key.newChildKey H R i)) := by
  unfold newChildKey Key.newChildKey
  split
  · exact gives_pure _
  refine (getIntermediary_gives key i).bind (fun im him => ?_) (fun h => by cases h)
  have him := Outcome.ok.inj him
  subst him
  dsimp only
  split
  · split
    · exact gives_pure _
    · refine (publicKeyForPrivateKey_gives _).bind (fun a ha => ?_) (fun h => by cases h)
      have ha := Outcome.ok.inj ha
      subst ha
      refine (addPrivateKeys_gives _ _).bind (fun a ha => ?_) (fun h => by cases h)
      have ha := Outcome.ok.inj ha
      subst ha
      refine (validatePrivateKey_gives _).bind (fun a ha => ?_) (fun h => by cases h)
      have ha := Outcome.ok.inj ha
      subst ha
      exact gives_pure _
  · cases R.pubFlag (getUint32 (slice key.bytes versionStart versionEnd)) with
    | nil => exact gives_pure _
    | cons hd tl =>
      dsimp only
      refine (publicKeyForPrivateKey_gives _).bind (fun a ha => ?_) (fun h => by cases h)
      have ha := Outcome.ok.inj ha
      subst ha
      refine (validateChildPublicKey_gives (publicKeyForPrivateKey_ne_nil _)).bind (fun a ha => ?_) (fun h => by cases h)
      have ha := Outcome.ok.inj ha
      rw [ha]
      cases a with
      | some e => exact gives_pure _
      | none =>
        dsimp only
        refine (addPublicKeys_gives (publicKeyForPrivateKey_ne_nil _) (keyBytes_ne_nil key)).bind (fun a ha => ?_)
          (fun h => by cases h)
        have ha := Outcome.ok.inj ha
        subst ha
        exact gives_pure _

theorem publicKeyExtended_gives (key : Key) :
    Gives Pkg.init (publicKeyExtended R key) (.ok (key.publicKeyExtended R)) := by
  unfold publicKeyExtended Key.publicKeyExtended
  dsimp only
  split
  · refine (publicKeyForPrivateKey_gives _).bind (fun a ha => ?_) (fun h => by cases h)
    have ha := Outcome.ok.inj ha
    subst ha
    exact gives_pure _
  · exact gives_pure _

theorem publicKeyHex_gives (key : Key) : Gives Pkg.init (publicKeyHex R key) (.ok (key.publicKeyHex R)) := by
  unfold publicKeyHex Key.publicKeyHex
  split
  · exact (publicKeyExtended_gives key).map _
  · exact gives_pure _

/-! ### util -/

theorem generateMnemonic_gives (read : Nat → Bytes) (n : UInt8) :
    Gives Pkg.init (generateMnemonic H S read n) (Bips.generateMnemonic H S read n) := by
  unfold generateMnemonic Bips.generateMnemonic
  dsimp only
  split_ifs
  all_goals first
    | exact gives_pure _
    | generalize newEntropy read _ = r
      obtain ⟨bs, e⟩ := r
      cases e with
      | some e => exact gives_pure _
      | none =>
        refine (newMnemonic_gives bs).bind (fun a ha => ?_) (fun h => ?_)
        · dsimp only
          rw [ha]
          obtain ⟨m, e⟩ := a
          cases e <;> exact gives_pure _
        · dsimp only
          rw [h]

theorem deriveSeedFromMnemonic_gives (m p : Bytes) :
    Gives Pkg.init (deriveSeedFromMnemonic H S m p) (Bips.deriveSeedFromMnemonic H S m p) := by
  unfold deriveSeedFromMnemonic Bips.deriveSeedFromMnemonic
  refine (entropyFromMnemonic_gives m).bind (fun a ha => ?_) (fun h => ?_)
  · rw [ha]
    obtain ⟨b, e⟩ := a
    cases e <;> exact gives_pure _
  · rw [h]

theorem rootKeyFromSeed_gives (seed : Bytes) :
    Gives Pkg.init (rootKeyFromSeed H seed) (Bips.rootKeyFromSeed H seed) := by
  unfold rootKeyFromSeed Bips.rootKeyFromSeed
  cases hexDecode seed with
  | none => exact gives_pure _
  | some bs =>
    dsimp only
    split
    · exact gives_pure _
    refine (newMasterKey_gives _).bind (fun a ha => ?_) (fun h => by cases h)
    have ha := Outcome.ok.inj ha
    rw [ha]
    obtain ⟨k, e⟩ := a
    cases k with
    | none => exact gives_panic
    | some k =>
      dsimp only
      obtain ⟨ser, e⟩ := k.serialize H
      cases e with
      | some e => exact gives_pure _
      | none =>
        dsimp only
        obtain ⟨k', e⟩ := deserialize H ser
        cases e <;> exact gives_pure _

theorem deriveLoop_gives (vals : List UInt32) (d : Bytes) (k : Key) (acc : List KeyPath) :
    Gives Pkg.init (deriveLoop H R vals d k acc) (.ok (acc ++ Bips.deriveLoop H R vals d k)) := by
  induction vals generalizing d k acc with
  | nil =>
    unfold deriveLoop Bips.deriveLoop
    rw [List.append_nil]
    exact gives_pure _
  | cons v vs ih =>
    unfold deriveLoop Bips.deriveLoop
    refine (newChildKey_gives k v).bind (fun a ha => ?_) (fun h => by cases h)
    have ha := Outcome.ok.inj ha
    subst ha
    refine gives_of_eq (ih _ _ _) ?_
    simp

theorem deriveBIP32Result_gives (k : Key) (p : Bytes) :
    Gives Pkg.init (deriveBIP32Result H R k p) (.ok (Bips.deriveBIP32Result H R k p)) := by
  unfold deriveBIP32Result Bips.deriveBIP32Result
  split
  · exact gives_pure _
  split
  · exact gives_pure _
  obtain ⟨vs, e⟩ := valuesAtDepth p
  cases e with
  | some e => exact gives_pure _
  | none =>
    dsimp only
    split
    · exact (deriveLoop_gives _ _ _ _).map _
    · exact gives_pure _

theorem publicKeyHex_decodes (key : Key) : ∃ a r, hexDecode (key.publicKeyHex R) = some (a :: r) := by
  have h : ∀ k : Key, ∃ a r, hexDecode (hexEncode (slice k.bytes pubKeyStart pubKeyEnd)) = some (a :: r) := by
    intro k
    rw [hexDecode_hexEncode]
    cases hs : slice k.bytes pubKeyStart pubKeyEnd with
    | nil => exact absurd hs (keyBytes_ne_nil k)
    | cons a r => exact ⟨a, r, rfl⟩
  unfold Key.publicKeyHex
  split
  · exact h _
  · exact h _

theorem addrHex_gives (b : KeyPath) : Gives Pkg.init (addrHex H R b) (.ok (b.addrHex H R)) := by
  unfold addrHex KeyPath.addrHex
  refine (publicKeyHex_gives b.key).bind (fun a ha => ?_) (fun h => by cases h)
  have ha := Outcome.ok.inj ha
  subst ha
  obtain ⟨k0, rest, hd⟩ := publicKeyHex_decodes (R := R) b.key
  rw [hd]
  intro own
  dsimp only
  rw [wp_bind]
  refine wp_mono ?_ (expandPublicKey_wp k0 rest own)
  rintro o own' ⟨x, y, rfl, -, -, -, -, hx, hy⟩
  rw [after]
  dsimp only
  rw [wp_bind, wp_load, after, wp_bind, wp_load, after, wp_pure, val, val, hx, hy]
  rfl

theorem addrP2SH_gives (b : KeyPath) (v : UInt8) : Gives Pkg.init (addrP2SH H R b v) (.ok (b.addrP2SH H R v)) := by
  unfold addrP2SH KeyPath.addrP2SH
  refine (publicKeyHex_gives b.key).bind (fun a ha => ?_) (fun h => by cases h)
  have ha := Outcome.ok.inj ha
  subst ha
  cases hexDecode (Key.publicKeyHex R b.key) <;> exact gives_pure _

theorem rangeLoop_gives (i e : UInt32) (d : Bytes) (k : Key) (acc : List KeyPath) :
    Gives Pkg.init (rangeLoop H R i e d k acc) (.ok (acc ++ Bips.rangeLoop H R i e d k)) := by
  induction hn : e.toNat - i.toNat generalizing i d k acc with
  | zero =>
    have : ¬ i < e := by rw [UInt32.lt_iff_toNat_lt]; omega
    rw [rangeLoop, dif_neg this, Bips.rangeLoop, dif_neg this, List.append_nil]
    exact gives_pure _
  | succ n ih =>
    have hlt : i < e := by rw [UInt32.lt_iff_toNat_lt]; omega
    have he := e.toNat_lt
    rw [rangeLoop, dif_pos hlt, Bips.rangeLoop, dif_pos hlt]
    refine (newChildKey_gives k i).bind (fun a ha => ?_) (fun h => by cases h)
    have ha := Outcome.ok.inj ha
    subst ha
    refine gives_of_eq (ih _ _ _ _ ?_) ?_
    · rw [UInt32.toNat_add, show (1 : UInt32).toNat = 1 from rfl, Nat.mod_eq_of_lt (by omega)]
      omega
    · simp

theorem generateRange_gives (k : KeyPathRange) :
    Gives Pkg.init (generateRange H R k) (.ok (k.generateRange H R)) := by
  unfold generateRange KeyPathRange.generateRange
  split
  · exact gives_pure _
  split
  · exact gives_pure _
  split
  · exact gives_pure _
  exact (rangeLoop_gives _ _ _ _ _).map _

end Bips.Nums
