import Verif.Props.Addr
import Verif.Props.Tree
import Mathlib.GroupTheory.OrderOfElement

/-!
# Which keys can be confused (C89)

For all hash functions. Where two different things can only look the same through a coincidence of hash values, the theorem says
which hash values have to coincide.
-/

namespace Bips
open Spec

section
variable (H : Hashes) (order : List (Bytes × List VersionBytes)) (ho : order.Perm pathTable)

omit ho in
theorem string_injective {k k' : Key} (h : k.string H = k'.string H) : k = k' := by
  have hne : ∀ k : Key, k ≠ Key.zero → k.string H ≠ [] := by
    intro k hk e
    rw [Key.string, Key.b58Serialize_ne_zero H k hk] at e
    have := congrArg b58Decode e
    rw [b58Decode_encode] at this
    have hl := congrArg List.length this
    simp [k.len, b58Decode, b58DecodeLoop, bigBytes, toDigitsBE, leDigits] at hl
  by_cases h0 : k = Key.zero <;> by_cases h1 : k' = Key.zero
  · rw [h0, h1]
  · subst h0
    rw [Key.string, Key.b58Serialize_zero] at h
    exact absurd h.symm (hne k' h1)
  · subst h1
    have hz : Key.zero.string H = [] := by rw [Key.string, Key.b58Serialize_zero]
    exact absurd (h.trans hz) (hne k h0)
  · rw [Key.string, Key.string, Key.b58Serialize_ne_zero H k h0, Key.b58Serialize_ne_zero H k' h1] at h
    have h2 := b58Encode_injective h
    have h3 := List.append_inj_left h2 (by rw [k.len, k'.len])
    exact Key.ext' h3

include ho

/-- What the child records of its parent and its index. -/
theorem child_records {k c : Key} {i : UInt32} (hc : k.newChildKey H (Registry.init order) i = (c, none)) :
    c.getChildNumber = ser32 i.toNat ∧ c.getDepth = k.getDepth.map (· + 1) ∧ c.isPrivate = k.isPrivate ∧
    c.getFingerPrint =
      (hash160 H.sha256 H.ripemd160 (k.publicKeyExtended (Registry.init order)).getKeyBytes).take 4 := by
  cases hp : k.isPrivate with
  | true =>
    by_cases hv : PvtVersion k.getVersion
    · have h1 := (newChildKey_private H ho k i hp hv).1
      rw [hc] at h1
      have hb : c.getKeyBytes = 0 :: _ := congrArg KeyFields.keyBytes h1
      have hN := publicKeyExtended_private ho k hp
      have hNb : (k.publicKeyExtended (Registry.init order)).getKeyBytes = publicKeyForPrivateKey k.getPvtKeyBytes :=
        congrArg KeyFields.keyBytes hN
      rw [Key.getDepth_eq k, hNb]
      exact ⟨congrArg KeyFields.childNumber h1, congrArg KeyFields.depth h1, (isPrivate_of_keyBytes c hb).1,
        congrArg KeyFields.fingerPrint h1⟩
    · rw [newChildKey_unregistered H ho k i (Or.inl hp) (by rw [hp]; exact hv)] at hc; simp at hc
  | false =>
    by_cases hi : 2 ^ 31 ≤ i.toNat
    · rw [newChildKey_hardened_public H _ k i hp hi] at hc; simp at hc
    by_cases hv : PubVersion k.getVersion
    · have h1 := newChildKey_public H ho k i (by omega) hp hv
      by_cases hIL : setBytes ((k.getIntermediary H i).take 32) % secpN = 0
      · have := (h1.1 hIL).2; rw [hc] at this; simp at this
      · have h2 := (h1.2 hIL).1; rw [hc] at h2
        have hN : k.publicKeyExtended (Registry.init order) = k := (publicKeyExtended_public ho k hp).1 hv
        rw [Key.getDepth_eq k, hN]
        refine ⟨congrArg KeyFields.childNumber h2, congrArg KeyFields.depth h2, ?_, congrArg KeyFields.fingerPrint h2⟩
        have hb : c.getKeyBytes = addPublicKeys _ _ := congrArg KeyFields.keyBytes h2
        rw [addPublicKeys, compressPublicKey] at hb
        rw [(isPrivate_of_keyBytes c hb).1]
        generalize (curveAdd _ _).2 = y
        rcases Nat.mod_two_eq_zero_or_one y with e | e <;> rw [e] <;> rfl
    · rw [newChildKey_unregistered H ho k i (Or.inr (by omega)) (by rw [hp]; simpa using hv)] at hc; simp at hc

omit ho in
theorem ser32_inj {i j : UInt32} (h : ser32 i.toNat = ser32 j.toNat) : i = j := by
  have := congrArg setBytes h
  rw [ser32, ser32, setBytes_beBytes, setBytes_beBytes] at this
  have hi := i.toNat_lt
  have hj := j.toNat_lt
  exact UInt32.toNat_inj.1 (by omega)

/-- **C89.** The text of a derived key tells its index, whether it is private, the depth of its parent and the fingerprint
of its parent's public key: if two children have the same text, of whatever keys and whatever the hash functions do, these
are the same, and so are the children. -/
theorem C89_text_tells (k k' c c' : Key) (i j : UInt32) (hc : k.newChildKey H (Registry.init order) i = (c, none))
    (hc' : k'.newChildKey H (Registry.init order) j = (c', none)) (h : c.string H = c'.string H) :
    i = j ∧ k.getDepth = k'.getDepth ∧ k.isPrivate = k'.isPrivate ∧ c = c' ∧
    (hash160 H.sha256 H.ripemd160 (k.publicKeyExtended (Registry.init order)).getKeyBytes).take 4 =
      (hash160 H.sha256 H.ripemd160 (k'.publicKeyExtended (Registry.init order)).getKeyBytes).take 4 := by
  obtain rfl := string_injective H h
  obtain ⟨a1, a2, a3, a4⟩ := child_records H order ho hc
  obtain ⟨b1, b2, b3, b4⟩ := child_records H order ho hc'
  refine ⟨ser32_inj (a1.symm.trans b1), ?_, a3.symm.trans b3, rfl, a4.symm.trans b4⟩
  have hd := a2.symm.trans b2
  rw [Key.getDepth_eq, Key.getDepth_eq] at hd ⊢
  simpa using hd

/-- **C89.** Two different indices never give the same extended key. -/
theorem C89_siblings (k c c' : Key) (i j : UInt32) (hij : i ≠ j)
    (hc : k.newChildKey H (Registry.init order) i = (c, none))
    (hc' : k.newChildKey H (Registry.init order) j = (c', none)) : c.string H ≠ c'.string H :=
  fun h => hij (C89_text_tells H order ho k k c c' i j hc hc' h).1

omit ho in
theorem point_eq_iff (a b : Nat) : point a = point b ↔ a % secpN = b % secpN := by
  rw [point, point, ← addOrderOf_baseG]
  exact nsmul_eq_nsmul_iff_modEq

omit ho in
theorem hexEncode_inj {a b : Bytes} (h : hexEncode a = hexEncode b) : a = b := by
  have := congrArg hexDecode h
  rwa [hexDecode_hexEncode, hexDecode_hexEncode, Option.some.injEq] at this

omit ho in
theorem privateKeyHex_xprv {k : Key} {s : Nat} (hk : IsXprv k s) : k.privateKeyHex = hexEncode (ser256 s) := by
  have hp := (isPrivate_of_keyBytes k hk.1).1
  have hb := Key.getKeyBytes_eq k
  rw [hk.1] at hb
  rw [Key.privateKeyHex, hp, if_pos (by rfl)]
  exact congrArg hexEncode (List.cons.inj hb).2.symm

theorem publicKeyHex_eq (k : Key) :
    k.publicKeyHex (Registry.init order) = hexEncode (k.publicKeyExtended (Registry.init order)).getKeyBytes := by
  cases hp : k.isPrivate with
  | true => rw [Key.publicKeyHex, hp, if_pos rfl]; rfl
  | false => rw [Key.publicKeyHex, hp, if_neg (by simp), (C27_neuter order ho k).2.2.2.1 hp]; rfl

omit ho in
theorem ser256_inj {a b : Nat} (ha : a < secpN) (hb : b < secpN) (h : ser256 a = ser256 b) : a = b := by
  have := congrArg setBytes h
  rw [ser256, ser256, setBytes_beBytes, setBytes_beBytes] at this
  have : secpN < 256 ^ 32 := by decide +kernel
  generalize secpN = n at *
  rw [Nat.mod_eq_of_lt (by omega), Nat.mod_eq_of_lt (by omega)] at *
  assumption

/-- **C89.** Every public key has one private key: two sound private keys show the same public key exactly when they show
the same private key. -/
theorem C89_public_private (k k' : Key) (s s' : Nat) (hk : IsXprv k s) (hk' : IsXprv k' s') :
    k.publicKeyHex (Registry.init order) = k'.publicKeyHex (Registry.init order) ↔
      k.privateKeyHex = k'.privateKeyHex := by
  rw [publicKeyHex_eq order ho, publicKeyHex_eq order ho, (C27_neuter order ho k).2.2.1 s hk,
    (C27_neuter order ho k').2.2.1 s' hk', privateKeyHex_xprv hk, privateKeyHex_xprv hk']
  constructor
  · intro h
    have h1 := serP_injective (point_ne_zero' hk.2.1 hk.2.2) (point_ne_zero' hk'.2.1 hk'.2.2) (hexEncode_inj h)
    rw [point_eq_iff, Nat.mod_eq_of_lt hk.2.2, Nat.mod_eq_of_lt hk'.2.2] at h1
    rw [h1]
  · intro h
    rw [ser256_inj hk.2.2 hk'.2.2 (hexEncode_inj h)]

/-- **C89.** Two children of a private key have the same private key exactly when the left halves of the two HMAC values
agree modulo the group order. -/
theorem C89_private_children (k c c' : Key) (s : Nat) (i j : UInt32) (hk : IsXprv k s) (hv : PvtVersion k.getVersion)
    (hc : k.newChildKey H (Registry.init order) i = (c, none))
    (hc' : k.newChildKey H (Registry.init order) j = (c', none)) :
    let IL := fun i : UInt32 => parse256 ((ckdI H s k.getChainCode i.toNat).take 32)
    c.privateKeyHex = c'.privateKeyHex ↔ IL i % secpN = IL j % secpN := by
  intro IL
  have step : ∀ (i : UInt32) (c : Key), k.newChildKey H (Registry.init order) i = (c, none) →
      IsXprv c ((IL i + s) % secpN) := by
    intro i c hc
    obtain ⟨h1, h2⟩ := C22_ckdPriv_exact H order ho k s i hk hv
    rw [hc] at h1 h2
    refine ⟨congrArg KeyFields.keyBytes h2, ?_, Nat.mod_lt _ (by decide +kernel)⟩
    by_contra hz
    have hz' : (IL i + s) % secpN = 0 := by omega
    rw [if_pos hz'] at h1
    simp at h1
  have hi := step i c hc
  have hj := step j c' hc'
  rw [privateKeyHex_xprv hi, privateKeyHex_xprv hj]
  constructor
  · intro h
    have h1 := ser256_inj hi.2.2 hj.2.2 (hexEncode_inj h)
    exact Nat.ModEq.add_right_cancel' s h1
  · intro h
    have h1 : (IL i + s) % secpN = (IL j + s) % secpN := Nat.ModEq.add_right s h
    rw [h1]

/-- **C89.** Two children of a public key have the same public key exactly when the left halves of the two HMAC values
agree modulo the group order. -/
theorem C89_public_children (k c c' : Key) (K : Pt) (i j : UInt32) (hk : IsXpub k K) (hv : PubVersion k.getVersion)
    (hc : k.newChildKey H (Registry.init order) i = (c, none))
    (hc' : k.newChildKey H (Registry.init order) j = (c', none)) :
    let IL := fun i : UInt32 => parse256 ((H.hmacSha512 k.getChainCode (serP K ++ ser32 i.toNat)).take 32)
    c.publicKeyHex (Registry.init order) = c'.publicKeyHex (Registry.init order) ↔ IL i % secpN = IL j % secpN := by
  intro IL
  have hs : k.getKeyBytes = storedPoint K := by rw [storedPoint_of_ne hk.2, hk.1]
  have hp := storedPoint_not_private hs
  have step : ∀ (i : UInt32) (c : Key), k.newChildKey H (Registry.init order) i = (c, none) →
      c.publicKeyHex (Registry.init order) = hexEncode (storedPoint (point (IL i) + K)) := by
    intro i c hc
    by_cases hi : 2 ^ 31 ≤ i.toNat
    · rw [newChildKey_hardened_public H _ k i hp hi] at hc; simp at hc
    obtain ⟨h1, h2⟩ := C23_ckdPub_exact H order ho k K i hs hv (by omega)
    rw [storedPoint_of_ne hk.2, hc] at h1 h2
    by_cases hz : IL i % secpN = 0
    · have := h1 hz; simp at this
    · have hb : c.getKeyBytes = storedPoint (point (IL i) + K) := congrArg KeyFields.keyBytes (h2 hz).2
      rw [Key.publicKeyHex, storedPoint_not_private hb, if_neg (by simp)]
      exact congrArg hexEncode hb
  rw [step i c hc, step j c' hc', ← point_eq_iff]
  constructor
  · intro h
    have h1 := hexEncode_inj h
    rw [storedPoint_eq, storedPoint_eq] at h1
    have h2 := congrArg expandPublicKey h1
    rw [expandPublicKey_compress, expandPublicKey_compress] at h2
    exact add_right_cancel (coords_injective h2)
  · intro h; rw [h]

/-! ### Paths -/

omit ho in
/-- What BIP-32 gives to HMAC-SHA512 in a step from a private parent: the key and the message. -/
def hmacInput (s : Nat) (c : Bytes) (i : UInt32) : Bytes × Bytes :=
  (c, (if 2 ^ 31 ≤ i.toNat then 0 :: ser256 s else serP (point s)) ++ ser32 i.toNat)

omit ho in
theorem ckdI_input (s : Nat) (c : Bytes) (i : UInt32) :
    ckdI H s c i.toNat = H.hmacSha512 (hmacInput s c i).1 (hmacInput s c i).2 := by
  unfold ckdI hmacInput
  split <;> rfl

omit ho in
theorem hmacInput_inj {s s' : Nat} {c c' : Bytes} {i j : UInt32} (hs : 1 ≤ s ∧ s < secpN) (hs' : 1 ≤ s' ∧ s' < secpN)
    (h : hmacInput s c i = hmacInput s' c' j) : s = s' ∧ c = c' ∧ i = j := by
  have h1 : c = c' := congrArg Prod.fst h
  have h2 : _ ++ ser32 i.toNat = _ ++ ser32 j.toNat := congrArg Prod.snd h
  obtain ⟨h3, h4⟩ := List.append_inj' h2 (by simp [ser32])
  obtain rfl := ser32_inj h4
  refine ⟨?_, h1, rfl⟩
  by_cases hi : 2 ^ 31 ≤ i.toNat
  · rw [if_pos hi, if_pos hi] at h3
    exact ser256_inj hs.2 hs'.2 (List.cons.inj h3).2
  · rw [if_neg hi, if_neg hi] at h3
    have h5 := serP_injective (point_ne_zero' hs.1 hs.2) (point_ne_zero' hs'.1 hs'.2) h3
    rwa [point_eq_iff, Nat.mod_eq_of_lt hs.2, Nat.mod_eq_of_lt hs'.2] at h5

omit ho in
theorem deriveAll_concat {step : Key → UInt32 → Key × Option Err} {k k' : Key} {i : UInt32} {is : List UInt32} :
    deriveAll step k (is ++ [i]) = some k' ↔ ∃ p, deriveAll step k is = some p ∧ step p i = (k', none) := by
  induction is generalizing k with
  | nil =>
    rw [List.nil_append, deriveAll_cons]
    simp [deriveAll]
  | cons a is ih =>
    rw [List.cons_append, deriveAll_cons]
    constructor
    · rintro ⟨c, h1, h2⟩
      obtain ⟨p, h3, h4⟩ := ih.1 h2
      exact ⟨p, deriveAll_cons.2 ⟨c, h1, h3⟩, h4⟩
    · rintro ⟨p, h1, h2⟩
      obtain ⟨c, h3, h4⟩ := deriveAll_cons.1 h1
      exact ⟨c, h3, ih.2 ⟨p, h4, h2⟩⟩

theorem deriveAll_xprv (is : List UInt32) {k k' : Key} {s : Nat} (hk : IsXprv k s) (hv : PvtVersion k.getVersion)
    (h : deriveAll (Key.newChildKey H (Registry.init order)) k is = some k') :
    (∃ s', IsXprv k' s') ∧ PvtVersion k'.getVersion := by
  induction is generalizing k s with
  | nil => simp only [deriveAll, Option.some.injEq] at h; subst h; exact ⟨⟨s, hk⟩, hv⟩
  | cons i is ih =>
    obtain ⟨c, h1, h2⟩ := deriveAll_cons.1 h
    obtain ⟨a, b, -⟩ := step_xprv H order ho hk hv h1
    exact ih a b h2

omit ho in
theorem isXprv_unique {k k' : Key} {s s' : Nat} (h : IsXprv k s) (h' : IsXprv k' s')
    (e : k.getKeyBytes = k'.getKeyBytes) : s = s' := by
  rw [h.1, h'.1] at e
  exact ser256_inj h.2.2 h'.2.2 (List.cons.inj e).2

omit ho in
/-- At one step of the derivations along `is` and `js` from `k`, two different inputs of HMAC-SHA512 have outputs with the same
right half. -/
def Coincidence (R : Registry) (k : Key) (is js : List UInt32) : Prop :=
  ∃ (n : Nat) (i j : UInt32) (P Q : Key) (p q : Nat), is[n]? = some i ∧ js[n]? = some j ∧
      deriveAll (Key.newChildKey H R) k (is.take n) = some P ∧ IsXprv P p ∧
      deriveAll (Key.newChildKey H R) k (js.take n) = some Q ∧ IsXprv Q q ∧
      hmacInput p P.getChainCode i ≠ hmacInput q Q.getChainCode j ∧
      (H.hmacSha512 (hmacInput p P.getChainCode i).1 (hmacInput p P.getChainCode i).2).drop 32 =
        (H.hmacSha512 (hmacInput q Q.getChainCode j).1 (hmacInput q Q.getChainCode j).2).drop 32

/-- **C89.** Two different paths of the same length below one private key that lead to the same private key and chain code
exhibit two different inputs of HMAC-SHA512 with the same right half of the output: the inputs of the two derivations at one
of their steps. -/
theorem C89_paths (k : Key) (s : Nat) (hk : IsXprv k s) (hv : PvtVersion k.getVersion) (is js : List UInt32)
    (hl : is.length = js.length) (hne : is ≠ js) (c c' : Key)
    (hc : deriveAll (Key.newChildKey H (Registry.init order)) k is = some c)
    (hc' : deriveAll (Key.newChildKey H (Registry.init order)) k js = some c')
    (hkey : c.getKeyBytes = c'.getKeyBytes) (hch : c.getChainCode = c'.getChainCode) :
    Coincidence H (Registry.init order) k is js := by
  induction is using List.reverseRecOn generalizing js c c' with
  | nil =>
    have : js = [] := List.length_eq_zero_iff.1 hl.symm
    exact absurd this.symm hne
  | append_singleton is i ih =>
    obtain ⟨js, j, rfl⟩ : ∃ l j, js = l ++ [j] := by
      rcases List.eq_nil_or_concat js with rfl | ⟨l, j, rfl⟩
      · simp at hl
      · exact ⟨l, j, by simp⟩
    obtain ⟨P, hP, hPc⟩ := deriveAll_concat.1 hc
    obtain ⟨Q, hQ, hQc⟩ := deriveAll_concat.1 hc'
    obtain ⟨⟨p, hp⟩, hpv⟩ := deriveAll_xprv H order ho is hk hv hP
    obtain ⟨⟨q, hq⟩, hqv⟩ := deriveAll_xprv H order ho js hk hv hQ
    have hlen : is.length = js.length := by simpa using hl
    by_cases hin : hmacInput p P.getChainCode i = hmacInput q Q.getChainCode j
    · obtain ⟨rfl, e2, rfl⟩ := hmacInput_inj hp.2 hq.2 hin
      obtain ⟨n, a, b, P', Q', p', q', ha, hb, h3, h4, h5, h6, h7⟩ :=
        ih js hlen (fun e => hne (by rw [e])) P Q hP hQ (by rw [hp.1, hq.1]) e2
      have hn : n < is.length := by
        by_contra hn
        rw [List.getElem?_eq_none (by omega)] at ha
        simp at ha
      refine ⟨n, a, b, P', Q', p', q', ?_, ?_, ?_, h4, ?_, h6, h7⟩
      · rw [List.getElem?_append_left hn]; exact ha
      · rw [List.getElem?_append_left (by omega)]; exact hb
      · rw [List.take_append_of_le_length (by omega)]; exact h3
      · rw [List.take_append_of_le_length (by omega)]; exact h5
    · refine ⟨is.length, i, j, P, Q, p, q, by simp, by simp [hlen], by simpa using hP, hp, ?_, hq, hin, ?_⟩
      · rw [hlen]; simpa using hQ
      · rw [← ckdI_input, ← ckdI_input]
        have h1 := (C22_ckdPriv_exact H order ho P p i hp hpv).2
        have h2 := (C22_ckdPriv_exact H order ho Q q j hq hqv).2
        rw [hPc] at h1
        rw [hQc] at h2
        have e1 : c.getChainCode = _ := congrArg KeyFields.chainCode h1
        have e2 : c'.getChainCode = _ := congrArg KeyFields.chainCode h2
        exact e1.symm.trans (hch.trans e2)

/-- **C89.** If two different paths of at most 255 steps below one private key of depth 0 give the same text, they exhibit
such a coincidence. -/
theorem C89_texts (k : Key) (s : Nat) (hk : IsXprv k s) (hv : PvtVersion k.getVersion) (hd : k.getDepth = [0])
    (is js : List UInt32) (hl : is.length ≤ 255) (hl' : js.length ≤ 255) (hne : is ≠ js) (c c' : Key)
    (hc : deriveAll (Key.newChildKey H (Registry.init order)) k is = some c)
    (hc' : deriveAll (Key.newChildKey H (Registry.init order)) k js = some c') (h : c.string H = c'.string H) :
    Coincidence H (Registry.init order) k is js := by
  obtain rfl := string_injective H h
  obtain ⟨d, h1, h2⟩ := C31_depth_partial H order ho is k c hd hl hc
  obtain ⟨d', h3, h4⟩ := C31_depth_partial H order ho js k c hd hl' hc'
  have hdd : d = d' := by rw [h1] at h3; simpa using h3
  exact C89_paths H order ho k s hk hv is js (by rw [← h2, ← h4, hdd]) hne c c hc hc' rfl rfl

end

/-- `C89_siblings` and `C89_private_children` at work: with an HMAC that always answers the same, all children of a key hold
the same private key, and their texts still differ. -/
example (order : List (Bytes × List VersionBytes)) (ho : order.Perm pathTable) : ∃ c c' : Key,
    (xprvKey 5).newChildKey (hashesIL 1) (Registry.init order) 0 = (c, none) ∧
    (xprvKey 5).newChildKey (hashesIL 1) (Registry.init order) 1 = (c', none) ∧
    c.privateKeyHex = c'.privateKeyHex ∧ c.string (hashesIL 1) ≠ c'.string (hashesIL 1) := by
  have hx := xprvKey_isXprv (s := 5) (by decide) (by decide)
  obtain ⟨c, h1, h2, -⟩ := hashesIL_child order ho 1 (by decide) (xprvKey 5) 5 0 hx (xprvKey_version _) (by decide)
  obtain ⟨c', h1', h2', -⟩ := hashesIL_child order ho 1 (by decide) (xprvKey 5) 5 1 hx (xprvKey_version _) (by decide)
  exact ⟨c, c', h1, h1', by rw [privateKeyHex_xprv h2, privateKeyHex_xprv h2'],
    C89_siblings (hashesIL 1) order ho _ c c' 0 1 (by decide) h1 h1'⟩

/-- The hypotheses of `C89_texts` are met: with the same HMAC the paths 0/5 and 1/5 lead to the same text. -/
example (order : List (Bytes × List VersionBytes)) (ho : order.Perm pathTable) : ∃ c : Key,
    deriveAll (Key.newChildKey (hashesIL 1) (Registry.init order)) (xprvKey 5) [0, 5] = some c ∧
    deriveAll (Key.newChildKey (hashesIL 1) (Registry.init order)) (xprvKey 5) [1, 5] = some c ∧
    (xprvKey 5).getDepth = [0] ∧ Coincidence (hashesIL 1) (Registry.init order) (xprvKey 5) [0, 5] [1, 5] := by
  have hx := xprvKey_isXprv (s := 5) (by decide) (by decide)
  have hd : (xprvKey 5).getDepth = [0] := congrArg KeyFields.depth (xprvKey_fields 5)
  obtain ⟨p, h1, h2, h3⟩ := hashesIL_child order ho 1 (by decide) (xprvKey 5) 5 0 hx (xprvKey_version _) (by decide)
  obtain ⟨q, g1, g2, g3⟩ := hashesIL_child order ho 1 (by decide) (xprvKey 5) 5 1 hx (xprvKey_version _) (by decide)
  obtain ⟨c, h4, -, -⟩ := hashesIL_child order ho 1 (by decide) p _ 5 h2 h3 (by decide)
  obtain ⟨c', g4, -, -⟩ := hashesIL_child order ho 1 (by decide) q _ 5 g2 g3 (by decide)
  have a1 := (C22_ckdPriv_exact (hashesIL 1) order ho _ 5 0 hx (xprvKey_version _)).2
  have a2 := (C22_ckdPriv_exact (hashesIL 1) order ho _ 5 1 hx (xprvKey_version _)).2
  have b1 := (C22_ckdPriv_exact (hashesIL 1) order ho p _ 5 h2 h3).2
  have b2 := (C22_ckdPriv_exact (hashesIL 1) order ho q _ 5 g2 g3).2
  rw [h1] at a1
  rw [g1] at a2
  rw [h4] at b1
  rw [g4] at b2
  have hv : p.getVersion = q.getVersion := (congrArg KeyFields.version a1).trans (congrArg KeyFields.version a2).symm
  have hdp : p.getDepth = q.getDepth := (congrArg KeyFields.depth a1).trans (congrArg KeyFields.depth a2).symm
  have hI : ∀ s c i, ckdI (hashesIL 1) s c i = beBytes 32 1 ++ List.replicate 32 7 := by
    intro s c i; unfold ckdI; split <;> rfl
  have hcc : c = c' := by
    apply Key.fields_inj
    simp only [hI] at b1 b2
    rw [b1, b2, hv, hdp]
  subst hcc
  have e1 : deriveAll (Key.newChildKey (hashesIL 1) (Registry.init order)) (xprvKey 5) [0, 5] = some c :=
    deriveAll_cons.2 ⟨p, h1, deriveAll_cons.2 ⟨c, h4, rfl⟩⟩
  have e2 : deriveAll (Key.newChildKey (hashesIL 1) (Registry.init order)) (xprvKey 5) [1, 5] = some c :=
    deriveAll_cons.2 ⟨q, g1, deriveAll_cons.2 ⟨c, g4, rfl⟩⟩
  exact ⟨c, e1, e2, hd, C89_texts (hashesIL 1) order ho _ 5 hx (xprvKey_version _) hd _ _ (by decide) (by decide)
    (by decide) c c e1 e2 rfl⟩

end Bips
