import Verif.Lemmas.Util

/-!
# C45–C49: `DeriveBIP32Result` and `GenerateRange`

`blindSteps H R k vs` is the key after the `NewChildKey` calls for `vs` when every error is ignored; `deriveAll` is
`none` as soon as one call reports an error.
-/

namespace Bips
open Spec

/-- A root the generator accepts: not all zero, private, depth 0. -/
structure GoodRoot (k : Key) : Prop where
  nonzero : k.bytes ≠ List.replicate 78 0
  priv : k.isPrivate = true
  depth : k.getDepth = [0]

theorem goodRoot_iff (H : Hashes) (k : Key) :
    (!k.isValid H || !k.isPrivate || k.byteAt depthStart != 0) = false ↔ GoodRoot k := by
  have h1 := C18_isValid_iff H k
  have h2 : k.byteAt depthStart = 0 ↔ k.getDepth = [0] := by rw [Key.getDepth_eq]; simp
  simp only [Bool.or_eq_false_iff, Bool.not_eq_false', bne_eq_false_iff_eq]
  rw [h1, h2]
  exact ⟨fun h => ⟨h.1.1, h.1.2, h.2⟩, fun h => ⟨⟨h.1, h.2⟩, h.3⟩⟩

/-- The result list for the values `vs`. -/
theorem derive_eq (H : Hashes) (R : Registry) {root : Key} (hr : GoodRoot root) {p : Bytes} {vs : List UInt32}
    (hp : valuesAtDepth p = (0 :: vs, none)) :
    deriveBIP32Result H R root p =
      ((List.range (vs.length + 1)).map fun j => ⟨canonicalPath (vs.take j), blindSteps H R root (vs.take j)⟩, none) := by
  have hv : pathIsValid p = true := by rw [pathIsValid, hp]; rfl
  rw [deriveBIP32Result, (goodRoot_iff H root).2 hr, if_neg (by simp), hv, if_neg (by simp), hp]
  dsimp only
  rw [if_pos (by simp), List.drop_succ_cons, List.drop_zero, deriveLoop_eq _ _ _ _ _ (by decide),
    List.range_succ_eq_map, List.map_cons, List.map_map]
  congr 2
  apply List.map_congr_left
  intro j _
  simp only [Function.comp, canonicalPath_compsText, Nat.succ_eq_add_one]

section
variable (H : Hashes) (order : List (Bytes × List VersionBytes)) (ho : order.Perm pathTable)

/-! ### C45 -/

/-- **C45.** A valid private depth-0 root and a valid path with components `cs` give `|cs| + 1` entries: `(m, root)`
first, then for each prefix of the values its text and the key after these `NewChildKey` steps; where the steps
succeed this is the derived key. -/
theorem C45_ancestors (R : Registry) (root : Key) (hr : GoodRoot root) (p : Bytes) (hp : pathIsValid p = true)
    (cs : List Comp) (hcs : PathText (stripSpace p) cs) :
    ∃ vals res, valuesAtDepth p = (0 :: vals, none) ∧ vals.length = cs.length ∧
      deriveBIP32Result H R root p = (res, none) ∧ res.length = cs.length + 1 ∧
      res[0]? = some ⟨str "m", root⟩ ∧
      (∀ j ≤ cs.length, ∃ kp, res[j]? = some kp ∧ kp.path = canonicalPath (vals.take j) ∧
        kp.key = (vals.take j).foldl (fun k i => (k.newChildKey H R i).1) root) ∧
      (∀ j ≤ cs.length, ∀ k, deriveAll (Key.newChildKey H R) root (vals.take j) = some k →
        (res[j]?).map KeyPath.key = some k) := by
  obtain ⟨cs', h1, -, hv⟩ := valuesAtDepth_valid hp
  obtain rfl := pathText_unique hcs h1
  have hl : (cs.map compVal).length = cs.length := by simp
  have hj : ∀ j ≤ cs.length, ((List.range ((cs.map compVal).length + 1)).map fun j =>
      (⟨canonicalPath ((cs.map compVal).take j), blindSteps H R root ((cs.map compVal).take j)⟩ : KeyPath))[j]? =
      some ⟨canonicalPath ((cs.map compVal).take j), blindSteps H R root ((cs.map compVal).take j)⟩ := by
    intro j hj
    rw [List.getElem?_map, List.getElem?_range (by omega)]
    rfl
  refine ⟨_, _, hv, hl, derive_eq H R hr hv, by simp, ?_, ?_, ?_⟩
  · exact hj 0 (by omega)
  · intro j hj'
    exact ⟨_, hj j hj', rfl, rfl⟩
  · intro j hj' k hk
    rw [hj j hj', ← blindSteps_of_deriveAll hk]
    rfl

/-! ### C46 -/

include ho

theorem zero_child (i : UInt32) :
    Key.zero.newChildKey H (Registry.init order) i = (Key.zero, some .unSupportedHDVersionBytes) := by
  have hv : Key.zero.getVersion = 0 := congrArg KeyFields.version zero_fields
  refine newChildKey_unregistered H ho _ i (.inl (by decide)) ?_
  rw [if_pos (by decide), hv]
  rintro ⟨e, he, h0⟩
  have h := (registered_iff e).1 he
  have : ∀ e ∈ entries, e.pvtKeyFlag ≠ 0 := by decide +kernel
  exact this e h h0

theorem blindSteps_zero (vs : List UInt32) : blindSteps H (Registry.init order) Key.zero vs = Key.zero := by
  induction vs with
  | nil => rfl
  | cons v vs ih =>
    rw [blindSteps, List.foldl_cons, zero_child H order ho]
    exact ih

/-- **C46**, the deviation, for every root whose version is not registered and every path with at least one
component: each step fails, no error is returned, and all entries after the first hold the all-zero key. -/
theorem C46_failures_hidden (root : Key) (hr : GoodRoot root) (hv : ¬ PvtVersion root.getVersion) (p : Bytes)
    (v : UInt32) (vs : List UInt32) (hp : valuesAtDepth p = (0 :: v :: vs, none)) :
    deriveAll (Key.newChildKey H (Registry.init order)) root (v :: vs) = none ∧
    ∃ res, deriveBIP32Result H (Registry.init order) root p = (res, none) ∧ res.length = vs.length + 2 ∧
      ∀ kp ∈ res.drop 1, kp.key = Key.zero := by
  have hc : root.newChildKey H (Registry.init order) v = (Key.zero, some .unSupportedHDVersionBytes) :=
    newChildKey_unregistered H ho root v (.inl hr.priv) (by rw [hr.priv, if_pos rfl]; exact hv)
  refine ⟨by rw [deriveAll, hc], _, derive_eq H _ hr hp, by simp, ?_⟩
  intro kp hk
  rw [List.range_succ_eq_map, List.map_cons, List.drop_succ_cons, List.drop_zero, List.map_map] at hk
  obtain ⟨j, -, rfl⟩ := List.mem_map.1 hk
  simp only [Function.comp, Nat.succ_eq_add_one, List.take_succ_cons, blindSteps, List.foldl_cons, hc]
  exact blindSteps_zero H order ho _

omit ho in
theorem not_xprv_zero {k : Key} (h : k.getKeyBytes = 0 :: ser256 0) : ¬ ∃ t, IsXprv k t := by
  rintro ⟨t, ht⟩
  have h1 := (List.cons.inj (h.symm.trans ht.1)).2
  have h2 := congrArg setBytes h1
  rw [setBytes_ser256 secpN_prime.pos, setBytes_ser256 ht.2.2] at h2
  have := ht.2.1
  omega

theorem blind_xprv_iff (vs : List UInt32) (k : Key) (s : Nat) (hk : IsXprv k s) (hv : PvtVersion k.getVersion) :
    (∀ j ≤ vs.length, ∃ t, IsXprv (blindSteps H (Registry.init order) k (vs.take j)) t) ↔
      ∃ k', deriveAll (Key.newChildKey H (Registry.init order)) k vs = some k' := by
  induction vs generalizing k s with
  | nil =>
    refine ⟨fun _ => ⟨k, rfl⟩, fun _ j _ => ⟨s, ?_⟩⟩
    rw [List.take_nil]; exact hk
  | cons v vs ih =>
    obtain ⟨h1, h2⟩ := C22_ckdPriv_exact H order ho k s v hk hv
    by_cases h0 : (parse256 ((ckdI H s k.getChainCode v.toNat).take 32) + s) % secpN = 0
    · rw [if_pos h0] at h1
      rw [h0] at h2
      constructor
      · intro h
        refine absurd (h 1 (by simp)) (not_xprv_zero ?_)
        have : blindSteps H (Registry.init order) k ((v :: vs).take 1) = (k.newChildKey H (Registry.init order) v).1 := rfl
        rw [this]
        exact congrArg KeyFields.keyBytes h2
      · rintro ⟨k', h⟩
        obtain ⟨c, hc, -⟩ := deriveAll_cons.1 h
        rw [hc] at h1
        simp at h1
    · rw [if_neg h0] at h1
      have hc : k.newChildKey H (Registry.init order) v = ((k.newChildKey H (Registry.init order) v).1, none) :=
        Prod.ext rfl h1
      obtain ⟨hx, hvc, -⟩ := step_xprv H order ho hk hv hc
      have ih' := ih _ _ hx hvc
      constructor
      · intro h
        obtain ⟨k', hk'⟩ := ih'.1 (fun j hj => h (j + 1) (by simp; omega))
        exact ⟨k', deriveAll_cons.2 ⟨_, hc, hk'⟩⟩
      · rintro ⟨k', h⟩
        obtain ⟨c, hc', hk'⟩ := deriveAll_cons.1 h
        have e : c = (k.newChildKey H (Registry.init order) v).1 := by rw [hc']
        rw [e] at hk'
        have := ih'.2 ⟨k', hk'⟩
        intro j hj
        cases j with
        | zero => exact ⟨s, hk⟩
        | succ j => exact this j (by simp at hj; omega)

omit ho in
/-- **C46**, exactly: for a root the generator accepts and a valid path, "a failed step is reported" holds if and only if no step fails. So
no failure is ever reported, whichever step it is. -/
theorem C46_reports_iff (root : Key) (hr : GoodRoot root) (p : Bytes) (vs : List UInt32) (hp : valuesAtDepth p = (0 :: vs, none)) :
    (deriveAll (Key.newChildKey H (Registry.init order)) root vs = none →
        (deriveBIP32Result H (Registry.init order) root p).2 ≠ none) ↔
      deriveAll (Key.newChildKey H (Registry.init order)) root vs ≠ none := by
  rw [derive_eq H _ hr hp]
  exact ⟨fun h h' => h h' rfl, fun h h' => absurd h' h⟩

/-- **C46**, what remains: for a root that holds a valid scalar under a registered version, a failed step can be
recognised in the result, because then and only then some returned key is no valid private key. The missing part
is the error itself: none is returned. -/
theorem C46_detectable_partial (root : Key) (s : Nat) (hx : IsXprv root s) (hv : PvtVersion root.getVersion)
    (hr : GoodRoot root) (p : Bytes) (vs : List UInt32) (hp : valuesAtDepth p = (0 :: vs, none)) :
    ∃ res, deriveBIP32Result H (Registry.init order) root p = (res, none) ∧
      ((∀ kp ∈ res, ∃ t, IsXprv kp.key t) ↔
        ∃ k, deriveAll (Key.newChildKey H (Registry.init order)) root vs = some k) := by
  refine ⟨_, derive_eq H _ hr hp, ?_⟩
  rw [← blind_xprv_iff H order ho vs root s hx hv]
  constructor
  · intro h j hj
    exact h ⟨canonicalPath (vs.take j), blindSteps H (Registry.init order) root (vs.take j)⟩
      (List.mem_map.2 ⟨j, List.mem_range.2 (by omega), rfl⟩)
  · intro h kp hk
    obtain ⟨j, hj, rfl⟩ := List.mem_map.1 hk
    exact h j (by have := List.mem_range.1 hj; omega)

omit ho in
theorem goodRoot_xprvKey (s : Nat) : GoodRoot (xprvKey s) := by
  have h := xprvKey_fields s
  refine ⟨?_, ?_, congrArg KeyFields.depth h⟩
  · intro e
    have : xprvKey s = Key.zero := Key.ext' e
    rw [this, zero_fields] at h
    have : (0 : UInt32) = 0x0488ade4 := congrArg KeyFields.version h
    exact absurd this (by decide)
  · rw [(isPrivate_of_keyBytes _ (show (xprvKey s).getKeyBytes = 0 :: ser256 s from congrArg KeyFields.keyBytes h)).1]
    rfl

/-- **C46**, a second deviation: derivation goes on after a failure. Here the first step hits the scalar 0, which is an
error of `NewChildKey`; the second entry is nevertheless returned as a valid private key. -/
theorem C46_continues_after_failure :
    ∃ H root res k, GoodRoot root ∧ IsXprv root 5 ∧ PvtVersion root.getVersion ∧
      (root.newChildKey H (Registry.init order) 0).2 = some .invalidPrivateKey ∧
      deriveBIP32Result H (Registry.init order) root (str "m/0/0") = (res, none) ∧
      res[2]? = some k ∧ IsXprv k.key (secpN - 5) := by
  have hx := xprvKey_isXprv (s := 5) (by decide) (by decide)
  have hv := xprvKey_version 5
  have hval : valuesAtDepth (str "m/0/0") = (0 :: [0, 0], none) := by decide +kernel
  have h1 := C22_ckdPriv_exact (hashesIL (secpN - 5)) order ho (xprvKey 5) 5 0 hx hv
  dsimp only at h1
  rw [ckdI_hashesIL _ _ _ _ (by decide)] at h1
  have h0 : (secpN - 5 + 5) % secpN = 0 := by decide +kernel
  refine ⟨hashesIL (secpN - 5), xprvKey 5, _, _, goodRoot_xprvKey 5, hx, hv, ?_, derive_eq _ _ (goodRoot_xprvKey 5) hval,
    rfl, ?_⟩
  · rw [h1.1]
    exact if_pos h0
  · generalize hc : ((xprvKey 5).newChildKey (hashesIL (secpN - 5)) (Registry.init order) 0).1 = c at h1
    have hf := h1.2
    have hcb : c.getKeyBytes = 0 :: ser256 0 := by
      have := congrArg KeyFields.keyBytes hf
      rw [h0] at this
      exact this
    have hcv : c.getVersion = (xprvKey 5).getVersion := congrArg KeyFields.version hf
    obtain ⟨p1, p2⟩ := isPrivate_of_keyBytes c hcb
    have h2 := newChildKey_private (hashesIL (secpN - 5)) ho c 0 (by rw [p1]; rfl) (by rw [hcv]; exact hv)
    have hI : setBytes ((c.getIntermediary (hashesIL (secpN - 5)) 0).take 32) = secpN - 5 := by
      rw [getIntermediary_eq, hashesIL_take, setBytes_beBytes]; decide +kernel
    dsimp only at h2
    rw [hI, p2, setBytes_ser256 secpN_prime.pos] at h2
    have e : (secpN - 5 + 0) % secpN = secpN - 5 := by decide +kernel
    rw [e] at h2
    refine ⟨?_, by decide, by decide⟩
    have : ∀ vs : List UInt32, vs = [0, 0] → blindSteps (hashesIL (secpN - 5)) (Registry.init order) (xprvKey 5) vs =
        (c.newChildKey (hashesIL (secpN - 5)) (Registry.init order) 0).1 := by
      rintro _ rfl
      rw [blindSteps, List.foldl_cons, hc]; rfl
    dsimp only
    rw [this (List.take 2 [0, 0]) rfl]
    exact congrArg KeyFields.keyBytes h2.1

omit ho

/-! ### C47 -/

/-- **C47**, what the code does: entry `j` carries the canonical text of the first `j` values, and this is a valid
path exactly when the hardened values among them come first. -/
theorem C47_labels_exact (R : Registry) (root : Key) (hr : GoodRoot root) (p : Bytes) (vs : List UInt32)
    (hp : valuesAtDepth p = (0 :: vs, none)) :
    ∃ res, deriveBIP32Result H R root p = (res, none) ∧ ∀ j ≤ vs.length, ∃ kp, res[j]? = some kp ∧
      kp.path = canonicalPath (vs.take j) ∧
      (pathIsValid kp.path = true ↔ HardenedFirst ((vs.take j).map fun v => decide (2 ^ 31 ≤ v.toNat))) := by
  refine ⟨_, derive_eq H R hr hp, fun j hj => ⟨⟨canonicalPath (vs.take j), blindSteps H R root (vs.take j)⟩, ?_, rfl,
    pathIsValid_canonical_iff _⟩⟩
  rw [List.getElem?_map, List.getElem?_range (by omega)]
  rfl

/-- **C47** for paths in which every number written is below 2³¹: every label is a valid path whose values are the
first `j` values of the request, and deriving along the label gives the first `j + 1` entries again, so the label
names the key it stands beside. -/
theorem C47_labels_partial (R : Registry) (root : Key) (hr : GoodRoot root) (p : Bytes) (hp : pathIsValid p = true)
    (cs : List Comp) (hcs : PathText (stripSpace p) cs) (hsmall : ∀ c ∈ cs, decValue c.digits < 2 ^ 31) :
    ∃ res vals, valuesAtDepth p = (0 :: vals, none) ∧ deriveBIP32Result H R root p = (res, none) ∧
      ∀ j kp, res[j]? = some kp → pathIsValid kp.path = true ∧ valuesAtDepth kp.path = (0 :: vals.take j, none) ∧
        deriveBIP32Result H R root kp.path = (res.take (j + 1), none) := by
  obtain ⟨cs', h1, -, hv⟩ := valuesAtDepth_valid hp
  obtain rfl := pathText_unique hcs h1
  have hh : HardenedFirst ((cs.map compVal).map fun v => decide (2 ^ 31 ≤ v.toNat)) := by
    obtain ⟨j, k, e⟩ := hcs.2.2
    refine ⟨j, k, ?_⟩
    rw [← e, List.map_map]
    apply List.map_congr_left
    intro c hc
    have hs := hsmall c hc
    have hval : (compVal c).toNat = decValue c.digits + if c.hardened then 2 ^ 31 else 0 := by
      rw [compVal, UInt32.toNat_add, UInt32.toNat_ofNat']
      cases c.hardened
      · simp only [Bool.false_eq_true, if_false, UInt32.toNat_zero]; omega
      · simp only [if_true, hard_toNat]; omega
    simp only [Function.comp, hval]
    cases c.hardened
    · simp only [Bool.false_eq_true, if_false, decide_eq_false_iff_not]; omega
    · simp only [if_true, decide_eq_true_eq]; omega
  refine ⟨_, _, hv, derive_eq H R hr hv, ?_⟩
  intro j kp hkp
  have hj : j < (cs.map compVal).length + 1 := by
    by_contra hn
    rw [List.getElem?_eq_none (by simp at hn ⊢; omega)] at hkp
    simp at hkp
  rw [List.getElem?_map, List.getElem?_range hj] at hkp
  obtain rfl := Option.some.inj hkp
  have hlab := C41_print_parse ((cs.map compVal).take j) (by
    rw [List.map_take]; exact hardenedFirst_take hh j)
  refine ⟨hlab.1, hlab.2, ?_⟩
  rw [derive_eq H R hr hlab.2]
  generalize hvs : cs.map compVal = vs at *
  rw [← List.map_take, List.take_range]
  have hm : min (j + 1) (vs.length + 1) = (vs.take j).length + 1 := by
    rw [List.length_take]; omega
  rw [hm]
  congr 1
  apply List.map_congr_left
  intro i hi
  have := List.mem_range.1 hi
  rw [List.length_take] at this
  rw [List.take_take, Nat.min_eq_left (by omega)]

/-- **C47**, the deviation: `m/0/2147483648` is accepted, and the label of its last entry is `m/0/0'`, which is not a
valid path. -/
theorem C47_bad_label (R : Registry) (root : Key) (hr : GoodRoot root) :
    ∃ res kp, pathIsValid (str "m/0/2147483648") = true ∧
      deriveBIP32Result H R root (str "m/0/2147483648") = (res, none) ∧ res[2]? = some kp ∧
      kp.path = str "m/0/0'" ∧ pathIsValid kp.path = false ∧
      deriveBIP32Result H R root kp.path = ([], some .utilUnSupportedOrInvalidPath) := by
  have hval : valuesAtDepth (str "m/0/2147483648") = (0 :: [0, 2147483648], none) := by decide +kernel
  have hlab : canonicalPath [0, 2147483648] = str "m/0/0'" := by decide +kernel
  have hbad : pathIsValid (str "m/0/0'") = false := by decide +kernel
  refine ⟨_, ⟨canonicalPath [0, 2147483648], blindSteps H R root [0, 2147483648]⟩, by decide +kernel,
    derive_eq H R hr hval, rfl, hlab, by rw [hlab]; exact hbad, ?_⟩
  rw [deriveBIP32Result, (goodRoot_iff H root).2 hr, if_neg (by simp), hlab, hbad]
  rfl

/-! ### C48 -/

/-- **C48.** The two guards, exactly; with an error there are no entries; the result depends on the path only through
its text without white space. -/
theorem C48_guards (R : Registry) (root : Key) (p : Bytes) :
    let r := deriveBIP32Result H R root p
    (r.2 = some .invalidRootKey ↔
      root.bytes = List.replicate 78 0 ∨ root.isPrivate = false ∨ root.getDepth ≠ [0]) ∧
    (r.2 = some .utilUnSupportedOrInvalidPath ↔
      ¬ (root.bytes = List.replicate 78 0 ∨ root.isPrivate = false ∨ root.getDepth ≠ [0]) ∧ pathIsValid p = false) ∧
    (r.2 = none ↔
      ¬ (root.bytes = List.replicate 78 0 ∨ root.isPrivate = false ∨ root.getDepth ≠ [0]) ∧ pathIsValid p = true) ∧
    (r.2 ≠ none → r.1 = []) ∧
    (∀ q, stripSpace q = stripSpace p → deriveBIP32Result H R root q = r) := by
  intro r
  have hgood : GoodRoot root ↔
      ¬ (root.bytes = List.replicate 78 0 ∨ root.isPrivate = false ∨ root.getDepth ≠ [0]) := by
    constructor
    · rintro ⟨a, b, c⟩ (h | h | h)
      · exact a h
      · rw [b] at h; simp at h
      · exact h c
    · intro h
      simp only [not_or, Bool.not_eq_false, not_not] at h
      exact ⟨h.1, h.2.1, h.2.2⟩
  have hws : ∀ q, stripSpace q = stripSpace p → deriveBIP32Result H R root q = r := by
    intro q hq
    have hvals : valuesAtDepth q = valuesAtDepth p := by
      rw [← valuesAtDepth_strip q, hq, valuesAtDepth_strip]
    have hval : pathIsValid q = pathIsValid p := by rw [pathIsValid, pathIsValid, hvals]
    change deriveBIP32Result H R root q = deriveBIP32Result H R root p
    rw [deriveBIP32Result, deriveBIP32Result, hval, hvals]
  generalize (root.bytes = List.replicate 78 0 ∨ root.isPrivate = false ∨ root.getDepth ≠ [0]) = B at hgood ⊢
  by_cases hg : GoodRoot root
  · have hg' := hgood.1 hg
    cases hp : pathIsValid p with
    | false =>
      have hr : r = ([], some .utilUnSupportedOrInvalidPath) := by
        change deriveBIP32Result H R root p = _
        rw [deriveBIP32Result, (goodRoot_iff H root).2 hg, if_neg (by simp), hp]
        rfl
      refine ⟨?_, ?_, ?_, ?_, hws⟩ <;> simp [hr, hg']
    | true =>
      obtain ⟨cs, -, -, hv⟩ := valuesAtDepth_valid hp
      have hr := derive_eq H R hg hv
      have hr2 : r.2 = none := congrArg Prod.snd hr
      refine ⟨?_, ?_, ?_, ?_, hws⟩ <;> simp [hr2, hg']
  · have hg' : B := by
      by_contra h; exact hg (hgood.2 h)
    have hr : r = ([], some .invalidRootKey) := by
      change deriveBIP32Result H R root p = _
      rw [deriveBIP32Result, if_pos]
      by_contra h
      exact hg ((goodRoot_iff H root).1 (by simpa using h))
    refine ⟨?_, ?_, ?_, ?_, hws⟩ <;> simp [hr, hg']

/-! ### C49 -/

/-- **C49**, what the code does, in all cases: an empty range, a zero key and an invalid path are rejected and nothing
is changed; an inverted range gives an empty list and no error; otherwise there are `end - start` entries, entry `j`
being reached from the base through all of `start, …, start + j`. -/
theorem C49_range_exact (R : Registry) (k : KeyPathRange) :
    (k.startIndex = k.endIndex → k.generateRange H R = (k, some .invalidRangeProvided)) ∧
    (k.startIndex ≠ k.endIndex → k.keyPath.key.bytes = List.replicate 78 0 →
      k.generateRange H R = (k, some .invalidRootKey)) ∧
    (k.startIndex ≠ k.endIndex → k.keyPath.key.bytes ≠ List.replicate 78 0 → pathIsValid k.keyPath.path = false →
      k.generateRange H R = (k, some .utilUnSupportedOrInvalidPath)) ∧
    (k.startIndex ≠ k.endIndex → k.keyPath.key.bytes ≠ List.replicate 78 0 → pathIsValid k.keyPath.path = true →
      ∃ l, k.generateRange H R = ({ k with keyPaths := l }, none) ∧
        l.length = k.endIndex.toNat - k.startIndex.toNat ∧
        ∀ j < l.length, ∃ vs : List UInt32, vs.map UInt32.toNat = List.range' k.startIndex.toNat (j + 1) ∧
          l[j]? = some ⟨stripSpace k.keyPath.path ++ (canonicalPath vs).drop 1,
            vs.foldl (fun k i => (k.newChildKey H R i).1) k.keyPath.key⟩) := by
  have hdiff : k.endIndex - k.startIndex < 1 ↔ k.startIndex = k.endIndex := by
    have h1 := k.startIndex.toNat_lt
    have h2 := k.endIndex.toNat_lt
    rw [UInt32.lt_iff_toNat_lt, UInt32.toNat_sub, ← UInt32.toNat_inj, show (1 : UInt32).toNat = 1 from rfl]
    omega
  have hval : ∀ b : Prop, (k.keyPath.key.bytes ≠ List.replicate 78 0) → ((!k.keyPath.key.isValid H) = true) = False := by
    intro _ h
    simp [(C18_isValid_iff H _).2 h]
  refine ⟨?_, ?_, ?_, ?_⟩
  · intro h
    rw [KeyPathRange.generateRange, if_pos (hdiff.2 h)]
  · intro h hz
    rw [KeyPathRange.generateRange, if_neg (fun e => h (hdiff.1 e)), if_pos]
    have : k.keyPath.key.isValid H = false := by
      rw [← Bool.not_eq_true, C18_isValid_iff]; exact fun e => e hz
    simp [this]
  · intro h hz hp
    rw [KeyPathRange.generateRange, if_neg (fun e => h (hdiff.1 e)),
      if_neg (by simp [(C18_isValid_iff H _).2 hz]), if_pos (by simp [hp])]
  · intro h hz hp
    refine ⟨_, by
      rw [KeyPathRange.generateRange, if_neg (fun e => h (hdiff.1 e)),
        if_neg (by simp [(C18_isValid_iff H _).2 hz]), if_neg (by simp [hp]), rangeLoop_eq,
        deriveLoop_eq _ _ _ _ _ (by rw [pathString_eq, stripSpace_idem])], by simp [indices_length], ?_⟩
    intro j hj
    rw [List.length_map, List.length_range, indices_length] at hj
    refine ⟨(indices k.startIndex k.endIndex).take (j + 1), ?_, ?_⟩
    · apply List.ext_getElem?
      intro i
      by_cases hi : i < j + 1
      · obtain ⟨v, h1, h2⟩ := indices_get k.startIndex k.endIndex i (by omega)
        rw [List.getElem?_map, List.getElem?_take_of_lt hi, h1, List.getElem?_range' hi]
        simp [h2]
      · rw [List.getElem?_eq_none (by simp; omega), List.getElem?_eq_none (by simp; omega)]
    · rw [List.getElem?_map, List.getElem?_range (by rw [indices_length]; exact hj), pathString_eq,
        canonicalPath_compsText]
      rfl

/-- **C49** for ranges of one index: one entry, the child of the base at that index, labelled with the index. The
missing part is ranges of two or more indices, where the entries are nested (`C49_nested`). -/
theorem C49_single_partial (R : Registry) (k : KeyPathRange) (h1 : k.endIndex.toNat = k.startIndex.toNat + 1)
    (hz : k.keyPath.key.bytes ≠ List.replicate 78 0) (hp : pathIsValid k.keyPath.path = true) :
    k.generateRange H R = ({ k with keyPaths := [⟨stripSpace k.keyPath.path ++ (canonicalPath [k.startIndex]).drop 1,
      (k.keyPath.key.newChildKey H R k.startIndex).1⟩] }, none) := by
  have hne : k.startIndex ≠ k.endIndex := by
    intro e; rw [e] at h1; omega
  obtain ⟨l, e, hl, hj⟩ := (C49_range_exact H R k).2.2.2 hne hz hp
  rw [e]
  obtain ⟨vs, hv, h0⟩ := hj 0 (by omega)
  have hvs : vs = [k.startIndex] := by
    rcases vs with _ | ⟨v, _ | ⟨w, vs⟩⟩
    · simp at hv
    · have hv' : [v.toNat] = [k.startIndex.toNat] := hv
      rw [UInt32.toNat_inj.1 (List.cons.inj hv').1]
    · have := congrArg List.length hv
      simp at this
  subst hvs
  have : l = [⟨stripSpace k.keyPath.path ++ (canonicalPath [k.startIndex]).drop 1,
      (k.keyPath.key.newChildKey H R k.startIndex).1⟩] := by
    rcases l with _ | ⟨a, _ | ⟨b, l⟩⟩
    · simp at h0
    · simp only [List.getElem?_cons_zero, Option.some.injEq] at h0
      rw [h0]; rfl
    · simp at hl; omega
  rw [this]

/-- **C49**, first deviation: every inverted range is accepted; it yields an empty list and no error. -/
theorem C49_inverted_accepted (R : Registry) (k : KeyPathRange) (h : k.endIndex.toNat < k.startIndex.toNat)
    (hz : k.keyPath.key.bytes ≠ List.replicate 78 0) (hp : pathIsValid k.keyPath.path = true) :
    k.generateRange H R = ({ k with keyPaths := [] }, none) := by
  have hne : k.startIndex ≠ k.endIndex := by
    intro e; rw [e] at h; omega
  obtain ⟨l, e, hl, -⟩ := (C49_range_exact H R k).2.2.2 hne hz hp
  rw [e, show l = [] from List.length_eq_zero_iff.1 (by omega)]

include ho in
/-- **C49**, second deviation: the second entry of a range is not the child of the base at the second index but its
grandchild, for every base with a valid scalar whose first step succeeds (its depth is two more than the base's; that
of a child is one more), and its label has two more components than the base. -/
theorem C49_nested (k : KeyPathRange) (s : Nat) (hx : IsXprv k.keyPath.key s) (hv : PvtVersion k.keyPath.key.getVersion)
    (hp : pathIsValid k.keyPath.path = true) (h2 : k.startIndex.toNat + 2 ≤ k.endIndex.toNat)
    (hok : (k.keyPath.key.newChildKey H (Registry.init order) k.startIndex).2 = none) :
    ∃ l kp, k.generateRange H (Registry.init order) = ({ k with keyPaths := l }, none) ∧ l[1]? = some kp ∧
      kp.key.getDepth = k.keyPath.key.getDepth.map (· + 2) ∧
      kp.key ≠ (k.keyPath.key.newChildKey H (Registry.init order) (k.startIndex + 1)).1 ∧
      kp.path = stripSpace k.keyPath.path ++ (canonicalPath [k.startIndex, k.startIndex + 1]).drop 1 := by
  have hne : k.startIndex ≠ k.endIndex := by
    intro e; rw [e] at h2; omega
  have hz : k.keyPath.key.bytes ≠ List.replicate 78 0 := by
    intro e
    have : k.keyPath.key = Key.zero := Key.ext' e
    rw [this] at hx
    refine not_xprv_zero ?_ ⟨s, hx⟩
    have := congrArg KeyFields.keyBytes zero_fields
    rw [show Key.zero.getKeyBytes = List.replicate 33 0 from this]
    decide +kernel
  obtain ⟨l, e, hl, hj⟩ := (C49_range_exact H (Registry.init order) k).2.2.2 hne hz hp
  obtain ⟨vs, hvs, h1⟩ := hj 1 (by omega)
  have he := k.endIndex.toNat_lt
  have hs1 : (k.startIndex + 1).toNat = k.startIndex.toNat + 1 := by
    rw [UInt32.toNat_add, show (1 : UInt32).toNat = 1 from rfl, Nat.mod_eq_of_lt (by omega)]
  have hvs' : vs = [k.startIndex, k.startIndex + 1] := by
    have h0 : vs.map UInt32.toNat = [k.startIndex, k.startIndex + 1].map UInt32.toNat := by
      rw [hvs]; simp [List.range', hs1]
    exact List.map_injective_iff.2 (fun a b h => UInt32.toNat_inj.1 h) h0
  subst hvs'
  refine ⟨l, _, e, h1, ?_, ?_, rfl⟩
  all_goals
    have hc : k.keyPath.key.newChildKey H (Registry.init order) k.startIndex =
      ((k.keyPath.key.newChildKey H (Registry.init order) k.startIndex).1, none) := Prod.ext rfl hok
    obtain ⟨hx1, hv1, -⟩ := step_xprv H order ho hx hv hc
    have d1 := congrArg KeyFields.depth (C22_ckdPriv_exact H order ho _ s k.startIndex hx hv).2
    have d2 := congrArg KeyFields.depth (C22_ckdPriv_exact H order ho _ _ (k.startIndex + 1) hx1 hv1).2
    have d3 := congrArg KeyFields.depth (C22_ckdPriv_exact H order ho _ s (k.startIndex + 1) hx hv).2
    simp only [Key.fields] at d1 d2 d3
    rw [d1, Key.getDepth_eq k.keyPath.key] at d2
    rw [Key.getDepth_eq k.keyPath.key] at d3
  · simp only [List.foldl_cons, List.foldl_nil]
    rw [d2, Key.getDepth_eq]
    simp only [List.map_cons, List.map_nil, List.cons.injEq, and_true]
    rw [UInt8.add_assoc]
    rfl
  · simp only [List.foldl_cons, List.foldl_nil]
    intro heq
    rw [heq, d3] at d2
    simp only [List.map_cons, List.map_nil, List.cons.injEq, and_true] at d2
    have h3 : ∀ x : UInt8, x + 1 ≠ x + 1 + 1 := by
      intro x h
      have := congrArg UInt8.toNat h
      have hx := x.toNat_lt
      rw [UInt8.toNat_add, UInt8.toNat_add, UInt8.toNat_add, show (1 : UInt8).toNat = 1 from rfl] at this
      omega
    exact h3 _ d2

/-- **C49**, labels: below index 2³¹ the labels are valid paths whose values are those of the base followed by the
indices stepped through. -/
theorem C49_labels (R : Registry) (k : KeyPathRange) (h1 : k.startIndex.toNat < k.endIndex.toNat)
    (h31 : k.endIndex.toNat ≤ 2 ^ 31) (hz : k.keyPath.key.bytes ≠ List.replicate 78 0)
    (hp : pathIsValid k.keyPath.path = true) (j : Nat) (hj : j < k.endIndex.toNat - k.startIndex.toNat) :
    ∃ kp vs, (k.generateRange H R).1.keyPaths[j]? = some kp ∧
      vs.map UInt32.toNat = List.range' k.startIndex.toNat (j + 1) ∧ pathIsValid kp.path = true ∧
      valuesAtDepth kp.path = ((valuesAtDepth k.keyPath.path).1 ++ vs, none) := by
  have hne : k.startIndex ≠ k.endIndex := by
    intro e; rw [e] at h1; omega
  obtain ⟨l, e, hl, hjj⟩ := (C49_range_exact H R k).2.2.2 hne hz hp
  obtain ⟨vs, hvs, h0⟩ := hjj j (by omega)
  rw [e]
  refine ⟨_, vs, h0, hvs, ?_⟩
  dsimp only
  obtain ⟨cs, ht, hok, hval⟩ := valuesAtDepth_valid hp
  have hplain : ∀ v ∈ vs, v.toNat < 2 ^ 31 := by
    intro v hv
    have : v.toNat ∈ vs.map UInt32.toNat := List.mem_map.2 ⟨v, hv, rfl⟩
    rw [hvs, List.mem_range'_1] at this
    omega
  have htext : PathText (stripSpace k.keyPath.path ++ (canonicalPath vs).drop 1) (cs ++ vs.map printComp) := by
    refine ⟨?_, ?_, ?_⟩
    · have hd : (canonicalPath vs).drop 1 = (vs.map printComp).flatMap Comp.text := by
        rw [canonicalPath_compsText]; rfl
      rw [hd, List.flatMap_append, ← List.append_assoc, ← List.append_assoc]
      rcases ht.1 with h | h
      · left; rw [h]
      · right; rw [h]
    · intro c hc
      rcases List.mem_append.1 hc with hc | hc
      · exact ht.2.1 c hc
      · obtain ⟨v, -, rfl⟩ := List.mem_map.1 hc
        exact printComp_numeral v
    · obtain ⟨a, b, hab⟩ := ht.2.2
      refine ⟨a, b + vs.length, ?_⟩
      rw [List.map_append, hab, List.append_assoc, List.map_map]
      congr 1
      rw [List.replicate_add]
      congr 1
      rw [List.eq_replicate_iff]
      refine ⟨by simp, ?_⟩
      intro c hc
      obtain ⟨v, hv, rfl⟩ := List.mem_map.1 hc
      have : ¬ v ≥ firstHardenedChild := by
        have := hplain v hv
        change ¬ 2 ^ 31 ≤ v.toNat
        omega
      simp [Function.comp, printComp_hardened, this]
  have hokall : ∀ c ∈ cs ++ vs.map printComp, CompOk c := by
    intro c hc
    rcases List.mem_append.1 hc with hc | hc
    · exact hok c hc
    · obtain ⟨v, -, rfl⟩ := List.mem_map.1 hc
      exact (printComp_ok v).1
  have ht' := htext
  rw [← stripSpace_of_pathText htext] at ht'
  refine ⟨(pathIsValid_iff _).2 ⟨_, ht', hokall⟩, ?_⟩
  rw [(valuesAtDepth_of_text ht').1 hokall, hval, List.map_append, List.map_map]
  congr 1
  have : vs.map (compVal ∘ printComp) = vs := by
    conv_rhs => rw [← List.map_id vs]
    apply List.map_congr_left
    intro v _
    exact (printComp_ok v).2
  rw [this]
  rfl

end

/-! ### Instances -/

/-- The hypotheses of C45, C47 and C48 are met: a good root and a valid path of four components. -/
example : GoodRoot (xprvKey 5) ∧ pathIsValid (str "m/44'/0'/1/ 7") = true ∧
    valuesAtDepth (str "m/44'/0'/1/ 7") = ([0, 0x8000002C, 0x80000000, 1, 7], none) :=
  ⟨goodRoot_xprvKey 5, by decide +kernel, by decide +kernel⟩

/-- The hypotheses of `C46_failures_hidden` are met by a root with version bytes 1. -/
example : GoodRoot ((xprvKey 5).setVersion (putUint32 1)) ∧ ¬ PvtVersion ((xprvKey 5).setVersion (putUint32 1)).getVersion := by
  have hf : ((xprvKey 5).setVersion (putUint32 1)).fields = { (xprvKey 5).fields with version := 1 } :=
    fields_setVersion _ _ (by simp)
  have hv : ((xprvKey 5).setVersion (putUint32 1)).getVersion = 1 := congrArg KeyFields.version hf
  rw [xprvKey_fields] at hf
  refine ⟨⟨?_, ?_, congrArg KeyFields.depth hf⟩, ?_⟩
  · intro e
    have : (xprvKey 5).setVersion (putUint32 1) = Key.zero := Key.ext' e
    rw [this, zero_fields] at hf
    have : (0 : UInt32) = 1 := congrArg KeyFields.version hf
    exact absurd this (by decide)
  · rw [(isPrivate_of_keyBytes _ (show Key.getKeyBytes _ = 0 :: ser256 5 from congrArg KeyFields.keyBytes hf)).1]; rfl
  · rw [hv]
    rintro ⟨e, he, h0⟩
    have : ∀ e ∈ entries, e.pvtKeyFlag ≠ 1 := by decide +kernel
    exact this e ((registered_iff e).1 he) h0

/-- The hypotheses of `C46_detectable_partial` with a derivation that succeeds, and of `C49_nested`. -/
example (order : List (Bytes × List VersionBytes)) (ho : order.Perm pathTable) :
    (∃ k, deriveAll (Key.newChildKey (hashesIL 1) (Registry.init order)) (xprvKey 5) [0x8000002C, 1] = some k) ∧
    ((xprvKey 5).newChildKey (hashesIL 1) (Registry.init order) 0).2 = none := by
  have hx := xprvKey_isXprv (s := 5) (by decide) (by decide)
  obtain ⟨k', h1, -⟩ := long_paths order ho [0x8000002C, 1] (xprvKey 5) 5 hx (xprvKey_version _) (by decide)
  obtain ⟨c, h2, -⟩ := hashesIL_child order ho 1 (by decide) (xprvKey 5) 5 0 hx (xprvKey_version _) (by decide)
  exact ⟨⟨k', h1⟩, by rw [h2]⟩

/-- The hypotheses of the range theorems are met by ranges 3…5, 3…4 and 4…3 over the path `m/1`. -/
example : pathIsValid (str "m/1") = true ∧ (3 : UInt32).toNat + 2 ≤ (5 : UInt32).toNat ∧
    (4 : UInt32).toNat = (3 : UInt32).toNat + 1 ∧ (3 : UInt32).toNat < (4 : UInt32).toNat ∧ (5 : UInt32).toNat ≤ 2 ^ 31 :=
  ⟨by decide +kernel, by decide, by decide, by decide, by decide⟩

end Bips
