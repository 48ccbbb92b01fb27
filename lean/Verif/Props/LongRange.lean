import Verif.Props.RangePath

/-!
# C104: long ranges

What comes with the nesting of `GenerateRange` (util/key_path.go, C49): labels grow with every entry, so the result of a
range of `n` indices has about `n²` bytes; and the depth byte comes round after 256 entries, so that a key 256 levels down
passes for a root key.
-/

namespace Bips
open Spec

theorem numeral_length_le {n : Nat} (h : n < 10 ^ 10) : (numeral n).length ≤ 10 := by
  unfold numeral
  split
  · decide
  · rw [List.length_map, List.length_reverse]
    exact (Nat.digits_length_le_iff (by decide) n).2 h

theorem numeral_length_pos (n : Nat) : 1 ≤ (numeral n).length := by
  unfold numeral
  split
  · decide
  · next h =>
    rw [List.length_map, List.length_reverse]
    exact List.length_pos_iff.2 (Nat.digits_ne_nil_iff_ne_zero.2 h)

/-- A component takes between two and twelve bytes. -/
theorem canonicalPath_length (vs : List UInt32) :
    2 * vs.length ≤ ((canonicalPath vs).drop 1).length ∧ ((canonicalPath vs).drop 1).length ≤ 12 * vs.length := by
  unfold canonicalPath
  rw [List.drop_left' (by decide)]
  induction vs with
  | nil => simp
  | cons v vs ih =>
    rw [List.flatMap_cons, List.length_append, List.length_cons]
    have h1 : (str "/").length = 1 := by decide
    have h2 : (str "'").length = 1 := by decide
    have hlt := v.toNat_lt
    have hc : 2 ≤ (if 2 ^ 31 ≤ v.toNat then str "/" ++ numeral (v.toNat - 2 ^ 31) ++ str "'"
          else str "/" ++ numeral v.toNat).length ∧
        (if 2 ^ 31 ≤ v.toNat then str "/" ++ numeral (v.toNat - 2 ^ 31) ++ str "'"
          else str "/" ++ numeral v.toNat).length ≤ 12 := by
      split
      · have := numeral_length_pos (v.toNat - 2 ^ 31)
        have := numeral_length_le (n := v.toNat - 2 ^ 31) (by omega)
        simp only [List.length_append, h1, h2]
        omega
      · have := numeral_length_pos v.toNat
        have := numeral_length_le (n := v.toNat) (by omega)
        simp only [List.length_append, h1]
        omega
    omega

/-- Bounds on the members of a list that grow with the place give bounds on the sum that grow with the square. -/
theorem sum_bounds (b : Nat) (l : List Nat)
    (h : ∀ j (hj : j < l.length), b + 2 * (j + 1) ≤ l[j] ∧ l[j] ≤ b + 12 * (j + 1)) :
    l.length * b + l.length * (l.length + 1) ≤ l.sum ∧ l.sum ≤ l.length * b + 6 * (l.length * (l.length + 1)) := by
  induction l using List.reverseRecOn with
  | nil => simp
  | append_singleton l a ih =>
    have hl := ih (fun j hj => by
      have := h j (by simp; omega)
      rwa [List.getElem_append_left hj] at this)
    have ha := h l.length (by simp)
    rw [List.getElem_append_right (by simp)] at ha
    simp only [Nat.sub_self, List.getElem_cons_zero] at ha
    simp only [List.length_append, List.length_cons, List.length_nil, List.sum_append, List.sum_cons, List.sum_nil]
    constructor <;> nlinarith

section
variable (H : Hashes) (order : List (Bytes × List VersionBytes)) (ho : order.Perm pathTable)

/-- **C104**, the size of a result: a range of `n` indices from a base whose label has `b` bytes (white space aside) gives
labels of at least `n·b + n·(n+1)` bytes together, and at most `n·b + 6·n·(n+1)`. -/
theorem C104_size (R : Registry) (k : KeyPathRange) (h1 : k.startIndex ≠ k.endIndex)
    (hz : k.keyPath.key.bytes ≠ List.replicate 78 0) (hp : pathIsValid k.keyPath.path = true) :
    ∃ l, k.generateRange H R = ({ k with keyPaths := l }, none) ∧
      let n := k.endIndex.toNat - k.startIndex.toNat
      let b := (stripSpace k.keyPath.path).length
      n * b + n * (n + 1) ≤ (l.map fun kp => kp.path.length).sum ∧
        (l.map fun kp => kp.path.length).sum ≤ n * b + 6 * (n * (n + 1)) := by
  obtain ⟨l, hl, hlen, hent⟩ := (C49_range_exact H R k).2.2.2 h1 hz hp
  refine ⟨l, hl, ?_⟩
  dsimp only
  rw [← hlen]
  have hone : ∀ (j : Nat) (hj : j < l.length), (stripSpace k.keyPath.path).length + 2 * (j + 1) ≤ l[j].path.length ∧
      l[j].path.length ≤ (stripSpace k.keyPath.path).length + 12 * (j + 1) := by
    intro j hj
    obtain ⟨vs, hvs, he⟩ := hent j hj
    obtain ⟨hlt, hget⟩ := List.getElem?_eq_some_iff.1 he
    have hvl : vs.length = j + 1 := by simpa using congrArg List.length hvs
    have := canonicalPath_length vs
    rw [hget]
    dsimp only
    rw [List.length_append]
    omega
  have := sum_bounds (stripSpace k.keyPath.path).length (l.map fun kp => kp.path.length) (by
    intro j hj
    rw [List.getElem_map]
    exact hone j (by simpa using hj))
  rwa [List.length_map] at this

theorem xprv_nonzero {k : Key} {s : Nat} (hk : IsXprv k s) : k.bytes ≠ List.replicate 78 0 := by
  intro e
  have h0 : k = Key.zero := Key.ext' e
  subst h0
  exact not_xprv_zero (by decide +kernel) ⟨s, hk⟩

include ho in
/-- A private key at depth `d` from which `n` steps succeed passes for a root key at the end exactly when `d + n` is a
multiple of 256. -/
theorem goodRoot_after {k k' : Key} {s : Nat} {d : UInt8} (hk : IsXprv k s) (hv : PvtVersion k.getVersion)
    (hd : k.getDepth = [d]) {is : List UInt32}
    (h : deriveAll (Key.newChildKey H (Registry.init order)) k is = some k') :
    GoodRoot k' ↔ (d.toNat + is.length) % 256 = 0 := by
  have hdep := C31_depth_exact H order ho is k k' d hd h
  obtain ⟨⟨s', hx⟩, -, hpriv⟩ := C32_private_validity H order ho is k k' s hk hv h
  have hbyte : UInt8.ofNat (d.toNat + is.length) = 0 ↔ (d.toNat + is.length) % 256 = 0 := by
    rw [← UInt8.toNat_inj, UInt8.toNat_ofNat']
    rfl
  constructor
  · intro hg
    have h0 := hg.depth
    rw [hdep] at h0
    exact hbyte.1 (List.cons.inj h0).1
  · intro hm
    refine ⟨xprv_nonzero hx, hpriv, ?_⟩
    rw [hdep, hbyte.2 hm]

/-- Whether a key is accepted as a root key does not depend on the path, if that is a valid one. -/
theorem root_accepted_iff (R : Registry) (k : Key) (p : Bytes) (hp : pathIsValid p = true) :
    (deriveBIP32Result H R k p).2 = none ↔ GoodRoot k := by
  have h := (C48_guards H R k p).2.2.1
  rw [h]
  constructor
  · rintro ⟨hn, -⟩
    push Not at hn
    exact ⟨hn.1, by simpa using hn.2.1, hn.2.2⟩
  · intro hg
    refine ⟨?_, hp⟩
    rintro (e | e | e)
    · exact hg.nonzero e
    · rw [hg.priv] at e; exact absurd e (by decide)
    · exact e hg.depth

include ho in
/-- **C104**, the depth of a result: in a range from a private key at depth `d`, entry `q` (counted from 0), whose steps
succeed, carries the depth byte `d + q + 1` modulo 256; and `DeriveBIP32Result` takes it as a root key, for whatever valid
path, exactly when this is 0. -/
theorem C104_entries (k : KeyPathRange) (h1 : k.startIndex ≠ k.endIndex) (hp : pathIsValid k.keyPath.path = true)
    {s : Nat} {d : UInt8} (hk : IsXprv k.keyPath.key s) (hv : PvtVersion k.keyPath.key.getVersion)
    (hd : k.keyPath.key.getDepth = [d]) :
    ∃ l, k.generateRange H (Registry.init order) = ({ k with keyPaths := l }, none) ∧
      ∀ q kp, l[q]? = some kp →
        ∀ vs : List UInt32, vs.map UInt32.toNat = List.range' k.startIndex.toNat (q + 1) →
          ∀ k', deriveAll (Key.newChildKey H (Registry.init order)) k.keyPath.key vs = some k' →
            kp.key = k' ∧ kp.key.getDepth = [UInt8.ofNat (d.toNat + q + 1)] ∧
              ∀ path, pathIsValid path = true →
                ((deriveBIP32Result H (Registry.init order) kp.key path).2 = none ↔ (d.toNat + q + 1) % 256 = 0) := by
  obtain ⟨l, hl, hlen, hent⟩ := (C49_range_exact H (Registry.init order) k).2.2.2 h1 (xprv_nonzero hk) hp
  refine ⟨l, hl, ?_⟩
  intro q kp hq vs hvs k' hall
  obtain ⟨us, hus, hget⟩ := hent q (List.getElem?_eq_some_iff.1 hq).1
  have huv : us = vs := by
    have hinj : Function.Injective UInt32.toNat := fun a b h => UInt32.toNat_inj.1 h
    exact hinj.list_map (hus.trans hvs.symm)
  subst huv
  have hvl : us.length = q + 1 := by simpa using congrArg List.length hus
  rw [hq, Option.some.injEq] at hget
  have hkey : kp.key = k' := by
    rw [hget]
    exact blindSteps_of_deriveAll hall
  refine ⟨hkey, ?_, ?_⟩
  · rw [hkey, C31_depth_exact H order ho us _ k' d hd hall, hvl]
    rfl
  · intro path hpath
    rw [root_accepted_iff H _ _ _ hpath, hkey, goodRoot_after H order ho hk hv hd hall, hvl]
    rfl

include ho in
/-- **C104**, of `DeriveBIP32Result` itself: entry `j` of the derivation of a path, whose steps succeed, is taken as a root
key exactly when `j` is a multiple of 256. -/
theorem C104_derived (root : Key) {s : Nat} (hk : IsXprv root s) (hv : PvtVersion root.getVersion)
    (hd : root.getDepth = [0]) (p : Bytes) (vs : List UInt32) (hp : valuesAtDepth p = (0 :: vs, none))
    (j : Nat) (hj : j ≤ vs.length) (k' : Key)
    (hall : deriveAll (Key.newChildKey H (Registry.init order)) root (vs.take j) = some k') :
    ∃ kp, (deriveBIP32Result H (Registry.init order) root p).1[j]? = some kp ∧ kp.key = k' ∧
      ∀ path, pathIsValid path = true →
        ((deriveBIP32Result H (Registry.init order) kp.key path).2 = none ↔ j % 256 = 0) := by
  have hr : GoodRoot root := ⟨xprv_nonzero hk, (intermediary_xprv H hk 0).2.1, hd⟩
  refine ⟨⟨canonicalPath (vs.take j), blindSteps H (Registry.init order) root (vs.take j)⟩, ?_, ?_, ?_⟩
  · rw [derive_eq H _ hr hp]
    dsimp only
    rw [List.getElem?_map, List.getElem?_range (by omega)]
    rfl
  · exact blindSteps_of_deriveAll hall
  · intro path hpath
    dsimp only
    rw [blindSteps_of_deriveAll hall, root_accepted_iff H _ _ _ hpath, goodRoot_after H order ho hk hv hd hall,
      List.length_take, min_eq_left hj, show (0 : UInt8).toNat = 0 from rfl, Nat.zero_add]

end

/-- Not empty: in the range of 300 indices from the root key of 5 every step succeeds; entry 255 is taken as a root key and
entry 254 is not. -/
example (order : List (Bytes × List VersionBytes)) (ho : order.Perm pathTable) :
    let H := hashesIL 1
    let R := Registry.init order
    let k : KeyPathRange := { keyPath := ⟨str "m", xprvKey 5⟩, startIndex := 0, endIndex := 300, keyPaths := [] }
    ∃ l a b, k.generateRange H R = ({ k with keyPaths := l }, none) ∧ l.length = 300 ∧ l[254]? = some a ∧ l[255]? = some b ∧
      (deriveBIP32Result H R a.key (str "m/0")).2 ≠ none ∧ (deriveBIP32Result H R b.key (str "m/0")).2 = none := by
  intro H R k
  have hx := xprvKey_isXprv (s := 5) (by decide) (by decide)
  have hd : (xprvKey 5).getDepth = [0] := congrArg KeyFields.depth (xprvKey_fields 5)
  have hp : pathIsValid k.keyPath.path = true := by decide +kernel
  obtain ⟨l, hl, hent⟩ := C104_entries H order ho k (by decide) hp hx (xprvKey_version _) hd
  obtain ⟨l', hl', hlen, -⟩ := (C49_range_exact H R k).2.2.2 (by decide) (xprv_nonzero hx) hp
  have hll : l' = l := by
    have := hl'.symm.trans hl
    exact congrArg (fun x => x.1.keyPaths) this
  subst hll
  have h300 : l'.length = 300 := by rw [hlen]; decide
  have hstep : ∀ q, q < 300 → ∃ vs k', vs.map UInt32.toNat = List.range' k.startIndex.toNat (q + 1) ∧
      deriveAll (Key.newChildKey H R) k.keyPath.key vs = some k' := by
    intro q hq
    obtain ⟨k', hk', -⟩ := long_paths order ho ((List.range' 0 (q + 1)).map UInt32.ofNat) (xprvKey 5) 5 hx (xprvKey_version _)
      (by
        have : 1000 < secpN := by decide
        rw [List.length_map, List.length_range']
        omega)
    refine ⟨_, k', ?_, hk'⟩
    rw [List.map_map]
    conv_rhs => rw [← List.map_id (List.range' _ _)]
    apply List.map_congr_left
    intro v hv
    rw [List.mem_range'_1] at hv
    simp only [Function.comp, id, UInt32.toNat_ofNat']
    omega
  obtain ⟨va, ka, hva, hka⟩ := hstep 254 (by decide)
  obtain ⟨vb, kb, hvb, hkb⟩ := hstep 255 (by decide)
  have ga : l'[254]? = some l'[254] := List.getElem?_eq_getElem _
  have gb : l'[255]? = some l'[255] := List.getElem?_eq_getElem _
  have hm : pathIsValid (str "m/0") = true := by decide +kernel
  refine ⟨l', _, _, hl, h300, ga, gb, ?_, ?_⟩
  · intro e
    exact absurd (((hent 254 _ ga va hva ka hka).2.2 _ hm).1 e) (by decide)
  · exact ((hent 255 _ gb vb hvb kb hkb).2.2 _ hm).2 (by decide)

end Bips
