import Verif.Props.Path

/-!
# C103: editing a path

Repeated calls of `ReplaceValueAtDepth` (bip32/path.go:91-107) on one path: the last write at a depth wins, writes at
different depths commute, what was written is read back and nothing else moves, and writing back what was read changes
nothing that is read.
-/

namespace Bips
open Spec

/-- What a successful replacement on a path with components `cs` returns. -/
theorem replace_form {p : Bytes} {cs : List Comp} (hp : pathIsValid p = true) (hcs : PathText (stripSpace p) cs)
    {w : Bytes} (hsplit : splitByte 47 (stripSpace p) = w :: cs.map compBody)
    (b : UInt8) (val : UInt32) :
    replaceValueAtDepth p b val =
      if b.toNat < (cs.length + 1) % 256 then
        .ok (joinByte 47 ((w :: cs.map compBody).set b.toNat (compBody (printComp val))), none)
      else .ok (p, some .unSupportedOrInvalidPath) := by
  obtain ⟨cs', h1, hok, hv⟩ := valuesAtDepth_valid hp
  obtain rfl := pathText_unique hcs h1
  have hlen : b < UInt8.ofNat (0 :: cs.map compVal).length ↔ b.toNat < (cs.length + 1) % 256 := by
    rw [UInt8.lt_iff_toNat_lt, UInt8.toNat_ofNat']
    simp only [List.length_cons, List.length_map]
  unfold replaceValueAtDepth
  rw [hv]
  dsimp only
  by_cases hb : b.toNat < (cs.length + 1) % 256
  · have hb2 : b.toNat < cs.length + 1 := Nat.lt_of_lt_of_le hb (Nat.mod_le _ _)
    rw [if_neg (fun hn => hn (hlen.2 hb)), pathString_eq, hsplit, replaceText_eq, if_pos hb,
      if_pos (by simpa using hb2)]
  · rw [if_pos (by rw [hlen]; exact hb), if_neg hb]

/-- A replacement that succeeds and leaves a valid path: the depth is at least 1, and the components of the result are
those of `p` with one of them set. -/
theorem replace_valid {p : Bytes} {cs : List Comp} (hp : pathIsValid p = true) (hcs : PathText (stripSpace p) cs)
    {w : Bytes} (hw : w = str "m" ∨ w = str "M") (hsplit : splitByte 47 (stripSpace p) = w :: cs.map compBody)
    {b : UInt8} {val : UInt32} {q : Bytes}
    (h : replaceValueAtDepth p b val = .ok (q, none)) (hq : pathIsValid q = true) :
    1 ≤ b.toNat ∧ b.toNat < (cs.length + 1) % 256 ∧
      PathText (stripSpace q) (cs.set (b.toNat - 1) (printComp val)) ∧
      splitByte 47 (stripSpace q) = w :: (cs.set (b.toNat - 1) (printComp val)).map compBody ∧
      valuesAtDepth q = ((valuesAtDepth p).1.set b.toNat val, none) ∧
      HardenedFirst ((cs.map Comp.hardened).set (b.toNat - 1) (decide (2 ^ 31 ≤ val.toNat))) := by
  have h1 : 1 ≤ b.toNat := by
    by_contra hb
    have h0 : b = 0 := UInt8.toNat_inj.1 (by rw [Nat.lt_one_iff.1 (Nat.lt_of_not_le hb)]; rfl)
    subst h0
    rw [C40_depth_zero p q val h] at hq
    exact absurd hq (by simp)
  have h2 : b.toNat < (cs.length + 1) % 256 := by
    by_contra hb
    rw [(C40_replace_exact p cs hp hcs b val).1 hb] at h
    simp at h
  obtain ⟨q', h3, h4, h5⟩ := (C40_replace_exact p cs hp hcs b val).2 h2 h1
  rw [h] at h3
  simp only [Outcome.ok.injEq, Prod.mk.injEq, and_true] at h3
  subst h3
  have hf : HardenedFirst ((cs.map Comp.hardened).set (b.toNat - 1) (decide (2 ^ 31 ≤ val.toNat))) := by
    by_contra hn
    rw [h5 hn] at hq
    exact absurd hq (by simp)
  have hnum : ∀ c ∈ cs.set (b.toNat - 1) (printComp val), IsNumeral c.digits := by
    intro c hc
    rcases List.mem_or_eq_of_mem_set hc with hc | rfl
    · exact hcs.2.1 c hc
    · exact printComp_numeral val
  have hset : (w :: cs.map compBody).set b.toNat (compBody (printComp val)) =
      w :: (cs.set (b.toNat - 1) (printComp val)).map compBody := by
    obtain ⟨n, hn⟩ : ∃ n, b.toNat = n + 1 := ⟨b.toNat - 1, by omega⟩
    rw [hn, List.set_cons_succ, Nat.add_sub_cancel, List.map_set]
  have hqe := replace_form hp hcs hsplit b val
  rw [if_pos h2, hset, joinByte_cons_comps, h] at hqe
  simp only [Outcome.ok.injEq, Prod.mk.injEq, and_true] at hqe
  have hflags : (cs.set (b.toNat - 1) (printComp val)).map Comp.hardened =
      (cs.map Comp.hardened).set (b.toNat - 1) (decide (2 ^ 31 ≤ val.toNat)) := by
    rw [List.map_set, printComp_hardened]; rfl
  have ht : PathText q (cs.set (b.toNat - 1) (printComp val)) := by
    refine ⟨?_, hnum, by rw [hflags]; exact hf⟩
    rw [hqe]
    rcases hw with rfl | rfl
    · exact .inl rfl
    · exact .inr rfl
  have hw47 : (47 : UInt8) ∉ w := by rcases hw with rfl | rfl <;> decide
  have hsq : stripSpace q = q := stripSpace_of_pathText ht
  refine ⟨h1, h2, by rw [hsq]; exact ht, ?_, h4 hf, hf⟩
  rw [hsq, hqe, splitByte_comps _ hw47 _ hnum]

/-- A successful replacement starts from a valid path. -/
theorem replace_ok_valid {p : Bytes} {b : UInt8} {val : UInt32} {q : Bytes}
    (h : replaceValueAtDepth p b val = .ok (q, none)) : pathIsValid p = true := by
  unfold replaceValueAtDepth at h
  rcases hv : valuesAtDepth p with ⟨vals, _ | e⟩
  · simp [pathIsValid, hv]
  · rw [hv] at h
    simp at h

/-- **C103**, the last write wins: after a replacement that left a valid path, replacing at the same depth again gives the
very text the second replacement gives on the original path. -/
theorem C103_last_write (p q : Bytes) (b : UInt8) (v w : UInt32)
    (h : replaceValueAtDepth p b v = .ok (q, none)) (hq : pathIsValid q = true) :
    replaceValueAtDepth q b w = replaceValueAtDepth p b w := by
  have hp := replace_ok_valid h
  obtain ⟨cs, hcs, -, -⟩ := valuesAtDepth_valid hp
  obtain ⟨m, hm, -, hsplit⟩ := splitByte_pathText hcs
  obtain ⟨h1, h2, h3, h4, -, -⟩ := replace_valid hp hcs hm hsplit h hq
  rw [replace_form hq h3 h4 b w, replace_form hp hcs hsplit b w, List.length_set, if_pos h2, if_pos h2]
  obtain ⟨n, hn⟩ : ∃ n, b.toNat = n + 1 := ⟨b.toNat - 1, by omega⟩
  rw [hn, List.set_cons_succ, List.set_cons_succ, Nat.add_sub_cancel, List.map_set, List.set_set]

/-- **C103**, writes at different depths commute: when each of two replacements alone leaves a valid path, making them
in either order gives the same text. -/
theorem C103_commute (p q r : Bytes) (b c : UInt8) (v w : UInt32) (hbc : b ≠ c)
    (hb : replaceValueAtDepth p b v = .ok (q, none)) (hq : pathIsValid q = true)
    (hc : replaceValueAtDepth p c w = .ok (r, none)) (hr : pathIsValid r = true) :
    replaceValueAtDepth q c w = replaceValueAtDepth r b v := by
  have hp := replace_ok_valid hb
  obtain ⟨cs, hcs, -, -⟩ := valuesAtDepth_valid hp
  obtain ⟨m, hm, -, hsplit⟩ := splitByte_pathText hcs
  obtain ⟨h1, h2, h3, h4, -, -⟩ := replace_valid hp hcs hm hsplit hb hq
  obtain ⟨k1, k2, k3, k4, -, -⟩ := replace_valid hp hcs hm hsplit hc hr
  rw [replace_form hq h3 h4 c w, replace_form hr k3 k4 b v, List.length_set, List.length_set, if_pos k2, if_pos h2]
  have hne : b.toNat ≠ c.toNat := fun e => hbc (UInt8.toNat_inj.1 e)
  obtain ⟨n, hn⟩ : ∃ n, b.toNat = n + 1 := ⟨b.toNat - 1, by omega⟩
  obtain ⟨k, hk⟩ : ∃ k, c.toNat = k + 1 := ⟨c.toNat - 1, by omega⟩
  rw [hn, hk, List.set_cons_succ, List.set_cons_succ, Nat.add_sub_cancel, Nat.add_sub_cancel, List.map_set, List.map_set,
    List.set_comm _ _ (by omega)]

/-- **C103**, what was written is read back, and no other depth moves. The depths are all 256, also those at which
`ValueAtDepth` reports an error. -/
theorem C103_read_back (p q : Bytes) (b : UInt8) (v : UInt32)
    (h : replaceValueAtDepth p b v = .ok (q, none)) (hq : pathIsValid q = true) :
    valueAtDepth q b = .ok (v, none) ∧ ∀ c, c ≠ b → valueAtDepth q c = valueAtDepth p c := by
  have hp := replace_ok_valid h
  obtain ⟨cs, hcs, -, hv⟩ := valuesAtDepth_valid hp
  obtain ⟨m, hm, -, hsplit⟩ := splitByte_pathText hcs
  obtain ⟨h1, h2, -, -, h5, -⟩ := replace_valid hp hcs hm hsplit h hq
  have hlen : (valuesAtDepth p).1.length = cs.length + 1 := by rw [hv]; simp
  have hb2 : b.toNat < cs.length + 1 := Nat.lt_of_lt_of_le h2 (Nat.mod_le _ _)
  have hq2 : (valuesAtDepth q).2 = none := by rw [h5]
  have hp2 : (valuesAtDepth p).2 = none := by rw [hv]
  have hql : (valuesAtDepth q).1.length = cs.length + 1 := by rw [h5, List.length_set, hlen]
  constructor
  · obtain ⟨x, hx, hx2⟩ := ((C39_valueAtDepth_exact q b).2.1 hq2).1 (by rw [hql]; exact h2)
    rw [hx2]
    rw [h5] at hx
    simp only [List.getElem?_set_self (show b.toNat < (valuesAtDepth p).1.length by rw [hlen]; exact hb2),
      Option.some.injEq] at hx
    rw [hx]
  · intro c hc
    have hne : b.toNat ≠ c.toNat := fun e => hc (UInt8.toNat_inj.1 e).symm
    by_cases hcl : c.toNat < (cs.length + 1) % 256
    · obtain ⟨x, hx, hx2⟩ := ((C39_valueAtDepth_exact q c).2.1 hq2).1 (by rw [hql]; exact hcl)
      obtain ⟨y, hy, hy2⟩ := ((C39_valueAtDepth_exact p c).2.1 hp2).1 (by rw [hlen]; exact hcl)
      rw [hx2, hy2]
      rw [h5] at hx
      simp only [List.getElem?_set_ne hne] at hx
      rw [hx] at hy
      rw [Option.some.inj hy]
    · rw [((C39_valueAtDepth_exact q c).2.1 hq2).2 (by rw [hql]; exact hcl),
        ((C39_valueAtDepth_exact p c).2.1 hp2).2 (by rw [hlen]; exact hcl)]

/-- **C103**, writing back what was read: it succeeds at every depth from 1 that could be read. The result is a valid path
exactly when the hardened components still come first with a value of 2³¹ or more counted as hardened, and then it has
the same values at every depth. The exception is a plain number of 2³¹ or more behind a plain one
(`C103_write_back_invalid`). -/
theorem C103_write_back (p : Bytes) (cs : List Comp) (hp : pathIsValid p = true) (hcs : PathText (stripSpace p) cs)
    (b : UInt8) (v : UInt32) (hb : 1 ≤ b.toNat) (hr : valueAtDepth p b = .ok (v, none)) :
    ∃ q, replaceValueAtDepth p b v = .ok (q, none) ∧
      (pathIsValid q = true ↔
        HardenedFirst ((cs.map Comp.hardened).set (b.toNat - 1) (decide (2 ^ 31 ≤ v.toNat)))) ∧
      (pathIsValid q = true → valuesAtDepth q = valuesAtDepth p) := by
  obtain ⟨cs', hcs', -, hv⟩ := valuesAtDepth_valid hp
  obtain rfl := pathText_unique hcs hcs'
  have hlen : (valuesAtDepth p).1.length = cs.length + 1 := by rw [hv]; simp
  have hp2 : (valuesAtDepth p).2 = none := by rw [hv]
  have hb2 : b.toNat < (cs.length + 1) % 256 := by
    by_contra hn
    rw [((C39_valueAtDepth_exact p b).2.1 hp2).2 (by rw [hlen]; exact hn)] at hr
    simp at hr
  obtain ⟨x, hx, hx2⟩ := ((C39_valueAtDepth_exact p b).2.1 hp2).1 (by rw [hlen]; exact hb2)
  rw [hr] at hx2
  simp only [Outcome.ok.injEq, Prod.mk.injEq, and_true] at hx2
  subst hx2
  obtain ⟨q, h1, h2, h3⟩ := (C40_replace_exact p cs hp hcs b v).2 hb2 hb
  refine ⟨q, h1, ⟨fun hq => ?_, fun hf => ?_⟩, fun hq => ?_⟩
  · by_contra hn
    rw [h3 hn] at hq
    exact absurd hq (by simp)
  · rw [pathIsValid, h2 hf]; rfl
  · by_cases hf : HardenedFirst ((cs.map Comp.hardened).set (b.toNat - 1) (decide (2 ^ 31 ≤ v.toNat)))
    · obtain ⟨hlt, hget⟩ := List.getElem?_eq_some_iff.1 hx
      rw [h2 hf, ← hget, List.set_getElem_self, ← hp2]
    · rw [h3 hf] at hq
      exact absurd hq (by simp)

/-- **C103** on canonical texts: for every list of values with the hardened ones first (fewer than 255) and every depth
from 1 to their number, the replacement returns exactly the canonical text of the list with that value set, whatever
the new value. Writing back what is there gives the identical text. -/
theorem C103_canonical (vs : List UInt32) (hf : HardenedFirst (vs.map fun v => decide (2 ^ 31 ≤ v.toNat)))
    (hlen : vs.length < 255) (b : UInt8) (hb1 : 1 ≤ b.toNat) (hb : b.toNat ≤ vs.length) (v : UInt32) :
    replaceValueAtDepth (canonicalPath vs) b v = .ok (canonicalPath (vs.set (b.toNat - 1) v), none) ∧
      (vs[b.toNat - 1]? = some v → replaceValueAtDepth (canonicalPath vs) b v = .ok (canonicalPath vs, none)) := by
  have hmain : replaceValueAtDepth (canonicalPath vs) b v = .ok (canonicalPath (vs.set (b.toNat - 1) v), none) := by
    obtain ⟨hp, hvals⟩ := C41_print_parse vs hf
    have ht : PathText (canonicalPath vs) (vs.map printComp) := by
      refine ⟨.inl (canonicalPath_eq vs), ?_, ?_⟩
      · intro c hc
        obtain ⟨x, -, rfl⟩ := List.mem_map.1 hc
        exact printComp_numeral x
      · obtain ⟨j, k, e⟩ := hf
        refine ⟨j, k, ?_⟩
        rw [← e, List.map_map]
        apply List.map_congr_left
        intro x _
        simp only [Function.comp, printComp_hardened]
        rfl
    have hs := stripSpace_of_pathText ht
    have ht' : PathText (stripSpace (canonicalPath vs)) (vs.map printComp) := by rw [hs]; exact ht
    have hsplit : splitByte 47 (stripSpace (canonicalPath vs)) = str "m" :: (vs.map printComp).map compBody := by
      rw [hs, canonicalPath_eq]
      exact splitByte_comps _ (by decide) _ ht.2.1
    rw [replace_form hp ht' hsplit b v, if_pos (by rw [List.length_map]; omega), canonicalPath_eq]
    obtain ⟨n, hn⟩ : ∃ n, b.toNat = n + 1 := ⟨b.toNat - 1, by omega⟩
    rw [hn, List.set_cons_succ, Nat.add_sub_cancel, ← List.map_set, ← List.map_set, joinByte_cons_comps]
  refine ⟨hmain, fun hv => ?_⟩
  obtain ⟨hlt, hget⟩ := List.getElem?_eq_some_iff.1 hv
  rw [hmain, ← hget, List.set_getElem_self]

/-- The hypotheses of C103 are met: two replacements on a BIP-44 path, in both orders, and a second write at one depth. -/
example :
    replaceValueAtDepth (str " m/44'/0'/0'/0/007") 5 9 = .ok (str "m/44'/0'/0'/0/9", none) ∧
    pathIsValid (str "m/44'/0'/0'/0/9") = true ∧
    replaceValueAtDepth (str " m/44'/0'/0'/0/007") 3 0x80000002 = .ok (str "m/44'/0'/2'/0/007", none) ∧
    pathIsValid (str "m/44'/0'/2'/0/007") = true ∧
    replaceValueAtDepth (str "m/44'/0'/0'/0/9") 3 0x80000002 = .ok (str "m/44'/0'/2'/0/9", none) ∧
    replaceValueAtDepth (str "m/44'/0'/2'/0/007") 5 9 = .ok (str "m/44'/0'/2'/0/9", none) := by
  decide +kernel

/-- **C103**, where writing back fails: the value read at depth 2 of `m/0/2147483648` is accepted by the replacement,
which returns the text `m/0/0'`. -/
theorem C103_write_back_invalid :
    pathIsValid (str "m/0/2147483648") = true ∧
    valueAtDepth (str "m/0/2147483648") 2 = .ok (2147483648, none) ∧
    replaceValueAtDepth (str "m/0/2147483648") 2 2147483648 = .ok (str "m/0/0'", none) ∧
    pathIsValid (str "m/0/0'") = false := by
  decide +kernel

end Bips
