import Verif.Props.SourceSafe
import Verif.Props.SettersLang

/-!
# C125 for the shipped lists
-/

namespace Bips

open Src Spec

/-- Shipped lists agree on the positions of the words they share, but for English and French. -/
theorem shipped_agree (langs : List Lang) (hno : ¬ (Lang.english ∈ langs ∧ Lang.french ∈ langs)) (a b : Lang) (ha : a ∈ langs) (hb : b ∈ langs) (i j : Nat)
    (w : Bytes) (hi : a.file.list[i]? = some w) (hj : b.file.list[j]? = some w) : i = j := by
  by_cases hab : a = b
  · subst hab
    have := (setWordList_map_nodup a.good.nodup w i).2 hi
    rw [(setWordList_map_nodup a.good.nodup w j).2 hj] at this
    exact (Option.some.inj this).symm
  · by_cases hs : (a, b) ∈ Lang.sharing
    · simp only [Lang.sharing, List.mem_cons, List.not_mem_nil, or_false, Prod.mk.injEq] at hs
      rcases hs with ⟨rfl, rfl⟩ | ⟨rfl, rfl⟩ | ⟨rfl, rfl⟩ | ⟨rfl, rfl⟩
      · exact Lang.chinese_aligned i j w hi hj
      · exact (Lang.chinese_aligned j i w hj hi).symm
      · exact absurd ⟨ha, hb⟩ hno
      · exact absurd ⟨hb, ha⟩ hno
    · exact absurd (List.mem_of_getElem? hj) (Lang.list_disjoint a b hab hs w (List.mem_of_getElem? hi))

/-- **C125** for the lists of the package: whatever languages are set by any number of calls at the same time, a sentence made then and read then gives its
entropy or an error, unless both English and French are among them. -/
theorem C125_shipped (W : World) (L n : Nat) (hL : 32 < L) (langs : List Lang) (hno : ¬ (Lang.english ∈ langs ∧ Lang.french ∈ langs)) (a : Lang)
    (ha : a ∈ langs) (m : Nat) (cs : List (Fn × List Val)) (hcs : Usual cs) (hset : ∀ l, setCall l ∈ cs → ∃ b ∈ langs, l = b.file.list)
    (e : Bytes) (he : e.length ∈ entropySizes) (i : Nat) (hi : cs[i]? = some (.bip39_NewMnemonic, [.bytes e])) (s : Bytes)
    (hr : Gives W L (n + 3) (setWordList a.file.list) m cs i (.ok [.str s, .err none])) (k : Nat)
    (hk : cs[k]? = some (.bip39_EntropyFromMnemonic, [.str s])) (schedule : List Nat) (e' : Bytes)
    (h : ((Calls.begin W L (n + 3) (setWordList a.file.list) cs).run schedule).calls[k]? = some (.leaf (.ok [.bytes e', .err none]))) : e' = e := by
  have hin : ∀ l, InForce (setWordList a.file.list) cs l → ∃ b ∈ langs, l = b.file.list := by
    rintro l (hl | hl)
    · exact ⟨a, ha, hl⟩
    · exact hset l hl
  refine C125_roundtrip W L n (setWordList a.file.list) (fun w j h => (setWordList_map_nodup a.good.nodup w j).1 h) m cs hcs i ?_ hL ?_ e he hi s hr k hk
    schedule e' h
  · intro l hl
    obtain ⟨b, -, rfl⟩ := hin l hl
    exact b.good
  · intro l l' w x y hl hl' hx hy
    obtain ⟨b, hb, rfl⟩ := hin l hl
    obtain ⟨b', hb', rfl⟩ := hin l' hl'
    exact shipped_agree langs hno b b' hb hb' x y w hx hy

/-- Both Chinese lists, which share words, are set at the same time. -/
example (W : World) (e s : Bytes) (he : e.length ∈ entropySizes) (schedule : List Nat) (e' : Bytes)
    (cs : List (Fn × List Val))
    (hcs : cs = [setCall Lang.chineseSimplified.file.list, setCall Lang.chineseTraditional.file.list, (.bip39_NewMnemonic, [.bytes e]),
      (.bip39_EntropyFromMnemonic, [.str s])])
    (h1 : Gives W 64 3 (setWordList Lang.english.file.list) 2048 cs 2 (.ok [.str s, .err none]))
    (h2 : ((Calls.begin W 64 3 (setWordList Lang.english.file.list) cs).run schedule).calls[3]? = some (.leaf (.ok [.bytes e', .err none]))) : e' = e := by
  have hinj : ∀ a b : List Bytes, setCall a = setCall b → a = b := by
    intro a b h
    have h' : a.map Val.str = b.map Val.str := by simpa [setCall] using h
    exact List.map_injective_iff.2 (fun x y hxy => by cases hxy; rfl) h'
  have hne : ∀ (l : List Bytes) (f : Fn) vs, f ≠ .bip39_SetWordList → setCall l ≠ (f, vs) := fun l f vs hf h => hf (congrArg Prod.fst h).symm
  have h3 : cs[2]? = some (.bip39_NewMnemonic, [.bytes e]) := by rw [hcs]; rfl
  have h4 : cs[3]? = some (.bip39_EntropyFromMnemonic, [.str s]) := by rw [hcs]; rfl
  refine C125_shipped W 64 0 (by norm_num) [.english, .chineseSimplified, .chineseTraditional] (by decide) .english (by decide) 2048 cs ?_ ?_ e he 2 h3 s h1 3 h4
    schedule e' h2
  · intro c hc
    rw [hcs] at hc
    simp only [List.mem_cons, List.not_mem_nil, or_false] at hc
    rcases hc with rfl | rfl | rfl | rfl
    · exact .inl ⟨_, rfl⟩
    · exact .inl ⟨_, rfl⟩
    · exact .inr ⟨by simp, by simp⟩
    · exact .inr ⟨by simp, by simp⟩
  · intro l hl
    rw [hcs] at hl
    simp only [List.mem_cons, List.not_mem_nil, or_false] at hl
    rcases hl with h | h | h | h
    · exact ⟨.chineseSimplified, by decide, hinj _ _ h⟩
    · exact ⟨.chineseTraditional, by decide, hinj _ _ h⟩
    · exact absurd h (hne _ _ _ (by decide))
    · exact absurd h (hne _ _ _ (by decide))

end Bips
