#!/usr/bin/env python3
"""Writes lean/Verif/Vectors/Mnemonic.lean: the sentences of bip39/bip39_test.go and bip39/example_test.go, without their seeds."""
import os, re

ROOT = os.path.join(os.path.dirname(os.path.abspath(__file__)), "..")
T = open("/repo/bip39/bip39_test.go").read().split("\n")
words = open("/repo/bip39/wordlists/english.go").read().split("`")[1].strip().split("\n")
pos = {w: i for i, w in enumerate(words)}

good, bad = [], []
ent = None
for n, l in enumerate(T, 1):
    m = re.search(r'entropy:\s+"([0-9a-f]+)"', l)
    if m:
        ent = (n, m.group(1))
    m = re.search(r'^\s*mnemonic:\s+"([^"]+)"', l)
    if m:
        good.append((f"bip39/bip39_test.go:{ent[0]}-{n}", ent[1], m.group(1)))
    m = re.search(r'\{mnemonic: "([^"]+)"\}', l)
    if m:
        bad.append((f"bip39/bip39_test.go:{n}", m.group(1)))
    m = re.search(r'(?:EntropyFromMnemonic|MnemonicToByteArray)\("([^"]+)"\)', l)
    if m:
        bad.append((f"bip39/bip39_test.go:{n}", m.group(1)))
    m = re.search(r'^\s*"(a(?: a)*)",', l)
    if m:
        bad.append((f"bip39/bip39_test.go:{n}", m.group(1)))
X = open("/repo/bip39/example_test.go").read()
good.append(("bip39/example_test.go:10-21", re.search(r'DecodeString\("([0-9a-f]+)"', X).group(1),
             re.search(r'NewSeed\("([^"]+)"', X).group(1)))

o = ['''import Verif.Props.Lang

/-!
# The sentences of the project's own tests

Written by tools/gen_mnemonics.py from bip39/bip39_test.go and bip39/example_test.go. The hash function is the real one; the seeds of the
tests are in Vectors/Seed as far as they are checked.
-/

namespace Bips.Vectors
open Spec

/-- The state after `init` (bip39/bip39.go:71-73). -/
abbrev E : WordState := setWordList english.list

/-- What the tests ask of a good vector. -/
structure Good (e m : Bytes) : Prop where
  new : newMnemonic goHashes E e = .ok (m, none)
  entropy : entropyFromMnemonic goHashes E m = .ok (e, none)
  raw : mnemonicToByteArray goHashes E m [true] = .ok (e, none)
  bytes : ∃ b, mnemonicToByteArray goHashes E m = .ok (b, none)
  seed : newSeedWithErrorChecking goHashes E m (str "TREZOR") = .ok (newSeed goHashes m (str "TREZOR"), none)
  valid : isMnemonicValid goHashes E m = .ok true

/-- What the tests ask of a bad sentence, with the error. -/
structure Bad (m : Bytes) (err : Err) : Prop where
  entropy : entropyFromMnemonic goHashes E m = .ok ([], some err)
  bytes : mnemonicToByteArray goHashes E m = .ok ([], some err)
  seed : newSeedWithErrorChecking goHashes E m (str "TREZOR") = .ok ([], some err)
  valid : isMnemonicValid goHashes E m = .ok false

theorem Good.of_new {e m : Bytes} (h : newMnemonic goHashes E e = .ok (m, none)) (h' : entropyFromMnemonic goHashes E m = .ok (e, none)) :
    Good e m := by
  have hb : ∃ b, mnemonicToByteArray goHashes E m = .ok (b, none) := by
    rw [mnemonicToByteArray, h']; exact ⟨_, rfl⟩
  refine ⟨h, h', by rw [mnemonicToByteArray, h']; rfl, hb, ?_, by rw [isMnemonicValid, h']; rfl⟩
  obtain ⟨b, hb⟩ := hb
  rw [newSeedWithErrorChecking, hb]

theorem Bad.of_entropy {m : Bytes} {err : Err} (h : entropyFromMnemonic goHashes E m = .ok ([], some err)) : Bad m err := by
  have hb : mnemonicToByteArray goHashes E m = .ok ([], some err) := by rw [mnemonicToByteArray, h]
  exact ⟨h, hb, by rw [newSeedWithErrorChecking, hb], by rw [isMnemonicValid, h]; rfl⟩

theorem good_of {e m : Bytes} (idx codes : List Nat) (he : e.length ∈ entropySizes) (hm : [32].intercalate (codes.map codeWord) = m)
    (h1 : idx.all (· < 2048) = true) (h2 : idx.map (Lang.english.codes[·]?) = codes.map some)
    (h3 : idx.flatMap (bitsN 11) = mnemonicBits goHashes.sha256 e) : Good e m := by
  have hE := encodes_of_positions .english goHashes.sha256 e idx codes h1 h2 h3
  obtain ⟨ws, w1, -, w2⟩ := C03_bip39_encoding goHashes english_list_good e he
  rw [← w2 _ hE, hm] at w1
  obtain ⟨m', m1, m2, -⟩ := C01_roundtrip goHashes english_list_good e he
  rw [w1] at m1
  obtain rfl := (Prod.mk.inj (Outcome.ok.inj m1)).1
  exact .of_new w1 m2

theorem bad_count (m : Bytes) (h : decide ((fields m).length ∈ sentenceLengths) = false) : Bad m .invalidMnemonic :=
  .of_entropy ((C04_errors goHashes english_list_good m _ (layout_fields m)).1 (of_decide_eq_false h))

theorem mem_of_positions {idx codes : List Nat} (h2 : idx.map (Lang.english.codes[·]?) = codes.map some) :
    ∀ v ∈ codes.map codeWord, v ∈ english.list := by
  intro v hv
  obtain ⟨c, hc, rfl⟩ := List.mem_map.1 hv
  have : some c ∈ idx.map (Lang.english.codes[·]?) := by rw [h2]; exact List.mem_map_of_mem hc
  obtain ⟨i, -, hi⟩ := List.mem_map.1 this
  rw [english_list]
  exact List.mem_map_of_mem (List.mem_of_getElem? hi)

theorem bad_word (m : Bytes) (idx pre : List Nat) (w : Nat) (post : List Nat)
    (hm : fields m = (pre ++ w :: post).map codeWord) (hl : decide ((pre ++ w :: post).length ∈ sentenceLengths) = true)
    (h2 : idx.map (Lang.english.codes[·]?) = pre.map some)
    (hw : (Data.English.codes.all fun n => !Nat.beq n (setBytes (codeWord w))) = true) : Bad m (.unknownWord (codeWord w)) := by
  refine .of_entropy ((C04_errors goHashes english_list_good m _ (layout_fields m)).2.1 (pre.map codeWord) (codeWord w)
    (post.map codeWord) ?_ (by rw [hm]; simp) (mem_of_positions h2) (not_english hw))
  rw [hm, List.length_map]
  exact of_decide_eq_true hl

theorem bad_checksum (m : Bytes) (idx codes : List Nat) (k : Nat) (hk1 : 4 ≤ k) (hk2 : k ≤ 8) (hm : fields m = codes.map codeWord)
    (hl : idx.length = 3 * k) (h1 : idx.all (· < 2048) = true) (h2 : idx.map (Lang.english.codes[·]?) = codes.map some)
    (hc : decide (ofDigitsBE 2048 idx % 2 ^ k =
      ((goHashes.sha256 (beBytes (4 * k) (ofDigitsBE 2048 idx / 2 ^ k))).headD 0).toNat / 2 ^ (8 - k)) = false) :
    Bad m .checksumIncorrect := by
  have := entropy_of_idx goHashes english_list_good (s := m) hk1 hk2 (idx := idx)
    (fun i hi => by simpa using List.all_eq_true.1 h1 i hi) ?_ hl
  · dsimp only at this
    rw [if_neg (of_decide_eq_false hc)] at this
    exact .of_entropy this
  · rw [hm, english_list]
    have e1 : idx.map ((Data.English.codes.map codeWord)[·]?) = (idx.map (Lang.english.codes[·]?)).map (Option.map codeWord) := by
      simp only [List.map_map, Function.comp_def, List.getElem?_map]; rfl
    rw [e1, h2]
    simp [List.map_map, Function.comp_def]

set_option maxRecDepth 100000
''']

def code(w):
    return int.from_bytes(w.encode(), "big")

def lst(xs):
    return "[" + ", ".join(map(str, xs)) + "]"

for i, (where, e, m) in enumerate(good):
    ws = m.split(" ")
    o.append(f'''/-- {where}. -/
theorem good_{i} : Good (beBytes {len(e)//2} 0x{e}) (str "{m}") :=
  good_of {lst(pos[w] for w in ws)} (words! "{m}") (by decide) (by decide +kernel) (by decide +kernel) (by decide +kernel)
    (by decide +kernel)
''')
seen = set()
n = 0
for where, m in bad:
    ws = m.split(" ")
    if m in seen:
        continue
    seen.add(m)
    if len(ws) not in (12, 15, 18, 21, 24):
        o.append(f'''/-- {where}. -/
theorem bad_{n} : Bad (str "{m}") .invalidMnemonic := bad_count _ (by decide +kernel)
''')
    elif any(w not in pos for w in ws):
        j = next(j for j, w in enumerate(ws) if w not in pos)
        o.append(f'''/-- {where}. -/
theorem bad_{n} : Bad (str "{m}") (.unknownWord (str "{ws[j]}")) :=
  bad_word _ {lst(pos[w] for w in ws[:j])} (words! "{' '.join(ws[:j])}") {code(ws[j])}
    (words! "{' '.join(ws[j+1:])}") (by decide +kernel) (by decide) (by decide +kernel) (by decide +kernel)
''')
    else:
        o.append(f'''/-- {where}. -/
theorem bad_{n} : Bad (str "{m}") .checksumIncorrect :=
  bad_checksum _ {lst(pos[w] for w in ws)} (words! "{m}") {len(ws)//3} (by decide) (by decide) (by decide +kernel) rfl
    (by decide +kernel) (by decide +kernel) (by decide +kernel)
''')
    n += 1
o.append('''/-- bip39/bip39_test.go:54-57. -/
theorem empty_entropy : newMnemonic goHashes E [] = .ok ([], some .entropyLengthInvalid) := rfl

theorem index_none (l : List Bytes) (w : Bytes) (h : w ∉ l) : getWordIndex (setWordList l) w = (0, false) := by
  rw [getWordIndex, (setWordList_map_none l w).2 h]

/-- bip39/bip39_test.go:30-34: no words of the list. -/
theorem no_words : getWordIndex E (str "a") = (0, false) ∧ getWordIndex E (str "set") = (0, false) ∧
    getWordIndex E (str "of") = (0, false) ∧ getWordIndex E (str "invalid") = (0, false) ∧ getWordIndex E (str "words") = (0, false) :=
  ⟨index_none _ _ (not_english (by decide +kernel)), index_none _ _ (not_english (by decide +kernel)),
    index_none _ _ (not_english (by decide +kernel)), index_none _ _ (not_english (by decide +kernel)),
    index_none _ _ (not_english (by decide +kernel))⟩

/-- bip39/bip39_test.go:141-146. -/
theorem pad : padByteSlice [] 1 = [0] ∧ padByteSlice [1] 2 = [0, 1] ∧ padByteSlice [1, 1] 2 = [1, 1] ∧
    padByteSlice [1, 1, 1] 2 = [1, 1, 1] := by decide

end Bips.Vectors
''')
open(os.path.join(ROOT, "lean/Verif/Vectors/Mnemonic.lean"), "w").write("\n".join(o))
print(len(good), "good,", n, "bad")
