import Verif.Props.Lang

/-!
# The sentences of the project's own tests

Written by tools/gen_mnemonics.py from bip39/bip39_test.go and bip39/example_test.go. The hash function is the real one; the seeds of the
tests are in Vectors/Seed as far as they are checked.
-/

namespace Bips.Vectors
open Spec

/-- The state after `init` (bip39/bip39.go:71-73). -/
abbrev E : WordState := setWordList english.list

/-- What the tests ask of a good vector. -/
structure Good (e m : Bytes) : Prop where
  new : newMnemonic goHashes E e = .ok (m, none)
  entropy : entropyFromMnemonic goHashes E m = .ok (e, none)
  raw : mnemonicToByteArray goHashes E m [true] = .ok (e, none)
  bytes : ∃ b, mnemonicToByteArray goHashes E m = .ok (b, none)
  seed : newSeedWithErrorChecking goHashes E m (str "TREZOR") = .ok (newSeed goHashes m (str "TREZOR"), none)
  valid : isMnemonicValid goHashes E m = .ok true

/-- What the tests ask of a bad sentence, with the error. -/
structure Bad (m : Bytes) (err : Err) : Prop where
  entropy : entropyFromMnemonic goHashes E m = .ok ([], some err)
  bytes : mnemonicToByteArray goHashes E m = .ok ([], some err)
  seed : newSeedWithErrorChecking goHashes E m (str "TREZOR") = .ok ([], some err)
  valid : isMnemonicValid goHashes E m = .ok false

theorem Good.of_new {e m : Bytes} (h : newMnemonic goHashes E e = .ok (m, none)) (h' : entropyFromMnemonic goHashes E m = .ok (e, none)) :
    Good e m := by
  have hb : ∃ b, mnemonicToByteArray goHashes E m = .ok (b, none) := by
    rw [mnemonicToByteArray, h']; exact ⟨_, rfl⟩
  refine ⟨h, h', by rw [mnemonicToByteArray, h']; rfl, hb, ?_, by rw [isMnemonicValid, h']; rfl⟩
  obtain ⟨b, hb⟩ := hb
  rw [newSeedWithErrorChecking, hb]

theorem Bad.of_entropy {m : Bytes} {err : Err} (h : entropyFromMnemonic goHashes E m = .ok ([], some err)) : Bad m err := by
  have hb : mnemonicToByteArray goHashes E m = .ok ([], some err) := by rw [mnemonicToByteArray, h]
  exact ⟨h, hb, by rw [newSeedWithErrorChecking, hb], by rw [isMnemonicValid, h]; rfl⟩

theorem good_of {e m : Bytes} (idx codes : List Nat) (he : e.length ∈ entropySizes) (hm : [32].intercalate (codes.map codeWord) = m)
    (h1 : idx.all (· < 2048) = true) (h2 : idx.map (Lang.english.codes[·]?) = codes.map some)
    (h3 : idx.flatMap (bitsN 11) = mnemonicBits goHashes.sha256 e) : Good e m := by
  have hE := encodes_of_positions .english goHashes.sha256 e idx codes h1 h2 h3
  obtain ⟨ws, w1, -, w2⟩ := C03_bip39_encoding goHashes english_list_good e he
  rw [← w2 _ hE, hm] at w1
  obtain ⟨m', m1, m2, -⟩ := C01_roundtrip goHashes english_list_good e he
  rw [w1] at m1
  obtain rfl := (Prod.mk.inj (Outcome.ok.inj m1)).1
  exact .of_new w1 m2

theorem bad_count (m : Bytes) (h : decide ((fields m).length ∈ sentenceLengths) = false) : Bad m .invalidMnemonic :=
  .of_entropy ((C04_errors goHashes english_list_good m _ (layout_fields m)).1 (of_decide_eq_false h))

theorem mem_of_positions {idx codes : List Nat} (h2 : idx.map (Lang.english.codes[·]?) = codes.map some) :
    ∀ v ∈ codes.map codeWord, v ∈ english.list := by
  intro v hv
  obtain ⟨c, hc, rfl⟩ := List.mem_map.1 hv
  have : some c ∈ idx.map (Lang.english.codes[·]?) := by rw [h2]; exact List.mem_map_of_mem hc
  obtain ⟨i, -, hi⟩ := List.mem_map.1 this
  rw [english_list]
  exact List.mem_map_of_mem (List.mem_of_getElem? hi)

theorem bad_word (m : Bytes) (idx pre : List Nat) (w : Nat) (post : List Nat)
    (hm : fields m = (pre ++ w :: post).map codeWord) (hl : decide ((pre ++ w :: post).length ∈ sentenceLengths) = true)
    (h2 : idx.map (Lang.english.codes[·]?) = pre.map some)
    (hw : (Data.English.codes.all fun n => !Nat.beq n (setBytes (codeWord w))) = true) : Bad m (.unknownWord (codeWord w)) := by
  refine .of_entropy ((C04_errors goHashes english_list_good m _ (layout_fields m)).2.1 (pre.map codeWord) (codeWord w)
    (post.map codeWord) ?_ (by rw [hm]; simp) (mem_of_positions h2) (not_english hw))
  rw [hm, List.length_map]
  exact of_decide_eq_true hl

theorem bad_checksum (m : Bytes) (idx codes : List Nat) (k : Nat) (hk1 : 4 ≤ k) (hk2 : k ≤ 8) (hm : fields m = codes.map codeWord)
    (hl : idx.length = 3 * k) (h1 : idx.all (· < 2048) = true) (h2 : idx.map (Lang.english.codes[·]?) = codes.map some)
    (hc : decide (ofDigitsBE 2048 idx % 2 ^ k =
      ((goHashes.sha256 (beBytes (4 * k) (ofDigitsBE 2048 idx / 2 ^ k))).headD 0).toNat / 2 ^ (8 - k)) = false) :
    Bad m .checksumIncorrect := by
  have := entropy_of_idx goHashes english_list_good (s := m) hk1 hk2 (idx := idx)
    (fun i hi => by simpa using List.all_eq_true.1 h1 i hi) ?_ hl
  · dsimp only at this
    rw [if_neg (of_decide_eq_false hc)] at this
    exact .of_entropy this
  · rw [hm, english_list]
    have e1 : idx.map ((Data.English.codes.map codeWord)[·]?) = (idx.map (Lang.english.codes[·]?)).map (Option.map codeWord) := by
      simp only [List.map_map, Function.comp_def, List.getElem?_map]; rfl
    rw [e1, h2]
    simp [List.map_map, Function.comp_def]

set_option maxRecDepth 100000

/-- bip39/bip39_test.go:264-265. -/
theorem good_0 : Good (beBytes 16 0x00000000000000000000000000000000) (str "abandon abandon abandon abandon abandon abandon abandon abandon abandon abandon abandon about") :=
  good_of [0, 0, 0, 0, 0, 0, 0, 0, 0, 0, 0, 3] (words! "abandon abandon abandon abandon abandon abandon abandon abandon abandon abandon abandon about") (by decide) (by decide +kernel) (by decide +kernel) (by decide +kernel)
    (by decide +kernel)

/-- bip39/bip39_test.go:269-270. -/
theorem good_1 : Good (beBytes 16 0x7f7f7f7f7f7f7f7f7f7f7f7f7f7f7f7f) (str "legal winner thank year wave sausage worth useful legal winner thank yellow") :=
  good_of [1019, 2015, 1790, 2039, 1983, 1533, 2031, 1919, 1019, 2015, 1790, 2040] (words! "legal winner thank year wave sausage worth useful legal winner thank yellow") (by decide) (by decide +kernel) (by decide +kernel) (by decide +kernel)
    (by decide +kernel)

/-- bip39/bip39_test.go:274-275. -/
theorem good_2 : Good (beBytes 16 0x80808080808080808080808080808080) (str "letter advice cage absurd amount doctor acoustic avoid letter advice cage above") :=
  good_of [1028, 32, 257, 8, 64, 514, 16, 128, 1028, 32, 257, 4] (words! "letter advice cage absurd amount doctor acoustic avoid letter advice cage above") (by decide) (by decide +kernel) (by decide +kernel) (by decide +kernel)
    (by decide +kernel)

/-- bip39/bip39_test.go:279-280. -/
theorem good_3 : Good (beBytes 16 0xffffffffffffffffffffffffffffffff) (str "zoo zoo zoo zoo zoo zoo zoo zoo zoo zoo zoo wrong") :=
  good_of [2047, 2047, 2047, 2047, 2047, 2047, 2047, 2047, 2047, 2047, 2047, 2037] (words! "zoo zoo zoo zoo zoo zoo zoo zoo zoo zoo zoo wrong") (by decide) (by decide +kernel) (by decide +kernel) (by decide +kernel)
    (by decide +kernel)

/-- bip39/bip39_test.go:284-285. -/
theorem good_4 : Good (beBytes 24 0x000000000000000000000000000000000000000000000000) (str "abandon abandon abandon abandon abandon abandon abandon abandon abandon abandon abandon abandon abandon abandon abandon abandon abandon agent") :=
  good_of [0, 0, 0, 0, 0, 0, 0, 0, 0, 0, 0, 0, 0, 0, 0, 0, 0, 39] (words! "abandon abandon abandon abandon abandon abandon abandon abandon abandon abandon abandon abandon abandon abandon abandon abandon abandon agent") (by decide) (by decide +kernel) (by decide +kernel) (by decide +kernel)
    (by decide +kernel)

/-- bip39/bip39_test.go:289-290. -/
theorem good_5 : Good (beBytes 24 0x7f7f7f7f7f7f7f7f7f7f7f7f7f7f7f7f7f7f7f7f7f7f7f7f) (str "legal winner thank year wave sausage worth useful legal winner thank year wave sausage worth useful legal will") :=
  good_of [1019, 2015, 1790, 2039, 1983, 1533, 2031, 1919, 1019, 2015, 1790, 2039, 1983, 1533, 2031, 1919, 1019, 2009] (words! "legal winner thank year wave sausage worth useful legal winner thank year wave sausage worth useful legal will") (by decide) (by decide +kernel) (by decide +kernel) (by decide +kernel)
    (by decide +kernel)

/-- bip39/bip39_test.go:294-295. -/
theorem good_6 : Good (beBytes 24 0x808080808080808080808080808080808080808080808080) (str "letter advice cage absurd amount doctor acoustic avoid letter advice cage absurd amount doctor acoustic avoid letter always") :=
  good_of [1028, 32, 257, 8, 64, 514, 16, 128, 1028, 32, 257, 8, 64, 514, 16, 128, 1028, 60] (words! "letter advice cage absurd amount doctor acoustic avoid letter advice cage absurd amount doctor acoustic avoid letter always") (by decide) (by decide +kernel) (by decide +kernel) (by decide +kernel)
    (by decide +kernel)

/-- bip39/bip39_test.go:299-300. -/
theorem good_7 : Good (beBytes 24 0xffffffffffffffffffffffffffffffffffffffffffffffff) (str "zoo zoo zoo zoo zoo zoo zoo zoo zoo zoo zoo zoo zoo zoo zoo zoo zoo when") :=
  good_of [2047, 2047, 2047, 2047, 2047, 2047, 2047, 2047, 2047, 2047, 2047, 2047, 2047, 2047, 2047, 2047, 2047, 2001] (words! "zoo zoo zoo zoo zoo zoo zoo zoo zoo zoo zoo zoo zoo zoo zoo zoo zoo when") (by decide) (by decide +kernel) (by decide +kernel) (by decide +kernel)
    (by decide +kernel)

/-- bip39/bip39_test.go:304-305. -/
theorem good_8 : Good (beBytes 32 0x0000000000000000000000000000000000000000000000000000000000000000) (str "abandon abandon abandon abandon abandon abandon abandon abandon abandon abandon abandon abandon abandon abandon abandon abandon abandon abandon abandon abandon abandon abandon abandon art") :=
  good_of [0, 0, 0, 0, 0, 0, 0, 0, 0, 0, 0, 0, 0, 0, 0, 0, 0, 0, 0, 0, 0, 0, 0, 102] (words! "abandon abandon abandon abandon abandon abandon abandon abandon abandon abandon abandon abandon abandon abandon abandon abandon abandon abandon abandon abandon abandon abandon abandon art") (by decide) (by decide +kernel) (by decide +kernel) (by decide +kernel)
    (by decide +kernel)

/-- bip39/bip39_test.go:309-310. -/
theorem good_9 : Good (beBytes 32 0x7f7f7f7f7f7f7f7f7f7f7f7f7f7f7f7f7f7f7f7f7f7f7f7f7f7f7f7f7f7f7f7f) (str "legal winner thank year wave sausage worth useful legal winner thank year wave sausage worth useful legal winner thank year wave sausage worth title") :=
  good_of [1019, 2015, 1790, 2039, 1983, 1533, 2031, 1919, 1019, 2015, 1790, 2039, 1983, 1533, 2031, 1919, 1019, 2015, 1790, 2039, 1983, 1533, 2031, 1815] (words! "legal winner thank year wave sausage worth useful legal winner thank year wave sausage worth useful legal winner thank year wave sausage worth title") (by decide) (by decide +kernel) (by decide +kernel) (by decide +kernel)
    (by decide +kernel)

/-- bip39/bip39_test.go:314-315. -/
theorem good_10 : Good (beBytes 32 0x8080808080808080808080808080808080808080808080808080808080808080) (str "letter advice cage absurd amount doctor acoustic avoid letter advice cage absurd amount doctor acoustic avoid letter advice cage absurd amount doctor acoustic bless") :=
  good_of [1028, 32, 257, 8, 64, 514, 16, 128, 1028, 32, 257, 8, 64, 514, 16, 128, 1028, 32, 257, 8, 64, 514, 16, 189] (words! "letter advice cage absurd amount doctor acoustic avoid letter advice cage absurd amount doctor acoustic avoid letter advice cage absurd amount doctor acoustic bless") (by decide) (by decide +kernel) (by decide +kernel) (by decide +kernel)
    (by decide +kernel)

/-- bip39/bip39_test.go:319-320. -/
theorem good_11 : Good (beBytes 32 0xffffffffffffffffffffffffffffffffffffffffffffffffffffffffffffffff) (str "zoo zoo zoo zoo zoo zoo zoo zoo zoo zoo zoo zoo zoo zoo zoo zoo zoo zoo zoo zoo zoo zoo zoo vote") :=
  good_of [2047, 2047, 2047, 2047, 2047, 2047, 2047, 2047, 2047, 2047, 2047, 2047, 2047, 2047, 2047, 2047, 2047, 2047, 2047, 2047, 2047, 2047, 2047, 1967] (words! "zoo zoo zoo zoo zoo zoo zoo zoo zoo zoo zoo zoo zoo zoo zoo zoo zoo zoo zoo zoo zoo zoo zoo vote") (by decide) (by decide +kernel) (by decide +kernel) (by decide +kernel)
    (by decide +kernel)

/-- bip39/bip39_test.go:324-325. -/
theorem good_12 : Good (beBytes 16 0x77c2b00716cec7213839159e404db50d) (str "jelly better achieve collect unaware mountain thought cargo oxygen act hood bridge") :=
  good_of [958, 172, 14, 364, 1891, 1156, 1799, 277, 1266, 19, 874, 222] (words! "jelly better achieve collect unaware mountain thought cargo oxygen act hood bridge") (by decide) (by decide +kernel) (by decide +kernel) (by decide +kernel)
    (by decide +kernel)

/-- bip39/bip39_test.go:329-330. -/
theorem good_13 : Good (beBytes 24 0xb63a9c59a6e641f288ebc103017f1da9f8290b3da6bdef7b) (str "renew stay biology evidence goat welcome casual join adapt armor shuffle fault little machine walk stumble urge swap") :=
  good_of [1457, 1703, 179, 622, 800, 1994, 285, 961, 24, 95, 1595, 671, 1044, 1068, 1972, 1725, 1915, 1754] (words! "renew stay biology evidence goat welcome casual join adapt armor shuffle fault little machine walk stumble urge swap") (by decide) (by decide +kernel) (by decide +kernel) (by decide +kernel)
    (by decide +kernel)

/-- bip39/bip39_test.go:334-335. -/
theorem good_14 : Good (beBytes 32 0x3e141609b97933b66a060dcddc71fad1d91677db872031e85f4c015c5e7e8982) (str "dignity pass list indicate nasty swamp pool script soccer toe leaf photo multiply desk host tomato cradle drill spread actor shine dismiss champion exotic") :=
  good_of [496, 1285, 1043, 919, 1177, 1753, 1344, 1549, 1646, 1820, 1013, 1309, 1163, 479, 880, 1824, 399, 535, 1688, 21, 1583, 506, 304, 640] (words! "dignity pass list indicate nasty swamp pool script soccer toe leaf photo multiply desk host tomato cradle drill spread actor shine dismiss champion exotic") (by decide) (by decide +kernel) (by decide +kernel) (by decide +kernel)
    (by decide +kernel)

/-- bip39/bip39_test.go:339-340. -/
theorem good_15 : Good (beBytes 16 0x0460ef47585604c5660618db2e6a7e7f) (str "afford alter spike radar gate glance object seek swamp infant panel yellow") :=
  good_of [35, 59, 1678, 1413, 770, 789, 1216, 1560, 1753, 922, 1276, 2040] (words! "afford alter spike radar gate glance object seek swamp infant panel yellow") (by decide) (by decide +kernel) (by decide +kernel) (by decide +kernel)
    (by decide +kernel)

/-- bip39/bip39_test.go:344-345. -/
theorem good_16 : Good (beBytes 24 0x72f60ebac5dd8add8d2a25a797102c3ce21bc029c200076f) (str "indicate race push merry suffer human cruise dwarf pole review arch keep canvas theme poem divorce alter left") :=
  good_of [919, 1411, 1397, 1117, 1733, 886, 421, 549, 1340, 1476, 88, 974, 269, 1792, 1336, 512, 59, 1017] (words! "indicate race push merry suffer human cruise dwarf pole review arch keep canvas theme poem divorce alter left") (by decide) (by decide +kernel) (by decide +kernel) (by decide +kernel)
    (by decide +kernel)

/-- bip39/bip39_test.go:349-350. -/
theorem good_17 : Good (beBytes 32 0x2c85efc7f24ee4573d2b81a6ec66cee209b2dcbd09d8eddc51e0215b0b68e416) (str "clutch control vehicle tonight unusual clog visa ice plunge glimpse recipe series open hour vintage deposit universe tip job dress radar refuse motion taste") :=
  good_of [356, 379, 1935, 1828, 1906, 348, 1957, 897, 1335, 793, 1437, 1568, 1241, 882, 1953, 472, 1902, 1812, 960, 533, 1413, 1443, 1154, 1777] (words! "clutch control vehicle tonight unusual clog visa ice plunge glimpse recipe series open hour vintage deposit universe tip job dress radar refuse motion taste") (by decide) (by decide +kernel) (by decide +kernel) (by decide +kernel)
    (by decide +kernel)

/-- bip39/bip39_test.go:354-355. -/
theorem good_18 : Good (beBytes 16 0xeaebabb2383351fd31d703840b32e9e2) (str "turtle front uncle idea crush write shrug there lottery flower risk shell") :=
  good_of [1879, 746, 1892, 899, 424, 2036, 1594, 1795, 1056, 716, 1491, 1579] (words! "turtle front uncle idea crush write shrug there lottery flower risk shell") (by decide) (by decide +kernel) (by decide +kernel) (by decide +kernel)
    (by decide +kernel)

/-- bip39/bip39_test.go:359-360. -/
theorem good_19 : Good (beBytes 24 0x7ac45cfe7722ee6c7ba84fbc2d5bd61b45cb2fe5eb65aa78) (str "kiss carry display unusual confirm curtain upgrade antique rotate hello void custom frequent obey nut hole price segment") :=
  good_of [982, 279, 508, 1906, 375, 433, 1909, 79, 1505, 854, 1964, 436, 741, 1215, 1213, 869, 1363, 1561] (words! "kiss carry display unusual confirm curtain upgrade antique rotate hello void custom frequent obey nut hole price segment") (by decide) (by decide +kernel) (by decide +kernel) (by decide +kernel)
    (by decide +kernel)

/-- bip39/bip39_test.go:364-365. -/
theorem good_20 : Good (beBytes 32 0x4fa1a8bc3e6d80ee1316050e862c1812031493212b7ec3f3bb1b08f168cabeef) (str "exile ask congress lamp submit jacket era scheme attend cousin alcohol catch course end lucky hurt sentence oven short ball bird grab wing top") :=
  good_of [637, 106, 376, 998, 1728, 952, 610, 1541, 116, 395, 48, 288, 394, 588, 1061, 894, 1567, 1262, 1590, 143, 180, 810, 2013, 1831] (words! "exile ask congress lamp submit jacket era scheme attend cousin alcohol catch course end lucky hurt sentence oven short ball bird grab wing top") (by decide) (by decide +kernel) (by decide +kernel) (by decide +kernel)
    (by decide +kernel)

/-- bip39/bip39_test.go:369-370. -/
theorem good_21 : Good (beBytes 16 0x18ab19a9f54a9274f03e5209a2ac8a91) (str "board flee heavy tunnel powder denial science ski answer betray cargo cat") :=
  good_of [197, 710, 851, 1876, 1353, 467, 1543, 1618, 77, 171, 277, 286] (words! "board flee heavy tunnel powder denial science ski answer betray cargo cat") (by decide) (by decide +kernel) (by decide +kernel) (by decide +kernel)
    (by decide +kernel)

/-- bip39/bip39_test.go:374-375. -/
theorem good_22 : Good (beBytes 24 0x18a2e1d81b8ecfb2a333adcb0c17a5b9eb76cc5d05db91a4) (str "board blade invite damage undo sun mimic interest slam gaze truly inherit resist great inject rocket museum chief") :=
  good_of [197, 184, 944, 440, 1895, 1738, 1126, 941, 1624, 773, 1867, 926, 1467, 817, 928, 1499, 1165, 318] (words! "board blade invite damage undo sun mimic interest slam gaze truly inherit resist great inject rocket museum chief") (by decide) (by decide +kernel) (by decide +kernel) (by decide +kernel)
    (by decide +kernel)

/-- bip39/bip39_test.go:379-380. -/
theorem good_23 : Good (beBytes 32 0x15da872c95a13dd738fbf50e427583ad61f18fd99f628c417a61cf8343c90419) (str "beyond stage sleep clip because twist token leaf atom beauty genius food business side grid unable middle armed observe pair crouch tonight away coconut") :=
  good_of [174, 1697, 1625, 346, 158, 1884, 1823, 1013, 114, 157, 775, 726, 248, 1599, 819, 1890, 1122, 94, 1219, 1272, 417, 1828, 131, 359] (words! "beyond stage sleep clip because twist token leaf atom beauty genius food business side grid unable middle armed observe pair crouch tonight away coconut") (by decide) (by decide +kernel) (by decide +kernel) (by decide +kernel)
    (by decide +kernel)

/-- bip39/example_test.go:10-21. -/
theorem good_24 : Good (beBytes 32 0x066dca1a2bb7e8a1db2832148ce9933eea0f3ac9548d793112d9a95c9407efad) (str "all hour make first leader extend hole alien behind guard gospel lava path output census museum junior mass reopen famous sing advance salt reform") :=
  good_of [51, 882, 1076, 699, 1012, 647, 869, 50, 164, 826, 806, 1006, 1287, 1259, 298, 1165, 969, 1092, 1459, 661, 1610, 31, 1525, 1442] (words! "all hour make first leader extend hole alien behind guard gospel lava path output census museum junior mass reopen famous sing advance salt reform") (by decide) (by decide +kernel) (by decide +kernel) (by decide +kernel)
    (by decide +kernel)

/-- bip39/bip39_test.go:92. -/
theorem bad_0 : Bad (str "abandon abandon abandon abandon abandon abandon abandon abandon abandon abandon abandon yellow") .checksumIncorrect :=
  bad_checksum _ [0, 0, 0, 0, 0, 0, 0, 0, 0, 0, 0, 2040] (words! "abandon abandon abandon abandon abandon abandon abandon abandon abandon abandon abandon yellow") 4 (by decide) (by decide) (by decide +kernel) rfl
    (by decide +kernel) (by decide +kernel) (by decide +kernel)

/-- bip39/bip39_test.go:96. -/
theorem bad_1 : Bad (str "abandon abandon abandon abandon abandon abandon abandon abandon abandon abandon angry") .invalidMnemonic := bad_count _ (by decide +kernel)

/-- bip39/bip39_test.go:236. -/
theorem bad_2 : Bad (str "a a a a a a a a a a a a a a a a a a a a a a a a a") .invalidMnemonic := bad_count _ (by decide +kernel)

/-- bip39/bip39_test.go:237. -/
theorem bad_3 : Bad (str "a") .invalidMnemonic := bad_count _ (by decide +kernel)

/-- bip39/bip39_test.go:238. -/
theorem bad_4 : Bad (str "a a a a a a a a a a a a a a") .invalidMnemonic := bad_count _ (by decide +kernel)

/-- bip39/bip39_test.go:388. -/
theorem bad_5 : Bad (str "abandon abandon abandon abandon abandon abandon abandon abandon abandon abandon abandon") .invalidMnemonic := bad_count _ (by decide +kernel)

/-- bip39/bip39_test.go:389. -/
theorem bad_6 : Bad (str "legal winner thank year wave sausage worth useful legal winner thank yellow yellow") .invalidMnemonic := bad_count _ (by decide +kernel)

/-- bip39/bip39_test.go:390. -/
theorem bad_7 : Bad (str "letter advice cage absurd amount doctor acoustic avoid letter advice caged above") (.unknownWord (str "caged")) :=
  bad_word _ [1028, 32, 257, 8, 64, 514, 16, 128, 1028, 32] (words! "letter advice cage absurd amount doctor acoustic avoid letter advice") 426835928420
    (words! "above") (by decide +kernel) (by decide) (by decide +kernel) (by decide +kernel)

/-- bip39/bip39_test.go:391. -/
theorem bad_8 : Bad (str "zoo zoo zoo zoo zoo zoo zoo zoo zoo zoo zoo, wrong") (.unknownWord (str "zoo,")) :=
  bad_word _ [2047, 2047, 2047, 2047, 2047, 2047, 2047, 2047, 2047, 2047] (words! "zoo zoo zoo zoo zoo zoo zoo zoo zoo zoo") 2054123308
    (words! "wrong") (by decide +kernel) (by decide) (by decide +kernel) (by decide +kernel)

/-- bip39/bip39_test.go:392. -/
theorem bad_9 : Bad (str "abandon abandon abandon abandon abandon abandon abandon abandon abandon abandon abandon abandon abandon abandon abandon abandon abandon") .invalidMnemonic := bad_count _ (by decide +kernel)

/-- bip39/bip39_test.go:393. -/
theorem bad_10 : Bad (str "legal winner thank year wave sausage worth useful legal winner thank year wave sausage worth useful legal will will will") .invalidMnemonic := bad_count _ (by decide +kernel)

/-- bip39/bip39_test.go:394. -/
theorem bad_11 : Bad (str "letter advice cage absurd amount doctor acoustic avoid letter advice cage absurd amount doctor acoustic avoid letter always.") (.unknownWord (str "always.")) :=
  bad_word _ [1028, 32, 257, 8, 64, 514, 16, 128, 1028, 32, 257, 8, 64, 514, 16, 128, 1028] (words! "letter advice cage absurd amount doctor acoustic avoid letter advice cage absurd amount doctor acoustic avoid letter") 27422332733190958
    (words! "") (by decide +kernel) (by decide) (by decide +kernel) (by decide +kernel)

/-- bip39/bip39_test.go:395. -/
theorem bad_12 : Bad (str "zoo zoo zoo zoo zoo zoo zoo zoo zoo zoo zoo zoo zoo zoo zoo zoo zoo why") (.unknownWord (str "why")) :=
  bad_word _ [2047, 2047, 2047, 2047, 2047, 2047, 2047, 2047, 2047, 2047, 2047, 2047, 2047, 2047, 2047, 2047, 2047] (words! "zoo zoo zoo zoo zoo zoo zoo zoo zoo zoo zoo zoo zoo zoo zoo zoo zoo") 7825529
    (words! "") (by decide +kernel) (by decide) (by decide +kernel) (by decide +kernel)

/-- bip39/bip39_test.go:396. -/
theorem bad_13 : Bad (str "abandon abandon abandon abandon abandon abandon abandon abandon abandon abandon abandon abandon abandon abandon abandon abandon abandon abandon abandon abandon abandon abandon abandon art art") .invalidMnemonic := bad_count _ (by decide +kernel)

/-- bip39/bip39_test.go:397. -/
theorem bad_14 : Bad (str "legal winner thank year wave sausage worth useful legal winner thanks year wave worth useful legal winner thank year wave sausage worth title") .invalidMnemonic := bad_count _ (by decide +kernel)

/-- bip39/bip39_test.go:398. -/
theorem bad_15 : Bad (str "letter advice cage absurd amount doctor acoustic avoid letters advice cage absurd amount doctor acoustic avoid letter advice cage absurd amount doctor acoustic bless") (.unknownWord (str "letters")) :=
  bad_word _ [1028, 32, 257, 8, 64, 514, 16, 128] (words! "letter advice cage absurd amount doctor acoustic avoid") 30510848328168051
    (words! "advice cage absurd amount doctor acoustic avoid letter advice cage absurd amount doctor acoustic bless") (by decide +kernel) (by decide) (by decide +kernel) (by decide +kernel)

/-- bip39/bip39_test.go:399. -/
theorem bad_16 : Bad (str "zoo zoo zoo zoo zoo zoo zoo zoo zoo zoo zoo zoo zoo zoo zoo zoo zoo zoo zoo zoo zoo zoo zoo voted") (.unknownWord (str "voted")) :=
  bad_word _ [2047, 2047, 2047, 2047, 2047, 2047, 2047, 2047, 2047, 2047, 2047, 2047, 2047, 2047, 2047, 2047, 2047, 2047, 2047, 2047, 2047, 2047, 2047] (words! "zoo zoo zoo zoo zoo zoo zoo zoo zoo zoo zoo zoo zoo zoo zoo zoo zoo zoo zoo zoo zoo zoo zoo") 508676040036
    (words! "") (by decide +kernel) (by decide) (by decide +kernel) (by decide +kernel)

/-- bip39/bip39_test.go:400. -/
theorem bad_17 : Bad (str "jello better achieve collect unaware mountain thought cargo oxygen act hood bridge") (.unknownWord (str "jello")) :=
  bad_word _ [] (words! "") 456968137839
    (words! "better achieve collect unaware mountain thought cargo oxygen act hood bridge") (by decide +kernel) (by decide) (by decide +kernel) (by decide +kernel)

/-- bip39/bip39_test.go:401. -/
theorem bad_18 : Bad (str "renew, stay, biology, evidence, goat, welcome, casual, join, adapt, armor, shuffle, fault, little, machine, walk, stumble, urge, swap") (.unknownWord (str "renew,")) :=
  bad_word _ [] (words! "") 125779969406764
    (words! "stay, biology, evidence, goat, welcome, casual, join, adapt, armor, shuffle, fault, little, machine, walk, stumble, urge, swap") (by decide +kernel) (by decide) (by decide +kernel) (by decide +kernel)

/-- bip39/bip39_test.go:402. -/
theorem bad_19 : Bad (str "dignity pass list indicate nasty") .invalidMnemonic := bad_count _ (by decide +kernel)

/-- bip39/bip39_test.go:405. -/
theorem bad_20 : Bad (str "abandon abandon abandon abandon abandon abandon abandon abandon abandon abandon abandon letter") .checksumIncorrect :=
  bad_checksum _ [0, 0, 0, 0, 0, 0, 0, 0, 0, 0, 0, 1028] (words! "abandon abandon abandon abandon abandon abandon abandon abandon abandon abandon abandon letter") 4 (by decide) (by decide) (by decide +kernel) rfl
    (by decide +kernel) (by decide +kernel) (by decide +kernel)

/-- bip39/bip39_test.go:54-57. -/
theorem empty_entropy : newMnemonic goHashes E [] = .ok ([], some .entropyLengthInvalid) := rfl

theorem index_none (l : List Bytes) (w : Bytes) (h : w ∉ l) : getWordIndex (setWordList l) w = (0, false) := by
  rw [getWordIndex, (setWordList_map_none l w).2 h]

/-- bip39/bip39_test.go:30-34: no words of the list. -/
theorem no_words : getWordIndex E (str "a") = (0, false) ∧ getWordIndex E (str "set") = (0, false) ∧
    getWordIndex E (str "of") = (0, false) ∧ getWordIndex E (str "invalid") = (0, false) ∧ getWordIndex E (str "words") = (0, false) :=
  ⟨index_none _ _ (not_english (by decide +kernel)), index_none _ _ (not_english (by decide +kernel)),
    index_none _ _ (not_english (by decide +kernel)), index_none _ _ (not_english (by decide +kernel)),
    index_none _ _ (not_english (by decide +kernel))⟩

/-- bip39/bip39_test.go:141-146. -/
theorem pad : padByteSlice [] 1 = [0] ∧ padByteSlice [1] 2 = [0, 1] ∧ padByteSlice [1, 1] 2 = [1, 1] ∧
    padByteSlice [1, 1, 1] 2 = [1, 1, 1] := by decide

end Bips.Vectors
