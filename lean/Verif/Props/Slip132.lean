import Verif.Data.Slip132
import Verif.Spec.Slip132
import Verif.Lemmas.Registry

/-!
# C69: the registry against the SLIP-0132 document
-/

namespace Bips
open Spec

instance (w : Nat) (s : Bytes) : Decidable (FitsColumn w s) := by unfold FitsColumn; infer_instance
instance (l : Bytes) (r : SlipRow) : Decidable (ReadsAs l r) := by unfold ReadsAs; infer_instance

theorem column_injective {w : Nat} {s t : Bytes} (hs : FitsColumn w s) (ht : FitsColumn w t)
    (h : column w s = column w t) : s = t := by
  have strip : ∀ s, FitsColumn w s → ((column w s).reverse.dropWhile (· == 32)).reverse = s := by
    intro s hs
    rw [column, List.reverse_append, List.reverse_replicate]
    have e : ∀ n (l : Bytes), (List.replicate n 32 ++ l).dropWhile (· == 32) = l.dropWhile (· == 32) := by
      intro n l
      induction n with
      | zero => rfl
      | succ n ih => rw [List.replicate_succ, List.cons_append, List.dropWhile_cons_of_pos (by simp), ih]
    rw [e]
    cases hr : s.reverse with
    | nil => rw [List.reverse_eq_nil_iff.1 hr]; rfl
    | cons a l =>
      have ha : a ≠ 32 := by
        rintro rfl
        apply hs.2
        rw [List.getLast?_eq_head?_reverse, hr]; rfl
      rw [List.dropWhile_cons_of_neg (by simpa using ha), ← hr, List.reverse_reverse]
  rw [← strip s hs, ← strip t ht, h]

theorem column_length {w : Nat} {s : Bytes} (hs : FitsColumn w s) : (column w s).length = w := by
  have := hs.1
  simp [column]; omega

theorem hex_length (b : Bytes) : (hex b).length = 2 * b.length := by
  induction b with
  | nil => rfl
  | cons a b ih =>
    have : hex (a :: b) = [(str "0123456789abcdef").getD (a.toNat / 16) 0, (str "0123456789abcdef").getD (a.toNat % 16) 0] ++ hex b := rfl
    rw [this, List.length_append, ih]; simp; omega

theorem hex_injective {b c : Bytes} (h : hex b = hex c) : b = c := by
  have hd : ∀ m n : Fin 16, (str "0123456789abcdef").getD m.1 0 = (str "0123456789abcdef").getD n.1 0 → m = n := by
    decide +kernel
  induction b generalizing c with
  | nil =>
    have := congrArg List.length h
    rw [hex_length, hex_length] at this
    symm; simpa using this
  | cons a b ih =>
    cases c with
    | nil => have := congrArg List.length h; rw [hex_length, hex_length] at this; simp at this
    | cons a' c =>
      have e : ∀ (a : UInt8) b, hex (a :: b) = (str "0123456789abcdef").getD (a.toNat / 16) 0 ::
        (str "0123456789abcdef").getD (a.toNat % 16) 0 :: hex b := fun _ _ => rfl
      rw [e, e, List.cons.injEq, List.cons.injEq] at h
      have l1 := a.toNat_lt
      have l2 := a'.toNat_lt
      have h1 := congrArg Fin.val (hd ⟨a.toNat / 16, by omega⟩ ⟨a'.toNat / 16, by omega⟩ h.1)
      have h2 := congrArg Fin.val (hd ⟨a.toNat % 16, by omega⟩ ⟨a'.toNat % 16, by omega⟩ h.2.1)
      simp only at h1 h2
      rw [ih h.2.2, UInt8.toNat_inj.1 (show a.toNat = a'.toNat by omega)]

theorem ser32_injective {a b : UInt32} (h : ser32 a.toNat = ser32 b.toNat) : a = b := by
  have := congrArg setBytes h
  rw [ser32, ser32, setBytes_beBytes, setBytes_beBytes, Nat.mod_eq_of_lt (by have := a.toNat_lt; omega),
    Nat.mod_eq_of_lt (by have := b.toNat_lt; omega)] at this
  exact UInt32.toNat_inj.1 this

theorem flagColumn_length {f : UInt32} {p : Bytes} (h : p.length = 4) : (flagColumn f p).length = 23 := by
  simp [flagColumn, hex_length, ser32, h]
  decide +kernel

theorem flagColumn_injective {f g : UInt32} {p q : Bytes} (hp : p.length = 4) (hq : q.length = 4)
    (h : flagColumn f p = flagColumn g q) : f = g ∧ p = q := by
  unfold flagColumn at h
  simp only [List.append_assoc] at h
  have h := List.append_cancel_left h
  obtain ⟨h1, h⟩ := List.append_inj h (by simp [hex_length, ser32])
  have h := List.append_cancel_left h
  exact ⟨ser32_injective (hex_injective h1), (List.append_inj h (by rw [hp, hq])).1⟩

/-- **C69**, the way the document is read: no line reads as two rows. -/
theorem C69_reading (line : Bytes) (r r' : SlipRow) (h : ReadsAs line r) (h' : ReadsAs line r') : r = r' := by
  obtain ⟨a1, a2, a3, a4, a5, a6⟩ := h
  obtain ⟨b1, b2, b3, b4, b5, b6⟩ := h'
  rw [a6] at b6
  simp only [List.append_assoc] at b6
  obtain ⟨e1, b6⟩ := List.append_inj b6 (by rw [column_length a1, column_length b1])
  obtain ⟨e2, b6⟩ := List.append_inj b6 (by rw [flagColumn_length a2, flagColumn_length b2])
  obtain ⟨e3, b6⟩ := List.append_inj b6 (by rw [flagColumn_length a3, flagColumn_length b3])
  obtain ⟨e4, e5⟩ := List.append_inj b6 (by rw [column_length a4, column_length b4])
  have e1 := column_injective a1 b1 e1
  have e4 := column_injective a4 b4 e4
  have e5 := column_injective a5 b5 e5
  obtain ⟨e2, e2'⟩ := flagColumn_injective a2 b2 e2
  obtain ⟨e3, e3'⟩ := flagColumn_injective a3 b3 e3
  cases r; cases r'
  simp_all

/-- The document's words for the address encodings. -/
def encodingText : AddrEncoding → Bytes
  | .p2PKH => str "P2PKH"
  | .p2WPKH => str "P2WPKH"
  | .p2WPKHInP2SH => str "P2WPKH in P2SH"
  | .p2SH => str "P2SH"
  | .p2WSH => str "Multi-signature P2WSH"
  | .p2WSHInP2SH => str "Multi-signature P2WSH in P2SH"
  | .p2PKT => str "P2PKT"

/-- The row of an entry: alternatives are joined by "or". -/
def rowOf (v : VersionBytes) : SlipRow :=
  ⟨v.coin, v.pubKeyFlag, v.pubKeyPrefix, v.pvtKeyFlag, v.pvKeyPrefix,
    (str " or ").intercalate (v.addrEncodings.map encodingText), v.path⟩

/-- The entry is for multi-signature scripts. -/
def MultiSig (v : VersionBytes) : Prop := v.addrEncodings = [.p2WSH] ∨ v.addrEncodings = [.p2WSHInP2SH]

instance (v : VersionBytes) : Decidable (MultiSig v) := by unfold MultiSig; infer_instance

/-- The registered entries in the order of the document. -/
def documentOrder : List VersionBytes := [
  bitcoinxprvxpub, bitcoinyprvypub, bitcoinzprvzpub, bitcoinYprvYpub, bitcoinZprvZpub,
  bitcointprvtpub, bitcoinuprvupub, bitcoinvprvvpub, bitcoinUprvUpub, bitcoinVprvVpub,
  groestlcoinxprvxpub, groestlcoinyprvypub, groestlcoinzprvzpub, groestlcoinYprvYpub, groestlcoinZprvZpub,
  groestlcointprvtpub, groestlcoinuprvupub, groestlcoinvprvvpub, groestlcoinUprvUpub, groestlcoinVprvVpub,
  litecoinLtpvLtub, litecoinMtpvMtub, litecointtpvttub, nexaxprvxpub, nexaxprvxpub2, vertcoinvtcpvtcv,
  polispprvppub, syscoinzprvzpub, syscoinZprvZpub]

section
variable (order : List (Bytes × List VersionBytes)) (ho : order.Perm pathTable)
include ho

theorem documentOrder_perm : documentOrder.Perm (Registry.init order).hdVersionBytesSlice := by
  rw [init_slice]
  refine List.Perm.trans ?_ (ho.symm.flatMap_right _)
  decide +kernel

/-- **C69.** Line by line the document gives the entries of the registry, none missing and none added, with the same
coin, flags, prefixes, encodings and path; except that the document gives no path for multi-signature entries, and
P2PKT as one more encoding of Nexa Testnet. -/
theorem C69_registry : ∃ entries : List VersionBytes,
    entries.Perm (Registry.init order).hdVersionBytesSlice ∧
    List.Forall₂ (fun line v => ReadsAs line
        { rowOf v with
          path := if MultiSig v then str "-" else v.path
          encoding := if v.coin = str "Nexa Testnet" then str "P2PKT or " ++ (rowOf v).encoding else (rowOf v).encoding })
      Data.Slip132.lines entries := by
  refine ⟨documentOrder, documentOrder_perm order ho, ?_⟩
  decide +kernel

/-- **C69**, the deviations: there are nine entries to which the document gives no path, all of which the code puts on
a path of single-key wallets (BIP-84); and one Nexa Testnet entry, without P2PKT. -/
theorem C69_deviations :
    ((Registry.init order).hdVersionBytesSlice.filter (MultiSig ·)).length = 9 ∧
    (∀ v ∈ (Registry.init order).hdVersionBytesSlice, MultiSig v → str "m/84'/" <+: v.path) ∧
    (Registry.init order).hdVersionBytesSlice.filter (·.coin = str "Nexa Testnet") = [nexaxprvxpub2] ∧
    AddrEncoding.p2PKT ∉ nexaxprvxpub2.addrEncodings := by
  have hp := documentOrder_perm order ho
  refine ⟨?_, ?_, ?_, by decide⟩
  · rw [← (hp.filter _).length_eq]; decide +kernel
  · intro v hv
    rw [← hp.mem_iff] at hv
    revert v; decide +kernel
  · symm
    apply List.singleton_perm.1
    refine List.Perm.trans ?_ (hp.filter _)
    rw [show documentOrder.filter (·.coin = str "Nexa Testnet") = [nexaxprvxpub2] by decide +kernel]

end

/-- A line and the row it reads as. -/
example : ReadsAs (str "Polis                                      `0x03e25d7e` - `ppub`  `0x03e25945` - `pprv`  P2PKH                             m/44'/1997' ")
    ⟨str "Polis", 0x03e25d7e, str "ppub", 0x03e25945, str "pprv", str "P2PKH", str "m/44'/1997'"⟩ := by
  decide +kernel

end Bips
