import Verif.Lemmas.NumsFns
import Verif.Props.Bip39

/-!
# Calls running side by side (C84)

Any number of goroutines make any calls of bip39, bip32 and util, in any interleaving of their accesses to the big integers. The
word list stays the same meanwhile.
-/

namespace Bips
open Nums Spec

/-- What a call returns according to the models in which numbers are values. -/
def Nums.Call.value (H : Hashes) (S : WordState) (R : Registry) : Nums.Call → Outcome Nums.Result
  | .newMnemonic e => (Bips.newMnemonic H S e).bind fun r => .ok (.bytes r.1 r.2)
  | .entropyFromMnemonic m => (Bips.entropyFromMnemonic H S m).bind fun r => .ok (.bytes r.1 r.2)
  | .mnemonicToByteArray m raw => (Bips.mnemonicToByteArray H S m raw).bind fun r => .ok (.bytes r.1 r.2)
  | .newSeedWithErrorChecking m p => (Bips.newSeedWithErrorChecking H S m p).bind fun r => .ok (.bytes r.1 r.2)
  | .isMnemonicValid m => (Bips.isMnemonicValid H S m).bind fun b => .ok (.bool b)
  | .validatePrivateKey k => .ok (.err (Bips.validatePrivateKey k))
  | .expandPublicKey k _ _ => (Bips.expandPublicKeyGo k).bind fun q => .ok (.point q.1 q.2)
  | .newMasterKey s => .ok (.master (Bips.newMasterKey H s).1 (Bips.newMasterKey H s).2)
  | .newChildKey k i => .ok (.key (k.newChildKey H R i).1 (k.newChildKey H R i).2)
  | .publicKeyExtended k => .ok (.key (k.publicKeyExtended R) none)
  | .publicKeyHex k => .ok (.bytes (k.publicKeyHex R) none)
  | .generateMnemonic r n => (Bips.generateMnemonic H S r n).bind fun r => .ok (.bytes r.1 r.2)
  | .deriveSeedFromMnemonic m p => (Bips.deriveSeedFromMnemonic H S m p).bind fun r => .ok (.bytes r.1 r.2)
  | .rootKeyFromSeed s => (Bips.rootKeyFromSeed H s).bind fun r => .ok (.key r.1 r.2)
  | .deriveBIP32Result k p => .ok (.keyPaths (Bips.deriveBIP32Result H R k p).1 (Bips.deriveBIP32Result H R k p).2)
  | .addrHex b => .ok (.bytes (b.addrHex H R) none)
  | .addrP2SH b v => .ok (.bytes (b.addrP2SH H R v) none)
  | .generateRange k => .ok (.range (k.generateRange H R).1 (k.generateRange H R).2)

/-- What calls made one after the other return; a panic ends the goroutine. -/
def Nums.values (H : Hashes) (S : WordState) (R : Registry) : List Nums.Call → Outcome (List Nums.Result)
  | [] => .ok []
  | c :: cs => (c.value H S R).bind fun r => (Nums.values H S R cs).bind fun rs => .ok (r :: rs)

variable {H : Hashes} {S : WordState} {R : Registry}

/-! ### One goroutine alone -/

theorem Nums.call_gives (c : Nums.Call) : Gives Pkg.init (c.prog H S R) (c.value H S R) := by
  cases c with
  | newMnemonic e => exact (newMnemonic_gives e).map _
  | entropyFromMnemonic m => exact (entropyFromMnemonic_gives m).map _
  | mnemonicToByteArray m raw => exact (mnemonicToByteArray_gives m raw).map _
  | newSeedWithErrorChecking m p => exact (newSeedWithErrorChecking_gives m p).map _
  | isMnemonicValid m => exact (isMnemonicValid_gives m).map _
  | validatePrivateKey k => exact (validatePrivateKey_gives k).map _
  | newMasterKey s => exact (newMasterKey_gives s).map _
  | newChildKey k i => exact (newChildKey_gives k i).map _
  | publicKeyExtended k => exact (publicKeyExtended_gives k).map _
  | publicKeyHex k => exact (publicKeyHex_gives k).map _
  | generateMnemonic r n => exact (generateMnemonic_gives r n).map _
  | deriveSeedFromMnemonic m p => exact (deriveSeedFromMnemonic_gives m p).map _
  | rootKeyFromSeed s => exact (rootKeyFromSeed_gives s).map _
  | deriveBIP32Result k p => exact (deriveBIP32Result_gives k p).map _
  | addrHex b => exact (addrHex_gives b).map _
  | addrP2SH b v => exact (addrP2SH_gives b v).map _
  | generateRange k => exact (generateRange_gives k).map _
  | expandPublicKey k u v =>
    intro own
    cases k with
    | nil => rfl
    | cons k0 rest =>
      unfold Call.prog
      rw [wp_bind]
      refine wp_mono ?_ (expandPublicKey_wp k0 rest own)
      rintro o own' ⟨x, y, rfl, -, -, -, -, hx, hy⟩
      rw [after]
      dsimp only
      rw [wp_bind, wp_load, after, wp_bind, wp_load, after, wp_bind, wp_store, after, wp_bind, wp_store, after, wp_pure]
      rw [val, val, hx, hy]
      rfl

theorem Nums.calls_gives (cs : List Nums.Call) : Gives Pkg.init (calls H S R cs) (values H S R cs) := by
  induction cs with
  | nil => exact gives_pure _
  | cons c cs ih =>
    refine (call_gives c).bind (fun r hr => ?_) (fun h => ?_)
    · refine ih.bind (fun rs hrs => ?_) (fun h => ?_)
      · unfold values
        rw [hr, hrs]
        exact gives_pure _
      · unfold values
        rw [hr, h]
        rfl
    · unfold values
      rw [h]
      rfl

/-! ### Many goroutines -/

/-- A goroutine that will return `r`, whatever the others do. -/
def Nums.Bound (r : Outcome (List Nums.Result)) (t : Thread) : Prop :=
  wp Pkg.init t.prog (fun o _ => o = r) t.own

theorem Nums.thread_step {r : Outcome (List Nums.Result)} {t : Thread} (h : Bound r t) :
    (t.step Pkg.init).1 = Pkg.init ∧ Bound r (t.step Pkg.init).2 := by
  obtain ⟨own, prog⟩ := t
  unfold Bound at h ⊢
  cases prog with
  | done a => exact ⟨rfl, h⟩
  | panic => exact ⟨rfl, h⟩
  | new v k => exact ⟨rfl, h⟩
  | get a k => cases a <;> exact ⟨rfl, h⟩
  | set a v k => cases a with
    | pkg p => exact absurd h id
    | own i => exact ⟨rfl, h⟩

/-- The invariant of all runs. -/
structure Nums.PoolInv (H : Hashes) (S : WordState) (R : Registry) (work : List (List Nums.Call)) (c : Pool) : Prop where
  pkg : c.pkg = Pkg.init
  length : c.threads.length = work.length
  bound : ∀ (i : Nat) (cs : List Nums.Call) (t : Thread), work[i]? = some cs → c.threads[i]? = some t →
    Bound (values H S R cs) t

theorem Nums.start_inv (work : List (List Nums.Call)) : PoolInv H S R work (Pool.start H S R work) where
  pkg := rfl
  length := by simp [Pool.start]
  bound := by
    intro i cs t hw ht
    simp only [Pool.start, List.getElem?_map, hw, Option.map_some, Option.some.injEq] at ht
    subst ht
    exact calls_gives cs []

theorem Nums.step_inv {work : List (List Nums.Call)} {c : Pool} (h : PoolInv H S R work c) (i : Nat) :
    PoolInv H S R work (c.step i) := by
  unfold Pool.step
  cases ht : c.threads[i]? with
  | none => exact h
  | some t =>
    dsimp only
    have hi : i < c.threads.length := (List.getElem?_eq_some_iff.1 ht).1
    have hw : work[i]? = some (work[i]'(by rw [← h.length]; exact hi)) := List.getElem?_eq_getElem _
    have hs := thread_step (h.bound i _ t hw ht)
    rw [h.pkg]
    refine ⟨hs.1, by simpa using h.length, ?_⟩
    intro j cs u hj hu
    rw [List.getElem?_set] at hu
    split at hu
    · next hij =>
      subst hij
      rw [hw] at hj
      rw [← Option.some.inj hj, ← Option.some.inj hu]
      exact hs.2
    · exact h.bound j cs u hj hu

theorem Nums.run_inv {work : List (List Nums.Call)} {c : Pool} (h : PoolInv H S R work c) (is : List Nat) :
    PoolInv H S R work (c.run is) := by
  induction is generalizing c with
  | nil => exact h
  | cons i is ih => exact ih (step_inv h i)

/-- C84: whatever calls the goroutines make and however their accesses interleave, the numbers of the packages are never
changed, and every goroutine that is done has got from each of its calls what the call returns when it is made alone (or has
panicked at the same call). -/
theorem C84_calls (work : List (List Nums.Call)) (is : List Nat) :
    ((Pool.start H S R work).run is).pkg = Pkg.init ∧
    ∀ (i : Nat) (cs : List Nums.Call) (t : Thread), work[i]? = some cs →
      ((Pool.start H S R work).run is).threads[i]? = some t →
      (∀ rs, t.prog = .done rs → values H S R cs = .ok rs) ∧ (t.prog = .panic → values H S R cs = .panic) := by
  have h := Nums.run_inv (Nums.start_inv (H := H) (S := S) (R := R) work) is
  refine ⟨h.pkg, fun i cs t hw ht => ?_⟩
  have hb := h.bound i cs t hw ht
  obtain ⟨own, prog⟩ := t
  refine ⟨?_, ?_⟩
  · rintro rs rfl
    exact Eq.symm hb
  · rintro rfl
    exact Eq.symm hb

/-- C84, no data race: at no time is a goroutine about to overwrite a number it shares with others. -/
theorem C84_no_race (work : List (List Nums.Call)) (is : List Nat) (t : Thread)
    (ht : t ∈ ((Pool.start H S R work).run is).threads) (p : Pkg) (v : Nat) (k : Prog (List Nums.Result)) :
    t.prog ≠ .set (.pkg p) v k := by
  have h := Nums.run_inv (Nums.start_inv (H := H) (S := S) (R := R) work) is
  obtain ⟨i, hi⟩ := List.mem_iff_getElem?.1 ht
  have hl : i < work.length := by rw [← h.length]; exact (List.getElem?_eq_some_iff.1 hi).1
  have hb := h.bound i _ t (List.getElem?_eq_getElem hl) hi
  intro hp
  obtain ⟨own, prog⟩ := t
  dsimp only at hp
  subst hp
  exact hb

/-! ### Every goroutine finishes -/

/-- The number of accesses of a program run alone. -/
def Nums.steps {α : Type} (pkg : Pkg → Nat) : Prog α → List Nat → Nat
  | .done _, _ => 0
  | .panic, _ => 0
  | .new v k, own => Nums.steps pkg (k (.own own.length)) (own ++ [v]) + 1
  | .get (.pkg p) k, own => Nums.steps pkg (k (pkg p)) own + 1
  | .get (.own i) k, own => Nums.steps pkg (k (own.getD i 0)) own + 1
  | .set (.pkg _) _ k, own => Nums.steps pkg k own + 1
  | .set (.own i) v k, own => Nums.steps pkg k (own.set i v) + 1

/-- The goroutine has returned or panicked. -/
def Nums.Thread.Finished (t : Thread) : Prop := t.prog = .panic ∨ ∃ rs, t.prog = .done rs

theorem Nums.finished_of_steps {t : Thread} (h : steps Pkg.init t.prog t.own = 0) : t.Finished := by
  obtain ⟨own, prog⟩ := t
  cases prog with
  | done a => exact .inr ⟨a, rfl⟩
  | panic => exact .inl rfl
  | new v k => simp [steps] at h
  | get a k => cases a <;> simp [steps] at h
  | set a v k => cases a <;> simp [steps] at h

theorem Nums.steps_step {r : Outcome (List Nums.Result)} {t : Thread} (h : Bound r t) :
    steps Pkg.init (t.step Pkg.init).2.prog (t.step Pkg.init).2.own = steps Pkg.init t.prog t.own - 1 := by
  obtain ⟨own, prog⟩ := t
  unfold Bound at h
  cases prog with
  | done a => rfl
  | panic => rfl
  | new v k => rfl
  | get a k => cases a <;> rfl
  | set a v k => cases a with
    | pkg p => exact absurd h id
    | own i => rfl

theorem Nums.steps_run {work : List (List Nums.Call)} {c : Pool} (h : PoolInv H S R work c) (is : List Nat) {i : Nat}
    {t u : Thread} (ht : c.threads[i]? = some t) (hu : (c.run is).threads[i]? = some u) :
    steps Pkg.init u.prog u.own = steps Pkg.init t.prog t.own - is.count i := by
  induction is generalizing c t with
  | nil =>
    have : c.threads[i]? = some u := hu
    rw [ht] at this
    rw [Option.some.inj this]
    simp
  | cons j is ih =>
    have hi : i < c.threads.length := (List.getElem?_eq_some_iff.1 ht).1
    have hw : work[i]? = some (work[i]'(by rw [← h.length]; exact hi)) := List.getElem?_eq_getElem _
    by_cases hj : j = i
    · subst hj
      have hs : (c.step j).threads[j]? = some (t.step c.pkg).2 := by
        unfold Pool.step
        rw [ht]
        simp [hi]
      rw [ih (step_inv h j) hs hu, h.pkg, steps_step (h.bound j _ t hw ht), List.count_cons_self]
      omega
    · have hs : (c.step j).threads[i]? = some t := by
        unfold Pool.step
        cases hx : c.threads[j]? with
        | none => exact ht
        | some x =>
          dsimp only
          rw [List.getElem?_set_ne hj]
          exact ht
      rw [ih (step_inv h j) hs hu, List.count_cons_of_ne hj]

/-- C84, no waiting: every goroutine is done after a number of its own turns that does not depend on the others. -/
theorem C84_finishes (work : List (List Nums.Call)) (i : Nat) (cs : List Nums.Call) (hw : work[i]? = some cs) :
    ∃ n, ∀ is : List Nat, n ≤ is.count i → ∃ t, ((Pool.start H S R work).run is).threads[i]? = some t ∧
      (values H S R cs = .panic ∧ t.prog = .panic ∨ ∃ rs, values H S R cs = .ok rs ∧ t.prog = .done rs) := by
  have h0 := Nums.start_inv (H := H) (S := S) (R := R) work
  have ht : (Pool.start H S R work).threads[i]? = some ⟨[], calls H S R cs⟩ := by
    simp [Pool.start, hw]
  refine ⟨steps Pkg.init (calls H S R cs) [], fun is hn => ?_⟩
  have hinv := Nums.run_inv h0 is
  have hl : i < work.length := (List.getElem?_eq_some_iff.1 hw).1
  have hu : ((Pool.start H S R work).run is).threads[i]? =
      some (((Pool.start H S R work).run is).threads[i]'(by rw [hinv.length]; exact hl)) := List.getElem?_eq_getElem _
  refine ⟨_, hu, ?_⟩
  have hs := Nums.steps_run h0 is ht hu
  have hf := Nums.finished_of_steps (t := ((Pool.start H S R work).run is).threads[i]'(by rw [hinv.length]; exact hl))
    (by rw [hs]; dsimp only; omega)
  have hc := (C84_calls (H := H) (S := S) (R := R) work is).2 i cs _ hw hu
  rcases hf with hp | ⟨rs, hd⟩
  · exact .inl ⟨hc.2 hp, hp⟩
  · exact .inr ⟨rs, hc.1 rs hd, hd⟩

/-! ### Examples -/

/-- Two goroutines encode and decode with the same good list. Each gets its own entropy back in the end, whatever the order of
turns. (`C10_lists_good`: the shipped lists are good.) -/
example {l : List Bytes} (hg : GoodList l) (e e' : Bytes) (he : e.length = 16) (he' : e'.length = 32) :
    ∃ m m' n, ∀ is : List Nat, n ≤ is.count 0 → n ≤ is.count 1 →
      ((Pool.start H (setWordList l) R [[.newMnemonic e, .entropyFromMnemonic m],
        [.newMnemonic e', .entropyFromMnemonic m']]).run is).threads.map (·.prog) =
      [.done [.bytes m none, .bytes e none], .done [.bytes m' none, .bytes e' none]] := by
  obtain ⟨m, h1, h2, -⟩ := C01_roundtrip H hg e (by rw [he]; decide)
  obtain ⟨m', h1', h2', -⟩ := C01_roundtrip H hg e' (by rw [he']; decide)
  have hv : values H (setWordList l) R [.newMnemonic e, .entropyFromMnemonic m] =
      .ok [.bytes m none, .bytes e none] := by
    simp [values, Call.value, h1, h2, Outcome.bind]
  have hv' : values H (setWordList l) R [.newMnemonic e', .entropyFromMnemonic m'] =
      .ok [.bytes m' none, .bytes e' none] := by
    simp [values, Call.value, h1', h2', Outcome.bind]
  obtain ⟨a, ha⟩ := C84_finishes (H := H) (S := setWordList l) (R := R)
    [[.newMnemonic e, .entropyFromMnemonic m], [.newMnemonic e', .entropyFromMnemonic m']] 0 _ rfl
  obtain ⟨b, hb⟩ := C84_finishes (H := H) (S := setWordList l) (R := R)
    [[.newMnemonic e, .entropyFromMnemonic m], [.newMnemonic e', .entropyFromMnemonic m']] 1 _ rfl
  refine ⟨m, m', a + b, fun is h0 h1 => ?_⟩
  obtain ⟨t, ht, hp⟩ := ha is (by omega)
  obtain ⟨u, hu, hq⟩ := hb is (by omega)
  have hl := (Nums.run_inv (Nums.start_inv (H := H) (S := setWordList l) (R := R)
    [[.newMnemonic e, .entropyFromMnemonic m], [.newMnemonic e', .entropyFromMnemonic m']]) is).length
  generalize ((Pool.start H (setWordList l) R [[.newMnemonic e, .entropyFromMnemonic m],
    [.newMnemonic e', .entropyFromMnemonic m']]).run is).threads = ts at *
  match ts, hl with
  | [x, y], _ =>
    simp only [List.getElem?_cons_zero, Option.some.injEq] at ht
    simp only [List.getElem?_cons_succ, List.getElem?_cons_zero, Option.some.injEq] at hu
    subst ht hu
    rw [hv] at hp
    rw [hv'] at hq
    simp only [reduceCtorEq, false_and, Outcome.ok.injEq, exists_eq_left', false_or] at hp hq
    simp [hp, hq]

/-- The model can tell: a goroutine that adds 1 to the mask in place, `checksumMask.Add(checksumMask, bigOne)`, changes what
others read. -/
example : (Pool.run ⟨Pkg.init, [⟨[], do op (· + ·) (.pkg (.mask 12)) (.pkg (.mask 12)) (.pkg .bigOne); pure []⟩]⟩
    [0, 0, 0]).pkg (.mask 12) = 16 := by decide

end Bips
