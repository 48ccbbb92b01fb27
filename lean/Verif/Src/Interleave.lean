import Verif.Src.AccessWords
import Verif.Model.WordSetters

/-!
# Calls of translated functions running at the same time

Each call is the tree of its accesses to `wordList` and `wordMap` (`Access`); the next access is made now by one call, now by another.
-/

namespace Bips.Src

/-! ### Each access is one step -/

/-- `wordList`, `wordMap` (bip39/bip39.go:48-51) and the calls, with what they still have to do. -/
structure Calls where
  state : WordState
  calls : List (Access (List Val))

/-- Call number `t` makes its next access (bip39/bip39.go:78-82, 88, 93, 128, 208). -/
def Calls.step (c : Calls) (t : Nat) : Calls :=
  match c.calls[t]? with
  | none => c
  | some (.leaf _) => c
  | some (.readList k) => ⟨c.state, c.calls.set t (k c.state.list)⟩
  | some (.readMap w k) => ⟨c.state, c.calls.set t (k (c.state.map w))⟩
  | some (.writeList l k) => ⟨⟨l, c.state.map⟩, c.calls.set t k⟩
  | some (.newMap k) => ⟨⟨c.state.list, fun _ => none⟩, c.calls.set t k⟩
  | some (.insert w i k) => ⟨⟨c.state.list, fun x => if x = w then some i else c.state.map x⟩, c.calls.set t k⟩

/-- An execution: the calls make accesses in the given order. -/
def Calls.run (c : Calls) (schedule : List Nat) : Calls := schedule.foldl Calls.step c

/-- Calls of translated functions, none of which has begun. -/
def Calls.begin (W : World) (L n : Nat) (S : WordState) (cs : List (Fn × List Val)) : Calls := ⟨S, cs.map fun c => accRun W L n c.1 c.2⟩

/-- A call of `SetWordList` (bip39/bip39.go:77-84). Its first two variables are the package variables. -/
def setCall (list : List Bytes) : Fn × List Val := (.bip39_SetWordList, [.nil, .nil, .list (list.map .str)])

/-- A call made alone: its result and what it leaves behind. -/
def Access.alone {α : Type} : Access α → WordState → Res α × WordState
  | .leaf r, S => (r, S)
  | .readList k, S => (k S.list).alone S
  | .readMap w k, S => (k (S.map w)).alone S
  | .writeList l t, S => t.alone ⟨l, S.map⟩
  | .newMap t, S => t.alone ⟨S.list, fun _ => none⟩
  | .insert w i t, S => t.alone ⟨S.list, fun x => if x = w then some i else S.map x⟩

/-! ### An access to the map is several steps, as in `MapFatal` -/

/-- Where a call is: between two accesses, or within an access to map `m` (bip39/bip39.go:82, 93, 128; the runtime's `mapassign` and `mapaccess2`, as in
`Model/MapFatal`). -/
inductive Micro
  | at (t : Access (List Val))
  | loaded (w : Bytes) (i m : Nat) (t : Access (List Val))
  | entered (w : Bytes) (i m : Nat) (t : Access (List Val))
  | marked (w : Bytes) (i m : Nat) (t : Access (List Val))
  | assigned (w : Bytes) (i m : Nat) (t : Access (List Val))
  | placed (w : Bytes) (i m : Nat) (t : Access (List Val))
  | reading (w : Bytes) (m : Nat) (k : Option Nat → Access (List Val))

/-- `wordList` (bip39/bip39.go:48-51), the maps made so far, which of them `wordMap` is, and the calls; or the program has ended with a fatal error. -/
structure MapCalls where
  list : List Bytes
  maps : Nat → GoMap
  next : Nat
  cur : Nat
  calls : List Micro
  fatal : Bool

/-- The map `m` changed. -/
def MapCalls.put (c : MapCalls) (m : Nat) (g : GoMap) : MapCalls := { c with maps := fun k => if k = m then g else c.maps k }

/-- Call number `t` goes on at `x`. -/
def MapCalls.goto (c : MapCalls) (t : Nat) (x : Micro) : MapCalls := { c with calls := c.calls.set t x }

/-- The next step of call number `t` (bip39/bip39.go:78-82, 88, 93, 128, 208). -/
def MapCalls.step (c : MapCalls) (t : Nat) : MapCalls :=
  if c.fatal then c
  else match c.calls[t]? with
    | none => c
    | some (.at (.leaf _)) => c
    | some (.at (.writeList l k)) => { c with list := l }.goto t (.at k)
    | some (.at (.newMap k)) => ({ c with next := c.next + 1, cur := c.next }.put c.next GoMap.empty).goto t (.at k)
    | some (.at (.readList k)) => c.goto t (.at (k c.list))
    | some (.at (.insert w i k)) => c.goto t (.loaded w i c.cur k)
    | some (.loaded w i m k) => if (c.maps m).writing then { c with fatal := true } else c.goto t (.entered w i m k)
    | some (.entered w i m k) => (c.put m { c.maps m with writing := !(c.maps m).writing }).goto t (.marked w i m k)
    | some (.marked w i m k) => (c.put m ((c.maps m).assign w)).goto t (.assigned w i m k)
    | some (.assigned w i m k) =>
      if (c.maps m).writing then (c.put m { c.maps m with writing := false }).goto t (.placed w i m k) else { c with fatal := true }
    | some (.placed w i m k) => (c.put m ((c.maps m).store w i)).goto t (.at k)
    | some (.at (.readMap w k)) => c.goto t (.reading w c.cur k)
    | some (.reading w m k) =>
      if (c.maps m).count ≠ 0 ∧ (c.maps m).writing then { c with fatal := true }
      else c.goto t (.at (k ((c.maps m).content w)))

/-- An execution: the calls make steps in the given order. -/
def MapCalls.run (c : MapCalls) (schedule : List Nat) : MapCalls := schedule.foldl MapCalls.step c

/-- Calls of translated functions, none of which has begun; `wordMap` has `m` entries. -/
def MapCalls.begin (W : World) (L n : Nat) (S : WordState) (m : Nat) (cs : List (Fn × List Val)) : MapCalls :=
  ⟨S.list, fun k => if k = 0 then ⟨S.map, m, false⟩ else GoMap.empty, 1, 0, cs.map fun c => .at (accRun W L n c.1 c.2), false⟩

/-- The calls that look words up (bip39/bip39.go:92-95, 115-165, 260-263). -/
inductive Lookup
  | index (w : Bytes)
  | entropy (s : Bytes)
  | valid (s : Bytes)

/-- The call: `GetWordIndex(w)`, `EntropyFromMnemonic(s)` or `IsMnemonicValid(s)`. -/
def Lookup.call : Lookup → Fn × List Val
  | .index w => (.bip39_GetWordIndex, [.str w])
  | .entropy s => (.bip39_EntropyFromMnemonic, [.str s])
  | .valid s => (.bip39_IsMnemonicValid, [.str s])

/-- The words it looks up as long as it finds them. -/
def Lookup.words : Lookup → List Bytes
  | .index w => [w]
  | .entropy s => lookedUp s
  | .valid s => lookedUp s

/-- What it returns after these results. -/
def Lookup.result (H : Hashes) : Lookup → List (Option Nat) → Res (List Val)
  | .index _, got => let r := (got.head?).join; .ok [.int (r.getD 0), .bool r.isSome]
  | .entropy s, got => outcome (both .bytes) (entropyLookups H got s)
  | .valid s, got => outcome (fun r => [.bool r.2.isNone]) (entropyLookups H got s)

theorem acc_lookup (W : World) (L n : Nat) (r : Lookup) :
    accRun W L (n + 3) r.call.1 r.call.2 = lookups r.words [] fun got => .leaf (r.result W.H got) := by
  cases r with
  | index w =>
    refine (acc_GetWordIndex W L (n + 2) w).trans ?_
    simp only [Lookup.words, lookups]
    congr 1
    funext r
    cases r <;> rfl
  | entropy s => exact acc_EntropyFromMnemonic W L (n + 1) s
  | valid s => exact acc_IsMnemonicValid W L n s

end Bips.Src
