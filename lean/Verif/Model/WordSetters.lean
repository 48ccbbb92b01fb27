import Verif.Model.Bip39

/-!
# Calls of `SetWordList` running concurrently (bip39/bip39.go:77-84)

Nothing is locked. Every access to `wordList` and `wordMap` is a step of its own, and steps of different calls interleave in any way
(sequentially consistent). The fatal error "concurrent map writes" and the single steps of a map write are in `MapFatal`, where C101
shows that they do not add to what is left behind. Weaker memory orders are not modelled.
-/

namespace Bips

/-- Where a call of `SetWordList` (bip39/bip39.go:77-84) is: before line 78, with its argument; before line 79; before the
evaluation of `range wordList` in line 81; in the loop, with the words left and the next index; or it has returned. -/
inductive SetterPc
  | start (list : List Bytes)
  | listed
  | made
  | loop (rest : List Bytes) (i : Nat)
  | done
  deriving DecidableEq

/-- The package variables and the running calls of `SetWordList`. -/
structure Setters where
  state : WordState
  pcs : List SetterPc

/-- The next step of call number `t` of `SetWordList` (bip39/bip39.go:78-83). The range expression is evaluated once, `wordMap`
in line 82 each time. -/
def Setters.step (c : Setters) (t : Nat) : Setters :=
  match c.pcs[t]? with
  | none => c
  | some (.start list) => ⟨⟨list, c.state.map⟩, c.pcs.set t .listed⟩
  | some .listed => ⟨⟨c.state.list, fun _ => none⟩, c.pcs.set t .made⟩
  | some .made => ⟨c.state, c.pcs.set t (.loop c.state.list 0)⟩
  | some (.loop [] _) => ⟨c.state, c.pcs.set t .done⟩
  | some (.loop (v :: vs) i) =>
    ⟨⟨c.state.list, fun w => if w = v then some i else c.state.map w⟩, c.pcs.set t (.loop vs (i + 1))⟩
  | some .done => c

/-- An execution: the calls make steps in the given order. -/
def Setters.run (c : Setters) (schedule : List Nat) : Setters := schedule.foldl Setters.step c

/-- One call of `SetWordList` (bip39/bip39.go:77-84) for each argument, none of which has begun. -/
def Setters.begin (S : WordState) (args : List (List Bytes)) : Setters := ⟨S, args.map .start⟩

/-- All calls have returned. -/
def Setters.finished (c : Setters) : Prop := ∀ p ∈ c.pcs, p = .done

end Bips
