import Verif.Model.WordRace
import Verif.Model.WordSetters

/-!
# `wordMap` under the runtime's check for concurrent use (bip39/bip39.go:77-84, 92-95, 127-136)

`WordRace` and `WordSetters` make an access to `wordMap` one step. Here it is several, as compiled by Go 1.22: the variable is loaded;
`mapassign` ends the program if another write to the map is under way, marks the map, puts the key into it, ends the program if the
mark has gone, and takes the mark away; then the value is stored. `mapaccess` ends the program if the map is marked and not empty.
These ends are fatal errors ("concurrent map writes", "concurrent map read and map write"), which `recover` does not catch. Steps of
different calls interleave in any way. Not modelled: weaker memory orders, and the moving of entries when a map grows.
-/

namespace Bips

/-- A map from words to indices, in the runtime. -/
structure GoMap where
  content : Bytes → Option Nat
  count : Nat
  writing : Bool

/-- A new map (bip39/bip39.go:79). -/
def GoMap.empty : GoMap := ⟨fun _ => none, 0, false⟩

/-- The key is put into the map, with value 0 if it is new (`mapassign_faststr`, in bip39/bip39.go:82). -/
def GoMap.assign (g : GoMap) (v : Bytes) : GoMap :=
  match g.content v with
  | some _ => g
  | none => { g with content := fun w => if w = v then some 0 else g.content w, count := g.count + 1 }

/-- The value is stored where the key is (bip39/bip39.go:82). -/
def GoMap.store (g : GoMap) (v : Bytes) (i : Nat) : GoMap :=
  { g with content := fun w => if w = v then some i else g.content w }

/-- Where a call is. The first five and `done` are as in `SetterPc`; between two of them, for the word `v` with index `i`, `vs` left,
and the map `m`: the variable is loaded, no other writer was seen, the map is marked, the key is in it, the mark is taken away
(bip39/bip39.go:82). A reader (`GetWordIndex` with one word, bip39/bip39.go:92-95; the loop of `EntropyFromMnemonic`, 127-136, which
ends at a word that is not there) has words left and the results so far, and may have loaded the variable. -/
inductive MapPc
  | start (list : List Bytes)
  | listed
  | made
  | loop (rest : List Bytes) (i : Nat)
  | loaded (v : Bytes) (vs : List Bytes) (i m : Nat)
  | entered (v : Bytes) (vs : List Bytes) (i m : Nat)
  | marked (v : Bytes) (vs : List Bytes) (i m : Nat)
  | assigned (v : Bytes) (vs : List Bytes) (i m : Nat)
  | placed (v : Bytes) (vs : List Bytes) (i m : Nat)
  | done
  | reads (ws : List Bytes) (got : List (Option Nat))
  | reading (w : Bytes) (ws : List Bytes) (got : List (Option Nat)) (m : Nat)
  deriving DecidableEq

/-- `wordList`, the maps made so far, which of them `wordMap` is, and the calls; or the program has ended with a fatal error. -/
structure MapRun where
  list : List Bytes
  maps : Nat → GoMap
  next : Nat
  cur : Nat
  pcs : List MapPc
  fatal : Bool

/-- The map `m` changed. -/
def MapRun.put (c : MapRun) (m : Nat) (g : GoMap) : MapRun := { c with maps := fun k => if k = m then g else c.maps k }

/-- Call number `t` goes on at `pc`. -/
def MapRun.goto (c : MapRun) (t : Nat) (pc : MapPc) : MapRun := { c with pcs := c.pcs.set t pc }

/-- The next step of call number `t` (bip39/bip39.go:78-83, 93, 128-132). -/
def MapRun.step (c : MapRun) (t : Nat) : MapRun :=
  if c.fatal then c
  else match c.pcs[t]? with
    | none => c
    | some (.start l) => { c with list := l }.goto t .listed
    | some .listed => ({ c with next := c.next + 1, cur := c.next }.put c.next GoMap.empty).goto t .made
    | some .made => c.goto t (.loop c.list 0)
    | some (.loop [] _) => c.goto t .done
    | some (.loop (v :: vs) i) => c.goto t (.loaded v vs i c.cur)
    | some (.loaded v vs i m) => if (c.maps m).writing then { c with fatal := true } else c.goto t (.entered v vs i m)
    | some (.entered v vs i m) => (c.put m { c.maps m with writing := !(c.maps m).writing }).goto t (.marked v vs i m)
    | some (.marked v vs i m) => (c.put m ((c.maps m).assign v)).goto t (.assigned v vs i m)
    | some (.assigned v vs i m) =>
      if (c.maps m).writing then (c.put m { c.maps m with writing := false }).goto t (.placed v vs i m) else { c with fatal := true }
    | some (.placed v vs i m) => (c.put m ((c.maps m).store v i)).goto t (.loop vs (i + 1))
    | some .done => c
    | some (.reads [] _) => c
    | some (.reads (w :: ws) got) => c.goto t (.reading w ws got c.cur)
    | some (.reading w ws got m) =>
      if (c.maps m).count ≠ 0 ∧ (c.maps m).writing then { c with fatal := true }
      else match (c.maps m).content w with
        | none => c.goto t (.reads [] (got ++ [none]))
        | some x => c.goto t (.reads ws (got ++ [some x]))

/-- An execution: the calls make steps in the given order. -/
def MapRun.run (c : MapRun) (schedule : List Nat) : MapRun := schedule.foldl MapRun.step c

/-- Calls of `SetWordList` (bip39/bip39.go:77) with the given arguments and readers looking up the given words, none of which has
begun; `wordMap` has `n` entries. -/
def MapRun.begin (S : WordState) (n : Nat) (args : List (List Bytes)) (readers : List (List Bytes)) : MapRun :=
  ⟨S.list, fun k => if k = 0 then ⟨S.map, n, false⟩ else GoMap.empty, 1, 0, args.map .start ++ readers.map (.reads · []), false⟩

/-- The call has returned. -/
def MapPc.over : MapPc → Prop
  | .done => True
  | .reads [] _ => True
  | _ => False

/-- All calls have returned. -/
def MapRun.finished (c : MapRun) : Prop := ∀ p ∈ c.pcs, p.over

/-- The words `EntropyFromMnemonic(s)` looks up as long as it finds them (bip39/bip39.go:117-136). -/
def lookedUp (s : Bytes) : List Bytes :=
  match splitMnemonicWords s with
  | (ws, true) => ws
  | (_, false) => []

/-- `EntropyFromMnemonic(s)` (bip39/bip39.go:115-165) with the given results of its lookups. -/
def entropyLookups (H : Hashes) (got : List (Option Nat)) (s : Bytes) : Outcome (Bytes × Option Err) :=
  entropyRacing H (got.map fun x _ => x) s

end Bips
