import Verif.Model.Bip39

/-!
# Sharing of the word list (bip39/bip39.go:77-95)

`SetWordList` stores the caller's slice header and `GetWordList` returns it, so the package and its callers share the
backing array, while `wordMap` is a copy made at the time of the call. Here slices are headers into a heap of backing
arrays.
-/

namespace Bips

/-- A slice of strings: backing array, offset, length. The capacity plays no role (nothing appends). -/
structure Slice where
  addr : Nat
  off : Nat
  len : Nat

/-- Backing arrays, and the package variables `wordList` and `wordMap`. -/
structure AliasState where
  heap : List (List Bytes)
  list : Slice
  map : Bytes → Option Nat

/-- The elements a slice shows. -/
def readSlice (heap : List (List Bytes)) (s : Slice) : List Bytes := ((heap.getD s.addr []).drop s.off).take s.len

/-- What a program can do to the shared state. -/
inductive WordOp
  /-- A composite literal, `make` or `strings.Split`: a new backing array. -/
  | alloc (ws : List Bytes)
  /-- `SetWordList(s)`. -/
  | set (s : Slice)
  /-- `s[i] = w` by a caller; panics, without effect, when `i` is out of range. -/
  | write (s : Slice) (i : Nat) (w : Bytes)

/-- One operation. -/
def WordOp.step (st : AliasState) : WordOp → AliasState
  | .alloc ws => { st with heap := st.heap ++ [ws] }
  | .set s => { st with list := s, map := fillWordMap (readSlice st.heap s) 0 fun _ => none }
  | .write s i w =>
    if i < s.len then { st with heap := st.heap.modify s.addr fun a => a.set (s.off + i) w } else st

/-- A history of operations. -/
def runOps (st : AliasState) (ops : List WordOp) : AliasState := ops.foldl WordOp.step st

/-- What `NewMnemonic`, `EntropyFromMnemonic`, … see: the current contents of the list, the map of the last
`SetWordList`. -/
def AliasState.view (st : AliasState) : WordState := ⟨readSlice st.heap st.list, st.map⟩

end Bips
