import Verif.Src.Words
import Verif.Src.Tables

/-!
# The accesses to `wordList` and `wordMap` a translated function makes

`run` gives a function one word list and one word map for the whole call. Here a call is the tree of the accesses it makes to these two package
variables, one after the other; what it does next may depend on what it read. Calls that run at the same time are such trees, of which the
next access is made now here, now there.

Functions that only read the variables (`accE`, `accS`): a read of `wordList` is `.glob .wordList`, a read of `wordMap` is `.wordMapGet`.
`SetWordList`, which assigns them (`ownE`, `ownS`): variable 0 is `wordList` and variable 1 is `wordMap`, as the comment of its translation says;
the values `.var 0`, `.var 1` in its `return` stand for the package variables and are not results of the function in Go.
-/

namespace Bips.Src

/-- A computation with accesses to `wordList` and `wordMap`: it has ended; it reads the list; it looks up a word; it assigns the list; it
assigns a new map; it inserts a word into the map (bip39/bip39.go:48-51, 78-82, 88, 93, 128, 208). -/
inductive Access (α : Type)
  | leaf (r : Res α)
  | readList (k : List Bytes → Access α)
  | readMap (w : Bytes) (k : Option Nat → Access α)
  | writeList (l : List Bytes) (t : Access α)
  | newMap (t : Access α)
  | insert (w : Bytes) (i : Nat) (t : Access α)

/-- One after the other. -/
def Access.bind {α β : Type} (f : α → Access β) : Access α → Access β
  | .leaf (.ok a) => f a
  | .leaf .panic => .leaf .panic
  | .leaf .stuck => .leaf .stuck
  | .readList k => .readList fun l => (k l).bind f
  | .readMap w k => .readMap w fun r => (k r).bind f
  | .writeList l t => .writeList l (t.bind f)
  | .newMap t => .newMap (t.bind f)
  | .insert w i t => .insert w i (t.bind f)

/-- `.wordMapGet` for the result of a lookup: `idx, ok := wordMap[w]` (bip39/bip39.go:93, 128). -/
def found : Option Nat → Val
  | some i => .list [.int i, .bool true]
  | none => .list [.int 0, .bool false]

/-- An operation with its arguments; `wordMap` is read at that moment (bip39/bip39.go:93, 128). -/
def accLib (W : World) : Lib → List Val → Access Val
  | .wordMapGet, [.str w] => .readMap w fun r => .leaf (.ok (found r))
  | f, l => .leaf (libSem W f l)

/-- A package variable; `wordList` is read at that moment (bip39/bip39.go:88, 208). -/
def accGlob (W : World) : Glob → Access Val
  | .wordList => .readList fun l => .leaf (.ok (.list (l.map .str)))
  | g => .leaf (.ok (globSem W g))

/-- `eval` with its accesses. -/
def accE (W : World) : Expr → Env → Access Val
  | .var i, e => .leaf (eval W (.var i) e)
  | .lit v, _ => .leaf (.ok v)
  | .glob g, _ => accGlob W g
  | .not a, e => (accE W a e).bind fun v => .leaf ((asBool v).bind fun b => .ok (.bool (!b)))
  | .bin op a b, e => (accE W a e).bind fun v => (accE W b e).bind fun w => .leaf (binOp op v w)
  | .and a b, e => (accE W a e).bind fun v => (Access.leaf (asBool v)).bind fun c => if c then accE W b e else .leaf (.ok (.bool false))
  | .or a b, e => (accE W a e).bind fun v => (Access.leaf (asBool v)).bind fun c => if c then .leaf (.ok (.bool true)) else accE W b e
  | .nilL, _ => .leaf (.ok (.list []))
  | .cons a b, e => (accE W a e).bind fun v => (accE W b e).bind fun w => .leaf ((asList w).bind fun l => .ok (.list (v :: l)))
  | .lib f a, e => (accE W a e).bind fun v => (Access.leaf (asList v)).bind fun l => accLib W f l

/-- `Flow.andThen` with accesses. -/
def Flow.accThen (f : Flow) (g : Env → Access Flow) : Access Flow :=
  match f with
  | .next e => g e
  | .ret vs => .leaf (.ok (.ret vs))
  | .brk e => .leaf (.ok (.brk e))

/-- `Flow.again` with accesses. -/
def Flow.accAgain (f : Flow) (g : Env → Access Flow) : Access Flow :=
  match f with
  | .next e => g e
  | .ret vs => .leaf (.ok (.ret vs))
  | .brk e => .leaf (.ok (.next e))

/-- `iter` with accesses. -/
def accIter (body : Env → Access Flow) (k v : Option Nat) : Int → List Val → Env → Access Flow
  | _, [], e => .leaf (.ok (.next e))
  | i, x :: xs, e => (body (setOpt (setOpt e k (.int i)) v x)).bind fun f => f.accAgain (accIter body k v (i + 1) xs)

/-- `loop` with accesses. -/
def accLoop (cond : Env → Access Bool) (post body : Env → Access Flow) : Nat → Env → Access Flow
  | 0, _ => .leaf .stuck
  | n + 1, e => (cond e).bind fun b =>
    if b then (body e).bind fun f => f.accAgain fun e => (post e).bind fun f => f.accThen (accLoop cond post body n)
    else .leaf (.ok (.next e))

/-- `exec` with its accesses. -/
def accS (W : World) (L : Nat) (call : Fn → List Val → Access (List Val)) : Stmt → Env → Access Flow
  | .skip, e => .leaf (.ok (.next e))
  | .seq a b, e => (accS W L call a e).bind fun f => f.accThen (accS W L call b)
  | .set i x, e => (accE W x e).bind fun v => .leaf (.ok (.next (e.set i v)))
  | .setTuple is x, e => (accE W x e).bind fun v => .leaf ((asList v).bind fun vs => (setAll e (is.map some) vs).bind fun e => .ok (.next e))
  | .call is f x, e => (accE W x e).bind fun v => (Access.leaf (asList v)).bind fun vs => (call f vs).bind fun rs =>
    .leaf ((setAll e is rs).bind fun e => .ok (.next e))
  | .ite c a b, e => (accE W c e).bind fun v => (Access.leaf (asBool v)).bind fun t => if t then accS W L call a e else accS W L call b e
  | .range k v x body, e => (accE W x e).bind fun l => (Access.leaf l.items).bind fun items => accIter (accS W L call body) k v 0 items e
  | .for_ c post body, e => accLoop (fun e => (accE W c e).bind fun v => .leaf (asBool v)) (accS W L call post) (accS W L call body) L e
  | .ret x, e => (accE W x e).bind fun v => .leaf ((asList v).bind fun vs => .ok (.ret vs))
  | .brk, e => .leaf (.ok (.brk e))

/-- An expression in a function of which variable 0 is `wordList` (bip39/bip39.go:77-84). -/
def ownE (W : World) : Expr → Env → Access Val
  | .var 0, _ => .readList fun l => .leaf (.ok (.list (l.map .str)))
  | .var 1, _ => .leaf .stuck
  | x, e => .leaf (eval W x e)

/-- A statement of a function of which variable 0 is `wordList` and variable 1 is `wordMap` (bip39/bip39.go:77-84). -/
def ownS (W : World) : Stmt → Env → Access Flow
  | .seq a b, e => (ownS W a e).bind fun f => f.accThen (ownS W b)
  | .set 0 x, e => (ownE W x e).bind fun v => match v with
    | .list l => match strings l with
      | some l => .writeList l (.leaf (.ok (.next e)))
      | none => .leaf .stuck
    | _ => .leaf .stuck
  | .set 1 (.lit (.list [])), e => .newMap (.leaf (.ok (.next e)))
  | .set 1 (.lib .tableSet (.cons (.var 1) (.cons k (.cons x .nilL)))), e => (ownE W k e).bind fun k => (ownE W x e).bind fun x =>
    match k, x with
    | .str w, .int i => .insert w i.toNat (.leaf (.ok (.next e)))
    | _, _ => .leaf .stuck
  | .range k v x body, e => (ownE W x e).bind fun l => (Access.leaf l.items).bind fun items => accIter (ownS W body) k v 0 items e
  | .ret (.cons (.var 0) (.cons (.var 1) x)), e => (ownE W x e).bind fun v => .leaf ((asList v).bind fun vs => .ok (.ret vs))
  | _, _ => .leaf .stuck

/-- Calls a function: its accesses. At most `n` calls deep, each loop at most `L` rounds. -/
def accRun (W : World) (L : Nat) : Nat → Fn → List Val → Access (List Val)
  | 0, _, _ => .leaf .stuck
  | n + 1, f, args =>
    let e := args ++ pad ((code f).2 - args.length)
    (match f with
      | .bip39_SetWordList => ownS W (code f).1 e
      | _ => accS W L (accRun W L n) (code f).1 e).bind fun r => .leaf (Flow.result r)

/-! ### Rules -/

section
variable {α β : Type} (f : α → Access β) (g : Env → Access Flow) (a : α) (e : Env) (vs : List Val)

@[src] theorem acc_ok : (Access.leaf (.ok a)).bind f = f a := rfl
@[src] theorem acc_panic : (Access.leaf (.panic : Res α)).bind f = .leaf .panic := rfl
@[src] theorem acc_stuck : (Access.leaf (.stuck : Res α)).bind f = .leaf .stuck := rfl
@[src] theorem acc_readList (k : List Bytes → Access α) : (Access.readList k).bind f = .readList fun l => (k l).bind f := rfl
@[src] theorem acc_readMap (w : Bytes) (k : Option Nat → Access α) : (Access.readMap w k).bind f = .readMap w fun r => (k r).bind f := rfl
@[src] theorem acc_writeList (l : List Bytes) (t : Access α) : (Access.writeList l t).bind f = .writeList l (t.bind f) := rfl
@[src] theorem acc_newMap (t : Access α) : (Access.newMap t).bind f = .newMap (t.bind f) := rfl
@[src] theorem acc_insert (w : Bytes) (i : Nat) (t : Access α) : (Access.insert w i t).bind f = .insert w i (t.bind f) := rfl
@[src] theorem accThen_next : (Flow.next e).accThen g = g e := rfl
@[src] theorem accThen_ret : (Flow.ret vs).accThen g = .leaf (.ok (.ret vs)) := rfl
@[src] theorem accAgain_next : (Flow.next e).accAgain g = g e := rfl
@[src] theorem accAgain_ret : (Flow.ret vs).accAgain g = .leaf (.ok (.ret vs)) := rfl

theorem leaf_bind (r : Res α) (g : α → Res β) : (Access.leaf r).bind (fun a => .leaf (g a)) = .leaf (r.bind g) := by
  cases r <;> rfl

theorem bind_assoc {γ : Type} (h : β → Access γ) (t : Access α) : (t.bind f).bind h = t.bind fun a => (f a).bind h := by
  induction t with
  | leaf r => cases r <;> rfl
  | readList k ih => simp only [Access.bind, ih]
  | readMap w k ih => simp only [Access.bind, ih]
  | writeList l t ih => simp only [Access.bind, ih]
  | newMap t ih => simp only [Access.bind, ih]
  | insert w i t ih => simp only [Access.bind, ih]

end

/-! ### Computations without accesses -/

/-- The expression does not read the package variables. -/
def Expr.apart : Expr → Bool
  | .glob .wordList => false
  | .lib .wordMapGet _ => false
  | .not a => a.apart
  | .bin _ a b | .and a b | .or a b | .cons a b => a.apart && b.apart
  | .lib _ a => a.apart
  | _ => true

/-- The statement does not read the package variables, and calls only these functions. -/
def Stmt.apart (fs : Fn → Bool) : Stmt → Bool
  | .skip => true
  | .seq a b => a.apart fs && b.apart fs
  | .set _ x | .setTuple _ x | .ret x => x.apart
  | .call _ f x => fs f && x.apart
  | .ite c a b => c.apart && a.apart fs && b.apart fs
  | .range _ _ x b => x.apart && b.apart fs
  | .for_ c p b => c.apart && p.apart fs && b.apart fs
  | .brk => true

theorem accLib_apart (W : World) (f : Lib) (l : List Val) (h : f ≠ .wordMapGet) : accLib W f l = .leaf (libSem W f l) := by
  cases f <;> first | rfl | exact absurd rfl h

theorem accE_apart (W : World) (x : Expr) (e : Env) (h : x.apart = true) : accE W x e = .leaf (eval W x e) := by
  induction x with
  | var i => rfl
  | lit v => rfl
  | glob g => cases g <;> first | rfl | simp [Expr.apart] at h
  | not a ih =>
    simp only [Expr.apart] at h
    simp only [accE, eval, ih h, leaf_bind]
  | bin op a b iha ihb =>
    simp only [Expr.apart, Bool.and_eq_true] at h
    simp only [accE, eval, iha h.1, ihb h.2, leaf_bind]
  | and a b iha ihb =>
    simp only [Expr.apart, Bool.and_eq_true] at h
    simp only [accE, eval, iha h.1, ihb h.2]
    cases eval W a e with
    | ok v => cases hv : asBool v with
      | ok c => simp only [src, hv]; cases c <;> simp
      | panic => simp only [src, hv]
      | stuck => simp only [src, hv]
    | panic => rfl
    | stuck => rfl
  | or a b iha ihb =>
    simp only [Expr.apart, Bool.and_eq_true] at h
    simp only [accE, eval, iha h.1, ihb h.2]
    cases eval W a e with
    | ok v => cases hv : asBool v with
      | ok c => simp only [src, hv]; cases c <;> simp
      | panic => simp only [src, hv]
      | stuck => simp only [src, hv]
    | panic => rfl
    | stuck => rfl
  | nilL => rfl
  | cons a b iha ihb =>
    simp only [Expr.apart, Bool.and_eq_true] at h
    simp only [accE, eval, iha h.1, ihb h.2, leaf_bind]
  | lib f a ih =>
    have hf : f ≠ .wordMapGet := by rintro rfl; simp [Expr.apart] at h
    have ha : a.apart = true := by
      revert h
      cases f <;> first | exact id | exact absurd rfl hf
    simp only [accE, eval, ih ha, accLib_apart W f _ hf, leaf_bind]

theorem accThen_leaf (f : Flow) (g : Env → Res Flow) : (f.accThen fun e => .leaf (g e)) = .leaf (f.andThen g) := by cases f <;> rfl

theorem accAgain_leaf (f : Flow) (g : Env → Res Flow) : (f.accAgain fun e => .leaf (g e)) = .leaf (f.again g) := by cases f <;> rfl

theorem accIter_leaf (body : Env → Res Flow) (k v : Option Nat) (l : List Val) :
    ∀ (i : Int) (e : Env), accIter (fun e => .leaf (body e)) k v i l e = .leaf (iter body k v i l e) := by
  induction l with
  | nil => intro i e; rfl
  | cons x l ih =>
    intro i e
    have : accIter (fun e => .leaf (body e)) k v (i + 1) l = fun e => .leaf (iter body k v (i + 1) l e) := funext (ih (i + 1))
    simp only [accIter, iter, this, accAgain_leaf, leaf_bind]

theorem accLoop_leaf (c : Env → Res Bool) (p b : Env → Res Flow) (n : Nat) :
    ∀ e, accLoop (fun e => .leaf (c e)) (fun e => .leaf (p e)) (fun e => .leaf (b e)) n e = .leaf (loop c p b n e) := by
  induction n with
  | zero => intro e; rfl
  | succ n ih =>
    intro e
    have h : accLoop (fun e => .leaf (c e)) (fun e => .leaf (p e)) (fun e => .leaf (b e)) n = fun e => .leaf (loop c p b n e) := funext ih
    simp only [accLoop, loop, h, accThen_leaf, accAgain_leaf, leaf_bind]
    cases c e with
    | ok t => cases t <;> rfl
    | panic => rfl
    | stuck => rfl

theorem accS_apart (W : World) (L : Nat) (cA : Fn → List Val → Access (List Val)) (c : Fn → List Val → Res (List Val)) (fs : Fn → Bool)
    (hc : ∀ f vs, fs f = true → cA f vs = .leaf (c f vs)) (s : Stmt) :
    s.apart fs = true → ∀ e, accS W L cA s e = .leaf (exec W L c s e) := by
  induction s with
  | skip => intro h e; rfl
  | seq a b iha ihb =>
    intro h e
    simp only [Stmt.apart, Bool.and_eq_true] at h
    have hb : accS W L cA b = fun e => .leaf (exec W L c b e) := funext (ihb h.2)
    simp only [accS, exec, iha h.1, hb, accThen_leaf, leaf_bind]
  | set i x =>
    intro h e
    simp only [accS, exec, accE_apart W x e h, leaf_bind]
  | setTuple is x =>
    intro h e
    simp only [accS, exec, accE_apart W x e h, leaf_bind]
  | call is f x =>
    intro h e
    simp only [Stmt.apart, Bool.and_eq_true] at h
    simp only [accS, exec, accE_apart W x e h.2, hc f _ h.1, leaf_bind]
  | ite t a b iha ihb =>
    intro h e
    simp only [Stmt.apart, Bool.and_eq_true] at h
    simp only [accS, exec, accE_apart W t e h.1.1, iha h.1.2, ihb h.2]
    cases eval W t e with
    | ok v => cases hv : asBool v with
      | ok c => simp only [src, hv]; cases c <;> simp
      | panic => simp only [src, hv]
      | stuck => simp only [src, hv]
    | panic => rfl
    | stuck => rfl
  | range k v x b ih =>
    intro h e
    simp only [Stmt.apart, Bool.and_eq_true] at h
    have hb : accS W L cA b = fun e => .leaf (exec W L c b e) := funext (ih h.2)
    simp only [accS, exec, accE_apart W x e h.1, hb, accIter_leaf, leaf_bind]
  | for_ t p b ihp ihb =>
    intro h e
    simp only [Stmt.apart, Bool.and_eq_true] at h
    have hb : accS W L cA b = fun e => .leaf (exec W L c b e) := funext (ihb h.2)
    have hp : accS W L cA p = fun e => .leaf (exec W L c p e) := funext (ihp h.1.2)
    have ht : (fun e => (accE W t e).bind fun v => .leaf (asBool v)) = fun e => Access.leaf ((eval W t e).bind asBool) :=
      funext fun e => by rw [accE_apart W t e h.1.1, leaf_bind]
    simp only [accS, exec, hb, hp, ht, accLoop_leaf]
  | ret x =>
    intro h e
    simp only [accS, exec, accE_apart W x e h, leaf_bind]
  | brk => intro h e; rfl

/-- Functions that make no access: those of package bip39 that the readers call. -/
def quiet : Fn → Bool
  | .bip39_splitMnemonicWords | .bip39_padByteSlice | .bip39_computeChecksum | .bip39_validateEntropyBitSize | .bip39_addChecksum
  | .bip39_NewSeed => true
  | _ => false

theorem quiet_cases (f : Fn) (h : quiet f = true) : f = .bip39_splitMnemonicWords ∨ f = .bip39_padByteSlice ∨ f = .bip39_computeChecksum ∨
    f = .bip39_validateEntropyBitSize ∨ f = .bip39_addChecksum ∨ f = .bip39_NewSeed := by
  unfold quiet at h
  split at h <;> simp_all

theorem accRun_succ (W : World) (L n : Nat) (f : Fn) (vs : List Val) (h : f ≠ .bip39_SetWordList) :
    accRun W L (n + 1) f vs = (accS W L (accRun W L n) (code f).1 (vs ++ pad ((code f).2 - vs.length))).bind fun r => .leaf (Flow.result r) := by
  rw [accRun]
  exact h

theorem accRun_quiet (W : World) (L : Nat) (n : Nat) : ∀ (f : Fn) (vs : List Val), quiet f = true → accRun W L n f vs = .leaf (run W L n f vs) := by
  induction n with
  | zero => intro f vs _; rfl
  | succ n ih =>
    intro f vs hf
    have hs : (code f).1.apart quiet = true ∧ f ≠ .bip39_SetWordList := by
      rcases quiet_cases f hf with rfl | rfl | rfl | rfl | rfl | rfl <;> exact ⟨rfl, by intro h; cases h⟩
    rw [run_succ, accRun_succ _ _ _ _ _ hs.2, accS_apart W L (accRun W L n) (run W L n) quiet (fun g ws hg => ih g ws hg) (code f).1 hs.1, leaf_bind]

end Bips.Src
