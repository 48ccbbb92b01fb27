import Verif.Src.Run

/-!
# What a function looks at

The parts of the world around the functions (`World`), and which of them the text of a function mentions, itself or in the functions it calls.
-/

namespace Bips.Src

open Bips

/-- Parts of the world: the hash functions; the registry of package bip32 (bip32/reg_ver_bytes.go:14, 18); `wordList` and `wordMap`
(bip39/bip39.go:48-51); the random source. -/
inductive Part
  | hashes | registry | words | index | random

/-- Two worlds agree on a part. -/
def Part.same (W W' : World) : Part → Prop
  | .hashes => W.H = W'.H
  | .registry => W.R = W'.R
  | .words => W.S.list = W'.S.list
  | .index => W.S.map = W'.S.map
  | .random => W.read = W'.read

/-- What an operation looks at. -/
def Lib.part : Lib → Option Part
  | .hashSum | .sha256 | .dblSha256 | .pbkdf2 => some .hashes
  | .pvtFlagGet | .pubFlagGet => some .registry
  | .wordMapGet => some .index
  | .randRead => some .random
  | _ => none

/-- What a variable outside the function is part of. -/
def Glob.part : Glob → Option Part
  | .wordList => some .words
  | _ => none

/-- At most these parts. -/
def Part.within (P : Part → Bool) : Option Part → Bool
  | none => true
  | some p => P p

/-- The expression looks at these parts only. -/
def Expr.within (P : Part → Bool) : Expr → Bool
  | .glob g => Part.within P g.part
  | .not a => a.within P
  | .bin _ a b | .and a b | .or a b | .cons a b => a.within P && b.within P
  | .lib f a => Part.within P f.part && a.within P
  | _ => true

/-- The statement looks at these parts only, and calls these functions only. -/
def Stmt.within (P : Part → Bool) (fs : Fn → Bool) : Stmt → Bool
  | .skip => true
  | .seq a b => a.within P fs && b.within P fs
  | .set _ x | .setTuple _ x | .ret x => x.within P
  | .call _ f x => fs f && x.within P
  | .ite c a b => c.within P && a.within P fs && b.within P fs
  | .range _ _ x b => x.within P && b.within P fs
  | .for_ c p b => c.within P && p.within P fs && b.within P fs
  | .brk => true

variable {W W' : World}

set_option smartUnfolding false in
/-- Operations that look at nothing are the same in all worlds. -/
theorem lib_apart (f : Lib) (l : List Val) (h : f.part = none) : libSem W f l = libSem W' f l := by
  cases f <;> first
    | (delta libSem; rfl)
    | exact nomatch h

set_option smartUnfolding false in
theorem lib_part (f : Lib) (p : Part) (l : List Val) (h : f.part = some p) : libSem W f l = libSem (match p with
    | .hashes => { W' with H := W.H }
    | .registry => { W' with R := W.R }
    | .words => { W' with S := ⟨W.S.list, W'.S.map⟩ }
    | .index => { W' with S := ⟨W'.S.list, W.S.map⟩ }
    | .random => { W' with read := W.read }) f l := by
  cases f <;> cases h <;> (delta libSem; rfl)

theorem lib_within (f : Lib) (l : List Val) (h : ∀ p, f.part = some p → p.same W W') : libSem W f l = libSem W' f l := by
  rcases hf : f.part with _ | p
  · exact lib_apart f l hf
  · have hs := h p hf
    rw [lib_part f p l hf (W' := W')]
    cases p <;> simp only [Part.same] at hs <;> simp only [hs]

theorem eval_within (P : Part → Bool) (h : ∀ p, P p = true → p.same W W') (x : Expr) (e : Env) : x.within P = true → eval W x e = eval W' x e := by
  have hp : ∀ o, Part.within P o = true → ∀ p, o = some p → p.same W W' := by
    rintro _ ho p rfl
    exact h p ho
  induction x with
  | var i => intro _; rfl
  | lit v => intro _; rfl
  | glob g =>
    intro hx
    have := hp _ hx
    cases g <;> first | rfl | skip
    have hw : W.S.list = W'.S.list := this .words rfl
    simp only [eval, globSem, hw]
  | not a ih => intro hx; simp only [eval, ih hx]
  | bin op a b iha ihb | and a b iha ihb | or a b iha ihb | cons a b iha ihb =>
    intro hx
    simp only [Expr.within, Bool.and_eq_true] at hx
    simp only [eval, iha hx.1, ihb hx.2]
  | nilL => intro _; rfl
  | lib f a ih =>
    intro hx
    simp only [Expr.within, Bool.and_eq_true] at hx
    have hl := fun l => lib_within f l (hp _ hx.1)
    simp only [eval, ih hx.2, hl]

theorem exec_within (P : Part → Bool) (h : ∀ p, P p = true → p.same W W') (L : Nat) (c c' : Fn → List Val → Res (List Val)) (fs : Fn → Bool)
    (hc : ∀ f vs, fs f = true → c f vs = c' f vs) (s : Stmt) : s.within P fs = true → exec W L c s = exec W' L c' s := by
  induction s with
  | skip => intro _; rfl
  | brk => intro _; rfl
  | seq a b iha ihb =>
    intro hs
    simp only [Stmt.within, Bool.and_eq_true] at hs
    funext e
    simp only [exec, iha hs.1, ihb hs.2]
  | set i x => intro hs; funext e; simp only [exec, eval_within P h x e hs]
  | setTuple is x => intro hs; funext e; simp only [exec, eval_within P h x e hs]
  | ret x => intro hs; funext e; simp only [exec, eval_within P h x e hs]
  | call is f x =>
    intro hs
    simp only [Stmt.within, Bool.and_eq_true] at hs
    have hcf := fun vs => hc f vs hs.1
    funext e
    simp only [exec, eval_within P h x e hs.2, hcf]
  | ite t a b iha ihb =>
    intro hs
    simp only [Stmt.within, Bool.and_eq_true] at hs
    funext e
    simp only [exec, eval_within P h t e hs.1.1, iha hs.1.2, ihb hs.2]
  | range k v x b ih =>
    intro hs
    simp only [Stmt.within, Bool.and_eq_true] at hs
    funext e
    simp only [exec, eval_within P h x e hs.1, ih hs.2]
  | for_ t p b ihp ihb =>
    intro hs
    simp only [Stmt.within, Bool.and_eq_true] at hs
    have ht := fun e => eval_within P h t e hs.1.1
    funext e
    simp only [exec, ht, ihp hs.1.2, ihb hs.2]

end Bips.Src
