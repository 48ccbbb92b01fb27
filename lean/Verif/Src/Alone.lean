import Verif.Src.Interleave

/-!
# A call made alone

The accesses of a call, made one after the other in a state, give what `run` gives in that state.
-/

namespace Bips.Src

theorem alone_bind {α β : Type} {f : α → Access β} {g : α → Res β} {t : Access α} {r : Res α} {S : WordState} (ht : t.alone S = (r, S))
    (hf : ∀ a, (f a).alone S = (g a, S)) : (t.bind f).alone S = (r.bind g, S) := by
  suffices h : ∀ (t : Access α) (S' : WordState), t.alone S' = (r, S) → (t.bind f).alone S' = (r.bind g, S) from h t S ht
  intro t
  induction t with
  | leaf r' =>
    intro S' h
    simp only [Access.alone, Prod.mk.injEq] at h
    obtain ⟨rfl, rfl⟩ := h
    cases r' with
    | ok a => exact hf a
    | panic => rfl
    | stuck => rfl
  | readList k ih => intro S' h; exact ih _ S' h
  | readMap w k ih => intro S' h; exact ih _ S' h
  | writeList l t ih => intro S' h; exact ih _ h
  | newMap t ih => intro S' h; exact ih _ h
  | insert w i t ih => intro S' h; exact ih _ h

section
variable (W : World)

theorem accLib_alone (f : Lib) (l : List Val) : (accLib W f l).alone W.S = (libSem W f l, W.S) := by
  unfold accLib
  split
  · rename_i w
    rw [lib_wordMapGet]
    simp only [Access.alone]
    cases W.S.map w <;> rfl
  · rfl

theorem accE_alone (x : Expr) (e : Env) : (accE W x e).alone W.S = (eval W x e, W.S) := by
  induction x with
  | var i => rfl
  | lit v => rfl
  | glob g => cases g <;> rfl
  | not a ih => exact alone_bind ih fun v => rfl
  | bin op a b iha ihb => exact alone_bind iha fun v => alone_bind ihb fun w => rfl
  | and a b iha ihb =>
    refine alone_bind iha fun v => alone_bind (r := asBool v) rfl fun c => ?_
    cases c
    · rfl
    · exact ihb
  | or a b iha ihb =>
    refine alone_bind iha fun v => alone_bind (r := asBool v) rfl fun c => ?_
    cases c
    · exact ihb
    · rfl
  | nilL => rfl
  | cons a b iha ihb => exact alone_bind iha fun v => alone_bind ihb fun w => rfl
  | lib f a ih => exact alone_bind ih fun v => alone_bind (r := asList v) rfl fun l => accLib_alone W f l

theorem accThen_alone (f : Flow) (g : Env → Access Flow) (g' : Env → Res Flow) (h : ∀ e, (g e).alone W.S = (g' e, W.S)) :
    (f.accThen g).alone W.S = (f.andThen g', W.S) := by
  cases f with
  | next e => exact h e
  | ret vs => rfl
  | brk e => rfl

theorem accAgain_alone (f : Flow) (g : Env → Access Flow) (g' : Env → Res Flow) (h : ∀ e, (g e).alone W.S = (g' e, W.S)) :
    (f.accAgain g).alone W.S = (f.again g', W.S) := by
  cases f with
  | next e => exact h e
  | ret vs => rfl
  | brk e => rfl

theorem accIter_alone (body : Env → Access Flow) (b' : Env → Res Flow) (h : ∀ e, (body e).alone W.S = (b' e, W.S)) (k v : Option Nat) (l : List Val) :
    ∀ (i : Int) (e : Env), (accIter body k v i l e).alone W.S = (iter b' k v i l e, W.S) := by
  induction l with
  | nil => intro i e; rfl
  | cons x l ih => intro i e; exact alone_bind (h _) fun f => accAgain_alone W f _ _ (ih (i + 1))

theorem accLoop_alone (c : Env → Access Bool) (c' : Env → Res Bool) (p b : Env → Access Flow) (p' b' : Env → Res Flow) (hc : ∀ e, (c e).alone W.S = (c' e, W.S))
    (hp : ∀ e, (p e).alone W.S = (p' e, W.S)) (hb : ∀ e, (b e).alone W.S = (b' e, W.S)) (n : Nat) :
    ∀ e, (accLoop c p b n e).alone W.S = (loop c' p' b' n e, W.S) := by
  induction n with
  | zero => intro e; rfl
  | succ n ih =>
    intro e
    refine alone_bind (hc e) fun t => ?_
    cases t
    · rfl
    · exact alone_bind (hb e) fun f => accAgain_alone W f _ _ fun e => alone_bind (hp e) fun f => accThen_alone W f _ _ ih

/-- The statement calls only these functions. -/
def Stmt.only (fs : Fn → Bool) : Stmt → Bool
  | .seq a b | .ite _ a b | .for_ _ a b => a.only fs && b.only fs
  | .call _ f _ => fs f
  | .range _ _ _ b => b.only fs
  | _ => true

theorem accS_alone (L : Nat) (cA : Fn → List Val → Access (List Val)) (c : Fn → List Val → Res (List Val)) (fs : Fn → Bool)
    (hc : ∀ f vs, fs f = true → (cA f vs).alone W.S = (c f vs, W.S)) (s : Stmt) :
    s.only fs = true → ∀ e, (accS W L cA s e).alone W.S = (exec W L c s e, W.S) := by
  induction s with
  | skip => intro h e; rfl
  | seq a b iha ihb =>
    intro h e
    simp only [Stmt.only, Bool.and_eq_true] at h
    exact alone_bind (iha h.1 e) fun f => accThen_alone W f _ _ (ihb h.2)
  | set i x => intro h e; exact alone_bind (accE_alone W x e) fun v => rfl
  | setTuple is x => intro h e; exact alone_bind (accE_alone W x e) fun v => rfl
  | call is f x =>
    intro h e
    exact alone_bind (accE_alone W x e) fun v => alone_bind (r := asList v) rfl fun vs => alone_bind (hc f vs h) fun rs => rfl
  | ite t a b iha ihb =>
    intro h e
    simp only [Stmt.only, Bool.and_eq_true] at h
    refine alone_bind (accE_alone W t e) fun v => alone_bind (r := asBool v) rfl fun c => ?_
    cases c
    · exact ihb h.2 e
    · exact iha h.1 e
  | range k v x b ih =>
    intro h e
    exact alone_bind (accE_alone W x e) fun l => alone_bind (r := l.items) rfl fun items => accIter_alone W _ _ (ih h) k v items 0 e
  | for_ t p b ihp ihb =>
    intro h e
    simp only [Stmt.only, Bool.and_eq_true] at h
    exact accLoop_alone W _ _ _ _ _ _ (fun e => alone_bind (accE_alone W t e) fun v => rfl) (ihp h.1) (ihb h.2) L e
  | ret x => intro h e; exact alone_bind (accE_alone W x e) fun v => rfl
  | brk => intro h e; rfl

/-- Functions other than `SetWordList` and `init` of package bip39. -/
def reader : Fn → Bool
  | .bip39_SetWordList | .bip39_init => false
  | _ => true

theorem reader_only (f : Fn) (h : reader f = true) : (code f).1.only reader = true := by
  cases f <;> first | rfl | exact absurd h (by decide)

theorem accRun_alone (L n : Nat) : ∀ (f : Fn) (vs : List Val), reader f = true →
    (accRun W L n f vs).alone W.S = (run W L n f vs, W.S) := by
  induction n with
  | zero => intro f vs _; rfl
  | succ n ih =>
    intro f vs h
    rw [accRun_succ _ _ _ _ _ (by rintro rfl; exact absurd h (by decide)), run_succ]
    exact alone_bind (accS_alone W L _ _ reader (fun g ws hg => ih g ws hg) (code f).1 (reader_only f h) _) fun r => rfl

end

end Bips.Src
