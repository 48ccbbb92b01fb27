import Verif.Model.Nums
import Verif.Lemmas.Ui

/-!
# The shared big integers: running one program alone
-/

namespace Bips.Nums

variable {α β : Type} {pkg : Pkg → Nat}

/-- Running the program alone, with these package numbers and these own numbers, ends so that `Q` holds of its outcome and of
its numbers; on the way it overwrites no package number. -/
def wp (pkg : Pkg → Nat) : Prog α → (Outcome α → List Nat → Prop) → List Nat → Prop
  | .done a, Q, own => Q (.ok a) own
  | .panic, Q, own => Q .panic own
  | .new v k, Q, own => wp pkg (k (.own own.length)) Q (own ++ [v])
  | .get (.pkg p) k, Q, own => wp pkg (k (pkg p)) Q own
  | .get (.own i) k, Q, own => wp pkg (k (own.getD i 0)) Q own
  | .set (.pkg _) _ _, _, _ => False
  | .set (.own i) v k, Q, own => wp pkg k Q (own.set i v)

/-- The value of a number. -/
def val (pkg : Pkg → Nat) (own : List Nat) : Addr → Nat
  | .pkg p => pkg p
  | .own i => own.getD i 0

theorem wp_mono {p : Prog α} {Q Q' : Outcome α → List Nat → Prop} {own : List Nat} (hq : ∀ o own', Q o own' → Q' o own')
    (h : wp pkg p Q own) : wp pkg p Q' own := by
  induction p generalizing own with
  | done a => exact hq _ _ h
  | panic => exact hq _ _ h
  | new v k ih => exact ih _ h
  | get a k ih => cases a <;> exact ih _ h
  | set a v k ih => cases a with
    | pkg p => exact h
    | own i => exact ih h

/-- The rest of a program after an outcome. -/
def after (pkg : Pkg → Nat) (f : α → Prog β) (Q : Outcome β → List Nat → Prop) : Outcome α → List Nat → Prop
  | .ok a, own => wp pkg (f a) Q own
  | .panic, own => Q .panic own

theorem wp_bind (p : Prog α) (f : α → Prog β) (Q : Outcome β → List Nat → Prop) (own : List Nat) :
    wp pkg (p >>= f) Q own ↔ wp pkg p (after pkg f Q) own := by
  show wp pkg (p.bind f) Q own ↔ _
  induction p generalizing own with
  | done a => rfl
  | panic => rfl
  | new v k ih => exact ih _ _
  | get a k ih => cases a <;> exact ih _ _
  | set a v k ih => cases a with
    | pkg p => rfl
    | own i => exact ih _

theorem wp_pure (a : α) (Q : Outcome α → List Nat → Prop) (own : List Nat) :
    wp pkg (pure a) Q own ↔ Q (.ok a) own := Iff.rfl

theorem wp_panic (Q : Outcome α → List Nat → Prop) (own : List Nat) :
    wp pkg .panic Q own ↔ Q .panic own := Iff.rfl

theorem wp_newInt (v : Nat) (Q : Outcome Addr → List Nat → Prop) (own : List Nat) :
    wp pkg (newInt v) Q own ↔ Q (.ok (.own own.length)) (own ++ [v]) := Iff.rfl

theorem wp_load (a : Addr) (Q : Outcome Nat → List Nat → Prop) (own : List Nat) :
    wp pkg (load a) Q own ↔ Q (.ok (val pkg own a)) own := by cases a <;> rfl

theorem wp_store (i v : Nat) (Q : Outcome Unit → List Nat → Prop) (own : List Nat) :
    wp pkg (store (.own i) v) Q own ↔ Q (.ok ()) (own.set i v) := Iff.rfl

theorem wp_op (f : Nat → Nat → Nat) (z : Nat) (x y : Addr) (Q : Outcome Unit → List Nat → Prop) (own : List Nat) :
    wp pkg (op f (.own z) x y) Q own ↔ Q (.ok ()) (own.set z (f (val pkg own x) (val pkg own y))) := by
  cases x <;> cases y <;> rfl

theorem wp_ite {c : Prop} [Decidable c] (p q : Prog α) (Q : Outcome α → List Nat → Prop) (own : List Nat) :
    wp pkg (if c then p else q) Q own ↔ if c then wp pkg p Q own else wp pkg q Q own := by
  split <;> rfl

/-- A program whose outcome does not depend on the numbers its goroutine made before. -/
def Gives (pkg : Pkg → Nat) (p : Prog α) (r : Outcome α) : Prop := ∀ own, wp pkg p (fun o _ => o = r) own

theorem Gives.bind {p : Prog α} {f : α → Prog β} {r : Outcome α} {s : Outcome β} (hp : Gives pkg p r)
    (hf : ∀ a, r = .ok a → Gives pkg (f a) s) (hn : r = .panic → s = .panic) : Gives pkg (p >>= f) s := by
  intro own
  rw [wp_bind]
  refine wp_mono ?_ (hp own)
  rintro o own' rfl
  cases o with
  | ok a => exact hf a rfl own'
  | panic => exact (hn rfl).symm

theorem gives_pure (a : α) : Gives pkg (pure a) (.ok a) := fun _ => rfl

theorem gives_panic : Gives pkg (.panic : Prog α) .panic := fun _ => rfl

theorem Gives.map {p : Prog α} {r : Outcome α} (hp : Gives pkg p r) (f : α → β) :
    Gives pkg (do let a ← p; pure (f a)) (r.bind fun a => .ok (f a)) := by
  refine hp.bind (fun a ha => ?_) fun h => ?_
  · subst ha; exact gives_pure _
  · subst h; rfl

/-- The program changes no number its goroutine had before. -/
def Ext (own own' : List Nat) : Prop :=
  own.length ≤ own'.length ∧ ∀ i, i < own.length → own'.getD i 0 = own.getD i 0

theorem Ext.refl (own : List Nat) : Ext own own := ⟨le_rfl, fun _ _ => rfl⟩

theorem Ext.trans {a b c : List Nat} (h : Ext a b) (k : Ext b c) : Ext a c :=
  ⟨h.1.trans k.1, fun i hi => (k.2 i (lt_of_lt_of_le hi h.1)).trans (h.2 i hi)⟩

theorem getD_append_lt {l m : List Nat} {i : Nat} (h : i < l.length) : (l ++ m).getD i 0 = l.getD i 0 := by
  simp [List.getD_eq_getElem?_getD, List.getElem?_append, h]

theorem getD_append_self {l : List Nat} {v : Nat} : (l ++ [v]).getD l.length 0 = v := by
  simp [List.getD_eq_getElem?_getD]

theorem getD_set_self {l : List Nat} {i v : Nat} (h : i < l.length) : (l.set i v).getD i 0 = v := by
  simp [List.getD_eq_getElem?_getD, h]

theorem getD_set_ne {l : List Nat} {i j v : Nat} (h : i ≠ j) : (l.set i v).getD j 0 = l.getD j 0 := by
  simp [List.getD_eq_getElem?_getD, h]

end Bips.Nums
