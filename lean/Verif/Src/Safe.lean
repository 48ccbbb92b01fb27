import Verif.Props.SourceSeed

/-!
# What holds of every call, whatever runs beside it

A property of the trees of accesses that every step of every call keeps.
-/

namespace Bips.Src

/-- If the lists read satisfy `A` and the positions looked up satisfy `M`, the call ends with a result in `P`; and it only writes such lists and positions
(bip39/bip39.go:78-82, 88, 93, 128, 208). -/
def Access.safe (A : List Bytes → Prop) (M : Bytes → Nat → Prop) (P : Res (List Val) → Prop) : Access (List Val) → Prop
  | .leaf r => P r
  | .readList k => ∀ l, A l → (k l).safe A M P
  | .readMap w k => (k none).safe A M P ∧ ∀ i, M w i → (k (some i)).safe A M P
  | .writeList l t => A l ∧ t.safe A M P
  | .newMap t => t.safe A M P
  | .insert w i t => M w i ∧ t.safe A M P

/-- The list and the map in force are allowed and every call is safe. -/
def Calls.kept (A : List Bytes → Prop) (M : Bytes → Nat → Prop) (P : Nat → Res (List Val) → Prop) (c : Calls) : Prop :=
  A c.state.list ∧ (∀ w i, c.state.map w = some i → M w i) ∧ ∀ (t : Nat) (x : Access (List Val)), c.calls[t]? = some x → x.safe A M (P t)

section
variable {A : List Bytes → Prop} {M : Bytes → Nat → Prop} {P : Nat → Res (List Val) → Prop}

theorem set_safe {cs : List (Access (List Val))} {t : Nat} {y : Access (List Val)} (h : ∀ (s : Nat) (x : Access (List Val)), cs[s]? = some x → x.safe A M (P s))
    (hy : y.safe A M (P t)) : ∀ (s : Nat) (x : Access (List Val)), (cs.set t y)[s]? = some x → x.safe A M (P s) := by
  intro s x hx
  rw [List.getElem?_set] at hx
  split at hx
  · rename_i hs
    subst hs
    split at hx
    · cases hx; exact hy
    · cases hx
  · exact h s x hx

theorem kept_step (c : Calls) (t : Nat) (h : c.kept A M P) : (c.step t).kept A M P := by
  obtain ⟨h1, h2, h3⟩ := h
  unfold Calls.step
  rcases hx : c.calls[t]? with _ | x
  · exact ⟨h1, h2, h3⟩
  · have hs := h3 t x hx
    cases x with
    | leaf r => exact ⟨h1, h2, h3⟩
    | readList k => exact ⟨h1, h2, set_safe h3 (hs _ h1)⟩
    | readMap w k =>
      refine ⟨h1, h2, set_safe h3 ?_⟩
      rcases hm : c.state.map w with _ | i
      · exact hs.1
      · exact hs.2 i (h2 w i hm)
    | writeList l k => exact ⟨hs.1, h2, set_safe h3 hs.2⟩
    | newMap k => exact ⟨h1, fun w i hw => by simp at hw, set_safe h3 hs⟩
    | insert w i k =>
      refine ⟨h1, fun v j hv => ?_, set_safe h3 hs.2⟩
      dsimp only at hv
      split at hv
      · rename_i he
        cases hv
        exact he ▸ hs.1
      · exact h2 v j hv

theorem kept_run (schedule : List Nat) : ∀ c : Calls, c.kept A M P → (c.run schedule).kept A M P := by
  induction schedule with
  | nil => intro c h; exact h
  | cons t ts ih => intro c h; exact ih _ (kept_step c t h)

end

/-! ### The same when an access to the map is several steps -/

/-- What is left of a call is safe. -/
def Micro.safe (A : List Bytes → Prop) (M : Bytes → Nat → Prop) (P : Res (List Val) → Prop) : Micro → Prop
  | .at t => t.safe A M P
  | .loaded w i _ t => M w i ∧ t.safe A M P
  | .entered w i _ t => M w i ∧ t.safe A M P
  | .marked w i _ t => M w i ∧ t.safe A M P
  | .assigned w i _ t => M w i ∧ t.safe A M P
  | .placed w i _ t => M w i ∧ t.safe A M P
  | .reading w _ k => (k none).safe A M P ∧ ∀ i, M w i → (k (some i)).safe A M P

/-- The list and all maps are allowed and every call is safe. -/
def MapCalls.kept (A : List Bytes → Prop) (M : Bytes → Nat → Prop) (P : Nat → Res (List Val) → Prop) (c : MapCalls) : Prop :=
  A c.list ∧ (∀ m w i, (c.maps m).content w = some i → M w i) ∧ ∀ (t : Nat) (x : Micro), c.calls[t]? = some x → x.safe A M (P t)

section
variable {A : List Bytes → Prop} {M : Bytes → Nat → Prop} {P : Nat → Res (List Val) → Prop}

theorem goto_kept {c : MapCalls} {t : Nat} {y : Micro} (h : c.kept A M P) (hy : y.safe A M (P t)) : (c.goto t y).kept A M P := by
  refine ⟨h.1, h.2.1, fun s x hx => ?_⟩
  simp only [MapCalls.goto] at hx
  rw [List.getElem?_set] at hx
  split at hx
  · rename_i hs
    subst hs
    split at hx
    · cases hx; exact hy
    · cases hx
  · exact h.2.2 s x hx

theorem put_kept {c : MapCalls} {m : Nat} {g : GoMap} (h : c.kept A M P) (hg : ∀ w i, g.content w = some i → M w i) : (c.put m g).kept A M P := by
  refine ⟨h.1, fun k w i hk => ?_, h.2.2⟩
  simp only [MapCalls.put] at hk
  split at hk
  · exact hg w i hk
  · exact h.2.1 k w i hk

theorem micro_kept_step (h0 : ∀ w, M w 0) (c : MapCalls) (t : Nat) (h : c.kept A M P) : (c.step t).kept A M P := by
  have hf : ∀ {d : MapCalls}, d.kept A M P → ({ d with fatal := true } : MapCalls).kept A M P := fun h => h
  unfold MapCalls.step
  split
  · exact h
  rcases hx : c.calls[t]? with _ | x
  · exact h
  · have hs := h.2.2 t x hx
    cases x with
    | «at» y =>
      cases y with
      | leaf r => exact h
      | readList k => exact goto_kept h (hs _ h.1)
      | readMap w k => exact goto_kept h hs
      | writeList l k => exact goto_kept (c := { c with list := l }) ⟨hs.1, h.2⟩ hs.2
      | newMap k => exact goto_kept (put_kept (c := { c with next := c.next + 1, cur := c.next }) h fun w i hw => by simp [GoMap.empty] at hw) hs
      | insert w i k => exact goto_kept h hs
    | loaded w i m k =>
      dsimp only
      split
      · exact hf h
      · exact goto_kept h hs
    | entered w i m k => exact goto_kept (put_kept h (h.2.1 m)) hs
    | marked w i m k =>
      refine goto_kept (put_kept h fun v j hv => ?_) hs
      unfold GoMap.assign at hv
      split at hv
      · exact h.2.1 m v j hv
      · dsimp only at hv
        split at hv
        · cases hv; exact h0 v
        · exact h.2.1 m v j hv
    | assigned w i m k =>
      dsimp only
      split
      · exact goto_kept (put_kept h (h.2.1 m)) hs
      · exact hf h
    | placed w i m k =>
      refine goto_kept (put_kept h fun v j hv => ?_) hs.2
      simp only [GoMap.store] at hv
      split at hv
      · rename_i he
        cases hv
        exact he ▸ hs.1
      · exact h.2.1 m v j hv
    | reading w m k =>
      dsimp only
      split
      · exact hf h
      · refine goto_kept h ?_
        rcases hm : (c.maps m).content w with _ | i
        · exact hs.1
        · exact hs.2 i (h.2.1 m w i hm)

theorem micro_kept_run (h0 : ∀ w, M w 0) (schedule : List Nat) : ∀ c : MapCalls, c.kept A M P → (c.run schedule).kept A M P := by
  induction schedule with
  | nil => intro c h; exact h
  | cons t ts ih => intro c h; exact ih _ (micro_kept_step h0 c t h)

end

/-! ### The functions -/

section
variable {A : List Bytes → Prop} {M : Bytes → Nat → Prop} {P : Res (List Val) → Prop}

theorem reads_safe {t : Access (List Val)} (h : t.reads) : t.safe A M fun _ => True := by
  induction t with
  | leaf r => trivial
  | readList k ih => exact fun l _ => ih l (h l)
  | readMap w k ih => exact ⟨ih _ (h _), fun i _ => ih _ (h _)⟩
  | writeList l t ih => exact absurd h id
  | newMap t ih => exact absurd h id
  | insert w i t ih => exact absurd h id

theorem inserts_safe {t : Access (List Val)} (ht : t.safe A M P) (ws : List Bytes) : ∀ i, (∀ (j : Nat) w, ws[j]? = some w → M w (i + j)) →
    (inserts ws i t).safe A M P := by
  induction ws with
  | nil => intro i _; exact ht
  | cons w ws ih =>
    intro i h
    refine ⟨h 0 w rfl, ih (i + 1) fun j v hj => ?_⟩
    have := h (j + 1) v (by simpa using hj)
    rwa [show i + (j + 1) = i + 1 + j by omega] at this

theorem lookups_safe (k : List (Option Nat) → Access (List Val)) (ws : List Bytes) : ∀ got,
    (∀ xs : List (Option Nat), (∀ (j i : Nat), xs[j]? = some (some i) → ∃ w, ws[j]? = some w ∧ M w i) → xs.length ≤ ws.length → (k (got ++ xs)).safe A M P) →
    (lookups ws got k).safe A M P := by
  induction ws with
  | nil => intro got h; simpa [lookups] using h [] (by simp) (le_refl _)
  | cons w ws ih =>
    intro got h
    refine ⟨h [none] (fun j i hj => ?_) (by simp), fun i hi => ih _ fun xs hxs hlen => ?_⟩
    · cases j <;> simp at hj
    · have := h (some i :: xs) (fun j i' hj => by
        cases j with
        | zero =>
          simp only [List.getElem?_cons_zero, Option.some.injEq] at hj
          subst hj
          exact ⟨w, rfl, hi⟩
        | succ j => simpa using hxs j i' (by simpa using hj)) (by simpa using hlen)
      simpa using this

theorem picks_safe (hA : ∀ l, A l → 2048 ≤ l.length) (k : List (List Bytes) → Access (List Val)) (n : Nat) : ∀ d got,
    (∀ ls : List (List Bytes), ls.length = n → (∀ l ∈ ls, A l) → (k (got ++ ls)).safe A M P) → (picks n d got k).safe A M P := by
  induction n with
  | zero => intro d got h; simpa [picks] using h [] rfl (by simp)
  | succ n ih =>
    intro d got h l hl
    have hword : setBytes (padByteSlice (bigBytes (d &&& 2047)) 2) = d % 2048 := by
      rw [padByteSlice_eq, setBytes_padLeft, setBytes_bigBytes]
      exact Nat.and_two_pow_sub_one_eq_mod d 11
    have hlt : d % 2048 < 2048 := Nat.mod_lt _ (by omega)
    have hll := hA l hl
    have hget : l[d % 2048]? = some l[d % 2048] := List.getElem?_eq_getElem (by omega)
    dsimp only
    rw [hword, hget]
    refine ih _ _ fun ls h1 h2 => ?_
    have := h (l :: ls) (by simp [h1]) (by simpa [hl] using h2)
    simpa using this

end

end Bips.Src
