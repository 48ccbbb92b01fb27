import Lean.Meta.Tactic.Simp.RegisterCommand

/-! The rules by which the proofs run programs. -/

/-- Rules for running the terms of `Verif/Src/Code.lean`. -/
register_simp_attr src
