import Verif.Src.Code

/-!
# Running the translated functions
-/

namespace Bips.Src

/-- The results of a function that returned. -/
def Flow.result : Flow → Res (List Val)
  | .ret vs => .ok vs
  | _ => .stuck

/-- Variables that are not set yet. -/
def pad : Nat → List Val
  | 0 => []
  | n + 1 => .nil :: pad n

/-- Calls a function: at most `n` calls deep, each loop at most `L` rounds. -/
def run (W : World) (L : Nat) : Nat → Fn → List Val → Res (List Val)
  | 0, _, _ => .stuck
  | n + 1, f, args =>
    (exec W L (run W L n) (code f).1 (args ++ pad ((code f).2 - args.length))).bind Flow.result

end Bips.Src
