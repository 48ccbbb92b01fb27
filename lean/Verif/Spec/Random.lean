import Verif.Model.Random

/-!
# What a reader has to offer

Independent of how it is cut into chunks.
-/

namespace Bips.Spec
open Bips

/-- The bytes before the first error, and that error. -/
def stream : Source → Bytes × IoErr
  | [] => ([], .eof)
  | (b, some e) :: _ => (b, e)
  | (b, none) :: src => (b ++ (stream src).1, (stream src).2)

/-- All bytes in it, in order. -/
def allBytes (src : Source) : Bytes := (src.map Prod.fst).flatten

end Bips.Spec
