import Verif.Crypto.Go
import Verif.Curve.Table
import Verif.Model.Child

/-!
# The test vectors of bip32/bip32_test.go, run in the model

The modules in this directory are tests of the model, not properties: they show that it computes, with the real hash
functions, what the tests of the repo demand of the code. By C29 they hold for every map order. Of the twenty public
children two are run. Written by tools/gen_vectors.py.
-/

namespace Bips

/-- The key with the given 78 bytes. -/
def keyN (n : Nat) : Key := ⟨beBytes 78 n, by simp⟩

/-- The registry for one of the map orders. -/
def reg : Registry := Registry.init pathTable

end Bips
