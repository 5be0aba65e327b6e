import Verif.Model.Link
/-!
# Driving the model the way the repository's unit tests drive the code

`Verif.Tests.*` replay the inputs and expected outputs written in /repo/tests through
the model.  They are tests of the model's fidelity, not proofs of properties.
-/

namespace Necro

/-- One call made by a test. -/
inductive Call where
  | assemble (code : String)
  | link

def Call.run (d : Dialect) : Call → M Unit
  | .assemble c => Necro.assemble d {} 100 c.toList
  | .link => Necro.link d .dummy

def runCalls (d : Dialect) (l : List Call) : Except Err (List Nat) :=
  match M.forEach l (Call.run d) d.init with
  | (.ok (), s) => .ok (s.bytes.map BitVec.toNat)
  | (.error e, _) => .error e

end Necro
