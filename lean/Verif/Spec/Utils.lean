import Verif.Spec.Text
import Verif.Model.Utils
/-!
# What the helpers of utils.py are supposed to do

Only the data types `BitField` and `Pat` of the model are used here.
-/

namespace Necro.Spec

/-- A field that `pack_bits` must accept. -/
def FieldOk (f : BitField) : Prop :=
  f.lo ≤ f.hi ∧ -(2 ^ (f.hi - f.lo)) ≤ f.value ∧ f.value < 2 ^ (f.hi - f.lo + 1)

/-- What a run of name characters is replaced by. -/
def lookupRun (d : List (Str × Str)) (r : Str) : Str := (d.lookup r).getD r

/-- When an operand satisfies a pattern of `Instruction.match`. -/
def Accepts (tok : Str) : Pat → Prop
  | .any => True
  | .pred p => p tok = true
  | .str s => eqNoCase tok s ∨ ∃ x ∈ s, eqNoCase tok [x]
  | .coll l => ∃ x ∈ l, eqNoCase tok x

/-- The same for the free function `match`, which has no character fallback. -/
def Accepts₀ (tok : Str) : Pat → Prop
  | .str s => eqNoCase tok s
  | p => Accepts tok p

end Necro.Spec
