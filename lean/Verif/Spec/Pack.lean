import Verif.Spec.Bits
import Verif.Model.Py
/-!
# What a fixed-width packer must do
-/

namespace Necro.Spec

/-- How a reader of the produced file decodes one `bits`-wide field. -/
def decodeField (be signed : Bool) (bits : Nat) (bs : List (BitVec 8)) : Int :=
  if signed then toSigned bits (ofBytes be bs) else (ofBytes be bs : Int)

/-- The value a field should carry: the argument modulo `2^bits`, as the representative
in `[0, 2^bits)` (unsigned) or `[-2^(bits-1), 2^(bits-1))` (signed, `Int.bmod`).
A missing argument (`None`) counts as 0. -/
def fieldValue (signed : Bool) (bits : Nat) (a : Option Int) : Int :=
  if signed then Int.bmod (a.getD 0) (2 ^ bits) else (a.getD 0) % 2 ^ bits

/-- `f` is a total packer of `bits`-wide fields. -/
def IsPacker (f : List (Option Int) → Except Err Bytes) (bits : Nat) (be signed : Bool) : Prop :=
  ∀ args, ∃ out, f args = .ok out ∧ out.length = bits / 8 * args.length ∧
    (chunks (bits / 8) args.length out).map (decodeField be signed bits) =
      args.map (fieldValue signed bits)

end Necro.Spec
