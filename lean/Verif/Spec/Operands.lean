import Verif.Spec.Whole
import Verif.Spec.Z80
/-!
# What an operand can look like
-/

namespace Necro.Spec

/-- The characters that separate operands, end lines or labels, or begin a literal. -/
def separates (c : Char) : Bool := " \n\r\t,;:\"'".toList.contains c

def isQuoteChar (c : Char) : Bool := c = '"' || c = '\''

/-- How many quote characters are in the text. -/
def quotes (t : Str) : Nat := t.countP isQuoteChar

/-- A separator is in the text only if it has two quote characters: it comes from a literal. -/
def Unbroken (t : Str) : Prop := (∃ c ∈ t, separates c = true) → 2 ≤ quotes t

/-- The Z80 instructions whose table entries ask for text that is not an operand: the exchange of `AF` with its shadow,
the undocumented instructions that copy their result to a register, and `IN F,(C)`. -/
def Z80Unwritable (m : String) (args : List Z80Arg) : Bool :=
  args.any (fun a => match a with | .reg "AF'" => true | .op _ => true | _ => false) || (m == "IN" && args == [.reg "F", .mem "C"])

end Necro.Spec
