import Verif.Spec.Bits
import Verif.Model.State
/-!
# Name list files of NES debuggers

A name list is a text file with one line per name: a dollar sign, the address as four
hexadecimal digits, a number sign, the name, a number sign.  Lines end in CR LF.
-/

namespace Necro.Spec

/-- The value of an upper case hexadecimal digit. -/
def hexDigit (b : BitVec 8) : Option Nat :=
  if 0x30 ≤ b.toNat ∧ b.toNat ≤ 0x39 then some (b.toNat - 0x30)
  else if 0x41 ≤ b.toNat ∧ b.toNat ≤ 0x46 then some (b.toNat - 0x41 + 10)
  else none

/-- The lines of a file, each of which must end in CR LF. -/
def fileLines : Bytes → Option (List Bytes)
  | [] => some []
  | 0x0D#8 :: 0x0A#8 :: rest => (fileLines rest).map ([] :: ·)
  | b :: rest =>
    match fileLines rest with
    | some (l :: ls) => some ((b :: l) :: ls)
    | _ => none

/-- One line: the address and the name, which has no number sign in it. -/
def readName : Bytes → Option (Nat × Bytes)
  | 0x24#8 :: a :: b :: c :: d :: 0x23#8 :: rest =>
    match hexDigit a, hexDigit b, hexDigit c, hexDigit d with
    | some a, some b, some c, some d =>
      if rest.getLast? = some 0x23#8 ∧ 0x23#8 ∉ rest.dropLast then
        some (a * 4096 + b * 256 + c * 16 + d, rest.dropLast)
      else none
    | _, _, _, _ => none
  | _ => none

/-- The names of a file, in order. -/
def readNames (file : Bytes) : Option (List (Nat × Bytes)) := (fileLines file).bind fun ls => ls.mapM readName

/-- A name as it is stored in a file. -/
def asciiName (name : Str) : Bytes := name.map fun c => BitVec.ofNat 8 c.toNat

/-- The names a list for the addresses from `lo` to `hi` has to contain: every label of the
program in that range with its address, in the order of definition. -/
def namesIn (lo hi : Int) (labels : Labels) : List (Nat × Bytes) :=
  (labels.filter fun p => decide (lo ≤ p.2.org + p.2.base ∧ p.2.org + p.2.base ≤ hi)).map fun p =>
    ((p.2.org + p.2.base).toNat, asciiName p.1)

end Necro.Spec
