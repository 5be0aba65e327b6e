import Verif.Spec.Whole
import Verif.Spec.Programs
/-!
# A line of a program on disk
-/

namespace Necro.Spec

/-- The source files named by the arguments of a program. -/
def sourceFiles (t : Tool) (args : List Str) : List Str := if ownMain t then args.take 1 else args.dropLast

/-- The output file named by the arguments of a program. -/
def outputFile (t : Tool) (args : List Str) : Option Str := if ownMain t then args[1]? else args.getLast?

/-- Where the code is in the output file: behind the header of a PlayStation executable. -/
def codeStart : Tool → Nat
  | .psx => 0x800
  | _ => 0

/-- The bytes of the code that the program changes after linking: the checksums of GBA and Genesis. -/
def Patched : Tool → Nat → Prop
  | .gba, i => i = 0xBD
  | .genesis, i => i = 0x18E ∨ i = 0x18F
  | _, _ => False

/-- The program writes the code itself and not an object file. -/
def WritesCode : Tool → Prop
  | .i386Elf | .ppcElf | .x86Elf => False
  | _ => True

/-- The program, reading its sources from the disk, comes in state `s` to the instruction line `t rest`; `s'` is the state at
the end of the sources.  No label is written into the program as ascii text. -/
structure FileLine (tool : Tool) (m : Machine) (disk : Disk) (args : List Str) (codes : List Str) (s : St) (t : Str) (rest : List Str) (s' : St) : Prop where
  read : (sourceFiles tool args).map (m.view disk).text = codes.map some
  visits : ∃ s1, Visits tool.dialect (m.view disk) s t rest s1 m.depth (.sources codes) tool.dialect.init s'
  noText : ∀ e ∈ s'.relocs, e.2.hook = none

end Necro.Spec
