import Verif.Spec.FileLine
import Verif.Spec.Elf
/-!
# A line of a program in an object file
-/

namespace Necro.Spec

/-- The program writes an object file. -/
def WritesObject : Tool → Prop
  | .i386Elf | .ppcElf | .x86Elf => True
  | _ => False

/-- The object file has a section with this name, and in its contents the bytes `code` start at distance `x` from its start. -/
def InObject (file : Bytes) (name : Str) (x : Nat) (code : Bytes) : Prop :=
  ∃ e i, readEhdr file = some e ∧ 0 < i ∧ i < e.shnum ∧ sectionName file e (shdr file e i) = utf8 name ∧
    window (contents file (shdr file e i)) x code.length = code

/-- The run of the program leaves an object file which has, in the section that is open in state `s`, `code` at the distance at which
the program is in state `s` from the start of the section. -/
def InSectionOf (disk' : Disk) (out : Str) (s : St) (code : Bytes) : Prop :=
  ∃ file name sec, disk' out = some file ∧ s.curSection = some name ∧ s.sections.lookup name = some sec ∧ sec.offset ≤ s.bytes.length ∧
    InObject file name (s.bytes.length - sec.offset) code

/-- The label is defined in the program. -/
def Defined (s' : St) (label : Str) : Prop := ∃ l, s'.labels.lookup label = some l

end Necro.Spec
