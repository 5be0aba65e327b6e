import Verif.Model.Cpu.Mos6502
import Verif.Model.Cpu.Mips32
import Verif.Model.Cpu.Lr35902
import Verif.Model.Cpu.Thumb
import Verif.Model.Cpu.Mc68000
import Verif.Model.Cpu.Intel8086
import Verif.Model.Cpu.Z80
import Verif.Model.Cpu.PowerPC
import Verif.Model.Cpu.X86

namespace Necro.Spec

/-- The assemblers of the package `necroassembler.cpu`. -/
inductive Processor : Dialect → Prop
  | mos6502 : Processor mos6502
  | lr35902 : Processor lr35902
  | mips (bigEndian : Bool) : Processor (mipsOn bigEndian)
  | thumb : Processor thumb
  | mc68000 : Processor mc68000
  | i8086 : Processor i8086
  | z80 : Processor z80
  | ppc : Processor ppc
  | x86 : Processor x86

/-- The reference at position `e.1` is about bytes of the output, and every one of the `n` bytes of it exists. -/
def Inside (n : Nat) (e : Nat × Reloc) : Prop := e.1 + e.2.size ≤ n

end Necro.Spec
