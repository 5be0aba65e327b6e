import Verif.Spec.Text
import Verif.Model.State
/-!
# The MIPS I instruction set, decoded from the instruction word

Written from the instruction formats of the MIPS manual; reserved fields must be zero.
-/

namespace Necro.Spec

/-- Bits `hi … lo` of a word. -/
def fld (w hi lo : Nat) : Nat := w / 2 ^ lo % 2 ^ (hi - lo + 1)

/-- An instruction with its operands as numbers; immediates are the raw bits of their field. -/
inductive MipsInstr where
  /-- `m rd, rs, rt` -/
  | alu (m : String) (rd rs rt : Nat)
  /-- `m rd, rt, sa` -/
  | shift (m : String) (rd rt sa : Nat)
  /-- `m rd, rt, rs` -/
  | shiftV (m : String) (rd rt rs : Nat)
  /-- `m rs, rt` -/
  | mulDiv (m : String) (rs rt : Nat)
  /-- `jr rs` -/
  | jr (rs : Nat)
  /-- `jalr rd, rs` -/
  | jalr (rd rs : Nat)
  /-- `m rd` -/
  | moveFrom (m : String) (rd : Nat)
  /-- `m rs` -/
  | moveTo (m : String) (rs : Nat)
  /-- `syscall`, `break` -/
  | trap (m : String) (code : Nat)
  /-- `m rt, rs, imm` -/
  | aluImm (m : String) (rt rs imm : Nat)
  /-- `lui rt, imm` -/
  | lui (rt imm : Nat)
  /-- `m rs, rt, offset` -/
  | branch (m : String) (rs rt offset : Nat)
  /-- `m rs, offset` -/
  | branchZ (m : String) (rs offset : Nat)
  /-- `m target` -/
  | jump (m : String) (target : Nat)
  /-- `m rt, offset(base)` -/
  | memory (m : String) (rt offset base : Nat)
deriving DecidableEq, Repr

/-- The mnemonic. -/
def MipsInstr.mnemonic : MipsInstr → String
  | .alu m .. | .shift m .. | .shiftV m .. | .mulDiv m .. | .moveFrom m _ | .moveTo m _ | .trap m _ | .aluImm m ..
  | .branch m .. | .branchZ m .. | .jump m _ | .memory m .. => m
  | .jr _ => "jr"
  | .jalr .. => "jalr"
  | .lui .. => "lui"

/-- How the operands of an instruction are laid out. -/
inductive MipsFormat where
  | alu | shift | shiftV | mulDiv | jr | jalr | moveFrom | moveTo | trap | aluImm | lui | branch | branchZ | jump | memory
deriving DecidableEq, Repr

/-- Instructions with opcode 0 (`SPECIAL`), by function code. -/
def mipsSpecial : List (Nat × String × MipsFormat) :=
  [(0x00, "sll", .shift), (0x02, "srl", .shift), (0x03, "sra", .shift), (0x04, "sllv", .shiftV), (0x06, "srlv", .shiftV),
   (0x07, "srav", .shiftV), (0x08, "jr", .jr), (0x09, "jalr", .jalr), (0x0C, "syscall", .trap), (0x0D, "break", .trap),
   (0x10, "mfhi", .moveFrom), (0x11, "mthi", .moveTo), (0x12, "mflo", .moveFrom), (0x13, "mtlo", .moveTo),
   (0x18, "mult", .mulDiv), (0x19, "multu", .mulDiv), (0x1A, "div", .mulDiv), (0x1B, "divu", .mulDiv),
   (0x20, "add", .alu), (0x21, "addu", .alu), (0x22, "sub", .alu), (0x23, "subu", .alu), (0x24, "and", .alu), (0x25, "or", .alu),
   (0x26, "xor", .alu), (0x27, "nor", .alu), (0x2A, "slt", .alu), (0x2B, "sltu", .alu)]

/-- Instructions with another opcode. -/
def mipsOpcodes : List (Nat × String × MipsFormat) :=
  [(0x02, "j", .jump), (0x03, "jal", .jump), (0x04, "beq", .branch), (0x05, "bne", .branch), (0x06, "blez", .branchZ),
   (0x07, "bgtz", .branchZ), (0x08, "addi", .aluImm), (0x09, "addiu", .aluImm), (0x0A, "slti", .aluImm), (0x0B, "sltiu", .aluImm),
   (0x0C, "andi", .aluImm), (0x0D, "ori", .aluImm), (0x0E, "xori", .aluImm), (0x0F, "lui", .lui), (0x20, "lb", .memory),
   (0x21, "lh", .memory), (0x23, "lw", .memory), (0x24, "lbu", .memory), (0x25, "lhu", .memory), (0x28, "sb", .memory),
   (0x29, "sh", .memory), (0x2B, "sw", .memory)]

/-- The operands of a word, given its mnemonic and format; none when a reserved field is set. -/
def mipsOperands (w : Nat) (m : String) (f : MipsFormat) : Option MipsInstr :=
  let rs := fld w 25 21
  let rt := fld w 20 16
  let rd := fld w 15 11
  let sa := fld w 10 6
  let imm := fld w 15 0
  match f with
  | .alu => if sa = 0 then some (.alu m rd rs rt) else none
  | .shift => if rs = 0 then some (.shift m rd rt sa) else none
  | .shiftV => if sa = 0 then some (.shiftV m rd rt rs) else none
  | .mulDiv => if rd = 0 ∧ sa = 0 then some (.mulDiv m rs rt) else none
  | .jr => if rt = 0 ∧ rd = 0 ∧ sa = 0 then some (.jr rs) else none
  | .jalr => if rt = 0 ∧ sa = 0 then some (.jalr rd rs) else none
  | .moveFrom => if rs = 0 ∧ rt = 0 ∧ sa = 0 then some (.moveFrom m rd) else none
  | .moveTo => if rt = 0 ∧ rd = 0 ∧ sa = 0 then some (.moveTo m rs) else none
  | .trap => some (.trap m (fld w 25 6))
  | .aluImm => some (.aluImm m rt rs imm)
  | .lui => if rs = 0 then some (.lui rt imm) else none
  | .branch => some (.branch m rs rt imm)
  | .branchZ => if rt = 0 then some (.branchZ m rs imm) else none
  | .jump => some (.jump m (fld w 25 0))
  | .memory => some (.memory m rt imm rs)

/-- The instruction a word stands for. -/
def decodeMips (w : Nat) : Option MipsInstr :=
  match (if fld w 31 26 = 0 then mipsSpecial.lookup (fld w 5 0) else mipsOpcodes.lookup (fld w 31 26)) with
  | some (m, f) => mipsOperands w m f
  | none => none

/-- The names of a register: its number and its conventional name. -/
def mipsRegNames : List (String × String) :=
  [("$0", "$zero"), ("$1", "$at"), ("$2", "$v0"), ("$3", "$v1"), ("$4", "$a0"), ("$5", "$a1"), ("$6", "$a2"), ("$7", "$a3"),
   ("$8", "$t0"), ("$9", "$t1"), ("$10", "$t2"), ("$11", "$t3"), ("$12", "$t4"), ("$13", "$t5"), ("$14", "$t6"), ("$15", "$t7"),
   ("$16", "$s0"), ("$17", "$s1"), ("$18", "$s2"), ("$19", "$s3"), ("$20", "$s4"), ("$21", "$s5"), ("$22", "$s6"), ("$23", "$s7"),
   ("$24", "$t8"), ("$25", "$t9"), ("$26", "$k0"), ("$27", "$k1"), ("$28", "$gp"), ("$29", "$sp"), ("$30", "$fp"), ("$31", "$ra")]

/-- The token names register `n`, in any case. -/
def MipsReg (t : Str) (n : Nat) : Prop :=
  ∃ p, mipsRegNames[n]? = some p ∧ (eqNoCase t p.1.toList ∨ eqNoCase t p.2.toList)

/-- An operand that is not a register. -/
def MipsConst (t : Str) : Prop := t ≠ [] ∧ t.head? ≠ some '$'

/-- The mnemonic `m` and operand tokens write the instruction.  `value t x`: the operand `t` stands
for the number `x`.  A branch operand is a distance in bytes and a jump operand an address, both
stored in words; the operand of `lui` is a full 32-bit number whose high half is stored. -/
inductive MipsWritten (value : Str → Int → Prop) : String → List Str → MipsInstr → Prop
  | alu {m a b e rd rs rt} : MipsReg a rd → MipsReg b rs → MipsReg e rt → MipsWritten value m [a, b, e] (.alu m rd rs rt)
  | shift {m a b e rd rt sa x} : MipsReg a rd → MipsReg b rt → MipsConst e → value e x → x % 32 = (sa : Nat) →
      MipsWritten value m [a, b, e] (.shift m rd rt sa)
  | shiftV {m a b e rd rt rs} : MipsReg a rd → MipsReg b rt → MipsReg e rs → MipsWritten value m [a, b, e] (.shiftV m rd rt rs)
  | jr {a rs} : MipsReg a rs → MipsWritten value "jr" [a] (.jr rs)
  | moveFrom {m a rd} : MipsReg a rd → MipsWritten value m [a] (.moveFrom m rd)
  | moveTo {m a rs} : MipsReg a rs → MipsWritten value m [a] (.moveTo m rs)
  | trap {m} : MipsWritten value m [] (.trap m 0)
  | aluImm {m a b e rt rs imm x} : MipsReg a rt → MipsReg b rs → MipsConst e → value e x → x % 2 ^ 16 = (imm : Nat) →
      MipsWritten value m [a, b, e] (.aluImm m rt rs imm)
  | lui {a e rt imm x} : MipsReg a rt → MipsConst e → value e x → x / 2 ^ 16 % 2 ^ 16 = (imm : Nat) →
      MipsWritten value "lui" [a, e] (.lui rt imm)
  | branch {m a b e rs rt offset x} : MipsReg a rs → MipsReg b rt → MipsConst e → value e x → x / 4 % 2 ^ 16 = (offset : Nat) →
      MipsWritten value m [a, b, e] (.branch m rs rt offset)
  | branchZ {m a e rs offset x} : MipsReg a rs → MipsConst e → value e x → x / 4 % 2 ^ 16 = (offset : Nat) →
      MipsWritten value m [a, e] (.branchZ m rs offset)
  | jump {m e target x} : MipsConst e → value e x → x / 4 % 2 ^ 26 = (target : Nat) → MipsWritten value m [e] (.jump m target)
  | memory {m a e b rt offset base x} : MipsReg a rt → MipsConst e → MipsReg b base → value e x → x % 2 ^ 16 = (offset : Nat) →
      MipsWritten value m [a, e, ['('], b, [')']] (.memory m rt offset base)

end Necro.Spec
