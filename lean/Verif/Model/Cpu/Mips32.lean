import Verif.Model.Link
/-!
# /repo/necroassembler/cpu/mips32.py, and `AssemberPSX` of platforms/psx.py
-/

namespace Necro

/-- `str.lower()`; ASCII letters only (simplification). -/
def lower (s : Str) : Str := s.map Char.toLower

/-- mips32.py:5-10 `REGS_BASE` -/
def mipsBase : List Str :=
  ["$0", "$1", "$2", "$3", "$4", "$5", "$6", "$7", "$8", "$9", "$10", "$11", "$12", "$13", "$14", "$15", "$16", "$17",
   "$18", "$19", "$20", "$21", "$22", "$23", "$24", "$25", "$26", "$27", "$28", "$29", "$30", "$31"].map String.toList

/-- mips32.py:12-17 `REGS_ALIAS` -/
def mipsAlias : List Str :=
  ["$zero", "$at", "$v0", "$v1", "$a0", "$a1", "$a2", "$a3", "$t0", "$t1", "$t2", "$t3", "$t4", "$t5", "$t6", "$t7",
   "$s0", "$s1", "$s2", "$s3", "$s4", "$s5", "$s6", "$s7", "$t8", "$t9", "$k0", "$k1", "$gp", "$sp", "$fp", "$ra"].map String.toList

/-- mips32.py:19 `REGS` as an operand pattern. -/
def mipsRegs : Pat := .coll (mipsBase ++ mipsAlias)

/-- mips32.py:22-26 `IMMEDIATE` as an operand pattern. -/
def mipsImm : Pat := .pred fun t => !t.isEmpty && !startsWith t ['$']

/-- mips32.py:29-33 `_reg`.  `int(reg[1:])` of the entry at index `i` of `REGS_BASE` is `i`. -/
def mipsReg (t : Str) : H Int :=
  match mipsBase.findIdx? (· == lower t) with
  | some i => pure (i : Int)
  | none =>
    match mipsAlias.findIdx? (· == lower t) with
    | some i => pure (i : Int)
    | none => H.throw .valueError

/-- mips32.py:43-47 `_immediate_signed`, `_immediate_unsigned` -/
def mipsImm16 (signed : Bool) (t : Str) : H Int :=
  H.parseIntegerOrLabel { label := t, size := 4, bitsSize := 16, bits := some (15, 0) } signed

/-- mips32.py:49-53 `_offset` -/
def mipsOffset (t : Str) : H Int := do
  match ← H.parseInteger t 16 true with
  | none => H.throw .labelNotAllowed
  | some v => pure v

/-- mips32.py:55-61 `_abs_label` -/
def mipsAbs (t : Str) : H Int := do
  let v ← H.parseIntegerOrLabel { label := t, bits := some (25, 0), bitsSize := 32, filter := some fun x => pyShr (pyAnd x 0x0fffffff) 2, size := 4 }
  pure (pyShr v 2)

/-- mips32.py:63-69 `_rel_label` -/
def mipsRel (t : Str) : H Int := do
  let c ← H.read
  let v ← H.parseIntegerOrLabel { label := t, bitsSize := 18, bits := some (15, 0), filter := some fun x => pyShr x 2, relative := c.pc + 4, size := 4 }
  pure (pyShr v 2)

/-- mips32.py:71-87 `_immediate32` -/
def mipsHalf (high : Bool) (t : Str) : H Int :=
  if high then do
    let v ← H.parseIntegerOrLabel { label := t, bitsSize := 32, bits := some (15, 0), size := 4, filter := some fun x => pyShr x 16 }
    pure (pyShr v 16)
  else do
    let v ← H.parseIntegerOrLabel { label := t, bitsSize := 32, bits := some (15, 0), size := 4, filter := some fun x => pyAnd x 0xFFFF }
    pure (pyAnd v 0xFFFF)

/-- mips32.py:89-90 `_aaaaa` -/
def mipsShamt (t : Str) : H Int :=
  H.parseIntegerOrLabel { label := t, bitsSize := 5, bits := some (10, 6), size := 4 }

/-- mips32.py:92-96 `_build_opcode` (every call passes the base 0). -/
def mipsWord (be : Bool) (fs : List BitField) : H (Option Bytes) := do
  let v ← H.lift (packBits 0 fs)
  let b ← H.lift (if be then packBe32u [some v] else packLe32u [some v])
  pure (some b)

/-- The helper methods of mips32.py:98-166, each taking an opcode or function number. -/
inductive MipsForm where
  | arithLog | swapped | arithLogI (signed : Bool) | shift | shiftV | loadI (high : Bool) | branch | branchZ | jump | jumpR
  | loadStore | moveFrom | moveTo | noArgs
deriving DecidableEq, Repr

/-- mips32.py:98-166.  `swapped` stands for `self._arith_log(op, instr)` and
`self._div_mult(op, instr)`, called with the arguments exchanged: `op.match` is an
`AttributeError`, written here as `typeError`; both become `InvalidInstruction`. -/
def mipsRun (be : Bool) (form : MipsForm) (n : Nat) (tokens : List Str) : H (Option Bytes) :=
  let tok (i : Nat) : Str := tokens.getD i []
  match form with
  | .arithLog =>                                                          -- 98-101
    if instrMatch tokens [mipsRegs, mipsRegs, mipsRegs] then do
      let rd ← mipsReg (tok 1)
      let rs ← mipsReg (tok 2)
      let rt ← mipsReg (tok 3)
      mipsWord be [⟨25, 21, rs⟩, ⟨20, 16, rt⟩, ⟨15, 11, rd⟩, ⟨5, 0, n⟩]
    else pure none
  | .swapped => H.throw .typeError
  | .arithLogI signed =>                                                  -- 108-112
    if instrMatch tokens [mipsRegs, mipsRegs, mipsImm] then do
      let rt ← mipsReg (tok 1)
      let rs ← mipsReg (tok 2)
      let imm ← mipsImm16 signed (tok 3)
      mipsWord be [⟨31, 26, n⟩, ⟨25, 21, rs⟩, ⟨20, 16, rt⟩, ⟨15, 0, imm⟩]
    else pure none
  | .shift =>                                                             -- 114-117
    if instrMatch tokens [mipsRegs, mipsRegs, mipsImm] then do
      let rd ← mipsReg (tok 1)
      let rt ← mipsReg (tok 2)
      let sa ← mipsShamt (tok 3)
      mipsWord be [⟨20, 16, rt⟩, ⟨15, 11, rd⟩, ⟨10, 6, sa⟩, ⟨5, 0, n⟩]
    else pure none
  | .shiftV =>                                                            -- 119-122
    if instrMatch tokens [mipsRegs, mipsRegs, mipsRegs] then do
      let rd ← mipsReg (tok 1)
      let rt ← mipsReg (tok 2)
      let rs ← mipsReg (tok 3)
      mipsWord be [⟨25, 21, rs⟩, ⟨20, 16, rt⟩, ⟨15, 11, rd⟩, ⟨5, 0, n⟩]
    else pure none
  | .loadI high =>                                                        -- 124-127
    if instrMatch tokens [mipsRegs, mipsImm] then do
      let rt ← mipsReg (tok 1)
      let imm ← mipsHalf high (tok 2)
      mipsWord be [⟨31, 26, n⟩, ⟨20, 16, rt⟩, ⟨15, 0, imm⟩]
    else pure none
  | .branch =>                                                            -- 129-132
    if instrMatch tokens [mipsRegs, mipsRegs, mipsImm] then do
      let rs ← mipsReg (tok 1)
      let rt ← mipsReg (tok 2)
      let label ← mipsRel (tok 3)
      mipsWord be [⟨31, 26, n⟩, ⟨25, 21, rs⟩, ⟨20, 16, rt⟩, ⟨15, 0, label⟩]
    else pure none
  | .branchZ =>                                                           -- 134-137
    if instrMatch tokens [mipsRegs, mipsImm] then do
      let rs ← mipsReg (tok 1)
      let label ← mipsRel (tok 2)
      mipsWord be [⟨31, 26, n⟩, ⟨25, 21, rs⟩, ⟨15, 0, label⟩]
    else pure none
  | .jump =>                                                              -- 139-142
    if instrMatch tokens [mipsImm] then do
      let label ← mipsAbs (tok 1)
      mipsWord be [⟨31, 26, n⟩, ⟨25, 0, label⟩]
    else pure none
  | .jumpR =>                                                             -- 144-147
    if instrMatch tokens [mipsRegs] then do
      let rs ← mipsReg (tok 1)
      mipsWord be [⟨25, 21, rs⟩, ⟨5, 0, n⟩]
    else pure none
  | .loadStore =>                                                         -- 149-152
    if instrMatch tokens [mipsRegs, mipsImm, .str ['('], mipsRegs, .str [')']] then do
      let rt ← mipsReg (tok 1)
      let imm ← mipsOffset (tok 2)
      let rs ← mipsReg (tok 4)
      mipsWord be [⟨31, 26, n⟩, ⟨25, 21, rs⟩, ⟨20, 16, rt⟩, ⟨15, 0, imm⟩]
    else pure none
  | .moveFrom =>                                                          -- 154-157
    if instrMatch tokens [mipsRegs] then do
      let rd ← mipsReg (tok 1)
      mipsWord be [⟨15, 11, rd⟩, ⟨5, 0, n⟩]
    else pure none
  | .moveTo =>                                                            -- 159-162
    if instrMatch tokens [mipsRegs] then do
      let rs ← mipsReg (tok 1)
      mipsWord be [⟨25, 21, rs⟩, ⟨5, 0, n⟩]
    else pure none
  | .noArgs =>                                                            -- 164-166
    if tokens.length = 1 then mipsWord be [⟨5, 0, n⟩]
    else pure none

/-- mips32.py:168-378: the `@opcode` methods. -/
def mipsTable : List (String × MipsForm × Nat) :=
  [("add", .arithLog, 0b100000),
   ("addu", .arithLog, 0b100001),
   ("addi", .arithLogI true, 0b001000),
   ("addiu", .arithLogI false, 0b001001),
   ("and", .arithLog, 0b100100),
   ("andi", .arithLogI true, 0b001100),
   ("div", .swapped, 0b011010),
   ("divu", .swapped, 0b011011),
   ("mult", .swapped, 0b011000),
   ("multu", .swapped, 0b011001),
   ("nor", .swapped, 0b100111),
   ("or", .swapped, 0b100101),
   ("ori", .arithLogI true, 0b001101),
   ("sll", .shift, 0b000000),
   ("sllv", .shiftV, 0b000100),
   ("sra", .shift, 0b000011),
   ("srav", .shiftV, 0b000111),
   ("srl", .shift, 0b000010),
   ("srlv", .shiftV, 0b000110),
   ("sub", .swapped, 0b100010),
   ("subu", .swapped, 0b100011),
   ("xor", .swapped, 0b100110),
   ("xori", .arithLogI true, 0b001110),
   ("lui", .loadI true, 0b001111),
   ("lhi", .loadI true, 0b011001),
   ("llo", .loadI false, 0b011000),
   ("slt", .arithLog, 0b101010),
   ("sltu", .arithLog, 0b101001),
   ("slti", .arithLogI true, 0b001010),
   ("sltiu", .arithLogI false, 0b001001),
   ("beq", .branch, 0b000100),
   ("bgtz", .branchZ, 0b000111),
   ("blez", .branchZ, 0b000110),
   ("bne", .branch, 0b000101),
   ("j", .jump, 0b000010),
   ("jal", .jump, 0b000011),
   ("jalr", .jumpR, 0b001001),
   ("jr", .jumpR, 0b001000),
   ("lb", .loadStore, 0b100000),
   ("lbu", .loadStore, 0b100100),
   ("lh", .loadStore, 0b100001),
   ("lhu", .loadStore, 0b100101),
   ("lw", .loadStore, 0b100011),
   ("sb", .loadStore, 0b101000),
   ("sh", .loadStore, 0b101001),
   ("sw", .loadStore, 0b101011),
   ("mfhi", .moveFrom, 0b010000),
   ("mflo", .moveFrom, 0b010010),
   ("mthi", .moveTo, 0b010001),
   ("mtlo", .moveTo, 0b010011),
   ("trap", .jump, 0b011010),
   ("break", .noArgs, 0b001101),
   ("syscall", .noArgs, 0b001100)]

/-- mips32.py:36-41 `AssemblerMIPS32`; with `be = false` platforms/psx.py:5-7 `AssemberPSX`. -/
def mipsOn (be : Bool) : Dialect where
  sy := { hexPrefixes := ["0x".toList], binPrefixes := ["0b".toList] }
  bigEndian := be
  instrs := fun k => (dget (mipsTable.map fun p => (upper p.1.toList, p.2)) k).map fun p => .handler (mipsRun be p.1 p.2)

def mips32 : Dialect := mipsOn true
def psx : Dialect := mipsOn false

end Necro
