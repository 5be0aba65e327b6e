import Verif.Model.Link
/-!
# /repo/necroassembler/cpu/mos6502.py
-/

namespace Necro

/-- mos6502.py:38-41 the addressing modes. -/
inductive Mode where
  | immediate | accumulator | absolute | absoluteX | absoluteY
  | zeroPage | zeroPageX | zeroPageY | indirect | indirectX | indirectY
deriving DecidableEq, Repr

/-- mos6502.py:54-84 `register_instructions`: one-byte instructions. -/
def m6502Fixed : List (String × Nat) :=
  [("BRK", 0x00),
   ("CLC", 0x18),
   ("SEC", 0x38),
   ("CLI", 0x58),
   ("SEI", 0x78),
   ("CLV", 0xB8),
   ("CLD", 0xD8),
   ("SED", 0xF8),
   ("NOP", 0xEA),
   ("TAX", 0xAA),
   ("TXA", 0x8A),
   ("DEX", 0xCA),
   ("INX", 0xE8),
   ("TAY", 0xA8),
   ("TYA", 0x98),
   ("DEY", 0x88),
   ("INY", 0xC8),
   ("RTI", 0x40),
   ("RTS", 0x60),
   ("TXS", 0x9A),
   ("TSX", 0xBA),
   ("PHA", 0x48),
   ("PLA", 0x68),
   ("PHP", 0x08),
   ("PLP", 0x28)]

/-- mos6502.py:198-228: branches. -/
def m6502Branches : List (String × Nat) :=
  [("BPL", 0x10),
   ("BMI", 0x30),
   ("BVC", 0x50),
   ("BVS", 0x70),
   ("BCC", 0x90),
   ("BCS", 0xB0),
   ("BNE", 0xD0),
   ("BEQ", 0xF0)]

/-- mos6502.py:165-405: the keyword arguments of each `_manage_mode` call. -/
def m6502Modes : List (String × List (Mode × Nat)) :=
  [("ADC", [(.immediate, 0x69), (.zeroPage, 0x65), (.zeroPageX, 0x75), (.absolute, 0x6D), (.absoluteX, 0x7D), (.absoluteY, 0x79), (.indirectX, 0x61), (.indirectY, 0x71)]),
   ("AND", [(.immediate, 0x29), (.zeroPage, 0x25), (.zeroPageX, 0x35), (.absolute, 0x2D), (.absoluteX, 0x3D), (.absoluteY, 0x39), (.indirectX, 0x21), (.indirectY, 0x31)]),
   ("ASL", [(.accumulator, 0x0A), (.zeroPage, 0x06), (.zeroPageX, 0x16), (.absolute, 0x0E), (.absoluteX, 0x1E)]),
   ("BIT", [(.zeroPage, 0x24), (.absolute, 0x2C)]),
   ("CMP", [(.immediate, 0xC9), (.zeroPage, 0xC5), (.zeroPageX, 0xD5), (.absolute, 0xCD), (.absoluteX, 0xDD), (.absoluteY, 0xD9), (.indirectX, 0xC1), (.indirectY, 0xD1)]),
   ("CPX", [(.immediate, 0xE0), (.zeroPage, 0xE4), (.absolute, 0xEC)]),
   ("CPY", [(.immediate, 0xC0), (.zeroPage, 0xC4), (.absolute, 0xCC)]),
   ("DEC", [(.zeroPage, 0xC6), (.zeroPageX, 0xD6), (.absolute, 0xCE), (.absoluteX, 0xDE)]),
   ("EOR", [(.immediate, 0x49), (.zeroPage, 0x45), (.zeroPageX, 0x55), (.absolute, 0x4D), (.absoluteX, 0x5D), (.absoluteY, 0x59), (.indirectX, 0x41), (.indirectY, 0x51)]),
   ("INC", [(.zeroPage, 0xE6), (.zeroPageX, 0xF6), (.absolute, 0xEE), (.absoluteX, 0xFE)]),
   ("JMP", [(.absolute, 0x4C), (.indirect, 0x6C)]),
   ("JSR", [(.absolute, 0x20)]),
   ("LDA", [(.immediate, 0xA9), (.zeroPage, 0xA5), (.zeroPageX, 0xB5), (.absolute, 0xAD), (.absoluteX, 0xBD), (.absoluteY, 0xB9), (.indirectX, 0xA1), (.indirectY, 0xB1)]),
   ("LDX", [(.immediate, 0xA2), (.zeroPage, 0xA6), (.zeroPageY, 0xB6), (.absolute, 0xAE), (.absoluteY, 0xBE)]),
   ("LDY", [(.immediate, 0xA0), (.zeroPage, 0xA4), (.zeroPageX, 0xB4), (.absolute, 0xAC), (.absoluteX, 0xBC)]),
   ("LSR", [(.accumulator, 0x4A), (.zeroPage, 0x46), (.zeroPageX, 0x56), (.absolute, 0x4E), (.absoluteX, 0x5E)]),
   ("ORA", [(.immediate, 0x09), (.zeroPage, 0x05), (.zeroPageX, 0x15), (.absolute, 0x0D), (.absoluteX, 0x1D), (.absoluteY, 0x19), (.indirectX, 0x01), (.indirectY, 0x11)]),
   ("ROL", [(.accumulator, 0x2A), (.zeroPage, 0x26), (.zeroPageX, 0x36), (.absolute, 0x2E), (.absoluteX, 0x3E)]),
   ("ROR", [(.accumulator, 0x6A), (.zeroPage, 0x66), (.zeroPageX, 0x76), (.absolute, 0x6E), (.absoluteX, 0x7E)]),
   ("SBC", [(.immediate, 0xE9), (.zeroPage, 0xE5), (.zeroPageX, 0xF5), (.absolute, 0xED), (.absoluteX, 0xFD), (.absoluteY, 0xF9), (.indirectX, 0xE1), (.indirectY, 0xF1)]),
   ("STA", [(.zeroPage, 0x85), (.zeroPageX, 0x95), (.absolute, 0x8D), (.absoluteX, 0x9D), (.absoluteY, 0x99), (.indirectX, 0x81), (.indirectY, 0x91)]),
   ("STX", [(.zeroPage, 0x86), (.zeroPageY, 0x96), (.absolute, 0x8E)]),
   ("STY", [(.zeroPage, 0x84), (.zeroPageX, 0x94), (.absolute, 0x8C)])]

/-- mos6502.py:19-20 `_check_immediate` -/
def isImmediate (t : Str) : Bool := decide (1 < t.length) && startsWith t ['#']
/-- mos6502.py:23-24 `_check_address` -/
def isAddress (t : Str) : Bool := !t.isEmpty && !startsWith t ['#']
/-- mos6502.py:34-35 -/
def isZeroPage (a : Int) : Bool := 0 ≤ a ∧ a ≤ 0xff

/-- `pack_byte(a, b)` and friends inside a handler. -/
def hPackByte (l : List Int) : H (Option Bytes) := do
  let b ← H.lift (packByte (l.map some))
  pure (some b)

/-- `pack('<..', ...)` inside a handler. -/
def hPack (be : Bool) (fs : List Fmt) (l : List Int) : H (Option Bytes) := do
  let b ← H.lift (pack be fs (l.map some))
  pure (some b)

/-- mos6502.py:86-91 `_manage_branching` -/
def m6502Branch (code : Nat) (tokens : List Str) : H (Option Bytes) := do
  match tokens[1]? with
  | none => H.throw .indexError
  | some arg =>
    let c ← H.read
    let address ← H.parseIntegerOrLabel
      { label := arg, bitsSize := 8, size := 1, offset := 1, relative := c.pc + 2 }
    hPack false [.B, .b] [code, address]

/-- mos6502.py:12, 16, 8 -/
def absoluteNotAllowed : Err := .platform "AbsoluteAddressNotAllowed"
def unsupportedMode : Err := .platform "UnsupportedModeForOpcode"
def invalidMode : Err := .platform "InvalidMode"

/-- mos6502.py:93-124 `_manage_address` -/
def m6502Address (absolute zeroPage : Option Nat) (arg : Str) : H (Option Bytes) := do
  match ← H.parseInteger arg 16 false with
  | some address =>
    match zeroPage, isZeroPage address with
    | some zp, true => hPackByte [zp, address]
    | _, _ =>
      match absolute with
      | none => H.throw absoluteNotAllowed
      | some op => hPack false [.B, .H] [op, address]
  | none =>
    match ← H.labelAddress arg with
    | none =>
      match absolute with
      | none => H.throw absoluteNotAllowed
      | some op =>
        H.reloc { label := arg, size := 2, bitsSize := 16, offset := 1 }
        hPack false [.B, .H] [op, 0]
    | some address =>
      match zeroPage, isZeroPage address with
      | some zp, true => hPackByte [zp, address]
      | _, _ =>
        match absolute with
        | none => H.throw absoluteNotAllowed
        | some op =>
          H.reloc { label := arg, size := 2, offset := 1, bitsSize := 16 }
          hPack false [.B, .H] [op, 0]

/-- `kwargs[mode]`: a missing key is `KeyError`, turned into
`UnsupportedModeForOpcode` (mos6502.py:160-161). -/
def needMode (m : List (Mode × Nat)) (k : Mode) : H Nat :=
  match dget m k with
  | some v => pure v
  | none => H.throw unsupportedMode

/-- mos6502.py:126-163 `_manage_mode`; the `known_args` test at 128 holds for every
call in the file. -/
def m6502Mode (m : List (Mode × Nat)) (tokens : List Str) : H (Option Bytes) := do
  let tok (i : Nat) : Str := tokens.getD i []
  let ADDR := Pat.pred isAddress
  let A := Pat.str ['A']
  let X := Pat.str ['X']
  let Y := Pat.str ['Y']
  let L := Pat.str ['(']
  let R := Pat.str [')']
  if instrMatch tokens [A] then
    let op ← needMode m .accumulator
    hPackByte [op]
  else if instrMatch tokens [.pred isImmediate] then
    let op ← needMode m .immediate
    let v ← H.parseIntegerOrLabel
      { label := (tok 1).drop 1, bitsSize := 8, offset := 1, size := 1 }
    hPackByte [op, v]
  else if instrMatch tokens [ADDR] then
    m6502Address (dget m .absolute) (dget m .zeroPage) (tok 1)
  else if instrMatch tokens [ADDR, X] then
    m6502Address (dget m .absoluteX) (dget m .zeroPageX) (tok 1)
  else if instrMatch tokens [ADDR, Y] then
    m6502Address (dget m .absoluteY) (dget m .zeroPageY) (tok 1)
  else if instrMatch tokens [L, ADDR, R] then
    let op ← needMode m .indirect
    m6502Address (some op) none (tok 2)
  else if instrMatch tokens [L, ADDR, X, R] then
    let op ← needMode m .indirectX
    m6502Address none (some op) (tok 2)
  else if instrMatch tokens [L, ADDR, R, Y] then
    let op ← needMode m .indirectY
    m6502Address none (some op) (tok 2)
  else H.throw invalidMode

/-- The instruction table of `AssemblerMOS6502`. -/
def m6502Table : List (Str × InstrDef) :=
  m6502Fixed.map (fun p => (p.1.toList, InstrDef.fixed [BitVec.ofNat 8 p.2])) ++
  m6502Branches.map (fun p => (p.1.toList, InstrDef.handler (m6502Branch p.2))) ++
  m6502Modes.map (fun p => (p.1.toList, InstrDef.handler (m6502Mode p.2)))

/-- mos6502.py:44-50 `AssemblerMOS6502` -/
def mos6502 : Dialect where
  sy := { hexPrefixes := [['$']], binPrefixes := [['%']], octPrefixes := [['@']] }
  instrs := dget m6502Table

end Necro
