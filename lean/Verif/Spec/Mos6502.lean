import Verif.Model.Py
/-!
# The 6502 instruction set

The documented opcodes, written from the structure of the opcode byte `aaabbbcc` in the MOS
6500 family manual, not from the program's tables: `cc` selects a group, `aaa` the instruction and
`bbb` the addressing mode.
-/

namespace Necro.Spec

/-- The addressing modes. -/
inductive AddrMode where
  | implied | accumulator | immediate | zeroPage | zeroPageX | zeroPageY | absolute | absoluteX | absoluteY
  | indirect | indirectX | indirectY | relative
deriving DecidableEq, Repr

/-- Operand bytes. -/
def AddrMode.operandSize : AddrMode → Nat
  | .implied | .accumulator => 0
  | .absolute | .absoluteX | .absoluteY | .indirect => 2
  | _ => 1

/-- Group 01: the accumulator operations. -/
def group1 (aaa bbb : Nat) : Option (String × AddrMode) :=
  match ["ORA", "AND", "EOR", "ADC", "STA", "LDA", "CMP", "SBC"][aaa]?,
    [AddrMode.indirectX, .zeroPage, .immediate, .absolute, .indirectY, .zeroPageX, .absoluteY, .absoluteX][bbb]? with
  | some m, some a => if m = "STA" ∧ a = .immediate then none else some (m, a)
  | _, _ => none

/-- Group 10: shifts, `STX`, `LDX`, `DEC`, `INC`, and some one-byte instructions. -/
def group2 (aaa bbb : Nat) : Option (String × AddrMode) :=
  match ["ASL", "ROL", "LSR", "ROR", "STX", "LDX", "DEC", "INC"][aaa]? with
  | none => none
  | some m =>
    match bbb with
    | 0 => if m = "LDX" then some (m, .immediate) else none
    | 1 => some (m, .zeroPage)
    | 2 =>
      if aaa < 4 then some (m, .accumulator)
      else (["TXA", "TAX", "DEX", "NOP"][aaa - 4]?).map (·, .implied)
    | 3 => some (m, .absolute)
    | 5 => some (m, if m = "STX" ∨ m = "LDX" then .zeroPageY else .zeroPageX)
    | 6 => if m = "STX" then some ("TXS", .implied) else if m = "LDX" then some ("TSX", .implied) else none
    | 7 => if m = "STX" then none else some (m, if m = "LDX" then .absoluteY else .absoluteX)
    | _ => none

/-- Group 00: control flow, flags, `BIT`, `STY`, `LDY`, `CPY`, `CPX`. -/
def group0 (aaa bbb : Nat) : Option (String × AddrMode) :=
  let index := if aaa < 4 then none else ["STY", "LDY", "CPY", "CPX"][aaa - 4]?
  match bbb with
  | 0 => [some ("BRK", .implied), some ("JSR", .absolute), some ("RTI", .implied), some ("RTS", .implied), none,
      some ("LDY", .immediate), some ("CPY", .immediate), some ("CPX", .immediate)].getD aaa none
  | 1 => if aaa = 1 then some ("BIT", .zeroPage) else index.map (·, .zeroPage)
  | 2 => (["PHP", "PLP", "PHA", "PLA", "DEY", "TAY", "INY", "INX"][aaa]?).map (·, .implied)
  | 3 =>
    match aaa with
    | 1 => some ("BIT", .absolute)
    | 2 => some ("JMP", .absolute)
    | 3 => some ("JMP", .indirect)
    | _ => index.map (·, .absolute)
  | 4 => (["BPL", "BMI", "BVC", "BVS", "BCC", "BCS", "BNE", "BEQ"][aaa]?).map (·, .relative)
  | 5 => if aaa = 4 ∨ aaa = 5 then index.map (·, .zeroPageX) else none
  | 6 => (["CLC", "SEC", "CLI", "SEI", "TYA", "CLV", "CLD", "SED"][aaa]?).map (·, .implied)
  | 7 => if aaa = 5 then some ("LDY", .absoluteX) else none
  | _ => none

/-- The instruction and addressing mode of an opcode byte; `none` for the undocumented ones. -/
def decode6502 (op : Nat) : Option (String × AddrMode) :=
  match op % 4 with
  | 0 => group0 (op / 32) (op / 4 % 8)
  | 1 => group1 (op / 32) (op / 4 % 8)
  | 2 => group2 (op / 32) (op / 4 % 8)
  | _ => none

/-- The ways to write an operand in memory: `a`, `a X`, `a Y`, `( a )`, `( a X )`, `( a ) Y`
(the tokenizer drops commas). -/
inductive Shape where
  | direct | indexX | indexY | indirect | preX | postY
deriving DecidableEq, Repr

/-- The mode with a one-byte operand. -/
def Shape.narrow : Shape → Option AddrMode
  | .direct => some .zeroPage
  | .indexX => some .zeroPageX
  | .indexY => some .zeroPageY
  | .indirect => none
  | .preX => some .indirectX
  | .postY => some .indirectY

/-- The mode with a two-byte operand. -/
def Shape.wide : Shape → Option AddrMode
  | .direct => some .absolute
  | .indexX => some .absoluteX
  | .indexY => some .absoluteY
  | .indirect => some .indirect
  | .preX | .postY => none

/-- A register token, in either case. -/
def Reg (t : Str) (r : Char) : Prop := t = [r] ∨ t = [r.toLower]

instance (t r) : Decidable (Reg t r) := by unfold Reg; infer_instance

/-- The tokens `rest` write the address `a` in the given shape. -/
inductive Operand : List Str → Shape → Str → Prop
  | direct {a} : ¬ Reg a 'A' → Operand [a] .direct a
  | indexX {a x} : Reg x 'X' → Operand [a, x] .indexX a
  | indexY {a y} : Reg y 'Y' → Operand [a, y] .indexY a
  | indirect {a} : Operand [['('], a, [')']] .indirect a
  | preX {a x} : Reg x 'X' → Operand [['('], a, x, [')']] .preX a
  | postY {a y} : Reg y 'Y' → Operand [['('], a, [')'], y] .postY a

/-- An address token: anything that is not immediate. -/
def AddrToken (t : Str) : Prop := t ≠ [] ∧ t.head? ≠ some '#'

instance (t) : Decidable (AddrToken t) := by unfold AddrToken; infer_instance

/-- How the modes are written. -/
inductive Written : List Str → AddrMode → Prop
  | implied : Written [] .implied
  | accumulator {a} : Reg a 'A' → Written [a] .accumulator
  | immediate {v} : v ≠ [] → Written ['#' :: v] .immediate
  | memory {rest sh a mode} : Operand rest sh a → AddrToken a → sh.narrow = some mode ∨ sh.wide = some mode →
      Written rest mode
  | relative {t} : Written [t] .relative

end Necro.Spec
