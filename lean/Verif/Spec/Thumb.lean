import Verif.Spec.Bits
import Verif.Spec.Text
import Verif.Spec.Expr
/-!
# The Thumb instruction set

Written from the ARM7TDMI data sheet (chapter 5, formats 1 to 19), not from the assembler.
-/

namespace Necro.Spec

/-- An operand as the data sheet writes it. -/
inductive TArg where
  | reg (n : Nat)
  | imm (v : Nat)
  | lb
  | rb
  /-- a distance in bytes from the instruction's address plus 4, of `k` bits -/
  | dist (k : Nat) (off : Int)
  | num (n : Nat)
  /-- a set of low registers, and whether LR (of PUSH) or PC (of POP) is in it too -/
  | regs (mask : Nat) (link : Bool)
  /-- a base register with write-back -/
  | base (n : Nat)
deriving DecidableEq, Repr

/-- The mnemonics. -/
inductive TOp where
  | LSL | LSR | ASR | ADD | SUB | MOV | CMP | AND | EOR | ADC | SBC | ROR | TST | NEG | CMN | ORR | MUL | BIC | MVN | BX
  | LDR | LDRB | LDRH | LDSB | LDSH | STR | STRB | STRH | PUSH | POP | STMIA | LDMIA
  | B | BEQ | BNE | BCS | BCC | BMI | BPL | BVS | BVC | BHI | BLS | BGE | BLT | BGT | BLE | SWI | BL
deriving DecidableEq, Repr

def TOp.name : TOp → String
  | .LSL => "LSL" | .LSR => "LSR" | .ASR => "ASR" | .ADD => "ADD" | .SUB => "SUB" | .MOV => "MOV" | .CMP => "CMP" | .AND => "AND"
  | .EOR => "EOR" | .ADC => "ADC" | .SBC => "SBC" | .ROR => "ROR" | .TST => "TST" | .NEG => "NEG" | .CMN => "CMN" | .ORR => "ORR"
  | .MUL => "MUL" | .BIC => "BIC" | .MVN => "MVN" | .BX => "BX" | .LDR => "LDR" | .LDRB => "LDRB" | .LDRH => "LDRH" | .LDSB => "LDSB"
  | .LDSH => "LDSH" | .STR => "STR" | .STRB => "STRB" | .STRH => "STRH" | .PUSH => "PUSH" | .POP => "POP" | .STMIA => "STMIA" | .LDMIA => "LDMIA"
  | .B => "B" | .BEQ => "BEQ" | .BNE => "BNE" | .BCS => "BCS" | .BCC => "BCC" | .BMI => "BMI" | .BPL => "BPL" | .BVS => "BVS"
  | .BVC => "BVC" | .BHI => "BHI" | .BLS => "BLS" | .BGE => "BGE" | .BLT => "BLT" | .BGT => "BGT" | .BLE => "BLE" | .SWI => "SWI"
  | .BL => "BL"

structure TInstr where
  op : TOp
  args : List TArg
deriving DecidableEq, Repr

def thAluNames : List TOp :=
  [.AND, .EOR, .LSL, .LSR, .ASR, .ADC, .SBC, .ROR, .TST, .NEG, .CMP, .CMN, .ORR, .MUL, .BIC, .MVN]

def thCondNames : List TOp :=
  [.BEQ, .BNE, .BCS, .BCC, .BMI, .BPL, .BVS, .BVC, .BHI, .BLS, .BGE, .BLT, .BGT, .BLE]

/-- Load and store with register offset, by bits 11 to 9. -/
def thMemNames : List TOp := [.STR, .STRH, .STRB, .LDSB, .LDR, .LDRH, .LDRB, .LDSH]

/-- The instruction of a 16-bit word; none when undefined, and none for the two halves of `BL`. -/
def decode16 (w : Nat) : Option TInstr :=
  let rd := w % 8
  let rs := w / 8 % 8
  let rn := w / 64 % 8
  let imm5 := w / 64 % 32
  let r8 := w / 256 % 8
  let imm8 := w % 256
  let mem (op : TOp) (b : Nat) (off : Nat) : Option TInstr := some ⟨op, [.reg rd, .lb, .reg b, .imm off, .rb]⟩
  match w / 2048 with
  | 0 => some ⟨.LSL, [.reg rd, .reg rs, .imm imm5]⟩
  | 1 => some ⟨.LSR, [.reg rd, .reg rs, .imm (if imm5 = 0 then 32 else imm5)]⟩
  | 2 => some ⟨.ASR, [.reg rd, .reg rs, .imm (if imm5 = 0 then 32 else imm5)]⟩
  | 3 => some ⟨if w / 512 % 2 = 0 then .ADD else .SUB, [.reg rd, .reg rs, if w / 1024 % 2 = 0 then .reg rn else .imm rn]⟩
  | 4 => some ⟨.MOV, [.reg r8, .imm imm8]⟩
  | 5 => some ⟨.CMP, [.reg r8, .imm imm8]⟩
  | 6 => some ⟨.ADD, [.reg r8, .imm imm8]⟩
  | 7 => some ⟨.SUB, [.reg r8, .imm imm8]⟩
  | 8 =>
    if w / 1024 % 2 = 0 then some ⟨thAluNames.getD (w / 64 % 16) .AND, [.reg rd, .reg rs]⟩
    else
      let h1 := w / 128 % 2
      let h2 := w / 64 % 2
      if w / 256 % 4 = 3 then (if h1 = 0 ∧ rd = 0 then some ⟨.BX, [.reg (rs + 8 * h2)]⟩ else none)
      else if h1 = 0 ∧ h2 = 0 then none
      else some ⟨[TOp.ADD, .CMP, .MOV].getD (w / 256 % 4) .ADD, [.reg (rd + 8 * h1), .reg (rs + 8 * h2)]⟩
  | 9 => some ⟨.LDR, [.reg r8, .lb, .reg 15, .imm (imm8 * 4), .rb]⟩
  | 10 => some ⟨thMemNames.getD (w / 512 % 8) .STR, [.reg rd, .lb, .reg rs, .reg rn, .rb]⟩
  | 11 => some ⟨thMemNames.getD (w / 512 % 8) .STR, [.reg rd, .lb, .reg rs, .reg rn, .rb]⟩
  | 12 => mem .STR rs (imm5 * 4)
  | 13 => mem .LDR rs (imm5 * 4)
  | 14 => mem .STRB rs imm5
  | 15 => mem .LDRB rs imm5
  | 16 => mem .STRH rs (imm5 * 2)
  | 17 => mem .LDRH rs (imm5 * 2)
  | 18 => some ⟨.STR, [.reg r8, .lb, .reg 13, .imm (imm8 * 4), .rb]⟩
  | 19 => some ⟨.LDR, [.reg r8, .lb, .reg 13, .imm (imm8 * 4), .rb]⟩
  | 20 => some ⟨.ADD, [.reg r8, .reg 15, .imm (imm8 * 4)]⟩
  | 21 => some ⟨.ADD, [.reg r8, .reg 13, .imm (imm8 * 4)]⟩
  | 22 =>
    if r8 = 0 then some ⟨if imm8 / 128 = 0 then .ADD else .SUB, [.reg 13, .imm (imm8 % 128 * 4)]⟩
    else if r8 = 4 then some ⟨.PUSH, [.regs imm8 false]⟩
    else if r8 = 5 then some ⟨.PUSH, [.regs imm8 true]⟩
    else none
  | 23 => if r8 = 4 then some ⟨.POP, [.regs imm8 false]⟩ else if r8 = 5 then some ⟨.POP, [.regs imm8 true]⟩ else none
  | 24 => some ⟨.STMIA, [.base r8, .regs imm8 false]⟩
  | 25 => some ⟨.LDMIA, [.base r8, .regs imm8 false]⟩
  | 28 => some ⟨.B, [.dist 12 (toSigned 11 (w % 2048) * 2)]⟩
  | 26 => some ⟨thCondNames.getD (w / 256 % 16) .BEQ, [.dist 9 (toSigned 8 imm8 * 2)]⟩
  | 27 =>
    if w / 256 % 16 = 15 then some ⟨.SWI, [.num imm8]⟩
    else if w / 256 % 16 = 14 then none
    else some ⟨thCondNames.getD (w / 256 % 16) .BEQ, [.dist 9 (toSigned 8 imm8 * 2)]⟩
  | _ => none

/-- `BL`, two words: the first holds the high and the second the low eleven bits of the distance. -/
def decodeBl (w₁ w₂ : Nat) : Option TInstr :=
  if w₁ / 2048 = 30 ∧ w₂ / 2048 = 31 then some ⟨.BL, [.dist 23 (toSigned 22 (w₁ % 2048 * 2048 + w₂ % 2048) * 2)]⟩ else none

/-- The names of register `n`. -/
def thRegNames : List (List String) :=
  [["r0"], ["r1"], ["r2"], ["r3"], ["r4"], ["r5"], ["r6"], ["r7"], ["r8"], ["r9"], ["r10"], ["r11", "fp"], ["r12", "ip"],
   ["r13", "sp"], ["r14", "lr"], ["r15", "pc"]]

/-- The token names register `n`, in any case. -/
def ThReg (t : Str) (n : Nat) : Prop := ∃ s ∈ thRegNames.getD n [], eqNoCase t s.toList

/-- An item of a register list: one low register, or a range of them. -/
inductive ThItem : Str → Nat → Nat → Prop
  | one {t n} : n < 8 → ThReg t n → ThItem t n n
  | range {a b n k} : n ≤ k → k < 8 → ThReg a n → ThReg b k → ThItem (a ++ '-' :: b) n k

/-- The tokens write the operand.  `value t x`: the text `t` stands for the number `x`. -/
inductive ThArgText (value : Str → Int → Prop) : TArg → List Str → Prop
  | reg {n t} : ThReg t n → ThArgText value (.reg n) [t]
  | imm {v : Nat} {t x} : value t x → (v : Int) = x % 256 → ThArgText value (.imm v) ['#' :: t]
  | lb : ThArgText value .lb [['[']]
  | rb : ThArgText value .rb [[']']]
  | dist {k off t x} : t.head? ≠ some '#' → value t x → off % 2 ^ k = x % 2 ^ k → ThArgText value (.dist k off) [t]
  | num {n : Nat} {t} : Reads 10 t n → ThArgText value (.num n) [t]
  | regs {mask items} : items ≠ [] → (∀ t ∈ items, ∃ a b, ThItem t a b) →
      (∀ r, mask.testBit r = true ↔ ∃ t ∈ items, ∃ a b, ThItem t a b ∧ a ≤ r ∧ r ≤ b) →
      ThArgText value (.regs mask false) (['{'] :: items ++ [['}']])

inductive ThArgsText (value : Str → Int → Prop) : List TArg → List Str → Prop
  | nil : ThArgsText value [] []
  | cons {a as ts rest} : ThArgText value a ts → ThArgsText value as rest → ThArgsText value (a :: as) (ts ++ rest)

/-- The mnemonic and operands write the instruction. -/
structure ThWritten (value : Str → Int → Prop) (m : Str) (rest : List Str) (i : TInstr) : Prop where
  op : eqNoCase m i.op.name.toList
  args : ThArgsText value i.args rest

/-- Lines whose code is not the instruction written; `Necro.C61_…` show what each becomes. -/
inductive ThOdd (value : Str → Int → Prop) (m : Str) (rest : List Str) : Prop
  /-- `ADD rd, pc, #n` and `ADD rd, sp, #n`: the offset is not divided by 4 -/
  | addOffset {a b i n} : eqNoCase m "ADD".toList → rest = [a, b, i] → (n = 13 ∨ n = 15) → ThReg b n → ThOdd value m rest
  /-- `LDRB rd, [rb, #n]`: the offset is divided by 4 -/
  | ldrb {t} : eqNoCase m "LDRB".toList → ('#' :: t) ∈ rest → ThOdd value m rest
  /-- `LDRH`: wrong code, or an offset not divided by 2 -/
  | ldrh : eqNoCase m "LDRH".toList → ThOdd value m rest
  /-- `STR rd, [rb, #n]`: the code of `LDR` -/
  | str {t} : eqNoCase m "STR".toList → ('#' :: t) ∈ rest → ThOdd value m rest
  /-- a right shift by 0, which the processor takes as one by 32 -/
  | shift {t x} : eqNoCase m "LSR".toList ∨ eqNoCase m "ASR".toList → ('#' :: t) ∈ rest → value t x → x % 256 = 0 → ThOdd value m rest
  /-- a load offset that is negative or not a multiple of 4 -/
  | offset {t x} : eqNoCase m "LDR".toList → ('#' :: t) ∈ rest → value t x → (x < 0 ∨ x % 4 ≠ 0) → ThOdd value m rest
  /-- an odd branch distance -/
  | odd {t x} : (∃ n ∈ TOp.B :: thCondNames, eqNoCase m n.name.toList) → t ∈ rest → value t x → x % 2 ≠ 0 → ThOdd value m rest
  /-- `PUSH` of a list ending in LR: the code of `POP` -/
  | push {pre t} : eqNoCase m "PUSH".toList → rest = pre ++ [t, ['}']] → eqNoCase t "lr".toList → ThOdd value m rest

/-- Plain text of an operand: the number written is the operand's value, not merely equal to it up to
wrapping.  `number t x dec`: the text is the number `x`, in decimal or not; offsets from 128 on must
not be in decimal, and single registers in a list must be in lower case. -/
inductive ThPlain (number : Str → Int → Bool → Prop) : TArg → List Str → Prop
  | reg {n t} : ThReg t n → ThPlain number (.reg n) [t]
  | imm {v : Nat} {t dec} : number t v dec → (v < 128 ∨ dec = false) → ThPlain number (.imm v) ['#' :: t]
  | lb : ThPlain number .lb [['[']]
  | rb : ThPlain number .rb [[']']]
  | dist {k off t dec} : t.head? ≠ some '#' → number t off dec → (dec = true ∨ 0 ≤ off) → ThPlain number (.dist k off) [t]
  | num {n : Nat} {t} : Reads 10 t n → ThPlain number (.num n) [t]
  | regs {mask items} : items ≠ [] → (∀ t ∈ items, (∃ a b, ThItem t a b) ∧ ('-' ∈ t ∨ ∀ c ∈ t, c.isUpper = false)) →
      (∀ r, mask.testBit r = true ↔ ∃ t ∈ items, ∃ a b, ThItem t a b ∧ a ≤ r ∧ r ≤ b) →
      ThPlain number (.regs mask false) (['{'] :: items ++ [['}']])

inductive ThPlainArgs (number : Str → Int → Bool → Prop) : List TArg → List Str → Prop
  | nil : ThPlainArgs number [] []
  | cons {a as ts rest} : ThPlain number a ts → ThPlainArgs number as rest → ThPlainArgs number (a :: as) (ts ++ rest)

/-- Instructions the assembler has no way to write. -/
def thMissing (i : TInstr) : Bool :=
  match i.op, i.args with
  | .STRB, _ => true
  | .STMIA, _ => true
  | .LDMIA, _ => true
  | .POP, _ => true
  | .PUSH, [.regs mask link] => link || mask == 0
  | .LSR, [_, _, .imm v] => v == 32
  | .ASR, [_, _, .imm v] => v == 32
  | .ADD, [_, .reg 13, .imm _] => true
  | .ADD, [_, .reg 15, .imm _] => true
  | .ADD, [.reg 13, .imm _] => true
  | .SUB, [.reg 13, .imm _] => true
  | .LDRH, _ => true
  | .STRH, [_, _, _, .imm _, _] => true
  | .STR, [_, _, _, .imm _, _] => true
  | .LDRB, [_, _, _, .imm _, _] => true
  | .LDR, [_, _, _, .imm v, _] => 255 < v
  | _, _ => false

end Necro.Spec
