import Verif.Spec.Text
import Verif.Spec.Bits
import Verif.Model.State
/-!
# The instruction set of the Game Boy processor, decoded from the bytes

Written from the regular structure of the opcode map: the two high bits, the three middle
bits and the three low bits of the opcode.
-/

namespace Necro.Spec

/-- An operand as the manual writes it.  An instruction has at most one operand with a value of its own. -/
inductive GbArg where
  /-- a register or register pair -/
  | reg (name : String)
  /-- memory at the address in a register pair, `(HL)`, `(HL+)` -/
  | mem (name : String)
  /-- a condition -/
  | cond (name : String)
  /-- a bit number -/
  | bit (n : Nat)
  /-- a restart vector -/
  | vec (n : Nat)
  /-- `d8`, `d16` -/
  | imm8 | imm16
  /-- `(a16)` -/
  | mem16
  /-- `($FF00+a8)`, `($FF00+C)` -/
  | high | highC
  /-- `r8`: a signed distance -/
  | rel
  /-- `SP+r8` -/
  | spRel
deriving DecidableEq, Repr

def gbR8 (n : Nat) : GbArg :=
  match n with
  | 0 => .reg "B" | 1 => .reg "C" | 2 => .reg "D" | 3 => .reg "E" | 4 => .reg "H" | 5 => .reg "L" | 6 => .mem "HL" | _ => .reg "A"

def gbRp (n : Nat) : GbArg := match n with | 0 => .reg "BC" | 1 => .reg "DE" | 2 => .reg "HL" | _ => .reg "SP"
def gbRp2 (n : Nat) : GbArg := match n with | 0 => .reg "BC" | 1 => .reg "DE" | 2 => .reg "HL" | _ => .reg "AF"
def gbRpMem (n : Nat) : GbArg := match n with | 0 => .mem "BC" | 1 => .mem "DE" | 2 => .mem "HL+" | _ => .mem "HL-"
def gbCc (n : Nat) : GbArg := match n with | 0 => .cond "NZ" | 1 => .cond "Z" | 2 => .cond "NC" | _ => .cond "C"

/-- The arithmetic operations on `A`. -/
def gbAlu : List String := ["ADD", "ADC", "SUB", "SBC", "AND", "XOR", "OR", "CP"]
/-- The rotations and shifts behind the prefix. -/
def gbRot : List String := ["RLC", "RRC", "RL", "RR", "SLA", "SRA", "SWAP", "SRL"]
/-- The operations on `A` and the flags. -/
def gbAcc : List String := ["RLCA", "RRCA", "RLA", "RRA", "DAA", "CPL", "SCF", "CCF"]

/-- Mnemonic and operands of an opcode without prefix. -/
def gbShape (op : Nat) : Option (String × List GbArg) :=
  let y := op / 8 % 8
  let z := op % 8
  let p := y / 2
  let odd := y % 2 = 1
  match op / 64 with
  | 0 =>
    match z with
    | 0 => match y with
      | 0 => some ("NOP", [])
      | 1 => some ("LD", [.mem16, .reg "SP"])
      | 2 => some ("STOP", [])
      | 3 => some ("JR", [.rel])
      | _ => some ("JR", [gbCc (y - 4), .rel])
    | 1 => if odd then some ("ADD", [.reg "HL", gbRp p]) else some ("LD", [gbRp p, .imm16])
    | 2 => if odd then some ("LD", [.reg "A", gbRpMem p]) else some ("LD", [gbRpMem p, .reg "A"])
    | 3 => if odd then some ("DEC", [gbRp p]) else some ("INC", [gbRp p])
    | 4 => some ("INC", [gbR8 y])
    | 5 => some ("DEC", [gbR8 y])
    | 6 => some ("LD", [gbR8 y, .imm8])
    | _ => (gbAcc[y]?).map fun m => (m, [])
  | 1 => if op = 0x76 then some ("HALT", []) else some ("LD", [gbR8 y, gbR8 z])
  | 2 => (gbAlu[y]?).map fun m => (m, [.reg "A", gbR8 z])
  | 3 =>
    match z with
    | 0 => match y with
      | 4 => some ("LD", [.high, .reg "A"])
      | 5 => some ("ADD", [.reg "SP", .rel])
      | 6 => some ("LD", [.reg "A", .high])
      | 7 => some ("LD", [.reg "HL", .spRel])
      | _ => some ("RET", [gbCc y])
    | 1 =>
      if odd then match p with
        | 0 => some ("RET", [])
        | 1 => some ("RETI", [])
        | 2 => some ("JP", [.mem "HL"])
        | _ => some ("LD", [.reg "SP", .reg "HL"])
      else some ("POP", [gbRp2 p])
    | 2 => match y with
      | 4 => some ("LD", [.highC, .reg "A"])
      | 5 => some ("LD", [.mem16, .reg "A"])
      | 6 => some ("LD", [.reg "A", .highC])
      | 7 => some ("LD", [.reg "A", .mem16])
      | _ => some ("JP", [gbCc y, .imm16])
    | 3 => match y with
      | 0 => some ("JP", [.imm16])
      | 6 => some ("DI", [])
      | 7 => some ("EI", [])
      | _ => none
    | 4 => if y < 4 then some ("CALL", [gbCc y, .imm16]) else none
    | 5 => if odd then (if p = 0 then some ("CALL", [.imm16]) else none) else some ("PUSH", [gbRp2 p])
    | 6 => (gbAlu[y]?).map fun m => (m, [.reg "A", .imm8])
    | _ => some ("RST", [.vec (8 * y)])
  | _ => none

/-- Mnemonic and operands of an opcode behind the prefix `0xCB`. -/
def gbShapeCb (op : Nat) : Option (String × List GbArg) :=
  let y := op / 8 % 8
  let r := gbR8 (op % 8)
  match op / 64 with
  | 0 => (gbRot[y]?).map fun m => (m, [r])
  | 1 => some ("BIT", [.bit y, r])
  | 2 => some ("RES", [.bit y, r])
  | 3 => some ("SET", [.bit y, r])
  | _ => none

/-- A decoded instruction; `value` is that of its operand, 0 when it has none. -/
structure GbInstr where
  mnemonic : String
  args : List GbArg
  value : Int
deriving DecidableEq, Repr

/-- How the value of an operand is stored. -/
inductive GbData where
  | none | byte | signed | word
deriving DecidableEq, Repr

def GbArg.data : GbArg → GbData
  | .imm8 | .high => .byte
  | .imm16 | .mem16 => .word
  | .rel | .spRel => .signed
  | _ => .none

def gbData (args : List GbArg) : GbData :=
  match args.find? fun a => a.data ≠ .none with
  | some a => a.data
  | none => .none

/-- The values that can be stored so. -/
def GbData.holds : GbData → Int → Prop
  | .none, _ => True
  | .byte, x => 0 ≤ x ∧ x < 256
  | .word, x => 0 ≤ x ∧ x < 65536
  | .signed, x => -128 ≤ x ∧ x < 128

/-- The instruction that the bytes are, all of them. -/
def decodeGb (b : Bytes) : Option GbInstr :=
  match b with
  | [] => none
  | op :: rest =>
    if op = 0xCB then
      match rest with
      | [o] => (gbShapeCb o.toNat).map fun p => ⟨p.1, p.2, 0⟩
      | _ => none
    else if op = 0x10 then if rest = [0] then some ⟨"STOP", [], 0⟩ else none
    else
      match gbShape op.toNat with
      | none => none
      | some (m, args) =>
        match gbData args, rest with
        | .none, [] => some ⟨m, args, 0⟩
        | .byte, [x] => some ⟨m, args, x.toNat⟩
        | .signed, [x] => some ⟨m, args, x.toInt⟩
        | .word, [x, y] => some ⟨m, args, x.toNat + 256 * y.toNat⟩
        | _, _ => none

/-! ## How an instruction is written -/

/-- The two kinds of brackets. -/
def GbBrackets (o c : Str) : Prop := o = ['('] ∧ c = [')'] ∨ o = ['['] ∧ c = [']']

/-- The texts of the restart vectors. -/
def gbVecText (n : Nat) : List String :=
  match n with
  | 0 => ["00H"] | 8 => ["08H"] | 16 => ["10H"] | 24 => ["18H"] | 32 => ["20H"] | 40 => ["28H"] | 48 => ["30H"] | 56 => ["38H"] | _ => []

/-- The tokens write the operand; `v` is the value of the instruction's operand, and `value t x` says that the text `t` stands for
the number `x`. -/
inductive GbArgText (value : Str → Int → Prop) (v : Int) : GbArg → List Str → Prop
  | reg {n t} : eqNoCase t n.toList → GbArgText value v (.reg n) [t]
  | mem {n t o c} : GbBrackets o c → eqNoCase t n.toList → GbArgText value v (.mem n) [o, t, c]
  | cond {n t} : eqNoCase t n.toList → GbArgText value v (.cond n) [t]
  | bit {n t} : t = (toString n).toList → GbArgText value v (.bit n) [t]
  | vec {n t s} : s ∈ gbVecText n → eqNoCase t s.toList → GbArgText value v (.vec n) [t]
  | imm8 {t x} : value t x → v = x % 256 → GbArgText value v .imm8 [t]
  | imm16 {t x} : value t x → v = x % 65536 → GbArgText value v .imm16 [t]
  | mem16 {t x o c} : GbBrackets o c → value t x → v = x % 65536 → GbArgText value v .mem16 [o, t, c]
  | high {t x o c} : GbBrackets o c → value t x → v = x % 256 → GbArgText value v .high [o, "$FF00+".toList ++ t, c]
  | highC {t o c} : GbBrackets o c → eqNoCase t "$FF00+C".toList ∨ eqNoCase t ['C'] → GbArgText value v .highC [o, t, c]
  | rel {t x} : value t x → v % 256 = x % 256 → GbArgText value v .rel [t]
  | spPlus {t x} : value t x → v % 256 = x % 256 → GbArgText value v .spRel ["SP+".toList ++ t]
  | spMinus {t x} : value ('-' :: t) x → v % 256 = x % 256 → GbArgText value v .spRel ["SP-".toList ++ t]

/-- The tokens write the operands, one after the other. -/
inductive GbArgsText (value : Str → Int → Prop) (v : Int) : List GbArg → List Str → Prop
  | nil : GbArgsText value v [] []
  | cons {a as ts rest} : GbArgText value v a ts → GbArgsText value v as rest → GbArgsText value v (a :: as) (ts ++ rest)

/-- The line `m rest` writes the instruction.  The arithmetic operations on `A` may leave it
out, and `LDH` gives an address in the last page by its low byte. -/
inductive GbWritten (value : Str → Int → Prop) (m : Str) (rest : List Str) : GbInstr → Prop
  | plain {i} : eqNoCase m i.mnemonic.toList → GbArgsText value i.value i.args rest → GbWritten value m rest i
  | alu {name args v} : name ∈ gbAlu → eqNoCase m name.toList → GbArgsText value v args rest → GbWritten value m rest ⟨name, .reg "A" :: args, v⟩
  | ldhStore {o t c a x v} : eqNoCase m "LDH".toList → rest = [o, t, c, a] → GbBrackets o c → eqNoCase a ['A'] → value t x → v = x % 256 →
      GbWritten value m rest ⟨"LD", [.high, .reg "A"], v⟩
  | ldhLoad {o t c a x v} : eqNoCase m "LDH".toList → rest = [a, o, t, c] → GbBrackets o c → eqNoCase a ['A'] → value t x → v = x % 256 →
      GbWritten value m rest ⟨"LD", [.reg "A", .high], v⟩
  | stop {t} : eqNoCase m "STOP".toList → rest = [t] → t = ['0'] → GbWritten value m rest ⟨"STOP", [], 0⟩

/-- The lines that assemble to something else than they say.  `BRA` is not an instruction; `(H)` and `(L)` are taken for `(HL)`
behind the prefix; `($)`, `(F)`, `(0)` and `(+)` are taken for `($FF00+C)`; and `LD` looks no further than `SP+n` in its second
operand. -/
inductive GbOdd (m : Str) (rest : List Str) : Prop
  | bra : eqNoCase m "BRA".toList → GbOdd m rest
  | half {o x c} : eqNoCase x ['H'] ∨ eqNoCase x ['L'] → GbBrackets o c → rest = [o, x, c] ∨ (∃ n, rest = [n, o, x, c]) →
      (∃ r ∈ gbRot ++ ["BIT", "RES", "SET"], eqNoCase m r.toList) → GbOdd m rest
  | high {o x c a} : eqNoCase m "LD".toList → rest = [o, x, c, a] → GbBrackets o c → eqNoCase a ['A'] →
      x ∈ ([['$'], ['F'], ['f'], ['0'], ['+']] : List Str) → GbOdd m rest
  | sp {a b r} : eqNoCase m "LD".toList → rest = a :: b :: r → "SP+".toList.isPrefixOf b ∨ "SP-".toList.isPrefixOf b →
      ¬ (eqNoCase a "HL".toList ∧ r = []) → GbOdd m rest

/-- What stands in the instruction at address `pc` for a label at address `addr`: the distance from the next instruction where the
operand is signed, the address where it is not. -/
def gbReference (args : List GbArg) (pc addr : Int) : Int := if gbData args = .signed then addr - (pc + 2) else addr

end Necro.Spec
