import Verif.Spec.Mc68000
/-!
# The instruction set of the Z80, decoded from the bytes

Written from the regular structure of the opcode map: the two high bits, the three middle bits and the three low
bits of the opcode, behind no prefix, `0xCB`, `0xED`, `0xDD`, `0xFD`, `0xDD 0xCB` or `0xFD 0xCB`.
-/

namespace Necro.Spec

/-- An operand as the manual writes it.  An instruction has at most one index operand and at most one operand with
another value of its own. -/
inductive Z80Arg where
  /-- a register or register pair -/
  | reg (name : String)
  /-- memory at the address in a register pair, or the port in `C` -/
  | mem (name : String)
  /-- memory at `IX+d`, or at `IY+d` -/
  | idx (iy : Bool)
  /-- a condition -/
  | cond (name : String)
  /-- a bit number -/
  | bit (n : Nat)
  /-- a restart vector -/
  | vec (n : Nat)
  /-- an interrupt mode -/
  | mode (name : String)
  /-- the constant 0 of `OUT (C),0` -/
  | zero
  /-- the operation whose result a register also receives, in the undocumented instructions behind `0xDD 0xCB` -/
  | op (name : String)
  /-- `n`, `nn` -/
  | imm8 | imm16
  /-- `(nn)`, `(n)` -/
  | mem16 | port
  /-- a signed distance -/
  | rel
deriving DecidableEq, Repr

def z80R8 (n : Nat) : Z80Arg :=
  match n with
  | 0 => .reg "B" | 1 => .reg "C" | 2 => .reg "D" | 3 => .reg "E" | 4 => .reg "H" | 5 => .reg "L" | 6 => .mem "HL" | _ => .reg "A"

def z80Rp (n : Nat) : Z80Arg := match n with | 0 => .reg "BC" | 1 => .reg "DE" | 2 => .reg "HL" | _ => .reg "SP"
def z80Rp2 (n : Nat) : Z80Arg := match n with | 0 => .reg "BC" | 1 => .reg "DE" | 2 => .reg "HL" | _ => .reg "AF"

def z80Cc (n : Nat) : Z80Arg :=
  match n with
  | 0 => .cond "NZ" | 1 => .cond "Z" | 2 => .cond "NC" | 3 => .cond "C" | 4 => .cond "PO" | 5 => .cond "PE" | 6 => .cond "P" | _ => .cond "M"

/-- The arithmetic operations; three of them name `A`. -/
def z80Alu (n : Nat) (x : Z80Arg) : String × List Z80Arg :=
  match n with
  | 0 => ("ADD", [.reg "A", x]) | 1 => ("ADC", [.reg "A", x]) | 2 => ("SUB", [x]) | 3 => ("SBC", [.reg "A", x])
  | 4 => ("AND", [x]) | 5 => ("XOR", [x]) | 6 => ("OR", [x]) | _ => ("CP", [x])

/-- The rotations and shifts. -/
def z80Rot : List String := ["RLC", "RRC", "RL", "RR", "SLA", "SRA", "SLL", "SRL"]
/-- The operations on `A` and the flags. -/
def z80Acc : List String := ["RLCA", "RRCA", "RLA", "RRA", "DAA", "CPL", "SCF", "CCF"]

/-- Mnemonic and operands of an opcode without prefix. -/
def z80Shape (op : Nat) : Option (String × List Z80Arg) :=
  let y := op / 8 % 8
  let z := op % 8
  let p := y / 2
  let odd := y % 2 = 1
  match op / 64 with
  | 0 =>
    match z with
    | 0 => match y with
      | 0 => some ("NOP", [])
      | 1 => some ("EX", [.reg "AF", .reg "AF'"])
      | 2 => some ("DJNZ", [.rel])
      | 3 => some ("JR", [.rel])
      | _ => some ("JR", [z80Cc (y - 4), .rel])
    | 1 => if odd then some ("ADD", [.reg "HL", z80Rp p]) else some ("LD", [z80Rp p, .imm16])
    | 2 => match y with
      | 0 => some ("LD", [.mem "BC", .reg "A"])
      | 1 => some ("LD", [.reg "A", .mem "BC"])
      | 2 => some ("LD", [.mem "DE", .reg "A"])
      | 3 => some ("LD", [.reg "A", .mem "DE"])
      | 4 => some ("LD", [.mem16, .reg "HL"])
      | 5 => some ("LD", [.reg "HL", .mem16])
      | 6 => some ("LD", [.mem16, .reg "A"])
      | _ => some ("LD", [.reg "A", .mem16])
    | 3 => if odd then some ("DEC", [z80Rp p]) else some ("INC", [z80Rp p])
    | 4 => some ("INC", [z80R8 y])
    | 5 => some ("DEC", [z80R8 y])
    | 6 => some ("LD", [z80R8 y, .imm8])
    | _ => (z80Acc[y]?).map fun m => (m, [])
  | 1 => if op = 0x76 then some ("HALT", []) else some ("LD", [z80R8 y, z80R8 z])
  | 2 => some (z80Alu y (z80R8 z))
  | 3 =>
    match z with
    | 0 => some ("RET", [z80Cc y])
    | 1 =>
      if odd then match p with
        | 0 => some ("RET", [])
        | 1 => some ("EXX", [])
        | 2 => some ("JP", [.mem "HL"])
        | _ => some ("LD", [.reg "SP", .reg "HL"])
      else some ("POP", [z80Rp2 p])
    | 2 => some ("JP", [z80Cc y, .imm16])
    | 3 => match y with
      | 0 => some ("JP", [.imm16])
      | 1 => none
      | 2 => some ("OUT", [.port, .reg "A"])
      | 3 => some ("IN", [.reg "A", .port])
      | 4 => some ("EX", [.mem "SP", .reg "HL"])
      | 5 => some ("EX", [.reg "DE", .reg "HL"])
      | 6 => some ("DI", [])
      | _ => some ("EI", [])
    | 4 => some ("CALL", [z80Cc y, .imm16])
    | 5 => if odd then (if p = 0 then some ("CALL", [.imm16]) else none) else some ("PUSH", [z80Rp2 p])
    | 6 => some (z80Alu y .imm8)
    | _ => some ("RST", [.vec (8 * y)])
  | _ => none

/-- Behind the prefix `0xCB`. -/
def z80ShapeCb (op : Nat) : Option (String × List Z80Arg) :=
  let y := op / 8 % 8
  let r := z80R8 (op % 8)
  match op / 64 with
  | 0 => (z80Rot[y]?).map fun m => (m, [r])
  | 1 => some ("BIT", [.bit y, r])
  | 2 => some ("RES", [.bit y, r])
  | 3 => some ("SET", [.bit y, r])
  | _ => none

/-- The block instructions: move, compare, input and output, by direction and repetition. -/
def z80Block (y z : Nat) : Option String :=
  match y with
  | 4 => ["LDI", "CPI", "INI", "OUTI"][z]?
  | 5 => ["LDD", "CPD", "IND", "OUTD"][z]?
  | 6 => ["LDIR", "CPIR", "INIR", "OTIR"][z]?
  | 7 => ["LDDR", "CPDR", "INDR", "OTDR"][z]?
  | _ => none

/-- Behind the prefix `0xED`. -/
def z80ShapeEd (op : Nat) : Option (String × List Z80Arg) :=
  let y := op / 8 % 8
  let z := op % 8
  let p := y / 2
  let odd := y % 2 = 1
  match op / 64 with
  | 1 =>
    match z with
    | 0 => if y = 6 then some ("IN", [.reg "F", .mem "C"]) else some ("IN", [z80R8 y, .mem "C"])
    | 1 => if y = 6 then some ("OUT", [.mem "C", .zero]) else some ("OUT", [.mem "C", z80R8 y])
    | 2 => if odd then some ("ADC", [.reg "HL", z80Rp p]) else some ("SBC", [.reg "HL", z80Rp p])
    | 3 => if odd then some ("LD", [z80Rp p, .mem16]) else some ("LD", [.mem16, z80Rp p])
    | 4 => some ("NEG", [])
    | 5 => if y = 1 then some ("RETI", []) else some ("RETN", [])
    | 6 => match y % 4 with
      | 0 => some ("IM", [.mode "0"])
      | 1 => some ("IM", [.mode "0/1"])
      | 2 => some ("IM", [.mode "1"])
      | _ => some ("IM", [.mode "2"])
    | _ => match y with
      | 0 => some ("LD", [.reg "I", .reg "A"])
      | 1 => some ("LD", [.reg "R", .reg "A"])
      | 2 => some ("LD", [.reg "A", .reg "I"])
      | 3 => some ("LD", [.reg "A", .reg "R"])
      | 4 => some ("RRD", [])
      | 5 => some ("RLD", [])
      | _ => none
  | 2 => (z80Block y z).map fun m => (m, [])
  | _ => none

/-- An operand behind the prefix `0xDD` or `0xFD`, when no operand is memory at `HL`: the index register, or one of
its halves, stands for `HL`, `H` or `L`. -/
def z80Renamed (iy : Bool) : Z80Arg → Z80Arg
  | .reg "HL" => .reg (if iy then "IY" else "IX")
  | .reg "H" => .reg (if iy then "IYH" else "IXH")
  | .reg "L" => .reg (if iy then "IYL" else "IXL")
  | a => a

/-- Behind the prefix `0xDD` or `0xFD`.  Memory at `HL` becomes memory at the index register with a displacement, and
then the other operand stays; a jump to `HL` has no displacement; and `EX DE,HL` stays `EX DE,HL`, like all the
instructions in which nothing changes, to which the prefix does not belong. -/
def z80ShapeIndex (iy : Bool) (op : Nat) : Option (String × List Z80Arg) :=
  if op = 0xE9 then some ("JP", [.mem (if iy then "IY" else "IX")])
  else if op = 0xEB then none
  else
    match z80Shape op with
    | none => none
    | some (m, args) =>
      let args' := if .mem "HL" ∈ args then args.map fun a => if a = .mem "HL" then .idx iy else a else args.map (z80Renamed iy)
      if args' = args then none else some (m, args')

/-- Behind the prefix `0xDD 0xCB` or `0xFD 0xCB` and the displacement.  Unless it names memory at `HL`, the operand of
the opcode is a register that receives a copy of the result. -/
def z80ShapeIndexCb (iy : Bool) (op : Nat) : Option (String × List Z80Arg) :=
  let y := op / 8 % 8
  let z := op % 8
  match op / 64 with
  | 0 => (z80Rot[y]?).map fun m => if z = 6 then (m, [.idx iy]) else ("LD", [z80R8 z, .op (m ++ " "), .idx iy])
  | 1 => some ("BIT", [.bit y, .idx iy])
  | 2 => if z = 6 then some ("RES", [.bit y, .idx iy]) else some ("LD", [z80R8 z, .op ("RES " ++ toString y), .idx iy])
  | 3 => if z = 6 then some ("SET", [.bit y, .idx iy]) else some ("LD", [z80R8 z, .op ("SET " ++ toString y), .idx iy])
  | _ => none

/-- A decoded instruction; `disp` is the displacement of its index operand and `value` the value of its other operand,
0 when it has none. -/
structure Z80Instr where
  mnemonic : String
  args : List Z80Arg
  disp : Int
  value : Int
deriving DecidableEq, Repr

/-- How the value of an operand is stored. -/
inductive Z80Data where
  | none | byte | signed | word
deriving DecidableEq, Repr

def Z80Arg.data : Z80Arg → Z80Data
  | .imm8 | .port => .byte
  | .imm16 | .mem16 => .word
  | .rel => .signed
  | _ => .none

def Z80Arg.isIdx : Z80Arg → Bool
  | .idx _ => true
  | _ => false

def z80Data (args : List Z80Arg) : Z80Data :=
  match args.find? fun a => a.data ≠ .none with
  | some a => a.data
  | none => .none

/-- The instruction with the displacement and the value in the remaining bytes, all of them. -/
def z80Fill (p : String × List Z80Arg) (b : Bytes) : Option Z80Instr :=
  match p.2.any Z80Arg.isIdx, z80Data p.2, b with
  | false, .none, [] => some ⟨p.1, p.2, 0, 0⟩
  | false, .byte, [x] => some ⟨p.1, p.2, 0, x.toNat⟩
  | false, .signed, [x] => some ⟨p.1, p.2, 0, x.toInt⟩
  | false, .word, [x, y] => some ⟨p.1, p.2, 0, x.toNat + 256 * y.toNat⟩
  | true, .none, [d] => some ⟨p.1, p.2, d.toInt, 0⟩
  | true, .byte, [d, x] => some ⟨p.1, p.2, d.toInt, x.toNat⟩
  | _, _, _ => none

/-- The instruction that the bytes are, all of them. -/
def decodeZ80 (b : Bytes) : Option Z80Instr :=
  match b with
  | [] => none
  | op :: rest =>
    if op = 0xCB then
      match rest with
      | o :: rest => (z80ShapeCb o.toNat).bind fun p => z80Fill p rest
      | _ => none
    else if op = 0xED then
      match rest with
      | o :: rest => (z80ShapeEd o.toNat).bind fun p => z80Fill p rest
      | _ => none
    else if op = 0xDD ∨ op = 0xFD then
      match rest with
      | o :: rest =>
        if o = 0xCB then
          match rest with
          | [d, o] => (z80ShapeIndexCb (op = 0xFD) o.toNat).bind fun p => z80Fill p [d]
          | _ => none
        else (z80ShapeIndex (op = 0xFD) o.toNat).bind fun p => z80Fill p rest
      | _ => none
    else (z80Shape op.toNat).bind fun p => z80Fill p rest

/-! ## How an instruction is written -/

/-- The texts of the restart vectors. -/
def z80VecText (n : Nat) : String :=
  match n with
  | 0 => "0H" | 8 => "8H" | 16 => "10H" | 24 => "18H" | 32 => "20H" | 40 => "28H" | 48 => "30H" | _ => "38H"

section
variable (value : M68Use → Nat → Str → Int → Prop) (d v : Int)

/-- The tokens write the operand; `d` and `v` are the displacement and the value of the instruction, and
`value use n t x` says that the text `t` stands for the number `x` in a field of `n` bits. -/
inductive Z80ArgText : Z80Arg → List Str → Prop
  | reg {n t} : eqNoCase t n.toList → Z80ArgText (.reg n) [t]
  | mem {n t} : eqNoCase t n.toList → Z80ArgText (.mem n) [['('], t, [')']]
  | cond {n t} : eqNoCase t n.toList → Z80ArgText (.cond n) [t]
  | bit {n t} : t = (toString n).toList → Z80ArgText (.bit n) [t]
  | vec {n t} : eqNoCase t (z80VecText n).toList → Z80ArgText (.vec n) [t]
  | mode {n t} : t = n.toList → Z80ArgText (.mode n) [t]
  | zero : Z80ArgText .zero [['0']]
  | op {n t} : eqNoCase t n.toList → Z80ArgText (.op n) [t]
  | imm8 {t x} : value .data 8 t x → v = x % 256 → Z80ArgText .imm8 [t]
  | imm16 {t x} : value .data 16 t x → v = x % 65536 → Z80ArgText .imm16 [t]
  | mem16 {t x} : value .data 16 t x → v = x % 65536 → Z80ArgText .mem16 [['('], t, [')']]
  | port {t x} : value .data 8 t x → v = x % 256 → Z80ArgText .port [['('], t, [')']]
  | rel {t x} : value .pc 8 t x → v % 256 = x % 256 → Z80ArgText .rel [t]
  | plus {iy r t x} : eqNoCase r (if iy then "IY" else "IX").toList → value .disp 8 t x → d % 256 = x % 256 →
      Z80ArgText (.idx iy) [['('], r ++ '+' :: t, [')']]
  | minus {iy r t x} : eqNoCase r (if iy then "IY" else "IX").toList → value .disp 8 ('-' :: t) x → d % 256 = x % 256 →
      Z80ArgText (.idx iy) [['('], r ++ '-' :: t, [')']]

/-- The tokens write the operands, one after the other. -/
inductive Z80ArgsText : List Z80Arg → List Str → Prop
  | nil : Z80ArgsText [] []
  | cons {a as ts rest} : Z80ArgText value d v a ts → Z80ArgsText as rest → Z80ArgsText (a :: as) (ts ++ rest)

end

/-- The line `m rest` writes the instruction. -/
def Z80Written (value : M68Use → Nat → Str → Int → Prop) (m : Str) (rest : List Str) (i : Z80Instr) : Prop :=
  eqNoCase m i.mnemonic.toList ∧ Z80ArgsText value i.disp i.value i.args rest

/-- An index register with a sign behind it. -/
inductive Z80Indexed : Str → Prop
  | mk {r t s} : eqNoCase r "IX".toList ∨ eqNoCase r "IY".toList → s = '+' ∨ s = '-' → Z80Indexed (r ++ s :: t)

/-- The lines that are accepted without being instructions, or that assemble to something else than they say: storing a
constant at `IX+d` loses the displacement; and `IN F,(C)` is only known in a form
with five more tokens, one of which no source line can contain. -/
inductive Z80Odd (m : Str) (rest : List Str) : Prop
  | store {t n} : eqNoCase m "LD".toList → rest = [['('], t, [')'], n] → Z80Indexed t →
      (∀ r ∈ ["A", "B", "C", "D", "E", "H", "L"], ¬ eqNoCase n r.toList) → Z80Odd m rest
  | flags : eqNoCase m "IN".toList → rest.length = 8 → Z80Odd m rest

/-- The instructions that cannot be written: a constant, or `A`, stored at an index register with a displacement, `A`
loaded from there, and `IN F,(C)`. -/
def Z80Lost (i : Z80Instr) : Prop :=
  ∃ iy, (i.mnemonic = "LD" ∧ (i.args = [.idx iy, .imm8] ∨ i.args = [.idx iy, .reg "A"] ∨ i.args = [.reg "A", .idx iy])) ∨
    (i.mnemonic = "IN" ∧ i.args = [.reg "F", .mem "C"])

end Necro.Spec
