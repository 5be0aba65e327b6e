import Verif.Model.Cpu.Thumb
import Verif.Spec.Thumb
/-!
# The Thumb instruction table against the data sheet
-/

namespace Necro
open Spec

/-- The operand of the data sheet for a pattern that carries no value. -/
def ThOp.fixed : ThOp → Option TArg
  | .pc => some (.reg 15)
  | .sp => some (.reg 13)
  | .lb => some .lb
  | .rb => some .rb
  | _ => none

/-- The operand whose field holds `r` after shifting by `sh`. -/
def ThOp.arg (o : ThOp) (r sh : Nat) : TArg :=
  match o with
  | .high => .reg (r + 8)
  | .imm => .imm (r * 2 ^ sh)
  | .word => .imm (r * 2 ^ sh)
  | .num => .num r
  | .offset hi => .dist (hi + 2) (toSigned (hi + 1) r * 2)
  | _ => .reg r

/-- The operands, given the contents and the shift of the field of each operand with a value. -/
def thArgs (g : Nat → Nat × Nat) : List ThOp → Nat → List TArg
  | [], _ => []
  | o :: os, i =>
    match o.fixed with
    | some a => a :: thArgs g os i
    | none => o.arg (g i).1 (g i).2 :: thArgs g os (i + 1)

def ThField.width (f : ThField) : Nat := f.hi - f.lo + 1

def ThField.isVal (i : Nat) (f : ThField) : Bool :=
  match f.src with
  | .val j _ => i == j
  | .const _ => false

def ThField.sh (f : ThField) : Nat :=
  match f.src with
  | .val _ s => s
  | .const _ => 0

/-- The contents and shift of the field of operand `i`. -/
def thSlot (fs : List ThField) (raws : List Nat) (i : Nat) : Nat × Nat :=
  match (fs.zip raws).find? fun p => p.1.isVal i with
  | some p => (p.2, p.1.sh)
  | none => (0, 0)

/-- The word with the given field contents. -/
def thWordOf : Nat → List ThField → List Nat → Nat
  | base, f :: fs, r :: rs => thWordOf (base + r * 2 ^ f.lo) fs rs
  | base, _, _ => base

/-- Every combination of field contents passes the test. -/
def thEach : List ThField → (List Nat → Bool) → Bool
  | [], P => P []
  | f :: fs, P =>
    match f.src with
    | .const n => thEach fs fun rs => P (n :: rs)
    | .val _ _ => (List.range (2 ^ f.width)).all fun r => thEach fs fun rs => P (r :: rs)

/-- Rows of the table whose code is wrong (see `ThOdd`). -/
def thWrong (m : String) (f : ThForm) : Bool :=
  (m == "ADD" && (f.ops.contains .pc || f.ops.contains .sp)) || (m == "LDRB" && f.ops.contains .imm) || m == "LDRH" ||
  (m == "STR" && f.ops.contains .imm)

/-- A right shift whose amount is 0. -/
def thZero (m : String) (f : ThForm) (raws : List Nat) : Bool :=
  (m == "LSR" || m == "ASR") && f.ops.contains .imm && raws.head? == some 0

/-- Evaluate the argument before the test. -/
def forced (P : Nat → Bool) : Nat → Bool
  | 0 => P 0
  | n + 1 => P n.succ

def argEq : TArg → TArg → Bool
  | .reg a, .reg b => Nat.beq a b
  | .imm a, .imm b => Nat.beq a b
  | .lb, .lb => true
  | .rb, .rb => true
  | .dist k x, .dist j y => Nat.beq k j && decide (x = y)
  | .num a, .num b => Nat.beq a b
  | _, _ => false

def argsEq : List TArg → List TArg → Bool
  | [], [] => true
  | a :: as, b :: bs => argEq a b && argsEq as bs
  | _, _ => false

def instrEq (op : TOp) (args : List TArg) : Option TInstr → Bool
  | some i => Nat.beq i.op.ctorIdx op.ctorIdx && argsEq i.args args
  | none => false

def thRowOk (m : String) (op : TOp) (f : ThForm) : Bool :=
  thEach f.fields fun raws => thZero m f raws ||
    forced (fun w => instrEq op (thArgs (thSlot f.fields raws) f.ops 0) (decode16 w)) (thWordOf f.base f.fields raws)

/-- The mnemonic of a row. -/
def thOp (m : String) : Option TOp :=
  [.LSL, .LSR, .ASR, .ADD, .SUB, .MOV, .CMP, .AND, .EOR, .ADC, .SBC, .ROR, .TST, .NEG, .CMN, .ORR, .MUL, .BIC, .MVN, .BX,
   .LDR, .LDRB, .LDRH, .LDSB, .LDSH, .STR, .STRB, .STRH, .B, .BEQ, .BNE, .BCS, .BCC, .BMI, .BPL, .BVS, .BVC, .BHI, .BLS, .BGE,
   .BLT, .BGT, .BLE, .SWI].find? fun o => o.name == m

def thRowsOk (l : List (String × List ThForm)) : Bool :=
  l.all fun p =>
    match thOp p.1 with
    | none => false
    | some op => p.2.all fun f => thWrong p.1 f || thRowOk p.1 op f

set_option maxRecDepth 100000 in
theorem rows_a : thRowsOk (thTable.take 3) = true := by decide +kernel
set_option maxRecDepth 100000 in
theorem rows_b : thRowsOk ((thTable.drop 3).take 2) = true := by decide +kernel
set_option maxRecDepth 100000 in
theorem rows_c : thRowsOk ((thTable.drop 5).take 2) = true := by decide +kernel
set_option maxRecDepth 100000 in
theorem rows_d : thRowsOk ((thTable.drop 7).take 13) = true := by decide +kernel
set_option maxRecDepth 100000 in
theorem rows_e : thRowsOk ((thTable.drop 20).take 8) = true := by decide +kernel
set_option maxRecDepth 100000 in
theorem rows_f : thRowsOk (thTable.drop 28) = true := by decide +kernel

end Necro
