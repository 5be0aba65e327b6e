import Verif.Model.Cpu.Mips32
/-!
# /repo/necroassembler/cpu/thumb.py

Every instruction but `BL`, `PUSH` and `STRB` is a sequence of
`if instr.match(...): ... = instr.apply(...); return self._build_opcode(...)`.  Such a step is a
`ThForm`, and a method is the list of its steps.
-/

namespace Necro

/-- thumb.py:6 `LOW_REGS` -/
def thLow : List Str := ["r0", "r1", "r2", "r3", "r4", "r5", "r6", "r7"].map String.toList

/-- thumb.py:7 `HIGH_REGS_TRUE` -/
def thHighTrue : List Str := ["r8", "r9", "r10", "r11", "r12", "r13", "r14", "r15"].map String.toList

/-- thumb.py:8 `HIGH_REGS_ALIASES` -/
def thAlias : List Str := ["fp", "ip", "sp", "lr", "pc"].map String.toList

/-- thumb.py:9 `HIGH_REGS` -/
def thHigh : List Str := thHighTrue ++ thAlias

/-- thumb.py:32-37 `low_reg`.  `int(reg[1:])` of the entry at index `i` of `LOW_REGS` is `i`. -/
def thLowReg (t : Str) : H Int :=
  if thHigh.contains (lower t) then H.throw .invalidRegister
  else
    match thLow.findIdx? (· == lower t) with
    | some i => pure (i : Int)
    | none => H.throw .unknownRegister

/-- thumb.py:40-47 `high_reg`.  `int(reg[1:]) - 8` of the entry at index `i` of `HIGH_REGS_TRUE` is `i`. -/
def thHighReg (t : Str) : H Int :=
  match thAlias.findIdx? (· == lower t) with
  | some i => pure ((i : Int) + 3)
  | none =>
    if thLow.contains (lower t) then H.throw .invalidRegister
    else
      match thHighTrue.findIdx? (· == lower t) with
      | some i => pure (i : Int)
      | none => H.throw .unknownRegister

/-- thumb.py:60-69 `_offset`, called with `bits = (hi, 0)` and `alignment = 2`. -/
def thOffset (hi : Nat) (t : Str) : H Int := do
  let c ← H.read
  H.parseIntegerOrLabel { label := t, size := 2, bitsSize := hi + 2, bits := some (hi, 0), filter := some fun x => pyShr x 1,
                          alignment := 2, relative := c.pc + 4 }

/-- thumb.py:71-75 `_imm` -/
def thImm (t : Str) : H Int := do
  match ← H.parseInteger (t.drop 1) 8 false with
  | none => H.throw .invalidImmediateValue
  | some v => pure v

/-- thumb.py:77-85 `_word8` -/
def thWord (t : Str) : H Int := do
  let c ← H.read
  H.parseIntegerOrLabel { label := t.drop 1, size := 2, bitsSize := 8, bits := some (7, 0), alignment := 4,
                          filter := some fun x => pyShr x 2, relative := pyAnd (c.pc + 4) (-3) }

/-- An operand: a pattern of `instr.match` together with the converter `instr.apply` gives that token.
`pc`, `sp`, `lb` and `rb` have none. -/
inductive ThOp where
  | low | high | imm | word | pc | sp | lb | rb | num
  | offset (hi : Nat)
deriving DecidableEq, Repr

/-- The patterns: thumb.py:6-29. -/
def ThOp.pat : ThOp → Pat
  | .low => .coll thLow
  | .high => .coll thHigh
  | .imm => .pred fun t => decide (1 < t.length) && startsWith t ['#']
  | .word => .pred fun t => decide (1 < t.length) && startsWith t ['#']
  | .pc => .coll ["pc".toList, "r15".toList]
  | .sp => .coll ["sp".toList, "r13".toList]
  | .lb => .str ['[']
  | .rb => .str [']']
  | .num => .pred isDigitStr
  | .offset _ => .pred fun t => !t.isEmpty && !startsWith t ['#']

/-- The converters.  `num`: thumb.py:463 `int(instr.tokens[1])`. -/
def ThOp.conv : ThOp → Option (Str → H Int)
  | .low => some thLowReg
  | .high => some thHighReg
  | .imm => some thImm
  | .word => some thWord
  | .offset hi => some (thOffset hi)
  | .num => some fun t =>
    match pyInt 10 t with
    | some v => pure v
    | none => H.throw .valueError
  | _ => none

/-- statements.py:97-102 `Instruction.apply` on the operand tokens. -/
def thApply : List ThOp → List Str → H (List Int)
  | [], _ => pure []
  | _ :: _, [] => pure []
  | o :: os, t :: ts =>
    match o.conv with
    | none => thApply os ts
    | some f => do
      let v ← f t
      let vs ← thApply os ts
      pure (v :: vs)

/-- The value of a field: a constant, or the converted operand number `i` shifted right. -/
inductive ThSrc where
  | const (n : Nat)
  | val (i sh : Nat)
deriving DecidableEq, Repr

structure ThField where
  hi : Nat
  lo : Nat
  src : ThSrc
deriving DecidableEq, Repr

/-- One step of a method.  `bad`: thumb.py:174 passes a field of three items to `pack_bits`, which
cannot unpack it. -/
structure ThForm where
  ops : List ThOp
  base : Nat
  fields : List ThField
  bad : Bool
deriving DecidableEq, Repr

def ThField.bits (vs : List Int) (f : ThField) : BitField :=
  match f.src with
  | .const n => ⟨f.hi, f.lo, n⟩
  | .val i sh => ⟨f.hi, f.lo, pyShr (vs.getD i 0) sh⟩

/-- The body of a step: `instr.apply` and `_build_opcode` (thumb.py:122-123). -/
def ThForm.build (f : ThForm) (tokens : List Str) : H (Option Bytes) := do
  let vs ← thApply f.ops (tokens.drop 1)
  if f.bad then H.throw .valueError
  else do
    let b ← H.lift (packBitsLe16u f.base (f.fields.map (ThField.bits vs)))
    pure (some b)

/-- A method: its steps in order. -/
def thRun : List ThForm → List Str → H (Option Bytes)
  | [], _ => pure none
  | f :: fs, tokens => if instrMatch tokens (f.ops.map ThOp.pat) then f.build tokens else thRun fs tokens

/-- thumb.py:92-95 `_alu` -/
def thAlu (op : Nat) : ThForm := ⟨[.low, .low], 0x4000, [⟨9, 6, .const op⟩, ⟨5, 3, .val 1 0⟩, ⟨2, 0, .val 0 0⟩], false⟩

/-- thumb.py:87-90 `_conditional_branch` -/
def thCond (cond : Nat) : ThForm := ⟨[.offset 7], 0xD000, [⟨11, 8, .const cond⟩, ⟨7, 0, .val 0 1⟩], false⟩

/-- `str.split('-')` into two parts, as thumb.py:106 unpacks it. -/
def splitDash (t : Str) : Except Err (Str × Str) :=
  let a := t.takeWhile (· ≠ '-')
  let b := (t.dropWhile (· ≠ '-')).drop 1
  if b.contains '-' then .error .valueError else .ok (a, b)

/-- thumb.py:117-118: set the bits `first .. first + n - 1`. -/
def thSetBits (rlist : Int) (first : Nat) : Nat → Except Err Int
  | 0 => .ok rlist
  | n + 1 =>
    match packBit rlist [(first, 1)] with
    | .error e => .error e
    | .ok r => thSetBits r (first + 1) n

/-- thumb.py:97-120 `_rlist`.  The two calls of `low_reg` at 112-113 follow the membership tests, so
they return the index. -/
def thRlist (rlist : Int) : List Str → Except Err Int
  | [] => .ok rlist
  | t :: ts =>
    match thLow.findIdx? (· == t) with
    | some i =>
      match packBit rlist [(i, 1)] with
      | .error e => .error e
      | .ok r => thRlist r ts
    | none =>
      if t.contains '-' then
        match splitDash t with
        | .error e => .error e
        | .ok (a, b) =>
          match thLow.findIdx? (· == lower a) with
          | none => .error (.platform "InvalidRList")
          | some first =>
            match thLow.findIdx? (· == lower b) with
            | none => .error (.platform "InvalidRList")
            | some last =>
              if first > last then .error (.platform "InvalidRList")
              else
                match thSetBits rlist first (last + 1 - first) with
                | .error e => .error e
                | .ok r => thRlist r ts
      else .error (.platform "InvalidRList")

/-- thumb.py:465-478 `_push` -/
def thPush (tokens : List Str) : H (Option Bytes) :=
  if tokens.length < 4 then pure none
  else if tokens.getD 1 [] ≠ ['{'] ∨ tokens.getD (tokens.length - 1) [] ≠ ['}'] then pure none
  else do
    let lr : Nat := if lower (tokens.getD (tokens.length - 2) []) = "lr".toList then 1 else 0
    let rlist ← H.lift (thRlist 0 ((tokens.take (tokens.length - (1 + lr))).drop 2))
    let b ← H.lift (packBitsLe16u 0xB400 [⟨11, 11, lr⟩, ⟨7, 0, rlist⟩])
    pure (some b)

/-- thumb.py:377-394: the two references of `BL`, for the high and the low half of the distance. -/
def thBlHigh (t : Str) (pc : Int) : Reloc :=
  { label := t, size := 2, bitsSize := 23, bits := some (10, 0), alignment := 2, relative := pc + 4, filter := some fun x => pyShr x 12 }
def thBlLow (t : Str) (pc : Int) : Reloc :=
  { label := t, offset := 2, size := 2, bitsSize := 23, bits := some (10, 0), alignment := 2, relative := pc + 4,
    filter := some fun x => pyAnd (pyShr x 1) 0x7FF }

/-- thumb.py:364-396 `_bl`.  `if address:` is false for 0 as well as for `None`. -/
def thBl (tokens : List Str) : H (Option Bytes) :=
  if instrMatch tokens [(ThOp.offset 0).pat] then do
    let t := tokens.getD 1 []
    let number : Int := (← H.parseInteger t 23 true).getD 0
    if number ≠ 0 then do
      let a := pyShr number 1
      let b0 ← H.lift (packBitsLe16u 0xF000 [⟨10, 0, pyShr a 11⟩])
      let b1 ← H.lift (packBitsLe16u 0xF800 [⟨10, 0, pyAnd a 0x7FF⟩])
      pure (some (b0 ++ b1))
    else do
      let c ← H.read
      H.reloc (thBlHigh t c.pc)
      H.reloc (thBlLow t c.pc)
      let b ← H.lift (packLe16u [some 0xF000, some 0xF800])
      pure (some b)
  else pure none

/-- thumb.py:125-463: the methods other than `_bl` and `_push`. -/
def thTable : List (String × List ThForm) :=
  [("LSL", [  -- 125-130
     ⟨[.low, .low, .imm], 0x0000, [⟨10, 6, .val 2 0⟩, ⟨5, 3, .val 1 0⟩, ⟨2, 0, .val 0 0⟩], false⟩,
     thAlu 2]),
   ("LSR", [  -- 132-137
     ⟨[.low, .low, .imm], 0x0800, [⟨10, 6, .val 2 0⟩, ⟨5, 3, .val 1 0⟩, ⟨2, 0, .val 0 0⟩], false⟩,
     thAlu 3]),
   ("ASR", [  -- 139-144
     ⟨[.low, .low, .imm], 0x1000, [⟨10, 6, .val 2 0⟩, ⟨5, 3, .val 1 0⟩, ⟨2, 0, .val 0 0⟩], false⟩,
     thAlu 4]),
   ("ADD", [  -- 146-174
     ⟨[.low, .low, .low], 0x1800, [⟨8, 6, .val 2 0⟩, ⟨5, 3, .val 1 0⟩, ⟨2, 0, .val 0 0⟩], false⟩,
     ⟨[.low, .low, .imm], 0x1C00, [⟨8, 6, .val 2 0⟩, ⟨5, 3, .val 1 0⟩, ⟨2, 0, .val 0 0⟩], false⟩,
     ⟨[.low, .imm], 0x3000, [⟨10, 8, .val 0 0⟩, ⟨7, 0, .val 1 0⟩], false⟩,
     ⟨[.low, .high], 0x4440, [⟨5, 3, .val 1 0⟩, ⟨2, 0, .val 0 0⟩], false⟩,
     ⟨[.high, .low], 0x4480, [⟨5, 3, .val 1 0⟩, ⟨2, 0, .val 0 0⟩], false⟩,
     ⟨[.high, .high], 0x44C0, [⟨5, 3, .val 1 0⟩, ⟨2, 0, .val 0 0⟩], false⟩,
     ⟨[.low, .pc, .imm], 0xA000, [⟨10, 8, .val 0 0⟩, ⟨7, 0, .val 1 0⟩], false⟩,
     ⟨[.low, .sp, .imm], 0xA800, [⟨10, 8, .val 0 0⟩, ⟨7, 0, .val 1 0⟩], false⟩,
     ⟨[.sp, .imm], 0xB000, [⟨7, 0, .val 0 1⟩], true⟩]),
   ("SUB", [  -- 176-186
     ⟨[.low, .low, .low], 0x1A00, [⟨8, 6, .val 2 0⟩, ⟨5, 3, .val 1 0⟩, ⟨2, 0, .val 0 0⟩], false⟩,
     ⟨[.low, .low, .imm], 0x1E00, [⟨8, 6, .val 2 0⟩, ⟨5, 3, .val 1 0⟩, ⟨2, 0, .val 0 0⟩], false⟩,
     ⟨[.low, .imm], 0x3800, [⟨10, 8, .val 0 0⟩, ⟨7, 0, .val 1 0⟩], false⟩]),
   ("MOV", [  -- 188-204
     ⟨[.low, .imm], 0x2000, [⟨10, 8, .val 0 0⟩, ⟨7, 0, .val 1 0⟩], false⟩,
     ⟨[.low, .high], 0x4640, [⟨5, 3, .val 1 0⟩, ⟨2, 0, .val 0 0⟩], false⟩,
     ⟨[.high, .low], 0x4680, [⟨5, 3, .val 1 0⟩, ⟨2, 0, .val 0 0⟩], false⟩,
     ⟨[.high, .high], 0x46C0, [⟨5, 3, .val 1 0⟩, ⟨2, 0, .val 0 0⟩], false⟩]),
   ("CMP", [  -- 206-224
     ⟨[.low, .imm], 0x2800, [⟨10, 8, .val 0 0⟩, ⟨7, 0, .val 1 0⟩], false⟩,
     ⟨[.low, .high], 0x4540, [⟨5, 3, .val 1 0⟩, ⟨2, 0, .val 0 0⟩], false⟩,
     ⟨[.high, .low], 0x4580, [⟨5, 3, .val 1 0⟩, ⟨2, 0, .val 0 0⟩], false⟩,
     ⟨[.high, .high], 0x45C0, [⟨5, 3, .val 1 0⟩, ⟨2, 0, .val 0 0⟩], false⟩,
     thAlu 10]),
   ("AND", [thAlu 0]),  -- 226-228
   ("EOR", [thAlu 1]),  -- 230-232
   ("ADC", [thAlu 5]),  -- 234-236
   ("SBC", [thAlu 6]),  -- 238-240
   ("ROR", [thAlu 7]),  -- 242-244
   ("TST", [thAlu 8]),  -- 246-248
   ("NEG", [thAlu 9]),  -- 250-252
   ("CMN", [thAlu 11]),  -- 254-256
   ("ORR", [thAlu 12]),  -- 258-260
   ("MUL", [thAlu 13]),  -- 262-264
   ("BIC", [thAlu 14]),  -- 266-268
   ("MVN", [thAlu 15]),  -- 270-272
   ("BX", [  -- 274-281
     ⟨[.low], 0x4700, [⟨5, 3, .val 0 0⟩], false⟩,
     ⟨[.high], 0x4740, [⟨5, 3, .val 0 0⟩], false⟩]),
   ("LDR", [  -- 283-301
     ⟨[.low, .lb, .pc, .word, .rb], 0x4800, [⟨10, 8, .val 0 0⟩, ⟨7, 0, .val 1 2⟩], false⟩,
     ⟨[.low, .lb, .low, .low, .rb], 0x5800, [⟨8, 6, .val 2 0⟩, ⟨5, 3, .val 1 0⟩, ⟨2, 0, .val 0 0⟩], false⟩,
     ⟨[.low, .lb, .low, .imm, .rb], 0x6800, [⟨10, 6, .val 2 2⟩, ⟨5, 3, .val 1 0⟩, ⟨2, 0, .val 0 0⟩], false⟩,
     ⟨[.low, .lb, .sp, .word, .rb], 0x9800, [⟨10, 8, .val 0 0⟩, ⟨7, 0, .val 1 2⟩], false⟩]),
   ("LDRB", [  -- 303-313
     ⟨[.low, .lb, .low, .low, .rb], 0x5C00, [⟨8, 6, .val 2 0⟩, ⟨5, 3, .val 1 0⟩, ⟨2, 0, .val 0 0⟩], false⟩,
     ⟨[.low, .lb, .low, .imm, .rb], 0x7800, [⟨10, 6, .val 2 2⟩, ⟨5, 3, .val 1 0⟩, ⟨2, 0, .val 0 0⟩], false⟩]),
   ("LDRH", [  -- 315-325
     ⟨[.low, .lb, .low, .low, .rb], 0x2C00, [⟨8, 6, .val 2 0⟩, ⟨5, 3, .val 1 0⟩, ⟨2, 0, .val 0 0⟩], false⟩,
     ⟨[.low, .lb, .low, .imm, .rb], 0x8800, [⟨10, 6, .val 2 0⟩, ⟨5, 3, .val 1 0⟩, ⟨2, 0, .val 0 0⟩], false⟩]),
   ("LDSB", [  -- 327-332
     ⟨[.low, .lb, .low, .low, .rb], 0x5600, [⟨8, 6, .val 2 0⟩, ⟨5, 3, .val 1 0⟩, ⟨2, 0, .val 0 0⟩], false⟩]),
   ("LDSH", [  -- 334-339
     ⟨[.low, .lb, .low, .low, .rb], 0x5E00, [⟨8, 6, .val 2 0⟩, ⟨5, 3, .val 1 0⟩, ⟨2, 0, .val 0 0⟩], false⟩]),
   ("STR", [  -- 341-351
     ⟨[.low, .lb, .low, .low, .rb], 0x5000, [⟨8, 6, .val 2 0⟩, ⟨5, 3, .val 1 0⟩, ⟨2, 0, .val 0 0⟩], false⟩,
     ⟨[.low, .lb, .low, .imm, .rb], 0x6800, [⟨10, 6, .val 2 2⟩, ⟨5, 3, .val 1 0⟩, ⟨2, 0, .val 0 0⟩], false⟩]),
   ("STRB", []),  -- 353-355
   ("STRH", [  -- 357-362
     ⟨[.low, .lb, .low, .low, .rb], 0x5200, [⟨8, 6, .val 2 0⟩, ⟨5, 3, .val 1 0⟩, ⟨2, 0, .val 0 0⟩], false⟩]),
   ("B", [⟨[.offset 10], 0xE000, [⟨10, 0, .val 0 1⟩], false⟩]),  -- 398-402
   ("BEQ", [thCond 0]),  -- 404-406
   ("BNE", [thCond 1]),  -- 408-410
   ("BCS", [thCond 2]),  -- 412-414
   ("BCC", [thCond 3]),  -- 416-418
   ("BMI", [thCond 4]),  -- 420-422
   ("BPL", [thCond 5]),  -- 424-426
   ("BVS", [thCond 6]),  -- 428-430
   ("BVC", [thCond 7]),  -- 432-434
   ("BHI", [thCond 8]),  -- 436-438
   ("BLS", [thCond 9]),  -- 440-442
   ("BGE", [thCond 10]),  -- 444-446
   ("BLT", [thCond 11]),  -- 448-450
   ("BGT", [thCond 12]),  -- 452-454
   ("BLE", [thCond 13]),  -- 456-458
   ("SWI", [⟨[.num], 0xDF00, [⟨7, 0, .val 0 0⟩], false⟩])]  -- 460-463

/-- thumb.py:54-58 `AssemblerThumb` -/
def thumb : Dialect where
  sy := { hexPrefixes := ["0x".toList], binPrefixes := ["0b".toList, "0y".toList] }
  instrs := fun k =>
    if k = "BL".toList then some (.handler thBl)
    else if k = "PUSH".toList then some (.handler thPush)
    else (dget (thTable.map fun p => (p.1.toList, p.2)) k).map fun fs => .handler (thRun fs)

end Necro
