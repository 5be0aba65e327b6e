import Verif.Model.Cpu.Thumb
/-!
# /repo/necroassembler/cpu/mc68000.py
-/

namespace Necro

/-- mc68000.py:11 `D_REGS` -/
def m68D : List Str := ["d0", "d1", "d2", "d3", "d4", "d5", "d6", "d7"].map String.toList

/-- mc68000.py:12 `A_REGS` -/
def m68A : List Str := ["a0", "a1", "a2", "a3", "a4", "a5", "a6", "a7"].map String.toList

/-- mc68000.py:14-15 `CONDITIONS` -/
def m68Conditions : List Str :=
  ["T", "F", "HI", "LS", "CC", "CS", "NE", "EQ", "VC", "VS", "PL", "MI", "GE", "LT", "GT", "LE"].map String.toList

/-- mc68000.py:18-19 `_is_immediate` -/
def m68IsImm (t : Str) : Bool := decide (1 < t.length) && startsWith t ['#']

/-- mc68000.py:22-23 `_is_displacement` -/
def m68IsDisp (t : Str) : Bool := !(m68D ++ m68A ++ [['('], [')']]).contains (lower t) && !startsWith t ['#']

/-- mc68000.py:26-27 `_is_absolute_with_w` -/
def m68IsAbsW (t : Str) : Bool := m68IsDisp t && endsWith (lower t) ".w".toList

/-- mc68000.py:30-31 `_is_absolute_with_l` -/
def m68IsAbsL (t : Str) : Bool := m68IsDisp t && endsWith (lower t) ".l".toList

/-- `token[0:-2]` -/
def dropLast2 (t : Str) : Str := t.take (t.length - 2)

/-- mc68000.py:34-39 `_is_indexed_reg` -/
def m68IsIdx (t : Str) : Bool :=
  if endsWith (lower t) ".w".toList then (m68D ++ m68A).contains (dropLast2 (lower t))
  else if endsWith (lower t) ".l".toList then (m68D ++ m68A).contains (dropLast2 (lower t))
  else (m68D ++ m68A).contains t

/-- mc68000.py:49-50 `MODES`.  The names are constants here, so the test of the blacklist at
mc68000.py:116-119 always passes. -/
inductive M68Mode where
  | dn | an | ind | post | pre | disp | idx | absW | absL | imm | pcDisp | pcIdx
deriving DecidableEq, Repr

/-- mc68000.py:53-54 `_reg` -/
def m68Reg (t : Str) : H Int :=
  match pyInt 10 (t.drop 1) with
  | some v => pure v
  | none => H.throw .valueError

/-- mc68000.py:57-60 `_cond` -/
def m68Cond (t : Str) : H Int :=
  if upper (t.take 2) = "RA".toList then pure 1
  else
    match m68Conditions.findIdx? (· == upper (t.take 2)) with
    | some i => pure (i : Int)
    | none => H.throw .valueError

/-- mc68000.py:63-69 `_indexed_reg` -/
def m68IdxReg (t : Str) : H (Int × Int × Int) := do
  let m : Int := if startsWith (lower t) ['d'] then 0 else 1
  if endsWith (lower t) ".w".toList then do
    let r ← m68Reg (dropLast2 t)
    pure (m, r, 0)
  else if endsWith (lower t) ".l".toList then do
    let r ← m68Reg (dropLast2 t)
    pure (m, r, 1)
  else do
    let r ← m68Reg t
    pure (m, r, 0)

/-- mc68000.py:72-80 `_s_light` -/
def m68Light (t : Str) : Nat × Nat :=
  if endsWith (lower t) ".b".toList then (1, 0)
  else if endsWith (lower t) ".l".toList then (4, 2)
  else if endsWith (lower t) ".w".toList then (2, 1)
  else (2, 1)

/-- mc68000.py:83-91 `_s_dark` -/
def m68Dark (t : Str) : Nat × Nat :=
  if endsWith (lower t) ".b".toList then (1, 1)
  else if endsWith (lower t) ".l".toList then (4, 2)
  else if endsWith (lower t) ".w".toList then (2, 3)
  else (2, 3)

/-- mc68000.py:254-258 `_packer`; the dictionary of packers has the keys 1, 2 and 4. -/
def m68Packer (t : Str) (opSize offset : Nat) : H Bytes := do
  let v ← H.parseIntegerOrLabel { label := t, size := opSize + opSize % 2, bitsSize := opSize * 8, offset := 2 + offset }
  if opSize = 1 ∨ opSize = 2 then H.lift (packBe16u [some v])
  else if opSize = 4 then H.lift (packBe32u [some v])
  else H.throw .keyError

/-- One step of `_mode`: the test of a pattern and of the blacklist. -/
def m68Try (tokens : List Str) (start : Nat) (black : List M68Mode) (mode : M68Mode) (ps : List Pat) (body : Nat → H α) (next : H α) : H α :=
  match instrUnboundMatch tokens ps start with
  | some i => if black.contains mode then next else body i
  | none => next

/-- What `_mode` returns: the index after the operand, mode, register and extension bytes. -/
structure M68Operand where
  next : Nat
  m : Int
  xn : Int
  data : Bytes
deriving DecidableEq, Repr

/-- mc68000.py:115-249 `_mode` -/
def m68Mode (tokens : List Str) (start offset size : Nat) (black : List M68Mode) : H M68Operand :=
  let tok (i : Nat) : Str := tokens.getD (start + i) []
  let d : Pat := .coll m68D
  let a : Pat := .coll m68A
  let lp : Pat := .str ['(']
  let rp : Pat := .str [')']
  let dis : Pat := .pred m68IsDisp
  let ix : Pat := .pred m68IsIdx
  let pc : Pat := .str "PC".toList
  let try' (mode : M68Mode) (ps : List Pat) (body : Nat → H M68Operand) (next : H M68Operand) :=
    m68Try tokens start black mode ps body next
  try' .dn [d] (fun i => do                                               -- 121-124
    let r ← m68Reg (tok 0)
    pure ⟨i, 0, r, []⟩) <|
  try' .an [a] (fun i => do                                               -- 126-129
    let r ← m68Reg (tok 0)
    pure ⟨i, 1, r, []⟩) <|
  try' .post [lp, a, rp, .str ['+']] (fun i => do                         -- 131-135
    let r ← m68Reg (tok 1)
    pure ⟨i, 3, r, []⟩) <|
  try' .ind [lp, a, rp] (fun i => do                                      -- 137-140
    let r ← m68Reg (tok 1)
    pure ⟨i, 2, r, []⟩) <|
  try' .pre [.str ['-'], lp, a, rp] (fun i => do                          -- 142-146
    let r ← m68Reg (tok 2)
    pure ⟨i, 4, r, []⟩) <|
  try' .disp [lp, dis, a, rp] (fun i => do                                -- 148-157
    let v ← H.parseIntegerOrLabel { label := tok 1, size := 2, bitsSize := 16, offset := 2 + offset } true
    let r ← m68Reg (tok 2)
    let b ← H.lift (packBe16u [some v])
    pure ⟨i, 5, r, b⟩) <|
  try' .idx [lp, dis, a, ix, rp] (fun i => do                             -- 159-170
    let v ← H.parseIntegerOrLabel { label := tok 1, size := 2, bitsSize := 8, bits := some (7, 0), offset := 2 + offset } true
    let x ← m68IdxReg (tok 3)
    let r ← m68Reg (tok 2)
    let b ← H.lift (packBitsBe16u 0 [⟨15, 15, x.1⟩, ⟨14, 12, x.2.1⟩, ⟨11, 11, x.2.2⟩, ⟨7, 0, v⟩])
    pure ⟨i, 6, r, b⟩) <|
  try' .pcDisp [lp, dis, pc, rp] (fun i => do                             -- 172-181
    let c ← H.read
    let v ← H.parseIntegerOrLabel { label := tok 1, size := 2, bitsSize := 16, relative := c.pc + 2 + offset, offset := 2 + offset }
    let b ← H.lift (packBe16u [some v])
    pure ⟨i, 7, 2, b⟩) <|
  try' .pcIdx [lp, dis, pc, ix, rp] (fun i => do                          -- 183-194
    let c ← H.read
    let v ← H.parseIntegerOrLabel { label := tok 1, size := 2, bitsSize := 8, bits := some (7, 0), relative := c.pc + 2 + offset,
                                    offset := 2 + offset }
    let x ← m68IdxReg (tok 3)
    let b ← H.lift (packBitsBe16u 0 [⟨15, 15, x.1⟩, ⟨14, 12, x.2.1⟩, ⟨11, 11, x.2.2⟩, ⟨7, 0, v⟩])
    pure ⟨i, 7, 3, b⟩) <|
  try' .absW [lp, dis, rp, .str ".W".toList] (fun i => do                 -- 196-204
    let v ← H.parseIntegerOrLabel { label := tok 1, size := 2, bitsSize := 16, offset := 2 + offset }
    let b ← H.lift (packBe16u [some v])
    pure ⟨i, 7, 0, b⟩) <|
  try' .absL [lp, dis, rp, .str ".L".toList] (fun i => do                 -- 206-214
    let v ← H.parseIntegerOrLabel { label := tok 1, size := 4, bitsSize := 32, offset := 2 + offset }
    let b ← H.lift (packBe32u [some v])
    pure ⟨i, 7, 1, b⟩) <|
  try' .imm [.pred m68IsImm] (fun i => do                                 -- 216-220
    let b ← m68Packer ((tok 0).drop 1) size offset
    pure ⟨i, 7, 4, b⟩) <|
  try' .absW [.pred m68IsAbsW] (fun i => do                               -- 222-229
    let v ← H.parseIntegerOrLabel { label := dropLast2 (tok 0), size := 2, bitsSize := 16, offset := 2 + offset }
    let b ← H.lift (packBe16u [some v])
    pure ⟨i, 7, 0, b⟩) <|
  try' .absL [.pred m68IsAbsL] (fun i => do                               -- 231-238
    let v ← H.parseIntegerOrLabel { label := dropLast2 (tok 0), size := 4, bitsSize := 32, offset := 2 + offset }
    let b ← H.lift (packBe32u [some v])
    pure ⟨i, 7, 1, b⟩) <|
  try' .absL [dis] (fun i => do                                           -- 240-247
    let v ← H.parseIntegerOrLabel { label := tok 0, size := 4, bitsSize := 32, offset := 2 + offset }
    let b ← H.lift (packBe32u [some v])
    pure ⟨i, 7, 1, b⟩) <|
  H.throw (.platform "InvalidMode")                                       -- 249

/-- mc68000.py:251-252 `_build_opcode` -/
def m68Build (base : Int) (fs : List BitField) : H Bytes := H.lift (packBitsBe16u base fs)

/-- The blacklist of a destination. -/
def m68Alterable : List M68Mode := [.an, .imm, .pcDisp, .pcIdx]

/-- The blacklist of an address. -/
def m68Control : List M68Mode := [.dn, .an, .post, .pre, .imm]

/-- The methods.  `imm base status`: the six of mc68000.py:278-354, which differ in the opcode and in
having the forms for CCR and SR. -/
inductive M68Kind where
  | move | movea | lea | bcc | dbcc
  | imm (base : Nat) (status : Bool)
  | jump (base : Nat)
deriving DecidableEq, Repr

/-- The common end of `_move` and `_movea`: mc68000.py:266, 276. -/
def m68ToAddress (tokens : List Str) (s : Nat) (o : M68Operand) : H (Option Bytes) := do
  let r ← m68Reg (tokens.getD o.next [])
  let b ← m68Build 0x0040 [⟨13, 12, s⟩, ⟨11, 9, r⟩, ⟨5, 3, o.m⟩, ⟨2, 0, o.xn⟩]
  pure (some (b ++ o.data))

/-- mc68000.py:260-413 -/
def m68Run : M68Kind → List Str → H (Option Bytes)
  | .move, tokens => do                                                   -- 260-269
    let sz := m68Dark (tokens.getD 0 [])
    let o ← m68Mode tokens 1 0 sz.1 []
    if (sz.1 = 2 ∨ sz.1 = 4) ∧ instrMatch tokens [.coll m68A] o.next = true then m68ToAddress tokens sz.2 o
    else do
      let o' ← m68Mode tokens o.next o.data.length sz.1 m68Alterable
      let b ← m68Build 0 [⟨13, 12, sz.2⟩, ⟨11, 9, o'.xn⟩, ⟨8, 6, o'.m⟩, ⟨5, 3, o.m⟩, ⟨2, 0, o.xn⟩]
      pure (some (b ++ o.data ++ o'.data))
  | .movea, tokens => do                                                  -- 271-276
    let sz := m68Dark (tokens.getD 0 [])
    let o ← m68Mode tokens 1 0 sz.1 []
    if instrMatch tokens [.coll m68A] o.next then m68ToAddress tokens sz.2 o
    else pure none
  | .imm base status, tokens =>                                           -- 278-354
    if status = true ∧ instrMatch tokens [.pred m68IsImm, .str "CCR".toList] = true then do
      let p ← m68Packer ((tokens.getD 1 []).drop 1) 1 0
      let b ← m68Build (base + 0x3C) []
      pure (some (b ++ p))
    else if status = true ∧ instrMatch tokens [.pred m68IsImm, .str "SR".toList] = true then do
      let p ← m68Packer ((tokens.getD 1 []).drop 1) 2 0
      let b ← m68Build (base + 0x7C) []
      pure (some (b ++ p))
    else
      match instrUnboundMatch tokens [.pred m68IsImm] with
      | some i => do
        let sz := m68Light (tokens.getD 0 [])
        let p ← m68Packer ((tokens.getD 1 []).drop 1) sz.1 0
        let o ← m68Mode tokens i (sz.1 + sz.1 % 2) sz.1 m68Alterable
        let b ← m68Build base [⟨7, 6, sz.2⟩, ⟨5, 3, o.m⟩, ⟨2, 0, o.xn⟩]
        pure (some (b ++ p ++ o.data))
      | none => pure none
  | .jump base, tokens => do                                              -- 356-360, 409-413
    let o ← m68Mode tokens 1 0 0 m68Control
    let b ← m68Build base [⟨5, 3, o.m⟩, ⟨2, 0, o.xn⟩]
    pure (some (b ++ o.data))
  | .lea, tokens => do                                                    -- 362-367
    let o ← m68Mode tokens 1 0 4 m68Control
    if instrMatch tokens [.coll m68A] o.next then do
      let r ← m68Reg (tokens.getD o.next [])
      let b ← m68Build 0x41C0 [⟨11, 9, r⟩, ⟨5, 3, o.m⟩, ⟨2, 0, o.xn⟩]
      pure (some (b ++ o.data))
    else pure none
  | .bcc, tokens =>                                                       -- 369-392
    if instrMatch tokens [.pred m68IsDisp] then do
      let cond ← m68Cond ((tokens.getD 0 []).drop 1)
      let c ← H.read
      if (m68Dark (tokens.getD 0 [])).1 = 1 then do
        let v ← H.parseIntegerOrLabel { label := tokens.getD 1 [], size := 2, bitsSize := 8, bits := some (7, 0), alignment := 2,
                                        relative := c.pc + 2 }
        let b ← m68Build 0x6000 [⟨11, 8, cond⟩, ⟨7, 0, v⟩]
        pure (some b)
      else if (m68Dark (tokens.getD 0 [])).1 = 2 then do
        let v ← H.parseIntegerOrLabel { label := tokens.getD 1 [], size := 2, bitsSize := 16, alignment := 2, offset := 2,
                                        relative := c.pc + 2 }
        let b ← m68Build 0x6000 [⟨11, 8, cond⟩]
        let e ← H.lift (packBe16u [some v])
        pure (some (b ++ e))
      else pure none
    else pure none
  | .dbcc, tokens =>                                                      -- 394-407
    if instrMatch tokens [.coll m68D, .pred m68IsDisp] then do
      let cond ← m68Cond ((tokens.getD 0 []).drop 2)
      let r ← m68Reg (tokens.getD 1 [])
      let c ← H.read
      let v ← H.parseIntegerOrLabel { label := tokens.getD 2 [], size := 2, bitsSize := 16, alignment := 2, offset := 2,
                                      relative := c.pc + 2 }
      let b ← m68Build 0x50C8 [⟨11, 8, cond⟩, ⟨2, 0, r⟩]
      let e ← H.lift (packBe16u [some v])
      pure (some (b ++ e))
    else pure none

/-- The names given to `@opcode`. -/
def m68Table : List (String × M68Kind) :=
  [("MOVE", .move), ("MOVE.W", .move), ("MOVE.B", .move), ("MOVE.L", .move),
   ("MOVEA", .movea), ("MOVEA.W", .movea), ("MOVEA.L", .movea),
   ("ORI", .imm 0x0000 true), ("ORI.W", .imm 0x0000 true), ("ORI.B", .imm 0x0000 true), ("ORI.L", .imm 0x0000 true),
   ("ANDI", .imm 0x0200 true), ("ANDI.W", .imm 0x0200 true), ("ANDI.B", .imm 0x0200 true), ("ANDI.L", .imm 0x0200 true),
   ("SUBI", .imm 0x0400 false), ("SUBI.W", .imm 0x0400 false), ("SUBI.B", .imm 0x0400 false), ("SUBI.L", .imm 0x0400 false),
   ("ADDI", .imm 0x0600 false), ("ADDI.W", .imm 0x0600 false), ("ADDI.B", .imm 0x0600 false), ("ADDI.L", .imm 0x0600 false),
   ("EORI", .imm 0x0A00 true), ("EORI.W", .imm 0x0A00 true), ("EORI.B", .imm 0x0A00 true), ("EORI.L", .imm 0x0A00 true),
   ("CMPI", .imm 0x0C00 false), ("CMPI.W", .imm 0x0C00 false), ("CMPI.B", .imm 0x0C00 false), ("CMPI.L", .imm 0x0C00 false),
   ("JMP", .jump 0x4EC0), ("LEA", .lea), ("LEA.L", .lea), ("JSR", .jump 0x4E80),
   ("BHI", .bcc), ("BLS", .bcc), ("BCC", .bcc), ("BCS", .bcc), ("BNE", .bcc), ("BEQ", .bcc), ("BVC", .bcc), ("BVS", .bcc),
   ("BPL", .bcc), ("BMI", .bcc), ("BGE", .bcc), ("BLT", .bcc), ("BGT", .bcc), ("BLE", .bcc),
   ("BHI.B", .bcc), ("BLS.B", .bcc), ("BCC.B", .bcc), ("BCS.B", .bcc), ("BNE.B", .bcc), ("BEQ.B", .bcc), ("BVC.B", .bcc), ("BVS.B", .bcc),
   ("BPL.B", .bcc), ("BMI.B", .bcc), ("BGE.B", .bcc), ("BLT.B", .bcc), ("BGT.B", .bcc), ("BLE.B", .bcc),
   ("BHI.W", .bcc), ("BLS.W", .bcc), ("BCC.W", .bcc), ("BCS.W", .bcc), ("BNE.W", .bcc), ("BEQ.W", .bcc), ("BVC.W", .bcc), ("BVS.W", .bcc),
   ("BPL.W", .bcc), ("BMI.W", .bcc), ("BGE.W", .bcc), ("BLT.W", .bcc), ("BGT.W", .bcc), ("BLE.W", .bcc),
   ("DBT", .dbcc), ("DBF", .dbcc), ("DBRA", .dbcc), ("DBHI", .dbcc), ("DBLS", .dbcc), ("DBCC", .dbcc), ("DBCS", .dbcc), ("DBNE", .dbcc),
   ("DBEQ", .dbcc), ("DBVC", .dbcc), ("DBVS", .dbcc), ("DBPL", .dbcc), ("DBMI", .dbcc), ("DBGE", .dbcc), ("DBLT", .dbcc), ("DBGT", .dbcc),
   ("DBLE", .dbcc),
   ("DBT.W", .dbcc), ("DBF.W", .dbcc), ("DBRA.W", .dbcc), ("DBHI.W", .dbcc), ("DBLS.W", .dbcc), ("DBCC.W", .dbcc), ("DBCS.W", .dbcc),
   ("DBNE.W", .dbcc), ("DBEQ.W", .dbcc), ("DBVC.W", .dbcc), ("DBVS.W", .dbcc), ("DBPL.W", .dbcc), ("DBMI.W", .dbcc), ("DBGE.W", .dbcc),
   ("DBLT.W", .dbcc), ("DBGT.W", .dbcc), ("DBLE.W", .dbcc)]

/-- mc68000.py:103-113 `AssemblerMC68000` -/
def mc68000 : Dialect where
  sy := { hexPrefixes := [['$']], binPrefixes := [['%']] }
  bigEndian := true
  instrs := fun k =>
    if k = "RTS".toList then some (.fixed [0x4E#8, 0x75#8])
    else if k = "NOP".toList then some (.fixed [0x4E#8, 0x71#8])
    else (dget (m68Table.map fun p => (p.1.toList, p.2)) k).map fun kind => .handler (m68Run kind)

end Necro
