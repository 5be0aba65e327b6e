import Verif.Model.Cpu.Mos6502
/-!
# /repo/necroassembler/cpu/intel8086.py
-/

namespace Necro

/-- intel8086.py:6-8 -/
def i86Regs8 : List Str := ["AL", "CL", "DL", "BL", "AH", "CH", "DH", "BH"].map String.toList
def i86Regs16 : List Str := ["AX", "CX", "DX", "BX", "SP", "BP", "SI", "DI"].map String.toList
def i86Segments : List Str := ["ES", "CS", "SS", "DS"].map String.toList

/-- The `modrm` dictionary of intel8086.py:572; a missing `displacement` and `None` are the same for
`modrm.get('displacement')`. -/
structure I86Modrm where
  mod : Option Nat := none
  reg : Option Nat := none
  rm : Option Nat := none
  disp : Option Str := none

/-- `modrm[key]` -/
def i86Key (x : Option Nat) : Except Err Int :=
  match x with
  | some n => .ok n
  | none => .error .keyError

/-- intel8086.py:11-24 `_build_modrm` -/
def i86Build (m : I86Modrm) : H Bytes := do
  let mod ← H.lift (i86Key m.mod)
  let reg ← H.lift (i86Key m.reg)
  let rm ← H.lift (i86Key m.rm)
  let b ← H.lift (packBits 0 [⟨7, 6, mod⟩, ⟨5, 3, reg⟩, ⟨2, 0, rm⟩])
  let blob ← H.lift (packByte [some b])
  match m.disp with
  | none => pure blob
  | some d => do
    let v ← H.parseIntegerOrLabel { label := d.dropWhile (· == '+'), size := 2, bitsSize := 16, offset := 1 } true
    let tail ← H.lift (packLe16s [some v])
    pure (blob ++ tail)

/-- The register parts of the addresses matched in intel8086.py:28-59, with their codes. -/
def i86Bases : List (List Str × Nat) :=
  [(["BX", "+", "SI"], 0), (["BX", "+", "DI"], 1), (["BP", "+", "SI"], 2), (["BP", "+", "DI"], 3),
   (["SI"], 4), (["DI"], 5), (["BP"], 6), (["BX"], 7)].map fun p => (p.1.map String.toList, p.2)

/-- intel8086.py:27-61 `_get_modrm_mod`: the sixteen tests, in order, as a search through the table without and
then with a displacement.  `none` stands for the `InvalidOpCodeArguments` that every caller catches. -/
def i86GetMod (arg : List Str) : Option (Nat × Nat × Nat × Option Str) :=
  match i86Bases.find? fun b => matchUtil arg (b.1.map .str) with
  | some b => some (0, b.2, b.1.length, none)
  | none =>
    match i86Bases.find? fun b => matchUtil arg (b.1.map .str ++ [.coll [['+'], ['-']], .any]) with
    | some b => some (2, b.2, b.1.length + 2, some (arg.getD b.1.length [] ++ arg.getD (b.1.length + 1) []))
    | none => none

/-- The argument functions of intel8086.py:64-334.  `r8 n`, `r16 n` and `seg n` are `_AL` … `_BH`, `_eAX` … `_eDI`
and `_ES` … `_DS`, by their place in the tuples of lines 6-8; `_1` is never used. -/
inductive I86Arg where
  | eb | ev | gb | gv | sw | m | mp
  | r8 (n : Nat) | r16 (n : Nat) | seg (n : Nat)
  | ib | iv | jb | jv | ob | ov | ap | i0 | three
deriving DecidableEq, Repr

/-- What an argument function returns, with the dictionary after it. -/
abbrev I86Result : Type := Option (Nat × Bytes) × I86Modrm

/-- `instr.tokens[index]` -/
def i86Token (tokens : List Str) (index : Nat) : Except Err Str :=
  match tokens[index]? with
  | some t => .ok t
  | none => .error .indexError

/-- intel8086.py:64-79, 273-279: `_Gb`, `_Gv` and `_Sw` -/
def i86Reg (names : List Str) (tokens : List Str) (index : Nat) (m : I86Modrm) : H I86Result := do
  let t ← H.lift (i86Token tokens index)
  if upper t ∈ names then do
    let m := { m with reg := some (names.idxOf (upper t)) }
    if 1 < index then do
      let b ← i86Build m
      pure (some (1, b), m)
    else pure (some (1, []), m)
  else pure (none, m)

/-- intel8086.py:82-179: `_AL` and the like -/
def i86Named (name : Str) (tokens : List Str) (index : Nat) (m : I86Modrm) : H I86Result := do
  let t ← H.lift (i86Token tokens index)
  pure (if upper t = name then some (1, []) else none, m)

/-- `b'' if 'reg' not in modrm else _build_modrm(assembler, modrm)` -/
def i86Late (m : I86Modrm) : H Bytes := if m.reg = none then pure [] else i86Build m

/-- intel8086.py:227-237, 247-257, 283-293: an address in brackets -/
def i86Mem (tokens : List Str) (index : Nat) (m : I86Modrm) : H I86Result :=
  let after := tokens.drop (index + 1)
  if [']'] ∈ after then
    H.tryCatch (do
      match i86GetMod (after.take (after.idxOf [']'])) with
      | none => H.throw .invalidOpCodeArguments
      | some (mod, rm, delta, disp) =>
        let m := { m with mod := some mod, rm := some rm, disp := disp }
        let b ← i86Late m
        pure (some (2 + delta, b), m))
      fun e => if e = .invalidOpCodeArguments then pure (none, m) else H.throw e
  else H.throw .invalidOpCodeArguments

/-- intel8086.py:220-257: `_Eb` and `_Ev` -/
def i86Either (names : List Str) (tokens : List Str) (index : Nat) (m : I86Modrm) : H I86Result := do
  let t ← H.lift (i86Token tokens index)
  if upper t ∈ names then do
    let m := { m with mod := some 3, rm := some (names.idxOf (upper t)) }
    let b ← i86Late m
    pure (some (1, b), m)
  else if upper t = ['['] then i86Mem tokens index m
  else pure (none, m)

/-- Is it the name of a register? -/
def i86IsReg (t : Str) : Bool := decide (upper t ∈ i86Regs8 ++ i86Regs16 ++ i86Segments)

/-- intel8086.py:206-217, 297-302: `[x]` with `x` not a register -/
def i86Direct (tokens : List Str) (index : Nat) : Option Str :=
  let three := (tokens.drop index).take 3
  if matchUtil three [.str ['['], .any, .str [']']] then
    let x := three.getD 1 []
    if i86IsReg x then none else some x
  else none

/-- intel8086.py:64-334: the argument functions -/
def I86Arg.run (a : I86Arg) (tokens : List Str) (index : Nat) (m : I86Modrm) : H I86Result :=
  match a with
  | .gb => i86Reg i86Regs8 tokens index m
  | .gv => i86Reg i86Regs16 tokens index m
  | .sw => i86Reg i86Segments tokens index m
  | .r8 n => i86Named (i86Regs8.getD n []) tokens index m
  | .r16 n => i86Named (i86Regs16.getD n []) tokens index m
  | .seg n => i86Named (i86Segments.getD n []) tokens index m
  | .eb => i86Either i86Regs8 tokens index m
  | .ev => i86Either i86Regs16 tokens index m
  | .m => do
    let t ← H.lift (i86Token tokens index)
    if t = ['['] then i86Mem tokens index m else pure (none, m)
  | .ib => do
    let t ← H.lift (i86Token tokens index)
    if i86IsReg t || t = ['['] || t = [']'] then pure (none, m)
    else do
      let v ← H.parseIntegerOrLabel { label := t, size := 1, bitsSize := 8, offset := 1 }
      let b ← H.lift (packByte [some v])
      pure (some (1, b), m)
  | .iv => do
    let t ← H.lift (i86Token tokens index)
    if i86IsReg t || t = ['['] || t = [']'] then pure (none, m)
    else do
      let v ← H.parseIntegerOrLabel { label := t, size := 2, bitsSize := 16, offset := 1 }
      let b ← H.lift (packLe16u [some v])
      pure (some (1, b), m)
  | .jb => do
    let t ← H.lift (i86Token tokens index)
    if ':' ∈ t || i86IsReg t then pure (none, m)
    else do
      let c ← H.read
      let v ← H.parseIntegerOrLabel { label := t, size := 1, bitsSize := 8, offset := 1, relative := c.pc + 2 }
      let b ← H.lift (pack8s [some v])
      pure (some (1, b), m)
  | .jv => do
    let t ← H.lift (i86Token tokens index)
    if ':' ∈ t || i86IsReg t then pure (none, m)
    else do
      let c ← H.read
      let v ← H.parseIntegerOrLabel { label := t, size := 2, bitsSize := 16, offset := 1, relative := c.pc + 3 }
      let b ← H.lift (packLe16u [some v])
      pure (some (1, b), m)
  | .ob =>
    match i86Direct tokens index with
    | none => pure (none, m)
    | some x => do
      let v ← H.parseIntegerOrLabel { label := x, size := 1, bitsSize := 8, offset := 1 }
      let b ← H.lift (packLe16u [some v])
      pure (some (3, b), m)
  | .ov =>
    match i86Direct tokens index with
    | none => pure (none, m)
    | some x => do
      let v ← H.parseIntegerOrLabel { label := x, size := 2, bitsSize := 16, offset := 1 }
      let b ← H.lift (packLe16u [some v])
      pure (some (3, b), m)
  | .mp =>
    match i86Direct tokens index with
    | none => pure (none, m)
    | some x => do
      let m := { m with mod := some 0, rm := some 6 }
      let b ← i86Build m
      let v ← H.parseIntegerOrLabel { label := x, size := 2, bitsSize := 16, offset := 1 }
      let tail ← H.lift (packLe16u [some v])
      pure (some (3, b ++ tail), m)
  | .ap => do
    let t ← H.lift (i86Token tokens index)
    if ':' ∈ t && !i86IsReg t then
      match t.splitOn ':' with
      | [segment, offset] => do
        let o ← H.parseIntegerOrLabel { label := offset, size := 2, bitsSize := 16, offset := 1 }
        let s ← H.parseIntegerOrLabel { label := segment, size := 2, bitsSize := 16, offset := 3 }
        let b ← H.lift (packLe16u [some o, some s])
        pure (some (1, b), m)
      | _ => H.throw .valueError
    else pure (none, m)
  | .three => do
    let t ← H.lift (i86Token tokens index)
    pure (if t = ['3'] then some (1, []) else none, m)
  | .i0 =>
    if tokens.length = 1 then pure (some (1, []), m)
    else if tokens.length = 2 then do
      let t ← H.lift (i86Token tokens index)
      match ← H.parseInteger t 8 false with
      | none => pure (none, m)
      | some v =>
        if v = 10 then pure (some (1, []), m)
        else do
          let b ← H.lift (packByte [some v])
          pure (some (1, b), m)
    else pure (none, m)

/-- intel8086.py:337-557 `OPCODES_TABLE` -/
def i86Table : List (Nat × String × List I86Arg) :=
  [(0x00, "ADD", [.eb, .gb]), (0x01, "ADD", [.ev, .gv]), (0x02, "ADD", [.gb, .eb]), (0x03, "ADD", [.gv, .ev]),
   (0x04, "ADD", [.r8 0, .ib]), (0x05, "ADD", [.r16 0, .iv]), (0x06, "PUSH", [.seg 0]), (0x07, "POP", [.seg 0]),
   (0x08, "OR", [.eb, .gb]), (0x09, "OR", [.ev, .gv]), (0x0A, "OR", [.gb, .eb]), (0x0B, "OR", [.gv, .ev]),
   (0x0C, "OR", [.r8 0, .ib]), (0x0D, "OR", [.r16 0, .iv]), (0x0E, "PUSH", [.seg 1]), (0x10, "ADC", [.eb, .gb]),
   (0x11, "ADC", [.ev, .gv]), (0x12, "ADC", [.gb, .eb]), (0x13, "ADC", [.gv, .ev]), (0x14, "ADC", [.r8 0, .ib]),
   (0x15, "ADC", [.r16 0, .iv]), (0x16, "PUSH", [.seg 2]), (0x17, "POP", [.seg 2]), (0x18, "SBB", [.eb, .gb]),
   (0x19, "SBB", [.ev, .gv]), (0x1A, "SBB", [.gb, .eb]), (0x1B, "SBB", [.gv, .ev]), (0x1C, "SBB", [.r8 0, .ib]),
   (0x1D, "SBB", [.r16 0, .iv]), (0x1E, "PUSH", [.seg 3]), (0x1F, "POP", [.seg 3]), (0x20, "AND", [.eb, .gb]),
   (0x21, "AND", [.ev, .gv]), (0x22, "AND", [.gb, .eb]), (0x23, "AND", [.gv, .ev]), (0x24, "AND", [.r8 0, .ib]),
   (0x25, "AND", [.r16 0, .iv]), (0x27, "DAA", []), (0x28, "SUB", [.eb, .gb]), (0x29, "SUB", [.ev, .gv]),
   (0x2A, "SUB", [.gb, .eb]), (0x2B, "SUB", [.gv, .ev]), (0x2C, "SUB", [.r8 0, .ib]), (0x2D, "SUB", [.r16 0, .iv]),
   (0x2F, "DAS", []), (0x30, "XOR", [.eb, .gb]), (0x31, "XOR", [.ev, .gv]), (0x32, "XOR", [.gb, .eb]), (0x33, "XOR", [.gv, .ev]),
   (0x34, "XOR", [.r8 0, .ib]), (0x35, "XOR", [.r16 0, .iv]), (0x37, "AAA", []), (0x38, "CMP", [.eb, .gb]),
   (0x39, "CMP", [.ev, .gv]), (0x3A, "CMP", [.gb, .eb]), (0x3B, "CMP", [.gv, .ev]), (0x3C, "CMP", [.r8 0, .ib]),
   (0x3D, "CMP", [.r16 0, .iv]), (0x3F, "AAS", []), (0x40, "INC", [.r16 0]), (0x41, "INC", [.r16 1]), (0x42, "INC", [.r16 2]),
   (0x43, "INC", [.r16 3]), (0x44, "INC", [.r16 4]), (0x45, "INC", [.r16 5]), (0x46, "INC", [.r16 6]), (0x47, "INC", [.r16 7]),
   (0x48, "DEC", [.r16 0]), (0x49, "DEC", [.r16 1]), (0x4A, "DEC", [.r16 2]), (0x4B, "DEC", [.r16 3]), (0x4C, "DEC", [.r16 4]),
   (0x4D, "DEC", [.r16 5]), (0x4E, "DEC", [.r16 6]), (0x4F, "DEC", [.r16 7]), (0x50, "PUSH", [.r16 0]), (0x51, "PUSH", [.r16 1]),
   (0x52, "PUSH", [.r16 2]), (0x53, "PUSH", [.r16 3]), (0x54, "PUSH", [.r16 4]), (0x55, "PUSH", [.r16 5]),
   (0x56, "PUSH", [.r16 6]), (0x57, "PUSH", [.r16 7]), (0x58, "POP", [.r16 0]), (0x59, "POP", [.r16 1]), (0x5A, "POP", [.r16 2]),
   (0x5B, "POP", [.r16 3]), (0x5C, "POP", [.r16 4]), (0x5D, "POP", [.r16 5]), (0x5E, "POP", [.r16 6]), (0x5F, "POP", [.r16 7]),
   (0x70, "JO", [.jb]), (0x71, "JNO", [.jb]), (0x72, "JB", [.jb]), (0x73, "JNB", [.jb]), (0x74, "JZ", [.jb]),
   (0x75, "JNZ", [.jb]), (0x76, "JBE", [.jb]), (0x77, "JA", [.jb]), (0x78, "JS", [.jb]), (0x79, "JNS", [.jb]),
   (0x7A, "JPE", [.jb]), (0x7B, "JPO", [.jb]), (0x7C, "JL", [.jb]), (0x7D, "JGE", [.jb]), (0x7E, "JLE", [.jb]),
   (0x7F, "JG", [.jb]), (0x84, "TEST", [.gb, .eb]), (0x85, "TEST", [.gv, .ev]), (0x86, "XCHG", [.gb, .eb]),
   (0x87, "XCHG", [.gv, .ev]), (0x88, "MOV", [.eb, .gb]), (0x89, "MOV", [.ev, .gv]), (0x8A, "MOV", [.gb, .eb]),
   (0x8B, "MOV", [.gv, .ev]), (0x8C, "MOV", [.ev, .sw]), (0x8D, "LEA", [.gv, .m]), (0x8E, "MOV", [.sw, .ev]),
   (0x8F, "POP", [.ev]), (0x90, "NOP", []), (0x91, "XCHG", [.r16 1, .r16 0]), (0x92, "XCHG", [.r16 2, .r16 0]),
   (0x93, "XCHG", [.r16 3, .r16 0]), (0x94, "XCHG", [.r16 4, .r16 0]), (0x95, "XCHG", [.r16 5, .r16 0]),
   (0x96, "XCHG", [.r16 6, .r16 0]), (0x97, "XCHG", [.r16 7, .r16 0]), (0x98, "CBW", []), (0x99, "CWD", []),
   (0x9A, "CALL", [.ap]), (0x9B, "WAIT", []), (0x9C, "PUSHF", []), (0x9D, "POPF", []), (0x9E, "SAHF", []), (0x9F, "LAHF", []),
   (0xA0, "MOV", [.r8 0, .ob]), (0xA1, "MOV", [.r16 0, .ov]), (0xA2, "MOV", [.ob, .r8 0]), (0xA3, "MOV", [.ov, .r16 0]),
   (0xA4, "MOVSB", []), (0xA5, "MOVSW", []), (0xA6, "CMPSB", []), (0xA7, "CMPSW", []), (0xA8, "TEST", [.r8 0, .ib]),
   (0xA9, "TEST", [.r16 0, .iv]), (0xAA, "STOSB", []), (0xAB, "STOSW", []), (0xAC, "LODSB", []), (0xAD, "LODSW", []),
   (0xAE, "SCASB", []), (0xAF, "SCASW", []), (0xB0, "MOV", [.r8 0, .ib]), (0xB1, "MOV", [.r8 1, .ib]),
   (0xB2, "MOV", [.r8 2, .ib]), (0xB3, "MOV", [.r8 3, .ib]), (0xB4, "MOV", [.r8 4, .ib]), (0xB5, "MOV", [.r8 5, .ib]),
   (0xB6, "MOV", [.r8 6, .ib]), (0xB7, "MOV", [.r8 7, .ib]), (0xB8, "MOV", [.r16 0, .iv]), (0xB9, "MOV", [.r16 1, .iv]),
   (0xBA, "MOV", [.r16 2, .iv]), (0xBB, "MOV", [.r16 3, .iv]), (0xBC, "MOV", [.r16 4, .iv]), (0xBD, "MOV", [.r16 5, .iv]),
   (0xBE, "MOV", [.r16 6, .iv]), (0xBF, "MOV", [.r16 7, .iv]), (0xC2, "RET", [.iv]), (0xC3, "RET", []),
   (0xC4, "LES", [.gv, .mp]), (0xC5, "LDS", [.gv, .mp]), (0xC6, "MOV", [.eb, .ib]), (0xC7, "MOV", [.ev, .iv]),
   (0xCA, "RETF", [.iv]), (0xCB, "RETF", []), (0xCC, "INT", [.three]), (0xCD, "INT", [.ib]), (0xCE, "INTO", []),
   (0xCF, "IRET", []), (0xD4, "AAM", [.i0]), (0xD5, "AAD", [.i0]), (0xD4, "AAM", []), (0xD5, "AAD", []), (0xD7, "XLAT", []),
   (0xE0, "LOOPNZ", [.jb]), (0xE1, "LOOPZ", [.jb]), (0xE2, "LOOP", [.jb]), (0xE3, "JCXZ", [.jb]), (0xE4, "IN", [.r8 0, .ib]),
   (0xE5, "IN", [.r16 0, .ib]), (0xE6, "OUT", [.ib, .r8 0]), (0xE7, "OUT", [.ib, .r16 0]), (0xE8, "CALL", [.jv]),
   (0xE9, "JMP", [.jv]), (0xEA, "JMP", [.ap]), (0xEB, "JMP", [.jb]), (0xEC, "IN", [.r8 0, .r16 2]),
   (0xED, "IN", [.r16 0, .r16 2]), (0xEE, "OUT", [.r16 2, .r8 0]), (0xEF, "OUT", [.r16 2, .r16 0]), (0xF0, "LOCK", []),
   (0xF2, "REPNZ", []), (0xF3, "REPZ", []), (0xF4, "HLT", []), (0xF5, "CMC", []), (0xF8, "CLC", []), (0xF9, "STC", []),
   (0xFA, "CLI", []), (0xFB, "STI", []), (0xFC, "CLD", []), (0xFD, "STD", []), (0xF706, "DIV", [.ev]), (0xF704, "MUL", [.ev]),
   (0xD004, "SHL", [.eb]), (0xD104, "SHL", [.ev]), (0xD005, "SHR", [.eb]), (0xD105, "SHR", [.ev])]

/-- intel8086.py:585-591: the loop over the arguments of a row; `none` is `skip`. -/
def i86Args (tokens : List Str) : List I86Arg → Nat → I86Modrm → Bytes → H (Option Bytes)
  | [], _, _, blob => pure (some blob)
  | a :: as, index, m, blob => do
    let (r, m) ← a.run tokens index m
    match r with
    | none => pure none
    | some (delta, b) => if delta = 0 then pure none else i86Args tokens as (index + delta) m (blob ++ b)

/-- intel8086.py:570-593 `__call__` -/
def i86Call (tokens : List Str) : List (Nat × List I86Arg) → H (Option Bytes)
  | [] => pure none
  | (base, args) :: conds => do
    let m : I86Modrm := if 0xFF < base then { reg := some (base % 256) } else {}
    let base := if 0xFF < base then base / 256 else base
    if args = [] then
      if tokens.length = 1 then do
        let b ← H.lift (packByte [some (base : Int)])
        pure (some b)
      else H.throw .invalidOpCodeArguments
    else if tokens.length < 2 then i86Call tokens conds
    else
      match ← i86Args tokens args 1 m [] with
      | none => i86Call tokens conds
      | some full => do
        let b ← H.lift (packByte [some (base : Int)])
        pure (some (b ++ full))

/-- intel8086.py:611-620: the rows of one mnemonic, in the order of the table -/
def i86Conds (key : Str) : List (Nat × List I86Arg) :=
  (i86Table.filter fun r => r.2.1.toList == key).map fun r => (r.1, r.2.2)

/-- intel8086.py:597-620 `AssemblerIntel8086` -/
def i8086 : Dialect where
  sy := {
    hexPrefixes := ["0x".toList, "0h".toList, "$0".toList]
    hexSuffixes := ["h".toList]
    decPrefixes := ["0d".toList]
    decSuffixes := ["d".toList]
    binPrefixes := ["0b".toList, "0y".toList]
    binSuffixes := ["b".toList, "y".toList]
    octPrefixes := ["0o".toList, "0q".toList]
    octSuffixes := ["o".toList, "q".toList] }
  instrs := fun key =>
    match i86Conds key with
    | [] => none
    | conds => some (.handler fun tokens => i86Call tokens conds)

end Necro
