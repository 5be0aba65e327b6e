import Verif.Model.Cpu.Intel8086
/-!
# /repo/necroassembler/cpu/x86.py
-/

namespace Necro

/-- x86.py:7-12 -/
def x86Regs8 : List Str := ["AL", "CL", "DL", "BL", "AH", "CH", "DH", "BH"].map String.toList
def x86Regs16 : List Str := ["AX", "CX", "DX", "BX", "SP", "BP", "SI", "DI"].map String.toList
def x86Regs32 : List Str := ["EAX", "ECX", "EDX", "EBX", "ESP", "EBP", "ESI", "EDI"].map String.toList
def x86Regs64 : List Str := ["RAX", "RCX", "RDX", "RBX", "RSP", "RBP", "RSI", "RDI"].map String.toList
def x86Cregs : List Str := ["CR0", "CR1", "CR2", "CR3", "CR4", "CR5", "CR6", "CR7"].map String.toList
def x86Segments : List Str := ["ES", "CS", "SS", "DS"].map String.toList

/-- x86.py:14 `ALL_REGS` -/
def x86AllRegs : List Str := x86Regs8 ++ x86Regs16 ++ x86Regs32 ++ x86Regs64 ++ x86Cregs ++ x86Segments

/-- `assembler.bits`: the class attribute is 64 (x86.py:1989) until the directive sets it; in the state the
mode is 0 until then. -/
def x86Mode (c : Ctx) : Nat := if c.bitsMode = 0 then 64 else c.bitsMode

/-- The `modrm` dictionary of x86.py:1940. -/
structure X86Modrm where
  mod : Option Nat := none
  reg : Option Nat := none
  rm : Option Nat := none
  disp : Option Str := none
  bits : Option Nat := none

/-- x86.py:17-45 `_build_modrm`; `off` is `len(base)` -/
def x86Build (off : Nat) (m : X86Modrm) : H Bytes := do
  let mod ← H.lift (i86Key m.mod)
  let reg ← H.lift (i86Key m.reg)
  let rm ← H.lift (i86Key m.rm)
  let b ← H.lift (packBits 0 [⟨7, 6, mod⟩, ⟨5, 3, reg⟩, ⟨2, 0, rm⟩])
  let blob ← H.lift (packByte [some b])
  match m.disp with
  | none => pure blob
  | some d => do
    let bits ← H.lift (i86Key m.bits)
    let label := d.dropWhile (· == '+')
    if bits = 16 then do
      let v ← H.parseIntegerOrLabel { label := label, size := 2, bitsSize := 16, offset := off } true
      let tail ← H.lift (packLe16s [some v])
      pure (blob ++ tail)
    else if bits = 32 then do
      let v ← H.parseIntegerOrLabel { label := label, size := 4, bitsSize := 32, offset := off } true
      let tail ← H.lift (packLe32s [some v])
      pure (blob ++ tail)
    else if bits = 64 then do
      let v ← H.parseIntegerOrLabel { label := label, size := 8, bitsSize := 64, offset := off } true
      let tail ← H.lift (packLe64s [some v])
      pure (blob ++ tail)
    else pure blob

/-- A register and its longer forms, as matched in x86.py:49-64. -/
def x86Wide (r : String) : Pat := .coll [r.toList, ("E" ++ r).toList, ("R" ++ r).toList]

/-- The addresses without displacement of x86.py:49-64, with their codes. -/
def x86Bases : List (List Pat × Nat) :=
  [([x86Wide "BX", .str ['+'], x86Wide "SI"], 0), ([x86Wide "BX", .str ['+'], x86Wide "DI"], 1),
   ([x86Wide "BP", .str ['+'], x86Wide "SI"], 2), ([x86Wide "BP", .str ['+'], x86Wide "DI"], 3),
   ([x86Wide "SI"], 4), ([x86Wide "DI"], 5), ([x86Wide "BP"], 6), ([x86Wide "BX"], 7)]

/-- x86.py:48-82 `_get_modrm_mod`: the sixteen tests, in order; those with a displacement (lines 66-81) have the
register parts of `i86Bases`.  `none` stands for the `InvalidOpCodeArguments` that every caller catches. -/
def x86GetMod (arg : List Str) : Option (Nat × Nat × Nat × Option Str) :=
  match x86Bases.find? fun b => matchUtil arg b.1 with
  | some b => some (0, b.2, b.1.length, none)
  | none =>
    match i86Bases.find? fun b => matchUtil arg (b.1.map .str ++ [.coll [['+'], ['-']], .any]) with
    | some b => some (2, b.2, b.1.length + 2, some (arg.getD b.1.length [] ++ arg.getD (b.1.length + 1) []))
    | none => none

/-- The argument functions of x86.py:91-697.  All those whose body is only `pass`, which makes the row be
skipped, are written `pass`. -/
inductive X86Arg where
  | evqp | gvqp | zvqp | zvq | rax | ivds | ivqp | jvds | m | ms | rd | cd | pass
deriving DecidableEq, Repr

/-- What an argument function returns (`delta`, `base`, `blob`), with the dictionary after it. -/
abbrev X86Result : Type := Option (Nat × List Nat × Bytes) × X86Modrm

/-- x86.py:85-88 `_apply_Z` -/
def x86ApplyZ (base : List Nat) (n : Nat) : List Nat := base.dropLast ++ [base.getLastD 0 ||| n]

/-- `b'' if 'reg' not in modrm else _build_modrm(assembler, base, modrm)` -/
def x86Late (base : List Nat) (m : X86Modrm) : H Bytes := if m.reg = none then pure [] else x86Build base.length m

/-- The sizes of `_Evqp` and `_Gvqp`: `if 'bits' not in modrm: …` (x86.py:104-107, 113-116, 122-123) -/
def x86Size (mode bits : Nat) (base : List Nat) (m : X86Modrm) : List Nat × X86Modrm :=
  if m.bits = none then
    (if (bits = 16 ∧ mode ≠ 16) ∨ (bits = 32 ∧ mode = 16) then 0x66 :: base else base, { m with bits := some bits })
  else (base, m)

/-- x86.py:126-136, 312-322: an address in brackets -/
def x86Mem (tokens : List Str) (base : List Nat) (index : Nat) (m : X86Modrm) : H X86Result :=
  let after := tokens.drop (index + 1)
  if [']'] ∈ after then
    match x86GetMod (after.take (after.idxOf [']'])) with
    | none => pure (none, m)
    | some (mod, rm, delta, disp) =>
      let m := { m with mod := some mod, rm := some rm, disp := disp }
      H.tryCatch (do
        let b ← x86Late base m
        pure (some (2 + delta, base, b), m))
        fun e => if e = .invalidOpCodeArguments then pure (none, m) else H.throw e
  else H.throw .invalidOpCodeArguments

/-- x86.py:99-124: a register in `_Evqp` -/
def x86RegE (names : List Str) (bits : Nat) (t : Str) (base : List Nat) (m : X86Modrm) : H X86Result := do
  let c ← H.read
  let p := x86Size (x86Mode c) bits base { m with mod := some 3, rm := some (names.idxOf (upper t)) }
  let b ← x86Late p.1 p.2
  pure (some (1, p.1, b), p.2)

/-- x86.py:139-165: a register in `_Gvqp` -/
def x86RegG (names : List Str) (bits : Nat) (t : Str) (base : List Nat) (index : Nat) (m : X86Modrm) : H X86Result := do
  let c ← H.read
  let p := x86Size (x86Mode c) bits base { m with reg := some (names.idxOf (upper t)) }
  if 1 < index then do
    let b ← x86Build p.1.length p.2
    pure (some (1, p.1, b), p.2)
  else pure (some (1, p.1, []), p.2)

/-- x86.py:208-216, 345-356: an immediate, with the sizes in question -/
def x86Imm (sizes : List Nat) (t : Str) (base : List Nat) (m : X86Modrm) : H X86Result :=
  if upper t ∈ x86AllRegs ++ [['['], [']']] then pure (none, m)
  else
    match m.bits with
    | none => pure (none, m)
    | some bits =>
      if bits ∈ sizes then do
        let v ← H.parseIntegerOrLabel { label := t, size := bits / 8, bitsSize := bits, offset := base.length }
        let b ← H.lift (if bits = 16 then packLe16u [some v] else if bits = 32 then packLe32u [some v] else packLe64u [some v])
        pure (some (1, base, b), m)
      else pure (none, m)

/-- x86.py:91-697: the argument functions -/
def X86Arg.run (a : X86Arg) (tokens : List Str) (base : List Nat) (index : Nat) (m : X86Modrm) : H X86Result :=
  match a with
  | .pass => pure (none, m)
  -- x86.py:99-136
  | .evqp => do
    let t ← H.lift (i86Token tokens index)
    if upper t ∈ x86Regs16 then x86RegE x86Regs16 16 t base m
    else if upper t ∈ x86Regs32 then x86RegE x86Regs32 32 t base m
    else if upper t ∈ x86Regs64 then x86RegE x86Regs64 64 t base m
    else if upper t = ['['] then x86Mem tokens base index m
    else pure (none, m)
  -- x86.py:139-165
  | .gvqp => do
    let t ← H.lift (i86Token tokens index)
    if upper t ∈ x86Regs16 then x86RegG x86Regs16 16 t base index m
    else if upper t ∈ x86Regs32 then x86RegG x86Regs32 32 t base index m
    else if upper t ∈ x86Regs64 then x86RegG x86Regs64 64 t base index m
    else pure (none, m)
  -- x86.py:168-185
  | .zvqp => do
    let t ← H.lift (i86Token tokens index)
    let c ← H.read
    if upper t ∈ x86Regs32 then
      let base := x86ApplyZ base (x86Regs32.idxOf (upper t))
      pure (some (1, if x86Mode c = 16 then 0x66 :: base else base, []), { m with bits := some 32 })
    else if upper t ∈ x86Regs64 then pure (some (1, x86ApplyZ base (x86Regs64.idxOf (upper t)), []), { m with bits := some 64 })
    else if upper t ∈ x86Regs16 then
      pure (some (1, x86ApplyZ (if x86Mode c ≠ 16 then 0x66 :: base else base) (x86Regs16.idxOf (upper t)), []), { m with bits := some 16 })
    else pure (none, m)
  -- x86.py:239-252
  | .zvq => do
    let t ← H.lift (i86Token tokens index)
    let c ← H.read
    if upper t ∈ x86Regs64 then
      let base := x86ApplyZ base (x86Regs64.idxOf (upper t))
      pure (some (1, if x86Mode c = 16 then 0x66 :: base else base, []), { m with bits := some 64 })
    else if upper t ∈ x86Regs16 then
      pure (some (1, x86ApplyZ (if x86Mode c ≠ 16 then 0x66 :: base else base) (x86Regs16.idxOf (upper t)), []), { m with bits := some 16 })
    else pure (none, m)
  -- x86.py:219-232
  | .rax => do
    let t ← H.lift (i86Token tokens index)
    let c ← H.read
    if upper t = "AX".toList then
      pure (some (1, if x86Mode c ≠ 16 then 0x66 :: base else base, []), { m with bits := some 16 })
    else if upper t = "EAX".toList then
      pure (some (1, if x86Mode c = 16 then 0x66 :: base else base, []), { m with bits := some 32 })
    else if upper t = "RAX".toList then pure (some (1, base, []), { m with bits := some 64 })
    else pure (none, m)
  -- x86.py:208-216
  | .ivds => do
    let t ← H.lift (i86Token tokens index)
    x86Imm [16, 32] t base m
  -- x86.py:345-356
  | .ivqp => do
    let t ← H.lift (i86Token tokens index)
    x86Imm [16, 32, 64] t base m
  -- x86.py:455-467
  | .jvds => do
    let t ← H.lift (i86Token tokens index)
    let c ← H.read
    if upper t ∈ x86AllRegs ++ [['['], [']']] then pure (none, m)
    else if x86Mode c = 16 then do
      let v ← H.parseIntegerOrLabel { label := t, size := 2, bitsSize := 16, offset := base.length, relative := c.pc + base.length + 2 }
      let b ← H.lift (packLe16u [some v])
      pure (some (1, base, b), m)
    else if x86Mode c = 32 ∨ x86Mode c = 64 then do
      let v ← H.parseIntegerOrLabel { label := t, size := 2, bitsSize := 16, offset := base.length, relative := c.pc + base.length + 4 }
      let b ← H.lift (packLe32u [some v])
      pure (some (1, base, b), m)
    else pure (none, m)
  -- x86.py:311-322
  | .m => do
    let t ← H.lift (i86Token tokens index)
    if t = ['['] then x86Mem tokens base index m else pure (none, m)
  -- x86.py:478-492
  | .ms =>
    let three := (tokens.drop index).take 3
    if matchUtil three [.str ['['], .any, .str [']']] then
      let x := three.getD 1 []
      if upper x ∈ x86AllRegs then pure (none, m)
      else do
        let c ← H.read
        let m := { m with reg := some 0, mod := some 0, rm := some 6 }
        let size := x86Mode c / 8
        if x86Mode c = 16 ∨ x86Mode c = 32 ∨ x86Mode c = 64 then do
          let b ← x86Build base.length m
          let v ← H.parseIntegerOrLabel { label := x, size := size, bitsSize := x86Mode c, offset := base.length }
          let tail ← H.lift (if x86Mode c = 16 then packLe16u [some v] else if x86Mode c = 32 then packLe32u [some v] else packLe64u [some v])
          pure (some (3, base, b ++ tail), m)
        else pure (none, m)
    else pure (none, m)
  -- x86.py:551-556
  | .rd => do
    let t ← H.lift (i86Token tokens index)
    if upper t ∈ x86Regs32 then do
      let m := { m with mod := some 3, rm := some (x86Regs32.idxOf (upper t)) }
      let b ← x86Late base m
      pure (some (1, base, b), m)
    else pure (none, m)
  -- x86.py:559-565
  | .cd => do
    let t ← H.lift (i86Token tokens index)
    if upper t ∈ x86Cregs then do
      let m := { m with reg := some (x86Cregs.idxOf (upper t)) }
      if 1 < index then do
        let b ← x86Build base.length m
        pure (some (1, base, b), m)
      else pure (some (1, base, []), m)
    else pure (none, m)

/-- x86.py:700-1923 `OPCODES_TABLE`, part 1 -/
def x86Table1 : List (Nat × String × List X86Arg) :=
  [(0x0, "ADD", [.pass, .pass]), (0x1, "ADD", [.evqp, .gvqp]), (0x2, "ADD", [.pass, .pass]), (0x3, "ADD", [.gvqp, .evqp]),
   (0x4, "ADD", [.pass, .pass]), (0x5, "ADD", [.rax, .ivds]), (0x8, "OR", [.pass, .pass]), (0x9, "OR", [.evqp, .gvqp]),
   (0xa, "OR", [.pass, .pass]), (0xb, "OR", [.gvqp, .evqp]), (0xc, "OR", [.pass, .pass]), (0xd, "OR", [.rax, .ivds]),
   (0x10, "ADC", [.pass, .pass]), (0x11, "ADC", [.evqp, .gvqp]), (0x12, "ADC", [.pass, .pass]), (0x13, "ADC", [.gvqp, .evqp]),
   (0x14, "ADC", [.pass, .pass]), (0x15, "ADC", [.rax, .ivds]), (0x18, "SBB", [.pass, .pass]), (0x19, "SBB", [.evqp, .gvqp]),
   (0x1a, "SBB", [.pass, .pass]), (0x1b, "SBB", [.gvqp, .evqp]), (0x1c, "SBB", [.pass, .pass]), (0x1d, "SBB", [.rax, .ivds]),
   (0x20, "AND", [.pass, .pass]), (0x21, "AND", [.evqp, .gvqp]), (0x22, "AND", [.pass, .pass]), (0x23, "AND", [.gvqp, .evqp]),
   (0x24, "AND", [.pass, .pass]), (0x25, "AND", [.rax, .ivds]), (0x27, "DAA", []), (0x28, "SUB", [.pass, .pass]), (0x29, "SUB", [.evqp, .gvqp]),
   (0x2a, "SUB", [.pass, .pass]), (0x2b, "SUB", [.gvqp, .evqp]), (0x2c, "SUB", [.pass, .pass]), (0x2d, "SUB", [.rax, .ivds]),
   (0x2e, "NTAKEN", []), (0x2f, "DAS", []), (0x30, "XOR", [.pass, .pass]), (0x31, "XOR", [.evqp, .gvqp]), (0x32, "XOR", [.pass, .pass]),
   (0x33, "XOR", [.gvqp, .evqp]), (0x34, "XOR", [.pass, .pass]), (0x35, "XOR", [.rax, .ivds]), (0x37, "AAA", []), (0x38, "CMP", [.pass]),
   (0x39, "CMP", [.evqp]), (0x3a, "CMP", [.pass]), (0x3b, "CMP", [.gvqp]), (0x3c, "CMP", [.pass]), (0x3d, "CMP", [.rax]), (0x3e, "TAKEN", []),
   (0x3f, "AAS", []), (0x40, "INC", [.pass]), (0x40, "REX", []), (0x41, "REX.B", []), (0x42, "REX.X", []), (0x43, "REX.XB", []),
   (0x44, "REX.R", []), (0x45, "REX.RB", []), (0x46, "REX.RX", []), (0x47, "REX.RXB", []), (0x48, "DEC", [.pass]), (0x48, "REX.W", []),
   (0x49, "REX.WB", []), (0x4a, "REX.WX", []), (0x4b, "REX.WXB", []), (0x4c, "REX.WR", []), (0x4d, "REX.WRB", []), (0x4e, "REX.WRX", []),
   (0x4f, "REX.WRXB", []), (0x50, "PUSH", [.pass]), (0x50, "PUSH", [.zvq]), (0x58, "POP", [.pass]), (0x58, "POP", [.zvq]), (0x60, "PUSHA", []),
   (0x60, "PUSHAD", []), (0x61, "POPA", []), (0x61, "POPAD", []), (0x62, "BOUND", [.pass]), (0x63, "ARPL", [.pass]),
   (0x63, "MOVSXD", [.pass, .pass]), (0x64, "ALTER", []), (0x68, "PUSH", [.pass]), (0x69, "IMUL", [.gvqp, .evqp]), (0x6a, "PUSH", [.pass]),
   (0x6b, "IMUL", [.gvqp, .evqp]), (0x6c, "INS", [.pass, .pass]), (0x6c, "INSB", []), (0x6d, "INS", [.pass, .pass]), (0x6d, "INSW", []),
   (0x6d, "INS", [.pass, .pass]), (0x6d, "INSD", []), (0x6e, "OUTS", [.pass, .pass]), (0x6e, "OUTSB", []), (0x6f, "OUTS", [.pass, .pass]),
   (0x6f, "OUTSW", []), (0x6f, "OUTS", [.pass, .pass]), (0x6f, "OUTSD", []), (0x70, "JO", [.pass]), (0x71, "JNO", [.pass]),
   (0x72, "JB", [.pass]), (0x72, "JNAE", [.pass]), (0x72, "JC", [.pass]), (0x73, "JNB", [.pass]), (0x73, "JAE", [.pass]),
   (0x73, "JNC", [.pass]), (0x74, "JZ", [.pass]), (0x74, "JE", [.pass]), (0x75, "JNZ", [.pass]), (0x75, "JNE", [.pass]), (0x76, "JBE", [.pass]),
   (0x76, "JNA", [.pass]), (0x77, "JNBE", [.pass]), (0x77, "JA", [.pass]), (0x78, "JS", [.pass]), (0x79, "JNS", [.pass]), (0x7a, "JP", [.pass]),
   (0x7a, "JPE", [.pass]), (0x7b, "JNP", [.pass]), (0x7b, "JPO", [.pass]), (0x7c, "JL", [.pass]), (0x7c, "JNGE", [.pass]),
   (0x7d, "JNL", [.pass]), (0x7d, "JGE", [.pass]), (0x7e, "JLE", [.pass]), (0x7e, "JNG", [.pass]), (0x7f, "JNLE", [.pass]),
   (0x7f, "JG", [.pass]), (0x80, "ADD", [.pass, .pass]), (0x80, "OR", [.pass, .pass]), (0x80, "ADC", [.pass, .pass]),
   (0x80, "SBB", [.pass, .pass]), (0x80, "AND", [.pass, .pass]), (0x80, "SUB", [.pass, .pass]), (0x80, "XOR", [.pass, .pass]),
   (0x80, "CMP", [.pass]), (0x81, "ADD", [.evqp, .ivds]), (0x81, "OR", [.evqp, .ivds]), (0x81, "ADC", [.evqp, .ivds]),
   (0x81, "SBB", [.evqp, .ivds]), (0x81, "AND", [.evqp, .ivds]), (0x81, "SUB", [.evqp, .ivds]), (0x81, "XOR", [.evqp, .ivds]),
   (0x81, "CMP", [.evqp]), (0x82, "ADD", [.pass, .pass]), (0x82, "OR", [.pass, .pass]), (0x82, "ADC", [.pass, .pass]),
   (0x82, "SBB", [.pass, .pass]), (0x82, "AND", [.pass, .pass]), (0x82, "SUB", [.pass, .pass]), (0x82, "XOR", [.pass, .pass]),
   (0x82, "CMP", [.pass]), (0x83, "ADD", [.evqp, .pass]), (0x83, "OR", [.evqp, .pass]), (0x83, "ADC", [.evqp, .pass]),
   (0x83, "SBB", [.evqp, .pass]), (0x83, "AND", [.evqp, .pass]), (0x83, "SUB", [.evqp, .pass]), (0x83, "XOR", [.evqp, .pass]),
   (0x83, "CMP", [.evqp]), (0x84, "TEST", [.pass]), (0x85, "TEST", [.evqp]), (0x86, "XCHG", [.pass]), (0x87, "XCHG", [.gvqp]),
   (0x88, "MOV", [.pass, .pass]), (0x89, "MOV", [.evqp, .gvqp]), (0x8a, "MOV", [.pass, .pass]), (0x8b, "MOV", [.gvqp, .evqp]),
   (0x8c, "MOV", [.pass, .pass]), (0x8c, "MOV", [.pass, .pass]), (0x8d, "LEA", [.gvqp, .m]), (0x8e, "MOV", [.pass, .pass]),
   (0x8f, "POP", [.pass]), (0x8f, "POP", [.pass]), (0x90, "XCHG", [.zvqp]), (0x90, "NOP", []), (0x90, "NOP", []), (0x90, "PAUSE", []),
   (0x98, "CBW", []), (0x98, "CWDE", []), (0x98, "CBW", []), (0x98, "CWDE", []), (0x98, "CDQE", []), (0x99, "CWD", []), (0x99, "CDQ", []),
   (0x99, "CWD", []), (0x99, "CDQ", []), (0x99, "CQO", []), (0x9a, "CALLF", [.pass]), (0x9b, "FWAIT", []), (0x9b, "WAIT", []),
   (0x9c, "PUSHF", []), (0x9c, "PUSHFD", []), (0x9c, "PUSHF", []), (0x9c, "PUSHFQ", []), (0x9d, "POPF", []), (0x9d, "POPFD", []),
   (0x9d, "POPF", [])]

/-- x86.py:700-1923 `OPCODES_TABLE`, part 2 -/
def x86Table2 : List (Nat × String × List X86Arg) :=
  [(0x9d, "POPFQ", []), (0x9e, "SAHF", []), (0x9f, "LAHF", []), (0xa0, "MOV", [.pass, .pass]), (0xa1, "MOV", [.rax, .pass]),
   (0xa2, "MOV", [.pass, .pass]), (0xa3, "MOV", [.pass, .rax]), (0xa4, "MOVS", [.pass, .pass]), (0xa4, "MOVSB", []),
   (0xa5, "MOVS", [.pass, .pass]), (0xa5, "MOVSW", []), (0xa5, "MOVS", [.pass, .pass]), (0xa5, "MOVSD", []), (0xa5, "MOVS", [.pass, .pass]),
   (0xa5, "MOVSW", []), (0xa5, "MOVSD", []), (0xa5, "MOVSQ", []), (0xa6, "CMPS", [.pass]), (0xa6, "CMPSB", []), (0xa7, "CMPS", [.pass]),
   (0xa7, "CMPSW", []), (0xa7, "CMPS", [.pass]), (0xa7, "CMPSD", []), (0xa7, "CMPS", [.pass]), (0xa7, "CMPSW", []), (0xa7, "CMPSD", []),
   (0xa7, "CMPSQ", []), (0xa8, "TEST", [.pass]), (0xa9, "TEST", [.rax]), (0xaa, "STOS", [.pass]), (0xaa, "STOSB", []), (0xab, "STOS", [.pass]),
   (0xab, "STOSW", []), (0xab, "STOS", [.pass]), (0xab, "STOSD", []), (0xab, "STOS", [.pass]), (0xab, "STOSW", []), (0xab, "STOSD", []),
   (0xab, "STOSQ", []), (0xac, "LODS", [.pass]), (0xac, "LODSB", []), (0xad, "LODS", [.pass]), (0xad, "LODSW", []), (0xad, "LODS", [.pass]),
   (0xad, "LODSD", []), (0xad, "LODS", [.pass]), (0xad, "LODSW", []), (0xad, "LODSD", []), (0xad, "LODSQ", []), (0xae, "SCAS", [.pass]),
   (0xae, "SCASB", []), (0xaf, "SCAS", [.pass]), (0xaf, "SCASW", []), (0xaf, "SCAS", [.pass]), (0xaf, "SCASD", []), (0xaf, "SCAS", [.pass]),
   (0xaf, "SCASW", []), (0xaf, "SCASD", []), (0xaf, "SCASQ", []), (0xb0, "MOV", [.pass, .pass]), (0xb8, "MOV", [.zvqp, .ivqp]),
   (0xc0, "ROL", [.pass, .pass]), (0xc0, "ROR", [.pass, .pass]), (0xc0, "RCL", [.pass, .pass]), (0xc0, "RCR", [.pass, .pass]),
   (0xc0, "SHL", [.pass, .pass]), (0xc0, "SAL", [.pass, .pass]), (0xc0, "SHR", [.pass, .pass]), (0xc0, "SAL", [.pass, .pass]),
   (0xc0, "SHL", [.pass, .pass]), (0xc0, "SAR", [.pass, .pass]), (0xc1, "ROL", [.evqp, .pass]), (0xc1, "ROR", [.evqp, .pass]),
   (0xc1, "RCL", [.evqp, .pass]), (0xc1, "RCR", [.evqp, .pass]), (0xc1, "SHL", [.evqp, .pass]), (0xc1, "SAL", [.evqp, .pass]),
   (0xc1, "SHR", [.evqp, .pass]), (0xc1, "SAL", [.evqp, .pass]), (0xc1, "SHL", [.evqp, .pass]), (0xc1, "SAR", [.evqp, .pass]),
   (0xc2, "RETN", []), (0xc3, "RETN", []), (0xc3, "RET", []), (0xc6, "MOV", [.pass, .pass]), (0xc7, "MOV", [.evqp, .ivds]),
   (0xc8, "ENTER", [.pass]), (0xc8, "ENTER", [.pass]), (0xc9, "LEAVE", []), (0xc9, "LEAVE", []), (0xca, "RETF", [.pass]), (0xcb, "RETF", []),
   (0xcc, "INT", [.pass]), (0xcd, "INT", [.pass]), (0xce, "INTO", []), (0xcf, "IRET", []), (0xcf, "IRETD", []), (0xcf, "IRET", []),
   (0xcf, "IRETD", []), (0xcf, "IRETQ", []), (0xd0, "ROL", [.pass, .pass]), (0xd0, "ROR", [.pass, .pass]), (0xd0, "RCL", [.pass, .pass]),
   (0xd0, "RCR", [.pass, .pass]), (0xd0, "SHL", [.pass, .pass]), (0xd0, "SAL", [.pass, .pass]), (0xd0, "SHR", [.pass, .pass]),
   (0xd0, "SAL", [.pass, .pass]), (0xd0, "SHL", [.pass, .pass]), (0xd0, "SAR", [.pass, .pass]), (0xd1, "ROL", [.evqp, .pass]),
   (0xd1, "ROR", [.evqp, .pass]), (0xd1, "RCL", [.evqp, .pass]), (0xd1, "RCR", [.evqp, .pass]), (0xd1, "SHL", [.evqp, .pass]),
   (0xd1, "SAL", [.evqp, .pass]), (0xd1, "SHR", [.evqp, .pass]), (0xd1, "SAL", [.evqp, .pass]), (0xd1, "SHL", [.evqp, .pass]),
   (0xd1, "SAR", [.evqp, .pass]), (0xd2, "ROL", [.pass, .pass]), (0xd2, "ROR", [.pass, .pass]), (0xd2, "RCL", [.pass, .pass]),
   (0xd2, "RCR", [.pass, .pass]), (0xd2, "SHL", [.pass, .pass]), (0xd2, "SAL", [.pass, .pass]), (0xd2, "SHR", [.pass, .pass]),
   (0xd2, "SAL", [.pass, .pass]), (0xd2, "SHL", [.pass, .pass]), (0xd2, "SAR", [.pass, .pass]), (0xd3, "ROL", [.evqp, .pass]),
   (0xd3, "ROR", [.evqp, .pass]), (0xd3, "RCL", [.evqp, .pass]), (0xd3, "RCR", [.evqp, .pass]), (0xd3, "SHL", [.evqp, .pass]),
   (0xd3, "SAL", [.evqp, .pass]), (0xd3, "SHR", [.evqp, .pass]), (0xd3, "SAL", [.evqp, .pass]), (0xd3, "SHL", [.evqp, .pass]),
   (0xd3, "SAR", [.evqp, .pass]), (0xd4, "AAM", []), (0xd4, "AMX", [.pass]), (0xd5, "AAD", []), (0xd5, "ADX", [.pass]), (0xd6, "SALC", []),
   (0xd6, "SETALC", []), (0xd7, "XLAT", [.pass]), (0xd7, "XLATB", []), (0xd8, "FADD", [.pass]), (0xd8, "FADD", [.pass, .pass]),
   (0xd8, "FMUL", [.pass]), (0xd8, "FMUL", [.pass, .pass]), (0xd8, "FCOM", []), (0xd8, "FCOM", []), (0xd8, "FCOMP", []), (0xd8, "FCOMP", []),
   (0xd8, "FSUB", [.pass]), (0xd8, "FSUB", [.pass, .pass]), (0xd8, "FSUBR", [.pass]), (0xd8, "FSUBR", [.pass, .pass]), (0xd8, "FDIV", [.pass]),
   (0xd8, "FDIV", [.pass, .pass]), (0xd8, "FDIVR", [.pass]), (0xd8, "FDIVR", [.pass, .pass]), (0xd9, "FLD", [.pass]), (0xd9, "FXCH", []),
   (0xd9, "FXCH", []), (0xd9, "FST", [.pass]), (0xd9, "FNOP", []), (0xd9, "FSTP", [.pass]), (0xd9, "FSTP1", [.pass]), (0xd9, "FSTP1", [.pass]),
   (0xd9, "FLDENV", [.pass]), (0xd9, "FCHS", []), (0xd9, "FABS", []), (0xd9, "FTST", []), (0xd9, "FXAM", []), (0xd9, "FLDCW", [.pass]),
   (0xd9, "FLD1", []), (0xd9, "FLDL2T", []), (0xd9, "FLDL2E", []), (0xd9, "FLDPI", []), (0xd9, "FLDLG2", []), (0xd9, "FLDLN2", []),
   (0xd9, "FLDZ", []), (0xd9, "FNSTENV", [.pass]), (0xd9, "FSTENV", [.pass]), (0xd9, "F2XM1", []), (0xd9, "FYL2X", []), (0xd9, "FPTAN", []),
   (0xd9, "FPATAN", []), (0xd9, "FXTRACT", []), (0xd9, "FPREM1", []), (0xd9, "FDECSTP", []), (0xd9, "FINCSTP", []), (0xd9, "FNSTCW", [.pass]),
   (0xd9, "FSTCW", [.pass]), (0xd9, "FPREM", []), (0xd9, "FYL2XP1", []), (0xd9, "FSQRT", [])]

/-- x86.py:700-1923 `OPCODES_TABLE`, part 3 -/
def x86Table3 : List (Nat × String × List X86Arg) :=
  [(0xd9, "FSINCOS", []), (0xd9, "FRNDINT", []), (0xd9, "FSCALE", []), (0xd9, "FSIN", []), (0xd9, "FCOS", []), (0xda, "FIADD", [.pass]),
   (0xda, "FCMOVB", [.pass, .pass]), (0xda, "FIMUL", [.pass]), (0xda, "FCMOVE", [.pass, .pass]), (0xda, "FICOM", []),
   (0xda, "FCMOVBE", [.pass, .pass]), (0xda, "FICOMP", []), (0xda, "FCMOVU", [.pass, .pass]), (0xda, "FISUB", [.pass]),
   (0xda, "FISUBR", [.pass]), (0xda, "FUCOMPP", []), (0xda, "FIDIV", [.pass]), (0xda, "FIDIVR", [.pass]), (0xdb, "FILD", [.pass]),
   (0xdb, "FCMOVNB", [.pass, .pass]), (0xdb, "FISTTP", [.pass]), (0xdb, "FCMOVNE", [.pass, .pass]), (0xdb, "FIST", [.pass]),
   (0xdb, "FCMOVNBE", [.pass, .pass]), (0xdb, "FISTP", [.pass]), (0xdb, "FCMOVNU", [.pass, .pass]), (0xdb, "FNENI", []), (0xdb, "FENI", []),
   (0xdb, "FNENI", []), (0xdb, "FNDISI", []), (0xdb, "FDISI", []), (0xdb, "FNDISI", []), (0xdb, "FNCLEX", []), (0xdb, "FCLEX", []),
   (0xdb, "FNINIT", []), (0xdb, "FINIT", []), (0xdb, "FNSETPM", []), (0xdb, "FSETPM", []), (0xdb, "FNSETPM", []), (0xdb, "FLD", [.pass]),
   (0xdb, "FUCOMI", [.pass]), (0xdb, "FCOMI", [.pass]), (0xdb, "FSTP", [.pass]), (0xdc, "FADD", [.pass]), (0xdc, "FADD", [.pass, .pass]),
   (0xdc, "FMUL", [.pass]), (0xdc, "FMUL", [.pass, .pass]), (0xdc, "FCOM", []), (0xdc, "FCOM2", []), (0xdc, "FCOM2", []), (0xdc, "FCOMP", []),
   (0xdc, "FCOMP3", []), (0xdc, "FCOMP3", []), (0xdc, "FSUB", [.pass]), (0xdc, "FSUBR", [.pass, .pass]), (0xdc, "FSUBR", [.pass]),
   (0xdc, "FSUB", [.pass, .pass]), (0xdc, "FDIV", [.pass]), (0xdc, "FDIVR", [.pass, .pass]), (0xdc, "FDIVR", [.pass]),
   (0xdc, "FDIV", [.pass, .pass]), (0xdd, "FLD", [.pass]), (0xdd, "FFREE", [.pass]), (0xdd, "FISTTP", [.pass]), (0xdd, "FXCH4", []),
   (0xdd, "FXCH4", []), (0xdd, "FST", [.pass]), (0xdd, "FST", [.pass]), (0xdd, "FSTP", [.pass]), (0xdd, "FSTP", [.pass]),
   (0xdd, "FRSTOR", [.pass]), (0xdd, "FUCOM", []), (0xdd, "FUCOM", []), (0xdd, "FUCOMP", []), (0xdd, "FUCOMP", []), (0xdd, "FNSAVE", [.pass]),
   (0xdd, "FSAVE", [.pass]), (0xdd, "FNSTSW", [.pass]), (0xdd, "FSTSW", [.pass]), (0xde, "FIADD", [.pass]), (0xde, "FADDP", [.pass, .pass]),
   (0xde, "FADDP", []), (0xde, "FIMUL", [.pass]), (0xde, "FMULP", [.pass, .pass]), (0xde, "FMULP", []), (0xde, "FICOM", []),
   (0xde, "FCOMP5", []), (0xde, "FCOMP5", []), (0xde, "FICOMP", []), (0xde, "FCOMPP", []), (0xde, "FISUB", [.pass]),
   (0xde, "FSUBRP", [.pass, .pass]), (0xde, "FSUBRP", []), (0xde, "FISUBR", [.pass]), (0xde, "FSUBP", [.pass, .pass]), (0xde, "FSUBP", []),
   (0xde, "FIDIV", [.pass]), (0xde, "FDIVRP", [.pass, .pass]), (0xde, "FDIVRP", []), (0xde, "FIDIVR", [.pass]), (0xde, "FDIVP", [.pass, .pass]),
   (0xde, "FDIVP", []), (0xdf, "FILD", [.pass]), (0xdf, "FFREEP", [.pass]), (0xdf, "FISTTP", [.pass]), (0xdf, "FXCH7", []), (0xdf, "FXCH7", []),
   (0xdf, "FIST", [.pass]), (0xdf, "FSTP8", [.pass]), (0xdf, "FSTP8", [.pass]), (0xdf, "FISTP", [.pass]), (0xdf, "FSTP9", [.pass]),
   (0xdf, "FSTP9", [.pass]), (0xdf, "FBLD", [.pass]), (0xdf, "FNSTSW", [.pass]), (0xdf, "FSTSW", [.pass]), (0xdf, "FILD", [.pass]),
   (0xdf, "FUCOMIP", [.pass]), (0xdf, "FBSTP", [.pass]), (0xdf, "FCOMIP", [.pass]), (0xdf, "FISTP", [.pass]), (0xe0, "LOOPNZ", [.pass]),
   (0xe0, "LOOPNE", [.pass]), (0xe0, "LOOPNZ", [.pass]), (0xe0, "LOOPNE", [.pass]), (0xe1, "LOOPZ", [.pass]), (0xe1, "LOOPE", [.pass]),
   (0xe1, "LOOPZ", [.pass]), (0xe1, "LOOPE", [.pass]), (0xe2, "LOOP", [.pass]), (0xe2, "LOOP", [.pass]), (0xe3, "JCXZ", [.pass]),
   (0xe3, "JECXZ", [.pass]), (0xe3, "JECXZ", [.pass]), (0xe3, "JRCXZ", [.pass]), (0xe4, "IN", [.pass, .pass]), (0xe5, "IN", [.pass, .pass]),
   (0xe6, "OUT", [.pass, .pass]), (0xe7, "OUT", [.pass, .pass]), (0xe8, "CALL", [.jvds]), (0xe9, "JMP", [.jvds]), (0xea, "JMPF", [.pass]),
   (0xeb, "JMP", [.pass]), (0xec, "IN", [.pass, .pass]), (0xed, "IN", [.pass, .pass]), (0xee, "OUT", [.pass, .pass]),
   (0xef, "OUT", [.pass, .pass]), (0xf0, "LOCK", []), (0xf1, "INT1", []), (0xf1, "ICEBP", []), (0xf2, "REPNZ", []), (0xf2, "REPNE", []),
   (0xf3, "REPZ", []), (0xf3, "REPE", []), (0xf3, "REP", []), (0xf3, "REPZ", []), (0xf3, "REPE", []), (0xf3, "REP", []), (0xf4, "HLT", []),
   (0xf5, "CMC", []), (0xf6, "TEST", [.pass]), (0xf6, "TEST", [.pass]), (0xf6, "NOT", [.pass]), (0xf6, "NEG", [.pass]), (0xf6, "MUL", []),
   (0xf6, "IMUL", []), (0xf6, "DIV", []), (0xf6, "IDIV", []), (0xf7, "TEST", [.evqp]), (0xf7, "TEST", [.evqp]), (0xf7, "NOT", [.evqp]),
   (0xf7, "NEG", [.evqp]), (0xf7, "MUL", [.evqp]), (0xf7, "IMUL", [.evqp]), (0xf7, "DIV", [.evqp]), (0xf7, "IDIV", [.evqp]), (0xf8, "CLC", []),
   (0xf9, "STC", []), (0xfa, "CLI", []), (0xfb, "STI", []), (0xfc, "CLD", []), (0xfd, "STD", []), (0xfe, "INC", [.pass]),
   (0xfe, "DEC", [.pass]), (0xff, "INC", [.evqp]), (0xff, "DEC", [.evqp]), (0xff, "CALL", [.pass]), (0xff, "CALL", [.pass]),
   (0xff, "CALLF", [.pass]), (0xff, "JMP", [.pass]), (0xff, "JMP", [.pass]), (0xff, "JMPF", [.pass]), (0xff, "PUSH", [.pass]),
   (0xff, "PUSH", [.pass]), (0xf00, "SLDT", [.pass]), (0xf00, "SLDT", [.pass]), (0xf00, "STR", [.pass]), (0xf00, "STR", [.pass]),
   (0xf00, "LLDT", [.pass]), (0xf00, "LTR", [.pass])]

/-- x86.py:700-1923 `OPCODES_TABLE`, part 4 -/
def x86Table4 : List (Nat × String × List X86Arg) :=
  [(0xf00, "VERR", [.pass]), (0xf00, "VERW", [.pass]), (0xf00, "JMPE", []), (0xf01, "SGDT", [.ms]), (0xf01, "VMCALL", []),
   (0xf01, "VMLAUNCH", []), (0xf01, "VMRESUME", []), (0xf01, "VMXOFF", []), (0xf01, "SIDT", [.ms]), (0xf01, "MONITOR", []),
   (0xf01, "MWAIT", []), (0xf01, "LGDT", [.ms]), (0xf01, "XGETBV", []), (0xf01, "XSETBV", []), (0xf01, "LIDT", [.ms]), (0xf01, "SMSW", [.pass]),
   (0xf01, "SMSW", [.pass]), (0xf01, "LMSW", [.pass]), (0xf01, "INVLPG", [.m]), (0xf01, "SWAPGS", []), (0xf01, "RDTSCP", []),
   (0xf02, "LAR", [.gvqp, .pass]), (0xf02, "LAR", [.gvqp, .pass]), (0xf03, "LSL", [.gvqp, .pass]), (0xf03, "LSL", [.gvqp, .pass]),
   (0xf05, "LOADALL", []), (0xf05, "SYSCALL", []), (0xf06, "CLTS", []), (0xf07, "LOADALL", []), (0xf07, "SYSRET", []), (0xf08, "INVD", []),
   (0xf09, "WBINVD", []), (0xf0b, "UD2", []), (0xf0d, "NOP", [.pass]), (0xf10, "MOVUPS", [.pass, .pass]), (0xf10, "MOVSS", [.pass, .pass]),
   (0xf10, "MOVUPD", [.pass, .pass]), (0xf10, "MOVSD", [.pass, .pass]), (0xf11, "MOVUPS", [.pass, .pass]), (0xf11, "MOVSS", [.pass, .pass]),
   (0xf11, "MOVUPD", [.pass, .pass]), (0xf11, "MOVSD", [.pass, .pass]), (0xf12, "MOVHLPS", [.pass, .pass]), (0xf12, "MOVLPS", [.pass, .pass]),
   (0xf12, "MOVLPD", [.pass, .pass]), (0xf12, "MOVDDUP", [.pass, .pass]), (0xf12, "MOVSLDUP", [.pass, .pass]),
   (0xf13, "MOVLPS", [.pass, .pass]), (0xf13, "MOVLPD", [.pass, .pass]), (0xf14, "UNPCKLPS", [.pass, .pass]),
   (0xf14, "UNPCKLPD", [.pass, .pass]), (0xf15, "UNPCKHPS", [.pass, .pass]), (0xf15, "UNPCKHPD", [.pass, .pass]),
   (0xf16, "MOVLHPS", [.pass, .pass]), (0xf16, "MOVHPS", [.pass, .pass]), (0xf16, "MOVHPD", [.pass, .pass]),
   (0xf16, "MOVSHDUP", [.pass, .pass]), (0xf17, "MOVHPS", [.pass, .pass]), (0xf17, "MOVHPD", [.pass, .pass]), (0xf18, "HINT_NOP", [.pass]),
   (0xf18, "PREFETCHNTA", [.pass]), (0xf18, "PREFETCHT0", [.pass]), (0xf18, "PREFETCHT1", [.pass]), (0xf18, "PREFETCHT2", [.pass]),
   (0xf18, "HINT_NOP", [.pass]), (0xf18, "HINT_NOP", [.pass]), (0xf18, "HINT_NOP", [.pass]), (0xf18, "HINT_NOP", [.pass]),
   (0xf19, "HINT_NOP", [.pass]), (0xf1a, "HINT_NOP", [.pass]), (0xf1b, "HINT_NOP", [.pass]), (0xf1c, "HINT_NOP", [.pass]),
   (0xf1d, "HINT_NOP", [.pass]), (0xf1e, "HINT_NOP", [.pass]), (0xf1f, "HINT_NOP", [.pass]), (0xf1f, "NOP", [.pass]),
   (0xf1f, "HINT_NOP", [.pass]), (0xf1f, "HINT_NOP", [.pass]), (0xf1f, "HINT_NOP", [.pass]), (0xf1f, "HINT_NOP", [.pass]),
   (0xf1f, "HINT_NOP", [.pass]), (0xf1f, "HINT_NOP", [.pass]), (0xf1f, "HINT_NOP", [.pass]), (0xf20, "MOV", [.rd, .cd]),
   (0xf20, "MOV", [.pass, .cd]), (0xf20, "MOV", [.pass, .pass]), (0xf20, "MOV", [.pass, .pass]), (0xf21, "MOV", [.rd, .pass]),
   (0xf21, "MOV", [.pass, .pass]), (0xf21, "MOV", [.pass, .pass]), (0xf21, "MOV", [.pass, .pass]), (0xf22, "MOV", [.cd, .rd]),
   (0xf22, "MOV", [.cd, .pass]), (0xf22, "MOV", [.pass, .pass]), (0xf22, "MOV", [.pass, .pass]), (0xf23, "MOV", [.pass, .rd]),
   (0xf23, "MOV", [.pass, .pass]), (0xf23, "MOV", [.pass, .pass]), (0xf23, "MOV", [.pass, .pass]), (0xf24, "MOV", [.rd, .pass]),
   (0xf24, "MOV", [.pass, .pass]), (0xf26, "MOV", [.pass, .rd]), (0xf26, "MOV", [.pass, .pass]), (0xf28, "MOVAPS", [.pass, .pass]),
   (0xf28, "MOVAPD", [.pass, .pass]), (0xf29, "MOVAPS", [.pass, .pass]), (0xf29, "MOVAPD", [.pass, .pass]), (0xf2a, "CVTPI2PS", [.pass, .pass]),
   (0xf2a, "CVTSI2SS", [.pass, .pass]), (0xf2a, "CVTPI2PD", [.pass, .pass]), (0xf2a, "CVTSI2SD", [.pass, .pass]),
   (0xf2b, "MOVNTPS", [.pass, .pass]), (0xf2b, "MOVNTPD", [.pass, .pass]), (0xf2c, "CVTTPS2PI", [.pass, .pass]),
   (0xf2c, "CVTTSS2SI", [.pass, .pass]), (0xf2c, "CVTTPD2PI", [.pass, .pass]), (0xf2c, "CVTTSD2SI", [.pass, .pass]),
   (0xf2d, "CVTPS2PI", [.pass, .pass]), (0xf2d, "CVTSS2SI", [.pass, .pass]), (0xf2d, "CVTPD2PI", [.pass, .pass]),
   (0xf2d, "CVTSD2SI", [.pass, .pass]), (0xf2e, "UCOMISS", [.pass]), (0xf2e, "UCOMISD", [.pass]), (0xf2f, "COMISS", [.pass]),
   (0xf2f, "COMISD", [.pass]), (0xf30, "WRMSR", []), (0xf31, "RDTSC", []), (0xf32, "RDMSR", []), (0xf33, "RDPMC", []), (0xf34, "SYSENTER", []),
   (0xf34, "SYSENTER", []), (0xf35, "SYSEXIT", []), (0xf37, "GETSEC", []), (0xf38, "PSHUFB", [.pass, .pass]), (0xf38, "PSHUFB", [.pass, .pass]),
   (0xf38, "PHADDW", [.pass, .pass]), (0xf38, "PHADDW", [.pass, .pass]), (0xf38, "PHADDD", [.pass, .pass]), (0xf38, "PHADDD", [.pass, .pass]),
   (0xf38, "PHADDSW", [.pass, .pass]), (0xf38, "PHADDSW", [.pass, .pass]), (0xf38, "PMADDUBSW", [.pass, .pass]),
   (0xf38, "PMADDUBSW", [.pass, .pass]), (0xf38, "PHSUBW", [.pass, .pass]), (0xf38, "PHSUBW", [.pass, .pass]),
   (0xf38, "PHSUBD", [.pass, .pass]), (0xf38, "PHSUBD", [.pass, .pass]), (0xf38, "PHSUBSW", [.pass, .pass]), (0xf38, "PHSUBSW", [.pass, .pass]),
   (0xf38, "PSIGNB", [.pass, .pass]), (0xf38, "PSIGNB", [.pass, .pass]), (0xf38, "PSIGNW", [.pass, .pass]), (0xf38, "PSIGNW", [.pass, .pass]),
   (0xf38, "PSIGND", [.pass, .pass]), (0xf38, "PSIGND", [.pass, .pass]), (0xf38, "PMULHRSW", [.pass, .pass]),
   (0xf38, "PMULHRSW", [.pass, .pass]), (0xf38, "PBLENDVB", [.pass, .pass]), (0xf38, "BLENDVPS", [.pass, .pass]),
   (0xf38, "BLENDVPD", [.pass, .pass]), (0xf38, "PTEST", [.pass]), (0xf38, "PABSB", [.pass, .pass]), (0xf38, "PABSB", [.pass, .pass]),
   (0xf38, "PABSW", [.pass, .pass]), (0xf38, "PABSW", [.pass, .pass]), (0xf38, "PABSD", [.pass, .pass]), (0xf38, "PABSD", [.pass, .pass]),
   (0xf38, "PMOVSXBW", [.pass, .pass]), (0xf38, "PMOVSXBW", [.pass, .pass]), (0xf38, "PMOVSXBD", [.pass, .pass]),
   (0xf38, "PMOVSXBD", [.pass, .pass]), (0xf38, "PMOVSXBQ", [.pass, .pass]), (0xf38, "PMOVSXBQ", [.pass, .pass]),
   (0xf38, "PMOVSXWD", [.pass, .pass]), (0xf38, "PMOVSXWD", [.pass, .pass]), (0xf38, "PMOVSXWQ", [.pass, .pass]),
   (0xf38, "PMOVSXWQ", [.pass, .pass]), (0xf38, "PMOVSXDQ", [.pass, .pass]), (0xf38, "PMOVSXDQ", [.pass, .pass]),
   (0xf38, "PMULDQ", [.pass, .pass]), (0xf38, "PCMPEQQ", [.pass, .pass]), (0xf38, "MOVNTDQA", [.pass, .pass]),
   (0xf38, "PACKUSDW", [.pass, .pass]), (0xf38, "PMOVZXBW", [.pass, .pass]), (0xf38, "PMOVZXBW", [.pass, .pass]),
   (0xf38, "PMOVZXBD", [.pass, .pass]), (0xf38, "PMOVZXBD", [.pass, .pass]), (0xf38, "PMOVZXBQ", [.pass, .pass]),
   (0xf38, "PMOVZXBQ", [.pass, .pass]), (0xf38, "PMOVZXWD", [.pass, .pass]), (0xf38, "PMOVZXWD", [.pass, .pass]),
   (0xf38, "PMOVZXWQ", [.pass, .pass]), (0xf38, "PMOVZXWQ", [.pass, .pass]), (0xf38, "PMOVZXDQ", [.pass, .pass]),
   (0xf38, "PMOVZXDQ", [.pass, .pass]), (0xf38, "PCMPGTQ", [.pass, .pass]), (0xf38, "PMINSB", [.pass, .pass]),
   (0xf38, "PMINSD", [.pass, .pass]), (0xf38, "PMINUW", [.pass, .pass]), (0xf38, "PMINUD", [.pass, .pass])]

/-- x86.py:700-1923 `OPCODES_TABLE`, part 5 -/
def x86Table5 : List (Nat × String × List X86Arg) :=
  [(0xf38, "PMAXSB", [.pass, .pass]), (0xf38, "PMAXSD", [.pass, .pass]), (0xf38, "PMAXUW", [.pass, .pass]), (0xf38, "PMAXUD", [.pass, .pass]),
   (0xf38, "PMULLD", [.pass, .pass]), (0xf38, "PHMINPOSUW", [.pass, .pass]), (0xf38, "INVEPT", [.pass]), (0xf38, "INVEPT", [.pass]),
   (0xf38, "INVVPID", [.pass]), (0xf38, "INVVPID", [.pass]), (0xf38, "MOVBE", [.gvqp, .pass]), (0xf38, "CRC32", [.pass, .pass]),
   (0xf38, "MOVBE", [.pass, .gvqp]), (0xf38, "CRC32", [.pass, .evqp]), (0xf3a, "ROUNDPS", [.pass, .pass]), (0xf3a, "ROUNDPD", [.pass, .pass]),
   (0xf3a, "ROUNDSS", [.pass, .pass]), (0xf3a, "ROUNDSD", [.pass, .pass]), (0xf3a, "BLENDPS", [.pass, .pass]),
   (0xf3a, "BLENDPD", [.pass, .pass]), (0xf3a, "PBLENDW", [.pass, .pass]), (0xf3a, "PALIGNR", [.pass, .pass]),
   (0xf3a, "PALIGNR", [.pass, .pass]), (0xf3a, "PEXTRB", [.pass, .pass]), (0xf3a, "PEXTRB", [.pass, .pass]), (0xf3a, "PEXTRW", [.pass, .pass]),
   (0xf3a, "PEXTRW", [.pass, .pass]), (0xf3a, "PEXTRD", [.pass, .pass]), (0xf3a, "PEXTRQ", [.pass, .pass]),
   (0xf3a, "EXTRACTPS", [.pass, .pass]), (0xf3a, "PINSRB", [.pass, .pass]), (0xf3a, "PINSRB", [.pass, .pass]),
   (0xf3a, "INSERTPS", [.pass, .pass]), (0xf3a, "INSERTPS", [.pass, .pass]), (0xf3a, "PINSRD", [.pass, .pass]),
   (0xf3a, "PINSRQ", [.pass, .pass]), (0xf3a, "DPPS", [.pass, .pass]), (0xf3a, "DPPD", [.pass, .pass]), (0xf3a, "MPSADBW", [.pass, .pass]),
   (0xf3a, "PCMPESTRM", [.pass]), (0xf3a, "PCMPESTRI", [.pass]), (0xf3a, "PCMPISTRM", [.pass]), (0xf3a, "PCMPISTRI", [.pass]),
   (0xf40, "CMOVO", [.gvqp, .evqp]), (0xf41, "CMOVNO", [.gvqp, .evqp]), (0xf42, "CMOVB", [.gvqp, .evqp]), (0xf42, "CMOVNAE", [.gvqp, .evqp]),
   (0xf42, "CMOVC", [.gvqp, .evqp]), (0xf43, "CMOVNB", [.gvqp, .evqp]), (0xf43, "CMOVAE", [.gvqp, .evqp]), (0xf43, "CMOVNC", [.gvqp, .evqp]),
   (0xf44, "CMOVZ", [.gvqp, .evqp]), (0xf44, "CMOVE", [.gvqp, .evqp]), (0xf45, "CMOVNZ", [.gvqp, .evqp]), (0xf45, "CMOVNE", [.gvqp, .evqp]),
   (0xf46, "CMOVBE", [.gvqp, .evqp]), (0xf46, "CMOVNA", [.gvqp, .evqp]), (0xf47, "CMOVNBE", [.gvqp, .evqp]), (0xf47, "CMOVA", [.gvqp, .evqp]),
   (0xf48, "CMOVS", [.gvqp, .evqp]), (0xf49, "CMOVNS", [.gvqp, .evqp]), (0xf4a, "CMOVP", [.gvqp, .evqp]), (0xf4a, "CMOVPE", [.gvqp, .evqp]),
   (0xf4b, "CMOVNP", [.gvqp, .evqp]), (0xf4b, "CMOVPO", [.gvqp, .evqp]), (0xf4c, "CMOVL", [.gvqp, .evqp]), (0xf4c, "CMOVNGE", [.gvqp, .evqp]),
   (0xf4d, "CMOVNL", [.gvqp, .evqp]), (0xf4d, "CMOVGE", [.gvqp, .evqp]), (0xf4e, "CMOVLE", [.gvqp, .evqp]), (0xf4e, "CMOVNG", [.gvqp, .evqp]),
   (0xf4f, "CMOVNLE", [.gvqp, .evqp]), (0xf4f, "CMOVG", [.gvqp, .evqp]), (0xf50, "MOVMSKPS", [.pass, .pass]),
   (0xf50, "MOVMSKPD", [.pass, .pass]), (0xf51, "SQRTPS", [.pass, .pass]), (0xf51, "SQRTSS", [.pass, .pass]), (0xf51, "SQRTPD", [.pass, .pass]),
   (0xf51, "SQRTSD", [.pass, .pass]), (0xf52, "RSQRTPS", [.pass, .pass]), (0xf52, "RSQRTSS", [.pass, .pass]), (0xf53, "RCPPS", [.pass, .pass]),
   (0xf53, "RCPSS", [.pass, .pass]), (0xf54, "ANDPS", [.pass, .pass]), (0xf54, "ANDPD", [.pass, .pass]), (0xf55, "ANDNPS", [.pass, .pass]),
   (0xf55, "ANDNPD", [.pass, .pass]), (0xf56, "ORPS", [.pass, .pass]), (0xf56, "ORPD", [.pass, .pass]), (0xf57, "XORPS", [.pass, .pass]),
   (0xf57, "XORPD", [.pass, .pass]), (0xf58, "ADDPS", [.pass, .pass]), (0xf58, "ADDSS", [.pass, .pass]), (0xf58, "ADDPD", [.pass, .pass]),
   (0xf58, "ADDSD", [.pass, .pass]), (0xf59, "MULPS", [.pass, .pass]), (0xf59, "MULSS", [.pass, .pass]), (0xf59, "MULPD", [.pass, .pass]),
   (0xf59, "MULSD", [.pass, .pass]), (0xf5a, "CVTPS2PD", [.pass, .pass]), (0xf5a, "CVTPD2PS", [.pass, .pass]),
   (0xf5a, "CVTSS2SD", [.pass, .pass]), (0xf5a, "CVTSD2SS", [.pass, .pass]), (0xf5b, "CVTDQ2PS", [.pass, .pass]),
   (0xf5b, "CVTPS2DQ", [.pass, .pass]), (0xf5b, "CVTTPS2DQ", [.pass, .pass]), (0xf5c, "SUBPS", [.pass, .pass]),
   (0xf5c, "SUBSS", [.pass, .pass]), (0xf5c, "SUBPD", [.pass, .pass]), (0xf5c, "SUBSD", [.pass, .pass]), (0xf5d, "MINPS", [.pass, .pass]),
   (0xf5d, "MINSS", [.pass, .pass]), (0xf5d, "MINPD", [.pass, .pass]), (0xf5d, "MINSD", [.pass, .pass]), (0xf5e, "DIVPS", [.pass, .pass]),
   (0xf5e, "DIVSS", [.pass, .pass]), (0xf5e, "DIVPD", [.pass, .pass]), (0xf5e, "DIVSD", [.pass, .pass]), (0xf5f, "MAXPS", [.pass, .pass]),
   (0xf5f, "MAXSS", [.pass, .pass]), (0xf5f, "MAXPD", [.pass, .pass]), (0xf5f, "MAXSD", [.pass, .pass]), (0xf60, "PUNPCKLBW", [.pass, .pass]),
   (0xf60, "PUNPCKLBW", [.pass, .pass]), (0xf61, "PUNPCKLWD", [.pass, .pass]), (0xf61, "PUNPCKLWD", [.pass, .pass]),
   (0xf62, "PUNPCKLDQ", [.pass, .pass]), (0xf62, "PUNPCKLDQ", [.pass, .pass]), (0xf63, "PACKSSWB", [.pass, .pass]),
   (0xf63, "PACKSSWB", [.pass, .pass]), (0xf64, "PCMPGTB", [.pass, .pass]), (0xf64, "PCMPGTB", [.pass, .pass]),
   (0xf65, "PCMPGTW", [.pass, .pass]), (0xf65, "PCMPGTW", [.pass, .pass]), (0xf66, "PCMPGTD", [.pass, .pass]),
   (0xf66, "PCMPGTD", [.pass, .pass]), (0xf67, "PACKUSWB", [.pass, .pass]), (0xf67, "PACKUSWB", [.pass, .pass]),
   (0xf68, "PUNPCKHBW", [.pass, .pass]), (0xf68, "PUNPCKHBW", [.pass, .pass]), (0xf69, "PUNPCKHWD", [.pass, .pass]),
   (0xf69, "PUNPCKHWD", [.pass, .pass]), (0xf6a, "PUNPCKHDQ", [.pass, .pass]), (0xf6a, "PUNPCKHDQ", [.pass, .pass]),
   (0xf6b, "PACKSSDW", [.pass, .pass]), (0xf6b, "PACKSSDW", [.pass, .pass]), (0xf6c, "PUNPCKLQDQ", [.pass, .pass]),
   (0xf6d, "PUNPCKHQDQ", [.pass, .pass]), (0xf6e, "MOVD", [.pass, .pass]), (0xf6e, "MOVD", [.pass, .pass]), (0xf6e, "MOVQ", [.pass, .pass]),
   (0xf6e, "MOVD", [.pass, .pass]), (0xf6e, "MOVD", [.pass, .pass]), (0xf6e, "MOVQ", [.pass, .pass]), (0xf6f, "MOVQ", [.pass, .pass]),
   (0xf6f, "MOVDQA", [.pass, .pass]), (0xf6f, "MOVDQU", [.pass, .pass]), (0xf70, "PSHUFW", [.pass, .pass]), (0xf70, "PSHUFLW", [.pass, .pass]),
   (0xf70, "PSHUFHW", [.pass, .pass]), (0xf70, "PSHUFD", [.pass, .pass]), (0xf71, "PSRLW", [.pass, .pass]), (0xf71, "PSRLW", [.pass, .pass]),
   (0xf71, "PSRAW", [.pass, .pass]), (0xf71, "PSRAW", [.pass, .pass]), (0xf71, "PSLLW", [.pass, .pass]), (0xf71, "PSLLW", [.pass, .pass]),
   (0xf72, "PSRLD", [.pass, .pass]), (0xf72, "PSRLD", [.pass, .pass]), (0xf72, "PSRAD", [.pass, .pass]), (0xf72, "PSRAD", [.pass, .pass]),
   (0xf72, "PSLLD", [.pass, .pass]), (0xf72, "PSLLD", [.pass, .pass]), (0xf73, "PSRLQ", [.pass, .pass]), (0xf73, "PSRLQ", [.pass, .pass]),
   (0xf73, "PSRLDQ", [.pass, .pass]), (0xf73, "PSLLQ", [.pass, .pass]), (0xf73, "PSLLQ", [.pass, .pass]), (0xf73, "PSLLDQ", [.pass, .pass]),
   (0xf74, "PCMPEQB", [.pass, .pass]), (0xf74, "PCMPEQB", [.pass, .pass]), (0xf75, "PCMPEQW", [.pass, .pass]),
   (0xf75, "PCMPEQW", [.pass, .pass]), (0xf76, "PCMPEQD", [.pass, .pass]), (0xf76, "PCMPEQD", [.pass, .pass]), (0xf77, "EMMS", []),
   (0xf78, "VMREAD", [.pass, .pass]), (0xf78, "VMREAD", [.pass, .pass]), (0xf79, "VMWRITE", [.pass]), (0xf79, "VMWRITE", [.pass]),
   (0xf7c, "HADDPD", [.pass, .pass]), (0xf7c, "HADDPS", [.pass, .pass]), (0xf7d, "HSUBPD", [.pass, .pass]), (0xf7d, "HSUBPS", [.pass, .pass]),
   (0xf7e, "MOVD", [.pass, .pass]), (0xf7e, "MOVD", [.pass, .pass]), (0xf7e, "MOVQ", [.pass, .pass]), (0xf7e, "MOVD", [.pass, .pass]),
   (0xf7e, "MOVD", [.pass, .pass]), (0xf7e, "MOVQ", [.pass, .pass])]

/-- x86.py:700-1923 `OPCODES_TABLE`, part 6 -/
def x86Table6 : List (Nat × String × List X86Arg) :=
  [(0xf7e, "MOVQ", [.pass, .pass]), (0xf7f, "MOVQ", [.pass, .pass]), (0xf7f, "MOVDQA", [.pass, .pass]), (0xf7f, "MOVDQU", [.pass, .pass]),
   (0xf80, "JO", [.jvds]), (0xf81, "JNO", [.jvds]), (0xf82, "JB", [.jvds]), (0xf82, "JNAE", [.jvds]), (0xf82, "JC", [.jvds]),
   (0xf83, "JNB", [.jvds]), (0xf83, "JAE", [.jvds]), (0xf83, "JNC", [.jvds]), (0xf84, "JZ", [.jvds]), (0xf84, "JE", [.jvds]),
   (0xf85, "JNZ", [.jvds]), (0xf85, "JNE", [.jvds]), (0xf86, "JBE", [.jvds]), (0xf86, "JNA", [.jvds]), (0xf87, "JNBE", [.jvds]),
   (0xf87, "JA", [.jvds]), (0xf88, "JS", [.jvds]), (0xf89, "JNS", [.jvds]), (0xf8a, "JP", [.jvds]), (0xf8a, "JPE", [.jvds]),
   (0xf8b, "JNP", [.jvds]), (0xf8b, "JPO", [.jvds]), (0xf8c, "JL", [.jvds]), (0xf8c, "JNGE", [.jvds]), (0xf8d, "JNL", [.jvds]),
   (0xf8d, "JGE", [.jvds]), (0xf8e, "JLE", [.jvds]), (0xf8e, "JNG", [.jvds]), (0xf8f, "JNLE", [.jvds]), (0xf8f, "JG", [.jvds]),
   (0xf90, "SETO", [.pass]), (0xf91, "SETNO", [.pass]), (0xf92, "SETB", [.pass]), (0xf92, "SETNAE", [.pass]), (0xf92, "SETC", [.pass]),
   (0xf93, "SETNB", [.pass]), (0xf93, "SETAE", [.pass]), (0xf93, "SETNC", [.pass]), (0xf94, "SETZ", [.pass]), (0xf94, "SETE", [.pass]),
   (0xf95, "SETNZ", [.pass]), (0xf95, "SETNE", [.pass]), (0xf96, "SETBE", [.pass]), (0xf96, "SETNA", [.pass]), (0xf97, "SETNBE", [.pass]),
   (0xf97, "SETA", [.pass]), (0xf98, "SETS", [.pass]), (0xf99, "SETNS", [.pass]), (0xf9a, "SETP", [.pass]), (0xf9a, "SETPE", [.pass]),
   (0xf9b, "SETNP", [.pass]), (0xf9b, "SETPO", [.pass]), (0xf9c, "SETL", [.pass]), (0xf9c, "SETNGE", [.pass]), (0xf9d, "SETNL", [.pass]),
   (0xf9d, "SETGE", [.pass]), (0xf9e, "SETLE", [.pass]), (0xf9e, "SETNG", [.pass]), (0xf9f, "SETNLE", [.pass]), (0xf9f, "SETG", [.pass]),
   (0xfa2, "CPUID", []), (0xfa3, "BT", [.evqp]), (0xfa4, "SHLD", [.evqp, .gvqp]), (0xfa5, "SHLD", [.evqp, .gvqp]), (0xfaa, "RSM", []),
   (0xfab, "BTS", [.evqp, .gvqp]), (0xfac, "SHRD", [.evqp, .gvqp]), (0xfad, "SHRD", [.evqp, .gvqp]), (0xfae, "FXSAVE", [.pass]),
   (0xfae, "FXSAVE", [.pass]), (0xfae, "FXRSTOR", [.pass]), (0xfae, "FXRSTOR", [.pass]), (0xfae, "LDMXCSR", [.pass]),
   (0xfae, "STMXCSR", [.pass]), (0xfae, "XSAVE", [.m]), (0xfae, "XSAVE", [.m]), (0xfae, "LFENCE", []), (0xfae, "XRSTOR", [.m]),
   (0xfae, "XRSTOR", [.m]), (0xfae, "MFENCE", []), (0xfae, "SFENCE", []), (0xfae, "CLFLUSH", [.pass]), (0xfaf, "IMUL", [.gvqp, .evqp]),
   (0xfb0, "CMPXCHG", [.pass, .pass]), (0xfb1, "CMPXCHG", [.evqp, .gvqp]), (0xfb3, "BTR", [.evqp, .gvqp]), (0xfb6, "MOVZX", [.gvqp, .pass]),
   (0xfb7, "MOVZX", [.gvqp, .pass]), (0xfb8, "JMPE", []), (0xfb8, "POPCNT", [.gvqp, .evqp]), (0xfb9, "UD", [.pass]), (0xfba, "BT", [.evqp]),
   (0xfba, "BTS", [.evqp, .pass]), (0xfba, "BTR", [.evqp, .pass]), (0xfba, "BTC", [.evqp, .pass]), (0xfbb, "BTC", [.evqp, .gvqp]),
   (0xfbc, "BSF", [.gvqp, .evqp]), (0xfbd, "BSR", [.gvqp, .evqp]), (0xfbe, "MOVSX", [.gvqp, .pass]), (0xfbf, "MOVSX", [.gvqp, .pass]),
   (0xfc0, "XADD", [.pass]), (0xfc1, "XADD", [.evqp]), (0xfc2, "CMPPS", [.pass, .pass]), (0xfc2, "CMPSS", [.pass, .pass]),
   (0xfc2, "CMPPD", [.pass, .pass]), (0xfc2, "CMPSD", [.pass, .pass]), (0xfc3, "MOVNTI", [.pass, .pass]), (0xfc4, "PINSRW", [.pass, .pass]),
   (0xfc4, "PINSRW", [.pass, .pass]), (0xfc4, "PINSRW", [.pass, .pass]), (0xfc4, "PINSRW", [.pass, .pass]), (0xfc5, "PEXTRW", [.pass, .pass]),
   (0xfc5, "PEXTRW", [.pass, .pass]), (0xfc6, "SHUFPS", [.pass, .pass]), (0xfc6, "SHUFPD", [.pass, .pass]), (0xfc7, "CMPXCHG8B", [.pass]),
   (0xfc7, "CMPXCHG8B", [.pass]), (0xfc7, "CMPXCHG16B", [.pass]), (0xfc7, "VMPTRLD", [.pass]), (0xfc7, "VMCLEAR", [.pass]),
   (0xfc7, "VMXON", [.pass]), (0xfc7, "VMPTRST", [.pass]), (0xfc8, "BSWAP", [.zvqp]), (0xfd0, "ADDSUBPD", [.pass, .pass]),
   (0xfd0, "ADDSUBPS", [.pass, .pass]), (0xfd1, "PSRLW", [.pass, .pass]), (0xfd1, "PSRLW", [.pass, .pass]), (0xfd2, "PSRLD", [.pass, .pass]),
   (0xfd2, "PSRLD", [.pass, .pass]), (0xfd3, "PSRLQ", [.pass, .pass]), (0xfd3, "PSRLQ", [.pass, .pass]), (0xfd4, "PADDQ", [.pass, .pass]),
   (0xfd4, "PADDQ", [.pass, .pass]), (0xfd5, "PMULLW", [.pass, .pass]), (0xfd5, "PMULLW", [.pass, .pass]), (0xfd6, "MOVQ", [.pass, .pass]),
   (0xfd6, "MOVQ2DQ", [.pass, .pass]), (0xfd6, "MOVDQ2Q", [.pass, .pass]), (0xfd7, "PMOVMSKB", [.pass, .pass]),
   (0xfd7, "PMOVMSKB", [.pass, .pass]), (0xfd8, "PSUBUSB", [.pass, .pass]), (0xfd8, "PSUBUSB", [.pass, .pass]),
   (0xfd9, "PSUBUSW", [.pass, .pass]), (0xfd9, "PSUBUSW", [.pass, .pass]), (0xfda, "PMINUB", [.pass, .pass]), (0xfda, "PMINUB", [.pass, .pass]),
   (0xfdb, "PAND", [.pass, .pass]), (0xfdb, "PAND", [.pass, .pass]), (0xfdc, "PADDUSB", [.pass, .pass]), (0xfdc, "PADDUSB", [.pass, .pass]),
   (0xfdd, "PADDUSW", [.pass, .pass]), (0xfdd, "PADDUSW", [.pass, .pass]), (0xfde, "PMAXUB", [.pass, .pass]), (0xfde, "PMAXUB", [.pass, .pass]),
   (0xfdf, "PANDN", [.pass, .pass]), (0xfdf, "PANDN", [.pass, .pass]), (0xfe0, "PAVGB", [.pass, .pass]), (0xfe0, "PAVGB", [.pass, .pass]),
   (0xfe1, "PSRAW", [.pass, .pass]), (0xfe1, "PSRAW", [.pass, .pass]), (0xfe2, "PSRAD", [.pass, .pass]), (0xfe2, "PSRAD", [.pass, .pass]),
   (0xfe3, "PAVGW", [.pass, .pass]), (0xfe3, "PAVGW", [.pass, .pass]), (0xfe4, "PMULHUW", [.pass, .pass]), (0xfe4, "PMULHUW", [.pass, .pass]),
   (0xfe5, "PMULHW", [.pass, .pass]), (0xfe5, "PMULHW", [.pass, .pass]), (0xfe6, "CVTPD2DQ", [.pass, .pass]),
   (0xfe6, "CVTTPD2DQ", [.pass, .pass]), (0xfe6, "CVTDQ2PD", [.pass, .pass]), (0xfe7, "MOVNTQ", [.pass, .pass]),
   (0xfe7, "MOVNTDQ", [.pass, .pass]), (0xfe8, "PSUBSB", [.pass, .pass]), (0xfe8, "PSUBSB", [.pass, .pass]), (0xfe9, "PSUBSW", [.pass, .pass]),
   (0xfe9, "PSUBSW", [.pass, .pass]), (0xfea, "PMINSW", [.pass, .pass]), (0xfea, "PMINSW", [.pass, .pass]), (0xfeb, "POR", [.pass, .pass]),
   (0xfeb, "POR", [.pass, .pass]), (0xfec, "PADDSB", [.pass, .pass]), (0xfec, "PADDSB", [.pass, .pass]), (0xfed, "PADDSW", [.pass, .pass]),
   (0xfed, "PADDSW", [.pass, .pass]), (0xfee, "PMAXSW", [.pass, .pass]), (0xfee, "PMAXSW", [.pass, .pass]), (0xfef, "PXOR", [.pass, .pass]),
   (0xfef, "PXOR", [.pass, .pass]), (0xff0, "LDDQU", [.pass, .pass]), (0xff1, "PSLLW", [.pass, .pass]), (0xff1, "PSLLW", [.pass, .pass]),
   (0xff2, "PSLLD", [.pass, .pass]), (0xff2, "PSLLD", [.pass, .pass]), (0xff3, "PSLLQ", [.pass, .pass]), (0xff3, "PSLLQ", [.pass, .pass])]

/-- x86.py:700-1923 `OPCODES_TABLE`, part 7 -/
def x86Table7 : List (Nat × String × List X86Arg) :=
  [(0xff4, "PMULUDQ", [.pass, .pass]), (0xff4, "PMULUDQ", [.pass, .pass]), (0xff5, "PMADDWD", [.pass, .pass]),
   (0xff5, "PMADDWD", [.pass, .pass]), (0xff6, "PSADBW", [.pass, .pass]), (0xff6, "PSADBW", [.pass, .pass]), (0xff7, "MASKMOVQ", [.pass]),
   (0xff7, "MASKMOVDQU", [.pass]), (0xff8, "PSUBB", [.pass, .pass]), (0xff8, "PSUBB", [.pass, .pass]), (0xff9, "PSUBW", [.pass, .pass]),
   (0xff9, "PSUBW", [.pass, .pass]), (0xffa, "PSUBD", [.pass, .pass]), (0xffa, "PSUBD", [.pass, .pass]), (0xffb, "PSUBQ", [.pass, .pass]),
   (0xffb, "PSUBQ", [.pass, .pass]), (0xffc, "PADDB", [.pass, .pass]), (0xffc, "PADDB", [.pass, .pass]), (0xffd, "PADDW", [.pass, .pass]),
   (0xffd, "PADDW", [.pass, .pass]), (0xffe, "PADDD", [.pass, .pass]), (0xffe, "PADDD", [.pass, .pass])]

/-- x86.py:700-1923 `OPCODES_TABLE` -/
def x86Table : List (Nat × String × List X86Arg) :=
  x86Table1 ++ x86Table2 ++ x86Table3 ++ x86Table4 ++ x86Table5 ++ x86Table6 ++ x86Table7

/-- x86.py:1961-1970: the loop over the arguments of a row; `none` is `skip`. -/
def x86Args (tokens : List Str) : List X86Arg → List Nat → Nat → X86Modrm → Bytes → H (Option (List Nat × Bytes))
  | [], base, _, _, blob => pure (some (base, blob))
  | a :: as, base, index, m, blob => do
    let (r, m) ← a.run tokens base index m
    match r with
    | none => pure none
    | some (delta, base, b) => x86Args tokens as base (index + delta) m (blob ++ b)

/-- `pack_byte(*new_base)` -/
def x86Pack (base : List Nat) : Except Err Bytes := packByte (base.map fun (n : Nat) => some (n : Int))

/-- x86.py:1938-1972 `__call__`; `next` is the call of the instruction in the second token, made after a
repeat prefix. -/
def x86Call (next : H (Option Bytes)) (tokens : List Str) : List (Nat × List X86Arg) → H (Option Bytes)
  | [] => pure none
  | (base, args) :: conds => do
    if args = [] then do
      let c ← H.read
      let name := upper (tokens.headD [])
      if (name = "STOSD".toList ∨ name = "LODSD".toList) ∧ x86Mode c = 16 then do
        let b ← H.lift (x86Pack [0x66, base])
        pure (some b)
      else if "REP".toList.isPrefixOf name then do
        let b ← H.lift (x86Pack [base])
        match ← next with
        | none => H.throw .typeError
        | some r => pure (some (b ++ r))
      else if tokens.length = 1 then do
        let b ← H.lift (x86Pack [base])
        pure (some b)
      else H.throw .invalidOpCodeArguments
    else if tokens.length < 2 then x86Call next tokens conds
    else
      match ← x86Args tokens args (if 0xFF < base then [base / 256, base % 256] else [base]) 1 {} [] with
      | none => x86Call next tokens conds
      | some (base, full) => do
        let b ← H.lift (x86Pack base)
        pure (some (b ++ full))

/-- x86.py:1998-2007: the rows of one mnemonic, in the order of the table (whose names are all in upper case) -/
def x86Conds (key : Str) : List (Nat × List X86Arg) :=
  (x86Table.filter fun r => r.2.1.toList == key).map fun r => (r.1, r.2.2)

/-- x86.py:1947-1949: `self.assembler.instructions[new_instr.tokens[0].upper()](new_instr)` -/
def x86Next : List Str → H (Option Bytes)
  | [] => H.throw .indexError
  | t :: rest =>
    match x86Conds (upper t) with
    | [] => H.throw .keyError
    | conds => x86Call (x86Next rest) (t :: rest) conds

/-- x86.py:1991-1996 `directive_bits` -/
def x86Bits (d : Dialect) (tokens : List Str) : M Unit :=
  match tokens with
  | _ :: a :: _ => do
    match ← parseIntegerM d a 8 false with
    | some v => if v = 16 ∨ v = 32 ∨ v = 64 then M.modify fun s => { s with bitsMode := v.toNat } else M.throw .invalidArgumentsForDirective
    | none => M.throw .invalidArgumentsForDirective
  | _ => M.throw .indexError

/-- x86.py:1975-2007 `AssemblerX86`; the numbers are written as for the 8086 (x86.py:1977-1987). -/
def x86 : Dialect where
  sy := i8086.sy
  instrs := fun key =>
    match x86Conds key with
    | [] => none
    | conds => some (.handler fun tokens => x86Call (x86Next (tokens.drop 1)) tokens conds)
  directives := fun _ key => if key = "BITS".toList then some (x86Bits { sy := i8086.sy }) else none

end Necro
