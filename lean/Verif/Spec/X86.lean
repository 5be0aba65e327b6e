import Verif.Spec.Intel8086
/-!
# The 80386 and x86-64 instructions the assembler knows

Written from the opcode maps of Intel's Software Developer's Manual, not from the assembler.  A mode is 16, 32 or 64;
the operand size of an instruction is 16 or 32 (instructions with a REX prefix are left out, the assembler has none).
-/

namespace Necro.Spec

/-- How the opcode map describes an operand. -/
inductive X86Kind where
  /-- register or memory, given by the ModR/M byte -/
  | ev
  /-- register given by the middle field of the ModR/M byte -/
  | gv
  /-- memory given by the ModR/M byte -/
  | m
  /-- a register in the opcode, of the operand size -/
  | zv (n : Nat)
  /-- a register in the opcode, of the size of the stack -/
  | zs (n : Nat)
  /-- data of the operand size -/
  | iv
  /-- a distance from the next instruction, of the operand size -/
  | jz
  /-- register and control register, given by the ModR/M byte -/
  | rd | cd
deriving DecidableEq, Repr

/-- An operand.  `mem b d` is memory at the sum of the registers `b` of the 8086 and `d`, `ind n d` memory at the sum of the
register `n` of the size of addresses and `d`, `addr a` is memory at `a`. -/
inductive X86Opnd where
  | reg (bits n : Nat)
  | creg (n : Nat)
  | mem (base d : Nat)
  | ind (n d : Nat)
  | addr (a : Nat)
  | imm (v : Nat)
  | rel (d : Int)
deriving DecidableEq, Repr

/-- An instruction: all the mnemonics it has, and its operands. -/
structure X86Instr where
  names : List String
  args : List X86Opnd
deriving DecidableEq, Repr

/-- The conditions, each with its synonyms. -/
def x86CC : List (List String) :=
  [["O"], ["NO"], ["B", "NAE", "C"], ["NB", "AE", "NC"], ["Z", "E"], ["NZ", "NE"], ["BE", "NA"], ["NBE", "A"],
   ["S"], ["NS"], ["P", "PE"], ["NP", "PO"], ["L", "NGE"], ["NL", "GE"], ["LE", "NG"], ["NLE", "G"]]

/-- The operand size of an instruction without prefix. -/
def x86Default (mode : Nat) : Nat := if mode = 16 then 16 else 32

/-- The size of the registers pushed and popped. -/
def x86Stack (mode size : Nat) : Nat := if mode = 64 ∧ size = 32 then 64 else size

/-- Instructions without operands.  A name for each operand size. -/
def x86Plain (mode size op : Nat) : Option (List String) :=
  let sized (w d : String) : Option (List String) := some [if size = 16 then w else d]
  let old (n : List String) : Option (List String) := if mode = 64 then none else some n
  match op with
  | 0x27 => old ["DAA"]
  | 0x2F => old ["DAS"]
  | 0x37 => old ["AAA"]
  | 0x3F => old ["AAS"]
  | 0x60 => old [if size = 16 then "PUSHA" else "PUSHAD"]
  | 0x61 => old [if size = 16 then "POPA" else "POPAD"]
  | 0x6C => some ["INSB"]
  | 0x6D => sized "INSW" "INSD"
  | 0x6E => some ["OUTSB"]
  | 0x6F => sized "OUTSW" "OUTSD"
  | 0x90 => some ["NOP"]
  | 0x98 => sized "CBW" "CWDE"
  | 0x99 => sized "CWD" "CDQ"
  | 0x9B => some ["WAIT", "FWAIT"]
  | 0x9C => some [if size = 16 then "PUSHF" else if mode = 64 then "PUSHFQ" else "PUSHFD"]
  | 0x9D => some [if size = 16 then "POPF" else if mode = 64 then "POPFQ" else "POPFD"]
  | 0x9E => some ["SAHF"]
  | 0x9F => some ["LAHF"]
  | 0xA4 => some ["MOVSB"]
  | 0xA5 => sized "MOVSW" "MOVSD"
  | 0xA6 => some ["CMPSB"]
  | 0xA7 => sized "CMPSW" "CMPSD"
  | 0xAA => some ["STOSB"]
  | 0xAB => sized "STOSW" "STOSD"
  | 0xAC => some ["LODSB"]
  | 0xAD => sized "LODSW" "LODSD"
  | 0xAE => some ["SCASB"]
  | 0xAF => sized "SCASW" "SCASD"
  | 0xC3 => some ["RET", "RETN"]
  | 0xC9 => some ["LEAVE"]
  | 0xCB => some ["RETF"]
  | 0xCE => old ["INTO"]
  | 0xCF => sized "IRET" "IRETD"
  | 0xD7 => some ["XLATB"]
  | 0xF4 => some ["HLT"]
  | 0xF5 => some ["CMC"]
  | 0xF8 => some ["CLC"]
  | 0xF9 => some ["STC"]
  | 0xFA => some ["CLI"]
  | 0xFB => some ["STI"]
  | 0xFC => some ["CLD"]
  | 0xFD => some ["STD"]
  | 0xF05 => if mode = 64 then some ["SYSCALL"] else none
  | 0xF06 => some ["CLTS"]
  | 0xF08 => some ["INVD"]
  | 0xF09 => some ["WBINVD"]
  | 0xF0B => some ["UD2"]
  | 0xF30 => some ["WRMSR"]
  | 0xF31 => some ["RDTSC"]
  | 0xF32 => some ["RDMSR"]
  | 0xF33 => some ["RDPMC"]
  | 0xF34 => some ["SYSENTER"]
  | 0xF35 => some ["SYSEXIT"]
  | 0xF77 => some ["EMMS"]
  | 0xFA2 => some ["CPUID"]
  | 0xFAA => some ["RSM"]
  | _ => none

/-- Single opcodes with operands. -/
def x86Single : List (Nat × List String × List X86Kind) :=
  [(0x85, ["TEST"], [.ev, .gv]), (0x87, ["XCHG"], [.gv, .ev]), (0x89, ["MOV"], [.ev, .gv]), (0x8B, ["MOV"], [.gv, .ev]),
   (0x8D, ["LEA"], [.gv, .m]), (0xA9, ["TEST"], [.zv 0, .iv]), (0xE8, ["CALL"], [.jz]), (0xE9, ["JMP"], [.jz]),
   (0xF20, ["MOV"], [.rd, .cd]), (0xF22, ["MOV"], [.cd, .rd]),
   (0xFA3, ["BT"], [.ev, .gv]), (0xFAB, ["BTS"], [.ev, .gv]), (0xFAF, ["IMUL"], [.gv, .ev]), (0xFB1, ["CMPXCHG"], [.ev, .gv]),
   (0xFB3, ["BTR"], [.ev, .gv]), (0xFBB, ["BTC"], [.ev, .gv]), (0xFBC, ["BSF"], [.gv, .ev]), (0xFBD, ["BSR"], [.gv, .ev]),
   (0xFC1, ["XADD"], [.ev, .gv])]

/-- Mnemonics and operands of an opcode with operands that does not depend on the middle field of the ModR/M byte;
two-byte opcodes `0F xx` are written `0xFxx`. -/
def x86Map (op : Nat) : Option (List String × List X86Kind) :=
  if op < 0x40 then
    match op % 8 with
    | 1 => (i86Alu[op / 8]?).map fun n => ([n], [.ev, .gv])
    | 3 => (i86Alu[op / 8]?).map fun n => ([n], [.gv, .ev])
    | 5 => (i86Alu[op / 8]?).map fun n => ([n], [.zv 0, .iv])
    | _ => none
  else if 0x50 ≤ op ∧ op < 0x58 then some (["PUSH"], [.zs (op - 0x50)])
  else if 0x58 ≤ op ∧ op < 0x60 then some (["POP"], [.zs (op - 0x58)])
  else if 0x91 ≤ op ∧ op < 0x98 then some (["XCHG"], [.zv (op - 0x90), .zv 0])
  else if 0xB8 ≤ op ∧ op < 0xC0 then some (["MOV"], [.zv (op - 0xB8), .iv])
  else if 0xF40 ≤ op ∧ op < 0xF50 then (x86CC[op - 0xF40]?).map fun l => (l.map ("CMOV" ++ ·), [.gv, .ev])
  else if 0xF80 ≤ op ∧ op < 0xF90 then (x86CC[op - 0xF80]?).map fun l => (l.map ("J" ++ ·), [.jz])
  else if 0xFC8 ≤ op ∧ op < 0xFD0 then some (["BSWAP"], [.zv (op - 0xFC8)])
  else x86Single.lookup op

/-- The modes and sizes in which such an instruction exists: jumps and moves of control registers without prefix (with
one they are left out), the latter with 32-bit registers only outside 64-bit mode, `BSWAP` with 32 bits. -/
def x86Legal (mode size : Nat) (kinds : List X86Kind) : Bool :=
  match kinds with
  | [.jz] => size == x86Default mode
  | [.rd, .cd] | [.cd, .rd] => mode != 64 && size == x86Default mode
  | [.zv _] => size == 32
  | _ => true

/-- Mnemonics and operands of such an opcode in a mode, with an operand size. -/
def x86Main (mode size op : Nat) : Option (List String × List X86Kind) := (x86Map op).filter fun s => x86Legal mode size s.2

/-- Mnemonics and operands of an opcode, and of the middle field `g` of the byte after it. -/
def x86Group (op g : Nat) : Option (List String × List X86Kind) :=
  match op with
  | 0x81 => (i86Alu[g]?).map fun n => ([n], [.ev, .iv])
  | 0xC7 => if g = 0 then some (["MOV"], [.ev, .iv]) else none
  | 0xF7 =>
    match g with
    | 0 => some (["TEST"], [.ev, .iv])
    | 2 => some (["NOT"], [.ev])
    | 3 => some (["NEG"], [.ev])
    | 4 => some (["MUL"], [.ev])
    | 5 => some (["IMUL"], [.ev])
    | 6 => some (["DIV"], [.ev])
    | 7 => some (["IDIV"], [.ev])
    | _ => none
  | 0xFF => if g = 0 then some (["INC"], [.ev]) else if g = 1 then some (["DEC"], [.ev]) else none
  | _ => none

/-- Mnemonics and operands of an opcode. -/
def x86Shape (mode size op g : Nat) : Option (List String × List X86Kind) :=
  match x86Plain mode size op with
  | some names => some (names, [])
  | none =>
    match x86Main mode size op with
    | some s => some s
    | none => x86Group op g

def X86Kind.modrm : X86Kind → Bool
  | .ev | .gv | .m | .rd | .cd => true
  | _ => false

/-- The operand in the ModR/M byte. -/
inductive X86Rm where
  | reg (n : Nat)
  | mem (o : X86Opnd)
deriving DecidableEq, Repr

/-- A little-endian double word. -/
def dword86 (x y z w : Byte) : Nat := x.toNat + 256 * (y.toNat + 256 * (z.toNat + 256 * w.toNat))

/-- The ModR/M byte and what belongs to it: the middle field, the operand, and the bytes after them.  In 16-bit mode
addresses are those of the 8086.  (In the other modes those with a scale byte are left out, and those relative to the
instruction.) -/
def x86Modrm (mode : Nat) (bs : Bytes) : Option (Nat × X86Rm × Bytes) :=
  if mode = 16 then
    (modrm86 bs).map fun p => (p.1, match p.2.1 with | .reg n => .reg n | .mem b d => .mem (.mem b d) | .addr a => .mem (.addr a), p.2.2)
  else
    match bs with
    | [] => none
    | b :: bs =>
      let g := b.toNat / 8 % 8
      let rm := b.toNat % 8
      if b.toNat / 64 = 3 then some (g, .reg rm, bs)
      else if rm = 4 then none
      else
        match b.toNat / 64, bs with
        | 2, x :: y :: z :: w :: bs => some (g, .mem (.ind rm (dword86 x y z w)), bs)
        | 1, x :: bs => some (g, .mem (.ind rm (x.toInt % 2 ^ 32).toNat), bs)
        | 0, bs =>
          if rm = 5 then
            match mode, bs with
            | 32, x :: y :: z :: w :: bs => some (g, .mem (.addr (dword86 x y z w)), bs)
            | _, _ => none
          else some (g, .mem (.ind rm 0), bs)
        | _, _ => none

/-- One operand, from the ModR/M byte or the bytes that follow. -/
def x86Operand (mode size : Nat) (mr : Option (Nat × X86Rm)) : X86Kind → Bytes → Option (X86Opnd × Bytes)
  | .ev, bs => mr.map fun p => (match p.2 with | .reg n => .reg size n | .mem o => o, bs)
  | .gv, bs => mr.map fun p => (.reg size p.1, bs)
  | .m, bs =>
    match mr with
    | some (_, .mem o) => some (o, bs)
    | _ => none
  | .zv n, bs => some (.reg size n, bs)
  | .zs n, bs => some (.reg (x86Stack mode size) n, bs)
  | .rd, bs =>
    match mr with
    | some (_, .reg n) => some (.reg 32 n, bs)
    | _ => none
  | .cd, bs => mr.map fun p => (.creg p.1, bs)
  | .iv, bs =>
    if size = 16 then match bs with | x :: y :: bs => some (.imm (word86 x y), bs) | _ => none
    else match bs with | x :: y :: z :: w :: bs => some (.imm (dword86 x y z w), bs) | _ => none
  | .jz, bs =>
    if size = 16 then match bs with | x :: y :: bs => some (.rel (toSigned 16 (word86 x y)), bs) | _ => none
    else match bs with | x :: y :: z :: w :: bs => some (.rel (toSigned 32 (dword86 x y z w)), bs) | _ => none

def x86Operands (mode size : Nat) (mr : Option (Nat × X86Rm)) : List X86Kind → Bytes → Option (List X86Opnd × Bytes)
  | [], bs => some ([], bs)
  | k :: ks, bs => do
    let (o, bs) ← x86Operand mode size mr k bs
    let (os, bs) ← x86Operands mode size mr ks bs
    pure (o :: os, bs)

/-- The instruction with the opcode `op`, from the bytes after the opcode. -/
def x86Body (mode size op : Nat) (bs : Bytes) : Option (X86Instr × Bytes) := do
  let g := match bs with | b :: _ => b.toNat / 8 % 8 | [] => 0
  let (names, kinds) ← x86Shape mode size op g
  if kinds.any X86Kind.modrm then do
    let (g, rm, bs) ← x86Modrm mode bs
    let (os, bs) ← x86Operands mode size (some (g, rm)) kinds bs
    pure (⟨names, os⟩, bs)
  else do
    let (os, bs) ← x86Operands mode size none kinds bs
    pure (⟨names, os⟩, bs)

/-- The instruction after the operand-size prefix. -/
def x86Opcode (mode size : Nat) : Bytes → Option (X86Instr × Bytes)
  | [] => none
  | b :: bs =>
    if b = 0x0F then
      match bs with
      | [] => none
      | b :: bs => x86Body mode size (0xF00 + b.toNat) bs
    else x86Body mode size b.toNat bs

/-- The instruction at the start of the bytes and the bytes after it; `66` chooses the other operand size. -/
def decodeX86 (mode : Nat) : Bytes → Option (X86Instr × Bytes)
  | [] => none
  | b :: bs =>
    if b = 0x66 then x86Opcode mode (48 - x86Default mode) bs
    else x86Opcode mode (x86Default mode) (b :: bs)

/-- The bytes are one whole instruction. -/
def disasmX86 (mode : Nat) (bs : Bytes) : Option X86Instr :=
  match decodeX86 mode bs with
  | some (i, []) => some i
  | _ => none

/-! ## Assembly text -/

/-- The registers of a size. -/
def x86Names (bits : Nat) : List String :=
  if bits = 16 then i86Names16 else if bits = 32 then i86Names16.map ("E" ++ ·) else i86Names16.map ("R" ++ ·)

def x86NamesC : List String := ["CR0", "CR1", "CR2", "CR3", "CR4", "CR5", "CR6", "CR7"]

section
variable (value : M68Use → Nat → Str → Int → Prop)

/-- The tokens write an operand of that kind, which is `o`.  `value use n t x`: the token `t` stands for the number `x` in a
field of `n` bits.  Memory is written as on the 8086, and only in 16-bit mode; a displacement only beside a 16-bit
register; `[BP]` without displacement is left out.  `Necro.C78_odd_modes` shows what becomes of the others. -/
inductive X86Takes (mode size : Nat) : X86Kind → X86Opnd → List Str → Prop
  | reg {k n t} : k ∈ [.ev, .gv, .zv n] → I86Name (x86Names size) n t → X86Takes mode size k (.reg size n) [t]
  | stack {n t} : I86Name (x86Names (x86Stack mode size)) n t → X86Takes mode size (.zs n) (.reg (x86Stack mode size) n) [t]
  | rd {n t} : I86Name (x86Names 32) n t → X86Takes mode size .rd (.reg 32 n) [t]
  | cd {n t} : I86Name x86NamesC n t → X86Takes mode size .cd (.creg n) [t]
  | mem {k b ts} : mode = 16 → k ∈ [.ev, .m] → I86BaseText b ts → b ≠ 6 → X86Takes mode size k (.mem b 0) (['['] :: ts ++ [[']']])
  | plus {k b} {d : Nat} {ts v x} : mode = 16 → size = 16 → k ∈ [.ev, .m] → I86BaseText b ts → value .disp 16 (v.dropWhile (· == '+')) x →
      (d : Int) = x % 2 ^ 16 → X86Takes mode size k (.mem b d) (['['] :: ts ++ [['+'], v, [']']])
  | minus {k b} {d : Nat} {ts v x} : mode = 16 → size = 16 → k ∈ [.ev, .m] → I86BaseText b ts → value .disp 16 ('-' :: v) x →
      (d : Int) = x % 2 ^ 16 → X86Takes mode size k (.mem b d) (['['] :: ts ++ [['-'], v, [']']])
  | imm {n : Nat} {v x} : value .data size v x → (n : Int) = x % 2 ^ size → X86Takes mode size .iv (.imm n) [v]
  | rel {d v x} : value .pc 16 v x → -(2 ^ (size - 1)) ≤ d → d < 2 ^ (size - 1) → d % 2 ^ size = x % 2 ^ size → X86Takes mode size .jz (.rel d) [v]

/-- The tokens write operands of those kinds, one after the other. -/
inductive X86TakesAll (mode size : Nat) : List X86Kind → List X86Opnd → List Str → Prop
  | nil : X86TakesAll mode size [] [] []
  | cons {k ks o os ts us} : X86Takes value mode size k o ts → X86TakesAll mode size ks os us → X86TakesAll mode size (k :: ks) (o :: os) (ts ++ us)

end

/-- Mnemonics with operands whose code is not that of the instruction; `Necro.C78_odd_rows` shows what each becomes. -/
def x86Lost : List String := ["CMP", "TEST", "XCHG", "BT", "XADD", "IMUL"]

end Necro.Spec
