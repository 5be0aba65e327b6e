import Verif.Spec.Mc68000
/-!
# The 8086 instructions the assembler knows

Written from the opcode map of the 8086 Family User's Manual, not from the assembler.
-/

namespace Necro.Spec

/-- How the opcode map describes an operand. -/
inductive I86Kind where
  /-- register or memory, given by the ModR/M byte -/
  | eb | ev
  /-- register given by the middle field of the ModR/M byte -/
  | gb | gv | sw
  /-- memory given by the ModR/M byte: an address, a pointer -/
  | m | mp
  /-- a register of its own -/
  | r8 (n : Nat) | r16 (n : Nat) | seg (n : Nat)
  /-- data in the instruction -/
  | ib | iv
  /-- a distance from the next instruction -/
  | jb | jv
  /-- memory at an address in the instruction -/
  | ob | ov
  /-- an address in another segment -/
  | ap
  /-- a number of its own -/
  | const (n : Nat)
deriving DecidableEq, Repr

/-- An operand.  `mem w b d` is memory, a word if `w`, at the sum of the registers `b` and `d`; `addr w a` is memory at `a`. -/
inductive I86Opnd where
  | r8 (n : Nat)
  | r16 (n : Nat)
  | seg (n : Nat)
  | mem (word : Bool) (base d : Nat)
  | addr (word : Bool) (a : Nat)
  | imm8 (v : Nat)
  | imm16 (v : Nat)
  | rel (d : Int)
  | far (segment offset : Nat)
deriving DecidableEq, Repr

structure I86Instr where
  name : String
  args : List I86Opnd
deriving DecidableEq, Repr

def i86Alu : List String := ["ADD", "OR", "ADC", "SBB", "AND", "SUB", "XOR", "CMP"]
def i86Jumps : List String :=
  ["JO", "JNO", "JB", "JNB", "JZ", "JNZ", "JBE", "JA", "JS", "JNS", "JPE", "JPO", "JL", "JGE", "JLE", "JG"]

/-- Mnemonic and operands of an opcode; `g` is the middle field of the byte after it. -/
def shape86 (op g : Nat) : Option (String × List I86Kind) :=
  if op < 0x40 then
    match op % 8 with
    | 0 => (i86Alu[op / 8]?).map fun n => (n, [.eb, .gb])
    | 1 => (i86Alu[op / 8]?).map fun n => (n, [.ev, .gv])
    | 2 => (i86Alu[op / 8]?).map fun n => (n, [.gb, .eb])
    | 3 => (i86Alu[op / 8]?).map fun n => (n, [.gv, .ev])
    | 4 => (i86Alu[op / 8]?).map fun n => (n, [.r8 0, .ib])
    | 5 => (i86Alu[op / 8]?).map fun n => (n, [.r16 0, .iv])
    | 6 => if op / 8 < 4 then some ("PUSH", [.seg (op / 8)]) else none
    | _ =>
      match op / 8 with
      | 0 | 2 | 3 => some ("POP", [.seg (op / 8)])
      | 4 => some ("DAA", [])
      | 5 => some ("DAS", [])
      | 6 => some ("AAA", [])
      | 7 => some ("AAS", [])
      | _ => none
  else if op < 0x60 then (["INC", "DEC", "PUSH", "POP"][(op - 0x40) / 8]?).map fun n => (n, [.r16 (op % 8)])
  else if op < 0x70 then none
  else if op < 0x80 then (i86Jumps[op - 0x70]?).map fun n => (n, [.jb])
  else if 0x91 ≤ op ∧ op < 0x98 then some ("XCHG", [.r16 (op - 0x90), .r16 0])
  else if 0xB0 ≤ op ∧ op < 0xB8 then some ("MOV", [.r8 (op - 0xB0), .ib])
  else if 0xB8 ≤ op ∧ op < 0xC0 then some ("MOV", [.r16 (op - 0xB8), .iv])
  else
    match op with
    | 0x84 => some ("TEST", [.gb, .eb])
    | 0x85 => some ("TEST", [.gv, .ev])
    | 0x86 => some ("XCHG", [.gb, .eb])
    | 0x87 => some ("XCHG", [.gv, .ev])
    | 0x88 => some ("MOV", [.eb, .gb])
    | 0x89 => some ("MOV", [.ev, .gv])
    | 0x8A => some ("MOV", [.gb, .eb])
    | 0x8B => some ("MOV", [.gv, .ev])
    | 0x8C => some ("MOV", [.ev, .sw])
    | 0x8D => some ("LEA", [.gv, .m])
    | 0x8E => some ("MOV", [.sw, .ev])
    | 0x8F => if g = 0 then some ("POP", [.ev]) else none
    | 0x90 => some ("NOP", [])
    | 0x98 => some ("CBW", [])
    | 0x99 => some ("CWD", [])
    | 0x9A => some ("CALL", [.ap])
    | 0x9B => some ("WAIT", [])
    | 0x9C => some ("PUSHF", [])
    | 0x9D => some ("POPF", [])
    | 0x9E => some ("SAHF", [])
    | 0x9F => some ("LAHF", [])
    | 0xA0 => some ("MOV", [.r8 0, .ob])
    | 0xA1 => some ("MOV", [.r16 0, .ov])
    | 0xA2 => some ("MOV", [.ob, .r8 0])
    | 0xA3 => some ("MOV", [.ov, .r16 0])
    | 0xA4 => some ("MOVSB", [])
    | 0xA5 => some ("MOVSW", [])
    | 0xA6 => some ("CMPSB", [])
    | 0xA7 => some ("CMPSW", [])
    | 0xA8 => some ("TEST", [.r8 0, .ib])
    | 0xA9 => some ("TEST", [.r16 0, .iv])
    | 0xAA => some ("STOSB", [])
    | 0xAB => some ("STOSW", [])
    | 0xAC => some ("LODSB", [])
    | 0xAD => some ("LODSW", [])
    | 0xAE => some ("SCASB", [])
    | 0xAF => some ("SCASW", [])
    | 0xC2 => some ("RET", [.iv])
    | 0xC3 => some ("RET", [])
    | 0xC4 => some ("LES", [.gv, .mp])
    | 0xC5 => some ("LDS", [.gv, .mp])
    | 0xC6 => if g = 0 then some ("MOV", [.eb, .ib]) else none
    | 0xC7 => if g = 0 then some ("MOV", [.ev, .iv]) else none
    | 0xCA => some ("RETF", [.iv])
    | 0xCB => some ("RETF", [])
    | 0xCC => some ("INT", [.const 3])
    | 0xCD => some ("INT", [.ib])
    | 0xCE => some ("INTO", [])
    | 0xCF => some ("IRET", [])
    | 0xD0 => if g = 4 then some ("SHL", [.eb, .const 1]) else if g = 5 then some ("SHR", [.eb, .const 1]) else none
    | 0xD1 => if g = 4 then some ("SHL", [.ev, .const 1]) else if g = 5 then some ("SHR", [.ev, .const 1]) else none
    | 0xD4 => some ("AAM", [.ib])
    | 0xD5 => some ("AAD", [.ib])
    | 0xD7 => some ("XLAT", [])
    | 0xE0 => some ("LOOPNZ", [.jb])
    | 0xE1 => some ("LOOPZ", [.jb])
    | 0xE2 => some ("LOOP", [.jb])
    | 0xE3 => some ("JCXZ", [.jb])
    | 0xE4 => some ("IN", [.r8 0, .ib])
    | 0xE5 => some ("IN", [.r16 0, .ib])
    | 0xE6 => some ("OUT", [.ib, .r8 0])
    | 0xE7 => some ("OUT", [.ib, .r16 0])
    | 0xE8 => some ("CALL", [.jv])
    | 0xE9 => some ("JMP", [.jv])
    | 0xEA => some ("JMP", [.ap])
    | 0xEB => some ("JMP", [.jb])
    | 0xEC => some ("IN", [.r8 0, .r16 2])
    | 0xED => some ("IN", [.r16 0, .r16 2])
    | 0xEE => some ("OUT", [.r16 2, .r8 0])
    | 0xEF => some ("OUT", [.r16 2, .r16 0])
    | 0xF0 => some ("LOCK", [])
    | 0xF2 => some ("REPNZ", [])
    | 0xF3 => some ("REPZ", [])
    | 0xF4 => some ("HLT", [])
    | 0xF5 => some ("CMC", [])
    | 0xF7 => if g = 4 then some ("MUL", [.ev]) else if g = 6 then some ("DIV", [.ev]) else none
    | 0xF8 => some ("CLC", [])
    | 0xF9 => some ("STC", [])
    | 0xFA => some ("CLI", [])
    | 0xFB => some ("STI", [])
    | 0xFC => some ("CLD", [])
    | 0xFD => some ("STD", [])
    | _ => none

/-- The operand in the ModR/M byte. -/
inductive I86Rm where
  | reg (n : Nat)
  | mem (base d : Nat)
  | addr (a : Nat)
deriving DecidableEq, Repr

def I86Kind.modrm : I86Kind → Bool
  | .eb | .ev | .gb | .gv | .sw | .m | .mp => true
  | _ => false

/-- A little-endian word. -/
def word86 (x y : Byte) : Nat := x.toNat + 256 * y.toNat

/-- The ModR/M byte and what belongs to it: the middle field, the operand, and the bytes after them. -/
def modrm86 : Bytes → Option (Nat × I86Rm × Bytes)
  | [] => none
  | b :: bs =>
    let g := b.toNat / 8 % 8
    let rm := b.toNat % 8
    match b.toNat / 64, bs with
    | 3, bs => some (g, .reg rm, bs)
    | 2, x :: y :: bs => some (g, .mem rm (word86 x y), bs)
    | 1, x :: bs => some (g, .mem rm (x.toInt % 65536).toNat, bs)
    | 0, bs =>
      if rm = 6 then
        match bs with
        | x :: y :: bs => some (g, .addr (word86 x y), bs)
        | _ => none
      else some (g, .mem rm 0, bs)
    | _, _ => none

/-- One operand, from the ModR/M byte or the bytes that follow. -/
def operand86 (mr : Option (Nat × I86Rm)) : I86Kind → Bytes → Option (I86Opnd × Bytes)
  | .eb, bs => mr.map fun p => (match p.2 with | .reg n => .r8 n | .mem b d => .mem false b d | .addr a => .addr false a, bs)
  | .ev, bs => mr.map fun p => (match p.2 with | .reg n => .r16 n | .mem b d => .mem true b d | .addr a => .addr true a, bs)
  | .m, bs | .mp, bs =>
    match mr with
    | some (_, .mem b d) => some (.mem true b d, bs)
    | some (_, .addr a) => some (.addr true a, bs)
    | _ => none
  | .gb, bs => mr.map fun p => (.r8 p.1, bs)
  | .gv, bs => mr.map fun p => (.r16 p.1, bs)
  | .sw, bs => mr.bind fun p => if p.1 < 4 then some (.seg p.1, bs) else none
  | .r8 n, bs => some (.r8 n, bs)
  | .r16 n, bs => some (.r16 n, bs)
  | .seg n, bs => some (.seg n, bs)
  | .const n, bs => some (.imm8 n, bs)
  | .ib, x :: bs => some (.imm8 x.toNat, bs)
  | .iv, x :: y :: bs => some (.imm16 (word86 x y), bs)
  | .jb, x :: bs => some (.rel x.toInt, bs)
  | .jv, x :: y :: bs => some (.rel (toSigned 16 (word86 x y)), bs)
  | .ob, x :: y :: bs => some (.addr false (word86 x y), bs)
  | .ov, x :: y :: bs => some (.addr true (word86 x y), bs)
  | .ap, x :: y :: z :: w :: bs => some (.far (word86 z w) (word86 x y), bs)
  | _, _ => none

def operands86 (mr : Option (Nat × I86Rm)) : List I86Kind → Bytes → Option (List I86Opnd × Bytes)
  | [], bs => some ([], bs)
  | k :: ks, bs => do
    let (o, bs) ← operand86 mr k bs
    let (os, bs) ← operands86 mr ks bs
    pure (o :: os, bs)

/-- The instruction at the start of the bytes and the bytes after it. -/
def decode86 : Bytes → Option (I86Instr × Bytes)
  | [] => none
  | op :: bs => do
    let g := match bs with | b :: _ => b.toNat / 8 % 8 | [] => 0
    let (name, kinds) ← shape86 op.toNat g
    if kinds.any I86Kind.modrm then do
      let (g, rm, bs) ← modrm86 bs
      let (os, bs) ← operands86 (some (g, rm)) kinds bs
      pure (⟨name, os⟩, bs)
    else do
      let (os, bs) ← operands86 none kinds bs
      pure (⟨name, os⟩, bs)

/-- The bytes are one whole instruction. -/
def disasm86 (bs : Bytes) : Option I86Instr :=
  match decode86 bs with
  | some (i, []) => some i
  | _ => none

/-! ## Assembly text -/

def i86Names8 : List String := ["AL", "CL", "DL", "BL", "AH", "CH", "DH", "BH"]
def i86Names16 : List String := ["AX", "CX", "DX", "BX", "SP", "BP", "SI", "DI"]
def i86NamesSeg : List String := ["ES", "CS", "SS", "DS"]

/-- The token is entry `n` of the list of names. -/
def I86Name (names : List String) (n : Nat) (t : Str) : Prop := ∃ s, names[n]? = some s ∧ eqNoCase t s.toList

/-- The token is not a register. -/
def I86NoReg (t : Str) : Prop := ∀ n, ¬ I86Name i86Names8 n t ∧ ¬ I86Name i86Names16 n t ∧ ¬ I86Name i86NamesSeg n t

/-- The token is neither a register nor a bracket. -/
def I86Free (t : Str) : Prop := I86NoReg t ∧ t ≠ ['['] ∧ t ≠ [']']

/-- The registers of an address, by their code. -/
inductive I86BaseText : Nat → List Str → Prop
  | two {b p x y} : (b, p) ∈ [(0, "BX", "SI"), (1, "BX", "DI"), (2, "BP", "SI"), (3, "BP", "DI")] →
      eqNoCase x p.1.toList → eqNoCase y p.2.toList → I86BaseText b [x, ['+'], y]
  | one {b} {p : String} {x} : (b, p) ∈ [(4, "SI"), (5, "DI"), (6, "BP"), (7, "BX")] → eqNoCase x p.toList → I86BaseText b [x]

section
variable (value : M68Use → Nat → Str → Int → Prop)

/-- The tokens write the operand.  `value use n t x`: the token `t` stands for the number `x` in a field of `n` bits. -/
inductive I86Text : I86Opnd → List Str → Prop
  | r8 {n t} : I86Name i86Names8 n t → I86Text (.r8 n) [t]
  | r16 {n t} : I86Name i86Names16 n t → I86Text (.r16 n) [t]
  | seg {n t} : I86Name i86NamesSeg n t → I86Text (.seg n) [t]
  | mem {w b ts} : I86BaseText b ts → I86Text (.mem w b 0) (['['] :: ts ++ [[']']])
  | plus {w b} {d : Nat} {ts v x} : I86BaseText b ts → value .disp 16 (v.dropWhile (· == '+')) x → (d : Int) = x % 2 ^ 16 →
      I86Text (.mem w b d) (['['] :: ts ++ [['+'], v, [']']])
  | minus {w b} {d : Nat} {ts v x} : I86BaseText b ts → value .disp 16 ('-' :: v) x → (d : Int) = x % 2 ^ 16 →
      I86Text (.mem w b d) (['['] :: ts ++ [['-'], v, [']']])
  | addr {w} {a : Nat} {v x} : I86NoReg v → value .data 16 v x → (a : Int) = x % 2 ^ 16 → I86Text (.addr w a) [['['], v, [']']]
  | imm8 {n : Nat} {v x} : I86Free v → value .data 8 v x → (n : Int) = x % 2 ^ 8 → I86Text (.imm8 n) [v]
  | imm16 {n : Nat} {v x} : I86Free v → value .data 16 v x → (n : Int) = x % 2 ^ 16 → I86Text (.imm16 n) [v]
  | rel8 {d v x} : I86NoReg v → ':' ∉ v → value .pc 8 v x → -(2 ^ 7) ≤ d → d < 2 ^ 7 → d % 2 ^ 8 = x % 2 ^ 8 → I86Text (.rel d) [v]
  | rel16 {d v x} : I86NoReg v → ':' ∉ v → value .pc 16 v x → -(2 ^ 15) ≤ d → d < 2 ^ 15 → d % 2 ^ 16 = x % 2 ^ 16 → I86Text (.rel d) [v]
  | far {s o : Nat} {u v x y} : ':' ∉ u → ':' ∉ v → value .data 16 u x → (s : Int) = x % 2 ^ 16 → value .data 16 v y → (o : Int) = y % 2 ^ 16 →
      I86Text (.far s o) [u ++ ':' :: v]

/-- The tokens write the operands, one after the other. -/
inductive I86Texts : List I86Opnd → List Str → Prop
  | nil : I86Texts [] []
  | cons {a as ts us} : I86Text value a ts → I86Texts as us → I86Texts (a :: as) (ts ++ us)

/-- The mnemonic and operands write the instruction. -/
def I86Written (m : Str) (rest : List Str) (i : I86Instr) : Prop := eqNoCase m i.name.toList ∧ I86Texts value i.args rest

/-- The tokens write an operand of that kind in a way the assembler knows: an address without registers only where the opcode map has an address or a pointer. -/
inductive I86Takes : I86Kind → List Str → Prop
  | reg8 {k n t} : k = .eb ∨ k = .gb ∨ k = .r8 n → I86Name i86Names8 n t → I86Takes k [t]
  | reg16 {k n t} : k = .ev ∨ k = .gv ∨ k = .r16 n → I86Name i86Names16 n t → I86Takes k [t]
  | seg {k n t} : k = .sw ∨ k = .seg n → I86Name i86NamesSeg n t → I86Takes k [t]
  | mem {k b ts} : k ∈ [.eb, .ev, .m] → I86BaseText b ts → I86Takes k (['['] :: ts ++ [[']']])
  | plus {k b ts v x} : k ∈ [.eb, .ev, .m] → I86BaseText b ts → value .disp 16 (v.dropWhile (· == '+')) x → I86Takes k (['['] :: ts ++ [['+'], v, [']']])
  | minus {k b ts v x} : k ∈ [.eb, .ev, .m] → I86BaseText b ts → value .disp 16 ('-' :: v) x → I86Takes k (['['] :: ts ++ [['-'], v, [']']])
  | addr8 {v x} : I86NoReg v → value .data 8 v x → I86Takes .ob [['['], v, [']']]
  | addr16 {k v x} : k ∈ [.ov, .mp] → I86NoReg v → value .data 16 v x → I86Takes k [['['], v, [']']]
  | imm8 {v x} : value .data 8 v x → I86Takes .ib [v]
  | imm16 {v x} : value .data 16 v x → I86Takes .iv [v]
  | const {n : Nat} {v} : value .data 8 v n → I86Takes (.const n) [v]
  | rel8 {v x} : ':' ∉ v → value .pc 8 v x → I86Takes .jb [v]
  | rel16 {v x} : ':' ∉ v → value .pc 16 v x → I86Takes .jv [v]
  | far {u v x y} : ':' ∉ u → ':' ∉ v → value .data 16 u x → value .data 16 v y → I86Takes .ap [u ++ ':' :: v]

inductive I86TakesAll : List I86Kind → List Str → Prop
  | nil : I86TakesAll [] []
  | cons {k ks ts us} : I86Takes value k ts → I86TakesAll ks us → I86TakesAll (k :: ks) (ts ++ us)

/-- Lines whose code is not the instruction written; `Necro.C68_odd` shows what each becomes. -/
inductive I86Odd (m : Str) (rest : List Str) : Prop
  /-- the address `[BP]`, whose code is that of a direct address -/
  | bp {pre t post} : rest = pre ++ ['['] :: t :: [']'] :: post → eqNoCase t "BP".toList → I86Odd m rest
  /-- `POP` to memory, whose operand is left out -/
  | pop {post} : eqNoCase m "POP".toList → rest = ['['] :: post → I86Odd m rest
  /-- a number moved to memory, whose address is left out -/
  | store {ts t post} : eqNoCase m "MOV".toList → rest = ['['] :: ts ++ [']'] :: t :: post → I86Free t → I86Odd m rest
  /-- `AAM` and `AAD` with their usual operand, which is left out -/
  | adjust : eqNoCase m "AAM".toList ∨ eqNoCase m "AAD".toList → rest = [] ∨ (∃ t, rest = [t] ∧ value .data 8 t 10) → I86Odd m rest
  /-- a shift by anything else than 1 -/
  | shift {o ts post} : eqNoCase m "SHL".toList ∨ eqNoCase m "SHR".toList → I86Text value o ts → rest = ts ++ post →
      ¬ (∃ t, post = [t] ∧ I86Free t ∧ value .data 8 t 1) → I86Odd m rest
  /-- a negative address of a byte -/
  | negative {pre r v post x} : eqNoCase m "MOV".toList → rest = pre ++ ['['] :: v :: [']'] :: post → r ∈ rest → I86Name i86Names8 0 r →
      value .data 8 v x → x < 0 → I86Odd m rest

end

/-- Lines that may have a label inside an address with registers, as a far pointer, or as the pointer of `LES` and `LDS`. -/
def I86Inner (m : Str) (rest : List Str) : Prop :=
  eqNoCase m "LES".toList ∨ eqNoCase m "LDS".toList ∨ ['+'] ∈ rest ∨ ['-'] ∈ rest ∨ ∃ t ∈ rest, ':' ∈ t

end Necro.Spec
