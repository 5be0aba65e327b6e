import Verif.Spec.Bits
import Verif.Spec.Text
import Verif.Spec.Expr
/-!
# The 68000 instructions the assembler knows

Written from the M68000 Family Programmer's Reference Manual (chapter 2 for the addressing modes,
chapter 4 and appendix for the codes), not from the assembler.
-/

namespace Necro.Spec

inductive M68Size where
  | byte | word | long
deriving DecidableEq, Repr

def M68Size.bits : M68Size → Nat
  | .byte => 8
  | .word => 16
  | .long => 32

def M68Size.suffix : M68Size → String
  | .byte => ".B"
  | .word => ".W"
  | .long => ".L"

/-- An index register: address or data register `n`, all of it or its low word. -/
structure M68Index where
  addr : Bool
  n : Nat
  long : Bool
deriving DecidableEq, Repr

/-- An operand.  Displacements are signed, addresses have 32 bits. -/
inductive M68Ea where
  | dn (n : Nat)
  | an (n : Nat)
  | ind (n : Nat)
  | post (n : Nat)
  | pre (n : Nat)
  | disp (d : Int) (n : Nat)
  | idx (d : Int) (n : Nat) (x : M68Index)
  | absW (a : Nat)
  | absL (a : Nat)
  | pcDisp (d : Int)
  | pcIdx (d : Int) (x : M68Index)
  | imm (v : Nat)
deriving DecidableEq, Repr

/-- Operands an instruction can write to, address registers excepted. -/
def M68Ea.alterable : M68Ea → Bool
  | .an _ | .imm _ | .pcDisp _ | .pcIdx _ _ => false
  | _ => true

/-- Operands that name a place in memory without changing a register. -/
def M68Ea.control : M68Ea → Bool
  | .dn _ | .an _ | .post _ | .pre _ | .imm _ => false
  | _ => true

inductive M68Op where
  | ORI | ANDI | SUBI | ADDI | EORI | CMPI
deriving DecidableEq, Repr

def M68Op.name : M68Op → String
  | .ORI => "ORI" | .ANDI => "ANDI" | .SUBI => "SUBI" | .ADDI => "ADDI" | .EORI => "EORI" | .CMPI => "CMPI"

/-- Does the operation have forms for the status register? -/
def M68Op.status : M68Op → Bool
  | .ORI | .ANDI | .EORI => true
  | _ => false

/-- The conditions, by code. -/
def m68CondNames : List String := ["T", "F", "HI", "LS", "CC", "CS", "NE", "EQ", "VC", "VS", "PL", "MI", "GE", "LT", "GT", "LE"]

/-- Branch distances count from the address of the instruction plus 2.  `bcc` with conditions 0 and 1 are `BRA`
and `BSR`. -/
inductive M68Instr where
  | move (sz : M68Size) (src dst : M68Ea)
  | movea (sz : M68Size) (src : M68Ea) (n : Nat)
  | imm (op : M68Op) (sz : M68Size) (v : Nat) (dst : M68Ea)
  | ccr (op : M68Op) (v : Nat)
  | sr (op : M68Op) (v : Nat)
  | lea (src : M68Ea) (n : Nat)
  | jmp (dst : M68Ea)
  | jsr (dst : M68Ea)
  | bcc (cond : Nat) (short : Bool) (d : Int)
  | dbcc (cond n : Nat) (d : Int)
  | rts
  | nop
deriving DecidableEq, Repr

/-- The brief extension word. -/
def decodeIndex (w : Nat) : Option (Int × M68Index) :=
  if w / 256 % 8 = 0 then
    some (toSigned 8 (w % 256), ⟨decide (w / 32768 % 2 = 1), w / 4096 % 8, decide (w / 2048 % 2 = 1)⟩)
  else none

/-- An operand of the given size from its mode, its register and the words that follow. -/
def decodeEa (sz : M68Size) (mode reg : Nat) (ws : List Nat) : Option (M68Ea × List Nat) :=
  match mode, ws with
  | 0, ws => some (.dn reg, ws)
  | 1, ws => some (.an reg, ws)
  | 2, ws => some (.ind reg, ws)
  | 3, ws => some (.post reg, ws)
  | 4, ws => some (.pre reg, ws)
  | 5, w :: ws => some (.disp (toSigned 16 w) reg, ws)
  | 6, w :: ws => (decodeIndex w).map fun p => (.idx p.1 reg p.2, ws)
  | 7, w :: ws =>
    match reg, ws with
    | 0, ws => some (.absW (toSigned 16 w % 2 ^ 32).toNat, ws)
    | 1, w' :: ws => some (.absL (w * 65536 + w'), ws)
    | 2, ws => some (.pcDisp (toSigned 16 w), ws)
    | 3, ws => (decodeIndex w).map fun p => (.pcIdx p.1 p.2, ws)
    | 4, ws =>
      match sz, ws with
      | .byte, ws => some (.imm (w % 256), ws)
      | .word, ws => some (.imm w, ws)
      | .long, w' :: ws => some (.imm (w * 65536 + w'), ws)
      | .long, [] => none
    | _, _ => none
  | _, _ => none

/-- The size field of most instructions. -/
def decodeSize : Nat → Option M68Size
  | 0 => some .byte
  | 1 => some .word
  | 2 => some .long
  | _ => none

/-- The operation of bits 11 to 9 of the immediate instructions. -/
def decodeImmOp : Nat → Option M68Op
  | 0 => some .ORI
  | 1 => some .ANDI
  | 2 => some .SUBI
  | 3 => some .ADDI
  | 5 => some .EORI
  | 6 => some .CMPI
  | _ => none

/-- Immediate instructions: 0000 ooo0 ss mmm rrr. -/
def decodeImm (w : Nat) (ws : List Nat) : Option (M68Instr × List Nat) :=
  if w / 256 % 2 = 1 then none
  else do
    let op ← decodeImmOp (w / 512 % 8)
    let sz ← decodeSize (w / 64 % 4)
    let (v, ws) ← decodeEa sz 7 4 ws
    match v with
    | .imm v =>
      if w % 64 = 0x3C then
        match op.status, sz with
        | true, .byte => some (.ccr op v, ws)
        | true, .word => some (.sr op v, ws)
        | _, _ => none
      else do
        let (dst, ws) ← decodeEa sz (w / 8 % 8) (w % 8) ws
        if dst.alterable then some (.imm op sz v dst, ws) else none
    | _ => none

/-- Moves: 00ss rrr mmm mmm rrr, with the destination first. -/
def decodeMove (sz : M68Size) (w : Nat) (ws : List Nat) : Option (M68Instr × List Nat) := do
  let (src, ws) ← decodeEa sz (w / 8 % 8) (w % 8) ws
  match sz, src with
  | .byte, .an _ => none
  | sz, src =>
    if w / 64 % 8 = 1 then (if sz = .byte then none else some (.movea sz src (w / 512 % 8), ws))
    else do
      let (dst, ws) ← decodeEa sz (w / 64 % 8) (w / 512 % 8) ws
      if dst.alterable then some (.move sz src dst, ws) else none

/-- The instruction at the start of the words and the words after it; none when undefined, or when
not one of those above. -/
def decode68 : List Nat → Option (M68Instr × List Nat)
  | [] => none
  | w :: ws =>
    match w / 4096 with
    | 0 => decodeImm w ws
    | 1 => decodeMove .byte w ws
    | 2 => decodeMove .long w ws
    | 3 => decodeMove .word w ws
    | 4 =>
      if w = 0x4E75 then some (.rts, ws)
      else if w = 0x4E71 then some (.nop, ws)
      else if w / 64 % 8 = 7 then do
        let (src, ws) ← decodeEa .long (w / 8 % 8) (w % 8) ws
        if src.control then some (.lea src (w / 512 % 8), ws) else none
      else if w / 64 % 64 = 0x3A ∨ w / 64 % 64 = 0x3B then do
        let (dst, ws) ← decodeEa .long (w / 8 % 8) (w % 8) ws
        if dst.control then some (if w / 64 % 2 = 1 then .jmp dst else .jsr dst, ws) else none
      else none
    | 5 =>
      if w / 8 % 32 = 0x19 then
        match ws with
        | e :: ws => some (.dbcc (w / 256 % 16) (w % 8) (toSigned 16 e), ws)
        | [] => none
      else none
    | 6 =>
      if w % 256 = 0 then
        match ws with
        | e :: ws => some (.bcc (w / 256 % 16) false (toSigned 16 e), ws)
        | [] => none
      else some (.bcc (w / 256 % 16) true (toSigned 8 (w % 256)), ws)
    | _ => none

/-- The bytes as big-endian words. -/
def codeWords : Bytes → Option (List Nat)
  | [] => some []
  | [_] => none
  | a :: b :: bs => (codeWords bs).map fun ws => (a.toNat * 256 + b.toNat) :: ws

/-- The bytes are one whole instruction. -/
def disasm68 (bs : Bytes) : Option M68Instr :=
  match (codeWords bs).bind decode68 with
  | some (i, []) => some i
  | _ => none

/-! ## Assembly text -/

/-- The token names register `n` of the kind `k`, `'d'` or `'a'`. -/
def M68Reg (k : Char) (n : Nat) (t : Str) : Prop := n < 8 ∧ eqNoCase t [k, Nat.digitChar n]

/-- The token may stand for a number: it is not a register, not a parenthesis and has no `#`. -/
def M68Free (t : Str) : Prop :=
  (∀ k n, k = 'd' ∨ k = 'a' → ¬ M68Reg k n t) ∧ t ≠ ['('] ∧ t ≠ [')'] ∧ t.head? ≠ some '#'

/-- The token names an index register: the whole of it with `.L`, its low word with `.W`, which can be left
out after a name in lower case. -/
inductive M68IndexText : M68Index → Str → Prop
  | sized {a n l t} : M68Reg (if a then 'a' else 'd') n (t.take 2) → eqNoCase (t.drop 2) (if l then ".L" else ".W").toList →
      M68IndexText ⟨a, n, l⟩ t
  | plain {a n} : n < 8 → M68IndexText ⟨a, n, false⟩ [if a then 'a' else 'd', Nat.digitChar n]

/-- What a number is for: plain data or an address, a displacement, or a place relative to the program counter. -/
inductive M68Use where
  | data | disp | pc
deriving DecidableEq, Repr

/-- The number `x`, written in decimal or not, can be written in a field of `n` bits. -/
def M68Fits (use : M68Use) (n : Nat) (x : Int) (dec : Bool) : Prop :=
  if dec = false then 0 ≤ x ∧ x < 2 ^ n
  else -(2 ^ (n - 1)) ≤ x ∧ x < (if use = .data then 2 ^ n else 2 ^ (n - 1))

section
variable (value : M68Use → Nat → Str → Int → Prop)

/-- The tokens write the operand.  `value use n t x`: the token `t` stands for the number `x` in a field of `n` bits. -/
inductive M68EaText (sz : M68Size) : M68Ea → List Str → Prop
  | dn {n t} : M68Reg 'd' n t → M68EaText sz (.dn n) [t]
  | an {n t} : M68Reg 'a' n t → M68EaText sz (.an n) [t]
  | ind {n t} : M68Reg 'a' n t → M68EaText sz (.ind n) [['('], t, [')']]
  | post {n t} : M68Reg 'a' n t → M68EaText sz (.post n) [['('], t, [')'], ['+']]
  | pre {n t} : M68Reg 'a' n t → M68EaText sz (.pre n) [['-'], ['('], t, [')']]
  | disp {d n v t x} : M68Free v → value .disp 16 v x → d % 2 ^ 16 = x % 2 ^ 16 → M68Reg 'a' n t →
      M68EaText sz (.disp d n) [['('], v, t, [')']]
  | idx {d n i v t u x} : M68Free v → value .disp 8 v x → d % 2 ^ 8 = x % 2 ^ 8 → M68Reg 'a' n t → M68IndexText i u →
      M68EaText sz (.idx d n i) [['('], v, t, u, [')']]
  | pcDisp {d v p x} : M68Free v → value .pc 16 v x → d % 2 ^ 16 = x % 2 ^ 16 → eqNoCase p "PC".toList →
      M68EaText sz (.pcDisp d) [['('], v, p, [')']]
  | pcIdx {d i v p u x} : M68Free v → value .pc 8 v x → d % 2 ^ 8 = x % 2 ^ 8 → eqNoCase p "PC".toList → M68IndexText i u →
      M68EaText sz (.pcIdx d i) [['('], v, p, u, [')']]
  | absW {a : Nat} {v s x} : M68Free v → value .data 16 v x → (a : Int) = x % 2 ^ 32 → eqNoCase s ".W".toList →
      M68EaText sz (.absW a) [['('], v, [')'], s]
  | absW' {a : Nat} {v s x} : M68Free (v ++ s) → value .data 16 v x → (a : Int) = x % 2 ^ 32 → eqNoCase s ".W".toList →
      M68EaText sz (.absW a) [v ++ s]
  | absL {a : Nat} {v s x} : M68Free v → value .data 32 v x → (a : Int) = x % 2 ^ 32 → eqNoCase s ".L".toList →
      M68EaText sz (.absL a) [['('], v, [')'], s]
  | absL' {a : Nat} {v s x} : M68Free (v ++ s) → value .data 32 v x → (a : Int) = x % 2 ^ 32 → eqNoCase s ".L".toList →
      M68EaText sz (.absL a) [v ++ s]
  | abs {a : Nat} {v x} : M68Free v → (∀ u s, v = u ++ s → ¬ eqNoCase s ".W".toList ∧ ¬ eqNoCase s ".L".toList) → value .data 32 v x → (a : Int) = x % 2 ^ 32 → M68EaText sz (.absL a) [v]
  | imm {n : Nat} {v x} : v ≠ [] → value .data sz.bits v x → (n : Int) = x % 2 ^ sz.bits → M68EaText sz (.imm n) ['#' :: v]

/-- The mnemonic for an operation and a size, words being the default. -/
def M68Name (m : Str) (name : String) (sz : M68Size) : Prop :=
  eqNoCase m (name ++ sz.suffix).toList ∨ (sz = .word ∧ eqNoCase m name.toList)

/-- The mnemonic and operands write the instruction. -/
inductive M68Written (m : Str) : List Str → M68Instr → Prop
  | move {sz src dst a b} : M68Name m "MOVE" sz → M68EaText value sz src a → M68EaText value sz dst b →
      M68Written m (a ++ b) (.move sz src dst)
  | movea {sz src n a t} : M68Name m "MOVE" sz ∨ M68Name m "MOVEA" sz → M68EaText value sz src a → M68Reg 'a' n t →
      M68Written m (a ++ [t]) (.movea sz src n)
  | imm {op sz} {v : Nat} {dst t x b} : M68Name m op.name sz → t ≠ [] → value .data sz.bits t x → (v : Int) = x % 2 ^ sz.bits →
      M68EaText value sz dst b → M68Written m (('#' :: t) :: b) (.imm op sz v dst)
  | ccr {op} {v : Nat} {t r x} : eqNoCase m op.name.toList ∨ eqNoCase m (op.name ++ ".B").toList → t ≠ [] → value .data 8 t x →
      (v : Int) = x % 2 ^ 8 → eqNoCase r "CCR".toList → M68Written m ['#' :: t, r] (.ccr op v)
  | sr {op} {v : Nat} {t r x} : M68Name m op.name .word → t ≠ [] → value .data 16 t x →
      (v : Int) = x % 2 ^ 16 → eqNoCase r "SR".toList → M68Written m ['#' :: t, r] (.sr op v)
  | lea {src n a t} : eqNoCase m "LEA".toList ∨ eqNoCase m "LEA.L".toList → M68EaText value .long src a → M68Reg 'a' n t →
      M68Written m (a ++ [t]) (.lea src n)
  | jmp {dst a} : eqNoCase m "JMP".toList → M68EaText value .long dst a → M68Written m a (.jmp dst)
  | jsr {dst a} : eqNoCase m "JSR".toList → M68EaText value .long dst a → M68Written m a (.jsr dst)
  | bccB {k d t x c} : m68CondNames[k]? = some c → eqNoCase m ("B" ++ c ++ ".B").toList → M68Free t → value .pc 8 t x → d % 2 ^ 8 = x % 2 ^ 8 →
      M68Written m [t] (.bcc k true d)
  | bccW {k d t x c} : m68CondNames[k]? = some c → M68Name m ("B" ++ c) .word → M68Free t → value .pc 16 t x → d % 2 ^ 16 = x % 2 ^ 16 →
      M68Written m [t] (.bcc k false d)
  | dbcc {k n d t r x c} : m68CondNames[k]? = some c → M68Name m ("DB" ++ c) .word → M68Reg 'd' n r → M68Free t → value .pc 16 t x →
      d % 2 ^ 16 = x % 2 ^ 16 → M68Written m [r, t] (.dbcc k n d)
  | dbra {n d t r x} : M68Name m "DBRA" .word → M68Reg 'd' n r → M68Free t → value .pc 16 t x →
      d % 2 ^ 16 = x % 2 ^ 16 → M68Written m [r, t] (.dbcc 1 n d)
  | rts : eqNoCase m "RTS".toList → M68Written m [] .rts
  | nop : eqNoCase m "NOP".toList → M68Written m [] .nop

/-- Instructions after whose operands the assembler ignores what follows. -/
def M68Open : M68Instr → Prop
  | .move _ _ _ | .imm _ _ _ _ | .jmp _ | .jsr _ => True
  | _ => False

/-- The line is a branch to `label` with a distance of `n` bits; `f d` is the branch over the distance `d`. -/
inductive M68Branch (m label : Str) : List Str → Nat → (Int → M68Instr) → Prop
  | bccB {k c} : 2 ≤ k → m68CondNames[k]? = some c → eqNoCase m ("B" ++ c ++ ".B").toList → M68Branch m label [label] 8 (.bcc k true)
  | bccW {k c} : 2 ≤ k → m68CondNames[k]? = some c → M68Name m ("B" ++ c) .word → M68Branch m label [label] 16 (.bcc k false)
  | dbcc {k c n r} : m68CondNames[k]? = some c → M68Name m ("DB" ++ c) .word → ¬ eqNoCase m "DBT.W".toList → ¬ eqNoCase m "DBF.W".toList →
      M68Reg 'd' n r → M68Branch m label [r, label] 16 (.dbcc k n)
  | dbra {n r} : M68Name m "DBRA" .word → M68Reg 'd' n r → M68Branch m label [r, label] 16 (.dbcc 1 n)

/-- The token is a single letter of the name. -/
def M68Letter (t : Str) (name : String) : Prop := ∃ c ∈ name.toList, eqNoCase t [c]

/-- Lines whose code is not the instruction written; `Necro.C65_…` show what each becomes. -/
inductive M68Odd (m : Str) (rest : List Str) : Prop
  /-- a letter of `PC` where `PC` is expected -/
  | pc {pre v t post} : rest = pre ++ ['('] :: v :: t :: post → M68Letter t "PC" → M68Odd m rest
  /-- a character of `.W` or `.L` where these are expected -/
  | suffix {pre v t post} : rest = pre ++ ['('] :: v :: [')'] :: t :: post → M68Letter t ".WL" → M68Odd m rest
  /-- a letter of `CCR` or `SR` as the destination -/
  | status {i t} {op : M68Op} {sz} : M68Name m op.name sz → op.status = true → rest = [i, t] → M68Letter t "CCRS" → M68Odd m rest
  /-- a size other than the register's with CCR and SR -/
  | statusSize {i t} {op : M68Op} : op.status = true → rest = [i, t] →
      (eqNoCase t "CCR".toList ∧ (eqNoCase m (op.name ++ ".W").toList ∨ eqNoCase m (op.name ++ ".L").toList)) ∨
      (eqNoCase t "SR".toList ∧ (eqNoCase m (op.name ++ ".B").toList ∨ eqNoCase m (op.name ++ ".L").toList)) → M68Odd m rest
  /-- a byte of an address register, which the processor does not have -/
  | byteAddr {n t post} : eqNoCase m "MOVE.B".toList → rest = t :: post → M68Reg 'a' n t → M68Odd m rest
  /-- a short address from `8000` on, which the processor takes as one from `FFFF8000` on -/
  | short {v x} : (∃ t, eqNoCase t ".W".toList ∧ (v ++ t ∈ rest ∨ ∃ pre post, rest = pre ++ ['('] :: v :: [')'] :: t :: post)) →
      value .data 16 v x → 2 ^ 15 ≤ x → M68Odd m rest
  /-- a short branch to the next instruction, whose code is that of a long one -/
  | next {t x c} : c ∈ m68CondNames → eqNoCase m ("B" ++ c ++ ".B").toList → rest = [t] → value .pc 8 t x → x % 2 ^ 8 = 0 → M68Odd m rest

end

end Necro.Spec
