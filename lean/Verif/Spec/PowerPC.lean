import Verif.Spec.Mips32
import Verif.Spec.Mc68000
/-!
# The 32-bit PowerPC instruction set, decoded from the instruction word

Written from the instruction formats of the PowerPC (and, for the 601, POWER) manuals: the primary opcode, the extended
opcode in decimal, and the operands in the order of the assembler syntax.  Bit 0 is the lowest bit, not the highest as in the
manuals.  Reserved fields must be zero.  Only the instructions necroassembler can write are listed.
-/

namespace Necro.Spec

/-- What stands in a field. -/
inductive PpcOperand where
  /-- a general register -/
  | gpr
  /-- a general register, or nothing, written `0` (or `r0`) -/
  | base
  /-- a floating point register -/
  | fpr
  | unsigned
  | signed
  /-- the distance to another instruction, in words -/
  | relative
  /-- the address of another instruction, in words -/
  | absolute
  /-- a special register number, its two halves exchanged -/
  | spr
deriving DecidableEq, Repr

/-- Bits `hi … lo` and what they hold. -/
structure PpcField where
  kind : PpcOperand
  hi : Nat
  lo : Nat
deriving DecidableEq, Repr

/-- The number in the field. -/
def PpcField.read (f : PpcField) (w : Nat) : Nat :=
  match f.kind with
  | .spr => fld w 15 11 * 32 + fld w 20 16
  | _ => fld w f.hi f.lo

/-- An instruction: the fields with a fixed content, as `(hi, lo, content)`, and the operands. -/
structure PpcOp where
  name : String
  fixed : List (Nat × Nat × Nat)
  fields : List PpcField
deriving DecidableEq, Repr

/-- A name without and with the `.` that sets the condition register. -/
def ppcRc (n : String) : List (String × Nat) := [(n, 0), (n ++ ".", 1)]

/-- A name without and with the `o` that records overflow. -/
def ppcOe (n : String) : List (String × Nat) := [(n, 0), (n ++ "o", 1)]

/-- The suffixes of branches: absolute, link. -/
def ppcAaLk : List (String × Nat × Nat) := [("", 0, 0), ("a", 1, 0), ("l", 0, 1), ("la", 1, 1)]

def ppcD : PpcField := ⟨.gpr, 25, 21⟩
def ppcA : PpcField := ⟨.gpr, 20, 16⟩
def ppcA0 : PpcField := ⟨.base, 20, 16⟩
def ppcB : PpcField := ⟨.gpr, 15, 11⟩
def ppcFD : PpcField := ⟨.fpr, 25, 21⟩
def ppcFA : PpcField := ⟨.fpr, 20, 16⟩
def ppcFB : PpcField := ⟨.fpr, 15, 11⟩
def ppcFC : PpcField := ⟨.fpr, 10, 6⟩
/-- A number at bits `hi … lo`. -/
def ppcU (hi lo : Nat) : PpcField := ⟨.unsigned, hi, lo⟩

/-- Arithmetic with an immediate, by primary opcode: `m rD, rA, imm` -/
def ppcImmediate : List PpcOp :=
  [("addi", 14, ppcA0, .signed), ("addis", 15, ppcA0, .unsigned), ("addic", 12, ppcA, .signed), ("addic.", 13, ppcA, .signed),
   ("subfic", 8, ppcA, .signed), ("mulli", 7, ppcA, .signed), ("dozi", 9, ppcA, PpcOperand.signed)].map fun (n, o, a, k) =>
    ⟨n, [(31, 26, o)], [ppcD, a, ⟨k, 15, 0⟩]⟩

/-- Logic with an immediate: `m rA, rS, imm` -/
def ppcLogicImmediate : List PpcOp :=
  [("ori", 24), ("oris", 25), ("xori", 26), ("xoris", 27), ("andi.", 28), ("andis.", 29)].map fun (n, o) =>
    ⟨n, [(31, 26, o)], [ppcA, ppcD, ppcU 15 0]⟩

/-- Comparisons and traps with an immediate. -/
def ppcTestImmediate : List PpcOp :=
  [⟨"cmpi", [(31, 26, 11), (22, 22, 0)], [ppcU 25 23, ppcU 21 21, ppcA, ⟨.signed, 15, 0⟩]⟩,
   ⟨"cmpli", [(31, 26, 10), (22, 22, 0)], [ppcU 25 23, ppcU 21 21, ppcA, ppcU 15 0]⟩,
   ⟨"twi", [(31, 26, 3)], [ppcU 25 21, ppcA, ⟨.signed, 15, 0⟩]⟩]

/-- Branches: `b target`, `bc BO, BI, target`, `bclr BO, BI, BH`, `bcctr BO, BI, BH` -/
def ppcBranches : List PpcOp :=
  (ppcAaLk.map fun (x, aa, lk) => ⟨"b" ++ x, [(31, 26, 18), (1, 1, aa), (0, 0, lk)], [⟨if aa = 1 then .absolute else .relative, 25, 2⟩]⟩) ++
  (ppcAaLk.map fun (x, aa, lk) => ⟨"bc" ++ x, [(31, 26, 16), (1, 1, aa), (0, 0, lk)],
    [ppcU 25 21, ppcU 20 16, ⟨if aa = 1 then .absolute else .relative, 15, 2⟩]⟩) ++
  ([("bclr", 16, 0), ("bclrl", 16, 1), ("bcctr", 528, 0), ("bcctrl", 528, 1)].map fun (n, xo, lk) =>
    ⟨n, [(31, 26, 19), (15, 13, 0), (10, 1, xo), (0, 0, lk)], [ppcU 25 21, ppcU 20 16, ppcU 12 11]⟩)

/-- The condition register and the system instructions with primary opcodes 0, 17 and 19. -/
def ppcSystem : List PpcOp :=
  ([("crand", 257), ("crandc", 129), ("creqv", 289), ("crnand", 225), ("crnor", 33), ("cror", 449), ("crorc", 417), ("crxor", 193)].map fun (n, xo) =>
    ⟨n, [(31, 26, 19), (10, 1, xo), (0, 0, 0)], [ppcU 25 21, ppcU 20 16, ppcU 15 11]⟩) ++
  [⟨"mcrf", [(31, 26, 19), (22, 21, 0), (17, 11, 0), (10, 1, 0), (0, 0, 0)], [ppcU 25 23, ppcU 20 18]⟩,
   ⟨"isync", [(31, 26, 19), (25, 11, 0), (10, 1, 150), (0, 0, 0)], []⟩,
   ⟨"rfi", [(31, 26, 19), (25, 11, 0), (10, 1, 50), (0, 0, 0)], []⟩,
   ⟨"sc", [(31, 26, 17), (25, 2, 0), (1, 1, 1), (0, 0, 0)], []⟩,
   ⟨"attn", [(31, 26, 0), (10, 1, 256), (0, 0, 0)], [ppcU 25 11]⟩]

/-- Arithmetic, primary opcode 31: `m rD, rA, rB` and `m rD, rA` -/
def ppcArith : List PpcOp :=
  ([("add", 266), ("addc", 10), ("adde", 138), ("subf", 40), ("subfc", 8), ("subfe", 136), ("divw", 491), ("divwu", 459), ("mullw", 235),
    ("doz", 264), ("mul", 107), ("div", 331), ("divs", 363)].flatMap fun (n, xo) => (ppcOe n).flatMap fun (n, oe) => (ppcRc n).map fun (n, rc) =>
    ⟨n, [(31, 26, 31), (10, 10, oe), (9, 1, xo), (0, 0, rc)], [ppcD, ppcA, ppcB]⟩) ++
  ([("mulhw", 75), ("mulhwu", 11)].flatMap fun (n, xo) => (ppcRc n).map fun (n, rc) =>
    ⟨n, [(31, 26, 31), (10, 10, 0), (9, 1, xo), (0, 0, rc)], [ppcD, ppcA, ppcB]⟩) ++
  ([("addme", 234), ("addze", 202), ("subfme", 232), ("subfze", 200), ("neg", 104), ("abs", 360), ("nabs", 488)].flatMap fun (n, xo) =>
    (ppcOe n).flatMap fun (n, oe) => (ppcRc n).map fun (n, rc) =>
    ⟨n, [(31, 26, 31), (15, 11, 0), (10, 10, oe), (9, 1, xo), (0, 0, rc)], [ppcD, ppcA]⟩)

/-- Logic and shifts, primary opcode 31: `m rA, rS, rB`, `m rA, rS, sh` and `m rA, rS` -/
def ppcLogic : List PpcOp :=
  ([("and", 28), ("andc", 60), ("or", 444), ("orc", 412), ("xor", 316), ("nand", 476), ("nor", 124), ("eqv", 284), ("slw", 24), ("srw", 536),
    ("sraw", 792), ("rrib", 537), ("maskg", 29), ("maskir", 541), ("slq", 152), ("srq", 664), ("sllq", 216), ("srlq", 728), ("sle", 153),
    ("sre", 665), ("sleq", 217), ("sreq", 729), ("sraq", 920), ("srea", 921)].flatMap fun (n, xo) => (ppcRc n).map fun (n, rc) =>
    ⟨n, [(31, 26, 31), (10, 1, xo), (0, 0, rc)], [ppcA, ppcD, ppcB]⟩) ++
  ([("srawi", 824), ("sliq", 184), ("sriq", 696), ("slliq", 248), ("srliq", 760), ("sraiq", 952)].flatMap fun (n, xo) => (ppcRc n).map fun (n, rc) =>
    ⟨n, [(31, 26, 31), (10, 1, xo), (0, 0, rc)], [ppcA, ppcD, ppcU 15 11]⟩) ++
  ([("cntlzw", 26), ("extsb", 954), ("extsh", 922)].flatMap fun (n, xo) => (ppcRc n).map fun (n, rc) =>
    ⟨n, [(31, 26, 31), (15, 11, 0), (10, 1, xo), (0, 0, rc)], [ppcA, ppcD]⟩)

/-- Loads and stores with an index register, primary opcode 31: `m rD, rA|0, rB`, and with update `m rD, rA, rB` -/
def ppcIndexed : List PpcOp :=
  ([("lbzx", 87), ("lhzx", 279), ("lhax", 343), ("lwzx", 23), ("lhbrx", 790), ("lwbrx", 534), ("lswx", 533), ("lwarx", 20), ("stbx", 215),
    ("sthx", 407), ("stwx", 151), ("sthbrx", 918), ("stwbrx", 662), ("stswx", 661), ("eciwx", 310), ("ecowx", 438)].map fun (n, xo) =>
    ⟨n, [(31, 26, 31), (10, 1, xo), (0, 0, 0)], [ppcD, ppcA0, ppcB]⟩) ++
  ([("lbzux", 119), ("lhzux", 311), ("lhaux", 375), ("lwzux", 55), ("stbux", 247), ("sthux", 439), ("stwux", 183)].map fun (n, xo) =>
    ⟨n, [(31, 26, 31), (10, 1, xo), (0, 0, 0)], [ppcD, ppcA, ppcB]⟩) ++
  ([("lfsx", 535), ("lfdx", 599), ("stfsx", 663), ("stfdx", 727), ("stfiwx", 983)].map fun (n, xo) =>
    ⟨n, [(31, 26, 31), (10, 1, xo), (0, 0, 0)], [ppcFD, ppcA0, ppcB]⟩) ++
  ([("lfsux", 567), ("lfdux", 631), ("stfsux", 695), ("stfdux", 759)].map fun (n, xo) =>
    ⟨n, [(31, 26, 31), (10, 1, xo), (0, 0, 0)], [ppcFD, ppcA, ppcB]⟩) ++
  [⟨"stwcx.", [(31, 26, 31), (10, 1, 150), (0, 0, 1)], [ppcD, ppcA0, ppcB]⟩,
   ⟨"lscbx", [(31, 26, 31), (10, 1, 277), (0, 0, 0)], [ppcD, ppcA0, ppcB]⟩,
   ⟨"lscbx.", [(31, 26, 31), (10, 1, 277), (0, 0, 1)], [ppcD, ppcA0, ppcB]⟩,
   ⟨"lswi", [(31, 26, 31), (10, 1, 597), (0, 0, 0)], [ppcD, ppcA0, ppcU 15 11]⟩,
   ⟨"stswi", [(31, 26, 31), (10, 1, 725), (0, 0, 0)], [ppcD, ppcA0, ppcU 15 11]⟩]

/-- The rest of primary opcode 31. -/
def ppcOthers : List PpcOp :=
  ([("cmp", 0), ("cmpl", 32)].map fun (n, xo) => ⟨n, [(31, 26, 31), (22, 22, 0), (10, 1, xo), (0, 0, 0)], [ppcU 25 23, ppcU 21 21, ppcA, ppcB]⟩) ++
  ([("mfcr", 19), ("mfmsr", 83), ("mtmsr", 146)].map fun (n, xo) => ⟨n, [(31, 26, 31), (20, 11, 0), (10, 1, xo), (0, 0, 0)], [ppcD]⟩) ++
  ([("icbi", 982), ("dcbtst", 246), ("dcbz", 1014), ("dcbst", 54), ("dcbf", 86), ("dcba", 758), ("dcbi", 470)].map fun (n, xo) =>
    ⟨n, [(31, 26, 31), (25, 21, 0), (10, 1, xo), (0, 0, 0)], [ppcA0, ppcB]⟩) ++
  ([("eieio", 854), ("tlbia", 370), ("tlbsync", 566)].map fun (n, xo) => ⟨n, [(31, 26, 31), (25, 11, 0), (10, 1, xo), (0, 0, 0)], []⟩) ++
  ([("mtsrin", 242), ("mfsrin", 659)].map fun (n, xo) => ⟨n, [(31, 26, 31), (20, 16, 0), (10, 1, xo), (0, 0, 0)], [ppcD, ppcB]⟩) ++
  ([("tlbld", 978), ("tlbli", 1010)].map fun (n, xo) => ⟨n, [(31, 26, 31), (25, 16, 0), (10, 1, xo), (0, 0, 0)], [ppcB]⟩) ++
  ([("dst", 342, 0), ("dstt", 342, 1), ("dstst", 374, 0), ("dststt", 374, 1)].map fun (n, xo, t) =>
    ⟨n, [(31, 26, 31), (25, 25, t), (24, 23, 0), (10, 1, xo), (0, 0, 0)], [ppcA, ppcB, ppcU 22 21]⟩) ++
  [⟨"dss", [(31, 26, 31), (25, 25, 0), (24, 23, 0), (20, 11, 0), (10, 1, 822), (0, 0, 0)], [ppcU 22 21]⟩,
   ⟨"dssall", [(31, 26, 31), (25, 25, 1), (24, 11, 0), (10, 1, 822), (0, 0, 0)], []⟩,
   ⟨"dcbzl", [(31, 26, 31), (25, 21, 1), (10, 1, 1014), (0, 0, 0)], [ppcA0, ppcB]⟩,
   ⟨"dcbt", [(31, 26, 31), (25, 25, 0), (10, 1, 278), (0, 0, 0)], [ppcA0, ppcB, ppcU 24 21]⟩,
   ⟨"mcrxr", [(31, 26, 31), (22, 11, 0), (10, 1, 512), (0, 0, 0)], [ppcU 25 23]⟩,
   ⟨"mfspr", [(31, 26, 31), (10, 1, 339), (0, 0, 0)], [ppcD, ⟨.spr, 20, 11⟩]⟩,
   ⟨"mtspr", [(31, 26, 31), (10, 1, 467), (0, 0, 0)], [⟨.spr, 20, 11⟩, ppcD]⟩,
   ⟨"mftb", [(31, 26, 31), (10, 1, 371), (0, 0, 0)], [ppcD, ⟨.spr, 20, 11⟩]⟩,
   ⟨"tw", [(31, 26, 31), (10, 1, 4), (0, 0, 0)], [ppcU 25 21, ppcA, ppcB]⟩,
   ⟨"sync", [(31, 26, 31), (25, 23, 0), (20, 11, 0), (10, 1, 598), (0, 0, 0)], [ppcU 22 21]⟩,
   ⟨"clcs", [(31, 26, 31), (15, 11, 0), (10, 1, 531), (0, 0, 0)], [ppcD, ppcA]⟩]

/-- Floating point: primary opcode 63 for double and 59 for single precision. -/
def ppcFloat : List PpcOp :=
  ([("fadd", 63, 21), ("fsub", 63, 20), ("fdiv", 63, 18), ("fadds", 59, 21), ("fsubs", 59, 20), ("fdivs", 59, 18)].flatMap fun (n, o, xo) =>
    (ppcRc n).map fun (n, rc) => ⟨n, [(31, 26, o), (10, 6, 0), (5, 1, xo), (0, 0, rc)], [ppcFD, ppcFA, ppcFB]⟩) ++
  ([("fmul", 63, 25), ("fmuls", 59, 25)].flatMap fun (n, o, xo) => (ppcRc n).map fun (n, rc) =>
    ⟨n, [(31, 26, o), (15, 11, 0), (5, 1, xo), (0, 0, rc)], [ppcFD, ppcFA, ppcFC]⟩) ++
  ([("fmadd", 63, 29), ("fmsub", 63, 28), ("fnmadd", 63, 31), ("fnmsub", 63, 30), ("fmadds", 59, 29), ("fmsubs", 59, 28), ("fnmadds", 59, 31),
    ("fnmsubs", 59, 30), ("fsel", 63, 23)].flatMap fun (n, o, xo) => (ppcRc n).map fun (n, rc) =>
    ⟨n, [(31, 26, o), (5, 1, xo), (0, 0, rc)], [ppcFD, ppcFA, ppcFC, ppcFB]⟩) ++
  ([("fsqrt", 63, 22), ("fsqrts", 59, 22), ("fres", 59, 24), ("frsqrte", 63, 26)].flatMap fun (n, o, xo) => (ppcRc n).map fun (n, rc) =>
    ⟨n, [(31, 26, o), (20, 16, 0), (10, 6, 0), (5, 1, xo), (0, 0, rc)], [ppcFD, ppcFB]⟩) ++
  ([("fmr", 72), ("fabs", 264), ("fneg", 40), ("fnabs", 136), ("frsp", 12), ("fctiw", 14), ("fctiwz", 15)].flatMap fun (n, xo) => (ppcRc n).map fun (n, rc) =>
    ⟨n, [(31, 26, 63), (20, 16, 0), (10, 1, xo), (0, 0, rc)], [ppcFD, ppcFB]⟩) ++
  ([("fcmpu", 0), ("fcmpo", 32)].map fun (n, xo) => ⟨n, [(31, 26, 63), (22, 21, 0), (10, 1, xo), (0, 0, 0)], [ppcU 25 23, ppcFA, ppcFB]⟩) ++
  ((ppcRc "mffs").map fun (n, rc) => ⟨n, [(31, 26, 63), (20, 11, 0), (10, 1, 583), (0, 0, rc)], [ppcFD]⟩) ++
  ((ppcRc "mtfsfi").map fun (n, rc) => ⟨n, [(31, 26, 63), (22, 16, 0), (11, 11, 0), (10, 1, 134), (0, 0, rc)], [ppcU 25 23, ppcU 15 12]⟩) ++
  ((ppcRc "mtfsf").map fun (n, rc) => ⟨n, [(31, 26, 63), (25, 25, 0), (16, 16, 0), (10, 1, 711), (0, 0, rc)], [ppcU 24 17, ppcFB]⟩) ++
  ([("mtfsb0", 70), ("mtfsb1", 38)].flatMap fun (n, xo) => (ppcRc n).map fun (n, rc) =>
    ⟨n, [(31, 26, 63), (20, 11, 0), (10, 1, xo), (0, 0, rc)], [ppcU 25 21]⟩) ++
  [⟨"mcrfs", [(31, 26, 63), (22, 21, 0), (17, 11, 0), (10, 1, 64), (0, 0, 0)], [ppcU 25 23, ppcU 20 18]⟩]

/-- The instructions. -/
def ppcOps : List PpcOp :=
  ppcImmediate ++ ppcLogicImmediate ++ ppcTestImmediate ++ ppcBranches ++ ppcSystem ++ ppcArith ++ ppcLogic ++ ppcIndexed ++ ppcOthers ++ ppcFloat

/-- A word as an instruction: its name and the contents of its operand fields. -/
def decodePpc (w : Nat) : Option (String × List Nat) :=
  (ppcOps.find? fun op => op.fixed.all fun (hi, lo, v) => fld w hi lo == v).map fun op => (op.name, op.fields.map (·.read w))

/-- Four bytes, the highest first. -/
def decodePpcBytes : Bytes → Option (String × List Nat)
  | [a, b, c, d] => decodePpc (a.toNat * 2 ^ 24 + b.toNat * 2 ^ 16 + c.toNat * 2 ^ 8 + d.toNat)
  | _ => none

/-! ## How instructions are written -/

/-- Where the content of an operand field comes from: operand number `i` of the line, or a constant. -/
inductive PpcArg where
  | op (i : Nat)
  | num (n : Nat)
deriving DecidableEq, Repr

/-- A line: its name, the instruction it stands for, and the operands of that. -/
structure PpcForm where
  name : String
  target : String
  args : List PpcArg
deriving DecidableEq, Repr

/-- The number of operands of the line. -/
def PpcForm.arity (f : PpcForm) : Nat := f.args.countP fun a => match a with | .op _ => true | .num _ => false

/-- An instruction by its own name, with all its operands. -/
def PpcOp.form (op : PpcOp) : PpcForm := ⟨op.name, op.name, (List.range op.fields.length).map .op⟩

/-- The conditions in names of branches, with `BO` and `BI`. -/
def ppcConditions : List (String × Nat × Nat) :=
  [("lt", 12, 0), ("le", 4, 1), ("eq", 12, 2), ("ge", 4, 0), ("gt", 12, 1), ("nl", 4, 0), ("ne", 4, 2), ("ng", 4, 1), ("so", 12, 3),
   ("ns", 4, 3), ("un", 12, 3), ("nu", 4, 3)]

/-- The conditions in names of traps, with `TO`. -/
def ppcTraps : List (String × Nat) :=
  [("lt", 16), ("le", 20), ("eq", 4), ("ge", 12), ("gt", 8), ("nl", 12), ("ne", 24), ("ng", 20), ("llt", 2), ("lle", 6), ("lge", 5), ("lgt", 1),
   ("lnl", 5), ("lng", 6)]

/-- Simplified branches. -/
def ppcShortBranches : List PpcForm :=
  (ppcConditions.flatMap fun (c, bo, bi) =>
    (ppcAaLk.map fun (x, _, _) => ⟨"b" ++ c ++ x, "bc" ++ x, [.num bo, .num bi, .op 0]⟩) ++
    [⟨"b" ++ c ++ "lr", "bclr", [.num bo, .num bi, .num 0]⟩, ⟨"b" ++ c ++ "lrl", "bclrl", [.num bo, .num bi, .num 0]⟩,
     ⟨"b" ++ c ++ "ctr", "bcctr", [.num bo, .num bi, .num 0]⟩, ⟨"b" ++ c ++ "ctrl", "bcctrl", [.num bo, .num bi, .num 0]⟩]) ++
  ([("bdnz", 16), ("bdz", 18)].flatMap fun (n, bo) => ppcAaLk.map fun (x, _, _) => ⟨n ++ x, "bc" ++ x, [.num bo, .num 0, .op 0]⟩) ++
  ([("b", 20), ("bdnz", 16), ("bdz", 18)].flatMap fun (n, bo) => ["lr", "lrl"].flatMap fun x =>
    [⟨n ++ x, "bc" ++ x, [.num bo, .num 0, .num 0]⟩, ⟨n ++ x, "bc" ++ x, [.num bo, .num 0, .op 0]⟩]) ++
  (["ctr", "ctrl"].flatMap fun x =>
    [⟨"b" ++ x, "bc" ++ x, [.num 20, .num 0, .num 0]⟩, ⟨"b" ++ x, "bc" ++ x, [.num 20, .num 0, .op 0]⟩, ⟨"b" ++ x, "bc" ++ x, [.op 0, .op 1, .num 0]⟩]) ++
  (["bclr", "bclrl", "bcctr", "bcctrl"].map fun n => ⟨n, n, [.op 0, .op 1, .num 0]⟩)

/-- Simplified comparisons: without the `L` operand, or with it in the name and the condition field optional. -/
def ppcShortCompares : List PpcForm :=
  [("cmp", "i"), ("cmpl", "i"), ("cmp", ""), ("cmpl", "")].flatMap fun (n, x) =>
    [⟨n ++ x, n ++ x, [.op 0, .num 0, .op 1, .op 2]⟩,
     ⟨n ++ "w" ++ x, n ++ x, [.num 0, .num 0, .op 0, .op 1]⟩, ⟨n ++ "w" ++ x, n ++ x, [.op 0, .num 0, .op 1, .op 2]⟩,
     ⟨n ++ "d" ++ x, n ++ x, [.num 0, .num 1, .op 0, .op 1]⟩, ⟨n ++ "d" ++ x, n ++ x, [.op 0, .num 1, .op 1, .op 2]⟩]

/-- The other simplified names. -/
def ppcShort : List PpcForm :=
  [⟨"li", "addi", [.op 0, .num 0, .op 1]⟩, ⟨"lis", "addis", [.op 0, .num 0, .op 1]⟩, ⟨"nop", "ori", [.num 0, .num 0, .num 0]⟩,
   ⟨"sync", "sync", [.num 0]⟩, ⟨"lwsync", "sync", [.num 1]⟩, ⟨"ptesync", "sync", [.num 2]⟩, ⟨"dcbt", "dcbt", [.op 0, .op 1, .num 0]⟩,
   ⟨"trap", "tw", [.num 31, .num 0, .num 0]⟩, ⟨"mftb", "mftb", [.op 0, .num 268]⟩, ⟨"mftbu", "mftb", [.op 0, .num 269]⟩,
   ⟨"mttbl", "mtspr", [.num 284, .op 0]⟩, ⟨"mttbu", "mtspr", [.num 285, .op 0]⟩] ++
  (ppcTraps.map fun (x, n) => ⟨"tw" ++ x, "tw", [.num n, .op 0, .op 1]⟩) ++ (ppcTraps.map fun (x, n) => ⟨"tw" ++ x ++ "i", "twi", [.num n, .op 0, .op 1]⟩) ++
  ([("sub", "subf"), ("subc", "subfc")].flatMap fun (n, m) => ["", ".", "o", "o."].map fun x => ⟨n ++ x, m ++ x, [.op 0, .op 2, .op 1]⟩) ++
  (["", ".", "o", "o."].map fun x => ⟨"mull" ++ x, "mullw" ++ x, [.op 0, .op 1, .op 2]⟩) ++
  (["", "."].map fun x => ⟨"mulwd" ++ x, "mulhw" ++ x, [.op 0, .op 1, .op 2]⟩) ++
  ([("mq", 0), ("xer", 1), ("rtcu", 4), ("rtcl", 5), ("lr", 8), ("ctr", 9)].map fun (n, r) => ⟨"mf" ++ n, "mfspr", [.op 0, .num r]⟩) ++
  ([("mq", 0), ("xer", 1), ("rtcu", 20), ("rtcl", 21), ("lr", 8), ("ctr", 9)].map fun (n, r) => ⟨"mt" ++ n, "mtspr", [.num r, .op 0]⟩)

/-- Every way to write an instruction. -/
def ppcForms : List PpcForm := ppcOps.map PpcOp.form ++ ppcShortBranches ++ ppcShortCompares ++ ppcShort

/-- The name of register `n`. -/
def ppcName (c : Char) (n : Nat) : Str := c :: (toString n).toList

/-- The token is the name of a register, in lower case. -/
def PpcRegister (t : Str) : Prop := ∃ n < 32, t = ppcName 'r' n ∨ t = ppcName 'f' n

section
variable (value : PpcOperand → Nat → Str → Nat → Prop)

/-- The token writes the content `n` of a field of the given width.  `value k width t n`: it does so as a number or label. -/
inductive PpcText : PpcOperand → Nat → Str → Nat → Prop
  | gpr {w n t} : n < 32 → eqNoCase t (ppcName 'r' n) → PpcText .gpr w t n
  | base {w n t} : n < 32 → eqNoCase t (ppcName 'r' n) → PpcText .base w t n
  | zero {w} : PpcText .base w ['0'] 0
  | fpr {w n t} : n < 32 → eqNoCase t (ppcName 'f' n) → PpcText .fpr w t n
  | value {k w n t} : k ∈ [PpcOperand.unsigned, .signed, .relative, .absolute] → ¬ PpcRegister t → value k w t n → PpcText k w t n

/-- The operand tokens `rest` write the contents of the fields. -/
inductive PpcFill (rest : List Str) : List PpcField → List PpcArg → List Nat → Prop
  | nil : PpcFill rest [] [] []
  | num {f fs as n vs} : PpcFill rest fs as vs → PpcFill rest (f :: fs) (.num n :: as) (n :: vs)
  | op {f fs as i tok n vs} : rest[i]? = some tok → PpcText value f.kind (f.hi - f.lo + 1) tok n → PpcFill rest fs as vs →
      PpcFill rest (f :: fs) (.op i :: as) (n :: vs)

/-- The line `t rest` is the form `f` and writes the instruction. -/
inductive PpcWrites (f : PpcForm) (t : Str) (rest : List Str) : String × List Nat → Prop
  | mk {op vs} : op ∈ ppcOps → op.name = f.target → eqNoCase t f.name.toList → rest.length = f.arity → PpcFill value rest op.fields f.args vs →
      PpcWrites f t rest (op.name, vs)

/-- The line writes the instruction. -/
def PpcWritten (t : Str) (rest : List Str) (i : String × List Nat) : Prop := ∃ f ∈ ppcForms, PpcWrites value f t rest i

end

end Necro.Spec
