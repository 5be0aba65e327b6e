import Verif.Model.Cpu.Mips32
import Verif.Model.Cpu.Mos6502
/-!
# /repo/necroassembler/cpu/lr35902.py
-/

namespace Necro

/-- lr35902.py:5-7 -/
def gbRegs8 : List Str := ["A", "F", "B", "C", "D", "E", "H", "L"].map String.toList
def gbRegs16 : List Str := ["AF", "BC", "DE", "HL", "HL+", "HL-", "SP"].map String.toList
def gbConds : List Str := ["Z", "C", "NZ", "NC"].map String.toList

/-- lr35902.py:10-11 `_is_value` -/
def gbIsValue (t : Str) : Bool :=
  !((gbRegs8 ++ gbRegs16 ++ gbConds ++ [['('], [')'], ['['], [']']]).contains (upper t))
/-- lr35902.py:14-15 `_is_number` -/
def gbIsNumber (t : Str) : Bool := isDigitStr t
/-- lr35902.py:18-19 `_is_ldh` -/
def gbIsLdh (t : Str) : Bool := startsWith t "$FF00+".toList && t != "$FF00+C".toList

/-- The row of keyword arguments of one `_build_opcode` call; `conditional` and `relative` are apart. -/
structure GbRow where
  name : String
  conditional : Bool
  relative : Bool
  args : List (String × Nat)

/-- lr35902.py:36-50 `register_instructions`: one-byte instructions. -/
def gbFixed : List (String × Nat) :=
  [("NOP", 0x00),
   ("RRCA", 0x0F),
   ("BRA", 0x1F),
   ("HALT", 0x76),
   ("DI", 0xF3),
   ("EI", 0xFB),
   ("RLA", 0x17),
   ("RLCA", 0x07),
   ("RRA", 0x1F),
   ("DAA", 0x27),
   ("CPL", 0x2F),
   ("SCF", 0x37),
   ("CCF", 0x3F),
   ("RETI", 0xD9)]

/-- lr35902.py:203-804: the keyword arguments of each `_build_opcode` call. -/
def gbRows : List GbRow :=
  [⟨"LD", false, false, [
     ("bc_d16", 0x01), ("ind_bc_a", 0x02), ("b_d8", 0x06), ("h_d8", 0x26), ("ind_a16_sp", 0x08), ("a_ind_bc", 0x0A), ("c_d8", 0x0E),
     ("c_ind_hl", 0x4E), ("a_ind_hl_plus", 0x2A), ("hl_d16", 0x21), ("de_d16", 0x11), ("b_a", 0x47), ("b_b", 0x40), ("b_c", 0x41), ("b_d", 0x42),
     ("b_e", 0x43), ("b_h", 0x44), ("b_l", 0x45), ("b_ind_hl", 0x46), ("c_b", 0x48), ("c_c", 0x49), ("c_d", 0x4A), ("c_e", 0x4B), ("c_h", 0x4C),
     ("c_l", 0x4D), ("d_b", 0x50), ("d_c", 0x51), ("d_d", 0x52), ("d_e", 0x53), ("d_h", 0x54), ("d_l", 0x55), ("d_ind_hl", 0x56), ("e_b", 0x58),
     ("e_c", 0x59), ("e_d", 0x5A), ("e_e", 0x5B), ("e_l", 0x5D), ("e_h", 0x5C), ("l_b", 0x68), ("l_c", 0x69), ("l_d", 0x6A), ("l_e", 0x6B),
     ("l_h", 0x6C), ("l_l", 0x6D), ("l_ind_hl", 0x6E), ("l_a", 0x6F), ("h_b", 0x60), ("h_c", 0x61), ("h_d", 0x62), ("h_e", 0x63), ("h_h", 0x64),
     ("h_l", 0x65), ("h_ind_hl", 0x66), ("e_ind_hl", 0x5E), ("e_a", 0x5F), ("ind_a16_a", 0xEA), ("a_d8", 0x3E), ("a_ind_a16", 0xFA),
     ("ind_de_a", 0x12), ("ind_hl_minus_a", 0x32), ("ind_hl_plus_a", 0x22), ("d_d8", 0x16), ("d_a", 0x57), ("a_d", 0x7A), ("ind_hl_d8", 0x36),
     ("ind_c_a", 0xE2), ("ind_hl_a", 0x77), ("ind_a8_a", 0xE0), ("a_ind_de", 0x1A), ("a_ind_hl_minus", 0x3A), ("a_e", 0x7B), ("l_d8", 0x2E),
     ("h_a", 0x67), ("e_d8", 0x1E), ("a_ind_a8", 0xF0), ("a_h", 0x7C), ("c_a", 0x4F), ("a_l", 0x7D), ("a_b", 0x78), ("a_c", 0x79), ("a_ind_hl", 0x7E),
     ("a_a", 0x7F), ("ind_hl_b", 0x70), ("ind_hl_c", 0x71), ("ind_hl_d", 0x72), ("ind_hl_e", 0x73), ("ind_hl_h", 0x74), ("ind_hl_l", 0x75),
     ("a_ind_c", 0xF2), ("sp_hl", 0xF9), ("sp_d16", 0x31)]⟩,
   ⟨"INC", false, false, [
     ("ind_hl", 0x34), ("a", 0x3C), ("d", 0x14), ("bc", 0x03), ("b", 0x04), ("c", 0x0C), ("e", 0x1C), ("hl", 0x23), ("h", 0x24), ("l", 0x2C),
     ("de", 0x13), ("sp", 0x33)]⟩,
   ⟨"JP", true, false, [
     ("c_a16", 0xDA), ("z_a16", 0xCA), ("nc_a16", 0xD2), ("nz_a16", 0xC2), ("ind_hl", 0xE9), ("a16", 0xC3)]⟩,
   ⟨"CALL", true, false, [
     ("c_a16", 0xDC), ("nc_a16", 0xD4), ("z_a16", 0xCC), ("nz_a16", 0xC4), ("a16", 0xCD)]⟩,
   ⟨"XOR", false, false, [
     ("b", 0xA8), ("c", 0xA9), ("d", 0xAA), ("e", 0xAB), ("h", 0xAC), ("l", 0xAD), ("ind_hl", 0xAE), ("a_d8", 0xEE), ("d8", 0xEE), ("a", 0xAF),
     ("a_a", 0xAF)]⟩,
   ⟨"CP", false, false, [
     ("d8", 0xFE), ("a_b", 0xB8), ("b", 0xB8), ("a_c", 0xB9), ("c", 0xB9), ("a_d", 0xBA), ("d", 0xBA), ("a_e", 0xBB), ("e", 0xBB), ("a_h", 0xBC),
     ("h", 0xBC), ("a_l", 0xBD), ("l", 0xBD), ("a_ind_hl", 0xBE), ("ind_hl", 0xBE), ("a_a", 0xBF), ("a", 0xBF)]⟩,
   ⟨"DEC", false, false, [
     ("ind_hl", 0x35), ("b", 0x05), ("a", 0x3D), ("c", 0x0D), ("d", 0x15), ("e", 0x1D), ("h", 0x25), ("l", 0x2D), ("bc", 0x0B), ("de", 0x1B),
     ("hl", 0x2B), ("sp", 0x3B)]⟩,
   ⟨"RET", true, false, [
     ("c", 0xD8), ("nc", 0xD0), ("z", 0xC8), ("nz", 0xC0)]⟩,
   ⟨"AND", false, false, [
     ("b", 0xA0), ("c", 0xA1), ("d", 0xA2), ("e", 0xA3), ("h", 0xA4), ("l", 0xA5), ("ind_hl", 0xA6), ("a", 0xA7), ("d8", 0xE6)]⟩,
   ⟨"OR", false, false, [
     ("a_b", 0xB0), ("b", 0xB0), ("a_c", 0xB1), ("c", 0xB1), ("a_d", 0xB2), ("d", 0xB2), ("a_e", 0xB3), ("e", 0xB3), ("a_h", 0xB4), ("h", 0xB4),
     ("a_l", 0xB5), ("l", 0xB5), ("a_ind_hl", 0xB6), ("ind_hl", 0xB6), ("a_d8", 0xF6), ("d8", 0xF6), ("a_a", 0xB7), ("a", 0xB7)]⟩,
   ⟨"JR", true, true, [
     ("z_r8", 0x28), ("c_r8", 0x38), ("r8", 0x18), ("nc_r8", 0x30), ("nz_r8", 0x20)]⟩,
   ⟨"SUB", false, false, [
     ("b", 0x90), ("c", 0x91), ("d", 0x92), ("e", 0x93), ("h", 0x94), ("l", 0x95), ("ind_hl", 0x96), ("a", 0x97), ("a_d8", 0xD6), ("d8", 0xD6)]⟩,
   ⟨"PUSH", false, false, [
     ("bc", 0xC5), ("hl", 0xE5), ("af", 0xF5), ("de", 0xD5)]⟩,
   ⟨"POP", false, false, [
     ("bc", 0xC1), ("hl", 0xE1), ("af", 0xF1), ("de", 0xD1)]⟩,
   ⟨"ADD", false, false, [
     ("a_b", 0x80), ("a_c", 0x81), ("a_d", 0x82), ("a_e", 0x83), ("a_h", 0x84), ("a_l", 0x85), ("a_a", 0x87), ("ind_hl", 0x86), ("hl_bc", 0x09),
     ("hl_de", 0x19), ("hl_hl", 0x29), ("hl_sp", 0x39), ("a_d8", 0xC6), ("sp_r8", 0xE8), ("a_ind_hl", 0x86)]⟩,
   ⟨"ADC", false, false, [
     ("a_b", 0x88), ("a_c", 0x89), ("a_d", 0x8A), ("a_e", 0x8B), ("a_h", 0x8C), ("a_l", 0x8D), ("a_ind_hl", 0x8E), ("a_a", 0x8F), ("a_d8", 0xCE)]⟩,
   ⟨"SBC", false, false, [
     ("a_b", 0x98), ("a_c", 0x99), ("a_d", 0x9A), ("a_e", 0x9B), ("a_h", 0x9C), ("a_l", 0x9D), ("a_ind_hl", 0x9E), ("a_a", 0x9F), ("a_d8", 0xDE),
     ("d8", 0xDE)]⟩]

/-- lr35902.py:373-659: the keyword arguments of each `_build_cb_opcode` call. -/
def gbCbRows : List (String × List (String × Nat)) :=
  [("BIT", [
     ("b0_b", 0x40), ("b0_c", 0x41), ("b0_d", 0x42), ("b0_e", 0x43), ("b0_h", 0x44), ("b0_l", 0x45), ("b0_ind_hl", 0x46), ("b0_a", 0x47),
     ("b1_b", 0x48), ("b1_c", 0x49), ("b1_d", 0x4A), ("b1_e", 0x4B), ("b1_h", 0x4C), ("b1_l", 0x4D), ("b1_ind_hl", 0x4E), ("b1_a", 0x4F),
     ("b2_b", 0x50), ("b2_c", 0x51), ("b2_d", 0x52), ("b2_e", 0x53), ("b2_h", 0x54), ("b2_l", 0x55), ("b2_ind_hl", 0x56), ("b2_a", 0x57),
     ("b3_b", 0x58), ("b3_c", 0x59), ("b3_d", 0x5A), ("b3_e", 0x5B), ("b3_h", 0x5C), ("b3_l", 0x5D), ("b3_ind_hl", 0x5E), ("b3_a", 0x5F),
     ("b4_b", 0x60), ("b4_c", 0x61), ("b4_d", 0x62), ("b4_e", 0x63), ("b4_h", 0x64), ("b4_l", 0x65), ("b4_ind_hl", 0x66), ("b4_a", 0x67),
     ("b5_b", 0x68), ("b5_c", 0x69), ("b5_d", 0x6A), ("b5_e", 0x6B), ("b5_h", 0x6C), ("b5_l", 0x6D), ("b5_ind_hl", 0x6E), ("b5_a", 0x6F),
     ("b6_b", 0x70), ("b6_c", 0x71), ("b6_d", 0x72), ("b6_e", 0x73), ("b6_h", 0x74), ("b6_l", 0x75), ("b6_ind_hl", 0x76), ("b6_a", 0x77),
     ("b7_b", 0x78), ("b7_c", 0x79), ("b7_d", 0x7A), ("b7_e", 0x7B), ("b7_h", 0x7C), ("b7_l", 0x7D), ("b7_ind_hl", 0x7E), ("b7_a", 0x7F)]),
   ("RES", [
     ("b0_b", 0x80), ("b0_c", 0x81), ("b0_d", 0x82), ("b0_e", 0x83), ("b0_h", 0x84), ("b0_l", 0x85), ("b0_ind_hl", 0x86), ("b0_a", 0x87),
     ("b1_b", 0x88), ("b1_c", 0x89), ("b1_d", 0x8A), ("b1_e", 0x8B), ("b1_h", 0x8C), ("b1_l", 0x8D), ("b1_ind_hl", 0x8E), ("b1_a", 0x8F),
     ("b2_b", 0x90), ("b2_c", 0x91), ("b2_d", 0x92), ("b2_e", 0x93), ("b2_h", 0x94), ("b2_l", 0x95), ("b2_ind_hl", 0x96), ("b2_a", 0x97),
     ("b3_b", 0x98), ("b3_c", 0x99), ("b3_d", 0x9A), ("b3_e", 0x9B), ("b3_h", 0x9C), ("b3_l", 0x9D), ("b3_ind_hl", 0x9E), ("b3_a", 0x9F),
     ("b4_b", 0xA0), ("b4_c", 0xA1), ("b4_d", 0xA2), ("b4_e", 0xA3), ("b4_h", 0xA4), ("b4_l", 0xA5), ("b4_ind_hl", 0xA6), ("b4_a", 0xA7),
     ("b5_b", 0xA8), ("b5_c", 0xA9), ("b5_d", 0xAA), ("b5_e", 0xAB), ("b5_h", 0xAC), ("b5_l", 0xAD), ("b5_ind_hl", 0xAE), ("b5_a", 0xAF),
     ("b6_b", 0xB0), ("b6_c", 0xB1), ("b6_d", 0xB2), ("b6_e", 0xB3), ("b6_h", 0xB4), ("b6_l", 0xB5), ("b6_ind_hl", 0xB6), ("b6_a", 0xB7),
     ("b7_b", 0xB8), ("b7_c", 0xB9), ("b7_d", 0xBA), ("b7_e", 0xBB), ("b7_h", 0xBC), ("b7_l", 0xBD), ("b7_ind_hl", 0xBE), ("b7_a", 0xBF)]),
   ("SET", [
     ("b0_b", 0xC0), ("b0_c", 0xC1), ("b0_d", 0xC2), ("b0_e", 0xC3), ("b0_h", 0xC4), ("b0_l", 0xC5), ("b0_ind_hl", 0xC6), ("b0_a", 0xC7),
     ("b1_b", 0xC8), ("b1_c", 0xC9), ("b1_d", 0xCA), ("b1_e", 0xCB), ("b1_h", 0xCC), ("b1_l", 0xCD), ("b1_ind_hl", 0xCE), ("b1_a", 0xCF),
     ("b2_b", 0xD0), ("b2_c", 0xD1), ("b2_d", 0xD2), ("b2_e", 0xD3), ("b2_h", 0xD4), ("b2_l", 0xD5), ("b2_ind_hl", 0xD6), ("b2_a", 0xD7),
     ("b3_b", 0xD8), ("b3_c", 0xD9), ("b3_d", 0xDA), ("b3_e", 0xDB), ("b3_h", 0xDC), ("b3_l", 0xDD), ("b3_ind_hl", 0xDE), ("b3_a", 0xDF),
     ("b4_b", 0xE0), ("b4_c", 0xE1), ("b4_d", 0xE2), ("b4_e", 0xE3), ("b4_h", 0xE4), ("b4_l", 0xE5), ("b4_ind_hl", 0xE6), ("b4_a", 0xE7),
     ("b5_b", 0xE8), ("b5_c", 0xE9), ("b5_d", 0xEA), ("b5_e", 0xEB), ("b5_h", 0xEC), ("b5_l", 0xED), ("b5_ind_hl", 0xEE), ("b5_a", 0xEF),
     ("b6_b", 0xF0), ("b6_c", 0xF1), ("b6_d", 0xF2), ("b6_e", 0xF3), ("b6_h", 0xF4), ("b6_l", 0xF5), ("b6_ind_hl", 0xF6), ("b6_a", 0xF7),
     ("b7_b", 0xF8), ("b7_c", 0xF9), ("b7_d", 0xFA), ("b7_e", 0xFB), ("b7_h", 0xFC), ("b7_l", 0xFD), ("b7_ind_hl", 0xFE), ("b7_a", 0xFF)]),
   ("RLC", [
     ("b", 0x00), ("c", 0x01), ("d", 0x02), ("e", 0x03), ("h", 0x04), ("l", 0x05), ("ind_hl", 0x06), ("a", 0x07)]),
   ("RRC", [
     ("b", 0x08), ("c", 0x09), ("d", 0x0A), ("e", 0x0B), ("h", 0x0C), ("l", 0x0D), ("ind_hl", 0x0E), ("a", 0x0F)]),
   ("RL", [
     ("b", 0x10), ("c", 0x11), ("d", 0x12), ("e", 0x13), ("h", 0x14), ("l", 0x15), ("ind_hl", 0x16), ("a", 0x17)]),
   ("RR", [
     ("b", 0x18), ("c", 0x19), ("d", 0x1A), ("e", 0x1B), ("h", 0x1C), ("l", 0x1D), ("ind_hl", 0x1E), ("a", 0x1F)]),
   ("SLA", [
     ("b", 0x20), ("c", 0x21), ("d", 0x22), ("e", 0x23), ("h", 0x24), ("l", 0x25), ("ind_hl", 0x26), ("a", 0x27)]),
   ("SRA", [
     ("b", 0x28), ("c", 0x29), ("d", 0x2A), ("e", 0x2B), ("h", 0x2C), ("l", 0x2D), ("ind_hl", 0x2E), ("a", 0x2F)]),
   ("SRL", [
     ("b", 0x38), ("c", 0x39), ("d", 0x3A), ("e", 0x3B), ("h", 0x3C), ("l", 0x3D), ("ind_hl", 0x3E), ("a", 0x3F)]),
   ("SWAP", [
     ("b", 0x30), ("c", 0x31), ("d", 0x32), ("e", 0x33), ("h", 0x34), ("l", 0x35), ("ind_hl", 0x36), ("a", 0x37)])]

/-- `kwargs[key]`; a missing key is `KeyError`, turned into `InvalidOpCodeArguments` (lr35902.py:92-93, 196-197). -/
def gbGet (kw : List (String × Nat)) (key : Str) : Option Nat := (kw.find? fun p => p.1.toList == key).map (·.2)

/-- `pack_byte(kwargs[key])` -/
def gbByte (kw : List (String × Nat)) (key : Str) : H Bytes :=
  match gbGet kw key with
  | none => H.throw .invalidOpCodeArguments
  | some op => H.lift (packByte [some (op : Int)])

/-- `pack_byte(kwargs[key]) + value` -/
def gbByteThen (kw : List (String × Nat)) (key : Str) (value : Bytes) : H (Option Bytes) := do
  let b ← gbByte kw key
  pure (some (b ++ value))

/-- `return pack_byte(kwargs[key])` -/
def gbOnly (kw : List (String × Nat)) (key : Str) : H (Option Bytes) := do
  let b ← gbByte kw key
  pure (some b)

/-- `return pack_byte(0xCB, kwargs[key])` -/
def gbPrefixed (kw : List (String × Nat)) (key : Str) : H (Option Bytes) :=
  match gbGet kw key with
  | none => H.throw .invalidOpCodeArguments
  | some op => hPackByte [0xCB, op]

/-- lr35902.py:52-55 `_data8` -/
def gbData8 (arg : Str) : H Bytes := do
  let v ← H.parseIntegerOrLabel { label := arg, bitsSize := 8, offset := 1, size := 1 }
  H.lift (packByte [some v])

/-- lr35902.py:57-62 `_rel8` -/
def gbRel8 (arg : Str) : H Bytes := do
  let c ← H.read
  let v ← H.parseIntegerOrLabel { label := arg, bitsSize := 8, offset := 1, size := 1, relative := c.pc + 2 }
  H.lift (pack8s [some v])

/-- lr35902.py:64-67 `_data16` -/
def gbData16 (arg : Str) : H Bytes := do
  let v ← H.parseIntegerOrLabel { label := arg, bitsSize := 16, offset := 1, size := 2 }
  H.lift (packLe16u [some v])

/-- lr35902.py:69-70 `_reg_name` -/
def gbName (t : Str) : Str :=
  (lower t).flatMap fun c => if c = '+' then "_plus".toList else if c = '-' then "_minus".toList else [c]

/-- `instr.match('(', p, ')', ...) or instr.match('[', p, ']', ...)`: `pre` and `post` are the patterns around. -/
def gbBracket (tokens : List Str) (pre mid post : List Pat) : Bool :=
  instrMatch tokens (pre ++ [.str ['(']] ++ mid ++ [.str [')']] ++ post) ||
  instrMatch tokens (pre ++ [.str ['[']] ++ mid ++ [.str [']']] ++ post)

/-- lr35902.py:72-93 `_build_cb_opcode` -/
def gbCb (kw : List (String × Nat)) (tokens : List Str) : H (Option Bytes) :=
  let tok (i : Nat) : Str := tokens.getD i []
  let R8 := Pat.coll gbRegs8
  let HL := Pat.str "HL".toList
  let NUM := Pat.pred gbIsNumber
  if instrMatch tokens [R8] then gbPrefixed kw (gbName (tok 1))
  else if gbBracket tokens [] [HL] [] then gbPrefixed kw "ind_hl".toList
  else if instrMatch tokens [NUM, R8] then gbPrefixed kw ("b".toList ++ tok 1 ++ "_".toList ++ gbName (tok 2))
  else if gbBracket tokens [NUM] [HL] [] then gbPrefixed kw ("b".toList ++ tok 1 ++ "_ind_hl".toList)
  else pure none

/-- lr35902.py:95-197 `_build_opcode` -/
def gbBuild (conditional relative : Bool) (kw : List (String × Nat)) (tokens : List Str) : H (Option Bytes) :=
  let tok (i : Nat) : Str := tokens.getD i []
  let R8 := Pat.coll gbRegs8
  let R16 := Pat.coll gbRegs16
  let CC := Pat.coll gbConds
  let V := Pat.pred gbIsValue
  let A := Pat.str ['A']
  let FFC := Pat.str "$FF00+C".toList
  let LDH := Pat.pred gbIsLdh
  if conditional && instrMatch tokens [CC, V] then                        -- 97-103
    if relative then do
      let value ← gbRel8 (tok 2)
      gbByteThen kw (gbName (tok 1) ++ "_r8".toList) value
    else do
      let value ← gbData16 (tok 2)
      gbByteThen kw (gbName (tok 1) ++ "_a16".toList) value
  else if conditional && instrMatch tokens [CC] then                      -- 105-107
    gbOnly kw (gbName (tok 1))
  else if gbBracket tokens [] [FFC] [A] then                              -- 109-110
    gbOnly kw "ind_c_a".toList
  else if gbBracket tokens [] [LDH] [A] then do                           -- 112-114
    let value ← gbData8 ((tok 2).drop 6)
    gbByteThen kw "ind_a8_a".toList value
  else if gbBracket tokens [A] [LDH] [] then do                           -- 116-118
    let value ← gbData8 ((tok 3).drop 6)
    gbByteThen kw "a_ind_a8".toList value
  else if instrMatch tokens [R8, R8] then                                 -- 120-122
    gbOnly kw (gbName (tok 1) ++ "_".toList ++ gbName (tok 2))
  else if instrMatch tokens [R16, R16] then                               -- 124-126
    gbOnly kw (gbName (tok 1) ++ "_".toList ++ gbName (tok 2))
  else if instrMatch tokens [R16, V] then                                 -- 128-133
    if (gbGet kw (gbName (tok 1) ++ "_r8".toList)).isSome then do
      let value ← gbRel8 (tok 2)
      gbByteThen kw (gbName (tok 1) ++ "_r8".toList) value
    else do
      let value ← gbData16 (tok 2)
      gbByteThen kw (gbName (tok 1) ++ "_d16".toList) value
  else if gbBracket tokens [] [R16] [R8] then                             -- 135-138
    gbOnly kw ("ind_".toList ++ gbName (tok 2) ++ "_".toList ++ gbName (tok 4))
  else if instrMatch tokens [R8] then                                     -- 140-142
    gbOnly kw (gbName (tok 1))
  else if instrMatch tokens [R8, V] then do                               -- 144-146
    let value ← gbData8 (tok 2)
    gbByteThen kw (gbName (tok 1) ++ "_d8".toList) value
  else if instrMatch tokens [R16] then                                    -- 148-150
    gbOnly kw (gbName (tok 1))
  else if gbBracket tokens [R8] [R16] [] then                             -- 152-155
    gbOnly kw (gbName (tok 1) ++ "_ind_".toList ++ gbName (tok 3))
  else if gbBracket tokens [R8] [R8] [] then                              -- 157-160
    gbOnly kw (gbName (tok 1) ++ "_ind_".toList ++ gbName (tok 3))
  else if gbBracket tokens [R8] [V] [] then do                            -- 162-165
    let value ← gbData16 (tok 3)
    gbByteThen kw (gbName (tok 1) ++ "_ind_a16".toList) value
  else if gbBracket tokens [] [R16] [] then                               -- 167-170
    gbOnly kw ("ind_".toList ++ gbName (tok 2))
  else if gbBracket tokens [] [V] [R16] then do                           -- 172-175
    let value ← gbData16 (tok 2)
    gbByteThen kw ("ind_a16_".toList ++ gbName (tok 4)) value
  else if gbBracket tokens [] [V] [R8] then do                            -- 177-180
    let value ← gbData16 (tok 2)
    gbByteThen kw ("ind_a16_".toList ++ gbName (tok 4)) value
  else if gbBracket tokens [] [R16] [V] then do                           -- 182-185
    let value ← gbData8 (tok 4)
    gbByteThen kw ("ind_".toList ++ gbName (tok 2) ++ "_d8".toList) value
  else if instrMatch tokens [V] then                                      -- 187-199
    if (gbGet kw "r8".toList).isSome then do
      let value ← gbRel8 (tok 1)
      gbByteThen kw "r8".toList value
    else if (gbGet kw "d8".toList).isSome then do
      let value ← gbData8 (tok 1)
      gbByteThen kw "d8".toList value
    else if (gbGet kw "d16".toList).isSome then do
      let value ← gbData16 (tok 1)
      gbByteThen kw "d16".toList value
    else if (gbGet kw "a16".toList).isSome then do
      let value ← gbData16 (tok 1)
      gbByteThen kw "a16".toList value
    else pure none
  else pure none

/-- lr35902.py:199-206 `_ldh` -/
def gbLdh (tokens : List Str) : H (Option Bytes) :=
  let tok (i : Nat) : Str := tokens.getD i []
  let V := Pat.pred gbIsValue
  let A := Pat.str ['A']
  if gbBracket tokens [] [V] [A] then do
    let a8 ← gbData8 (tok 2)
    let b ← H.lift (packByte [some 0xE0])
    pure (some (b ++ a8))
  else if gbBracket tokens [A] [V] [] then do
    let a8 ← gbData8 (tok 3)
    let b ← H.lift (packByte [some 0xF0])
    pure (some (b ++ a8))
  else pure none

/-- lr35902.py:208-218: what `_ld` does before `_build_opcode`. -/
def gbLd (row : GbRow) (tokens : List Str) : H (Option Bytes) :=
  let second := tokens.getD 2 []
  if 2 < tokens.length && startsWith second "SP+".toList then do
    let value ← gbRel8 (second.drop 3)
    let b ← H.lift (packByte [some 0xF8])
    pure (some (b ++ value))
  else if 2 < tokens.length && startsWith second "SP-".toList then do
    let value ← gbRel8 (second.drop 2)
    let b ← H.lift (packByte [some 0xF8])
    pure (some (b ++ value))
  else gbBuild row.conditional row.relative row.args tokens

/-- lr35902.py:689-698 `_ret` -/
def gbRet (row : GbRow) (tokens : List Str) : H (Option Bytes) :=
  if tokens.length = 1 then pure (some [0xC9]) else gbBuild row.conditional row.relative row.args tokens

/-- lr35902.py:813-816 `_stop` -/
def gbStop (tokens : List Str) : H (Option Bytes) :=
  if tokens.length = 1 || instrMatch tokens [.str ['0']] then hPackByte [0x10, 0x00] else pure none

/-- lr35902.py:820-821 -/
def gbVectors : List (String × Nat) :=
  [("00H", 0xC7), ("08H", 0xCF), ("10H", 0xD7), ("18H", 0xDF), ("20H", 0xE7), ("28H", 0xEF), ("30H", 0xF7), ("38H", 0xFF)]

/-- lr35902.py:818-823 `_rst` -/
def gbRst (tokens : List Str) : H (Option Bytes) :=
  if instrMatch tokens [.coll (gbVectors.map fun p => p.1.toList)] then
    match gbGet gbVectors (upper (tokens.getD 1 [])) with
    | none => H.throw .keyError
    | some op => hPackByte [op]
  else pure none

/-- The method of a `_build_opcode` row. -/
def gbMethod (row : GbRow) : List Str → H (Option Bytes) :=
  if row.name = "LD" then gbLd row
  else if row.name = "RET" then gbRet row
  else gbBuild row.conditional row.relative row.args

/-- All `@opcode` methods and registered instructions. -/
def gbInstr (key : Str) : Option InstrDef :=
  match gbFixed.find? fun p => p.1.toList == key with
  | some p => some (.fixed [BitVec.ofNat 8 p.2])
  | none =>
    match gbRows.find? fun r => r.name.toList == key with
    | some r => some (.handler (gbMethod r))
    | none =>
      match gbCbRows.find? fun r => r.1.toList == key with
      | some r => some (.handler (gbCb r.2))
      | none =>
        if key = "LDH".toList then some (.handler gbLdh)
        else if key = "STOP".toList then some (.handler gbStop)
        else if key = "RST".toList then some (.handler gbRst)
        else none

/-- lr35902.py:27-34 `AssemblerLR35902` -/
def lr35902 : Dialect where
  sy := { hexPrefixes := [['$']], binPrefixes := [['%']], octPrefixes := [['@']] }
  instrs := gbInstr

end Necro
