import Verif.Model.Harness
import Verif.Model.Cpu.Lr35902
/-!
Inputs and expected outputs of /repo/tests/test_lr35902.py, run through the model.
Generated from the text of that file.
-/

namespace Necro

-- test_ld_a_hl_plus
example : runCalls lr35902 [.assemble "LD A,(HL+)"] =
    .ok [0x2A] := by decide +kernel

-- test_ld_line0
example : runCalls lr35902 [.assemble "NOP\nloop: LD BC, $17\nLD (BC),A\nLD B,$22\nLD (loop),SP\nLD A,(BC)\nLD C,$30", .link] =
    .ok [0x00, 0x01, 0x17, 0x00, 0x02, 0x06, 0x22, 0x08, 0x01, 0x00, 0x0A, 0x0E, 0x30] := by decide +kernel

-- test_inc_line0
example : runCalls lr35902 [.assemble "INC BC\nINC B\nINC C"] =
    .ok [0x03, 0x04, 0x0C] := by decide +kernel

-- test_ld_ff_ind_a
example : runCalls lr35902 [.assemble "LD [$FF40], A"] =
    .ok [0xEA, 0x40, 0xFF] := by decide +kernel

-- test_jr
example : runCalls lr35902 [.assemble "JR NZ,-1"] =
    .ok [0x20, 0xFF] := by decide +kernel

-- test_jr_label
example : runCalls lr35902 [.assemble "start:NOP\nJR NZ,start", .link] =
    .ok [0x00, 0x20, 0xFD] := by decide +kernel

-- test_line0_0_7
example : runCalls lr35902 [.assemble "NOP", .assemble "LD BC,$17", .assemble "LD (BC), A", .assemble "INC BC", .assemble "INC B", .assemble "DEC B", .assemble "LD B, $22", .assemble "RLCA"] =
    .ok [0x00, 0x01, 0x17, 0x00, 0x02, 0x03, 0x04, 0x05, 0x06, 0x22, 0x07] := by decide +kernel

-- test_line0_8_f
example : runCalls lr35902 [.assemble "LD ($30), SP", .assemble "ADD HL,BC", .assemble "LD A,(BC)", .assemble "DEC BC", .assemble "INC C", .assemble "DEC C", .assemble "LD C, $17", .assemble "RRCA"] =
    .ok [0x08, 0x30, 0x00, 0x09, 0x0A, 0x0B, 0x0C, 0x0D, 0x0E, 0x17, 0x0F] := by decide +kernel

-- test_line1_0_7
example : runCalls lr35902 [.assemble "STOP", .assemble "LD DE,$17", .assemble "LD (DE), A", .assemble "INC DE", .assemble "INC D", .assemble "DEC D", .assemble "LD D, $22", .assemble "RLA"] =
    .ok [0x10, 0x00, 0x11, 0x17, 0x00, 0x12, 0x13, 0x14, 0x15, 0x16, 0x22, 0x17] := by decide +kernel

-- test_line1_8_f
example : runCalls lr35902 [.assemble "JR $30", .assemble "ADD HL,DE", .assemble "LD A,(DE)", .assemble "DEC DE", .assemble "INC E", .assemble "DEC E", .assemble "LD E, $17", .assemble "RRA"] =
    .ok [0x18, 0x30, 0x19, 0x1A, 0x1B, 0x1C, 0x1D, 0x1E, 0x17, 0x1F] := by decide +kernel

-- test_jp
example : runCalls lr35902 [.assemble "JP NZ, $1234", .assemble "JP $1234", .assemble "JP Z, $1234", .assemble "JP NC, $1234", .assemble "JP C, $1234", .assemble "JP (HL)"] =
    .ok [0xC2, 0x34, 0x12, 0xC3, 0x34, 0x12, 0xCA, 0x34, 0x12, 0xD2, 0x34, 0x12, 0xDA, 0x34, 0x12, 0xE9] := by decide +kernel

-- test_line2_0_7
example : runCalls lr35902 [.assemble "JR NZ,-1", .assemble "LD HL,$17", .assemble "LD (HL+), A", .assemble "INC HL", .assemble "INC H", .assemble "DEC H", .assemble "LD H, $22", .assemble "DAA"] =
    .ok [0x20, 0xFF, 0x21, 0x17, 0x00, 0x22, 0x23, 0x24, 0x25, 0x26, 0x22, 0x27] := by decide +kernel

-- test_line2_8_f
example : runCalls lr35902 [.assemble "JR Z,-2", .assemble "ADD HL,HL", .assemble "LD A,(HL+)", .assemble "DEC HL", .assemble "INC L", .assemble "DEC L", .assemble "LD L, $17", .assemble "CPL"] =
    .ok [0x28, 0xFE, 0x29, 0x2A, 0x2B, 0x2C, 0x2D, 0x2E, 0x17, 0x2F] := by decide +kernel

-- test_line3_0_7
example : runCalls lr35902 [.assemble "JR NC,-1", .assemble "LD SP,$17", .assemble "LD (HL-), A", .assemble "INC SP", .assemble "INC (HL)", .assemble "DEC (HL)", .assemble "LD (HL), $22", .assemble "SCF"] =
    .ok [0x30, 0xFF, 0x31, 0x17, 0x00, 0x32, 0x33, 0x34, 0x35, 0x36, 0x22, 0x37] := by decide +kernel

-- test_line3_8_f
example : runCalls lr35902 [.assemble "JR C,-2", .assemble "ADD HL,SP", .assemble "LD A,(HL-)", .assemble "DEC SP", .assemble "INC A", .assemble "DEC A", .assemble "LD A, $17", .assemble "CCF"] =
    .ok [0x38, 0xFE, 0x39, 0x3A, 0x3B, 0x3C, 0x3D, 0x3E, 0x17, 0x3F] := by decide +kernel

-- test_line4_0_7
example : runCalls lr35902 [.assemble "LD B,B", .assemble "LD B,C", .assemble "LD B,D", .assemble "LD B,E", .assemble "LD B,H", .assemble "LD B,L", .assemble "LD B, (HL)", .assemble "LD B,A"] =
    .ok [0x40, 0x41, 0x42, 0x43, 0x44, 0x45, 0x46, 0x47] := by decide +kernel

-- test_line4_8_f
example : runCalls lr35902 [.assemble "LD C,B", .assemble "LD C,C", .assemble "LD C,D", .assemble "LD C,E", .assemble "LD C,H", .assemble "LD C,L", .assemble "LD C,(HL)", .assemble "LD C,A"] =
    .ok [0x48, 0x49, 0x4A, 0x4B, 0x4C, 0x4D, 0x4E, 0x4F] := by decide +kernel

-- test_line5_0_7
example : runCalls lr35902 [.assemble "LD D,B", .assemble "LD D,C", .assemble "LD D,D", .assemble "LD D,E", .assemble "LD D,H", .assemble "LD D,L", .assemble "LD D, (HL)", .assemble "LD D,A"] =
    .ok [0x50, 0x51, 0x52, 0x53, 0x54, 0x55, 0x56, 0x57] := by decide +kernel

-- test_line5_8_f
example : runCalls lr35902 [.assemble "LD E,B", .assemble "LD E,C", .assemble "LD E,D", .assemble "LD E,E", .assemble "LD E,H", .assemble "LD E,L", .assemble "LD E,(HL)", .assemble "LD E,A"] =
    .ok [0x58, 0x59, 0x5A, 0x5B, 0x5C, 0x5D, 0x5E, 0x5F] := by decide +kernel

-- test_line6_0_7
example : runCalls lr35902 [.assemble "LD H,B", .assemble "LD H,C", .assemble "LD H,D", .assemble "LD H,E", .assemble "LD H,H", .assemble "LD H,L", .assemble "LD H, (HL)", .assemble "LD H,A"] =
    .ok [0x60, 0x61, 0x62, 0x63, 0x64, 0x65, 0x66, 0x67] := by decide +kernel

-- test_line6_8_f
example : runCalls lr35902 [.assemble "LD L,B", .assemble "LD L,C", .assemble "LD L,D", .assemble "LD L,E", .assemble "LD L,H", .assemble "LD L,L", .assemble "LD L,(HL)", .assemble "LD L,A"] =
    .ok [0x68, 0x69, 0x6A, 0x6B, 0x6C, 0x6D, 0x6E, 0x6F] := by decide +kernel

-- test_line7_0_7
example : runCalls lr35902 [.assemble "LD (HL),B", .assemble "LD (HL),C", .assemble "LD (HL),D", .assemble "LD (HL),E", .assemble "LD (HL),H", .assemble "LD (HL),L", .assemble "HALT", .assemble "LD (HL),A"] =
    .ok [0x70, 0x71, 0x72, 0x73, 0x74, 0x75, 0x76, 0x77] := by decide +kernel

-- test_line7_8_f
example : runCalls lr35902 [.assemble "LD A,B", .assemble "LD A,C", .assemble "LD A,D", .assemble "LD A,E", .assemble "LD A,H", .assemble "LD A,L", .assemble "LD A,(HL)", .assemble "LD A,A"] =
    .ok [0x78, 0x79, 0x7A, 0x7B, 0x7C, 0x7D, 0x7E, 0x7F] := by decide +kernel

-- test_line8_0_7
example : runCalls lr35902 [.assemble "ADD A,B", .assemble "ADD A,C", .assemble "ADD A,D", .assemble "ADD A,E", .assemble "ADD A,H", .assemble "ADD A,L", .assemble "ADD A,(HL)", .assemble "ADD A,A"] =
    .ok [0x80, 0x81, 0x82, 0x83, 0x84, 0x85, 0x86, 0x87] := by decide +kernel

-- test_line8_8_f
example : runCalls lr35902 [.assemble "ADC A,B", .assemble "ADC A,C", .assemble "ADC A,D", .assemble "ADC A,E", .assemble "ADC A,H", .assemble "ADC A,L", .assemble "ADC A,(HL)", .assemble "ADC A,A"] =
    .ok [0x88, 0x89, 0x8A, 0x8B, 0x8C, 0x8D, 0x8E, 0x8F] := by decide +kernel

-- test_line9_0_7
example : runCalls lr35902 [.assemble "SUB B", .assemble "SUB C", .assemble "SUB D", .assemble "SUB E", .assemble "SUB H", .assemble "SUB L", .assemble "SUB (HL)", .assemble "SUB A"] =
    .ok [0x90, 0x91, 0x92, 0x93, 0x94, 0x95, 0x96, 0x97] := by decide +kernel

-- test_line9_8_f
example : runCalls lr35902 [.assemble "SBC A,B", .assemble "SBC A,C", .assemble "SBC A,D", .assemble "SBC A,E", .assemble "SBC A,H", .assemble "SBC A,L", .assemble "SBC A,(HL)", .assemble "SBC A,A"] =
    .ok [0x98, 0x99, 0x9A, 0x9B, 0x9C, 0x9D, 0x9E, 0x9F] := by decide +kernel

-- test_lineA_0_7
example : runCalls lr35902 [.assemble "AND B", .assemble "AND C", .assemble "AND D", .assemble "AND E", .assemble "AND H", .assemble "AND L", .assemble "AND (HL)", .assemble "AND A"] =
    .ok [0xA0, 0xA1, 0xA2, 0xA3, 0xA4, 0xA5, 0xA6, 0xA7] := by decide +kernel

-- test_lineA_8_f
example : runCalls lr35902 [.assemble "XOR B", .assemble "XOR C", .assemble "XOR D", .assemble "XOR E", .assemble "XOR H", .assemble "XOR L", .assemble "XOR (HL)", .assemble "XOR A"] =
    .ok [0xA8, 0xA9, 0xAA, 0xAB, 0xAC, 0xAD, 0xAE, 0xAF] := by decide +kernel

-- test_lineB_0_7
example : runCalls lr35902 [.assemble "OR B", .assemble "OR C", .assemble "OR D", .assemble "OR E", .assemble "OR H", .assemble "OR L", .assemble "OR (HL)", .assemble "OR A"] =
    .ok [0xB0, 0xB1, 0xB2, 0xB3, 0xB4, 0xB5, 0xB6, 0xB7] := by decide +kernel

-- test_lineB_8_f
example : runCalls lr35902 [.assemble "CP B", .assemble "CP C", .assemble "CP D", .assemble "CP E", .assemble "CP H", .assemble "CP L", .assemble "CP (HL)", .assemble "CP A"] =
    .ok [0xB8, 0xB9, 0xBA, 0xBB, 0xBC, 0xBD, 0xBE, 0xBF] := by decide +kernel

-- test_lineC_0_7
example : runCalls lr35902 [.assemble "RET NZ", .assemble "POP BC", .assemble "JP NZ, $1234", .assemble "JP $5678", .assemble "CALL NZ, $1122", .assemble "PUSH BC", .assemble "ADD A, -1", .assemble "RST 00H"] =
    .ok [0xC0, 0xC1, 0xC2, 0x34, 0x12, 0xC3, 0x78, 0x56, 0xC4, 0x22, 0x11, 0xC5, 0xC6, 0xFF, 0xC7] := by decide +kernel

-- test_lineC_8_f
example : runCalls lr35902 [.assemble "RET Z", .assemble "RET", .assemble "JP Z,$1234", .assemble "CALL Z, $5678", .assemble "CALL $1111", .assemble "ADC A, -2", .assemble "RST 08H"] =
    .ok [0xC8, 0xC9, 0xCA, 0x34, 0x12, 0xCC, 0x78, 0x56, 0xCD, 0x11, 0x11, 0xCE, 0xFE, 0xCF] := by decide +kernel

-- test_lineD_0_7
example : runCalls lr35902 [.assemble "RET NC", .assemble "POP DE", .assemble "JP NC, $1234", .assemble "CALL NC, $1122", .assemble "PUSH DE", .assemble "SUB A, -1", .assemble "RST 10H"] =
    .ok [0xD0, 0xD1, 0xD2, 0x34, 0x12, 0xD4, 0x22, 0x11, 0xD5, 0xD6, 0xFF, 0xD7] := by decide +kernel

-- test_lineD_8_f
example : runCalls lr35902 [.assemble "RET C", .assemble "RETI", .assemble "JP C,$1234", .assemble "CALL C, $5678", .assemble "SBC A, -3", .assemble "RST 18H"] =
    .ok [0xD8, 0xD9, 0xDA, 0x34, 0x12, 0xDC, 0x78, 0x56, 0xDE, 0xFD, 0xDF] := by decide +kernel

-- test_lineE_0_7
example : runCalls lr35902 [.assemble "LDH ($12), A", .assemble "POP HL", .assemble "LD (C), A", .assemble "PUSH HL", .assemble "AND -3", .assemble "RST 20H"] =
    .ok [0xE0, 0x12, 0xE1, 0xE2, 0xE5, 0xE6, 0xFD, 0xE7] := by decide +kernel

-- test_lineE_8_f
example : runCalls lr35902 [.assemble "ADD SP, -1", .assemble "JP (HL)", .assemble "LD ($1234), A", .assemble "XOR -4", .assemble "RST 28H"] =
    .ok [0xE8, 0xFF, 0xE9, 0xEA, 0x34, 0x12, 0xEE, 0xFC, 0xEF] := by decide +kernel

-- test_lineF_0_7
example : runCalls lr35902 [.assemble "LDH A, ($12)", .assemble "POP AF", .assemble "LD A, (C)", .assemble "DI", .assemble "PUSH AF", .assemble "OR -4", .assemble "RST 30H"] =
    .ok [0xF0, 0x12, 0xF1, 0xF2, 0xF3, 0xF5, 0xF6, 0xFC, 0xF7] := by decide +kernel

-- test_lineF_8_f
example : runCalls lr35902 [.assemble "LD Hl, SP-1", .assemble "LD SP, HL", .assemble "LD A, ($1234)", .assemble "EI", .assemble "CP 1", .assemble "RST 38H"] =
    .ok [0xF8, 0xFF, 0xF9, 0xFA, 0x34, 0x12, 0xFB, 0xFE, 0x01, 0xFF] := by decide +kernel

-- test_ld_sp_rel8
example : runCalls lr35902 [.assemble "LD HL, SP+4", .assemble "LD HL, SP+-3", .assemble "LD HL, SP-2"] =
    .ok [0xF8, 0x04, 0xF8, 0xFD, 0xF8, 0xFE] := by decide +kernel

-- test_cb_line0_0_7
example : runCalls lr35902 [.assemble "RLC B\nRLC C\nRLC D\nRLC E\nRLC H\nRLC L\nRLC (HL)\nRLC A"] =
    .ok [0xCB, 0x00, 0xCB, 0x01, 0xCB, 0x02, 0xCB, 0x03, 0xCB, 0x04, 0xCB, 0x05, 0xCB, 0x06, 0xCB, 0x07] := by decide +kernel

-- test_cb_line0_8_f
example : runCalls lr35902 [.assemble "RRC B\nRRC C\nRRC D\nRRC E\nRRC H\nRRC L\nRRC (HL)\nRRC A"] =
    .ok [0xCB, 0x08, 0xCB, 0x09, 0xCB, 0x0A, 0xCB, 0x0B, 0xCB, 0x0C, 0xCB, 0x0D, 0xCB, 0x0E, 0xCB, 0x0F] := by decide +kernel

-- test_cb_line1_0_7
example : runCalls lr35902 [.assemble "RL B\nRL C\nRL D\nRL E\nRL H\nRL L\nRL (HL)\nRL A"] =
    .ok [0xCB, 0x10, 0xCB, 0x11, 0xCB, 0x12, 0xCB, 0x13, 0xCB, 0x14, 0xCB, 0x15, 0xCB, 0x16, 0xCB, 0x17] := by decide +kernel

-- test_cb_line1_8_f
example : runCalls lr35902 [.assemble "RR B\nRR C\nRR D\nRR E\nRR H\nRR L\nRR (HL)\nRR A"] =
    .ok [0xCB, 0x18, 0xCB, 0x19, 0xCB, 0x1A, 0xCB, 0x1B, 0xCB, 0x1C, 0xCB, 0x1D, 0xCB, 0x1E, 0xCB, 0x1F] := by decide +kernel

-- test_cb_line2_0_7
example : runCalls lr35902 [.assemble "SLA B\nSLA C\nSLA D\nSLA E\nSLA H\nSLA L\nSLA (HL)\nSLA A"] =
    .ok [0xCB, 0x20, 0xCB, 0x21, 0xCB, 0x22, 0xCB, 0x23, 0xCB, 0x24, 0xCB, 0x25, 0xCB, 0x26, 0xCB, 0x27] := by decide +kernel

-- test_cb_line2_8_f
example : runCalls lr35902 [.assemble "SRA B\nSRA C\nSRA D\nSRA E\nSRA H\nSRA L\nSRA (HL)\nSRA A"] =
    .ok [0xCB, 0x28, 0xCB, 0x29, 0xCB, 0x2A, 0xCB, 0x2B, 0xCB, 0x2C, 0xCB, 0x2D, 0xCB, 0x2E, 0xCB, 0x2F] := by decide +kernel

-- test_cb_line3_0_7
example : runCalls lr35902 [.assemble "SWAP B\nSWAP C\nSWAP D\nSWAP E\nSWAP H\nSWAP L\nSWAP (HL)\nSWAP A"] =
    .ok [0xCB, 0x30, 0xCB, 0x31, 0xCB, 0x32, 0xCB, 0x33, 0xCB, 0x34, 0xCB, 0x35, 0xCB, 0x36, 0xCB, 0x37] := by decide +kernel

-- test_cb_line3_8_f
example : runCalls lr35902 [.assemble "SRL B\nSRL C\nSRL D\nSRL E\nSRL H\nSRL L\nSRL (HL)\nSRL A"] =
    .ok [0xCB, 0x38, 0xCB, 0x39, 0xCB, 0x3A, 0xCB, 0x3B, 0xCB, 0x3C, 0xCB, 0x3D, 0xCB, 0x3E, 0xCB, 0x3F] := by decide +kernel

-- test_cb_line4_0_7
example : runCalls lr35902 [.assemble "BIT 0, B\nBIT 0,C\nBIT 0, D\nBIT 0, E\nBIT 0, H\nBIT 0, L\nBIT 0, (HL)\nBIT 0, A"] =
    .ok [0xCB, 0x40, 0xCB, 0x41, 0xCB, 0x42, 0xCB, 0x43, 0xCB, 0x44, 0xCB, 0x45, 0xCB, 0x46, 0xCB, 0x47] := by decide +kernel

-- test_cb_line4_8_f
example : runCalls lr35902 [.assemble "BIT 1, B\nBIT 1,C\nBIT 1, D\nBIT 1, E\nBIT 1, H\nBIT 1, L\nBIT 1, (HL)\nBIT 1, A"] =
    .ok [0xCB, 0x48, 0xCB, 0x49, 0xCB, 0x4A, 0xCB, 0x4B, 0xCB, 0x4C, 0xCB, 0x4D, 0xCB, 0x4E, 0xCB, 0x4F] := by decide +kernel

-- test_cb_line5_0_7
example : runCalls lr35902 [.assemble "BIT 2, B\nBIT 2,C\nBIT 2, D\nBIT 2, E\nBIT 2, H\nBIT 2, L\nBIT 2, (HL)\nBIT 2, A"] =
    .ok [0xCB, 0x50, 0xCB, 0x51, 0xCB, 0x52, 0xCB, 0x53, 0xCB, 0x54, 0xCB, 0x55, 0xCB, 0x56, 0xCB, 0x57] := by decide +kernel

-- test_cb_line5_8_f
example : runCalls lr35902 [.assemble "BIT 3, B\nBIT 3,C\nBIT 3, D\nBIT 3, E\nBIT 3, H\nBIT 3, L\nBIT 3, (HL)\nBIT 3, A"] =
    .ok [0xCB, 0x58, 0xCB, 0x59, 0xCB, 0x5A, 0xCB, 0x5B, 0xCB, 0x5C, 0xCB, 0x5D, 0xCB, 0x5E, 0xCB, 0x5F] := by decide +kernel

-- test_cb_line6_0_7
example : runCalls lr35902 [.assemble "BIT 4, B\nBIT 4,C\nBIT 4, D\nBIT 4, E\nBIT 4, H\nBIT 4, L\nBIT 4, (HL)\nBIT 4, A"] =
    .ok [0xCB, 0x60, 0xCB, 0x61, 0xCB, 0x62, 0xCB, 0x63, 0xCB, 0x64, 0xCB, 0x65, 0xCB, 0x66, 0xCB, 0x67] := by decide +kernel

-- test_cb_line6_8_f
example : runCalls lr35902 [.assemble "BIT 5, B\nBIT 5,C\nBIT 5, D\nBIT 5, E\nBIT 5, H\nBIT 5, L\nBIT 5, (HL)\nBIT 5, A"] =
    .ok [0xCB, 0x68, 0xCB, 0x69, 0xCB, 0x6A, 0xCB, 0x6B, 0xCB, 0x6C, 0xCB, 0x6D, 0xCB, 0x6E, 0xCB, 0x6F] := by decide +kernel

-- test_cb_line7_0_7
example : runCalls lr35902 [.assemble "BIT 6, B\nBIT 6,C\nBIT 6, D\nBIT 6, E\nBIT 6, H\nBIT 6, L\nBIT 6, (HL)\nBIT 6, A"] =
    .ok [0xCB, 0x70, 0xCB, 0x71, 0xCB, 0x72, 0xCB, 0x73, 0xCB, 0x74, 0xCB, 0x75, 0xCB, 0x76, 0xCB, 0x77] := by decide +kernel

-- test_cb_line7_8_f
example : runCalls lr35902 [.assemble "BIT 7, B\nBIT 7,C\nBIT 7, D\nBIT 7, E\nBIT 7, H\nBIT 7, L\nBIT 7, (HL)\nBIT 7, A"] =
    .ok [0xCB, 0x78, 0xCB, 0x79, 0xCB, 0x7A, 0xCB, 0x7B, 0xCB, 0x7C, 0xCB, 0x7D, 0xCB, 0x7E, 0xCB, 0x7F] := by decide +kernel

-- test_cb_line8_0_7
example : runCalls lr35902 [.assemble "RES 0, B\nRES 0,C\nRES 0, D\nRES 0, E\nRES 0, H\nRES 0, L\nRES 0, (HL)\nRES 0, A"] =
    .ok [0xCB, 0x80, 0xCB, 0x81, 0xCB, 0x82, 0xCB, 0x83, 0xCB, 0x84, 0xCB, 0x85, 0xCB, 0x86, 0xCB, 0x87] := by decide +kernel

-- test_cb_line8_8_f
example : runCalls lr35902 [.assemble "RES 1, B\nRES 1,C\nRES 1, D\nRES 1, E\nRES 1, H\nRES 1, L\nRES 1, (HL)\nRES 1, A"] =
    .ok [0xCB, 0x88, 0xCB, 0x89, 0xCB, 0x8A, 0xCB, 0x8B, 0xCB, 0x8C, 0xCB, 0x8D, 0xCB, 0x8E, 0xCB, 0x8F] := by decide +kernel

-- test_cb_line9_0_7
example : runCalls lr35902 [.assemble "RES 2, B\nRES 2,C\nRES 2, D\nRES 2, E\nRES 2, H\nRES 2, L\nRES 2, (HL)\nRES 2, A"] =
    .ok [0xCB, 0x90, 0xCB, 0x91, 0xCB, 0x92, 0xCB, 0x93, 0xCB, 0x94, 0xCB, 0x95, 0xCB, 0x96, 0xCB, 0x97] := by decide +kernel

-- test_cb_line9_8_f
example : runCalls lr35902 [.assemble "RES 3, B\nRES 3,C\nRES 3, D\nRES 3, E\nRES 3, H\nRES 3, L\nRES 3, (HL)\nRES 3, A"] =
    .ok [0xCB, 0x98, 0xCB, 0x99, 0xCB, 0x9A, 0xCB, 0x9B, 0xCB, 0x9C, 0xCB, 0x9D, 0xCB, 0x9E, 0xCB, 0x9F] := by decide +kernel

-- test_cb_lineA_0_7
example : runCalls lr35902 [.assemble "RES 4, B\nRES 4,C\nRES 4, D\nRES 4, E\nRES 4, H\nRES 4, L\nRES 4, (HL)\nRES 4, A"] =
    .ok [0xCB, 0xA0, 0xCB, 0xA1, 0xCB, 0xA2, 0xCB, 0xA3, 0xCB, 0xA4, 0xCB, 0xA5, 0xCB, 0xA6, 0xCB, 0xA7] := by decide +kernel

-- test_cb_lineA_8_f
example : runCalls lr35902 [.assemble "RES 5, B\nRES 5,C\nRES 5, D\nRES 5, E\nRES 5, H\nRES 5, L\nRES 5, (HL)\nRES 5, A"] =
    .ok [0xCB, 0xA8, 0xCB, 0xA9, 0xCB, 0xAA, 0xCB, 0xAB, 0xCB, 0xAC, 0xCB, 0xAD, 0xCB, 0xAE, 0xCB, 0xAF] := by decide +kernel

-- test_cb_lineB_0_7
example : runCalls lr35902 [.assemble "RES 6, B\nRES 6,C\nRES 6, D\nRES 6, E\nRES 6, H\nRES 6, L\nRES 6, (HL)\nRES 6, A"] =
    .ok [0xCB, 0xB0, 0xCB, 0xB1, 0xCB, 0xB2, 0xCB, 0xB3, 0xCB, 0xB4, 0xCB, 0xB5, 0xCB, 0xB6, 0xCB, 0xB7] := by decide +kernel

-- test_cb_lineB_8_f
example : runCalls lr35902 [.assemble "RES 7, B\nRES 7,C\nRES 7, D\nRES 7, E\nRES 7, H\nRES 7, L\nRES 7, (HL)\nRES 7, A"] =
    .ok [0xCB, 0xB8, 0xCB, 0xB9, 0xCB, 0xBA, 0xCB, 0xBB, 0xCB, 0xBC, 0xCB, 0xBD, 0xCB, 0xBE, 0xCB, 0xBF] := by decide +kernel

-- test_cb_lineC_0_7
example : runCalls lr35902 [.assemble "SET 0, B\nSET 0,C\nSET 0, D\nSET 0, E\nSET 0, H\nSET 0, L\nSET 0, (HL)\nSET 0, A"] =
    .ok [0xCB, 0xC0, 0xCB, 0xC1, 0xCB, 0xC2, 0xCB, 0xC3, 0xCB, 0xC4, 0xCB, 0xC5, 0xCB, 0xC6, 0xCB, 0xC7] := by decide +kernel

-- test_cb_lineC_8_f
example : runCalls lr35902 [.assemble "SET 1, B\nSET 1,C\nSET 1, D\nSET 1, E\nSET 1, H\nSET 1, L\nSET 1, (HL)\nSET 1, A"] =
    .ok [0xCB, 0xC8, 0xCB, 0xC9, 0xCB, 0xCA, 0xCB, 0xCB, 0xCB, 0xCC, 0xCB, 0xCD, 0xCB, 0xCE, 0xCB, 0xCF] := by decide +kernel

-- test_cb_lineD_0_7
example : runCalls lr35902 [.assemble "SET 2, B\nSET 2,C\nSET 2, D\nSET 2, E\nSET 2, H\nSET 2, L\nSET 2, (HL)\nSET 2, A"] =
    .ok [0xCB, 0xD0, 0xCB, 0xD1, 0xCB, 0xD2, 0xCB, 0xD3, 0xCB, 0xD4, 0xCB, 0xD5, 0xCB, 0xD6, 0xCB, 0xD7] := by decide +kernel

-- test_cb_lineD_8_f
example : runCalls lr35902 [.assemble "SET 3, B\nSET 3,C\nSET 3, D\nSET 3, E\nSET 3, H\nSET 3, L\nSET 3, (HL)\nSET 3, A"] =
    .ok [0xCB, 0xD8, 0xCB, 0xD9, 0xCB, 0xDA, 0xCB, 0xDB, 0xCB, 0xDC, 0xCB, 0xDD, 0xCB, 0xDE, 0xCB, 0xDF] := by decide +kernel

-- test_cb_lineE_0_7
example : runCalls lr35902 [.assemble "SET 4, B\nSET 4,C\nSET 4, D\nSET 4, E\nSET 4, H\nSET 4, L\nSET 4, (HL)\nSET 4, A"] =
    .ok [0xCB, 0xE0, 0xCB, 0xE1, 0xCB, 0xE2, 0xCB, 0xE3, 0xCB, 0xE4, 0xCB, 0xE5, 0xCB, 0xE6, 0xCB, 0xE7] := by decide +kernel

-- test_cb_lineE_8_f
example : runCalls lr35902 [.assemble "SET 5, B\nSET 5,C\nSET 5, D\nSET 5, E\nSET 5, H\nSET 5, L\nSET 5, (HL)\nSET 5, A"] =
    .ok [0xCB, 0xE8, 0xCB, 0xE9, 0xCB, 0xEA, 0xCB, 0xEB, 0xCB, 0xEC, 0xCB, 0xED, 0xCB, 0xEE, 0xCB, 0xEF] := by decide +kernel

-- test_cb_lineF_0_7
example : runCalls lr35902 [.assemble "SET 6, B\nSET 6,C\nSET 6, D\nSET 6, E\nSET 6, H\nSET 6, L\nSET 6, (HL)\nSET 6, A"] =
    .ok [0xCB, 0xF0, 0xCB, 0xF1, 0xCB, 0xF2, 0xCB, 0xF3, 0xCB, 0xF4, 0xCB, 0xF5, 0xCB, 0xF6, 0xCB, 0xF7] := by decide +kernel

-- test_cb_lineF_8_f
example : runCalls lr35902 [.assemble "SET 7, B\nSET 7,C\nSET 7, D\nSET 7, E\nSET 7, H\nSET 7, L\nSET 7, (HL)\nSET 7, A"] =
    .ok [0xCB, 0xF8, 0xCB, 0xF9, 0xCB, 0xFA, 0xCB, 0xFB, 0xCB, 0xFC, 0xCB, 0xFD, 0xCB, 0xFE, 0xCB, 0xFF] := by decide +kernel

end Necro
