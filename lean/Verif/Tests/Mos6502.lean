import Verif.Model.Harness
import Verif.Model.Cpu.Mos6502
/-!
Inputs and expected outputs of /repo/tests/test_mos6502.py, run through the model.
Generated from the text of that file.
-/

namespace Necro

-- test_lda_immediate
example : runCalls mos6502 [.assemble "LDA #$17\nlda #17\nLdA #%11111111"] =
    .ok [0xA9, 0x17, 0xA9, 0x11, 0xA9, 0xFF] := by decide +kernel

-- test_nop
example : runCalls mos6502 [.assemble "NOP"] =
    .ok [0xEA] := by decide +kernel

-- test_two_nops
example : runCalls mos6502 [.assemble " NOP \n NOP"] =
    .ok [0xEA, 0xEA] := by decide +kernel

-- test_lda_zp
example : runCalls mos6502 [.assemble "LDA $17"] =
    .ok [0xA5, 0x17] := by decide +kernel

-- test_lda_immediate_label
example : runCalls mos6502 [.assemble ".org $1000\n.db 1,2,3,4,5\ntest: .db 6,7,8\nLDA #<test", .link] =
    .ok [0x01, 0x02, 0x03, 0x04, 0x05, 0x06, 0x07, 0x08, 0xA9, 0x05] := by decide +kernel

-- test_lda_immediate_label_plus_one
example : runCalls mos6502 [.assemble ".org $1000\n.db 1,2,3,4,5\ntest: .db 6,7,8\nLDA #<test+", .link] =
    .ok [0x01, 0x02, 0x03, 0x04, 0x05, 0x06, 0x07, 0x08, 0xA9, 0x06] := by decide +kernel

-- test_lda_immediate_label_plus_three
example : runCalls mos6502 [.assemble ".org $1000\n.db 1,2,3,4,5\ntest: .db 6,7,8\nLDA #>test+++", .link] =
    .ok [0x01, 0x02, 0x03, 0x04, 0x05, 0x06, 0x07, 0x08, 0xA9, 0x13] := by decide +kernel

-- test_lda_immediate_label_plus_dash
example : runCalls mos6502 [.assemble ".org $1000\n.db 1,2,3,4,5\ntest: .db 6,7,8\nLDA #<test+-+-", .link] =
    .ok [0x01, 0x02, 0x03, 0x04, 0x05, 0x06, 0x07, 0x08, 0xA9, 0x05] := by decide +kernel

-- test_lda_immediate_label_shift
example : runCalls mos6502 [.assemble ".org $1000\n.db 1,2,3,4,5\ntest: .db 6,7,8\nLDA #>test", .link] =
    .ok [0x01, 0x02, 0x03, 0x04, 0x05, 0x06, 0x07, 0x08, 0xA9, 0x10] := by decide +kernel

-- test_lda_ind_x
example : runCalls mos6502 [.assemble "LDA ($17,  X)"] =
    .ok [0xA1, 0x17] := by decide +kernel

-- test_flags
example : runCalls mos6502 [.assemble "CLC\nSEC\nCLI\nSEI\nCLV\nCLD\nSED"] =
    .ok [0x18, 0x38, 0x58, 0x78, 0xB8, 0xD8, 0xF8] := by decide +kernel

-- test_regs
example : runCalls mos6502 [.assemble "TAX\nTXA\nDEX\nINX\nTAY\nTYA\nDEY\nINY"] =
    .ok [0xAA, 0x8A, 0xCA, 0xE8, 0xA8, 0x98, 0x88, 0xC8] := by decide +kernel

-- test_stack
example : runCalls mos6502 [.assemble "TXS\nTSX\nPHA\nPLA\nPHP\nPLP"] =
    .ok [0x9A, 0xBA, 0x48, 0x68, 0x08, 0x28] := by decide +kernel

-- test_jsr
example : runCalls mos6502 [.assemble ".org $100 \nloop: JSR loop", .link] =
    .ok [0x20, 0x00, 0x01] := by decide +kernel

-- test_jmp
example : runCalls mos6502 [.assemble "loop: JMP loop", .link] =
    .ok [0x4C, 0x00, 0x00] := by decide +kernel

-- test_jmp_indirect
example : runCalls mos6502 [.assemble "loop: .dw foo\nJMP (loop)\nfoo: JMP foo", .link] =
    .ok [0x05, 0x00, 0x6C, 0x00, 0x00, 0x4C, 0x05, 0x00] := by decide +kernel

-- test_invalid_bit
example : runCalls mos6502 [.assemble "BIT #$17"] = .error unsupportedMode := by decide +kernel

-- test_beq
example : runCalls mos6502 [.assemble "loop:\nNOP\nBEQ loop", .link] =
    .ok [0xEA, 0xF0, 0xFD] := by decide +kernel

-- test_beq_numeric
example : runCalls mos6502 [.assemble "BEQ -3", .link] =
    .ok [0xF0, 0xFD] := by decide +kernel

-- test_branch
example : runCalls mos6502 [.assemble "loop: BPL loop\nBMI loop\nBVC loop\nBVS loop\nBCC loop\nBCS loop\nBNE loop\nBEQ loop", .link] =
    .ok [0x10, 0xFE, 0x30, 0xFC, 0x50, 0xFA, 0x70, 0xF8, 0x90, 0xF6, 0xB0, 0xF4, 0xD0, 0xF2, 0xF0, 0xF0] := by decide +kernel

-- test_adc
example : runCalls mos6502 [.assemble "ADC #$44", .assemble "ADC $44", .assemble "ADC $44, X", .assemble "ADC $4400", .assemble "ADC $4400,X", .assemble "ADC $4400,Y", .assemble "ADC ($44, X)", .assemble "ADC ($44), Y"] =
    .ok [0x69, 0x44, 0x65, 0x44, 0x75, 0x44, 0x6D, 0x00, 0x44, 0x7D, 0x00, 0x44, 0x79, 0x00, 0x44, 0x61, 0x44, 0x71, 0x44] := by decide +kernel

-- test_and
example : runCalls mos6502 [.assemble "AND #$44", .assemble "AND $44", .assemble "AND $44, X", .assemble "AND $4400", .assemble "AND $4400,X", .assemble "AND $4400,Y", .assemble "AND ($44, X)", .assemble "AND ($44), Y"] =
    .ok [0x29, 0x44, 0x25, 0x44, 0x35, 0x44, 0x2D, 0x00, 0x44, 0x3D, 0x00, 0x44, 0x39, 0x00, 0x44, 0x21, 0x44, 0x31, 0x44] := by decide +kernel

-- test_asl
example : runCalls mos6502 [.assemble "ASL A", .assemble "ASL $44", .assemble "ASL $44, X", .assemble "ASL $4400", .assemble "ASL $4400,X"] =
    .ok [0x0A, 0x06, 0x44, 0x16, 0x44, 0x0E, 0x00, 0x44, 0x1E, 0x00, 0x44] := by decide +kernel

-- test_bit
example : runCalls mos6502 [.assemble "BIT $44", .assemble "BIT $4400"] =
    .ok [0x24, 0x44, 0x2C, 0x00, 0x44] := by decide +kernel

-- test_brk
example : runCalls mos6502 [.assemble "BRK"] =
    .ok [0x00] := by decide +kernel

-- test_brk_bad
example : runCalls mos6502 [.assemble "BRK oops"] = .error .invalidOpCodeArguments := by decide +kernel

-- test_cmp
example : runCalls mos6502 [.assemble "CMP #$44", .assemble "CMP $44", .assemble "CMP $44, X", .assemble "CMP $4400", .assemble "CMP $4400,X", .assemble "CMP $4400,Y", .assemble "CMP ($44, X)", .assemble "CMP ($44), Y"] =
    .ok [0xC9, 0x44, 0xC5, 0x44, 0xD5, 0x44, 0xCD, 0x00, 0x44, 0xDD, 0x00, 0x44, 0xD9, 0x00, 0x44, 0xC1, 0x44, 0xD1, 0x44] := by decide +kernel

-- test_cpx
example : runCalls mos6502 [.assemble "CPX #$44", .assemble "CPX $44", .assemble "CPX $4400"] =
    .ok [0xE0, 0x44, 0xE4, 0x44, 0xEC, 0x00, 0x44] := by decide +kernel

-- test_cpy
example : runCalls mos6502 [.assemble "CPY #$44", .assemble "CPY $44", .assemble "CPY $4400"] =
    .ok [0xC0, 0x44, 0xC4, 0x44, 0xCC, 0x00, 0x44] := by decide +kernel

-- test_dec
example : runCalls mos6502 [.assemble "DEC $44", .assemble "DEC $44, X", .assemble "DEC $4400", .assemble "DEC $4400,X"] =
    .ok [0xC6, 0x44, 0xD6, 0x44, 0xCE, 0x00, 0x44, 0xDE, 0x00, 0x44] := by decide +kernel

-- test_eor
example : runCalls mos6502 [.assemble "EOR #$44", .assemble "EOR $44", .assemble "EOR $44, X", .assemble "EOR $4400", .assemble "EOR $4400,X", .assemble "EOR $4400,Y", .assemble "EOR ($44, X)", .assemble "EOR ($44), Y"] =
    .ok [0x49, 0x44, 0x45, 0x44, 0x55, 0x44, 0x4D, 0x00, 0x44, 0x5D, 0x00, 0x44, 0x59, 0x00, 0x44, 0x41, 0x44, 0x51, 0x44] := by decide +kernel

-- test_inc
example : runCalls mos6502 [.assemble "INC $44", .assemble "INC $44, X", .assemble "INC $4400", .assemble "INC $4400,X"] =
    .ok [0xE6, 0x44, 0xF6, 0x44, 0xEE, 0x00, 0x44, 0xFE, 0x00, 0x44] := by decide +kernel

-- test_lda
example : runCalls mos6502 [.assemble "LDA #$44", .assemble "LDA $44", .assemble "LDA $44, X", .assemble "LDA $4400", .assemble "LDA $4400,X", .assemble "LDA $4400,Y", .assemble "LDA ($44, X)", .assemble "LDA ($44), Y"] =
    .ok [0xA9, 0x44, 0xA5, 0x44, 0xB5, 0x44, 0xAD, 0x00, 0x44, 0xBD, 0x00, 0x44, 0xB9, 0x00, 0x44, 0xA1, 0x44, 0xB1, 0x44] := by decide +kernel

-- test_ldx
example : runCalls mos6502 [.assemble "LDX #$44", .assemble "LDX $44", .assemble "LDX $44, Y", .assemble "LDX $4400", .assemble "LDX $4400,Y"] =
    .ok [0xA2, 0x44, 0xA6, 0x44, 0xB6, 0x44, 0xAE, 0x00, 0x44, 0xBE, 0x00, 0x44] := by decide +kernel

-- test_ldy
example : runCalls mos6502 [.assemble "LDY #$44", .assemble "LDY $44", .assemble "LDY $44, X", .assemble "LDY $4400", .assemble "LDY $4400,X"] =
    .ok [0xA0, 0x44, 0xA4, 0x44, 0xB4, 0x44, 0xAC, 0x00, 0x44, 0xBC, 0x00, 0x44] := by decide +kernel

-- test_lsr
example : runCalls mos6502 [.assemble "LSR A", .assemble "LSR $44", .assemble "LSR $44, X", .assemble "LSR $4400", .assemble "LSR $4400,X"] =
    .ok [0x4A, 0x46, 0x44, 0x56, 0x44, 0x4E, 0x00, 0x44, 0x5E, 0x00, 0x44] := by decide +kernel

-- test_ora
example : runCalls mos6502 [.assemble "ORA #$44", .assemble "ORA $44", .assemble "ORA $44, X", .assemble "ORA $4400", .assemble "ORA $4400,X", .assemble "ORA $4400,Y", .assemble "ORA ($44, X)", .assemble "ORA ($44), Y"] =
    .ok [0x09, 0x44, 0x05, 0x44, 0x15, 0x44, 0x0D, 0x00, 0x44, 0x1D, 0x00, 0x44, 0x19, 0x00, 0x44, 0x01, 0x44, 0x11, 0x44] := by decide +kernel

-- test_rol
example : runCalls mos6502 [.assemble "ROL A", .assemble "ROL $44", .assemble "ROL $44, X", .assemble "ROL $4400", .assemble "ROL $4400,X"] =
    .ok [0x2A, 0x26, 0x44, 0x36, 0x44, 0x2E, 0x00, 0x44, 0x3E, 0x00, 0x44] := by decide +kernel

-- test_ror
example : runCalls mos6502 [.assemble "ROR A", .assemble "ROR $44", .assemble "ROR $44, X", .assemble "ROR $4400", .assemble "ROR $4400,X"] =
    .ok [0x6A, 0x66, 0x44, 0x76, 0x44, 0x6E, 0x00, 0x44, 0x7E, 0x00, 0x44] := by decide +kernel

-- test_rti
example : runCalls mos6502 [.assemble "rti"] =
    .ok [0x40] := by decide +kernel

-- test_rts
example : runCalls mos6502 [.assemble "RTS"] =
    .ok [0x60] := by decide +kernel

-- test_sbc
example : runCalls mos6502 [.assemble "SBC #$44", .assemble "SBC $44", .assemble "SBC $44, X", .assemble "SBC $4400", .assemble "SBC $4400,X", .assemble "SBC $4400,Y", .assemble "SBC ($44, X)", .assemble "SBC ($44), Y"] =
    .ok [0xE9, 0x44, 0xE5, 0x44, 0xF5, 0x44, 0xED, 0x00, 0x44, 0xFD, 0x00, 0x44, 0xF9, 0x00, 0x44, 0xE1, 0x44, 0xF1, 0x44] := by decide +kernel

-- test_sta
example : runCalls mos6502 [.assemble "STA $44", .assemble "STA $44, X", .assemble "STA $4400", .assemble "STA $4400,X", .assemble "STA $4400,Y", .assemble "STA ($44, X)", .assemble "STA ($44), Y"] =
    .ok [0x85, 0x44, 0x95, 0x44, 0x8D, 0x00, 0x44, 0x9D, 0x00, 0x44, 0x99, 0x00, 0x44, 0x81, 0x44, 0x91, 0x44] := by decide +kernel

-- test_stx
example : runCalls mos6502 [.assemble "STX $44", .assemble "STX $44, Y", .assemble "STX $4400"] =
    .ok [0x86, 0x44, 0x96, 0x44, 0x8E, 0x00, 0x44] := by decide +kernel

-- test_sty
example : runCalls mos6502 [.assemble "STY $44", .assemble "STY $44, X", .assemble "STY $4400"] =
    .ok [0x84, 0x44, 0x94, 0x44, 0x8C, 0x00, 0x44] := by decide +kernel

-- test_lda_negative
example : runCalls mos6502 [.assemble "LDA #-1"] =
    .ok [0xA9, 0xFF] := by decide +kernel

-- test_lda_negative_raw
example : runCalls mos6502 [.assemble "LDA #$ff"] =
    .ok [0xA9, 0xFF] := by decide +kernel

-- test_lda_wrong
example : runCalls mos6502 [.assemble "LDA #$1ff"] = .error .notInBitRange := by decide +kernel

-- test_lda_wrong_binary
example : runCalls mos6502 [.assemble "LDA #%111111110"] = .error .notInBitRange := by decide +kernel

-- test_lda_wrong_big
example : runCalls mos6502 [.assemble "LDA #1234"] = .error .notInBitRange := by decide +kernel

-- test_lda_wrong_negative
example : runCalls mos6502 [.assemble "LDA #-129"] = .error .notInBitRange := by decide +kernel

-- test_lda_last_negative
example : runCalls mos6502 [.assemble "LDA #-128"] =
    .ok [0xA9, 0x80] := by decide +kernel

end Necro
