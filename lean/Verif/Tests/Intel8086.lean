import Verif.Model.Harness
import Verif.Model.Cpu.Intel8086
/-!
Inputs and expected outputs of /repo/tests/test_intel8086.py, run through the model.
Generated from the text of that file.
-/

namespace Necro

-- test_mov_ch_bh
example : runCalls i8086 [.assemble "MOV CH, BH"] =
    .ok [0x88, 0xFD] := by decide +kernel

-- test_mov_cx_bx
example : runCalls i8086 [.assemble "MOV CX, BX"] =
    .ok [0x89, 0xD9] := by decide +kernel

-- test_mov_cx_ind_bx
example : runCalls i8086 [.assemble "MOV CX, [BX]"] =
    .ok [0x8B, 0x0F] := by decide +kernel

-- test_mov_ind_bx_cx
example : runCalls i8086 [.assemble "MOV [BX], CX"] =
    .ok [0x89, 0x0F] := by decide +kernel

-- test_mov_ind_bx_cx_displacement
example : runCalls i8086 [.assemble "MOV [BX - 2], CX"] =
    .ok [0x89, 0x8F, 0xFE, 0xFF] := by decide +kernel

-- test_mov_ind_bx_cx_displacement_plus
example : runCalls i8086 [.assemble "MOV [BX + 2], CX"] =
    .ok [0x89, 0x8F, 0x02, 0x00] := by decide +kernel

-- test_mov_immediate8
example : runCalls i8086 [.assemble "MOV DL, 0x17"] =
    .ok [0xB2, 0x17] := by decide +kernel

-- test_mov_immediate16
example : runCalls i8086 [.assemble "MOV DX, 0x17"] =
    .ok [0xBA, 0x17, 0x00] := by decide +kernel

-- test_lds
example : runCalls i8086 [.assemble "LDS AX, [0x17]"] =
    .ok [0xC5, 0x06, 0x17, 0x00] := by decide +kernel

-- test_al_ob
example : runCalls i8086 [.assemble "MOV AL, [0x17]"] =
    .ok [0xA0, 0x17, 0x00] := by decide +kernel

-- test_jmp_b
example : runCalls i8086 [.assemble "JMP 4"] =
    .ok [0xE9, 0x04, 0x00] := by decide +kernel

-- test_aaa
example : runCalls i8086 [.assemble "AAA"] =
    .ok [0x37] := by decide +kernel

-- test_aaa_args
example : runCalls i8086 [.assemble "AAA AX"] = .error .invalidOpCodeArguments := by decide +kernel

-- test_aad
example : runCalls i8086 [.assemble "AAD"] =
    .ok [0xD5] := by decide +kernel

-- test_aad_a
example : runCalls i8086 [.assemble "AAD 0x0A"] =
    .ok [0xD5] := by decide +kernel

-- test_aad_1
example : runCalls i8086 [.assemble "AAD 0x01"] =
    .ok [0xD5, 0x01] := by decide +kernel

-- test_aam
example : runCalls i8086 [.assemble "AAM"] =
    .ok [0xD4] := by decide +kernel

-- test_aam_a
example : runCalls i8086 [.assemble "AAM 0x0A"] =
    .ok [0xD4] := by decide +kernel

-- test_aam_2
example : runCalls i8086 [.assemble "AAM 0x02"] =
    .ok [0xD4, 0x02] := by decide +kernel

-- test_aas
example : runCalls i8086 [.assemble "AAS"] =
    .ok [0x3F] := by decide +kernel

-- test_aas_args
example : runCalls i8086 [.assemble "AAS BX"] = .error .invalidOpCodeArguments := by decide +kernel

-- test_adc
example : runCalls i8086 [.assemble "ADC AL, 2"] =
    .ok [0x14, 0x02] := by decide +kernel

-- test_cbw
example : runCalls i8086 [.assemble "CBW"] =
    .ok [0x98] := by decide +kernel

-- test_cbw_args
example : runCalls i8086 [.assemble "CBW BX"] = .error .invalidOpCodeArguments := by decide +kernel

-- test_cli
example : runCalls i8086 [.assemble "CLI"] =
    .ok [0xFA] := by decide +kernel

-- test_cli_args
example : runCalls i8086 [.assemble "CLI test"] = .error .invalidOpCodeArguments := by decide +kernel

-- test_mul
example : runCalls i8086 [.assemble "MUL BX"] =
    .ok [0xF7, 0xE3] := by decide +kernel

-- test_div
example : runCalls i8086 [.assemble "DIV BX"] =
    .ok [0xF7, 0xF3] := by decide +kernel

-- test_shl16
example : runCalls i8086 [.assemble "SHL BX, 1"] =
    .ok [0xD1, 0xE3] := by decide +kernel

-- test_shl8
example : runCalls i8086 [.assemble "SHL AH, 1"] =
    .ok [0xD0, 0xE4] := by decide +kernel

-- test_shr16
example : runCalls i8086 [.assemble "SHR CX, 1"] =
    .ok [0xD1, 0xE9] := by decide +kernel

-- test_shr8
example : runCalls i8086 [.assemble "SHR BH, 1"] =
    .ok [0xD0, 0xEF] := by decide +kernel

-- test_lea
example : runCalls i8086 [.assemble "LEA AX, [ DI + 0x1000]"] =
    .ok [0x8D, 0x85, 0x00, 0x10] := by decide +kernel

end Necro
