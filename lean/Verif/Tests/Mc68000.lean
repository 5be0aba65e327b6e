import Verif.Model.Harness
import Verif.Model.Cpu.Mc68000
/-!
Inputs and expected outputs of /repo/tests/test_mc68000.py, run through the model.
Generated from the text of that file.
-/

namespace Necro

-- test_move_address_indexed
example : runCalls mc68000 [.assemble "move #17, (17, a0, a1)"] =
    .ok [0x31, 0xBC, 0x00, 0x11, 0x90, 0x11] := by decide +kernel

-- test_move_w_address_indexed
example : runCalls mc68000 [.assemble "move.w #17, (17, a0, a1)"] =
    .ok [0x31, 0xBC, 0x00, 0x11, 0x90, 0x11] := by decide +kernel

-- test_move_w_address_indexed_l
example : runCalls mc68000 [.assemble "move.w #17, (17, a0, a1.L)"] =
    .ok [0x31, 0xBC, 0x00, 0x11, 0x98, 0x11] := by decide +kernel

-- test_move_d4_d3
example : runCalls mc68000 [.assemble " move d4, d3"] =
    .ok [0x36, 0x04] := by decide +kernel

-- test_move_d5_a6_with_conversion_to_movea
example : runCalls mc68000 [.assemble "MOVE d5, a6"] =
    .ok [0x3C, 0x45] := by decide +kernel

-- test_move_d1_ind_a1
example : runCalls mc68000 [.assemble "move d1, (a1)"] =
    .ok [0x32, 0x81] := by decide +kernel

-- test_move_a3_dec_ind_a2
example : runCalls mc68000 [.assemble "move a3, -(a2)"] =
    .ok [0x35, 0x0B] := by decide +kernel

-- test_move_label_pc_a1
example : runCalls mc68000 [.assemble "movea (foo, PC), a1\nfoo:", .link] =
    .ok [0x32, 0x7A, 0x00, 0x02] := by decide +kernel

-- test_move_label_backward_pc_a1_with_conversion_to_movea
example : runCalls mc68000 [.assemble "foo: move (foo, PC), a1", .link] =
    .ok [0x32, 0x7A, 0xFF, 0xFE] := by decide +kernel

-- test_move_too_far_backward_pc_a1
example : runCalls mc68000 [.assemble "movea (-32769, PC), a1"] = .error .notInBitRange := by decide +kernel

-- test_move_far_backward_pc_a1
example : runCalls mc68000 [.assemble "movea (-32768, PC), a1"] =
    .ok [0x32, 0x7A, 0x80, 0x00] := by decide +kernel

-- test_move_disp_pc_a0l_a3
example : runCalls mc68000 [.assemble "movea (8, PC, a0.l), a3"] =
    .ok [0x36, 0x7B, 0x88, 0x08] := by decide +kernel

-- test_move_abs_l_a0
example : runCalls mc68000 [.assemble "movea (100).l, a0"] =
    .ok [0x30, 0x79, 0x00, 0x00, 0x00, 0x64] := by decide +kernel

-- test_move_abs_w_a0
example : runCalls mc68000 [.assemble "movea (100).w, a0"] =
    .ok [0x30, 0x78, 0x00, 0x64] := by decide +kernel

-- test_ori_ccr
example : runCalls mc68000 [.assemble "ori #100, ccr"] =
    .ok [0x00, 0x3C, 0x00, 0x64] := by decide +kernel

-- test_ori_sr
example : runCalls mc68000 [.assemble "ori #-1, sr"] =
    .ok [0x00, 0x7C, 0xFF, 0xFF] := by decide +kernel

-- test_ori_l_disp_a3
example : runCalls mc68000 [.assemble "ori.l #10000, (100, a3)"] =
    .ok [0x00, 0xAB, 0x00, 0x00, 0x27, 0x10, 0x00, 0x64] := by decide +kernel

-- test_andi_l_disp_a4
example : runCalls mc68000 [.assemble "andi.l #10001, (101, a4)"] =
    .ok [0x02, 0xAC, 0x00, 0x00, 0x27, 0x11, 0x00, 0x65] := by decide +kernel

-- test_jmp
example : runCalls mc68000 [.assemble "jmp 2048"] =
    .ok [0x4E, 0xF9, 0x00, 0x00, 0x08, 0x00] := by decide +kernel

-- test_jmp_word
example : runCalls mc68000 [.assemble "jmp 2048.w"] =
    .ok [0x4E, 0xF8, 0x08, 0x00] := by decide +kernel

-- test_bne
example : runCalls mc68000 [.assemble "bne -2"] =
    .ok [0x66, 0x00, 0xFF, 0xFE] := by decide +kernel

-- test_bne_b
example : runCalls mc68000 [.assemble "bne.b -2"] =
    .ok [0x66, 0xFE] := by decide +kernel

end Necro
