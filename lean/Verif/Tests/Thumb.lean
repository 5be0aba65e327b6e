import Verif.Model.Harness
import Verif.Model.Cpu.Thumb
/-!
Inputs and expected outputs of /repo/tests/test_thumb.py, run through the model.
Generated from the text of that file.
-/

namespace Necro

-- test_lsl
example : runCalls thumb [.assemble "LSL r3, r4, #31"] =
    .ok [0xE3, 0x07] := by decide +kernel

-- test_lsr
example : runCalls thumb [.assemble "LSR r1, r2, #2"] =
    .ok [0x91, 0x08] := by decide +kernel

-- test_asr
example : runCalls thumb [.assemble "ASR r5, r6, #3"] =
    .ok [0xF5, 0x10] := by decide +kernel

-- test_asr_define
example : runCalls thumb [.assemble ".define foo 2\nASR r5, r6, #foo"] =
    .ok [0xB5, 0x10] := by decide +kernel

-- test_sub
example : runCalls thumb [.assemble "SUB r1, r2, r3\nSUB r4, r5, #7\nSUB r6, #5"] =
    .ok [0xD1, 0x1A, 0xEC, 0x1F, 0x05, 0x3E] := by decide +kernel

-- test_cmp
example : runCalls thumb [.assemble "CMP r7, #0xff"] =
    .ok [0xFF, 0x2F] := by decide +kernel

-- test_and
example : runCalls thumb [.assemble "AND r7, r6"] =
    .ok [0x37, 0x40] := by decide +kernel

-- test_b_aligned_backward
example : runCalls thumb [.assemble "loop: b loop", .link] =
    .ok [0xFE, 0xE7] := by decide +kernel

-- test_b_aligned_far_backward
example : runCalls thumb [.assemble "loop:\n.org 1024\nb loop", .link] =
    .ok [0xFE, 0xE5] := by decide +kernel

-- test_b_aligned_far_forward
example : runCalls thumb [.assemble "b loop\n.org 1024\nloop:", .link] =
    .ok [0xFE, 0xE1] := by decide +kernel

-- test_b_aligned_far_forward_unaligned
example : (match runCalls thumb [.assemble "b loop\n.org 1023\nloop:", .link] with | .error e => e.isAssembler | .ok _ => false) = true := by decide +kernel -- AlignmentError

-- test_b_aligned_far_forward_unaligned_increment
example : (match runCalls thumb [.assemble "b loop+\n.org 1024\nloop:", .link] with | .error e => e.isAssembler | .ok _ => false) = true := by decide +kernel -- AlignmentError

-- test_b_aligned_too_far_forward
example : runCalls thumb [.assemble "b loop\n.org 4096\nloop:", .link] = .error .notInBitRange := by decide +kernel

-- test_b_aligned_too_far_backword
example : runCalls thumb [.assemble "loop:\n.org 4096\nb loop\n", .link] = .error .notInBitRange := by decide +kernel

-- test_b_unaligned
example : (match runCalls thumb [.assemble "loop: b loop+", .link] with | .error e => e.isAssembler | .ok _ => false) = true := by decide +kernel -- AlignmentError

-- test_b_add_rd_hs
example : runCalls thumb [.assemble "ADD r7, r15"] =
    .ok [0x7F, 0x44] := by decide +kernel

-- test_ldrb_rd_rb_imm
example : runCalls thumb [.assemble "LDRB r0, [r1, #8]"] =
    .ok [0x88, 0x78] := by decide +kernel

-- test_bl_num
example : runCalls thumb [.assemble "BL 0x200000"] =
    .ok [0x00, 0xF2, 0x00, 0xF8] := by decide +kernel

-- test_bl_num_too_far
example : runCalls thumb [.assemble "BL 0x1500000"] = .error .notInBitRange := by decide +kernel

-- test_bl
example : runCalls thumb [.assemble "BL far\n.org 0x200000\nfar:", .link] =
    .ok [0xFF, 0xF1, 0xFE, 0xFF] := by decide +kernel

-- test_bl_too_far
example : runCalls thumb [.assemble "BL far\n.org 0x1000000\nfar:", .link] = .error .notInBitRange := by decide +kernel

-- test_push_rlist
example : runCalls thumb [.assemble "PUSH {r0,r1,r2, r3-r6}"] =
    .ok [0x7F, 0xB4] := by decide +kernel

-- test_push_rlist_lr
example : runCalls thumb [.assemble "PUSH {lr}"] =
    .ok [0x00, 0xBC] := by decide +kernel

-- test_push_rlist_lr_r0
example : runCalls thumb [.assemble "PUSH {r0,lr}"] =
    .ok [0x01, 0xBC] := by decide +kernel

end Necro
