import Verif.Model.Harness
import Verif.Model.Cpu.Mips32
/-!
Inputs and expected outputs of /repo/tests/test_mips32.py, run through the model.
Generated from the text of that file.
-/

namespace Necro

-- test_add
example : runCalls mips32 [.assemble "add $t3, $t4, $t5"] =
    .ok [0x01, 0x8D, 0x58, 0x20] := by decide +kernel

-- test_add_alias
example : runCalls mips32 [.assemble "add $11, $12, $13"] =
    .ok [0x01, 0x8D, 0x58, 0x20] := by decide +kernel

-- test_addi_wrong
example : runCalls mips32 [.assemble "addi $t5, $t6, 65000"] = .error .notInBitRange := by decide +kernel

-- test_addi
example : runCalls mips32 [.assemble "addi $t5, $t6, 32767"] =
    .ok [0x21, 0xCD, 0x7F, 0xFF] := by decide +kernel

-- test_addiu
example : runCalls mips32 [.assemble "addiu $t5, $t6, 65500"] =
    .ok [0x25, 0xCD, 0xFF, 0xDC] := by decide +kernel

-- test_lhi
example : runCalls mips32 [.assemble "lhi $0, 0x12345678"] =
    .ok [0x64, 0x00, 0x12, 0x34] := by decide +kernel

-- test_llo
example : runCalls mips32 [.assemble "llo $0, 0x12345678"] =
    .ok [0x60, 0x00, 0x56, 0x78] := by decide +kernel

-- test_lhi_llo_ffffffff
example : runCalls mips32 [.assemble "lhi $0, 0xFFFFFFFF\nllo $0, 0xFFFFFFFF"] =
    .ok [0x64, 0x00, 0xFF, 0xFF, 0x60, 0x00, 0xFF, 0xFF] := by decide +kernel

-- test_lhi_llo_label
example : runCalls mips32 [.assemble "lhi $0, end\nllo $0, end\n.org 0xffffffff\nend:", .link] =
    .ok [0x64, 0x00, 0xFF, 0xFF, 0x60, 0x00, 0xFF, 0xFF] := by decide +kernel

-- test_lhi_llo_label_too_far
example : runCalls mips32 [.assemble "lhi $0, end\nllo $0, end\n.org 0xffffffff1\nend:", .link] = .error .notInBitRange := by decide +kernel

-- test_jump_too_far
example : runCalls mips32 [.assemble "j end\n.org 0xffffffff1\nend:", .link] = .error .notInBitRange := by decide +kernel

-- test_jump
example : runCalls mips32 [.assemble "j end\n.org 0xFFFFFFF\nend:", .link] =
    .ok [0x0B, 0xFF, 0xFF, 0xFF] := by decide +kernel

end Necro
