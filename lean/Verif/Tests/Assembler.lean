import Verif.Model.Harness
/-!
Inputs and expected outputs of /repo/tests/test_assembler.py, run through the model.
Generated from the text of that file.
Not translated: test_override, test_pack_bits, test_pack_bits_bigger_base, test_pack_bits_signed, test_ram.
-/

namespace Necro

/-- The `AssemblerDumb` class of the test (`LOAD` emits 0xaabbccdd and a 32-bit value). -/
def dumb : Dialect where
  sy := { hexPrefixes := ["0x".toList] }
  bigEndian := true
  instrs := fun k => if k = "LOAD".toList then some (.handler fun tokens => do
      match tokens[1]? with
      | none => H.throw .indexError
      | some arg =>
        match ← H.parseInteger arg 32 false with
        | none =>
          H.reloc { label := arg, bitsSize := 32, size := 4 }
          let b ← H.lift (packBe32u [some 0xaabbccdd, some 0])
          pure (some b)
        | some v =>
          let b ← H.lift (packBe32u [some 0xaabbccdd, some v])
          pure (some b)) else none

-- test_assemble
example : runCalls dumb [.assemble "LOAD 0x12345678"] =
    .ok [0xAA, 0xBB, 0xCC, 0xDD, 0x12, 0x34, 0x56, 0x78] := by decide +kernel

-- test_assemble_db
example : runCalls dumb [.assemble "  .db 0x17 ; hello world, i am a comment"] =
    .ok [0x17] := by decide +kernel

-- test_assemble_dd
example : runCalls dumb [.assemble "  .dd 0x11223344 ; hello world, i am a comment"] =
    .ok [0x11, 0x22, 0x33, 0x44] := by decide +kernel

-- test_macro_simple
example : runCalls dumb [.assemble "\n        .macro HELLO\n        LOAD 1\n        LOAD 2\n        LOAD 3\n        .endmacro\n        HELLO\n        HELLO\n        "] =
    .ok [0xAA, 0xBB, 0xCC, 0xDD, 0x00, 0x00, 0x00, 0x01, 0xAA, 0xBB, 0xCC, 0xDD, 0x00, 0x00, 0x00, 0x02, 0xAA, 0xBB, 0xCC, 0xDD, 0x00, 0x00, 0x00, 0x03, 0xAA, 0xBB, 0xCC, 0xDD, 0x00, 0x00, 0x00, 0x01, 0xAA, 0xBB, 0xCC, 0xDD, 0x00, 0x00, 0x00, 0x02, 0xAA, 0xBB, 0xCC, 0xDD, 0x00, 0x00, 0x00, 0x03] := by decide +kernel

-- test_macro_args
example : runCalls dumb [.assemble "\n        .macro HELLO arg0 arg1 arg2\n        LOAD arg0\n        LOAD arg1\n        LOAD arg2\n        .endmacro\n        HELLO 1 2 3\n        HELLO 1,2,3\n        HELLO,1,2 3\n        "] =
    .ok [0xAA, 0xBB, 0xCC, 0xDD, 0x00, 0x00, 0x00, 0x01, 0xAA, 0xBB, 0xCC, 0xDD, 0x00, 0x00, 0x00, 0x02, 0xAA, 0xBB, 0xCC, 0xDD, 0x00, 0x00, 0x00, 0x03, 0xAA, 0xBB, 0xCC, 0xDD, 0x00, 0x00, 0x00, 0x01, 0xAA, 0xBB, 0xCC, 0xDD, 0x00, 0x00, 0x00, 0x02, 0xAA, 0xBB, 0xCC, 0xDD, 0x00, 0x00, 0x00, 0x03, 0xAA, 0xBB, 0xCC, 0xDD, 0x00, 0x00, 0x00, 0x01, 0xAA, 0xBB, 0xCC, 0xDD, 0x00, 0x00, 0x00, 0x02, 0xAA, 0xBB, 0xCC, 0xDD, 0x00, 0x00, 0x00, 0x03] := by decide +kernel

-- test_macro_nested
example : runCalls dumb [.assemble "\n        .macro HELLO\n        .macro NESTED\n        .endmacro\n        .endmacro\n        "] = .error .unsupportedNestedMacro := by decide +kernel

-- test_macro_with_labels
example : runCalls dumb [.assemble "\n        .macro HELLO\n        foobar:\n        .endmacro\n        "] = .error .labelNotAllowedInMacro := by decide +kernel

-- test_parse_integer_unsigned_red
example : parseInteger dumb.sy [] "17".toList 1 false = .error .notInBitRange := by decide +kernel

-- test_parse_integer_signed_red
example : parseInteger dumb.sy [] "17".toList 5 true = .error .notInBitRange := by decide +kernel

-- test_parse_integer_unsigned
example : parseInteger dumb.sy [] "17".toList 5 false = .ok (some (17)) := by decide +kernel

-- test_parse_integer_signed
example : parseInteger dumb.sy [] "-1000".toList 11 true = .ok (some (-1000)) := by decide +kernel

-- test_parse_integer_signed_edge
example : parseInteger dumb.sy [] "-1024".toList 11 true = .ok (some (-1024)) := by decide +kernel

-- test_parse_integer_signed_positive_edge
example : parseInteger dumb.sy [] "1023".toList 11 true = .ok (some (1023)) := by decide +kernel

-- test_parse_integer_signed_too_low
example : parseInteger dumb.sy [] "-1025".toList 11 true = .error .notInBitRange := by decide +kernel

-- test_parse_integer_signed_too_high
example : parseInteger dumb.sy [] "1024".toList 11 true = .error .notInBitRange := by decide +kernel

-- test_parse_integer_signed_too_high_hex
example : parseInteger dumb.sy [] "0x800".toList 11 true = .error .notInBitRange := by decide +kernel

-- test_parse_integer_signed_edge_hex
example : parseInteger dumb.sy [] "0x7FF".toList 11 true = .ok (some (2047)) := by decide +kernel

-- test_parse_integer_signed_edge_hex_plus
example : parseInteger dumb.sy [] "0x7FE+".toList 11 true = .ok (some (2047)) := by decide +kernel

-- test_parse_integer_unsigned_edge_hex_plus
example : parseInteger dumb.sy [] "0x7FE+".toList 11 true = .ok (some (2047)) := by decide +kernel

-- test_repeat
example : runCalls dumb [.assemble ".repeat 10\n.db 0x17\n.endrepeat"] =
    .ok [0x17, 0x17, 0x17, 0x17, 0x17, 0x17, 0x17, 0x17, 0x17, 0x17] := by decide +kernel

-- test_complex_math
example : runCalls dumb [.assemble ".org 1\nstart:\n.org 10\nend:\n.db end-start-2", .link] =
    .ok [0x07] := by decide +kernel

-- test_complex_math_triple
example : runCalls dumb [.assemble ".org 1\nstart:\n.org 10\nend:\n.db end-start-2+start+start+1", .link] =
    .ok [0x0A] := by decide +kernel

-- test_complex_math_wrong
example : (match runCalls dumb [.assemble ".org 1\nstart:\n.org 10\nend:\n.db end-start-2+start+unknown+1", .link] with | .error e => e.isAssembler | .ok _ => false) = true := by decide +kernel -- UnknownLabel

-- test_complex_math_multiply
example : runCalls dumb [.assemble ".org 1\nstart:\n.org 10\nend:\n.db end-start-2+start+start+1*2", .link] =
    .ok [0x14] := by decide +kernel

-- test_complex_math_divide
example : runCalls dumb [.assemble ".org 1\nstart:\n.org 10\nend:\n.db end-start-2+start+start+1/2", .link] =
    .ok [0x05] := by decide +kernel

-- test_complex_math_bitmask
example : runCalls dumb [.assemble ".define ONE 1\n.define TWO 2\n.define FOUR 4", .assemble "LOAD ONE|TWO|FOUR|8"] =
    .ok [0xAA, 0xBB, 0xCC, 0xDD, 0x00, 0x00, 0x00, 0x0F] := by decide +kernel

-- test_upto
example : (runCalls dumb [.assemble ".org 1\n.upto 100"]).map List.length = .ok 100 := by decide +kernel

-- test_upto_filled
example : (runCalls dumb [.assemble ".org 1\n.db 0\n.upto 100"]).map List.length = .ok 100 := by decide +kernel

-- test_upto_after_goto
example : (runCalls dumb [.assemble ".org 1\n.db 0\n.org 10\n.upto 100"]).map List.length = .ok 101 := by decide +kernel

end Necro
