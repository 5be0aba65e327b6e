import Verif.Lemmas.Mips32
import Verif.Lemmas.Linked
/-!
# C55, C56, C57: the MIPS instruction set

`decodeMips` is the instruction set of the MIPS manual.  `Emits (mipsOn be) c t rest blob rels`: in
context `c` the mnemonic `t` with operand tokens `rest` assembles to `blob`, leaving the references
`rels`, on a big- or little-endian machine.
-/

namespace Necro
open Spec

theorem MipsWritten.mono {v v' : Str → Int → Prop} (hv : ∀ t x, v t x → v' t x) {m : String} {rest : List Str} {i : MipsInstr}
    (h : MipsWritten v m rest i) : MipsWritten v' m rest i := by
  cases h with
  | alu h1 h2 h3 => exact .alu h1 h2 h3
  | shift h1 h2 h3 h4 h5 => exact .shift h1 h2 h3 (hv _ _ h4) h5
  | shiftV h1 h2 h3 => exact .shiftV h1 h2 h3
  | jr h1 => exact .jr h1
  | moveFrom h1 => exact .moveFrom h1
  | moveTo h1 => exact .moveTo h1
  | trap => exact .trap
  | aluImm h1 h2 h3 h4 h5 => exact .aluImm h1 h2 h3 (hv _ _ h4) h5
  | lui h1 h3 h4 h5 => exact .lui h1 h3 (hv _ _ h4) h5
  | branch h1 h2 h3 h4 h5 => exact .branch h1 h2 h3 (hv _ _ h4) h5
  | branchZ h1 h3 h4 h5 => exact .branchZ h1 h3 (hv _ _ h4) h5
  | jump h3 h4 h5 => exact .jump h3 (hv _ _ h4) h5
  | memory h1 h2 h3 h4 h5 => exact .memory h1 h2 h3 (hv _ _ h4) h5

theorem decodes_arithLog {be : Bool} {c : Ctx} {t : Str} {rest : List Str} {blob : Bytes} {rels : List Reloc} {m : String} {n : Nat}
    (h : mipsRun be .arithLog n (t :: rest) c = (.ok (some blob), rels)) (ht : eqNoCase t m.toList) (hn : n < 64)
    (hl : mipsSpecial.lookup n = some (m, .alu)) :
    blob.length = 4 ∧ ∃ m i, eqNoCase t m.toList ∧ decodeMips (ofBytes be blob) = some i ∧ MipsWritten (OperandValue c rels) m rest i := by
  simp only [mipsRun, instrMatch_cons] at h
  split at h
  · next hm =>
    obtain ⟨a, b, e, rfl, h1, h2, h3⟩ := matchAll3 hm
    obtain ⟨rd, h1⟩ := matches_regs.1 h1
    obtain ⟨rs, h2⟩ := matches_regs.1 h2
    obtain ⟨rt, h3⟩ := matches_regs.1 h3
    have b1 := mipsReg_lt h1
    have b2 := mipsReg_lt h2
    have b3 := mipsReg_lt h3
    simp only [List.getD_cons_succ, List.getD_cons_zero] at h
    rw [H.bind_run (mipsReg_of h1 c), H.bind_run (mipsReg_of h2 c), H.bind_run (mipsReg_of h3 c)] at h
    obtain ⟨rfl, -, hlen, hw⟩ := mipsWord_ok h (by simp) (by simp [partSum, fieldPart]; omega)
    have hw : ofBytes be blob = rs * 2 ^ 21 + rt * 2 ^ 16 + rd * 2 ^ 11 + 0 * 2 ^ 6 + n := by
      simp [partSum, fieldPart] at hw; omega
    obtain ⟨f0, f1, f2, f3, f4, f5, f6⟩ := fields_R hw b2 b3 b1 (by decide) hn
    refine ⟨hlen, m, _, ht, ?_, .alu h1 h2 h3⟩
    rw [decode_special f0 (by rw [f5]; exact hl)]
    simp [mipsOperands, f1, f2, f3, f4]
  · cases h

theorem decodes_arithLogI {be : Bool} {c : Ctx} {t : Str} {rest : List Str} {blob : Bytes} {rels : List Reloc} {m : String} {n : Nat} {signed : Bool}
    (h : mipsRun be (.arithLogI signed) n (t :: rest) c = (.ok (some blob), rels)) (ht : eqNoCase t m.toList) (hn : n < 64)
    (hn0 : n ≠ 0) (hl : mipsOpcodes.lookup n = some (m, .aluImm)) :
    blob.length = 4 ∧ ∃ m i, eqNoCase t m.toList ∧ decodeMips (ofBytes be blob) = some i ∧ MipsWritten (OperandValue c rels) m rest i := by
  simp only [mipsRun, instrMatch_cons] at h
  split at h
  · next hm =>
    obtain ⟨a, b, e, rfl, h1, h2, h3⟩ := matchAll3 hm
    obtain ⟨rt, h1⟩ := matches_regs.1 h1
    obtain ⟨rs, h2⟩ := matches_regs.1 h2
    have h3 := matches_imm.1 h3
    have b1 := mipsReg_lt h1
    have b2 := mipsReg_lt h2
    simp only [List.getD_cons_succ, List.getD_cons_zero] at h
    rw [H.bind_run (mipsReg_of h1 c), H.bind_run (mipsReg_of h2 c)] at h
    obtain ⟨v, r, r', hv, h, hr⟩ := H.bind_ok h
    obtain ⟨x, hx, hxv⟩ := operand_value (by simp) hv
    obtain ⟨rfl, -, hlen, hw⟩ := mipsWord_ok h (by simp) (by simp [partSum, fieldPart]; omega)
    rw [List.append_nil] at hr
    subst hr
    have hw : ofBytes be blob = n * 2 ^ 26 + rs * 2 ^ 21 + rt * 2 ^ 16 + (x % 2 ^ 16).toNat := by
      simp [partSum, fieldPart] at hw hxv ⊢; omega
    obtain ⟨f0, f1, f2, f3⟩ := fields_I hw b2 b1 (by simp; omega) hn
    refine ⟨hlen, m, _, ht, ?_, .aluImm (imm := (x % 2 ^ 16).toNat) h1 h2 h3 hx (by simp; omega)⟩
    rw [decode_opcode (by rw [f0]; exact hn0) (by rw [f0]; exact hl)]
    simp only [mipsOperands, f1, f2, f3]
  · cases h

theorem decodes_shift {be : Bool} {c : Ctx} {t : Str} {rest : List Str} {blob : Bytes} {rels : List Reloc} {m : String} {n : Nat}
    (h : mipsRun be .shift n (t :: rest) c = (.ok (some blob), rels)) (ht : eqNoCase t m.toList) (hn : n < 64)
    (hl : mipsSpecial.lookup n = some (m, .shift)) :
    blob.length = 4 ∧ ∃ m i, eqNoCase t m.toList ∧ decodeMips (ofBytes be blob) = some i ∧ MipsWritten (OperandValue c rels) m rest i := by
  simp only [mipsRun, instrMatch_cons] at h
  split at h
  · next hm =>
    obtain ⟨a, b, e, rfl, h1, h2, h3⟩ := matchAll3 hm
    obtain ⟨rd, h1⟩ := matches_regs.1 h1
    obtain ⟨rt, h2⟩ := matches_regs.1 h2
    have h3 := matches_imm.1 h3
    have b1 := mipsReg_lt h1
    have b2 := mipsReg_lt h2
    simp only [List.getD_cons_succ, List.getD_cons_zero] at h
    rw [H.bind_run (mipsReg_of h1 c), H.bind_run (mipsReg_of h2 c)] at h
    obtain ⟨v, r, r', hv, h, hr⟩ := H.bind_ok h
    obtain ⟨x, hx, hxv⟩ := operand_value (by simp) hv
    obtain ⟨rfl, -, hlen, hw⟩ := mipsWord_ok h (by simp) (by simp [partSum, fieldPart]; omega)
    rw [List.append_nil] at hr
    subst hr
    have hw : ofBytes be blob = 0 * 2 ^ 21 + rt * 2 ^ 16 + rd * 2 ^ 11 + (x % 32).toNat * 2 ^ 6 + n := by
      simp [partSum, fieldPart] at hw hxv ⊢; omega
    obtain ⟨f0, f1, f2, f3, f4, f5, f6⟩ := fields_R hw (by decide) b2 b1 (by omega) hn
    refine ⟨hlen, m, _, ht, ?_, .shift (sa := (x % 32).toNat) h1 h2 h3 hx (by omega)⟩
    rw [decode_special f0 (by rw [f5]; exact hl)]
    simp only [mipsOperands, f1, f2, f3, f4, if_true]
  · cases h

theorem decodes_shiftV {be : Bool} {c : Ctx} {t : Str} {rest : List Str} {blob : Bytes} {rels : List Reloc} {m : String} {n : Nat}
    (h : mipsRun be .shiftV n (t :: rest) c = (.ok (some blob), rels)) (ht : eqNoCase t m.toList) (hn : n < 64)
    (hl : mipsSpecial.lookup n = some (m, .shiftV)) :
    blob.length = 4 ∧ ∃ m i, eqNoCase t m.toList ∧ decodeMips (ofBytes be blob) = some i ∧ MipsWritten (OperandValue c rels) m rest i := by
  simp only [mipsRun, instrMatch_cons] at h
  split at h
  · next hm =>
    obtain ⟨a, b, e, rfl, h1, h2, h3⟩ := matchAll3 hm
    obtain ⟨rd, h1⟩ := matches_regs.1 h1
    obtain ⟨rt, h2⟩ := matches_regs.1 h2
    obtain ⟨rs, h3⟩ := matches_regs.1 h3
    have b1 := mipsReg_lt h1
    have b2 := mipsReg_lt h2
    have b3 := mipsReg_lt h3
    simp only [List.getD_cons_succ, List.getD_cons_zero] at h
    rw [H.bind_run (mipsReg_of h1 c), H.bind_run (mipsReg_of h2 c), H.bind_run (mipsReg_of h3 c)] at h
    obtain ⟨rfl, -, hlen, hw⟩ := mipsWord_ok h (by simp) (by simp [partSum, fieldPart]; omega)
    have hw : ofBytes be blob = rs * 2 ^ 21 + rt * 2 ^ 16 + rd * 2 ^ 11 + 0 * 2 ^ 6 + n := by
      simp [partSum, fieldPart] at hw; omega
    obtain ⟨f0, f1, f2, f3, f4, f5, f6⟩ := fields_R hw b3 b2 b1 (by decide) hn
    refine ⟨hlen, m, _, ht, ?_, .shiftV h1 h2 h3⟩
    rw [decode_special f0 (by rw [f5]; exact hl)]
    simp [mipsOperands, f1, f2, f3, f4]
  · cases h

theorem decodes_loadI {be : Bool} {c : Ctx} {t : Str} {rest : List Str} {blob : Bytes} {rels : List Reloc} {m : String} {n : Nat}
    (h : mipsRun be (.loadI true) n (t :: rest) c = (.ok (some blob), rels)) (ht : eqNoCase t m.toList) (hn : n < 64)
    (hn0 : n ≠ 0) (hl : mipsOpcodes.lookup n = some (m, .lui)) (hlui : m = "lui") :
    blob.length = 4 ∧ ∃ m i, eqNoCase t m.toList ∧ decodeMips (ofBytes be blob) = some i ∧ MipsWritten (OperandValue c rels) m rest i := by
  simp only [mipsRun, instrMatch_cons] at h
  split at h
  · next hm =>
    obtain ⟨a, e, rfl, h1, h3⟩ := matchAll2 hm
    obtain ⟨rt, h1⟩ := matches_regs.1 h1
    have h3 := matches_imm.1 h3
    have b1 := mipsReg_lt h1
    simp only [List.getD_cons_succ, List.getD_cons_zero] at h
    rw [H.bind_run (mipsReg_of h1 c)] at h
    obtain ⟨v, r, r', hv, h, hr⟩ := H.bind_ok h
    unfold mipsHalf at hv
    rw [if_pos rfl] at hv
    obtain ⟨v', q, q', hv', hv, hq⟩ := H.bind_ok hv
    cases hv
    obtain ⟨x, hx, hxv⟩ := operand_value (by simp) hv'
    obtain ⟨rfl, -, hlen, hw⟩ := mipsWord_ok h (by simp) (by simp [partSum, fieldPart]; omega)
    rw [List.append_nil] at hr hq
    subst hr; subst hq
    have hw : ofBytes be blob = n * 2 ^ 26 + 0 * 2 ^ 21 + rt * 2 ^ 16 + (x / 2 ^ 16 % 2 ^ 16).toNat := by
      simp [partSum, fieldPart, pyShr] at hw hxv ⊢; omega
    obtain ⟨f0, f1, f2, f3⟩ := fields_I hw (by decide) b1 (by simp; omega) hn
    rw [hlui] at ht hl
    refine ⟨hlen, "lui", _, ht, ?_, .lui (imm := (x / 2 ^ 16 % 2 ^ 16).toNat) h1 h3 hx (by simp; omega)⟩
    rw [decode_opcode (by rw [f0]; exact hn0) (by rw [f0]; exact hl)]
    simp only [mipsOperands, f1, f2, f3, if_true]
  · cases h

theorem decodes_branch {be : Bool} {c : Ctx} {t : Str} {rest : List Str} {blob : Bytes} {rels : List Reloc} {m : String} {n : Nat}
    (h : mipsRun be .branch n (t :: rest) c = (.ok (some blob), rels)) (ht : eqNoCase t m.toList) (hn : n < 64)
    (hn0 : n ≠ 0) (hl : mipsOpcodes.lookup n = some (m, .branch)) :
    blob.length = 4 ∧ ∃ m i, eqNoCase t m.toList ∧ decodeMips (ofBytes be blob) = some i ∧ MipsWritten (OperandValue c rels) m rest i := by
  simp only [mipsRun, instrMatch_cons] at h
  split at h
  · next hm =>
    obtain ⟨a, b, e, rfl, h1, h2, h3⟩ := matchAll3 hm
    obtain ⟨rs, h1⟩ := matches_regs.1 h1
    obtain ⟨rt, h2⟩ := matches_regs.1 h2
    have b2 := mipsReg_lt h2
    have h3 := matches_imm.1 h3
    have b1 := mipsReg_lt h1
    simp only [List.getD_cons_succ, List.getD_cons_zero] at h
    rw [H.bind_run (mipsReg_of h1 c), H.bind_run (mipsReg_of h2 c)] at h
    obtain ⟨v, r, r', hv, h, hr⟩ := H.bind_ok h
    unfold mipsRel at hv
    rw [H.bind_run (H.read_apply c)] at hv
    obtain ⟨v', q, q', hv', hv, hq⟩ := H.bind_ok hv
    cases hv
    obtain ⟨x, hx, hxv⟩ := operand_value (by simp) hv'
    obtain ⟨rfl, -, hlen, hw⟩ := mipsWord_ok h (by simp) (by simp [partSum, fieldPart]; omega)
    rw [List.append_nil] at hr hq
    subst hr; subst hq
    have hw : ofBytes be blob = n * 2 ^ 26 + rs * 2 ^ 21 + rt * 2 ^ 16 + (x / 4 % 2 ^ 16).toNat := by
      simp [partSum, fieldPart, pyShr] at hw hxv ⊢; omega
    obtain ⟨f0, f1, f2, f3⟩ := fields_I hw b1 b2 (by simp; omega) hn
    refine ⟨hlen, m, _, ht, ?_, .branch (offset := (x / 4 % 2 ^ 16).toNat) h1 h2 h3 hx (by simp; omega)⟩
    rw [decode_opcode (by rw [f0]; exact hn0) (by rw [f0]; exact hl)]
    simp only [mipsOperands, f1, f2, f3]
  · cases h

theorem decodes_branchZ {be : Bool} {c : Ctx} {t : Str} {rest : List Str} {blob : Bytes} {rels : List Reloc} {m : String} {n : Nat}
    (h : mipsRun be .branchZ n (t :: rest) c = (.ok (some blob), rels)) (ht : eqNoCase t m.toList) (hn : n < 64)
    (hn0 : n ≠ 0) (hl : mipsOpcodes.lookup n = some (m, .branchZ)) :
    blob.length = 4 ∧ ∃ m i, eqNoCase t m.toList ∧ decodeMips (ofBytes be blob) = some i ∧ MipsWritten (OperandValue c rels) m rest i := by
  simp only [mipsRun, instrMatch_cons] at h
  split at h
  · next hm =>
    obtain ⟨a, e, rfl, h1, h3⟩ := matchAll2 hm
    obtain ⟨rs, h1⟩ := matches_regs.1 h1
    have h3 := matches_imm.1 h3
    have b1 := mipsReg_lt h1
    simp only [List.getD_cons_succ, List.getD_cons_zero] at h
    rw [H.bind_run (mipsReg_of h1 c)] at h
    obtain ⟨v, r, r', hv, h, hr⟩ := H.bind_ok h
    unfold mipsRel at hv
    rw [H.bind_run (H.read_apply c)] at hv
    obtain ⟨v', q, q', hv', hv, hq⟩ := H.bind_ok hv
    cases hv
    obtain ⟨x, hx, hxv⟩ := operand_value (by simp) hv'
    obtain ⟨rfl, -, hlen, hw⟩ := mipsWord_ok h (by simp) (by simp [partSum, fieldPart]; omega)
    rw [List.append_nil] at hr hq
    subst hr; subst hq
    have hw : ofBytes be blob = n * 2 ^ 26 + rs * 2 ^ 21 + 0 * 2 ^ 16 + (x / 4 % 2 ^ 16).toNat := by
      have hv4 : pyShr v' 2 % 65536 = x / 4 % 65536 := by
        unfold pyShr; simp only [Nat.reducePow] at hxv ⊢; omega
      rw [Nat.zero_mul, Nat.add_zero]
      simp [partSum, fieldPart, hv4] at hw ⊢
      have h0 := Int.emod_nonneg (x / 4) (show (65536 : Int) ≠ 0 by decide)
      generalize x / 4 % 65536 = y at *
      omega
    obtain ⟨f0, f1, f2, f3⟩ := fields_I hw b1 (by decide) (by simp; omega) hn
    refine ⟨hlen, m, _, ht, ?_, .branchZ (offset := (x / 4 % 2 ^ 16).toNat) h1 h3 hx (by simp; omega)⟩
    rw [decode_opcode (by rw [f0]; exact hn0) (by rw [f0]; exact hl)]
    simp only [mipsOperands, f1, f2, f3, if_true]
  · cases h

theorem decodes_jump {be : Bool} {c : Ctx} {t : Str} {rest : List Str} {blob : Bytes} {rels : List Reloc} {m : String} {n : Nat}
    (h : mipsRun be .jump n (t :: rest) c = (.ok (some blob), rels)) (ht : eqNoCase t m.toList) (hn : n < 64)
    (hn0 : n ≠ 0) (hl : mipsOpcodes.lookup n = some (m, .jump)) :
    blob.length = 4 ∧ ∃ m i, eqNoCase t m.toList ∧ decodeMips (ofBytes be blob) = some i ∧ MipsWritten (OperandValue c rels) m rest i := by
  simp only [mipsRun, instrMatch_cons] at h
  split at h
  · next hm =>
    obtain ⟨e, rfl, h3⟩ := matchAll1 hm
    have h3 := matches_imm.1 h3
    simp only [List.getD_cons_succ, List.getD_cons_zero] at h
    obtain ⟨v, r, r', hv, h, hr⟩ := H.bind_ok h
    unfold mipsAbs at hv
    obtain ⟨v', q, q', hv', hv, hq⟩ := H.bind_ok hv
    cases hv
    obtain ⟨x, hx, hxv⟩ := operand_value (by simp) hv'
    obtain ⟨rfl, -, hlen, hw⟩ := mipsWord_ok h (by simp) (by simp [partSum, fieldPart]; omega)
    rw [List.append_nil] at hr hq
    subst hr; subst hq
    have hw : ofBytes be blob = n * 2 ^ 26 + (x / 4 % 2 ^ 26).toNat := by
      simp [partSum, fieldPart, pyShr] at hw hxv ⊢; omega
    obtain ⟨f0, f1⟩ := fields_J hw (by simp; omega) hn
    refine ⟨hlen, m, _, ht, ?_, .jump (target := (x / 4 % 2 ^ 26).toNat) h3 hx (by simp; omega)⟩
    rw [decode_opcode (by rw [f0]; exact hn0) (by rw [f0]; exact hl)]
    simp only [mipsOperands, f1]
  · cases h

theorem decodes_jumpR {be : Bool} {c : Ctx} {t : Str} {rest : List Str} {blob : Bytes} {rels : List Reloc} {m : String} {n : Nat}
    (h : mipsRun be .jumpR n (t :: rest) c = (.ok (some blob), rels)) (ht : eqNoCase t m.toList) (hn : n < 64)
    (hl : mipsSpecial.lookup n = some (m, .jr)) (hjr : m = "jr") :
    blob.length = 4 ∧ ∃ m i, eqNoCase t m.toList ∧ decodeMips (ofBytes be blob) = some i ∧ MipsWritten (OperandValue c rels) m rest i := by
  simp only [mipsRun, instrMatch_cons] at h
  split at h
  · next hm =>
    obtain ⟨a, rfl, h1⟩ := matchAll1 hm
    obtain ⟨rs, h1⟩ := matches_regs.1 h1
    have b1 := mipsReg_lt h1
    simp only [List.getD_cons_succ, List.getD_cons_zero] at h
    rw [H.bind_run (mipsReg_of h1 c)] at h
    obtain ⟨rfl, -, hlen, hw⟩ := mipsWord_ok h (by simp) (by simp [partSum, fieldPart]; omega)
    have hw : ofBytes be blob = rs * 2 ^ 21 + 0 * 2 ^ 16 + 0 * 2 ^ 11 + 0 * 2 ^ 6 + n := by
      simp [partSum, fieldPart] at hw; omega
    obtain ⟨f0, f1, f2, f3, f4, f5, f6⟩ := fields_R hw b1 (by decide) (by decide) (by decide) hn
    rw [hjr] at ht hl
    refine ⟨hlen, "jr", _, ht, ?_, .jr h1⟩
    rw [decode_special f0 (by rw [f5]; exact hl)]
    simp [mipsOperands, f1, f2, f3, f4]
  · cases h

theorem decodes_loadStore {be : Bool} {c : Ctx} {t : Str} {rest : List Str} {blob : Bytes} {rels : List Reloc} {m : String} {n : Nat}
    (h : mipsRun be .loadStore n (t :: rest) c = (.ok (some blob), rels)) (ht : eqNoCase t m.toList) (hn : n < 64)
    (hn0 : n ≠ 0) (hl : mipsOpcodes.lookup n = some (m, .memory)) :
    blob.length = 4 ∧ ∃ m i, eqNoCase t m.toList ∧ decodeMips (ofBytes be blob) = some i ∧ MipsWritten (OperandValue c rels) m rest i := by
  simp only [mipsRun, instrMatch_cons] at h
  split at h
  · next hm =>
    obtain ⟨a, e, p, b, q, rfl, h1, h3, hp, h2, hq⟩ := matchAll5 hm
    obtain ⟨rt, h1⟩ := matches_regs.1 h1
    obtain ⟨rs, h2⟩ := matches_regs.1 h2
    have h3 := matches_imm.1 h3
    have b1 := mipsReg_lt h1
    have b2 := mipsReg_lt h2
    rw [matches_L, decide_eq_true_eq, reg_L] at hp
    rw [matches_R, decide_eq_true_eq, reg_R] at hq
    subst hp; subst hq
    simp only [List.getD_cons_succ, List.getD_cons_zero] at h
    rw [H.bind_run (mipsReg_of h1 c)] at h
    obtain ⟨v, r, r', hv, h, hr⟩ := H.bind_ok h
    unfold mipsOffset at hv
    obtain ⟨v', q, q', hv', hv, hq⟩ := H.bind_ok hv
    cases v' with
    | none => cases hv
    | some v'' =>
      cases hv
      rw [H.parseInteger_apply] at hv'
      obtain ⟨hpi, rfl⟩ := Prod.mk.inj hv'
      obtain ⟨x, hx, hxv⟩ := number_value (by decide) hpi
      rw [H.bind_run (mipsReg_of h2 c)] at h
      obtain ⟨rfl, -, hlen, hw⟩ := mipsWord_ok h (by simp) (by simp [partSum, fieldPart]; omega)
      rw [hq] at hr
      subst hr
      have hw : ofBytes be blob = n * 2 ^ 26 + rs * 2 ^ 21 + rt * 2 ^ 16 + (x % 2 ^ 16).toNat := by
        simp [partSum, fieldPart] at hw hxv ⊢; omega
      obtain ⟨f0, f1, f2, f3⟩ := fields_I hw b2 b1 (by simp; omega) hn
      refine ⟨hlen, m, _, ht, ?_, .memory (offset := (x % 2 ^ 16).toNat) h1 h3 h2 hx (by simp; omega)⟩
      rw [decode_opcode (by rw [f0]; exact hn0) (by rw [f0]; exact hl)]
      simp only [mipsOperands, f1, f2, f3]
  · cases h

theorem decodes_moveFrom {be : Bool} {c : Ctx} {t : Str} {rest : List Str} {blob : Bytes} {rels : List Reloc} {m : String} {n : Nat}
    (h : mipsRun be .moveFrom n (t :: rest) c = (.ok (some blob), rels)) (ht : eqNoCase t m.toList) (hn : n < 64)
    (hl : mipsSpecial.lookup n = some (m, .moveFrom)) :
    blob.length = 4 ∧ ∃ m i, eqNoCase t m.toList ∧ decodeMips (ofBytes be blob) = some i ∧ MipsWritten (OperandValue c rels) m rest i := by
  simp only [mipsRun, instrMatch_cons] at h
  split at h
  · next hm =>
    obtain ⟨a, rfl, h1⟩ := matchAll1 hm
    obtain ⟨rd, h1⟩ := matches_regs.1 h1
    have b1 := mipsReg_lt h1
    simp only [List.getD_cons_succ, List.getD_cons_zero] at h
    rw [H.bind_run (mipsReg_of h1 c)] at h
    obtain ⟨rfl, -, hlen, hw⟩ := mipsWord_ok h (by simp) (by simp [partSum, fieldPart]; omega)
    have hw : ofBytes be blob = 0 * 2 ^ 21 + 0 * 2 ^ 16 + rd * 2 ^ 11 + 0 * 2 ^ 6 + n := by
      simp [partSum, fieldPart] at hw; omega
    obtain ⟨f0, f1, f2, f3, f4, f5, f6⟩ := fields_R hw (by decide) (by decide) b1 (by decide) hn
    refine ⟨hlen, m, _, ht, ?_, .moveFrom h1⟩
    rw [decode_special f0 (by rw [f5]; exact hl)]
    simp [mipsOperands, f1, f2, f3, f4]
  · cases h

theorem decodes_moveTo {be : Bool} {c : Ctx} {t : Str} {rest : List Str} {blob : Bytes} {rels : List Reloc} {m : String} {n : Nat}
    (h : mipsRun be .moveTo n (t :: rest) c = (.ok (some blob), rels)) (ht : eqNoCase t m.toList) (hn : n < 64)
    (hl : mipsSpecial.lookup n = some (m, .moveTo)) :
    blob.length = 4 ∧ ∃ m i, eqNoCase t m.toList ∧ decodeMips (ofBytes be blob) = some i ∧ MipsWritten (OperandValue c rels) m rest i := by
  simp only [mipsRun, instrMatch_cons] at h
  split at h
  · next hm =>
    obtain ⟨a, rfl, h1⟩ := matchAll1 hm
    obtain ⟨rs, h1⟩ := matches_regs.1 h1
    have b1 := mipsReg_lt h1
    simp only [List.getD_cons_succ, List.getD_cons_zero] at h
    rw [H.bind_run (mipsReg_of h1 c)] at h
    obtain ⟨rfl, -, hlen, hw⟩ := mipsWord_ok h (by simp) (by simp [partSum, fieldPart]; omega)
    have hw : ofBytes be blob = rs * 2 ^ 21 + 0 * 2 ^ 16 + 0 * 2 ^ 11 + 0 * 2 ^ 6 + n := by
      simp [partSum, fieldPart] at hw; omega
    obtain ⟨f0, f1, f2, f3, f4, f5, f6⟩ := fields_R hw b1 (by decide) (by decide) (by decide) hn
    refine ⟨hlen, m, _, ht, ?_, .moveTo h1⟩
    rw [decode_special f0 (by rw [f5]; exact hl)]
    simp [mipsOperands, f1, f2, f3, f4]
  · cases h

theorem decodes_noArgs {be : Bool} {c : Ctx} {t : Str} {rest : List Str} {blob : Bytes} {rels : List Reloc} {m : String} {n : Nat}
    (h : mipsRun be .noArgs n (t :: rest) c = (.ok (some blob), rels)) (ht : eqNoCase t m.toList) (hn : n < 64)
    (hl : mipsSpecial.lookup n = some (m, .trap)) :
    blob.length = 4 ∧ ∃ m i, eqNoCase t m.toList ∧ decodeMips (ofBytes be blob) = some i ∧ MipsWritten (OperandValue c rels) m rest i := by
  simp only [mipsRun] at h
  split at h
  · next hm =>
    have hr : rest = [] := by simpa using hm
    subst hr
    obtain ⟨rfl, -, hlen, hw⟩ := mipsWord_ok h (by simp) (by simp [partSum, fieldPart]; omega)
    have hw : ofBytes be blob = 0 * 2 ^ 21 + 0 * 2 ^ 16 + 0 * 2 ^ 11 + 0 * 2 ^ 6 + n := by
      simp [partSum, fieldPart] at hw; omega
    obtain ⟨f0, f1, f2, f3, f4, f5, f6⟩ := fields_R hw (by decide) (by decide) (by decide) (by decide) hn
    refine ⟨hlen, m, _, ht, ?_, .trap⟩
    rw [decode_special f0 (by rw [f5]; exact hl)]
    simp only [mipsOperands, f6]
  · cases h

/-- C55: what is accepted is four bytes, and the processor decodes them to the instruction written:
the same mnemonic, the registers named, and the operand's value in the immediate field. -/
theorem C55_decodes (be : Bool) (c : Ctx) (t : Str) (rest : List Str) (blob : Bytes) (rels : List Reloc)
    (hem : Emits (mipsOn be) c t rest blob rels) (hodd : ∀ m ∈ mipsOdd, ¬ eqNoCase t m.toList) :
    blob.length = 4 ∧ ∃ m i, eqNoCase t m.toList ∧ decodeMips (ofBytes be blob) = some i ∧
      MipsWritten (OperandValue c rels) m rest i := by
  obtain ⟨m, form, n, hrow, ht, h⟩ := mips_row hem
  have hno : m ∉ mipsOdd := fun hm => hodd m hm ht
  obtain ⟨hn, hfmt⟩ := table_rows _ hrow hno
  simp only at hn hfmt
  cases form with
  | swapped => cases h
  | arithLog => obtain ⟨f, hf, hjr, hlui, hl⟩ := hfmt (by simp); cases hf; exact decodes_arithLog h ht hn hl
  | arithLogI signed => obtain ⟨f, hf, hjr, hlui, hl⟩ := hfmt (by simp); cases hf; exact decodes_arithLogI h ht hn hl.1 hl.2
  | shift => obtain ⟨f, hf, hjr, hlui, hl⟩ := hfmt (by simp); cases hf; exact decodes_shift h ht hn hl
  | shiftV => obtain ⟨f, hf, hjr, hlui, hl⟩ := hfmt (by simp); cases hf; exact decodes_shiftV h ht hn hl
  | loadI high =>
    obtain ⟨f, hf, hjr, hlui, hl⟩ := hfmt (by simp)
    cases high with
    | false => cases hf
    | true => cases hf; exact decodes_loadI h ht hn hl.1 hl.2 (hlui rfl)
  | branch => obtain ⟨f, hf, hjr, hlui, hl⟩ := hfmt (by simp); cases hf; exact decodes_branch h ht hn hl.1 hl.2
  | branchZ => obtain ⟨f, hf, hjr, hlui, hl⟩ := hfmt (by simp); cases hf; exact decodes_branchZ h ht hn hl.1 hl.2
  | jump => obtain ⟨f, hf, hjr, hlui, hl⟩ := hfmt (by simp); cases hf; exact decodes_jump h ht hn hl.1 hl.2
  | jumpR => obtain ⟨f, hf, hjr, hlui, hl⟩ := hfmt (by simp); cases hf; exact decodes_jumpR h ht hn hl (hjr rfl)
  | loadStore => obtain ⟨f, hf, hjr, hlui, hl⟩ := hfmt (by simp); cases hf; exact decodes_loadStore h ht hn hl.1 hl.2
  | moveFrom => obtain ⟨f, hf, hjr, hlui, hl⟩ := hfmt (by simp); cases hf; exact decodes_moveFrom h ht hn hl
  | moveTo => obtain ⟨f, hf, hjr, hlui, hl⟩ := hfmt (by simp); cases hf; exact decodes_moveTo h ht hn hl
  | noArgs => obtain ⟨f, hf, hjr, hlui, hl⟩ := hfmt (by simp); cases hf; exact decodes_noArgs h ht hn hl

/-- Instructions of the manual that the assembler cannot produce. -/
def mipsMissing : List String := ["div", "divu", "mult", "multu", "nor", "or", "sub", "subu", "xor", "sltu", "sltiu", "jalr"]

theorem special_row : ∀ p ∈ mipsSpecial, p.2.1 ∉ mipsMissing → p.1 < 64 ∧ ∃ form, (p.2.1, form, p.1) ∈ mipsTable ∧
    formFormat form = some (true, p.2.2) := by
  have : ∀ p ∈ mipsSpecial, p.2.1 ∉ mipsMissing → p.1 < 64 ∧ (mipsTable.any fun q =>
    decide (q.1 = p.2.1 ∧ q.2.2 = p.1 ∧ formFormat q.2.1 = some (true, p.2.2))) = true := by decide +kernel
  intro p hp hm
  obtain ⟨h0, h⟩ := this p hp hm
  simp only [List.any_eq_true, decide_eq_true_eq] at h
  obtain ⟨q, hq, h1, h2, h3⟩ := h
  exact ⟨h0, q.2.1, by rw [← h1, ← h2]; exact hq, h3⟩

theorem opcode_row : ∀ p ∈ mipsOpcodes, p.2.1 ∉ mipsMissing → p.1 < 64 ∧ ∃ form, (p.2.1, form, p.1) ∈ mipsTable ∧
    formFormat form = some (false, p.2.2) := by
  have : ∀ p ∈ mipsOpcodes, p.2.1 ∉ mipsMissing → p.1 < 64 ∧ (mipsTable.any fun q =>
    decide (q.1 = p.2.1 ∧ q.2.2 = p.1 ∧ formFormat q.2.1 = some (false, p.2.2))) = true := by decide +kernel
  intro p hp hm
  obtain ⟨h0, h⟩ := this p hp hm
  simp only [List.any_eq_true, decide_eq_true_eq] at h
  obtain ⟨q, hq, h1, h2, h3⟩ := h
  exact ⟨h0, q.2.1, by rw [← h1, ← h2]; exact hq, h3⟩

theorem special_names : ∀ p ∈ mipsSpecial, (p.2.2 = .jr → p.2.1 = "jr") ∧ (p.2.2 = .jalr → p.2.1 = "jalr") ∧
    (p.2.2 = .mulDiv → p.2.1 ∈ mipsMissing) := by decide +kernel

theorem opcode_names : ∀ p ∈ mipsOpcodes, (p.2.2 = .lui → p.2.1 = "lui") ∧ (p.2.2 = .jr → p.2.1 = "jr") ∧ (p.2.2 = .jalr → p.2.1 = "jalr") := by decide +kernel

theorem wordBytes_nat {be : Bool} {w : Nat} {v : Int} (hw : w < 2 ^ 32) (h : v = w) : ofBytes be (wordBytes be 4 v) = w := by
  have := ofBytes_wordBytes be 4 v
  rw [h] at this ⊢
  simp only [Nat.reduceMul] at this
  omega

theorem operands_mnemonic {w : Nat} {m : String} {f : MipsFormat} {i : MipsInstr} (h : mipsOperands w m f = some i)
    (hj : f = .jr → m = "jr") (hl : f = .jalr → m = "jalr") (hu : f = .lui → m = "lui") : i.mnemonic = m := by
  unfold mipsOperands at h
  cases f <;> simp only [Option.some.injEq, Option.ite_none_right_eq_some] at h
  all_goals first | (subst h; simp [MipsInstr.mnemonic, hu]; done) | (obtain ⟨_, rfl⟩ := h; simp [MipsInstr.mnemonic, hj, hl, hu]; done)

theorem fld_lt (w hi lo : Nat) : fld w hi lo < 2 ^ (hi - lo + 1) := Nat.mod_lt _ (Nat.pow_pos (by decide))

theorem fld_split {w : Nat} (hw : w < 2 ^ 32) :
    w = fld w 31 26 * 2 ^ 26 + fld w 25 21 * 2 ^ 21 + fld w 20 16 * 2 ^ 16 + fld w 15 11 * 2 ^ 11 + fld w 10 6 * 2 ^ 6 + fld w 5 0 ∧
    w = fld w 31 26 * 2 ^ 26 + fld w 25 21 * 2 ^ 21 + fld w 20 16 * 2 ^ 16 + fld w 15 0 ∧
    w = fld w 31 26 * 2 ^ 26 + fld w 25 0 ∧
    fld w 25 6 = fld w 25 21 * 2 ^ 15 + fld w 20 16 * 2 ^ 10 + fld w 15 11 * 2 ^ 5 + fld w 10 6 := by
  unfold fld
  simp only [Nat.reduceSub, Nat.reduceAdd, Nat.reducePow] at *
  refine ⟨?_, ?_, ?_, ?_⟩ <;> omega

/-- Every number can be written in context `c`. -/
def HasNumerals (c : Ctx) : Prop := ∀ v k : Nat, ∀ signed, 1 ≤ k → v < 2 ^ k →
  parseInteger c.sy c.labels ("0x".toList ++ numeral 16 v) k signed = .ok (some (v : Int))

theorem shamt_number {c : Ctx} (num : HasNumerals c) {v : Nat} (hv : v < 2 ^ 5) :
    mipsShamt ("0x".toList ++ numeral 16 v) c = (.ok (v : Int), []) :=
  parseIntegerOrLabel_number (num _ _ _ (by simp) hv)

theorem imm16_number {c : Ctx} (num : HasNumerals c) {v : Nat} (signed : Bool) (hv : v < 2 ^ 16) :
    mipsImm16 signed ("0x".toList ++ numeral 16 v) c = (.ok (v : Int), []) :=
  parseIntegerOrLabel_number (num _ _ _ (by simp) hv)

theorem offset_number {c : Ctx} (num : HasNumerals c) {v : Nat} (hv : v < 2 ^ 16) :
    mipsOffset ("0x".toList ++ numeral 16 v) c = (.ok (v : Int), []) := by
  unfold mipsOffset
  rw [H.bind_run (a := some (v : Int)) (by rw [H.parseInteger_apply, num _ _ _ (by decide) hv])]
  rfl

theorem shr_mul (v k : Nat) : pyShr ((v * 2 ^ k : Nat) : Int) k = (v : Int) := by
  unfold pyShr
  rw [← Int.natCast_ediv, Nat.mul_div_cancel _ (Nat.pow_pos (by decide))]

theorem rel_number {c : Ctx} (num : HasNumerals c) {v : Nat} (hv : v < 2 ^ 16) :
    mipsRel ("0x".toList ++ numeral 16 (v * 2 ^ 2)) c = (.ok (v : Int), []) := by
  have hp := num (v * 2 ^ 2) 18 (c.pc + 4 != 0) (by decide) (by omega)
  rw [mipsRel_of hp, shr_mul]

theorem abs_number {c : Ctx} (num : HasNumerals c) {v : Nat} (hv : v < 2 ^ 26) :
    mipsAbs ("0x".toList ++ numeral 16 (v * 2 ^ 2)) c = (.ok (v : Int), []) := by
  have hp := num (v * 2 ^ 2) 32 false (by decide) (by omega)
  rw [mipsAbs_of hp, shr_mul]

theorem half_number {c : Ctx} (num : HasNumerals c) {v : Nat} (hv : v < 2 ^ 16) :
    mipsHalf true ("0x".toList ++ numeral 16 (v * 2 ^ 16)) c = (.ok (v : Int), []) := by
  have hp := num (v * 2 ^ 16) 32 false (by decide) (by omega)
  rw [mipsHalf_of hp, shr_mul]

theorem complete_special {be : Bool} {c : Ctx} {w : Nat} {m : String} {f : MipsFormat} {i : MipsInstr} {form : MipsForm} (num : HasNumerals c)
    (hw : w < 2 ^ 32) (h0 : fld w 31 26 = 0) (hd : mipsOperands w m f = some i) (hn : fld w 5 0 < 64)
    (hform : formFormat form = some (true, f)) (htrap : ∀ m code, i = .trap m code → code = 0) :
    ∃ rest blob, mipsRun be form (fld w 5 0) (m.toList :: rest) c = (.ok (some blob), []) ∧ ofBytes be blob = w := by
  unfold mipsOperands at hd
  simp only at hd
  have r1 : fld w 25 21 < 32 := fld_lt w 25 21
  have r2 : fld w 20 16 < 32 := fld_lt w 20 16
  have r3 : fld w 15 11 < 32 := fld_lt w 15 11
  have r4 : fld w 10 6 < 2 ^ 5 := fld_lt w 10 6
  have ri : fld w 15 0 < 2 ^ 16 := fld_lt w 15 0
  have rj : fld w 25 0 < 2 ^ 26 := fld_lt w 25 0
  obtain ⟨a1, h1⟩ := mips_register r1
  obtain ⟨a2, h2⟩ := mips_register r2
  obtain ⟨a3, h3⟩ := mips_register r3
  obtain ⟨hsplit, hsplitI, hsplitJ, hcode⟩ := fld_split hw
  generalize fld w 31 26 = f31 at *
  generalize fld w 25 21 = f25 at *
  generalize fld w 20 16 = f20 at *
  generalize fld w 15 11 = f15 at *
  generalize fld w 10 6 = f10 at *
  generalize fld w 5 0 = f5 at *
  generalize fld w 15 0 = imm at *
  generalize fld w 25 0 = target at *
  generalize fld w 25 6 = code at *
  cases form with
  | swapped => cases hform
  | arithLogI _ => cases hform
  | loadI b => cases b <;> cases hform
  | branch => cases hform
  | branchZ => cases hform
  | jump => cases hform
  | loadStore => cases hform
  | arithLog =>
    cases hform
    simp only [Option.ite_none_right_eq_some] at hd
    exact ⟨_, _, run_arithLog hn h3 h1 h2, wordBytes_nat hw (by omega)⟩
  | shift =>
    cases hform
    simp only [Option.ite_none_right_eq_some] at hd
    exact ⟨_, _, run_shift hn h3 h2 (mips_number_const _) (shamt_number num r4) (by omega) (by omega), wordBytes_nat hw (by omega)⟩
  | shiftV =>
    cases hform
    simp only [Option.ite_none_right_eq_some] at hd
    exact ⟨_, _, run_shiftV hn h3 h2 h1, wordBytes_nat hw (by omega)⟩
  | jumpR =>
    cases hform
    simp only [Option.ite_none_right_eq_some] at hd
    exact ⟨_, _, run_jumpR hn h1, wordBytes_nat hw (by omega)⟩
  | moveFrom =>
    cases hform
    simp only [Option.ite_none_right_eq_some] at hd
    exact ⟨_, _, run_moveFrom hn h3, wordBytes_nat hw (by omega)⟩
  | moveTo =>
    cases hform
    simp only [Option.ite_none_right_eq_some] at hd
    exact ⟨_, _, run_moveTo hn h1, wordBytes_nat hw (by omega)⟩
  | noArgs =>
    cases hform
    simp only [Option.some.injEq] at hd
    have := htrap _ _ hd.symm
    exact ⟨_, _, run_noArgs hn, wordBytes_nat hw (by omega)⟩

theorem complete_opcode {be : Bool} {c : Ctx} {w : Nat} {m : String} {f : MipsFormat} {i : MipsInstr} {form : MipsForm} (num : HasNumerals c)
    (hw : w < 2 ^ 32) (hd : mipsOperands w m f = some i) (hn : fld w 31 26 < 64)
    (hform : formFormat form = some (false, f)) :
    ∃ rest blob, mipsRun be form (fld w 31 26) (m.toList :: rest) c = (.ok (some blob), []) ∧ ofBytes be blob = w := by
  unfold mipsOperands at hd
  simp only at hd
  have r1 : fld w 25 21 < 32 := fld_lt w 25 21
  have r2 : fld w 20 16 < 32 := fld_lt w 20 16
  have r3 : fld w 15 11 < 32 := fld_lt w 15 11
  have r4 : fld w 10 6 < 2 ^ 5 := fld_lt w 10 6
  have ri : fld w 15 0 < 2 ^ 16 := fld_lt w 15 0
  have rj : fld w 25 0 < 2 ^ 26 := fld_lt w 25 0
  obtain ⟨a1, h1⟩ := mips_register r1
  obtain ⟨a2, h2⟩ := mips_register r2
  obtain ⟨a3, h3⟩ := mips_register r3
  obtain ⟨hsplit, hsplitI, hsplitJ, hcode⟩ := fld_split hw
  generalize fld w 31 26 = f31 at *
  generalize fld w 25 21 = f25 at *
  generalize fld w 20 16 = f20 at *
  generalize fld w 15 11 = f15 at *
  generalize fld w 10 6 = f10 at *
  generalize fld w 5 0 = f5 at *
  generalize fld w 15 0 = imm at *
  generalize fld w 25 0 = target at *
  generalize fld w 25 6 = code at *
  cases form with
  | swapped => cases hform
  | arithLog => cases hform
  | shift => cases hform
  | shiftV => cases hform
  | jumpR => cases hform
  | moveFrom => cases hform
  | moveTo => cases hform
  | noArgs => cases hform
  | arithLogI signed =>
    cases hform
    exact ⟨_, _, run_arithLogI hn h2 h1 (mips_number_const _) (imm16_number num signed ri) (by omega) (by omega), wordBytes_nat hw (by omega)⟩
  | loadI b =>
    cases b with
    | false => cases hform
    | true =>
      cases hform
      simp only [Option.ite_none_right_eq_some] at hd
      exact ⟨_, _, run_loadI hn h2 (mips_number_const _) (half_number num ri) (by omega) (by omega), wordBytes_nat hw (by omega)⟩
  | branch =>
    cases hform
    exact ⟨_, _, run_branch hn h1 h2 (mips_number_const _) (rel_number num ri) (by omega) (by omega), wordBytes_nat hw (by omega)⟩
  | branchZ =>
    cases hform
    simp only [Option.ite_none_right_eq_some] at hd
    exact ⟨_, _, run_branchZ hn h1 (mips_number_const _) (rel_number num ri) (by omega) (by omega), wordBytes_nat hw (by omega)⟩
  | jump =>
    cases hform
    exact ⟨_, _, run_jump hn (mips_number_const _) (abs_number num rj) (by omega) (by omega), wordBytes_nat hw (by omega)⟩
  | loadStore =>
    cases hform
    exact ⟨_, _, run_loadStore hn h2 (mips_number_const _) h1 (offset_number num ri) (by omega) (by omega), wordBytes_nat hw (by omega)⟩

/-- C55: every word the manual defines, other than the missing instructions and traps with a code,
is the encoding of some source line. -/
theorem C55_complete (be : Bool) (ls : Labels) (pc : Int) (w : Nat) (i : MipsInstr) (hw : w < 2 ^ 32) (hd : decodeMips w = some i)
    (hm : i.mnemonic ∉ mipsMissing) (htrap : ∀ m code, i = .trap m code → code = 0) :
    ∃ rest blob, Emits (mipsOn be) ⟨pc, ls, (mipsOn be).sy, 0⟩ i.mnemonic.toList rest blob [] ∧ ofBytes be blob = w := by
  generalize hc : (⟨pc, ls, (mipsOn be).sy, 0⟩ : Ctx) = c
  have num : HasNumerals c := by
    intro v k signed hk hv
    rw [← hc]; exact mips_number ls be v k signed hk hv
  unfold decodeMips at hd
  split at hd
  · next m f hl =>
    split at hl
    · next h0 =>
      have hmem : (fld w 5 0, m, f) ∈ mipsSpecial := by
        rw [← dget_eq_lookup_nat] at hl; exact mem_of_dget hl
      obtain ⟨n1, n2, n3⟩ := special_names _ hmem
      have hmn := operands_mnemonic hd n1 n2 (by
        intro h; subst h
        have : ∀ p ∈ mipsSpecial, p.2.2 ≠ .lui := by decide +kernel
        exact absurd rfl (this _ hmem))
      rw [hmn] at hm ⊢
      obtain ⟨hn, form, hrow, hform⟩ := special_row _ hmem hm
      obtain ⟨rest, blob, hr, hb⟩ := complete_special (be := be) num hw h0 hd hn hform htrap
      exact ⟨rest, blob, (mips_emits hrow rfl).2 hr, hb⟩
    · next h0 =>
      have hmem : (fld w 31 26, m, f) ∈ mipsOpcodes := by
        rw [← dget_eq_lookup_nat] at hl; exact mem_of_dget hl
      obtain ⟨n1, n2, n3⟩ := opcode_names _ hmem
      have hmn := operands_mnemonic hd n2 n3 n1
      rw [hmn] at hm ⊢
      obtain ⟨hn, form, hrow, hform⟩ := opcode_row _ hmem hm
      obtain ⟨rest, blob, hr, hb⟩ := complete_opcode (be := be) num hw hd hn hform
      exact ⟨rest, blob, (mips_emits hrow rfl).2 hr, hb⟩
  · cases hd

/-! ## C56: branches -/

/-- A line that branches to `label`, and the instruction it stands for given the offset field. -/
inductive MipsBranchLine (label : Str) : String → List Str → (Nat → MipsInstr) → Prop
  | two {m a b rs rt} : m = "beq" ∨ m = "bne" → MipsReg a rs → MipsReg b rt → MipsBranchLine label m [a, b, label] (.branch m rs rt)
  | one {m a rs} : m = "blez" ∨ m = "bgtz" → MipsReg a rs → MipsBranchLine label m [a, label] (.branchZ m rs)

theorem branch_rows : ∀ m, m = "beq" ∨ m = "bne" → ∃ n, n < 64 ∧ n ≠ 0 ∧ (m, .branch, n) ∈ mipsTable ∧ mipsOpcodes.lookup n = some (m, .branch) := by
  rintro m (rfl | rfl)
  · exact ⟨4, by decide, by decide, by decide +kernel, by decide +kernel⟩
  · exact ⟨5, by decide, by decide, by decide +kernel, by decide +kernel⟩

theorem branchZ_rows : ∀ m, m = "blez" ∨ m = "bgtz" → ∃ n, n < 64 ∧ n ≠ 0 ∧ (m, .branchZ, n) ∈ mipsTable ∧ mipsOpcodes.lookup n = some (m, .branchZ) := by
  rintro m (rfl | rfl)
  · exact ⟨6, by decide, by decide, by decide +kernel, by decide +kernel⟩
  · exact ⟨7, by decide, by decide, by decide +kernel, by decide +kernel⟩

theorem pc_ne {pc : Int} (h : 0 ≤ pc) : (pc + 4 != 0) = true := by simp; omega

theorem branchRef_ne {pc : Int} (label : Str) (h : 0 ≤ pc) : (mipsBranchRef label pc).relative ≠ 0 := by
  show pc + 4 ≠ 0
  omega

theorem window_all {b : Bytes} {n : Nat} (h : b.length = n) : window b 0 n = b := by
  unfold window; rw [List.drop_zero, List.take_of_length_le (by omega)]

/-- A branch to a name assembles to a word whose offset field is clear; filling the field gives the branch. -/
theorem branch_word {be : Bool} {c : Ctx} {t label : Str} {m : String} {rest : List Str} {i : Nat → MipsInstr}
    (hl : MipsBranchLine label m rest i) (ht : eqNoCase t m.toList) (hpc : 0 ≤ c.pc) (hc : MipsConst label)
    (hnum : parseInteger c.sy c.labels label 18 true = .ok none) :
    ∃ w0 blob, Emits (mipsOn be) c t rest blob [mipsBranchRef label c.pc] ∧ blob.length = 4 ∧ ofBytes be blob = w0 ∧ w0 % 2 ^ 16 = 0 ∧
      ∀ off, off < 2 ^ 16 → decodeMips (w0 + off) = some (i off) := by
  have hrel : mipsRel label c = (.ok 0, [mipsBranchRef label c.pc]) := mipsRel_label (by rw [pc_ne hpc]; exact hnum)
  cases hl with
  | two hm ha hb =>
    rename_i a b rs rt
    obtain ⟨n, hn, hn0, hrow, hlk⟩ := branch_rows m hm
    have b1 := mipsReg_lt ha
    have b2 := mipsReg_lt hb
    have hrun := run_branch (be := be) (t := t) hn ha hb hc hrel (by decide) (by decide)
    refine ⟨n * 2 ^ 26 + rs * 2 ^ 21 + rt * 2 ^ 16, _, (mips_emits hrow ht).2 hrun, wordBytes_length _ _ _, ?_, ?_, ?_⟩
    · apply wordBytes_nat <;> omega
    · omega
    · intro off ho
      obtain ⟨f0, f1, f2, f3⟩ := fields_I rfl b1 b2 ho hn
      rw [decode_opcode (by rw [f0]; exact hn0) (by rw [f0]; exact hlk)]
      simp only [mipsOperands, f1, f2, f3]
  | one hm ha =>
    rename_i a rs
    obtain ⟨n, hn, hn0, hrow, hlk⟩ := branchZ_rows m hm
    have b1 := mipsReg_lt ha
    have hrun := run_branchZ (be := be) (t := t) hn ha hc hrel (by decide) (by decide)
    refine ⟨n * 2 ^ 26 + rs * 2 ^ 21, _, (mips_emits hrow ht).2 hrun, wordBytes_length _ _ _, ?_, ?_, ?_⟩
    · apply wordBytes_nat <;> omega
    · omega
    · intro off ho
      obtain ⟨f0, f1, f2, f3⟩ := fields_I (w := n * 2 ^ 26 + rs * 2 ^ 21 + off) (rt := 0) (by omega) b1 (by decide) ho hn
      rw [decode_opcode (by rw [f0]; exact hn0) (by rw [f0]; exact hlk)]
      simp only [mipsOperands, f1, f2, f3, if_true]

/-- C56: in a linked program a branch to a label goes to it: the instruction in the output is the
branch written, and the address of the delay slot plus four times its signed offset is the address of the
label, rounded down to a whole number of instructions from the branch. -/
theorem C56_reaches (be : Bool) (s s2 s3 : St) (t label : Str) (m : String) (rest : List Str) (i : Nat → MipsInstr)
    (hl : MipsBranchLine label m rest i) (ht : eqNoCase t m.toList) (hpc : 0 ≤ s.pc) (hc : MipsConst label)
    (hnum : parseInteger (mipsOn be).sy s.labels label 18 true = .ok none) (hplain : ∀ ch ∈ label, formulaChar ch = false)
    (hprog : InProgram (mipsOn be) s t rest s2) (hlink : LinksAlone (mipsOn be) s2 s3 s.bytes.length (mipsBranchRef label s.pc)) :
    ∃ l off, s2.labels.lookup label = some l ∧ decodeMips (ofBytes be (window s3.bytes s.bytes.length 4)) = some (i off) ∧
      s.pc + 4 + 4 * toSigned 16 off = l.org + l.base - (l.org + l.base - s.pc) % 4 := by
  obtain ⟨w0, blob, hem, hlen, hw0, hclear, hdec⟩ := branch_word (be := be) (c := ctxOf (mipsOn be) s) hl ht hpc hc hnum
  have hR := hprog.recorded hem (by simp [mipsBranchRef, hlen]) (by simp [mipsBranchRef])
  have hwin : window blob 0 4 = blob := window_all hlen
  obtain ⟨l, h1, hrg, -, -, hw⟩ := field_linked (hi := 15) (lo := 0) rfl hlink hR rfl (by decide) (by simp [mipsBranchRef])
    (by
      show ofBytes be (window blob 0 4) / 2 ^ 0 % 2 ^ 16 = 0
      rw [hwin, hw0]; simpa using hclear) hc.1 hplain
  have hrg : -(2 ^ 17) ≤ l.org + l.base - (s.pc + 4) ∧ l.org + l.base - (s.pc + 4) < 2 ^ 17 := by
    unfold RefRange at hrg
    rw [if_pos (show (mipsBranchRef label (ctxOf (mipsOn be) s).pc).relative ≠ 0 from branchRef_ne label hpc)] at hrg
    exact hrg
  have hw : ((ofBytes be (window s3.bytes s.bytes.length 4) : Nat) : Int) =
      (ofBytes be (window blob 0 4) : Nat) + (pyShr (l.org + l.base - (s.pc + 4)) 2 % 2 ^ 16) * 2 ^ 0 := hw
  rw [hwin, hw0] at hw
  refine ⟨l, (pyShr (l.org + l.base - (s.pc + 4)) 2 % 2 ^ 16).toNat, h1, ?_, ?_⟩
  · have : ofBytes be (window s3.bytes s.bytes.length 4) = w0 + (pyShr (l.org + l.base - (s.pc + 4)) 2 % 2 ^ 16).toNat := by
      generalize pyShr (l.org + l.base - (s.pc + 4)) 2 = y at *
      simp only [Int.reducePow] at *
      omega
    rw [this]
    apply hdec
    generalize pyShr (l.org + l.base - (s.pc + 4)) 2 = y at *
    simp only [Int.reducePow] at *
    omega
  · unfold toSigned pyShr
    simp only [Int.reducePow, Nat.reducePow, Nat.reduceSub] at *
    split <;> omega

/-- C56: so it reaches a label that is a whole number of instructions away exactly. -/
theorem C56_aligned (be : Bool) (s s2 s3 : St) (t label : Str) (m : String) (rest : List Str) (i : Nat → MipsInstr)
    (hl : MipsBranchLine label m rest i) (ht : eqNoCase t m.toList) (hpc : 0 ≤ s.pc) (hc : MipsConst label)
    (hnum : parseInteger (mipsOn be).sy s.labels label 18 true = .ok none) (hplain : ∀ ch ∈ label, formulaChar ch = false)
    (hprog : InProgram (mipsOn be) s t rest s2) (hlink : LinksAlone (mipsOn be) s2 s3 s.bytes.length (mipsBranchRef label s.pc))
    (l : LabelInfo) (hlk : s2.labels.lookup label = some l) (hal : (l.org + l.base - s.pc) % 4 = 0) :
    ∃ off, decodeMips (ofBytes be (window s3.bytes s.bytes.length 4)) = some (i off) ∧
      s.pc + 4 + 4 * toSigned 16 off = l.org + l.base := by
  obtain ⟨l', off, h1, h2, h3⟩ := C56_reaches be s s2 s3 t label m rest i hl ht hpc hc hnum hplain hprog hlink
  rw [hlk] at h1
  cases h1
  exact ⟨off, h2, by omega⟩

/-- C56: a branch that is too far away is not linked. -/
theorem C56_rejected (be : Bool) (s s2 : St) (t label : Str) (m : String) (rest : List Str) (i : Nat → MipsInstr)
    (hl : MipsBranchLine label m rest i) (ht : eqNoCase t m.toList) (hpc : 0 ≤ s.pc) (hc : MipsConst label)
    (hnum : parseInteger (mipsOn be).sy s.labels label 18 true = .ok none) (hplain : ∀ ch ∈ label, formulaChar ch = false)
    (hprog : InProgram (mipsOn be) s t rest s2) (hord : ∀ e ∈ s2.relocs, Ordinary e.2)
    (l : LabelInfo) (hlk : s2.labels.lookup label = some l)
    (hfar : l.org + l.base - (s.pc + 4) < -131072 ∨ 131071 < l.org + l.base - (s.pc + 4)) :
    (link (mipsOn be) .dummy s2).1 ≠ .ok () := by
  obtain ⟨w0, blob, hem, hlen, -⟩ := branch_word (be := be) (c := ctxOf (mipsOn be) s) hl ht hpc hc hnum
  have hR := hprog.recorded hem (by simp [mipsBranchRef, hlen]) (by simp [mipsBranchRef])
  refine plain_rejected rfl hord hR hc.1 hplain hlk ?_
  unfold RefRange
  rw [if_pos (show (mipsBranchRef label (ctxOf (mipsOn be) s).pc).relative ≠ 0 from branchRef_ne label hpc)]
  show ¬ (-(2 ^ 17) ≤ l.org + l.base - (s.pc + 4) ∧ l.org + l.base - (s.pc + 4) < 2 ^ 17)
  omega

/-- C56: one that is near enough is linked, if nothing is wrong with the other references. -/
theorem C56_accepted (be : Bool) (s s2 : St) (t label : Str) (m : String) (rest : List Str) (i : Nat → MipsInstr)
    (hl : MipsBranchLine label m rest i) (ht : eqNoCase t m.toList) (hpc : 0 ≤ s.pc) (hc : MipsConst label)
    (hnum : parseInteger (mipsOn be).sy s.labels label 18 true = .ok none) (hplain : ∀ ch ∈ label, formulaChar ch = false)
    (hprog : InProgram (mipsOn be) s t rest s2) (hord : ∀ e ∈ s2.relocs, Ordinary e.2)
    (l : LabelInfo) (hlk : s2.labels.lookup label = some l)
    (hnear : -131072 ≤ l.org + l.base - (s.pc + 4) ∧ l.org + l.base - (s.pc + 4) ≤ 131071)
    (hothers : ∀ e ∈ s2.relocs, e ≠ (s.bytes.length, mipsBranchRef label s.pc) →
      ∀ x, ¬ Fault (labelRelative (mipsOn be).sy s2.labels) s2.bytes.length e x) :
    (link (mipsOn be) .dummy s2).1 = .ok () := by
  obtain ⟨w0, blob, hem, hlen, -⟩ := branch_word (be := be) (c := ctxOf (mipsOn be) s) hl ht hpc hc hnum
  have hR := hprog.recorded hem (by simp [mipsBranchRef, hlen]) (by simp [mipsBranchRef])
  rw [C38_success (mipsOn be) rfl s2 hord]
  intro e he x
  by_cases hee : e = (s.bytes.length, mipsBranchRef label s.pc)
  · subst hee
    refine plain_fault hR hc.1 hplain hlk (Int.emod_one _) (fun h => absurd h (branchRef_ne label hpc)) ?_ ?_ x
    · unfold RefRange
      rw [if_pos (show (mipsBranchRef label (ctxOf (mipsOn be) s).pc).relative ≠ 0 from branchRef_ne label hpc)]
      show -(2 ^ 17) ≤ l.org + l.base - (s.pc + 4) ∧ l.org + l.base - (s.pc + 4) < 2 ^ 17
      omega
    · intro hi lo hb
      cases hb
      show 0 ≤ 15 ∧ -(2 ^ 15) ≤ pyShr (l.org + l.base - (s.pc + 4)) 2 ∧ pyShr (l.org + l.base - (s.pc + 4)) 2 < 2 ^ 16
      unfold pyShr
      simp only [Nat.reducePow, Int.reducePow]
      omega
  · exact hothers e he hee x

/-! ## C57: jumps and immediates -/

theorem jump_rows : ∀ m, m = "j" ∨ m = "jal" → ∃ n, n < 64 ∧ n ≠ 0 ∧ (m, .jump, n) ∈ mipsTable ∧ mipsOpcodes.lookup n = some (m, .jump) := by
  rintro m (rfl | rfl)
  · exact ⟨2, by decide, by decide, by decide +kernel, by decide +kernel⟩
  · exact ⟨3, by decide, by decide, by decide +kernel, by decide +kernel⟩

/-- The mnemonics with a 16-bit immediate operand, and whether it is read as signed. -/
def mipsImmediate : List (String × Bool) :=
  [("addi", true), ("addiu", false), ("slti", true), ("andi", true), ("ori", true), ("xori", true)]

theorem imm_rows : ∀ p ∈ mipsImmediate, ∃ n, n < 64 ∧ n ≠ 0 ∧ (p.1, .arithLogI p.2, n) ∈ mipsTable ∧ mipsOpcodes.lookup n = some (p.1, .aluImm) := by
  intro p hp
  simp only [mipsImmediate, List.mem_cons, List.not_mem_nil, or_false] at hp
  rcases hp with rfl | rfl | rfl | rfl | rfl | rfl
  · exact ⟨8, by decide, by decide, by decide +kernel, by decide +kernel⟩
  · exact ⟨9, by decide, by decide, by decide +kernel, by decide +kernel⟩
  · exact ⟨10, by decide, by decide, by decide +kernel, by decide +kernel⟩
  · exact ⟨12, by decide, by decide, by decide +kernel, by decide +kernel⟩
  · exact ⟨13, by decide, by decide, by decide +kernel, by decide +kernel⟩
  · exact ⟨14, by decide, by decide, by decide +kernel, by decide +kernel⟩

/-- A jump to a name assembles to a word whose target field is clear; filling the field gives the jump. -/
theorem jump_word {be : Bool} {c : Ctx} {t label : Str} {m : String} (hm : m = "j" ∨ m = "jal") (ht : eqNoCase t m.toList)
    (hc : MipsConst label) (hnum : parseInteger c.sy c.labels label 32 false = .ok none) :
    ∃ w0 blob, Emits (mipsOn be) c t [label] blob [mipsJumpRef label] ∧ blob.length = 4 ∧ ofBytes be blob = w0 ∧ w0 % 2 ^ 26 = 0 ∧
      ∀ x, x < 2 ^ 26 → decodeMips (w0 + x) = some (.jump m x) := by
  obtain ⟨n, hn, hn0, hrow, hlk⟩ := jump_rows m hm
  have hrun := run_jump (be := be) (t := t) hn hc (mipsAbs_label hnum) (by decide) (by decide)
  refine ⟨n * 2 ^ 26, _, (mips_emits hrow ht).2 hrun, wordBytes_length _ _ _, ?_, ?_, ?_⟩
  · apply wordBytes_nat <;> omega
  · omega
  · intro x hx
    obtain ⟨f0, f1⟩ := fields_J (w := n * 2 ^ 26 + x) rfl hx hn
    rw [decode_opcode (by rw [f0]; exact hn0) (by rw [f0]; exact hlk)]
    simp only [mipsOperands, f1]

/-- The same for `lui`. -/
theorem upper_word {be : Bool} {c : Ctx} {t a label : Str} {rt : Nat} (ha : MipsReg a rt) (ht : eqNoCase t "lui".toList)
    (hc : MipsConst label) (hnum : parseInteger c.sy c.labels label 32 false = .ok none) :
    ∃ w0 blob, Emits (mipsOn be) c t [a, label] blob [mipsUpperRef label] ∧ blob.length = 4 ∧ ofBytes be blob = w0 ∧ w0 % 2 ^ 16 = 0 ∧
      ∀ x, x < 2 ^ 16 → decodeMips (w0 + x) = some (.lui rt x) := by
  have b1 := mipsReg_lt ha
  have hrun := run_loadI (be := be) (high := true) (t := t) (n := 15) (by decide) ha hc (mipsHalf_label hnum) (by decide) (by decide)
  refine ⟨15 * 2 ^ 26 + rt * 2 ^ 16, _, (mips_emits (m := "lui") (by decide +kernel) ht).2 hrun, wordBytes_length _ _ _, ?_, ?_, ?_⟩
  · apply wordBytes_nat <;> omega
  · omega
  · intro x hx
    obtain ⟨f0, f1, f2, f3⟩ := fields_I (w := 15 * 2 ^ 26 + rt * 2 ^ 16 + x) (rs := 0) (n := 15) (by omega) (by decide) b1 hx (by decide)
    rw [decode_opcode (m := "lui") (f := .lui) (by rw [f0]; decide) (by rw [f0]; decide +kernel)]
    simp only [mipsOperands, f1, f2, f3, if_true]

/-- The reference an immediate operand leaves. -/
def mipsImmRef (label : Str) : Reloc := { label := label, size := 4, bitsSize := 16, bits := some (15, 0) }

/-- The same for the instructions with an immediate operand. -/
theorem imm_word {be : Bool} {c : Ctx} {t a b label : Str} {p : String × Bool} {rt rs : Nat} (hp : p ∈ mipsImmediate)
    (ha : MipsReg a rt) (hb : MipsReg b rs) (ht : eqNoCase t p.1.toList) (hc : MipsConst label)
    (hnum : parseInteger c.sy c.labels label 16 p.2 = .ok none) :
    ∃ w0 blob, Emits (mipsOn be) c t [a, b, label] blob [mipsImmRef label] ∧ blob.length = 4 ∧ ofBytes be blob = w0 ∧ w0 % 2 ^ 16 = 0 ∧
      ∀ x, x < 2 ^ 16 → decodeMips (w0 + x) = some (.aluImm p.1 rt rs x) := by
  obtain ⟨n, hn, hn0, hrow, hlk⟩ := imm_rows p hp
  have b1 := mipsReg_lt ha
  have b2 := mipsReg_lt hb
  have hv : mipsImm16 p.2 label c = (.ok 0, [mipsImmRef label]) := 
    parseIntegerOrLabel_label (r := mipsImmRef label) (by simpa [mipsImmRef] using hnum)
  have hrun := run_arithLogI (be := be) (t := t) hn ha hb hc hv (by decide) (by decide)
  refine ⟨n * 2 ^ 26 + rs * 2 ^ 21 + rt * 2 ^ 16, _, (mips_emits hrow ht).2 hrun, wordBytes_length _ _ _, ?_, ?_, ?_⟩
  · apply wordBytes_nat <;> omega
  · omega
  · intro x hx
    obtain ⟨f0, f1, f2, f3⟩ := fields_I (w := n * 2 ^ 26 + rs * 2 ^ 21 + rt * 2 ^ 16 + x) rfl b2 b1 hx hn
    rw [decode_opcode (by rw [f0]; exact hn0) (by rw [f0]; exact hlk)]
    simp only [mipsOperands, f1, f2, f3]

/-- Linking fills a clear low field of the word with the converted value. -/
theorem filled {be : Bool} {s s2 s3 : St} {t : Str} {rest : List Str} {blob : Bytes} {r : Reloc} {k : Nat}
    (hprog : InProgram (mipsOn be) s t rest s2) (hlink : LinksAlone (mipsOn be) s2 s3 s.bytes.length r)
    (hem : Emits (mipsOn be) (ctxOf (mipsOn be) s) t rest blob [r]) (hlen : blob.length = 4) (hclear : ofBytes be blob % 2 ^ (k + 1) = 0)
    (hk : k < 32) (hsize : r.size = 4) (hoff : r.offset = 0) (hbits : r.bits = some (k, 0))
    (hne : r.label ≠ []) (hplain : ∀ ch ∈ r.label, formulaChar ch = false) :
    ∃ l, s2.labels.lookup r.label = some l ∧ RefRange r (l.org + l.base - r.relative) ∧ (r.relative = 0 → 0 ≤ l.org + l.base) ∧
      ofBytes be (window s3.bytes s.bytes.length 4) = ofBytes be blob + (converted r (l.org + l.base - r.relative) % 2 ^ (k + 1)).toNat := by
  have hR := hprog.recorded hem (by omega) (by omega)
  have hwin : window blob 0 4 = blob := window_all hlen
  obtain ⟨l, h1, hrg, hneg, -, hw⟩ := field_linked (hi := k) (lo := 0) rfl (by rw [hoff]; exact hlink) hR hbits (by omega) (by omega)
    (by rw [hoff, hsize, hwin]
        show ofBytes be blob / 2 ^ 0 % 2 ^ (k - 0 + 1) = 0
        simpa using hclear) hne hplain
  rw [hoff, hsize, hwin, Nat.add_zero] at hw
  have hw : ((ofBytes be (window s3.bytes s.bytes.length 4) : Nat) : Int) =
      (ofBytes be blob : Nat) + (converted r (l.org + l.base - r.relative) % 2 ^ (k + 1)) * 2 ^ 0 := hw
  refine ⟨l, h1, hrg, hneg, ?_⟩
  have h0 : 0 ≤ converted r (l.org + l.base - r.relative) % 2 ^ (k + 1) := Int.emod_nonneg _ (Int.ne_of_gt (Int.pow_pos (by decide)))
  generalize converted r (l.org + l.base - r.relative) % 2 ^ (k + 1) = y at *
  simp only [Int.pow_zero, Int.mul_one] at hw
  omega

/-- C57: in a linked program a jump to a label holds its address in words, without the top four bits. -/
theorem C57_jump (be : Bool) (s s2 s3 : St) (t label : Str) (m : String) (hm : m = "j" ∨ m = "jal") (ht : eqNoCase t m.toList)
    (hc : MipsConst label) (hnum : parseInteger (mipsOn be).sy s.labels label 32 false = .ok none) (hplain : ∀ ch ∈ label, formulaChar ch = false)
    (hprog : InProgram (mipsOn be) s t [label] s2) (hlink : LinksAlone (mipsOn be) s2 s3 s.bytes.length (mipsJumpRef label)) :
    ∃ l target, s2.labels.lookup label = some l ∧ 0 ≤ l.org + l.base ∧ l.org + l.base < 2 ^ 32 ∧
      decodeMips (ofBytes be (window s3.bytes s.bytes.length 4)) = some (.jump m target) ∧
      (target : Int) = (l.org + l.base) % 2 ^ 28 / 4 := by
  obtain ⟨w0, blob, hem, hlen, hw0, hclear, hdec⟩ := jump_word (be := be) (c := ctxOf (mipsOn be) s) hm ht hc hnum
  obtain ⟨l, h1, hrg, hneg, hw⟩ := filled (k := 25) hprog hlink hem hlen (by rw [hw0]; exact hclear) (by decide) rfl rfl rfl hc.1 hplain
  have hrg : l.org + l.base - 0 < 2 ^ 32 := by
    unfold RefRange at hrg
    rw [if_neg (by simp [mipsJumpRef])] at hrg
    exact hrg
  have hneg := hneg rfl
  have hcv : converted (mipsJumpRef label) (l.org + l.base - (mipsJumpRef label).relative) = (l.org + l.base) % 2 ^ 28 / 4 := by
    show pyShr (pyAnd (l.org + l.base - 0) ((2 ^ 28 - 1 : Nat) : Int)) 2 = _
    rw [pyAnd_mask, Int.sub_zero]
    rfl
  rw [hcv, hw0] at hw
  refine ⟨l, ((l.org + l.base) % 2 ^ 28 / 4).toNat, h1, hneg, by omega, ?_, ?_⟩
  · rw [hw]
    have e : (l.org + l.base) % 2 ^ 28 / 4 % 2 ^ (25 + 1) = (l.org + l.base) % 2 ^ 28 / 4 := by simp only [Int.reducePow, Nat.reduceAdd]; omega
    rw [e]
    apply hdec
    simp only [Int.reducePow]; omega
  · simp only [Int.reducePow]; omega

/-- C57: so it reaches a label, at a whole number of words, in the 256 MiB region of its delay slot. -/
theorem C57_reaches (be : Bool) (s s2 s3 : St) (t label : Str) (m : String) (hm : m = "j" ∨ m = "jal") (ht : eqNoCase t m.toList)
    (hc : MipsConst label) (hnum : parseInteger (mipsOn be).sy s.labels label 32 false = .ok none) (hplain : ∀ ch ∈ label, formulaChar ch = false)
    (hprog : InProgram (mipsOn be) s t [label] s2) (hlink : LinksAlone (mipsOn be) s2 s3 s.bytes.length (mipsJumpRef label))
    (l : LabelInfo) (hlk : s2.labels.lookup label = some l) (hal : (l.org + l.base) % 4 = 0)
    (hreg : (l.org + l.base) / 2 ^ 28 = (s.pc + 4) / 2 ^ 28) :
    ∃ target, decodeMips (ofBytes be (window s3.bytes s.bytes.length 4)) = some (.jump m target) ∧
      (s.pc + 4) / 2 ^ 28 * 2 ^ 28 + 4 * (target : Int) = l.org + l.base := by
  obtain ⟨l', target, h1, -, -, h2, h3⟩ := C57_jump be s s2 s3 t label m hm ht hc hnum hplain hprog hlink
  rw [hlk] at h1
  cases h1
  refine ⟨target, h2, ?_⟩
  rw [← hreg, h3]
  simp only [Int.reducePow]
  omega

/-- C57: `lui` with a label holds the high half of its address. -/
theorem C57_upper (be : Bool) (s s2 s3 : St) (t a label : Str) (rt : Nat) (ha : MipsReg a rt) (ht : eqNoCase t "lui".toList)
    (hc : MipsConst label) (hnum : parseInteger (mipsOn be).sy s.labels label 32 false = .ok none) (hplain : ∀ ch ∈ label, formulaChar ch = false)
    (hprog : InProgram (mipsOn be) s t [a, label] s2) (hlink : LinksAlone (mipsOn be) s2 s3 s.bytes.length (mipsUpperRef label)) :
    ∃ l imm, s2.labels.lookup label = some l ∧ 0 ≤ l.org + l.base ∧ l.org + l.base < 2 ^ 32 ∧
      decodeMips (ofBytes be (window s3.bytes s.bytes.length 4)) = some (.lui rt imm) ∧ (imm : Int) = (l.org + l.base) / 2 ^ 16 := by
  obtain ⟨w0, blob, hem, hlen, hw0, hclear, hdec⟩ := upper_word (be := be) (c := ctxOf (mipsOn be) s) ha ht hc hnum
  obtain ⟨l, h1, hrg, hneg, hw⟩ := filled (k := 15) hprog hlink hem hlen (by rw [hw0]; exact hclear) (by decide) rfl rfl rfl hc.1 hplain
  have hrg : l.org + l.base - 0 < 2 ^ 32 := by
    unfold RefRange at hrg
    rw [if_neg (by simp [mipsUpperRef])] at hrg
    exact hrg
  have hneg := hneg rfl
  have hcv : converted (mipsUpperRef label) (l.org + l.base - (mipsUpperRef label).relative) = (l.org + l.base) / 2 ^ 16 := by
    show pyShr (l.org + l.base - 0) 16 = _
    rw [Int.sub_zero]
    rfl
  rw [hcv, hw0] at hw
  have hrg' : l.org + l.base < 2 ^ 32 := by omega
  have hb : 0 ≤ (l.org + l.base) / 2 ^ 16 ∧ (l.org + l.base) / 2 ^ 16 < 2 ^ 16 := by simp only [Int.reducePow] at *; omega
  clear hcv hrg
  refine ⟨l, ((l.org + l.base) / 2 ^ 16).toNat, h1, hneg, hrg', ?_, Int.toNat_of_nonneg hb.1⟩
  rw [hw, Int.emod_eq_of_lt hb.1 hb.2]
  apply hdec
  omega

/-- C57: an immediate operand that is a label holds its whole address, which must fit. -/
theorem C57_immediate (be : Bool) (s s2 s3 : St) (t a b label : Str) (m : String) (signed : Bool) (rt rs : Nat)
    (hm : (m, signed) ∈ mipsImmediate) (ha : MipsReg a rt) (hb : MipsReg b rs) (ht : eqNoCase t m.toList)
    (hc : MipsConst label) (hnum : parseInteger (mipsOn be).sy s.labels label 16 signed = .ok none) (hplain : ∀ ch ∈ label, formulaChar ch = false)
    (hprog : InProgram (mipsOn be) s t [a, b, label] s2) (hlink : LinksAlone (mipsOn be) s2 s3 s.bytes.length (mipsImmRef label)) :
    ∃ l imm, s2.labels.lookup label = some l ∧ decodeMips (ofBytes be (window s3.bytes s.bytes.length 4)) = some (.aluImm m rt rs imm) ∧
      (imm : Int) = l.org + l.base := by
  obtain ⟨w0, blob, hem, hlen, hw0, hclear, hdec⟩ := imm_word (be := be) (c := ctxOf (mipsOn be) s) hm ha hb ht hc hnum
  obtain ⟨l, h1, hrg, hneg, hw⟩ := filled (k := 15) hprog hlink hem hlen (by rw [hw0]; exact hclear) (by decide) rfl rfl rfl hc.1 hplain
  have hrg : l.org + l.base - 0 < 2 ^ 16 := by
    unfold RefRange at hrg
    rw [if_neg (by simp [mipsImmRef])] at hrg
    exact hrg
  have hneg := hneg rfl
  have hcv : converted (mipsImmRef label) (l.org + l.base - (mipsImmRef label).relative) = l.org + l.base := by
    show l.org + l.base - 0 = _
    omega
  rw [hcv, hw0] at hw
  refine ⟨l, (l.org + l.base).toNat, h1, ?_, by omega⟩
  rw [hw, Int.emod_eq_of_lt hneg (by simpa using hrg)]
  apply hdec
  simp only [Nat.reducePow]
  omega

/-- C57: and a program in which it does not fit is not linked. -/
theorem C57_rejected (be : Bool) (s s2 : St) (t a b label : Str) (m : String) (signed : Bool) (rt rs : Nat)
    (hm : (m, signed) ∈ mipsImmediate) (ha : MipsReg a rt) (hb : MipsReg b rs) (ht : eqNoCase t m.toList)
    (hc : MipsConst label) (hnum : parseInteger (mipsOn be).sy s.labels label 16 signed = .ok none) (hplain : ∀ ch ∈ label, formulaChar ch = false)
    (hprog : InProgram (mipsOn be) s t [a, b, label] s2) (hord : ∀ e ∈ s2.relocs, Ordinary e.2)
    (l : LabelInfo) (hlk : s2.labels.lookup label = some l) (hbig : 2 ^ 16 ≤ l.org + l.base) :
    (link (mipsOn be) .dummy s2).1 ≠ .ok () := by
  obtain ⟨w0, blob, hem, hlen, -⟩ := imm_word (be := be) (c := ctxOf (mipsOn be) s) hm ha hb ht hc hnum
  have hR := hprog.recorded hem (by simp [mipsImmRef, hlen]) (by simp [mipsImmRef])
  refine plain_rejected rfl hord hR hc.1 hplain hlk ?_
  unfold RefRange
  rw [if_neg (by simp [mipsImmRef])]
  show ¬ (l.org + l.base - 0 < 2 ^ 16)
  omega

/-! ## Examples

`loop: syscall`, then a branch, a jump and two immediates that refer to it. -/

theorem reg5 : MipsReg "$a1".toList 5 := ⟨_, rfl, .inr rfl⟩
theorem reg9 : MipsReg "$9".toList 9 := ⟨_, rfl, .inl rfl⟩

def exMips : St := { bytes := [0, 0, 0, 12], labels := [("loop".toList, ⟨0, 0x2340, none⟩)], counter := 4, org := 0x2340 }
def exBranch : St := emitted exMips [0x10, 0xA9, 0, 0] [mipsBranchRef "loop".toList 0x2344]
def exJump : St := emitted exMips [0x08, 0, 0, 0] [mipsJumpRef "loop".toList]
def exUpper : St := emitted exMips [0x3C, 5, 0, 0] [mipsUpperRef "loop".toList]
def exImm : St := emitted exMips [0x21, 0x25, 0, 0] [mipsImmRef "loop".toList]

theorem exBranch_program : InProgram mips32 exMips "beq".toList ["$a1".toList, "$9".toList, "loop".toList] exBranch :=
  .last rfl (by decide +kernel) rfl ((mips_emits (m := "beq") (form := .branch) (n := 4) (be := true) (by decide +kernel) rfl).2 (Prod.ext (by decide +kernel) rfl))
theorem exJump_program : InProgram mips32 exMips "j".toList ["loop".toList] exJump :=
  .last rfl (by decide +kernel) rfl ((mips_emits (m := "j") (form := .jump) (n := 2) (be := true) (by decide +kernel) rfl).2 (Prod.ext (by decide +kernel) rfl))
theorem exUpper_program : InProgram mips32 exMips "lui".toList ["$a1".toList, "loop".toList] exUpper :=
  .last rfl (by decide +kernel) rfl ((mips_emits (m := "lui") (form := .loadI true) (n := 15) (be := true) (by decide +kernel) rfl).2 (Prod.ext (by decide +kernel) rfl))
theorem exImm_program : InProgram mips32 exMips "addi".toList ["$a1".toList, "$9".toList, "loop".toList] exImm :=
  .last rfl (by decide +kernel) rfl ((mips_emits (m := "addi") (form := .arithLogI true) (n := 8) (be := true) (by decide +kernel) rfl).2 (Prod.ext (by decide +kernel) rfl))

example : ∃ m i, eqNoCase "beq".toList m.toList ∧ decodeMips (ofBytes true [0x10, 0xA9, 0, 3]) = some i ∧
    MipsWritten (OperandValue ⟨0, [], mips32.sy, 0⟩ []) m ["$a1".toList, "$9".toList, "12".toList] i :=
  (C55_decodes true ⟨0, [], mips32.sy, 0⟩ "beq".toList _ [0x10, 0xA9, 0, 3] []
    ((mips_emits (m := "beq") (form := .branch) (n := 4) (by decide +kernel) rfl).2 (Prod.ext (by decide +kernel) rfl)) (by unfold eqNoCase; decide +kernel)).2

example : ∃ rest blob, Emits (mipsOn false) ⟨0, [], (mipsOn false).sy, 0⟩ "beq".toList rest blob [] ∧ ofBytes false blob = 0x10A90003 :=
  C55_complete false [] 0 0x10A90003 (.branch "beq" 5 9 3) (by decide) (by decide +kernel) (by decide +kernel) (fun _ _ h => nomatch h)

example : ∃ off, decodeMips (ofBytes true (window (link mips32 .dummy exBranch).2.bytes 4 4)) = some (.branch "beq" 5 9 off) ∧
    0x2344 + 4 + 4 * toSigned 16 off = 0 + 0x2340 :=
  C56_aligned true exMips exBranch _ "beq".toList "loop".toList "beq" _ _ (.two (.inl rfl) reg5 reg9) rfl (by decide) ⟨by decide, by decide⟩
    (by decide +kernel) (by decide) exBranch_program (.single (pair_ok (by decide +kernel)) rfl ⟨by decide, by decide, rfl⟩) _ rfl (by decide)

example : ∃ target, decodeMips (ofBytes true (window (link mips32 .dummy exJump).2.bytes 4 4)) = some (.jump "j" target) ∧
    (0x2344 + 4) / 2 ^ 28 * 2 ^ 28 + 4 * (target : Int) = 0 + 0x2340 :=
  C57_reaches true exMips exJump _ "j".toList "loop".toList "j" (.inl rfl) rfl ⟨by decide, by decide⟩
    (by decide +kernel) (by decide) exJump_program (.single (pair_ok (by decide +kernel)) rfl ⟨by decide, by decide, rfl⟩) _ rfl (by decide) (by decide)

example : ∃ l imm, exUpper.labels.lookup "loop".toList = some l ∧ 0 ≤ l.org + l.base ∧ l.org + l.base < 2 ^ 32 ∧
    decodeMips (ofBytes true (window (link mips32 .dummy exUpper).2.bytes 4 4)) = some (.lui 5 imm) ∧ (imm : Int) = (l.org + l.base) / 2 ^ 16 :=
  C57_upper true exMips exUpper _ "lui".toList "$a1".toList "loop".toList 5 reg5 rfl ⟨by decide, by decide⟩
    (by decide +kernel) (by decide) exUpper_program (.single (pair_ok (by decide +kernel)) rfl ⟨by decide, by decide, rfl⟩)

example : ∃ l imm, exImm.labels.lookup "loop".toList = some l ∧
    decodeMips (ofBytes true (window (link mips32 .dummy exImm).2.bytes 4 4)) = some (.aluImm "addi" 5 9 imm) ∧ (imm : Int) = l.org + l.base :=
  C57_immediate true exMips exImm _ "addi".toList "$a1".toList "$9".toList "loop".toList "addi" true 5 9 (by decide) reg5 reg9 rfl ⟨by decide, by decide⟩
    (by decide +kernel) (by decide) exImm_program (.single (pair_ok (by decide +kernel)) rfl ⟨by decide, by decide, rfl⟩)

/-! ## What does not hold -/

/-- Nine mnemonics never assemble. -/
theorem C55_unusable (be : Bool) (c : Ctx) (m : String) (hm : m ∈ ["div", "divu", "mult", "multu", "nor", "or", "sub", "subu", "xor"])
    (t : Str) (ht : eqNoCase t m.toList) (rest : List Str) (blob : Bytes) (rels : List Reloc) : ¬ Emits (mipsOn be) c t rest blob rels := by
  have : ∃ n, (m, .swapped, n) ∈ mipsTable := by
    have h : ∀ m ∈ ["div", "divu", "mult", "multu", "nor", "or", "sub", "subu", "xor"],
        ∃ row ∈ mipsTable, row.1 = m ∧ row.2.1 = .swapped := by decide +kernel
    obtain ⟨⟨m', f, n⟩, h1, h2, h3⟩ := h m hm
    exact ⟨n, h2 ▸ h3 ▸ h1⟩
  obtain ⟨n, hn⟩ := this
  rw [mips_emits hn ht]
  intro h
  cases h

/-- `sltiu` assembles to `addiu`. -/
theorem C55_sltiu (be : Bool) (c : Ctx) (rest : List Str) (blob : Bytes) (rels : List Reloc) :
    Emits (mipsOn be) c "sltiu".toList rest blob rels ↔ Emits (mipsOn be) c "addiu".toList rest blob rels := by
  rw [mips_emits (m := "sltiu") (n := 9) (form := .arithLogI false) (by decide +kernel) rfl,
    mips_emits (m := "addiu") (n := 9) (form := .arithLogI false) (by decide +kernel) rfl]
  simp only [mipsRun, instrMatch_cons, List.getD_cons_succ, List.getD_cons_zero]

/-- `sltu` assembles to a reserved word. -/
theorem C55_sltu (c : Ctx) : ∃ blob, Emits mips32 c "sltu".toList ["$9".toList, "$a1".toList, "$9".toList] blob [] ∧
    decodeMips (ofBytes true blob) = none :=
  ⟨_, (mips_emits (be := true) (m := "sltu") (form := .arithLog) (n := 41) (by decide +kernel) rfl).2 (run_arithLog (by decide) reg9 reg5 reg9), by decide +kernel⟩

/-- `jalr` throws the return address away. -/
theorem C55_jalr (c : Ctx) : ∃ blob, Emits mips32 c "jalr".toList ["$9".toList] blob [] ∧
    decodeMips (ofBytes true blob) = some (.jalr 0 9) :=
  ⟨_, (mips_emits (be := true) (m := "jalr") (form := .jumpR) (n := 9) (by decide +kernel) rfl).2 (run_jumpR (by decide) reg9), by decide +kernel⟩

/-- The operand of `lui` is a 32-bit number of which only the high half is used. -/
theorem C55_lui : Emits mips32 ⟨0, [], mips32.sy, 0⟩ "lui".toList ["$9".toList, "0x1234".toList] [0x3C, 9, 0, 0] [] :=
  (mips_emits (m := "lui") (form := .loadI true) (n := 15) (be := true) (by decide +kernel) rfl).2 (Prod.ext (by decide +kernel) rfl)

/-- A branch to a label that is not a whole number of instructions away is linked, and misses it. -/
theorem C56_unaligned : ∃ s, InProgram mips32 { exMips with labels := [("loop".toList, ⟨0, 0x2342, none⟩)] } "beq".toList
      ["$a1".toList, "$9".toList, "loop".toList] s ∧ (link mips32 .dummy s).1 = .ok () ∧
    decodeMips (ofBytes true (window (link mips32 .dummy s).2.bytes 4 4)) = some (.branch "beq" 5 9 0xFFFE) :=
  ⟨_, .last (blob := [0x10, 0xA9, 0, 0]) (rels := [mipsBranchRef "loop".toList 0x2344]) rfl (by decide +kernel) rfl
    ((mips_emits (m := "beq") (form := .branch) (n := 4) (be := true) (by decide +kernel) rfl).2 (Prod.ext (by decide +kernel) rfl)),
    by decide +kernel, by decide +kernel⟩

/-- A jump out of the 256 MiB region of its delay slot is linked, and goes to another address. -/
theorem C57_other_region : ∃ s, InProgram mips32 { exMips with labels := [("loop".toList, ⟨0, 0x10002340, none⟩)] } "j".toList ["loop".toList] s ∧
    (link mips32 .dummy s).1 = .ok () ∧
    decodeMips (ofBytes true (window (link mips32 .dummy s).2.bytes 4 4)) = some (.jump "j" (0x2340 / 4)) :=
  ⟨_, .last (blob := [0x08, 0, 0, 0]) (rels := [mipsJumpRef "loop".toList]) rfl (by decide +kernel) rfl
    ((mips_emits (m := "j") (form := .jump) (n := 2) (be := true) (by decide +kernel) rfl).2 (Prod.ext (by decide +kernel) rfl)),
    by decide +kernel, by decide +kernel⟩

end Necro
