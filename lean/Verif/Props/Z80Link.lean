import Verif.Props.Z80
import Verif.Props.ThumbLink
/-!
# C72: references to labels in the Z80 assembler
-/

namespace Necro
open Spec

/-- What a token stands for in the program `s'`, seen from an instruction assembled in state `s`: a number, or the
address of a label, which must fit the field of `n` bits.  A distance counts from the end of the instruction, which is two bytes long. -/
def z80Linked (s s' : St) (use : M68Use) (n : Nat) (tok : Str) (x : Int) : Prop :=
  m68Number (ctxOf z80 s) use n tok x ∨ ((∀ y dec, ¬ TokenValue z80.sy s.labels tok y dec) ∧ ∃ l, s'.labels.lookup tok = some l ∧
    if use = .pc then x = l.org + l.base - (s.pc + 2) ∧ -(2 ^ (n - 1)) ≤ x ∧ x < 2 ^ (n - 1) else x = l.org + l.base ∧ 0 ≤ x ∧ x < 2 ^ n)

variable {s s1 s2 : St} {t : Str} {rest : List Str} {blob : Bytes} {rels : List Reloc}

/-- What is known of a line with a reference. -/
structure Z80Ref (s s1 : St) (t : Str) (rest : List Str) (blob : Bytes) (rels : List Reloc) (hook : Z80Hook) (tok : Str) (lead trail : Bytes) (p : String × List Z80Arg) : Prop where
  refs : rels = [(z80Slot hook s.pc lead.length tok).2.1]
  leadNe : lead ≠ []
  short : hook = .e → lead.length = 1 ∧ trail = []
  noNumber : ∀ y dec, ¬ TokenValue z80.sy s.labels (z80Slot hook s.pc lead.length tok).2.1.label y dec
  code : blob = lead ++ z80Bytes hook 0 ++ trail
  hookOk : z80HookOk (some hook) p.2 = true
  recorded : Recorded s1 s.bytes.length blob (z80Slot hook s.pc lead.length tok).2.1
  decodes : ∀ v', ∃ d w, decodeZ80 (lead ++ z80Bytes hook v' ++ trail) = some ⟨p.1, p.2, d, w⟩ ∧ z80Means hook v' d w ∧
        ∀ (value : M68Use → Nat → Str → Int → Prop) x,
          value (z80Slot hook s.pc lead.length tok).1 (z80Slot hook s.pc lead.length tok).2.1.bitsSize (z80Slot hook s.pc lead.length tok).2.1.label x →
          v' % 2 ^ (z80Slot hook s.pc lead.length tok).2.1.bitsSize = x % 2 ^ (z80Slot hook s.pc lead.length tok).2.1.bitsSize →
          Z80Written value t rest ⟨p.1, p.2, d, w⟩

theorem z80Slot_offset (hook : Z80Hook) (pc : Int) (n : Nat) (tok : Str) : (z80Slot hook pc n tok).2.1.offset = n := by cases hook <;> rfl
theorem z80Bytes_length (hook : Z80Hook) (pc : Int) (n : Nat) (tok : Str) (v : Int) : (z80Bytes hook v).length = (z80Slot hook pc n tok).2.1.size := by cases hook <;> rfl

theorem z80_reference (hpc : 0 ≤ s.pc) (hprog : InProgram z80 s t rest s1) (hem : Emits z80 (ctxOf z80 s) t rest blob rels) (hne : rels ≠ [])
    (ho : ¬ Z80Odd t rest) : ∃ hook tok lead trail p, Z80Ref s s1 t rest blob rels hook tok lead trail p := by
  obtain ⟨r, hr, ht, hm, he⟩ := z80_row hem
  rcases rows_ok hr with hok | hodd
  · cases row_line hok ht hm he with
    | plain h => exact absurd h hne
    | @value hook tok lead trail v p h1 h2 h3 hv hb h4 hall =>
      rcases slot_value (z80Slot_ok hook (show 0 ≤ (ctxOf z80 s).pc from hpc) _ tok) hv with ⟨h, -⟩ | ⟨hrels, rfl, hnum⟩
      · exact absurd h hne
      · refine ⟨hook, tok, lead, trail, p, hrels, h1, fun e => ⟨h3 e, h2 (.inr e)⟩, hnum, hb, h4, ?_, hall⟩
        rw [hrels] at hem
        refine hprog.recorded hem ?_ ?_
        · rw [z80Slot_offset, ← z80Bytes_length hook _ _ _ 0, hb]
          simp only [List.length_append]
          omega
        · cases hook <;> exact Nat.succ_pos _
  · exact absurd (z80_odd_row hodd ht hm) ho

theorem z80Bytes_word (hook : Z80Hook) (pc : Int) (n : Nat) (tok : Str) (v : Int) : wordBytes false (z80Slot hook pc n tok).2.1.size v = z80Bytes hook v := by
  have hmod : ∀ x : Int, BitVec.ofInt 8 (x % 65536) = BitVec.ofInt 8 x := by
    intro x
    apply BitVec.eq_of_toNat_eq
    have h1 := byte_toNat (x % 65536)
    have h2 := byte_toNat x
    omega
  cases hook with
  | nn =>
    show [BitVec.ofInt 8 v, BitVec.ofInt 8 (v / 256)] = [BitVec.ofInt 8 (v % 65536), BitVec.ofInt 8 (v % 65536 / 256)]
    have : BitVec.ofInt 8 (v % 65536 / 256) = BitVec.ofInt 8 (v / 256) := by
      apply BitVec.eq_of_toNat_eq
      have h1 := byte_toNat (v % 65536 / 256)
      have h2 := byte_toNat (v / 256)
      omega
    rw [hmod, this]
  | _ => rfl

theorem z80_range {hook : Z80Hook} {pc : Int} (hpc : 0 ≤ pc) {n : Nat} (hn : hook = .e → n = 1) {tok : Str} (x : Int) :
    (RefRange (z80Slot hook pc n tok).2.1 (x - (z80Slot hook pc n tok).2.1.relative) ∧ ((z80Slot hook pc n tok).2.1.relative = 0 → 0 ≤ x)) ↔
      if (z80Slot hook pc n tok).1 = .pc then -(2 ^ ((z80Slot hook pc n tok).2.1.bitsSize - 1)) ≤ x - (pc + 2) ∧ x - (pc + 2) < 2 ^ ((z80Slot hook pc n tok).2.1.bitsSize - 1)
      else 0 ≤ x ∧ x < 2 ^ (z80Slot hook pc n tok).2.1.bitsSize := by
  unfold RefRange
  cases hook with
  | e =>
    cases hn rfl
    have : (z80Slot .e pc 1 tok).2.1.relative = pc + 2 := by simp [z80Slot]; omega
    rw [this, if_pos (by omega), if_pos (show (z80Slot .e pc 1 tok).1 = .pc from rfl)]
    exact ⟨fun h => h.1, fun h => ⟨h, fun e => by omega⟩⟩
  | nn => simp [z80Slot]; omega
  | n => simp [z80Slot]; omega
  | d => simp [z80Slot]; omega
  | index => simp [z80Slot]; omega

theorem z80_relative {hook : Z80Hook} {pc : Int} {n : Nat} (hn : hook = .e → n = 1) {tok : Str} :
    (z80Slot hook pc n tok).2.1.relative = if (z80Slot hook pc n tok).1 = .pc then pc + 2 else 0 := by
  cases hook with
  | e => cases hn rfl; simp [z80Slot]; omega
  | _ => simp [z80Slot]

/-- C72: in a linked program the code of a line with a label is, for the processor, the instruction written, the label standing for its address or,
in `JR` and `DJNZ`, for its distance from the next instruction. -/
theorem C72_linked (hpc : 0 ≤ s.pc) (hprog : InProgram z80 s t rest s1) (hem : Emits z80 (ctxOf z80 s) t rest blob rels) (hne : rels ≠ [])
    (ho : ¬ Z80Odd t rest) (hplain : ∀ r ∈ rels, r.label ≠ [] ∧ ∀ ch ∈ r.label, formulaChar ch = false)
    (hlink : ∀ r ∈ rels, LinksClear z80 s1 s2 s.bytes.length blob.length (s.bytes.length + r.offset)) :
    ∃ i, decodeZ80 (window s2.bytes s.bytes.length blob.length) = some i ∧ Z80Written (z80Linked s s1) t rest i := by
  obtain ⟨hook, tok, lead, trail, p, h⟩ := z80_reference hpc hprog hem hne ho
  have hmem : (z80Slot hook s.pc lead.length tok).2.1 ∈ rels := by rw [h.refs]; simp
  obtain ⟨h1, h2⟩ := hplain _ hmem
  have hoff := z80Slot_offset hook s.pc lead.length tok
  have hsize := z80Bytes_length hook s.pc lead.length tok
  obtain ⟨l, hl, hrg, hneg, -, hwin⟩ := linked_instr rfl (hlink _ hmem) h.recorded (by cases hook <;> rfl) (by
      rw [hoff, h.code, ← hsize 0]
      have : window (lead ++ z80Bytes hook 0 ++ trail) lead.length (z80Bytes hook 0).length = z80Bytes hook 0 := by simp [window, List.append_assoc]
      rw [this]
      cases hook <;> rfl) h1 h2
  have hn : hook = .e → lead.length = 1 := fun e => (h.short e).1
  have hrange := (z80_range hpc hn (tok := tok) (l.org + l.base)).1 ⟨hrg, hneg⟩
  have hcut : window s2.bytes s.bytes.length blob.length = lead ++ z80Bytes hook (l.org + l.base - (z80Slot hook s.pc lead.length tok).2.1.relative) ++ trail := by
    rw [hwin, hoff, h.code]
    have hc : converted (z80Slot hook s.pc lead.length tok).2.1 (l.org + l.base - (z80Slot hook s.pc lead.length tok).2.1.relative) =
        l.org + l.base - (z80Slot hook s.pc lead.length tok).2.1.relative := by cases hook <;> rfl
    rw [hc, show z80.bigEndian = false from rfl, z80Bytes_word, ← hsize 0]
    simp [List.append_assoc, List.drop_append, List.take_append]
  rw [hcut]
  obtain ⟨d, w, g1, -, g3⟩ := h.decodes (l.org + l.base - (z80Slot hook s.pc lead.length tok).2.1.relative)
  refine ⟨_, g1, g3 _ (l.org + l.base - (z80Slot hook s.pc lead.length tok).2.1.relative) (.inr ⟨h.noNumber, l, hl, ?_⟩) rfl⟩
  rw [z80_relative hn]
  by_cases hp : (z80Slot hook s.pc lead.length tok).1 = .pc
  · rw [if_pos hp] at hrange ⊢
    rw [if_pos hp]
    exact ⟨rfl, hrange⟩
  · rw [if_neg hp] at hrange ⊢
    rw [if_neg hp, Int.sub_zero]
    exact ⟨rfl, hrange⟩

/-- Whether the operand of the instruction can hold the address `a`, or the distance to it from the instruction at `pc`. -/
def z80Reaches (as : List Z80Arg) (pc a : Int) : Prop :=
  match z80Data as with
  | .signed => -128 ≤ a - (pc + 2) ∧ a - (pc + 2) < 128
  | .word => 0 ≤ a ∧ a < 65536
  | _ => 0 ≤ a ∧ a < 256

theorem z80_reaches {hook : Z80Hook} {as : List Z80Arg} (hok : z80HookOk (some hook) as = true) {pc : Int} (hpc : 0 ≤ pc) {n : Nat} (hn : hook = .e → n = 1) {tok : Str} (x : Int) :
    (RefRange (z80Slot hook pc n tok).2.1 (x - (z80Slot hook pc n tok).2.1.relative) ∧ ((z80Slot hook pc n tok).2.1.relative = 0 → 0 ≤ x)) ↔ z80Reaches as pc x := by
  rw [z80_range hpc hn]
  unfold z80HookOk at hok
  unfold z80Reaches
  cases hook with
  | d => cases hok
  | _ =>
    simp only [Bool.and_eq_true, beq_iff_eq] at hok
    rw [hok.2]
    rfl

theorem z80_args {hook : Z80Hook} {tok : Str} {lead trail : Bytes} {p : String × List Z80Arg} (h : Z80Ref s s1 t rest blob rels hook tok lead trail p) {i : Z80Instr}
    (hi : decodeZ80 blob = some i) : i.args = p.2 := by
  obtain ⟨d, w, g, -⟩ := h.decodes 0
  rw [← h.code, hi] at g
  cases g
  rfl

/-- C72: a line with a label whose address, or distance, the operand cannot hold is not linked. -/
theorem C72_rejected (hpc : 0 ≤ s.pc) (hprog : InProgram z80 s t rest s1) {r : Reloc} (hem : Emits z80 (ctxOf z80 s) t rest blob [r])
    (ho : ¬ Z80Odd t rest) (hplain : r.label ≠ [] ∧ ∀ ch ∈ r.label, formulaChar ch = false) (hord : ∀ e ∈ s1.relocs, Ordinary e.2)
    {l : LabelInfo} (hlk : s1.labels.lookup r.label = some l) {i : Z80Instr} (hi : decodeZ80 blob = some i) (hfar : ¬ z80Reaches i.args s.pc (l.org + l.base)) :
    (link z80 .dummy s1).1 ≠ .ok () := by
  obtain ⟨hook, tok, lead, trail, p, h⟩ := z80_reference hpc hprog hem (by simp) ho
  have hr := h.refs
  simp only [List.cons.injEq, and_true] at hr
  rw [z80_args h hi, ← z80_reaches h.hookOk hpc (fun e => (h.short e).1) (tok := tok), ← hr] at hfar
  have hR := h.recorded
  rw [← hr] at hR
  by_cases h1 : RefRange r (l.org + l.base - r.relative)
  · have h2 : ¬ (r.relative = 0 → 0 ≤ l.org + l.base) := fun h' => hfar ⟨h1, h'⟩
    exact plain_negative rfl hord hR hplain.1 hplain.2 hlk (Classical.byContradiction fun hz => h2 fun hz' => absurd hz' hz)
      (Int.not_le.1 fun hz => h2 fun _ => hz)
  · exact plain_rejected rfl hord hR hplain.1 hplain.2 hlk h1

/-- C72: one whose operand can is linked, if nothing is wrong with the other references. -/
theorem C72_accepted (hpc : 0 ≤ s.pc) (hprog : InProgram z80 s t rest s1) {r : Reloc} (hem : Emits z80 (ctxOf z80 s) t rest blob [r])
    (ho : ¬ Z80Odd t rest) (hplain : r.label ≠ [] ∧ ∀ ch ∈ r.label, formulaChar ch = false) (hord : ∀ e ∈ s1.relocs, Ordinary e.2)
    {l : LabelInfo} (hlk : s1.labels.lookup r.label = some l) {i : Z80Instr} (hi : decodeZ80 blob = some i) (hnear : z80Reaches i.args s.pc (l.org + l.base))
    (hothers : ∀ e ∈ s1.relocs, e ≠ (s.bytes.length + r.offset, r) → ∀ x, ¬ Fault (labelRelative z80.sy s1.labels) s1.bytes.length e x) :
    (link z80 .dummy s1).1 = .ok () := by
  obtain ⟨hook, tok, lead, trail, p, h⟩ := z80_reference hpc hprog hem (by simp) ho
  have hr := h.refs
  simp only [List.cons.injEq, and_true] at hr
  rw [z80_args h hi, ← z80_reaches h.hookOk hpc (fun e => (h.short e).1) (tok := tok), ← hr] at hnear
  have hR := h.recorded
  rw [← hr] at hR
  rw [C38_success z80 rfl s1 hord]
  intro e he x
  by_cases hee : e = (s.bytes.length + r.offset, r)
  · subst hee
    exact plain_fault (d := z80) hR hplain.1 hplain.2 hlk (by rw [hr]; cases hook <;> exact Int.emod_one _) hnear.2 hnear.1
      (by intro hi lo hb; rw [hr] at hb; cases hook <;> cases hb) x
  · exact hothers e he hee x

/-! ## Examples

`again: NOP` at `$150`, then a line with the label. -/

def exZ80Loop : St := { bytes := [0], labels := [("again".toList, ⟨0, 0x150, none⟩)], counter := 1, org := 0x150 }
def exZ80Jr : St := emitted exZ80Loop [0x20, 0] [(z80Slot .e 0x151 1 "again".toList).2.1]
def exZ80Ld : St := emitted exZ80Loop [0xED, 0x4B, 0, 0] [(z80Slot .nn 0x151 2 "again".toList).2.1]
def exZ80Byte : St := emitted exZ80Loop [0x06, 0] [(z80Slot .n 0x151 1 "again".toList).2.1]

theorem exZ80Jr_emits : Emits z80 (ctxOf z80 exZ80Loop) "jr".toList ["nz".toList, "again".toList] [0x20, 0] [(z80Slot .e 0x151 1 "again".toList).2.1] :=
  .handler rfl (Prod.ext (by decide +kernel) rfl)
set_option maxRecDepth 20000 in
theorem exZ80Ld_emits : Emits z80 (ctxOf z80 exZ80Loop) "ld".toList (["bc", "(", "again", ")"].map String.toList) [0xED, 0x4B, 0, 0] [(z80Slot .nn 0x151 2 "again".toList).2.1] :=
  .handler rfl (Prod.ext (by decide +kernel) rfl)
theorem exZ80Byte_emits : Emits z80 (ctxOf z80 exZ80Loop) "ld".toList ["b".toList, "again".toList] [0x06, 0] [(z80Slot .n 0x151 1 "again".toList).2.1] :=
  .handler rfl (Prod.ext (by decide +kernel) rfl)

example : ∃ i, decodeZ80 (window (link z80 .dummy exZ80Jr).2.bytes 1 2) = some i ∧ Z80Written (z80Linked exZ80Loop exZ80Jr) "jr".toList ["nz".toList, "again".toList] i := by
  have h := C72_linked (s := exZ80Loop) (s1 := exZ80Jr) (by decide) (.last rfl (by decide +kernel) rfl exZ80Jr_emits) exZ80Jr_emits (by simp)
    (not_odd80 (by decide +kernel)) (by intro r hr; cases List.mem_singleton.1 hr; exact ⟨by decide, by decide⟩)
    (by intro r hr; cases List.mem_singleton.1 hr; exact .single (pair_ok (by decide +kernel)) rfl ⟨by decide, by decide, rfl⟩)
  exact h

example : decodeZ80 (window (link z80 .dummy exZ80Jr).2.bytes 1 2) = some ⟨"JR", [.cond "NZ", .rel], 0, -3⟩ := by decide +kernel

example : ∃ i, decodeZ80 (window (link z80 .dummy exZ80Ld).2.bytes 1 4) = some i ∧
    Z80Written (z80Linked exZ80Loop exZ80Ld) "ld".toList (["bc", "(", "again", ")"].map String.toList) i := by
  have h := C72_linked (s := exZ80Loop) (s1 := exZ80Ld) (by decide) (.last rfl (by decide +kernel) rfl exZ80Ld_emits) exZ80Ld_emits (by simp)
    (not_odd80 (by decide +kernel)) (by intro r hr; cases List.mem_singleton.1 hr; exact ⟨by decide, by decide⟩)
    (by intro r hr; cases List.mem_singleton.1 hr; exact .single (pair_ok (by decide +kernel)) rfl ⟨by decide, by decide, rfl⟩)
  exact h

example : decodeZ80 (window (link z80 .dummy exZ80Ld).2.bytes 1 4) = some ⟨"LD", [.reg "BC", .mem16], 0, 0x150⟩ := by decide +kernel

example : (link z80 .dummy exZ80Jr).1 = .ok () :=
  C72_accepted (s := exZ80Loop) (s1 := exZ80Jr) (by decide) (.last rfl (by decide +kernel) rfl exZ80Jr_emits) exZ80Jr_emits
    (not_odd80 (by decide +kernel)) ⟨by decide, by decide⟩
    (by intro e he; cases List.mem_singleton.1 he; exact ⟨by decide, by decide, rfl⟩) (l := ⟨0, 0x150, none⟩) (by decide)
    (i := ⟨"JR", [.cond "NZ", .rel], 0, 0⟩) (by decide +kernel) (by show (-128 : Int) ≤ 0x150 - (0x151 + 2) ∧ (0x150 : Int) - (0x151 + 2) < 128; decide)
    (by intro e he hne; cases List.mem_singleton.1 he; exact absurd rfl hne)

/-- The address `$150` does not fit in a byte. -/
example : (link z80 .dummy exZ80Byte).1 ≠ .ok () :=
  C72_rejected (s := exZ80Loop) (s1 := exZ80Byte) (by decide) (.last rfl (by decide +kernel) rfl exZ80Byte_emits) exZ80Byte_emits
    (not_odd80 (by decide +kernel)) ⟨by decide, by decide⟩
    (by intro e he; cases List.mem_singleton.1 he; exact ⟨by decide, by decide, rfl⟩) (l := ⟨0, 0x150, none⟩) (by decide)
    (i := ⟨"LD", [.reg "B", .imm8], 0, 0⟩) (by decide +kernel) (by show ¬ ((0 : Int) ≤ 0x150 ∧ (0x150 : Int) < 256); decide)

/-! ## What does not hold -/

/-- `LD A,(IX+5)` is a load from a label named `IX+5`, that is, 5 after the label `IX`; without such a label it is not linked. -/
theorem C72_index : Emits z80 (ctxOf z80 exZ80Loop) "LD".toList (["A", "(", "IX+5", ")"].map String.toList) [0x3A, 0, 0] [(z80Slot .nn 0x151 1 "IX+5".toList).2.1] ∧
    (link z80 .dummy (emitted exZ80Loop [0x3A, 0, 0] [(z80Slot .nn 0x151 1 "IX+5".toList).2.1])).1 ≠ .ok () :=
  ⟨.handler rfl (Prod.ext (by decide +kernel) rfl), by
    intro h
    have : (link z80 .dummy (emitted exZ80Loop [0x3A, 0, 0] [(z80Slot .nn 0x151 1 "IX+5".toList).2.1])).1.toOption = none := by decide +kernel
    rw [h] at this
    cases this⟩

end Necro
