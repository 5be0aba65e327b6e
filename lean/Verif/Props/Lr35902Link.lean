import Verif.Props.Lr35902
/-!
# C59, C60: references to labels in the Game Boy assembler
-/

namespace Necro
open Spec

/-- The reference an operand leaves for a label. -/
def gbRef : GbKind → Str → Int → Reloc
  | .d8, tok, _ => { label := tok, bitsSize := 8, offset := 1, size := 1 }
  | .r8, tok, pc => { label := tok, bitsSize := 8, offset := 1, size := 1, relative := pc + 2 }
  | .d16, tok, _ => { label := tok, bitsSize := 16, offset := 1, size := 2 }

theorem gbRef_label (k : GbKind) (tok : Str) (pc : Int) : (gbRef k tok pc).label = tok := by cases k <;> rfl
theorem gbRef_offset (k : GbKind) (tok : Str) (pc : Int) : (gbRef k tok pc).offset = 1 := by cases k <;> rfl

theorem gbFetch_label {k : GbKind} {tok : Str} {c : Ctx} {bs : Bytes} {r : Reloc} (h : gbFetch k tok c = (.ok bs, [r])) :
    r = gbRef k tok c.pc ∧ bs = List.replicate r.size 0 ∧ tok ≠ [] := by
  cases k with
  | d8 =>
    obtain ⟨v, r1, r2, h1, h2, h3⟩ := H.bind_ok (show gbData8 tok c = _ from h)
    rw [H.lift_apply, show packByte [some v] = .ok [BitVec.ofInt 8 v] from packByte_ok [v]] at h2
    simp only [Prod.mk.injEq, Except.ok.injEq] at h2
    obtain ⟨rfl, rfl⟩ := h2
    rw [List.append_nil] at h3; subst h3
    rcases H.parseIntegerOrLabel_ok h1 with ⟨-, hr⟩ | ⟨hp, hv, hr⟩
    · cases hr
    · cases hr; subst hv
      exact ⟨rfl, rfl, parse_none_ne_nil hp⟩
  | r8 =>
    obtain ⟨c', q, q', h0, h', hq⟩ := H.bind_ok (show gbRel8 tok c = _ from h)
    rw [H.read_apply] at h0; cases h0
    obtain ⟨v, r1, r2, h1, h2, h3⟩ := H.bind_ok h'
    rw [H.lift_apply, pack8s_one] at h2
    simp only [Prod.mk.injEq, Except.ok.injEq] at h2
    obtain ⟨rfl, rfl⟩ := h2
    rw [List.append_nil] at h3; subst h3
    rw [List.nil_append] at hq; subst hq
    rcases H.parseIntegerOrLabel_ok h1 with ⟨-, hr⟩ | ⟨hp, hv, hr⟩
    · cases hr
    · cases hr; subst hv
      exact ⟨rfl, rfl, parse_none_ne_nil hp⟩
  | d16 =>
    obtain ⟨v, r1, r2, h1, h2, h3⟩ := H.bind_ok (show gbData16 tok c = _ from h)
    rw [H.lift_apply, packLe16u_one] at h2
    simp only [Prod.mk.injEq, Except.ok.injEq] at h2
    obtain ⟨rfl, rfl⟩ := h2
    rw [List.append_nil] at h3; subst h3
    rcases H.parseIntegerOrLabel_ok h1 with ⟨-, hr⟩ | ⟨hp, hv, hr⟩
    · cases hr
    · cases hr; subst hv
      exact ⟨rfl, rfl, parse_none_ne_nil hp⟩

/-- What a linked operand holds. -/
def gbTarget (k : GbKind) (pc addr : Int) : Int := match k with | .r8 => addr - (pc + 2) | _ => addr

def GbKind.holds (k : GbKind) (x : Int) : Prop := (gbKindData (some k)).holds x

theorem gbRef_range {k : GbKind} {tok : Str} {pc x : Int} (hpc : 0 ≤ pc) :
    (RefRange (gbRef k tok pc) (x - (gbRef k tok pc).relative) ∧ ((gbRef k tok pc).relative = 0 → 0 ≤ x)) ↔ k.holds (gbTarget k pc x) := by
  cases k with
  | d8 =>
    show ((if (0 : Int) ≠ 0 then _ else x - 0 < 2 ^ 8) ∧ ((0 : Int) = 0 → 0 ≤ x)) ↔ 0 ≤ x ∧ x < 256
    simp; omega
  | r8 =>
    show ((if pc + 2 ≠ 0 then -(2 ^ 7) ≤ x - (pc + 2) ∧ x - (pc + 2) < 2 ^ 7 else _) ∧ (pc + 2 = 0 → 0 ≤ x)) ↔ -128 ≤ x - (pc + 2) ∧ x - (pc + 2) < 128
    rw [if_pos (by omega)]
    omega
  | d16 =>
    show ((if (0 : Int) ≠ 0 then _ else x - 0 < 2 ^ 16) ∧ ((0 : Int) = 0 → 0 ≤ x)) ↔ 0 ≤ x ∧ x < 65536
    simp; omega

theorem gbRef_bytes {k : GbKind} {tok : Str} {pc x : Int} (h : k.holds (gbTarget k pc x)) :
    gbOperand (some k) (wordBytes false (gbRef k tok pc).size (converted (gbRef k tok pc) (x - (gbRef k tok pc).relative))) =
      some (gbTarget k pc x) := by
  cases k with
  | d8 =>
    have h : 0 ≤ x ∧ x < 256 := h
    show some (((BitVec.ofInt 8 (x - 0)).toNat : Int)) = some x
    rw [byte_toNat]
    congr 1; omega
  | r8 =>
    have h : -128 ≤ x - (pc + 2) ∧ x - (pc + 2) < 128 := h
    show some ((BitVec.ofInt 8 (x - (pc + 2))).toInt) = some (x - (pc + 2))
    rw [BitVec.toInt_ofInt]
    congr 1
    show (x - (pc + 2)).bmod 256 = _
    rw [Int.bmod_def]; split <;> omega
  | d16 =>
    have h : 0 ≤ x ∧ x < 65536 := h
    show some (((BitVec.ofInt 8 (x - 0)).toNat : Int) + 256 * ((BitVec.ofInt 8 ((x - 0) / 256)).toNat : Int)) = some x
    rw [byte_toNat, byte_toNat]
    congr 1; omega

theorem gbHolds_target {k : GbKind} {tok : Str} {x : Int} (h : k.holds x) : GbHolds (fun t y => t = tok ∧ y = x) x tok (some k) := by
  cases k with
  | d8 => have h : 0 ≤ x ∧ x < 256 := h; exact ⟨x, ⟨rfl, rfl⟩, by omega⟩
  | r8 => exact ⟨x, ⟨rfl, rfl⟩, rfl⟩
  | d16 => have h : 0 ≤ x ∧ x < 65536 := h; exact ⟨x, ⟨rfl, rfl⟩, by omega⟩

/-- What is known of a line with a reference. -/
theorem gb_reference {c : Ctx} {t : Str} {rest : List Str} {blob : Bytes} {r : Reloc} (hem : Emits lr35902 c t rest blob [r])
    (hodd : ¬ GbOdd t rest) : ∃ op k name as, r = gbRef k r.label c.pc ∧ blob = op :: List.replicate r.size 0 ∧ r.label ≠ [] ∧
      (∀ bs' v, gbOperand (some k) bs' = some v → decodeGb (op :: bs') = some ⟨name, as, v⟩) ∧
      (∀ value v, GbHolds value v r.label (some k) → GbWritten value t rest ⟨name, as, v⟩) ∧ (k = .r8 ↔ gbData as = .signed) := by
  cases gb_parsed hem hodd with
  | plain h => cases h
  | @operand op k tok bs name as hb hf hd hw hk =>
    obtain ⟨hr, hbs, hne⟩ := gbFetch_label hf
    have hl : r.label = tok := by rw [hr, gbRef_label]
    subst hl; subst hbs
    exact ⟨op, k, name, as, hr, hb, hne, hd, hw, hk⟩

theorem gbTarget_eq {k : GbKind} {as : List GbArg} (hk : k = .r8 ↔ gbData as = .signed) (pc x : Int) :
    gbTarget k pc x = gbReference as pc x := by
  unfold gbReference
  cases k with
  | r8 => rw [if_pos (hk.1 rfl)]; rfl
  | d8 => rw [if_neg (fun h => nomatch hk.2 h)]; rfl
  | d16 => rw [if_neg (fun h => nomatch hk.2 h)]; rfl

/-- C59: in a linked program an instruction with a label as operand is the instruction written: its operand is the address of the
label, or its distance from the next instruction where the operand is signed. -/
theorem C59_linked (s s2 s3 : St) (t : Str) (rest : List Str) (blob : Bytes) (r : Reloc) (hpc : 0 ≤ s.pc)
    (hem : Emits lr35902 (ctxOf lr35902 s) t rest blob [r]) (hodd : ¬ GbOdd t rest) (hplain : ∀ ch ∈ r.label, formulaChar ch = false)
    (hprog : InProgram lr35902 s t rest s2) (hlink : LinksClear lr35902 s2 s3 s.bytes.length blob.length (s.bytes.length + 1)) :
    ∃ l i, s2.labels.lookup r.label = some l ∧ decodeGb (window s3.bytes s.bytes.length blob.length) = some i ∧
      GbWritten (fun tok x => tok = r.label ∧ x = i.value) t rest i ∧ i.value = gbReference i.args s.pc (l.org + l.base) := by
  obtain ⟨op, k, name, as, hr, hblob, hne, hd, hw, hk⟩ := gb_reference hem hodd
  have hoff : r.offset = 1 := by rw [hr, gbRef_offset]
  have hlen : r.offset + r.size ≤ blob.length := by rw [hoff, hblob]; simp; omega
  have hsz : 0 < r.size := by rw [hr]; cases k <;> exact Nat.zero_lt_succ _
  have hR := hprog.recorded hem hlen hsz
  obtain ⟨l, hl, hrg, hneg, -, hwin⟩ := linked_instr rfl (by rw [hoff]; exact hlink) hR (by rw [hr]; cases k <;> rfl)
    (by rw [hoff, hblob]; rw [hr]; cases k <;> rfl) hne hplain
  have hh : k.holds (gbTarget k s.pc (l.org + l.base)) :=
    (gbRef_range (tok := r.label) hpc).1 ⟨by rw [hr] at hrg; exact hrg, fun h => hneg (by rw [hr]; exact h)⟩
  have hb := gbRef_bytes (tok := r.label) hh
  refine ⟨l, _, hl, ?_, hw _ _ (gbHolds_target hh), gbTarget_eq hk _ _⟩
  have hb' : gbOperand (some k) (wordBytes false r.size (converted r (l.org + l.base - r.relative))) = some (gbTarget k s.pc (l.org + l.base)) := by
    rw [hr]; exact hb
  have hcut : blob.take r.offset ++ wordBytes lr35902.bigEndian r.size (converted r (l.org + l.base - r.relative)) ++ blob.drop (r.offset + r.size) =
      op :: wordBytes false r.size (converted r (l.org + l.base - r.relative)) := by
    rw [hoff, hblob, Nat.add_comm 1 r.size]
    simp [lr35902]
  rw [hwin, hcut]
  exact hd _ _ hb'

/-! ## C60 -/

/-- Whether the operand is a byte or a word shows in the length. -/
theorem gb_decoded_data {op : Byte} {bs : Bytes} {name : String} {as : List GbArg} {v : Int} (h : decodeGb (op :: bs) = some ⟨name, as, v⟩)
    (hs : gbData as ≠ .signed) (hv : v ≠ 0) : (bs.length = 1 → gbData as = .byte) ∧ (bs.length = 2 → gbData as = .word) := by
  unfold decodeGb at h
  simp only at h
  split at h
  · split at h
    · cases hs : gbShapeCb _ with
      | none => rw [hs] at h; cases h
      | some q => rw [hs] at h; cases h; exact absurd rfl hv
    · cases h
  split at h
  · split at h
    · cases h; exact absurd rfl hv
    · cases h
  split at h
  · cases h
  · split at h
    · exact ⟨(nomatch ·), (nomatch ·)⟩
    · next hd => cases h; exact ⟨fun _ => hd, (nomatch ·)⟩
    · next hd => cases h; exact absurd hd hs
    · next hd => cases h; exact ⟨(nomatch ·), fun _ => hd⟩
    · cases h

theorem gb_holds_iff {k : GbKind} {op : Byte} {name : String} {as : List GbArg} {pc x : Int}
    (hd : ∀ bs' v, gbOperand (some k) bs' = some v → decodeGb (op :: bs') = some ⟨name, as, v⟩) (hk : k = .r8 ↔ gbData as = .signed) :
    k.holds (gbTarget k pc x) ↔ (gbData as).holds (gbReference as pc x) := by
  have hdata : gbData as = gbKindData (some k) := by
    cases k with
    | r8 => exact hk.1 rfl
    | d8 => exact (gb_decoded_data (hd [1] 1 rfl) (fun h => nomatch hk.2 h) (by decide)).1 rfl
    | d16 => exact (gb_decoded_data (hd [1, 0] 1 rfl) (fun h => nomatch hk.2 h) (by decide)).2 rfl
  rw [hdata, gbTarget_eq hk]
  rfl

/-- C60: an instruction whose operand cannot hold what stands for the label is not linked. -/
theorem C60_rejected (s s2 : St) (t : Str) (rest : List Str) (blob : Bytes) (r : Reloc) (i : GbInstr) (l : LabelInfo) (hpc : 0 ≤ s.pc)
    (hem : Emits lr35902 (ctxOf lr35902 s) t rest blob [r]) (hodd : ¬ GbOdd t rest) (hplain : ∀ ch ∈ r.label, formulaChar ch = false)
    (hprog : InProgram lr35902 s t rest s2) (hord : ∀ e ∈ s2.relocs, Ordinary e.2) (hlk : s2.labels.lookup r.label = some l)
    (hi : decodeGb blob = some i) (hfar : ¬ (gbData i.args).holds (gbReference i.args s.pc (l.org + l.base))) :
    (link lr35902 .dummy s2).1 ≠ .ok () := by
  obtain ⟨op, k, name, as, hr, hblob, hne, hd, hw, hk⟩ := gb_reference hem hodd
  have hoff : r.offset = 1 := by rw [hr, gbRef_offset]
  have hlen : r.offset + r.size ≤ blob.length := by rw [hoff, hblob]; simp; omega
  have hsz : 0 < r.size := by rw [hr]; cases k <;> exact Nat.zero_lt_succ _
  have hR := hprog.recorded hem hlen hsz
  have has : i.args = as := by
    have := hd (List.replicate r.size 0) 0 (by rw [hr]; cases k <;> rfl)
    rw [← hblob, hi] at this
    cases this; rfl
  rw [has, ← gb_holds_iff hd hk, ← gbRef_range (tok := r.label) hpc] at hfar
  rw [show gbRef k r.label s.pc = r from hr.symm] at hfar
  by_cases h : RefRange r (l.org + l.base - r.relative)
  · have h2 : ¬ (r.relative = 0 → 0 ≤ l.org + l.base) := fun h' => hfar ⟨h, h'⟩
    exact plain_negative rfl hord hR hne hplain hlk (Classical.byContradiction fun hz => h2 fun hz' => absurd hz' hz)
      (Int.not_le.1 fun hz => h2 fun _ => hz)
  · exact plain_rejected rfl hord hR hne hplain hlk h

/-- C60: one whose operand can is linked, if nothing is wrong with the other references. -/
theorem C60_accepted (s s2 : St) (t : Str) (rest : List Str) (blob : Bytes) (r : Reloc) (i : GbInstr) (l : LabelInfo) (hpc : 0 ≤ s.pc)
    (hem : Emits lr35902 (ctxOf lr35902 s) t rest blob [r]) (hodd : ¬ GbOdd t rest) (hplain : ∀ ch ∈ r.label, formulaChar ch = false)
    (hprog : InProgram lr35902 s t rest s2) (hord : ∀ e ∈ s2.relocs, Ordinary e.2) (hlk : s2.labels.lookup r.label = some l)
    (hi : decodeGb blob = some i) (hnear : (gbData i.args).holds (gbReference i.args s.pc (l.org + l.base)))
    (hothers : ∀ e ∈ s2.relocs, e ≠ (s.bytes.length + 1, r) → ∀ x, ¬ Fault (labelRelative lr35902.sy s2.labels) s2.bytes.length e x) :
    (link lr35902 .dummy s2).1 = .ok () := by
  obtain ⟨op, k, name, as, hr, hblob, hne, hd, hw, hk⟩ := gb_reference hem hodd
  have hoff : r.offset = 1 := by rw [hr, gbRef_offset]
  have hlen : r.offset + r.size ≤ blob.length := by rw [hoff, hblob]; simp; omega
  have hsz : 0 < r.size := by rw [hr]; cases k <;> exact Nat.zero_lt_succ _
  have hR := hprog.recorded hem hlen hsz
  have has : i.args = as := by
    have := hd (List.replicate r.size 0) 0 (by rw [hr]; cases k <;> rfl)
    rw [← hblob, hi] at this
    cases this; rfl
  rw [has, ← gb_holds_iff hd hk, ← gbRef_range (tok := r.label) hpc] at hnear
  rw [show gbRef k r.label s.pc = r from hr.symm] at hnear
  rw [C38_success lr35902 rfl s2 hord]
  intro e he x
  by_cases hee : e = (s.bytes.length + 1, r)
  · subst hee
    have := plain_fault (d := lr35902) hR hne hplain hlk (by rw [hr]; cases k <;> exact Int.emod_one _) hnear.2 hnear.1
      (by intro hi lo hb; rw [hr] at hb; cases k <;> cases hb) x
    rw [hoff] at this
    exact this
  · exact hothers e he hee x

/-! ## Examples

`loop: NOP` at `$150`, then `JR NZ,loop` and `LD (loop),A`. -/

def exGbLoop : St := { bytes := [0], labels := [("loop".toList, ⟨0, 0x150, none⟩)], counter := 1, org := 0x150 }
def exJr : St := emitted exGbLoop [0x20, 0] [gbRef .r8 "loop".toList 0x151]
def exStore : St := emitted exGbLoop [0xEA, 0, 0] [gbRef .d16 "loop".toList 0x151]
def exByte : St := emitted exGbLoop [0x06, 0] [gbRef .d8 "loop".toList 0x151]

theorem exJr_emits : Emits lr35902 (ctxOf lr35902 exGbLoop) "JR".toList ["NZ".toList, "loop".toList] [0x20, 0] [gbRef .r8 "loop".toList 0x151] :=
  gbEmit_emits (m := "JR") (by decide) (Prod.ext (by decide +kernel) rfl)
theorem exStore_emits : Emits lr35902 (ctxOf lr35902 exGbLoop) "LD".toList [['('], "loop".toList, [')'], ['A']] [0xEA, 0, 0]
    [gbRef .d16 "loop".toList 0x151] :=
  gbEmit_emits (m := "LD") (by decide) (Prod.ext (by decide +kernel) rfl)
theorem exByte_emits : Emits lr35902 (ctxOf lr35902 exGbLoop) "LD".toList [['B'], "loop".toList] [0x06, 0] [gbRef .d8 "loop".toList 0x151] :=
  gbEmit_emits (m := "LD") (by decide) (Prod.ext (by decide +kernel) rfl)

example : ∃ i, decodeGb [0x20, 0] = some i ∧ GbWritten (OperandValue (ctxOf lr35902 exGbLoop) [gbRef .r8 "loop".toList 0x151]) "JR".toList
    ["NZ".toList, "loop".toList] i :=
  C58_decodes _ _ _ _ _ exJr_emits (gbOdd_test (by decide +kernel))

example : ∃ rest, ¬ GbOdd "JP".toList rest ∧ Emits lr35902 ⟨0, [], lr35902.sy, 0⟩ "JP".toList rest [0xC2, 0x34, 0x12] [] :=
  C58_complete [] 0 0 [0xC2, 0x34, 0x12] ⟨"JP", [.cond "NZ", .imm16], 0x1234⟩ (by decide +kernel)

example : ∃ l i, exJr.labels.lookup "loop".toList = some l ∧ decodeGb (window (link lr35902 .dummy exJr).2.bytes 1 2) = some i ∧
    GbWritten (fun tok x => tok = "loop".toList ∧ x = i.value) "JR".toList ["NZ".toList, "loop".toList] i ∧
    i.value = gbReference i.args 0x151 (l.org + l.base) :=
  C59_linked exGbLoop exJr _ _ _ _ _ (by decide) exJr_emits (gbOdd_test (by decide +kernel)) (by decide)
    (.last rfl (by decide +kernel) rfl exJr_emits) (.single (pair_ok (by decide +kernel)) rfl ⟨by decide, by decide, rfl⟩)

example : ∃ l i, exStore.labels.lookup "loop".toList = some l ∧ decodeGb (window (link lr35902 .dummy exStore).2.bytes 1 3) = some i ∧
    GbWritten (fun tok x => tok = "loop".toList ∧ x = i.value) "LD".toList [['('], "loop".toList, [')'], ['A']] i ∧
    i.value = gbReference i.args 0x151 (l.org + l.base) :=
  C59_linked exGbLoop exStore _ _ _ _ _ (by decide) exStore_emits (gbOdd_test (by decide +kernel)) (by decide)
    (.last rfl (by decide +kernel) rfl exStore_emits) (.single (pair_ok (by decide +kernel)) rfl ⟨by decide, by decide, rfl⟩)

/-- The address `$150` does not fit in a byte. -/
example : (link lr35902 .dummy exByte).1 ≠ .ok () :=
  C60_rejected exGbLoop exByte _ _ _ _ ⟨"LD", [.reg "B", .imm8], 0⟩ ⟨0, 0x150, none⟩ (by decide) exByte_emits (gbOdd_test (by decide +kernel)) (by decide)
    (.last rfl (by decide +kernel) rfl exByte_emits) (by intro e he; cases List.mem_singleton.1 he; exact ⟨by decide, by decide, rfl⟩) (by decide)
    (by decide +kernel) (by show ¬ ((0 : Int) ≤ 0x150 ∧ (0x150 : Int) < 256); decide)

example : (link lr35902 .dummy exStore).1 = .ok () :=
  C60_accepted exGbLoop exStore _ _ _ _ ⟨"LD", [.mem16, .reg "A"], 0⟩ ⟨0, 0x150, none⟩ (by decide) exStore_emits (gbOdd_test (by decide +kernel)) (by decide)
    (.last rfl (by decide +kernel) rfl exStore_emits) (by intro e he; cases List.mem_singleton.1 he; exact ⟨by decide, by decide, rfl⟩) (by decide)
    (by decide +kernel) (by show (0 : Int) ≤ 0x150 ∧ (0x150 : Int) < 65536; decide)
    (by intro e he hne; cases List.mem_singleton.1 he; exact absurd rfl hne)

/-! ## What does not hold: the lines of `GbOdd` -/

/-- `BRA`, which the processor does not have, assembles to `RRA`. -/
theorem C58_bra (c : Ctx) : Emits lr35902 c "BRA".toList [] [0x1F] [] ∧ decodeGb [0x1F] = some ⟨"RRA", [], 0⟩ :=
  ⟨gbEmit_emits (m := "BRA") (by decide) rfl, by decide +kernel⟩

/-- `RLC (H)` assembles to `RLC (HL)`. -/
theorem C58_half (c : Ctx) : Emits lr35902 c "RLC".toList [['('], ['H'], [')']] [0xCB, 0x06] [] ∧
    decodeGb [0xCB, 0x06] = some ⟨"RLC", [.mem "HL"], 0⟩ :=
  ⟨gbEmit_emits (m := "RLC") (by decide) rfl, by decide +kernel⟩

/-- `LD (0),A`, a store to address 0, assembles to the store to `$FF00+C`. -/
theorem C58_store (c : Ctx) : Emits lr35902 c "LD".toList [['('], ['0'], [')'], ['A']] [0xE2] [] ∧
    decodeGb [0xE2] = some ⟨"LD", [.highC, .reg "A"], 0⟩ :=
  ⟨gbEmit_emits (m := "LD") (by decide) rfl, by decide +kernel⟩

/-- `LD B,SP+@1` with anything behind it assembles to `LD HL,SP+1`. -/
theorem C58_sp (c : Ctx) (hsy : c.sy = lr35902.sy) : Emits lr35902 c "LD".toList [['B'], "SP+@1".toList, ['X']] [0xF8, 1] [] ∧
    decodeGb [0xF8, 1] = some ⟨"LD", [.reg "HL", .spRel], 1⟩ := by
  refine ⟨gbEmit_emits (m := "LD") (by decide) ?_, by decide +kernel⟩
  obtain ⟨row, hrow⟩ := gb_ld_find
  unfold gbEmit
  rw [hrow]
  show gbLd row _ _ = _
  unfold gbLd
  rw [if_pos (by decide +kernel)]
  have h1 : gbRel8 "@1".toList c = (.ok [1], []) := by
    unfold gbRel8
    rw [H.bind_run (H.read_apply _), H.bind_run (parseIntegerOrLabel_number (v := 1) ?_), H.lift_apply]
    · rfl
    · rw [hsy]
      exact gb_octal c.labels 1 8 _ (by decide) (by decide)
  rw [H.bind_run (show gbRel8 (List.drop 3 ((["LD".toList, ['B'], "SP+@1".toList, ['X']] : List Str).getD 2 [])) c = _ from h1)]
  rfl

end Necro
