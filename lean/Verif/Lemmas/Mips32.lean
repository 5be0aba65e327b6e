import Verif.Spec.Mips32
import Verif.Model.Cpu.Mips32
import Verif.Lemmas.Operand
import Verif.Lemmas.Mos6502
import Verif.Lemmas.Word
/-!
# The MIPS32 assembler
-/

namespace Necro
open Spec

theorem lower_eq_of_upper_eq {a b : Str} (h : upper a = upper b) : lower a = lower b := by
  have : ∀ x : Str, lower x = (upper x).map Char.toLower := by
    intro x
    simp only [lower, upper, List.map_map]
    exact List.map_congr_left fun c _ => (toLower_toUpper c).symm
  rw [this, this, h]

/-! ## registers -/

theorem regNames_index : ∀ n, n < 32 → ∀ p, mipsRegNames[n]? = some p →
    (mipsBase.findIdx? (· == lower p.1.toList) = some n) ∧
    (mipsBase.findIdx? (· == lower p.2.toList) = none ∧ mipsAlias.findIdx? (· == lower p.2.toList) = some n) ∧
    lower p.1.toList = p.1.toList ∧ lower p.2.toList = p.2.toList := by
  have h : ∀ n, n < 32 → (mipsRegNames[n]?.all fun p =>
    (mipsBase.findIdx? (· == lower p.1.toList) = some n) &&
    (mipsBase.findIdx? (· == lower p.2.toList) = none && mipsAlias.findIdx? (· == lower p.2.toList) = some n) &&
    (lower p.1.toList = p.1.toList && lower p.2.toList = p.2.toList)) = true := by decide +kernel
  intro n hn p hp
  have := h n hn
  rw [hp] at this
  simpa [and_assoc] using this

theorem mipsReg_lt {t : Str} {n : Nat} (h : MipsReg t n) : n < 32 := by
  obtain ⟨p, hp, -⟩ := h
  have := (List.getElem?_eq_some_iff.1 hp).1
  exact this

theorem mipsReg_of {t : Str} {n : Nat} (h : MipsReg t n) (c : Ctx) : mipsReg t c = (.ok (n : Int), []) := by
  have hn := mipsReg_lt h
  obtain ⟨p, hp, ht⟩ := h
  obtain ⟨h1, ⟨h2, h3⟩, h4, h5⟩ := regNames_index n hn p hp
  unfold mipsReg
  rcases ht with ht | ht
  · rw [lower_eq_of_upper_eq ht, h1]; rfl
  · rw [lower_eq_of_upper_eq ht, h2, h3]; rfl

theorem matches_regs {t : Str} : mipsRegs.matches t = true ↔ ∃ n, MipsReg t n := by
  unfold mipsRegs
  simp only [Pat.matches, List.any_eq_true, decide_eq_true_eq]
  constructor
  · rintro ⟨x, hx, h⟩
    have : ∀ x ∈ mipsBase ++ mipsAlias, ((List.range 32).any fun n => mipsRegNames[n]?.any fun p =>
        decide (x = p.1.toList ∨ x = p.2.toList)) = true := by decide +kernel
    have := this x hx
    simp only [List.any_eq_true, List.mem_range, Option.any_eq_true_iff_get, decide_eq_true_eq] at this
    obtain ⟨n, hn, hs, hp⟩ := this
    refine ⟨n, _, Option.some_get hs |>.symm, ?_⟩
    rcases hp with hp | hp
    · exact .inl (by rw [← hp]; exact h)
    · exact .inr (by rw [← hp]; exact h)
  · rintro ⟨n, h⟩
    have hn := mipsReg_lt h
    obtain ⟨p, hp, ht⟩ := h
    have : ∀ n, n < 32 → (mipsRegNames[n]?.all fun p =>
      decide (p.1.toList ∈ mipsBase ++ mipsAlias) && decide (p.2.toList ∈ mipsBase ++ mipsAlias)) = true := by decide +kernel
    have := this n hn
    rw [hp] at this
    simp only [Option.all_some, Bool.and_eq_true, decide_eq_true_eq] at this
    rcases ht with ht | ht
    · exact ⟨_, this.1, ht⟩
    · exact ⟨_, this.2, ht⟩

theorem matches_imm {t : Str} : mipsImm.matches t = true ↔ MipsConst t := by
  unfold mipsImm MipsConst
  rw [matches_pred]
  cases t with
  | nil => simp
  | cons c a =>
    simp only [startsWith, List.isPrefixOf, List.isEmpty_cons, Bool.and_true, Bool.not_false, Bool.true_and,
      ne_eq, reduceCtorEq, not_false_eq_true, true_and, List.head?_cons, Option.some.injEq, Bool.not_eq_true', beq_eq_false_iff_ne]
    exact ⟨fun h => Ne.symm h, fun h => Ne.symm h⟩

/-! ## words -/

def partSum (fs : List BitField) : Int := (fs.map fieldPart).foldr (· + ·) 0

theorem mipsWord_of {be : Bool} {fs : List BitField} (hok : ∀ f ∈ fs, FieldOk f)
    (hd : fs.Pairwise (fun f g => f.hi < g.lo ∨ g.hi < f.lo)) (hlt : partSum fs < 2 ^ 32) (c : Ctx) :
    mipsWord be fs c = (.ok (some (wordBytes be 4 (partSum fs))), []) := by
  have hs := packBits_sum fs 0 (by decide) hok (fun _ _ _ _ _ => by simp [bit]) hd
  rw [Int.zero_add] at hs
  have h0 : 0 ≤ partSum fs := by
    unfold partSum
    clear hs hlt hd hok
    induction fs with
    | nil => simp
    | cons f fs ih => have := fieldPart_nonneg f; simp only [List.map_cons, List.foldr_cons]; omega
  unfold mipsWord
  rw [H.bind_run (a := partSum fs) (by rw [H.lift_apply, hs]; rfl),
    H.bind_run (a := wordBytes be 4 (partSum fs)) (by rw [H.lift_apply, pack32u be _ h0 hlt])]
  rfl

theorem mipsWord_ok {be : Bool} {fs : List BitField} {c : Ctx} {b : Bytes} {rels : List Reloc}
    (h : mipsWord be fs c = (.ok (some b), rels)) (hd : fs.Pairwise (fun f g => f.hi < g.lo ∨ g.hi < f.lo))
    (hlt : partSum fs < 2 ^ 32) :
    rels = [] ∧ (∀ f ∈ fs, FieldOk f) ∧ b.length = 4 ∧ ((ofBytes be b : Nat) : Int) = partSum fs := by
  have hok : ∀ f ∈ fs, FieldOk f := by
    obtain ⟨v, r, r', h1, -, -⟩ := H.bind_ok h
    rw [H.lift_apply] at h1
    exact (C04_pack_bits_ok_iff 0 fs).1 ⟨v, (Prod.mk.inj h1).1⟩
  rw [mipsWord_of hok hd hlt] at h
  cases h
  refine ⟨rfl, hok, wordBytes_length _ _ _, ?_⟩
  rw [ofBytes_wordBytes]
  have h0 : 0 ≤ partSum fs := by
    unfold partSum
    clear hlt hd hok
    induction fs with
    | nil => simp
    | cons f fs ih => have := fieldPart_nonneg f; simp only [List.map_cons, List.foldr_cons]; omega
  exact Int.emod_eq_of_lt h0 hlt

/-! ## the instruction table -/

theorem mips_key (be : Bool) (t : Str) : (mipsOn be).key t = upper t := rfl

/-- The row of the table an instruction comes from. -/
theorem mips_row {be : Bool} {c : Ctx} {t : Str} {rest : List Str} {blob : Bytes} {rels : List Reloc}
    (h : Emits (mipsOn be) c t rest blob rels) :
    ∃ m form n, (m, form, n) ∈ mipsTable ∧ eqNoCase t m.toList ∧ mipsRun be form n (t :: rest) c = (.ok (some blob), rels) := by
  have hinv : ∀ {k i}, (mipsOn be).instrs k = some i → ∃ p ∈ mipsTable, upper p.1.toList = k ∧ i = .handler (mipsRun be p.2.1 p.2.2) := by
    intro k i h
    simp only [mipsOn, Option.map_eq_some_iff] at h
    obtain ⟨q, hq, hi⟩ := h
    obtain ⟨p, hp, he⟩ := List.mem_map.1 (mem_of_dget hq)
    cases he
    exact ⟨p, hp, rfl, hi.symm⟩
  cases h with
  | fixed hf _ => obtain ⟨p, _, _, h⟩ := hinv hf; cases h
  | handler hf he =>
    obtain ⟨p, hp, hk, h⟩ := hinv hf
    cases h
    exact ⟨p.1, p.2.1, p.2.2, hp, hk.symm, he⟩

theorem mips_emits {be : Bool} {c : Ctx} {t : Str} {rest : List Str} {blob : Bytes} {rels : List Reloc} {m : String} {form : MipsForm}
    {n : Nat} (hm : (m, form, n) ∈ mipsTable) (ht : eqNoCase t m.toList) :
    Emits (mipsOn be) c t rest blob rels ↔ mipsRun be form n (t :: rest) c = (.ok (some blob), rels) := by
  have hk : (mipsOn be).instrs ((mipsOn be).key t) = some (.handler (mipsRun be form n)) := by
    rw [mips_key, show upper t = upper m.toList from ht]
    have hnd : (dkeys (mipsTable.map fun p => (upper p.1.toList, p.2))).Nodup := by decide +kernel
    have := dget_of_mem hnd (List.mem_map_of_mem (f := fun p : String × MipsForm × Nat => (upper p.1.toList, p.2)) hm)
    simp only [mipsOn]
    rw [this]; rfl
  constructor
  · intro h
    cases h with
    | fixed hf _ => rw [hk] at hf; cases hf
    | handler hf he => rw [hk] at hf; cases hf; exact he
  · exact .handler hk

/-! ## decoding -/

/-- The layout a helper method of the assembler produces, and whether the number it is given is a
function code. -/
def formFormat : MipsForm → Option (Bool × MipsFormat)
  | .arithLog => some (true, .alu)
  | .swapped => none
  | .arithLogI _ => some (false, .aluImm)
  | .shift => some (true, .shift)
  | .shiftV => some (true, .shiftV)
  | .loadI true => some (false, .lui)
  | .loadI false => none
  | .branch => some (false, .branch)
  | .branchZ => some (false, .branchZ)
  | .jump => some (false, .jump)
  | .jumpR => some (true, .jr)
  | .loadStore => some (false, .memory)
  | .moveFrom => some (true, .moveFrom)
  | .moveTo => some (true, .moveTo)
  | .noArgs => some (true, .trap)

/-- Mnemonics that are not encoded as in the manual, or that it does not have. -/
def mipsOdd : List String := ["sltu", "sltiu", "jalr", "lhi", "llo", "trap"]

theorem table_rows : ∀ p ∈ mipsTable, p.1 ∉ mipsOdd → p.2.2 < 64 ∧
    (p.2.1 ≠ .swapped → ∃ f, formFormat p.2.1 = some f ∧ (f.2 = .jr → p.1 = "jr") ∧ (f.2 = .lui → p.1 = "lui") ∧
      if f.1 then mipsSpecial.lookup p.2.2 = some (p.1, f.2) else p.2.2 ≠ 0 ∧ mipsOpcodes.lookup p.2.2 = some (p.1, f.2)) := by
  have : ∀ p ∈ mipsTable, p.1 ∉ mipsOdd → p.2.2 < 64 ∧
    (p.2.1 ≠ .swapped → (formFormat p.2.1).any fun f => (f.2 = .jr → p.1 = "jr") && (f.2 = .lui → p.1 = "lui") &&
      if f.1 then decide (mipsSpecial.lookup p.2.2 = some (p.1, f.2)) else
        decide (p.2.2 ≠ 0 ∧ mipsOpcodes.lookup p.2.2 = some (p.1, f.2))) := by decide +kernel
  intro p hp ho
  refine ⟨(this p hp ho).1, fun h => ?_⟩
  have h1 := (this p hp ho).2 h
  cases hf : formFormat p.2.1 with
  | none => rw [hf] at h1; simp at h1
  | some f =>
    rw [hf] at h1
    simp only [Option.any_some, Bool.and_eq_true, decide_eq_true_eq] at h1
    refine ⟨f, rfl, h1.1.1, h1.1.2, ?_⟩
    have h2 := h1.2
    split at h2
    · next h => rw [if_pos h]; simpa using h2
    · next h => rw [if_neg h]; simpa using h2

theorem decode_special {w : Nat} {m : String} {f : MipsFormat} (h : fld w 31 26 = 0)
    (hl : mipsSpecial.lookup (fld w 5 0) = some (m, f)) : decodeMips w = mipsOperands w m f := by
  unfold decodeMips
  rw [if_pos h, hl]

theorem decode_opcode {w : Nat} {m : String} {f : MipsFormat} (h : fld w 31 26 ≠ 0)
    (hl : mipsOpcodes.lookup (fld w 31 26) = some (m, f)) : decodeMips w = mipsOperands w m f := by
  unfold decodeMips
  rw [if_neg h, hl]

/-- The fields of a register-format word. -/
theorem fields_R {w rs rt rd sa n : Nat} (hw : w = rs * 2 ^ 21 + rt * 2 ^ 16 + rd * 2 ^ 11 + sa * 2 ^ 6 + n)
    (h1 : rs < 32) (h2 : rt < 32) (h3 : rd < 32) (h4 : sa < 32) (h5 : n < 64) :
    fld w 31 26 = 0 ∧ fld w 25 21 = rs ∧ fld w 20 16 = rt ∧ fld w 15 11 = rd ∧ fld w 10 6 = sa ∧ fld w 5 0 = n ∧
      fld w 25 6 = rs * 2 ^ 15 + rt * 2 ^ 10 + rd * 2 ^ 5 + sa := by
  unfold fld
  refine ⟨?_, ?_, ?_, ?_, ?_, ?_, ?_⟩ <;> simp only [Nat.reduceSub, Nat.reduceAdd, Nat.reducePow] at * <;> omega

/-- The fields of an immediate-format word. -/
theorem fields_I {w n rs rt imm : Nat} (hw : w = n * 2 ^ 26 + rs * 2 ^ 21 + rt * 2 ^ 16 + imm)
    (h1 : rs < 32) (h2 : rt < 32) (h3 : imm < 65536) (h5 : n < 64) :
    fld w 31 26 = n ∧ fld w 25 21 = rs ∧ fld w 20 16 = rt ∧ fld w 15 0 = imm := by
  unfold fld
  refine ⟨?_, ?_, ?_, ?_⟩ <;> simp only [Nat.reduceSub, Nat.reduceAdd, Nat.reducePow] at * <;> omega

/-- The fields of a jump. -/
theorem fields_J {w n target : Nat} (hw : w = n * 2 ^ 26 + target) (h1 : target < 2 ^ 26) (h5 : n < 64) :
    fld w 31 26 = n ∧ fld w 25 0 = target := by
  unfold fld
  refine ⟨?_, ?_⟩ <;> simp only [Nat.reduceSub, Nat.reduceAdd, Nat.reducePow] at * <;> omega

/-! ## what each form assembles to -/

theorem mipsWord_as {be : Bool} {fs : List BitField} {w : Int} (hok : ∀ f ∈ fs, FieldOk f)
    (hd : fs.Pairwise (fun f g => f.hi < g.lo ∨ g.hi < f.lo)) (hlt : partSum fs < 2 ^ 32) (hw : partSum fs = w) (c : Ctx) :
    mipsWord be fs c = (.ok (some (wordBytes be 4 w)), []) := by
  rw [mipsWord_of hok hd hlt, hw]

theorem run_arithLog {be : Bool} {c : Ctx} {t a b e : Str} {n rd rs rt : Nat} (hn : n < 64)
    (ha : MipsReg a rd) (hb : MipsReg b rs) (he : MipsReg e rt) :
    mipsRun be .arithLog n (t :: [a, b, e]) c = (.ok (some (wordBytes be 4 (rs * 2 ^ 21 + rt * 2 ^ 16 + rd * 2 ^ 11 + n))), []) := by
  have hm : instrMatch (t :: [a, b, e]) [mipsRegs, mipsRegs, mipsRegs] = true := by
    simp [instrMatch_cons, matchAll, matches_regs.2 ⟨_, ha⟩, matches_regs.2 ⟨_, hb⟩, matches_regs.2 ⟨_, he⟩]
  unfold mipsRun
  simp only [hm, if_true, List.getD_cons_succ, List.getD_cons_zero]
  have ba := mipsReg_lt ha
  have bb := mipsReg_lt hb
  have be := mipsReg_lt he
  rw [H.bind_run (mipsReg_of ha c), H.bind_run (mipsReg_of hb c), H.bind_run (mipsReg_of he c)]
  exact mipsWord_as (by simp [FieldOk]; omega) (by simp) (by simp [partSum, fieldPart]; omega) (by simp [partSum, fieldPart]; omega) c

theorem run_arithLogI {be : Bool} {c : Ctx} {t a b e : Str} {n rt rs : Nat} {v : Int} {rels : List Reloc} {signed : Bool} (hn : n < 64)
    (ha : MipsReg a rt) (hb : MipsReg b rs) (he : MipsConst e) (hv : mipsImm16 signed e c = (.ok v, rels)) (hlo : -2 ^ 15 ≤ v) (hhi : v < 2 ^ 16) :
    mipsRun be (.arithLogI signed) n (t :: [a, b, e]) c = (.ok (some (wordBytes be 4 (n * 2 ^ 26 + rs * 2 ^ 21 + rt * 2 ^ 16 + v % 2 ^ 16))), rels) := by
  have hm : instrMatch (t :: [a, b, e]) [mipsRegs, mipsRegs, mipsImm] = true := by
    simp [instrMatch_cons, matchAll, matches_regs.2 ⟨_, ha⟩, matches_regs.2 ⟨_, hb⟩, matches_imm.2 he]
  unfold mipsRun
  simp only [hm, if_true, List.getD_cons_succ, List.getD_cons_zero]
  have ba := mipsReg_lt ha
  have bb := mipsReg_lt hb
  rw [H.bind_run (mipsReg_of ha c), H.bind_run (mipsReg_of hb c)]
  rw [← List.append_nil rels]
  refine H.bind_of hv ?_
  exact mipsWord_as (by simp [FieldOk]; omega) (by simp) (by simp [partSum, fieldPart]; omega) (by simp [partSum, fieldPart]; omega) c

theorem run_shift {be : Bool} {c : Ctx} {t a b e : Str} {n rd rt : Nat} {v : Int} {rels : List Reloc} (hn : n < 64)
    (ha : MipsReg a rd) (hb : MipsReg b rt) (he : MipsConst e) (hv : mipsShamt e c = (.ok v, rels)) (hlo : 0 ≤ v) (hhi : v < 32) :
    mipsRun be .shift n (t :: [a, b, e]) c = (.ok (some (wordBytes be 4 (rt * 2 ^ 16 + rd * 2 ^ 11 + v * 2 ^ 6 + n))), rels) := by
  have hm : instrMatch (t :: [a, b, e]) [mipsRegs, mipsRegs, mipsImm] = true := by
    simp [instrMatch_cons, matchAll, matches_regs.2 ⟨_, ha⟩, matches_regs.2 ⟨_, hb⟩, matches_imm.2 he]
  unfold mipsRun
  simp only [hm, if_true, List.getD_cons_succ, List.getD_cons_zero]
  have ba := mipsReg_lt ha
  have bb := mipsReg_lt hb
  rw [H.bind_run (mipsReg_of ha c), H.bind_run (mipsReg_of hb c)]
  rw [← List.append_nil rels]
  refine H.bind_of hv ?_
  exact mipsWord_as (by simp [FieldOk]; omega) (by simp) (by simp [partSum, fieldPart]; omega) (by simp [partSum, fieldPart]; omega) c

theorem run_shiftV {be : Bool} {c : Ctx} {t a b e : Str} {n rd rt rs : Nat} (hn : n < 64)
    (ha : MipsReg a rd) (hb : MipsReg b rt) (he : MipsReg e rs) :
    mipsRun be .shiftV n (t :: [a, b, e]) c = (.ok (some (wordBytes be 4 (rs * 2 ^ 21 + rt * 2 ^ 16 + rd * 2 ^ 11 + n))), []) := by
  have hm : instrMatch (t :: [a, b, e]) [mipsRegs, mipsRegs, mipsRegs] = true := by
    simp [instrMatch_cons, matchAll, matches_regs.2 ⟨_, ha⟩, matches_regs.2 ⟨_, hb⟩, matches_regs.2 ⟨_, he⟩]
  unfold mipsRun
  simp only [hm, if_true, List.getD_cons_succ, List.getD_cons_zero]
  have ba := mipsReg_lt ha
  have bb := mipsReg_lt hb
  have be := mipsReg_lt he
  rw [H.bind_run (mipsReg_of ha c), H.bind_run (mipsReg_of hb c), H.bind_run (mipsReg_of he c)]
  exact mipsWord_as (by simp [FieldOk]; omega) (by simp) (by simp [partSum, fieldPart]; omega) (by simp [partSum, fieldPart]; omega) c

theorem run_loadI {be high : Bool} {c : Ctx} {t a e : Str} {n rt : Nat} {v : Int} {rels : List Reloc} (hn : n < 64)
    (ha : MipsReg a rt) (he : MipsConst e) (hv : mipsHalf high e c = (.ok v, rels)) (hlo : 0 ≤ v) (hhi : v < 2 ^ 16) :
    mipsRun be (.loadI high) n (t :: [a, e]) c = (.ok (some (wordBytes be 4 (n * 2 ^ 26 + rt * 2 ^ 16 + v))), rels) := by
  have hm : instrMatch (t :: [a, e]) [mipsRegs, mipsImm] = true := by
    simp [instrMatch_cons, matchAll, matches_regs.2 ⟨_, ha⟩, matches_imm.2 he]
  unfold mipsRun
  simp only [hm, if_true, List.getD_cons_succ, List.getD_cons_zero]
  have ba := mipsReg_lt ha
  rw [H.bind_run (mipsReg_of ha c)]
  rw [← List.append_nil rels]
  refine H.bind_of hv ?_
  exact mipsWord_as (by simp [FieldOk]; omega) (by simp) (by simp [partSum, fieldPart]; omega) (by simp [partSum, fieldPart]; omega) c

theorem run_branch {be : Bool} {c : Ctx} {t a b e : Str} {n rs rt : Nat} {v : Int} {rels : List Reloc} (hn : n < 64)
    (ha : MipsReg a rs) (hb : MipsReg b rt) (he : MipsConst e) (hv : mipsRel e c = (.ok v, rels)) (hlo : -2 ^ 15 ≤ v) (hhi : v < 2 ^ 16) :
    mipsRun be .branch n (t :: [a, b, e]) c = (.ok (some (wordBytes be 4 (n * 2 ^ 26 + rs * 2 ^ 21 + rt * 2 ^ 16 + v % 2 ^ 16))), rels) := by
  have hm : instrMatch (t :: [a, b, e]) [mipsRegs, mipsRegs, mipsImm] = true := by
    simp [instrMatch_cons, matchAll, matches_regs.2 ⟨_, ha⟩, matches_regs.2 ⟨_, hb⟩, matches_imm.2 he]
  unfold mipsRun
  simp only [hm, if_true, List.getD_cons_succ, List.getD_cons_zero]
  have ba := mipsReg_lt ha
  have bb := mipsReg_lt hb
  rw [H.bind_run (mipsReg_of ha c), H.bind_run (mipsReg_of hb c)]
  rw [← List.append_nil rels]
  refine H.bind_of hv ?_
  exact mipsWord_as (by simp [FieldOk]; omega) (by simp) (by simp [partSum, fieldPart]; omega) (by simp [partSum, fieldPart]; omega) c

theorem run_branchZ {be : Bool} {c : Ctx} {t a e : Str} {n rs : Nat} {v : Int} {rels : List Reloc} (hn : n < 64)
    (ha : MipsReg a rs) (he : MipsConst e) (hv : mipsRel e c = (.ok v, rels)) (hlo : -2 ^ 15 ≤ v) (hhi : v < 2 ^ 16) :
    mipsRun be .branchZ n (t :: [a, e]) c = (.ok (some (wordBytes be 4 (n * 2 ^ 26 + rs * 2 ^ 21 + v % 2 ^ 16))), rels) := by
  have hm : instrMatch (t :: [a, e]) [mipsRegs, mipsImm] = true := by
    simp [instrMatch_cons, matchAll, matches_regs.2 ⟨_, ha⟩, matches_imm.2 he]
  unfold mipsRun
  simp only [hm, if_true, List.getD_cons_succ, List.getD_cons_zero]
  have ba := mipsReg_lt ha
  rw [H.bind_run (mipsReg_of ha c)]
  rw [← List.append_nil rels]
  refine H.bind_of hv ?_
  exact mipsWord_as (by simp [FieldOk]; omega) (by simp) (by simp [partSum, fieldPart]; omega) (by simp [partSum, fieldPart]; omega) c

theorem run_jump {be : Bool} {c : Ctx} {t e : Str} {n : Nat} {v : Int} {rels : List Reloc} (hn : n < 64)
    (he : MipsConst e) (hv : mipsAbs e c = (.ok v, rels)) (hlo : 0 ≤ v) (hhi : v < 2 ^ 26) :
    mipsRun be .jump n (t :: [e]) c = (.ok (some (wordBytes be 4 (n * 2 ^ 26 + v))), rels) := by
  have hm : instrMatch (t :: [e]) [mipsImm] = true := by
    simp [instrMatch_cons, matchAll, matches_imm.2 he]
  unfold mipsRun
  simp only [hm, if_true, List.getD_cons_succ, List.getD_cons_zero]
  rw [← List.append_nil rels]
  refine H.bind_of hv ?_
  exact mipsWord_as (by simp [FieldOk]; omega) (by simp) (by simp [partSum, fieldPart]; omega) (by simp [partSum, fieldPart]; omega) c

theorem run_jumpR {be : Bool} {c : Ctx} {t a : Str} {n rs : Nat} (hn : n < 64)
    (ha : MipsReg a rs) :
    mipsRun be .jumpR n (t :: [a]) c = (.ok (some (wordBytes be 4 (rs * 2 ^ 21 + n))), []) := by
  have hm : instrMatch (t :: [a]) [mipsRegs] = true := by
    simp [instrMatch_cons, matchAll, matches_regs.2 ⟨_, ha⟩]
  unfold mipsRun
  simp only [hm, if_true, List.getD_cons_succ, List.getD_cons_zero]
  have ba := mipsReg_lt ha
  rw [H.bind_run (mipsReg_of ha c)]
  exact mipsWord_as (by simp [FieldOk]; omega) (by simp) (by simp [partSum, fieldPart]; omega) (by simp [partSum, fieldPart]; omega) c

theorem run_loadStore {be : Bool} {c : Ctx} {t a e b : Str} {n rt rs : Nat} {v : Int} {rels : List Reloc} (hn : n < 64)
    (ha : MipsReg a rt) (he : MipsConst e) (hb : MipsReg b rs) (hv : mipsOffset e c = (.ok v, rels)) (hlo : -2 ^ 15 ≤ v) (hhi : v < 2 ^ 16) :
    mipsRun be .loadStore n (t :: [a, e, ['('], b, [')']]) c = (.ok (some (wordBytes be 4 (n * 2 ^ 26 + rs * 2 ^ 21 + rt * 2 ^ 16 + v % 2 ^ 16))), rels) := by
  have hm : instrMatch (t :: [a, e, ['('], b, [')']]) [mipsRegs, mipsImm, .str ['('], mipsRegs, .str [')']] = true := by
    simp [instrMatch_cons, matchAll, matches_regs.2 ⟨_, ha⟩, matches_imm.2 he, matches_regs.2 ⟨_, hb⟩, matches_L, matches_R, reg_L, reg_R]
  unfold mipsRun
  simp only [hm, if_true, List.getD_cons_succ, List.getD_cons_zero]
  have ba := mipsReg_lt ha
  have bb := mipsReg_lt hb
  rw [H.bind_run (mipsReg_of ha c)]
  rw [← List.append_nil rels]
  refine H.bind_of hv ?_
  rw [H.bind_run (mipsReg_of hb c)]
  exact mipsWord_as (by simp [FieldOk]; omega) (by simp) (by simp [partSum, fieldPart]; omega) (by simp [partSum, fieldPart]; omega) c

theorem run_moveFrom {be : Bool} {c : Ctx} {t a : Str} {n rd : Nat} (hn : n < 64)
    (ha : MipsReg a rd) :
    mipsRun be .moveFrom n (t :: [a]) c = (.ok (some (wordBytes be 4 (rd * 2 ^ 11 + n))), []) := by
  have hm : instrMatch (t :: [a]) [mipsRegs] = true := by
    simp [instrMatch_cons, matchAll, matches_regs.2 ⟨_, ha⟩]
  unfold mipsRun
  simp only [hm, if_true, List.getD_cons_succ, List.getD_cons_zero]
  have ba := mipsReg_lt ha
  rw [H.bind_run (mipsReg_of ha c)]
  exact mipsWord_as (by simp [FieldOk]; omega) (by simp) (by simp [partSum, fieldPart]; omega) (by simp [partSum, fieldPart]; omega) c

theorem run_moveTo {be : Bool} {c : Ctx} {t a : Str} {n rs : Nat} (hn : n < 64)
    (ha : MipsReg a rs) :
    mipsRun be .moveTo n (t :: [a]) c = (.ok (some (wordBytes be 4 (rs * 2 ^ 21 + n))), []) := by
  have hm : instrMatch (t :: [a]) [mipsRegs] = true := by
    simp [instrMatch_cons, matchAll, matches_regs.2 ⟨_, ha⟩]
  unfold mipsRun
  simp only [hm, if_true, List.getD_cons_succ, List.getD_cons_zero]
  have ba := mipsReg_lt ha
  rw [H.bind_run (mipsReg_of ha c)]
  exact mipsWord_as (by simp [FieldOk]; omega) (by simp) (by simp [partSum, fieldPart]; omega) (by simp [partSum, fieldPart]; omega) c

theorem run_noArgs {be : Bool} {c : Ctx} {t : Str} {n : Nat} (hn : n < 64) :
    mipsRun be .noArgs n (t :: []) c = (.ok (some (wordBytes be 4 (n))), []) := by
  unfold mipsRun
  simp only [List.length_cons, List.length_nil, if_true]
  exact mipsWord_as (by simp [FieldOk]; omega) (by simp) (by simp [partSum, fieldPart]; omega) (by simp [partSum, fieldPart]; omega) c

/-! ## operands -/

theorem mipsRel_of {c : Ctx} {t : Str} {x : Int} (h : parseInteger c.sy c.labels t 18 (c.pc + 4 != 0) = .ok (some x)) :
    mipsRel t c = (.ok (pyShr x 2), []) := by
  unfold mipsRel
  rw [H.bind_run (H.read_apply c), H.bind_run (parseIntegerOrLabel_number h)]
  rfl

/-- The reference a branch leaves. -/
def mipsBranchRef (label : Str) (pc : Int) : Reloc :=
  { label := label, bitsSize := 18, bits := some (15, 0), filter := some fun x => pyShr x 2, relative := pc + 4, size := 4 }

theorem mipsRel_label {c : Ctx} {t : Str} (h : parseInteger c.sy c.labels t 18 (c.pc + 4 != 0) = .ok none) :
    mipsRel t c = (.ok 0, [mipsBranchRef t c.pc]) := by
  unfold mipsRel
  rw [H.bind_run (H.read_apply c), H.bind_of (parseIntegerOrLabel_label h) rfl]
  rfl

theorem mipsAbs_of {c : Ctx} {t : Str} {x : Int} (h : parseInteger c.sy c.labels t 32 false = .ok (some x)) :
    mipsAbs t c = (.ok (pyShr x 2), []) := by
  unfold mipsAbs
  rw [H.bind_run (parseIntegerOrLabel_number h)]
  rfl

/-- The reference a jump leaves. -/
def mipsJumpRef (label : Str) : Reloc :=
  { label := label, bits := some (25, 0), bitsSize := 32, filter := some fun x => pyShr (pyAnd x 0x0fffffff) 2, size := 4 }

theorem mipsAbs_label {c : Ctx} {t : Str} (h : parseInteger c.sy c.labels t 32 false = .ok none) :
    mipsAbs t c = (.ok 0, [mipsJumpRef t]) := by
  unfold mipsAbs
  rw [H.bind_of (parseIntegerOrLabel_label h) rfl]
  rfl

theorem mipsHalf_of {c : Ctx} {t : Str} {x : Int} (h : parseInteger c.sy c.labels t 32 false = .ok (some x)) :
    mipsHalf true t c = (.ok (pyShr x 16), []) := by
  unfold mipsHalf
  rw [if_pos rfl, H.bind_run (parseIntegerOrLabel_number h)]
  rfl

/-- The reference `lui` leaves. -/
def mipsUpperRef (label : Str) : Reloc :=
  { label := label, bitsSize := 32, bits := some (15, 0), size := 4, filter := some fun x => pyShr x 16 }

theorem mipsHalf_label {c : Ctx} {t : Str} (h : parseInteger c.sy c.labels t 32 false = .ok none) :
    mipsHalf true t c = (.ok 0, [mipsUpperRef t]) := by
  unfold mipsHalf
  rw [if_pos rfl, H.bind_of (parseIntegerOrLabel_label h) rfl]
  rfl

/-! ## numerals -/

theorem mips_number (ls : Labels) (be : Bool) (v k : Nat) (signed : Bool) (hk : 1 ≤ k) (hv : v < 2 ^ k) :
    parseInteger (mipsOn be).sy ls ("0x".toList ++ numeral 16 v) k signed = .ok (some v) := by
  have ok := allSyntaxes_ok mipsSyntax (by simp [allSyntaxes])
  have := C14_prefix mipsSyntax ls ok.1 16 false "0x".toList _ v k signed hk (.hex (by simp [mipsSyntax])) (numeral_reads (by decide) v)
  rw [show (mipsOn be).sy = mipsSyntax from rfl, this]
  simp [literalResult, hv]

theorem mips_number_const (v : Nat) : MipsConst ("0x".toList ++ numeral 16 v) := by
  unfold MipsConst
  simp

theorem mips_register {n : Nat} (h : n < 32) : ∃ a, MipsReg a n := by
  have h2 : n < mipsRegNames.length := h
  exact ⟨_, _, List.getElem?_eq_getElem h2, .inl rfl⟩

end Necro
