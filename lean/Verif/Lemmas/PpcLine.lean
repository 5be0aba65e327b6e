import Verif.Lemmas.PowerPC
import Verif.Lemmas.M68Text
import Verif.Lemmas.M68Run
/-!
# Operands of PowerPC lines
-/

namespace Necro
open Spec

/-- What a number is for. -/
def ppcUse (o : PpcOperand) (pc : Int) : M68Use :=
  match o with
  | .signed => .disp
  | .relative => if pc = 0 then .data else .pc
  | _ => .data

/-- The token is a number that fits a field of `w` bits, where it leaves `n`. -/
def ppcNumber (c : Ctx) (o : PpcOperand) (w : Nat) (tok : Str) (n : Nat) : Prop :=
  ∃ x, m68Number c (ppcUse o c.pc) w tok x ∧ (n : Int) = x % 2 ^ w

/-- The reference of an operand. -/
def ppcSlot (k : PpcKind) (pc : Int) (hi lo : Nat) (tok : Str) : M68Slot :=
  match k with
  | .pcrel => (if pc = 0 then .data else .pc,
      { label := tok, size := 4, bitsSize := hi - lo + 1, bits := some (hi, lo), filter := some fun x => pyShr x 2, relative := pc }, false)
  | .baddr => (.data, { label := tok, size := 4, bitsSize := hi - lo + 1, bits := some (hi, lo), filter := some fun x => pyShr x 2 }, false)
  | .si | .snum => (.disp, { label := tok, size := 4, bitsSize := hi - lo + 1, bits := some (hi, lo) }, true)
  | _ => (.data, { label := tok, size := 4, bitsSize := hi - lo + 1, bits := some (hi, lo) }, false)

def PpcKind.isNumber : PpcKind → Bool
  | .greg | .g0reg | .freg | .unset => false
  | _ => true

theorem ppcSlot_ok (k : PpcKind) (pc : Int) (hi lo : Nat) (tok : Str) : SlotOk (ppcSlot k pc hi lo tok) := by
  cases k <;> refine ⟨by simp [ppcSlot], ?_⟩ <;> simp [ppcSlot]

theorem ppcSlot_label (k : PpcKind) (pc : Int) (hi lo : Nat) (tok : Str) : (ppcSlot k pc hi lo tok).2.1.label = tok := by cases k <;> rfl
theorem ppcSlot_width (k : PpcKind) (pc : Int) (hi lo : Nat) (tok : Str) : (ppcSlot k pc hi lo tok).2.1.bitsSize = hi - lo + 1 := by cases k <;> rfl
theorem ppcSlot_bits (k : PpcKind) (pc : Int) (hi lo : Nat) (tok : Str) : (ppcSlot k pc hi lo tok).2.1.bits = some (hi, lo) := by cases k <;> rfl
theorem ppcSlot_size (k : PpcKind) (pc : Int) (hi lo : Nat) (tok : Str) : (ppcSlot k pc hi lo tok).2.1.size = 4 := by cases k <;> rfl
theorem ppcSlot_offset (k : PpcKind) (pc : Int) (hi lo : Nat) (tok : Str) : (ppcSlot k pc hi lo tok).2.1.offset = 0 := by cases k <;> rfl

theorem value_slot {k : PpcKind} (hk : k.isNumber = true) (hi lo : Nat) (tok : Str) (c : Ctx) :
    k.value hi lo tok c = H.parseIntegerOrLabel (ppcSlot k c.pc hi lo tok).2.1 (ppcSlot k c.pc hi lo tok).2.2 c := by
  cases k <;> first | rfl | cases hk

theorem slot_use {k : PpcKind} {o : PpcOperand} (h : ppcKindOk o k = true) (hk : k.isNumber = true) (pc : Int) (hi lo : Nat) (tok : Str) :
    (ppcSlot k pc hi lo tok).1 = ppcUse o pc := by
  cases k <;> first | (cases hk; done) | (cases o <;> first | rfl | cases h)

theorem kind_number {k : PpcKind} {o : PpcOperand} (h : ppcKindOk o k = true) (hk : k.isNumber = true) :
    o ∈ [PpcOperand.unsigned, .signed, .relative, .absolute] := by
  cases k <;> first | (cases hk; done) | (cases o <;> first | decide | cases h)

/-! ## Registers -/

theorem gregs_index : ∀ n < 32, ppcGregs.findIdx? (· == ppcName 'r' n) = some n := by decide +kernel
theorem fregs_index : ∀ n < 32, ppcFregs.findIdx? (· == ppcName 'f' n) = some n := by decide +kernel
theorem ppcName_lower : ∀ n < 32, lower (ppcName 'r' n) = ppcName 'r' n ∧ lower (ppcName 'f' n) = ppcName 'f' n := by decide +kernel

theorem gregs_mem {t : Str} : ppcGregs.contains t = true ↔ ∃ n < 32, t = ppcName 'r' n := by
  simp only [ppcGregs, List.contains_eq_mem, List.mem_map, List.mem_range, decide_eq_true_eq]
  exact ⟨fun ⟨n, h1, h2⟩ => ⟨n, h1, h2.symm⟩, fun ⟨n, h1, h2⟩ => ⟨n, h1, h2.symm⟩⟩

theorem fregs_mem {t : Str} : ppcFregs.contains t = true ↔ ∃ n < 32, t = ppcName 'f' n := by
  simp only [ppcFregs, List.contains_eq_mem, List.mem_map, List.mem_range, decide_eq_true_eq]
  exact ⟨fun ⟨n, h1, h2⟩ => ⟨n, h1, h2.symm⟩, fun ⟨n, h1, h2⟩ => ⟨n, h1, h2.symm⟩⟩

theorem number_pat {t : Str} : (!(ppcGregs ++ ppcFregs).contains t) = true ↔ ¬ PpcRegister t := by
  rw [Bool.not_eq_true', ← Bool.not_eq_true]
  refine not_congr ?_
  have : (ppcGregs ++ ppcFregs).contains t = (ppcGregs.contains t || ppcFregs.contains t) := by simp
  rw [this, Bool.or_eq_true, gregs_mem, fregs_mem]
  exact ⟨fun h => h.elim (fun ⟨n, h1, h2⟩ => ⟨n, h1, .inl h2⟩) (fun ⟨n, h1, h2⟩ => ⟨n, h1, .inr h2⟩),
    fun ⟨n, h1, h2⟩ => h2.elim (fun h => .inl ⟨n, h1, h⟩) (fun h => .inr ⟨n, h1, h⟩)⟩

theorem lower_name {t : Str} {n : Nat} (hn : n < 32) : lower t = ppcName 'r' n ↔ eqNoCase t (ppcName 'r' n) := by
  constructor
  · intro h
    show upper t = upper (ppcName 'r' n)
    rw [← upper_lower, h]
  · intro h
    rw [lower_eq_of_upper_eq h, (ppcName_lower n hn).1]

theorem lower_fname {t : Str} {n : Nat} (hn : n < 32) : lower t = ppcName 'f' n ↔ eqNoCase t (ppcName 'f' n) := by
  constructor
  · intro h
    show upper t = upper (ppcName 'f' n)
    rw [← upper_lower, h]
  · intro h
    rw [lower_eq_of_upper_eq h, (ppcName_lower n hn).2]

theorem ppcReg_g {t : Str} {n : Nat} (hn : n < 32) (h : eqNoCase t (ppcName 'r' n)) (c : Ctx) : ppcReg ppcGregs t c = (.ok (n : Int), []) := by
  unfold ppcReg
  rw [(lower_name hn).2 h, gregs_index n hn]
  rfl

theorem ppcReg_f {t : Str} {n : Nat} (hn : n < 32) (h : eqNoCase t (ppcName 'f' n)) (c : Ctx) : ppcReg ppcFregs t c = (.ok (n : Int), []) := by
  unfold ppcReg
  rw [(lower_fname hn).2 h, fregs_index n hn]
  rfl

theorem greg_pat {t : Str} : PpcKind.greg.pat.matches t = true ↔ ∃ n < 32, n ≠ 0 ∧ eqNoCase t (ppcName 'r' n) := by
  show (if lower t = "r0".toList then false else ppcGregs.contains (lower t)) = true ↔ _
  by_cases h0 : lower t = "r0".toList
  · rw [if_pos h0]
    refine ⟨fun h => (by cases h), fun ⟨n, hn, hne, h⟩ => ?_⟩
    rw [(lower_name hn).2 h] at h0
    exact absurd h0 ((by decide +kernel : ∀ n < 32, n ≠ 0 → ppcName 'r' n ≠ "r0".toList) n hn hne)
  · rw [if_neg h0, gregs_mem]
    constructor
    · intro ⟨n, hn, h⟩
      refine ⟨n, hn, fun e => ?_, (lower_name hn).1 h⟩
      subst e
      exact h0 (h.trans (by decide))
    · rintro ⟨n, hn, -, h⟩
      exact ⟨n, hn, (lower_name hn).2 h⟩

theorem lower_zero {t : Str} : lower t = "0".toList ↔ t = ['0'] := by
  constructor
  · intro h
    have h1 : upper t = ['0'] := by rw [← upper_lower, h]; rfl
    rcases upper_single (r := '0') (by decide) h1 with h | h <;> exact h
  · rintro rfl; decide

theorem g0reg_pat {t : Str} : PpcKind.g0reg.pat.matches t = true ↔ t = ['0'] ∨ ∃ n < 32, eqNoCase t (ppcName 'r' n) := by
  show (if lower t = "0".toList then true else ppcGregs.contains (lower t)) = true ↔ _
  by_cases h0 : lower t = "0".toList
  · rw [if_pos h0]
    exact ⟨fun _ => .inl (lower_zero.1 h0), fun _ => rfl⟩
  · rw [if_neg h0, gregs_mem]
    constructor
    · rintro ⟨n, hn, h⟩
      exact .inr ⟨n, hn, (lower_name hn).1 h⟩
    · rintro (h | ⟨n, hn, h⟩)
      · exact absurd (lower_zero.2 h) h0
      · exact ⟨n, hn, (lower_name hn).2 h⟩

theorem freg_pat {t : Str} : PpcKind.freg.pat.matches t = true ↔ ∃ n < 32, eqNoCase t (ppcName 'f' n) := by
  show (ppcFregs.contains (lower t)) = true ↔ _
  rw [fregs_mem]
  exact ⟨fun ⟨n, hn, h⟩ => ⟨n, hn, (lower_fname hn).1 h⟩, fun ⟨n, hn, h⟩ => ⟨n, hn, (lower_fname hn).2 h⟩⟩

theorem not_zero_name : ∀ n < 32, ¬ upper ['0'] = upper (ppcName 'r' n) := by decide +kernel

theorem value_pat {k : PpcKind} (hk : k.isNumber = true) {t : Str} : k.pat.matches t = true ↔ ¬ PpcRegister t := by
  cases k <;> first | exact number_pat | cases hk

/-! ## Operands -/

theorem small_mod {n : Nat} (h : n < 32) : ((n : Int) % 2 ^ 5).toNat = n := by omega

/-- What an operand can be, when the assembler reads it. -/
theorem item_read {k : PpcKind} {o : PpcOperand} (ho : ppcKindOk o k = true) {lo w : Nat} (hw : 0 < w) (h5 : k.isReg = true → w = 5) {tok : Str} {c : Ctx} {v : Int} {r : List Reloc}
    (hm : k.pat.matches tok = true) (h : k.value (lo + w - 1) lo tok c = (.ok v, r)) :
    (r = [] ∧ PpcText (ppcNumber c) o w tok (v % 2 ^ w).toNat) ∨
    (k.isNumber = true ∧ r = [(ppcSlot k c.pc (lo + w - 1) lo tok).2.1] ∧ v = 0 ∧ ¬ PpcRegister tok ∧ ∀ y dec, ¬ TokenValue c.sy c.labels tok y dec) := by
  by_cases hk : k.isNumber = true
  · rw [value_slot hk] at h
    have hr := (value_pat hk).1 hm
    have hwid : lo + w - 1 - lo + 1 = w := by omega
    rcases slot_value (ppcSlot_ok k c.pc _ _ tok) h with ⟨h1, x, h2, h3⟩ | ⟨h1, h2, h3⟩
    · left
      rw [ppcSlot_width, hwid] at h2 h3
      rw [ppcSlot_label, slot_use ho hk] at h2
      refine ⟨h1, .value (kind_number ho hk) hr ⟨x, h2, ?_⟩⟩
      have : (0 : Int) ≤ v % 2 ^ w := Int.emod_nonneg _ (Int.ne_of_gt (Int.pow_pos (by decide)))
      rw [Int.toNat_of_nonneg this, h3]
    · right
      rw [ppcSlot_label] at h3
      exact ⟨hk, h1, h2, hr, h3⟩
  · left
    cases k with
    | greg =>
      cases h5 rfl
      obtain ⟨n, hn, -, he⟩ := greg_pat.1 hm
      have := ppcReg_g hn he c
      simp only [PpcKind.value, this] at h
      cases h
      rw [small_mod hn]
      cases o <;> first | exact ⟨rfl, .gpr hn he⟩ | cases ho
    | g0reg =>
      cases h5 rfl
      rcases g0reg_pat.1 hm with h0 | ⟨n, hn, he⟩
      · subst h0
        cases h
        cases o <;> first | exact ⟨rfl, .zero⟩ | cases ho
      · have := ppcReg_g hn he c
        have hz : tok ≠ "0".toList := by rintro rfl; exact not_zero_name n hn he
        simp only [PpcKind.value, if_neg hz, this] at h
        cases h
        rw [small_mod hn]
        cases o <;> first | exact ⟨rfl, .base hn he⟩ | cases ho
    | freg =>
      cases h5 rfl
      obtain ⟨n, hn, he⟩ := freg_pat.1 hm
      have := ppcReg_f hn he c
      simp only [PpcKind.value, this] at h
      cases h
      rw [small_mod hn]
      cases o <;> first | exact ⟨rfl, .fpr hn he⟩ | cases ho
    | unset => cases o <;> cases ho
    | _ => exact absurd rfl hk

theorem name_unique : ∀ n < 32, ∀ m < 32, upper (ppcName 'r' n) = upper (ppcName 'r' m) → n = m := by decide +kernel
theorem fname_unique : ∀ n < 32, ∀ m < 32, upper (ppcName 'f' n) = upper (ppcName 'f' m) → n = m := by decide +kernel

/-- The converse: an operand that writes the content `n` is read as such. -/
theorem item_accepts {k : PpcKind} {o : PpcOperand} (ho : ppcKindOk o k = true) {lo w : Nat} (hw : 0 < w) (h5 : k.isReg = true → w = 5) {tok : Str} {c : Ctx} {n : Nat}
    (h : PpcText (ppcNumber c) o w tok n) (h0 : o = .gpr → ¬ eqNoCase tok (ppcName 'r' 0)) :
    k.pat.matches tok = true ∧ ∃ v, k.value (lo + w - 1) lo tok c = (.ok v, []) ∧ (v % 2 ^ w).toNat = n ∧ FieldOk ⟨lo + w - 1, lo, v⟩ := by
  have hreg : ∀ m : Nat, m < 32 → w = 5 → FieldOk ⟨lo + w - 1, lo, (m : Int)⟩ := by
    rintro m hm rfl
    refine ⟨by simp only; omega, ?_⟩
    have : lo + 5 - 1 - lo = 4 := by omega
    simp only [this]
    constructor <;> omega
  cases h with
  | gpr hn he =>
    cases k <;> first | (cases ho; done) | skip
    refine ⟨greg_pat.2 ⟨n, hn, fun e => ?_, he⟩, n, ppcReg_g hn he c, ?_, hreg n hn (h5 rfl)⟩
    · subst e; exact h0 rfl he
    · cases h5 rfl; exact small_mod hn
  | base hn he =>
    cases k <;> first | (cases ho; done) | skip
    refine ⟨g0reg_pat.2 (.inr ⟨n, hn, he⟩), n, ?_, ?_, hreg n hn (h5 rfl)⟩
    · have hz : tok ≠ "0".toList := by rintro rfl; exact not_zero_name n hn he
      simp only [PpcKind.value, if_neg hz]
      exact ppcReg_g hn he c
    · cases h5 rfl; exact small_mod hn
  | zero =>
    cases k <;> first | (cases ho; done) | skip
    refine ⟨g0reg_pat.2 (.inl rfl), 0, rfl, by simp, hreg 0 (by decide) (h5 rfl)⟩
  | fpr hn he =>
    cases k <;> first | (cases ho; done) | skip
    refine ⟨freg_pat.2 ⟨n, hn, he⟩, n, ppcReg_f hn he c, ?_, hreg n hn (h5 rfl)⟩
    cases h5 rfl; exact small_mod hn
  | value hmem hr hv =>
    have hk : k.isNumber = true := by
      cases k <;> first | rfl | (cases o <;> first | (cases ho; done) | (exact absurd hmem (by decide)))
    obtain ⟨x, hx, hn⟩ := hv
    have hwid : lo + w - 1 - lo + 1 = w := by omega
    refine ⟨(value_pat hk).2 hr, ?_⟩
    have hx' : m68Number c (ppcSlot k c.pc (lo + w - 1) lo tok).1 (ppcSlot k c.pc (lo + w - 1) lo tok).2.1.bitsSize (ppcSlot k c.pc (lo + w - 1) lo tok).2.1.label x := by
      rw [ppcSlot_width, hwid, ppcSlot_label, slot_use ho hk]
      exact hx
    obtain ⟨v, h1, h2⟩ := slot_number (ppcSlot_ok k c.pc _ _ tok) hx'
    rw [ppcSlot_width, hwid] at h2
    refine ⟨v, by rw [value_slot hk]; exact h1, ?_, ?_⟩
    · have : (0 : Int) ≤ v % 2 ^ w := Int.emod_nonneg _ (Int.ne_of_gt (Int.pow_pos (by decide)))
      rw [← hn] at h2
      omega
    · obtain ⟨y, -, -, g1, g2⟩ := operand_bounds (ppcSlot_ok k c.pc _ _ tok).width h1
      rw [ppcSlot_width, hwid] at g1 g2
      refine ⟨by simp only; omega, ?_⟩
      have : lo + w - 1 - lo = w - 1 := by omega
      simp only [this]
      rw [show w - 1 + 1 = w by omega]
      exact ⟨g1, g2⟩

/-! ## Lines -/

/-- The line is one of those not assembled to the instruction of that name. -/
def PpcOdd (t : Str) (rest : List Str) : Prop := ∃ p ∈ ppcOddLines, eqNoCase t p.1.toList ∧ rest.length = p.2

theorem rows_plan : ∀ {rs : List (String × Nat × List (List PpcItem) × List PpcItem)} {ps : List (Nat × Nat)}, ppcRowsOk rs ps = true →
    ∀ r ∈ rs, ∃ p ∈ ps, ppcRowOk r p = true := by
  intro rs
  induction rs with
  | nil => intro ps _ r hr; cases hr
  | cons x rs ih =>
    intro ps h r hr
    cases ps with
    | nil => cases h
    | cons p ps =>
      simp only [ppcRowsOk, Bool.and_eq_true] at h
      rcases List.mem_cons.1 hr with rfl | hr
      · exact ⟨p, by simp, h.1⟩
      · obtain ⟨q, hq, h'⟩ := ih h.2 r hr
        exact ⟨q, by simp [hq], h'⟩

theorem plan_rows : ∀ {rs : List (String × Nat × List (List PpcItem) × List PpcItem)} {ps : List (Nat × Nat)}, ppcRowsOk rs ps = true →
    ∀ p ∈ ps, ∃ r ∈ rs, ppcRowOk r p = true := by
  intro rs
  induction rs with
  | nil => intro ps h p hp; cases ps with
    | nil => cases hp
    | cons q ps => cases h
  | cons x rs ih =>
    intro ps h p hp
    cases ps with
    | nil => cases hp
    | cons q ps =>
      simp only [ppcRowsOk, Bool.and_eq_true] at h
      rcases List.mem_cons.1 hp with rfl | hp
      · exact ⟨x, by simp, h.1⟩
      · obtain ⟨r, hr, h'⟩ := ih h.2 p hp
        exact ⟨r, by simp [hr], h'⟩

theorem reads_broken {c : Ctx} {items : List PpcItem} {toks : List Str} {vals : List Int} {rels : List Reloc} (h : PpcReads c items toks vals rels) :
    ppcBroken items = false := by
  induction h with
  | nil => rfl
  | @cons lo w k tok v r items toks vals rels h1 _ ih =>
    unfold ppcBroken at ih ⊢
    rw [List.any_cons, ih, Bool.or_false]
    cases k <;> first | rfl | cases h1

theorem covers_match : ∀ {xs ys : List PpcItem} {toks : List Str}, ppcCovers xs ys = true → matchAll toks (ppcPats ys) = true → matchAll toks (ppcPats xs) = true := by
  intro xs
  induction xs with
  | nil => intro ys toks h hm; cases ys with
    | nil => exact hm
    | cons y ys => cases h
  | cons x xs ih =>
    intro ys toks h hm
    cases ys with
    | nil => cases h
    | cons y ys =>
      cases toks with
      | nil => cases hm
      | cons tok toks =>
        simp only [ppcCovers, Bool.and_eq_true, Bool.or_eq_true, beq_iff_eq] at h
        simp only [ppcPats, List.map_cons, matchAll, Bool.and_eq_true] at hm ⊢
        refine ⟨?_, ih h.2 hm.2⟩
        rcases h.1 with h1 | h1
        · obtain ⟨a, b, k⟩ := x
          cases k <;> first | rfl | cases h1
        · rw [h1]; exact hm.1

theorem run_dead {c : Ctx} {rest : List Str} {blob : Bytes} {rels : List Reloc} {r : String × Nat × List (List PpcItem) × List PpcItem} {vals : List Int}
    (h : PpcRun c rest blob rels r vals) : ppcDead r.2.2.1 r.2.2.2 = false := by
  unfold ppcDead
  rw [reads_broken h.reads, Bool.false_or, List.any_eq_false]
  intro x hx
  rw [Bool.and_eq_true]
  rintro ⟨-, h2⟩
  have := covers_match h2 h.pats
  rw [h.first x hx] at this
  cases this

/-- What is known of the row that assembles a line. -/
structure PpcMatch (t : Str) (r : String × Nat × List (List PpcItem) × List PpcItem) (f : PpcForm) (op : PpcOp) : Prop where
  form : f ∈ ppcForms
  oper : op ∈ ppcOps
  target : op.name = f.target
  arity : f.arity = r.2.2.2.length
  name : eqNoCase t f.name.toList
  ok : ppcOpOk r.2.1 r.2.2.2 op f.args = true

theorem planned_match {t : Str} {r : String × Nat × List (List PpcItem) × List PpcItem} {p : Nat × Nat} (h : ppcRowPlanned r p = true) (ht : eqNoCase t r.1.toList) :
    ∃ f op, ppcForms[p.1]? = some f ∧ PpcMatch t r f op := by
  simp only [ppcRowPlanned, Bool.and_eq_true] at h
  have h := h.2
  split at h
  · rename_i f op hf hop
    simp only [Bool.and_eq_true, beq_iff_eq, Nat.beq_eq] at h
    obtain ⟨⟨⟨h1, h2⟩, h3⟩, h4⟩ := h
    exact ⟨f, op, hf, List.mem_of_getElem? hf, List.mem_of_getElem? hop, h2, h3, by rw [h1]; exact ht, h4⟩
  · cases h

theorem ppc_line {c : Ctx} {t : Str} {rest : List Str} {blob : Bytes} {rels : List Reloc} (h : Emits ppc c t rest blob rels) (ho : ¬ PpcOdd t rest) :
    ∃ r vals f op, PpcRun c rest blob rels r vals ∧ PpcMatch t r f op := by
  obtain ⟨g, hg, ht, r, hr, hn, vals, hrun⟩ := ppc_row h
  have hmem : r ∈ ppcFlat ppcTable := List.mem_flatMap.2 ⟨g, hg, hr⟩
  rw [← hn] at ht
  obtain ⟨p, -, hp⟩ := rows_plan ppc_rows_ok r hmem
  unfold ppcRowOk at hp
  split at hp
  · rw [run_dead hrun, Bool.false_or] at hp
    have hlen : rest.length = r.2.2.2.length := hrun.reads.lengths.1
    exact absurd ⟨(r.1, r.2.2.2.length), by simpa using hp, ht, hlen⟩ ho
  · obtain ⟨f, op, -, hm⟩ := planned_match hp ht
    exact ⟨r, vals, f, op, hrun, hm⟩

theorem PpcMatch.items {t : Str} {r : String × Nat × List (List PpcItem) × List PpcItem} {f : PpcForm} {op : PpcOp} (h : PpcMatch t r f op) :
    PpcItemsOk r.2.1 r.2.2.2 := by
  have := h.ok
  simp only [ppcOpOk, Bool.and_eq_true] at this
  exact itemsOk_iff this.1.2

theorem matchAll_get : ∀ {toks : List Str} {items : List PpcItem}, matchAll toks (ppcPats items) = true → ∀ {i : Nat} {x : PpcItem} {tok : Str}, items[i]? = some x → toks[i]? = some tok →
    x.2.2.pat.matches tok = true := by
  intro toks
  induction toks with
  | nil => intro items _ i x tok _ h; simp at h
  | cons a toks ih =>
    intro items hm i x tok hx ht
    cases items with
    | nil => simp at hx
    | cons y items =>
      simp only [ppcPats, List.map_cons, matchAll, Bool.and_eq_true] at hm
      cases i with
      | zero => simp at hx ht; subst hx; subst ht; exact hm.1
      | succ i => exact ih hm.2 (by simpa using hx) (by simpa using ht)

theorem reads_get {c : Ctx} {items : List PpcItem} {toks : List Str} {vals : List Int} {rels : List Reloc} (h : PpcReads c items toks vals rels) :
    ∀ {i : Nat} {x : PpcItem} {tok : Str} {v : Int}, items[i]? = some x → toks[i]? = some tok → vals[i]? = some v →
      ∃ r, x.2.2.value (x.1 + x.2.1 - 1) x.1 tok c = (.ok v, r) ∧ ∃ a b, rels = a ++ r ++ b := by
  induction h with
  | nil => intro i x tok v hx; simp at hx
  | @cons lo w k tok0 v0 r items toks vals rels h1 _ ih =>
    intro i x tok v hx ht hv
    cases i with
    | zero =>
      simp at hx ht hv
      subst hx; subst ht; subst hv
      exact ⟨r, h1, [], rels, by simp⟩
    | succ i =>
      obtain ⟨r', h2, a, b, e⟩ := ih (by simpa using hx) (by simpa using ht) (by simpa using hv)
      exact ⟨r', h2, r ++ a, b, by rw [e]; simp⟩

end Necro
