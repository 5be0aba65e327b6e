import Verif.Lemmas.ThumbPush
/-!
# Every Thumb instruction has a row
-/

namespace Necro
open Spec

/-- The value read from the text of an operand. -/
def ThOp.valOf (o : ThOp) (a : TArg) : Int :=
  match o, a with
  | .high, .reg n => (n - 8 : Nat)
  | _, .reg n => n
  | _, .imm v => v
  | _, .num n => n
  | _, .dist _ off => off
  | _, _ => 0

/-- The operand can be written at `o`, and fits a field of `w` bits after shifting by `sh`. -/
def argFits (o : ThOp) (a : TArg) (w sh : Nat) : Bool :=
  match o, a with
  | .low, .reg n => decide (n < 8)
  | .high, .reg n => decide (8 ≤ n) && decide (n < 16)
  | .imm, .imm v => decide (v < 256) && decide (v % 2 ^ sh = 0) && decide (v / 2 ^ sh < 2 ^ w)
  | .word, .imm v => decide (v < 256) && decide (v % 4 = 0)
  | .num, .num n => decide (n < 2 ^ w)
  | .offset hi, .dist k off => decide (k = hi + 2) && decide (-(2 ^ (hi + 1)) ≤ off) && decide (off < 2 ^ (hi + 1)) && decide (off % 2 = 0)
  | _, _ => false

/-- As `thPlaced`, with the operands known. -/
def thFitsAll (fields : List ThField) : List ThOp → List TArg → Nat → Bool
  | [], [], _ => true
  | o :: os, a :: as, i =>
    match o.fixed with
    | some b => decide (a = b) && thFitsAll fields os as i
    | none =>
      (match fields.find? (ThField.isVal i) with
       | some g => thFits true true o g.width g.sh && argFits o a g.width g.sh
       | none => false) && thFitsAll fields os as (i + 1)
  | _, _, _ => false

def thVals : List ThOp → List TArg → List Int
  | o :: os, a :: as =>
    match o.fixed with
    | some _ => thVals os as
    | none => o.valOf a :: thVals os as
  | _, _ => []

theorem parse_number {c : Ctx} {t : Str} {x : Int} {dec : Bool} (h : TokenValue c.sy c.labels t x dec) {n : Nat} {signed : Bool} (hn : 1 ≤ n)
    (h1 : dec = true ∧ signed = true → x < 2 ^ (n - 1)) (h2 : x < 2 ^ n)
    (h3 : 0 ≤ x ∨ (dec = true ∧ signed = true ∧ -(2 ^ (n - 1)) ≤ x)) : parseInteger c.sy c.labels t n signed = .ok (some x) := by
  refine (C13_parse_iff _ _ _ _ _ _ hn).2 ⟨x, dec, h, ?_⟩
  have hp : (0 : Int) < 2 ^ (n - 1) := Int.pow_pos (by decide)
  cases dec <;> cases signed <;> simp at h1 h3 ⊢ <;> omega

theorem token_ne_nil {c : Ctx} {t : Str} {x : Int} {dec : Bool} (h : TokenValue c.sy c.labels t x dec) : t ≠ [] := by
  rintro rfl
  obtain ⟨lit, hlit, -⟩ := h
  cases hlit

theorem pc_ne_zero {c : Ctx} (h : 0 ≤ c.pc) : (c.pc + 4 != 0) = true := by
  have : c.pc + 4 ≠ 0 := by omega
  simpa using this

theorem th_read {c : Ctx} (hpc : 0 ≤ c.pc) {o : ThOp} (ho : o.fixed = none) {a : TArg} {w sh : Nat} (h : argFits o a w sh = true) {ts : List Str}
    (ht : ThPlain (TokenValue c.sy c.labels) a ts) :
    ∃ t f, ts = [t] ∧ o.conv = some f ∧ o.pat.matches t = true ∧ f t c = (.ok (o.valOf a), []) := by
  cases o with
  | low =>
    cases a with
    | reg n =>
      cases ht with
      | reg hr =>
        have h : n < 8 := of_decide_eq_true h
        exact ⟨_, _, rfl, rfl, (matches_low _).2 ⟨n, h, hr⟩, thLowReg_of h hr c⟩
    | _ => cases h
  | high =>
    cases a with
    | reg n =>
      cases ht with
      | reg hr =>
        simp only [argFits, Bool.and_eq_true, decide_eq_true_eq] at h
        exact ⟨_, _, rfl, rfl, (matches_high _).2 ⟨n, h.1, hr⟩, thHighReg_of h.1 hr c⟩
    | _ => cases h
  | imm =>
    cases a with
    | imm v =>
      cases ht with
      | imm hv hd =>
        simp only [argFits, Bool.and_eq_true, decide_eq_true_eq] at h
        refine ⟨_, _, rfl, rfl, (matches_hash _).2 ⟨_, token_ne_nil hv, rfl⟩, thImm_of ?_⟩
        exact parse_number hv (by decide) (by simp) (by show (v : Int) < 256; omega) (.inl (by show (0 : Int) ≤ (v : Int); omega))
    | _ => cases h
  | word =>
    cases a with
    | imm v =>
      cases ht with
      | imm hv hd =>
        simp only [argFits, Bool.and_eq_true, decide_eq_true_eq] at h
        refine ⟨_, _, rfl, rfl, (matches_hash _).2 ⟨_, token_ne_nil hv, rfl⟩, ?_⟩
        show thWord _ c = _
        rw [thWord_eq]
        refine parseIntegerOrLabel_number (parse_number hv (by show 1 ≤ 8; decide) ?_ (by show (v : Int) < 256; omega) (.inl (by show (0 : Int) ≤ (v : Int); omega)))
        rintro ⟨rfl, -⟩
        have : v < 128 := hd.resolve_right (by simp)
        show (v : Int) < 128
        omega
    | _ => cases h
  | num =>
    cases a with
    | num n =>
      cases ht with
      | num hr =>
        refine ⟨_, _, rfl, rfl, (matches_num _).2 ⟨n, hr⟩, ?_⟩
        simp only [pyInt_reads (by decide : 10 ≤ 16) hr]
        rfl
    | _ => cases h
  | offset hi =>
    cases a with
    | dist k off =>
      cases ht with
      | dist hh hv hd =>
        simp only [argFits, Bool.and_eq_true, decide_eq_true_eq] at h
        obtain ⟨⟨⟨rfl, h1⟩, h2⟩, h3⟩ := h
        refine ⟨_, _, rfl, rfl, (matches_offset _ _).2 ⟨token_ne_nil hv, hh⟩, ?_⟩
        show thOffset hi _ c = _
        rw [thOffset_eq]
        have hp : (0 : Int) < 2 ^ (hi + 1) := Int.pow_pos (by decide)
        have e : (2 : Int) ^ (hi + 2) = 2 ^ (hi + 1) * 2 := Int.pow_succ 2 (hi + 1)
        have hs : ∀ u, (false || (thOffsetRef hi u c.pc).relative != 0) = true := fun _ => pc_ne_zero hpc
        refine parseIntegerOrLabel_number ?_
        rw [hs]
        refine parse_number hv (by show 1 ≤ hi + 2; omega) (fun _ => h2) (by show off < 2 ^ (hi + 2); omega) ?_
        rcases hd with rfl | hd
        · by_cases h0 : 0 ≤ off
          · exact .inl h0
          · exact .inr ⟨rfl, rfl, h1⟩
        · exact .inl hd
    | _ => cases h
  | pc => cases ho
  | sp => cases ho
  | lb => cases ho
  | rb => cases ho

theorem th_read_fixed {o : ThOp} {a : TArg} (ho : o.fixed = some a) {number : Str → Int → Bool → Prop} {ts : List Str} (ht : ThPlain number a ts) :
    ∃ t, ts = [t] ∧ o.conv = none ∧ o.pat.matches t = true := by
  cases o with
  | pc => cases ho; cases ht with | reg h => exact ⟨_, rfl, rfl, (matches_pc _).2 h⟩
  | sp => cases ho; cases ht with | reg h => exact ⟨_, rfl, rfl, (matches_sp _).2 h⟩
  | lb => cases ho; cases ht; exact ⟨_, rfl, rfl, (matches_lb _).2 rfl⟩
  | rb => cases ho; cases ht; exact ⟨_, rfl, rfl, (matches_rb _).2 rfl⟩
  | _ => cases ho

theorem th_reads {c : Ctx} (hpc : 0 ≤ c.pc) {fields : List ThField} {os : List ThOp} : ∀ {as : List TArg} {ts : List Str} {i : Nat},
    thFitsAll fields os as i = true → ThPlainArgs (TokenValue c.sy c.labels) as ts → ThToks c os ts (thVals os as) [] := by
  induction os with
  | nil =>
    intro as ts i h ht
    cases as with
    | nil => cases ht; exact .nil
    | cons => cases h
  | cons o os ih =>
    intro as ts i h ht
    cases as with
    | nil => cases h
    | cons a as =>
      cases ht with
      | cons h1 h2 =>
        rw [thFitsAll] at h
        rw [thVals]
        cases ho : o.fixed with
        | some b =>
          rw [ho] at h
          simp only [Bool.and_eq_true, decide_eq_true_eq] at h
          obtain ⟨rfl, h⟩ := h
          obtain ⟨t, rfl, h3, h4⟩ := th_read_fixed ho h1
          exact .skip h3 h4 (ih h h2)
        | none =>
          rw [ho] at h
          simp only [Bool.and_eq_true] at h
          cases hf : fields.find? (ThField.isVal i) with
          | none => rw [hf] at h; exact absurd h.1 (by simp)
          | some g =>
            rw [hf] at h
            simp only [Bool.and_eq_true] at h
            obtain ⟨t, f, rfl, h3, h4, h5⟩ := th_read hpc ho h.1.2 h1
            exact .read (r := []) h3 h4 h5 (ih h.2 h2)

/-- The field of a fitting operand can hold it, and is read back as the operand. -/
theorem th_back {o : ThOp} {a : TArg} {w sh : Nat} (hf : thFits true true o w sh = true) (h : argFits o a w sh = true) :
    -(2 ^ (w - 1)) ≤ pyShr (o.valOf a) sh ∧ pyShr (o.valOf a) sh < 2 ^ w ∧ o.arg (pyShr (o.valOf a) sh % 2 ^ w).toNat sh = a := by
  have e0 : ∀ v : Int, pyShr v 0 = v := fun v => by rw [pyShr_div]; simp
  have hp : (0 : Int) < 2 ^ (w - 1) := Int.pow_pos (by decide)
  cases o with
  | low =>
    cases a with
    | reg n =>
      simp only [thFits, Bool.and_eq_true, beq_iff_eq] at hf
      obtain ⟨rfl, rfl⟩ := hf
      have h : n < 8 := of_decide_eq_true h
      simp only [ThOp.valOf, ThOp.arg, e0]
      exact ⟨by omega, by omega, by congr 1; omega⟩
    | _ => cases h
  | high =>
    cases a with
    | reg n =>
      simp only [thFits, Bool.and_eq_true, beq_iff_eq] at hf
      obtain ⟨rfl, rfl⟩ := hf
      simp only [argFits, Bool.and_eq_true, decide_eq_true_eq] at h
      simp only [ThOp.valOf, ThOp.arg, e0]
      exact ⟨by omega, by omega, by congr 1; omega⟩
    | _ => cases h
  | imm =>
    cases a with
    | imm v =>
      simp only [argFits, Bool.and_eq_true, decide_eq_true_eq] at h
      simp only [ThOp.valOf, ThOp.arg, pyShr_div]
      have e : ((v : Int) / 2 ^ sh) = ((v / 2 ^ sh : Nat) : Int) := by rw [Int.natCast_ediv, pow_cast]
      have hlt : ((v / 2 ^ sh : Nat) : Int) < 2 ^ w := by rw [← pow_cast]; omega
      have h0 : (0 : Int) ≤ ((v / 2 ^ sh : Nat) : Int) := Int.natCast_nonneg _
      rw [e, Int.emod_eq_of_lt h0 hlt]
      refine ⟨Int.le_trans (by omega) h0, hlt, ?_⟩
      rw [Int.toNat_natCast]
      congr 1
      have := Nat.div_add_mod v (2 ^ sh)
      rw [h.1.2, Nat.add_zero, Nat.mul_comm] at this
      exact this
    | _ => cases h
  | word =>
    cases a with
    | imm v =>
      simp only [thFits, Bool.and_eq_true, beq_iff_eq] at hf
      obtain ⟨⟨rfl, rfl⟩, -⟩ := hf
      simp only [argFits, Bool.and_eq_true, decide_eq_true_eq] at h
      simp only [ThOp.valOf, ThOp.arg, pyShr_div]
      exact ⟨by omega, by omega, by congr 1; omega⟩
    | _ => cases h
  | num =>
    cases a with
    | num n =>
      simp only [thFits, beq_iff_eq] at hf
      subst hf
      have h : n < 2 ^ w := of_decide_eq_true h
      have hlt : (n : Int) < 2 ^ w := by rw [← pow_cast]; omega
      simp only [ThOp.valOf, ThOp.arg, e0]
      rw [Int.emod_eq_of_lt (by omega) hlt]
      exact ⟨by omega, hlt, by rw [Int.toNat_natCast]⟩
    | _ => cases h
  | offset hi =>
    cases a with
    | dist k off =>
      simp only [thFits, Bool.and_eq_true, beq_iff_eq] at hf
      obtain ⟨⟨rfl, rfl⟩, -⟩ := hf
      simp only [argFits, Bool.and_eq_true, decide_eq_true_eq] at h
      obtain ⟨⟨⟨rfl, h1⟩, h2⟩, h3⟩ := h
      simp only [ThOp.valOf, ThOp.arg, pyShr_div, Nat.add_sub_cancel] at hp ⊢
      have e : (2 : Int) ^ (hi + 1) = 2 ^ hi * 2 := Int.pow_succ 2 hi
      rw [e] at h1 h2
      refine ⟨by omega, by omega, ?_⟩
      congr 1
      have hr := Int.emod_nonneg (off / 2 ^ 1) (show (2 : Int) ^ (hi + 1) ≠ 0 by omega)
      have hc : ((2 ^ (hi + 1) : Nat) : Int) = 2 ^ hi * 2 := by rw [pow_cast, e]
      unfold toSigned
      rw [Int.toNat_of_nonneg hr, e]
      by_cases h0 : 0 ≤ off
      · have he : off / 2 ^ 1 % (2 ^ hi * 2) = off / 2 ^ 1 := Int.emod_eq_of_lt (by omega) (by omega)
        rw [he]
        rw [if_pos (by omega)]
        omega
      · have he : off / 2 ^ 1 % (2 ^ hi * 2) = off / 2 ^ 1 + 2 ^ hi * 2 := by
          rw [← Int.add_emod_right]
          exact Int.emod_eq_of_lt (by omega) (by omega)
        rw [he]
        rw [if_neg (by omega)]
        omega
    | _ => cases h
  | pc => cases h
  | sp => cases h
  | lb => cases h
  | rb => cases h

theorem th_fitted {fields : List ThField} {all : List Int} {os : List ThOp} : ∀ {as : List TArg} {i : Nat}, all.drop i = thVals os as →
    thFitsAll fields os as i = true →
    thArgs (thSlot fields (fields.map (ThField.raw all))) os i = as ∧
    ∀ j, i ≤ j → j < all.length → ∃ g, fields.find? (ThField.isVal j) = some g ∧
      -(2 ^ (g.width - 1)) ≤ pyShr (all.getD j 0) g.sh ∧ pyShr (all.getD j 0) g.sh < 2 ^ g.width := by
  induction os with
  | nil =>
    intro as i hd h
    cases as with
    | nil =>
      refine ⟨rfl, fun j h1 h2 => ?_⟩
      have : all.drop i = [] := hd
      rw [List.drop_eq_nil_iff] at this
      omega
    | cons => cases h
  | cons o os ih =>
    intro as i hd h
    cases as with
    | nil => cases h
    | cons a as =>
      rw [thFitsAll] at h
      rw [thVals] at hd
      rw [thArgs]
      cases ho : o.fixed with
      | some b =>
        rw [ho] at h hd
        simp only [Bool.and_eq_true, decide_eq_true_eq] at h
        obtain ⟨rfl, h⟩ := h
        obtain ⟨h1, h2⟩ := ih hd h
        exact ⟨by simp only [h1], h2⟩
      | none =>
        rw [ho] at h hd
        simp only [Bool.and_eq_true] at h
        cases hf : fields.find? (ThField.isVal i) with
        | none => rw [hf] at h; exact absurd h.1 (by simp)
        | some g =>
          rw [hf] at h
          simp only [Bool.and_eq_true] at h
          obtain ⟨b1, b2, b3⟩ := th_back h.1.1 h.1.2
          have hg : all.getD i 0 = o.valOf a := by
            have : all[i]? = some (o.valOf a) := by rw [← Nat.add_zero i, ← List.getElem?_drop, hd]; rfl
            rw [List.getD_eq_getElem?_getD, this]; rfl
          have hval : g.isVal i = true := by simpa using List.find?_some hf
          obtain ⟨h1, h2⟩ := ih (i := i + 1) (by rw [← List.drop_drop, hd]; rfl) h.2
          refine ⟨?_, fun j hj1 hj2 => ?_⟩
          · simp only [thSlot_map hf, isVal_raw hval, hg, b3, h1]
          · by_cases hij : i = j
            · subst hij
              exact ⟨g, hf, by rw [hg]; exact b1, by rw [hg]; exact b2⟩
            · exact h2 j (by omega) hj2

/-- Each operand has one field, and each field has its operand. -/
theorem thTable_once : (thTable.all fun p => p.2.all fun f => f.fields.all fun g =>
    match g.src with
    | .const _ => true
    | .val j _ => decide (f.fields.find? (ThField.isVal j) = some g) && decide (j < (f.ops.filter fun o => o.fixed.isNone).length)) = true := by decide +kernel

theorem thVals_length {fields : List ThField} {os : List ThOp} : ∀ {as : List TArg} {i : Nat}, thFitsAll fields os as i = true →
    (thVals os as).length = (os.filter fun o => o.fixed.isNone).length := by
  induction os with
  | nil => intro as i _; cases as <;> rfl
  | cons o os ih =>
    intro as i h
    cases as with
    | nil => cases h
    | cons a as =>
      rw [thFitsAll] at h
      rw [thVals, List.filter_cons]
      cases ho : o.fixed with
      | some b => rw [ho] at h; simp only [Bool.and_eq_true] at h; simpa using ih h.2
      | none => rw [ho] at h; simp only [Bool.and_eq_true] at h; simpa using ih h.2

/-- A row by which the instruction can be written. -/
structure ThHas (op : TOp) (args : List TArg) : Prop where
  row : ∃ fs f, (op.name, fs) ∈ thTable ∧ f ∈ fs ∧ f.bad = false ∧ thWrong op.name f = false ∧ thFitsAll f.fields f.ops args 0 = true ∧
    thZero op.name f (f.fields.map (ThField.raw (thVals f.ops args))) = false

theorem ThHas.code {op : TOp} {args : List TArg} (h : ThHas op args) {c : Ctx} (hpc : 0 ≤ c.pc) {t : Str} {rest : List Str}
    (ht : ThPlainArgs (TokenValue c.sy c.labels) args rest) :
    ∃ fs blob, (op.name, fs) ∈ thTable ∧ thRun fs (t :: rest) c = (.ok (some blob), []) ∧ blob.length = 2 ∧
      decode16 (ofBytes false blob) = some ⟨op, args⟩ := by
  obtain ⟨fs, f, hm, hf, hbad, hwr, hfit, hze⟩ := h.row
  have htoks := th_reads hpc hfit ht
  obtain ⟨hargs, hrange⟩ := th_fitted (all := thVals f.ops args) (i := 0) rfl hfit
  have honce := List.all_eq_true.1 (List.all_eq_true.1 thTable_once _ hm) f hf
  have hsane := List.all_eq_true.1 (List.all_eq_true.1 thTable_sane _ hm) f hf
  have hok : ∀ g ∈ f.fields, FieldOk (g.bits (thVals f.ops args)) := by
    intro g hg
    have h1 := List.all_eq_true.1 honce g hg
    have hs := hsane
    simp only [thSane, Bool.and_eq_true, List.all_eq_true, decide_eq_true_eq] at hs
    obtain ⟨⟨⟨s1, -⟩, -⟩, s4⟩ := hs
    have hle := (s1 g hg).1.1
    have hc := s4 g hg
    unfold ThField.bits
    cases hsrc : g.src with
    | const n =>
      rw [hsrc] at hc
      have hc : n < 2 ^ (g.hi - g.lo + 1) := of_decide_eq_true hc
      refine ⟨hle, ?_, ?_⟩
      · have : (0 : Int) < 2 ^ (g.hi - g.lo) := Int.pow_pos (by decide)
        show -(2 ^ (g.hi - g.lo)) ≤ (n : Int)
        omega
      · show (n : Int) < 2 ^ (g.hi - g.lo + 1)
        rw [← pow_cast]; omega
    | val j sh =>
      rw [hsrc] at h1
      simp only [Bool.and_eq_true, decide_eq_true_eq] at h1
      obtain ⟨g', hg', r1, r2⟩ := hrange j (Nat.zero_le _) (by rw [thVals_length hfit]; exact h1.2)
      rw [h1.1] at hg'
      cases hg'
      have hsh : g.sh = sh := by unfold ThField.sh; rw [hsrc]
      rw [hsh] at r1 r2
      exact ⟨hle, r1, r2⟩
  obtain ⟨hpk, hlt⟩ := th_packed hsane hok
  refine ⟨fs, wordBytes false 2 ((thWordOf f.base f.fields (f.fields.map (ThField.raw (thVals f.ops args))) : Nat) : Int), hm, ?_, wordBytes_length _ _ _, ?_⟩
  · rw [thRun_of (List.all_eq_true.1 thTable_exclusive _ hm) hf htoks.matches]
    exact ThForm.build_of hbad htoks.apply hpk
  · have hw := ofBytes_wordBytes false 2 ((thWordOf f.base f.fields (f.fields.map (ThField.raw (thVals f.ops args))) : Nat) : Int)
    rw [show ofBytes false (wordBytes false 2 ((thWordOf f.base f.fields (f.fields.map (ThField.raw (thVals f.ops args))) : Nat) : Int)) =
      thWordOf f.base f.fields (f.fields.map (ThField.raw (thVals f.ops args))) by omega]
    obtain ⟨op', hop, hdec⟩ := th_row hm
    have := hdec f hf hwr _ hok hze
    rw [hargs] at this
    rw [this]
    have hinj : ∀ a b : TOp, a.name = b.name → a = b := by intro a b h; cases a <;> cases b <;> first | rfl | (exact absurd h (by decide))
    rw [hinj _ _ hop]

/-! ## every instruction -/

theorem mem_table {m : String} {f : ThForm} (h : (thTable.any fun p => p.1 == m && p.2.any fun g => decide (g = f)) = true) :
    ∃ fs, (m, fs) ∈ thTable ∧ f ∈ fs := by
  simp only [List.any_eq_true, Bool.and_eq_true, beq_iff_eq, decide_eq_true_eq] at h
  obtain ⟨⟨m', fs⟩, h1, h2, g, h3, h4⟩ := h
  cases h2
  cases h4
  exact ⟨fs, h1, h3⟩

theorem has_of {op : TOp} {args : List TArg} (f : ThForm)
    (h1 : ((thTable.any fun p => p.1 == op.name && p.2.any fun g => decide (g = f)) && !f.bad && !thWrong op.name f && !(op.name == "LSR" || op.name == "ASR")) = true)
    (h2 : thFitsAll f.fields f.ops args 0 = true) : ThHas op args := by
  simp only [Bool.and_eq_true, Bool.not_eq_true'] at h1
  obtain ⟨⟨⟨h3, h4⟩, h5⟩, h6⟩ := h1
  obtain ⟨fs, h7, h8⟩ := mem_table h3
  exact ⟨fs, f, h7, h8, h4, h5, h2, by unfold thZero; rw [h6]; rfl⟩

theorem has_shift {op : TOp} {a b v : Nat} (hop : op = .LSR ∨ op = .ASR) (ha : a < 8) (hb : b < 8) (hv : v < 32) (hv0 : v ≠ 0) :
    ThHas op [.reg a, .reg b, .imm v] := by
  have hf : thFitsAll [⟨10, 6, .val 2 0⟩, ⟨5, 3, .val 1 0⟩, ⟨2, 0, .val 0 0⟩] [.low, .low, .imm] [.reg a, .reg b, .imm v] 0 = true := by
    simp [thFitsAll, ThOp.fixed, ThField.isVal, thFits, argFits, ThField.width, ThField.sh]
    exact ⟨ha, hb, ⟨by omega, decide_eq_true (Nat.mod_one v)⟩, hv⟩
  have hz : ∀ m base, thZero m ⟨[.low, .low, .imm], base, [⟨10, 6, .val 2 0⟩, ⟨5, 3, .val 1 0⟩, ⟨2, 0, .val 0 0⟩], false⟩
      ([(⟨10, 6, .val 2 0⟩ : ThField), ⟨5, 3, .val 1 0⟩, ⟨2, 0, .val 0 0⟩].map (ThField.raw (thVals [.low, .low, .imm] [.reg a, .reg b, .imm v]))) = false := by
    intro m base
    have : (ThField.raw (thVals [.low, .low, .imm] [.reg a, .reg b, .imm v]) ⟨10, 6, .val 2 0⟩) = v := by
      show (pyShr ((v : Int)) 0 % 2 ^ 5).toNat = v
      rw [pyShr_div]
      omega
    simp [thZero, this, hv0]
  rcases hop with rfl | rfl
  · obtain ⟨fs, h7, h8⟩ := mem_table (m := TOp.LSR.name) (f := ⟨[.low, .low, .imm], 0x0800, [⟨10, 6, .val 2 0⟩, ⟨5, 3, .val 1 0⟩, ⟨2, 0, .val 0 0⟩], false⟩) (by decide +kernel)
    exact ⟨fs, _, h7, h8, rfl, by decide +kernel, hf, hz _ _⟩
  · obtain ⟨fs, h7, h8⟩ := mem_table (m := TOp.ASR.name) (f := ⟨[.low, .low, .imm], 0x1000, [⟨10, 6, .val 2 0⟩, ⟨5, 3, .val 1 0⟩, ⟨2, 0, .val 0 0⟩], false⟩) (by decide +kernel)
    exact ⟨fs, _, h7, h8, rfl, by decide +kernel, hf, hz _ _⟩

/-- Close the goal that symbolic operands fit. -/
macro "th_fit" : tactic =>
  `(tactic| (simp [thFitsAll, ThOp.fixed, ThField.isVal, thFits, argFits, ThField.width, ThField.sh, thAlu, thCond]; (try omega); (try exact decide_eq_true (by omega))))

def th3 (base : Nat) (last : ThOp) : ThForm := ⟨[.low, .low, last], base, [⟨8, 6, .val 2 0⟩, ⟨5, 3, .val 1 0⟩, ⟨2, 0, .val 0 0⟩], false⟩
def th8 (base : Nat) : ThForm := ⟨[.low, .imm], base, [⟨10, 8, .val 0 0⟩, ⟨7, 0, .val 1 0⟩], false⟩
def thHi (base : Nat) (a b : ThOp) : ThForm := ⟨[a, b], base, [⟨5, 3, .val 1 0⟩, ⟨2, 0, .val 0 0⟩], false⟩
def thMem (base : Nat) : ThForm := ⟨[.low, .lb, .low, .low, .rb], base, [⟨8, 6, .val 2 0⟩, ⟨5, 3, .val 1 0⟩, ⟨2, 0, .val 0 0⟩], false⟩
def thAt (base : Nat) (r : ThOp) : ThForm := ⟨[.low, .lb, r, .word, .rb], base, [⟨10, 8, .val 0 0⟩, ⟨7, 0, .val 1 2⟩], false⟩

theorem has_alu (k : Nat) (hk : k < 16) {a b : Nat} (ha : a < 8) (hb : b < 8) (h : k ≠ 3) (h' : k ≠ 4) : ThHas (thAluNames.getD k .AND) [.reg a, .reg b] := by
  have := (by decide +kernel : ∀ k, k < 16 → k ≠ 3 → k ≠ 4 → ((thTable.any fun p => p.1 == (thAluNames.getD k .AND).name && p.2.any fun g => decide (g = thAlu k)) &&
    !(thAlu k).bad && !thWrong (thAluNames.getD k .AND).name (thAlu k) && !((thAluNames.getD k .AND).name == "LSR" || (thAluNames.getD k .AND).name == "ASR")) = true)
  exact has_of (thAlu k) (this k hk h h') (by th_fit)

theorem has_alu_shift {op : TOp} {a b : Nat} (hop : op = .LSR ∨ op = .ASR) (ha : a < 8) (hb : b < 8) : ThHas op [.reg a, .reg b] := by
  rcases hop with rfl | rfl
  · obtain ⟨fs, h7, h8⟩ := mem_table (m := TOp.LSR.name) (f := thAlu 3) (by decide +kernel)
    exact ⟨fs, _, h7, h8, rfl, by decide +kernel, by th_fit, rfl⟩
  · obtain ⟨fs, h7, h8⟩ := mem_table (m := TOp.ASR.name) (f := thAlu 4) (by decide +kernel)
    exact ⟨fs, _, h7, h8, rfl, by decide +kernel, by th_fit, rfl⟩

theorem has_cond (k : Nat) (hk : k < 14) {v : Nat} (hv : v < 256) : ThHas (thCondNames.getD k .BEQ) [.dist 9 (toSigned 8 v * 2)] := by
  have := (by decide +kernel : ∀ k, k < 14 → ((thTable.any fun p => p.1 == (thCondNames.getD k .BEQ).name && p.2.any fun g => decide (g = thCond k)) &&
    !(thCond k).bad && !thWrong (thCondNames.getD k .BEQ).name (thCond k) && !((thCondNames.getD k .BEQ).name == "LSR" || (thCondNames.getD k .BEQ).name == "ASR")) = true)
  refine has_of (thCond k) (this k hk) ?_
  have h1 : -128 ≤ toSigned 8 v ∧ toSigned 8 v < 128 := by unfold toSigned; split <;> omega
  simp [thFitsAll, ThOp.fixed, ThField.isVal, thFits, argFits, ThField.width, ThField.sh, thCond]
  omega

theorem has_mem (k : Nat) (hk : k < 8) {a b n : Nat} (ha : a < 8) (hb : b < 8) (hn : n < 8) (h2 : k ≠ 2) (h5 : k ≠ 5) :
    ThHas (thMemNames.getD k .STR) [.reg a, .lb, .reg b, .reg n, .rb] := by
  have := (by decide +kernel : ∀ k, k < 8 → k ≠ 2 → k ≠ 5 → ((thTable.any fun p => p.1 == (thMemNames.getD k .STR).name && p.2.any fun g => decide (g = thMem (0x5000 + 512 * k))) &&
    !(thMem (0x5000 + 512 * k)).bad && !thWrong (thMemNames.getD k .STR).name (thMem (0x5000 + 512 * k)) && !((thMemNames.getD k .STR).name == "LSR" || (thMemNames.getD k .STR).name == "ASR")) = true)
  exact has_of (thMem (0x5000 + 512 * k)) (this k hk h2 h5) (by simp only [thMem]; th_fit)

theorem has_mem' {k : Nat} {a b n : Nat} (hm : thMissing ⟨thMemNames.getD k .STR, [.reg a, .lb, .reg b, .reg n, .rb]⟩ = false) (hk : k < 8)
    (ha : a < 8) (hb : b < 8) (hn : n < 8) : ThHas (thMemNames.getD k .STR) [.reg a, .lb, .reg b, .reg n, .rb] := by
  refine has_mem k hk ha hb hn ?_ ?_
  · rintro rfl; cases hm
  · rintro rfl; cases hm

theorem decode_has {w : Nat} {i : TInstr} (h : decode16 w = some i) (hm : thMissing i = false) :
    (∃ mask, i = ⟨.PUSH, [.regs mask false]⟩ ∧ mask < 256) ∨ ThHas i.op i.args := by
  have hrd : w % 8 < 8 := Nat.mod_lt _ (by decide)
  have hrs : w / 8 % 8 < 8 := Nat.mod_lt _ (by decide)
  have hrn : w / 64 % 8 < 8 := Nat.mod_lt _ (by decide)
  have h5 : w / 64 % 32 < 32 := Nat.mod_lt _ (by decide)
  have h8 : w / 256 % 8 < 8 := Nat.mod_lt _ (by decide)
  have hi : w % 256 < 256 := Nat.mod_lt _ (by decide)
  have h9 : w / 512 % 8 < 8 := Nat.mod_lt _ (by decide)
  have hA : w / 64 % 16 < 16 := Nat.mod_lt _ (by decide)
  have h11 : w % 2048 < 2048 := Nat.mod_lt _ (by decide)
  simp only [decode16] at h
  split at h
  · cases h; exact .inr (show ThHas .LSL _ from has_of ⟨[.low, .low, .imm], 0, [⟨10, 6, .val 2 0⟩, ⟨5, 3, .val 1 0⟩, ⟨2, 0, .val 0 0⟩], false⟩ (by decide +kernel) (by th_fit))
  · cases h
    split at hm
    · cases hm
    · next hne => rw [if_neg hne]; exact .inr (has_shift (.inl rfl) hrd hrs h5 hne)
  · cases h
    split at hm
    · cases hm
    · next hne => rw [if_neg hne]; exact .inr (has_shift (.inr rfl) hrd hrs h5 hne)
  · cases h
    by_cases h1 : w / 512 % 2 = 0 <;> by_cases h2 : w / 1024 % 2 = 0 <;> simp only [h1, h2, if_true, if_false]
    · exact .inr (show ThHas .ADD _ from has_of (th3 0x1800 .low) (by decide +kernel) (by simp only [th3]; th_fit))
    · exact .inr (show ThHas .ADD _ from has_of (th3 0x1C00 .imm) (by decide +kernel) (by simp only [th3]; th_fit))
    · exact .inr (show ThHas .SUB _ from has_of (th3 0x1A00 .low) (by decide +kernel) (by simp only [th3]; th_fit))
    · exact .inr (show ThHas .SUB _ from has_of (th3 0x1E00 .imm) (by decide +kernel) (by simp only [th3]; th_fit))
  · cases h; exact .inr (show ThHas .MOV _ from has_of (th8 0x2000) (by decide +kernel) (by simp only [th8]; th_fit))
  · cases h; exact .inr (show ThHas .CMP _ from has_of (th8 0x2800) (by decide +kernel) (by simp only [th8]; th_fit))
  · cases h; exact .inr (show ThHas .ADD _ from has_of (th8 0x3000) (by decide +kernel) (by simp only [th8]; th_fit))
  · cases h; exact .inr (show ThHas .SUB _ from has_of (th8 0x3800) (by decide +kernel) (by simp only [th8]; th_fit))
  · split at h
    · cases h
      right
      generalize w / 64 % 16 = k at *
      by_cases k3 : k = 3
      · subst k3; exact has_alu_shift (.inl rfl) hrd hrs
      · by_cases k4 : k = 4
        · subst k4; exact has_alu_shift (.inr rfl) hrd hrs
        · exact has_alu k hA hrd hrs k3 k4
    · split at h
      · split at h
        · next hb =>
          cases h
          by_cases h1 : w / 64 % 2 = 0
          · simp only [h1]
            exact .inr (show ThHas .BX _ from has_of ⟨[.low], 0x4700, [⟨5, 3, .val 0 0⟩], false⟩ (by decide +kernel) (by th_fit))
          · have h1 : w / 64 % 2 = 1 := by omega
            simp only [h1]
            exact .inr (show ThHas .BX _ from has_of ⟨[.high], 0x4740, [⟨5, 3, .val 0 0⟩], false⟩ (by decide +kernel) (by th_fit))
        · cases h
      · next h3 =>
        split at h
        · cases h
        · next hh =>
          cases h
          right
          have hk : w / 256 % 4 = 0 ∨ w / 256 % 4 = 1 ∨ w / 256 % 4 = 2 := by omega
          have h12 : (w / 128 % 2 = 0 ∧ w / 64 % 2 = 1) ∨ (w / 128 % 2 = 1 ∧ w / 64 % 2 = 0) ∨ (w / 128 % 2 = 1 ∧ w / 64 % 2 = 1) := by omega
          rcases hk with hk | hk | hk <;> rcases h12 with ⟨e1, e2⟩ | ⟨e1, e2⟩ | ⟨e1, e2⟩ <;> simp only [hk, e1, e2]
          · exact (show ThHas .ADD _ from has_of (thHi 0x4440 .low .high) (by decide +kernel) (by simp only [thHi]; th_fit))
          · exact (show ThHas .ADD _ from has_of (thHi 0x4480 .high .low) (by decide +kernel) (by simp only [thHi]; th_fit))
          · exact (show ThHas .ADD _ from has_of (thHi 0x44C0 .high .high) (by decide +kernel) (by simp only [thHi]; th_fit))
          · exact (show ThHas .CMP _ from has_of (thHi 0x4540 .low .high) (by decide +kernel) (by simp only [thHi]; th_fit))
          · exact (show ThHas .CMP _ from has_of (thHi 0x4580 .high .low) (by decide +kernel) (by simp only [thHi]; th_fit))
          · exact (show ThHas .CMP _ from has_of (thHi 0x45C0 .high .high) (by decide +kernel) (by simp only [thHi]; th_fit))
          · exact (show ThHas .MOV _ from has_of (thHi 0x4640 .low .high) (by decide +kernel) (by simp only [thHi]; th_fit))
          · exact (show ThHas .MOV _ from has_of (thHi 0x4680 .high .low) (by decide +kernel) (by simp only [thHi]; th_fit))
          · exact (show ThHas .MOV _ from has_of (thHi 0x46C0 .high .high) (by decide +kernel) (by simp only [thHi]; th_fit))
  · cases h
    have hv : ¬ 255 < w % 256 * 4 := by
      intro hv
      have hm : decide (255 < w % 256 * 4) = false := hm
      simp [hv] at hm
    exact .inr (show ThHas .LDR _ from has_of (thAt 0x4800 .pc) (by decide +kernel) (by simp only [thAt]; th_fit))
  · cases h; exact .inr (has_mem' hm h9 hrd hrs hrn)
  · cases h; exact .inr (has_mem' hm h9 hrd hrs hrn)
  · cases h; cases hm
  · cases h
    exact .inr (show ThHas .LDR _ from has_of ⟨[.low, .lb, .low, .imm, .rb], 0x6800, [⟨10, 6, .val 2 2⟩, ⟨5, 3, .val 1 0⟩, ⟨2, 0, .val 0 0⟩], false⟩ (by decide +kernel) (by th_fit))
  · cases h; cases hm
  · cases h; cases hm
  · cases h; cases hm
  · cases h; cases hm
  · cases h; cases hm
  · cases h
    have hv : ¬ 255 < w % 256 * 4 := by
      intro hv
      have hm : decide (255 < w % 256 * 4) = false := hm
      simp [hv] at hm
    exact .inr (show ThHas .LDR _ from has_of (thAt 0x9800 .sp) (by decide +kernel) (by simp only [thAt]; th_fit))
  · cases h; cases hm
  · cases h; cases hm
  · split at h
    · cases h
      by_cases h7 : w % 256 / 128 = 0
      · rw [if_pos h7] at hm; cases hm
      · rw [if_neg h7] at hm; cases hm
    · split at h
      · cases h; exact .inl ⟨_, rfl, hi⟩
      · split at h
        · cases h; cases hm
        · cases h
  · split at h
    · cases h; cases hm
    · split at h
      · cases h; cases hm
      · cases h
  · cases h; cases hm
  · cases h; cases hm
  · cases h
    have h1 : -1024 ≤ toSigned 11 (w % 2048) ∧ toSigned 11 (w % 2048) < 1024 := by unfold toSigned; split <;> omega
    exact .inr (show ThHas .B _ from has_of ⟨[.offset 10], 0xE000, [⟨10, 0, .val 0 1⟩], false⟩ (by decide +kernel) (by th_fit))
  · next hq => cases h; exact .inr (has_cond _ (by omega) hi)
  · next hq =>
    split at h
    · cases h; exact .inr (show ThHas .SWI _ from has_of ⟨[.num], 0xDF00, [⟨7, 0, .val 0 0⟩], false⟩ (by decide +kernel) (by th_fit))
    · split at h
      · cases h
      · cases h; exact .inr (has_cond _ (by omega) hi)
  · cases h

end Necro
