import Verif.Lemmas.Utils
/-!
# C01–C06: the helpers of utils.py and statements.py
-/

namespace Necro
open Spec

/-! ## C01: fixed-width packing -/

theorem C01_pack_byte : IsPacker packByte 8 false false :=
  isPacker_unsigned false .B 8 rfl (by decide) (by intro v; simp [Fmt.fits]; omega)
theorem C01_pack_8s : IsPacker pack8s 8 false true :=
  isPacker_signed false .b 8 (by decide) rfl (by decide)
    (fun v => by simpa [Fmt.fits] using bmod_range v 7)
theorem C01_pack_le16u : IsPacker packLe16u 16 false false :=
  isPacker_unsigned false .H 16 rfl (by decide) (by intro v; simp [Fmt.fits]; omega)
theorem C01_pack_le16s : IsPacker packLe16s 16 false true :=
  isPacker_signed false .h 16 (by decide) rfl (by decide)
    (fun v => by simpa [Fmt.fits] using bmod_range v 15)
theorem C01_pack_be16u : IsPacker packBe16u 16 true false :=
  isPacker_unsigned true .H 16 rfl (by decide) (by intro v; simp [Fmt.fits]; omega)
theorem C01_pack_be16s : IsPacker packBe16s 16 true true :=
  isPacker_signed true .h 16 (by decide) rfl (by decide)
    (fun v => by simpa [Fmt.fits] using bmod_range v 15)
theorem C01_pack_le32u : IsPacker packLe32u 32 false false :=
  isPacker_unsigned false .I 32 rfl (by decide) (by intro v; simp [Fmt.fits]; omega)
theorem C01_pack_le32s : IsPacker packLe32s 32 false true :=
  isPacker_signed false .i 32 (by decide) rfl (by decide)
    (fun v => by simpa [Fmt.fits] using bmod_range v 31)
theorem C01_pack_be32u : IsPacker packBe32u 32 true false :=
  isPacker_unsigned true .I 32 rfl (by decide) (by intro v; simp [Fmt.fits]; omega)
theorem C01_pack_be32s : IsPacker packBe32s 32 true true :=
  isPacker_signed true .i 32 (by decide) rfl (by decide)
    (fun v => by simpa [Fmt.fits] using bmod_range v 31)
theorem C01_pack_le64u : IsPacker packLe64u 64 false false :=
  isPacker_unsigned false .Q 64 rfl (by decide) (by intro v; simp [Fmt.fits]; omega)
theorem C01_pack_le64s : IsPacker packLe64s 64 false true :=
  isPacker_signed false .q 64 (by decide) rfl (by decide)
    (fun v => by simpa [Fmt.fits] using bmod_range v 63)

/-- Negative, overflowing and missing arguments at once. -/
example : packBe16s [some (-2), some 0x18000, none] =
    .ok [0xFF#8, 0xFE#8, 0x80#8, 0x00#8, 0#8, 0#8] := by decide +kernel
example : (chunks 2 3 [0xFF#8, 0xFE#8, 0x80#8, 0x00#8, 0#8, 0#8]).map (decodeField true true 16) =
    [-2, -32768, 0] := by decide +kernel

/-! ## C02: sign extension -/

theorem C02_neg_fix (v : Int) (bits : Nat) (hb : 1 ≤ bits) (h0 : 0 ≤ v) (h1 : v < 2 ^ bits) :
    -(2 ^ (bits - 1)) ≤ negFix v bits ∧ negFix v bits < 2 ^ (bits - 1) ∧
      negFix v bits % 2 ^ bits = v := by
  rw [negFix_eq v bits hb h0 h1]
  obtain ⟨b, rfl⟩ : ∃ b, bits = b + 1 := ⟨bits - 1, by omega⟩
  have hp : (0 : Int) < 2 ^ b := Int.pow_pos (by decide)
  simp only [Nat.add_sub_cancel, Int.pow_succ] at *
  split
  · refine ⟨by omega, by omega, Int.emod_eq_of_lt h0 h1⟩
  · refine ⟨by omega, by omega, ?_⟩
    rw [Int.sub_emod_right]
    exact Int.emod_eq_of_lt h0 h1

/-- The representative is unique, so `C02_neg_fix` determines the result. -/
theorem C02_neg_fix_unique (v r : Int) (bits : Nat) (hb : 1 ≤ bits) (h0 : 0 ≤ v) (h1 : v < 2 ^ bits)
    (hl : -(2 ^ (bits - 1)) ≤ r) (hr : r < 2 ^ (bits - 1)) (hm : r % 2 ^ bits = v) :
    negFix v bits = r := by
  rw [negFix_eq v bits hb h0 h1]
  obtain ⟨b, rfl⟩ : ∃ b, bits = b + 1 := ⟨bits - 1, by omega⟩
  have hp : (0 : Int) < 2 ^ b := Int.pow_pos (by decide)
  simp only [Nat.add_sub_cancel, Int.pow_succ] at *
  by_cases h : 0 ≤ r
  · rw [Int.emod_eq_of_lt h (by omega)] at hm
    subst hm
    rw [if_pos (by omega)]
  · rw [← Int.add_emod_right, Int.emod_eq_of_lt (by omega) (by omega)] at hm
    rw [if_neg (by omega)]
    omega

example : negFix 0xFE 8 = -2 ∧ negFix 0x7F 8 = 127 ∧ negFix 0x80 8 = -128 := by decide +kernel

/-! ## C03: range checks -/

theorem C03_in_bit_range (v : Int) (n : Nat) :
    inBitRange v n = true ↔ 0 ≤ v ∧ v < 2 ^ n := inBitRange_iff v n

theorem C03_in_bit_range_decimal_signed (v : Int) (n : Nat) (hn : 1 ≤ n) :
    inBitRangeDecimal v n true = true ↔ -(2 ^ (n - 1)) ≤ v ∧ v < 2 ^ (n - 1) := by
  simpa using inBitRangeDecimal_iff v n hn true

theorem C03_in_bit_range_decimal_unsigned (v : Int) (n : Nat) (hn : 1 ≤ n) :
    inBitRangeDecimal v n false = true ↔ -(2 ^ (n - 1)) ≤ v ∧ v < 2 ^ n := by
  simpa using inBitRangeDecimal_iff v n hn false

example : inBitRangeDecimal (-128) 8 true = true ∧ inBitRangeDecimal 128 8 true = false ∧
    inBitRangeDecimal 255 8 false = true ∧ inBitRangeDecimal (-129) 8 false = false := by
  decide +kernel

/-! ## C04: bit-field packing -/

/-- Success exactly when every field is acceptable. -/
theorem C04_pack_bits_ok_iff (base : Int) (fs : List BitField) :
    (∃ r, packBits base fs = .ok r) ↔ ∀ f ∈ fs, FieldOk f := by
  induction fs generalizing base with
  | nil => simp [packBits]
  | cons f fs ih =>
    simp only [packBits, List.mem_cons, forall_eq_or_imp]
    rcases packBitsStep_error base f with ⟨b, hb⟩ | he
    · have : FieldOk f := (packBitsStep_ok_iff base f).1 ⟨b, hb⟩
      simp only [hb, ih, this, true_and]
    · have : ¬ FieldOk f := fun hf => by
        obtain ⟨r, hr⟩ := (packBitsStep_ok_iff base f).2 hf
        rw [he] at hr; simp at hr
      simp [he, this]

/-- Failure is always `InvalidBitRange`. -/
theorem C04_pack_bits_error (base : Int) (fs : List BitField) (e : Err)
    (h : packBits base fs = .error e) : e = .invalidBitRange := by
  induction fs generalizing base with
  | nil => simp [packBits] at h
  | cons f fs ih =>
    simp only [packBits] at h
    rcases packBitsStep_error base f with ⟨b, hb⟩ | he
    · rw [hb] at h; exact ih b h
    · rw [he] at h; simp at h; exact h.symm

/-- Every bit of the result: a bit of the base, or of the field that covers it. -/
theorem C04_pack_bits_bit (base r : Int) (fs : List BitField) (h : packBits base fs = .ok r) (i : Nat) :
    bit r i = true ↔ bit base i = true ∨
      ∃ f ∈ fs, f.lo ≤ i ∧ i ≤ f.hi ∧ bit f.value (i - f.lo) = true := by
  induction fs generalizing base with
  | nil => simp [packBits] at h; simp [h]
  | cons f fs ih =>
    simp only [packBits] at h
    rcases packBitsStep_error base f with ⟨b, hb⟩ | he
    · rw [hb] at h
      rw [ih b h, packBitsStep_bit base f b hb i]
      simp only [Bool.or_eq_true, Bool.and_eq_true, decide_eq_true_eq, List.mem_cons,
        exists_eq_or_imp]
      constructor
      · rintro ((h | ⟨⟨h1, h2⟩, h3⟩) | h)
        · exact .inl h
        · exact .inr (.inl ⟨h1, h2, h3⟩)
        · exact .inr (.inr h)
      · rintro (h | ⟨h1, h2, h3⟩ | h)
        · exact .inl (.inl h)
        · exact .inl (.inr ⟨⟨h1, h2⟩, h3⟩)
        · exact .inr h
    · rw [he] at h; simp at h

/-- Bits outside every field are those of the base. -/
theorem C04_pack_bits_outside (base r : Int) (fs : List BitField) (h : packBits base fs = .ok r)
    (i : Nat) (hi : ∀ f ∈ fs, i < f.lo ∨ f.hi < i) : bit r i = bit base i := by
  have := C04_pack_bits_bit base r fs h i
  rw [Bool.eq_iff_iff, this]
  constructor
  · rintro (h | ⟨f, hf, h1, h2, _⟩)
    · exact h
    · have := hi f hf; omega
  · exact .inl

/-- A field lying on clear bits of the base and not overlapped by another field reads
back as its value modulo its width. -/
theorem C04_pack_bits_field (base r : Int) (pre post : List BitField) (f : BitField)
    (h : packBits base (pre ++ f :: post) = .ok r)
    (hclear : ∀ i, f.lo ≤ i → i ≤ f.hi → bit base i = false)
    (hdis : ∀ g ∈ pre ++ post, g.hi < f.lo ∨ f.hi < g.lo) :
    (r / 2 ^ f.lo) % 2 ^ (f.hi - f.lo + 1) = f.value % 2 ^ (f.hi - f.lo + 1) := by
  have hok := (C04_pack_bits_ok_iff base (pre ++ f :: post)).1 ⟨r, h⟩ f (by simp)
  apply bit_ext
  intro i
  rw [bit_emod_pow, bit_emod_pow, bit_div_pow]
  by_cases hi : i < f.hi - f.lo + 1
  · simp only [hi, decide_true, Bool.true_and]
    rw [Bool.eq_iff_iff, C04_pack_bits_bit base r _ h]
    have hlo := hok.1
    constructor
    · rintro (hb | ⟨g, hg, h1, h2, h3⟩)
      · rw [hclear _ (by omega) (by omega)] at hb; simp at hb
      · by_cases hgf : g = f
        · subst hgf; simpa [Nat.add_sub_cancel] using h3
        · have : g ∈ pre ++ post := by
            simp at hg ⊢; rcases hg with hg | hg | hg
            · exact .inl hg
            · exact absurd hg hgf
            · exact .inr hg
          have := hdis g this
          omega
    · intro hb
      exact .inr ⟨f, by simp, by omega, by omega, by simpa using hb⟩
  · simp [hi]

/-- The order of the fields does not matter, for the result and for the error. -/
theorem C04_pack_bits_perm (base : Int) (fs gs : List BitField) (hp : fs.Perm gs) :
    packBits base fs = packBits base gs := by
  have hm : ∀ f, f ∈ fs ↔ f ∈ gs := fun f => hp.mem_iff
  cases h1 : packBits base fs with
  | error e =>
    cases h2 : packBits base gs with
    | error e' =>
      rw [C04_pack_bits_error _ _ _ h1, C04_pack_bits_error _ _ _ h2]
    | ok r =>
      exfalso
      have := (C04_pack_bits_ok_iff base gs).1 ⟨r, h2⟩
      obtain ⟨r', hr'⟩ := (C04_pack_bits_ok_iff base fs).2 (fun f hf => this f ((hm f).1 hf))
      rw [h1] at hr'; simp at hr'
  | ok r =>
    have := (C04_pack_bits_ok_iff base fs).1 ⟨r, h1⟩
    obtain ⟨r', hr'⟩ := (C04_pack_bits_ok_iff base gs).2 (fun f hf => this f ((hm f).2 hf))
    rw [hr']
    congr 1
    apply bit_ext
    intro i
    rw [Bool.eq_iff_iff, C04_pack_bits_bit base r fs h1, C04_pack_bits_bit base r' gs hr']
    simp only [hm]

/-- `pack_bit` is `pack_bits` on one-bit fields: bit `i` of the result is set exactly
when it was set in the base or some argument sets it. -/
theorem C04_pack_bit (base : Int) (args : List (Nat × Int)) :
    (∃ r, packBit base args = .ok r) ↔ ∀ a ∈ args, -1 ≤ a.2 ∧ a.2 ≤ 1 := by
  unfold packBit
  rw [C04_pack_bits_ok_iff]
  simp only [List.mem_map, forall_exists_index, and_imp, forall_apply_eq_imp_iff₂, FieldOk]
  constructor
  · intro h a ha; have := h a ha; simp at this; omega
  · intro h a ha; have := h a ha; simp; omega

theorem C04_pack_bit_bit (base r : Int) (args : List (Nat × Int)) (h : packBit base args = .ok r)
    (i : Nat) : bit r i = true ↔ bit base i = true ∨ ∃ a ∈ args, a.1 = i ∧ a.2 ≠ 0 := by
  have hok := (C04_pack_bit base args).1 ⟨r, h⟩
  rw [C04_pack_bits_bit base r _ h i]
  apply or_congr Iff.rfl
  simp only [List.mem_map]
  constructor
  · rintro ⟨f, ⟨a, ha, rfl⟩, h1, h2, h3⟩
    refine ⟨a, ha, by simp at h1 h2; omega, ?_⟩
    intro h0; simp [h0, bit_zero] at h3
  · rintro ⟨a, ha, rfl, h0⟩
    refine ⟨_, ⟨a, ha, rfl⟩, by simp, by simp, ?_⟩
    have := hok a ha
    have : a.2 = -1 ∨ a.2 = 1 := by omega
    rcases this with h | h <;> simp [h, bit]

/-- The repository's three `pack_bits` tests, and a case meeting the hypotheses of
`C04_pack_bits_field` (a negative field next to others, on a non-zero base). -/
example : packBits 0 [⟨2, 0, 3⟩, ⟨10, 7, 15⟩] = .ok 0b11110000011 := by decide +kernel
example : packBits 0b100000000000 [⟨2, 0, 3⟩, ⟨10, 7, 15⟩, ⟨4, 4, 1⟩] = .ok 0b111110010011 := by
  decide +kernel
example : packBits 0 [⟨2, 0, -2⟩, ⟨10, 7, 15⟩] = .ok 0b11110000110 := by decide +kernel
example : packBits 0x8000 [⟨7, 4, -2⟩, ⟨2, 0, 8⟩] = .error .invalidBitRange := by decide +kernel
example : packBits 0x8000 ([⟨2, 0, 5⟩] ++ ⟨7, 4, -2⟩ :: [⟨11, 8, 1⟩]) = .ok 0x81E5 ∧
    (0x81E5 / 2 ^ 4 : Int) % 2 ^ 4 = (-2) % 2 ^ 4 := by decide +kernel

/-! ## C05: substitution -/

theorem C05_length (tokens : List Str) (d : List (Str × Str)) (start : Nat) :
    (substituteWithDict tokens d start).length = tokens.length := by
  simp [substituteWithDict]; omega

theorem C05_before_start (tokens : List Str) (d : List (Str × Str)) (start i : Nat) (hi : i < start) :
    (substituteWithDict tokens d start)[i]? = tokens[i]? := by
  simp only [substituteWithDict]
  by_cases h : i < tokens.length
  · rw [List.getElem?_append_left (by simp; omega)]
    simp [hi]
  · rw [List.getElem?_eq_none (by simp; omega), List.getElem?_eq_none (by omega)]

/-- A token that is itself a key becomes its value. -/
theorem C05_whole_token (tokens : List Str) (d : List (Str × Str)) (start i : Nat) (hi : start ≤ i)
    (tok v : Str) (ht : tokens[i]? = some tok) (hv : d.lookup tok = some v) :
    (substituteWithDict tokens d start)[i]? = some v := by
  rw [substitute_getElem _ _ _ _ hi, ht]
  simp [subToken, dget_eq_lookup, hv]

/-- Any other token has its maximal identifier runs replaced, once. -/
theorem C05_runs (tokens : List Str) (d : List (Str × Str)) (start i : Nat) (hi : start ≤ i)
    (tok : Str) (ht : tokens[i]? = some tok) (hv : d.lookup tok = none) :
    ∃ t, (substituteWithDict tokens d start)[i]? = some t ∧ Subst (lookupRun d) tok t := by
  rw [substitute_getElem _ _ _ _ hi, ht]
  obtain ⟨t, h1, h2⟩ := subScan_spec d tok [] [] (by simp)
  refine ⟨t, ?_, by simpa [subRun_eq] using h2⟩
  simp [subToken, dget_eq_lookup, hv] at h1 ⊢
  exact h1

/-- The specification determines the replacement text. -/
theorem C05_subst_functional {look : Str → Str} {s t t' : Str}
    (h : Subst look s t) (h' : Subst look s t') : t = t' := subst_unique h h'

/-- A token none of whose maximal identifier runs is a key is unchanged. -/
theorem C05_no_key (d : List (Str × Str)) (tokens : List Str) (start : Nat)
    (h : ∀ tok ∈ tokens.drop start, d.lookup tok = none ∧
      ∀ pre r post, tok = pre ++ r ++ post → r ≠ [] → (∀ c ∈ r, nameChar c = true) →
        (∀ c, post.head? = some c → nameChar c = false) →
        (∀ c, pre.getLast? = some c → nameChar c = false) → d.lookup r = none) :
    substituteWithDict tokens d start = tokens := by
  apply List.ext_getElem?
  intro i
  by_cases hi : i < start
  · exact C05_before_start _ _ _ _ hi
  · cases ht : tokens[i]? with
    | none => rw [substitute_getElem _ _ _ _ (by omega), ht]; rfl
    | some tok =>
      have hmem : tok ∈ tokens.drop start := by
        rw [List.mem_iff_getElem?]
        exact ⟨i - start, by rw [List.getElem?_drop]; rw [← ht]; congr 1; omega⟩
      obtain ⟨t, h1, h2⟩ := C05_runs tokens d start i (by omega) tok ht (h tok hmem).1
      rw [h1]
      congr 1
      apply subst_id_of_fixed h2
      intro pre r post he hr hall hpost hpre
      simp [lookupRun, (h tok hmem).2 pre r post he hr hall hpost hpre]

/-- With no definitions nothing changes. -/
theorem C05_empty (tokens : List Str) (start : Nat) : substituteWithDict tokens [] start = tokens := by
  apply C05_no_key
  intro tok _
  exact ⟨rfl, fun _ _ _ _ _ _ _ _ => rfl⟩

/-- A replacement that is itself a key is not expanded again; only whole runs match. -/
example : substituteWithDict ["LOAD".toList, "ONE+(ONES|ONE)".toList, "X".toList]
      [("ONE".toList, "X".toList), ("X".toList, "7".toList), ("LOAD".toList, "no".toList)] 1
    = ["LOAD".toList, "X+(ONES|X)".toList, "7".toList] := by decide +kernel
/-- Identifier runs inside a quoted string are replaced as well. -/
example : substituteWithDict [".db".toList, "\"a ONE\"".toList] [("ONE".toList, "1".toList)] 1
    = [".db".toList, "\"a 1\"".toList] := by decide +kernel

/-! ## C06: operand matching -/

/-- `Instruction.match(*patterns, start)`: exactly the operands, one pattern each. -/
theorem C06_match (tokens : List Str) (ps : List Pat) (start : Nat) :
    instrMatch tokens ps start = true ↔
      tokens.length = start + ps.length ∧
        ∀ (i : Nat) t p, tokens[start + i]? = some t → ps[i]? = some p → Accepts t p := by
  unfold instrMatch
  by_cases h : tokens.length = ps.length + start
  · rw [if_pos h, matchAll_iff]
    simp only [List.length_drop, List.getElem?_drop]
    constructor
    · rintro ⟨_, h2⟩; exact ⟨by omega, h2⟩
    · rintro ⟨_, h2⟩; exact ⟨by omega, h2⟩
  · rw [if_neg h]; simp; omega

/-- `Instruction.unbound_match`: the patterns match a prefix of the operands, and the
result is the index of the first operand after it. -/
theorem C06_unbound_match (tokens : List Str) (ps : List Pat) (start n : Nat) :
    instrUnboundMatch tokens ps start = some n ↔
      n = start + ps.length ∧ n ≤ tokens.length ∧
        ∀ (i : Nat) t p, tokens[start + i]? = some t → ps[i]? = some p → Accepts t p := by
  unfold instrUnboundMatch
  by_cases h : ps.length + start ≤ tokens.length
  · rw [if_pos h]
    have := matchPrefix_iff (tokens.drop start) ps
    simp only [List.length_drop, List.getElem?_drop] at this
    by_cases hm : matchPrefix (tokens.drop start) ps = true
    · rw [if_pos hm]
      have h2 := (this.1 hm).2
      constructor
      · intro e; injection e with e; exact ⟨e.symm, by omega, h2⟩
      · rintro ⟨e, _, _⟩; rw [e]
    · rw [if_neg hm]
      simp only [reduceCtorEq, false_iff]
      rintro ⟨_, h1, h2⟩
      exact hm (this.2 ⟨by omega, h2⟩)
  · rw [if_neg h]; simp; omega

/-- The free function `match(iterable, *patterns)`. -/
theorem C06_match_util (items : List Str) (ps : List Pat) :
    matchUtil items ps = true ↔ items.length = ps.length ∧
      ∀ (i : Nat) t p, items[i]? = some t → ps[i]? = some p → Accepts₀ t p := matchUtil_iff items ps

example : instrMatch ["ld".toList, "(".toList, "hl".toList, ")".toList, "a".toList]
    [.str "(".toList, .str "HL".toList, .str ")".toList, .coll ["A".toList, "B".toList]] 1 = true := by
  decide +kernel
/-- The character fallback of `Instruction.match` that `match` does not have: the
pattern `"HL"` accepts the operand `L`. -/
example : instrMatch ["x".toList, "l".toList] [.str "HL".toList] 1 = true ∧
    matchUtil ["l".toList] [.str "HL".toList] = false := by decide +kernel

end Necro
