import Verif.Lemmas.Numbers
/-!
# C13-C18: integers and expressions
-/

namespace Necro
open Spec

/-- Number syntax of the 8086 and x86 assemblers (i386.py:23-34 and x86.py), the richest one. -/
def intelSyntax : NumSyntax where
  hexPrefixes := ["0x".toList, "0h".toList, "$0".toList]
  hexSuffixes := ["h".toList]
  decPrefixes := ["0d".toList]
  decSuffixes := ["d".toList]
  binPrefixes := ["0b".toList, "0y".toList]
  binSuffixes := ["b".toList, "y".toList]
  octPrefixes := ["0o".toList, "0q".toList]
  octSuffixes := ["o".toList, "q".toList]

/-- Number syntax of the 6502 and LR35902 assemblers. -/
def dollarSyntax : NumSyntax where
  hexPrefixes := ["$".toList]
  binPrefixes := ["%".toList]
  octPrefixes := ["@".toList]

/-- Number syntax of the Z80 and 68000 assemblers. -/
def dollarSyntax2 : NumSyntax where
  hexPrefixes := ["$".toList]
  binPrefixes := ["%".toList]

/-- Number syntax of the Thumb assembler. -/
def armSyntax : NumSyntax where
  hexPrefixes := ["0x".toList]
  binPrefixes := ["0b".toList, "0y".toList]

/-- Number syntax of the MIPS32 assembler. -/
def mipsSyntax : NumSyntax where
  hexPrefixes := ["0x".toList]
  binPrefixes := ["0b".toList]

/-- Number syntax of the PowerPC assembler. -/
def ppcSyntax : NumSyntax where
  hexPrefixes := ["0x".toList]

/-- The number syntaxes of all the assemblers of the repository. -/
def allSyntaxes : List NumSyntax :=
  [intelSyntax, dollarSyntax, dollarSyntax2, armSyntax, mipsSyntax, ppcSyntax]

/-- Every assembler of the repository meets the hypotheses used below. -/
theorem allSyntaxes_ok : ∀ sy ∈ allSyntaxes, Unambiguous sy ∧ PlainDecimal sy ∧ SuffixFree sy := by
  decide +kernel

/-! ## C13 -/

/-- The value of the literal at the heart of a token, with the flag telling whether it was
written in decimal, and the value of the formula around it. -/
def TokenValue (sy : NumSyntax) (ls : Labels) (tok : Str) (x : Int) (dec : Bool) : Prop :=
  ∃ lit, internalParseInteger sy (getMathFormula tok).body = .ok (some (lit, dec)) ∧
    applyMathFormula sy ls (getMathFormula tok).pre (getMathFormula tok).post lit = .ok x

/-- C13: the exact acceptance condition and result.  A value is returned unchanged, except that
a negative decimal in an unsigned context becomes its two's complement. -/
theorem C13_parse_iff (sy : NumSyntax) (ls : Labels) (tok : Str) (n : Nat) (signed : Bool) (v : Int)
    (hn : 1 ≤ n) :
    parseInteger sy ls tok n signed = .ok (some v) ↔
    ∃ x dec, TokenValue sy ls tok x dec ∧
      ((dec = false ∧ 0 ≤ x ∧ x < 2 ^ n ∧ v = x) ∨
       (dec = true ∧ signed = false ∧ 0 ≤ x ∧ x < 2 ^ n ∧ v = x) ∨
       (dec = true ∧ signed = false ∧ -(2 ^ (n - 1)) ≤ x ∧ x < 0 ∧ v = x + 2 ^ n) ∨
       (dec = true ∧ signed = true ∧ -(2 ^ (n - 1)) ≤ x ∧ x < 2 ^ (n - 1) ∧ v = x)) := by
  unfold parseInteger parseIntegerW TokenValue applyMathFormula
  simp only
  constructor
  · intro h
    split at h
    · simp at h
    · simp at h
    · rename_i lit dec hlit
      split at h
      · simp at h
      · rename_i x hx
        split at h
        · simp at h
        · rename_i r hr
          injection h with h; injection h with h; subst h
          refine ⟨x, dec, ⟨lit, hlit, hx⟩, ?_⟩
          rw [checkRange_eq _ _ _ _ hn] at hr
          cases dec <;> cases signed <;> simp only [Bool.false_eq_true, Bool.true_eq_false, if_true, if_false] at hr
          all_goals
            (repeat' split at hr) <;> simp at hr
            all_goals (simp; omega)
  · rintro ⟨x, dec, ⟨lit, hlit, hx⟩, h⟩
    rw [hlit]
    simp only [hx]
    rw [checkRange_eq _ _ _ _ hn]
    rcases h with ⟨rfl, h1, h2, rfl⟩ | ⟨rfl, rfl, h1, h2, rfl⟩ | ⟨rfl, rfl, h1, h2, rfl⟩ | ⟨rfl, rfl, h1, h2, rfl⟩
    · have : ¬ v < 0 := by omega
      simp [this, h2]
    · simp [h1, h2]
    · have : ¬ 0 ≤ x := by omega
      simp [this, h1]
    · simp [h1, h2]

/-- C13: an unsigned result fits the width. -/
theorem C13_unsigned (sy : NumSyntax) (ls : Labels) (tok : Str) (n : Nat) (v : Int) (hn : 1 ≤ n)
    (h : parseInteger sy ls tok n false = .ok (some v)) : 0 ≤ v ∧ v < 2 ^ n := by
  have hp : (0 : Int) < 2 ^ (n - 1) := Int.pow_pos (by decide)
  have h2 : (2 : Int) ^ n = 2 ^ (n - 1) * 2 := by
    obtain ⟨b, rfl⟩ : ∃ b, n = b + 1 := ⟨n - 1, by omega⟩
    simp [Int.pow_succ]
  obtain ⟨x, dec, _, h⟩ := (C13_parse_iff sy ls tok n false v hn).1 h
  rcases h with h | h | h | h
  · omega
  · omega
  · omega
  · simp at h

/-- C13: a signed result lies in `[-2^(n-1), 2^n)`. -/
theorem C13_signed (sy : NumSyntax) (ls : Labels) (tok : Str) (n : Nat) (v : Int) (hn : 1 ≤ n)
    (h : parseInteger sy ls tok n true = .ok (some v)) : -(2 ^ (n - 1)) ≤ v ∧ v < 2 ^ n := by
  have hp : (0 : Int) < 2 ^ (n - 1) := Int.pow_pos (by decide)
  have h2 : (2 : Int) ^ n = 2 ^ (n - 1) * 2 := by
    obtain ⟨b, rfl⟩ : ∃ b, n = b + 1 := ⟨n - 1, by omega⟩
    simp [Int.pow_succ]
  obtain ⟨x, dec, _, h⟩ := (C13_parse_iff sy ls tok n true v hn).1 h
  rcases h with h | h | h | h
  · omega
  · simp at h
  · simp at h
  · omega

/-- C13: a signed result whose literal is written in decimal (no character literal, no
hexadecimal, binary or octal prefix or suffix) is a proper two's complement value. -/
theorem C13_signed_decimal (sy : NumSyntax) (ls : Labels) (tok : Str) (n : Nat) (v : Int) (hn : 1 ≤ n)
    (hq : (getMathFormula tok).body.head? ≠ some '\'')
    (hpre : ∀ p ∈ sy.hexPrefixes ++ sy.binPrefixes ++ sy.octPrefixes, ¬ p <+: (getMathFormula tok).body)
    (hsuf : ∀ s ∈ sy.hexSuffixes ++ sy.binSuffixes ++ sy.octSuffixes, ¬ s <:+ (getMathFormula tok).body)
    (h : parseInteger sy ls tok n true = .ok (some v)) : -(2 ^ (n - 1)) ≤ v ∧ v < 2 ^ (n - 1) := by
  obtain ⟨x, dec, ⟨lit, hlit, _⟩, h⟩ := (C13_parse_iff sy ls tok n true v hn).1 h
  have hdec : dec = true := by
    generalize (getMathFormula tok).body = body at hlit hq hpre hsuf
    have hrest : ∀ r, internalParseInteger.rest sy body = .ok (some r) → r.2 = true := by
      intro r hr
      unfold internalParseInteger.rest at hr
      rw [tryPrefixes_none (ps := sy.hexPrefixes) (fun q hq => hpre q (by simp [hq])),
        tryPrefixes_none (ps := sy.binPrefixes) (fun q hq => hpre q (by simp [hq])),
        tryPrefixes_none (ps := sy.octPrefixes) (fun q hq => hpre q (by simp [hq])),
        trySuffixes_none (ss := sy.hexSuffixes) (fun q hq h => absurd h (hsuf q (by simp [hq]))),
        trySuffixes_none (ss := sy.binSuffixes) (fun q hq h => absurd h (hsuf q (by simp [hq]))),
        trySuffixes_none (ss := sy.octSuffixes) (fun q hq h => absurd h (hsuf q (by simp [hq])))] at hr
      simp only [orTry] at hr
      have hp : ∀ (l : List Str) r, tryPrefixes 10 true body l = some (.ok r) → r.2 = true := by
        intro l
        induction l with
        | nil => intro r h; simp [tryPrefixes] at h
        | cons p l ih =>
          intro r h
          simp only [tryPrefixes] at h
          split at h
          · split at h <;> simp at h
            rw [← h]
          · exact ih r h
      have hs : ∀ (l : List Str) r, trySuffixes 10 true body l = some (.ok r) → r.2 = true := by
        intro l
        induction l with
        | nil => intro r h; simp [trySuffixes] at h
        | cons p l ih =>
          intro r h
          simp only [trySuffixes] at h
          split at h
          · split at h <;> simp at h
            rw [← h]
          · exact ih r h
      split at hr
      · rename_i r' he
        injection hr with hr; injection hr with hr; subst hr
        split at he
        · rename_i x he'; injection he with he; subst he; exact hp _ _ he'
        · exact hs _ _ he
      · simp at hr
      · split at hr <;> simp at hr
        rw [← hr]
    unfold internalParseInteger at hlit
    split at hlit
    · simp at hlit
    · simp at hq
    · exact hrest _ hlit
  subst hdec
  rcases h with h | h | h | h <;> simp at h <;> omega

/-- C13: what is not accepted is rejected with a range error, never truncated. -/
theorem C13_reject (sy : NumSyntax) (ls : Labels) (tok : Str) (n : Nat) (signed : Bool) (x : Int) (dec : Bool)
    (hn : 1 ≤ n) (hx : TokenValue sy ls tok x dec)
    (hno : ∀ v, parseInteger sy ls tok n signed ≠ .ok (some v)) :
    parseInteger sy ls tok n signed = .error (if dec = false ∧ x < 0 then .negativeSignNotAllowed else .notInBitRange) := by
  obtain ⟨lit, hlit, hx⟩ := hx
  unfold applyMathFormula at hx
  unfold parseInteger parseIntegerW at *
  simp only [hlit, hx] at *
  cases hc : checkRange x dec n signed with
  | ok r => rw [hc] at hno; exact absurd rfl (hno r)
  | error e =>
    rw [checkRange_eq _ _ _ _ hn] at hc
    simp only
    cases dec <;> cases signed <;> simp only [Bool.false_eq_true, Bool.true_eq_false, if_true, if_false, true_and, false_and] at * <;>
      (repeat' split at hc) <;> simp_all <;> omega

example : parseInteger dollarSyntax [] "$FF".toList 8 false = .ok (some 255) ∧
    parseInteger dollarSyntax [] "-128".toList 8 true = .ok (some (-128)) ∧
    parseInteger dollarSyntax [] "$80".toList 8 true = .ok (some 128) ∧
    parseInteger dollarSyntax [] "-1".toList 16 false = .ok (some 0xFFFF) := by decide +kernel
example : TokenValue dollarSyntax [] "$100".toList 256 false ∧
    parseInteger dollarSyntax [] "$100".toList 8 false = .error .notInBitRange :=
  ⟨⟨256, by decide +kernel, by decide +kernel⟩, by decide +kernel⟩

/-! ## C14 -/

theorem parse_plain (sy : NumSyntax) (ls : Labels) (tok : Str) (n : Nat) (s : Bool) (v : Int) (d : Bool)
    (hf : ∀ c ∈ tok, isOp c = false) (hp : ∀ c, tok.head? = some c → isPre c = false)
    (h : internalParseInteger sy tok = .ok (some (v, d))) :
    parseInteger sy ls tok n s = (checkRange v d n s).map some := by
  unfold parseInteger parseIntegerW applyMathW
  simp only [getMathFormula_plain tok hf hp, h, splitOps, applyOps]
  simp only [applyPre, List.foldl_nil, Bool.false_eq_true, if_false]
  cases checkRange v d n s <;> rfl

/-- What `parse_integer` does with a literal of natural value `v`: returned when it fits
(a decimal in signed context must be below `2^(n-1)`), rejected otherwise. -/
def literalResult (n : Nat) (signed dec : Bool) (v : Nat) : Except Err (Option Int) :=
  if v < 2 ^ (if signed && dec then n - 1 else n) then .ok (some v) else .error .notInBitRange

theorem checkRange_nat (v : Nat) (d : Bool) (n : Nat) (s : Bool) (hn : 1 ≤ n) :
    (checkRange v d n s).map some = literalResult n s d v := by
  have hc : ∀ m : Nat, ((v : Int) < 2 ^ m) ↔ v < 2 ^ m := by
    intro m
    rw [show (2 : Int) ^ m = ((2 ^ m : Nat) : Int) by simp]
    exact Int.ofNat_lt
  have hp : (0 : Int) < 2 ^ (n - 1) := Int.pow_pos (by decide)
  have h1 : ¬ ((v : Int) < 0) := by omega
  have h2 : (0 : Int) ≤ v := by omega
  have h3 : -(2 ^ (n - 1)) ≤ (v : Int) := by omega
  rw [checkRange_eq _ _ _ _ hn]
  unfold literalResult
  cases d <;> cases s <;> simp only [hc, h1, h2, h3, Bool.false_eq_true, Bool.true_eq_false, if_true, if_false,
    Bool.and_true, Bool.and_false, true_and] <;> split <;> rfl

/-- The prefixes of `sy` for a base, with the flag for decimal. -/
inductive PrefixFor (sy : NumSyntax) : Nat → Bool → Str → Prop
  | hex {p} : p ∈ sy.hexPrefixes → PrefixFor sy 16 false p
  | bin {p} : p ∈ sy.binPrefixes → PrefixFor sy 2 false p
  | oct {p} : p ∈ sy.octPrefixes → PrefixFor sy 8 false p
  | dec {p} : p ∈ sy.decPrefixes → PrefixFor sy 10 true p

/-- The suffixes of `sy` for a base, with the flag for decimal. -/
inductive SuffixFor (sy : NumSyntax) : Nat → Bool → Str → Prop
  | hex {p} : p ∈ sy.hexSuffixes → SuffixFor sy 16 false p
  | bin {p} : p ∈ sy.binSuffixes → SuffixFor sy 2 false p
  | oct {p} : p ∈ sy.octSuffixes → SuffixFor sy 8 false p
  | dec {p} : p ∈ sy.decSuffixes → SuffixFor sy 10 true p

/-- C14: a prefix followed by digits (leading zeros and either case allowed) denotes the number
those digits read in the base of the prefix. -/
theorem C14_prefix (sy : NumSyntax) (ls : Labels) (hu : Unambiguous sy) (base : Nat) (dec : Bool) (p ds : Str)
    (v n : Nat) (signed : Bool) (hn : 1 ≤ n) (hp : PrefixFor sy base dec p) (hr : Reads base ds v) :
    parseInteger sy ls (p ++ ds) n signed = literalResult n signed dec v := by
  have hb : base ≤ 16 := by cases hp <;> omega
  have hmem : p ∈ allPrefixes sy := by cases hp <;> simp [allPrefixes, *]
  obtain ⟨hne, _, hf⟩ := hu.2 p hmem
  have hint := internalParse_prefixed hu (p := p) (body := ds) (base := base) (dec := dec)
    (by cases hp <;> simp [*]) (pyInt_reads hb hr)
  rw [parse_plain sy ls _ n signed _ _ _ _ hint, checkRange_nat _ _ _ _ hn]
  · intro c hc
    simp at hc
    rcases hc with hc | hc
    · exact (formulaChar_false (hf c hc)).1
    · exact (Reads.noFormula hb hr c hc).1
  · intro c hc
    cases p with
    | nil => exact absurd rfl hne
    | cons x xs => simp at hc; subst hc; exact (formulaChar_false (hf x (by simp))).2

/-- C14: the plain decimal numeral. -/
theorem C14_decimal (sy : NumSyntax) (ls : Labels) (hd : PlainDecimal sy) (ds : Str)
    (v n : Nat) (signed : Bool) (hn : 1 ≤ n) (hr : Reads 10 ds v) :
    parseInteger sy ls ds n signed = literalResult n signed true v := by
  have hint := internalParse_decimal hd (Reads.ne_nil hr) (fun c hc => .inl (Reads.digits hr c hc))
    (pyInt_reads (by decide) hr)
  rw [parse_plain sy ls _ n signed _ _ _ _ hint, checkRange_nat _ _ _ _ hn]
  · exact fun c hc => (Reads.noFormula (by decide) hr c hc).1
  · intro c hc
    exact (Reads.noFormula (by decide) hr c (List.mem_of_mem_head? hc)).2

/-- C14: digits followed by a suffix, when the digits are all decimal digits and no prefix
applies. -/
theorem C14_suffix (sy : NumSyntax) (ls : Labels) (hu : SuffixFree sy) (base : Nat) (dec : Bool) (p ds : Str)
    (v n : Nat) (signed : Bool) (hn : 1 ≤ n) (hp : SuffixFor sy base dec p) (hr : Reads base ds v)
    (hdig : ∀ c ∈ ds, c.isDigit = true) (hnp : ∀ q ∈ allPrefixes sy, ¬ q <+: ds ++ p) :
    parseInteger sy ls (ds ++ p) n signed = literalResult n signed dec v := by
  have hb : base ≤ 16 := by cases hp <;> omega
  have hmem : p ∈ allSuffixes sy := by cases hp <;> simp [allSuffixes, *]
  obtain ⟨hne, hf⟩ := hu.2 p hmem
  have hne := Reads.ne_nil hr
  have hint := internalParse_suffixed hu (p := p) (body := ds) (base := base) (dec := dec)
    (by cases hp <;> simp [*]) hnp (by
      cases ds with
      | nil => exact absurd rfl hne
      | cons x xs => simp only [isDigitStr, List.isEmpty_cons, Bool.not_false, Bool.true_and, List.all_eq_true]; exact hdig)
      (pyInt_reads hb hr)
  rw [parse_plain sy ls _ n signed _ _ _ _ hint, checkRange_nat _ _ _ _ hn]
  · intro c hc
    simp at hc
    rcases hc with hc | hc
    · exact (Reads.noFormula hb hr c hc).1
    · exact (formulaChar_false (hf c hc)).1
  · intro c hc
    cases ds with
    | nil => exact absurd rfl hne
    | cons x xs => simp at hc; subst hc; exact (Reads.noFormula hb hr x (by simp)).2

/-- C14: the canonical numeral of `v` after a prefix reads back as `v`, for every assembler of
the repository. -/
theorem C14_round_trip (sy : NumSyntax) (hsy : sy ∈ allSyntaxes) (ls : Labels) (base : Nat) (dec : Bool) (p : Str)
    (v n : Nat) (hn : 1 ≤ n) (hv : v < 2 ^ n) (hp : PrefixFor sy base dec p) :
    parseInteger sy ls (p ++ numeral base v) n false = .ok (some v) ∧
    parseInteger sy ls (numeral 10 v) n false = .ok (some v) := by
  have ok := allSyntaxes_ok sy hsy
  have hb : 1 < base := by cases hp <;> omega
  rw [C14_prefix sy ls ok.1 base dec p _ v n false hn hp (numeral_reads hb v),
    C14_decimal sy ls ok.2.1 _ v n false hn (numeral_reads (by decide) v)]
  simp [literalResult, hv]

/-- C14: the Intel-style `0h` is not zero: the leading `0h` is taken for a prefix and the
conversion of the empty rest raises a raw `ValueError`. -/
theorem C14_zero_suffix_fails : parseInteger intelSyntax [] "0h".toList 8 false = .error .valueError ∧
    parseInteger intelSyntax [] "0b".toList 8 false = .error .valueError ∧
    parseInteger intelSyntax [] "0d".toList 8 false = .error .valueError := by decide +kernel

/-- C14: with a letter among the digits the suffix form is not recognised as a number. -/
theorem C14_hex_suffix_letters : parseInteger intelSyntax [] "ffh".toList 8 false = .ok none := by decide +kernel

example : PrefixFor dollarSyntax 16 false "$".toList ∧ Reads 16 "0fF".toList 255 :=
  ⟨.hex (by decide),
    Reads.snoc (b := 16) (s := "0f".toList) (v := 15) (c := 'F') (d := 15)
      (Reads.snoc (b := 16) (s := "0".toList) (v := 0) (c := 'f') (d := 15)
        (Reads.one (b := 16) (c := '0') (d := 0) ⟨by decide, by decide⟩) ⟨by decide, by decide⟩) ⟨by decide, by decide⟩⟩
example : parseInteger dollarSyntax [] "$0fF".toList 8 false = .ok (some 255) ∧
  parseInteger dollarSyntax [] "%101".toList 8 false = .ok (some 5) ∧
  parseInteger intelSyntax [] "10h".toList 8 false = .ok (some 16) ∧
  parseInteger intelSyntax [] "007".toList 8 false = .ok (some 7) := by decide +kernel
example : ∀ q ∈ allPrefixes intelSyntax, ¬ q <+: "10".toList ++ "h".toList := by decide

/-! ## C15 -/

/-- C15: a negative decimal numeral, in unsigned context. -/
theorem C15_unsigned (sy : NumSyntax) (ls : Labels) (hd : PlainDecimal sy) (ds : Str)
    (k n : Nat) (hk : 1 ≤ k) (hn : 1 ≤ n) (hr : Reads 10 ds k) :
    parseInteger sy ls ('-' :: ds) n false =
      if k ≤ 2 ^ (n - 1) then .ok (some (2 ^ n - k)) else .error .notInBitRange := by
  have hint := internalParse_decimal hd (tok := '-' :: ds) (by simp)
    (by
      intro c hc
      simp at hc
      rcases hc with h | h
      · exact .inr h
      · exact .inl (Reads.digits hr c h))
    (pyInt_neg_reads hr)
  have hmf : getMathFormula ('-' :: ds) = ⟨'-' :: ds, [], []⟩ := by
    simp [getMathFormula, scanPost, isPre, isOp]
  have hc : (-(2 ^ (n - 1)) ≤ (-(k : Int))) ↔ k ≤ 2 ^ (n - 1) := by
    have : (2 : Int) ^ (n - 1) = ((2 ^ (n - 1) : Nat) : Int) := by simp
    rw [this]; omega
  unfold parseInteger parseIntegerW applyMathW
  simp only [hmf, hint, splitOps, applyOps, applyPre, List.foldl_nil]
  simp only [Bool.false_eq_true, if_false]
  rw [checkRange_eq _ _ _ _ hn]
  have h1 : ¬ (0 : Int) ≤ -(k : Int) := by omega
  simp only [Bool.true_eq_false, Bool.false_eq_true, if_false, h1, hc]
  by_cases h : k ≤ 2 ^ (n - 1)
  · simp only [h, if_true]; congr 2; omega
  · simp only [h, if_false]

/-- C15: a negative decimal numeral, in signed context. -/
theorem C15_signed (sy : NumSyntax) (ls : Labels) (hd : PlainDecimal sy) (ds : Str)
    (k n : Nat) (hk : 1 ≤ k) (hn : 1 ≤ n) (hr : Reads 10 ds k) :
    parseInteger sy ls ('-' :: ds) n true =
      if k ≤ 2 ^ (n - 1) then .ok (some (-k)) else .error .notInBitRange := by
  have hint := internalParse_decimal hd (tok := '-' :: ds) (by simp)
    (by
      intro c hc
      simp at hc
      rcases hc with h | h
      · exact .inr h
      · exact .inl (Reads.digits hr c h))
    (pyInt_neg_reads hr)
  have hmf : getMathFormula ('-' :: ds) = ⟨'-' :: ds, [], []⟩ := by
    simp [getMathFormula, scanPost, isPre, isOp]
  have hp : (0 : Int) < 2 ^ (n - 1) := Int.pow_pos (by decide)
  have hc : (-(2 ^ (n - 1)) ≤ (-(k : Int))) ↔ k ≤ 2 ^ (n - 1) := by
    have : (2 : Int) ^ (n - 1) = ((2 ^ (n - 1) : Nat) : Int) := by simp
    rw [this]; omega
  unfold parseInteger parseIntegerW applyMathW
  simp only [hmf, hint, splitOps, applyOps, applyPre, List.foldl_nil]
  simp only [Bool.false_eq_true, if_false]
  rw [checkRange_eq _ _ _ _ hn]
  have h1 : -(k : Int) < 2 ^ (n - 1) := by omega
  simp only [Bool.true_eq_false, if_true, if_false, h1, hc, and_true]
  by_cases h : k ≤ 2 ^ (n - 1) <;> simp only [h, if_true, if_false]

/-- C15: a literal that is not decimal and whose formula gives a negative number. -/
theorem C15_negative_formula (sy : NumSyntax) (ls : Labels) (tok : Str) (n : Nat) (signed : Bool) (x : Int)
    (hn : 1 ≤ n) (hx : TokenValue sy ls tok x false) (hneg : x < 0) :
    parseInteger sy ls tok n signed = .error .negativeSignNotAllowed := by
  obtain ⟨lit, hlit, hx⟩ := hx
  unfold applyMathFormula at hx
  unfold parseInteger parseIntegerW
  simp only [hlit, hx]
  rw [checkRange_eq _ _ _ _ hn]
  simp [hneg]

example : Reads 10 "128".toList 128 := numeral_reads (by decide) 128
example : parseInteger dollarSyntax [] "-128".toList 8 false = .ok (some 128) ∧
    parseInteger dollarSyntax [] "-129".toList 8 false = .error .notInBitRange := by decide +kernel
example : TokenValue dollarSyntax [] "$1-2".toList (-1) false := ⟨1, by decide +kernel, by decide +kernel⟩

/-! ## C16 -/

/-- The value of an operand of a formula: what `parse_integer` or the label table says. -/
def operand (sy : NumSyntax) (ls : Labels) (a : Str) : Except Err Int :=
  if a = [] then .ok 1
  else
    match parseInteger sy ls a 64 false with
    | .error e => .error e
    | .ok (some v) => .ok v
    | .ok none =>
      match labelAddress sy ls a with
      | .error e => .error e
      | .ok (some v) => .ok v
      | .ok none => .error (.unknownLabel a)

theorem evalArg_operand (sy : NumSyntax) (ls : Labels) (a : Str) (h : ∀ c ∈ a, isOp c = false) :
    evalArg sy ls 1 a = operand sy ls a := by
  rw [evalArg, operand, parseInteger, labelAddress,
    parseIntegerW_noOp (evalArg sy ls 0) (evalArg sy ls exprDepth) sy a 64 false h,
    labelAddressW_noOp (evalArg sy ls 0) (evalArg sy ls exprDepth) ls a 0 h]
  rfl

/-- Operands without operator characters, prefix operators, a body that starts a token: the way
a formula is written. -/
structure WrittenFormula (pre body : Str) (ops : List (Op × Str)) : Prop where
  pre : ∀ c ∈ pre, c = '<' ∨ c = '>'
  body_ne : body ≠ []
  body : ∀ c ∈ body, formulaChar c = false
  args : ∀ o ∈ ops, ∀ c ∈ o.2, c ∉ ['+', '-', '*', '/', '&', '|']

theorem evalOps_congr {f g : Str → Except Err Int} {ops : List (Op × Str)} (h : ∀ o ∈ ops, f o.2 = g o.2) :
    ∀ v, evalOps f v ops = evalOps g v ops := by
  induction ops with
  | nil => intro v; rfl
  | cons o ops ih =>
    intro v
    obtain ⟨o, a⟩ := o
    have h1 := h (o, a) (by simp)
    simp only at h1
    simp only [evalOps, h1]
    cases g a with
    | error e => rfl
    | ok x =>
      simp only
      cases o.eval v x with
      | error e => rfl
      | ok v' => exact ih (fun p hp => h p (by simp [hp])) v'

theorem WrittenFormula.decompose {pre body : Str} {ops : List (Op × Str)} (h : WrittenFormula pre body ops) :
    getMathFormula (pre ++ body ++ writeOps ops) = ⟨body, pre, writeOps ops⟩ := by
  apply getMathFormula_eq
  · intro c hc; rcases h.pre c hc with h | h <;> subst h <;> decide
  · exact fun c hc => (formulaChar_false (h.body c hc)).1
  · exact h.body_ne
  · intro c hc
    exact (formulaChar_false (h.body c (List.mem_of_mem_head? hc))).2
  · cases ops with
    | nil => exact .inl rfl
    | cons o ops => exact .inr ⟨o.1.char, _, rfl, Op.isOp o.1⟩

theorem WrittenFormula.args_noOp {pre body : Str} {ops : List (Op × Str)} (h : WrittenFormula pre body ops) :
    ∀ o ∈ ops, ∀ c ∈ o.2, isOp c = false := by
  intro o ho c hc
  have := h.args o ho c hc
  simp at this
  simp [isOp, this]

theorem WrittenFormula.apply {pre body : Str} {ops : List (Op × Str)} (h : WrittenFormula pre body ops)
    (sy : NumSyntax) (ls : Labels) (v : Int) :
    applyMathW (evalArg sy ls exprDepth) pre (writeOps ops) v = evalOps (operand sy ls) (applyPre pre v) ops := by
  unfold applyMathW
  rw [splitOps_none_write ops h.args_noOp, applyOps_write]
  exact evalOps_congr (fun o ho => evalArg_operand sy ls o.2 (h.args_noOp o ho)) _

/-- C16: a formula around a number is evaluated strictly from left to right, then range
checked.  `C17` gives the meaning of the prefix operators. -/
theorem C16_number (sy : NumSyntax) (ls : Labels) (pre body : Str) (ops : List (Op × Str)) (n : Nat) (signed : Bool)
    (lit : Int) (dec : Bool) (hw : WrittenFormula pre body ops)
    (hlit : internalParseInteger sy body = .ok (some (lit, dec))) :
    parseInteger sy ls (pre ++ body ++ writeOps ops) n signed =
      match evalOps (operand sy ls) (applyPre pre lit) ops with
      | .error e => .error e
      | .ok x => (checkRange x dec n signed).map some := by
  unfold parseInteger parseIntegerW
  simp only [hw.decompose, hlit, hw.apply]
  cases evalOps (operand sy ls) (applyPre pre lit) ops with
  | error e => rfl
  | ok x => simp only; cases checkRange x dec n signed <;> rfl

/-- C16: the same for a formula around a label. -/
theorem C16_label (sy : NumSyntax) (ls : Labels) (pre body : Str) (ops : List (Op × Str)) (l : LabelInfo)
    (hw : WrittenFormula pre body ops) (hl : ls.lookup body = some l) :
    labelAddress sy ls (pre ++ body ++ writeOps ops) =
      (evalOps (operand sy ls) (applyPre pre (l.org + l.base)) ops).map some := by
  have h0 : l.org + l.base - 0 = l.org + l.base := by omega
  unfold labelAddress labelAddressW
  simp only [hw.decompose, dget_eq_lookup, hl, hw.apply, LabelInfo.address, h0]
  cases evalOps (operand sy ls) (applyPre pre (l.org + l.base)) ops <;> rfl

/-- C16: relative references subtract the start before the formula is applied. -/
theorem C16_label_relative (sy : NumSyntax) (ls : Labels) (pre body : Str) (ops : List (Op × Str)) (l : LabelInfo)
    (start : Int) (hw : WrittenFormula pre body ops) (hl : ls.lookup body = some l) :
    labelRelative sy ls (pre ++ body ++ writeOps ops) start =
      (evalOps (operand sy ls) (applyPre pre (l.org + l.base - start)) ops).map some := by
  unfold labelRelative labelAddressW
  simp only [hw.decompose, dget_eq_lookup, hl, hw.apply, LabelInfo.address]
  cases evalOps (operand sy ls) (applyPre pre (l.org + l.base - start)) ops <;> rfl

/-- C16: a formula around something that is no label has no address. -/
theorem C16_not_label (sy : NumSyntax) (ls : Labels) (pre body : Str) (ops : List (Op × Str))
    (hw : WrittenFormula pre body ops) (hl : ls.lookup body = none) :
    labelAddress sy ls (pre ++ body ++ writeOps ops) = .ok none := by
  unfold labelAddress labelAddressW
  simp only [hw.decompose, dget_eq_lookup, hl]

/-- C16: an operator without operand uses one. -/
theorem C16_operand_missing (sy : NumSyntax) (ls : Labels) : operand sy ls [] = .ok 1 := by
  simp [operand]

/-- C16: a numeric operand. -/
theorem C16_operand_number (sy : NumSyntax) (ls : Labels) (hu : Unambiguous sy) (base : Nat) (dec : Bool) (p ds : Str)
    (v : Nat) (hv : v < 2 ^ 64) (hp : PrefixFor sy base dec p) (hr : Reads base ds v) :
    operand sy ls (p ++ ds) = .ok v := by
  have hne := Reads.ne_nil hr
  have : p ++ ds ≠ [] := by simp [hne]
  rw [operand, if_neg this, C14_prefix sy ls hu base dec p ds v 64 false (by decide) hp hr]
  simp [literalResult, hv]

/-- C16: a plain decimal operand. -/
theorem C16_operand_decimal (sy : NumSyntax) (ls : Labels) (hd : PlainDecimal sy) (ds : Str)
    (v : Nat) (hv : v < 2 ^ 64) (hr : Reads 10 ds v) : operand sy ls ds = .ok v := by
  rw [operand, if_neg (Reads.ne_nil hr), C14_decimal sy ls hd ds v 64 false (by decide) hr]
  simp [literalResult, hv]

/-- C16: an operand that is not a number and names a label. -/
theorem C16_operand_label (sy : NumSyntax) (ls : Labels) (name : Str) (l : LabelInfo)
    (hne : name ≠ []) (hch : ∀ c ∈ name, formulaChar c = false)
    (hnum : internalParseInteger sy name = .ok none) (hl : ls.lookup name = some l) :
    operand sy ls name = .ok (l.org + l.base) := by
  have hw : WrittenFormula [] name [] := ⟨by simp, hne, hch, by simp⟩
  have h1 := C16_label sy ls [] name [] l hw hl
  have h2 := hw.decompose
  simp only [writeOps, List.nil_append, List.flatMap_nil, List.append_nil] at h1 h2
  rw [operand, if_neg hne]
  unfold parseInteger parseIntegerW
  simp only [h2, hnum, h1]
  simp [evalOps, applyPre, Except.map]

/-- C16: an operand that is neither a number nor a label is reported by name. -/
theorem C16_operand_unknown (sy : NumSyntax) (ls : Labels) (name : Str)
    (hne : name ≠ []) (hch : ∀ c ∈ name, formulaChar c = false)
    (hnum : internalParseInteger sy name = .ok none) (hl : ls.lookup name = none) :
    operand sy ls name = .error (.unknownLabel name) := by
  have hw : WrittenFormula [] name [] := ⟨by simp, hne, hch, by simp⟩
  have h1 := C16_not_label sy ls [] name [] hw hl
  have h2 := hw.decompose
  simp only [writeOps, List.nil_append, List.flatMap_nil, List.append_nil] at h1 h2
  rw [operand, if_neg hne]
  unfold parseInteger parseIntegerW
  simp only [h2, hnum, h1]

/-- C16: the bitwise operators act on every bit of the two's complement representation. -/
theorem C16_and_bits (x y : Int) (i : Nat) :
    ∃ z, Op.eval .and x y = .ok z ∧ bit z i = (bit x i && bit y i) := ⟨_, rfl, bit_pyAnd x y i⟩

theorem C16_or_bits (x y : Int) (i : Nat) :
    ∃ z, Op.eval .or x y = .ok z ∧ bit z i = (bit x i || bit y i) := ⟨_, rfl, bit_pyOr x y i⟩

example : WrittenFormula ">".toList "end".toList [(.sub, "start".toList), (.mul, "2".toList), (.add, [])] := by
  constructor <;> decide
example : writeOps [(.sub, "start".toList), (.mul, "2".toList), (.add, [])] = "-start*2+".toList := by decide
/-- `2+3*4` is 20, not 14; `7/2` is 3; a missing operand counts 1; a negative label difference
divides towards minus infinity. -/
example : parseInteger dollarSyntax [] "2+3*4".toList 8 false = .ok (some 20) ∧
    parseInteger dollarSyntax [] "7/2".toList 8 false = .ok (some 3) ∧
    parseInteger dollarSyntax [] "7+".toList 8 false = .ok (some 8) ∧
    parseInteger dollarSyntax [] "1-8/2".toList 8 true = .ok (some (-4)) ∧
    parseInteger dollarSyntax [] "1/0".toList 8 true = .error .zeroDivisionError ∧
    parseInteger dollarSyntax [] "1+nope".toList 8 true = .error (.unknownLabel "nope".toList) ∧
    parseInteger dollarSyntax [("a".toList, ⟨2, 0x100, none⟩)] "1+a".toList 16 true = .ok (some 0x103) := by
  decide +kernel

/-! ## C17 -/

/-- C17: `k` times `>` divides by `256^k`, rounding down. -/
theorem C17_high (k : Nat) (v : Int) : applyPre (List.replicate k '>') v = v / 256 ^ k := by
  simp [applyPre, applyPre_foldl_gt]

/-- C17: `k ≥ 1` times `<` keeps the low `k` bytes. -/
theorem C17_low (k : Nat) (hk : 1 ≤ k) (v : Int) : applyPre (List.replicate k '<') v = v % 256 ^ k := by
  obtain ⟨k, rfl⟩ : ∃ j, k = j + 1 := ⟨k - 1, by omega⟩
  simp only [applyPre, applyPre_lt_start, if_true]

/-- C17: `>` before `<` selects bytes from the middle. -/
theorem C17_middle (j k : Nat) (hk : 1 ≤ k) (v : Int) :
    applyPre (List.replicate j '>' ++ List.replicate k '<') v = v / 256 ^ j % 256 ^ k := by
  obtain ⟨k, rfl⟩ : ∃ j, k = j + 1 := ⟨k - 1, by omega⟩
  simp only [applyPre, List.foldl_append, applyPre_foldl_gt, applyPre_lt_start, if_true]

example : applyPre ">".toList 0x1234 = 0x12 ∧ applyPre "<".toList 0x1234 = 0x34 ∧
    applyPre ">".toList (-1) = -1 ∧ applyPre "<".toList (-1) = 0xFF ∧ applyPre "><".toList 0x123456 = 0x34 := by
  decide +kernel

/-! ## C18 -/

/-- C18: more than one level of nested operand evaluation never changes the result of
`parse_integer`... -/
theorem C18_depth (sy : NumSyntax) (ls : Labels) (d : Nat) (tok : Str) (bits : Nat) (signed : Bool) :
    parseIntegerW (evalArg sy ls (d + 1)) sy tok bits signed = parseInteger sy ls tok bits signed := by
  unfold parseInteger parseIntegerW exprDepth
  simp only [applyMathW_depth sy ls d]

/-- ... nor of a label lookup. -/
theorem C18_depth_label (sy : NumSyntax) (ls : Labels) (d : Nat) (tok : Str) (start : Int) :
    labelAddressW (evalArg sy ls (d + 1)) ls tok start = labelRelative sy ls tok start := by
  unfold labelRelative labelAddressW exprDepth
  simp only [applyMathW_depth sy ls d]

/-- C18: the depth limit of the model is never hit. -/
theorem C18_no_recursion (sy : NumSyntax) (ls : Labels) (tok : Str) (bits : Nat) (signed : Bool) :
    parseInteger sy ls tok bits signed ≠ .error .recursionError := by
  intro h
  have := parseIntegerW_err (fun p hp e he =>
    evalArg_err (splitOps_noOp _ none [] (by simp) p hp) he) h
  simp [exprErr] at this

theorem C18_no_recursion_label (sy : NumSyntax) (ls : Labels) (tok : Str) (start : Int) :
    labelRelative sy ls tok start ≠ .error .recursionError := by
  intro h
  have := labelAddressW_err (fun p hp e he =>
    evalArg_err (splitOps_noOp _ none [] (by simp) p hp) he) h
  simp [exprErr] at this

example : parseInteger dollarSyntax [("a".toList, ⟨1, 0, none⟩)] "1+a*a-a|$10".toList 8 false = .ok (some 17) := by
  decide +kernel

end Necro
