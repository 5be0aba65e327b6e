import Verif.Lemmas.Pack
import Verif.Spec.Utils

namespace Necro
open Spec

theorem pyAnd_mask' (x : Int) (k : Nat) : pyAnd x ((2 ^ k - 1 : Nat) : Int) = x % 2 ^ k := pyAnd_mask x k

theorem inBitRange_iff (v : Int) (n : Nat) : inBitRange v n = true ↔ 0 ≤ v ∧ v < 2 ^ n := by
  have hp : (0 : Int) < 2 ^ n := Int.pow_pos (by decide)
  simp only [inBitRange, pyAnd_mask', decide_eq_true_eq]
  constructor
  · intro h
    have h1 := Int.emod_nonneg v (b := 2 ^ n) (by omega)
    have h2 := Int.emod_lt_of_pos v hp
    omega
  · intro h; exact Int.emod_eq_of_lt h.1 h.2

theorem inBitRangeDecimal_iff (v : Int) (n : Nat) (hn : 1 ≤ n) (s : Bool) :
    inBitRangeDecimal v n s = true ↔ -(2 ^ (n - 1)) ≤ v ∧ v < (if s then 2 ^ (n - 1) else 2 ^ n) := by
  obtain ⟨b, rfl⟩ : ∃ b, n = b + 1 := ⟨n - 1, by omega⟩
  have hp : (0 : Int) < 2 ^ b := Int.pow_pos (by decide)
  have hc : ((2 ^ (b + 1) : Nat) : Int) = 2 ^ b * 2 := by simp [Int.pow_succ]
  have hd : (2 : Int) ^ b * 2 / 2 = 2 ^ b := by omega
  simp only [inBitRangeDecimal, hc, hd, Nat.add_sub_cancel]
  by_cases hv : v < 0
  · by_cases h2 : v + 2 ^ b * 2 < 2 ^ b
    · simp only [hv, h2, if_true]
      cases s <;> simp [Int.pow_succ] <;> omega
    · simp only [hv, h2, if_true, if_false, inBitRange_iff]
      cases s <;> simp [Int.pow_succ] <;> omega
  · have : 0 ≤ v := by omega
    cases s <;> simp [hv, this, inBitRange_iff, Int.pow_succ] <;> omega

/-- The range of values accepted for a field. -/
theorem packBitsStep_ok_iff (base : Int) (f : BitField) :
    (∃ r, packBitsStep base f = .ok r) ↔
      f.lo ≤ f.hi ∧ -(2 ^ (f.hi - f.lo)) ≤ f.value ∧ f.value < 2 ^ (f.hi - f.lo + 1) := by
  obtain ⟨hi, lo, v⟩ := f
  simp only [packBitsStep]
  by_cases h : hi < lo
  · simp [h]; omega
  · have hc : ((2 ^ (hi - lo + 1) : Nat) : Int) = 2 ^ (hi - lo) * 2 := by simp [Int.pow_succ]
    have hp : (0 : Int) < 2 ^ (hi - lo) := Int.pow_pos (by decide)
    simp only [h, if_false, hc]
    have hd : (2 : Int) ^ (hi - lo) * 2 / 2 = 2 ^ (hi - lo) := by omega
    rw [hd]
    by_cases hv : v < 0
    · by_cases h2 : v + 2 ^ (hi - lo) * 2 < 2 ^ (hi - lo)
      · simp only [hv, h2, if_true]; simp; omega
      · simp only [hv, h2, if_true, if_false, Int.pow_succ]
        by_cases h3 : inBitRange (v + 2 ^ (hi - lo) * 2) (hi - lo + 1) = true
        · simp [h3]; rw [inBitRange_iff, Int.pow_succ] at h3; omega
        · simp only [h3, Bool.not_false]
          rw [inBitRange_iff, Int.pow_succ] at h3
          simp; omega
    · simp only [hv, if_false]
      by_cases h3 : inBitRange v (hi - lo + 1) = true
      · simp [h3]; rw [inBitRange_iff, Int.pow_succ] at h3; simp only [Int.pow_succ]; omega
      · simp only [h3, Bool.not_false]
        rw [inBitRange_iff] at h3
        simp only [Int.pow_succ] at h3 ⊢
        simp; omega

theorem packBitsStep_error (base : Int) (f : BitField) :
    (∃ r, packBitsStep base f = .ok r) ∨ packBitsStep base f = .error .invalidBitRange := by
  unfold packBitsStep
  simp only
  (repeat' split) <;> simp

theorem bit_add_mul_pow (v c : Int) (k i : Nat) (h : i < k) : bit (v + c * 2 ^ k) i = bit v i := by
  have e : (v + c * 2 ^ k) % 2 ^ k = v % 2 ^ k := by simp
  have h1 := bit_emod_pow v k i
  have h2 := bit_emod_pow (v + c * 2 ^ k) k i
  rw [e, h1] at h2
  simpa [h] using h2.symm

theorem packBitsStep_bit (base : Int) (f : BitField) (r : Int) (h : packBitsStep base f = .ok r) (i : Nat) :
    bit r i = (bit base i || (decide (f.lo ≤ i ∧ i ≤ f.hi) && bit f.value (i - f.lo))) := by
  obtain ⟨hi, lo, v⟩ := f
  simp only [packBitsStep] at h
  by_cases hlt : hi < lo
  · simp [hlt] at h
  have key : ∀ w : Int, (∀ j, j ≤ hi - lo → bit w j = bit v j) →
      bit (pyOr base (pyAnd (pyShl w lo) (2 ^ (hi + 1) - 1 : Nat))) i =
      (bit base i || (decide (lo ≤ i ∧ i ≤ hi) && bit v (i - lo))) := by
    intro w hw
    rw [bit_pyOr, pyAnd_mask', bit_emod_pow, bit_pyShl]
    by_cases h1 : lo ≤ i <;> by_cases h2 : i ≤ hi
    · have : i < hi + 1 := by omega
      simp [h1, h2, this, hw (i - lo) (by omega)]
    · have : ¬ i < hi + 1 := by omega
      simp [h1, h2, this]
    · simp [h1]
    · simp [h1]
  simp only [hlt, if_false] at h
  by_cases hv : v < 0
  · simp only [hv, if_true] at h
    split at h
    · simp at h
    split at h
    · simp at h
    · injection h with h; subst h
      apply key
      intro j hj
      have := bit_add_mul_pow v 1 (hi - lo + 1) j (by omega)
      simpa using this
  · simp only [hv, if_false] at h
    split at h
    · simp at h
    · injection h with h; subst h
      exact key v (fun _ _ => rfl)

theorem nameChar_eq (c : Char) : isNameChar c = nameChar c := by
  simp only [isNameChar, nameChar, Char.isAlphanum, Char.isAlpha, Char.isUpper, Char.isLower, Char.isDigit]
  have e : ∀ a b : Char, (a ≤ b) ↔ (b.val ≥ a.val) := fun a b => Iff.rfl
  simp only [e]
  simp only [Bool.decide_and]
  have : ∀ a b : Char, decide (a = b) = (a == b) := by intro a b; rfl
  rw [this, this]
  have e1 : ('a' : Char).val = 97 := rfl
  have e2 : ('z' : Char).val = 122 := rfl
  have e3 : ('A' : Char).val = 65 := rfl
  have e4 : ('Z' : Char).val = 90 := rfl
  have e5 : ('0' : Char).val = 48 := rfl
  have e6 : ('9' : Char).val = 57 := rfl
  simp only [e1, e2, e3, e4, e5, e6, ge_iff_le]
  generalize (c == '_') = x1
  generalize (c == '.') = x2
  generalize decide ((97 : UInt32) ≤ c.val) = x3
  generalize decide (c.val ≤ (122 : UInt32)) = x4
  generalize decide ((65 : UInt32) ≤ c.val) = x5
  generalize decide (c.val ≤ (90 : UInt32)) = x6
  generalize decide ((48 : UInt32) ≤ c.val) = x7
  generalize decide (c.val ≤ (57 : UInt32)) = x8
  revert x1 x2 x3 x4 x5 x6 x7 x8
  decide

theorem subScan_spec (d : List (Str × Str)) (s : Str) : ∀ (acc out : Str),
    (∀ c ∈ acc, nameChar c = true) → ∃ t, subScan d acc out s = out ++ t ∧ Subst (subRun d) (acc ++ s) t := by
  induction s with
  | nil =>
    intro acc out hacc
    simp only [subScan]
    by_cases ha : acc = []
    · subst ha; exact ⟨[], by simp, .nil⟩
    · refine ⟨subRun d acc, by simp [ha], ?_⟩
      have := Subst.run (look := subRun d) acc [] [] ha hacc (by simp) .nil
      simpa using this
  | cons c cs ih =>
    intro acc out hacc
    simp only [subScan, nameChar_eq]
    by_cases hc : nameChar c = true
    · simp only [hc, if_true]
      obtain ⟨t, h1, h2⟩ := ih (acc ++ [c]) out (by
        intro x hx; simp at hx; rcases hx with hx | hx
        · exact hacc x hx
        · subst hx; exact hc)
      exact ⟨t, h1, by simpa using h2⟩
    · simp only [hc]
      have hc' : nameChar c = false := by simpa using hc
      by_cases ha : acc = []
      · subst ha
        obtain ⟨t, h1, h2⟩ := ih [] (out ++ [c]) (by simp)
        refine ⟨c :: t, by simp [h1], ?_⟩
        exact .sep c cs t hc' (by simpa using h2)
      · obtain ⟨t, h1, h2⟩ := ih [] (out ++ subRun d acc ++ [c]) (by simp)
        refine ⟨subRun d acc ++ c :: t, by simp [ha] at h1 ⊢; exact h1, ?_⟩
        apply Subst.run acc (c :: cs) (c :: t) ha hacc
        · intro x hx; simp at hx; subst hx; exact hc'
        · exact .sep c cs t hc' (by simpa using h2)

theorem run_split_unique (p : Char → Bool) : ∀ (r r' s s' : Str),
    (∀ c ∈ r, p c = true) → (∀ c ∈ r', p c = true) →
    (∀ c, s.head? = some c → p c = false) → (∀ c, s'.head? = some c → p c = false) →
    r ++ s = r' ++ s' → r = r' ∧ s = s' := by
  intro r
  induction r with
  | nil =>
    intro r' s s' _ h2 h3 _ h
    cases r' with
    | nil => exact ⟨rfl, by simpa using h⟩
    | cons x r' =>
      exfalso
      simp at h; subst h
      have := h3 x (by simp)
      have := h2 x (by simp)
      simp_all
  | cons x r ih =>
    intro r' s s' h1 h2 h3 h4 h
    cases r' with
    | nil =>
      exfalso
      simp at h; subst h
      have := h4 x (by simp)
      have := h1 x (by simp)
      simp_all
    | cons y r' =>
      simp at h
      obtain ⟨rfl, h⟩ := h
      have := ih r' s s' (fun c hc => h1 c (by simp [hc])) (fun c hc => h2 c (by simp [hc])) h3 h4 h
      exact ⟨by rw [this.1], this.2⟩

theorem subst_unique {look : Str → Str} {s t : Str} (h : Subst look s t) :
    ∀ {t'}, Subst look s t' → t = t' := by
  induction h with
  | nil =>
    intro t' h'
    generalize he : ([] : Str) = e at h'
    cases h' with
    | nil => rfl
    | sep => simp at he
    | run r s t hr => cases r with
      | nil => exact absurd rfl hr
      | cons x r => simp at he
  | sep c s t hc hs ih =>
    intro t' h'
    generalize he : c :: s = e at h'
    cases h' with
    | nil => simp at he
    | sep c' s' t'' hc' hs' =>
      simp at he; obtain ⟨rfl, rfl⟩ := he
      rw [ih hs']
    | run r s' t'' hr hall _ _ =>
      cases r with
      | nil => simp at hr
      | cons x r =>
        simp at he
        have := hall x (by simp)
        rw [← he.1, hc] at this
        simp at this
  | run r s t hr hall hmax hs ih =>
    intro t' h'
    generalize he : r ++ s = e at h'
    cases h' with
    | nil => cases r with
      | nil => exact absurd rfl hr
      | cons x r => simp at he
    | sep c s' t'' hc' hs' =>
      cases r with
      | nil => simp at hr
      | cons x r =>
        simp at he
        have := hall x (by simp)
        rw [he.1, hc'] at this
        simp at this
    | run r' s' t'' hr' hall' hmax' hs' =>
      obtain ⟨rfl, rfl⟩ := run_split_unique nameChar r r' s s' hall hall' hmax hmax' he
      rw [ih hs']

theorem dget_eq_lookup {α : Type} (d : List (Str × α)) (k : Str) : dget d k = d.lookup k := by
  induction d with
  | nil => rfl
  | cons x d ih =>
    obtain ⟨k', v⟩ := x
    simp only [dget, List.lookup, ih]
    by_cases h : k' = k
    · subst h; simp
    · have : (k == k') = false := by simpa using fun h' => h h'.symm
      simp [h, this]

theorem subRun_eq (d : List (Str × Str)) : subRun d = lookupRun d := by
  funext r
  simp only [subRun, lookupRun, dget_eq_lookup]
  cases d.lookup r <;> rfl

theorem substitute_getElem (tokens : List Str) (d : List (Str × Str)) (start i : Nat) (hi : start ≤ i) :
    (substituteWithDict tokens d start)[i]? = tokens[i]?.map (subToken d) := by
  simp only [substituteWithDict]
  by_cases h : i < tokens.length
  · rw [List.getElem?_append_right (by simp; omega)]
    have : i - (tokens.take start).length = i - start := by simp; omega
    rw [this, List.getElem?_map, List.getElem?_drop]
    congr 2; omega
  · rw [List.getElem?_eq_none (by simp; omega), List.getElem?_eq_none (by omega)]; rfl

theorem subst_id_of_fixed {look : Str → Str} {s t : Str} (h : Subst look s t)
    (hl : ∀ pre r post, s = pre ++ r ++ post → r ≠ [] → (∀ c ∈ r, nameChar c = true) →
      (∀ c, post.head? = some c → nameChar c = false) →
      (∀ c, pre.getLast? = some c → nameChar c = false) → look r = r) : t = s := by
  induction h with
  | nil => rfl
  | sep c s t hc hs ih =>
    rw [ih]
    intro pre r post he hr hall hpost hpre
    refine hl (c :: pre) r post (by simp [he]) hr hall hpost ?_
    intro x hx
    rw [List.getLast?_cons] at hx
    cases hp : pre.getLast? with
    | none => rw [hp] at hx; simp at hx; rw [← hx]; exact hc
    | some y => rw [hp] at hx; simp at hx; rw [← hx]; exact hpre y hp
  | run r s t hr hall hmax hs ih =>
    rw [hl [] r s (by simp) hr hall hmax (by simp), ih]
    intro pre r' post he hr' hall' hpost hpre
    by_cases hp : pre = []
    · subst hp
      exfalso
      cases r' with
      | nil => exact hr' rfl
      | cons x r' =>
        have := hmax x (by simp [he])
        rw [hall' x (by simp)] at this; simp at this
    · refine hl (r ++ pre) r' post (by simp [he]) hr' hall' hpost ?_
      intro x hx
      rw [List.getLast?_append] at hx
      cases hq : pre.getLast? with
      | none => simp at hq; exact absurd hq hp
      | some y => rw [hq] at hx; simp at hx; rw [← hx]; exact hpre y hq

theorem Pat.matches_iff (tok : Str) (p : Pat) : p.matches tok = true ↔ Accepts tok p := by
  cases p <;> simp only [Pat.matches, Bool.or_eq_true, List.any_eq_true, decide_eq_true_eq] <;> simp only [Accepts] <;> rfl

theorem Pat.matches₀_iff (tok : Str) (p : Pat) : p.matches₀ tok = true ↔ Accepts₀ tok p := by
  cases p <;> simp only [Pat.matches₀, List.any_eq_true, decide_eq_true_eq] <;> simp only [Accepts₀, Accepts] <;> rfl

theorem matchAll_iff (ts : List Str) (ps : List Pat) : matchAll ts ps = true ↔
    ts.length = ps.length ∧ ∀ (i : Nat) t p, ts[i]? = some t → ps[i]? = some p → Accepts t p := by
  induction ts generalizing ps with
  | nil =>
    cases ps <;> simp [matchAll]
  | cons t ts ih =>
    cases ps with
    | nil => simp [matchAll]
    | cons p ps =>
      simp only [matchAll, Bool.and_eq_true, ih, Pat.matches_iff, List.length_cons]
      constructor
      · rintro ⟨h1, h2, h3⟩
        refine ⟨by omega, ?_⟩
        intro i t' p' ht hp
        cases i with
        | zero => simp at ht hp; subst ht hp; exact h1
        | succ i => exact h3 i t' p' (by simpa using ht) (by simpa using hp)
      · rintro ⟨h1, h2⟩
        exact ⟨h2 0 t p (by simp) (by simp), by omega, fun i t' p' ht hp => h2 (i+1) t' p' (by simpa using ht) (by simpa using hp)⟩

theorem matchPrefix_iff (ts : List Str) (ps : List Pat) : matchPrefix ts ps = true ↔
    ps.length ≤ ts.length ∧ ∀ (i : Nat) t p, ts[i]? = some t → ps[i]? = some p → Accepts t p := by
  induction ts generalizing ps with
  | nil => cases ps <;> simp [matchPrefix]
  | cons t ts ih =>
    cases ps with
    | nil => simp [matchPrefix]
    | cons p ps =>
      simp only [matchPrefix, Bool.and_eq_true, ih, Pat.matches_iff, List.length_cons]
      constructor
      · rintro ⟨h1, h2, h3⟩
        refine ⟨by omega, ?_⟩
        intro i t' p' ht hp
        cases i with
        | zero => simp at ht hp; subst ht hp; exact h1
        | succ i => exact h3 i t' p' (by simpa using ht) (by simpa using hp)
      · rintro ⟨h1, h2⟩
        exact ⟨h2 0 t p (by simp) (by simp), by omega, fun i t' p' ht hp => h2 (i+1) t' p' (by simpa using ht) (by simpa using hp)⟩

theorem matchUtil_iff (ts : List Str) (ps : List Pat) : matchUtil ts ps = true ↔
    ts.length = ps.length ∧ ∀ (i : Nat) t p, ts[i]? = some t → ps[i]? = some p → Accepts₀ t p := by
  induction ts generalizing ps with
  | nil =>
    cases ps <;> simp [matchUtil]
  | cons t ts ih =>
    cases ps with
    | nil => simp [matchUtil]
    | cons p ps =>
      simp only [matchUtil, Bool.and_eq_true, ih, Pat.matches₀_iff, List.length_cons]
      constructor
      · rintro ⟨h1, h2, h3⟩
        refine ⟨by omega, ?_⟩
        intro i t' p' ht hp
        cases i with
        | zero => simp at ht hp; subst ht hp; exact h1
        | succ i => exact h3 i t' p' (by simpa using ht) (by simpa using hp)
      · rintro ⟨h1, h2⟩
        exact ⟨h2 0 t p (by simp) (by simp), by omega, fun i t' p' ht hp => h2 (i+1) t' p' (by simpa using ht) (by simpa using hp)⟩

end Necro
