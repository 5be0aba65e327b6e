import Verif.Lemmas.ThumbTable
import Verif.Spec.Instr
import Verif.Lemmas.Mips32
import Verif.Lemmas.Lr35902
/-!
# The Thumb assembler
-/

namespace Necro
open Spec

/-! ## registers and other operand patterns -/

theorem thReg_lt {t : Str} {n : Nat} (h : ThReg t n) : n < 16 := by
  obtain ⟨s, hs, -⟩ := h
  rcases Nat.lt_or_ge n 16 with h | h
  · exact h
  · rw [List.getD_eq_getElem?_getD, List.getElem?_eq_none (by simpa [thRegNames] using h)] at hs
    simp at hs

theorem thReg_unique {t : Str} {n k : Nat} (h : ThReg t n) (h' : ThReg t k) : n = k := by
  have hn := thReg_lt h
  have hk := thReg_lt h'
  obtain ⟨s, hs, he⟩ := h
  obtain ⟨s', hs', he'⟩ := h'
  have : ∀ n, n < 16 → ∀ k, k < 16 → ∀ s ∈ thRegNames.getD n [], ∀ s' ∈ thRegNames.getD k [], upper s.toList = upper s'.toList → n = k := by
    decide +kernel
  exact this n hn k hk s hs s' hs' (Eq.trans (Eq.symm he) he')

/-- The names of the registers `a .. b - 1`, as a pattern. -/
theorem reg_pattern {l : List Str} {a b : Nat}
    (h1 : (l.all fun x => (List.range b).any fun n => decide (a ≤ n) && (thRegNames.getD n []).any fun s => decide (s.toList = x)) = true)
    (h2 : ((List.range b).all fun n => decide (n < a) || (thRegNames.getD n []).all fun s => decide (s.toList ∈ l)) = true) (t : Str) :
    (Pat.coll l).matches t = true ↔ ∃ n, a ≤ n ∧ n < b ∧ ThReg t n := by
  simp only [Pat.matches, List.any_eq_true, decide_eq_true_eq]
  simp only [List.all_eq_true, List.any_eq_true, List.mem_range, Bool.and_eq_true, Bool.or_eq_true, decide_eq_true_eq] at h1 h2
  constructor
  · rintro ⟨x, hx, h⟩
    obtain ⟨n, hn, ha, s, hs, rfl⟩ := h1 x hx
    exact ⟨n, ha, hn, s, hs, h⟩
  · rintro ⟨n, ha, hn, s, hs, h⟩
    rcases h2 n hn with h' | h'
    · omega
    · exact ⟨_, h' s hs, h⟩

theorem matches_low (t : Str) : ThOp.low.pat.matches t = true ↔ ∃ n, n < 8 ∧ ThReg t n := by
  rw [show ThOp.low.pat = .coll thLow from rfl, reg_pattern (a := 0) (b := 8) (by decide +kernel) (by decide +kernel)]
  simp

theorem matches_high (t : Str) : ThOp.high.pat.matches t = true ↔ ∃ n, 8 ≤ n ∧ ThReg t n := by
  rw [show ThOp.high.pat = .coll thHigh from rfl, reg_pattern (a := 8) (b := 16) (by decide +kernel) (by decide +kernel)]
  exact ⟨fun ⟨n, h1, _, h3⟩ => ⟨n, h1, h3⟩, fun ⟨n, h1, h3⟩ => ⟨n, h1, thReg_lt h3, h3⟩⟩

theorem matches_pc (t : Str) : ThOp.pc.pat.matches t = true ↔ ThReg t 15 := by
  rw [show ThOp.pc.pat = .coll ["pc".toList, "r15".toList] from rfl, reg_pattern (a := 15) (b := 16) (by decide +kernel) (by decide +kernel)]
  exact ⟨fun ⟨n, h1, h2, h3⟩ => (show n = 15 by omega) ▸ h3, fun h => ⟨15, by decide, by decide, h⟩⟩

theorem matches_sp (t : Str) : ThOp.sp.pat.matches t = true ↔ ThReg t 13 := by
  rw [show ThOp.sp.pat = .coll ["sp".toList, "r13".toList] from rfl, reg_pattern (a := 13) (b := 14) (by decide +kernel) (by decide +kernel)]
  exact ⟨fun ⟨n, h1, h2, h3⟩ => (show n = 13 by omega) ▸ h3, fun h => ⟨13, by decide, by decide, h⟩⟩

theorem thLowReg_of {t : Str} {n : Nat} (hn : n < 8) (h : ThReg t n) (c : Ctx) : thLowReg t c = (.ok (n : Int), []) := by
  obtain ⟨s, hs, he⟩ := h
  have : ∀ n, n < 8 → ∀ s ∈ thRegNames.getD n [], thHigh.contains (lower s.toList) = false ∧ thLow.findIdx? (· == lower s.toList) = some n := by
    decide +kernel
  obtain ⟨h1, h2⟩ := this n hn s hs
  unfold thLowReg
  rw [lower_eq_of_upper_eq he, h1, h2]
  rfl

theorem thHighReg_of {t : Str} {n : Nat} (hn : 8 ≤ n) (h : ThReg t n) (c : Ctx) : thHighReg t c = (.ok ((n - 8 : Nat) : Int), []) := by
  have hlt := thReg_lt h
  obtain ⟨s, hs, he⟩ := h
  have : ∀ n, n < 16 → 8 ≤ n → ∀ s ∈ thRegNames.getD n [],
      (thAlias.findIdx? (· == lower s.toList) = some (n - 11) ∧ 11 ≤ n) ∨
      (thAlias.findIdx? (· == lower s.toList) = none ∧ thLow.contains (lower s.toList) = false ∧
        thHighTrue.findIdx? (· == lower s.toList) = some (n - 8)) := by
    decide +kernel
  unfold thHighReg
  rw [lower_eq_of_upper_eq he]
  rcases this n hlt hn s hs with ⟨h1, h2⟩ | ⟨h1, h2, h3⟩
  · rw [h1]
    show (Except.ok (((n - 11 : Nat) : Int) + 3), []) = _
    rw [show (((n - 11 : Nat) : Int) + 3) = ((n - 8 : Nat) : Int) by omega]
  · rw [h1, h2, h3]; rfl

theorem matches_hash (t : Str) : ThOp.imm.pat.matches t = true ↔ ∃ u, u ≠ [] ∧ t = '#' :: u := by
  rw [show ThOp.imm.pat = .pred fun t => decide (1 < t.length) && startsWith t ['#'] from rfl, matches_pred]
  match t with
  | [] => simp
  | [a] => simp
  | a :: b :: u =>
    simp only [List.length_cons, startsWith, List.isPrefixOf, Bool.and_true, Bool.and_eq_true, decide_eq_true_eq, beq_iff_eq]
    constructor
    · rintro ⟨-, rfl⟩; exact ⟨_, by simp, rfl⟩
    · rintro ⟨u', -, h⟩; simp at h; exact ⟨by omega, h.1.symm⟩

theorem matches_offset (hi : Nat) (t : Str) : (ThOp.offset hi).pat.matches t = true ↔ t ≠ [] ∧ t.head? ≠ some '#' := by
  rw [show (ThOp.offset hi).pat = .pred fun t => !t.isEmpty && !startsWith t ['#'] from rfl, matches_pred]
  match t with
  | [] => simp
  | a :: u =>
    simp only [startsWith, List.isPrefixOf, Bool.and_true, Bool.and_eq_true, List.isEmpty_cons, Bool.not_false, true_and,
      Bool.not_eq_true', beq_eq_false_iff_ne, ne_eq, List.head?_cons, Option.some.injEq, reduceCtorEq, not_false_eq_true]
    exact ⟨fun h e => h e.symm, fun h e => h e.symm⟩

theorem matches_bracket (r : Char) (h1 : r.isLower = false) (h2 : r.toUpper = r) (h3 : r.toLower = r) (t : Str) :
    (Pat.str [r]).matches t = true ↔ t = [r] := by
  rw [matches_str t r h1 h2 (by rw [h3, h2]), decide_eq_true_eq]
  unfold Reg; rw [h3]; simp

theorem matches_lb (t : Str) : ThOp.lb.pat.matches t = true ↔ t = ['['] := matches_bracket '[' (by decide) (by decide) (by decide) t
theorem matches_rb (t : Str) : ThOp.rb.pat.matches t = true ↔ t = [']'] := matches_bracket ']' (by decide) (by decide) (by decide) t

theorem reads_of_digits {t : Str} : t ≠ [] → (∀ c ∈ t, c.isDigit = true) → ∃ n, Reads 10 t n := by
  have dig : ∀ c : Char, c.isDigit = true → ∃ d, IsDigit 10 d c := by
    intro c hc
    simp only [Char.isDigit, Bool.and_eq_true, decide_eq_true_eq] at hc
    have h1 : 48 ≤ c.val.toNat := hc.1
    have h2 : c.val.toNat ≤ 57 := hc.2
    refine ⟨c.val.toNat - 48, by omega, .inl ?_⟩
    have : ∀ k, k < 10 → (Nat.digitChar k).val.toNat = k + 48 := by decide
    apply Char.ext
    apply UInt32.toNat_inj.1
    rw [this _ (by omega)]; omega
  have : ∀ (u : Str), u ≠ [] → (∀ c ∈ u, c.isDigit = true) → ∃ n, Reads 10 u.reverse n := by
    intro u
    induction u with
    | nil => intro h; exact absurd rfl h
    | cons a u ih =>
      intro _ h
      obtain ⟨d, hd⟩ := dig a (h a (by simp))
      cases u with
      | nil => exact ⟨d, .one hd⟩
      | cons b u =>
        obtain ⟨n, hn⟩ := ih (by simp) (fun c hc => h c (by simp only [List.mem_cons] at hc ⊢; exact .inr hc))
        rw [List.reverse_cons]
        exact ⟨_, .snoc hn hd⟩
  intro h1 h2
  obtain ⟨n, hn⟩ := this t.reverse (by simpa using h1) (fun c hc => h2 c (by simpa using hc))
  rw [List.reverse_reverse] at hn
  exact ⟨n, hn⟩

theorem matches_num (t : Str) : ThOp.num.pat.matches t = true ↔ ∃ n, Reads 10 t n := by
  rw [show ThOp.num.pat = .pred isDigitStr from rfl, matches_pred]
  simp only [isDigitStr, Bool.and_eq_true, Bool.not_eq_true', List.isEmpty_eq_false_iff, List.all_eq_true]
  constructor
  · rintro ⟨h1, h2⟩; exact reads_of_digits h1 h2
  · rintro ⟨n, h⟩
    have dig : ∀ {d : Nat} {c : Char}, IsDigit 10 d c → c.isDigit = true := by
      rintro d c ⟨hd, hc⟩
      have : ∀ k, k < 10 → (Nat.digitChar k).isDigit = true ∧ (Nat.digitChar k).toUpper.isDigit = true := by decide
      rcases hc with rfl | rfl
      · exact (this d hd).1
      · exact (this d hd).2
    induction h with
    | one h => exact ⟨by simp, by simpa using dig h⟩
    | snoc _ h ih => exact ⟨by simp, by intro c hc; rcases List.mem_append.1 hc with hc | hc; exact ih.2 c hc; rw [List.mem_singleton.1 hc]; exact dig h⟩

/-! ## matching and converting -/

/-- The tokens match the operands, and converting them gives `vs`. -/
inductive ThToks (c : Ctx) : List ThOp → List Str → List Int → List Reloc → Prop
  | nil : ThToks c [] [] [] []
  | skip {o os t ts vs rs} : o.conv = none → o.pat.matches t = true → ThToks c os ts vs rs → ThToks c (o :: os) (t :: ts) vs rs
  | read {o os t ts v vs r rs f} : o.conv = some f → o.pat.matches t = true → f t c = (.ok v, r) → ThToks c os ts vs rs →
      ThToks c (o :: os) (t :: ts) (v :: vs) (r ++ rs)

theorem ThToks.of {c : Ctx} {os : List ThOp} : ∀ {ts : List Str} {vs : List Int} {rels : List Reloc},
    matchAll ts (os.map ThOp.pat) = true → thApply os ts c = (.ok vs, rels) → ThToks c os ts vs rels := by
  induction os with
  | nil =>
    intro ts vs rels hm h
    cases ts with
    | nil => cases h; exact .nil
    | cons t ts => simp [matchAll] at hm
  | cons o os ih =>
    intro ts vs rels hm h
    cases ts with
    | nil => simp [matchAll] at hm
    | cons t ts =>
      simp only [List.map_cons, matchAll, Bool.and_eq_true] at hm
      rw [thApply] at h
      cases hc : o.conv with
      | none => rw [hc] at h; exact .skip hc hm.1 (ih hm.2 h)
      | some f =>
        rw [hc] at h
        obtain ⟨v, r, r', h1, h2, rfl⟩ := H.bind_ok h
        obtain ⟨vs', r1, r2, h3, h4, rfl⟩ := H.bind_ok h2
        cases h4
        rw [List.append_nil]
        exact .read hc hm.1 h1 (ih hm.2 h3)

theorem ThToks.matches {c : Ctx} {os : List ThOp} {ts : List Str} {vs : List Int} {rels : List Reloc} (h : ThToks c os ts vs rels) :
    matchAll ts (os.map ThOp.pat) = true := by
  induction h with
  | nil => rfl
  | skip _ h _ ih => simp [matchAll, h, ih]
  | read _ h _ _ ih => simp [matchAll, h, ih]

theorem ThToks.apply {c : Ctx} {os : List ThOp} {ts : List Str} {vs : List Int} {rels : List Reloc} (h : ThToks c os ts vs rels) :
    thApply os ts c = (.ok vs, rels) := by
  induction h with
  | nil => rfl
  | skip hc _ _ ih => rw [thApply, hc]; exact ih
  | read hc _ hf _ ih =>
    rw [thApply, hc]
    show (_ >>= _ : H _) _ = _
    rw [H.bind_of hf (H.bind_of ih rfl)]
    simp

theorem ThForm.build_ok {f : ThForm} {t : Str} {rest : List Str} {c : Ctx} {blob : Bytes} {rels : List Reloc}
    (h : f.build (t :: rest) c = (.ok (some blob), rels)) :
    f.bad = false ∧ ∃ vs, thApply f.ops rest c = (.ok vs, rels) ∧ packBitsLe16u f.base (f.fields.map (ThField.bits vs)) = .ok blob := by
  obtain ⟨vs, r, r', h1, h2, rfl⟩ := H.bind_ok (show (thApply f.ops ((t :: rest).drop 1) >>= fun vs => _) c = _ from h)
  cases hb : f.bad with
  | true => rw [hb] at h2; cases h2
  | false =>
    rw [hb] at h2
    obtain ⟨b, r1, r2, h3, h4, rfl⟩ := H.bind_ok (show (H.lift _ >>= fun b => _) c = _ from h2)
    cases h4
    rw [H.lift_apply] at h3
    obtain ⟨h5, h6⟩ := Prod.mk.inj h3
    subst h6
    refine ⟨rfl, vs, ?_, h5⟩
    rw [List.append_nil, List.append_nil]; exact h1

theorem ThForm.build_of {f : ThForm} {t : Str} {rest : List Str} {c : Ctx} {blob : Bytes} {rels : List Reloc} {vs : List Int}
    (hb : f.bad = false) (h1 : thApply f.ops rest c = (.ok vs, rels))
    (h2 : packBitsLe16u f.base (f.fields.map (ThField.bits vs)) = .ok blob) : f.build (t :: rest) c = (.ok (some blob), rels) := by
  unfold ThForm.build
  rw [H.bind_of (show thApply f.ops ((t :: rest).drop 1) c = _ from h1) (r' := []) (x := .ok (some blob)), List.append_nil]
  rw [hb]
  show (H.lift _ >>= fun b => _) c = _
  rw [H.bind_run (show (H.lift _ : H Bytes) c = (.ok blob, []) from by rw [H.lift_apply, h2])]
  rfl

theorem thRun_ok {fs : List ThForm} {t : Str} {rest : List Str} {c : Ctx} {blob : Bytes} {rels : List Reloc}
    (h : thRun fs (t :: rest) c = (.ok (some blob), rels)) :
    ∃ f ∈ fs, matchAll rest (f.ops.map ThOp.pat) = true ∧ f.build (t :: rest) c = (.ok (some blob), rels) := by
  induction fs with
  | nil => cases h
  | cons f fs ih =>
    rw [thRun, instrMatch_cons] at h
    cases hm : matchAll rest (f.ops.map ThOp.pat) with
    | true => rw [hm, if_pos rfl] at h; exact ⟨f, by simp, hm, h⟩
    | false =>
      rw [hm, if_neg (by decide)] at h
      obtain ⟨g, hg, h⟩ := ih h
      exact ⟨g, by simp [hg], h⟩

/-! ## the steps of a method exclude one another -/

def ThOp.cls : ThOp → Nat × Nat
  | .low => (0, 8)
  | .high => (8, 16)
  | .pc => (15, 16)
  | .sp => (13, 14)
  | _ => (0, 0)

def ThOp.isReg (o : ThOp) : Bool := decide (o.cls.1 < o.cls.2)

def ThOp.isHash : ThOp → Bool
  | .imm => true
  | .word => true
  | _ => false

theorem isReg_reg {o : ThOp} (h : o.isReg = true) {t : Str} (hm : o.pat.matches t = true) : ∃ n, o.cls.1 ≤ n ∧ n < o.cls.2 ∧ ThReg t n := by
  cases o with
  | low => obtain ⟨n, h1, h2⟩ := (matches_low t).1 hm; exact ⟨n, Nat.zero_le _, h1, h2⟩
  | high => obtain ⟨n, h1, h2⟩ := (matches_high t).1 hm; exact ⟨n, h1, thReg_lt h2, h2⟩
  | pc => exact ⟨15, Nat.le_refl _, by decide, (matches_pc t).1 hm⟩
  | sp => exact ⟨13, Nat.le_refl _, by decide, (matches_sp t).1 hm⟩
  | imm => cases h
  | word => cases h
  | lb => cases h
  | rb => cases h
  | num => cases h
  | offset _ => cases h

theorem isHash_hash {o : ThOp} (h : o.isHash = true) {t : Str} (hm : o.pat.matches t = true) : ∃ u, u ≠ [] ∧ t = '#' :: u := by
  cases o with
  | imm => exact (matches_hash t).1 hm
  | word => exact (matches_hash t).1 hm
  | _ => cases h

theorem thReg_not_hash {u : Str} {n : Nat} (h : ThReg ('#' :: u) n) : False := by
  have hn := thReg_lt h
  obtain ⟨s, hs, he⟩ := h
  have : ∀ n, n < 16 → ∀ s ∈ thRegNames.getD n [], (upper s.toList).head? ≠ some '#' := by decide +kernel
  apply this n hn s hs
  have he' : upper ('#' :: u) = upper s.toList := he
  rw [← he']; rfl

def thDisjoint (o o' : ThOp) : Bool :=
  (o.isReg && o'.isReg && (decide (o.cls.2 ≤ o'.cls.1) || decide (o'.cls.2 ≤ o.cls.1))) || (o.isReg && o'.isHash) || (o.isHash && o'.isReg)

theorem thDisjoint_false {o o' : ThOp} (h : thDisjoint o o' = true) {t : Str} (h1 : o.pat.matches t = true) (h2 : o'.pat.matches t = true) :
    False := by
  simp only [thDisjoint, Bool.or_eq_true, Bool.and_eq_true, decide_eq_true_eq] at h
  rcases h with (⟨⟨a, b⟩, h⟩ | ⟨a, b⟩) | ⟨a, b⟩
  · obtain ⟨n, x1, x2, hn⟩ := isReg_reg a h1
    obtain ⟨k, y1, y2, hk⟩ := isReg_reg b h2
    have := thReg_unique hn hk
    omega
  · obtain ⟨n, -, -, hn⟩ := isReg_reg a h1
    obtain ⟨u, -, rfl⟩ := isHash_hash b h2
    exact thReg_not_hash hn
  · obtain ⟨n, -, -, hn⟩ := isReg_reg b h2
    obtain ⟨u, -, rfl⟩ := isHash_hash a h1
    exact thReg_not_hash hn

def thClash : List ThOp → List ThOp → Bool
  | [], [] => false
  | o :: os, o' :: os' => thDisjoint o o' || thClash os os'
  | _, _ => true

theorem thClash_false {os : List ThOp} : ∀ {os' : List ThOp} {ts : List Str}, thClash os os' = true → matchAll ts (os.map ThOp.pat) = true →
    matchAll ts (os'.map ThOp.pat) = true → False := by
  induction os with
  | nil =>
    intro os' ts h h1 h2
    cases os' with
    | nil => cases h
    | cons _ _ => cases ts <;> simp [matchAll] at h1 h2
  | cons o os ih =>
    intro os' ts h h1 h2
    cases ts with
    | nil => simp [matchAll] at h1
    | cons t ts =>
      cases os' with
      | nil => simp [matchAll] at h2
      | cons o' os' =>
        simp only [List.map_cons, matchAll, Bool.and_eq_true] at h1 h2
        simp only [thClash, Bool.or_eq_true] at h
        rcases h with h | h
        · exact thDisjoint_false h h1.1 h2.1
        · exact ih h h1.2 h2.2

def thExclusive : List ThForm → Bool
  | [] => true
  | f :: fs => fs.all (fun g => thClash f.ops g.ops) && thExclusive fs

theorem thTable_exclusive : (thTable.all fun p => thExclusive p.2) = true := by decide +kernel

theorem thRun_of {fs : List ThForm} (hx : thExclusive fs = true) {f : ThForm} (hf : f ∈ fs) {t : Str} {rest : List Str}
    (hm : matchAll rest (f.ops.map ThOp.pat) = true) : thRun fs (t :: rest) = f.build (t :: rest) := by
  induction fs with
  | nil => cases hf
  | cons g fs ih =>
    simp only [thExclusive, Bool.and_eq_true, List.all_eq_true] at hx
    rw [thRun, instrMatch_cons]
    rcases List.mem_cons.1 hf with rfl | hf'
    · rw [hm, if_pos rfl]
    · cases hg : matchAll rest (g.ops.map ThOp.pat) with
      | true => exact (thClash_false (hx.1 f hf') hg hm).elim
      | false => rw [if_neg (by decide)]; exact ih hx.2 hf'

/-! ## the word of a form -/

/-- What a field contains. -/
def ThField.raw (vs : List Int) (f : ThField) : Nat :=
  match f.src with
  | .const n => n
  | .val i sh => (pyShr (vs.getD i 0) sh % 2 ^ f.width).toNat

/-- The fields of a form lie on clear bits, apart from one another and inside the word. -/
def thSane (f : ThForm) : Bool :=
  f.fields.all (fun g => decide (g.lo ≤ g.hi) && decide (g.hi < 16) && (List.range 16).all fun i => !(decide (g.lo ≤ i ∧ i ≤ g.hi)) || !f.base.testBit i) &&
  decide (f.fields.Pairwise fun a b => a.hi < b.lo ∨ b.hi < a.lo) &&
  decide (f.base + (f.fields.map fun g => (2 ^ g.width - 1) * 2 ^ g.lo).foldr (· + ·) 0 < 2 ^ 16) &&
  f.fields.all fun g => match g.src with | .const n => decide (n < 2 ^ g.width) | .val _ _ => true

theorem thTable_sane : (thTable.all fun p => p.2.all thSane) = true := by decide +kernel

theorem ThField.bits_hi (vs : List Int) (g : ThField) : (g.bits vs).hi = g.hi := by unfold ThField.bits; cases g.src <;> rfl
theorem ThField.bits_lo (vs : List Int) (g : ThField) : (g.bits vs).lo = g.lo := by unfold ThField.bits; cases g.src <;> rfl

theorem pow_cast (n : Nat) : ((2 ^ n : Nat) : Int) = 2 ^ n := by simp

theorem ThField.part (vs : List Int) (g : ThField) (hc : (match g.src with | .const n => decide (n < 2 ^ g.width) | .val _ _ => true) = true) :
    fieldPart (g.bits vs) = ((g.raw vs * 2 ^ g.lo : Nat) : Int) ∧ g.raw vs < 2 ^ g.width := by
  have hp : (0 : Int) < 2 ^ g.width := Int.pow_pos (by decide)
  unfold ThField.bits ThField.raw fieldPart
  rw [Int.natCast_mul, pow_cast]
  cases hs : g.src with
  | const n =>
    rw [hs] at hc
    simp only [decide_eq_true_eq] at hc
    refine ⟨?_, hc⟩
    show (n : Int) % 2 ^ g.width * 2 ^ g.lo = _
    rw [Int.emod_eq_of_lt (by omega) (by rw [← pow_cast]; omega)]
  | val i sh =>
    show _ ∧ (pyShr (vs.getD i 0) sh % 2 ^ g.width).toNat < 2 ^ g.width
    have h1 := Int.emod_nonneg (pyShr (vs.getD i 0) sh) (Int.ne_of_gt hp)
    have h2 := Int.emod_lt_of_pos (pyShr (vs.getD i 0) sh) hp
    refine ⟨?_, ?_⟩
    · show pyShr (vs.getD i 0) sh % 2 ^ g.width * 2 ^ g.lo = ((pyShr (vs.getD i 0) sh % 2 ^ g.width).toNat : Int) * 2 ^ g.lo
      rw [Int.toNat_of_nonneg h1]
    · have := pow_cast g.width; omega

theorem thWordOf_sum (vs : List Int) (fs : List ThField) : ∀ base,
    thWordOf base fs (fs.map (ThField.raw vs)) = base + (fs.map fun g => g.raw vs * 2 ^ g.lo).foldr (· + ·) 0 := by
  induction fs with
  | nil => intro base; simp [thWordOf]
  | cons f fs ih => intro base; simp only [List.map_cons, thWordOf, ih, List.foldr_cons]; omega

theorem thSum (vs : List Int) (fs : List ThField)
    (h : ∀ g ∈ fs, (match g.src with | .const n => decide (n < 2 ^ g.width) | .val _ _ => true) = true) :
    ((fs.map (ThField.bits vs)).map fieldPart).foldr (· + ·) 0 = (((fs.map fun g => g.raw vs * 2 ^ g.lo).foldr (· + ·) 0 : Nat) : Int) ∧
    (fs.map fun g => g.raw vs * 2 ^ g.lo).foldr (· + ·) 0 ≤ (fs.map fun g => (2 ^ g.width - 1) * 2 ^ g.lo).foldr (· + ·) 0 := by
  induction fs with
  | nil => simp
  | cons f fs ih =>
    obtain ⟨i1, i2⟩ := ih (fun g hg => h g (by simp [hg]))
    obtain ⟨p1, p2⟩ := f.part vs (h f (by simp))
    simp only [List.map_cons, List.foldr_cons]
    refine ⟨?_, ?_⟩
    · rw [i1, p1]; rfl
    · have := Nat.mul_le_mul_right (2 ^ f.lo) (show f.raw vs ≤ 2 ^ f.width - 1 by omega)
      omega

theorem th_packed {f : ThForm} (hs : thSane f = true) {vs : List Int} (hok : ∀ g ∈ f.fields, FieldOk (g.bits vs)) :
    packBitsLe16u f.base (f.fields.map (ThField.bits vs)) = .ok (wordBytes false 2 (thWordOf f.base f.fields (f.fields.map (ThField.raw vs)))) ∧
    thWordOf f.base f.fields (f.fields.map (ThField.raw vs)) < 2 ^ 16 := by
  simp only [thSane, Bool.and_eq_true, List.all_eq_true, decide_eq_true_eq] at hs
  obtain ⟨⟨⟨h1, h2⟩, h3⟩, h4⟩ := hs
  obtain ⟨s1, s2⟩ := thSum vs f.fields h4
  have hlt : thWordOf f.base f.fields (f.fields.map (ThField.raw vs)) < 2 ^ 16 := by rw [thWordOf_sum]; omega
  refine ⟨?_, hlt⟩
  have hsum := packBits_sum (f.fields.map (ThField.bits vs)) (f.base : Int) (by omega)
    (by intro g hg; obtain ⟨k, hk, rfl⟩ := List.mem_map.1 hg; exact hok k hk)
    (by
      intro g hg i hl hh
      obtain ⟨k, hk, rfl⟩ := List.mem_map.1 hg
      rw [k.bits_lo] at hl; rw [k.bits_hi] at hh
      obtain ⟨⟨_, h16⟩, h⟩ := h1 k hk
      have := h i (by simp; omega)
      simp only [hl, hh, and_self, decide_true, Bool.not_true, Bool.false_or, Bool.not_eq_true'] at this
      rw [bit_natCast]; exact this)
    (by
      rw [List.pairwise_map]
      exact h2.imp (fun {a b} h => by rw [a.bits_hi, a.bits_lo, b.bits_hi, b.bits_lo]; exact h))
  unfold packBitsLe16u
  rw [hsum, s1]
  have := pack16u false ((f.base : Int) + (((f.fields.map fun g => g.raw vs * 2 ^ g.lo).foldr (· + ·) 0 : Nat) : Int)) (by omega)
    (by rw [thWordOf_sum] at hlt; omega)
  simp only [Bool.false_eq_true, if_false] at this
  show packLe16u _ = _
  rw [this, thWordOf_sum]
  rfl

theorem th_packed_ok {f : ThForm} {vs : List Int} {b : Bytes} (h : packBitsLe16u f.base (f.fields.map (ThField.bits vs)) = .ok b) :
    ∀ g ∈ f.fields, FieldOk (g.bits vs) := by
  have : ∃ r, packBits f.base (f.fields.map (ThField.bits vs)) = .ok r := by
    unfold packBitsLe16u at h
    split at h
    · next v hv => exact ⟨v, hv⟩
    · cases h
  intro g hg
  exact (C04_pack_bits_ok_iff _ _).1 this _ (List.mem_map_of_mem hg)

/-! ## reading the table checks -/

theorem thEach_all {fs : List ThField} : ∀ {P : List Nat → Bool}, thEach fs P = true → ∀ {r : ThField → Nat},
    (∀ g ∈ fs, match g.src with | .const n => r g = n | .val _ _ => r g < 2 ^ g.width) → P (fs.map r) = true := by
  induction fs with
  | nil => intro P h r _; exact h
  | cons f fs ih =>
    intro P h r hr
    have hf := hr f (by simp)
    rw [thEach] at h
    cases hs : f.src with
    | const n =>
      rw [hs] at h hf
      have := ih h (fun g hg => hr g (by simp [hg]))
      rw [List.map_cons, show r f = n from hf]
      exact this
    | val i sh =>
      rw [hs] at h hf
      have h' := List.all_eq_true.1 h (r f) (List.mem_range.2 hf)
      exact ih h' (fun g hg => hr g (by simp [hg]))

theorem thSlot_map {fs : List ThField} {r : ThField → Nat} {i : Nat} {g : ThField} (h : fs.find? (ThField.isVal i) = some g) :
    thSlot fs (fs.map r) i = (r g, g.sh) := by
  unfold thSlot
  have : (fs.zip (fs.map r)).find? (fun p => p.1.isVal i) = some (g, r g) := by
    induction fs with
    | nil => cases h
    | cons f fs ih =>
      simp only [List.map_cons, List.zip_cons_cons, List.find?_cons] at h ⊢
      cases hv : f.isVal i with
      | true => rw [hv] at h; cases h; rfl
      | false => rw [hv] at h; exact ih h
  rw [this]

theorem forced_eq (P : Nat → Bool) (n : Nat) : forced P n = P n := by cases n <;> rfl

theorem argEq_eq {a b : TArg} (h : argEq a b = true) : a = b := by
  cases a <;> cases b <;> simp [argEq] at h <;> simp_all

theorem argsEq_eq {a : List TArg} : ∀ {b : List TArg}, argsEq a b = true → a = b := by
  induction a with
  | nil => intro b h; cases b with | nil => rfl | cons => cases h
  | cons x a ih =>
    intro b h
    cases b with
    | nil => cases h
    | cons y b =>
      simp only [argsEq, Bool.and_eq_true] at h
      rw [argEq_eq h.1, ih h.2]

theorem instrEq_eq {op : TOp} {args : List TArg} {i : Option TInstr} (h : instrEq op args i = true) : i = some ⟨op, args⟩ := by
  cases i with
  | none => cases h
  | some i =>
    obtain ⟨o, a⟩ := i
    simp only [instrEq, Bool.and_eq_true] at h
    have : ∀ a b : TOp, a.ctorIdx = b.ctorIdx → a = b := by intro a b h; cases a <;> cases b <;> first | rfl | cases h
    rw [this _ _ (Nat.eq_of_beq_eq_true h.1), argsEq_eq h.2]

theorem thRows : thRowsOk thTable = true := by
  have : thTable = thTable.take 3 ++ ((thTable.drop 3).take 2 ++ ((thTable.drop 5).take 2 ++ ((thTable.drop 7).take 13 ++
    ((thTable.drop 20).take 8 ++ thTable.drop 28)))) := by rfl
  rw [this]
  have ha := rows_a
  have hb := rows_b
  have hc := rows_c
  have hd := rows_d
  have he := rows_e
  have hf := rows_f
  unfold thRowsOk at ha hb hc hd he hf ⊢
  simp only [List.all_append, ha, hb, hc, hd, he, hf, Bool.and_self]

theorem thOp_name {m : String} {op : TOp} (h : thOp m = some op) : op.name = m := by
  have := List.find?_some h
  simpa using this

/-- A row and what its words mean. -/
theorem th_row {m : String} {fs : List ThForm} (hm : (m, fs) ∈ thTable) : ∃ op : TOp, op.name = m ∧ ∀ f ∈ fs, thWrong m f = false →
    ∀ vs, (∀ g ∈ f.fields, FieldOk (g.bits vs)) → thZero m f (f.fields.map (ThField.raw vs)) = false →
    decode16 (thWordOf f.base f.fields (f.fields.map (ThField.raw vs))) =
      some ⟨op, thArgs (thSlot f.fields (f.fields.map (ThField.raw vs))) f.ops 0⟩ := by
  have h := List.all_eq_true.1 thRows (m, fs) hm
  cases ho : thOp m with
  | none => simp [ho] at h
  | some op =>
    simp only [ho, List.all_eq_true, Bool.or_eq_true] at h
    refine ⟨op, thOp_name ho, fun f hf hw vs hok hz => ?_⟩
    have hr := (h f hf).resolve_left (by rw [hw]; decide)
    have hsane := List.all_eq_true.1 (List.all_eq_true.1 thTable_sane _ hm) f hf
    simp only [thSane, Bool.and_eq_true, List.all_eq_true] at hsane
    have := thEach_all hr (r := ThField.raw vs) (fun g hg => by
      have hc := hsane.2 g hg
      have := (g.part vs hc).2
      cases hs : g.src with
      | const n => simp only [ThField.raw, hs]
      | val i sh => exact this)
    rw [hz, Bool.false_or, forced_eq] at this
    exact instrEq_eq this

end Necro
