import Verif.Lemmas.Thumb
/-!
# The operands of a Thumb line
-/

namespace Necro
open Spec

theorem number_bounds {c : Ctx} {tok : Str} {n : Nat} {signed : Bool} {v : Int} (hn : 1 ≤ n)
    (h : parseInteger c.sy c.labels tok n signed = .ok (some v)) :
    ∃ x, OperandValue c [] tok x ∧ (v = x ∨ (x < 0 ∧ v = x + 2 ^ n)) ∧ -(2 ^ (n - 1)) ≤ v ∧ v < 2 ^ n ∧ (signed = false → 0 ≤ v) := by
  obtain ⟨x, dec, hx, hr⟩ := (C13_parse_iff _ _ _ _ _ _ hn).1 h
  have hp : (0 : Int) < 2 ^ (n - 1) := Int.pow_pos (by decide)
  have h2 : (2 : Int) ^ n = 2 ^ (n - 1) * 2 := by rw [← Int.pow_succ]; congr 1; omega
  refine ⟨x, .inl ⟨rfl, dec, hx⟩, ?_⟩
  rcases hr with ⟨_, _, _, h⟩ | ⟨_, _, _, _, h⟩ | ⟨_, _, _, _, h⟩ | ⟨_, hs, _, _, h⟩
  · exact ⟨.inl h, by omega, by omega, by intro; omega⟩
  · exact ⟨.inl h, by omega, by omega, by intro; omega⟩
  · exact ⟨.inr ⟨by omega, h⟩, by omega, by omega, by intro; omega⟩
  · exact ⟨.inl h, by omega, by omega, by simp [hs]⟩

theorem operand_bounds {r : Reloc} {signed : Bool} {c : Ctx} {v : Int} {rels : List Reloc} (hn : 1 ≤ r.bitsSize)
    (h : H.parseIntegerOrLabel r signed c = (.ok v, rels)) :
    ∃ x, OperandValue c rels r.label x ∧ (v = x ∨ (x < 0 ∧ v = x + 2 ^ r.bitsSize)) ∧ -(2 ^ (r.bitsSize - 1)) ≤ v ∧ v < 2 ^ r.bitsSize := by
  rcases H.parseIntegerOrLabel_ok h with ⟨hp, rfl⟩ | ⟨hp, rfl, rfl⟩
  · obtain ⟨x, h1, h2, h3, h4, -⟩ := number_bounds hn hp
    exact ⟨x, h1, h2, h3, h4⟩
  · have h1 : (0 : Int) < 2 ^ (r.bitsSize - 1) := Int.pow_pos (by decide)
    have h2 : (0 : Int) < 2 ^ r.bitsSize := Int.pow_pos (by decide)
    exact ⟨0, .inr ⟨r, rfl, rfl, rfl, parseInteger_none hp⟩, .inl rfl, by omega, h2⟩

theorem thImm_ok {t : Str} {c : Ctx} {v : Int} {rels : List Reloc} (h : thImm t c = (.ok v, rels)) :
    rels = [] ∧ parseInteger c.sy c.labels (t.drop 1) 8 false = .ok (some v) := by
  obtain ⟨o, r, r', h1, h2, rfl⟩ := H.bind_ok (show (H.parseInteger (t.drop 1) 8 false >>= fun o => _) c = _ from h)
  rw [H.parseInteger_apply] at h1
  obtain ⟨h3, h4⟩ := Prod.mk.inj h1
  subst h4
  cases o with
  | none => cases h2
  | some w => cases h2; exact ⟨rfl, h3⟩

theorem thImm_of {t : Str} {c : Ctx} {v : Int} (h : parseInteger c.sy c.labels (t.drop 1) 8 false = .ok (some v)) :
    thImm t c = (.ok v, []) := by
  unfold thImm
  rw [H.bind_run (show H.parseInteger (t.drop 1) 8 false c = (.ok (some v), []) from by rw [H.parseInteger_apply, h])]
  rfl

def thWordRef (t : Str) (pc : Int) : Reloc :=
  { label := t, size := 2, bitsSize := 8, bits := some (7, 0), alignment := 4, filter := some fun x => pyShr x 2, relative := pyAnd (pc + 4) (-3) }

def thOffsetRef (hi : Nat) (t : Str) (pc : Int) : Reloc :=
  { label := t, size := 2, bitsSize := hi + 2, bits := some (hi, 0), filter := some fun x => pyShr x 1, alignment := 2, relative := pc + 4 }

theorem thWord_eq (t : Str) (c : Ctx) : thWord t c = H.parseIntegerOrLabel (thWordRef (t.drop 1) c.pc) false c := rfl
theorem thOffset_eq (hi : Nat) (t : Str) (c : Ctx) : thOffset hi t c = H.parseIntegerOrLabel (thOffsetRef hi t c.pc) false c := rfl

/-- How an operand with a value may be placed in a field of `w` bits after shifting by `sh`; `ldr` and
`br`: whether the method is that of `LDR` or of a branch. -/
def thFits (ldr br : Bool) (o : ThOp) (w sh : Nat) : Bool :=
  match o with
  | .low => w == 3 && sh == 0
  | .high => w == 3 && sh == 0
  | .imm => sh == 0 || (sh == 2 && ldr)
  | .word => w == 8 && sh == 2 && ldr
  | .num => sh == 0
  | .offset hi => w == hi + 1 && sh == 1 && br
  | _ => false

theorem pyShr_div (v : Int) (s : Nat) : pyShr v s = v / 2 ^ s := by
  unfold pyShr; rw [pow_cast]

theorem th_arg_imm {c : Ctx} {t u : Str} {v : Int} {r : List Reloc} (hu : t = '#' :: u)
    {w sh : Nat} (h : thImm t c = (.ok v, r)) (hi : pyShr v sh < 2 ^ w)
    (hx : sh = 0 ∨ (sh = 2 ∧ ∀ x, OperandValue c r u x → 0 ≤ x ∧ x % 4 = 0)) :
    ThArgText (OperandValue c r) (.imm ((pyShr v sh % 2 ^ w).toNat * 2 ^ sh)) [t] := by
  subst hu
  obtain ⟨rfl, hp⟩ := thImm_ok h
  obtain ⟨x, h1, h2, -, h4, h5⟩ := number_bounds (by decide) hp
  have h5 := h5 rfl
  refine .imm h1 ?_
  rw [pyShr_div] at hi ⊢
  rcases hx with rfl | ⟨rfl, hx⟩
  · have e : v / 2 ^ 0 = v := by simp
    rw [e] at hi ⊢
    rw [Int.emod_eq_of_lt h5 hi]
    omega
  · have := hx x h1
    rw [Int.emod_eq_of_lt (by omega) hi]
    omega

theorem th_arg_word {c : Ctx} {t u : Str} {v : Int} {r : List Reloc} (hu : t = '#' :: u) (h : thWord t c = (.ok v, r))
    (hx : ∀ x, OperandValue c r u x → 0 ≤ x ∧ x % 4 = 0) :
    ThArgText (OperandValue c r) (.imm ((pyShr v 2 % 2 ^ 8).toNat * 2 ^ 2)) [t] := by
  subst hu
  rw [thWord_eq] at h
  obtain ⟨x, h1, h2, h3, h4⟩ := operand_bounds (by show 1 ≤ 8; decide) h
  have h1 : OperandValue c r u x := h1
  have h2 : v = x ∨ (x < 0 ∧ v = x + 2 ^ 8) := h2
  have h4 : v < 2 ^ 8 := h4
  refine .imm h1 ?_
  have := hx x h1
  rw [pyShr_div]
  omega

theorem th_arg_offset {c : Ctx} {t : Str} {v : Int} {r : List Reloc} {hi : Nat} (hh : t.head? ≠ some '#') (h : thOffset hi t c = (.ok v, r))
    (hx : ∀ x, OperandValue c r t x → x % 2 = 0) :
    ThArgText (OperandValue c r) (.dist (hi + 2) (toSigned (hi + 1) (pyShr v 1 % 2 ^ (hi + 1)).toNat * 2)) [t] := by
  rw [thOffset_eq] at h
  obtain ⟨x, h1, h2, h3, h4⟩ := operand_bounds (by show 1 ≤ hi + 2; omega) h
  have h1 : OperandValue c r t x := h1
  have h2 : v = x ∨ (x < 0 ∧ v = x + 2 ^ (hi + 2)) := h2
  refine .dist hh h1 ?_
  have hxe := hx x h1
  have hp : (0 : Int) < 2 ^ (hi + 1) := Int.pow_pos (by decide)
  have e : (2 : Int) ^ (hi + 2) = 2 ^ (hi + 1) * 2 := Int.pow_succ 2 (hi + 1)
  have hr := Int.emod_nonneg (pyShr v 1) (Int.ne_of_gt hp)
  rw [e]
  rw [pyShr_div] at hr ⊢
  have hq := Int.mul_ediv_add_emod (v / 2 ^ 1) (2 ^ (hi + 1))
  have ht : toSigned (hi + 1) (v / 2 ^ 1 % 2 ^ (hi + 1)).toNat = v / 2 ^ 1 % 2 ^ (hi + 1) ∨
      toSigned (hi + 1) (v / 2 ^ 1 % 2 ^ (hi + 1)).toNat = v / 2 ^ 1 % 2 ^ (hi + 1) - 2 ^ (hi + 1) := by
    unfold toSigned
    rw [Int.toNat_of_nonneg hr]
    split <;> simp
  rw [e] at h2
  have hv : v / 2 ^ 1 * 2 = v := by rcases h2 with h2 | ⟨-, h2⟩ <;> omega
  generalize toSigned (hi + 1) (v / 2 ^ 1 % 2 ^ (hi + 1)).toNat = T at *
  generalize v / 2 ^ 1 % 2 ^ (hi + 1) = R at *
  generalize hQ : v / 2 ^ 1 / 2 ^ (hi + 1) = Q at *
  generalize v / 2 ^ 1 = V at *
  generalize (2 : Int) ^ (hi + 1) = P at *
  have key : ∃ k, T * 2 = x + P * 2 * k := by
    rcases ht with rfl | rfl <;> rcases h2 with h2 | ⟨-, h2⟩
    · exact ⟨-Q, by grind⟩
    · exact ⟨1 - Q, by grind⟩
    · exact ⟨-Q - 1, by grind⟩
    · exact ⟨-Q, by grind⟩
  obtain ⟨k, hk⟩ := key
  rw [hk, Int.add_mul_emod_self_left]

/-! ## the operands of a whole line -/

def ThOp.vish : ThOp → Bool
  | .imm => true
  | .word => true
  | .offset _ => true
  | _ => false

theorem fixed_conv {o : ThOp} (h : o.conv = none) : ∃ a, o.fixed = some a := by
  cases o <;> first | exact ⟨_, rfl⟩ | cases h

theorem conv_fixed {o : ThOp} {f : Str → H Int} (h : o.conv = some f) : o.fixed = none := by
  cases o <;> first | rfl | cases h

theorem num_ok {t : Str} {c : Ctx} {v : Int} {r : List Reloc} {n : Nat} (hn : Reads 10 t n)
    (h : (match pyInt 10 t with | some v => pure v | none => H.throw .valueError : H Int) c = (.ok v, r)) : v = n ∧ r = [] := by
  rw [pyInt_reads (by decide) hn] at h
  cases h
  exact ⟨rfl, rfl⟩

/-- Operands other than immediates, offsets and distances leave no references. -/
theorem plain_conv {o : ThOp} (ho : o.vish = false) {f : Str → H Int} (hf : o.conv = some f) {t : Str} (hm : o.pat.matches t = true)
    {c : Ctx} {v : Int} {r : List Reloc} (h : f t c = (.ok v, r)) : r = [] := by
  cases o with
  | low =>
    cases hf
    obtain ⟨n, hn, ht⟩ := (matches_low t).1 hm
    rw [thLowReg_of hn ht] at h; cases h; rfl
  | high =>
    cases hf
    obtain ⟨n, hn, ht⟩ := (matches_high t).1 hm
    rw [thHighReg_of hn ht] at h; cases h; rfl
  | num =>
    cases hf
    obtain ⟨n, hn⟩ := (matches_num t).1 hm
    exact (num_ok hn h).2
  | imm => cases ho
  | word => cases ho
  | offset => cases ho
  | pc => cases hf
  | sp => cases hf
  | lb => cases hf
  | rb => cases hf

theorem ThToks.plain {c : Ctx} {os : List ThOp} {ts : List Str} {vs : List Int} {rels : List Reloc} (h : ThToks c os ts vs rels)
    (hv : os.any ThOp.vish = false) : rels = [] := by
  induction h with
  | nil => rfl
  | skip _ _ _ ih => simp only [List.any_cons, Bool.or_eq_false_iff] at hv; exact ih hv.2
  | read h1 h2 h3 _ ih =>
    simp only [List.any_cons, Bool.or_eq_false_iff] at hv
    rw [plain_conv hv.1 h1 h2 h3, ih hv.2]; rfl

/-- Every operand with a value has a field it may be placed in. -/
def thPlaced (ldr br : Bool) (fields : List ThField) : List ThOp → Nat → Bool
  | [], _ => true
  | o :: os, i =>
    match o.fixed with
    | some _ => thPlaced ldr br fields os i
    | none =>
      (match fields.find? (ThField.isVal i) with
       | some g => thFits ldr br o g.width g.sh
       | none => false) && thPlaced ldr br fields os (i + 1)

theorem isVal_src {g : ThField} {i : Nat} (h : g.isVal i = true) : g.src = .val i g.sh := by
  unfold ThField.isVal at h
  unfold ThField.sh
  cases hs : g.src with
  | const n => rw [hs] at h; cases h
  | val j s => rw [hs] at h; simp only [beq_iff_eq] at h; rw [h]

theorem isVal_raw {g : ThField} {i : Nat} (h : g.isVal i = true) (vs : List Int) :
    g.raw vs = (pyShr (vs.getD i 0) g.sh % 2 ^ g.width).toNat := by
  unfold ThField.raw
  rw [isVal_src h]

theorem isVal_bits {g : ThField} {i : Nat} (h : g.isVal i = true) (vs : List Int) :
    g.bits vs = ⟨g.hi, g.lo, pyShr (vs.getD i 0) g.sh⟩ := by
  unfold ThField.bits
  rw [isVal_src h]

theorem th_arg {ldr br : Bool} {o : ThOp} {w sh : Nat} (hfit : thFits ldr br o w sh = true) {f : Str → H Int} (hf : o.conv = some f) {t : Str}
    (hm : o.pat.matches t = true) {c : Ctx} {v : Int} {r R : List Reloc} (h : f t c = (.ok v, r)) (hhi : pyShr v sh < 2 ^ w)
    (hR : o.vish = true → R = r)
    (hq : ldr = true → ∀ u x, t = '#' :: u → OperandValue c R u x → 0 ≤ x ∧ x % 4 = 0)
    (hb : br = true → ∀ x, OperandValue c R t x → x % 2 = 0) :
    ThArgText (OperandValue c R) (o.arg (pyShr v sh % 2 ^ w).toNat sh) [t] := by
  have e0 : ∀ v : Int, pyShr v 0 = v := fun v => by rw [pyShr_div]; simp
  cases o with
  | low =>
    cases hf
    obtain ⟨n, hn, ht⟩ := (matches_low t).1 hm
    rw [thLowReg_of hn ht] at h
    simp only [thFits, Bool.and_eq_true, beq_iff_eq] at hfit
    obtain ⟨rfl, rfl⟩ := hfit
    cases h
    rw [e0]
    have : ((n : Int) % 2 ^ 3).toNat = n := by omega
    rw [this]
    exact .reg ht
  | high =>
    cases hf
    obtain ⟨n, hn, ht⟩ := (matches_high t).1 hm
    rw [thHighReg_of hn ht] at h
    simp only [thFits, Bool.and_eq_true, beq_iff_eq] at hfit
    obtain ⟨rfl, rfl⟩ := hfit
    cases h
    rw [e0]
    have := thReg_lt ht
    have : (((n - 8 : Nat) : Int) % 2 ^ 3).toNat + 8 = n := by omega
    show ThArgText _ (.reg ((((n - 8 : Nat) : Int) % 2 ^ 3).toNat + 8)) _
    rw [this]
    exact .reg ht
  | num =>
    cases hf
    obtain ⟨n, hn⟩ := (matches_num t).1 hm
    obtain ⟨rfl, -⟩ := num_ok hn h
    simp only [thFits, beq_iff_eq] at hfit
    subst hfit
    rw [e0] at hhi ⊢
    rw [Int.emod_eq_of_lt (by omega) hhi]
    exact .num hn
  | imm =>
    cases hf
    obtain ⟨u, hu, rfl⟩ := (matches_hash t).1 hm
    cases hR rfl
    simp only [thFits, Bool.and_eq_true, Bool.or_eq_true, beq_iff_eq] at hfit
    exact th_arg_imm rfl h hhi (hfit.imp id fun h => ⟨h.1, fun x hx => hq h.2 u x rfl hx⟩)
  | word =>
    cases hf
    obtain ⟨u, hu, rfl⟩ := (matches_hash t).1 hm
    cases hR rfl
    simp only [thFits, Bool.and_eq_true, beq_iff_eq] at hfit
    obtain ⟨⟨rfl, rfl⟩, hl⟩ := hfit
    exact th_arg_word rfl h fun x hx => hq hl u x rfl hx
  | offset hi =>
    cases hf
    obtain ⟨h1, h2⟩ := (matches_offset hi t).1 hm
    cases hR rfl
    simp only [thFits, Bool.and_eq_true, beq_iff_eq] at hfit
    obtain ⟨⟨rfl, rfl⟩, hl⟩ := hfit
    exact th_arg_offset h2 h (hb hl)
  | pc => cases hf
  | sp => cases hf
  | lb => cases hf
  | rb => cases hf

theorem th_fixed {o : ThOp} (hf : o.conv = none) {a : TArg} (ha : o.fixed = some a) {t : Str} (hm : o.pat.matches t = true) (value : Str → Int → Prop) :
    ThArgText value a [t] := by
  cases o with
  | pc => cases ha; exact .reg ((matches_pc t).1 hm)
  | sp => cases ha; exact .reg ((matches_sp t).1 hm)
  | lb => cases ha; rw [(matches_lb t).1 hm]; exact .lb
  | rb => cases ha; rw [(matches_rb t).1 hm]; exact .rb
  | _ => cases hf

theorem th_args {c : Ctx} {ldr br : Bool} {fields : List ThField} {all : List Int} {R : List Reloc} (hok : ∀ g ∈ fields, FieldOk (g.bits all))
    {os : List ThOp} {ts : List Str} {vs : List Int} {rs : List Reloc} (h : ThToks c os ts vs rs) : ∀ i, all.drop i = vs →
    thPlaced ldr br fields os i = true → os.countP ThOp.vish ≤ 1 → (os.any ThOp.vish = true → R = rs) →
    (ldr = true → ∀ u x, ('#' :: u) ∈ ts → OperandValue c R u x → 0 ≤ x ∧ x % 4 = 0) →
    (br = true → ∀ t ∈ ts, ∀ x, OperandValue c R t x → x % 2 = 0) →
    ThArgsText (OperandValue c R) (thArgs (thSlot fields (fields.map (ThField.raw all))) os i) ts := by
  induction h with
  | nil => intros; exact .nil
  | @skip o os t ts vs rs hc hm _ ih =>
    intro i hd hp hn hR hq hb
    obtain ⟨a, ha⟩ := fixed_conv hc
    rw [thPlaced, ha] at hp
    rw [thArgs, ha]
    have hv : o.vish = false := by cases o <;> first | rfl | cases hc
    simp only [List.countP_cons, hv, Bool.false_eq_true, if_false, List.any_cons, Bool.false_or] at hn hR
    exact .cons (ts := [t]) (th_fixed hc ha hm _) (ih i hd hp (by omega) hR
      (fun hl u x hu => hq hl u x (by simp [hu])) (fun hl t' ht => hb hl t' (by simp [ht])))
  | @read o os t ts v vs r rs f hc hm hf htoks ih =>
    intro i hd hp hn hR hq hb
    have ha := conv_fixed hc
    rw [thPlaced, ha] at hp
    rw [thArgs, ha]
    simp only [Bool.and_eq_true] at hp
    cases hfd : fields.find? (ThField.isVal i) with
    | none => rw [hfd] at hp; exact absurd hp.1 (by simp)
    | some g =>
      rw [hfd] at hp
      have hval : g.isVal i = true := by simpa using List.find?_some hfd
      have hg : all.getD i 0 = v := by
        have : all[i]? = some v := by rw [← Nat.add_zero i, ← List.getElem?_drop, hd]; rfl
        rw [List.getD_eq_getElem?_getD, this]; rfl
      have hfok := hok g (List.mem_of_find?_eq_some hfd)
      rw [isVal_bits hval, hg] at hfok
      have hRr : (o.vish = true → R = r) ∧ (os.any ThOp.vish = true → R = rs) ∧ os.countP ThOp.vish ≤ 1 := by
        cases hv : o.vish with
        | true =>
          simp only [List.countP_cons, hv, if_true] at hn
          have h0 : os.any ThOp.vish = false := by
            rw [List.any_eq_false]
            exact List.countP_eq_zero.1 (by omega)
          rw [htoks.plain h0, List.append_nil] at hR
          exact ⟨fun _ => hR (by simp [hv]), by simp [h0], by omega⟩
        | false =>
          rw [plain_conv hv hc hm hf, List.nil_append] at hR
          simp only [List.countP_cons, hv, Bool.false_eq_true, if_false] at hn
          exact ⟨by simp, fun h => hR (by simp [h]), by omega⟩
      simp only [thSlot_map hfd, isVal_raw hval, hg]
      refine .cons (ts := [t]) (th_arg hp.1 hc hm hf hfok.2.2 hRr.1 (fun hl u x hu hx => hq hl u x (by simp [hu]) hx) (fun hl x hx => hb hl t (by simp) x hx)) ?_
      refine ih (i + 1) ?_ hp.2 hRr.2.2 hRr.2.1 (fun hl u x hu => hq hl u x (by simp [hu])) (fun hl t' ht => hb hl t' (by simp [ht]))
      rw [← List.drop_drop, hd]; rfl

end Necro
