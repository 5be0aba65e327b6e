import Verif.Lemmas.PpcTable
import Verif.Lemmas.M68Code
import Verif.Lemmas.ThumbText
import Verif.Lemmas.Mips32
/-!
# Lemmas about the PowerPC assembler
-/

namespace Necro
open Spec

/-! ## Bits -/

/-- Bit `i` of a word made of `base` and the fields. -/
def ppcBit (base : Nat) (fs : List BitField) (i : Nat) : Bool :=
  base.testBit i || fs.any fun f => decide (f.lo ≤ i ∧ i ≤ f.hi) && bit f.value (i - f.lo)

theorem packBits_bit (fs : List BitField) : ∀ {base r : Int}, packBits base fs = .ok r → ∀ i,
    bit r i = (bit base i || fs.any fun f => decide (f.lo ≤ i ∧ i ≤ f.hi) && bit f.value (i - f.lo)) := by
  induction fs with
  | nil => intro base r h i; cases h; simp
  | cons f fs ih =>
    intro base r h i
    simp only [packBits] at h
    cases hs : packBitsStep base f with
    | error e => rw [hs] at h; cases h
    | ok b =>
      rw [hs] at h
      rw [ih h i, packBitsStep_bit base f b hs i, List.any_cons, Bool.or_assoc]

theorem packBits_ok (fs : List BitField) (h : ∀ f ∈ fs, FieldOk f) : ∀ base, ∃ r, packBits base fs = .ok r := by
  induction fs with
  | nil => intro base; exact ⟨_, rfl⟩
  | cons f fs ih =>
    intro base
    obtain ⟨b, hb⟩ := (packBitsStep_ok_iff base f).2 (h f (by simp))
    obtain ⟨r, hr⟩ := ih (fun g hg => h g (by simp [hg])) b
    exact ⟨r, by simp only [packBits, hb]; exact hr⟩

/-- The bits of `w` below 32 are those of `base` and the fields. -/
def PpcWord (base : Nat) (fs : List BitField) (w : Nat) : Prop := ∀ i < 32, w.testBit i = ppcBit base fs i

theorem fld_testBit (w hi lo i : Nat) : (fld w hi lo).testBit i = (decide (i ≤ hi - lo) && w.testBit (lo + i)) := by
  unfold fld
  rw [Nat.testBit_mod_two_pow, Nat.testBit_div_two_pow]
  congr 1
  · simp only [decide_eq_decide]; omega
  · rw [Nat.add_comm]

theorem fld_congr {w w' hi lo : Nat} (hlo : lo ≤ hi) (h : ∀ i, lo ≤ i → i ≤ hi → w.testBit i = w'.testBit i) : fld w hi lo = fld w' hi lo := by
  apply Nat.eq_of_testBit_eq
  intro i
  rw [fld_testBit, fld_testBit]
  by_cases hi' : i ≤ hi - lo
  · simp only [hi', decide_true, Bool.true_and]
    exact h _ (by omega) (by omega)
  · simp [hi']

theorem fld_apart {base w hi lo : Nat} {fs : List BitField} (h : PpcWord base fs w) (hlo : lo ≤ hi) (hhi : hi < 32)
    (ha : ∀ f ∈ fs, hi < f.lo ∨ f.hi < lo) : fld w hi lo = fld base hi lo := by
  refine fld_congr hlo fun i h1 h2 => ?_
  rw [h i (by omega)]
  unfold ppcBit
  rw [show (fs.any fun f => decide (f.lo ≤ i ∧ i ≤ f.hi) && bit f.value (i - f.lo)) = false from ?_, Bool.or_false]
  simp only [List.any_eq_false, Bool.and_eq_true, decide_eq_true_eq, not_and]
  intro f hf h3
  have := ha f hf
  omega

theorem fld_item {base w : Nat} {pre post : List BitField} {f : BitField} (h : PpcWord base (pre ++ f :: post) w) (hlo : f.lo ≤ f.hi) (hhi : f.hi < 32)
    (hz : fld base f.hi f.lo = 0) (h1 : ∀ g ∈ pre, f.hi < g.lo ∨ g.hi < f.lo) (h2 : ∀ g ∈ post, f.hi < g.lo ∨ g.hi < f.lo) :
    fld w f.hi f.lo = (f.value % 2 ^ (f.hi - f.lo + 1)).toNat := by
  apply Nat.eq_of_testBit_eq
  intro i
  have h0 : (0 : Int) ≤ f.value % 2 ^ (f.hi - f.lo + 1) := Int.emod_nonneg _ (Int.ne_of_gt (Int.pow_pos (by decide)))
  have hv : (f.value % 2 ^ (f.hi - f.lo + 1)).toNat.testBit i = bit (f.value % 2 ^ (f.hi - f.lo + 1)) i := by
    rw [← bit_natCast, Int.toNat_of_nonneg h0]
  rw [hv, bit_emod_pow, fld_testBit]
  by_cases hi' : i ≤ f.hi - f.lo
  · have hb : base.testBit (f.lo + i) = false := by
      have := fld_testBit base f.hi f.lo i
      rw [hz] at this
      simpa [hi'] using this.symm
    have hp : (pre.any fun g => decide (g.lo ≤ f.lo + i ∧ f.lo + i ≤ g.hi) && bit g.value (f.lo + i - g.lo)) = false := by
      simp only [List.any_eq_false, Bool.and_eq_true, decide_eq_true_eq, not_and]
      intro g hg h3
      have := h1 g hg
      omega
    have hq : (post.any fun g => decide (g.lo ≤ f.lo + i ∧ f.lo + i ≤ g.hi) && bit g.value (f.lo + i - g.lo)) = false := by
      simp only [List.any_eq_false, Bool.and_eq_true, decide_eq_true_eq, not_and]
      intro g hg h3
      have := h2 g hg
      omega
    have e1 : decide (f.lo ≤ f.lo + i ∧ f.lo + i ≤ f.hi) = true := by simp only [decide_eq_true_eq]; omega
    have e2 : decide (i < f.hi - f.lo + 1) = true := by simp only [decide_eq_true_eq]; omega
    rw [h _ (by omega)]
    unfold ppcBit
    rw [List.any_append, List.any_cons, hp, hq, hb, e1, e2]
    simp [hi']
  · have e2 : decide (i < f.hi - f.lo + 1) = false := by simp only [decide_eq_false_iff_not]; omega
    simp [hi', e2]

/-! ## The decoder -/

theorem ppcNum_ne {a b : Str} (h : ppcNum a ≠ ppcNum b) : a ≠ b := fun e => h (by rw [e])

theorem fresh_nodup {p : Nat} : ∀ {l : List Nat} {n : Nat}, ppcFresh p l n = true → l.Nodup ∧ ∀ k ∈ l, n.testBit (k % p) = false := by
  intro l
  induction l with
  | nil => intro n _; simp
  | cons k l ih =>
    intro n h
    simp only [ppcFresh, Bool.and_eq_true, Bool.not_eq_true'] at h
    obtain ⟨h1, h2⟩ := ih h.2
    have hk : ∀ x ∈ l, n.testBit (x % p) = false ∧ x % p ≠ k % p := by
      intro x hx
      have := h2 x hx
      rw [Nat.testBit_or, Bool.or_eq_false_iff] at this
      refine ⟨this.1, fun e => ?_⟩
      have h3 := this.2
      rw [e, Nat.testBit_shiftLeft] at h3
      simp at h3
    refine ⟨List.nodup_cons.2 ⟨fun hm => (hk k hm).2 rfl, h1⟩, ?_⟩
    intro x hx
    rcases List.mem_cons.1 hx with rfl | hx
    · exact h.1
    · exact (hk x hx).1

theorem inj_of_nodup {α : Type} {f : α → Nat} {l : List α} (h : (l.map f).Nodup) {a b : α} (ha : a ∈ l) (hb : b ∈ l) (e : f a = f b) : a = b := by
  induction l with
  | nil => cases ha
  | cons x l ih =>
    rw [List.map_cons, List.nodup_cons] at h
    rcases List.mem_cons.1 ha with rfl | ha' <;> rcases List.mem_cons.1 hb with rfl | hb'
    · rfl
    · exact absurd (e ▸ List.mem_map_of_mem hb') h.1
    · exact absurd (e ▸ List.mem_map_of_mem ha') h.1
    · exact ih h.2 ha' hb'

/-- An instruction is known by its name. -/
theorem ppc_op_unique {a b : PpcOp} (ha : a ∈ ppcOps) (hb : b ∈ ppcOps) (e : a.name = b.name) : a = b := by
  have h := (fresh_nodup ppc_op_keys_fresh).1
  rw [← ppc_op_keys] at h
  exact inj_of_nodup h ha hb (by rw [e])

/-- A form is known by its name and the number of operands. -/
theorem ppc_form_unique {a b : PpcForm} (ha : a ∈ ppcForms) (hb : b ∈ ppcForms) (e : upper a.name.toList = upper b.name.toList) (e' : a.arity = b.arity) : a = b := by
  have h := (fresh_nodup ppc_form_keys_fresh).1
  rw [← ppc_form_keys] at h
  exact inj_of_nodup h ha hb (by rw [e, e'])

theorem ppc_group_unique {a b : String × List PpcRow} (ha : a ∈ ppcTable) (hb : b ∈ ppcTable) (e : upper a.1.toList = upper b.1.toList) : a = b := by
  have h := (fresh_nodup ppc_keys_fresh).1
  rw [← ppc_keys] at h
  exact inj_of_nodup h ha hb (by rw [e])

theorem land_field {w hi lo v : Nat} (h : fld w hi lo = v) : w &&& ((2 ^ (hi - lo + 1) - 1) <<< lo) = v <<< lo := by
  subst h
  apply Nat.eq_of_testBit_eq
  intro i
  rw [Nat.testBit_and, Nat.testBit_shiftLeft, Nat.testBit_shiftLeft, Nat.testBit_two_pow_sub_one, fld_testBit]
  by_cases h1 : lo ≤ i
  · have : lo + (i - lo) = i := by omega
    rw [this]
    by_cases h2 : i - lo ≤ hi - lo
    · have : i - lo < hi - lo + 1 := by omega
      simp [h1, h2, this]
    · have : ¬ (i - lo < hi - lo + 1) := by omega
      simp [h2, this]
  · simp [h1]

theorem mask_content {w : Nat} : ∀ {l : List (Nat × Nat × Nat)}, (l.all fun x => fld w x.1 x.2.1 == x.2.2) = true → w &&& ppcMask l = ppcContent l := by
  intro l
  induction l with
  | nil => intro _; simp [ppcMask, ppcContent]
  | cons x l ih =>
    intro h
    rw [List.all_cons, Bool.and_eq_true, beq_iff_eq] at h
    simp only [ppcMask, ppcContent]
    rw [Nat.and_or_distrib_left, land_field h.1, ih h.2]

theorem exclusive_pairs : ∀ {l : List (Nat × Nat)}, ppcExclusive l = true → l.Pairwise fun x y => x.2 &&& y.1 ≠ y.2 &&& x.1 := by
  intro l
  induction l with
  | nil => intro _; simp
  | cons x l ih =>
    intro h
    simp only [ppcExclusive, Bool.and_eq_true, List.all_eq_true, Bool.not_eq_true'] at h
    refine List.pairwise_cons.2 ⟨fun y hy => ?_, ih h.2⟩
    exact Nat.ne_of_beq_eq_false (h.1 y hy)

theorem find_exclusive {α : Type} {p : α → Bool} {l : List α} (h : l.Pairwise fun a b => ¬ (p a = true ∧ p b = true)) {a : α} (ha : a ∈ l) (hp : p a = true) :
    l.find? p = some a := by
  induction l with
  | nil => cases ha
  | cons x l ih =>
    obtain ⟨h1, h2⟩ := List.pairwise_cons.1 h
    rw [List.find?_cons]
    rcases List.mem_cons.1 ha with rfl | ha
    · rw [hp]
    · cases hx : p x with
      | true => exact absurd ⟨hx, hp⟩ (h1 a ha)
      | false => exact ih h2 ha

theorem decode_op {w : Nat} {op : PpcOp} (hop : op ∈ ppcOps) (h : ∀ x ∈ op.fixed, fld w x.1 x.2.1 = x.2.2) :
    decodePpc w = some (op.name, op.fields.map (·.read w)) := by
  unfold decodePpc
  have hex := exclusive_pairs ppc_exclusive
  rw [← ppc_masks, List.pairwise_map] at hex
  rw [find_exclusive (a := op) (hex.imp ?_) hop ?_]
  · rfl
  · intro a b hab ⟨ha, hb⟩
    apply hab
    have h1 := mask_content (l := a.fixed) ha
    have h2 := mask_content (l := b.fixed) hb
    simp only
    rw [← h1, ← h2, Nat.and_assoc, Nat.and_comm (ppcMask a.fixed), ← Nat.and_assoc]
  · simp only [List.all_eq_true, beq_iff_eq]
    exact fun x hx => h x hx

/-! ## A row writes its instruction -/

def ppcBitFields (items : List PpcItem) (vals : List Int) : List BitField := List.zipWith (fun x v => ⟨x.1 + x.2.1 - 1, x.1, v⟩) items vals

theorem bitFields_mem {items : List PpcItem} {vals : List Int} {f : BitField} (h : f ∈ ppcBitFields items vals) :
    ∃ x ∈ items, f.hi = x.1 + x.2.1 - 1 ∧ f.lo = x.1 := by
  unfold ppcBitFields at h
  induction items generalizing vals with
  | nil => simp at h
  | cons x items ih =>
    cases vals with
    | nil => simp at h
    | cons v vals =>
      rw [List.zipWith_cons_cons, List.mem_cons] at h
      rcases h with rfl | h
      · exact ⟨x, by simp, rfl, rfl⟩
      · obtain ⟨y, hy, h⟩ := ih h
        exact ⟨y, by simp [hy], h⟩

theorem apart_iff {items : List PpcItem} {hi lo : Nat} : ppcApart items hi lo = true ↔ ∀ x ∈ items, hi < x.1 ∨ x.1 + x.2.1 ≤ lo := by
  simp only [ppcApart, List.all_eq_true, Bool.or_eq_true, Nat.ble_eq, Nat.blt_eq]

structure PpcItemsOk (base : Nat) (items : List PpcItem) : Prop where
  each : ∀ x ∈ items, 0 < x.2.1 ∧ x.1 + x.2.1 ≤ 32 ∧ fld base (x.1 + x.2.1 - 1) x.1 = 0
  regs : ∀ x ∈ items, x.2.2.isReg = true → x.2.1 = 5
  pairs : items.Pairwise fun x y => x.1 + x.2.1 - 1 < y.1 ∨ y.1 + y.2.1 ≤ x.1

theorem itemsOk_iff {base : Nat} : ∀ {items : List PpcItem}, ppcItemsOk base items = true → PpcItemsOk base items := by
  intro items
  induction items with
  | nil => intro _; exact ⟨by simp, by simp, by simp⟩
  | cons x items ih =>
    intro h
    simp only [ppcItemsOk, Bool.and_eq_true, Nat.blt_eq, Nat.ble_eq, Nat.beq_eq, apart_iff, Bool.or_eq_true, Bool.not_eq_true'] at h
    obtain ⟨⟨⟨⟨⟨h1, h2⟩, h3⟩, hr⟩, h4⟩, h5⟩ := h
    obtain ⟨h6, h8, h7⟩ := ih h5
    refine ⟨fun y hy => ?_, fun y hy hreg => ?_, List.pairwise_cons.2 ⟨h3, h7⟩⟩
    · rcases List.mem_cons.1 hy with rfl | hy
      · exact ⟨h1, h2, h4⟩
      · exact h6 y hy
    · rcases List.mem_cons.1 hy with rfl | hy
      · rcases hr with hr | hr
        · rw [hr] at hreg; cases hreg
        · exact hr
      · exact h8 y hy hreg

theorem word_apart {base w hi lo : Nat} {items : List PpcItem} {vals : List Int} (hi' : PpcItemsOk base items) (h : PpcWord base (ppcBitFields items vals) w)
    (hlo : lo ≤ hi) (hhi : hi < 32) (ha : ppcApart items hi lo = true) : fld w hi lo = fld base hi lo := by
  refine fld_apart h hlo hhi fun f hf => ?_
  obtain ⟨x, hx, h1, h2⟩ := bitFields_mem hf
  have := apart_iff.1 ha x hx
  have := hi'.each x hx
  omega

theorem word_item {base w i : Nat} {items : List PpcItem} {vals : List Int} (hi : PpcItemsOk base items) (h : PpcWord base (ppcBitFields items vals) w)
    {x : PpcItem} {v : Int} (hx : items[i]? = some x) (hv : vals[i]? = some v) : fld w (x.1 + x.2.1 - 1) x.1 = (v % 2 ^ x.2.1).toNat := by
  have hxi : items = items.take i ++ x :: items.drop (i + 1) := by
    have hlt : i < items.length := (List.getElem?_eq_some_iff.1 hx).1
    have hx' : items[i] = x := (List.getElem?_eq_some_iff.1 hx).2
    rw [← hx', ← List.drop_eq_getElem_cons hlt, List.take_append_drop]
  have hvi : vals = vals.take i ++ v :: vals.drop (i + 1) := by
    have hlt : i < vals.length := (List.getElem?_eq_some_iff.1 hv).1
    have hx' : vals[i] = v := (List.getElem?_eq_some_iff.1 hv).2
    rw [← hx', ← List.drop_eq_getElem_cons hlt, List.take_append_drop]
  have hlen : (items.take i).length = (vals.take i).length := by
    have h1 : i < items.length := (List.getElem?_eq_some_iff.1 hx).1
    have h2 : i < vals.length := (List.getElem?_eq_some_iff.1 hv).1
    simp only [List.length_take]; omega
  have hsp : ppcBitFields items vals = ppcBitFields (items.take i) (vals.take i) ++ ⟨x.1 + x.2.1 - 1, x.1, v⟩ :: ppcBitFields (items.drop (i + 1)) (vals.drop (i + 1)) := by
    conv => lhs; rw [hxi, hvi]
    unfold ppcBitFields
    rw [List.zipWith_append hlen, List.zipWith_cons_cons]
  rw [hsp] at h
  have hp := hi.pairs
  rw [hxi, List.pairwise_append] at hp
  obtain ⟨-, hp2, hp3⟩ := hp
  obtain ⟨hp4, -⟩ := List.pairwise_cons.1 hp2
  have hmem : x ∈ items := by rw [hxi]; simp
  obtain ⟨e1, e2, e3⟩ := hi.each x hmem
  have hw : x.1 + x.2.1 - 1 - x.1 + 1 = x.2.1 := by omega
  have := fld_item h (by simp only; omega) (by simp only; omega) e3 ?_ ?_
  · simpa only [hw] using this
  · intro g hg
    obtain ⟨y, hy, h1, h2⟩ := bitFields_mem hg
    have hy' : y ∈ items := List.mem_of_mem_take hy
    have := hp3 y hy x (by simp)
    have := hi.each y hy'
    simp only
    omega
  · intro g hg
    obtain ⟨y, hy, h1, h2⟩ := bitFields_mem hg
    have hy' : y ∈ items := List.mem_of_mem_drop hy
    have := hp4 y hy
    have := hi.each y hy'
    simp only
    omega

/-- The contents of the fields, as the tokens write them. -/
theorem row_fill {value : PpcOperand → Nat → Str → Nat → Prop} {base w : Nat} {items : List PpcItem} {vals : List Int} {rest : List Str}
    (hi : PpcItemsOk base items) (h : PpcWord base (ppcBitFields items vals) w) (hl : vals.length = items.length) (hl' : rest.length = items.length)
    (ht : ∀ (i : Nat) (x : PpcItem) tok v o, items[i]? = some x → rest[i]? = some tok → vals[i]? = some v → ppcKindOk o x.2.2 = true →
      PpcText value o x.2.1 tok (v % 2 ^ x.2.1).toNat) :
    ∀ {fields : List PpcField} {args : List PpcArg}, ppcArgsOk base items fields args = true → PpcFill value rest fields args (fields.map (·.read w)) := by
  intro fields
  induction fields with
  | nil =>
    intro args ha
    cases args with
    | nil => exact .nil
    | cons a as => simp [ppcArgsOk] at ha
  | cons f fields ih =>
    intro args ha
    cases args with
    | nil => simp [ppcArgsOk] at ha
    | cons a as =>
      cases a with
      | num n =>
        simp only [ppcArgsOk, Bool.and_eq_true, Nat.beq_eq, Nat.ble_eq, Nat.blt_eq, Bool.or_eq_true, bne_iff_ne, ne_eq] at ha
        obtain ⟨⟨⟨⟨⟨h1, h2⟩, h3⟩, h4⟩, h5⟩, h6⟩ := ha
        have hr : f.read w = n := by
          rw [← h1]
          unfold PpcField.read
          split
          · rcases h5 with h5 | h5
            · contradiction
            · rw [h5.1, h5.2] at h2
              have hap := apart_iff.1 h2
              rw [word_apart hi h (by decide) (by decide) (apart_iff.2 fun x hx => by have := hap x hx; have := hi.each x hx; omega),
                word_apart hi h (by decide) (by decide) (apart_iff.2 fun x hx => by have := hap x hx; have := hi.each x hx; omega)]
          · exact word_apart hi h h3 h4 h2
        rw [List.map_cons, hr]
        exact .num (ih h6)
      | op i =>
        simp only [ppcArgsOk, Bool.and_eq_true] at ha
        obtain ⟨ha, h6⟩ := ha
        cases hx : items[i]? with
        | none => rw [hx] at ha; simp at ha
        | some x =>
          obtain ⟨lo, wd, k⟩ := x
          rw [hx] at ha
          simp only [Bool.and_eq_true, Nat.beq_eq] at ha
          obtain ⟨⟨h1, h2⟩, h3⟩ := ha
          have hlt : i < items.length := (List.getElem?_eq_some_iff.1 hx).1
          have hv : vals[i]? = some (vals[i]'(by omega)) := List.getElem?_eq_getElem _
          have htok : rest[i]? = some (rest[i]'(by omega)) := List.getElem?_eq_getElem _
          have hmem : (lo, wd, k) ∈ items := List.mem_of_getElem? hx
          obtain ⟨e1, e2, -⟩ := hi.each _ hmem
          simp only at e1 e2
          have hr : f.read w = ((vals[i]'(by omega)) % 2 ^ wd).toNat := by
            rw [← word_item hi h hx hv]
            unfold PpcField.read
            have : f.hi = lo + wd - 1 := by omega
            split
            · rename_i hk; rw [hk] at h1; cases k <;> cases h1
            · rw [this, h2]
          rw [List.map_cons, hr]
          refine .op htok ?_ (ih h6)
          have : f.hi - f.lo + 1 = wd := by omega
          rw [this]
          exact ht i _ _ _ _ hx htok hv h1

/-- A row, its fields filled, is the instruction written. -/
theorem ppc_row_decodes {value : PpcOperand → Nat → Str → Nat → Prop} {base w : Nat} {items : List PpcItem} {vals : List Int} {t : Str} {rest : List Str}
    {op : PpcOp} {f : PpcForm} (hop : op ∈ ppcOps) (hn : op.name = f.target) (hok : ppcOpOk base items op f.args = true) (ha : f.arity = items.length)
    (he : eqNoCase t f.name.toList) (h : PpcWord base (ppcBitFields items vals) w) (hl : vals.length = items.length) (hl' : rest.length = items.length)
    (ht : ∀ (i : Nat) (x : PpcItem) tok v o, items[i]? = some x → rest[i]? = some tok → vals[i]? = some v → ppcKindOk o x.2.2 = true →
      PpcText value o x.2.1 tok (v % 2 ^ x.2.1).toNat) :
    ∃ i, decodePpc w = some i ∧ PpcWrites value f t rest i := by
  simp only [ppcOpOk, Bool.and_eq_true, List.all_eq_true, Nat.beq_eq, Nat.ble_eq, Nat.blt_eq] at hok
  obtain ⟨⟨⟨h1, h2⟩, h3⟩, h4⟩ := hok
  have hi := itemsOk_iff h3
  refine ⟨_, decode_op hop fun x hx => ?_, .mk hop hn he (by omega) (row_fill hi h hl hl' ht h2)⟩
  obtain ⟨⟨⟨g1, g2⟩, g3⟩, g4⟩ := h1 x hx
  rw [word_apart hi h g1 g2 g3]
  exact g4

/-! ## Words and bytes -/

theorem word_of_bytes {base : Nat} {fs : List BitField} {r : Int} (h : packBits base fs = .ok r) :
    PpcWord base fs (ofBytes true (wordBytes true 4 r)) := by
  intro i hi
  have h1 := ofBytes_wordBytes true 4 r
  rw [← bit_natCast, h1, bit_emod_pow, packBits_bit fs h i, bit_natCast]
  simp only [ppcBit, Bool.and_eq_right_iff_imp, decide_eq_true_eq]
  omega

theorem decodePpcBytes_word {b : Bytes} (h : b.length = 4) : decodePpcBytes b = decodePpc (ofBytes true b) := by
  match b, h with
  | [a, b, c, d], _ =>
    simp only [decodePpcBytes, ofBytes, ofBE]
    congr 1
    simp [ofBE]
    try omega

/-! ## Running a row -/

/-- Reading the operands of a row. -/
inductive PpcReads (c : Ctx) : List PpcItem → List Str → List Int → List Reloc → Prop
  | nil : PpcReads c [] [] [] []
  | cons {lo w k tok v r items toks vals rels} : PpcKind.value k (lo + w - 1) lo tok c = (.ok v, r) → PpcReads c items toks vals rels →
      PpcReads c ((lo, w, k) :: items) (tok :: toks) (v :: vals) (r ++ rels)

def ppcPats (items : List PpcItem) : List Pat := items.map fun x => x.2.2.pat

theorem ppcFields_reads {c : Ctx} {tokens : List Str} : ∀ {items : List PpcItem} {toks : List Str} {index : Nat} {fs : List BitField} {rels : List Reloc},
    tokens.drop (index + 1) = toks → toks.length = items.length → ppcFields tokens items index c = (.ok fs, rels) →
    ∃ vals, PpcReads c items toks vals rels ∧ fs = ppcBitFields items vals := by
  intro items
  induction items with
  | nil =>
    intro toks index fs rels hd hl h
    cases h
    cases List.length_eq_zero_iff.1 hl
    exact ⟨[], .nil, rfl⟩
  | cons x items ih =>
    intro toks index fs rels hd hl h
    obtain ⟨lo, w, k⟩ := x
    cases toks with
    | nil => cases hl
    | cons tok toks =>
      simp only [ppcFields] at h
      obtain ⟨v, r1, r2, h1, h2, rfl⟩ := H.bind_ok h
      obtain ⟨fs', r3, r4, h3, h4, rfl⟩ := H.bind_ok h2
      cases h4
      have hlt : index + 1 < tokens.length := by
        apply Nat.lt_of_not_le
        intro hle
        rw [List.drop_of_length_le hle] at hd
        cases hd
      rw [List.drop_eq_getElem_cons hlt] at hd
      injection hd with e1 e2
      obtain ⟨vals, g1, g2⟩ := ih e2 (Nat.succ.inj hl) h3
      have htok : tokens.getD (index + 1) [] = tok := by
        rw [List.getD_eq_getElem?_getD, List.getElem?_eq_getElem hlt, e1]; rfl
      rw [htok] at h1
      refine ⟨v :: vals, ?_, by rw [g2]; rfl⟩
      have := PpcReads.cons h1 g1
      simpa using this

theorem reads_fields {c : Ctx} {tokens : List Str} : ∀ {items : List PpcItem} {toks : List Str} {vals : List Int} {rels : List Reloc}, PpcReads c items toks vals rels →
    ∀ {index : Nat}, tokens.drop (index + 1) = toks → ppcFields tokens items index c = (.ok (ppcBitFields items vals), rels) := by
  intro items toks vals rels h
  induction h with
  | nil => intro index hd; rfl
  | @cons lo w k tok v r items toks vals rels h1 h2 ih =>
    intro index hd
    have hlt : index + 1 < tokens.length := by
      apply Nat.lt_of_not_le
      intro hle
      rw [List.drop_of_length_le hle] at hd
      cases hd
    rw [List.drop_eq_getElem_cons hlt] at hd
    injection hd with e1 e2
    have htok : tokens.getD (index + 1) [] = tok := by
      rw [List.getD_eq_getElem?_getD, List.getElem?_eq_getElem hlt, e1]; rfl
    simp only [ppcFields]
    refine H.bind_of (by rw [htok]; exact h1) ?_
    have := H.bind_of (ih e2) (x := .ok (ppcBitFields ((lo, w, k) :: items) (v :: vals))) (r' := []) (f := fun fs => pure (⟨lo + w - 1, lo, v⟩ :: fs)) rfl
    simpa using this

theorem PpcReads.lengths {c : Ctx} {items : List PpcItem} {toks : List Str} {vals : List Int} {rels : List Reloc} (h : PpcReads c items toks vals rels) :
    toks.length = items.length ∧ vals.length = items.length := by
  induction h with
  | nil => exact ⟨rfl, rfl⟩
  | cons _ _ ih => simp [ih]

/-- What one row does. -/
structure PpcRun (c : Ctx) (rest : List Str) (blob : Bytes) (rels : List Reloc) (r : String × Nat × List (List PpcItem) × List PpcItem) (vals : List Int) : Prop where
  pats : matchAll rest (ppcPats r.2.2.2) = true
  first : ∀ x ∈ r.2.2.1, matchAll rest (ppcPats x) = false
  reads : PpcReads c r.2.2.2 rest vals rels
  word : ∃ v, packBits (r.2.1 : Int) (ppcBitFields r.2.2.2 vals) = .ok v ∧ blob = wordBytes true 4 v

theorem ppcCall_ok {name : String} {base : Nat} {c : Ctx} {t : Str} {rest : List Str} {blob : Bytes} {rels : List Reloc} : ∀ {rows : List PpcRow} {pre : List (List PpcItem)},
    (∀ x ∈ pre, matchAll rest (ppcPats x) = false) → ppcCall base (t :: rest) (rows.map Prod.snd) c = (.ok (some blob), rels) →
    ∃ r ∈ ppcSplits name base pre rows, r.1 = name ∧ r.2.1 = base ∧ ∃ vals, PpcRun c rest blob rels r vals := by
  intro rows
  induction rows with
  | nil => intro pre _ h; cases h
  | cons row rows ih =>
    intro pre hpre h
    obtain ⟨b0, cond⟩ := row
    have next : matchAll rest (ppcPats (cond.getD [])) = false → ppcCall base (t :: rest) (rows.map Prod.snd) c = (.ok (some blob), rels) →
        ∃ r ∈ ppcSplits name base pre ((b0, cond) :: rows), r.1 = name ∧ r.2.1 = base ∧ ∃ vals, PpcRun c rest blob rels r vals := by
      intro hno h
      obtain ⟨r, hr, h1⟩ := ih (pre := pre ++ [cond.getD []]) (by
        intro x hx
        rcases List.mem_append.1 hx with hx | hx
        · exact hpre x hx
        · rw [List.mem_singleton] at hx; rw [hx]; exact hno) h
      exact ⟨r, List.mem_cons_of_mem _ hr, h1⟩
    cases cond with
    | none =>
      simp only [List.map_cons, ppcCall] at h
      split at h
      · rename_i hl
        have hrest : rest = [] := by simpa using hl
        obtain ⟨b, r1, r2, h1, h2, rfl⟩ := H.bind_ok h
        rw [H.lift_apply, pack32_any] at h1
        cases h1
        cases h2
        subst hrest
        exact ⟨_, List.mem_cons_self, rfl, rfl, [], rfl, hpre, .nil, _, rfl, rfl⟩
      · rename_i hl
        refine next ?_ h
        cases rest with
        | nil => exact absurd rfl hl
        | cons a l => rfl
    | some items =>
      simp only [List.map_cons, ppcCall] at h
      split at h
      · rename_i hm
        rw [instrMatch_cons] at hm
        obtain ⟨fs, r1, r2, h1, h2, rfl⟩ := H.bind_ok h
        obtain ⟨v, r3, r4, h3, h4, rfl⟩ := H.bind_ok h2
        obtain ⟨b, r5, r6, h5, h6, rfl⟩ := H.bind_ok h4
        rw [H.lift_apply] at h3 h5
        rw [pack32_any] at h5
        cases h5
        cases h6
        have hlen := matchAll_length hm
        obtain ⟨vals, g1, rfl⟩ := ppcFields_reads (toks := rest) rfl (by simpa using hlen) h1
        injection h3 with h3 h3'
        subst h3'
        refine ⟨_, List.mem_cons_self, rfl, rfl, vals, hm, hpre, by simpa using g1, v, h3, rfl⟩
      · rename_i hm
        rw [instrMatch_cons] at hm
        exact next (by rw [← Bool.not_eq_true]; exact hm) h

theorem ppc_key (t : Str) : ppc.key t = upper t := rfl

theorem ppc_row {c : Ctx} {t : Str} {rest : List Str} {blob : Bytes} {rels : List Reloc} (h : Emits ppc c t rest blob rels) :
    ∃ g ∈ ppcTable, eqNoCase t g.1.toList ∧ ∃ r ∈ ppcSplits g.1 (g.2.headD (0, none)).1 [] g.2, r.1 = g.1 ∧ ∃ vals, PpcRun c rest blob rels r vals := by
  have hd : ∀ {x}, ppc.instrs (ppc.key t) = some x → ∃ g ∈ ppcTable, eqNoCase t g.1.toList ∧
      x = .handler fun tokens => ppcCall (g.2.headD (0, none)).1 tokens (g.2.map Prod.snd) := by
    intro x hx
    rw [ppc_key] at hx
    simp only [ppc] at hx
    cases hf : ppcTable.find? fun g => upper g.1.toList == upper t with
    | none => rw [hf] at hx; cases hx
    | some g =>
      rw [hf] at hx
      have h1 := List.find?_some hf
      rw [beq_iff_eq] at h1
      refine ⟨g, List.mem_of_find?_eq_some hf, h1.symm, ?_⟩
      obtain ⟨n, rows⟩ := g
      cases rows with
      | nil => cases hx
      | cons row rows => cases hx; rfl
  cases h with
  | fixed h1 _ => obtain ⟨g, -, -, hg⟩ := hd h1; cases hg
  | handler h1 h2 =>
    obtain ⟨g, hg, ht, he⟩ := hd h1
    cases he
    obtain ⟨r, hr, e1, -, vals, hv⟩ := ppcCall_ok (name := g.1) (pre := []) (by simp) h2
    exact ⟨g, hg, ht, r, hr, e1, vals, hv⟩

end Necro
