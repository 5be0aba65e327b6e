import Verif.Lemmas.Z80Line
/-!
# Every instruction of the Z80 that can be written is assembled
-/

namespace Necro
open Spec

/-! ## the words -/

def z80Plain (i : Nat) : Bool := !z80ValueNs.elem i && i != 35 && i != 76

theorem word_value : ∀ i < 78, z80ValueNs.elem i = true → z80Word i = "nn" ∨ z80Word i = "n" ∨ z80Word i = "e" := by decide +kernel
theorem word_idx : z80Word 35 = "IX+d" ∧ z80Word 76 = "IY+d" := by decide +kernel
theorem word_plain : ∀ i < 78, z80Plain i = true → z80Hook (z80Word i) = none ∧ z80RegNs.elem i = z80Regs.contains (upper (z80Word i).toList) ∧
    z80IsIndex "IX".toList (z80Word i).toList = false ∧ z80IsIndex "IY".toList (z80Word i).toList = false := by decide +kernel
theorem word_distinct : ∀ i < 78, z80Plain i = true → ∀ j < 78, z80Plain j = true → upper (z80Word i).toList = upper (z80Word j).toList → i = j := by
  decide +kernel

def notNumber (t : Str) : Bool :=
  match internalParseInteger z80.sy (getMathFormula t).body with
  | .ok (some _) => false
  | _ => true

theorem word_no_number : ∀ i < 78, z80Plain i = true → z80DigitNs.elem i = false →
    ((upper (z80Word i).toList).all fun c => !c.isLower) = true ∧ ∀ t ∈ variants (upper (z80Word i).toList), notNumber t = true := by decide +kernel

theorem reg_no_number : ∀ r ∈ z80Regs, (r.all fun c => !c.isLower) = true ∧ ∀ t ∈ variants r, notNumber t = true := by decide +kernel

theorem number_not {c : Ctx} (hsy : c.sy = z80.sy) {use : M68Use} {n : Nat} {t : Str} {x : Int} (h : m68Number c use n t x) : notNumber t = false := by
  obtain ⟨dec, ⟨lit, h1, -⟩, -⟩ := h
  rw [hsy] at h1
  unfold notNumber
  rw [h1]

theorem number_value80 {c : Ctx} (hsy : c.sy = z80.sy) {use : M68Use} {n : Nat} {t : Str} {x : Int} (h : m68Number c use n t x) : z80IsValue t = true := by
  have hn := number_not hsy h
  unfold z80IsValue
  cases hc : z80Regs.contains (upper t) with
  | false => rfl
  | true =>
    have hm : upper t ∈ z80Regs := by simpa using hc
    have := reg_no_number _ hm
    rw [this.2 t (mem_variants this.1 rfl)] at hn
    cases hn

theorem number_plain {c : Ctx} (hsy : c.sy = z80.sy) {use : M68Use} {n : Nat} {t : Str} {x : Int} (h : m68Number c use n t x) {i : Nat} (hi : i < 78)
    (hp : z80Plain i = true) (hd : z80DigitNs.elem i = false) : upper t ≠ upper (z80Word i).toList := by
  intro e
  have hn := number_not hsy h
  have := word_no_number i hi hp hd
  rw [this.2 t (mem_variants this.1 e)] at hn
  cases hn

theorem upper_append (a b : Str) : upper (a ++ b) = upper a ++ upper b := List.map_append

theorem isIndex_upper (r t : Str) : z80IsIndex r (upper t) = z80IsIndex r t := by
  unfold z80IsIndex
  rw [upper_idem]

theorem pred_isIndex {r t : Str} : (Pat.pred (z80IsIndex r)).matches₀ t = z80IsIndex r t := rfl
theorem pred_isValue {t : Str} : (Pat.pred z80IsValue).matches₀ t = z80IsValue t := rfl

/-- What is known of the token written for an index argument. -/
theorem index_key {value : M68Use → Nat → Str → Int → Prop} {d v : Int} {iy : Bool} {t : Str} (h : Z80KeyText value d v (if iy then "IY+d" else "IX+d") t) :
    ∃ s q, (s = '+' ∨ s = '-') ∧ upper t = (if iy then "IY" else "IX").toList ++ s :: q := by
  have h' := idx_key h
  generalize hl : [['('], t, [')']] = l at h'
  cases h' with
  | @plus _ _ u _ h1 =>
    cases hl
    refine ⟨'+', upper u, .inl rfl, ?_⟩
    rw [upper_append, show upper _ = upper _ from h1]
    cases iy <;> rfl
  | @minus _ _ u _ h1 =>
    cases hl
    refine ⟨'-', upper u, .inr rfl, ?_⟩
    rw [upper_append, show upper _ = upper _ from h1]
    cases iy <;> rfl

theorem index_is {iy : Bool} {t : Str} {s : Char} {q : Str} (hs : s = '+' ∨ s = '-') (h : upper t = (if iy then "IY" else "IX").toList ++ s :: q) (iy' : Bool) :
    z80IsIndex (if iy' then "IY" else "IX").toList t = (iy == iy') := by
  unfold z80IsIndex
  rw [h]
  rcases hs with rfl | rfl <;> cases iy <;> cases iy' <;> rfl

theorem index_value {iy : Bool} {t : Str} {s : Char} {q : Str} (hs : s = '+' ∨ s = '-') (h : upper t = (if iy then "IY" else "IX").toList ++ s :: q) :
    z80IsValue t = true := by
  unfold z80IsValue
  rw [h]
  have : ∀ r ∈ z80Regs, r[2]? ≠ some '+' ∧ r[2]? ≠ some '-' := by decide
  cases hc : z80Regs.contains ((if iy then "IY" else "IX").toList ++ s :: q) with
  | false => rfl
  | true =>
    have hm : ((if iy then "IY" else "IX").toList ++ s :: q) ∈ z80Regs := by simpa using hc
    have := this _ hm
    rcases hs with rfl | rfl
    · exact absurd (by cases iy <;> rfl) this.1
    · exact absurd (by cases iy <;> rfl) this.2

theorem tri_sound {c : Ctx} (hsy : c.sy = z80.sy) {d v : Int} {a k : Nat} (ha : a < 78) (hk : k < 78) {t : Str}
    (ht : Z80KeyText (m68Number c) d v (z80Word k) t) {b : Bool} (h : z80Tri a k = some b) : (z80Pat (z80Word a)).matches₀ t = b := by
  have pat_value : z80ValueNs.elem a = true → z80Pat (z80Word a) = .pred z80IsValue := fun h => by
    rcases word_value a ha h with e | e | e <;> rw [e] <;> rfl
  have pat_plain : z80Plain a = true → z80Pat (z80Word a) = .str (z80Word a).toList := fun h => pat_lit (word_plain a ha h).1
  have str_false : ∀ {u s : Str}, upper u ≠ upper s → (Pat.str s).matches₀ u = false := fun h => by simp [Pat.matches₀, h]
  have plain_of : ∀ {i}, z80ValueNs.elem i = false → (i == 35) = false → (i == 76) = false → z80Plain i = true := by
    intro i h1 h2 h3
    unfold z80Plain bne
    rw [h1, h2, h3]
    rfl
  unfold z80Tri at h
  split at h
  · next hkv =>
    have hnum : ∃ use n x, m68Number c use n t x := by
      rcases word_value k hk hkv with e | e | e <;> rw [e] at ht
      · obtain ⟨x, h, -⟩ := nn_key ht; exact ⟨_, _, x, h⟩
      · obtain ⟨x, h, -⟩ := n_key ht; exact ⟨_, _, x, h⟩
      · obtain ⟨x, h, -⟩ := e_key ht; exact ⟨_, _, x, h⟩
    obtain ⟨use, n, x, hnum⟩ := hnum
    split at h
    · next hav =>
      cases h
      rw [pat_value hav]
      exact number_value80 hsy hnum
    · next hav =>
      split at h
      · cases h
      · next hn =>
        cases h
        simp only [Bool.or_eq_true, not_or, Bool.not_eq_true] at hn
        have hp := plain_of (by simpa using hav) hn.1.1 hn.1.2
        rw [pat_plain hp]
        exact str_false (number_plain hsy hnum ha hp hn.2)
  · next hkv =>
    split at h
    · next hki =>
      have hiy : ∃ iy : Bool, z80Word k = (if iy then "IY+d" else "IX+d") ∧ k = (if iy then 76 else 35) := by
        simp only [Bool.or_eq_true, beq_iff_eq] at hki
        rcases hki with rfl | rfl
        · exact ⟨false, word_idx.1, rfl⟩
        · exact ⟨true, word_idx.2, rfl⟩
      obtain ⟨iy, e1, e2⟩ := hiy
      rw [e1] at ht
      obtain ⟨s, q, hs, hu⟩ := index_key ht
      split at h
      · next hav =>
        cases h
        simp only [Bool.or_eq_true, beq_iff_eq] at hav
        rcases hav with hav | rfl
        · rw [pat_value hav]
          exact index_value hs hu
        · rw [e1]
          have hp : z80Pat (if iy then "IY+d" else "IX+d") = .pred (z80IsIndex (if iy then "IY" else "IX").toList) := by cases iy <;> rfl
          rw [hp, pred_isIndex, index_is hs hu]
          simp
      · next hav =>
        cases h
        simp only [Bool.or_eq_true, beq_iff_eq, not_or, Bool.not_eq_true] at hav
        by_cases h35 : a = 35 ∨ a = 76
        · have : ∃ iy' : Bool, z80Word a = (if iy' then "IY+d" else "IX+d") ∧ a = (if iy' then 76 else 35) := by
            rcases h35 with rfl | rfl
            · exact ⟨false, word_idx.1, rfl⟩
            · exact ⟨true, word_idx.2, rfl⟩
          obtain ⟨iy', e3, e4⟩ := this
          have hne : iy ≠ iy' := fun e => hav.2 (by rw [e2, e4, e])
          rw [e3]
          have hp : z80Pat (if iy' then "IY+d" else "IX+d") = .pred (z80IsIndex (if iy' then "IY" else "IX").toList) := by cases iy' <;> rfl
          rw [hp, pred_isIndex, index_is hs hu]
          simpa using hne
        · have hp := plain_of hav.1 (by simp; exact fun e => h35 (.inl e)) (by simp; exact fun e => h35 (.inr e))
          rw [pat_plain hp]
          apply str_false
          intro e
          have h1 := (word_plain a ha hp).2.2
          have h2 : z80IsIndex (if iy then "IY" else "IX").toList (z80Word a).toList = true := by
            rw [← isIndex_upper, ← e, isIndex_upper, index_is hs hu]
            simp
          cases iy
          · rw [show z80IsIndex (if false = true then "IY" else "IX").toList (z80Word a).toList = z80IsIndex "IX".toList (z80Word a).toList from rfl, h1.1] at h2
            cases h2
          · rw [show z80IsIndex (if true = true then "IY" else "IX").toList (z80Word a).toList = z80IsIndex "IY".toList (z80Word a).toList from rfl, h1.2] at h2
            cases h2
    · next hki =>
      simp only [Bool.or_eq_true, not_or, Bool.not_eq_true] at hki
      have hkp := plain_of (by simpa using hkv) hki.1 hki.2
      have hkw := word_plain k hk hkp
      have hu : upper t = upper (z80Word k).toList := ht.lit_of hkw.1
      split at h
      · next hav =>
        simp only [Option.some.injEq] at h
        rw [pat_value hav, pred_isValue, ← h, hkw.2.1]
        unfold z80IsValue
        rw [hu]
      · next hav =>
        split at h
        · next hai =>
          cases h
          simp only [Bool.or_eq_true, beq_iff_eq] at hai
          have hi : ∀ r, z80IsIndex r t = z80IsIndex r (z80Word k).toList := fun r => by rw [← isIndex_upper, hu, isIndex_upper]
          rcases hai with rfl | rfl
          · rw [word_idx.1]
            show z80IsIndex "IX".toList t = false
            rw [hi]; exact hkw.2.2.1
          · rw [word_idx.2]
            show z80IsIndex "IY".toList t = false
            rw [hi]; exact hkw.2.2.2
        · next hai =>
          simp only [Bool.or_eq_true, not_or, Bool.not_eq_true] at hai
          have hp := plain_of (by simpa using hav) hai.1 hai.2
          simp only [Option.some.injEq] at h
          rw [pat_plain hp, ← h]
          by_cases e : a = k
          · subst e
            simp [Pat.matches₀, hu]
          · rw [str_false (by rw [hu]; exact fun e' => e (word_distinct a ha hp k hk hkp e'.symm))]
            simp [e]

theorem triAll_sound {c : Ctx} (hsy : c.sy = z80.sy) {d v : Int} : ∀ {as ks : List Nat} {rest : List Str}, (∀ a ∈ as, a < 78) → (∀ k ∈ ks, k < 78) →
    Z80Keys (m68Number c) d v (ks.map z80Word) rest → ∀ {b : Bool}, z80TriAll as ks = some b → matchUtil rest ((as.map z80Word).map z80Pat) = b
  | [], [], rest, _, _, hr, b, h => by cases hr; cases h; rfl
  | [], k :: ks, rest, _, _, hr, b, h => by cases hr; cases h; rfl
  | a :: as, [], rest, _, _, hr, b, h => by cases hr; cases h; rfl
  | a :: as, k :: ks, rest, ha, hk, hr, b, h => by
    cases hr with
    | cons h1 h2 =>
      have ha' := ha a (List.mem_cons_self ..)
      have hk' := hk k (List.mem_cons_self ..)
      have ih : ∀ {b}, z80TriAll as ks = some b → _ := fun {b} => triAll_sound hsy (fun a h => ha a (List.mem_cons_of_mem _ h)) (fun a h => hk a (List.mem_cons_of_mem _ h)) h2 (b := b)
      simp only [List.map_cons, matchUtil]
      unfold z80TriAll at h
      split at h
      · next e =>
        cases h
        rw [tri_sound hsy ha' hk' h1 e]
        rfl
      · next e =>
        rw [tri_sound hsy ha' hk' h1 e, ih h]
        rfl
      · split at h
        · next e =>
          cases h
          rw [ih e, Bool.and_false]
        · cases h

theorem find_sound {c : Ctx} (hsy : c.sy = z80.sy) {d v : Int} {t : Str} {rest : List Str} {keys : List Nat} (hk : ∀ k ∈ keys, k < 78)
    (hr : Z80Keys (m68Number c) d v (keys.map z80Word) rest) {codes : List Nat} : ∀ {vs : List (List Nat × List Nat)}, (∀ v ∈ vs, ∀ a ∈ v.2, a < 78) →
    z80Find keys vs = some codes → ∃ w ∈ vs, w.1 = codes ∧ matchUtil rest ((w.2.map z80Word).map z80Pat) = true ∧
      z80Call (t :: rest) (vs.map fun v => (v.1, v.2.map z80Word)) = (z80Emit (t :: rest) codes (w.2.map z80Word) >>= fun b => pure (some b))
  | [], _, h => by cases h
  | w :: vs, hv, h => by
    unfold z80Find at h
    have hw := hv w (List.mem_cons_self ..)
    simp only [List.map_cons]
    unfold z80Call
    split at h
    · next e =>
      cases h
      have hm := triAll_sound hsy hw hk hr e
      refine ⟨w, List.mem_cons_self .., rfl, hm, ?_⟩
      rw [show (t :: rest).drop 1 = rest from rfl, if_pos hm]
    · next e =>
      have hm := triAll_sound hsy hw hk hr e
      obtain ⟨w', h1, h2, h3, h4⟩ := find_sound hsy hk hr (fun v h => hv v (List.mem_cons_of_mem _ h)) h
      refine ⟨w', List.mem_cons_of_mem _ h1, h2, h3, ?_⟩
      rw [show (t :: rest).drop 1 = rest from rfl, if_neg (by rw [hm]; decide)]
      exact h4
    · cases h

/-! ## the instruction of some bytes -/

/-- The table knows the instruction. -/
structure Z80Entry (p : String × List Z80Arg) (n : Nat) (keys codes : List Nat) : Prop where
  found : z80OpOk (some (n, keys, codes)) = true
  entry : z80EntryOk (some p) (some (n, keys, codes)) = true

theorem entry_of {p : String × List Z80Arg} {ops : List (Option (Nat × List Nat × List Nat))} {o : Nat}
    (hops : ∀ e ∈ ops, z80OpOk e = true) (h : z80EntryOk (some p) (ops.getD o none) = true) : ∃ n keys codes, Z80Entry p n keys codes := by
  cases he : ops.getD o none with
  | none => rw [he] at h; cases h
  | some e =>
    obtain ⟨n, keys, codes⟩ := e
    rw [he] at h
    refine ⟨n, keys, codes, hops _ ?_, h⟩
    rw [List.getD_eq_getElem?_getD] at he
    cases hg : ops[o]? with
    | none => rw [hg] at he; cases he
    | some e => rw [hg] at he; exact (show e = some (n, keys, codes) from he) ▸ List.mem_of_getElem? hg

theorem shape_dd : ∀ o < 256, o ≠ 0xCB → z80RowShape [0xDD00 + o] = z80ShapeIndex false o ∧ z80RowShape [0xFD00 + o] = z80ShapeIndex true o := by
  decide +kernel

theorem byte_ne {x : BitVec 8} {k : Nat} (hk : k < 256) (h : ¬ x = BitVec.ofNat 8 k) : x.toNat ≠ k := by
  intro e
  apply h
  apply BitVec.eq_of_toNat_eq
  rw [e, BitVec.toNat_ofNat, Nat.mod_eq_of_lt hk]

theorem decode_entry {b : Bytes} {i : Z80Instr} (h : decodeZ80 b = some i) : ∃ p data n keys codes, z80Fill p data = some i ∧ Z80Entry p n keys codes := by
  have hops := ops_found
  simp only [List.mem_append] at hops
  unfold decodeZ80 at h
  match b, h with
  | [], h => cases h
  | op :: rest, h =>
    simp only at h
    split at h
    · split at h
      · next o rest =>
        obtain ⟨p, h1, h2⟩ := Option.bind_eq_some_iff.1 h
        have := entries_cb o.toNat o.isLt
        rw [h1] at this
        exact ⟨p, rest, have ⟨n, k, c, h⟩ := entry_of (fun e he => hops e (by simp [he])) this; ⟨n, k, c, h2, h⟩⟩
      · cases h
    · next hcb =>
      split at h
      · split at h
        · next o rest =>
          obtain ⟨p, h1, h2⟩ := Option.bind_eq_some_iff.1 h
          have := entries_ed o.toNat o.isLt
          rw [h1] at this
          exact ⟨p, rest, have ⟨n, k, c, h⟩ := entry_of (fun e he => hops e (by simp [he])) this; ⟨n, k, c, h2, h⟩⟩
        · cases h
      · next hed =>
        split at h
        · next hdd =>
          split at h
          · next o rest =>
            split at h
            · split at h
              · next d o =>
                obtain ⟨p, h1, h2⟩ := Option.bind_eq_some_iff.1 h
                rcases hdd with rfl | rfl
                · have h1 : z80ShapeIndexCb false o.toNat = some p := h1
                  have := entries_ddcb o.toNat o.isLt
                  rw [h1] at this
                  exact ⟨p, _, have ⟨n, k, c, h⟩ := entry_of (fun e he => hops e (by simp [he])) this; ⟨n, k, c, h2, h⟩⟩
                · have h1 : z80ShapeIndexCb true o.toNat = some p := h1
                  have := entries_fdcb o.toNat o.isLt
                  rw [h1] at this
                  exact ⟨p, _, have ⟨n, k, c, h⟩ := entry_of (fun e he => hops e (by simp [he])) this; ⟨n, k, c, h2, h⟩⟩
              · cases h
            · next ho =>
              obtain ⟨p, h1, h2⟩ := Option.bind_eq_some_iff.1 h
              have hs := shape_dd o.toNat o.isLt (byte_ne (by decide) ho)
              rcases hdd with rfl | rfl
              · have h1 : z80ShapeIndex false o.toNat = some p := h1
                have := entries_dd o.toNat o.isLt
                rw [hs.1, h1] at this
                exact ⟨p, _, have ⟨n, k, c, h⟩ := entry_of (fun e he => hops e (by simp [he])) this; ⟨n, k, c, h2, h⟩⟩
              · have h1 : z80ShapeIndex true o.toNat = some p := h1
                have := entries_fd o.toNat o.isLt
                rw [hs.2, h1] at this
                exact ⟨p, _, have ⟨n, k, c, h⟩ := entry_of (fun e he => hops e (by simp [he])) this; ⟨n, k, c, h2, h⟩⟩
          · cases h
        · next hdd =>
          obtain ⟨p, h1, h2⟩ := Option.bind_eq_some_iff.1 h
          rw [not_or] at hdd
          have hs : z80RowShape [op.toNat] = z80Shape op.toNat := by
            have h0 : op.toNat / 256 = 0 := Nat.div_eq_of_lt op.isLt
            unfold z80RowShape
            simp only [h0]
            rw [if_neg]
            have h1 := byte_ne (k := 0xCB) (by decide) hcb
            have h2 := byte_ne (k := 0xED) (by decide) hed
            have h3 := byte_ne (k := 0xDD) (by decide) hdd.1
            have h4 := byte_ne (k := 0xFD) (by decide) hdd.2
            omega
          have := entries_none op.toNat op.isLt
          rw [hs, h1] at this
          exact ⟨p, _, have ⟨n, k, c, h⟩ := entry_of (fun e he => hops e (by simp [he])) this; ⟨n, k, c, h2, h⟩⟩

/-- The ranges of the values in a decoded instruction. -/
theorem fill_bounds {p : String × List Z80Arg} {b : Bytes} {i : Z80Instr} (h : z80Fill p b = some i) :
    i.mnemonic = p.1 ∧ i.args = p.2 ∧ -128 ≤ i.disp ∧ i.disp < 128 ∧ (p.2.any Z80Arg.isIdx = false → i.disp = 0) ∧ (z80Data p.2 = .none → i.value = 0) ∧
      (z80Data p.2 = .signed → -128 ≤ i.value ∧ i.value < 128) := by
  have hb : ∀ x : BitVec 8, -128 ≤ x.toInt ∧ x.toInt < 128 := fun x => ⟨BitVec.le_toInt x, BitVec.toInt_lt (x := x)⟩
  unfold z80Fill at h
  split at h
  · next h1 h2 => cases h; exact ⟨rfl, rfl, by simp, by simp, fun _ => rfl, fun _ => rfl, fun e => by rw [h2] at e; cases e⟩
  · next h1 h2 => cases h; exact ⟨rfl, rfl, by simp, by simp, fun _ => rfl, fun e => by (rw [h2] at e; cases e), fun e => by rw [h2] at e; cases e⟩
  · next x h1 h2 => cases h; exact ⟨rfl, rfl, by simp, by simp, fun _ => rfl, fun e => by (rw [h2] at e; cases e), fun _ => hb x⟩
  · next h1 h2 => cases h; exact ⟨rfl, rfl, by simp, by simp, fun _ => rfl, fun e => by (rw [h2] at e; cases e), fun e => by rw [h2] at e; cases e⟩
  · next x h1 h2 => cases h; exact ⟨rfl, rfl, (hb x).1, (hb x).2, fun e => by (rw [h1] at e; cases e), fun _ => rfl, fun e => by rw [h2] at e; cases e⟩
  · next x y h1 h2 => cases h; exact ⟨rfl, rfl, (hb x).1, (hb x).2, fun e => by (rw [h1] at e; cases e), fun e => by (rw [h2] at e; cases e), fun e => by rw [h2] at e; cases e⟩
  · cases h

/-- A decoded instruction is known by its operands and the meaning of its value. -/
theorem fill_unique {p : String × List Z80Arg} {b b' : Bytes} {i j : Z80Instr} {hook : Z80Hook} (hok : z80HookOk (some hook) p.2 = true)
    (h : z80Fill p b = some i) (h' : z80Fill p b' = some j) {v v' : Int} (hi : z80Means hook v i.disp i.value) (hj : z80Means hook v' j.disp j.value)
    (hv : v % 65536 = v' % 65536 ∨ hook ≠ .nn ∧ v % 256 = v' % 256) : i = j := by
  obtain ⟨a1, a2, a3, a4, a5, a6, a7⟩ := fill_bounds h
  obtain ⟨b1, b2, b3, b4, b5, b6, b7⟩ := fill_bounds h'
  obtain ⟨im, ia, id, iv⟩ := i
  obtain ⟨jm, ja, jd, jv⟩ := j
  simp only at *
  subst a1 a2 b1 b2
  unfold z80HookOk at hok
  cases hook with
  | d => cases hok
  | nn =>
    simp only [Bool.and_eq_true, Bool.not_eq_true', beq_iff_eq] at hok
    simp only [z80Means] at hi hj
    have := a5 hok.1
    have := b5 hok.1
    have : iv = jv := by
      rcases hv with hv | hv
      · omega
      · exact absurd rfl hv.1
    simp_all
  | n =>
    simp only [Bool.and_eq_true, Bool.not_eq_true', beq_iff_eq] at hok
    simp only [z80Means] at hi hj
    have := a5 hok.1
    have := b5 hok.1
    have : iv = jv := by omega
    simp_all
  | e =>
    simp only [Bool.and_eq_true, Bool.not_eq_true', beq_iff_eq] at hok
    simp only [z80Means] at hi hj
    have := a5 hok.1
    have := b5 hok.1
    have := a7 hok.2
    have := b7 hok.2
    have : iv = jv := by omega
    simp_all
  | index =>
    simp only [Bool.and_eq_true, beq_iff_eq] at hok
    simp only [z80Means] at hi hj
    have := a6 hok.2
    have := b6 hok.2
    have : id = jd := by omega
    simp_all

theorem Z80Keys.length {value : M68Use → Nat → Str → Int → Prop} {d v : Int} : ∀ {ks : List String} {r : List Str}, Z80Keys value d v ks r → r.length = ks.length
  | _, _, .nil => rfl
  | _, _, .cons _ h => by simp [h.length]

/-- The value that a token writes, as the table reads it. -/
theorem key_slot {value : M68Use → Nat → Str → Int → Prop} {d w : Int} {a : String} {t : Str} (h : Z80KeyText value d w a t) {hook : Z80Hook}
    (ha : z80Hook a = some hook) (pc : Int) (n : Nat) : (hook = .index → t[2]? = some '+' ∨ t[2]? = some '-') ∧
      ∃ x, value (z80Slot hook pc n t).1 (z80Slot hook pc n t).2.1.bitsSize (z80Slot hook pc n t).2.1.label x ∧ z80Means hook x d w := by
  have two : ∀ {iy : Bool} {r : Str}, eqNoCase r (if iy then "IY" else "IX").toList → ∃ a b, r = [a, b] := by
    intro iy r h
    have hp : r.length = 2 := by
      have := congrArg List.length (show r.map Char.toUpper = _ from h)
      rw [List.length_map] at this
      rw [this]
      cases iy <;> rfl
    match r, hp with
    | [a, b], _ => exact ⟨a, b, rfl⟩
  cases h with
  | n h h' => cases ha; exact ⟨fun e => (by cases e), _, h, h'⟩
  | nn h h' => cases ha; exact ⟨fun e => (by cases e), _, h, h'⟩
  | e h h' => cases ha; exact ⟨fun e => (by cases e), _, h, h'⟩
  | @plus iy _ _ _ h1 h h' =>
    obtain ⟨a, b, rfl⟩ := two h1
    have : hook = .index := by cases iy <;> cases ha <;> rfl
    subst this
    exact ⟨fun _ => .inl rfl, _, h, h'⟩
  | @minus iy _ _ _ h1 h h' =>
    obtain ⟨a, b, rfl⟩ := two h1
    have : hook = .index := by cases iy <;> cases ha <;> rfl
    subst this
    exact ⟨fun _ => .inr rfl, _, h, h'⟩
  | lit h => rw [h] at ha; cases ha

/-- The bytes of a row for a line that writes its instruction. -/
theorem row_emits {c : Ctx} (hpc : 0 ≤ c.pc) {t : Str} {rest : List Str} {r : List Nat × String × List String} (hr : z80RowOk r = true)
    {p : String × List Z80Arg} (hp : z80RowShape r.1 = some p) {i : Z80Instr} {data : Bytes} (hi : z80Fill p data = some i)
    (hk : Z80Keys (m68Number c) i.disp i.value r.2.2 rest) : ∃ blob, z80Emit (t :: rest) r.1 r.2.2 c = (.ok blob, []) ∧ decodeZ80 blob = some i := by
  obtain ⟨as, h1, h2, h3, h4, h5, h6, -⟩ := rowOk_parts hr
  have hpe : p = (r.2.1, as) := by rw [hp] at h1; exact Option.some.inj h1
  have h4 : z80HookOk ((z80HookOf r.2.2 0).map (·.1)) p.2 = true := by rw [hpe]; exact h4
  cases hh : z80HookOf r.2.2 0 with
  | none =>
    rw [hh] at h4 h6
    have h6 : r.1.length = 1 := by simpa using h6
    refine ⟨_, z80Emit_none hh, ?_⟩
    have := decode_row hp (data := []) (.inl h6)
    rw [List.append_nil] at this
    rw [this, fill_none h4]
    obtain ⟨a1, a2, -, -, a5, a6, -⟩ := fill_bounds hi
    simp only [z80HookOk, Option.map_none, Bool.and_eq_true, Bool.not_eq_true', beq_iff_eq] at h4
    obtain ⟨m, as', d, w⟩ := i
    simp only at a1 a2 a5 a6
    rw [a5 h4.1, a6 h4.2, a1, a2]
  | some q =>
    obtain ⟨hook, k⟩ := q
    rw [hh] at h4 h6
    obtain ⟨pre, a, post, h7, h8, h9, h10⟩ := hookOf_some hh
    rw [Nat.zero_add] at h8
    rw [h7] at hk
    obtain ⟨r1, r2, rfl, hk1, hk2⟩ := keys_split hk
    cases hk2 with
    | @cons _ _ tok r2 hk3 hk4 =>
      have hlen : r1.length = k := by rw [h8, hk1.length]
      have htok : (t :: (r1 ++ tok :: r2)).getD (k + 1) [] = tok := by
        rw [← hlen]
        simp
      obtain ⟨hthird, x, hx, hme⟩ := key_slot hk3 h9 c.pc (z80Lead (r.1.headD 0)).length
      obtain ⟨v, hv, hvx⟩ := slot_number (z80Slot_ok hook hpc _ tok) hx
      refine ⟨_, z80Emit_some hh htok hthird hv, ?_⟩
      have hlen1 : r.1.length = 1 ∨ hook = .index := by simpa using h6
      rw [decode_row hp (data := z80Bytes hook v) (by
          rcases hlen1 with h | rfl
          · exact .inl h
          · exact .inr rfl)]
      obtain ⟨d, w, hf, hme'⟩ := fill_value (p := p) h4 v
      rw [hf]
      congr 1
      refine fill_unique h4 hf hi hme' hme ?_
      cases hook with
      | nn => exact .inl hvx
      | n | e | index | d => exact .inr ⟨by simp, hvx⟩

theorem odd_lost {r : List Nat × String × List String} (hr : r ∈ z80OddRows) {p : String × List Z80Arg} (hp : z80RowShape r.1 = some p) : z80LostShape p = true := by
  have : ∀ r ∈ z80OddRows, (z80RowShape r.1).all z80LostShape = true := by decide +kernel
  have := this r hr
  rw [hp] at this
  exact this

theorem lost_of {i : Z80Instr} {data : Bytes} {p : String × List Z80Arg} (hi : z80Fill p data = some i) (h : z80LostShape p = true) : Z80Lost i := by
  obtain ⟨a1, a2, -⟩ := fill_bounds hi
  have h : p ∈ _ := of_decide_eq_true h
  simp only [List.mem_cons, List.not_mem_nil, or_false] at h
  unfold Z80Lost
  rw [a1, a2]
  rcases h with rfl | rfl | rfl | rfl | rfl | rfl | rfl
  · exact ⟨false, .inl ⟨rfl, .inl rfl⟩⟩
  · exact ⟨true, .inl ⟨rfl, .inl rfl⟩⟩
  · exact ⟨false, .inl ⟨rfl, .inr (.inl rfl)⟩⟩
  · exact ⟨true, .inl ⟨rfl, .inr (.inl rfl)⟩⟩
  · exact ⟨false, .inl ⟨rfl, .inr (.inr rfl)⟩⟩
  · exact ⟨true, .inl ⟨rfl, .inr (.inr rfl)⟩⟩
  · exact ⟨true, .inr ⟨rfl, rfl⟩⟩

theorem names_upper : ∀ n < 68, upper (z80Names.getD n "").toList = (z80Names.getD n "").toList := by decide +kernel

theorem z80_accepts {c : Ctx} (hsy : c.sy = z80.sy) (hpc : 0 ≤ c.pc) {b : Bytes} {i : Z80Instr} (hb : decodeZ80 b = some i) (hl : ¬ Z80Lost i)
    {t : Str} {rest : List Str} (hw : Z80Written (m68Number c) t rest i) : ∃ blob, Emits z80 c t rest blob [] ∧ decodeZ80 blob = some i := by
  obtain ⟨p, data, n, keys, codes, hi, hf, he⟩ := decode_entry hb
  obtain ⟨a1, a2, -⟩ := fill_bounds hi
  simp only [z80EntryOk, Bool.and_eq_true, decide_eq_true_eq, beq_iff_eq] at he
  obtain ⟨⟨⟨⟨⟨hn, hname⟩, hkeys⟩, hargs⟩, hk⟩, hcodes⟩ := he
  have hne : codes.isEmpty = false := by
    cases h : codes.isEmpty with
    | false => rfl
    | true =>
      rw [h] at hcodes
      exact absurd (lost_of hi hcodes) hl
  rw [hne] at hcodes
  have hcodes : z80RowShape codes = some p := by simpa using hcodes
  simp only [z80OpOk, hne, Bool.false_or, beq_iff_eq] at hf
  have hk : ∀ k ∈ keys, k < 78 := by simpa using hk
  have hkt : Z80Keys (m68Number c) i.disp i.value (keys.map z80Word) rest := by
    rw [← hkeys]
    have := hw.2
    rw [a2] at this
    exact keys_of_args hargs this
  obtain ⟨w, hw1, hw2, hm, hcall⟩ := find_sound (t := t) hsy hk hkt (enc_words n hn) hf
  have hkey : z80.key t = (z80Names.getD n "").toList := by
    have := hw.1
    rw [a1, hname] at this
    exact (show upper t = upper _ from this).trans (names_upper n hn)
  have hvar : z80Variants (z80.key t) = (z80Enc.getD n []).map fun v => (v.1, v.2.map z80Word) := by rw [hkey]; exact enc_variants n hn
  have hmem : (codes, w.2.map z80Word) ∈ z80Variants (z80.key t) := by
    rw [hvar, ← hw2]
    exact List.mem_map_of_mem hw1
  obtain ⟨r, hr, hr1, hr2, hr3⟩ := variants_row hmem
  have hrs : z80RowShape r.1 = some p := by rw [hr1]; exact hcodes
  rcases rows_ok hr with hok | hodd
  · obtain ⟨as, g1, g2, -⟩ := rowOk_parts hok
    have hkr : Z80Keys (m68Number c) i.disp i.value r.2.2 rest := by
      rw [hrs] at g1
      cases g1
      rw [← g2]
      have := hkt
      rw [← hkeys] at this
      exact this
    obtain ⟨blob, hblob, hdec⟩ := row_emits (t := t) hpc hok hrs hi hkr
    rw [hr1, hr2] at hblob
    refine ⟨blob, .handler (f := fun tokens => z80Call tokens (z80Variants (z80.key t))) ?_ ?_, hdec⟩
    · show (match z80Variants (z80.key t) with
        | [] => none
        | vs => some (InstrDef.handler fun tokens => z80Call tokens vs)) = _
      cases hv : z80Variants (z80.key t) with
      | nil => rw [hv] at hmem; cases hmem
      | cons => rfl
    · show z80Call (t :: rest) (z80Variants (z80.key t)) c = _
      rw [hvar, hcall]
      exact lift_bind hblob rfl
  · exact absurd (lost_of hi (odd_lost hodd hrs)) hl

end Necro
