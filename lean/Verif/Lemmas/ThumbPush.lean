import Verif.Lemmas.ThumbText
/-!
# Register lists
-/

namespace Necro
open Spec

theorem mem_upper {c : Char} {t : Str} (h : c ∈ t) : c.toUpper ∈ upper t := by
  simp only [upper]; exact List.mem_map_of_mem h

theorem thReg_no_dash {t : Str} {n : Nat} (h : ThReg t n) : '-' ∉ t := by
  have hn := thReg_lt h
  obtain ⟨s, hs, he⟩ := h
  intro hm
  have : ∀ n, n < 16 → ∀ s ∈ thRegNames.getD n [], '-' ∉ upper s.toList := by decide +kernel
  apply this n hn s hs
  rw [← show upper t = upper s.toList from he]
  exact mem_upper hm

theorem span_dash {a b : Str} (ha : '-' ∉ a) : (a ++ '-' :: b).takeWhile (· ≠ '-') = a ∧ (a ++ '-' :: b).dropWhile (· ≠ '-') = '-' :: b := by
  induction a with
  | nil => simp
  | cons x a ih =>
    simp only [List.mem_cons, not_or] at ha
    have hx : x ≠ '-' := fun h => ha.1 h.symm
    obtain ⟨h1, h2⟩ := ih ha.2
    simp only [List.cons_append, List.takeWhile_cons, List.dropWhile_cons, hx, ne_eq, not_false_eq_true, decide_true, if_true]
    exact ⟨by rw [h1], h2⟩

theorem dash_inj {a b a' b' : Str} (ha : '-' ∉ a) (ha' : '-' ∉ a') (h : a ++ '-' :: b = a' ++ '-' :: b') : a = a' ∧ b = b' := by
  obtain ⟨h1, h2⟩ := span_dash (b := b) ha
  obtain ⟨h3, h4⟩ := span_dash (b := b') ha'
  rw [h] at h1 h2
  have := h2.symm.trans h4
  simp only [List.cons.injEq, true_and] at this
  exact ⟨h1.symm.trans h3, this⟩

theorem Spec.ThItem.unique {t : Str} {a b a' b' : Nat} (h : ThItem t a b) (h' : ThItem t a' b') : a = a' ∧ b = b' := by
  generalize ht : t = u at h'
  cases h with
  | one h1 h2 =>
    cases h' with
    | one h3 h4 => subst ht; have := thReg_unique h2 h4; exact ⟨this, this⟩
    | range h3 h4 h5 h6 => exact absurd (show '-' ∈ t by rw [ht]; simp) (thReg_no_dash h2)
  | range h1 h2 h3 h4 =>
    cases h' with
    | one h5 h6 => exact absurd (show '-' ∈ u by rw [← ht]; simp) (thReg_no_dash h6)
    | range h5 h6 h7 h8 =>
      obtain ⟨rfl, rfl⟩ := dash_inj (thReg_no_dash h3) (thReg_no_dash h7) ht
      exact ⟨thReg_unique h3 h7, thReg_unique h4 h8⟩

theorem packBit_nat (m i : Nat) : packBit (m : Int) [(i, 1)] = .ok ((m ||| 2 ^ i : Nat) : Int) := by
  obtain ⟨r, hr⟩ := (C04_pack_bit (m : Int) [(i, 1)]).2 (by simp)
  rw [hr]
  congr 1
  apply bit_ext
  intro k
  rw [Bool.eq_iff_iff, C04_pack_bit_bit _ _ _ hr k, bit_natCast, bit_natCast, Nat.testBit_or, Bool.or_eq_true, Nat.testBit_two_pow]
  simp

theorem thSetBits_nat (n : Nat) : ∀ (m first : Nat), ∃ m' : Nat, thSetBits (m : Int) first n = .ok (m' : Int) ∧
    ∀ k, m'.testBit k = true ↔ m.testBit k = true ∨ (first ≤ k ∧ k < first + n) := by
  induction n with
  | zero => intro m first; exact ⟨m, rfl, fun k => by constructor; exact .inl; rintro (h | h); exact h; omega⟩
  | succ n ih =>
    intro m first
    obtain ⟨m', h1, h2⟩ := ih (m ||| 2 ^ first) (first + 1)
    refine ⟨m', ?_, fun k => ?_⟩
    · rw [thSetBits, packBit_nat]; exact h1
    · rw [h2, Nat.testBit_or, Bool.or_eq_true, Nat.testBit_two_pow, decide_eq_true_eq]
      constructor
      · rintro ((h | h) | h)
        · exact .inl h
        · right; omega
        · right; omega
      · rintro (h | h)
        · exact .inl (.inl h)
        · by_cases hk : first = k
          · exact .inl (.inr hk)
          · right; omega

theorem thLow_reg {s : Str} {n : Nat} (h : thLow.findIdx? (· == s) = some n) : n < 8 ∧ ThReg s n := by
  rw [List.findIdx?_eq_some_iff_getElem] at h
  obtain ⟨hlt, h1, -⟩ := h
  have h8 : n < 8 := by simpa [thLow] using hlt
  refine ⟨h8, ?_⟩
  have : ∀ n (h : n < thLow.length), ∃ u ∈ thRegNames.getD n [], thLow[n] = u.toList := by decide +kernel
  obtain ⟨u, hu, he⟩ := this n hlt
  refine ⟨u, hu, ?_⟩
  rw [beq_iff_eq] at h1
  rw [← h1, he]
  rfl

theorem thReg_of_lower {s : Str} {n : Nat} (h : ThReg (lower s) n) : ThReg s n := by
  obtain ⟨u, hu, he⟩ := h
  refine ⟨u, hu, ?_⟩
  show upper s = upper u.toList
  rw [← show upper (lower s) = upper u.toList from he]
  simp only [upper, lower, List.map_map]
  apply List.map_congr_left
  intro c _
  exact (toUpper_toLower c).symm

theorem thLow_find {s : Str} {n : Nat} (hn : n < 8) (h : ThReg s n) : thLow.findIdx? (· == lower s) = some n := by
  obtain ⟨u, hu, he⟩ := h
  have : ∀ n, n < 8 → ∀ s ∈ thRegNames.getD n [], thLow.findIdx? (· == lower s.toList) = some n := by decide +kernel
  rw [lower_eq_of_upper_eq he]
  exact this n hn u hu

/-- What a list of registers that is accepted means. -/
theorem thRlist_ok {ts : List Str} : ∀ {m : Nat} {r : Int}, thRlist (m : Int) ts = .ok r →
    ∃ m' : Nat, r = (m' : Int) ∧ (∀ t ∈ ts, ∃ a b, ThItem t a b) ∧
      ∀ k, m'.testBit k = true ↔ m.testBit k = true ∨ ∃ t ∈ ts, ∃ a b, ThItem t a b ∧ a ≤ k ∧ k ≤ b := by
  induction ts with
  | nil => intro m r h; cases h; exact ⟨m, rfl, by simp, by simp⟩
  | cons t ts ih =>
    intro m r h
    have step : ∀ {m1 a b : Nat}, thRlist (m1 : Int) ts = .ok r → ThItem t a b → (∀ k, m1.testBit k = true ↔ m.testBit k = true ∨ (a ≤ k ∧ k ≤ b)) →
        ∃ m' : Nat, r = (m' : Int) ∧ (∀ t' ∈ t :: ts, ∃ a b, ThItem t' a b) ∧
          ∀ k, m'.testBit k = true ↔ m.testBit k = true ∨ ∃ t' ∈ t :: ts, ∃ a b, ThItem t' a b ∧ a ≤ k ∧ k ≤ b := by
      intro m1 a b h1 h2 h3
      obtain ⟨m', e, h4, h5⟩ := ih h1
      refine ⟨m', e, ?_, fun k => ?_⟩
      · intro t' ht'
        rcases List.mem_cons.1 ht' with rfl | ht'
        · exact ⟨a, b, h2⟩
        · exact h4 t' ht'
      · rw [h5, h3]
        constructor
        · rintro ((h | h) | ⟨t', ht', h⟩)
          · exact .inl h
          · exact .inr ⟨t, by simp, a, b, h2, h⟩
          · exact .inr ⟨t', by simp [ht'], h⟩
        · rintro (h | ⟨t', ht', a', b', h6, h7⟩)
          · exact .inl (.inl h)
          · rcases List.mem_cons.1 ht' with rfl | ht'
            · obtain ⟨rfl, rfl⟩ := h2.unique h6
              exact .inl (.inr h7)
            · exact .inr ⟨t', ht', a', b', h6, h7⟩
    rw [thRlist] at h
    cases hi : thLow.findIdx? (· == t) with
    | some i =>
      rw [hi] at h
      simp only [packBit_nat] at h
      obtain ⟨h8, hr⟩ := thLow_reg hi
      refine step h (.one h8 hr) fun k => ?_
      rw [Nat.testBit_or, Bool.or_eq_true, Nat.testBit_two_pow, decide_eq_true_eq]
      exact or_congr Iff.rfl (by omega)
    | none =>
      rw [hi] at h
      simp only at h
      split at h
      · next hd =>
        cases hs : splitDash t with
        | error e => rw [hs] at h; cases h
        | ok p =>
          obtain ⟨a, b⟩ := p
          rw [hs] at h
          simp only at h
          cases ha : thLow.findIdx? (· == lower a) with
          | none => rw [ha] at h; cases h
          | some first =>
            rw [ha] at h
            simp only at h
            cases hb : thLow.findIdx? (· == lower b) with
            | none => rw [hb] at h; cases h
            | some last =>
              rw [hb] at h
              simp only at h
              split at h
              · cases h
              · next hle =>
                obtain ⟨m', h1, h2⟩ := thSetBits_nat (last + 1 - first) m first
                rw [h1] at h
                obtain ⟨-, ra⟩ := thLow_reg ha
                obtain ⟨hb8, rb⟩ := thLow_reg hb
                have ra := thReg_of_lower ra
                have rb := thReg_of_lower rb
                have ht : t = a ++ '-' :: b := by
                  simp only [splitDash] at hs
                  split at hs
                  · cases hs
                  · cases hs
                    have : '-' ∈ t := by simpa using hd
                    have h1 : t.takeWhile (· ≠ '-') ++ t.dropWhile (· ≠ '-') = t := List.takeWhile_append_dropWhile
                    cases hdw : t.dropWhile (· ≠ '-') with
                    | nil =>
                      rw [hdw, List.append_nil] at h1
                      have h2 := List.all_takeWhile (p := fun x => decide (x ≠ '-')) (l := t)
                      rw [h1, List.all_eq_true] at h2
                      simpa using h2 _ this
                    | cons z zs =>
                      have hz : z = '-' := by
                        have := List.head?_dropWhile_not (· ≠ '-') t
                        rw [hdw] at this
                        simpa using this
                      subst hz
                      rw [hdw] at h1
                      simpa using h1.symm
                subst ht
                refine step h (.range (by omega) hb8 ra rb) fun k => ?_
                rw [h2]
                exact or_congr Iff.rfl (by omega)
      · cases h

/-- An item of a list is taken; a single register must be in lower case. -/
theorem thRlist_item {t : Str} {a b : Nat} (h : ThItem t a b) (hl : '-' ∈ t ∨ lower t = t) (m : Nat) (ts : List Str) :
    ∃ m' : Nat, thRlist (m : Int) (t :: ts) = thRlist (m' : Int) ts ∧ ∀ k, m'.testBit k = true ↔ m.testBit k = true ∨ (a ≤ k ∧ k ≤ b) := by
  cases h with
  | one h1 h2 =>
    have hl := hl.resolve_left (thReg_no_dash h2)
    have := thLow_find h1 h2
    rw [hl] at this
    refine ⟨m ||| 2 ^ a, ?_, fun k => ?_⟩
    · rw [thRlist, this]
      simp only [packBit_nat]
    · rw [Nat.testBit_or, Bool.or_eq_true, Nat.testBit_two_pow, decide_eq_true_eq]
      exact or_congr Iff.rfl (by omega)
  | @range x y _ _ h1 h2 h3 h4 =>
    have hno : thLow.findIdx? (· == x ++ '-' :: y) = none := by
      cases hf : thLow.findIdx? (· == x ++ '-' :: y) with
      | none => rfl
      | some i => exact absurd (by simp) (thReg_no_dash (thLow_reg hf).2)
    obtain ⟨m', h5, h6⟩ := thSetBits_nat (b + 1 - a) m a
    refine ⟨m', ?_, fun k => ?_⟩
    · have hs : splitDash (x ++ '-' :: y) = .ok (x, y) := by
        obtain ⟨e1, e2⟩ := span_dash (b := y) (thReg_no_dash h3)
        unfold splitDash
        rw [e1, e2]
        simp only [List.drop_succ_cons, List.drop_zero]
        rw [if_neg]
        simpa using thReg_no_dash h4
      rw [thRlist, hno]
      simp only [hs, thLow_find (by omega : a < 8) h3, thLow_find h2 h4, h5]
      rw [if_pos (by simp), if_neg (by omega)]
    · rw [h6]; exact or_congr Iff.rfl (by omega)

theorem thRlist_of {ts : List Str} : ∀ {m : Nat}, (∀ t ∈ ts, (∃ a b, ThItem t a b) ∧ ('-' ∈ t ∨ lower t = t)) →
    ∃ r, thRlist (m : Int) ts = .ok r := by
  induction ts with
  | nil => intro m _; exact ⟨_, rfl⟩
  | cons t ts ih =>
    intro m h
    obtain ⟨⟨a, b, h1⟩, h2⟩ := h t (by simp)
    obtain ⟨m', h3, -⟩ := thRlist_item h1 h2 m ts
    rw [h3]
    exact ih fun t' ht' => h t' (by simp [ht'])

theorem Spec.ThItem.lt {t : Str} {a b : Nat} (h : ThItem t a b) : b < 8 := by cases h <;> assumption

theorem decode_push : (List.range 256).all (fun m => decide (decode16 (0xB400 + m) = some ⟨.PUSH, [.regs m false]⟩)) = true := by decide +kernel

theorem push_pack {mask : Nat} (hm : mask < 2 ^ 8) : packBitsLe16u 0xB400 [⟨11, 11, ((0 : Nat) : Int)⟩, ⟨7, 0, (mask : Int)⟩] =
    .ok (wordBytes false 2 ((0xB400 + mask : Nat) : Int)) := by
  have hsum := packBits_sum [⟨11, 11, ((0 : Nat) : Int)⟩, ⟨7, 0, (mask : Int)⟩] 0xB400 (by decide)
    (by simp [FieldOk]; omega)
    (by
      intro f hf i hl hh
      rw [show (0xB400 : Int) = ((0xB400 : Nat) : Int) from rfl, bit_natCast]
      have h7 : ∀ i, i ≤ 7 → Nat.testBit 0xB400 i = false := by decide
      have h11 : Nat.testBit 0xB400 11 = false := by decide
      simp only [List.mem_cons, List.not_mem_nil, or_false] at hf
      rcases hf with rfl | rfl
      · simp only at hl hh; rw [show i = 11 by omega]; exact h11
      · exact h7 i hh)
    (by simp)
  have hv : (0xB400 : Int) + ([(⟨11, 11, ((0 : Nat) : Int)⟩ : BitField), ⟨7, 0, (mask : Int)⟩].map fieldPart).foldr (· + ·) 0 = ((0xB400 + mask : Nat) : Int) := by
    simp [fieldPart]
    omega
  unfold packBitsLe16u
  rw [hsum, hv]
  have := pack16u false ((0xB400 + mask : Nat) : Int) (by omega) (by omega)
  simp only [Bool.false_eq_true, if_false] at this
  exact this

theorem push_packs {mask : Nat} (hm : mask < 2 ^ 8) : ∃ b, packBitsLe16u 0xB400 [⟨11, 11, ((0 : Nat) : Int)⟩, ⟨7, 0, (mask : Int)⟩] = .ok b :=
  ⟨_, push_pack hm⟩

theorem push_word {mask : Nat} {b : Bytes} (hm : mask < 2 ^ 8) (h : packBitsLe16u 0xB400 [⟨11, 11, ((0 : Nat) : Int)⟩, ⟨7, 0, (mask : Int)⟩] = .ok b) :
    b = wordBytes false 2 ((0xB400 + mask : Nat) : Int) ∧ b.length = 2 ∧ decode16 (ofBytes false b) = some ⟨.PUSH, [.regs mask false]⟩ := by
  rw [push_pack hm] at h
  cases h
  have hw := ofBytes_wordBytes false 2 ((0xB400 + mask : Nat) : Int)
  have hw : ofBytes false (wordBytes false 2 ((0xB400 + mask : Nat) : Int)) = 0xB400 + mask := by omega
  refine ⟨rfl, wordBytes_length _ _ _, ?_⟩
  rw [hw]
  exact of_decide_eq_true (List.all_eq_true.1 decode_push mask (List.mem_range.2 hm))

theorem thPush_ok {t : Str} {rest : List Str} {c : Ctx} {blob : Bytes} {rels : List Reloc}
    (h : thPush (t :: rest) c = (.ok (some blob), rels)) (hlr : ∀ pre x, rest = pre ++ [x, ['}']] → ¬ eqNoCase x "lr".toList) :
    blob.length = 2 ∧ rels = [] ∧ ∃ mask, decode16 (ofBytes false blob) = some ⟨.PUSH, [.regs mask false]⟩ ∧ ∀ value, ThArgText value (.regs mask false) rest := by
  unfold thPush at h
  split at h
  · cases h
  next hlen =>
  split at h
  · cases h
  next hbr =>
  simp only [List.length_cons] at hlen
  obtain ⟨a, mid, x, z, rfl⟩ : ∃ a mid x z, rest = a :: mid ++ [x, z] := by
    match rest, hlen with
    | [], h => simp at h
    | a :: r1, h =>
      rcases List.eq_nil_or_concat r1 with rfl | ⟨r2, z, rfl⟩
      · simp at h
      · rcases List.eq_nil_or_concat r2 with rfl | ⟨r3, x, rfl⟩
        · simp at h
        · exact ⟨a, r3, x, z, by simp⟩
  have g1 : (t :: (a :: mid ++ [x, z])).getD 1 [] = a := rfl
  have g2 : (t :: (a :: mid ++ [x, z])).getD ((t :: (a :: mid ++ [x, z])).length - 1) [] = z := by
    rw [show t :: (a :: mid ++ [x, z]) = (t :: a :: mid) ++ [x, z] by simp]
    rw [List.getD_eq_getElem?_getD, List.getElem?_append_right (by simp), show ((t :: a :: mid) ++ [x, z]).length - 1 - (t :: a :: mid).length = 1 by simp only [List.length_append, List.length_cons, List.length_nil]; omega]
    rfl
  have g3 : (t :: (a :: mid ++ [x, z])).getD ((t :: (a :: mid ++ [x, z])).length - 2) [] = x := by
    rw [show t :: (a :: mid ++ [x, z]) = (t :: a :: mid) ++ [x, z] by simp]
    rw [List.getD_eq_getElem?_getD, List.getElem?_append_right (by simp), show ((t :: a :: mid) ++ [x, z]).length - 2 - (t :: a :: mid).length = 0 by simp only [List.length_append, List.length_cons, List.length_nil]; omega]
    rfl
  rw [g1, g2] at hbr
  have ha : a = ['{'] := Classical.byContradiction fun h => hbr (.inl h)
  have hz : z = ['}'] := Classical.byContradiction fun h => hbr (.inr h)
  subst ha hz
  have hx : ¬ lower x = "lr".toList := by
    intro hx
    refine hlr (['{'] :: mid) x rfl ?_
    show upper x = _
    have : upper (lower x) = upper x := by
      simp only [upper, lower, List.map_map]
      exact List.map_congr_left fun c _ => toUpper_toLower c
    rw [← this, hx]
    rfl
  rw [g3, if_neg hx] at h
  have g4 : ((t :: (['{'] :: mid ++ [x, ['}']])).take ((t :: (['{'] :: mid ++ [x, ['}']])).length - (1 + 0))).drop 2 = mid ++ [x] := by
    rw [show t :: (['{'] :: mid ++ [x, ['}']]) = (t :: ['{'] :: mid ++ [x]) ++ [['}']] by simp]
    rw [List.take_append_of_le_length (by simp), List.take_of_length_le (by simp)]
    rfl
  have h : (H.lift (thRlist 0 (((t :: (['{'] :: mid ++ [x, ['}']])).take ((t :: (['{'] :: mid ++ [x, ['}']])).length - (1 + 0))).drop 2)) >>= fun r =>
    H.lift (packBitsLe16u 0xB400 [⟨11, 11, ((0 : Nat) : Int)⟩, ⟨7, 0, r⟩]) >>= fun b => pure (some b)) c = (.ok (some blob), rels) := h
  rw [g4] at h
  obtain ⟨r, q1, q2, h1, h2, rfl⟩ := H.bind_ok h
  obtain ⟨b, q3, q4, h3, h4, rfl⟩ := H.bind_ok h2
  cases h4
  rw [H.lift_apply] at h1 h3
  obtain ⟨k1, h5⟩ := Prod.mk.inj h1
  obtain ⟨k3, h6⟩ := Prod.mk.inj h3
  subst h5 h6
  obtain ⟨mask, rfl, i1, i2⟩ := thRlist_ok (m := 0) k1
  have hmask : mask < 2 ^ 8 := by
    apply Nat.lt_pow_two_of_testBit
    intro k hk
    cases hb : mask.testBit k with
    | false => rfl
    | true =>
      rcases (i2 k).1 hb with h | ⟨t', _, a', b', hi, _, hkb⟩
      · simp at h
      · have := hi.lt; omega
  obtain ⟨hblob, hlen2, hword⟩ := push_word hmask k3
  refine ⟨hlen2, rfl, mask, hword, fun value => ?_⟩
  rw [show ['{'] :: mid ++ [x, ['}']] = ['{'] :: (mid ++ [x]) ++ [['}']] by simp]
  exact .regs (by simp) i1 (fun k => by rw [i2 k]; simp)

end Necro
