import Verif.Lemmas.ThumbAll
import Verif.Lemmas.Line
/-!
# Thumb: instruction encoding

C61.  `Spec/Thumb` has the processor's decoder, written from the data sheet.
-/

namespace Necro
open Spec

theorem thumb_key (t : Str) : thumb.key t = upper t := rfl

/-- The method an accepted line is handled by. -/
theorem thumb_row {c : Ctx} {t : Str} {rest : List Str} {blob : Bytes} {rels : List Reloc} (h : Emits thumb c t rest blob rels) :
    (eqNoCase t "BL".toList ∧ thBl (t :: rest) c = (.ok (some blob), rels)) ∨
    (eqNoCase t "PUSH".toList ∧ thPush (t :: rest) c = (.ok (some blob), rels)) ∨
    ∃ m fs, (m, fs) ∈ thTable ∧ eqNoCase t m.toList ∧ thRun fs (t :: rest) c = (.ok (some blob), rels) := by
  have hup : ∀ p ∈ thTable, upper p.1.toList = p.1.toList := by decide +kernel
  have hinv : ∀ {i}, thumb.instrs (upper t) = some i → (eqNoCase t "BL".toList ∧ i = .handler thBl) ∨ (eqNoCase t "PUSH".toList ∧ i = .handler thPush) ∨
      ∃ p ∈ thTable, eqNoCase t p.1.toList ∧ i = .handler (thRun p.2) := by
    intro i h
    simp only [thumb] at h
    split at h
    · next hk => cases h; exact .inl ⟨hk, rfl⟩
    · split at h
      · next hk => cases h; exact .inr (.inl ⟨hk, rfl⟩)
      · simp only [Option.map_eq_some_iff] at h
        obtain ⟨q, hq, hi⟩ := h
        obtain ⟨p, hp, he⟩ := List.mem_map.1 (mem_of_dget hq)
        simp only [Prod.mk.injEq] at he
        refine .inr (.inr ⟨p, hp, ?_, ?_⟩)
        · show upper t = upper p.1.toList
          rw [hup p hp, he.1]
        · rw [he.2]; exact hi.symm
  cases h with
  | fixed hf _ => rw [thumb_key] at hf; rcases hinv hf with ⟨_, h⟩ | ⟨_, h⟩ | ⟨p, _, _, h⟩ <;> cases h
  | handler hf he =>
    rw [thumb_key] at hf
    rcases hinv hf with ⟨h1, h⟩ | ⟨h1, h⟩ | ⟨p, hp, h1, h⟩ <;> cases h
    · exact .inl ⟨h1, he⟩
    · exact .inr (.inl ⟨h1, he⟩)
    · exact .inr (.inr ⟨p.1, p.2, hp, h1, he⟩)

theorem thumb_emits {m : String} {fs : List ThForm} (hm : (m, fs) ∈ thTable) {t : Str} (ht : eqNoCase t m.toList) {c : Ctx} {rest : List Str}
    {blob : Bytes} {rels : List Reloc} (h : thRun fs (t :: rest) c = (.ok (some blob), rels)) : Emits thumb c t rest blob rels := by
  refine .handler (f := thRun fs) ?_ h
  have hup : ∀ p ∈ thTable, upper p.1.toList = p.1.toList ∧ p.1.toList ≠ "BL".toList ∧ p.1.toList ≠ "PUSH".toList := by decide +kernel
  obtain ⟨h1, h2, h3⟩ := hup _ hm
  rw [thumb_key, show upper t = upper m.toList from ht, h1]
  simp only [thumb]
  rw [if_neg h2, if_neg h3]
  have hnd : (dkeys (thTable.map fun p => (p.1.toList, p.2))).Nodup := by decide +kernel
  rw [dget_of_mem hnd (List.mem_map_of_mem (f := fun p : String × List ThForm => (p.1.toList, p.2)) hm)]
  rfl

def thIsBranch (m : String) : Bool := (TOp.B :: thCondNames).any fun o => o.name == m

theorem thTable_placed : (thTable.all fun p => p.2.all fun f => f.bad || thWrong p.1 f ||
    (thPlaced (p.1 == "LDR") (thIsBranch p.1) f.fields f.ops 0 && decide (f.ops.countP ThOp.vish ≤ 1))) = true := by decide +kernel

theorem ThToks.mem {c : Ctx} {os : List ThOp} {ts : List Str} {vs : List Int} {rels : List Reloc} (h : ThToks c os ts vs rels) {o : ThOp} (ho : o ∈ os) :
    ∃ t ∈ ts, o.pat.matches t = true := by
  induction h with
  | nil => cases ho
  | skip _ h _ ih =>
    rcases List.mem_cons.1 ho with rfl | ho
    · exact ⟨_, by simp, h⟩
    · obtain ⟨t, h1, h2⟩ := ih ho; exact ⟨t, by simp [h1], h2⟩
  | read _ h _ _ ih =>
    rcases List.mem_cons.1 ho with rfl | ho
    · exact ⟨_, by simp, h⟩
    · obtain ⟨t, h1, h2⟩ := ih ho; exact ⟨t, by simp [h1], h2⟩

theorem thTable_add : ∀ p ∈ thTable, p.1 = "ADD" → ∀ f ∈ p.2, f.bad = false → (.pc ∈ f.ops ∨ .sp ∈ f.ops) →
    f.ops = [.low, .pc, .imm] ∨ f.ops = [.low, .sp, .imm] := by decide +kernel

theorem thTable_shift : ∀ p ∈ thTable, p.1 = "LSR" ∨ p.1 = "ASR" → ∀ f ∈ p.2, .imm ∈ f.ops →
    f.ops = [.low, .low, .imm] ∧ f.fields.head? = some ⟨10, 6, .val 2 0⟩ := by decide +kernel

/-- Rows with a wrong code are the lines listed in `ThOdd`. -/
theorem wrong_odd {m : String} {fs : List ThForm} (hm : (m, fs) ∈ thTable) {f : ThForm} (hf : f ∈ fs) (hbad : f.bad = false) {t : Str}
    (ht : eqNoCase t m.toList) {c : Ctx} {rest : List Str} {vs : List Int} {rels : List Reloc} (htoks : ThToks c f.ops rest vs rels)
    (hw : thWrong m f = true) (value : Str → Int → Prop) : ThOdd value t rest := by
  simp only [thWrong, Bool.or_eq_true, Bool.and_eq_true, beq_iff_eq, List.contains_iff_mem] at hw
  rcases hw with ((⟨rfl, h⟩ | ⟨rfl, h⟩) | rfl) | ⟨rfl, h⟩
  · rcases thTable_add _ hm rfl f hf hbad h with he | he
    · have hm := htoks.matches
      rw [he] at hm
      simp only [List.map_cons, List.map_nil] at hm
      match rest, hm with
      | [], hm => simp [matchAll] at hm
      | [_], hm => simp [matchAll] at hm
      | [_, _], hm => simp [matchAll] at hm
      | [a, b, i], hm =>
        simp only [matchAll, Bool.and_eq_true] at hm
        exact .addOffset ht rfl (.inr rfl) ((matches_pc b).1 hm.2.1)
      | _ :: _ :: _ :: _ :: _, hm => simp [matchAll] at hm
    · have hm := htoks.matches
      rw [he] at hm
      simp only [List.map_cons, List.map_nil] at hm
      match rest, hm with
      | [], hm => simp [matchAll] at hm
      | [_], hm => simp [matchAll] at hm
      | [_, _], hm => simp [matchAll] at hm
      | [a, b, i], hm =>
        simp only [matchAll, Bool.and_eq_true] at hm
        exact .addOffset ht rfl (.inl rfl) ((matches_sp b).1 hm.2.1)
      | _ :: _ :: _ :: _ :: _, hm => simp [matchAll] at hm
  · obtain ⟨t', h1, h2⟩ := htoks.mem h
    obtain ⟨u, -, rfl⟩ := (matches_hash t').1 h2
    exact .ldrb ht h1
  · exact .ldrh ht
  · obtain ⟨t', h1, h2⟩ := htoks.mem h
    obtain ⟨u, -, rfl⟩ := (matches_hash t').1 h2
    exact .str ht h1

/-- A right shift by nothing is in `ThOdd`. -/
theorem zero_odd {m : String} {fs : List ThForm} (hm : (m, fs) ∈ thTable) {f : ThForm} (hf : f ∈ fs) {t : Str}
    (ht : eqNoCase t m.toList) {c : Ctx} {rest : List Str} {vs : List Int} {rels : List Reloc} (htoks : ThToks c f.ops rest vs rels)
    (hok : ∀ g ∈ f.fields, FieldOk (g.bits vs)) (hz : thZero m f (f.fields.map (ThField.raw vs)) = true) : ThOdd (OperandValue c rels) t rest := by
  simp only [thZero, Bool.or_eq_true, Bool.and_eq_true, beq_iff_eq, List.contains_iff_mem] at hz
  obtain ⟨⟨hname, himm⟩, hz⟩ := hz
  obtain ⟨he, hfd⟩ := thTable_shift _ hm hname f hf himm
  rw [List.head?_map, hfd] at hz
  simp only [Option.map_some, Option.some.injEq] at hz
  have hok := hok _ (List.mem_of_head? hfd)
  rw [he] at htoks
  cases htoks with
  | skip h => cases h
  | read h1 h2 h3 hr =>
    cases hr with
    | skip h => cases h
    | read h4 h5 h6 hr =>
      cases hr with
      | skip h => cases h
      | read h7 h8 h9 hr =>
        cases hr
        cases h7
        have e1 := plain_conv rfl h1 h2 h3
        have e2 := plain_conv rfl h4 h5 h6
        subst e1 e2
        obtain ⟨u, -, rfl⟩ := (matches_hash _).1 h8
        obtain ⟨rfl, hp⟩ := thImm_ok h9
        obtain ⟨x, hx, h2, -, h4, h5⟩ := number_bounds (by decide) hp
        have h5 := h5 rfl
        refine .shift (by rcases hname with rfl | rfl; exact .inl ht; exact .inr ht) (by simp) hx ?_
        have hz : (pyShr _ 0 % 2 ^ 5).toNat = 0 := hz
        have hok : pyShr _ 0 < 2 ^ 5 := hok.2.2
        rw [pyShr_div] at hz hok
        simp only [List.getD_cons_succ, List.getD_cons_zero] at hz hok
        omega

theorem table_decodes {m : String} {fs : List ThForm} (hm : (m, fs) ∈ thTable) {t : Str} (ht : eqNoCase t m.toList) {c : Ctx} {rest : List Str}
    {blob : Bytes} {rels : List Reloc} (h : thRun fs (t :: rest) c = (.ok (some blob), rels)) (hodd : ¬ ThOdd (OperandValue c rels) t rest) :
    blob.length = 2 ∧ ∃ i, decode16 (ofBytes false blob) = some i ∧ ThWritten (OperandValue c rels) t rest i := by
  obtain ⟨f, hf, hmat, hb⟩ := thRun_ok h
  obtain ⟨hbad, vs, happ, hpk⟩ := ThForm.build_ok hb
  have htoks := ThToks.of hmat happ
  have hok := th_packed_ok hpk
  have hsane := List.all_eq_true.1 (List.all_eq_true.1 thTable_sane _ hm) f hf
  obtain ⟨hpk', hlt⟩ := th_packed hsane hok
  rw [hpk'] at hpk
  cases hpk
  refine ⟨wordBytes_length _ _ _, ?_⟩
  have hw := ofBytes_wordBytes false 2 ((thWordOf f.base f.fields (f.fields.map (ThField.raw vs)) : Nat) : Int)
  rw [show ofBytes false (wordBytes false 2 ((thWordOf f.base f.fields (f.fields.map (ThField.raw vs)) : Nat) : Int)) =
    thWordOf f.base f.fields (f.fields.map (ThField.raw vs)) by omega]
  obtain ⟨op, hop, hdec⟩ := th_row hm
  have hwr : thWrong m f = false := by
    cases hw : thWrong m f with
    | false => rfl
    | true => exact absurd (wrong_odd hm hf hbad ht htoks hw _) hodd
  have hze : thZero m f (f.fields.map (ThField.raw vs)) = false := by
    cases hz : thZero m f (f.fields.map (ThField.raw vs)) with
    | false => rfl
    | true => exact absurd (zero_odd hm hf ht htoks hok hz) hodd
  refine ⟨_, hdec f hf hwr vs hok hze, by rw [hop]; exact ht, ?_⟩
  have hpl := List.all_eq_true.1 (List.all_eq_true.1 thTable_placed _ hm) f hf
  simp only [hbad, hwr, Bool.or_self, Bool.false_or, Bool.and_eq_true, decide_eq_true_eq] at hpl
  refine th_args hok htoks 0 rfl hpl.1 hpl.2 (fun _ => rfl) ?_ ?_
  · intro hl u x hu hx
    rw [beq_iff_eq] at hl
    subst hl
    rcases Classical.em (0 ≤ x ∧ x % 4 = 0) with h | h
    · exact h
    · exact absurd (.offset ht hu hx (by omega)) hodd
  · intro hl t' ht' x hx
    rcases Classical.em (x % 2 = 0) with h | h
    · exact h
    · refine absurd (.odd ?_ ht' hx h) hodd
      simp only [thIsBranch, List.any_eq_true, beq_iff_eq] at hl
      obtain ⟨o, ho, rfl⟩ := hl
      exact ⟨o, ho, ht⟩

/-- C61: a line that is accepted (other than `BL` and the lines of `ThOdd`) is two bytes, and the
processor decodes them to the instruction written: the same mnemonic, the registers named and the value
of the immediate or distance. -/
theorem C61_decodes (c : Ctx) (t : Str) (rest : List Str) (blob : Bytes) (rels : List Reloc) (hem : Emits thumb c t rest blob rels)
    (hbl : ¬ eqNoCase t "BL".toList) (hodd : ¬ ThOdd (OperandValue c rels) t rest) :
    blob.length = 2 ∧ ∃ i, decode16 (ofBytes false blob) = some i ∧ ThWritten (OperandValue c rels) t rest i := by
  rcases thumb_row hem with ⟨h, -⟩ | ⟨ht, h⟩ | ⟨m, fs, hm, ht, h⟩
  · exact absurd h hbl
  · obtain ⟨h1, h2, mask, h3, h4⟩ := thPush_ok h fun pre x hr hx => hodd (.push ht hr hx)
    refine ⟨h1, _, h3, ht, ?_⟩
    have := ThArgsText.cons (h4 (OperandValue c rels)) .nil
    rwa [List.append_nil] at this
  · exact table_decodes hm ht h hodd

theorem lower_of_not_upper {t : Str} (h : ∀ c ∈ t, c.isUpper = false) : lower t = t := by
  unfold lower
  conv => rhs; rw [← List.map_id t]
  apply List.map_congr_left
  intro c hc
  have := h c hc
  show c.toLower = c
  unfold Char.toLower
  rw [dif_neg]
  intro hu
  have : c.isUpper = true := by unfold Char.isUpper; simpa using hu
  rw [h c hc] at this
  cases this

theorem thPush_of {c : Ctx} {t : Str} {items : List Str} (hne : items ≠ [])
    (hi : ∀ x ∈ items, (∃ a b, ThItem x a b) ∧ ('-' ∈ x ∨ ∀ c ∈ x, c.isUpper = false)) :
    ∃ blob, thPush (t :: (['{'] :: items ++ [['}']])) c = (.ok (some blob), []) := by
  obtain ⟨mid, x, rfl⟩ : ∃ mid x, items = mid ++ [x] := by
    rcases List.eq_nil_or_concat items with h | ⟨m, x, h⟩
    · exact absurd h hne
    · exact ⟨m, x, by simpa using h⟩
  obtain ⟨r, hr⟩ := thRlist_of (m := 0) (fun x hx => ⟨(hi x hx).1, (hi x hx).2.imp id lower_of_not_upper⟩)
  obtain ⟨mask, rfl, -, i2⟩ := thRlist_ok hr
  have hmask : mask < 2 ^ 8 := by
    apply Nat.lt_pow_two_of_testBit
    intro k hk
    cases hb : mask.testBit k with
    | false => rfl
    | true =>
      rcases (i2 k).1 hb with h | ⟨t', _, a', b', hi, _, hkb⟩
      · simp at h
      · have := hi.lt; omega
  have hlr : ¬ lower x = "lr".toList := by
    intro hx
    obtain ⟨⟨a, b, h⟩, -⟩ := hi x (by simp)
    have hx : upper x = upper "lr".toList := by
      rw [← hx]
      simp only [upper, lower, List.map_map]
      exact List.map_congr_left fun c _ => (toUpper_toLower c).symm
    have hreg : ThReg x 14 := ⟨"lr", by decide, hx⟩
    cases h with
    | one h1 h2 => have := thReg_unique hreg h2; omega
    | range => exact absurd (by simp) (thReg_no_dash hreg)
  have hpk : ∃ b, packBitsLe16u 0xB400 [⟨11, 11, ((0 : Nat) : Int)⟩, ⟨7, 0, (mask : Int)⟩] = .ok b := push_packs hmask
  obtain ⟨b, hb⟩ := hpk
  refine ⟨b, ?_⟩
  unfold thPush
  have e : t :: (['{'] :: (mid ++ [x]) ++ [['}']]) = (t :: ['{'] :: mid) ++ [x, ['}']] := by simp
  rw [e]
  have g2 : ((t :: ['{'] :: mid) ++ [x, ['}']]).getD (((t :: ['{'] :: mid) ++ [x, ['}']]).length - 1) [] = ['}'] := by
    rw [List.getD_eq_getElem?_getD, List.getElem?_append_right (by simp), show ((t :: ['{'] :: mid) ++ [x, ['}']]).length - 1 - (t :: ['{'] :: mid).length = 1 by simp only [List.length_append, List.length_cons, List.length_nil]; omega]
    rfl
  have g3 : ((t :: ['{'] :: mid) ++ [x, ['}']]).getD (((t :: ['{'] :: mid) ++ [x, ['}']]).length - 2) [] = x := by
    rw [List.getD_eq_getElem?_getD, List.getElem?_append_right (by simp), show ((t :: ['{'] :: mid) ++ [x, ['}']]).length - 2 - (t :: ['{'] :: mid).length = 0 by simp only [List.length_append, List.length_cons, List.length_nil]; omega]
    rfl
  have g4 : (((t :: ['{'] :: mid) ++ [x, ['}']]).take (((t :: ['{'] :: mid) ++ [x, ['}']]).length - (1 + 0))).drop 2 = mid ++ [x] := by
    rw [show (t :: ['{'] :: mid) ++ [x, ['}']] = (t :: ['{'] :: mid ++ [x]) ++ [['}']] by simp]
    rw [List.take_append_of_le_length (by simp), List.take_of_length_le (by simp)]
    rfl
  rw [if_neg (by simp), if_neg (by rw [g2]; simp)]
  rw [g3, if_neg hlr]
  show (H.lift (thRlist 0 ((((t :: ['{'] :: mid) ++ [x, ['}']]).take (((t :: ['{'] :: mid) ++ [x, ['}']]).length - (1 + 0))).drop 2)) >>= fun r =>
    H.lift (packBitsLe16u 0xB400 [⟨11, 11, ((0 : Nat) : Int)⟩, ⟨7, 0, r⟩]) >>= fun b => pure (some b)) c = _
  rw [g4, H.bind_run (show (H.lift (thRlist 0 (mid ++ [x])) : H Int) c = (.ok (mask : Int), []) by rw [H.lift_apply]; exact congrArg (·, []) hr)]
  rw [H.bind_run (show (H.lift _ : H Bytes) c = (.ok b, []) by rw [H.lift_apply, hb])]
  rfl

theorem regs_unique {mask mask' : Nat} {items : List Str}
    (h : ∀ r, mask.testBit r = true ↔ ∃ t ∈ items, ∃ a b, ThItem t a b ∧ a ≤ r ∧ r ≤ b)
    (h' : ∀ r, mask'.testBit r = true ↔ ∃ t ∈ items, ∃ a b, ThItem t a b ∧ a ≤ r ∧ r ≤ b) : mask = mask' := by
  apply Nat.eq_of_testBit_eq
  intro k
  rw [Bool.eq_iff_iff, h, h']

/-- C61: every instruction of the processor, `BL` and those of `thMissing` apart, can be written: each
plain text of it, with the registers and the mnemonic in any case, is accepted, and the processor
decodes the result to that instruction. -/
theorem C61_complete (c : Ctx) (hpc : 0 ≤ c.pc) (w : Nat) (i : TInstr) (hw : decode16 w = some i) (hmiss : thMissing i = false)
    (t : Str) (ht : eqNoCase t i.op.name.toList) (rest : List Str) (hr : ThPlainArgs (TokenValue c.sy c.labels) i.args rest) :
    ∃ blob, Emits thumb c t rest blob [] ∧ blob.length = 2 ∧ decode16 (ofBytes false blob) = some i := by
  rcases decode_has hw hmiss with ⟨mask, rfl, hmask⟩ | h
  · cases hr with
    | cons h1 h2 =>
      cases h2
      cases h1 with
      | @regs _ items hne hit hbits =>
        rw [List.append_nil]
        obtain ⟨blob, hb⟩ := thPush_of (c := c) (t := t) hne hit
        refine ⟨blob, .handler (f := thPush) ?_ hb, ?_⟩
        · rw [thumb_key, show upper t = upper "PUSH".toList from ht]; rfl
        · obtain ⟨l1, -, mask', l3, l4⟩ := thPush_ok hb fun pre x hp hx => by
            rcases List.eq_nil_or_concat items with rfl | ⟨m, y, rfl⟩
            · exact hne rfl
            · have hpy : (['{'] :: m) ++ [y, ['}']] = pre ++ [x, ['}']] := by simpa using hp
              have := (List.append_inj' hpy rfl).2
              cases this
              obtain ⟨⟨a, b, h⟩, -⟩ := hit x (by simp)
              have hreg : ThReg x 14 := ⟨"lr", by decide, hx⟩
              cases h with
              | one h1 h2 => have := thReg_unique hreg h2; omega
              | range => exact absurd (by simp) (thReg_no_dash hreg)
          refine ⟨l1, ?_⟩
          rw [l3]
          generalize hq : (['{'] :: items ++ [['}']]) = q at l4
          have := l4 (fun _ _ => True)
          cases this with
          | @regs _ items' _ _ hbits' =>
            have : items = items' := by
              have := List.append_inj' (List.cons.inj hq).2 rfl
              exact this.1
            subst this
            rw [regs_unique hbits hbits']
  · obtain ⟨fs, blob, hm, hrun, hl, hdec⟩ := h.code hpc (t := t) hr
    exact ⟨blob, thumb_emits hm ht hrun, hl, hdec⟩

/-! ### Examples, and the lines of `ThOdd` -/

/-- A context at address 0x100, without labels. -/
def exTh : Ctx := { pc := 0x100, labels := [], sy := thumb.sy, bitsMode := 0 }

/-- `ADD r1, R2, #7` meets the hypotheses of `C61_decodes`. -/
example : Emits thumb exTh "add".toList ["r1".toList, "R2".toList, "#7".toList] [0xD1#8, 0x1D#8] [] ∧
    ¬ eqNoCase "add".toList "BL".toList ∧ ¬ ThOdd (OperandValue exTh []) "add".toList ["r1".toList, "R2".toList, "#7".toList] := by
  refine ⟨.handler rfl (Prod.ext (by decide +kernel) rfl), by unfold eqNoCase; decide +kernel, ?_⟩
  have no : ∀ m ∈ ["LDRB", "LDRH", "STR", "LSR", "ASR", "LDR", "PUSH"], ¬ eqNoCase "add".toList m.toList := by unfold eqNoCase; decide +kernel
  have nob : ∀ m ∈ TOp.B :: thCondNames, ¬ eqNoCase "add".toList m.name.toList := by unfold eqNoCase; decide +kernel
  intro h
  cases h with
  | addOffset _ he hn hr =>
    cases he
    have := thReg_unique hr (⟨"r2", by decide, rfl⟩ : ThReg "R2".toList 2)
    omega
  | ldrb h => exact no _ (by decide) h
  | ldrh h => exact no _ (by decide) h
  | str h => exact no _ (by decide) h
  | shift h => exact h.elim (no _ (by decide)) (no _ (by decide))
  | offset h => exact no _ (by decide) h
  | odd h => obtain ⟨n, hn, h⟩ := h; exact nob n hn h
  | push h => exact no _ (by decide) h

/-- `ldr r3, [pc, #0x10]` meets those of `C61_complete`. -/
example : decode16 0x4B04 = some ⟨.LDR, [.reg 3, .lb, .reg 15, .imm 16, .rb]⟩ ∧ thMissing ⟨.LDR, [.reg 3, .lb, .reg 15, .imm 16, .rb]⟩ = false ∧
    ThPlainArgs (TokenValue exTh.sy exTh.labels) [.reg 3, .lb, .reg 15, .imm 16, .rb]
      ["r3".toList, ['['], "pc".toList, "#0x10".toList, [']']] := by
  refine ⟨by decide +kernel, rfl, ?_⟩
  have hv : TokenValue exTh.sy exTh.labels "0x10".toList 16 false := ⟨16, by decide +kernel, by decide +kernel⟩
  exact .cons (.reg ⟨"r3", by decide, rfl⟩) (.cons .lb (.cons (.reg ⟨"pc", by decide, rfl⟩) (.cons (.imm (v := 16) hv (.inl (by decide))) (.cons .rb .nil))))

/-- What a line decodes to after assembling. -/
def ThBecomes (t : String) (rest : List String) (i : TInstr) : Prop :=
  ∃ blob rels, Emits thumb exTh t.toList (rest.map String.toList) blob rels ∧ decode16 (ofBytes false blob) = some i

/-- A line that does not assemble. -/
def ThRejected (t : String) (rest : List String) : Prop := ∀ blob rels, ¬ Emits thumb exTh t.toList (rest.map String.toList) blob rels

theorem becomes_of {t : String} {rest : List String} {i : TInstr}
    (h : (lineBytes thumb exTh t.toList (rest.map String.toList)).bind (fun b => decode16 (ofBytes false b)) = some i) : ThBecomes t rest i := by
  obtain ⟨b, h1, h2⟩ := Option.bind_eq_some_iff.1 h
  obtain ⟨rels, h3⟩ := lineBytes_some h1
  exact ⟨b, rels, h3, h2⟩

/-- Disagreement: a store with an immediate offset has the code of a load. -/
theorem C61_str : ThBecomes "STR" ["r0", "[", "r1", "#4", "]"] ⟨.LDR, [.reg 0, .lb, .reg 1, .imm 4, .rb]⟩ := becomes_of (by decide +kernel)

/-- Disagreement: a halfword load with a register offset has the code of a comparison. -/
theorem C61_ldrh : ThBecomes "LDRH" ["r0", "[", "r1", "r2", "]"] ⟨.CMP, [.reg 4, .imm 136]⟩ := becomes_of (by decide +kernel)

/-- Disagreement: the immediate offset of a halfword load is doubled. -/
theorem C61_ldrh_imm : ThBecomes "LDRH" ["r0", "[", "r1", "#6", "]"] ⟨.LDRH, [.reg 0, .lb, .reg 1, .imm 12, .rb]⟩ := becomes_of (by decide +kernel)

/-- Disagreement: the immediate offset of a byte load is divided by four. -/
theorem C61_ldrb_imm : ThBecomes "LDRB" ["r0", "[", "r1", "#8", "]"] ⟨.LDRB, [.reg 0, .lb, .reg 1, .imm 2, .rb]⟩ := becomes_of (by decide +kernel)

/-- Disagreement: the offset of `ADD rd, pc` is multiplied by four. -/
theorem C61_add_pc : ThBecomes "ADD" ["r0", "pc", "#4"] ⟨.ADD, [.reg 0, .reg 15, .imm 16]⟩ := becomes_of (by decide +kernel)

/-- Disagreement: so is that of `ADD rd, sp`. -/
theorem C61_add_sp : ThBecomes "ADD" ["r0", "sp", "#4"] ⟨.ADD, [.reg 0, .reg 13, .imm 16]⟩ := becomes_of (by decide +kernel)

/-- Disagreement: pushing the link register has the code of a pop. -/
theorem C61_push_lr : ThBecomes "PUSH" ["{", "r0", "lr", "}"] ⟨.POP, [.regs 1 false]⟩ := becomes_of (by decide +kernel)

/-- Disagreement: a right shift by 0 shifts by 32. -/
theorem C61_shift : ThBecomes "LSR" ["r0", "r1", "#0"] ⟨.LSR, [.reg 0, .reg 1, .imm 32]⟩ := becomes_of (by decide +kernel)

/-- Disagreement: a negative offset from the program counter becomes a large positive one. -/
theorem C61_offset : ThBecomes "LDR" ["r0", "[", "pc", "#-4", "]"] ⟨.LDR, [.reg 0, .lb, .reg 15, .imm 1020, .rb]⟩ := becomes_of (by decide +kernel)

/-- Disagreement: the low bits of a load offset are dropped. -/
theorem C61_unaligned : ThBecomes "LDR" ["r0", "[", "r1", "#7", "]"] ⟨.LDR, [.reg 0, .lb, .reg 1, .imm 4, .rb]⟩ := becomes_of (by decide +kernel)

/-- Disagreement: the lowest bit of a branch distance is dropped. -/
theorem C61_odd_branch : ThBecomes "B" ["7"] ⟨.B, [.dist 12 6]⟩ := becomes_of (by decide +kernel)

/-- Disagreement: `ADD sp, #n` never assembles. -/
theorem C61_add_sp_never : ThRejected "ADD" ["sp", "#4"] := lineBytes_none (by decide +kernel)

/-- Disagreement: `STRB` never assembles. -/
theorem C61_strb_never (c : Ctx) (t : Str) (rest : List Str) (ht : eqNoCase t "STRB".toList) (blob : Bytes) (rels : List Reloc) :
    ¬ Emits thumb c t rest blob rels := by
  refine lineBytes_none ?_ blob rels
  unfold lineBytes
  rw [thumb_key, show upper t = upper "STRB".toList from ht]
  rfl

/-- Disagreement: a register in a list must be in lower case. -/
theorem C61_push_upper : ThRejected "PUSH" ["{", "R0", "}"] := lineBytes_none (by decide +kernel)

/-- Disagreement: a decimal offset from 128 on is refused, although offsets go up to 1020. -/
theorem C61_decimal_offset : ThRejected "LDR" ["r0", "[", "pc", "#200", "]"] := lineBytes_none (by decide +kernel)

end Necro
