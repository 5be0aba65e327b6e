import Verif.Lemmas.Lr35902
import Verif.Lemmas.Replaced
/-!
# C58–C60: the Game Boy processor
-/

namespace Necro
open Spec

/-! ## which method a mnemonic selects -/

theorem toUpper_idem (c : Char) : c.toUpper.toUpper = c.toUpper := by
  rw [← toUpper_toLower c.toUpper, toLower_toUpper, toUpper_toLower]

theorem upper_idem (t : Str) : upper (upper t) = upper t := by
  simp only [upper, List.map_map]
  exact List.map_congr_left fun c _ => toUpper_idem c

theorem eqNoCase_of_key {t : Str} {n : Str} (h : n = upper t) : eqNoCase t n := by
  show upper t = upper n
  rw [h, upper_idem]

theorem gb_fixed : ∀ p ∈ gbFixed, p.1 ≠ "BRA" → decodeGb [BitVec.ofNat 8 p.2] = some ⟨p.1, [], 0⟩ := by decide +kernel

theorem gb_vectors : ∀ p ∈ gbVectors, ∃ n ∈ List.range 64, p.1 ∈ gbVecText n ∧ decodeGb [BitVec.ofNat 8 p.2] = some ⟨"RST", [.vec n], 0⟩ := by
  decide +kernel

theorem gbLdh_parsed {c : Ctx} {t : Str} {rest : List Str} {blob : Bytes} {rels : List Reloc} (ht : eqNoCase t "LDH".toList)
    (h : gbLdh (t :: rest) c = (.ok (some blob), rels)) : GbParsed c t rest blob rels := by
  unfold gbLdh at h
  by_cases h1 : gbBracket (t :: rest) [] [Pat.pred gbIsValue] [Pat.str ['A']] = true
  · rw [if_pos h1] at h
    obtain ⟨o, a, e, b, rfl, hb, -, g⟩ := bracket_left h1
    obtain ⟨bs, r, r', h2, h3, rfl⟩ := H.bind_ok h
    obtain ⟨b', r1, r2, h4, h5, rfl⟩ := H.bind_ok h3
    cases h4; cases h5
    refine .operand (op := 0xE0) (kind := .d8) (tok := a) (bs := bs) (name := "LD") (as := [.high, .reg "A"]) rfl
      (by simp only [List.append_nil]; exact h2) ?_
      (fun value v ⟨x, hx, hv⟩ => .ldhStore ht rfl hb (match_A g) hx hv) (by decide)
    intro bs' v hv
    match bs', hv with
    | [x], hv => cases hv; rfl
  rw [if_neg h1] at h
  by_cases h2 : gbBracket (t :: rest) [Pat.str ['A']] [Pat.pred gbIsValue] [] = true
  · rw [if_pos h2] at h
    obtain ⟨b, o, a, e, rfl, hb, -, g⟩ := bracket_right h2
    obtain ⟨bs, r, r', h2, h3, rfl⟩ := H.bind_ok h
    obtain ⟨b', r1, r2, h4, h5, rfl⟩ := H.bind_ok h3
    cases h4; cases h5
    refine .operand (op := 0xF0) (kind := .d8) (tok := a) (bs := bs) (name := "LD") (as := [.reg "A", .high]) rfl
      (by simp only [List.append_nil]; exact h2) ?_
      (fun value v ⟨x, hx, hv⟩ => .ldhLoad ht rfl hb (match_A g) hx hv) (by decide)
    intro bs' v hv
    match bs', hv with
    | [x], hv => cases hv; rfl
  rw [if_neg h2] at h
  simp at h

theorem gbStop_parsed {c : Ctx} {t : Str} {rest : List Str} {blob : Bytes} {rels : List Reloc} (ht : eqNoCase t "STOP".toList)
    (h : gbStop (t :: rest) c = (.ok (some blob), rels)) : GbParsed c t rest blob rels := by
  unfold gbStop at h
  split at h
  · next h1 =>
    rw [hPackByte_apply] at h
    simp only [Prod.mk.injEq, Except.ok.injEq, Option.some.injEq] at h
    obtain ⟨rfl, rfl⟩ := h
    rw [Bool.or_eq_true, decide_eq_true_eq] at h1
    rcases h1 with h1 | h1
    · have : rest = [] := by simpa using h1
      subst this
      exact .plain rfl rfl fun _ => .plain ht .nil
    · obtain ⟨a, rfl, g⟩ := instr1 h1
      rw [matches_str a '0' (by decide) (by decide) (by decide), decide_eq_true_eq] at g
      exact .plain rfl rfl fun _ => .stop ht rfl (by rcases g with g | g <;> exact g)
  · simp at h

theorem gbRst_parsed {c : Ctx} {t : Str} {rest : List Str} {blob : Bytes} {rels : List Reloc} (ht : eqNoCase t "RST".toList)
    (h : gbRst (t :: rest) c = (.ok (some blob), rels)) : GbParsed c t rest blob rels := by
  unfold gbRst at h
  split at h
  · next h1 =>
    obtain ⟨a, rfl, -⟩ := instr1 h1
    simp only [List.getD_cons_succ, List.getD_cons_zero] at h
    cases hg : gbGet gbVectors (upper a) with
    | none => rw [hg] at h; simp at h
    | some op =>
      rw [hg] at h
      simp only [hPackByte_apply, Prod.mk.injEq, Except.ok.injEq, Option.some.injEq] at h
      obtain ⟨rfl, rfl⟩ := h
      obtain ⟨p, hp, hk, rfl⟩ := gbGet_mem hg
      obtain ⟨n, -, hn, hd⟩ := gb_vectors p hp
      exact .plain rfl hd fun _ => .plain ht (.one (.vec hn (eqNoCase_of_key hk)))
  · simp at h

theorem prefix_split {p a : Str} (h : startsWith a p = true) : a = p ++ a.drop p.length := by
  obtain ⟨r, hr⟩ := List.isPrefixOf_iff_prefix.1 h
  rw [← hr]; simp

theorem gbLd_parsed {row : GbRow} (hrow : row ∈ gbRows) (hname : row.name = "LD") {c : Ctx} {t : Str} {rest : List Str} {blob : Bytes}
    {rels : List Reloc} (ht : eqNoCase t row.name.toList) (h : gbLd row (t :: rest) c = (.ok (some blob), rels)) (hodd : ¬ GbOdd t rest) :
    GbParsed c t rest blob rels := by
  have ht' : eqNoCase t "LD".toList := by rw [hname] at ht; exact ht
  have key : ∀ a b l tok, rest = a :: b :: l → "SP+".toList.isPrefixOf b ∨ "SP-".toList.isPrefixOf b →
      (∀ value v, GbHolds value v tok (some .r8) → GbArgText value v .spRel [b]) →
      ∀ bs, gbRel8 tok c = (.ok bs, rels) → blob = 0xF8 :: bs → GbParsed c t rest blob rels := by
    intro a b l tok hrest hpre htext bs hbs hblob
    have : eqNoCase a "HL".toList ∧ l = [] := Classical.byContradiction fun hn => hodd (.sp ht' hrest hpre hn)
    obtain ⟨ha, rfl⟩ := this
    subst hrest
    refine .operand (op := 0xF8) (kind := .r8) (tok := tok) (name := "LD") (as := [.reg "HL", .spRel]) hblob hbs ?_
      (fun value v hx => .plain ht' (.two (.reg ha) (htext value v hx))) (by decide)
    intro bs' v hv
    match bs', hv with
    | [x], hv => cases hv; rfl
  unfold gbLd at h
  split at h
  · next h1 =>
    rw [Bool.and_eq_true, decide_eq_true_eq] at h1
    obtain ⟨bs, r, r', h2, h3, rfl⟩ := H.bind_ok h
    obtain ⟨b', r1, r2, h4, h5, rfl⟩ := H.bind_ok h3
    cases h4; cases h5
    match rest, h1, h2, hodd, key with
    | a :: b :: l, h1, h2, hodd, key =>
      have hb := prefix_split h1.2
      refine key a b l _ rfl (.inl h1.2) ?_ bs (by simp only [List.append_nil]; exact h2) rfl
      rintro value v ⟨x, hx, hv⟩
      have := GbArgText.spPlus hx hv
      rw [show "SP+".toList ++ List.drop 3 ((t :: a :: b :: l).getD 2 []) = b from hb.symm] at this
      exact this
  split at h
  · next h1 =>
    rw [Bool.and_eq_true, decide_eq_true_eq] at h1
    obtain ⟨bs, r, r', h2, h3, rfl⟩ := H.bind_ok h
    obtain ⟨b', r1, r2, h4, h5, rfl⟩ := H.bind_ok h3
    cases h4; cases h5
    match rest, h1, h2, hodd, key with
    | a :: b :: l, h1, h2, hodd, key =>
      have hb := prefix_split h1.2
      refine key a b l _ rfl (.inr h1.2) ?_ bs (by simp only [List.append_nil]; exact h2) rfl
      rintro value v ⟨x, hx, hv⟩
      have hb : b = "SP-".toList ++ b.drop 3 := hb
      have h2 : b.drop 2 = '-' :: b.drop 3 := by
        conv => lhs; rw [hb]
        rfl
      have hx : value (b.drop 2) x := hx
      rw [h2] at hx
      have := GbArgText.spMinus hx hv
      rw [← hb] at this
      exact this
  · rcases gbBuild_decodes hrow ht h with h | ⟨-, o, x, e, a, hr, hb, ha, hx⟩
    · exact h
    · exact absurd (.high ht' hr hb ha hx) hodd

/-- Everything known of a line that assembled and is not odd. -/
theorem gb_parsed {c : Ctx} {t : Str} {rest : List Str} {blob : Bytes} {rels : List Reloc} (hem : Emits lr35902 c t rest blob rels)
    (hodd : ¬ GbOdd t rest) : GbParsed c t rest blob rels := by
  have hkey : lr35902.instrs (lr35902.key t) = gbInstr (upper t) := rfl
  cases hem with
  | fixed hf hr =>
    subst hr
    rw [hkey] at hf
    unfold gbInstr at hf
    split at hf
    · next p hp =>
      have hk : p.1.toList = upper t := by simpa using List.find?_some hp
      have ht := eqNoCase_of_key hk
      cases hf
      refine .plain rfl (gb_fixed p (List.mem_of_find?_eq_some hp) ?_) fun _ => .plain ht .nil
      intro hb; rw [hb] at ht; exact hodd (.bra ht)
    split at hf
    · cases hf
    split at hf
    · cases hf
    · repeat first | split at hf | cases hf
  | handler hf h =>
    rw [hkey] at hf
    unfold gbInstr at hf
    split at hf
    · cases hf
    split at hf
    · next row hp =>
      have hrow := List.mem_of_find?_eq_some hp
      have hk : row.name.toList = upper t := by simpa using List.find?_some hp
      have ht := eqNoCase_of_key hk
      cases hf
      unfold gbMethod at h
      by_cases h1 : row.name = "LD"
      · rw [if_pos h1] at h
        exact gbLd_parsed hrow h1 ht h hodd
      rw [if_neg h1] at h
      by_cases h2 : row.name = "RET"
      · rw [if_pos h2] at h
        unfold gbRet at h
        split at h
        · next hl =>
          have : rest = [] := by simpa using hl
          subst this
          cases h
          exact .plain rfl rfl fun _ => .plain (i := ⟨"RET", [], 0⟩) (by rw [h2] at ht; exact ht) .nil
        · rcases gbBuild_decodes hrow ht h with h | ⟨h, -⟩
          · exact h
          · exact absurd h h1
      rw [if_neg h2] at h
      rcases gbBuild_decodes hrow ht h with h | ⟨h, -⟩
      · exact h
      · exact absurd h h1
    split at hf
    · next row hp =>
      have hrow := List.mem_of_find?_eq_some hp
      have hk : row.1.toList = upper t := by simpa using List.find?_some hp
      cases hf
      rcases gbCb_decodes (name := row.1) hrow (eqNoCase_of_key hk) h with h | h
      · exact h
      · exact absurd h hodd
    split at hf
    · next hk => cases hf; exact gbLdh_parsed (eqNoCase_of_key hk.symm) h
    split at hf
    · next hk => cases hf; exact gbStop_parsed (eqNoCase_of_key hk.symm) h
    split at hf
    · next hk => cases hf; exact gbRst_parsed (eqNoCase_of_key hk.symm) h
    · cases hf

/-! ## C58: the bytes of an instruction -/

/-- C58: what an instruction line assembles to decodes, by the opcode map of the processor, to the instruction the line says, with
the operands it names and the value of its operand (0 in the place of a label); the lines of `GbOdd` apart. -/
theorem C58_decodes (c : Ctx) (t : Str) (rest : List Str) (blob : Bytes) (rels : List Reloc) (hem : Emits lr35902 c t rest blob rels)
    (hodd : ¬ GbOdd t rest) : ∃ i, decodeGb blob = some i ∧ GbWritten (OperandValue c rels) t rest i :=
  (gb_parsed hem hodd).decodes

/-! ### every instruction can be written -/

/-- The text of an operand; `tok` is that of a number. -/
def gbText (tok : Str) : GbArg → List Str
  | .reg n => [n.toList]
  | .mem n => [['('], n.toList, [')']]
  | .cond n => [n.toList]
  | .bit n => [(toString n).toList]
  | .vec n => (gbVecText n).map String.toList
  | .imm8 | .imm16 | .rel => [tok]
  | .mem16 => [['('], tok, [')']]
  | .high => [['('], "$FF00+".toList ++ tok, [')']]
  | .highC => [['('], ['C'], [')']]
  | .spRel => ["SP+".toList ++ tok]

/-- The operands of the line for an opcode: some arithmetic operations have no form with `A`. -/
def gbLine (tok : Str) (m : String) (as : List GbArg) : List Str :=
  (if m ∈ gbAlu ∧ m ∉ ["ADD", "ADC", "SBC"] then as.drop 1 else as).flatMap (gbText tok)

/-- What a line runs. -/
def gbEmit (m : Str) (rest : List Str) : H (Option Bytes) :=
  match gbInstr m with
  | some (.fixed b) => if rest = [] then pure (some b) else H.throw .invalidInstruction
  | some (.handler f) => f (m :: rest)
  | none => H.throw .invalidInstruction

theorem gbEmit_emits {m : String} (hm : upper m.toList = m.toList) {rest : List Str} {c : Ctx} {blob : Bytes} {rels : List Reloc}
    (h : gbEmit m.toList rest c = (.ok (some blob), rels)) : Emits lr35902 c m.toList rest blob rels := by
  have hkey : lr35902.instrs (lr35902.key m.toList) = gbInstr m.toList := by
    show gbInstr (upper m.toList) = _
    rw [hm]
  unfold gbEmit at h
  cases hi : gbInstr m.toList with
  | none => rw [hi] at h; simp at h
  | some i =>
    rw [hi] at h
    cases i with
    | fixed b =>
      simp only at h
      split at h
      · next hr =>
        cases h
        exact .fixed (hkey.trans hi) hr
      · simp at h
    | handler f => exact .handler (hkey.trans hi) h

def gbPlainOps : List Nat := (List.range 256).filter fun op =>
  match gbShape op with
  | none => false
  | some (_, as) => decide (gbData as = .none) && op != 0x10

/-- Mnemonic and operands of the line for an opcode. -/
def gbShapeLine (tok : Str) (p : Option (String × List GbArg)) : String × List Str :=
  match p with
  | none => ("", [])
  | some (m, as) => (m, gbLine tok m as)

set_option maxRecDepth 1000000 in
theorem gb_plain_lines (c : Ctx) : (gbPlainOps.map fun op => gbEmit (gbShapeLine [] (gbShape op)).1.toList (gbShapeLine [] (gbShape op)).2 c) =
    gbPlainOps.map fun op => (.ok (some [BitVec.ofNat 8 op]), []) := by
  rfl

set_option maxRecDepth 1000000 in
theorem gb_cb_lines (c : Ctx) :
    ((List.range 256).map fun op => gbEmit (gbShapeLine [] (gbShapeCb op)).1.toList (gbShapeLine [] (gbShapeCb op)).2 c) =
    (List.range 256).map fun op => (.ok (some [0xCB, BitVec.ofNat 8 op]), []) := by
  rfl

def gbArgOps : List Nat := (List.range 256).filter fun op =>
  match gbShape op with
  | none => false
  | some (_, as) => decide (gbData as ≠ .none ∧ as ≠ [.reg "HL", .spRel])

def gbWithTok (tok : Str) : GbPlan → GbPlan
  | .arg k key _ => .arg k key tok
  | p => p

/-- Whether the second operand of a line begins with `SP+` or `SP-`. -/
def gbSp (tokens : List Str) : Bool := startsWith (tokens.getD 2 []) "SP+".toList || startsWith (tokens.getD 2 []) "SP-".toList

/-- The row and the plan of the line for an opcode. -/
def gbLinePlan (tok : Str) (op : Nat) : Option (GbRow × GbPlan) :=
  match gbShape op with
  | none => none
  | some (m, as) => (gbRows.find? fun r => r.name.toList == m.toList).map fun row =>
      (row, gbPlan row.conditional row.relative row.args (m.toList :: gbLine tok m as))

set_option maxRecDepth 1000000 in
theorem gb_arg_lines (ds : Str) : (gbArgOps.map fun op => gbLinePlan ('@' :: ds) op) =
    gbArgOps.map fun op => (gbLinePlan ['@'] op).map fun p => (p.1, gbWithTok ('@' :: ds) p.2) := by
  rfl

def gbLineTest (f : String → List Str → Bool) (tok : Str) (op : Nat) : Bool :=
  match gbShape op with
  | none => false
  | some (m, as) => f m (gbLine tok m as)

set_option maxRecDepth 1000000 in
theorem gb_arg_sp (ds : Str) : (gbArgOps.map fun op => gbLineTest (fun m rest => gbSp (m.toList :: rest)) ('@' :: ds) op) =
    gbArgOps.map fun _ => false := by
  rfl

/-- The plan of the line for an opcode is to emit it. -/
def gbArgCheck (op : Nat) : Bool :=
  match gbShape op, gbLinePlan ['@'] op with
  | some (m, as), some (row, .arg k key _) =>
    decide (gbGet row.args key = some op ∧ gbKindData (some k) = gbData as ∧ row.name ≠ "RET") &&
    (gbFixed.find? fun p => p.1.toList == m.toList).isNone
  | _, _ => false

theorem gb_arg_check : ∀ op ∈ gbArgOps, gbArgCheck op = true := by decide +kernel

/-! none of these lines is odd -/

instance (a b : Str) : Decidable (eqNoCase a b) := inferInstanceAs (Decidable (_ = _))

def gbOddTest (m : Str) (rest : List Str) : Bool :=
  decide (eqNoCase m "BRA".toList) ||
  (match rest with
   | [_, x, _] => decide (eqNoCase x ['H'] ∨ eqNoCase x ['L'])
   | [_, x, y, _] => decide (eqNoCase y ['H'] ∨ eqNoCase y ['L']) || decide (x ∈ ([['$'], ['F'], ['f'], ['0'], ['+']] : List Str))
   | _ => false) ||
  (match rest with
   | a :: b :: r => ("SP+".toList.isPrefixOf b || "SP-".toList.isPrefixOf b) && !decide (eqNoCase a "HL".toList ∧ r = [])
   | _ => false)

theorem gbOdd_test {m : Str} {rest : List Str} (h : gbOddTest m rest = false) : ¬ GbOdd m rest := by
  unfold gbOddTest at h
  simp only [Bool.or_eq_false_iff] at h
  obtain ⟨⟨h1, h2⟩, h3⟩ := h
  rintro (hb | ⟨hx, hb, hr, hm⟩ | ⟨hm, hr, hb, ha, hx⟩ | ⟨hm, hr, hp, hn⟩)
  · exact of_decide_eq_false h1 hb
  · rcases hr with rfl | ⟨n, rfl⟩
    · exact of_decide_eq_false h2 hx
    · simp only [Bool.or_eq_false_iff] at h2
      exact of_decide_eq_false h2.1 hx
  · subst hr
    simp only [Bool.or_eq_false_iff] at h2
    exact of_decide_eq_false h2.2 hx
  · subst hr
    simp only [Bool.and_eq_false_iff, Bool.or_eq_false_iff, Bool.not_eq_false', decide_eq_true_eq] at h3
    rcases h3 with ⟨h3, h4⟩ | h3
    · rcases hp with hp | hp
      · rw [h3] at hp; cases hp
      · rw [h4] at hp; cases hp
    · exact hn h3

theorem gb_plain_fair : ∀ op ∈ gbPlainOps, gbOddTest (gbShapeLine [] (gbShape op)).1.toList (gbShapeLine [] (gbShape op)).2 = false := by
  decide +kernel

theorem gb_cb_fair : ∀ op ∈ List.range 256, gbOddTest (gbShapeLine [] (gbShapeCb op)).1.toList (gbShapeLine [] (gbShapeCb op)).2 = false := by
  decide +kernel

set_option maxRecDepth 1000000 in
theorem gb_arg_fair (ds : Str) : (gbArgOps.map fun op => gbLineTest (fun m rest => gbOddTest m.toList rest) ('@' :: ds) op) =
    gbArgOps.map fun _ => false := by
  rfl

/-- Operand bytes come from an octal number. -/
theorem gb_octal (ls : Labels) (v k : Nat) (signed : Bool) (hk : 1 ≤ k) (hv : v < 2 ^ k) :
    parseInteger lr35902.sy ls ('@' :: numeral 8 v) k signed = .ok (some v) := by
  have ok := allSyntaxes_ok dollarSyntax (by simp [allSyntaxes])
  have := C14_prefix lr35902.sy ls ok.1 8 false ['@'] _ v k signed hk (.oct (by simp [lr35902])) (numeral_reads (by decide) v)
  rw [show '@' :: numeral 8 v = ['@'] ++ numeral 8 v from rfl, this]
  simp [literalResult, hv]

theorem gb_octal_ok (r : Reloc) (c : Ctx) (n : Nat) (hsy : c.sy = lr35902.sy) (hl : r.label = '@' :: numeral 8 n) (hb : 1 ≤ r.bitsSize)
    (hn : n < 2 ^ r.bitsSize) : H.parseIntegerOrLabel r false c = (.ok (n : Int), []) := by
  apply parseIntegerOrLabel_number
  rw [hsy, hl]
  exact gb_octal _ _ _ _ hb hn

theorem gb_byte (b : BitVec 8) : BitVec.ofInt 8 (b.toNat : Int) = b := by
  apply BitVec.eq_of_toNat_eq
  rw [BitVec.toNat_ofInt]
  have := b.isLt
  omega

theorem gbFetch_octal (ls : Labels) (pc : Int) (bm : Nat) {k : GbKind} {bs : Bytes} {v : Int} (h : gbOperand (some k) bs = some v) :
    ∃ n, gbFetch k ('@' :: numeral 8 n) ⟨pc, ls, lr35902.sy, bm⟩ = (.ok bs, []) := by
  match k, bs, h with
  | .d8, [x], _ =>
    refine ⟨x.toNat, ?_⟩
    show gbData8 _ _ = _
    unfold gbData8
    rw [H.bind_run (gb_octal_ok _ _ x.toNat rfl rfl (by simp) x.isLt), H.lift_apply,
      show packByte [some (x.toNat : Int)] = .ok [BitVec.ofInt 8 x.toNat] from packByte_ok [_], gb_byte]
  | .r8, [x], _ =>
    refine ⟨x.toNat, ?_⟩
    show gbRel8 _ _ = _
    unfold gbRel8
    rw [H.bind_run (H.read_apply _), H.bind_run (gb_octal_ok _ _ x.toNat rfl rfl (by simp) x.isLt), H.lift_apply,
      pack8s_one, gb_byte]
  | .d16, [x, y], _ =>
    refine ⟨x.toNat + 256 * y.toNat, ?_⟩
    have hx := x.isLt
    have hy := y.isLt
    show gbData16 _ _ = _
    unfold gbData16
    rw [H.bind_run (gb_octal_ok _ _ (x.toNat + 256 * y.toNat) rfl rfl (by simp) (show _ < 2 ^ 16 by omega)), H.lift_apply, packLe16u_one]
    have h1 : BitVec.ofInt 8 (((x.toNat + 256 * y.toNat : Nat) : Int) % 65536) = x := by
      rw [← gb_byte x]; apply BitVec.eq_of_toNat_eq; simp only [BitVec.toNat_ofInt]; omega
    have h2 : BitVec.ofInt 8 (((x.toNat + 256 * y.toNat : Nat) : Int) % 65536 / 256) = y := by
      rw [← gb_byte y]; apply BitVec.eq_of_toNat_eq; simp only [BitVec.toNat_ofInt]; omega
    rw [h1, h2]

theorem gb_ofNat (b : BitVec 8) : BitVec.ofNat 8 b.toNat = b := by simp

theorem gb_mem_plain {op : BitVec 8} {m : String} {as : List GbArg} (hs : gbShape op.toNat = some (m, as)) (hd : gbData as = .none)
    (hne : op ≠ 0x10) : op.toNat ∈ gbPlainOps := by
  unfold gbPlainOps
  rw [List.mem_filter, hs]
  refine ⟨List.mem_range.2 op.isLt, ?_⟩
  have : op.toNat ≠ 16 := fun h => hne (BitVec.eq_of_toNat_eq h)
  simp [hd, this]

theorem gb_mem_arg {op : BitVec 8} {m : String} {as : List GbArg} (hs : gbShape op.toNat = some (m, as)) (hd : gbData as ≠ .none)
    (hne : as ≠ [.reg "HL", .spRel]) : op.toNat ∈ gbArgOps := by
  unfold gbArgOps
  rw [List.mem_filter, hs]
  exact ⟨List.mem_range.2 op.isLt, by simp [hd, hne]⟩

theorem gb_shape_upper : ∀ op ∈ List.range 256, upper (gbShapeLine [] (gbShape op)).1.toList = (gbShapeLine [] (gbShape op)).1.toList ∧
    upper (gbShapeLine [] (gbShapeCb op)).1.toList = (gbShapeLine [] (gbShapeCb op)).1.toList := by
  decide +kernel

theorem gb_ld_find : ∃ row, gbInstr "LD".toList = some (.handler (gbLd row)) := ⟨_, rfl⟩

/-- An opcode with an operand. -/
theorem gb_arg_complete (ls : Labels) (pc : Int) (bm : Nat) {op : BitVec 8} {m : String} {as : List GbArg} {bs : Bytes} {v : Int}
    {k : GbKind} (hs : gbShape op.toNat = some (m, as)) (hd : gbKindData (some k) = gbData as) (hb : gbOperand (some k) bs = some v) :
    ∃ rest, ¬ GbOdd m.toList rest ∧ Emits lr35902 ⟨pc, ls, lr35902.sy, bm⟩ m.toList rest (op :: bs) [] := by
  obtain ⟨n, hn⟩ := gbFetch_octal ls pc bm hb
  have hnone : gbData as ≠ .none := by rw [← hd]; cases k <;> decide
  have hop : op.toNat ∈ List.range 256 := List.mem_range.2 op.isLt
  have hup := (gb_shape_upper _ hop).1
  rw [hs] at hup
  simp only [gbShapeLine] at hup
  by_cases hsp : as = [.reg "HL", .spRel]
  · subst hsp
    have hk : k = .r8 := by cases k <;> first | rfl | (exact absurd hd (by decide))
    subst hk
    have hop2 : op = 0xF8 := by
      have : ∀ op ∈ List.range 256, (gbShape op).map (·.2) = some [.reg "HL", .spRel] → op = 0xF8 := by decide +kernel
      exact BitVec.eq_of_toNat_eq (this _ hop (by rw [hs]; rfl))
    subst hop2
    have hm : m = "LD" := by
      have : gbShape (0xF8 : BitVec 8).toNat = some ("LD", [.reg "HL", .spRel]) := by decide +kernel
      rw [this] at hs; cases hs; rfl
    subst hm
    refine ⟨["HL".toList, "SP+".toList ++ '@' :: numeral 8 n], gbOdd_test rfl, gbEmit_emits hup ?_⟩
    obtain ⟨row, hrow⟩ := gb_ld_find
    unfold gbEmit
    rw [hrow]
    show gbLd row _ _ = _
    unfold gbLd
    rw [if_pos (show (decide (2 < (["LD".toList, "HL".toList, "SP+".toList ++ '@' :: numeral 8 n] : List Str).length) &&
      startsWith ((["LD".toList, "HL".toList, "SP+".toList ++ '@' :: numeral 8 n] : List Str).getD 2 []) "SP+".toList) = true from rfl)]
    rw [H.bind_run (show gbRel8 (List.drop 3 ((["LD".toList, "HL".toList, "SP+".toList ++ '@' :: numeral 8 n] : List Str).getD 2 [])) _ = _ from hn)]
    rfl
  · have hmem := gb_mem_arg hs hnone hsp
    have hc := gb_arg_check _ hmem
    have hl := List.map_inj_left.1 (gb_arg_lines (numeral 8 n)) _ hmem
    have hf := List.map_inj_left.1 (gb_arg_fair (numeral 8 n)) _ hmem
    have hsp2 := List.map_inj_left.1 (gb_arg_sp (numeral 8 n)) _ hmem
    unfold gbArgCheck at hc
    unfold gbLineTest at hf hsp2
    rw [hs] at hc hf hsp2
    simp only at hc hf hsp2
    refine ⟨_, gbOdd_test hf, gbEmit_emits hup ?_⟩
    cases hp : gbLinePlan ['@'] op.toNat with
    | none => rw [hp] at hc; simp at hc
    | some q =>
      obtain ⟨row, plan⟩ := q
      rw [hp] at hc hl
      cases plan with
      | nothing => simp at hc
      | op _ => simp at hc
      | arg k' key tok =>
        simp only [Bool.and_eq_true, decide_eq_true_eq, Option.isNone_iff_eq_none] at hc
        obtain ⟨⟨hg, hk, hret⟩, hfix⟩ := hc
        have hkk : k' = k := by
          rw [← hd] at hk
          cases k <;> cases k' <;> first | rfl | (exact absurd hk (by decide))
        subst hkk
        unfold gbLinePlan at hl
        rw [hs] at hl
        simp only [Option.map_some, gbWithTok] at hl
        cases hr : gbRows.find? fun r => r.name.toList == m.toList with
        | none => rw [hr] at hl; simp at hl
        | some row' =>
          rw [hr] at hl
          simp only [Option.map_some, Option.some.injEq, Prod.mk.injEq] at hl
          obtain ⟨rfl, hplan⟩ := hl
          have hbuild : gbBuild row'.conditional row'.relative row'.args (m.toList :: gbLine ('@' :: numeral 8 n) m as)
              ⟨pc, ls, lr35902.sy, bm⟩ = (.ok (some (op :: bs)), []) := by
            rw [gbBuild_plan, hplan]
            show (gbFetch k' _ >>= fun value => gbByteThen row'.args key value) _ = _
            rw [H.bind_run hn]
            have hbyte : gbByte row'.args key ⟨pc, ls, lr35902.sy, bm⟩ = (.ok [op], []) := by
              unfold gbByte
              rw [hg]
              show H.lift (packByte [some (op.toNat : Int)]) _ = _
              rw [H.lift_apply, show packByte [some (op.toNat : Int)] = .ok [BitVec.ofInt 8 op.toNat] from packByte_ok [_], gb_byte]
            show (gbByteThen row'.args key bs) _ = _
            unfold gbByteThen
            rw [H.bind_run hbyte]
            rfl
          unfold gbEmit gbInstr
          rw [hfix, hr]
          simp only
          unfold gbMethod
          by_cases h1 : row'.name = "LD"
          · rw [if_pos h1]
            unfold gbLd
            simp only [gbSp, Bool.or_eq_false_iff] at hsp2
            rw [if_neg (by rw [Bool.and_eq_true]; intro h; rw [hsp2.1] at h; cases h.2),
                if_neg (by rw [Bool.and_eq_true]; intro h; rw [hsp2.2] at h; cases h.2)]
            exact hbuild
          · rw [if_neg h1, if_neg hret]
            exact hbuild

/-- C58: every instruction of the opcode map, with every value of its operand, can be written. -/
theorem C58_complete (ls : Labels) (pc : Int) (bm : Nat) (b : Bytes) (i : GbInstr) (h : decodeGb b = some i) :
    ∃ rest, ¬ GbOdd i.mnemonic.toList rest ∧ Emits lr35902 ⟨pc, ls, lr35902.sy, bm⟩ i.mnemonic.toList rest b [] := by
  match b, h with
  | op :: r, h =>
    unfold decodeGb at h
    simp only at h
    by_cases hcb : op = 0xCB
    · rw [if_pos hcb] at h
      match r, h with
      | [o], h =>
        have h : (gbShapeCb o.toNat).map (fun p => (⟨p.1, p.2, 0⟩ : GbInstr)) = some i := h
        have hop : o.toNat ∈ List.range 256 := List.mem_range.2 o.isLt
        cases hs : gbShapeCb o.toNat with
        | none => rw [hs] at h; simp at h
        | some q =>
          obtain ⟨m, as⟩ := q
          rw [hs] at h
          simp only [Option.map_some, Option.some.injEq] at h
          subst h
          have h1 := List.map_inj_left.1 (gb_cb_lines ⟨pc, ls, lr35902.sy, bm⟩) _ hop
          have h2 := gb_cb_fair _ hop
          have h3 := (gb_shape_upper _ hop).2
          rw [hs] at h1 h2 h3
          rw [gb_ofNat] at h1
          exact ⟨_, gbOdd_test h2, gbEmit_emits h3 (by rw [hcb]; exact h1)⟩
    rw [if_neg hcb] at h
    by_cases hst : op = 0x10
    · rw [if_pos hst] at h
      split at h
      · next hr =>
        subst hst; subst hr
        cases h
        exact ⟨[], gbOdd_test rfl, gbEmit_emits (by decide) rfl⟩
      · cases h
    rw [if_neg hst] at h
    cases hs : gbShape op.toNat with
    | none => rw [hs] at h; simp at h
    | some q =>
      obtain ⟨m, as⟩ := q
      rw [hs] at h
      simp only at h
      split at h
      · next hd =>
        simp only [Option.some.injEq] at h
        subst h
        have hmem := gb_mem_plain hs hd hst
        have h1 := List.map_inj_left.1 (gb_plain_lines ⟨pc, ls, lr35902.sy, bm⟩) _ hmem
        have h2 := gb_plain_fair _ hmem
        have h3 := (gb_shape_upper op.toNat (List.mem_range.2 op.isLt)).1
        rw [hs] at h1 h2 h3
        rw [gb_ofNat] at h1
        exact ⟨_, gbOdd_test h2, gbEmit_emits h3 h1⟩
      · next hd =>
        simp only [Option.some.injEq] at h
        subst h
        exact gb_arg_complete (k := .d8) ls pc bm hs hd.symm rfl
      · next hd =>
        simp only [Option.some.injEq] at h
        subst h
        exact gb_arg_complete (k := .r8) ls pc bm hs hd.symm rfl
      · next hd =>
        simp only [Option.some.injEq] at h
        subst h
        exact gb_arg_complete (k := .d16) ls pc bm hs hd.symm rfl
      · cases h

end Necro
