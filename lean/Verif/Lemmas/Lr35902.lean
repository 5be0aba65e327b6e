import Verif.Spec.Lr35902
import Verif.Model.Cpu.Lr35902
import Verif.Lemmas.Mos6502
import Verif.Lemmas.Mips32
/-!
# The Game Boy processor: which opcode a line asks for
-/

namespace Necro
open Spec

/-! ## operand bytes -/

/-- The three kinds of operand bytes. -/
inductive GbKind where
  | d8 | r8 | d16
deriving DecidableEq, Repr

/-- How the decoder calls them. -/
def gbKindData : Option GbKind → GbData
  | none => .none
  | some .d8 => .byte
  | some .r8 => .signed
  | some .d16 => .word

def gbFetch : GbKind → Str → H Bytes
  | .d8, tok => gbData8 tok
  | .r8, tok => gbRel8 tok
  | .d16, tok => gbData16 tok

/-- What the operand `v` of an instruction has to do with the text that was written for it. -/
def GbHolds (value : Str → Int → Prop) (v : Int) (tok : Str) : Option GbKind → Prop
  | none => True
  | some .d8 => ∃ x, value tok x ∧ v = x % 256
  | some .r8 => ∃ x, value tok x ∧ v % 256 = x % 256
  | some .d16 => ∃ x, value tok x ∧ v = x % 65536

theorem pack8s_one (v : Int) : pack8s [some v] = .ok [BitVec.ofInt 8 v] := by
  have hm : maskArgS 8 (some v) = v.bmod 256 := maskArgS_eq 8 (by decide) (some v)
  unfold pack8s packAll
  simp only [List.map_cons, List.map_nil, List.length_cons, List.length_nil, List.replicate, hm]
  have h1 : -128 ≤ v.bmod 256 := by have := Int.le_bmod (x := v) (m := 256) (by decide); omega
  have h2 : v.bmod 256 < 128 := by have := Int.bmod_lt (x := v) (m := 256) (by decide); omega
  have hf : Fmt.fits .b (v.bmod 256) = true := by simp only [Fmt.fits, decide_eq_true_eq]; omega
  have he : BitVec.ofInt 8 (v.bmod 256) = BitVec.ofInt 8 v := by
    apply BitVec.eq_of_toInt_eq
    simp only [BitVec.toInt_ofInt]
    show (v.bmod 256).bmod 256 = v.bmod 256
    simp
  simp [structPack, hf, encField, Fmt.size, leBytes, he]

theorem packLe16u_one (v : Int) : packLe16u [some v] = .ok [BitVec.ofInt 8 (v % 65536), BitVec.ofInt 8 (v % 65536 / 256)] := by
  have hm : maskArg 16 (some v) = v % 65536 := maskArg_eq 16 (some v)
  unfold packLe16u packAll
  simp only [List.map_cons, List.map_nil, List.length_cons, List.length_nil, List.replicate, hm]
  have hf : Fmt.fits .H (v % 65536) = true := by simp only [Fmt.fits, decide_eq_true_eq]; omega
  simp [structPack, hf, encField, Fmt.size, leBytes]

theorem byte_toInt (v : Int) : (BitVec.ofInt 8 v).toInt % 256 = v % 256 := by
  rw [BitVec.toInt_ofInt]
  exact Int.bmod_emod

theorem byte_toNat (v : Int) : ((BitVec.ofInt 8 v).toNat : Int) = v % 256 := by
  rw [BitVec.toNat_ofInt]
  exact Int.toNat_of_nonneg (Int.emod_nonneg _ (by decide))

/-- The bytes of an operand decode to the value it was given. -/
def gbOperand : Option GbKind → Bytes → Option Int
  | none, [] => some 0
  | some .d8, [x] => some x.toNat
  | some .r8, [x] => some x.toInt
  | some .d16, [x, y] => some (x.toNat + 256 * y.toNat)
  | _, _ => none

theorem gbFetch_ok {k : GbKind} {tok : Str} {c : Ctx} {bs : Bytes} {rels : List Reloc} (h : gbFetch k tok c = (.ok bs, rels)) :
    ∃ v, gbOperand (some k) bs = some v ∧ GbHolds (OperandValue c rels) v tok (some k) := by
  cases k with
  | d8 =>
    obtain ⟨v, r, r', h1, h2, rfl⟩ := H.bind_ok (show gbData8 tok c = _ from h)
    rw [H.lift_apply, show packByte [some v] = .ok [BitVec.ofInt 8 v] from packByte_ok [v]] at h2
    simp only [Prod.mk.injEq, Except.ok.injEq] at h2
    obtain ⟨rfl, rfl⟩ := h2
    obtain ⟨x, hx, hv⟩ := operand_value (by simp) h1
    refine ⟨_, rfl, x, by rw [List.append_nil]; exact hx, ?_⟩
    rw [byte_toNat]
    rcases hv with rfl | rfl
    · rfl
    · show (x + 256) % 256 = x % 256; omega
  | r8 =>
    obtain ⟨c', r, r', h0, h', rfl⟩ := H.bind_ok (show gbRel8 tok c = _ from h)
    rw [H.read_apply] at h0; cases h0
    obtain ⟨v, r, r', h1, h2, rfl⟩ := H.bind_ok h'
    rw [H.lift_apply, pack8s_one] at h2
    simp only [Prod.mk.injEq, Except.ok.injEq] at h2
    obtain ⟨rfl, rfl⟩ := h2
    obtain ⟨x, hx, hv⟩ := operand_value (by simp) h1
    refine ⟨_, rfl, x, by rw [List.append_nil, List.nil_append]; exact hx, ?_⟩
    rw [byte_toInt]
    rcases hv with rfl | rfl
    · rfl
    · show (x + 256) % 256 = x % 256; omega
  | d16 =>
    obtain ⟨v, r, r', h1, h2, rfl⟩ := H.bind_ok (show gbData16 tok c = _ from h)
    rw [H.lift_apply, packLe16u_one] at h2
    simp only [Prod.mk.injEq, Except.ok.injEq] at h2
    obtain ⟨rfl, rfl⟩ := h2
    obtain ⟨x, hx, hv⟩ := operand_value (by simp) h1
    refine ⟨_, rfl, x, by rw [List.append_nil]; exact hx, ?_⟩
    rw [byte_toNat, byte_toNat]
    rcases hv with rfl | rfl
    · omega
    · show (x + 65536) % 65536 % 256 + 256 * ((x + 65536) % 65536 / 256 % 256) = _; omega

/-! ## plans -/

/-- What the ladder of patterns decides: the key of the opcode and the text of its operand. -/
inductive GbPlan where
  | nothing
  | op (key : Str)
  | arg (kind : GbKind) (key tok : Str)

def GbPlan.run (kw : List (String × Nat)) : GbPlan → H (Option Bytes)
  | .nothing => pure none
  | .op k => gbOnly kw k
  | .arg kind k tok => do
    let value ← gbFetch kind tok
    gbByteThen kw k value

/-- The ladder of `gbBuild`, without running anything. -/
def gbPlan (conditional relative : Bool) (kw : List (String × Nat)) (tokens : List Str) : GbPlan :=
  let tok (i : Nat) : Str := tokens.getD i []
  let R8 := Pat.coll gbRegs8
  let R16 := Pat.coll gbRegs16
  let CC := Pat.coll gbConds
  let V := Pat.pred gbIsValue
  let A := Pat.str ['A']
  let FFC := Pat.str "$FF00+C".toList
  let LDH := Pat.pred gbIsLdh
  if conditional && instrMatch tokens [CC, V] then
    if relative then .arg .r8 (gbName (tok 1) ++ "_r8".toList) (tok 2)
    else .arg .d16 (gbName (tok 1) ++ "_a16".toList) (tok 2)
  else if conditional && instrMatch tokens [CC] then .op (gbName (tok 1))
  else if gbBracket tokens [] [FFC] [A] then .op "ind_c_a".toList
  else if gbBracket tokens [] [LDH] [A] then .arg .d8 "ind_a8_a".toList ((tok 2).drop 6)
  else if gbBracket tokens [A] [LDH] [] then .arg .d8 "a_ind_a8".toList ((tok 3).drop 6)
  else if instrMatch tokens [R8, R8] then .op (gbName (tok 1) ++ "_".toList ++ gbName (tok 2))
  else if instrMatch tokens [R16, R16] then .op (gbName (tok 1) ++ "_".toList ++ gbName (tok 2))
  else if instrMatch tokens [R16, V] then
    if (gbGet kw (gbName (tok 1) ++ "_r8".toList)).isSome then .arg .r8 (gbName (tok 1) ++ "_r8".toList) (tok 2)
    else .arg .d16 (gbName (tok 1) ++ "_d16".toList) (tok 2)
  else if gbBracket tokens [] [R16] [R8] then .op ("ind_".toList ++ gbName (tok 2) ++ "_".toList ++ gbName (tok 4))
  else if instrMatch tokens [R8] then .op (gbName (tok 1))
  else if instrMatch tokens [R8, V] then .arg .d8 (gbName (tok 1) ++ "_d8".toList) (tok 2)
  else if instrMatch tokens [R16] then .op (gbName (tok 1))
  else if gbBracket tokens [R8] [R16] [] then .op (gbName (tok 1) ++ "_ind_".toList ++ gbName (tok 3))
  else if gbBracket tokens [R8] [R8] [] then .op (gbName (tok 1) ++ "_ind_".toList ++ gbName (tok 3))
  else if gbBracket tokens [R8] [V] [] then .arg .d16 (gbName (tok 1) ++ "_ind_a16".toList) (tok 3)
  else if gbBracket tokens [] [R16] [] then .op ("ind_".toList ++ gbName (tok 2))
  else if gbBracket tokens [] [V] [R16] then .arg .d16 ("ind_a16_".toList ++ gbName (tok 4)) (tok 2)
  else if gbBracket tokens [] [V] [R8] then .arg .d16 ("ind_a16_".toList ++ gbName (tok 4)) (tok 2)
  else if gbBracket tokens [] [R16] [V] then .arg .d8 ("ind_".toList ++ gbName (tok 2) ++ "_d8".toList) (tok 4)
  else if instrMatch tokens [V] then
    if (gbGet kw "r8".toList).isSome then .arg .r8 "r8".toList (tok 1)
    else if (gbGet kw "d8".toList).isSome then .arg .d8 "d8".toList (tok 1)
    else if (gbGet kw "d16".toList).isSome then .arg .d16 "d16".toList (tok 1)
    else if (gbGet kw "a16".toList).isSome then .arg .d16 "a16".toList (tok 1)
    else .nothing
  else .nothing

theorem gbBuild_plan (cond rel : Bool) (kw : List (String × Nat)) (tokens : List Str) :
    gbBuild cond rel kw tokens = (gbPlan cond rel kw tokens).run kw := by
  unfold gbPlan
  simp only [apply_ite (GbPlan.run kw)]
  rfl

/-! ## forms -/

/-- One way of writing operands: the key it asks for, the operand bytes, and what is meant. -/
structure GbForm where
  key : Str
  kind : Option GbKind
  args : List GbArg

def GbForm.plan (f : GbForm) (tok : Str) : GbPlan :=
  match f.kind with
  | none => .op f.key
  | some k => .arg k f.key tok

def gbN8 : List String := ["A", "F", "B", "C", "D", "E", "H", "L"]
def gbN16 : List String := ["AF", "BC", "DE", "HL", "HL+", "HL-", "SP"]
def gbNcc : List String := ["Z", "C", "NZ", "NC"]

/-- The key of a name. -/
def gbKey (n : String) : Str := gbName n.toList

/-- The forms of the ladder, by step; a name that is a condition is not read as a register by an instruction that has conditions. -/
def gbPart (cond : Bool) : Nat → List GbForm
  | 0 => gbNcc.map fun n => ⟨gbKey n ++ "_r8".toList, some .r8, [.cond n, .rel]⟩
  | 1 => gbNcc.map fun n => ⟨gbKey n ++ "_a16".toList, some .d16, [.cond n, .imm16]⟩
  | 2 => if cond then gbNcc.map fun n => ⟨gbKey n, none, [.cond n]⟩ else []
  | 3 => [⟨"ind_c_a".toList, none, [.highC, .reg "A"]⟩]
  | 4 => [⟨"ind_a8_a".toList, some .d8, [.high, .reg "A"]⟩]
  | 5 => [⟨"a_ind_a8".toList, some .d8, [.reg "A", .high]⟩]
  | 6 => gbN8.flatMap fun n => gbN8.map fun m => ⟨gbKey n ++ "_".toList ++ gbKey m, none, [.reg n, .reg m]⟩
  | 7 => gbN16.flatMap fun n => gbN16.map fun m => ⟨gbKey n ++ "_".toList ++ gbKey m, none, [.reg n, .reg m]⟩
  | 8 => gbN16.map fun n => ⟨gbKey n ++ "_r8".toList, some .r8, [.reg n, .rel]⟩
  | 9 => gbN16.map fun n => ⟨gbKey n ++ "_d16".toList, some .d16, [.reg n, .imm16]⟩
  | 10 => gbN16.flatMap fun n => gbN8.map fun m => ⟨"ind_".toList ++ gbKey n ++ "_".toList ++ gbKey m, none, [.mem n, .reg m]⟩
  | 11 => (gbN8.filter fun n => !(cond && gbNcc.contains n)).map fun n => ⟨gbKey n, none, [.reg n]⟩
  | 12 => gbN8.map fun n => ⟨gbKey n ++ "_d8".toList, some .d8, [.reg n, .imm8]⟩
  | 13 => gbN16.map fun n => ⟨gbKey n, none, [.reg n]⟩
  | 14 => gbN8.flatMap fun n => gbN16.map fun m => ⟨gbKey n ++ "_ind_".toList ++ gbKey m, none, [.reg n, .mem m]⟩
  | 15 => gbN8.flatMap fun n => gbN8.map fun m =>
      ⟨gbKey n ++ "_ind_".toList ++ gbKey m, none, [.reg n, if m = "C" then .highC else .mem m]⟩
  | 16 => gbN8.map fun n => ⟨gbKey n ++ "_ind_a16".toList, some .d16, [.reg n, .mem16]⟩
  | 17 => gbN16.map fun n => ⟨"ind_".toList ++ gbKey n, none, [.mem n]⟩
  | 18 => gbN16.map fun n => ⟨"ind_a16_".toList ++ gbKey n, some .d16, [.mem16, .reg n]⟩
  | 19 => gbN8.map fun n => ⟨"ind_a16_".toList ++ gbKey n, some .d16, [.mem16, .reg n]⟩
  | 20 => gbN16.map fun n => ⟨"ind_".toList ++ gbKey n ++ "_d8".toList, some .d8, [.mem n, .imm8]⟩
  | 21 => [⟨"r8".toList, some .r8, [.rel]⟩]
  | 22 => [⟨"d8".toList, some .d8, [.imm8]⟩]
  | 23 => [⟨"d16".toList, some .d16, [.imm16]⟩]
  | 24 => [⟨"a16".toList, some .d16, [.imm16]⟩]
  | _ => []

def gbForms (cond : Bool) : List GbForm := (List.range 25).flatMap (gbPart cond)

/-- The opcode is the one meant; the arithmetic operations may leave `A` out. -/
def gbFits (name : String) (f : GbForm) (op : Nat) : Bool :=
  decide (op < 256) && decide (op ≠ 0xCB) && decide (op ≠ 0x10) &&
  match gbShape op with
  | none => false
  | some (m, as) =>
    decide (m = name) && decide (as = f.args ∨ name ∈ gbAlu ∧ as = .reg "A" :: f.args) &&
    decide (gbData as = gbKindData f.kind)

/-- The rows of the ladder, checked against the opcode map. -/
theorem gb_rows_fit : ∀ row ∈ gbRows, ∀ f ∈ gbForms row.conditional, ∀ op, gbGet row.args f.key = some op → gbFits row.name f op = true := by
  have h : (gbRows.all fun row => (gbForms row.conditional).all fun f =>
      match gbGet row.args f.key with | none => true | some op => gbFits row.name f op) = true := by decide +kernel
  intro row hrow f hf op hop
  have := List.all_eq_true.1 (List.all_eq_true.1 h row hrow) f hf
  rw [hop] at this
  exact this

/-! ## what the patterns match -/

/-- The token is one of the names, in either case. -/
def GbNamed (l : List String) (a : Str) (n : String) : Prop := n ∈ l ∧ eqNoCase a n.toList

theorem coll_named {l : List String} {a : Str} (h : (Pat.coll (l.map String.toList)).matches a = true) : ∃ n, GbNamed l a n := by
  simp only [Pat.matches, List.any_map, List.any_eq_true, Function.comp_apply, decide_eq_true_eq] at h
  obtain ⟨n, hn, h⟩ := h
  exact ⟨n, hn, h⟩

theorem gbName_eq {a b : Str} (h : eqNoCase a b) : gbName a = gbName b := by
  unfold gbName
  rw [lower_eq_of_upper_eq h]

theorem GbNamed.key {l : List String} {a : Str} {n : String} (h : GbNamed l a n) : gbName a = gbKey n := gbName_eq h.2

theorem bracket_l {a : Str} (h : (Pat.str ['(']).matches a = true) : a = ['('] := by
  rw [matches_L, decide_eq_true_eq, reg_L] at h; exact h
theorem bracket_r {a : Str} (h : (Pat.str [')']).matches a = true) : a = [')'] := by
  rw [matches_R, decide_eq_true_eq, reg_R] at h; exact h
theorem square_l {a : Str} (h : (Pat.str ['[']).matches a = true) : a = ['['] := by
  rw [matches_str a '[' (by decide) (by decide) (by decide), decide_eq_true_eq] at h
  rcases h with h | h <;> exact h
theorem square_r {a : Str} (h : (Pat.str [']']).matches a = true) : a = [']'] := by
  rw [matches_str a ']' (by decide) (by decide) (by decide), decide_eq_true_eq] at h
  rcases h with h | h <;> exact h

theorem match_A {a : Str} (h : (Pat.str ['A']).matches a = true) : eqNoCase a ['A'] := by
  simp only [Pat.matches, List.any_cons, List.any_nil, Bool.or_false, Bool.or_self, decide_eq_true_eq] at h
  exact h

theorem bracket3 {t : Str} {rest : List Str} {p : Pat} (h : gbBracket (t :: rest) [] [p] [] = true) :
    ∃ o a c, rest = [o, a, c] ∧ GbBrackets o c ∧ p.matches a = true := by
  unfold gbBracket at h
  simp only [List.nil_append, List.append_nil, List.cons_append, instrMatch_cons, Bool.or_eq_true] at h
  rcases h with h | h
  · obtain ⟨o, a, c, rfl, h1, h2, h3⟩ := matchAll3 h
    exact ⟨o, a, c, rfl, .inl ⟨bracket_l h1, bracket_r h3⟩, h2⟩
  · obtain ⟨o, a, c, rfl, h1, h2, h3⟩ := matchAll3 h
    exact ⟨o, a, c, rfl, .inr ⟨square_l h1, square_r h3⟩, h2⟩

theorem bracket_left {t : Str} {rest : List Str} {p q : Pat} (h : gbBracket (t :: rest) [] [p] [q] = true) :
    ∃ o a c b, rest = [o, a, c, b] ∧ GbBrackets o c ∧ p.matches a = true ∧ q.matches b = true := by
  unfold gbBracket at h
  simp only [List.nil_append, List.append_nil, List.cons_append, instrMatch_cons, Bool.or_eq_true] at h
  rcases h with h | h
  · obtain ⟨o, a, c, b, rfl, h1, h2, h3, h4⟩ := matchAll4 h
    exact ⟨o, a, c, b, rfl, .inl ⟨bracket_l h1, bracket_r h3⟩, h2, h4⟩
  · obtain ⟨o, a, c, b, rfl, h1, h2, h3, h4⟩ := matchAll4 h
    exact ⟨o, a, c, b, rfl, .inr ⟨square_l h1, square_r h3⟩, h2, h4⟩

theorem bracket_right {t : Str} {rest : List Str} {p q : Pat} (h : gbBracket (t :: rest) [q] [p] [] = true) :
    ∃ b o a c, rest = [b, o, a, c] ∧ GbBrackets o c ∧ p.matches a = true ∧ q.matches b = true := by
  unfold gbBracket at h
  simp only [List.nil_append, List.append_nil, List.cons_append, instrMatch_cons, Bool.or_eq_true] at h
  rcases h with h | h
  · obtain ⟨b, o, a, c, rfl, h4, h1, h2, h3⟩ := matchAll4 h
    exact ⟨b, o, a, c, rfl, .inl ⟨bracket_l h1, bracket_r h3⟩, h2, h4⟩
  · obtain ⟨b, o, a, c, rfl, h4, h1, h2, h3⟩ := matchAll4 h
    exact ⟨b, o, a, c, rfl, .inr ⟨square_l h1, square_r h3⟩, h2, h4⟩

/-- One operand of one token, or several, before or after others. -/
theorem Spec.GbArgsText.one {value : Str → Int → Prop} {v : Int} {a : GbArg} {ts : List Str} (h : GbArgText value v a ts) :
    GbArgsText value v [a] ts := by
  have := GbArgsText.cons h .nil
  rwa [List.append_nil] at this

theorem Spec.GbArgsText.two {value : Str → Int → Prop} {v : Int} {a b : GbArg} {ts us : List Str} (h : GbArgText value v a ts)
    (h' : GbArgText value v b us) : GbArgsText value v [a, b] (ts ++ us) := .cons h (.one h')

/-- The operands of a plan are one of the forms, and the line writes that form. -/
def GbReads (cond : Bool) (rest : List Str) (p : GbPlan) : Prop :=
  ∃ f ∈ gbForms cond, ∃ tok, p = f.plan tok ∧ ∀ value v, GbHolds value v tok f.kind → GbArgsText value v f.args rest

/-- The store to the last page through a character of the pattern. -/
def GbHighOdd (rest : List Str) : Prop :=
  ∃ o x c a, rest = [o, x, c, a] ∧ GbBrackets o c ∧ eqNoCase a ['A'] ∧ x ∈ ([['$'], ['F'], ['f'], ['0'], ['+']] : List Str)

theorem match_high {a : Str} (h : (Pat.str "$FF00+C".toList).matches a = true) :
    (eqNoCase a "$FF00+C".toList ∨ eqNoCase a ['C']) ∨ a ∈ ([['$'], ['F'], ['f'], ['0'], ['+']] : List Str) := by
  have h : upper a = upper "$FF00+C".toList ∨ ∃ x ∈ "$FF00+C".toList, upper a = upper [x] := by
    simpa only [Pat.matches, Bool.or_eq_true, decide_eq_true_eq, List.any_eq_true] using h
  rcases h with h | ⟨x, hx, h⟩
  · exact .inl (.inl h)
  · simp only [String.reduceToList, List.mem_cons, List.not_mem_nil, or_false] at hx
    rcases hx with rfl | rfl | rfl | rfl | rfl | rfl | rfl
    · rcases upper_single (r := '$') (by decide) h with h | h <;> subst h <;> simp <;> decide
    · rcases upper_single (r := 'F') (by decide) h with h | h <;> subst h <;> right <;> decide
    · rcases upper_single (r := 'F') (by decide) h with h | h <;> subst h <;> right <;> decide
    · rcases upper_single (r := '0') (by decide) h with h | h <;> subst h <;> right <;> decide
    · rcases upper_single (r := '0') (by decide) h with h | h <;> subst h <;> right <;> decide
    · rcases upper_single (r := '+') (by decide) h with h | h <;> subst h <;> right <;> decide
    · exact .inl (.inr h)

theorem ldh_split {a : Str} (h : gbIsLdh a = true) : a = "$FF00+".toList ++ a.drop 6 := by
  simp only [gbIsLdh, startsWith, Bool.and_eq_true] at h
  obtain ⟨r, hr⟩ := List.isPrefixOf_iff_prefix.1 h.1
  rw [← hr]
  simp

theorem mem_forms {cond : Bool} (k : Nat) {f : GbForm} (h : f ∈ gbPart cond k) (hk : k < 25 := by decide) : f ∈ gbForms cond :=
  List.mem_flatMap.2 ⟨k, List.mem_range.2 hk, h⟩

theorem mem_two {l l' : List String} {n m : String} (g : String → String → GbForm) (hn : n ∈ l) (hm : m ∈ l') :
    g n m ∈ l.flatMap fun n => l'.map fun m => g n m :=
  List.mem_flatMap.2 ⟨n, hn, List.mem_map.2 ⟨m, hm, rfl⟩⟩

theorem mem_one {l : List String} {n : String} (g : String → GbForm) (hn : n ∈ l) : g n ∈ l.map fun n => g n :=
  List.mem_map.2 ⟨n, hn, rfl⟩

/-- The condition `C` is also the name of a register. -/
theorem cond_not_reg {a : Str} {n : String} (h : GbNamed gbN8 a n) (hc : (Pat.coll gbConds).matches a = false) : n ∉ gbNcc := by
  intro hn
  have : (Pat.coll gbConds).matches a = true := by
    have h2 : upper a = upper n.toList := h.2
    simp only [Pat.matches, gbConds, List.any_map, List.any_eq_true, Function.comp_apply, decide_eq_true_eq]
    exact ⟨n, hn, h2⟩
  rw [hc] at this; cases this

theorem instr1 {t : Str} {rest : List Str} {p : Pat} (h : instrMatch (t :: rest) [p] = true) : ∃ a, rest = [a] ∧ p.matches a = true := by
  rw [instrMatch_cons] at h; exact matchAll1 h

theorem instr2 {t : Str} {rest : List Str} {p q : Pat} (h : instrMatch (t :: rest) [p, q] = true) :
    ∃ a b, rest = [a, b] ∧ p.matches a = true ∧ q.matches b = true := by
  rw [instrMatch_cons] at h; exact matchAll2 h

/-- A plan is to do nothing, or it reads the line, or it is the odd store. -/
def GbPlanOk (cond : Bool) (rest : List Str) (p : GbPlan) : Prop :=
  p = .nothing ∨ GbReads cond rest p ∨ (p = .op "ind_c_a".toList ∧ GbHighOdd rest)

theorem plan_ite {cond : Bool} {rest : List Str} {c : Prop} [Decidable c] {p q : GbPlan} (h1 : c → GbPlanOk cond rest p)
    (h2 : ¬ c → GbPlanOk cond rest q) : GbPlanOk cond rest (if c then p else q) := by
  split
  · next h => exact h1 h
  · next h => exact h2 h

theorem gbPlan_line (cond rel : Bool) (kw : List (String × Nat)) (t : Str) (rest : List Str) :
    GbPlanOk cond rest (gbPlan cond rel kw (t :: rest)) := by
  unfold gbPlan
  refine plan_ite (fun h => ?_) (fun _ => ?_)
  · rw [Bool.and_eq_true] at h
    obtain ⟨a, b, rfl, h1, h2⟩ := instr2 h.2
    obtain ⟨n, hn⟩ := coll_named (l := gbNcc) h1
    simp only [List.getD_cons_succ, List.getD_cons_zero, hn.key]
    refine plan_ite (fun _ => ?_) (fun _ => ?_)
    · exact .inr (.inl ⟨_, mem_forms 0 (mem_one _ hn.1), b, rfl, fun value v ⟨x, hx, hv⟩ => .two (.cond hn.2) (.rel hx hv)⟩)
    · exact .inr (.inl ⟨_, mem_forms 1 (mem_one _ hn.1), b, rfl, fun value v ⟨x, hx, hv⟩ => .two (.cond hn.2) (.imm16 hx hv)⟩)
  refine plan_ite (fun h => ?_) (fun hcc => ?_)
  · rw [Bool.and_eq_true] at h
    obtain ⟨a, rfl, h1⟩ := instr1 h.2
    obtain ⟨n, hn⟩ := coll_named (l := gbNcc) h1
    refine .inr (.inl ?_)
    simp only [List.getD_cons_succ, List.getD_cons_zero, hn.key]
    refine ⟨⟨gbKey n, none, [.cond n]⟩, mem_forms 2 ?_, [], rfl, fun value v _ => .one (.cond hn.2)⟩
    rw [h.1]; exact mem_one _ hn.1
  refine plan_ite (fun h => ?_) (fun _ => ?_)
  · obtain ⟨o, a, c, b, rfl, hb, h1, h2⟩ := bracket_left h
    refine .inr ?_
    rcases match_high h1 with h1 | h1
    · refine .inl ?_
      exact ⟨_, mem_forms 3 (List.mem_singleton.2 rfl), [], rfl, fun value v _ => .two (.highC hb h1) (.reg (match_A h2))⟩
    · refine .inr ?_
      exact ⟨rfl, o, a, c, b, rfl, hb, match_A h2, h1⟩
  refine plan_ite (fun h => ?_) (fun _ => ?_)
  · obtain ⟨o, a, c, b, rfl, hb, h1, h2⟩ := bracket_left h
    refine .inr (.inl ?_)
    refine ⟨_, mem_forms 4 (List.mem_singleton.2 rfl), a.drop 6, rfl, fun value v ⟨x, hx, hv⟩ => ?_⟩
    have := GbArgsText.two (.high hb hx hv) (.reg (n := "A") (match_A h2))
    rw [← ldh_split h1] at this
    exact this
  refine plan_ite (fun h => ?_) (fun _ => ?_)
  · obtain ⟨b, o, a, c, rfl, hb, h1, h2⟩ := bracket_right h
    refine .inr (.inl ?_)
    refine ⟨_, mem_forms 5 (List.mem_singleton.2 rfl), a.drop 6, rfl, fun value v ⟨x, hx, hv⟩ => ?_⟩
    have := GbArgsText.two (.reg (n := "A") (match_A h2)) (.high hb hx hv)
    rw [← ldh_split h1] at this
    exact this
  refine plan_ite (fun h => ?_) (fun _ => ?_)
  · obtain ⟨a, b, rfl, h1, h2⟩ := instr2 h
    obtain ⟨n, hn⟩ := coll_named (l := gbN8) h1
    obtain ⟨m, hm⟩ := coll_named (l := gbN8) h2
    refine .inr (.inl ?_)
    simp only [List.getD_cons_succ, List.getD_cons_zero, hn.key, hm.key]
    exact ⟨_, mem_forms 6 (mem_two _ hn.1 hm.1), [], rfl, fun value v _ => .two (.reg hn.2) (.reg hm.2)⟩
  refine plan_ite (fun h => ?_) (fun _ => ?_)
  · obtain ⟨a, b, rfl, h1, h2⟩ := instr2 h
    obtain ⟨n, hn⟩ := coll_named (l := gbN16) h1
    obtain ⟨m, hm⟩ := coll_named (l := gbN16) h2
    refine .inr (.inl ?_)
    simp only [List.getD_cons_succ, List.getD_cons_zero, hn.key, hm.key]
    exact ⟨_, mem_forms 7 (mem_two _ hn.1 hm.1), [], rfl, fun value v _ => .two (.reg hn.2) (.reg hm.2)⟩
  refine plan_ite (fun h => ?_) (fun _ => ?_)
  · obtain ⟨a, b, rfl, h1, h2⟩ := instr2 h
    obtain ⟨n, hn⟩ := coll_named (l := gbN16) h1
    simp only [List.getD_cons_succ, List.getD_cons_zero, hn.key]
    refine plan_ite (fun _ => ?_) (fun _ => ?_)
    · exact .inr (.inl ⟨_, mem_forms 8 (mem_one _ hn.1), b, rfl, fun value v ⟨x, hx, hv⟩ => .two (.reg hn.2) (.rel hx hv)⟩)
    · exact .inr (.inl ⟨_, mem_forms 9 (mem_one _ hn.1), b, rfl, fun value v ⟨x, hx, hv⟩ => .two (.reg hn.2) (.imm16 hx hv)⟩)
  refine plan_ite (fun h => ?_) (fun _ => ?_)
  · obtain ⟨o, a, c, b, rfl, hb, h1, h2⟩ := bracket_left h
    obtain ⟨n, hn⟩ := coll_named (l := gbN16) h1
    obtain ⟨m, hm⟩ := coll_named (l := gbN8) h2
    refine .inr (.inl ?_)
    simp only [List.getD_cons_succ, List.getD_cons_zero, hn.key, hm.key]
    exact ⟨_, mem_forms 10 (mem_two _ hn.1 hm.1), [], rfl, fun value v _ => .two (.mem hb hn.2) (.reg hm.2)⟩
  refine plan_ite (fun h => ?_) (fun _ => ?_)
  · obtain ⟨a, rfl, h1⟩ := instr1 h
    obtain ⟨n, hn⟩ := coll_named (l := gbN8) h1
    refine .inr (.inl ?_)
    simp only [List.getD_cons_succ, List.getD_cons_zero, hn.key]
    refine ⟨_, mem_forms 11 (List.mem_map.2 ⟨n, List.mem_filter.2 ⟨hn.1, ?_⟩, rfl⟩), [], rfl, fun value v _ => .one (.reg hn.2)⟩
    cases cond with
    | false => rfl
    | true =>
      have hx : (Pat.coll gbConds).matches a = false := by
        cases hx : (Pat.coll gbConds).matches a with
        | false => rfl
        | true => exact absurd (by simp [instrMatch_cons, matchAll, hx]) hcc
      simpa using cond_not_reg hn hx
  refine plan_ite (fun h => ?_) (fun _ => ?_)
  · obtain ⟨a, b, rfl, h1, h2⟩ := instr2 h
    obtain ⟨n, hn⟩ := coll_named (l := gbN8) h1
    refine .inr (.inl ?_)
    simp only [List.getD_cons_succ, List.getD_cons_zero, hn.key]
    exact ⟨_, mem_forms 12 (mem_one _ hn.1), b, rfl, fun value v ⟨x, hx, hv⟩ => .two (.reg hn.2) (.imm8 hx hv)⟩
  refine plan_ite (fun h => ?_) (fun _ => ?_)
  · obtain ⟨a, rfl, h1⟩ := instr1 h
    obtain ⟨n, hn⟩ := coll_named (l := gbN16) h1
    refine .inr (.inl ?_)
    simp only [List.getD_cons_succ, List.getD_cons_zero, hn.key]
    exact ⟨_, mem_forms 13 (mem_one _ hn.1), [], rfl, fun value v _ => .one (.reg hn.2)⟩
  refine plan_ite (fun h => ?_) (fun _ => ?_)
  · obtain ⟨b, o, a, c, rfl, hb, h1, h2⟩ := bracket_right h
    obtain ⟨m, hm⟩ := coll_named (l := gbN16) h1
    obtain ⟨n, hn⟩ := coll_named (l := gbN8) h2
    refine .inr (.inl ?_)
    simp only [List.getD_cons_succ, List.getD_cons_zero, hn.key, hm.key]
    exact ⟨_, mem_forms 14 (mem_two _ hn.1 hm.1), [], rfl, fun value v _ => .two (.reg hn.2) (.mem hb hm.2)⟩
  refine plan_ite (fun h => ?_) (fun _ => ?_)
  · obtain ⟨b, o, a, c, rfl, hb, h1, h2⟩ := bracket_right h
    obtain ⟨m, hm⟩ := coll_named (l := gbN8) h1
    obtain ⟨n, hn⟩ := coll_named (l := gbN8) h2
    refine .inr (.inl ?_)
    simp only [List.getD_cons_succ, List.getD_cons_zero, hn.key, hm.key]
    refine ⟨_, mem_forms 15 (mem_two _ hn.1 hm.1), [], rfl, fun value v _ => .two (.reg hn.2) ?_⟩
    by_cases hc : m = "C"
    · rw [if_pos hc]; exact .highC hb (.inr (by have := hm.2; rw [hc] at this; exact this))
    · rw [if_neg hc]; exact .mem hb hm.2
  refine plan_ite (fun h => ?_) (fun _ => ?_)
  · obtain ⟨b, o, a, c, rfl, hb, h1, h2⟩ := bracket_right h
    obtain ⟨n, hn⟩ := coll_named (l := gbN8) h2
    refine .inr (.inl ?_)
    simp only [List.getD_cons_succ, List.getD_cons_zero, hn.key]
    exact ⟨_, mem_forms 16 (mem_one _ hn.1), a, rfl, fun value v ⟨x, hx, hv⟩ => .two (.reg hn.2) (.mem16 hb hx hv)⟩
  refine plan_ite (fun h => ?_) (fun _ => ?_)
  · obtain ⟨o, a, c, rfl, hb, h1⟩ := bracket3 h
    obtain ⟨n, hn⟩ := coll_named (l := gbN16) h1
    refine .inr (.inl ?_)
    simp only [List.getD_cons_succ, List.getD_cons_zero, hn.key]
    exact ⟨_, mem_forms 17 (mem_one _ hn.1), [], rfl, fun value v _ => .one (.mem hb hn.2)⟩
  refine plan_ite (fun h => ?_) (fun _ => ?_)
  · obtain ⟨o, a, c, b, rfl, hb, h1, h2⟩ := bracket_left h
    obtain ⟨n, hn⟩ := coll_named (l := gbN16) h2
    refine .inr (.inl ?_)
    simp only [List.getD_cons_succ, List.getD_cons_zero, hn.key]
    exact ⟨_, mem_forms 18 (mem_one _ hn.1), a, rfl, fun value v ⟨x, hx, hv⟩ => .two (.mem16 hb hx hv) (.reg hn.2)⟩
  refine plan_ite (fun h => ?_) (fun _ => ?_)
  · obtain ⟨o, a, c, b, rfl, hb, h1, h2⟩ := bracket_left h
    obtain ⟨n, hn⟩ := coll_named (l := gbN8) h2
    refine .inr (.inl ?_)
    simp only [List.getD_cons_succ, List.getD_cons_zero, hn.key]
    exact ⟨_, mem_forms 19 (mem_one _ hn.1), a, rfl, fun value v ⟨x, hx, hv⟩ => .two (.mem16 hb hx hv) (.reg hn.2)⟩
  refine plan_ite (fun h => ?_) (fun _ => ?_)
  · obtain ⟨o, a, c, b, rfl, hb, h1, h2⟩ := bracket_left h
    obtain ⟨n, hn⟩ := coll_named (l := gbN16) h1
    refine .inr (.inl ?_)
    simp only [List.getD_cons_succ, List.getD_cons_zero, hn.key]
    exact ⟨_, mem_forms 20 (mem_one _ hn.1), b, rfl, fun value v ⟨x, hx, hv⟩ => .two (.mem hb hn.2) (.imm8 hx hv)⟩
  refine plan_ite (fun h => ?_) (fun _ => ?_)
  · obtain ⟨a, rfl, h1⟩ := instr1 h
    simp only [List.getD_cons_succ, List.getD_cons_zero]
    refine plan_ite (fun _ => ?_) (fun _ => ?_)
    · exact .inr (.inl ⟨_, mem_forms 21 (List.mem_singleton.2 rfl), a, rfl, fun value v ⟨x, hx, hv⟩ => .one (.rel hx hv)⟩)
    refine plan_ite (fun _ => ?_) (fun _ => ?_)
    · exact .inr (.inl ⟨_, mem_forms 22 (List.mem_singleton.2 rfl), a, rfl, fun value v ⟨x, hx, hv⟩ => .one (.imm8 hx hv)⟩)
    refine plan_ite (fun _ => ?_) (fun _ => ?_)
    · exact .inr (.inl ⟨_, mem_forms 23 (List.mem_singleton.2 rfl), a, rfl, fun value v ⟨x, hx, hv⟩ => .one (.imm16 hx hv)⟩)
    refine plan_ite (fun _ => ?_) (fun _ => ?_)
    · exact .inr (.inl ⟨_, mem_forms 24 (List.mem_singleton.2 rfl), a, rfl, fun value v ⟨x, hx, hv⟩ => .one (.imm16 hx hv)⟩)
    · exact .inl rfl
  · exact .inl rfl

/-! ## decoding -/

theorem gbByte_ok {kw : List (String × Nat)} {key : Str} {c : Ctx} {b : Bytes} {rels : List Reloc}
    (h : gbByte kw key c = (.ok b, rels)) : ∃ op, gbGet kw key = some op ∧ b = [BitVec.ofNat 8 op] ∧ rels = [] := by
  unfold gbByte at h
  cases hg : gbGet kw key with
  | none => rw [hg] at h; simp at h
  | some op =>
    rw [hg] at h
    simp only [H.lift_apply, Prod.mk.injEq] at h
    rw [show packByte [some (op : Int)] = .ok [BitVec.ofInt 8 op] from packByte_ok [(op : Int)]] at h
    exact ⟨op, rfl, by rw [← Except.ok.inj h.1]; rfl, h.2.symm⟩

theorem gbFits_data {name : String} {f : GbForm} {op : Nat} (hf : gbFits name f op = true) :
    gbData f.args = gbKindData f.kind := by
  unfold gbFits at hf
  simp only [Bool.and_eq_true, decide_eq_true_eq] at hf
  obtain ⟨-, h4⟩ := hf
  cases hs : gbShape op with
  | none => rw [hs] at h4; cases h4
  | some p =>
    rw [hs] at h4
    simp only [Bool.and_eq_true, decide_eq_true_eq] at h4
    obtain ⟨⟨-, ha⟩, hd⟩ := h4
    rw [← hd]
    rcases ha with h | ⟨-, h⟩ <;> rw [h]
    rfl

/-- An opcode of the table, with the bytes of its operand. -/
theorem gb_decode {name : String} {f : GbForm} {op : Nat} (hf : gbFits name f op = true) :
    ∃ as, (∀ bs v, gbOperand f.kind bs = some v → decodeGb (BitVec.ofNat 8 op :: bs) = some ⟨name, as, v⟩) ∧
      (as = f.args ∨ name ∈ gbAlu ∧ as = .reg "A" :: f.args) := by
  unfold gbFits at hf
  simp only [Bool.and_eq_true, decide_eq_true_eq] at hf
  obtain ⟨⟨⟨h1, h2⟩, h3⟩, h4⟩ := hf
  have hto : (BitVec.ofNat 8 op).toNat = op := by rw [BitVec.toNat_ofNat]; exact Nat.mod_eq_of_lt h1
  have hne : BitVec.ofNat 8 op ≠ 0xCB := fun h => h2 (by rw [← hto, h]; rfl)
  have hne' : BitVec.ofNat 8 op ≠ 0x10 := fun h => h3 (by rw [← hto, h]; rfl)
  cases hs : gbShape op with
  | none => rw [hs] at h4; cases h4
  | some p =>
    obtain ⟨m, as⟩ := p
    rw [hs] at h4
    simp only [Bool.and_eq_true, decide_eq_true_eq] at h4
    obtain ⟨⟨rfl, ha⟩, hd⟩ := h4
    refine ⟨as, fun bs v hb => ?_, ha⟩
    unfold decodeGb
    dsimp only
    rw [if_neg hne, if_neg hne', hto, hs]
    dsimp only
    rw [hd]
    generalize f.kind = k at hb
    unfold gbOperand at hb
    split at hb <;> simp only [Option.some.injEq, reduceCtorEq] at hb <;> subst hb <;> rfl

/-- What is known of a line that assembled: it had no operand with a value, or one, and then any bytes in the place
of that operand decode to the same instruction with another value. -/
inductive GbParsed (c : Ctx) (t : Str) (rest : List Str) (blob : Bytes) (rels : List Reloc) : Prop
  | plain {i} : rels = [] → decodeGb blob = some i → (∀ value, GbWritten value t rest i) → GbParsed c t rest blob rels
  | operand {op kind tok bs name as} : blob = op :: bs → gbFetch kind tok c = (.ok bs, rels) →
      (∀ bs' v, gbOperand (some kind) bs' = some v → decodeGb (op :: bs') = some ⟨name, as, v⟩) →
      (∀ value v, GbHolds value v tok (some kind) → GbWritten value t rest ⟨name, as, v⟩) →
      (kind = .r8 ↔ gbData as = .signed) → GbParsed c t rest blob rels

theorem GbParsed.decodes {c : Ctx} {t : Str} {rest : List Str} {blob : Bytes} {rels : List Reloc} (h : GbParsed c t rest blob rels) :
    ∃ i, decodeGb blob = some i ∧ GbWritten (OperandValue c rels) t rest i := by
  cases h with
  | plain _ hd hw => exact ⟨_, hd, hw _⟩
  | operand hb hf hd hw _ =>
    obtain ⟨v, hv, hx⟩ := gbFetch_ok hf
    subst hb
    exact ⟨_, hd _ _ hv, hw _ _ hx⟩

/-- What the ladder of patterns emits decodes to the line, the odd stores apart. -/
theorem gbBuild_decodes {row : GbRow} (hrow : row ∈ gbRows) {c : Ctx} {t : Str} {rest : List Str} {blob : Bytes} {rels : List Reloc}
    (ht : eqNoCase t row.name.toList) (h : gbBuild row.conditional row.relative row.args (t :: rest) c = (.ok (some blob), rels)) :
    GbParsed c t rest blob rels ∨ (row.name = "LD" ∧ GbHighOdd rest) := by
  rw [gbBuild_plan] at h
  rcases gbPlan_line row.conditional row.relative row.args t rest with hp | ⟨f, hf, tok, hp, hw⟩ | ⟨hp, ho⟩
  · rw [hp] at h; simp [GbPlan.run] at h
  · rw [hp] at h
    left
    unfold GbForm.plan at h
    cases hk : f.kind with
    | none =>
      rw [hk] at h
      obtain ⟨b, r, r', h1, h2, rfl⟩ := H.bind_ok (show gbOnly row.args f.key c = _ from h)
      obtain ⟨op, h3, rfl, rfl⟩ := gbByte_ok h1
      simp only [H.pure_apply, Prod.mk.injEq, Except.ok.injEq, Option.some.injEq] at h2
      obtain ⟨as, hd, ha⟩ := gb_decode (gb_rows_fit row hrow f hf op h3)
      refine .plain h2.2.symm (by rw [← h2.1]; exact hd [] 0 (by rw [hk]; rfl)) fun value => ?_
      rcases ha with rfl | ⟨ha, rfl⟩
      · exact .plain ht (hw _ _ (by rw [hk]; trivial))
      · exact .alu ha ht (hw _ _ (by rw [hk]; trivial))
    | some k =>
      rw [hk] at h
      obtain ⟨bs, r, r', h1, h2, rfl⟩ := H.bind_ok (show (gbFetch k tok >>= fun value => gbByteThen row.args f.key value) c = _ from h)
      obtain ⟨b, r1, r2, h3, h4, rfl⟩ := H.bind_ok (show gbByteThen row.args f.key bs c = _ from h2)
      obtain ⟨op, h5, rfl, rfl⟩ := gbByte_ok h3
      simp only [H.pure_apply, Prod.mk.injEq, Except.ok.injEq, Option.some.injEq] at h4
      have hfit := gb_rows_fit row hrow f hf op h5
      obtain ⟨as, hd, ha⟩ := gb_decode hfit
      refine .operand (op := BitVec.ofNat 8 op) (tok := tok) (name := row.name) (as := as) h4.1.symm ?_ (fun bs' v hv => hd bs' v (by rw [hk]; exact hv))
        (fun value v hx => ?_) ?_
      · rw [← h4.2, List.append_nil, List.append_nil]; exact h1
      · rcases ha with rfl | ⟨ha, rfl⟩
        · exact .plain ht (hw _ _ (by rw [hk]; exact hx))
        · exact .alu ha ht (hw _ _ (by rw [hk]; exact hx))
      · have hdat := gbFits_data hfit
        rw [hk] at hdat
        have : gbData as = gbKindData (some k) := by
          rcases ha with rfl | ⟨ha, rfl⟩
          · exact hdat
          · rw [← hdat]; rfl
        rw [this]
        cases k <;> simp [gbKindData]
  · refine .inr ⟨?_, ho⟩
    rw [hp] at h
    obtain ⟨b, r, r', h1, h2, rfl⟩ := H.bind_ok (show gbOnly row.args "ind_c_a".toList c = _ from h)
    obtain ⟨op, h3, -, -⟩ := gbByte_ok h1
    have : ∀ row ∈ gbRows, (gbGet row.args "ind_c_a".toList).isSome → row.name = "LD" := by decide +kernel
    exact this row hrow (by rw [h3]; rfl)

/-! ## instructions behind the prefix -/

/-- A row of instructions behind the prefix, checked against the opcode map.  The bit number is what is left of the key when the name
of the operand is taken off. -/
def gbCbFits (name : String) (row : List (String × Nat)) : Bool :=
  (gbN8.map (fun n => (gbKey n, GbArg.reg n)) ++ [("ind_hl".toList, GbArg.mem "HL")]).all fun q =>
    row.all fun p =>
      (if p.1.toList = q.1 then decide (p.2 < 256 ∧ gbShapeCb p.2 = some (name, [q.2])) else true) &&
      (let n := (p.1.toList.drop 1).take (p.1.length - 2 - q.1.length)
       if p.1.toList = "b".toList ++ n ++ "_".toList ++ q.1 then
         decide (p.2 < 256) && (List.range 8).any fun k => decide (n = (toString k).toList ∧ gbShapeCb p.2 = some (name, [.bit k, q.2]))
       else true)

theorem gb_cb_fit : ∀ row ∈ gbCbRows, gbCbFits row.1 row.2 = true := by decide +kernel

theorem gbGet_mem {kw : List (String × Nat)} {key : Str} {op : Nat} (h : gbGet kw key = some op) : ∃ p ∈ kw, p.1.toList = key ∧ p.2 = op := by
  unfold gbGet at h
  cases hf : kw.find? fun p => p.1.toList == key with
  | none => rw [hf] at h; cases h
  | some p =>
    rw [hf] at h
    have := List.find?_some hf
    exact ⟨p, List.mem_of_find?_eq_some hf, by simpa using this, Option.some.inj h⟩

theorem gbPrefixed_ok {kw : List (String × Nat)} {key : Str} {c : Ctx} {blob : Bytes} {rels : List Reloc}
    (h : gbPrefixed kw key c = (.ok (some blob), rels)) : ∃ op, gbGet kw key = some op ∧ blob = [0xCB, BitVec.ofNat 8 op] ∧ rels = [] := by
  unfold gbPrefixed at h
  cases hg : gbGet kw key with
  | none => rw [hg] at h; simp at h
  | some op =>
    rw [hg] at h
    simp only [hPackByte_apply, Prod.mk.injEq, Except.ok.injEq, Option.some.injEq] at h
    exact ⟨op, rfl, by rw [← h.1]; rfl, h.2.symm⟩

theorem cb_decode {op : Nat} {name : String} {as : List GbArg} (hop : op < 256) (hs : gbShapeCb op = some (name, as)) :
    decodeGb [0xCB, BitVec.ofNat 8 op] = some ⟨name, as, 0⟩ := by
  have hto : (BitVec.ofNat 8 op).toNat = op := by rw [BitVec.toNat_ofNat]; exact Nat.mod_eq_of_lt hop
  unfold decodeGb
  dsimp only
  rw [if_pos rfl, hto, hs]
  rfl

/-- The single operand of a prefixed instruction. -/
theorem cb_plain {name : String} {kw : List (String × Nat)} (hrow : (name, kw) ∈ gbCbRows) {key : Str} {arg : GbArg}
    (hq : (key, arg) ∈ gbN8.map (fun n => (gbKey n, GbArg.reg n)) ++ [("ind_hl".toList, GbArg.mem "HL")]) {c : Ctx} {blob : Bytes}
    {rels : List Reloc} (h : gbPrefixed kw key c = (.ok (some blob), rels)) : decodeGb blob = some ⟨name, [arg], 0⟩ := by
  obtain ⟨op, hg, rfl, -⟩ := gbPrefixed_ok h
  obtain ⟨p, hp, hk, rfl⟩ := gbGet_mem hg
  have hfit := List.all_eq_true.1 (List.all_eq_true.1 (gb_cb_fit _ hrow) _ hq) p hp
  rw [Bool.and_eq_true, if_pos hk] at hfit
  have := of_decide_eq_true hfit.1
  exact cb_decode this.1 this.2

theorem cb_bit {name : String} {kw : List (String × Nat)} (hrow : (name, kw) ∈ gbCbRows) {n key : Str} {arg : GbArg}
    (hq : (key, arg) ∈ gbN8.map (fun n => (gbKey n, GbArg.reg n)) ++ [("ind_hl".toList, GbArg.mem "HL")]) {c : Ctx} {blob : Bytes}
    {rels : List Reloc} (h : gbPrefixed kw ("b".toList ++ n ++ "_".toList ++ key) c = (.ok (some blob), rels)) :
    ∃ k, n = (toString k).toList ∧ decodeGb blob = some ⟨name, [.bit k, arg], 0⟩ := by
  obtain ⟨op, hg, rfl, -⟩ := gbPrefixed_ok h
  obtain ⟨p, hp, hk, rfl⟩ := gbGet_mem hg
  have hfit := List.all_eq_true.1 (List.all_eq_true.1 (gb_cb_fit _ hrow) _ hq) p hp
  have hn : (p.1.toList.drop 1).take (p.1.length - 2 - key.length) = n := by
    have hl : p.1.length = n.length + 2 + key.length := by
      rw [← String.length_toList, hk]; simp; omega
    rw [hl, show n.length + 2 + key.length - 2 - key.length = n.length by omega, hk]
    simp
  rw [Bool.and_eq_true] at hfit
  have h2 := hfit.2
  simp only [hn] at h2
  rw [if_pos hk, Bool.and_eq_true, List.any_eq_true] at h2
  obtain ⟨h3, k, -, h4⟩ := h2
  obtain ⟨h4, h5⟩ := of_decide_eq_true h4
  exact ⟨k, h4, cb_decode (of_decide_eq_true h3) h5⟩

theorem match_HL {a : Str} (h : (Pat.str "HL".toList).matches a = true) :
    eqNoCase a "HL".toList ∨ eqNoCase a ['H'] ∨ eqNoCase a ['L'] := by
  have h : upper a = upper "HL".toList ∨ ∃ x ∈ "HL".toList, upper a = upper [x] := by
    simpa only [Pat.matches, Bool.or_eq_true, decide_eq_true_eq, List.any_eq_true] using h
  rcases h with h | ⟨x, hx, h⟩
  · exact .inl h
  · simp only [String.reduceToList, List.mem_cons, List.not_mem_nil, or_false] at hx
    rcases hx with rfl | rfl
    · exact .inr (.inl h)
    · exact .inr (.inr h)

theorem cb_named {a : Str} {n : String} (h : GbNamed gbN8 a n) :
    (gbName a, GbArg.reg n) ∈ gbN8.map (fun n => (gbKey n, GbArg.reg n)) ++ [("ind_hl".toList, GbArg.mem "HL")] := by
  rw [h.key]
  exact List.mem_append_left _ (List.mem_map.2 ⟨n, h.1, rfl⟩)

theorem gbCb_decodes {name : String} {kw : List (String × Nat)} (hrow : (name, kw) ∈ gbCbRows) {c : Ctx} {t : Str} {rest : List Str}
    {blob : Bytes} {rels : List Reloc} (ht : eqNoCase t name.toList) (h : gbCb kw (t :: rest) c = (.ok (some blob), rels)) :
    GbParsed c t rest blob rels ∨ GbOdd t rest := by
  have hrels : rels = [] := by
    unfold gbCb at h
    dsimp only at h
    split at h
    · exact (gbPrefixed_ok h).choose_spec.2.2
    split at h
    · exact (gbPrefixed_ok h).choose_spec.2.2
    split at h
    · exact (gbPrefixed_ok h).choose_spec.2.2
    split at h
    · exact (gbPrefixed_ok h).choose_spec.2.2
    · simp at h
  have hodd : ∃ r ∈ gbRot ++ ["BIT", "RES", "SET"], eqNoCase t r.toList := by
    have : ∀ row ∈ gbCbRows, row.1 ∈ gbRot ++ ["BIT", "RES", "SET"] := by decide +kernel
    exact ⟨name, this _ hrow, ht⟩
  have hl : ("ind_hl".toList, GbArg.mem "HL") ∈ gbN8.map (fun n => (gbKey n, GbArg.reg n)) ++ [("ind_hl".toList, GbArg.mem "HL")] :=
    List.mem_append_right _ (List.mem_singleton.2 rfl)
  unfold gbCb at h
  by_cases h1 : instrMatch (t :: rest) [Pat.coll gbRegs8] = true
  · rw [if_pos h1] at h
    obtain ⟨a, rfl, g⟩ := instr1 h1
    obtain ⟨n, hn⟩ := coll_named (l := gbN8) g
    exact .inl (.plain hrels (cb_plain hrow (cb_named hn) h) fun _ => .plain ht (.one (.reg hn.2)))
  rw [if_neg h1] at h
  by_cases h2 : gbBracket (t :: rest) [] [Pat.str "HL".toList] [] = true
  · rw [if_pos h2] at h
    obtain ⟨o, a, e, rfl, hb, g⟩ := bracket3 h2
    rcases match_HL g with g | g
    · exact .inl (.plain hrels (cb_plain hrow hl h) fun _ => .plain ht (.one (.mem hb g)))
    · exact .inr (.half g hb (.inl rfl) hodd)
  rw [if_neg h2] at h
  by_cases h3 : instrMatch (t :: rest) [Pat.pred gbIsNumber, Pat.coll gbRegs8] = true
  · rw [if_pos h3] at h
    obtain ⟨b, a, rfl, -, g⟩ := instr2 h3
    obtain ⟨n, hn⟩ := coll_named (l := gbN8) g
    obtain ⟨k, hk, hd⟩ := cb_bit hrow (cb_named hn) h
    exact .inl (.plain hrels hd fun _ => .plain ht (.two (.bit hk) (.reg hn.2)))
  rw [if_neg h3] at h
  by_cases h4 : gbBracket (t :: rest) [Pat.pred gbIsNumber] [Pat.str "HL".toList] [] = true
  · rw [if_pos h4] at h
    obtain ⟨b, o, a, e, rfl, hb, g, -⟩ := bracket_right h4
    rcases match_HL g with g | g
    · obtain ⟨k, hk, hd⟩ := cb_bit hrow hl (n := b) (by
        rw [List.append_assoc _ "_".toList]; exact h)
      exact .inl (.plain hrels hd fun _ => .plain ht (.two (.bit hk) (.mem hb g)))
    · exact .inr (.half g hb (.inr ⟨b, rfl⟩) hodd)
  rw [if_neg h4] at h
  simp at h

end Necro
