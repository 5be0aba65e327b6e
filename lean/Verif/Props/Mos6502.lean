import Verif.Lemmas.Mos6502
import Verif.Lemmas.Linked
/-!
# C49, C50, C51: the 6502 instruction set

`decode6502` is the documented instruction set, written from the bit fields of the opcode.
`Emits mos6502 c t rest blob rels`: in context `c` the mnemonic `t` with operand tokens `rest`
assembles to the bytes `blob`, leaving the references `rels` (`Necro.execInstr_emits` relates this to
running the statement).
-/

namespace Necro
open Spec

theorem toNat_ofNat8 {o : Nat} (h : o < 256) : (BitVec.ofNat 8 o).toNat = o := by
  rw [BitVec.toNat_ofNat]; omega

theorem m6502Address_ok {ab zp : Option Nat} (hab : ∀ o, ab = some o → o < 256) {a : Str} {c : Ctx} {b : Bytes}
    {rels : List Reloc} (h : m6502Address ab zp a c = (.ok (some b), rels)) :
    (∃ z v, zp = some z ∧ b = [BitVec.ofNat 8 z, v]) ∨ (∃ o v, ab = some o ∧ b = bytes3 o v) := by
  cases hp : parseInteger c.sy c.labels a 16 false with
  | error e =>
    unfold m6502Address at h
    rw [H.bind_error (m := H.parseInteger a 16 false) (by rw [H.parseInteger_apply, hp])] at h
    cases h
  | ok p =>
    cases p with
    | some v =>
      rw [m6502Address_number ab zp hab a c v hp] at h
      cases zp with
      | none =>
        cases ab with
        | none => cases h
        | some o => cases h; exact .inr ⟨o, v, rfl, rfl⟩
      | some z =>
        cases hd : decide (v < 256) with
        | true => rw [hd] at h; cases h; exact .inl ⟨z, _, rfl, rfl⟩
        | false =>
          rw [hd] at h
          cases ab with
          | none => cases h
          | some o => cases h; exact .inr ⟨o, v, rfl, rfl⟩
    | none =>
      cases hl : labelAddress c.sy c.labels a with
      | error e =>
        unfold m6502Address at h
        rw [H.bind_run (m := H.parseInteger a 16 false) (by rw [H.parseInteger_apply, hp])] at h
        simp only at h
        rw [H.bind_error (m := H.labelAddress a) (by rw [H.labelAddress_apply, hl])] at h
        cases h
      | ok addr =>
        rw [m6502Address_label ab zp hab a c addr hp hl] at h
        cases zp with
        | none =>
          cases ab with
          | none => cases h
          | some o => cases h; exact .inr ⟨o, 0, rfl, rfl⟩
        | some z =>
          cases hd : addr.filter (fun v => decide (0 ≤ v ∧ v < 256)) with
          | some v => rw [hd] at h; cases h; exact .inl ⟨z, _, rfl, rfl⟩
          | none =>
            rw [hd] at h
            cases ab with
            | none => cases h
            | some o => cases h; exact .inr ⟨o, 0, rfl, rfl⟩

theorem emits_modes {c : Ctx} {t : Str} {rest : List Str} {m : String} {ms : List (Mode × Nat)}
    (hm : (m, ms) ∈ m6502Modes) (ht : upper t = m.toList) {b : Bytes} {rels : List Reloc} :
    Emits mos6502 c t rest b rels ↔ m6502Mode ms (t :: rest) c = (.ok (some b), rels) := by
  have hi : mos6502.instrs (mos6502.key t) = some (.handler (m6502Mode ms)) := by
    rw [m6502_key, ht]; exact lookup_modes hm
  constructor
  · intro h
    cases h with
    | fixed hf _ => rw [hi] at hf; cases hf
    | handler hf he => rw [hi] at hf; cases hf; exact he
  · exact fun h => .handler hi h

theorem emits_branch {c : Ctx} {t : Str} {rest : List Str} {m : String} {op : Nat}
    (hm : (m, op) ∈ m6502Branches) (ht : upper t = m.toList) {b : Bytes} {rels : List Reloc} :
    Emits mos6502 c t rest b rels ↔ m6502Branch op (t :: rest) c = (.ok (some b), rels) := by
  have hi : mos6502.instrs (mos6502.key t) = some (.handler (m6502Branch op)) := by
    rw [m6502_key, ht]; exact lookup_branch hm
  constructor
  · intro h
    cases h with
    | fixed hf _ => rw [hi] at hf; cases hf
    | handler hf he => rw [hi] at hf; cases hf; exact he
  · exact fun h => .handler hi h

theorem branch_apply {op : Nat} (ho : op < 256) (t a : Str) (rest : List Str) (c : Ctx) :
    m6502Branch op (t :: a :: rest) c =
      match parseInteger c.sy c.labels a 8 (c.pc + 2 != 0) with
      | .error e => (.error e, [])
      | .ok none => (.ok (some [BitVec.ofNat 8 op, 0]), [{ label := a, bitsSize := 8, size := 1, offset := 1, relative := c.pc + 2 }])
      | .ok (some v) =>
        (if -128 ≤ v ∧ v < 128 then .ok (some [BitVec.ofNat 8 op, BitVec.ofInt 8 v]) else .error .structError, []) := by
  unfold m6502Branch
  simp only [List.getElem?_cons_succ, List.getElem?_cons_zero]
  rw [H.bind_run (m := H.read) (H.read_apply c)]
  have hcall : ∀ x, H.parseIntegerOrLabel { label := a, bitsSize := 8, size := 1, offset := 1, relative := c.pc + 2 } false c = x →
      (match parseInteger c.sy c.labels a 8 (c.pc + 2 != 0) with
        | .error e => ((.error e, []) : Except Err Int × List Reloc)
        | .ok (some v) => (.ok v, [])
        | .ok none => (.ok 0, [{ label := a, bitsSize := 8, size := 1, offset := 1, relative := c.pc + 2 }])) = x := by
    intro x hx; rw [← hx]; unfold H.parseIntegerOrLabel; simp only [Bool.false_or]
    cases parseInteger c.sy c.labels a 8 (c.pc + 2 != 0) with
    | error e => rfl
    | ok o => cases o <;> rfl
  have hcall := hcall _ rfl
  cases hp : parseInteger c.sy c.labels a 8 (c.pc + 2 != 0) with
  | error e => rw [hp] at hcall; exact H.bind_error hcall.symm
  | ok o =>
    cases o with
    | none =>
      rw [hp] at hcall
      refine (H.bind_of hcall.symm (hPack_apply _ _ _ _)).trans ?_
      rw [structPack_Bb ho]; rfl
    | some v =>
      rw [hp] at hcall
      refine (H.bind_of hcall.symm (hPack_apply _ _ _ _)).trans ?_
      rw [structPack_Bb ho]
      simp only [List.nil_append]
      split <;> rfl

/-! ## C49 -/

/-- C49: whatever is assembled starts with a documented opcode of the mnemonic written, in the
addressing mode written, and is followed by exactly the operand bytes of that mode. -/
theorem C49_decodes (c : Ctx) (t : Str) (rest : List Str) (blob : Bytes) (rels : List Reloc)
    (h : Emits mos6502 c t rest blob rels) :
    ∃ op operand m mode, blob = op :: operand ∧ decode6502 op.toNat = some (m, mode) ∧ upper t = m.toList ∧
      operand.length = mode.operandSize ∧ (Written rest mode ∨ mode = .relative ∧ rest ≠ []) := by
  cases h with
  | fixed hf hr =>
    rcases lookup_inv hf with ⟨m, op, hm, hk, hi⟩ | ⟨m, op, hm, hk, hi⟩ | ⟨m, ms, hm, hk, hi⟩
    · cases hi
      obtain ⟨h1, h2⟩ := table_fixed _ hm
      refine ⟨_, [], m, .implied, rfl, by rw [toNat_ofNat8 h1]; exact h2, hk, rfl, .inl ?_⟩
      rw [hr]; exact .implied
    · cases hi
    · cases hi
  | handler hf he =>
    rcases lookup_inv hf with ⟨m, op, hm, hk, hi⟩ | ⟨m, op, hm, hk, hi⟩ | ⟨m, ms, hm, hk, hi⟩
    · cases hi
    · cases hi
      obtain ⟨h1, h2⟩ := table_branches _ hm
      cases rest with
      | nil => cases he
      | cons a rest =>
        rw [branch_apply h1] at he
        have hdec : decode6502 (BitVec.ofNat 8 op).toNat = some (m, .relative) := by rw [toNat_ofNat8 h1]; exact h2
        split at he
        · cases he
        · cases he; exact ⟨_, _, m, .relative, rfl, hdec, hk, rfl, .inr ⟨rfl, by simp⟩⟩
        · split at he
          · cases he; exact ⟨_, _, m, .relative, rfl, hdec, hk, rfl, .inr ⟨rfl, by simp⟩⟩
          · cases he
    · cases hi
      rcases m6502Mode_forms he with ⟨a, o, rfl, ha, ho, rfl, rfl⟩ | ⟨v, o, x, rfl, hv, ho, rfl, _⟩ | ⟨sh, a, hop, ha⟩
      · obtain ⟨h1, h2⟩ := table_modes _ hm _ (mem_of_dget ho)
        exact ⟨_, [], m, .accumulator, rfl, by rw [toNat_ofNat8 h1]; exact h2, hk, rfl, .inl (.accumulator ha)⟩
      · obtain ⟨h1, h2⟩ := table_modes _ hm _ (mem_of_dget ho)
        exact ⟨_, _, m, .immediate, rfl, by rw [toNat_ofNat8 h1]; exact h2, hk, rfl, .inl (.immediate hv)⟩
      · rw [m6502Mode_operand ms t rest sh a c hop ha] at he
        rcases m6502Address_ok (fun o ho => (opFor_lt hm ho).1) he with ⟨z, v, hz, rfl⟩ | ⟨o, v, ho, rfl⟩
        · obtain ⟨h1, md, h2, h3⟩ := opFor_lt hm hz
          refine ⟨_, _, m, md, rfl, by rw [toNat_ofNat8 h1]; exact h3, hk, ?_, .inl (.memory hop ha (.inl h2))⟩
          cases sh <;> simp [Shape.narrow] at h2 <;> subst h2 <;> rfl
        · obtain ⟨h1, md, h2, h3⟩ := opFor_lt hm ho
          refine ⟨_, _, m, md, rfl, by rw [toNat_ofNat8 h1]; exact h3, hk, ?_, .inl (.memory hop ha (.inr h2))⟩
          cases sh <;> simp [Shape.wide] at h2 <;> subst h2 <;> rfl

/-- C49: the first byte determines the mnemonic and the length. -/
theorem C49_unique (c c' : Ctx) (t t' : Str) (rest rest' : List Str) (op : Byte) (x y : Bytes) (rels rels' : List Reloc)
    (h : Emits mos6502 c t rest (op :: x) rels) (h' : Emits mos6502 c' t' rest' (op :: y) rels') :
    upper t = upper t' ∧ x.length = y.length := by
  obtain ⟨o, p, m, mode, hb, hd, hu, hl, _⟩ := C49_decodes _ _ _ _ _ h
  obtain ⟨o', p', m', mode', hb', hd', hu', hl', _⟩ := C49_decodes _ _ _ _ _ h'
  cases hb; cases hb'
  rw [hd] at hd'
  cases hd'
  exact ⟨hu.trans hu'.symm, hl.trans hl'.symm⟩

/-- C49: and each instruction has one opcode per addressing mode. -/
theorem C49_one_opcode (op op' : Nat) (ho : op < 256) (ho' : op' < 256) (m : String) (mode : AddrMode)
    (h : decode6502 op = some (m, mode)) (h' : decode6502 op' = some (m, mode)) : op = op' := by
  have h1 := table_complete ho h
  have h2 := table_complete ho' h'
  have hf : (dkeys m6502Fixed).Nodup := by decide +kernel
  have hb : (dkeys m6502Branches).Nodup := by decide +kernel
  rcases h1 with ⟨rfl, h1⟩ | ⟨rfl, h1⟩ | ⟨ms, k, hm, hk, h1⟩
  · rcases h2 with ⟨-, h2⟩ | ⟨h2, -⟩ | ⟨_, _, -, h2, -⟩
    · have a := dget_of_mem hf h1
      rw [dget_of_mem hf h2] at a; exact (Option.some.inj a).symm
    · cases h2
    · cases h2
  · rcases h2 with ⟨h2, -⟩ | ⟨-, h2⟩ | ⟨_, _, -, h2, -⟩
    · cases h2
    · have a := dget_of_mem hb h1
      rw [dget_of_mem hb h2] at a; exact (Option.some.inj a).symm
    · cases h2
  · rcases h2 with ⟨rfl, -⟩ | ⟨rfl, -⟩ | ⟨ms', k', hm', hk', h2⟩
    · cases hk
    · cases hk
    · have := modes_unique hm hm'; subst this
      rw [hk] at hk'; cases hk'
      rw [h1] at h2; exact Option.some.inj h2

/-! ## C50 -/

/-- C50: a number below 0x100 takes the one-byte form when the instruction has it. -/
theorem C50_zero_page (c : Ctx) (t : Str) (rest : List Str) (sh : Shape) (a : Str) (op : Nat) (m : String) (mode : AddrMode) (v : Int)
    (ho : op < 256) (hd : decode6502 op = some (m, mode)) (hn : sh.narrow = some mode) (ht : upper t = m.toList)
    (hop : Operand rest sh a) (ha : AddrToken a)
    (hv : parseInteger c.sy c.labels a 16 false = .ok (some v)) (hlt : v < 0x100) :
    Emits mos6502 c t rest [BitVec.ofNat 8 op, BitVec.ofInt 8 v] [] := by
  rcases table_complete ho hd with ⟨rfl, -⟩ | ⟨rfl, -⟩ | ⟨ms, k, hm, hk, hg⟩
  · cases sh <;> simp [Shape.narrow] at hn
  · cases sh <;> simp [Shape.narrow] at hn
  · rw [emits_modes hm ht, m6502Mode_operand ms t rest sh a c hop ha,
      m6502Address_number _ _ (fun o ho => (opFor_lt hm ho).1) a c v hv]
    have : opFor ms sh.narrow = some op := by rw [hn]; simp [opFor, hk, hg]
    rw [this, decide_eq_true hlt]; rfl

/-- `lda $10,x` -/
example : Emits mos6502 ⟨0, [], mos6502.sy, 0⟩ "lda".toList ["$10".toList, ['x']] [0xB5, 0x10] [] :=
  C50_zero_page _ _ _ .indexX _ 0xB5 "LDA" .zeroPageX 16 (by decide) (by decide +kernel) rfl (by decide) (.indexX (by decide))
    (by decide) (by decide +kernel) (by decide)

/-- C50: otherwise it takes the two-byte form, low byte first. -/
theorem C50_absolute (c : Ctx) (t : Str) (rest : List Str) (sh : Shape) (a : Str) (op : Nat) (m : String) (mode : AddrMode) (v : Int)
    (ho : op < 256) (hd : decode6502 op = some (m, mode)) (hw : sh.wide = some mode) (ht : upper t = m.toList)
    (hop : Operand rest sh a) (ha : AddrToken a)
    (hv : parseInteger c.sy c.labels a 16 false = .ok (some v))
    (hge : 0x100 ≤ v ∨ ∀ op' < 256, ∀ z, sh.narrow = some z → decode6502 op' ≠ some (m, z)) :
    Emits mos6502 c t rest [BitVec.ofNat 8 op, BitVec.ofInt 8 v, BitVec.ofInt 8 (v / 256)] [] := by
  rcases table_complete ho hd with ⟨rfl, -⟩ | ⟨rfl, -⟩ | ⟨ms, k, hm, hk, hg⟩
  · cases sh <;> simp [Shape.wide] at hw
  · cases sh <;> simp [Shape.wide] at hw
  · rw [emits_modes hm ht, m6502Mode_operand ms t rest sh a c hop ha,
      m6502Address_number _ _ (fun o ho => (opFor_lt hm ho).1) a c v hv]
    have : opFor ms sh.wide = some op := by rw [hw]; simp [opFor, hk, hg]
    rw [this]
    rcases hge with hge | hno
    · rw [decide_eq_false (by omega)]
      cases opFor ms sh.narrow <;> rfl
    · cases hz : opFor ms sh.narrow with
      | none => rfl
      | some z =>
        obtain ⟨h1, md, h2, h3⟩ := opFor_lt hm hz
        exact absurd h3 (hno z h1 md h2)

/-- `lda $10,y`: there is no zero page form, so the absolute one is used. -/
example : Emits mos6502 ⟨0, [], mos6502.sy, 0⟩ "lda".toList ["$10".toList, ['y']] [0xB9, 0x10, 0x00] [] :=
  C50_absolute _ _ _ .indexY _ 0xB9 "LDA" .absoluteY 16 (by decide) (by decide +kernel) rfl (by decide) (.indexY (by decide))
    (by decide) (by decide +kernel) (.inr (by
      intro op ho z hz
      cases hz
      exact (by decide +kernel : ∀ op < 256, decode6502 op ≠ some ("LDA", .zeroPageY)) op ho))

/-- `jmp ($1234)` -/
example : Emits mos6502 ⟨0, [], mos6502.sy, 0⟩ "JMP".toList [['('], "$1234".toList, [')']] [0x6C, 0x34, 0x12] [] :=
  C50_absolute _ _ _ .indirect _ 0x6C "JMP" .indirect 0x1234 (by decide) (by decide +kernel) rfl (by decide) .indirect
    (by decide) (by decide +kernel) (.inl (by decide))

/-- C50: with neither form available the instruction is rejected. -/
theorem C50_rejected (c : Ctx) (t : Str) (rest : List Str) (sh : Shape) (a : Str) (m : String) (v : Int) (ht : upper t = m.toList)
    (hop : Operand rest sh a) (ha : AddrToken a) (hv : parseInteger c.sy c.labels a 16 false = .ok (some v))
    (hbr : ∀ op < 256, decode6502 op ≠ some (m, .relative))
    (hw : ∀ op < 256, ∀ z, sh.wide = some z → decode6502 op ≠ some (m, z))
    (hn : 0x100 ≤ v ∨ ∀ op < 256, ∀ z, sh.narrow = some z → decode6502 op ≠ some (m, z)) (blob : Bytes) (rels : List Reloc) :
    ¬ Emits mos6502 c t rest blob rels := by
  intro h
  have hne : rest ≠ [] := by cases hop <;> simp
  cases h with
  | fixed _ hr => exact hne hr
  | handler hf he =>
    rcases lookup_inv hf with ⟨m', op, hm, hk, hi⟩ | ⟨m', op, hm, hk, hi⟩ | ⟨m', ms, hm, hk, hi⟩
    · cases hi
    · rw [m6502_key, ht] at hk
      rw [String.toList_inj] at hk
      subst hk
      obtain ⟨h1, h2⟩ := table_branches _ hm
      exact hbr op h1 h2
    · rw [m6502_key, ht] at hk
      rw [String.toList_inj] at hk
      subst hk
      cases hi
      rw [m6502Mode_operand ms t rest sh a c hop ha, m6502Address_number _ _ (fun o ho => (opFor_lt hm ho).1) a c v hv] at he
      have hwn : opFor ms sh.wide = none := by
        cases hz : opFor ms sh.wide with
        | none => rfl
        | some z => obtain ⟨h1, md, h2, h3⟩ := opFor_lt hm hz; exact absurd h3 (hw z h1 md h2)
      rw [hwn] at he
      rcases hn with hn | hn
      · rw [decide_eq_false (by omega)] at he
        cases hz : opFor ms sh.narrow with
        | none => rw [hz] at he; cases he
        | some z => rw [hz] at he; cases he
      · have hnn : opFor ms sh.narrow = none := by
          cases hz : opFor ms sh.narrow with
          | none => rfl
          | some z => obtain ⟨h1, md, h2, h3⟩ := opFor_lt hm hz; exact absurd h3 (hn z h1 md h2)
        rw [hnn] at he; cases he

/-- `stx $1234,y` -/
example (blob : Bytes) (rels : List Reloc) :
    ¬ Emits mos6502 ⟨0, [], mos6502.sy, 0⟩ "STX".toList ["$1234".toList, ['y']] blob rels :=
  C50_rejected _ _ _ .indexY "$1234".toList "STX" 0x1234 (by decide) (.indexY (by decide)) (by decide) (by decide +kernel)
    (by decide +kernel) (by
      intro op ho z hz
      cases hz
      exact (by decide +kernel : ∀ op < 256, decode6502 op ≠ some ("STX", .absoluteY)) op ho) (.inl (by decide)) blob rels

/-- C50: an address above 0xFFFF is rejected by every instruction that is not a branch. -/
theorem C50_too_big (c : Ctx) (t : Str) (rest : List Str) (sh : Shape) (a : Str) (x : Int) (dec : Bool)
    (hop : Operand rest sh a) (ha : AddrToken a) (hx : TokenValue c.sy c.labels a x dec) (hbig : 0xFFFF < x)
    (hbr : ∀ op < 256, ∀ m, upper t = m.toList → decode6502 op ≠ some (m, .relative)) (blob : Bytes) (rels : List Reloc) :
    ¬ Emits mos6502 c t rest blob rels := by
  intro h
  have hne : rest ≠ [] := by cases hop <;> simp
  cases h with
  | fixed _ hr => exact hne hr
  | handler hf he =>
    rcases lookup_inv hf with ⟨m', op, hm, hk, hi⟩ | ⟨m', op, hm, hk, hi⟩ | ⟨m', ms, hm, hk, hi⟩
    · cases hi
    · obtain ⟨h1, h2⟩ := table_branches _ hm
      exact hbr op h1 m' hk h2
    · cases hi
      rw [m6502Mode_operand ms t rest sh a c hop ha] at he
      have hno : ∀ v, parseInteger c.sy c.labels a 16 false ≠ .ok (some v) := by
        intro v hv
        obtain ⟨x', dec', hx', h⟩ := (C13_parse_iff c.sy c.labels a 16 false v (by decide)).1 hv
        have hxx : x = x' := by
          obtain ⟨l1, h1, h2⟩ := hx
          obtain ⟨l2, h3, h4⟩ := hx'
          rw [h1] at h3; cases h3
          rw [h2] at h4; exact Except.ok.inj h4
        omega
      have := C13_reject c.sy c.labels a 16 false x dec (by decide) hx hno
      unfold m6502Address at he
      rw [H.bind_error (m := H.parseInteger a 16 false) (by rw [H.parseInteger_apply, this])] at he
      cases he

/-- `lda $12345` -/
example (blob : Bytes) (rels : List Reloc) : ¬ Emits mos6502 ⟨0, [], mos6502.sy, 0⟩ "LDA".toList ["$12345".toList] blob rels := by
  refine C50_too_big _ _ _ .direct _ 0x12345 false (.direct (by decide)) (by decide) ⟨0x12345, by decide +kernel, by decide +kernel⟩
    (by decide) ?_ blob rels
  intro op ho m hm
  have : m = "LDA" := String.toList_inj.1 (hm.symm.trans (by decide))
  subst this
  exact (by decide +kernel : ∀ op < 256, decode6502 op ≠ some ("LDA", .relative)) op ho

/-- C50: a label already known to be in the zero page is used like a number. -/
theorem C50_label_zero_page (c : Ctx) (t : Str) (rest : List Str) (sh : Shape) (a : Str) (op : Nat) (m : String) (mode : AddrMode)
    (v : Int) (ho : op < 256) (hd : decode6502 op = some (m, mode)) (hn : sh.narrow = some mode) (ht : upper t = m.toList)
    (hop : Operand rest sh a) (ha : AddrToken a) (hv : parseInteger c.sy c.labels a 16 false = .ok none)
    (hl : labelAddress c.sy c.labels a = .ok (some v)) (hlt : 0 ≤ v ∧ v < 0x100) :
    Emits mos6502 c t rest [BitVec.ofNat 8 op, BitVec.ofInt 8 v] [] := by
  rcases table_complete ho hd with ⟨rfl, -⟩ | ⟨rfl, -⟩ | ⟨ms, k, hm, hk, hg⟩
  · cases sh <;> simp [Shape.narrow] at hn
  · cases sh <;> simp [Shape.narrow] at hn
  · rw [emits_modes hm ht, m6502Mode_operand ms t rest sh a c hop ha,
      m6502Address_label _ _ (fun o ho => (opFor_lt hm ho).1) a c _ hv hl]
    have : opFor ms sh.narrow = some op := by rw [hn]; simp [opFor, hk, hg]
    rw [this, Option.filter_some, if_pos (decide_eq_true hlt)]
    rfl

example : Emits mos6502 ⟨0, [("ptr".toList, ⟨0x20, 0, none⟩)], mos6502.sy, 0⟩ "LDA".toList [['('], "ptr".toList, [')'], ['Y']]
    [0xB1, 0x20] [] :=
  C50_label_zero_page _ _ _ .postY _ 0xB1 "LDA" .indirectY 0x20 (by decide) (by decide +kernel) rfl (by decide) (.postY (by decide))
    (by decide) (by decide +kernel) (by decide +kernel) (by decide)

/-- C50: any other label takes the two-byte form and leaves a reference for the linker. -/
theorem C50_label_absolute (c : Ctx) (t : Str) (rest : List Str) (sh : Shape) (a : Str) (op : Nat) (m : String) (mode : AddrMode)
    (addr : Option Int) (ho : op < 256) (hd : decode6502 op = some (m, mode)) (hw : sh.wide = some mode) (ht : upper t = m.toList)
    (hop : Operand rest sh a) (ha : AddrToken a) (hv : parseInteger c.sy c.labels a 16 false = .ok none)
    (hl : labelAddress c.sy c.labels a = .ok addr)
    (hge : (∀ v, addr = some v → v < 0 ∨ 0x100 ≤ v) ∨ ∀ op' < 256, ∀ z, sh.narrow = some z → decode6502 op' ≠ some (m, z)) :
    Emits mos6502 c t rest [BitVec.ofNat 8 op, 0, 0] [{ label := a, size := 2, bitsSize := 16, offset := 1 }] := by
  rcases table_complete ho hd with ⟨rfl, -⟩ | ⟨rfl, -⟩ | ⟨ms, k, hm, hk, hg⟩
  · cases sh <;> simp [Shape.wide] at hw
  · cases sh <;> simp [Shape.wide] at hw
  · rw [emits_modes hm ht, m6502Mode_operand ms t rest sh a c hop ha,
      m6502Address_label _ _ (fun o ho => (opFor_lt hm ho).1) a c _ hv hl]
    have : opFor ms sh.wide = some op := by rw [hw]; simp [opFor, hk, hg]
    rw [this]
    rcases hge with hge | hno
    · have : addr.filter (fun v => decide (0 ≤ v ∧ v < 256)) = none := by
        cases addr with
        | none => rfl
        | some v =>
          have := hge v rfl
          rw [Option.filter_some, if_neg (by simp; omega)]
      rw [this]
      cases opFor ms sh.narrow <;> rfl
    · cases hz : opFor ms sh.narrow with
      | none => rfl
      | some z =>
        obtain ⟨h1, md, h2, h3⟩ := opFor_lt hm hz
        exact absurd h3 (hno z h1 md h2)

example : Emits mos6502 ⟨0, [], mos6502.sy, 0⟩ "JSR".toList ["print".toList] [0x20, 0, 0]
    [{ label := "print".toList, size := 2, bitsSize := 16, offset := 1 }] :=
  C50_label_absolute _ _ _ .direct _ 0x20 "JSR" .absolute none (by decide) (by decide +kernel) rfl (by decide) (.direct (by decide))
    (by decide) (by decide +kernel) (by decide +kernel) (.inl (by simp))

/-- C50: immediate operands are one byte. -/
theorem C50_immediate (c : Ctx) (t v : Str) (op : Nat) (m : String) (x : Int)
    (ho : op < 256) (hd : decode6502 op = some (m, .immediate)) (ht : upper t = m.toList) (hne : v ≠ [])
    (hv : parseInteger c.sy c.labels v 8 false = .ok (some x)) :
    Emits mos6502 c t ['#' :: v] [BitVec.ofNat 8 op, BitVec.ofInt 8 x] [] := by
  rcases table_complete ho hd with ⟨h, -⟩ | ⟨h, -⟩ | ⟨ms, k, hm, hk, hg⟩
  · cases h
  · cases h
  · cases hk
    rw [emits_modes hm ht]
    unfold m6502Mode
    simp only [instrMatch_cons]
    have hA : ¬ Reg ('#' :: v) 'A' := by
      rintro (h | h)
      · exact absurd (List.head_eq_of_cons_eq h) (by decide)
      · exact absurd (List.head_eq_of_cons_eq h) (by decide)
    have hi : isImmediate ('#' :: v) = true := (isImmediate_iff _).2 ⟨v, hne, rfl⟩
    simp only [matchAll, matches_A, matches_pred, decide_eq_false hA, hi, Bool.and_true, Bool.false_eq_true, if_false, if_true]
    rw [needMode_bind, hg]
    simp only
    have hcall : H.parseIntegerOrLabel { label := v, bitsSize := 8, offset := 1, size := 1 } false c = (.ok x, []) := by
      unfold H.parseIntegerOrLabel
      simp only [bne_self_eq_false, Bool.or_self, hv]
    exact (H.bind_run hcall).trans (hPackByte_apply _ _)

example : Emits mos6502 ⟨0, [], mos6502.sy, 0⟩ "ldx".toList ["#$FF".toList] [0xA2, 0xFF] [] :=
  C50_immediate _ _ "$FF".toList 0xA2 "LDX" 255 (by decide) (by decide +kernel) (by decide) (by decide) (by decide +kernel)

/-- C50: instructions without operand. -/
theorem C50_implied (c : Ctx) (t : Str) (op : Nat) (m : String) (ho : op < 256) (hd : decode6502 op = some (m, .implied))
    (ht : upper t = m.toList) : Emits mos6502 c t [] [BitVec.ofNat 8 op] [] := by
  rcases table_complete ho hd with ⟨-, h⟩ | ⟨h, -⟩ | ⟨ms, k, hm, hk, hg⟩
  · exact .fixed (by rw [m6502_key, ht]; exact lookup_fixed h) rfl
  · cases h
  · cases hk

/-- C50: instructions on the accumulator. -/
theorem C50_accumulator (c : Ctx) (t a : Str) (op : Nat) (m : String) (ho : op < 256) (hd : decode6502 op = some (m, .accumulator))
    (ht : upper t = m.toList) (ha : Reg a 'A') : Emits mos6502 c t [a] [BitVec.ofNat 8 op] [] := by
  rcases table_complete ho hd with ⟨h, -⟩ | ⟨h, -⟩ | ⟨ms, k, hm, hk, hg⟩
  · cases h
  · cases h
  · cases hk
    rw [emits_modes hm ht]
    unfold m6502Mode
    simp only [instrMatch_cons, matchAll, matches_A, decide_eq_true ha, Bool.and_true, if_true]
    rw [needMode_bind, hg]
    exact hPackByte_apply _ _

/-- C49: every documented opcode can be produced. -/
theorem C49_complete (ls : Labels) (pc : Int) (op : Nat) (ho : op < 256) (m : String) (mode : AddrMode)
    (hd : decode6502 op = some (m, mode)) :
    ∃ rest operand, Emits mos6502 ⟨pc, ls, mos6502.sy, 0⟩ m.toList rest (BitVec.ofNat 8 op :: operand) [] := by
  have hup : ∀ op < 256, ∀ m mode, decode6502 op = some (m, mode) → upper m.toList = m.toList := by
    intro op ho m mode hd
    have : ∀ op < 256, ((decode6502 op).all fun p => upper p.1.toList == p.1.toList) = true := by decide +kernel
    have := this op ho
    rw [hd] at this
    simpa using this
  have ht := hup op ho m mode hd
  have h5 : ∀ n, n = 8 ∨ n = 16 → ∀ g, parseInteger mos6502.sy ls ['5'] n g = .ok (some 5) := by
    intro n hn g
    rw [C13_parse_iff _ _ _ _ _ _ (by omega)]
    refine ⟨5, true, ⟨5, rfl, rfl⟩, ?_⟩
    rcases hn with rfl | rfl
    all_goals
      cases g
      · exact .inr (.inl ⟨rfl, rfl, by decide, by decide, rfl⟩)
      · exact .inr (.inr (.inr ⟨rfl, rfl, by decide, by decide, rfl⟩))
  have h1000 : parseInteger mos6502.sy ls "1000".toList 16 false = .ok (some 1000) := by
    rw [C13_parse_iff _ _ _ _ _ _ (by omega)]
    exact ⟨1000, true, ⟨1000, rfl, rfl⟩, .inr (.inl ⟨rfl, rfl, by decide, by decide, rfl⟩)⟩
  have narrow : ∀ sh rest, sh.narrow = some mode → Operand rest sh ['5'] → _ := fun sh rest hn hop =>
    (⟨rest, _, C50_zero_page ⟨pc, ls, mos6502.sy, 0⟩ m.toList rest sh ['5'] op m mode 5 ho hd hn ht hop (by decide)
      (h5 16 (.inr rfl) false) (by decide)⟩ :
      ∃ rest operand, Emits mos6502 ⟨pc, ls, mos6502.sy, 0⟩ m.toList rest (BitVec.ofNat 8 op :: operand) [])
  have wide : ∀ sh rest, sh.wide = some mode → Operand rest sh "1000".toList → _ := fun sh rest hn hop =>
    (⟨rest, _, C50_absolute ⟨pc, ls, mos6502.sy, 0⟩ m.toList rest sh "1000".toList op m mode 1000 ho hd hn ht hop (by decide)
      h1000 (.inl (by decide))⟩ :
      ∃ rest operand, Emits mos6502 ⟨pc, ls, mos6502.sy, 0⟩ m.toList rest (BitVec.ofNat 8 op :: operand) [])
  cases mode with
  | implied => exact ⟨[], [], C50_implied _ _ op m ho hd ht⟩
  | accumulator => exact ⟨[['A']], [], C50_accumulator _ _ _ op m ho hd ht (.inl rfl)⟩
  | immediate => exact ⟨_, _, C50_immediate _ _ ['5'] op m 5 ho hd ht (by simp) (h5 8 (.inl rfl) false)⟩
  | zeroPage => exact narrow .direct _ rfl (.direct (by decide))
  | zeroPageX => exact narrow .indexX _ rfl (.indexX (.inl rfl))
  | zeroPageY => exact narrow .indexY _ rfl (.indexY (.inl rfl))
  | indirectX => exact narrow .preX _ rfl (.preX (.inl rfl))
  | indirectY => exact narrow .postY _ rfl (.postY (.inl rfl))
  | absolute => exact wide .direct _ rfl (.direct (by decide))
  | absoluteX => exact wide .indexX _ rfl (.indexX (.inl rfl))
  | absoluteY => exact wide .indexY _ rfl (.indexY (.inl rfl))
  | indirect => exact wide .indirect _ rfl .indirect
  | relative =>
    rcases table_complete ho hd with ⟨h, -⟩ | ⟨-, h⟩ | ⟨ms, k, hm, hk, hg⟩
    · cases h
    · refine ⟨[['5']], [5], ?_⟩
      rw [emits_branch h ht, branch_apply ho, h5 8 (.inl rfl)]
      rfl
    · cases hk

/-! ## C51 -/

/-- The reference a branch leaves. -/
def branchRef (label : Str) (pc : Int) : Reloc := { label := label, bitsSize := 8, size := 1, offset := 1, relative := pc + 2 }

/-- C51: a branch to a label is assembled to its opcode and a zero, with a reference relative to
the following instruction. -/
theorem C51_emits (c : Ctx) (t label : Str) (rest : List Str) (op : Nat) (m : String) (ho : op < 256)
    (hd : decode6502 op = some (m, .relative)) (ht : upper t = m.toList) (hpc : 0 ≤ c.pc)
    (hl : parseInteger c.sy c.labels label 8 true = .ok none) :
    Emits mos6502 c t (label :: rest) [BitVec.ofNat 8 op, 0] [branchRef label c.pc] := by
  rcases table_complete ho hd with ⟨h, -⟩ | ⟨-, h⟩ | ⟨ms, k, hm, hk, hg⟩
  · cases h
  · rw [emits_branch h ht, branch_apply ho]
    have : (c.pc + 2 != 0) = true := by simp; omega
    rw [this, hl]
    rfl
  · cases hk

/-- C51: a numeric displacement is stored as it is. -/
theorem C51_number (c : Ctx) (t a : Str) (rest : List Str) (op : Nat) (m : String) (ho : op < 256) (v : Int)
    (hd : decode6502 op = some (m, .relative)) (ht : upper t = m.toList) (hpc : 0 ≤ c.pc)
    (hl : parseInteger c.sy c.labels a 8 true = .ok (some v)) (hv : v < 128) :
    Emits mos6502 c t (a :: rest) [BitVec.ofNat 8 op, BitVec.ofInt 8 v] [] := by
  rcases table_complete ho hd with ⟨h, -⟩ | ⟨-, h⟩ | ⟨ms, k, hm, hk, hg⟩
  · cases h
  · rw [emits_branch h ht, branch_apply ho]
    have h0 : (c.pc + 2 != 0) = true := by simp; omega
    have := (C13_signed _ _ _ _ _ (by decide) hl).1
    rw [h0, hl]
    simp only
    rw [if_pos ⟨by simpa using this, hv⟩]
  · cases hk

theorem bitVec_toSigned (b : BitVec 8) : toSigned 8 (ofBytes false [b]) = b.toInt := by
  have : ofBytes false [b] = b.toNat := by simp [ofBytes, ofLE]
  rw [this]
  unfold toSigned
  rw [BitVec.toInt_eq_toNat_cond]
  rfl

/-- C51: in the linked program, the byte after the branch opcode, read as two's complement and
added to the address of the following instruction, is the label's address.

`s` is the state before the branch, `s1` after it, `s2` at the end of the program (anything may
have been assembled in between, `Necro.C54_statements`), `s3` after linking. -/
theorem C51_reaches (s s1 s2 s3 : St) (depth : Nat) (tokens : List Str) (ln : Nat) (t label : Str) (rest : List Str)
    (op : Nat) (m : String) (ho : op < 256) (hd : decode6502 op = some (m, .relative)) (ht : upper t = m.toList)
    (hrec : s.recording = none) (hsub : substituteWithDict tokens s.defines 0 = t :: label :: rest)
    (hmac : s.macros.lookup (mos6502.key t) = none) (hpc : 0 ≤ s.pc)
    (hnum : parseInteger mos6502.sy s.labels label 8 true = .ok none)
    (hplain : ∀ ch ∈ label, formulaChar ch = false)
    (hrun : execInstr mos6502 (depth + 1) none ⟨.instr, tokens, ln⟩ s = (.ok (), s1)) (hlater : Kept s.bytes.length s1 s2)
    (hlink : link mos6502 .dummy s2 = (.ok (), s3)) (hord : ∀ e ∈ s2.relocs, Ordinary e.2)
    (hnd : (s2.relocs.map Prod.fst).Nodup)
    (hap : ∀ f ∈ s2.relocs, f.1 ≠ s.bytes.length + 1 → Apart (s.bytes.length + 1, branchRef label s.pc) f) :
    ∃ l disp, s2.labels.lookup label = some l ∧ s3.bytes[s.bytes.length + 1]? = some disp ∧
      s.pc + 2 + disp.toInt = l.org + l.base := by
  have hem : Emits mos6502 (ctxOf mos6502 s) t (label :: rest) [BitVec.ofNat 8 op, 0] [branchRef label s.pc] :=
    C51_emits (ctxOf mos6502 s) t label rest op m ho hd ht hpc hnum
  obtain ⟨hb, he, -⟩ := C54_instruction mos6502 depth tokens ln s s1 hrec t _ hsub hmac _ _ hem hrun
  have hR := recorded_of hb he (by simp [branchRef]) (by simp [branchRef]) hlater
  have hne : label ≠ [] := by
    rintro rfl
    exact parse_none_ne_nil hnum rfl
  obtain ⟨l, disp, h1, h2, h3, -⟩ := relative_reaches rfl hlink hord hnd hR hap (by simp [branchRef]; omega) rfl rfl (by simp [branchRef])
    (by rfl) hne hplain
  have hlen : s3.bytes.length = s2.bytes.length := by
    have := (C36_windows mos6502 .dummy rfl s2 (fun e he => (hord e he).hook)).1
    rw [hlink] at this; exact this
  have hlt : s.bytes.length + 1 < s3.bytes.length := by
    have := hlater.length
    rw [hlen]; rw [hb] at this; simp at this; omega
  refine ⟨l, s3.bytes[s.bytes.length + 1], h1, List.getElem?_eq_getElem hlt, ?_⟩
  have hw : window s3.bytes (s.bytes.length + 1) 1 = [s3.bytes[s.bytes.length + 1]] := by
    unfold window
    rw [List.drop_eq_getElem_cons hlt]; rfl
  have h2' : disp = toSigned 8 (ofBytes false (window s3.bytes (s.bytes.length + 1) 1)) := h2
  rw [hw, bitVec_toSigned] at h2'
  rw [← h2']
  exact h3

/-- C51: so a program whose branch is too far away does not link. -/
theorem C51_rejected (s s1 s2 : St) (depth : Nat) (tokens : List Str) (ln : Nat) (t label : Str) (rest : List Str)
    (op : Nat) (m : String) (l : LabelInfo) (ho : op < 256) (hd : decode6502 op = some (m, .relative)) (ht : upper t = m.toList)
    (hrec : s.recording = none) (hsub : substituteWithDict tokens s.defines 0 = t :: label :: rest)
    (hmac : s.macros.lookup (mos6502.key t) = none) (hpc : 0 ≤ s.pc)
    (hnum : parseInteger mos6502.sy s.labels label 8 true = .ok none)
    (hplain : ∀ ch ∈ label, formulaChar ch = false)
    (hrun : execInstr mos6502 (depth + 1) none ⟨.instr, tokens, ln⟩ s = (.ok (), s1)) (hlater : Kept s.bytes.length s1 s2)
    (hord : ∀ e ∈ s2.relocs, Ordinary e.2)
    (hl : s2.labels.lookup label = some l)
    (hfar : l.org + l.base - (s.pc + 2) < -128 ∨ 127 < l.org + l.base - (s.pc + 2)) :
    (link mos6502 .dummy s2).1 ≠ .ok () := by
  have hem : Emits mos6502 (ctxOf mos6502 s) t (label :: rest) [BitVec.ofNat 8 op, 0] [branchRef label s.pc] :=
    C51_emits (ctxOf mos6502 s) t label rest op m ho hd ht hpc hnum
  obtain ⟨hb, he, -⟩ := C54_instruction mos6502 depth tokens ln s s1 hrec t _ hsub hmac _ _ hem hrun
  have hR := recorded_of hb he (by simp [branchRef]) (by simp [branchRef]) hlater
  have hne : label ≠ [] := by
    rintro rfl
    exact parse_none_ne_nil hnum rfl
  intro hok
  rw [C38_success mos6502 rfl s2 hord] at hok
  have hmem := mem_of_dget ((dget_eq_lookup_nat _ _).trans hR.entry)
  refine hok _ hmem .notInBitRange (.tooWide (v := l.org + l.base - (s.pc + 2)) ?_ ?_)
  · have := plain_value mos6502.sy s2.labels label hne hplain (s.pc + 2)
    rw [hl] at this
    exact this
  · unfold RefRange
    rw [if_pos (show (branchRef label s.pc).relative ≠ 0 by simp [branchRef]; omega)]
    simp only [branchRef]
    omega

/-- C51: and one whose branch is near enough links, if nothing is wrong with its other references. -/
theorem C51_accepted (s s1 s2 : St) (depth : Nat) (tokens : List Str) (ln : Nat) (t label : Str) (rest : List Str)
    (op : Nat) (m : String) (l : LabelInfo) (ho : op < 256) (hd : decode6502 op = some (m, .relative)) (ht : upper t = m.toList)
    (hrec : s.recording = none) (hsub : substituteWithDict tokens s.defines 0 = t :: label :: rest)
    (hmac : s.macros.lookup (mos6502.key t) = none) (hpc : 0 ≤ s.pc)
    (hnum : parseInteger mos6502.sy s.labels label 8 true = .ok none)
    (hplain : ∀ ch ∈ label, formulaChar ch = false)
    (hrun : execInstr mos6502 (depth + 1) none ⟨.instr, tokens, ln⟩ s = (.ok (), s1)) (hlater : Kept s.bytes.length s1 s2)
    (hord : ∀ e ∈ s2.relocs, Ordinary e.2)
    (hl : s2.labels.lookup label = some l)
    (hnear : -128 ≤ l.org + l.base - (s.pc + 2) ∧ l.org + l.base - (s.pc + 2) ≤ 127)
    (hothers : ∀ e ∈ s2.relocs, e ≠ (s.bytes.length + 1, branchRef label s.pc) →
      ∀ x, ¬ Fault (labelRelative mos6502.sy s2.labels) s2.bytes.length e x) :
    (link mos6502 .dummy s2).1 = .ok () := by
  have hem : Emits mos6502 (ctxOf mos6502 s) t (label :: rest) [BitVec.ofNat 8 op, 0] [branchRef label s.pc] :=
    C51_emits (ctxOf mos6502 s) t label rest op m ho hd ht hpc hnum
  obtain ⟨hb, he, -⟩ := C54_instruction mos6502 depth tokens ln s s1 hrec t _ hsub hmac _ _ hem hrun
  have hR := recorded_of hb he (by simp [branchRef]) (by simp [branchRef]) hlater
  have hne : label ≠ [] := by
    rintro rfl
    exact parse_none_ne_nil hnum rfl
  refine relative_accepted rfl hord hR (by simp [branchRef]; omega) rfl (by simp [branchRef, Int.emod_one]) hne hplain hl ?_ hothers
  simp only [branchRef]
  omega

/-! A loop of two instructions: `loop: NOP` and then `BNE loop`. -/

def exLoop : St := { bytes := [0xEA], labels := [("loop".toList, ⟨0, 0, none⟩)], counter := 1 }
def exLoop1 : St := emitted exLoop [0xD0, 0] [branchRef "loop".toList 1]

theorem exLoop_run : execInstr mos6502 5 none ⟨.instr, ["bne".toList, "loop".toList], 2⟩ exLoop = (.ok (), exLoop1) :=
  (execInstr_emits mos6502 4 _ _ exLoop exLoop1 rfl "bne".toList ["loop".toList] (by decide) rfl).2
    ⟨_, _, C51_emits _ _ _ _ 0xD0 "BNE" (by decide) (by decide +kernel) (by decide) (by decide) (by decide +kernel), rfl⟩

example : ∃ l disp, exLoop1.labels.lookup "loop".toList = some l ∧ (link mos6502 .dummy exLoop1).2.bytes[2]? = some disp ∧
      1 + 2 + disp.toInt = l.org + l.base :=
  C51_reaches exLoop exLoop1 exLoop1 _ 4 _ 2 "bne".toList "loop".toList [] 0xD0 "BNE" (by decide) (by decide +kernel) (by decide) rfl
    (by decide) rfl (by decide) (by decide +kernel) (by decide) exLoop_run (Later.kept (.same rfl rfl rfl) _)
    (pair_ok (by decide +kernel)) (by
      intro e he
      simp only [exLoop1, exLoop, emitted, List.foldl, addReloc, dset, List.mem_cons, List.not_mem_nil, or_false] at he
      subst he
      exact ⟨by decide, by decide, rfl⟩)
    (by simp [exLoop1, exLoop, emitted, List.foldl, addReloc, dset])
    (by
      intro e he hne
      simp only [exLoop1, exLoop, emitted, List.foldl, addReloc, dset, List.mem_cons, List.not_mem_nil, or_false] at he
      subst he
      exact absurd rfl hne)

/-- Tokens after the target of a branch are ignored. -/
theorem C49_extra_tokens : Emits mos6502 ⟨0, [], mos6502.sy, 0⟩ "BNE".toList [['5'], "junk".toList] [0xD0, 5] [] :=
  C51_number _ _ _ _ 0xD0 "BNE" (by decide) 5 (by decide +kernel) (by decide) (by decide) (by decide +kernel) (by decide)

/-- A hexadecimal displacement above 0x7F is not accepted as a negative one, unlike in
`-2`: the branch is rejected. -/
theorem C51_hex_displacement (blob : Bytes) (rels : List Reloc) :
    ¬ Emits mos6502 ⟨0, [], mos6502.sy, 0⟩ "BNE".toList ["$FE".toList] blob rels := by
  rw [emits_branch (m := "BNE") (op := 0xD0) (by decide +kernel) (by decide), branch_apply (by decide)]
  have : parseInteger mos6502.sy [] "$FE".toList 8 true = .ok (some 0xFE) := by decide +kernel
  intro h
  have h' : (match parseInteger mos6502.sy [] "$FE".toList 8 true with
      | .error e => ((.error e, []) : Except Err (Option Bytes) × List Reloc)
      | .ok none => (.ok (some [BitVec.ofNat 8 0xD0, 0]), [{ label := "$FE".toList, bitsSize := 8, size := 1, offset := 1, relative := 2 }])
      | .ok (some v) =>
        (if -128 ≤ v ∧ v < 128 then .ok (some [BitVec.ofNat 8 0xD0, BitVec.ofInt 8 v]) else .error .structError, [])) = (.ok (some blob), rels) := h
  rw [this] at h'
  cases h'

end Necro
