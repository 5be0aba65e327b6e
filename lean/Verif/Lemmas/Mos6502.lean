import Verif.Spec.Mos6502
import Verif.Model.Cpu.Mos6502
import Verif.Lemmas.Handler
import Verif.Props.Numbers
/-!
# The 6502 instruction tables and operand patterns
-/

namespace Necro
open Spec

/-! ## patterns -/

theorem matchAll_length {ts : List Str} {ps : List Pat} (h : matchAll ts ps = true) : ts.length = ps.length := by
  induction ts generalizing ps with
  | nil => cases ps with
    | nil => rfl
    | cons _ _ => simp [matchAll] at h
  | cons t ts ih => cases ps with
    | nil => simp [matchAll] at h
    | cons p ps => simp only [matchAll, Bool.and_eq_true] at h; simp [ih h.2]

theorem matchAll0 {rest : List Str} (h : matchAll rest [] = true) :
    rest = [] := by
  have hl := matchAll_length h
  match rest, hl with
  | [], _ =>
    simp only [matchAll, Bool.and_true, Bool.and_eq_true] at h
    rfl

theorem matchAll1 {rest : List Str} {p1 : Pat} (h : matchAll rest [p1] = true) :
    ∃ a, rest = [a] ∧ p1.matches a = true := by
  have hl := matchAll_length h
  match rest, hl with
  | [a], _ =>
    simp only [matchAll, Bool.and_true, Bool.and_eq_true] at h
    exact ⟨a, rfl, h⟩

theorem matchAll2 {rest : List Str} {p1 p2 : Pat} (h : matchAll rest [p1, p2] = true) :
    ∃ a b, rest = [a, b] ∧ p1.matches a = true ∧ p2.matches b = true := by
  have hl := matchAll_length h
  match rest, hl with
  | [a, b], _ =>
    simp only [matchAll, Bool.and_true, Bool.and_eq_true] at h
    exact ⟨a, b, rfl, h⟩

theorem matchAll3 {rest : List Str} {p1 p2 p3 : Pat} (h : matchAll rest [p1, p2, p3] = true) :
    ∃ a b c, rest = [a, b, c] ∧ p1.matches a = true ∧ p2.matches b = true ∧ p3.matches c = true := by
  have hl := matchAll_length h
  match rest, hl with
  | [a, b, c], _ =>
    simp only [matchAll, Bool.and_true, Bool.and_eq_true] at h
    exact ⟨a, b, c, rfl, h⟩

theorem matchAll4 {rest : List Str} {p1 p2 p3 p4 : Pat} (h : matchAll rest [p1, p2, p3, p4] = true) :
    ∃ a b c d, rest = [a, b, c, d] ∧ p1.matches a = true ∧ p2.matches b = true ∧ p3.matches c = true ∧ p4.matches d = true := by
  have hl := matchAll_length h
  match rest, hl with
  | [a, b, c, d], _ =>
    simp only [matchAll, Bool.and_true, Bool.and_eq_true] at h
    exact ⟨a, b, c, d, rfl, h⟩

theorem matchAll5 {rest : List Str} {p1 p2 p3 p4 p5 : Pat} (h : matchAll rest [p1, p2, p3, p4, p5] = true) :
    ∃ a b c d e, rest = [a, b, c, d, e] ∧ p1.matches a = true ∧ p2.matches b = true ∧ p3.matches c = true ∧ p4.matches d = true ∧ p5.matches e = true := by
  have hl := matchAll_length h
  match rest, hl with
  | [a, b, c, d, e], _ =>
    simp only [matchAll, Bool.and_true, Bool.and_eq_true] at h
    exact ⟨a, b, c, d, e, rfl, h⟩

theorem instrMatch_cons (t : Str) (rest : List Str) (ps : List Pat) : instrMatch (t :: rest) ps = matchAll rest ps := by
  unfold instrMatch
  split
  · rfl
  · next h =>
    cases hm : matchAll rest ps with
    | false => rfl
    | true => exact absurd (by simp [matchAll_length hm]) h

theorem matches_str (a : Str) (r : Char) (hr : r.isLower = false) (hru : r.toUpper = r)
    (hrl : r.toLower.toUpper = r) : (Pat.str [r]).matches a = decide (Reg a r) := by
  rw [Bool.eq_iff_iff]
  simp only [Pat.matches, List.any_cons, List.any_nil, Bool.or_false, Bool.or_self, decide_eq_true_eq]
  constructor
  · intro h
    refine upper_single hr ?_
    rw [h]; simp [upper, hru]
  · rintro (rfl | rfl)
    · rfl
    · simp [upper, hru, hrl]

theorem matches_A (a : Str) : (Pat.str ['A']).matches a = decide (Reg a 'A') := matches_str a 'A' (by decide) (by decide) (by decide)
theorem matches_X (a : Str) : (Pat.str ['X']).matches a = decide (Reg a 'X') := matches_str a 'X' (by decide) (by decide) (by decide)
theorem matches_Y (a : Str) : (Pat.str ['Y']).matches a = decide (Reg a 'Y') := matches_str a 'Y' (by decide) (by decide) (by decide)
theorem matches_L (a : Str) : (Pat.str ['(']).matches a = decide (Reg a '(') := matches_str a '(' (by decide) (by decide) (by decide)
theorem matches_R (a : Str) : (Pat.str [')']).matches a = decide (Reg a ')') := matches_str a ')' (by decide) (by decide) (by decide)
theorem matches_pred (p : Str → Bool) (a : Str) : (Pat.pred p).matches a = p a := rfl

theorem reg_L {a : Str} : Reg a '(' ↔ a = ['('] := by
  unfold Reg; rw [show '('.toLower = '(' from rfl]; simp
theorem reg_R {a : Str} : Reg a ')' ↔ a = [')'] := by
  unfold Reg; rw [show ')'.toLower = ')' from rfl]; simp

theorem isAddress_iff (a : Str) : isAddress a = true ↔ AddrToken a := by
  cases a with
  | nil => simp [isAddress, AddrToken]
  | cons c a =>
    simp only [isAddress, AddrToken, startsWith, List.isPrefixOf, List.isEmpty_cons, Bool.and_true, Bool.not_false, Bool.true_and,
      ne_eq, reduceCtorEq, not_false_eq_true, true_and, List.head?_cons, Option.some.injEq, Bool.not_eq_true', beq_eq_false_iff_ne]
    exact ⟨fun h => Ne.symm h, fun h => Ne.symm h⟩

theorem isImmediate_iff (a : Str) : isImmediate a = true ↔ ∃ v, v ≠ [] ∧ a = '#' :: v := by
  cases a with
  | nil => simp [isImmediate]
  | cons c a =>
    simp only [isImmediate, startsWith, List.isPrefixOf, Bool.and_true, Bool.and_eq_true, decide_eq_true_eq,
      beq_iff_eq, List.cons.injEq, List.length_cons]
    constructor
    · rintro ⟨h1, h2⟩
      exact ⟨a, by rintro rfl; simp at h1, h2.symm, rfl⟩
    · rintro ⟨v, hv, h1, h2⟩
      subst h2
      exact ⟨by have := List.length_pos_iff.2 hv; omega, h1.symm⟩

theorem not_isImmediate {a : Str} (h : AddrToken a) : isImmediate a = false := by
  cases hi : isImmediate a with
  | false => rfl
  | true => obtain ⟨v, _, rfl⟩ := (isImmediate_iff a).1 hi; exact absurd rfl h.2

/-! ## the tables -/

/-- The memory modes of the program, named as in the specification. -/
def modelMode : AddrMode → Option Mode
  | .accumulator => some .accumulator
  | .immediate => some .immediate
  | .zeroPage => some .zeroPage
  | .zeroPageX => some .zeroPageX
  | .zeroPageY => some .zeroPageY
  | .absolute => some .absolute
  | .absoluteX => some .absoluteX
  | .absoluteY => some .absoluteY
  | .indirect => some .indirect
  | .indirectX => some .indirectX
  | .indirectY => some .indirectY
  | .implied | .relative => none

def specMode : Mode → AddrMode
  | .accumulator => .accumulator
  | .immediate => .immediate
  | .zeroPage => .zeroPage
  | .zeroPageX => .zeroPageX
  | .zeroPageY => .zeroPageY
  | .absolute => .absolute
  | .absoluteX => .absoluteX
  | .absoluteY => .absoluteY
  | .indirect => .indirect
  | .indirectX => .indirectX
  | .indirectY => .indirectY

theorem modelMode_spec {a : AddrMode} {m : Mode} (h : modelMode a = some m) : specMode m = a := by
  cases a <;> simp [modelMode] at h <;> subst h <;> rfl

theorem table_fixed : ∀ p ∈ m6502Fixed, p.2 < 256 ∧ decode6502 p.2 = some (p.1, .implied) := by decide +kernel
theorem table_branches : ∀ p ∈ m6502Branches, p.2 < 256 ∧ decode6502 p.2 = some (p.1, .relative) := by decide +kernel
theorem table_modes : ∀ p ∈ m6502Modes, ∀ q ∈ p.2, q.2 < 256 ∧ decode6502 q.2 = some (p.1, specMode q.1) := by decide +kernel

/-- The program has this documented opcode. -/
def tableHas (op : Nat) : Bool :=
  match decode6502 op with
  | none => true
  | some (m, mode) =>
    match modelMode mode with
    | some k => m6502Modes.any fun p => p.1 == m && dget p.2 k == some op
    | none => if mode = .implied then m6502Fixed.contains (m, op) else m6502Branches.contains (m, op)

theorem table_has : ∀ op < 256, tableHas op = true := by decide +kernel

theorem table_complete {op : Nat} (h : op < 256) {m : String} {mode : AddrMode} (hd : decode6502 op = some (m, mode)) :
    (mode = .implied ∧ (m, op) ∈ m6502Fixed) ∨ (mode = .relative ∧ (m, op) ∈ m6502Branches) ∨
    ∃ ms k, (m, ms) ∈ m6502Modes ∧ modelMode mode = some k ∧ dget ms k = some op := by
  have ht := table_has op h
  unfold tableHas at ht
  rw [hd] at ht
  simp only at ht
  cases hk : modelMode mode with
  | some k =>
    rw [hk] at ht
    simp only [List.any_eq_true, Bool.and_eq_true, beq_iff_eq] at ht
    obtain ⟨p, hp, rfl, h2⟩ := ht
    exact .inr (.inr ⟨p.2, k, hp, rfl, h2⟩)
  | none =>
    rw [hk] at ht
    simp only at ht
    by_cases hm : mode = .implied
    · rw [if_pos hm] at ht; exact .inl ⟨hm, by simpa using ht⟩
    · rw [if_neg hm] at ht
      refine .inr (.inl ⟨?_, by simpa using ht⟩)
      cases mode <;> simp [modelMode] at hk hm ⊢

theorem m6502_keys : (m6502Fixed.map (·.1.toList) ++ m6502Branches.map (·.1.toList) ++ m6502Modes.map (·.1.toList)).Nodup := by
  decide +kernel

theorem m6502_keys' : (dkeys m6502Table).Nodup := by
  have : dkeys m6502Table = m6502Fixed.map (·.1.toList) ++ m6502Branches.map (·.1.toList) ++ m6502Modes.map (·.1.toList) := by
    simp [dkeys, m6502Table, Function.comp_def]
  rw [this]; exact m6502_keys

theorem lookup_fixed {m : String} {op : Nat} (h : (m, op) ∈ m6502Fixed) :
    dget m6502Table m.toList = some (.fixed [BitVec.ofNat 8 op]) := by
  refine dget_of_mem m6502_keys' ?_
  simp only [m6502Table, List.mem_append, List.mem_map]
  exact .inl (.inl ⟨_, h, rfl⟩)

theorem lookup_branch {m : String} {op : Nat} (h : (m, op) ∈ m6502Branches) :
    dget m6502Table m.toList = some (.handler (m6502Branch op)) := by
  refine dget_of_mem m6502_keys' ?_
  simp only [m6502Table, List.mem_append, List.mem_map]
  exact .inl (.inr ⟨_, h, rfl⟩)

theorem lookup_modes {m : String} {ms : List (Mode × Nat)} (h : (m, ms) ∈ m6502Modes) :
    dget m6502Table m.toList = some (.handler (m6502Mode ms)) := by
  refine dget_of_mem m6502_keys' ?_
  simp only [m6502Table, List.mem_append, List.mem_map]
  exact .inr ⟨_, h, rfl⟩

theorem lookup_inv {k : Str} {i : InstrDef} (h : dget m6502Table k = some i) :
    (∃ m op, (m, op) ∈ m6502Fixed ∧ k = m.toList ∧ i = .fixed [BitVec.ofNat 8 op]) ∨
    (∃ m op, (m, op) ∈ m6502Branches ∧ k = m.toList ∧ i = .handler (m6502Branch op)) ∨
    (∃ m ms, (m, ms) ∈ m6502Modes ∧ k = m.toList ∧ i = .handler (m6502Mode ms)) := by
  have := mem_of_dget h
  simp only [m6502Table, List.mem_append, List.mem_map] at this
  rcases this with (⟨p, hp, he⟩ | ⟨p, hp, he⟩) | ⟨p, hp, he⟩
  · cases he; exact .inl ⟨p.1, p.2, hp, rfl, rfl⟩
  · cases he; exact .inr (.inl ⟨p.1, p.2, hp, rfl, rfl⟩)
  · cases he; exact .inr (.inr ⟨p.1, p.2, hp, rfl, rfl⟩)

theorem m6502_key (t : Str) : mos6502.key t = upper t := rfl

/-- One entry per mnemonic. -/
theorem modes_unique {m : String} {ms ms' : List (Mode × Nat)} (h : (m, ms) ∈ m6502Modes) (h' : (m, ms') ∈ m6502Modes) : ms = ms' := by
  have hn : (dkeys m6502Modes).Nodup := by decide +kernel
  have a := dget_of_mem hn h
  have b := dget_of_mem hn h'
  rw [a] at b; exact Option.some.inj b

/-! ## handlers -/

theorem hPackByte_apply (l : List Int) (c : Ctx) : hPackByte l c = (.ok (some (l.map (BitVec.ofInt 8))), []) := by
  unfold hPackByte
  exact H.bind_run (m := H.lift (packByte (l.map some))) (c := c) (by rw [H.lift_apply, packByte_ok])

theorem hPack_apply (be : Bool) (fs : List Fmt) (l : List Int) (c : Ctx) :
    hPack be fs l c = ((structPack be fs l).map some, []) := by
  unfold hPack
  have hl : pack be fs (l.map some) = structPack be fs l := by
    unfold pack; rw [List.map_map]; simp [Function.comp_def]
  cases h : structPack be fs l with
  | ok b => exact H.bind_run (m := H.lift (pack be fs (l.map some))) (c := c) (by rw [H.lift_apply, hl, h])
  | error e => exact H.bind_error (m := H.lift (pack be fs (l.map some))) (c := c) (by rw [H.lift_apply, hl, h])

/-- Opcode and two-byte operand. -/
def bytes3 (op : Nat) (v : Int) : Bytes := [BitVec.ofNat 8 op, BitVec.ofInt 8 v, BitVec.ofInt 8 (v / 256)]

theorem structPack_BH {op : Nat} {v : Int} (ho : op < 256) (h0 : 0 ≤ v) (h1 : v < 65536) :
    structPack false [.B, .H] [op, v] = .ok (bytes3 op v) := by
  have a : Fmt.fits .B (op : Int) = true := by simp [Fmt.fits]; omega
  have b : Fmt.fits .H v = true := by simp [Fmt.fits]; omega
  simp [structPack, a, b, encField, Fmt.size, leBytes, bytes3]

theorem structPack_Bb {op : Nat} {v : Int} (ho : op < 256) :
    structPack false [.B, .b] [op, v] =
      if -128 ≤ v ∧ v < 128 then .ok [BitVec.ofNat 8 op, BitVec.ofInt 8 v] else .error .structError := by
  have a : Fmt.fits .B (op : Int) = true := by simp [Fmt.fits]; omega
  by_cases hv : -128 ≤ v ∧ v < 128
  · have b : Fmt.fits .b v = true := by simp [Fmt.fits]; omega
    rw [if_pos hv]
    simp [structPack, a, b, encField, Fmt.size, leBytes]
  · have b : Fmt.fits .b v = false := by simp [Fmt.fits]; omega
    rw [if_neg hv]
    simp [structPack, a, b]

/-- The result for a number. -/
def numberResult (ab zp : Option Nat) (small : Bool) (v : Int) : Except Err (Option Bytes) × List Reloc :=
  match zp, small, ab with
  | some z, true, _ => (.ok (some [BitVec.ofNat 8 z, BitVec.ofInt 8 v]), [])
  | _, _, some o => (.ok (some (bytes3 o v)), [])
  | _, _, none => (.error absoluteNotAllowed, [])

/-- The result for a label, whose zero page address if any is given. -/
def labelResult (ab zp : Option Nat) (a : Str) (addr : Option Int) : Except Err (Option Bytes) × List Reloc :=
  match zp, addr, ab with
  | some z, some v, _ => (.ok (some [BitVec.ofNat 8 z, BitVec.ofInt 8 v]), [])
  | _, _, some o => (.ok (some (bytes3 o 0)), [{ label := a, size := 2, bitsSize := 16, offset := 1 }])
  | _, _, none => (.error absoluteNotAllowed, [])

/-- The address part of an instruction, for a number. -/
theorem m6502Address_number (ab zp : Option Nat) (hab : ∀ o, ab = some o → o < 256) (a : Str) (c : Ctx) (v : Int)
    (hv : parseInteger c.sy c.labels a 16 false = .ok (some v)) :
    m6502Address ab zp a c = numberResult ab zp (decide (v < 256)) v := by
  have hr := C13_unsigned c.sy c.labels a 16 v (by decide) hv
  have hr2 : v < 65536 := hr.2
  have hz : isZeroPage v = decide (v < 256) := by
    unfold isZeroPage
    rw [decide_eq_decide]; omega
  unfold m6502Address
  rw [H.bind_run (m := H.parseInteger a 16 false) (c := c) (a := some v) (by rw [H.parseInteger_apply, hv])]
  simp only [hz]
  cases zp with
  | none =>
    cases ab with
    | none => rfl
    | some o => simp only [hPack_apply, structPack_BH (hab o rfl) hr.1 hr2]; rfl
  | some z =>
    cases hd : decide (v < 256) with
    | true => simp only [hPackByte_apply]; rfl
    | false =>
      cases ab with
      | none => rfl
      | some o => simp only [hPack_apply, structPack_BH (hab o rfl) hr.1 hr2]; rfl

/-- The address part of an instruction, for a label. -/
theorem m6502Address_label (ab zp : Option Nat) (hab : ∀ o, ab = some o → o < 256) (a : Str) (c : Ctx) (addr : Option Int)
    (hn : parseInteger c.sy c.labels a 16 false = .ok none) (hl : labelAddress c.sy c.labels a = .ok addr) :
    m6502Address ab zp a c = labelResult ab zp a (addr.filter (fun v => decide (0 ≤ v ∧ v < 256))) := by
  unfold m6502Address
  rw [H.bind_run (m := H.parseInteger a 16 false) (c := c) (a := none) (by rw [H.parseInteger_apply, hn])]
  simp only
  rw [H.bind_run (m := H.labelAddress a) (c := c) (a := addr) (by rw [H.labelAddress_apply, hl])]
  have hrel : ∀ o, o < 256 → (do
        H.reloc { label := a, size := 2, bitsSize := 16, offset := 1 }
        hPack false [.B, .H] [(o : Int), 0]) c =
      (Except.ok (some (bytes3 o 0)), [{ label := a, size := 2, bitsSize := 16, offset := 1 }]) := by
    intro o ho
    have := H.bind_of (m := H.reloc { label := a, size := 2, bitsSize := 16, offset := 1 }) (c := c)
      (f := fun _ => hPack false [.B, .H] [(o : Int), 0]) (H.reloc_apply _ _) (hPack_apply _ _ _ _)
    refine this.trans ?_
    rw [structPack_BH ho (by decide) (by decide)]; rfl
  cases addr with
  | none =>
    simp only [Option.filter_none]
    cases ab with
    | none => cases zp <;> rfl
    | some o => cases zp <;> simp only [hrel o (hab o rfl)] <;> rfl
  | some v =>
    have hz : isZeroPage v = decide (0 ≤ v ∧ v < 256) := by
      unfold isZeroPage
      rw [decide_eq_decide]; omega
    simp only [hz]
    cases zp with
    | none =>
      cases ab with
      | none => rfl
      | some o => simp only [hrel o (hab o rfl)]; rfl
    | some z =>
      by_cases hv : 0 ≤ v ∧ v < 256
      · simp only [Option.filter, decide_eq_true hv, if_true, hPackByte_apply]; rfl
      · simp only [Option.filter, decide_eq_false hv]
        cases ab with
        | none => rfl
        | some o => simp only [hrel o (hab o rfl)]; rfl

/-! ## operand shapes -/

/-- The opcode a table has for a mode. -/
def opFor (ms : List (Mode × Nat)) (m : Option AddrMode) : Option Nat := (m.bind modelMode).bind (dget ms)

theorem opFor_lt {m : String} {ms : List (Mode × Nat)} (h : (m, ms) ∈ m6502Modes) {mode : Option AddrMode} {o : Nat}
    (ho : opFor ms mode = some o) : o < 256 ∧ ∃ md, mode = some md ∧ decode6502 o = some (m, md) := by
  unfold opFor at ho
  cases mode with
  | none => simp at ho
  | some md =>
    cases hm : modelMode md with
    | none => simp [hm] at ho
    | some k =>
      simp only [Option.bind_some, hm] at ho
      have := table_modes (m, ms) h (k, o) (mem_of_dget ho)
      exact ⟨this.1, md, rfl, by rw [this.2, modelMode_spec hm]⟩

theorem needMode_bind {ms : List (Mode × Nat)} {k : Mode} {f : Nat → H (Option Bytes)} {c : Ctx} :
    (needMode ms k >>= f) c = match dget ms k with
      | some o => f o c
      | none => (.error unsupportedMode, []) := by
  cases h : dget ms k with
  | some o =>
    exact H.bind_run (m := needMode ms k) (c := c) (a := o) (by unfold needMode; rw [h]; rfl)
  | none => exact H.bind_error (m := needMode ms k) (by unfold needMode; rw [h]; rfl)

theorem m6502Mode_operand (ms : List (Mode × Nat)) (t : Str) (rest : List Str) (sh : Shape) (a : Str) (c : Ctx)
    (h : Operand rest sh a) (ha : AddrToken a) (b : Bytes) (rels : List Reloc) :
    m6502Mode ms (t :: rest) c = (.ok (some b), rels) ↔
      m6502Address (opFor ms sh.wide) (opFor ms sh.narrow) a c = (.ok (some b), rels) := by
  have haddr := (isAddress_iff a).2 ha
  have himm := not_isImmediate ha
  have hno : ∀ c, ¬ m6502Address none none a c = (.ok (some b), rels) := by
    intro c h
    unfold m6502Address at h
    obtain ⟨x, r, r', h1, h2, -⟩ := H.bind_ok h
    cases x with
    | some v => simp [isZeroPage] at h2
    | none =>
      obtain ⟨y, _, _, _, h3, -⟩ := H.bind_ok h2
      cases y <;> simp at h3
  unfold m6502Mode
  simp only [instrMatch_cons]
  cases h with
  | direct hA =>
    simp only [matchAll, matches_A, matches_pred, decide_eq_false hA, himm, haddr, Bool.and_true, Bool.false_eq_true, if_false, if_true]
    rfl
  | indexX hx =>
    simp only [matchAll, matches_A, matches_X, matches_pred, haddr, decide_eq_true hx, Bool.and_true, Bool.and_false, Bool.false_eq_true, if_false, if_true]
    rfl
  | @indexY _ y hy =>
    have hx : (decide (Reg y 'X')) = false := decide_eq_false (fun hx : Reg y 'X' => by
      rcases hy with rfl | rfl <;> revert hx <;> decide)
    simp only [matchAll, matches_A, matches_X, matches_Y, matches_pred, haddr, hx, decide_eq_true hy, Bool.and_true, Bool.and_false, Bool.false_eq_true, if_false, if_true]
    rfl
  | indirect =>
    simp only [matchAll, matches_L, matches_R, matches_pred, haddr, reg_L, reg_R, decide_true, Bool.and_true, Bool.and_false, Bool.false_eq_true, if_false, if_true]
    rw [needMode_bind]
    show _ ↔ m6502Address (dget ms .indirect) none a c = _
    cases dget ms .indirect with
    | none => simp only; constructor
              · intro h; cases h
              · intro h; exact absurd h (hno c)
    | some o => rfl
  | preX hx =>
    simp only [matchAll, matches_L, matches_R, matches_X, matches_pred, haddr, decide_eq_true hx, reg_L, reg_R, decide_true, Bool.and_true, Bool.and_false, Bool.false_eq_true, if_false, if_true]
    rw [needMode_bind]
    show _ ↔ m6502Address none (dget ms .indirectX) a c = _
    cases dget ms .indirectX with
    | none => simp only; constructor
              · intro h; cases h
              · intro h; exact absurd h (hno c)
    | some o => rfl
  | postY hy =>
    have hx : (decide (Reg [')'] 'X')) = false := by decide
    simp only [matchAll, matches_L, matches_R, matches_X, matches_Y, matches_pred, haddr, hx, decide_eq_true hy, reg_L, reg_R, decide_true, Bool.and_true, Bool.and_false, Bool.false_and, Bool.true_and, Bool.false_eq_true, if_false, if_true]
    rw [needMode_bind]
    show _ ↔ m6502Address none (dget ms .indirectY) a c = _
    cases dget ms .indirectY with
    | none => simp only; constructor
              · intro h; cases h
              · intro h; exact absurd h (hno c)
    | some o => rfl

/-- Every accepted operand list has one of the written forms. -/
theorem m6502Mode_forms {ms : List (Mode × Nat)} {t : Str} {rest : List Str} {c : Ctx} {b : Bytes} {rels : List Reloc}
    (h : m6502Mode ms (t :: rest) c = (.ok (some b), rels)) :
    (∃ a o, rest = [a] ∧ Reg a 'A' ∧ dget ms .accumulator = some o ∧ b = [BitVec.ofNat 8 o] ∧ rels = []) ∨
    (∃ v o x, rest = ['#' :: v] ∧ v ≠ [] ∧ dget ms .immediate = some o ∧ b = [BitVec.ofNat 8 o, BitVec.ofInt 8 x] ∧
      H.parseIntegerOrLabel { label := v, bitsSize := 8, offset := 1, size := 1 } false c = (.ok x, rels)) ∨
    (∃ sh a, Operand rest sh a ∧ AddrToken a) := by
  unfold m6502Mode at h
  simp only [instrMatch_cons] at h
  split at h
  · next hq =>
      obtain ⟨a, rfl, hm⟩ := matchAll1 hq
      simp only [matches_A, Bool.and_true, decide_eq_true_eq] at hm
      rw [needMode_bind] at h
      cases ho : dget ms .accumulator with
      | none => rw [ho] at h; cases h
      | some o =>
        rw [ho] at h
        simp only [hPackByte_apply, Prod.mk.injEq, Except.ok.injEq, Option.some.injEq] at h
        exact .inl ⟨a, o, rfl, hm, rfl, by rw [← h.1]; simp, h.2.symm⟩
  · next hA =>
    split at h
    · next hq =>
        obtain ⟨a, rfl, hm⟩ := matchAll1 hq
        simp only [matches_pred, Bool.and_true] at hm
        obtain ⟨v, hv, rfl⟩ := (isImmediate_iff a).1 hm
        rw [needMode_bind] at h
        cases ho : dget ms .immediate with
        | none => rw [ho] at h; cases h
        | some o =>
          rw [ho] at h
          simp only at h
          obtain ⟨x, r, r', h1, h2, h3⟩ := H.bind_ok h
          rw [hPackByte_apply] at h2
          simp only [Prod.mk.injEq, Except.ok.injEq, Option.some.injEq] at h2
          refine .inr (.inl ⟨v, o, x, rfl, hv, rfl, by rw [← h2.1]; simp, ?_⟩)
          rw [h3, ← h2.2, List.append_nil]; exact h1
    · right; right
      split at h
      · next hm =>
          obtain ⟨a, rfl, -⟩ := matchAll1 hm
          simp only [matchAll, matches_A, matches_pred, Bool.and_true, decide_eq_true_eq] at hm hA
          exact ⟨.direct, a, .direct hA, (isAddress_iff a).1 hm⟩
      · split at h
        · next hq =>
            obtain ⟨a, x, rfl, hm⟩ := matchAll2 hq
            simp only [matches_X, matches_pred, Bool.and_true, Bool.and_eq_true, decide_eq_true_eq] at hm
            exact ⟨.indexX, a, .indexX hm.2, (isAddress_iff a).1 hm.1⟩
        · split at h
          · next hq =>
              obtain ⟨a, x, rfl, hm⟩ := matchAll2 hq
              simp only [matches_Y, matches_pred, Bool.and_true, Bool.and_eq_true, decide_eq_true_eq] at hm
              exact ⟨.indexY, a, .indexY hm.2, (isAddress_iff a).1 hm.1⟩
          · split at h
            · next hq =>
                obtain ⟨l, a, r, rfl, hm⟩ := matchAll3 hq
                simp only [matches_L, matches_R, matches_pred, Bool.and_true, Bool.and_eq_true, decide_eq_true_eq, reg_L, reg_R] at hm
                obtain ⟨rfl, ha, rfl⟩ := hm
                exact ⟨.indirect, a, .indirect, (isAddress_iff a).1 ha⟩
            · split at h
              · next hq =>
                  obtain ⟨l, a, x, r, rfl, hm⟩ := matchAll4 hq
                  simp only [matches_L, matches_R, matches_X, matches_pred, Bool.and_true, Bool.and_eq_true, decide_eq_true_eq, reg_L, reg_R] at hm
                  obtain ⟨rfl, ha, hx, rfl⟩ := hm
                  exact ⟨.preX, a, .preX hx, (isAddress_iff a).1 ha⟩
              · split at h
                · next hq =>
                    obtain ⟨l, a, r, x, rfl, hm⟩ := matchAll4 hq
                    simp only [matches_L, matches_R, matches_Y, matches_pred, Bool.and_true, Bool.and_eq_true, decide_eq_true_eq, reg_L, reg_R] at hm
                    obtain ⟨rfl, ha, rfl, hx⟩ := hm
                    exact ⟨.postY, a, .postY hx, (isAddress_iff a).1 ha⟩
                · cases h

end Necro
