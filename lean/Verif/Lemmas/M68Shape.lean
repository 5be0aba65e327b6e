import Verif.Lemmas.M68Run
/-!
# Whole instructions of the 68000
-/

namespace Necro
open Spec

/-- An instruction whose numbers are still tokens. -/
inductive M68Shape where
  | move (sz : M68Size) (f g : EaForm)
  | movea (sz : M68Size) (f : EaForm) (n : Nat)
  | imm (op : M68Op) (sz : M68Size) (t : Str) (g : EaForm)
  | status (op : M68Op) (sz : M68Size) (t : Str)
  | lea (f : EaForm) (n : Nat)
  | jump (jmp : Bool) (f : EaForm)
  | bccB (k : Nat) (t : Str)
  | bccW (k : Nat) (t : Str)
  | dbcc (k n : Nat) (t : Str)
  | rts
  | nop

/-- The size field of the moves. -/
def moveCode : M68Size → Nat
  | .byte => 1
  | .word => 3
  | .long => 2

/-- The size field of the immediate instructions. -/
def immCode : M68Size → Nat
  | .byte => 0
  | .word => 1
  | .long => 2

def opCode : M68Op → Nat
  | .ORI => 0
  | .ANDI => 1
  | .SUBI => 2
  | .ADDI => 3
  | .EORI => 5
  | .CMPI => 6

namespace M68Shape

/-- The first word; `a` is the first number. -/
def head : M68Shape → Int → Nat
  | .move sz f g, _ => moveCode sz * 4096 + g.regNo * 512 + g.modeNo * 64 + f.modeNo * 8 + f.regNo
  | .movea sz f n, _ => moveCode sz * 4096 + n * 512 + 64 + f.modeNo * 8 + f.regNo
  | .imm op sz _ g, _ => opCode op * 512 + immCode sz * 64 + g.modeNo * 8 + g.regNo
  | .status op sz _, _ => opCode op * 512 + immCode sz * 64 + 0x3C
  | .lea f n, _ => 0x41C0 + n * 512 + f.modeNo * 8 + f.regNo
  | .jump j f, _ => (if j then 0x4EC0 else 0x4E80) + f.modeNo * 8 + f.regNo
  | .bccB k _, a => 0x6000 + k * 256 + (a % 256).toNat
  | .bccW k _, _ => 0x6000 + k * 256
  | .dbcc k n _, _ => 0x50C8 + k * 256 + n
  | .rts, _ => 0x4E75
  | .nop, _ => 0x4E71

/-- The words of the first number. -/
def seg1 : M68Shape → Int → List Nat
  | .move sz f _, a => f.ext sz a
  | .movea sz f _, a => f.ext sz a
  | .imm _ sz t _, a => (EaForm.imm t).ext sz a
  | .status _ sz t, a => (EaForm.imm t).ext sz a
  | .lea f _, a => f.ext .long a
  | .jump _ f, a => f.ext .long a
  | .bccW _ _, a => [(a % 2 ^ 16).toNat]
  | .dbcc _ _ _, a => [(a % 2 ^ 16).toNat]
  | _, _ => []

/-- The words of the second number. -/
def seg2 : M68Shape → Int → List Nat
  | .move sz _ g, b => g.ext sz b
  | .imm _ sz _ g, b => g.ext sz b
  | _, _ => []

def words (sh : M68Shape) (a b : Int) : List Nat := sh.head a :: (sh.seg1 a ++ sh.seg2 b)

/-- The instruction for the numbers `a` and `b`. -/
def fill : M68Shape → Int → Int → M68Instr
  | .move sz f g, a, b => .move sz (f.fill sz a) (g.fill sz b)
  | .movea sz f n, a, _ => .movea sz (f.fill sz a) n
  | .imm op sz _ g, a, b => .imm op sz (a % 2 ^ sz.bits).toNat (g.fill sz b)
  | .status op sz _, a, _ => if sz = .byte then .ccr op (a % 2 ^ sz.bits).toNat else .sr op (a % 2 ^ sz.bits).toNat
  | .lea f n, a, _ => .lea (f.fill .long a) n
  | .jump j f, a, _ => if j then .jmp (f.fill .long a) else .jsr (f.fill .long a)
  | .bccB k _, a, _ => .bcc k true (toSigned 8 (a % 2 ^ 8).toNat)
  | .bccW k _, a, _ => .bcc k false (toSigned 16 (a % 2 ^ 16).toNat)
  | .dbcc k n _, a, _ => .dbcc k n (toSigned 16 (a % 2 ^ 16).toNat)
  | .rts, _, _ => .rts
  | .nop, _, _ => .nop

/-- Registers exist and operands are of the kinds the instruction takes. -/
def Valid : M68Shape → Prop
  | .move _ f g => f.Valid ∧ g.Valid ∧ g.mode ∉ m68Alterable
  | .movea sz f n => f.Valid ∧ n < 8 ∧ sz ≠ .byte
  | .imm _ _ _ g => g.Valid ∧ g.mode ∉ m68Alterable
  | .status op sz _ => op.status = true ∧ sz ≠ .long
  | .lea f n => f.Valid ∧ n < 8 ∧ f.mode ∉ m68Control
  | .jump _ f => f.Valid ∧ f.mode ∉ m68Control
  | .bccB k _ | .bccW k _ => k < 16
  | .dbcc k n _ => k < 16 ∧ n < 8
  | _ => True

/-- The two cases in which the words are those of something else. -/
def Bad : M68Shape → Int → Prop
  | .move sz f _, _ => sz = .byte ∧ f.mode = .an
  | .bccB _ _, a => a % 256 = 0
  | _, _ => False

theorem words_lt {sh : M68Shape} (h : sh.Valid) (a b : Int) : ∀ w ∈ sh.words a b, w < 2 ^ 16 := by
  have key : sh.head a < 2 ^ 16 ∧ (∀ w ∈ sh.seg1 a, w < 2 ^ 16) ∧ ∀ w ∈ sh.seg2 b, w < 2 ^ 16 := by
    cases sh with
    | move sz f g =>
      obtain ⟨h1, h2, h3⟩ := h
      have := EaForm.regNo_lt h1; have := EaForm.regNo_lt h2
      refine ⟨?_, EaForm.ext_lt h1 _ _, EaForm.ext_lt h2 _ _⟩
      simp only [head]; cases sz <;> simp only [moveCode] <;> omega
    | movea sz f n =>
      obtain ⟨h1, h2, h3⟩ := h
      have := EaForm.regNo_lt h1
      refine ⟨?_, EaForm.ext_lt h1 _ _, by simp [seg2]⟩
      simp only [head]; cases sz <;> simp only [moveCode] <;> omega
    | imm op sz t g =>
      obtain ⟨h1, h2⟩ := h
      have := EaForm.regNo_lt h1
      refine ⟨?_, EaForm.ext_lt (f := .imm t) trivial _ _, EaForm.ext_lt h1 _ _⟩
      simp only [head]; cases sz <;> cases op <;> simp only [immCode, opCode] <;> omega
    | status op sz t =>
      refine ⟨?_, EaForm.ext_lt (f := .imm t) trivial _ _, by simp [seg2]⟩
      simp only [head]; cases sz <;> cases op <;> simp only [immCode, opCode] <;> omega
    | lea f n =>
      obtain ⟨h1, h2, h3⟩ := h
      have := EaForm.regNo_lt h1
      refine ⟨?_, EaForm.ext_lt h1 _ _, by simp [seg2]⟩
      simp only [head]; omega
    | jump j f =>
      obtain ⟨h1, h2⟩ := h
      have := EaForm.regNo_lt h1
      refine ⟨?_, EaForm.ext_lt h1 _ _, by simp [seg2]⟩
      simp only [head]; split <;> omega
    | bccB k t =>
      have : k < 16 := h
      refine ⟨?_, by simp [seg1], by simp [seg2]⟩
      simp only [head]; omega
    | bccW k t =>
      have : k < 16 := h
      refine ⟨?_, by simp [seg1]; omega, by simp [seg2]⟩
      simp only [head]; omega
    | dbcc k n t =>
      obtain ⟨h1, h2⟩ := h
      refine ⟨?_, by simp [seg1]; omega, by simp [seg2]⟩
      simp only [head]; omega
    | rts => simp [head, seg1, seg2]
    | nop => simp [head, seg1, seg2]
  intro w hw
  simp only [words, List.mem_cons, List.mem_append] at hw
  rcases hw with rfl | hw | hw
  · exact key.1
  · exact key.2.1 w hw
  · exact key.2.2 w hw

theorem alterable_mode {g : EaForm} (h : g.mode ∉ m68Alterable) : g.modeNo ≠ 1 ∧ ¬ (g.modeNo = 7 ∧ g.regNo = 4) := by
  cases g <;> simp_all [EaForm.mode, m68Alterable, EaForm.modeNo, EaForm.regNo]

theorem control_mode {g : EaForm} (h : g.mode ∉ m68Control) : g.modeNo ≠ 0 ∧ g.modeNo ≠ 1 := by
  cases g <;> simp_all [EaForm.mode, m68Control, EaForm.modeNo]

theorem fill_an {f : EaForm} {sz : M68Size} {v : Int} {n : Nat} (h : f.fill sz v = .an n) : f.mode = .an := by
  cases f <;> simp_all [EaForm.fill, EaForm.mode]

/-- The words decode to the instruction. -/
theorem decode_words {sh : M68Shape} (h : sh.Valid) {a : Int} (hb : ¬ sh.Bad a) (b : Int) : decode68 (sh.words a b) = some (sh.fill a b, []) := by
  cases sh with
  | move sz f g =>
    obtain ⟨h1, h2, h3⟩ := h
    have r1 := EaForm.regNo_lt h1
    have r2 := EaForm.regNo_lt h2
    obtain ⟨a1, a2⟩ := alterable_mode h3
    simp only [words, seg1, seg2, fill]
    generalize hw : (M68Shape.move sz f g).head a = w
    simp only [head] at hw
    have e1 : w / 8 % 8 = f.modeNo := by omega
    have e2 : w % 8 = f.regNo := by omega
    have e3 : w / 64 % 8 = g.modeNo := by omega
    have e4 : w / 512 % 8 = g.regNo := by cases sz <;> simp only [moveCode] at hw <;> omega
    have hd := EaForm.decodeEa_ext h1 sz a (g.ext sz b)
    have hd' := EaForm.decodeEa_ext h2 sz b []
    rw [List.append_nil] at hd'
    have key : decodeMove sz w (f.ext sz a ++ g.ext sz b) = some (M68Instr.move sz (f.fill sz a) (g.fill sz b), []) := by
      unfold decodeMove
      simp only [e1, e2, e3, e4, hd, Option.bind_eq_bind, Option.bind_some]
      split
      · next n hsz hf => exact absurd ⟨rfl, fill_an hf⟩ hb
      · rw [if_neg a1, hd', Option.bind_some, EaForm.fill_alterable h3]
        rfl
    have e0 : w / 4096 = moveCode sz := by cases sz <;> simp only [moveCode] at hw ⊢ <;> omega
    cases sz <;> simp only [moveCode] at e0 <;> simp only [decode68, e0] <;> exact key
  | movea sz f n =>
    obtain ⟨h1, h2, h3⟩ := h
    have r1 := EaForm.regNo_lt h1
    simp only [words, seg1, seg2, fill]
    generalize hw : (M68Shape.movea sz f n).head a = w
    simp only [head] at hw
    have e1 : w / 8 % 8 = f.modeNo := by omega
    have e2 : w % 8 = f.regNo := by omega
    have e3 : w / 64 % 8 = 1 := by omega
    have e4 : w / 512 % 8 = n := by cases sz <;> simp only [moveCode] at hw <;> omega
    have hd := EaForm.decodeEa_ext h1 sz a []
    have key : decodeMove sz w (f.ext sz a ++ []) = some (M68Instr.movea sz (f.fill sz a) n, []) := by
      unfold decodeMove
      simp only [e1, e2, e3, e4, hd, Option.bind_eq_bind, Option.bind_some]
      split
      · exact absurd rfl h3
      · rw [if_pos trivial, if_neg h3]
    have e0 : w / 4096 = moveCode sz := by cases sz <;> simp only [moveCode] at hw ⊢ <;> omega
    cases sz <;> simp only [moveCode] at e0 <;> simp only [decode68, e0] <;> exact key
  | imm op sz t g =>
    obtain ⟨h1, h2⟩ := h
    have r1 := EaForm.regNo_lt h1
    obtain ⟨a1, a2⟩ := alterable_mode h2
    simp only [words, seg1, seg2, fill]
    generalize hw : (M68Shape.imm op sz t g).head a = w
    simp only [head] at hw
    have e0 : w / 4096 = 0 := by cases sz <;> cases op <;> simp only [immCode, opCode] at hw <;> omega
    have e1 : w / 8 % 8 = g.modeNo := by omega
    have e2 : w % 8 = g.regNo := by omega
    have e3 : decodeSize (w / 64 % 4) = some sz := by
      have : w / 64 % 4 = immCode sz := by cases sz <;> simp only [immCode] at hw ⊢ <;> omega
      rw [this]; cases sz <;> rfl
    have e4 : decodeImmOp (w / 512 % 8) = some op := by
      have : w / 512 % 8 = opCode op := by cases sz <;> cases op <;> simp only [immCode, opCode] at hw ⊢ <;> omega
      rw [this]; cases op <;> rfl
    have e5 : ¬ w / 256 % 2 = 1 := by cases sz <;> simp only [immCode] at hw <;> omega
    have e6 : ¬ w % 64 = 0x3C := by
      intro h6
      exact a2 ⟨by omega, by omega⟩
    have hd := EaForm.decodeEa_ext (f := .imm t) trivial sz a (g.ext sz b)
    have hd0 : decodeEa sz 7 4 ((EaForm.imm t).ext sz a ++ g.ext sz b) = some (.imm (a % 2 ^ sz.bits).toNat, g.ext sz b) := hd
    have hd' := EaForm.decodeEa_ext h1 sz b []
    rw [List.append_nil] at hd'
    simp only [decode68, e0]
    unfold decodeImm
    rw [if_neg e5]
    simp only [e1, e2, e3, e4, hd0, if_neg e6, hd', EaForm.fill_alterable h2, Option.bind_eq_bind, Option.bind_some, if_true]
  | status op sz t =>
    obtain ⟨h1, h2⟩ := h
    simp only [words, seg1, seg2]
    generalize hw : (M68Shape.status op sz t).head a = w
    simp only [head] at hw
    have e0 : w / 4096 = 0 := by cases sz <;> cases op <;> simp only [immCode, opCode] at hw <;> omega
    have e3 : decodeSize (w / 64 % 4) = some sz := by
      have : w / 64 % 4 = immCode sz := by cases sz <;> simp only [immCode] at hw ⊢ <;> omega
      rw [this]; cases sz <;> rfl
    have e4 : decodeImmOp (w / 512 % 8) = some op := by
      have : w / 512 % 8 = opCode op := by cases sz <;> cases op <;> simp only [immCode, opCode] at hw ⊢ <;> omega
      rw [this]; cases op <;> rfl
    have e5 : ¬ w / 256 % 2 = 1 := by cases sz <;> simp only [immCode] at hw <;> omega
    have e6 : w % 64 = 0x3C := by omega
    have hd := EaForm.decodeEa_ext (f := .imm t) trivial sz a []
    have hd0 : decodeEa sz 7 4 ((EaForm.imm t).ext sz a ++ []) = some (.imm (a % 2 ^ sz.bits).toNat, []) := hd
    simp only [decode68, e0]
    unfold decodeImm
    rw [if_neg e5]
    simp only [e3, e4, hd0, if_pos e6, h1, Option.bind_eq_bind, Option.bind_some]
    cases sz with
    | byte => rfl
    | word => rfl
    | long => exact absurd rfl h2
  | lea f n =>
    obtain ⟨h1, h2, h3⟩ := h
    have r1 := EaForm.regNo_lt h1
    simp only [words, seg1, seg2, fill]
    generalize hw : (M68Shape.lea f n).head a = w
    simp only [head] at hw
    have e0 : w / 4096 = 4 := by omega
    have e1 : w / 8 % 8 = f.modeNo := by omega
    have e2 : w % 8 = f.regNo := by omega
    have e3 : w / 64 % 8 = 7 := by omega
    have e4 : w / 512 % 8 = n := by omega
    have hd := EaForm.decodeEa_ext h1 .long a []
    simp only [decode68, e0]
    rw [if_neg (by omega), if_neg (by omega), if_pos e3]
    simp only [e1, e2, e4, hd, Option.bind_eq_bind, Option.bind_some, EaForm.fill_control h3, if_true]
  | jump j f =>
    obtain ⟨h1, h3⟩ := h
    have r1 := EaForm.regNo_lt h1
    obtain ⟨c1, c2⟩ := control_mode h3
    simp only [words, seg1, seg2, fill]
    generalize hw : (M68Shape.jump j f).head a = w
    simp only [head] at hw
    have hw : (j = true ∧ 0x4EC0 + f.modeNo * 8 + f.regNo = w) ∨ (j = false ∧ 0x4E80 + f.modeNo * 8 + f.regNo = w) := by
      cases j
      · exact .inr ⟨rfl, by simpa using hw⟩
      · exact .inl ⟨rfl, by simpa using hw⟩
    have e0 : w / 4096 = 4 := by omega
    have e1 : w / 8 % 8 = f.modeNo := by omega
    have e2 : w % 8 = f.regNo := by omega
    have hd := EaForm.decodeEa_ext h1 .long a []
    simp only [decode68, e0]
    rw [if_neg (by omega), if_neg (by omega), if_neg (by omega), if_pos (by omega)]
    simp only [e1, e2, hd, Option.bind_eq_bind, Option.bind_some, EaForm.fill_control h3, if_true]
    rcases hw with ⟨rfl, hw⟩ | ⟨rfl, hw⟩
    · rw [if_pos (by omega)]; rfl
    · rw [if_neg (by omega)]; rfl
  | bccB k t =>
    have h1 : k < 16 := h
    have hb : ¬ a % 256 = 0 := hb
    simp only [words, seg1, seg2, fill]
    generalize hw : (M68Shape.bccB k t).head a = w
    simp only [head] at hw
    have e0 : w / 4096 = 6 := by omega
    have e1 : w / 256 % 16 = k := by omega
    have e2 : w % 256 = (a % 2 ^ 8).toNat := by omega
    simp only [decode68, e0]
    rw [if_neg (by omega), e1, e2]
    rfl
  | bccW k t =>
    have h1 : k < 16 := h
    simp only [words, seg1, seg2, fill]
    generalize hw : (M68Shape.bccW k t).head a = w
    simp only [head] at hw
    have e0 : w / 4096 = 6 := by omega
    have e1 : w / 256 % 16 = k := by omega
    simp only [decode68, e0]
    rw [if_pos (by omega), e1]
    rfl
  | dbcc k n t =>
    obtain ⟨h1, h2⟩ := h
    simp only [words, seg1, seg2, fill]
    generalize hw : (M68Shape.dbcc k n t).head a = w
    simp only [head] at hw
    have e0 : w / 4096 = 5 := by omega
    have e1 : w / 256 % 16 = k := by omega
    have e2 : w % 8 = n := by omega
    simp only [decode68, e0]
    rw [if_pos (by omega), e1, e2]
    rfl
  | rts => exact (by decide +kernel : decode68 [0x4E75] = some (.rts, []))
  | nop => exact (by decide +kernel : decode68 [0x4E71] = some (.nop, []))

theorem disasm_words {sh : M68Shape} (h : sh.Valid) {a : Int} (hb : ¬ sh.Bad a) (b : Int) :
    disasm68 (bytesOf (sh.words a b)) = some (sh.fill a b) := by
  unfold disasm68
  rw [codeWords_bytesOf _ (words_lt h a b), Option.bind_some, decode_words h hb b]

end M68Shape

end Necro
