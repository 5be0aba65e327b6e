import Verif.Lemmas.M68Code
import Verif.Lemmas.ThumbText
/-!
# From the tokens of an operand to its words
-/

namespace Necro
open Spec

/-- Bytes of an operand of the given size. -/
def m68Bytes : M68Size → Nat
  | .byte => 1
  | .word => 2
  | .long => 4

/-- A number or label in an instruction: what it is for, the reference a label leaves, and whether a number is signed. -/
abbrev M68Slot := M68Use × Reloc × Bool

namespace EaForm

def slot (sz : M68Size) (pc : Int) (off : Nat) : EaForm → Option M68Slot
  | .disp t _ => some (.disp, { label := t, size := 2, bitsSize := 16, offset := 2 + off }, true)
  | .idx t _ _ => some (.disp, { label := t, size := 2, bitsSize := 8, bits := some (7, 0), offset := 2 + off }, true)
  | .pcDisp t => some (.pc, { label := t, size := 2, bitsSize := 16, relative := pc + 2 + off, offset := 2 + off }, false)
  | .pcIdx t _ => some (.pc, { label := t, size := 2, bitsSize := 8, bits := some (7, 0), relative := pc + 2 + off, offset := 2 + off }, false)
  | .absW t => some (.data, { label := t, size := 2, bitsSize := 16, offset := 2 + off }, false)
  | .absL t => some (.data, { label := t, size := 4, bitsSize := 32, offset := 2 + off }, false)
  | .imm t => some (.data, { label := t, size := m68Bytes sz + m68Bytes sz % 2, bitsSize := m68Bytes sz * 8, offset := 2 + off }, false)
  | _ => none

theorem slot_arg (f : EaForm) (sz : M68Size) (pc : Int) (off : Nat) :
    f.arg sz = (f.slot sz pc off).map fun p => (p.1, p.2.1.label, p.2.1.bitsSize) := by
  cases f with
  | imm t => cases sz <;> rfl
  | _ => rfl

end EaForm

/-- The conditions on a slot. -/
structure SlotOk (p : M68Slot) : Prop where
  width : 1 ≤ p.2.1.bitsSize
  use : p.1 = .data ↔ (p.2.2 || p.2.1.relative != 0) = false

theorem EaForm.slot_ok {f : EaForm} {sz : M68Size} {pc : Int} {off : Nat} (hpc : 0 ≤ pc) {p : M68Slot} (h : f.slot sz pc off = some p) : SlotOk p := by
  have hr : (pc + 2 + (off : Int) != 0) = true := by simp only [bne_iff_ne, ne_eq]; omega
  cases f <;> simp only [slot, Option.some.injEq, reduceCtorEq] at h <;> subst h
  · exact ⟨by simp, by simp⟩
  · exact ⟨by simp, by simp⟩
  · exact ⟨by simp, by simp [hr]⟩
  · exact ⟨by simp, by simp [hr]⟩
  · exact ⟨by simp, by simp⟩
  · exact ⟨by simp, by simp⟩
  · exact ⟨by cases sz <;> simp [m68Bytes], by simp⟩

/-- The token stands for the number `x`. -/
def m68Number (c : Ctx) (use : M68Use) (n : Nat) (tok : Str) (x : Int) : Prop := ∃ dec, TokenValue c.sy c.labels tok x dec ∧ M68Fits use n x dec

/-- What reading a slot can give. -/
theorem slot_value {p : M68Slot} (hp : SlotOk p) {c : Ctx} {v : Int} {rels : List Reloc} (h : H.parseIntegerOrLabel p.2.1 p.2.2 c = (.ok v, rels)) :
    (rels = [] ∧ ∃ x, m68Number c p.1 p.2.1.bitsSize p.2.1.label x ∧ v % 2 ^ p.2.1.bitsSize = x % 2 ^ p.2.1.bitsSize) ∨
    (rels = [p.2.1] ∧ v = 0 ∧ ∀ y dec, ¬ TokenValue c.sy c.labels p.2.1.label y dec) := by
  rcases H.parseIntegerOrLabel_ok h with ⟨hv, rfl⟩ | ⟨hv, rfl, rfl⟩
  · left
    obtain ⟨x, dec, hx, hr⟩ := (C13_parse_iff _ _ _ _ _ _ hp.width).1 hv
    have huse := hp.use
    rcases hr with ⟨hd, h1, h2, h3⟩ | ⟨hd, hs, h1, h2, h3⟩ | ⟨hd, hs, h1, h2, h3⟩ | ⟨hd, hs, h1, h2, h3⟩
    · refine ⟨rfl, x, ⟨dec, hx, ?_⟩, by rw [h3]⟩
      unfold M68Fits
      rw [if_pos hd]
      exact ⟨h1, h2⟩
    · refine ⟨rfl, x, ⟨dec, hx, ?_⟩, by rw [h3]⟩
      unfold M68Fits
      rw [if_neg (by simp [hd]), if_pos (huse.2 hs)]
      have : (0 : Int) < 2 ^ (p.2.1.bitsSize - 1) := Int.pow_pos (by decide)
      exact ⟨by omega, h2⟩
    · refine ⟨rfl, x, ⟨dec, hx, ?_⟩, by rw [h3]; simp⟩
      unfold M68Fits
      rw [if_neg (by simp [hd]), if_pos (huse.2 hs)]
      have : (0 : Int) < 2 ^ p.2.1.bitsSize := Int.pow_pos (by decide)
      exact ⟨h1, by omega⟩
    · refine ⟨rfl, x, ⟨dec, hx, ?_⟩, by rw [h3]⟩
      unfold M68Fits
      rw [if_neg (by simp [hd]), if_neg (by rw [huse, hs]; simp)]
      exact ⟨h1, h2⟩
  · exact .inr ⟨rfl, rfl, parseInteger_none hv⟩

/-- The converse, for numbers. -/
theorem slot_number {p : M68Slot} (hp : SlotOk p) {c : Ctx} {x : Int} (h : m68Number c p.1 p.2.1.bitsSize p.2.1.label x) :
    ∃ v, H.parseIntegerOrLabel p.2.1 p.2.2 c = (.ok v, []) ∧ v % 2 ^ p.2.1.bitsSize = x % 2 ^ p.2.1.bitsSize := by
  obtain ⟨dec, hx, hf⟩ := h
  have key : ∃ v, parseInteger c.sy c.labels p.2.1.label p.2.1.bitsSize (p.2.2 || p.2.1.relative != 0) = .ok (some v) ∧
      v % 2 ^ p.2.1.bitsSize = x % 2 ^ p.2.1.bitsSize := by
    unfold M68Fits at hf
    have huse := hp.use
    by_cases hd : dec = false
    · rw [if_pos hd] at hf
      exact ⟨x, (C13_parse_iff _ _ _ _ _ _ hp.width).2 ⟨x, dec, hx, .inl ⟨hd, hf.1, hf.2, rfl⟩⟩, rfl⟩
    · rw [if_neg hd] at hf
      have hd : dec = true := by simpa using hd
      by_cases hu : p.1 = .data
      · rw [if_pos hu] at hf
        by_cases h0 : 0 ≤ x
        · exact ⟨x, (C13_parse_iff _ _ _ _ _ _ hp.width).2 ⟨x, dec, hx, .inr (.inl ⟨hd, huse.1 hu, h0, hf.2, rfl⟩)⟩, rfl⟩
        · exact ⟨x + 2 ^ p.2.1.bitsSize, (C13_parse_iff _ _ _ _ _ _ hp.width).2 ⟨x, dec, hx, .inr (.inr (.inl ⟨hd, huse.1 hu, hf.1, by omega, rfl⟩))⟩,
            by simp⟩
      · rw [if_neg hu] at hf
        have hs : (p.2.2 || p.2.1.relative != 0) = true := by
          rw [← Bool.not_eq_false]; exact fun h => hu (huse.2 h)
        exact ⟨x, (C13_parse_iff _ _ _ _ _ _ hp.width).2 ⟨x, dec, hx, .inr (.inr (.inr ⟨hd, hs, hf.1, hf.2, rfl⟩))⟩, rfl⟩
  obtain ⟨v, hv, he⟩ := key
  exact ⟨v, parseIntegerOrLabel_number hv, he⟩

theorem lift_bind {f : H α} {g : α → H β} {c : Ctx} {a : α} {b : β} {rels : List Reloc} (h : f c = (.ok a, rels)) (h' : g a c = (.ok b, [])) :
    (f >>= g) c = (.ok b, rels) := by
  rw [H.bind_of h h', List.append_nil]

theorem pack_word {v : Int} {c : Ctx} {k : Bytes → M68Operand} :
    (H.lift (packBe16u [some v]) >>= fun b => pure (k b) : H M68Operand) c = (.ok (k (bytesOf [(v % 2 ^ 16).toNat])), []) := by
  rw [pack16_any, bytesOf_one]; rfl

theorem pack_long {v : Int} {c : Ctx} {k : Bytes → M68Operand} :
    (H.lift (packBe32u [some v]) >>= fun b => pure (k b) : H M68Operand) c =
      (.ok (k (bytesOf [(v / 65536 % 2 ^ 16).toNat, (v % 2 ^ 16).toNat])), []) := by
  rw [pack32_any, bytesOf_two]; rfl

theorem pack_index {x : M68Index} (hx : x.n < 8) {v : Int} (h1 : -128 ≤ v) (h2 : v < 256) {c : Ctx} {k : Bytes → M68Operand} :
    (H.lift (packBitsBe16u 0 [⟨15, 15, (idxFields x).1⟩, ⟨14, 12, (idxFields x).2.1⟩, ⟨11, 11, (idxFields x).2.2⟩, ⟨7, 0, v⟩]) >>=
      fun b => pure (k b) : H M68Operand) c = (.ok (k (bytesOf [EaForm.idxWord x v])), []) := by
  obtain ⟨a, n, l⟩ := x
  simp only at hx
  have := m68Build_of (base := 0) (W := EaForm.idxWord ⟨a, n, l⟩ v)
    (fs := [⟨15, 15, (idxFields ⟨a, n, l⟩).1⟩, ⟨14, 12, (idxFields ⟨a, n, l⟩).2.1⟩, ⟨11, 11, (idxFields ⟨a, n, l⟩).2.2⟩, ⟨7, 0, v⟩])
    (by
      intro f hf
      simp only [List.mem_cons, List.not_mem_nil, or_false] at hf
      rcases hf with rfl | rfl | rfl | rfl
      · refine ⟨by simp, ?_, ?_⟩ <;> cases a <;> simp [idxFields]
      · refine ⟨by simp, ?_, ?_⟩ <;> simp [idxFields] <;> omega
      · refine ⟨by simp, ?_, ?_⟩ <;> cases l <;> simp [idxFields]
      · exact ⟨by simp, h1, h2⟩)
    (by simp) (by simp)
    (by
      simp only [List.map_cons, List.map_nil, List.foldr_cons, List.foldr_nil, fieldPart, idxFields, EaForm.idxWord]
      cases a <;> cases l <;> simp <;> omega) c
  rw [H.bind_run (show H.lift (packBitsBe16u 0 _) c = _ from this)]
  show (Except.ok (k _), []) = _
  rw [bytesOf_one]
  have hlt := EaForm.idxWord_lt (x := ⟨a, n, l⟩) hx v
  generalize EaForm.idxWord ⟨a, n, l⟩ v = w at *
  have e : ((w : Int) % 2 ^ 16).toNat = w := by omega
  rw [e]

theorem m68Packer_of {sz : M68Size} {pc : Int} {t : Str} {off : Nat} {c : Ctx} {p : M68Slot} (hp : (EaForm.imm t).slot sz pc off = some p)
    {v : Int} {rels : List Reloc} (h : H.parseIntegerOrLabel p.2.1 p.2.2 c = (.ok v, rels)) :
    m68Packer t (m68Bytes sz) off c = (.ok (bytesOf ((EaForm.imm t).ext sz v)), rels) := by
  cases hp
  unfold m68Packer
  refine lift_bind h ?_
  cases sz with
  | byte =>
    show H.lift (packBe16u [some v]) c = _
    rw [pack16_any, bytesOf_one]; rfl
  | word =>
    show H.lift (packBe16u [some v]) c = _
    rw [pack16_any, bytesOf_one]; rfl
  | long =>
    show H.lift (packBe32u [some v]) c = _
    rw [pack32_any, bytesOf_two]; rfl

theorem m68Packer_ok {sz : M68Size} {t : Str} {off : Nat} {c : Ctx} {b : Bytes} {rels : List Reloc} (h : m68Packer t (m68Bytes sz) off c = (.ok b, rels)) :
    ∃ p v, (EaForm.imm t).slot sz c.pc off = some p ∧ H.parseIntegerOrLabel p.2.1 p.2.2 c = (.ok v, rels) ∧
      b = bytesOf ((EaForm.imm t).ext sz v) := by
  obtain ⟨v, r, r', h1, h2, rfl⟩ := H.bind_ok (show (H.parseIntegerOrLabel _ _ >>= fun v => _) c = _ from h)
  refine ⟨_, v, rfl, ?_⟩
  have := m68Packer_of (c := c) (t := t) (off := off) (sz := sz) (pc := c.pc) rfl h1
  rw [this] at h
  obtain ⟨h3, h4⟩ := Prod.mk.inj h
  cases h3
  exact ⟨by rw [← h4]; exact h1, rfl⟩

namespace EaForm

/-- Running a form with a number whose reading succeeds. -/
theorem run_of {f : EaForm} (hv : f.Valid) {sz : M68Size} {size off i : Nat} {c : Ctx} (hs : f.mode = .imm → size = m68Bytes sz) {p : M68Slot}
    (hp : f.slot sz c.pc off = some p) {v : Int} {rels : List Reloc} (h : H.parseIntegerOrLabel p.2.1 p.2.2 c = (.ok v, rels)) :
    f.run size off i c = (.ok ⟨i, f.modeNo, f.regNo, bytesOf (f.ext sz v)⟩, rels) := by
  have hb : ∀ r : Reloc, ∀ b, r.bitsSize = 8 → H.parseIntegerOrLabel r b c = (.ok v, rels) → -128 ≤ v ∧ v < 256 := by
    intro r b hr h
    obtain ⟨x, -, -, h3, h4⟩ := operand_bounds (by omega) h
    rw [hr] at h3 h4
    exact ⟨h3, h4⟩
  cases f <;> simp only [slot, Option.some.injEq, reduceCtorEq] at hp <;> subst hp
  · exact lift_bind h pack_word
  · exact lift_bind h (pack_index hv.2 (hb _ _ rfl h).1 (hb _ _ rfl h).2)
  · simp only [run]
    rw [H.bind_run (show H.read c = (.ok c, []) from rfl)]
    exact lift_bind h pack_word
  · simp only [run]
    rw [H.bind_run (show H.read c = (.ok c, []) from rfl)]
    exact lift_bind h (pack_index hv (hb _ _ rfl h).1 (hb _ _ rfl h).2)
  · exact lift_bind h pack_word
  · exact lift_bind h pack_long
  · unfold run
    rw [hs rfl]
    exact lift_bind (m68Packer_of (pc := c.pc) rfl h) rfl

/-- Running a form without a number. -/
theorem run_none {f : EaForm} {sz : M68Size} {size off i : Nat} {c : Ctx} (hp : f.slot sz c.pc off = none) (v : Int) :
    f.run size off i c = (.ok ⟨i, f.modeNo, f.regNo, bytesOf (f.ext sz v)⟩, []) := by
  cases f <;> simp only [slot, reduceCtorEq] at hp <;> rfl

theorem run_ok {f : EaForm} (hv : f.Valid) {sz : M68Size} {size off i : Nat} {c : Ctx} (hs : f.mode = .imm → size = m68Bytes sz) {o : M68Operand}
    {rels : List Reloc} (h : f.run size off i c = (.ok o, rels)) :
    ∃ v, o = ⟨i, f.modeNo, f.regNo, bytesOf (f.ext sz v)⟩ ∧
      ((f.slot sz c.pc off = none ∧ rels = []) ∨ ∃ p, f.slot sz c.pc off = some p ∧ H.parseIntegerOrLabel p.2.1 p.2.2 c = (.ok v, rels)) := by
  cases hp : f.slot sz c.pc off with
  | none =>
    rw [run_none hp 0] at h
    cases h
    exact ⟨0, rfl, .inl ⟨rfl, rfl⟩⟩
  | some p =>
    have : ∃ v r, H.parseIntegerOrLabel p.2.1 p.2.2 c = (.ok v, r) := by
      cases f <;> simp only [slot, Option.some.injEq, reduceCtorEq] at hp <;> subst hp
      · obtain ⟨v, r, r', h1, h2, rfl⟩ := H.bind_ok (show (H.parseIntegerOrLabel _ _ >>= fun v => _) c = _ from h)
        exact ⟨v, _, h1⟩
      · obtain ⟨v, r, r', h1, h2, rfl⟩ := H.bind_ok (show (H.parseIntegerOrLabel _ _ >>= fun v => _) c = _ from h)
        exact ⟨v, _, h1⟩
      · obtain ⟨v, r, r', h1, h2, rfl⟩ := H.bind_ok (show (H.read >>= fun v => _) c = _ from h)
        cases h1
        obtain ⟨v, r, r', h1, h2, rfl⟩ := H.bind_ok (show (H.parseIntegerOrLabel _ _ >>= fun v => _) c = _ from h2)
        exact ⟨v, _, h1⟩
      · obtain ⟨v, r, r', h1, h2, rfl⟩ := H.bind_ok (show (H.read >>= fun v => _) c = _ from h)
        cases h1
        obtain ⟨v, r, r', h1, h2, rfl⟩ := H.bind_ok (show (H.parseIntegerOrLabel _ _ >>= fun v => _) c = _ from h2)
        exact ⟨v, _, h1⟩
      · obtain ⟨v, r, r', h1, h2, rfl⟩ := H.bind_ok (show (H.parseIntegerOrLabel _ _ >>= fun v => _) c = _ from h)
        exact ⟨v, _, h1⟩
      · obtain ⟨v, r, r', h1, h2, rfl⟩ := H.bind_ok (show (H.parseIntegerOrLabel _ _ >>= fun v => _) c = _ from h)
        exact ⟨v, _, h1⟩
      · rw [hs rfl] at h
        obtain ⟨v, r, r', h1, h2, rfl⟩ := H.bind_ok (show (m68Packer _ _ _ >>= fun v => _) c = _ from h)
        obtain ⟨p, v, hp, h1, rfl⟩ := m68Packer_ok h1
        cases hp
        exact ⟨v, _, h1⟩
    obtain ⟨v, r, h1⟩ := this
    rw [run_of hv hs hp h1] at h
    cases h
    exact ⟨v, rfl, .inr ⟨p, rfl, h1⟩⟩

end EaForm

end Necro
