import Verif.Lemmas.Handler
import Verif.Props.Numbers
/-!
# Operands that are numbers or labels, and case folding of register names
-/

namespace Necro
open Spec

/-- The operand `tok` stands for the number `x`: its own value, or 0 for a name, which leaves a
reference for the linker. -/
def OperandValue (c : Ctx) (rels : List Reloc) (tok : Str) (x : Int) : Prop :=
  (rels = [] ∧ ∃ dec, TokenValue c.sy c.labels tok x dec) ∨
  (∃ r, rels = [r] ∧ r.label = tok ∧ x = 0 ∧ ∀ y dec, ¬ TokenValue c.sy c.labels tok y dec)

theorem parseInteger_none {sy : NumSyntax} {ls : Labels} {tok : Str} {n : Nat} {signed : Bool}
    (h : parseInteger sy ls tok n signed = .ok none) (y : Int) (dec : Bool) : ¬ TokenValue sy ls tok y dec := by
  rintro ⟨lit, hlit, -⟩
  unfold parseInteger parseIntegerW at h
  simp only [hlit] at h
  split at h
  · simp at h
  · split at h <;> simp at h

theorem number_value {c : Ctx} {tok : Str} {n : Nat} {signed : Bool} {v : Int} (hn : 1 ≤ n)
    (h : parseInteger c.sy c.labels tok n signed = .ok (some v)) :
    ∃ x, OperandValue c [] tok x ∧ (v = x ∨ v = x + 2 ^ n) := by
  obtain ⟨x, dec, hx, hr⟩ := (C13_parse_iff _ _ _ _ _ _ hn).1 h
  refine ⟨x, .inl ⟨rfl, dec, hx⟩, ?_⟩
  rcases hr with ⟨_, _, _, h⟩ | ⟨_, _, _, _, h⟩ | ⟨_, _, _, _, h⟩ | ⟨_, _, _, _, h⟩
  · exact .inl h
  · exact .inl h
  · exact .inr h
  · exact .inl h

theorem operand_value {r : Reloc} {signed : Bool} {c : Ctx} {v : Int} {rels : List Reloc} (hn : 1 ≤ r.bitsSize)
    (h : H.parseIntegerOrLabel r signed c = (.ok v, rels)) :
    ∃ x, OperandValue c rels r.label x ∧ (v = x ∨ v = x + 2 ^ r.bitsSize) := by
  rcases H.parseIntegerOrLabel_ok h with ⟨hp, rfl⟩ | ⟨hp, rfl, rfl⟩
  · exact number_value hn hp
  · exact ⟨0, .inr ⟨r, rfl, rfl, rfl, parseInteger_none hp⟩, .inl rfl⟩

theorem parseIntegerOrLabel_number {r : Reloc} {signed : Bool} {c : Ctx} {v : Int}
    (h : parseInteger c.sy c.labels r.label r.bitsSize (signed || r.relative != 0) = .ok (some v)) :
    H.parseIntegerOrLabel r signed c = (.ok v, []) := by
  unfold H.parseIntegerOrLabel
  rw [h]

theorem parseIntegerOrLabel_label {r : Reloc} {signed : Bool} {c : Ctx}
    (h : parseInteger c.sy c.labels r.label r.bitsSize (signed || r.relative != 0) = .ok none) :
    H.parseIntegerOrLabel r signed c = (.ok 0, [r]) := by
  unfold H.parseIntegerOrLabel
  rw [h]

/-! ## case folding -/

theorem toLower_toUpper (c : Char) : c.toUpper.toLower = c.toLower := by
  have hA : ('A'.val - 'a'.val).toNat = 2^32 - 32 := by decide
  have ha : ('a'.val - 'A'.val).toNat = 32 := by decide
  unfold Char.toUpper
  split
  · next hc =>
    have h1 : 97 ≤ c.val.toNat := hc.1
    have h2 : c.val.toNat ≤ 122 := hc.2
    have hv : (c.val + ('A'.val - 'a'.val)).toNat = c.val.toNat - 32 := by
      rw [UInt32.toNat_add, hA]; omega
    unfold Char.toLower
    have hno : ¬ (c.val ≥ 'A'.val ∧ c.val ≤ 'Z'.val) := by
      intro h
      have h3 : c.val.toNat ≤ 90 := h.2
      omega
    have hyes : c.val + ('A'.val - 'a'.val) ≥ 'A'.val ∧ c.val + ('A'.val - 'a'.val) ≤ 'Z'.val := by
      constructor
      · show (65 : Nat) ≤ (c.val + ('A'.val - 'a'.val)).toNat; omega
      · show (c.val + ('A'.val - 'a'.val)).toNat ≤ (90 : Nat); omega
    rw [dif_pos hyes, dif_neg hno]
    apply Char.ext
    apply UInt32.toNat_inj.1
    show ((c.val + ('A'.val - 'a'.val)) + ('a'.val - 'A'.val)).toNat = c.val.toNat
    rw [UInt32.toNat_add, hv, ha]; omega
  · rfl

theorem toUpper_toLower (c : Char) : c.toLower.toUpper = c.toUpper := by
  have hA : ('A'.val - 'a'.val).toNat = 2^32 - 32 := by decide
  have ha : ('a'.val - 'A'.val).toNat = 32 := by decide
  unfold Char.toLower
  split
  · next hc =>
    have h1 : 65 ≤ c.val.toNat := hc.1
    have h2 : c.val.toNat ≤ 90 := hc.2
    have hv : (c.val + ('a'.val - 'A'.val)).toNat = c.val.toNat + 32 := by
      rw [UInt32.toNat_add, ha]; omega
    unfold Char.toUpper
    have hno : ¬ ('a'.val ≤ c.val ∧ c.val ≤ 'z'.val) := by
      intro h
      have h3 : 97 ≤ c.val.toNat := h.1
      omega
    have hyes : 'a'.val ≤ c.val + ('a'.val - 'A'.val) ∧ c.val + ('a'.val - 'A'.val) ≤ 'z'.val := by
      constructor
      · show (97 : Nat) ≤ (c.val + ('a'.val - 'A'.val)).toNat; omega
      · show (c.val + ('a'.val - 'A'.val)).toNat ≤ (122 : Nat); omega
    rw [dif_pos hyes, dif_neg hno]
    apply Char.ext
    apply UInt32.toNat_inj.1
    show ((c.val + ('a'.val - 'A'.val)) + ('A'.val - 'a'.val)).toNat = c.val.toNat
    rw [UInt32.toNat_add, hv, hA]; omega
  · rfl

end Necro
