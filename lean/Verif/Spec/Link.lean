import Verif.Spec.Expr
import Verif.Spec.Bits
import Verif.Spec.Utils
import Verif.Model.State
/-!
# What linking must do

A reference table is a list of entries `(a, r)`: the reference `r` was recorded for the
bytes starting at output position `a`.
-/

namespace Necro.Spec

/-- Position `j` of the output belongs to the field of the reference. -/
def Covers (e : Nat × Reloc) (j : Nat) : Prop := e.1 ≤ j ∧ j < e.1 + e.2.size

/-- Two references share no byte. -/
def Apart (e f : Nat × Reloc) : Prop := ∀ j, ¬ (Covers e j ∧ Covers f j)

/-- The `size` bytes of the output from position `a`. -/
def window (bs : Bytes) (a size : Nat) : Bytes := (bs.drop a).take size

/-- `sub` is `full` with some bits cleared. -/
def SubBits (sub full : Byte) : Prop := ∀ i, sub.getLsbD i = true → full.getLsbD i = true

/-- The range of values accepted for a reference declared `n` bits wide: two's complement
for a relative one, non-negative for an absolute one. -/
def RefRange (r : Reloc) (v : Int) : Prop :=
  if r.relative ≠ 0 then -(2 ^ (r.bitsSize - 1)) ≤ v ∧ v < 2 ^ (r.bitsSize - 1)
  else v < 2 ^ r.bitsSize

/-- The number to encode after the cpu's own conversion. -/
def converted (r : Reloc) (v : Int) : Int :=
  match r.filter with
  | some f => f v
  | none => v

/-- `v` is the pattern to store for the value `t` of the label expression: `t` itself, or,
for a bit field `(hi, lo)`, `t` moved to bits `lo … hi` and cut there. -/
def Pattern (r : Reloc) (t v : Int) : Prop :=
  match r.bits with
  | none => v = converted r t
  | some (hi, lo) => ∀ i, bit v i = (decide (lo ≤ i ∧ i ≤ hi) && bit (converted r t) (i - lo))

/-- What can be wrong with a reference, given the value `val start` of its label expression
relative to `start` and the length of the output. -/
inductive Fault (val : Str → Int → Except Err (Option Int)) (len : Nat) : Nat × Reloc → Err → Prop
  /-- the formula cannot be evaluated -/
  | expr {a r x} : val r.label 0 = .error x ∨ val r.label r.relative = .error x → Fault val len (a, r) x
  /-- the label is not defined -/
  | unknown {a r} : val r.label r.relative = .ok none → Fault val len (a, r) (.unknownLabel r.label)
  /-- the address is not a multiple of the declared alignment -/
  | misaligned {a r addr} : val r.label 0 = .ok (some addr) → addr % (r.alignment : Int) ≠ 0 →
      Fault val len (a, r) (.alignmentError r.label)
  /-- a negative absolute address -/
  | negative {a r addr} : val r.label 0 = .ok (some addr) → r.relative = 0 → addr < 0 →
      Fault val len (a, r) (.onlyForwardAddressesAllowed r.label)
  /-- the value does not fit the declared width -/
  | tooWide {a r v} : val r.label r.relative = .ok (some v) → ¬ RefRange r v → Fault val len (a, r) .notInBitRange
  /-- the converted value cannot be put in the declared bit field -/
  | noField {a r v hi lo} : val r.label r.relative = .ok (some v) → r.bits = some (hi, lo) →
      ¬ FieldOk ⟨hi, lo, converted r v⟩ → Fault val len (a, r) .invalidBitRange
  /-- the field lies outside the output -/
  | outside {a r} : 0 < r.size → len < a + r.size → Fault val len (a, r) .indexError

/-- The declarations every cpu uses: a positive width and alignment, and no ascii hook. -/
structure Ordinary (r : Reloc) : Prop where
  width : 1 ≤ r.bitsSize
  alignment : r.alignment ≠ 0
  hook : r.hook = none

end Necro.Spec
