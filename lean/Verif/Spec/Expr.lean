import Verif.Model.Numbers
/-!
# Numerals and expressions as their author reads them
-/

namespace Necro.Spec

/-- The numeral of `v` in base `b`, lower case, without leading zeros. -/
def numeral (b v : Nat) : Str := Nat.toDigits b v

/-- `c` is the digit `d` of base `b`, in either case. -/
def IsDigit (b d : Nat) (c : Char) : Prop := d < b ∧ (c = d.digitChar ∨ c = d.digitChar.toUpper)

/-- The string of digits `s` denotes `v` in base `b` (leading zeros and both letter cases allowed). -/
inductive Reads (b : Nat) : Str → Nat → Prop
  | one {c d} : IsDigit b d c → Reads b [c] d
  | snoc {s v c d} : Reads b s v → IsDigit b d c → Reads b (s ++ [c]) (v * b + d)

/-- An operator of a formula. -/
inductive Op where
  | add | sub | mul | div | and | or
deriving DecidableEq, Repr

def Op.char : Op → Char
  | .add => '+' | .sub => '-' | .mul => '*' | .div => '/' | .and => '&' | .or => '|'

/-- `x op y` on integers: floor division, and bitwise operations on two's complement
(`Necro.C16_and_bits` and `Necro.C16_or_bits` characterise the latter). -/
def Op.eval : Op → Int → Int → Except Err Int
  | .add, x, y => .ok (x + y)
  | .sub, x, y => .ok (x - y)
  | .mul, x, y => .ok (x * y)
  | .div, x, y => if y = 0 then .error .zeroDivisionError else .ok (Int.fdiv x y)
  | .and, x, y => .ok (pyAnd x y)
  | .or, x, y => .ok (pyOr x y)

/-- Write the operator part of a formula. -/
def writeOps (ops : List (Op × Str)) : Str := ops.flatMap fun o => o.1.char :: o.2

/-- Evaluate from left to right, no precedence. -/
def evalOps (operand : Str → Except Err Int) (v : Int) : List (Op × Str) → Except Err Int
  | [] => .ok v
  | (o, a) :: ops =>
    match operand a with
    | .error e => .error e
    | .ok x =>
      match o.eval v x with
      | .error e => .error e
      | .ok v' => evalOps operand v' ops

/-- Characters that mean something in a formula. -/
def formulaChar (c : Char) : Bool := "+-*/&|<>".toList.contains c

/-- All the prefixes of a number syntax, in the order they are tried. -/
def allPrefixes (sy : NumSyntax) : List Str :=
  sy.hexPrefixes ++ sy.binPrefixes ++ sy.octPrefixes ++ sy.decPrefixes

def allSuffixes (sy : NumSyntax) : List Str :=
  sy.hexSuffixes ++ sy.binSuffixes ++ sy.octSuffixes ++ sy.decSuffixes

/-- A number syntax whose prefixes cannot be confused with one another or with formulas. -/
def Unambiguous (sy : NumSyntax) : Prop :=
  (allPrefixes sy).Pairwise (fun p q => ¬ p <+: q ∧ ¬ q <+: p) ∧
  ∀ p ∈ allPrefixes sy, p ≠ [] ∧ p.head? ≠ some '\'' ∧ ∀ c ∈ p, formulaChar c = false

/-- No suffix of the syntax ends another one, and none contains formula characters. -/
def SuffixFree (sy : NumSyntax) : Prop :=
  (allSuffixes sy).Pairwise (fun p q => ¬ p <:+ q ∧ ¬ q <:+ p) ∧
  ∀ p ∈ allSuffixes sy, p ≠ [] ∧ ∀ c ∈ p, formulaChar c = false

/-- A number syntax in which a string of decimal digits is no prefixed or suffixed form. -/
def PlainDecimal (sy : NumSyntax) : Prop :=
  (∀ p ∈ allPrefixes sy, ∃ c ∈ p, c.isDigit = false ∧ c ≠ '-') ∧
  ∀ s ∈ allSuffixes sy, ∃ c ∈ s, c.isDigit = false ∧ c ≠ '-'

instance (sy : NumSyntax) : Decidable (Unambiguous sy) := by unfold Unambiguous; infer_instance
instance (sy : NumSyntax) : Decidable (SuffixFree sy) := by unfold SuffixFree; infer_instance
instance (sy : NumSyntax) : Decidable (PlainDecimal sy) := by unfold PlainDecimal; infer_instance

end Necro.Spec
