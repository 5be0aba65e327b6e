import Verif.Lemmas.Z80Table
/-!
# The variant of the Z80 table that assembles each instruction
-/

namespace Necro
open Spec

/-- The numbers of the arguments with a plain value, of the registers, and of the words that begin with a digit. -/
def z80ValueNs : List Nat := [1, 6, 11]
def z80RegNs : List Nat := [4, 5, 10, 13, 14, 67, 16, 18, 64, 66, 33, 34, 74, 75, 7, 0, 12, 9, 20, 32, 73]
def z80DigitNs : List Nat := [21, 22, 23, 24, 25, 26, 27, 28, 29, 30, 31, 60, 62, 65, 69, 71, 77]

/-- Does the argument `a` of a variant match a token written for the argument `k`?  `none`: it depends on the token. -/
def z80Tri (a k : Nat) : Option Bool :=
  if z80ValueNs.elem k then
    if z80ValueNs.elem a then some true else if a == 35 || a == 76 || z80DigitNs.elem a then none else some false
  else if k == 35 || k == 76 then
    if z80ValueNs.elem a || a == k then some true else some false
  else if z80ValueNs.elem a then some (!z80RegNs.elem k)
  else if a == 35 || a == 76 then some false
  else some (a == k)

def z80TriAll : List Nat → List Nat → Option Bool
  | [], [] => some true
  | a :: as, k :: ks =>
    match z80Tri a k with
    | some false => some false
    | some true => z80TriAll as ks
    | none => match z80TriAll as ks with
      | some false => some false
      | _ => none
  | _, _ => some false

/-- The codes of the first variant that matches. -/
def z80Find (keys : List Nat) : List (List Nat × List Nat) → Option (List Nat)
  | [] => none
  | v :: vs =>
    match z80TriAll v.2 keys with
    | some true => some v.1
    | some false => z80Find keys vs
    | none => none

def z80OpOk (o : Option (Nat × List Nat × List Nat)) : Bool :=
  match o with
  | none => true
  | some (n, keys, codes) => codes.isEmpty || z80Find keys (z80Enc.getD n []) == some codes

theorem ops_found : ∀ o ∈ z80Ops_none ++ z80Ops_cb ++ z80Ops_ed ++ z80Ops_dd ++ z80Ops_fd ++ z80Ops_ddcb ++ z80Ops_fdcb, z80OpOk o = true := by
  decide +kernel

theorem enc_variants : ∀ n < 68, z80Variants (z80Names.getD n "").toList = (z80Enc.getD n []).map fun v => (v.1, v.2.map z80Word) := by
  decide +kernel

end Necro
