import Verif.Spec.Instr
import Verif.Spec.Link
import Verif.Model.Link
/-!
# An instruction in the middle of a program
-/

namespace Necro.Spec

/-- What later assembling keeps: emitted bytes, and the references below them. -/
structure Later (s s' : St) : Prop where
  bytes : s.bytes <+: s'.bytes
  refs : ∀ i < s.bytes.length, s'.relocs.lookup i = s.relocs.lookup i
  labels : s.labels <+: s'.labels
  nodup : (s.relocs.map Prod.fst).Nodup → (s'.relocs.map Prod.fst).Nodup

/-- What matters to the bytes from position `a` on: they and the references to them are kept. -/
structure Kept (a : Nat) (s s' : St) : Prop where
  length : s.bytes.length ≤ s'.bytes.length
  bytes : ∀ i, a ≤ i → i < s.bytes.length → s'.bytes[i]? = s.bytes[i]?
  refs : ∀ i, a ≤ i → i < s.bytes.length → s'.relocs.lookup i = s.relocs.lookup i
  labels : s.labels <+: s'.labels
  nodup : (s.relocs.map Prod.fst).Nodup → (s'.relocs.map Prod.fst).Nodup

/-- In state `s` the program contained the instruction `t rest`; assembling went on to `s'` and kept it. -/
inductive InProgram (d : Dialect) (s : St) (t : Str) (rest : List Str) (s' : St) : Prop
  | mk {depth ln : Nat} {tokens : List Str} {s1 : St} : s.recording = none → substituteWithDict tokens s.defines 0 = t :: rest →
      s.macros.lookup (d.key t) = none → execInstr d (depth + 1) none ⟨.instr, tokens, ln⟩ s = (.ok (), s1) →
      Kept s.bytes.length s1 s' →
      InProgram d s t rest s'

/-- The finished program `s` links to `s'`, and the reference `r` at position `a` shares no byte with
another one. -/
structure LinksAlone (d : Dialect) (s s' : St) (a : Nat) (r : Reloc) : Prop where
  ok : link d .dummy s = (.ok (), s')
  ordinary : ∀ e ∈ s.relocs, Ordinary e.2
  nodup : (s.relocs.map Prod.fst).Nodup
  apart : ∀ f ∈ s.relocs, f.1 ≠ a → Apart (a, r) f

/-- The finished program `s` links to `s'`, and the only reference to touch the `n` bytes from position `a` is
the one at position `p`. -/
structure LinksClear (d : Dialect) (s s' : St) (a n p : Nat) : Prop where
  ok : link d .dummy s = (.ok (), s')
  ordinary : ∀ e ∈ s.relocs, Ordinary e.2
  nodup : (s.relocs.map Prod.fst).Nodup
  clear : ∀ f ∈ s.relocs, f.1 ≠ p → ∀ j, a ≤ j → j < a + n → ¬ Covers f j

/-- The finished program `s` links to `s'`, and the only references to touch the `n` bytes from position `a` are
`rels`, those of the instruction there. -/
structure LinksOwn (d : Dialect) (s s' : St) (a n : Nat) (rels : List Reloc) : Prop where
  ok : link d .dummy s = (.ok (), s')
  ordinary : ∀ e ∈ s.relocs, Ordinary e.2
  nodup : (s.relocs.map Prod.fst).Nodup
  own : ∀ f ∈ s.relocs, ∀ j, a ≤ j → j < a + n → Covers f j → ∃ r ∈ rels, f = (a + r.offset, r)

end Necro.Spec
