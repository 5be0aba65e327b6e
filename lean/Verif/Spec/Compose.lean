import Verif.Model.State
import Verif.Spec.Source
/-!
# States that differ only in what a user cannot observe
-/

namespace Necro.Spec

/-- The macro tables agree up to the line numbers remembered with the body statements. -/
def SameMacros (a b : List (Str × Macro)) : Prop :=
  a.map (fun p => (p.1, p.2.args, p.2.body.map content)) = b.map (fun p => (p.1, p.2.args, p.2.body.map content))

/-- The section tables list the same names in the same order with the same data. -/
def SameSections (a b : List (Str × Section)) : Prop :=
  a.map Prod.fst = b.map Prod.fst ∧ ∀ k, dget a k = dget b k

/-- Everything else the assembler remembers agrees. -/
structure SameRest (s t : St) : Prop where
  bytes : t.bytes = s.bytes
  labels : t.labels = s.labels
  org : t.org = s.org
  orgEnd : t.orgEnd = s.orgEnd
  counter : t.counter = s.counter
  relocs : t.relocs = s.relocs
  recording : t.recording = s.recording
  rep : t.rep = s.rep
  log : t.log = s.log
  curSection : t.curSection = s.curSection
  exports : t.exports = s.exports
  defines : t.defines = s.defines
  cartridgeSet : t.cartridgeSet = s.cartridgeSet
  bitsMode : t.bitsMode = s.bitsMode

/-- The states agree up to the line numbers in macro bodies. -/
structure SameState (s t : St) : Prop extends SameRest s t where
  macros : SameMacros s.macros t.macros
  sections : SameSections s.sections t.sections

/-- The file named by an argument: the text between quotes, or the argument itself. -/
def fileName (arg : Str) : Str := if arg.head? = some '"' ∨ arg.head? = some '\'' then (arg.drop 1).dropLast else arg

end Necro.Spec
