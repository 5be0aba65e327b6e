import Verif.Model.Asm
/-!
# What an instruction statement assembles to
-/

namespace Necro.Spec

/-- With program counter, labels and mode as in `c`, the instruction with mnemonic `t` and
operand tokens `rest` assembles to `blob` and leaves the references `rels` for the linker. -/
inductive Emits (d : Dialect) (c : Ctx) (t : Str) (rest : List Str) : Bytes → List Reloc → Prop
  | fixed {blob : Bytes} : d.instrs (d.key t) = some (.fixed blob) → rest = [] → Emits d c t rest blob []
  | handler {f : List Str → H (Option Bytes)} {blob : Bytes} {rels : List Reloc} :
      d.instrs (d.key t) = some (.handler f) → f (t :: rest) c = (.ok (some blob), rels) → Emits d c t rest blob rels

/-- The context an instruction sees. -/
def ctxOf (d : Dialect) (s : St) : Ctx := ⟨s.pc, s.labels, d.sy, s.bitsMode⟩

end Necro.Spec
