import Verif.Spec.Restate
import Verif.Spec.Instr
/-!
# Instructions and the bytes they stand for
-/

namespace Necro.Spec

/-- The bytes that lines stand for wherever they are, where the definitions are those of the table: data of numbers and texts, and instructions that are encoded
to the same bytes at every address and whatever the labels are, without a reference. -/
inductive GivesBytes (d : Dialect) (table : List (Str × Str)) : List (Kind × List Str) → Bytes → Prop
  | nil : GivesBytes d table [] []
  | data {p : DataLine} {l A B} (size : Nat) : p.Has d size → ItemsFor d size (p.items.map (replaced table)) A → GivesBytes d table l B →
      GivesBytes d table ((.directive, p.token :: p.items) :: l) (A ++ B)
  | instr {ts t rest l A B} : ts.map (replaced table) = t :: rest → (∀ c : Ctx, c.sy = d.sy → Emits d c t rest A []) → GivesBytes d table l B →
      GivesBytes d table ((.instr, ts) :: l) (A ++ B)

/-- The second source is the first with some lines replaced by others that stand for the same bytes. The other lines are as they were; the definitions, the newest
first, are followed through them. The source has no `.macro`, `.endmacro` and `.include` lines. -/
inductive SwappedLines (d : Dialect) : List (Str × Str) → List Stmt → List (Kind × List Str) → List (Str × Str) → Prop
  | nil (a : List (Str × Str)) : SwappedLines d a [] [] a
  | label {a b l k ts line} : SwappedLines d a l k b → SwappedLines d a (⟨.label, ts, line⟩ :: l) ((.label, ts) :: k) b
  | instr {a b l k t ts line} : SwappedLines d a l k b → SwappedLines d a (⟨.instr, t :: ts, line⟩ :: l) ((.instr, t :: ts) :: k) b
  | directive {a b l k t args line} : (∀ w ∈ ["macro", "endmacro", "include", "define"], isNamed d t w = false) → SwappedLines d a l k b →
      SwappedLines d a (⟨.directive, t :: args, line⟩ :: l) ((.directive, t :: args) :: k) b
  | define {a b l k} {t w v : Str} {line : Nat} : isNamed d t "define" = true → SwappedLines d ((replaced a w, replaced a v) :: a) l k b →
      SwappedLines d a (⟨.directive, [t, w, v], line⟩ :: l) ((.directive, [t, w, v]) :: k) b
  | swap {a b l k B} (x : List Stmt) (y : List (Kind × List Str)) : GivesBytes d a (x.map content) B → GivesBytes d a y B → SwappedLines d a l k b →
      SwappedLines d a (x ++ l) (y ++ k) b

/-- The sources of two programs, file by file. -/
inductive SwappedFiles (d : Dialect) (text : Str → Option Str) : List (Str × Str) → List Str → List Str → Prop
  | nil {a} : SwappedFiles d text a [] []
  | file {a b fs fs' f f' c c' l l'} : text f = some c → text f' = some c' → tokenize c = .ok l → tokenize c' = .ok l' → SwappedLines d a l (l'.map content) b →
      SwappedFiles d text b fs fs' → SwappedFiles d text a (f :: fs) (f' :: fs')

end Necro.Spec
