import Verif.Model.Asm
import Verif.Spec.Utils
/-!
# The words of a token
-/

namespace Necro.Spec

/-- The maximal runs of letters, digits, underscores and points; `acc` is the run being read. -/
def wordsFrom (acc : Str) : Str → List Str
  | [] => if acc = [] then [] else [acc]
  | c :: cs => if isNameChar c then wordsFrom (acc ++ [c]) cs else if acc = [] then wordsFrom [] cs else acc :: wordsFrom [] cs

def words (token : Str) : List Str := wordsFrom [] token

example : words "count+(2*count2)".toList = ["count".toList, "2".toList, "count2".toList] := by decide

/-- A name that can be defined: a word. -/
def IsWord (n : Str) : Prop := n ≠ [] ∧ isValidName n = true

/-- No statement of a source has the word in it. -/
def Free (n : Str) (stmts : List Stmt) : Prop := ∀ st ∈ stmts, ∀ t ∈ st.tokens, n ∉ words t

end Necro.Spec
