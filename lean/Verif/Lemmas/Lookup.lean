import Verif.Lemmas.Keeps

namespace Necro

open M (throw get modify lift forEach times)

/-- The names of the built-in directives. -/
def builtinNames : List String :=
  ["macro", "endmacro", "org", "include", "incbin", "inccsv", "inccsv_le16", "incjson", "define", "db",
   "byte", "dw", "word", "dd", "dl", "dword", "db_to_ascii", "dw_to_ascii", "db_to_asciiz", "dw_to_asciiz",
   "fill", "ram", "log", "align", "repeat", "endrepeat", "goto", "upto", "section", "export"]

theorem builtin_names (d : Dialect) (env : Env) (rec : Str → M Unit) :
    (builtinDirective d env rec).map Prod.fst = builtinNames := rfl

theorem builtin_nodup : (builtinNames.map String.toList).Nodup ∧
    (builtinNames.map fun n => upper n.toList).Nodup := by decide +kernel

theorem builtin_keys_nodup (d : Dialect) (env : Env) (rec : Str → M Unit) :
    (dkeys ((builtinDirective d env rec).map fun p => (d.key p.1.toList, p.2))).Nodup := by
  have e : dkeys ((builtinDirective d env rec).map fun p => (d.key p.1.toList, p.2)) =
      builtinNames.map fun n => d.key n.toList := by
    rw [← builtin_names d env rec]
    simp [dkeys]
  rw [e]
  unfold Dialect.key
  cases d.caseSensitive with
  | true => simpa using builtin_nodup.1
  | false => simpa using builtin_nodup.2

/-- A built-in directive that the class does not override is found under its name. -/
theorem lookup_builtin {d : Dialect} {env : Env} {rec : Str → M Unit} {p : String × (List Str → M Unit)}
    (hp : p ∈ builtinDirective d env rec) (hc : d.directives env (d.key p.1.toList) = none) :
    lookupDirective d env rec (d.key p.1.toList) = some p.2 := by
  unfold lookupDirective
  rw [hc]
  exact dget_of_mem (builtin_keys_nodup d env rec) (List.mem_map.2 ⟨p, hp, rfl⟩)

/-- The directive token `.name`, in the letter case the class accepts. -/
def IsDirectiveToken (d : Dialect) (t : Str) (name : String) : Prop :=
  d.key (t.drop 1) = d.key name.toList

theorem substitute_cons (t : Str) (l : List Str) (m : List (Str × Str)) :
    substituteWithDict (t :: l) m 1 = t :: substituteWithDict l m 0 := by
  simp [substituteWithDict]

/-- Executing a built-in directive: the arguments are substituted, the rest is the method. -/
theorem exec_builtin {d : Dialect} {env : Env} {rec : Str → M Unit} {p : String × (List Str → M Unit)}
    (hp : p ∈ builtinDirective d env rec) (hc : d.directives env (d.key p.1.toList) = none)
    {t : Str} (ht : IsDirectiveToken d t p.1) (args : List Str) (s : St) :
    execDirective d env rec (t :: args) s = p.2 (t :: substituteWithDict args s.defines 0) s := by
  unfold execDirective
  rw [bind_eq, get_eq]
  simp only [substitute_cons]
  rw [show d.key (t.drop 1) = d.key p.1.toList from ht, lookup_builtin hp hc]

end Necro
