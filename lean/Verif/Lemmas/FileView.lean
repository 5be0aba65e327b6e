import Verif.Lemmas.Fuel
import Verif.Spec.Files
import Verif.Model.Programs
/-!
# More files do not change a successful run
-/

namespace Necro
open M (throw get modify lift forEach times)
open Spec

theorem le_open {x y : Option α} (h : ∀ a, x = some a → y = some a) : Le (openFile x) (openFile y) := by
  cases x with
  | none => exact le_throw _ _
  | some a => rw [h a rfl]; exact .refl _

theorem le_lift {x y : Except Err α} (h : ∀ a, x = .ok a → y = .ok a) : Le (lift x) (lift y) := by
  cases x with
  | error e => exact le_throw _ _
  | ok a => rw [h a rfl]; exact .refl _

/-- Two directive tables with the same names, the second one succeeding whenever the first one does. -/
inductive TableLe : List (String × (List Str → M Unit)) → List (String × (List Str → M Unit)) → Prop
  | nil : TableLe [] []
  | cons {n f f' l l'} (h : ∀ ts, Le (f ts) (f' ts)) (t : TableLe l l') : TableLe ((n, f) :: l) ((n, f') :: l')

/-- The same for one directive that may be missing. -/
def FoundLe (x y : Option (List Str → M Unit)) : Prop :=
  (x = none ∧ y = none) ∨ ∃ f f', x = some f ∧ y = some f' ∧ ∀ ts, Le (f ts) (f' ts)

theorem TableLe.found {l l' : List (String × (List Str → M Unit))} (h : TableLe l l') (g : String → Str) (key : Str) :
    FoundLe (dget (l.map fun p => (g p.1, p.2)) key) (dget (l'.map fun p => (g p.1, p.2)) key) := by
  induction h with
  | nil => exact .inl ⟨rfl, rfl⟩
  | @cons n f f' l l' hf _ ih =>
    simp only [List.map_cons, dget]
    split
    · exact .inr ⟨f, f', rfl, rfl, hf⟩
    · exact ih

theorem le_builtin (d : Dialect) {env env' : Env} (he : FewerFiles env env') {rec rec' : Str → M Unit} (hr : ∀ c, Le (rec c) (rec' c)) :
    TableLe (builtinDirective d env rec) (builtinDirective d env' rec') := by
  unfold builtinDirective
  refine .cons (fun _ => .refl _) (.cons (fun _ => .refl _) (.cons (fun _ => .refl _) (.cons (fun ts => ?_) (.cons (fun ts => ?_)
    (.cons (fun ts => ?_) (.cons (fun ts => ?_) (.cons (fun ts => ?_) ?_)))))))
  · exact le_bind (.refl _) fun _ => le_bind (.refl _) fun _ => le_bind (le_open (he.text _)) fun _ => hr _
  · exact le_bind (.refl _) fun _ => le_bind (.refl _) fun _ => le_bind (le_open (he.binary _)) fun _ => .refl _
  · exact le_bind (.refl _) fun _ => le_bind (.refl _) fun _ => le_bind (le_open (he.csv _)) fun _ => .refl _
  · exact le_bind (.refl _) fun _ => le_bind (.refl _) fun _ => le_bind (le_open (he.csv _)) fun _ => .refl _
  · unfold directiveIncjson
    split
    · exact le_bind (.refl _) fun _ => le_bind (.refl _) fun _ => le_bind (le_lift (he.json _ _)) fun _ => .refl _
    · exact .refl _
  · repeat first | exact .nil | refine .cons (fun _ => .refl _) ?_

/-- The directives a class adds, with more files. -/
def CustomLe (d : Dialect) (env env' : Env) : Prop := ∀ key, FoundLe (d.directives env key) (d.directives env' key)

theorem le_lookup {d : Dialect} {env env' : Env} (he : FewerFiles env env') (hc : CustomLe d env env') {rec rec' : Str → M Unit}
    (hr : ∀ c, Le (rec c) (rec' c)) (key : Str) : FoundLe (lookupDirective d env rec key) (lookupDirective d env' rec' key) := by
  unfold lookupDirective
  rcases hc key with ⟨h1, h2⟩ | ⟨f, f', h1, h2, hf⟩
  · rw [h1, h2]
    exact (le_builtin d he hr).found (fun n => d.key n.toList) key
  · rw [h1, h2]
    exact .inr ⟨f, f', rfl, rfl, hf⟩

theorem files_directive {d : Dialect} {env env' : Env} (he : FewerFiles env env') (hc : CustomLe d env env') {rec rec' : Str → M Unit}
    (hr : ∀ c, Le (rec c) (rec' c)) (l : List Str) : Le (execDirective d env rec l) (execDirective d env' rec' l) := by
  refine le_bind (.refl _) fun s => ?_
  simp only
  split
  · exact .refl _
  · rename_i t _ _
    rcases le_lookup he hc hr (d.key (t.drop 1)) with ⟨h1, h2⟩ | ⟨f, f', h1, h2, hf⟩
    · rw [h1, h2]; exact .refl _
    · rw [h1, h2]; exact hf _

theorem files_assemble {d : Dialect} {env env' : Env} (he : FewerFiles env env') (hc : CustomLe d env env') :
    ∀ n code, Le (assemble d env n code) (assemble d env' n code) := by
  intro n
  induction n with
  | zero => intro code; rw [assemble]; exact le_throw _ _
  | succ n ih =>
    intro code
    rw [assemble, assemble]
    refine le_bind (.refl _) fun l => le_bind (le_forEach _ fun st => ?_) fun _ => .refl _
    unfold execStmt
    split
    · exact .refl _
    · exact files_directive he hc ih _
    · exact .refl _

theorem files_sources {d : Dialect} {env env' : Env} (he : FewerFiles env env') (hc : CustomLe d env env') (n : Nat) (k : LinkerKind)
    (sources : List Str) : Le (do
      forEach sources fun name => do
        let code ← openFile (env.text name)
        assemble d env n code
      link d k : M Unit) (do
      forEach sources fun name => do
        let code ← openFile (env'.text name)
        assemble d env' n code
      link d k : M Unit) :=
  le_bind (le_forEach _ fun _ => le_bind (le_open (he.text _)) fun _ => files_assemble he hc _ _) fun _ => .refl _

theorem files_tiles {env env' : Env} (he : FewerFiles env env') (a : Nat → Nat → Bool) (b : Image → Nat × Nat)
    (c : Image → Nat → Nat → Except Err Bytes) (ts : List Str) : Le (tilesDirective env a b c ts) (tilesDirective env' a b c ts) := by
  unfold tilesDirective
  split
  · exact le_bind (.refl _) fun _ => le_bind (le_open (he.image _)) fun _ => .refl _
  · exact .refl _

theorem custom_same {d : Dialect} (h : ∀ env env' key, d.directives env key = d.directives env' key) {env env' : Env} : CustomLe d env env' := by
  intro key
  rw [h env env' key]
  cases d.directives env' key with
  | none => exact .inl ⟨rfl, rfl⟩
  | some f => exact .inr ⟨f, f, rfl, rfl, fun _ => .refl _⟩

theorem custom_sms {base : Dialect} {env env' : Env} (he : FewerFiles env env') : CustomLe (smsOn base) env env' :=
  fun key => (TableLe.cons (fun ts => files_tiles he _ _ _ ts) .nil).found (fun n => base.key n.toList) key

theorem custom_nes {env env' : Env} (he : FewerFiles env env') : CustomLe nes env env' :=
  fun key => TableLe.found (l := nesDirectives mos6502 env) (l' := nesDirectives mos6502 env')
    (by unfold nesDirectives; repeat first | exact .nil | refine .cons (fun ts => by first | exact .refl _ | exact files_tiles he _ _ _ ts) ?_)
    (fun n => mos6502.key n.toList) key

theorem custom_gameboy {base : Dialect} {env env' : Env} (he : FewerFiles env env') : CustomLe (gameboyOn base) env env' :=
  fun key => TableLe.found (l := gameboyDirectives base env) (l' := gameboyDirectives base env')
    (by unfold gameboyDirectives; repeat first | exact .nil | refine .cons (fun ts => by first | exact .refl _ | exact files_tiles he _ _ _ ts) ?_)
    (fun n => base.key n.toList) key

end Necro
