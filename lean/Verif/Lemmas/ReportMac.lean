import Verif.Model.Programs
import Verif.Lemmas.Operands
import Verif.Lemmas.Console
import Verif.Lemmas.Lookup
import Verif.Props.Invariants
/-!
# What leaves the macros alone
-/

namespace Necro

open M (throw get modify lift forEach times)


def SameMac (s s' : St) : Prop := s'.macros = s.macros

theorem macData : DataRel SameMac where
  refl := fun _ => rfl
  trans := fun h1 h2 => by unfold SameMac at *; rw [h2, h1]
  append := fun _ _ => rfl
  reloc := fun _ _ => rfl

theorem mac_closeSection : Keeps SameMac closeSection := by
  intro s
  unfold closeSection
  repeat' split
  all_goals rfl

theorem mac_changeOrg (d : Dialect) (a b : Int) : Keeps SameMac (changeOrg d a b) := by
  intro s
  unfold changeOrg
  simp only
  repeat' split
  all_goals rfl

theorem mac_section (d : Dialect) (l : List Str) : Keeps SameMac (directiveSection d l) := by
  have hd := macData
  have tail : ∀ name p : Str, Keeps SameMac (closeSection >>= fun _ => modify fun s =>
      let sec : Section := { start := s.pc, offset := s.bytes.length, permissions := p }
      { s with curSection := some name, sections := dset s.sections name sec } : M Unit) := fun name p =>
    .bind hd mac_closeSection fun _ s => rfl
  have body : ∀ n p o, Keeps SameMac (sectionBody d n p o) := by
    intro n p o
    unfold sectionBody
    refine .bind hd (.readOnly hd (stringify_state n)) fun name => .bind hd (.get hd) fun s => ?_
    split
    · exact .throw hd _
    · split
      · exact .throw hd _
      · cases o with
        | none => exact tail name p
        | some t => exact .bind hd (.readOnly hd (fun _ => parseArg_state ..)) fun v => .bind hd (mac_changeOrg d _ _) fun _ => tail name p
  unfold directiveSection
  split
  · exact body _ _ _
  · exact body _ _ _
  · exact .throw hd _


theorem mac_builtin {d : Dialect} (env : Env) (rec : Str → M Unit) :
    ∀ p ∈ builtinDirective d env rec, p.1 ≠ "macro" → p.1 ≠ "include" → ∀ l : List Str, Keeps SameMac (p.2 l) := by
  intro p hp n1 n2 l
  have hd := macData
  have hin : p ∈ dataDirectives d env ∨ p ∈ ([
    ("macro", directiveMacro d),
    ("endmacro", fun _ => directiveEndMacro),
    ("define", directiveDefine),
    ("log", directiveLog),
    ("repeat", directiveRepeat d),
    ("endrepeat", fun _ => directiveEndRepeat),
    ("export", directiveExport),
    ("org", directiveOrg d),
    ("include", directiveInclude env rec),
    ("ram", directiveRam d),
    ("section", directiveSection d)] : List (String × (List Str → M Unit))) := by
    simp only [builtinDirective, dataDirectives, List.mem_cons, List.not_mem_nil, or_false] at hp ⊢
    rcases hp with hp | hp | hp | hp | hp | hp | hp | hp | hp | hp | hp | hp | hp | hp | hp | hp | hp |
      hp | hp | hp | hp | hp | hp | hp | hp | hp | hp | hp | hp | hp <;> simp [hp]
  rcases hin with hin | hin
  · exact keeps_dataDirectives hd d env p hin l
  · simp only [List.mem_cons, List.not_mem_nil, or_false] at hin
    rcases hin with rfl | rfl | rfl | rfl | rfl | rfl | rfl | rfl | rfl | rfl | rfl
    · exact absurd rfl n1
    · exact keeps_directiveEndMacro hd fun s r => rfl
    · show Keeps SameMac (directiveDefine l)
      unfold directiveDefine
      split
      · intro s; rfl
      · exact .throw hd _
    · exact keeps_directiveLog hd (fun s r => rfl) l
    · exact keeps_directiveRepeat hd (fun s r => rfl) d l
    · exact keeps_directiveEndRepeat hd fun s r => rfl
    · exact keeps_directiveExport hd (fun s n _ => rfl) l
    · exact keeps_directiveOrg { toDataRel := hd, pad := fun s b => rfl, org := fun s a b _ _ _ => rfl } l
    · exact absurd rfl n2
    · exact keeps_directiveRam hd (fun s n _ => rfl) l
    · exact mac_section d l

/-- A directive other than `.macro` and `.include` leaves the macros alone. -/
theorem mac_execDirective {d : Dialect} (env : Env) (rec : Str → M Unit) (hc : CustomKeeps d env SameMac) {l : List Str} {s : St} {t : Str} {rest : List Str}
    (hl : substituteWithDict l s.defines 1 = t :: rest) (hm : ¬ (d.directives env (d.key (t.drop 1)) = none ∧ d.key (t.drop 1) = d.key "macro".toList))
    (hi : ¬ (d.directives env (d.key (t.drop 1)) = none ∧ d.key (t.drop 1) = d.key "include".toList)) : (execDirective d env rec l s).2.macros = s.macros := by
  unfold execDirective
  rw [bind_eq, get_eq]
  dsimp only
  rw [hl]
  dsimp only
  cases hf : lookupDirective d env rec (d.key (t.drop 1)) with
  | none => rfl
  | some f =>
    unfold lookupDirective at hf
    cases hg : d.directives env (d.key (t.drop 1)) with
    | some g =>
      rw [hg] at hf
      cases hf
      exact hc _ _ hg _ s
    | none =>
      rw [hg] at hf
      obtain ⟨p, hp, he⟩ := List.mem_map.1 (mem_of_dget hf)
      injection he with h1 h2
      subst h2
      refine mac_builtin env rec p hp (fun h => hm ⟨hg, ?_⟩) (fun h => hi ⟨hg, ?_⟩) _ s
      · rw [← h1, h]
      · rw [← h1, h]

theorem mac_writeAt (bs : Bytes) : ∀ (x : Nat), Keeps (SameMac) (writeAt x bs) := by
  induction bs with
  | nil => intro x s; rfl
  | cons b bs ih =>
    intro x
    refine Keeps.bind macData (f := fun _ => writeAt (x + 1) bs) ?_ (fun _ => ih _)
    intro s
    unfold setByte
    split <;> exact rfl

theorem mac_fill (d : Dialect) (address size : Nat) (l : List Str) : Keeps (SameMac) (cartridgeFill d address size l) := by
  have hd := macData
  refine .bind hd (.get hd) fun s => ?_
  split
  · exact .throw hd _
  split
  · exact .throw hd _
  refine .bind hd ?_ fun bs => ?_
  · intro s
    have := (parseBytes_spec d (l.drop 1) s).1
    unfold headerBytes
    split
    · next e => rw [e] at this; rw [show _ = s from this]; exact hd.refl s
    · next e => rw [this]; exact hd.refl s
  split
  · exact .throw hd _
  · exact mac_writeAt bs address

theorem mac_gameboy (base : Dialect) (env : Env) : CustomKeeps (gameboyOn base) env (SameMac) := by
  intro key f hf ts
  refine custom_class (d := base) (l := gameboyDirectives base env) (fun p hp ts => ?_) hf ts
  have hd := macData
  simp only [gameboyDirectives, List.mem_cons, List.not_mem_nil, or_false] at hp
  rcases hp with rfl | rfl | rfl | rfl | rfl | rfl | rfl | rfl
  · refine .bind hd (.get hd) fun s => ?_
    split
    · exact .throw hd _
    · exact .bind hd (mac_changeOrg base _ _) fun _ => .bind hd (.appendBytes hd _) fun _ => fun s => rfl
  · exact mac_fill base _ _ ts
  · exact mac_fill base _ _ ts
  · exact mac_fill base _ _ ts
  · exact mac_fill base _ _ ts
  · exact mac_fill base _ _ ts
  · exact mac_fill base _ _ ts
  · exact kept_tiles hd env _ _ _ ts

theorem mac_nes (env : Env) : CustomKeeps nes env (SameMac) := by
  intro key f hf ts
  refine custom_class (d := mos6502) (l := nesDirectives mos6502 env) (fun p hp ts => ?_) hf ts
  have hd := macData
  simp only [nesDirectives, List.mem_cons, List.not_mem_nil, or_false] at hp
  rcases hp with rfl | rfl | rfl | rfl
  · refine .bind hd (.get hd) fun s => ?_
    split
    · exact .throw hd _
    · exact .bind hd (.appendBytes hd _) fun _ => fun s => rfl
  · exact mac_fill mos6502 _ _ ts
  · exact mac_fill mos6502 _ _ ts
  · exact kept_tiles hd env _ _ _ ts

theorem mac_x86 (env : Env) : CustomKeeps x86 env (SameMac) := by
  have hd := macData
  intro key f hf ts
  simp only [x86] at hf
  split at hf
  · cases hf
    unfold x86Bits
    split
    · refine .bind hd (.readOnly hd (parseIntegerM_state _ _ _ _)) fun v => ?_
      split
      · split
        · exact fun s => rfl
        · exact .throw hd _
      · exact .throw hd _
    · exact .throw hd _
  · cases hf

theorem mac_tool (tool : Tool) (env : Env) : CustomKeeps tool.dialect env (SameMac) := by
  cases tool <;> first
    | exact noCustom (fun _ => rfl) _
    | exact mac_x86 env
    | exact mac_gameboy _ env
    | exact mac_nes env
    | exact sms_custom _ env macData


end Necro
