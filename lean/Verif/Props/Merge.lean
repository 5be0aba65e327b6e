import Verif.Spec.Merge
import Verif.Props.CaseProgram
import Verif.Props.Depth
/-!
# C102: a program in several files and in one
-/

namespace Necro

open Spec
open M (throw get modify lift forEach times)

variable {env : Env}

/-! ## regions with an end -/

/-- No region with an end is opened. -/
def NoRegion (s s' : St) : Prop := s.orgEnd ≤ 0 → s'.orgEnd ≤ 0

theorem noRegionData : DataRel NoRegion where
  refl := fun _ h => h
  trans := fun h1 h2 h => h2 (h1 h)
  append := fun _ _ h => h
  reloc := fun _ _ h => h

theorem noRegion_closeSection : Keeps NoRegion closeSection := by
  intro s
  unfold closeSection
  repeat' split
  all_goals exact fun h => h

theorem changeOrg_end (d : Dialect) (a b : Int) (s : St) : (changeOrg d a b s).2.orgEnd = b ∨ (changeOrg d a b s).2 = s := by
  unfold changeOrg
  simp only
  repeat' split
  all_goals first | exact .inl rfl | exact .inr rfl

theorem noRegion_changeOrg (d : Dialect) (a : Int) {b : Int} (hb : b ≤ 0) : Keeps NoRegion (changeOrg d a b) := by
  intro s h
  rcases changeOrg_end d a b s with e | e
  · rw [e]; exact hb
  · rw [e]; exact h

theorem noRegion_section (d : Dialect) (l : List Str) : Keeps NoRegion (directiveSection d l) := by
  have hd := noRegionData
  have tail : ∀ name p : Str, Keeps NoRegion (closeSection >>= fun _ => modify fun s =>
      let sec : Section := { start := s.pc, offset := s.bytes.length, permissions := p }
      { s with curSection := some name, sections := dset s.sections name sec } : M Unit) := fun name p =>
    .bind hd noRegion_closeSection fun _ s h => h
  have body : ∀ n p o, Keeps NoRegion (sectionBody d n p o) := by
    intro n p o
    unfold sectionBody
    refine .bind hd (.readOnly hd (stringify_state n)) fun name => .bind hd (.get hd) fun s => ?_
    split
    · exact .throw hd _
    · split
      · exact .throw hd _
      · cases o with
        | none => exact tail name p
        | some t => exact .bind hd (.readOnly hd (fun _ => parseArg_state ..)) fun v => .bind hd (noRegion_changeOrg d _ (Int.le_refl 0)) fun _ => tail name p
  unfold directiveSection
  split
  · exact body _ _ _
  · exact body _ _ _
  · exact .throw hd _

theorem noRegion_builtin {d : Dialect} (env : Env) (rec : Str → M Unit) :
    ∀ p ∈ builtinDirective d env rec, p.1 ≠ "org" → p.1 ≠ "include" → ∀ l : List Str, Keeps NoRegion (p.2 l) := by
  intro p hp n1 n2 l
  have hd := noRegionData
  have hin : p ∈ dataDirectives d env ∨ p ∈ ([
    ("macro", directiveMacro d),
    ("endmacro", fun _ => directiveEndMacro),
    ("define", directiveDefine),
    ("log", directiveLog),
    ("repeat", directiveRepeat d),
    ("endrepeat", fun _ => directiveEndRepeat),
    ("export", directiveExport),
    ("org", directiveOrg d),
    ("include", directiveInclude env rec),
    ("ram", directiveRam d),
    ("section", directiveSection d)] : List (String × (List Str → M Unit))) := by
    simp only [builtinDirective, dataDirectives, List.mem_cons, List.not_mem_nil, or_false] at hp ⊢
    rcases hp with hp | hp | hp | hp | hp | hp | hp | hp | hp | hp | hp | hp | hp | hp | hp | hp | hp |
      hp | hp | hp | hp | hp | hp | hp | hp | hp | hp | hp | hp | hp <;> simp [hp]
  rcases hin with hin | hin
  · exact keeps_dataDirectives hd d env p hin l
  · simp only [List.mem_cons, List.not_mem_nil, or_false] at hin
    rcases hin with rfl | rfl | rfl | rfl | rfl | rfl | rfl | rfl | rfl | rfl | rfl
    · show Keeps NoRegion (directiveMacro d l)
      unfold directiveMacro
      refine .bind hd (.get hd) fun s => ?_
      split
      · exact .throw hd _
      · split
        · exact .throw hd _
        · exact fun s h => h
    · exact keeps_directiveEndMacro hd fun s r h => h
    · show Keeps NoRegion (directiveDefine l)
      unfold directiveDefine
      split
      · exact fun s h => h
      · exact .throw hd _
    · exact keeps_directiveLog hd (fun s r h => h) l
    · exact keeps_directiveRepeat hd (fun s r h => h) d l
    · exact keeps_directiveEndRepeat hd fun s r h => h
    · exact keeps_directiveExport hd (fun s n _ h => h) l
    · exact absurd rfl n1
    · exact absurd rfl n2
    · exact keeps_directiveRam hd (fun s n _ h => h) l
    · exact noRegion_section d l

theorem noRegion_writeAt (bs : Bytes) : ∀ (x : Nat), Keeps NoRegion (writeAt x bs) := by
  induction bs with
  | nil => intro x s h; exact h
  | cons b bs ih =>
    intro x
    refine Keeps.bind noRegionData (f := fun _ => writeAt (x + 1) bs) ?_ (fun _ => ih _)
    intro s
    unfold setByte
    split <;> exact fun h => h

theorem noRegion_fill (d : Dialect) (address size : Nat) (l : List Str) : Keeps NoRegion (cartridgeFill d address size l) := by
  have hd := noRegionData
  refine .bind hd (.get hd) fun s => ?_
  split
  · exact .throw hd _
  split
  · exact .throw hd _
  refine .bind hd ?_ fun bs => ?_
  · intro s
    have := (parseBytes_spec d (l.drop 1) s).1
    unfold headerBytes
    split
    · next e => rw [e] at this; rw [show _ = s from this]; exact hd.refl s
    · next e => rw [this]; exact hd.refl s
  split
  · exact .throw hd _
  · exact noRegion_writeAt bs address

theorem noRegion_gameboy (base : Dialect) (env : Env) : CustomKeeps (gameboyOn base) env NoRegion := by
  intro key f hf ts
  refine custom_class (d := base) (l := gameboyDirectives base env) (fun p hp ts => ?_) hf ts
  have hd := noRegionData
  simp only [gameboyDirectives, List.mem_cons, List.not_mem_nil, or_false] at hp
  rcases hp with rfl | rfl | rfl | rfl | rfl | rfl | rfl | rfl
  · intro s hs
    show ((get >>= fun s => _ : M Unit) s).2.orgEnd ≤ 0
    rw [bind_eq, get_eq]
    dsimp only
    split
    · exact hs
    · have hk : Keeps NoRegion (changeOrg base 0x100 s.orgEnd >>= fun _ => appendBytes gameboyHeader >>= fun _ => modify fun s => { s with cartridgeSet := true }) :=
        .bind hd (noRegion_changeOrg base _ hs) fun _ => .bind hd (.appendBytes hd _) fun _ => fun s h => h
      exact hk s hs
  · exact noRegion_fill base _ _ ts
  · exact noRegion_fill base _ _ ts
  · exact noRegion_fill base _ _ ts
  · exact noRegion_fill base _ _ ts
  · exact noRegion_fill base _ _ ts
  · exact noRegion_fill base _ _ ts
  · exact kept_tiles hd env _ _ _ ts

theorem noRegion_nes (env : Env) : CustomKeeps nes env NoRegion := by
  intro key f hf ts
  refine custom_class (d := mos6502) (l := nesDirectives mos6502 env) (fun p hp ts => ?_) hf ts
  have hd := noRegionData
  simp only [nesDirectives, List.mem_cons, List.not_mem_nil, or_false] at hp
  rcases hp with rfl | rfl | rfl | rfl
  · refine .bind hd (.get hd) fun s => ?_
    split
    · exact .throw hd _
    · exact .bind hd (.appendBytes hd _) fun _ => fun s h => h
  · exact noRegion_fill mos6502 _ _ ts
  · exact noRegion_fill mos6502 _ _ ts
  · exact kept_tiles hd env _ _ _ ts

theorem noRegion_x86 (env : Env) : CustomKeeps x86 env NoRegion := by
  have hd := noRegionData
  intro key f hf ts
  simp only [x86] at hf
  split at hf
  · cases hf
    unfold x86Bits
    split
    · refine .bind hd (.readOnly hd (parseIntegerM_state _ _ _ _)) fun v => ?_
      split
      · split
        · exact fun s h => h
        · exact .throw hd _
      · exact .throw hd _
    · exact .throw hd _
  · cases hf

theorem noRegion_tool (tool : Tool) (env : Env) : CustomKeeps tool.dialect env NoRegion := by
  cases tool <;> first
    | exact noCustom (fun _ => rfl) _
    | exact noRegion_x86 env
    | exact noRegion_gameboy _ env
    | exact noRegion_nes env
    | exact sms_custom _ env noRegionData

/-! ## what is followed -/

/-- The open section is in the table. -/
def CurIn (s : St) : Prop := ∀ n, s.curSection = some n → (dget s.sections n).isSome

theorem rel_curIn (d : Dialect) : AsmRel d (fun s s' => CurIn s → CurIn s') where
  refl := fun _ h => h
  trans := fun h1 h2 h => h2 (h1 h)
  append := fun _ _ h => h
  reloc := fun _ _ h => h
  macros := fun _ _ h => h
  recording := fun _ _ h => h
  rep := fun _ _ h => h
  log := fun _ _ h => h
  defines := fun _ _ h => h
  exports := fun _ _ _ h => h
  pad := fun _ _ h => h
  org := fun _ _ _ _ _ _ h => h
  ram := fun _ _ _ h => h
  label := fun _ _ _ _ _ _ h => h
  closeSec := by
    intro s n sec _ _ _ h k hk
    show (dget (dset s.sections n _) k).isSome
    rw [dget_dset]
    split
    · rfl
    · exact h k hk
  openSec := by
    intro s n p _ _ _ h k hk
    cases hk
    show (dget (dset s.sections n _) n).isSome
    rw [dget_dset_self]
    rfl

theorem curIn_tool (tool : Tool) (env : Env) : CustomKeeps tool.dialect env (fun s s' => CurIn s → CurIn s') := by
  intro key f hf l s h
  have e1 : (f l s).2.sections = s.sections := by
    have := congrArg (fun p => p.2.sections) ((frame_tool tool env key f hf l).eq s s.macros s.sections)
    exact this
  have e2 : (f l s).2.curSection = s.curSection := cur_tool tool env key f hf l s
  intro n hn
  rw [e1]
  exact h n (by rw [← e2]; exact hn)

theorem close_ok {s : St} (h : CurIn s) : ∃ s', closeSection s = (.ok (), s') := by
  unfold closeSection
  cases hc : s.curSection with
  | none => exact ⟨_, rfl⟩
  | some n =>
    dsimp only
    split
    · exact ⟨_, rfl⟩
    · have := h n hc
      cases hd : dget s.sections n with
      | none => rw [hd] at this; cases this
      | some sec => exact ⟨_, rfl⟩

/-- What is followed is so in state `s`. -/
structure Follows (o : Bool) (a : List (Str × Str)) (s : St) : Prop where
  region : o = false → s.orgEnd ≤ 0
  defines : Tracks a s.defines
  cur : CurIn s

theorem alike_trans {s t u : St} (h : Alike s t) (h' : Alike t u) : Alike s u := by
  obtain ⟨a, b, rfl, h1, h2⟩ := h
  obtain ⟨a', b', rfl, h3, h4⟩ := h'
  refine ⟨a', b', rfl, Eq.trans h1 h3, h2.1.trans h4.1, fun k => ?_⟩
  rcases h2.2 k with e | ⟨c1, c2, x, y, e1, e2, e3, e4, e5⟩
  · rcases h4.2 k with f | ⟨c1, c2, x, y, f1, f2, f3, f4, f5⟩
    · exact .inl (e.trans f)
    · exact .inr ⟨c1, c2, x, y, e.trans f1, f2, f3, f4, f5⟩
  · rcases h4.2 k with f | ⟨-, -, x', y', f1, f2, f3, f4, f5⟩
    · exact .inr ⟨c1, c2, x, y, e1, f.symm.trans e2, e3, e4, e5⟩
    · have : some y = some x' := e2.symm.trans f1
      cases this
      exact .inr ⟨c1, c2, x, y', e1, f2, e3.trans f3, e4.trans f4, e5.trans f5⟩

/-- If the first run does not exceed the limit, the second does the same, and `P` holds after a first run that succeeds. -/
def Matches (m m' : M Unit) (P : St → Prop) (s t : St) : Prop :=
  (m s).1 ≠ .error .recursionError → (m s).1 = (m' t).1 ∧ Alike (m s).2 (m' t).2 ∧ ((m s).1 = .ok () → P (m s).2)

theorem matches_bind {m m' : M Unit} {f f' : Unit → M Unit} {P Q : St → Prop} {s t : St} (h : Matches m m' P s t) (hf : ∀ s t, Alike s t → P s → Matches (f ()) (f' ()) Q s t) :
    Matches (m >>= f) (m' >>= f') Q s t := by
  have e1 : (m >>= f) s = match m s with | (.ok x, s') => f x s' | (.error e, s') => (.error e, s') := by rw [bind_eq]; rcases m s with ⟨_ | _, _⟩ <;> rfl
  have e2 : (m' >>= f') t = match m' t with | (.ok x, s') => f' x s' | (.error e, s') => (.error e, s') := by rw [bind_eq]; rcases m' t with ⟨_ | _, _⟩ <;> rfl
  unfold Matches at h ⊢
  rw [e1, e2]
  rcases hs : m s with ⟨r, s1⟩
  rcases ht : m' t with ⟨r', t1⟩
  rw [hs, ht] at h
  dsimp only at h
  cases r with
  | error e =>
    intro hne
    obtain ⟨g1, g2, -⟩ := h hne
    subst g1
    exact ⟨rfl, g2, fun h => by cases h⟩
  | ok u =>
    obtain ⟨g1, g2, g3⟩ := h (by intro h; cases h)
    subst g1
    exact hf s1 t1 g2 (g3 rfl)

theorem stmt_deeper (d : Dialect) (env : Env) {n m : Nat} (h : n ≤ m) (st : Stmt) :
    Extends (execStmt d env n (assemble d env n) st) (execStmt d env m (assemble d env m) st) := by
  obtain ⟨k, rfl⟩ := Nat.exists_eq_add_of_le h
  clear h
  induction k with
  | zero => exact .rfl'
  | succ k ih =>
    refine ih.trans ?_
    unfold execStmt
    cases st.kind with
    | instr => exact execInstr_extends d (n + k) _ _
    | directive => exact execDirective_extends d env (assemble_extends d env (n + k)) _
    | label => exact .rfl'

theorem stmt_matches (tool : Tool) (env : Env) {n m : Nat} (hnm : n ≤ m) {st x : Stmt} (hx : content st = content x) {P : St → Prop} {s t : St} (hst : Alike s t)
    (hp : (execStmt tool.dialect env n (assemble tool.dialect env n) st s).1 = .ok () → P (execStmt tool.dialect env n (assemble tool.dialect env n) st s).2) :
    Matches (execStmt tool.dialect env n (assemble tool.dialect env n) st) (execStmt tool.dialect env m (assemble tool.dialect env m) x) P s t := by
  intro hne
  have e := stmt_deeper tool.dialect env hnm st s hne
  have := (resp_execStmt (resp_tool tool env) (resp_assemble (resp_tool tool env) m) m hx).eq s t hst
  rw [e] at this
  exact ⟨this.1, this.2, hp⟩

/-! ## directives -/

theorem followed_directive (tool : Tool) (env : Env) (n : Nat) {t : Str} (h1 : ∀ w ∈ ["include", "define"], isNamed tool.dialect t w = false) (args : List Str) (s : St) :
    (execDirective tool.dialect env (assemble tool.dialect env n) (t :: args) s).2.defines = s.defines ∧
      (isNamed tool.dialect t "org" = false → NoRegion s (execDirective tool.dialect env (assemble tool.dialect env n) (t :: args) s).2) := by
  unfold execDirective
  rw [bind_eq, get_eq]
  simp only [substitute_cons]
  cases hl : lookupDirective tool.dialect env (assemble tool.dialect env n) (tool.dialect.key (t.drop 1)) with
  | none => exact ⟨rfl, fun _ h => h⟩
  | some f =>
    dsimp only
    unfold lookupDirective at hl
    cases hg : tool.dialect.directives env (tool.dialect.key (t.drop 1)) with
    | some q => rw [hg] at hl; cases hl; exact ⟨((aloof_tool tool env _ _ hg _).fields s).2.2.1, fun _ => noRegion_tool tool env _ _ hg _ s⟩
    | none =>
      rw [hg] at hl
      obtain ⟨p, hp, he⟩ := List.mem_map.1 (mem_of_dget hl)
      have hkey : tool.dialect.key p.1.toList = tool.dialect.key (t.drop 1) := congrArg Prod.fst he
      have hv : p.2 = f := congrArg Prod.snd he
      subst hv
      have hne : ∀ w, isNamed tool.dialect t w = false → p.1 ≠ w := by
        rintro w this rfl
        unfold isNamed at this
        rw [← hkey] at this
        simp at this
      refine ⟨?_, fun ho => noRegion_builtin env _ p hp (hne _ ho) (hne _ (h1 _ (by simp))) _ s⟩
      have hs := rel_sameDefines
      rcases aloof_cases hp with h | rfl | rfl | rfl | rfl | rfl | rfl
      · exact ((aloof_builtin tool.dialect env p h _).fields s).2.2.1
      · have hk : Keeps SameDefines (directiveMacro tool.dialect (t :: substituteWithDict args s.defines 0)) := by
          unfold directiveMacro
          refine .bind hs.toDataRel (.get hs.toDataRel) fun s => ?_
          split
          · exact .throw hs.toDataRel _
          · split
            · exact .throw hs.toDataRel _
            · exact fun s => rfl
        exact hk s
      · exact ((aloof_section tool.dialect _).fields s).2.2.1
      · exact absurd rfl (hne "include" (h1 _ (by simp)))
      · exact keeps_directiveLog hs.toDataRel (fun _ _ => rfl) _ s
      · exact keeps_directiveExport hs.toDataRel (fun _ _ _ => rfl) _ s
      · exact absurd rfl (hne "define" (h1 _ (by simp)))

theorem curIn_stmt (tool : Tool) (env : Env) (n : Nat) (st : Stmt) {s : St} (h : CurIn s) : CurIn (execStmt tool.dialect env n (assemble tool.dialect env n) st s).2 :=
  keeps_execStmt (rel_curIn tool.dialect) env n _ (keeps_assemble (rel_curIn tool.dialect) env (curIn_tool tool env) n) (curIn_tool tool env) st s h

theorem orgEnd_plain {d : Dialect} {depth : Nat} {rec : Str → M Unit} (st : Stmt) (h : st.kind ≠ .directive) (s : St) :
    NoRegion s (execStmt d env depth rec st s).2 := by
  obtain ⟨kind, tokens, line⟩ := st
  cases kind with
  | directive => exact absurd rfl h
  | label =>
    show NoRegion s (execLabel d tokens s).2
    unfold execLabel
    repeat' split
    all_goals exact fun h => h
  | instr =>
    have hr : InstrRel NoRegion := { toDataRel := noRegionData, macros := fun _ _ h => h }
    exact keeps_execInstr hr d depth none _ s

theorem changeOrg_zero (d : Dialect) (a : Int) (s : St) : (changeOrg d a 0 s).2.orgEnd = 0 := by
  unfold changeOrg
  rw [if_neg (by omega)]
  simp only
  repeat' split
  all_goals rfl

theorem org_closes (d : Dialect) (t x : Str) (s : St) (h : (directiveOrg d [t, x] s).1 = .ok ()) : (directiveOrg d [t, x] s).2.orgEnd ≤ 0 := by
  have e : directiveOrg d [t, x] s = (parseArg d x 64 >>= fun v => changeOrg d v 0) s := rfl
  rw [e, bind_eq] at h ⊢
  rcases hp : parseArg d x 64 s with ⟨_ | v, s'⟩
  · rw [hp] at h; cases h
  · dsimp only
    rw [changeOrg_zero]
    exact Int.le_refl 0

theorem tool_noOrg (tool : Tool) (env : Env) : tool.dialect.directives env (tool.dialect.key "org".toList) = none := by
  have sms : ∀ base : Dialect, base.caseSensitive = false → (smsOn base).directives env (base.key "org".toList) = none := by
    intro base hb
    refine class_none hb [("tiles", smsTiles env)] ?_
    rw [upper_key hb, show ([("tiles", smsTiles env)] : List (String × (List Str → M Unit))).map Prod.fst = ["tiles"] from rfl]
    decide
  have gb : ∀ base : Dialect, base.caseSensitive = false → (gameboyOn base).directives env (base.key "org".toList) = none := by
    intro base hb
    refine class_none hb (gameboyDirectives base env) ?_
    rw [upper_key hb, show (gameboyDirectives base env).map Prod.fst = ["cartridge", "cartridge_title", "cartridge_license", "cartridge_cgb", "cartridge_sgb",
      "cartridge_type", "cartridge_destination", "tiles"] from rfl]
    decide
  have ns : nes.directives env (mos6502.key "org".toList) = none := by
    show classDirectives mos6502 (nesDirectives mos6502 env) (mos6502.key "org".toList) = none
    refine class_none (d := mos6502) rfl (nesDirectives mos6502 env) ?_
    rw [upper_key rfl, show (nesDirectives mos6502 env).map Prod.fst = ["cartridge", "cartridge_prg_roms", "cartridge_chr_roms", "chr_pattern_table"] from rfl]
    decide
  cases tool with
  | sms => exact sms _ rfl
  | gameboy => exact gb _ rfl
  | nes => exact ns
  | _ => rfl

/-! ## the lines -/

theorem stringify_name {t : Str} (h : t ≠ []) (s : St) : stringify t s = (.ok (fileName t), s) := by
  cases hs : stringify t s with
  | mk r s' =>
  cases r with
  | ok n => obtain ⟨rfl, rfl⟩ := stringify_ok hs; rfl
  | error e =>
    exfalso
    cases t with
    | nil => exact h rfl
    | cons c r =>
      have e' : stringify (c :: r) s = (if isQuote c then (Pure.pure (unquote (c :: r)) : M Str) else Pure.pure (c :: r)) s := rfl
      rw [e'] at hs
      split at hs <;> cases hs

theorem include_run {d : Dialect} {rec : Str → M Unit} {t arg c : Str} {line : Nat} {n : Nat} {a : List (Str × Str)} {s : St} (hn : d.directives env (d.key "include".toList) = none)
    (ht : isNamed d t "include" = true) (ha : Tracks a s.defines) (h1 : replaced a arg ≠ []) (h2 : env.text (fileName (replaced a arg)) = some c) :
    execStmt d env n rec ⟨.directive, [t, arg], line⟩ s = rec c s := by
  have ht : IsDirectiveToken d t "include" := by unfold isNamed at ht; exact eq_of_beq ht
  rw [execStmt_directive, exec_builtin (p := ("include", directiveInclude env rec)) (by simp [builtinDirective]) hn ht, tracks_tokens ha]
  show (exactlyTwo [t, replaced a arg] >>= fun a => stringify a >>= fun name => openFile (env.text name) >>= fun code => rec code) s = _
  rw [bind_eq]
  show (stringify (replaced a arg) >>= fun name => openFile (env.text name) >>= fun code => rec code) s = _
  rw [bind_eq, stringify_name h1]
  dsimp only
  rw [h2]
  rfl

/-- The lines of several files run as in one. -/
theorem merged_lines (tool : Tool) (env : Env) {o o' : Bool} {a b : List (Str × Str)} {l : List Stmt} {k : List (Kind × List Str)} (h : MergedLines tool.dialect env.text o a l k o' b) :
    ∀ {n m : Nat}, n ≤ m → ∀ {l' : List Stmt}, l'.map content = k → ∀ s t, Alike s t → Follows o a s →
      Matches (forEach l (execStmt tool.dialect env n (assemble tool.dialect env n))) (forEach l' (execStmt tool.dialect env m (assemble tool.dialect env m))) (Follows o' b) s t := by
  have hn : ∀ w ∈ ["org", "include", "define"], tool.dialect.directives env (tool.dialect.key w.toList) = none :=
by
    intro w hw
    simp only [List.mem_cons, List.not_mem_nil, or_false] at hw
    rcases hw with rfl | rfl | rfl
    · exact tool_noOrg tool env
    · exact tool_noOwn tool env _ (by simp)
    · exact tool_noOwn tool env _ (by simp)
  induction h with
  | nil o a =>
    intro n m hnm l' hl s t hst hf
    cases List.map_eq_nil_iff.1 hl
    exact fun _ => ⟨rfl, hst, fun _ => hf⟩
  | plain st hk _ ih =>
    intro n m hnm l' hl s t hst hf
    obtain ⟨x, l', rfl, hx, hl⟩ := List.map_eq_cons_iff.1 hl
    refine matches_bind (stmt_matches tool env hnm hx.symm hst fun _ => ⟨fun ho => orgEnd_plain st hk s (hf.region ho), ?_, curIn_stmt tool env n st hf.cur⟩)
      fun s t hst hf => ih hnm hl s t hst hf
    rw [(kept_plain st hk s).2]
    exact hf.defines
  | @directive o a l k o' b t args line h1 _ ih =>
    intro n m hnm l' hl s u hst hf
    obtain ⟨x, l', rfl, hx, hl⟩ := List.map_eq_cons_iff.1 hl
    have g := followed_directive tool env n (t := t) (fun w hw => h1 w (by simp only [List.mem_cons, List.not_mem_nil, or_false] at hw ⊢; rcases hw with rfl | rfl <;> simp)) args s
    refine matches_bind (stmt_matches tool env hnm (st := ⟨.directive, t :: args, line⟩) hx.symm hst fun _ => ⟨fun ho => g.2 (h1 _ (by simp)) (hf.region ho), ?_, curIn_stmt tool env n _ hf.cur⟩)
      fun s t hst hf => ih hnm hl s t hst hf
    show Tracks a (execDirective _ _ _ (t :: args) s).2.defines
    rw [g.1]
    exact hf.defines
  | @org o a l k o' b t x line h1 _ ih =>
    intro n m hnm l' hl s u hst hf
    obtain ⟨y, l', rfl, hx, hl⟩ := List.map_eq_cons_iff.1 hl
    have ht : IsDirectiveToken tool.dialect t "org" := by unfold isNamed at h1; exact eq_of_beq h1
    have other : ∀ w ∈ ["include", "define"], isNamed tool.dialect t w = false := by
      intro w hw
      unfold isNamed
      rw [show tool.dialect.key (t.drop 1) = tool.dialect.key "org".toList from ht, tool_key, tool_key]
      simp only [List.mem_cons, List.not_mem_nil, or_false] at hw
      rcases hw with rfl | rfl <;> decide
    have g := followed_directive tool env n other [x] s
    refine matches_bind (stmt_matches tool env hnm (st := ⟨.directive, [t, x], line⟩) hx.symm hst fun hok => ⟨fun _ => ?_, ?_, curIn_stmt tool env n _ hf.cur⟩)
      fun s t hst hf => ih hnm hl s t hst hf
    · have e : execStmt tool.dialect env n (assemble tool.dialect env n) ⟨.directive, [t, x], line⟩ s = directiveOrg tool.dialect [t, replaced a x] s := by
        rw [execStmt_directive, exec_builtin (p := ("org", directiveOrg tool.dialect)) (by simp [builtinDirective]) (hn _ (by simp)) ht, tracks_tokens hf.defines]
        rfl
      rw [e] at hok ⊢
      exact org_closes _ _ _ _ hok
    · show Tracks a (execDirective _ _ _ [t, x] s).2.defines
      rw [g.1]
      exact hf.defines
  | @region o a l k o' b t args line h1 _ ih =>
    intro n m hnm l' hl s u hst hf
    obtain ⟨y, l', rfl, hx, hl⟩ := List.map_eq_cons_iff.1 hl
    have ht : IsDirectiveToken tool.dialect t "org" := by unfold isNamed at h1; exact eq_of_beq h1
    have other : ∀ w ∈ ["include", "define"], isNamed tool.dialect t w = false := by
      intro w hw
      unfold isNamed
      rw [show tool.dialect.key (t.drop 1) = tool.dialect.key "org".toList from ht, tool_key, tool_key]
      simp only [List.mem_cons, List.not_mem_nil, or_false] at hw
      rcases hw with rfl | rfl <;> decide
    have g := followed_directive tool env n other args s
    refine matches_bind (stmt_matches tool env hnm (st := ⟨.directive, t :: args, line⟩) hx.symm hst fun hok => ⟨fun h => (by cases h), ?_, curIn_stmt tool env n _ hf.cur⟩)
      fun s t hst hf => ih hnm hl s t hst hf
    show Tracks a (execDirective _ _ _ (t :: args) s).2.defines
    rw [g.1]
    exact hf.defines
  | @define o a l k o' b t w v line h1 _ ih =>
    intro n m hnm l' hl s u hst hf
    obtain ⟨y, l', rfl, hx, hl⟩ := List.map_eq_cons_iff.1 hl
    have ht : IsDirectiveToken tool.dialect t "define" := by unfold isNamed at h1; exact eq_of_beq h1
    have e : execStmt tool.dialect env n (assemble tool.dialect env n) ⟨.directive, [t, w, v], line⟩ s = (.ok (), { s with defines := dset s.defines (replaced a w) (replaced a v) }) := by
      rw [execStmt_directive, exec_builtin (p := ("define", directiveDefine)) (by simp [builtinDirective]) (hn _ (by simp)) ht, tracks_tokens hf.defines]
      rfl
    refine matches_bind (stmt_matches tool env hnm (st := ⟨.directive, [t, w, v], line⟩) hx.symm hst fun hok => ?_) fun s t hst hf => ih hnm hl s t hst hf
    rw [e]
    exact ⟨hf.region, hf.defines.set _ _, hf.cur⟩
  | @included o a c l k l2 k2 o' a' b t arg line h1 h2 h3 h4 _ _ ih1 ih2 =>
    intro n m hnm l' hl s u hst hf
    obtain ⟨la, lb, rfl, ha, hb⟩ := List.map_eq_append_iff.1 hl
    have e2 : forEach (la ++ lb) (execStmt tool.dialect env m (assemble tool.dialect env m)) u =
        (forEach la (execStmt tool.dialect env m (assemble tool.dialect env m)) >>= fun _ => forEach lb (execStmt tool.dialect env m (assemble tool.dialect env m))) u := by
      rw [forEach_append, bind_eq]
      rcases forEach la (execStmt tool.dialect env m (assemble tool.dialect env m)) u with ⟨_ | _, s'⟩ <;> rfl
    have main : Matches (execStmt tool.dialect env n (assemble tool.dialect env n) ⟨.directive, [t, arg], line⟩) (forEach la (execStmt tool.dialect env m (assemble tool.dialect env m))) (Follows false a') s u := by
      unfold Matches
      rw [include_run (hn _ (by simp)) h1 hf.defines h2 h3]
      cases n with
      | zero => intro h; exact absurd rfl h
      | succ n =>
        have i1 := ih1 (n := n) (m := m) (by omega) ha s u hst hf
        unfold Matches at i1
        rw [assemble, bind_eq, lift_eq, h4]
        dsimp only
        unfold execStmts
        rw [bind_eq]
        rcases hr : forEach l (execStmt tool.dialect env n (assemble tool.dialect env n)) s with ⟨r, s1⟩
        rw [hr] at i1
        dsimp only at i1
        cases r with
        | error e =>
          intro hne
          obtain ⟨g1, g2, -⟩ := i1 hne
          exact ⟨g1, g2, fun h => by cases h⟩
        | ok x =>
          obtain ⟨g1, g2, g3⟩ := i1 (by intro h; cases h)
          have g3 := g3 rfl
          dsimp only
          rw [bind_eq, finalFill_none _ (g3.region rfl)]
          dsimp only
          obtain ⟨s2, hs2⟩ := close_ok g3.cur
          rw [hs2]
          have hal := alike_close hs2
          refine fun _ => ⟨g1, alike_trans hal.symm g2, fun _ => ⟨fun _ => ?_, ?_, ?_⟩⟩
          · have := noRegion_closeSection s1 (g3.region rfl)
            rw [hs2] at this
            exact this
          · dsimp only
            rw [(alike_tables hal).2]
            exact g3.defines
          · have := keeps_closeSection (rel_curIn tool.dialect) s1 g3.cur
            rw [hs2] at this
            exact this
    unfold Matches
    rw [e2]
    exact matches_bind main fun s t hst hf => ih2 hnm hb s t hst hf

/-- The statements of a source, then what is done at its end. -/
theorem execStmts_tail (d : Dialect) (env : Env) (n : Nat) (rec : Str → M Unit) (l l2 : List Stmt) (s : St) : execStmts d env n rec (l ++ l2) s =
    match forEach l (execStmt d env n rec) s with
    | (.ok _, s') => execStmts d env n rec l2 s'
    | (.error e, s') => (.error e, s') := by
  unfold execStmts
  rw [bind_eq, forEach_append]
  rcases forEach l (execStmt d env n rec) s with ⟨_ | _, s'⟩ <;> rfl

theorem source_run (d : Dialect) (env : Env) (n : Nat) {f c : Str} {fs : List Str} {l : List Stmt} (h1 : env.text f = some c) (h2 : tokenize c = .ok l) (s : St) :
    sourcesM d env (n + 1) (f :: fs) s = match execStmts d env n (assemble d env n) l s with
    | (.ok _, s') => sourcesM d env (n + 1) fs s'
    | (.error e, s') => (.error e, s') := by
  rw [source_step, h1]
  have : (openFile (some c) >>= fun c => assemble d env (n + 1) c) s = execStmts d env n (assemble d env n) l s := by
    show assemble d env (n + 1) c s = _
    rw [assemble, bind_eq, lift_eq, h2]
  rw [this]
  rcases execStmts d env n (assemble d env n) l s with ⟨_ | _, _⟩ <;> rfl

/-- Several sources run as one. -/
theorem merged_sources (tool : Tool) (env : Env) {o : Bool} {a : List (Str × Str)} {fs : List Str} {k : List (Kind × List Str)} (h : MergedFiles tool.dialect env.text o a fs k) (n : Nat) :
    ∀ {l' : List Stmt}, l'.map content = k → ∀ s t, Alike s t → Follows o a s → (sourcesM tool.dialect env (n + 1) fs s).1 ≠ .error .recursionError →
      (sourcesM tool.dialect env (n + 1) fs s).1 = (execStmts tool.dialect env n (assemble tool.dialect env n) l' t).1 ∧
      ((sourcesM tool.dialect env (n + 1) fs s).1 = .ok () →
        SameState (sourcesM tool.dialect env (n + 1) fs s).2 (execStmts tool.dialect env n (assemble tool.dialect env n) l' t).2) := by
  induction h with
  | @last o a f c l k o' b h1 h2 h3 =>
    intro l' hl s t hst hf
    have hm := merged_lines tool env h3 (Nat.le_refl n) hl s t hst hf
    unfold Matches at hm
    have e1 := execStmts_tail tool.dialect env n (assemble tool.dialect env n) l [] s
    have e2 := execStmts_tail tool.dialect env n (assemble tool.dialect env n) l' [] t
    rw [List.append_nil] at e1 e2
    have e3 : sourcesM tool.dialect env (n + 1) [f] s = execStmts tool.dialect env n (assemble tool.dialect env n) l s := by
      rw [source_run _ _ _ h1 h2]
      rcases execStmts tool.dialect env n (assemble tool.dialect env n) l s with ⟨_ | _, _⟩ <;> rfl
    rw [e3, e1, e2]
    rcases hr : forEach l (execStmt tool.dialect env n (assemble tool.dialect env n)) s with ⟨r, s1⟩
    rcases hr' : forEach l' (execStmt tool.dialect env n (assemble tool.dialect env n)) t with ⟨r', t1⟩
    rw [hr, hr'] at hm
    dsimp only at hm
    cases r with
    | error e =>
      intro hne
      obtain ⟨g1, -, -⟩ := hm hne
      subst g1
      exact ⟨rfl, fun h => by cases h⟩
    | ok x =>
      obtain ⟨g1, g2, -⟩ := hm (by intro h; cases h)
      subst g1
      exact fun _ => execStmts_same_of (l := []) (l' := []) (resp_pure ()) g2
  | @cons o a f c l k b fs k' h1 h2 h3 _ ih =>
    intro l' hl s t hst hf
    obtain ⟨la, lb, rfl, ha, hb⟩ := List.map_eq_append_iff.1 hl
    have hm := merged_lines tool env h3 (Nat.le_refl n) ha s t hst hf
    unfold Matches at hm
    have e1 := execStmts_tail tool.dialect env n (assemble tool.dialect env n) l [] s
    rw [List.append_nil] at e1
    rw [source_run _ _ _ h1 h2, e1, execStmts_tail]
    rcases hr : forEach l (execStmt tool.dialect env n (assemble tool.dialect env n)) s with ⟨r, s1⟩
    rcases hr' : forEach la (execStmt tool.dialect env n (assemble tool.dialect env n)) t with ⟨r', t1⟩
    rw [hr, hr'] at hm
    dsimp only at hm
    cases r with
    | error e =>
      intro hne
      obtain ⟨g1, -, -⟩ := hm hne
      subst g1
      exact ⟨rfl, fun h => by cases h⟩
    | ok x =>
      obtain ⟨g1, g2, g3⟩ := hm (by intro h; cases h)
      subst g1
      have g3 := g3 rfl
      obtain ⟨s2, hs2⟩ := close_ok g3.cur
      have hal := alike_close hs2
      have e : execStmts tool.dialect env n (assemble tool.dialect env n) [] s1 = (.ok (), s2) := by
        show (pure () >>= fun _ => finalFill tool.dialect >>= fun _ => closeSection : M Unit) s1 = _
        rw [bind_eq]
        show (finalFill tool.dialect >>= fun _ => closeSection : M Unit) s1 = _
        rw [bind_eq, finalFill_none _ (g3.region rfl)]
        exact hs2
      dsimp only
      rw [e]
      dsimp only
      refine ih hb s2 t1 (alike_trans hal.symm g2) ⟨fun _ => ?_, ?_, ?_⟩
      · have := noRegion_closeSection s1 (g3.region rfl)
        rw [hs2] at this
        exact this
      · rw [(alike_tables hal).2]
        exact g3.defines
      · have := keeps_closeSection (rel_curIn tool.dialect) s1 g3.cur
        rw [hs2] at this
        exact this

theorem follows_init (tool : Tool) : Follows false tool.dialect.defines tool.dialect.init := by
  refine ⟨fun _ => ?_, tracks_refl _, fun n h => ?_⟩
  · exact Int.le_refl 0
  · cases h

theorem twins_merged (tool : Tool) {depth : Nat} {fs : List Str} {f : Str} {k : List (Kind × List Str)} (h : MergedFiles tool.dialect env.text false tool.dialect.defines fs k) (hk : HasLines env.text f k)
    (hb : build tool.dialect env depth fs ≠ .error .recursionError) : Twins tool.dialect env depth fs [f] := by
  obtain ⟨c, l, h1, h2, h3⟩ := hk
  have hne : (sourcesM tool.dialect env depth fs tool.dialect.init).1 ≠ .error .recursionError := by
    intro e
    apply hb
    unfold build
    rw [show mainRun tool.dialect env depth fs tool.dialect.init = (sourcesM tool.dialect env depth fs >>= fun _ => link tool.dialect .dummy) tool.dialect.init from rfl, bind_eq]
    rcases hs : sourcesM tool.dialect env depth fs tool.dialect.init with ⟨r, s⟩
    rw [hs] at e
    cases e
    rfl
  apply twins_of_same
  cases depth with
  | zero =>
    exfalso
    apply hne
    cases h with
    | last g1 _ _ => rw [source_step, g1]; rfl
    | cons g1 _ _ _ => rw [source_step, g1]; rfl
  | succ n =>
    have e : sourcesM tool.dialect env (n + 1) [f] tool.dialect.init = execStmts tool.dialect env n (assemble tool.dialect env n) l tool.dialect.init := by
      rw [source_run _ _ _ h1 h2]
      rcases execStmts tool.dialect env n (assemble tool.dialect env n) l tool.dialect.init with ⟨_ | _, _⟩ <;> rfl
    rw [e]
    exact merged_sources tool env h n h3 _ _ (.refl _) (follows_init tool) hne

/-- **C102.**  A program in several sources and included files is built as the program in one file: the same bytes, or the same error. -/
theorem C102_merged (tool : Tool) {depth : Nat} {fs : List Str} {f : Str} {k : List (Kind × List Str)} (h : MergedFiles tool.dialect env.text false tool.dialect.defines fs k)
    (hk : HasLines env.text f k) (hb : build tool.dialect env depth fs ≠ .error .recursionError) : build tool.dialect env depth fs = build tool.dialect env depth [f] :=
  twins_build tool (twins_merged tool h hk hb)

variable {m : Machine} {disk : Disk}

/-- **C102.**  Running a program of the package on the two, the programs that write object files included, does the same. -/
theorem C102_run (tool : Tool) (ht : tool ∉ [Tool.gba, .genesis, .psx, .nes]) {fs : List Str} {f : Str} {k : List (Kind × List Str)}
    (h : MergedFiles tool.dialect (m.view disk).text false tool.dialect.defines fs k) (hk : HasLines (m.view disk).text f k)
    (hb : build tool.dialect (m.view disk) m.depth fs ≠ .error .recursionError) (out : Str) : tool.run m (fs ++ [out]) disk = tool.run m [f, out] disk :=
  twins_run tool ht (twins_merged tool h hk hb) out

/-- **C102.**  The programs that take one source, which may include others; `args` are the output and what else is given. -/
theorem C102_file_run (tool : Tool) (ht : tool ∈ [Tool.gba, .genesis, .psx, .nes]) {f f' : Str} {k : List (Kind × List Str)}
    (h : MergedFiles tool.dialect (m.view disk).text false tool.dialect.defines [f] k) (hk : HasLines (m.view disk).text f' k)
    (hb : build tool.dialect (m.view disk) m.depth [f] ≠ .error .recursionError) (args : List Str) : tool.run m (f :: args) disk = tool.run m (f' :: args) disk :=
  twins_file tool ht (twins_merged tool h hk hb) args

/-! ## Cases -/

/-- Two sources and an included file, whose name is given by a definition, and all in one. -/
def mergeFiles : Env :=
  { text := fun n =>
      if n = "a.s".toList then some ".define lib inc\n.include \"lib\"\nmain:\nput 3\n.org 16\njmp end\n".toList
      else if n = "inc".toList then some ".macro put x\nlda #x\n.endmacro\n".toList
      else if n = "b.s".toList then some "end:\nput 4\n.dw main\n".toList
      else some ".define lib inc\n.macro put x\nlda #x\n.endmacro\nmain:\nput 3\n.org 16\njmp end\nend:\nput 4\n.dw main\n".toList }

def mergeLib : List Stmt := [⟨.directive, [".macro".toList, "put".toList, "x".toList], 1⟩, ⟨.instr, ["lda".toList, "#x".toList], 2⟩, ⟨.directive, [".endmacro".toList], 3⟩]

def mergeFirst : List Stmt :=
  [⟨.directive, [".define".toList, "lib".toList, "inc".toList], 1⟩, ⟨.directive, [".include".toList, "\"lib\"".toList], 2⟩, ⟨.label, ["main".toList], 3⟩,
    ⟨.instr, ["put".toList, "3".toList], 4⟩, ⟨.directive, [".org".toList, "16".toList], 5⟩, ⟨.instr, ["jmp".toList, "end".toList], 6⟩]

def mergeSecond : List Stmt := [⟨.label, ["end".toList], 1⟩, ⟨.instr, ["put".toList, "4".toList], 2⟩, ⟨.directive, [".dw".toList, "main".toList], 3⟩]

theorem mergeFiles_merged : MergedFiles mos6502 mergeFiles.text false mos6502.defines ["a.s".toList, "b.s".toList]
    (content mergeFirst[0] :: (mergeLib.map content ++ (mergeFirst.drop 2).map content) ++ mergeSecond.map content) := by
  refine .cons (l := mergeFirst) (b := ("lib".toList, "inc".toList) :: mos6502.defines) rfl (by decide +kernel) ?_ (.last (o' := false) (b := ("lib".toList, "inc".toList) :: mos6502.defines) (l := mergeSecond) rfl (by decide +kernel) ?_)
  · refine .define (by decide +kernel) (.included (a' := ("lib".toList, "inc".toList) :: mos6502.defines) (c := ".macro put x\nlda #x\n.endmacro\n".toList) (l := mergeLib) (by decide +kernel) (by decide +kernel) (by decide +kernel) (by decide +kernel) ?_ ?_)
    · exact .directive (by decide +kernel) (.plain _ (by decide) (.directive (by decide +kernel) (.nil _ _)))
    · exact .plain _ (by decide) (.plain _ (by decide) (.org (by decide +kernel) (.plain _ (by decide) (.nil _ _))))
  · exact .plain _ (by decide) (.plain _ (by decide) (.directive (by decide +kernel) (.nil _ _)))

theorem mergeFiles_lines : HasLines mergeFiles.text "all.s".toList
    (content mergeFirst[0] :: (mergeLib.map content ++ (mergeFirst.drop 2).map content) ++ mergeSecond.map content) :=
  ⟨".define lib inc\n.macro put x\nlda #x\n.endmacro\nmain:\nput 3\n.org 16\njmp end\nend:\nput 4\n.dw main\n".toList,
    [⟨.directive, [".define".toList, "lib".toList, "inc".toList], 1⟩, ⟨.directive, [".macro".toList, "put".toList, "x".toList], 2⟩, ⟨.instr, ["lda".toList, "#x".toList], 3⟩,
      ⟨.directive, [".endmacro".toList], 4⟩, ⟨.label, ["main".toList], 5⟩, ⟨.instr, ["put".toList, "3".toList], 6⟩, ⟨.directive, [".org".toList, "16".toList], 7⟩,
      ⟨.instr, ["jmp".toList, "end".toList], 8⟩, ⟨.label, ["end".toList], 9⟩, ⟨.instr, ["put".toList, "4".toList], 10⟩, ⟨.directive, [".dw".toList, "main".toList], 11⟩],
    rfl, by decide +kernel, by decide +kernel⟩

theorem mergeFiles_build : build mos6502 mergeFiles 4 ["a.s".toList, "b.s".toList] = .ok [0xA9, 3, 0x4C, 0x13, 0, 0xA9, 4, 0, 0] := by decide +kernel

example : build (Tool.dialect .mos6502) mergeFiles 4 ["all.s".toList] = .ok [0xA9, 3, 0x4C, 0x13, 0, 0xA9, 4, 0, 0] :=
  (C102_merged .mos6502 (depth := 4) mergeFiles_merged mergeFiles_lines fun h => by cases mergeFiles_build.symm.trans h).symm.trans mergeFiles_build

def mergeMachine : Machine := { view := fun _ => mergeFiles, depth := 4 }

example (disk : Disk) (out : Str) : Tool.run .mos6502 mergeMachine ["a.s".toList, "b.s".toList, out] disk = Tool.run .mos6502 mergeMachine ["all.s".toList, out] disk :=
  C102_run .mos6502 (by decide) (m := mergeMachine) mergeFiles_merged mergeFiles_lines (fun h => by cases mergeFiles_build.symm.trans h) out

/-- A region with an end is filled where the file ends, not where the region does in the one file. -/
def regionFiles : Env :=
  { text := fun n =>
      if n = "a.s".toList then some ".org 16 20\n.db 1\n".toList
      else if n = "b.s".toList then some ".db 2\n".toList
      else some ".org 16 20\n.db 1\n.db 2\n".toList }

example : build mos6502 regionFiles 4 ["a.s".toList, "b.s".toList] = .ok [1, 0, 0, 0, 0, 2] ∧ build mos6502 regionFiles 4 ["all.s".toList] = .ok [1, 2, 0, 0, 0] := by decide +kernel

end Necro
