import Verif.Props.Invariants
import Verif.Props.Data
/-!
# C24, C25, C26: repeat blocks and origins
-/

namespace Necro
open Spec
open M (throw get modify lift forEach times)

/-! ## C24 -/

theorem execDirective_other {R : St → St → Prop} {d : Dialect} {env : Env} {rec : Str → M Unit}
    (hd : DataRel R) (hc : CustomKeeps d env R) (bad : List String) (t : Str) (args : List Str)
    (hbad : ∀ n ∈ bad, ¬ IsDirectiveToken d t n)
    (hb : ∀ p ∈ builtinDirective d env rec, p.1 ∉ bad → ∀ l, Keeps R (p.2 l)) :
    Keeps R (execDirective d env rec (t :: args)) := by
  refine .bind hd (.get hd) fun s => ?_
  simp only [substitute_cons]
  split
  · exact .throw hd _
  · rename_i f hf
    unfold lookupDirective at hf
    split at hf
    · rename_i g hg
      injection hf with hf; subst hf
      exact hc _ _ hg _
    · have := mem_of_dget hf
      rw [List.mem_map] at this
      obtain ⟨p, hp, he⟩ := this
      injection he with hk he; subst he
      exact hb p hp (fun hm => hbad p.1 hm hk.symm) _

def SameRep (s s' : St) : Prop := s'.rep = s.rep

theorem rel_sameRep : InstrRel SameRep where
  refl := fun _ => rfl
  trans := fun h1 h2 => by unfold SameRep at *; rw [h2, h1]
  append := fun _ _ => rfl
  reloc := fun _ _ => rfl
  macros := fun _ _ => rfl

/-- A statement that neither opens nor closes a repeat block and includes no file. -/
def PlainStmt (d : Dialect) (st : Stmt) : Prop :=
  st.kind = .directive → ∀ t ∈ st.tokens.head?,
    ¬ IsDirectiveToken d t "repeat" ∧ ¬ IsDirectiveToken d t "endrepeat" ∧ ¬ IsDirectiveToken d t "include"

theorem sectionBody_rep (d : Dialect) (n p : Str) (o : Option Str) : Keeps SameRep (sectionBody d n p o) := by
  have hd := rel_sameRep.toDataRel
  have hcl : Keeps SameRep closeSection := fun s => by
    unfold closeSection
    repeat' split
    all_goals rfl
  have horg : ∀ a b, Keeps SameRep (changeOrg d a b) := fun a b s => by
    unfold changeOrg
    repeat' split
    all_goals rfl
  unfold sectionBody
  refine .bind hd (.readOnly hd (stringify_state n)) fun name => ?_
  refine .bind hd (.get hd) fun s => ?_
  split
  · exact .throw hd _
  · split
    · exact .throw hd _
    · cases o with
      | none => exact .bind hd hcl fun _ _ => rfl
      | some t =>
        refine .bind hd (.readOnly hd fun _ => parseArg_state ..) fun v => ?_
        exact .bind hd (horg _ _) fun _ => .bind hd hcl fun _ _ => rfl

theorem plain_keeps_rep (d : Dialect) (env : Env) (depth : Nat) (rec : Str → M Unit)
    (hc : CustomKeeps d env SameRep) (st : Stmt) (hp : PlainStmt d st) : Keeps SameRep (execStmt d env depth rec st) := by
  have hd := rel_sameRep.toDataRel
  unfold execStmt
  cases hk : st.kind with
  | instr => exact keeps_execInstr rel_sameRep d _ _ _
  | label =>
    intro s
    simp only [execLabel]
    repeat' split
    all_goals rfl
  | directive =>
    cases ht : st.tokens with
    | nil => intro s; rfl
    | cons t args =>
      have h := hp hk t (by simp [ht])
      refine execDirective_other hd hc ["repeat", "endrepeat", "include"] t args (by simpa using h) ?_
      intro p hp hn l
      have data : p ∈ dataDirectives d env ∨ p ∈ ([
          ("macro", directiveMacro d),
          ("endmacro", fun _ => directiveEndMacro),
          ("define", directiveDefine),
          ("log", directiveLog),
          ("export", directiveExport),
          ("org", directiveOrg d),
          ("ram", directiveRam d),
          ("section", directiveSection d)] : List (String × (List Str → M Unit))) := by
        simp only [builtinDirective, dataDirectives, List.mem_cons, List.not_mem_nil, or_false] at hp ⊢
        rcases hp with hp | hp | hp | hp | hp | hp | hp | hp | hp | hp | hp | hp | hp | hp | hp | hp | hp |
          hp | hp | hp | hp | hp | hp | hp | hp | hp | hp | hp | hp | hp <;> simp [hp] <;> simp [hp] at hn
      rcases data with h | h
      · exact keeps_dataDirectives hd d env p h l
      · simp only [List.mem_cons, List.not_mem_nil, or_false] at h
        rcases h with rfl | rfl | rfl | rfl | rfl | rfl | rfl | rfl
        · exact keeps_directiveMacro rel_sameRep (fun _ _ => rfl) d l
        · exact keeps_directiveEndMacro hd (fun _ _ => rfl)
        · exact keeps_directiveDefine hd (fun _ _ => rfl) l
        · exact keeps_directiveLog hd (fun _ _ => rfl) l
        · exact keeps_directiveExport hd (fun _ _ _ => rfl) l
        · exact keeps_directiveOrg (d := d) { toDataRel := hd, pad := fun _ _ => rfl, org := fun _ _ _ _ _ _ => rfl } l
        · exact keeps_directiveRam (d := d) hd (fun _ _ _ => rfl) l
        · show Keeps SameRep (directiveSection d l)
          unfold directiveSection
          split
          · exact sectionBody_rep _ _ _ _
          · exact sectionBody_rep _ _ _ _
          · exact .throw hd _

theorem times_append (n : Nat) (blob : Bytes) : ∀ s, times n (appendBytes blob) s =
    (.ok (), { s with bytes := s.bytes ++ (List.replicate n blob).flatten, counter := s.counter + n * blob.length }) := by
  induction n with
  | zero => intro s; simp [times, M.pure]
  | succ n ih =>
    intro s
    have : times (n + 1) (appendBytes blob) s = times n (appendBytes blob)
        { s with bytes := s.bytes ++ blob, counter := s.counter + blob.length } := rfl
    rw [this, ih]
    simp only [List.append_assoc, List.replicate_succ, List.flatten_cons, Prod.mk.injEq, true_and]
    congr 1
    simp [Int.add_mul]; omega

theorem execStmt_directive (d : Dialect) (env : Env) (depth : Nat) (rec : Str → M Unit) (ts : List Str) (l : Nat) :
    execStmt d env depth rec ⟨.directive, ts, l⟩ = execDirective d env rec ts := rfl

theorem forEach_append {α : Type} (f : α → M Unit) (l1 l2 : List α) : ∀ s, forEach (l1 ++ l2) f s =
    match forEach l1 f s with
    | (.ok _, s') => forEach l2 f s'
    | (.error e, s') => (.error e, s') := by
  induction l1 with
  | nil => intro s; rfl
  | cons x l ih =>
    intro s
    rw [List.cons_append, forEach_cons, forEach_cons]
    rcases f x s with ⟨_ | _, _⟩
    · rfl
    · exact ih _

/-- C24: `.repeat n`, a body without repeat directives or includes, and `.endrepeat`.  `s1` is
the state after the body, executed once; the output it produced appears `n` times in a row,
and nothing else of the final state differs from `s1` except that the pc has moved over the
copies. -/
theorem C24_repeat (d : Dialect) (env : Env) (depth m : Nat)
    (hc : CustomKeeps d env SameRep) (hcb : CustomKeeps d env (fun s s' => s.bytes <+: s'.bytes))
    (h1 : d.directives env (d.key "repeat".toList) = none) (h2 : d.directives env (d.key "endrepeat".toList) = none)
    (t t' a : Str) (l l' : Nat) (ht : IsDirectiveToken d t "repeat") (ht' : IsDirectiveToken d t' "endrepeat")
    (args' : List Str) (body : List Stmt) (hbody : ∀ st ∈ body, PlainStmt d st) (s s' : St) (hrep : s.rep = none)
    (h : forEach (⟨.directive, [t, a], l⟩ :: body ++ [⟨.directive, t' :: args', l'⟩])
      (execStmt d env depth (assemble d env m)) s = (.ok (), s')) :
    ∃ (n : Nat) (s1 : St) (B : Bytes), 1 ≤ n ∧
      parseInteger d.sy s.labels (subToken s.defines a) 64 false = .ok (some (n : Int)) ∧
      forEach body (execStmt d env depth (assemble d env m)) { s with rep := some (n, s.bytes.length) } = (.ok (), s1) ∧
      s1.bytes = s.bytes ++ B ∧
      s' = { s1 with
        rep := none
        bytes := s.bytes ++ (List.replicate n B).flatten
        counter := s1.counter + ((n - 1 : Nat) * B.length : Nat) } := by
  have hr : ("repeat", directiveRepeat d) ∈ builtinDirective d env (assemble d env m) := by simp [builtinDirective]
  have he : ("endrepeat", fun _ => directiveEndRepeat) ∈ builtinDirective d env (assemble d env m) := by
    simp [builtinDirective]
  rw [List.cons_append, forEach_cons] at h
  have e1 := exec_builtin hr h1 ht [a] s
  simp only [execStmt] at h
  rw [e1] at h
  have esub : substituteWithDict [a] s.defines 0 = [subToken s.defines a] := by simp [substituteWithDict]
  rw [esub] at h
  simp only [directiveRepeat] at h
  rw [bind_eq, get_eq] at h
  simp only [hrep] at h
  rw [bind_eq] at h
  simp only [exactlyTwo, pure_eq] at h
  rw [bind_eq, parseArg_eq] at h
  cases hp : parseInteger d.sy s.labels (subToken s.defines a) 64 false with
  | error e => rw [hp] at h; simp at h
  | ok v =>
  cases v with
  | none => rw [hp] at h; simp at h
  | some v =>
  rw [hp] at h
  simp only at h
  by_cases hv : v ≤ 0
  · rw [if_pos hv] at h; simp [throw_eq] at h
  rw [if_neg hv, modify_eq] at h
  simp only at h
  rw [forEach_append] at h
  have hkr : Keeps SameRep (forEach body (execStmt d env depth (assemble d env m))) :=
    .forEach rel_sameRep.toDataRel fun st hst => plain_keeps_rep d env depth _ hc st (hbody st hst)
  have hkb : Keeps (fun s s' => s.bytes <+: s'.bytes) (forEach body (execStmt d env depth (assemble d env m))) :=
    .forEach (rel_bytes d).toDataRel fun st _ =>
      keeps_execStmt (rel_bytes d) env depth _ (fun c => keeps_assemble (rel_bytes d) env hcb m c) hcb st
  have hn : (v.toNat : Int) = v := by omega
  have hkr := hkr { s with rep := some (v, s.bytes.length) }
  have hkb := hkb { s with rep := some (v, s.bytes.length) }
  cases hb : forEach body (execStmt d env depth (assemble d env m)) { s with rep := some (v, s.bytes.length) } with
  | mk r s1 =>
  rw [hb] at h hkr hkb
  cases r with
  | error e => simp at h
  | ok u =>
  obtain ⟨B, hB⟩ := hkb
  simp only at h hB hkr
  rw [forEach_cons] at h
  have e2 := exec_builtin he h2 ht' args' s1
  simp only at e2
  rw [execStmt_directive, e2] at h
  simp only [directiveEndRepeat] at h
  rw [bind_eq, get_eq] at h
  simp only [SameRep] at hkr
  simp only [hkr] at h
  rw [bind_eq, modify_eq] at h
  simp only at h
  rw [times_append] at h
  simp only [forEach_nil] at h
  refine ⟨v.toNat, s1, B, by omega, by rw [hn], by rw [hn, hb], hB.symm, ?_⟩
  injection h with _ h
  rw [← h]
  have hdrop : s1.bytes.drop s.bytes.length = B := by rw [← hB]; simp
  simp only [hdrop]
  have hk : ∃ k, v.toNat = k + 1 := ⟨v.toNat - 1, by omega⟩
  obtain ⟨k, hk⟩ := hk
  have : (v - 1).toNat = k := by omega
  rw [this, hk, ← hB]
  simp [List.replicate_succ]

/-- C24: a repeat block inside a repeat block is rejected, and nothing changes. -/
theorem C24_nested (d : Dialect) (env : Env) (rec : Str → M Unit)
    (h1 : d.directives env (d.key "repeat".toList) = none) (t : Str) (ht : IsDirectiveToken d t "repeat")
    (args : List Str) (s : St) (hrep : s.rep ≠ none) :
    execDirective d env rec (t :: args) s = (.error .unsupportedNestedRepeat, s) := by
  rw [exec_builtin (p := ("repeat", directiveRepeat d)) (by simp [builtinDirective]) h1 ht]
  simp only [directiveRepeat]
  rw [bind_eq, get_eq]
  cases h : s.rep with
  | none => exact absurd h hrep
  | some _ => simp only [h]; rfl

/-- C24: `.endrepeat` without an open block is rejected, and nothing changes. -/
theorem C24_unmatched (d : Dialect) (env : Env) (rec : Str → M Unit)
    (h1 : d.directives env (d.key "endrepeat".toList) = none) (t : Str) (ht : IsDirectiveToken d t "endrepeat")
    (args : List Str) (s : St) (hrep : s.rep = none) :
    execDirective d env rec (t :: args) s = (.error .notInRepeatMode, s) := by
  rw [exec_builtin (p := ("endrepeat", fun _ => directiveEndRepeat)) (by simp [builtinDirective]) h1 ht]
  simp only [directiveEndRepeat]
  rw [bind_eq, get_eq]
  simp only [hrep]; rfl

/-- C24: a count that is not a positive number is rejected, and nothing changes. -/
theorem C24_count (d : Dialect) (env : Env) (rec : Str → M Unit)
    (h1 : d.directives env (d.key "repeat".toList) = none) (t a : Str) (ht : IsDirectiveToken d t "repeat")
    (s : St) (hrep : s.rep = none)
    (ha : ∀ n, parseInteger d.sy s.labels (subToken s.defines a) 64 false = .ok (some n) → n ≤ 0) :
    ∃ e, execDirective d env rec [t, a] s = (.error e, s) := by
  rw [exec_builtin (p := ("repeat", directiveRepeat d)) (by simp [builtinDirective]) h1 ht]
  have esub : substituteWithDict [a] s.defines 0 = [subToken s.defines a] := by simp [substituteWithDict]
  rw [esub]
  simp only [directiveRepeat]
  rw [bind_eq, get_eq]
  simp only [hrep]
  rw [bind_eq]
  simp only [exactlyTwo, pure_eq]
  rw [bind_eq, parseArg_eq]
  cases hp : parseInteger d.sy s.labels (subToken s.defines a) 64 false with
  | error e => exact ⟨e, rfl⟩
  | ok v =>
  cases v with
  | none => exact ⟨_, rfl⟩
  | some v => simp only [if_pos (ha v hp)]; exact ⟨_, rfl⟩


/-- Three copies of `NOP; .db x`; the reference to `x` is recorded once. -/
def repeatDemo : St :=
  (assemble mos6502 {} 20 ".repeat 3\nNOP\n.db x\n.endrepeat\nx: NOP".toList mos6502.init).2

example : repeatDemo.bytes = [0xEA, 0, 0xEA, 0, 0xEA, 0, 0xEA] ∧ repeatDemo.relocs.length = 1 ∧
    repeatDemo.relocs.map Prod.fst = [1] ∧ repeatDemo.pc = 7 ∧ repeatDemo.rep = none := by decide +kernel
example : PlainStmt mos6502 ⟨.instr, ["NOP".toList], 1⟩ ∧
    PlainStmt mos6502 ⟨.directive, [".db".toList, "x".toList], 1⟩ := by
  constructor
  · intro h; simp at h
  · intro _ t ht
    simp only [List.head?_cons, Option.mem_def, Option.some.injEq] at ht
    subst ht
    unfold IsDirectiveToken; decide

/-! ## C25 -/

theorem rel_orgOrder (d : Dialect) :
    AsmRel d (fun s s' => (0 < s.orgEnd → s.org ≤ s.orgEnd) → (0 < s'.orgEnd → s'.org ≤ s'.orgEnd)) where
  refl := fun s h => h
  trans := fun h1 h2 h => h2 (h1 h)
  append := fun s b h => h
  reloc := fun s r h => h
  macros := fun s m h => h
  recording := fun s m h => h
  rep := fun s m h => h
  log := fun s m h => h
  defines := fun s m h => h
  exports := fun s m _ h => h
  pad := fun s b h => h
  org := fun s a b _ _ hab _ h => by simp only at *; omega
  ram := fun s n hn h => h
  label := fun s k _ _ _ _ h => h
  closeSec := fun s n sec _ _ _ h => h
  openSec := fun s n p _ _ _ h => h

/-- C25: in every reachable state a bounded region ends at or after its start. -/
theorem C25_region_order (d : Dialect) (env : Env)
    (hc : CustomKeeps d env fun s s' => (0 < s.orgEnd → s.org ≤ s.orgEnd) → (0 < s'.orgEnd → s'.org ≤ s'.orgEnd))
    (s : St) (h : Reach d env s) (hb : 0 < s.orgEnd) : s.org ≤ s.orgEnd :=
  reach_of_rel (rel_orgOrder d) hc h (by simp [Dialect.init]) hb

/-- When an origin change is refused: the region asked for is empty, or the region being
left is bounded and the new start lies below its pc or not above its start. -/
def OrgOverlap (s : St) (start stop : Int) : Prop :=
  (0 < stop ∧ stop < start) ∨ (0 < s.orgEnd ∧ (start < s.pc ∨ start ≤ s.org))

/-- How many bytes are added when a region is left: up to the new start or to the end of
the old region, whichever comes first. -/
def orgPadding (s : St) (start : Int) : Nat :=
  if 0 < s.orgEnd then (min start (s.orgEnd + 1) - s.pc).toNat else 0

/-- C25: an accepted origin change. -/
theorem C25_accept (d : Dialect) (h0 : 0 ≤ d.fillValue) (h1 : d.fillValue < 256) (start stop : Int) (s : St)
    (ho : 0 < s.orgEnd → s.org ≤ s.orgEnd) (hn : ¬ OrgOverlap s start stop) :
    changeOrg d start stop s = (.ok (), { s with
      bytes := s.bytes ++ List.replicate (orgPadding s start) (BitVec.ofInt 8 d.fillValue)
      org := start, orgEnd := stop, counter := 0 }) := by
  simp only [OrgOverlap, St.pc, not_or, not_and, Int.not_lt, Int.not_le] at hn
  unfold changeOrg
  rw [if_neg (by omega)]
  simp only
  by_cases hb : 0 < s.orgEnd
  · have ho := ho hb
    have hn2 := hn.2 hb
    rw [if_pos hb, if_neg (by omega)]
    by_cases hgt : start > s.orgEnd
    · rw [if_pos hgt, bytesRep_ok h0 h1]
      have : orgPadding s start = (s.orgEnd + 1 - (s.org + s.counter)).toNat := by
        simp only [orgPadding, St.pc, if_pos hb]; congr 1; omega
      rw [this]
    · rw [if_neg hgt, if_pos (by omega), bytesRep_ok h0 h1]
      have : orgPadding s start = (start - (s.org + s.counter)).toNat := by
        simp only [orgPadding, St.pc, if_pos hb]; congr 1; omega
      rw [this]
  · rw [if_neg hb]
    simp [orgPadding, hb]

/-- C25: a refused origin change raises `AddressOverlap` and emits nothing. -/
theorem C25_refuse (d : Dialect) (start stop : Int) (s : St)
    (ho : 0 < s.orgEnd → s.org ≤ s.orgEnd) (hn : OrgOverlap s start stop) :
    (changeOrg d start stop s).1 = .error .addressOverlap ∧ (changeOrg d start stop s).2.bytes = s.bytes := by
  simp only [OrgOverlap, St.pc] at hn
  unfold changeOrg
  by_cases hst : 0 < stop ∧ stop < start
  · rw [if_pos hst]; exact ⟨rfl, rfl⟩
  · rw [if_neg hst]
    have hn := hn.resolve_left hst
    have ho := ho hn.1
    simp only
    rw [if_pos hn.1]
    by_cases h1 : s.org + s.counter > start
    · rw [if_pos h1]; exact ⟨rfl, rfl⟩
    · rw [if_neg h1, if_neg (by omega), if_neg (by omega)]; exact ⟨rfl, rfl⟩

/-- C25: exactly when an origin change is refused. -/
theorem C25_refuse_iff (d : Dialect) (h0 : 0 ≤ d.fillValue) (h1 : d.fillValue < 256) (start stop : Int) (s : St)
    (ho : 0 < s.orgEnd → s.org ≤ s.orgEnd) :
    (changeOrg d start stop s).1 = .error .addressOverlap ↔ OrgOverlap s start stop := by
  constructor
  · intro h
    by_cases hn : OrgOverlap s start stop
    · exact hn
    · rw [C25_accept d h0 h1 start stop s ho hn] at h; simp at h
  · intro hn; exact (C25_refuse d start stop s ho hn).1

/-- The region a `.org` directive asks for: the end is 0, meaning unbounded, when omitted. -/
def OrgArgs (d : Dialect) (s : St) (args : List Str) (start stop : Int) : Prop :=
  (∃ a, args = [a] ∧ stop = 0 ∧ parseInteger d.sy s.labels a 64 false = .ok (some start)) ∨
  ∃ a b, args = [a, b] ∧ parseInteger d.sy s.labels a 64 false = .ok (some start) ∧
    parseInteger d.sy s.labels b 64 false = .ok (some stop)

/-- C25: the `.org` directive is the origin change. -/
theorem C25_org (d : Dialect) (env : Env) (rec : Str → M Unit)
    (hc : d.directives env (d.key "org".toList) = none) (t : Str) (ht : IsDirectiveToken d t "org")
    (args : List Str) (s : St) (start stop : Int)
    (ha : OrgArgs d s (substituteWithDict args s.defines 0) start stop) :
    execDirective d env rec (t :: args) s = changeOrg d start stop s := by
  rw [exec_builtin (p := ("org", directiveOrg d)) (by simp [builtinDirective]) hc ht]
  rcases ha with ⟨a, he, rfl, h1⟩ | ⟨a, b, he, h1, h2⟩
  · rw [he]
    simp only [directiveOrg]
    rw [bind_eq, parseArg_some h1]
  · rw [he]
    simp only [directiveOrg]
    rw [bind_eq, parseArg_some h1]
    simp only
    rw [bind_eq, parseArg_some h2]

/-- A bounded region of 4 bytes holding 1, and a second one starting right after it. -/
example : (assemble mos6502 {} 20 ".org $10 $13\nNOP\n.org $14 $17\n.db 1 2 3 4".toList mos6502.init).2.bytes =
    [0xEA, 0, 0, 0, 1, 2, 3, 4] := by decide +kernel
example : OrgOverlap { org := 0x10, orgEnd := 0x13, counter := 2 } 0x11 0x20 ∧
    ¬ OrgOverlap { org := 0x10, orgEnd := 0x13, counter := 2 } 0x12 0x20 ∧
    orgPadding { org := 0x10, orgEnd := 0x13, counter := 2 } 0x20 = 2 := by
  simp [OrgOverlap, orgPadding, St.pc]; decide

/-! ## C26 -/

/-- Statements that stay in their region: instructions, labels, and every built-in
directive except `.org`, `.section`, `.ram` and `.include`. -/
inductive SteadyStmt (d : Dialect) (env : Env) : Stmt → Prop
  | instr (tokens l) : SteadyStmt d env ⟨.instr, tokens, l⟩
  | label (tokens l) : SteadyStmt d env ⟨.label, tokens, l⟩
  | directive (name : String) (t args l) : name ∈ steadyNames → d.directives env (d.key name.toList) = none →
      IsDirectiveToken d t name → SteadyStmt d env ⟨.directive, t :: args, l⟩

/-- `Regions s l s'`: the statements `l`, executed from `s`, end in `s'`; they are steady
statements and `.org start stop` directives whose start is the address after the end of
the region they close. -/
inductive Regions (d : Dialect) (env : Env) (depth : Nat) (rec : Str → M Unit) : St → List Stmt → St → Prop
  | done (s) : Regions d env depth rec s [] s
  | stmt (st l s s1 s') : SteadyStmt d env st → execStmt d env depth rec st s = (.ok (), s1) →
      Regions d env depth rec s1 l s' → Regions d env depth rec s (st :: l) s'
  | next (t args n l s s1 s' start stop) : IsDirectiveToken d t "org" →
      OrgArgs d s (substituteWithDict args s.defines 0) start stop → 0 < s.orgEnd → start = s.orgEnd + 1 →
      execStmt d env depth rec ⟨.directive, t :: args, n⟩ s = (.ok (), s1) →
      Regions d env depth rec s1 l s' → Regions d env depth rec s (⟨.directive, t :: args, n⟩ :: l) s'

theorem Regions.runs {d : Dialect} {env : Env} {depth : Nat} {rec : Str → M Unit} {s s' : St} {l : List Stmt}
    (h : Regions d env depth rec s l s') : forEach l (execStmt d env depth rec) s = (.ok (), s') := by
  induction h with
  | done s => rfl
  | stmt st l s s1 s' _ h _ ih => rw [forEach_cons, h]; exact ih
  | next t args n l s s1 s' a b _ _ _ _ h _ ih => rw [forEach_cons, h]; exact ih

theorem steady_keeps {d : Dialect} {env : Env} {depth : Nat} {rec : Str → M Unit} {st : Stmt} (h : SteadyStmt d env st)
    (s : St) : (execStmt d env depth rec st s).2.org = s.org ∧ (execStmt d env depth rec st s).2.orgEnd = s.orgEnd ∧
    ((execStmt d env depth rec st s).2.bytes.length : Int) - (execStmt d env depth rec st s).2.pc =
      s.bytes.length - s.pc := by
  cases h with
  | instr tokens l =>
    have := C20_instruction d depth none ⟨.instr, tokens, l⟩ s
    exact ⟨this.org, this.orgEnd, by have := this.pc; simp only [execStmt]; omega⟩
  | label tokens l =>
    simp only [execStmt, execLabel]
    repeat' split
    all_goals exact ⟨rfl, rfl, rfl⟩
  | directive name t args l hn hc ht =>
    have := C20_directive d env rec name hn hc t ht args s
    exact ⟨this.org, this.orgEnd, by have := this.pc; simp only [execStmt]; omega⟩

/-- C26: in a program made of contiguous bounded regions, the distance in the file between
any two points is the distance between their addresses. -/
theorem C26_offsets (d : Dialect) (h0 : 0 ≤ d.fillValue) (h1 : d.fillValue < 256) (env : Env)
    (hc : d.directives env (d.key "org".toList) = none) (depth : Nat) (rec : Str → M Unit) (s s' : St) (l : List Stmt)
    (ho : 0 < s.orgEnd → s.org ≤ s.orgEnd) (h : Regions d env depth rec s l s') :
    (s'.bytes.length : Int) - s.bytes.length = s'.pc - s.pc ∧ (0 < s'.orgEnd → s'.org ≤ s'.orgEnd) := by
  induction h with
  | done s => exact ⟨by omega, ho⟩
  | stmt st l s s1 s' hs he _ ih =>
    have hk := steady_keeps (depth := depth) (rec := rec) hs s
    rw [he] at hk
    simp only at hk
    have := ih (by rw [hk.1, hk.2.1]; exact ho)
    exact ⟨by omega, this.2⟩
  | next t args n l s s1 s' a b ht ha hb hab he _ ih =>
    have hx := C25_org d env rec hc t ht args s a b ha
    rw [execStmt_directive, hx] at he
    by_cases hn : OrgOverlap s a b
    · have := (C25_refuse d a b s ho hn).1
      rw [he] at this; simp at this
    · rw [C25_accept d h0 h1 a b s ho hn] at he
      injection he with _ he
      have hs1 : s1.org = a ∧ s1.orgEnd = b ∧ s1.counter = 0 ∧
          s1.bytes.length = s.bytes.length + orgPadding s a := by subst he; simp
      simp only [OrgOverlap, not_or, not_and] at hn
      have h2 := hn.2 hb
      have hp : (orgPadding s a : Int) = a - s.pc := by
        simp only [orgPadding, if_pos hb]; omega
      have := ih (by omega)
      refine ⟨?_, this.2⟩
      have h3 := this.1
      simp only [St.pc] at h3 hp ⊢
      omega

/-- C26: a label defined at some point of such a program, and what the rest of the program
emits: the label's address, counted from the address the program started at, is the
offset in the output of what follows it. -/
theorem C26_label (d : Dialect) (h0 : 0 ≤ d.fillValue) (h1 : d.fillValue < 256) (env : Env)
    (hcb : CustomKeeps d env (fun s s' => s.bytes <+: s'.bytes))
    (hc : d.directives env (d.key "org".toList) = none) (depth m : Nat) (s s1 s2 s' : St) (l l' : List Stmt)
    (ho : 0 < s.orgEnd → s.org ≤ s.orgEnd) (h : Regions d env depth (assemble d env m) s l s1)
    (name : Str) (rest : List Str) (hl : execLabel d (name :: rest) s1 = (.ok (), s2))
    (h' : forEach l' (execStmt d env depth (assemble d env m)) s2 = (.ok (), s')) :
    ∃ v before after, s2.labels.lookup name = some v ∧ s'.bytes = before ++ after ∧
      (before.length : Int) = s.bytes.length + (v.org + v.base - s.pc) := by
  obtain ⟨v, hv, ha, _⟩ := C21_address d name rest s1 s2 hl
  have hb : s2.bytes = s1.bytes := by
    obtain ⟨_, _, _, _, _, _, _, rfl⟩ := (C21_define_iff d _ s1 s2).1 hl; rfl
  have hk : Keeps (fun s s' => s.bytes <+: s'.bytes) (forEach l' (execStmt d env depth (assemble d env m))) :=
    .forEach (rel_bytes d).toDataRel fun st _ =>
      keeps_execStmt (rel_bytes d) env depth _ (fun c => keeps_assemble (rel_bytes d) env hcb m c) hcb st
  have hk := hk s2
  rw [h'] at hk
  obtain ⟨after, hk⟩ := hk
  have := (C26_offsets d h0 h1 env hc depth _ s s1 l ho h).1
  refine ⟨v, s1.bytes, after, hv, by rw [← hk, hb], by omega⟩

/-- C26: at the end of a source, an open bounded region is filled to its last address,
unless it is full or exactly one byte is missing. -/
theorem C26_final_fill (d : Dialect) (h0 : 0 ≤ d.fillValue) (h1 : d.fillValue < 256) (s : St) (hb : 0 < s.orgEnd) :
    (finalFill d s).1 = .ok () ∧
    (s.pc < s.orgEnd → (finalFill d s).2.pc = s.orgEnd + 1 ∧
      ∃ k : Nat, (k : Int) = s.orgEnd + 1 - s.pc ∧
        (finalFill d s).2.bytes = s.bytes ++ List.replicate k (BitVec.ofInt 8 d.fillValue)) ∧
    (s.orgEnd ≤ s.pc → (finalFill d s).2 = s) := by
  have hf : finalFill d s = if s.org + s.counter < s.orgEnd then
      appendBytes (List.replicate (s.orgEnd + 1 - (s.org + s.counter)).toNat (BitVec.ofInt 8 d.fillValue)) s
      else (.ok (), s) := by
    unfold finalFill
    rw [bind_eq, get_eq]
    simp only [if_pos hb]
    split
    · rw [bind_eq, lift_eq, bytesRep_ok h0 h1]
    · rfl
  rw [hf]
  simp only [St.pc]
  refine ⟨by split <;> rfl, ?_, ?_⟩
  · intro hlt
    rw [if_pos hlt]
    refine ⟨?_, (s.orgEnd + 1 - (s.org + s.counter)).toNat, by omega, rfl⟩
    simp only [appendBytes, modify_eq, List.length_replicate]
    omega
  · intro hge
    rw [if_neg (by omega)]

/-- C26: the size of a program of contiguous bounded regions.  Unless exactly one byte of the
last region is missing, the output covers every address from the start to the last end. -/
theorem C26_file_size (d : Dialect) (h0 : 0 ≤ d.fillValue) (h1 : d.fillValue < 256) (env : Env)
    (hc : d.directives env (d.key "org".toList) = none) (depth : Nat) (rec : Str → M Unit) (s s1 s' : St) (l : List Stmt)
    (ho : 0 < s.orgEnd → s.org ≤ s.orgEnd) (h : Regions d env depth rec s l s1)
    (hb : 0 < s1.orgEnd) (hin : s1.pc ≤ s1.orgEnd + 1) (hx : execStmts d env depth rec l s = (.ok (), s')) :
    (s1.pc ≠ s1.orgEnd → (s'.bytes.length : Int) - s.bytes.length = s1.orgEnd + 1 - s.pc) ∧
    (s1.pc = s1.orgEnd → (s'.bytes.length : Int) - s.bytes.length = s1.orgEnd - s.pc) := by
  unfold execStmts at hx
  rw [bind_eq, h.runs] at hx
  simp only at hx
  have hf := C26_final_fill d h0 h1 s1 hb
  have hoff := (C26_offsets d h0 h1 env hc depth rec s s1 l ho h).1
  rw [bind_eq] at hx
  cases hff : finalFill d s1 with
  | mk r s2 =>
  rw [hff] at hf hx
  simp only at hf
  rw [hf.1] at hx
  simp only at hx
  have hcl : s'.bytes = s2.bytes := by
    unfold closeSection at hx
    repeat' split at hx
    all_goals injection hx with _ hx; subst hx; rfl
  rw [hcl]
  constructor
  · intro hne
    by_cases hlt : s1.pc < s1.orgEnd
    · obtain ⟨_, k, hk, hb2⟩ := hf.2.1 hlt
      rw [hb2, List.length_append, List.length_replicate]
      omega
    · rw [hf.2.2 (by omega)]; omega
  · intro he
    rw [hf.2.2 (by omega)]; omega

/-- The missing byte: a region 0x10..0x13 holding three bytes stays three bytes long. -/
example : (assemble mos6502 {} 20 ".org $10 $13\n.db 1 2 3".toList mos6502.init).2.bytes = [1, 2, 3] := by
  decide +kernel
/-- With two bytes it is filled to four. -/
example : (assemble mos6502 {} 20 ".org $10 $13\n.db 1 2".toList mos6502.init).2.bytes = [1, 2, 0, 0] := by
  decide +kernel

/-- A run of two contiguous regions, `$10..$13` then `$14..$17`. -/
def regionStart : St := { org := 0x10, orgEnd := 0x13 }
def regionProgram : List Stmt :=
  [⟨.instr, ["NOP".toList], 1⟩, ⟨.directive, [".org".toList, "$14".toList, "$17".toList], 2⟩, ⟨.label, ["x".toList], 3⟩]

theorem run_ok {m : M Unit} {s : St} (h : (m s).1.toOption = some ()) : m s = (.ok (), (m s).2) := by
  rcases hm : m s with ⟨_ | _, _⟩
  · rw [hm] at h; simp [Except.toOption] at h
  · rfl

example : ∃ s', Regions mos6502 {} 5 (fun _ => pure ()) regionStart regionProgram s' :=
  ⟨_, .stmt _ _ _ _ _ (.instr ..) (run_ok (by decide +kernel))
    (.next _ _ _ _ _ _ _ 0x14 0x17 (by unfold IsDirectiveToken; decide)
      (.inr ⟨_, _, rfl, by decide +kernel, by decide +kernel⟩) (by decide +kernel) (by decide +kernel)
      (run_ok (by decide +kernel))
      (.stmt _ _ _ _ _ (.label ..) (run_ok (by decide +kernel)) (.done _)))⟩

end Necro
