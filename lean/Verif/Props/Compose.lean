import Verif.Lemmas.Fuel
import Verif.Props.Tokenizer
import Verif.Props.Macros
/-!
# C34, C35: sources in sequence, and included files
-/

namespace Necro
open Spec
open M (throw get modify lift forEach times)

theorem Alike.rest {s t : St} (h : Alike s t) : SameRest s t := by
  obtain ⟨a, b, rfl, _⟩ := h
  constructor <;> rfl

theorem Alike.same {s t : St} (h : Alike s t) (hs : SameSections s.sections t.sections) : SameState s t := by
  have hr := h.rest
  obtain ⟨a, b, rfl, hm, _⟩ := h
  exact { hr with macros := hm, sections := hs }

theorem Alike.refl (s : St) : Alike s s := ⟨s.macros, s.sections, rfl, rfl, rfl, fun _ => .inl rfl⟩

theorem SecRel.symm {c : Option Str} {a b : List (Str × Section)} (h : SecRel c a b) : SecRel c b a := by
  refine ⟨h.1.symm, fun k => ?_⟩
  rcases h.2 k with h | ⟨h1, h2, x, y, hx, hy, e1, e2, e3⟩
  · exact .inl h.symm
  · exact .inr ⟨h1, h2, y, x, hy, hx, e1.symm, e2.symm, e3.symm⟩

theorem Alike.symm {s t : St} (h : Alike s t) : Alike t s := by
  obtain ⟨a, b, rfl, hm, hs⟩ := h
  exact ⟨s.macros, s.sections, rfl, Eq.symm hm, hs.symm⟩

/-- Closing the open section changes nothing a later statement can see. -/
theorem alike_close {s t : St} {u : Unit} (h : closeSection s = (.ok u, t)) : Alike s t := by
  unfold closeSection at h
  cases hc : s.curSection with
  | none => rw [hc] at h; injection h with _ h; subst h; exact .refl s
  | some n =>
    rw [hc] at h
    simp only at h
    by_cases hn : n = []
    · rw [if_pos hn] at h; injection h with _ h; subst h; exact .refl s
    · rw [if_neg hn] at h
      cases hx : dget s.sections n with
      | none => rw [hx] at h; injection h with h _; cases h
      | some sec =>
        rw [hx] at h
        injection h with _ h
        subst h
        refine ⟨s.macros, dset s.sections n { sec with stop := some s.pc, size := some ((s.bytes.length : Int) - sec.offset) },
          by simp only [put, hc], rfl, ?_, fun k => ?_⟩
        · rw [dkeys_dset_mem]; rw [← dget_isSome_iff, hx]; rfl
        · by_cases hk : n = k
          · subst hk
            exact .inr ⟨hc, hn, sec, _, hx, dget_dset_self _ _ _, rfl, rfl, rfl⟩
          · rw [dget_dset_ne _ _ hk]; exact .inl rfl

/-- Outside bounded regions nothing is filled at the end of a source. -/
theorem finalFill_none (d : Dialect) {s : St} (h : s.orgEnd ≤ 0) : finalFill d s = (.ok (), s) := by
  unfold finalFill
  rw [bind_eq, get_eq]
  simp only
  rw [if_neg (by omega)]
  rfl

theorem finalFill_orgEnd (d : Dialect) (s : St) : (finalFill d s).2.orgEnd = s.orgEnd :=
  keeps_finalFill (R := fun a b => b.orgEnd = a.orgEnd)
    { refl := fun _ => rfl, trans := fun h1 h2 => h2.trans h1, append := fun _ _ => rfl, reloc := fun _ _ => rfl } d s

/-- A successful source that ends outside bounded regions: its statements, then closing the
open section. -/
theorem execStmts_split {d : Dialect} {env : Env} {depth : Nat} {rec : Str → M Unit} {l : List Stmt} {s s1 : St}
    (h : execStmts d env depth rec l s = (.ok (), s1)) (hend : s1.orgEnd ≤ 0) :
    ∃ s0, forEach l (execStmt d env depth rec) s = (.ok (), s0) ∧ closeSection s0 = (.ok (), s1) := by
  unfold execStmts at h
  rw [bind_eq] at h
  cases hf : forEach l (execStmt d env depth rec) s with
  | mk r s0 =>
  rw [hf] at h
  cases r with
  | error e => injection h with h _; cases h
  | ok u =>
    simp only at h
    rw [bind_eq] at h
    have ho := finalFill_orgEnd d s0
    cases hff : finalFill d s0 with
    | mk r2 s2 =>
    rw [hff] at h ho
    cases r2 with
    | error e => injection h with h _; cases h
    | ok u2 =>
      simp only at h ho
      have h1 := (alike_close h).rest.orgEnd
      have : s0.orgEnd ≤ 0 := by omega
      rw [finalFill_none d this] at hff
      injection hff with _ hff
      subst hff
      exact ⟨_, rfl, h⟩

/-- From states that behave alike, whole sources end in the same observable state. -/
theorem execStmts_same {d : Dialect} {env : Env} {depth : Nat} {rec : Str → M Unit} (hc : CustomResp d env)
    (hr : ∀ c, Resp (rec c) (rec c)) {l l' : List Stmt} (hl : l.map content = l'.map content) {s t : St}
    (h : Alike s t) :
    (execStmts d env depth rec l s).1 = (execStmts d env depth rec l' t).1 ∧
    SameRest (execStmts d env depth rec l s).2 (execStmts d env depth rec l' t).2 ∧
    ((execStmts d env depth rec l s).1 = .ok () →
      SameState (execStmts d env depth rec l s).2 (execStmts d env depth rec l' t).2) := by
  have h0 := (resp_execStmts hc hr depth hl).eq s t h
  refine ⟨h0.1, h0.2.rest, fun hok => h0.2.same ?_⟩
  have h1 := (resp_stmts hc hr depth hl).eq s t h
  unfold execStmts at hok ⊢
  rw [bind_eq] at hok ⊢
  rw [bind_eq]
  cases hs : forEach l (execStmt d env depth rec) s with
  | mk r s1 =>
  cases ht : forEach l' (execStmt d env depth rec) t with
  | mk r' t1 =>
  rw [hs, ht] at h1
  rw [hs] at hok
  simp only at h1
  obtain ⟨rfl, h2⟩ := h1
  cases r with
  | error e => cases hok
  | ok u =>
    simp only at hok ⊢
    have h3 := (resp_frame (frame_finalFill d) (cur_finalFill d)).eq s1 t1 h2
    rw [bind_eq] at hok ⊢
    rw [bind_eq]
    cases hs2 : finalFill d s1 with
    | mk r s2 =>
    cases ht2 : finalFill d t1 with
    | mk r' t2 =>
    rw [hs2, ht2] at h3
    rw [hs2] at hok
    simp only at h3
    obtain ⟨rfl, h4⟩ := h3
    cases r with
    | error e => cases hok
    | ok u => exact (close_exact h4).2.2 hok

theorem content_shift (l : List Stmt) (k : Nat) :
    (l.map fun s => { s with line := s.line + k }).map content = l.map content := by
  simp [content]

/-- C34.  Assemble `a`, then `b`, or assemble `a`, a line feed and `b` in one go: the same
outcome.  `a` closes its quotes, assembles without exception and leaves no bounded region
open; `b` is made of tokens.  Whatever happens in `b`, the output, labels, references,
position and the rest agree; when it succeeds the sections and macros agree too (macros up to
the line numbers remembered with their bodies).  `CustomResp` holds of every class whose
directives do not look at those line numbers, in particular of a class without directives of
its own. -/
theorem C34_concat {d : Dialect} {env : Env} {depth : Nat} {a b : Str} {s s1 : St} {sb : List Stmt}
    (hcustom : CustomResp d env) (ha : assemble d env depth a s = (.ok (), s1)) (hclosed : Closed a)
    (hregion : s1.orgEnd ≤ 0) (hb : tokenize b = .ok sb) :
    (assemble d env depth (a ++ '\n' :: b) s).1 = (assemble d env depth b s1).1 ∧
    SameRest (assemble d env depth b s1).2 (assemble d env depth (a ++ '\n' :: b) s).2 ∧
    ((assemble d env depth b s1).1 = .ok () →
      SameState (assemble d env depth b s1).2 (assemble d env depth (a ++ '\n' :: b) s).2) := by
  cases depth with
  | zero => rw [assemble] at ha; injection ha with ha _; cases ha
  | succ n =>
    rw [assemble, bind_eq, lift_eq] at ha
    cases hta : tokenize a with
    | error e => rw [hta] at ha; injection ha with ha _; cases ha
    | ok sa =>
      rw [hta] at ha
      simp only at ha
      obtain ⟨s0, h1, h2⟩ := execStmts_split ha hregion
      have hal := (alike_close h2).symm
      have htok := C08_compositional a b sa hta hclosed
      rw [hb] at htok
      simp only at htok
      have hleft : assemble d env (n + 1) (a ++ '\n' :: b) s =
          execStmts d env n (assemble d env n) (sb.map fun s => { s with line := s.line + (newlines a + 1) }) s0 := by
        rw [assemble, bind_eq, lift_eq, htok]
        simp only [execStmts]
        rw [bind_eq, bind_eq, forEach_append, h1]
      have hright : assemble d env (n + 1) b s1 = execStmts d env n (assemble d env n) sb s1 := by
        rw [assemble, bind_eq, lift_eq, hb]
      rw [hleft, hright]
      have := execStmts_same (d := d) (env := env) (depth := n) hcustom (resp_assemble hcustom n)
        (content_shift sb (newlines a + 1)).symm hal
      exact ⟨this.1.symm, this.2⟩

/-- C34.  If `a` fails, so does the concatenation, in the same way. -/
theorem C34_first_fails {d : Dialect} {env : Env} {depth : Nat} {a b : Str} {s s1 : St} {e : Err} {sa sb : List Stmt}
    (hta : tokenize a = .ok sa) (hclosed : Closed a) (hb : tokenize b = .ok sb)
    (ha : forEach sa (execStmt d env depth (assemble d env depth)) s = (.error e, s1)) :
    assemble d env (depth + 1) (a ++ '\n' :: b) s = (.error e, s1) ∧
    assemble d env (depth + 1) a s = (.error e, s1) := by
  have htok := C08_compositional a b sa hta hclosed
  rw [hb] at htok
  constructor
  · rw [assemble, bind_eq, lift_eq, htok]
    simp only [execStmts]
    rw [bind_eq, forEach_append, ha]
  · rw [assemble, bind_eq, lift_eq, hta]
    simp only [execStmts]
    rw [bind_eq, ha]

theorem stringify_ok {t n : Str} {s s' : St} (h : stringify t s = (.ok n, s')) : s' = s ∧ n = fileName t := by
  cases t with
  | nil => cases h
  | cons c r =>
    have e : stringify (c :: r) s = (if isQuote c then (Pure.pure (unquote (c :: r)) : M Str) else Pure.pure (c :: r)) s := rfl
    rw [e] at h
    unfold fileName
    by_cases hq : isQuote c = true
    · rw [if_pos hq] at h
      injection h with h1 h2
      injection h1 with h1
      refine ⟨h2.symm, ?_⟩
      rw [if_pos (by simpa [isQuote] using hq), ← h1]; rfl
    · rw [if_neg hq] at h
      injection h with h1 h2
      injection h1 with h1
      refine ⟨h2.symm, ?_⟩
      rw [if_neg (by simpa [isQuote] using hq), ← h1]

/-- C35.  A successful `.include` that ends outside bounded regions: the file exists, and
executing its statements in place succeeds, leaving a state with the same output, labels,
references, position and the rest.  If no section is open at the end the states are equal. -/
theorem C35_include {d : Dialect} {env : Env} {depth line : Nat} {t arg : Str} {s s' : St}
    (ht : IsDirectiveToken d t "include") (hover : d.directives env (d.key "include".toList) = none)
    (h : execStmt d env depth (assemble d env depth) ⟨.directive, [t, arg], line⟩ s = (.ok (), s'))
    (hregion : s'.orgEnd ≤ 0) :
    ∃ code stmts s0, env.text (fileName (substituteWithDict [arg] s.defines 0).head!) = some code ∧
      tokenize code = .ok stmts ∧
      forEach stmts (execStmt d env depth (assemble d env depth)) s = (.ok (), s0) ∧
      closeSection s0 = (.ok (), s') ∧ SameRest s' s0 ∧ (s'.curSection = none → s0 = s') := by
  rw [execStmt_directive, exec_builtin (p := ("include", directiveInclude env (assemble d env depth)))
    (by simp [builtinDirective]) hover ht [arg] s] at h
  have e : substituteWithDict [arg] s.defines 0 = [(substituteWithDict [arg] s.defines 0).head!] := rfl
  generalize (substituteWithDict [arg] s.defines 0).head! = arg' at e ⊢
  rw [e] at h
  simp only [directiveInclude, exactlyTwo] at h
  rw [bind_eq, pure_eq] at h
  simp only at h
  rw [bind_eq] at h
  cases hst : stringify arg' s with
  | mk r s2 =>
  rw [hst] at h
  cases r with
  | error e => injection h with h _; cases h
  | ok name =>
    obtain ⟨rfl, rfl⟩ := stringify_ok hst
    simp only at h
    rw [bind_eq] at h
    cases hcode : env.text (fileName arg') with
    | none => rw [hcode] at h; injection h with h _; cases h
    | some code =>
      rw [hcode] at h
      simp only [openFile] at h
      rw [pure_eq] at h
      simp only at h
      cases depth with
      | zero => rw [assemble] at h; injection h with h _; cases h
      | succ n =>
        rw [assemble, bind_eq, lift_eq] at h
        cases htk : tokenize code with
        | error e => rw [htk] at h; injection h with h _; cases h
        | ok stmts =>
          rw [htk] at h
          simp only at h
          obtain ⟨s0, h1, h2⟩ := execStmts_split h hregion
          have h3 := (le_forEach stmts fun st => le_execStmt d env n (le_assemble d env n) st).le s2 () s0 h1
          have hal := alike_close h2
          refine ⟨code, stmts, s0, rfl, htk, h3, h2, hal.symm.rest, fun hn => ?_⟩
          have hcs := hal.rest.curSection
          unfold closeSection at h2
          rw [← hcs, hn] at h2
          injection h2 with _ h2

/-- C35.  In a whole source: replace an `.include` statement by the statements of the file.
The result is the same, up to the line numbers in macro bodies. -/
theorem C35_inline {d : Dialect} {env : Env} {depth line : Nat} {t arg : Str} {s s' s1 : St} {before after : List Stmt}
    (hcustom : CustomResp d env)
    (ht : IsDirectiveToken d t "include") (hover : d.directives env (d.key "include".toList) = none)
    (h1 : forEach (before ++ [⟨.directive, [t, arg], line⟩]) (execStmt d env depth (assemble d env depth)) s = (.ok (), s1))
    (hregion : s1.orgEnd ≤ 0)
    (h : execStmts d env depth (assemble d env depth) (before ++ [⟨.directive, [t, arg], line⟩] ++ after) s = (.ok (), s')) :
    ∃ sb code stmts s'', forEach before (execStmt d env depth (assemble d env depth)) s = (.ok (), sb) ∧
      env.text (fileName (substituteWithDict [arg] sb.defines 0).head!) = some code ∧ tokenize code = .ok stmts ∧
      execStmts d env depth (assemble d env depth) (before ++ stmts ++ after) s = (.ok (), s'') ∧ SameState s' s'' := by
  have h1' := h1
  rw [forEach_append] at h1'
  cases hb : forEach before (execStmt d env depth (assemble d env depth)) s with
  | mk r sb =>
  rw [hb] at h1'
  cases r with
  | error e => injection h1' with h1' _; cases h1'
  | ok u =>
    simp only at h1'
    rw [forEach_cons] at h1'
    cases hi : execStmt d env depth (assemble d env depth) ⟨.directive, [t, arg], line⟩ sb with
    | mk r si =>
    rw [hi] at h1'
    cases r with
    | error e => injection h1' with h1' _; cases h1'
    | ok u =>
      simp only [forEach] at h1'
      injection h1' with _ h1'
      subst h1'
      obtain ⟨code, stmts, s0, g1, g2, g3, g4, _⟩ := C35_include ht hover hi hregion
      have hal := (alike_close g4).symm
      have e1 : execStmts d env depth (assemble d env depth) (before ++ [⟨.directive, [t, arg], line⟩] ++ after) s =
          execStmts d env depth (assemble d env depth) after si := by
        simp only [execStmts]
        rw [bind_eq, bind_eq, forEach_append, h1]
      have e2 : execStmts d env depth (assemble d env depth) (before ++ stmts ++ after) s =
          execStmts d env depth (assemble d env depth) after s0 := by
        simp only [execStmts]
        rw [bind_eq, bind_eq, forEach_append, forEach_append, hb]
        simp only [g3]
      have hsame := execStmts_same (d := d) (env := env) (depth := depth) hcustom (resp_assemble hcustom depth)
        (rfl : after.map content = after.map content) hal
      rw [← e1, ← e2, h] at hsame
      obtain ⟨q1, _, q3⟩ := hsame
      cases hx : execStmts d env depth (assemble d env depth) (before ++ stmts ++ after) s with
      | mk r s'' =>
      rw [hx] at q1 q3
      simp only at q1
      subst q1
      exact ⟨sb, code, stmts, s'', rfl, g1, g2, hx, q3 rfl⟩

theorem customResp_none {d : Dialect} {env : Env} (h : ∀ key, d.directives env key = none) : CustomResp d env := by
  intro key f hf
  rw [h key] at hf
  cases hf

/-- A two-part program with a section, a macro and a forward reference. -/
def partA : Str := ".section code R\n.macro M x\nLDA #x\n.endmacro\nM 3 ; load\nJMP end".toList
def partB : Str := "M 4\nend: NOP\n.section data RW\n.db 1".toList

example : CustomResp mos6502 {} ∧ Closed partA ∧ (assemble mos6502 {} 9 partA mos6502.init).1.toOption = some () ∧
    (assemble mos6502 {} 9 partA mos6502.init).2.orgEnd ≤ 0 ∧ (tokenize partB).toOption.isSome ∧
    (assemble mos6502 {} 9 partA mos6502.init).2.curSection = some "code".toList ∧
    (assemble mos6502 {} 9 (partA ++ '\n' :: partB) mos6502.init).2.bytes =
      [0xA9, 3, 0x4C, 0, 0, 0xA9, 4, 0xEA, 1] := by
  refine ⟨customResp_none fun _ => rfl, ?_⟩
  decide +kernel

/-- An open quote: the two ways differ. -/
example : ((assemble mos6502 {} 9 "NOP\n.db \"a".toList mos6502.init).2.bytes = [0xEA]) ∧
    (assemble mos6502 {} 9 "NOP\n.db \"a\nNOP".toList mos6502.init).2.bytes = [0xEA] ∧
    (assemble mos6502 {} 9 "NOP".toList (assemble mos6502 {} 9 "NOP\n.db \"a".toList mos6502.init).2).2.bytes =
      [0xEA, 0xEA] := by decide +kernel

/-- An open bounded region: the end of the first source fills it. -/
example : (assemble mos6502 {} 9 ".org 0 7\nNOP\nNOP".toList mos6502.init).2.bytes.length = 8 ∧
    (assemble mos6502 {} 9 "NOP".toList (assemble mos6502 {} 9 ".org 0 7\nNOP".toList mos6502.init).2).2.bytes.length = 9 := by
  decide +kernel

def incEnv : Env := { text := fun n => if n = "a.inc".toList then some ".define K 5\nLDA #K\nL:".toList else none }

example : (assemble mos6502 incEnv 9 "NOP\n.include \"a.inc\"\nLDX #K\nJMP L".toList mos6502.init).1.toOption = some () ∧
    (assemble mos6502 incEnv 9 "NOP\n.include \"a.inc\"\nLDX #K\nJMP L".toList mos6502.init).2.bytes =
      (assemble mos6502 incEnv 9 "NOP\n.define K 5\nLDA #K\nL:\nLDX #K\nJMP L".toList mos6502.init).2.bytes := by
  decide +kernel

end Necro
