import Verif.Lemmas.Hushed
import Verif.Spec.Expand
import Verif.Props.Unused
/-!
# C98: definitions are abbreviations
-/

namespace Necro
open Spec
open M (throw get modify lift forEach times)

/-! ## replacing -/

/-- The table of the run and the table of the specification say the same. -/
def Tracks (a defs : List (Str × Str)) : Prop := ∀ k, dget defs k = a.lookup k

theorem tracks_refl (a : List (Str × Str)) : Tracks a a := fun k => dget_eq_lookup a k

theorem Tracks.set {a defs : List (Str × Str)} (h : Tracks a defs) (k v : Str) : Tracks ((k, v) :: a) (dset defs k v) := by
  intro k'
  rw [dget_dset, List.lookup_cons]
  by_cases hk : k = k'
  · subst hk; simp
  · rw [if_neg hk, h k']
    have : (k' == k) = false := by simpa using fun e => hk e.symm
    rw [this]

theorem tracks_run {a defs : List (Str × Str)} (h : Tracks a defs) (w : Str) : subRun defs w = meaning a w := by
  unfold subRun meaning
  rw [h w]
  cases a.lookup w <;> rfl

theorem tracks_scan {a defs : List (Str × Str)} (h : Tracks a defs) : ∀ (cs acc out : Str), subScan defs acc out cs = out ++ replacedFrom a acc cs
  | [], acc, out => by
    unfold subScan replacedFrom
    by_cases ha : acc = []
    · simp [ha]
    · simp [ha, tracks_run h]
  | c :: cs, acc, out => by
    unfold subScan replacedFrom
    by_cases hc : isNameChar c = true
    · rw [if_pos hc, if_pos hc, tracks_scan h cs]
    · rw [if_neg hc, if_neg hc]
      by_cases ha : acc = []
      · simp [ha, tracks_scan h cs]
      · simp [ha, tracks_scan h cs, tracks_run h]

theorem tracks_token {a defs : List (Str × Str)} (h : Tracks a defs) (t : Str) : subToken defs t = replaced a t := by
  unfold subToken replaced
  rw [h t]
  cases a.lookup t with
  | some v => rfl
  | none => exact tracks_scan h t [] []

theorem tracks_tokens {a defs : List (Str × Str)} (h : Tracks a defs) (ts : List Str) : substituteWithDict ts defs 0 = ts.map (replaced a) := by
  unfold substituteWithDict
  simp only [List.take_zero, List.drop_zero, List.nil_append]
  exact List.map_congr_left fun t _ => tracks_token h t

theorem own_tokens {own : List (Str × Str)} {ts : List Str} (h : ∀ t ∈ ts, replaced own t = t) : substituteWithDict ts own 0 = ts := by
  rw [tracks_tokens (tracks_refl own)]
  conv => rhs; rw [← List.map_id ts]
  exact List.map_congr_left h

/-! ## states with other definitions -/

def putDefs (x : List (Str × Str)) (s : St) : St := { s with defines := x }

theorem Aloof.putDefs {m : M α} (h : Aloof m) (x : List (Str × Str)) (s : St) : m (putDefs x s) = ((m s).1, Necro.putDefs x (m s).2) := by
  have h1 := h.eq s (s.log, s.exports, x) s.macros
  obtain ⟨g1, g2, -, g4⟩ := h.fields s
  rw [show Necro.putDefs x s = aside (s.log, s.exports, x) s.macros s from rfl, h1]
  congr 1
  unfold aside Necro.putDefs
  simp only [← g1, ← g2, ← g4]

/-- What a step does does not depend on the definitions, and it keeps them and the macros. -/
structure Apart (m : M Unit) (m' : M Unit) (x : List (Str × Str)) (s : St) : Prop where
  same : m' (putDefs x s) = ((m s).1, putDefs x (m s).2)
  macros : (m s).2.macros = []
  defines : (m s).2.defines = s.defines

theorem Aloof.apart {m : M Unit} (h : Aloof m) {x : List (Str × Str)} {s : St} (hs : s.macros = []) : Apart m m x s :=
  ⟨h.putDefs x s, by rw [(h.fields s).2.2.2, hs], (h.fields s).2.2.1⟩

theorem apart_log (l : List Str) {x : List (Str × Str)} {s : St} (hs : s.macros = []) : Apart (directiveLog l) (directiveLog l) x s := by
  have h : ∀ c, Apart (modify fun s => { s with log := c }) (modify fun s => { s with log := c }) x s := fun c => ⟨rfl, hs, rfl⟩
  unfold directiveLog
  split
  · exact h _
  · split
    · exact h _
    · split
      · exact h _
      · exact ⟨rfl, hs, rfl⟩

theorem apart_bind {α : Type} {m : M α} {f : α → M Unit} (hm : Aloof m) {x : List (Str × Str)} {s : St} (hs : s.macros = []) (hf : ∀ y s, s.macros = [] → Apart (f y) (f y) x s) :
    Apart (m >>= f) (m >>= f) x s := by
  have h1 := hm.putDefs x s
  obtain ⟨-, -, g3, g4⟩ := hm.fields s
  rcases hr : m s with ⟨er | y, s1⟩
  · rw [hr] at h1 g3 g4
    have e : (m >>= f) s = (.error er, s1) := by rw [bind_eq, hr]
    refine ⟨?_, ?_, ?_⟩ <;> rw [e]
    · rw [bind_eq, h1]
    · exact g4.trans hs
    · exact g3
  · rw [hr] at h1 g3 g4
    have h2 := hf y s1 (g4.trans hs)
    have e : (m >>= f) s = f y s1 := by rw [bind_eq, hr]
    refine ⟨?_, ?_, ?_⟩ <;> rw [e]
    · rw [bind_eq, h1]; exact h2.same
    · exact h2.macros
    · exact h2.defines.trans g3

theorem apart_export (l : List Str) {x : List (Str × Str)} {s : St} (hs : s.macros = []) : Apart (directiveExport l) (directiveExport l) x s := by
  refine apart_bind (aloof_exactlyTwo l) hs fun a s hs => apart_bind (aloof_stringify a) hs fun name s hs => ?_
  have e : ∀ s : St, (do let s ← get; if name ∈ s.exports then throw .symbolAlreadyExported else modify fun s => { s with exports := s.exports ++ [name] } : M Unit) s =
      if name ∈ s.exports then (.error .symbolAlreadyExported, s) else (.ok (), { s with exports := s.exports ++ [name] }) := by
    intro s
    rw [bind_eq, get_eq]
    dsimp only
    by_cases h : name ∈ s.exports
    · rw [if_pos h, if_pos h]; rfl
    · rw [if_neg h, if_neg h]; rfl
  refine ⟨?_, ?_, ?_⟩ <;> rw [e]
  · rw [e]
    by_cases h : name ∈ s.exports
    · rw [if_pos h, if_pos (show name ∈ (putDefs x s).exports from h)]
    · rw [if_neg h, if_neg (show name ∉ (putDefs x s).exports from h)]; rfl
  · split <;> exact hs
  · split <;> rfl

/-! ## statements -/

variable {d : Dialect} {env : Env}

theorem apart_directive (hc : CustomAloof d env) {rec : Str → M Unit} {t : Str} (h1 : isNamed d t "macro" = false) (h2 : isNamed d t "include" = false) (h3 : isNamed d t "define" = false)
    {f : List Str → M Unit} (hf : lookupDirective d env rec (d.key (t.drop 1)) = some f) (l : List Str) {x : List (Str × Str)} {s : St} (hs : s.macros = []) : Apart (f l) (f l) x s := by
  unfold lookupDirective at hf
  cases hg : d.directives env (d.key (t.drop 1)) with
  | some q => rw [hg] at hf; cases hf; exact (hc _ _ hg _).apart hs
  | none =>
    rw [hg] at hf
    obtain ⟨p, hp, he⟩ := List.mem_map.1 (mem_of_dget hf)
    have hk : d.key p.1.toList = d.key (t.drop 1) := congrArg Prod.fst he
    have hv : p.2 = f := congrArg Prod.snd he
    subst hv
    unfold isNamed at h1 h2 h3
    rcases aloof_cases hp with h | rfl | rfl | rfl | rfl | rfl | rfl
    · exact (aloof_builtin d env p h _).apart hs
    · rw [← hk] at h1; simp at h1
    · exact (aloof_section d _).apart hs
    · rw [← hk] at h2; simp at h2
    · exact apart_log _ hs
    · exact apart_export _ hs
    · rw [← hk] at h3; simp at h3

theorem apart_execDirective (hc : CustomAloof d env) {rec : Str → M Unit} {t : Str} (h1 : isNamed d t "macro" = false) (h2 : isNamed d t "include" = false) (h3 : isNamed d t "define" = false)
    {a x : List (Str × Str)} {r : List Str} {s : St} (hs : s.macros = []) (ha : Tracks a s.defines) (hx : ∀ t ∈ r.map (replaced a), replaced x t = t) :
    Apart (execDirective d env rec (t :: r)) (execDirective d env rec (t :: r.map (replaced a))) x s := by
  have e : ∀ (s : St) (args : List Str), execDirective d env rec (t :: args) s =
      (match lookupDirective d env rec (d.key (t.drop 1)) with | none => throw .unknownDirective | some f => f (t :: substituteWithDict args s.defines 0)) s := by
    intro s args
    unfold execDirective
    rw [bind_eq, get_eq]
    simp only [substitute_cons]
    cases lookupDirective d env rec (d.key (t.drop 1)) <;> rfl
  have el := e s r
  have er := e (putDefs x s) (r.map (replaced a))
  rw [tracks_tokens ha] at el
  rw [show (putDefs x s).defines = x from rfl, own_tokens hx] at er
  revert el er
  cases hl : lookupDirective d env rec (d.key (t.drop 1)) with
  | none =>
    intro el er
    have el : execDirective d env rec (t :: r) s = (.error .unknownDirective, s) := el
    have er : execDirective d env rec (t :: r.map (replaced a)) (putDefs x s) = (.error .unknownDirective, putDefs x s) := er
    exact ⟨by rw [el, er], by rw [el]; exact hs, by rw [el]⟩
  | some f =>
    intro el er
    have := apart_directive hc h1 h2 h3 hl (t :: r.map (replaced a)) (x := x) hs
    exact ⟨by rw [el, er]; exact this.same, by rw [el]; exact this.macros, by rw [el]; exact this.defines⟩

theorem apart_execInstr (depth : Nat) {ts : List Str} {ln ln' : Nat} {a x : List (Str × Str)} {s : St} (hs : s.macros = []) (ha : Tracks a s.defines)
    (hx : ∀ t ∈ ts.map (replaced a), replaced x t = t) : Apart (execInstr d depth none ⟨.instr, ts, ln⟩) (execInstr d depth none ⟨.instr, ts.map (replaced a), ln'⟩) x s := by
  cases depth with
  | zero => exact ⟨rfl, hs, rfl⟩
  | succ n =>
    let body : List Str → M Unit := fun tokens =>
      match tokens with
      | [] => throw .indexError
      | t :: _ => match d.instrs (d.key t) with
        | none => throw .unknownInstruction
        | some (.fixed blob) => if tokens.length ≠ 1 then throw .invalidOpCodeArguments else appendBytes blob
        | some (.handler f) => runHandler d f tokens >>= appendBytes
    have e : ∀ (s : St) (ts : List Str) (ln : Nat), s.macros = [] → execInstr d (n + 1) none ⟨.instr, ts, ln⟩ s =
        match s.recording with
        | some key => (.error .keyError, s)
        | none => body (substituteWithDict ts s.defines 0) s := by
      intro s ts ln hs
      rw [execInstr, bind_eq, get_eq]
      dsimp only
      cases s.recording with
      | some key =>
        dsimp only
        unfold recordStmt
        rw [hs]
        rfl
      | none =>
        dsimp only
        rw [hs]
        show (writeBack none _ >>= _) s = _
        rw [bind_eq]
        dsimp only [writeBack]
        show (match substituteWithDict ts s.defines 0 with | [] => _ | t :: _ => _ : M Unit) s = _
        cases substituteWithDict ts s.defines 0 with
        | nil => rfl
        | cons t r => rfl
    have hb : ∀ l, Aloof (body l) := by
      intro l
      cases l with
      | nil => exact .throw _
      | cons t r =>
        show Aloof (match d.instrs (d.key t) with | none => _ | some (.fixed blob) => _ | some (.handler f) => _)
        cases d.instrs (d.key t) with
        | none => exact .throw _
        | some i =>
          cases i with
          | fixed blob => exact .ite (.throw _) (aloof_appendBytes _)
          | handler f => exact .bind (aloof_runHandler _ _ _) fun _ => aloof_appendBytes _
    have el := e s ts ln hs
    have er := e (putDefs x s) (ts.map (replaced a)) ln' hs
    rw [tracks_tokens ha] at el
    rw [show (putDefs x s).defines = x from rfl, own_tokens hx, show (putDefs x s).recording = s.recording from rfl] at er
    cases hr : s.recording with
    | some key =>
      rw [hr] at el er
      exact ⟨by rw [el, er], by rw [el]; exact hs, by rw [el]⟩
    | none =>
      rw [hr] at el er
      have := (hb (ts.map (replaced a))).apart (x := x) hs
      exact ⟨by rw [el, er]; exact this.same, by rw [el]; exact this.macros, by rw [el]; exact this.defines⟩

/-! ## sources -/

/-- Two runs that give the same but for the definitions; those of the first follow the table. -/
structure Along (m m' : M Unit) (x b : List (Str × Str)) (s : St) : Prop where
  same : m' (putDefs x s) = ((m s).1, putDefs x (m s).2)
  macros : (m s).2.macros = []
  defines : (m s).1 = .ok () → Tracks b (m s).2.defines

theorem Apart.along {m m' : M Unit} {x a : List (Str × Str)} {s : St} (h : Apart m m' x s) (ha : Tracks a s.defines) : Along m m' x a s :=
  ⟨h.same, h.macros, fun _ => by rw [h.defines]; exact ha⟩

theorem Along.bind {m m' : M Unit} {f f' : Unit → M Unit} {x a b : List (Str × Str)} {s : St} (h : Along m m' x a s)
    (hf : ∀ s, s.macros = [] → Tracks a s.defines → Along (f ()) (f' ()) x b s) : Along (m >>= f) (m' >>= f') x b s := by
  obtain ⟨h1, h2, h3⟩ := h
  rcases hr : m s with ⟨er | y, s1⟩
  · rw [hr] at h1 h2 h3
    have e : (m >>= f) s = (.error er, s1) := by rw [bind_eq, hr]
    refine ⟨?_, ?_, ?_⟩ <;> rw [e]
    · rw [bind_eq, h1]
    · exact h2
    · intro h; cases h
  · rw [hr] at h1 h2 h3
    have h4 := hf s1 h2 (h3 rfl)
    have e : (m >>= f) s = f () s1 := by rw [bind_eq, hr]
    refine ⟨?_, ?_, ?_⟩ <;> rw [e]
    · rw [bind_eq, h1]; exact h4.same
    · exact h4.macros
    · exact h4.defines

theorem along_stmts (hc : CustomAloof d env) (hn : ∀ w ∈ ["define"], d.directives env (d.key w.toList) = none) {rec : Str → M Unit} {depth : Nat} {x : List (Str × Str)} :
    ∀ (l l' : List Stmt) (a b : List (Str × Str)), expand d a l = some (l'.map content, b) → (∀ st ∈ l', ∀ t ∈ st.tokens, replaced x t = t) → ∀ s : St, s.macros = [] → Tracks a s.defines →
      Along (forEach l (execStmt d env depth rec)) (forEach l' (execStmt d env depth rec)) x b s
  | [], l', a, b, h, _, s, hs, ha => by
    simp only [expand, Option.some.injEq, Prod.mk.injEq] at h
    obtain ⟨h1, rfl⟩ := h
    cases List.map_eq_nil_iff.1 h1.symm
    exact ⟨rfl, hs, fun _ => ha⟩
  | ⟨kind, tokens, ln⟩ :: l, l', a, b, h, hx, s, hs, ha => by
    have line : ∀ y, (expand d a l).map (fun r => (y :: r.1, r.2)) = some (l'.map content, b) →
        (∀ ln', (∀ t ∈ y.2, replaced x t = t) → Apart (execStmt d env depth rec ⟨kind, tokens, ln⟩) (execStmt d env depth rec ⟨y.1, y.2, ln'⟩) x s) →
        Along (forEach (⟨kind, tokens, ln⟩ :: l) (execStmt d env depth rec)) (forEach l' (execStmt d env depth rec)) x b s := by
      intro y hy hstep
      cases he : expand d a l with
      | none => rw [he] at hy; cases hy
      | some r =>
        rw [he] at hy
        simp only [Option.map_some, Option.some.injEq, Prod.mk.injEq] at hy
        obtain ⟨hy1, rfl⟩ := hy
        cases l' with
        | nil => cases hy1
        | cons st l' =>
          simp only [List.map_cons, List.cons.injEq] at hy1
          obtain ⟨hy1, hy2⟩ := hy1
          have hst : st = ⟨y.1, y.2, st.line⟩ := by rw [hy1]; rfl
          rw [hst]
          refine Along.bind ((hstep st.line ?_).along ha) fun s hs ha => ?_
          · have := hx st (by simp)
            rw [hst] at this
            exact this
          · exact along_stmts hc hn l l' a _ (by rw [he, ← hy2]) (fun st hst => hx st (by simp [hst])) s hs ha
    cases kind with
    | label =>
      refine line (.label, tokens) (by simpa [expand] using h) fun ln' _ => ?_
      exact (aloof_execLabel d tokens).apart hs
    | instr =>
      refine line (.instr, tokens.map (replaced a)) (by simpa [expand] using h) fun ln' hy => ?_
      exact apart_execInstr depth hs ha hy
    | directive =>
      cases tokens with
      | nil => simp [expand] at h
      | cons t r =>
        cases h1 : isNamed d t "macro" with
        | true => simp [expand, h1] at h
        | false =>
          cases h2 : isNamed d t "include" with
          | true => simp [expand, h2] at h
          | false =>
            cases h3 : isNamed d t "define" with
            | false =>
              refine line (.directive, t :: r.map (replaced a)) (by simpa [expand, h1, h2, h3] using h) fun ln' hy => ?_
              exact apart_execDirective hc h1 h2 h3 hs ha fun t ht => hy t (by simp [ht])
            | true =>
              match r, h with
              | [n, v], h =>
                have h : expand d ((replaced a n, replaced a v) :: a) l = some (l'.map content, b) := by simpa [expand, h1, h2, h3] using h
                have ht : IsDirectiveToken d t "define" := by unfold isNamed at h3; exact eq_of_beq h3
                have hstep : execStmt d env depth rec ⟨.directive, [t, n, v], ln⟩ s = (.ok (), putDefs (dset s.defines (replaced a n) (replaced a v)) s) := by
                  rw [execStmt_directive, exec_builtin (p := ("define", directiveDefine)) (by simp [builtinDirective]) (hn _ (by simp)) ht, tracks_tokens ha]
                  rfl
                have ih := along_stmts hc hn (rec := rec) (depth := depth) l l' _ b h hx (putDefs (dset s.defines (replaced a n) (replaced a v)) s) hs (ha.set _ _)
                have e : forEach (⟨.directive, [t, n, v], ln⟩ :: l) (execStmt d env depth rec) s = forEach l (execStmt d env depth rec) (putDefs (dset s.defines (replaced a n) (replaced a v)) s) := by
                  rw [forEach_cons, hstep]
                refine ⟨?_, ?_, ?_⟩ <;> rw [e]
                · exact ih.same
                · exact ih.macros
                · exact ih.defines
              | [], h => simp [expand, h1, h2, h3] at h
              | [_], h => simp [expand, h1, h2, h3] at h
              | _ :: _ :: _ :: _, h => simp [expand, h1, h2, h3] at h

theorem along_assemble (hc : CustomAloof d env) (hn : ∀ w ∈ ["define"], d.directives env (d.key w.toList) = none) {x a b : List (Str × Str)} {c c' : Str} {l l' : List Stmt}
    (hl : tokenize c = .ok l) (hl' : tokenize c' = .ok l') (h : expand d a l = some (l'.map content, b)) (hx : ∀ st ∈ l', ∀ t ∈ st.tokens, replaced x t = t) (depth : Nat) (s : St) (hs : s.macros = [])
    (ha : Tracks a s.defines) : Along (assemble d env depth c) (assemble d env depth c') x b s := by
  cases depth with
  | zero => exact ⟨rfl, hs, fun h => by cases h⟩
  | succ n =>
    rw [assemble, assemble, hl, hl']
    show Along (execStmts d env n (assemble d env n) l) (execStmts d env n (assemble d env n) l') x b s
    exact .bind (along_stmts hc hn l l' a b h hx s hs ha) fun s hs ha => .bind (((aloof_finalFill d).apart hs).along ha) fun s hs ha => (aloof_closeSection.apart hs).along ha

theorem along_sources (hc : CustomAloof d env) (hn : ∀ w ∈ ["define"], d.directives env (d.key w.toList) = none) {x a : List (Str × Str)} {fs fs' : List Str}
    (h : Expanded d env.text x a fs fs') (depth : Nat) : ∀ s : St, s.macros = [] → Tracks a s.defines →
      sourcesM d env depth fs' (putDefs x s) = ((sourcesM d env depth fs s).1, putDefs x (sourcesM d env depth fs s).2) := by
  induction h with
  | nil => exact fun s hs ha => rfl
  | @cons a b f f' fs fs' c c' l l' h1 h2 h3 h4 h5 h6 _ ih =>
    intro s hs ha
    have one : Along (openFile (env.text f) >>= assemble d env depth) (openFile (env.text f') >>= assemble d env depth) x b s := by
      rw [h1, h2]
      exact along_assemble hc hn h3 h4 h5 h6 depth s hs ha
    show ((openFile (env.text f') >>= assemble d env depth) >>= fun _ => sourcesM d env depth fs') (putDefs x s) =
      ((((openFile (env.text f) >>= assemble d env depth) >>= fun _ => sourcesM d env depth fs) s).1, putDefs x (((openFile (env.text f) >>= assemble d env depth) >>= fun _ => sourcesM d env depth fs) s).2)
    revert one
    generalize (openFile (env.text f) >>= assemble d env depth) = m
    generalize (openFile (env.text f') >>= assemble d env depth) = m'
    rintro ⟨g1, g2, g3⟩
    rw [bind_eq, bind_eq, g1]
    rcases hr : m s with ⟨_ | y, s1⟩
    · rfl
    · rw [hr] at g2 g3
      exact ih s1 g2 (g3 rfl)

/-- C98: a program with definitions, and the program with the definitions put in, give the same: the same bytes or the same error. -/
theorem C98_expand (tool : Tool) {env : Env} {sources sources' : List Str} (h : Expanded tool.dialect env.text tool.dialect.defines tool.dialect.defines sources sources') (depth : Nat) :
    build tool.dialect env depth sources = build tool.dialect env depth sources' := by
  have hs := along_sources (aloof_tool tool env) (fun w hw => tool_noOwn tool env w (by cases List.mem_singleton.1 hw; simp)) h depth tool.dialect.init rfl (tracks_refl _)
  rw [show putDefs tool.dialect.defines tool.dialect.init = tool.dialect.init from rfl] at hs
  have main : ∀ names, mainRun tool.dialect env depth names tool.dialect.init = (sourcesM tool.dialect env depth names >>= fun _ => link tool.dialect .dummy) tool.dialect.init := fun _ => rfl
  unfold build
  rw [main, main, bind_eq, bind_eq, hs]
  rcases sourcesM tool.dialect env depth sources tool.dialect.init with ⟨_ | _, s⟩
  · rfl
  · dsimp only
    rw [(aloof_link tool .dummy).putDefs]
    rcases link tool.dialect .dummy s with ⟨_ | _, s'⟩ <;> rfl

/-! ## Cases -/

/-- A check of one pair of sources, to be run. -/
def expandsTo (d : Dialect) (own a : List (Str × Str)) (c c' : Str) (b : List (Str × Str)) : Bool :=
  match tokenize c, tokenize c' with
  | .ok l, .ok l' => decide (expand d a l = some (l'.map content, b)) && l'.all fun st => st.tokens.all fun t => replaced own t == t
  | _, _ => false

theorem expanded_of {d : Dialect} {text : Str → Option Str} {own a b : List (Str × Str)} {f f' c c' : Str} {fs fs' : List Str} (h1 : text f = some c) (h2 : text f' = some c')
    (h : expandsTo d own a c c' b = true) (hr : Expanded d text own b fs fs') : Expanded d text own a (f :: fs) (f' :: fs') := by
  unfold expandsTo at h
  cases h3 : tokenize c with
  | error e => rw [h3] at h; cases h
  | ok l =>
    cases h4 : tokenize c' with
    | error e => rw [h3, h4] at h; cases h
    | ok l' =>
      rw [h3, h4] at h
      simp only [Bool.and_eq_true, decide_eq_true_eq, List.all_eq_true, beq_iff_eq] at h
      exact .cons h1 h2 h3 h4 h.1 h.2 hr

/-- Two sources with definitions, and two without. -/
def shortFiles : Env :=
  { text := fun n =>
      if n = "a.s".toList then some ".define one 1\n.define two one+1\nlda #two\n.define load ldx\nload one\n".toList
      else if n = "b.s".toList then some "start:\n.db two, one\njmp start+one\n".toList
      else if n = "a2.s".toList then some "lda #1+1\nldx 1\n".toList
      else if n = "b2.s".toList then some "start:\n.db 1+1, 1\njmp start+1\n".toList
      else none }

example : build mos6502 shortFiles 3 ["a.s".toList, "b.s".toList] = build mos6502 shortFiles 3 ["a2.s".toList, "b2.s".toList] := by
  refine C98_expand .mos6502 ?_ 3
  exact expanded_of (c := ".define one 1\n.define two one+1\nlda #two\n.define load ldx\nload one\n".toList) (c' := "lda #1+1\nldx 1\n".toList)
    (b := [("load".toList, "ldx".toList), ("two".toList, "1+1".toList), ("one".toList, "1".toList)]) rfl rfl (by decide +kernel)
    (expanded_of (c := "start:\n.db two, one\njmp start+one\n".toList) (c' := "start:\n.db 1+1, 1\njmp start+1\n".toList)
      (b := [("load".toList, "ldx".toList), ("two".toList, "1+1".toList), ("one".toList, "1".toList)]) rfl rfl (by decide +kernel) .nil)

example : build mos6502 shortFiles 3 ["a2.s".toList, "b2.s".toList] = .ok [0xA9, 0x02, 0xA6, 0x01, 0x02, 0x01, 0x4C, 0x05, 0x00] := by decide +kernel

/-- The registers the NES tool defines. -/
def registerFiles : Env :=
  { text := fun n => if n = "a.s".toList then some ".define ctrl PPUCTRL\nlda PPUSTATUS\nsta ctrl\n".toList else some "lda $2002\nsta $2000\n".toList }

example (depth : Nat) : build nes registerFiles depth ["a.s".toList] = build nes registerFiles depth ["b.s".toList] :=
  C98_expand .nes (expanded_of (c := ".define ctrl PPUCTRL\nlda PPUSTATUS\nsta ctrl\n".toList) (c' := "lda $2002\nsta $2000\n".toList)
    (b := ("ctrl".toList, "$2000".toList) :: Tool.nes.dialect.defines) rfl rfl (by decide +kernel) .nil) depth

end Necro
