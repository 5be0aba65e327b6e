import Verif.Lemmas.LabelSim
import Verif.Props.Library
import Verif.Props.Forward
/-!
# C95: a label that nothing refers to does not change the output

Also C41 for instructions: which labels are already defined makes no difference to a line, except on the 6502.
-/

namespace Necro
open Spec
open M (throw get modify lift forEach times)

/-! ## C41 for lines -/

theorem labels_handler {d : Dialect} (hs : ∀ key f l, d.instrs key = some (.handler f) → HStable (f l)) {key : Str} {f : List Str → H (Option Bytes)}
    (hf : d.instrs key = some (.handler f)) (l : List Str) : LabelFrame (do let blob ← runHandler d f l; appendBytes blob) := by
  refine .bind ⟨fun s b v s' hl h => ?_⟩ fun _ => labels_appendBytes _
  refine runHandler_same ?_ h
  refine hs key f l hf (ctxOf d s) b hl ?_
  unfold runHandler at h
  intro e he
  rcases hx : f l ⟨s.pc, s.labels, d.sy, s.bitsMode⟩ with ⟨r, rels⟩
  have : r = .error e := by rw [← he]; exact congrArg Prod.fst hx.symm
  rw [hx, this] at h
  cases h

theorem labels_execInstr {d : Dialect} (hs : ∀ key f l, d.instrs key = some (.handler f) → HStable (f l)) : ∀ depth ref st, LabelFrame (execInstr d depth ref st) := by
  intro depth
  induction depth with
  | zero => intro ref st; exact .throw _
  | succ m ih =>
    intro ref st
    rw [execInstr]
    refine .getBind (fun _ _ => rfl) fun s => ?_
    cases s.recording with
    | some key => exact labels_recordStmt _ _
    | none =>
      refine .bind (labels_writeBack _ _) fun _ => ?_
      cases substituteWithDict st.tokens s.defines 0 with
      | nil => exact .throw _
      | cons w r =>
        dsimp only
        cases dget s.macros (d.key w) with
        | some mac =>
          refine .forEach fun i _ => .getBind (fun _ _ => rfl) fun s => ?_
          cases dget s.macros (d.key w) with
          | none => exact .throw _
          | some m =>
            dsimp only
            cases m.body[i]? with
            | none => exact .pure ()
            | some st => exact .bind (.lift _) fun md => .bind (labels_setBodyTokens _ _ _) fun _ => .bind (ih _ _) fun _ => labels_setBodyTokens _ _ _
        | none =>
          dsimp only
          cases hi : d.instrs (d.key w) with
          | none => exact .throw _
          | some ins =>
            cases ins with
            | fixed blob =>
              dsimp only
              split
              · exact .throw _
              · exact labels_appendBytes _
            | handler f => exact labels_handler hs hi _

/-- C41: on every processor but the 6502, an instruction or macro call that is accepted is accepted whatever further labels are
defined, and does the same: the bytes and the references for the linker do not depend on whether a label has been defined before or
will be defined later. -/
theorem C41_instruction (tool : Tool) (ht : tool ∉ [Tool.mos6502, .nes]) {depth : Nat} {ref : StmtRef} {st : Stmt} {s s' : St} {b : Labels}
    (hb : ∀ n l, s.labels.lookup n = some l → b.lookup n = some l) (h : execInstr tool.dialect depth ref st s = (.ok (), s')) :
    execInstr tool.dialect depth ref st (withLabels b s) = (.ok (), withLabels b s') := by
  have hs : ∀ key f l, tool.dialect.instrs key = some (.handler f) → HStable (f l) := by
    cases tool with
    | mos6502 | nes => simp at ht
    | mips32 | psx => exact fun key f l h => stable_mips h l
    | lr35902 | gameboy => exact fun key f l h => stable_gb h l
    | thumb | gba => exact fun key f l h => stable_thumb h l
    | mc68000 | genesis => exact fun key f l h => stable_m68 h l
    | i8086 | i386Elf => exact fun key f l h => stable_i86 h l
    | z80 | sms => exact fun key f l h => stable_z80 h l
    | ppc | ppcElf => exact fun key f l h => stable_ppc h l
    | x86 | x86Elf => exact fun key f l h => stable_x86 h l
  refine ((labels_execInstr hs depth ref st).eq s b () s' (fun n l hn => ?_) h).1
  rw [dget_eq_lookup] at hn ⊢
  exact hb n l hn

/-- C41: the directives that emit data or set up the layout. -/
theorem C41_directive (tool : Tool) {env : Env} {p : String × (List Str → M Unit)} (hp : p ∈ framedDirectives tool.dialect env) {l : List Str} {s s' : St} {b : Labels}
    (hb : ∀ n l, s.labels.lookup n = some l → b.lookup n = some l) (h : p.2 l s = (.ok (), s')) : p.2 l (withLabels b s) = (.ok (), withLabels b s') := by
  refine ((labels_framed tool.dialect env p hp l).eq s b () s' (fun n l hn => ?_) h).1
  rw [dget_eq_lookup] at hn ⊢
  exact hb n l hn

/-! ## linking -/

theorem resolveTarget_some {d : Dialect} {ls : Labels} {r : Reloc} {p : Int × Int} (h : resolveTarget d .dummy ls r = .ok p) : dget ls (getMathFormula r.label).body ≠ none := by
  intro hd
  have e : ∀ start, labelAddressW (evalArg d.sy ls 1) ls r.label start = .ok none := by
    intro start
    unfold labelAddressW
    dsimp only
    rw [hd]
  unfold resolveTarget at h
  rw [show labelAddress d.sy ls r.label = .ok none from e 0, show labelRelative d.sy ls r.label r.relative = .ok none from e _] at h
  dsimp only at h
  split at h
  · rename_i h1; split at h1 <;> cases h1
  · rename_i h1; cases h
  · rename_i h1; split at h1 <;> cases h1

theorem resolveTarget_more {d : Dialect} {ls ls' : Labels} (hl : MoreLabels ls ls') {r : Reloc} {p : Int × Int} (h : resolveTarget d .dummy ls r = .ok p) :
    resolveTarget d .dummy ls' r = .ok p := by
  have hsome := resolveTarget_some h
  unfold resolveTarget at h ⊢
  rcases ha : labelAddress d.sy ls r.label with e | o
  · rw [ha] at h; cases h
  rw [ha] at h
  cases o with
  | none =>
    exfalso
    unfold labelAddress labelAddressW at ha
    dsimp only at ha
    cases hd : dget ls (getMathFormula r.label).body with
    | none => exact hsome hd
    | some l => rw [hd] at ha; dsimp only at ha; split at ha <;> cases ha
  | some v =>
    rw [labelAddress_more hl ha]
    dsimp only at h ⊢
    by_cases hr : r.relative ≠ 0
    · rw [if_pos hr] at h ⊢
      rcases hb : labelRelative d.sy ls r.label r.relative with e | o
      · rw [hb] at h; cases h
      rw [hb] at h
      cases o with
      | none => cases h
      | some w => rw [labelRelative_more hl hb]; exact h
    · rw [if_neg hr] at h ⊢; exact h

theorem labels_writeField (d : Dialect) (a n : Nat) (v : Int) : LabelFrame (writeField d a n v) :=
  .forEach fun _ _ => .ite (labels_orByte _ _) (labels_orByte _ _)

theorem labels_resolveOne (d : Dialect) (e : Nat × Reloc) : LabelFrame (resolveOne d .dummy e) := by
  have rest : ∀ p : Int × Int, LabelFrame (match e.2.hook with
    | some w => do
      let blob ← lift (encodeAscii (fmtDec w p.2))
      writeAt e.1 blob
    | none => do
      let v ← lift (encodeTarget e.2 p.1 p.2)
      writeField d e.1 e.2.size v) := by
    intro p
    cases e.2.hook with
    | some w => exact .bind (.lift _) fun b => labels_writeAt _ _
    | none => exact .bind (.lift _) fun v => labels_writeField ..
  refine ⟨fun s b v s' hl h => ?_⟩
  unfold resolveOne at h ⊢
  rw [bind_eq, get_eq] at h ⊢
  dsimp only at h ⊢
  rw [bind_eq, lift_eq] at h ⊢
  rcases hr : resolveTarget d .dummy s.labels e.2 with x | p
  · rw [hr] at h; cases h
  · rw [hr] at h
    rw [resolveTarget_more hl hr]
    exact (rest p).eq s b v s' hl h

theorem labels_resolveLabels (d : Dialect) : LabelFrame (resolveLabels d .dummy) :=
  .getBind (fun _ _ => rfl) fun _ => .forEach fun e _ => labels_resolveOne d e

theorem labels_headerLoop : ∀ l acc, LabelFrame (headerLoop l acc)
  | [], _ => .pure _
  | i :: l, _ => .bind (labels_readByte i) fun _ => labels_headerLoop l _

theorem labels_gameboyFix : LabelFrame gameboyFix :=
  .bind (labels_headerLoop _ _) fun _ => .bind (labels_setByte _ _) fun _ => .getBind (fun _ _ => rfl) fun _ => .bind (labels_setByte _ _) fun _ => labels_setByte _ _

theorem labels_link (tool : Tool) : LabelFrame (link tool.dialect .dummy) := by
  refine .bind (labels_resolveLabels _) fun _ => ?_
  cases tool <;> first
    | exact .pure ()
    | exact labels_gameboyFix

/-- A program that links refers only to labels it defines. -/
theorem link_names {d : Dialect} {u u' : St} (h : link d .dummy u = (.ok (), u')) : ∀ e ∈ u.relocs, dget u.labels (getMathFormula e.2.label).body ≠ none := by
  have each : ∀ (l : List (Nat × Reloc)) (s s' : St), forEach l (resolveOne d .dummy) s = (.ok (), s') → ∀ e ∈ l, dget s.labels (getMathFormula e.2.label).body ≠ none := by
    intro l
    induction l with
    | nil => intro s s' _ e he; cases he
    | cons x l ih =>
      intro s s' h e he
      rw [forEach_cons] at h
      rcases hx : resolveOne d .dummy x s with ⟨_ | y, s1⟩
      · rw [hx] at h; cases h
      · rw [hx] at h
        have hl := ((labels_resolveOne d x).eq s s.labels _ s1 (fun _ _ h => h) hx).2
        rcases List.mem_cons.1 he with rfl | he
        · unfold resolveOne at hx
          rw [bind_eq, get_eq] at hx
          dsimp only at hx
          rw [bind_eq, lift_eq] at hx
          rcases hr : resolveTarget d .dummy s.labels e.2 with q | p
          · rw [hr] at hx; cases hx
          · exact resolveTarget_some hr
        · have := ih s1 s' h e he
          rw [hl] at this
          exact this
  unfold link at h
  rw [bind_eq] at h
  rcases hr : resolveLabels d .dummy u with ⟨_ | y, u1⟩
  · rw [hr] at h; cases h
  · unfold resolveLabels at hr
    rw [bind_eq, get_eq] at hr
    exact each _ _ _ hr

/-! ## C95 -/

/-- Assembling the named sources, one after the other. -/
abbrev sourcesM (d : Dialect) (env : Env) (depth : Nat) (names : List Str) : M Unit :=
  forEach names fun name => do let code ← openFile (env.text name); assemble d env depth code

/-- The run of a program that builds, without the label: `s0` before the source in question, `s1` where the label is to be put,
`u` before linking. -/
structure Around (d : Dialect) (env : Env) (depth : Nat) (before : List Str) (pre post : List Stmt) (after : List Str) (s0 s1 u : St) : Prop where
  before : sourcesM d env (depth + 1) before d.init = (.ok (), s0)
  pre : forEach pre (execStmt d env depth (assemble d env depth)) s0 = (.ok (), s1)
  rest : (execStmts d env depth (assemble d env depth) post >>= fun _ => sourcesM d env (depth + 1) after) s1 = (.ok (), u)

theorem label_dmem {d : Dialect} {name : Str} {s s2 : St} (h : execLabel d [name] s = (.ok (), s2)) :
    dget s.labels name = none ∧ s2 = { s with labels := dset s.labels name ⟨s.counter, s.org, s.curSection⟩ } := by
  unfold execLabel at h
  cases hr : s.recording with
  | some k => rw [hr] at h; cases h
  | none =>
    rw [hr] at h
    dsimp only at h
    split at h
    · cases h
    rename_i hd
    split at h
    · cases h
    split at h
    · cases h
    · cases h
    · cases h
      refine ⟨?_, rfl⟩
      unfold dmem at hd
      simpa using hd

theorem sim_sources (tool : Tool) (env : Env) (depth : Nat) (after : List Str) {n : Str} {u : St} (hu : Unnamed n u) : SimLabel n u (sourcesM tool.dialect env depth after) := by
  have hk := (rel_stays tool.dialect).toDataRel
  refine .forEach (fun x => ?_) (fun x => ?_) _
  · exact .bind hk (.readOnly hk (fun _ => openFile_state ..)) fun c => keeps_assemble (rel_stays _) env (stays_tool tool env) _ c
  · exact .after (labels_openFile _) fun c => simLabel_assemble (names_tool tool) hu (labels_tool tool env) (stays_tool tool env) _ c

/-- The run with the label. -/
theorem label_run (tool : Tool) {env : Env} {n : Nat} {before after : List Str} {pre post pre' post' : List Stmt} {name : Str} {ln : Nat} {s0 s1 u u' s2 : St}
    (hrun : Around tool.dialect env (n + 1) before pre post after s0 s1 u) (hlink : link tool.dialect .dummy u = (.ok (), u'))
    (hpre : pre.map content = pre'.map content) (hpost : post.map content = post'.map content) (hlab : execLabel tool.dialect [name] s1 = (.ok (), s2))
    (hfree : dget u.labels name = none) :
    ∃ t m b, (execStmts tool.dialect env (n + 1) (assemble tool.dialect env (n + 1)) (pre' ++ ⟨.label, [name], ln⟩ :: post') >>= fun _ => sourcesM tool.dialect env (n + 2) after) s0 = (.ok (), t) ∧
      link tool.dialect .dummy t = (.ok (), { u' with macros := m, labels := b }) ∧ MoreLabels u'.labels b := by
  have hc := frame_tool tool env
  have hrec := simMore_assemble hc (n + 1)
  obtain ⟨t1, g1, g2⟩ := simMore_stmts hc hrec (n + 1) hpre s0 s0 () s1 (more_refl _ s0) hrun.pre
  have hsrc : SimMore tool.dialect (sourcesM tool.dialect env (n + 2) after) (sourcesM tool.dialect env (n + 2) after) := by
    refine .forEach (P := fun x y => x = y) (fun x y h => ?_) (forall₂_refl _)
    subst h
    exact .bind (.frame (frame_openFile _)) fun c => simMore_assemble hc _ c
  obtain ⟨u1, g3, m, rfl, -⟩ := SimMore.bind (SimMore.bind (simMore_stmts hc hrec (n + 1) hpost) fun _ => simMore_finish) (fun _ => hsrc) s1 t1 () u g2 hrun.rest
  have hlink1 : link tool.dialect .dummy { u with macros := m } = (.ok (), { u' with macros := m }) := by
    rw [(frame_link tool .dummy).mac u m, hlink]
  have hu : Unnamed name { u with macros := m } := ⟨hfree, fun e he hn => link_names hlink1 e he (by rw [hn]; exact hfree)⟩
  have hk : Keeps Stays (sourcesM tool.dialect env (n + 2) after) := by
    have hk := (rel_stays tool.dialect).toDataRel
    refine .forEach hk fun x _ => ?_
    exact .bind hk (.readOnly hk (fun _ => openFile_state ..)) fun c => keeps_assemble (rel_stays _) env (stays_tool tool env) _ c
  have hsim : SimLabel name { u with macros := m } (execStmts tool.dialect env (n + 1) (assemble tool.dialect env (n + 1)) post' >>= fun _ => sourcesM tool.dialect env (n + 2) after) := by
    refine .bind (.bind ?_ (fun _ => stays_finish) fun _ => simLabel_finish) (fun _ => hk) fun _ => sim_sources tool env _ after hu
    exact simLabel_stmts (names_tool tool) hu (labels_tool tool env) (stays_tool tool env) (simLabel_assemble (names_tool tool) hu (labels_tool tool env) (stays_tool tool env) (n + 1))
      (fun c => keeps_assemble (rel_stays _) env (stays_tool tool env) (n + 1) c) (n + 1) post'
  obtain ⟨hd, rfl⟩ := label_dmem hlab
  obtain ⟨b1, rfl, -⟩ := g2
  have hlab1 : execLabel tool.dialect [name] { s1 with macros := b1 } = (.ok (), { s1 with macros := b1, labels := dset s1.labels name ⟨s1.counter, s1.org, s1.curSection⟩ }) := by
    rw [(frame_execLabel tool.dialect [name]).mac s1 b1, hlab]
  obtain ⟨u2, g4, b, rfl, g5⟩ := hsim { s1 with macros := b1 } { s1 with macros := b1, labels := dset s1.labels name ⟨s1.counter, s1.org, s1.curSection⟩ } () _
    ⟨_, rfl, hd, fun k hk => by rw [dget_dset, if_neg (Ne.symm hk)]⟩ g3 ((rel_stays {}).refl _)
  obtain ⟨g6, g7⟩ := (labels_link tool).eq _ b () _ g5.more hlink1
  refine ⟨_, m, b, ?_, g6, by rw [show u'.labels = u.labels from g7]; exact g5.more⟩
  rw [← g4]
  unfold execStmts
  rw [bind_eq, bind_eq, bind_eq, bind_eq, forEach_append, g1]
  dsimp only
  rw [forEach_cons, show execStmt tool.dialect env (n + 1) (assemble tool.dialect env (n + 1)) ⟨.label, [name], ln⟩ = execLabel tool.dialect [name] from rfl, hlab1]

/-- C95: a label put in anywhere where a label can be defined, of a name that the program does not define, does not change the output
of a program that builds. -/
theorem C95_label (tool : Tool) {env : Env} {n : Nat} {before after : List Str} {file file' code code' : Str} {pre post pre' post' : List Stmt} {name : Str} {ln : Nat} {s0 s1 u s2 : St}
    {bytes : Bytes} (hf : env.text file = some code) (hf' : env.text file' = some code') (h : tokenize code = .ok (pre ++ post))
    (h' : tokenize code' = .ok (pre' ++ ⟨.label, [name], ln⟩ :: post')) (hpre : pre.map content = pre'.map content) (hpost : post.map content = post'.map content)
    (hrun : Around tool.dialect env (n + 1) before pre post after s0 s1 u) (hlab : execLabel tool.dialect [name] s1 = (.ok (), s2))
    (hfree : u.labels.lookup name = none) (hb : build tool.dialect env (n + 2) (before ++ file :: after) = .ok bytes) :
    build tool.dialect env (n + 2) (before ++ file' :: after) = .ok bytes := by
  have shape : ∀ (f c : Str) (st : List Stmt), env.text f = some c → tokenize c = .ok st → mainRun tool.dialect env (n + 2) (before ++ f :: after) tool.dialect.init =
      (match (execStmts tool.dialect env (n + 1) (assemble tool.dialect env (n + 1)) st >>= fun _ => sourcesM tool.dialect env (n + 2) after) s0 with
        | (.error e, s) => (.error e, s)
        | (.ok (), s) => link tool.dialect .dummy s) := by
    intro f c st h1 h2
    unfold mainRun
    rw [bind_eq, forEach_append, show forEach before _ tool.dialect.init = _ from hrun.before]
    dsimp only
    rw [forEach_cons, bind_eq, h1]
    have : openFile (some c) s0 = (.ok c, s0) := rfl
    rw [this]
    dsimp only
    rw [assemble, bind_eq, lift_eq, h2]
    dsimp only
    rw [bind_eq]
    rcases execStmts tool.dialect env (n + 1) (assemble tool.dialect env (n + 1)) st s0 with ⟨_ | _, s⟩
    · rfl
    · dsimp only
      rcases hs : sourcesM tool.dialect env (n + 2) after s with ⟨_ | _, s'⟩ <;>
        rw [show forEach after _ s = _ from hs]
  have hrest : (execStmts tool.dialect env (n + 1) (assemble tool.dialect env (n + 1)) (pre ++ post) >>= fun _ => sourcesM tool.dialect env (n + 2) after) s0 = (.ok (), u) := by
    have := hrun.rest
    unfold execStmts at this ⊢
    rw [bind_eq, bind_eq] at this ⊢
    rw [forEach_append, hrun.pre]
    exact this
  unfold build at hb ⊢
  rw [shape file code _ hf h, hrest] at hb
  dsimp only at hb
  rcases hl : link tool.dialect .dummy u with ⟨e | _, u'⟩
  · rw [hl] at hb; cases hb
  rw [hl] at hb
  cases hb
  obtain ⟨t, m, b, g1, g2, -⟩ := label_run tool (ln := ln) hrun hl hpre hpost hlab (by rw [dget_eq_lookup]; exact hfree)
  rw [shape file' code' _ hf' h', g1]
  dsimp only
  rw [g2]

/-! ## runs of the programs -/

theorem main_same {make : Env → Nat → List Str → Except Err Bytes} {m : Machine} {sources sources' : List Str} {out : Str} {disk disk' : Disk}
    (hmake : ∀ b, make (m.view disk) m.depth sources = .ok b → make (m.view disk) m.depth sources' = .ok b)
    (h : assemblerMain make m (sources ++ [out]) disk = (.ok (), disk')) : assemblerMain make m (sources' ++ [out]) disk = (.ok (), disk') := by
  unfold assemblerMain at h ⊢
  simp only [List.getLast?_append, List.getLast?_singleton, Option.some_or, List.dropLast_concat] at h ⊢
  split at h
  · cases h
  · rename_i b hb
    rw [hmake b hb]
    exact h

/-- C95: a run of one of the programs that take several sources and write the bytes. -/
theorem C95_run (tool : Tool) (ht : tool ∉ [Tool.gba, .genesis, .psx, .nes, .i386Elf, .ppcElf, .x86Elf]) (m : Machine) {n : Nat} (hd : m.depth = n + 2) {before after : List Str}
    {file file' out code code' : Str} {pre post pre' post' : List Stmt} {name : Str} {ln : Nat} {s0 s1 u s2 : St} {disk disk' : Disk}
    (hf : (m.view disk).text file = some code) (hf' : (m.view disk).text file' = some code') (h : tokenize code = .ok (pre ++ post))
    (h' : tokenize code' = .ok (pre' ++ ⟨.label, [name], ln⟩ :: post')) (hpre : pre.map content = pre'.map content) (hpost : post.map content = post'.map content)
    (hrun : Around tool.dialect (m.view disk) (n + 1) before pre post after s0 s1 u) (hlab : execLabel tool.dialect [name] s1 = (.ok (), s2))
    (hfree : u.labels.lookup name = none) (hr : tool.run m (before ++ file :: after ++ [out]) disk = (.ok (), disk')) :
    tool.run m (before ++ file' :: after ++ [out]) disk = (.ok (), disk') := by
  have e1 : ∀ b, build tool.dialect (m.view disk) m.depth (before ++ file :: after) = .ok b → build tool.dialect (m.view disk) m.depth (before ++ file' :: after) = .ok b := by
    rw [hd]; exact fun b hb => C95_label tool hf hf' h h' hpre hpost hrun hlab hfree hb
  cases tool with
  | gba | genesis | psx | nes | i386Elf | ppcElf | x86Elf => simp at ht
  | _ => exact main_same e1 hr

theorem labels_gba : LabelFrame gbaFix := by
  have : ∀ l acc, LabelFrame (gbaLoop l acc) := by
    intro l
    induction l with
    | nil => exact fun acc => .pure _
    | cons i l ih => exact fun acc => .bind (labels_readByte i) fun b => ih _
  exact .bind (this _ _) fun _ => labels_setByte _ _

theorem labels_genesis : LabelFrame genesisFix := by
  have : ∀ n i acc, LabelFrame (genesisLoop n i acc) := by
    intro n
    induction n with
    | zero => exact fun i acc => .pure _
    | succ n ih => exact fun i acc => .bind (labels_readByte i) fun b => .bind (labels_readByte _) fun b => ih _ _
  exact .getBind (fun _ _ => rfl) fun s => .bind (this _ _ _) fun _ => .bind (labels_setByte _ _) fun _ => labels_setByte _ _

/-- C95: a run of one of the programs that take one source and complete a header. -/
theorem C95_file_run (tool : Tool) (ht : tool ∈ [Tool.gba, .genesis, .psx]) (m : Machine) {n : Nat} (hd : m.depth = n + 2)
    {file file' out code code' : Str} {rest : List Str} {pre post pre' post' : List Stmt} {name : Str} {ln : Nat} {s0 s1 u s2 : St} {disk disk' : Disk}
    (hf : (m.view disk).text file = some code) (hf' : (m.view disk).text file' = some code') (h : tokenize code = .ok (pre ++ post))
    (h' : tokenize code' = .ok (pre' ++ ⟨.label, [name], ln⟩ :: post')) (hpre : pre.map content = pre'.map content) (hpost : post.map content = post'.map content)
    (hrun : Around tool.dialect (m.view disk) (n + 1) [] pre post [] s0 s1 u) (hlab : execLabel tool.dialect [name] s1 = (.ok (), s2))
    (hfree : u.labels.lookup name = none) (hr : tool.run m (file :: out :: rest) disk = (.ok (), disk')) :
    tool.run m (file' :: out :: rest) disk = (.ok (), disk') := by
  have h0 : s0 = tool.dialect.init := by have := hrun.before; cases this; rfl
  subst h0
  have file : ∀ {fix : M Unit} {f : Bytes → Except Err Bytes}, Frame fix → LabelFrame fix → fileMain tool.dialect fix f m (file :: out :: rest) disk = (.ok (), disk') →
      fileMain tool.dialect fix f m (file' :: out :: rest) disk = (.ok (), disk') := by
    intro fix f hx hy hr
    have shape : ∀ (src text : Str) (st : List Stmt), (m.view disk).text src = some text → tokenize text = .ok st → runFile tool.dialect fix m (src :: out :: rest) disk =
        (match (execStmts tool.dialect (m.view disk) (n + 1) (assemble tool.dialect (m.view disk) (n + 1)) st >>= fun _ => sourcesM tool.dialect (m.view disk) (n + 2) []) tool.dialect.init with
          | (.error e, s) => (.error e, s)
          | (.ok (), s) => (link tool.dialect .dummy >>= fun _ => fix) s) := by
      intro src text st h1 h2
      show ((forEach [src] (fun name => do let code ← openFile ((m.view disk).text name); assemble tool.dialect (m.view disk) m.depth code) >>= fun _ => link tool.dialect .dummy) >>= fun _ => fix)
        tool.dialect.init = _
      rw [bind_eq, bind_eq, forEach_cons, bind_eq, h1, hd]
      have : openFile (some text) tool.dialect.init = (.ok text, tool.dialect.init) := rfl
      rw [this]
      dsimp only
      rw [assemble, bind_eq, lift_eq, h2]
      dsimp only
      rw [bind_eq]
      rcases execStmts tool.dialect (m.view disk) (n + 1) (assemble tool.dialect (m.view disk) (n + 1)) st tool.dialect.init with ⟨_ | _, s⟩ <;> rfl
    have hrest : (execStmts tool.dialect (m.view disk) (n + 1) (assemble tool.dialect (m.view disk) (n + 1)) (pre ++ post) >>= fun _ => sourcesM tool.dialect (m.view disk) (n + 2) [])
        tool.dialect.init = (.ok (), u) := by
      have := hrun.rest
      unfold execStmts at this ⊢
      rw [bind_eq, bind_eq] at this ⊢
      rw [forEach_append, hrun.pre]
      exact this
    unfold fileMain at hr ⊢
    rw [shape _ _ _ hf h, hrest] at hr
    dsimp only at hr
    rw [bind_eq] at hr
    rcases hl : link tool.dialect .dummy u with ⟨e | _, u'⟩
    · rw [hl] at hr; cases hr
    rw [hl] at hr
    dsimp only at hr
    rcases hq : fix u' with ⟨e | _, u''⟩
    · rw [hq] at hr; cases hr
    rw [hq] at hr
    have hfree' : dget u.labels name = none := by rw [dget_eq_lookup]; exact hfree
    obtain ⟨t, mm, b, g1, g2, g3⟩ := label_run tool (ln := ln) hrun hl hpre hpost hlab hfree'
    rw [shape _ _ _ hf' h', g1]
    dsimp only
    rw [bind_eq, g2]
    dsimp only
    rw [((hy.eq { u' with macros := mm } b () { u'' with macros := mm } g3 (by rw [hx.mac u' mm, hq])).1)]
    exact hr
  simp only [List.mem_cons, List.not_mem_nil, or_false] at ht
  rcases ht with rfl | rfl | rfl
  · exact file frame_gba labels_gba hr
  · exact file frame_genesis labels_genesis hr
  · exact file (.pure ()) (.pure ()) hr

/-! ## examples -/

theorem ran {m : M Unit} {s : St} (h : (match (m s).1 with | .ok _ => true | .error _ => false) = true) : m s = (.ok (), (m s).2) := by
  rcases hm : m s with ⟨_ | _, s'⟩
  · rw [hm] at h; cases h
  · rfl

/-- A program without and with a label that nothing refers to, between two other sources. -/
def unusedFiles : Env :=
  { text := fun n =>
      if n = "a.s".toList then some "start:\nlda #1\n".toList
      else if n = "b.s".toList then some "ldx later\njmp start+2\n".toList
      else if n = "c.s".toList then some "later:\n.dw start, later\n".toList
      else if n = "b2.s".toList then some "ldx later\n\nspare:\njmp start+2\n".toList
      else none }

def unusedPre (line : Nat) : List Stmt := [⟨.instr, ["ldx".toList, "later".toList], line⟩]
def unusedPost (line : Nat) : List Stmt := [⟨.instr, ["jmp".toList, "start+2".toList], line⟩]

def unusedStart : St := (sourcesM mos6502 unusedFiles 3 ["a.s".toList] mos6502.init).2
def unusedMiddle : St := (forEach (unusedPre 1) (execStmt mos6502 unusedFiles 2 (assemble mos6502 unusedFiles 2)) unusedStart).2

example : build mos6502 unusedFiles 3 ["a.s".toList, "b2.s".toList, "c.s".toList] = .ok [0xA9, 0x01, 0xAE, 0x08, 0x00, 0x4C, 0x02, 0x00, 0x00, 0x00, 0x08, 0x00] := by
  refine C95_label .mos6502 (before := ["a.s".toList]) (after := ["c.s".toList]) (file := "b.s".toList) (code := "ldx later\njmp start+2\n".toList)
    (code' := "ldx later\n\nspare:\njmp start+2\n".toList) (pre := unusedPre 1) (post := unusedPost 2) (pre' := unusedPre 1) (post' := unusedPost 4) (name := "spare".toList) (ln := 3)
    (s0 := unusedStart) (s1 := unusedMiddle) rfl rfl (by decide +kernel) (by decide +kernel) rfl rfl
    ⟨ran (by decide +kernel), ran (by decide +kernel), ran (by decide +kernel)⟩ (ran (by decide +kernel)) (by decide +kernel) (by decide +kernel)

/-- The name must be free: a label that the program defines elsewhere cannot be put in. -/
example : build mos6502 { text := fun n => if n = "a".toList then some "nop\nx1:\nrts\n".toList else some "x1:\nnop\nx1:\nrts\n".toList } 3 ["a".toList] = .ok [0xEA, 0x60] ∧
    build mos6502 { text := fun n => if n = "a".toList then some "nop\nx1:\nrts\n".toList else some "x1:\nnop\nx1:\nrts\n".toList } 3 ["b".toList] =
      .error .labelAlreadyDefined := by decide +kernel

/-- A Game Boy Advance program, without and with the label. -/
def unusedGba : Env :=
  { text := fun n =>
      if n = "a.s".toList then some ".fill 192\nmov r0, #1\n".toList
      else if n = "b.s".toList then some ".fill 192\nspare:\nmov r0, #1\n".toList
      else none }

def gbaPre : List Stmt := [⟨.directive, [".fill".toList, "192".toList], 1⟩]
def gbaPost (line : Nat) : List Stmt := [⟨.instr, ["mov".toList, "r0".toList, "#1".toList], line⟩]

example (disk : Disk) (m : Machine) (hv : m.view disk = unusedGba) (hd : m.depth = 3) {disk' : Disk} (hr : Tool.gba.run m ["a.s".toList, "out".toList] disk = (.ok (), disk')) :
    Tool.gba.run m ["b.s".toList, "out".toList] disk = (.ok (), disk') := by
  refine C95_file_run .gba (by decide) m (n := 1) hd (code := ".fill 192\nmov r0, #1\n".toList) (code' := ".fill 192\nspare:\nmov r0, #1\n".toList) (pre := gbaPre) (post := gbaPost 2)
    (pre' := gbaPre) (post' := gbaPost 3) (name := "spare".toList) (ln := 2) (s0 := Tool.gba.dialect.init)
    (s1 := (forEach gbaPre (execStmt Tool.gba.dialect unusedGba 2 (assemble Tool.gba.dialect unusedGba 2)) Tool.gba.dialect.init).2)
    (by rw [hv]; rfl) (by rw [hv]; rfl) (by decide +kernel) (by decide +kernel) rfl rfl
    (by rw [hv]; exact ⟨rfl, ran (by decide +kernel), ran (by decide +kernel)⟩) (ran (by decide +kernel)) (by decide +kernel) hr

example (disk : Disk) (m : Machine) (hv : m.view disk = unusedFiles) (hd : m.depth = 3) {disk' : Disk}
    (hr : Tool.mos6502.run m ["a.s".toList, "b.s".toList, "c.s".toList, "out".toList] disk = (.ok (), disk')) :
    Tool.mos6502.run m ["a.s".toList, "b2.s".toList, "c.s".toList, "out".toList] disk = (.ok (), disk') := by
  refine C95_run .mos6502 (by decide) m (n := 1) hd (before := ["a.s".toList]) (after := ["c.s".toList]) (out := "out".toList) (file := "b.s".toList) (code := "ldx later\njmp start+2\n".toList)
    (code' := "ldx later\n\nspare:\njmp start+2\n".toList) (pre := unusedPre 1) (post := unusedPost 2) (pre' := unusedPre 1) (post' := unusedPost 4) (name := "spare".toList) (ln := 3)
    (s0 := unusedStart) (s1 := unusedMiddle) (by rw [hv]; rfl) (by rw [hv]; rfl) (by decide +kernel) (by decide +kernel) rfl rfl
    (by rw [hv]; exact ⟨ran (by decide +kernel), ran (by decide +kernel), ran (by decide +kernel)⟩) (ran (by decide +kernel)) (by decide +kernel) hr

/-- C41 on MIPS: an instruction that names a label does the same before and after the label is defined. -/
example : execInstr mips32 2 none ⟨.instr, ["lui".toList, "$t0".toList, "data".toList], 1⟩ (withLabels [("data".toList, ⟨64, 0, none⟩)] mips32.init) =
    (.ok (), withLabels [("data".toList, ⟨64, 0, none⟩)] (execInstr mips32 2 none ⟨.instr, ["lui".toList, "$t0".toList, "data".toList], 1⟩ mips32.init).2) :=
  C41_instruction .mips32 (by decide) (fun n l h => by cases h) (ran (by decide +kernel))

/-- The 6502 chooses the short form for a label on the zero page only if the label is already defined. -/
example : build mos6502 { text := fun _ => some "start:\nlda start\n".toList } 3 ["a".toList] = .ok [0xA5, 0x00] ∧
    build mos6502 { text := fun _ => some "lda start\nstart:\n".toList } 3 ["a".toList] = .ok [0xAD, 0x03, 0x00] := by decide +kernel

end Necro
