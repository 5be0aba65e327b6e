import Verif.Lemmas.Hushed
import Verif.Spec.Hushed
import Verif.Props.Unused
/-!
# C96, C97: lines that do not concern the bytes
-/

namespace Necro
open Spec
open M (throw get modify lift forEach times)

/-! ## C96: logging and exports -/

/-- Definitions that are the same. -/
def sameDefs : Defs where
  clean := fun _ => True
  rel := fun a x => x = a
  same := fun h _ => by rw [h]
  closed := fun _ _ => trivial
  set := fun h _ _ => by rw [h]

theorem calm_same (s : St) : Calm sameDefs s := ⟨fun _ _ _ => trivial, fun _ _ _ _ _ _ _ => trivial⟩

theorem aside_refl {S : Defs} {d : Dialect} {s : St} (h : Calm S s) (hr : S.rel s.defines s.defines) : Aside S d s s := by
  refine ⟨h, s.log, s.exports, s.defines, s.macros, rfl, ?_, fun _ h => h, hr⟩
  obtain ⟨b, hb, hm⟩ := more_refl d s
  rw [show s.macros = b from congrArg St.macros hb] at hm ⊢
  exact hm

theorem isLine_iff {d : Dialect} {names : List String} {st : Stmt} (h : isLine d names st = true) : ∃ w ∈ names, IsLine d w st := by
  unfold isLine at h
  rw [Bool.and_eq_true] at h
  obtain ⟨h1, h2⟩ := h
  split at h2
  · cases h2
  · rename_i t r ht
    obtain ⟨w, hw, he⟩ := List.any_eq_true.1 h2
    exact ⟨w, hw, by simpa using h1, t, r, ht, by simpa [IsDirectiveToken] using he⟩

theorem thin_without (d : Dialect) : ∀ l l' : List Stmt, without d ["log", "export"] l = without d ["log"] l' → Thin d l l' := by
  intro l
  induction l with
  | nil =>
    intro l' h
    induction l' with
    | nil => exact .nil
    | cons y l' ih =>
      unfold without at h ih
      rw [List.filter_cons] at h
      cases hy : isLine d ["log"] y with
      | true =>
        rw [hy] at h
        obtain ⟨w, hw, hl⟩ := isLine_iff hy
        cases List.mem_singleton.1 hw
        exact .right hl (ih h)
      | false => rw [hy] at h; cases h
  | cons x l ih =>
    intro l' h
    cases hx : isLine d ["log", "export"] x with
    | true =>
      obtain ⟨w, hw, hl⟩ := isLine_iff hx
      refine .left ?_ (ih l' ?_)
      · simp only [List.mem_cons, List.not_mem_nil, or_false] at hw
        rcases hw with rfl | rfl
        · exact .inl hl
        · exact .inr hl
      · unfold without at h
        rw [List.filter_cons, hx] at h
        exact h
    | false =>
      induction l' with
      | nil => unfold without at h; rw [List.filter_cons, hx] at h; cases h
      | cons y l' ih' =>
        cases hy : isLine d ["log"] y with
        | true =>
          obtain ⟨w, hw, hl⟩ := isLine_iff hy
          cases List.mem_singleton.1 hw
          refine .right hl (ih' ?_)
          unfold without at h ⊢
          rw [List.filter_cons (x := y), hy] at h
          exact h
        | false =>
          unfold without at h
          rw [List.filter_cons, hx, List.filter_cons, hy] at h
          simp only [Bool.not_false, if_true, List.map_cons, List.cons.injEq] at h
          exact .same h.1 (ih l' h.2)

theorem noOwn_tool (tool : Tool) : NoOwn tool.dialect := fun env w hw => tool_noOwn tool env w (by simp at hw; rcases hw with rfl | rfl <;> simp)

theorem text_tool (tool : Tool) (env : Env) (g : Str → Option Str) : tool.dialect.directives (withText env g) = tool.dialect.directives env := by cases tool <;> rfl

/-- The states of two programs that differ in such lines, up to linking. -/
theorem hushed_run (tool : Tool) {env : Env} {g : Str → Option Str} (hg : ∀ f c, env.text f = some c → ∃ c', g f = some c' ∧ Hushed tool.dialect c c') {n : Nat} {names : List Str} {s : St}
    (h : mainRun tool.dialect env n names tool.dialect.init = (.ok (), s)) :
    ∃ l e b, mainRun tool.dialect (withText env g) n names tool.dialect.init = (.ok (), { s with log := l, exports := e, macros := b }) := by
  have hg' : ∀ f c, env.text f = some c → ∃ c', g f = some c' ∧ Slim sameDefs tool.dialect c c' := by
    intro f c hf
    obtain ⟨c', h1, h2⟩ := hg f c hf
    refine ⟨c', h1, fun l hl => ⟨fun _ _ _ _ => trivial, ?_⟩⟩
    obtain ⟨l', h3, h4⟩ := h2 l hl
    exact ⟨l', h3, thin_without _ l l' h4⟩
  have hsim : SimA sameDefs tool.dialect (mainRun tool.dialect env n names) (mainRun tool.dialect (withText env g) n names) :=
    .bind (simA_sources (aloof_tool tool env) (text_tool tool env g) (noOwn_tool tool) hg' n names) fun _ => .aloof (aloof_link tool _)
  obtain ⟨t', h1, -, l, e, x, b, rfl, -, -, h2⟩ := hsim _ _ _ _ (aside_refl (calm_same _) rfl) h
  refine ⟨l, e, b, ?_⟩
  rw [h1, show x = s.defines from h2]
  rfl

/-- C96: leaving out `.export` lines, and leaving out or adding `.log` lines, in any of the sources and included files of a program
that builds, does not change the bytes. -/
theorem C96_build (tool : Tool) {env : Env} {g : Str → Option Str} (hg : ∀ f c, env.text f = some c → ∃ c', g f = some c' ∧ Hushed tool.dialect c c') {n : Nat} {names : List Str} {bytes : Bytes}
    (h : build tool.dialect env n names = .ok bytes) : build tool.dialect { env with text := g } n names = .ok bytes := by
  unfold build at h ⊢
  rcases hr : mainRun tool.dialect env n names tool.dialect.init with ⟨_ | _, s⟩
  · rw [hr] at h; cases h
  · rw [hr] at h
    obtain ⟨l, e, b, h2⟩ := hushed_run tool hg hr
    rw [show mainRun tool.dialect { env with text := g } n names tool.dialect.init = _ from h2]
    exact h

/-- C96: nor does it change the labels and sections. -/
theorem C96_labels (tool : Tool) {env : Env} {g : Str → Option Str} (hg : ∀ f c, env.text f = some c → ∃ c', g f = some c' ∧ Hushed tool.dialect c c') {n : Nat} {names : List Str} {s : St}
    (h : mainRun tool.dialect env n names tool.dialect.init = (.ok (), s)) :
    ∃ t, mainRun tool.dialect { env with text := g } n names tool.dialect.init = (.ok (), t) ∧ t.labels = s.labels ∧ t.sections = s.sections ∧ t.relocs = s.relocs := by
  obtain ⟨l, e, b, h2⟩ := hushed_run tool hg h
  exact ⟨_, h2, rfl, rfl, rfl⟩

/-! ## C97: definitions that are not used -/

theorem subScan_same {n : Str} {a x : List (Str × Str)} (h : ∀ k, k ≠ n → dget x k = dget a k) : ∀ (cs acc out : Str), n ∉ wordsFrom acc cs → subScan x acc out cs = subScan a acc out cs := by
  have run : ∀ acc, n ≠ acc → subRun x acc = subRun a acc := fun acc hn => by unfold subRun; rw [h acc (Ne.symm hn)]
  intro cs
  induction cs with
  | nil =>
    intro acc out hn
    unfold subScan
    split
    · rename_i ha
      simp only [wordsFrom, if_neg ha, List.mem_singleton] at hn
      rw [run acc hn]
    · rfl
  | cons c cs ih =>
    intro acc out hn
    rw [subScan, subScan]
    rw [wordsFrom] at hn
    split
    · rename_i hc
      rw [if_pos hc] at hn
      exact ih _ _ hn
    · rename_i hc
      rw [if_neg hc] at hn
      by_cases ha : acc = []
      · rw [if_pos ha] at hn
        rw [if_neg (fun h => h ha), if_neg (fun h => h ha)]
        exact ih _ _ hn
      · rw [if_neg ha] at hn
        simp only [List.mem_cons, not_or] at hn
        rw [if_pos ha, if_pos ha, run acc hn.1]
        exact ih _ _ hn.2

theorem wordsFrom_name : ∀ (w acc : Str), isValidName w = true → acc ++ w ≠ [] → wordsFrom acc w = [acc ++ w]
  | [], acc, _, h => by simp only [List.append_nil] at h ⊢; simp [wordsFrom, h]
  | c :: w, acc, hv, h => by
    simp only [isValidName, List.all_cons, Bool.and_eq_true] at hv
    rw [wordsFrom, if_pos hv.1, wordsFrom_name w (acc ++ [c]) hv.2 (by simp)]
    simp

theorem wordsFrom_append (c : Char) (hc : ¬ isNameChar c = true) (v : Str) : ∀ (u acc : Str), wordsFrom acc (u ++ c :: v) = wordsFrom acc u ++ words v
  | [], acc => by
    simp only [List.nil_append, wordsFrom, if_neg hc]
    split <;> simp [words]
  | x :: u, acc => by
    rw [List.cons_append, wordsFrom, wordsFrom]
    split
    · exact wordsFrom_append c hc v u _
    · split
      · exact wordsFrom_append c hc v u _
      · rw [wordsFrom_append c hc v u, List.cons_append]

/-- Text up to a character that is in no word. -/
def Whole (out : Str) : Prop := out = [] ∨ ∃ u c, out = u ++ [c] ∧ ¬ isNameChar c = true

theorem words_whole {out : Str} (h : Whole out) (v : Str) : words (out ++ v) = words out ++ words v := by
  rcases h with rfl | ⟨u, c, rfl, hc⟩
  · simp [words, wordsFrom]
  · have h1 := wordsFrom_append c hc v u []
    have h2 := wordsFrom_append c hc [] u []
    unfold words at h1 h2 ⊢
    rw [List.append_assoc, List.singleton_append, h1, h2]
    simp [wordsFrom]

theorem subRun_words {n : Str} {a : List (Str × Str)} (ha : ∀ k v, dget a k = some v → n ∉ words v) {acc : Str} (hv : isValidName acc = true) (h0 : acc ≠ []) (hn : n ≠ acc) : n ∉ words (subRun a acc) := by
  unfold subRun
  cases h : dget a acc with
  | some v => exact ha acc v h
  | none =>
    dsimp only
    unfold words
    rw [wordsFrom_name acc [] hv (by simpa using h0)]
    simpa using hn

theorem subScan_words {n : Str} {a : List (Str × Str)} (ha : ∀ k v, dget a k = some v → n ∉ words v) : ∀ (cs acc out : Str), isValidName acc = true → Whole out → n ∉ words out → n ∉ wordsFrom acc cs →
    n ∉ words (subScan a acc out cs) := by
  intro cs
  induction cs with
  | nil =>
    intro acc out hv hw ho hn
    unfold subScan
    split
    · rename_i h0
      simp only [wordsFrom, if_neg h0, List.mem_singleton] at hn
      rw [words_whole hw, List.mem_append, not_or]
      exact ⟨ho, subRun_words ha hv h0 hn⟩
    · exact ho
  | cons c cs ih =>
    intro acc out hv hw ho hn
    rw [subScan]
    rw [wordsFrom] at hn
    split
    · rename_i hc
      rw [if_pos hc] at hn
      exact ih _ _ (by unfold isValidName at hv ⊢; simp [hv, hc]) hw ho hn
    · rename_i hc
      rw [if_neg hc] at hn
      have sep : ∀ w : Str, n ∉ words w → n ∉ words (w ++ [c]) := by
        intro w hw
        unfold words
        rw [wordsFrom_append c hc [] w []]
        simpa [words, wordsFrom] using hw
      by_cases h0 : acc = []
      · rw [if_pos h0] at hn
        rw [if_neg (fun h => h h0)]
        exact ih _ _ rfl (.inr ⟨out, c, rfl, hc⟩) (sep out ho) hn
      · rw [if_neg h0] at hn
        simp only [List.mem_cons, not_or] at hn
        rw [if_pos h0]
        refine ih _ _ rfl (.inr ⟨_, c, rfl, hc⟩) (sep _ ?_) hn.2
        rw [words_whole hw, List.mem_append, not_or]
        exact ⟨ho, subRun_words ha hv h0 hn.1⟩

/-- Definitions that differ in one name that does not occur. -/
def freeDefs (n : Str) (hn : IsWord n) : Defs where
  clean := fun t => n ∉ words t
  rel := fun a x => ∀ k, k ≠ n → dget x k = dget a k
  same := by
    intro a x t h ht
    have hne : t ≠ n := by
      rintro rfl
      refine ht ?_
      unfold words
      rw [wordsFrom_name t [] hn.2 (by simpa using hn.1)]
      simp
    unfold subToken
    rw [h t hne]
    cases dget a t with
    | some v => rfl
    | none => exact subScan_same h t [] [] ht
  closed := by
    intro a t ha ht
    unfold subToken
    cases h : dget a t with
    | some v => exact ha t v h
    | none => exact subScan_words ha t [] [] rfl (.inl rfl) (by simp [words, wordsFrom]) ht
  set := by
    intro a x k v h _ _ k' hk
    rw [dget_dset, dget_dset, h k' hk]

theorem thin_refl (d : Dialect) {l l' : List Stmt} (h : l.map content = l'.map content) : Thin d l l' := by
  induction l generalizing l' with
  | nil =>
    cases l' with
    | nil => exact .nil
    | cons y l' => cases h
  | cons x l ih =>
    cases l' with
    | nil => cases h
    | cons y l' =>
      simp only [List.map_cons, List.cons.injEq] at h
      exact .same h.1 (ih h.2)

/-- The run of a program, from the statements of one of its sources on. -/
theorem around_run {d : Dialect} {env : Env} {n : Nat} {before after : List Str} {f c : Str} {st : List Stmt} {s0 : St} (h0 : sourcesM d env (n + 2) before d.init = (.ok (), s0))
    (h1 : env.text f = some c) (h2 : tokenize c = .ok st) : mainRun d env (n + 2) (before ++ f :: after) d.init =
      (match (execStmts d env (n + 1) (assemble d env (n + 1)) st >>= fun _ => sourcesM d env (n + 2) after) s0 with
        | (.error e, s) => (.error e, s)
        | (.ok (), s) => link d .dummy s) := by
  unfold mainRun
  rw [bind_eq, forEach_append, show forEach before _ d.init = _ from h0]
  dsimp only
  rw [forEach_cons, bind_eq, h1]
  have : openFile (some c) s0 = (.ok c, s0) := rfl
  rw [this]
  dsimp only
  rw [assemble, bind_eq, lift_eq, h2]
  dsimp only
  rw [bind_eq]
  rcases execStmts d env (n + 1) (assemble d env (n + 1)) st s0 with ⟨_ | _, s⟩
  · rfl
  · dsimp only
    rcases hs : sourcesM d env (n + 2) after s with ⟨_ | _, s'⟩ <;>
      rw [show forEach after _ s = _ from hs]

/-- C97: a definition put in anywhere, of a name that does not occur in any source of the program, does not change the output of a
program that builds: the copy of a source with the definition in it is a new file, and is given instead of the source. -/
theorem C97_define (tool : Tool) {env : Env} {n : Nat} {before after : List Str} {file file' code code' : Str} {pre post pre' post' : List Stmt} {t name v : Str} {ln : Nat} {s0 s1 u : St}
    {bytes : Bytes} (hf : env.text file = some code) (hnew : env.text file' = none) (h : tokenize code = .ok (pre ++ post))
    (h' : tokenize code' = .ok (pre' ++ ⟨.directive, [t, name, v], ln⟩ :: post')) (hpre : pre.map content = pre'.map content) (hpost : post.map content = post'.map content)
    (ht : IsDirectiveToken tool.dialect t "define") (hname : IsWord name) (hfree : ∀ f c l, env.text f = some c → tokenize c = .ok l → Free name l)
    (hreg : ∀ r ∈ tool.dialect.defines, name ∉ words r.2) (hrun : Around tool.dialect env (n + 1) before pre post after s0 s1 u) (hs1 : s1.defines.lookup name = none)
    (hb : build tool.dialect env (n + 2) (before ++ file :: after) = .ok bytes) :
    build tool.dialect { env with text := fun f => if f = file' then some code' else env.text f } (n + 2) (before ++ file' :: after) = .ok bytes := by
  let g : Str → Option Str := fun f => if f = file' then some code' else env.text f
  have hf' : g file' = some code' := by simp [g]
  have hold : ∀ f c, env.text f = some c → g f = some c := by
    intro f c hc
    have : f ≠ file' := by rintro rfl; rw [hnew] at hc; cases hc
    simp only [g, if_neg this, hc]
  have hslim : ∀ S : Defs, (∀ f c l, env.text f = some c → tokenize c = .ok l → ∀ st ∈ l, ∀ t ∈ st.tokens, S.clean t) → ∀ f c, env.text f = some c → ∃ c', g f = some c' ∧ Slim S tool.dialect c c' :=
    fun S hS f c hc => ⟨c, hold f c hc, fun l hl => ⟨hS f c l hc hl, l, hl, thin_refl _ rfl⟩⟩
  have gsame := hslim sameDefs fun _ _ _ _ _ _ _ _ _ => trivial
  have gfree := hslim (freeDefs name hname) hfree
  have hca := aloof_tool tool env
  have hd := text_tool tool env g
  have hn := noOwn_tool tool
  have hr : ∀ {S : Defs}, (∀ f c, env.text f = some c → ∃ c', g f = some c' ∧ Slim S tool.dialect c c') →
      ∀ f c, env.text f = some c → ∃ c', g f = some c' ∧ SimA S tool.dialect (assemble tool.dialect env (n + 1) c) (assemble tool.dialect (withText env g) (n + 1) c') := by
    intro S hS f c hc
    obtain ⟨c', h1, h2⟩ := hS f c hc
    exact ⟨c', h1, simA_assemble hca hd hn hS _ c c' h2⟩
  have hcode := hfree file code _ hf h
  have calm0 : Calm (freeDefs name hname) tool.dialect.init := by
    constructor
    · exact fun k v h => hreg _ (mem_of_dget h)
    · intro k v h; cases h
  obtain ⟨t0, a1, a2⟩ := simA_sources hca hd hn gsame (n + 2) before _ _ _ _ (aside_refl (calm_same _) rfl) hrun.before
  obtain ⟨t1, a3, a4⟩ := simA_thin hca hd hn (hr gsame) (n + 1) (thin_refl _ hpre) (fun _ _ _ _ => trivial) _ _ _ _ a2 hrun.pre
  obtain ⟨_, -, b2⟩ := simA_sources hca hd hn gfree (n + 2) before _ _ _ _ (aside_refl calm0 (fun _ _ => rfl)) hrun.before
  obtain ⟨_, -, b4⟩ := simA_thin hca hd hn (hr gfree) (n + 1) (thin_refl _ (rfl : pre.map content = pre.map content)) (fun st hst => hcode st (by simp [hst])) _ _ _ _ b2 hrun.pre
  have calm1 := b4.1
  obtain ⟨-, l, e, x, b, rfl, c1, c2, c3⟩ := a4
  cases c3
  have hsub : subToken s1.defines name = name := by
    have hd1 : dget s1.defines name = none := by rw [dget_eq_lookup]; exact hs1
    unfold subToken
    rw [hd1]
    have scan : ∀ (w acc : Str), isValidName w = true → acc ++ w ≠ [] → subScan s1.defines acc [] w = subRun s1.defines (acc ++ w) := by
      intro w
      induction w with
      | nil => intro acc _ h0; simp only [List.append_nil] at h0 ⊢; simp [subScan, h0]
      | cons c w ih =>
        intro acc hv _
        simp only [isValidName, List.all_cons, Bool.and_eq_true] at hv
        rw [subScan, if_pos hv.1, ih (acc ++ [c]) hv.2 (by simp)]
        simp
    dsimp only
    rw [scan name [] hname.2 (by simpa using hname.1)]
    simp [subRun, hd1]
  obtain ⟨v', hdef⟩ : ∃ v', execStmt tool.dialect (withText env g) (n + 1) (assemble tool.dialect (withText env g) (n + 1)) ⟨.directive, [t, name, v], ln⟩ (aside (l, e, s1.defines) b s1) =
      (.ok (), aside (l, e, dset s1.defines name v') b s1) := by
    refine ⟨subToken s1.defines v, ?_⟩
    rw [execStmt_directive, exec_builtin (p := ("define", directiveDefine)) (by simp [builtinDirective]) (tool_noOwn tool _ _ (by simp)) ht]
    show directiveDefine [t, subToken s1.defines name, subToken s1.defines v] _ = _
    rw [hsub]
    rfl
  have hrest : SimA (freeDefs name hname) tool.dialect (execStmts tool.dialect env (n + 1) (assemble tool.dialect env (n + 1)) post >>= fun _ => sourcesM tool.dialect env (n + 2) after)
      (execStmts tool.dialect (withText env g) (n + 1) (assemble tool.dialect (withText env g) (n + 1)) post' >>= fun _ => sourcesM tool.dialect (withText env g) (n + 2) after) :=
    .bind (.bind (simA_thin hca hd hn (hr gfree) (n + 1) (thin_refl _ hpost) (fun st hst => hcode st (by simp [hst]))) fun _ => simA_finish) fun _ => simA_sources hca hd hn gfree (n + 2) after
  obtain ⟨tu, d1, -, l', e', x', b', rfl, -, -, -⟩ := hrest s1 (aside (l, e, dset s1.defines name v') b s1) () u
    ⟨calm1, l, e, _, b, rfl, c1, c2, fun k hk => by rw [dget_dset, if_neg (Ne.symm hk)]⟩ hrun.rest
  have plain : mainRun tool.dialect env (n + 2) (before ++ file :: after) tool.dialect.init = link tool.dialect .dummy u := by
    rw [around_run hrun.before hf h]
    have := hrun.rest
    unfold execStmts at this ⊢
    rw [bind_eq, bind_eq] at this ⊢
    rw [forEach_append, hrun.pre]
    dsimp only
    rw [this]
  have changed : mainRun tool.dialect (withText env g) (n + 2) (before ++ file' :: after) tool.dialect.init = link tool.dialect .dummy (aside (l', e', x') b' u) := by
    rw [around_run a1 (show (withText env g).text file' = some code' from hf') h']
    unfold execStmts at d1 ⊢
    rw [bind_eq, bind_eq] at d1 ⊢
    rw [forEach_append, a3]
    dsimp only
    rw [forEach_cons, hdef]
    dsimp only
    rw [d1]
  unfold build at hb ⊢
  rw [plain] at hb
  rw [show mainRun tool.dialect { env with text := fun f => if f = file' then some code' else env.text f } (n + 2) (before ++ file' :: after) tool.dialect.init = _ from changed,
    (aloof_link tool .dummy).eq]
  rcases hl : link tool.dialect .dummy u with ⟨_ | _, u'⟩
  · rw [hl] at hb; cases hb
  · rw [hl] at hb; exact hb

/-! ## Cases -/

/-- A program with an included file, with `.log` and `.export` lines. -/
def loudFiles : Env :=
  { text := fun n =>
      if n = "a.s".toList then some ".log on\nstart:\n.export start\nlda #1\n.include \"b.s\"\n.LOG off\njmp start\n".toList
      else if n = "b.s".toList then some ".export other\nnop\n".toList
      else none }

/-- The same files without the exports, and with other log lines. -/
def quietTexts : Str → Option Str := fun n =>
  if n = "a.s".toList then some "start:\nlda #1\n.include \"b.s\"\njmp start\n".toList
  else if n = "b.s".toList then some "nop\n.log\n".toList
  else none

theorem hushed_of {d : Dialect} {c c' : Str} (h : (match tokenize c, tokenize c' with | .ok l, .ok l' => decide (without d ["log", "export"] l = without d ["log"] l') | _, _ => false) = true) :
    Hushed d c c' := by
  intro l hl
  rw [hl] at h
  rcases h' : tokenize c' with _ | l'
  · rw [h'] at h; cases h
  · rw [h'] at h; exact ⟨l', rfl, of_decide_eq_true h⟩

example : build mos6502 { loudFiles with text := quietTexts } 3 ["a.s".toList] = .ok [0xA9, 0x01, 0xEA, 0x4C, 0x00, 0x00] := by
  refine C96_build .mos6502 (env := loudFiles) (fun f c h => ?_) (by decide +kernel)
  simp only [loudFiles] at h
  unfold quietTexts
  by_cases h1 : f = "a.s".toList
  · rw [if_pos h1] at h ⊢
    cases h
    exact ⟨_, rfl, hushed_of (by decide +kernel)⟩
  · rw [if_neg h1] at h ⊢
    by_cases h2 : f = "b.s".toList
    · rw [if_pos h2] at h ⊢
      cases h
      exact ⟨_, rfl, hushed_of (by decide +kernel)⟩
    · rw [if_neg h2] at h; cases h

/-- A program with `.export` lines put in need not build: a name can be exported only once. -/
example : build mos6502 { text := fun _ => some ".export a\nnop\n".toList } 3 ["a".toList] = .ok [0xEA] ∧
    build mos6502 { text := fun _ => some ".export a\n.export a\nnop\n".toList } 3 ["a".toList] = .error .symbolAlreadyExported := by decide +kernel

/-- Three sources, the second of which uses a definition of the first. -/
def definedFiles : Env :=
  { text := fun n =>
      if n = "a.s".toList then some ".define one 1\n".toList
      else if n = "b.s".toList then some "lda #one\nldx one+2\n".toList
      else if n = "c.s".toList then some "rts\n".toList
      else none }

def definedPre : List Stmt := [⟨.instr, ["lda".toList, "#one".toList], 1⟩]
def definedPost (line : Nat) : List Stmt := [⟨.instr, ["ldx".toList, "one+2".toList], line⟩]
def definedStart : St := (sourcesM mos6502 definedFiles 3 ["a.s".toList] mos6502.init).2
def definedMiddle : St := (forEach definedPre (execStmt mos6502 definedFiles 2 (assemble mos6502 definedFiles 2)) definedStart).2
def definedEnd : St := ((execStmts mos6502 definedFiles 2 (assemble mos6502 definedFiles 2) (definedPost 2) >>= fun _ => sourcesM mos6502 definedFiles 3 ["c.s".toList]) definedMiddle).2

theorem free_of {n c : Str} {l : List Stmt} (h : tokenize c = .ok l) (hc : (match tokenize c with | .ok l => l.all fun st => st.tokens.all fun t => !(words t).contains n | .error _ => true) = true) :
    Free n l := by
  rw [h] at hc
  intro st hst t ht hn
  have := List.all_eq_true.1 (List.all_eq_true.1 hc st hst) t ht
  simp [hn] at this

theorem defined_free (f c : Str) (l : List Stmt) (h : definedFiles.text f = some c) (hl : tokenize c = .ok l) : Free "on".toList l := by
  simp only [definedFiles] at h
  by_cases h1 : f = "a.s".toList
  · rw [if_pos h1] at h
    cases h
    exact free_of hl (by decide +kernel)
  · rw [if_neg h1] at h
    by_cases h2 : f = "b.s".toList
    · rw [if_pos h2] at h
      cases h
      exact free_of hl (by decide +kernel)
    · rw [if_neg h2] at h
      by_cases h3 : f = "c.s".toList
      · rw [if_pos h3] at h
        cases h
        exact free_of hl (by decide +kernel)
      · rw [if_neg h3] at h; cases h

/-- The definition of `on` does not touch `one`. -/
example : build mos6502 { definedFiles with text := fun f => if f = "b2.s".toList then some "lda #one\n.define on 7\nldx one+2\n".toList else definedFiles.text f } 3
    ["a.s".toList, "b2.s".toList, "c.s".toList] = .ok [0xA9, 0x01, 0xA6, 0x03, 0x60] := by
  refine C97_define .mos6502 (before := ["a.s".toList]) (after := ["c.s".toList]) (file := "b.s".toList) (file' := "b2.s".toList) (code := "lda #one\nldx one+2\n".toList)
    (code' := "lda #one\n.define on 7\nldx one+2\n".toList) (pre := definedPre) (post := definedPost 2) (pre' := definedPre) (post' := definedPost 3) (t := ".define".toList)
    (name := "on".toList) (v := "7".toList) (ln := 2) (s0 := definedStart) (s1 := definedMiddle) (u := definedEnd) rfl rfl (by decide +kernel) (by decide +kernel) rfl rfl rfl
    (by unfold IsWord; decide) defined_free (by intro r hr; cases hr) ⟨ran (by decide +kernel), ran (by decide +kernel), ran (by decide +kernel)⟩ (by decide +kernel) (by decide +kernel)

/-- The name must not occur: the definition takes the place of a label of that name. -/
example : build mos6502 { text := fun _ => some "lda #1\nonce:\nldx once+2\n".toList } 3 ["a".toList] = .ok [0xA9, 0x01, 0xA6, 0x04] ∧
    build mos6502 { text := fun _ => some ".define once 7\nlda #1\nonce:\nldx once+2\n".toList } 3 ["a".toList] = .ok [0xA9, 0x01, 0xA6, 0x09] := by decide +kernel

end Necro
