import Verif.Lemmas.Aloof
import Verif.Spec.Words
import Verif.Lemmas.Lookup
/-!
# Programs that differ in what is logged, exported and defined
-/

namespace Necro
open Spec
open M (throw get modify lift forEach times)

/-- Two tables of definitions that replace the same in the tokens that occur. -/
structure Defs where
  clean : Str → Prop
  rel : List (Str × Str) → List (Str × Str) → Prop
  same : ∀ {a x t}, rel a x → clean t → subToken x t = subToken a t
  closed : ∀ {a t}, (∀ k v, dget a k = some v → clean v) → clean t → clean (subToken a t)
  set : ∀ {a x k v}, rel a x → clean k → clean v → rel (dset a k v) (dset x k v)

variable {S : Defs} {d : Dialect}

/-- Everything that can be replaced or executed later is made of such tokens. -/
structure Calm (S : Defs) (s : St) : Prop where
  defines : ∀ k v, dget s.defines k = some v → S.clean v
  bodies : ∀ k m, dget s.macros k = some m → ∀ st ∈ m.body, ∀ t ∈ st.tokens, S.clean t

/-- `t` is `s` but for the log switch, fewer exports, more macros and other definitions. -/
def Aside (S : Defs) (d : Dialect) (s t : St) : Prop :=
  Calm S s ∧ ∃ l e x b, t = aside (l, e, x) b s ∧ MoreMacros d s.macros b ∧ (∀ n ∈ e, n ∈ s.exports) ∧ S.rel s.defines x

def SimA (S : Defs) (d : Dialect) (m m' : M α) : Prop := ∀ s t v s', Aside S d s t → m s = (.ok v, s') → ∃ t', m' t = (.ok v, t') ∧ Aside S d s' t'

theorem Aloof.fields {m : M α} (h : Aloof m) (s : St) : (m s).2.log = s.log ∧ (m s).2.exports = s.exports ∧ (m s).2.defines = s.defines ∧ (m s).2.macros = s.macros := by
  have h0 := congrArg Prod.snd (h.eq s (s.log, s.exports, s.defines) s.macros)
  have h1 : (m s).2 = aside (s.log, s.exports, s.defines) s.macros (m s).2 := h0
  refine ⟨?_, ?_, ?_, ?_⟩ <;> rw [h1] <;> rfl

namespace SimA

theorem pure (x : α) : SimA S d (Pure.pure x : M α) (Pure.pure x) := fun s t v s' hm h => by cases h; exact ⟨t, rfl, hm⟩
theorem throw (e : Err) (m : M α) : SimA S d (M.throw e : M α) m := fun s t v s' hm h => by cases h
theorem lift (x : Except Err α) : SimA S d (M.lift x) (M.lift x) := by
  intro s t v s' hm h
  rw [lift_eq] at h
  cases h
  exact ⟨t, rfl, hm⟩

theorem bind {m m' : M α} {f f' : α → M β} (hm : SimA S d m m') (hf : ∀ x, SimA S d (f x) (f' x)) : SimA S d (m >>= f) (m' >>= f') := by
  intro s t v s' hst h
  rw [bind_eq] at h
  rcases hr : m s with ⟨r, s1⟩
  rw [hr] at h
  cases r with
  | error e => cases h
  | ok x =>
    obtain ⟨t1, h1, h2⟩ := hm s t x s1 hst hr
    obtain ⟨t2, h3, h4⟩ := hf x s1 t1 v s' h2 h
    exact ⟨t2, by rw [bind_eq, h1]; exact h3, h4⟩

theorem forEach {α : Type} {f f' : α → M Unit} {P : α → α → Prop} (hf : ∀ x y, P x y → SimA S d (f x) (f' y)) :
    ∀ {l l' : List α}, Both P l l' → SimA S d (M.forEach l f) (M.forEach l' f')
  | _, _, .nil => pure ()
  | _, _, .cons h t => bind (hf _ _ h) fun _ => forEach hf t

theorem aloof {m : M α} (hf : Aloof m) : SimA S d m m := by
  rintro s _ v s' ⟨hc, l, e, x, b, rfl, h1, h2, h3⟩ h
  obtain ⟨-, g2, g3, g4⟩ := hf.fields s
  rw [h] at g2 g3 g4
  dsimp only at g2 g3 g4
  refine ⟨aside (l, e, x) b s', by rw [hf.eq, h], ⟨by rw [g3]; exact hc.defines, by rw [g4]; exact hc.bodies⟩, l, e, x, b, rfl, by rw [g4]; exact h1, by rw [g2]; exact h2, by rw [g3]; exact h3⟩

end SimA

/-! ## macros -/

theorem Calm.setMacro {s : St} (h : Calm S s) (k : Str) {m : Macro} (hm : ∀ st ∈ m.body, ∀ t ∈ st.tokens, S.clean t) : Calm S { s with macros := dset s.macros k m } := by
  refine ⟨h.defines, fun k' m' hk => ?_⟩
  dsimp only at hk
  rw [dget_dset] at hk
  split at hk
  · cases hk; exact hm
  · exact h.bodies k' m' hk

theorem Calm.setTok {s : St} (h : Calm S s) (k : Str) (i : Nat) {ts : List Str} (ht : ∀ t ∈ ts, S.clean t) : Calm S { s with macros := Necro.setTok s.macros k i ts } := by
  unfold Necro.setTok
  cases hk : dget s.macros k with
  | none => exact h
  | some m =>
    refine h.setMacro k fun st hst t htt => ?_
    dsimp only at hst
    obtain ⟨j, hj⟩ := List.getElem?_of_mem hst
    rw [List.getElem?_modify] at hj
    cases hb : m.body[j]? with
    | none => rw [hb] at hj; cases hj
    | some y =>
      rw [hb] at hj
      have hy : y ∈ m.body := List.mem_of_getElem? hb
      by_cases hij : i = j
      · simp only [hij, if_true, Option.map_some] at hj
        cases hj
        exact ht t htt
      · simp only [hij, if_false, Option.map_some] at hj
        cases hj
        exact h.bodies k m hk _ hy t htt

theorem simA_setBodyTokens (k : Str) (i : Nat) {ts : List Str} (ht : ∀ t ∈ ts, S.clean t) : SimA S d (setBodyTokens k i ts) (setBodyTokens k i ts) := by
  rintro s _ v s' ⟨hc, l, e, x, b, rfl, h1, h2, h3⟩ h
  rw [setBodyTokens_eq] at h ⊢
  cases h
  exact ⟨_, rfl, hc.setTok k i ht, l, e, x, setTok b k i ts, rfl, h1.setTok k i ts, h2, h3⟩

theorem simA_writeBack (ref : StmtRef) {ts : List Str} (ht : ∀ t ∈ ts, S.clean t) : SimA S d (writeBack ref ts) (writeBack ref ts) := by
  cases ref with
  | none => exact .pure ()
  | some p => exact simA_setBodyTokens _ _ ht

theorem simA_recordStmt (k : Str) {st st' : Stmt} (hc : content st = content st') (ht : ∀ t ∈ st.tokens, S.clean t) : SimA S d (recordStmt k st) (recordStmt k st') := by
  rintro s _ v s' ⟨hcalm, l, e, x, b, rfl, h1, h2, h3⟩ h
  unfold recordStmt at h ⊢
  rcases h1 k with ⟨m, m', g1, g2, g3⟩ | ⟨g1, g2⟩
  · rw [g1] at h
    cases h
    dsimp only [aside]
    rw [g2]
    refine ⟨_, rfl, hcalm.setMacro k ?_, l, e, x, _, rfl, h1.set k ⟨g3.1, by simp [g3.2, hc]⟩, h2, h3⟩
    intro y hy t hty
    rcases List.mem_append.1 hy with hy | hy
    · exact hcalm.bodies k m g1 y hy t hty
    · cases List.mem_singleton.1 hy; exact ht t hty
  · rw [g1] at h; cases h

theorem macroDict_clean : ∀ (ps as : List Str) (acc md : List (Str × Str)), macroDict ps as acc = .ok md → (∀ t ∈ as, S.clean t) → (∀ k v, dget acc k = some v → S.clean v) →
    ∀ k v, dget md k = some v → S.clean v
  | [], _, _, _, h, _, ha => by cases h; exact ha
  | _ :: _, [], _, _, h, _, _ => by cases h
  | p :: ps, a :: as, acc, md, h, h1, h2 => by
    refine macroDict_clean ps as (dset acc p a) md h (fun t ht => h1 t (by simp [ht])) fun k v hk => ?_
    rw [dget_dset] at hk
    split at hk
    · cases hk; exact h1 a (by simp)
    · exact h2 k v hk

theorem subst_clean {a : List (Str × Str)} (ha : ∀ k v, dget a k = some v → S.clean v) {ts : List Str} (ht : ∀ t ∈ ts, S.clean t) (i : Nat) :
    ∀ t ∈ substituteWithDict ts a i, S.clean t := by
  intro t h
  unfold substituteWithDict at h
  rcases List.mem_append.1 h with h | h
  · exact ht t (List.mem_of_mem_take h)
  · obtain ⟨y, hy, rfl⟩ := List.mem_map.1 h
    exact S.closed ha (ht y (List.mem_of_mem_drop hy))

theorem subst_same {a x : List (Str × Str)} (h : S.rel a x) {ts : List Str} (ht : ∀ t ∈ ts, S.clean t) (i : Nat) : substituteWithDict ts x i = substituteWithDict ts a i := by
  unfold substituteWithDict
  congr 1
  exact List.map_congr_left fun y hy => S.same h (ht y (List.mem_of_mem_drop hy))

theorem simA_macroStep {exec exec' : StmtRef → Stmt → M Unit} (he : ∀ r st st', content st = content st' → (∀ t ∈ st.tokens, S.clean t) → SimA S d (exec r st) (exec' r st'))
    (key : Str) (params : List Str) {args : List Str} (ha : ∀ t ∈ args, S.clean t) (i : Nat) : SimA S d (macroStep exec key params args i) (macroStep exec' key params args i) := by
  rintro s t v s' hst h
  obtain ⟨hcalm, hm⟩ : Calm S s ∧ MoreMacros d s.macros t.macros := by
    obtain ⟨hc, l, e, x, b, rfl, h1, -, -⟩ := hst; exact ⟨hc, h1⟩
  unfold macroStep at h ⊢
  rw [bind_eq, get_eq] at h ⊢
  dsimp only at h ⊢
  rcases hm key with ⟨m, m', h1, h2, h3⟩ | ⟨h1, h2⟩
  · rw [h1] at h
    rw [h2]
    dsimp only at h ⊢
    rcases h3.getElem i with ⟨e1, e2⟩ | ⟨x, y, e1, e2, e3⟩
    · rw [e1] at h; cases h; rw [e2]; exact ⟨_, rfl, hst⟩
    · rw [e1] at h
      rw [e2]
      have hk : x.kind = y.kind := congrArg Prod.fst e3
      have ht : x.tokens = y.tokens := congrArg Prod.snd e3
      have hx : ∀ t ∈ x.tokens, S.clean t := hcalm.bodies key m h1 x (List.mem_of_getElem? e1)
      dsimp only at h ⊢
      rw [bind_eq, lift_eq] at h ⊢
      cases hmd : macroDict params args [] with
      | error e => rw [hmd] at h; cases h
      | ok md =>
        rw [hmd] at h
        dsimp only at h ⊢
        have hc := subst_clean (macroDict_clean params args [] md hmd ha (fun k v h => by cases h)) hx 0
        have hsim : SimA S d (do setBodyTokens key i (substituteWithDict x.tokens md 0); exec (some (key, i)) { x with tokens := substituteWithDict x.tokens md 0 }; setBodyTokens key i x.tokens)
            (do setBodyTokens key i (substituteWithDict x.tokens md 0); exec' (some (key, i)) { y with tokens := substituteWithDict x.tokens md 0 }; setBodyTokens key i x.tokens) :=
          .bind (simA_setBodyTokens _ _ hc) fun _ => .bind (he _ _ _ (by simp [content, hk]) hc) fun _ => simA_setBodyTokens _ _ hx
        rw [← ht]
        exact hsim _ _ _ _ hst h
  · rw [h1] at h; cases h

theorem simA_execInstr : ∀ depth ref st st', content st = content st' → (∀ t ∈ st.tokens, S.clean t) → SimA S d (execInstr d depth ref st) (execInstr d depth ref st') := by
  intro depth
  induction depth with
  | zero => intro ref st st' _ _; exact .throw _ _
  | succ n ih =>
    intro ref st st' hc hcl
    have ht : st.tokens = st'.tokens := congrArg Prod.snd hc
    intro s t v s' hst h
    obtain ⟨hcalm, e1, e2, hm⟩ : Calm S s ∧ t.recording = s.recording ∧ S.rel s.defines t.defines ∧ MoreMacros d s.macros t.macros := by
      obtain ⟨hc, l, e, x, b, rfl, h1, -, h3⟩ := hst
      exact ⟨hc, rfl, h3, h1⟩
    rw [execInstr, bind_eq, get_eq] at h ⊢
    dsimp only at h ⊢
    rw [e1]
    cases hr : s.recording with
    | some key =>
      rw [hr] at h
      exact simA_recordStmt key hc hcl _ _ _ _ hst h
    | none =>
      rw [hr] at h
      dsimp only at h ⊢
      rw [← ht, subst_same e2 hcl]
      have hcl2 := subst_clean hcalm.defines hcl 0
      refine SimA.bind (simA_writeBack _ hcl2) (fun _ => ?_) _ _ _ _ hst h
      revert hcl2
      cases substituteWithDict st.tokens s.defines 0 with
      | nil => intro _; exact .throw _ _
      | cons w r =>
        intro hcl2
        dsimp only
        rcases hm (d.key w) with ⟨m, m', h1, h2, h3⟩ | ⟨h1, h2⟩
        · rw [h1, h2]
          dsimp only [runMacro]
          have hl : m.body.length = m'.body.length := by simpa using congrArg List.length h3.2
          rw [hl, h3.1]
          refine SimA.forEach (P := fun x y => x = y) ?_ (forall₂_refl _)
          rintro x _ rfl
          exact simA_macroStep ih _ _ (fun t ht => hcl2 t (List.mem_of_mem_drop ht)) _
        · rw [h1]
          dsimp only
          cases hi : d.instrs (d.key w) with
          | none => exact .throw _ _
          | some ins =>
            rw [h2.resolve_right (by rw [hi]; intro h; cases h)]
            dsimp only
            cases ins with
            | fixed blob =>
              dsimp only
              split
              · exact .throw _ _
              · exact .aloof (aloof_appendBytes _)
            | handler f => exact .bind (.aloof (aloof_runHandler _ _ _)) fun _ => .aloof (aloof_appendBytes _)

/-! ## directives -/

theorem simA_directiveMacro (l : List Str) : SimA S d (directiveMacro d l) (directiveMacro d l) := by
  rintro s t v s' ⟨hcalm, l', e, x, b, ht, h1, h2, h3⟩ h
  have e1 : t.recording = s.recording := by rw [ht]; rfl
  unfold directiveMacro at h ⊢
  rw [bind_eq, get_eq] at h ⊢
  dsimp only at h ⊢
  rw [e1]
  cases hr : s.recording with
  | some k => rw [hr] at h; cases h
  | none =>
    rw [hr] at h
    dsimp only at h ⊢
    cases hl : l.drop 1 with
    | nil => rw [hl] at h; cases h
    | cons n args =>
      rw [hl] at h
      cases h
      subst ht
      have hk := hcalm.setMacro (d.key n) (m := { args := args }) (fun st h => by cases h)
      exact ⟨_, rfl, ⟨hk.defines, hk.bodies⟩, l', e, x, _, rfl, h1.set _ (sameMacro_refl _), h2, h3⟩

theorem simA_log (l : List Str) : SimA S d (directiveLog l) (directiveLog l) := by
  have h : ∀ c, SimA S d (modify fun s => { s with log := c }) (modify fun s => { s with log := c }) := by
    rintro c s _ v s' ⟨hcalm, l', e, x, b, rfl, h⟩ hs
    cases hs
    exact ⟨_, rfl, ⟨hcalm.defines, hcalm.bodies⟩, c, e, x, b, rfl, h⟩
  unfold directiveLog
  split
  · exact h _
  · split
    · exact h _
    · split
      · exact h _
      · exact .pure ()

theorem simA_export (l : List Str) : SimA S d (directiveExport l) (directiveExport l) := by
  refine .bind (.aloof (aloof_exactlyTwo l)) fun a => .bind (.aloof (aloof_stringify a)) fun name => ?_
  rintro s _ v s' ⟨hcalm, l', e, x, b, rfl, h1, h2, h3⟩ hs
  rw [bind_eq, get_eq] at hs ⊢
  dsimp only [aside] at hs ⊢
  by_cases hn : name ∈ s.exports
  · rw [if_pos hn] at hs; cases hs
  · rw [if_neg hn] at hs
    rw [if_neg (fun h => hn (h2 name h))]
    cases hs
    refine ⟨_, rfl, ⟨hcalm.defines, hcalm.bodies⟩, l', e ++ [name], x, b, rfl, h1, fun n hn => ?_, h3⟩
    simp only [List.mem_append, List.mem_singleton] at hn ⊢
    exact hn.imp (h2 n) id

theorem simA_define {l : List Str} (hl : ∀ t ∈ l.drop 1, S.clean t) : SimA S d (directiveDefine l) (directiveDefine l) := by
  unfold directiveDefine
  split
  · rename_i w n v
    have hn := hl n (by simp)
    have hv := hl v (by simp)
    rintro s _ v' s' ⟨hcalm, l', e, x, b, rfl, h1, h2, h3⟩ hs
    cases hs
    refine ⟨_, rfl, ⟨fun k w hk => ?_, hcalm.bodies⟩, l', e, dset x n v, b, rfl, h1, h2, S.set h3 hn hv⟩
    dsimp only at hk
    rw [dget_dset] at hk
    split at hk
    · cases hk; exact hv
    · exact hcalm.defines k w hk
  · exact .throw _ _

/-- The same files but for the texts. -/
def withText (env : Env) (g : Str → Option Str) : Env := { env with text := g }

theorem lookup_include {d : Dialect} {env : Env} {g : Str → Option Str} {rec rec' : Str → M Unit} {key : Str} {f : List Str → M Unit}
    (h : dget ((builtinDirective d env rec).map fun p => (d.key p.1.toList, p.2)) key = some f) :
    (f = directiveInclude env rec ∧ dget ((builtinDirective d (withText env g) rec').map fun p => (d.key p.1.toList, p.2)) key = some (directiveInclude (withText env g) rec')) ∨
    (∃ p ∈ builtinDirective d env rec, p.1 ≠ "include" ∧ p.2 = f) ∧ dget ((builtinDirective d (withText env g) rec').map fun p => (d.key p.1.toList, p.2)) key = some f := by
  have general : ∀ l l' : List (String × (List Str → M Unit)), Both (fun p q => p.1 = q.1 ∧ (p.1 = "include" ∧ p.2 = directiveInclude env rec ∧ q.2 = directiveInclude (withText env g) rec' ∨ p.1 ≠ "include" ∧ q.2 = p.2)) l l' →
      dget (l.map fun p => (d.key p.1.toList, p.2)) key = some f →
      (f = directiveInclude env rec ∧ dget (l'.map fun p => (d.key p.1.toList, p.2)) key = some (directiveInclude (withText env g) rec')) ∨
      (∃ p ∈ l, p.1 ≠ "include" ∧ p.2 = f) ∧ dget (l'.map fun p => (d.key p.1.toList, p.2)) key = some f := by
    intro l l' hb
    induction hb with
    | nil => intro h; cases h
    | @cons p q l l' hpq _ ih =>
      intro h
      obtain ⟨hn, hc⟩ := hpq
      rw [List.map_cons, dget] at h ⊢
      rw [← hn]
      split
      · rename_i hk
        rw [if_pos hk] at h
        cases h
        rcases hc with ⟨-, h1, h2⟩ | ⟨h1, h2⟩
        · exact .inl ⟨h1, by rw [h2]⟩
        · exact .inr ⟨⟨p, by simp, h1, rfl⟩, by rw [h2]⟩
      · rename_i hk
        rw [if_neg hk] at h
        rcases ih h with h | ⟨⟨x, hx, hy⟩, h2⟩
        · exact .inl h
        · exact .inr ⟨⟨x, by simp [hx], hy⟩, h2⟩
  refine general _ _ ?_ h
  have one : ∀ (n : String) (f : List Str → M Unit), n ≠ "include" → (n, f).1 = (n, f).1 ∧ ((n, f).1 = "include" ∧ (n, f).2 = directiveInclude env rec ∧ (n, f).2 = directiveInclude (withText env g) rec' ∨ (n, f).1 ≠ "include" ∧ (n, f).2 = (n, f).2) :=
    fun n f h => ⟨rfl, .inr ⟨h, rfl⟩⟩
  unfold builtinDirective
  refine .cons (one _ _ (by decide)) (.cons (one _ _ (by decide)) (.cons (one _ _ (by decide)) (.cons ⟨rfl, .inl ⟨rfl, rfl, rfl⟩⟩ ?_)))
  repeat' first
    | exact .nil
    | refine .cons (one _ _ (by decide)) ?_

theorem simA_execDirective {env : Env} {g : Str → Option Str} {rec rec' : Str → M Unit} (hc : CustomAloof d env) (hd : d.directives (withText env g) = d.directives env)
    (hr : ∀ f c, env.text f = some c → ∃ c', g f = some c' ∧ SimA S d (rec c) (rec' c')) {l : List Str} (hl : ∀ t ∈ l, S.clean t) :
    SimA S d (execDirective d env rec l) (execDirective d (withText env g) rec' l) := by
  intro s t v s' hst h
  obtain ⟨hcalm, e2⟩ : Calm S s ∧ S.rel s.defines t.defines := by
    obtain ⟨hc, l, e, x, b, rfl, h1, -, h3⟩ := hst
    exact ⟨hc, h3⟩
  unfold execDirective at h ⊢
  rw [bind_eq, get_eq] at h ⊢
  dsimp only at h ⊢
  rw [subst_same e2 hl]
  have hl2 := subst_clean hcalm.defines hl 1
  revert h hl2
  generalize substituteWithDict l s.defines 1 = ts
  intro h hl2
  refine (?_ : SimA S d _ _) _ _ _ _ hst h
  cases ts with
  | nil => exact .throw _ _
  | cons w r =>
    dsimp only
    cases hf : lookupDirective d env rec (d.key (w.drop 1)) with
    | none => exact .throw _ _
    | some f =>
      unfold lookupDirective at hf ⊢
      rw [hd]
      cases hg : d.directives env (d.key (w.drop 1)) with
      | some q =>
        rw [hg] at hf
        cases hf
        exact .aloof (hc _ _ hg _)
      | none =>
        rw [hg] at hf
        dsimp only at hf ⊢
        rcases lookup_include (g := g) (rec' := rec') hf with ⟨rfl, h2⟩ | ⟨⟨p, hp, hn, rfl⟩, h2⟩
        · rw [h2]
          refine .bind (.aloof (aloof_exactlyTwo _)) fun a => .bind (.aloof (aloof_stringify a)) fun name => ?_
          show SimA S d (openFile (env.text name) >>= rec) (openFile (g name) >>= rec')
          cases hx : env.text name with
          | none => exact .throw _ _
          | some c =>
            obtain ⟨c', h3, h4⟩ := hr name c hx
            rw [h3]
            exact h4
        · rw [h2]
          dsimp only
          rcases aloof_cases hp with h | rfl | rfl | rfl | rfl | rfl | rfl
          · exact .aloof (aloof_builtin d env p h _)
          · exact simA_directiveMacro _
          · exact .aloof (aloof_section d _)
          · exact absurd rfl hn
          · exact simA_log _
          · exact simA_export _
          · exact simA_define fun t ht => hl2 t (List.mem_of_mem_drop ht)

/-! ## sources -/

/-- A directive line of this name, as the dialect reads directives. -/
def IsLine (d : Dialect) (word : String) (st : Stmt) : Prop := st.kind = .directive ∧ ∃ t r, st.tokens = t :: r ∧ IsDirectiveToken d t word

/-- A source without some of its `.log` and `.export` lines, and with other `.log` lines. -/
inductive Thin (d : Dialect) : List Stmt → List Stmt → Prop
  | nil : Thin d [] []
  | same {x y l l'} : content x = content y → Thin d l l' → Thin d (x :: l) (y :: l')
  | left {x l l'} : IsLine d "log" x ∨ IsLine d "export" x → Thin d l l' → Thin d (x :: l) l'
  | right {y l l'} : IsLine d "log" y → Thin d l l' → Thin d l (y :: l')

/-- The class has no `.log` and `.export` of its own. -/
def NoOwn (d : Dialect) : Prop := ∀ env, ∀ w ∈ ["log", "export"], d.directives env (d.key w.toList) = none

theorem exec_line {env : Env} {depth : Nat} {rec : Str → M Unit} {word : String} {f : List Str → M Unit} (hp : (word, f) ∈ builtinDirective d env rec) (hc : d.directives env (d.key word.toList) = none)
    {x : Stmt} (hx : IsLine d word x) (s : St) : ∃ l, execStmt d env depth rec x s = f l s := by
  obtain ⟨hk, t, r, ht, hi⟩ := hx
  refine ⟨t :: substituteWithDict r s.defines 0, ?_⟩
  unfold execStmt
  rw [hk, ht]
  exact exec_builtin hp hc hi r s

theorem log_state (l : List Str) (s : St) : ∃ c, directiveLog l s = (.ok (), { s with log := c }) := by
  unfold directiveLog
  cases l.drop 1 with
  | nil => exact ⟨_, rfl⟩
  | cons t r =>
    dsimp only
    by_cases h1 : upper t = "ON".toList
    · rw [if_pos h1]; exact ⟨_, rfl⟩
    · rw [if_neg h1]
      by_cases h2 : upper t = "OFF".toList
      · rw [if_pos h2]; exact ⟨_, rfl⟩
      · rw [if_neg h2]; exact ⟨s.log, rfl⟩

theorem export_state {l : List Str} {s s' : St} (h : directiveExport l s = (.ok (), s')) : ∃ n, s' = { s with exports := s.exports ++ [n] } := by
  unfold directiveExport at h
  have e1 : ∀ s, exactlyTwo l s = (.ok (l.getD 1 []), s) ∨ ∃ e, exactlyTwo l s = (.error e, s) := by
    intro s
    unfold exactlyTwo
    split
    · exact .inl rfl
    · exact .inr ⟨_, rfl⟩
  rw [bind_eq] at h
  rcases e1 s with h1 | ⟨e, h1⟩
  · rw [h1] at h
    dsimp only at h
    rw [bind_eq] at h
    have e2 : ∀ a s, (∃ n, stringify a s = (.ok n, s)) ∨ ∃ e, stringify a s = (.error e, s) := by
      intro a s
      cases a with
      | nil => exact .inr ⟨_, rfl⟩
      | cons c r =>
        refine .inl ?_
        unfold stringify
        rw [bind_eq]
        have : firstChar (c :: r) s = (.ok c, s) := rfl
        rw [this]
        dsimp only
        split <;> exact ⟨_, rfl⟩
    rcases e2 (l.getD 1 []) s with ⟨n, h2⟩ | ⟨e, h2⟩
    · rw [h2] at h
      dsimp only at h
      rw [bind_eq, get_eq] at h
      dsimp only at h
      split at h
      · cases h
      · cases h; exact ⟨n, rfl⟩
    · rw [h2] at h; cases h
  · rw [h1] at h; cases h

theorem simA_execStmt {env : Env} {g : Str → Option Str} {rec rec' : Str → M Unit} (hc : CustomAloof d env) (hd : d.directives (withText env g) = d.directives env)
    (hr : ∀ f c, env.text f = some c → ∃ c', g f = some c' ∧ SimA S d (rec c) (rec' c')) (depth : Nat) {st st' : Stmt} (h : content st = content st') (hl : ∀ t ∈ st.tokens, S.clean t) :
    SimA S d (execStmt d env depth rec st) (execStmt d (withText env g) depth rec' st') := by
  have hk : st.kind = st'.kind := congrArg Prod.fst h
  have ht : st.tokens = st'.tokens := congrArg Prod.snd h
  unfold execStmt
  rw [← hk, ← ht]
  split
  · exact simA_execInstr depth none _ _ h hl
  · exact simA_execDirective hc hd hr hl
  · exact .aloof (aloof_execLabel d _)

theorem simA_thin {env : Env} {g : Str → Option Str} {rec rec' : Str → M Unit} (hc : CustomAloof d env) (hd : d.directives (withText env g) = d.directives env) (hn : NoOwn d)
    (hr : ∀ f c, env.text f = some c → ∃ c', g f = some c' ∧ SimA S d (rec c) (rec' c')) (depth : Nat) {l l' : List Stmt} (h : Thin d l l')
    (hl : ∀ st ∈ l, ∀ t ∈ st.tokens, S.clean t) : SimA S d (forEach l (execStmt d env depth rec)) (forEach l' (execStmt d (withText env g) depth rec')) := by
  induction h with
  | nil => exact .pure ()
  | same hxy _ ih => exact .bind (simA_execStmt hc hd hr depth hxy (hl _ (by simp))) fun _ => ih fun st hst => hl st (by simp [hst])
  | @left x l l' hx _ ih =>
    have ih := ih fun st hst => hl st (by simp [hst])
    intro s t v s' hst h
    rw [forEach_cons] at h
    rcases hq : execStmt d env depth rec x s with ⟨_ | u, s1⟩
    · rw [hq] at h; cases h
    rw [hq] at h
    refine ih s1 t v s' ?_ h
    obtain ⟨hcalm, a, e, y, b, rfl, h1, h2, h3⟩ := hst
    rcases hx with hx | hx
    · obtain ⟨ts, hs⟩ := exec_line (depth := depth) (show ("log", directiveLog) ∈ builtinDirective d env rec by simp [builtinDirective]) (hn env _ (by simp)) hx s
      obtain ⟨c, hc⟩ := log_state ts s
      rw [hs, hc] at hq
      cases hq
      exact ⟨⟨hcalm.defines, hcalm.bodies⟩, a, e, y, b, rfl, h1, h2, h3⟩
    · obtain ⟨ts, hs⟩ := exec_line (depth := depth) (show ("export", directiveExport) ∈ builtinDirective d env rec by simp [builtinDirective]) (hn env _ (by simp)) hx s
      rw [hs] at hq
      obtain ⟨n, rfl⟩ := export_state hq
      exact ⟨⟨hcalm.defines, hcalm.bodies⟩, a, e, y, b, rfl, h1, fun m hm => List.mem_append_left _ (h2 m hm), h3⟩
  | @right y l l' hy _ ih =>
    have ih := ih hl
    intro s t v s' hst h
    obtain ⟨ts, hs⟩ := exec_line (depth := depth) (show ("log", directiveLog) ∈ builtinDirective d (withText env g) rec' by simp [builtinDirective]) (hn _ _ (by simp)) hy t
    obtain ⟨c, hc⟩ := log_state ts t
    have hst' : Aside S d s { t with log := c } := by
      obtain ⟨hcalm, a, e, y, b, rfl, h1, h2, h3⟩ := hst
      exact ⟨hcalm, c, e, y, b, rfl, h1, h2, h3⟩
    obtain ⟨t', h1, h2⟩ := ih s _ v s' hst' h
    exact ⟨t', by rw [forEach_cons, hs, hc]; exact h1, h2⟩

/-- The second text is the first but for such lines, and its tokens are replaced alike. -/
def Slim (S : Defs) (d : Dialect) (c c' : Str) : Prop :=
  ∀ l, tokenize c = .ok l → (∀ st ∈ l, ∀ t ∈ st.tokens, S.clean t) ∧ ∃ l', tokenize c' = .ok l' ∧ Thin d l l'

theorem simA_finish : SimA S d (finalFill d >>= fun _ => closeSection) (finalFill d >>= fun _ => closeSection) :=
  .bind (.aloof (aloof_finalFill d)) fun _ => .aloof aloof_closeSection

theorem simA_assemble {env : Env} {g : Str → Option Str} (hc : CustomAloof d env) (hd : d.directives (withText env g) = d.directives env) (hn : NoOwn d)
    (hg : ∀ f c, env.text f = some c → ∃ c', g f = some c' ∧ Slim S d c c') : ∀ depth c c', Slim S d c c' → SimA S d (assemble d env depth c) (assemble d (withText env g) depth c')
  | 0, _, _, _ => .throw _ _
  | n + 1, c, c', h => by
    have hr : ∀ f c, env.text f = some c → ∃ c', g f = some c' ∧ SimA S d (assemble d env n c) (assemble d (withText env g) n c') := by
      intro f c hf
      obtain ⟨c', h1, h2⟩ := hg f c hf
      exact ⟨c', h1, simA_assemble hc hd hn hg n c c' h2⟩
    rw [assemble, assemble]
    cases ht : tokenize c with
    | error e => exact .throw _ _
    | ok l =>
      obtain ⟨h1, l', h2, h3⟩ := h l ht
      rw [h2]
      show SimA S d (execStmts d env n (assemble d env n) l) (execStmts d (withText env g) n (assemble d (withText env g) n) l')
      exact .bind (simA_thin hc hd hn hr n h3 h1) fun _ => simA_finish

theorem simA_sources {env : Env} {g : Str → Option Str} (hc : CustomAloof d env) (hd : d.directives (withText env g) = d.directives env) (hn : NoOwn d)
    (hg : ∀ f c, env.text f = some c → ∃ c', g f = some c' ∧ Slim S d c c') (depth : Nat) (names : List Str) :
    SimA S d (forEach names fun name => do let code ← openFile (env.text name); assemble d env depth code)
      (forEach names fun name => do let code ← openFile ((withText env g).text name); assemble d (withText env g) depth code) := by
  refine .forEach (P := fun x y => x = y) ?_ (forall₂_refl _)
  rintro x _ rfl
  show SimA S d (openFile (env.text x) >>= assemble d env depth) (openFile (g x) >>= assemble d (withText env g) depth)
  cases hx : env.text x with
  | none => exact .throw _ _
  | some c =>
    obtain ⟨c', h1, h2⟩ := hg x c hx
    rw [h1]
    exact simA_assemble hc hd hn hg depth c c' h2

end Necro
