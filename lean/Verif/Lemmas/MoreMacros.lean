import Verif.Lemmas.FrameTools
/-!
# More macros make no difference to a program that is assembled without them
-/

namespace Necro
open Spec
open M (throw get modify lift forEach times)

/-- The macros `b` are the macros `a` and others whose names are not those of instructions. -/
def MoreMacros (d : Dialect) (a b : List (Str × Macro)) : Prop :=
  ∀ k, (∃ m m', dget a k = some m ∧ dget b k = some m' ∧ SameMacro m m') ∨ (dget a k = none ∧ (dget b k = none ∨ d.instrs k = none))

/-- `t` is `s` with more macros. -/
def More (d : Dialect) (s t : St) : Prop := ∃ b, t = { s with macros := b } ∧ MoreMacros d s.macros b

/-- What succeeds succeeds with more macros, too, with the same outcome. -/
def SimMore (d : Dialect) (m m' : M α) : Prop := ∀ s t v s', More d s t → m s = (.ok v, s') → ∃ t', m' t = (.ok v, t') ∧ More d s' t'

theorem sameMacro_refl (m : Macro) : SameMacro m m := ⟨rfl, rfl⟩

theorem more_refl (d : Dialect) (s : St) : More d s s := by
  refine ⟨s.macros, rfl, fun k => ?_⟩
  cases h : dget s.macros k with
  | none => exact .inr ⟨rfl, .inl rfl⟩
  | some m => exact .inl ⟨m, m, rfl, rfl, sameMacro_refl m⟩

/-- A step that uses the macros in no way. -/
def MacFrame (m : M α) : Prop := ∀ s b, m { s with macros := b } = ((m s).1, { (m s).2 with macros := b })

theorem Frame.mac {m : M α} (hf : Frame m) : MacFrame m := by
  intro s b
  have h0 := congrArg Prod.snd (hf.eq s s.macros s.sections)
  have h1 : (m s).2 = put s.macros s.sections (m s).2 := h0
  have h2 : (m s).2.sections = s.sections := by rw [h1]; rfl
  have h3 := hf.eq s b s.sections
  refine h3.trans ?_
  show ((m s).1, ({ (m s).2 with macros := b, sections := s.sections } : St)) = _
  rw [← h2]

theorem MacFrame.bind {m : M α} {f : α → M β} (hm : MacFrame m) (hf : ∀ x, MacFrame (f x)) : MacFrame (m >>= f) := by
  intro s b
  rw [bind_eq, bind_eq, hm s b]
  rcases m s with ⟨_ | x, s'⟩
  · rfl
  · exact hf x s' b

theorem MacFrame.getBind {f : St → M β} (h1 : ∀ s b, f { s with macros := b } = f s) (h2 : ∀ s, MacFrame (f s)) : MacFrame (M.get >>= f) := by
  intro s b
  rw [bind_eq, bind_eq, get_eq, get_eq]
  dsimp only
  rw [h1]
  exact h2 s s b

theorem MacFrame.ite {c : Prop} [Decidable c] {m m' : M α} (h : MacFrame m) (h' : MacFrame m') : MacFrame (if c then m else m') := by
  split
  · exact h
  · exact h'

theorem macFrame_closeSection : MacFrame closeSection := by
  rintro ⟨_, _, _, _, _, _, _, _, _, _, sections, cur, _, _, _, _⟩ b
  unfold closeSection
  dsimp only
  cases cur with
  | none => rfl
  | some n =>
    dsimp only
    split
    · rfl
    · cases dget sections n <;> rfl

theorem macFrame_section (d : Dialect) (l : List Str) : MacFrame (directiveSection d l) := by
  have h : ∀ n p o, MacFrame (sectionBody d n p o) := by
    intro n p o
    refine .bind (frame_stringify n).mac fun name => .getBind (fun _ _ => rfl) fun s => .ite (Frame.throw _).mac (.ite (Frame.throw _).mac ?_)
    cases o with
    | none => exact .bind macFrame_closeSection fun _ => fun _ _ => rfl
    | some t =>
      exact .bind (frame_parseArg d t 64).mac fun v => .bind (frame_changeOrg d v 0).mac fun _ => .bind macFrame_closeSection fun _ => fun _ _ => rfl
  unfold directiveSection
  split
  · exact h _ _ _
  · exact h _ _ _
  · exact (Frame.throw _).mac

namespace SimMore
variable {d : Dialect}

theorem pure (x : α) : SimMore d (Pure.pure x : M α) (Pure.pure x) := fun s t v s' hm h => by cases h; exact ⟨t, rfl, hm⟩
theorem throw (e : Err) (m : M α) : SimMore d (M.throw e : M α) m := fun s t v s' hm h => by cases h
theorem lift (x : Except Err α) : SimMore d (M.lift x) (M.lift x) := by
  intro s t v s' hm h
  rw [lift_eq] at h
  cases h
  exact ⟨t, rfl, hm⟩

theorem bind {m m' : M α} {f f' : α → M β} (hm : SimMore d m m') (hf : ∀ x, SimMore d (f x) (f' x)) : SimMore d (m >>= f) (m' >>= f') := by
  intro s t v s' hst h
  rw [bind_eq] at h
  rcases hr : m s with ⟨r, s1⟩
  rw [hr] at h
  cases r with
  | error e => cases h
  | ok x =>
    obtain ⟨t1, h1, h2⟩ := hm s t x s1 hst hr
    obtain ⟨t2, h3, h4⟩ := hf x s1 t1 v s' h2 h
    exact ⟨t2, by rw [bind_eq, h1]; exact h3, h4⟩

theorem forEach {α : Type} {f f' : α → M Unit} {P : α → α → Prop} (hf : ∀ x y, P x y → SimMore d (f x) (f' y)) :
    ∀ {l l' : List α}, Both P l l' → SimMore d (M.forEach l f) (M.forEach l' f')
  | _, _, .nil => pure ()
  | _, _, .cons h t => bind (hf _ _ h) fun _ => forEach hf t

theorem mac {m : M α} (h1 : MacFrame m) : SimMore d m m := by
  rintro s t v s' ⟨b, rfl, hb⟩ h
  have hs : s'.macros = s.macros := by
    have := h1 s s.macros
    have e : ({ s with macros := s.macros } : St) = s := rfl
    rw [e, h] at this
    have := congrArg Prod.snd this
    dsimp only at this
    rw [this]
  refine ⟨{ s' with macros := b }, by rw [h1, h], b, rfl, by rw [hs]; exact hb⟩

theorem frame {m : M α} (hf : Frame m) : SimMore d m m := mac hf.mac

end SimMore

variable {d : Dialect}

theorem MoreMacros.set {a b : List (Str × Macro)} (h : MoreMacros d a b) (k : Str) {m m' : Macro} (hm : SameMacro m m') : MoreMacros d (dset a k m) (dset b k m') := by
  intro k'
  rw [dget_dset, dget_dset]
  by_cases hk : k = k'
  · rw [if_pos hk, if_pos hk]; exact .inl ⟨m, m', rfl, rfl, hm⟩
  · rw [if_neg hk, if_neg hk]; exact h k'

theorem MoreMacros.add {a b : List (Str × Macro)} (h : MoreMacros d a b) {k : Str} (m : Macro) (ha : dget a k = none) (hk : d.instrs k = none) : MoreMacros d a (dset b k m) := by
  intro k'
  rw [dget_dset]
  by_cases hk' : k = k'
  · subst hk'; exact .inr ⟨ha, .inr hk⟩
  · rw [if_neg hk']; exact h k'

theorem sameMacro_modify {m m' : Macro} (h3 : SameMacro m m') (i : Nat) (t : List Str) :
    SameMacro { m with body := m.body.modify i fun st => { st with tokens := t } } { m' with body := m'.body.modify i fun st => { st with tokens := t } } := by
  refine ⟨h3.1, ?_⟩
  apply List.ext_getElem?
  intro j
  simp only [List.getElem?_map, List.getElem?_modify]
  rcases h3.getElem j with ⟨e1, e2⟩ | ⟨x, y, e1, e2, e3⟩
  · simp [e1, e2]
  · simp only [content, Prod.mk.injEq] at e3
    by_cases hij : i = j
    · simp [e1, e2, hij, content, e3.1]
    · simp [e1, e2, hij, content, e3.1, e3.2]

theorem MoreMacros.setTok {a b : List (Str × Macro)} (h : MoreMacros d a b) (k : Str) (i : Nat) (t : List Str) : MoreMacros d (setTok a k i t) (setTok b k i t) := by
  unfold Necro.setTok
  rcases h k with ⟨m, m', h1, h2, h3⟩ | ⟨h1, h2⟩
  · rw [h1, h2]
    exact h.set k (sameMacro_modify h3 i t)
  · rw [h1]
    cases hb : dget b k with
    | none => exact h
    | some m => exact h.add _ h1 (h2.resolve_left (by rw [hb]; intro h; cases h))

theorem simMore_setBodyTokens (k : Str) (i : Nat) (t : List Str) : SimMore d (setBodyTokens k i t) (setBodyTokens k i t) := by
  rintro s _ v s' ⟨b, rfl, hm⟩ h
  rw [setBodyTokens_eq] at h ⊢
  cases h
  exact ⟨_, rfl, setTok b k i t, rfl, hm.setTok k i t⟩

theorem simMore_writeBack (ref : StmtRef) (t : List Str) : SimMore d (writeBack ref t) (writeBack ref t) := by
  cases ref with
  | none => exact .pure ()
  | some p => exact simMore_setBodyTokens _ _ _

theorem simMore_recordStmt (k : Str) {st st' : Stmt} (hc : content st = content st') : SimMore d (recordStmt k st) (recordStmt k st') := by
  rintro s _ v s' ⟨b, rfl, hm⟩ h
  unfold recordStmt at h ⊢
  rcases hm k with ⟨m, m', h1, h2, h3⟩ | ⟨h1, h2⟩
  · rw [h1] at h
    cases h
    dsimp only
    rw [h2]
    exact ⟨_, rfl, _, rfl, hm.set k ⟨h3.1, by simp [h3.2, hc]⟩⟩
  · rw [h1] at h; cases h

theorem simMore_macroStep {exec exec' : StmtRef → Stmt → M Unit} (he : ∀ r st st', content st = content st' → SimMore d (exec r st) (exec' r st'))
    (key : Str) (params args : List Str) (i : Nat) : SimMore d (macroStep exec key params args i) (macroStep exec' key params args i) := by
  rintro s _ v s' ⟨b, rfl, hm⟩ h
  have hmore : More d s { s with macros := b } := ⟨b, rfl, hm⟩
  unfold macroStep at h ⊢
  rw [bind_eq, get_eq] at h ⊢
  dsimp only at h ⊢
  rcases hm key with ⟨m, m', h1, h2, h3⟩ | ⟨h1, h2⟩
  · rw [h1] at h
    rw [h2]
    dsimp only at h ⊢
    rcases h3.getElem i with ⟨e1, e2⟩ | ⟨x, y, e1, e2, e3⟩
    · rw [e1] at h; cases h; rw [e2]; exact ⟨_, rfl, hmore⟩
    · rw [e1] at h
      rw [e2]
      have hk : x.kind = y.kind := congrArg Prod.fst e3
      have ht : x.tokens = y.tokens := congrArg Prod.snd e3
      dsimp only at h ⊢
      refine SimMore.bind (.lift _) (fun md => ?_) _ _ _ _ hmore h
      rw [ht]
      exact .bind (simMore_setBodyTokens _ _ _) fun _ => .bind (he _ _ _ (by simp [content, hk])) fun _ => simMore_setBodyTokens _ _ _
  · rw [h1] at h; cases h

theorem simMore_execInstr : ∀ depth ref st st', content st = content st' → SimMore d (execInstr d depth ref st) (execInstr d depth ref st') := by
  intro depth
  induction depth with
  | zero => intro ref st st' _; exact .throw _ _
  | succ n ih =>
    intro ref st st' hc
    have ht : st.tokens = st'.tokens := congrArg Prod.snd hc
    intro s t v s' hmore h
    obtain ⟨e1, e2, hm⟩ : t.recording = s.recording ∧ t.defines = s.defines ∧ MoreMacros d s.macros t.macros := by
      obtain ⟨b, rfl, hm⟩ := hmore
      exact ⟨rfl, rfl, hm⟩
    rw [execInstr, bind_eq, get_eq] at h ⊢
    dsimp only at h ⊢
    rw [e1, e2]
    cases hr : s.recording with
    | some key =>
      rw [hr] at h
      exact simMore_recordStmt key hc _ _ _ _ hmore h
    | none =>
      rw [hr] at h
      dsimp only at h ⊢
      rw [ht] at h
      refine SimMore.bind (simMore_writeBack _ _) (fun _ => ?_) _ _ _ _ hmore h
      cases substituteWithDict st'.tokens s.defines 0 with
      | nil => exact .throw _ _
      | cons w r =>
        dsimp only
        rcases hm (d.key w) with ⟨m, m', h1, h2, h3⟩ | ⟨h1, h2⟩
        · rw [h1, h2]
          dsimp only [runMacro]
          have hl : m.body.length = m'.body.length := by simpa using congrArg List.length h3.2
          rw [hl, h3.1]
          refine SimMore.forEach (P := fun x y => x = y) ?_ (forall₂_refl _)
          rintro x _ rfl
          exact simMore_macroStep ih _ _ _ _
        · rw [h1]
          dsimp only
          cases hi : d.instrs (d.key w) with
          | none => exact .throw _ _
          | some ins =>
            rw [h2.resolve_right (by rw [hi]; intro h; cases h)]
            dsimp only
            cases ins with
            | fixed blob =>
              dsimp only
              split
              · exact .throw _ _
              · exact .frame (frame_appendBytes _)
            | handler f => exact .bind (.frame (frame_runHandler _ _ _)) fun _ => .frame (frame_appendBytes _)

/-! ## directives -/

theorem simMore_directiveMacro (l : List Str) : SimMore d (directiveMacro d l) (directiveMacro d l) := by
  rintro s t v s' ⟨b, ht, hm⟩ h
  have e1 : t.recording = s.recording := by rw [ht]
  unfold directiveMacro at h ⊢
  rw [bind_eq, get_eq] at h ⊢
  dsimp only at h ⊢
  rw [e1]
  cases hr : s.recording with
  | some k => rw [hr] at h; cases h
  | none =>
    rw [hr] at h
    dsimp only at h ⊢
    cases hl : l.drop 1 with
    | nil => rw [hl] at h; cases h
    | cons n args =>
      rw [hl] at h
      cases h
      subst ht
      exact ⟨_, rfl, _, rfl, hm.set _ (sameMacro_refl _)⟩

theorem simMore_execDirective {env : Env} {rec : Str → M Unit} (hc : CustomFrame d env) (hr : ∀ c, SimMore d (rec c) (rec c)) (l : List Str) :
    SimMore d (execDirective d env rec l) (execDirective d env rec l) := by
  intro s t v s' hst h
  have e : t.defines = s.defines := by obtain ⟨b, rfl, _⟩ := hst; rfl
  unfold execDirective at h ⊢
  rw [bind_eq, get_eq] at h ⊢
  dsimp only at h ⊢
  rw [e]
  revert h
  refine fun h => (?_ : SimMore d _ _) _ _ _ _ hst h
  split
  · exact .throw _ _
  · split
    · exact .throw _ _
    · rename_i f hf
      unfold lookupDirective at hf
      split at hf
      · rename_i g hg
        injection hf with hf; subst hf
        exact .frame (hc _ _ hg _)
      · obtain ⟨p, hp, he⟩ := List.mem_map.1 (mem_of_dget hf)
        injection he with _ he; subst he
        rcases builtin_cases hp with h | rfl | rfl | rfl
        · exact .frame (frame_framed d env p h _)
        · exact simMore_directiveMacro _
        · exact .mac (macFrame_section d _)
        · exact .bind (.frame (frame_exactlyTwo _)) fun _ => .bind (.frame (frame_stringify _)) fun _ => .bind (.frame (frame_openFile _)) fun _ => hr _

theorem simMore_execStmt {env : Env} {rec : Str → M Unit} (hc : CustomFrame d env) (hr : ∀ c, SimMore d (rec c) (rec c)) (depth : Nat) {st st' : Stmt}
    (h : content st = content st') : SimMore d (execStmt d env depth rec st) (execStmt d env depth rec st') := by
  have hk : st.kind = st'.kind := congrArg Prod.fst h
  have ht : st.tokens = st'.tokens := congrArg Prod.snd h
  unfold execStmt
  rw [← hk, ← ht]
  split
  · exact simMore_execInstr depth none _ _ h
  · exact simMore_execDirective hc hr _
  · exact .frame (frame_execLabel d _)

theorem simMore_stmts {env : Env} {rec : Str → M Unit} (hc : CustomFrame d env) (hr : ∀ c, SimMore d (rec c) (rec c)) (depth : Nat) {l l' : List Stmt}
    (h : l.map content = l'.map content) : SimMore d (forEach l (execStmt d env depth rec)) (forEach l' (execStmt d env depth rec)) :=
  .forEach (fun _ _ h => simMore_execStmt hc hr depth h) (forall₂_content h)

theorem simMore_finish : SimMore d (finalFill d >>= fun _ => closeSection) (finalFill d >>= fun _ => closeSection) :=
  .bind (.frame (frame_finalFill d)) fun _ => .mac macFrame_closeSection

theorem simMore_assemble {env : Env} (hc : CustomFrame d env) : ∀ depth code, SimMore d (assemble d env depth code) (assemble d env depth code)
  | 0, _ => .throw _ _
  | n + 1, _ => .bind (.lift _) fun _ => .bind (simMore_stmts hc (simMore_assemble hc n) n rfl) fun _ => simMore_finish

end Necro
