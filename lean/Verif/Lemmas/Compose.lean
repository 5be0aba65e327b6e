import Verif.Lemmas.Frame
import Verif.Spec.Compose
/-!
# Execution does not depend on line numbers or on the recorded end of the open section
-/

namespace Necro
open Spec
open M (throw get modify lift forEach times)

/-- The tables agree except, possibly, for the recorded end of the open section. -/
def SecRel (cur : Option Str) (a b : List (Str × Section)) : Prop :=
  dkeys a = dkeys b ∧ ∀ k, dget a k = dget b k ∨
    (cur = some k ∧ k ≠ [] ∧ ∃ x y, dget a k = some x ∧ dget b k = some y ∧ x.start = y.start ∧
      x.offset = y.offset ∧ x.permissions = y.permissions)

/-- States that behave alike. -/
def Alike (s t : St) : Prop :=
  ∃ a b, t = put a b s ∧ SameMacros s.macros a ∧ SecRel s.curSection s.sections b

/-- From states that behave alike, the same outcome and states that behave alike. -/
structure Resp (m m' : M α) : Prop where
  eq : ∀ s t, Alike s t → (m s).1 = (m' t).1 ∧ Alike (m s).2 (m' t).2

theorem resp_pure (x : α) : Resp (pure x : M α) (pure x) := ⟨fun _ _ h => ⟨rfl, h⟩⟩
theorem resp_throw (e : Err) : Resp (throw e : M α) (throw e) := ⟨fun _ _ h => ⟨rfl, h⟩⟩
theorem resp_lift (x : Except Err α) : Resp (lift x) (lift x) := ⟨fun _ _ h => ⟨rfl, h⟩⟩

theorem resp_bind {m m' : M α} {f f' : α → M β} (hm : Resp m m') (hf : ∀ x, Resp (f x) (f' x)) :
    Resp (m >>= f) (m' >>= f') := by
  refine ⟨fun s t h => ?_⟩
  rw [bind_eq, bind_eq]
  have h1 := hm.eq s t h
  cases hs : m s with
  | mk r s1 =>
  cases ht : m' t with
  | mk r' t1 =>
  rw [hs, ht] at h1
  simp only at h1
  obtain ⟨rfl, h2⟩ := h1
  cases r with
  | error e => exact ⟨rfl, h2⟩
  | ok x => exact (hf x).eq s1 t1 h2

theorem resp_frame {m : M α} (hf : Frame m) (hc : Keeps SameCur m) : Resp m m := by
  refine ⟨?_⟩
  rintro s t ⟨a, b, rfl, hm, hs⟩
  rw [hf.eq s a b]
  refine ⟨rfl, a, b, rfl, ?_, ?_⟩
  all_goals
    have h0 := hf.eq s s.macros s.sections
    have e : put s.macros s.sections s = s := rfl
    rw [e] at h0
    have h1 : (m s).2 = put s.macros s.sections (m s).2 := congrArg Prod.snd h0
  · have : (m s).2.macros = s.macros := by rw [h1]; rfl
    rw [this]; exact hm
  · have : (m s).2.sections = s.sections := by rw [h1]; rfl
    rw [this, hc s]; exact hs

theorem frame_readOnly {m : M α} (hf : Frame m) (hs : ∀ s, (m s).2 = s) : Resp m m :=
  resp_frame hf fun s => by rw [hs s]; rfl

/-- Two lists related item by item. -/
inductive Both {α : Type} (P : α → α → Prop) : List α → List α → Prop
  | nil : Both P [] []
  | cons {x y l l'} : P x y → Both P l l' → Both P (x :: l) (y :: l')

theorem resp_forEach {α : Type} {f f' : α → M Unit} {P : α → α → Prop} (hf : ∀ x y, P x y → Resp (f x) (f' y)) :
    ∀ {l l' : List α}, Both P l l' → Resp (forEach l f) (forEach l' f') := by
  intro l l' h
  induction h with
  | nil => exact resp_pure ()
  | cons h _ ih => exact resp_bind (hf _ _ h) fun _ => ih

theorem forall₂_refl {α : Type} (l : List α) : Both (fun x y => x = y) l l := by
  induction l with
  | nil => exact .nil
  | cons x l ih => exact .cons rfl ih

/-! ## macro tables -/

/-- Same parameters, same body contents. -/
def SameMacro (m m' : Macro) : Prop := m.args = m'.args ∧ m.body.map content = m'.body.map content

theorem sameMacros_cons {p q : Str × Macro} {a b : List (Str × Macro)} :
    SameMacros (p :: a) (q :: b) ↔ p.1 = q.1 ∧ SameMacro p.2 q.2 ∧ SameMacros a b := by
  simp only [SameMacros, SameMacro, List.map_cons, List.cons.injEq, Prod.mk.injEq, and_assoc]

theorem Spec.SameMacros.get {a b : List (Str × Macro)} (h : SameMacros a b) (k : Str) :
    (dget a k = none ∧ dget b k = none) ∨ ∃ m m', dget a k = some m ∧ dget b k = some m' ∧ SameMacro m m' := by
  induction a generalizing b with
  | nil =>
    cases b with
    | nil => exact .inl ⟨rfl, rfl⟩
    | cons q b => simp [SameMacros] at h
  | cons p a ih =>
    cases b with
    | nil => simp [SameMacros] at h
    | cons q b =>
      obtain ⟨h1, h2, h3⟩ := sameMacros_cons.1 h
      obtain ⟨k1, v1⟩ := p
      obtain ⟨k2, v2⟩ := q
      simp only at h1 h2
      subst h1
      simp only [dget]
      by_cases hk : k1 = k
      · simp only [hk, if_true]; exact .inr ⟨v1, v2, rfl, rfl, h2⟩
      · simp only [hk, if_false]; exact ih h3

theorem Spec.SameMacros.set {a b : List (Str × Macro)} (h : SameMacros a b) (k : Str) {m m' : Macro} (hm : SameMacro m m') :
    SameMacros (dset a k m) (dset b k m') := by
  induction a generalizing b with
  | nil =>
    cases b with
    | nil => exact sameMacros_cons.2 ⟨rfl, hm, rfl⟩
    | cons q b => simp [SameMacros] at h
  | cons p a ih =>
    cases b with
    | nil => simp [SameMacros] at h
    | cons q b =>
      obtain ⟨h1, h2, h3⟩ := sameMacros_cons.1 h
      obtain ⟨k1, v1⟩ := p
      obtain ⟨k2, v2⟩ := q
      simp only at h1 h2
      subst h1
      simp only [dset]
      by_cases hk : k1 = k
      · simp only [hk, if_true]; exact sameMacros_cons.2 ⟨rfl, hm, h3⟩
      · simp only [hk, if_false]; exact sameMacros_cons.2 ⟨rfl, h2, ih h3⟩

theorem SameMacro.getElem {m m' : Macro} (h : SameMacro m m') (i : Nat) :
    (m.body[i]? = none ∧ m'.body[i]? = none) ∨
      ∃ st st', m.body[i]? = some st ∧ m'.body[i]? = some st' ∧ content st = content st' := by
  have := congrArg (fun l => l[i]?) h.2
  simp only [List.getElem?_map] at this
  cases h1 : m.body[i]? with
  | none =>
    rw [h1] at this
    cases h2 : m'.body[i]? with
    | none => exact .inl ⟨rfl, rfl⟩
    | some y => rw [h2] at this; simp at this
  | some x =>
    rw [h1] at this
    cases h2 : m'.body[i]? with
    | none => rw [h2] at this; simp at this
    | some y => rw [h2] at this; simp at this; exact .inr ⟨x, y, rfl, rfl, this⟩

theorem Spec.SameMacros.setTok {a b : List (Str × Macro)} (h : SameMacros a b) (k : Str) (i : Nat) (t : List Str) :
    SameMacros (setTok a k i t) (setTok b k i t) := by
  unfold Necro.setTok
  rcases h.get k with ⟨h1, h2⟩ | ⟨m, m', h1, h2, h3⟩
  · rw [h1, h2]; exact h
  · rw [h1, h2]
    refine h.set k ⟨h3.1, ?_⟩
    apply List.ext_getElem?
    intro j
    simp only [List.getElem?_map, List.getElem?_modify]
    rcases h3.getElem j with ⟨e1, e2⟩ | ⟨x, y, e1, e2, e3⟩
    · simp [e1, e2]
    · simp only [content, Prod.mk.injEq] at e3
      by_cases hij : i = j
      · simp [e1, e2, hij, content, e3.1]
      · simp [e1, e2, hij, content, e3.1, e3.2]

theorem resp_setBodyTokens (k : Str) (i : Nat) (t : List Str) :
    Resp (setBodyTokens k i t) (setBodyTokens k i t) := by
  refine ⟨?_⟩
  rintro s _ ⟨a, b, rfl, hm, hs⟩
  rw [setBodyTokens_eq, setBodyTokens_eq]
  exact ⟨rfl, setTok a k i t, b, rfl, hm.setTok k i t, hs⟩

theorem resp_writeBack (ref : StmtRef) (t : List Str) : Resp (writeBack ref t) (writeBack ref t) := by
  cases ref with
  | none => exact resp_pure ()
  | some p => exact resp_setBodyTokens _ _ _

theorem resp_recordStmt (k : Str) {st st' : Stmt} (h : content st = content st') :
    Resp (recordStmt k st) (recordStmt k st') := by
  refine ⟨?_⟩
  rintro s _ ⟨a, b, rfl, hm, hs⟩
  have e : (put a b s).macros = a := rfl
  simp only [recordStmt, e]
  rcases hm.get k with ⟨h1, h2⟩ | ⟨m, m', h1, h2, h3⟩
  · rw [h1, h2]; exact ⟨rfl, a, b, rfl, hm, hs⟩
  · rw [h1, h2]
    exact ⟨rfl, _, b, rfl, hm.set k ⟨h3.1, by simp [h3.2, h]⟩, hs⟩

theorem cur_body : BodyRel SameCur := rel_sameCur.toInstrRel.toBodyRel

theorem frame_foldl (l : List Reloc) : ∀ s a b, l.foldl addReloc (put a b s) = put a b (l.foldl addReloc s) := by
  induction l with
  | nil => intro s a b; rfl
  | cons r l ih =>
    intro s a b
    simp only [List.foldl_cons]
    rw [← ih]; rfl

theorem frame_runHandler (d : Dialect) (f) (t : List Str) : Frame (runHandler d f t) := by
  refine ⟨fun s a b => ?_⟩
  have e : (⟨(put a b s).pc, (put a b s).labels, d.sy, (put a b s).bitsMode⟩ : Ctx) =
    ⟨s.pc, s.labels, d.sy, s.bitsMode⟩ := rfl
  simp only [runHandler, e, frame_foldl]
  rcases f t ⟨s.pc, s.labels, d.sy, s.bitsMode⟩ with ⟨r, rel⟩
  rcases r with e | r | r <;> rfl

theorem resp_macroStep {exec exec' : StmtRef → Stmt → M Unit}
    (he : ∀ r st st', content st = content st' → Resp (exec r st) (exec' r st'))
    (key : Str) (params args : List Str) (i : Nat) :
    Resp (macroStep exec key params args i) (macroStep exec' key params args i) := by
  refine ⟨?_⟩
  rintro s t hst
  obtain ⟨a, b, rfl, hm, hs⟩ := hst
  have hal : Alike s (put a b s) := ⟨a, b, rfl, hm, hs⟩
  unfold macroStep
  rw [bind_eq, get_eq, bind_eq, get_eq]
  have e : (put a b s).macros = a := rfl
  simp only [e]
  rcases hm.get key with ⟨h1, h2⟩ | ⟨m, m', h1, h2, h3⟩
  · rw [h1, h2]; exact ⟨rfl, hal⟩
  · rw [h1, h2]
    simp only
    rcases h3.getElem i with ⟨e1, e2⟩ | ⟨x, y, e1, e2, e3⟩
    · rw [e1, e2]; exact ⟨rfl, hal⟩
    · rw [e1, e2]
      have hk : x.kind = y.kind := congrArg Prod.fst e3
      have ht : x.tokens = y.tokens := congrArg Prod.snd e3
      refine Resp.eq ?_ _ _ hal
      simp only [ht]
      refine resp_bind (resp_lift _) fun md => ?_
      refine resp_bind (resp_setBodyTokens _ _ _) fun _ => ?_
      refine resp_bind (he _ _ _ ?_) fun _ => resp_setBodyTokens _ _ _
      simp [content, hk]

theorem resp_execInstr (d : Dialect) : ∀ depth ref st st', content st = content st' →
    Resp (execInstr d depth ref st) (execInstr d depth ref st') := by
  intro depth
  induction depth with
  | zero => intro ref st st' _; exact resp_throw _
  | succ n ih =>
    intro ref st st' hc
    have ht : st.tokens = st'.tokens := congrArg Prod.snd hc
    refine ⟨?_⟩
    rintro s t hst
    obtain ⟨a, b, rfl, hm, hs⟩ := hst
    have hal : Alike s (put a b s) := ⟨a, b, rfl, hm, hs⟩
    rw [execInstr, bind_eq, get_eq, execInstr, bind_eq, get_eq]
    have e1 : (put a b s).macros = a := rfl
    have e2 : (put a b s).recording = s.recording := rfl
    have e3 : (put a b s).defines = s.defines := rfl
    simp only [e1, e2, e3, ht]
    cases s.recording with
    | some key => exact (resp_recordStmt key hc).eq _ _ hal
    | none =>
      simp only
      refine Resp.eq ?_ _ _ hal
      refine resp_bind (resp_writeBack _ _) fun _ => ?_
      cases substituteWithDict st'.tokens s.defines 0 with
      | nil => exact resp_throw _
      | cons w r =>
        simp only
        rcases hm.get (d.key w) with ⟨h1, h2⟩ | ⟨m, m', h1, h2, h3⟩
        · rw [h1, h2]
          simp only
          cases d.instrs (d.key w) with
          | none => exact resp_throw _
          | some ins =>
            cases ins with
            | fixed blob =>
              simp only
              split
              · exact resp_throw _
              · exact resp_frame (frame_appendBytes _) (fun _ => rfl)
            | handler f =>
              exact resp_bind (resp_frame (frame_runHandler _ _ _) (keeps_runHandler cur_body _ _ _)) fun _ =>
                resp_frame (frame_appendBytes _) (fun _ => rfl)
        · rw [h1, h2]
          simp only [runMacro]
          have hl : m.body.length = m'.body.length := by
            have := congrArg List.length h3.2
            simpa using this
          rw [hl, h3.1]
          refine resp_forEach (P := fun x y => x = y) ?_ (forall₂_refl _)
          rintro x _ rfl
          exact resp_macroStep ih _ _ _ _

/-! ## sections -/

theorem close_exact {s t : St} (h : Alike s t) :
    (closeSection s).1 = (closeSection t).1 ∧ Alike (closeSection s).2 (closeSection t).2 ∧
      ((closeSection s).1 = .ok () → SameSections (closeSection s).2.sections (closeSection t).2.sections) := by
  obtain ⟨a, b, rfl, hm, hs⟩ := h
  have e1 : (put a b s).sections = b := rfl
  have e2 : (put a b s).curSection = s.curSection := rfl
  simp only [closeSection, e1, e2]
  cases hc : s.curSection with
  | none =>
    refine ⟨rfl, ⟨a, b, rfl, hm, hs⟩, fun _ => ⟨hs.1, fun k => ?_⟩⟩
    rcases hs.2 k with h | ⟨h, _⟩
    · exact h
    · rw [hc] at h; cases h
  | some n =>
    simp only
    by_cases hn : n = []
    · rw [if_pos hn, if_pos hn]
      refine ⟨rfl, ⟨a, b, rfl, hm, hs⟩, fun _ => ⟨hs.1, fun k => ?_⟩⟩
      rcases hs.2 k with h | ⟨h, h', _⟩
      · exact h
      · rw [hc] at h; injection h with h; exact absurd (h ▸ hn) h'
    · rw [if_neg hn, if_neg hn]
      have key : ∀ x y : Section, dget s.sections n = some x → dget b n = some y → x.start = y.start →
          x.offset = y.offset → x.permissions = y.permissions →
          SameSections (dset s.sections n { x with stop := some s.pc, size := some ((s.bytes.length : Int) - x.offset) })
            (dset b n { y with stop := some s.pc, size := some ((s.bytes.length : Int) - y.offset) }) := by
        intro x y hx hy h1 h2 h3
        refine ⟨?_, fun k => ?_⟩
        · have := hs.1
          have e := dkeys_dset s.sections n { x with stop := some s.pc, size := some ((s.bytes.length : Int) - x.offset) }
          have e' := dkeys_dset b n { y with stop := some s.pc, size := some ((s.bytes.length : Int) - y.offset) }
          rw [this] at e
          rw [← e'] at e
          exact e
        · rw [dget_dset, dget_dset, h1, h2, h3]
          split
          · rfl
          · rcases hs.2 k with h | ⟨h, _⟩
            · exact h
            · rw [hc] at h; injection h with h; contradiction
      rcases hs.2 n with h | ⟨h, h', x, y, hx, hy, g1, g2, g3⟩
      · rw [← h]
        cases hx : dget s.sections n with
        | none => exact ⟨rfl, ⟨a, b, rfl, hm, hs⟩, fun h => by cases h⟩
        | some x =>
          have := key x x hx (by rw [← h]; exact hx) rfl rfl rfl
          exact ⟨rfl, ⟨a, _, rfl, hm, ⟨this.1, fun k => .inl (this.2 k)⟩⟩, fun _ => this⟩
      · rw [hx, hy]
        have := key x y hx hy g1 g2 g3
        exact ⟨rfl, ⟨a, _, rfl, hm, ⟨this.1, fun k => .inl (this.2 k)⟩⟩, fun _ => this⟩

theorem resp_closeSection : Resp closeSection closeSection :=
  ⟨fun _ _ h => ⟨(close_exact h).1, (close_exact h).2.1⟩⟩

theorem resp_openSection (name p : Str) :
    Resp (closeSection >>= fun _ => modify fun s =>
            let sec : Section := { start := s.pc, offset := s.bytes.length, permissions := p }
            { s with curSection := some name, sections := dset s.sections name sec })
         (closeSection >>= fun _ => modify fun s =>
            let sec : Section := { start := s.pc, offset := s.bytes.length, permissions := p }
            { s with curSection := some name, sections := dset s.sections name sec }) := by
  refine ⟨fun s t h => ?_⟩
  rw [bind_eq, bind_eq]
  obtain ⟨h1, h2, h3⟩ := close_exact h
  cases hs : closeSection s with
  | mk r s1 =>
  cases ht : closeSection t with
  | mk r' t1 =>
  rw [hs, ht] at h1 h2 h3
  simp only at h1 h2 h3
  subst h1
  cases r with
  | error e => exact ⟨rfl, h2⟩
  | ok u =>
    have h3 := h3 rfl
    obtain ⟨a, b, rfl, hm, _⟩ := h2
    simp only [modify_eq]
    refine ⟨trivial, a, dset b name { start := s1.pc, offset := s1.bytes.length, permissions := p }, rfl, hm, ?_, fun k => .inl ?_⟩
    · simp only
      rw [dkeys_dset, dkeys_dset]
      have : dkeys s1.sections = dkeys b := h3.1
      rw [this]
    · simp only
      rw [dget_dset, dget_dset]
      have : dget s1.sections k = dget b k := h3.2 k
      rw [this]

theorem resp_sectionBody (d : Dialect) (n p : Str) (o : Option Str) :
    Resp (sectionBody d n p o) (sectionBody d n p o) := by
  unfold sectionBody
  refine resp_bind (frame_readOnly (frame_stringify n) (stringify_state n)) fun name => ?_
  refine ⟨?_⟩
  rintro s t hst
  have hmem : dmem s.sections name = dmem t.sections name := by
    obtain ⟨a, b, rfl, _, hs⟩ := hst
    have h1 := dmem_iff s.sections name
    have h2 := dmem_iff b name
    rw [hs.1] at h1
    have : (dmem s.sections name = true) = (dmem b name = true) := propext (h1.trans h2.symm)
    rcases h : dmem s.sections name <;> rcases h' : dmem b name <;> rw [h, h'] at this <;> simp at this <;>
      first | exact h'.symm | rfl
  rw [bind_eq, get_eq, bind_eq, get_eq]
  simp only [hmem]
  refine Resp.eq ?_ _ _ hst
  split
  · exact resp_throw _
  · split
    · exact resp_throw _
    · cases o with
      | none => exact resp_openSection name p
      | some w =>
        refine resp_bind (frame_readOnly (frame_parseArg d w 64) (parseArg_state d w 64)) fun v => ?_
        exact resp_bind (resp_frame (frame_changeOrg d v 0) (cur_changeOrg d v 0)) fun _ => resp_openSection name p

theorem resp_directiveSection (d : Dialect) (l : List Str) : Resp (directiveSection d l) (directiveSection d l) := by
  unfold directiveSection
  split
  · exact resp_sectionBody _ _ _ _
  · exact resp_sectionBody _ _ _ _
  · exact resp_throw _

theorem resp_directiveMacro (d : Dialect) (l : List Str) : Resp (directiveMacro d l) (directiveMacro d l) := by
  refine ⟨?_⟩
  rintro s _ ⟨a, b, rfl, hm, hs⟩
  have hal : Alike s (put a b s) := ⟨a, b, rfl, hm, hs⟩
  unfold directiveMacro
  rw [bind_eq, get_eq, bind_eq, get_eq]
  have e : (put a b s).recording = s.recording := rfl
  simp only [e]
  cases s.recording with
  | some _ => exact ⟨rfl, hal⟩
  | none =>
    simp only
    cases l.drop 1 with
    | nil => exact ⟨rfl, hal⟩
    | cons n args =>
      exact ⟨rfl, _, b, rfl, hm.set _ ⟨rfl, rfl⟩, hs⟩

/-- The directives an assembler class adds treat states that behave alike alike. -/
def CustomResp (d : Dialect) (env : Env) : Prop :=
  ∀ key f, d.directives env key = some f → ∀ l, Resp (f l) (f l)

theorem resp_execDirective {d : Dialect} {env : Env} {rec : Str → M Unit} (hc : CustomResp d env)
    (hr : ∀ c, Resp (rec c) (rec c)) (l : List Str) : Resp (execDirective d env rec l) (execDirective d env rec l) := by
  refine ⟨?_⟩
  rintro s t hst
  have e : t.defines = s.defines := by obtain ⟨a, b, rfl, _⟩ := hst; rfl
  unfold execDirective
  rw [bind_eq, get_eq, bind_eq, get_eq]
  simp only [e]
  refine Resp.eq ?_ _ _ hst
  split
  · exact resp_throw _
  · split
    · exact resp_throw _
    · rename_i f hf
      unfold lookupDirective at hf
      split at hf
      · rename_i g hg
        injection hf with hf; subst hf
        exact hc _ _ hg _
      · have := mem_of_dget hf
        rw [List.mem_map] at this
        obtain ⟨p, hp, he⟩ := this
        injection he with _ he; subst he
        rcases builtin_cases hp with h | rfl | rfl | rfl
        · exact resp_frame (frame_framed d env p h _) (cur_framed d env p h _)
        · exact resp_directiveMacro _ _
        · exact resp_directiveSection _ _
        · refine resp_bind (frame_readOnly (frame_exactlyTwo _) (exactlyTwo_state _)) fun _ => ?_
          refine resp_bind (frame_readOnly (frame_stringify _) (stringify_state _)) fun _ => ?_
          exact resp_bind (frame_readOnly (frame_openFile _) (openFile_state _)) fun _ => hr _

theorem cur_execLabel (d : Dialect) (l : List Str) : Keeps SameCur (execLabel d l) := by
  intro s
  unfold execLabel
  repeat' split
  all_goals rfl

theorem resp_execStmt {d : Dialect} {env : Env} {rec : Str → M Unit} (hc : CustomResp d env)
    (hr : ∀ c, Resp (rec c) (rec c)) (depth : Nat) {st st' : Stmt} (h : content st = content st') :
    Resp (execStmt d env depth rec st) (execStmt d env depth rec st') := by
  have hk : st.kind = st'.kind := congrArg Prod.fst h
  have ht : st.tokens = st'.tokens := congrArg Prod.snd h
  unfold execStmt
  rw [← hk, ← ht]
  split
  · exact resp_execInstr d depth none _ _ h
  · exact resp_execDirective hc hr _
  · exact resp_frame (frame_execLabel d _) (cur_execLabel d _)

theorem cur_finalFill (d : Dialect) : Keeps SameCur (finalFill d) := keeps_finalFill rel_sameCur.toDataRel d

theorem forall₂_content {l l' : List Stmt} (h : l.map content = l'.map content) :
    Both (fun x y => content x = content y) l l' := by
  induction l generalizing l' with
  | nil => cases l' with
    | nil => exact .nil
    | cons _ _ => simp at h
  | cons x l ih =>
    cases l' with
    | nil => simp at h
    | cons y l' => simp at h; exact .cons h.1 (ih h.2)

theorem resp_stmts {d : Dialect} {env : Env} {rec : Str → M Unit} (hc : CustomResp d env)
    (hr : ∀ c, Resp (rec c) (rec c)) (depth : Nat) {l l' : List Stmt} (h : l.map content = l'.map content) :
    Resp (forEach l (execStmt d env depth rec)) (forEach l' (execStmt d env depth rec)) :=
  resp_forEach (fun _ _ h => resp_execStmt hc hr depth h) (forall₂_content h)

theorem resp_execStmts {d : Dialect} {env : Env} {rec : Str → M Unit} (hc : CustomResp d env)
    (hr : ∀ c, Resp (rec c) (rec c)) (depth : Nat) {l l' : List Stmt} (h : l.map content = l'.map content) :
    Resp (execStmts d env depth rec l) (execStmts d env depth rec l') :=
  resp_bind (resp_stmts hc hr depth h) fun _ =>
    resp_bind (resp_frame (frame_finalFill d) (cur_finalFill d)) fun _ => resp_closeSection

theorem resp_assemble {d : Dialect} {env : Env} (hc : CustomResp d env) :
    ∀ depth code, Resp (assemble d env depth code) (assemble d env depth code) := by
  intro depth
  induction depth with
  | zero => intro code; exact resp_throw _
  | succ n ih => intro code; exact resp_bind (resp_lift _) fun l => resp_execStmts hc ih n rfl

end Necro
