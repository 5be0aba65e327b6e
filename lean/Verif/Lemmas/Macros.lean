import Verif.Props.Regions
/-!
# Macro tables
-/

namespace Necro
open Spec
open M (throw get modify lift forEach times)

/-- The macro table after replacing the tokens of one body statement. -/
def setTok (t : List (Str × Macro)) (key : Str) (idx : Nat) (tokens : List Str) : List (Str × Macro) :=
  match dget t key with
  | some m => dset t key { m with body := m.body.modify idx fun st => { st with tokens := tokens } }
  | none => t

theorem setBodyTokens_eq (key : Str) (idx : Nat) (tokens : List Str) (s : St) :
    setBodyTokens key idx tokens s = (.ok (), { s with macros := setTok s.macros key idx tokens }) := by
  unfold setBodyTokens setTok
  rw [modify_eq]
  cases h : dget s.macros key <;> simp

theorem modify_modify {α : Type} (l : List α) (i : Nat) (f g : α → α) :
    (l.modify i f).modify i g = l.modify i (g ∘ f) := by
  apply List.ext_getElem?
  intro j
  simp only [List.getElem?_modify]
  cases l[j]? <;> simp
  split <;> rfl

theorem setTok_setTok (t : List (Str × Macro)) (k : Str) (i : Nat) (a b : List Str) :
    setTok (setTok t k i a) k i b = setTok t k i b := by
  unfold setTok
  cases h : dget t k with
  | none => simp [h]
  | some m =>
    simp only [dget_dset_self, dset_dset, modify_modify]
    rfl

theorem setTok_same {t : List (Str × Macro)} {k : Str} {i : Nat} {m : Macro} {st : Stmt}
    (h : dget t k = some m) (hb : m.body[i]? = some st) : setTok t k i st.tokens = t := by
  unfold setTok
  rw [h]
  simp only
  have : m.body.modify i (fun x => { x with tokens := st.tokens }) = m.body := by
    apply List.ext_getElem?
    intro j
    rw [List.getElem?_modify]
    by_cases hij : i = j
    · subst hij; simp [hb]
    · simp [hij]
  rw [this]
  exact dset_same _ _ _ h

/-- What `writeBack` does to the macro table. -/
def wbTable (ref : StmtRef) (tokens : List Str) (t : List (Str × Macro)) : List (Str × Macro) :=
  match ref with
  | none => t
  | some (key, idx) => setTok t key idx tokens

theorem writeBack_eq (ref : StmtRef) (tokens : List Str) (s : St) :
    writeBack ref tokens s = (.ok (), { s with macros := wbTable ref tokens s.macros }) := by
  cases ref with
  | none => rfl
  | some p => exact setBodyTokens_eq _ _ _ _

theorem macroStep_eq (exec : StmtRef → Stmt → M Unit) (key : Str) (params args : List Str) (idx : Nat) (s : St)
    {m : Macro} {st : Stmt} {md : List (Str × Str)} (hm : dget s.macros key = some m) (hst : m.body[idx]? = some st)
    (hmd : macroDict params args [] = .ok md) :
    macroStep exec key params args idx s =
      match exec (some (key, idx)) { st with tokens := substituteWithDict st.tokens md 0 }
        { s with macros := setTok s.macros key idx (substituteWithDict st.tokens md 0) } with
      | (.ok _, s') => (.ok (), { s' with macros := setTok s'.macros key idx st.tokens })
      | (.error e, s') => (.error e, s') := by
  unfold macroStep
  rw [bind_eq, get_eq]
  simp only [hm, hst]
  rw [bind_eq, lift_eq, hmd]
  simp only
  rw [bind_eq, setBodyTokens_eq]
  simp only
  rw [bind_eq]
  rcases exec (some (key, idx)) { st with tokens := substituteWithDict st.tokens md 0 }
        { s with macros := setTok s.macros key idx (substituteWithDict st.tokens md 0) } with ⟨_ | _, s'⟩
  · rfl
  · simp only; rw [setBodyTokens_eq]

theorem macroStep_missing (exec : StmtRef → Stmt → M Unit) (key : Str) (params args : List Str) (idx : Nat) (s : St)
    {m : Macro} {st : Stmt} {e : Err} (hm : dget s.macros key = some m) (hst : m.body[idx]? = some st)
    (hmd : macroDict params args [] = .error e) :
    macroStep exec key params args idx s = (.error e, s) := by
  unfold macroStep
  rw [bind_eq, get_eq]
  simp only [hm, hst]
  rw [bind_eq, lift_eq, hmd]

/-- The three-way step of `execInstr` on substituted tokens. -/
theorem execInstr_eq (d : Dialect) (depth : Nat) (ref : StmtRef) (st : Stmt) (s : St) (hr : s.recording = none)
    {t : Str} {rest : List Str} (ht : substituteWithDict st.tokens s.defines 0 = t :: rest) :
    execInstr d (depth + 1) ref st s =
      (match dget s.macros (d.key t) with
        | some m => runMacro (execInstr d depth) (d.key t) m (t :: rest)
        | none =>
          match d.instrs (d.key t) with
          | none => throw .unknownInstruction
          | some (.fixed blob) => if (t :: rest).length ≠ 1 then throw .invalidOpCodeArguments else appendBytes blob
          | some (.handler f) => runHandler d f (t :: rest) >>= appendBytes)
        { s with macros := wbTable ref (t :: rest) s.macros } := by
  rw [execInstr, bind_eq, get_eq]
  simp only [hr]
  rw [bind_eq, writeBack_eq]
  simp only [ht, hr]
  cases dget s.macros (d.key t) with
  | some m => rfl
  | none =>
    simp only
    cases d.instrs (d.key t) with
    | none => rfl
    | some i => cases i <;> rfl

def SameRecording (s s' : St) : Prop := s'.recording = s.recording

theorem rel_sameRecording : InstrRel SameRecording where
  refl := fun _ => rfl
  trans := fun h1 h2 => by unfold SameRecording at *; rw [h2, h1]
  append := fun _ _ => rfl
  reloc := fun _ _ => rfl
  macros := fun _ _ => rfl

theorem foldl_addReloc_macros (l : List Reloc) : ∀ s : St, (l.foldl addReloc s).macros = s.macros := by
  induction l with
  | nil => intro s; rfl
  | cons r l ih => intro s; simp only [List.foldl_cons]; rw [ih]; rfl

theorem runHandler_macros (d : Dialect) (f) (t : List Str) (s : St) : (runHandler d f t s).2.macros = s.macros := by
  rw [runHandler_state]; exact foldl_addReloc_macros _ _

/-- A loop all of whose steps, from states satisfying `I`, succeed into states satisfying `I`
if they succeed. -/
theorem forEach_inv {α : Type} {f : α → M Unit} {I : St → Prop} {l : List α}
    (h : ∀ x ∈ l, ∀ s s' u, I s → f x s = (.ok u, s') → I s') :
    ∀ s s' u, I s → forEach l f s = (.ok u, s') → I s' := by
  induction l with
  | nil => intro s s' u hi he; injection he with _ he; subst he; exact hi
  | cons x l ih =>
    intro s s' u hi he
    rw [forEach_cons] at he
    cases hx : f x s with
    | mk r s1 =>
    rw [hx] at he
    cases r with
    | error e => simp at he
    | ok v => exact ih (fun y hy => h y (List.mem_cons_of_mem _ hy)) s1 s' u (h x (List.mem_cons_self ..) s s1 v hi hx) he

/-- A successful instruction statement leaves the macro table as it was, except that the
statement's own tokens were substituted in place. -/
theorem execInstr_table (d : Dialect) : ∀ (depth : Nat) (ref : StmtRef) (st : Stmt) (s s' : St) (u : Unit),
    s.recording = none → execInstr d depth ref st s = (.ok u, s') →
    s'.macros = wbTable ref (substituteWithDict st.tokens s.defines 0) s.macros := by
  intro depth
  induction depth with
  | zero => intro ref st s s' u _ h; simp [execInstr, throw_eq] at h
  | succ depth ih =>
    intro ref st s s' u hr h
    cases ht : substituteWithDict st.tokens s.defines 0 with
    | nil =>
      rw [execInstr, bind_eq, get_eq] at h
      simp only [hr] at h
      rw [bind_eq, writeBack_eq] at h
      simp only [ht] at h
      simp [throw_eq] at h
    | cons t rest =>
    rw [execInstr_eq d depth ref st s hr ht] at h
    cases hm : dget s.macros (d.key t) with
    | none =>
      rw [hm] at h
      simp only at h
      cases hi : d.instrs (d.key t) with
      | none => rw [hi] at h; simp [throw_eq] at h
      | some i =>
        rw [hi] at h
        cases i with
        | fixed blob =>
          simp only at h
          split at h
          · simp [throw_eq] at h
          · injection h with _ h; subst h; rfl
        | handler f =>
          simp only at h
          rw [bind_eq] at h
          cases hh : runHandler d f (t :: rest) { s with macros := wbTable ref (t :: rest) s.macros } with
          | mk r s1 =>
          have := runHandler_macros d f (t :: rest) { s with macros := wbTable ref (t :: rest) s.macros }
          rw [hh] at h this
          cases r with
          | error e => simp at h
          | ok b => injection h with _ h; subst h; exact this
    | some m =>
      rw [hm] at h
      simp only at h
      unfold runMacro at h
      have key := forEach_inv (I := fun x => x.recording = none ∧ x.macros = wbTable ref (t :: rest) s.macros)
        (l := List.range m.body.length) (f := macroStep (execInstr d depth) (d.key t) m.args ((t :: rest).drop 1))
        (fun idx _ x x' v hx hs => by
          refine ⟨?_, ?_⟩
          · have hk : SameRecording x (macroStep (execInstr d depth) (d.key t) m.args ((t :: rest).drop 1) idx x).2 :=
              keeps_macroStep rel_sameRecording.toBodyRel _ (fun r s => keeps_execInstr rel_sameRecording d depth r s) _ _ _ _ x
            rw [hs] at hk
            unfold SameRecording at hk
            rw [hk]; exact hx.1
          · cases hmx : dget x.macros (d.key t) with
            | none =>
              unfold macroStep at hs
              rw [bind_eq, get_eq] at hs
              simp only [hmx] at hs
              simp [throw_eq] at hs
            | some mx =>
            cases hst : mx.body[idx]? with
            | none =>
              unfold macroStep at hs
              rw [bind_eq, get_eq] at hs
              simp only [hmx, hst] at hs
              injection hs with _ hs; subst hs; exact hx.2
            | some stx =>
            cases hmd : macroDict m.args ((t :: rest).drop 1) [] with
            | error e => rw [macroStep_missing _ _ _ _ _ _ hmx hst hmd] at hs; simp at hs
            | ok md =>
            rw [macroStep_eq _ _ _ _ _ _ hmx hst hmd] at hs
            generalize hτ : substituteWithDict stx.tokens md 0 = τ at hs
            cases he : execInstr d depth (some (d.key t, idx)) { stx with tokens := τ }
                { x with macros := setTok x.macros (d.key t) idx τ } with
            | mk r x1 =>
            rw [he] at hs
            cases r with
            | error e => simp at hs
            | ok w =>
            have h1 := ih _ _ _ _ _ (by exact hx.1) he
            injection hs with _ hs; subst hs
            simp only [wbTable] at h1 ⊢
            rw [h1, setTok_setTok, setTok_setTok, setTok_same hmx hst]
            exact hx.2)
      exact (key { s with macros := wbTable ref (t :: rest) s.macros } s' u ⟨hr, rfl⟩ h).2

/-! ## the table without one macro -/

/-- The state with macro `key` removed from the table. -/
def hide (key : Str) (s : St) : St := { s with macros := s.macros.filter fun p => p.1 ≠ key }

theorem dget_filter_ne {ν : Type} (l : List (Str × ν)) (key k : Str) :
    dget (l.filter fun p => p.1 ≠ key) k = if k = key then none else dget l k := by
  induction l with
  | nil => simp [dget]
  | cons p l ih =>
    obtain ⟨a, b⟩ := p
    by_cases ha : a = key
    · subst ha
      rw [List.filter_cons_of_neg (by simp), ih]
      by_cases hk : k = a
      · simp [hk]
      · simp only [if_neg hk, dget]; rw [if_neg (fun e => hk e.symm)]
    · rw [List.filter_cons_of_pos (by simpa using ha)]
      simp only [dget, ih]
      by_cases hk : k = key
      · subst hk; simp [ha]
      · simp only [if_neg hk]

theorem filter_dset_ne {ν : Type} (l : List (Str × ν)) (key k : Str) (v : ν) (h : k ≠ key) :
    (dset l k v).filter (fun p => p.1 ≠ key) = dset (l.filter fun p => p.1 ≠ key) k v := by
  induction l with
  | nil => simp [dset, h]
  | cons p l ih =>
    obtain ⟨a, b⟩ := p
    by_cases hk : a = k
    · subst hk
      simp [dset, h]
    · by_cases ha : a = key
      · subst ha
        simp only [dset, if_neg hk]
        rw [List.filter_cons_of_neg (by simp), List.filter_cons_of_neg (by simp), ih]
      · simp only [dset, if_neg hk]
        rw [List.filter_cons_of_pos (by simpa using ha), List.filter_cons_of_pos (by simpa using ha), ih]
        simp [dset, hk]

theorem filter_dset_self {ν : Type} (l : List (Str × ν)) (key : Str) (v : ν) :
    (dset l key v).filter (fun p => p.1 ≠ key) = l.filter fun p => p.1 ≠ key := by
  induction l with
  | nil => simp [dset]
  | cons p l ih =>
    obtain ⟨a, b⟩ := p
    by_cases hk : a = key
    · subst hk
      simp [dset]
    · simp only [dset, if_neg hk]
      rw [List.filter_cons_of_pos (by simpa using hk), List.filter_cons_of_pos (by simpa using hk), ih]

theorem filter_setTok_ne (t : List (Str × Macro)) (key k : Str) (i : Nat) (τ : List Str) (h : k ≠ key) :
    (setTok t k i τ).filter (fun p => p.1 ≠ key) = setTok (t.filter fun p => p.1 ≠ key) k i τ := by
  unfold setTok
  rw [dget_filter_ne, if_neg h]
  cases dget t k with
  | none => rfl
  | some m => exact filter_dset_ne _ _ _ _ h

theorem filter_setTok_self (t : List (Str × Macro)) (key : Str) (i : Nat) (τ : List Str) :
    (setTok t key i τ).filter (fun p => p.1 ≠ key) = t.filter fun p => p.1 ≠ key := by
  unfold setTok
  cases dget t key with
  | none => rfl
  | some m => exact filter_dset_self _ _ _

/-- `m'` does from `s` what `m` does from the state without macro `key`, unless that fails
because an instruction is unknown. -/
def Sim (key : Str) (m m' : M Unit) : Prop := ∀ s r h1, s.recording = none → m (hide key s) = (r, h1) →
  r ≠ .error .unknownInstruction → ∃ s1, m' s = (r, s1) ∧ hide key s1 = h1 ∧ s1.recording = none

theorem Sim.forEach {α : Type} {key : Str} {f f' : α → M Unit} {l : List α} (h : ∀ x ∈ l, Sim key (f x) (f' x)) :
    Sim key (forEach l f) (forEach l f') := by
  induction l with
  | nil =>
    intro s r h1 hr he _
    injection he with e1 e2; subst e1; subst e2
    exact ⟨s, rfl, rfl, hr⟩
  | cons x l ih =>
    intro s r h1 hr he hne
    rw [forEach_cons] at he
    cases hx : f x (hide key s) with
    | mk r0 h0 =>
    rw [hx] at he
    cases r0 with
    | error e =>
      injection he with e1 e2
      subst e1
      obtain ⟨s1, h2, h3, h4⟩ := h x (List.mem_cons_self ..) s _ _ hr hx hne
      refine ⟨s1, ?_, by rw [h3, e2], h4⟩
      rw [forEach_cons, h2]
    | ok v =>
      obtain ⟨s1, h2, h3, h4⟩ := h x (List.mem_cons_self ..) s _ _ hr hx (by simp)
      subst h3
      obtain ⟨s2, h5, h6, h7⟩ := ih (fun y hy => h y (List.mem_cons_of_mem _ hy)) s1 r h1 h4 he hne
      refine ⟨s2, ?_, h6, h7⟩
      rw [forEach_cons, h2]
      exact h5

theorem foldl_addReloc_hide (key : Str) (l : List Reloc) : ∀ s, l.foldl addReloc (hide key s) = hide key (l.foldl addReloc s) := by
  induction l with
  | nil => intro s; rfl
  | cons r l ih => intro s; simp only [List.foldl_cons]; rw [← ih]; rfl

theorem foldl_addReloc_recording (l : List Reloc) : ∀ s : St, (l.foldl addReloc s).recording = s.recording := by
  induction l with
  | nil => intro s; rfl
  | cons r l ih => intro s; simp only [List.foldl_cons]; rw [ih]; rfl

/-- The two references a statement may have in the two runs. -/
def RefPair (key : Str) (ρ ρ' : StmtRef) : Prop :=
  (ρ = ρ' ∧ ∀ k i, ρ = some (k, i) → k ≠ key) ∨ (ρ = none ∧ ∃ i, ρ' = some (key, i))

theorem hide_wb {key : Str} {ρ ρ' : StmtRef} (h : RefPair key ρ ρ') (s : St) (τ : List Str) :
    ({ hide key s with macros := wbTable ρ τ (hide key s).macros } : St) =
      hide key { s with macros := wbTable ρ' τ s.macros } := by
  rcases h with ⟨rfl, hk⟩ | ⟨rfl, i, rfl⟩
  · cases ρ with
    | none => rfl
    | some p =>
      obtain ⟨k, i⟩ := p
      simp only [wbTable, hide]
      rw [filter_setTok_ne _ _ _ _ _ (hk k i rfl)]
  · simp only [wbTable, hide]
    rw [filter_setTok_self]

theorem sim_macroStep {key k : Str} (hk : k ≠ key) {exec exec' : StmtRef → Stmt → M Unit}
    (he : ∀ i st, Sim key (exec (some (k, i)) st) (exec' (some (k, i)) st)) (ps as : List Str) (i : Nat) :
    Sim key (macroStep exec k ps as i) (macroStep exec' k ps as i) := by
  intro s r h1 hr hx hne
  have hd : dget (hide key s).macros k = dget s.macros k := by
    simp only [hide]; rw [dget_filter_ne, if_neg hk]
  cases hm : dget s.macros k with
  | none =>
    unfold macroStep at hx
    rw [bind_eq, get_eq] at hx
    simp only [hd, hm] at hx
    injection hx with e1 e2; subst e1 e2
    refine ⟨s, ?_, rfl, hr⟩
    unfold macroStep
    rw [bind_eq, get_eq]
    simp only [hm]; rfl
  | some m =>
  cases hst : m.body[i]? with
  | none =>
    unfold macroStep at hx
    rw [bind_eq, get_eq] at hx
    simp only [hd, hm, hst] at hx
    injection hx with e1 e2; subst e1 e2
    refine ⟨s, ?_, rfl, hr⟩
    unfold macroStep
    rw [bind_eq, get_eq]
    simp only [hm, hst]; rfl
  | some st =>
  cases hmd : macroDict ps as [] with
  | error e =>
    rw [macroStep_missing _ _ _ _ _ _ (by rw [hd, hm]) hst hmd] at hx
    injection hx with e1 e2; subst e1 e2
    exact ⟨s, macroStep_missing _ _ _ _ _ _ hm hst hmd, rfl, hr⟩
  | ok md =>
  rw [macroStep_eq _ _ _ _ _ _ (by rw [hd, hm]) hst hmd] at hx
  generalize hτ : substituteWithDict st.tokens md 0 = τ at hx
  have hw : ({ hide key s with macros := setTok (hide key s).macros k i τ } : St) =
      hide key { s with macros := setTok s.macros k i τ } := by
    simp only [hide]; rw [filter_setTok_ne _ _ _ _ _ hk]
  rw [hw] at hx
  cases hex : exec (some (k, i)) { st with tokens := τ } (hide key { s with macros := setTok s.macros k i τ }) with
  | mk r0 h0 =>
  rw [hex] at hx
  cases r0 with
  | error e =>
    injection hx with e1 e2; subst e1 e2
    obtain ⟨s1, h2, h3, h4⟩ := he i _ { s with macros := setTok s.macros k i τ } _ _ hr hex hne
    refine ⟨s1, ?_, h3, h4⟩
    rw [macroStep_eq _ _ _ _ _ _ hm hst hmd, hτ, h2]
  | ok v =>
    injection hx with e1 e2; subst e1 e2
    obtain ⟨s1, h2, h3, h4⟩ := he i _ { s with macros := setTok s.macros k i τ } _ _ hr hex (by simp)
    refine ⟨{ s1 with macros := setTok s1.macros k i st.tokens }, ?_, ?_, h4⟩
    · rw [macroStep_eq _ _ _ _ _ _ hm hst hmd, hτ, h2]
    · subst h3
      simp only [hide]; rw [filter_setTok_ne _ _ _ _ _ hk]

theorem sim_execInstr (d : Dialect) (key : Str) (hkey : d.instrs key = none) : ∀ (depth : Nat) (ρ ρ' : StmtRef) (st : Stmt),
    RefPair key ρ ρ' → Sim key (execInstr d depth ρ st) (execInstr d depth ρ' st) := by
  intro depth
  induction depth with
  | zero =>
    intro ρ ρ' st _ s r h1 hr hx _
    injection hx with e1 e2; subst e1 e2
    exact ⟨s, rfl, rfl, hr⟩
  | succ depth ih =>
    intro ρ ρ' st hρ s r h1 hr hx hne
    cases ht : substituteWithDict st.tokens s.defines 0 with
    | nil =>
      have e : ∀ (ρ : StmtRef) (s : St), s.recording = none → substituteWithDict st.tokens s.defines 0 = [] →
          execInstr d (depth + 1) ρ st s = (.error .indexError, { s with macros := wbTable ρ [] s.macros }) := by
        intro ρ s hr ht
        rw [execInstr, bind_eq, get_eq]
        simp only [hr]
        rw [bind_eq, writeBack_eq]
        simp only [ht, hr]
        rfl
      rw [e ρ (hide key s) hr ht, hide_wb hρ] at hx
      injection hx with e1 e2; subst e1 e2
      exact ⟨_, e ρ' s hr ht, rfl, hr⟩
    | cons t rest =>
    rw [execInstr_eq d depth ρ st (hide key s) hr ht, hide_wb hρ] at hx
    rw [execInstr_eq d depth ρ' st s hr ht]
    have hd : dget (hide key s).macros (d.key t) = if d.key t = key then none else dget s.macros (d.key t) := by
      simp only [hide]; rw [dget_filter_ne]
    rw [hd] at hx
    generalize hs0 : ({ s with macros := wbTable ρ' (t :: rest) s.macros } : St) = s0 at hx ⊢
    have hr0 : s0.recording = none := by subst hs0; exact hr
    by_cases hkt : d.key t = key
    · rw [if_pos hkt, hkt, hkey] at hx
      injection hx with e1 e2
      exact absurd e1.symm hne
    · rw [if_neg hkt] at hx
      cases hm : dget s.macros (d.key t) with
      | some m =>
        rw [hm] at hx
        simp only at hx ⊢
        unfold runMacro at hx ⊢
        refine Sim.forEach (fun i _ => sim_macroStep hkt (fun j stj => ih _ _ _ (.inl ⟨rfl, ?_⟩)) _ _ i) s0 r h1 hr0 hx hne
        intro k i hki; injection hki with hki; injection hki with hki; rw [← hki]; exact hkt
      | none =>
        rw [hm] at hx
        simp only at hx ⊢
        cases hi : d.instrs (d.key t) with
        | none => rw [hi] at hx; injection hx with e1 e2; exact absurd e1.symm hne
        | some i =>
          rw [hi] at hx
          cases i with
          | fixed blob =>
            simp only at hx ⊢
            split at hx
            · rename_i hl
              injection hx with e1 e2; subst e1 e2
              rw [if_pos hl]
              exact ⟨s0, rfl, rfl, hr0⟩
            · rename_i hl
              injection hx with e1 e2; subst e1 e2
              rw [if_neg hl]
              exact ⟨_, rfl, rfl, hr0⟩
          | handler f =>
            simp only at hx ⊢
            rw [bind_eq] at hx ⊢
            have hh : ∀ s, runHandler d f (t :: rest) (hide key s) =
                ((runHandler d f (t :: rest) s).1, hide key (runHandler d f (t :: rest) s).2) := by
              intro s
              rw [runHandler_state, ← foldl_addReloc_hide]
              unfold runHandler
              have : (⟨(hide key s).pc, (hide key s).labels, d.sy, (hide key s).bitsMode⟩ : Ctx) =
                ⟨s.pc, s.labels, d.sy, s.bitsMode⟩ := rfl
              simp only [this]
              rcases f (t :: rest) ⟨s.pc, s.labels, d.sy, s.bitsMode⟩ with ⟨_ | _ | _, _⟩ <;> rfl
            rw [hh] at hx
            have hrh : (runHandler d f (t :: rest) s0).2.recording = none := by
              rw [runHandler_state, foldl_addReloc_recording]; exact hr0
            cases hres : runHandler d f (t :: rest) s0 with
            | mk r0 s1 =>
            rw [hres] at hx hrh
            cases r0 with
            | error e =>
              injection hx with e1 e2; subst e1 e2
              exact ⟨s1, rfl, rfl, hrh⟩
            | ok b =>
              injection hx with e1 e2; subst e1 e2
              exact ⟨_, rfl, rfl, hrh⟩

/-- A table entry can be read off a table without changing `hide`. -/
theorem hide_ext {key : Str} {s s' : St} (h : hide key s = hide key s') (hm : s.macros = s'.macros) : s = s' := by
  cases s; cases s'
  simp only [hide, St.mk.injEq] at h hm ⊢
  simp_all

/-! ## parameters -/

theorem macroDict_lookup (params : List Str) : ∀ (args : List Str) (acc md : List (Str × Str)),
    macroDict params args acc = .ok md →
    ∀ k, dget md k = (((params.zip args).reverse ++ acc).lookup k) := by
  induction params with
  | nil =>
    intro args acc md h k
    simp only [macroDict] at h
    injection h with h; subst h
    simp [dget_eq_lookup]
  | cons p ps ih =>
    intro args acc md h k
    cases args with
    | nil => simp [macroDict] at h
    | cons a as =>
      simp only [macroDict] at h
      rw [ih as _ md h k]
      simp only [List.zip_cons_cons, List.reverse_cons, List.append_assoc, List.lookup_append]
      congr 1
      rw [← dget_eq_lookup, dget_dset]
      by_cases hk : p = k
      · subst hk; simp
      · simp only [if_neg hk, List.lookup_cons]
        have : (k == p) = false := by simpa using fun e => hk e.symm
        simp [this, dget_eq_lookup]

theorem macroDict_ok_iff (params : List Str) : ∀ (args : List Str) (acc : List (Str × Str)),
    (params.length ≤ args.length → ∃ md, macroDict params args acc = .ok md) ∧
    (args.length < params.length → macroDict params args acc = .error .indexError) := by
  induction params with
  | nil => intro args acc; exact ⟨fun _ => ⟨acc, rfl⟩, fun h => by simp at h⟩
  | cons p ps ih =>
    intro args acc
    cases args with
    | nil => exact ⟨fun h => by simp at h, fun _ => rfl⟩
    | cons a as =>
      have := ih as (dset acc p a)
      simp only [macroDict, List.length_cons, Nat.add_le_add_iff_right, Nat.add_lt_add_iff_right]
      exact this

/-- Substitution depends only on what the table says about each name. -/
theorem substitute_congr {m m' : List (Str × Str)} (h : ∀ k, dget m k = dget m' k) (l : List Str) (n : Nat) :
    substituteWithDict l m n = substituteWithDict l m' n := by
  have hr : ∀ r, subRun m r = subRun m' r := fun r => by unfold subRun; rw [h]
  have hs : ∀ (s acc out : Str), subScan m acc out s = subScan m' acc out s := by
    intro s
    induction s with
    | nil => intro acc out; simp only [subScan, hr]
    | cons c cs ih => intro acc out; simp only [subScan, hr, ih]
  have ht : subToken m = subToken m' := by
    funext t; unfold subToken; rw [h, hs]
  unfold substituteWithDict
  rw [ht]

end Necro
