import Verif.Props.Expand
import Verif.Props.Macros
import Verif.Lemmas.Deaf
import Verif.Spec.Inline
/-!
# C99: macros are abbreviations
-/

namespace Necro
open Spec
open M (throw get modify lift forEach times)

/-- The state with other definitions, without macros, outside of a macro. -/
def lay (x : List (Str × Str)) (s : St) : St := { s with defines := x, macros := [], recording := none }

theorem Aloof.lay {m : M α} (h : Aloof m) (x : List (Str × Str)) {s : St} (hs : s.recording = none) (hr : (m s).2.recording = none) :
    m (lay x s) = ((m s).1, Necro.lay x (m s).2) := by
  have h1 := h.eq s (s.log, s.exports, x) []
  obtain ⟨g1, g2, -, -⟩ := h.fields s
  have e : Necro.lay x s = aside (s.log, s.exports, x) [] s := by unfold Necro.lay aside; rw [← hs]
  rw [e, h1]
  congr 1
  unfold aside Necro.lay
  rw [← g1, ← g2]
  simp only [← hr]

theorem lay_macros (x : List (Str × Str)) (s : St) (b : List (Str × Macro)) : lay x { s with macros := b } = lay x s := rfl

/-- The table of the run agrees with the macros of the specification. -/
def Agrees (m : Option Macro) (p : Option (List Str × List (List Str))) : Prop :=
  match m, p with
  | none, none => True
  | some m, some p => m.args = p.1 ∧ m.body.map (·.tokens) = p.2
  | _, _ => False

theorem dget_setTok_ne {t : List (Str × Macro)} {k key : Str} (h : key ≠ k) (i : Nat) (τ : List Str) : dget (setTok t key i τ) k = dget t k := by
  unfold setTok
  cases dget t key with
  | none => rfl
  | some m => dsimp only; rw [dget_dset, if_neg h]

theorem dget_wbTable {t : List (Str × Macro)} {ref : StmtRef} {k : Str} (h : ∀ p, ref = some p → p.1 ≠ k) (τ : List Str) : dget (wbTable ref τ t) k = dget t k := by
  cases ref with
  | none => rfl
  | some p => exact dget_setTok_ne (h p rfl) _ _

variable {d : Dialect} {a x : List (Str × Str)} {ms : MacroTable}

/-- An instruction that is not a macro call. -/
def plainInstr (d : Dialect) (tokens : List Str) : M Unit :=
  match tokens with
  | [] => throw .indexError
  | t :: rest => match d.instrs (d.key t) with
    | none => throw .unknownInstruction
    | some (.fixed blob) => if (t :: rest).length ≠ 1 then throw .invalidOpCodeArguments else appendBytes blob
    | some (.handler f) => runHandler d f (t :: rest) >>= appendBytes

theorem aloof_plain (d : Dialect) (t : Str) (rest : List Str) : Aloof (plainInstr d (t :: rest)) := by
  show Aloof (match d.instrs (d.key t) with | none => _ | some (.fixed blob) => _ | some (.handler f) => _)
  cases d.instrs (d.key t) with
  | none => exact .throw _
  | some i =>
    cases i with
    | fixed blob => exact .ite (.throw _) (aloof_appendBytes _)
    | handler f => exact .bind (aloof_runHandler _ _ _) fun _ => aloof_appendBytes _

theorem plain_eq (depth : Nat) (ref : StmtRef) (st : Stmt) (s : St) (hr : s.recording = none) {t : Str} {rest : List Str} (ht : substituteWithDict st.tokens s.defines 0 = t :: rest)
    (hm : dget s.macros (d.key t) = none) : execInstr d (depth + 1) ref st s = plainInstr d (t :: rest) { s with macros := wbTable ref (t :: rest) s.macros } := by
  rw [execInstr_eq d depth ref st s hr ht, hm]
  rfl

theorem recording_execInstr (depth : Nat) (ref : StmtRef) (st : Stmt) {s : St} (hs : s.recording = none) : (execInstr d depth ref st s).2.recording = none := by
  have : SameRecording s (execInstr d depth ref st s).2 := keeps_execInstr rel_sameRecording d depth ref st s
  exact this.trans hs

theorem defines_execInstr (depth : Nat) (ref : StmtRef) (st : Stmt) (s : St) : (execInstr d depth ref st s).2.defines = s.defines :=
  keeps_execInstr rel_sameDefines d depth ref st s

/-- The second list of lines does what the first statement does. -/
def Does (d : Dialect) (x : List (Str × Str)) (m : M Unit) (lines : List (List Str)) (s : St) : Prop :=
  ∀ L : List Stmt, L.map content = lines.map (fun ts => (Kind.instr, ts)) → (∀ st ∈ L, ∀ t ∈ st.tokens, replaced x t = t) → ∀ k,
    forEach L (execInstr d (k + 1) none) (lay x s) = ((m s).1, lay x (m s).2)

theorem does_writeOut : ∀ (n : Nat) (active : List Str) (ref : StmtRef) (st : Stmt) (out : List (List Str)) (s : St), writeOut d a ms n active st.tokens = some out → s.recording = none →
    Tracks a s.defines → (∀ k, k ∉ active → Agrees (dget s.macros k) (ms.lookup k)) → (∀ k ∈ active, ms.lookup k ≠ none) → (∀ p, ref = some p → p.1 ∈ active) →
    Does d x (execInstr d n ref st) out s := by
  intro n
  induction n with
  | zero => intro active ref st out s h; simp [writeOut] at h
  | succ n ih =>
    intro active ref st out s h hr ha hm hact href L hL hx k
    rw [writeOut] at h
    have hts := tracks_tokens ha st.tokens
    cases hline : st.tokens.map (replaced a) with
    | nil => rw [hline] at h; cases h
    | cons t args =>
      rw [hline] at h hts
      dsimp only at h
      cases hk : ms.lookup (d.key t) with
      | none =>
        rw [hk] at h
        cases h
        have hnot : d.key t ∉ active := fun hc => hact _ hc hk
        have hg : dget s.macros (d.key t) = none := by
          have := hm _ hnot
          rw [hk] at this
          cases hd : dget s.macros (d.key t) with
          | none => rfl
          | some m => rw [hd] at this; exact this.elim
        rw [plain_eq n ref st s hr hts hg]
        match L, hL, hx with
        | [], hL, _ => simp at hL
        | _ :: _ :: _, hL, _ => simp at hL
        | [st'], hL, hx =>
          simp only [List.map_cons, List.map_nil, List.cons.injEq, and_true] at hL
          have ht' : st'.tokens = t :: args := congrArg Prod.snd hL
          have e2 := plain_eq (d := d) (t := t) (rest := args) k none st' (lay x s) rfl
            (by rw [show (lay x s).defines = x from rfl, ← ht']; exact own_tokens (hx st' (by simp))) rfl
          have e3 : forEach [st'] (execInstr d (k + 1) none) (lay x s) = execInstr d (k + 1) none st' (lay x s) := by
            rw [forEach_cons]
            rcases execInstr d (k + 1) none st' (lay x s) with ⟨_ | _, s'⟩ <;> rfl
          rw [e3, e2]
          have hal := aloof_plain d t args
          have hrec : (plainInstr d (t :: args) { s with macros := wbTable ref (t :: args) s.macros }).2.recording = none := by
            rw [← plain_eq n ref st s hr hts hg]
            exact recording_execInstr _ _ _ hr
          have := hal.lay x (s := { s with macros := wbTable ref (t :: args) s.macros }) hr hrec
          rw [lay_macros] at this
          exact this
      | some p =>
        obtain ⟨params, body⟩ := p
        rw [hk] at h
        dsimp only at h
        split at h
        · cases h
        rename_i hcond
        simp only [not_or, Nat.not_lt] at hcond
        obtain ⟨hnot, hlen⟩ := hcond
        obtain ⟨m, hg, hargs, hbody⟩ : ∃ m, dget s.macros (d.key t) = some m ∧ m.args = params ∧ m.body.map (·.tokens) = body := by
          have := hm _ hnot
          rw [hk] at this
          cases hd : dget s.macros (d.key t) with
          | none => rw [hd] at this; exact this.elim
          | some m => rw [hd] at this; exact ⟨m, rfl, this.1, this.2⟩
        rw [execInstr_eq d n ref st s hr hts, hg]
        dsimp only [runMacro]
        rw [hargs, List.drop_succ_cons, List.drop_zero, List.range_eq_range']
        obtain ⟨md, hmd⟩ := (macroDict_ok_iff params args []).1 hlen
        have htr : Tracks (params.zip args).reverse md := fun k => by rw [macroDict_lookup _ _ _ _ hmd, List.append_nil]
        generalize hW : wbTable ref (t :: args) s.macros = W
        have hWk : ∀ k, k ∉ active → dget W k = dget s.macros k := fun k hk => by
          rw [← hW]; exact dget_wbTable (fun p hp e => hk (by rw [← e]; exact href p hp)) _
        have hWm : dget W (d.key t) = some m := (hWk _ hnot).trans hg
        -- the loop
        have loop : ∀ (l : List Stmt) (i : Nat) (out : List (List Str)) (y : St), m.body.drop i = l → y.recording = none → Tracks a y.defines → y.macros = W →
            gather (fun b => writeOut d a ms n (d.key t :: active) (b.map (replaced (params.zip args).reverse))) (l.map (·.tokens)) = some out →
            Does d x (forEach (List.range' i l.length) (macroStep (execInstr d n) (d.key t) params args)) out y := by
          intro l
          induction l with
          | nil =>
            intro i out y _ _ _ _ ho L hL _ k
            cases ho
            cases List.map_eq_nil_iff.1 hL
            rfl
          | cons b l ihl =>
            intro i out y hdrop hyr hya hyW ho L hL hx k
            rw [List.map_cons, gather] at ho
            cases ho1 : writeOut d a ms n (d.key t :: active) (b.tokens.map (replaced (params.zip args).reverse)) with
            | none => rw [ho1] at ho; cases ho
            | some o1 =>
              rw [ho1] at ho
              cases ho2 : gather (fun b => writeOut d a ms n (d.key t :: active) (b.map (replaced (params.zip args).reverse))) (l.map (·.tokens)) with
              | none => rw [ho2] at ho; cases ho
              | some o2 =>
                rw [ho2] at ho
                cases ho
                rw [List.map_append] at hL
                obtain ⟨L1, L2, rfl, hL1, hL2⟩ := List.map_eq_append_iff.1 hL
                have hbi : m.body[i]? = some b := by
                  have := congrArg List.head? hdrop
                  rw [List.head?_drop] at this
                  simpa using this
                have hdrop' : m.body.drop (i + 1) = l := by rw [← List.tail_drop, hdrop]; rfl
                have hτ : substituteWithDict b.tokens md 0 = b.tokens.map (replaced (params.zip args).reverse) := tracks_tokens htr _
                have hym : dget y.macros (d.key t) = some m := by rw [hyW]; exact hWm
                have hstep := macroStep_eq (execInstr d n) (d.key t) params args i y hym hbi hmd
                rw [hτ] at hstep
                generalize hτ' : b.tokens.map (replaced (params.zip args).reverse) = τ at hstep ho1
                have hone := ih (d.key t :: active) (some (d.key t, i)) { b with tokens := τ } o1 { y with macros := setTok y.macros (d.key t) i τ } ho1 hyr hya
                  (fun k hk => by
                    simp only [List.mem_cons, not_or] at hk
                    show Agrees (dget (setTok y.macros (d.key t) i τ) k) _
                    rw [dget_setTok_ne (Ne.symm hk.1), hyW, hWk k hk.2]
                    exact hm k hk.2)
                  (fun k hk => by
                    rcases List.mem_cons.1 hk with rfl | hk
                    · rw [show ms.lookup (d.key t) = _ from by assumption]; simp
                    · exact hact k hk)
                  (fun p hp => by cases hp; simp) L1 hL1 (fun st hst => hx st (by simp [hst])) k
                rw [lay_macros] at hone
                rw [forEach_append, hone, List.length_cons, List.range'_succ]
                have e4 : forEach (i :: List.range' (i + 1) l.length) (macroStep (execInstr d n) (d.key t) params args) y =
                    (match macroStep (execInstr d n) (d.key t) params args i y with
                      | (.ok _, s') => forEach (List.range' (i + 1) l.length) (macroStep (execInstr d n) (d.key t) params args) s'
                      | (.error e, s') => (.error e, s')) := forEach_cons ..
                rw [e4, hstep]
                have hrec := recording_execInstr (d := d) n (some (d.key t, i)) { b with tokens := τ } (s := { y with macros := setTok y.macros (d.key t) i τ }) hyr
                have hdef := defines_execInstr (d := d) n (some (d.key t, i)) { b with tokens := τ } { y with macros := setTok y.macros (d.key t) i τ }
                rcases he : execInstr d n (some (d.key t, i)) { b with tokens := τ } { y with macros := setTok y.macros (d.key t) i τ } with ⟨e | w, y1⟩
                · rfl
                · rw [he] at hrec hdef
                  have htab := execInstr_table d n _ _ _ _ _ (by exact hyr) he
                  simp only [wbTable] at htab
                  dsimp only
                  have hback : setTok y1.macros (d.key t) i b.tokens = W := by
                    rw [htab, setTok_setTok, setTok_setTok, setTok_same hym hbi, hyW]
                  exact ihl (i + 1) o2 { y1 with macros := setTok y1.macros (d.key t) i b.tokens } hdrop' hrec (by rw [show ({ y1 with macros := setTok y1.macros (d.key t) i b.tokens } : St).defines = y1.defines from rfl, hdef]; exact hya) hback ho2 L2 hL2 (fun st hst => hx st (by simp [hst])) k
        have := loop m.body 0 out { s with macros := W } (by simp) hr ha rfl (by rw [hbody]; exact h) L hL hx k
        rw [lay_macros] at this
        exact this

/-! ## statements -/

/-- The tables of the run agree with those of the specification; `rec` is the macro being recorded. -/
structure Inv (rec : Option (Str × List Str × List (List Str))) (a : List (Str × Str)) (ms : MacroTable) (s : St) : Prop where
  recording : s.recording = rec.map (·.1)
  defines : Tracks a s.defines
  macros : ∀ k, Agrees (dget s.macros k) ((rec.toList ++ ms).lookup k)

/-- The second run does what the first does, but for the tables; `P` holds after a first run that succeeds. -/
structure Level (m m' : M Unit) (x : List (Str × Str)) (P : St → Prop) (s : St) : Prop where
  same : m' (lay x s) = ((m s).1, lay x (m s).2)
  post : (m s).1 = .ok () → P (m s).2

theorem Level.bind {m m' : M Unit} {f f' : Unit → M Unit} {P Q : St → Prop} {s : St} (h : Level m m' x P s) (hf : ∀ s, P s → Level (f ()) (f' ()) x Q s) :
    Level (m >>= f) (m' >>= f') x Q s := by
  obtain ⟨h1, h2⟩ := h
  rcases hr : m s with ⟨er | y, s1⟩
  · rw [hr] at h1 h2
    have e : (m >>= f) s = (.error er, s1) := by rw [bind_eq, hr]
    refine ⟨?_, ?_⟩ <;> rw [e]
    · rw [bind_eq, h1]
    · intro h; cases h
  · rw [hr] at h1 h2
    have h4 := hf s1 (h2 rfl)
    have e : (m >>= f) s = f () s1 := by rw [bind_eq, hr]
    refine ⟨?_, ?_⟩ <;> rw [e]
    · rw [bind_eq, h1]; exact h4.same
    · exact h4.post

theorem Deaf.recording {α : Type} {m : M α} (h : Deaf m) (s : St) : (m s).2.recording = s.recording := by
  have h0 : (m s).2 = deafTo () s.recording (m s).2 := congrArg Prod.snd (h.eq s () s.recording)
  rw [h0]
  rfl

/-- What uses neither the tables nor the macro being recorded does the same when these are put aside. -/
theorem Aloof.layDeaf {α : Type} {m : M α} (h : Aloof m) (hk : Deaf m) (x : List (Str × Str)) (s : St) : m (Necro.lay x s) = ((m s).1, Necro.lay x (m s).2) := by
  have h1 := h.lay x (s := deafTo () none s) rfl (by rw [hk.recording]; rfl)
  rw [hk.eq] at h1
  exact h1

theorem Aloof.level {m : M Unit} (h : Aloof m) (hk : Deaf m) {rec : Option (Str × List Str × List (List Str))} {s : St} (hs : Inv rec a ms s) : Level m m x (Inv rec a ms) s := by
  obtain ⟨-, -, g3, g4⟩ := h.fields s
  exact ⟨h.layDeaf hk x s, fun _ => ⟨(hk.recording s).trans hs.recording, by rw [g3]; exact hs.defines, by rw [g4]; exact hs.macros⟩⟩

theorem level_log (l : List Str) {rec : Option (Str × List Str × List (List Str))} {s : St} (hs : Inv rec a ms s) : Level (directiveLog l) (directiveLog l) x (Inv rec a ms) s := by
  have h : ∀ c, Level (modify fun s => { s with log := c }) (modify fun s => { s with log := c }) x (Inv rec a ms) s := fun c => ⟨rfl, fun _ => ⟨hs.recording, hs.defines, hs.macros⟩⟩
  unfold directiveLog
  split
  · exact h _
  · split
    · exact h _
    · split
      · exact h _
      · exact ⟨rfl, fun _ => hs⟩

theorem level_read {α : Type} {m : M α} {f : α → M Unit} (hm : Aloof m) (hd : Deaf m) (hk : ∀ s, (m s).2 = s) {rec : Option (Str × List Str × List (List Str))} {s : St} (hs : Inv rec a ms s)
    (hf : ∀ y, Level (f y) (f y) x (Inv rec a ms) s) : Level (m >>= f) (m >>= f) x (Inv rec a ms) s := by
  have h1 := hm.layDeaf hd x s
  have h2 := hk s
  rcases hr : m s with ⟨er | y, s1⟩
  · rw [hr] at h1 h2
    dsimp only at h2
    subst h2
    have e : (m >>= f) s1 = (.error er, s1) := by rw [bind_eq, hr]
    refine ⟨?_, ?_⟩ <;> rw [e]
    · rw [bind_eq, h1]
    · intro h; cases h
  · rw [hr] at h1 h2
    dsimp only at h2
    subst h2
    have e : (m >>= f) s1 = f y s1 := by rw [bind_eq, hr]
    refine ⟨?_, ?_⟩ <;> rw [e]
    · rw [bind_eq, h1]; exact (hf y).same
    · exact (hf y).post

theorem level_export (l : List Str) {rec : Option (Str × List Str × List (List Str))} {s : St} (hs : Inv rec a ms s) : Level (directiveExport l) (directiveExport l) x (Inv rec a ms) s := by
  refine level_read (aloof_exactlyTwo l) (deaf_exactlyTwo l) (exactlyTwo_state l) hs fun p => level_read (aloof_stringify p) (deaf_stringify p) (stringify_state p) hs fun name => ?_
  have e : ∀ s : St, (do let s ← get; if name ∈ s.exports then throw .symbolAlreadyExported else modify fun s => { s with exports := s.exports ++ [name] } : M Unit) s =
      if name ∈ s.exports then (.error .symbolAlreadyExported, s) else (.ok (), { s with exports := s.exports ++ [name] }) := by
    intro s
    rw [bind_eq, get_eq]
    dsimp only
    by_cases h : name ∈ s.exports
    · rw [if_pos h, if_pos h]; rfl
    · rw [if_neg h, if_neg h]; rfl
  have el := e s
  have er := e (lay x s)
  by_cases h : name ∈ s.exports
  · rw [if_pos h] at el
    rw [if_pos (show name ∈ (lay x s).exports from h)] at er
    exact ⟨by rw [el]; exact er, by rw [el]; intro h; cases h⟩
  · rw [if_neg h] at el
    rw [if_neg (show name ∉ (lay x s).exports from h)] at er
    exact ⟨by rw [el]; exact er, by rw [el]; exact fun _ => ⟨hs.recording, hs.defines, hs.macros⟩⟩

variable {env : Env}

theorem aloof_of_deaf {p : String × (List Str → M Unit)} (h : p ∈ deafDirectives d env) : p ∈ aloofDirectives d env := List.mem_cons_of_mem _ h

theorem level_directive (hc : CustomAloof d env) (hk : CustomDeaf d env) {rc : Str → M Unit} {t : Str}
    (h1 : ∀ w ∈ ["macro", "endmacro", "include", "define"], isNamed d t w = false) {f : List Str → M Unit} (hf : lookupDirective d env rc (d.key (t.drop 1)) = some f) (l : List Str) {rec : Option (Str × List Str × List (List Str))} {s : St}
    (hs : Inv rec a ms s) : Level (f l) (f l) x (Inv rec a ms) s := by
  unfold lookupDirective at hf
  cases hg : d.directives env (d.key (t.drop 1)) with
  | some q => rw [hg] at hf; cases hf; exact (hc _ _ hg _).level (hk _ _ hg _) hs
  | none =>
    rw [hg] at hf
    obtain ⟨p, hp, he⟩ := List.mem_map.1 (mem_of_dget hf)
    have hkey : d.key p.1.toList = d.key (t.drop 1) := congrArg Prod.fst he
    have hv : p.2 = f := congrArg Prod.snd he
    subst hv
    have hne : ∀ w ∈ ["macro", "endmacro", "include", "define"], p.1 ≠ w := by
      rintro w hw rfl
      have := h1 _ hw
      unfold isNamed at this
      rw [← hkey] at this
      simp at this
    rcases deaf_cases hp with h | rfl | rfl | rfl | rfl | rfl | rfl | rfl
    · exact (aloof_builtin d env p (aloof_of_deaf h) _).level (deaf_builtin d env p h _) hs
    · exact absurd rfl (hne "macro" (by simp))
    · exact absurd rfl (hne "endmacro" (by simp))
    · exact (aloof_section d _).level (deaf_section d _) hs
    · exact absurd rfl (hne "include" (by simp))
    · exact level_log _ hs
    · exact level_export _ hs
    · exact absurd rfl (hne "define" (by simp))

theorem level_execDirective (hc : CustomAloof d env) (hk : CustomDeaf d env) {rc : Str → M Unit} {t : Str}
    (h1 : ∀ w ∈ ["macro", "endmacro", "include", "define"], isNamed d t w = false) {r : List Str} {rec : Option (Str × List Str × List (List Str))} {s : St} (hs : Inv rec a ms s)
    (hx : ∀ t ∈ r.map (replaced a), replaced x t = t) : Level (execDirective d env rc (t :: r)) (execDirective d env rc (t :: r.map (replaced a))) x (Inv rec a ms) s := by
  have e : ∀ (s : St) (args : List Str), execDirective d env rc (t :: args) s =
      (match lookupDirective d env rc (d.key (t.drop 1)) with | none => throw .unknownDirective | some f => f (t :: substituteWithDict args s.defines 0)) s := by
    intro s args
    unfold execDirective
    rw [bind_eq, get_eq]
    simp only [substitute_cons]
    cases lookupDirective d env rc (d.key (t.drop 1)) <;> rfl
  have el := e s r
  have er := e (lay x s) (r.map (replaced a))
  rw [tracks_tokens hs.defines] at el
  rw [show (lay x s).defines = x from rfl, own_tokens hx] at er
  revert el er
  cases hl : lookupDirective d env rc (d.key (t.drop 1)) with
  | none =>
    intro el er
    have el : execDirective d env rc (t :: r) s = (.error .unknownDirective, s) := el
    have er : execDirective d env rc (t :: r.map (replaced a)) (lay x s) = (.error .unknownDirective, lay x s) := er
    exact ⟨by rw [el, er], by rw [el]; intro h; cases h⟩
  | some f =>
    intro el er
    have := level_directive hc hk h1 hl (t :: r.map (replaced a)) (x := x) hs
    exact ⟨by rw [el, er]; exact this.same, by rw [el]; exact this.post⟩

theorem forEach_instr {n : Nat} {rc : Str → M Unit} : ∀ {L : List Stmt}, (∀ st ∈ L, st.kind = .instr) → ∀ s, forEach L (execStmt d env n rc) s = forEach L (execInstr d n none) s
  | [], _, _ => rfl
  | st :: L, h, s => by
    have : execStmt d env n rc st = execInstr d n none st := by unfold execStmt; rw [h st (by simp)]
    rw [forEach_cons, forEach_cons, this]
    rcases execInstr d n none st s with ⟨_ | _, s'⟩
    · rfl
    · exact forEach_instr (fun st hst => h st (by simp [hst])) s'

theorem label_recording (d : Dialect) (ts : List Str) : Keeps SameRecording (execLabel d ts) := by
  intro s
  unfold execLabel
  repeat' split
  all_goals rfl

theorem level_label (d : Dialect) (ts : List Str) {s : St} (hs : Inv none a ms s) : Level (execLabel d ts) (execLabel d ts) x (Inv none a ms) s := by
  have hr : (execLabel d ts s).2.recording = none := (label_recording d ts s : (execLabel d ts s).2.recording = s.recording).trans hs.recording
  obtain ⟨-, -, g3, g4⟩ := (aloof_execLabel d ts).fields s
  exact ⟨(aloof_execLabel d ts).lay x hs.recording hr, fun _ => ⟨hr, by rw [g3]; exact hs.defines, by rw [g4]; exact hs.macros⟩⟩

/-- A line that only changes what is put aside. -/
theorem level_silent {f : Stmt → M Unit} {P : St → Prop} {st : Stmt} {l l' : List Stmt} {s s1 : St} (e1 : f st s = (.ok (), s1)) (e2 : lay x s1 = lay x s)
    (ih : Level (forEach l f) (forEach l' f) x P s1) : Level (forEach (st :: l) f) (forEach l' f) x P s := by
  have e : forEach (st :: l) f s = forEach l f s1 := by rw [forEach_cons, e1]
  refine ⟨?_, ?_⟩ <;> rw [e]
  · rw [← e2]; exact ih.same
  · exact ih.post

/-- A line that stays. -/
theorem level_kept {f : Stmt → M Unit} {P Q : St → Prop} {st st' : Stmt} {l l' : List Stmt} {s : St} (h : Level (f st) (f st') x Q s) (ih : ∀ s, Q s → Level (forEach l f) (forEach l' f) x P s) :
    Level (forEach (st :: l) f) (forEach (st' :: l') f) x P s := by
  have e : ∀ (st : Stmt) (l : List Stmt) (s : St), forEach (st :: l) f s = (f st >>= fun _ => forEach l f) s := by
    intro st l s
    rw [forEach_cons, bind_eq]
    rcases f st s with ⟨_ | _, s'⟩ <;> rfl
  have hall := Level.bind (f := fun _ => forEach l f) (f' := fun _ => forEach l' f) h ih
  refine ⟨?_, ?_⟩ <;> rw [e]
  · rw [e]; exact hall.same
  · exact hall.post

theorem level_stmts (hc : CustomAloof d env) (hk : CustomDeaf d env) (hn : ∀ w ∈ ["macro", "endmacro", "define"], d.directives env (d.key w.toList) = none) {rc : Str → M Unit}
    {n : Nat} {b : List (Str × Str)} {ms' : MacroTable} :
    ∀ (l l' : List Stmt) (rec : Option (Str × List Str × List (List Str))) (a : List (Str × Str)) (ms : MacroTable), inlineAll d (n + 1) rec a ms l = some (l'.map content, b, ms') →
      (∀ st ∈ l', ∀ t ∈ st.tokens, replaced x t = t) → ∀ s : St, Inv rec a ms s →
      Level (forEach l (execStmt d env (n + 1) rc)) (forEach l' (execStmt d env (n + 1) rc)) x (Inv none b ms') s
  | [], l', none, a, ms, h, _, s, hs => by
    simp only [inlineAll, Option.some.injEq, Prod.mk.injEq] at h
    obtain ⟨h1, rfl, rfl⟩ := h
    cases List.map_eq_nil_iff.1 h1.symm
    exact ⟨rfl, fun _ => hs⟩
  | [], l', some _, a, ms, h, _, s, hs => by simp [inlineAll] at h
  | ⟨kind, tokens, ln⟩ :: l, l', some (key, params, body), a, ms, h, hx, s, hs => by
    obtain ⟨m, hg, hm1, hm2⟩ : ∃ m, dget s.macros key = some m ∧ m.args = params ∧ m.body.map (·.tokens) = body := by
      have := hs.macros key
      rw [Option.toList_some, List.singleton_append, List.lookup_cons, beq_self_eq_true] at this
      cases hd : dget s.macros key with
      | none => rw [hd] at this; exact this.elim
      | some m => rw [hd] at this; exact ⟨m, rfl, this.1, this.2⟩
    -- a line that only changes the tables
    have silent : ∀ s1 rec1 ms1, execStmt d env (n + 1) rc ⟨kind, tokens, ln⟩ s = (.ok (), s1) → lay x s1 = lay x s → Inv rec1 a ms1 s1 → inlineAll d (n + 1) rec1 a ms1 l = some (l'.map content, b, ms') →
        Level (forEach (⟨kind, tokens, ln⟩ :: l) (execStmt d env (n + 1) rc)) (forEach l' (execStmt d env (n + 1) rc)) x (Inv none b ms') s := by
      intro s1 rec1 ms1 e1 e2 e3 e4
      have ih := level_stmts hc hk hn (rc := rc) l l' rec1 a ms1 e4 hx s1 e3
      have e : forEach (⟨kind, tokens, ln⟩ :: l) (execStmt d env (n + 1) rc) s = forEach l (execStmt d env (n + 1) rc) s1 := by rw [forEach_cons, e1]
      refine ⟨?_, ?_⟩ <;> rw [e]
      · rw [← e2]; exact ih.same
      · exact ih.post
    cases kind with
    | label => simp [inlineAll] at h
    | instr =>
      have h : inlineAll d (n + 1) (some (key, params, body ++ [tokens])) a ms l = some (l'.map content, b, ms') := by simpa [inlineAll] using h
      refine silent { s with macros := dset s.macros key { m with body := m.body ++ [⟨.instr, tokens, ln⟩] } } (some (key, params, body ++ [tokens])) ms ?_ rfl ⟨hs.recording, hs.defines, fun k => ?_⟩ h
      · show execInstr d (n + 1) none _ s = _
        rw [execInstr, bind_eq, get_eq]
        have : s.recording = some key := hs.recording
        dsimp only
        conv => lhs; rw [this]
        dsimp only [recordStmt]
        rw [hg]
      · have h0 := hs.macros k
        rw [Option.toList_some, List.singleton_append, List.lookup_cons] at h0 ⊢
        show Agrees (dget (dset s.macros key _) k) _
        rw [dget_dset]
        by_cases hkk : key = k
        · subst hkk
          simp [Agrees, hm1, hm2]
        · have : (k == key) = false := by simpa using fun e => hkk e.symm
          rw [if_neg hkk]
          rw [this] at h0 ⊢
          exact h0
    | directive =>
      cases tokens with
      | nil => simp [inlineAll] at h
      | cons t r =>
        cases h1 : isNamed d t "include" with
        | true => simp [inlineAll, h1] at h
        | false =>
        cases h2 : isNamed d t "macro" with
        | true => simp [inlineAll, h2] at h
        | false =>
        cases h3 : isNamed d t "endmacro" with
        | true =>
          have h : inlineAll d (n + 1) none a ((key, params, body) :: ms) l = some (l'.map content, b, ms') := by simpa [inlineAll, h1, h2, h3] using h
          have ht : IsDirectiveToken d t "endmacro" := by unfold isNamed at h3; exact eq_of_beq h3
          refine silent { s with recording := none } none ((key, params, body) :: ms) ?_ rfl ⟨rfl, hs.defines, hs.macros⟩ h
          rw [execStmt_directive, exec_builtin (p := ("endmacro", fun _ => directiveEndMacro)) (by simp [builtinDirective]) (hn _ (by simp)) ht]
          have : s.recording = some key := hs.recording
          show directiveEndMacro s = _
          unfold directiveEndMacro
          rw [bind_eq, get_eq]
          dsimp only
          rw [this]
          rfl
        | false =>
        cases h4 : isNamed d t "define" with
        | true =>
          match r, h with
          | [w, v], h =>
            have h : inlineAll d (n + 1) (some (key, params, body)) ((replaced a w, replaced a v) :: a) ms l = some (l'.map content, b, ms') := by simpa [inlineAll, h1, h2, h3, h4] using h
            have ht : IsDirectiveToken d t "define" := by unfold isNamed at h4; exact eq_of_beq h4
            refine level_silent (s1 := { s with defines := dset s.defines (replaced a w) (replaced a v) }) ?_ rfl
              (level_stmts hc hk hn l l' _ _ ms h hx _ ⟨hs.recording, hs.defines.set _ _, hs.macros⟩)
            rw [execStmt_directive, exec_builtin (p := ("define", directiveDefine)) (by simp [builtinDirective]) (hn _ (by simp)) ht, tracks_tokens hs.defines]
            rfl
          | [], h => simp [inlineAll, h1, h2, h3, h4] at h
          | [_], h => simp [inlineAll, h1, h2, h3, h4] at h
          | _ :: _ :: _ :: _, h => simp [inlineAll, h1, h2, h3, h4] at h
        | false =>
          have h : (inlineAll d (n + 1) (some (key, params, body)) a ms l).map (fun x => ((Kind.directive, t :: r.map (replaced a)) :: x.1, x.2)) = some (l'.map content, b, ms') := by
            simpa [inlineAll, h1, h2, h3, h4] using h
          cases he : inlineAll d (n + 1) (some (key, params, body)) a ms l with
          | none => rw [he] at h; cases h
          | some y =>
            rw [he] at h
            simp only [Option.map_some, Option.some.injEq, Prod.mk.injEq] at h
            obtain ⟨hy1, hy2⟩ := h
            match l', hy1, hx with
            | [], hy1, _ => simp at hy1
            | st :: l', hy1, hx =>
              simp only [List.map_cons, List.cons.injEq] at hy1
              have hst : st = ⟨.directive, t :: r.map (replaced a), st.line⟩ := by
                obtain ⟨k, ts, ln'⟩ := st
                obtain ⟨e1, e2⟩ := Prod.mk.inj hy1.1
                cases e1
                cases e2
                rfl
              have hx0 := hx st (by simp)
              rw [hst] at hx0
              rw [hst]
              refine level_kept (Q := Inv (some (key, params, body)) a ms) ?_ fun s hs =>
                level_stmts hc hk hn l l' _ a ms (by rw [he, ← hy1.2]; exact congrArg some (Prod.ext rfl hy2)) (fun st hst => hx st (by simp [hst])) s hs
              exact level_execDirective hc hk (by intro w hw; simp only [List.mem_cons, List.not_mem_nil, or_false] at hw; rcases hw with rfl | rfl | rfl | rfl <;> assumption) hs
                fun t ht => hx0 t (by simp [ht])
  | ⟨kind, tokens, ln⟩ :: l, l', none, a, ms, h, hx, s, hs => by
    have silent : ∀ s1 rec1 a1 ms1, execStmt d env (n + 1) rc ⟨kind, tokens, ln⟩ s = (.ok (), s1) → lay x s1 = lay x s → Inv rec1 a1 ms1 s1 → inlineAll d (n + 1) rec1 a1 ms1 l = some (l'.map content, b, ms') →
        Level (forEach (⟨kind, tokens, ln⟩ :: l) (execStmt d env (n + 1) rc)) (forEach l' (execStmt d env (n + 1) rc)) x (Inv none b ms') s := by
      intro s1 rec1 a1 ms1 e1 e2 e3 e4
      have ih := level_stmts hc hk hn (rc := rc) l l' rec1 a1 ms1 e4 hx s1 e3
      have e : forEach (⟨kind, tokens, ln⟩ :: l) (execStmt d env (n + 1) rc) s = forEach l (execStmt d env (n + 1) rc) s1 := by rw [forEach_cons, e1]
      refine ⟨?_, ?_⟩ <;> rw [e]
      · rw [← e2]; exact ih.same
      · exact ih.post
    -- a line that stands for some lines
    have lines : ∀ ys : List (Kind × List Str), (inlineAll d (n + 1) none a ms l).map (fun r => (ys ++ r.1, r.2)) = some (l'.map content, b, ms') →
        (∀ L : List Stmt, L.map content = ys → (∀ st ∈ L, ∀ t ∈ st.tokens, replaced x t = t) →
          Level (execStmt d env (n + 1) rc ⟨kind, tokens, ln⟩) (forEach L (execStmt d env (n + 1) rc)) x (Inv none a ms) s) →
        Level (forEach (⟨kind, tokens, ln⟩ :: l) (execStmt d env (n + 1) rc)) (forEach l' (execStmt d env (n + 1) rc)) x (Inv none b ms') s := by
      intro ys hy hstep
      cases he : inlineAll d (n + 1) none a ms l with
      | none => rw [he] at hy; cases hy
      | some r =>
        rw [he] at hy
        simp only [Option.map_some, Option.some.injEq, Prod.mk.injEq] at hy
        obtain ⟨hy1, hy2⟩ := hy
        obtain ⟨L1, L2, rfl, g1, g2⟩ := List.map_eq_append_iff.1 hy1.symm
        have hall := Level.bind (f := fun _ => forEach l (execStmt d env (n + 1) rc)) (f' := fun _ => forEach L2 (execStmt d env (n + 1) rc)) (Q := Inv none b ms')
          (hstep L1 g1 fun st hst => hx st (by simp [hst])) fun s hs =>
            level_stmts hc hk hn l L2 none a ms (by rw [he, g2]; exact congrArg some (Prod.ext rfl hy2)) (fun st hst => hx st (by simp [hst])) s hs
        have e0 : forEach (⟨kind, tokens, ln⟩ :: l) (execStmt d env (n + 1) rc) s = (execStmt d env (n + 1) rc ⟨kind, tokens, ln⟩ >>= fun _ => forEach l (execStmt d env (n + 1) rc)) s := by
          rw [forEach_cons, bind_eq]
          rcases execStmt d env (n + 1) rc ⟨kind, tokens, ln⟩ s with ⟨_ | _, s'⟩ <;> rfl
        have e1 : forEach (L1 ++ L2) (execStmt d env (n + 1) rc) (lay x s) = (forEach L1 (execStmt d env (n + 1) rc) >>= fun _ => forEach L2 (execStmt d env (n + 1) rc)) (lay x s) := by
          rw [forEach_append, bind_eq]
          rcases forEach L1 (execStmt d env (n + 1) rc) (lay x s) with ⟨_ | _, s'⟩ <;> rfl
        refine ⟨?_, ?_⟩ <;> rw [e0]
        · rw [e1]; exact hall.same
        · exact hall.post
    have single : ∀ y : Kind × List Str, (inlineAll d (n + 1) none a ms l).map (fun r => (y :: r.1, r.2)) = some (l'.map content, b, ms') →
        (∀ ln', (∀ t ∈ y.2, replaced x t = t) → Level (execStmt d env (n + 1) rc ⟨kind, tokens, ln⟩) (execStmt d env (n + 1) rc ⟨y.1, y.2, ln'⟩) x (Inv none a ms) s) →
        Level (forEach (⟨kind, tokens, ln⟩ :: l) (execStmt d env (n + 1) rc)) (forEach l' (execStmt d env (n + 1) rc)) x (Inv none b ms') s := by
      intro y hy hstep
      refine lines [y] hy fun L hL hxL => ?_
      match L, hL, hxL with
      | [], hL, _ => simp at hL
      | _ :: _ :: _, hL, _ => simp at hL
      | [st], hL, hxL =>
        simp only [List.map_cons, List.map_nil, List.cons.injEq, and_true] at hL
        have hst : st = ⟨y.1, y.2, st.line⟩ := by rw [← hL]; rfl
        have hh := hstep st.line (by have := hxL st (by simp); rw [hst] at this; exact this)
        rw [← hst] at hh
        refine ⟨?_, hh.post⟩
        have : forEach [st] (execStmt d env (n + 1) rc) (lay x s) = execStmt d env (n + 1) rc st (lay x s) := by
          rw [forEach_cons]
          rcases execStmt d env (n + 1) rc st (lay x s) with ⟨_ | _, s'⟩ <;> rfl
        rw [this]
        exact hh.same
    cases kind with
    | label =>
      refine single (.label, tokens) (by simpa [inlineAll] using h) fun ln' _ => ?_
      exact level_label d tokens hs
    | instr =>
      cases hw : writeOut d a ms (n + 1) [] tokens with
      | none => simp [inlineAll, hw] at h
      | some out =>
        refine lines (out.map fun ts => (.instr, ts)) (by simpa [inlineAll, hw] using h) fun L hL hxL => ?_
        have hdo := does_writeOut (x := x) (n + 1) [] none ⟨.instr, tokens, ln⟩ out s hw hs.recording hs.defines (fun k _ => by simpa using hs.macros k) (by simp) (by simp) L hL hxL n
        have hkind : ∀ st ∈ L, st.kind = .instr := by
          intro st hst
          have : content st ∈ L.map content := List.mem_map_of_mem hst
          rw [hL] at this
          obtain ⟨ts, -, e⟩ := List.mem_map.1 this
          exact (congrArg Prod.fst e).symm
        refine ⟨by rw [forEach_instr hkind]; exact hdo, fun hok => ?_⟩
        show Inv none a ms (execInstr d (n + 1) none ⟨.instr, tokens, ln⟩ s).2
        refine ⟨recording_execInstr _ _ _ hs.recording, by rw [defines_execInstr]; exact hs.defines, fun k => ?_⟩
        have hok : (execInstr d (n + 1) none ⟨.instr, tokens, ln⟩ s).1 = .ok () := hok
        have htab := execInstr_table d (n + 1) none ⟨.instr, tokens, ln⟩ s _ () hs.recording (Prod.ext hok rfl)
        rw [htab]
        exact hs.macros k
    | directive =>
      cases tokens with
      | nil => simp [inlineAll] at h
      | cons t r =>
        cases h1 : isNamed d t "include" with
        | true => simp [inlineAll, h1] at h
        | false =>
        cases h2 : isNamed d t "endmacro" with
        | true => simp [inlineAll, h2] at h
        | false =>
        cases h3 : isNamed d t "macro" with
        | true =>
          have ht : IsDirectiveToken d t "macro" := by unfold isNamed at h3; exact eq_of_beq h3
          cases hr : r.map (replaced a) with
          | nil => simp [inlineAll, h1, h2, h3, hr] at h
          | cons name params =>
            have h : inlineAll d (n + 1) (some (d.key name, params, [])) a ms l = some (l'.map content, b, ms') := by simpa [inlineAll, h1, h2, h3, hr] using h
            refine silent { s with macros := dset s.macros (d.key name) { args := params }, recording := some (d.key name) } _ _ _ ?_ rfl ⟨rfl, hs.defines, fun k => ?_⟩ h
            · rw [execStmt_directive, exec_builtin (p := ("macro", directiveMacro d)) (by simp [builtinDirective]) (hn _ (by simp)) ht, tracks_tokens hs.defines, hr]
              show directiveMacro d (t :: name :: params) s = _
              unfold directiveMacro
              rw [bind_eq, get_eq]
              have : s.recording = none := hs.recording
              dsimp only
              rw [this]
              rfl
            · have h0 := hs.macros k
              rw [Option.toList_some, List.singleton_append, List.lookup_cons]
              show Agrees (dget (dset s.macros (d.key name) _) k) _
              rw [dget_dset]
              by_cases hkk : d.key name = k
              · subst hkk
                simp [Agrees]
              · have : (k == d.key name) = false := by simpa using fun e => hkk e.symm
                rw [if_neg hkk, this]
                exact h0
        | false =>
        cases h4 : isNamed d t "define" with
        | false =>
          refine single (.directive, t :: r.map (replaced a)) (by simpa [inlineAll, h1, h2, h3, h4] using h) fun ln' hy => ?_
          exact level_execDirective hc hk (by intro w hw; simp only [List.mem_cons, List.not_mem_nil, or_false] at hw; rcases hw with rfl | rfl | rfl | rfl <;> assumption) hs
            fun t ht => hy t (by simp [ht])
        | true =>
          match r, h with
          | [w, v], h =>
            have h : inlineAll d (n + 1) none ((replaced a w, replaced a v) :: a) ms l = some (l'.map content, b, ms') := by simpa [inlineAll, h1, h2, h3, h4] using h
            have ht : IsDirectiveToken d t "define" := by unfold isNamed at h4; exact eq_of_beq h4
            refine silent { s with defines := dset s.defines (replaced a w) (replaced a v) } _ _ _ ?_ rfl ⟨hs.recording, hs.defines.set _ _, hs.macros⟩ h
            rw [execStmt_directive, exec_builtin (p := ("define", directiveDefine)) (by simp [builtinDirective]) (hn _ (by simp)) ht, tracks_tokens hs.defines]
            rfl
          | [], h => simp [inlineAll, h1, h2, h3, h4] at h
          | [_], h => simp [inlineAll, h1, h2, h3, h4] at h
          | _ :: _ :: _ :: _, h => simp [inlineAll, h1, h2, h3, h4] at h

theorem level_sources (hc : CustomAloof d env) (hk : CustomDeaf d env) (hn : ∀ w ∈ ["macro", "endmacro", "define"], d.directives env (d.key w.toList) = none) {n : Nat}
    {fs fs' : List Str} (h : Inlined d env.text (n + 1) x a ms fs fs') : ∀ s : St, Inv none a ms s →
      Level (sourcesM d env (n + 2) fs) (sourcesM d env (n + 2) fs') x (fun s => s.recording = none) s := by
  induction h with
  | nil => exact fun s hs => ⟨rfl, fun _ => hs.recording⟩
  | @cons a b ms ms' f f' fs fs' c c' l l' h1 h2 h3 h4 h5 h6 _ ih =>
    intro s hs
    have one : Level (openFile (env.text f) >>= assemble d env (n + 2)) (openFile (env.text f') >>= assemble d env (n + 2)) x (Inv none b ms') s := by
      rw [h1, h2]
      show Level (assemble d env (n + 2) c) (assemble d env (n + 2) c') x (Inv none b ms') s
      rw [assemble, assemble, h3, h4]
      show Level (execStmts d env (n + 1) (assemble d env (n + 1)) l) (execStmts d env (n + 1) (assemble d env (n + 1)) l') x (Inv none b ms') s
      exact .bind (level_stmts hc hk hn l l' none a ms h5 h6 s hs) fun s hs => .bind ((aloof_finalFill d).level (deaf_finalFill d) hs) fun s hs => aloof_closeSection.level deaf_closeSection hs
    exact .bind one fun s hs => ih s hs

/-- C99: a program with definitions and macros, and the program with both written out, give the same: the same bytes or the same error. -/
theorem C99_inline (tool : Tool) {env : Env} {n : Nat} {sources sources' : List Str} (h : Inlined tool.dialect env.text (n + 1) tool.dialect.defines tool.dialect.defines [] sources sources') :
    build tool.dialect env (n + 2) sources = build tool.dialect env (n + 2) sources' := by
  have hs := level_sources (aloof_tool tool env) (deaf_tool tool env)
    (fun w hw => tool_noOwn tool env w (by simp only [List.mem_cons, List.not_mem_nil, or_false] at hw ⊢; rcases hw with rfl | rfl | rfl <;> simp)) h tool.dialect.init
    ⟨rfl, tracks_refl _, fun k => trivial⟩
  obtain ⟨hs, hrec⟩ := hs
  rw [show lay tool.dialect.defines tool.dialect.init = tool.dialect.init from rfl] at hs
  have main : ∀ names, mainRun tool.dialect env (n + 2) names tool.dialect.init = (sourcesM tool.dialect env (n + 2) names >>= fun _ => link tool.dialect .dummy) tool.dialect.init := fun _ => rfl
  unfold build
  rw [main, main, bind_eq, bind_eq, hs]
  rcases hr : sourcesM tool.dialect env (n + 2) sources tool.dialect.init with ⟨_ | _, s⟩
  · rfl
  · rw [hr] at hrec
    have hrec : s.recording = none := hrec rfl
    dsimp only
    have e : lay tool.dialect.defines s = aside (s.log, s.exports, tool.dialect.defines) [] s := by unfold lay aside; rw [← hrec]
    rw [e, (aloof_link tool .dummy).eq]
    rcases link tool.dialect .dummy s with ⟨_ | _, s'⟩ <;> rfl

/-! ## Cases -/

/-- A check of one pair of sources, to be run. -/
def inlinesTo (d : Dialect) (n : Nat) (own a : List (Str × Str)) (ms : MacroTable) (c c' : Str) (b : List (Str × Str)) (ms' : MacroTable) : Bool :=
  match tokenize c, tokenize c' with
  | .ok l, .ok l' =>
    (match inlineAll d n none a ms l with
      | some (out, b', ms1) => decide (out = l'.map content) && decide (b' = b) && decide (ms1 = ms')
      | none => false) && l'.all fun st => st.tokens.all fun t => replaced own t == t
  | _, _ => false

theorem inlined_of {d : Dialect} {text : Str → Option Str} {n : Nat} {own a b : List (Str × Str)} {ms ms' : MacroTable} {f f' c c' : Str} {fs fs' : List Str} (h1 : text f = some c)
    (h2 : text f' = some c') (h : inlinesTo d n own a ms c c' b ms' = true) (hr : Inlined d text n own b ms' fs fs') : Inlined d text n own a ms (f :: fs) (f' :: fs') := by
  unfold inlinesTo at h
  cases h3 : tokenize c with
  | error e => rw [h3] at h; cases h
  | ok l =>
    cases h4 : tokenize c' with
    | error e => rw [h3, h4] at h; cases h
    | ok l' =>
      rw [h3, h4] at h
      dsimp only at h
      cases h5 : inlineAll d n none a ms l with
      | none => rw [h5] at h; cases h
      | some r =>
        rw [h5] at h
        obtain ⟨out, b', ms1⟩ := r
        simp only [Bool.and_eq_true, decide_eq_true_eq, List.all_eq_true, beq_iff_eq] at h
        obtain ⟨⟨⟨rfl, rfl⟩, rfl⟩, h6⟩ := h
        exact .cons h1 h2 h3 h4 h5 h6 hr

/-- Two sources with macros, one of which calls another, and two without. -/
def macroFiles : Env :=
  { text := fun n =>
      if n = "a.s".toList then some ".define port $20\n.macro put v\nlda #v\nsta port\n.endmacro\n.macro twice v w\nput v\nput w\ninx\n.endmacro\nstart:\ntwice 1 2\n".toList
      else if n = "b.s".toList then some "put 7\njmp start\ntwice port 9\n".toList
      else if n = "a2.s".toList then some "start:\nlda #1\nsta $20\nlda #2\nsta $20\ninx\n".toList
      else if n = "b2.s".toList then some "lda #7\nsta $20\njmp start\nlda #$20\nsta $20\nlda #9\nsta $20\ninx\n".toList
      else none }

/-- A row of the table of macros. -/
def macroRow (name : String) (params : List String) (body : List (List String)) : Str × List Str × List (List Str) :=
  (mos6502.key name.toList, params.map (·.toList), body.map fun l => l.map (·.toList))

/-- The macros of the first source. -/
def macroRows : MacroTable := [macroRow "twice" ["v", "w"] [["put", "v"], ["put", "w"], ["inx"]], macroRow "put" ["v"] [["lda", "#v"], ["sta", "port"]]]

theorem macroFiles_inlined : Inlined mos6502 macroFiles.text 3 mos6502.defines mos6502.defines [] ["a.s".toList, "b.s".toList] ["a2.s".toList, "b2.s".toList] :=
  inlined_of (c := ".define port $20\n.macro put v\nlda #v\nsta port\n.endmacro\n.macro twice v w\nput v\nput w\ninx\n.endmacro\nstart:\ntwice 1 2\n".toList)
    (c' := "start:\nlda #1\nsta $20\nlda #2\nsta $20\ninx\n".toList) (b := [("port".toList, "$20".toList)]) (ms' := macroRows) rfl rfl (by decide +kernel)
    (inlined_of (c := "put 7\njmp start\ntwice port 9\n".toList) (c' := "lda #7\nsta $20\njmp start\nlda #$20\nsta $20\nlda #9\nsta $20\ninx\n".toList)
      (b := [("port".toList, "$20".toList)]) (ms' := macroRows) rfl rfl (by decide +kernel) .nil)

example : build mos6502 macroFiles 4 ["a.s".toList, "b.s".toList] = build mos6502 macroFiles 4 ["a2.s".toList, "b2.s".toList] :=
  C99_inline .mos6502 (n := 2) macroFiles_inlined

example : build mos6502 macroFiles 4 ["a.s".toList, "b.s".toList] = .ok [0xA9, 0x01, 0x85, 0x20, 0xA9, 0x02, 0x85, 0x20, 0xE8, 0xA9, 0x07, 0x85, 0x20, 0x4C, 0x00, 0x00,
    0xA9, 0x20, 0x85, 0x20, 0xA9, 0x09, 0x85, 0x20, 0xE8] := by decide +kernel

/-- A macro that calls itself does not stand for any lines. -/
example : writeOut mos6502 [] [macroRow "again" [] [["again"]]] 9 [] ["again".toList] = none := by decide +kernel

/-- Nor does a call with too few arguments. -/
example : writeOut mos6502 [] macroRows 9 [] ["twice".toList, "1".toList] = none := by decide +kernel

/-- A directive in a macro takes effect once, where the macro is written. -/
def storedFiles : Env :=
  { text := fun n => if n = "a.s".toList then some ".macro step\n.db 1\ninx\n.endmacro\n.db 2\nstep\nstep\n".toList else some ".db 1\n.db 2\ninx\ninx\n".toList }

example : build mos6502 storedFiles 4 ["a.s".toList] = build mos6502 storedFiles 4 ["b.s".toList] :=
  C99_inline .mos6502 (n := 2) (inlined_of (c := ".macro step\n.db 1\ninx\n.endmacro\n.db 2\nstep\nstep\n".toList) (c' := ".db 1\n.db 2\ninx\ninx\n".toList) (b := [])
    (ms' := [macroRow "step" [] [["inx"]]]) rfl rfl (by decide +kernel) .nil)

end Necro
