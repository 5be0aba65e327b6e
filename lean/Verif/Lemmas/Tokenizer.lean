import Verif.Spec.Source

namespace Necro
open Spec

theorem Tk.run_append (t : Tk) (a b : Str) :
    t.run (a ++ b) = match t.run a with | .ok t' => t'.run b | .error e => .error e := by
  induction a generalizing t with
  | nil => rfl
  | cons c a ih =>
    simp only [List.cons_append, Tk.run]
    cases t.next c with
    | error e => rfl
    | ok t' => exact ih t'

theorem Tk.run_snoc (t : Tk) (a : Str) (c : Char) :
    t.run (a ++ [c]) = match t.run a with | .ok t' => t'.next c | .error e => .error e := by
  rw [Tk.run_append]
  cases t.run a with
  | error e => rfl
  | ok t' => simp only [Tk.run]; cases t'.next c <;> rfl

/-- Induction along a successful run. -/
theorem Tk.run_induction (P : Tk → Prop) (hs : ∀ t c t', P t → t.next c = .ok t' → P t')
    {t t' : Tk} {s : Str} (h : t.run s = .ok t') (h0 : P t) : P t' := by
  induction s generalizing t with
  | nil => simp [Tk.run] at h; exact h ▸ h0
  | cons c s ih =>
    simp only [Tk.run] at h
    cases hn : t.next c with
    | error e => rw [hn] at h; simp at h
    | ok t1 => rw [hn] at h; exact ih h (hs t c t1 h0 hn)

/-! ## modes -/

def TState.mode : TState → Mode
  | .token => .code
  | .comment => .comment
  | .string => .str
  | .escString => .strEsc
  | .char => .chr
  | .escChar => .chrEsc

@[simp] theorem Tk.flush_state (t : Tk) : t.flush.state = t.state := by
  unfold Tk.flush; split <;> rfl
@[simp] theorem Tk.flush_stmts (t : Tk) : t.flush.stmts = t.stmts := by
  unfold Tk.flush; split <;> rfl
@[simp] theorem Tk.flush_line (t : Tk) : t.flush.line = t.line := by
  unfold Tk.flush; split <;> rfl
@[simp] theorem Tk.flush_cur (t : Tk) : t.flush.cur = [] := by
  unfold Tk.flush; split <;> rfl
@[simp] theorem Tk.emit_state (t : Tk) : t.emit.state = t.state := by
  unfold Tk.emit; (repeat' split) <;> rfl
@[simp] theorem Tk.emit_cur (t : Tk) : t.emit.cur = t.cur := by
  unfold Tk.emit; (repeat' split) <;> rfl
@[simp] theorem Tk.emit_toks (t : Tk) : t.emit.toks = t.toks := by
  unfold Tk.emit; (repeat' split) <;> rfl
@[simp] theorem Tk.emit_line (t : Tk) : t.emit.line = t.line := by
  unfold Tk.emit; (repeat' split) <;> rfl

theorem Tk.next_mode {t t' : Tk} {c : Char} (h : t.next c = .ok t') :
    t'.state.mode = t.state.mode.next c := by
  have key : ∀ t1, t.step c = .ok t1 → t1.state.mode = t.state.mode.next c := by
    intro t1 h1
    unfold Tk.step at h1
    split at h1 <;> rename_i hst
    · rw [hst]
      simp only [Tk.stepToken] at h1
      split at h1
      · rename_i hsp
        injection h1 with h1; subst h1
        simp only [Tk.spaces]
        simp only [isSpaceTok, Bool.or_eq_true, decide_eq_true_eq] at hsp
        rcases hsp with ((((h|h)|h)|h)|h)|h <;> subst h <;> simp [TState.mode, Mode.next, hst]
      · split at h1
        · rename_i hb
          injection h1 with h1; subst h1
          simp only [isBracket, Bool.or_eq_true, decide_eq_true_eq] at hb
          rcases hb with ((((h|h)|h)|h)|h)|h <;> subst h <;> simp [Tk.brackets, TState.mode, Mode.next, hst]
        · rename_i h1' h2'
          split at h1
          · rename_i hc; subst hc
            simp only [Tk.colon] at h1
            split at h1
            · simp at h1
            · injection h1 with h1; subst h1; simp [TState.mode, Mode.next]
          · split at h1
            · rename_i hc; subst hc; injection h1 with h1; subst h1; simp [TState.mode, Mode.next]
            · split at h1
              · rename_i hc; subst hc; injection h1 with h1; subst h1; simp [TState.mode, Mode.next]
              · injection h1 with h1; subst h1
                simp [isSpaceTok] at h1'
                simp_all [TState.mode, Mode.next]
    · injection h1 with h1; subst h1
      simp only [Tk.stepQuoted, hst]
      split
      · simp_all [TState.mode, Mode.next]
      · split
        · split <;> simp_all [TState.mode, Mode.next]
        · simp_all [TState.mode, Mode.next]
    · injection h1 with h1; subst h1; simp [hst, TState.mode, Mode.next]
    · injection h1 with h1; subst h1
      simp only [Tk.stepQuoted, hst]
      split
      · simp_all [TState.mode, Mode.next]
      · split
        · split <;> simp_all [TState.mode, Mode.next]
        · simp_all [TState.mode, Mode.next]
    · injection h1 with h1; subst h1; simp [hst, TState.mode, Mode.next]
    · split at h1
      · injection h1 with h1; subst h1; simp_all [TState.mode, Mode.next]
      · injection h1 with h1; subst h1; simp_all [TState.mode, Mode.next]
  unfold Tk.next at h
  split at h
  · simp at h
  · rename_i t1 h1
    split at h <;> (injection h with h; subst h; exact key t1 h1)

theorem Tk.run_mode {t t' : Tk} {s : Str} (h : t.run s = .ok t') :
    t'.state.mode = s.foldl Mode.next t.state.mode := by
  induction s generalizing t with
  | nil => simp [Tk.run] at h; simp [h]
  | cons c s ih =>
    simp only [Tk.run] at h
    cases hn : t.next c with
    | error e => rw [hn] at h; simp at h
    | ok t1 => rw [hn] at h; rw [ih h, Tk.next_mode hn]; rfl

theorem mode_code {s : TState} : s.mode = .code ↔ s = .token := by cases s <;> simp [TState.mode]
theorem mode_comment {s : TState} : s.mode = .comment ↔ s = .comment := by cases s <;> simp [TState.mode]

/-! ## lines -/

theorem Tk.step_line {t t' : Tk} {c : Char} (h : t.step c = .ok t') : t'.line = t.line := by
  unfold Tk.step at h
  split at h
  · simp only [Tk.stepToken, Tk.spaces, Tk.brackets, Tk.colon] at h
    (repeat' split at h) <;> (first | (injection h with h; subst h; simp) | simp at h)
  · injection h with h; subst h; simp only [Tk.stepQuoted]; (repeat' split) <;> rfl
  · injection h with h; subst h; rfl
  · injection h with h; subst h; simp only [Tk.stepQuoted]; (repeat' split) <;> rfl
  · injection h with h; subst h; rfl
  · split at h <;> (injection h with h; subst h; rfl)

theorem Tk.next_line {t t' : Tk} {c : Char} (h : t.next c = .ok t') :
    t'.line = t.line + newlines [c] := by
  unfold Tk.next at h
  split at h
  · simp at h
  · rename_i t1 h1
    have := Tk.step_line h1
    split at h <;> (injection h with h; subst h; simp_all [newlines])

theorem newlines_append (a b : Str) : newlines (a ++ b) = newlines a + newlines b := by
  simp [newlines]

theorem newlines_cons (c : Char) (b : Str) : newlines (c :: b) = newlines [c] + newlines b := by
  rw [← newlines_append]; rfl

theorem Tk.run_line {t t' : Tk} {s : Str} (h : t.run s = .ok t') :
    t'.line = t.line + newlines s := by
  induction s generalizing t with
  | nil => simp [Tk.run] at h; simp [h, newlines]
  | cons c s ih =>
    simp only [Tk.run] at h
    cases hn : t.next c with
    | error e => rw [hn] at h; simp at h
    | ok t1 => rw [hn] at h; rw [ih h, Tk.next_line hn, newlines_cons c s]; omega

/-! ## comments hold nothing pending -/

def Tk.CommentClean (t : Tk) : Prop := t.state = .comment → t.cur = [] ∧ t.toks = []

theorem Tk.next_commentClean {t t' : Tk} {c : Char} (h0 : t.CommentClean) (h : t.next c = .ok t') :
    t'.CommentClean := by
  have key : ∀ t1, t.step c = .ok t1 → t1.CommentClean := by
    intro t1 h1
    unfold Tk.step at h1
    split at h1 <;> rename_i hst
    · simp only [Tk.stepToken, Tk.spaces, Tk.brackets, Tk.colon] at h1
      (repeat' split at h1) <;>
        (first | (injection h1 with h1; subst h1; intro hc; simp_all) | simp at h1)
    · injection h1 with h1; subst h1; intro hc; simp only [Tk.stepQuoted] at hc
      (repeat' split at hc) <;> simp_all
    · injection h1 with h1; subst h1; intro hc; simp at hc
    · injection h1 with h1; subst h1; intro hc; simp only [Tk.stepQuoted] at hc
      (repeat' split at hc) <;> simp_all
    · injection h1 with h1; subst h1; intro hc; simp at hc
    · split at h1
      · injection h1 with h1; subst h1; intro hc; simp at hc
      · injection h1 with h1; subst h1; exact h0
  unfold Tk.next at h
  split at h
  · simp at h
  · rename_i t1 h1
    split at h <;> (injection h with h; subst h; exact key t1 h1)

theorem Tk.run_commentClean {t t' : Tk} {s : Str} (h0 : t.CommentClean) (h : t.run s = .ok t') :
    t'.CommentClean :=
  Tk.run_induction Tk.CommentClean (fun _ _ _ h0 h => Tk.next_commentClean h0 h) h h0

/-! ## shifting -/

def shiftStmt (k : Nat) (s : Stmt) : Stmt := { s with line := s.line + k }

def shiftErr (k : Nat) : Err → Err
  | .tokenizerInvalidLabel l => .tokenizerInvalidLabel (l + k)
  | e => e

/-- The tokenizer as if `p` had been produced before and `k` lines had been read. -/
def Tk.shift (p : List Stmt) (k : Nat) (t : Tk) : Tk :=
  { t with stmts := p ++ t.stmts.map (shiftStmt k), line := t.line + k }

def exShift (p : List Stmt) (k : Nat) : Except Err Tk → Except Err Tk
  | .ok t => .ok (t.shift p k)
  | .error e => .error (shiftErr k e)

theorem Tk.flush_shift (p k) (t : Tk) : (t.shift p k).flush = t.flush.shift p k := by
  obtain ⟨st, cur, stmts, toks, line⟩ := t
  by_cases h : cur = [] <;> simp [Tk.flush, Tk.shift, h]

theorem Tk.emit_shift (p k) (t : Tk) : (t.shift p k).emit = t.emit.shift p k := by
  obtain ⟨st, cur, stmts, toks, line⟩ := t
  cases toks with
  | nil => rfl
  | cons x xs =>
    by_cases h : startsWith x ['.'] = true <;> simp [Tk.emit, Tk.shift, h, shiftStmt]

theorem Tk.spaces_shift (p k) (t : Tk) (c : Char) : (t.shift p k).spaces c = (t.spaces c).shift p k := by
  simp only [Tk.spaces, Tk.flush_shift, Tk.emit_shift]
  split
  · split <;> rfl
  · rfl

theorem Tk.brackets_shift (p k) (t : Tk) (c : Char) : (t.shift p k).brackets c = (t.brackets c).shift p k := by
  simp only [Tk.brackets, Tk.flush_shift]; rfl

theorem Tk.colon_shift (p k) (t : Tk) : (t.shift p k).colon = exShift p k t.colon := by
  simp only [Tk.colon, Tk.flush_shift]
  by_cases h : t.toks = []
  · have : (t.shift p k).toks = [] := h
    simp [h, this, exShift, Tk.shift, shiftStmt]
  · have : (t.shift p k).toks ≠ [] := h
    simp [h, this, exShift, Tk.shift, shiftErr]

theorem Tk.stepQuoted_shift (p k) (t : Tk) (q : Char) (e : TState) (c : Char) :
    (t.shift p k).stepQuoted q e c = (t.stepQuoted q e c).shift p k := by
  obtain ⟨st, cur, stmts, toks, line⟩ := t
  simp only [Tk.stepQuoted, Tk.shift]
  by_cases h : cur = [] <;> simp only [h, ne_eq, not_true, not_false_eq_true, if_true, if_false] <;>
    (repeat' split) <;> rfl

theorem Tk.stepToken_shift (p k) (t : Tk) (c : Char) :
    (t.shift p k).stepToken c = exShift p k (t.stepToken c) := by
  simp only [Tk.stepToken, Tk.spaces_shift, Tk.brackets_shift, Tk.colon_shift, Tk.flush_shift]
  (repeat' split) <;> rfl

theorem Tk.step_shift (p k) (t : Tk) (c : Char) : (t.shift p k).step c = exShift p k (t.step c) := by
  have hs : (t.shift p k).state = t.state := rfl
  unfold Tk.step
  rw [hs]
  split
  · exact Tk.stepToken_shift p k t c
  · rw [Tk.stepQuoted_shift]; rfl
  · rfl
  · rw [Tk.stepQuoted_shift]; rfl
  · rfl
  · split <;> rfl

theorem Tk.next_shift (p k) (t : Tk) (c : Char) : (t.shift p k).next c = exShift p k (t.next c) := by
  simp only [Tk.next, Tk.step_shift]
  cases t.step c with
  | error e => rfl
  | ok t1 =>
    simp only [exShift]
    split
    · simp [exShift, Tk.shift]; omega
    · rfl

theorem Tk.run_shift (p k) (t : Tk) (s : Str) : (t.shift p k).run s = exShift p k (t.run s) := by
  induction s generalizing t with
  | nil => rfl
  | cons c s ih =>
    simp only [Tk.run, Tk.next_shift]
    cases t.next c with
    | error e => rfl
    | ok t1 => exact ih t1

/-- After a line feed read outside a literal nothing is pending. -/
theorem Tk.next_newline {t t' : Tk} (hc : t.CommentClean) (hm : t.state = .token ∨ t.state = .comment)
    (h : t.next '\n' = .ok t') : t'.state = .token ∧ t'.cur = [] ∧ t'.toks = [] := by
  unfold Tk.next Tk.step at h
  rcases hm with hm | hm
  · rw [hm] at h
    simp [Tk.stepToken, isSpaceTok, Tk.spaces] at h
    subst h; simp
  · rw [hm] at h
    have := hc hm
    simp at h
    subst h; simp [this]

/-- A newline outside literals never fails. -/
theorem Tk.next_newline_ok {t : Tk} (hm : t.state = .token ∨ t.state = .comment) :
    ∃ t', t.next '\n' = .ok t' := by
  unfold Tk.next Tk.step
  rcases hm with hm | hm <;> rw [hm] <;> simp [Tk.stepToken, isSpaceTok]

theorem clean_eq_shift (t : Tk) (h1 : t.state = .token) (h2 : t.cur = []) (h3 : t.toks = []) (hl : 1 ≤ t.line) :
    t = ({} : Tk).shift t.stmts (t.line - 1) := by
  obtain ⟨st, cur, stmts, toks, line⟩ := t
  simp at h1 h2 h3 hl
  subst h1 h2 h3
  simp [Tk.shift]; omega

theorem closed_state {t : Tk} {a : Str} (h : ({} : Tk).run a = .ok t) (hc : Closed a) :
    t.state = .token ∨ t.state = .comment := by
  have := Tk.run_mode h
  have e : ({} : Tk).state.mode = .code := rfl
  rw [e] at this
  rcases hc with hc | hc
  · left; rw [← mode_code, this]; exact hc
  · right; rw [← mode_comment, this]; exact hc

theorem init_commentClean : ({} : Tk).CommentClean := by intro h; simp at h

end Necro

namespace Necro
open Spec

/-! ## runs over separators and comments -/

theorem Tk.flush_flush (t : Tk) : t.flush.flush = t.flush := by
  obtain ⟨st, cur, stmts, toks, line⟩ := t
  by_cases h : cur = [] <;> simp [Tk.flush, h]

theorem Tk.flush_of_cur {t : Tk} (h : t.cur = []) : t.flush = t := by
  obtain ⟨st, cur, stmts, toks, line⟩ := t
  simp at h; subst h; simp [Tk.flush]

theorem Tk.next_sep {t : Tk} {c : Char} (ht : t.state = .token) (hc : isSep c = true) :
    t.next c = .ok t.flush := by
  simp only [isSep, Bool.or_eq_true, beq_iff_eq] at hc
  rcases hc with (h | h) | h <;> subst h <;>
    simp [Tk.next, Tk.step, ht, Tk.stepToken, isSpaceTok, Tk.spaces]

theorem Tk.run_seps {t : Tk} (ht : t.state = .token) (s : Str) (hs : ∀ c ∈ s, isSep c = true)
    (hne : s ≠ []) : t.run s = .ok t.flush := by
  induction s generalizing t with
  | nil => exact absurd rfl hne
  | cons c s ih =>
    simp only [Tk.run, Tk.next_sep ht (hs c (by simp))]
    by_cases h : s = []
    · subst h; rfl
    · rw [ih (by simpa using ht) (fun c hc => hs c (by simp [hc])) h, Tk.flush_flush]

theorem Tk.next_comment {t : Tk} {c : Char} (ht : t.state = .comment) (hc : c ≠ '\n' ∧ c ≠ '\r') :
    t.next c = .ok t := by
  simp [Tk.next, Tk.step, ht, hc]

theorem Tk.run_comment {t : Tk} (ht : t.state = .comment) (s : Str)
    (hs : ∀ c ∈ s, c ≠ '\n' ∧ c ≠ '\r') : t.run s = .ok t := by
  induction s with
  | nil => rfl
  | cons c s ih =>
    simp only [Tk.run, Tk.next_comment ht (hs c (by simp))]
    exact ih (fun c hc => hs c (by simp [hc]))

theorem Tk.next_newline_flush {t : Tk} (ht : t.state = .token) : t.flush.next '\n' = t.next '\n' := by
  simp [Tk.next, Tk.step, ht, Tk.stepToken, isSpaceTok, Tk.spaces, Tk.flush_flush]

theorem Tk.run_comment_newline {t : Tk} (hc : t.CommentClean) (ht : t.state = .token ∨ t.state = .comment)
    (s b : Str) (hs : ∀ c ∈ s, c ≠ '\n' ∧ c ≠ '\r') :
    t.run (';' :: s ++ '\n' :: b) = t.run ('\n' :: b) := by
  rcases ht with ht | ht
  · have h1 : t.next ';' = .ok { t.flush.emit with toks := [], state := .comment } := by
      simp [Tk.next, Tk.step, ht, Tk.stepToken, isSpaceTok, Tk.spaces]
    have h2 : t.next '\n' = .ok { t.flush.emit with toks := [], state := .token, line := t.line + 1 } := by
      simp [Tk.next, Tk.step, ht, Tk.stepToken, isSpaceTok, Tk.spaces]
    simp only [List.cons_append, Tk.run, h1, h2]
    rw [Tk.run_append, Tk.run_comment (by rfl) s hs]
    simp [Tk.run, Tk.next, Tk.step]
  · rw [Tk.run_append, Tk.run_comment ht (';' :: s) (by
      intro c hc; simp at hc; rcases hc with h | h
      · subst h; decide
      · exact hs c h)]

theorem Tk.run_blanks_newline {t : Tk} (ht : t.state = .token ∨ t.state = .comment)
    (s b : Str) (hs : ∀ c ∈ s, isSep c = true) :
    t.run (s ++ '\n' :: b) = t.run ('\n' :: b) := by
  by_cases hne : s = []
  · subst hne; rfl
  rcases ht with ht | ht
  · rw [Tk.run_append, Tk.run_seps ht s hs hne]
    simp only [Tk.run, Tk.next_newline_flush ht]
  · rw [Tk.run_append, Tk.run_comment ht s (by
      intro c hc; have := hs c hc
      simp only [isSep, Bool.or_eq_true, beq_iff_eq] at this
      rcases this with (h | h) | h <;> subst h <;> decide)]

theorem run_init_cases (a : Str) : (∃ t, ({} : Tk).run a = .ok t) ∨ ∃ e, ({} : Tk).run a = .error e := by
  cases h : ({} : Tk).run a with
  | ok t => exact .inl ⟨t, rfl⟩
  | error e => exact .inr ⟨e, rfl⟩

theorem tokenize_congr (a b b' : Str)
    (h : ∀ t, ({} : Tk).run a = .ok t → t.run (b ++ ['\n']) = t.run (b' ++ ['\n'])) :
    tokenize (a ++ b) = tokenize (a ++ b') := by
  unfold tokenize
  rw [List.append_assoc, List.append_assoc, Tk.run_append, Tk.run_append]
  cases ha : ({} : Tk).run a with
  | error e => rfl
  | ok t => simp only [h t ha]

/-! ## emission -/

theorem Tk.emit_stmts (t : Tk) : t.emit.stmts = t.stmts ∧ t.toks = [] ∨
    ∃ st : Stmt, t.emit.stmts = t.stmts ++ [st] ∧ st.line = t.line ∧ st.tokens = t.toks ∧ t.toks ≠ [] ∧
      st.kind ≠ .label ∧ (st.kind = .directive ↔ ∃ tok, t.toks.head? = some tok ∧ tok.head? = some '.') := by
  unfold Tk.emit
  split
  · rename_i h; exact .inl ⟨rfl, h⟩
  · rename_i tok rest h
    right
    split
    · rename_i hs
      refine ⟨_, rfl, rfl, rfl, by simp [h], by simp, ?_⟩
      simp only [h, List.head?_cons, true_iff]
      refine ⟨tok, rfl, ?_⟩
      cases tok with
      | nil => simp [startsWith] at hs
      | cons x xs => simp [startsWith] at hs; simp [← hs]
    · rename_i hs
      refine ⟨_, rfl, rfl, rfl, by simp [h], by simp, ?_⟩
      simp only [h, List.head?_cons, reduceCtorEq, false_iff]
      rintro ⟨tok', e, h'⟩
      injection e with e; subst e
      apply hs
      cases tok with
      | nil => simp at h'
      | cons x xs => simp at h'; subst h'; simp [startsWith]

/-- One character produces at most one statement, on the current line. -/
theorem Tk.next_stmts {t t' : Tk} {c : Char} (h : t.next c = .ok t') :
    t'.stmts = t.stmts ∨ ∃ st : Stmt, t'.stmts = t.stmts ++ [st] ∧ st.line = t.line ∧
      (c = '\n' ∨ c = '\r' ∨ c = ';' ∨ c = ':') := by
  have key : ∀ t1, t.step c = .ok t1 → t1.stmts = t.stmts ∨
      ∃ st : Stmt, t1.stmts = t.stmts ++ [st] ∧ st.line = t.line ∧
      (c = '\n' ∨ c = '\r' ∨ c = ';' ∨ c = ':') := by
    intro t1 h1
    unfold Tk.step at h1
    split at h1 <;> rename_i hst
    · simp only [Tk.stepToken] at h1
      split at h1
      · injection h1 with h1; subst h1
        simp only [Tk.spaces]
        split
        · rename_i hc
          have hcc : c = '\n' ∨ c = '\r' ∨ c = ';' ∨ c = ':' := by
            rcases hc with h | h | h <;> simp [h]
          rcases Tk.emit_stmts t.flush with ⟨h, _⟩ | ⟨st, h1, h2, _⟩
          · left; split <;> simpa using h
          · right; refine ⟨st, ?_, by simpa using h2, hcc⟩
            split <;> simpa using h1
        · left; simp
      · split at h1
        · injection h1 with h1; subst h1; left; simp [Tk.brackets]
        · split at h1
          · rename_i hc
            simp only [Tk.colon] at h1
            split at h1
            · simp at h1
            · injection h1 with h1; subst h1
              right; exact ⟨_, by simp; rfl, by simp, by simp [hc]⟩
          · split at h1
            · injection h1 with h1; subst h1; left; simp
            · split at h1 <;> (injection h1 with h1; subst h1; left; simp)
    · injection h1 with h1; subst h1; left; simp only [Tk.stepQuoted]; (repeat' split) <;> rfl
    · injection h1 with h1; subst h1; left; rfl
    · injection h1 with h1; subst h1; left; simp only [Tk.stepQuoted]; (repeat' split) <;> rfl
    · injection h1 with h1; subst h1; left; rfl
    · split at h1 <;> (injection h1 with h1; subst h1; left; rfl)
  unfold Tk.next at h
  split at h
  · simp at h
  · rename_i t1 h1
    split at h <;> (injection h with h; subst h; exact key t1 h1)

theorem snoc_induction {P : Str → Prop} (h0 : P []) (hs : ∀ s c, P s → P (s ++ [c])) (s : Str) : P s := by
  have : ∀ r : Str, P r.reverse := by
    intro r
    induction r with
    | nil => exact h0
    | cons c r ih => rw [List.reverse_cons]; exact hs _ _ ih
  have := this s.reverse
  simpa using this

theorem Tk.run_emission (s : Str) : ∀ (t : Tk), ({} : Tk).run s = .ok t → ∀ (i : Nat) (st : Stmt), t.stmts[i]? = some st →
    ∃ pre c post t0 t1, s = pre ++ c :: post ∧ ({} : Tk).run pre = .ok t0 ∧
      ({} : Tk).run (pre ++ [c]) = .ok t1 ∧ t0.stmts = t.stmts.take i ∧ t1.stmts = t.stmts.take (i + 1) ∧
      st.line = 1 + newlines pre ∧ (c = '\n' ∨ c = '\r' ∨ c = ';' ∨ c = ':') := by
  induction s using snoc_induction with
  | h0 => intro t h i st hi; simp [Tk.run] at h; subst h; simp at hi
  | hs s c ih =>
    intro t' h i st hi
    rw [Tk.run_snoc] at h
    cases hr : ({} : Tk).run s with
    | error e => rw [hr] at h; simp at h
    | ok t =>
      rw [hr] at h
      have old : ∀ x, t'.stmts = t.stmts ++ x → t.stmts[i]? = some st →
          ∃ pre c' post t0 t1, s ++ [c] = pre ++ c' :: post ∧ ({} : Tk).run pre = .ok t0 ∧
            ({} : Tk).run (pre ++ [c']) = .ok t1 ∧ t0.stmts = t'.stmts.take i ∧
            t1.stmts = t'.stmts.take (i + 1) ∧ st.line = 1 + newlines pre ∧
            (c' = '\n' ∨ c' = '\r' ∨ c' = ';' ∨ c' = ':') := by
        intro x hx hi'
        obtain ⟨pre, c', post, t0, t1, h1, h2, h3, h4, h5, h6⟩ := ih t hr i st hi'
        have hlt : i < t.stmts.length := by
          rw [List.getElem?_eq_some_iff] at hi'; exact hi'.1
        refine ⟨pre, c', post ++ [c], t0, t1, by simp [h1], h2, h3, ?_, ?_, h6⟩
        · rw [h4, hx, List.take_append_of_le_length (by omega)]
        · rw [h5, hx, List.take_append_of_le_length (by omega)]
      rcases Tk.next_stmts h with he | ⟨st', he, hl, hc⟩
      · exact old [] (by simp [he]) (by rw [← he]; exact hi)
      · by_cases hlt : i < t.stmts.length
        · exact old [st'] he (by rw [he, List.getElem?_append_left hlt] at hi; exact hi)
        · have hi2 : i = t.stmts.length := by
            rw [he, List.getElem?_eq_some_iff] at hi
            obtain ⟨h1, _⟩ := hi
            simp at h1; omega
          subst hi2
          rw [he] at hi
          simp at hi
          subst hi
          refine ⟨s, c, [], t, t', rfl, hr, ?_, ?_, ?_, ?_, hc⟩
          · rw [Tk.run_snoc, hr]; exact h
          · rw [he]; simp
          · rw [he, List.take_of_length_le (by simp)]
          · have := Tk.run_line hr
            rw [hl, this]

/-! ## token shapes -/

theorem plainChar_of_step {c : Char} (h1 : isSpaceTok c = false) (h2 : isBracket c = false)
    (h3 : c ≠ ':') (h4 : c ≠ '"') (h5 : c ≠ '\'') : plainChar c = true := by
  simp [isSpaceTok, isBracket] at h1 h2
  simp [plainChar]
  simp_all

/-- Everything pending in the tokenizer. -/
def Tk.Shaped (t : Tk) : Prop :=
  (t.state = .token → ∀ c ∈ t.cur, plainChar c = true) ∧
  (t.state = .comment → t.cur = [])  ∧
  (∀ tok ∈ t.toks, TokenShape tok) ∧
  ∀ s ∈ t.stmts, (∀ tok ∈ s.tokens, TokenShape tok) ∧
    (s.kind = .label → s.tokens.length ≤ 1 ∧ ∀ tok ∈ s.tokens, ∀ c ∈ tok, plainChar c = true) ∧
    (s.kind ≠ .label → ∃ tok rest, s.tokens = tok :: rest ∧
      (s.kind = .directive ↔ tok.head? = some '.'))

theorem Tk.flush_shaped {t : Tk} (h : t.Shaped) (ht : t.state = .token) : t.flush.Shaped := by
  obtain ⟨h1, h2, h3, h4⟩ := h
  have hc := h1 ht
  unfold Tk.flush
  split
  · rename_i hne
    refine ⟨by simp, by simp, ?_, h4⟩
    intro tok htok
    simp at htok
    rcases htok with htok | htok
    · exact h3 tok htok
    · subst htok; exact .plain _ hne hc
  · exact ⟨by simp, by simp, h3, h4⟩

theorem Tk.emit_shaped {t : Tk} (h : t.Shaped) : t.emit.Shaped := by
  obtain ⟨h1, h2, h3, h4⟩ := h
  refine ⟨by simpa using h1, by simpa using h2, by simpa using h3, ?_⟩
  rcases Tk.emit_stmts t with ⟨h, _⟩ | ⟨st, e, _, etok, hne, hk, hd⟩
  · rw [h]; exact h4
  · rw [e]
    intro s hs
    simp at hs
    rcases hs with hs | hs
    · exact h4 s hs
    · subst hs
      refine ⟨by rw [etok]; exact h3, fun h => absurd h hk, fun _ => ?_⟩
      cases htk : t.toks with
      | nil => exact absurd htk hne
      | cons tok rest =>
        refine ⟨tok, rest, by rw [etok, htk], ?_⟩
        rw [hd, htk]
        simp

theorem Tk.next_shaped {t t' : Tk} {c : Char} (h0 : t.Shaped) (h : t.next c = .ok t') : t'.Shaped := by
  have key : ∀ t1, t.step c = .ok t1 → t1.Shaped := by
    intro t1 h1
    unfold Tk.step at h1
    split at h1 <;> rename_i hst
    · have hf := Tk.flush_shaped h0 hst
      simp only [Tk.stepToken] at h1
      split at h1
      · injection h1 with h1; subst h1
        simp only [Tk.spaces]
        have he := Tk.emit_shaped hf
        split
        · split <;> exact ⟨by simp, by simp, by simp, he.2.2.2⟩
        · exact hf
      · split at h1
        · rename_i hb
          injection h1 with h1; subst h1
          refine ⟨by simp [Tk.brackets], by simp [Tk.brackets], ?_, hf.2.2.2⟩
          intro tok htok
          simp [Tk.brackets] at htok
          rcases htok with htok | htok
          · exact hf.2.2.1 tok htok
          · subst htok
            refine .bracket c ?_
            simp [isBracket] at hb
            simp
            rcases hb with ((((h | h) | h) | h) | h) | h <;> simp [h]
        · split at h1
          · simp only [Tk.colon] at h1
            split at h1
            · simp at h1
            · rename_i htoks
              injection h1 with h1; subst h1
              refine ⟨by simp, by simp, by simp, ?_⟩
              intro s hs
              simp only [List.mem_append, List.mem_singleton] at hs
              rcases hs with hs | hs
              · exact hf.2.2.2 s hs
              · subst hs
                have htoks' : t.toks = [] := by simpa using htoks
                refine ⟨hf.2.2.1, ?_, by simp⟩
                intro _
                unfold Tk.flush
                split
                · simp only [htoks', List.nil_append, List.length_singleton, Nat.le_refl, true_and,
                    List.mem_singleton, forall_eq]
                  exact h0.1 hst
                · simp [htoks']
          · split at h1
            · injection h1 with h1; subst h1; exact ⟨by simp, by simp, hf.2.2.1, hf.2.2.2⟩
            · split at h1
              · injection h1 with h1; subst h1; exact ⟨by simp, by simp, hf.2.2.1, hf.2.2.2⟩
              · injection h1 with h1; subst h1
                refine ⟨?_, by simp [hst], h0.2.2.1, h0.2.2.2⟩
                intro _ x hx
                simp at hx
                rcases hx with hx | hx
                · exact h0.1 hst x hx
                · subst hx
                  apply plainChar_of_step <;> simp_all
    · injection h1 with h1; subst h1
      simp only [Tk.stepQuoted]
      split
      · exact ⟨by simp, by simp, h0.2.2.1, h0.2.2.2⟩
      · split
        · rename_i hc
          refine ⟨by simp, by simp, ?_, ?_⟩
          · split
            · rename_i hne
              intro tok htok
              simp only [List.mem_append, List.mem_singleton] at htok
              rcases htok with htok | htok
              · exact h0.2.2.1 tok htok
              · subst htok; exact .str t.cur hne
            · exact h0.2.2.1
          · split <;> exact h0.2.2.2
        · exact ⟨by simp [hst], by simp [hst], h0.2.2.1, h0.2.2.2⟩
    · injection h1 with h1; subst h1; exact ⟨by simp, by simp, h0.2.2.1, h0.2.2.2⟩
    · injection h1 with h1; subst h1
      simp only [Tk.stepQuoted]
      split
      · exact ⟨by simp, by simp, h0.2.2.1, h0.2.2.2⟩
      · split
        · rename_i hc
          refine ⟨by simp, by simp, ?_, ?_⟩
          · split
            · rename_i hne
              intro tok htok
              simp only [List.mem_append, List.mem_singleton] at htok
              rcases htok with htok | htok
              · exact h0.2.2.1 tok htok
              · subst htok; exact .chr t.cur hne
            · exact h0.2.2.1
          · split <;> exact h0.2.2.2
        · exact ⟨by simp [hst], by simp [hst], h0.2.2.1, h0.2.2.2⟩
    · injection h1 with h1; subst h1; exact ⟨by simp, by simp, h0.2.2.1, h0.2.2.2⟩
    · have := h0.2.1 hst
      split at h1
      · injection h1 with h1; subst h1; exact ⟨by simp [this], by simp, h0.2.2.1, h0.2.2.2⟩
      · injection h1 with h1; subst h1; exact h0
  unfold Tk.next at h
  split at h
  · simp at h
  · rename_i t1 h1
    split at h <;> (injection h with h; subst h; exact key t1 h1)

theorem init_shaped : ({} : Tk).Shaped := by
  refine ⟨by simp, by simp, by simp, by simp⟩

/-! ## literals that never close -/

/-- Inside a literal only `cur`, `state` and `line` move. -/
theorem Tk.next_literal {t : Tk} {c : Char}
    (ht : t.state = .string ∨ t.state = .escString ∨ t.state = .char ∨ t.state = .escChar) :
    ∃ t', t.next c = .ok t' ∧ t'.stmts = t.stmts := by
  rcases ht with ht | ht | ht | ht <;> simp only [Tk.next, Tk.step, ht, Tk.stepQuoted] <;>
    (repeat' split) <;> refine ⟨_, rfl, ?_⟩ <;> (try split) <;> rfl

theorem mode_literal {s : TState} (h1 : s.mode ≠ .code) (h2 : s.mode ≠ .comment) :
    s = .string ∨ s = .escString ∨ s = .char ∨ s = .escChar := by
  cases s <;> simp_all [TState.mode]

/-! ## writing and reading back -/

theorem plainChar_step {t : Tk} {c : Char} (ht : t.state = .token) (hc : plainChar c = true) :
    t.next c = .ok { t with cur := t.cur ++ [c] } := by
  simp [plainChar] at hc
  simp [Tk.next, Tk.step, ht, Tk.stepToken, isSpaceTok, isBracket, hc]

theorem run_plain {t : Tk} (ht : t.state = .token) (s : Str) (hs : ∀ c ∈ s, plainChar c = true) :
    t.run s = .ok { t with cur := t.cur ++ s } := by
  induction s generalizing t with
  | nil => simp [Tk.run]
  | cons c s ih =>
    simp only [Tk.run, plainChar_step ht (hs c (by simp))]
    rw [ih (t := { t with cur := t.cur ++ [c] }) ht (fun c hc => hs c (by simp [hc]))]
    simp

theorem run_str_body {t : Tk} (ht : t.state = .string) (b : Str) :
    t.run (escape '"' b) = .ok { t with cur := t.cur ++ b, line := t.line + newlines (escape '"' b) } := by
  induction b generalizing t with
  | nil => simp [Tk.run, escape, newlines]
  | cons c b ih =>
    simp only [escape]
    split
    · rename_i h
      have h1 : t.next '\\' = .ok { t with state := .escString } := by
        simp [Tk.next, Tk.step, ht, Tk.stepQuoted]
      have hn : c ≠ '\n' := by rcases h with h | h <;> subst h <;> decide
      have h2 : ({ t with state := .escString } : Tk).next c = .ok { t with cur := t.cur ++ [c], state := .string } := by
        simp [Tk.next, Tk.step, hn]
      simp only [Tk.run, h1, h2]
      rw [ih rfl]
      simp [newlines, hn, ht, List.count_cons]
    · rename_i h
      have h1 : t.next c = .ok { t with cur := t.cur ++ [c], line := t.line + newlines [c] } := by
        have : c ≠ '"' ∧ c ≠ '\\' := by
          constructor <;> (intro e; exact h (by simp [e]))
        by_cases hn : c = '\n'
        · subst hn; simp [Tk.next, Tk.step, ht, Tk.stepQuoted, newlines]
        · simp [Tk.next, Tk.step, ht, Tk.stepQuoted, newlines, hn, this, List.count_cons]
      simp only [Tk.run, h1]
      rw [ih (t := { t with cur := t.cur ++ [c], line := t.line + newlines [c] }) ht, newlines_cons c (escape '"' b)]
      simp; omega

theorem run_chr_body {t : Tk} (ht : t.state = .char) (b : Str) :
    t.run (escape '\'' b) = .ok { t with cur := t.cur ++ b, line := t.line + newlines (escape '\'' b) } := by
  induction b generalizing t with
  | nil => simp [Tk.run, escape, newlines]
  | cons c b ih =>
    simp only [escape]
    split
    · rename_i h
      have h1 : t.next '\\' = .ok { t with state := .escChar } := by
        simp [Tk.next, Tk.step, ht, Tk.stepQuoted]
      have hn : c ≠ '\n' := by rcases h with h | h <;> subst h <;> decide
      have h2 : ({ t with state := .escChar } : Tk).next c = .ok { t with cur := t.cur ++ [c], state := .char } := by
        simp [Tk.next, Tk.step, hn]
      simp only [Tk.run, h1, h2]
      rw [ih rfl]
      simp [newlines, hn, ht, List.count_cons]
    · rename_i h
      have h1 : t.next c = .ok { t with cur := t.cur ++ [c], line := t.line + newlines [c] } := by
        have : c ≠ '\'' ∧ c ≠ '\\' := by
          constructor <;> (intro e; exact h (by simp [e]))
        by_cases hn : c = '\n'
        · subst hn; simp [Tk.next, Tk.step, ht, Tk.stepQuoted, newlines]
        · simp [Tk.next, Tk.step, ht, Tk.stepQuoted, newlines, hn, this, List.count_cons]
      simp only [Tk.run, h1]
      rw [ih (t := { t with cur := t.cur ++ [c], line := t.line + newlines [c] }) ht, newlines_cons c (escape '\'' b)]
      simp; omega

/-- Reading one written token. -/
theorem run_tok {t : Tk} (ht : t.state = .token) (hc : t.cur = []) (k : Tok) (hk : k.WF) :
    ∃ t', t.run k.render = .ok t' ∧ t'.state = .token ∧
      t'.flush = { t with toks := t.toks ++ [k.text], line := t.line + newlines k.render } := by
  obtain ⟨st, cur, stmts, toks, line⟩ := t
  simp at ht hc
  subst ht hc
  cases k with
  | plain s =>
    refine ⟨_, run_plain rfl s hk.2, rfl, ?_⟩
    have : newlines s = 0 := by
      simp only [newlines, List.count_eq_zero]
      intro h; have := hk.2 _ h; simp [plainChar] at this
    simp only [Tok.render, this, Tk.flush]
    have h1 := hk.1
    simp [h1, Tok.text]
  | bracket c =>
    have hk' : c ∈ "()[]{}".toList := hk
    simp at hk'
    refine ⟨⟨.token, [], stmts, toks ++ [[c]], line⟩, ?_, rfl, ?_⟩
    · rcases hk' with h | h | h | h | h | h <;> subst h <;>
        simp [Tok.render, Tk.run, Tk.next, Tk.step, Tk.stepToken, isSpaceTok, isBracket, Tk.brackets, Tk.flush]
    · rcases hk' with h | h | h | h | h | h <;> subst h <;>
        simp [Tk.flush, Tok.text, Tok.render, newlines, List.count_cons]
  | str b =>
    have hb : b ≠ [] := hk
    refine ⟨⟨.token, [], stmts, toks ++ ['"' :: b ++ ['"']], line + newlines (Tok.str b).render⟩, ?_, rfl, ?_⟩
    · simp only [Tok.render, List.cons_append, Tk.run]
      have h1 : (⟨.token, [], stmts, toks, line⟩ : Tk).next '"' = .ok ⟨.string, [], stmts, toks, line⟩ := by
        simp [Tk.next, Tk.step, Tk.stepToken, isSpaceTok, isBracket, Tk.flush]
      rw [h1]
      simp only []
      rw [Tk.run_append, run_str_body rfl b]
      simp [Tk.run, Tk.next, Tk.step, Tk.stepQuoted, hb]
      rw [newlines_cons, newlines_append]
      simp [newlines]
    · simp [Tk.flush, Tok.text]
  | chr b =>
    have hb : b ≠ [] := hk
    refine ⟨⟨.token, [], stmts, toks ++ ['\'' :: b ++ ['\'']], line + newlines (Tok.chr b).render⟩, ?_, rfl, ?_⟩
    · simp only [Tok.render, List.cons_append, Tk.run]
      have h1 : (⟨.token, [], stmts, toks, line⟩ : Tk).next '\'' = .ok ⟨.char, [], stmts, toks, line⟩ := by
        simp [Tk.next, Tk.step, Tk.stepToken, isSpaceTok, isBracket, Tk.flush]
      rw [h1]
      simp only []
      rw [Tk.run_append, run_chr_body rfl b]
      simp [Tk.run, Tk.next, Tk.step, Tk.stepQuoted, hb]
      rw [newlines_cons, newlines_append]
      simp [newlines]
    · simp [Tk.flush, Tok.text]

/-- Reading the rest of a line. -/
theorem run_args {t : Tk} (ht : t.state = .token) (as : List Tok) (has : ∀ a ∈ as, a.WF) :
    ∃ t', t.run (as.flatMap fun a => ' ' :: a.render) = .ok t' ∧ t'.state = .token ∧
      t'.flush = { t.flush with
        toks := t.flush.toks ++ as.map Tok.text
        line := t.line + newlines (as.flatMap fun a => ' ' :: a.render) } := by
  induction as generalizing t with
  | nil => exact ⟨t, rfl, ht, by
    obtain ⟨st, cur, stmts, toks, line⟩ := t
    by_cases h : cur = [] <;> simp [newlines, Tk.flush, h]⟩
  | cons a as ih =>
    have h1 : t.next ' ' = .ok t.flush := Tk.next_sep ht (by decide)
    obtain ⟨t1, e1, s1, f1⟩ := run_tok (t := t.flush) (by simpa using ht) (by simp) a (has a (by simp))
    obtain ⟨t2, e2, s2, f2⟩ := ih s1 (fun a ha => has a (by simp [ha]))
    refine ⟨t2, ?_, s2, ?_⟩
    · simp only [List.flatMap_cons, List.cons_append, Tk.run, h1]
      rw [Tk.run_append, e1]
      exact e2
    · rw [f2, f1]
      have hl : t1.line = t.line + newlines a.render := by
        have := congrArg Tk.line f1; simpa using this
      simp [hl]
      rw [newlines_cons ' ', newlines_append]
      have : newlines [' '] = 0 := by decide
      omega

theorem run_line {t : Tk} (ht : t.state = .token) (hc : t.cur = []) (htk : t.toks = []) (l : Line) (hl : l.WF) :
    t.run (l.render ++ ['\n']) = .ok { t with
      stmts := t.stmts ++ [l.toStmt (t.line + newlines l.render)]
      line := t.line + newlines l.render + 1 } := by
  obtain ⟨st, cur, stmts, toks, line⟩ := t
  simp at ht hc htk
  subst ht hc htk
  cases l with
  | label n =>
    have hz : newlines n = 0 := by
      simp only [newlines, List.count_eq_zero]
      intro h; have := hl.2 _ h; simp [plainChar] at this
    have hz' : newlines (n ++ [':']) = 0 := by rw [newlines_append, hz]; decide
    simp only [Line.render, List.append_assoc, hz']
    rw [Tk.run_append, run_plain rfl n hl.2]
    have := hl.1
    simp [Tk.run, Tk.next, Tk.step, Tk.stepToken, isSpaceTok, isBracket, Tk.colon, Tk.flush, this, Line.toStmt,
      Tk.spaces, Tk.emit]
  | stmt h as =>
    obtain ⟨t1, e1, s1, f1⟩ := run_tok (t := ⟨.token, [], stmts, [], line⟩) rfl rfl h hl.1
    obtain ⟨t2, e2, s2, f2⟩ := run_args s1 as hl.2
    have hl1 : t1.line = line + newlines h.render := by
      have := congrArg Tk.line f1; simpa using this
    rw [f1] at f2
    simp only [Line.render]
    rw [List.append_assoc, Tk.run_append, e1]
    simp only []
    rw [Tk.run_append, e2]
    have hl2 : t2.line = line + newlines (h.render ++ as.flatMap fun a => ' ' :: a.render) := by
      have := congrArg Tk.line f2
      simp only [Tk.flush_line, hl1] at this
      rw [this, newlines_append]; omega
    simp only [Tk.run, Tk.next, Tk.step, s2, Tk.stepToken, isSpaceTok, Tk.spaces, f2]
    simp [Tk.emit, Line.toStmt, newlines_append, hl1, List.append_assoc]
    cases htx : h.text with
    | nil => 
      exfalso
      cases h with
      | plain s => exact hl.1.1 htx
      | bracket c => simp [Tok.text] at htx
      | str b => simp [Tok.text] at htx
      | chr b => simp [Tok.text] at htx
    | cons x xs =>
      by_cases hx : x = '.'
      · subst hx; simp [startsWith]; omega
      · have : ¬ '.' = x := fun h => hx h.symm
        simp [startsWith, hx, this]; omega

theorem run_prog (ls : List Line) (hl : ∀ l ∈ ls, l.WF) : ∀ {t : Tk}, t.state = .token → t.cur = [] → t.toks = [] →
    t.run (renderProg ls) = .ok { t with
      stmts := t.stmts ++ progStmts t.line ls
      line := t.line + newlines (renderProg ls) } := by
  induction ls with
  | nil => intro t _ _ _; simp [Tk.run, renderProg, progStmts, newlines]
  | cons l ls ih =>
    intro t ht hc htk
    have e : renderProg (l :: ls) = (l.render ++ ['\n']) ++ renderProg ls := by simp [renderProg]
    rw [e, Tk.run_append, run_line ht hc htk l (hl l (by simp))]
    simp only []
    rw [ih (fun l h => hl l (by simp [h]))]
    · simp only [progStmts, newlines_append]
      have : newlines ['\n'] = 1 := by decide
      simp [this]; omega
    · exact ht
    · exact hc
    · exact htk

theorem Tk.next_error {t : Tk} {c : Char} {e : Err} (h : t.next c = .error e) :
    c = ':' ∧ e = .tokenizerInvalidLabel t.line := by
  unfold Tk.next Tk.step at h
  split at h
  · rename_i e' he
    split at he <;> try (simp at he; done)
    · simp only [Tk.stepToken] at he
      (repeat' split at he) <;> try (simp at he; done)
      rename_i hc
      simp only [Tk.colon] at he
      split at he
      · injection he with he; injection h with h; exact ⟨hc, by rw [← h, ← he]⟩
      · simp at he
    · split at he <;> simp at he
  · split at h <;> simp at h

theorem run_unclosed_str : ∀ (n : Nat) (b : Str) (t : Tk), b.length ≤ n → t.state = .string →
    closes '"' b = false → ∃ t', t.run b = .ok t' ∧ t'.stmts = t.stmts ∧
      (t'.state = .string ∨ t'.state = .escString) := by
  intro n
  induction n with
  | zero => intro b t hb ht _; cases b <;> simp at hb; exact ⟨t, rfl, rfl, .inl ht⟩
  | succ n ih =>
    intro b t hb ht hcl
    cases b with
    | nil => exact ⟨t, rfl, rfl, .inl ht⟩
    | cons c b =>
      by_cases hc : c = '\\'
      · subst hc
        have h1 : t.next '\\' = .ok { t with state := .escString } := by
          simp [Tk.next, Tk.step, ht, Tk.stepQuoted]
        cases b with
        | nil => exact ⟨{ t with state := .escString }, by simp only [Tk.run, h1], rfl, .inr rfl⟩
        | cons d b =>
          have h2 : ∃ t2, ({ t with state := .escString } : Tk).next d = .ok t2 ∧ t2.stmts = t.stmts ∧ t2.state = .string := by
            by_cases hd : d = '\n' <;> simp [Tk.next, Tk.step, hd]
          obtain ⟨t2, e2, s2, st2⟩ := h2
          obtain ⟨t3, e3, s3, st3⟩ := ih b t2 (by simp at hb; omega) st2 (by simpa [closes] using hcl)
          exact ⟨t3, by simp only [Tk.run, h1, e2]; exact e3, by rw [s3, s2], st3⟩
      · have hcl' : (c == '"' || closes '"' b) = false := by
          rw [closes.eq_def] at hcl
          split at hcl <;> simp_all
        simp at hcl'
        have h1 : ∃ t2, t.next c = .ok t2 ∧ t2.stmts = t.stmts ∧ t2.state = .string := by
          by_cases hd : c = '\n' <;> simp [Tk.next, Tk.step, ht, Tk.stepQuoted, hc, hcl'.1, hd]
        obtain ⟨t2, e2, s2, st2⟩ := h1
        obtain ⟨t3, e3, s3, st3⟩ := ih b t2 (by simp at hb; omega) st2 hcl'.2
        exact ⟨t3, by simp only [Tk.run, e2]; exact e3, by rw [s3, s2], st3⟩

theorem run_unclosed_chr : ∀ (n : Nat) (b : Str) (t : Tk), b.length ≤ n → t.state = .char →
    closes '\'' b = false → ∃ t', t.run b = .ok t' ∧ t'.stmts = t.stmts ∧
      (t'.state = .char ∨ t'.state = .escChar) := by
  intro n
  induction n with
  | zero => intro b t hb ht _; cases b <;> simp at hb; exact ⟨t, rfl, rfl, .inl ht⟩
  | succ n ih =>
    intro b t hb ht hcl
    cases b with
    | nil => exact ⟨t, rfl, rfl, .inl ht⟩
    | cons c b =>
      by_cases hc : c = '\\'
      · subst hc
        have h1 : t.next '\\' = .ok { t with state := .escChar } := by
          simp [Tk.next, Tk.step, ht, Tk.stepQuoted]
        cases b with
        | nil => exact ⟨{ t with state := .escChar }, by simp only [Tk.run, h1], rfl, .inr rfl⟩
        | cons d b =>
          have h2 : ∃ t2, ({ t with state := .escChar } : Tk).next d = .ok t2 ∧ t2.stmts = t.stmts ∧ t2.state = .char := by
            by_cases hd : d = '\n' <;> simp [Tk.next, Tk.step, hd]
          obtain ⟨t2, e2, s2, st2⟩ := h2
          obtain ⟨t3, e3, s3, st3⟩ := ih b t2 (by simp at hb; omega) st2 (by simpa [closes] using hcl)
          exact ⟨t3, by simp only [Tk.run, h1, e2]; exact e3, by rw [s3, s2], st3⟩
      · have hcl' : (c == '\'' || closes '\'' b) = false := by
          rw [closes.eq_def] at hcl
          split at hcl <;> simp_all
        simp at hcl'
        have h1 : ∃ t2, t.next c = .ok t2 ∧ t2.stmts = t.stmts ∧ t2.state = .char := by
          by_cases hd : c = '\n' <;> simp [Tk.next, Tk.step, ht, Tk.stepQuoted, hc, hcl'.1, hd]
        obtain ⟨t2, e2, s2, st2⟩ := h1
        obtain ⟨t3, e3, s3, st3⟩ := ih b t2 (by simp at hb; omega) st2 hcl'.2
        exact ⟨t3, by simp only [Tk.run, e2]; exact e3, by rw [s3, s2], st3⟩

theorem tokenize_unclosed {a : Str} {t : Tk} (ht : ({} : Tk).run a = .ok t) (hst : t.state = .token)
    (q : Char) (hq : q = '"' ∨ q = '\'') (b : Str) (hb : closes q b = false) :
    tokenize (a ++ q :: b) = .ok t.stmts := by
  unfold tokenize
  rw [List.append_assoc, Tk.run_append, ht]
  simp only [List.cons_append, Tk.run]
  rcases hq with rfl | rfl
  · have h1 : ∃ t1, t.next '"' = .ok t1 ∧ t1.state = .string ∧ t1.stmts = t.stmts := by
      simp [Tk.next, Tk.step, hst, Tk.stepToken, isSpaceTok, isBracket]
    obtain ⟨t1, e1, s1, q1⟩ := h1
    obtain ⟨t2, e2, s2, q2⟩ := run_unclosed_str b.length b t1 (Nat.le_refl _) s1 hb
    rw [e1]; simp only []
    rw [Tk.run_append, e2]
    obtain ⟨t3, e3, s3⟩ := Tk.next_literal (t := t2) (c := '\n')
      (by rcases q2 with h | h <;> simp [h])
    simp only [Tk.run, e3, s3, s2, q1]
  · have h1 : ∃ t1, t.next '\'' = .ok t1 ∧ t1.state = .char ∧ t1.stmts = t.stmts := by
      simp [Tk.next, Tk.step, hst, Tk.stepToken, isSpaceTok, isBracket]
    obtain ⟨t1, e1, s1, q1⟩ := h1
    obtain ⟨t2, e2, s2, q2⟩ := run_unclosed_chr b.length b t1 (Nat.le_refl _) s1 hb
    rw [e1]; simp only []
    rw [Tk.run_append, e2]
    obtain ⟨t3, e3, s3⟩ := Tk.next_literal (t := t2) (c := '\n')
      (by rcases q2 with h | h <;> simp [h])
    simp only [Tk.run, e3, s3, s2, q1]

end Necro
