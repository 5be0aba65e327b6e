import Verif.Model.Asm
import Verif.Lemmas.Numbers
import Verif.Lemmas.Dict
/-!
# Relations between the state before and after a method

`Keeps R m`: whatever the start state and whether or not `m` raises, the states before
and after are related by `R`.
-/

namespace Necro

open M (throw get modify lift forEach times)

def Keeps (R : St → St → Prop) (m : M α) : Prop := ∀ s, R s (m s).2

/-- A preorder closed under appending bytes and recording label references: what the
data directives do to the state. -/
structure DataRel (R : St → St → Prop) : Prop where
  refl : ∀ s, R s s
  trans : ∀ {a b c}, R a b → R b c → R a c
  append : ∀ s (blob : Bytes), R s { s with bytes := s.bytes ++ blob, counter := s.counter + blob.length }
  reloc : ∀ s r, R s (addReloc s r)

/-- ... and under what instruction statements do to macro bodies. -/
structure BodyRel (R : St → St → Prop) : Prop extends DataRel R where
  tok : ∀ s key idx t, R s (setBodyTokens key idx t s).2
  record : ∀ s key st, s.recording = some key → R s (recordStmt key st s).2

/-- ... and under any change of the macro table: what instructions do to the state. -/
structure InstrRel (R : St → St → Prop) : Prop extends DataRel R where
  macros : ∀ s m, R s { s with macros := m }

/-- ... and under the bookkeeping directives. -/
structure MetaRel (R : St → St → Prop) : Prop extends InstrRel R where
  recording : ∀ s r, R s { s with recording := r }
  rep : ∀ s r, R s { s with rep := r }
  log : ∀ s b, R s { s with log := b }
  defines : ∀ s m, R s { s with defines := m }
  exports : ∀ s n, n ∉ s.exports → R s { s with exports := s.exports ++ [n] }

/-- ... and under the remaining state changes of the base assembler. -/
structure AsmRel (d : Dialect) (R : St → St → Prop) : Prop extends MetaRel R where
  pad : ∀ s (blob : Bytes), R s { s with bytes := s.bytes ++ blob }
  org : ∀ s a b, 0 ≤ a → 0 ≤ b → ¬ (0 < b ∧ b < a) → R s { s with org := a, orgEnd := b, counter := 0 }
  ram : ∀ s n, 0 < n → R s { s with counter := s.counter + n }
  label : ∀ s key, s.recording = none → dmem s.labels key = false → isValidName key = true →
    parseInteger d.sy s.labels key 64 false = .ok none →
    R s { s with labels := dset s.labels key ⟨s.counter, s.org, s.curSection⟩ }
  closeSec : ∀ s n sec, s.curSection = some n → n ≠ [] → dget s.sections n = some sec →
    R s { s with sections := dset s.sections n (
            { sec with stop := some s.pc, size := some ((s.bytes.length : Int) - sec.offset) } : Section) }
  openSec : ∀ s n p, dmem s.sections n = false → p.all isPermission = true →
    (∀ m, s.curSection = some m → m ≠ [] → ∃ sec, dget s.sections m = some sec ∧
      sec.stop = some s.pc ∧ sec.size = some ((s.bytes.length : Int) - sec.offset)) →
    R s { s with curSection := some n,
                 sections := dset s.sections n ({ start := s.pc, offset := s.bytes.length, permissions := p } : Section) }

variable {R : St → St → Prop}

theorem bind_eq (m : M α) (f : α → M β) (s : St) : (m >>= f) s =
    match m s with
    | (.ok a, s') => f a s'
    | (.error e, s') => (.error e, s') := rfl

theorem pure_eq (a : α) (s : St) : (pure a : M α) s = (.ok a, s) := rfl
theorem throw_eq (e : Err) (s : St) : (throw e : M α) s = (.error e, s) := rfl
theorem get_eq (s : St) : (get : M St) s = (.ok s, s) := rfl
theorem modify_eq (f : St → St) (s : St) : modify f s = (.ok (), f s) := rfl
theorem lift_eq (x : Except Err α) (s : St) : lift x s = (x, s) := rfl

namespace Keeps

theorem pure (h : DataRel R) (a : α) : Keeps R (pure a : M α) := fun s => h.refl s
theorem throw (h : DataRel R) (e : Err) : Keeps R (M.throw e : M α) := fun s => h.refl s
theorem get (h : DataRel R) : Keeps R M.get := fun s => h.refl s
theorem lift (h : DataRel R) (x : Except Err α) : Keeps R (M.lift x) := fun s => h.refl s

/-- Sequencing, with the second part considered only for outcomes of the first. -/
theorem bind' (h : DataRel R) {m : M α} {f : α → M β} (hm : Keeps R m)
    (hf : ∀ s a s', m s = (.ok a, s') → R s' (f a s').2) : Keeps R (m >>= f) := by
  intro s
  rw [bind_eq]
  have h1 := hm s
  rcases hms : m s with ⟨r, s'⟩
  rw [hms] at h1
  cases r with
  | error e => exact h1
  | ok a => exact h.trans h1 (hf s a s' hms)

theorem bind (h : DataRel R) {m : M α} {f : α → M β} (hm : Keeps R m) (hf : ∀ a, Keeps R (f a)) :
    Keeps R (m >>= f) := bind' h hm fun _ a s' _ => hf a s'

theorem forEach (h : DataRel R) {l : List α} {f : α → M Unit} (hf : ∀ a ∈ l, Keeps R (f a)) :
    Keeps R (M.forEach l f) := by
  induction l with
  | nil => exact Keeps.pure h ()
  | cons x l ih => exact Keeps.bind h (hf x (by simp)) fun _ => ih fun a ha => hf a (by simp [ha])

theorem times (h : DataRel R) {m : M Unit} (hm : Keeps R m) (n : Nat) : Keeps R (M.times n m) := by
  induction n with
  | zero => exact Keeps.pure h ()
  | succ n ih => exact Keeps.bind h hm fun _ => ih

theorem appendBytes (h : DataRel R) (blob : Bytes) : Keeps R (Necro.appendBytes blob) := fun s => h.append s blob

theorem readOnly (h : DataRel R) {m : M α} (hm : ∀ s, (m s).2 = s) : Keeps R m := fun s => by
  rw [hm s]; exact h.refl s

end Keeps

theorem firstChar_state (t : Str) (s : St) : (firstChar t s).2 = s := by cases t <;> rfl

theorem stringify_state (t : Str) (s : St) : (stringify t s).2 = s := by
  cases t with
  | nil => rfl
  | cons c r =>
    have : stringify (c :: r) s = (if isQuote c then (Pure.pure (unquote (c :: r)) : M Str) else Pure.pure (c :: r)) s := rfl
    rw [this]; split <;> rfl

theorem parseIntegerM_state (d : Dialect) (t : Str) (b : Nat) (g : Bool) (s : St) :
    (parseIntegerM d t b g s).2 = s := rfl

theorem parseArg_eq (d : Dialect) (t : Str) (b : Nat) (s : St) : parseArg d t b s =
    (match parseInteger d.sy s.labels t b false with
     | .error e => .error e
     | .ok (some v) => .ok v
     | .ok none => .error .invalidArgumentsForDirective, s) := by
  unfold parseArg
  rw [bind_eq]
  simp only [parseIntegerM]
  cases parseInteger d.sy s.labels t b false with
  | error e => rfl
  | ok o => cases o <;> rfl

theorem parseArg_state (d : Dialect) (t : Str) (b : Nat) (s : St) : (parseArg d t b s).2 = s := by
  rw [parseArg_eq]

theorem parseArg_ok {d : Dialect} {t : Str} {b : Nat} {s s' : St} {v : Int} (hb : 1 ≤ b)
    (h : parseArg d t b s = (.ok v, s')) : s' = s ∧ 0 ≤ v ∧ v < 2 ^ b := by
  rw [parseArg_eq] at h
  cases hp : parseInteger d.sy s.labels t b false with
  | error e => rw [hp] at h; simp at h
  | ok o =>
    cases o with
    | none => rw [hp] at h; simp at h
    | some w =>
      rw [hp] at h; simp at h
      obtain ⟨rfl, rfl⟩ := h
      refine ⟨rfl, ?_⟩
      have hp' : (0 : Int) < 2 ^ (b - 1) := Int.pow_pos (by decide)
      have h2 : (2 : Int) ^ b = 2 ^ (b - 1) * 2 := by
        obtain ⟨c, rfl⟩ : ∃ c, b = c + 1 := ⟨b - 1, by omega⟩
        simp [Int.pow_succ]
      unfold parseInteger parseIntegerW at hp
      simp only at hp
      split at hp
      · simp at hp
      · simp at hp
      · split at hp
        · simp at hp
        · split at hp
          · simp at hp
          · rename_i lit dec _ _ x _ _ r hr
            injection hp with hp; injection hp with hp; subst hp
            rw [checkRange_eq _ _ _ _ hb] at hr
            cases dec <;> simp only [Bool.false_eq_true, Bool.true_eq_false, if_true, if_false] at hr <;>
              (repeat' split at hr) <;> simp at hr <;> omega

theorem twoOrThree_state (l : List Str) (s : St) : (twoOrThree l s).2 = s := by
  unfold twoOrThree; split <;> rfl

theorem exactlyTwo_state (l : List Str) (s : St) : (exactlyTwo l s).2 = s := by
  unfold exactlyTwo; split <;> rfl

theorem fillArg_state (d : Dialect) (l : List Str) (s : St) : (fillArg d l s).2 = s := by
  unfold fillArg; split
  · exact parseArg_state ..
  · rfl

theorem openFile_state (x : Option α) (s : St) : (openFile x s).2 = s := by
  cases x <;> rfl

section data
variable (h : DataRel R)
include h

theorem keeps_parseIntegerOrLabelM (d : Dialect) (r : Reloc) (g : Bool) :
    Keeps R (parseIntegerOrLabelM d r g) := by
  intro s
  unfold parseIntegerOrLabelM
  split
  · exact h.refl s
  · exact h.refl s
  · exact h.reloc s r

theorem keeps_dbItem (d : Dialect) (t : Str) : Keeps R (dbItem d t) := by
  refine .bind h (.readOnly h (firstChar_state t)) fun c => ?_
  split
  · exact .bind h (.lift h _) fun b => .appendBytes h b
  · exact .bind h (keeps_parseIntegerOrLabelM h _ _ _) fun _ => .bind h (.lift h _) fun b => .appendBytes h b

theorem keeps_dwItem (d : Dialect) (t : Str) : Keeps R (dwItem d t) := by
  refine .bind h (.readOnly h (firstChar_state t)) fun c => ?_
  split
  · exact .appendBytes h _
  · exact .bind h (keeps_parseIntegerOrLabelM h _ _ _) fun _ => .bind h (.lift h _) fun b => .appendBytes h b

theorem keeps_ddItem (d : Dialect) (t : Str) : Keeps R (ddItem d t) := by
  refine .bind h (.readOnly h (firstChar_state t)) fun c => ?_
  split
  · exact .appendBytes h _
  · exact .bind h (keeps_parseIntegerOrLabelM h _ _ _) fun _ => .bind h (.lift h _) fun b => .appendBytes h b

theorem keeps_dwToAsciiItem (d : Dialect) (t : Str) : Keeps R (dwToAsciiItem d t) := by
  refine .bind h (.readOnly h (firstChar_state t)) fun c => ?_
  split
  · exact .throw h _
  · refine .bind h (.readOnly h (fun _ => parseIntegerM_state ..)) fun o => ?_
    split
    · exact .bind h (fun s => h.reloc s _) fun _ => .appendBytes h _
    · exact .bind h (.lift h _) fun b => .appendBytes h b

theorem keeps_dbToAsciiItem (d : Dialect) (t : Str) : Keeps R (dbToAsciiItem d t) := by
  refine .bind h (.readOnly h (firstChar_state t)) fun c => ?_
  split
  · refine .bind h (.lift h _) fun _ => ?_
    split
    · exact .throw h _
    · exact .bind h (.lift h _) fun b => .appendBytes h b
  · refine .bind h (.readOnly h (fun _ => parseIntegerM_state ..)) fun o => ?_
    split
    · exact .bind h (fun s => h.reloc s _) fun _ => .appendBytes h _
    · exact .bind h (.lift h _) fun b => .appendBytes h b

theorem keeps_directiveFill (d : Dialect) (l : List Str) : Keeps R (directiveFill d l) := by
  refine .bind h (.readOnly h (twoOrThree_state l)) fun p => ?_
  refine .bind h (.readOnly h (fun _ => parseArg_state ..)) fun v => ?_
  refine .bind h (.readOnly h (fun _ => fillArg_state ..)) fun v => ?_
  exact .bind h (.lift h _) fun b => .appendBytes h b

theorem keeps_directiveGoto (d : Dialect) (l : List Str) : Keeps R (directiveGoto d l) := by
  refine .bind h (.readOnly h (twoOrThree_state l)) fun p => ?_
  refine .bind h (.readOnly h (fun _ => parseArg_state ..)) fun v => ?_
  refine .bind h (.get h) fun s => ?_
  split
  · exact .throw h _
  · refine .bind h (.readOnly h (fun _ => fillArg_state ..)) fun v => ?_
    exact .bind h (.lift h _) fun b => .appendBytes h b

theorem keeps_directiveUpto (d : Dialect) (l : List Str) : Keeps R (directiveUpto d l) := by
  refine .bind h (.readOnly h (twoOrThree_state l)) fun p => ?_
  refine .bind h (.readOnly h (fun _ => parseArg_state ..)) fun v => ?_
  refine .bind h (.get h) fun s => ?_
  split
  · exact .throw h _
  · refine .bind h (.readOnly h (fun _ => fillArg_state ..)) fun v => ?_
    exact .bind h (.lift h _) fun b => .appendBytes h b

theorem keeps_directiveAlign (d : Dialect) (l : List Str) : Keeps R (directiveAlign d l) := by
  refine .bind h (.readOnly h (exactlyTwo_state l)) fun p => ?_
  refine .bind h (.readOnly h (fun _ => parseArg_state ..)) fun v => ?_
  refine .bind h (.get h) fun s => ?_
  split
  · exact .throw h _
  · simp only
    split
    · exact .bind h (.lift h _) fun b => .appendBytes h _
    · exact .pure h _

theorem keeps_csvCells (d : Dialect) (bits : Nat) (enc) (l : List Str) : Keeps R (csvCells d bits enc l) := by
  induction l with
  | nil => exact .pure h _
  | cons c l ih =>
    refine .bind h (.readOnly h (fun _ => parseIntegerM_state ..)) fun o => ?_
    split
    · exact .throw h _
    · exact .bind h (.lift h _) fun _ => .bind h ih fun _ => .pure h _

theorem keeps_jsonItems (d : Dialect) (l : List (Int ⊕ Str)) : Keeps R (jsonItems d l) := by
  induction l with
  | nil => exact .pure h _
  | cons c l ih =>
    cases c with
    | inl v => exact .bind h (.lift h _) fun _ => .bind h ih fun _ => .pure h _
    | inr t =>
      refine .bind h (.readOnly h (fun _ => parseIntegerM_state ..)) fun o => ?_
      split
      · exact .throw h _
      · exact .bind h (.lift h _) fun _ => .bind h ih fun _ => .pure h _

theorem keeps_directiveIncbin (env : Env) (l : List Str) : Keeps R (directiveIncbin env l) := by
  refine .bind h (.readOnly h (exactlyTwo_state l)) fun p => ?_
  refine .bind h (.readOnly h (fun _ => stringify_state ..)) fun v => ?_
  refine .bind h (.readOnly h (fun _ => openFile_state ..)) fun v => ?_
  exact .appendBytes h _

theorem keeps_directiveInccsv (d : Dialect) (env : Env) (l : List Str) : Keeps R (directiveInccsv d env l) := by
  refine .bind h (.readOnly h (exactlyTwo_state l)) fun p => ?_
  refine .bind h (.readOnly h (fun _ => stringify_state ..)) fun v => ?_
  refine .bind h (.readOnly h (fun _ => openFile_state ..)) fun v => ?_
  exact .bind h (keeps_csvCells h _ _ _ _) fun _ => .appendBytes h _

theorem keeps_directiveInccsvLe16 (d : Dialect) (env : Env) (l : List Str) :
    Keeps R (directiveInccsvLe16 d env l) := by
  refine .bind h (.readOnly h (exactlyTwo_state l)) fun p => ?_
  refine .bind h (.readOnly h (fun _ => stringify_state ..)) fun v => ?_
  refine .bind h (.readOnly h (fun _ => openFile_state ..)) fun v => ?_
  exact .bind h (keeps_csvCells h _ _ _ _) fun _ => .appendBytes h _

theorem keeps_directiveIncjson (d : Dialect) (env : Env) (l : List Str) : Keeps R (directiveIncjson d env l) := by
  unfold directiveIncjson
  split
  · refine .bind h (.readOnly h (fun _ => stringify_state ..)) fun v => ?_
    refine .bind h (.readOnly h (fun _ => stringify_state ..)) fun v => ?_
    exact .bind h (.lift h _) fun _ => .bind h (keeps_jsonItems h _ _) fun _ => .appendBytes h _
  · exact .throw h _

theorem keeps_finalFill (d : Dialect) : Keeps R (finalFill d) := by
  refine .bind h (.get h) fun s => ?_
  split
  · split
    · exact .bind h (.lift h _) fun _ => .appendBytes h _
    · exact .pure h _
  · exact .pure h _

/-- The directives that only emit data. -/
def dataDirectives (d : Dialect) (env : Env) : List (String × (List Str → M Unit)) :=
  [ ("incbin", directiveIncbin env),
    ("inccsv", directiveInccsv d env),
    ("inccsv_le16", directiveInccsvLe16 d env),
    ("incjson", directiveIncjson d env),
    ("db", directiveDb d),
    ("byte", directiveDb d),
    ("dw", directiveDw d),
    ("word", directiveDw d),
    ("dd", directiveDd d),
    ("dl", directiveDd d),
    ("dword", directiveDd d),
    ("db_to_ascii", directiveDbToAscii d),
    ("dw_to_ascii", directiveDwToAscii d),
    ("db_to_asciiz", directiveDbToAsciiz d),
    ("dw_to_asciiz", directiveDwToAsciiz d),
    ("fill", directiveFill d),
    ("align", directiveAlign d),
    ("goto", directiveGoto d),
    ("upto", directiveUpto d) ]

theorem keeps_dataDirectives (d : Dialect) (env : Env) :
    ∀ p ∈ dataDirectives d env, ∀ l, Keeps R (p.2 l) := by
  intro p hp l
  have hb := Keeps.forEach h (l := l.drop 1) fun a _ => keeps_dbToAsciiItem h d a
  have hw := Keeps.forEach h (l := l.drop 1) fun a _ => keeps_dwToAsciiItem h d a
  simp only [dataDirectives, List.mem_cons, List.not_mem_nil, or_false] at hp
  rcases hp with rfl | rfl | rfl | rfl | rfl | rfl | rfl | rfl | rfl | rfl | rfl | rfl | rfl | rfl | rfl |
    rfl | rfl | rfl | rfl
  · exact keeps_directiveIncbin h _ _
  · exact keeps_directiveInccsv h _ _ _
  · exact keeps_directiveInccsvLe16 h _ _ _
  · exact keeps_directiveIncjson h _ _ _
  · exact .forEach h fun a _ => keeps_dbItem h d a
  · exact .forEach h fun a _ => keeps_dbItem h d a
  · exact .forEach h fun a _ => keeps_dwItem h d a
  · exact .forEach h fun a _ => keeps_dwItem h d a
  · exact .forEach h fun a _ => keeps_ddItem h d a
  · exact .forEach h fun a _ => keeps_ddItem h d a
  · exact .forEach h fun a _ => keeps_ddItem h d a
  · exact hb
  · exact hw
  · exact .bind h hb fun _ => .appendBytes h _
  · exact .bind h hw fun _ => .appendBytes h _
  · exact keeps_directiveFill h _ _
  · exact keeps_directiveAlign h _ _
  · exact keeps_directiveGoto h _ _
  · exact keeps_directiveUpto h _ _

end data

section instr

theorem InstrRel.toBodyRel (h : InstrRel R) : BodyRel R where
  toDataRel := h.toDataRel
  tok := fun s key idx t => by
    show R s (match dget s.macros key with | some m => _ | none => s)
    split
    · exact h.macros s _
    · exact h.refl s
  record := fun s key st _ => by
    unfold recordStmt
    split
    · exact h.macros s _
    · exact h.refl s

variable (h : BodyRel R)
include h

theorem keeps_setBodyTokens (key : Str) (idx : Nat) (t : List Str) : Keeps R (setBodyTokens key idx t) :=
  fun s => h.tok s key idx t

theorem keeps_writeBack (ref : StmtRef) (t : List Str) : Keeps R (writeBack ref t) := by
  unfold writeBack
  split
  · exact .pure h.toDataRel _
  · exact keeps_setBodyTokens h _ _ _

theorem foldl_reloc (l : List Reloc) : ∀ s, R s (l.foldl addReloc s) := by
  induction l with
  | nil => exact h.refl
  | cons r l ih => intro s; exact h.trans (h.reloc s r) (ih _)

omit h in
theorem runHandler_state (d : Dialect) (f) (t : List Str) (s : St) :
    (runHandler d f t s).2 = (f t ⟨s.pc, s.labels, d.sy, s.bitsMode⟩).2.foldl addReloc s := by
  unfold runHandler
  simp only
  split <;> rfl

theorem keeps_runHandler (d : Dialect) (f) (t : List Str) : Keeps R (runHandler d f t) := by
  intro s
  rw [runHandler_state]
  exact foldl_reloc h _ s

theorem keeps_macroStep (exec : StmtRef → Stmt → M Unit) (he : ∀ r s, Keeps R (exec r s)) (key : Str)
    (ps as : List Str) (i : Nat) : Keeps R (macroStep exec key ps as i) := by
  have hd := h.toDataRel
  refine .bind hd (.get hd) fun s => ?_
  split
  · exact .throw hd _
  · split
    · exact .pure hd _
    · refine .bind hd (.lift hd _) fun md => ?_
      refine .bind hd (keeps_setBodyTokens h _ _ _) fun _ => ?_
      exact .bind hd (he _ _) fun _ => keeps_setBodyTokens h _ _ _

theorem body_execInstr (d : Dialect) : ∀ depth ref st, Keeps R (execInstr d depth ref st) := by
  intro depth
  have hd := h.toDataRel
  induction depth with
  | zero => intro ref st; exact .throw hd _
  | succ n ih =>
    intro ref st
    refine .bind' hd (.get hd) fun s0 s s1 hs => ?_
    injection hs with h1 h2; injection h1 with h1; subst h1; subst h2
    cases hrec : s0.recording with
    | some key => exact h.record _ _ _ hrec
    | none =>
      refine Keeps.bind hd (keeps_writeBack h _ _) (fun _ => ?_) _
      split
      · exact .throw hd _
      · simp only
        split
        · exact .forEach hd fun i _ => keeps_macroStep h _ ih _ _ _ _
        · split
          · exact .throw hd _
          · split
            · exact .throw hd _
            · exact .appendBytes hd _
          · exact .bind hd (keeps_runHandler h _ _ _) fun _ => .appendBytes hd _

omit h in
theorem keeps_execInstr (h : InstrRel R) (d : Dialect) : ∀ depth ref st, Keeps R (execInstr d depth ref st) :=
  body_execInstr h.toBodyRel d

end instr

section bookkeeping

theorem keeps_directiveMacro (h : InstrRel R) (hr : ∀ s r, R s { s with recording := r })
    (d : Dialect) (l : List Str) : Keeps R (directiveMacro d l) := by
  have hd := h.toDataRel
  refine .bind hd (.get hd) fun s => ?_
  split
  · exact .throw hd _
  · split
    · exact .throw hd _
    · intro s
      rename_i name args _
      exact h.trans (h.macros s (dset s.macros (d.key name) { args := args }))
        (hr { s with macros := dset s.macros (d.key name) { args := args } } (some (d.key name)))

theorem keeps_directiveEndMacro (hd : DataRel R) (hr : ∀ s r, R s { s with recording := r }) :
    Keeps R directiveEndMacro := by
  refine .bind hd (.get hd) fun s => ?_
  split
  · exact .throw hd _
  · intro s; exact hr _ _

theorem keeps_directiveDefine (hd : DataRel R) (hf : ∀ s m, R s { s with defines := m })
    (l : List Str) : Keeps R (directiveDefine l) := by
  unfold directiveDefine
  split
  · intro s; exact hf s _
  · exact .throw hd _

theorem keeps_directiveRepeat (hd : DataRel R) (hp : ∀ s r, R s { s with rep := r })
    (d : Dialect) (l : List Str) : Keeps R (directiveRepeat d l) := by
  refine .bind hd (.get hd) fun s => ?_
  split
  · exact .throw hd _
  · refine .bind hd (.readOnly hd (exactlyTwo_state l)) fun p => ?_
    refine .bind hd (.readOnly hd (fun _ => parseArg_state ..)) fun v => ?_
    split
    · exact .throw hd _
    · intro s; exact hp s _

theorem keeps_directiveEndRepeat (hd : DataRel R) (hp : ∀ s r, R s { s with rep := r }) :
    Keeps R directiveEndRepeat := by
  refine .bind hd (.get hd) fun s => ?_
  split
  · exact .throw hd _
  · exact .bind hd (fun s => hp s _) fun _ => .times hd (.appendBytes hd _) _

theorem keeps_directiveLog (hd : DataRel R) (hl : ∀ s b, R s { s with log := b })
    (l : List Str) : Keeps R (directiveLog l) := by
  unfold directiveLog
  split
  · intro s; exact hl s _
  · split
    · intro s; exact hl s _
    · split
      · intro s; exact hl s _
      · exact .pure hd _

theorem keeps_directiveExport (hd : DataRel R)
    (he : ∀ s n, n ∉ s.exports → R s { s with exports := s.exports ++ [n] })
    (l : List Str) : Keeps R (directiveExport l) := by
  refine .bind hd (.readOnly hd (exactlyTwo_state l)) fun p => ?_
  refine .bind hd (.readOnly hd (stringify_state _)) fun name => ?_
  intro s
  rw [bind_eq, get_eq]
  simp only
  split
  · exact hd.refl _
  · exact he s name (by assumption)

/-- The directives that emit data or only do bookkeeping: they leave origins, labels and
sections alone. -/
def quietDirectives (d : Dialect) (env : Env) : List (String × (List Str → M Unit)) :=
  dataDirectives d env ++
  [ ("macro", directiveMacro d),
    ("endmacro", fun _ => directiveEndMacro),
    ("define", directiveDefine),
    ("log", directiveLog),
    ("repeat", directiveRepeat d),
    ("endrepeat", fun _ => directiveEndRepeat),
    ("export", directiveExport) ]

theorem keeps_quiet (h : MetaRel R) (d : Dialect) (env : Env) : ∀ p ∈ quietDirectives d env, ∀ l, Keeps R (p.2 l) := by
  intro p hp l
  rcases List.mem_append.1 hp with hp | hp
  · exact keeps_dataDirectives h.toDataRel d env p hp l
  · simp only [List.mem_cons, List.not_mem_nil, or_false] at hp
    rcases hp with rfl | rfl | rfl | rfl | rfl | rfl | rfl
    · exact keeps_directiveMacro h.toInstrRel h.recording d l
    · exact keeps_directiveEndMacro h.toDataRel h.recording
    · exact keeps_directiveDefine h.toDataRel h.defines l
    · exact keeps_directiveLog h.toDataRel h.log l
    · exact keeps_directiveRepeat h.toDataRel h.rep d l
    · exact keeps_directiveEndRepeat h.toDataRel h.rep
    · exact keeps_directiveExport h.toDataRel h.exports l

end bookkeeping

section asm
variable {d : Dialect} (h : AsmRel d R)
include h

omit h in
theorem keeps_modify (f : St → St) (hf : ∀ s, R s (f s)) : Keeps R (modify f) := hf

/-- What `.org` needs of a relation. -/
structure OrgRel (R : St → St → Prop) : Prop extends DataRel R where
  pad : ∀ s (blob : Bytes), R s { s with bytes := s.bytes ++ blob }
  org : ∀ s a b, 0 ≤ a → 0 ≤ b → ¬ (0 < b ∧ b < a) → R s { s with org := a, orgEnd := b, counter := 0 }

omit h in
theorem keeps_changeOrg (h : OrgRel R) (a b : Int) (ha : 0 ≤ a) (hb : 0 ≤ b) : Keeps R (changeOrg d a b) := by
  intro s
  unfold changeOrg
  split
  · exact h.refl s
  · rename_i hab
    have ho := h.org s a b ha hb hab
    simp only
    repeat' split
    all_goals first
      | exact ho
      | exact h.trans ho (h.pad _ _)

omit h in
theorem keeps_directiveOrg (h : OrgRel R) (l : List Str) : Keeps R (directiveOrg d l) := by
  have hd := h.toDataRel
  unfold directiveOrg
  split
  · refine .bind' hd (.readOnly hd (fun _ => parseArg_state ..)) fun s v s' hv => ?_
    exact keeps_changeOrg h v 0 (parseArg_ok (by decide) hv).2.1 (by decide) s'
  · refine .bind' hd (.readOnly hd (fun _ => parseArg_state ..)) fun s v s' hv => ?_
    have h1 := (parseArg_ok (by decide) hv).2.1
    refine Keeps.bind' hd (.readOnly hd (fun _ => parseArg_state ..)) (fun s v2 s' hv2 => ?_) s'
    exact keeps_changeOrg h v v2 h1 (parseArg_ok (by decide) hv2).2.1 s'
  · exact .throw hd _

omit h in
theorem keeps_directiveRam (hd : DataRel R) (hr : ∀ s n, 0 < n → R s { s with counter := s.counter + n })
    (l : List Str) : Keeps R (directiveRam d l) := by
  refine .bind hd (.readOnly hd (exactlyTwo_state l)) fun p => ?_
  refine .bind hd (.readOnly hd (fun _ => parseArg_state ..)) fun v => ?_
  split
  · exact .throw hd _
  · rename_i hv; intro s; exact hr s v (by omega)

theorem AsmRel.toOrgRel : OrgRel R := { toDataRel := h.toDataRel, pad := h.pad, org := h.org }

theorem keeps_closeSection : Keeps R closeSection := by
  intro s
  unfold closeSection
  split
  · exact h.refl s
  · split
    · exact h.refl s
    · split
      · exact h.refl s
      · exact h.closeSec s _ _ (by assumption) (by assumption) (by assumption)

omit h in
theorem closeSection_keys (s : St) : dkeys (closeSection s).2.sections = dkeys s.sections := by
  unfold closeSection
  split
  · rfl
  · split
    · rfl
    · split
      · rfl
      · rename_i hsec
        exact dkeys_dset_mem _ _ _ ((dget_isSome_iff _ _).1 (by simp [hsec]))

omit h in
/-- After closing, the open section carries its end and its size. -/
theorem closeSection_closed {s s' : St} {u : Unit} (hc : closeSection s = (.ok u, s')) :
    ∀ m, s'.curSection = some m → m ≠ [] → ∃ sec, dget s'.sections m = some sec ∧
      sec.stop = some s'.pc ∧ sec.size = some ((s'.bytes.length : Int) - sec.offset) := by
  intro m hm hne
  unfold closeSection at hc
  split at hc
  · rename_i hn; simp at hc; subst hc; rw [hm] at hn; simp at hn
  · rename_i n hn
    split at hc
    · simp at hc; subst hc; rw [hm] at hn; simp at hn; simp_all
    · split at hc
      · simp at hc
      · rename_i sec hsec
        simp at hc; subst hc
        simp only at hm
        rw [hn] at hm
        injection hm with hm; subst hm
        exact ⟨_, dget_dset_self _ _ _, rfl, rfl⟩

omit h in
theorem changeOrg_sections (a b : Int) (s : St) : (changeOrg d a b s).2.sections = s.sections := by
  unfold changeOrg
  split
  · rfl
  · simp only
    repeat' split
    all_goals rfl

theorem keeps_sectionBody (n p : Str) (o : Option Str) : Keeps R (sectionBody d n p o) := by
  have hd := h.toDataRel
  unfold sectionBody
  refine .bind' hd (.readOnly hd (stringify_state n)) fun s0 name s hs => ?_
  have e : s0 = s := by have := stringify_state n s0; rw [hs] at this; exact this.symm
  subst e
  rw [bind_eq, get_eq]
  simp only
  split
  · exact h.refl _
  · rename_i hmem
    split
    · exact h.refl _
    · rename_i hperm
      simp only [Bool.not_eq_true, Bool.not_eq_false'] at hmem hperm
      -- the tail: close the old section, open the new one
      have tail : ∀ s1, dkeys s1.sections = dkeys s0.sections →
          R s1 ((closeSection >>= fun _ => modify fun s =>
            let sec : Section := { start := s.pc, offset := s.bytes.length, permissions := p }
            { s with curSection := some name, sections := dset s.sections name sec } : M Unit) s1).2 := by
        intro s1 h1
        rw [bind_eq]
        have hc := keeps_closeSection h s1
        have hk := closeSection_keys s1
        rcases hcs : closeSection s1 with ⟨r, s2⟩
        rw [hcs] at hc hk
        cases r with
        | error e => exact hc
        | ok u =>
          refine h.trans hc (h.openSec s2 name p ?_ hperm (closeSection_closed hcs))
          rw [dmem_false_iff, hk, h1, ← dmem_false_iff]
          exact hmem
      cases o with
      | none => exact tail s0 rfl
      | some t =>
        simp only
        rw [bind_eq]
        have e2 := parseArg_state d t 64 s0
        rcases hpa : parseArg d t 64 s0 with ⟨r, s1⟩
        rw [hpa] at e2
        simp only at e2
        subst e2
        cases r with
        | error e => exact h.refl _
        | ok v =>
          simp only
          have hv := (parseArg_ok (by decide) hpa).2.1
          rw [bind_eq]
          have hc := keeps_changeOrg (d := d) h.toOrgRel v 0 hv (by decide) s1
          have hk := changeOrg_sections (d := d) v 0 s1
          rcases hco : changeOrg d v 0 s1 with ⟨r, s2⟩
          rw [hco] at hc hk
          cases r with
          | error e => exact hc
          | ok u => exact h.trans hc (tail s2 (by rw [← hk]))

theorem keeps_directiveSection (l : List Str) : Keeps R (directiveSection d l) := by
  unfold directiveSection
  split
  · exact keeps_sectionBody h _ _ _
  · exact keeps_sectionBody h _ _ _
  · exact .throw h.toDataRel _

theorem keeps_directiveInclude (env : Env) (rec : Str → M Unit) (hr : ∀ c, Keeps R (rec c)) (l : List Str) :
    Keeps R (directiveInclude env rec l) := by
  have hd := h.toDataRel
  refine .bind hd (.readOnly hd (exactlyTwo_state l)) fun p => ?_
  refine .bind hd (.readOnly hd (stringify_state _)) fun name => ?_
  refine .bind hd (.readOnly hd (openFile_state _)) fun code => ?_
  exact hr code

theorem keeps_builtin (env : Env) (rec : Str → M Unit) (hr : ∀ c, Keeps R (rec c)) :
    ∀ p ∈ builtinDirective d env rec, ∀ l, Keeps R (p.2 l) := by
  intro p hp l
  have hin : p ∈ quietDirectives d env ∨ p ∈ ([
    ("org", directiveOrg d),
    ("include", directiveInclude env rec),
    ("ram", directiveRam d),
    ("section", directiveSection d)] : List (String × (List Str → M Unit))) := by
    simp only [builtinDirective, quietDirectives, dataDirectives, List.mem_append, List.mem_cons,
      List.not_mem_nil, or_false] at hp ⊢
    rcases hp with hp | hp | hp | hp | hp | hp | hp | hp | hp | hp | hp | hp | hp | hp | hp | hp | hp |
      hp | hp | hp | hp | hp | hp | hp | hp | hp | hp | hp | hp | hp <;> simp [hp]
  rcases hin with hin | hin
  · exact keeps_quiet h.toMetaRel d env p hin l
  · simp only [List.mem_cons, List.not_mem_nil, or_false] at hin
    rcases hin with rfl | rfl | rfl | rfl
    · exact keeps_directiveOrg h.toOrgRel l
    · exact keeps_directiveInclude h env rec hr l
    · exact keeps_directiveRam h.toDataRel h.ram l
    · exact keeps_directiveSection h l

/-- The directives an assembler class adds keep `R`. -/
def CustomKeeps (d : Dialect) (env : Env) (R : St → St → Prop) : Prop :=
  ∀ key f, d.directives env key = some f → ∀ l, Keeps R (f l)

theorem keeps_execDirective (env : Env) (rec : Str → M Unit) (hr : ∀ c, Keeps R (rec c))
    (hc : CustomKeeps d env R) (l : List Str) : Keeps R (execDirective d env rec l) := by
  have hd := h.toDataRel
  refine .bind hd (.get hd) fun s => ?_
  simp only
  split
  · exact .throw hd _
  · split
    · exact .throw hd _
    · rename_i f hf
      unfold lookupDirective at hf
      split at hf
      · rename_i g hg
        injection hf with hf; subst hf
        exact hc _ _ hg _
      · have := mem_of_dget hf
        rw [List.mem_map] at this
        obtain ⟨p, hp, he⟩ := this
        injection he with _ he; subst he
        exact keeps_builtin h env rec hr p hp _

theorem keeps_execLabel (l : List Str) : Keeps R (execLabel d l) := by
  intro s
  unfold execLabel
  split
  · exact h.refl s
  · rename_i hrec
    split
    · exact h.refl s
    · split
      · exact h.refl s
      · split
        · exact h.refl s
        · split
          · exact h.refl s
          · exact h.refl s
          · rename_i hm hv _ hp
            exact h.label s _ hrec (by simpa using hm) (by simpa using hv) hp

theorem keeps_execStmt (env : Env) (depth : Nat) (rec : Str → M Unit) (hr : ∀ c, Keeps R (rec c))
    (hc : CustomKeeps d env R) (st : Stmt) : Keeps R (execStmt d env depth rec st) := by
  unfold execStmt
  split
  · exact keeps_execInstr h.toInstrRel d _ _ _
  · exact keeps_execDirective h env rec hr hc _
  · exact keeps_execLabel h _

theorem keeps_execStmts (env : Env) (depth : Nat) (rec : Str → M Unit) (hr : ∀ c, Keeps R (rec c))
    (hc : CustomKeeps d env R) (l : List Stmt) : Keeps R (execStmts d env depth rec l) := by
  have hd := h.toDataRel
  refine .bind hd (.forEach hd fun st _ => keeps_execStmt h env depth rec hr hc st) fun _ => ?_
  exact .bind hd (keeps_finalFill hd d) fun _ => keeps_closeSection h

theorem keeps_assemble (env : Env) (hc : CustomKeeps d env R) : ∀ depth code, Keeps R (assemble d env depth code) := by
  intro depth
  have hd := h.toDataRel
  induction depth with
  | zero => intro code; exact .throw hd _
  | succ n ih =>
    intro code
    exact .bind hd (.lift hd _) fun stmts => keeps_execStmts h env n _ ih hc stmts

end asm

end Necro
