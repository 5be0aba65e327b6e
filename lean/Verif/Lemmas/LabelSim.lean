import Verif.Lemmas.LabelCpus
import Verif.Lemmas.MoreMacros
import Verif.Props.Enclosed
/-!
# One more label makes no difference to a program that does not refer to it
-/

namespace Necro
open Spec
open M (throw get modify lift forEach times)

/-- The labels `b` are the labels `a` and perhaps `n`. -/
def PlusLabel (n : Str) (a b : Labels) : Prop := dget a n = none ∧ ∀ k, k ≠ n → dget b k = dget a k

theorem PlusLabel.more {n : Str} {a b : Labels} (h : PlusLabel n a b) : MoreLabels a b := by
  intro k l hk
  by_cases hn : k = n
  · rw [hn, h.1] at hk; cases hk
  · rw [h.2 k hn, hk]

/-! ## the 6502 -/

/-- The reference of an instruction with absolute addressing. -/
def absRef (a : Str) : Reloc := { label := a, size := 2, bitsSize := 16, offset := 1 }

/-- One more label makes no difference, or it is the one referred to. -/
def HNames (n : Str) (m : H (Option Bytes)) : Prop := ∀ c ls blob rels, PlusLabel n c.labels ls → m c = (.ok (some blob), rels) →
  m { c with labels := ls } = m c ∨ ∃ a, rels = [absRef a] ∧ (getMathFormula a).body = n

theorem HStable.names {m : H (Option Bytes)} (h : HStable m) (n : Str) : HNames n m :=
  fun c ls blob rels hp hr => .inl (h c ls hp.more (by rw [hr]; exact present_ok _))

theorem hbind_ok {m : H α} {f : α → H β} {c : Ctx} {x : α} (h : m c = (.ok x, [])) : (m >>= f) c = f x c := by
  show H.bind m f c = f x c
  unfold H.bind
  rw [h]
  dsimp only
  rcases f x c with ⟨y, l⟩
  rfl

theorem hbind_error {m : H α} {f : α → H β} {c : Ctx} {e : Err} {l : List Reloc} (h : m c = (.error e, l)) : (m >>= f) c = (.error e, l) := by
  show H.bind m f c = _
  unfold H.bind
  rw [h]

theorem HNames.bind {n : Str} {m : H α} {f : α → H (Option Bytes)} (hm : HStable m) (hq : ∀ c, (m c).2 = []) (hf : ∀ x, HNames n (f x)) : HNames n (m >>= f) := by
  intro c ls blob rels hp hr
  have hq := hq c
  rcases hx : m c with ⟨e | x, l⟩
  · rw [hbind_error hx] at hr; cases hr
  · rw [hx] at hq
    cases (hq : l = [])
    have hx' : m { c with labels := ls } = (.ok x, []) := by rw [hm c ls hp.more (by rw [hx]; exact present_ok x), hx]
    rw [hbind_ok hx] at hr
    rw [hbind_ok hx, hbind_ok hx']
    exact hf x c ls blob rels hp hr

theorem names_label {n : Str} {arg : Str} {f : Option Int → H (Option Bytes)} (hs : ∀ x, HStable (f x))
    (hr : ∀ c blob rels, f none c = (.ok (some blob), rels) → rels = [absRef arg]) : HNames n (H.labelAddress arg >>= f) := by
  intro c ls blob rels hp h
  rcases hl : labelAddress c.sy c.labels arg with e | o
  · rw [hbind_error (show H.labelAddress arg c = (.error e, []) by unfold H.labelAddress; rw [hl])] at h; cases h
  have e1 : H.labelAddress arg c = (.ok o, []) := by unfold H.labelAddress; rw [hl]
  rw [hbind_ok e1] at h
  have same : labelAddress c.sy ls arg = .ok o → (H.labelAddress arg >>= f) { c with labels := ls } = (H.labelAddress arg >>= f) c := by
    intro h2
    rw [hbind_ok e1, hbind_ok (x := o) (show H.labelAddress arg { c with labels := ls } = (.ok o, []) by unfold H.labelAddress; rw [h2])]
    exact hs o c ls hp.more (by rw [h]; exact present_ok _)
  cases o with
  | some v => exact .inl (same (labelAddress_more hp.more hl))
  | none =>
    have hd : dget c.labels (getMathFormula arg).body = none := by
      unfold labelAddress labelAddressW at hl
      dsimp only at hl
      cases hd : dget c.labels (getMathFormula arg).body with
      | none => rfl
      | some l =>
        rw [hd] at hl
        dsimp only at hl
        split at hl <;> cases hl
    by_cases hn : (getMathFormula arg).body = n
    · exact .inr ⟨arg, hr c blob rels h, hn⟩
    · refine .inl (same ?_)
      unfold labelAddress labelAddressW
      dsimp only
      rw [hp.2 _ hn, hd]

theorem names_needMode {n : Str} {m : List (Mode × Nat)} {k : Mode} {f : Nat → H (Option Bytes)} (h : ∀ op, HNames n (f op)) : HNames n (needMode m k >>= f) := by
  refine .bind ?_ (fun c => ?_) h
  · unfold needMode; hstable
  · unfold needMode; cases dget m k <;> rfl

theorem ref_6502 (op : Int) (arg : Str) (c : Ctx) (o : Option Bytes) (rels : List Reloc)
    (h : ((do
      H.reloc { label := arg, size := 2, bitsSize := 16, offset := 1 }
      hPack false [.B, .H] [op, 0]) : H (Option Bytes)) c = (.ok o, rels)) : rels = [absRef arg] := by
  have hq : ∀ c, (hPack false [.B, .H] [op, 0] c).2 = [] := by
    intro c
    unfold hPack
    show (H.bind _ _ c).2 = []
    unfold H.bind H.lift
    dsimp only
    cases pack false [.B, .H] ([op, 0].map some) <;> rfl
  have : H.bind (H.reloc { label := arg, size := 2, bitsSize := 16, offset := 1 }) (fun _ => hPack false [.B, .H] [op, 0]) c = (.ok o, rels) := h
  unfold H.bind H.reloc at this
  dsimp only at this
  injection this with _ h2
  rw [hq] at h2
  exact h2.symm

theorem names_address6502 (n : Str) (ab zp : Option Nat) (arg : Str) : HNames n (m6502Address ab zp arg) := by
  refine .bind (HStable.parseInteger _ _ _) (fun _ => rfl) fun x => ?_
  cases x with
  | some v =>
    refine HStable.names ?_ n
    dsimp only
    hstable
  | none =>
    refine names_label (fun x => ?_) fun c blob rels h => ?_
    · hstable
    · dsimp only at h
      cases ab with
      | none => cases h
      | some op => exact ref_6502 _ _ _ _ _ h

theorem stable_branch6502 (code : Nat) (l : List Str) : HStable (m6502Branch code l) := by unfold m6502Branch; hstable

theorem names_mode6502 (n : Str) (m : List (Mode × Nat)) (l : List Str) : HNames n (m6502Mode m l) := by
  unfold m6502Mode
  dsimp only
  repeat' split
  · exact names_needMode fun _ => (stable_packByte _).names n
  · exact names_needMode fun _ => HStable.names (HStable.bind (HStable.parseIntegerOrLabel _ _) fun _ => stable_packByte _) n
  · exact names_address6502 n _ _ _
  · exact names_address6502 n _ _ _
  · exact names_address6502 n _ _ _
  · exact names_needMode fun _ => names_address6502 n _ _ _
  · exact names_needMode fun _ => names_address6502 n _ _ _
  · exact names_needMode fun _ => names_address6502 n _ _ _
  · exact (HStable.throw _).names n

theorem names_6502 (n : Str) {key : Str} {f} (h : mos6502.instrs key = some (.handler f)) (l : List Str) : HNames n (f l) := by
  have hm := mem_of_dget h
  simp only [m6502Table, List.mem_append, List.mem_map] at hm
  rcases hm with (⟨p, _, hp⟩ | ⟨p, _, hp⟩) | ⟨p, _, hp⟩ <;> cases hp
  · exact (stable_branch6502 _ l).names n
  · exact names_mode6502 n _ l

/-- The instructions of a processor. -/
def NamesLines (d : Dialect) : Prop := ∀ n key f l, d.instrs key = some (.handler f) → HNames n (f l)

theorem names_tool (tool : Tool) : NamesLines tool.dialect ∧ (TidyLines tool.dialect ∨ ∀ key f l, tool.dialect.instrs key = some (.handler f) → HStable (f l)) := by
  have h6 : NamesLines mos6502 ∧ (TidyLines mos6502 ∨ ∀ key f l, mos6502.instrs key = some (.handler f) → HStable (f l)) :=
    ⟨fun n key f l h => names_6502 n h l, .inl tidy_mos6502⟩
  have st : ∀ {d : Dialect}, (∀ key f l, d.instrs key = some (.handler f) → HStable (f l)) →
      NamesLines d ∧ (TidyLines d ∨ ∀ key f l, d.instrs key = some (.handler f) → HStable (f l)) :=
    fun h => ⟨fun n key f l hk => (h key f l hk).names n, .inr h⟩
  cases tool with
  | mos6502 | nes => exact h6
  | mips32 | psx => exact st fun key f l h => stable_mips h l
  | lr35902 | gameboy => exact st fun key f l h => stable_gb h l
  | thumb | gba => exact st fun key f l h => stable_thumb h l
  | mc68000 | genesis => exact st fun key f l h => stable_m68 h l
  | i8086 | i386Elf => exact st fun key f l h => stable_i86 h l
  | z80 | sms => exact st fun key f l h => stable_z80 h l
  | ppc | ppcElf => exact st fun key f l h => stable_ppc h l
  | x86 | x86Elf => exact st fun key f l h => stable_x86 h l

/-! ## what later statements keep -/

/-- The references to emitted bytes and the labels are kept. -/
structure Stays (s s' : St) : Prop where
  length : s.bytes.length ≤ s'.bytes.length
  refs : ∀ i < s.bytes.length, s'.relocs.lookup i = s.relocs.lookup i
  labels : s.labels <+: s'.labels

theorem _root_.Necro.Spec.Later.stays {s s' : St} (h : Later s s') : Stays s s' := ⟨h.bytes.length_le, h.refs, h.labels⟩

theorem rel_stays (d : Dialect) : AsmRel d Stays where
  refl := fun s => ((rel_later d).refl s).stays
  trans := fun h1 h2 => ⟨Nat.le_trans h1.length h2.length,
    fun i hi => by rw [h2.refs i (Nat.lt_of_lt_of_le hi h1.length), h1.refs i hi], h1.labels.trans h2.labels⟩
  append := fun s b => ((rel_later d).append s b).stays
  reloc := fun s r => ((rel_later d).reloc s r).stays
  macros := fun s m => ((rel_later d).macros s m).stays
  recording := fun s m => ((rel_later d).recording s m).stays
  rep := fun s m => ((rel_later d).rep s m).stays
  log := fun s m => ((rel_later d).log s m).stays
  defines := fun s m => ((rel_later d).defines s m).stays
  exports := fun s m h => ((rel_later d).exports s m h).stays
  pad := fun s b => ((rel_later d).pad s b).stays
  org := fun s x y h1 h2 h3 => ((rel_later d).org s x y h1 h2 h3).stays
  ram := fun s n h => ((rel_later d).ram s n h).stays
  label := fun s k h1 h2 h3 h4 => ((rel_later d).label s k h1 h2 h3 h4).stays
  closeSec := fun s n sec h1 h2 h3 => ((rel_later d).closeSec s n sec h1 h2 h3).stays
  openSec := fun s n p h1 h2 h3 => ((rel_later d).openSec s n p h1 h2 h3).stays

theorem stays_same {s s' : St} (h1 : s.bytes.length ≤ s'.bytes.length) (h2 : s'.relocs = s.relocs) (h3 : s'.labels = s.labels) : Stays s s' :=
  ⟨h1, fun i _ => by rw [h2], by rw [h3]; exact List.prefix_refl _⟩

theorem stays_changeOrg (d : Dialect) (x y : Int) : Keeps Stays (changeOrg d x y) := by
  intro s
  unfold changeOrg
  split
  · exact (rel_stays d).refl s
  · simp only
    repeat' split
    all_goals exact stays_same (by simp) rfl rfl

theorem stays_writeAt : ∀ (bs : Bytes) (i : Nat), Keeps Stays (writeAt i bs)
  | [], _ => fun s => (rel_stays {}).refl s
  | b :: bs, i => by
    refine Keeps.bind (rel_stays {}).toDataRel (f := fun _ => writeAt (i + 1) bs) (fun s => ?_) fun _ => stays_writeAt bs (i + 1)
    unfold setByte
    split
    · exact stays_same (by simp) rfl rfl
    · exact (rel_stays {}).refl s

theorem stays_fill (d : Dialect) (address size : Nat) (l : List Str) : Keeps Stays (cartridgeFill d address size l) := by
  have hd := (rel_stays d).toDataRel
  refine .bind hd (.get hd) fun s => ?_
  split
  · exact .throw hd _
  split
  · exact .throw hd _
  refine .bind hd ?_ fun bs => ?_
  · intro s
    have := (parseBytes_spec d (l.drop 1) s).1
    unfold headerBytes
    split
    · next e => rw [e] at this; rw [show _ = s from this]; exact hd.refl s
    · next e => rw [this]; exact hd.refl s
  split
  · exact .throw hd _
  · exact stays_writeAt bs address

theorem stays_gameboy (base : Dialect) (env : Env) : CustomKeeps (gameboyOn base) env Stays := by
  intro key f hf ts
  refine custom_class (d := base) (l := gameboyDirectives base env) (fun p hp ts => ?_) hf ts
  have hd := (rel_stays base).toDataRel
  simp only [gameboyDirectives, List.mem_cons, List.not_mem_nil, or_false] at hp
  rcases hp with rfl | rfl | rfl | rfl | rfl | rfl | rfl | rfl
  · refine .bind hd (.get hd) fun s => ?_
    split
    · exact .throw hd _
    · exact .bind hd (stays_changeOrg base _ _) fun _ => .bind hd (.appendBytes hd _) fun _ => fun s => stays_same (Nat.le_refl _) rfl rfl
  · exact stays_fill base _ _ ts
  · exact stays_fill base _ _ ts
  · exact stays_fill base _ _ ts
  · exact stays_fill base _ _ ts
  · exact stays_fill base _ _ ts
  · exact stays_fill base _ _ ts
  · exact kept_tiles hd env _ _ _ ts

theorem stays_nes (env : Env) : CustomKeeps nes env Stays := by
  intro key f hf ts
  refine custom_class (d := mos6502) (l := nesDirectives mos6502 env) (fun p hp ts => ?_) hf ts
  have hd := (rel_stays nes).toDataRel
  simp only [nesDirectives, List.mem_cons, List.not_mem_nil, or_false] at hp
  rcases hp with rfl | rfl | rfl | rfl
  · refine .bind hd (.get hd) fun s => ?_
    split
    · exact .throw hd _
    · exact .bind hd (.appendBytes hd _) fun _ => fun s => stays_same (Nat.le_refl _) rfl rfl
  · exact stays_fill mos6502 _ _ ts
  · exact stays_fill mos6502 _ _ ts
  · exact kept_tiles hd env _ _ _ ts

theorem Keeps.weaken {R Q : St → St → Prop} {m : M α} (h : Keeps R m) (hw : ∀ s s', R s s' → Q s s') : Keeps Q m := fun s => hw _ _ (h s)

theorem stays_tool (tool : Tool) (env : Env) : CustomKeeps tool.dialect env Stays := by
  cases tool <;> first
    | exact noCustom (fun _ => rfl) _
    | exact fun key f hf ts => (processor_keeps .x86 env key f hf ts).weaken fun _ _ => Later.stays
    | exact stays_gameboy _ env
    | exact stays_nes env
    | exact sms_custom _ env (rel_stays {}).toDataRel

/-! ## simulation -/

/-- `t` is `s` with perhaps one more label. -/
def WithLabel (n : Str) (s t : St) : Prop := ∃ b, t = { s with labels := b } ∧ PlusLabel n s.labels b

/-- The finished program `u` neither defines nor refers to `n`. -/
structure Unnamed (n : Str) (u : St) : Prop where
  free : dget u.labels n = none
  refs : ∀ e ∈ u.relocs, (getMathFormula e.2.label).body ≠ n

/-- On the way to `u`, `m` does the same with one more label. -/
def SimLabel (n : Str) (u : St) (m : M α) : Prop := ∀ s t v s', WithLabel n s t → m s = (.ok v, s') → Stays s' u → ∃ t', m t = (.ok v, t') ∧ WithLabel n s' t'

namespace SimLabel
variable {n : Str} {u : St}

theorem frame {m : M α} (h : LabelFrame m) : SimLabel n u m := by
  rintro s _ v s' ⟨b, rfl, hb⟩ hm -
  obtain ⟨h1, h2⟩ := h.eq s b v s' hb.more hm
  exact ⟨_, h1, b, rfl, by rw [h2]; exact hb⟩

theorem bind {m : M α} {f : α → M β} (hm : SimLabel n u m) (hk : ∀ x, Keeps Stays (f x)) (hf : ∀ x, SimLabel n u (f x)) : SimLabel n u (m >>= f) := by
  intro s t v s' hst h hu
  rw [bind_eq] at h
  rcases hr : m s with ⟨r, s1⟩
  rw [hr] at h
  cases r with
  | error e => cases h
  | ok x =>
    have h1 := hk x s1
    rw [show f x s1 = (.ok v, s') from h] at h1
    obtain ⟨t1, g1, g2⟩ := hm s t x s1 hst hr ((rel_stays {}).trans h1 hu)
    obtain ⟨t2, g3, g4⟩ := hf x s1 t1 v s' g2 h hu
    exact ⟨t2, by rw [bind_eq, g1]; exact g3, g4⟩

theorem after {m : M α} {f : α → M β} (hm : LabelFrame m) (hf : ∀ x, SimLabel n u (f x)) : SimLabel n u (m >>= f) := by
  rintro s _ v s' ⟨b, rfl, hb⟩ h hu
  rw [bind_eq] at h
  rcases hr : m s with ⟨r, s1⟩
  rw [hr] at h
  cases r with
  | error e => cases h
  | ok x =>
    obtain ⟨h1, h2⟩ := hm.eq s b x s1 hb.more hr
    obtain ⟨t2, g3, g4⟩ := hf x s1 _ v s' ⟨b, rfl, by rw [h2]; exact hb⟩ h hu
    exact ⟨t2, by rw [bind_eq, h1]; exact g3, g4⟩

theorem forEach {α : Type} {f : α → M Unit} (hk : ∀ x, Keeps Stays (f x)) (hf : ∀ x, SimLabel n u (f x)) : ∀ l : List α, SimLabel n u (M.forEach l f)
  | [] => frame (.pure ())
  | x :: l => bind (hf x) (fun _ => .forEach (rel_stays {}).toDataRel fun y _ => hk y) fun _ => forEach hk hf l

end SimLabel

theorem labels_closeSection : LabelFrame closeSection := by
  refine .blind ?_
  rintro ⟨_, _, _, _, _, _, _, _, _, _, sections, cur, _, _, _, _⟩ b
  unfold closeSection
  dsimp only
  cases cur with
  | none => rfl
  | some n =>
    dsimp only
    split
    · rfl
    · cases dget sections n <;> rfl

theorem labels_section (d : Dialect) (l : List Str) : LabelFrame (directiveSection d l) := by
  have h : ∀ n p o, LabelFrame (sectionBody d n p o) := by
    intro n p o
    refine .bind (labels_stringify n) fun name => .getBind (fun _ _ => rfl) fun s => .ite (.throw _) (.ite (.throw _) ?_)
    cases o with
    | none => exact .bind labels_closeSection fun _ => .blind fun _ _ => rfl
    | some t =>
      exact .bind (labels_parseArg d t 64) fun v => .bind (labels_changeOrg d v 0) fun _ => .bind labels_closeSection fun _ => .blind fun _ _ => rfl
  unfold directiveSection
  split
  · exact h _ _ _
  · exact h _ _ _
  · exact .throw _

theorem labels_directiveMacro (d : Dialect) (l : List Str) : LabelFrame (directiveMacro d l) := by
  unfold directiveMacro
  refine .getBind (fun _ _ => rfl) fun s => ?_
  repeat' split
  all_goals first
    | exact .throw _
    | exact .modify (fun _ _ => rfl) fun _ => rfl
    | exact .blind fun _ _ => rfl

theorem labels_setBodyTokens (k : Str) (i : Nat) (t : List Str) : LabelFrame (setBodyTokens k i t) := by
  refine .blind fun s b => ?_
  rw [setBodyTokens_eq, setBodyTokens_eq]

theorem labels_writeBack (ref : StmtRef) (t : List Str) : LabelFrame (writeBack ref t) := by
  cases ref with
  | none => exact .pure ()
  | some p => exact labels_setBodyTokens _ _ _

theorem labels_recordStmt (k : Str) (st : Stmt) : LabelFrame (recordStmt k st) := by
  refine .blind fun s b => ?_
  unfold recordStmt
  have : ({ s with labels := b } : St).macros = s.macros := rfl
  rw [this]
  cases dget s.macros k <;> rfl

theorem foldl_addReloc_labels (rels : List Reloc) (s : St) (b : Labels) :
    rels.foldl addReloc { s with labels := b } = { rels.foldl addReloc s with labels := b } ∧ (rels.foldl addReloc s).labels = s.labels := by
  induction rels generalizing s with
  | nil => exact ⟨rfl, rfl⟩
  | cons r rels ih =>
    simp only [List.foldl_cons]
    obtain ⟨h1, h2⟩ := ih (addReloc s r)
    exact ⟨h1, h2⟩

theorem runHandler_same {d : Dialect} {f : List Str → H (Option Bytes)} {l : List Str} {s s' : St} {b : Labels} {blob : Bytes}
    (h : f l (ctxOf d { s with labels := b }) = f l (ctxOf d s)) (hr : runHandler d f l s = (.ok blob, s')) :
    runHandler d f l { s with labels := b } = (.ok blob, { s' with labels := b }) ∧ s'.labels = s.labels := by
  unfold runHandler at hr ⊢
  have h : f l ⟨({ s with labels := b } : St).pc, b, d.sy, s.bitsMode⟩ = f l ⟨s.pc, s.labels, d.sy, s.bitsMode⟩ := h
  dsimp only at hr ⊢
  rw [h]
  rcases hx : f l ⟨s.pc, s.labels, d.sy, s.bitsMode⟩ with ⟨e | o, rels⟩
  · rw [hx] at hr; cases hr
  · rw [hx] at hr
    cases o with
    | none => cases hr
    | some blob' =>
      cases hr
      obtain ⟨h1, h2⟩ := foldl_addReloc_labels rels s b
      exact ⟨by dsimp only; rw [h1], h2⟩

section
variable {d : Dialect} {n : Str} {u : St}

theorem simLabel_handler (hd : NamesLines d ∧ (TidyLines d ∨ ∀ key f l, d.instrs key = some (.handler f) → HStable (f l))) (hu : Unnamed n u) {key : Str} {f : List Str → H (Option Bytes)} (hf : d.instrs key = some (.handler f)) (l : List Str) :
    SimLabel n u (do let blob ← runHandler d f l; appendBytes blob) := by
  rcases hd with ⟨hd, ht | hs⟩
  · rintro s _ v s' ⟨b, rfl, hb⟩ h hst
    rw [bind_eq] at h ⊢
    rcases hr : runHandler d f l s with ⟨e | blob, s1⟩
    · rw [hr] at h; cases h
    · rw [hr] at h
      rcases hx : f l ⟨s.pc, s.labels, d.sy, s.bitsMode⟩ with ⟨e | o, rels⟩
      · unfold runHandler at hr; rw [hx] at hr; cases hr
      cases o with
      | none => unfold runHandler at hr; rw [hx] at hr; cases hr
      | some blob' =>
        have hr' := hr
        unfold runHandler at hr'
        rw [hx] at hr'
        cases hr'
        have same : f l (ctxOf d { s with labels := b }) = f l (ctxOf d s) := by
          refine (hd n key f l hf _ b _ _ hb hx).resolve_right ?_
          rintro ⟨a, rfl, ha⟩
          have hfit := (ht key f l hf _ _ _ hx blob rfl (absRef a) (List.mem_singleton_self _)).1
          have hlen : 1 + 2 ≤ blob.length := hfit
          cases h
          have hpos : s.bytes.length + 1 < (s.bytes ++ blob).length := by rw [List.length_append]; omega
          have h1 := hst.refs (s.bytes.length + 1) hpos
          have h2 : (addReloc s (absRef a)).relocs.lookup (s.bytes.length + 1) = some (absRef a) := by
            rw [← dget_eq_lookup_nat]; exact dget_dset_self _ _ _
          have h3 : u.relocs.lookup (s.bytes.length + 1) = some (absRef a) := h1.trans h2
          rw [← dget_eq_lookup_nat] at h3
          exact hu.refs _ (mem_of_dget h3) ha
        obtain ⟨g1, g2⟩ := runHandler_same same hr
        rw [g1]
        cases h
        exact ⟨_, rfl, b, rfl, by rw [show _ = s.labels from g2]; exact hb⟩
  · refine .frame (.bind ⟨fun s b v s' hl h => ?_⟩ fun _ => labels_appendBytes _)
    refine runHandler_same ?_ h
    refine hs key f l hf (ctxOf d s) b hl ?_
    unfold runHandler at h
    intro e he
    rcases hx : f l ⟨s.pc, s.labels, d.sy, s.bitsMode⟩ with ⟨r, rels⟩
    have : r = .error e := by rw [← he]; exact congrArg Prod.fst hx.symm
    rw [hx, this] at h
    cases h

theorem simLabel_macroStep {exec : StmtRef → Stmt → M Unit} (he : ∀ r st, SimLabel n u (exec r st)) (hk : ∀ r st, Keeps Stays (exec r st)) (key : Str) (params args : List Str)
    (i : Nat) : SimLabel n u (macroStep exec key params args i) := by
  intro s t v s' hst h hu
  have e : t.macros = s.macros := by obtain ⟨b, rfl, _⟩ := hst; rfl
  unfold macroStep at h ⊢
  rw [bind_eq, get_eq] at h ⊢
  dsimp only at h ⊢
  rw [e]
  revert h
  refine fun h => (?_ : SimLabel n u _) _ _ _ _ hst h hu
  cases dget s.macros key with
  | none => exact .frame (.throw _)
  | some m =>
    dsimp only
    cases m.body[i]? with
    | none => exact .frame (.pure ())
    | some st =>
      refine .after (.lift _) fun md => .after (labels_setBodyTokens _ _ _) fun _ => .bind (he _ _) (fun _ => ?_) fun _ => .frame (labels_setBodyTokens _ _ _)
      exact keeps_setBodyTokens (rel_stays {}).toMetaRel.toInstrRel.toBodyRel _ _ _

variable (hd : NamesLines d ∧ (TidyLines d ∨ ∀ key f l, d.instrs key = some (.handler f) → HStable (f l))) (hu : Unnamed n u)

include hd hu

theorem simLabel_execInstr : ∀ depth ref st, SimLabel n u (execInstr d depth ref st) := by
  have hk := (rel_stays d).toMetaRel.toInstrRel
  intro depth
  induction depth with
  | zero => intro ref st; exact .frame (.throw _)
  | succ m ih =>
    intro ref st s t v s' hst h hu'
    obtain ⟨e1, e2, e3⟩ : t.recording = s.recording ∧ t.defines = s.defines ∧ t.macros = s.macros := by
      obtain ⟨b, rfl, _⟩ := hst
      exact ⟨rfl, rfl, rfl⟩
    rw [execInstr, bind_eq, get_eq] at h ⊢
    dsimp only at h ⊢
    rw [e1, e2, e3]
    revert h
    refine fun h => (?_ : SimLabel n u _) _ _ _ _ hst h hu'
    cases s.recording with
    | some key => exact .frame (labels_recordStmt _ _)
    | none =>
      dsimp only
      refine .after (labels_writeBack _ _) fun _ => ?_
      cases substituteWithDict st.tokens s.defines 0 with
      | nil => exact .frame (.throw _)
      | cons w r =>
        dsimp only
        cases dget s.macros (d.key w) with
        | some mac =>
          refine .forEach (fun i => keeps_macroStep hk.toBodyRel _ (fun r st => keeps_execInstr hk d m r st) _ _ _ _) (fun i => ?_) _
          exact simLabel_macroStep ih (fun r st => keeps_execInstr hk d m r st) _ _ _ _
        | none =>
          dsimp only
          cases hi : d.instrs (d.key w) with
          | none => exact .frame (.throw _)
          | some ins =>
            cases ins with
            | fixed blob =>
              dsimp only
              split
              · exact .frame (.throw _)
              · exact .frame (labels_appendBytes _)
            | handler f => exact simLabel_handler hd hu hi _

omit hd in
theorem simLabel_execLabel (l : List Str) : SimLabel n u (execLabel d l) := by
  rintro s _ v s' ⟨b, rfl, hb⟩ h hst
  unfold execLabel at h ⊢
  dsimp only at h ⊢
  cases hr : s.recording with
  | some k => rw [hr] at h; cases h
  | none =>
    rw [hr] at h
    dsimp only at h ⊢
    cases l with
    | nil => cases h
    | cons key l =>
      dsimp only at h ⊢
      cases hd : dmem s.labels key with
      | true => rw [hd] at h; cases h
      | false =>
        rw [hd] at h
        simp only [Bool.false_eq_true, if_false] at h
        cases hv : isValidName key with
        | false => rw [hv] at h; cases h
        | true =>
          rw [hv] at h
          simp only [Bool.not_true, Bool.false_eq_true, if_false] at h
          rcases hi : parseInteger d.sy s.labels key 64 false with e | o
          · rw [hi] at h; cases h
          rw [hi] at h
          cases o with
          | some x => cases h
          | none =>
            cases h
            have hkey : key ≠ n := by
              rintro rfl
              obtain ⟨z, hz⟩ := hst.labels
              have h1 : dget (dset s.labels key ⟨s.counter, s.org, s.curSection⟩) key = some ⟨s.counter, s.org, s.curSection⟩ := dget_dset_self _ _ _
              have h2 : dget u.labels key = some ⟨s.counter, s.org, s.curSection⟩ := by
                rw [← hz]
                rw [dget_eq_lookup] at h1 ⊢
                rw [List.lookup_append, h1]
                rfl
              rw [hu.free] at h2
              cases h2
            have hmem : dmem b key = false := by
              unfold dmem at hd ⊢
              rw [hb.2 _ hkey]
              exact hd
            rw [hmem, parseInteger_more hb.more (by rw [hi]; exact present_ok _), hi]
            refine ⟨_, rfl, _, rfl, ?_, fun k hk => ?_⟩
            · rw [dget_dset, if_neg hkey]; exact hb.1
            · rw [dget_dset, dget_dset, hb.2 k hk]

theorem simLabel_execDirective {env : Env} {rec : Str → M Unit} (hc : CustomLabels d env) (hr : ∀ c, SimLabel n u (rec c)) (l : List Str) :
    SimLabel n u (execDirective d env rec l) := by
  intro s t v s' hst h hu'
  have e : t.defines = s.defines := by obtain ⟨b, rfl, _⟩ := hst; rfl
  unfold execDirective at h ⊢
  rw [bind_eq, get_eq] at h ⊢
  dsimp only at h ⊢
  rw [e]
  revert h
  refine fun h => (?_ : SimLabel n u _) _ _ _ _ hst h hu'
  split
  · exact .frame (.throw _)
  · split
    · exact .frame (.throw _)
    · rename_i f hf
      unfold lookupDirective at hf
      split at hf
      · rename_i g hg
        injection hf with hf; subst hf
        exact .frame (hc _ _ hg _)
      · obtain ⟨p, hp, he⟩ := List.mem_map.1 (mem_of_dget hf)
        injection he with _ he; subst he
        rcases builtin_cases hp with h | rfl | rfl | rfl
        · exact .frame (labels_framed d env p h _)
        · exact .frame (labels_directiveMacro d _)
        · exact .frame (labels_section d _)
        · exact .after (labels_exactlyTwo _) fun _ => .after (labels_stringify _) fun _ => .after (labels_openFile _) fun _ => hr _

theorem simLabel_execStmt {env : Env} {rec : Str → M Unit} (hc : CustomLabels d env) (hr : ∀ c, SimLabel n u (rec c)) (depth : Nat) (st : Stmt) :
    SimLabel n u (execStmt d env depth rec st) := by
  unfold execStmt
  split
  · exact simLabel_execInstr hd hu depth none _
  · exact simLabel_execDirective hd hu hc hr _
  · exact simLabel_execLabel hu _

theorem simLabel_stmts {env : Env} {rec : Str → M Unit} (hc : CustomLabels d env) (hk : CustomKeeps d env Stays) (hr : ∀ c, SimLabel n u (rec c)) (hkr : ∀ c, Keeps Stays (rec c))
    (depth : Nat) (l : List Stmt) : SimLabel n u (forEach l (execStmt d env depth rec)) :=
  .forEach (fun st => keeps_execStmt (rel_stays d) env depth rec hkr hk st) (fun st => simLabel_execStmt hd hu hc hr depth st) l

omit hd hu in
theorem simLabel_finish : SimLabel n u (finalFill d >>= fun _ => closeSection) := .frame (.bind (labels_finalFill d) fun _ => labels_closeSection)

omit hd hu in
theorem stays_finish : Keeps Stays (finalFill d >>= fun _ => closeSection) :=
  .bind (rel_stays d).toDataRel (keeps_finalFill (rel_stays d).toDataRel d) fun _ => keeps_closeSection (rel_stays d)

theorem simLabel_assemble {env : Env} (hc : CustomLabels d env) (hk : CustomKeeps d env Stays) : ∀ depth code, SimLabel n u (assemble d env depth code)
  | 0, _ => .frame (.throw _)
  | m + 1, _ => .after (.lift _) fun _ => .bind
      (simLabel_stmts hd hu hc hk (simLabel_assemble hc hk m) (fun c => keeps_assemble (rel_stays d) env hk m c) m _) (fun _ => stays_finish) fun _ => simLabel_finish

end

end Necro
