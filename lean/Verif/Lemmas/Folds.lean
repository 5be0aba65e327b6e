import Verif.Model.Programs
import Verif.Lemmas.TidyLines
import Verif.Lemmas.M68Cases
import Verif.Lemmas.Lookup
/-!
# What a handler looks at in the mnemonic

Upper and lower case letters in the mnemonic make no difference to the handlers of the processors.
-/

namespace Necro
open Spec

/-- The letter case of the first word makes no difference to `f`. -/
def FirstFolds (f : List Str → H (Option Bytes)) : Prop := ∀ t t' rest, upper t = upper t' → f (t :: rest) = f (t' :: rest)

theorem folds_6502 {key : Str} {f} (h : mos6502.instrs key = some (.handler f)) : FirstFolds f := by
  have hm := mem_of_dget h
  simp only [m6502Table, List.mem_append, List.mem_map] at hm
  rcases hm with (⟨p, _, hp⟩ | ⟨p, _, hp⟩) | ⟨p, _, hp⟩ <;> cases hp <;> intro t t' rest _ <;> rfl

theorem folds_gb {key : Str} {f} (h : lr35902.instrs key = some (.handler f)) : FirstFolds f := by
  have h : gbInstr key = some (.handler f) := h
  unfold gbInstr at h
  split at h
  · cases h
  split at h
  · cases h
    intro t t' rest _
    unfold gbMethod
    split
    · rfl
    split <;> rfl
  split at h
  · cases h; intro t t' rest _; rfl
  split at h
  · cases h; intro t t' rest _; rfl
  split at h
  · cases h; intro t t' rest _; rfl
  split at h
  · cases h; intro t t' rest _; rfl
  · cases h

theorem folds_mips {be : Bool} {key : Str} {f} (h : (mipsOn be).instrs key = some (.handler f)) : FirstFolds f := by
  have h : ((dget (mipsTable.map fun p => (upper p.1.toList, p.2)) key).map fun p => InstrDef.handler (mipsRun be p.1 p.2)) = some (.handler f) := h
  cases hd : dget (mipsTable.map fun p => (upper p.1.toList, p.2)) key with
  | none => rw [hd] at h; cases h
  | some p =>
    rw [hd] at h
    cases h
    intro t t' rest _
    obtain ⟨form, n⟩ := p
    cases form <;> rfl

theorem folds_thRun : ∀ fs, FirstFolds (thRun fs)
  | [], _, _, _, _ => rfl
  | f :: fs, t, t', rest, h => by
    unfold thRun
    rw [folds_thRun fs t t' rest h]
    rfl

theorem folds_thumb {key : Str} {f} (h : thumb.instrs key = some (.handler f)) : FirstFolds f := by
  have h : (if key = "BL".toList then some (.handler thBl) else if key = "PUSH".toList then some (.handler thPush)
    else (dget (thTable.map fun p => (p.1.toList, p.2)) key).map fun fs => InstrDef.handler (thRun fs)) = some (.handler f) := h
  split at h
  · cases h; intro t t' rest _; rfl
  split at h
  · cases h
    intro t t' rest _
    unfold thPush
    match rest with
    | [] => rfl
    | [_] => rfl
    | [_, _] => rfl
    | a :: b :: c :: l => simp only [List.drop_take]; rfl
  · cases hd : dget (thTable.map fun p => (p.1.toList, p.2)) key with
    | none => rw [hd] at h; cases h
    | some p => rw [hd] at h; cases h; exact folds_thRun p

theorem folds_z80 {key : Str} {f} (h : z80.instrs key = some (.handler f)) : FirstFolds f := by
  have e : ∀ vs, FirstFolds (fun tokens => z80Call tokens vs) := by
    intro vs t t' rest hu
    induction vs with
    | nil => rfl
    | cons v vs ih =>
      obtain ⟨c, a⟩ := v
      show z80Call (t :: rest) ((c, a) :: vs) = z80Call (t' :: rest) ((c, a) :: vs)
      unfold z80Call
      rw [show z80Call (t :: rest) vs = z80Call (t' :: rest) vs from ih]
      rfl
  have h : (match z80Variants key with | [] => none | vs => some (InstrDef.handler fun tokens => z80Call tokens vs)) = some (.handler f) := h
  split at h
  · cases h
  · cases h; exact e _

theorem folds_ppc {key : Str} {f} (h : ppc.instrs key = some (.handler f)) : FirstFolds f := by
  have e : ∀ base vs, FirstFolds (fun tokens => ppcCall base tokens vs) := by
    intro base vs t t' rest hu
    have fields : ∀ items i, ppcFields (t :: rest) items i = ppcFields (t' :: rest) items i := by
      intro items
      induction items with
      | nil => intro i; rfl
      | cons x items ih =>
        intro i
        obtain ⟨a, b, k⟩ := x
        unfold ppcFields
        rw [ih]
        rfl
    induction vs with
    | nil => rfl
    | cons v vs ih =>
      show ppcCall base (t :: rest) (v :: vs) = ppcCall base (t' :: rest) (v :: vs)
      have ih : ppcCall base (t :: rest) vs = ppcCall base (t' :: rest) vs := ih
      cases v with
      | none =>
        unfold ppcCall
        rw [ih]
        rfl
      | some items =>
        unfold ppcCall
        rw [ih, fields]
        rfl
  have h : (match ppcTable.find? fun g => upper g.1.toList == key with
    | some (_, (base, cond) :: rows) => some (InstrDef.handler fun tokens => ppcCall base tokens (cond :: rows.map Prod.snd))
    | _ => none) = some (.handler f) := h
  split at h
  · cases h; exact e _ _
  · cases h

theorem args_first (t t' : Str) (rest : List Str) : ∀ (as : List I86Arg) i m b, i86Args (t :: rest) as (i + 1) m b = i86Args (t' :: rest) as (i + 1) m b
  | [], _, _, _ => rfl
  | a :: as, i, m, b => by
    unfold i86Args
    have : a.run (t :: rest) (i + 1) m = a.run (t' :: rest) (i + 1) m := by cases a <;> rfl
    rw [this]
    congr 1
    funext ⟨r, m'⟩
    cases r with
    | none => rfl
    | some p =>
      obtain ⟨d, b'⟩ := p
      dsimp only
      rw [show i + 1 + d = i + d + 1 by omega, args_first t t' rest as (i + d)]

theorem folds_i86 {key : Str} {f} (h : i8086.instrs key = some (.handler f)) : FirstFolds f := by
  have e : ∀ vs, FirstFolds (fun tokens => i86Call tokens vs) := by
    intro vs t t' rest hu
    induction vs with
    | nil => rfl
    | cons v vs ih =>
      obtain ⟨c, a⟩ := v
      have ih : i86Call (t :: rest) vs = i86Call (t' :: rest) vs := ih
      show i86Call (t :: rest) ((c, a) :: vs) = i86Call (t' :: rest) ((c, a) :: vs)
      have ha : ∀ as m b, i86Args (t :: rest) as 1 m b = i86Args (t' :: rest) as 1 m b := fun as m b => args_first t t' rest as 0 m b
      unfold i86Call
      simp only [ih, ha]
      rfl
  have h : (match i86Conds key with | [] => none | vs => some (InstrDef.handler fun tokens => i86Call tokens vs)) = some (.handler f) := h
  split at h
  · cases h
  · cases h; exact e _

theorem args86_first (t t' : Str) (rest : List Str) : ∀ (as : List X86Arg) base i m b, x86Args (t :: rest) as base (i + 1) m b = x86Args (t' :: rest) as base (i + 1) m b
  | [], _, _, _, _ => rfl
  | a :: as, base, i, m, b => by
    unfold x86Args
    have : a.run (t :: rest) base (i + 1) m = a.run (t' :: rest) base (i + 1) m := by cases a <;> rfl
    rw [this]
    congr 1
    funext ⟨r, m'⟩
    cases r with
    | none => rfl
    | some p =>
      obtain ⟨d, base', b'⟩ := p
      dsimp only
      rw [show i + 1 + d = i + d + 1 by omega, args86_first t t' rest as _ (i + d)]

theorem folds_x86 {key : Str} {f} (h : x86.instrs key = some (.handler f)) : FirstFolds f := by
  have e : ∀ vs next (t t' : Str) (rest : List Str), upper t = upper t' → x86Call next (t :: rest) vs = x86Call next (t' :: rest) vs := by
    intro vs next t t' rest hu
    induction vs with
    | nil => rfl
    | cons v vs ih =>
      obtain ⟨c, a⟩ := v
      have ha : ∀ as bs m b, x86Args (t :: rest) as bs 1 m b = x86Args (t' :: rest) as bs 1 m b := fun as bs m b => args86_first t t' rest as bs 0 m b
      unfold x86Call
      simp only [ih, ha]
      simp only [List.headD_cons, hu]
      rfl
  have h : (match x86Conds key with | [] => none | vs => some (InstrDef.handler fun tokens => x86Call (x86Next (tokens.drop 1)) tokens vs)) = some (.handler f) := h
  split at h
  · cases h
  · cases h; intro t t' rest hu; exact e _ _ _ _ _ hu


theorem m68Mode_first (t t' : Str) (rest : List Str) (i offset size : Nat) (black : List M68Mode) :
    m68Mode (t :: rest) (i + 1) offset size black = m68Mode (t' :: rest) (i + 1) offset size black := by
  unfold m68Mode
  have e : ∀ k, (t :: rest).getD (i + 1 + k) [] = (t' :: rest).getD (i + 1 + k) [] := by
    intro k
    rw [show i + 1 + k = i + k + 1 by omega]
    rfl
  have e1 : ∀ {α : Type} black mode ps (body : Nat → H α) next, m68Try (t :: rest) (i + 1) black mode ps body next = m68Try (t' :: rest) (i + 1) black mode ps body next := by
    intros; rfl
  simp only [e, e1]

theorem Sat.any {m : H α} {f : α → H β} {Q : β → Prop} (hf : ∀ a, Sat (f a) fun b _ => Q b) : Sat (m >>= f) fun b _ => Q b :=
  Sat.bind (P := fun _ _ => True) (fun _ _ _ _ => trivial) fun a _ _ => hf a

theorem bind_same {m : H α} {f g : α → H β} {P : α → Prop} (hm : Sat m fun a _ => P a) (h : ∀ a, P a → f a = g a) : (m >>= f) = (m >>= g) := by
  funext c
  change H.bind m f c = H.bind m g c
  unfold H.bind
  rcases hx : m c with ⟨x, l⟩
  cases x with
  | error e => rfl
  | ok a => simp only [h a (hm c a l hx)]

theorem m68Try_next {tokens : List Str} {i : Nat} {black : List M68Mode} {mode : M68Mode} {p : Pat} {ps : List Pat} {body : Nat → H M68Operand}
    {next : H M68Operand} (h1 : ∀ j, Sat (body (j + 1)) fun o _ => 1 ≤ o.next) (h2 : Sat next fun o _ => 1 ≤ o.next) :
    Sat (m68Try tokens (i + 1) black mode (p :: ps) body next) fun o _ => 1 ≤ o.next := by
  unfold m68Try
  rw [unbound_eq]
  by_cases hm : matchPrefix (tokens.drop (i + 1)) (p :: ps) = true
  · rw [if_pos hm]
    dsimp only
    split
    · exact h2
    · exact h1 _
  · rw [if_neg hm]; exact h2

theorem m68Mode_next (tokens : List Str) (i offset size : Nat) (black : List M68Mode) :
    Sat (m68Mode tokens (i + 1) offset size black) fun o _ => 1 ≤ o.next := by
  unfold m68Mode
  dsimp only
  repeat' with_reducible first
    | refine m68Try_next (fun j => ?_) ?_
    | refine Sat.any fun _ => ?_
    | exact Sat.pure (Nat.le_add_left 1 _)
    | exact Sat.throw

theorem m68Cond_congr {t u : Str} (h : upper t = upper u) (k : Nat) : m68Cond (t.drop k) = m68Cond (u.drop k) := by
  have e : upper ((t.drop k).take 2) = upper ((u.drop k).take 2) := by
    have h : t.map Char.toUpper = u.map Char.toUpper := h
    show ((t.drop k).take 2).map Char.toUpper = ((u.drop k).take 2).map Char.toUpper
    rw [List.map_take, List.map_drop, h, ← List.map_drop, ← List.map_take]
  unfold m68Cond
  rw [e]

theorem folds_m68Run (kind : M68Kind) : FirstFolds (m68Run kind) := by
  intro t t' rest hu
  have hm := m68Mode_first t t' rest
  have hm1 : ∀ a b c, m68Mode (t :: rest) 1 a b c = m68Mode (t' :: rest) 1 a b c := hm 0
  have hd := m68Dark_congr hu
  have hl := m68Light_congr hu
  have hto : ∀ s o, 1 ≤ o.next → m68ToAddress (t :: rest) s o = m68ToAddress (t' :: rest) s o := by
    intro s ⟨n, a, b, c⟩ h
    obtain ⟨n, rfl⟩ := Nat.exists_eq_add_of_le' h
    rfl
  have hmat : ∀ ps n, 1 ≤ n → instrMatch (t :: rest) ps n = instrMatch (t' :: rest) ps n := by
    intro ps n h
    obtain ⟨n, rfl⟩ := Nat.exists_eq_add_of_le' h
    rfl
  cases kind with
  | move =>
    unfold m68Run
    simp only [List.getD_cons_zero, hd, hm1]
    refine bind_same (m68Mode_next _ 0 _ _ _) fun o ho => ?_
    rw [hmat _ _ ho, hto _ _ ho]
    obtain ⟨n, e⟩ := Nat.exists_eq_add_of_le' ho
    rw [e, hm]
  | movea =>
    unfold m68Run
    simp only [List.getD_cons_zero, hd, hm1]
    refine bind_same (m68Mode_next _ 0 _ _ _) fun o ho => ?_
    rw [hmat _ _ ho, hto _ _ ho]
  | imm base status =>
    have hm2 : ∀ a b c, m68Mode (t :: rest) (1 + ([] : List Pat).length.succ) a b c = m68Mode (t' :: rest) (1 + ([] : List Pat).length.succ) a b c := hm 1
    have hmat1 : ∀ ps, instrMatch (t :: rest) ps = instrMatch (t' :: rest) ps := fun ps => rfl
    have hg : (t :: rest).getD 1 [] = (t' :: rest).getD 1 [] := rfl
    simp only [m68Run, List.getD_cons_zero, hl, unbound_eq, hmat1, hg, List.drop_succ_cons, List.drop_zero]
    by_cases hp : matchPrefix rest [.pred m68IsImm] = true
    · simp only [hp, if_true]
      simp only [← Nat.succ_eq_add_one, hm2]
    · simp only [hp]
      rfl
  | jump base =>
    unfold m68Run
    simp only [hm1]
  | lea =>
    unfold m68Run
    simp only [hm1]
    refine bind_same (m68Mode_next _ 0 _ _ _) fun o ho => ?_
    rw [hmat _ _ ho]
    obtain ⟨n, e⟩ := Nat.exists_eq_add_of_le' ho
    rw [e]
    rfl
  | bcc =>
    unfold m68Run
    simp only [List.getD_cons_zero, hd, m68Cond_congr hu]
    rfl
  | dbcc =>
    unfold m68Run
    simp only [List.getD_cons_zero, m68Cond_congr hu]
    rfl

theorem folds_m68 {key : Str} {f} (h : mc68000.instrs key = some (.handler f)) : FirstFolds f := by
  have h : (if key = "RTS".toList then some (.fixed [0x4E#8, 0x75#8])
    else if key = "NOP".toList then some (.fixed [0x4E#8, 0x71#8])
    else (dget (m68Table.map fun p => (p.1.toList, p.2)) key).map fun kind => InstrDef.handler (m68Run kind)) = some (.handler f) := h
  split at h
  · cases h
  · split at h
    · cases h
    · cases hk : dget (m68Table.map fun p => (p.1.toList, p.2)) key with
      | none => rw [hk] at h; cases h
      | some k => rw [hk] at h; cases h; exact folds_m68Run k

end Necro
