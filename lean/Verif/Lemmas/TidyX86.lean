import Verif.Lemmas.TidyI86
import Verif.Lemmas.X86Run

/-! The references recorded by a line of x86 code lie inside its bytes: a row of the table that refuses a line
leaves none behind. -/

namespace Necro
open Spec
open Sat (Silent)

/-- A handler that fails has recorded nothing. -/
def Clean (m : H α) : Prop := ∀ c e l, m c = (.error e, l) → l = []

theorem clean_bind {m : H α} {f : α → H β} (hs : Silent m) (hm : Clean m) (hf : ∀ a, Clean (f a)) : Clean (m >>= f) := by
  intro c e l h
  change H.bind m f c = _ at h
  unfold H.bind at h
  rcases hx : m c with ⟨x, l1⟩
  rw [hx] at h
  cases x with
  | error e' => cases h; exact hm _ _ _ hx
  | ok a =>
    have hl := hs _ _ _ hx
    subst hl
    rcases hy : f a c with ⟨y, l2⟩
    simp only [hy] at h
    cases h
    exact hf a _ _ _ hy

theorem clean_pure {a : α} : Clean (pure a : H α) := by intro c e l h; cases h
theorem clean_lift {x : Except Err α} : Clean (H.lift x) := by intro c e l h; unfold H.lift at h; cases h; rfl

/-- A reference stands for zero, and packing that does not fail. -/
theorem clean_value {q : Reloc} {s : Bool} {f : Int → H α} (h0 : ∀ c e l, f 0 c ≠ (.error e, l)) (hf : ∀ v, Clean (f v)) : Clean (H.parseIntegerOrLabel q s >>= f) := by
  intro c e l h
  change H.bind _ f c = _ at h
  unfold H.bind H.parseIntegerOrLabel at h
  split at h
  next hx =>
    split at hx <;> cases hx
    · exact hf _ _ _ _ h
    · have h1 : (f 0 c).1 = .error e := congrArg Prod.fst h
      exact absurd (show f 0 c = (.error e, (f 0 c).2) from Prod.ext h1 rfl) (h0 c e (f 0 c).2)
  next hx =>
    split at hx <;> cases hx
    cases h; rfl

theorem clean_x86Build (off : Nat) (m : X86Modrm) : Clean (x86Build off m) := by
  unfold x86Build
  refine clean_bind silent_lift clean_lift fun _ => clean_bind silent_lift clean_lift fun _ => clean_bind silent_lift clean_lift fun _ =>
    clean_bind silent_lift clean_lift fun _ => clean_bind silent_lift clean_lift fun b => ?_
  split
  · exact clean_pure
  · refine clean_bind silent_lift clean_lift fun bits => ?_
    dsimp only
    split
    · exact clean_value (fun c e l h => by cases h) fun v => clean_bind silent_lift clean_lift fun _ => clean_pure
    · split
      · exact clean_value (fun c e l h => by cases h) fun v => clean_bind silent_lift clean_lift fun _ => clean_pure
      · split
        · exact clean_value (fun c e l h => by cases h) fun v => clean_bind silent_lift clean_lift fun _ => clean_pure
        · exact clean_pure

theorem sat_value {n k : Nat} {q : Reloc} {s : Bool} {enc : Int → Except Err Bytes} {g : Bytes → α} {P : α → List Reloc → Prop} (hq : FitsIn Plain q n)
    (he : ∀ v b, enc v = .ok b → b.length = k) (hP : ∀ b l, b.length = k → (∀ r ∈ l, FitsIn Plain r n) → P (g b) l) :
    Sat (H.parseIntegerOrLabel q s >>= fun v => H.lift (enc v) >>= fun b => pure (g b)) P := by
  refine .bind ((Leaves.orLabel (G := fun r => FitsIn Plain r n) hq).sat) fun v l hl => ?_
  refine .bind (.lift (P := fun b l => l = [] ∧ b.length = k) fun a ha => ⟨rfl, he _ _ ha⟩) fun b l' hb => ?_
  obtain ⟨rfl, hb⟩ := hb
  exact .pure (hP b _ hb (by simpa using hl))

theorem sat_x86Build (off : Nat) (m : X86Modrm) : Sat (x86Build off m) fun b l => ∀ r ∈ l, FitsIn Plain r (off + b.length) := by
  unfold x86Build
  refine .skip silent_lift fun _ => .skip silent_lift fun _ => .skip silent_lift fun _ => .skip silent_lift fun _ => .skip silent_lift fun b => ?_
  have key : ∀ {k : Nat} (b tail : Bytes) (l : List Reloc), tail.length = k → (∀ r ∈ l, FitsIn Plain r (off + k)) → ∀ r ∈ l, FitsIn Plain r (off + (b ++ tail).length) :=
    fun b tail l h1 h2 r hr => ⟨by have := (h2 r hr).1; rw [List.length_append]; omega, (h2 r hr).2⟩
  split
  · exact .pure fun r hr => by cases hr
  · refine .skip silent_lift fun bits => ?_
    dsimp only
    split
    · exact sat_value (n := off + 2) (k := 2) (fits_of (by simp) (by simp) (by simp) rfl rfl rfl) (fun v b h => len_packLe16s h) (key b)
    · split
      · exact sat_value (n := off + 4) (k := 4) (fits_of (by simp) (by simp) (by simp) rfl rfl rfl) (fun v b h => len_packLe32s h) (key b)
      · split
        · exact sat_value (n := off + 8) (k := 8) (fits_of (by simp) (by simp) (by simp) rfl rfl rfl) (fun v b h => len_packLe64s h) (key b)
        · exact .pure fun r hr => by cases hr

/-- What an argument function leaves: nothing if it refuses, good references if it accepts. -/
def ArgX (base : List Nat) (m : H X86Result) : Prop :=
  Sat m fun o l => (o.1 = none → l = []) ∧ ∀ d base' b, o.1 = some (d, base', b) → base.length ≤ base'.length ∧ ∀ r ∈ l, FitsIn Plain r (base'.length + b.length)

theorem argX_none {base : List Nat} {m : X86Modrm} : ArgX base (pure (none, m)) := .pure ⟨fun _ => rfl, nofun⟩
theorem argX_some {base base' : List Nat} {d : Nat} {b : Bytes} {m : X86Modrm} (h : base.length ≤ base'.length) : ArgX base (pure (some (d, base', b), m)) :=
  .pure ⟨nofun, fun d base' b e => by cases e; exact ⟨h, fun r hr => by cases hr⟩⟩
theorem argX_skip {base : List Nat} {m : H α} {f : α → H X86Result} (hm : Silent m) (hf : ∀ a, ArgX base (f a)) : ArgX base (m >>= f) := .skip hm hf

theorem argX_build {base base' : List Nat} {d : Nat} {m m' : X86Modrm} (h : base.length ≤ base'.length) :
    ArgX base (x86Build base'.length m >>= fun b => pure (some (d, base', b), m')) :=
  (sat_x86Build _ m).bind fun b l hl => .pure ⟨nofun, fun d base' b e => by
    cases e
    exact ⟨h, by simpa using hl⟩⟩

theorem argX_late {base base' : List Nat} {d : Nat} {m m' : X86Modrm} (h : base.length ≤ base'.length) :
    ArgX base (x86Late base' m >>= fun b => pure (some (d, base', b), m')) := by
  unfold x86Late
  split
  · exact argX_skip silent_pure fun _ => argX_some h
  · exact argX_build h

theorem clean_late (base : List Nat) (m : X86Modrm) : Clean (x86Late base m) := by
  unfold x86Late
  split
  · exact clean_pure
  · exact clean_x86Build _ _

theorem x86Size_length (mode bits : Nat) (base : List Nat) (m : X86Modrm) : base.length ≤ (x86Size mode bits base m).1.length := by
  unfold x86Size
  split
  · dsimp only
    split <;> simp
  · exact Nat.le_refl _

theorem applyZ_length {base : List Nat} {n : Nat} : base.length ≤ (x86ApplyZ base n).length := by
  unfold x86ApplyZ
  simp only [List.length_append, List.length_dropLast, List.length_cons, List.length_nil]
  omega

theorem argX_mem (tokens : List Str) (base : List Nat) (index : Nat) (m : X86Modrm) : ArgX base (x86Mem tokens base index m) := by
  unfold x86Mem
  dsimp only
  split
  · split
    · exact argX_none
    · intro c o l h
      unfold H.tryCatch at h
      split at h
      next hx => cases h; exact argX_late (Nat.le_refl _) _ _ _ hx
      next er l1 hx =>
        have hl : l1 = [] := by
          change H.bind _ _ c = _ at hx
          unfold H.bind at hx
          rcases hy : x86Late base _ c with ⟨y, l2⟩
          rw [hy] at hx
          cases y with
          | ok b => cases hx
          | error e => cases hx; exact clean_late _ _ _ _ _ hy
        subst hl
        split at h
        next hz =>
        dsimp only at hz
        split at hz
        · cases hz; cases h; exact ⟨fun _ => rfl, nofun⟩
        · cases hz; cases h
  · exact .throw

theorem argX_regE (names : List Str) (bits : Nat) (t : Str) (base : List Nat) (m : X86Modrm) : ArgX base (x86RegE names bits t base m) := by
  unfold x86RegE
  exact argX_skip silent_read fun c => argX_late (x86Size_length _ _ _ _)

theorem argX_regG (names : List Str) (bits : Nat) (t : Str) (base : List Nat) (index : Nat) (m : X86Modrm) : ArgX base (x86RegG names bits t base index m) := by
  unfold x86RegG
  refine argX_skip silent_read fun c => ?_
  dsimp only
  split
  · exact argX_build (x86Size_length _ _ _ _)
  · exact argX_some (x86Size_length _ _ _ _)

theorem argX_value {base : List Nat} {k d : Nat} {q : Reloc} {s : Bool} {enc : Int → Except Err Bytes} {m : X86Modrm} (hq : FitsIn Plain q (base.length + k))
    (he : ∀ v b, enc v = .ok b → b.length = k) : ArgX base (H.parseIntegerOrLabel q s >>= fun v => H.lift (enc v) >>= fun b => pure (some (d, base, b), m)) :=
  sat_value hq he fun b l hb hl => ⟨nofun, fun d base' b' e => by
    cases e
    rw [hb]
    exact ⟨Nat.le_refl _, hl⟩⟩

theorem len_sized {bits : Nat} (h : bits = 16 ∨ bits = 32 ∨ bits = 64) (v : Int) (b : Bytes)
    (e : (if bits = 16 then packLe16u [some v] else if bits = 32 then packLe32u [some v] else packLe64u [some v]) = .ok b) : b.length = bits / 8 := by
  rcases h with rfl | rfl | rfl
  · exact len_packLe16u e
  · exact len_packLe32u e
  · exact len_packLe64u e

theorem argX_imm {sizes : List Nat} (h : ∀ n ∈ sizes, n = 16 ∨ n = 32 ∨ n = 64) (t : Str) (base : List Nat) (m : X86Modrm) : ArgX base (x86Imm sizes t base m) := by
  unfold x86Imm
  split
  · exact argX_none
  · split
    · exact argX_none
    · split
      next hb =>
        exact argX_value (fits_of (by simp) (by rcases h _ hb with rfl | rfl | rfl <;> simp) (by simp) rfl rfl rfl
          (by rcases h _ hb with rfl | rfl | rfl <;> simp)) (len_sized (h _ hb))
      · exact argX_none

theorem argX_run (a : X86Arg) (tokens : List Str) (base : List Nat) (index : Nat) (m : X86Modrm) : ArgX base (a.run tokens base index m) := by
  unfold X86Arg.run
  have hpre : ∀ {p : Prop} [Decidable p] {l : List Nat}, base.length ≤ l.length → base.length ≤ (if p then 0x66 :: l else l).length := by
    intro p _ l hl
    split
    · exact Nat.le_succ_of_le hl
    · exact hl
  cases a with
  | pass => exact argX_none
  | evqp =>
    refine argX_skip silent_lift fun t => ?_
    split
    · exact argX_regE _ _ _ _ _
    split
    · exact argX_regE _ _ _ _ _
    split
    · exact argX_regE _ _ _ _ _
    split
    · exact argX_mem _ _ _ _
    · exact argX_none
  | gvqp =>
    refine argX_skip silent_lift fun t => ?_
    split
    · exact argX_regG _ _ _ _ _ _
    split
    · exact argX_regG _ _ _ _ _ _
    split
    · exact argX_regG _ _ _ _ _ _
    · exact argX_none
  | zvqp =>
    refine argX_skip silent_lift fun t => argX_skip silent_read fun c => ?_
    split
    · exact argX_some (hpre applyZ_length)
    split
    · exact argX_some applyZ_length
    split
    · exact argX_some (Nat.le_trans (hpre (Nat.le_refl _)) applyZ_length)
    · exact argX_none
  | zvq =>
    refine argX_skip silent_lift fun t => argX_skip silent_read fun c => ?_
    split
    · exact argX_some (hpre applyZ_length)
    split
    · exact argX_some (Nat.le_trans (hpre (Nat.le_refl _)) applyZ_length)
    · exact argX_none
  | rax =>
    refine argX_skip silent_lift fun t => argX_skip silent_read fun c => ?_
    split
    · exact argX_some (hpre (Nat.le_refl _))
    split
    · exact argX_some (hpre (Nat.le_refl _))
    split
    · exact argX_some (Nat.le_refl _)
    · exact argX_none
  | ivds => exact argX_skip silent_lift fun t => argX_imm (by simp) _ _ _
  | ivqp => exact argX_skip silent_lift fun t => argX_imm (by simp) _ _ _
  | jvds =>
    refine argX_skip silent_lift fun t => argX_skip silent_read fun c => ?_
    split
    · exact argX_none
    split
    · exact argX_value (k := 2) (fits_of (by simp) (by simp) (by simp) rfl rfl rfl) fun v b h => len_packLe16u h
    split
    · exact argX_value (k := 4) (fits_of (by simp) (by simp) (by simp) rfl rfl rfl) fun v b h => len_packLe32u h
    · exact argX_none
  | m =>
    refine argX_skip silent_lift fun t => ?_
    split
    · exact argX_mem _ _ _ _
    · exact argX_none
  | ms =>
    dsimp only
    split
    · split
      · exact argX_none
      · refine argX_skip silent_read fun c => ?_
        split
        next hmode =>
          refine .bind (sat_x86Build _ _) fun b l hl => ?_
          refine sat_value (n := base.length + x86Mode c / 8) (fits_of (by simp) (by rcases hmode with h | h | h <;> simp [h]) (by simp) rfl rfl rfl
            (by rcases hmode with h | h | h <;> simp [h])) (len_sized hmode)
            fun b' l' hb' hl' => ⟨nofun, fun d base' b'' e => ?_⟩
          cases e
          refine ⟨Nat.le_refl _, fun r hr => ?_⟩
          rw [List.length_append]
          rcases List.mem_append.1 hr with hr | hr
          · exact ⟨by have := (hl r hr).1; omega, (hl r hr).2⟩
          · exact ⟨by have := (hl' r hr).1; omega, (hl' r hr).2⟩
        · exact argX_none
    · exact argX_none
  | rd =>
    refine argX_skip silent_lift fun t => ?_
    split
    · exact argX_late (Nat.le_refl _)
    · exact argX_none
  | cd =>
    refine argX_skip silent_lift fun t => ?_
    split
    · dsimp only
      split
      · exact argX_build (Nat.le_refl _)
      · exact argX_some (Nat.le_refl _)
    · exact argX_none

/-- The argument functions that record nothing as the first of a row. -/
def x86Quiet : X86Arg → Bool
  | .ivds | .ivqp | .jvds | .ms => false
  | _ => true

theorem silent_late {base : List Nat} {m : X86Modrm} (h : m.reg = none) : Silent (x86Late base m) := by
  unfold x86Late
  rw [if_pos h]
  exact silent_pure

theorem quiet_regE (names : List Str) (bits : Nat) (t : Str) (base : List Nat) : Silent (x86RegE names bits t base {}) := by
  unfold x86RegE
  refine silent_bind silent_read fun c => silent_bind (silent_late ?_) fun _ => silent_pure
  unfold x86Size
  rw [if_pos rfl]

theorem quiet_mem (tokens : List Str) (base : List Nat) (index : Nat) : Silent (x86Mem tokens base index {}) := by
  unfold x86Mem
  dsimp only
  split
  · split
    · exact silent_pure
    · intro c o l h
      unfold H.tryCatch x86Late at h
      rw [if_pos rfl] at h
      cases h; rfl
  · exact silent_throw

theorem quiet_run {a : X86Arg} (h : x86Quiet a = true) (tokens : List Str) (base : List Nat) : Silent (a.run tokens base 1 {}) := by
  unfold X86Arg.run
  cases a with
  | pass => exact silent_pure
  | evqp =>
    refine silent_bind silent_lift fun t => ?_
    split
    · exact quiet_regE _ _ _ _
    split
    · exact quiet_regE _ _ _ _
    split
    · exact quiet_regE _ _ _ _
    split
    · exact quiet_mem _ _ _
    · exact silent_pure
  | gvqp =>
    have hg : ∀ names bits t, Silent (x86RegG names bits t base 1 {}) := by
      intro names bits t
      unfold x86RegG
      refine silent_bind silent_read fun c => ?_
      rw [if_neg (by decide)]
      exact silent_pure
    refine silent_bind silent_lift fun t => ?_
    split
    · exact hg _ _ _
    split
    · exact hg _ _ _
    split
    · exact hg _ _ _
    · exact silent_pure
  | zvqp =>
    refine silent_bind silent_lift fun t => silent_bind silent_read fun c => ?_
    repeat' split
    all_goals exact silent_pure
  | zvq =>
    refine silent_bind silent_lift fun t => silent_bind silent_read fun c => ?_
    repeat' split
    all_goals exact silent_pure
  | rax =>
    refine silent_bind silent_lift fun t => silent_bind silent_read fun c => ?_
    repeat' split
    all_goals exact silent_pure
  | ivds | ivqp | jvds | ms => cases h
  | m =>
    refine silent_bind silent_lift fun t => ?_
    split
    · exact quiet_mem _ _ _
    · exact silent_pure
  | rd =>
    refine silent_bind silent_lift fun t => ?_
    split
    · exact silent_bind (silent_late rfl) fun _ => silent_pure
    · exact silent_pure
  | cd =>
    refine silent_bind silent_lift fun t => ?_
    split
    · rw [if_neg (by decide)]
      exact silent_pure
    · exact silent_pure

/-- A row has one argument, or two of which the first records nothing, or is never used. -/
def x86Shape : List X86Arg → Bool
  | [] => true
  | [_] => true
  | [a, _] => x86Quiet a
  | a :: _ => a = .pass

theorem x86_shapes : (x86Table.all fun q => x86Shape q.2.2) = true := by decide +kernel

theorem sat_x86Args (tokens : List Str) (args : List X86Arg) (base : List Nat) (h : x86Shape args = true) :
    Sat (x86Args tokens args base 1 {} []) fun o l => (o = none → l = []) ∧ ∀ base' full, o = some (base', full) → ∀ r ∈ l, FitsIn Plain r (base'.length + full.length) := by
  have hlast : ∀ (a : X86Arg) (base : List Nat) index m blob, Sat (x86Args tokens [a] base index m blob) fun o l =>
      (o = none → l = []) ∧ ∀ base' full, o = some (base', full) → ∀ r ∈ l, FitsIn Plain r (base'.length + full.length) := by
    intro a base index m blob
    unfold x86Args
    refine .bind (argX_run a tokens base index m) fun o l ho => ?_
    obtain ⟨o, m'⟩ := o
    cases o with
    | none =>
      have := ho.1 rfl
      subst this
      exact .pure ⟨fun _ => rfl, nofun⟩
    | some p =>
      obtain ⟨d, base', b⟩ := p
      unfold x86Args
      refine .pure ⟨nofun, fun base'' full e r hr => ?_⟩
      cases e
      have := (ho.2 _ _ _ rfl).2 r (by simpa using hr)
      exact ⟨by have := this.1; rw [List.length_append]; omega, this.2⟩
  match args, h with
  | [], _ => exact .pure ⟨nofun, fun _ _ _ r hr => by cases hr⟩
  | [a], _ => exact hlast _ _ _ _ _
  | [a, a'], h =>
    rw [x86Args]
    refine .skip (quiet_run h tokens base) fun o => ?_
    obtain ⟨o, m'⟩ := o
    cases o with
    | none => exact .pure ⟨fun _ => rfl, nofun⟩
    | some p => exact hlast _ _ _ _ _
  | a :: _ :: _ :: _, h =>
    have ha : a = .pass := by simpa [x86Shape] using h
    subst ha
    intro c o l h
    unfold x86Args X86Arg.run at h
    cases h
    exact ⟨fun _ => rfl, nofun⟩

theorem len_x86Pack {base : List Nat} {b : Bytes} (h : x86Pack base = .ok b) : b.length = base.length := by
  simpa using len_packByte h

theorem lineOk_x86Call {next : H (Option Bytes)} (hnext : LineOk next) (tokens : List Str) : ∀ conds : List (Nat × List X86Arg), (∀ q ∈ conds, x86Shape q.2 = true) →
    LineOk (x86Call next tokens conds)
  | [], _ => lineOk_none
  | (base, args) :: conds, hq => by
    have ih := lineOk_x86Call hnext tokens conds fun q h => hq q (List.mem_cons_of_mem _ h)
    unfold x86Call
    split
    · refine lineOk_skip silent_read fun c => ?_
      dsimp only
      split
      · exact lineOk_skip silent_lift fun b => lineOk_silent silent_pure
      · split
        · refine lineOk_skip silent_lift fun b => hnext.bind fun o l ho => ?_
          cases o with
          | none => exact .throw
          | some r =>
            refine .pure fun b' e q hq => ?_
            cases e
            have := ho _ rfl q (by simpa using hq)
            exact ⟨by have := this.1; rw [List.length_append]; omega, this.2⟩
        · split
          · exact lineOk_skip silent_lift fun b => lineOk_silent silent_pure
          · exact .throw
    · split
      · exact ih
      · refine .bind (sat_x86Args _ _ _ (hq _ List.mem_cons_self)) fun o l ho => ?_
        cases o with
        | none =>
          have := ho.1 rfl
          subst this
          exact ih
        | some p =>
          obtain ⟨base', full⟩ := p
          refine .bind (.lift (P := fun b l => l = [] ∧ b.length = base'.length) fun a ha => ⟨rfl, len_x86Pack ha⟩) fun b l' hb => ?_
          obtain ⟨rfl, hb⟩ := hb
          refine .pure fun b' e r hr => ?_
          cases e
          rw [List.length_append, hb]
          exact ho.2 _ _ rfl r (by simpa using hr)

theorem x86Conds_shape {key : Str} : ∀ q ∈ x86Conds key, x86Shape q.2 = true := by
  intro q h
  unfold x86Conds at h
  obtain ⟨r, hr, rfl⟩ := List.mem_map.1 h
  exact List.all_eq_true.1 x86_shapes r (List.mem_filter.1 hr).1

theorem lineOk_x86Next : ∀ tokens : List Str, LineOk (x86Next tokens)
  | [] => .throw
  | t :: rest => by
    unfold x86Next
    split
    · exact .throw
    · exact lineOk_x86Call (lineOk_x86Next rest) _ _ x86Conds_shape

theorem tidy_x86 : TidyLines x86 := by
  intro key f tokens h
  simp only [x86] at h
  split at h
  · cases h
  · cases h
    exact lineOk_x86Call (lineOk_x86Next _) _ _ x86Conds_shape

end Necro
