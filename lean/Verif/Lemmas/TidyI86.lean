import Verif.Lemmas.TidyLines
import Verif.Lemmas.I86Link

/-! The references recorded by a line of 8086 code lie inside its bytes, including those left behind by rows
of the table that refused the line. -/

namespace Necro
open Spec
open Sat (Silent)

/-- What is recorded, whether or not the handler succeeds. -/
def Leaves (m : H α) (G : Reloc → Prop) : Prop := ∀ c, ∀ r ∈ (m c).2, G r

namespace Leaves

theorem bind {m : H α} {f : α → H β} {G : Reloc → Prop} (hm : Leaves m G) (hf : ∀ a, Leaves (f a) G) : Leaves (m >>= f) G := by
  intro c r hr
  change r ∈ (H.bind m f c).2 at hr
  unfold H.bind at hr
  have h1 := hm c
  rcases hx : m c with ⟨x, l1⟩
  rw [hx] at hr h1
  cases x with
  | error e => exact h1 r hr
  | ok a =>
    have h2 := hf a c
    rcases hy : f a c with ⟨y, l2⟩
    simp only [hy, List.mem_append] at hr h2
    exact hr.elim (h1 r) (h2 r)

theorem pure {a : α} {G : Reloc → Prop} : Leaves (Pure.pure a : H α) G := by intro c r hr; cases hr
theorem throw {e : Err} {G : Reloc → Prop} : Leaves (H.throw e : H α) G := by intro c r hr; cases hr
theorem lift {x : Except Err α} {G : Reloc → Prop} : Leaves (H.lift x) G := by intro c r hr; cases hr
theorem read {G : Reloc → Prop} : Leaves H.read G := by intro c r hr; cases hr
theorem parseInteger {t bits s} {G : Reloc → Prop} : Leaves (H.parseInteger t bits s) G := by intro c r hr; cases hr
theorem orLabel {q : Reloc} {s : Bool} {G : Reloc → Prop} (h : G q) : Leaves (H.parseIntegerOrLabel q s) G := by
  intro c r hr
  unfold H.parseIntegerOrLabel at hr
  split at hr
  · cases hr
  · cases hr
  · rw [List.mem_singleton] at hr; subst hr; exact h

theorem sat {m : H α} {G : Reloc → Prop} (h : Leaves m G) : Sat m fun _ l => ∀ r ∈ l, G r := by
  intro c a l e
  have := h c
  rw [e] at this
  exact this

end Leaves

theorem Sat.tryCatch {m : H α} {h : Err → H α} {P : α → List Reloc → Prop} {G : Reloc → Prop} (hm : Sat m P) (hg : Leaves m G)
    (hh : ∀ e l, (∀ r ∈ l, G r) → Sat (h e) fun a l' => P a (l ++ l')) : Sat (H.tryCatch m h) P := by
  intro c a l e
  unfold H.tryCatch at e
  have h1 := hm c
  have h2 := hg c
  rcases hx : m c with ⟨x, l1⟩
  rw [hx] at e h1 h2
  cases x with
  | ok b => cases e; exact h1 _ _ rfl
  | error er =>
    rcases hy : h er c with ⟨y, l2⟩
    simp only [hy] at e
    cases e
    exact hh er l1 h2 c _ _ hy

theorem Sat.both {m : H α} {P Q : α → List Reloc → Prop} (h1 : Sat m P) (h2 : Sat m Q) : Sat m fun a l => P a l ∧ Q a l :=
  fun c a l e => ⟨h1 c a l e, h2 c a l e⟩

theorem fits_of {r : Reloc} {n : Nat} (h1 : r.offset + r.size ≤ n) (h2 : 1 ≤ r.bitsSize) (h3 : r.alignment ≠ 0) (h4 : r.hook = none) (h5 : r.filter = none)
    (h6 : r.bits = none) (h7 : 1 ≤ r.size := by simp) : FitsIn Plain r n :=
  ⟨h1, .simple h2 h3 h4 h5 (by rw [h6]; nofun) h7⟩

theorem leaves_i86Build (m : I86Modrm) : Leaves (i86Build m) fun r => FitsIn Plain r 3 := by
  unfold i86Build
  refine .bind .lift fun _ => .bind .lift fun _ => .bind .lift fun _ => .bind .lift fun _ => .bind .lift fun _ => ?_
  split
  · exact .pure
  · exact .bind (.orLabel (fits_of (by simp) (by simp) (by simp) rfl rfl rfl)) fun _ => .bind .lift fun _ => .pure

theorem sat_i86Build (m : I86Modrm) : Sat (i86Build m) fun b l => ∀ r ∈ l, FitsIn Plain r (1 + b.length) := by
  unfold i86Build
  refine .skip silent_lift fun _ => .skip silent_lift fun _ => .skip silent_lift fun _ => .skip silent_lift fun _ => ?_
  refine .bind (.lift (P := fun b l => l = [] ∧ b.length = 1) fun a ha => ⟨rfl, by simpa using len_packByte ha⟩) fun b0 l0 hb0 => ?_
  obtain ⟨rfl, hb0⟩ := hb0
  split
  · exact .pure fun r hr => by cases hr
  · refine .bind ((Leaves.orLabel (G := fun r => FitsIn Plain r 3) (fits_of (by simp) (by simp) (by simp) rfl rfl rfl)).sat) fun v l hl => ?_
    refine .bind (.lift (P := fun b l => l = [] ∧ b.length = 2) fun a ha => ⟨rfl, by simpa using len_packLe16s ha⟩) fun b1 l1 hb1 => ?_
    obtain ⟨rfl, hb1⟩ := hb1
    refine .pure fun r hr => ?_
    have := hl r (by simpa using hr)
    exact ⟨by have := this.1; simp only [List.length_append]; omega, this.2⟩

/-- How far the references of an argument function reach. -/
def argReach : I86Arg → Nat
  | .ib | .jb | .ob => 2
  | .ap => 5
  | .r8 _ | .r16 _ | .seg _ => 0
  | _ => 3

/-- What an argument function that did not fail has recorded. -/
def ArgSat (n : Nat) (m : H I86Result) : Prop :=
  Sat m fun o l => (∀ r ∈ l, FitsIn Plain r n) ∧ ∀ d b, o.1 = some (d, b) → ∀ r ∈ l, FitsIn Plain r (1 + b.length)

theorem argSat_quiet {n : Nat} {m : H I86Result} (h : Silent m) : ArgSat n m :=
  h.mono fun _ l e => by
    subst e
    exact ⟨fun _ hr => (by cases hr), fun _ _ _ _ hr => (by cases hr)⟩

theorem argSat_skip {n : Nat} {m : H α} {f : α → H I86Result} (hm : Silent m) (hf : ∀ a, ArgSat n (f a)) : ArgSat n (m >>= f) := .skip hm hf

theorem argSat_build {n : Nat} (hn : 3 ≤ n) {m m' : I86Modrm} {d : Nat} : ArgSat n (i86Build m >>= fun b => pure (some (d, b), m')) :=
  ((leaves_i86Build m).sat.both (sat_i86Build m)).bind fun b l h => .pure ⟨by
    rw [List.append_nil]; exact fun r hr => ⟨by have := (h.1 r hr).1; omega, (h.1 r hr).2⟩, fun d b h' => by cases h'; rw [List.append_nil]; exact h.2⟩

theorem argSat_reg (names : List Str) (tokens : List Str) (index : Nat) (m : I86Modrm) : ArgSat 3 (i86Reg names tokens index m) := by
  unfold i86Reg
  refine argSat_skip silent_lift fun t => ?_
  split
  · dsimp only
    split
    · exact argSat_build (by decide)
    · exact argSat_quiet silent_pure
  · exact argSat_quiet silent_pure

theorem argSat_named (name : Str) (tokens : List Str) (index : Nat) (m : I86Modrm) : ArgSat 0 (i86Named name tokens index m) := by
  unfold i86Named
  exact argSat_skip silent_lift fun t => argSat_quiet silent_pure

theorem argSat_late {m m' : I86Modrm} {d : Nat} : ArgSat 3 (i86Late m >>= fun b => pure (some (d, b), m')) := by
  unfold i86Late
  split
  · exact argSat_skip silent_pure fun _ => argSat_quiet silent_pure
  · exact argSat_build (by decide)

theorem leaves_late {m m' : I86Modrm} {d : Nat} : Leaves (i86Late m >>= fun b => (pure (some (d, b), m') : H I86Result)) fun r => FitsIn Plain r 3 := by
  unfold i86Late
  split
  · exact .bind .pure fun _ => .pure
  · exact .bind (leaves_i86Build m) fun _ => .pure

theorem argSat_mem (tokens : List Str) (index : Nat) (m : I86Modrm) : ArgSat 3 (i86Mem tokens index m) := by
  unfold i86Mem
  dsimp only
  split
  · refine Sat.tryCatch (G := fun r => FitsIn Plain r 3) ?_ ?_ ?_
    · split
      · exact .throw
      · exact argSat_late
    · split
      · exact .throw
      · exact leaves_late
    · intro e l hl
      split
      · refine .pure ⟨by rw [List.append_nil]; exact hl, nofun⟩
      · exact .throw
  · exact .throw

theorem argSat_either (names : List Str) (tokens : List Str) (index : Nat) (m : I86Modrm) : ArgSat 3 (i86Either names tokens index m) := by
  unfold i86Either
  refine argSat_skip silent_lift fun t => ?_
  split
  · exact argSat_late
  · split
    · exact argSat_mem _ _ _
    · exact argSat_quiet silent_pure

theorem argSat_value {n k : Nat} {q : Reloc} {s : Bool} {enc : Int → Except Err Bytes} {d : Nat} {m : I86Modrm} (hq : FitsIn Plain q n) (hn : n ≤ 1 + k)
    (he : ∀ v b, enc v = .ok b → b.length = k) :
    ArgSat n (H.parseIntegerOrLabel q s >>= fun v => H.lift (enc v) >>= fun b => pure (some (d, b), m)) := by
  refine .bind ((Leaves.orLabel (G := fun r => FitsIn Plain r n) hq).sat) fun v l hl => ?_
  refine .bind (.lift (P := fun b l => l = [] ∧ b.length = k) fun a ha => ⟨rfl, he _ _ ha⟩) fun b l' hb => ?_
  obtain ⟨rfl, hb⟩ := hb
  refine .pure ⟨by simpa using hl, fun d b h r hr => ?_⟩
  cases h
  have := hl r (by simpa using hr)
  exact ⟨by have := this.1; omega, this.2⟩

theorem argSat_run (a : I86Arg) (tokens : List Str) (index : Nat) (m : I86Modrm) : ArgSat (argReach a) (a.run tokens index m) := by
  unfold I86Arg.run
  cases a with
  | gb | gv | sw => exact argSat_reg _ _ _ _
  | r8 n | r16 n | seg n => exact argSat_named _ _ _ _
  | eb | ev => exact argSat_either _ _ _ _
  | m =>
    refine argSat_skip silent_lift fun t => ?_
    split
    · exact argSat_mem _ _ _
    · exact argSat_quiet silent_pure
  | ib =>
    refine argSat_skip silent_lift fun t => ?_
    split
    · exact argSat_quiet silent_pure
    · exact argSat_value (k := 1) (fits_of (by simp [argReach]) (by simp) (by simp) rfl rfl rfl) (by decide) fun v b h => len_packByte h
  | iv =>
    refine argSat_skip silent_lift fun t => ?_
    split
    · exact argSat_quiet silent_pure
    · exact argSat_value (k := 2) (fits_of (by simp [argReach]) (by simp) (by simp) rfl rfl rfl) (by decide) fun v b h => len_packLe16u h
  | jb =>
    refine argSat_skip silent_lift fun t => ?_
    split
    · exact argSat_quiet silent_pure
    · exact argSat_skip silent_read fun c => argSat_value (k := 1) (fits_of (by simp [argReach]) (by simp) (by simp) rfl rfl rfl) (by decide) fun v b h => len_pack8s h
  | jv =>
    refine argSat_skip silent_lift fun t => ?_
    split
    · exact argSat_quiet silent_pure
    · exact argSat_skip silent_read fun c => argSat_value (k := 2) (fits_of (by simp [argReach]) (by simp) (by simp) rfl rfl rfl) (by decide) fun v b h => len_packLe16u h
  | ob =>
    dsimp only
    split
    · exact argSat_quiet silent_pure
    · exact argSat_value (k := 2) (fits_of (by simp [argReach]) (by simp) (by simp) rfl rfl rfl) (by decide) fun v b h => len_packLe16u h
  | ov =>
    dsimp only
    split
    · exact argSat_quiet silent_pure
    · exact argSat_value (k := 2) (fits_of (by simp [argReach]) (by simp) (by simp) rfl rfl rfl) (by decide) fun v b h => len_packLe16u h
  | mp =>
    dsimp only
    split
    · exact argSat_quiet silent_pure
    · refine .bind ((leaves_i86Build _).sat.both (sat_i86Build _)) fun b l hl => ?_
      refine .bind ((Leaves.orLabel (G := fun r => FitsIn Plain r 3) (fits_of (by simp [argReach]) (by simp) (by simp) rfl rfl rfl)).sat) fun v l' hl' => ?_
      refine .bind (.lift (P := fun b l => l = [] ∧ b.length = 2) fun a ha => ⟨rfl, by simpa using len_packLe16u ha⟩) fun b' l'' hb' => ?_
      obtain ⟨rfl, hb'⟩ := hb'
      refine .pure ⟨fun r hr => ?_, fun d b h r hr => ?_⟩
      · simp only [List.append_nil, List.mem_append] at hr
        exact hr.elim (hl.1 r) (hl' r)
      · cases h
        simp only [List.append_nil, List.mem_append] at hr
        simp only [List.length_append]
        have h3 := hr.elim (hl.1 r) (hl' r)
        exact ⟨by have := h3.1; omega, h3.2⟩
  | ap =>
    refine argSat_skip silent_lift fun t => ?_
    split
    · split
      · refine .bind ((Leaves.orLabel (G := fun r => FitsIn Plain r 5) (fits_of (by simp [argReach]) (by simp) (by simp) rfl rfl rfl)).sat) fun v l hl => ?_
        refine .bind ((Leaves.orLabel (G := fun r => FitsIn Plain r 5) (fits_of (by simp [argReach]) (by simp) (by simp) rfl rfl rfl)).sat) fun v' l' hl' => ?_
        refine .bind (.lift (P := fun b l => l = [] ∧ b.length = 4) fun a ha => ⟨rfl, by simpa using len_packLe16u ha⟩) fun b' l'' hb' => ?_
        obtain ⟨rfl, hb'⟩ := hb'
        have key : ∀ r ∈ l ++ (l' ++ ([] ++ [])), FitsIn Plain r 5 := by
          intro r hr
          simp only [List.append_nil, List.mem_append] at hr
          exact hr.elim (hl r) (hl' r)
        refine .pure ⟨key, fun d b h r hr => ?_⟩
        cases h
        exact ⟨by have := (key r hr).1; omega, (key r hr).2⟩
      · exact .throw
    · exact argSat_quiet silent_pure
  | three => exact argSat_skip silent_lift fun t => argSat_quiet silent_pure
  | i0 =>
    dsimp only
    split
    · exact argSat_quiet silent_pure
    · split
      · refine argSat_skip silent_lift fun t => argSat_skip (.parseInteger fun _ => rfl) fun o => ?_
        split
        · exact argSat_quiet silent_pure
        · split
          · exact argSat_quiet silent_pure
          · exact argSat_skip silent_lift fun _ => argSat_quiet silent_pure
      · exact argSat_quiet silent_pure

theorem sat_i86Args (tokens : List Str) : ∀ (as : List I86Arg) (index : Nat) (m : I86Modrm) (blob : Bytes),
    Sat (i86Args tokens as index m blob) fun o l => (∀ r ∈ l, ∃ a ∈ as, FitsIn Plain r (argReach a)) ∧
      ∀ full, o = some full → blob.length ≤ full.length ∧ ∀ r ∈ l, FitsIn Plain r (1 + full.length)
  | [], index, m, blob => .pure ⟨fun r hr => (by cases hr), fun full h => by
      cases h
      exact ⟨Nat.le_refl _, fun r hr => (by cases hr)⟩⟩
  | a :: as, index, m, blob => by
    unfold i86Args
    refine .bind (argSat_run a tokens index m) fun o l h => ?_
    obtain ⟨r, m'⟩ := o
    cases r with
    | none =>
      exact .pure ⟨fun r hr => ⟨a, List.mem_cons_self, h.1 r (by simpa using hr)⟩, fun _ h => by cases h⟩
    | some p =>
      obtain ⟨d, b⟩ := p
      dsimp only
      split
      · exact .pure ⟨fun r hr => ⟨a, List.mem_cons_self, h.1 r (by simpa using hr)⟩, fun _ h => by cases h⟩
      · refine (sat_i86Args tokens as _ _ _).mono fun o l' h' => ⟨fun r hr => ?_, fun full hf => ?_⟩
        · rcases List.mem_append.1 hr with hr | hr
          · exact ⟨a, List.mem_cons_self, h.1 r hr⟩
          · obtain ⟨a', ha', hr'⟩ := h'.1 r hr
            exact ⟨a', List.mem_cons_of_mem _ ha', hr'⟩
        · obtain ⟨h3, h4⟩ := h'.2 full hf
          rw [List.length_append] at h3
          refine ⟨by omega, fun r hr => ?_⟩
          rcases List.mem_append.1 hr with hr | hr
          · have h5 := h.2 d b rfl r hr
            exact ⟨by have := h5.1; omega, h5.2⟩
          · exact h4 r hr

theorem sat_rowRun (tokens : List Str) (base : Nat) (args : List I86Arg) :
    Sat (rowRun tokens base args) fun o l => (∀ r ∈ l, ∃ a ∈ args, FitsIn Plain r (argReach a)) ∧ ∀ b, o = some b → ∀ r ∈ l, FitsIn Plain r b.length := by
  unfold rowRun
  dsimp only
  split
  · split
    · exact .skip silent_lift fun _ => .pure ⟨fun _ hr => (by cases hr), fun _ _ _ hr => (by cases hr)⟩
    · exact .throw
  · split
    · exact .pure ⟨fun _ hr => (by cases hr), fun _ _ _ hr => (by cases hr)⟩
    · refine .bind (sat_i86Args _ _ _ _ _) fun o l h => ?_
      cases o with
      | none => exact .pure ⟨by simpa using h.1, nofun⟩
      | some full =>
        refine .bind (.lift (P := fun b l => l = [] ∧ b.length = 1) fun a ha => ⟨rfl, by simpa using len_packByte ha⟩) fun b l' hb => ?_
        obtain ⟨rfl, hb⟩ := hb
        refine .pure ⟨by simpa using h.1, fun b' hb' => ?_⟩
        cases hb'
        rw [List.length_append, hb]
        simpa using (h.2 full rfl).2

theorem mem_refuses {tokens : List Str} {m : I86Modrm} {c : Ctx} {v : Str} {us : List Str} (ht : tokens.drop 1 = ['['] :: v :: [']'] :: us)
    (hv : I86NoReg v) : i86Mem tokens 1 m c = (.ok (none, m), []) := by
  by_cases hc : v = [']']
  · subst hc
    have hd : tokens.drop (1 + 1) = [']'] :: [']'] :: us := by rw [← List.drop_drop, ht]; rfl
    have hg : i86GetMod [] = none := by decide
    unfold i86Mem
    simp only [hd]
    rw [if_pos (by simp)]
    unfold H.tryCatch
    simp only [List.idxOf_cons_self, List.take_zero, hg]
    rfl
  · exact mem_no ht hv hc

/-- A row of `MOV` that takes `[x]` with `x` not a register gives three bytes or more. -/
theorem mov_length {c : Ctx} {t tok : Str} {us : List Str} (hv : I86NoReg tok) {q : Nat × String × List I86Arg} (hq : q ∈ i86Table) (hn : q.2.1 = "MOV")
    {b : Bytes} {l : List Reloc} (h : rowRun (t :: ([['['], tok, [']']] ++ us)) q.1 q.2.2 c = (.ok (some b), l)) : 3 ≤ b.length := by
  obtain ⟨a1, ha1, hcl⟩ := (table_first q hq).1 hn
  cases ha : q.2.2 with
  | nil => rw [ha] at ha1; cases ha1
  | cons a as =>
    rw [ha] at ha1 h
    cases ha1
    have ht : (t :: ([['['], tok, [']']] ++ us)).drop 1 = ['['] :: tok :: [']'] :: us := rfl
    generalize t :: ([['['], tok, [']']] ++ us) = tokens at h ht
    have hone : ∀ (n : Int) (b0 : Bytes) (r3 : List Reloc), H.lift (packByte [some n]) c = (.ok b0, r3) → b0.length = 1 := by
      intro n b0 r3 h3
      have h3 : packByte [some n] = .ok b0 := congrArg Prod.fst h3
      exact len_packByte h3
    unfold rowRun at h
    rw [if_neg (List.cons_ne_nil _ _)] at h
    split at h
    · cases h
    obtain ⟨o, r1, r2, h1, h2, rfl⟩ := H.bind_ok h
    cases o with
    | none => cases h2
    | some full =>
      obtain ⟨b0, r3, r4, h3, h4, rfl⟩ := H.bind_ok h2
      cases h4
      have hb0 := hone _ _ _ h3
      suffices 2 ≤ full.length by rw [List.length_append]; omega
      unfold i86Args at h1
      obtain ⟨⟨r, m'⟩, r5, r6, h5, h6, rfl⟩ := H.bind_ok h1
      have hrun : ∀ m, a1 = .ob ∨ a1 = .ov ∨ a1.run tokens 1 m c = (.ok (none, m), []) := by
        intro m
        have hreg : ∀ names, upper ['['] ∉ names → i86Reg names tokens 1 m c = (.ok (none, m), []) := by
          intro names hn
          unfold i86Reg
          rw [H.bind_run (token_run ht c), if_neg hn]
          rfl
        have heither : ∀ names, upper ['['] ∉ names → i86Either names tokens 1 m c = (.ok (none, m), []) := by
          intro names hn
          unfold i86Either
          rw [H.bind_run (token_run ht c), if_neg hn, if_pos (by decide), mem_refuses ht hv]
        have hnamed : ∀ name, upper ['['] ≠ name → i86Named name tokens 1 m c = (.ok (none, m), []) := by
          intro name hn
          unfold i86Named
          rw [H.bind_run (token_run ht c), if_neg hn]
          rfl
        simp only [List.mem_cons, List.not_mem_nil, or_false] at hcl
        rcases hcl with (rfl | rfl | rfl | rfl | rfl | rfl | rfl) | ⟨n, hn, rfl | rfl⟩
        · exact .inr (.inr (heither _ (by decide)))
        · exact .inr (.inr (heither _ (by decide)))
        · exact .inr (.inr (hreg _ (by decide)))
        · exact .inr (.inr (hreg _ (by decide)))
        · exact .inr (.inr (hreg _ (by decide)))
        · exact .inl rfl
        · exact .inr (.inl rfl)
        · exact .inr (.inr (hnamed _ (by
            have : ∀ n < 8, upper ['['] ≠ i86Regs8.getD n [] := by decide
            exact this n hn)))
        · exact .inr (.inr (hnamed _ (by
            have : ∀ n < 8, upper ['['] ≠ i86Regs16.getD n [] := by decide
            exact this n hn)))
      have hdir : ∀ {q : Reloc} {x m : I86Modrm}, (H.parseIntegerOrLabel q >>= fun v => H.lift (packLe16u [some v]) >>= fun b => pure (some (3, b), x)) c = (.ok (r, m), r5) →
          ∃ b, r = some (3, b) ∧ b.length = 2 := by
        intro q x m h
        obtain ⟨v, r7, r8, h7, h8, rfl⟩ := H.bind_ok h
        obtain ⟨b, r9, r10, h9, h10, rfl⟩ := H.bind_ok h8
        cases h10
        have h9 : packLe16u [some v] = .ok b := congrArg Prod.fst h9
        exact ⟨b, rfl, len_packLe16u h9⟩
      have hsome : ∃ b, r = some (3, b) ∧ b.length = 2 := by
        rcases hrun _ with rfl | rfl | hr
        · cases hd : i86Direct tokens 1 with
          | none => rw [direct_no (by simp) hd] at h5; cases h5; cases h6
          | some x => simp only [I86Arg.run, hd] at h5; exact hdir h5
        · cases hd : i86Direct tokens 1 with
          | none => rw [direct_no (by simp) hd] at h5; cases h5; cases h6
          | some x => simp only [I86Arg.run, hd] at h5; exact hdir h5
        · rw [hr] at h5
          cases h5
          cases h6
      obtain ⟨b, rfl, hb⟩ := hsome
      simp only [show ¬ (3 = 0) by decide, if_false] at h6
      have h7 := ((sat_i86Args tokens as _ _ _ c _ _ h6).2 _ rfl).1
      simp only [List.nil_append] at h7
      omega

/-- A row of `OUT` that takes a number gives two bytes or more. -/
theorem out_length {c : Ctx} {t tok : Str} {us : List Str} (hv : I86Free tok) {q : Nat × String × List I86Arg} (hq : q ∈ i86Table) (hn : q.2.1 = "OUT")
    {b : Bytes} {l : List Reloc} (h : rowRun (t :: ([tok] ++ us)) q.1 q.2.2 c = (.ok (some b), l)) : 2 ≤ b.length := by
  obtain ⟨a1, ha1, hcl⟩ := (table_first q hq).2 hn
  cases ha : q.2.2 with
  | nil => rw [ha] at ha1; cases ha1
  | cons a as =>
    rw [ha] at ha1 h
    cases ha1
    have ht : (t :: ([tok] ++ us)).drop 1 = tok :: us := rfl
    generalize t :: ([tok] ++ us) = tokens at h ht
    have hone : ∀ (n : Int) (b0 : Bytes) (r3 : List Reloc), H.lift (packByte [some n]) c = (.ok b0, r3) → b0.length = 1 := by
      intro n b0 r3 h3
      have h3 : packByte [some n] = .ok b0 := congrArg Prod.fst h3
      exact len_packByte h3
    unfold rowRun at h
    rw [if_neg (List.cons_ne_nil _ _)] at h
    split at h
    · cases h
    obtain ⟨o, r1, r2, h1, h2, rfl⟩ := H.bind_ok h
    cases o with
    | none => cases h2
    | some full =>
      obtain ⟨b0, r3, r4, h3, h4, rfl⟩ := H.bind_ok h2
      cases h4
      have hb0 := hone _ _ _ h3
      suffices 1 ≤ full.length by rw [List.length_append]; omega
      unfold i86Args at h1
      obtain ⟨⟨r, m'⟩, r5, r6, h5, h6, rfl⟩ := H.bind_ok h1
      have hsome : ∃ b, r = some (1, b) ∧ b.length = 1 := by
        rcases hcl with rfl | rfl
        · simp only [I86Arg.run] at h5
          rw [H.bind_run (token_run ht c)] at h5
          split at h5
          · cases h5; cases h6
          · obtain ⟨v, r7, r8, h7, h8, rfl⟩ := H.bind_ok h5
            obtain ⟨b, r9, r10, h9, h10, rfl⟩ := H.bind_ok h8
            cases h10
            exact ⟨b, rfl, hone _ _ _ h9⟩
        · simp only [I86Arg.run] at h5
          unfold i86Named at h5
          rw [H.bind_run (token_run ht c), if_neg (fun e => (noFree hv).2.1 (by rw [e]; decide))] at h5
          cases h5; cases h6
      obtain ⟨b, rfl, hb⟩ := hsome
      simp only [show ¬ (1 = 0) by decide, if_false] at h6
      have h7 := ((sat_i86Args tokens as _ _ _ c _ _ h6).2 _ rfl).1
      simp only [List.nil_append] at h7
      omega

theorem table_reach : ∀ q ∈ i86Table, (q.2.1 = "MOV" → ∀ a ∈ q.2.2, argReach a ≤ 3) ∧ (q.2.1 = "OUT" → ∀ a ∈ q.2.2, argReach a ≤ 2) := by
  decide +kernel

/-- The rows of one mnemonic. -/
theorem sat_i86Call (t : Str) (rest : List Str) (name : String) : ∀ conds : List (Nat × List I86Arg), (∀ q ∈ conds, (q.1, name, q.2) ∈ i86Table) →
    Sat (i86Call (t :: rest) conds) fun o l => ∀ b, o = some b → (∀ r ∈ l, FitsIn Plain r b.length) ∧
      (name = "MOV" → ∀ tok us, rest = [['['], tok, [']']] ++ us → I86NoReg tok → 3 ≤ b.length) ∧
      (name = "OUT" → ∀ tok us, rest = [tok] ++ us → I86Free tok → 2 ≤ b.length)
  | [], _ => .pure nofun
  | (base, args) :: conds, hq => by
    intro c o l h b hb
    subst hb
    rw [call_cons] at h
    have hrow := hq _ List.mem_cons_self
    obtain ⟨o, l1, l2, h1, h2, rfl⟩ := H.bind_ok h
    have hs := sat_rowRun _ _ _ c _ _ h1
    cases o with
    | some b' =>
      cases h2
      refine ⟨by rw [List.append_nil]; exact hs.2 _ rfl, ?_, ?_⟩
      · rintro rfl tok us rfl hv
        exact mov_length hv hrow rfl h1
      · rintro rfl tok us rfl hv
        exact out_length hv hrow rfl h1
    | none =>
      obtain ⟨h3, h4, h5⟩ := sat_i86Call t rest name conds (fun q hm => hq q (List.mem_cons_of_mem _ hm)) c _ _ h2 b rfl
      refine ⟨fun r hr => ?_, h4, h5⟩
      rcases List.mem_append.1 hr with hr | hr
      · obtain ⟨tok, us, -, -, hcase⟩ := row_stale hrow h1 (List.ne_nil_of_mem hr)
        obtain ⟨a, ha, hf⟩ := hs.1 r hr
        obtain ⟨k1, k2⟩ := table_reach _ hrow
        rcases hcase with ⟨hn, hrest, hv⟩ | ⟨hn, hrest, hv⟩
        · have k3 := k1 hn a ha
          have k4 := h4 hn tok us hrest hv
          exact ⟨by have := hf.1; omega, hf.2⟩
        · have k3 := k2 hn a ha
          have k4 := h5 hn tok us hrest hv
          exact ⟨by have := hf.1; omega, hf.2⟩
      · exact h3 r hr

theorem i86Call_empty : ∀ conds : List (Nat × List I86Arg), LineOk (i86Call [] conds)
  | [] => lineOk_none
  | (base, args) :: conds => by
    unfold i86Call
    dsimp only
    split
    · rw [if_neg (by simp)]; exact .throw
    · rw [if_pos (by simp)]; exact i86Call_empty conds

theorem i86Conds_row {key : Str} {q : Nat × List I86Arg} (h : q ∈ i86Conds key) : (q.1, String.ofList key, q.2) ∈ i86Table := by
  unfold i86Conds at h
  obtain ⟨r, hr, rfl⟩ := List.mem_map.1 h
  obtain ⟨hr, hk⟩ := List.mem_filter.1 hr
  have : r.2.1.toList = key := by simpa using hk
  subst this
  simpa using hr

theorem tidy_i8086 : TidyLines i8086 := by
  intro key f tokens h
  simp only [i8086] at h
  split at h
  · cases h
  · cases h
    cases tokens with
    | nil => exact i86Call_empty _
    | cons t rest => exact (sat_i86Call t rest _ _ fun q hq => i86Conds_row hq).mono fun o l h b hb => (h b hb).1

end Necro
