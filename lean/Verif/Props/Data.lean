import Verif.Lemmas.Data
import Verif.Model.Cpu.Mos6502
/-!
# C22, C23: data and padding directives

`args` are the arguments as written; `substituteWithDict args s.defines 0` are the arguments
after `.define` substitution (C05), which is what the directive works on.  The hypothesis
`d.directives env (d.key name.toList) = none` says that the assembler class does not replace
the built-in directive (none does in the repository).
-/

namespace Necro
open Spec
open M (throw get modify lift forEach times)

/-! ## C22 -/

theorem dget_lookup {κ ν : Type} [BEq κ] [LawfulBEq κ] [DecidableEq κ] (l : List (κ × ν)) (k : κ) :
    dget l k = l.lookup k := by
  induction l with
  | nil => rfl
  | cons p l ih =>
    obtain ⟨a, b⟩ := p
    simp only [dget, List.lookup]
    by_cases h : a = k
    · subst h; simp
    · have : (k == a) = false := by simp; exact fun e => h e.symm
      simp [h, this, ih]

theorem itemRefs_ge (size : Nat) (items : List (Str × Bytes × Bool)) : ∀ (n : Nat) (p : Nat × Reloc),
    p ∈ itemRefs size n items → n ≤ p.1 := by
  induction items with
  | nil => intro n p h; simp [itemRefs] at h
  | cons i items ih =>
    intro n p h
    obtain ⟨tok, out, r⟩ := i
    simp only [itemRefs, List.mem_append] at h
    rcases h with h | h
    · cases r <;> simp at h; subst h; exact Nat.le_refl _
    · have := ih _ p h; omega

theorem itemRefs_nodup {d : Dialect} {size : Nat} (hs : 0 < size) {num : Str → Except Err (Option Int)}
    (items : List (Str × Bytes × Bool)) (hi : ∀ i ∈ items, DataItem size d.bigEndian num i.1 i.2.1 i.2.2) :
    ∀ n, ((itemRefs size n items).map Prod.fst).Nodup := by
  induction items with
  | nil => intro n; simp [itemRefs]
  | cons i items ih =>
    intro n
    have ih' := ih (fun x hx => hi x (by simp [hx]))
    obtain ⟨tok, out, r⟩ := i
    simp only [itemRefs]
    cases r with
    | false => simpa using ih' _
    | true =>
      have h1 := hi (tok, out, true) (by simp)
      have : out.length = size := by cases h1; simp
      simp only [if_true, List.cons_append, List.nil_append, List.map_cons, List.nodup_cons]
      refine ⟨?_, ih' _⟩
      intro hm
      obtain ⟨p, hp, he⟩ := List.mem_map.1 hm
      have := itemRefs_ge size items _ p hp
      omega

theorem foldl_dset_lookup {ν : Type} (l : List (Nat × ν)) : ∀ (t : List (Nat × ν)), (l.map Prod.fst).Nodup →
    (∀ p ∈ l, dget (l.foldl (fun t p => dset t p.1 p.2) t) p.1 = some p.2) ∧
    ∀ k, k ∉ l.map Prod.fst → dget (l.foldl (fun t p => dset t p.1 p.2) t) k = dget t k := by
  induction l with
  | nil => intro t _; simp
  | cons p l ih =>
    intro t hn
    simp only [List.map_cons, List.nodup_cons] at hn
    obtain ⟨h1, h2⟩ := ih (dset t p.1 p.2) hn.2
    refine ⟨?_, ?_⟩
    · intro q hq
      simp only [List.mem_cons] at hq
      simp only [List.foldl_cons]
      rcases hq with rfl | hq
      · rw [h2 _ hn.1, dget_dset_self]
      · exact h1 q hq
    · intro k hk
      simp only [List.map_cons, List.mem_cons, not_or] at hk
      simp only [List.foldl_cons]
      rw [h2 k hk.2, dget_dset_ne]; exact fun e => hk.1 e.symm

/-- How each data directive is executed. -/
theorem data_exec {d : Dialect} {env : Env} {rec : Str → M Unit} {name : String} {size : Nat}
    (hn : (name, size) ∈ dataSizes) (hc : d.directives env (d.key name.toList) = none)
    {t : Str} (ht : IsDirectiveToken d t name) (args : List Str) (s : St) :
    ∃ enc pack, GoodPack d size enc pack ∧
      (∀ txt, (∃ out, enc txt = .ok out) ↔ (size = 1 → ∀ c ∈ txt, c.toNat < 128)) ∧
      execDirective d env rec (t :: args) s =
        forEach (substituteWithDict args s.defines 0) (dataItem d size enc pack) s := by
  have one : ∀ m, (m, directiveDb d) ∈ builtinDirective d env rec → IsDirectiveToken d t m →
      d.directives env (d.key m.toList) = none → size = 1 →
      ∃ enc pack, GoodPack d size enc pack ∧
      (∀ txt, (∃ out, enc txt = .ok out) ↔ (size = 1 → ∀ c ∈ txt, c.toNat < 128)) ∧
      execDirective d env rec (t :: args) s =
        forEach (substituteWithDict args s.defines 0) (dataItem d size enc pack) s := by
    rintro m hb ht hc rfl
    exact ⟨_, _, goodPack_db d, fun txt => by simp [encodeAscii_iff], by rw [exec_builtin hb hc ht]; rfl⟩
  have two : ∀ m, (m, directiveDw d) ∈ builtinDirective d env rec → IsDirectiveToken d t m →
      d.directives env (d.key m.toList) = none → size = 2 →
      ∃ enc pack, GoodPack d size enc pack ∧
      (∀ txt, (∃ out, enc txt = .ok out) ↔ (size = 1 → ∀ c ∈ txt, c.toNat < 128)) ∧
      execDirective d env rec (t :: args) s =
        forEach (substituteWithDict args s.defines 0) (dataItem d size enc pack) s := by
    rintro m hb ht hc rfl
    exact ⟨_, _, goodPack_dw d, fun txt => by simp, by rw [exec_builtin hb hc ht]; rfl⟩
  have four : ∀ m, (m, directiveDd d) ∈ builtinDirective d env rec → IsDirectiveToken d t m →
      d.directives env (d.key m.toList) = none → size = 4 →
      ∃ enc pack, GoodPack d size enc pack ∧
      (∀ txt, (∃ out, enc txt = .ok out) ↔ (size = 1 → ∀ c ∈ txt, c.toNat < 128)) ∧
      execDirective d env rec (t :: args) s =
        forEach (substituteWithDict args s.defines 0) (dataItem d size enc pack) s := by
    rintro m hb ht hc rfl
    exact ⟨_, _, goodPack_dd d, fun txt => by simp, by rw [exec_builtin hb hc ht]; rfl⟩
  simp only [dataSizes, List.mem_cons, Prod.mk.injEq, List.not_mem_nil, or_false] at hn
  rcases hn with ⟨rfl, rfl⟩ | ⟨rfl, rfl⟩ | ⟨rfl, rfl⟩ | ⟨rfl, rfl⟩ | ⟨rfl, rfl⟩ | ⟨rfl, rfl⟩ | ⟨rfl, rfl⟩
  · exact one _ (by simp [builtinDirective]) ht hc rfl
  · exact one _ (by simp [builtinDirective]) ht hc rfl
  · exact two _ (by simp [builtinDirective]) ht hc rfl
  · exact two _ (by simp [builtinDirective]) ht hc rfl
  · exact four _ (by simp [builtinDirective]) ht hc rfl
  · exact four _ (by simp [builtinDirective]) ht hc rfl
  · exact four _ (by simp [builtinDirective]) ht hc rfl

/-- C22: what a successful data directive does.  Each argument contributes one item; the
output grows by the items in order; each label argument is recorded as a reference at the
offset of its item; nothing else changes. -/
theorem C22_emit (d : Dialect) (env : Env) (rec : Str → M Unit) (name : String) (size : Nat)
    (hn : (name, size) ∈ dataSizes) (hc : d.directives env (d.key name.toList) = none)
    (t : Str) (ht : IsDirectiveToken d t name) (args : List Str) (s s' : St)
    (h : execDirective d env rec (t :: args) s = (.ok (), s')) :
    ∃ items : List (Str × Bytes × Bool),
      items.map Prod.fst = substituteWithDict args s.defines 0 ∧
      (∀ i ∈ items, DataItem size d.bigEndian (fun t => parseInteger d.sy s.labels t (8 * size) false) i.1 i.2.1 i.2.2) ∧
      s'.bytes = s.bytes ++ items.flatMap (·.2.1) ∧
      (∀ p ∈ itemRefs size s.bytes.length items, s'.relocs.lookup p.1 = some p.2) ∧
      (∀ k, k ∉ (itemRefs size s.bytes.length items).map Prod.fst → s'.relocs.lookup k = s.relocs.lookup k) ∧
      s' = { s with bytes := s'.bytes, counter := s.counter + (s'.bytes.length - s.bytes.length), relocs := s'.relocs } := by
  obtain ⟨enc, pack, g, _, he⟩ := data_exec (rec := rec) hn hc ht args s
  rw [he] at h
  obtain ⟨items, h1, h2, rfl⟩ := dataRow_ok g _ s s' h
  have hs : 0 < size := by have := g.pos; omega
  have hnd := itemRefs_nodup hs items h2 s.bytes.length
  have hf := foldl_dset_lookup (itemRefs size s.bytes.length items) s.relocs hnd
  refine ⟨items, h1, h2, placeItems_bytes size items s, ?_, ?_, placeItems_rest size items s⟩
  · intro p hp
    rw [← dget_lookup, placeItems_relocs]; exact hf.1 p hp
  · intro k hk
    rw [← dget_lookup, ← dget_lookup, placeItems_relocs]; exact hf.2 k hk

/-- C22: exactly when a data directive is accepted: every argument is a string (of ASCII
characters in byte data) or a number that fits, or not a number at all (then it is taken
for a label). -/
theorem C22_accept_iff (d : Dialect) (env : Env) (rec : Str → M Unit) (name : String) (size : Nat)
    (hn : (name, size) ∈ dataSizes) (hc : d.directives env (d.key name.toList) = none)
    (t : Str) (ht : IsDirectiveToken d t name) (args : List Str) (s : St) :
    (∃ s', execDirective d env rec (t :: args) s = (.ok (), s')) ↔
    ∀ a ∈ substituteWithDict args s.defines 0, a ≠ [] ∧
      (Quoted a → size = 1 → ∀ c ∈ (a.drop 1).dropLast, c.toNat < 128) ∧
      (¬ Quoted a → ∃ o, parseInteger d.sy s.labels a (8 * size) false = .ok o) := by
  obtain ⟨enc, pack, g, hte, he⟩ := data_exec (rec := rec) hn hc ht args s
  rw [he]
  constructor
  · rintro ⟨s', h⟩ a ha
    obtain ⟨items, h1, h2, _⟩ := dataRow_ok g _ s s' h
    rw [← h1] at ha
    obtain ⟨⟨i, out, r⟩, hi, rfl⟩ := List.mem_map.1 ha
    have hd := h2 _ hi
    simp only at hd ⊢
    cases hd with
    | text _ hq ht =>
      refine ⟨?_, ?_, fun h => absurd hq h⟩
      · intro e; rw [e] at hq; simp [Quoted] at hq
      · rintro _ rfl; exact ht.1
    | num _ v h0 hq hv _ _ => exact ⟨h0, fun h => absurd h hq, fun _ => ⟨_, hv⟩⟩
    | ref h0 hq hv => exact ⟨h0, fun h => absurd h hq, fun _ => ⟨_, hv⟩⟩
  · intro h
    apply dataRow_succeeds g
    intro a ha
    obtain ⟨h1, h2, h3⟩ := h a ha
    exact ⟨h1, fun hq => (hte _).2 (h2 hq), h3⟩

/-- A byte, a string and an unknown label. -/
example : (execDirective mos6502 {} (fun _ => pure ()) [".db".toList, "$41".toList, "\"BC\"".toList, "foo".toList] {}).2.bytes =
    [0x41#8, 0x42#8, 0x43#8, 0#8] ∧
    ((execDirective mos6502 {} (fun _ => pure ()) [".db".toList, "$41".toList, "\"BC\"".toList, "foo".toList] {}).2.relocs.map
      fun p => (p.1, p.2.label)) = [(3, "foo".toList)] := by decide +kernel
example : ("dw", 2) ∈ dataSizes ∧ IsDirectiveToken mos6502 ".Dw".toList "dw" := by
  unfold IsDirectiveToken; decide

/-! ## C23 -/

section padding
variable (d : Dialect) (env : Env) (rec : Str → M Unit) (t : Str) (args : List Str) (s : St)

/-- The fill value of a padding directive: its second argument if there is one. -/
def fillValueOf (d : Dialect) (s : St) (rest : List Str) (v : Int) : Prop :=
  (rest = [] ∧ v = d.fillValue) ∨ ∃ b, rest = [b] ∧ parseInteger d.sy s.labels b 8 false = .ok (some v)

theorem parseArg_some {d : Dialect} {a : Str} {b : Nat} {s : St} {v : Int}
    (h : parseInteger d.sy s.labels a b false = .ok (some v)) : parseArg d a b s = (.ok v, s) := by
  rw [parseArg_eq, h]

theorem twoOrThree_ok (t a : Str) (rest : List Str) (hr : rest.length ≤ 1) (s : St) :
    twoOrThree (t :: a :: rest) s = (.ok (a, rest), s) := by
  match rest, hr with
  | [], _ => rfl
  | [b], _ => rfl

theorem fillArg_ok {d : Dialect} {s : St} {rest : List Str} {v : Int} (h : fillValueOf d s rest v) :
    fillArg d rest s = (.ok v, s) := by
  rcases h with ⟨rfl, rfl⟩ | ⟨b, rfl, h⟩
  · rfl
  · exact parseArg_some h

theorem fillValueOf_length {d : Dialect} {s : St} {rest : List Str} {v : Int} (h : fillValueOf d s rest v) :
    rest.length ≤ 1 := by
  rcases h with ⟨rfl, rfl⟩ | ⟨b, rfl, h⟩ <;> simp

theorem bytesRep_ok {v n : Int} (h0 : 0 ≤ v) (h1 : v < 256) :
    bytesRep v n = .ok (List.replicate n.toNat (BitVec.ofInt 8 v)) := by
  unfold bytesRep
  split
  · rw [show n.toNat = 0 by omega]; rfl
  · simp [h0, h1]

/-- C23: `.fill n [v]` appends `n` copies of the fill value. -/
theorem C23_fill (hc : d.directives env (d.key "fill".toList) = none) (ht : IsDirectiveToken d t "fill")
    (a : Str) (rest : List Str) (ha : substituteWithDict args s.defines 0 = a :: rest)
    (n : Nat) (hn : parseInteger d.sy s.labels a 64 false = .ok (some (n : Int)))
    (v : Int) (hv : fillValueOf d s rest v) (h0 : 0 ≤ v) (h1 : v < 256) :
    execDirective d env rec (t :: args) s =
      (.ok (), { s with bytes := s.bytes ++ List.replicate n (BitVec.ofInt 8 v), counter := s.counter + n }) := by
  rw [exec_builtin (p := ("fill", directiveFill d)) (by simp [builtinDirective]) hc ht, ha]
  simp only [directiveFill]
  rw [bind_eq, twoOrThree_ok _ _ _ (fillValueOf_length hv)]
  simp only
  rw [bind_eq, parseArg_some hn]
  simp only
  rw [bind_eq, fillArg_ok hv]
  simp only
  rw [bind_eq, lift_eq, bytesRep_ok h0 h1]
  simp [appendBytes, modify_eq]

/-- C23: `.ram n` advances the pc by `n` and does nothing else; it rejects `n = 0`. -/
theorem C23_ram (hc : d.directives env (d.key "ram".toList) = none) (ht : IsDirectiveToken d t "ram")
    (a : Str) (ha : substituteWithDict args s.defines 0 = [a])
    (n : Int) (hn : parseInteger d.sy s.labels a 64 false = .ok (some n)) :
    execDirective d env rec (t :: args) s =
      if 0 < n then (.ok (), { s with counter := s.counter + n }) else (.error .invalidArgumentsForDirective, s) := by
  rw [exec_builtin (p := ("ram", directiveRam d)) (by simp [builtinDirective]) hc ht, ha]
  simp only [directiveRam]
  rw [bind_eq]
  simp only [exactlyTwo, pure_eq]
  rw [bind_eq, parseArg_some hn]
  simp only
  by_cases h : 0 < n
  · have : ¬ n < 1 := by omega
    simp [h, this, modify_eq]
  · have : n < 1 := by omega
    simp [h, this, throw_eq]

/-- C23: `.align n` reaches the next multiple of `n` with fewer than `n` fill bytes. -/
theorem C23_align (hc : d.directives env (d.key "align".toList) = none) (ht : IsDirectiveToken d t "align")
    (a : Str) (ha : substituteWithDict args s.defines 0 = [a])
    (n : Int) (hn : parseInteger d.sy s.labels a 64 false = .ok (some n)) (hpos : 0 < n)
    (h0 : 0 ≤ d.fillValue) (h1 : d.fillValue < 256) :
    ∃ k : Nat, (k : Int) < n ∧ (s.pc + k) % n = 0 ∧
      execDirective d env rec (t :: args) s =
        (.ok (), { s with bytes := s.bytes ++ List.replicate k (BitVec.ofInt 8 d.fillValue), counter := s.counter + k }) := by
  have hm0 := Int.emod_nonneg s.pc (show n ≠ 0 by omega)
  have hm1 := Int.emod_lt_of_pos s.pc hpos
  have hex : execDirective d env rec (t :: args) s = directiveAlign d [t, a] s := by
    rw [exec_builtin (p := ("align", directiveAlign d)) (by simp [builtinDirective]) hc ht, ha]
  rw [hex]
  simp only [directiveAlign]
  rw [bind_eq]
  simp only [exactlyTwo, pure_eq]
  rw [bind_eq, parseArg_some hn]
  simp only
  rw [bind_eq, get_eq]
  simp only
  rw [if_neg (show ¬ n = 0 by omega)]
  by_cases hz : s.pc % n = 0
  · refine ⟨0, by simpa using hpos, by simpa using hz, ?_⟩
    simp [hz, pure_eq]
  · refine ⟨(n - s.pc % n).toNat, by omega, ?_, ?_⟩
    · rw [Int.toNat_of_nonneg (by omega)]
      have : s.pc + (n - s.pc % n) = n * (s.pc / n + 1) := by
        have h := Int.emod_add_mul_ediv s.pc n
        rw [Int.mul_add, Int.mul_one]
        omega
      rw [this]; exact Int.mul_emod_right n _
    · rw [if_pos (show s.pc % n ≠ 0 from hz)]
      rw [bind_eq, lift_eq, bytesRep_ok h0 h1]
      simp only [appendBytes, modify_eq]
      have : (List.replicate (n - s.pc % n).toNat (List.replicate (1 : Int).toNat (BitVec.ofInt 8 d.fillValue))).flatten =
          List.replicate (n - s.pc % n).toNat (BitVec.ofInt 8 d.fillValue) := by
        generalize (n - s.pc % n).toNat = k
        induction k with
        | zero => rfl
        | succ k ih => rw [List.replicate_succ, List.flatten_cons, ih]; rfl
      rw [this, List.length_replicate]

/-- C23: `.align 0` raises. -/
theorem C23_align_zero (hc : d.directives env (d.key "align".toList) = none) (ht : IsDirectiveToken d t "align")
    (a : Str) (ha : substituteWithDict args s.defines 0 = [a])
    (hn : parseInteger d.sy s.labels a 64 false = .ok (some 0)) :
    execDirective d env rec (t :: args) s = (.error .zeroDivisionError, s) := by
  rw [exec_builtin (p := ("align", directiveAlign d)) (by simp [builtinDirective]) hc ht, ha]
  simp only [directiveAlign]
  rw [bind_eq]
  simp only [exactlyTwo, pure_eq]
  rw [bind_eq, parseArg_some hn]
  rfl

/-- C23: `.goto x [v]` is accepted exactly when `x` is not below the size of the output;
it then pads until the pc is `x`, or does nothing when the pc is already beyond. -/
theorem C23_goto (hc : d.directives env (d.key "goto".toList) = none) (ht : IsDirectiveToken d t "goto")
    (a : Str) (rest : List Str) (ha : substituteWithDict args s.defines 0 = a :: rest)
    (x : Int) (hx : parseInteger d.sy s.labels a 64 false = .ok (some x))
    (v : Int) (hv : fillValueOf d s rest v) (h0 : 0 ≤ v) (h1 : v < 256) :
    execDirective d env rec (t :: args) s =
      if x < s.bytes.length then (.error .addressOverlap, s)
      else (.ok (), { s with
        bytes := s.bytes ++ List.replicate (x - s.pc).toNat (BitVec.ofInt 8 v)
        counter := s.counter + ((x - s.pc).toNat : Nat) }) := by
  rw [exec_builtin (p := ("goto", directiveGoto d)) (by simp [builtinDirective]) hc ht, ha]
  simp only [directiveGoto]
  rw [bind_eq, twoOrThree_ok _ _ _ (fillValueOf_length hv)]
  simp only
  rw [bind_eq, parseArg_some hx]
  simp only
  rw [bind_eq, get_eq]
  simp only
  by_cases h : x < s.bytes.length
  · simp [h, throw_eq]
  · simp only [h, if_false]
    rw [bind_eq, fillArg_ok hv]
    simp only
    rw [bind_eq, lift_eq, bytesRep_ok h0 h1]
    simp [appendBytes, modify_eq]

/-- C23: the pc after an accepted `.goto x` is `x`, unless it was beyond. -/
theorem C23_goto_reaches (hc : d.directives env (d.key "goto".toList) = none) (ht : IsDirectiveToken d t "goto")
    (a : Str) (rest : List Str) (ha : substituteWithDict args s.defines 0 = a :: rest)
    (x : Int) (hx : parseInteger d.sy s.labels a 64 false = .ok (some x))
    (v : Int) (hv : fillValueOf d s rest v) (h0 : 0 ≤ v) (h1 : v < 256) (s' : St)
    (h : execDirective d env rec (t :: args) s = (.ok (), s')) : s'.pc = max s.pc x := by
  rw [C23_goto d env rec t args s hc ht a rest ha x hx v hv h0 h1] at h
  split at h
  · simp at h
  · simp only [Prod.mk.injEq, true_and] at h
    subst h
    simp only [St.pc] at *; omega

/-- C23: `.upto x [v]` does the same with the offset into the current region. -/
theorem C23_upto (hc : d.directives env (d.key "upto".toList) = none) (ht : IsDirectiveToken d t "upto")
    (a : Str) (rest : List Str) (ha : substituteWithDict args s.defines 0 = a :: rest)
    (x : Int) (hx : parseInteger d.sy s.labels a 64 false = .ok (some x))
    (v : Int) (hv : fillValueOf d s rest v) (h0 : 0 ≤ v) (h1 : v < 256) :
    execDirective d env rec (t :: args) s =
      if x < s.bytes.length then (.error .addressOverlap, s)
      else (.ok (), { s with
        bytes := s.bytes ++ List.replicate (x - (s.pc - s.org)).toNat (BitVec.ofInt 8 v)
        counter := s.counter + ((x - (s.pc - s.org)).toNat : Nat) }) := by
  rw [exec_builtin (p := ("upto", directiveUpto d)) (by simp [builtinDirective]) hc ht, ha]
  simp only [directiveUpto]
  rw [bind_eq, twoOrThree_ok _ _ _ (fillValueOf_length hv)]
  simp only
  rw [bind_eq, parseArg_some hx]
  simp only
  rw [bind_eq, get_eq]
  simp only
  by_cases h : x < s.bytes.length
  · simp [h, throw_eq]
  · simp only [h, if_false]
    rw [bind_eq, fillArg_ok hv]
    simp only
    rw [bind_eq, lift_eq, bytesRep_ok h0 h1]
    simp [appendBytes, modify_eq]

/-- C23: the region offset after an accepted `.upto x` is `x`, unless it was beyond. -/
theorem C23_upto_reaches (hc : d.directives env (d.key "upto".toList) = none) (ht : IsDirectiveToken d t "upto")
    (a : Str) (rest : List Str) (ha : substituteWithDict args s.defines 0 = a :: rest)
    (x : Int) (hx : parseInteger d.sy s.labels a 64 false = .ok (some x))
    (v : Int) (hv : fillValueOf d s rest v) (h0 : 0 ≤ v) (h1 : v < 256) (s' : St)
    (h : execDirective d env rec (t :: args) s = (.ok (), s')) : s'.pc - s'.org = max (s.pc - s.org) x := by
  rw [C23_upto d env rec t args s hc ht a rest ha x hx v hv h0 h1] at h
  split at h
  · simp at h
  · simp only [Prod.mk.injEq, true_and] at h
    subst h
    simp only [St.pc] at *; omega

end padding

example : (execDirective mos6502 {} (fun _ => pure ()) [".align".toList, "8".toList] { org := 0x11 }).2.pc = 0x18 := by
  decide +kernel
example : fillValueOf mos6502 {} ["$EA".toList] 0xEA := .inr ⟨_, rfl, by decide +kernel⟩

end Necro
