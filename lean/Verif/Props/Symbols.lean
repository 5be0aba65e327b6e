import Verif.Spec.Symbols
import Verif.Model.Platform.Symbols
import Verif.Lemmas.Console
import Verif.Props.Invariants
import Verif.Props.Link
/-!
# C84: the debug symbol files of the NES assembler
-/

namespace Necro
open Spec
open M (throw get modify lift forEach)

/-! ## what keeps the label table -/

theorem rel_sameLabels : DataRel (fun s s' => s'.labels = s.labels) where
  refl := fun _ => rfl
  trans := fun h1 h2 => h2.trans h1
  append := fun _ _ => rfl
  reloc := fun _ _ => rfl

theorem sameLabels_setByte (a : Nat) (b : BitVec 8) (s : St) : (setByte a b s).2.labels = s.labels := by
  unfold setByte
  split <;> rfl

theorem sameLabels_writeAt (blob : Bytes) : ∀ (x : Nat) (s : St), (writeAt x blob s).2.labels = s.labels := by
  induction blob with
  | nil => intro x s; rfl
  | cons b blob ih =>
    intro x
    exact Keeps.bind rel_sameLabels (f := fun _ => writeAt (x + 1) blob) (fun s => sameLabels_setByte x b s) (fun _ => ih _)

theorem sameLabels_fill (d : Dialect) (address size : Nat) (l : List Str) :
    Keeps (fun s s' => s'.labels = s.labels) (cartridgeFill d address size l) := by
  have hd := rel_sameLabels
  refine .bind hd (.get hd) fun s => ?_
  split
  · exact .throw hd _
  split
  · exact .throw hd _
  refine .bind hd ?_ fun blob => ?_
  · intro s
    have := (parseBytes_spec d (l.drop 1) s).1
    unfold headerBytes
    split
    · next e => rw [e] at this; rw [show _ = s from this]
    · next e => rw [this]
  split
  · exact .throw hd _
  · exact fun s => sameLabels_writeAt blob address s

theorem nes_sameLabels (env : Env) : CustomKeeps nes env (fun s s' => s'.labels = s.labels) := by
  intro key f hf ts
  refine custom_class (d := mos6502) (l := nesDirectives mos6502 env) (fun p hp ts => ?_) hf ts
  have hd := rel_sameLabels
  simp only [nesDirectives, List.mem_cons, List.not_mem_nil, or_false] at hp
  rcases hp with rfl | rfl | rfl | rfl
  · refine .bind hd (.get hd) fun s => ?_
    split
    · exact .throw hd _
    · exact .bind hd (.appendBytes hd _) fun _ => fun s => rfl
  · exact sameLabels_fill mos6502 _ _ ts
  · exact sameLabels_fill mos6502 _ _ ts
  · exact kept_tiles hd env _ _ _ ts

theorem sameLabels_writeField (d : Dialect) (a n : Nat) (v : Int) :
    Keeps (fun s s' => s'.labels = s.labels) (writeField d a n v) := by
  have hd := rel_sameLabels
  have ho : ∀ x b, Keeps (fun s s' => s'.labels = s.labels) (orByte x b) := by
    intro x b s
    unfold orByte
    split <;> rfl
  refine .forEach hd fun i _ => ?_
  dsimp only
  split <;> exact ho _ _

theorem sameLabels_resolve (d : Dialect) (k : LinkerKind) : Keeps (fun s s' => s'.labels = s.labels) (resolveLabels d k) := by
  have hd := rel_sameLabels
  refine .bind hd (.get hd) fun s => .forEach hd fun e _ => .bind hd (.get hd) fun s => .bind hd (.lift hd _) fun p => ?_
  dsimp only
  split
  · exact .bind hd (.lift hd _) fun blob => fun s => sameLabels_writeAt blob _ s
  · exact .bind hd (.lift hd _) fun v => sameLabels_writeField d _ _ v

/-! ## one line -/

theorem encodeAscii_eq {t : Str} (h : ∀ c ∈ t, c.toNat < 128) : encodeAscii t = .ok (asciiName t) := by
  induction t with
  | nil => rfl
  | cons c t ih =>
    simp only [List.forall_mem_cons] at h
    unfold encodeAscii
    rw [if_pos h.1, ih h.2]
    rfl

/-- The digits of a four digit number. -/
def fourDigits (n : Nat) : Str := [n / 4096 % 16, n / 256 % 16, n / 16 % 16, n % 16].map fun d => (Nat.digitChar d).toUpper

theorem digits_step {n : Nat} (h : 16 ≤ n) : Nat.toDigits 16 n = Nat.toDigits 16 (n / 16) ++ [(n % 16).digitChar] :=
  Nat.toDigits_of_base_le (by decide) h

theorem fmtHex_four {n : Nat} (h : n < 65536) : fmtHex 4 (n : Int) = fourDigits n := by
  show List.replicate (4 - (Nat.toDigits 16 n).length) '0' ++ upper (Nat.toDigits 16 n) = fourDigits n
  unfold fourDigits upper
  by_cases h1 : n < 16
  · rw [Nat.toDigits_of_lt_base h1]
    have : n / 4096 % 16 = 0 ∧ n / 256 % 16 = 0 ∧ n / 16 % 16 = 0 ∧ n % 16 = n := by omega
    simp only [this.1, this.2.1, this.2.2.1, this.2.2.2]; rfl
  rw [digits_step (by omega)]
  by_cases h2 : n / 16 < 16
  · rw [Nat.toDigits_of_lt_base h2]
    have : n / 4096 % 16 = 0 ∧ n / 256 % 16 = 0 ∧ n / 16 % 16 = n / 16 := by omega
    simp only [this.1, this.2.1, this.2.2]; rfl
  rw [digits_step (by omega)]
  by_cases h3 : n / 16 / 16 < 16
  · rw [Nat.toDigits_of_lt_base h3]
    have : n / 4096 % 16 = 0 ∧ n / 256 % 16 = n / 16 / 16 := by omega
    simp only [this.1, this.2]; rfl
  rw [digits_step (by omega), Nat.toDigits_of_lt_base (by omega : n / 16 / 16 / 16 < 16)]
  have : n / 4096 % 16 = n / 16 / 16 / 16 ∧ n / 256 % 16 = n / 16 / 16 % 16 := by omega
  simp only [this.1, this.2]; rfl

theorem hexDigit_digit : ∀ d : Nat, d < 16 → hexDigit (BitVec.ofNat 8 (Nat.digitChar d).toUpper.toNat) = some d ∧
    (Nat.digitChar d).toUpper.toNat < 128 ∧ (Nat.digitChar d).toUpper.toNat ≠ 0x0D := by decide

theorem nameChar_ascii {c : Char} (h : nameChar c = true) : c.toNat < 128 ∧ c.toNat ≠ 0x0D ∧ c.toNat ≠ 0x23 ∧ formulaChar c = false := by
  have hu : c.toNat < 128 := by
    simp only [nameChar, Char.isAlphanum, Char.isAlpha, Char.isUpper, Char.isLower, Char.isDigit, Bool.or_eq_true, Bool.and_eq_true,
      decide_eq_true_eq, beq_iff_eq] at h
    rcases h with (((h | h) | h) | h) | h
    · have := h.2; have : c.val.toNat ≤ 90 := this; show c.val.toNat < 128; omega
    · have := h.2; have : c.val.toNat ≤ 122 := this; show c.val.toNat < 128; omega
    · have := h.2; have : c.val.toNat ≤ 57 := this; show c.val.toNat < 128; omega
    · subst h; decide
    · subst h; decide
  refine ⟨hu, ?_⟩
  have key : ∀ n : Nat, n < 128 → nameChar (Char.ofNat n) = true → n ≠ 0x0D ∧ n ≠ 0x23 ∧ formulaChar (Char.ofNat n) = false := by decide +kernel
  have := key c.toNat hu
  rw [Char.ofNat_toNat] at this
  exact this h

theorem fileLines_line {l : Bytes} (h : ∀ b ∈ l, b ≠ 0x0D#8) (rest : Bytes) :
    fileLines (l ++ 0x0D#8 :: 0x0A#8 :: rest) = (fileLines rest).map (l :: ·) := by
  induction l with
  | nil => rw [List.nil_append, fileLines]
  | cons b l ih =>
    simp only [List.forall_mem_cons] at h
    rw [List.cons_append, fileLines]
    · rw [ih h.2]
      cases fileLines rest <;> rfl
    · intro r hr _; exact h.1 hr

theorem readName_line {a : Nat} (h : a < 65536) {name : Str} (hn : ∀ c ∈ name, nameChar c = true) :
    ∃ l, nlLine a name = .ok (l ++ [0x0D#8, 0x0A#8]) ∧ (∀ b ∈ l, b ≠ 0x0D#8) ∧ readName l = some (a, asciiName name) := by
  have hd : ∀ k, hexDigit (BitVec.ofNat 8 (Nat.digitChar (k % 16)).toUpper.toNat) = some (k % 16) ∧
    (Nat.digitChar (k % 16)).toUpper.toNat < 128 ∧ (Nat.digitChar (k % 16)).toUpper.toNat ≠ 0x0D := fun k => hexDigit_digit _ (by omega)
  have hname : ∀ b ∈ asciiName name, b ≠ 0x0D#8 ∧ b ≠ 0x23#8 := by
    intro b hb
    obtain ⟨c, hc, rfl⟩ := List.mem_map.1 hb
    obtain ⟨h1, h2, h3, _⟩ := nameChar_ascii (hn c hc)
    constructor <;> intro he <;> have := congrArg BitVec.toNat he <;> simp at this <;> omega
  refine ⟨asciiName (['$'] ++ fourDigits a ++ ['#'] ++ name ++ ['#']), ?_, ?_, ?_⟩
  · unfold nlLine
    rw [fmtHex_four h, encodeAscii_eq]
    · simp [asciiName]
    · simp only [fourDigits, List.mem_append, List.mem_map, List.mem_cons, List.not_mem_nil, or_false]
      rintro c (((((rfl | ⟨k, hk, rfl⟩) | rfl) | hc) | rfl | rfl | rfl))
      · decide
      · rcases hk with rfl | rfl | rfl | rfl <;> exact (hd _).2.1
      · decide
      · exact (nameChar_ascii (hn c hc)).1
      all_goals decide
  · intro b hb
    simp only [asciiName, fourDigits, List.map_append, List.map_map, List.mem_append, List.mem_map, List.map_cons, List.map_nil,
      List.mem_cons, List.not_mem_nil, or_false, Function.comp] at hb
    rcases hb with (((rfl | hk) | rfl) | ⟨c, hc, rfl⟩) | rfl
    · decide
    · have key : ∀ k, BitVec.ofNat 8 (Nat.digitChar (k % 16)).toUpper.toNat ≠ 0x0D#8 := by
        intro k he
        have h1 := congrArg BitVec.toNat he
        have := hd k
        simp at h1; omega
      rcases hk with rfl | rfl | rfl | rfl <;> exact key _
    · decide
    · exact (hname _ (List.mem_map.2 ⟨c, hc, rfl⟩)).1
    · decide
  · have e : asciiName (['$'] ++ fourDigits a ++ ['#'] ++ name ++ ['#']) = 0x24#8 :: BitVec.ofNat 8 (Nat.digitChar (a / 4096 % 16)).toUpper.toNat ::
        BitVec.ofNat 8 (Nat.digitChar (a / 256 % 16)).toUpper.toNat :: BitVec.ofNat 8 (Nat.digitChar (a / 16 % 16)).toUpper.toNat ::
        BitVec.ofNat 8 (Nat.digitChar (a % 16)).toUpper.toNat :: 0x23#8 :: (asciiName name ++ [0x23#8]) := by
      simp [asciiName, fourDigits]
    rw [e, readName]
    simp only [(hd _).1]
    rw [if_pos ⟨by simp, by rw [List.dropLast_concat]; exact fun hm => (hname _ hm).2 rfl⟩, List.dropLast_concat]
    congr 2
    omega

/-! ## the whole file -/

theorem nlLoop_read (sy : NumSyntax) (ls : Labels) (lo hi : Int) (h0 : 0 ≤ lo) (h1 : hi < 65536) : ∀ l : Labels,
    (∀ p ∈ l, ls.lookup p.1 = some p.2 ∧ p.1 ≠ [] ∧ ∀ c ∈ p.1, nameChar c = true) →
    ∃ file, nlLoop sy ls lo hi (l.map Prod.fst) = .ok file ∧ readNames file = some (namesIn lo hi l)
  | [], _ => ⟨[], rfl, rfl⟩
  | (name, i) :: l, h => by
    simp only [List.forall_mem_cons] at h
    obtain ⟨⟨hl, hne, hn⟩, h⟩ := h
    obtain ⟨file, e1, e2⟩ := nlLoop_read sy ls lo hi h0 h1 l h
    have ha : labelAddress sy ls name = .ok (some (i.org + i.base)) := by
      have := plain_value sy ls name hne (fun c hc => (nameChar_ascii (hn c hc)).2.2.2) 0
      rw [hl] at this
      simpa [labelAddress, labelRelative] using this
    simp only [List.map_cons, nlLoop, ha]
    by_cases hr : lo ≤ i.org + i.base ∧ i.org + i.base ≤ hi
    · obtain ⟨n, hn'⟩ := Int.eq_ofNat_of_zero_le (Int.le_trans h0 hr.1)
      obtain ⟨line, k1, k2, k3⟩ := readName_line (a := n) (by omega) hn
      rw [if_pos hr, hn', show nlLine (n : Int) name = _ from k1]
      refine ⟨line ++ [0x0D#8, 0x0A#8] ++ file, by simp only [e1], ?_⟩
      unfold readNames at e2 ⊢
      rw [List.append_assoc, List.cons_append, List.cons_append, List.nil_append, fileLines_line k2]
      cases hf : fileLines file with
      | none => rw [hf] at e2; cases e2
      | some lines =>
        rw [hf] at e2
        simp only [Option.bind_some, Option.map_some, List.mapM_cons] at e2 ⊢
        rw [k3, e2]
        have : namesIn lo hi ((name, i) :: l) = (n, asciiName name) :: namesIn lo hi l := by
          unfold namesIn
          rw [List.filter_cons_of_pos (by exact decide_eq_true hr), List.map_cons, hn']
          rfl
        rw [this]
        rfl
    · rw [if_neg hr]
      refine ⟨file, by simp only [e1]; rfl, ?_⟩
      rw [e2]
      simp only [namesIn, List.filter_cons, hr, decide_false, Bool.false_eq_true, if_false]

theorem labelsOk_lookup {d : Dialect} {ls : Labels} (h : LabelsOk d ls) {p : Str × LabelInfo} (hp : p ∈ ls) : ls.lookup p.1 = some p.2 := by
  have hn := h.1
  clear h
  induction ls with
  | nil => cases hp
  | cons q ls ih =>
    simp only [List.map_cons, List.nodup_cons] at hn
    rw [List.lookup_cons]
    rcases List.mem_cons.1 hp with rfl | hp
    · simp
    · have : (p.1 == q.1) = false := by
        rw [beq_eq_false_iff_ne]
        exact fun e => hn.1 (e ▸ List.mem_map.2 ⟨p, hp, rfl⟩)
      rw [this]
      exact ih hp hn.2

theorem nes_labels (env : Env) (depth : Nat) (sources : List Str) (s : St) (hs : LabelsOk nes s.labels) :
    LabelsOk nes (mainRun nes env depth sources s).2.labels := by
  have hc : CustomKeeps nes env (fun s s' => LabelsOk nes s.labels → LabelsOk nes s'.labels) :=
    fun key f hf ts s hs => by rw [nes_sameLabels env key f hf ts s]; exact hs
  have hr := rel_labelsOk nes
  have hd := hr.toDataRel
  refine Keeps.bind hd (f := fun _ => link nes .dummy) (.forEach hd fun name _ => .bind hd ?_ fun code => keeps_assemble hr env hc depth code) (fun _ => ?_) s hs
  · intro s
    unfold openFile
    cases env.text name <;> exact hd.refl s
  · intro s hs
    rw [link_resolve nes .dummy rfl, sameLabels_resolve nes .dummy s]
    exact hs

/-- C84: a run that succeeds writes the linked program and two name lists that can be read
back: the first has exactly the labels of the program from $8000 to $FFFF, the second
exactly those from $0000 to $07FF, each once, in the order of definition, with their addresses. -/
theorem C84_symbols (env : Env) (depth : Nat) (source : Str) (rom nl ram : Bytes)
    (h : nesMain env depth source = .ok (rom, nl, ram)) :
    ∃ s, mainRun nes env depth [source] nes.init = (.ok (), s) ∧ s.bytes = rom ∧ (s.labels.map Prod.fst).Nodup ∧
      readNames nl = some (namesIn 0x8000 0xFFFF s.labels) ∧ readNames ram = some (namesIn 0x0000 0x07FF s.labels) := by
  have hl := nes_labels env depth [source] nes.init ⟨by simp [Dialect.init], by simp [Dialect.init]⟩
  unfold nesMain at h
  cases hm : mainRun nes env depth [source] nes.init with
  | mk r s =>
  rw [hm] at hl h
  cases r with
  | error e => cases h
  | ok u =>
  have hp : ∀ p ∈ s.labels, s.labels.lookup p.1 = some p.2 ∧ p.1 ≠ [] ∧ ∀ c ∈ p.1, nameChar c = true :=
    fun p hp => ⟨labelsOk_lookup hl hp, (hl.2 p hp).1, (hl.2 p hp).2.1⟩
  obtain ⟨f1, a1, a2⟩ := nlLoop_read nes.sy s.labels 0x8000 0xFFFF (by decide) (by decide) s.labels hp
  obtain ⟨f2, b1, b2⟩ := nlLoop_read nes.sy s.labels 0x0000 0x7FF (by decide) (by decide) s.labels hp
  simp only [nesRomSymbols, nesRamSymbols, a1, b1] at h
  cases h
  exact ⟨s, rfl, rfl, hl.1, a2, b2⟩

/-- C84: the name lists never make a run fail: the run succeeds exactly if the program can be
assembled and linked. -/
theorem C84_never_fails (env : Env) (depth : Nat) (source : Str) (rom : Bytes) :
    build nes env depth [source] = .ok rom ↔ ∃ nl ram, nesMain env depth source = .ok (rom, nl, ram) := by
  have hl := nes_labels env depth [source] nes.init ⟨by simp [Dialect.init], by simp [Dialect.init]⟩
  unfold nesMain build
  cases hm : mainRun nes env depth [source] nes.init with
  | mk r s =>
  rw [hm] at hl
  cases r with
  | error e => simp
  | ok u =>
  have hp : ∀ p ∈ s.labels, s.labels.lookup p.1 = some p.2 ∧ p.1 ≠ [] ∧ ∀ c ∈ p.1, nameChar c = true :=
    fun p hp => ⟨labelsOk_lookup hl hp, (hl.2 p hp).1, (hl.2 p hp).2.1⟩
  obtain ⟨f1, a1, a2⟩ := nlLoop_read nes.sy s.labels 0x8000 0xFFFF (by decide) (by decide) s.labels hp
  obtain ⟨f2, b1, b2⟩ := nlLoop_read nes.sy s.labels 0x0000 0x7FF (by decide) (by decide) s.labels hp
  simp only [nesRomSymbols, nesRamSymbols, a1, b1]
  constructor
  · intro h; cases h; exact ⟨f1, f2, rfl⟩
  · rintro ⟨nl, ram, h⟩; cases h; rfl

/-- A program with a variable in memory, a label in the ROM and one between the two ranges. -/
def exNesEnv : Env := { text := fun _ => some ".org $10\nlives:\n.ram 1\n.org $2000\nio:\n.org $C0DE\nreset: JMP reset\n".toList }

example : ((nesMain exNesEnv 3 []).toOption.map fun f => (readNames f.2.1, readNames f.2.2)) =
    some (some [(0xC0DE, asciiName "reset".toList)], some [(0x10, asciiName "lives".toList)]) := by decide +kernel
example : (nesMain exNesEnv 3 []).toOption.map (fun f => f.2.1) = some (asciiName "$C0DE#reset#\r\n".toList) := by decide +kernel

end Necro
