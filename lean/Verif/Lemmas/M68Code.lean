import Verif.Lemmas.M68Mode
import Verif.Lemmas.Word
/-!
# The words of a 68000 instruction
-/

namespace Necro
open Spec

/-- The words, most significant byte first. -/
def bytesOf (ws : List Nat) : Bytes := ws.flatMap fun (w : Nat) => wordBytes true 2 (w : Int)

theorem byte_of_int (v : Int) : ((BitVec.ofInt 8 v).toNat : Int) = v % 256 := by
  rw [BitVec.toNat_ofInt]
  have := Int.emod_nonneg v (show (256 : Int) ≠ 0 by decide)
  omega

theorem word_two (v : Int) : wordBytes true 2 v = [BitVec.ofInt 8 (v / 256), BitVec.ofInt 8 v] := rfl

theorem word_four (v : Int) : wordBytes true 4 v = [BitVec.ofInt 8 (v / 256 / 256 / 256), BitVec.ofInt 8 (v / 256 / 256), BitVec.ofInt 8 (v / 256), BitVec.ofInt 8 v] := rfl

theorem byte_congr {v w : Int} (h : v % 256 = w % 256) : BitVec.ofInt 8 v = BitVec.ofInt 8 w := by
  apply BitVec.eq_of_toNat_eq
  have h1 := byte_of_int v
  have h2 := byte_of_int w
  omega

theorem word_congr {v w : Int} (h : v % 2 ^ 16 = w % 2 ^ 16) : wordBytes true 2 v = wordBytes true 2 w := by
  rw [word_two, word_two, byte_congr (v := v) (w := w) (by omega), byte_congr (v := v / 256) (w := w / 256) (by omega)]

theorem bytesOf_one (v : Int) : wordBytes true 2 v = bytesOf [(v % 2 ^ 16).toNat] := by
  show _ = wordBytes true 2 _ ++ []
  rw [List.append_nil]
  apply word_congr
  omega

theorem bytesOf_two (v : Int) : wordBytes true 4 v = bytesOf [(v / 65536 % 2 ^ 16).toNat, (v % 2 ^ 16).toNat] := by
  show _ = wordBytes true 2 _ ++ (wordBytes true 2 _ ++ [])
  rw [List.append_nil, word_two, word_two, word_four]
  simp only [List.cons_append, List.nil_append]
  rw [byte_congr (v := v / 256 / 256 / 256) (w := ((v / 65536 % 2 ^ 16).toNat : Int) / 256) (by omega),
    byte_congr (v := v / 256 / 256) (w := ((v / 65536 % 2 ^ 16).toNat : Int)) (by omega),
    byte_congr (v := v / 256) (w := ((v % 2 ^ 16).toNat : Int) / 256) (by omega), byte_congr (v := v) (w := ((v % 2 ^ 16).toNat : Int)) (by omega)]

theorem bytesOf_append (a b : List Nat) : bytesOf (a ++ b) = bytesOf a ++ bytesOf b := by simp [bytesOf]

theorem bytesOf_length (ws : List Nat) : (bytesOf ws).length = 2 * ws.length := by
  induction ws with
  | nil => rfl
  | cons w ws ih =>
    rw [show bytesOf (w :: ws) = wordBytes true 2 w ++ bytesOf ws from rfl, List.length_append, ih, wordBytes_length]
    simp only [List.length_cons]; omega

theorem codeWords_bytesOf (ws : List Nat) (h : ∀ w ∈ ws, w < 2 ^ 16) : codeWords (bytesOf ws) = some ws := by
  induction ws with
  | nil => rfl
  | cons w ws ih =>
    have hw := h w (by simp)
    rw [show bytesOf (w :: ws) = wordBytes true 2 w ++ bytesOf ws from rfl, word_two]
    simp only [List.cons_append, List.nil_append, codeWords, ih (fun x hx => h x (by simp [hx])), Option.map_some, Option.some.injEq,
      List.cons.injEq, and_true]
    have h1 := byte_of_int ((w : Int) / 256)
    have h2 := byte_of_int (w : Int)
    omega

theorem pack16_any (v : Int) : packBe16u [some v] = .ok (wordBytes true 2 v) := by
  have hf : ∀ v : Int, 0 ≤ v → v < 2 ^ 16 → Fmt.H.fits v = true := by
    intro v h0 h1; simp only [Fmt.fits, decide_eq_true_eq]; exact ⟨h0, h1⟩
  have h0 := Int.emod_nonneg v (show (2 : Int) ^ 16 ≠ 0 by decide)
  have h1 := Int.emod_lt_of_pos v (show (0 : Int) < 2 ^ 16 by decide)
  have := pack_one_u true .H 16 hf (v % 2 ^ 16) h0 h1
  rw [show maskArg 16 (some (v % 2 ^ 16)) = maskArg 16 (some v) by rw [maskArg_eq, maskArg_eq]; simp] at this
  refine (show packBe16u [some v] = packAll true .H [maskArg 16 (some v)] from rfl).trans (this.trans ?_)
  rw [show Fmt.H.size = 2 from rfl, word_congr (v := v % 2 ^ 16) (w := v) (by omega)]

theorem pack32_any (v : Int) : packBe32u [some v] = .ok (wordBytes true 4 v) := by
  have hf : ∀ v : Int, 0 ≤ v → v < 2 ^ 32 → Fmt.I.fits v = true := by
    intro v h0 h1; simp only [Fmt.fits, decide_eq_true_eq]; exact ⟨h0, h1⟩
  have h0 := Int.emod_nonneg v (show (2 : Int) ^ 32 ≠ 0 by decide)
  have h1 := Int.emod_lt_of_pos v (show (0 : Int) < 2 ^ 32 by decide)
  have := pack_one_u true .I 32 hf (v % 2 ^ 32) h0 h1
  rw [show maskArg 32 (some (v % 2 ^ 32)) = maskArg 32 (some v) by rw [maskArg_eq, maskArg_eq]; simp] at this
  refine (show packBe32u [some v] = packAll true .I [maskArg 32 (some v)] from rfl).trans (this.trans ?_)
  rw [show Fmt.I.size = 4 from rfl, bytesOf_two, bytesOf_two, show v % 2 ^ 32 / 65536 % 2 ^ 16 = v / 65536 % 2 ^ 16 by omega,
    show v % 2 ^ 32 % 2 ^ 16 = v % 2 ^ 16 by omega]

/-! ## opcode words -/

theorem clear_of {base lo hi : Nat} (h : base / 2 ^ lo % 2 ^ (hi - lo + 1) = 0) (i : Nat) (h1 : lo ≤ i) (h2 : i ≤ hi) :
    bit (base : Int) i = false := by
  have : bit ((base / 2 ^ lo % 2 ^ (hi - lo + 1) : Nat) : Int) (i - lo) = false := by
    rw [h]; simp [bit]
  rw [bit_natCast, Nat.testBit_mod_two_pow, Nat.testBit_div_two_pow] at this
  rw [bit_natCast]
  have h3 : i - lo < hi - lo + 1 := by omega
  rw [show i - lo + lo = i from by omega] at this
  simpa [h3] using this

theorem m68Build_of {base W : Nat} {fs : List BitField} (hok : ∀ f ∈ fs, FieldOk f)
    (hclear : ∀ f ∈ fs, base / 2 ^ f.lo % 2 ^ (f.hi - f.lo + 1) = 0) (hp : fs.Pairwise (fun f g => f.hi < g.lo ∨ g.hi < f.lo))
    (hW : (base : Int) + (fs.map fieldPart).foldr (· + ·) 0 = W) (c : Ctx) :
    m68Build base fs c = (.ok (wordBytes true 2 W), []) := by
  have hs := packBits_sum fs (base : Int) (by omega) hok (fun f hf i h1 h2 => clear_of (hclear f hf) i h1 h2) hp
  rw [hW] at hs
  unfold m68Build packBitsBe16u
  rw [hs]
  have := pack16_any (W : Int)
  show H.lift (packBe16u [some (W : Int)]) c = _
  rw [this]
  rfl

/-! ## operands -/

namespace EaForm

def modeNo : EaForm → Nat
  | .dn _ => 0
  | .an _ => 1
  | .ind _ => 2
  | .post _ => 3
  | .pre _ => 4
  | .disp _ _ => 5
  | .idx _ _ _ => 6
  | _ => 7

def regNo : EaForm → Nat
  | .dn n | .an n | .ind n | .post n | .pre n | .disp _ n | .idx _ n _ => n
  | .absW _ => 0
  | .absL _ => 1
  | .pcDisp _ => 2
  | .pcIdx _ _ => 3
  | .imm _ => 4

/-- The extension word of an index. -/
def idxWord (x : M68Index) (v : Int) : Nat :=
  (if x.addr then 32768 else 0) + x.n * 4096 + (if x.long then 2048 else 0) + (v % 256).toNat

/-- The extension words for the number `v`. -/
def ext (sz : M68Size) : EaForm → Int → List Nat
  | .disp _ _, v => [(v % 2 ^ 16).toNat]
  | .idx _ _ x, v => [idxWord x v]
  | .pcDisp _, v => [(v % 2 ^ 16).toNat]
  | .pcIdx _ x, v => [idxWord x v]
  | .absW _, v => [(v % 2 ^ 16).toNat]
  | .absL _, v => [(v / 65536 % 2 ^ 16).toNat, (v % 2 ^ 16).toNat]
  | .imm _, v => if sz = .long then [(v / 65536 % 2 ^ 16).toNat, (v % 2 ^ 16).toNat] else [(v % 2 ^ 16).toNat]
  | _, _ => []

/-- The operand for the number `v`. -/
def fill (sz : M68Size) : EaForm → Int → M68Ea
  | .dn n, _ => .dn n
  | .an n, _ => .an n
  | .ind n, _ => .ind n
  | .post n, _ => .post n
  | .pre n, _ => .pre n
  | .disp _ n, v => .disp (toSigned 16 (v % 2 ^ 16).toNat) n
  | .idx _ n x, v => .idx (toSigned 8 (v % 2 ^ 8).toNat) n x
  | .pcDisp _, v => .pcDisp (toSigned 16 (v % 2 ^ 16).toNat)
  | .pcIdx _ x, v => .pcIdx (toSigned 8 (v % 2 ^ 8).toNat) x
  | .absW _, v => .absW (toSigned 16 (v % 2 ^ 16).toNat % 2 ^ 32).toNat
  | .absL _, v => .absL (v % 2 ^ 32).toNat
  | .imm _, v => .imm (v % 2 ^ sz.bits).toNat

/-- The registers exist. -/
def Valid : EaForm → Prop
  | .dn n | .an n | .ind n | .post n | .pre n | .disp _ n => n < 8
  | .idx _ n x => n < 8 ∧ x.n < 8
  | .pcIdx _ x => x.n < 8
  | _ => True

/-- The number in the operand: what it is for, its token and the width of its field. -/
def arg (sz : M68Size) : EaForm → Option (M68Use × Str × Nat)
  | .disp t _ => some (.disp, t, 16)
  | .idx t _ _ => some (.disp, t, 8)
  | .pcDisp t => some (.pc, t, 16)
  | .pcIdx t _ => some (.pc, t, 8)
  | .absW t => some (.data, t, 16)
  | .absL t => some (.data, t, 32)
  | .imm t => some (.data, t, sz.bits)
  | _ => none

/-- The number of the operand is `v` up to the width of its field. -/
def Given (value : M68Use → Nat → Str → Int → Prop) (sz : M68Size) (f : EaForm) (v : Int) : Prop :=
  ∀ use tok n, f.arg sz = some (use, tok, n) → ∃ x, value use n tok x ∧ v % 2 ^ n = x % 2 ^ n

theorem Text.valid {f : EaForm} {ts : List Str} (h : f.Text ts) : f.Valid := by
  have hx : ∀ {x u}, M68IndexText x u → x.n < 8 := by
    intro x u h
    cases h with
    | sized h _ => exact h.1
    | plain h => exact h
  cases h with
  | dn h => exact h.1
  | an h => exact h.1
  | ind h => exact h.1
  | post h => exact h.1
  | pre h => exact h.1
  | disp _ h => exact h.1
  | idx _ h h' => exact ⟨h.1, hx h'⟩
  | pcIdx _ _ h' => exact hx h'
  | pcDisp => trivial
  | absW => trivial
  | absL => trivial
  | imm => trivial
  | absW' => trivial
  | absL' => trivial
  | abs => trivial

theorem regNo_lt {f : EaForm} (h : f.Valid) : f.regNo < 8 ∧ f.modeNo < 8 := by
  cases f <;> simp_all [Valid, regNo, modeNo]

theorem idxWord_lt {x : M68Index} (h : x.n < 8) (v : Int) : idxWord x v < 2 ^ 16 := by
  unfold idxWord
  split <;> split <;> omega

theorem ext_lt {f : EaForm} (h : f.Valid) (sz : M68Size) (v : Int) : ∀ w ∈ f.ext sz v, w < 2 ^ 16 := by
  cases f with
  | idx t n x => intro w hw; cases List.mem_singleton.1 hw; exact idxWord_lt h.2 v
  | pcIdx t x => intro w hw; cases List.mem_singleton.1 hw; exact idxWord_lt h v
  | imm t =>
    simp only [ext]
    split
    · simp; omega
    · simp; omega
  | disp => simp [ext]; omega
  | pcDisp => simp [ext]; omega
  | absW => simp [ext]; omega
  | absL => simp [ext]; omega
  | _ => simp [ext]

theorem decodeIndex_word {x : M68Index} (h : x.n < 8) (v : Int) : decodeIndex (idxWord x v) = some (toSigned 8 (v % 2 ^ 8).toNat, x) := by
  obtain ⟨a, n, l⟩ := x
  simp only at h
  unfold decodeIndex idxWord
  rw [if_pos (by cases a <;> cases l <;> simp <;> omega)]
  simp only [Option.some.injEq, Prod.mk.injEq, M68Index.mk.injEq]
  refine ⟨?_, ?_, ?_, ?_⟩
  · congr 1
    cases a <;> cases l <;> simp <;> omega
  · cases a <;> cases l <;> simp <;> omega
  · cases a <;> cases l <;> simp <;> omega
  · cases a <;> cases l <;> simp <;> omega

theorem decodeEa_ext {f : EaForm} (h : f.Valid) (sz : M68Size) (v : Int) (rest : List Nat) :
    decodeEa sz f.modeNo f.regNo (f.ext sz v ++ rest) = some (f.fill sz v, rest) := by
  cases f with
  | idx t n x =>
    show (decodeIndex (idxWord x v)).map _ = _
    rw [decodeIndex_word h.2]; rfl
  | pcIdx t x =>
    show (decodeIndex (idxWord x v)).map _ = _
    rw [decodeIndex_word h]; rfl
  | absL t =>
    show some (M68Ea.absL _, rest) = some (M68Ea.absL _, rest)
    congr 3; omega
  | imm t =>
    cases sz with
    | byte =>
      show some (M68Ea.imm _, rest) = some (M68Ea.imm _, rest)
      congr 3
      show _ = (v % 2 ^ 8).toNat
      omega
    | word => rfl
    | long =>
      show some (M68Ea.imm _, rest) = some (M68Ea.imm _, rest)
      congr 3
      show _ = (v % 2 ^ 32).toNat
      omega
  | _ => rfl

theorem signed_congr16 (v : Int) : toSigned 16 (v % 2 ^ 16).toNat % 2 ^ 16 = v % 2 ^ 16 := by
  unfold toSigned; split <;> omega

theorem signed_congr8 (v : Int) : toSigned 8 (v % 2 ^ 8).toNat % 2 ^ 8 = v % 2 ^ 8 := by
  unfold toSigned; split <;> omega

/-- The operand for the number its text gives is the one written. -/
theorem text_ea {value : M68Use → Nat → Str → Int → Prop} {sz : M68Size} {f : EaForm} {ts : List Str} {v : Int} (h : f.Text ts)
    (hg : f.Given value sz v)
    (hs : ∀ t x, f = .absW t → value .data 16 t x → -(2 ^ 15) ≤ x ∧ x < 2 ^ 15) : M68EaText value sz (f.fill sz v) ts := by
  cases h with
  | dn h => exact .dn h
  | an h => exact .an h
  | ind h => exact .ind h
  | post h => exact .post h
  | pre h => exact .pre h
  | disp h h' =>
    obtain ⟨x, hx, e⟩ := hg _ _ _ rfl
    exact .disp h hx ((signed_congr16 v).trans e) h'
  | idx h h' h2 =>
    obtain ⟨x, hx, e⟩ := hg _ _ _ rfl
    exact .idx h hx ((signed_congr8 v).trans e) h' h2
  | pcDisp h h' =>
    obtain ⟨x, hx, e⟩ := hg _ _ _ rfl
    exact .pcDisp h hx ((signed_congr16 v).trans e) h'
  | pcIdx h h' h2 =>
    obtain ⟨x, hx, e⟩ := hg _ _ _ rfl
    exact .pcIdx h hx ((signed_congr8 v).trans e) h' h2
  | absW h h' =>
    obtain ⟨x, hx, e⟩ := hg _ _ _ rfl
    have := hs _ x rfl hx
    refine .absW h hx ?_ h'
    unfold toSigned; split <;> omega
  | absW' h h' =>
    obtain ⟨x, hx, e⟩ := hg _ _ _ rfl
    have := hs _ x rfl hx
    refine .absW' h hx ?_ h'
    unfold toSigned; split <;> omega
  | absL h h' =>
    obtain ⟨x, hx, e⟩ := hg _ _ _ rfl
    exact .absL h hx (by omega) h'
  | absL' h h' =>
    obtain ⟨x, hx, e⟩ := hg _ _ _ rfl
    exact .absL' h hx (by omega) h'
  | abs h h' =>
    obtain ⟨x, hx, e⟩ := hg _ _ _ rfl
    exact .abs h h' hx (by omega)
  | imm h =>
    obtain ⟨x, hx, e⟩ := hg _ _ _ rfl
    refine .imm h hx ?_
    have := Int.emod_nonneg v (b := 2 ^ sz.bits) (Int.ne_of_gt (Int.pow_pos (by decide)))
    omega

theorem fill_alterable {f : EaForm} (h : f.mode ∉ m68Alterable) (sz : M68Size) (v : Int) : (f.fill sz v).alterable = true := by
  cases f <;> simp_all [mode, m68Alterable, fill, M68Ea.alterable]

theorem fill_control {f : EaForm} (h : f.mode ∉ m68Control) (sz : M68Size) (v : Int) : (f.fill sz v).control = true := by
  cases f <;> simp_all [mode, m68Control, fill, M68Ea.control]

end EaForm

end Necro
