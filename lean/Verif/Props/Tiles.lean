import Verif.Lemmas.Tiles
import Verif.Lemmas.Lookup
import Verif.Props.Compose
/-!
# C46: pictures as tiles
-/

namespace Necro
open Spec
open M (throw get modify lift forEach)

theorem stringify_eq {t : Str} (h : t ≠ []) (s : St) : stringify t s = (.ok (fileName t), s) := by
  cases t with
  | nil => exact absurd rfl h
  | cons c r =>
    have e : stringify (c :: r) s = (if isQuote c then (Pure.pure (unquote (c :: r)) : M Str) else Pure.pure (c :: r)) s := rfl
    have hs := stringify_ok (t := c :: r) (s := s) (s' := s) (n := if isQuote c then unquote (c :: r) else c :: r) (by
      rw [e]
      split <;> rfl)
    rw [e, ← hs.2]
    split <;> rfl

/-- Executing a directive of the class. -/
theorem exec_class {d : Dialect} {env : Env} {rec : Str → M Unit} {f : List Str → M Unit} {name : String}
    (hc : d.directives env (d.key name.toList) = some f) {t : Str} (ht : IsDirectiveToken d t name) (args : List Str) (s : St) :
    execDirective d env rec (t :: args) s = f (t :: substituteWithDict args s.defines 0) s := by
  unfold execDirective
  rw [bind_eq, get_eq]
  simp only [substitute_cons]
  rw [show d.key (t.drop 1) = d.key name.toList from ht, lookupDirective, hc]

/-! ## The loop over the cells -/

/-- The state after appending output. -/
def appended (s : St) (b : Bytes) : St := { s with bytes := s.bytes ++ b, counter := s.counter + b.length }

theorem appended_nil (s : St) : appended s [] = s := by
  simp [appended]

theorem appended_append (s : St) (a b : Bytes) : appended (appended s a) b = appended s (a ++ b) := by
  simp [appended, Int.add_assoc]

theorem loop_ok {α : Type} {f : α → M Unit} {g : α → Bytes} : ∀ {l : List α},
    (∀ x ∈ l, ∀ s, f x s = (.ok (), appended s (g x))) → ∀ s, forEach l f s = (.ok (), appended s (l.flatMap g))
  | [], _, s => by rw [List.flatMap_nil, appended_nil]; rfl
  | x :: l, h, s => by
    show (f x >>= fun _ => forEach l f) s = _
    rw [bind_eq, h x (List.mem_cons_self ..) s]
    simp only
    rw [loop_ok (fun y hy => h y (List.mem_cons_of_mem _ hy)) _, appended_append, List.flatMap_cons]

theorem loop_fail {α : Type} {f : α → M Unit} {e : Err} {P : α → Prop} : ∀ {l : List α},
    (∀ x ∈ l, P x → ∀ s, (f x s).1 = .ok ()) → (∀ x ∈ l, ¬ P x → ∀ s, (f x s).1 = .error e) → (∃ x ∈ l, ¬ P x) →
    ∀ s, (forEach l f s).1 = .error e
  | [], _, _, h, _ => by simp at h
  | x :: l, h1, h2, h, s => by
    show ((f x >>= fun _ => forEach l f) s).1 = _
    rw [bind_eq]
    by_cases hx : P x
    · have := h1 x (List.mem_cons_self ..) hx s
      cases hf : f x s with
      | mk r s1 =>
        rw [hf] at this
        simp only at this
        subst this
        refine loop_fail (fun y hy => h1 y (List.mem_cons_of_mem _ hy)) (fun y hy => h2 y (List.mem_cons_of_mem _ hy)) ?_ s1
        obtain ⟨z, hz, hp⟩ := h
        rcases List.mem_cons.1 hz with rfl | hz
        · exact absurd hx hp
        · exact ⟨z, hz, hp⟩
    · have := h2 x (List.mem_cons_self ..) hx s
      cases hf : f x s with
      | mk r s1 =>
        rw [hf] at this
        simp only at this
        subst this
        rfl

/-- The two nested loops. -/
def cellLoop (convert : Image → Nat → Nat → Except Err Bytes) (img : Image) (w h : Nat) : M Unit :=
  forEach (List.range h) fun cy =>
    forEach (List.range w) fun cx => do
      let blob ← lift (convert img cx cy)
      appendBytes blob

/-- Every cell of the picture is in range. -/
def AllCells (limit : Int) (img : Image) (w h : Nat) : Prop := ∀ cx cy, cx < w → cy < h → CellOk limit img cx cy

theorem convert_step {convert : Image → Nat → Nat → Except Err Bytes} {img : Image} {cx cy : Nat} {t : Bytes}
    (h : convert img cx cy = .ok t) (s : St) :
    (do let blob ← lift (convert img cx cy); appendBytes blob : M Unit) s = (.ok (), appended s t) := by
  rw [bind_eq, lift_eq, h]
  rfl

theorem convert_step_fail {convert : Image → Nat → Nat → Except Err Bytes} {img : Image} {cx cy : Nat} {e : Err}
    (h : convert img cx cy = .error e) (s : St) :
    (do let blob ← lift (convert img cx cy); appendBytes blob : M Unit) s = (.error e, s) := by
  rw [bind_eq, lift_eq, h]

theorem cellLoop_ok {convert : Image → Nat → Nat → Except Err Bytes} {limit : Int} {size : Nat} {pixel : Bytes → Nat → Nat → Nat}
    (hc : Converts convert limit size pixel) {img : Image} {w h : Nat} (hok : AllCells limit img w h) (s : St) :
    ∃ sheet, cellLoop convert img w h s = (.ok (), appended s sheet) ∧ sheet.length = size * (w * h) ∧
      ∀ cx cy x y, cx < w → cy < h → x < 8 → y < 8 →
        (pixel (window sheet (size * (cy * w + cx)) size) x y : Int) = img.pixel (cx * 8 + x) (cy * 8 + y) := by
  let g : Nat → Nat → Bytes := fun cx cy => match convert img cx cy with | .ok t => t | .error _ => []
  have hg : ∀ cx cy, cx < w → cy < h → convert img cx cy = .ok (g cx cy) ∧ (g cx cy).length = size ∧
      ∀ x y, x < 8 → y < 8 → (pixel (g cx cy) x y : Int) = img.pixel (cx * 8 + x) (cy * 8 + y) := by
    intro cx cy h1 h2
    obtain ⟨t, h3, h4, h5⟩ := hc.ok img cx cy (hok cx cy h1 h2)
    have e : g cx cy = t := by simp only [g, h3]
    rw [e]
    exact ⟨h3, h4, h5⟩
  have hrow : ∀ cy ∈ List.range h, ((List.range w).flatMap fun cx => g cx cy).length = w * size := by
    intro cy hcy
    rw [flatMap_length (n := size) (fun cx hcx => (hg cx cy (List.mem_range.1 hcx) (List.mem_range.1 hcy)).2.1), List.length_range]
  refine ⟨(List.range h).flatMap fun cy => (List.range w).flatMap fun cx => g cx cy, ?_, ?_, ?_⟩
  · refine loop_ok (fun cy hcy s => ?_) s
    refine loop_ok (fun cx hcx s => ?_) s
    exact convert_step (hg cx cy (List.mem_range.1 hcx) (List.mem_range.1 hcy)).1 s
  · rw [flatMap_length hrow, List.length_range, Nat.mul_comm, Nat.mul_comm w size, Nat.mul_assoc]
  · intro cx cy x y h1 h2 hx hy
    have hw : window ((List.range h).flatMap fun cy => (List.range w).flatMap fun cx => g cx cy) (size * (cy * w + cx)) size = g cx cy := by
      apply List.ext_getElem?
      intro i
      unfold window
      rw [List.getElem?_take]
      split
      · rename_i hi
        have hlt : cx * size + i < w * size := by
          have : (cx + 1) * size ≤ w * size := Nat.mul_le_mul_right _ h1
          rw [Nat.add_mul, Nat.one_mul] at this
          omega
        rw [List.getElem?_drop, show size * (cy * w + cx) + i = cy * (w * size) + (cx * size + i) by
          rw [Nat.mul_add, Nat.mul_comm size cx, Nat.mul_comm size, Nat.mul_assoc, Nat.add_assoc]]
        rw [flatMap_index hrow cy _ hlt, List.getElem?_range h2]
        simp only [Option.bind_some]
        rw [flatMap_index (n := size) (fun cx hcx => (hg cx cy (List.mem_range.1 hcx) h2).2.1) cx i hi, List.getElem?_range h1]
        rfl
      · rename_i hi
        rw [List.getElem?_eq_none (by rw [(hg cx cy h1 h2).2.1]; omega)]
    rw [hw]
    exact (hg cx cy h1 h2).2.2 x y hx hy

theorem cellLoop_fail {convert : Image → Nat → Nat → Except Err Bytes} {limit : Int} {size : Nat} {pixel : Bytes → Nat → Nat → Nat}
    (hc : Converts convert limit size pixel) {img : Image} {w h : Nat} (hno : ¬ AllCells limit img w h) (s : St) :
    (cellLoop convert img w h s).1 = .error (.platform "InvalidPaletteEntry") := by
  have step : ∀ cx cy, CellOk limit img cx cy → ∀ s,
      ((do let blob ← lift (convert img cx cy); appendBytes blob : M Unit) s).1 = .ok () := by
    intro cx cy h1 s
    obtain ⟨t, h3, _⟩ := hc.ok img cx cy h1
    rw [convert_step h3]
  have stepf : ∀ cx cy, ¬ CellOk limit img cx cy → ∀ s,
      ((do let blob ← lift (convert img cx cy); appendBytes blob : M Unit) s).1 = .error (.platform "InvalidPaletteEntry") := by
    intro cx cy h1 s
    rw [convert_step_fail (hc.fail img cx cy h1)]
  have rowok : ∀ cy, (∀ cx ∈ List.range w, CellOk limit img cx cy) → ∀ s,
      (forEach (List.range w) (fun cx => do let blob ← lift (convert img cx cy); appendBytes blob) s).1 = .ok () := by
    intro cy hcy s
    rw [loop_ok (g := fun cx => match convert img cx cy with | .ok t => t | .error _ => []) (fun cx hcx s => ?_) s]
    obtain ⟨t, h3, _⟩ := hc.ok img cx cy (hcy cx hcx)
    simp only [h3]
    have := convert_step h3 s
    rw [h3] at this
    exact this
  refine loop_fail (P := fun cy => ∀ cx ∈ List.range w, CellOk limit img cx cy) (fun cy _ hcy => rowok cy hcy) (fun cy _ hcy s => ?_) ?_ s
  · refine loop_fail (P := fun cx => CellOk limit img cx cy) (fun cx _ => step cx cy) (fun cx _ => stepf cx cy) ?_ s
    exact Classical.byContradiction fun hn => hcy fun cx hcx => Classical.byContradiction fun hx => hn ⟨cx, hcx, hx⟩
  · refine Classical.byContradiction fun hn => hno fun cx cy h1 h2 => ?_
    exact Classical.byContradiction fun hx => hn ⟨cy, List.mem_range.2 h2, fun ha => hx (ha cx (List.mem_range.2 h1))⟩

/-! ## The directive -/

theorem allCells_iff (limit : Int) (img : Image) (hw : img.width % 8 = 0) (hh : img.height % 8 = 0) :
    AllCells limit img (img.width / 8) (img.height / 8) ↔ InPalette limit img := by
  constructor
  · intro h px py h1 h2
    have := h (px / 8) (py / 8) (by omega) (by omega) (px % 8) (py % 8) (by omega) (by omega)
    rwa [show px / 8 * 8 + px % 8 = px by omega, show py / 8 * 8 + py % 8 = py by omega] at this
  · intro h cx cy h1 h2 x y hx hy
    exact h _ _ (by omega) (by omega)

/-- The directive on a picture, in terms of the loop. -/
theorem tiles_run {env : Env} {sizeOk : Nat → Nat → Bool} {cells : Image → Nat × Nat} {convert : Image → Nat → Nat → Except Err Bytes}
    {t a : Str} (ha : a ≠ []) {img : Image} (himg : env.image (fileName a) = some img) (s : St) :
    tilesDirective env sizeOk cells convert [t, a] s =
      if img.indexed = false then (.error (.platform "OnlyIndexedImagesAreSupported"), s)
      else if sizeOk img.width img.height = false then (.error (.platform "InvalidImageSize"), s)
      else cellLoop convert img (cells img).1 (cells img).2 s := by
  show (stringify a >>= fun filename => openFile (env.image filename) >>= fun img =>
    if (!img.indexed) = true then throw (.platform "OnlyIndexedImagesAreSupported")
    else if (!sizeOk img.width img.height) = true then throw (.platform "InvalidImageSize")
    else cellLoop convert img (cells img).1 (cells img).2) s = _
  rw [bind_eq, stringify_eq ha]
  simp only
  rw [bind_eq, himg]
  have e : openFile (some img) s = (.ok img, s) := rfl
  rw [e]
  simp only [Bool.not_eq_true']
  split
  · rfl
  · split
    · rfl
    · rfl

theorem tiles_result {env : Env} {sizeOk : Nat → Nat → Bool} {cells : Image → Nat × Nat} {convert : Image → Nat → Nat → Except Err Bytes}
    {limit : Int} {size : Nat} {pixel : Bytes → Nat → Nat → Nat} (hc : Converts convert limit size pixel) {t a : Str} (ha : a ≠ [])
    {img : Image} (himg : env.image (fileName a) = some img)
    (hs : ∀ w h, sizeOk w h = true → w % 8 = 0 ∧ h % 8 = 0)
    (hcells : sizeOk img.width img.height = true → cells img = (img.width / 8, img.height / 8)) (s : St) :
    ((tilesDirective env sizeOk cells convert [t, a] s).1 = .ok () ↔
      img.indexed = true ∧ sizeOk img.width img.height = true ∧ InPalette limit img) ∧
    (img.indexed = true → sizeOk img.width img.height = true → ¬ InPalette limit img →
      (tilesDirective env sizeOk cells convert [t, a] s).1 = .error (.platform "InvalidPaletteEntry")) ∧
    (∀ s', tilesDirective env sizeOk cells convert [t, a] s = (.ok (), s') →
      ∃ sheet, s' = { s with bytes := s.bytes ++ sheet, counter := s.counter + sheet.length } ∧ HoldsPicture pixel size img sheet) := by
  rw [tiles_run ha himg]
  by_cases h1 : img.indexed = false
  · simp [h1]
  rw [if_neg h1]
  by_cases h2 : sizeOk img.width img.height = false
  · simp [h2]
  rw [if_neg h2]
  have h1' : img.indexed = true := by simpa using h1
  have h2' : sizeOk img.width img.height = true := by simpa using h2
  obtain ⟨hw, hh⟩ := hs _ _ h2'
  rw [hcells h2']
  simp only [h1', h2', true_and, true_implies]
  by_cases h3 : InPalette limit img
  · obtain ⟨sheet, e1, e2, e3⟩ := cellLoop_ok hc ((allCells_iff limit img hw hh).2 h3) s
    rw [e1]
    refine ⟨by simp [h3], fun hn => absurd h3 hn, fun s' hs' => ⟨sheet, ?_, e2, ?_⟩⟩
    · cases hs'
      rfl
    · intro px py hx hy
      have := e3 (px / 8) (py / 8) (px % 8) (py % 8) (by omega) (by omega) (by omega) (by omega)
      rwa [show px / 8 * 8 + px % 8 = px by omega, show py / 8 * 8 + py % 8 = py by omega] at this
  · have e := cellLoop_fail hc (fun hk => h3 ((allCells_iff limit img hw hh).1 hk)) s
    rw [e]
    refine ⟨by simp [h3], fun _ => rfl, fun s' hs' => ?_⟩
    rw [hs'] at e
    cases e

/-- The picture of an argument, after replacing defined names. -/
def pictureOf (env : Env) (s : St) (a : Str) : Option Image := env.image (fileName (substituteWithDict [a] s.defines 0).head!)

theorem subst_one (s : St) (a : Str) : substituteWithDict [a] s.defines 0 = [(substituteWithDict [a] s.defines 0).head!] := rfl

/-- What a tile statement does with a picture: it is accepted exactly for an indexed
picture with the right size and palette, and then appends bytes that hold the picture. -/
structure TilesSpec (sizeOk : Nat → Nat → Prop) (limit : Int) (size : Nat) (pixel : Bytes → Nat → Nat → Nat) (img : Image)
    (run : M Unit) (s : St) : Prop where
  accepts : (run s).1 = .ok () ↔ img.indexed = true ∧ sizeOk img.width img.height ∧ InPalette limit img
  rejects : img.indexed = true → sizeOk img.width img.height → ¬ InPalette limit img →
    (run s).1 = .error (.platform "InvalidPaletteEntry")
  output : ∀ s', run s = (.ok (), s') →
    ∃ sheet, s' = { s with bytes := s.bytes ++ sheet, counter := s.counter + sheet.length } ∧ HoldsPicture pixel size img sheet

/-- A directive of the class is found under its name. -/
theorem class_key {d : Dialect} {l : List (String × (List Str → M Unit))} (names : List String) (hn : l.map Prod.fst = names)
    (h1 : (names.map String.toList).Nodup) (h2 : (names.map fun n => upper n.toList).Nodup)
    {p : String × (List Str → M Unit)} (hp : p ∈ l) : classDirectives d l (d.key p.1.toList) = some p.2 := by
  refine dget_of_mem ?_ (List.mem_map.2 ⟨p, hp, rfl⟩)
  have e : dkeys (l.map fun p => (d.key p.1.toList, p.2)) = names.map fun n => d.key n.toList := by
    rw [← hn]
    simp [dkeys]
  rw [e]
  unfold Dialect.key
  cases d.caseSensitive with
  | true => simpa using h1
  | false => simpa using h2

/-- The names of the directives of the Game Boy class. -/
def gameboyNames : List String :=
  ["cartridge", "cartridge_title", "cartridge_license", "cartridge_cgb", "cartridge_sgb", "cartridge_type",
   "cartridge_destination", "tiles"]

theorem gameboy_key (base : Dialect) (env : Env) {p : String × (List Str → M Unit)} (hp : p ∈ gameboyDirectives base env) :
    (gameboyOn base).directives env ((gameboyOn base).key p.1.toList) = some p.2 :=
  class_key (d := base) gameboyNames rfl (by decide +kernel) (by decide +kernel) hp

/-- The names of the directives of the NES class. -/
def nesNames : List String := ["cartridge", "cartridge_prg_roms", "cartridge_chr_roms", "chr_pattern_table"]

theorem nes_key (env : Env) {p : String × (List Str → M Unit)} (hp : p ∈ nesDirectives mos6502 env) :
    nes.directives env (nes.key p.1.toList) = some p.2 :=
  class_key (d := mos6502) nesNames rfl (by decide +kernel) (by decide +kernel) hp

theorem gameboy_tiles_key (base : Dialect) (env : Env) :
    (gameboyOn base).directives env ((gameboyOn base).key "tiles".toList) = some (gameboyTiles env) :=
  gameboy_key base env (p := ("tiles", gameboyTiles env)) (by simp [gameboyDirectives])

theorem sms_tiles_key (base : Dialect) (env : Env) :
    (smsOn base).directives env ((smsOn base).key "tiles".toList) = some (smsTiles env) :=
  class_key (d := base) (l := [("tiles", smsTiles env)]) ["tiles"] rfl (by decide +kernel) (by decide +kernel)
    (p := ("tiles", smsTiles env)) (by simp)

theorem nes_table_key (env : Env) : nes.directives env (nes.key "chr_pattern_table".toList) = some (nesPatternTable env) :=
  nes_key env (p := ("chr_pattern_table", nesPatternTable env)) (by simp [nesDirectives])

/-- Game Boy `.tiles`: two interleaved planes, four colours. -/
theorem C46_gameboy {base : Dialect} {env : Env} {rec : Str → M Unit} {depth line : Nat} {t a : Str} {img : Image} {s : St}
    (ht : IsDirectiveToken (gameboyOn base) t "tiles") (ha : (substituteWithDict [a] s.defines 0).head! ≠ [])
    (himg : pictureOf env s a = some img) :
    TilesSpec (fun w h => w % 8 = 0 ∧ h % 8 = 0) 3 16 gbPixel img
      (execStmt (gameboyOn base) env depth rec ⟨.directive, [t, a], line⟩) s := by
  have e : execStmt (gameboyOn base) env depth rec ⟨.directive, [t, a], line⟩ s =
      gameboyTiles env [t, (substituteWithDict [a] s.defines 0).head!] s := by
    rw [execStmt_directive, exec_class (gameboy_tiles_key base env) ht]
    rfl
  have h := tiles_result (t := t) (sizeOk := fun w h => decide (w % 8 = 0 ∧ h % 8 = 0))
    (cells := fun img => (img.width / 8, img.height / 8)) gameboy_converts ha himg (fun w h hs => by simpa using hs) (fun _ => rfl) s
  simp only [decide_eq_true_eq] at h
  constructor
  · rw [e]; exact h.1
  · intro h1 h2 h3
    rw [e]; exact h.2.1 h1 h2 h3
  · intro s' hs
    rw [e] at hs
    exact h.2.2 s' hs

/-- Master System `.tiles`: four interleaved planes, sixteen colours. -/
theorem C46_sms {base : Dialect} {env : Env} {rec : Str → M Unit} {depth line : Nat} {t a : Str} {img : Image} {s : St}
    (ht : IsDirectiveToken (smsOn base) t "tiles") (ha : (substituteWithDict [a] s.defines 0).head! ≠ [])
    (himg : pictureOf env s a = some img) :
    TilesSpec (fun w h => w % 8 = 0 ∧ h % 8 = 0) 15 32 smsPixel img
      (execStmt (smsOn base) env depth rec ⟨.directive, [t, a], line⟩) s := by
  have e : execStmt (smsOn base) env depth rec ⟨.directive, [t, a], line⟩ s =
      smsTiles env [t, (substituteWithDict [a] s.defines 0).head!] s := by
    rw [execStmt_directive, exec_class (sms_tiles_key base env) ht]
    rfl
  have h := tiles_result (t := t) (sizeOk := fun w h => decide (w % 8 = 0 ∧ h % 8 = 0))
    (cells := fun img => (img.width / 8, img.height / 8)) sms_converts ha himg (fun w h hs => by simpa using hs) (fun _ => rfl) s
  simp only [decide_eq_true_eq] at h
  constructor
  · rw [e]; exact h.1
  · intro h1 h2 h3
    rw [e]; exact h.2.1 h1 h2 h3
  · intro s' hs
    rw [e] at hs
    exact h.2.2 s' hs

/-- NES `.chr_pattern_table`: two planes one after the other, four colours, 256 tiles. -/
theorem C46_nes {env : Env} {rec : Str → M Unit} {depth line : Nat} {t a : Str} {img : Image} {s : St}
    (ht : IsDirectiveToken nes t "chr_pattern_table") (ha : (substituteWithDict [a] s.defines 0).head! ≠ [])
    (himg : pictureOf env s a = some img) :
    TilesSpec (fun w h => w = 128 ∧ h = 128) 3 16 nesPixel img
      (execStmt nes env depth rec ⟨.directive, [t, a], line⟩) s := by
  have e : execStmt nes env depth rec ⟨.directive, [t, a], line⟩ s =
      nesPatternTable env [t, (substituteWithDict [a] s.defines 0).head!] s := by
    rw [execStmt_directive, exec_class (nes_table_key env) ht]
    rfl
  have h := tiles_result (t := t) (sizeOk := fun w h => decide (w = 128 ∧ h = 128))
    (cells := fun _ => (16, 16)) nes_converts ha himg (fun w h hs => by
      have : w = 128 ∧ h = 128 := by simpa using hs
      omega) (fun hs => by
      have : img.width = 128 ∧ img.height = 128 := by simpa using hs
      rw [this.1, this.2]) s
  simp only [decide_eq_true_eq] at h
  constructor
  · rw [e]; exact h.1
  · intro h1 h2 h3
    rw [e]; exact h.2.1 h1 h2 h3
  · intro s' hs
    rw [e] at hs
    exact h.2.2 s' hs

/-! ## The hypotheses are met -/

/-- A picture of two tiles whose pixels are `(3 x + y) % n`. -/
def exPicture (n : Nat) : Image := ⟨true, 16, 8, fun x y => (((3 * x + y) % n : Nat) : Int)⟩
def exTiles (n : Nat) : Env := { image := fun f => if f = "t.png".toList then some (exPicture n) else none }

example : pictureOf (exTiles 4) {} "\"t.png\"".toList = some (exPicture 4) := rfl

example : ((execStmt (gameboyOn mos6502) (exTiles 4) 3 (fun _ => pure ()) ⟨.directive, [".tiles".toList, "\"t.png\"".toList], 1⟩) {}).1 = .ok () := by
  decide +kernel

example : ((execStmt (gameboyOn mos6502) (exTiles 4) 3 (fun _ => pure ()) ⟨.directive, [".tiles".toList, "\"t.png\"".toList], 1⟩) {}).2.bytes.take 4 =
    [0x55, 0x66, 0xAA, 0x33] := by
  decide +kernel

example : ((execStmt (gameboyOn mos6502) (exTiles 5) 3 (fun _ => pure ()) ⟨.directive, [".tiles".toList, "\"t.png\"".toList], 1⟩) {}).1 =
    .error (.platform "InvalidPaletteEntry") := by
  decide +kernel

end Necro
