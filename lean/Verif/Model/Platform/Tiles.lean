import Verif.Model.Link
/-!
# Pieces shared by the console modules under /repo/necroassembler/platforms
-/

namespace Necro

open M (throw get modify lift forEach)

/-- `bytes((a, b, …))`: every item must be in `range(256)`. -/
def pyBytes : List Int → Except Err Bytes
  | [] => .ok []
  | v :: vs =>
    if 0 ≤ v ∧ v < 256 then
      match pyBytes vs with
      | .ok r => .ok (BitVec.ofInt 8 v :: r)
      | .error e => .error e
    else .error .valueError

/-- `self.assembled_bytes[i]` -/
def readByte (i : Nat) : M Byte := fun s =>
  match s.bytes[i]? with
  | some b => (.ok b, s)
  | none => (.error .indexError, s)

/-- gameboy.py:127-135, nes.py:85-93, sms.py:42-52: the loop over the eight pixels of a
row.  `fs` takes the bit of each plane out of a pixel, `acc` holds the plane bytes. -/
def rowLoop (limit : Int) (fs : List (Int → Int)) (px : Nat → Int) : List Nat → List Int → Except Err (List Int)
  | [], acc => .ok acc
  | x :: xs, acc =>
    if 0 ≤ px x ∧ px x ≤ limit then
      rowLoop limit fs px xs (List.zipWith (fun b f => pyOr b (pyShl (f (px x)) (7 - x))) acc fs)
    else .error (.platform "InvalidPaletteEntry")

/-- gameboy.py:122-136, nes.py:80-95, sms.py:35-53: the plane bytes of row `y` of a cell. -/
def rowPlanes (limit : Int) (fs : List (Int → Int)) (img : Image) (cx cy y : Nat) : Except Err (List Int) :=
  rowLoop limit fs (fun x => img.pixel (cx * 8 + x) (cy * 8 + y)) (List.range 8) (fs.map fun _ => 0)

/-- The rows of a cell, top to bottom. -/
def cellRows (limit : Int) (fs : List (Int → Int)) (img : Image) (cx cy : Nat) : List Nat → Except Err (List (List Int))
  | [] => .ok []
  | y :: ys =>
    match rowPlanes limit fs img cx cy y with
    | .error e => .error e
    | .ok r =>
      match cellRows limit fs img cx cy ys with
      | .error e => .error e
      | .ok rs => .ok (r :: rs)

/-- gameboy.py:137-140, sms.py:54-57: `for plane in planes: blob += bytes(plane)` -/
def joinRows : List (List Int) → Except Err Bytes
  | [] => .ok []
  | r :: rs =>
    match pyBytes r with
    | .error e => .error e
    | .ok b =>
      match joinRows rs with
      | .error e => .error e
      | .ok bs => .ok (b ++ bs)

/-- `_convert_cell` of gameboy.py and sms.py: the planes of a row are adjacent. -/
def cellInterleaved (limit : Int) (fs : List (Int → Int)) (img : Image) (cx cy : Nat) : Except Err Bytes :=
  match cellRows limit fs img cx cy (List.range 8) with
  | .error e => .error e
  | .ok rows => joinRows rows

/-- gameboy.py:142-154, nes.py:103-116, sms.py:59-71: the directive around the conversion.
`sizeOk` is the test of the image size, `cells` the number of cells in each direction.
PIL is the function `env.image`; a file PIL cannot read is not modelled. -/
def tilesDirective (env : Env) (sizeOk : Nat → Nat → Bool) (cells : Image → Nat × Nat)
    (convert : Image → Nat → Nat → Except Err Bytes) (tokens : List Str) : M Unit := do
  match tokens with
  | [_, a] =>
    let filename ← stringify a
    let img ← openFile (env.image filename)
    if !img.indexed then throw (.platform "OnlyIndexedImagesAreSupported")
    else if !sizeOk img.width img.height then throw (.platform "InvalidImageSize")
    else
      forEach (List.range (cells img).2) fun cy =>
        forEach (List.range (cells img).1) fun cx => do
          let blob ← lift (convert img cx cy)
          appendBytes blob
  | _ => throw .invalidArgumentsForDirective

/-- gameboy.py:87-90, nes.py:61-64: `LabelNotAllowed` is turned into
`InvalidArgumentsForDirective`. -/
def headerBytes (d : Dialect) (args : List Str) : M Bytes := fun s =>
  match parseBytesOrAscii d args s with
  | (.error .labelNotAllowed, s') => (.error .invalidArgumentsForDirective, s')
  | r => r

/-- `_cartridge_fill` (gameboy.py:82-94, nes.py:56-68): overwrite part of the header. -/
def cartridgeFill (d : Dialect) (address size : Nat) (tokens : List Str) : M Unit := do
  let s ← get
  if !s.cartridgeSet then throw (.platform "CartidgeHeaderNotSet")
  else if tokens.length < 2 then throw .invalidArgumentsForDirective
  else
    let blob ← headerBytes d (tokens.drop 1)
    if blob.length > size then throw .invalidArgumentsForDirective
    else writeAt address blob

/-- Directives added by a class, looked up by (folded) name. -/
def classDirectives (d : Dialect) (l : List (String × (List Str → M Unit))) (key : Str) : Option (List Str → M Unit) :=
  dget (l.map fun p => (d.key p.1.toList, p.2)) key

end Necro
