import Verif.Model.Oiio
/-
Independent specification for reading, writing and resampling files: windows, sizes, bytes.
-/

namespace OCG.OiioSpec

variable {F H : Type}

/-- Width of a window. -/
def width (b : BBox) : Int := b.maxX - b.minX
/-- Height of a window. -/
def height (b : BBox) : Int := b.maxY - b.minY

/-- Where the data of an image lies relative to the display window. -/
def offset (image : Image F H) : Int × Int :=
  (image.dataWindow.minX - image.displayWindow.minX,
   image.dataWindow.minY - image.displayWindow.minY)

/-- Where the data of a file lies relative to its display window. -/
def fileOffset (spec : FileSpec F) : Int × Int := (spec.x - spec.fullX, spec.y - spec.fullY)

/-- The header of a file that can be stored: some pixels, and all window corners well inside
`i32`. -/
structure Sane (spec : FileSpec F) : Prop where
  width : 0 < spec.width
  height : 0 < spec.height
  channels : 3 ≤ spec.numChannels
  area : spec.width * spec.height * max 4 spec.numChannels ≤ 2147483647
  x : -500000000 ≤ spec.x ∧ spec.x + spec.width ≤ 500000000
  y : -500000000 ≤ spec.y ∧ spec.y + spec.height ≤ 500000000
  fullX : -500000000 ≤ spec.fullX ∧ spec.fullX + spec.fullWidth ≤ 500000000 ∧ 0 ≤ spec.fullWidth
  fullY : -500000000 ≤ spec.fullY ∧ spec.fullY + spec.fullHeight ≤ 500000000 ∧
    0 ≤ spec.fullHeight

/-- Size of one value in a file, in bytes. -/
def valueBytes : DataType → Nat
  | .known .f32 => 4
  | .known .f16 => 2
  | .known .u16 => 2
  | .known .u8 => 1
  | .unknown => 0

/-- The bytes of a buffer. -/
def bufferBytes (b : PixelBlock F H) : Nat := b.block.data.length * valueBytes (.known b.block.dtype)

/-- Storing all values of a file, with `stride` bytes from pixel to pixel, stays inside the first
`n` bytes. -/
def StaysInside (spec : FileSpec F) (stride n : Nat) : Prop :=
  ∀ i c : Nat, (i : Int) < spec.width * spec.height → (c : Int) < spec.numChannels →
    i * stride + c * valueBytes spec.format + valueBytes spec.format ≤ n

/-- `2 ^ factor` times a length. -/
def scaled (length factor : Int) : Rat := (length : Rat) * (2 : Rat) ^ factor

/-- `n` is the new length for a length scaled by `2 ^ factor`: between 1 and 16384; the scaled
length, rounded down, when that is within the limits; the nearer limit when it is not.  Nothing is
said about scaled lengths of 2^31 and more, apart from the limits. -/
structure ScaledTo (length factor n : Int) : Prop where
  least : 1 ≤ n
  most : n ≤ 16384
  inside : 1 ≤ scaled length factor → scaled length factor < 16385 →
    (n : Rat) ≤ scaled length factor ∧ scaled length factor < n + 1
  below : 0 ≤ scaled length factor → scaled length factor < 1 → n = 1
  above : 16384 ≤ scaled length factor → scaled length factor < 2147483648 → n = 16384

/-- The bytes of the ending of a file name. -/
def ending (s : String) : Bytes := s.toList.map Char.toNat

/-- The endings of JPEG files. -/
def jpegEndings : List Bytes := [".jpg", ".jpeg", ".jpe", ".jif", ".jfif", ".jfi"].map ending

end OCG.OiioSpec
