import Verif.Model.Space

/-!
# Model of examples/convert.rs and examples/convert_with_matrices.rs

Both programs read an 8-bit image and write it in three other colour spaces: the first in one call, the
second step by step through XYZ. Reading and writing PNG files (convert.rs:43-62) is not modelled: the
programs are functions from the bytes of one image to the bytes of the other.
-/

namespace CS

variable {T : Type} [Add T] [Sub T] [Mul T] [Div T] [Neg T] [Flt T]

/-- `px_srgb`, convert.rs:17-20 and convert_with_matrices.rs:19-22: `chunks_exact(3)`, which leaves out
an incomplete last chunk, and `p[i] as f32 / 255.0` for each component. -/
def readPixels (bytes : List UInt8) : List (RGBf T) :=
  group3 (fun r g b => ⟨unquant8 r, unquant8 g, unquant8 b⟩) bytes

/-- `rgbu8_slice_as_u8`, convert.rs:64-66 and convert_with_matrices.rs:110-112: the bytes of the pixels
in memory order. `RGBu8` is `repr(C)` with three `u8` fields (rgb.rs:473-479). -/
def pixelBytes (px : List RGBu8) : List UInt8 := px.flatMap fun p => [p.r, p.g, p.b]

/-- One conversion of convert.rs:17-40: the bytes written for the image `bytes`. -/
def convertDirect (src dst : ColorSpaceRGB T) (bytes : List UInt8) : Res (List UInt8) := do
  let px : List (RGBf T) := readPixels bytes
  let out ← rgbToRgb RGBf.toU8 src dst px (List.replicate px.length ⟨0, 0, 0⟩)
  .ok (pixelBytes out.1)

/-- One conversion of convert_with_matrices.rs:19-86: the bytes written for the image `bytes`. -/
def convertSteps (src dst : ColorSpaceRGB T) (bytes : List UInt8) : Res (List UInt8) := do
  let px : List (RGBf T) := readPixels bytes
  let toXyz ← rgbToXyzMatrix src.white src
  let pxXyz := px.map fun p => rgbToXyz toXyz (src.decode p)
  let toRgb ← xyzToRgbMatrix src.white dst
  .ok (pixelBytes (pxXyz.map fun p => (dst.encode (xyzToRgb toRgb p)).toU8))

end CS
