import Verif.Model.Space

/-!
# The colour spaces shipped with the crate
Models `color_space_rgb.rs:459-676` (`model_f64`) and `678-873` (`model_f32`), whose constants are
textually identical (`SRGB_DRV` exists in `model_f64` only), and the white points of
`illuminant.rs:10-39`. `l` is the meaning of a decimal literal in the module (rounding to f64 or
f32, or the exact rational); a negative literal is the negation of a positive one.
-/

namespace CS.Shipped
open CS

variable {T : Type} [Add T] [Sub T] [Mul T] [Div T] [Neg T] [Flt T] (l : ℚ → T)

/-- `SRGB`, color_space_rgb.rs:466-489, 685-704. -/
def srgb : ColorSpaceRGB T :=
  ColorSpaceRGB.newWithMatrices ⟨l 0.64, l 0.33, l 1.0⟩ ⟨l 0.30, l 0.60, l 1.0⟩
    ⟨l 0.15, l 0.06, l 1.0⟩ ⟨l 0.3127, l 0.3290, l 1.0⟩
    ⟨l 3.2406, -l 1.5372, -l 0.4986,
     -l 0.9689, l 1.8758, l 0.0415,
     l 0.0557, -l 0.2040, l 1.0570⟩
    ⟨l 0.4124, l 0.3576, l 0.1805,
     l 0.2126, l 0.7152, l 0.0722,
     l 0.0193, l 0.1192, l 0.9505⟩
    encode.srgb decode.srgb

/-- `SRGB_DRV`, color_space_rgb.rs:493-506. -/
def srgbDrv : Res (ColorSpaceRGB T) :=
  ColorSpaceRGB.new ⟨l 0.64, l 0.33, l 1.0⟩ ⟨l 0.30, l 0.60, l 1.0⟩
    ⟨l 0.15, l 0.06, l 1.0⟩ ⟨l 0.3127, l 0.3290, l 1.0⟩
    encode.srgb decode.srgb

/-- `ITUR_BT709`, color_space_rgb.rs:510-523, 708-721. -/
def bt709 : Res (ColorSpaceRGB T) :=
  ColorSpaceRGB.new ⟨l 0.64, l 0.33, l 1.0⟩ ⟨l 0.30, l 0.60, l 1.0⟩
    ⟨l 0.15, l 0.06, l 1.0⟩ ⟨l 0.3127, l 0.3290, l 1.0⟩
    encode.bt709 decode.bt709

/-- `ITUR_BT2020`, color_space_rgb.rs:528-541, 725-738. -/
def bt2020 : Res (ColorSpaceRGB T) :=
  ColorSpaceRGB.new ⟨l 0.708, l 0.292, l 1.0⟩ ⟨l 0.17, l 0.797, l 1.0⟩
    ⟨l 0.131, l 0.046, l 1.0⟩ ⟨l 0.3127, l 0.3290, l 1.0⟩
    encode.bt2020 decode.bt2020

/-- `DCI_P3`, color_space_rgb.rs:545-558, 742-755. -/
def dciP3 : Res (ColorSpaceRGB T) :=
  ColorSpaceRGB.new ⟨l 0.680, l 0.320, l 1.0⟩ ⟨l 0.265, l 0.690, l 1.0⟩
    ⟨l 0.150, l 0.060, l 1.0⟩ ⟨l 0.314, l 0.351, l 1.0⟩
    (fun c => c.powf (l 1.0 / l 2.6)) (fun c => c.powf (l 2.6))

/-- `DCI_P3_D65`, color_space_rgb.rs:562-575, 759-772. -/
def dciP3D65 : Res (ColorSpaceRGB T) :=
  ColorSpaceRGB.new ⟨l 0.680, l 0.320, l 1.0⟩ ⟨l 0.265, l 0.690, l 1.0⟩
    ⟨l 0.150, l 0.060, l 1.0⟩ ⟨l 0.3127, l 0.3290, l 1.0⟩
    (fun c => c.powf (l 1.0 / l 2.6)) (fun c => c.powf (l 2.6))

/-- `ACES`, color_space_rgb.rs:579-602, 776-799. -/
def aces : ColorSpaceRGB T :=
  ColorSpaceRGB.newWithMatrices ⟨l 0.7347, l 0.2653, l 1.0⟩ ⟨l 0.0000, l 1.0000, l 1.0⟩
    ⟨l 0.0001, -l 0.077, l 1.0⟩ ⟨l 0.32168, l 0.33767, l 1.0⟩
    ⟨l 1.0498110175, l 0.0000000000, -l 0.0000974845,
     -l 0.4959030231, l 1.3733130458, l 0.0982400361,
     l 0.0000000000, l 0.0000000000, l 0.9912520182⟩
    ⟨l 0.9525523959, l 0.0000000000, l 0.0000936786,
     l 0.3439664498, l 0.7281660966, -l 0.0721325464,
     l 0.0000000000, l 0.0000000000, l 1.0088251844⟩
    encode.linear decode.linear

/-- `ACES_CG`, color_space_rgb.rs:606-619, 803-816. -/
def acesCg : Res (ColorSpaceRGB T) :=
  ColorSpaceRGB.new ⟨l 0.713, l 0.293, l 1.0⟩ ⟨l 0.165, l 0.830, l 1.0⟩
    ⟨l 0.128, l 0.044, l 1.0⟩ ⟨l 0.32168, l 0.33767, l 1.0⟩
    encode.linear decode.linear

/-- `ADOBE_RGB_1998`, color_space_rgb.rs:624-647, 820-843. -/
def adobeRgb1998 : ColorSpaceRGB T :=
  ColorSpaceRGB.newWithMatrices ⟨l 0.6400, l 0.3300, l 1.0⟩ ⟨l 0.2100, l 0.7100, l 1.0⟩
    ⟨l 0.1500, l 0.0600, l 1.0⟩ ⟨l 0.3127, l 0.3290, l 1.0⟩
    ⟨l 2.04159, -l 0.56501, -l 0.34473,
     -l 0.96924, l 1.87597, l 0.04156,
     l 0.01344, -l 0.11836, l 1.01517⟩
    ⟨l 0.57667, l 0.18556, l 0.18823,
     l 0.29734, l 0.62736, l 0.07529,
     l 0.02703, l 0.07069, l 0.99134⟩
    (fun c => c.powf (l 1.0 / l 2.19921875)) (fun c => c.powf (l 2.19921875))

/-- `ALEXA_WIDE_GAMUT`, color_space_rgb.rs:651-674, 847-870. -/
def alexaWideGamut : ColorSpaceRGB T :=
  ColorSpaceRGB.newWithMatrices ⟨l 0.6840, l 0.3130, l 1.0⟩ ⟨l 0.2210, l 0.8480, l 1.0⟩
    ⟨l 0.0861, -l 0.102, l 1.0⟩ ⟨l 0.3127, l 0.3290, l 1.0⟩
    ⟨l 1.789066, -l 0.482534, -l 0.200076,
     -l 0.639849, l 1.396400, l 0.194432,
     -l 0.041532, l 0.082335, l 0.878868⟩
    ⟨l 0.638008, l 0.214704, l 0.097744,
     l 0.291954, l 0.823841, -l 0.115795,
     l 0.002798, -l 0.067034, l 1.153294⟩
    encode.alexa_logc_v3 decode.alexa_logc_v3

/-- `xy::D50`, illuminant.rs:10-14. -/
def xyD50 : XYY T := ⟨l 0.34570, l 0.35850, l 1.0⟩
/-- `xy::D55`, illuminant.rs:15-19. -/
def xyD55 : XYY T := ⟨l 0.33243, l 0.34744, l 1.0⟩
/-- `xy::D60`, illuminant.rs:20-24. -/
def xyD60 : XYY T := ⟨l 0.321626242047397, l 0.337736995955436, l 1.0⟩
/-- `xy::D65`, illuminant.rs:25-29. -/
def xyD65 : XYY T := ⟨l 0.31270, l 0.32900, l 1.0⟩
/-- `xy::DCI_P3`, illuminant.rs:30-34. -/
def xyDCI_P3 : XYY T := ⟨l 0.31400, l 0.35100, l 1.0⟩
/-- `xy::ACES`, illuminant.rs:35-39. -/
def xyACES : XYY T := ⟨l 0.32168, l 0.33767, l 1.0⟩

end CS.Shipped
