import Verif.Num.Flt
import Verif.Num.Round
import Verif.Num.FP
import Verif.Num.Real
import Verif.Num.KRefl
import Verif.Model.Color
import Verif.Model.Matrix
import Verif.Model.Cat
import Verif.Model.Transfer
import Verif.Model.Space
import Verif.Model.Lab
import Verif.Model.Vspd
import Verif.Model.ToXyz
import Verif.Model.Spd
import Verif.Model.Shipped
import Verif.Spec
import Verif.Lemmas.FPOrder
import Verif.Lemmas.FPArith
import Verif.Lemmas.Quant
import Verif.Lemmas.ColorOps
import Verif.Lemmas.Matrix
import Verif.Lemmas.Inverse
import Verif.Lemmas.Cat
import Verif.Lemmas.Planes
import Verif.Lemmas.Transfer
import Verif.Props.Quant
import Verif.Props.Colour
import Verif.Props.Matrix
import Verif.Props.Cat
import Verif.Props.Space
import Verif.Props.Transfer
import Verif.Props.Lab
import Verif.Lemmas.Vspd
import Verif.Props.Vspd
import Verif.Lemmas.Sprague
import Verif.Lemmas.Resample
import Verif.Lemmas.Linear
import Verif.Props.Sprague
import Verif.Props.Resample
import Verif.Props.Linear
import Verif.Lemmas.Weights
import Verif.Props.Lagrange
import Verif.Props.Weights
import Verif.Lemmas.ToXyz
import Verif.Props.ToXyz
import Verif.Props.ToXyzLinear
import Verif.Props.Nit
import Verif.Model.Tables
import Verif.Model.Uplift
import Verif.Lemmas.Grid
import Verif.Props.Spd
import Verif.Props.Uplift
import Verif.Model.Spectra
import Verif.Lemmas.TableEval
import Verif.Lemmas.WhiteEval
import Verif.Lemmas.UpliftEval
import Verif.Props.Spectra
import Verif.Props.RoundTrip
import Verif.Model.Extra
import Verif.Lemmas.FPErr
import Verif.Lemmas.FPCast
import Verif.Props.Extra
import Verif.Lemmas.FPDot
import Verif.Lemmas.FPRound
import Verif.Lemmas.FPTrip
import Verif.Lemmas.TripEval
import Verif.Lemmas.TripEval64
import Verif.Lemmas.TripEval32
import Verif.Props.Rounding
import Verif.Props.Ciede
import Verif.Lemmas.FPSum
import Verif.Props.Sums
import Verif.Lemmas.AlignExact
import Verif.Props.OffGrid
import Verif.Lemmas.RelErr
import Verif.Lemmas.FPFast
import Verif.Lemmas.FPRel
import Verif.Lemmas.FPTransfer
import Verif.Lemmas.FPTransfer2
import Verif.Lemmas.ImageQ
import Verif.Lemmas.FPGamma
import Verif.Lemmas.FPBt
import Verif.Lemmas.FPLogC
import Verif.Lemmas.IdealLibm
import Verif.Lemmas.Curves
import Verif.Props.Image
import Verif.Lemmas.FPTransfer3
import Verif.Lemmas.BtClose
import Verif.Props.Through
import Verif.Props.Adobe
import Verif.Props.Smits
import Verif.Props.Published
import Verif.Props.Smooth
import Verif.Props.SpragueF
import Verif.Props.Overshoot
import Verif.Props.SpragueShipped
import Verif.Props.LabF
import Verif.Props.PowiLoop
import Verif.Lemmas.FPWhole
import Verif.Lemmas.FPGrid
import Verif.Props.GridF
import Verif.Props.GridShipped
import Verif.Lemmas.FPIntegrate
import Verif.Props.ToXyzF
import Verif.Props.ToXyzShipped
import Verif.Lemmas.FPWeights
import Verif.Lemmas.FPAdjust
import Verif.Props.WeightsF
import Verif.Props.WeightsShipped
import Verif.Lemmas.FPSym
import Verif.Lemmas.FPIn
import Verif.Lemmas.FPCiede
import Verif.Lemmas.FPCiede2
import Verif.Lemmas.IdealMath
import Verif.Props.DeltaEF
import Verif.Props.DeltaEBound
import Verif.Props.DeltaE76F
import Verif.Lemmas.FPCat
import Verif.Lemmas.ConeEval
import Verif.Props.CatF
import Verif.Lemmas.FPNear
import Verif.Props.DaylightF
import Verif.Props.ChromaF
import Verif.Lemmas.FPLinear
import Verif.Lemmas.FPLogCLin
import Verif.Props.LinearF
import Verif.Props.UpliftF
import Verif.Props.CurvesF
import Verif.Lemmas.FPInverse
import Verif.Props.InverseF
import Verif.Lemmas.FPPrimaries
import Verif.Props.PrimariesF
import Verif.Lemmas.FPMono
import Verif.Props.OrderF
import Verif.Props.LinearInterpF
import Verif.Props.NitF
import Verif.Props.GreyF
import Verif.Lemmas.DeltaEReal
import Verif.Lemmas.FPDeltaE
import Verif.Lemmas.FPDeltaE2
import Verif.Lemmas.FPDeltaE3
import Verif.Lemmas.FPDeltaE4
import Verif.Lemmas.FPDeltaE5
import Verif.Props.DeltaEAcc
import Verif.Props.HangF
import Verif.Props.PlanesF
import Verif.Props.ViaF
import Verif.Props.InverseIff
import Verif.Props.OutsideF
import Verif.Props.Grey8F
import Verif.Props.Deep16
import Verif.Props.Srgb16
import Verif.Props.P3Srgb
import Verif.Props.Show
import Verif.Props.SelfBlue
import Verif.Props.Brighter
import Verif.Props.UpliftUp
import Verif.Props.SpragueKnots
import Verif.Props.Exposure
import Verif.Model.Hero
import Verif.Props.Hero
import Verif.Props.HeroF
import Verif.Props.HeroShipped
import Verif.Model.Convert
import Verif.Lemmas.Steps
import Verif.Props.Convert
import Verif.Props.ConvertF
import Verif.Props.Differences
import Verif.Props.Stability
import Verif.Lemmas.Perceptual
import Verif.Lemmas.Channels
import Verif.Props.EightBits
import Verif.Props.EightBitsP3
import Verif.Props.Distinct
import Verif.Props.Gamut
import Verif.Props.WideTrip
import Verif.Lemmas.ExactSpaces
import Verif.Props.GamutOrder
import Verif.Conformance
