import Verif.Model.Spd
import Verif.Model.Vspd

/-!
# Printing and comparing values
Models the `Display` implementations and the derived `PartialOrd` implementations.
The text of a single floating-point number (`core::fmt` of `f32`/`f64`) is a parameter `fmt`; width and
precision flags given by the caller are not modelled.
-/

namespace CS
open Flt

section
variable {T : Type}

/-- `write!(f, "({}, {}, {})", ..)`, the format string used at rgb.rs:208, 648, 654 and xyz.rs:169. -/
def triple (x y z : String) : String := "(" ++ x ++ ", " ++ y ++ ", " ++ z ++ ")"

/-- `Display for RGBf<T>`, rgb.rs:203-210. -/
def RGBf.display (fmt : T → String) (c : RGBf T) : String := triple (fmt c.r) (fmt c.g) (fmt c.b)

/-- `Display for RGBu8`, rgb.rs:646-650. -/
def RGBu8.display (c : RGBu8) : String := triple c.r.toNat.repr c.g.toNat.repr c.b.toNat.repr

/-- `Display for RGBu16`, rgb.rs:652-656. -/
def RGBu16.display (c : RGBu16) : String := triple c.r.toNat.repr c.g.toNat.repr c.b.toNat.repr

/-- `Display for XYZ<T>`, xyz.rs:164-171. -/
def XYZ.display (fmt : T → String) (c : XYZ T) : String := triple (fmt c.x) (fmt c.y) (fmt c.z)

/-- `Display for Interval<T>`, vspd.rs:41-51. -/
def Interval.display (fmt : T → String) : Interval T → String
  | .uniform v => fmt v
  | .varying => "Varying"

/-- derived `Display for SpdShape<T>`, vspd.rs:18-19. -/
def SpdShape.display (fmt : T → String) (s : SpdShape T) : String :=
  triple (fmt s.start) (fmt s.end) (s.interval.display fmt)

/-- derived `Display for Sample`, vspd.rs:118-119, and its `Debug`, vspd.rs:131-135. -/
def Sample.display (fmt : T → String) (s : Sample T) : String := "(" ++ fmt s.nm ++ ", " ++ fmt s.v ++ ")"

/-- the loop `for s in .. { write!(f, "{}, ", s)?; }` followed by `write!(f, "]")`, vspd.rs:165-168, spd.rs:209-213. -/
def displayItems : List String → String
  | [] => "]"
  | s :: l => s ++ ", " ++ displayItems l

/-- `Display for VSPD`, vspd.rs:162-170, and its `Debug`, vspd.rs:172-180. -/
def VSPD.display (fmt : T → String) (s : VSPD T) : String :=
  "VSPD(" ++ fmt s.shape.start ++ ", " ++ fmt s.shape.end ++ ", " ++ s.shape.interval.display fmt ++ ")[" ++
    displayItems (s.samples.map (Sample.display fmt))

/-- `Display for SPD`, spd.rs:205-215, and its `Debug`, spd.rs:217-227. -/
def SPD.display (fmt : T → String) (s : SPD T) : String :=
  "[" ++ displayItems ((List.ofFn s.values).map fmt)
end

section
variable {T : Type} [Flt T]

/-- `PartialOrd::partial_cmp` of `f32` and `f64` (core library). -/
def partialCmp (a b : T) : Option Ordering :=
  if eqb a b then some .eq else if lt a b then some .lt else if lt b a then some .gt else none

/-- How `#[derive(PartialOrd)]` chains the fields: the first field that does not compare equal decides. -/
def cmpThen : Option Ordering → Option Ordering → Option Ordering
  | some .eq, o => o
  | o, _ => o

/-- derived `PartialOrd for RGBf<T>`, rgb.rs:14-19. -/
def RGBf.partialCmp (a b : RGBf T) : Option Ordering :=
  cmpThen (CS.partialCmp a.r b.r) (cmpThen (CS.partialCmp a.g b.g) (CS.partialCmp a.b b.b))

/-- derived `PartialOrd for XYZ<T>`, xyz.rs:17-25. -/
def XYZ.partialCmp (a b : XYZ T) : Option Ordering :=
  cmpThen (CS.partialCmp a.x b.x) (cmpThen (CS.partialCmp a.y b.y) (CS.partialCmp a.z b.z))

/-- derived `PartialOrd for XYY<T>`, chromaticity.rs:11-21. -/
def XYY.partialCmp (a b : XYY T) : Option Ordering :=
  cmpThen (CS.partialCmp a.x b.x) (cmpThen (CS.partialCmp a.y b.y) (CS.partialCmp a.Y b.Y))

/-- derived `PartialOrd for Interval<T>`, vspd.rs:32-39: variants in order of declaration. -/
def Interval.partialCmp : Interval T → Interval T → Option Ordering
  | .uniform a, .uniform b => CS.partialCmp a b
  | .uniform _, .varying => some .lt
  | .varying, .uniform _ => some .gt
  | .varying, .varying => some .eq

/-- derived `PartialOrd for SpdShape<T>`, vspd.rs:18-30. -/
def SpdShape.partialCmp (a b : SpdShape T) : Option Ordering :=
  cmpThen (CS.partialCmp a.start b.start)
    (cmpThen (CS.partialCmp a.end b.end) (a.interval.partialCmp b.interval))
end

/-- derived `PartialOrd for RGBu8`, rgb.rs:474-479; `u8::partial_cmp` is the order of the integers. -/
def RGBu8.partialCmp (a b : RGBu8) : Option Ordering :=
  cmpThen (some (compare a.r.toNat b.r.toNat))
    (cmpThen (some (compare a.g.toNat b.g.toNat)) (some (compare a.b.toNat b.b.toNat)))

/-- derived `PartialOrd for RGBu16`, rgb.rs:494-499. -/
def RGBu16.partialCmp (a b : RGBu16) : Option Ordering :=
  cmpThen (some (compare a.r.toNat b.r.toNat))
    (cmpThen (some (compare a.g.toNat b.g.toNat)) (some (compare a.b.toNat b.b.toNat)))

end CS
