import Verif.Model.Matrix

/-!
# Chromatic adaptation
Models `chromatic_adaptation.rs`.
-/

namespace CS
open Flt

section
variable {T : Type} [Add T] [Sub T] [Mul T] [Div T] [Neg T] [Flt T]

/-- Bradford cone matrix, chromatic_adaptation.rs:25-29. A negative literal is the negation of a
positive one. -/
def bradfordM : Matrix33 T :=
  ⟨lit 0.8951000, lit 0.2664000, -lit 0.1614000,
   -lit 0.7502000, lit 1.7135000, lit 0.0367000,
   lit 0.0389000, -lit 0.0685000, lit 1.0296000⟩

/-- Von Kries cone matrix, chromatic_adaptation.rs:67-71. -/
def vonKriesM : Matrix33 T :=
  ⟨lit 0.4002400, lit 0.7076000, -lit 0.0808100,
   -lit 0.2263000, lit 1.1653200, lit 0.0457000,
   lit 0.0000000, lit 0.0000000, lit 0.9182200⟩

/-- The rounded inverse shipped with Von Kries, chromatic_adaptation.rs:73-77. -/
def vonKriesMInv : Matrix33 T :=
  ⟨lit 1.8599364, -lit 1.1293816, lit 0.2198974,
   lit 0.3611914, lit 0.6388125, -lit 0.0000064,
   lit 0.0000000, lit 0.0000000, lit 1.0890636⟩

/-- CAT02 cone matrix, chromatic_adaptation.rs:114-118. -/
def cat02M : Matrix33 T :=
  ⟨lit 0.7328, lit 0.4296, -lit 0.1624,
   -lit 0.7036, lit 1.6975, lit 0.0061,
   lit 0.0030, lit 0.0136, lit 0.9834⟩

/-- The diagonal matrix `M_wp`, chromatic_adaptation.rs:35-45, 82-92, 125-135. -/
def wpScale (src dst : XYZ T) : Matrix33 T :=
  ⟨dst.x / src.x, zero, zero, zero, dst.y / src.y, zero, zero, zero, dst.z / src.z⟩

/-- The body shared by `bradford` and `cat02`, chromatic_adaptation.rs:18-47, 107-137. -/
def catWith (MA : Matrix33 T) (src dst : XYZ T) : Res (Matrix33 T) :=
  if XYZ.eqb src dst then .ok Matrix33.identity
  else do
    let MAinv ← unwrap MA.inverse
    let srcA := MA * src
    let dstA := MA * dst
    .ok (MAinv * wpScale srcA dstA * MA)

/-- `bradford`, chromatic_adaptation.rs:14-48 (arguments already converted into XYZ). -/
def bradford (src dst : XYZ T) : Res (Matrix33 T) := catWith bradfordM src dst

/-- `cat02`, chromatic_adaptation.rs:103-138 (arguments already converted into XYZ). -/
def cat02 (src dst : XYZ T) : Res (Matrix33 T) := catWith cat02M src dst

/-- `von_kries`, chromatic_adaptation.rs:56-95 (arguments already converted into XYZ). -/
def vonKries (src dst : XYZ T) : Matrix33 T :=
  if XYZ.eqb src dst then Matrix33.identity
  else
    let srcA := (vonKriesM : Matrix33 T) * src
    let dstA := (vonKriesM : Matrix33 T) * dst
    vonKriesMInv * wpScale srcA dstA * vonKriesM
end
end CS
