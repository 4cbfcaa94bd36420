import Verif.Model.Color

/-!
# The fixed-shape SPD
Models `spd.rs:16-203`. The values are an array of 40 floats, modelled as a function on `Fin 40`.
-/

namespace CS
open Flt

section
variable {T : Type} [Add T] [Sub T] [Mul T] [Div T] [Neg T] [Flt T]

/-- `SPD`, spd.rs:26-28: an array of 40 values. -/
structure SPD (T : Type) where
  values : Fin 40 → T

/-- `SPD::constant`, spd.rs:37-46. -/
def SPD.constant (v : T) : SPD T := ⟨fun _ => v⟩

/-- `PartialEq for SPD`, spd.rs:66-75: loop with early return. -/
def SPD.eqLoop (a b : SPD T) : List (Fin 40) → Bool
  | [] => true
  | i :: is => if !(Flt.eqb (a.values i) (b.values i)) then false else SPD.eqLoop a b is

/-- `PartialEq for SPD`, spd.rs:66-75. -/
def SPD.eqb (a b : SPD T) : Bool := SPD.eqLoop a b (List.finRange 40)

/-- `Mul for &SPD`, spd.rs:191-203. -/
instance : Mul (SPD T) := ⟨fun a b => ⟨fun i => a.values i * b.values i⟩⟩

/-- One iteration of the compensated summation, spd.rs:98-108; the state is `(xyz, c)`. -/
def kahanStep (spd wx wy wz : SPD T) (st : XYZ T × XYZ T) (i : Fin 40) : XYZ T × XYZ T :=
  let x : XYZ T := ⟨spd.values i * wx.values i, spd.values i * wy.values i, spd.values i * wz.values i⟩
  let y := x - st.2
  let t := st.1 + y
  (t, (t - st.1) - y)

/-- `spd_to_xyz_scalar`, spd.rs:93-112. -/
def spdToXyzScalar (wx wy wz spd : SPD T) : XYZ T :=
  ((List.finRange 40).foldl (kahanStep spd wx wy wz)
    (XYZ.fromScalar (lit 0.0), XYZ.fromScalar (lit 0.0))).1

/-- eight lanes of an AVX register -/
abbrev Lanes (T : Type) := Fin 8 → T

/-- `_mm256_loadu_ps(ptr.offset(8*k))`, spd.rs:119-141 -/
def loadLanes (s : SPD T) (k : Fin 5) : Lanes T :=
  fun i => s.values ⟨8 * k.val + i.val, by omega⟩

/-- `_mm256_mul_ps`, spd.rs:143-159 -/
def lmul (a b : Lanes T) : Lanes T := fun i => a i * b i
/-- `_mm256_add_ps`, spd.rs:161-176 and 185 -/
def ladd (a b : Lanes T) : Lanes T := fun i => a i + b i
/-- `_mm256_permute2f128_ps(v, v, 1)`: swap the 128-bit halves -/
def lswap (v : Lanes T) : Lanes T := fun i => v (i + 4)
/-- `_mm256_hadd_ps(a, b)`: horizontal pairs within each 128-bit half -/
def lhadd (a b : Lanes T) : Lanes T := fun i =>
  match i with
  | 0 => a 0 + a 1 | 1 => a 2 + a 3 | 2 => b 0 + b 1 | 3 => b 2 + b 3
  | 4 => a 4 + a 5 | 5 => a 6 + a 7 | 6 => b 4 + b 5 | 7 => b 6 + b 7

/-- `hadd_avx`, spd.rs:183-189. -/
def haddAvx (v : Lanes T) : T :=
  let v1 := ladd v (lswap v)
  let v2 := lhadd v1 v1
  let v3 := lhadd v2 v2
  v3 0

/-- One channel of `spd_to_xyz_avx`, spd.rs:117-180. -/
def avxChannel (spd w : SPD T) : T :=
  let p (k : Fin 5) := lmul (loadLanes spd k) (loadLanes w k)
  let a := ladd (p 0) (p 1)
  let b := ladd (p 2) (p 3)
  let c := ladd a b
  haddAvx (ladd c (p 4))

/-- `spd_to_xyz_avx`, spd.rs:117-180. -/
def spdToXyzAvx (wx wy wz spd : SPD T) : XYZ T :=
  ⟨avxChannel spd wx, avxChannel spd wy, avxChannel spd wz⟩

end
end CS
