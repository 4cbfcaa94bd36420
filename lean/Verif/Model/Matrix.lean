import Verif.Model.Color

/-!
# 3x3 matrices
Models `math.rs:133-528`.
-/

namespace CS
open Flt

/-- `Matrix33<T>`, math.rs:142-147: nine entries, row major. -/
@[ext] structure Matrix33 (T : Type) where
  x0 : T
  x1 : T
  x2 : T
  x3 : T
  x4 : T
  x5 : T
  x6 : T
  x7 : T
  x8 : T

namespace Matrix33
variable {T : Type} [Add T] [Sub T] [Mul T] [Div T] [Neg T] [Flt T]

/-- `Index<usize> for Matrix33`, math.rs:359-369: `m[i][j]` for in-range indices (all indices used
in the crate are literals or loop counters below 3). -/
def get (m : Matrix33 T) : Fin 3 → Fin 3 → T
  | 0, 0 => m.x0 | 0, 1 => m.x1 | 0, 2 => m.x2
  | 1, 0 => m.x3 | 1, 1 => m.x4 | 1, 2 => m.x5
  | 2, 0 => m.x6 | 2, 1 => m.x7 | 2, 2 => m.x8

/-- build from an entry function -/
def ofFn (f : Fin 3 → Fin 3 → T) : Matrix33 T :=
  ⟨f 0 0, f 0 1, f 0 2, f 1 0, f 1 1, f 1 2, f 2 0, f 2 1, f 2 2⟩

/-- apply to all nine entries, `for s in m.x.iter_mut()` -/
def map (f : T → T) (m : Matrix33 T) : Matrix33 T :=
  ⟨f m.x0, f m.x1, f m.x2, f m.x3, f m.x4, f m.x5, f m.x6, f m.x7, f m.x8⟩

/-- do all nine entries satisfy the predicate -/
def all (p : T → Bool) (m : Matrix33 T) : Bool :=
  p m.x0 && p m.x1 && p m.x2 && p m.x3 && p m.x4 && p m.x5 && p m.x6 && p m.x7 && p m.x8

/-- `make_identity`, math.rs:157-171. -/
def identity : Matrix33 T := ⟨one, zero, zero, zero, one, zero, zero, zero, one⟩

/-- `transposed`, math.rs:179-185. -/
def transposed (m : Matrix33 T) : Matrix33 T :=
  ⟨m.get 0 0, m.get 1 0, m.get 2 0, m.get 0 1, m.get 1 1, m.get 2 1, m.get 0 2, m.get 1 2, m.get 2 2⟩

/-- `determinant`, math.rs:188-192. -/
def determinant (m : Matrix33 T) : T :=
  m.get 0 0 * (m.get 1 1 * m.get 2 2 - m.get 1 2 * m.get 2 1)
    + m.get 0 1 * (m.get 1 2 * m.get 2 0 - m.get 1 0 * m.get 2 2)
    + m.get 0 2 * (m.get 1 0 * m.get 2 1 - m.get 1 1 * m.get 2 0)

/-- `Mul for Matrix33`, math.rs:383-401: accumulation from zero in the order k = 0,1,2. -/
instance : Mul (Matrix33 T) :=
  ⟨fun a b => ofFn fun i j => [(0 : Fin 3), 1, 2].foldl (fun acc k => acc + a.get i k * b.get k j) zero⟩

/-- `Add<T> for Matrix33`, math.rs:403-421. -/
instance : HAdd (Matrix33 T) T (Matrix33 T) := ⟨fun m s => m.map (· + s)⟩
/-- `Sub<T> for Matrix33`, math.rs:424-443. -/
instance : HSub (Matrix33 T) T (Matrix33 T) := ⟨fun m s => m.map (· - s)⟩
/-- `Mul<T> for Matrix33`, math.rs:445-464. -/
instance : HMul (Matrix33 T) T (Matrix33 T) := ⟨fun m s => m.map (· * s)⟩
/-- `Div<T> for Matrix33`, math.rs:466-485. -/
instance : HDiv (Matrix33 T) T (Matrix33 T) := ⟨fun m s => m.map (· / s)⟩
/-- `Neg for Matrix33`, math.rs:487-498. -/
instance : Neg (Matrix33 T) := ⟨fun m => m.map (- ·)⟩

/-- `Mul<XYZ<T>> for Matrix33`, math.rs:500-513. -/
instance : HMul (Matrix33 T) (XYZ T) (XYZ T) :=
  ⟨fun m v => ⟨m.x0 * v.x + m.x1 * v.y + m.x2 * v.z,
    m.x3 * v.x + m.x4 * v.y + m.x5 * v.z,
    m.x6 * v.x + m.x7 * v.y + m.x8 * v.z⟩⟩

/-- `Mul<RGBf<T>> for Matrix33`, math.rs:515-528. -/
instance : HMul (Matrix33 T) (RGBf T) (RGBf T) :=
  ⟨fun m v => ⟨m.x0 * v.r + m.x1 * v.g + m.x2 * v.b,
    m.x3 * v.r + m.x4 * v.g + m.x5 * v.b,
    m.x6 * v.r + m.x7 * v.g + m.x8 * v.b⟩⟩

/-- The common scaling step of `inverse`, math.rs:285-298 and 316-329: divide all entries by `r`;
when `|r| < 1` give up on the first entry with `|s| ≥ |r| / min_positive`. The early `return None`
in the loop is modelled by testing all entries first (each test looks only at its own, not yet
divided, entry). -/
def scaleBy (s : Matrix33 T) (r : T) : Option (Matrix33 T) :=
  if ge (Flt.abs r) one then some (s.map (· / r))
  else
    let mr := Flt.abs r / minPos
    if s.all (fun e => gt mr (Flt.abs e)) then some (s.map (· / r)) else none

/-- The matrix of cofactors built by the general branch of `inverse`, math.rs:271-281. -/
def cofactors (m : Matrix33 T) : Matrix33 T :=
  ⟨m.get 1 1 * m.get 2 2 - m.get 2 1 * m.get 1 2,
   m.get 2 1 * m.get 0 2 - m.get 0 1 * m.get 2 2,
   m.get 0 1 * m.get 1 2 - m.get 1 1 * m.get 0 2,
   m.get 2 0 * m.get 1 2 - m.get 1 0 * m.get 2 2,
   m.get 0 0 * m.get 2 2 - m.get 2 0 * m.get 0 2,
   m.get 1 0 * m.get 0 2 - m.get 0 0 * m.get 1 2,
   m.get 1 0 * m.get 2 1 - m.get 2 0 * m.get 1 1,
   m.get 2 0 * m.get 0 1 - m.get 0 0 * m.get 2 1,
   m.get 0 0 * m.get 1 1 - m.get 1 0 * m.get 0 1⟩

/-- The branch condition of `inverse`, math.rs:270. Note the missing absolute values. -/
def generalPath (m : Matrix33 T) : Bool :=
  gt (m.get 0 2) epsilon || gt (m.get 1 2) epsilon || gt (Flt.abs (m.get 2 2 - one)) epsilon

/-- `inverse`, math.rs:269-336. -/
def inverse (m : Matrix33 T) : Option (Matrix33 T) :=
  if m.generalPath then
    let s := m.cofactors
    let r := m.get 0 0 * s.get 0 0 + m.get 0 1 * s.get 1 0 + m.get 0 2 * s.get 2 0
    s.scaleBy r
  else
    let s : Matrix33 T := ⟨m.get 1 1, -m.get 0 1, zero, -m.get 1 0, m.get 0 0, zero, zero, zero, one⟩
    let r := m.get 0 0 * m.get 1 1 - m.get 1 0 * m.get 0 1
    (s.scaleBy r).map fun s =>
      { s with
        x6 := -m.get 2 0 * s.get 0 0 - m.get 2 1 * s.get 1 0
        x7 := -m.get 2 0 * s.get 0 1 - m.get 2 1 * s.get 1 1 }

/-- row `j` minus `f` times row `i` (i ≠ j), the inner loops of math.rs:232-237 and 256-261; since
`i ≠ j` the in-place updates do not interfere. -/
def rowSub (m : Matrix33 T) (j i : Fin 3) (f : T) : Matrix33 T :=
  ofFn fun a b => if a = j then m.get j b - f * m.get i b else m.get a b

/-- swap rows `i` and `p`, math.rs:219-227 -/
def rowSwap (m : Matrix33 T) (i p : Fin 3) : Matrix33 T :=
  ofFn fun a b => if a = i then m.get p b else if a = p then m.get i b else m.get a b

/-- divide row `i` by `f`, math.rs:249-252 -/
def rowDiv (m : Matrix33 T) (i : Fin 3) (f : T) : Matrix33 T :=
  ofFn fun a b => if a = i then m.get i b / f else m.get a b

/-- One step of the pivot search, math.rs:204-210: it looks at `self`, not at the partially
eliminated matrix. -/
def pivotStep (m : Matrix33 T) (i : Fin 3) (st : Fin 3 × T) (j : Fin 3) : Fin 3 × T :=
  let tmp := Flt.abs (m.get j i)
  if gt tmp st.2 then (j, tmp) else st

/-- One forward elimination step, math.rs:200-239; the state is `(mtx_t, mtx_s)`. -/
def gjForward (m : Matrix33 T) (i : Fin 3) (below : List (Fin 3))
    (st : Matrix33 T × Matrix33 T) : Option (Matrix33 T × Matrix33 T) :=
  let (pivot, size) := below.foldl (m.pivotStep i) (i, Flt.abs (m.get i i))
  if eqb size zero then none
  else
    let st := if pivot ≠ i then (st.1.rowSwap i pivot, st.2.rowSwap i pivot) else st
    some (below.foldl (fun st j =>
      let f := st.1.get j i / st.1.get i i
      (st.1.rowSub j i f, st.2.rowSub j i f)) st)

/-- One backward substitution step, math.rs:242-263. -/
def gjBackward (i : Fin 3) (above : List (Fin 3))
    (st : Matrix33 T × Matrix33 T) : Option (Matrix33 T × Matrix33 T) :=
  let f := st.1.get i i
  if eqb f zero then none
  else
    let st := (st.1.rowDiv i f, st.2.rowDiv i f)
    some (above.foldl (fun st j =>
      let f := st.1.get j i
      (st.1.rowSub j i f, st.2.rowSub j i f)) st)

/-- `gj_inverse`, math.rs:195-266. -/
def gjInverse (m : Matrix33 T) : Option (Matrix33 T) := do
  let st ← m.gjForward 0 [1, 2] (m, identity)
  let st ← m.gjForward 1 [2] st
  let st ← gjBackward 2 [0, 1] st
  let st ← gjBackward 1 [0] st
  let st ← gjBackward 0 [] st
  some st.2

end Matrix33
end CS
