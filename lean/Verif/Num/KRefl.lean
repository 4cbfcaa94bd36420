import Verif.Num.FP
import Lean

/-!
# Kernel evaluation of closed IEEE computations

`krefl` closes a goal `b = true` with the proof term `Eq.refl true`, leaving the conversion check
entirely to the kernel (the elaborator does not evaluate `b`). It is `decide +kernel` for goals that
still mention an arbitrary `Libm` instance which the computation never consults.
-/

namespace CS

open Lean Elab Tactic in
/-- close `b = true` by kernel conversion -/
elab "krefl" : tactic => do
  let g ← getMainGoal
  g.assign (mkApp2 (mkConst ``Eq.refl [1]) (mkConst ``Bool) (mkConst ``Bool.true))
  replaceMainGoal []

/-- the binary64 constants 0 and 1 -/
def FP.zero64 : FP Fmt.b64 := .fin 0 (by decide +kernel)
def FP.one64 : FP Fmt.b64 := .fin 1 (by decide +kernel)

end CS
