import Verif.Lemmas.ViaEval64
import Verif.Lemmas.ViaEval32

/-!
# Greys and detours in floating point (C109)
-/

namespace CS

/-- C109 [F]: in f64, converting linear RGB between any two shipped spaces keeps greys grey: every component of the
converted grey is the grey itself, to within the sum of the two spaces' tolerances: 1.75e-4 for sRGB, 2.8e-5 for
Adobe RGB, 1.4e-6 for Alexa Wide Gamut, 2.5e-10 for ACES, 3e-15 for the spaces derived from primaries. -/
theorem C109_grey_f64 [L : Libm Fmt.b64] :
    ∀ r ∈ Spec.xyzTolerance Fmt.b64 1.75e-4 2.8e-5 1.4e-6 2.5e-10 3e-15,
    ∀ s ∈ Spec.xyzTolerance Fmt.b64 1.75e-4 2.8e-5 1.4e-6 2.5e-10 3e-15, Spec.PairGrey r.1 s.1 (r.2 + s.2) :=
  grey_of_check L wide_b64 Tripb64.convTable Tripb64.greys Tripb64.linkG

/-- C109 [F]: the same in f32. -/
theorem C109_grey_f32 [L : Libm Fmt.b32] :
    ∀ r ∈ Spec.xyzTolerance Fmt.b32 1.75e-4 2.8e-5 1.5e-6 7e-7 8e-7,
    ∀ s ∈ Spec.xyzTolerance Fmt.b32 1.75e-4 2.8e-5 1.5e-6 7e-7 8e-7, Spec.PairGrey r.1 s.1 (r.2 + s.2) :=
  grey_of_check L wide_b32 Tripb32.convTable Tripb32.greys Tripb32.linkG

/-- C109 [F]: in f64, converting linear RGB from any shipped space to any other by way of a third gives what the
direct conversion gives, to within the tolerance of the space in the middle (1e-4 for sRGB, 2.4e-5 for Adobe RGB,
4.1e-6 for Alexa Wide Gamut, 2.2e-10 for ACES, 7e-15 for the derived spaces) times the largest component. -/
theorem C109_detour_f64 [L : Libm Fmt.b64] :
    ∀ r ∈ Spec.xyzTolerance Fmt.b64 1e-4 2.4e-5 4.1e-6 2.2e-10 7e-15,
    ∀ s ∈ Spec.xyzTolerance Fmt.b64 1e-4 2.4e-5 4.1e-6 2.2e-10 7e-15,
    ∀ t ∈ Spec.xyzTolerance Fmt.b64 1e-4 2.4e-5 4.1e-6 2.2e-10 7e-15, Spec.Via r.1 s.1 t.1 s.2 :=
  via_of_check L wide_b64 Tripb64.convTable Tripb64.vias Tripb64.linkV

/-- C109 [F]: the same in f32. -/
theorem C109_detour_f32 [L : Libm Fmt.b32] :
    ∀ r ∈ Spec.xyzTolerance Fmt.b32 1.01e-4 2.7e-5 7.3e-6 3.5e-6 3.7e-6,
    ∀ s ∈ Spec.xyzTolerance Fmt.b32 1.01e-4 2.7e-5 7.3e-6 3.5e-6 3.7e-6,
    ∀ t ∈ Spec.xyzTolerance Fmt.b32 1.01e-4 2.7e-5 7.3e-6 3.5e-6 3.7e-6, Spec.Via r.1 s.1 t.1 s.2 :=
  via_of_check L wide_b32 Tripb32.convTable Tripb32.vias Tripb32.linkV

/-- Not vacuous: mid-grey and white in f32, and a colour with `M = 1`. -/
example : (dyadic Fmt.b32 1 1).isFinite = true ∧ (1:ℚ) / 2 ^ 90 ≤ |(dyadic Fmt.b32 1 1).val| ∧
    |(dyadic Fmt.b32 1 1).val| ≤ 2 ^ 100 ∧
    (∀ i, (rgbVec (⟨dyadic Fmt.b32 1 1, dyadic Fmt.b32 1 0, dyadic Fmt.b32 3 2⟩ : RGBf (FP Fmt.b32)) i).isFinite = true ∧
      |(rgbVec (⟨dyadic Fmt.b32 1 1, dyadic Fmt.b32 1 0, dyadic Fmt.b32 3 2⟩ : RGBf (FP Fmt.b32)) i).val| ≤ 1) := by
  refine ⟨by krefl, of_decide_eq_true (by krefl), of_decide_eq_true (by krefl), ?_⟩
  simp only [Fin.forall_fin_succ, IsEmpty.forall_iff, and_true]
  exact of_decide_eq_true (by krefl)

end CS
