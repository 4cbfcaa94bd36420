import Verif.Lemmas.FPWhole
import Verif.Props.SpragueF
import Verif.Props.Overshoot
import Verif.Props.OffGrid

/-! Spectra on whole-nanometre grids in floating point: the float spectrum and the exact one side by side. -/

namespace CS

section
variable {f : Fmt}

/-- the float sample `p` is at exactly the wavelength of the exact sample `q`, and its value within `e` -/
structure Spec.NearSample (e : ℝ) (p : Sample (FP f)) (q : Sample ℝ) : Prop where
  nm_fin : p.nm.isFinite = true
  nm : (p.nm.val : ℝ) = q.nm
  v_fin : p.v.isFinite = true
  v : |(p.v.val : ℝ) - q.v| ≤ e

/-- the same finite number, as a float and exactly -/
def Spec.SameNum (x : FP f) (X : ℝ) : Prop := x.isFinite = true ∧ (x.val : ℝ) = X

/-- the same sampling interval, as floats and exactly -/
def Spec.SameInterval : Interval (FP f) → Interval ℝ → Prop
  | .uniform a, .uniform b => Spec.SameNum a b
  | .varying, .varying => True
  | _, _ => False

/-- the same shape, as floats and exactly -/
structure Spec.SameShape (s : SpdShape (FP f)) (S : SpdShape ℝ) : Prop where
  start : Spec.SameNum s.start S.start
  stop : Spec.SameNum s.end S.end
  interval : Spec.SameInterval s.interval S.interval

/-- the float spectrum `s` has exactly the wavelengths and the shape of the exact spectrum `S`, and values
within `e` -/
structure Spec.Tracks (e : ℝ) (s : VSPD (FP f)) (S : VSPD ℝ) : Prop where
  samples : List.Forall₂ (Spec.NearSample e) s.samples S.samples
  shape : Spec.SameShape s.shape S.shape

/-- an exact spectrum sampled at whole wavelengths, increasing, at least six, with the range it reports -/
structure Spec.WholeGrid (S : VSPD ℝ) : Prop where
  six : 6 ≤ S.samples.length
  whole : ∀ p ∈ S.samples, ∃ n : ℕ, n ≤ 2 ^ 20 ∧ p.nm = n
  asc : S.wavelengths.Pairwise (· < ·)
  start : S.samples.head?.map Sample.nm = some S.shape.start
  stop : S.samples.getLast?.map Sample.nm = some S.shape.end

theorem Spec.SameNum.whole {x : FP f} {n : ℕ} (h : Spec.SameNum x (n : ℝ)) : Whole x n :=
  ⟨h.1, by have := h.2; exact_mod_cast this⟩

theorem Whole.sameNum {x : FP f} {n : ℕ} (h : Whole x n) : Spec.SameNum x (n : ℝ) := ⟨h.fin, h.real⟩

theorem Spec.SameNum.lt {x y : FP f} {X Y : ℝ} (hx : Spec.SameNum x X) (hy : Spec.SameNum y Y) :
    FP.lt x y = decide (X < Y) := by
  rw [FP.lt_finite hx.1 hy.1, ← hx.2, ← hy.2]
  simp

theorem Spec.SameNum.le {x y : FP f} {X Y : ℝ} (hx : Spec.SameNum x X) (hy : Spec.SameNum y Y) :
    FP.le x y = decide (X ≤ Y) := by
  rw [FP.le_finite hx.1 hy.1, ← hx.2, ← hy.2]
  simp

theorem Spec.SameInterval.inv {a : Interval (FP f)} {I : ℝ} (h : Spec.SameInterval a (.uniform I)) :
    ∃ i, a = .uniform i ∧ Spec.SameNum i I := by
  cases a with
  | uniform i => exact ⟨i, rfl, h⟩
  | varying => exact h.elim

/-- the exact grid, enumerated -/
theorem wavelengths_whole (lo hi i : ℕ) (hi0 : 0 < i) (hle : lo ≤ hi) (hb : hi ≤ 2 ^ 20) :
    (SpdShape.new (lo : ℝ) hi i).wavelengths =
      .ok ((List.range ((hi - lo) / i + 1)).map fun k : ℕ => ((lo + k * i : ℕ) : ℝ)) := by
  have hn : Flt.toUsize (((SpdShape.new (lo : ℝ) hi i).end - (SpdShape.new (lo : ℝ) hi i).start) / (i : ℝ))
      = some ((hi - lo) / i) := by
    show Flt.toUsize (((hi : ℝ) - lo) / i) = _
    have e1 : ((hi : ℝ) - lo) / i = (((hi - lo : ℕ) : ℚ) / ((i : ℕ) : ℚ) : ℚ) := by
      rw [Nat.cast_sub hle]; push_cast; ring
    have e2 : ⌊((hi : ℝ) - lo) / i⌋ = (((hi - lo) / i : ℕ) : ℤ) := by
      rw [e1, Rat.floor_cast]
      exact Rat.floor_natCast_div_natCast (hi - lo) i
    have q0 : (0:ℝ) ≤ ((hi : ℝ) - lo) / i := by
      apply div_nonneg _ (by positivity)
      have : (lo : ℝ) ≤ hi := by exact_mod_cast hle
      linarith
    have q1 : ((hi : ℝ) - lo) / i < 2 ^ 64 := by
      rw [div_lt_iff₀ (by exact_mod_cast hi0)]
      have h1 : (hi : ℝ) ≤ 2 ^ 20 := by exact_mod_cast hb
      have h2 : (1 : ℝ) ≤ i := by exact_mod_cast hi0
      have h3 : (0 : ℝ) ≤ lo := by positivity
      nlinarith
    rw [flt_toUsize, if_pos ⟨by linarith, q1⟩]
    congr 1
    rw [← Int.toNat_natCast ((hi - lo) / i), ← e2]
    rfl
  rw [(C37_enumerates (SpdShape.new (lo : ℝ) hi i) (i : ℝ) _ rfl hn).2]
  congr 1
  refine List.map_congr_left fun k _ => ?_
  simp [SpdShape.new]

variable [Libm f]

/-- the float grid, enumerated -/
theorem wavelengths_whole_fp (hf : Std f) (sh : SpdShape (FP f)) (i' : FP f) (lo hi i : ℕ) (hi0 : 0 < i)
    (hle : lo ≤ hi) (hb : hi ≤ 2 ^ 20) (hib : i ≤ 2 ^ 20) (hs : Whole sh.start lo) (he : Whole sh.end hi)
    (hi' : sh.interval = .uniform i') (hii : Whole i' i) :
    sh.wavelengths = .ok ((List.range ((hi - lo) / i + 1)).map fun k : ℕ => sh.start + Flt.ofNat k * i') ∧
    ∀ k : ℕ, k ≤ (hi - lo) / i → Whole (sh.start + Flt.ofNat k * i') (lo + k * i) := by
  refine ⟨(C37_enumerates sh i' _ hi' ?_).2, fun k hk => ?_⟩
  · exact Whole.toUsize hf (he.sub hf hs hle (by omega)) hii hi0 (by omega) (by omega)
  · have h1 : k * i ≤ hi - lo := le_trans (Nat.mul_le_mul_right _ hk) (Nat.div_mul_le_self _ _)
    have h2 : k ≤ hi - lo := hk.trans (Nat.div_le_self _ _)
    exact hs.add hf ((Whole.ofNat hf k (by omega)).mul hf hii (by omega)) (by omega)

end
end CS
