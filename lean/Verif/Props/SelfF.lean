import Verif.Lemmas.SelfEval
import Verif.Props.P3Srgb

/-!
# Converting a space to itself (C115)

`rgb_to_rgb(a, a, …)` decodes, multiplies by a matrix which ought to be the identity, and encodes again. The matrix is
not exactly the identity, so the question is which images nevertheless come out as they went in.
-/

namespace CS

/-! ### specification -/

/-- the space exists, and converting an 8-bit image from it to itself gives the same image: every output element is
written, the count is the length, and the output buffer then holds the input -/
def Spec.Same8 {f : Fmt} [Libm f] (r : Res (ColorSpaceRGB (FP f))) : Prop :=
  ∃ a, r = .ok a ∧ ∀ image out : List RGBu8, out.length = image.length →
    rgbToRgb RGBf.toU8 a a (image.map RGBu8.toF) out = .ok (image, image.length)

/-- the same for 16 bits -/
def Spec.Same16 {f : Fmt} [Libm f] (r : Res (ColorSpaceRGB (FP f))) : Prop :=
  ∃ a, r = .ok a ∧ ∀ image out : List RGBu16, out.length = image.length →
    rgbToRgb RGBf.toU16 a a (image.map RGBu16.toF) out = .ok (image, image.length)

/-! ### from matrices to images -/

theorem convLoop_same {T U : Type} (g : RGBf T → U) (h : U → RGBf T) (hg : ∀ c, g (h c) = c) :
    ∀ image out : List U, out.length = image.length → convLoop g out (image.map h) = (image, image.length)
  | [], [], _ => rfl
  | c :: image, o :: out, e => by
    have := convLoop_same g h hg image out (by simpa using e)
    simp [convLoop, this, hg]

section
variable {f : Fmt} [Libm f]

theorem near_move {m : Matrix33 (FP f)} {t : ℚ} (h : Spec.NearlyOne m t)
    (c : RGBf (FP f)) (hc : ∀ i, (rgbVec c i).isFinite = true ∧ |(rgbVec c i).val| ≤ 1.00001) (i : Fin 3) :
    (rgbVec (m * c) i).isFinite = true ∧
    |((rgbVec (m * c) i).val : ℝ) - (rgbVec c i).val| ≤ ((t * 1.00001 : ℚ) : ℝ) := by
  obtain ⟨a, b⟩ := h c 1.00001 (by norm_num) (by norm_num) hc i
  exact ⟨a, by exact_mod_cast b⟩

theorem same8_of {r : Res (ColorSpaceRGB (FP f))} {t : ℚ} (h : Spec.SelfNear r t)
    (hk : ∀ cs, r = .ok cs → Keeps8 (((t * 1.00001 : ℚ)) : ℝ) cs) : Spec.Same8 r := by
  obtain ⟨a, m, e, hm, hn⟩ := h
  refine ⟨a, e, fun image out hl => ?_⟩
  unfold rgbToRgb
  rw [hm]
  exact congrArg Except.ok (convLoop_same (fun c => (a.encode (m * a.decode c)).toU8) RGBu8.toF
    (hk a e _ (fun c hc i => near_move hn c hc i)) image out hl)

theorem same16_of {r : Res (ColorSpaceRGB (FP f))} {t : ℚ} (h : Spec.SelfNear r t)
    (hk : ∀ cs, r = .ok cs → Keeps16 (((t * 1.00001 : ℚ)) : ℝ) cs) : Spec.Same16 r := by
  obtain ⟨a, m, e, hm, hn⟩ := h
  refine ⟨a, e, fun image out hl => ?_⟩
  unfold rgbToRgb
  rw [hm]
  exact congrArg Except.ok (convLoop_same (fun c => (a.encode (m * a.decode c)).toU16) RGBu16.toF
    (hk a e _ (fun c hc i => near_move hn c hc i)) image out hl)

theorem srgb_keeps8 (hf : Std f) (hp : PowAccurate f) {δ : ℝ} (h0 : 0 ≤ δ) (h1 : δ ≤ 1.1e-4) :
    Keeps8 δ (Shipped.srgb (FP.ofQ f false)) := fun g hg c => by
  obtain ⟨enc, dec, h⟩ := srgb_curves hf hp (cs := Shipped.srgb (FP.ofQ f false)) rfl rfl h0 (h1.trans (by norm_num))
  exact h.u8 hf (by norm_num at h1 ⊢; linarith) g hg c

theorem gentle_keeps8 (hf : Std f) (hp : PowAccurate f) {δ : ℝ} (h0 : 0 ≤ δ) (h1 : δ ≤ 1 / 11000) :
    ∀ r ∈ Spec.gentle f, ∀ cs, r = .ok cs → Keeps8 δ cs := fun r hr cs e g hg c => by
  obtain ⟨enc, dec, h⟩ := gentle_curves hf hp h0 h1 r hr cs e
  exact h.u8 hf le_rfl g hg c

end

/-! ## C115 -/

/-- C115 [F]: the matrix from a shipped space to itself is the identity up to the stated tolerance, in f32. -/
theorem C115_near_f32 [L : Libm Fmt.b32] :
    ∀ r ∈ Spec.xyzTolerance Fmt.b32 7.1e-5 1.6e-5 2.3e-6 3.1e-7 5e-7, Spec.SelfNear r.1 r.2 :=
  self_of_check L wide_b32 (show ConvTable 24 57 (Tripb32.tabS.map Prod.fst) Tripb32.convs from Tripb32.convTable)
    Tripb32.selfs Tripb32.linkS

/-- C115 [F]: the matrix from a shipped space to itself is the identity up to the stated tolerance, in f64. -/
theorem C115_near_f64 [L : Libm Fmt.b64] :
    ∀ r ∈ Spec.xyzTolerance Fmt.b64 7e-5 1.5e-5 2.1e-6 1.1e-10 8e-16, Spec.SelfNear r.1 r.2 :=
  self_of_check L wide_b64 (show ConvTable 53 116 (Tripb64.tabS.map Prod.fst) Tripb64.convs from Tripb64.convTable)
    Tripb64.selfs Tripb64.linkS

/-- Not vacuous: the lists hold all ten spaces. -/
example [Libm Fmt.b32] : (Spec.xyzTolerance Fmt.b32 7.1e-5 1.6e-5 2.3e-6 3.1e-7 5e-7).length = 10 := rfl

theorem srgb_tol {f : Fmt} [Libm f] {a b c d e : ℚ} : (Spec.srgb f, a) ∈ Spec.xyzTolerance f a b c d e := by
  simp only [Spec.xyzTolerance, Spec.srgb, List.mem_cons, true_or]

/-- C115 [F]: converting an 8-bit image from sRGB, SRGB_DRV, BT.709, BT.2020, ACES or ACEScg to the same space leaves it
as it is, in f32. -/
theorem C115_same8_f32 [Libm Fmt.b32] (hp : PowAccurate Fmt.b32) :
    ∀ r ∈ Spec.srgb Fmt.b32 :: Spec.gentle Fmt.b32, Spec.Same8 r := by
  intro r hr
  rcases List.mem_cons.1 hr with rfl | hr
  · exact same8_of (C115_near_f32 _ srgb_tol) (fun cs e => by
      cases e
      exact srgb_keeps8 std_b32 hp (by norm_num) (by norm_num))
  · obtain ⟨t, ht, hm⟩ := gentle_tol (a := 7.1e-5) (b := 1.6e-5) (c := 2.3e-6) (d := 3.1e-7) (e := 5e-7) hr
    refine same8_of (C115_near_f32 _ hm) (gentle_keeps8 std_b32 hp ?_ ?_ r hr)
    · rcases ht with rfl | rfl <;> norm_num
    · rcases ht with rfl | rfl <;> norm_num

/-- C115 [F]: the same in f64. -/
theorem C115_same8_f64 [Libm Fmt.b64] (hp : PowAccurate Fmt.b64) :
    ∀ r ∈ Spec.srgb Fmt.b64 :: Spec.gentle Fmt.b64, Spec.Same8 r := by
  intro r hr
  rcases List.mem_cons.1 hr with rfl | hr
  · exact same8_of (C115_near_f64 _ srgb_tol) (fun cs e => by
      cases e
      exact srgb_keeps8 std_b64 hp (by norm_num) (by norm_num))
  · obtain ⟨t, ht, hm⟩ := gentle_tol (a := 7e-5) (b := 1.5e-5) (c := 2.1e-6) (d := 1.1e-10) (e := 8e-16) hr
    refine same8_of (C115_near_f64 _ hm) (gentle_keeps8 std_b64 hp ?_ ?_ r hr)
    · rcases ht with rfl | rfl <;> norm_num
    · rcases ht with rfl | rfl <;> norm_num

/-- C115 [F]: converting a 16-bit image from ACES or ACEScg to the same space leaves it as it is, in f32 and f64. -/
theorem C115_same16_linear [Libm Fmt.b32] [Libm Fmt.b64] :
    (∀ r ∈ Spec.linears Fmt.b32, Spec.Same16 r) ∧ (∀ r ∈ Spec.linears Fmt.b64, Spec.Same16 r) := by
  constructor
  · intro r hr
    obtain ⟨t, ht, hm⟩ := linears_tol (a := 7.1e-5) (b := 1.6e-5) (c := 2.3e-6) (d := 3.1e-7) (e := 5e-7) hr
    refine same16_of (C115_near_f32 _ hm) (fun cs e => (linear_any std_b32 r hr cs e).mono ?_)
    rcases ht with rfl | rfl <;> norm_num
  · intro r hr
    obtain ⟨t, ht, hm⟩ := linears_tol (a := 7e-5) (b := 1.5e-5) (c := 2.1e-6) (d := 1.1e-10) (e := 8e-16) hr
    refine same16_of (C115_near_f64 _ hm) (fun cs e => (linear_any std_b64 r hr cs e).mono ?_)
    rcases ht with rfl | rfl <;> norm_num

/-- C115 [F]: converting a 16-bit image from SRGB_DRV to itself leaves it as it is, in f64. -/
theorem C115_same16_srgbDrv [Libm Fmt.b64] (hp : PowAccurate Fmt.b64) :
    Spec.Same16 (Shipped.srgbDrv (FP.ofQ Fmt.b64 false)) := by
  have hr : Shipped.srgbDrv (FP.ofQ Fmt.b64 false) ∈ Spec.derived Fmt.b64 := by
    simp only [Spec.derived, List.mem_cons, true_or]
  refine same16_of (C115_near_f64 _ (derived_tol hr)) (fun cs e => ?_)
  obtain ⟨a, b⟩ := new_curves e
  exact (srgb_keeps16 hp a b).mono (by norm_num)

/-- C115 [F]: converting an 8-bit or a 16-bit DCI-P3 image to the same space leaves it as it is, in f64. -/
theorem C115_same_dci [Libm Fmt.b64] (hp : PowAccurate Fmt.b64) (hm : PowMonotone Fmt.b64)
    (hn : PowNegative Fmt.b64) : ∀ r ∈ Spec.dcis Fmt.b64, Spec.Same8 r ∧ Spec.Same16 r := by
  intro r hr
  have hk := dci_keeps hp hm hn r hr
  exact ⟨same8_of (C115_near_f64 _ (derived_tol (dcis_derived hr))) (fun cs e => (hk cs e).2.mono (by norm_num)),
    same16_of (C115_near_f64 _ (derived_tol (dcis_derived hr))) (fun cs e => (hk cs e).1.mono (by norm_num))⟩

/-- Not vacuous: there is a library that meets all hypotheses. -/
example : letI := strictLibm Fmt.b64
    PowAccurate Fmt.b64 ∧ PowMonotone Fmt.b64 ∧ PowNegative Fmt.b64 := strict_facts std_b64

end CS
