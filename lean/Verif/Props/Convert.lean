import Verif.Model.Convert
import Verif.Props.Space
import Verif.Props.Cat

/-!
# Converting an image in one call or step by step (C121)

The two example programs convert the same images, one with `rgb_to_rgb`, the other through XYZ.
-/

namespace CS

/-! ### specification -/

/-- pixel `i` of an image given as bytes -/
def Spec.pixelAt (bytes : List UInt8) (i : ℕ) : Option RGBu8 :=
  match bytes[3 * i]?, bytes[3 * i + 1]?, bytes[3 * i + 2]? with
  | some r, some g, some b => some ⟨r, g, b⟩
  | _, _, _ => none

/-- `out` is `bytes` with each whole pixel replaced by its image under `g`, and nothing else -/
def Spec.PixelByPixel (g : RGBu8 → RGBu8) (bytes out : List UInt8) : Prop :=
  out.length = 3 * (bytes.length / 3) ∧ ∀ i, Spec.pixelAt out i = (Spec.pixelAt bytes i).map g

/-! ### proofs -/

theorem pixelAt_cons (r g b : UInt8) (l : List UInt8) (i : ℕ) :
    Spec.pixelAt (r :: g :: b :: l) (i + 1) = Spec.pixelAt l i := by
  unfold Spec.pixelAt
  rw [show 3 * (i + 1) = 3 * i + 1 + 1 + 1 by ring, show 3 * i + 1 + 1 + 1 + 1 = 3 * i + 1 + 1 + 1 + 1 by ring,
    show 3 * i + 1 + 1 + 1 + 2 = 3 * i + 2 + 1 + 1 + 1 by ring]
  simp only [List.getElem?_cons_succ]

theorem pixelAt_zero (r g b : UInt8) (l : List UInt8) :
    Spec.pixelAt (r :: g :: b :: l) 0 = some ⟨r, g, b⟩ := rfl

theorem pixelByPixel_group (g : RGBu8 → RGBu8) : ∀ bytes : List UInt8,
    Spec.PixelByPixel g bytes (pixelBytes ((group3 RGBu8.mk bytes).map g))
  | [] => ⟨rfl, fun _ => rfl⟩
  | [a] => ⟨by simp [group3, pixelBytes], fun i => by cases i <;> simp [Spec.pixelAt, group3, pixelBytes]⟩
  | [a, b] => ⟨by simp [group3, pixelBytes], fun i => by
      rcases i with _ | _ | i <;> simp [Spec.pixelAt, group3, pixelBytes]⟩
  | a :: b :: c :: rest => by
      obtain ⟨h1, h2⟩ := pixelByPixel_group g rest
      have e : pixelBytes ((group3 RGBu8.mk (a :: b :: c :: rest)).map g) =
          (g ⟨a, b, c⟩).r :: (g ⟨a, b, c⟩).g :: (g ⟨a, b, c⟩).b ::
            pixelBytes ((group3 RGBu8.mk rest).map g) := rfl
      rw [e]
      refine ⟨?_, fun i => ?_⟩
      · simp only [List.length_cons, h1]; omega
      · cases i with
        | zero => rfl
        | succ i => rw [pixelAt_cons, pixelAt_cons, h2 i]

theorem pixelByPixel_unique {g : RGBu8 → RGBu8} {bytes o o' : List UInt8}
    (h : Spec.PixelByPixel g bytes o) (h' : Spec.PixelByPixel g bytes o') : o = o' := by
  have hl : o.length = o'.length := h.1.trans h'.1.symm
  refine List.ext_getElem hl fun n hn hn' => ?_
  have hi := (h.2 (n / 3)).trans (h'.2 (n / 3)).symm
  have l0 : 3 * (n / 3) + 2 < o.length := by rw [h.1] at hn ⊢; omega
  have l1 : 3 * (n / 3) + 2 < o'.length := by rw [← hl]; exact l0
  unfold Spec.pixelAt at hi
  rw [List.getElem?_eq_getElem (by omega), List.getElem?_eq_getElem (by omega),
    List.getElem?_eq_getElem l0, List.getElem?_eq_getElem (by omega),
    List.getElem?_eq_getElem (by omega), List.getElem?_eq_getElem l1] at hi
  simp only [Option.some.injEq, RGBu8.mk.injEq] at hi
  obtain ⟨k0, k1, k2⟩ := hi
  have : n = 3 * (n / 3) ∨ n = 3 * (n / 3) + 1 ∨ n = 3 * (n / 3) + 2 := by omega
  rcases this with e | e | e
  · have := k0; simp only [← e] at this; exact this
  · have := k1; simp only [← e] at this; exact this
  · have := k2; simp only [← e] at this; exact this

section
variable {T : Type} [Add T] [Sub T] [Mul T] [Div T] [Neg T] [Flt T]

omit [Add T] [Sub T] [Mul T] [Neg T] in
theorem readPixels_map (bytes : List UInt8) :
    (readPixels bytes : List (RGBf T)) = (group3 RGBu8.mk bytes).map RGBu8.toF := by
  unfold readPixels
  fun_induction group3 (fun r g b => (⟨unquant8 r, unquant8 g, unquant8 b⟩ : RGBf T)) bytes with
  | case1 a b c rest ih => rw [ih]; rfl
  | case2 l h =>
    match l, h with
    | [], _ => rfl
    | [_], _ => rfl
    | [_, _], _ => rfl
    | a :: b :: c :: r, h => exact absurd rfl (h a b c r)

omit [Add T] [Sub T] [Mul T] [Div T] [Neg T] [Flt T] in
theorem convLoop_all {U : Type} (g : RGBf T → U) (z : U) : ∀ l : List (RGBf T),
    (convLoop g (List.replicate l.length z) l).1 = l.map g
  | [] => rfl
  | c :: l => by
    show g c :: (convLoop g (List.replicate l.length z) l).1 = _
    rw [convLoop_all g z l]; rfl

theorem convertDirect_eq {src dst : ColorSpaceRGB T} {m : Matrix33 T} (h : rgbToRgbMatrix src dst = .ok m)
    (bytes : List UInt8) : convertDirect src dst bytes = .ok (pixelBytes ((group3 RGBu8.mk bytes).map
      fun p => (dst.encode (m * src.decode p.toF)).toU8)) := by
  unfold convertDirect rgbToRgb
  rw [h]
  show Except.ok (pixelBytes (convLoop _ _ _).1) = _
  rw [convLoop_all, readPixels_map, List.map_map]
  rfl

theorem convertSteps_eq {src dst : ColorSpaceRGB T} {A B : Matrix33 T}
    (hB : rgbToXyzMatrix src.white src = .ok B) (hA : xyzToRgbMatrix src.white dst = .ok A)
    (bytes : List UInt8) : convertSteps src dst bytes = .ok (pixelBytes ((group3 RGBu8.mk bytes).map
      fun p => (dst.encode (xyzToRgb A (rgbToXyz B (src.decode p.toF)))).toU8)) := by
  unfold convertSteps
  rw [hB, hA]
  show Except.ok (pixelBytes _) = _
  rw [readPixels_map, List.map_map, List.map_map]
  rfl

/-- C121 [G]: both programs work pixel by pixel. The output has three bytes for every whole pixel of the
input, in the same order, and each depends on its own pixel only: in the first program it is decoded,
multiplied by the matrix of `rgb_to_rgb_matrix`, encoded and rounded; in the second it is decoded, taken
to XYZ and to the other space by the two matrices, encoded and rounded. If a matrix cannot be built the
program panics in the same way. -/
theorem C121_pixelwise (src dst : ColorSpaceRGB T) (bytes : List UInt8) :
    (∀ m, rgbToRgbMatrix src dst = .ok m → ∃ out, convertDirect src dst bytes = .ok out ∧
      Spec.PixelByPixel (fun p => (dst.encode (m * src.decode p.toF)).toU8) bytes out) ∧
    (∀ A B, rgbToXyzMatrix src.white src = .ok B → xyzToRgbMatrix src.white dst = .ok A →
      ∃ out, convertSteps src dst bytes = .ok out ∧
      Spec.PixelByPixel (fun p => (dst.encode (xyzToRgb A (rgbToXyz B (src.decode p.toF)))).toU8)
        bytes out) ∧
    (∀ e, rgbToRgbMatrix src dst = .error e → convertDirect src dst bytes = .error e) ∧
    (∀ e, rgbToXyzMatrix src.white src = .error e ∨ (∃ B, rgbToXyzMatrix src.white src = .ok B) ∧
      xyzToRgbMatrix src.white dst = .error e → convertSteps src dst bytes = .error e) := by
  refine ⟨fun m h => ⟨_, convertDirect_eq h bytes, pixelByPixel_group _ _⟩,
    fun A B hB hA => ⟨_, convertSteps_eq hB hA bytes, pixelByPixel_group _ _⟩, fun e h => ?_, ?_⟩
  · unfold convertDirect rgbToRgb; rw [h]; rfl
  · rintro e (h | ⟨⟨B, hB⟩, h⟩)
    · unfold convertSteps; rw [h]; rfl
    · unfold convertSteps; rw [hB, h]; rfl
end

/-- C121 [R]: in exact arithmetic the two programs write the same bytes, for every image and every pair of
colour spaces, and panic for the same pairs. -/
theorem C121_same (src dst : ColorSpaceRGB ℝ) (bytes : List UInt8) :
    convertDirect src dst bytes = convertSteps src dst bytes := by
  have hB : rgbToXyzMatrix src.white src = .ok (Matrix33.identity * src.xf_rgb_to_xyz) := by
    unfold rgbToXyzMatrix; rw [(C15_equal_whites_real _).1]; rfl
  cases hc : cat02 (XYZ.fromChromaticity src.white) (XYZ.fromChromaticity dst.white) with
  | error e =>
    have hA : xyzToRgbMatrix src.white dst = .error e := by unfold xyzToRgbMatrix; rw [hc]; rfl
    have hD : rgbToRgbMatrix src dst = .error e := by unfold rgbToRgbMatrix; rw [hc]; rfl
    rw [(C121_pixelwise src dst bytes).2.2.1 e hD,
      (C121_pixelwise src dst bytes).2.2.2 e (Or.inr ⟨⟨_, hB⟩, hA⟩)]
  | ok c =>
    have hA : xyzToRgbMatrix src.white dst = .ok (dst.xf_xyz_to_rgb * c) := by
      unfold xyzToRgbMatrix; rw [hc]; rfl
    have hD : rgbToRgbMatrix src dst = .ok (dst.xf_xyz_to_rgb * c * src.xf_rgb_to_xyz) := by
      unfold rgbToRgbMatrix; rw [hc]; rfl
    rw [convertDirect_eq hD, convertSteps_eq hB hA]
    have key : ∀ v : RGBf ℝ, xyzToRgb (dst.xf_xyz_to_rgb * c) (rgbToXyz (Matrix33.identity * src.xf_rgb_to_xyz) v)
        = dst.xf_xyz_to_rgb * c * src.xf_rgb_to_xyz * v := by
      intro v
      rw [m33_one_mul, m33_mul_mulR]
      generalize dst.xf_xyz_to_rgb * c = M
      have e : ∀ x : ℝ, x * 100 / 100 = x := fun x => by ring
      unfold xyzToRgb rgbToXyz
      generalize src.xf_rgb_to_xyz * v = w
      have hw : (⟨w.r, w.g, w.b⟩ : XYZ ℝ) * XYZ.fromScalar (Flt.lit 100.0 : ℝ) / XYZ.fromScalar (Flt.lit 100.0 : ℝ) =
          ⟨w.r, w.g, w.b⟩ := by
        have h100 : (Flt.lit 100.0 : ℝ) = 100 := by rw [flt_lit]; norm_num
        rw [h100]
        show (⟨w.r * 100 / 100, w.g * 100 / 100, w.b * 100 / 100⟩ : XYZ ℝ) = _
        rw [e, e, e]
      rw [hw]
      rfl
    simp only [key]

/-- The specification by example: two pixels and a stray byte, with red and blue exchanged. -/
example : Spec.PixelByPixel (fun p => ⟨p.b, p.g, p.r⟩) [1, 2, 3, 4, 5, 6, 7] [3, 2, 1, 6, 5, 4] := by
  have := pixelByPixel_group (fun p => ⟨p.b, p.g, p.r⟩) [1, 2, 3, 4, 5, 6, 7]
  exact this

/-- Not vacuous: the matrices of C121_pixelwise exist, here for one space on both sides. -/
example (cs : ColorSpaceRGB ℝ) : (∃ m, rgbToRgbMatrix cs cs = .ok m) ∧ (∃ B, rgbToXyzMatrix cs.white cs = .ok B) ∧
    ∃ A, xyzToRgbMatrix cs.white cs = .ok A := by
  have h := (C15_equal_whites_real (XYZ.fromChromaticity cs.white)).1
  refine ⟨⟨_, by unfold rgbToRgbMatrix; rw [h]; rfl⟩, ⟨_, by unfold rgbToXyzMatrix; rw [h]; rfl⟩,
    ⟨_, by unfold xyzToRgbMatrix; rw [h]; rfl⟩⟩

end CS
