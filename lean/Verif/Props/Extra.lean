import Verif.Model.Extra
import Verif.Lemmas.FPCast
import Verif.Lemmas.ColorOps
import Verif.Lemmas.Matrix
import Verif.Num.Real
import Verif.Num.KRefl
import Mathlib.Tactic.IntervalCases

/-!
# Operators, narrowing conversions, approximate comparison (C73, C74, C75)
-/

namespace CS

section
variable {T : Type}

/-- `c` has, at every index, the result of `op` on what `a` and `b` have there; where reading one of
them panics, reading `c` panics. -/
def Spec.Comp2 (op : T → T → T) (a b c : ℕ → Res T) : Prop :=
  ∀ i, c i = do let x ← a i; let y ← b i; .ok (op x y)

/-- the same for one operand -/
def Spec.Comp1 (op : T → T) (a c : ℕ → Res T) : Prop := ∀ i, c i = do let x ← a i; .ok (op x)

theorem row_panics (m : Matrix33 T) (i : ℕ) (hi : 3 ≤ i) : m.row i = .error .index := by
  unfold Matrix33.row
  rw [if_neg (by simp; omega)]

theorem entry_panics (m : Matrix33 T) (i j : ℕ) (h : 3 ≤ i ∨ 3 ≤ j) : m.entry i j = .error .index := by
  match i, j, h with
  | 0, j + 3, _ => rfl
  | 1, j + 3, _ => rfl
  | 2, j + 3, _ => rfl
  | i + 3, j, _ =>
    unfold Matrix33.entry
    rw [row_panics m _ (by omega)]
    rfl

/-- a scalar operand stands for itself at every index -/
def Spec.scalar (s : T) : ℕ → Res T := fun _ => .ok s

end

section
variable {T : Type} [Add T] [Sub T] [Mul T] [Div T] [Neg T] [Flt T]

theorem rgb_comp2 (op : T → T → T) (a b c : RGBf T) (h0 : c.r = op a.r b.r) (h1 : c.g = op a.g b.g)
    (h2 : c.b = op a.b b.b) : Spec.Comp2 op a.index b.index c.index := by
  rintro (_ | _ | _ | i)
  · show Except.ok c.r = _; rw [h0]; rfl
  · show Except.ok c.g = _; rw [h1]; rfl
  · show Except.ok c.b = _; rw [h2]; rfl
  · rfl

theorem rgb_scalar (op : T → T → T) (a : RGBf T) (s : T) (c : RGBf T) (h0 : c.r = op a.r s)
    (h1 : c.g = op a.g s) (h2 : c.b = op a.b s) : Spec.Comp2 op a.index (Spec.scalar s) c.index := by
  rintro (_ | _ | _ | i)
  · show Except.ok c.r = _; rw [h0]; rfl
  · show Except.ok c.g = _; rw [h1]; rfl
  · show Except.ok c.b = _; rw [h2]; rfl
  · rfl

theorem rgb_left (op : T → T → T) (a : RGBf T) (s : T) (c : RGBf T) (h0 : c.r = op s a.r)
    (h1 : c.g = op s a.g) (h2 : c.b = op s a.b) : Spec.Comp2 op (Spec.scalar s) a.index c.index := by
  rintro (_ | _ | _ | i)
  · show Except.ok c.r = _; rw [h0]; rfl
  · show Except.ok c.g = _; rw [h1]; rfl
  · show Except.ok c.b = _; rw [h2]; rfl
  · rfl

theorem rgb_comp1 (op : T → T) (a c : RGBf T) (h0 : c.r = op a.r) (h1 : c.g = op a.g)
    (h2 : c.b = op a.b) : Spec.Comp1 op a.index c.index := by
  rintro (_ | _ | _ | i)
  · show Except.ok c.r = _; rw [h0]; rfl
  · show Except.ok c.g = _; rw [h1]; rfl
  · show Except.ok c.b = _; rw [h2]; rfl
  · rfl

theorem xyz_comp2 (op : T → T → T) (a b c : XYZ T) (h0 : c.x = op a.x b.x) (h1 : c.y = op a.y b.y)
    (h2 : c.z = op a.z b.z) : Spec.Comp2 op a.index b.index c.index := by
  rintro (_ | _ | _ | i)
  · show Except.ok c.x = _; rw [h0]; rfl
  · show Except.ok c.y = _; rw [h1]; rfl
  · show Except.ok c.z = _; rw [h2]; rfl
  · rfl

theorem xyz_scalar (op : T → T → T) (a : XYZ T) (s : T) (c : XYZ T) (h0 : c.x = op a.x s)
    (h1 : c.y = op a.y s) (h2 : c.z = op a.z s) : Spec.Comp2 op a.index (Spec.scalar s) c.index := by
  rintro (_ | _ | _ | i)
  · show Except.ok c.x = _; rw [h0]; rfl
  · show Except.ok c.y = _; rw [h1]; rfl
  · show Except.ok c.z = _; rw [h2]; rfl
  · rfl

theorem xyz_comp1 (op : T → T) (a c : XYZ T) (h0 : c.x = op a.x) (h1 : c.y = op a.y)
    (h2 : c.z = op a.z) : Spec.Comp1 op a.index c.index := by
  rintro (_ | _ | _ | i)
  · show Except.ok c.x = _; rw [h0]; rfl
  · show Except.ok c.y = _; rw [h1]; rfl
  · show Except.ok c.z = _; rw [h2]; rfl
  · rfl

/-! ## C73: component-wise operators -/

/-- C73 [G]: every operator on RGB colours acts component by component, in this operand order. -/
theorem C73_rgb (a b : RGBf T) (s : T) :
    Spec.Comp2 (· + ·) a.index b.index (a + b).index ∧
    Spec.Comp2 (· - ·) a.index b.index (a - b).index ∧
    Spec.Comp2 (· * ·) a.index b.index (a * b).index ∧
    Spec.Comp2 (· / ·) a.index b.index (a / b).index ∧
    Spec.Comp1 (- ·) a.index (-a).index ∧
    Spec.Comp1 Flt.abs a.index a.abs.index ∧
    Spec.Comp2 Flt.powf a.index (Spec.scalar s) (a.powf s).index ∧
    Spec.Comp2 (· + ·) a.index (Spec.scalar s) (a + s).index ∧
    Spec.Comp2 (· - ·) a.index (Spec.scalar s) (a - s).index ∧
    Spec.Comp2 (· * ·) a.index (Spec.scalar s) (a * s).index ∧
    Spec.Comp2 (· / ·) a.index (Spec.scalar s) (a / s).index :=
  ⟨rgb_comp2 _ _ _ _ rfl rfl rfl, rgb_comp2 _ _ _ _ rfl rfl rfl, rgb_comp2 _ _ _ _ rfl rfl rfl,
   rgb_comp2 _ _ _ _ rfl rfl rfl, rgb_comp1 _ _ _ rfl rfl rfl, rgb_comp1 _ _ _ rfl rfl rfl,
   rgb_scalar _ _ _ _ rfl rfl rfl, rgb_scalar _ _ _ _ rfl rfl rfl, rgb_scalar _ _ _ _ rfl rfl rfl,
   rgb_scalar _ _ _ _ rfl rfl rfl, rgb_scalar _ _ _ _ rfl rfl rfl⟩

/-- C73 [G]: the operators with the scalar on the left. Addition takes the component first, which no
float can tell (`C73_commutes`). -/
theorem C73_rgb_left (a : RGBf T) (s : T) :
    Spec.Comp2 (· * ·) (Spec.scalar s) a.index (s * a).index ∧
    Spec.Comp2 (fun s x => x + s) (Spec.scalar s) a.index (s + a).index ∧
    Spec.Comp2 (· - ·) (Spec.scalar s) a.index (s - a).index ∧
    Spec.Comp2 (· / ·) (Spec.scalar s) a.index (s / a).index :=
  ⟨rgb_left _ _ _ _ rfl rfl rfl, rgb_left _ _ _ _ rfl rfl rfl, rgb_left _ _ _ _ rfl rfl rfl,
   rgb_left _ _ _ _ rfl rfl rfl⟩

/-- C73 [G]: every operator on XYZ colours acts component by component. -/
theorem C73_xyz (a b : XYZ T) (s : T) :
    Spec.Comp2 (· + ·) a.index b.index (a + b).index ∧
    Spec.Comp2 (· - ·) a.index b.index (a - b).index ∧
    Spec.Comp2 (· * ·) a.index b.index (a * b).index ∧
    Spec.Comp2 (· / ·) a.index b.index (a / b).index ∧
    Spec.Comp1 (- ·) a.index (-a).index ∧
    Spec.Comp1 Flt.abs a.index a.abs.index ∧
    Spec.Comp2 (· + ·) a.index (Spec.scalar s) (a + s).index ∧
    Spec.Comp2 (· - ·) a.index (Spec.scalar s) (a - s).index ∧
    Spec.Comp2 (· * ·) a.index (Spec.scalar s) (a * s).index ∧
    Spec.Comp2 (· / ·) a.index (Spec.scalar s) (a / s).index :=
  ⟨xyz_comp2 _ _ _ _ rfl rfl rfl, xyz_comp2 _ _ _ _ rfl rfl rfl, xyz_comp2 _ _ _ _ rfl rfl rfl,
   xyz_comp2 _ _ _ _ rfl rfl rfl, xyz_comp1 _ _ _ rfl rfl rfl, xyz_comp1 _ _ _ rfl rfl rfl,
   xyz_scalar _ _ _ _ rfl rfl rfl, xyz_scalar _ _ _ _ rfl rfl rfl, xyz_scalar _ _ _ _ rfl rfl rfl,
   xyz_scalar _ _ _ _ rfl rfl rfl⟩

/-- C73 [G]: scalar operators on matrices and negation act entry by entry; all nine entries. -/
theorem C73_matrix (m : Matrix33 T) (s : T) (i : ℕ) :
    Spec.Comp2 (· + ·) (m.entry i) (Spec.scalar s) ((m + s).entry i) ∧
    Spec.Comp2 (· - ·) (m.entry i) (Spec.scalar s) ((m - s).entry i) ∧
    Spec.Comp2 (· * ·) (m.entry i) (Spec.scalar s) ((m * s).entry i) ∧
    Spec.Comp2 (· / ·) (m.entry i) (Spec.scalar s) ((m / s).entry i) ∧
    Spec.Comp1 (- ·) (m.entry i) ((-m).entry i) := by
  have key : ∀ g : T → T, ∀ j, (m.map g).entry i j = (do let x ← m.entry i j; .ok (g x)) := by
    intro g j
    by_cases h : 3 ≤ i ∨ 3 ≤ j
    · rw [entry_panics _ _ _ h, entry_panics _ _ _ h]; rfl
    · push Not at h
      obtain ⟨hi, hj⟩ := h
      interval_cases i <;> interval_cases j <;> rfl
  exact ⟨fun j => key (· + s) j, fun j => key (· - s) j, fun j => key (· * s) j,
    fun j => key (· / s) j, fun j => key (- ·) j⟩

end

/-- C73 [F]: in floating point addition and multiplication by a scalar give the same bits on either side,
and adding colours does not depend on the order of the two. -/
theorem C73_commutes {f : Fmt} [Libm f] (a b : RGBf (FP f)) (x y : XYZ (FP f)) (s : FP f) :
    s * a = a * s ∧ s + a = a + s ∧ a + b = b + a ∧ a * b = b * a ∧ x + y = y + x ∧ x * y = y * x ∧
    -(-a) = a ∧ -(-x) = x := by
  refine ⟨?_, rfl, ?_, ?_, ?_, ?_, ?_, ?_⟩
  · exact RGBf.ext (FP.mul_comm' _ _) (FP.mul_comm' _ _) (FP.mul_comm' _ _)
  · exact RGBf.ext (FP.add_comm' _ _) (FP.add_comm' _ _) (FP.add_comm' _ _)
  · exact RGBf.ext (FP.mul_comm' _ _) (FP.mul_comm' _ _) (FP.mul_comm' _ _)
  · exact XYZ.ext (FP.add_comm' _ _) (FP.add_comm' _ _) (FP.add_comm' _ _)
  · exact XYZ.ext (FP.mul_comm' _ _) (FP.mul_comm' _ _) (FP.mul_comm' _ _)
  · exact RGBf.ext (FP.neg_neg' _) (FP.neg_neg' _) (FP.neg_neg' _)
  · exact XYZ.ext (FP.neg_neg' _) (FP.neg_neg' _) (FP.neg_neg' _)

/-- C73 [F]: `is_zero` holds exactly for colours made of zeros of either sign; `zero()` is one. -/
theorem C73_is_zero {f : Fmt} [Libm f] (a : RGBf (FP f)) (x : XYZ (FP f)) :
    (a.isZero = true ↔ ∀ i v, a.index i = .ok v → v = FP.zeroOf false ∨ v = FP.zeroOf true) ∧
    (x.isZero = true ↔ ∀ i v, x.index i = .ok v → v = FP.zeroOf false ∨ v = FP.zeroOf true) ∧
    (RGBf.zero : RGBf (FP f)).isZero = true ∧ (XYZ.zero : XYZ (FP f)).isZero = true := by
  have lit0 : (Flt.zero : FP f) = FP.zeroOf false := by
    show FP.lit 0 = _
    simp [FP.lit, FP.ofQ_zero, FP.zeroOf, FP.cast]
  have key : ∀ v : FP f, Flt.eqb v Flt.zero = true ↔ v = FP.zeroOf false ∨ v = FP.zeroOf true := by
    intro v
    rw [lit0]
    show FP.eqb v _ = true ↔ _
    cases v with
    | fin q h => simp [FP.eqb, FP.ext, FP.zeroOf]
    | pinf =>
      constructor
      · intro h
        rw [FP.eqb_iff] at h
        obtain ⟨e, h1, h2⟩ := h
        cases h1; cases h2
      · rintro (h | h) <;> cases h
    | _ => simp [FP.eqb, FP.ext, FP.zeroOf]
  have hz : Flt.eqb (Flt.zero : FP f) Flt.zero = true := (key _).2 (Or.inl lit0)
  refine ⟨?_, ?_, ?_, ?_⟩
  · unfold RGBf.isZero
    simp only [Bool.and_eq_true, key]
    constructor
    · rintro ⟨⟨h0, h1⟩, h2⟩ i v hv
      match i, hv with
      | 0, hv => cases hv; exact h0
      | 1, hv => cases hv; exact h1
      | 2, hv => cases hv; exact h2
    · intro h
      exact ⟨⟨h 0 _ rfl, h 1 _ rfl⟩, h 2 _ rfl⟩
  · unfold XYZ.isZero
    simp only [Bool.and_eq_true, key]
    constructor
    · rintro ⟨⟨h0, h1⟩, h2⟩ i v hv
      match i, hv with
      | 0, hv => cases hv; exact h0
      | 1, hv => cases hv; exact h1
      | 2, hv => cases hv; exact h2
    · intro h
      exact ⟨⟨h 0 _ rfl, h 1 _ rfl⟩, h 2 _ rfl⟩
  · simp only [RGBf.isZero, RGBf.zero, RGBf.fromScalar, hz, Bool.and_self]
  · simp only [XYZ.isZero, XYZ.zero, XYZ.fromScalar, hz, Bool.and_self]

/-- C73 [R]: colours are a vector space with these operators, `zero()` and `one()` are neutral, and
division undoes multiplication by a non-zero scalar or colour. -/
theorem C73_laws (a b c : RGBf ℝ) (s t : ℝ) :
    a + (b + c) = a + b + c ∧ a + b = b + a ∧ a + RGBf.zero = a ∧ a + -a = RGBf.zero ∧
    a - b = a + -b ∧ (a + b) * s = a * s + b * s ∧ a * (s + t) = a * s + a * t ∧
    a * s * t = a * (s * t) ∧ a * RGBf.one = a ∧ a * (b + c) = a * b + a * c ∧ s * a = a * s ∧
    s - a = -(a - s) ∧ (s ≠ 0 → a * s / s = a) ∧
    (b.r ≠ 0 → b.g ≠ 0 → b.b ≠ 0 → a * b / b = a ∧ s / b * b = RGBf.fromScalar s) := by
  have l0 : (Flt.lit 0 : ℝ) = 0 := by norm_num
  have l1 : (Flt.lit 1 : ℝ) = 1 := by norm_num
  refine ⟨?_, ?_, ?_, ?_, ?_, ?_, ?_, ?_, ?_, ?_, ?_, ?_, fun hs => ?_, fun h0 h1 h2 => ⟨?_, ?_⟩⟩
  all_goals first
    | (apply RGBf.ext
       · show s * a.r = a.r * s; ring
       · show s * a.g = a.g * s; ring
       · show s * a.b = a.b * s; ring)
    | (apply RGBf.ext
       · show s - a.r = -(a.r - s); ring
       · show s - a.g = -(a.g - s); ring
       · show s - a.b = -(a.b - s); ring)
    | (apply RGBf.ext
       · show a.r * s / s = a.r; field_simp
       · show a.g * s / s = a.g; field_simp
       · show a.b * s / s = a.b; field_simp)
    | (apply RGBf.ext
       · show a.r * b.r / b.r = a.r; field_simp
       · show a.g * b.g / b.g = a.g; field_simp
       · show a.b * b.b / b.b = a.b; field_simp)
    | (apply RGBf.ext
       · show s / b.r * b.r = s; field_simp
       · show s / b.g * b.g = s; field_simp
       · show s / b.b * b.b = s; field_simp)
    | (apply RGBf.ext <;> simp [RGBf.zero, RGBf.one, RGBf.fromScalar, l0, l1] <;> ring1)

/-- C73 [R]: the same for XYZ. -/
theorem C73_laws_xyz (a b c : XYZ ℝ) (s t : ℝ) :
    a + (b + c) = a + b + c ∧ a + b = b + a ∧ a + XYZ.zero = a ∧ a + -a = XYZ.zero ∧
    a - b = a + -b ∧ (a + b) * s = a * s + b * s ∧ a * (s + t) = a * s + a * t ∧
    a * s * t = a * (s * t) ∧ a * XYZ.one = a ∧ a * (b + c) = a * b + a * c ∧
    (s ≠ 0 → a * s / s = a) ∧ (b.x ≠ 0 → b.y ≠ 0 → b.z ≠ 0 → a * b / b = a) := by
  have l0 : (Flt.lit 0 : ℝ) = 0 := by norm_num
  have l1 : (Flt.lit 1 : ℝ) = 1 := by norm_num
  refine ⟨?_, ?_, ?_, ?_, ?_, ?_, ?_, ?_, ?_, ?_, fun hs => ?_, fun h0 h1 h2 => ?_⟩
  all_goals first
    | (apply XYZ.ext
       · show a.x * s / s = a.x; field_simp
       · show a.y * s / s = a.y; field_simp
       · show a.z * s / s = a.z; field_simp)
    | (apply XYZ.ext
       · show a.x * b.x / b.x = a.x; field_simp
       · show a.y * b.y / b.y = a.y; field_simp
       · show a.z * b.z / b.z = a.z; field_simp)
    | (apply XYZ.ext <;> simp [XYZ.zero, XYZ.one, XYZ.fromScalar, l0, l1] <;> ring1)

/-- C73 [G]: two colours are equal exactly if they are equal at every index. -/
theorem C73_equality {T : Type} [Add T] [Sub T] [Mul T] [Div T] [Neg T] [Flt T] (a b : RGBf T) (x y : XYZ T) :
    (RGBf.eqb a b = true ↔ ∀ i v w, a.index i = .ok v → b.index i = .ok w → Flt.eqb v w = true) ∧
    (XYZ.eqb x y = true ↔ ∀ i v w, x.index i = .ok v → y.index i = .ok w → Flt.eqb v w = true) := by
  constructor
  · unfold RGBf.eqb
    simp only [Bool.and_eq_true]
    constructor
    · rintro ⟨⟨h0, h1⟩, h2⟩ i v w hv hw
      match i, hv, hw with
      | 0, hv, hw => cases hv; cases hw; exact h0
      | 1, hv, hw => cases hv; cases hw; exact h1
      | 2, hv, hw => cases hv; cases hw; exact h2
      | j + 3, hv, _ => cases hv
    · intro h
      exact ⟨⟨h 0 _ _ rfl rfl, h 1 _ _ rfl rfl⟩, h 2 _ _ rfl rfl⟩
  · unfold XYZ.eqb
    simp only [Bool.and_eq_true]
    constructor
    · rintro ⟨⟨h0, h1⟩, h2⟩ i v w hv hw
      match i, hv, hw with
      | 0, hv, hw => cases hv; cases hw; exact h0
      | 1, hv, hw => cases hv; cases hw; exact h1
      | 2, hv, hw => cases hv; cases hw; exact h2
      | j + 3, hv, _ => cases hv
    · intro h
      exact ⟨⟨h 0 _ _ rfl rfl, h 1 _ _ rfl rfl⟩, h 2 _ _ rfl rfl⟩

/-- C73 [F]: `min_value()` and `max_value()` are finite and bound every finite component; infinities lie
outside. -/
theorem C73_bounded {f : Fmt} (v : FP f) :
    (FP.maxValue f).isFinite = true ∧ (FP.minValue f).isFinite = true ∧
    (v.isFinite = true ↔ FP.le (FP.minValue f) v = true ∧ FP.le v (FP.maxValue f) = true) ∧
    (∀ i w, (RGBf.maxValue f).index i = .ok w → w = FP.maxValue f) ∧
    (∀ i w, (RGBf.minValue f).index i = .ok w → w = FP.minValue f) ∧
    (∀ i w, (XYZ.maxValue f).index i = .ok w → w = FP.maxValue f) ∧
    (∀ i w, (XYZ.minValue f).index i = .ok w → w = FP.minValue f) := by
  have hM : FP.maxValue f = FP.fin f.maxFin f.isRep_maxFin :=
    FP.ofQ_isRep f.isRep_maxFin f.maxFin_pos.ne' false
  have hm : (FP.minValue f).isFinite = true ∧ (FP.minValue f).val = -f.maxFin := by
    have := FP.neg_finite (a := FP.maxValue f) (by rw [hM]; rfl)
    rw [hM] at this
    unfold FP.minValue
    rw [hM]
    exact this
  have all : ∀ {P : ℕ → FP f → Prop} (r : ℕ → Res (FP f)), (∀ w, r 0 = .ok w → P 0 w) → (∀ w, r 1 = .ok w → P 1 w) →
      (∀ w, r 2 = .ok w → P 2 w) → (∀ i w, r (i + 3) ≠ .ok w) → ∀ i w, r i = .ok w → P i w := by
    intro P r h0 h1 h2 h3 i w h
    match i, h with
    | 0, h => exact h0 _ h
    | 1, h => exact h1 _ h
    | 2, h => exact h2 _ h
    | j + 3, h => exact absurd h (h3 j w)
  refine ⟨by rw [hM]; rfl, hm.1, ?_, ?_, ?_, ?_, ?_⟩
  rotate_left
  iterate 4
    · refine all (P := fun _ w => w = _) _ ?_ ?_ ?_ ?_
      · intro w h; cases h; rfl
      · intro w h; cases h; rfl
      · intro w h; cases h; rfl
      · intro i w h; cases h
  constructor
  · intro hv
    have hb := abs_le.1 (abs_le_maxFin (FP.val_rep v))
    rw [FP.le_finite hm.1 hv, FP.le_finite hv (by rw [hM]; rfl), hM, hm.2]
    exact ⟨decide_eq_true hb.1, decide_eq_true hb.2⟩
  · rintro ⟨h1, h2⟩
    rw [hM] at h2
    rw [FP.le_iff] at h1 h2
    rw [FP.ext_finite hm.1] at h1
    cases v <;> simp_all [FP.ext, FP.isFinite]

/-- Not vacuous: 2 - (0.5, 1, 4) = (1.5, 1, -2); and division by a colour with non-zero components. -/
example : (2:ℝ) - (⟨0.5, 1, 4⟩ : RGBf ℝ) = ⟨1.5, 1, -2⟩ := by
  apply RGBf.ext
  · show (2:ℝ) - 0.5 = 1.5; norm_num
  · show (2:ℝ) - 1 = 1; norm_num
  · show (2:ℝ) - 4 = -2; norm_num

example (a : RGBf ℝ) : a * (⟨1, 2, 3⟩ : RGBf ℝ) / (⟨1, 2, 3⟩ : RGBf ℝ) = a :=
  ((C73_laws a ⟨1, 2, 3⟩ a 1 1).2.2.2.2.2.2.2.2.2.2.2.2.2 (by norm_num) (by norm_num) (by norm_num)).1

/-! ## C74: f64 to f32 -/

/-- What converting one binary64 number to binary32 must do. -/
structure Spec.Narrow (x : FP Fmt.b64) (y : FP Fmt.b32) : Prop where
  /-- NaN, infinities and signed zeros are kept -/
  nan : x = .nan → y = .nan
  inf : ∀ neg, x = FP.infOf neg → y = FP.infOf neg
  zero : ∀ neg, x = FP.zeroOf neg → y = FP.zeroOf neg
  /-- below the overflow threshold the result is finite, keeps the sign and no binary32 number is nearer -/
  nearest : x.isFinite = true → |x.val| < (2 - 1 / 2 ^ 24) * 2 ^ 127 → y.isFinite = true ∧ y.sgn = x.sgn ∧
    ∀ z : FP Fmt.b32, z.isFinite = true → |y.val - x.val| ≤ |z.val - x.val|
  /-- from the threshold on it is the infinity of the same sign -/
  overflow : x.isFinite = true → (2 - 1 / 2 ^ 24) * 2 ^ 127 ≤ |x.val| → y = FP.infOf x.sgn
  /-- relative error at most 2^-24 for normal numbers -/
  rel : x.isFinite = true → 1 / 2 ^ 126 ≤ |x.val| → |x.val| < (2 - 1 / 2 ^ 24) * 2 ^ 127 →
    |y.val - x.val| ≤ |x.val| / 2 ^ 24

theorem b32_overflow : Fmt.b32.overflow = (2 - 1 / 2 ^ 24) * 2 ^ 127 := by
  unfold Fmt.overflow
  have e : ((Fmt.b32.emax : ℤ) - Fmt.b32.p) = ((103 : ℕ) : ℤ) := by decide
  rw [e, zpow_natCast]
  have : Fmt.b32.p = 24 := rfl
  rw [this]; norm_num

theorem roundQ_sign {f : Fmt} {q : ℚ} (h : roundQ f q ≠ 0) : roundQ f q < 0 ↔ q < 0 := by
  constructor
  · intro hr
    by_contra hc
    have := roundQ_nonneg f (not_lt.1 hc)
    linarith
  · intro hq
    have := roundQ_nonneg f (q := -q) (by linarith)
    rw [roundQ_neg] at this
    exact lt_of_le_of_ne (by linarith) h

theorem ofQ_sgn {f : Fmt} {s : Bool} {q : ℚ} (h0 : q ≠ 0) (h : |roundQ f q| < 2 ^ (f.emax + 1)) :
    (FP.ofQ f s q).sgn = decide (q < 0) := by
  unfold FP.ofQ
  rw [dif_pos h]
  by_cases hr : roundQ f q = 0
  · rw [if_pos hr, if_neg h0]
    cases decide (q < 0) <;> simp [FP.zeroOf, FP.sgn]
  · rw [if_neg hr]
    simp only [FP.sgn]
    rw [decide_eq_decide]
    exact roundQ_sign hr

theorem narrow_one (x : FP Fmt.b64) : Spec.Narrow x x.cast := by
  refine ⟨?_, ?_, ?_, ?_, ?_, ?_⟩
  · rintro rfl; rfl
  · rintro (_ | _) rfl <;> rfl
  · rintro (_ | _) rfl
    · show FP.ofQ Fmt.b32 false 0 = _
      exact FP.ofQ_zero false
    · rfl
  · intro hf hlt
    rw [← b32_overflow] at hlt
    have hr := (roundQ_finite_iff Fmt.b32 x.val).2 hlt
    cases x with
    | fin q h =>
      obtain ⟨h1, h2⟩ := FP.ofQ_finite (f := Fmt.b32) (q := q) false hr
      refine ⟨h1, ?_, fun z hz => ?_⟩
      · by_cases h0 : q = 0
        · subst h0
          show (FP.ofQ Fmt.b32 false 0).sgn = _
          rw [FP.ofQ_zero]
          simp [FP.zeroOf, FP.sgn]
        · exact ofQ_sgn h0 hr
      · show |(FP.ofQ Fmt.b32 false q).val - q| ≤ |z.val - q|
        rw [h2]
        exact roundQ_nearest _ _ _ z.round_val
    | nzero => exact ⟨rfl, rfl, fun z _ => by simp [FP.cast, FP.val]⟩
    | nan => cases hf
    | pinf => cases hf
    | ninf => cases hf
  · intro hf hge
    rw [← b32_overflow] at hge
    have hr := (roundQ_finite_iff Fmt.b32 x.val).not.2 (not_lt.2 hge)
    cases x with
    | fin q h =>
      have hr' : ¬ |roundQ Fmt.b32 q| < 2 ^ (Fmt.b32.emax + 1) := hr
      show FP.ofQ Fmt.b32 false q = _
      unfold FP.ofQ
      rw [dif_neg hr']
      rfl
    | nzero =>
      have : (0:ℚ) < Fmt.b32.overflow := lt_trans Fmt.b32.maxFin_pos Fmt.b32.maxFin_lt.1
      simp [FP.val] at hge; linarith
    | nan => cases hf
    | pinf => cases hf
    | ninf => cases hf
  · intro hf hlo hlt
    rw [← b32_overflow] at hlt
    have hr := (roundQ_finite_iff Fmt.b32 x.val).2 hlt
    cases x with
    | fin q h =>
      obtain ⟨h1, h2⟩ := FP.ofQ_finite (f := Fmt.b32) (q := q) false hr
      show |(FP.ofQ Fmt.b32 false q).val - q| ≤ |q| / 2 ^ 24
      rw [h2]
      refine roundQ_relerr Fmt.b32 (le_trans (le_of_eq ?_) hlo)
      have : Fmt.b32.emin = -((126 : ℕ) : ℤ) := by decide
      rw [this, zpow_neg, zpow_natCast, one_div]
    | nzero => norm_num [FP.val] at hlo
    | nan => cases hf
    | pinf => cases hf
    | ninf => cases hf

/-- C74 [F]: converting RGB, XYZ and matrices from f64 to f32 rounds every component to the nearest
binary32 number. -/
theorem C74_narrow (c : RGBf (FP Fmt.b64)) (x : XYZ (FP Fmt.b64)) (m : Matrix33 (FP Fmt.b64)) :
    (∀ i v, c.index i = .ok v → ∃ w, c.narrow.index i = .ok w ∧ Spec.Narrow v w) ∧
    (∀ i v, x.index i = .ok v → ∃ w, x.narrow.index i = .ok w ∧ Spec.Narrow v w) ∧
    (∀ i j v, m.entry i j = .ok v → ∃ w, m.narrow.entry i j = .ok w ∧ Spec.Narrow v w) := by
  refine ⟨fun i v h => ?_, fun i v h => ?_, fun i j v h => ?_⟩
  · match i, h with
    | 0, h => cases h; exact ⟨_, rfl, narrow_one _⟩
    | 1, h => cases h; exact ⟨_, rfl, narrow_one _⟩
    | 2, h => cases h; exact ⟨_, rfl, narrow_one _⟩
  · match i, h with
    | 0, h => cases h; exact ⟨_, rfl, narrow_one _⟩
    | 1, h => cases h; exact ⟨_, rfl, narrow_one _⟩
    | 2, h => cases h; exact ⟨_, rfl, narrow_one _⟩
  · by_cases hc : 3 ≤ i ∨ 3 ≤ j
    · rw [entry_panics _ _ _ hc] at h; cases h
    · push Not at hc
      obtain ⟨hi, hj⟩ := hc
      interval_cases i <;> interval_cases j <;> (cases h; exact ⟨_, rfl, narrow_one _⟩)

/-- C74 [F]: the conversion never reverses the order of two numbers. -/
theorem C74_monotone (x y : FP Fmt.b64) (h : FP.le x y = true) :
    FP.le (x.cast : FP Fmt.b32) y.cast = true := by
  -- the extended value of a conversion is a monotone function of the extended value
  have key : ∀ q : ℚ, ∀ s, (FP.ofQ Fmt.b32 s q).ext =
      some (if |roundQ Fmt.b32 q| < 2 ^ (Fmt.b32.emax + 1) then
        ((roundQ Fmt.b32 q : ℚ) : WithBot (WithTop ℚ)) else if q < 0 then ⊥ else ((⊤ : WithTop ℚ) : WithBot (WithTop ℚ))) := by
    intro q s
    by_cases hr : |roundQ Fmt.b32 q| < 2 ^ (Fmt.b32.emax + 1)
    · obtain ⟨h1, h2⟩ := FP.ofQ_finite s hr
      rw [FP.ext_finite h1, h2, if_pos hr]
    · unfold FP.ofQ
      rw [dif_neg hr, if_neg hr]
      by_cases hq : q < 0 <;> simp [hq, FP.infOf, FP.ext]
  have hz : (FP.ofQ Fmt.b32 false 0) = FP.zeroOf false := FP.ofQ_zero false
  -- a finite datum converts like its value
  have cv : ∀ v : FP Fmt.b64, v.isFinite = true → (v.cast : FP Fmt.b32).ext = (FP.ofQ Fmt.b32 false v.val).ext := by
    intro v hv
    cases v with
    | fin q hq => rfl
    | nzero => rw [show FP.val (FP.nzero : FP Fmt.b64) = 0 from rfl, hz]; rfl
    | nan => cases hv
    | pinf => cases hv
    | ninf => cases hv
  rw [FP.le_iff]
  cases hx : x.isFinite with
  | true =>
    cases hy : y.isFinite with
    | true =>
      rw [cv x hx, cv y hy, key, key]
      refine ⟨_, _, rfl, rfl, ?_⟩
      rw [FP.le_finite hx hy] at h
      have hle : x.val ≤ y.val := of_decide_eq_true h
      have hm := roundQ_mono Fmt.b32 hle
      by_cases h1 : |roundQ Fmt.b32 x.val| < 2 ^ (Fmt.b32.emax + 1)
      · by_cases h2 : |roundQ Fmt.b32 y.val| < 2 ^ (Fmt.b32.emax + 1)
        · rw [if_pos h1, if_pos h2]; exact_mod_cast hm
        · rw [if_pos h1, if_neg h2]
          have hy0 : ¬ y.val < 0 := by
            intro hneg
            apply h2
            have a1 : roundQ Fmt.b32 y.val ≤ 0 := by
              have := roundQ_mono Fmt.b32 hneg.le; rwa [roundQ_zero] at this
            rw [abs_of_nonpos a1]
            have a2 : roundQ Fmt.b32 x.val ≤ 0 := le_trans hm a1
            rw [abs_of_nonpos a2] at h1
            linarith
          rw [if_neg hy0]
          exact_mod_cast (le_top : ((roundQ Fmt.b32 x.val : ℚ) : WithTop ℚ) ≤ ⊤)
      · rw [if_neg h1]
        by_cases hx0 : x.val < 0
        · rw [if_pos hx0]; exact bot_le
        · rw [if_neg hx0]
          have h2 : ¬ |roundQ Fmt.b32 y.val| < 2 ^ (Fmt.b32.emax + 1) := by
            intro h2
            apply h1
            have := roundQ_nonneg Fmt.b32 (not_lt.1 hx0)
            rw [abs_of_nonneg this]
            rw [abs_of_nonneg (le_trans this hm)] at h2
            linarith
          rw [if_neg h2, if_neg (by push Not at hx0 ⊢; linarith)]
    | false =>
      cases y with
      | pinf =>
        rw [cv x hx, key]
        refine ⟨_, _, rfl, rfl, ?_⟩
        split_ifs
        · exact_mod_cast (le_top : ((roundQ Fmt.b32 x.val : ℚ) : WithTop ℚ) ≤ ⊤)
        · exact bot_le
        · exact le_rfl
      | ninf =>
        rw [FP.le_iff] at h
        obtain ⟨a, b, ha, hb, hab⟩ := h
        rw [FP.ext_finite hx] at ha
        cases ha; cases hb
        simp at hab
      | nan =>
        rw [FP.le_iff] at h
        obtain ⟨a, b, ha, hb, hab⟩ := h
        cases hb
      | fin q hq => cases hy
      | nzero => cases hy
  | false =>
    cases x with
    | ninf =>
      rw [FP.le_iff] at h
      obtain ⟨a, b, ha, hb, hab⟩ := h
      cases hy : y.isFinite with
      | true => rw [cv y hy, key]; exact ⟨_, _, rfl, rfl, bot_le⟩
      | false =>
        cases y with
        | ninf => exact ⟨_, _, rfl, rfl, le_rfl⟩
        | pinf => exact ⟨_, _, rfl, rfl, bot_le⟩
        | nan => cases hb
        | fin q hq => cases hy
        | nzero => cases hy
    | pinf =>
      rw [FP.le_iff] at h
      obtain ⟨a, b, ha, hb, hab⟩ := h
      cases ha
      cases y with
      | pinf => exact ⟨_, _, rfl, rfl, le_rfl⟩
      | nan => cases hb
      | ninf => cases hb; simp at hab
      | nzero =>
        cases hb
        exact absurd hab (by decide)
      | fin q hq =>
        cases hb
        rw [WithBot.coe_le_coe, top_le_iff] at hab
        exact absurd hab (WithTop.coe_ne_top)
    | nan =>
      rw [FP.le_iff] at h
      obtain ⟨a, b, ha, hb, hab⟩ := h
      cases ha
    | fin q hq => cases hx
    | nzero => cases hx

/-- Not vacuous: the binary64 number 0.1 is not a binary32 number; it becomes the nearest one,
13421773 / 2^27. 1e300 becomes +infinity. -/
example : FP.eqb (FP.ofQ Fmt.b64 false (1/10)).cast (FP.ofQ Fmt.b32 false (13421773 / 2 ^ 27)) = true := by
  krefl

example : FP.eqb (FP.ofQ Fmt.b64 false (10 ^ 300)).cast (FP.pinf : FP Fmt.b32) = true := by krefl

/-! ## C75: approximate comparison and matrix indexing -/

section
variable {T : Type}

/-- C75 [G]: two colours are approximately equal exactly if all their components are. -/
theorem C75_colours (m : T → T → Bool) (a b : RGBf T) (x y : XYZ T) :
    (a.approxEq m b = true ↔ ∀ i u v, a.index i = .ok u → b.index i = .ok v → m u v = true) ∧
    (x.approxEq m y = true ↔ ∀ i u v, x.index i = .ok u → y.index i = .ok v → m u v = true) := by
  constructor
  · unfold RGBf.approxEq
    simp only [Bool.and_eq_true]
    constructor
    · rintro ⟨⟨h0, h1⟩, h2⟩ i u v hu hv
      match i, hu, hv with
      | 0, hu, hv => cases hu; cases hv; exact h0
      | 1, hu, hv => cases hu; cases hv; exact h1
      | 2, hu, hv => cases hu; cases hv; exact h2
    · intro h
      exact ⟨⟨h 0 _ _ rfl rfl, h 1 _ _ rfl rfl⟩, h 2 _ _ rfl rfl⟩
  · unfold XYZ.approxEq
    simp only [Bool.and_eq_true]
    constructor
    · rintro ⟨⟨h0, h1⟩, h2⟩ i u v hu hv
      match i, hu, hv with
      | 0, hu, hv => cases hu; cases hv; exact h0
      | 1, hu, hv => cases hu; cases hv; exact h1
      | 2, hu, hv => cases hu; cases hv; exact h2
    · intro h
      exact ⟨⟨h 0 _ _ rfl rfl, h 1 _ _ rfl rfl⟩, h 2 _ _ rfl rfl⟩

/-- C75 [G]: two spectra are approximately equal exactly if they have equally many samples and these agree
one by one in wavelength and value, up to the margin. The reported shapes do not matter. -/
theorem C75_vspd (m : T → T → Bool) (a b : VSPD T) :
    a.approxEq m b = true ↔ a.samples.length = b.samples.length ∧
      ∀ (i : ℕ) (p q : Sample T), a.samples[i]? = some p → b.samples[i]? = some q →
        m p.nm q.nm = true ∧ m p.v q.v = true := by
  unfold VSPD.approxEq
  rw [Bool.and_eq_true, beq_iff_eq, List.all_eq_true]
  constructor
  · rintro ⟨h1, h2⟩
    refine ⟨h1, fun i p q hp hq => ?_⟩
    have hm : (p, q) ∈ a.samples.zip b.samples := by
      apply List.mem_of_getElem? (i := i)
      rw [List.getElem?_zip_eq_some]
      exact ⟨hp, hq⟩
    have := h2 _ hm
    simpa [Sample.approxEq] using this
  · rintro ⟨h1, h2⟩
    refine ⟨h1, fun pq hpq => ?_⟩
    obtain ⟨i, hi⟩ := List.getElem?_of_mem hpq
    rw [List.getElem?_zip_eq_some] at hi
    simpa [Sample.approxEq] using h2 i _ _ hi.1 hi.2

/-- C75 [G]: `m[i][j]` reads row `i`, column `j`, for indices below 3, and panics otherwise. -/
theorem C75_matrix_index (m : Matrix33 T) :
    (∀ i j : Fin 3, m.entry i j = .ok (m.get i j)) ∧
    (∀ i j, 3 ≤ i ∨ 3 ≤ j → m.entry i j = .error .index) := by
  refine ⟨fun i j => ?_, fun i j h => entry_panics m i j h⟩
  fin_cases i <;> fin_cases j <;> rfl

/-- C75 [G]: `m[i][j] = v` writes exactly that entry, for indices below 3, and panics otherwise. -/
theorem C75_matrix_set (m : Matrix33 T) (i j : ℕ) (v : T) :
    (i < 3 → j < 3 → ∃ m', m.setEntry i j v = .ok m' ∧ m'.entry i j = .ok v ∧
      ∀ k l, (k, l) ≠ (i, j) → m'.entry k l = m.entry k l) ∧
    (3 ≤ i ∨ 3 ≤ j → m.setEntry i j v = .error .index) := by
  constructor
  · intro hi hj
    have key : ∀ m' : Matrix33 T, (∀ k l : ℕ, k < 3 → l < 3 → (k, l) ≠ (i, j) → m'.entry k l = m.entry k l) →
        ∀ k l : ℕ, (k, l) ≠ (i, j) → m'.entry k l = m.entry k l := by
      intro m' h k l hne
      by_cases hc : 3 ≤ k ∨ 3 ≤ l
      · rw [entry_panics _ _ _ hc, entry_panics _ _ _ hc]
      · push Not at hc
        exact h k l hc.1 hc.2 hne
    interval_cases i <;> interval_cases j <;>
      (refine ⟨_, rfl, rfl, key _ fun k l hk hl hne => ?_⟩
       interval_cases k <;> interval_cases l <;> first | rfl | exact absurd rfl hne)
  · intro h
    unfold Matrix33.setEntry
    rw [if_neg]
    simp only [List.length_cons, List.length_nil]
    omega

/-- Not vacuous: writing 7 at row 2, column 1 of the identity. -/
example : (Matrix33.setEntry (⟨1, 0, 0, 0, 1, 0, 0, 0, 1⟩ : Matrix33 ℕ) 2 1 7) = .ok ⟨1, 0, 0, 0, 1, 0, 0, 7, 1⟩ :=
  rfl

/-- Not vacuous: two spectra with different reported ends compare equal. -/
example : (⟨[⟨400, 1⟩, ⟨410, 2⟩], ⟨400, 415, .uniform 10⟩⟩ : VSPD ℕ).approxEq (· == ·)
    ⟨[⟨400, 1⟩, ⟨410, 2⟩], ⟨400, 410, .uniform 10⟩⟩ = true := rfl

end

end CS
