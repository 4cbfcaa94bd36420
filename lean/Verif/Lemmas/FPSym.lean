import Verif.Lemmas.FPArith
import Verif.Model.Lab

/-!
# Signs in floating point
Swapping the operands of a difference negates it, up to the sign of a zero.
-/

namespace CS
variable {f : Fmt}

namespace FP

theorem add_comm' (a b : FP f) : a + b = b + a := by
  show add a b = add b a
  unfold add
  rw [Bool.or_comm]
  by_cases hn : (b.isNaN || a.isNaN) = true
  · rw [if_pos hn, if_pos hn]
  rw [if_neg hn, if_neg hn, Bool.and_comm, _root_.add_comm]
  cases a <;> cases b <;> simp [isFinite, sgn, isNaN] at hn ⊢

theorem mul_comm' (a b : FP f) : a * b = b * a := by
  show mul a b = mul b a
  cases a <;> cases b <;>
    simp [mul, isFinite, sgn, val, infOf, Bool.xor_comm, _root_.mul_comm]

theorem neg_neg' (a : FP f) : -(-a) = a := by
  show neg (neg a) = a
  cases a with
  | fin q h =>
    unfold neg
    by_cases h0 : q = 0
    · subst h0; simp
    · simp [h0]
  | _ => simp [neg]

/-- negative zero or positive zero -/
def IsZero (a : FP f) : Prop := a.isFinite = true ∧ a.val = 0

theorem isZero_zeroOf (s : Bool) : IsZero (zeroOf s : FP f) := ⟨isFinite_zeroOf s, val_zeroOf s⟩

theorem IsZero.cases {a : FP f} (h : IsZero a) : a = nzero ∨ a = fin 0 (isRep_zero f) := by
  obtain ⟨h1, h2⟩ := h
  cases a with
  | fin q hq =>
    simp only [val] at h2
    subst h2
    exact Or.inr rfl
  | nzero => exact Or.inl rfl
  | _ => simp [isFinite] at h1

theorem neg_zeroOf (s : Bool) : -(zeroOf s : FP f) = zeroOf (!s) := by
  show neg _ = _
  cases s <;> simp [zeroOf, neg]

theorem ofQ_neg {q : ℚ} (h : q ≠ 0) (s t : Bool) : ofQ f s (-q) = -(ofQ f t q) := by
  have hs : decide (-q < 0) = !decide (q < 0) := by
    rcases lt_or_gt_of_ne h with h1 | h1
    · simp [h1, h1.le]
    · simp [h1, h1.le, not_lt.2 h1.le]
  unfold ofQ
  simp only [roundQ_neg, abs_neg, neg_eq_zero, h, if_false, hs]
  split
  · split
    · rw [neg_zeroOf]
    · show _ = neg _
      simp only [neg]
      rw [if_neg (by assumption)]
  · show _ = neg _
    cases decide (q < 0) <;> simp [infOf, neg]

theorem sgn_neg_finite {a : FP f} (ha : a.isFinite = true) : (-a).sgn = !a.sgn := by
  show (neg a).sgn = _
  cases a with
  | fin q h =>
    by_cases h0 : q = 0
    · simp [neg, h0, sgn]
    · rcases lt_or_gt_of_ne h0 with h1 | h1
      · simp [neg, h0, sgn, h1, h1.le]
      · simp [neg, h0, sgn, h1, h1.le, not_lt.2 h1.le]
  | nzero => simp [neg, sgn]
  | _ => simp [isFinite] at ha

theorem isNaN_neg (a : FP f) : (-a).isNaN = a.isNaN := by
  show (neg a).isNaN = _
  cases a with
  | fin q h => by_cases h0 : q = 0 <;> simp [neg, h0, isNaN]
  | _ => simp [neg, isNaN]

theorem isFinite_neg (a : FP f) : (-a).isFinite = a.isFinite := by
  show (neg a).isFinite = _
  cases a with
  | fin q h => by_cases h0 : q = 0 <;> simp [neg, h0, isFinite]
  | _ => simp [neg, isFinite]

theorem val_neg (a : FP f) : (-a).val = -a.val := by
  show (neg a).val = _
  cases a with
  | fin q h => by_cases h0 : q = 0 <;> simp [neg, h0, val]
  | _ => simp [neg, val]

/-- negatives of each other, or two zeros of any sign -/
def Opp (x y : FP f) : Prop := y = -x ∨ IsZero x ∧ IsZero y

theorem neg_add_opp (a b : FP f) : Opp (a + b) (-a + -b) := by
  by_cases ha : a.isFinite = true
  · by_cases hb : b.isFinite = true
    · have na : a.isNaN = false := isNaN_of_finite ha
      have nb : b.isNaN = false := isNaN_of_finite hb
      have e1 : a + b = ofQ f (a.sgn && b.sgn) (a.val + b.val) := by
        show add a b = _
        simp [add, na, nb, ha, hb]
      have e2 : -a + -b = ofQ f (!a.sgn && !b.sgn) (-(a.val + b.val)) := by
        show add (-a) (-b) = _
        rw [← sgn_neg_finite ha, ← sgn_neg_finite hb]
        simp only [add, isNaN_neg, na, nb, isFinite_neg, ha, hb, val_neg, Bool.or_self, Bool.false_eq_true, if_false,
          if_true]
        congr 1; ring
      by_cases h0 : a.val + b.val = 0
      · right
        rw [e1, e2, h0, neg_zero, ofQ_zero, ofQ_zero]
        exact ⟨isZero_zeroOf _, isZero_zeroOf _⟩
      · left
        rw [e1, e2]
        exact ofQ_neg h0 _ _
    · left
      have hb' : (-b).isFinite ≠ true := by rwa [isFinite_neg]
      show add (-a) (-b) = -(add a b)
      simp only [add, isNaN_neg, isFinite_neg, ha, hb, if_true]
      split
      · rfl
      · rfl
  · left
    show add (-a) (-b) = -(add a b)
    cases a with
    | fin q h => simp [isFinite] at ha
    | nzero => simp [isFinite] at ha
    | nan => rfl
    | pinf =>
      cases b with
      | fin q h => simp only [add, isNaN_neg, isFinite_neg]; simp [isNaN, isFinite]
      | nzero => rfl
      | nan => rfl
      | pinf => rfl
      | ninf => rfl
    | ninf =>
      cases b with
      | fin q h => simp only [add, isNaN_neg, isFinite_neg]; simp [isNaN, isFinite]
      | nzero => rfl
      | nan => rfl
      | pinf => rfl
      | ninf => rfl

theorem sub_swap (a b : FP f) : Opp (a - b) (b - a) := by
  have h := neg_add_opp a (-b)
  rw [neg_neg', add_comm' (-a) b] at h
  exact h

theorem Opp.symm {x y : FP f} (h : Opp x y) : Opp y x := by
  rcases h with h | ⟨h1, h2⟩
  · left; rw [h, neg_neg']
  · exact Or.inr ⟨h2, h1⟩

theorem neg_mul' (a b : FP f) : -a * b = -(a * b) := by
  have fin_case : ∀ {a b : FP f}, a.isFinite = true → b.isFinite = true → -a * b = -(a * b) := by
    intro a b ha hb
    have key : ∀ {x y : FP f}, x.isFinite = true → y.isFinite = true →
        x * y = ofQ f (x.sgn ^^ y.sgn) (x.val * y.val) := by
      intro x y hx hy
      show mul x y = _
      cases x <;> cases y <;> simp [isFinite] at hx hy <;> simp [mul, isFinite]
    rw [key ha hb, key (by rwa [isFinite_neg]) hb, val_neg, sgn_neg_finite ha, neg_mul]
    by_cases h0 : a.val * b.val = 0
    · rw [h0, neg_zero, ofQ_zero, ofQ_zero, neg_zeroOf]
      simp
    · exact ofQ_neg h0 _ _
  by_cases ha : a.isFinite = true
  · by_cases hb : b.isFinite = true
    · exact fin_case ha hb
    · show mul (-a) b = -(mul a b)
      have hs := sgn_neg_finite ha
      have hf := isFinite_neg a
      have hv := val_neg a
      have hn := isNaN_neg a
      cases a with
      | fin q h =>
        cases b with
        | fin q h => simp [isFinite] at hb
        | nzero => simp [isFinite] at hb
        | nan =>
          by_cases h0 : q = 0
          · subst h0; rfl
          · show mul (neg _) _ = neg _
            simp [neg, h0, mul]
        | pinf =>
          show mul (neg _) _ = neg _
          by_cases h0 : q = 0
          · subst h0; simp [neg, mul, isFinite, val]
          · rcases lt_or_gt_of_ne h0 with h1 | h1
            · simp [neg, h0, mul, isFinite, val, infOf, sgn, h1, h1.le]
            · simp [neg, h0, mul, isFinite, val, infOf, sgn, h1, h1.le, not_lt.2 h1.le]
        | ninf =>
          show mul (neg _) _ = neg _
          by_cases h0 : q = 0
          · subst h0; simp [neg, mul, isFinite, val]
          · rcases lt_or_gt_of_ne h0 with h1 | h1
            · simp [neg, h0, mul, isFinite, val, infOf, sgn, h1, h1.le]
            · simp [neg, h0, mul, isFinite, val, infOf, sgn, h1, h1.le, not_lt.2 h1.le]
      | nzero =>
        cases b with
        | fin q h => simp [isFinite] at hb
        | nzero => simp [isFinite] at hb
        | nan => rfl
        | pinf =>
          show mul (neg _) _ = neg _
          simp [neg, mul, isFinite, val]
        | ninf =>
          show mul (neg _) _ = neg _
          simp [neg, mul, isFinite, val]
      | _ => simp [isFinite] at ha
  · show mul (neg a) b = neg (mul a b)
    cases a with
    | fin q h => simp [isFinite] at ha
    | nzero => simp [isFinite] at ha
    | nan => rfl
    | pinf =>
      cases b with
      | fin q h =>
        by_cases h0 : q = 0
        · subst h0; simp [neg, mul, isFinite, val]
        · rcases lt_or_gt_of_ne h0 with h1 | h1
          · simp [neg, h0, mul, isFinite, val, infOf, sgn, h1]
          · simp [neg, h0, mul, isFinite, val, infOf, sgn, not_lt.2 h1.le]
      | nzero => simp [neg, mul, isFinite, val]
      | nan => rfl
      | pinf => simp [neg, mul, isFinite, infOf, sgn]
      | ninf => simp [neg, mul, isFinite, infOf, sgn]
    | ninf =>
      cases b with
      | fin q h =>
        by_cases h0 : q = 0
        · subst h0; simp [neg, mul, isFinite, val]
        · rcases lt_or_gt_of_ne h0 with h1 | h1
          · simp [neg, h0, mul, isFinite, val, infOf, sgn, h1]
          · simp [neg, h0, mul, isFinite, val, infOf, sgn, not_lt.2 h1.le]
      | nzero => simp [neg, mul, isFinite, val]
      | nan => rfl
      | pinf => simp [neg, mul, isFinite, infOf, sgn]
      | ninf => simp [neg, mul, isFinite, infOf, sgn]

theorem mul_neg' (a b : FP f) : a * -b = -(a * b) := by
  rw [mul_comm', neg_mul', mul_comm']

theorem mul_finite_eq {x y : FP f} (hx : x.isFinite = true) (hy : y.isFinite = true) :
    x * y = ofQ f (x.sgn ^^ y.sgn) (x.val * y.val) := by
  show mul x y = _
  cases x <;> cases y <;> simp [isFinite] at hx hy <;> simp [mul, isFinite]

/-- zero times anything is a zero or NaN -/
theorem IsZero.mul {x : FP f} (h : IsZero x) (y : FP f) : IsZero (x * y) ∨ x * y = nan := by
  by_cases hy : y.isFinite = true
  · left
    rw [mul_finite_eq h.1 hy, h.2, zero_mul, ofQ_zero]
    exact isZero_zeroOf _
  · right
    show FP.mul x y = _
    rcases h.cases with rfl | rfl <;> cases y <;> simp [isFinite] at hy <;> simp [FP.mul, isFinite, val]

/-- two zeros times the same number -/
theorem IsZero.mul_both {x x' : FP f} (h : IsZero x) (h' : IsZero x') (y : FP f) :
    (IsZero (x * y) ∧ IsZero (x' * y)) ∨ (x * y = nan ∧ x' * y = nan) := by
  by_cases hy : y.isFinite = true
  · left
    rw [mul_finite_eq h.1 hy, mul_finite_eq h'.1 hy, h.2, h'.2, zero_mul, ofQ_zero, ofQ_zero]
    exact ⟨isZero_zeroOf _, isZero_zeroOf _⟩
  · right
    constructor
    · show FP.mul x y = _
      rcases h.cases with rfl | rfl <;> cases y <;> simp [isFinite] at hy <;> simp [FP.mul, isFinite, val]
    · show FP.mul x' y = _
      rcases h'.cases with rfl | rfl <;> cases y <;> simp [isFinite] at hy <;> simp [FP.mul, isFinite, val]

theorem Opp.mul {x y : FP f} (h : Opp x y) (c : FP f) : Opp (x * c) (y * c) := by
  rcases h with h | ⟨h1, h2⟩
  · left; rw [h, neg_mul']
  · rcases h1.mul_both h2 c with h | ⟨h3, h4⟩
    · exact Or.inr h
    · left; rw [h3, h4]; rfl

theorem Opp.mul_left {x y : FP f} (h : Opp x y) (c : FP f) : Opp (c * x) (c * y) := by
  rw [mul_comm' c, mul_comm' c]; exact h.mul c

theorem div_finite_eq [Libm f] {x y : FP f} (hx : x.isFinite = true) (hy : y.isFinite = true) (h0 : y.val ≠ 0) :
    x / y = ofQ f (x.sgn ^^ y.sgn) (x.val / y.val) := by
  show div x y = _
  cases x <;> cases y <;> simp [isFinite] at hx hy <;> simp_all [div, isFinite, val]

theorem infOf_not (s : Bool) : (infOf (!s) : FP f) = -(infOf s) := by cases s <;> rfl

theorem neg_div' [Libm f] (a b : FP f) : -a / b = -(a / b) := by
  by_cases han : a = nan
  · subst han; rfl
  by_cases hbn : b = nan
  · subst hbn
    show div (neg a) nan = neg (div a nan)
    cases a with
    | fin q h => by_cases h0 : q = 0 <;> simp [neg, h0, div]
    | _ => simp [neg, div]
  have hdef : ∀ {x y : FP f}, x ≠ nan → y ≠ nan → x / y = if x.isFinite then
      if y.isFinite then
        if y.val = 0 then (if x.val = 0 then nan else infOf (x.sgn ^^ y.sgn))
        else ofQ f (x.sgn ^^ y.sgn) (x.val / y.val)
      else zeroOf (x.sgn ^^ y.sgn)
    else if y.isFinite then infOf (x.sgn ^^ y.sgn)
    else nan := by
    intro x y hx hy
    show div x y = _
    cases x <;> cases y <;> simp_all [div]
  have hna : -a ≠ nan := by
    intro h
    have := isNaN_neg a
    rw [h] at this
    exact han (isNaN_eq_nan this.symm)
  rw [hdef han hbn, hdef hna hbn, isFinite_neg, val_neg]
  by_cases ha : a.isFinite = true
  · rw [sgn_neg_finite ha, if_pos ha, if_pos ha, Bool.not_xor]
    by_cases hb : b.isFinite = true
    · rw [if_pos hb, if_pos hb]
      by_cases hb0 : b.val = 0
      · rw [if_pos hb0, if_pos hb0]
        by_cases ha0 : a.val = 0
        · rw [if_pos (by rw [ha0, neg_zero]), if_pos ha0]; rfl
        · rw [if_neg (by simpa using ha0), if_neg ha0, infOf_not]
      · rw [if_neg hb0, if_neg hb0, neg_div]
        by_cases h0 : a.val / b.val = 0
        · rw [h0, neg_zero, ofQ_zero, ofQ_zero, neg_zeroOf]
        · exact ofQ_neg h0 _ _
    · rw [if_neg hb, if_neg hb, neg_zeroOf]
  · rw [if_neg ha, if_neg ha]
    have hs : (-a).sgn = !a.sgn := by
      show (neg a).sgn = _
      cases a <;> simp_all [isFinite, neg, sgn]
    rw [hs, Bool.not_xor]
    by_cases hb : b.isFinite = true
    · rw [if_pos hb, if_pos hb, infOf_not]
    · rw [if_neg hb, if_neg hb]; rfl

theorem Opp.div [Libm f] {x y : FP f} (h : Opp x y) (c : FP f) : Opp (x / c) (y / c) := by
  rcases h with h | ⟨h1, h2⟩
  · left; rw [h, neg_div']
  · by_cases hc : c.isFinite = true
    · by_cases h0 : c.val = 0
      · have key : ∀ {z : FP f}, IsZero z → z / c = nan := by
          intro z hz
          show FP.div z c = _
          rcases hz.cases with rfl | rfl <;> cases c <;> simp_all [isFinite, FP.div, val]
        left; rw [key h1, key h2]; rfl
      · have key : ∀ {z : FP f}, IsZero z → IsZero (z / c) := by
          intro z hz
          rw [div_finite_eq hz.1 hc h0, hz.2, zero_div, ofQ_zero]
          exact isZero_zeroOf _
        exact Or.inr ⟨key h1, key h2⟩
    · by_cases hn : c = nan
      · have key : ∀ {z : FP f}, IsZero z → z / c = nan := by
          intro z hz
          subst hn
          show FP.div z nan = _
          rcases hz.cases with rfl | rfl <;> rfl
        left; rw [key h1, key h2]; rfl
      · have key : ∀ {z : FP f}, IsZero z → IsZero (z / c) := by
          intro z hz
          have : z / c = zeroOf (z.sgn ^^ c.sgn) := by
            show FP.div z c = _
            rcases hz.cases with rfl | rfl <;> cases c <;> simp_all [isFinite, FP.div]
          rw [this]
          exact isZero_zeroOf _
        exact Or.inr ⟨key h1, key h2⟩

theorem abs_neg' (a : FP f) : abs (-a) = abs a := by
  show abs (neg a) = abs a
  cases a with
  | fin q h =>
    by_cases h0 : q = 0
    · subst h0; simp [neg, abs]
    · rcases lt_or_gt_of_ne h0 with h1 | h1
      · simp [neg, h0, abs, h1, not_lt.2 h1.le]
      · simp [neg, h0, abs, h1, not_lt.2 h1.le]
  | _ => simp [neg, abs]

theorem Opp.abs {x y : FP f} (h : Opp x y) : FP.abs x = FP.abs y := by
  rcases h with h | ⟨h1, h2⟩
  · rw [h, abs_neg']
  · rcases h1.cases with rfl | rfl <;> rcases h2.cases with rfl | rfl <;> simp [FP.abs]

/-- the square does not see the sign -/
theorem Opp.sq {x y : FP f} (h : Opp x y) : x * x = y * y := by
  rcases h with h | ⟨h1, h2⟩
  · rw [h, neg_mul', mul_neg', neg_neg']
  · rw [mul_finite_eq h1.1 h1.1, mul_finite_eq h2.1 h2.1, h1.2, h2.2]
    simp

/-- the same number, or two zeros -/
def Same (x y : FP f) : Prop := y = x ∨ IsZero x ∧ IsZero y

theorem Opp.mul_opp {x x' y y' : FP f} (h : Opp x x') (k : Opp y y') : Same (x * y) (x' * y') := by
  rcases h with h | ⟨h1, h2⟩
  · rcases k with k | ⟨k1, k2⟩
    · left; rw [h, k, neg_mul', mul_neg', neg_neg']
    · have := (Or.inr ⟨k1, k2⟩ : Opp y y')
      rw [h, neg_mul', mul_comm' x, mul_comm' x]
      rcases k1.mul_both k2 x with ⟨a, b⟩ | ⟨a, b⟩
      · exact Or.inr ⟨a, by rw [IsZero, isFinite_neg, val_neg, b.2]; exact ⟨b.1, neg_zero⟩⟩
      · left; rw [a, b]; rfl
  · rcases k with k | ⟨k1, k2⟩
    · rw [k, mul_neg']
      rcases h1.mul_both h2 y with ⟨a, b⟩ | ⟨a, b⟩
      · exact Or.inr ⟨a, by rw [IsZero, isFinite_neg, val_neg, b.2]; exact ⟨b.1, neg_zero⟩⟩
      · left; rw [a, b]; rfl
    · right
      constructor
      · rw [mul_finite_eq h1.1 k1.1, h1.2, zero_mul, ofQ_zero]; exact isZero_zeroOf _
      · rw [mul_finite_eq h2.1 k2.1, h2.2, zero_mul, ofQ_zero]; exact isZero_zeroOf _

theorem Same.mul_left {x y : FP f} (h : Same x y) (c : FP f) : Same (c * x) (c * y) := by
  rcases h with h | ⟨h1, h2⟩
  · left; rw [h]
  · rw [mul_comm' c, mul_comm' c]
    rcases h1.mul_both h2 c with h | ⟨a, b⟩
    · exact Or.inr h
    · left; rw [a, b]

/-- adding either zero to something that is not negative zero -/
theorem Same.add_left {x y : FP f} (h : Same x y) {s : FP f} (hs : s ≠ nzero) : s + x = s + y := by
  rcases h with h | ⟨h1, h2⟩
  · rw [h]
  · by_cases hn : s = nan
    · subst hn; rfl
    by_cases hf : s.isFinite = true
    · have e : ∀ {z : FP f}, IsZero z → s + z = ofQ f (s.sgn && z.sgn) s.val := by
        intro z hz
        show FP.add s z = _
        simp only [FP.add, isNaN_of_finite hf, isNaN_of_finite hz.1, hf, hz.1, hz.2, add_zero, Bool.or_self,
          Bool.false_eq_true, if_false, if_true]
      rw [e h1, e h2]
      by_cases h0 : s.val = 0
      · have : s = fin 0 (isRep_zero f) := by
          rcases IsZero.cases ⟨hf, h0⟩ with h | h
          · exact absurd h hs
          · exact h
        subst this
        simp [sgn]
      · unfold ofQ
        simp only [h0, if_false]
    · have e : ∀ {z : FP f}, IsZero z → s + z = s := by
        intro z hz
        show FP.add s z = _
        have hsn : s.isNaN = false := by
          by_contra hc
          exact hn (isNaN_eq_nan (by simpa using hc))
        simp only [FP.add, hsn, isNaN_of_finite hz.1, hf, hz.1, Bool.or_self,
          Bool.false_eq_true, if_false, if_true]
      rw [e h1, e h2]

theorem ofQ_sgn {q : ℚ} (hq : 0 ≤ q) : (ofQ f false q).sgn = false := by
  unfold ofQ
  split
  · split
    · rw [show (if q = 0 then false else decide (q < 0)) = false by
        split
        · rfl
        · simpa using hq]
      simp [zeroOf, sgn]
    · simpa [sgn] using roundQ_nonneg f hq
  · simp [infOf, not_lt.2 hq, sgn]

theorem sq_sgn (x : FP f) : (x * x).sgn = false := by
  by_cases hx : x.isFinite = true
  · rw [mul_finite_eq hx hx, Bool.xor_self]
    exact ofQ_sgn (mul_self_nonneg _)
  · show (mul x x).sgn = _
    cases x <;> simp_all [isFinite, mul, infOf, sgn]

theorem val_nonneg_of_sgn {x : FP f} (h : x.sgn = false) : 0 ≤ x.val := by
  cases x <;> simp_all [sgn, val]

theorem add_sgn {x y : FP f} (hx : x.sgn = false) (hy : y.sgn = false) : (x + y).sgn = false := by
  show (add x y).sgn = _
  unfold add
  split
  · rfl
  split
  · split
    · rw [hx, Bool.false_and]
      exact ofQ_sgn (add_nonneg (val_nonneg_of_sgn hx) (val_nonneg_of_sgn hy))
    · exact hy
  · split
    · exact hx
    · split
      · exact hx
      · rfl

theorem ne_nzero_of_sgn {x : FP f} (h : x.sgn = false) : x ≠ nzero := by
  rintro rfl; simp [sgn] at h

end FP
end CS
