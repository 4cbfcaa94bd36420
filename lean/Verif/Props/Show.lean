import Verif.Lemmas.Show

/-!
# What printed values tell (C113) and how values are ordered (C114)
-/

namespace CS

namespace Spec
/-- How `f32` and `f64` are printed: digits, sign, decimal point, `inf` and `NaN`; different numbers have
different texts (`-0` differs from `0`; there is one NaN). -/
structure FloatText {f : Fmt} (fmt : FP f → String) : Prop where
  chars : ∀ v, ∀ ch ∈ (fmt v).toList, ch.isDigit = true ∨ ch ∈ ['-', '.', 'i', 'n', 'f', 'N', 'a']
  differ : ∀ v w, fmt v = fmt w → v = w

/-- `cmp` is an order that agrees with `==`, and any two clean values can be compared. -/
structure Ordered {α : Type} (cmp : α → α → Option Ordering) (eqb : α → α → Bool) (clean : α → Prop) : Prop where
  equal : ∀ a b, cmp a b = some .eq ↔ eqb a b = true
  greater : ∀ a b, cmp a b = some .gt ↔ cmp b a = some .lt
  irreflexive : ∀ a, cmp a a ≠ some .lt
  transitive : ∀ a b d, cmp a b = some .lt → cmp b d = some .lt → cmp a d = some .lt
  respects : ∀ a b d, cmp a b = some .eq → cmp a d = cmp b d
  total : ∀ a b, clean a → clean b → cmp a b ≠ none
end Spec

open Spec

section
variable {f : Fmt} {fmt : FP f → String}

theorem FloatText.no_char (h : FloatText fmt) {ch : Char} (hc : ch.isDigit = false)
    (hn : ch ∉ ['-', '.', 'i', 'n', 'f', 'N', 'a']) (v : FP f) : ch ∉ (fmt v).toList := fun m => by
  rcases h.chars v ch m with q | q
  · rw [hc] at q; cases q
  · exact hn q

theorem FloatText.no_comma (h : FloatText fmt) (v : FP f) : ',' ∉ (fmt v).toList :=
  FloatText.no_char h (by decide) (by decide) v

theorem FloatText.not_varying (h : FloatText fmt) (v : FP f) : fmt v ≠ "Varying" := fun e => by
  have := FloatText.no_char h (ch := 'V') (by decide) (by decide) v
  rw [e] at this
  exact this (by decide)

theorem interval_text (h : FloatText fmt) {a b : Interval (FP f)} (e : a.display fmt = b.display fmt) : a = b := by
  cases a <;> cases b <;> simp only [Interval.display] at e
  · rw [h.differ _ _ e]
  · exact absurd e (FloatText.not_varying h _)
  · exact absurd e.symm (FloatText.not_varying h _)
  · rfl

theorem interval_paren (h : FloatText fmt) (a : Interval (FP f)) : ')' ∉ (a.display fmt).toList := by
  cases a
  · exact FloatText.no_char h (by decide) (by decide) _
  · simp only [Interval.display]; decide

/-! ## C113 -/

/-- C113 [G]: two 8-bit colours have the same text only if they are the same colour. -/
theorem C113_u8 (a b : RGBu8) : a.display = b.display ↔ a = b := by
  refine ⟨fun h => ?_, fun h => by rw [h]⟩
  obtain ⟨p, q, r⟩ := triple_inj (digit_ne (by decide)) (digit_ne (by decide)) (digit_ne (by decide))
    (digit_ne (by decide)) h
  ext1
  · exact UInt8.toNat_inj.1 (Nat.repr_injective p)
  · exact UInt8.toNat_inj.1 (Nat.repr_injective q)
  · exact UInt8.toNat_inj.1 (Nat.repr_injective r)

/-- C113 [G]: the same for 16-bit colours. -/
theorem C113_u16 (a b : RGBu16) : a.display = b.display ↔ a = b := by
  refine ⟨fun h => ?_, fun h => by rw [h]⟩
  obtain ⟨p, q, r⟩ := triple_inj (digit_ne (by decide)) (digit_ne (by decide)) (digit_ne (by decide))
    (digit_ne (by decide)) h
  ext1
  · exact UInt16.toNat_inj.1 (Nat.repr_injective p)
  · exact UInt16.toNat_inj.1 (Nat.repr_injective q)
  · exact UInt16.toNat_inj.1 (Nat.repr_injective r)

example : (⟨1, 23, 255⟩ : RGBu8).display = "(1, 23, 255)" ∧ (⟨12, 3, 255⟩ : RGBu8).display = "(12, 3, 255)" := by
  decide +kernel

/-- C113 [F]: two floating-point colours have the same text only if they are the same colour. -/
theorem C113_rgb (h : FloatText fmt) (a b : RGBf (FP f)) : a.display fmt = b.display fmt ↔ a = b := by
  refine ⟨fun e => ?_, fun e => by rw [e]⟩
  obtain ⟨p, q, r⟩ := triple_inj (FloatText.no_comma h _) (FloatText.no_comma h _) (FloatText.no_comma h _)
    (FloatText.no_comma h _) e
  ext1
  · exact h.differ _ _ p
  · exact h.differ _ _ q
  · exact h.differ _ _ r

/-- C113 [F]: the same for tristimulus values. -/
theorem C113_xyz (h : FloatText fmt) (a b : XYZ (FP f)) : a.display fmt = b.display fmt ↔ a = b := by
  refine ⟨fun e => ?_, fun e => by rw [e]⟩
  obtain ⟨p, q, r⟩ := triple_inj (FloatText.no_comma h _) (FloatText.no_comma h _) (FloatText.no_comma h _)
    (FloatText.no_comma h _) e
  ext1
  · exact h.differ _ _ p
  · exact h.differ _ _ q
  · exact h.differ _ _ r

/-- C113 [F]: the same for shapes of spectra, where a varying interval is told from every number. -/
theorem C113_shape (h : FloatText fmt) (a b : SpdShape (FP f)) : a.display fmt = b.display fmt ↔ a = b := by
  refine ⟨fun e => ?_, fun e => by rw [e]⟩
  obtain ⟨p, q, r⟩ := triple_inj (FloatText.no_comma h _) (FloatText.no_comma h _) (FloatText.no_comma h _)
    (FloatText.no_comma h _) e
  obtain ⟨s, t, i⟩ := a
  obtain ⟨s', t', i'⟩ := b
  simp only [SpdShape.mk.injEq]
  exact ⟨h.differ _ _ p, h.differ _ _ q, interval_text h r⟩

/-- C113 [F]: the text of a spectrum with forty values determines the values. -/
theorem C113_spd (h : FloatText fmt) (a b : SPD (FP f)) :
    a.display fmt = b.display fmt ↔ ∀ i, a.values i = b.values i := by
  refine ⟨fun e => ?_, fun e => by
    have : a.values = b.values := funext e
    simp only [SPD.display, this]⟩
  have h1 := items_inj (by intro s m; simp only [List.mem_map] at m; obtain ⟨v, -, rfl⟩ := m; exact FloatText.no_comma h v)
    (by intro s m; simp only [List.mem_map] at m; obtain ⟨v, -, rfl⟩ := m; exact FloatText.no_comma h v) (cut_left e)
  have h2 := List.map_injective_iff.2 (fun v w k => h.differ v w k) h1
  have h3 := List.ofFn_injective h2
  exact fun i => congrFun h3 i

theorem samples_text (h : FloatText fmt) {l m : List (Sample (FP f))}
    (e : displayItems (l.map (Sample.display fmt)) = displayItems (m.map (Sample.display fmt))) : l = m := by
  induction l generalizing m with
  | nil =>
    cases m with
    | nil => rfl
    | cons t m =>
      exfalso
      have h' := congrArg String.toList e
      simp only [List.map_cons, List.map_nil, displayItems, String.toList_append] at h'
      have : ',' ∈ ("]" : String).toList := by rw [h']; simp
      revert this; decide
  | cons s l ih =>
    cases m with
    | nil =>
      exfalso
      have h' := congrArg String.toList e
      simp only [List.map_cons, List.map_nil, displayItems, String.toList_append] at h'
      have : ',' ∈ ("]" : String).toList := by rw [← h']; simp
      revert this; decide
    | cons t m =>
      simp only [List.map_cons, displayItems, Sample.display, String.append_assoc] at e
      obtain ⟨p, e⟩ := cut_comma (FloatText.no_comma h _) (FloatText.no_comma h _) (cut_left e)
      obtain ⟨q, e⟩ := cut_paren (FloatText.no_char h (by decide) (by decide) _)
        (FloatText.no_char h (by decide) (by decide) _) e
      rw [ih (cut_left e)]
      congr 1
      ext1
      · exact h.differ _ _ p
      · exact h.differ _ _ q

/-- C113 [F]: the text of a sampled spectrum determines its samples and its shape. -/
theorem C113_vspd (h : FloatText fmt) (a b : VSPD (FP f)) :
    a.display fmt = b.display fmt ↔ a.samples = b.samples ∧ a.shape = b.shape := by
  refine ⟨fun e => ?_, fun e => by simp only [VSPD.display, e.1, e.2]⟩
  simp only [VSPD.display, String.append_assoc] at e
  have k : (")[" : String) = ")" ++ "[" := rfl
  obtain ⟨p, e⟩ := cut_comma (FloatText.no_comma h _) (FloatText.no_comma h _) (cut_left e)
  obtain ⟨q, e⟩ := cut_comma (FloatText.no_comma h _) (FloatText.no_comma h _) e
  rw [k, String.append_assoc, String.append_assoc] at e
  obtain ⟨r, e⟩ := cut_paren (interval_paren h _) (interval_paren h _) e
  refine ⟨samples_text h (cut_left e), ?_⟩
  obtain ⟨l, s, t, i⟩ := a
  obtain ⟨l', s', t', i'⟩ := b
  simp only [SpdShape.mk.injEq]
  exact ⟨h.differ _ _ p, h.differ _ _ q, interval_text h r⟩

/-- A way of printing numbers that meets the assumption: numerator, point, denominator. -/
def sampleText : FP f → String
  | .fin q _ => q.num.repr ++ "." ++ q.den.repr
  | .nzero => "-"
  | .pinf => "inf"
  | .ninf => "-inf"
  | .nan => "NaN"

theorem repr_chars (n : ℕ) : ∀ ch ∈ n.repr.toList, ch.isDigit = true := fun ch m => by
  rw [Nat.toList_repr] at m
  exact Nat.isDigit_of_mem_toDigits (by norm_num) (by norm_num) m

theorem int_chars (n : ℤ) : ∀ ch ∈ n.repr.toList, ch.isDigit = true ∨ ch = '-' := fun ch m => by
  rw [Int.repr_eq_if] at m
  split_ifs at m
  · exact Or.inl (repr_chars _ ch m)
  · rw [String.toList_append, List.mem_append] at m
    rcases m with m | m
    · right
      simpa using m
    · exact Or.inl (repr_chars _ ch m)

theorem sampleText_point (q : ℚ) (h : IsRep f q) : '.' ∈ (sampleText (.fin q h)).toList := by
  simp only [sampleText, String.toList_append, List.mem_append]
  exact Or.inl (Or.inr (by decide))

example : FloatText (sampleText (f := f)) where
  chars v ch m := by
    cases v with
    | fin q h =>
      simp only [sampleText, String.toList_append, List.mem_append] at m
      rcases m with (m | m) | m
      · rcases int_chars _ ch m with k | k
        · exact Or.inl k
        · right; rw [k]; decide
      · right
        have : ch = '.' := by simpa using m
        rw [this]; decide
      · exact Or.inl (repr_chars _ ch m)
    | nzero => exact Or.inr ((by decide : ∀ ch ∈ ("-" : String).toList, ch ∈ ['-', '.', 'i', 'n', 'f', 'N', 'a']) ch m)
    | pinf => exact Or.inr ((by decide : ∀ ch ∈ ("inf" : String).toList, ch ∈ ['-', '.', 'i', 'n', 'f', 'N', 'a']) ch m)
    | ninf => exact Or.inr ((by decide : ∀ ch ∈ ("-inf" : String).toList, ch ∈ ['-', '.', 'i', 'n', 'f', 'N', 'a']) ch m)
    | nan => exact Or.inr ((by decide : ∀ ch ∈ ("NaN" : String).toList, ch ∈ ['-', '.', 'i', 'n', 'f', 'N', 'a']) ch m)
  differ v w e := by
    have no : ∀ s : String, '.' ∉ s.toList → ∀ q h, sampleText (f := f) (.fin q h) ≠ s :=
      fun s hs q h k => hs (k ▸ sampleText_point q h)
    cases v with
    | fin q h =>
      cases w with
      | fin r k =>
        have h' := congrArg String.toList e
        simp only [sampleText, String.toList_append, List.append_assoc] at h'
        have c : ("." : String).toList = ['.'] := rfl
        rw [c] at h'
        simp only [List.cons_append, List.nil_append] at h'
        have nd : ∀ n : ℤ, '.' ∉ n.repr.toList := fun n m => by
          rcases int_chars n _ m with k | k <;> revert k <;> decide
        obtain ⟨a, b⟩ := cut (nd _) (nd _) h'
        have a' := Int.repr_injective (toList_eq a)
        have b' := Nat.repr_injective (toList_eq b)
        have : q = r := Rat.ext a' b'
        subst this
        rfl
      | nzero => exact absurd e (no "-" (by decide) q h)
      | pinf => exact absurd e (no "inf" (by decide) q h)
      | ninf => exact absurd e (no "-inf" (by decide) q h)
      | nan => exact absurd e (no "NaN" (by decide) q h)
    | nzero =>
      cases w with
      | fin q h => exact absurd e.symm (no "-" (by decide) q h)
      | _ => first | rfl | (simp only [sampleText] at e; exact absurd e (by decide))
    | pinf =>
      cases w with
      | fin q h => exact absurd e.symm (no "inf" (by decide) q h)
      | _ => first | rfl | (simp only [sampleText] at e; exact absurd e (by decide))
    | ninf =>
      cases w with
      | fin q h => exact absurd e.symm (no "-inf" (by decide) q h)
      | _ => first | rfl | (simp only [sampleText] at e; exact absurd e (by decide))
    | nan =>
      cases w with
      | fin q h => exact absurd e.symm (no "NaN" (by decide) q h)
      | _ => first | rfl | (simp only [sampleText] at e; exact absurd e (by decide))

end

/-! ## C114 -/

section
variable {f : Fmt} [Libm f]

theorem Ordered.of_good {α : Type} {c : α → α → Option Ordering} {e : α → α → Bool} {k : α → Prop} (g : GoodCmp c e)
    (t : ∀ a b, k a → k b → c a b ≠ none) : Ordered c e k where
  equal := g.eq_iff
  greater a b := by
    rw [g.swap a b]
    rcases c a b with _ | _ | _ | _ <;> simp
  irreflexive a h := by
    have := g.swap a a
    rw [h] at this
    simp at this
  transitive := g.trans
  respects := g.left
  total := t

theorem cmp_some (a b : FP f) (ha : a.isNaN = false) (hb : b.isNaN = false) : partialCmp a b ≠ none := by
  obtain ⟨x, hx⟩ := FP.ext_of_not_nan ha
  obtain ⟨y, hy⟩ := FP.ext_of_not_nan hb
  rw [partialCmp_ext, hx, hy]
  simp

theorem cmpThen_some {o p : Option Ordering} (ho : o ≠ none) (hp : p ≠ none) : cmpThen o p ≠ none := by
  rcases o with _ | _ | _ | _ <;> simp_all [cmpThen]

theorem lex_lt {o p q : Option Ordering} : cmpThen o (cmpThen p q) = some .lt ↔
    o = some .lt ∨ o = some .eq ∧ (p = some .lt ∨ p = some .eq ∧ q = some .lt) := by
  rcases o with _ | _ | _ | _ <;> rcases p with _ | _ | _ | _ <;> simp [cmpThen]

omit [Libm f] in
theorem cmp_lt_nat (a b : ℕ) : some (compare a b) = some Ordering.lt ↔ a < b := by
  rw [Option.some.injEq, Nat.compare_eq_lt]

theorem cmp_lt (a b : FP f) : partialCmp a b = some .lt ↔ Flt.lt a b = true := by
  rw [partialCmp_ext]
  show _ ↔ FP.lt a b = true
  unfold FP.lt
  cases a.ext <;> cases b.ext <;> simp only [reduceCtorEq, Bool.false_eq_true, decide_eq_true_eq, Option.some.injEq]
  split_ifs with h1 h2 <;> simp [h1]

/-- C114 [G]: 8-bit colours are totally ordered: by red, then green, then blue. -/
theorem C114_u8 : Ordered RGBu8.partialCmp (fun a b => a == b) (fun _ => True) ∧
    ∀ a b : RGBu8, a.partialCmp b = some .lt ↔
      a.r < b.r ∨ a.r = b.r ∧ (a.g < b.g ∨ a.g = b.g ∧ a.b < b.b) := by
  constructor
  · have g := good_nat.then (good_nat.then good_nat (fun c : RGBu8 => c.g.toNat) (fun c => c.b.toNat))
      (fun c : RGBu8 => c.r.toNat) id
    have e : (fun a b : RGBu8 => (a.r.toNat == b.r.toNat) && ((a.g.toNat == b.g.toNat) && (a.b.toNat == b.b.toNat)))
        = fun a b => a == b := by
      funext a b
      rw [Bool.eq_iff_iff]
      simp [RGBu8.ext_iff, ← UInt8.toNat_inj]
    refine Ordered.of_good (e ▸ g) fun a b _ _ => ?_
    exact cmpThen_some (by simp) (cmpThen_some (by simp) (by simp))
  · intro a b
    unfold RGBu8.partialCmp
    rw [lex_lt, cmp_lt_nat, cmp_lt_nat, cmp_lt_nat]
    simp [UInt8.lt_iff_toNat_lt, ← UInt8.toNat_inj]

/-- C114 [G]: 16-bit colours are totally ordered in the same way. -/
theorem C114_u16 : Ordered RGBu16.partialCmp (fun a b => a == b) (fun _ => True) ∧
    ∀ a b : RGBu16, a.partialCmp b = some .lt ↔
      a.r < b.r ∨ a.r = b.r ∧ (a.g < b.g ∨ a.g = b.g ∧ a.b < b.b) := by
  constructor
  · have g := good_nat.then (good_nat.then good_nat (fun c : RGBu16 => c.g.toNat) (fun c => c.b.toNat))
      (fun c : RGBu16 => c.r.toNat) id
    have e : (fun a b : RGBu16 => (a.r.toNat == b.r.toNat) && ((a.g.toNat == b.g.toNat) && (a.b.toNat == b.b.toNat)))
        = fun a b => a == b := by
      funext a b
      rw [Bool.eq_iff_iff]
      simp [RGBu16.ext_iff, ← UInt16.toNat_inj]
    refine Ordered.of_good (e ▸ g) fun a b _ _ => ?_
    exact cmpThen_some (by simp) (cmpThen_some (by simp) (by simp))
  · intro a b
    unfold RGBu16.partialCmp
    rw [lex_lt, cmp_lt_nat, cmp_lt_nat, cmp_lt_nat]
    simp [UInt16.lt_iff_toNat_lt, ← UInt16.toNat_inj]

example : (⟨1, 200, 3⟩ : RGBu8).partialCmp ⟨1, 201, 2⟩ = some .lt := by decide

/-- C114 [F]: floating-point colours are ordered by red, then green, then blue, in agreement with `==`. Colours
without NaN can always be compared. -/
theorem C114_rgb : Ordered (RGBf.partialCmp (T := FP f)) RGBf.eqb
      (fun c => c.r.isNaN = false ∧ c.g.isNaN = false ∧ c.b.isNaN = false) ∧
    ∀ a b : RGBf (FP f), a.partialCmp b = some .lt ↔ Flt.lt a.r b.r = true ∨ Flt.eqb a.r b.r = true ∧
      (Flt.lt a.g b.g = true ∨ Flt.eqb a.g b.g = true ∧ Flt.lt a.b b.b = true) := by
  constructor
  · have g := good_fp.then (good_fp.then good_fp (fun c : RGBf (FP f) => c.g) (fun c => c.b))
      (fun c : RGBf (FP f) => c.r) id
    have e : (fun a b : RGBf (FP f) => (Flt.eqb a.r b.r && (Flt.eqb a.g b.g && Flt.eqb a.b b.b))) = RGBf.eqb := by
      funext a b
      simp [RGBf.eqb, Bool.and_assoc]
    refine Ordered.of_good (e ▸ g) fun a b ha hb => ?_
    exact cmpThen_some (cmp_some _ _ ha.1 hb.1) (cmpThen_some (cmp_some _ _ ha.2.1 hb.2.1) (cmp_some _ _ ha.2.2 hb.2.2))
  · intro a b
    unfold RGBf.partialCmp
    rw [lex_lt, cmp_lt, cmp_lt, cmp_lt, good_fp.eq_iff, good_fp.eq_iff]

/-- C114 [F]: tristimulus values are ordered by X, then Y, then Z. -/
theorem C114_xyz : Ordered (XYZ.partialCmp (T := FP f)) XYZ.eqb
      (fun c => c.x.isNaN = false ∧ c.y.isNaN = false ∧ c.z.isNaN = false) ∧
    ∀ a b : XYZ (FP f), a.partialCmp b = some .lt ↔ Flt.lt a.x b.x = true ∨ Flt.eqb a.x b.x = true ∧
      (Flt.lt a.y b.y = true ∨ Flt.eqb a.y b.y = true ∧ Flt.lt a.z b.z = true) := by
  constructor
  · have g := good_fp.then (good_fp.then good_fp (fun c : XYZ (FP f) => c.y) (fun c => c.z))
      (fun c : XYZ (FP f) => c.x) id
    have e : (fun a b : XYZ (FP f) => (Flt.eqb a.x b.x && (Flt.eqb a.y b.y && Flt.eqb a.z b.z))) = XYZ.eqb := by
      funext a b
      simp [XYZ.eqb, Bool.and_assoc]
    refine Ordered.of_good (e ▸ g) fun a b ha hb => ?_
    exact cmpThen_some (cmp_some _ _ ha.1 hb.1) (cmpThen_some (cmp_some _ _ ha.2.1 hb.2.1) (cmp_some _ _ ha.2.2 hb.2.2))
  · intro a b
    unfold XYZ.partialCmp
    rw [lex_lt, cmp_lt, cmp_lt, cmp_lt, good_fp.eq_iff, good_fp.eq_iff]

/-- C114 [F]: chromaticities are ordered by x, then y, then luminance. -/
theorem C114_xyy (a b : XYY (FP f)) : a.partialCmp b = some .lt ↔ Flt.lt a.x b.x = true ∨ Flt.eqb a.x b.x = true ∧
      (Flt.lt a.y b.y = true ∨ Flt.eqb a.y b.y = true ∧ Flt.lt a.Y b.Y = true) := by
  unfold XYY.partialCmp
  rw [lex_lt, cmp_lt, cmp_lt, cmp_lt, good_fp.eq_iff, good_fp.eq_iff]

theorem good_interval : GoodCmp (Interval.partialCmp (T := FP f)) Interval.eqb where
  eq_iff a b := by
    cases a <;> cases b <;> simp [Interval.partialCmp, Interval.eqb, good_fp.eq_iff]
  swap a b := by
    cases a <;> cases b <;> simp only [Interval.partialCmp, Option.map_some, Ordering.swap]
    exact good_fp.swap _ _
  trans a b d h1 h2 := by
    cases a <;> cases b <;> cases d <;> simp only [Interval.partialCmp, reduceCtorEq, Option.some.injEq] at h1 h2 ⊢
    exact good_fp.trans _ _ _ h1 h2
  left a b d h1 := by
    cases a <;> cases b <;> cases d <;> simp only [Interval.partialCmp, reduceCtorEq, Option.some.injEq] at h1 ⊢
    exact good_fp.left _ _ _ h1

/-- C114 [F]: shapes of spectra are ordered by start, then end, then interval, and a varying interval comes after
every uniform one. -/
theorem C114_shape : Ordered (SpdShape.partialCmp (T := FP f)) SpdShape.eqb
      (fun s => s.start.isNaN = false ∧ s.end.isNaN = false ∧ s.interval ≠ .uniform .nan) ∧
    ∀ (s t i : FP f), s.isNaN = false → t.isNaN = false →
      (⟨s, t, .uniform i⟩ : SpdShape (FP f)).partialCmp ⟨s, t, .varying⟩ = some .lt := by
  constructor
  · have g := good_fp.then (good_fp.then good_interval (fun c : SpdShape (FP f) => c.end) (fun c => c.interval))
      (fun c : SpdShape (FP f) => c.start) id
    have e : (fun a b : SpdShape (FP f) => (Flt.eqb a.start b.start && (Flt.eqb a.end b.end && a.interval.eqb b.interval)))
        = SpdShape.eqb := by
      funext a b
      simp [SpdShape.eqb, Bool.and_assoc]
    refine Ordered.of_good (e ▸ g) fun a b ha hb => ?_
    refine cmpThen_some (cmp_some _ _ ha.1 hb.1) (cmpThen_some (cmp_some _ _ ha.2.1 hb.2.1) ?_)
    have h1 := ha.2.2
    have h2 := hb.2.2
    cases ha' : a.interval <;> cases hb' : b.interval <;> simp only [Interval.partialCmp, ne_eq, reduceCtorEq, not_false_eq_true]
    rename_i i j
    refine cmp_some _ _ ?_ ?_
    · cases hn : i.isNaN
      · rfl
      · rw [ha', FP.isNaN_eq_nan hn] at h1; exact absurd rfl h1
    · cases hn : j.isNaN
      · rfl
      · rw [hb', FP.isNaN_eq_nan hn] at h2; exact absurd rfl h2
  · intro s t i hs ht
    have refl : ∀ v : FP f, v.isNaN = false → partialCmp v v = some .eq := fun v hv => by
      obtain ⟨x, hx⟩ := FP.ext_of_not_nan hv
      rw [partialCmp_ext, hx]; simp
    simp only [SpdShape.partialCmp, refl s hs, refl t ht, Interval.partialCmp, cmpThen]

/-- C114 [F]: a colour with a NaN component is not ordered with itself. -/
theorem C114_nan_counterexample : (⟨.nan, FP.lit 0, FP.lit 0⟩ : RGBf (FP f)).partialCmp ⟨.nan, FP.lit 0, FP.lit 0⟩ = none := by
  have : partialCmp (FP.nan : FP f) FP.nan = none := by rw [partialCmp_ext]; rfl
  simp only [RGBf.partialCmp, this, cmpThen]

end

end CS
