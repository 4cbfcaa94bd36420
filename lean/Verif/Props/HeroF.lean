import Verif.Props.Hero
import Verif.Props.SpragueShipped
import Verif.Lemmas.FPIn

/-!
# Hero-wavelength sampling in floating point (C120)
-/

namespace CS

section
variable {f : Fmt} [Libm f]

/-! ## Helper lemmas -/

theorem hero_consts (hf : Std f) : In (heroStart : FP f) 360 360 ∧ In (heroEnd : FP f) 780 780 ∧
    In (heroRange : FP f) 420 420 ∧ In (heroRange / Flt.lit 4.0 : FP f) 105 105 ∧
    In (Flt.lit 2.0 * heroRange / Flt.lit 4.0 : FP f) 210 210 ∧ In (Flt.lit 3.0 * heroRange / Flt.lit 4.0 : FP f) 315 315 := by
  have a : In (heroStart : FP f) 360 360 := in_lit hf (by short) (by short) (by norm_num) (by norm_num)
  have b : In (heroEnd : FP f) 780 780 := in_lit hf (by short) (by short) (by norm_num) (by norm_num)
  have c2 : In (Flt.lit 2.0 : FP f) 2 2 := in_lit hf (by short) (by short) (by norm_num) (by norm_num)
  have c3 : In (Flt.lit 3.0 : FP f) 3 3 := in_lit hf (by short) (by short) (by norm_num) (by norm_num)
  have c4 : In (Flt.lit 4.0 : FP f) 4 4 := in_lit hf (by short) (by short) (by norm_num) (by norm_num)
  have r : In (heroRange : FP f) 420 420 := b.sub hf a (by short) (by short) (by norm_num) (by norm_num)
  have v4 : (Flt.lit 4.0 : FP f).val = 4 := le_antisymm c4.2.2 c4.2.1
  have rv : (heroRange : FP f).val = 420 := le_antisymm r.2.2 r.2.1
  have r2 : In (Flt.lit 2.0 * heroRange : FP f) 840 840 :=
    c2.mul hf r (by norm_num) (by norm_num) (by short) (by short) (by norm_num) (by norm_num)
  have r3 : In (Flt.lit 3.0 * heroRange : FP f) 1260 1260 :=
    c3.mul hf r (by norm_num) (by norm_num) (by short) (by short) (by norm_num) (by norm_num)
  have v2 := le_antisymm r2.2.2 r2.2.1
  have v3 := le_antisymm r3.2.2 r3.2.1
  refine ⟨a, b, r, ?_, ?_, ?_⟩
  · exact (In.div_gen hf r.1 c4.1 (by rw [v4]; norm_num) (by short) (by short) (by rw [v4, rv]; norm_num)
      (by rw [v4, rv]; norm_num)).2
  · exact (In.div_gen hf r2.1 c4.1 (by rw [v4]; norm_num) (by short) (by short) (by rw [v4, v2]; norm_num)
      (by rw [v4, v2]; norm_num)).2
  · exact (In.div_gen hf r3.1 c4.1 (by rw [v4]; norm_num) (by short) (by short) (by rw [v4, v3]; norm_num)
      (by rw [v4, v3]; norm_num)).2

theorem short_nat (n : ℕ) (h : n ≤ 2 ^ 24) : Short (n : ℚ) :=
  ⟨n, 0, by simp, by rw [Nat.abs_cast]; exact_mod_cast h, by norm_num, by norm_num⟩

theorem in_ofNat (hf : Std f) (n : ℕ) (h : n ≤ 2 ^ 24) : In (Flt.ofNat n : FP f) n n := by
  show In (FP.ofQ f false (n : ℚ)) n n
  exact (in_round hf false (short_nat n h) (short_nat n h) le_rfl le_rfl).2.2

/-- wrapping around -/
theorem in_wrap (hf : Std f) {l : FP f} (hl : In l 360 1095) :
    In (heroWrap l) 360 780 ∧ (heroWrap l).val < 780 ∧
    (780 ≤ l.val → (heroWrap l).val = roundQ f (l.val - 420)) ∧ (l.val < 780 → heroWrap l = l) := by
  obtain ⟨-, b, r, -⟩ := hero_consts hf
  have bv : (heroEnd : FP f).val = 780 := le_antisymm b.2.2 b.2.1
  have rv : (heroRange : FP f).val = 420 := le_antisymm r.2.2 r.2.1
  unfold heroWrap
  show In (if FP.le (heroEnd : FP f) l = true then _ else _) _ _ ∧ (if FP.le (heroEnd : FP f) l = true then _ else _ : FP f).val < _ ∧
    (_ → (if FP.le (heroEnd : FP f) l = true then _ else _ : FP f).val = _) ∧
    (_ → (if FP.le (heroEnd : FP f) l = true then _ else _ : FP f) = _)
  rw [FP.le_finite b.1 hl.1, bv]
  by_cases h : 780 ≤ l.val
  · simp only [h, decide_true, if_true]
    have hl' : In l 780 1095 := ⟨hl.1, h, hl.2.2⟩
    obtain ⟨e, i⟩ := hl'.sub' hf r (L := 360) (H := 675) (by short) (by short) (by norm_num) (by norm_num)
    refine ⟨i.mono le_rfl (by norm_num), lt_of_le_of_lt i.2.2 (by norm_num), fun _ => by rw [e, rv], fun h' => ?_⟩
    exact absurd h (not_le.2 h')
  · simp only [h, decide_false]
    have h' := not_le.1 h
    exact ⟨⟨hl.1, hl.2.1, h'.le⟩, h', fun h'' => h''.elim, fun _ => rfl⟩

/-- C120 [F]: in f32 and f64, whatever finite number from 0 to 1 is drawn, the four wavelengths are finite, at least 360 nm
and below 780 nm. -/
theorem C120_wavelengths (hf : Std f) (n i : ℕ) (hi : i < n) (hn : n ≤ 2 ^ 24) (u : FP f) (hu : u.isFinite = true)
    (h0 : 0 ≤ u.val) (h1 : u.val ≤ 1) (l : FP f) (hl : l ∈ heroLambda n i u) :
    l.isFinite = true ∧ 360 ≤ l.val ∧ l.val < 780 := by
  obtain ⟨a, -, r, k1, k2, k3⟩ := hero_consts hf
  have ei := in_ofNat hf i (by omega)
  have en := in_ofNat hf n hn
  have nv : (Flt.ofNat n : FP f).val = n := le_antisymm en.2.2 en.2.1
  have hn0 : (0 : ℚ) < n := by exact_mod_cast (by omega : 0 < n)
  have hin : (i : ℚ) + 1 ≤ n := by exact_mod_cast hi
  have s1 : In (Flt.ofNat i + u) 0 n := ei.add hf (l' := 0) (h' := 1) ⟨hu, h0, h1⟩ (by short) (short_nat n hn)
    (by have : (0 : ℚ) ≤ i := Nat.cast_nonneg i
        linarith) hin
  have s2 : In (heroX n i u) 0 1 := by
    refine (In.div_gen hf s1.1 en.1 (by rw [nv]; exact hn0.ne') (by short) (by short) ?_ ?_).2
    · rw [nv]; exact div_nonneg s1.2.1 hn0.le
    · rw [nv, div_le_one hn0]; exact s1.2.2
  have s3 : In (heroX n i u * heroRange) 0 420 :=
    s2.mul hf r (by norm_num) (by norm_num) (by short) (by short) (by norm_num) (by norm_num)
  have s4 : In (heroStart + heroX n i u * heroRange) 360 780 :=
    a.add hf s3 (by short) (by short) (by norm_num) (by norm_num)
  have key : ∀ t : FP f, In t 0 315 → In (heroStart + heroX n i u * heroRange + t) 360 1095 := fun t ht =>
    s4.add hf ht (by short) (by short) (by norm_num) (by norm_num)
  unfold heroLambda at hl
  simp only [List.map_cons, List.map_nil, List.mem_cons, List.not_mem_nil, or_false] at hl
  have fin : ∀ t : FP f, In t 360 1095 → (heroWrap t).isFinite = true ∧ 360 ≤ (heroWrap t).val ∧ (heroWrap t).val < 780 :=
    fun t ht => ⟨(in_wrap hf ht).1.1, (in_wrap hf ht).1.2.1, (in_wrap hf ht).2.1⟩
  rcases hl with rfl | rfl | rfl | rfl
  · exact fin _ (s4.mono le_rfl (by norm_num))
  · exact fin _ (key _ (k1.mono (by norm_num) (by norm_num)))
  · exact fin _ (key _ (k2.mono (by norm_num) (by norm_num)))
  · exact fin _ (key _ (k3.mono (by norm_num) (by norm_num)))

example [Libm Fmt.b64] : ∃ l ∈ heroLambda 16384 16383 (FP.lit (1/2) : FP Fmt.b64), l.isFinite = true ∧ 360 ≤ l.val ∧ l.val < 780 :=
  have h : (FP.lit (1/2) : FP Fmt.b64).isFinite = true ∧ 0 ≤ (FP.lit (1/2) : FP Fmt.b64).val ∧
    (FP.lit (1/2) : FP Fmt.b64).val ≤ 1 := of_decide_eq_true (by krefl)
  ⟨_, List.mem_cons_self, C120_wavelengths std_b64 16384 16383 (by norm_num) (by norm_num) _ h.1 h.2.1 h.2.2 _ List.mem_cons_self⟩

theorem short_frac (m : ℕ) (h : m ≤ 2 ^ 24) : Short ((m : ℚ) / 4096) :=
  ⟨m, -12, by rw [zpow_neg]; norm_num [div_eq_mul_inv], by rw [Nat.abs_cast]; exact_mod_cast h, by norm_num, by norm_num⟩

/-- where stratum `j` of 16384 starts -/
def Spec.edge (j : ℕ) : ℚ := 360 + 420 * j / 16384

theorem edge_short (j : ℕ) (h : j ≤ 28672) : Short (Spec.edge j) := by
  have e : Spec.edge j = ((360 * 4096 + 105 * j : ℕ) : ℚ) / 4096 := by
    unfold Spec.edge; push_cast; ring
  rw [e]
  exact short_frac _ (by omega)

theorem edge_mono {i j : ℕ} (h : i ≤ j) : Spec.edge i ≤ Spec.edge j := by
  unfold Spec.edge
  have : (i : ℚ) ≤ j := by exact_mod_cast h
  linarith

/-- C120 [F]: with 16384 samples the four wavelengths fall into the four strata a quarter of the range apart, each stratum
taken with its upper end, except that a wavelength that would round to 780 nm is taken at 360 nm instead. -/
theorem C120_strata (hf : Std f) (i k : ℕ) (hi : i < heroSamples) (hk : k < 4) (u l : FP f) (hu : u.isFinite = true)
    (h0 : 0 ≤ u.val) (h1 : u.val ≤ 1) (hl : (heroLambda heroSamples i u)[k]? = some l) :
    l.isFinite = true ∧
    ((Spec.edge ((i + k * 4096) % 16384) ≤ l.val ∧ l.val ≤ Spec.edge ((i + k * 4096) % 16384 + 1)) ∨
      ((i + k * 4096) % 16384 = 16383 ∧ l.val = 360)) := by
  obtain ⟨a, -, r, k1, k2, k3⟩ := hero_consts hf
  have rv : (heroRange : FP f).val = 420 := le_antisymm r.2.2 r.2.1
  unfold heroSamples at hi hl
  have ei := in_ofNat hf i (by omega)
  have en := in_ofNat hf 16384 (by norm_num)
  have nv : (Flt.ofNat 16384 : FP f).val = 16384 := by have := le_antisymm en.2.2 en.2.1; simpa using this
  have hi0 : (0 : ℚ) ≤ i := Nat.cast_nonneg i
  have sh : ∀ (m : ℕ), m ≤ 16384 → Short ((m : ℚ) / 16384) := fun m hm =>
    ⟨m, -14, by rw [zpow_neg]; norm_num [div_eq_mul_inv], by rw [Nat.abs_cast]; exact_mod_cast (by omega : m ≤ 2 ^ 24),
      by norm_num, by norm_num⟩
  have sh2 : ∀ (m : ℕ), m ≤ 16384 → Short (420 * (m : ℚ) / 16384) := fun m hm => by
    have e : 420 * (m : ℚ) / 16384 = ((105 * m : ℕ) : ℚ) / 4096 := by push_cast; ring
    rw [e]; exact short_frac _ (by omega)
  have s1 : In (Flt.ofNat i + u) (i : ℕ) ((i + 1 : ℕ) : ℚ) := ei.add hf (l' := 0) (h' := 1) ⟨hu, h0, h1⟩
    (short_nat i (by omega)) (short_nat _ (by omega)) (by linarith) (by push_cast; linarith)
  have s2 : In (heroX 16384 i u) ((i : ℚ) / 16384) (((i + 1 : ℕ) : ℚ) / 16384) := by
    refine (In.div_gen hf s1.1 en.1 (by rw [nv]; norm_num) (sh i (by omega)) (sh _ (by omega)) ?_ ?_).2
    · rw [nv]; exact (div_le_div_iff_of_pos_right (by norm_num)).2 s1.2.1
    · rw [nv]; exact (div_le_div_iff_of_pos_right (by norm_num)).2 s1.2.2
  have s3 : In (heroX 16384 i u * heroRange) (420 * (i : ℚ) / 16384) (420 * ((i + 1 : ℕ) : ℚ) / 16384) := by
    refine (In.mul_gen hf s2.1 r.1 (sh2 i (by omega)) (sh2 _ (by omega)) ?_ ?_).2
    · rw [rv]; linarith [s2.2.1]
    · rw [rv]; linarith [s2.2.2]
  have s4 : In (heroStart + heroX 16384 i u * heroRange) (Spec.edge i) (Spec.edge (i + 1)) :=
    a.add hf s3 (edge_short i (by omega)) (edge_short _ (by omega)) le_rfl le_rfl
  have key : ∀ (t : FP f) (k : ℕ), k < 4 → In t (105 * k) (105 * k) →
      In (heroStart + heroX 16384 i u * heroRange + t) (Spec.edge (i + k * 4096)) (Spec.edge (i + k * 4096 + 1)) :=
    fun t k hk ht => s4.add hf ht (edge_short _ (by omega)) (edge_short _ (by omega))
      (by unfold Spec.edge; push_cast; linarith) (by unfold Spec.edge; push_cast; linarith)
  have fin : ∀ (t : FP f) (k : ℕ), k < 4 → In t (Spec.edge (i + k * 4096)) (Spec.edge (i + k * 4096 + 1)) →
      (heroWrap t).isFinite = true ∧
      ((Spec.edge ((i + k * 4096) % 16384) ≤ (heroWrap t).val ∧
        (heroWrap t).val ≤ Spec.edge ((i + k * 4096) % 16384 + 1)) ∨
        ((i + k * 4096) % 16384 = 16383 ∧ (heroWrap t).val = 360)) := by
    intro t k hk ht
    have e0 : Spec.edge 0 = 360 := by norm_num [Spec.edge]
    have e1 : Spec.edge 16384 = 780 := by norm_num [Spec.edge]
    have e2 : Spec.edge 28672 = 1095 := by norm_num [Spec.edge]
    have ht' : In t 360 1095 := ht.mono (by rw [← e0]; exact edge_mono (by omega)) (by rw [← e2]; exact edge_mono (by omega))
    obtain ⟨w1, w2, w3, w4⟩ := in_wrap hf ht'
    refine ⟨w1.1, ?_⟩
    by_cases hw : i + k * 4096 < 16384
    · rw [Nat.mod_eq_of_lt hw]
      by_cases h7 : t.val < 780
      · rw [w4 h7]
        exact Or.inl ht.2
      · have h7 := not_lt.1 h7
        have hj : i + k * 4096 = 16383 := by
          by_contra hne
          have h8 := edge_mono (i := i + k * 4096 + 1) (j := 16383) (by omega)
          have h9 : Spec.edge 16383 < 780 := by norm_num [Spec.edge]
          linarith [ht.2.2]
        right
        refine ⟨hj, ?_⟩
        have h8 : t.val = 780 := by
          have := ht.2.2
          rw [hj, e1] at this
          exact le_antisymm this h7
        rw [w3 h7, h8]
        have s := ((short_of 360 (by decide +kernel)).rep hf).1
        norm_num
        exact s
    · have hge : 780 ≤ t.val := by
        rw [← e1]; exact (edge_mono (by omega)).trans ht.2.1
      have hmod : (i + k * 4096) % 16384 = i + k * 4096 - 16384 := by
        rw [Nat.mod_eq_sub_mod (by omega), Nat.mod_eq_of_lt (by omega)]
      rw [hmod, w3 hge]
      have sub : ∀ m, 16384 ≤ m → Spec.edge (m - 16384) = Spec.edge m - 420 := by
        intro m hm
        unfold Spec.edge
        rw [Nat.cast_sub hm]
        push_cast
        ring
      have g1 := ((edge_short (i + k * 4096 - 16384) (by omega)).rep hf).1
      have g2 := ((edge_short (i + k * 4096 - 16384 + 1) (by omega)).rep hf).1
      have q1 := sub (i + k * 4096) (by omega)
      have q2 := sub (i + k * 4096 + 1) (by omega)
      rw [show i + k * 4096 + 1 - 16384 = i + k * 4096 - 16384 + 1 by omega] at q2
      left
      constructor
      · rw [← g1]; exact roundQ_mono f (by rw [q1]; linarith [ht.2.1])
      · rw [← g2]; exact roundQ_mono f (by rw [q2]; linarith [ht.2.2])
  unfold heroLambda at hl
  simp only [List.map_cons, List.map_nil] at hl
  interval_cases k
  · simp only [List.getElem?_cons_zero, Option.some.injEq] at hl
    subst hl
    exact fin _ 0 (by norm_num) (by simpa using s4)
  · simp only [List.getElem?_cons_succ, List.getElem?_cons_zero, Option.some.injEq] at hl
    subst hl
    exact fin _ 1 (by norm_num) (key _ 1 (by norm_num) (k1.mono (by norm_num) (by norm_num)))
  · simp only [List.getElem?_cons_succ, List.getElem?_cons_zero, Option.some.injEq] at hl
    subst hl
    exact fin _ 2 (by norm_num) (key _ 2 (by norm_num) (k2.mono (by norm_num) (by norm_num)))
  · simp only [List.getElem?_cons_succ, List.getElem?_cons_zero, Option.some.injEq] at hl
    subst hl
    exact fin _ 3 (by norm_num) (key _ 3 (by norm_num) (k3.mono (by norm_num) (by norm_num)))

end

/-! ## Accuracy in f64 -/

section
variable [Libm Fmt.b64]

/-- sample 4097 and its last wavelength: the stratum number is (4097 + 3 * 4096) mod 16384 = 1 -/
example : ∃ l, (heroLambda heroSamples 4097 (FP.lit (1/2) : FP Fmt.b64))[3]? = some l ∧ l.val ≤ 360 + 420 * 2 / 16384 := by
  have h : (FP.lit (1/2) : FP Fmt.b64).isFinite = true ∧ 0 ≤ (FP.lit (1/2) : FP Fmt.b64).val ∧
    (FP.lit (1/2) : FP Fmt.b64).val ≤ 1 := of_decide_eq_true (by krefl)
  obtain ⟨-, h1 | h1⟩ := C120_strata std_b64 4097 3 (by decide) (by norm_num) _ _ h.1 h.2.1 h.2.2 rfl
  · exact ⟨_, rfl, by have := h1.2; norm_num [Spec.edge] at this ⊢; exact this⟩
  · exact absurd h1.1 (by norm_num)

omit [Libm Fmt.b64] in
theorem round64 (s : Bool) (q : ℚ) (h : |(q : ℝ)| ≤ 2 ^ 100) : (FP.ofQ Fmt.b64 s q).isFinite = true ∧
    |((FP.ofQ Fmt.b64 s q).val : ℝ) - q| ≤ |(q : ℝ)| / 2 ^ 53 + 1 / 2 ^ 177 := by
  have hq : |q| ≤ 2 ^ 100 := by
    have : ((|q| : ℚ) : ℝ) ≤ ((2 ^ 100 : ℚ) : ℝ) := by push_cast; exact h
    exact_mod_cast this
  obtain ⟨a, b⟩ := ofQ_err (f := Fmt.b64) s (q := q) (by
    have h1 := wide_b64.hmax
    have h2 : (2:ℚ) ^ 100 ≤ 2 ^ 126 := pow_le_pow_right₀ (by norm_num) (by norm_num)
    have hp : (0:ℚ) < 2 ^ Fmt.b64.emax := by positivity
    generalize (2:ℚ) ^ Fmt.b64.emax = z at *
    generalize (2:ℚ) ^ 126 = z' at *
    linarith)
  refine ⟨a, ?_⟩
  have he := wide_b64.heta
  rw [u_b64] at b he
  have b' : |(FP.ofQ Fmt.b64 s q).val - q| ≤ |q| / 2 ^ 53 + 1 / 2 ^ 177 := by
    refine b.trans ?_
    have : (1 / 2 ^ 53 / 2 ^ 124 : ℚ) = 1 / 2 ^ 177 := by norm_num
    rw [this] at he
    have e : |q| * (1 / 2 ^ 53) = |q| / 2 ^ 53 := by ring
    linarith
  have : ((|(FP.ofQ Fmt.b64 s q).val - q| : ℚ) : ℝ) ≤ ((|q| / 2 ^ 53 + 1 / 2 ^ 177 : ℚ) : ℝ) := Rat.cast_le.2 b'
  push_cast at this
  exact this

omit [Libm Fmt.b64] in
/-- a product of two values known up to a small relative error -/
theorem mul_near {a b : FP Fmt.b64} {A B M K α β : ℝ} (ha : a.isFinite = true) (hb : b.isFinite = true)
    (h1 : |(a.val : ℝ) - A| ≤ α * M) (h2 : |A| ≤ M) (h3 : |(b.val : ℝ) - B| ≤ β * K) (h4 : |B| ≤ K)
    (hM : 1 / 2 ^ 40 ≤ M) (hM' : M ≤ 2 ^ 40) (hK : 1 / 2 ^ 40 ≤ K) (hK' : K ≤ 2 ^ 40) (α0 : 0 ≤ α) (β0 : 0 ≤ β)
    (hα : α ≤ 1 / 10 ^ 10) (hβ : β ≤ 1 / 10 ^ 10) :
    (a * b).isFinite = true ∧ |((a * b).val : ℝ) - A * B| ≤ (α + β + 1 / 10 ^ 15) * (M * K) ∧ |A * B| ≤ M * K := by
  have hM0 : 0 < M := lt_of_lt_of_le (by positivity) hM
  have hK0 : 0 < K := lt_of_lt_of_le (by positivity) hK
  have hMK : 0 < M * K := mul_pos hM0 hK0
  have hMK1 : 1 / 2 ^ 80 ≤ M * K := by
    calc (1 / 2 ^ 80 : ℝ) = 1 / 2 ^ 40 * (1 / 2 ^ 40) := by norm_num
      _ ≤ M * K := mul_le_mul hM hK (by positivity) hM0.le
  have hMK2 : M * K ≤ 2 ^ 80 := by
    calc M * K ≤ 2 ^ 40 * 2 ^ 40 := mul_le_mul hM' hK' hK0.le (by positivity)
      _ = 2 ^ 80 := by norm_num
  have hAB : |A * B| ≤ M * K := by rw [abs_mul]; exact mul_le_mul h2 h4 (abs_nonneg _) hM0.le
  have hbk : |(b.val : ℝ)| ≤ (1 + β) * K := by
    have := abs_add_le ((b.val : ℝ) - B) B
    rw [sub_add_cancel] at this
    linarith
  have e1 : |(a.val : ℝ) * b.val - A * B| ≤ (α + β + α * β) * (M * K) := by
    have e : (a.val : ℝ) * b.val - A * B = (a.val - A) * b.val + A * (b.val - B) := by ring
    rw [e]
    refine (abs_add_le _ _).trans ?_
    rw [abs_mul, abs_mul]
    have t1 : |(a.val : ℝ) - A| * |(b.val : ℝ)| ≤ (α * M) * ((1 + β) * K) :=
      mul_le_mul h1 hbk (abs_nonneg _) (by positivity)
    have t2 : |A| * |(b.val : ℝ) - B| ≤ M * (β * K) := mul_le_mul h2 h3 (abs_nonneg _) hM0.le
    calc _ ≤ (α * M) * ((1 + β) * K) + M * (β * K) := add_le_add t1 t2
      _ = (α + β + α * β) * (M * K) := by ring
  have hαβ : α * β ≤ 1 / 10 ^ 20 := by
    calc α * β ≤ 1 / 10 ^ 10 * (1 / 10 ^ 10) := mul_le_mul hα hβ β0 (by positivity)
      _ = 1 / 10 ^ 20 := by norm_num
  have e2 : |(a.val : ℝ) * b.val| ≤ (1 + 1 / 10 ^ 9) * (M * K) := by
    have := abs_add_le ((a.val : ℝ) * b.val - A * B) (A * B)
    rw [sub_add_cancel] at this
    have t : (α + β + α * β) * (M * K) ≤ (1 / 10 ^ 9) * (M * K) := by
      refine mul_le_mul_of_nonneg_right ?_ hMK.le
      norm_num at hα hβ hαβ ⊢
      linarith
    linarith
  rw [FP.mul_finite ha hb]
  obtain ⟨r1, r2⟩ := round64 (a.sgn ^^ b.sgn) (a.val * b.val) (by
    push_cast
    refine e2.trans ?_
    calc (1 + 1 / 10 ^ 9 : ℝ) * (M * K) ≤ 2 * 2 ^ 80 := mul_le_mul (by norm_num) hMK2 hMK.le (by norm_num)
      _ ≤ 2 ^ 100 := by norm_num)
  push_cast at r2
  refine ⟨r1, ?_, hAB⟩
  have := abs_add_le (((FP.ofQ Fmt.b64 (a.sgn ^^ b.sgn) (a.val * b.val)).val : ℝ) - a.val * b.val) (a.val * b.val - A * B)
  rw [sub_add_sub_cancel] at this
  refine this.trans ?_
  have t1 : |(a.val : ℝ) * b.val| / 2 ^ 53 ≤ (1 + 1 / 10 ^ 9) / 2 ^ 53 * (M * K) := by
    rw [div_mul_eq_mul_div]
    exact (div_le_div_iff_of_pos_right (by positivity)).2 e2
  have t2 : (1 / 2 ^ 177 : ℝ) ≤ 1 / 2 ^ 97 * (M * K) := by
    calc (1 / 2 ^ 177 : ℝ) = 1 / 2 ^ 97 * (1 / 2 ^ 80) := by norm_num
      _ ≤ _ := mul_le_mul_of_nonneg_left hMK1 (by positivity)
  have t3 : α * β * (M * K) ≤ 1 / 10 ^ 20 * (M * K) := mul_le_mul_of_nonneg_right hαβ hMK.le
  have t4 : ((1 + 1 / 10 ^ 9) / 2 ^ 53 + 1 / 2 ^ 97 + 1 / 10 ^ 20 : ℝ) * (M * K) ≤ 1 / 10 ^ 15 * (M * K) :=
    mul_le_mul_of_nonneg_right (by norm_num) hMK.le
  nlinarith [e1, r2]

omit [Libm Fmt.b64] in
/-- one accumulation -/
theorem acc_near {a t : FP Fmt.b64} {A G P : ℝ} {k : ℕ} (ha : a.isFinite = true) (ht : t.isFinite = true)
    (hP : 1 / 2 ^ 80 ≤ P) (hP' : P ≤ 2 ^ 80) (hk : k < 65536) (h1 : |(a.val : ℝ) - A| ≤ k * (16 / 10 ^ 12 * P))
    (h2 : |A| ≤ k * P) (h3 : |(t.val : ℝ) - G| ≤ 7 / 10 ^ 12 * P) (h4 : |G| ≤ P) :
    (a + t).isFinite = true ∧ |((a + t).val : ℝ) - (A + G)| ≤ (k + 1 : ℕ) * (16 / 10 ^ 12 * P) ∧ |A + G| ≤ (k + 1 : ℕ) * P := by
  have hP0 : 0 < P := lt_of_lt_of_le (by positivity) hP
  have hk' : (k : ℝ) + 1 ≤ 65536 := by exact_mod_cast hk
  have hk0 : (0 : ℝ) ≤ k := Nat.cast_nonneg k
  have e0 : |(a.val : ℝ) + t.val - (A + G)| ≤ k * (16 / 10 ^ 12 * P) + 7 / 10 ^ 12 * P := by
    have e : (a.val : ℝ) + t.val - (A + G) = (a.val - A) + (t.val - G) := by ring
    rw [e]
    exact (abs_add_le _ _).trans (add_le_add h1 h3)
  have hs : |A + G| ≤ (k + 1 : ℕ) * P := by
    refine (abs_add_le _ _).trans ?_
    push_cast
    linarith
  have e1 : |(a.val : ℝ) + t.val| ≤ 65537 * P := by
    have := abs_add_le ((a.val : ℝ) + t.val - (A + G)) (A + G)
    rw [sub_add_cancel] at this
    push_cast at hs
    have t1 : (k : ℝ) * (16 / 10 ^ 12 * P) ≤ 65536 * (16 / 10 ^ 12 * P) :=
      mul_le_mul_of_nonneg_right (by linarith) (by positivity)
    have t2 : ((k : ℝ) + 1) * P ≤ 65536 * P := mul_le_mul_of_nonneg_right hk' hP0.le
    norm_num at t1 t2 e0 hs ⊢
    linarith
  obtain ⟨s, e⟩ := add_finite_eq ha ht
  rw [e]
  obtain ⟨r1, r2⟩ := round64 s (a.val + t.val) (by
    push_cast
    refine e1.trans ?_
    calc (65537 : ℝ) * P ≤ 65537 * 2 ^ 80 := mul_le_mul_of_nonneg_left hP' (by norm_num)
      _ ≤ 2 ^ 100 := by norm_num)
  push_cast at r2
  refine ⟨r1, ?_, hs⟩
  have := abs_add_le (((FP.ofQ Fmt.b64 s (a.val + t.val)).val : ℝ) - (a.val + t.val)) (a.val + t.val - (A + G))
  rw [sub_add_sub_cancel] at this
  have t1 : |(a.val : ℝ) + t.val| / 2 ^ 53 ≤ 65537 / 2 ^ 53 * P := by
    rw [div_mul_eq_mul_div]
    exact (div_le_div_iff_of_pos_right (by positivity)).2 e1
  have t2 : (1 / 2 ^ 177 : ℝ) ≤ 1 / 2 ^ 97 * P := by
    calc (1 / 2 ^ 177 : ℝ) = 1 / 2 ^ 97 * (1 / 2 ^ 80) := by norm_num
      _ ≤ _ := mul_le_mul_of_nonneg_left hP (by positivity)
  have t4 : (65537 / 2 ^ 53 + 1 / 2 ^ 97 + 7 / 10 ^ 12 : ℝ) * P ≤ 16 / 10 ^ 12 * P :=
    mul_le_mul_of_nonneg_right (by norm_num) hP0.le
  push_cast
  have t5 : ((k : ℝ) + 1) * (16 / 10 ^ 12 * P) = k * (16 / 10 ^ 12 * P) + 16 / 10 ^ 12 * P := by ring
  rw [t5]
  have t6 : (65537 / 2 ^ 53 + 1 / 2 ^ 97 + 7 / 10 ^ 12 : ℝ) * P = 65537 / 2 ^ 53 * P + 1 / 2 ^ 97 * P + 7 / 10 ^ 12 * P := by ring
  linarith

/-- an f64 evaluator that follows the function `F` between 360 and 780 nm, up to a relative error of 2e-12 of a bound for it -/
def Spec.DrawsF (e : FP Fmt.b64 → Res (FP Fmt.b64)) (F : ℝ → ℝ) (B : ℝ) : Prop :=
  ∀ x : FP Fmt.b64, x.isFinite = true → 360 ≤ x.val → x.val ≤ 780 →
    ∃ v, e x = .ok v ∧ v.isFinite = true ∧ |(v.val : ℝ) - F x.val| ≤ 2 / 10 ^ 12 * B ∧ |F x.val| ≤ B

/-- what the loop knows of one component after `k` accumulations -/
def Hero.Known (P : ℝ) (k : ℕ) (a : FP Fmt.b64) (A : ℝ) : Prop :=
  a.isFinite = true ∧ |(a.val : ℝ) - A| ≤ k * (16 / 10 ^ 12 * P) ∧ |A| ≤ k * P

section
variable {xb yb zb ill rho : FP Fmt.b64 → Res (FP Fmt.b64)} {X Y Z D R : ℝ → ℝ} {Bx Bd Br : ℝ}
  (hx : Spec.DrawsF xb X Bx) (hy : Spec.DrawsF yb Y Bx) (hz : Spec.DrawsF zb Z Bx) (hd : Spec.DrawsF ill D Bd)
  (hr : Spec.DrawsF rho R Br) (x1 : 1 / 2 ^ 10 ≤ Bx) (x2 : Bx ≤ 2 ^ 10) (d1 : 1 / 2 ^ 10 ≤ Bd) (d2 : Bd ≤ 2 ^ 10)
  (r1 : 1 / 2 ^ 10 ≤ Br) (r2 : Br ≤ 2 ^ 10)
include hx hy hz hd hr x1 x2 d1 d2 r1 r2

omit [Libm Fmt.b64] in
theorem Hero.step_near {l : FP Fmt.b64} (hl : l.isFinite = true ∧ 360 ≤ l.val ∧ l.val < 780) {k : ℕ} (hk : k < 65536)
    {acc : XYZ (FP Fmt.b64)} {A B C : ℝ} (hA : Hero.Known (Bx * (Bd * Br)) k acc.x A)
    (hB : Hero.Known (Bx * (Bd * Br)) k acc.y B) (hC : Hero.Known (Bx * (Bd * Br)) k acc.z C) :
    ∃ acc', heroStep xb yb zb ill rho acc l = .ok acc' ∧
      Hero.Known (Bx * (Bd * Br)) (k + 1) acc'.x (A + X l.val * (D l.val * R l.val)) ∧
      Hero.Known (Bx * (Bd * Br)) (k + 1) acc'.y (B + Y l.val * (D l.val * R l.val)) ∧
      Hero.Known (Bx * (Bd * Br)) (k + 1) acc'.z (C + Z l.val * (D l.val * R l.val)) := by
  obtain ⟨l1, l2, l3⟩ := hl
  obtain ⟨vx, ex, fx, nx, bx⟩ := hx l l1 l2 l3.le
  obtain ⟨vy, ey, fy, ny, bY⟩ := hy l l1 l2 l3.le
  obtain ⟨vz, ez, fz, nz, bz⟩ := hz l l1 l2 l3.le
  obtain ⟨vd, ed, fd, nd, bd⟩ := hd l l1 l2 l3.le
  obtain ⟨vr, er, fr, nr, br⟩ := hr l l1 l2 l3.le
  have x0 : 0 < Bx := lt_of_lt_of_le (by positivity) x1
  have d0 : 0 < Bd := lt_of_lt_of_le (by positivity) d1
  have r0 : 0 < Br := lt_of_lt_of_le (by positivity) r1
  obtain ⟨s1, s2, s3⟩ := mul_near fd fr nd bd nr br (le_trans (by norm_num) d1) (d2.trans (by norm_num))
    (le_trans (by norm_num) r1) (r2.trans (by norm_num)) (by norm_num) (by norm_num) (by norm_num) (by norm_num)
  have q1 : 1 / 2 ^ 20 ≤ Bd * Br := by
    calc (1 / 2 ^ 20 : ℝ) = 1 / 2 ^ 10 * (1 / 2 ^ 10) := by norm_num
      _ ≤ _ := mul_le_mul d1 r1 (by positivity) d0.le
  have q2 : Bd * Br ≤ 2 ^ 20 := by
    calc Bd * Br ≤ 2 ^ 10 * 2 ^ 10 := mul_le_mul d2 r2 r0.le (by positivity)
      _ = 2 ^ 20 := by norm_num
  have q0 : 0 < Bd * Br := mul_pos d0 r0
  have p1 : 1 / 2 ^ 80 ≤ Bx * (Bd * Br) := by
    calc (1 / 2 ^ 80 : ℝ) ≤ 1 / 2 ^ 10 * (1 / 2 ^ 20) := by norm_num
      _ ≤ _ := mul_le_mul x1 q1 (by positivity) x0.le
  have p2 : Bx * (Bd * Br) ≤ 2 ^ 80 := by
    calc Bx * (Bd * Br) ≤ 2 ^ 10 * 2 ^ 20 := mul_le_mul x2 q2 q0.le (by positivity)
      _ ≤ 2 ^ 80 := by norm_num
  have key : ∀ (v a : FP Fmt.b64) (V A' : ℝ), v.isFinite = true → |(v.val : ℝ) - V| ≤ 2 / 10 ^ 12 * Bx → |V| ≤ Bx →
      Hero.Known (Bx * (Bd * Br)) k a A' →
      Hero.Known (Bx * (Bd * Br)) (k + 1) (a + v * (vd * vr)) (A' + V * (D l.val * R l.val)) := by
    intro v a V A' fv nv bv ⟨ha1, ha2, ha3⟩
    obtain ⟨t1, t2, t3⟩ := mul_near fv s1 nv bv s2 s3 (le_trans (by norm_num) x1) (x2.trans (by norm_num))
      (le_trans (by norm_num) q1) (q2.trans (by norm_num)) (by norm_num) (by norm_num) (by norm_num) (by norm_num)
    exact acc_near ha1 t1 p1 p2 hk ha2 ha3 (t2.trans (mul_le_mul_of_nonneg_right (by norm_num) (mul_pos x0 q0).le)) t3
  refine ⟨acc + ⟨vx * (vd * vr), vy * (vd * vr), vz * (vd * vr)⟩, ?_, ?_, ?_, ?_⟩
  · unfold heroStep
    rw [er, ed, ex, ey, ez]
    rfl
  · exact key vx acc.x _ A fx nx bx hA
  · exact key vy acc.y _ B fy ny bY hB
  · exact key vz acc.z _ C fz nz bz hC

omit [Libm Fmt.b64] in
theorem Hero.steps_near (ls : List (FP Fmt.b64)) (hl : ∀ l ∈ ls, l.isFinite = true ∧ 360 ≤ l.val ∧ l.val < 780) {k : ℕ}
    (hk : k + ls.length ≤ 65536) {acc : XYZ (FP Fmt.b64)} {A B C : ℝ} (hA : Hero.Known (Bx * (Bd * Br)) k acc.x A)
    (hB : Hero.Known (Bx * (Bd * Br)) k acc.y B) (hC : Hero.Known (Bx * (Bd * Br)) k acc.z C) :
    ∃ acc', ls.foldlM (heroStep xb yb zb ill rho) acc = .ok acc' ∧
      Hero.Known (Bx * (Bd * Br)) (k + ls.length) acc'.x (A + (ls.map fun l => X l.val * (D l.val * R l.val)).sum) ∧
      Hero.Known (Bx * (Bd * Br)) (k + ls.length) acc'.y (B + (ls.map fun l => Y l.val * (D l.val * R l.val)).sum) ∧
      Hero.Known (Bx * (Bd * Br)) (k + ls.length) acc'.z (C + (ls.map fun l => Z l.val * (D l.val * R l.val)).sum) := by
  induction ls generalizing k acc A B C with
  | nil => exact ⟨acc, rfl, by simpa using hA, by simpa using hB, by simpa using hC⟩
  | cons l t ih =>
    rw [List.length_cons] at hk ⊢
    obtain ⟨a1, e1, h1, h2, h3⟩ := Hero.step_near hx hy hz hd hr x1 x2 d1 d2 r1 r2 (hl l (by simp)) (k := k) (by omega) hA hB hC
    obtain ⟨a2, e2, g1, g2, g3⟩ := ih (fun m hm => hl m (by simp [hm])) (k := k + 1) (by omega) h1 h2 h3
    refine ⟨a2, ?_, ?_, ?_, ?_⟩
    · rw [List.foldlM_cons, e1]
      exact e2
    · rw [show k + (t.length + 1) = k + 1 + t.length by omega, List.map_cons, List.sum_cons, ← add_assoc A]
      exact g1
    · rw [show k + (t.length + 1) = k + 1 + t.length by omega, List.map_cons, List.sum_cons, ← add_assoc B]
      exact g2
    · rw [show k + (t.length + 1) = k + 1 + t.length by omega, List.map_cons, List.sum_cons, ← add_assoc C]
      exact g3

end

omit [Libm Fmt.b64] in
theorem Hero.flat {T : Type} [Add T] [Sub T] [Mul T] [Div T] [Neg T] [Flt T] (xb yb zb ill rho : T → Res T) (n : ℕ)
    (qs : List (T × ℕ)) (acc : XYZ T) :
    qs.foldlM (heroTurn xb yb zb ill rho n) acc =
      (qs.flatMap fun q => heroLambda n q.2 q.1).foldlM (heroStep xb yb zb ill rho) acc := by
  induction qs generalizing acc with
  | nil => rfl
  | cons q t ih =>
    rw [List.foldlM_cons, List.flatMap_cons, List.foldlM_append]
    unfold heroTurn at ih ⊢
    congr 1
    funext a
    exact ih a

/-- the exact sum at the wavelengths visited -/
theorem Hero.visits (g : ℝ → ℝ) (L : ℝ) (hL : Spec.Slope L g) (us : List (FP Fmt.b64)) (hl : us.length = heroSamples)
    (hu : ∀ u ∈ us, u.isFinite = true ∧ 0 ≤ u.val ∧ u.val ≤ 1) :
    |((us.zipIdx.flatMap fun q => heroLambda heroSamples q.2 q.1).map fun l => g l.val).sum -
      4 * (16384 / 420) * ∫ t in (360:ℝ)..780, g t| ≤ 3360 * L := by
  have e1 : ((us.zipIdx.flatMap fun q => heroLambda heroSamples q.2 q.1).map fun l => g l.val).sum =
      ∑ k ∈ Finset.range 4, ∑ i ∈ Finset.range 16384, g ((heroLambda heroSamples i (us.getD i .nan)).getD k .nan).val := by
    have key : ∀ (l : List (FP Fmt.b64 × ℕ)), ((l.flatMap fun q => heroLambda heroSamples q.2 q.1).map fun l => g l.val).sum =
        (l.map fun q => ∑ k ∈ Finset.range 4, g ((heroLambda heroSamples q.2 q.1).getD k .nan).val).sum := by
      intro l
      induction l with
      | nil => rfl
      | cons q t ih =>
        rw [List.flatMap_cons, List.map_append, List.sum_append, ih, List.map_cons, List.sum_cons]
        congr 1
    rw [key, Finset.sum_comm]
    have e : (us.zipIdx.map fun q => ∑ k ∈ Finset.range 4, g ((heroLambda heroSamples q.2 q.1).getD k .nan).val) =
        (List.range 16384).map fun i => ∑ k ∈ Finset.range 4, g ((heroLambda heroSamples i (us.getD i .nan)).getD k .nan).val := by
      refine List.ext_getElem (by simp [hl, heroSamples]) fun i h1 h2 => ?_
      have hi : i < us.length := by simpa using h1
      simp [List.getElem?_eq_getElem hi]
    rw [e]
    rfl
  rw [e1]
  have hk : ∀ k ∈ Finset.range 4, |(∑ i ∈ Finset.range 16384, g ((heroLambda heroSamples i (us.getD i .nan)).getD k .nan).val) -
      (16384 : ℕ) / 420 * ∫ t in (360:ℝ)..780, g t| ≤ 840 * L := by
    intro k hk
    rw [Finset.mem_range] at hk
    refine Hero.strata_wrap g L hL 16384 (k * 4096) (by norm_num) _ (fun i hi => ?_)
    have hi' : i < us.length := by rw [hl]; exact hi
    have e : us.getD i .nan = us[i] := by simp [List.getD, List.getElem?_eq_getElem hi']
    obtain ⟨u0, u1, u2⟩ := hu _ (List.getElem_mem hi')
    have hlen : k < (heroLambda heroSamples i us[i]).length := by simp [heroLambda]; omega
    have e2 : (heroLambda heroSamples i us[i]).getD k .nan = (heroLambda heroSamples i us[i])[k] := by
      simp [List.getD, List.getElem?_eq_getElem hlen]
    rw [e, e2]
    obtain ⟨-, h⟩ := C120_strata std_b64 i k hi hk us[i] _ u0 u1 u2 (List.getElem?_eq_getElem hlen)
    refine h.imp (fun ⟨a, b⟩ => ?_) (fun ⟨a, b⟩ => ⟨a, ?_⟩)
    · have edge : ∀ j : ℕ, ((Spec.edge j : ℚ) : ℝ) = 360 + 420 * ((j : ℝ) / (16384 : ℕ)) := by
        intro j; unfold Spec.edge; push_cast; ring
      rw [← edge, ← edge]
      exact ⟨Rat.cast_le.2 a, Rat.cast_le.2 b⟩
    · rw [b]; norm_num
  have h := (Finset.abs_sum_le_sum_abs _ _).trans (Finset.sum_le_sum hk)
  rw [Finset.sum_sub_distrib, Finset.sum_const, Finset.sum_const, Finset.card_range, nsmul_eq_mul, nsmul_eq_mul] at h
  push_cast at h
  rw [show (4 * (16384 / 420) : ℝ) * ∫ t in (360:ℝ)..780, g t = 4 * (16384 / 420 * ∫ t in (360:ℝ)..780, g t) by ring]
  linarith

/-- one component, divided -/
theorem Hero.finish {a : FP Fmt.b64} {A P J L : ℝ} (hP : 1 / 2 ^ 30 ≤ P) (hP' : P ≤ 2 ^ 30) (h : Hero.Known P 65536 a A)
    (hA : |A - 4 * (16384 / 420) * J| ≤ 3360 * L) :
    (a / Flt.ofNat heroSamples).isFinite = true ∧
      |((a / Flt.ofNat heroSamples).val : ℝ) - 4 / 420 * J| ≤ 3360 * L / 16384 + 1 / 10 ^ 10 * P := by
  obtain ⟨h1, h2, h3⟩ := h
  have hP0 : 0 < P := lt_of_lt_of_le (by positivity) hP
  have en := in_ofNat std_b64 16384 (by norm_num)
  have nv : (Flt.ofNat 16384 : FP Fmt.b64).val = 16384 := by have := le_antisymm en.2.2 en.2.1; simpa using this
  unfold heroSamples
  rw [FP.div_finite h1 en.1 (by rw [nv]; norm_num), nv]
  have e0 : |(a.val : ℝ)| ≤ 65537 * P := by
    have := abs_add_le ((a.val : ℝ) - A) A
    rw [sub_add_cancel] at this
    push_cast at h2 h3
    have : (65536 : ℝ) * (16 / 10 ^ 12 * P) ≤ P := by
      rw [← mul_assoc]
      calc (65536 * (16 / 10 ^ 12) : ℝ) * P ≤ 1 * P := mul_le_mul_of_nonneg_right (by norm_num) hP0.le
        _ = P := one_mul P
    linarith
  have e1 : |(a.val : ℝ) / 16384| ≤ 5 * P := by
    rw [abs_div, abs_of_pos (by norm_num : (0:ℝ) < 16384), div_le_iff₀ (by norm_num)]
    linarith
  obtain ⟨r1, r2⟩ := round64 (a.sgn ^^ (Flt.ofNat 16384 : FP Fmt.b64).sgn) (a.val / 16384) (by
    push_cast
    refine e1.trans ?_
    calc (5 : ℝ) * P ≤ 5 * 2 ^ 30 := mul_le_mul_of_nonneg_left hP' (by norm_num)
      _ ≤ 2 ^ 100 := by norm_num)
  push_cast at r2
  refine ⟨r1, ?_⟩
  have t1 : |(a.val : ℝ) / 16384| / 2 ^ 53 ≤ 5 / 2 ^ 53 * P := by
    rw [div_mul_eq_mul_div]
    exact (div_le_div_iff_of_pos_right (by positivity)).2 e1
  have t2 : (1 / 2 ^ 177 : ℝ) ≤ 1 / 2 ^ 147 * P := by
    calc (1 / 2 ^ 177 : ℝ) = 1 / 2 ^ 147 * (1 / 2 ^ 30) := by norm_num
      _ ≤ _ := mul_le_mul_of_nonneg_left hP (by positivity)
  have t3 : |(a.val : ℝ) / 16384 - A / 16384| ≤ 64 / 10 ^ 12 * P := by
    rw [← sub_div, abs_div, abs_of_pos (by norm_num : (0:ℝ) < 16384), div_le_iff₀ (by norm_num)]
    push_cast at h2
    linarith
  have t4 : |A / 16384 - 4 / 420 * J| ≤ 3360 * L / 16384 := by
    have e : A / 16384 - 4 / 420 * J = (A - 4 * (16384 / 420) * J) / 16384 := by ring
    rw [e, abs_div, abs_of_pos (by norm_num : (0:ℝ) < 16384)]
    exact (div_le_div_iff_of_pos_right (by norm_num)).2 hA
  have s1 := abs_sub_le ((FP.ofQ Fmt.b64 (a.sgn ^^ (Flt.ofNat 16384 : FP Fmt.b64).sgn) (a.val / 16384)).val : ℝ)
    ((a.val : ℝ) / 16384) (4 / 420 * J)
  have s2 := abs_sub_le ((a.val : ℝ) / 16384) (A / 16384) (4 / 420 * J)
  have t5 : (5 / 2 ^ 53 + 1 / 2 ^ 147 + 64 / 10 ^ 12 : ℝ) * P ≤ 1 / 10 ^ 10 * P :=
    mul_le_mul_of_nonneg_right (by norm_num) hP0.le
  have t6 : (5 / 2 ^ 53 + 1 / 2 ^ 147 + 64 / 10 ^ 12 : ℝ) * P = 5 / 2 ^ 53 * P + 1 / 2 ^ 147 * P + 64 / 10 ^ 12 * P := by ring
  linarith

/-! ## C120 -/

/-- C120 [F]: the program as it runs, in f64 with its 16384 samples, whatever numbers from 0 to 1 the generator returns: it does
not panic, its result is finite, and the estimates differ from 4/420 of the integrals by at most 3360/16384 times the slope
bound `L`, plus 1e-10 of the size of the integrands for the rounding. -/
theorem C120_f64 (xb yb zb ill rho : FP Fmt.b64 → Res (FP Fmt.b64)) (X Y Z D R : ℝ → ℝ) (Bx Bd Br : ℝ)
    (hx : Spec.DrawsF xb X Bx) (hy : Spec.DrawsF yb Y Bx) (hz : Spec.DrawsF zb Z Bx) (hd : Spec.DrawsF ill D Bd)
    (hr : Spec.DrawsF rho R Br) (x1 : 1 / 2 ^ 10 ≤ Bx) (x2 : Bx ≤ 2 ^ 10) (d1 : 1 / 2 ^ 10 ≤ Bd) (d2 : Bd ≤ 2 ^ 10)
    (r1 : 1 / 2 ^ 10 ≤ Br) (r2 : Br ≤ 2 ^ 10) (L : ℝ)
    (lx : Spec.Slope L fun t => X t * (D t * R t)) (ly : Spec.Slope L fun t => Y t * (D t * R t))
    (lz : Spec.Slope L fun t => Z t * (D t * R t)) (us : List (FP Fmt.b64)) (hl : us.length = heroSamples)
    (hu : ∀ u ∈ us, u.isFinite = true ∧ 0 ≤ u.val ∧ u.val ≤ 1) :
    ∃ c, heroXyz xb yb zb ill rho us = .ok c ∧
      (c.x.isFinite = true ∧ |(c.x.val : ℝ) - 4 / 420 * ∫ t in (360:ℝ)..780, X t * (D t * R t)| ≤
        3360 * L / 16384 + 1 / 10 ^ 10 * (Bx * (Bd * Br))) ∧
      (c.y.isFinite = true ∧ |(c.y.val : ℝ) - 4 / 420 * ∫ t in (360:ℝ)..780, Y t * (D t * R t)| ≤
        3360 * L / 16384 + 1 / 10 ^ 10 * (Bx * (Bd * Br))) ∧
      (c.z.isFinite = true ∧ |(c.z.val : ℝ) - 4 / 420 * ∫ t in (360:ℝ)..780, Z t * (D t * R t)| ≤
        3360 * L / 16384 + 1 / 10 ^ 10 * (Bx * (Bd * Br))) := by
  have x0 : 0 < Bx := lt_of_lt_of_le (by positivity) x1
  have d0 : 0 < Bd := lt_of_lt_of_le (by positivity) d1
  have r0 : 0 < Br := lt_of_lt_of_le (by positivity) r1
  have q1 : 1 / 2 ^ 20 ≤ Bd * Br := by
    calc (1 / 2 ^ 20 : ℝ) = 1 / 2 ^ 10 * (1 / 2 ^ 10) := by norm_num
      _ ≤ _ := mul_le_mul d1 r1 (by positivity) d0.le
  have q2 : Bd * Br ≤ 2 ^ 20 := by
    calc Bd * Br ≤ 2 ^ 10 * 2 ^ 10 := mul_le_mul d2 r2 r0.le (by positivity)
      _ = 2 ^ 20 := by norm_num
  have q0 : 0 < Bd * Br := mul_pos d0 r0
  have p1 : 1 / 2 ^ 30 ≤ Bx * (Bd * Br) := by
    calc (1 / 2 ^ 30 : ℝ) = 1 / 2 ^ 10 * (1 / 2 ^ 20) := by norm_num
      _ ≤ _ := mul_le_mul x1 q1 (by positivity) x0.le
  have p2 : Bx * (Bd * Br) ≤ 2 ^ 30 := by
    calc Bx * (Bd * Br) ≤ 2 ^ 10 * 2 ^ 20 := mul_le_mul x2 q2 q0.le (by positivity)
      _ = 2 ^ 30 := by norm_num
  have hin : ∀ l ∈ us.zipIdx.flatMap (fun q => heroLambda heroSamples q.2 q.1),
      l.isFinite = true ∧ 360 ≤ l.val ∧ l.val < 780 := by
    intro l h
    obtain ⟨q, hq, h⟩ := List.mem_flatMap.1 h
    obtain ⟨i, hi, e⟩ := List.mem_iff_getElem.1 hq
    rw [List.getElem_zipIdx] at e
    have hi' : i < us.length := by simpa using hi
    obtain ⟨u0, u1, u2⟩ := hu _ (List.getElem_mem hi')
    rw [← e] at h
    simp only [zero_add] at h
    exact C120_wavelengths std_b64 heroSamples i (by omega) (by norm_num [heroSamples]) us[i] u0 u1 u2 l h
  have hlen : (us.zipIdx.flatMap fun q => heroLambda heroSamples q.2 q.1).length = 65536 := by
    have : ∀ qs : List (FP Fmt.b64 × ℕ), (qs.flatMap fun q => heroLambda heroSamples q.2 q.1).length = 4 * qs.length := by
      intro qs
      induction qs with
      | nil => rfl
      | cons q t ih => rw [List.flatMap_cons, List.length_append, ih, List.length_cons]; simp [heroLambda]; try ring
    rw [this, List.length_zipIdx, hl]
    rfl
  have z0 := in_lit (f := Fmt.b64) (q := 0.0) std_b64 (L := 0) (H := 0) (by short) (by short) (by norm_num) (by norm_num)
  have zv : (FP.lit 0.0 : FP Fmt.b64).val = 0 := le_antisymm z0.2.2 z0.2.1
  have k0 : Hero.Known (Bx * (Bd * Br)) 0 (Flt.lit 0.0 : FP Fmt.b64) 0 := ⟨z0.1, by
    show |((FP.lit 0.0 : FP Fmt.b64).val : ℝ) - 0| ≤ _
    rw [zv]; simp, by simp⟩
  obtain ⟨acc, e, g1, g2, g3⟩ := Hero.steps_near hx hy hz hd hr x1 x2 d1 d2 r1 r2 _ hin (k := 0) (by rw [hlen])
    (acc := XYZ.fromScalar (Flt.lit 0.0)) k0 k0 k0
  rw [hlen, zero_add, zero_add] at g1 g2 g3
  unfold heroXyz
  rw [hl, Hero.flat, e]
  exact ⟨_, rfl, Hero.finish p1 p2 g1 (Hero.visits _ L lx us hl hu), Hero.finish p1 p2 g2 (Hero.visits _ L ly us hl hu),
    Hero.finish p1 p2 g3 (Hero.visits _ L lz us hl hu)⟩

/-- the hypotheses are met: constants are drawn exactly -/
example : Spec.DrawsF (fun _ => .ok (FP.lit 1)) (fun _ => 1) 1 ∧ Spec.Slope 0 (fun _ => (1:ℝ) * (1 * 1)) := by
  have h : (FP.lit 1 : FP Fmt.b64).isFinite = true ∧ (FP.lit 1 : FP Fmt.b64).val = 1 := of_decide_eq_true (by krefl)
  refine ⟨fun x _ _ _ => ⟨_, rfl, h.1, ?_, by simp⟩, fun a _ b _ => by simp⟩
  rw [h.2]
  norm_num

end
end CS
