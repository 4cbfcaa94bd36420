import Verif.Props.GridF
import Verif.Props.NitF
import Verif.Props.Colour
import Verif.Lemmas.FPCast

/-!
# When `extrapolate` returns and when it hangs in floating point (C107)

`extrapolate` walks outwards by adding the step again and again. In floating point the sum can be rounded back
to where it came from.
-/

namespace CS

/-- the step `extrapolate` uses: the spectrum's own, or the requested one if its own varies -/
def Spec.StepOf {T : Type} (s : VSPD T) (sh : SpdShape T) (i : T) : Prop :=
  s.shape.interval = .uniform i ∨ (s.shape.interval = .varying ∧ sh.interval = .uniform i)

/-- a float that is a finite number of size up to `M` -/
structure Spec.UpTo {f : Fmt} (M : ℝ) (a : FP f) : Prop where
  fin : a.isFinite = true
  le : |(a.val : ℝ)| ≤ M

/-- A call that never returns: however long it is given, it is still running. -/
def Spec.Hangs {α : Type} (run : ℕ → Res α) : Prop := ∀ fuel, run fuel = .error .diverge

/-! ## Gaps between floats -/

theorem qexp_mono (f : Fmt) {x y : ℚ} (hx : 0 < x) (hxy : x ≤ y) : qexp f x ≤ qexp f y := by
  unfold qexp
  have : Int.log 2 |x| ≤ Int.log 2 |y| := by
    rw [abs_of_pos hx, abs_of_pos (hx.trans_le hxy)]
    exact Int.log_mono_right hx hxy
  have := max_le_max_right f.emin this
  omega

/-- the next float above `x > 0` is more than `u x` away -/
theorem next_gap {f : Fmt} {x y : ℚ} (hx : roundQ f x = x) (hy : roundQ f y = y) (h0 : 0 < x) (hxy : x < y) :
    x * f.u < y - x := by
  have hE := two_zpow_pos (qexp f x)
  have e1 : x = rne (x / 2 ^ qexp f x) * 2 ^ qexp f x := hx.symm
  have e2 : y = rne (y / 2 ^ qexp f y) * 2 ^ qexp f y := hy.symm
  obtain ⟨k, hk⟩ := Int.le.dest (qexp_mono f h0 hxy.le)
  have e3 : y = ((rne (y / 2 ^ qexp f y) * 2 ^ k : ℤ) : ℚ) * 2 ^ qexp f x := by
    conv_lhs => rw [e2]
    rw [← hk, zpow_add₀ (by norm_num), zpow_natCast]; push_cast; ring
  set m := rne (x / 2 ^ qexp f x)
  set n := rne (y / 2 ^ qexp f y) * 2 ^ k
  have hmn : m < n := by
    by_contra hc
    have : (n : ℚ) ≤ m := by exact_mod_cast not_lt.1 hc
    have := mul_le_mul_of_nonneg_right this hE.le
    rw [← e1, ← e3] at this
    linarith
  have h1 : (m : ℚ) + 1 ≤ n := by exact_mod_cast hmn
  have h2 := mul_le_mul_of_nonneg_right h1 hE.le
  rw [add_mul, ← e1, ← e3] at h2
  have h3 := abs_lt_qexp f (q := x)
  rw [abs_of_pos h0, zpow_add₀ (by norm_num), zpow_natCast] at h3
  have h4 : x * f.u < 2 ^ qexp f x := by
    unfold Fmt.u
    rw [mul_one_div, div_lt_iff₀ (by positivity)]
    exact h3
  linarith

/-- a step of at most half the gap is rounded away -/
theorem roundQ_absorb {f : Fmt} {x i : ℚ} (hx : roundQ f x = x) (h0 : 0 < x) (hi : 0 ≤ i)
    (h : i ≤ x * f.u / 2) : roundQ f (x + i) = x := by
  have h1 : x ≤ roundQ f (x + i) := by
    rw [← hx]
    conv_rhs => rw [hx]
    exact roundQ_mono f (by linarith)
  rcases h1.eq_or_lt with e | e
  · exact e.symm
  · have h2 := next_gap hx (roundQ_idem f (x + i)) h0 e
    have h3 := roundQ_nearest f (x + i) x hx
    rw [show x - (x + i) = -i by ring, abs_neg, abs_of_nonneg hi, abs_le] at h3
    linarith [h3.2]

/-! ## The loop -/

section
variable {T : Type} [Add T]

theorem pushLoop_hangs {cond : T → Bool} {eval : T → Res T} {i : T} (P : T → Prop)
    (hP : ∀ x, P x → cond x = true ∧ (∃ v, eval x = .ok v) ∧ P (x + i)) :
    ∀ fuel x, P x → pushLoop cond eval i fuel x = .error .diverge := by
  intro fuel
  induction fuel with
  | zero => intro x hx; unfold pushLoop; rw [if_pos (hP x hx).1]
  | succ n ih =>
    intro x hx
    obtain ⟨h1, ⟨v, h2⟩, h3⟩ := hP x hx
    unfold pushLoop
    rw [if_pos h1, h2]
    show (do let rest ← pushLoop cond eval i n (x + i); _) = _
    rw [ih _ h3]
    rfl

theorem extrapolate_run [Flt T] (fuel : ℕ) (s : VSPD T) (sh : SpdShape T) (i : T) (hi : Spec.StepOf s sh i) :
    s.extrapolate fuel sh = (do
      let left ← pushLoop (fun x => Flt.lt x s.shape.start) (extrapConst s) i fuel
        (Flt.min s.shape.start sh.start)
      let right ← pushLoop (fun x => Flt.le x (Flt.max s.shape.end sh.end)) (extrapConst s) i fuel
        (s.shape.end + i)
      .ok ⟨left ++ s.samples ++ right, SpdShape.new sh.start sh.end i⟩) := by
  unfold VSPD.extrapolate
  rcases hi with h | ⟨h1, h2⟩
  · rw [h]; rfl
  · rw [h1, h2]; rfl

omit [Add T] in
theorem extrapConst_ok [Flt T] (s : VSPD T) (a z : Sample T) (ha : s.samples.head? = some a)
    (hz : s.samples.getLast? = some z) (x : T) :
    extrapConst s x = .ok (if Flt.lt x a.nm = true then a.v else z.v) := by
  unfold extrapConst VSPD.first VSPD.last unwrap
  rw [ha, hz]
  show (if Flt.lt x a.nm = true then _ else _) = _
  split <;> rfl

theorem extrapolate_hangs [Flt T] (s : VSPD T) (sh : SpdShape T) (i : T) (hi : Spec.StepOf s sh i) (fuel : ℕ)
    (h : pushLoop (fun x => Flt.lt x s.shape.start) (extrapConst s) i fuel
        (Flt.min s.shape.start sh.start) = .error .diverge ∨
      (∃ l, pushLoop (fun x => Flt.lt x s.shape.start) (extrapConst s) i fuel
        (Flt.min s.shape.start sh.start) = .ok l) ∧
      pushLoop (fun x => Flt.le x (Flt.max s.shape.end sh.end)) (extrapConst s) i fuel
        (s.shape.end + i) = .error .diverge) : s.extrapolate fuel sh = .error .diverge := by
  rw [extrapolate_run fuel s sh i hi]
  rcases h with h | ⟨⟨l, h1⟩, h2⟩
  · rw [h]; rfl
  · rw [h1, h2]; rfl

/-- a loop either returns or is still running -/
theorem pushLoop_cases {cond : T → Bool} {eval : T → Res T} {i : T} (he : ∀ x, ∃ v, eval x = .ok v) :
    ∀ fuel x, pushLoop cond eval i fuel x = .error .diverge ∨ ∃ l, pushLoop cond eval i fuel x = .ok l := by
  intro fuel
  induction fuel with
  | zero =>
    intro x; unfold pushLoop; split
    · exact Or.inl rfl
    · exact Or.inr ⟨_, rfl⟩
  | succ n ih =>
    intro x
    unfold pushLoop
    split
    · obtain ⟨v, hv⟩ := he x
      rw [hv]
      rcases ih (x + i) with h | ⟨l, h⟩
      · left
        show (do let rest ← pushLoop cond eval i n (x + i); _) = _
        rw [h]; rfl
      · right
        refine ⟨⟨x, v⟩ :: l, ?_⟩
        show (do let rest ← pushLoop cond eval i n (x + i); _) = _
        rw [h]; rfl
    · exact Or.inr ⟨_, rfl⟩
end

section
variable {f : Fmt} [Libm f]

omit [Libm f] in
theorem FP.add_absorb {x i : FP f} (hx : x.isFinite = true) (hi : i.isFinite = true) (h0 : 0 < x.val)
    (h1 : 0 ≤ i.val) (h2 : i.val ≤ x.val * f.u / 2) : x + i = x := by
  have e := roundQ_absorb (f := f) x.val_rep.1 h0 h1 h2
  obtain ⟨a, b⟩ := FP.add_finite hx hi (by rw [e]; exact x.val_rep.2)
  rw [e] at b
  exact FP.eq_of_val a hx b (by rw [b]; exact h0.ne')

theorem end_le_max {a : FP f} (b : FP f) {x : FP f} (h : FP.le x a = true) : Flt.le x (Flt.max a b) = true := by
  show FP.le x (FP.max a b) = true
  obtain ⟨u, v, hu, hv, huv⟩ := (FP.le_iff _ _).1 h
  have ha : a.isNaN = false := by
    cases hn : a.isNaN with
    | false => rfl
    | true => rw [(FP.isNaN_iff a).1 hn] at hv; cases hv
  cases hb : b.isNaN with
  | true => unfold FP.max; rw [ha, hb]; exact h
  | false =>
    obtain ⟨u', v', hu', hv', huv'⟩ := (FP.le_iff _ _).1 (FP.max_spec a b ha hb).1
    rw [hv] at hu'
    cases hu'
    exact (FP.le_iff _ _).2 ⟨u, v', hu, hv', huv.trans huv'⟩

/-- C107 [F]: if the wavelengths asked for start below the spectrum, at `x > 0`, and the step is at most
`u x / 2` (less than half an ulp of `x`; `u` is half an ulp of 1), `extrapolate` never
returns. -/
theorem C107_hangs_left (s : VSPD (FP f)) (sh : SpdShape (FP f)) (i : FP f) (hne : s.samples ≠ [])
    (hi : Spec.StepOf s sh i) (hfi : i.isFinite = true) (hi0 : 0 ≤ i.val)
    (hst : s.shape.start.isFinite = true) (hsh : sh.start.isFinite = true)
    (h0 : 0 < sh.start.val) (hlt : sh.start.val < s.shape.start.val) (hs : i.val ≤ sh.start.val * f.u / 2) :
    Spec.Hangs fun fuel => s.extrapolate fuel sh := by
  intro fuel
  have ha : s.samples.head? = some (s.samples.head hne) := List.head?_eq_some_head hne
  have hz : s.samples.getLast? = some (s.samples.getLast hne) := List.getLast?_eq_some_getLast hne
  refine extrapolate_hangs s sh i hi fuel (Or.inl ?_)
  have hm : Flt.min s.shape.start sh.start = sh.start := by
    show FP.min _ _ = _
    unfold FP.min
    rw [FP.isNaN_of_finite hst, FP.isNaN_of_finite hsh, FP.lt_finite hsh hst]
    simp [hlt]
  rw [hm]
  refine pushLoop_hangs (fun x => x = sh.start) ?_ fuel _ rfl
  rintro x rfl
  refine ⟨?_, ⟨_, extrapConst_ok s _ _ ha hz _⟩, FP.add_absorb hsh hfi h0 hi0 hs⟩
  show FP.lt _ _ = true
  rw [FP.lt_finite hsh hst]
  simpa using hlt

/-- C107 [F]: if the step is at most `u x / 2`, `x > 0` being the end of the spectrum, `extrapolate` never
returns, whatever range is asked for. -/
theorem C107_hangs_right (s : VSPD (FP f)) (sh : SpdShape (FP f)) (i : FP f) (hne : s.samples ≠ [])
    (hi : Spec.StepOf s sh i) (hfi : i.isFinite = true) (hi0 : 0 ≤ i.val)
    (hen : s.shape.end.isFinite = true) (h0 : 0 < s.shape.end.val) (hs : i.val ≤ s.shape.end.val * f.u / 2) :
    Spec.Hangs fun fuel => s.extrapolate fuel sh := by
  intro fuel
  have ha : s.samples.head? = some (s.samples.head hne) := List.head?_eq_some_head hne
  have hz : s.samples.getLast? = some (s.samples.getLast hne) := List.getLast?_eq_some_getLast hne
  refine extrapolate_hangs s sh i hi fuel ?_
  rcases pushLoop_cases (cond := fun x => Flt.lt x s.shape.start) (eval := extrapConst s) (i := i)
    (fun x => ⟨_, extrapConst_ok s _ _ ha hz x⟩) fuel (Flt.min s.shape.start sh.start) with h | h
  · exact Or.inl h
  refine Or.inr ⟨h, ?_⟩
  have e := FP.add_absorb hen hfi h0 hi0 hs
  rw [e]
  refine pushLoop_hangs (fun x => x = s.shape.end) ?_ fuel _ rfl
  rintro x rfl
  exact ⟨end_le_max sh.end (by rw [FP.le_finite hen hen]; simp), ⟨_, extrapConst_ok s _ _ ha hz _⟩, e⟩

omit [Libm f] in
theorem FP.le_ofQ {b : FP f} (hb : b.isFinite = true) (s : Bool) {q : ℚ} (h : q ≤ b.val) :
    FP.le (FP.ofQ f s q) b = true := by
  have hr : roundQ f q ≤ b.val := by rw [← b.val_rep.1]; exact roundQ_mono f h
  by_cases ho : |roundQ f q| < 2 ^ (f.emax + 1)
  · obtain ⟨h1, h2⟩ := FP.ofQ_finite s ho
    rw [FP.le_finite h1 hb, h2]
    simpa using hr
  · have hq : q < 0 := by
      by_contra hc
      have h0 := roundQ_nonneg f (not_lt.1 hc)
      rw [abs_of_nonneg h0] at ho
      exact ho (hr.trans_lt (lt_of_abs_lt b.val_rep.2))
    unfold FP.ofQ
    rw [dif_neg ho]
    rw [decide_eq_true hq]
    show FP.le FP.ninf b = true
    rw [FP.le_iff]
    exact ⟨_, _, rfl, FP.ext_finite hb, bot_le⟩

omit [Libm f] in
/-- a step of zero or backwards never gets above where it started -/
theorem FP.add_le_of_nonpos {x i b : FP f} (hb : b.isFinite = true) (hi : i.isFinite = true) (h0 : i.val ≤ 0)
    (h : FP.le x b = true) : FP.le (x + i) b = true := by
  obtain ⟨u, v, hu, hv, huv⟩ := (FP.le_iff _ _).1 h
  have hn : x.isNaN = false := by
    cases h' : x.isNaN with
    | false => rfl
    | true => rw [(FP.isNaN_iff x).1 h'] at hu; cases hu
  show FP.le (FP.add x i) b = true
  unfold FP.add
  rw [hn, FP.isNaN_of_finite hi, hi]
  cases hx : x.isFinite with
  | true =>
    have hv : x.val ≤ b.val := by
      rw [FP.le_finite hx hb] at h
      exact of_decide_eq_true h
    exact FP.le_ofQ hb _ (by linarith)
  | false => exact h

/-- C107 [F]: with a step of zero or a negative one, `extrapolate` never returns, whatever range is asked
for. -/
theorem C107_hangs_nonpositive (s : VSPD (FP f)) (sh : SpdShape (FP f)) (i : FP f) (hne : s.samples ≠ [])
    (hi : Spec.StepOf s sh i) (hfi : i.isFinite = true) (hi0 : i.val ≤ 0) (hen : s.shape.end.isFinite = true) :
    Spec.Hangs fun fuel => s.extrapolate fuel sh := by
  intro fuel
  have ha : s.samples.head? = some (s.samples.head hne) := List.head?_eq_some_head hne
  have hz : s.samples.getLast? = some (s.samples.getLast hne) := List.getLast?_eq_some_getLast hne
  refine extrapolate_hangs s sh i hi fuel ?_
  rcases pushLoop_cases (cond := fun x => Flt.lt x s.shape.start) (eval := extrapConst s) (i := i)
    (fun x => ⟨_, extrapConst_ok s _ _ ha hz x⟩) fuel (Flt.min s.shape.start sh.start) with h | h
  · exact Or.inl h
  refine Or.inr ⟨h, ?_⟩
  refine pushLoop_hangs (fun x => FP.le x s.shape.end = true) (fun x hx => ?_) fuel _ ?_
  · exact ⟨end_le_max sh.end hx, ⟨_, extrapConst_ok s _ _ ha hz _⟩, FP.add_le_of_nonpos hen hfi hi0 hx⟩
  · exact FP.add_le_of_nonpos hen hfi hi0 (by rw [FP.le_finite hen hen]; simp)

/-- The samples `x, x + i, (x + i) + i, ...` with value `v`, as long as they are `inside`. -/
structure Spec.Filled (x i : FP f) (inside : FP f → Prop) (v : FP f) (l : List (Sample (FP f))) : Prop where
  values : ∀ p ∈ l, p.v = v
  within : ∀ p ∈ l, p.nm.isFinite = true ∧ inside p.nm
  none : ¬ inside x → l = []
  first : inside x → l.head?.map Sample.nm = some x
  next : ∀ (k : ℕ) (p q : Sample (FP f)), l[k]? = some p → l[k + 1]? = some q → q.nm = p.nm + i
  full : ∀ p, l.getLast? = some p → ¬ inside (p.nm + i)
  rising : (l.map fun p => p.nm.val).Pairwise (· < ·)

omit [Libm f] in
theorem walk_returns {cond : FP f → Bool} {eval : FP f → Res (FP f)} {i : FP f} {inv inside : FP f → Prop} {B G : ℝ}
    (v : FP f)
    (hstep : ∀ x, inv x → cond x = true → inv (x + i) ∧ (x.val : ℝ) + G ≤ ((x + i).val : ℝ) ∧ eval x = .ok v)
    (hinv : ∀ x, inv x → x.isFinite = true ∧ (cond x = true ↔ inside x) ∧ (cond x = true → (x.val : ℝ) ≤ B))
    (hG : 0 < G) :
    ∀ (n : ℕ) (x : FP f), inv x → B - (x.val : ℝ) < n * G →
      ∃ l, (∀ fuel, n ≤ fuel → pushLoop cond eval i fuel x = .ok l) ∧ l.length ≤ n ∧ Spec.Filled x i inside v l ∧
        ∀ p ∈ l, x.val ≤ p.nm.val := by
  intro n
  induction n with
  | zero =>
    intro x hx hn
    have hc : cond x = false := by
      cases h : cond x with
      | false => rfl
      | true => have := (hinv x hx).2.2 h; norm_num at hn; linarith
    have hi : ¬ inside x := fun h => by rw [← (hinv x hx).2.1, hc] at h; cases h
    refine ⟨[], fun fuel _ => ?_, le_rfl, ⟨by simp, by simp, by simp, fun h => absurd h hi, by simp, by simp, by simp⟩, by simp⟩
    cases fuel <;> unfold pushLoop <;> simp [hc]
  | succ n ih =>
    intro x hx hn
    cases hc : cond x with
    | false =>
      have hi : ¬ inside x := fun h => by rw [← (hinv x hx).2.1, hc] at h; cases h
      refine ⟨[], fun fuel _ => ?_, Nat.zero_le _, ⟨by simp, by simp, by simp, fun h => absurd h hi, by simp, by simp, by simp⟩, by simp⟩
      cases fuel <;> unfold pushLoop <;> simp [hc]
    | true =>
      obtain ⟨h1, h2, h3⟩ := hstep x hx hc
      have hin : inside x := (hinv x hx).2.1.1 hc
      obtain ⟨l, hl, hlen, hF, hge⟩ := ih (x + i) h1 (by push_cast at hn; linarith)
      have hlt : x.val < (x + i).val := by
        have : (x.val : ℝ) < ((x + i).val : ℝ) := by linarith
        exact_mod_cast this
      refine ⟨⟨x, v⟩ :: l, fun fuel hfu => ?_, by simpa using hlen, ?_, ?_⟩
      · obtain ⟨m, rfl⟩ : ∃ m, fuel = m + 1 := ⟨fuel - 1, by omega⟩
        unfold pushLoop
        rw [if_pos hc, h3]
        show (do let rest ← pushLoop cond eval i m (x + i); _) = _
        rw [hl m (by omega)]
        rfl
      · refine ⟨?_, ?_, fun h => absurd hin h, fun _ => rfl, ?_, ?_, ?_⟩
        · rintro p hp
          rcases List.mem_cons.1 hp with rfl | hp
          · rfl
          · exact hF.values p hp
        · rintro p hp
          rcases List.mem_cons.1 hp with rfl | hp
          · exact ⟨(hinv x hx).1, hin⟩
          · exact hF.within p hp
        · rintro (_ | k) p q hp hq
          · simp only [List.getElem?_cons_zero, Option.some.injEq] at hp
            subst hp
            simp only [List.getElem?_cons_succ] at hq
            by_cases hin' : inside (x + i)
            · have := hF.first hin'
              rw [List.head?_eq_getElem?, hq] at this
              simpa using this
            · rw [hF.none hin'] at hq; simp at hq
          · simp only [List.getElem?_cons_succ] at hp hq
            exact hF.next k p q hp hq
        · intro p hp
          cases hl0 : l with
          | nil =>
            rw [hl0] at hp
            simp only [List.getLast?_singleton, Option.some.injEq] at hp
            subst hp
            intro hin'
            have := hF.first hin'
            rw [hl0] at this
            simp at this
          | cons b t =>
            refine hF.full p ?_
            rw [hl0] at hp ⊢
            rwa [List.getLast?_cons_cons] at hp
        · rw [List.map_cons, List.pairwise_cons]
          refine ⟨?_, hF.rising⟩
          rintro y hy
          obtain ⟨p, hp, rfl⟩ := List.mem_map.1 hy
          exact hlt.trans_le (hge p hp)
      · rintro p hp
        rcases List.mem_cons.1 hp with rfl | hp
        · exact le_rfl
        · exact hlt.le.trans (hge p hp)

omit [Libm f] in
/-- one step of the walk gains at least a third of the step -/
theorem walk_gain (hf : Std f) {x i : FP f} {M : ℝ} (hx : Spec.UpTo M x) (hi : i.isFinite = true)
    (hM : M ≤ 2 ^ 90) (hi0 : 0 < (i.val : ℝ)) (hi1 : (i.val : ℝ) ≤ 2 ^ 90) (hs : 2 * (f.u : ℝ) * M ≤ i.val) :
    (x + i).isFinite = true ∧ (x.val : ℝ) + i.val / 3 ≤ ((x + i).val : ℝ) := by
  obtain ⟨u0, u1, -, -⟩ := u_facts hf
  have hsum : |((x.val + i.val : ℚ) : ℝ)| ≤ M + i.val := by
    push_cast
    exact (abs_add_le _ _).trans (add_le_add hx.le (abs_of_pos hi0).le)
  obtain ⟨h1, h2⟩ := FP.add_finite hx.fin hi (roundQ_lt (big_abs hf (hsum.trans (by
    calc M + (i.val : ℝ) ≤ 2 ^ 90 + 2 ^ 90 := add_le_add hM hi1
      _ ≤ 2 ^ 100 := by norm_num))))
  have h3 : |((x + i).val : ℝ) - (x.val + i.val)| ≤ (M + i.val) * f.u := by
    have := roundQ_err_add (f := f) x.val_rep.1 i.val_rep.1
    rw [← h2] at this
    have : |((x + i).val : ℝ) - (x.val + i.val)| ≤ |((x.val + i.val : ℚ) : ℝ)| * f.u := by
      push_cast; exact_mod_cast this
    exact this.trans (mul_le_mul_of_nonneg_right hsum u0.le)
  refine ⟨h1, ?_⟩
  have h4 := (abs_le.1 h3).1
  have h5 : (i.val : ℝ) * f.u ≤ i.val * (1 / 2 ^ 24) := mul_le_mul_of_nonneg_left u1 hi0.le
  norm_num at h5
  linarith

/-- C107 [F]: in f32 and f64, if all wavelengths involved are finite and at most `M`, and the step is at least
`2 u M` (one to two ulps of `M`; `u` is half an ulp of 1), `extrapolate` returns. It keeps the samples, puts
`start, start + i, (start + i) + i, ...` before them as long as these are below the spectrum's start, and
`end + i, (end + i) + i, ...` after them as long as these do not exceed the requested end, with the first and
the last value. The wavelengths put in are strictly increasing and there are at most `6 M / i + 1` on either side. -/
theorem C107_returns (hf : Std f) (s : VSPD (FP f)) (sh : SpdShape (FP f)) (i : FP f) (a z : Sample (FP f))
    (ha : s.samples.head? = some a) (hz : s.samples.getLast? = some z) (hi : Spec.StepOf s sh i) (M : ℝ)
    (hM : M ≤ 2 ^ 90) (hst : Spec.UpTo M s.shape.start) (hen : Spec.UpTo M s.shape.end)
    (hsh1 : Spec.UpTo M sh.start) (hsh2 : Spec.UpTo M sh.end) (han : a.nm.isFinite = true)
    (hl : s.shape.start.val ≤ a.nm.val) (hr : a.nm.val ≤ s.shape.end.val)
    (hfi : Spec.UpTo (2 ^ 90) i) (hi0 : 0 < i.val) (hs : 2 * (f.u : ℝ) * M ≤ i.val) :
    ∃ (N : ℕ) (L R : List (Sample (FP f))), (∀ fuel, N ≤ fuel → s.extrapolate fuel sh =
        .ok ⟨L ++ s.samples ++ R, ⟨sh.start, sh.end, .uniform i⟩⟩) ∧
      Spec.Filled sh.start i (fun x => x.val < s.shape.start.val) a.v L ∧
      Spec.Filled (s.shape.end + i) i (fun x => x.val ≤ sh.end.val) z.v R ∧
      (L.length : ℝ) ≤ 6 * M / i.val + 1 ∧ (R.length : ℝ) ≤ 6 * M / i.val + 1 := by
  have hi0r : (0:ℝ) < i.val := by exact_mod_cast hi0
  have hi1 : (i.val : ℝ) ≤ 2 ^ 90 := (le_abs_self _).trans hfi.le
  have hM0 : 0 ≤ M := (abs_nonneg _).trans hst.le
  have hG : (0:ℝ) < i.val / 3 := by positivity
  have hfloor : ∀ n : ℕ, n = ⌊6 * M / (i.val : ℝ)⌋₊ + 1 → 2 * M < n * ((i.val : ℝ) / 3) := by
    rintro n rfl
    have := Nat.lt_floor_add_one (6 * M / (i.val : ℝ))
    push_cast
    rw [div_lt_iff₀ hi0r] at this
    linarith
  set n := ⌊6 * M / (i.val : ℝ)⌋₊ + 1 with hn
  have hcount : ((n : ℕ) : ℝ) ≤ 6 * M / i.val + 1 := by
    rw [hn]; push_cast
    have := Nat.floor_le (show 0 ≤ 6 * M / (i.val : ℝ) by positivity)
    linarith
  have bnd : ∀ x : FP f, (-M ≤ (x.val : ℝ)) → (x.val : ℝ) ≤ M → x.isFinite = true → Spec.UpTo M x :=
    fun x h1 h2 h3 => ⟨h3, abs_le.2 ⟨h1, h2⟩⟩
  -- left
  have left : ∃ l, (∀ fuel, n ≤ fuel → pushLoop (fun x => Flt.lt x s.shape.start) (extrapConst s) i fuel
        (Flt.min s.shape.start sh.start) = .ok l) ∧ l.length ≤ n ∧
        Spec.Filled sh.start i (fun x => x.val < s.shape.start.val) a.v l := by
    by_cases hlt : sh.start.val < s.shape.start.val
    · have hm : Flt.min s.shape.start sh.start = sh.start := by
        show FP.min _ _ = _
        unfold FP.min
        rw [FP.isNaN_of_finite hst.fin, FP.isNaN_of_finite hsh1.fin, FP.lt_finite hsh1.fin hst.fin]
        simp [hlt]
      rw [hm]
      obtain ⟨l, h1, h2, h3, -⟩ := walk_returns (cond := fun x => Flt.lt x s.shape.start) (eval := extrapConst s) (i := i)
        (inv := fun x => x.isFinite = true ∧ -M ≤ (x.val : ℝ)) (inside := fun x => x.val < s.shape.start.val) (B := M)
        (G := i.val / 3) a.v
        (by
          rintro x ⟨hx, hxM⟩ hc
          have hc' : x.val < s.shape.start.val := by
            have : FP.lt x s.shape.start = true := hc
            rw [FP.lt_finite hx hst.fin] at this
            simpa using this
          have hc'' : (x.val : ℝ) < s.shape.start.val := by exact_mod_cast hc'
          obtain ⟨g1, g2⟩ := walk_gain hf (bnd x hxM (hc''.le.trans (abs_le.1 hst.le).2) hx) hfi.fin hM hi0r hi1 hs
          refine ⟨⟨g1, by linarith⟩, g2, ?_⟩
          rw [extrapConst_ok s a z ha hz, if_pos]
          show FP.lt _ _ = true
          rw [FP.lt_finite hx han]
          exact decide_eq_true (hc'.trans_le hl))
        (by
          rintro x ⟨hx, hxM⟩
          have e : Flt.lt x s.shape.start = decide (x.val < s.shape.start.val) := FP.lt_finite hx hst.fin
          refine ⟨hx, by rw [e]; simp, fun h => ?_⟩
          rw [e] at h
          have h' : x.val < s.shape.start.val := by simpa using h
          have : (x.val : ℝ) < s.shape.start.val := by exact_mod_cast h'
          exact this.le.trans (abs_le.1 hst.le).2)
        hG n sh.start ⟨hsh1.fin, (abs_le.1 hsh1.le).1⟩ (by
          have := (abs_le.1 hsh1.le).1
          have := hfloor n hn
          linarith)
      exact ⟨l, h1, h2, h3⟩
    · have hm : Flt.min s.shape.start sh.start = s.shape.start := by
        show FP.min _ _ = _
        unfold FP.min
        rw [FP.isNaN_of_finite hst.fin, FP.isNaN_of_finite hsh1.fin, FP.lt_finite hsh1.fin hst.fin]
        simp [hlt]
      rw [hm]
      refine ⟨[], fun fuel _ => ?_, Nat.zero_le _, ⟨by simp, by simp, by simp, fun h => absurd h hlt, by simp, by simp, by simp⟩⟩
      have e : Flt.lt s.shape.start s.shape.start = false := by
        show FP.lt _ _ = _
        rw [FP.lt_finite hst.fin hst.fin]; simp
      cases fuel <;> unfold pushLoop <;> simp [e]
  -- right
  have right : ∃ l, (∀ fuel, n ≤ fuel → pushLoop (fun x => Flt.le x (Flt.max s.shape.end sh.end)) (extrapConst s) i fuel
        (s.shape.end + i) = .ok l) ∧ l.length ≤ n ∧
        Spec.Filled (s.shape.end + i) i (fun x => x.val ≤ sh.end.val) z.v l := by
    obtain ⟨g1, g2⟩ := walk_gain hf hen hfi.fin hM hi0r hi1 hs
    obtain ⟨mx, hmx1, hmx2, hmx3⟩ : ∃ mx, Flt.max s.shape.end sh.end = mx ∧ mx.isFinite = true ∧
        mx.val = max s.shape.end.val sh.end.val := by
      refine ⟨_, rfl, ?_⟩
      show (FP.max _ _).isFinite = true ∧ (FP.max _ _).val = _
      unfold FP.max
      rw [FP.isNaN_of_finite hen.fin, FP.isNaN_of_finite hsh2.fin, FP.lt_finite hen.fin hsh2.fin]
      by_cases h : s.shape.end.val < sh.end.val
      · simp [h, hsh2.fin, h.le]
      · simp [h, hen.fin, not_lt.1 h]
    rw [hmx1]
    have key : ∀ x : FP f, x.isFinite = true → (s.shape.end.val : ℝ) < x.val →
        (Flt.le x mx = true ↔ x.val ≤ sh.end.val) := by
      intro x hx hgt
      have hgt' : s.shape.end.val < x.val := by exact_mod_cast hgt
      have e : Flt.le x mx = decide (x.val ≤ mx.val) := FP.le_finite hx hmx2
      rw [e, hmx3, decide_eq_true_iff, le_max_iff]
      exact ⟨fun h => h.resolve_left (not_le.2 hgt'), Or.inr⟩
    obtain ⟨l, h1, h2, h3, -⟩ := walk_returns (cond := fun x => Flt.le x mx) (eval := extrapConst s) (i := i)
        (inv := fun x => x.isFinite = true ∧ (s.shape.end.val : ℝ) < x.val) (inside := fun x => x.val ≤ sh.end.val) (B := M)
        (G := i.val / 3) z.v
        (by
          rintro x ⟨hx, hxM⟩ hc
          have hc' := (key x hx hxM).1 hc
          have hc'' : (x.val : ℝ) ≤ sh.end.val := by exact_mod_cast hc'
          have := (abs_le.1 hen.le).1
          obtain ⟨g1, g2⟩ := walk_gain hf (bnd x (by linarith) (hc''.trans (abs_le.1 hsh2.le).2) hx) hfi.fin hM hi0r hi1 hs
          refine ⟨⟨g1, by linarith⟩, g2, ?_⟩
          rw [extrapConst_ok s a z ha hz, if_neg]
          show ¬ FP.lt _ _ = true
          rw [FP.lt_finite hx han]
          have hx' : s.shape.end.val < x.val := by exact_mod_cast hxM
          simpa using hr.trans hx'.le)
        (by
          rintro x ⟨hx, hxM⟩
          refine ⟨hx, key x hx hxM, fun h => ?_⟩
          have h' : (x.val : ℝ) ≤ sh.end.val := by exact_mod_cast (key x hx hxM).1 h
          exact h'.trans (abs_le.1 hsh2.le).2)
        hG n (s.shape.end + i) ⟨g1, by linarith⟩ (by
          have := (abs_le.1 hen.le).1
          have := hfloor n hn
          linarith)
    exact ⟨l, h1, h2, h3⟩
  obtain ⟨L, l1, l2, l3⟩ := left
  obtain ⟨R, r1, r2, r3⟩ := right
  refine ⟨n, L, R, fun fuel hfu => ?_, l3, r3, le_trans (by exact_mod_cast l2) hcount, le_trans (by exact_mod_cast r2) hcount⟩
  rw [extrapolate_run fuel s sh i hi, l1 fuel hfu, r1 fuel hfu]
  rfl

/-- Not vacuous: a spectrum at 400 and 400 + 1/8 nm, extended to 390 .. 410 in steps of 1/8 nm in f32; and the
same spectrum with a step of 1e-6 nm, which hangs. -/
example : letI := idealLibm Fmt.b32
    (∃ (N : ℕ) (r : VSPD (FP Fmt.b32)), ∀ fuel, N ≤ fuel →
      (⟨[⟨Flt.lit 400.0, Flt.lit 1.0⟩, ⟨Flt.lit 400.125, Flt.lit 2.0⟩],
        SpdShape.new (Flt.lit 400.0) (Flt.lit 400.125) (Flt.lit 0.125)⟩ : VSPD (FP Fmt.b32)).extrapolate fuel
        (SpdShape.new (Flt.lit 390.0) (Flt.lit 410.0) (Flt.lit 1.0)) = .ok r) ∧
    Spec.Hangs fun fuel => (⟨[⟨Flt.lit 400.0, Flt.lit 1.0⟩, ⟨Flt.lit 400.125, Flt.lit 2.0⟩],
        SpdShape.new (Flt.lit 400.0) (Flt.lit 400.125) (Flt.lit 0.000001)⟩ : VSPD (FP Fmt.b32)).extrapolate fuel
        (SpdShape.new (Flt.lit 390.0) (Flt.lit 410.0) (Flt.lit 1.0)) := by
  letI := idealLibm Fmt.b32
  have v400 : (FP.lit 400.0 : FP Fmt.b32).isFinite = true ∧ (FP.lit 400.0 : FP Fmt.b32).val = 400 := by decide +kernel
  have v390 : (FP.lit 390.0 : FP Fmt.b32).isFinite = true ∧ (FP.lit 390.0 : FP Fmt.b32).val = 390 := by decide +kernel
  have v410 : (FP.lit 410.0 : FP Fmt.b32).isFinite = true ∧ (FP.lit 410.0 : FP Fmt.b32).val = 410 := by decide +kernel
  have v4001 : (FP.lit 400.125 : FP Fmt.b32).isFinite = true ∧ (FP.lit 400.125 : FP Fmt.b32).val = 3201 / 8 := by
    decide +kernel
  have v8 : (FP.lit 0.125 : FP Fmt.b32).isFinite = true ∧ (FP.lit 0.125 : FP Fmt.b32).val = 1 / 8 := by decide +kernel
  have v6 : (FP.lit 0.000001 : FP Fmt.b32).isFinite = true ∧ 0 ≤ (FP.lit 0.000001 : FP Fmt.b32).val ∧
      (FP.lit 0.000001 : FP Fmt.b32).val ≤ 3201 / 8 * (1 / 2 ^ 24) / 2 := by decide +kernel
  have hu : Fmt.b32.u = 1 / 2 ^ 24 := rfl
  refine ⟨?_, ?_⟩
  · obtain ⟨N, L, R, h, -⟩ := C107_returns std_b32 (⟨[⟨Flt.lit 400.0, Flt.lit 1.0⟩, ⟨Flt.lit 400.125, Flt.lit 2.0⟩],
        SpdShape.new (Flt.lit 400.0) (Flt.lit 400.125) (Flt.lit 0.125)⟩ : VSPD (FP Fmt.b32))
        (SpdShape.new (Flt.lit 390.0) (Flt.lit 410.0) (Flt.lit 1.0)) (Flt.lit 0.125) _ _ rfl rfl (Or.inl rfl) 500
        (by norm_num) ⟨v400.1, by show |((FP.lit 400.0 : FP Fmt.b32).val : ℝ)| ≤ 500; rw [v400.2]; norm_num⟩
        ⟨v4001.1, by show |((FP.lit 400.125 : FP Fmt.b32).val : ℝ)| ≤ 500; rw [v4001.2]; norm_num [abs_of_pos]⟩
        ⟨v390.1, by show |((FP.lit 390.0 : FP Fmt.b32).val : ℝ)| ≤ 500; rw [v390.2]; norm_num⟩
        ⟨v410.1, by show |((FP.lit 410.0 : FP Fmt.b32).val : ℝ)| ≤ 500; rw [v410.2]; norm_num⟩ v400.1 le_rfl
        (by show (FP.lit 400.0 : FP Fmt.b32).val ≤ (FP.lit 400.125 : FP Fmt.b32).val; rw [v400.2, v4001.2]; norm_num)
        ⟨v8.1, by show |((FP.lit 0.125 : FP Fmt.b32).val : ℝ)| ≤ _; rw [v8.2]; norm_num [abs_of_pos]⟩
        (by show 0 < (FP.lit 0.125 : FP Fmt.b32).val; rw [v8.2]; norm_num)
        (by show _ ≤ ((FP.lit 0.125 : FP Fmt.b32).val : ℝ); rw [v8.2, hu]; norm_num)
    exact ⟨N, _, h⟩
  · refine C107_hangs_right _ _ (Flt.lit 0.000001) (by simp) (Or.inl rfl) v6.1 v6.2.1 v4001.1 ?_ ?_
    · show 0 < (FP.lit 400.125 : FP Fmt.b32).val; rw [v4001.2]; norm_num
    · show _ ≤ (FP.lit 400.125 : FP Fmt.b32).val * Fmt.b32.u / 2
      rw [v4001.2, hu]
      exact v6.2.2

end
end CS
