import Verif.Lemmas.FPRound

/-!
# Faster kernel evaluation of sums and products
Sums and products of dyadic numbers rounded with natural number arithmetic. `addFast_eq` and
`mulFast_eq` show that these are the operations of `FP`.
-/

namespace CS

/-! Evaluating a number once: the kernel substitutes unevaluated terms, so a number used several
times would be computed several times. `force` passes on a number whose numerator and denominator are
literals. -/

def forceNat {β : Type} (n : ℕ) (k : (m : ℕ) → m = n → β) : β :=
  match n, k with
  | 0, k => k 0 rfl
  | m + 1, k => k (m + 1) rfl

def forceInt {β : Type} (n : ℤ) (k : (m : ℤ) → m = n → β) : β :=
  match n, k with
  | .ofNat n, k => forceNat n fun m h => k (.ofNat m) (by rw [h])
  | .negSucc n, k => forceNat n fun m h => k (.negSucc m) (by rw [h])

def forceQ {β : Type} (q : ℚ) (k : (m : ℚ) → m = q → β) : β :=
  forceInt q.num fun n hn => forceNat q.den fun d hd =>
    k ⟨n, d, hd ▸ q.den_nz, hn ▸ hd ▸ q.reduced⟩ (by subst hn; subst hd; rfl)

def FP.force {f : Fmt} {β : Type} (a : FP f) (k : FP f → β) : β :=
  match a with
  | .fin q h => forceQ q fun m hm => k (.fin m (hm ▸ h))
  | .nan => k .nan
  | .pinf => k .pinf
  | .ninf => k .ninf
  | .nzero => k .nzero

theorem forceNat_eq {β : Type} (n : ℕ) (k : (m : ℕ) → m = n → β) : forceNat n k = k n rfl := by
  cases n <;> rfl

theorem forceInt_eq {β : Type} (n : ℤ) (k : (m : ℤ) → m = n → β) : forceInt n k = k n rfl := by
  cases n <;> simp only [forceInt, forceNat_eq]

theorem forceQ_eq {β : Type} (q : ℚ) (k : (m : ℚ) → m = q → β) : forceQ q k = k q rfl := by
  unfold forceQ
  rw [forceInt_eq, forceNat_eq]

theorem FP.force_eq {f : Fmt} {β : Type} (a : FP f) (k : FP f → β) : a.force k = k a := by
  cases a <;> simp only [FP.force, forceQ_eq]

/-- bits to drop from a `p`-bit rounding of `m` -/
def dropBits (p m : ℕ) : ℕ := Nat.log2 m + 1 - p

/-- drop the last `s` bits of `m`, to nearest, ties to even -/
def rnat (s m : ℕ) : ℕ :=
  if m % 2 ^ s < 2 ^ (s - 1) then m / 2 ^ s
  else if 2 ^ (s - 1) < m % 2 ^ s then m / 2 ^ s + 1
  else if m / 2 ^ s % 2 = 0 then m / 2 ^ s else m / 2 ^ s + 1

theorem rne_rnat (s m : ℕ) (hs : 1 ≤ s) : rne ((m : ℚ) / 2 ^ s) = (rnat s m : ℤ) := by
  have hfl : ⌊(m : ℚ) / 2 ^ s⌋ = ((m / 2 ^ s : ℕ) : ℤ) := by
    have := Rat.floor_intCast_div_natCast (m : ℤ) (2 ^ s)
    push_cast at this ⊢
    exact this
  have hp : (0:ℚ) < 2 ^ s := by positivity
  have hfr : (m : ℚ) / 2 ^ s - ⌊(m : ℚ) / 2 ^ s⌋ = ((m % 2 ^ s : ℕ) : ℚ) / 2 ^ s := by
    rw [hfl, Int.cast_natCast, eq_div_iff hp.ne', sub_mul, div_mul_cancel₀ _ hp.ne']
    have : (m : ℚ) = ((2 ^ s * (m / 2 ^ s) + m % 2 ^ s : ℕ) : ℚ) := by rw [Nat.div_add_mod]
    conv_lhs => rw [this]
    push_cast; ring
  have hh : (2:ℚ) ^ s = 2 * ((2 ^ (s - 1) : ℕ) : ℚ) := by
    obtain ⟨t, rfl⟩ : ∃ t, s = t + 1 := ⟨s - 1, by omega⟩
    rw [Nat.add_sub_cancel]; push_cast; ring
  have hq : (0:ℚ) < ((2 ^ (s - 1) : ℕ) : ℚ) := by positivity
  have c1 : (((m % 2 ^ s : ℕ) : ℚ) / 2 ^ s < 1 / 2) ↔ m % 2 ^ s < 2 ^ (s - 1) := by
    rw [hh, div_lt_div_iff₀ (by positivity) (by norm_num), mul_comm 1, mul_comm, mul_one,
      mul_lt_mul_iff_right₀ (by norm_num : (0:ℚ) < 2), Nat.cast_lt]
  have c2 : (1 / 2 < ((m % 2 ^ s : ℕ) : ℚ) / 2 ^ s) ↔ 2 ^ (s - 1) < m % 2 ^ s := by
    rw [hh, div_lt_div_iff₀ (by norm_num) (by positivity), one_mul, mul_comm _ (2:ℚ),
      mul_lt_mul_iff_right₀ (by norm_num : (0:ℚ) < 2), Nat.cast_lt]
  unfold rne rnat
  rw [hfr, hfl]
  simp only [c1, c2]
  have e : (((m / 2 ^ s : ℕ) : ℤ) % 2 = 0) ↔ (m / 2 ^ s % 2 = 0) := by omega
  simp only [e]
  split_ifs <;> simp

/-- the conditions for the direct path: normal range, no overflow, last place not above `1` -/
def dyOk (f : Fmt) (m k : ℕ) : Bool :=
  Nat.ble 1 m && Nat.ble (dropBits f.p m) k && Nat.ble (k + 1) (Nat.log2 m + f.emax) &&
    Nat.ble (Nat.log2 m + 1) (k + f.emax)

/-- the rounded value `m / 2^k` -/
theorem roundQ_dy (f : Fmt) {m k : ℕ} (h : dyOk f m k = true) :
    roundQ f ((m : ℚ) / 2 ^ k) = (rnat (dropBits f.p m) m : ℚ) / 2 ^ (k - dropBits f.p m) ∧
    (m : ℚ) / 2 ^ k ≤ 2 ^ f.emax := by
  unfold dyOk at h
  simp only [Bool.and_eq_true, Nat.ble_eq] at h
  obtain ⟨⟨⟨h1, h2⟩, h3⟩, h4⟩ := h
  have hm0 : m ≠ 0 := by omega
  set L := Nat.log2 m with hL
  have l1 : 2 ^ L ≤ m := Nat.log2_self_le hm0
  have l2 : m < 2 ^ (L + 1) := Nat.lt_log2_self
  have hmq : (0:ℚ) < m := by exact_mod_cast h1
  have l1q : (2:ℚ) ^ L ≤ m := by exact_mod_cast l1
  have l2q : (m:ℚ) < 2 ^ (L + 1) := by exact_mod_cast l2
  have hp2 : (2:ℚ) ≠ 0 := by norm_num
  have hk : (0:ℚ) < 2 ^ k := by positivity
  constructor
  · have hlog : Int.log 2 |(m : ℚ) / 2 ^ k| = (L : ℤ) - k := by
      have hv : 0 < (m : ℚ) / 2 ^ k := by positivity
      rw [abs_of_pos hv]
      have u1 : ((L:ℤ) - k) ≤ Int.log 2 ((m : ℚ) / 2 ^ k) := by
        rw [← Int.zpow_le_iff_le_log (by norm_num) hv]
        push_cast
        rw [zpow_sub₀ hp2, zpow_natCast, zpow_natCast]
        exact div_le_div_of_nonneg_right l1q hk.le
      have u2 : Int.log 2 ((m : ℚ) / 2 ^ k) < (L:ℤ) - k + 1 := by
        rw [← Int.lt_zpow_iff_log_lt (by norm_num) hv]
        push_cast
        rw [show (L:ℤ) - k + 1 = ((L + 1 : ℕ) : ℤ) - k by push_cast; ring, zpow_sub₀ hp2, zpow_natCast,
          zpow_natCast]
        exact div_lt_div_of_pos_right l2q hk
      omega
    have hqe : qexp f ((m : ℚ) / 2 ^ k) = (L : ℤ) - k - (f.p - 1) := by
      unfold qexp
      rw [hlog, max_eq_left]
      unfold Fmt.emin
      omega
    by_cases hs : dropBits f.p m = 0
    · -- exact
      rw [hs]
      have hr : rnat 0 m = m := by
        unfold rnat
        rw [pow_zero, Nat.mod_one, Nat.div_one]
        simp
      rw [hr, Nat.sub_zero]
      have hLp : L + 1 ≤ f.p := by unfold dropBits at hs; omega
      have := roundQ_eq_self f (m : ℤ) (-(k:ℤ)) (by
        have : (m:ℤ) < 2 ^ (L + 1) := by exact_mod_cast l2
        rw [abs_of_nonneg (by positivity)]
        refine le_trans this.le (pow_le_pow_right₀ (by norm_num) hLp))
      have hdiv : (m : ℚ) / 2 ^ k = ((m : ℤ) : ℚ) * 2 ^ (-(k:ℤ)) := by
        rw [zpow_neg, zpow_natCast, div_eq_mul_inv]; push_cast; rfl
      rw [hdiv]
      apply this
      unfold Fmt.emin; omega
    · have hs1 : 1 ≤ dropBits f.p m := Nat.one_le_iff_ne_zero.2 hs
      have hsd : (dropBits f.p m : ℤ) = (L : ℤ) + 1 - f.p := by unfold dropBits at *; omega
      have hqe' : qexp f ((m : ℚ) / 2 ^ k) = (dropBits f.p m : ℤ) - k := by rw [hqe, hsd]; ring
      unfold roundQ
      rw [hqe', zpow_sub₀ hp2, zpow_natCast, zpow_natCast]
      have e1 : (m : ℚ) / 2 ^ k / (2 ^ dropBits f.p m / 2 ^ k) = (m : ℚ) / 2 ^ dropBits f.p m := by
        field_simp
      rw [e1, rne_rnat _ _ hs1]
      have e2 : (2:ℚ) ^ k = 2 ^ dropBits f.p m * 2 ^ (k - dropBits f.p m) := by
        rw [← pow_add]; congr 1; omega
      rw [e2, div_mul_eq_div_div, div_self (by positivity)]
      push_cast
      ring
  · rw [div_le_iff₀ hk, ← pow_add]
    refine le_trans l2q.le (pow_le_pow_right₀ (by norm_num) (by omega))

theorem roundQ_dy_neg (f : Fmt) {m k : ℕ} (h : dyOk f m k = true) :
    roundQ f (-((m : ℚ) / 2 ^ k)) = -((rnat (dropBits f.p m) m : ℚ) / 2 ^ (k - dropBits f.p m)) := by
  rw [roundQ_neg, (roundQ_dy f h).1]

/-- signed magnitude as an integer -/
def sgnInt (neg : Bool) (n : ℕ) : ℤ := if neg then -(n : ℤ) else n

theorem isRep_dy (f : Fmt) (neg : Bool) {m k : ℕ} (h : dyOk f m k = true) :
    IsRep f (mkRat (sgnInt neg (rnat (dropBits f.p m) m)) (2 ^ (k - dropBits f.p m))) := by
  obtain ⟨h1, h2⟩ := roundQ_dy f h
  have e : IsRep f ((rnat (dropBits f.p m) m : ℚ) / 2 ^ (k - dropBits f.p m)) := by
    rw [← h1]
    exact FP.isRep_round (roundQ_lt (by rw [abs_of_nonneg (by positivity)]; exact h2))
  rw [Rat.mkRat_eq_div]
  push_cast
  cases neg
  · simpa [sgnInt] using e
  · have := FP.isRep_neg e
    simpa [sgnInt, neg_div] using this

/-- `rnat`, arranged for evaluation -/
def rnatE (s m : ℕ) : ℕ :=
  forceNat (Nat.pow 2 s) fun S _ => forceNat (Nat.mod m S) fun r _ => forceNat (Nat.div m S) fun q _ =>
  bif Nat.ble (Nat.succ (Nat.add r r)) S then q
  else bif Nat.ble (Nat.succ S) (Nat.add r r) then Nat.succ q
  else bif Nat.beq (Nat.mod q 2) 0 then q else Nat.succ q

theorem rnatE_eq (s m : ℕ) : rnatE s m = rnat s m := by
  unfold rnatE rnat
  rw [forceNat_eq, forceNat_eq, forceNat_eq]
  show (bif Nat.ble (m % 2 ^ s + m % 2 ^ s + 1) (2 ^ s) then m / 2 ^ s
    else bif Nat.ble (2 ^ s + 1) (m % 2 ^ s + m % 2 ^ s) then m / 2 ^ s + 1
    else bif Nat.beq (m / 2 ^ s % 2) 0 then m / 2 ^ s else m / 2 ^ s + 1) = _
  simp only [cond_eq_ite, Nat.ble_eq, Nat.beq_eq]
  cases s with
  | zero => simp [Nat.mod_one]
  | succ t =>
    have hS : 2 ^ (t + 1) = 2 ^ t + 2 ^ t := by ring
    rw [Nat.add_sub_cancel]
    generalize m / 2 ^ (t + 1) = q
    generalize m % 2 ^ (t + 1) = r
    rw [hS]
    generalize 2 ^ t = h
    split_ifs <;> omega

/-- `sgnInt`, arranged for evaluation -/
def sgnE (neg : Bool) (n : ℕ) : ℤ := bif neg then Int.neg (Int.ofNat n) else Int.ofNat n

theorem sgnE_eq (neg : Bool) (n : ℕ) : sgnE neg n = sgnInt neg n := by cases neg <;> rfl

/-- the float nearest to `± m / 2^k` -/
def ofDy (f : Fmt) (s0 neg : Bool) (m k : ℕ) : FP f :=
  forceNat m fun m' _ =>
    if h : dyOk f m' k = true then
      forceNat (dropBits f.p m') fun s hs =>
      .fin (mkRat (sgnE neg (rnatE s m')) (Nat.pow 2 (Nat.sub k s)))
        (by rw [sgnE_eq, rnatE_eq, hs]; exact isRep_dy f neg h)
    else bif Nat.beq m' 0 then .zeroOf s0
    else FP.ofQ f s0 (mkRat (sgnInt neg m') (2 ^ k))

theorem rnat_pos {p m : ℕ} (hp : 2 ≤ p) (hm : m ≠ 0) : 0 < rnat (dropBits p m) m := by
  have l1 : 2 ^ Nat.log2 m ≤ m := Nat.log2_self_le hm
  have hd : 0 < m / 2 ^ dropBits p m := by
    apply Nat.div_pos _ (by positivity)
    refine le_trans (pow_le_pow_right₀ (by norm_num) ?_) l1
    unfold dropBits; omega
  unfold rnat
  split_ifs <;> omega

theorem ofDy_eq (f : Fmt) (s0 neg : Bool) (m k : ℕ) :
    ofDy f s0 neg m k = FP.ofQ f s0 (sgnInt neg m / 2 ^ k) := by
  unfold ofDy
  rw [forceNat_eq]
  have e : (mkRat (sgnInt neg m) (2 ^ k) : ℚ) = sgnInt neg m / 2 ^ k := by
    rw [Rat.mkRat_eq_div]; push_cast; rfl
  split_ifs with h
  · rw [forceNat_eq]
    have hrep := isRep_dy f neg h
    have hE : ∀ (x : ℚ) (hx : IsRep f x), x = mkRat (sgnInt neg (rnat (dropBits f.p m) m)) (2 ^ (k - dropBits f.p m)) →
        (FP.fin x hx : FP f) = FP.fin _ hrep := by
      intro x hx e; subst e; rfl
    rw [hE _ _ (by rw [sgnE_eq, rnatE_eq]; rfl)]
    have hm : m ≠ 0 := by
      unfold dyOk at h
      simp only [Bool.and_eq_true, Nat.ble_eq] at h
      omega
    have hv : roundQ f ((sgnInt neg m : ℚ) / 2 ^ k) =
        mkRat (sgnInt neg (rnat (dropBits f.p m) m)) (2 ^ (k - dropBits f.p m)) := by
      rw [Rat.mkRat_eq_div]
      push_cast
      cases neg
      · simpa [sgnInt] using (roundQ_dy f h).1
      · simpa [sgnInt, neg_div] using roundQ_dy_neg f h
    have hr := isRep_dy f neg h
    have hfin := FP.ofQ_finite (f := f) s0 (q := (sgnInt neg m : ℚ) / 2 ^ k) (by rw [hv]; exact hr.2)
    have hne : mkRat (sgnInt neg (rnat (dropBits f.p m) m)) (2 ^ (k - dropBits f.p m)) ≠ 0 := by
      rw [Rat.mkRat_eq_div]
      have := rnat_pos (p := f.p) f.hp hm
      refine div_ne_zero ?_ (by push_cast; positivity)
      cases neg <;> simp [sgnInt] <;> omega
    refine (FP.eq_of_val hfin.1 rfl ?_ ?_).symm
    · rw [hfin.2, hv]; rfl
    · rw [hfin.2, hv]; exact hne
  · by_cases hm : m = 0
    · subst hm
      have : (sgnInt neg 0 : ℚ) / 2 ^ k = 0 := by cases neg <;> simp [sgnInt]
      rw [this, FP.ofQ_zero]; rfl
    · have : Nat.beq m 0 = false := by
        rw [← Bool.not_eq_true, Nat.beq_eq]; exact hm
      rw [this, ← e]; rfl

/-- is the denominator a power of two -/
def pow2Den (q : ℚ) : Bool := Nat.beq q.den (Nat.pow 2 (Nat.log2 q.den))

theorem rat_eq_dy {q : ℚ} (h : pow2Den q = true) :
    q = (q.num : ℚ) / 2 ^ Nat.log2 q.den := by
  unfold pow2Den at h
  rw [Nat.beq_eq] at h
  have h : q.den = 2 ^ Nat.log2 q.den := h
  conv_lhs => rw [← Rat.num_div_den q, h]
  push_cast; rfl

theorem pow2Den_den {q : ℚ} (h : pow2Den q = true) : q.den = 2 ^ Nat.log2 q.den := by
  unfold pow2Den at h
  rw [Nat.beq_eq] at h
  exact h

/-- sign of an integer -/
def isNegE : ℤ → Bool
  | .ofNat _ => false
  | .negSucc _ => true

theorem isNegE_eq (n : ℤ) : isNegE n = decide (n < 0) := by
  cases n with
  | ofNat n => simp [isNegE]
  | negSucc n => simp [isNegE]

theorem sgnInt_natAbs (n : ℤ) : sgnInt (isNegE n) n.natAbs = n := by
  rw [isNegE_eq]
  unfold sgnInt
  split_ifs with h <;> simp at h <;> omega

/-- product of two floats -/
def FP.mulFast {f : Fmt} (a b : FP f) : FP f :=
  a.force fun a => b.force fun b =>
    match a, b with
    | .fin p _, .fin q _ =>
      bif pow2Den p && pow2Den q then
        ofDy f (decide (p < 0) ^^ decide (q < 0)) (isNegE p.num ^^ isNegE q.num)
          (Nat.mul p.num.natAbs q.num.natAbs) (Nat.add (Nat.log2 p.den) (Nat.log2 q.den))
      else a * b
    | a, b => a * b

theorem FP.mulFast_eq {f : Fmt} (a b : FP f) : FP.mulFast a b = a * b := by
  unfold FP.mulFast
  rw [FP.force_eq, FP.force_eq]
  cases a with
  | fin p hp =>
    cases b with
    | fin q hq =>
      dsimp only
      cases h : (pow2Den p && pow2Den q)
      · rfl
      · rw [Bool.and_eq_true] at h
        rw [cond_true, ofDy_eq]
        show _ = FP.ofQ f (_ ^^ _) (p * q)
        congr 1
        conv_rhs => rw [rat_eq_dy h.1, rat_eq_dy h.2]
        rw [div_mul_div_comm, ← pow_add]
        congr 1
        have e : sgnInt (isNegE p.num ^^ isNegE q.num) (p.num.natAbs * q.num.natAbs) =
            p.num * q.num := by
          conv_rhs => rw [← sgnInt_natAbs p.num, ← sgnInt_natAbs q.num]
          cases isNegE p.num <;> cases isNegE q.num <;> simp [sgnInt]
        rw [← Int.cast_mul, ← e]; rfl
    | _ => rfl
  | _ => rfl

/-- sum of two floats -/
def FP.addFast {f : Fmt} (a b : FP f) : FP f :=
  a.force fun a => b.force fun b =>
    match a, b with
    | .fin p _, .fin q _ =>
      bif pow2Den p && pow2Den q then
        forceInt (Int.add (Int.mul p.num (Int.ofNat q.den)) (Int.mul q.num (Int.ofNat p.den))) fun n _ =>
          ofDy f (decide (p < 0) && decide (q < 0)) (isNegE n) n.natAbs
            (Nat.add (Nat.log2 p.den) (Nat.log2 q.den))
      else a + b
    | .fin p h, .nzero => .fin p h
    | a, b => a + b

theorem FP.add_nzero {f : Fmt} (p : ℚ) (h : IsRep f p) :
    (FP.fin p h : FP f) + FP.nzero = FP.fin p h := by
  show FP.ofQ f (decide (p < 0) && true) (p + 0) = _
  rw [add_zero, Bool.and_true]
  by_cases h0 : p = 0
  · subst h0
    rw [FP.ofQ_zero]; rfl
  · exact FP.ofQ_isRep h h0 _

theorem FP.addFast_eq {f : Fmt} (a b : FP f) : FP.addFast a b = a + b := by
  unfold FP.addFast
  rw [FP.force_eq, FP.force_eq]
  cases a with
  | fin p hp =>
    cases b with
    | fin q hq =>
      dsimp only
      cases h : (pow2Den p && pow2Den q)
      · rfl
      · rw [Bool.and_eq_true] at h
        rw [cond_true, forceInt_eq, ofDy_eq, sgnInt_natAbs]
        show _ = FP.ofQ f (_ && _) (p + q)
        congr 1
        have e : Int.add (Int.mul p.num (Int.ofNat q.den)) (Int.mul q.num (Int.ofNat p.den)) =
            p.num * (2 ^ Nat.log2 q.den : ℕ) + q.num * (2 ^ Nat.log2 p.den : ℕ) := by
          rw [← pow2Den_den h.1, ← pow2Den_den h.2]; rfl
        rw [e]
        conv_rhs => rw [rat_eq_dy h.1, rat_eq_dy h.2]
        rw [div_add_div _ _ (by positivity) (by positivity), ← pow_add]
        congr 1
        push_cast
        ring
    | nzero => exact (FP.add_nzero p hp).symm
    | _ => rfl
  | _ => rfl

/-- difference of two floats -/
def FP.subFast {f : Fmt} (a b : FP f) : FP f := FP.addFast a (FP.neg b)

theorem FP.subFast_eq {f : Fmt} (a b : FP f) : FP.subFast a b = a - b := by
  unfold FP.subFast
  rw [FP.addFast_eq]; rfl

@[instance_reducible] def FP.fastAdd (f : Fmt) : Add (FP f) := ⟨FP.addFast⟩
@[instance_reducible] def FP.fastSub (f : Fmt) : Sub (FP f) := ⟨FP.subFast⟩
@[instance_reducible] def FP.fastMul (f : Fmt) : Mul (FP f) := ⟨FP.mulFast⟩

theorem FP.fastAdd_eq (f : Fmt) : FP.fastAdd f = (inferInstance : Add (FP f)) := by
  unfold FP.fastAdd
  congr 1; funext a b; exact FP.addFast_eq a b
theorem FP.fastSub_eq (f : Fmt) : FP.fastSub f = (inferInstance : Sub (FP f)) := by
  unfold FP.fastSub
  congr 1; funext a b; exact FP.subFast_eq a b
theorem FP.fastMul_eq (f : Fmt) : FP.fastMul f = (inferInstance : Mul (FP f)) := by
  unfold FP.fastMul
  congr 1; funext a b; exact FP.mulFast_eq a b

end CS
