import Verif.Lemmas.Vspd
import Verif.Lemmas.FPOrder
import Verif.Lemmas.Quant
import Verif.Num.KRefl
import Verif.Lemmas.FPArith
import Mathlib.Data.List.Sort

/-!
# Shapes, spectra and their construction (C37 - C39, C47, C48, C50, C62, C67)
-/

namespace CS

/-! ## C37: the grid of a shape -/

/-- the answer of the `(k+1)`-th call to `next` -/
def SpdShapeIterator.nth {T : Type} [Add T] [Mul T] [Flt T] :
    ℕ → SpdShapeIterator T → Option T
  | 0, it => it.next.2
  | k + 1, it => SpdShapeIterator.nth k it.next.1

/-- C37 [G]: if the quotient `(end - start)/interval` truncates to `n`, the calls to `next` answer
`start + k*interval` for `k = 0..n` and `None` forever after; collecting gives these `n + 1`
values. -/
theorem C37_enumerates {T : Type} [Add T] [Sub T] [Mul T] [Div T] [Neg T] [Flt T]
    (s : SpdShape T) (i : T) (n : ℕ) (hi : s.interval = .uniform i)
    (hn : Flt.toUsize ((s.end - s.start) / i) = some n) :
    (∃ it, s.iter = .ok it ∧ ∀ k, it.nth k =
      if k ≤ n then some (s.start + Flt.ofNat k * i) else none) ∧
    s.wavelengths = .ok ((List.range (n + 1)).map fun k => s.start + Flt.ofNat k * i) := by
  refine ⟨⟨⟨0, n + 1, s.start, i⟩, ?_, fun k => ?_⟩, wavelengths_eq hi hn⟩
  · unfold SpdShape.iter; rw [hi]; simp only [hn]; rfl
  · have key : ∀ k c : ℕ, SpdShapeIterator.nth k (⟨c, n + 1, s.start, i⟩ : SpdShapeIterator T) =
        if c + k ≤ n then some (s.start + Flt.ofNat (c + k) * i) else none := by
      intro k
      induction k with
      | zero =>
        intro c
        unfold SpdShapeIterator.nth SpdShapeIterator.next
        by_cases h : c ≤ n <;> simp [h]
      | succ k ih =>
        intro c
        unfold SpdShapeIterator.nth
        have e : (SpdShapeIterator.next (⟨c, n + 1, s.start, i⟩ : SpdShapeIterator T)).1
            = ⟨c + 1, n + 1, s.start, i⟩ := by
          unfold SpdShapeIterator.next; dsimp only; split <;> rfl
        rw [e, ih (c + 1), show c + 1 + k = c + (k + 1) by omega]
    simpa using key k 0

/-- C37 [G]: a varying shape, or a quotient that is not a `usize`, panics. -/
theorem C37_panics {T : Type} [Add T] [Sub T] [Mul T] [Div T] [Neg T] [Flt T] (s : SpdShape T) :
    (s.interval = .varying → s.iter = .error .assert) ∧
    (∀ i, s.interval = .uniform i → Flt.toUsize ((s.end - s.start) / i) = none →
      s.iter = .error .unwrap) := by
  constructor
  · intro h; unfold SpdShape.iter; rw [h]
  · intro i h hn; unfold SpdShape.iter; rw [h]; simp only [hn]; rfl

/-- C37 [R]: in exact arithmetic, for a non-zero interval: it panics exactly when the quotient is
`≤ -1` (or does not fit); otherwise the grid has `⌊(end-start)/interval⌋ + 1` points, and for
`start ≤ end`, `interval > 0` they are exactly the points `start + k*interval` inside
`[start, end]`, in increasing order. -/
theorem C37_real (s : SpdShape ℝ) (i : ℝ) (hi : s.interval = .uniform i) (h0 : i ≠ 0) :
    ((∃ ws, s.wavelengths = .ok ws) ↔ -1 < (s.end - s.start) / i ∧ (s.end - s.start) / i < 2 ^ 64) ∧
    (∀ ws, s.wavelengths = .ok ws →
      ws.length = ⌊(s.end - s.start) / i⌋₊ + 1 ∧
      (∀ k, k < ws.length → ws[k]? = some (s.start + k * i)) ∧
      (0 < i → s.start ≤ s.end → ws.Pairwise (· < ·) ∧
        ∀ x, x ∈ ws ↔ x ≤ s.end ∧ ∃ k : ℕ, x = s.start + k * i)) := by
  have hu := flt_toUsize ((s.end - s.start) / i)
  by_cases hc : -1 < (s.end - s.start) / i ∧ (s.end - s.start) / i < 2 ^ 64
  · rw [if_pos hc] at hu
    have hw := wavelengths_eq hi hu
    refine ⟨⟨fun _ => hc, fun _ => ⟨_, hw⟩⟩, fun ws h => ?_⟩
    rw [hw] at h
    cases h
    refine ⟨by simp, fun k hk => ?_, fun hpos hse => ⟨?_, fun x => ?_⟩⟩
    · simp only [List.length_map, List.length_range] at hk
      simp [hk]
    · rw [List.pairwise_map]
      refine List.Pairwise.imp ?_ List.pairwise_lt_range
      intro a b hab
      have : (a:ℝ) < b := by exact_mod_cast hab
      simp only [flt_ofNat]
      nlinarith
    · simp only [List.mem_map, List.mem_range, flt_ofNat]
      have hq : 0 ≤ (s.end - s.start) / i := div_nonneg (by linarith) hpos.le
      constructor
      · rintro ⟨k, hk, rfl⟩
        refine ⟨?_, k, rfl⟩
        have : (k:ℝ) ≤ (s.end - s.start) / i := (Nat.le_floor_iff hq).1 (by omega)
        rw [le_div_iff₀ hpos] at this
        linarith
      · rintro ⟨hx, k, rfl⟩
        refine ⟨k, ?_, rfl⟩
        have : (k:ℝ) ≤ (s.end - s.start) / i := by rw [le_div_iff₀ hpos]; linarith
        have := (Nat.le_floor_iff hq).2 this
        omega
  · rw [if_neg hc] at hu
    have hp := (C37_panics s).2 i hi hu
    have hw : s.wavelengths = .error .unwrap := by unfold SpdShape.wavelengths; rw [hp]; rfl
    refine ⟨⟨fun ⟨ws, h⟩ => ?_, fun h => absurd h hc⟩, fun ws h => ?_⟩ <;>
      (rw [hw] at h; cases h)

/-- Not vacuous: the ASTM E308 shape has 421 points. -/
example : ∃ ws, (SpdShape.astmE308 : SpdShape ℝ).wavelengths = .ok ws ∧ ws.length = 421 := by
  have h := C37_real (SpdShape.astmE308 : SpdShape ℝ) _ rfl (by norm_num)
  obtain ⟨ws, hw⟩ := h.1.2 (by simp [SpdShape.astmE308]; norm_num)
  refine ⟨ws, hw, ?_⟩
  rw [(h.2 ws hw).1]
  have : ((SpdShape.astmE308 : SpdShape ℝ).end - (SpdShape.astmE308 : SpdShape ℝ).start)
      / Flt.lit 1.0 = ((420 : ℕ) : ℝ) := by simp [SpdShape.astmE308]; norm_num
  rw [this, Nat.floor_natCast]

/-- C37 [F]: with a zero interval (of either sign) iteration panics, for any start and end. -/
theorem C37_zero_interval {f : Fmt} [Libm f] (s : SpdShape (FP f)) (i : FP f)
    (hi : s.interval = .uniform i) (hf : i.isFinite = true) (h0 : i.val = 0) :
    s.iter = .error .unwrap := by
  refine (C37_panics s).2 i hi ?_
  show FP.toUsize (FP.div (s.end - s.start) i) = none
  generalize s.end - s.start = d
  have hinf : ∀ b, FP.toUsize (FP.infOf b : FP f) = none := by intro b; cases b <;> rfl
  have hdiv : FP.div d i = FP.nan ∨ ∃ b, FP.div d i = FP.infOf b := by
    by_cases hd : d.isFinite = true ∧ d.val = 0
    · left
      cases i <;> simp [FP.isFinite, FP.val] at hf h0 <;> cases d <;>
        simp_all [FP.div, FP.isFinite, FP.val]
    · by_cases hn : d = FP.nan
      · left; rw [hn]; rfl
      · right
        refine ⟨d.sgn ^^ i.sgn, ?_⟩
        cases i <;> simp [FP.isFinite, FP.val] at hf h0 <;> cases d <;>
          simp_all [FP.div, FP.isFinite, FP.val]
  rcases hdiv with h | ⟨b, h⟩
  · rw [h]; rfl
  · rw [h]; exact hinf b

/-! ## C38: the shape computed by `VSPD::new` -/

/-- C38 [G]: `VSPD::new` panics exactly for fewer than two samples. Otherwise it keeps the samples,
start and end are the first and last wavelengths, and the interval is uniform exactly when all gaps
*but the last* are approximately equal to the first gap. -/
theorem C38_exact {T : Type} [Add T] [Sub T] [Mul T] [Div T] [Neg T] [Flt T]
    (l : List (Sample T)) :
    (l.length < 2 → VSPD.new l = .error .assert) ∧
    (∀ a b rest z, l = a :: b :: rest → l.getLast? = some z →
      ∃ iv, VSPD.new l = .ok ⟨l, ⟨a.nm, z.nm, iv⟩⟩ ∧
        (((∀ (k : ℕ) (p q : Sample T), k + 2 < l.length → l[k]? = some p → l[k + 1]? = some q →
          Flt.approxEq (q.nm - p.nm) (b.nm - a.nm) = true) ∧ iv = .uniform (b.nm - a.nm)) ∨
         ((∃ (k : ℕ) (p q : Sample T), k + 2 < l.length ∧ l[k]? = some p ∧ l[k + 1]? = some q ∧
          Flt.approxEq (q.nm - p.nm) (b.nm - a.nm) = false) ∧ iv = .varying))) := by
  constructor
  · intro h
    unfold VSPD.new calculateShape
    rw [if_pos h]; rfl
  · intro a b rest z hl hz
    have hlen : ¬ l.length < 2 := by rw [hl]; simp
    have hloop := intervalLoop_eq (b.nm - a.nm) l a.nm (List.range' 1 (l.length - 1 - 1))
      (fun i hi => by rw [List.mem_range'_1] at hi; omega)
    have hci : calculateInterval l = intervalLoop (b.nm - a.nm) l
        (List.range' 1 (l.length - 1 - 1)) := by
      unfold calculateInterval
      rw [if_neg hlen]
      have e1 : idx l 1 = .ok b := by rw [hl]; rfl
      have e0 : idx l 0 = .ok a := by rw [hl]; rfl
      rw [e1, e0]; rfl
    have hnew : ∀ iv, calculateInterval l = .ok iv →
        VSPD.new l = .ok ⟨l, ⟨a.nm, z.nm, iv⟩⟩ := by
      intro iv h
      unfold VSPD.new calculateShape
      rw [if_neg hlen, h, hz]
      have : l.head? = some a := by rw [hl]; rfl
      rw [this]; rfl
    rw [← hci] at hloop
    refine ⟨_, hnew _ hloop, ?_⟩
    have hg : ∀ (k : ℕ) (p q : Sample T), l[k]? = some p → l[k + 1]? = some q →
        gap l (k + 1) a.nm = q.nm - p.nm := by
      intro k p q hp hq
      simp [gap, List.getD, hp, hq]
    by_cases hall : ∀ i ∈ List.range' 1 (l.length - 1 - 1),
        Flt.approxEq (gap l i a.nm) (b.nm - a.nm) = true
    · left
      rw [if_pos hall]
      refine ⟨fun k p q hk hp hq => ?_, rfl⟩
      rw [← hg k p q hp hq]
      exact hall (k + 1) (by rw [List.mem_range'_1]; omega)
    · right
      rw [if_neg hall]
      push Not at hall
      obtain ⟨i, hi, hne⟩ := hall
      rw [List.mem_range'_1] at hi
      refine ⟨⟨i - 1, l[i - 1]'(by omega), l[i]'(by omega), by omega,
        List.getElem?_eq_getElem _, ?_, ?_⟩, rfl⟩
      · rw [show i - 1 + 1 = i by omega]; exact List.getElem?_eq_getElem _
      · have := hg (i - 1) (l[i - 1]'(by omega)) (l[i]'(by omega))
          (List.getElem?_eq_getElem _)
          (by rw [show i - 1 + 1 = i by omega]; exact List.getElem?_eq_getElem _)
        rw [show i - 1 + 1 = i by omega] at this
        rw [← this]
        simpa using hne

/-- C38 [R], partial: if a uniform interval is reported, it is the first gap and every gap but the
last one is within 1e-11 of it. Missing: the last gap, which is never looked at
(`C38_counterexample`). -/
theorem C38_uniform_partial (l : List (Sample ℝ)) (s : VSPD ℝ) (d : ℝ) (h : VSPD.new l = .ok s)
    (hd : s.shape.interval = .uniform d) :
    s.samples = l ∧ 2 ≤ l.length ∧
    ∀ (k : ℕ) (p q : Sample ℝ), l[k]? = some p → l[k + 1]? = some q → k + 2 < l.length →
      |q.nm - p.nm - d| ≤ 1 / 10 ^ 11 := by
  obtain ⟨hshort, hlong⟩ := C38_exact l
  match l, hshort, hlong, h with
  | [], hs, _, h => rw [hs (by simp)] at h; cases h
  | [a], hs, _, h => rw [hs (by simp)] at h; cases h
  | a :: b :: rest, _, hl, h =>
    have hz : (a :: b :: rest).getLast? = some ((a :: b :: rest).getLast (by simp)) :=
      List.getLast?_eq_some_getLast _
    obtain ⟨iv, e, hiv⟩ := hl a b rest _ rfl hz
    rw [e] at h
    cases h
    simp only at hd
    refine ⟨rfl, by simp, ?_⟩
    rcases hiv with ⟨hall, rfl⟩ | ⟨-, rfl⟩
    · cases hd
      intro k p q hp hq hk
      have := hall k p q hk hp hq
      rw [flt_approxEq] at this
      exact of_decide_eq_true this
    · cases hd

/-- C38 [R], counterexample: 380, 400, 1000 nm is reported as uniform with interval 20. -/
theorem C38_counterexample : ∃ s : VSPD ℝ,
    VSPD.new [⟨380, 1⟩, ⟨400, 1⟩, ⟨1000, 1⟩] = .ok s ∧ s.shape.interval = .uniform 20 := by
  obtain ⟨-, hl⟩ := C38_exact ([⟨380, 1⟩, ⟨400, 1⟩, ⟨1000, 1⟩] : List (Sample ℝ))
  obtain ⟨iv, e, hiv⟩ := hl _ _ _ _ rfl rfl
  refine ⟨_, e, ?_⟩
  rcases hiv with ⟨-, rfl⟩ | ⟨⟨k, p, q, hk, hp, hq, hne⟩, -⟩
  · norm_num
  · have hk0 : k = 0 := by simp at hk; omega
    subst hk0
    simp at hp hq
    subst hp hq
    rw [flt_approxEq] at hne
    norm_num at hne

/-! ## C39: constructors from a shape -/

/-- C39 [G]: `VSPD::constant` holds one sample per grid point, all with the given value, and reports
the given shape; it panics exactly when iterating the shape panics or gives a single point. -/
theorem C39_constant {T : Type} [Add T] [Sub T] [Mul T] [Div T] [Neg T] [Flt T]
    (shape : SpdShape T) (v : T) :
    (∀ p, shape.wavelengths = .error p → VSPD.constant shape v = .error p) ∧
    (∀ ws, shape.wavelengths = .ok ws →
      (ws.length < 2 → VSPD.constant shape v = .error .assert) ∧
      (2 ≤ ws.length → ∃ s, VSPD.constant shape v = .ok s ∧ s.shape = shape ∧
        s.wavelengths = ws ∧ s.values = List.replicate ws.length v)) := by
  constructor
  · intro p h; unfold VSPD.constant; rw [h]; rfl
  · intro ws h
    have e : VSPD.constant shape v =
        if (ws.map fun nm => (⟨nm, v⟩ : Sample T)).length < 2 then .error .assert
        else .ok ⟨ws.map fun nm => (⟨nm, v⟩ : Sample T), shape⟩ := by
      unfold VSPD.constant; rw [h]; rfl
    rw [List.length_map] at e
    refine ⟨fun hl => by rw [e, if_pos hl], fun hl => ⟨_, by rw [e, if_neg (by omega)], rfl, ?_, ?_⟩⟩
    · simp [VSPD.wavelengths, Function.comp_def]
    · simp [VSPD.values, Function.comp_def]

/-- C39 [R]: `VSPD::from_values` succeeds exactly for at least two values on a uniform shape with as
many grid points as values; then it holds the values at the grid points, in order, and reports the
shape. -/
theorem C39_from_values (shape : SpdShape ℝ) (vals : List ℝ) (hlen : vals.length < 2 ^ 64) :
    ((∃ s, VSPD.fromValues shape vals = .ok s) ↔ 2 ≤ vals.length ∧
      ∃ i, shape.interval = .uniform i ∧ ⌊(shape.end - shape.start) / i⌋₊ + 1 = vals.length) ∧
    (∀ s, VSPD.fromValues shape vals = .ok s → s.shape = shape ∧ s.values = vals ∧
      shape.wavelengths = .ok s.wavelengths) := by
  unfold VSPD.fromValues
  by_cases h2 : vals.length < 2
  · rw [if_pos h2]
    constructor
    · constructor
      · rintro ⟨s, h⟩; cases h
      · rintro ⟨h, -⟩; omega
    · intro s h; cases h
  · rw [if_neg h2]
    cases hi : shape.interval with
    | varying =>
      constructor
      · constructor
        · rintro ⟨s, h⟩; cases h
        · rintro ⟨-, i, h, -⟩; cases h
      · intro s h; cases h
    | uniform i =>
      simp only [flt_asUInt]
      have hmin : Nat.min (2 ^ 64 - 1) ⌊(shape.end - shape.start) / i⌋₊ + 1 = vals.length ↔
          ⌊(shape.end - shape.start) / i⌋₊ + 1 = vals.length ∨
            (2 ^ 64 - 1 < ⌊(shape.end - shape.start) / i⌋₊ ∧ 2 ^ 64 = vals.length) := by
        have : Nat.min (2 ^ 64 - 1) ⌊(shape.end - shape.start) / i⌋₊
            = min (2 ^ 64 - 1) ⌊(shape.end - shape.start) / i⌋₊ := rfl
        rw [this]; omega
      by_cases hc : Nat.min (2 ^ 64 - 1) ⌊(shape.end - shape.start) / i⌋₊ + 1 = vals.length
      · rw [if_neg (by simpa using hc)]
        have hc' : ⌊(shape.end - shape.start) / i⌋₊ + 1 = vals.length := by
          rcases hmin.1 hc with h | ⟨-, h⟩
          · exact h
          · omega
        have hq1 : 1 ≤ (shape.end - shape.start) / i := by
          rw [← Nat.one_le_floor_iff]; omega
        have hq2 : (shape.end - shape.start) / i < 2 ^ 64 := by
          have := Nat.lt_floor_add_one ((shape.end - shape.start) / i)
          have h3 : ((⌊(shape.end - shape.start) / i⌋₊ + 1 : ℕ) : ℝ) < ((2 ^ 64 : ℕ) : ℝ) := by
            exact_mod_cast (hc' ▸ hlen)
          push_cast at h3
          linarith
        have hu := flt_toUsize ((shape.end - shape.start) / i)
        rw [if_pos ⟨by linarith, hq2⟩] at hu
        have hw := wavelengths_eq hi hu
        set ws := (List.range (⌊(shape.end - shape.start) / i⌋₊ + 1)).map
          fun k => shape.start + Flt.ofNat k * i with hws
        have hwl : ws.length = vals.length := by rw [← hc', hws]; simp
        rw [hw]
        constructor
        · exact ⟨fun _ => ⟨by omega, i, rfl, hc'⟩, fun _ => ⟨_, rfl⟩⟩
        · intro s h
          cases h
          refine ⟨rfl, ?_, ?_⟩
          · simp only [VSPD.values, List.map_map, Function.comp_def]
            exact List.map_snd_zip hwl.ge
          · simp only [VSPD.wavelengths, List.map_map, Function.comp_def]
            exact congrArg Except.ok (List.map_fst_zip hwl.le).symm
      · rw [if_pos (by simpa using hc)]
        constructor
        · constructor
          · rintro ⟨s, h⟩; cases h
          · rintro ⟨-, j, h, h'⟩
            cases h
            exact absurd (hmin.2 (Or.inl h')) hc
        · intro s h; cases h

/-- Not vacuous: three values on 400..420 step 10. -/
example : ∃ s, VSPD.fromValues (SpdShape.new (400:ℝ) 420 10) [1, 2, 3] = .ok s := by
  refine (C39_from_values _ _ (by norm_num)).1.2 ⟨by simp, 10, rfl, ?_⟩
  have : ((SpdShape.new (400:ℝ) 420 10).end - (SpdShape.new (400:ℝ) 420 10).start) / 10
      = ((2:ℕ):ℝ) := by norm_num [SpdShape.new]
  rw [this, Nat.floor_natCast]; rfl

/-! ## C47: trimming -/

theorem dropTake_eq_filter (l : List (Sample ℝ)) (a b : ℝ)
    (hl : (l.map Sample.nm).Pairwise (· ≤ ·)) :
    (l.dropWhile fun p => decide (p.nm < a)).takeWhile (fun p => decide (p.nm ≤ b))
      = l.filter fun p => decide (a ≤ p.nm ∧ p.nm ≤ b) := by
  have take : ∀ l : List (Sample ℝ), (l.map Sample.nm).Pairwise (· ≤ ·) → (∀ p ∈ l, a ≤ p.nm) →
      l.takeWhile (fun p => decide (p.nm ≤ b)) = l.filter fun p => decide (a ≤ p.nm ∧ p.nm ≤ b) := by
    intro l
    induction l with
    | nil => simp
    | cons x l ih =>
      intro hp ha
      simp only [List.map_cons, List.pairwise_cons, List.mem_map, forall_exists_index, and_imp,
        forall_apply_eq_imp_iff₂] at hp
      have hx := ha x (by simp)
      by_cases hb : x.nm ≤ b
      · rw [List.takeWhile_cons_of_pos (by simpa using hb),
          List.filter_cons_of_pos (by simpa using ⟨hx, hb⟩),
          ih hp.2 (fun p h => ha p (List.mem_cons_of_mem _ h))]
      · rw [List.takeWhile_cons_of_neg (by simpa using hb), List.filter_cons_of_neg (by simpa using fun _ => not_le.1 hb)]
        symm
        rw [List.filter_eq_nil_iff]
        intro p hpl
        have := hp.1 p hpl
        simp only [decide_eq_true_eq, not_and, not_le]
        intro; linarith [not_le.1 hb]
  induction l with
  | nil => simp
  | cons x l ih =>
    have hp := hl
    simp only [List.map_cons, List.pairwise_cons, List.mem_map, forall_exists_index, and_imp,
      forall_apply_eq_imp_iff₂] at hp
    by_cases hx : x.nm < a
    · rw [List.dropWhile_cons_of_pos (by simpa using hx), ih hp.2,
        List.filter_cons_of_neg (by simp; intro h; linarith)]
    · rw [List.dropWhile_cons_of_neg (by simpa using hx)]
      push Not at hx
      refine take _ hl ?_
      intro p hpm
      rcases List.mem_cons.1 hpm with rfl | h
      · exact hx
      · exact hx.trans (hp.1 p h)

/-- C47 [R]: for non-decreasing wavelengths, `trim` keeps exactly the samples with
`start ≤ nm ≤ end`, in order; start and end become the first and last wavelength kept, the interval
is unchanged; it panics exactly when no sample is inside. -/
theorem C47_trim (s : VSPD ℝ) (shape : SpdShape ℝ) (hs : s.wavelengths.Pairwise (· ≤ ·)) :
    ((∀ p ∈ s.samples, ¬ (shape.start ≤ p.nm ∧ p.nm ≤ shape.end)) →
      s.trim shape = .error .unwrap) ∧
    ((∃ p ∈ s.samples, shape.start ≤ p.nm ∧ p.nm ≤ shape.end) →
      ∃ t f l, s.trim shape = .ok t ∧
        t.samples = s.samples.filter (fun p => decide (shape.start ≤ p.nm ∧ p.nm ≤ shape.end)) ∧
        t.samples.head? = some f ∧ t.samples.getLast? = some l ∧ t.shape.start = f.nm ∧
        t.shape.end = l.nm ∧ t.shape.interval = s.shape.interval) := by
  have hf := dropTake_eq_filter s.samples shape.start shape.end hs
  unfold VSPD.trim
  simp only [flt_lt, flt_le]
  rw [hf]
  constructor
  · intro h
    have : s.samples.filter (fun p => decide (shape.start ≤ p.nm ∧ p.nm ≤ shape.end)) = [] := by
      rw [List.filter_eq_nil_iff]
      intro p hp
      simpa using h p hp
    rw [this]; rfl
  · rintro ⟨p, hp, hin⟩
    have hne : s.samples.filter (fun p => decide (shape.start ≤ p.nm ∧ p.nm ≤ shape.end)) ≠ [] := by
      intro h
      rw [List.filter_eq_nil_iff] at h
      exact h p hp (by simpa using hin)
    set L := s.samples.filter (fun p => decide (shape.start ≤ p.nm ∧ p.nm ≤ shape.end))
    rw [List.head?_eq_some_head hne, List.getLast?_eq_some_getLast hne]
    exact ⟨_, _, _, rfl, rfl, List.head?_eq_some_head hne, List.getLast?_eq_some_getLast hne, rfl,
      rfl, rfl⟩

/-- C47 [R]: trimming twice is trimming once. -/
theorem C47_idempotent (s t : VSPD ℝ) (shape : SpdShape ℝ) (hs : s.wavelengths.Pairwise (· ≤ ·))
    (h : s.trim shape = .ok t) : t.trim shape = .ok t := by
  obtain ⟨h1, h2⟩ := C47_trim s shape hs
  have hex : ∃ p ∈ s.samples, shape.start ≤ p.nm ∧ p.nm ≤ shape.end := by
    by_contra hc
    push Not at hc
    rw [h1 (fun p hp ⟨ha, hb⟩ => by linarith [hc p hp ha])] at h
    cases h
  obtain ⟨t', f, l, e, hsamp, hf, hl, a1, a2, a3⟩ := h2 hex
  rw [e] at h; cases h
  have hpw : t.wavelengths.Pairwise (· ≤ ·) := by
    unfold VSPD.wavelengths
    rw [hsamp]
    exact hs.sublist (List.Sublist.map _ List.filter_sublist)
  obtain ⟨-, h4⟩ := C47_trim t shape hpw
  have hfm : f ∈ t.samples := List.mem_of_mem_head? hf
  have hfin : shape.start ≤ f.nm ∧ f.nm ≤ shape.end := by
    rw [hsamp, List.mem_filter] at hfm
    simpa using hfm.2
  obtain ⟨t2, f2, l2, e2, hsamp2, hf2, hl2, b1, b2, b3⟩ := h4 ⟨f, hfm, hfin⟩
  have hss : t2.samples = t.samples := by
    rw [hsamp2, hsamp, List.filter_filter]; simp
  rw [e2]
  rw [hss, hf] at hf2
  rw [hss, hl] at hl2
  cases hf2; cases hl2
  obtain ⟨ts, tst, ten, tin⟩ := t
  obtain ⟨t2s, t2st, t2en, t2in⟩ := t2
  simp_all

/-- Not vacuous: trimming 400,410,420,430 to 405..425. -/
example : (⟨[⟨400, 1⟩, ⟨410, 2⟩, ⟨420, 3⟩, ⟨430, 4⟩], SpdShape.new 400 430 10⟩ : VSPD ℝ).trim
    (SpdShape.new 405 425 10) = .ok ⟨[⟨410, 2⟩, ⟨420, 3⟩], ⟨410, 420, .uniform 10⟩⟩ := by
  simp [VSPD.trim, SpdShape.new, List.dropWhile, unwrap]
  norm_num
  rfl

/-! ## C48: linear interpolation -/

theorem linearEval_left (s : VSPD ℝ) (x : ℝ) (f : Sample ℝ) (hf : s.samples.head? = some f)
    (hx : x ≤ f.nm) : linearEval s x = .ok f.v := by
  unfold linearEval VSPD.first unwrap
  rw [hf]
  show (if Flt.le x f.nm = true then _ else _) = _
  rw [if_pos (by simpa using hx)]

theorem linearEval_right (s : VSPD ℝ) (x : ℝ) (f z : Sample ℝ) (hf : s.samples.head? = some f)
    (hz : s.samples.getLast? = some z) (hx : f.nm < x) (hx' : z.nm ≤ x) :
    linearEval s x = .ok z.v := by
  unfold linearEval VSPD.first VSPD.last unwrap
  rw [hf, hz]
  show (if Flt.le x f.nm = true then _ else if Flt.ge x z.nm = true then _ else _) = _
  rw [if_neg (by simpa using hx), if_pos (by simpa [Flt.ge] using hx')]

theorem linearEval_mid (s : VSPD ℝ) (x : ℝ) (f z : Sample ℝ)
    (hs : s.wavelengths.Pairwise (· ≤ ·)) (hf : s.samples.head? = some f)
    (hz : s.samples.getLast? = some z) (hx : f.nm < x) (hx' : x < z.nm)
    (i : ℕ) (hi : i + 1 < s.samples.length) (h1 : s.samples[i].nm ≤ x)
    (h2 : x < s.samples[i + 1].nm) :
    linearEval s x = .ok ((1 - (x - s.samples[i].nm) / (s.samples[i + 1].nm - s.samples[i].nm))
      * s.samples[i].v + (x - s.samples[i].nm) / (s.samples[i + 1].nm - s.samples[i].nm)
      * s.samples[i + 1].v) := by
  have hfi := findIdx?_sorted Sample.nm s.samples hs x i hi h1 h2
  unfold linearEval VSPD.first VSPD.last unwrap
  rw [hf, hz]
  show (if Flt.le x f.nm = true then _ else if Flt.ge x z.nm = true then _ else _) = _
  rw [if_neg (by simpa using hx), if_neg (by simpa [Flt.ge] using hx')]
  simp only [flt_lt]
  rw [hfi]
  unfold usub idx
  simp only [List.getElem?_eq_getElem hi, List.getElem?_eq_getElem (by omega : i < s.samples.length),
    Nat.add_sub_cancel, pure_bind, if_pos (show 1 ≤ i + 1 by omega), Except.bind, bind]
  simp [Flt.one]

/-- C48 [R]: for strictly increasing wavelengths and at least one sample, evaluation never panics;
it gives the first value at and below the first wavelength, the last value at and above the last,
and between neighbours (inclusive) the point on the straight line joining them, which lies between
the two values; in particular every sample is reproduced. -/
theorem C48_linear (s : VSPD ℝ) (hne : s.samples ≠ []) (hs : s.wavelengths.Pairwise (· < ·)) :
    (∀ x, ∃ v, linearEval s x = .ok v) ∧
    (∀ f x, s.samples.head? = some f → x ≤ f.nm → linearEval s x = .ok f.v) ∧
    (∀ z x, s.samples.getLast? = some z → z.nm ≤ x → linearEval s x = .ok z.v) ∧
    (∀ (i : ℕ) (p q : Sample ℝ) (x : ℝ), s.samples[i]? = some p → s.samples[i + 1]? = some q →
      p.nm ≤ x → x ≤ q.nm →
      ∃ v, linearEval s x = .ok v ∧ (v - p.v) * (q.nm - p.nm) = (x - p.nm) * (q.v - p.v) ∧
        min p.v q.v ≤ v ∧ v ≤ max p.v q.v) ∧
    (∀ p ∈ s.samples, linearEval s p.nm = .ok p.v) := by
  have hs' : s.wavelengths.Pairwise (· ≤ ·) := hs.imp le_of_lt
  obtain ⟨f, hf⟩ : ∃ f, s.samples.head? = some f := ⟨_, List.head?_eq_some_head hne⟩
  obtain ⟨z, hz⟩ : ∃ z, s.samples.getLast? = some z := ⟨_, List.getLast?_eq_some_getLast hne⟩
  have hlen : 0 < s.samples.length := List.length_pos_iff.2 hne
  have hlt : ∀ (j k : ℕ) (hj : j < s.samples.length) (hk : k < s.samples.length), j < k →
      s.samples[j].nm < s.samples[k].nm := by
    intro j k hj hk hjk
    have := List.pairwise_iff_getElem.1 hs j k (by simpa [VSPD.wavelengths] using hj)
      (by simpa [VSPD.wavelengths] using hk) hjk
    simpa [VSPD.wavelengths] using this
  have hf0 : s.samples[0] = f := by
    rw [List.head?_eq_getElem?, List.getElem?_eq_getElem hlen] at hf
    exact Option.some.inj hf
  have hzl : s.samples[s.samples.length - 1]'(by omega) = z := by
    rw [List.getLast?_eq_getElem?, List.getElem?_eq_getElem (by omega)] at hz
    exact Option.some.inj hz
  have hR : ∀ x, z.nm ≤ x → linearEval s x = .ok z.v := by
    intro x hx
    by_cases hfx : f.nm < x
    · exact linearEval_right s x f z hf hz hfx hx
    · have hfz : f.nm ≤ z.nm := by
        rcases Nat.eq_or_lt_of_le hlen with h1 | h1
        · have : f = z := by rw [← hf0, ← hzl]; congr 1; omega
          rw [this]
        · rw [← hf0, ← hzl]; exact (hlt _ _ _ _ (by omega)).le
      have he : f = z := by
        rcases Nat.eq_or_lt_of_le hlen with h1 | h1
        · rw [← hf0, ← hzl]; congr 1; omega
        · have : f.nm < z.nm := by rw [← hf0, ← hzl]; exact hlt _ _ _ _ (by omega)
          linarith [not_lt.1 hfx]
      rw [linearEval_left s x f hf (not_lt.1 hfx), he]
  have hsamp : ∀ p ∈ s.samples, linearEval s p.nm = .ok p.v := by
    intro p hp
    obtain ⟨k, hk, rfl⟩ := List.mem_iff_getElem.1 hp
    rcases Nat.eq_zero_or_pos k with rfl | hk0
    · rw [hf0]; exact linearEval_left s _ f hf le_rfl
    · rcases Nat.lt_or_ge (k + 1) s.samples.length with h | h
      · have h0 : f.nm < s.samples[k].nm := by rw [← hf0]; exact hlt _ _ _ _ hk0
        have h1 : s.samples[k].nm < z.nm := by rw [← hzl]; exact hlt _ _ _ _ (by omega)
        rw [linearEval_mid s _ f z hs' hf hz h0 h1 k h le_rfl (hlt _ _ _ _ (by omega))]
        simp
      · have e : s.samples[k] = z := by rw [← hzl]; congr 1; omega
        rw [e]; exact hR _ le_rfl
  have hmid : ∀ (i : ℕ) (p q : Sample ℝ) (x : ℝ), s.samples[i]? = some p →
      s.samples[i + 1]? = some q → p.nm ≤ x → x ≤ q.nm →
      ∃ v, linearEval s x = .ok v ∧ (v - p.v) * (q.nm - p.nm) = (x - p.nm) * (q.v - p.v) ∧
        min p.v q.v ≤ v ∧ v ≤ max p.v q.v := by
    intro i p q x hp hq hpx hxq
    obtain ⟨hi, rfl⟩ := List.getElem?_eq_some_iff.1 hp
    obtain ⟨hi1, rfl⟩ := List.getElem?_eq_some_iff.1 hq
    have hpq := hlt i (i + 1) hi hi1 (by omega)
    rcases eq_or_lt_of_le hpx with rfl | hpx
    · exact ⟨_, hsamp _ (List.getElem_mem hi), by ring, min_le_left _ _, le_max_left _ _⟩
    rcases eq_or_lt_of_le hxq with rfl | hxq
    · exact ⟨_, hsamp _ (List.getElem_mem hi1), by ring, min_le_right _ _, le_max_right _ _⟩
    have h0 : f.nm < x := by
      rcases Nat.eq_zero_or_pos i with rfl | h
      · rw [← hf0]; exact hpx
      · rw [← hf0]; exact (hlt 0 i _ _ h).trans hpx
    have h1 : x < z.nm := by
      rcases Nat.lt_or_ge (i + 2) s.samples.length with h | h
      · rw [← hzl]; exact hxq.trans (hlt _ _ _ _ (by omega))
      · have e : s.samples[i + 1] = z := by rw [← hzl]; congr 1; omega
        rw [← e]; exact hxq
    refine ⟨_, linearEval_mid s x f z hs' hf hz h0 h1 i hi1 hpx.le hxq, ?_⟩
    have hd : 0 < s.samples[i + 1].nm - s.samples[i].nm := by linarith
    set d := (x - s.samples[i].nm) / (s.samples[i + 1].nm - s.samples[i].nm) with hdd
    have d0 : 0 ≤ d := div_nonneg (by linarith) hd.le
    have d1 : d ≤ 1 := by rw [hdd, div_le_one hd]; linarith
    have hdx : x - s.samples[i].nm = d * (s.samples[i + 1].nm - s.samples[i].nm) := by
      rw [hdd, div_mul_cancel₀ _ hd.ne']
    refine ⟨by rw [hdx]; ring, ?_, ?_⟩
    · have a1 := min_le_left s.samples[i].v s.samples[i + 1].v
      have a2 := min_le_right s.samples[i].v s.samples[i + 1].v
      nlinarith
    · have a1 := le_max_left s.samples[i].v s.samples[i + 1].v
      have a2 := le_max_right s.samples[i].v s.samples[i + 1].v
      nlinarith
  refine ⟨fun x => ?_, fun g x hg hx => ?_, fun g x hg hx => ?_, hmid, hsamp⟩
  · by_cases h0 : x ≤ f.nm
    · exact ⟨_, linearEval_left s x f hf h0⟩
    · by_cases h1 : z.nm ≤ x
      · exact ⟨_, hR x h1⟩
      · obtain ⟨i, hi, ha, hb⟩ := exists_bracket Sample.nm s.samples x f z hf hz
          (not_le.1 h0).le (not_le.1 h1)
        obtain ⟨v, hv, -⟩ := hmid i _ _ x (List.getElem?_eq_getElem (by omega))
          (List.getElem?_eq_getElem hi) ha hb.le
        exact ⟨v, hv⟩
  · exact linearEval_left s x g hg hx
  · rw [hz] at hg; cases hg; exact hR x hx

/-- Not vacuous: half-way between 400 and 410 of a three-sample spectrum. -/
example : linearEval (⟨[⟨400, 1⟩, ⟨410, 3⟩, ⟨420, 2⟩], SpdShape.new 400 420 10⟩ : VSPD ℝ) 405
    = .ok 2 := by
  have h := (C48_linear (⟨[⟨400, 1⟩, ⟨410, 3⟩, ⟨420, 2⟩], SpdShape.new 400 420 10⟩ : VSPD ℝ)
    (by simp) (by norm_num [VSPD.wavelengths])).2.2.2.1 0 _ _ 405 rfl rfl (by norm_num) (by norm_num)
  obtain ⟨v, hv, he, -⟩ := h
  rw [hv]
  congr 1
  simp only at he
  linarith

/-! ## C50: linspace -/

/-- the answer of the `(k+1)`-th call to `next` -/
def FloatRange.nth {T : Type} [Add T] [Mul T] [Flt T] : ℕ → FloatRange T → Option T
  | 0, r => r.next.2
  | k + 1, r => FloatRange.nth k r.next.1

/-- C50 [G]: `linspace(a, b, n)` panics for `n = 0`, otherwise the calls to `next` answer
`k * ((b-a)/(n-1)) + a` for `k < n` and `None` forever after. -/
theorem C50_enumerates {T : Type} [Add T] [Sub T] [Mul T] [Div T] [Neg T] [Flt T] (a b : T) :
    linspace a b 0 = .error .overflow ∧
    ∀ n, 0 < n → ∃ r, linspace a b n = .ok r ∧ ∀ k, r.nth k =
      if k < n then some (Flt.ofNat k * ((b - a) / Flt.ofNat (n - 1)) + a) else none := by
  refine ⟨rfl, fun n hn => ⟨⟨0, n, a, (b - a) / Flt.ofNat (n - 1)⟩, ?_, fun k => ?_⟩⟩
  · unfold linspace usub
    rw [if_pos (by omega)]; rfl
  · generalize (b - a) / Flt.ofNat (n - 1) = d
    have key : ∀ k c : ℕ, FloatRange.nth k (⟨c, n, a, d⟩ : FloatRange T) =
        if c + k < n then some (Flt.ofNat (c + k) * d + a) else none := by
      intro k
      induction k with
      | zero =>
        intro c
        unfold FloatRange.nth FloatRange.next
        by_cases h : c < n <;> simp [h]
      | succ k ih =>
        intro c
        unfold FloatRange.nth
        by_cases h : c < n
        · have e : (FloatRange.next (⟨c, n, a, d⟩ : FloatRange T)).1 = ⟨c + 1, n, a, d⟩ := by
            unfold FloatRange.next; simp [h]
          rw [e, ih (c + 1), show c + 1 + k = c + (k + 1) by omega]
        · have e : (FloatRange.next (⟨c, n, a, d⟩ : FloatRange T)).1 = ⟨c, n, a, d⟩ := by
            unfold FloatRange.next; simp [h]
          rw [e, ih c, if_neg (by omega), if_neg (by omega)]
    simpa using key k 0

/-- C50 [R]: for `n ≥ 2` it starts at `a`, ends at `b` and is equally spaced. -/
theorem C50_spans (a b : ℝ) (n : ℕ) (hn : 2 ≤ n) : ∃ r, linspace a b n = .ok r ∧
    r.nth 0 = some a ∧ r.nth (n - 1) = some b ∧ r.nth n = none ∧
    ∀ k, k < n → r.nth k = some (a + k * ((b - a) / (n - 1))) := by
  obtain ⟨r, e, h⟩ := (C50_enumerates a b).2 n (by omega)
  have hc : ((n - 1 : ℕ) : ℝ) = n - 1 := by rw [Nat.cast_sub (by omega)]; simp
  have h1 : (n:ℝ) - 1 ≠ 0 := by
    have : (2:ℝ) ≤ n := by exact_mod_cast hn
    linarith
  refine ⟨r, e, ?_, ?_, ?_, fun k hk => ?_⟩
  · rw [h, if_pos (by omega)]; simp
  · rw [h, if_pos (by omega)]; simp only [flt_ofNat, hc]; congr 1; field_simp; ring
  · rw [h, if_neg (by omega)]
  · rw [h, if_pos hk]; simp only [flt_ofNat, hc]; congr 1; ring

/-- C50 [F]: with a single step the only value is NaN, whatever the end points. -/
theorem C50_single_nan {f : Fmt} [Libm f] (a b : FP f) : ∃ r, linspace a b 1 = .ok r ∧
    r.nth 0 = some FP.nan := by
  obtain ⟨r, e, h⟩ := (C50_enumerates a b).2 1 (by omega)
  refine ⟨r, e, ?_⟩
  rw [h, if_pos (by omega)]
  have hz : (Flt.ofNat 0 : FP f) = FP.fin 0 (FP.isRep_zero f) := by
    show FP.ofQ f false ((0:ℕ):ℚ) = _
    rw [Nat.cast_zero, FP.ofQ_zero]; rfl
  simp only [Nat.sub_self, hz]
  generalize b - a = d
  have hnan : (FP.fin 0 (FP.isRep_zero f)) * (d / FP.fin 0 (FP.isRep_zero f)) = FP.nan := by
    show FP.mul _ (FP.div d _) = _
    have hi : ∀ s, FP.mul (FP.fin 0 (FP.isRep_zero f)) (FP.infOf s) = FP.nan := by
      intro s; cases s <;> simp [FP.infOf, FP.mul, FP.isFinite, FP.val]
    cases d with
    | nan => rfl
    | pinf => exact hi false
    | ninf => exact hi true
    | nzero => simp [FP.div, FP.isFinite, FP.val, FP.mul]
    | fin q hq =>
      by_cases h0 : q = 0
      · simp [FP.div, FP.isFinite, FP.val, h0, FP.mul]
      · simp only [FP.div, FP.isFinite, FP.val, h0, if_true, if_false]
        exact hi _
  rw [hnan]; rfl

/-- C50 [F]: consequently the ASTM E2022 Lagrange table for interval 2 has one row, and every entry
of that row is NaN, for two or more coefficients. (With one coefficient the row is the empty
product 1.) -/
theorem C50_e2022_two_nan {f : Fmt} [Libm f] (i : FP f) (n : ℕ) (hn : 2 ≤ n)
    (hi : FP.asUInt (2 ^ 64 - 1) i = 2) :
    lagrangeCoefficientsE2022 i n = .ok [List.replicate n FP.nan] := by
  have hr : ∃ r : FloatRange (FP f), linspace ((Flt.lit 1.0 : FP f) / i)
      ((Flt.lit 1.0 : FP f) - (Flt.lit 1.0 : FP f) / i) 1 = .ok r ∧ r.toList = [FP.nan] := by
    obtain ⟨r, e, h⟩ := C50_single_nan ((Flt.lit 1.0 : FP f) / i)
      ((Flt.lit 1.0 : FP f) - (Flt.lit 1.0 : FP f) / i)
    refine ⟨r, e, ?_⟩
    have er : r.current = 0 ∧ r.steps = 1 := by
      unfold linspace usub at e
      rw [if_pos (by omega)] at e
      cases e; exact ⟨rfl, rfl⟩
    unfold FloatRange.toList
    rw [FloatRange.drain_eq, er.1, er.2]
    have h0 : Flt.ofNat 0 * r.delta + r.start = FP.nan := by
      unfold FloatRange.nth FloatRange.next at h
      rw [if_pos (by omega)] at h
      simp only [er.1] at h
      exact Option.some.inj h
    simpa using h0
  obtain ⟨r, e, hl⟩ := hr
  have hu : usub (Flt.asUInt (2 ^ 64 - 1) i) 1 = .ok 1 := by
    have : Flt.asUInt (2 ^ 64 - 1) i = 2 := hi
    rw [this]; rfl
  have hgo : lagrangeCoefficientsE2022 i n = .ok (r.toList.map fun r =>
      lagrangeCoefficients (r + if n = 4 then Flt.lit 1.0 else Flt.lit 0.0) n) := by
    unfold lagrangeCoefficientsE2022
    rw [hu]
    simp only [bind, Except.bind]
    rw [e]
  rw [hgo, hl]
  simp only [List.map_cons, List.map_nil]
  have hadd : ∀ x : FP f, (FP.nan : FP f) + x = FP.nan := fun _ => rfl
  have hfac : ∀ x y z : FP f, x * (((FP.nan : FP f) - y) / z) = FP.nan := by
    intro x y z; cases x <;> rfl
  rw [hadd]
  unfold lagrangeCoefficients
  have hstay : ∀ (j : ℕ) (L : List ℕ), L.foldl (fun acc i => if i ≠ j then
      acc * (((FP.nan : FP f) - Flt.ofNat i) / (Flt.ofNat j - Flt.ofNat i)) else acc) FP.nan
        = FP.nan := by
    intro j L
    induction L with
    | nil => rfl
    | cons i L ih =>
      rw [List.foldl_cons]
      split
      · rw [hfac]; exact ih
      · exact ih
  have hhit : ∀ (j : ℕ) (L : List ℕ) (acc : FP f), (∃ i ∈ L, i ≠ j) →
      L.foldl (fun acc i => if i ≠ j then
        acc * (((FP.nan : FP f) - Flt.ofNat i) / (Flt.ofNat j - Flt.ofNat i)) else acc) acc
        = FP.nan := by
    intro j L
    induction L with
    | nil => rintro acc ⟨i, hi, -⟩; simp at hi
    | cons a L ih =>
      rintro acc ⟨i, hi, hij⟩
      rw [List.foldl_cons]
      by_cases ha : a ≠ j
      · rw [if_pos ha, hfac]; exact hstay j L
      · rw [if_neg ha]
        rcases List.mem_cons.1 hi with rfl | hi
        · exact absurd hij ha
        · exact ih acc ⟨i, hi, hij⟩
  congr 2
  rw [List.eq_replicate_iff]
  refine ⟨by simp, fun b hb => ?_⟩
  obtain ⟨j, -, rfl⟩ := List.mem_map.1 hb
  refine hhit j _ _ ?_
  by_cases hj : j = 0
  · exact ⟨1, List.mem_range.2 (by omega), by omega⟩
  · exact ⟨0, List.mem_range.2 (by omega), fun h => hj h.symm⟩

/-- Not vacuous: 2.0 as binary64. -/
example [Libm Fmt.b64] : lagrangeCoefficientsE2022 (Flt.lit 2.0 : FP Fmt.b64) 3
    = .ok [[FP.nan, FP.nan, FP.nan]] :=
  C50_e2022_two_nan _ 3 (by omega)
    (of_decide_eq_true (p := FP.asUInt (2 ^ 64 - 1) (Flt.lit 2.0 : FP Fmt.b64) = 2) (by krefl))

/-! ## C62: scaling -/

/-- C62 [G]: multiplying by a scalar keeps the wavelengths and multiplies the values; dividing
likewise. It panics exactly for fewer than two samples. -/
theorem C62_scaling {T : Type} [Add T] [Sub T] [Mul T] [Div T] [Neg T] [Flt T] (s : VSPD T) (k : T) :
    (s.samples.length < 2 → s.smul k = .error .assert ∧ s.sdiv k = .error .assert) ∧
    (2 ≤ s.samples.length →
      (∃ t, s.smul k = .ok t ∧ t.wavelengths = s.wavelengths ∧ t.values = s.values.map (· * k)) ∧
      (∃ t, s.sdiv k = .ok t ∧ t.wavelengths = s.wavelengths ∧ t.values = s.values.map (· / k))) := by
  have hnew : ∀ l : List (Sample T), 2 ≤ l.length → ∃ sh, VSPD.new l = .ok ⟨l, sh⟩ := by
    intro l hl
    obtain ⟨-, h⟩ := C38_exact l
    match l, hl, h with
    | a :: b :: rest, _, h =>
      obtain ⟨iv, e, -⟩ := h a b rest _ rfl (List.getLast?_eq_some_getLast (by simp))
      exact ⟨_, e⟩
  refine ⟨fun h => ?_, fun h => ⟨?_, ?_⟩⟩
  · exact ⟨(C38_exact _).1 (by simpa using h), (C38_exact _).1 (by simpa using h)⟩
  · obtain ⟨sh, e⟩ := hnew (s.samples.map fun p => ⟨p.nm, p.v * k⟩) (by simpa using h)
    exact ⟨_, e, by simp [VSPD.wavelengths, Function.comp_def],
      by simp [VSPD.values, Function.comp_def]⟩
  · obtain ⟨sh, e⟩ := hnew (s.samples.map fun p => ⟨p.nm, p.v / k⟩) (by simpa using h)
    exact ⟨_, e, by simp [VSPD.wavelengths, Function.comp_def],
      by simp [VSPD.values, Function.comp_def]⟩

/-- `VSPD::new` computes the shape from the wavelengths only -/
theorem calculateShape_congr {T : Type} [Add T] [Sub T] [Mul T] [Div T] [Neg T] [Flt T]
    (l l' : List (Sample T)) (h : l.map Sample.nm = l'.map Sample.nm) :
    calculateShape l = calculateShape l' := by
  have hlen : l.length = l'.length := by simpa using congrArg List.length h
  have hidx : ∀ i, (idx l i).map Sample.nm = (idx l' i).map Sample.nm := by
    intro i
    have : (l[i]?).map Sample.nm = (l'[i]?).map Sample.nm := by
      rw [← List.getElem?_map, ← List.getElem?_map, h]
    unfold idx
    cases h1 : l[i]? <;> cases h2 : l'[i]? <;> rw [h1, h2] at this <;> simp at this
    · exact congrArg Except.ok this
  have hloop : ∀ (a : T) (L : List ℕ), intervalLoop a l L = intervalLoop a l' L := by
    intro a L
    induction L with
    | nil => rfl
    | cons i L ih =>
      unfold intervalLoop
      have h1 := hidx i
      have h2 := hidx (i - 1)
      rw [ih]
      cases e1 : idx l i <;> cases e2 : idx l' i <;> rw [e1, e2] at h1 <;>
        simp [Except.map] at h1
      · subst h1; rfl
      · cases e3 : idx l (i - 1) <;> cases e4 : idx l' (i - 1) <;> rw [e3, e4] at h2 <;>
          simp [Except.map] at h2
        · subst h2; rfl
        · show (if _ then _ else _) = (if _ then _ else _)
          rw [h1, h2]
  have hint : calculateInterval l = calculateInterval l' := by
    unfold calculateInterval
    rw [hlen]
    split
    · rfl
    · have h1 := hidx 1
      have h2 := hidx 0
      cases e1 : idx l 1 <;> cases e2 : idx l' 1 <;> rw [e1, e2] at h1 <;>
        simp [Except.map] at h1
      · subst h1; rfl
      · cases e3 : idx l 0 <;> cases e4 : idx l' 0 <;> rw [e3, e4] at h2 <;>
          simp [Except.map] at h2
        · subst h2; rfl
        · show intervalLoop _ _ _ = intervalLoop _ _ _
          rw [h1, h2, hloop]
  unfold calculateShape
  rw [hlen, hint]
  split
  · rfl
  · have h1 : (l.head?).map Sample.nm = (l'.head?).map Sample.nm := by
      rw [← List.head?_map, ← List.head?_map, h]
    have h2 : (l.getLast?).map Sample.nm = (l'.getLast?).map Sample.nm := by
      rw [← List.getLast?_map, ← List.getLast?_map, h]
    cases e1 : l.head? <;> cases e2 : l'.head? <;> rw [e1, e2] at h1 <;> simp at h1
    · rfl
    · cases e3 : l.getLast? <;> cases e4 : l'.getLast? <;> rw [e3, e4] at h2 <;> simp at h2
      · rfl
      · show (do let i ← calculateInterval l'; _) = (do let i ← calculateInterval l'; _)
        rw [h1, h2]

/-- C62 [G]: a spectrum made by `VSPD::new` keeps its shape when scaled. -/
theorem C62_shape_kept {T : Type} [Add T] [Sub T] [Mul T] [Div T] [Neg T] [Flt T]
    (l : List (Sample T)) (s t : VSPD T) (k : T) (hs : VSPD.new l = .ok s)
    (ht : s.smul k = .ok t ∨ s.sdiv k = .ok t) : t.shape = s.shape := by
  unfold VSPD.new at hs
  cases hc : calculateShape l with
  | error e => rw [hc] at hs; cases hs
  | ok sh =>
    rw [hc] at hs
    cases hs
    rcases ht with ht | ht
    · unfold VSPD.smul VSPD.new at ht
      rw [calculateShape_congr _ l (by simp [Function.comp_def]), hc] at ht
      cases ht; rfl
    · unfold VSPD.sdiv VSPD.new at ht
      rw [calculateShape_congr _ l (by simp [Function.comp_def]), hc] at ht
      cases ht; rfl

/-- C62 [R]: scaling and unscaling gives back the samples. -/
theorem C62_roundtrip (s t u : VSPD ℝ) (k : ℝ) (hk : k ≠ 0) (ht : s.smul k = .ok t)
    (hu : t.sdiv k = .ok u) : u.samples = s.samples := by
  have hnew : ∀ (l : List (Sample ℝ)) v, VSPD.new l = .ok v → v.samples = l := by
    intro l v h
    unfold VSPD.new at h
    cases hc : calculateShape l with
    | error e => rw [hc] at h; cases h
    | ok sh => rw [hc] at h; cases h; rfl
  rw [hnew _ _ hu, hnew _ _ ht, List.map_map]
  conv_rhs => rw [← List.map_id s.samples]
  apply List.map_congr_left
  intro p _
  simp [mul_div_cancel_right₀ _ hk]

/-- C62 [R], counterexample to keeping the shape in general: 0..2.5 step 1 ends at 2.5, its double
ends at 2. -/
theorem C62_shape_counterexample : ∃ s t : VSPD ℝ,
    VSPD.constant (SpdShape.new 0 2.5 1) 1 = .ok s ∧ s.smul 2 = .ok t ∧
    s.shape.end = 2.5 ∧ t.shape.end = 2 := by
  have hw : (SpdShape.new (0:ℝ) 2.5 1).wavelengths = .ok [0, 1, 2] := by
    have hf : ⌊((2.5:ℝ) - 0) / 1⌋₊ = 2 := by
      rw [Nat.floor_eq_iff (by norm_num)]; norm_num
    have hu : Flt.toUsize (((SpdShape.new (0:ℝ) 2.5 1).end - (SpdShape.new (0:ℝ) 2.5 1).start) / 1)
        = some 2 := by
      rw [flt_toUsize, if_pos (by norm_num [SpdShape.new])]
      exact congrArg some hf
    rw [wavelengths_eq rfl hu]
    simp [SpdShape.new, List.range_succ]
  have hs : VSPD.constant (SpdShape.new (0:ℝ) 2.5 1) 1
      = .ok ⟨[⟨0, 1⟩, ⟨1, 1⟩, ⟨2, 1⟩], SpdShape.new 0 2.5 1⟩ := by
    unfold VSPD.constant
    rw [hw]
    rfl
  obtain ⟨-, hl⟩ := C38_exact ([⟨0, 1 * 2⟩, ⟨1, 1 * 2⟩, ⟨2, 1 * 2⟩] : List (Sample ℝ))
  obtain ⟨iv, e, -⟩ := hl _ _ _ _ rfl rfl
  exact ⟨_, _, hs, e, rfl, rfl⟩

/-! ## C67: equality -/

/-- the intervals of two shapes are equal: both vary, or both are uniform with equal steps -/
def Spec.EqualIntervals {T : Type} [Flt T] (a b : Interval T) : Prop :=
  (a = .varying ∧ b = .varying) ∨ ∃ i j, a = .uniform i ∧ b = .uniform j ∧ Flt.eqb i j = true

theorem interval_eqb_iff {T : Type} [Flt T] (a b : Interval T) : a.eqb b = true ↔ Spec.EqualIntervals a b := by
  unfold Spec.EqualIntervals
  cases a <;> cases b <;> simp [Interval.eqb]

/-- C67 [G]: equal means same length, equal shapes, pairwise equal samples. -/
theorem C67_eq_iff {T : Type} [Flt T] (a b : VSPD T) :
    a.eqb b = true ↔ a.samples.length = b.samples.length ∧
      (Flt.eqb a.shape.start b.shape.start = true ∧ Flt.eqb a.shape.end b.shape.end = true ∧
        Spec.EqualIntervals a.shape.interval b.shape.interval) ∧
      ∀ (i : ℕ) (p q : Sample T), a.samples[i]? = some p → b.samples[i]? = some q →
        Flt.eqb p.nm q.nm = true ∧ Flt.eqb p.v q.v = true := by
  unfold VSPD.eqb SpdShape.eqb
  simp only [Bool.and_eq_true, beq_iff_eq, List.all_eq_true, interval_eqb_iff]
  constructor
  · rintro ⟨⟨h1, h2⟩, h3⟩
    refine ⟨h1, by tauto, fun i p q hp hq => ?_⟩
    have hm : (p, q) ∈ a.samples.zip b.samples := by
      apply List.mem_of_getElem? (i := i)
      rw [List.getElem?_zip_eq_some]
      exact ⟨hp, hq⟩
    have := h3 _ hm
    unfold Sample.eqb at this
    simpa using this
  · rintro ⟨h1, h2, h3⟩
    refine ⟨⟨h1, by tauto⟩, fun pq hm => ?_⟩
    obtain ⟨i, hi⟩ := List.mem_iff_getElem?.1 hm
    rw [List.getElem?_zip_eq_some] at hi
    unfold Sample.eqb
    simpa using h3 i _ _ hi.1 hi.2

/-- C67 [F]: equality is symmetric, for any contents. -/
theorem C67_symmetric {f : Fmt} [Libm f] (a b : VSPD (FP f)) (h : a.eqb b = true) :
    b.eqb a = true := by
  have sym : ∀ x y : FP f, Flt.eqb x y = true → Flt.eqb y x = true := by
    intro x y h
    have h : FP.eqb x y = true := h
    show FP.eqb y x = true
    rw [FP.eqb_iff] at h ⊢
    obtain ⟨e, h1, h2⟩ := h
    exact ⟨e, h2, h1⟩
  rw [C67_eq_iff, ← interval_eqb_iff] at h ⊢
  obtain ⟨h1, ⟨h2, h3, h4⟩, h5⟩ := h
  refine ⟨h1.symm, ⟨sym _ _ h2, sym _ _ h3, ?_⟩, fun i p q hp hq => ?_⟩
  · cases ha : a.shape.interval <;> cases hb : b.shape.interval <;> rw [ha, hb] at h4 <;>
      simp [Interval.eqb] at h4 ⊢
    exact sym _ _ h4
  · have := h5 i q p hq hp
    exact ⟨sym _ _ this.1, sym _ _ this.2⟩

/-- C67 [F]: a spectrum equals itself exactly when neither its shape nor any sample holds a NaN. -/
theorem C67_reflexive {f : Fmt} [Libm f] (a : VSPD (FP f)) :
    a.eqb a = true ↔ a.shape.start.isNaN = false ∧ a.shape.end.isNaN = false ∧
      (∀ i, a.shape.interval = .uniform i → i.isNaN = false) ∧
      ∀ p ∈ a.samples, p.nm.isNaN = false ∧ p.v.isNaN = false := by
  have self : ∀ x : FP f, Flt.eqb x x = true ↔ x.isNaN = false := by
    intro x
    show FP.eqb x x = true ↔ _
    rw [FP.eqb_iff]
    constructor
    · rintro ⟨e, h, -⟩
      cases hn : x.isNaN with
      | false => rfl
      | true => rw [FP.isNaN_iff] at hn; rw [hn] at h; cases h
    · intro h
      obtain ⟨e, he⟩ := FP.ext_of_not_nan h
      exact ⟨e, he, he⟩
  rw [C67_eq_iff, ← interval_eqb_iff]
  simp only [self, true_and]
  have hint : a.shape.interval.eqb a.shape.interval = true ↔
      ∀ i, a.shape.interval = .uniform i → i.isNaN = false := by
    cases a.shape.interval with
    | uniform i => simp [Interval.eqb, self]
    | varying => simp [Interval.eqb]
  rw [hint, and_assoc, and_assoc]
  refine and_congr_right fun _ => and_congr_right fun _ => and_congr_right fun _ => ?_
  constructor
  · intro h p hp
    obtain ⟨i, hi⟩ := List.mem_iff_getElem?.1 hp
    have := h i p p hi hi
    rwa [self, self] at this
  · intro h i p q hp hq
    rw [hp] at hq; cases hq
    rw [self, self]
    exact h p (List.mem_of_getElem? hp)

end CS
