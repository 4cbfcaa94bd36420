import Verif.Props.GridF
import Verif.Props.SpragueShipped

/-!
# The shipped spectra on whole-nanometre grids (C90)
-/

namespace CS

/-- a small whole literal in f64 -/
theorem lit64_whole [Libm Fmt.b64] (n : ℕ) (hn : n ≤ 2 ^ 20) : Whole (Flt.lit (n : ℚ) : FP Fmt.b64) n := by
  have hb : n ≤ 2 ^ 53 := hn.trans (by norm_num)
  have e1 : (Flt.lit (n : ℚ) : FP Fmt.b64) = FP.fin (n : ℚ) (FP.isRep_nat n (by simpa [Fmt.b64] using hb)) :=
    FP.lit_nat n (by simpa [Fmt.b64] using hb) hb
  rw [e1]; exact ⟨rfl, rfl⟩

/-- C90 [F]: every shipped spectrum, loaded in f64, has exactly the listed wavelengths and the exact shape,
and values within `V / 2^52` of the listed ones, `V` being a bound for them. Its wavelengths are whole, at
least six, increasing, and start and end where its shape says. -/
theorem C90_shipped [Libm Fmt.b64] (e : Spec.Listing) (he : e ∈ Spec.shipped)
    (s : VSPD (FP Fmt.b64)) (hs : Spectra.vspd e.table = .ok s)
    (S : VSPD ℝ) (hS : Spectra.vspd e.table = .ok S)
    (V : ℚ) (hV : 1 / 2 ^ 20 ≤ V) (hV' : V ≤ 2 ^ 20) (hv : ∀ p ∈ e.table, |p.2| ≤ V) :
    Spec.Tracks (V / 2 ^ 52) s S ∧ Spec.WholeGrid S := by
  obtain ⟨g, hlen, hi, hstop, hsz⟩ := vspd_shipped e he
  rw [C70_loads_ieee (by simp [Fmt.b64]) e he] at hs
  rw [C70_loads_real e he] at hS
  cases hs
  cases hS
  have hu : Fmt.b64.u = 1 / 2 ^ 53 := u_b64
  have heta : Fmt.b64.eta ≤ Fmt.b64.u / 2 ^ 124 := wide_b64.heta
  have hfst : ∀ k (hk : k < e.table.length), (e.table[k]).1 = ((e.start + k * e.interval : ℕ) : ℚ) := by
    intro k hk
    have h3 : (e.table.map Prod.fst)[k]? = ((List.range e.table.length).map fun k : ℕ =>
        (e.start : ℚ) + k * e.interval)[k]? := by
      rw [show e.table.map Prod.fst = _ from g]
    rw [List.getElem?_map, List.getElem?_eq_getElem hk, List.getElem?_map,
      List.getElem?_range hk] at h3
    have h4 : (e.table[k]).1 = (e.start : ℚ) + k * e.interval := by simpa using h3
    rw [h4]; push_cast; rfl
  have hle : ∀ k, k < e.table.length → e.start + k * e.interval ≤ 2 ^ 10 := fun k hk =>
    le_trans (Nat.add_le_add_left (Nat.mul_le_mul_right _ hk.le) _) hsz
  have l0 : 0 < e.table.length := by omega
  have lz : e.table.length - 1 < e.table.length := by omega
  have hint : e.interval ≤ 2 ^ 10 := by
    have := hle 1 (by omega); omega
  refine ⟨⟨?_, ?_, ?_, ?_⟩, ?_⟩
  · show List.Forall₂ _ (e.table.map _) (e.table.map _)
    rw [List.forall₂_map_left_iff, List.forall₂_map_right_iff, List.forall₂_same]
    intro p hp
    obtain ⟨k, hk, rfl⟩ := List.mem_iff_getElem.1 hp
    have w := lit64_whole (e.start + k * e.interval) ((hle k hk).trans (by norm_num))
    rw [← hfst k hk] at w
    have hb := hv _ hp
    obtain ⟨a, b⟩ := lit64_err (q := (e.table[k]).2) (hb.trans hV')
    have hq : |(FP.lit (e.table[k]).2 : FP Fmt.b64).val - (e.table[k]).2| ≤ V / 2 ^ 52 := by
      refine le_trans b ?_
      rw [hu] at heta ⊢
      generalize Fmt.b64.eta = et at *
      norm_num at heta hV ⊢
      linarith
    refine ⟨w.fin, ?_, a, ?_⟩
    · rw [w.real]
      rw [flt_lit, hfst k hk, Rat.cast_natCast]
    · rw [flt_lit]
      show |((FP.lit (e.table[k]).2 : FP Fmt.b64).val : ℝ) - ((e.table[k]).2 : ℝ)| ≤ _
      qcast hq
  · exact (lit64_whole e.start (by have := hle 0 l0; omega)).sameNum
  · refine (lit64_whole e.stop ?_).sameNum
    have := hle _ lz
    omega
  · exact (lit64_whole e.interval (hint.trans (by norm_num))).sameNum
  · have hrow : ∀ k (hk : k < e.table.length), (Spec.rows e.table : List (Sample ℝ))[k]? =
        some ⟨((e.start + k * e.interval : ℕ) : ℝ), ((e.table[k]).2 : ℝ)⟩ := by
      intro k hk
      simp only [Spec.rows, List.getElem?_map, List.getElem?_eq_getElem hk, Option.map_some, flt_lit, hfst k hk,
        Rat.cast_natCast]
    have hrl : (Spec.rows e.table : List (Sample ℝ)).length = e.table.length := by simp [Spec.rows]
    refine ⟨by rw [hrl]; exact hlen, ?_, ?_, ?_, ?_⟩
    · intro p hp
      obtain ⟨k, hk⟩ := List.mem_iff_getElem?.1 hp
      have hk' : k < e.table.length := by
        have := (List.getElem?_eq_some_iff.1 hk).1
        rw [hrl] at this; exact this
      rw [hrow k hk'] at hk
      cases hk
      exact ⟨_, (hle k hk').trans (by norm_num), rfl⟩
    · rw [List.pairwise_iff_getElem]
      intro i j hi' hj' hij
      have hi2 : i < e.table.length := by simpa [VSPD.wavelengths, Spec.rows] using hi'
      have hj2 : j < e.table.length := by simpa [VSPD.wavelengths, Spec.rows] using hj'
      simp only [VSPD.wavelengths, Spec.rows, List.getElem_map, flt_lit]
      rw [hfst i hi2, hfst j hj2]
      have : i * e.interval < j * e.interval := Nat.mul_lt_mul_of_pos_right hij hi
      exact_mod_cast (by omega : e.start + i * e.interval < e.start + j * e.interval)
    · rw [List.head?_eq_getElem?]
      have := hrow 0 l0
      dsimp only at this ⊢
      rw [this]
      simp [SpdShape.new]
    · rw [List.getLast?_eq_getElem?]
      have := hrow _ lz
      dsimp only at this ⊢
      rw [hrl, this]
      simp [SpdShape.new, hstop]

/-- Not vacuous: aligning D65 to 360, 361, ..., 780 nm in f64, with values up to 120, terminates with exact
wavelengths and values within `1e-9` of the exact ones. -/
example : letI := idealLibm Fmt.b64
    ∃ (s : VSPD (FP Fmt.b64)) (S : VSPD ℝ) (N : ℕ) (R : VSPD ℝ),
      Spectra.vspd Spectra.d65 = .ok s ∧ Spectra.vspd Spectra.d65 = .ok S ∧
      ∀ fuel, N ≤ fuel → S.align fuel (SpdShape.new (360 : ℕ) (780 : ℕ) (1 : ℕ)) = .ok R ∧
        ∃ r, s.align fuel (SpdShape.new (Flt.lit 360.0) (Flt.lit 780.0) (Flt.lit 1.0)) = .ok r ∧
          Spec.Tracks 1e-9 r R := by
  letI := idealLibm Fmt.b64
  have he : (⟨Spectra.d65, 300, 780, 5⟩ : Spec.Listing) ∈ Spec.shipped := by simp [Spec.shipped]
  have h1 := C70_loads_ieee (f := Fmt.b64) (by simp [Fmt.b64]) _ he
  have h2 := C70_loads_real _ he
  have hb : ∀ p ∈ Spectra.d65, |p.2| ≤ 120 := by
    have : (Spectra.d65.all fun p => decide (|p.2| ≤ 120)) = true := by decide +kernel
    intro p hp
    exact of_decide_eq_true (List.all_eq_true.1 this p hp)
  obtain ⟨t, w⟩ := C90_shipped _ he _ h1 _ h2 120 (by norm_num) (by norm_num) hb
  have hsh : Spec.SameShape (SpdShape.new (Flt.lit 360.0) (Flt.lit 780.0) (Flt.lit 1.0) : SpdShape (FP Fmt.b64))
      (SpdShape.new ((360 : ℕ) : ℝ) ((780 : ℕ) : ℝ) ((1 : ℕ) : ℝ)) :=
    ⟨(Whole.lit std_b64 360 (by norm_num) (by norm_num) _ (by norm_num)).sameNum,
      (Whole.lit std_b64 780 (by norm_num) (by norm_num) _ (by norm_num)).sameNum,
      (Whole.lit std_b64 1 (by norm_num) (by norm_num) _ (by norm_num)).sameNum⟩
  obtain ⟨N, R, hN⟩ := C90_align std_b64 (ideal_powi std_b64) _ _ _ t w 121 (by norm_num) (by norm_num)
    (by
      intro p hp
      obtain ⟨q, hq, rfl⟩ := List.mem_map.1 hp
      have : |(q.2 : ℝ)| ≤ 120 := by exact_mod_cast hb q hq
      simp only [flt_lit]
      have h3 : (((120 : ℚ) : ℝ)) / 2 ^ 52 ≤ 1 := by norm_num
      linarith) _ 360 780 1 (by norm_num) (by norm_num) (by norm_num) hsh (by norm_num [SpdShape.new])
  refine ⟨_, _, N, R, h1, h2, fun fuel hf => ?_⟩
  obtain ⟨a, r, b, c⟩ := hN fuel hf
  refine ⟨a, r, b, c.samples.imp fun p q h => ⟨h.1, h.2, h.3, h.4.trans ?_⟩, c.shape⟩
  rw [u_b64]
  norm_num

end CS
