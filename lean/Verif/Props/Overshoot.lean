import Verif.Props.Sprague
import Mathlib.Tactic.Positivity

/-!
# How far Sprague interpolation overshoots (C88)
-/

namespace CS

/-- six samples around the interval -/
theorem sprague_inner {d Y y0 y1 y2 y3 y4 y5 : ℝ} (d0 : 0 ≤ d) (d1 : d ≤ 1)
    (hy0 : |y0| ≤ Y)
    (hy1 : |y1| ≤ Y)
    (hy2 : |y2| ≤ Y)
    (hy3 : |y3| ≤ Y)
    (hy4 : |y4| ≤ Y)
    (hy5 : |y5| ≤ Y)
    : |spraguePoly (spragueA y0 y1 y2 y3 y4 y5) d| ≤ 89 / 64 * Y := by
  obtain ⟨t, ht⟩ : ∃ t, t = 1 - d := ⟨_, rfl⟩
  have t0 : 0 ≤ t := by linarith
  have hY : 0 ≤ Y := le_trans (abs_nonneg _) hy0
  have c0 : 0 ≤ (1/12) * d + (-1/24) * d ^ 2 + (-3/8) * d ^ 3 + (13/24) * d ^ 4 + (-5/24) * d ^ 5 := by
    have e : (1/12) * d + (-1/24) * d ^ 2 + (-3/8) * d ^ 3 + (13/24) * d ^ 4 + (-5/24) * d ^ 5 = (1/12) * d ^ 1 * t ^ 4 + (7/24) * d ^ 2 * t ^ 3 := by rw [ht]; ring
    rw [e]; positivity
  have u0 := mul_nonneg c0 (show 0 ≤ Y - y0 by linarith [(abs_le.1 hy0).1, (abs_le.1 hy0).2])
  have l0 := mul_nonneg c0 (show 0 ≤ Y + y0 by linarith [(abs_le.1 hy0).1, (abs_le.1 hy0).2])
  have c1 : 0 ≤ (2/3) * d + (-2/3) * d ^ 2 + (-13/8) * d ^ 3 + (8/3) * d ^ 4 + (-25/24) * d ^ 5 := by
    have e : (2/3) * d + (-2/3) * d ^ 2 + (-13/8) * d ^ 3 + (8/3) * d ^ 4 + (-25/24) * d ^ 5 = (2/3) * d ^ 1 * t ^ 4 + (2) * d ^ 2 * t ^ 3 + (3/8) * d ^ 3 * t ^ 2 + (1/12) * d ^ 4 * t ^ 1 := by rw [ht]; ring
    rw [e]; positivity
  have u1 := mul_nonneg c1 (show 0 ≤ Y + y1 by linarith [(abs_le.1 hy1).1, (abs_le.1 hy1).2])
  have l1 := mul_nonneg c1 (show 0 ≤ Y - y1 by linarith [(abs_le.1 hy1).1, (abs_le.1 hy1).2])
  have c2 : 0 ≤ (1) + (-5/4) * d ^ 2 + (-35/12) * d ^ 3 + (21/4) * d ^ 4 + (-25/12) * d ^ 5 := by
    have e : (1) + (-5/4) * d ^ 2 + (-35/12) * d ^ 3 + (21/4) * d ^ 4 + (-25/12) * d ^ 5 = (1) * t ^ 5 + (5) * d ^ 1 * t ^ 4 + (35/4) * d ^ 2 * t ^ 3 + (10/3) * d ^ 3 * t ^ 2 + (2/3) * d ^ 4 * t ^ 1 := by rw [ht]; ring
    rw [e]; positivity
  have u2 := mul_nonneg c2 (show 0 ≤ Y - y2 by linarith [(abs_le.1 hy2).1, (abs_le.1 hy2).2])
  have l2 := mul_nonneg c2 (show 0 ≤ Y + y2 by linarith [(abs_le.1 hy2).1, (abs_le.1 hy2).2])
  have c3 : 0 ≤ (2/3) * d + (2/3) * d ^ 2 + (11/4) * d ^ 3 + (-31/6) * d ^ 4 + (25/12) * d ^ 5 := by
    have e : (2/3) * d + (2/3) * d ^ 2 + (11/4) * d ^ 3 + (-31/6) * d ^ 4 + (25/12) * d ^ 5 = (2/3) * d ^ 1 * t ^ 4 + (10/3) * d ^ 2 * t ^ 3 + (35/4) * d ^ 3 * t ^ 2 + (5) * d ^ 4 * t ^ 1 + (1) * d ^ 5 := by rw [ht]; ring
    rw [e]; positivity
  have u3 := mul_nonneg c3 (show 0 ≤ Y - y3 by linarith [(abs_le.1 hy3).1, (abs_le.1 hy3).2])
  have l3 := mul_nonneg c3 (show 0 ≤ Y + y3 by linarith [(abs_le.1 hy3).1, (abs_le.1 hy3).2])
  have c4 : 0 ≤ (1/12) * d + (1/24) * d ^ 2 + (11/8) * d ^ 3 + (-61/24) * d ^ 4 + (25/24) * d ^ 5 := by
    have e : (1/12) * d + (1/24) * d ^ 2 + (11/8) * d ^ 3 + (-61/24) * d ^ 4 + (25/24) * d ^ 5 = (1/12) * d ^ 1 * t ^ 4 + (3/8) * d ^ 2 * t ^ 3 + (2) * d ^ 3 * t ^ 2 + (2/3) * d ^ 4 * t ^ 1 := by rw [ht]; ring
    rw [e]; positivity
  have u4 := mul_nonneg c4 (show 0 ≤ Y + y4 by linarith [(abs_le.1 hy4).1, (abs_le.1 hy4).2])
  have l4 := mul_nonneg c4 (show 0 ≤ Y - y4 by linarith [(abs_le.1 hy4).1, (abs_le.1 hy4).2])
  have c5 : 0 ≤ (7/24) * d ^ 3 + (-1/2) * d ^ 4 + (5/24) * d ^ 5 := by
    have e : (7/24) * d ^ 3 + (-1/2) * d ^ 4 + (5/24) * d ^ 5 = (7/24) * d ^ 3 * t ^ 2 + (1/12) * d ^ 4 * t ^ 1 := by rw [ht]; ring
    rw [e]; positivity
  have u5 := mul_nonneg c5 (show 0 ≤ Y - y5 by linarith [(abs_le.1 hy5).1, (abs_le.1 hy5).2])
  have l5 := mul_nonneg c5 (show 0 ≤ Y + y5 by linarith [(abs_le.1 hy5).1, (abs_le.1 hy5).2])
  have g : 0 ≤ (25/64) + (-3/2) * d + (5/4) * d ^ 2 + (1/2) * d ^ 3 + (-1/4) * d ^ 4 := by
    have e : (25/64) + (-3/2) * d + (5/4) * d ^ 2 + (1/2) * d ^ 3 + (-1/4) * d ^ 4 = (d - 1/2) ^ 2 * ((25/16) * t ^ 2 + (27/8) * d ^ 1 * t ^ 1 + (25/16) * d ^ 2) := by rw [ht]; ring
    rw [e]; positivity
  have gY := mul_nonneg g hY
  rw [spraguePoly_real, abs_le]
  constructor
  · linear_combination l0 + l1 + l2 + l3 + l4 + l5 + gY
  · linear_combination u0 + u1 + u2 + u3 + u4 + u5 + gY

/-- the first interval, with both extrapolated values -/
theorem sprague_first {d Y y0 y1 y2 y3 y4 y5 : ℝ} (d0 : 0 ≤ d) (d1 : d ≤ 1)
    (hy0 : |y0| ≤ Y)
    (hy1 : |y1| ≤ Y)
    (hy2 : |y2| ≤ Y)
    (hy3 : |y3| ≤ Y)
    (hy4 : |y4| ≤ Y)
    (hy5 : |y5| ≤ Y)
    : |spraguePoly (spragueA ((884 * y0 - 1960 * y1 + 3033 * y2 - 2648 * y3 + 1080 * y4 - 180 * y5) / 209) ((508 * y0 - 540 * y1 + 488 * y2 - 367 * y3 + 144 * y4 - 24 * y5) / 209) y0 y1 y2 y3) d| ≤ 89 / 64 * Y := by
  obtain ⟨t, ht⟩ : ∃ t, t = 1 - d := ⟨_, rfl⟩
  have t0 : 0 ≤ t := by linarith
  have hY : 0 ≤ Y := le_trans (abs_nonneg _) hy0
  have c0 : 0 ≤ (1) + (-265/209) * d + (487/2508) * d ^ 2 + (-73/132) * d ^ 3 + (2657/2508) * d ^ 4 + (-1085/2508) * d ^ 5 := by
    have e : (1) + (-265/209) * d + (487/2508) * d ^ 2 + (-73/132) * d ^ 3 + (2657/2508) * d ^ 4 + (-1085/2508) * d ^ 5 = (1) * t ^ 5 + (780/209) * d ^ 1 * t ^ 4 + (12847/2508) * d ^ 2 * t ^ 3 + (3037/1254) * d ^ 3 * t ^ 2 + (97/209) * d ^ 4 * t ^ 1 := by rw [ht]; ring
    rw [e]; positivity
  have u0 := mul_nonneg c0 (show 0 ≤ Y - y0 by linarith [(abs_le.1 hy0).1, (abs_le.1 hy0).2])
  have l0 := mul_nonneg c0 (show 0 ≤ Y + y0 by linarith [(abs_le.1 hy0).1, (abs_le.1 hy0).2])
  have c1 : 0 ≤ (336/209) * d + (-139/209) * d ^ 2 + (91/44) * d ^ 3 + (-1403/418) * d ^ 4 + (1125/836) * d ^ 5 := by
    have e : (336/209) * d + (-139/209) * d ^ 2 + (91/44) * d ^ 3 + (-1403/418) * d ^ 4 + (1125/836) * d ^ 5 = (336/209) * d ^ 1 * t ^ 4 + (1205/209) * d ^ 2 * t ^ 3 + (8125/836) * d ^ 3 * t ^ 2 + (1090/209) * d ^ 4 * t ^ 1 + (1) * d ^ 5 := by rw [ht]; ring
    rw [e]; positivity
  have u1 := mul_nonneg c1 (show 0 ≤ Y - y1 by linarith [(abs_le.1 hy1).1, (abs_le.1 hy1).2])
  have l1 := mul_nonneg c1 (show 0 ≤ Y + y1 by linarith [(abs_le.1 hy1).1, (abs_le.1 hy1).2])
  have c2 : 0 ≤ (90/209) * d + (-761/836) * d ^ 2 + (133/44) * d ^ 3 + (-3491/836) * d ^ 4 + (1365/836) * d ^ 5 := by
    have e : (90/209) * d + (-761/836) * d ^ 2 + (133/44) * d ^ 3 + (-3491/836) * d ^ 4 + (1365/836) * d ^ 5 = (90/209) * d ^ 1 * t ^ 4 + (679/836) * d ^ 2 * t ^ 3 + (601/209) * d ^ 3 * t ^ 2 + (180/209) * d ^ 4 * t ^ 1 := by rw [ht]; ring
    rw [e]; positivity
  have u2 := mul_nonneg c2 (show 0 ≤ Y + y2 by linarith [(abs_le.1 hy2).1, (abs_le.1 hy2).2])
  have l2 := mul_nonneg c2 (show 0 ≤ Y - y2 by linarith [(abs_le.1 hy2).1, (abs_le.1 hy2).2])
  have c3 : 0 ≤ (24/209) * d + (-403/627) * d ^ 2 + (289/132) * d ^ 3 + (-3361/1254) * d ^ 4 + (2555/2508) * d ^ 5 := by
    have e : (24/209) * d + (-403/627) * d ^ 2 + (289/132) * d ^ 3 + (-3361/1254) * d ^ 4 + (2555/2508) * d ^ 5 = (24/209) * d ^ 1 * t ^ 6 + (29/627) * d ^ 2 * t ^ 5 + (1751/2508) * d ^ 3 * t ^ 4 + (2441/1254) * d ^ 4 * t ^ 3 + (3535/2508) * d ^ 5 * t ^ 2 + (48/209) * d ^ 6 * t ^ 1 := by rw [ht]; ring
    rw [e]; positivity
  have u3 := mul_nonneg c3 (show 0 ≤ Y - y3 by linarith [(abs_le.1 hy3).1, (abs_le.1 hy3).2])
  have l3 := mul_nonneg c3 (show 0 ≤ Y + y3 by linarith [(abs_le.1 hy3).1, (abs_le.1 hy3).2])
  have c4 : 0 ≤ (6/209) * d + (-51/209) * d ^ 2 + (9/11) * d ^ 3 + (-201/209) * d ^ 4 + (75/209) * d ^ 5 := by
    have e : (6/209) * d + (-51/209) * d ^ 2 + (9/11) * d ^ 3 + (-201/209) * d ^ 4 + (75/209) * d ^ 5 = (6/209) * d ^ 1 * t ^ 12 + (21/209) * d ^ 2 * t ^ 11 + (6/209) * d ^ 3 * t ^ 10 + (24/209) * d ^ 4 * t ^ 9 + (516/209) * d ^ 5 * t ^ 8 + (1806/209) * d ^ 6 * t ^ 7 + (3108/209) * d ^ 7 * t ^ 6 + (3156/209) * d ^ 8 * t ^ 5 + (1974/209) * d ^ 9 * t ^ 4 + (39/11) * d ^ 10 * t ^ 3 + (150/209) * d ^ 11 * t ^ 2 + (12/209) * d ^ 12 * t ^ 1 := by rw [ht]; ring
    rw [e]; positivity
  have u4 := mul_nonneg c4 (show 0 ≤ Y + y4 by linarith [(abs_le.1 hy4).1, (abs_le.1 hy4).2])
  have l4 := mul_nonneg c4 (show 0 ≤ Y - y4 by linarith [(abs_le.1 hy4).1, (abs_le.1 hy4).2])
  have c5 : 0 ≤ (1/209) * d + (-17/418) * d ^ 2 + (3/22) * d ^ 3 + (-67/418) * d ^ 4 + (25/418) * d ^ 5 := by
    have e : (1/209) * d + (-17/418) * d ^ 2 + (3/22) * d ^ 3 + (-67/418) * d ^ 4 + (25/418) * d ^ 5 = (1/209) * d ^ 1 * t ^ 12 + (7/418) * d ^ 2 * t ^ 11 + (1/209) * d ^ 3 * t ^ 10 + (4/209) * d ^ 4 * t ^ 9 + (86/209) * d ^ 5 * t ^ 8 + (301/209) * d ^ 6 * t ^ 7 + (518/209) * d ^ 7 * t ^ 6 + (526/209) * d ^ 8 * t ^ 5 + (329/209) * d ^ 9 * t ^ 4 + (13/22) * d ^ 10 * t ^ 3 + (25/209) * d ^ 11 * t ^ 2 + (2/209) * d ^ 12 * t ^ 1 := by rw [ht]; ring
    rw [e]; positivity
  have u5 := mul_nonneg c5 (show 0 ≤ Y - y5 by linarith [(abs_le.1 hy5).1, (abs_le.1 hy5).2])
  have l5 := mul_nonneg c5 (show 0 ≤ Y + y5 by linarith [(abs_le.1 hy5).1, (abs_le.1 hy5).2])
  have g : 0 ≤ (25/64) + (-192/209) * d + (965/418) * d ^ 2 + (-169/22) * d ^ 3 + (4295/418) * d ^ 4 + (-1665/418) * d ^ 5 := by
    have e : (25/64) + (-192/209) * d + (965/418) * d ^ 2 + (-169/22) * d ^ 3 + (4295/418) * d ^ 4 + (-1665/418) * d ^ 5 = (d - 127/200) ^ 2 * ((7943269/8800000) * t ^ 3 + (544582783/167200000) * d ^ 1 * t ^ 2 + (79398907/8800000) * d ^ 2 * t ^ 1 + (448918561/167200000) * d ^ 3) + ((9383014299/352000000000) * t ^ 1 + (220212988431/6688000000000) * d ^ 1) := by rw [ht]; ring
    rw [e]; positivity
  have gY := mul_nonneg g hY
  rw [spraguePoly_real, abs_le]
  constructor
  · linear_combination l0 + l1 + l2 + l3 + l4 + l5 + gY
  · linear_combination u0 + u1 + u2 + u3 + u4 + u5 + gY

/-- the second interval, with one extrapolated value -/
theorem sprague_second {d Y y0 y1 y2 y3 y4 y5 : ℝ} (d0 : 0 ≤ d) (d1 : d ≤ 1)
    (hy0 : |y0| ≤ Y)
    (hy1 : |y1| ≤ Y)
    (hy2 : |y2| ≤ Y)
    (hy3 : |y3| ≤ Y)
    (hy4 : |y4| ≤ Y)
    (hy5 : |y5| ≤ Y)
    : |spraguePoly (spragueA ((508 * y0 - 540 * y1 + 488 * y2 - 367 * y3 + 144 * y4 - 24 * y5) / 209) y0 y1 y2 y3 y4) d| ≤ 89 / 64 * Y := by
  obtain ⟨t, ht⟩ : ∃ t, t = 1 - d := ⟨_, rfl⟩
  have t0 : 0 ≤ t := by linarith
  have hY : 0 ≤ Y := le_trans (abs_nonneg _) hy0
  have c0 : 0 ≤ (97/209) * d + (-709/1254) * d ^ 2 + (-1193/1672) * d ^ 3 + (1693/1254) * d ^ 4 + (-895/1672) * d ^ 5 := by
    have e : (97/209) * d + (-709/1254) * d ^ 2 + (-1193/1672) * d ^ 3 + (1693/1254) * d ^ 4 + (-895/1672) * d ^ 5 = (97/209) * d ^ 1 * t ^ 4 + (1619/1254) * d ^ 2 * t ^ 3 + (3/8) * d ^ 3 * t ^ 2 + (1/12) * d ^ 4 * t ^ 1 := by rw [ht]; ring
    rw [e]; positivity
  have u0 := mul_nonneg c0 (show 0 ≤ Y + y0 by linarith [(abs_le.1 hy0).1, (abs_le.1 hy0).2])
  have l0 := mul_nonneg c0 (show 0 ≤ Y - y0 by linarith [(abs_le.1 hy0).1, (abs_le.1 hy0).2])
  have c1 : 0 ≤ (1) + (-45/209) * d + (-955/836) * d ^ 2 + (-4885/2508) * d ^ 3 + (3219/836) * d ^ 4 + (-3875/2508) * d ^ 5 := by
    have e : (1) + (-45/209) * d + (-955/836) * d ^ 2 + (-4885/2508) * d ^ 3 + (3219/836) * d ^ 4 + (-3875/2508) * d ^ 5 = (1) * t ^ 5 + (1000/209) * d ^ 1 * t ^ 4 + (6685/836) * d ^ 2 * t ^ 3 + (10/3) * d ^ 3 * t ^ 2 + (2/3) * d ^ 4 * t ^ 1 := by rw [ht]; ring
    rw [e]; positivity
  have u1 := mul_nonneg c1 (show 0 ≤ Y - y1 by linarith [(abs_le.1 hy1).1, (abs_le.1 hy1).2])
  have l1 := mul_nonneg c1 (show 0 ≤ Y + y1 by linarith [(abs_le.1 hy1).1, (abs_le.1 hy1).2])
  have c2 : 0 ≤ (180/209) * d + (119/209) * d ^ 2 + (1567/836) * d ^ 3 + (-1631/418) * d ^ 4 + (1335/836) * d ^ 5 := by
    have e : (180/209) * d + (119/209) * d ^ 2 + (1567/836) * d ^ 3 + (-1631/418) * d ^ 4 + (1335/836) * d ^ 5 = (180/209) * d ^ 1 * t ^ 4 + (839/209) * d ^ 2 * t ^ 3 + (35/4) * d ^ 3 * t ^ 2 + (5) * d ^ 4 * t ^ 1 + (1) * d ^ 5 := by rw [ht]; ring
    rw [e]; positivity
  have u2 := mul_nonneg c2 (show 0 ≤ Y - y2 by linarith [(abs_le.1 hy2).1, (abs_le.1 hy2).2])
  have l2 := mul_nonneg c2 (show 0 ≤ Y + y2 by linarith [(abs_le.1 hy2).1, (abs_le.1 hy2).2])
  have c3 : 0 ≤ (48/209) * d + (-79/2508) * d ^ 2 + (599/836) * d ^ 3 + (-3989/2508) * d ^ 4 + (565/836) * d ^ 5 := by
    have e : (48/209) * d + (-79/2508) * d ^ 2 + (599/836) * d ^ 3 + (-3989/2508) * d ^ 4 + (565/836) * d ^ 5 = (48/209) * d ^ 1 * t ^ 4 + (2225/2508) * d ^ 2 * t ^ 3 + (2) * d ^ 3 * t ^ 2 + (2/3) * d ^ 4 * t ^ 1 := by rw [ht]; ring
    rw [e]; positivity
  have u3 := mul_nonneg c3 (show 0 ≤ Y + y3 by linarith [(abs_le.1 hy3).1, (abs_le.1 hy3).2])
  have l3 := mul_nonneg c3 (show 0 ≤ Y - y3 by linarith [(abs_le.1 hy3).1, (abs_le.1 hy3).2])
  have c4 : 0 ≤ (12/209) * d + (-6/209) * d ^ 2 + (167/5016) * d ^ 3 + (-53/418) * d ^ 4 + (325/5016) * d ^ 5 := by
    have e : (12/209) * d + (-6/209) * d ^ 2 + (167/5016) * d ^ 3 + (-53/418) * d ^ 4 + (325/5016) * d ^ 5 = (12/209) * d ^ 1 * t ^ 4 + (42/209) * d ^ 2 * t ^ 3 + (7/24) * d ^ 3 * t ^ 2 + (1/12) * d ^ 4 * t ^ 1 := by rw [ht]; ring
    rw [e]; positivity
  have u4 := mul_nonneg c4 (show 0 ≤ Y - y4 by linarith [(abs_le.1 hy4).1, (abs_le.1 hy4).2])
  have l4 := mul_nonneg c4 (show 0 ≤ Y + y4 by linarith [(abs_le.1 hy4).1, (abs_le.1 hy4).2])
  have c5 : 0 ≤ (2/209) * d + (-1/209) * d ^ 2 + (-9/209) * d ^ 3 + (13/209) * d ^ 4 + (-5/209) * d ^ 5 := by
    have e : (2/209) * d + (-1/209) * d ^ 2 + (-9/209) * d ^ 3 + (13/209) * d ^ 4 + (-5/209) * d ^ 5 = (2/209) * d ^ 1 * t ^ 4 + (7/209) * d ^ 2 * t ^ 3 := by rw [ht]; ring
    rw [e]; positivity
  have u5 := mul_nonneg c5 (show 0 ≤ Y + y5 by linarith [(abs_le.1 hy5).1, (abs_le.1 hy5).2])
  have l5 := mul_nonneg c5 (show 0 ≤ Y - y5 by linarith [(abs_le.1 hy5).1, (abs_le.1 hy5).2])
  have g : 0 ≤ (25/64) + (-294/209) * d + (503/418) * d ^ 2 + (67/836) * d ^ 3 + (149/418) * d ^ 4 + (-195/836) * d ^ 5 := by
    have e : (25/64) + (-294/209) * d + (503/418) * d ^ 2 + (67/836) * d ^ 3 + (149/418) * d ^ 4 + (-195/836) * d ^ 5 = (d - 51/100) ^ 2 * ((60170081/41800000) * t ^ 3 + (95725159/20900000) * d ^ 1 * t ^ 2 + (207345393/41800000) * d ^ 2 * t ^ 1 + (16578789/10450000) * d ^ 3) + ((6778869319/418000000000) * t ^ 1 + (1014640111/104500000000) * d ^ 1) := by rw [ht]; ring
    rw [e]; positivity
  have gY := mul_nonneg g hY
  rw [spraguePoly_real, abs_le]
  constructor
  · linear_combination l0 + l1 + l2 + l3 + l4 + l5 + gY
  · linear_combination u0 + u1 + u2 + u3 + u4 + u5 + gY

theorem sprague_mirror (m2 m1 z p1 p2 p3 d : ℝ) :
    spraguePoly (spragueA m2 m1 z p1 p2 p3) d = spraguePoly (spragueA p3 p2 p1 z m1 m2) (1 - d) := by
  rw [spraguePoly_real, spraguePoly_real]; ring

/-- the extended values for `n` samples `v` -/
noncomputable def gY (v : ℕ → ℝ) (n i : ℕ) : ℝ :=
  if i = 0 then (884 * v 0 - 1960 * v 1 + 3033 * v 2 - 2648 * v 3 + 1080 * v 4 - 180 * v 5) / 209
  else if i = 1 then (508 * v 0 - 540 * v 1 + 488 * v 2 - 367 * v 3 + 144 * v 4 - 24 * v 5) / 209
  else if i < n + 2 then v (i - 2)
  else if i = n + 2 then (508 * v (n - 1) - 540 * v (n - 2) + 488 * v (n - 3) - 367 * v (n - 4)
    + 144 * v (n - 5) - 24 * v (n - 6)) / 209
  else (884 * v (n - 1) - 1960 * v (n - 2) + 3033 * v (n - 3) - 2648 * v (n - 4) + 1080 * v (n - 5)
    - 180 * v (n - 6)) / 209

theorem gY_shift (v : ℕ → ℝ) (n i : ℕ) (m : ℝ) : gY (fun j => v j - m) n i = gY v n i - m := by
  unfold gY
  split_ifs <;> ring

theorem extY_gY (s : VSPD ℝ) (hl : 6 ≤ s.samples.length) (i : ℕ) (hi : i < s.samples.length + 4) :
    (extY s).getD i 0 = gY (fun j => s.values.getD j 0) s.samples.length i := by
  obtain ⟨b0, b1, b2, b3⟩ := extY_boundary s hl
  unfold gY
  split_ifs with h0 h1 h2 h3
  · rw [h0]; exact b0
  · rw [h1]; exact b1
  · have hk : s.samples[i - 2]? = some (s.samples[i - 2]'(by omega)) :=
      List.getElem?_eq_getElem (by omega)
    have := extY_getD s 0 (i - 2) _ hk
    rw [show i - 2 + 2 = i by omega] at this
    rw [this]
    simp [VSPD.values, List.getD, hk]
  · rw [h3]; exact b2
  · rw [show i = s.samples.length + 3 by omega]; exact b3

/-- the value in interval `k` -/
noncomputable def gP (v : ℕ → ℝ) (n k : ℕ) (d : ℝ) : ℝ :=
  spraguePoly (spragueA (gY v n k) (gY v n (k + 1)) (gY v n (k + 2)) (gY v n (k + 3)) (gY v n (k + 4))
    (gY v n (k + 5))) d

theorem gP_shift (v : ℕ → ℝ) (n k : ℕ) (d m : ℝ) : gP (fun j => v j - m) n k d = gP v n k d - m := by
  unfold gP
  simp only [gY_shift, spraguePoly_real]; ring

theorem gP_sub (v w : ℕ → ℝ) (n k : ℕ) (d : ℝ) :
    gP (fun j => v j - w j) n k d = gP v n k d - gP w n k d := by
  have h : ∀ i, gY (fun j => v j - w j) n i = gY v n i - gY w n i := by
    intro i; unfold gY; split_ifs <;> ring
  unfold gP
  simp only [h, spraguePoly_real]; ring

theorem gP_bound (v : ℕ → ℝ) (n k : ℕ) (d Y : ℝ) (hn : 6 ≤ n) (hk : k + 1 < n) (d0 : 0 ≤ d) (d1 : d ≤ 1)
    (hv : ∀ j, j < n → |v j| ≤ Y) : |gP v n k d| ≤ 89 / 64 * Y := by
  have mid : ∀ i, 2 ≤ i → i < n + 2 → gY v n i = v (i - 2) := by
    intro i h1 h2
    unfold gY
    rw [if_neg (by omega), if_neg (by omega), if_pos h2]
  have e0 : gY v n 0 = (884 * v 0 - 1960 * v 1 + 3033 * v 2 - 2648 * v 3 + 1080 * v 4 - 180 * v 5) / 209 :=
    rfl
  have e1 : gY v n 1 = (508 * v 0 - 540 * v 1 + 488 * v 2 - 367 * v 3 + 144 * v 4 - 24 * v 5) / 209 := rfl
  have e2 : gY v n (n + 2) = (508 * v (n - 1) - 540 * v (n - 2) + 488 * v (n - 3) - 367 * v (n - 4)
    + 144 * v (n - 5) - 24 * v (n - 6)) / 209 := by
    unfold gY
    rw [if_neg (by omega), if_neg (by omega), if_neg (by omega), if_pos rfl]
  have e3 : gY v n (n + 3) = (884 * v (n - 1) - 1960 * v (n - 2) + 3033 * v (n - 3) - 2648 * v (n - 4)
    + 1080 * v (n - 5) - 180 * v (n - 6)) / 209 := by
    unfold gY
    rw [if_neg (by omega), if_neg (by omega), if_neg (by omega), if_neg (by omega)]
  unfold gP
  have cases : k = 0 ∨ k = 1 ∨ (2 ≤ k ∧ k + 4 ≤ n) ∨ k + 3 = n ∨ k + 2 = n := by omega
  rcases cases with rfl | rfl | ⟨h2, h4⟩ | h3 | h2
  · rw [e0, e1, mid 2 (by omega) (by omega), mid 3 (by omega) (by omega), mid 4 (by omega) (by omega),
      mid 5 (by omega) (by omega)]
    exact sprague_first d0 d1 (hv 0 (by omega)) (hv 1 (by omega)) (hv 2 (by omega)) (hv 3 (by omega))
      (hv 4 (by omega)) (hv 5 (by omega))
  · rw [e1, mid 2 (by omega) (by omega), mid 3 (by omega) (by omega), mid 4 (by omega) (by omega),
      mid 5 (by omega) (by omega), mid 6 (by omega) (by omega)]
    exact sprague_second d0 d1 (hv 0 (by omega)) (hv 1 (by omega)) (hv 2 (by omega)) (hv 3 (by omega))
      (hv 4 (by omega)) (hv 5 (by omega))
  · rw [mid k (by omega) (by omega), mid (k + 1) (by omega) (by omega), mid (k + 2) (by omega) (by omega),
      mid (k + 3) (by omega) (by omega), mid (k + 4) (by omega) (by omega),
      mid (k + 5) (by omega) (by omega)]
    exact sprague_inner d0 d1 (hv _ (by omega)) (hv _ (by omega)) (hv _ (by omega)) (hv _ (by omega))
      (hv _ (by omega)) (hv _ (by omega))
  · obtain rfl : n = k + 3 := h3.symm
    rw [sprague_mirror, show k + 5 = k + 3 + 2 by omega, e2, mid k (by omega) (by omega),
      mid (k + 1) (by omega) (by omega), mid (k + 2) (by omega) (by omega),
      mid (k + 3) (by omega) (by omega), mid (k + 4) (by omega) (by omega)]
    exact sprague_second (by linarith) (by linarith) (hv _ (by omega)) (hv _ (by omega)) (hv _ (by omega))
      (hv _ (by omega)) (hv _ (by omega)) (hv _ (by omega))
  · obtain rfl : n = k + 2 := h2.symm
    rw [sprague_mirror, show k + 5 = k + 2 + 3 by omega, e3, show k + 4 = k + 2 + 2 by omega, e2,
      mid k (by omega) (by omega), mid (k + 1) (by omega) (by omega),
      mid (k + 2) (by omega) (by omega), mid (k + 3) (by omega) (by omega)]
    exact sprague_first (by linarith) (by linarith) (hv _ (by omega)) (hv _ (by omega)) (hv _ (by omega))
      (hv _ (by omega)) (hv _ (by omega)) (hv _ (by omega))

/-- which interval `x` lies in and how far -/
theorem sprague_locate (s : VSPD ℝ) (a z : Sample ℝ) (hl : 6 ≤ s.samples.length)
    (h0 : s.samples.head? = some a) (hz : s.samples.getLast? = some z)
    (hs : s.wavelengths.Pairwise (· < ·)) (x : ℝ) (h1 : a.nm ≤ x) (h2 : x ≤ z.nm) :
    ∃ (k : ℕ) (d : ℝ), k + 1 < s.samples.length ∧ 0 ≤ d ∧ d ≤ 1 ∧
      ∀ t : VSPD ℝ, t.wavelengths = s.wavelengths →
        spragueEval t x = .ok (gP (fun j => t.values.getD j 0) s.samples.length k d) := by
  have hinc : ∀ i j (hi : i < s.samples.length) (hj : j < s.samples.length), i < j →
      (s.samples[i]).nm < (s.samples[j]).nm := by
    intro i j hi hj hij
    have := List.pairwise_iff_getElem.1 hs i j (by simpa [VSPD.wavelengths] using hi)
      (by simpa [VSPD.wavelengths] using hj) hij
    simpa [VSPD.wavelengths] using this
  have ea : a = s.samples[0] := by
    rw [List.head?_eq_getElem?, List.getElem?_eq_getElem (by omega)] at h0
    exact (Option.some.inj h0).symm
  have hlast : s.samples[s.samples.length - 1]'(by omega) = z := by
    rw [List.getLast?_eq_getElem?, List.getElem?_eq_getElem (by omega)] at hz
    exact Option.some.inj hz
  have find : ∃ (k : ℕ) (hk : k + 1 < s.samples.length), (s.samples[k]).nm ≤ x ∧
      x ≤ (s.samples[k + 1]).nm ∧ (x < (s.samples[k + 1]).nm ∨ (k + 2 = s.samples.length ∧ x = z.nm)) := by
    by_contra hc
    have step : ∀ k (hk : k + 1 < s.samples.length), (s.samples[k]).nm ≤ x →
        (s.samples[k + 1]).nm ≤ x := by
      intro k hk hle
      by_contra hlt
      have hlt := lt_of_not_ge hlt
      exact hc ⟨k, hk, hle, hlt.le, Or.inl hlt⟩
    have all : ∀ k (hk : k < s.samples.length), (s.samples[k]).nm ≤ x := by
      intro k
      induction k with
      | zero => intro _; rw [← ea]; exact h1
      | succ k ih => intro hk; exact step k hk (ih (by omega))
    have e : (s.samples[s.samples.length - 2 + 1]'(by omega)) = z := by
      rw [← hlast]; congr 1; omega
    have hx : x = z.nm := le_antisymm h2 (by rw [← hlast]; exact all _ (by omega))
    exact hc ⟨s.samples.length - 2, by omega, all _ (by omega), by rw [e]; exact h2,
      Or.inr ⟨by omega, hx⟩⟩
  obtain ⟨k, hk, hlo, hle, hhi⟩ := find
  have hpq := hinc k (k + 1) (by omega) hk (by omega)
  refine ⟨k, (x - (s.samples[k]).nm) / ((s.samples[k + 1]).nm - (s.samples[k]).nm), hk,
    div_nonneg (by linarith) (by linarith), by rw [div_le_one (by linarith)]; linarith, ?_⟩
  intro t ht
  have hlen : t.samples.length = s.samples.length := by
    have := congrArg List.length ht
    simpa [VSPD.wavelengths] using this
  have hnm : ∀ i (hi : i < s.samples.length), (t.samples[i]'(by omega)).nm = (s.samples[i]).nm := by
    intro i hi
    have := congrArg (fun l => l[i]?) ht
    simp only [VSPD.wavelengths, List.getElem?_map, List.getElem?_eq_getElem hi,
      List.getElem?_eq_getElem (show i < t.samples.length by omega)] at this
    exact Option.some.inj this
  have t0 : t.samples[0]? = some (t.samples[0]'(by omega)) := List.getElem?_eq_getElem (by omega)
  have t1 : t.samples[1]? = some (t.samples[1]'(by omega)) := List.getElem?_eq_getElem (by omega)
  have tz : t.samples.getLast? = some (t.samples[t.samples.length - 1]'(by omega)) := by
    rw [List.getLast?_eq_getElem?]; exact List.getElem?_eq_getElem (by omega)
  have tk : t.samples[k]? = some (t.samples[k]'(by omega)) := List.getElem?_eq_getElem (by omega)
  have tk1 : t.samples[k + 1]? = some (t.samples[k + 1]'(by omega)) := List.getElem?_eq_getElem (by omega)
  have hst : t.wavelengths.Pairwise (· < ·) := by rw [ht]; exact hs
  have key : spragueEval t x = .ok (spragueAt ⟨extX t (t.samples[0]'(by omega)).nm
      (t.samples[1]'(by omega)).nm (t.samples[t.samples.length - 1]'(by omega)).nm, extY t⟩ (k + 2) x) := by
    rcases hhi with hlt | ⟨hk2, hx⟩
    · exact spragueEval_between t _ _ _ t0 t1 tz hst k _ _ tk tk1 x (by rw [hnm k (by omega)]; exact hlo)
        (by rw [hnm (k + 1) hk]; exact hlt)
    · have el : (t.samples[t.samples.length - 1]'(by omega)).nm = z.nm := by
        rw [← hlast, ← hnm _ (by omega)]; congr 2; omega
      have := spragueEval_right t _ _ _ t0 t1 tz hst x (by rw [el, hx]) (by
        rw [el, hx, hnm 0 (by omega), hnm 1 (by omega)]
        linarith [hinc 0 1 (by omega) (by omega) (by omega)])
      rw [this]
      have e2 : t.samples.length = k + 2 := by omega
      exact congrArg (fun i => Except.ok (spragueAt _ i x)) e2
  rw [key]
  congr 1
  unfold spragueAt gP
  have z0 : (Flt.zero : ℝ) = 0 := by simp [Flt.zero]
  simp only [z0]
  rw [extX_getD t _ _ _ 0 k _ tk, show k + 2 + 1 = k + 1 + 2 by omega, extX_getD t _ _ _ 0 (k + 1) _ tk1,
    hnm k (by omega), hnm (k + 1) hk, show k + 2 - 2 = k by omega, show k + 2 - 1 = k + 1 by omega,
    show k + 1 + 2 = k + 3 by omega, show k + 2 + 2 = k + 4 by omega, show k + 2 + 3 = k + 5 by omega]
  have g := extY_gY t (by omega)
  rw [hlen] at g
  rw [g k (by omega), g (k + 1) (by omega), g (k + 2) (by omega), g (k + 3) (by omega), g (k + 4) (by omega),
    g (k + 5) (by omega)]

/-! ## C88 -/

/-- C88 [R]: for six or more samples with increasing wavelengths and values between `lo` and `hi`, the
interpolated values between the first and the last wavelength leave `[lo, hi]` by at most 25/128 (19.5
percent) of `hi - lo`. -/
theorem C88_range (s : VSPD ℝ) (a z : Sample ℝ) (hl : 6 ≤ s.samples.length)
    (h0 : s.samples.head? = some a) (hz : s.samples.getLast? = some z)
    (hs : s.wavelengths.Pairwise (· < ·)) (lo hi : ℝ) (hv : ∀ p ∈ s.samples, lo ≤ p.v ∧ p.v ≤ hi)
    (x : ℝ) (h1 : a.nm ≤ x) (h2 : x ≤ z.nm) :
    ∃ v, spragueEval s x = .ok v ∧ lo - 25 / 128 * (hi - lo) ≤ v ∧ v ≤ hi + 25 / 128 * (hi - lo) := by
  obtain ⟨k, d, hk, d0, d1, h⟩ := sprague_locate s a z hl h0 hz hs x h1 h2
  refine ⟨_, h s rfl, ?_⟩
  have hb := gP_bound (fun j => s.values.getD j 0 - (lo + hi) / 2) _ k d ((hi - lo) / 2) hl hk d0 d1 (by
    intro j hj
    have e : s.values.getD j 0 = (s.samples[j]).v := by simp [VSPD.values, List.getD, hj]
    obtain ⟨p, q⟩ := hv _ (List.getElem_mem hj)
    simp only [e]
    rw [abs_le]; constructor <;> linarith)
  rw [gP_shift, abs_le] at hb
  constructor <;> linarith

/-- C88 [R]: in terms of the largest absolute value, the factor is 89/64. -/
theorem C88_bound (s : VSPD ℝ) (a z : Sample ℝ) (hl : 6 ≤ s.samples.length)
    (h0 : s.samples.head? = some a) (hz : s.samples.getLast? = some z)
    (hs : s.wavelengths.Pairwise (· < ·)) (V : ℝ) (hv : ∀ p ∈ s.samples, |p.v| ≤ V)
    (x : ℝ) (h1 : a.nm ≤ x) (h2 : x ≤ z.nm) :
    ∃ v, spragueEval s x = .ok v ∧ |v| ≤ 89 / 64 * V := by
  obtain ⟨v, e, p, q⟩ := C88_range s a z hl h0 hz hs (-V) V (fun p hp => abs_le.1 (hv p hp)) x h1 h2
  exact ⟨v, e, abs_le.2 ⟨by linarith, by linarith⟩⟩

/-- C88 [R]: interpolation is stable: changing every sample by at most `e` changes every interpolated
value by at most 89/64 `e`. -/
theorem C88_stable (s t : VSPD ℝ) (a z : Sample ℝ) (hl : 6 ≤ s.samples.length)
    (h0 : s.samples.head? = some a) (hz : s.samples.getLast? = some z)
    (hs : s.wavelengths.Pairwise (· < ·)) (ht : t.wavelengths = s.wavelengths) (e : ℝ)
    (hv : ∀ (j : ℕ) (p q : Sample ℝ), s.samples[j]? = some p → t.samples[j]? = some q → |p.v - q.v| ≤ e)
    (x : ℝ) (h1 : a.nm ≤ x) (h2 : x ≤ z.nm) :
    ∃ v w, spragueEval s x = .ok v ∧ spragueEval t x = .ok w ∧ |v - w| ≤ 89 / 64 * e := by
  obtain ⟨k, d, hk, d0, d1, h⟩ := sprague_locate s a z hl h0 hz hs x h1 h2
  refine ⟨_, _, h s rfl, h t ht, ?_⟩
  have hlen : t.samples.length = s.samples.length := by
    have := congrArg List.length ht
    simpa [VSPD.wavelengths] using this
  rw [← gP_sub]
  refine gP_bound _ _ k d e hl hk d0 d1 ?_
  intro j hj
  have e1 : s.values.getD j 0 = (s.samples[j]).v := by simp [VSPD.values, List.getD, hj]
  have e2 : t.values.getD j 0 = (t.samples[j]'(by omega)).v := by
    simp [VSPD.values, List.getD, show j < t.samples.length by omega]
  simp only [e1, e2]
  exact hv j _ _ (List.getElem?_eq_getElem hj) (List.getElem?_eq_getElem (by omega))

/-- C88 [R]: the factor cannot be improved: with samples 1, -1, 1, 1, -1, 1 the interpolator reaches 89/64
halfway between the third and the fourth. -/
theorem C88_sharp :
    spragueEval (⟨[⟨400, 1⟩, ⟨410, -1⟩, ⟨420, 1⟩, ⟨430, 1⟩, ⟨440, -1⟩, ⟨450, 1⟩], SpdShape.new 400 450 10⟩ :
      VSPD ℝ) 425 = .ok (89 / 64) := by
  rw [spragueEval_between _ ⟨400, 1⟩ ⟨410, -1⟩ ⟨450, 1⟩ rfl rfl rfl (by
    simp only [VSPD.wavelengths, List.map_cons, List.map_nil]; norm_num) 2 ⟨420, 1⟩ ⟨430, 1⟩ rfl rfl 425
    (by norm_num) (by norm_num)]
  congr 1
  unfold spragueAt
  have ex2 : (extX (⟨[⟨400, 1⟩, ⟨410, -1⟩, ⟨420, 1⟩, ⟨430, 1⟩, ⟨440, -1⟩, ⟨450, 1⟩],
    SpdShape.new 400 450 10⟩ : VSPD ℝ) 400 410 450).getD (2 + 2) Flt.zero = 420 := rfl
  have ex3 : (extX (⟨[⟨400, 1⟩, ⟨410, -1⟩, ⟨420, 1⟩, ⟨430, 1⟩, ⟨440, -1⟩, ⟨450, 1⟩],
    SpdShape.new 400 450 10⟩ : VSPD ℝ) 400 410 450).getD (2 + 2 + 1) Flt.zero = 430 := rfl
  simp only [ex2, ex3, extY, VSPD.values, List.map_cons, List.map_nil, List.cons_append, List.nil_append,
    List.getD_cons_succ, List.getD_cons_zero, Nat.reduceSub, Nat.reduceAdd]
  rw [spraguePoly_real]
  norm_num

/-- Not vacuous: reflectances between 0 and 1 stay within [-0.2, 1.2]. -/
example : ∃ v, spragueEval (⟨[⟨400, 0⟩, ⟨410, 1⟩, ⟨420, 0⟩, ⟨430, 1⟩, ⟨440, 1⟩, ⟨450, 0⟩],
    SpdShape.new 400 450 10⟩ : VSPD ℝ) 403 = .ok v ∧ -0.2 ≤ v ∧ v ≤ 1.2 := by
  obtain ⟨v, e, p, q⟩ := C88_range (⟨[⟨400, 0⟩, ⟨410, 1⟩, ⟨420, 0⟩, ⟨430, 1⟩, ⟨440, 1⟩, ⟨450, 0⟩],
    SpdShape.new 400 450 10⟩ : VSPD ℝ) ⟨400, 0⟩ ⟨450, 0⟩ (by simp) rfl rfl (by
      simp only [VSPD.wavelengths, List.map_cons, List.map_nil]; norm_num) 0 1
    (by intro p hp; simp only [List.mem_cons, List.not_mem_nil, or_false] at hp
        rcases hp with rfl | rfl | rfl | rfl | rfl | rfl <;> norm_num) 403 (by norm_num) (by norm_num)
  exact ⟨v, e, by norm_num at p q ⊢; linarith, by norm_num at p q ⊢; linarith⟩

end CS
