import Verif.Lemmas.FPCat
import Verif.Lemmas.Cat
import Mathlib.Tactic.IntervalCases

/-!
# The cone matrices of the library, evaluated
-/

namespace CS

/-- inverse of a rational matrix by cofactors -/
def qInv (m : Matrix33 ℚ) : Matrix33 ℚ :=
  let d := m.x0 * (m.x4 * m.x8 - m.x5 * m.x7) - m.x1 * (m.x3 * m.x8 - m.x5 * m.x6)
    + m.x2 * (m.x3 * m.x7 - m.x4 * m.x6)
  ⟨(m.x4 * m.x8 - m.x5 * m.x7) / d, (m.x2 * m.x7 - m.x1 * m.x8) / d, (m.x1 * m.x5 - m.x2 * m.x4) / d,
   (m.x5 * m.x6 - m.x3 * m.x8) / d, (m.x0 * m.x8 - m.x2 * m.x6) / d, (m.x2 * m.x3 - m.x0 * m.x5) / d,
   (m.x3 * m.x7 - m.x4 * m.x6) / d, (m.x1 * m.x6 - m.x0 * m.x7) / d, (m.x0 * m.x4 - m.x1 * m.x3) / d⟩

def bradfordQ : Matrix33 ℚ :=
  ⟨0.8951, 0.2664, -0.1614, -0.7502, 1.7135, 0.0367, 0.0389, -0.0685, 1.0296⟩

def cat02Q : Matrix33 ℚ :=
  ⟨0.7328, 0.4296, -0.1624, -0.7036, 1.6975, 0.0061, 0.0030, 0.0136, 0.9834⟩

def vonKriesQ : Matrix33 ℚ :=
  ⟨0.40024, 0.7076, -0.08081, -0.2263, 1.16532, 0.0457, 0, 0, 0.91822⟩

def vonKriesQInv : Matrix33 ℚ :=
  ⟨1.8599364, -1.1293816, 0.2198974, 0.3611914, 0.6388125, -0.0000064, 0, 0, 1.0890636⟩

/-- all indices -/
def allFin3 (p : Fin 3 → Bool) : Bool := p 0 && p 1 && p 2

theorem allFin3_iff {p : Fin 3 → Bool} : allFin3 p = true ↔ ∀ i, p i = true := by
  unfold allFin3
  simp only [Bool.and_eq_true]
  constructor
  · rintro ⟨⟨h0, h1⟩, h2⟩ i
    fin_cases i <;> assumption
  · exact fun h => ⟨⟨h 0, h 1⟩, h 2⟩

/-- the conditions of `Cone`, decided -/
def coneCheck {f : Fmt} (MA MAi : Matrix33 (FP f)) (M I : Matrix33 ℚ) (α : ℚ) : Bool :=
  MA.fin && MAi.fin &&
  allFin3 (fun k => allFin3 fun j =>
    decide (|MA.q k j - M.get k j| ≤ 1.01 * f.u * |M.get k j|) && decide (|M.get k j| ≤ 7 / 4)) &&
  allFin3 (fun k => decide (|M.get k 0| + |M.get k 1| + |M.get k 2| ≤ 13 / 5) &&
    decide (|I.get k 0| + |I.get k 1| + |I.get k 2| ≤ α) &&
    decide (|MAi.q k 0 - I.get k 0| + |MAi.q k 1 - I.get k 1| + |MAi.q k 2 - I.get k 2| ≤ 3 * f.u)) &&
  decide (1 ≤ α) && decide (α ≤ 4)

theorem coneCheck_sound {f : Fmt} {MA MAi : Matrix33 (FP f)} {M I : Matrix33 ℚ} {α : ℚ}
    (h : coneCheck MA MAi M I α = true) : Cone MA MAi (fun k j => M.get k j) (fun k j => I.get k j) α := by
  unfold coneCheck at h
  simp only [Bool.and_eq_true, decide_eq_true_eq, allFin3_iff] at h
  obtain ⟨⟨⟨⟨⟨h1, h2⟩, h3⟩, h4⟩, h5⟩, h6⟩ := h
  exact ⟨h1, h2, fun k j => (h3 k j).1, fun k j => (h3 k j).2,
    fun k => by rw [Fin.sum_univ_three]; exact (h4 k).1.1,
    fun k => by rw [Fin.sum_univ_three]; exact (h4 k).1.2,
    fun k => by rw [Fin.sum_univ_three]; exact (h4 k).2, h5, h6⟩

/-- check a cone matrix with its computed inverse -/
def coneInvCheck {f : Fmt} [Libm f] (MA : Matrix33 (FP f)) (M I : Matrix33 ℚ) (α : ℚ) : Bool :=
  MA.force fun MA =>
    match MA.inverse with
    | some MAi => MAi.force fun MAi => coneCheck MA MAi M I α
    | none => false

theorem coneInvCheck_sound {f : Fmt} [Libm f] {MA : Matrix33 (FP f)} {M I : Matrix33 ℚ} {α : ℚ}
    (h : coneInvCheck MA M I α = true) : ∃ MAi, MA.inverse = some MAi ∧
      Cone MA MAi (fun k j => M.get k j) (fun k j => I.get k j) α := by
  unfold coneInvCheck at h
  rw [Matrix33.force_eq] at h
  cases hi : MA.inverse with
  | none => simp [hi] at h
  | some MAi =>
    simp only [hi, Matrix33.force_eq] at h
    exact ⟨MAi, rfl, coneCheck_sound h⟩

theorem cone_bradford {f : Fmt} [Libm f] (hf : f = Fmt.b32 ∨ f = Fmt.b64) :
    ∃ MAi, (bradfordM : Matrix33 (FP f)).inverse = some MAi ∧
      Cone bradfordM MAi (fun k j => bradfordQ.get k j) (fun k j => (qInv bradfordQ).get k j) 1.3 := by
  rcases hf with rfl | rfl <;> exact coneInvCheck_sound (by krefl)

theorem cone_cat02 {f : Fmt} [Libm f] (hf : f = Fmt.b32 ∨ f = Fmt.b64) :
    ∃ MAi, (cat02M : Matrix33 (FP f)).inverse = some MAi ∧
      Cone cat02M MAi (fun k j => cat02Q.get k j) (fun k j => (qInv cat02Q).get k j) 1.56 := by
  rcases hf with rfl | rfl <;> exact coneInvCheck_sound (by krefl)

theorem cone_vonKries {f : Fmt} [Libm f] (hf : f = Fmt.b32 ∨ f = Fmt.b64) :
    Cone (vonKriesM : Matrix33 (FP f)) vonKriesMInv (fun k j => vonKriesQ.get k j)
      (fun k j => vonKriesQInv.get k j) 3.21 := by
  rcases hf with rfl | rfl <;> exact coneCheck_sound (by krefl)

end CS
