import Verif.Model.Space
import Mathlib.Data.List.Basic
import Mathlib.Data.List.Nodup
import Mathlib.Tactic.Ring
import Mathlib.Tactic.Linarith

/-! # Lemmas about the planar conversion loops -/

namespace CS

/-- Writing `g j` at each index `j` of a list of indices. -/
theorem foldl_set_getElem? {α : Type} (g : ℕ → α) (L : List ℕ) (r : List α) (j : ℕ) :
    (L.foldl (fun r j => r.set j (g j)) r)[j]? =
      if j ∈ L ∧ j < r.length then some (g j) else r[j]? := by
  induction L generalizing r with
  | nil => simp
  | cons a L ih =>
    simp only [List.foldl_cons]
    rw [ih]
    simp only [List.length_set, List.mem_cons]
    by_cases h1 : j ∈ L ∧ j < r.length
    · rw [if_pos h1, if_pos ⟨Or.inr h1.1, h1.2⟩]
    · rw [if_neg h1]
      by_cases h2 : j = a
      · subst h2
        by_cases h3 : j < r.length
        · rw [if_pos ⟨Or.inl rfl, h3⟩]; simp [h3]
        · rw [if_neg (by simp [h3])]
          rw [List.getElem?_eq_none (by simpa using not_lt.1 h3),
            List.getElem?_eq_none (by simpa using not_lt.1 h3)]
      · rw [List.getElem?_set_ne (Ne.symm h2)]
        rw [if_neg (by tauto)]

theorem foldl_set_length {α : Type} (g : ℕ → α) (L : List ℕ) (r : List α) :
    (L.foldl (fun r j => r.set j (g j)) r).length = r.length := by
  induction L generalizing r with
  | nil => rfl
  | cons a L ih => simp [ih]

theorem idx_getD {α : Type} {l : List α} {i : ℕ} (h : i < l.length) (d : α) :
    idx l i = .ok (l.getD i d) := by
  simp [idx, List.getElem?_eq_getElem h, List.getD]

/-- A monadic loop whose body always succeeds is the pure loop. -/
theorem foldlM_ok {α β : Type} (f : β → α → Res β) (g : β → α → β) (L : List α) (b : β)
    (h : ∀ b, ∀ a ∈ L, f b a = .ok (g b a)) : L.foldlM f b = .ok (L.foldl g b) := by
  induction L generalizing b with
  | nil => rfl
  | cons a L ih =>
    rw [List.foldlM_cons, h b a (by simp)]
    exact ih _ (fun b a ha => h b a (List.mem_cons_of_mem _ ha))

variable {T : Type} [Add T] [Sub T] [Mul T] [Div T] [Neg T] [Flt T]

/-- What the planar conversion computes, element by element, in any arithmetic. -/
theorem planes_spec (W : ℕ) (fma : T → T → T → T) (m : Matrix33 T)
    (xs ys zs : List T) (hy : ys.length = xs.length) (hz : zs.length = xs.length) (d : T) :
    ∃ res, xyzPlanesToRgb W fma m xs ys zs = .ok res ∧ res.length = xs.length ∧
      ∀ i, i < xs.length → res[i]? = some (
        if xs.length - xs.length / W ≤ i then planeTail m (xs.getD i d) (ys.getD i d) (zs.getD i d)
        else if i < xs.length / W * W then
          planeKernel fma m (xs.getD i d) (ys.getD i d) (zs.getD i d)
        else (Flt.zero, Flt.zero, Flt.zero)) := by
  set n := xs.length with hn
  set k := n / W with hk
  have hkW : k * W ≤ n := Nat.div_mul_le_self n W
  let kern : ℕ → T × T × T := fun j => planeKernel fma m (xs.getD j d) (ys.getD j d) (zs.getD j d)
  let tail : ℕ → T × T × T := fun j => planeTail m (xs.getD j d) (ys.getD j d) (zs.getD j d)
  let r0 : List (T × T × T) := List.replicate n (Flt.zero, Flt.zero, Flt.zero)
  let idxs : List ℕ := (List.range k).flatMap fun i => (List.range W).map fun l => i * W + l
  have hmem : ∀ j, j ∈ idxs ↔ j < k * W := by
    intro j
    simp only [idxs, List.mem_flatMap, List.mem_range, List.mem_map]
    constructor
    · rintro ⟨i, hi, l, hl, rfl⟩
      calc i * W + l < i * W + W := by omega
        _ = (i + 1) * W := by ring
        _ ≤ k * W := Nat.mul_le_mul_right _ hi
    · intro h
      have hW : 0 < W := by
        rcases Nat.eq_zero_or_pos W with h0 | h0
        · subst h0; simp at h
        · exact h0
      refine ⟨j / W, (Nat.div_lt_iff_lt_mul hW).2 h, j % W, Nat.mod_lt _ hW, ?_⟩
      rw [mul_comm]; exact Nat.div_add_mod j W
  let r1 := idxs.foldl (fun r j => r.set j (kern j)) r0
  have hr1 : (List.range k).foldlM (fun res i =>
      (List.range W).foldlM (fun res l => do
        let x ← idx xs (i * W + l)
        let y ← idx ys (i * W + l)
        let z ← idx zs (i * W + l)
        (Except.ok (res.set (i * W + l) (planeKernel fma m x y z)) : Res _)) res) r0
      = .ok r1 := by
    have e1 : r1 = (List.range k).foldl (fun res i =>
        (List.range W).foldl (fun res l => res.set (i * W + l) (kern (i * W + l))) res) r0 := by
      simp only [r1, idxs, List.foldl_flatMap, List.foldl_map]
    rw [e1]
    apply foldlM_ok
    intro b i hi
    apply foldlM_ok
    intro b l hl
    have hlt : i * W + l < n := by
      have h1 : i < k := List.mem_range.1 hi
      have h2 : l < W := List.mem_range.1 hl
      calc i * W + l < i * W + W := by omega
        _ = (i + 1) * W := by ring
        _ ≤ k * W := Nat.mul_le_mul_right _ h1
        _ ≤ n := hkW
    rw [idx_getD (l := xs) hlt d, idx_getD (l := ys) (by rw [hy]; exact hlt) d,
      idx_getD (l := zs) (by rw [hz]; exact hlt) d]
    rfl
  let rest := (xs.drop (n - k)).zip ((ys.drop (n - k)).zip (zs.drop (n - k)))
  have hrl : rest.length = n - (n - k) := by
    simp [rest, hy, hz, ← hn]
  let tidx : List ℕ := (List.range rest.length).map fun t => n - k + t
  have htm : ∀ j, j ∈ tidx ↔ n - k ≤ j ∧ j < n := by
    intro j
    simp only [tidx, List.mem_map, List.mem_range, hrl]
    constructor
    · rintro ⟨t, ht, rfl⟩; omega
    · rintro ⟨h1, h2⟩; exact ⟨j - (n - k), by omega, by omega⟩
  let r2 := tidx.foldl (fun r j => r.set j (tail j)) r1
  have hr2 : rest.zipIdx.foldl (fun res p =>
      res.set (n - k + p.2) (planeTail m p.1.1 p.1.2.1 p.1.2.2)) r1 = r2 := by
    have e : rest.zipIdx.map (fun p => (n - k + p.2, planeTail m p.1.1 p.1.2.1 p.1.2.2))
        = (List.range rest.length).map fun t => (n - k + t, tail (n - k + t)) := by
      apply List.ext_getElem
      · simp
      · intro t h1 h2
        have ht : t < rest.length := by simpa using h2
        simp only [List.getElem_map, List.getElem_zipIdx, List.getElem_range, Nat.zero_add,
          Prod.mk.injEq, true_and]
        have hb : n - k + t < n := by omega
        simp only [tail, rest, List.getElem_zip, List.getElem_drop, List.getD]
        rw [List.getElem?_eq_getElem (by omega), List.getElem?_eq_getElem (by omega),
          List.getElem?_eq_getElem (by omega)]
        rfl
    have e2 : rest.zipIdx.foldl (fun res p =>
        res.set (n - k + p.2) (planeTail m p.1.1 p.1.2.1 p.1.2.2)) r1 =
        (rest.zipIdx.map (fun p => (n - k + p.2, planeTail m p.1.1 p.1.2.1 p.1.2.2))).foldl
          (fun r q => r.set q.1 q.2) r1 := by rw [List.foldl_map]
    rw [e2, e, List.foldl_map]
    simp only [r2, tidx, List.foldl_map]
  refine ⟨r2, ?_, ?_, ?_⟩
  · unfold xyzPlanesToRgb
    simp only [← hn, ← hk]
    exact (congrArg (fun r => r >>= _) hr1).trans (congrArg Except.ok hr2)
  · simp only [r2, foldl_set_length, r1, r0, List.length_replicate]
  · intro i hi
    have hl1 : r1.length = n := by simp only [r1, foldl_set_length, r0, List.length_replicate]
    simp only [r2]
    rw [foldl_set_getElem?, hl1]
    by_cases h1 : n - k ≤ i
    · rw [if_pos ⟨(htm i).2 ⟨h1, hi⟩, hi⟩, if_pos h1]
    · rw [if_neg (by rw [htm]; tauto), if_neg h1]
      simp only [r1]
      rw [foldl_set_getElem?]
      by_cases h2 : i < k * W
      · rw [if_pos ⟨(hmem i).2 h2, by simpa [r0] using hi⟩, if_pos h2]
      · rw [if_neg (by rw [hmem]; tauto), if_neg h2]
        simp only [r0]
        rw [List.getElem?_replicate, if_pos hi]

end CS
