import Verif.Model.Show
import Verif.Lemmas.FPOrder
import Std.Data.String.ToNat
import Std.Data.String.ToInt

/-! # Printed texts can be taken apart again; lexicographic comparison -/

namespace CS

/-- Two texts cut at the first occurrence of a character. -/
theorem cut {ch : Char} {a b x y : List Char} (ha : ch ∉ a) (hb : ch ∉ b)
    (h : a ++ ch :: x = b ++ ch :: y) : a = b ∧ x = y := by
  induction a generalizing b with
  | nil =>
    cases b with
    | nil => simpa using h
    | cons c b =>
      simp only [List.nil_append, List.cons_append, List.cons.injEq] at h
      exact absurd h.1 fun e => hb (by simp [e])
  | cons c a ih =>
    cases b with
    | nil =>
      simp only [List.nil_append, List.cons_append, List.cons.injEq] at h
      exact absurd h.1 fun e => ha (by simp [e])
    | cons d b =>
      simp only [List.cons_append, List.cons.injEq] at h
      obtain ⟨p, q⟩ := ih (fun m => ha (List.mem_cons_of_mem _ m)) (fun m => hb (List.mem_cons_of_mem _ m)) h.2
      exact ⟨by rw [h.1, p], q⟩

theorem toList_eq {a b : String} (h : a.toList = b.toList) : a = b := String.toList_inj.1 h

/-- A text is cut at the first comma. -/
theorem cut_comma {a b x y : String} (ha : ',' ∉ a.toList) (hb : ',' ∉ b.toList)
    (h : a ++ (", " ++ x) = b ++ (", " ++ y)) : a = b ∧ x = y := by
  have h' := congrArg String.toList h
  simp only [String.toList_append] at h'
  have e : (", " : String).toList = [',', ' '] := rfl
  rw [e] at h'
  simp only [List.cons_append, List.nil_append] at h'
  obtain ⟨p, q⟩ := cut ha hb h'
  simp only [List.cons.injEq, true_and] at q
  exact ⟨toList_eq p, toList_eq q⟩

/-- A text is cut at the first closing parenthesis. -/
theorem cut_paren {a b x y : String} (ha : ')' ∉ a.toList) (hb : ')' ∉ b.toList)
    (h : a ++ (")" ++ x) = b ++ (")" ++ y)) : a = b ∧ x = y := by
  have h' := congrArg String.toList h
  simp only [String.toList_append] at h'
  have e : (")" : String).toList = [')'] := rfl
  rw [e] at h'
  simp only [List.cons_append, List.nil_append] at h'
  obtain ⟨p, q⟩ := cut ha hb h'
  exact ⟨toList_eq p, toList_eq q⟩

/-- A common beginning is removed. -/
theorem cut_left {a x y : String} (h : a ++ x = a ++ y) : x = y := by
  have h' := congrArg String.toList h
  simp only [String.toList_append] at h'
  exact toList_eq (List.append_cancel_left h')

/-- A common end is removed. -/
theorem cut_right {a x y : String} (h : x ++ a = y ++ a) : x = y := by
  have h' := congrArg String.toList h
  simp only [String.toList_append] at h'
  exact toList_eq (List.append_cancel_right h')

theorem triple_inj {x y z x' y' z' : String} (hx : ',' ∉ x.toList) (hy : ',' ∉ y.toList)
    (hx' : ',' ∉ x'.toList) (hy' : ',' ∉ y'.toList) (h : triple x y z = triple x' y' z') :
    x = x' ∧ y = y' ∧ z = z' := by
  unfold triple at h
  simp only [String.append_assoc] at h
  have h1 := cut_left h
  obtain ⟨p, h2⟩ := cut_comma hx hx' h1
  obtain ⟨q, h3⟩ := cut_comma hy hy' h2
  exact ⟨p, q, cut_right h3⟩

/-- Texts of items that are each closed by a comma. -/
theorem items_inj {l m : List String} (hl : ∀ s ∈ l, ',' ∉ s.toList) (hm : ∀ s ∈ m, ',' ∉ s.toList)
    (h : displayItems l = displayItems m) : l = m := by
  induction l generalizing m with
  | nil =>
    cases m with
    | nil => rfl
    | cons t m =>
      exfalso
      have h' := congrArg String.toList h
      simp only [displayItems, String.toList_append] at h'
      have : ',' ∈ ("]" : String).toList := by rw [h']; simp
      revert this; decide
  | cons s l ih =>
    cases m with
    | nil =>
      exfalso
      have h' := congrArg String.toList h
      simp only [displayItems, String.toList_append] at h'
      have : ',' ∈ ("]" : String).toList := by rw [← h']; simp
      revert this; decide
    | cons t m =>
      simp only [displayItems, String.append_assoc] at h
      obtain ⟨p, q⟩ := cut_comma (hl s (by simp)) (hm t (by simp)) h
      rw [p, ih (fun s hs => hl s (by simp [hs])) (fun s hs => hm s (by simp [hs])) q]

theorem digit_ne {n : ℕ} {ch : Char} (h : ch.isDigit = false) : ch ∉ n.repr.toList := by
  intro m
  rw [Nat.toList_repr] at m
  rw [Nat.isDigit_of_mem_toDigits (by norm_num) (by norm_num) m] at h
  cases h

/-! ## Comparison -/

/-- What a comparison and an equality must satisfy to be combined field by field. -/
structure GoodCmp {α : Type} (c : α → α → Option Ordering) (e : α → α → Bool) : Prop where
  eq_iff : ∀ a b, c a b = some .eq ↔ e a b = true
  swap : ∀ a b, c b a = (c a b).map Ordering.swap
  trans : ∀ a b d, c a b = some .lt → c b d = some .lt → c a d = some .lt
  left : ∀ a b d, c a b = some .eq → c a d = c b d

theorem GoodCmp.right {α : Type} {c : α → α → Option Ordering} {e : α → α → Bool} (g : GoodCmp c e) (a b d : α)
    (h : c a b = some .eq) : c d a = c d b := by
  rw [g.swap a d, g.swap b d, g.left a b d h]

theorem GoodCmp.then {α β γ : Type} {c : β → β → Option Ordering} {e : β → β → Bool}
    {c' : γ → γ → Option Ordering} {e' : γ → γ → Bool} (g : GoodCmp c e) (g' : GoodCmp c' e') (p : α → β) (q : α → γ) :
    GoodCmp (fun a b => cmpThen (c (p a) (p b)) (c' (q a) (q b))) (fun a b => e (p a) (p b) && e' (q a) (q b)) where
  eq_iff a b := by
    rw [Bool.and_eq_true, ← g.eq_iff, ← g'.eq_iff]
    rcases h : c (p a) (p b) with _ | _ | _ | _ <;> simp [cmpThen]
  swap a b := by
    rw [g.swap (p a) (p b), g'.swap (q a) (q b)]
    rcases h : c (p a) (p b) with _ | _ | _ | _ <;> simp [cmpThen]
  trans a b d h1 h2 := by
    rcases h : c (p a) (p b) with _ | _ | _ | _ <;> rw [h] at h1 <;> simp only [cmpThen, reduceCtorEq, Option.some.injEq] at h1
    · rcases k : c (p b) (p d) with _ | _ | _ | _ <;> rw [k] at h2 <;> simp only [cmpThen, reduceCtorEq, Option.some.injEq] at h2
      · rw [g.trans _ _ _ h k]; rfl
      · rw [← g.right _ _ _ k, h]; rfl
    · rw [g.left _ _ _ h]
      rcases k : c (p b) (p d) with _ | _ | _ | _ <;> rw [k] at h2 <;> simp only [cmpThen, reduceCtorEq, Option.some.injEq] at h2 ⊢
      exact g'.trans _ _ _ h1 h2
  left a b d h1 := by
    rcases h : c (p a) (p b) with _ | _ | _ | _ <;> rw [h] at h1 <;> simp only [cmpThen, reduceCtorEq, Option.some.injEq] at h1
    rw [g.left _ _ _ h, g'.left _ _ _ h1]

theorem partialCmp_ext {f : Fmt} [Libm f] (a b : FP f) :
    partialCmp a b = match a.ext, b.ext with
      | some x, some y => some (if x < y then .lt else if x = y then .eq else .gt)
      | _, _ => none := by
  unfold partialCmp
  show (if FP.eqb a b = true then _ else if FP.lt a b = true then _ else if FP.lt b a = true then _ else _) = _
  unfold FP.eqb FP.lt
  cases ha : a.ext <;> cases hb : b.ext <;> simp only [Bool.false_eq_true, ↓reduceIte, decide_eq_true_eq]
  rename_i x y
  rcases lt_trichotomy x y with h | h | h
  · simp [h, h.ne]
  · simp [h]
  · simp [h, h.ne', h.not_gt]

theorem good_fp {f : Fmt} [Libm f] : GoodCmp (partialCmp (T := FP f)) (Flt.eqb (T := FP f)) where
  eq_iff a b := by
    unfold partialCmp
    by_cases h : Flt.eqb a b = true
    · simp [h]
    · simp only [h, Bool.false_eq_true, ↓reduceIte, iff_false]
      split_ifs <;> simp
  swap a b := by
    simp only [partialCmp_ext]
    cases ha : a.ext <;> cases hb : b.ext <;> simp only [Option.map_none, Option.map_some]
    rename_i x y
    rcases lt_trichotomy x y with h | h | h
    · simp [h, h.ne', h.not_gt]
    · simp [h]
    · simp [h, h.ne', h.not_gt]
  trans a b d h1 h2 := by
    simp only [partialCmp_ext] at h1 h2 ⊢
    cases ha : a.ext <;> cases hb : b.ext <;> cases hd : d.ext <;> rw [ha, hb] at h1 <;> rw [hb, hd] at h2 <;>
      simp only [reduceCtorEq] at h1 h2
    rename_i x y z
    have l1 : x < y := by by_contra h; simp only [h, ↓reduceIte, Option.some.injEq] at h1; split_ifs at h1
    have l2 : y < z := by by_contra h; simp only [h, ↓reduceIte, Option.some.injEq] at h2; split_ifs at h2
    simp [l1.trans l2]
  left a b d h1 := by
    simp only [partialCmp_ext] at h1 ⊢
    cases ha : a.ext <;> cases hb : b.ext <;> rw [ha, hb] at h1 <;> simp only [reduceCtorEq] at h1
    rename_i x y
    have l1 : x = y := by
      by_contra h; simp only [h, ↓reduceIte, Option.some.injEq] at h1; split_ifs at h1
    rw [l1]

theorem good_nat : GoodCmp (fun a b : ℕ => some (compare a b)) (fun a b => a == b) where
  eq_iff a b := by simp
  swap a b := by simp [Nat.compare_swap]
  trans a b d h1 h2 := by
    simp only [Option.some.injEq, Nat.compare_eq_lt] at h1 h2 ⊢
    omega
  left a b d h1 := by
    simp only [Option.some.injEq, Nat.compare_eq_eq] at h1
    rw [h1]

end CS
