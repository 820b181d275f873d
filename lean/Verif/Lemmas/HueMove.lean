import Verif.Lemmas.HslBack

/-!
# Turning the hue does not enlarge differences much
-/

namespace D10

/-- Between two hues a sixth of a turn apart. -/
theorem turn_between (u p : ℝ) (p0 : 0 ≤ p) (p1 : p ≤ 1) :
    (1 ≤ turn u + turn (u + 1 / 6) ∧ turn (u + p / 6) = min 1 (min (turn u + p) (turn (u + 1 / 6) + (1 - p)))) ∨
    (turn u + turn (u + 1 / 6) ≤ 1 ∧ (turn u = 0 ∨ turn (u + 1 / 6) = 0) ∧
      turn (u + p / 6) = max 0 (max (turn u - p) (turn (u + 1 / 6) - (1 - p)))) := by
  have h0 := turn_fract_add u 0
  rw [add_zero, add_zero] at h0
  rw [← h0, ← turn_fract_add u (1 / 6), ← turn_fract_add u (p / 6)]
  have f0 := Int.fract_nonneg u
  have f1 := Int.fract_lt_one u
  generalize Int.fract u = v at *
  rw [turn_wheel (t := v) (by linarith) (by linarith), turn_wheel (t := v + 1 / 6) (by linarith) (by linarith),
    turn_wheel (t := v + p / 6) (by linarith) (by linarith)]
  rcases le_total v (1 / 6) with a | a
  · rw [wheel_up f0 a, wheel_top (t := v + 1 / 6) (by linarith) (by linarith)]
    refine Or.inl ⟨by linarith, ?_⟩
    rcases le_total (v + p / 6) (1 / 6) with b | b
    · rw [wheel_up (by linarith) b, min_def, min_def]; split_ifs <;> linarith
    · rw [wheel_top b (by linarith), min_def, min_def]; split_ifs <;> linarith
  rcases le_total v (1 / 3) with b | b
  · rw [wheel_top a (by linarith), wheel_top (t := v + 1 / 6) (by linarith) (by linarith),
      wheel_top (t := v + p / 6) (by linarith) (by linarith)]
    refine Or.inl ⟨by linarith, ?_⟩
    rw [min_def, min_def]; split_ifs <;> linarith
  rcases le_total v (1 / 2) with c | c
  · rw [wheel_top a c, wheel_down (t := v + 1 / 6) (by linarith) (by linarith)]
    refine Or.inl ⟨by linarith, ?_⟩
    rcases le_total (v + p / 6) (1 / 2) with d | d
    · rw [wheel_top (by linarith) d, min_def, min_def]; split_ifs <;> linarith
    · rw [wheel_down d (by linarith), min_def, min_def]; split_ifs <;> linarith
  rcases le_total v (2 / 3) with d | d
  · rw [wheel_down c d, wheel_none (t := v + 1 / 6) (by linarith) (by linarith)]
    refine Or.inr ⟨by linarith, Or.inr rfl, ?_⟩
    rcases le_total (v + p / 6) (2 / 3) with e | e
    · rw [wheel_down (by linarith) e, max_def, max_def]; split_ifs <;> linarith
    · rw [wheel_none e (by linarith), max_def, max_def]; split_ifs <;> linarith
  rcases le_total v (5 / 6) with e | e
  · rw [wheel_none d f1.le, wheel_none (t := v + 1 / 6) (by linarith) (by linarith),
      wheel_none (t := v + p / 6) (by linarith) (by linarith)]
    refine Or.inr ⟨by linarith, Or.inl rfl, ?_⟩
    rw [max_def, max_def]; split_ifs <;> linarith
  · rw [wheel_none d f1.le, wheel_pred (t := v + 1 / 6) (by linarith) (by linarith),
      wheel_up (t := v + 1 / 6 - 1) (by linarith) (by linarith)]
    refine Or.inr ⟨by linarith, Or.inl rfl, ?_⟩
    rcases le_total (v + p / 6) 1 with g | g
    · rw [wheel_none (by linarith) g, max_def, max_def]; split_ifs <;> linarith
    · rw [wheel_pred g (by linarith), wheel_up (by linarith) (by linarith), max_def, max_def]; split_ifs <;> linarith

/-- The other side of the wheel. -/
theorem turn_half (u : ℝ) : turn (u + 1 / 2) = 1 - turn u := by
  have h0 := turn_fract_add u 0
  rw [add_zero, add_zero] at h0
  rw [← h0, ← turn_fract_add u (1 / 2)]
  have f0 := Int.fract_nonneg u
  have f1 := Int.fract_lt_one u
  generalize Int.fract u = v at *
  rw [turn_wheel (t := v) (by linarith) (by linarith), turn_wheel (t := v + 1 / 2) (by linarith) (by linarith)]
  rcases le_total v (1 / 6) with a | a
  · rw [wheel_up f0 a, wheel_down (by linarith) (by linarith)]; ring
  rcases le_total v (1 / 2) with c | c
  · rw [wheel_top a c, wheel_none (by linarith) (by linarith)]; ring
  rw [wheel_pred (t := v + 1 / 2) (by linarith) (by linarith)]
  rcases le_total v (2 / 3) with d | d
  · rw [wheel_down c d, wheel_up (by linarith) (by linarith)]; ring
  · rw [wheel_none d f1.le, wheel_top (by linarith) (by linarith)]; ring

theorem turn_thirds (k : ℤ) : ∃ i : ℝ, (i = 1 / 3 ∨ i = 0 ∨ i = -(1 / 3)) ∧ ∀ t, turn (t + k / 3) = turn (t + i) := by
  have e : (k : ℝ) = ((k / 3 : ℤ) : ℝ) * 3 + ((k % 3 : ℤ) : ℝ) := by
    have := Int.mul_ediv_add_emod k 3
    exact_mod_cast (show k = k / 3 * 3 + k % 3 by omega)
  have r : k % 3 = 0 ∨ k % 3 = 1 ∨ k % 3 = 2 := by omega
  rcases r with r | r | r <;> rw [r] at e
  · refine ⟨0, Or.inr (Or.inl rfl), fun t => ?_⟩
    rw [show t + (k : ℝ) / 3 = t + 0 + ((k / 3 : ℤ) : ℝ) by rw [e]; push_cast; ring, turn_add_int]
  · refine ⟨1 / 3, Or.inl rfl, fun t => ?_⟩
    rw [show t + (k : ℝ) / 3 = t + 1 / 3 + ((k / 3 : ℤ) : ℝ) by rw [e]; push_cast; ring, turn_add_int]
  · refine ⟨-(1 / 3), Or.inr (Or.inr rfl), fun t => ?_⟩
    rw [show t + (k : ℝ) / 3 = t + -(1 / 3) + ((k / 3 + 1 : ℤ) : ℝ) by rw [e]; push_cast; ring, turn_add_int]

/-- Sixths of a turn lead to another channel, or to the opposite of one. -/
theorem turn_sixths (j : ℤ) : ∃ i : ℝ, (i = 1 / 3 ∨ i = 0 ∨ i = -(1 / 3)) ∧
    ((∀ t, turn (t + j / 6) = turn (t + i)) ∨ (∀ t, turn (t + j / 6) = 1 - turn (t + i))) := by
  rcases Int.even_or_odd' j with ⟨k, e | e⟩
  · obtain ⟨i, hi, h⟩ := turn_thirds k
    refine ⟨i, hi, Or.inl fun t => ?_⟩
    rw [← h t, e]; congr 1; push_cast; ring
  · obtain ⟨i, hi, h⟩ := turn_thirds (k - 1)
    refine ⟨i, hi, Or.inr fun t => ?_⟩
    rw [← h t, ← turn_half, e]; congr 1; push_cast; ring

private theorem min_move {a b c a' b' c' e : ℝ} (h1 : |a - a'| ≤ e) (h2 : |b - b'| ≤ e) (h3 : |c - c'| ≤ e) :
    |min a (min b c) - min a' (min b' c')| ≤ e :=
  (abs_min_sub_min_le_max _ _ _ _).trans (max_le h1 ((abs_min_sub_min_le_max _ _ _ _).trans (max_le h2 h3)))

private theorem max_move {a b c a' b' c' e : ℝ} (h1 : |a - a'| ≤ e) (h2 : |b - b'| ≤ e) (h3 : |c - c'| ≤ e) :
    |max a (max b c) - max a' (max b' c')| ≤ e :=
  (abs_max_sub_max_le_max _ _ _ _).trans (max_le h1 ((abs_max_sub_max_le_max _ _ _ _).trans (max_le h2 h3)))

/-- One channel between two hues a sixth of a turn apart, for two colours. -/
theorem between_move {D D' u u' p e : ℝ} (p0 : 0 ≤ p) (p1 : p ≤ 1) (d0 : 0 ≤ D) (d0' : 0 ≤ D') (hD : |D - D'| ≤ e)
    (h1 : |D * turn u - D' * turn u'| ≤ e) (h2 : |D * turn (u + 1 / 6) - D' * turn (u' + 1 / 6)| ≤ e) :
    |D * turn (u + p / 6) - D' * turn (u' + p / 6)| ≤ 5 * e := by
  have e0 : 0 ≤ e := (abs_nonneg _).trans hD
  have up : ∀ {D a b : ℝ}, 0 ≤ D → D * min 1 (min (a + p) (b + (1 - p))) = min D (min (D * a + p * D) (D * b + (1 - p) * D)) := by
    intro D a b h
    rw [mul_min_of_nonneg _ _ h, mul_min_of_nonneg _ _ h, mul_one, mul_add, mul_add, mul_comm D p, mul_comm D (1 - p)]
  have low : ∀ {D a b : ℝ}, 0 ≤ D → D * max 0 (max (a - p) (b - (1 - p))) = max 0 (max (D * a - p * D) (D * b - (1 - p) * D)) := by
    intro D a b h
    rw [mul_max_of_nonneg _ _ h, mul_max_of_nonneg _ _ h, mul_zero, mul_sub, mul_sub, mul_comm D p, mul_comm D (1 - p)]
  obtain ⟨a0, a1⟩ := turn_range u
  obtain ⟨b0, b1⟩ := turn_range (u + 1 / 6)
  obtain ⟨a0', a1'⟩ := turn_range u'
  obtain ⟨b0', b1'⟩ := turn_range (u' + 1 / 6)
  have x0 := mul_nonneg d0 a0
  have y0 := mul_nonneg d0 b0
  have x0' := mul_nonneg d0' a0'
  have y0' := mul_nonneg d0' b0'
  have x1 := mul_le_mul_of_nonneg_left a1 d0
  have y1 := mul_le_mul_of_nonneg_left b1 d0
  have x1' := mul_le_mul_of_nonneg_left a1' d0'
  have y1' := mul_le_mul_of_nonneg_left b1' d0'
  rw [mul_one] at x1 y1 x1' y1'
  have hDp : |p * D - p * D'| ≤ e := by
    rw [← mul_sub, abs_mul, abs_of_nonneg p0]
    exact (mul_le_of_le_one_left (abs_nonneg _) p1).trans hD
  have hDq : |(1 - p) * D - (1 - p) * D'| ≤ e := by
    rw [← mul_sub, abs_mul, abs_of_nonneg (by linarith)]
    exact (mul_le_of_le_one_left (abs_nonneg _) (by linarith)).trans hD
  have pD := mul_nonneg p0 d0
  have pD' := mul_nonneg p0 d0'
  have qD := mul_nonneg (by linarith : 0 ≤ 1 - p) d0
  have qD' := mul_nonneg (by linarith : 0 ≤ 1 - p) d0'
  have both : ∀ {a b c d : ℝ}, |a - b| ≤ e → |c - d| ≤ e → |(a + c) - (b + d)| ≤ 2 * e ∧ |(a - c) - (b - d)| ≤ 2 * e := by
    intro a b c d h1 h2
    rw [abs_le] at h1 h2
    refine ⟨?_, ?_⟩ <;> rw [abs_le] <;> constructor <;> linarith
  have U := min_move (e := 2 * e) (hD.trans (by linarith)) (both h1 hDp).1 (both h2 hDq).1
  have L := max_move (e := 2 * e) (a := 0) (a' := 0) (by rw [sub_self, abs_zero]; linarith) (both h1 hDp).2 (both h2 hDq).2
  have LU : ∀ {D x y : ℝ}, 0 ≤ D → 0 ≤ x → 0 ≤ y → x ≤ D → y ≤ D →
      max 0 (max (x - p * D) (y - (1 - p) * D)) ≤ min D (min (x + p * D) (y + (1 - p) * D)) := by
    intro D x y d0 x0 y0 x1 y1
    have := mul_nonneg p0 d0
    have := mul_nonneg (by linarith : 0 ≤ 1 - p) d0
    refine max_le (le_min d0 (le_min (by linarith) (by linarith))) (max_le ?_ ?_) <;>
      refine le_min (by linarith) (le_min ?_ ?_) <;> linarith
  have UL : ∀ {D x y : ℝ}, 0 ≤ D → 0 ≤ x → 0 ≤ y → (x = 0 ∨ y = 0) →
      min D (min (x + p * D) (y + (1 - p) * D)) ≤ max 0 (max (x - p * D) (y - (1 - p) * D)) + (D - x - y) := by
    intro D x y d0 x0 y0 h
    rcases h with h | h
    · have h1 : min D (min (x + p * D) (y + (1 - p) * D)) ≤ x + p * D := (min_le_right _ _).trans (min_le_left _ _)
      have h2 : y - (1 - p) * D ≤ max 0 (max (x - p * D) (y - (1 - p) * D)) := (le_max_right _ _).trans (le_max_right _ _)
      linarith
    · have h1 : min D (min (x + p * D) (y + (1 - p) * D)) ≤ y + (1 - p) * D := (min_le_right _ _).trans (min_le_right _ _)
      have h2 : x - p * D ≤ max 0 (max (x - p * D) (y - (1 - p) * D)) := (le_max_left _ _).trans (le_max_right _ _)
      linarith
  have sum : ∀ {D a b : ℝ}, 0 ≤ D → 1 ≤ a + b → D ≤ D * a + D * b := by
    intro D a b h1 h2
    have := mul_le_mul_of_nonneg_left h2 h1
    linarith
  have zero : ∀ {D a b : ℝ}, (a = 0 ∨ b = 0) → D * a = 0 ∨ D * b = 0 := by
    intro D a b h
    rcases h with h | h <;> rw [h] <;> simp
  have lu := LU d0 x0 y0 x1 y1
  have lu' := LU d0' x0' y0' x1' y1'
  rw [abs_le] at U L hD h1 h2
  rcases turn_between u p p0 p1 with ⟨s, e1⟩ | ⟨s, z, e1⟩ <;> rcases turn_between u' p p0 p1 with ⟨s', e2⟩ | ⟨s', z', e2⟩ <;> rw [e1, e2]
  · rw [up d0, up d0', abs_le]; constructor <;> linarith
  · have a := sum d0 s
    have ul := UL d0' x0' y0' (zero (D := D') z')
    rw [up d0, low d0', abs_le]; constructor <;> linarith
  · have a := sum d0' s'
    have ul := UL d0 x0 y0 (zero (D := D) z)
    rw [low d0, up d0', abs_le]; constructor <;> linarith
  · rw [low d0, low d0', abs_le]; constructor <;> linarith

/-- One channel after a turn, for two colours that differ by at most `ε + η`. -/
theorem wheel_move {m M m' M' t t' ε η : ℝ} (hD : m ≤ M) (hD' : m' ≤ M') (hη : 0 ≤ η) (hm : |m - m'| ≤ ε) (hM : |M - M'| ≤ ε)
    (hc : ∀ i : ℝ, (i = 1 / 3 ∨ i = 0 ∨ i = -(1 / 3)) →
      |m + (M - m) * turn (t + i) - (m' + (M' - m') * turn (t' + i))| ≤ ε + η) (s : ℝ) :
    |m + (M - m) * turn (t + s) - (m' + (M' - m') * turn (t' + s))| ≤ 11 * ε + 5 * η := by
  have at6 : ∀ j : ℤ, |(M - m) * turn (t + j / 6) - (M' - m') * turn (t' + j / 6)| ≤ 2 * ε + η := by
    intro j
    obtain ⟨i, hi, h⟩ := turn_sixths j
    have a := abs_le.1 (hc i hi)
    rw [abs_le] at hm hM
    rcases h with h | h <;> rw [h t, h t', abs_le] <;> constructor <;> linarith
  have e : s = (⌊6 * s⌋ : ℝ) / 6 + Int.fract (6 * s) / 6 := by
    have := Int.floor_add_fract (6 * s)
    linarith
  have p0 := Int.fract_nonneg (6 * s)
  have p1 := (Int.fract_lt_one (6 * s)).le
  have b := between_move (D := M - m) (D' := M' - m') (u := t + (⌊6 * s⌋ : ℝ) / 6) (u' := t' + (⌊6 * s⌋ : ℝ) / 6) (e := 2 * ε + η)
    p0 p1 (by linarith) (by linarith) (by rw [abs_le] at *; constructor <;> linarith) (at6 _) (by
      have := at6 (⌊6 * s⌋ + 1)
      push_cast at this
      rw [show t + ((⌊6 * s⌋ : ℝ) + 1) / 6 = t + (⌊6 * s⌋ : ℝ) / 6 + 1 / 6 by ring,
        show t' + ((⌊6 * s⌋ : ℝ) + 1) / 6 = t' + (⌊6 * s⌋ : ℝ) / 6 + 1 / 6 by ring] at this
      exact this)
  rw [add_assoc, add_assoc, ← e] at b
  rw [abs_le] at *
  constructor <;> linarith

end D10
