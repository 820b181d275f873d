import Verif.Props.Histogram

/-!
# C139: stretching the contrast again
-/

namespace D10
open Spec
open Scalar (lit)

variable [Junk]

/-- The mean of the channels of a gray. -/
theorem gray_plain {c : Col ℝ} (h1 : c.c1 = c.c0) (h2 : c.c2 = c.c0) : gray c = c.c0 := by
  unfold gray
  ex_simp
  rw [h1, h2]
  ring

/-- What stretching does with a value. -/
noncomputable def Spec.stretched (b w v : ℝ) : ℝ := max 0 (min 1 ((v - b) / (w - b)))

/-- A picture of grays is stretched value by value. -/
theorem stretch_gray {c : Col ℝ} {b w : ℝ} (h : 1 / 8388608 ≤ w - b) (h1 : c.c1 = c.c0) (h2 : c.c2 = c.c0) :
    Rgb.with_level c b w (lit 1) = ⟨stretched b w c.c0, stretched b w c.c0, stretched b w c.c0, c.alpha⟩ := by
  obtain ⟨e0, e1, e2, e3⟩ := C45_channel b w h c
  rw [h1] at e1
  rw [h2] at e2
  show (⟨_, _, _, _⟩ : Col ℝ) = _
  unfold stretched
  rw [← e0, ← e3]
  congr 1
  · exact e1.trans e0.symm
  · exact e2.trans e0.symm

omit [Junk] in
theorem shows_same {T : Type} {a b : PixelBuffer T} {w h px} (s : Shows a w h px) (t : Shows b w h px) : a = b := by
  rcases a with ⟨_, _, _⟩
  rcases b with ⟨_, _, _⟩
  have e1 := s.width.trans t.width.symm
  have e2 := s.height.trans t.height.symm
  have e3 := s.pixels.trans t.pixels.symm
  simp only at e1 e2 e3
  rw [e1, e2, e3]

omit [Junk] in
theorem countP_map_mono {vs : List ℝ} {f : ℝ → ℝ} {p q : ℝ → Bool} (h : ∀ v ∈ vs, p v = true → q (f v) = true) :
    vs.countP p ≤ (vs.map f).countP q := by
  rw [List.countP_map]
  exact List.countP_mono_left h

/-- **After stretching.** The white point of a stretched gray picture is 1. Its black point need not be 0, but it is at most
`1 / (255 (w - b))`, where `b` and `w` are the points before: the width of a level after stretching. -/
theorem C139_after {b : PixelBuffer (Col ℝ)} {w h px} (sh : Shows b w h px) (w0 : 0 < w) (h0 : 0 < h)
    (hu : ∀ x y, x < w → y < h → Spec.Unit (px x y) ∧ (px x y).c1 = (px x y).c0 ∧ (px x y).c2 = (px x y).c0) {t : ℝ} (ht : t < 1000) :
    ∃ bp wp b' px', IsBlackPoint (rows w h fun x y => (px x y).c0) (t / 1000) bp ∧
      IsWhitePoint (rows w h fun x y => (px x y).c0) (t / 1000) wp ∧
      stretch_contrast b t = .ok b' ∧ Shows b' w h px' ∧
      (bp < wp → (∀ x y, x < w → y < h → px' x y = ⟨stretched bp wp (px x y).c0, stretched bp wp (px x y).c0, stretched bp wp (px x y).c0, (px x y).alpha⟩) ∧
        IsWhitePoint (rows w h fun x y => (px' x y).c0) (t / 1000) 1 ∧
        ∃ p, IsBlackPoint (rows w h fun x y => (px' x y).c0) (t / 1000) p ∧ 0 ≤ p ∧ p ≤ 1 / (255 * (wp - bp)) ∧
          ((∀ x y, x < w → y < h → (px x y).c0 ≤ bp ∨ bp + 1 / 255 ≤ (px x y).c0) → p = 0 ∧ stretch_contrast b' t = .ok b')) := by
  obtain ⟨bp, wp, b', hb, hw, e, s'⟩ := C45_stretch_contrast sh t
  have tl : (t /. lit 1000 : ℝ) = t / 1000 := by ex_simp
  have gr : (rows w h fun x y => gray (px x y)) = rows w h fun x y => (px x y).c0 :=
    rows_congr fun x y hx hy => gray_plain (hu x y hx hy).2.1 (hu x y hx hy).2.2
  rw [tl, gr] at hb hw
  refine ⟨bp, wp, b', _, hb, hw, e, s', fun lt => ?_⟩
  have len : (rows w h fun x y => (px x y).c0).length = w * h := rows_length ..
  have hne : (rows w h fun x y => (px x y).c0) ≠ [] := by
    intro z
    rw [z] at len
    have := Nat.mul_pos w0 h0
    simp at len
    omega
  have t1 : t / 1000 < 1 := by linarith
  obtain ⟨k, hk, rfl, k1, -⟩ := (C45_black_point _ hne _ _ t1).1 hb
  obtain ⟨m, hm, rfl, m1, -⟩ := (C45_white_point _ hne _ _ t1).1 hw
  have km : k < m := by
    have : (k : ℝ) < m := by
      have := (div_lt_div_iff_of_pos_right (by norm_num : (0 : ℝ) < 255)).1 lt
      exact this
    exact_mod_cast this
  have km1 : (k : ℝ) + 1 ≤ m := by exact_mod_cast km
  have gap : 1 / 255 ≤ (m : ℝ) / 255 - k / 255 := by linarith
  have gp : (0 : ℝ) < (m : ℝ) / 255 - k / 255 := by linarith
  have pix : ∀ x y, x < w → y < h → (if (lit 0 <. (k / 255 : ℝ)) = true ∨ ((m / 255 : ℝ) <. lit 1) = true
        then Rgb.with_level (px x y) (k / 255) (m / 255) (lit 1) else px x y) =
      ⟨stretched (k / 255) (m / 255) (px x y).c0, stretched (k / 255) (m / 255) (px x y).c0,
        stretched (k / 255) (m / 255) (px x y).c0, (px x y).alpha⟩ := by
    intro x y hx hy
    obtain ⟨u, g1, g2⟩ := hu x y hx hy
    split
    · exact stretch_gray (by linarith) g1 g2
    · rename_i hc
      rw [not_or, Exact.lt, Exact.lt, Exact.lit, Exact.lit] at hc
      push_cast at hc
      have k0 : (k : ℝ) / 255 = 0 := le_antisymm (not_lt.1 hc.1) (by positivity)
      have m255 : (m : ℝ) / 255 = 1 := by
        have : (m : ℝ) ≤ 255 := by exact_mod_cast Nat.le_of_lt_succ hm
        exact le_antisymm (by linarith) (not_lt.1 hc.2)
      have st : stretched (k / 255) (m / 255) (px x y).c0 = (px x y).c0 := by
        unfold stretched
        rw [k0, m255, sub_zero, sub_zero, div_one, min_eq_right u.r1, max_eq_right u.r0]
      rw [st]
      show (⟨_, _, _, _⟩ : Col ℝ) = _
      congr 1
  have vs' : (rows w h fun x y => (if (lit 0 <. (k / 255 : ℝ)) = true ∨ ((m / 255 : ℝ) <. lit 1) = true
        then Rgb.with_level (px x y) (k / 255) (m / 255) (lit 1) else px x y).c0) =
      (rows w h fun x y => (px x y).c0).map (stretched (k / 255) (m / 255)) := by
    rw [rows_map]
    exact rows_congr fun x y hx hy => by rw [pix x y hx hy]
  have mem : ∀ v ∈ (rows w h fun x y => (px x y).c0), 0 ≤ v ∧ v ≤ 1 := by
    intro v hv
    obtain ⟨y, hy, hv⟩ := List.mem_flatMap.1 hv
    obtain ⟨x, hx, rfl⟩ := List.mem_map.1 hv
    have hx := List.mem_range.1 hx
    have hy := List.mem_range.1 hy
    exact ⟨(hu x y hx hy).1.r0, (hu x y hx hy).1.r1⟩
  have rng : ∀ v, 0 ≤ stretched (k / 255) (m / 255) v ∧ stretched (k / 255) (m / 255) v ≤ 1 := fun v =>
    ⟨le_max_left _ _, max_le zero_le_one (min_le_left _ _)⟩
  have hne' : (rows w h fun x y => (px x y).c0).map (stretched (k / 255) (m / 255)) ≠ [] := by simpa using hne
  have white : t / 1000 * (((rows w h fun x y => (px x y).c0).map (stretched (k / 255) (m / 255))).length : ℝ) <
      (((rows w h fun x y => (px x y).c0).map (stretched (k / 255) (m / 255))).countP (255 ≤ levelDown ·) : ℝ) := by
    rw [List.length_map]
    refine lt_of_lt_of_le m1 ?_
    have := countP_map_mono (vs := rows w h fun x y => (px x y).c0) (f := stretched (k / 255) (m / 255))
      (p := fun v => decide (m ≤ levelDown v)) (q := fun v => decide (255 ≤ levelDown v)) (by
        intro v hv hl
        have hl := of_decide_eq_true hl
        have e1 := levelDown_eq v (mem v hv).1 (mem v hv).2
        have : (m : ℤ) ≤ ⌊255 * v⌋ := by rw [← e1]; exact_mod_cast hl
        have : (m : ℝ) ≤ 255 * v := by exact_mod_cast Int.le_floor.1 this
        have one : stretched (k / 255) (m / 255) v = 1 := by
          unfold stretched
          rw [min_eq_left ((one_le_div gp).2 (by linarith)), max_eq_right zero_le_one]
        rw [one, five_levels.2.2]
        rfl)
    exact_mod_cast this
  refine ⟨pix, ?_, ?_⟩
  · rw [vs']
    exact (C45_white_point _ hne' _ _ t1).2 ⟨255, by norm_num, by norm_num, white, fun j a b => by omega⟩
  · obtain ⟨p, q, b'', hp, hq, e'', s''⟩ := C45_stretch_contrast s' t
    rw [tl] at hp hq
    have gr' : (rows w h fun x y => gray (if (lit 0 <. (k / 255 : ℝ)) = true ∨ ((m / 255 : ℝ) <. lit 1) = true
        then Rgb.with_level (px x y) (k / 255) (m / 255) (lit 1) else px x y)) =
        rows w h fun x y => (if (lit 0 <. (k / 255 : ℝ)) = true ∨ ((m / 255 : ℝ) <. lit 1) = true
        then Rgb.with_level (px x y) (k / 255) (m / 255) (lit 1) else px x y).c0 :=
      rows_congr fun x y hx hy => gray_plain (by rw [pix x y hx hy]) (by rw [pix x y hx hy])
    rw [gr'] at hp hq
    refine ⟨p, hp, ?_⟩
    rw [vs'] at hp
    obtain ⟨n, hn, rfl, -, n2⟩ := (C45_black_point _ hne' _ _ t1).1 hp
    refine ⟨by positivity, ?_, fun hv => ?_⟩
    swap
    · have z0 : n = 0 := by
        by_contra hc
        have := n2 0 (by omega)
        rw [List.length_map] at this
        refine absurd this (not_le.2 (lt_of_lt_of_le k1 ?_))
        have := countP_map_mono (vs := rows w h fun x y => (px x y).c0) (f := stretched (k / 255) (m / 255))
          (p := fun v => decide (levelDown v ≤ k)) (q := fun v => decide (levelDown v ≤ 0)) (by
            intro v hv' hl
            have hl := of_decide_eq_true hl
            have e1 := levelDown_eq v (mem v hv').1 (mem v hv').2
            have : ⌊255 * v⌋ < (k : ℤ) + 1 := by rw [← e1]; exact_mod_cast Nat.lt_succ_of_le hl
            have lt : 255 * v < (k : ℝ) + 1 := by
              have := Int.floor_lt.1 this
              exact_mod_cast this
            have low : v ≤ k / 255 := by
              obtain ⟨y, hy, hv'⟩ := List.mem_flatMap.1 hv'
              obtain ⟨x, hx, rfl⟩ := List.mem_map.1 hv'
              rcases hv x y (List.mem_range.1 hx) (List.mem_range.1 hy) with z | z
              · exact z
              · linarith
            have st : stretched (k / 255) (m / 255) v = 0 := by
              unfold stretched
              exact max_eq_left ((min_le_right _ _).trans (div_nonpos_of_nonpos_of_nonneg (by linarith) gp.le))
            rw [st, five_levels.1]
            rfl)
        exact_mod_cast this
      subst z0
      refine ⟨by norm_num, ?_⟩
      rw [vs'] at hq
      obtain ⟨i, hi, rfl, -, i2⟩ := (C45_white_point _ hne' _ _ t1).1 hq
      have i255 : i = 255 := by
        by_contra hc
        have := i2 255 (by omega) (by norm_num)
        exact absurd this (not_le.2 white)
      subst i255
      rw [e'']
      have c1 : (lit 0 <. (((0 : ℕ) : ℝ) / 255)) = false := by rw [← Bool.not_eq_true, Exact.lt, Exact.lit]; norm_num
      have c2 : ((((255 : ℕ) : ℝ) / 255) <. lit 1) = false := by rw [← Bool.not_eq_true, Exact.lt, Exact.lit]; norm_num
      simp only [c1, c2, Bool.false_eq_true, or_self, if_false] at s''
      rw [shows_same s'' s']
    by_contra hc
    rw [not_le] at hc
    have big : 1 / ((m : ℝ) / 255 - k / 255) < n := by
      rw [div_lt_div_iff₀ (by positivity) (by norm_num)] at hc
      rw [div_lt_iff₀ gp]
      linarith
    have n0 : 0 < n := by
      have : (0 : ℝ) < n := lt_trans (by positivity) big
      exact_mod_cast this
    have := n2 (n - 1) (by omega)
    rw [List.length_map] at this
    refine absurd this (not_le.2 (lt_of_lt_of_le k1 ?_))
    have := countP_map_mono (vs := rows w h fun x y => (px x y).c0) (f := stretched (k / 255) (m / 255))
      (p := fun v => decide (levelDown v ≤ k)) (q := fun v => decide (levelDown v ≤ n - 1)) (by
        intro v hv hl
        have hl := of_decide_eq_true hl
        have e1 := levelDown_eq v (mem v hv).1 (mem v hv).2
        have : ⌊255 * v⌋ < (k : ℤ) + 1 := by rw [← e1]; exact_mod_cast Nat.lt_succ_of_le hl
        have lt : 255 * v < (k : ℝ) + 1 := by
          have := Int.floor_lt.1 this
          exact_mod_cast this
        have st : 255 * stretched (k / 255) (m / 255) v < n := by
          unfold stretched
          have n1 : (0 : ℝ) < n := by exact_mod_cast n0
          rcases le_total ((v - k / 255) / (m / 255 - k / 255)) 0 with z | z
          · rw [max_eq_left ((min_le_right _ _).trans z)]; linarith
          · refine lt_of_le_of_lt ?_ big
            have : max 0 (min 1 ((v - k / 255) / ((m : ℝ) / 255 - k / 255))) ≤ (v - k / 255) / (m / 255 - k / 255) :=
              max_le z (min_le_right _ _)
            refine (mul_le_mul_of_nonneg_left this (by norm_num)).trans ?_
            rw [← mul_div_assoc]
            exact div_le_div_of_nonneg_right (by linarith) gp.le
        have e2 := levelDown_eq _ (rng v).1 (rng v).2
        have : ⌊255 * stretched (k / 255) (m / 255) v⌋ < (n : ℤ) := Int.floor_lt.2 (by exact_mod_cast st)
        rw [← e2] at this
        exact decide_eq_true (by omega))
    exact_mod_cast this

/-- The picture of two grays, 3/8 and 5/8. -/
noncomputable def twoGrays : Nat → Nat → Col ℝ := fun x _ => if x = 0 then ⟨3 / 8, 3 / 8, 3 / 8, 1⟩ else ⟨5 / 8, 5 / 8, 5 / 8, 1⟩

theorem two_levels : levelDown (3 / 8 : ℝ) = 95 ∧ levelDown (5 / 8 : ℝ) = 159 := by
  have h1 := levelDown_eq (3 / 8) (by norm_num) (by norm_num)
  have h2 := levelDown_eq (5 / 8) (by norm_num) (by norm_num)
  have f1 : ⌊(255 : ℝ) * (3 / 8)⌋ = 95 := by rw [Int.floor_eq_iff]; norm_num
  have f2 : ⌊(255 : ℝ) * (5 / 8)⌋ = 159 := by rw [Int.floor_eq_iff]; norm_num
  rw [f1] at h1
  rw [f2] at h2
  exact ⟨by exact_mod_cast h1, by exact_mod_cast h2⟩

omit [Junk] in
theorem twoGrays_values : (rows 2 1 fun x y => (twoGrays x y).c0) = [3 / 8, 5 / 8] := by
  simp [rows, twoGrays, List.range_succ]

theorem two_points {u v : ℝ} {k m : ℕ} (hu : levelDown u = k) (hv : levelDown v = m) (hm : m < 256) (km : k < m) {p q : ℝ}
    (hp : IsBlackPoint [u, v] 0 p) (hq : IsWhitePoint [u, v] 0 q) : p = k / 255 ∧ q = m / 255 := by
  obtain ⟨i, hi, rfl, i1, i2⟩ := (C45_black_point _ (by simp) 0 p (by norm_num)).1 hp
  obtain ⟨j, hj, rfl, j1, j2⟩ := (C45_white_point _ (by simp) 0 q (by norm_num)).1 hq
  simp only [List.countP_cons, List.countP_nil, hu, hv, decide_eq_true_eq, zero_mul, zero_add] at i1 i2 j1 j2
  have e1 : i = k := by
    rcases lt_trichotomy i k with h | h | h
    · rw [if_neg (by omega), if_neg (by omega)] at i1; norm_num at i1
    · exact h
    · have := i2 k h
      rw [if_neg (by omega), if_pos le_rfl] at this
      norm_num at this
  have e2 : j = m := by
    rcases lt_trichotomy j m with h | h | h
    · have := j2 m h hm
      rw [if_pos le_rfl, if_neg (by omega)] at this
      norm_num at this
    · exact h
    · rw [if_neg (by omega), if_neg (by omega)] at j1; norm_num at j1
  exact ⟨by rw [e1], by rw [e2]⟩

/-- **Not the same twice.** The darker of two grays is at level 95 of 255, but above the beginning of that level; stretched
with threshold 0 it becomes 5/512, level 2, and stretching again makes it darker. -/
theorem C139_again (b : PixelBuffer (Col ℝ)) (sh : Shows b 2 1 twoGrays) :
    ∃ b' b'', stretch_contrast b 0 = .ok b' ∧ stretch_contrast b' 0 = .ok b'' ∧
      b'.get_pixel 0 0 = .ok ⟨5 / 512, 5 / 512, 5 / 512, 1⟩ ∧
      b''.get_pixel 0 0 = .ok ⟨251 / 129536, 251 / 129536, 251 / 129536, 1⟩ := by
  have gu : ∀ {c : Col ℝ} {v : ℝ}, 0 ≤ v → v ≤ 1 → c = ⟨v, v, v, 1⟩ → Spec.Unit c ∧ c.c1 = c.c0 ∧ c.c2 = c.c0 := by
    rintro _ v v0 v1 rfl
    exact ⟨⟨v0, v1, v0, v1, v0, v1, by norm_num, by norm_num⟩, rfl, rfl⟩
  obtain ⟨bp, wp, b', px', hb, hw, e, s', hf⟩ := C139_after sh (by norm_num) (by norm_num) (t := 0) (by
    intro x y _ _
    unfold twoGrays
    split
    · exact gu (by norm_num) (by norm_num) rfl
    · exact gu (by norm_num) (by norm_num) rfl) (by norm_num)
  rw [twoGrays_values, zero_div] at hb hw
  obtain ⟨rfl, rfl⟩ := two_points two_levels.1 two_levels.2 (by norm_num) (by norm_num) hb hw
  have pix := (hf (by norm_num)).1
  have p0 : px' 0 0 = ⟨5 / 512, 5 / 512, 5 / 512, 1⟩ := by
    rw [pix 0 0 (by norm_num) (by norm_num)]
    norm_num [stretched, twoGrays]
  have p1 : px' 1 0 = ⟨1, 1, 1, 1⟩ := by
    rw [pix 1 0 (by norm_num) (by norm_num)]
    norm_num [stretched, twoGrays]
  obtain ⟨bq, wq, b'', px'', hb', hw', e', s'', hf'⟩ := C139_after s' (by norm_num) (by norm_num) (t := 0) (by
    intro x y hx hy
    obtain rfl : y = 0 := by omega
    rcases (by omega : x = 0 ∨ x = 1) with rfl | rfl
    · exact gu (by norm_num) (by norm_num) p0
    · exact gu (by norm_num) (by norm_num) p1) (by norm_num)
  have vals : (rows 2 1 fun x y => (px' x y).c0) = [5 / 512, 1] := by
    simp [rows, List.range_succ, p0, p1]
  have l0 : levelDown (5 / 512 : ℝ) = 2 := by
    have h1 := levelDown_eq (5 / 512) (by norm_num) (by norm_num)
    have f1 : ⌊(255 : ℝ) * (5 / 512)⌋ = 2 := by rw [Int.floor_eq_iff]; norm_num
    rw [f1] at h1
    exact_mod_cast h1
  rw [vals, zero_div] at hb' hw'
  obtain ⟨rfl, rfl⟩ := two_points l0 five_levels.2.2 (by norm_num) (by norm_num) hb' hw'
  have q0 : px'' 0 0 = ⟨251 / 129536, 251 / 129536, 251 / 129536, 1⟩ := by
    rw [(hf' (by norm_num)).1 0 0 (by norm_num) (by norm_num), p0]
    norm_num [stretched]
  refine ⟨b', b'', e, e', ?_, ?_⟩
  · rw [C03_get_pixel s', if_pos (by norm_num), p0]
  · rw [C03_get_pixel s'', if_pos (by norm_num), q0]

/-! ## The hypotheses can be met -/

/-- There is such a picture. -/
example : Shows (⟨2, 1, rows 2 1 twoGrays⟩ : PixelBuffer (Col ℝ)) 2 1 twoGrays := ⟨rfl, rfl, .inr (by norm_num), rfl⟩

/-- And one with no value within the level of its black point: 1/5, which is 51/255, and 3/5. -/
example : levelDown (1 / 5 : ℝ) = 51 ∧ ((1 / 5 : ℝ) ≤ 51 / 255 ∧ (51 : ℝ) / 255 + 1 / 255 ≤ 3 / 5) := by
  have h1 := levelDown_eq (1 / 5) (by norm_num) (by norm_num)
  have f1 : ⌊(255 : ℝ) * (1 / 5)⌋ = 51 := by rw [Int.floor_eq_iff]; norm_num
  rw [f1] at h1
  exact ⟨by exact_mod_cast h1, by norm_num, by norm_num⟩

end D10
