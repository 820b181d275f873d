import Mathlib.Algebra.Order.Archimedean.Real.Basic
import Mathlib.Algebra.Order.Floor.Ring
import Mathlib.Tactic.Linarith
import Mathlib.Tactic.Ring

/-!
# Interpolation along a line changes slowly with the position

`lin` and `cub` are the linear and the cubic interpolation of values at the integers.
-/

namespace D10

/-- Linear interpolation. -/
noncomputable def lin (f : ℤ → ℝ) (x : ℝ) : ℝ := f ⌊x⌋ + (f (⌊x⌋ + 1) - f ⌊x⌋) * Int.fract x

/-- The cubic between `b` and `c`. -/
noncomputable def poly (a b c d t : ℝ) : ℝ :=
  (-a / 2 + 3 * b / 2 - 3 * c / 2 + d / 2) * t * t * t + (a - 5 * b / 2 + 2 * c - d / 2) * t * t +
    (-a / 2 + c / 2) * t + b

/-- Cubic interpolation. -/
noncomputable def cub (f : ℤ → ℝ) (x : ℝ) : ℝ :=
  poly (f (⌊x⌋ - 1)) (f ⌊x⌋) (f (⌊x⌋ + 1)) (f (⌊x⌋ + 2)) (Int.fract x)

/-- The weights of the four values. -/
theorem poly_weights (a b c d t : ℝ) : poly a b c d t =
    a * (-(t * (1 - t) ^ 2) / 2) + b * ((1 - t) * (2 + 2 * t - 3 * t ^ 2) / 2) +
      c * (t * (1 + 4 * t - 3 * t ^ 2) / 2) + d * (-(t ^ 2 * (1 - t)) / 2) := by
  unfold poly; ring

theorem poly_sub {a b c d a' b' c' d' t e : ℝ} (h0 : 0 ≤ t) (h1 : t ≤ 1) (ha : |a - a'| ≤ e)
    (hb : |b - b'| ≤ e) (hc : |c - c'| ≤ e) (hd : |d - d'| ≤ e) :
    |poly a b c d t - poly a' b' c' d' t| ≤ 5 / 4 * e := by
  have he : 0 ≤ e := (abs_nonneg _).trans ha
  rw [abs_le] at *
  have w0 : 0 ≤ t * (1 - t) ^ 2 / 2 := by positivity
  have w3 : 0 ≤ t ^ 2 * (1 - t) / 2 := by
    have : 0 ≤ 1 - t := by linarith
    positivity
  have w1 : 0 ≤ (1 - t) * (2 + 2 * t - 3 * t ^ 2) / 2 := by
    have : 0 ≤ 1 - t := by linarith
    have : 0 ≤ 2 + 2 * t - 3 * t ^ 2 := by nlinarith
    positivity
  have w2 : 0 ≤ t * (1 + 4 * t - 3 * t ^ 2) / 2 := by
    have : 0 ≤ 1 + 4 * t - 3 * t ^ 2 := by nlinarith
    positivity
  have sum : t * (1 - t) ^ 2 / 2 + t ^ 2 * (1 - t) / 2 + (1 - t) * (2 + 2 * t - 3 * t ^ 2) / 2 +
      t * (1 + 4 * t - 3 * t ^ 2) / 2 ≤ 5 / 4 := by nlinarith [sq_nonneg (2 * t - 1)]
  have key : poly a b c d t - poly a' b' c' d' t =
      -(a - a') * (t * (1 - t) ^ 2 / 2) + (b - b') * ((1 - t) * (2 + 2 * t - 3 * t ^ 2) / 2) +
        (c - c') * (t * (1 + 4 * t - 3 * t ^ 2) / 2) - (d - d') * (t ^ 2 * (1 - t) / 2) := by
    rw [poly_weights, poly_weights]; ring
  rw [key]
  generalize t * (1 - t) ^ 2 / 2 = p at *
  generalize t ^ 2 * (1 - t) / 2 = q at *
  generalize (1 - t) * (2 + 2 * t - 3 * t ^ 2) / 2 = r at *
  generalize t * (1 + 4 * t - 3 * t ^ 2) / 2 = s at *
  have tot : (p + q + r + s) * e ≤ 5 / 4 * e := mul_le_mul_of_nonneg_right sum he
  constructor
  · nlinarith [mul_le_mul_of_nonneg_right ha.2 w0, mul_le_mul_of_nonneg_right hb.1 w1,
      mul_le_mul_of_nonneg_right hc.1 w2, mul_le_mul_of_nonneg_right hd.2 w3]
  · nlinarith [mul_le_mul_of_nonneg_right ha.1 w0, mul_le_mul_of_nonneg_right hb.2 w1,
      mul_le_mul_of_nonneg_right hc.2 w2, mul_le_mul_of_nonneg_right hd.1 w3]

theorem poly_const (c t : ℝ) : poly c c c c t = c := by unfold poly; ring
theorem poly_zero (a b c d : ℝ) : poly a b c d 0 = b := by unfold poly; ring
theorem poly_one (a b c d : ℝ) : poly a b c d 1 = c := by unfold poly; ring

/-- The slope between two positions in the same segment. -/
theorem poly_slope {a b c d s t m R : ℝ} (hs0 : 0 ≤ s) (hs1 : s ≤ 1) (ht0 : 0 ≤ t) (ht1 : t ≤ 1)
    (ha : |a - m| ≤ R) (hb : |b - m| ≤ R) (hc : |c - m| ≤ R) (hd : |d - m| ≤ R) :
    |poly a b c d t - poly a b c d s| ≤ 4 * R * |t - s| := by
  have hR : 0 ≤ R := (abs_nonneg _).trans ha
  have ts0 : 0 ≤ t * s := mul_nonneg ht0 hs0
  have e : poly a b c d t - poly a b c d s =
      (t - s) * ((a - m) * (-(t ^ 2 + t * s + s ^ 2) / 2 + (t + s) - 1 / 2) +
        (b - m) * (3 * (t ^ 2 + t * s + s ^ 2) / 2 - 5 * (t + s) / 2) +
        (c - m) * (-3 * (t ^ 2 + t * s + s ^ 2) / 2 + 2 * (t + s) + 1 / 2) +
        (d - m) * ((t ^ 2 + t * s + s ^ 2) / 2 - (t + s) / 2)) := by
    unfold poly; ring
  rw [e, abs_mul, mul_comm (4 * R)]
  refine mul_le_mul_of_nonneg_left ?_ (abs_nonneg _)
  have k0 : |-(t ^ 2 + t * s + s ^ 2) / 2 + (t + s) - 1 / 2| ≤ 1 / 2 := by
    rw [abs_le]; constructor <;> nlinarith [mul_nonneg ht0 (sub_nonneg.2 ht1), mul_nonneg hs0 (sub_nonneg.2 hs1), mul_nonneg ht0 (sub_nonneg.2 hs1), mul_nonneg hs0 (sub_nonneg.2 ht1), mul_nonneg (sub_nonneg.2 hs1) (sub_nonneg.2 ht1)]
  have k1 : |3 * (t ^ 2 + t * s + s ^ 2) / 2 - 5 * (t + s) / 2| ≤ 3 / 2 := by
    rw [abs_le]; constructor <;> nlinarith [mul_nonneg ht0 (sub_nonneg.2 ht1), mul_nonneg hs0 (sub_nonneg.2 hs1), mul_nonneg ht0 (sub_nonneg.2 hs1), mul_nonneg hs0 (sub_nonneg.2 ht1), mul_nonneg (sub_nonneg.2 hs1) (sub_nonneg.2 ht1), sq_nonneg (t + s - 10 / 9), sq_nonneg (t - s)]
  have k2 : |-3 * (t ^ 2 + t * s + s ^ 2) / 2 + 2 * (t + s) + 1 / 2| ≤ 3 / 2 := by
    rw [abs_le]; constructor <;> nlinarith [mul_nonneg ht0 (sub_nonneg.2 ht1), mul_nonneg hs0 (sub_nonneg.2 hs1), mul_nonneg ht0 (sub_nonneg.2 hs1), mul_nonneg hs0 (sub_nonneg.2 ht1), mul_nonneg (sub_nonneg.2 hs1) (sub_nonneg.2 ht1), sq_nonneg (t + s - 8 / 9), sq_nonneg (t - s)]
  have k3 : |(t ^ 2 + t * s + s ^ 2) / 2 - (t + s) / 2| ≤ 1 / 2 := by
    rw [abs_le]; constructor <;> nlinarith [mul_nonneg ht0 (sub_nonneg.2 ht1), mul_nonneg hs0 (sub_nonneg.2 hs1), mul_nonneg ht0 (sub_nonneg.2 hs1), mul_nonneg hs0 (sub_nonneg.2 ht1), mul_nonneg (sub_nonneg.2 hs1) (sub_nonneg.2 ht1), sq_nonneg (t + s - 1)]
  have p : ∀ {u v w : ℝ}, |u| ≤ R → |v| ≤ w → |u * v| ≤ R * w := by
    intro u v w h1 h2
    rw [abs_mul]; exact mul_le_mul h1 h2 (abs_nonneg _) hR
  have four : ∀ u v w z : ℝ, |u + v + w + z| ≤ |u| + |v| + |w| + |z| := fun u v w z =>
    (abs_add_le _ _).trans (add_le_add ((abs_add_le _ _).trans (add_le_add (abs_add_le _ _) le_rfl)) le_rfl)
  refine (four _ _ _ _).trans ?_
  calc _ ≤ R * (1 / 2) + R * (3 / 2) + R * (3 / 2) + R * (1 / 2) :=
        add_le_add (add_le_add (add_le_add (p ha k0) (p hb k1)) (p hc k2)) (p hd k3)
    _ = 4 * R := by ring

/-- A function that is Lipschitz on every segment between integers, continuous at the integers, and
bounded, is Lipschitz. -/
theorem lipschitz_of_segments {g : ℝ → ℝ} {p : ℤ → ℝ → ℝ} {K : ℝ} (hg : ∀ x, g x = p ⌊x⌋ (Int.fract x))
    (hp : ∀ n s t, 0 ≤ s → s ≤ 1 → 0 ≤ t → t ≤ 1 → |p n t - p n s| ≤ K * |t - s|)
    (hn : ∀ n, p n 1 = p (n + 1) 0) (hK : ∀ x y, |g x - g y| ≤ K) (x y : ℝ) :
    |g x - g y| ≤ K * |x - y| := by
  have K0 : 0 ≤ K := (abs_nonneg _).trans (hK 0 0)
  wlog h : x ≤ y generalizing x y
  · rw [abs_sub_comm, abs_sub_comm x]; exact this y x (by linarith)
  rw [abs_of_nonpos (show x - y ≤ 0 by linarith)]
  by_cases h1 : 1 ≤ y - x
  · refine (hK x y).trans ?_
    nlinarith
  have hx := Int.floor_add_fract x
  have hy := Int.floor_add_fract y
  have fx0 := Int.fract_nonneg x
  have fx1 := (Int.fract_lt_one x).le
  have fy0 := Int.fract_nonneg y
  have fy1 := (Int.fract_lt_one y).le
  have m0 : ⌊x⌋ ≤ ⌊y⌋ := Int.floor_mono h
  have m1 : ⌊y⌋ ≤ ⌊x⌋ + 1 := by
    have : (⌊y⌋ : ℝ) < ((⌊x⌋ + 2 : ℤ) : ℝ) := by push_cast; linarith [Int.fract_lt_one x]
    have := Int.cast_lt.1 this
    omega
  rw [hg, hg]
  rcases (by omega : ⌊y⌋ = ⌊x⌋ ∨ ⌊y⌋ = ⌊x⌋ + 1) with e | e
  · rw [e] at hy ⊢
    have := hp ⌊x⌋ (Int.fract y) (Int.fract x) fy0 fy1 fx0 fx1
    refine this.trans (le_of_eq ?_)
    rw [abs_of_nonpos (by linarith)]
    congr 1
    linarith
  · rw [e] at hy ⊢
    push_cast at hy
    have a := hp ⌊x⌋ 1 (Int.fract x) (by norm_num) le_rfl fx0 fx1
    have b := hp (⌊x⌋ + 1) (Int.fract y) 0 fy0 fy1 le_rfl (by norm_num)
    rw [hn] at a
    rw [abs_of_nonpos (show Int.fract x - 1 ≤ 0 by linarith)] at a
    rw [abs_of_nonpos (show 0 - Int.fract y ≤ 0 by linarith)] at b
    calc |p ⌊x⌋ (Int.fract x) - p (⌊x⌋ + 1) (Int.fract y)|
        = |(p ⌊x⌋ (Int.fract x) - p (⌊x⌋ + 1) 0) + (p (⌊x⌋ + 1) 0 - p (⌊x⌋ + 1) (Int.fract y))| := by ring_nf
      _ ≤ _ := abs_add_le _ _
      _ ≤ _ := add_le_add a b
      _ = K * -(x - y) := by rw [← mul_add]; congr 1; linarith

/-! ## Along a line -/

theorem lin_sub {f g : ℤ → ℝ} {e : ℝ} (h : ∀ i, |f i - g i| ≤ e) (x : ℝ) : |lin f x - lin g x| ≤ e := by
  have a := abs_le.1 (h ⌊x⌋)
  have b := abs_le.1 (h (⌊x⌋ + 1))
  have t0 := Int.fract_nonneg x
  have t1 := (Int.fract_lt_one x).le
  have k : lin f x - lin g x =
      (f ⌊x⌋ - g ⌊x⌋) * (1 - Int.fract x) + (f (⌊x⌋ + 1) - g (⌊x⌋ + 1)) * Int.fract x := by
    unfold lin; ring
  rw [k, abs_le]
  have u := sub_nonneg.2 t1
  constructor
  · nlinarith [mul_le_mul_of_nonneg_right a.1 u, mul_le_mul_of_nonneg_right b.1 t0]
  · nlinarith [mul_le_mul_of_nonneg_right a.2 u, mul_le_mul_of_nonneg_right b.2 t0]

theorem lin_const (c x : ℝ) : lin (fun _ => c) x = c := by unfold lin; ring

theorem lin_range {f : ℤ → ℝ} (h : ∀ i, 0 ≤ f i ∧ f i ≤ 1) (x : ℝ) : 0 ≤ lin f x ∧ lin f x ≤ 1 := by
  have := lin_sub (f := f) (g := fun _ => 1 / 2) (e := 1 / 2)
    (fun i => by rw [abs_le]; constructor <;> linarith [(h i).1, (h i).2]) x
  rw [lin_const, abs_le] at this
  constructor <;> linarith

theorem lin_lipschitz {f : ℤ → ℝ} (h : ∀ i, 0 ≤ f i ∧ f i ≤ 1) (x y : ℝ) :
    |lin f x - lin f y| ≤ |x - y| := by
  have := lipschitz_of_segments (g := lin f) (p := fun n t => f n + (f (n + 1) - f n) * t) (K := 1)
    (fun _ => rfl) (fun n s t _ _ _ _ => by
      have e : f n + (f (n + 1) - f n) * t - (f n + (f (n + 1) - f n) * s) =
        (f (n + 1) - f n) * (t - s) := by ring
      rw [e, abs_mul]
      refine mul_le_mul_of_nonneg_right ?_ (abs_nonneg _)
      rw [abs_le]
      constructor <;> linarith [(h n).1, (h n).2, (h (n + 1)).1, (h (n + 1)).2])
    (fun n => by ring) (fun x y => by
      have a := lin_range h x
      have b := lin_range h y
      rw [abs_le]; constructor <;> linarith) x y
  rwa [one_mul] at this

theorem cub_sub {f g : ℤ → ℝ} {e : ℝ} (h : ∀ i, |f i - g i| ≤ e) (x : ℝ) :
    |cub f x - cub g x| ≤ 5 / 4 * e :=
  poly_sub (Int.fract_nonneg x) (Int.fract_lt_one x).le (h _) (h _) (h _) (h _)

theorem cub_const (c x : ℝ) : cub (fun _ => c) x = c := poly_const _ _

theorem cub_lipschitz {f : ℤ → ℝ} {m R : ℝ} (h : ∀ i, |f i - m| ≤ R) (x y : ℝ) :
    |cub f x - cub f y| ≤ 4 * R * |x - y| := by
  have hR : 0 ≤ R := (abs_nonneg _).trans (h 0)
  refine lipschitz_of_segments (g := cub f)
    (p := fun n t => poly (f (n - 1)) (f n) (f (n + 1)) (f (n + 2)) t) (K := 4 * R) (fun _ => rfl)
    (fun n s t hs0 hs1 ht0 ht1 => poly_slope hs0 hs1 ht0 ht1 (h _) (h _) (h _) (h _))
    (fun n => by rw [poly_one, poly_zero]) (fun x y => ?_) x y
  have a := abs_le.1 (cub_sub (g := fun _ => m) h x)
  have b := abs_le.1 (cub_sub (g := fun _ => m) h y)
  rw [cub_const] at a b
  rw [abs_le]; constructor <;> linarith

/-! ## In the plane -/

theorem lin2_lipschitz {f : ℤ → ℤ → ℝ} (h : ∀ i j, 0 ≤ f i j ∧ f i j ≤ 1) (x y x' y' : ℝ) :
    |lin (fun j => lin (fun i => f i j) x) y - lin (fun j => lin (fun i => f i j) x') y'| ≤
      |x - x'| + |y - y'| := by
  have a : |lin (fun j => lin (fun i => f i j) x) y - lin (fun j => lin (fun i => f i j) x') y| ≤ |x - x'| :=
    lin_sub (fun j => lin_lipschitz (fun i => h i j) x x') y
  have b := lin_lipschitz (f := fun j => lin (fun i => f i j) x')
    (fun j => lin_range (fun i => h i j) x') y y'
  have := abs_add_le (lin (fun j => lin (fun i => f i j) x) y - lin (fun j => lin (fun i => f i j) x') y)
    (lin (fun j => lin (fun i => f i j) x') y - lin (fun j => lin (fun i => f i j) x') y')
  rw [sub_add_sub_cancel] at this
  linarith

theorem cub2_lipschitz {f : ℤ → ℤ → ℝ} (h : ∀ i j, 0 ≤ f i j ∧ f i j ≤ 1) (x y x' y' : ℝ) :
    |cub (fun j => cub (fun i => f i j) x) y - cub (fun j => cub (fun i => f i j) x') y'| ≤
      5 / 2 * (|x - x'| + |y - y'|) := by
  have hc : ∀ i j, |f i j - 1 / 2| ≤ 1 / 2 := fun i j => by
    rw [abs_le]; constructor <;> linarith [(h i j).1, (h i j).2]
  have a : |cub (fun j => cub (fun i => f i j) x) y - cub (fun j => cub (fun i => f i j) x') y| ≤
      5 / 4 * (4 * (1 / 2) * |x - x'|) :=
    cub_sub (fun j => cub_lipschitz (fun i => hc i j) x x') y
  have b := cub_lipschitz (f := fun j => cub (fun i => f i j) x') (m := 1 / 2) (R := 5 / 4 * (1 / 2))
    (fun j => by
      have := cub_sub (g := fun _ => (1 / 2 : ℝ)) (fun i => hc i j) x'
      rwa [cub_const] at this) y y'
  have := abs_add_le (cub (fun j => cub (fun i => f i j) x) y - cub (fun j => cub (fun i => f i j) x') y)
    (cub (fun j => cub (fun i => f i j) x') y - cub (fun j => cub (fun i => f i j) x') y')
  rw [sub_add_sub_cancel] at this
  linarith

end D10
