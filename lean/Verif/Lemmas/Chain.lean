import Verif.SpecChain
import Verif.Props.StoredBytes
import Verif.Props.Numbers
import Verif.Props.Tonal
import Verif.Props.Geometry
import Verif.Props.Codecs
import Verif.Props.HslFloat

/-!
# Lemmas for the same program run with 32-bit and with exact numbers (C127)
-/

namespace D10
open Spec
open Scalar (lit)

section
variable [Libm b32] [Junk]

omit [Libm b32] [Junk] in
theorem Spec.CloseCol.move {t η s : ℝ} {x : Col F32} {y z : Col ℝ} (h : CloseCol η x y) (h0 : |y.c0 - z.c0| ≤ s)
    (h1 : |y.c1 - z.c1| ≤ s) (h2 : |y.c2 - z.c2| ≤ s) (h3 : |y.alpha - z.alpha| ≤ s) (ht : s + η ≤ t) :
    CloseCol t x z := by
  have one : ∀ {v : F32} {p q : ℝ}, Close v p η → |p - q| ≤ s → Close v q t := fun h k =>
    ⟨h.fin, (abs_sub_le _ _ _).trans ((add_le_add h.err k).trans (by linarith))⟩
  exact ⟨one h.c0 h0, one h.c1 h1, one h.c2 h2, one h.alpha h3⟩

omit [Libm b32] [Junk] in
theorem close_exact {c : Col F32} (h : UnitCol c) : CloseCol 0 c (exact c) :=
  ⟨⟨h.c0.1, by simp [exact]⟩, ⟨h.c1.1, by simp [exact]⟩, ⟨h.c2.1, by simp [exact]⟩, ⟨h.alpha.1, by simp [exact]⟩⟩

omit [Libm b32] [Junk] in
theorem exact_unitReal {c : Col F32} (h : UnitCol c) : UnitReal (exact c) :=
  have one : ∀ {v : F32}, v.fin = true ∧ 0 ≤ v.val ∧ v.val ≤ 1 → 0 ≤ (v.val : ℝ) ∧ (v.val : ℝ) ≤ 1 := fun h =>
    ⟨by exact_mod_cast h.2.1, by exact_mod_cast h.2.2⟩
  ⟨one h.c0, one h.c1, one h.c2, one h.alpha⟩

omit [Libm b32] [Junk] in
theorem Spec.UnitReal.unit {c : Col ℝ} (h : UnitReal c) : Spec.Unit c :=
  ⟨h.c0.1, h.c0.2, h.c1.1, h.c1.2, h.c2.1, h.c2.2, h.alpha.1, h.alpha.2⟩

/-- An exact function enlarges differences at most by the factor `L`. -/
def Stretches (L : ℝ) (g : Col ℝ → Col ℝ) : Prop :=
  ∀ t c d, UnitReal c → UnitReal d → |c.c0 - d.c0| ≤ t → |c.c1 - d.c1| ≤ t → |c.c2 - d.c2| ≤ t →
    |c.alpha - d.alpha| ≤ t → |(g c).c0 - (g d).c0| ≤ L * t ∧ |(g c).c1 - (g d).c1| ≤ L * t ∧
      |(g c).c2 - (g d).c2| ≤ L * t ∧ |(g c).alpha - (g d).alpha| ≤ L * t

omit [Libm b32] [Junk] in
/-- A rounding error on each colour and a bound for the exact function give a bound for both. -/
theorem Spec.Follows.of {L η : ℝ} {f : Col F32 → Col F32} {g : Col ℝ → Col ℝ} (h1 : ∀ c, UnitCol c → UnitCol (f c))
    (h2 : ∀ d, UnitReal d → UnitReal (g d)) (h3 : ∀ c, UnitCol c → CloseCol η (f c) (g (exact c)))
    (h4 : Stretches L g) : Follows L η f g where
  range := h1
  range_exact := h2
  close t c d hc hd h := by
    obtain ⟨a, b, e, k⟩ := h4 t (exact c) d (exact_unitReal hc) hd h.c0.err h.c1.err h.c2.err h.alpha.err
    exact (h3 c hc).move a b e k le_rfl

omit [Libm b32] [Junk] in
theorem limit_unit (v : ℝ) : 0 ≤ limit v ∧ limit v ≤ 1 :=
  ⟨le_max_left _ _, max_le zero_le_one (min_le_left _ _)⟩

omit [Libm b32] [Junk] in
theorem each_unit {f : ℝ → ℝ} (hf : ∀ v, 0 ≤ v → v ≤ 1 → 0 ≤ f v ∧ f v ≤ 1) {d : Col ℝ} (h : UnitReal d) : UnitReal (eachChannel f d) :=
  ⟨hf _ h.c0.1 h.c0.2, hf _ h.c1.1 h.c1.2, hf _ h.c2.1 h.c2.2, h.alpha⟩

omit [Libm b32] [Junk] in
theorem each_stretch {f : ℝ → ℝ} {L : ℝ} (hL : 1 ≤ L)
    (hf : ∀ v w, 0 ≤ v → v ≤ 1 → 0 ≤ w → w ≤ 1 → |f v - f w| ≤ L * |v - w|) : Stretches L (eachChannel f) := by
  intro t c d hc hd a b e k
  have t0 := (abs_nonneg _).trans a
  have one : ∀ {v w : ℝ}, 0 ≤ v ∧ v ≤ 1 → 0 ≤ w ∧ w ≤ 1 → |v - w| ≤ t → |f v - f w| ≤ L * t := fun hv hw h =>
    (hf _ _ hv.1 hv.2 hw.1 hw.2).trans (mul_le_mul_of_nonneg_left h (by linarith))
  exact ⟨one hc.c0 hd.c0 a, one hc.c1 hd.c1 b, one hc.c2 hd.c2 e, k.trans (by nlinarith)⟩

theorem limit_sub (a b : ℝ) : |limit a - limit b| ≤ |a - b| := clamp_sub a b

omit [Libm b32] in
theorem chain_invert (d : Col ℝ) : Rgb.invert d = eachChannel (fun v => 1 - v) d := by
  unfold Rgb.invert
  ex_simp
  rfl

omit [Junk] in
theorem unit_close {c : Col F32} {d : Col ℝ} {e : ℝ} (h : PixelInRange c) (k : CloseCol e c d) : UnitCol c :=
  ⟨unit_of h.1.1 (fin_number k.c0.fin), unit_of h.1.2.1 (fin_number k.c1.fin), unit_of h.1.2.2 (fin_number k.c2.fin),
   unit_of h.2 (fin_number k.alpha.fin)⟩

/-! ## Colours -/

theorem follows_invert : Follows 1 (1 / 33554432) Rgb.invert Rgb.invert := by
  refine .of (fun c hc => unit_close ((C118_colours (UnitCol.inRange hc) c (lit 0) (lit 0) (lit 0) .Red id).1 _ (by simp)) (C86_invert c hc))
    (fun d hd => ?_) C86_invert ?_
  · rw [chain_invert]
    exact each_unit (fun v h0 h1 => ⟨by linarith, by linarith⟩) hd
  · intro t c d hc hd a b e k
    rw [chain_invert, chain_invert]
    exact each_stretch le_rfl (fun v w _ _ _ _ => by rw [one_mul, show 1 - v - (1 - w) = w - v by ring, abs_sub_comm]) t c d hc hd a b e k

theorem follows_brightness {b : F32} (hb : b.fin = true) :
    Follows 1 (1 / 16777216) (Rgb.with_brightness · b) (Rgb.with_brightness · b.val) := by
  refine .of (fun c hc => unit_close ((C118_colours (UnitCol.inRange hc) c b (lit 0) (lit 0) .Red id).1 _ (by simp)) (C86_brightness c b hc hb))
    (fun d hd => ?_) (fun c hc => C86_brightness c b hc hb) ?_
  · rw [(C83_brightness_contrast d b.val 0).1]
    exact each_unit (fun v _ _ => limit_unit _) hd
  · intro t c d hc hd
    beta_reduce
    rw [(C83_brightness_contrast c b.val 0).1, (C83_brightness_contrast d b.val 0).1]
    exact each_stretch le_rfl (fun v w _ _ _ _ => (limit_sub _ _).trans (by rw [one_mul]; apply le_of_eq; congr 1; ring)) t c d hc hd

theorem follows_contrast {k : F32} (hk : k.fin = true) :
    Follows (max 1 |(k.val : ℝ)|) ((|(k.val : ℝ)| + 4) / 33554432) (Rgb.with_contrast · k) (Rgb.with_contrast · k.val) := by
  refine .of (fun c hc => unit_close ((C118_colours (UnitCol.inRange hc) c k (lit 0) (lit 0) .Red id).1 _ (by simp)) (C86_contrast c k hc hk))
    (fun d hd => ?_) (fun c hc => C86_contrast c k hc hk) ?_
  · rw [(C83_brightness_contrast d 0 k.val).2.1]
    exact each_unit (fun v _ _ => limit_unit _) hd
  · intro t c d hc hd
    beta_reduce
    rw [(C83_brightness_contrast c 0 k.val).2.1, (C83_brightness_contrast d 0 k.val).2.1]
    refine each_stretch (le_max_left _ _) (fun v w _ _ _ _ => (limit_sub _ _).trans ?_) t c d hc hd
    rw [show (v - 1 / 2) * (k.val : ℝ) + 1 / 2 - ((w - 1 / 2) * k.val + 1 / 2) = k.val * (v - w) by ring, abs_mul]
    exact mul_le_mul_of_nonneg_right (le_max_right _ _) (abs_nonneg _)

theorem follows_brightness_contrast {b k : F32} (hb : b.fin = true) (hb1 : |b.val| ≤ 1) (hk : k.fin = true) :
    Follows (max 1 |(k.val : ℝ)|) ((|(k.val : ℝ)| * 6 + 4) / 33554432) (Rgb.with_brightness_contrast · b k)
      (Rgb.with_brightness_contrast · b.val k.val) := by
  refine .of (fun c hc => unit_close ((C118_colours (UnitCol.inRange hc) c b k (lit 0) .Red id).1 _ (by simp))
      (C86_brightness_contrast c b k hc hb hb1 hk))
    (fun d hd => ?_) (fun c hc => C86_brightness_contrast c b k hc hb hb1 hk) ?_
  · rw [(C83_brightness_contrast d b.val k.val).2.2]
    exact each_unit (fun v _ _ => limit_unit _) hd
  · intro t c d hc hd
    beta_reduce
    rw [(C83_brightness_contrast c b.val k.val).2.2, (C83_brightness_contrast d b.val k.val).2.2]
    refine each_stretch (le_max_left _ _) (fun v w _ _ _ _ => (limit_sub _ _).trans ?_) t c d hc hd
    rw [show (v + (b.val : ℝ) - 1 / 2) * (k.val : ℝ) + 1 / 2 - ((w + b.val - 1 / 2) * k.val + 1 / 2) = k.val * (v - w) by ring, abs_mul]
    exact mul_le_mul_of_nonneg_right (le_max_right _ _) (abs_nonneg _)

omit [Libm b32] [Junk] in
/-- Powers with exponents from 1 are not steeper than their exponent. -/
theorem rpow_steep {x y p : ℝ} (x0 : 0 ≤ x) (x1 : x ≤ 1) (y0 : 0 ≤ y) (y1 : y ≤ 1) (hp : 1 ≤ p) : |x ^ p - y ^ p| ≤ p * |x - y| := by
  wlog h : y ≤ x generalizing x y
  · rw [abs_sub_comm, abs_sub_comm x]
    exact this y0 y1 x0 x1 (by linarith)
  rw [abs_of_nonneg (sub_nonneg.2 (Real.rpow_le_rpow y0 h (by linarith))), abs_of_nonneg (by linarith)]
  rcases x0.eq_or_lt with rfl | xp
  · have : y = 0 := le_antisymm h y0
    subst this; simp
  have b := one_add_mul_self_le_rpow_one_add (s := y / x - 1) (by have := div_nonneg y0 x0; linarith) hp
  rw [show 1 + (y / x - 1) = y / x by ring, Real.div_rpow y0 x0, le_div_iff₀ (Real.rpow_pos_of_pos xp p)] at b
  have s : x ^ p ≤ x := by
    have := Real.rpow_le_rpow_of_exponent_ge xp x1 hp
    rwa [Real.rpow_one] at this
  have q : x ^ p / x ≤ 1 := by rw [div_le_one xp]; exact s
  have e : (1 + p * (y / x - 1)) * x ^ p = x ^ p - p * (x - y) * (x ^ p / x) := by field_simp; ring
  rw [e] at b
  have : p * (x - y) * (x ^ p / x) ≤ p * (x - y) := by
    have : 0 ≤ p * (x - y) := mul_nonneg (by linarith) (by linarith)
    nlinarith
  linarith

/-- Gammas up to 1, which darken. -/
theorem follows_gamma {δ : ℝ} (hL : PowWithin δ) {g : F32} (hg : g.fin = true) (g0 : 1 / 2 ^ 100 ≤ g.val) (g1 : g.val ≤ 1) :
    Follows (1 / (g.val : ℝ)) (δ + 1 / 8388608) (Rgb.with_gamma · g) (Rgb.with_gamma · g.val) := by
  have near := fun c hc => C86_gamma δ hL c g hc hg g0 (g1.trans (by norm_num))
  have pos : (0 : ℝ) < g.val := by
    have : (0 : ℚ) < g.val := lt_of_lt_of_le (by positivity) g0
    exact_mod_cast this
  have big : 1 ≤ 1 / (g.val : ℝ) := by rw [le_div_iff₀ pos, one_mul]; exact_mod_cast g1
  refine .of (fun c hc => unit_close ((C118_colours (UnitCol.inRange hc) c g (lit 0) (lit 0) .Red id).1 _ (by simp)) (near c hc))
    (fun d hd => ?_) near ?_
  · rw [(C83_gamma d g.val pos).1]
    exact each_unit (fun v _ _ => ⟨Real.rpow_nonneg (limit_unit v).1 _, Real.rpow_le_one (limit_unit v).1 (limit_unit v).2 (by linarith)⟩) hd
  · intro t c d hc hd
    beta_reduce
    rw [(C83_gamma c g.val pos).1, (C83_gamma d g.val pos).1]
    refine each_stretch big (fun v w _ _ _ _ => ?_) t c d hc hd
    exact (rpow_steep (limit_unit v).1 (limit_unit v).2 (limit_unit w).1 (limit_unit w).2 big).trans
      (mul_le_mul_of_nonneg_left (limit_sub v w) (by linarith))

omit [Libm b32] [Junk] in
/-- A weighted mean of three differences. -/
theorem mean_diff {a b c p q r : ℝ} (hp : 0 ≤ p) (hq : 0 ≤ q) (hr : 0 ≤ r) {t : ℝ} (ha : |a| ≤ t) (hb : |b| ≤ t) (hc : |c| ≤ t) :
    |p * a + q * b + r * c| ≤ (p + q + r) * t := by
  rw [abs_le] at *
  constructor <;> nlinarith

theorem follows_gray (i : Intensity) (hi : i ≠ .Saturation) :
    Follows 1 (1 / 1048576) (Rgb.to_gray_with_intensity · i) (Rgb.to_gray_with_intensity · i) := by
  have form : ∀ d : Col ℝ, UnitReal d → Rgb.to_gray_with_intensity d i = ⟨intensity d i, intensity d i, intensity d i, d.alpha⟩ := by
    intro d hd
    rw [← (C27_gray_value d hd.unit i).1]
    rfl
  refine .of (fun c hc => unit_close ((C118_colours (UnitCol.inRange hc) c (lit 0) (lit 0) (lit 0) i id).1 _ (by simp)) (C86_gray c i hi hc))
    (fun d hd => ?_) (fun c hc => C86_gray c i hi hc) ?_
  · rw [form d hd]
    have := (C27_gray_value d hd.unit i).2
    exact ⟨this, this, this, hd.alpha⟩
  · intro t c d hc hd a b e k
    beta_reduce
    rw [form c hc, form d hd]
    have key : |intensity c i - intensity d i| ≤ 1 * t := by
      have mx := abs_max_sub_max_le_max c.c0 (max c.c1 c.c2) d.c0 (max d.c1 d.c2)
      have mx' := abs_max_sub_max_le_max c.c1 c.c2 d.c1 d.c2
      have mn := abs_min_sub_min_le_max c.c0 (min c.c1 c.c2) d.c0 (min d.c1 d.c2)
      have mn' := abs_min_sub_min_le_max c.c1 c.c2 d.c1 d.c2
      have M := mx.trans (max_le a (mx'.trans (max_le b e)))
      have N := mn.trans (max_le a (mn'.trans (max_le b e)))
      rw [abs_le] at a b e M N ⊢
      cases i <;> simp only [intensity]
      case Saturation => exact absurd rfl hi
      all_goals constructor <;> linarith
    exact ⟨key, key, key, k.trans (by linarith)⟩

theorem follows_sepia : Follows 1.351 (1 / 1048576) Rgb.with_sepia Rgb.with_sepia := by
  refine .of (fun c hc => unit_close ((C118_colours (UnitCol.inRange hc) c (lit 0) (lit 0) (lit 0) .Red id).1 _ (by simp)) (C86_sepia c hc))
    (fun d hd => ?_) C86_sepia ?_
  · rw [(C83_mix d d).2]
    exact ⟨limit_unit _, limit_unit _, limit_unit _, limit_unit _⟩
  · intro t c d hc hd a b e k
    have t0 := (abs_nonneg _).trans a
    rw [(C83_mix c c).2, (C83_mix d d).2]
    have one : ∀ p q r : ℝ, 0 ≤ p → 0 ≤ q → 0 ≤ r → p + q + r ≤ 1.351 →
        |limit (p * c.c0 + q * c.c1 + r * c.c2) - limit (p * d.c0 + q * d.c1 + r * d.c2)| ≤ 1.351 * t := by
      intro p q r hp hq hr hs
      refine (limit_sub _ _).trans ?_
      rw [show p * c.c0 + q * c.c1 + r * c.c2 - (p * d.c0 + q * d.c1 + r * d.c2) =
        p * (c.c0 - d.c0) + q * (c.c1 - d.c1) + r * (c.c2 - d.c2) by ring]
      exact (mean_diff hp hq hr a b e).trans (mul_le_mul_of_nonneg_right hs t0)
    exact ⟨one _ _ _ (by norm_num) (by norm_num) (by norm_num) (by norm_num),
      one _ _ _ (by norm_num) (by norm_num) (by norm_num) (by norm_num),
      one _ _ _ (by norm_num) (by norm_num) (by norm_num) (by norm_num),
      ((limit_sub _ _).trans k).trans (by norm_num; linarith)⟩

/-! ## Pictures -/

omit [Junk] in
theorem clamped_unit {g : F32} (hg : (clamp01 g).fin = true) : (clamp01 g).fin = true ∧ 0 ≤ (clamp01 g).val ∧ (clamp01 g).val ≤ 1 := by
  refine clamped_chan ?_
  rintro rfl
  have : (clamp01 FP.nan : F32) = FP.nan := by
    unfold clamp01 Scalar.clamp
    rw [LawfulScalar.lt_nan_left _ _ rfl, LawfulScalar.lt_nan_right _ _ rfl]; rfl
  rw [this] at hg
  cases hg

omit [Junk] in
theorem unit_clamped {g : (Col F32 → F32) → F32} {e : ℝ} {d : Col ℝ} (h : CloseCol e (perChannel fun ch => clamp01 (g ch)) d) :
    UnitCol (perChannel fun ch => clamp01 (g ch)) :=
  ⟨clamped_unit h.c0.fin, clamped_unit h.c1.fin, clamped_unit h.c2.fin, clamped_unit h.alpha.fin⟩

omit [Libm b32] in
theorem real_clamped (g : (Col ℝ → ℝ) → ℝ) : UnitReal (perChannel fun ch => clamp01 (g ch)) :=
  ⟨clamp01_unit _, clamp01_unit _, clamp01_unit _, clamp01_unit _⟩

omit [Libm b32] in
/-- Interpolating between two values at most `t` off. -/
theorem lerp_diff {a b a' b' u t : ℝ} (u0 : 0 ≤ u) (u1 : u ≤ 1) (ha : |a - a'| ≤ t) (hb : |b - b'| ≤ t) :
    |lerp a b u - lerp a' b' u| ≤ t := by
  rw [Exact.lerp_eq, Exact.lerp_eq]
  rw [abs_le] at *
  constructor <;> nlinarith

omit [Libm b32] in
/-- Interpolating between four values at most `t` off. -/
theorem cubic_diff {a b c d a' b' c' d' u t : ℝ} (u0 : 0 ≤ u) (u1 : u ≤ 1) (ha : |a - a'| ≤ t) (hb : |b - b'| ≤ t)
    (hc : |c - c'| ≤ t) (hd : |d - d'| ≤ t) : |cubic a b c d u - cubic a' b' c' d' u| ≤ 5 / 4 * t := by
  have t0 := (abs_nonneg _).trans ha
  rw [Exact.cubic_eq, Exact.cubic_eq]
  have e : b + (c - a) / 2 * u + (a - 5 / 2 * b + 2 * c - d / 2) * u ^ 2 + (-a / 2 + 3 / 2 * b - 3 / 2 * c + d / 2) * u ^ 3 -
      (b' + (c' - a') / 2 * u + (a' - 5 / 2 * b' + 2 * c' - d' / 2) * u ^ 2 + (-a' / 2 + 3 / 2 * b' - 3 / 2 * c' + d' / 2) * u ^ 3) =
      -(u * (1 - u) ^ 2 / 2) * (a - a') + (1 - u) * (1 + u - 3 / 2 * u ^ 2) * (b - b') +
        u * (1 / 2 + 2 * u - 3 / 2 * u ^ 2) * (c - c') + -(u ^ 2 * (1 - u) / 2) * (d - d') := by ring
  rw [e]
  have v : 0 ≤ 1 - u := by linarith
  have n1 : 0 ≤ u * (1 - u) ^ 2 / 2 := by positivity
  have n2 : 0 ≤ (1 - u) * (1 + u - 3 / 2 * u ^ 2) := mul_nonneg v (by nlinarith)
  have n3 : 0 ≤ u * (1 / 2 + 2 * u - 3 / 2 * u ^ 2) := mul_nonneg u0 (by nlinarith)
  have n4 : 0 ≤ u ^ 2 * (1 - u) / 2 := by positivity
  have one : ∀ {n p : ℝ}, 0 ≤ n → |p| ≤ t → |n * p| ≤ n * t := fun hn hp => by
    rw [abs_mul, abs_of_nonneg hn]; exact mul_le_mul_of_nonneg_left hp hn
  have m1 := one n1 ha
  have m2 := one n2 hb
  have m3 := one n3 hc
  have m4 := one n4 hd
  have s : u * (1 - u) ^ 2 / 2 + (1 - u) * (1 + u - 3 / 2 * u ^ 2) + u * (1 / 2 + 2 * u - 3 / 2 * u ^ 2) + u ^ 2 * (1 - u) / 2 ≤ 5 / 4 := by
    nlinarith [sq_nonneg (u - 1 / 2)]
  have s' := mul_le_mul_of_nonneg_right s t0
  rw [abs_le] at *
  constructor <;> linarith

/-- All channels of two exact colours are at most `t` apart. -/
def Apart (t : ℝ) (c d : Col ℝ) : Prop :=
  |c.c0 - d.c0| ≤ t ∧ |c.c1 - d.c1| ≤ t ∧ |c.c2 - d.c2| ≤ t ∧ |c.alpha - d.alpha| ≤ t

omit [Libm b32] in
theorem bilinear_diff {w h : Nat} {p q : Nat → Nat → Col ℝ} {t : ℝ} (hw : 0 < w) (hh : 0 < h)
    (hc : ∀ x y, x < w → y < h → Apart t (p x y) (q x y)) (X Y : ℝ) : Apart t (bilinear w h p X Y) (bilinear w h q X Y) := by
  have a : ∀ i j, Apart t (at' w h p i j) (at' w h q i j) := fun i j => by
    unfold at' nearest; exact hc _ _ (by omega) (by omega)
  have fx := Exact.frac_range X
  have fy := Exact.frac_range Y
  have one : ∀ ch : Col ℝ → ℝ, (∀ i j, |ch (at' w h p i j) - ch (at' w h q i j)| ≤ t) →
      let row := fun (p : Nat → Nat → Col ℝ) (dy : Int) =>
        lerp (ch (at' w h p (base X) (base Y + dy))) (ch (at' w h p (base X + 1) (base Y + dy))) (frac X)
      |(clamp01 (lerp (row p 0) (row p 1) (frac Y)) : ℝ) - clamp01 (lerp (row q 0) (row q 1) (frac Y))| ≤ t := by
    intro ch h row
    exact (clamp01_sub _ _).trans (lerp_diff fy.1 fy.2.le (lerp_diff fx.1 fx.2.le (h _ _) (h _ _))
      (lerp_diff fx.1 fx.2.le (h _ _) (h _ _)))
  exact ⟨one _ fun i j => (a i j).1, one _ fun i j => (a i j).2.1, one _ fun i j => (a i j).2.2.1, one _ fun i j => (a i j).2.2.2⟩

omit [Libm b32] in
theorem bicubic_diff {w h : Nat} {p q : Nat → Nat → Col ℝ} {t : ℝ} (hw : 0 < w) (hh : 0 < h)
    (hc : ∀ x y, x < w → y < h → Apart t (p x y) (q x y)) (X Y : ℝ) :
    Apart (25 / 16 * t) (bicubic w h p X Y) (bicubic w h q X Y) := by
  have a : ∀ i j, Apart t (at' w h p i j) (at' w h q i j) := fun i j => by
    unfold at' nearest; exact hc _ _ (by omega) (by omega)
  have fx := Exact.frac_range X
  have fy := Exact.frac_range Y
  have one : ∀ ch : Col ℝ → ℝ, (∀ i j, |ch (at' w h p i j) - ch (at' w h q i j)| ≤ t) →
      let row := fun (p : Nat → Nat → Col ℝ) (dy : Int) =>
        let p' := fun dx : Int => ch (at' w h p (base X + dx) (base Y + dy))
        cubic (p' (-1)) (p' 0) (p' 1) (p' 2) (frac X)
      |(clamp01 (cubic (row p (-1)) (row p 0) (row p 1) (row p 2) (frac Y)) : ℝ) -
        clamp01 (cubic (row q (-1)) (row q 0) (row q 1) (row q 2) (frac Y))| ≤ 25 / 16 * t := by
    intro ch h row
    have r : ∀ dy, |row p dy - row q dy| ≤ 5 / 4 * t := fun dy => cubic_diff fx.1 fx.2.le (h _ _) (h _ _) (h _ _) (h _ _)
    exact ((clamp01_sub _ _).trans (cubic_diff fy.1 fy.2.le (r _) (r _) (r _) (r _))).trans (by linarith)
  exact ⟨one _ fun i j => (a i j).1, one _ fun i j => (a i j).2.1, one _ fun i j => (a i j).2.2.1, one _ fun i j => (a i j).2.2.2⟩

omit [Libm b32] [Junk] in
theorem within_of {t : ℝ} {c : Col F32} {d : Col ℝ} (h : CloseCol t c d) : Apart t (exact c) d :=
  ⟨h.c0.err, h.c1.err, h.c2.err, h.alpha.err⟩

omit [Libm b32] [Junk] in
theorem Spec.CloseCol.via {t η s : ℝ} {x : Col F32} {y z : Col ℝ} (h : CloseCol η x y) (k : Apart s y z) (ht : s + η ≤ t) : CloseCol t x z :=
  h.move k.1 k.2.1 k.2.2.1 k.2.2.2 ht

/-- What two pictures have to do with each other, pixel by pixel. -/
def AlikeAt (ε : ℝ) (c : Col F32) (d : Col ℝ) : Prop := UnitCol c ∧ UnitReal d ∧ CloseCol ε c d

/-- Resizing, if the filter clamps its results, is accurate to `η` and enlarges differences at most by `L`. -/
theorem resize_alike {b : PixelBuffer (Col F32)} {e : PixelBuffer (Col ℝ)} {w h px ex} {ε η L : ℝ} (s : Shows b w h px)
    (t : Shows e w h ex) (hw : 0 < w) (ha : ∀ x y, x < w → y < h → AlikeAt ε (px x y) (ex x y)) (hL : 1 ≤ L) (hη : 0 ≤ η)
    {nw nh : Nat} (hv : ValidSize nw nh) {filter : FilterMode} (hauto : filter = .Auto → w ≤ 2097152 ∧ h ≤ 2097152)
    (h1 : ∀ x y, x < nw → y < nh → CloseCol η (resized filter w h px nw nh x y)
      (resized filter w h (fun x y => exact (px x y)) nw nh x y))
    (h2 : ∀ x y, Apart (L * ε) (resized filter w h (fun x y => exact (px x y)) nw nh x y) (resized filter w h ex nw nh x y))
    (h3 : ∀ x y, ∃ g : (Col F32 → F32) → F32, resized filter w h px nw nh x y = perChannel fun ch => clamp01 (g ch))
    (h4 : ∀ x y, ∃ g : (Col ℝ → ℝ) → ℝ, resized filter w h ex nw nh x y = perChannel fun ch => clamp01 (g ch)) :
    ∃ b' e' px' ex', resize b nw nh filter = .ok b' ∧ Shows b' nw nh px' ∧ resize e nw nh filter = .ok e' ∧ Shows e' nw nh ex' ∧
      ∀ x y, x < nw → y < nh → AlikeAt (L * ε + η) (px' x y) (ex' x y) := by
  by_cases hsame : nw = w ∧ nh = h
  · obtain ⟨rfl, rfl⟩ := hsame
    have e1 := C18_resize_same b filter
    have e2 := C18_resize_same e filter
    rw [s.width, s.height] at e1
    rw [t.width, t.height] at e2
    refine ⟨b, e, _, _, e1, s, e2, t, fun x y hx hy => ?_⟩
    obtain ⟨a1, a2, a3⟩ := ha x y hx hy
    have e0 := (abs_nonneg _).trans a3.c0.err
    exact ⟨a1, a2, a3.via (s := 0) (by simp [Apart]) (by nlinarith)⟩
  · obtain ⟨b', e1, s'⟩ := C18_resize s hw nw nh hv hsame filter (fun h => by have := hauto h; omega)
    obtain ⟨e', e2, t'⟩ := C18_resize t hw nw nh hv hsame filter (fun h => by have := hauto h; omega)
    refine ⟨b', e', _, _, e1, s', e2, t', fun x y hx hy => ?_⟩
    have c := h1 x y hx hy
    refine ⟨?_, ?_, c.via (h2 x y) le_rfl⟩
    · obtain ⟨g, hg⟩ := h3 x y
      rw [hg] at c ⊢
      exact unit_clamped c
    · obtain ⟨g, hg⟩ := h4 x y
      rw [hg]
      exact real_clamped g

theorem bilinear_alike {b : PixelBuffer (Col F32)} {e : PixelBuffer (Col ℝ)} {w h px ex} {ε : ℝ} (s : Shows b w h px)
    (t : Shows e w h ex) (hw : 0 < w) (ha : ∀ x y, x < w → y < h → AlikeAt ε (px x y) (ex x y)) {nw nh : Nat} (hv : ValidSize nw nh)
    (hwl : w ≤ 2097152) (hhl : h ≤ 2097152) (hnw : nw ≤ 2097152) (hnh : nh ≤ 2097152) :
    ∃ b' e' px' ex', resize b nw nh .Bilinear = .ok b' ∧ Shows b' nw nh px' ∧ resize e nw nh .Bilinear = .ok e' ∧ Shows e' nw nh ex' ∧
      ∀ x y, x < nw → y < nh → AlikeAt (ε + (((w : ℝ) + h) / 2 ^ 22 + 20 / 2 ^ 24)) (px' x y) (ex' x y) := by
  have hh : 0 < h := by rcases s.size with ⟨h1, _⟩ | ⟨_, h, _⟩ <;> omega
  have d := fun X Y => bilinear_diff hw hh (p := fun x y => exact (px x y)) (q := ex) (fun x y hx hy => within_of (ha x y hx hy).2.2) X Y
  have := resize_alike s t hw ha (L := 1) le_rfl (η := ((w : ℝ) + h) / 2 ^ 22 + 20 / 2 ^ 24) (by positivity) hv (filter := .Bilinear)
    (by simp) (fun x y hx hy => ?_) (fun x y => by rw [one_mul]; exact d _ _)
    (fun x y => ⟨_, (rfl : _ = bilinear w h px (scaledPos w nw x) (scaledPos h nh y))⟩)
    (fun x y => ⟨_, (rfl : _ = bilinear w h ex (scaledPos w nw x) (scaledPos h nh y))⟩)
  · rwa [one_mul] at this
  · obtain ⟨x1, x2, x3, x4, x5, x6⟩ := positions hw hwl hx hnw
    obtain ⟨y1, y2, y3, y4, y5, y6⟩ := positions hh hhl hy hnh
    have k := bilinear_move hw hh (fun x y hx hy => (ha x y hx hy).1) x1 x2 x3 x4 x5 x6 y1 y2 y3 y4 y5 y6
    have e : (w : ℝ) / 4194304 + h / 4194304 + 40 / 33554432 = ((w : ℝ) + h) / 2 ^ 22 + 20 / 2 ^ 24 := by norm_num; ring
    rwa [e] at k

theorem bicubic_alike {b : PixelBuffer (Col F32)} {e : PixelBuffer (Col ℝ)} {w h px ex} {ε : ℝ} (s : Shows b w h px)
    (t : Shows e w h ex) (hw : 0 < w) (ha : ∀ x y, x < w → y < h → AlikeAt ε (px x y) (ex x y)) {nw nh : Nat} (hv : ValidSize nw nh)
    (hwl : w ≤ 2097152) (hhl : h ≤ 2097152) (hnw : nw ≤ 2097152) (hnh : nh ≤ 2097152) {filter : FilterMode}
    (hf : filter = .Bicubic ∨ filter = .Auto ∧ (w ≤ nw ∨ h ≤ nh)) :
    ∃ b' e' px' ex', resize b nw nh filter = .ok b' ∧ Shows b' nw nh px' ∧ resize e nw nh filter = .ok e' ∧ Shows e' nw nh ex' ∧
      ∀ x y, x < nw → y < nh →
        AlikeAt (25 / 16 * ε + (5 / 2 * ((w : ℝ) + h) / 2 ^ 22 + 2470 / 2 ^ 24)) (px' x y) (ex' x y) := by
  have hh : 0 < h := by rcases s.size with ⟨h1, _⟩ | ⟨_, h, _⟩ <;> omega
  have d := fun X Y => bicubic_diff hw hh (p := fun x y => exact (px x y)) (q := ex) (fun x y hx hy => within_of (ha x y hx hy).2.2) X Y
  have is : ∀ {F : Type} [Scalar F] (q : Nat → Nat → Col F) (x y : Nat),
      resized filter w h q nw nh x y = bicubic w h q (scaledPos w nw x) (scaledPos h nh y) := by
    intro F _ q x y
    rcases hf with rfl | ⟨rfl, hup⟩
    · rfl
    · unfold resized
      simp only [if_pos hup]
  refine resize_alike s t hw ha (L := 25 / 16) (by norm_num) (η := 5 / 2 * ((w : ℝ) + h) / 2 ^ 22 + 2470 / 2 ^ 24) (by positivity) hv
    (fun _ => ⟨hwl, hhl⟩) (fun x y hx hy => ?_) (fun x y => by rw [is, is]; exact d _ _) (fun x y => ⟨_, is _ _ _⟩) (fun x y => ⟨_, is _ _ _⟩)
  rw [is, is]
  obtain ⟨x1, x2, x3, x4, x5, x6⟩ := positions hw hwl hx hnw
  obtain ⟨y1, y2, y3, y4, y5, y6⟩ := positions hh hhl hy hnh
  have k := bicubic_move hw hh (fun x y hx hy => (ha x y hx hy).1) x1 x2 x3 x4 x5 x6 y1 y2 y3 y4 y5 y6
  have e : 5 / 2 * ((w : ℝ) / 4194304 + h / 4194304) + 4940 / 33554432 = 5 / 2 * ((w : ℝ) + h) / 2 ^ 22 + 2470 / 2 ^ 24 := by
    norm_num; ring
  rwa [e] at k

/-- Sharpening. -/
theorem sharpen_alike {δ : ℝ} (he : ExpWithin δ) (hδ : δ ≤ 1 / 2) (hs : SqrtWithin) {b : PixelBuffer (Col F32)}
    {e : PixelBuffer (Col ℝ)} {w h px ex} {ε : ℝ} (s : Shows b w h px) (t : Shows e w h ex)
    (ha : ∀ x y, x < w → y < h → AlikeAt ε (px x y) (ex x y)) (r : Nat) (h1 : 1 ≤ r) (hr : r ≤ 1023) (sigma : Option F32)
    (hσ : ∀ σ, sigma = some σ → SigmaOK σ) (factor : F32) (m : ℕ) (hm : m ≤ 50) (hf : factor.fin = true)
    (hf2 : |(factor.val : ℝ)| ≤ 2 ^ m) (hsmall : sharpenCost δ r ≤ 1 / 2) :
    ∃ b' e' px' ex', unsharp b r factor sigma = .ok b' ∧ Shows b' w h px' ∧
      unsharp e r (factor.val : ℝ) (sigma.map fun σ => (σ.val : ℝ)) = .ok e' ∧ Shows e' w h ex' ∧
      ∀ x y, x < w → y < h →
        AlikeAt ((1 + 2 * 2 ^ m) * ε + 2 ^ m * (sharpenCost δ r + 8 / 16777216)) (px' x y) (ex' x y) := by
  have dσ := C95_default_sigma r h1 hr
  have ok : SigmaOK (sigma.getD (get_default_sigma (2 * r + 1))) := by
    cases sigma with
    | none => exact dσ.1
    | some v => exact hσ v rfl
  have same : (sigma.map fun σ => (σ.val : ℝ)).getD (get_default_sigma (2 * r + 1)) =
      ((sigma.getD (get_default_sigma (2 * r + 1))).val : ℝ) := by
    cases sigma with
    | none => exact (C12_default_sigma r).trans dσ.2.symm
    | some v => rfl
  have pos : (0 : ℝ) < (sigma.getD (get_default_sigma (2 * r + 1))).val := lt_of_lt_of_le (by positivity) ok.lo
  obtain ⟨b1, px', e1, s1, c1⟩ := C95_unsharp he hδ hs s (fun x y hx hy => (ha x y hx hy).1) r hr sigma ok factor m hm hf hf2 hsmall
  obtain ⟨b2, bl2, -, e2, pb, -, s2⟩ := C46_unsharp s r (by omega) factor sigma
  rw [e1] at e2; cases e2
  obtain ⟨e', bl, g1, e3, q, sb, s3⟩ := C46_unsharp t r (by omega) (factor.val : ℝ) (sigma.map fun σ => (σ.val : ℝ))
  obtain ⟨bl', g2, sb'⟩ := (C12_gaussian_blur t r (sigma.map fun σ => (σ.val : ℝ))).1 (by omega)
  rw [g1] at g2; cases g2
  refine ⟨b1, e', px', _, e1, s1, e3, s3, fun x y hx hy => ?_⟩
  have c := c1 x y hx hy
  have hw : 0 < w := by omega
  have hh : 0 < h := by omega
  refine ⟨?_, real_clamped _, c.via (s := (1 + 2 * 2 ^ m) * ε) ?_ (le_of_eq rfl)⟩
  · rw [rows_inj (s1.pixels.symm.trans s2.pixels) hx hy] at c ⊢
    exact unit_clamped c
  · rw [rows_inj (sb.pixels.symm.trans sb'.pixels) hx hy, same]
    set σ : ℝ := ((sigma.getD (get_default_sigma (2 * r + 1))).val : ℝ) with hσ'
    have wt : ∀ i j, gaussWeight (2 * r + 1) σ i j = bellShare (2 * r + 1) σ i j := fun i j => by
      rw [C12_formula _ (by omega) σ pos.ne']; rfl
    have sum1 : ∑ j ∈ Finset.range (2 * r + 1), ∑ i ∈ Finset.range (2 * r + 1), bellShare (2 * r + 1) σ i j = 1 := by
      rw [← gaussWeight_sum (2 * r + 1) (by omega) σ pos.ne']
      simp only [wt]
    have nonneg : ∀ i j, i < 2 * r + 1 → j < 2 * r + 1 → 0 ≤ bellShare (2 * r + 1) σ i j := fun i j _ _ => by
      unfold bellShare bellReal; positivity
    have one : ∀ (cF : Col F32 → F32) (cR : Col ℝ → ℝ), (∀ x y, x < w → y < h → |((cF (px x y)).val : ℝ) - cR (ex x y)| ≤ ε) →
        |max 0 (min 1 (((cF (px x y)).val : ℝ) + ((cF (px x y)).val - exactSum w h px (2 * r + 1) (2 * r + 1)
          (bellShare (2 * r + 1) σ) x y cF) * factor.val)) -
        clamp01 (cR (ex x y) +. (cR (ex x y) -. total (2 * r + 1) (2 * r + 1) fun i j => gaussWeight (2 * r + 1) σ i j *.
          cR (ex (nearest w (x + i - ((2 * r + 1) / 2 : Nat))) (nearest h (y + j - ((2 * r + 1) / 2 : Nat))))) *. (factor.val : ℝ))| ≤
          (1 + 2 * 2 ^ m) * ε := by
      intro cF cR hp
      rw [Exact.total, Exact.clamp01]
      ex_simp
      refine (clamp_sub _ _).trans ?_
      have d0 := hp x y hx hy
      have d1 : |exactSum w h px (2 * r + 1) (2 * r + 1) (bellShare (2 * r + 1) σ) x y cF -
          ∑ j ∈ Finset.range (2 * r + 1), ∑ i ∈ Finset.range (2 * r + 1), gaussWeight (2 * r + 1) σ i j *
            cR (ex (nearest w (x + i - ((2 * r + 1) / 2 : Nat))) (nearest h (y + j - ((2 * r + 1) / 2 : Nat))))| ≤ ε := by
        unfold exactSum
        simp only [wt, ← Finset.sum_sub_distrib, ← mul_sub]
        rw [abs_le]
        refine mean_between _ _ _ (fun i j => ((cF (px (nearest w (x + i - ((2 * r + 1) / 2 : Nat)))
          (nearest h (y + j - ((2 * r + 1) / 2 : Nat))))).val : ℝ) - cR (ex (nearest w (x + i - ((2 * r + 1) / 2 : Nat)))
          (nearest h (y + j - ((2 * r + 1) / 2 : Nat))))) _ _ nonneg sum1 fun i j _ _ => ?_
        exact abs_le.1 (hp _ _ (nearest_inside hw _) (nearest_inside hh _))
      have ε0 := (abs_nonneg _).trans d0
      revert d0 d1 hf2
      generalize exactSum w h px (2 * r + 1) (2 * r + 1) (bellShare (2 * r + 1) σ) x y cF = P
      generalize ∑ j ∈ Finset.range (2 * r + 1), ∑ i ∈ Finset.range (2 * r + 1), gaussWeight (2 * r + 1) σ i j *
            cR (ex (nearest w (x + i - ((2 * r + 1) / 2 : Nat))) (nearest h (y + j - ((2 * r + 1) / 2 : Nat)))) = Q
      generalize ((cF (px x y)).val : ℝ) = p
      generalize cR (ex x y) = q
      generalize (factor.val : ℝ) = k
      intro hk d0 d1
      rw [show p + (p - P) * k - (q + (q - Q) * k) = (p - q) + ((p - q) - (P - Q)) * k by ring]
      have a1 : |((p - q) - (P - Q)) * k| ≤ 2 * ε * 2 ^ m := by
        rw [abs_mul]
        exact mul_le_mul ((abs_sub _ _).trans (by linarith)) hk (abs_nonneg _) (by linarith)
      exact (abs_add_le _ _).trans (by linarith)
    exact ⟨one _ _ fun x y hx hy => (ha x y hx hy).2.2.c0.err, one _ _ fun x y hx hy => (ha x y hx hy).2.2.c1.err,
      one _ _ fun x y hx hy => (ha x y hx hy).2.2.c2.err, one _ _ fun x y hx hy => (ha x y hx hy).2.2.alpha.err⟩

/-- Blurring. The result need not be in range: sums of 32-bit numbers may end up above 1. -/
theorem blur_alike {δ : ℝ} (he : ExpWithin δ) (hδ : δ ≤ 1 / 2) (hs : SqrtWithin) {b : PixelBuffer (Col F32)}
    {e : PixelBuffer (Col ℝ)} {w h px ex} {ε : ℝ} (s : Shows b w h px) (t : Shows e w h ex)
    (ha : ∀ x y, x < w → y < h → AlikeAt ε (px x y) (ex x y)) (r : Nat) (h1 : 1 ≤ r) (hr : r ≤ 1023) (sigma : Option F32)
    (hσ : ∀ σ, sigma = some σ → SigmaOK σ) :
    ∃ b' e' px' ex', gaussian_blur b r sigma = .ok b' ∧ Shows b' w h px' ∧
      gaussian_blur e r (sigma.map fun σ => (σ.val : ℝ)) = .ok e' ∧ Shows e' w h ex' ∧
      ∀ x y, x < w → y < h → UnitReal (ex' x y) ∧ CloseCol (ε + sharpenCost δ r) (px' x y) (ex' x y) := by
  have dσ := C95_default_sigma r h1 hr
  have ok : SigmaOK (sigma.getD (get_default_sigma (2 * r + 1))) := by
    cases sigma with
    | none => exact dσ.1
    | some v => exact hσ v rfl
  have same : (sigma.map fun σ => (σ.val : ℝ)).getD (get_default_sigma (2 * r + 1)) =
      ((sigma.getD (get_default_sigma (2 * r + 1))).val : ℝ) := by
    cases sigma with
    | none => exact (C12_default_sigma r).trans dσ.2.symm
    | some v => rfl
  have pos : (0 : ℝ) < (sigma.getD (get_default_sigma (2 * r + 1))).val := lt_of_lt_of_le (by positivity) ok.lo
  obtain ⟨b1, px', e1, s1, c1⟩ := C95_gaussian_blur he hδ hs s (fun x y hx hy => (ha x y hx hy).1) r hr sigma ok
  obtain ⟨e', e2, s2⟩ := (C12_gaussian_blur t r (sigma.map fun σ => (σ.val : ℝ))).1 (by omega)
  refine ⟨b1, e', px', _, e1, s1, e2, s2, fun x y hx hy => ?_⟩
  have c := c1 x y hx hy
  have hw : 0 < w := by omega
  have hh : 0 < h := by omega
  rw [same]
  set σ : ℝ := ((sigma.getD (get_default_sigma (2 * r + 1))).val : ℝ) with hσ'
  have wt : ∀ i j, gaussWeight (2 * r + 1) σ i j = bellShare (2 * r + 1) σ i j := fun i j => by
    rw [C12_formula _ (by omega) σ pos.ne']; rfl
  have sum1 : ∑ j ∈ Finset.range (2 * r + 1), ∑ i ∈ Finset.range (2 * r + 1), bellShare (2 * r + 1) σ i j = 1 := by
    rw [← gaussWeight_sum (2 * r + 1) (by omega) σ pos.ne']
    simp only [wt]
  have nonneg : ∀ i j, i < 2 * r + 1 → j < 2 * r + 1 → 0 ≤ bellShare (2 * r + 1) σ i j := fun i j _ _ => by
    unfold bellShare bellReal; positivity
  have one : ∀ (cF : Col F32 → F32) (cR : Col ℝ → ℝ), (∀ x y, x < w → y < h → |((cF (px x y)).val : ℝ) - cR (ex x y)| ≤ ε) →
      |exactSum w h px (2 * r + 1) (2 * r + 1) (bellShare (2 * r + 1) σ) x y cF -
        total (2 * r + 1) (2 * r + 1) fun i j => gaussWeight (2 * r + 1) σ i j *.
          cR (ex (nearest w (x + i - ((2 * r + 1) / 2 : Nat))) (nearest h (y + j - ((2 * r + 1) / 2 : Nat))))| ≤ ε := by
    intro cF cR hp
    rw [Exact.total]
    ex_simp
    unfold exactSum
    simp only [wt, ← Finset.sum_sub_distrib, ← mul_sub]
    rw [abs_le]
    refine mean_between _ _ _ (fun i j => ((cF (px (nearest w (x + i - ((2 * r + 1) / 2 : Nat)))
      (nearest h (y + j - ((2 * r + 1) / 2 : Nat))))).val : ℝ) - cR (ex (nearest w (x + i - ((2 * r + 1) / 2 : Nat)))
      (nearest h (y + j - ((2 * r + 1) / 2 : Nat))))) _ _ nonneg sum1 fun i j _ _ => ?_
    exact abs_le.1 (hp _ _ (nearest_inside hw _) (nearest_inside hh _))
  have inside : ∀ cR : Col ℝ → ℝ, (∀ x y, x < w → y < h → 0 ≤ cR (ex x y) ∧ cR (ex x y) ≤ 1) →
      0 ≤ (total (2 * r + 1) (2 * r + 1) fun i j => gaussWeight (2 * r + 1) σ i j *.
          cR (ex (nearest w (x + i - ((2 * r + 1) / 2 : Nat))) (nearest h (y + j - ((2 * r + 1) / 2 : Nat)))) : ℝ) ∧
      (total (2 * r + 1) (2 * r + 1) fun i j => gaussWeight (2 * r + 1) σ i j *.
          cR (ex (nearest w (x + i - ((2 * r + 1) / 2 : Nat))) (nearest h (y + j - ((2 * r + 1) / 2 : Nat)))) : ℝ) ≤ 1 := by
    intro cR hp
    rw [Exact.total]
    ex_simp
    simp only [wt]
    exact mean_between _ _ _ _ _ _ nonneg sum1 fun i j _ _ => hp _ _ (nearest_inside hw _) (nearest_inside hh _)
  refine ⟨⟨inside _ fun x y hx hy => (ha x y hx hy).2.1.c0, inside _ fun x y hx hy => (ha x y hx hy).2.1.c1,
    inside _ fun x y hx hy => (ha x y hx hy).2.1.c2, inside _ fun x y hx hy => (ha x y hx hy).2.1.alpha⟩, ?_⟩
  refine c.via (s := ε) ?_ le_rfl
  exact ⟨one _ _ fun x y hx hy => (ha x y hx hy).2.2.c0.err, one _ _ fun x y hx hy => (ha x y hx hy).2.2.c1.err,
    one _ _ fun x y hx hy => (ha x y hx hy).2.2.c2.err, one _ _ fun x y hx hy => (ha x y hx hy).2.2.alpha.err⟩

/-! ## The levels of a file -/

omit [Libm b32] in
/-- The sRGB curve on one side of its break. -/
theorem g2l_steep {a b : ℝ} (a0 : 0 ≤ a) (a1 : a ≤ 1) (b0 : 0 ≤ b) (b1 : b ≤ 1)
    (h : a ≤ 0.04045 ∧ b ≤ 0.04045 ∨ 0.04045 < a ∧ 0.04045 < b) : |gamma_to_linear a - gamma_to_linear b| ≤ 2.4 * |a - b| := by
  have n := abs_nonneg (a - b)
  rcases h with ⟨h1, h2⟩ | ⟨h1, h2⟩
  · rw [Exact.g2l_low h1, Exact.g2l_low h2, ← sub_div, abs_div, abs_of_pos (by norm_num : (0 : ℝ) < 12.92), div_le_iff₀ (by norm_num)]
    nlinarith
  · rw [Exact.g2l_high h1, Exact.g2l_high h2]
    have u : ∀ v : ℝ, 0 ≤ v → v ≤ 1 → 0 ≤ (v + 0.055) / 1.055 ∧ (v + 0.055) / 1.055 ≤ 1 := fun v h0 h1 =>
      ⟨by positivity, by rw [div_le_one (by norm_num)]; linarith⟩
    refine (rpow_steep (u a a0 a1).1 (u a a0 a1).2 (u b b0 b1).1 (u b b0 b1).2 (by norm_num : (1 : ℝ) ≤ 2.4)).trans ?_
    rw [← sub_div, abs_div, abs_of_pos (by norm_num : (0 : ℝ) < 1.055), add_sub_add_right_eq_sub]
    refine mul_le_mul_of_nonneg_left ?_ (by norm_num)
    rw [div_le_iff₀ (by norm_num)]
    nlinarith

omit [Junk] in
/-- A level `v` of `n`, as a 32-bit number. -/
theorem level_near {n v : Nat} (hn : n = 255 ∨ n = 65535) (hv : v ≤ n) :
    let x : F32 := lit (v : ℚ) /. lit (n : ℚ)
    (x.fin = true ∧ 0 ≤ x.val ∧ x.val ≤ 1) ∧ |(x.val : ℝ) - (v : ℝ) / n| ≤ (v : ℝ) / n / 16777216 := by
  intro x
  have n0 : 0 < n := by omega
  obtain ⟨xf, xv⟩ := unquant (n := n) (v := v) (by omega) n0 hv
  have q0 : (0 : ℚ) ≤ (v : ℚ) / n := by positivity
  have q1 : (v : ℚ) / n ≤ 1 := by rw [div_le_one (by exact_mod_cast n0)]; exact_mod_cast hv
  have r0 : rn b32 0 = 0 := by decide +kernel
  have r1 : rn b32 1 = 1 := by decide +kernel
  refine ⟨⟨xf, ?_, ?_⟩, ?_⟩
  · rw [show x.val = _ from xv, ← r0]; exact rn_mono q0
  · rw [show x.val = _ from xv, ← r1]; exact rn_mono q1
  · have key : |rn b32 ((v : ℚ) / n) - (v : ℚ) / n| ≤ (v : ℚ) / n / 16777216 := by
      rcases Nat.eq_zero_or_pos v with rfl | vp
      · simp [r0]
      · have := rn_rel32 (q := (v : ℚ) / n) (by
          rw [abs_of_nonneg q0]
          refine le_trans (b := 1 / 65535) (by decide +kernel) ?_
          rw [div_le_div_iff₀ (by norm_num) (by exact_mod_cast n0), one_mul]
          exact_mod_cast (by omega : n ≤ v * 65535))
        rwa [abs_of_nonneg q0] at this
    rw [← xv] at key
    have := (Rat.cast_le (K := ℝ)).2 key
    push_cast at this
    exact this

theorem level_alike {δ : ℝ} (hL : PowWithin δ) {n v : Nat} (hn : n = 255 ∨ n = 65535) (hv : v ≤ n) :
    Close (clamp01 (gamma_to_linear (clamp01 (lit (v : ℚ) /. lit (n : ℚ) : F32))))
      (clamp01 (gamma_to_linear (clamp01 (lit (v : ℚ) /. lit (n : ℚ) : ℝ)))) (δ + 1 / 1000000) ∧
    Close (clamp01 (clamp01 (lit (v : ℚ) /. lit (n : ℚ) : F32))) (clamp01 (clamp01 (lit (v : ℚ) /. lit (n : ℚ) : ℝ))) (1 / 1000000) := by
  obtain ⟨u, e⟩ := level_near hn hv
  have n0 : (0 : ℝ) < n := by rcases hn with rfl | rfl <;> norm_num
  have q : ((lit (v : ℚ) : ℝ) /. lit (n : ℚ)) = (v : ℝ) / n := by
    ex_simp
    exact Exact.div n0.ne'
  have q0 : (0 : ℝ) ≤ (v : ℝ) / n := by positivity
  have q1 : (v : ℝ) / n ≤ 1 := by rw [div_le_one n0]; exact_mod_cast hv
  have x0 : (0 : ℝ) ≤ ((lit (v : ℚ) : F32) /. lit (n : ℚ)).val := by exact_mod_cast u.2.1
  have x1 : (((lit (v : ℚ) : F32) /. lit (n : ℚ)).val : ℝ) ≤ 1 := by exact_mod_cast u.2.2
  rw [q, Exact.clamp01_id q0 q1, Exact.clamp01_id q0 q1, clamp_self32 u, clamp_self32 u]
  have e' : |(((lit (v : ℚ) : F32) /. lit (n : ℚ)).val : ℝ) - (v : ℝ) / n| ≤ 1 / 16777216 := e.trans (by linarith)
  refine ⟨?_, u.1, e'.trans (by norm_num)⟩
  have c := close_clamp (C86_gamma_to_linear δ hL _ u)
  refine ⟨c.fin, ?_⟩
  have side : (((lit (v : ℚ) : F32) /. lit (n : ℚ)).val : ℝ) ≤ 0.04045 ∧ (v : ℝ) / n ≤ 0.04045 ∨
      0.04045 < (((lit (v : ℚ) : F32) /. lit (n : ℚ)).val : ℝ) ∧ 0.04045 < (v : ℝ) / n := by
    rw [abs_le] at e
    rcases hn with rfl | rfl
    · rcases Nat.lt_or_ge v 11 with h | h
      · left
        have : (v : ℝ) ≤ 10 := by exact_mod_cast (by omega : v ≤ 10)
        have : (v : ℝ) / (255 : ℕ) ≤ 10 / 255 := by push_cast; linarith
        constructor <;> norm_num at * <;> linarith
      · right
        have : (11 : ℝ) ≤ v := by exact_mod_cast h
        have : 11 / 255 ≤ (v : ℝ) / (255 : ℕ) := by push_cast; linarith
        constructor <;> norm_num at * <;> linarith
    · rcases Nat.lt_or_ge v 2651 with h | h
      · left
        have : (v : ℝ) ≤ 2650 := by exact_mod_cast (by omega : v ≤ 2650)
        have : (v : ℝ) / (65535 : ℕ) ≤ 2650 / 65535 := by push_cast; linarith
        constructor <;> norm_num at * <;> linarith
      · right
        have : (2651 : ℝ) ≤ v := by exact_mod_cast h
        have : 2651 / 65535 ≤ (v : ℝ) / (65535 : ℕ) := by push_cast; linarith
        constructor <;> norm_num at * <;> linarith
  have s := (clamp01_sub _ _).trans (g2l_steep x0 x1 q0 q1 side)
  refine (abs_sub_le _ _ _).trans ((add_le_add c.err s).trans ?_)
  norm_num at e' ⊢
  linarith

/-- The colour a file's bytes stand for, in both arithmetics. -/
theorem colour_alike {δ : ℝ} (hL : PowWithin δ) (ct : PngColorType) (d : Nat → Nat) (hd : ∀ k, d k < 256) :
    AlikeAt (δ + 1 / 1000000) (colourOf d ct) (colourOf d ct) := by
  have δ0 := PowWithin.nonneg hL
  have l8 : ∀ k, Close (clamp01 (gamma_to_linear (clamp01 (sample8 d k : F32)))) (clamp01 (gamma_to_linear (clamp01 (sample8 d k : ℝ)))) (δ + 1 / 1000000) ∧
      Close (clamp01 (clamp01 (sample8 d k : F32))) (clamp01 (clamp01 (sample8 d k : ℝ))) (1 / 1000000) := fun k => by
    have := level_alike hL (n := 255) (v := d k) (.inl rfl) (by have := hd k; omega)
    push_cast at this
    exact this
  have l16 : ∀ k, Close (clamp01 (gamma_to_linear (clamp01 (sample16 d k : F32)))) (clamp01 (gamma_to_linear (clamp01 (sample16 d k : ℝ)))) (δ + 1 / 1000000) ∧
      Close (clamp01 (clamp01 (sample16 d k : F32))) (clamp01 (clamp01 (sample16 d k : ℝ))) (1 / 1000000) := fun k => by
    have := level_alike hL (n := 65535) (v := d (2 * k) * 256 + d (2 * k + 1)) (.inr rfl) (by have := hd (2 * k); have := hd (2 * k + 1); omega)
    rw [Nat.cast_ofNat] at this
    exact this
  have one : Close (clamp01 (lit 1 : F32)) (clamp01 (lit 1 : ℝ)) (δ + 1 / 1000000) := by
    have l1 : (lit 1 : F32).fin = true ∧ (lit 1 : F32).val = 1 := FP.lit1
    refine close_clamp ⟨l1.1, ?_⟩
    rw [l1.2]
    ex_simp
    norm_num
    linarith
  have fin : ∀ {r g b a : F32} {r' g' b' a' : ℝ}, Close (clamp01 r) (clamp01 r') (δ + 1 / 1000000) → Close (clamp01 g) (clamp01 g') (δ + 1 / 1000000) →
      Close (clamp01 b) (clamp01 b') (δ + 1 / 1000000) → Close (clamp01 a) (clamp01 a') (δ + 1 / 1000000) →
      AlikeAt (δ + 1 / 1000000) ⟨clamp01 r, clamp01 g, clamp01 b, clamp01 a⟩ ⟨clamp01 r', clamp01 g', clamp01 b', clamp01 a'⟩ := fun h1 h2 h3 h4 =>
    ⟨⟨clamped_unit h1.fin, clamped_unit h2.fin, clamped_unit h3.fin, clamped_unit h4.fin⟩,
     ⟨clamp01_unit _, clamp01_unit _, clamp01_unit _, clamp01_unit _⟩, h1, h2, h3, h4⟩
  have m : ∀ {x : F32} {q : ℝ}, Close x q (1 / 1000000) → Close x q (δ + 1 / 1000000) := fun h => h.mono (by linarith)
  cases ct
  case L8 => exact fin (l8 0).1 (l8 0).1 (l8 0).1 one
  case La8 => exact fin (l8 0).1 (l8 0).1 (l8 0).1 (m (l8 1).2)
  case Rgb8 => exact fin (l8 0).1 (l8 1).1 (l8 2).1 one
  case Rgba8 => exact fin (l8 0).1 (l8 1).1 (l8 2).1 (m (l8 3).2)
  case L16 => exact fin (l16 0).1 (l16 0).1 (l16 0).1 one
  case La16 => exact fin (l16 0).1 (l16 0).1 (l16 0).1 (m (l16 1).2)
  case Rgb16 => exact fin (l16 0).1 (l16 1).1 (l16 2).1 one
  case Rgba16 => exact fin (l16 0).1 (l16 1).1 (l16 2).1 (m (l16 3).2)

end

end D10
