import Verif.Lemmas.NumbersTune

/-! # The colour of the light of at least 2000 K in binary64 and binary32 -/

namespace D10
open Scalar (lit)
open Spec

/-- The 64-bit number is finite and within `e` of `q`. -/
structure N64 (x : F64) (q e : ℚ) : Prop where
  fin : x.fin = true
  err : |x.val - q| ≤ e

/-- The rounding error of 64-bit numbers up to 64. -/
def u64 : ℚ := 1 / 2 ^ 48

theorem round64 {s : Bool} {p q e : ℚ} (h : |p| ≤ 64) (hp : |p - q| ≤ e) : N64 (FP.ofRat b64 s p) q (e + u64) := by
  have hk : |p| ≤ pow2 6 := h.trans (by decide +kernel)
  have rep : IsRep b64 (pow2 6) := IsRep.pow2 (by decide)
  have v := FP.ofRat_of_le (f := b64) (s := s) rep (pow2_lt_iff.2 (by decide)) hk
  have err := rn_err_le (f := b64) (q := p) (k := 6) (by decide) hk
  refine ⟨v.1, ?_⟩
  rw [v.2]
  have eu : pow2 (6 - (b64.prec : ℤ)) / 2 = u64 := by decide +kernel
  rw [eu] at err
  calc |rn b64 p - q| = |(rn b64 p - p) + (p - q)| := by ring_nf
    _ ≤ _ := abs_add_le _ _
    _ ≤ _ := by linarith

namespace N64
variable {x y : F64} {q r e d : ℚ}

theorem mono (h : N64 x q e) (hd : e ≤ d) : N64 x q d := ⟨h.fin, h.err.trans hd⟩

theorem lit {q : ℚ} (h : |q| ≤ 64) : N64 (FP.ofRat b64 false q) q u64 := by
  have := round64 (s := false) (q := q) (e := 0) h (by simp)
  rwa [zero_add] at this

theorem size (h : N64 x q e) {A : ℚ} (hq : |q| ≤ A) : |x.val| ≤ A + e := by
  calc |x.val| = |(x.val - q) + q| := by ring_nf
    _ ≤ _ := abs_add_le _ _
    _ ≤ _ := by linarith [h.err]

theorem add (hx : N64 x q e) (hy : N64 y r d) (hq : |q| ≤ 4) (hr : |r| ≤ 4) (he : e ≤ 1 / 1024) (hd : d ≤ 1 / 1024) :
    N64 (FP.add x y) (q + r) (e + d + u64) := by
  rw [FP.add_fin hx.fin hy.fin]
  refine round64 ((abs_add_le _ _).trans ?_) ?_
  · linarith [hx.size hq, hy.size hr]
  · calc |x.val + y.val - (q + r)| = |(x.val - q) + (y.val - r)| := by ring_nf
      _ ≤ _ := abs_add_le _ _
      _ ≤ _ := add_le_add hx.err hy.err

theorem sub (hx : N64 x q e) (hy : N64 y r d) (hq : |q| ≤ 4) (hr : |r| ≤ 4) (he : e ≤ 1 / 1024) (hd : d ≤ 1 / 1024) :
    N64 (FP.sub x y) (q - r) (e + d + u64) := by
  have n : N64 (FP.neg y) (-r) d := by
    have t := FP.neg_fin hy.fin
    exact ⟨t.1, by rw [t.2, ← abs_neg, neg_sub, sub_neg_eq_add, neg_add_eq_sub]; exact hy.err⟩
  rw [sub_eq_add_neg]
  exact hx.add n hq (by rw [abs_neg]; exact hr) he hd

theorem mul (hx : N64 x q e) (hy : N64 y r d) (hq : |q| ≤ 4) (hr : |r| ≤ 4) (he : e ≤ 1 / 1024) (hd : d ≤ 1 / 1024) :
    N64 (FP.mul x y) (q * r) (5 * e + 5 * d + u64) := by
  have e0 : 0 ≤ e := (abs_nonneg _).trans hx.err
  have d0 : 0 ≤ d := (abs_nonneg _).trans hy.err
  have sx := hx.size hq
  have sy := hy.size hr
  rw [FP.mul_fin hx.fin hy.fin]
  refine round64 ?_ ?_
  · rw [abs_mul]
    calc |x.val| * |y.val| ≤ 5 * 5 := mul_le_mul (by linarith) (by linarith) (abs_nonneg _) (by norm_num)
      _ ≤ 64 := by norm_num
  · calc |x.val * y.val - q * r| = |(x.val - q) * y.val + q * (y.val - r)| := by ring_nf
      _ ≤ |(x.val - q) * y.val| + |q * (y.val - r)| := abs_add_le _ _
      _ = |x.val - q| * |y.val| + |q| * |y.val - r| := by rw [abs_mul, abs_mul]
      _ ≤ e * 5 + 5 * d := add_le_add (mul_le_mul hx.err (by linarith) (abs_nonneg _) e0)
          (mul_le_mul (by linarith) hy.err (abs_nonneg _) (by norm_num))
      _ = 5 * e + 5 * d := by ring

theorem recip (hy : N64 y r d) (hr : 0.27 ≤ r) (hd : d ≤ 1 / 1024) :
    N64 (FP.div (FP.ofRat b64 false 1) y) (1 / r) (16 * d + u64) := by
  have one : (FP.ofRat b64 false 1).fin = true ∧ (FP.ofRat b64 false 1).val = 1 := by decide +kernel
  have b := abs_le.1 hy.err
  have y0 : 0.265 ≤ y.val := by norm_num at hr hd ⊢; linarith [b.1]
  have yp : 0 < y.val := by linarith
  have rp : 0 < r := by linarith
  rw [FP.div_fin one.1 hy.fin yp.ne', one.2]
  refine round64 ?_ ?_
  · rw [abs_of_pos (by positivity), div_le_iff₀ yp]; linarith
  · have : 1 / y.val - 1 / r = (r - y.val) / (y.val * r) := by field_simp
    rw [this, abs_div, abs_of_pos (mul_pos yp rp), div_le_iff₀ (mul_pos yp rp), abs_sub_comm]
    have d0 : 0 ≤ d := (abs_nonneg _).trans hy.err
    have m : 0.265 * 0.27 ≤ y.val * r := mul_le_mul y0 hr (by norm_num) yp.le
    have : d * 1 ≤ d * (16 * (y.val * r)) := mul_le_mul_of_nonneg_left (by linarith) d0
    calc _ ≤ d := hy.err
      _ ≤ _ := by linarith

end N64

/-- A 64-bit number near `q`, turned into a 32-bit number. -/
theorem narrow_near {x : F64} {q e : ℚ} (h : N64 x q e) (hq : |q| ≤ 1.9) (he : e ≤ 1 / 1000000000) :
    NearF (FP.cast b32 x) (q : ℝ) (1 / 10000000) 1.9 := by
  have e0 : (0 : ℝ) ≤ e := by exact_mod_cast (abs_nonneg _).trans h.err
  have he' : (e : ℝ) ≤ 1 / 1000000000 := by
    have := (Rat.cast_le (K := ℝ)).2 he
    push_cast at this
    exact this
  have er : |(x.val : ℝ) - q| ≤ e := by exact_mod_cast h.err
  have hq' : |(q : ℝ)| ≤ 1.9 := by
    have := (Rat.cast_le (K := ℝ)).2 hq
    push_cast at this
    exact this
  have go : ∀ s : Bool, NearF (FP.ofRat b32 s x.val) (q : ℝ) (1 / 10000000) 1.9 := fun s =>
    (NearF.round (b := s) 1 (by norm_num) er hq' (by norm_num at he' ⊢; linarith)).mono (by norm_num at he' ⊢; linarith) le_rfl
  have f := h.fin
  cases x with
  | nan => cases f
  | inf _ => cases f
  | zero s => exact go s
  | num p hp => exact go _

/-! ## The chromaticities -/

/-- What the program needs of a chromaticity. -/
structure LightXY (x y : ℚ) : Prop where
  y0 : 0.27 ≤ y
  y1 : y ≤ 0.42
  x0 : 0.27 ≤ x
  x1 : x ≤ 0.53
  xs : x ≤ 1.9 * y
  z0 : 0 ≤ 1 - x - y
  zs : 1 - x - y ≤ 1.9 * y
  r : 0.018 * y ≤ 3.240479 * x - 1.53715 * y - 0.498535 * (1 - x - y)
  g : 0.018 * y ≤ -0.969256 * x + 1.875991 * y + 0.041556 * (1 - x - y)
  b : 0.018 * y ≤ 0.055648 * x - 0.204043 * y + 1.057311 * (1 - x - y)

theorem kelvinXY_good (n : Nat) (h2 : 2 ≤ n) : LightXY (kelvinXY n).1 (kelvinXY n).2 := by
  by_cases h : n ≤ 11
  · interval_cases n <;> constructor <;> norm_num [kelvinXY]
  · have : kelvinXY n = (0.271782994107569, 0.277561259748537) := by
      unfold kelvinXY
      split <;> first | omega | rfl
    rw [this]; constructor <;> norm_num

theorem LightXY.mix {x y v w f : ℚ} (h : LightXY x y) (k : LightXY v w) (f0 : 0 ≤ f) (f1 : f ≤ 1) :
    LightXY (x * (1 - f) + v * f) (y * (1 - f) + w * f) := by
  have go : ∀ {a b c d : ℚ}, a ≤ b → c ≤ d → a * (1 - f) + c * f ≤ b * (1 - f) + d * f := fun h k =>
    add_le_add (mul_le_mul_of_nonneg_right h (by linarith)) (mul_le_mul_of_nonneg_right k f0)
  obtain ⟨h1, h2, h3, h4, h5, h6, h7, h8, h9, h10⟩ := h
  obtain ⟨k1, k2, k3, k4, k5, k6, k7, k8, k9, k10⟩ := k
  constructor
  · linarith [go h1 k1]
  · linarith [go h2 k2]
  · linarith [go h3 k3]
  · linarith [go h4 k4]
  · linarith [go h5 k5]
  · linarith [go h6 k6]
  · linarith [go h7 k7]
  · linarith [go h8 k8]
  · linarith [go h9 k9]
  · linarith [go h10 k10]

variable [Libm b32] [Libm b64]

omit [Libm b32] in
/-- The chromaticity the program computes is near a good one. -/
theorem chroma_near (T : Nat) (h : 2000 ≤ T) (hT : T ≤ 12000) : ∃ x y, LightXY x y ∧
    N64 (chroma Prod.fst T) x (64 * u64) ∧ N64 (chroma Prod.snd T) y (64 * u64) := by
  have g1 := kelvinXY_good (T / 1000) (by omega)
  have g2 := kelvinXY_good (T / 1000 + 1) (by omega)
  have up : u64 = 1 / 281474976710656 := by norm_num [u64]
  have small : ∀ {a : ℚ}, 0.27 ≤ a → a ≤ 0.53 → |a| ≤ 4 := fun h1 h2 => abs_le.2 ⟨by linarith, by linarith⟩
  by_cases hr : T % 1000 ≤ 1
  · refine ⟨_, _, g1, ?_, ?_⟩
    · unfold chroma
      simp only [if_pos hr]
      exact (N64.lit ((small g1.x0 g1.x1).trans (by norm_num))).mono (by rw [up]; norm_num)
    · unfold chroma
      simp only [if_pos hr]
      exact (N64.lit ((small g1.y0 (g1.y1.trans (by norm_num))).trans (by norm_num))).mono (by rw [up]; norm_num)
  · have ex : ∀ n : Nat, n ≤ 12000 → (FP.ofRat b64 false (n : ℚ)).fin = true ∧ (FP.ofRat b64 false (n : ℚ)).val = n := by
      intro n hn
      have t := FP.int_finite (f := b64) (n : Int) (by rw [abs_of_nonneg (by positivity)]; norm_num [b64]; omega)
      have v := FP.ofRat_rep (f := b64) (s := false) t.1 t.2
      rwa [Int.cast_natCast] at v
    have eT := ex T hT
    have eN := ex (T / 1000 * 1000) (by omega)
    have eM := ex (T % 1000) (by omega)
    have df : (FP.sub (FP.ofRat b64 false (T : ℚ)) (FP.ofRat b64 false ((T / 1000 * 1000 : Nat) : ℚ))).fin = true ∧
        (FP.sub (FP.ofRat b64 false (T : ℚ)) (FP.ofRat b64 false ((T / 1000 * 1000 : Nat) : ℚ))).val = (T % 1000 : Nat) := by
      rw [FP.sub_fin eT.1 eN.1, eT.2, eN.2]
      have : (T : ℚ) - ((T / 1000 * 1000 : Nat) : ℚ) = ((T % 1000 : Nat) : ℚ) := by
        have := Nat.div_add_mod' T 1000
        rw [sub_eq_iff_eq_add]
        exact_mod_cast (by omega : T = T % 1000 + T / 1000 * 1000)
      rw [this]
      have t := FP.int_finite (f := b64) ((T % 1000 : Nat) : Int) (by
        rw [abs_of_nonneg (by positivity)]; norm_num [b64]; omega)
      have v := FP.ofRat_rep (f := b64) (s := (FP.ofRat b64 false (T : ℚ)).isNeg &&
        (FP.ofRat b64 false ((T / 1000 * 1000 : Nat) : ℚ)).neg.isNeg) t.1 t.2
      rwa [Int.cast_natCast] at v
    have k : (FP.ofRat b64 false 1000).fin = true ∧ (FP.ofRat b64 false 1000).val = 1000 := by decide +kernel
    have f0 : (0 : ℚ) ≤ (T % 1000 : Nat) / 1000 := by positivity
    have f1 : ((T % 1000 : Nat) : ℚ) / 1000 ≤ 1 := by
      rw [div_le_one (by norm_num)]
      exact_mod_cast (Nat.mod_lt T (by norm_num)).le
    have fq : N64 (FP.div (FP.sub (FP.ofRat b64 false (T : ℚ)) (FP.ofRat b64 false ((T / 1000 * 1000 : Nat) : ℚ)))
        (FP.ofRat b64 false 1000)) (((T % 1000 : Nat) : ℚ) / 1000) u64 := by
      rw [FP.div_fin df.1 k.1 (by rw [k.2]; norm_num), df.2, k.2]
      have := round64 (s := (FP.sub (FP.ofRat b64 false (T : ℚ)) (FP.ofRat b64 false ((T / 1000 * 1000 : Nat) : ℚ))).isNeg ^^
        (FP.ofRat b64 false 1000).isNeg) (p := ((T % 1000 : Nat) : ℚ) / 1000) (q := ((T % 1000 : Nat) : ℚ) / 1000) (e := 0)
        (by rw [abs_of_nonneg f0]; linarith) (by simp)
      rwa [zero_add] at this
    have comp : ∀ {a b : ℚ}, 0.27 ≤ a → a ≤ 0.53 → 0.27 ≤ b → b ≤ 0.53 →
        N64 (FP.add (FP.mul (FP.ofRat b64 false a) (FP.sub (FP.ofRat b64 false 1) (FP.div (FP.sub (FP.ofRat b64 false (T : ℚ))
          (FP.ofRat b64 false ((T / 1000 * 1000 : Nat) : ℚ))) (FP.ofRat b64 false 1000))))
          (FP.mul (FP.ofRat b64 false b) (FP.div (FP.sub (FP.ofRat b64 false (T : ℚ))
          (FP.ofRat b64 false ((T / 1000 * 1000 : Nat) : ℚ))) (FP.ofRat b64 false 1000))))
          (a * (1 - ((T % 1000 : Nat) : ℚ) / 1000) + b * (((T % 1000 : Nat) : ℚ) / 1000)) (64 * u64) := by
      intro a b a0 a1 b0 b1
      generalize FP.div (FP.sub (FP.ofRat b64 false (T : ℚ)) (FP.ofRat b64 false ((T / 1000 * 1000 : Nat) : ℚ)))
        (FP.ofRat b64 false 1000) = F at fq ⊢
      generalize ((T % 1000 : Nat) : ℚ) / 1000 = f at *
      have ff : |f| ≤ 4 := abs_le.2 ⟨by linarith, by linarith⟩
      have s1 := (N64.lit (q := 1) (by norm_num)).sub fq (by norm_num) ff (by rw [up]; norm_num) (by rw [up]; norm_num)
      have m1 := (N64.lit ((small a0 a1).trans (by norm_num))).mul s1 (small a0 a1)
        (abs_le.2 ⟨by linarith, by linarith⟩) (by rw [up]; norm_num) (by rw [up]; norm_num)
      have m2 := (N64.lit ((small b0 b1).trans (by norm_num))).mul fq (small b0 b1) ff (by rw [up]; norm_num)
        (by rw [up]; norm_num)
      refine (m1.add m2 (abs_le.2 ⟨by nlinarith, by nlinarith⟩) (abs_le.2 ⟨by nlinarith, by nlinarith⟩) (by rw [up]; norm_num)
        (by rw [up]; norm_num)).mono ?_
      rw [up]; norm_num
    refine ⟨_, _, g1.mix g2 f0 f1, ?_, ?_⟩
    · unfold chroma
      simp only [if_neg hr]
      exact comp g1.x0 g1.x1 g2.x0 g2.x1
    · unfold chroma
      simp only [if_neg hr]
      exact comp g1.y0 (g1.y1.trans (by norm_num)) g2.y0 (g2.y1.trans (by norm_num))

/-- The light of 2000 K and more has channels of at least 1/100 in the program's arithmetic. -/
theorem light_channels (T : Nat) (h : 2000 ≤ T) (hT : T ≤ 12000) :
    let c : Col F32 := lightColour F64 T
    (Un c.c0 ∧ 1 / 100 ≤ c.c0.val) ∧ (Un c.c1 ∧ 1 / 100 ≤ c.c1.val) ∧ (Un c.c2 ∧ 1 / 100 ≤ c.c2.val) ∧ c.alpha = lit 1 := by
  obtain ⟨x, y, g, nx, ny⟩ := chroma_near T h hT
  have up : u64 = 1 / 281474976710656 := by norm_num [u64]
  have yp : 0 < y := by linarith [g.y0]
  have s := ny.recip g.y0 (by rw [up]; norm_num)
  have r4 : |1 / y| ≤ 4 := by
    rw [abs_of_pos (by positivity), div_le_iff₀ yp]; linarith [g.y0]
  have ax : |x| ≤ 4 := abs_le.2 ⟨by linarith [g.x0], by linarith [g.x1]⟩
  have ay : |y| ≤ 4 := abs_le.2 ⟨by linarith, by linarith [g.y1]⟩
  have az' : |1 - x| ≤ 4 := abs_le.2 ⟨by linarith [g.x1], by linarith [g.x0]⟩
  have az : |1 - x - y| ≤ 4 := abs_le.2 ⟨by linarith [g.z0], by linarith [g.x0]⟩
  have nz := ((N64.lit (q := 1) (by norm_num)).sub nx (by norm_num) ax (by rw [up]; norm_num) (by rw [up]; norm_num)).sub ny
    az' ay (by rw [up]; norm_num) (by rw [up]; norm_num)
  have X := nx.mul s ax r4 (by rw [up]; norm_num) (by rw [up]; norm_num)
  have Y := ny.mul s ay r4 (by rw [up]; norm_num) (by rw [up]; norm_num)
  have Z := nz.mul s az r4 (by rw [up]; norm_num) (by rw [up]; norm_num)
  have bd : ∀ {v : ℚ}, 0 ≤ v → v ≤ 1.9 * y → |v * (1 / y)| ≤ 1.9 := fun h0 h1 => by
    rw [abs_of_nonneg (by positivity), mul_one_div, div_le_iff₀ yp]; exact h1
  have X := narrow_near X (bd (by linarith [g.x0]) g.xs) (by rw [up]; norm_num)
  have Y := narrow_near Y (bd (by linarith [g.x0]) (by linarith)) (by rw [up]; norm_num)
  have Z := narrow_near Z (bd g.z0 g.zs) (by rw [up]; norm_num)
  -- a row of the matrix
  have row : ∀ {X Y Z : F32} (a b c : ℚ), NearF X ((x * (1 / y) : ℚ) : ℝ) (1 / 10000000) 1.9 →
      NearF Y ((y * (1 / y) : ℚ) : ℝ) (1 / 10000000) 1.9 → NearF Z (((1 - x - y) * (1 / y) : ℚ) : ℝ) (1 / 10000000) 1.9 →
      |a| ≤ 4 → |b| ≤ 4 → |c| ≤ 4 → 0.018 * y ≤ a * x + b * y + c * (1 - x - y) →
      Un (clamp01 (X *. lit a +. Y *. lit b +. Z *. lit c)) ∧ 1 / 100 ≤ (clamp01 (X *. lit a +. Y *. lit b +. Z *. lit c)).val := by
    intro X Y Z a b c hX hY hZ ha hb hc hrow
    have cst : ∀ {q : ℚ}, |q| ≤ 4 → |(q : ℝ)| ≤ 4 := fun h => by exact_mod_cast h
    have m1 := hX.mul 3 (by norm_num) (NearF.lit 2 a (by norm_num) (cst ha) (by norm_num)) (by norm_num)
    have m2 := hY.mul 3 (by norm_num) (NearF.lit 2 b (by norm_num) (cst hb) (by norm_num)) (by norm_num)
    have m3 := hZ.mul 3 (by norm_num) (NearF.lit 2 c (by norm_num) (cst hc) (by norm_num)) (by norm_num)
    have t := (m1.add 4 (by norm_num) m2 (by norm_num)).add 5 (by norm_num) m3 (by norm_num)
    have cl := NearF.clamp_fin t.close.fin
    refine ⟨⟨cl.1, by rw [cl.2]; exact le_max_left _ _, by rw [cl.2]; exact max_le (by norm_num) (min_le_left _ _)⟩, ?_⟩
    rw [cl.2]
    refine le_max_of_le_right (le_min (by norm_num) ?_)
    have e := (abs_le.1 t.close.err).1
    have val : (0.018 : ℝ) ≤ ((x * (1 / y) : ℚ) : ℝ) * (a : ℝ) + ((y * (1 / y) : ℚ) : ℝ) * b +
        (((1 - x - y) * (1 / y) : ℚ) : ℝ) * c := by
      have q : (0.018 : ℚ) ≤ x * (1 / y) * a + y * (1 / y) * b + (1 - x - y) * (1 / y) * c := by
        have : x * (1 / y) * a + y * (1 / y) * b + (1 - x - y) * (1 / y) * c = (a * x + b * y + c * (1 - x - y)) / y := by
          field_simp
        rw [this, le_div_iff₀ yp]; exact hrow
      have := (Rat.cast_le (K := ℝ)).2 q
      push_cast at this ⊢
      exact this
    have fin : ((1 / 100 : ℚ) : ℝ) ≤ ((X *. lit a +. Y *. lit b +. Z *. lit c).val : ℝ) := by
      push_cast
      norm_num at e val ⊢
      linarith
    exact_mod_cast fin
  have R := row 3.240479 (-1.53715) (-0.498535) X Y Z (by norm_num [abs_le]) (by norm_num [abs_le]) (by norm_num [abs_le])
    (by linarith [g.r])
  have G := row (-0.969256) 1.875991 0.041556 X Y Z (by norm_num [abs_le]) (by norm_num [abs_le]) (by norm_num [abs_le])
    (by linarith [g.g])
  have B := row 0.055648 (-0.204043) 1.057311 X Y Z (by norm_num [abs_le]) (by norm_num [abs_le]) (by norm_num [abs_le])
    (by linarith [g.b])
  exact ⟨R, G, B, rfl⟩

end D10
