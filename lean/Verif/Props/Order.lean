import Verif.SpecOrder
import Verif.Lemmas.Order
import Verif.Props.Accuracy
import Verif.Props.Convolution
import Verif.Lemmas.Moves

/-!
# Brighter colours stay brighter, in 32-bit arithmetic (C93)

Rounding could in principle exchange two nearly equal values. It never does: every operation below
maps channelwise ordered colours to channelwise ordered colours, bit for bit as the program computes
them. The specification is `Verif/SpecOrder.lean`.
-/

namespace D10
open Spec
open Scalar (lit)
variable [Libm b32]

local notation "Chan01 " x => FP.fin x = true ∧ 0 ≤ FP.val x ∧ FP.val x ≤ 1

omit [Libm b32] in
theorem chan_abs {x : F32} (h : Chan01 x) : |x.val| ≤ 1 := abs_le.2 ⟨by linarith [h.2.1], h.2.2⟩

omit [Libm b32] in
theorem chan_nn {x : F32} (h : Chan01 x) : x ≠ FP.nan := by
  intro h'; rw [h'] at h; exact absurd h.1 (by simp [FP.fin])

theorem chan_rising {x y : F32} (hx : Chan01 x) (h : (x <=. y) = true) : Rising x y :=
  Rising.of_val hx.1 hx.2.1 h

theorem lit_fin (q : ℚ) (h : |(q : ℝ)| ≤ 4) (h0 : 0 ≤ q) : (lit q : F32).fin = true ∧ 0 ≤ (lit q : F32).val := by
  have a := (NearF.lit (B := 4) 2 q (by norm_num) h (by norm_num)).close.fin
  refine ⟨a, ?_⟩
  have := LawfulScalar.lit_mono (F := F32) 0 q h0
  rw [FP.le_fin Rising.lit0.1 a, Rising.lit0.2, decide_eq_true_iff] at this
  exact this

/-- C93: the brightness change keeps the order, whatever the amount. -/
theorem C93_brightness (c d : Col F32) (hc : UnitCol c) (hd : UnitCol d) (h : Darker c d) (b : F32)
    (hb : Scalar.isNan b = false) : Darker (Rgb.with_brightness c b) (Rgb.with_brightness d b) := by
  have st : ∀ {x y : F32}, (Chan01 x) → (Chan01 y) → (x <=. y) = true →
      (clamp01 (x +. b) <=. clamp01 (y +. b)) = true := by
    intro x y hx hy h
    have hb' := (FP.isNan_false _).1 hb
    refine clamp01_le (FP.add_le h (FP.le_refl hb') ?_ ?_) <;> rw [FP.add_comm']
    · exact FP.add_not_nan hb' hx.1
    · exact FP.add_not_nan hb' hy.1
  exact ⟨st hc.c0 hd.c0 h.c0, st hc.c1 hd.c1 h.c1, st hc.c2 hd.c2 h.c2⟩

theorem stretch_le {x y k : F32} (hx : x.fin = true) (hy : y.fin = true) (h : (x <=. y) = true)
    (hk : k.fin = true) (h0 : 0 ≤ k.val) :
    (clamp01 (x *. k +. lit 0.5) <=. clamp01 (y *. k +. lit 0.5)) = true := by
  have l := lit_fin 0.5 (by norm_num [abs_le]) (by norm_num)
  exact clamp01_le (FP.add_le (FP.mul_le h hx hy hk h0) (FP.le_refl FP.ofRat_not_nan)
    (FP.add_not_nan (FP.mul_not_nan hx hk) l.1) (FP.add_not_nan (FP.mul_not_nan hy hk) l.1))

theorem minus_half {x y : F32} (hx : x.fin = true) (hy : y.fin = true) (h : (x <=. y) = true) :
    (x -. lit 0.5).fin = true ∧ (y -. lit 0.5).fin = true ∧ ((x -. lit 0.5) <=. (y -. lit 0.5)) = true := by
  have hl : (lit 0.5 : F32).fin = true ∧ |(lit 0.5 : F32).val| ≤ 1 := by
    have a := NearF.half
    refine ⟨a.close.fin, ?_⟩
    have e := a.close.err
    have e' : |((lit 0.5 : F32).val : ℝ)| ≤ 1 := by
      have : |((lit 0.5 : F32).val : ℝ) - 1 / 2| = 0 := le_antisymm e (abs_nonneg _)
      rw [abs_eq_zero, sub_eq_zero] at this; rw [this]; norm_num
    exact_mod_cast e'
  have n := FP.neg_fin hl.1
  have s : ∀ {z : F32}, z.fin = true → (z -. lit 0.5 : F32).fin = true := by
    intro z hz
    show (FP.add z (FP.neg (lit 0.5))).fin = true
    rw [FP.add_comm']
    exact FP.add_small n.1 hz (by rw [n.2, abs_neg]; exact hl.2)
  refine ⟨s hx, s hy, ?_⟩
  exact FP.add_le h (FP.le_refl (by intro e; rw [e] at n; exact absurd n.1 (by simp [FP.fin])))
    (FP.sub_not_nan (FP.le_not_nan h).1 hl.1) (FP.sub_not_nan (FP.le_not_nan h).2 hl.1)

/-- C93: the contrast change keeps the order for factors at least 0. -/
theorem C93_contrast (c d : Col F32) (hc : UnitCol c) (hd : UnitCol d) (h : Darker c d) (k : F32)
    (hk : k.fin = true) (h0 : 0 ≤ k.val) : Darker (Rgb.with_contrast c k) (Rgb.with_contrast d k) := by
  have st : ∀ {x y : F32}, (Chan01 x) → (Chan01 y) → (x <=. y) = true →
      (clamp01 ((x -. lit 0.5) *. k +. lit 0.5) <=. clamp01 ((y -. lit 0.5) *. k +. lit 0.5)) = true := by
    intro x y hx hy h
    obtain ⟨a, b, e⟩ := minus_half hx.1 hy.1 h
    exact stretch_le a b e hk h0
  exact ⟨st hc.c0 hd.c0 h.c0, st hc.c1 hd.c1 h.c1, st hc.c2 hd.c2 h.c2⟩

/-- C93: brightness and contrast together, for finite amounts and factors at least 0. -/
theorem C93_brightness_contrast (c d : Col F32) (hc : UnitCol c) (hd : UnitCol d) (h : Darker c d)
    (b k : F32) (hb : b.fin = true) (hk : k.fin = true) (h0 : 0 ≤ k.val) :
    Darker (Rgb.with_brightness_contrast c b k) (Rgb.with_brightness_contrast d b k) := by
  have st : ∀ {x y : F32}, (Chan01 x) → (Chan01 y) → (x <=. y) = true →
      (clamp01 ((x +. b -. lit 0.5) *. k +. lit 0.5) <=. clamp01 ((y +. b -. lit 0.5) *. k +. lit 0.5)) = true := by
    intro x y hx hy h
    have fx := FP.add_small hx.1 hb (chan_abs hx)
    have fy := FP.add_small hy.1 hb (chan_abs hy)
    have nb : b ≠ FP.nan := by intro e; rw [e] at hb; exact absurd hb (by simp [FP.fin])
    have e := FP.add_le h (FP.le_refl nb) (FP.add_not_nan (chan_nn hx) hb) (FP.add_not_nan (chan_nn hy) hb)
    obtain ⟨a, b, e⟩ := minus_half fx fy e
    exact stretch_le a b e hk h0
  exact ⟨st hc.c0 hd.c0 h.c0, st hc.c1 hd.c1 h.c1, st hc.c2 hd.c2 h.c2⟩

/-- C93: inversion reverses the order. -/
theorem C93_invert (c d : Col F32) (hc : UnitCol c) (hd : UnitCol d) (h : Darker c d) :
    Darker (Rgb.invert d) (Rgb.invert c) := by
  have st : ∀ {x y : F32}, (Chan01 x) → (Chan01 y) → (x <=. y) = true → ((lit 1 -. y) <=. (lit 1 -. x)) = true := by
    intro x y hx hy h
    exact FP.add_le (FP.le_refl FP.ofRat_not_nan) (FP.neg_le h)
      (FP.sub_not_nan FP.ofRat_not_nan hy.1) (FP.sub_not_nan FP.ofRat_not_nan hx.1)
  exact ⟨st hc.c0 hd.c0 h.c0, st hc.c1 hd.c1 h.c1, st hc.c2 hd.c2 h.c2⟩

theorem weigh {c d : Col F32} (hc : UnitCol c) (hd : UnitCol d) (h : Darker c d) (p q r : ℚ)
    (hp : 0 ≤ p ∧ |(p : ℝ)| ≤ 4) (hq : 0 ≤ q ∧ |(q : ℝ)| ≤ 4) (hr : 0 ≤ r ∧ |(r : ℝ)| ≤ 4) :
    Rising (c.c0 *. lit p +. c.c1 *. lit q +. c.c2 *. lit r)
      (d.c0 *. lit p +. d.c1 *. lit q +. d.c2 *. lit r) := by
  have lp := lit_fin p hp.2 hp.1
  have lq := lit_fin q hq.2 hq.1
  have lr := lit_fin r hr.2 hr.1
  exact (((chan_rising hc.c0 h.c0).mul hc.c0.1 hd.c0.1 lp.1 lp.2).add
    ((chan_rising hc.c1 h.c1).mul hc.c1.1 hd.c1.1 lq.1 lq.2)).add
    ((chan_rising hc.c2 h.c2).mul hc.c2.1 hd.c2.1 lr.1 lr.2)

theorem max_val {c : Col F32} (hc : UnitCol c) :
    (Rgb.max c).fin = true ∧ (Rgb.max c).val = max (max (max 0 c.c0.val) c.c1.val) c.c2.val := by
  have l0 := Rising.lit0 (f := b32)
  have a := NearF.max_fin l0.1 hc.c0.1
  have b := NearF.max_fin a.1 hc.c1.1
  have e := NearF.max_fin b.1 hc.c2.1
  refine ⟨e.1, ?_⟩
  show (Scalar.max (Scalar.max (Scalar.max (lit 0) c.c0) c.c1) c.c2).val = _
  rw [e.2, b.2, a.2, l0.2]

theorem min_val {c : Col F32} (hc : UnitCol c) :
    (Rgb.min c).fin = true ∧ (Rgb.min c).val = min (min (min 1 c.c0.val) c.c1.val) c.c2.val := by
  have l1 : (lit 1 : F32).fin = true ∧ (lit 1 : F32).val = 1 := FP.lit1
  have a := NearF.min_fin l1.1 hc.c0.1
  have b := NearF.min_fin a.1 hc.c1.1
  have e := NearF.min_fin b.1 hc.c2.1
  refine ⟨e.1, ?_⟩
  show (Scalar.min (Scalar.min (Scalar.min (lit 1) c.c0) c.c1) c.c2).val = _
  rw [e.2, b.2, a.2, l1.2]

theorem max_rising {c d : Col F32} (hc : UnitCol c) (hd : UnitCol d) (h : Darker c d) :
    Rising (Rgb.max c) (Rgb.max d) := by
  have h0 := h.c0; have h1 := h.c1; have h2 := h.c2
  rw [FP.le_fin hc.c0.1 hd.c0.1, decide_eq_true_iff] at h0
  rw [FP.le_fin hc.c1.1 hd.c1.1, decide_eq_true_iff] at h1
  rw [FP.le_fin hc.c2.1 hd.c2.1, decide_eq_true_iff] at h2
  refine Rising.of_val (max_val hc).1 ?_ ?_
  · rw [(max_val hc).2]; exact (le_max_left _ _).trans ((le_max_left _ _).trans (le_max_left _ _))
  · rw [FP.le_fin (max_val hc).1 (max_val hd).1, (max_val hc).2, (max_val hd).2, decide_eq_true_iff]
    exact max_le_max (max_le_max (max_le_max le_rfl h0) h1) h2

theorem min_rising {c d : Col F32} (hc : UnitCol c) (hd : UnitCol d) (h : Darker c d) :
    Rising (Rgb.min c) (Rgb.min d) := by
  have h0 := h.c0; have h1 := h.c1; have h2 := h.c2
  rw [FP.le_fin hc.c0.1 hd.c0.1, decide_eq_true_iff] at h0
  rw [FP.le_fin hc.c1.1 hd.c1.1, decide_eq_true_iff] at h1
  rw [FP.le_fin hc.c2.1 hd.c2.1, decide_eq_true_iff] at h2
  refine Rising.of_val (min_val hc).1 ?_ ?_
  · rw [(min_val hc).2]; exact le_min (le_min (le_min zero_le_one hc.c0.2.1) hc.c1.2.1) hc.c2.2.1
  · rw [FP.le_fin (min_val hc).1 (min_val hd).1, (min_val hc).2, (min_val hd).2, decide_eq_true_iff]
    exact min_le_min (min_le_min (min_le_min le_rfl h0) h1) h2

theorem lit_two_pos : (lit 2 : F32).fin = true ∧ 0 < (lit 2 : F32).val := by
  have e := NearF.two.close.err
  have e' : ((lit 2 : F32).val : ℝ) = 2 := by
    have : |((lit 2 : F32).val : ℝ) - 2| = 0 := le_antisymm e (abs_nonneg _)
    rwa [abs_eq_zero, sub_eq_zero] at this
  have h : (0 : ℝ) < (lit 2 : F32).val := by rw [e']; norm_num
  exact ⟨NearF.two.close.fin, by exact_mod_cast h⟩

/-- C93: conversion to gray keeps the order, for every intensity but the saturation. -/
theorem C93_gray (c d : Col F32) (hc : UnitCol c) (hd : UnitCol d) (h : Darker c d) (i : Intensity)
    (hi : i ≠ .Saturation) : Darker (Rgb.to_gray_with_intensity c i) (Rgb.to_gray_with_intensity d i) := by
  have same : ∀ {x y : F32}, (x <=. y) = true → ∀ a b, Darker ⟨x, x, x, a⟩ ⟨y, y, y, b⟩ :=
    fun h _ _ => ⟨h, h, h⟩
  have three : (lit 3 : F32).fin = true ∧ 0 < (lit 3 : F32).val := by
    have e := NearF.three.close.err
    have : ((lit 3 : F32).val : ℝ) = 3 := by
      have : |((lit 3 : F32).val : ℝ) - 3| = 0 := le_antisymm e (abs_nonneg _)
      rwa [abs_eq_zero, sub_eq_zero] at this
    exact ⟨NearF.three.close.fin, by have h : (0 : ℝ) < (lit 3 : F32).val := by rw [this]; norm_num
                                     exact_mod_cast h⟩
  cases i
  · exact same ((((chan_rising hc.c0 h.c0).add (chan_rising hc.c1 h.c1)).add
      (chan_rising hc.c2 h.c2)).div three.1 three.2).le _ _
  · exact same (weigh hc hd h 0.298839 0.586811 0.114350 (by norm_num [abs_le]) (by norm_num [abs_le])
      (by norm_num [abs_le])).le _ _
  · exact same (weigh hc hd h 0.212656 0.715158 0.072186 (by norm_num [abs_le]) (by norm_num [abs_le])
      (by norm_num [abs_le])).le _ _
  · exact same (max_rising hc hd h).le _ _
  · exact same (((min_rising hc hd h).add (max_rising hc hd h)).div lit_two_pos.1 lit_two_pos.2).le _ _
  · exact absurd rfl hi
  · exact same h.c0 _ _
  · exact same h.c1 _ _
  · exact same h.c2 _ _

/-- C93: sepia keeps the order. -/
theorem C93_sepia (c d : Col F32) (hc : UnitCol c) (hd : UnitCol d) (h : Darker c d) :
    Darker (Rgb.with_sepia c) (Rgb.with_sepia d) :=
  ⟨(weigh hc hd h _ _ _ (by norm_num [abs_le]) (by norm_num [abs_le]) (by norm_num [abs_le])).clamp.le,
    (weigh hc hd h _ _ _ (by norm_num [abs_le]) (by norm_num [abs_le]) (by norm_num [abs_le])).clamp.le,
    (weigh hc hd h _ _ _ (by norm_num [abs_le]) (by norm_num [abs_le]) (by norm_num [abs_le])).clamp.le⟩

theorem one_minus {a : F32} (ha : Chan01 a) : (lit 1 -. a : F32).fin = true ∧ 0 ≤ (lit 1 -. a : F32).val := by
  have l1 : (lit 1 : F32).fin = true ∧ (lit 1 : F32).val = 1 := FP.lit1
  have f : (lit 1 -. a : F32).fin = true :=
    FP.add_small l1.1 (FP.neg_fin ha.1).1 (by rw [l1.2]; norm_num)
  refine ⟨f, ?_⟩
  have : ((lit 0 : F32) <=. (lit 1 -. a)) = true := by
    show ((lit 0 : F32) <=. FP.sub (lit 1) a) = true
    rw [FP.sub_fin l1.1 ha.1, l1.2]
    exact FP.ofRat_le (by linarith [ha.2.2])
  rw [FP.le_fin Rising.lit0.1 f, Rising.lit0.2, decide_eq_true_iff] at this
  exact this

/-- C93: drawing over a brighter base, or drawing a brighter colour of the same opacity, gives a
brighter result. -/
theorem C93_alpha_blend (c d o p : Col F32) (hc : UnitCol c) (hd : UnitCol d) (ho : UnitCol o)
    (hp : UnitCol p) (h : Darker c d) (ho' : Darker o p) (ha : o.alpha = p.alpha) :
    Darker (Rgb.alpha_blend c o) (Rgb.alpha_blend d p) := by
  have st : ∀ {x y u v : F32}, (Chan01 x) → (Chan01 y) → (Chan01 u) → (Chan01 v) → (x <=. y) = true →
      (u <=. v) = true →
      (clamp01 (u *. o.alpha +. (lit 1 -. o.alpha) *. x) <=.
        clamp01 (v *. p.alpha +. (lit 1 -. p.alpha) *. y)) = true := by
    intro x y u v hx hy hu hv h h'
    rw [← ha]
    have m := one_minus ho.alpha
    exact (((chan_rising hu h').mul hu.1 hv.1 ho.alpha.1 ho.alpha.2.1).add
      ((chan_rising hx h).mul_left hx.1 hy.1 m.1 m.2)).clamp.le
  exact ⟨st hc.c0 hd.c0 ho.c0 hp.c0 h.c0 ho'.c0, st hc.c1 hd.c1 ho.c1 hp.c1 h.c1 ho'.c1,
    st hc.c2 hd.c2 ho.c2 hp.c2 h.c2 ho'.c2⟩

theorem clamped_chan {x : F32} (h : x ≠ FP.nan) : Chan01 (clamp01 x) := by
  have l0 := Rising.lit0 (f := b32)
  have l1 : (lit 1 : F32).fin = true ∧ (lit 1 : F32).val = 1 := FP.lit1
  rcases FP.kinds x with rfl | ⟨s, rfl⟩ | hx
  · exact absurd rfl h
  · cases s
    · have : clamp01 (FP.inf false : F32) = lit 1 := by
        unfold clamp01 Scalar.clamp
        rw [show Scalar.lt (FP.inf false : F32) (lit 0) = false from FP.lt_inf_fin l0.1,
          show Scalar.lt (lit 1 : F32) (FP.inf false) = true from FP.lt_fin_inf l1.1]
        rfl
      rw [this]; exact ⟨l1.1, by rw [l1.2]; norm_num, by rw [l1.2]⟩
    · have : clamp01 (FP.inf true : F32) = lit 0 := by
        unfold clamp01 Scalar.clamp
        rw [show Scalar.lt (FP.inf true : F32) (lit 0) = true from FP.lt_inf_fin l0.1]
        rfl
      rw [this]; exact ⟨l0.1, by rw [l0.2], by rw [l0.2]; norm_num⟩
  · have a := NearF.clamp_fin hx
    rw [a.2]; exact ⟨a.1, le_max_left _ _, max_le zero_le_one (min_le_left _ _)⟩

/-- C93: the gamma change keeps the order if the platform's `powf` does. -/
theorem C93_gamma (c d : Col F32) (hc : UnitCol c) (hd : UnitCol d) (h : Darker c d) (g : F32)
    (hg : PowOrdered (lit 1 /. g)) : Darker (Rgb.with_gamma c g) (Rgb.with_gamma d g) := by
  have st : ∀ {x y : F32}, (Chan01 x) → (Chan01 y) → (x <=. y) = true →
      (clamp01 (Scalar.powf (clamp01 x) (lit 1 /. g)) <=. clamp01 (Scalar.powf (clamp01 y) (lit 1 /. g))) = true :=
    fun hx hy h => clamp01_le (hg.mono _ _ (clamped_chan (chan_nn hx)) (clamped_chan (chan_nn hy)) (clamp01_le h))
  exact ⟨st hc.c0 hd.c0 h.c0, st hc.c1 hd.c1 h.c1, st hc.c2 hd.c2 h.c2⟩

/-- C93: the two-sided gamma change keeps the order, also across the middle, if `powf` does. -/
theorem C93_gamma_opt (c d : Col F32) (hc : UnitCol c) (hd : UnitCol d) (h : Darker c d) (g : F32)
    (hg : PowOrdered (lit 1 /. g)) (hg' : PowOrdered (lit 1 *. g)) :
    Darker (Rgb.with_gamma_opt c g) (Rgb.with_gamma_opt d g) := by
  have two := lit_two_pos
  have half := lit_fin 0.5 (by norm_num [abs_le]) (by norm_num)
  have hh : (lit 0.5 : F32) ≠ FP.nan := FP.ofRat_not_nan
  have div_nn : ∀ {z : F32}, (Chan01 z) → (z /. lit 2 : F32) ≠ FP.nan := fun {z} hz =>
    (FP.le_not_nan (FP.div_le (FP.le_refl (chan_nn hz)) two.1 two.2)).1
  have st : ∀ {x y : F32}, (Chan01 x) → (Chan01 y) → (x <=. y) = true →
      (clamp01 (if lit 0.5 <. x then
          Scalar.powf (clamp01 ((x -. lit 0.5) *. lit 2)) (lit 1 /. g) /. lit 2 +. lit 0.5
        else Scalar.powf (clamp01 (x *. lit 2)) (lit 1 *. g) /. lit 2) <=.
      clamp01 (if lit 0.5 <. y then
          Scalar.powf (clamp01 ((y -. lit 0.5) *. lit 2)) (lit 1 /. g) /. lit 2 +. lit 0.5
        else Scalar.powf (clamp01 (y *. lit 2)) (lit 1 *. g) /. lit 2)) = true := by
    intro x y hx hy h
    obtain ⟨fx, fy, e⟩ := minus_half hx.1 hy.1 h
    have cx := clamped_chan (x := (x -. lit 0.5) *. lit 2) (FP.mul_not_nan fx two.1)
    have cy := clamped_chan (x := (y -. lit 0.5) *. lit 2) (FP.mul_not_nan fy two.1)
    have dx := clamped_chan (x := x *. lit 2) (FP.mul_not_nan hx.1 two.1)
    have dy := clamped_chan (x := y *. lit 2) (FP.mul_not_nan hy.1 two.1)
    apply clamp01_le
    by_cases h1 : (lit 0.5 <. x) = true
    · have h2 : (lit 0.5 <. y) = true := by
        by_contra hc
        have := LawfulScalar.total _ _ ((FP.isNan_false _).2 hh) ((FP.isNan_false _).2 (chan_nn hy))
          (by simpa using hc)
        rw [lt_false_of_le (LawfulScalar.le_trans _ _ _ h this)] at h1; cases h1
      rw [if_pos h1, if_pos h2]
      refine FP.add_le (FP.div_le (hg.mono _ _ cx cy (clamp01_le (FP.mul_le e fx fy two.1 two.2.le))) two.1
        two.2) (FP.le_refl hh) (FP.add_not_nan (div_nn (hg.range _ cx)) half.1)
        (FP.add_not_nan (div_nn (hg.range _ cy)) half.1)
    · rw [if_neg h1]
      by_cases h2 : (lit 0.5 <. y) = true
      · rw [if_pos h2]
        have r1 := hg'.range _ dx
        have r2 := hg.range _ cy
        have l1 : (lit 1 : F32).fin = true ∧ (lit 1 : F32).val = 1 := FP.lit1
        have a : (Scalar.powf (clamp01 (x *. lit 2)) (lit 1 *. g) <=. (lit 1 : F32)) = true := by
          rw [FP.le_fin r1.1 l1.1, l1.2, decide_eq_true_iff]; exact r1.2.2
        have a' := FP.div_le a two.1 two.2
        have e1 : FP.div (lit 1 : F32) (lit 2) = lit 0.5 := by
          show FP.div (FP.ofRat b32 false 1) (FP.ofRat b32 false 2) = FP.ofRat b32 false 0.5
          decide +kernel
        rw [e1] at a'
        refine LawfulScalar.le_trans _ _ _ a' ?_
        have b0 := ((Rising.rfl' (x := Scalar.powf (clamp01 ((y -. lit 0.5) *. lit 2)) (lit 1 /. g)) (by
          rw [FP.le_fin Rising.lit0.1 r2.1, Rising.lit0.2]; simpa using r2.2.1)).div two.1 two.2).nonneg
        have b1 := FP.add_le b0 (FP.le_refl hh) (FP.add_not_nan FP.ofRat_not_nan half.1)
          (FP.add_not_nan (div_nn r2) half.1)
        have e2 : FP.add (lit 0 : F32) (lit 0.5) = lit 0.5 := by
          show FP.add (FP.ofRat b32 false 0) (FP.ofRat b32 false 0.5) = FP.ofRat b32 false 0.5
          decide +kernel
        rw [e2] at b1
        exact b1
      · rw [if_neg h2]
        exact FP.div_le (hg'.mono _ _ dx dy (clamp01_le (FP.mul_le h hx.1 hy.1 two.1 two.2.le))) two.1 two.2
  exact ⟨st hc.c0 hd.c0 h.c0, st hc.c1 hd.c1 h.c1, st hc.c2 hd.c2 h.c2⟩

/-- The factor by which `with_level` multiplies is finite and not negative. -/
theorem level_factor {bp wp : F32} (hb : bp.fin = true) (hw : wp.fin = true) (h : bp.val ≤ wp.val) :
    let diff := wp -. bp
    let k : F32 := if Scalar.abs diff <. f32_EPSILON then lit 1 /. EPSILON else lit 1 /. diff
    k.fin = true ∧ 0 ≤ k.val := by
  intro diff k
  have l1 : (lit 1 : F32).fin = true ∧ (lit 1 : F32).val = 1 := FP.lit1
  have d0 : ((lit 0 : F32) <=. diff) = true := by
    show ((lit 0 : F32) <=. FP.sub wp bp) = true
    rw [FP.sub_fin hw hb]
    exact FP.ofRat_le (by linarith)
  by_cases c : (Scalar.abs diff <. f32_EPSILON) = true
  · have : k = lit 1 /. EPSILON := if_pos c
    rw [this]
    have g : (FP.div (FP.ofRat b32 false 1) (FP.div (FP.ofRat b32 false 1) (FP.ofRat b32 false 32768))).fin = true ∧
      0 ≤ (FP.div (FP.ofRat b32 false 1) (FP.div (FP.ofRat b32 false 1) (FP.ofRat b32 false 32768))).val := by
      decide +kernel
    exact g
  · have : k = lit 1 /. diff := if_neg c
    rw [this]
    rcases Rising.pos_inf d0 with hf | hi
    · rw [FP.le_fin Rising.lit0.1 hf, Rising.lit0.2, decide_eq_true_iff] at d0
      have he : (f32_EPSILON : F32).fin = true ∧ (f32_EPSILON : F32).val = 1 / 8388608 := by
        have g : (FP.ofRat b32 false (1 / 8388608)).fin = true ∧ (FP.ofRat b32 false (1 / 8388608)).val = 1 / 8388608 := by
          decide +kernel
        exact g
      have ha := FP.abs_fin hf
      have c' : ¬ FP.lt (FP.abs diff) f32_EPSILON = true := c
      rw [FP.lt_fin ha.1 he.1, ha.2, he.2, decide_eq_true_iff, not_lt, abs_of_nonneg d0] at c'
      have hp : 0 < diff.val := by linarith
      have e : (lit 1 /. diff : F32) = FP.ofRat b32 (FP.isNeg (lit 1 : F32) ^^ diff.isNeg) (1 / diff.val) := by
        show FP.div (lit 1) diff = _
        rw [FP.div_fin l1.1 hf hp.ne', l1.2]
      have q0 : 0 ≤ 1 / diff.val := by positivity
      have q1 : |1 / diff.val| ≤ 8388608 := by
        rw [abs_of_nonneg q0, div_le_iff₀ hp]; linarith
      have r : IsRep b32 8388608 ∧ (8388608 : ℚ) < pow2 b32.emax := by
        have := FP.int_finite (f := b32) 8388608 (by norm_num [b32])
        norm_num at this
        exact ⟨this.1, this.2⟩
      rw [e]
      have v := FP.ofRat_of_le (f := b32) (s := (FP.isNeg (lit 1 : F32) ^^ diff.isNeg)) r.1 r.2 q1
      exact ⟨v.1, by rw [v.2]; exact rn_nonneg q0⟩
    · rw [hi]
      have : (lit 1 /. (FP.inf false) : F32) = FP.zero false := by
        show FP.div (FP.ofRat b32 false 1) (FP.inf false) = _
        decide +kernel
      rw [this]; exact ⟨rfl, le_rfl⟩


/-- C93: the level change keeps the order when the white point is not below the black point, if
`powf` does. -/
theorem C93_level (c d : Col F32) (hc : UnitCol c) (hd : UnitCol d) (h : Darker c d) (bp wp g : F32)
    (hb : bp.fin = true) (hw : wp.fin = true) (hbw : bp.val ≤ wp.val) (hg : PowOrdered (lit 1 /. g)) :
    Darker (Rgb.with_level c bp wp g) (Rgb.with_level d bp wp g) := by
  obtain ⟨fk, k0⟩ := level_factor hb hw hbw
  have n := FP.neg_fin hb
  have st : ∀ {x y : F32}, (Chan01 x) → (Chan01 y) → (x <=. y) = true →
      (clamp01 (Rgb.level bp wp g x) <=. clamp01 (Rgb.level bp wp g y)) = true := by
    intro x y hx hy h
    have fx : (x -. bp : F32).fin = true := FP.add_small hx.1 n.1 (chan_abs hx)
    have fy : (y -. bp : F32).fin = true := FP.add_small hy.1 n.1 (chan_abs hy)
    have e : ((x -. bp) <=. (y -. bp)) = true :=
      FP.add_le h (FP.le_refl (by intro e; rw [e] at n; exact absurd n.1 (by simp [FP.fin])))
        (FP.sub_not_nan (chan_nn hx) hb) (FP.sub_not_nan (chan_nn hy) hb)
    exact clamp01_le (hg.mono _ _ (clamped_chan (FP.mul_not_nan fx fk)) (clamped_chan (FP.mul_not_nan fy fk))
      (clamp01_le (FP.mul_le e fx fy fk k0)))
  exact ⟨st hc.c0 hd.c0 h.c0, st hc.c1 hd.c1 h.c1, st hc.c2 hd.c2 h.c2⟩

theorem foldl_rising {ι : Type} (l : List ι) (f g : ι → F32) (h : ∀ i ∈ l, Rising (f i) (g i)) {a b : F32}
    (hab : Rising a b) : Rising ((l.map f).foldl (· +. ·) a) ((l.map g).foldl (· +. ·) b) := by
  induction l generalizing a b with
  | nil => exact hab
  | cons i l ih =>
    exact ih (fun j hj => h j (List.mem_cons_of_mem _ hj)) (hab.add (h i List.mem_cons_self))

theorem total_rising {W H : Nat} {t u : Nat → Nat → F32}
    (h : ∀ i j, i < W → j < H → Rising (t i j) (u i j)) : Rising (total W H t) (total W H u) := by
  have e : ∀ t : Nat → Nat → F32, rows W H t =
      ((List.range H).flatMap fun y => (List.range W).map fun x => (x, y)).map fun p => t p.1 p.2 := by
    intro t; unfold rows; rw [List.map_flatMap]; simp only [List.map_map]; rfl
  unfold total
  rw [e t, e u]
  apply foldl_rising
  · intro p hp
    simp only [List.mem_flatMap, List.mem_map, List.mem_range] at hp
    obtain ⟨y, hy, x, hx, rfl⟩ := hp
    exact h x y hx hy
  · exact Rising.rfl' (FP.le_refl FP.ofRat_not_nan)


/-- C93: convolution with non-negative weights keeps the order: if no pixel of one image is brighter
than the same pixel of the other, the same holds after the convolution. -/
theorem C93_convolution {b b' : PixelBuffer (Col F32)} {w h : Nat} {px px' : Nat → Nat → Col F32}
    (s : Shows b w h px) (s' : Shows b' w h px')
    (hu : ∀ x y, x < w → y < h → UnitCol (px x y) ∧ UnitCol (px' x y) ∧ Darker (px x y) (px' x y))
    {k : Kernel F32} {N : Nat} {wt : Nat → Nat → F32} (hk : k.Holds N wt) (hN : N ≤ 1073741824)
    (hwt : ∀ i j, i < N → j < N → (wt i j).fin = true ∧ 0 ≤ (wt i j).val) :
    ∃ r r' q q', b.apply_kernel N k = .ok r ∧ b'.apply_kernel N k = .ok r' ∧
      Shows r w h q ∧ Shows r' w h q' ∧ ∀ x y, x < w → y < h → Darker (q x y) (q' x y) := by
  obtain ⟨r, hr, sr⟩ := C10_apply_kernel s hk hN
  obtain ⟨r', hr', sr'⟩ := C10_apply_kernel s' hk hN
  refine ⟨r, r', _, _, hr, hr', sr, sr', ?_⟩
  intro x y hx hy
  have near : ∀ i j : Int, UnitCol (px (nearest w i) (nearest h j)) ∧
      UnitCol (px' (nearest w i) (nearest h j)) ∧
      Darker (px (nearest w i) (nearest h j)) (px' (nearest w i) (nearest h j)) := fun i j =>
    hu _ _ (nearest_lt (by omega) i) (nearest_lt (by omega) j)
  refine ⟨(total_rising ?_).le, (total_rising ?_).le, (total_rising ?_).le⟩ <;> intro i j hi hj <;>
    obtain ⟨a, b, e⟩ := near (x + i - (N / 2 : Nat)) (y + j - (N / 2 : Nat))
  · exact (chan_rising a.c0 e.c0).mul_left a.c0.1 b.c0.1 (hwt i j hi hj).1 (hwt i j hi hj).2
  · exact (chan_rising a.c1 e.c1).mul_left a.c1.1 b.c1.1 (hwt i j hi hj).1 (hwt i j hi hj).2
  · exact (chan_rising a.c2 e.c2).mul_left a.c2.1 b.c2.1 (hwt i j hi hj).1 (hwt i j hi hj).2

/-! ## The hypotheses are met -/

/-- Two colours in order: (1/4, 0, 1) and (1/2, 0, 1). -/
example : ∃ c d : Col F32, UnitCol c ∧ UnitCol d ∧ Darker c d ∧ ¬ Darker d c := by
  have e : ∀ q : ℚ, q ∈ [0, 1 / 4, 1 / 2, 1] → (FP.ofRat b32 false q).fin = true ∧ (FP.ofRat b32 false q).val = q := by
    decide +kernel
  have r : ∀ q : ℚ, q ∈ [0, 1 / 4, 1 / 2, 1] → (FP.ofRat b32 false q).fin = true ∧
      0 ≤ (FP.ofRat b32 false q).val ∧ (FP.ofRat b32 false q).val ≤ 1 := by
    decide +kernel
  refine ⟨⟨lit (1 / 4), lit 0, lit 1, lit 1⟩, ⟨lit (1 / 2), lit 0, lit 1, lit 1⟩,
    ⟨r _ (by simp), r _ (by simp), r _ (by simp), r _ (by simp)⟩,
    ⟨r _ (by simp), r _ (by simp), r _ (by simp), r _ (by simp)⟩,
    ⟨LawfulScalar.lit_mono (1 / 4) (1 / 2) (by norm_num), LawfulScalar.lit_mono 0 0 le_rfl,
      LawfulScalar.lit_mono 1 1 le_rfl⟩, ?_⟩
  intro h
  have : ((FP.ofRat b32 false (1 / 2) : F32) <=. FP.ofRat b32 false (1 / 4)) = true := h.c0
  rw [FP.le_fin (e (1 / 2) (by simp)).1 (e (1 / 4) (by simp)).1] at this
  rw [(e (1 / 2) (by simp)).2, (e (1 / 4) (by simp)).2] at this
  norm_num at this

/-- A `powf` that keeps the order. -/
example : @PowOrdered (Libm.trivial b32) (FP.ofRat b32 false 1) :=
  letI := Libm.trivial b32
  { range := fun _ h => h, mono := fun _ _ _ _ h => h }

/-- Weights of a 3 × 3 mean that are finite and not negative. -/
example : ∃ k : Kernel F32, k.Holds 3 (fun _ _ => lit (1 / 9)) ∧ (lit (1 / 9) : F32).fin = true ∧
    0 ≤ (lit (1 / 9) : F32).val :=
  ⟨⟨_⟩, rfl, lit_fin _ (by norm_num [abs_le]) (by norm_num)⟩

end D10
