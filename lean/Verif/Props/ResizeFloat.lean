import Verif.Lemmas.PosFloat
import Verif.Lemmas.Interp
import Verif.Props.Sample

/-!
# Resizing in binary32 stays close to resizing in exact arithmetic (C104)
-/

namespace D10
open Spec

/-! ## Rounding errors of the two interpolations -/

section Rounding
variable [Libm b32]

/-- `a + (b - a) * t` -/
theorem lerp_near {a b t : F32} {p q r e : ℝ} (ha : NearF a p e 1) (hb : NearF b q e 1)
    (ht : NearF t r (1 / 33554432) 1) (hpq : |q - p| ≤ 1) (he : e ≤ 1 / 1000)
    (hB : |p + (q - p) * r| ≤ 1) :
    NearF (lerp a b t) (p + (q - p) * r) (3 * e + 10 / 33554432) 1 := by
  have e0 := ha.e_nonneg
  have h1 := (NearF.sub' (C := 1) 1 (by norm_num) hb ha hpq (by linarith)).mono
    (d := 2 * e + 2 / 33554432) (B := 1) (by linarith) le_rfl
  have h2 := (NearF.mul 1 (by norm_num) h1 ht (by linarith)).mono
    (d := 2 * e + 51 / 10 / 33554432) (B := 1) (by linarith) (by norm_num)
  have h3 := NearF.add 2 (by norm_num) ha h2 (by linarith)
  exact ⟨h3.close.mono (by linarith), hB⟩

theorem by_two {x : F32} {q e B : ℝ} (k : ℕ) (hk : k ≤ 100) (h : NearF x q e B)
    (hb : B / 2 + e / 2 ≤ 2 ^ k) : NearF (x /. lit 2) (q / 2) (e / 2 + 2 ^ k / 33554432) (B / 2) := by
  have := NearF.div (m := 2) k hk h NearF.two (by norm_num) (by norm_num) (by norm_num; linarith)
  exact this.mono (by norm_num) le_rfl

theorem neg_near {x : F32} {q e B : ℝ} (h : NearF x q e B) : NearF (Scalar.neg x) (-q) e B := by
  have n := FP.neg_fin h.close.fin
  refine ⟨⟨n.1, ?_⟩, by rw [abs_neg]; exact h.le⟩
  show |((FP.neg x).val : ℝ) - -q| ≤ e
  rw [n.2]
  push_cast
  have : -(x.val : ℝ) - -q = -(x.val - q) := by ring
  rw [this, abs_neg]; exact h.close.err

theorem times_t {x t : F32} {q r e A : ℝ} (k : ℕ) (hk : k ≤ 100) (hx : NearF x q e A)
    (ht : NearF t r (1 / 33554432) 1) (he : e ≤ 1 / 10) (hb : A + 1 ≤ 2 ^ k) (hA : A ≤ 100) :
    NearF (x *. t) (q * r) (e + (A + 1 + 2 ^ k) / 33554432) A := by
  have e0 := hx.e_nonneg
  have A0 := hx.b_nonneg
  have := NearF.mul k hk hx ht (by linarith)
  refine this.mono ?_ (by linarith)
  have : e * (1 / 33554432) ≤ 1 / 33554432 := by linarith
  linarith [add_div (A + 1) (2 ^ k) (33554432 : ℝ)]

set_option maxHeartbeats 1000000 in
/-- The cubic, for values up to 2. -/
theorem cubic_near {a b c d t : F32} {p q r s u e : ℝ} (ha : NearF a p e 2) (hb : NearF b q e 2)
    (hc : NearF c r e 2) (hd : NearF d s e 2) (ht : NearF t u (1 / 33554432) 1) (he : e ≤ 1 / 1000)
    {B : ℝ} (hB : |poly p q r s u| ≤ B) :
    NearF (cubic a b c d t) (poly p q r s u) (12 * e + 380 / 33554432) B := by
  have e0 := ha.e_nonneg
  have five : NearF (lit 5 : F32) 5 0 5 := by
    have := NearF.lit_rep (B := 5) 5 (by decide +kernel) (by norm_num)
    simpa using this
  -- halves
  have na := (by_two 1 (by norm_num) (neg_near ha) (by linarith)).mono
    (d := e / 2 + 2 / 33554432) (B := 1) (by linarith) (by norm_num)
  have hc2 := (by_two 1 (by norm_num) hc (by linarith)).mono
    (d := e / 2 + 2 / 33554432) (B := 1) (by linarith) (by norm_num)
  have hd2 := (by_two 1 (by norm_num) hd (by linarith)).mono
    (d := e / 2 + 2 / 33554432) (B := 1) (by linarith) (by norm_num)
  have b3 := (NearF.mul 3 (by norm_num) NearF.three hb (by linarith)).mono
    (d := 3 * e + 8 / 33554432) (B := 6) (by linarith) (by norm_num)
  have b32' := (by_two 2 (by norm_num) b3 (by linarith)).mono
    (d := 3 / 2 * e + 8 / 33554432) (B := 3) (by linarith) (by norm_num)
  have c3 := (NearF.mul 3 (by norm_num) NearF.three hc (by linarith)).mono
    (d := 3 * e + 8 / 33554432) (B := 6) (by linarith) (by norm_num)
  have c32 := (by_two 2 (by norm_num) c3 (by linarith)).mono
    (d := 3 / 2 * e + 8 / 33554432) (B := 3) (by linarith) (by norm_num)
  have b5 := (NearF.mul 4 (by norm_num) five hb (by linarith)).mono
    (d := 5 * e + 16 / 33554432) (B := 10) (by linarith) (by norm_num)
  have b52 := (by_two 3 (by norm_num) b5 (by linarith)).mono
    (d := 5 / 2 * e + 16 / 33554432) (B := 5) (by linarith) (by norm_num)
  have c2 := (NearF.mul 3 (by norm_num) NearF.two hc (by linarith)).mono
    (d := 2 * e + 8 / 33554432) (B := 4) (by linarith) (by norm_num)
  -- cubic coefficient
  have A1 := (NearF.add 3 (by norm_num) na b32' (by linarith)).mono
    (d := 2 * e + 18 / 33554432) (B := 4) (by linarith) (by norm_num)
  have A2 := (NearF.sub 3 (by norm_num) A1 c32 (by linarith)).mono
    (d := 7 / 2 * e + 34 / 33554432) (B := 7) (by linarith) (by norm_num)
  have A3 := (NearF.add 4 (by norm_num) A2 hd2 (by linarith)).mono
    (d := 4 * e + 52 / 33554432) (B := 8) (by linarith) (by norm_num)
  have A4 := (times_t 4 (by norm_num) A3 ht (by linarith) (by norm_num) (by norm_num)).mono
    (d := 4 * e + 77 / 33554432) (B := 8) (by linarith) le_rfl
  have A5 := (times_t 4 (by norm_num) A4 ht (by linarith) (by norm_num) (by norm_num)).mono
    (d := 4 * e + 102 / 33554432) (B := 8) (by linarith) le_rfl
  have A6 := (times_t 4 (by norm_num) A5 ht (by linarith) (by norm_num) (by norm_num)).mono
    (d := 4 * e + 127 / 33554432) (B := 8) (by linarith) le_rfl
  -- quadratic coefficient
  have B1 := (NearF.sub 3 (by norm_num) ha b52 (by linarith)).mono
    (d := 7 / 2 * e + 24 / 33554432) (B := 7) (by linarith) (by norm_num)
  have B2 := (NearF.add 4 (by norm_num) B1 c2 (by linarith)).mono
    (d := 11 / 2 * e + 48 / 33554432) (B := 11) (by linarith) (by norm_num)
  have B3 := (NearF.sub 4 (by norm_num) B2 hd2 (by linarith)).mono
    (d := 6 * e + 66 / 33554432) (B := 12) (by linarith) (by norm_num)
  have B4 := (times_t 4 (by norm_num) B3 ht (by linarith) (by norm_num) (by norm_num)).mono
    (d := 6 * e + 95 / 33554432) (B := 12) (by linarith) le_rfl
  have B5 := (times_t 4 (by norm_num) B4 ht (by linarith) (by norm_num) (by norm_num)).mono
    (d := 6 * e + 124 / 33554432) (B := 12) (by linarith) le_rfl
  -- linear coefficient
  have C1 := (NearF.add 2 (by norm_num) na hc2 (by linarith)).mono
    (d := e + 8 / 33554432) (B := 2) (by linarith) (by norm_num)
  have C2 := (times_t 2 (by norm_num) C1 ht (by linarith) (by norm_num) (by norm_num)).mono
    (d := e + 15 / 33554432) (B := 2) (by linarith) le_rfl
  -- together
  have D1 := (NearF.add 5 (by norm_num) A6 B5 (by linarith)).mono
    (d := 10 * e + 283 / 33554432) (B := 20) (by linarith) (by norm_num)
  have D2 := (NearF.add 5 (by norm_num) D1 C2 (by linarith)).mono
    (d := 11 * e + 330 / 33554432) (B := 22) (by linarith) (by norm_num)
  have D3 := (NearF.add 5 (by norm_num) D2 hb (by linarith)).mono
    (d := 12 * e + 362 / 33554432) (B := 24) (by linarith) (by norm_num)
  exact ⟨(D3.close.mono (by linarith)).congr (by unfold poly; ring), hB⟩

/-- One channel of a bilinear sample. -/
theorem bilinear_near {f : ℤ → ℤ → F32} (hf : ∀ i j, (f i j).fin = true ∧ 0 ≤ (f i j).val ∧ (f i j).val ≤ 1)
    {vx vy : F32} (x1 : vx.fin = true) (x2 : -1 ≤ vx.val) (x3 : vx.val ≤ 4194304)
    (y1 : vy.fin = true) (y2 : -1 ≤ vy.val) (y3 : vy.val ≤ 4194304) :
    NearF (lerp (lerp (f (base vx) (base vy + 0)) (f (base vx + 1) (base vy + 0)) (frac vx))
        (lerp (f (base vx) (base vy + 1)) (f (base vx + 1) (base vy + 1)) (frac vx)) (frac vy))
      (lin (fun j => lin (fun i => (f i j).val) vx.val) vy.val) (40 / 33554432) 1 := by
  obtain ⟨bx, fx⟩ := base_frac_near x1 x2 x3
  obtain ⟨by', fy⟩ := base_frac_near y1 y2 y3
  have ex : ⌊(vx.val : ℝ)⌋ = ⌊vx.val⌋ := Rat.floor_cast _
  have ey : ⌊(vy.val : ℝ)⌋ = ⌊vy.val⌋ := Rat.floor_cast _
  have hr : ∀ i j, (0 : ℝ) ≤ (f i j).val ∧ ((f i j).val : ℝ) ≤ 1 := fun i j =>
    ⟨by exact_mod_cast (hf i j).2.1, by exact_mod_cast (hf i j).2.2⟩
  have row : ∀ j, NearF (lerp (f (base vx) j) (f (base vx + 1) j) (frac vx))
      (lin (fun i => (f i j).val) vx.val) (10 / 33554432) 1 := by
    intro j
    have hl := lin_range (f := fun i => ((f i j).val : ℝ)) (fun i => hr i j) vx.val
    have e : lin (fun i => ((f i j).val : ℝ)) vx.val =
        (f (base vx) j).val + ((f (base vx + 1) j).val - (f (base vx) j).val) * Int.fract (vx.val : ℝ) := by
      unfold lin; rw [ex, bx]
    rw [e] at hl ⊢
    have := lerp_near (NearF.unit (hf (base vx) j)) (NearF.unit (hf (base vx + 1) j)) fx
      (by rw [abs_le]; constructor <;> linarith [(hr (base vx) j).1, (hr (base vx) j).2,
            (hr (base vx + 1) j).1, (hr (base vx + 1) j).2]) (by norm_num)
      (by rw [abs_le]; constructor <;> linarith)
    exact this.mono (by norm_num) le_rfl
  have rr := fun j => lin_range (f := fun i => ((f i j).val : ℝ)) (fun i => hr i j) vx.val
  have hl := lin_range (f := fun j => lin (fun i => ((f i j).val : ℝ)) vx.val) rr vy.val
  have e : lin (fun j => lin (fun i => ((f i j).val : ℝ)) vx.val) vy.val =
      lin (fun i => ((f i (base vy + 0)).val : ℝ)) vx.val +
        (lin (fun i => ((f i (base vy + 1)).val : ℝ)) vx.val -
          lin (fun i => ((f i (base vy + 0)).val : ℝ)) vx.val) * Int.fract (vy.val : ℝ) := by
    conv_lhs => unfold lin
    rw [ey, by', add_zero]; rfl
  rw [e] at hl ⊢
  have := lerp_near (row (base vy + 0)) (row (base vy + 1)) fy
    (by rw [abs_le]; constructor <;> linarith [(rr (base vy + 0)).1, (rr (base vy + 0)).2,
            (rr (base vy + 1)).1, (rr (base vy + 1)).2]) (by norm_num)
    (by rw [abs_le]; constructor <;> linarith)
  exact this.mono (by norm_num) le_rfl

/-- One channel of a bicubic sample. -/
theorem bicubic_near {f : ℤ → ℤ → F32} (hf : ∀ i j, (f i j).fin = true ∧ 0 ≤ (f i j).val ∧ (f i j).val ≤ 1)
    {vx vy : F32} (x1 : vx.fin = true) (x2 : -1 ≤ vx.val) (x3 : vx.val ≤ 4194304)
    (y1 : vy.fin = true) (y2 : -1 ≤ vy.val) (y3 : vy.val ≤ 4194304) :
    let row := fun dy : Int => cubic (f (base vx + -1) (base vy + dy)) (f (base vx + 0) (base vy + dy))
      (f (base vx + 1) (base vy + dy)) (f (base vx + 2) (base vy + dy)) (frac vx)
    NearF (cubic (row (-1)) (row 0) (row 1) (row 2) (frac vy))
      (cub (fun j => cub (fun i => (f i j).val) vx.val) vy.val) (4940 / 33554432) 2 := by
  intro row
  obtain ⟨bx, fx⟩ := base_frac_near x1 x2 x3
  obtain ⟨by', fy⟩ := base_frac_near y1 y2 y3
  have ex : ⌊(vx.val : ℝ)⌋ = ⌊vx.val⌋ := Rat.floor_cast _
  have ey : ⌊(vy.val : ℝ)⌋ = ⌊vy.val⌋ := Rat.floor_cast _
  have hr : ∀ i j, |((f i j).val : ℝ) - 1 / 2| ≤ 1 / 2 := fun i j => by
    have h0 : (0 : ℝ) ≤ (f i j).val := by exact_mod_cast (hf i j).2.1
    have h1 : ((f i j).val : ℝ) ≤ 1 := by exact_mod_cast (hf i j).2.2
    rw [abs_le]; constructor <;> linarith
  have rr : ∀ j, |cub (fun i => ((f i j).val : ℝ)) vx.val - 1 / 2| ≤ 5 / 4 * (1 / 2) := fun j => by
    have := cub_sub (g := fun _ => (1 / 2 : ℝ)) (fun i => hr i j) vx.val
    rwa [cub_const] at this
  have hl : |cub (fun j => cub (fun i => ((f i j).val : ℝ)) vx.val) vy.val - 1 / 2| ≤
      5 / 4 * (5 / 4 * (1 / 2)) := by
    have := cub_sub (g := fun _ => (1 / 2 : ℝ)) rr vy.val
    rwa [cub_const] at this
  have one : ∀ i j, NearF (f i j) (f i j).val 0 2 := fun i j => (NearF.unit (hf i j)).mono le_rfl (by norm_num)
  have hrow : ∀ dy, NearF (row dy) (cub (fun i => (f i (base vy + dy)).val) vx.val) (380 / 33554432) 2 := by
    intro dy
    have e : cub (fun i => ((f i (base vy + dy)).val : ℝ)) vx.val =
        poly (f (base vx + -1) (base vy + dy)).val (f (base vx + 0) (base vy + dy)).val
          (f (base vx + 1) (base vy + dy)).val (f (base vx + 2) (base vy + dy)).val
          (Int.fract (vx.val : ℝ)) := by
      unfold cub; rw [ex, bx, add_zero]; rfl
    have h := abs_le.1 (rr (base vy + dy))
    rw [e] at h ⊢
    have := cubic_near (B := 2) (one (base vx + -1) (base vy + dy)) (one (base vx + 0) (base vy + dy))
      (one (base vx + 1) (base vy + dy)) (one (base vx + 2) (base vy + dy)) fx (by norm_num)
      (by rw [abs_le]; constructor <;> linarith)
    exact this.mono (by norm_num) le_rfl
  have e : cub (fun j => cub (fun i => ((f i j).val : ℝ)) vx.val) vy.val =
      poly (cub (fun i => ((f i (base vy + -1)).val : ℝ)) vx.val)
        (cub (fun i => ((f i (base vy + 0)).val : ℝ)) vx.val)
        (cub (fun i => ((f i (base vy + 1)).val : ℝ)) vx.val)
        (cub (fun i => ((f i (base vy + 2)).val : ℝ)) vx.val) (Int.fract (vy.val : ℝ)) := by
    conv_lhs => unfold cub
    rw [ey, by', add_zero]; rfl
  have h := abs_le.1 hl
  rw [e] at h ⊢
  have := cubic_near (B := 2) (hrow (-1)) (hrow 0) (hrow 1) (hrow 2) fy (by norm_num)
    (by rw [abs_le]; constructor <;> linarith)
  exact this.mono (by norm_num) le_rfl

end Rounding

/-! ## Together with the errors of the positions -/

section Both
variable [Libm b32] [Junk]

theorem base_lit {x : ℝ} (h0 : -1 ≤ x) (h1 : x ≤ 4194304) : base x = ⌊x⌋ := by
  apply Exact.base_of
  · exact Int.le_floor.2 (by push_cast; linarith)
  · have := Int.floor_le x
    have : (⌊x⌋ : ℝ) ≤ 2147483647 := by linarith
    exact_mod_cast this

theorem frac_eq (x : ℝ) : frac x = Int.fract x := by unfold frac; ex_simp; rfl

theorem clamp_sub (a b : ℝ) : |max 0 (min 1 a) - max 0 (min 1 b)| ≤ |a - b| := by
  have h1 := NearF.max_sub_max 0 (min 1 a) 0 (min 1 b)
  have h2 := NearF.min_sub_min 1 a 1 b
  rw [sub_self, abs_zero, max_eq_right (abs_nonneg (min 1 a - min 1 b))] at h1
  rw [sub_self, abs_zero, max_eq_right (abs_nonneg (a - b))] at h2
  exact h1.trans h2

/-- The position of pixel `x` of `n` in a line of `m`, in both arithmetics. -/
theorem positions {m n x : Nat} (hm : 0 < m) (hml : m ≤ 2097152) (hx : x < n) (hnl : n ≤ 2097152) :
    (scaledPos m n x : F32).fin = true ∧ -1 ≤ (scaledPos m n x : F32).val ∧
      (scaledPos m n x : F32).val ≤ 4194304 ∧
      |((scaledPos m n x : F32).val : ℝ) - (scaledPos m n x : ℝ)| ≤ m / 4194304 ∧
      -1 ≤ (scaledPos m n x : ℝ) ∧ (scaledPos m n x : ℝ) ≤ 4194304 := by
  obtain ⟨h1, h2, h3, h4⟩ := scaledPos_near hm hml hx hnl
  have hn : (0 : ℝ) < n := by exact_mod_cast (by omega : 0 < n)
  have hx1 : (x : ℝ) + 1 ≤ n := by exact_mod_cast hx
  have hx0 : (0 : ℝ) ≤ x := Nat.cast_nonneg x
  have hm0 : (0 : ℝ) ≤ m := Nat.cast_nonneg m
  have hml' : (m : ℝ) ≤ 2097152 := by exact_mod_cast hml
  refine ⟨h1, h3, h4, ?_, ?_, ?_⟩
  · rw [Exact.scaledPos_eq m n x hm (by omega)]
    have := (Rat.cast_le (K := ℝ)).2 h2
    push_cast at this
    exact this
  · rw [Exact.scaledPos_eq m n x hm (by omega)]
    have : 0 ≤ ((x : ℝ) + 1 / 2) * m / n := by positivity
    linarith
  · rw [Exact.scaledPos_eq m n x hm (by omega)]
    have : ((x : ℝ) + 1 / 2) * m / n ≤ m := by
      rw [div_le_iff₀ hn]; nlinarith
    linarith

/-- Bilinear interpolation at two positions `dx` and `dy` apart, in the two arithmetics. -/
theorem bilinear_at {f : ℤ → ℤ → F32} (hf : ∀ i j, (f i j).fin = true ∧ 0 ≤ (f i j).val ∧ (f i j).val ≤ 1)
    {X Y : F32} {x' y' dx dy : ℝ} (x1 : X.fin = true) (x2 : -1 ≤ X.val) (x3 : X.val ≤ 4194304)
    (x4 : |(X.val : ℝ) - x'| ≤ dx) (x5 : -1 ≤ x') (x6 : x' ≤ 4194304)
    (y1 : Y.fin = true) (y2 : -1 ≤ Y.val) (y3 : Y.val ≤ 4194304)
    (y4 : |(Y.val : ℝ) - y'| ≤ dy) (y5 : -1 ≤ y') (y6 : y' ≤ 4194304) :
    let row := fun (X Y : F32) (dy : Int) =>
      lerp (f (base X) (base Y + dy)) (f (base X + 1) (base Y + dy)) (frac X)
    let row' := fun (X Y : ℝ) (dy : Int) =>
      lerp (F := ℝ) ((f (base X) (base Y + dy)).val : ℝ) ((f (base X + 1) (base Y + dy)).val : ℝ) (frac X)
    Close (clamp01 (lerp (row X Y 0) (row X Y 1) (frac Y)))
      (clamp01 (lerp (row' x' y' 0) (row' x' y' 1) (frac y'))) (dx + dy + 40 / 33554432) := by
  intro row row'
  have n := (bilinear_near hf x1 x2 x3 y1 y2 y3).clamp
  have e : lerp (row' x' y' 0) (row' x' y' 1) (frac y') =
      lin (fun j => lin (fun i => ((f i j).val : ℝ)) x') y' := by
    have l : ∀ a b t : ℝ, lerp a b t = a + (b - a) * t := fun a b t => by unfold lerp; ex_simp
    simp only [row', l, base_lit x5 x6, base_lit y5 y6, frac_eq, add_zero]
    rfl
  rw [e, Exact.clamp01]
  refine ⟨n.close.fin, ?_⟩
  have L := lin2_lipschitz (f := fun i j => ((f i j).val : ℝ)) (fun i j =>
    ⟨by exact_mod_cast (hf i j).2.1, by exact_mod_cast (hf i j).2.2⟩) X.val Y.val x' y'
  have C := (clamp_sub (lin (fun j => lin (fun i => ((f i j).val : ℝ)) X.val) Y.val)
    (lin (fun j => lin (fun i => ((f i j).val : ℝ)) x') y')).trans L
  have E := n.close.err
  have T := abs_sub_le ((clamp01 (lerp (row X Y 0) (row X Y 1) (frac Y))).val : ℝ)
    (max 0 (min 1 (lin (fun j => lin (fun i => ((f i j).val : ℝ)) X.val) Y.val)))
    (max 0 (min 1 (lin (fun j => lin (fun i => ((f i j).val : ℝ)) x') y')))
  have E' : |((clamp01 (lerp (row X Y 0) (row X Y 1) (frac Y))).val : ℝ) -
    max 0 (min 1 (lin (fun j => lin (fun i => ((f i j).val : ℝ)) X.val) Y.val))| ≤ 40 / 33554432 := E
  linarith

/-- Bicubic interpolation, likewise. -/
theorem bicubic_at {f : ℤ → ℤ → F32} (hf : ∀ i j, (f i j).fin = true ∧ 0 ≤ (f i j).val ∧ (f i j).val ≤ 1)
    {X Y : F32} {x' y' dx dy : ℝ} (x1 : X.fin = true) (x2 : -1 ≤ X.val) (x3 : X.val ≤ 4194304)
    (x4 : |(X.val : ℝ) - x'| ≤ dx) (x5 : -1 ≤ x') (x6 : x' ≤ 4194304)
    (y1 : Y.fin = true) (y2 : -1 ≤ Y.val) (y3 : Y.val ≤ 4194304)
    (y4 : |(Y.val : ℝ) - y'| ≤ dy) (y5 : -1 ≤ y') (y6 : y' ≤ 4194304) :
    let row := fun (X Y : F32) (dy : Int) => cubic (f (base X + -1) (base Y + dy)) (f (base X + 0) (base Y + dy))
      (f (base X + 1) (base Y + dy)) (f (base X + 2) (base Y + dy)) (frac X)
    let row' := fun (X Y : ℝ) (dy : Int) =>
      cubic (F := ℝ) ((f (base X + -1) (base Y + dy)).val : ℝ) ((f (base X + 0) (base Y + dy)).val : ℝ)
        ((f (base X + 1) (base Y + dy)).val : ℝ) ((f (base X + 2) (base Y + dy)).val : ℝ) (frac X)
    Close (clamp01 (cubic (row X Y (-1)) (row X Y 0) (row X Y 1) (row X Y 2) (frac Y)))
      (clamp01 (cubic (row' x' y' (-1)) (row' x' y' 0) (row' x' y' 1) (row' x' y' 2) (frac y')))
      (5 / 2 * (dx + dy) + 4940 / 33554432) := by
  intro row row'
  have n := (bicubic_near hf x1 x2 x3 y1 y2 y3).clamp
  have e : cubic (row' x' y' (-1)) (row' x' y' 0) (row' x' y' 1) (row' x' y' 2) (frac y') =
      cub (fun j => cub (fun i => ((f i j).val : ℝ)) x') y' := by
    have l : ∀ a b c d t : ℝ, cubic a b c d t = poly a b c d t := fun a b c d t => by
      rw [Exact.cubic_eq]; unfold poly; ring
    simp only [row', l, base_lit x5 x6, base_lit y5 y6, frac_eq, add_zero]
    rfl
  rw [e, Exact.clamp01]
  refine ⟨n.close.fin, ?_⟩
  have L := cub2_lipschitz (f := fun i j => ((f i j).val : ℝ)) (fun i j =>
    ⟨by exact_mod_cast (hf i j).2.1, by exact_mod_cast (hf i j).2.2⟩) X.val Y.val x' y'
  have C := (clamp_sub (cub (fun j => cub (fun i => ((f i j).val : ℝ)) X.val) Y.val)
    (cub (fun j => cub (fun i => ((f i j).val : ℝ)) x') y')).trans L
  have E := n.close.err
  have T := abs_sub_le
    ((clamp01 (cubic (row X Y (-1)) (row X Y 0) (row X Y 1) (row X Y 2) (frac Y))).val : ℝ)
    (max 0 (min 1 (cub (fun j => cub (fun i => ((f i j).val : ℝ)) X.val) Y.val)))
    (max 0 (min 1 (cub (fun j => cub (fun i => ((f i j).val : ℝ)) x') y')))
  have E' : |((clamp01 (cubic (row X Y (-1)) (row X Y 0) (row X Y 1) (row X Y 2) (frac Y))).val : ℝ) -
    max 0 (min 1 (cub (fun j => cub (fun i => ((f i j).val : ℝ)) X.val) Y.val))| ≤ 4940 / 33554432 := E
  linarith

/-- The pixels of a picture in [0, 1], also beyond its borders. -/
theorem unit_at {w h : Nat} {px : Nat → Nat → Col F32} (hw : 0 < w) (hh : 0 < h)
    (hu : ∀ x y, x < w → y < h → UnitCol (px x y)) (i j : Int) : UnitCol (at' w h px i j) := by
  unfold at' nearest
  exact hu _ _ (by omega) (by omega)

/-- Bilinear sampling of a picture at two positions `dx` and `dy` apart, in the two arithmetics. -/
theorem bilinear_move {w h : Nat} {px : Nat → Nat → Col F32} (hw : 0 < w) (hh : 0 < h)
    (hu : ∀ x y, x < w → y < h → UnitCol (px x y))
    {X Y : F32} {x' y' dx dy : ℝ} (x1 : X.fin = true) (x2 : -1 ≤ X.val) (x3 : X.val ≤ 4194304)
    (x4 : |(X.val : ℝ) - x'| ≤ dx) (x5 : -1 ≤ x') (x6 : x' ≤ 4194304)
    (y1 : Y.fin = true) (y2 : -1 ≤ Y.val) (y3 : Y.val ≤ 4194304)
    (y4 : |(Y.val : ℝ) - y'| ≤ dy) (y5 : -1 ≤ y') (y6 : y' ≤ 4194304) :
    CloseCol (dx + dy + 40 / 33554432) (bilinear w h px X Y)
      (bilinear w h (fun x y => exact (px x y)) x' y') := by
  have u := unit_at hw hh hu
  constructor
  · exact bilinear_at (f := fun i j => (at' w h px i j).c0) (fun i j => (u i j).c0) x1 x2 x3 x4 x5 x6 y1 y2 y3 y4 y5 y6
  · exact bilinear_at (f := fun i j => (at' w h px i j).c1) (fun i j => (u i j).c1) x1 x2 x3 x4 x5 x6 y1 y2 y3 y4 y5 y6
  · exact bilinear_at (f := fun i j => (at' w h px i j).c2) (fun i j => (u i j).c2) x1 x2 x3 x4 x5 x6 y1 y2 y3 y4 y5 y6
  · exact bilinear_at (f := fun i j => (at' w h px i j).alpha) (fun i j => (u i j).alpha) x1 x2 x3 x4 x5 x6
      y1 y2 y3 y4 y5 y6

/-- Bicubic sampling of a picture at two positions `dx` and `dy` apart, in the two arithmetics. -/
theorem bicubic_move {w h : Nat} {px : Nat → Nat → Col F32} (hw : 0 < w) (hh : 0 < h)
    (hu : ∀ x y, x < w → y < h → UnitCol (px x y))
    {X Y : F32} {x' y' dx dy : ℝ} (x1 : X.fin = true) (x2 : -1 ≤ X.val) (x3 : X.val ≤ 4194304)
    (x4 : |(X.val : ℝ) - x'| ≤ dx) (x5 : -1 ≤ x') (x6 : x' ≤ 4194304)
    (y1 : Y.fin = true) (y2 : -1 ≤ Y.val) (y3 : Y.val ≤ 4194304)
    (y4 : |(Y.val : ℝ) - y'| ≤ dy) (y5 : -1 ≤ y') (y6 : y' ≤ 4194304) :
    CloseCol (5 / 2 * (dx + dy) + 4940 / 33554432) (bicubic w h px X Y)
      (bicubic w h (fun x y => exact (px x y)) x' y') := by
  have u := unit_at hw hh hu
  constructor
  · exact bicubic_at (f := fun i j => (at' w h px i j).c0) (fun i j => (u i j).c0) x1 x2 x3 x4 x5 x6 y1 y2 y3 y4 y5 y6
  · exact bicubic_at (f := fun i j => (at' w h px i j).c1) (fun i j => (u i j).c1) x1 x2 x3 x4 x5 x6 y1 y2 y3 y4 y5 y6
  · exact bicubic_at (f := fun i j => (at' w h px i j).c2) (fun i j => (u i j).c2) x1 x2 x3 x4 x5 x6 y1 y2 y3 y4 y5 y6
  · exact bicubic_at (f := fun i j => (at' w h px i j).alpha) (fun i j => (u i j).alpha) x1 x2 x3 x4 x5 x6
      y1 y2 y3 y4 y5 y6

/-! ## C104 -/

private theorem close_self {c : Col F32} (hu : UnitCol c) {e : ℝ} (he : 0 ≤ e) :
    CloseCol e c (exact c) := by
  constructor
  · exact ⟨hu.c0.1, by simpa [exact] using he⟩
  · exact ⟨hu.c1.1, by simpa [exact] using he⟩
  · exact ⟨hu.c2.1, by simpa [exact] using he⟩
  · exact ⟨hu.alpha.1, by simpa [exact] using he⟩

private theorem bilinear_pixel {w h nw nh x y : Nat} {px : Nat → Nat → Col F32}
    (hu : ∀ x y, x < w → y < h → UnitCol (px x y)) (hw : 0 < w) (hwl : w ≤ 2097152) (hh : 0 < h)
    (hhl : h ≤ 2097152) (hx : x < nw) (hnw : nw ≤ 2097152) (hy : y < nh) (hnh : nh ≤ 2097152) :
    CloseCol (((w : ℝ) + h) / 4194304 + 40 / 33554432)
      (bilinear w h px (scaledPos w nw x) (scaledPos h nh y))
      (bilinear w h (fun x y => exact (px x y)) (scaledPos w nw x) (scaledPos h nh y)) := by
  obtain ⟨x1, x2, x3, x4, x5, x6⟩ := positions hw hwl hx hnw
  obtain ⟨y1, y2, y3, y4, y5, y6⟩ := positions hh hhl hy hnh
  have k := bilinear_move hw hh hu x1 x2 x3 x4 x5 x6 y1 y2 y3 y4 y5 y6
  have e : (w : ℝ) / 4194304 + h / 4194304 = ((w : ℝ) + h) / 4194304 := by ring
  rwa [e] at k

private theorem bicubic_pixel {w h nw nh x y : Nat} {px : Nat → Nat → Col F32}
    (hu : ∀ x y, x < w → y < h → UnitCol (px x y)) (hw : 0 < w) (hwl : w ≤ 2097152) (hh : 0 < h)
    (hhl : h ≤ 2097152) (hx : x < nw) (hnw : nw ≤ 2097152) (hy : y < nh) (hnh : nh ≤ 2097152) :
    CloseCol (5 / 2 * ((w : ℝ) + h) / 4194304 + 4940 / 33554432)
      (bicubic w h px (scaledPos w nw x) (scaledPos h nh y))
      (bicubic w h (fun x y => exact (px x y)) (scaledPos w nw x) (scaledPos h nh y)) := by
  obtain ⟨x1, x2, x3, x4, x5, x6⟩ := positions hw hwl hx hnw
  obtain ⟨y1, y2, y3, y4, y5, y6⟩ := positions hh hhl hy hnh
  have k := bicubic_move hw hh hu x1 x2 x3 x4 x5 x6 y1 y2 y3 y4 y5 y6
  have e : 5 / 2 * ((w : ℝ) / 4194304 + h / 4194304) = 5 / 2 * ((w : ℝ) + h) / 4194304 := by ring
  rwa [e] at k

private theorem resize_close {b : PixelBuffer (Col F32)} {e : PixelBuffer (Col ℝ)} {w h px}
    (s : Shows b w h px) (t : Shows e w h fun x y => exact (px x y)) (hw : 0 < w)
    (hu : ∀ x y, x < w → y < h → UnitCol (px x y)) {nw nh : Nat} (hv : ValidSize nw nh)
    {filter : FilterMode} (ha : filter = .Auto → w ≤ 2097152 ∧ h ≤ 2097152) {δ : ℝ} (hδ : 0 ≤ δ)
    (hc : ∀ x y, x < nw → y < nh → CloseCol δ (resized filter w h px nw nh x y)
      (resized filter w h (fun x y => exact (px x y)) nw nh x y)) :
    ∃ b' e' px' ex', resize b nw nh filter = .ok b' ∧ Shows b' nw nh px' ∧
      resize e nw nh filter = .ok e' ∧ Shows e' nw nh ex' ∧
      ∀ x y, x < nw → y < nh → CloseCol δ (px' x y) (ex' x y) := by
  by_cases hsame : nw = w ∧ nh = h
  · obtain ⟨rfl, rfl⟩ := hsame
    have e1 := C18_resize_same b filter
    have e2 := C18_resize_same e filter
    rw [s.width, s.height] at e1
    rw [t.width, t.height] at e2
    exact ⟨b, e, _, _, e1, s, e2, t, fun x y hx hy => close_self (hu x y hx hy) hδ⟩
  · obtain ⟨b', e1, s'⟩ := C18_resize s hw nw nh hv hsame filter (fun h => by have := ha h; omega)
    obtain ⟨e', e2, t'⟩ := C18_resize t hw nw nh hv hsame filter (fun h => by have := ha h; omega)
    exact ⟨b', e', _, _, e1, s', e2, t', hc⟩

/-- **Bilinear resizing.** For a picture with channels in [0, 1] and sizes up to 2^21, each channel of
each pixel of the result is within `(w + h) / 2^22 + 20 / 2^24` of that of the same program run in exact
arithmetic on the same picture; the first part comes from the positions, the second from the colours. -/
theorem C104_bilinear {b : PixelBuffer (Col F32)} {e : PixelBuffer (Col ℝ)} {w h px}
    (s : Shows b w h px) (t : Shows e w h fun x y => exact (px x y)) (hw : 0 < w)
    (hu : ∀ x y, x < w → y < h → UnitCol (px x y)) (nw nh : Nat) (hv : ValidSize nw nh)
    (hwl : w ≤ 2097152) (hhl : h ≤ 2097152) (hnw : nw ≤ 2097152) (hnh : nh ≤ 2097152) :
    ∃ b' e' px' ex', resize b nw nh .Bilinear = .ok b' ∧ Shows b' nw nh px' ∧
      resize e nw nh .Bilinear = .ok e' ∧ Shows e' nw nh ex' ∧
      ∀ x y, x < nw → y < nh →
        CloseCol (((w : ℝ) + h) / 2 ^ 22 + 20 / 2 ^ 24) (px' x y) (ex' x y) := by
  have hh : 0 < h := by rcases s.size with ⟨h1, _⟩ | ⟨_, h, _⟩ <;> omega
  refine resize_close s t hw hu hv (by simp) (by positivity) fun x y hx hy => ?_
  have e : ((w : ℝ) + h) / 2 ^ 22 + 20 / 2 ^ 24 = ((w : ℝ) + h) / 4194304 + 40 / 33554432 := by norm_num
  rw [e]
  exact bilinear_pixel hu hw hwl hh hhl hx hnw hy hnh

/-- **Bicubic resizing**, likewise; the automatic filter is bicubic if a side is not reduced. -/
theorem C104_bicubic {b : PixelBuffer (Col F32)} {e : PixelBuffer (Col ℝ)} {w h px}
    (s : Shows b w h px) (t : Shows e w h fun x y => exact (px x y)) (hw : 0 < w)
    (hu : ∀ x y, x < w → y < h → UnitCol (px x y)) (nw nh : Nat) (hv : ValidSize nw nh)
    (hwl : w ≤ 2097152) (hhl : h ≤ 2097152) (hnw : nw ≤ 2097152) (hnh : nh ≤ 2097152)
    (filter : FilterMode) (hf : filter = .Bicubic ∨ filter = .Auto ∧ (w ≤ nw ∨ h ≤ nh)) :
    ∃ b' e' px' ex', resize b nw nh filter = .ok b' ∧ Shows b' nw nh px' ∧
      resize e nw nh filter = .ok e' ∧ Shows e' nw nh ex' ∧
      ∀ x y, x < nw → y < nh →
        CloseCol (5 / 2 * ((w : ℝ) + h) / 2 ^ 22 + 2470 / 2 ^ 24) (px' x y) (ex' x y) := by
  have hh : 0 < h := by rcases s.size with ⟨h1, _⟩ | ⟨_, h, _⟩ <;> omega
  refine resize_close s t hw hu hv (fun _ => ⟨hwl, hhl⟩) (by positivity) fun x y hx hy => ?_
  have e : 5 / 2 * ((w : ℝ) + h) / 2 ^ 22 + 2470 / 2 ^ 24 =
    5 / 2 * ((w : ℝ) + h) / 4194304 + 4940 / 33554432 := by norm_num
  rw [e]
  have k := bicubic_pixel hu hw hwl hh hhl hx hnw hy hnh
  rcases hf with rfl | ⟨rfl, hup⟩
  · exact k
  · unfold resized
    simp only [if_pos hup]
    exact k

end Both

/-- **Nearest-pixel resizing.** The pixel shown at `(x, y)` is one of the picture, not further from the
exact position `(x·w/nw, y·h/nh)` than half a pixel and a rounding error of `w / 2^21` and `h / 2^21`,
unless that is beyond the last column or row, which is shown instead. -/
theorem C104_nearest [Libm b32] {b : PixelBuffer (Col F32)} {w h px} (s : Shows b w h px) (hw : 0 < w)
    (nw nh : Nat) (hv : ValidSize nw nh) (hne : ¬ (nw = w ∧ nh = h)) (hwl : w ≤ 2097152)
    (hhl : h ≤ 2097152) (hnw : nw ≤ 2097152) (hnh : nh ≤ 2097152) :
    ∃ (b' : PixelBuffer (Col F32)) (cx cy : Nat → Int), resize b nw nh .Nearest = .ok b' ∧
      Shows b' nw nh (fun x y => at' w h px (cx x) (cy y)) ∧
      (∀ x, x < nw → |(cx x : ℚ) - x * w / nw| ≤ 1 / 2 + w / 2 ^ 21) ∧
      (∀ y, y < nh → |(cy y : ℚ) - y * h / nh| ≤ 1 / 2 + h / 2 ^ 21) := by
  have hh : 0 < h := by rcases s.size with ⟨h1, _⟩ | ⟨_, h, _⟩ <;> omega
  obtain ⟨b', e, s'⟩ := C18_resize s hw nw nh hv hne .Nearest (by simp)
  refine ⟨b', _, _, e, s', fun x hx => ?_, fun y hy => ?_⟩
  · have := scaledNearest_near hw hwl hx hnw
    norm_num at this ⊢; exact this
  · have := scaledNearest_near hh hhl hy hnh
    norm_num at this ⊢; exact this

/-! ## Examples -/

section Examples
variable [Libm b32] [Junk]

/-- A picture of 3840 by 2160 pixels, at any size: no channel is off by as much as half a level of
255. -/
example {b : PixelBuffer (Col F32)} {e : PixelBuffer (Col ℝ)} {px} (s : Shows b 3840 2160 px)
    (t : Shows e 3840 2160 fun x y => exact (px x y))
    (hu : ∀ x y, x < 3840 → y < 2160 → UnitCol (px x y)) :
    ∃ b' e' px' ex', resize b 1000 562 .Bilinear = .ok b' ∧ Shows b' 1000 562 px' ∧
      resize e 1000 562 .Bilinear = .ok e' ∧ Shows e' 1000 562 ex' ∧
      ∀ x y, x < 1000 → y < 562 → CloseCol (1 / 510) (px' x y) (ex' x y) := by
  obtain ⟨b', e', px', ex', h1, h2, h3, h4, h5⟩ := C104_bilinear s t (by norm_num) hu 1000 562
    (Or.inr (by norm_num)) (by norm_num) (by norm_num) (by norm_num) (by norm_num)
  refine ⟨b', e', px', ex', h1, h2, h3, h4, fun x y hx hy => ?_⟩
  obtain ⟨c0, c1, c2, c3⟩ := h5 x y hx hy
  exact ⟨c0.mono (by norm_num), c1.mono (by norm_num), c2.mono (by norm_num), c3.mono (by norm_num)⟩

/-- Black and white side by side meet the hypotheses. -/
example : ∃ (b : PixelBuffer (Col F32)) (e : PixelBuffer (Col ℝ)) (px : Nat → Nat → Col F32),
    Shows b 2 1 px ∧ Shows e 2 1 (fun x y => exact (px x y)) ∧
      (∀ x y, x < 2 → y < 1 → UnitCol (px x y)) ∧ px 0 0 ≠ px 1 0 := by
  refine ⟨⟨2, 1, [⟨lit 0, lit 0, lit 0, lit 1⟩, ⟨lit 1, lit 1, lit 1, lit 1⟩]⟩, ⟨2, 1, _⟩,
    fun x _ => if x = 0 then ⟨lit 0, lit 0, lit 0, lit 1⟩ else ⟨lit 1, lit 1, lit 1, lit 1⟩,
    ⟨rfl, rfl, Or.inr (by norm_num), rfl⟩, ⟨rfl, rfl, Or.inr (by norm_num), rfl⟩, ?_, ?_⟩
  · have z : (lit 0 : F32).fin = true ∧ 0 ≤ (lit 0 : F32).val ∧ (lit 0 : F32).val ≤ 1 := by
      show (FP.ofRat b32 false 0).fin = true ∧ 0 ≤ (FP.ofRat b32 false 0).val ∧ (FP.ofRat b32 false 0).val ≤ 1
      decide +kernel
    have o : (lit 1 : F32).fin = true ∧ 0 ≤ (lit 1 : F32).val ∧ (lit 1 : F32).val ≤ 1 := by
      show (FP.ofRat b32 false 1).fin = true ∧ 0 ≤ (FP.ofRat b32 false 1).val ∧ (FP.ofRat b32 false 1).val ≤ 1
      decide +kernel
    intro x y _ _
    by_cases h : x = 0
    · simp only [h, if_true]; exact ⟨z, z, z, o⟩
    · simp only [h, if_false]; exact ⟨o, o, o, o⟩
  · intro h
    have h' := congrArg (fun c => FP.val (Col.c0 c)) h
    change (FP.ofRat b32 false 0).val = (FP.ofRat b32 false 1).val at h'
    have z : (FP.ofRat b32 false 0).val = 0 := by decide +kernel
    have o : (FP.ofRat b32 false 1).val = 1 := by decide +kernel
    rw [z, o] at h'
    norm_num at h'

end Examples
end D10
