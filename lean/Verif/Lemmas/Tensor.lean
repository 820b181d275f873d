import Verif.Lemmas.Moves
import Verif.Props.Sample
import Mathlib.Algebra.BigOperators.Group.Finset.Basic
import Mathlib.Algebra.BigOperators.Ring.Finset
import Mathlib.Order.Interval.Finset.Nat
import Mathlib.Data.Int.Interval

/-!
# Sampling with symmetric weights, in exact arithmetic
-/

namespace D10
open Spec PixelBuffer
open Scalar (lit)

section
variable [Junk]

/-- The offsets `-M, ..., M + 1`. -/
noncomputable def offsets (M : Nat) : Finset Int := Finset.Icc (-(M : Int)) (M + 1)

/-- Weights `κ t i` for the pixel at offset `i` of a position `t` behind its base; symmetric. -/
structure Balanced (M : Nat) (κ : ℝ → Int → ℝ) : Prop where
  between : ∀ t, 0 < t → t < 1 → ∀ i ∈ offsets M, κ (1 - t) (1 - i) = κ t i
  exact : ∀ i ∈ offsets M, κ 0 (-i) = κ 0 i
  edge : κ 0 ((M : Int) + 1) = 0

/-- The weighted mean of a line `f` of values around `x`. -/
noncomputable def along (M : Nat) (κ : ℝ → Int → ℝ) (f : Int → ℝ) (x : ℝ) : ℝ :=
  ∑ i ∈ offsets M, f (base x + i) * κ (frac x) i

/-- The weighted mean around `(x, y)`. -/
noncomputable def tensor (M : Nat) (κ : ℝ → Int → ℝ) (f : Int → Int → ℝ) (x y : ℝ) : ℝ :=
  along M κ (fun j => along M κ (fun i => f i j) x) y

theorem floor_mirror (n : Int) (x : ℝ) :
    (frac x = 0 ∧ ⌊(n : ℝ) - x⌋ = n - ⌊x⌋ ∧ frac ((n : ℝ) - x) = 0) ∨
    (0 < frac x ∧ frac x < 1 ∧ ⌊(n : ℝ) - x⌋ = n - ⌊x⌋ - 1 ∧ frac ((n : ℝ) - x) = 1 - frac x) := by
  have hf : ∀ v : ℝ, frac v = v - ⌊v⌋ := by intro v; unfold frac; ex_simp
  have h0 := (Exact.frac_range x).1
  have h1 := (Exact.frac_range x).2
  rcases h0.eq_or_lt with h | h
  · left
    have hx : x = ⌊x⌋ := by have := hf x; linarith
    have e : (n : ℝ) - x = ((n - ⌊x⌋ : Int) : ℝ) := by rw [Int.cast_sub, ← hx]
    refine ⟨h.symm, ?_, ?_⟩
    · rw [e, Int.floor_intCast]
    · rw [e]; exact Exact.frac_int _
  · right
    have e : ⌊(n : ℝ) - x⌋ = n - ⌊x⌋ - 1 := by
      rw [Int.floor_eq_iff]
      have := hf x
      push_cast
      constructor <;> linarith
    refine ⟨h, h1, e, ?_⟩
    rw [hf, e, hf]
    push_cast
    ring

theorem along_mirror {M : Nat} {κ : ℝ → Int → ℝ} (hκ : Balanced M κ) (f : Int → ℝ) (n : Int) (x : ℝ)
    (hx0 : -1000000000 ≤ x) (hx1 : x ≤ 2000000000) (hn0 : 0 ≤ n) (hn1 : n ≤ 1100000000) :
    along M κ (fun i => f (n - i)) x = along M κ f ((n : ℝ) - x) := by
  have hn0' : (0 : ℝ) ≤ n := by exact_mod_cast hn0
  have hn1' : (n : ℝ) ≤ 1100000000 := by exact_mod_cast hn1
  have hb : ∀ v : ℝ, -2100000000 ≤ v → v ≤ 2100000000 → base v = ⌊v⌋ := by
    intro v h0 h1
    apply Exact.base_of
    · exact Int.le_floor.2 (by push_cast; linarith)
    · have := Int.floor_le v
      have : (⌊v⌋ : ℝ) ≤ 2147483647 := by linarith
      exact_mod_cast this
  unfold along
  rw [hb x (by linarith) (by linarith), hb (n - x) (by linarith) (by linarith)]
  rcases floor_mirror n x with ⟨h1, h2, h3⟩ | ⟨h0, h1, h2, h3⟩
  · rw [h2, h1, h3]
    have cut : ∀ g : Int → ℝ, (∑ i ∈ offsets M, g i * κ 0 i) = ∑ i ∈ Finset.Icc (-(M : Int)) M, g i * κ 0 i := by
      intro g
      symm
      apply Finset.sum_subset
      · intro i hi
        unfold offsets
        rw [Finset.mem_Icc] at *; omega
      · intro i hi hni
        unfold offsets at hi
        rw [Finset.mem_Icc] at *
        have : i = (M : Int) + 1 := by omega
        rw [this, hκ.edge, mul_zero]
    rw [cut, cut]
    refine Finset.sum_nbij' (fun i => -i) (fun i => -i) ?_ ?_ ?_ ?_ ?_
    · intro i hi; rw [Finset.mem_Icc] at *; omega
    · intro i hi; rw [Finset.mem_Icc] at *; omega
    · intro i _; simp
    · intro i _; simp
    · intro i hi
      have : i ∈ offsets M := by unfold offsets; rw [Finset.mem_Icc] at *; omega
      simp only []
      rw [hκ.exact i this]
      congr 2
      omega
  · rw [h2, h3]
    refine Finset.sum_nbij' (fun i => 1 - i) (fun i => 1 - i) ?_ ?_ ?_ ?_ ?_
    · intro i hi; unfold offsets at *; rw [Finset.mem_Icc] at *; omega
    · intro i hi; unfold offsets at *; rw [Finset.mem_Icc] at *; omega
    · intro i _; simp
    · intro i _; simp
    · intro i hi
      simp only []
      rw [hκ.between _ h0 h1 i hi]
      congr 2
      omega

theorem tensor_swap (M : Nat) (κ : ℝ → Int → ℝ) (f : Int → Int → ℝ) (x y : ℝ) :
    tensor M κ (fun i j => f j i) y x = tensor M κ f x y := by
  unfold tensor along
  simp only [Finset.sum_mul]
  rw [Finset.sum_comm]
  refine Finset.sum_congr rfl fun i _ => Finset.sum_congr rfl fun j _ => ?_
  ring

omit [Junk] in
theorem at_mirror {w : Nat} (hw : 0 < w) (h : Nat) (px : Nat → Nat → Col ℝ) (x y : Int) :
    at' w h (fun x y => px (w - 1 - x) y) x y = at' w h px ((w : Int) - 1 - x) y := by
  unfold at'
  rw [nearest_mirror hw]

/-- The recipe of a filter: weights, then perhaps clamping. -/
noncomputable def sampled (M : Nat) (κ : ℝ → Int → ℝ) (cl : ℝ → ℝ) (w h : Nat) (px : Nat → Nat → Col ℝ)
    (x y : ℝ) : Col ℝ :=
  perChannel fun ch => cl (tensor M κ (fun i j => ch (at' w h px i j)) x y)

theorem sampled_mirror {M : Nat} {κ : ℝ → Int → ℝ} (hκ : Balanced M κ) (cl : ℝ → ℝ) {w : Nat} (hw : 0 < w)
    (hw1 : w ≤ 1073741823) (h : Nat) (px : Nat → Nat → Col ℝ) (x y : ℝ) (hx0 : -1000000000 ≤ x)
    (hx1 : x ≤ 2000000000) :
    sampled M κ cl w h (fun x y => px (w - 1 - x) y) x y = sampled M κ cl w h px ((w : ℝ) - 1 - x) y := by
  unfold sampled
  congr 1
  funext ch
  congr 1
  unfold tensor
  congr 1
  funext j
  simp only [at_mirror hw]
  have := along_mirror hκ (fun i => ch (at' w h px i j)) ((w : Int) - 1) x hx0 hx1 (by omega) (by omega)
  rw [this]
  push_cast
  rfl

theorem sampled_transpose (M : Nat) (κ : ℝ → Int → ℝ) (cl : ℝ → ℝ) (w h : Nat) (px : Nat → Nat → Col ℝ)
    (x y : ℝ) : sampled M κ cl h w (fun x y => px y x) y x = sampled M κ cl w h px x y := by
  unfold sampled
  congr 1
  funext ch
  congr 1
  exact tensor_swap M κ (fun i j => ch (at' w h px i j)) x y

end
end D10
