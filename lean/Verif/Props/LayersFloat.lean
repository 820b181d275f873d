import Verif.Props.Layers
import Verif.Props.BlendFloat
import Verif.Props.Accuracy

/-!
# C138: layers of colours with 32-bit numbers
-/

namespace D10
open Spec
open Scalar (lit)

variable [Libm b32] [Junk]

omit [Libm b32] [Junk] in
theorem over_sub {a b t a' b' t' T s : ℝ} (t0 : 0 ≤ t) (t1 : t ≤ 1) (ha : |a - a'| ≤ T) (hb : |b - b'| ≤ s) (ht : |t - t'| ≤ s)
    (u : 0 ≤ a' ∧ a' ≤ 1) (v : 0 ≤ b' ∧ b' ≤ 1) : |t * b + (1 - t) * a - (t' * b' + (1 - t') * a')| ≤ T + 2 * s := by
  have T0 := (abs_nonneg _).trans ha
  have s0 := (abs_nonneg _).trans hb
  have e : t * b + (1 - t) * a - (t' * b' + (1 - t') * a') = (1 - t) * (a - a') + t * (b - b') + (t - t') * (b' - a') := by ring
  rw [e]
  have h1 : |(1 - t) * (a - a')| ≤ T := by
    rw [abs_mul, abs_of_nonneg (by linarith)]; nlinarith [abs_nonneg (a - a')]
  have h2 : |t * (b - b')| ≤ s := by
    rw [abs_mul, abs_of_nonneg t0]; nlinarith [abs_nonneg (b - b')]
  have h3 : |(t - t') * (b' - a')| ≤ s := by
    rw [abs_mul]
    have : |b' - a'| ≤ 1 := abs_le.2 ⟨by linarith [v.1, u.2], by linarith [v.2, u.1]⟩
    nlinarith [abs_nonneg (t - t'), abs_nonneg (b' - a')]
  calc _ ≤ |(1 - t) * (a - a')| + |t * (b - b')| + |(t - t') * (b' - a')| := (abs_add_le _ _).trans (add_le_add (abs_add_le _ _) le_rfl)
    _ ≤ _ := by linarith

omit [Libm b32] [Junk] in
theorem min_one_sub (x y : ℝ) : |min x 1 - min y 1| ≤ |x - y| := by
  have := abs_min_sub_min_le_max x 1 y 1
  rwa [sub_self, abs_zero, max_eq_left (abs_nonneg _)] at this

/-- One more layer: the error of the base, twice that of the layer and the rounding. -/
theorem C138_layer_float {T s : ℝ} {c o : Col F32} {d p : Col ℝ} (h : AlikeColours T c d) (k : AlikeColours s o p) :
    AlikeColours (T + (2 * s + 1 / 4194304)) (Rgb.alpha_blend c o) (Rgb.alpha_blend d p) := by
  obtain ⟨uc, ud, e⟩ := h
  obtain ⟨uo, up, f⟩ := k
  have hx := C86_alpha_blend c o uc uo
  have rc := exact_unitReal uc
  have ro := exact_unitReal uo
  have un := blend_unit d p ud.unit up.unit
  refine ⟨unit_close (new_pixel _ _ _ _) hx, ⟨⟨un.r0, un.r1⟩, ⟨un.g0, un.g1⟩, ⟨un.b0, un.b1⟩, un.a0, un.a1⟩, ?_⟩
  obtain ⟨e0, e1, e2, e3⟩ := e.apart
  obtain ⟨f0, f1, f2, f3⟩ := f.apart
  have s0 := (abs_nonneg _).trans f0
  have b1 := C35_alpha_blend _ _ rc.unit ro.unit
  have b2 := C35_alpha_blend d p ud.unit up.unit
  refine hx.move (s := T + 2 * s) ?_ ?_ ?_ ?_ (by linarith) <;> rw [b1, b2]
  · exact over_sub ro.alpha.1 ro.alpha.2 e0 f0 f3 ud.c0 up.c0
  · exact over_sub ro.alpha.1 ro.alpha.2 e1 f1 f3 ud.c1 up.c1
  · exact over_sub ro.alpha.1 ro.alpha.2 e2 f2 f3 ud.c2 up.c2
  · refine (min_one_sub _ _).trans ?_
    rw [add_sub_add_comm]
    exact (abs_add_le _ _).trans (by linarith)

/-- Any number of layers. -/
theorem C138_layers_float {T s : ℝ} {layers : List (Col F32)} {exacts : List (Col ℝ)} (k : List.Forall₂ (AlikeColours s) layers exacts)
    {c : Col F32} {d : Col ℝ} (h : AlikeColours T c d) :
    AlikeColours (T + layers.length * (2 * s + 1 / 4194304)) (layers.foldl Rgb.alpha_blend c) (exacts.foldl Rgb.alpha_blend d) := by
  induction k generalizing T c d with
  | nil => simpa using h
  | cons k _ ih =>
    have := ih (C138_layer_float h k)
    rw [List.foldl_cons, List.foldl_cons, List.length_cons]
    push_cast
    have e : ∀ n u : ℝ, T + u + n * u = T + (n + 1) * u := fun n u => by ring
    rwa [e] at this

/-- The same read against the mixture of the layers: with `n` layers no channel is off by more than `n / 4194304`. -/
theorem C138_float (layers : List (Col F32)) (base : Col F32) (hb : UnitCol base) (hl : ∀ o ∈ layers, UnitCol o) :
    UnitCol (layers.foldl Rgb.alpha_blend base) ∧
    CloseCol (layers.length / 4194304) (layers.foldl Rgb.alpha_blend base)
      ⟨base.c0.val * through (layers.map exact) + shine Col.c0 (layers.map exact),
        base.c1.val * through (layers.map exact) + shine Col.c1 (layers.map exact),
        base.c2.val * through (layers.map exact) + shine Col.c2 (layers.map exact),
        min (base.alpha.val + ((layers.map exact).map Col.alpha).sum) 1⟩ := by
  have self : ∀ {c : Col F32}, UnitCol c → AlikeColours 0 c (exact c) := fun {c} h =>
    ⟨h, exact_unitReal h, ⟨⟨h.c0.1, by simp [exact]⟩, ⟨h.c1.1, by simp [exact]⟩, ⟨h.c2.1, by simp [exact]⟩, ⟨h.alpha.1, by simp [exact]⟩⟩⟩
  have f : List.Forall₂ (AlikeColours 0) layers (layers.map exact) := by
    rw [List.forall₂_map_right_iff]
    exact List.forall₂_same.2 fun o ho => self (hl o ho)
  obtain ⟨u, v, w⟩ := C138_layers_float f (self hb)
  refine ⟨u, ?_⟩
  rw [C138_layers _ _ (exact_unitReal hb).unit (by
    intro o ho
    obtain ⟨x, hx, rfl⟩ := List.mem_map.1 ho
    exact (exact_unitReal (hl x hx)).unit)] at w
  have e : (0 : ℝ) + layers.length * (2 * 0 + 1 / 4194304) = layers.length / 4194304 := by ring
  rw [e] at w
  exact w

/-- **Stacking images** with 32-bit numbers: `n` images, each at most `ε` from an exact one, give an image that is at most
`n (2 ε + 1/4194304)` from the exact stack, or the sizes do not fit and both programs stop. -/
theorem C138_images_float {ε : ℝ} (hε : 0 ≤ ε) {as : List (Image F32)} {bs : List (Image ℝ)} (hne : as ≠ [])
    (h : List.Forall₂ (fun a b => Alike ε a.buffer b.buffer) as bs) :
    (∃ a' b', Image.compose_slice (m := R) as Rgb.NONE (fun _ _ l => .ok (l.foldl Rgb.alpha_blend Rgb.NONE)) = .ok a' ∧
      Image.compose_slice (m := R) bs Rgb.NONE (fun _ _ l => .ok (l.foldl Rgb.alpha_blend Rgb.NONE)) = .ok b' ∧
      Alike (as.length * (2 * ε + 1 / 4194304)) a'.buffer b'.buffer) ∨
    (Image.compose_slice (m := R) as Rgb.NONE (fun _ _ l => .ok (l.foldl Rgb.alpha_blend Rgb.NONE)) = .error .invalidSize ∧
      Image.compose_slice (m := R) bs Rgb.NONE (fun _ _ l => .ok (l.foldl Rgb.alpha_blend Rgb.NONE)) = .error .invalidSize) := by
  have j : Joins (2 * as.length) (as.length * (1 / 4194304))
      (fun _ _ l => (l.take as.length).foldl Rgb.alpha_blend (Rgb.NONE : Col F32))
      (fun _ _ l => (l.take as.length).foldl Rgb.alpha_blend (Rgb.NONE : Col ℝ)) := by
    intro x y t l m ht k
    have := C138_layers_float (List.forall₂_take as.length k) (nothing_alike le_rfl)
    obtain ⟨u, v, w⟩ := this
    have le : ((l.take as.length).length : ℝ) ≤ as.length := by
      rw [List.length_take]; exact_mod_cast min_le_left _ _
    have z : ∀ q : ℝ, |q - q| ≤ 0 := fun q => by rw [sub_self, abs_zero]
    exact ⟨u, v, w.move (z _) (z _) (z _) (z _) (by nlinarith)⟩
  have congr : ∀ {F : Type} [Scalar F] (is : List (Image F)), is.length = as.length →
      Image.compose_slice (m := R) is Rgb.NONE (fun _ _ l => .ok ((l.take as.length).foldl Rgb.alpha_blend (Rgb.NONE : Col F))) =
      Image.compose_slice (m := R) is Rgb.NONE (fun _ _ l => .ok (l.foldl Rgb.alpha_blend Rgb.NONE)) := by
    intro F _ is e
    unfold Image.compose_slice
    dsimp only
    rw [compose_slice_congr _ _ _ (fun _ _ l => .ok (l.foldl Rgb.alpha_blend Rgb.NONE))]
    intro x y l hl
    rw [List.length_map, e] at hl
    rw [List.take_of_length_le hl.le]
  have := C130_compose j hne h (nothing_alike hε)
  have e : (2 * as.length * ε + as.length * (1 / 4194304) : ℝ) = as.length * (2 * ε + 1 / 4194304) := by ring
  rw [e] at this
  rw [← congr as rfl, ← congr bs h.length_eq.symm]
  exact this

/-! ## The hypotheses can be met -/

omit [Libm b32] [Junk] in
/-- A colour in range. -/
theorem halfCol_unit : UnitCol (⟨FP.ofRat b32 false 1, FP.ofRat b32 false 0, FP.ofRat b32 false (1 / 4), FP.ofRat b32 false (1 / 2)⟩ : Col F32) := by
  constructor <;> decide +kernel

/-- Three equal, half transparent layers on transparent black. -/
example : UnitCol ((List.replicate 3 (⟨FP.ofRat b32 false 1, FP.ofRat b32 false 0, FP.ofRat b32 false (1 / 4), FP.ofRat b32 false (1 / 2)⟩ :
    Col F32)).foldl Rgb.alpha_blend Rgb.NONE) :=
  (C138_float _ _ (nothing_alike (ε := 0) le_rfl).1 fun o ho => by rw [List.eq_of_mem_replicate ho]; exact halfCol_unit).1

end D10
