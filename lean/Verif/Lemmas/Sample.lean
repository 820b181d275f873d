import Verif.SpecSample
import Verif.Lemmas.Gaussian
import Verif.Props.Geometry

namespace D10
open Spec PixelBuffer

variable {F : Type} [Scalar F]

theorem get_pixel_bilinear_ok {b : PixelBuffer (Col F)} {w h px} (s : Shows b w h px) (hw : 0 < w)
    (x y : F) (hx0 : -2147483648 ≤ base x) (hx1 : base x ≤ 2147483646)
    (hy0 : -2147483648 ≤ base y) (hy1 : base y ≤ 2147483646) :
    get_pixel_bilinear b x y = .ok (bilinear w h px x y) := by
  unfold get_pixel_bilinear get_base_and_offset
  change -2147483648 ≤ Scalar.asI32 (Scalar.floor x) at hx0
  change -2147483648 ≤ Scalar.asI32 (Scalar.floor y) at hy0
  change Scalar.asI32 (Scalar.floor x) ≤ _ at hx1
  change Scalar.asI32 (Scalar.floor y) ≤ _ at hy1
  simp only []
  rw [C04_get_pixel_clamped s hw, ok_bind, i32_ok (by omega) (by omega), ok_bind,
    C04_get_pixel_clamped s hw, ok_bind, i32_ok (by omega) (by omega), ok_bind,
    C04_get_pixel_clamped s hw, ok_bind, ok_bind, ok_bind, C04_get_pixel_clamped s hw, ok_bind]
  show (.ok _ : R _) = .ok _
  simp only [bilinear, perChannel, at', base, Int.add_zero, frac]
  rfl

theorem get_pixel_bicubic_ok {b : PixelBuffer (Col F)} {w h px} (s : Shows b w h px) (hw : 0 < w)
    (x y : F) (hx0 : -2147483647 ≤ base x) (hx1 : base x ≤ 2147483645)
    (hy0 : -2147483647 ≤ base y) (hy1 : base y ≤ 2147483645) :
    get_pixel_bicubic b x y = .ok (bicubic w h px x y) := by
  unfold get_pixel_bicubic get_base_and_offset
  change -2147483647 ≤ Scalar.asI32 (Scalar.floor x) at hx0
  change -2147483647 ≤ Scalar.asI32 (Scalar.floor y) at hy0
  change Scalar.asI32 (Scalar.floor x) ≤ _ at hx1
  change Scalar.asI32 (Scalar.floor y) ≤ _ at hy1
  have e : ∀ (v d : Int), -2147483647 ≤ v → v ≤ 2147483645 → -1 ≤ d → d ≤ 2 → i32 (v + d) = .ok (v + d) := by
    intro v d _ _ _ _; exact i32_ok (by omega) (by omega)
  have e' : ∀ (v : Int), -2147483647 ≤ v → v ≤ 2147483645 → i32 (v - 1) = .ok (v + -1) := by
    intro v _ _; exact i32_ok (by omega) (by omega)
  simp only [e' _ hx0 hx1, e' _ hy0 hy1, e _ 1 hx0 hx1 (by decide) (by decide),
    e _ 1 hy0 hy1 (by decide) (by decide), e _ 2 hx0 hx1 (by decide) (by decide),
    e _ 2 hy0 hy1 (by decide) (by decide), C04_get_pixel_clamped s hw, ok_bind]
  show (.ok _ : R _) = .ok _
  simp only [bicubic, perChannel, at', base, Int.add_zero, frac]
  rfl

theorem foldl_addScaled (n : Nat) (v : Nat → Col F) (sc : Nat → F) (s : Col F) :
    (List.range n).foldl (fun a i => a.addScaled (v i) (sc i)) s =
    ⟨(List.range n).foldl (fun a i => a +. (v i).c0 *. sc i) s.c0,
     (List.range n).foldl (fun a i => a +. (v i).c1 *. sc i) s.c1,
     (List.range n).foldl (fun a i => a +. (v i).c2 *. sc i) s.c2,
     (List.range n).foldl (fun a i => a +. (v i).alpha *. sc i) s.alpha⟩ := by
  induction n with
  | zero => rfl
  | succ n ih =>
    simp only [List.range_succ, List.foldl_append, List.foldl_cons, List.foldl_nil, ih]
    rfl

theorem lanczosSum_ok (N : Nat) (p : Nat → Nat → Col F) (wx wy : Nat → F) :
    lanczosSum N ((List.range N).map fun y => (List.range N).map fun x => p x y)
      ((List.range N).map wx) wy =
    .ok (perChannel fun ch => sum N fun j => (sum N fun i => ch (p i j) *. wx i) *. wy j) := by
  unfold lanczosSum
  -- the accumulated rows as a function
  let φ : (Nat → Col F) → List (Col F) := fun f => (List.range N).map f
  have hinit : List.replicate N (Rgb.NONE : Col F) = φ fun _ => Rgb.NONE := by
    simp [φ, List.map_const']
  have inner : ∀ y < N, ∀ f : Nat → Col F,
      (forRange N (φ f) fun x rows => do
        let scale ← index ((List.range N).map wx) x
        let v ← index (← index ((List.range N).map fun y => (List.range N).map fun x => p x y) y) x
        let r ← index rows y
        setIndex rows y (r.addScaled v scale)) =
      .ok (φ ((List.range N).foldl (fun (f : Nat → Col F) x =>
        fun j => if j = y then (f y).addScaled (p x y) (wx x) else f j) f)) := by
    intro y hy f
    apply forRange_ok φ N
    intro x hx f
    rw [index_map_range N x hx, ok_bind, index_map_range N y hy, ok_bind, index_map_range N x hx,
      ok_bind, index_map_range N y hy, ok_bind, setIndex_map_range N y hy]
  have inner2 : ∀ (y : Nat) (n : Nat) (f : Nat → Col F), (List.range n).foldl (fun (f : Nat → Col F) x =>
        fun j => if j = y then (f y).addScaled (p x y) (wx x) else f j) f =
      fun j => if j = y then (List.range n).foldl (fun a x => a.addScaled (p x y) (wx x)) (f y) else f j := by
    intro y n f
    induction n with
    | zero => funext j; simp; intro h; rw [h]
    | succ n ih =>
      rw [List.range_succ, List.foldl_append, ih]
      funext j
      simp only [List.foldl_cons, List.foldl_nil, List.foldl_append]
      by_cases hj : j = y <;> simp [hj]
  have outer : (forRange N (φ fun _ => Rgb.NONE) fun y rows => forRange N rows fun x rows => do
        let scale ← index ((List.range N).map wx) x
        let v ← index (← index ((List.range N).map fun y => (List.range N).map fun x => p x y) y) x
        let r ← index rows y
        setIndex rows y (r.addScaled v scale)) =
      .ok (φ ((List.range N).foldl (fun (f : Nat → Col F) y => fun j => if j = y then
        (List.range N).foldl (fun a x => a.addScaled (p x y) (wx x)) (f y) else f j)
          fun _ => Rgb.NONE)) := by
    apply forRange_ok φ N
    intro y hy f
    rw [inner y hy f, inner2]
  have outer2 : ∀ n, (List.range n).foldl (fun (f : Nat → Col F) y => fun j => if j = y then
        (List.range N).foldl (fun a x => a.addScaled (p x y) (wx x)) (f y) else f j)
          (fun _ => Rgb.NONE) =
      fun j => if j < n then
        (List.range N).foldl (fun a x => a.addScaled (p x j) (wx x)) Rgb.NONE else Rgb.NONE := by
    intro n
    induction n with
    | zero => funext j; simp
    | succ n ih =>
      rw [List.range_succ, List.foldl_append, ih]
      funext j
      simp only [List.foldl_cons, List.foldl_nil]
      by_cases hj : j = n
      · simp [hj]
      · have : (j < n + 1) ↔ j < n := by omega
        simp only [hj, if_false, this]
  rw [hinit, outer, ok_bind, outer2]
  refine (forRange_ok id N _ (fun y a => a.addScaled
    ((List.range N).foldl (fun a x => a.addScaled (p x y) (wx x)) Rgb.NONE) (wy y)) ?_ _).trans ?_
  · intro y hy a
    rw [index_map_range N y hy, ok_bind, if_pos hy]
    rfl
  · show (.ok _ : R _) = .ok _
    simp only [foldl_addScaled]
    rfl

theorem get_pixel_lanczos_ok {b : PixelBuffer (Col F)} {w h px} (s : Shows b w h px) (hw : 0 < w)
    (N : Nat) (x y : F) (hN : N < 2147483648)
    (hx0 : -2147483648 ≤ base x - (N / 2 : Nat)) (hx1 : base x + N < 2147483648)
    (hy0 : -2147483648 ≤ base y - (N / 2 : Nat)) (hy1 : base y + N < 2147483648) :
    get_pixel_lanczos N b x y = .ok (lanczosAt w h px N x y) := by
  unfold get_pixel_lanczos get_base_and_offset
  simp only []
  change (do let kernel ← b.get_kernel N (base x) (base y); _) = _
  rw [C09_get_kernel s hw N _ _ hN hx0 hx1 hy0 hy1, ok_bind]
  unfold window
  have tap : ∀ (t : F) (i : Nat), lanczos N (Scalar.ofNat i -. (Scalar.ofNat N -. lit 1) /. lit 2 -. t) =
      lanczosTap N t i := by
    intro t i
    by_cases h7 : N = 7
    · subst h7; rfl
    · have h7' : (N == 7) = false := by simpa using h7
      simp only [lanczos, lanczosTap, h7', h7]
      rfl
  simp only [tap]
  exact lanczosSum_ok N _ _ _

theorem get_pixel_lanczos_dyn_ok {b : PixelBuffer (Col F)} {w h px} (s : Shows b w h px) (hw : 0 < w)
    (size : Nat) (x y : F) (hN : size * 2 + 1 < 2147483648)
    (hx0 : -2147483648 ≤ base x - size) (hx1 : base x + (size * 2 + 1) < 2147483648)
    (hy0 : -2147483648 ≤ base y - size) (hy1 : base y + (size * 2 + 1) < 2147483648) :
    get_pixel_lanczos_dyn b x y size = .ok (lanczosDynAt w h px size x y) := by
  unfold get_pixel_lanczos_dyn get_base_and_offset
  simp only []
  have e : (size * 2 + 1) / 2 = size := by omega
  rw [if_pos (by omega)]
  change (do let kernel ← b.get_kernel _ (base x) (base y); _) = _
  rw [C09_get_kernel s hw (size * 2 + 1) _ _ hN (by rw [e]; exact hx0)
    (by push_cast; exact hx1) (by rw [e]; exact hy0) (by push_cast; exact hy1), ok_bind]
  exact lanczosSum_ok (size * 2 + 1) _ _ _

end D10
