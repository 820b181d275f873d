import Verif.Props.Kernel
import Verif.Model.Kernel
import Verif.SpecOps
import Verif.Lemmas.Geometry

/-! # Helper lemmas about convolution loops -/

namespace D10
open Spec

variable {F : Type} [Scalar F]

/-- A loop over states of the form `φ s`. -/
theorem forRange_ok {σ τ : Type} (φ : τ → σ) (n : Nat) (body : Nat → σ → R σ) (g : Nat → τ → τ)
    (hb : ∀ i < n, ∀ s, body i (φ s) = .ok (φ (g i s))) (s : τ) :
    forRange n (φ s) body = .ok (φ ((List.range n).foldl (fun s i => g i s) s)) := by
  unfold forRange
  induction n with
  | zero => rfl
  | succ n ih =>
    rw [List.range_succ, List.foldlM_append, ih (fun i hi => hb i (by omega)), ok_bind]
    simp only [List.foldlM_cons, List.foldlM_nil, List.foldl_append, List.foldl_cons, List.foldl_nil]
    rw [hb n (by omega), ok_bind]; rfl

theorem foldlM_ok {ι σ τ : Type} (φ : τ → σ) (l : List ι) (body : σ → ι → R σ) (g : τ → ι → τ)
    (hb : ∀ i ∈ l, ∀ s, body (φ s) i = .ok (φ (g s i))) (s : τ) :
    l.foldlM body (φ s) = .ok (φ (l.foldl g s)) := by
  induction l generalizing s with
  | nil => rfl
  | cons i is ih =>
    rw [List.foldlM_cons, hb i (by simp), ok_bind, ih (fun j hj => hb j (by simp [hj]))]; rfl

theorem foldl_range_rows {τ U : Type} (W H : Nat) (t : Nat → Nat → U) (g : τ → U → τ) (s : τ) :
    (List.range H).foldl (fun s y => (List.range W).foldl (fun s x => g s (t x y)) s) s =
      (rows W H t).foldl g s := by
  induction H with
  | zero => rfl
  | succ n ih =>
    rw [List.range_succ, List.foldl_append, ih, rows_succ, List.foldl_append]
    simp [List.foldl_map]

/-- Accumulating four channels at once. -/
theorem foldl_perChannel (l : List (F × Col F)) (f : F → F → F) (s : Col F) :
    l.foldl (fun (s : Col F) (p : F × Col F) =>
      (⟨s.c0 +. f p.1 p.2.c0, s.c1 +. f p.1 p.2.c1, s.c2 +. f p.1 p.2.c2,
        s.alpha +. f p.1 p.2.alpha⟩ : Col F)) s =
    ⟨(l.map fun p => f p.1 p.2.c0).foldl (· +. ·) s.c0,
     (l.map fun p => f p.1 p.2.c1).foldl (· +. ·) s.c1,
     (l.map fun p => f p.1 p.2.c2).foldl (· +. ·) s.c2,
     (l.map fun p => f p.1 p.2.alpha).foldl (· +. ·) s.alpha⟩ := by
  induction l generalizing s with
  | nil => rfl
  | cons p ps ih => rw [List.foldl_cons, ih]; rfl

theorem index_map_range {α : Type} (n i : Nat) (hi : i < n) (f : Nat → α) :
    index ((List.range n).map f) i = .ok (f i) := by
  apply index_ok; simp [hi]

theorem Kernel.apply_kernel_ok {k : Kernel F} {N : Nat} {wt : Nat → Nat → F} (hk : k.Holds N wt)
    (px : Nat → Nat → Col F) :
    k.apply_kernel N ((List.range N).map fun y => (List.range N).map fun x => px x y)
      (fun c i => index c.data i) 4 =
    .ok (perChannel fun ch => total N N fun x y => wt x y *. ch (px x y)).data := by
  unfold Kernel.apply_kernel
  have step : ∀ y < N, ∀ s : Col F, forRange N s.data (fun x result =>
      result.zipIdx.mapM fun (v, i) => do
        return v +. (← index (← index k.data y) x) *. (← index (← index (← index
          ((List.range N).map fun y => (List.range N).map fun x => px x y) y) x).data i)) =
      .ok (Col.data ((List.range N).foldl (fun s x =>
        (⟨s.c0 +. wt x y *. (px x y).c0, s.c1 +. wt x y *. (px x y).c1,
          s.c2 +. wt x y *. (px x y).c2, s.alpha +. wt x y *. (px x y).alpha⟩ : Col F)) s)) := by
    intro y hy s
    apply forRange_ok Col.data
    intro x hx s
    rw [hk]
    simp only [index_map_range N y hy, index_map_range N x hx, ok_bind]
    rfl
  show forRange N (Col.data (⟨lit 0, lit 0, lit 0, lit 0⟩ : Col F)) _ = _
  refine (forRange_ok Col.data N _ (fun y s => (List.range N).foldl (fun s x =>
        (⟨s.c0 +. wt x y *. (px x y).c0, s.c1 +. wt x y *. (px x y).c1,
          s.c2 +. wt x y *. (px x y).c2, s.alpha +. wt x y *. (px x y).alpha⟩ : Col F)) s)
          ?_ ⟨lit 0, lit 0, lit 0, lit 0⟩).trans ?_
  · exact step
  congr 2
  rw [foldl_range_rows N N (fun x y => (wt x y, px x y)) (fun s p =>
    (⟨s.c0 +. p.1 *. p.2.c0, s.c1 +. p.1 *. p.2.c1, s.c2 +. p.1 *. p.2.c2,
      s.alpha +. p.1 *. p.2.alpha⟩ : Col F))]
  rw [foldl_perChannel (f := fun a b => a *. b)]
  simp only [rows_map]
  rfl

omit [Scalar F] in
theorem KernelDyn.enumerate_eq {k : KernelDyn F} {W H : Nat} {wt : Nat → Nat → F}
    (hk : k.Holds W H wt) (hlt : W * H < 4294967296) :
    k.enumerate = rows W H fun x y => (x, y, wt x y) := by
  simp only [KernelDyn.enumerate, hk.width, hk.data, rows_eq_range]
  apply List.ext_getElem
  · simp
  · intro i h1 h2
    have hi : i < W * H := by simpa using h2
    simp [Nat.mod_eq_of_lt (show i < 4294967296 by omega)]

theorem KernelDyn.value_ok {b : PixelBuffer (Col F)} {w h px} (s : Shows b w h px)
    {k : KernelDyn F} {W H : Nat} {wt : Nat → Nat → F}
    (hk : k.Holds W H wt) (hlt : W * H < 4294967296) (hW : W ≤ 1073741824) (hH : H ≤ 1073741824)
    (x y : Nat) (hx : x < w) (hy : y < h) :
    b.get_kernel_value x y k = .ok (perChannel fun ch => total W H fun i j =>
      ch (px (nearest w (x + i - (W / 2 : Nat))) (nearest h (y + j - (H / 2 : Nat)))) *. wt i j) := by
  have hw := s.size.width_le
  have hh := s.size.height_le
  unfold PixelBuffer.get_kernel_value
  simp only [enumerate_eq hk hlt, KernelDyn.get_offset_x, KernelDyn.get_offset_y, hk.width,
    hk.height]
  have hox : (asI32 W).tdiv 2 = ((W / 2 : Nat) : Int) := by
    rw [asI32_of_lt (by omega), Int.tdiv_eq_ediv_of_nonneg (by omega)]; omega
  have hoy : (asI32 H).tdiv 2 = ((H / 2 : Nat) : Int) := by
    rw [asI32_of_lt (by omega), Int.tdiv_eq_ediv_of_nonneg (by omega)]; omega
  rw [hox, hoy]
  have := foldlM_ok (Col.data (F := F)) (rows W H fun x y => (x, y, wt x y))
    (fun data (p : Nat × Nat × F) => do
      let px ← i32 (asI32 (← u32 (x + p.1)) - ((W / 2 : Nat) : Int))
      let py ← i32 (asI32 (← u32 (y + p.2.1)) - ((H / 2 : Nat) : Int))
      let color ← b.get_pixel_clamped px py
      return List.zipWith (fun value color_value => value +. color_value *. p.2.2)
        data color.data)
    (fun s p =>
      let c := px (nearest w (x + p.1 - (W / 2 : Nat))) (nearest h (y + p.2.1 - (H / 2 : Nat)))
      (⟨s.c0 +. c.c0 *. p.2.2, s.c1 +. c.c1 *. p.2.2, s.c2 +. c.c2 *. p.2.2,
        s.alpha +. c.alpha *. p.2.2⟩ : Col F)) (by
    intro p hp st
    rw [rows_eq_range] at hp
    obtain ⟨i, hi, rfl⟩ := List.mem_map.1 hp
    have hi : i < W * H := by simpa using hi
    have h1 := mod_lt hi
    have h2 := div_lt hi
    dsimp only
    generalize i % W = xx at *
    generalize i / W = yy at *
    rw [u32_ok (by omega), ok_bind, asI32_of_lt (by omega), i32_ok (by omega) (by omega), ok_bind,
      u32_ok (by omega), ok_bind, asI32_of_lt (by omega), i32_ok (by omega) (by omega), ok_bind,
      C04_get_pixel_clamped s (by omega), ok_bind]
    simp only [Int.natCast_add]
    rfl) ⟨lit 0, lit 0, lit 0, lit 0⟩
  refine (congrArg (fun r => r >>= Col.ofData) this).trans ?_
  rw [ok_bind]
  have e := foldl_perChannel (rows W H fun i j => (wt i j,
      px (nearest w (x + i - (W / 2 : Nat))) (nearest h (y + j - (H / 2 : Nat)))))
      (fun a b => b *. a) ⟨lit 0, lit 0, lit 0, lit 0⟩
  rw [show (rows W H fun i j => (wt i j, px (nearest w (x + i - (W / 2 : Nat)))
      (nearest h (y + j - (H / 2 : Nat))))) = (rows W H fun x y => (x, y, wt x y)).map (fun p => (p.2.2,
        px (nearest w (x + p.1 - (W / 2 : Nat))) (nearest h (y + p.2.1 - (H / 2 : Nat))))) by
      rw [rows_map], List.foldl_map] at e
  refine (congrArg (fun c => Col.ofData (Col.data c)) e).trans ?_
  simp only [rows_map]
  rfl

end D10
