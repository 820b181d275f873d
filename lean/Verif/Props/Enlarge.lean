import Verif.Lemmas.Nearest
import Verif.Props.Sample

/-!
# Enlarging and reducing by whole factors with the nearest filter (C103)
-/

namespace D10
open Spec

section Generic
variable {F : Type} [Scalar F] [Coords F]

private theorem at_min {w h : Nat} {px : Nat → Nat → Col F} (x y : Nat) :
    at' w h px (x : Int) (y : Int) = px (min x (w - 1)) (min y (h - 1)) := by
  have e : ∀ n v : Nat, nearest n (v : Int) = min v (n - 1) := by
    intro n v; unfold nearest; omega
  unfold at'; rw [e, e]

private theorem size_pos {T : Type} {b : PixelBuffer T} {w h px} (s : Shows b w h px) (hw : 0 < w) :
    0 < h := by rcases s.size with ⟨h1, _⟩ | ⟨_, h, _⟩ <;> omega

/-- A resize by the nearest filter whose positions are known. -/
private theorem nearest_shows {b : PixelBuffer (Col F)} {w h px} (s : Shows b w h px) (hw : 0 < w)
    {nw nh : Nat} (hv : ValidSize nw nh) (fx fy : Nat → Nat)
    (hx : ∀ x, x < nw → scaledNearest F w nw x = (fx x : Int))
    (hy : ∀ y, y < nh → scaledNearest F h nh y = (fy y : Int))
    (same : nw = w → nh = h →
      (∀ x, x < w → min (fx x) (w - 1) = x) ∧ (∀ y, y < h → min (fy y) (h - 1) = y)) :
    ∃ b', resize b nw nh .Nearest = .ok b' ∧
      Shows b' nw nh fun x y => px (min (fx x) (w - 1)) (min (fy y) (h - 1)) := by
  by_cases hs : nw = w ∧ nh = h
  · obtain ⟨rfl, rfl⟩ := hs
    have e := C18_resize_same b .Nearest
    rw [s.width, s.height] at e
    refine ⟨b, e, s.congr fun x y h1 h2 => ?_⟩
    rw [(same rfl rfl).1 x h1, (same rfl rfl).2 y h2]
  · obtain ⟨b', e, s'⟩ := C18_resize s hw nw nh hv hs .Nearest (by simp)
    refine ⟨b', e, s'.congr fun x y h1 h2 => ?_⟩
    show at' w h px _ _ = _
    rw [hx x h1, hy y h2, at_min]

private theorem one_of {k w : Nat} (hw : 0 < w) (h : k * w = w) : k = 1 :=
  Nat.eq_of_mul_eq_mul_right hw (by rw [h, one_mul])

private theorem halves (k x : Nat) : (2 * x + k) / (2 * k) = (x + k / 2) / k := by
  rw [← Nat.div_div_eq_div_mul]
  congr 1
  omega

private theorem enlarge_any {b : PixelBuffer (Col F)} {w h px} (s : Shows b w h px) (hw : 0 < w)
    {k l : Nat} (hv : ValidSize (k * w) (l * h))
    (hx : ∀ x, x < k * w → scaledNearest F w (k * w) x = (((2 * x + k) / (2 * k) : Nat) : Int))
    (hy : ∀ y, y < l * h → scaledNearest F h (l * h) y = (((2 * y + l) / (2 * l) : Nat) : Int)) :
    ∃ b', resize b (k * w) (l * h) .Nearest = .ok b' ∧
      Shows b' (k * w) (l * h) fun x y =>
        px (min ((x + k / 2) / k) (w - 1)) (min ((y + l / 2) / l) (h - 1)) := by
  have hh := size_pos s hw
  refine nearest_shows s hw hv (fun x => (x + k / 2) / k) (fun y => (y + l / 2) / l)
    (fun x h => by rw [hx x h, halves]) (fun y h => by rw [hy y h, halves]) ?_
  intro e1 e2
  rw [one_of hw e1, one_of hh e2]
  refine ⟨fun x h => ?_, fun y h => ?_⟩ <;> omega

private theorem reduce_any {b : PixelBuffer (Col F)} {w h px} {k l : Nat}
    (s : Shows b (k * w) (l * h) px) (hk : 0 < k) (hl : 0 < l) (hw : 0 < w) (hv : ValidSize w h)
    (hx : ∀ x, x < w → scaledNearest F (k * w) w x = ((k * x : Nat) : Int))
    (hy : ∀ y, y < h → scaledNearest F (l * h) h y = ((l * y : Nat) : Int)) :
    ∃ b', resize b w h .Nearest = .ok b' ∧ Shows b' w h fun x y => px (k * x) (l * y) := by
  have hkw : 0 < k * w := Nat.mul_pos hk hw
  have hlh := size_pos s hkw
  have hh : 0 < h := Nat.pos_of_mul_pos_left hlh
  obtain ⟨b', e, s'⟩ := nearest_shows s hkw hv (fun x => k * x) (fun y => l * y) hx hy (by
    intro e1 e2
    rw [one_of hw e1.symm, one_of hh e2.symm]
    refine ⟨fun x h => ?_, fun y h => ?_⟩ <;> omega)
  refine ⟨b', e, s'.congr fun x y h1 h2 => ?_⟩
  have a1 : k * x ≤ k * w - 1 := by
    have : k * x < k * w := Nat.mul_lt_mul_of_pos_left h1 hk
    omega
  have a2 : l * y ≤ l * h - 1 := by
    have : l * y < l * h := Nat.mul_lt_mul_of_pos_left h2 hl
    omega
  rw [min_eq_left a1, min_eq_left a2]

private theorem mid {k x : Nat} (hk : 0 < k) : (2 * (k * x) + k) / (2 * k) = x := by
  have e : 2 * (k * x) + k = k + 2 * k * x := by ring
  rw [e, Nat.add_mul_div_left _ _ (by omega), Nat.div_eq_of_lt (by omega), zero_add]

private theorem back_any {b : PixelBuffer (Col F)} {w h px} (s : Shows b w h px) (hw : 0 < w)
    {k l : Nat} (hv : ValidSize (k * w) (l * h)) (hk : 0 < k) (hl : 0 < l)
    (hx : ∀ x, x < k * w → scaledNearest F w (k * w) x = (((2 * x + k) / (2 * k) : Nat) : Int))
    (hy : ∀ y, y < l * h → scaledNearest F h (l * h) y = (((2 * y + l) / (2 * l) : Nat) : Int))
    (hx' : ∀ x, x < w → scaledNearest F (k * w) w x = ((k * x : Nat) : Int))
    (hy' : ∀ y, y < h → scaledNearest F (l * h) h y = ((l * y : Nat) : Int)) :
    ∃ b', resize b (k * w) (l * h) .Nearest = .ok b' ∧ resize b' w h .Nearest = .ok b := by
  obtain ⟨b', e, s'⟩ := enlarge_any s hw hv hx hy
  obtain ⟨b'', e', s''⟩ := reduce_any s' hk hl hw s.size hx' hy'
  refine ⟨b', e, ?_⟩
  rw [e']
  congr 1
  refine (s''.congr fun x y h1 h2 => ?_).eq s
  rw [← halves, ← halves, mid hk, mid hl, min_eq_left (by omega), min_eq_left (by omega)]

end Generic

/-! ## In binary32, up to two million pixels across -/

section Float
variable [Libm b32]

/-- Enlarged by `k` across and `l` down, every pixel is repeated `k` times across and `l` times down,
and the whole is moved by half a pixel, `k / 2` to the left and `l / 2` up: the first column is
`k / 2` places narrower than the others, the last one as much wider. -/
theorem C103_enlarge {b : PixelBuffer (Col F32)} {w h px} (s : Shows b w h px) (hw : 0 < w)
    (k l : Nat) (hv : ValidSize (k * w) (l * h)) (hk : k * w ≤ 2097152) (hl : l * h ≤ 2097152) :
    ∃ b', resize b (k * w) (l * h) .Nearest = .ok b' ∧
      Shows b' (k * w) (l * h) fun x y =>
        px (min ((x + k / 2) / k) (w - 1)) (min ((y + l / 2) / l) (h - 1)) :=
  enlarge_any s hw hv (fun _ hx => enlarge_f32 hw hx hk)
    (fun _ hy => enlarge_f32 (size_pos s hw) hy hl)

/-- Reduced by `k` across and `l` down, it keeps every `k`-th pixel of every `l`-th row. -/
theorem C103_reduce {b : PixelBuffer (Col F32)} {w h px} {k l : Nat}
    (s : Shows b (k * w) (l * h) px) (hk0 : 0 < k) (hl0 : 0 < l) (hw : 0 < w) (hv : ValidSize w h)
    (hk : k * w ≤ 2097152) (hl : l * h ≤ 2097152) :
    ∃ b', resize b w h .Nearest = .ok b' ∧ Shows b' w h fun x y => px (k * x) (l * y) :=
  reduce_any s hk0 hl0 hw hv (fun _ hx => reduce_f32 hk0 hx hk) (fun _ hy => reduce_f32 hl0 hy hl)

/-- Enlarging by whole factors and going back to the old size gives back the same image. -/
theorem C103_enlarge_reduce {b : PixelBuffer (Col F32)} {w h px} (s : Shows b w h px) (hw : 0 < w)
    (k l : Nat) (hk0 : 0 < k) (hl0 : 0 < l) (hv : ValidSize (k * w) (l * h))
    (hk : k * w ≤ 2097152) (hl : l * h ≤ 2097152) :
    ∃ b', resize b (k * w) (l * h) .Nearest = .ok b' ∧ resize b' w h .Nearest = .ok b :=
  back_any s hw hv hk0 hl0 (fun _ hx => enlarge_f32 hw hx hk)
    (fun _ hy => enlarge_f32 (size_pos s hw) hy hl)
    (fun _ hx => reduce_f32 hk0 hx hk) (fun _ hy => reduce_f32 hl0 hy hl)

end Float

/-! ## In exact arithmetic, for all sizes -/

section Exact
variable [Junk]

theorem C103_enlarge_exact {b : PixelBuffer (Col ℝ)} {w h px} (s : Shows b w h px) (hw : 0 < w)
    (k l : Nat) (hv : ValidSize (k * w) (l * h)) :
    ∃ b', resize b (k * w) (l * h) .Nearest = .ok b' ∧
      Shows b' (k * w) (l * h) fun x y =>
        px (min ((x + k / 2) / k) (w - 1)) (min ((y + l / 2) / l) (h - 1)) :=
  enlarge_any s hw hv (fun _ hx => enlarge_exact hw hx s.size.width_le)
    (fun _ hy => enlarge_exact (size_pos s hw) hy s.size.height_le)

theorem C103_reduce_exact {b : PixelBuffer (Col ℝ)} {w h px} {k l : Nat}
    (s : Shows b (k * w) (l * h) px) (hk0 : 0 < k) (hl0 : 0 < l) (hw : 0 < w) (hv : ValidSize w h) :
    ∃ b', resize b w h .Nearest = .ok b' ∧ Shows b' w h fun x y => px (k * x) (l * y) :=
  reduce_any s hk0 hl0 hw hv (fun _ hx => reduce_exact hk0 hx s.size.width_le)
    (fun _ hy => reduce_exact hl0 hy s.size.height_le)

theorem C103_enlarge_reduce_exact {b : PixelBuffer (Col ℝ)} {w h px} (s : Shows b w h px) (hw : 0 < w)
    (k l : Nat) (hk0 : 0 < k) (hl0 : 0 < l) (hv : ValidSize (k * w) (l * h)) :
    ∃ b', resize b (k * w) (l * h) .Nearest = .ok b' ∧ resize b' w h .Nearest = .ok b :=
  back_any s hw hv hk0 hl0 (fun _ hx => enlarge_exact hw hx s.size.width_le)
    (fun _ hy => enlarge_exact (size_pos s hw) hy s.size.height_le)
    (fun _ hx => reduce_exact hk0 hx hv.width_le) (fun _ hy => reduce_exact hl0 hy hv.height_le)

end Exact

/-! ## Examples -/

section Examples
variable [Libm b32]

/-- Three pixels in a row, four times as wide: the first twice, the second four times, the last six
times. -/
example (a b c : Col F32) :
    ∃ b', resize ⟨3, 1, [a, b, c]⟩ 12 1 .Nearest = .ok b' ∧
      b'.data = [a, a, b, b, b, b, c, c, c, c, c, c] := by
  have s : Shows (⟨3, 1, [a, b, c]⟩ : PixelBuffer (Col F32)) 3 1
      fun x _ => if x = 0 then a else if x = 1 then b else c :=
    ⟨rfl, rfl, Or.inr (by norm_num), rfl⟩
  obtain ⟨b', e, s'⟩ := C103_enlarge s (by omega) 4 1 (Or.inr (by norm_num)) (by omega) (by omega)
  exact ⟨b', e, s'.pixels.trans rfl⟩

/-- And back. -/
example (a b c : Col F32) :
    ∃ b', resize ⟨12, 1, [a, a, b, b, b, b, c, c, c, c, c, c]⟩ 3 1 .Nearest = .ok b' ∧
      b'.data = [a, b, c] := by
  have s : Shows (⟨12, 1, [a, a, b, b, b, b, c, c, c, c, c, c]⟩ : PixelBuffer (Col F32)) (4 * 3) (1 * 1)
      fun x _ => if x < 2 then a else if x < 6 then b else c :=
    ⟨rfl, rfl, Or.inr (by norm_num), rfl⟩
  obtain ⟨b', e, s'⟩ := C103_reduce s (by omega) (by omega) (by omega) (Or.inr (by norm_num))
    (by omega) (by omega)
  exact ⟨b', e, s'.pixels.trans rfl⟩

/-- A large picture meets the hypotheses of the way there and back. -/
example (b : PixelBuffer (Col F32)) (px) (s : Shows b 1000 700 px) :
    ∃ b', resize b 3000 3500 .Nearest = .ok b' ∧ resize b' 1000 700 .Nearest = .ok b :=
  C103_enlarge_reduce s (by omega) 3 5 (by omega) (by omega) (Or.inr (by norm_num)) (by omega)
    (by omega)

end Examples
end D10
