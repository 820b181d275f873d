import Verif.SpecLocal
import Verif.Lemmas.Moves

/-!
# Recipes that use only the neighbourhood of a pixel
-/

namespace D10
open Spec PixelBuffer

variable {T U V : Type}

/-- `x` in a line of `w` pixels and `x'` in a line of `w'` pixels are equally far from the ends, as far as
`r` pixels can see. -/
structure SameEnds (r w x w' x' : Nat) : Prop where
  inl : x < w
  inr : x' < w'
  left : min x r = min x' r
  right : min (w - 1 - x) r = min (w' - 1 - x') r

theorem SameEnds.mono {r s w x w' x' : Nat} (h : SameEnds r w x w' x') (hs : s ≤ r) : SameEnds s w x w' x' := by
  obtain ⟨a, b, c, d⟩ := h
  exact ⟨a, b, by omega, by omega⟩

/-- Moving by up to `r` in both lines. -/
theorem SameEnds.move {r s w x w' x' : Nat} (h : SameEnds (r + s) w x w' x') {i : Int} (h0 : -(r : Int) ≤ i)
    (h1 : i ≤ r) : SameEnds s w (nearest w (x + i)) w' (nearest w' (x' + i)) := by
  obtain ⟨a, b, c, d⟩ := h
  have n : ∀ (w x : Nat), x < w → (nearest w (x + i) : Int) = max 0 (min (x + i) (w - 1)) := by
    intro w x hx
    unfold nearest
    omega
  have n1 := n w x a
  have n2 := n w' x' b
  refine ⟨by omega, by omega, by omega, by omega⟩

/-- The two positions see the same pixels up to distance `r`. -/
structure SameView (r w h : Nat) (px : Nat → Nat → T) (x y w' h' : Nat) (px' : Nat → Nat → T) (x' y' : Nat) :
    Prop where
  col : SameEnds r w x w' x'
  row : SameEnds r h y h' y'
  same : ∀ i j : Int, -(r : Int) ≤ i → i ≤ r → -(r : Int) ≤ j → j ≤ r →
    px (nearest w (x + i)) (nearest h (y + j)) = px' (nearest w' (x' + i)) (nearest h' (y' + j))

theorem SameView.mono {r s w h : Nat} {px : Nat → Nat → T} {x y w' h' : Nat} {px' : Nat → Nat → T} {x' y' : Nat}
    (v : SameView r w h px x y w' h' px' x' y') (hs : s ≤ r) : SameView s w h px x y w' h' px' x' y' :=
  ⟨v.col.mono hs, v.row.mono hs, fun i j h1 h2 h3 h4 => v.same i j (by omega) (by omega) (by omega) (by omega)⟩

theorem nearest_move {r s w x w' x' : Nat} (h : SameEnds (r + s) w x w' x') {i k : Int} (h0 : -(r : Int) ≤ i)
    (h1 : i ≤ r) (k0 : -(s : Int) ≤ k) (k1 : k ≤ s) :
    ∃ m : Int, -((r + s : Nat) : Int) ≤ m ∧ m ≤ ((r + s : Nat) : Int) ∧
      nearest w (nearest w (x + i) + k) = nearest w (x + m) ∧
      nearest w' (nearest w' (x' + i) + k) = nearest w' (x' + m) := by
  obtain ⟨a, b, c, d⟩ := h
  have n : ∀ (w : Nat) (v : Int), 0 < w → (nearest w v : Int) = max 0 (min v (w - 1)) := by
    intro w v hx
    unfold nearest
    omega
  have n1 := n w (x + i) (by omega)
  have n2 := n w' (x' + i) (by omega)
  refine ⟨(nearest w (nearest w (x + i) + k) : Int) - x, ?_, ?_, ?_, ?_⟩
  · have := n w (nearest w (x + i) + k) (by omega); omega
  · have := n w (nearest w (x + i) + k) (by omega); omega
  · have e1 := n w (nearest w (x + i) + k) (by omega)
    have e2 := n w ((x : Int) + ((nearest w (nearest w (x + i) + k) : Int) - x)) (by omega)
    omega
  · have e1 := n w (nearest w (x + i) + k) (by omega)
    have e2 := n w' (nearest w' (x' + i) + k) (by omega)
    have e3 := n w' ((x' : Int) + ((nearest w (nearest w (x + i) + k) : Int) - x)) (by omega)
    omega

theorem SameView.move {r s w h : Nat} {px : Nat → Nat → T} {x y w' h' : Nat} {px' : Nat → Nat → T} {x' y' : Nat}
    (v : SameView (r + s) w h px x y w' h' px' x' y') {i j : Int} (hi0 : -(r : Int) ≤ i) (hi1 : i ≤ r)
    (hj0 : -(r : Int) ≤ j) (hj1 : j ≤ r) :
    SameView s w h px (nearest w (x + i)) (nearest h (y + j)) w' h' px' (nearest w' (x' + i)) (nearest h' (y' + j)) := by
  refine ⟨v.col.move hi0 hi1, v.row.move hj0 hj1, fun k l h1 h2 h3 h4 => ?_⟩
  obtain ⟨m, m0, m1, e1, e2⟩ := nearest_move v.col hi0 hi1 h1 h2
  obtain ⟨n, n0, n1, e3, e4⟩ := nearest_move v.row hj0 hj1 h3 h4
  rw [e1, e2, e3, e4]
  exact v.same m n m0 m1 n0 n1

/-- The recipe uses only what it sees up to distance `r`. -/
def LocalRecipe (r : Nat) (P : Recipe T U) : Prop :=
  ∀ w h px x y w' h' px' x' y', SameView r w h px x y w' h' px' x' y' → P w h px x y = P w' h' px' x' y'

namespace LocalRecipe

theorem mono {r s : Nat} {P : Recipe T U} (l : LocalRecipe s P) (hs : s ≤ r) : LocalRecipe r P :=
  fun w h px x y w' h' px' x' y' v => l w h px x y w' h' px' x' y' (v.mono hs)

theorem pixel : LocalRecipe 0 (fun _ _ px x y => px x y : Recipe T T) := by
  intro w h px x y w' h' px' x' y' v
  have := v.same 0 0 (by simp) (by simp) (by simp) (by simp)
  simpa only [Int.add_zero, nearest_id v.col.inl, nearest_id v.col.inr, nearest_id v.row.inl,
    nearest_id v.row.inr] using this

theorem map {r : Nat} {P : Recipe T U} (l : LocalRecipe r P) (f : U → V) :
    LocalRecipe r (fun w h px x y => f (P w h px x y)) :=
  fun w h px x y w' h' px' x' y' v => congrArg f (l w h px x y w' h' px' x' y' v)

theorem map2 {U' : Type} {r s : Nat} {P : Recipe T U} {Q : Recipe T U'} (l : LocalRecipe r P) (l' : LocalRecipe s Q)
    (f : U → U' → V) : LocalRecipe (max r s) (fun w h px x y => f (P w h px x y) (Q w h px x y)) := by
  intro w h px x y w' h' px' x' y' v
  simp only []
  rw [l w h px x y w' h' px' x' y' (v.mono (by omega)), l' w h px x y w' h' px' x' y' (v.mono (by omega))]

theorem comp {r s : Nat} {P : Recipe U V} {Q : Recipe T U} (l : LocalRecipe r P) (l' : LocalRecipe s Q) :
    LocalRecipe (r + s) (fun w h px x y => P w h (Q w h px) x y) := by
  intro w h px x y w' h' px' x' y' v
  refine l w h (Q w h px) x y w' h' (Q w' h' px') x' y' ⟨v.col.mono (by omega), v.row.mono (by omega), ?_⟩
  intro i j h1 h2 h3 h4
  exact l' _ _ _ _ _ _ _ _ _ _ (v.move h1 h2 h3 h4)

theorem window {r N : Nat} (hN : N / 2 ≤ r) (hN' : N ≤ N / 2 + r + 1) :
    LocalRecipe r (fun w h px x y => window w h px N (x : Int) (y : Int) : Recipe T (List (List T))) := by
  intro w h px x y w' h' px' x' y' v
  unfold Spec.window
  refine List.map_congr_left fun ty hty => List.map_congr_left fun tx htx => ?_
  have hty := List.mem_range.1 hty
  have htx := List.mem_range.1 htx
  have := v.same ((tx : Int) - (N / 2 : Nat)) ((ty : Int) - (N / 2 : Nat)) (by omega) (by omega) (by omega) (by omega)
  simpa only [Int.add_sub_assoc] using this

/-- Dependence on the neighbourhood, and tiles. -/
theorem ops {r : Nat} {P : Recipe T T} (l : LocalRecipe r P) (d : T) {op : PixelBuffer T → R (PixelBuffer T)}
    (hop : ∀ b w h px, Shows b w h px → ∃ b', op b = .ok b' ∧ Shows b' w h (P w h px)) :
    DependsWithin r op ∧ Tiles r op := by
  constructor
  · intro b₁ b₂ h₁ h₂ hw hh x y hpx
    obtain ⟨px, s⟩ := wf_shows d h₁
    obtain ⟨px', s'⟩ := wf_shows d h₂
    rw [← hw, ← hh] at s'
    obtain ⟨c, e, t⟩ := hop _ _ _ _ s
    obtain ⟨c', e', t'⟩ := hop _ _ _ _ s'
    rw [e, e', ok_bind, ok_bind, C03_get_pixel t, C03_get_pixel t']
    by_cases hin : x < b₁.width ∧ y < b₁.height
    · rw [if_pos hin, if_pos hin]
      refine congrArg _ (l _ _ _ _ _ _ _ _ _ _ ⟨⟨hin.1, hin.1, rfl, rfl⟩, ⟨hin.2, hin.2, rfl, rfl⟩, ?_⟩)
      intro i j i0 i1 j0 j1
      have nx := nearest_lt (n := b₁.width) (by omega) (x + i)
      have ny := nearest_lt (n := b₁.height) (by omega) (y + j)
      have := hpx (nearest b₁.width (x + i)) (nearest b₁.height (y + j))
        (by unfold nearest; omega) (by unfold nearest; omega) (by unfold nearest; omega) (by unfold nearest; omega)
      rw [C03_get_pixel s, C03_get_pixel s', if_pos ⟨nx, ny⟩, if_pos ⟨nx, ny⟩] at this
      exact Except.ok.inj this
    · rw [if_neg hin, if_neg hin]
  · intro d' b hb ox oy tw th htw hth x hx y hy hl hr ht hbt
    obtain ⟨px, s⟩ := wf_shows d hb
    generalize b.width = w at *
    generalize b.height = h at *
    obtain ⟨c, e, t⟩ := C16_crop d' s ox oy tw th
    rw [if_neg (by omega)] at t
    have e1 : min w (ox + tw) - ox = tw := by omega
    have e2 : min h (oy + th) - oy = th := by omega
    rw [e1, e2] at t
    obtain ⟨c1, e3, t1⟩ := hop _ _ _ _ t
    obtain ⟨c2, e4, t2⟩ := hop _ _ _ _ s
    rw [e, ok_bind, e3, e4, ok_bind, ok_bind, C03_get_pixel t1, C03_get_pixel t2, if_pos ⟨hx, hy⟩,
      if_pos (by omega)]
    refine congrArg _ (l _ _ _ _ _ _ _ _ _ _ ⟨⟨hx, by omega, by omega, by omega⟩,
      ⟨hy, by omega, by omega, by omega⟩, ?_⟩)
    intro i j i0 i1 j0 j1
    have a : ox + nearest tw (x + i) = nearest w ((ox + x : Nat) + i) := by unfold nearest; omega
    have c : oy + nearest th (y + j) = nearest h ((oy + y : Nat) + j) := by unfold nearest; omega
    rw [a, c]

end LocalRecipe
end D10
