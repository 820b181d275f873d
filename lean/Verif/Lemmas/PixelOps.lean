import Verif.SpecPixel
import Verif.Props.Buffer
import Verif.Props.Kernel
import Verif.Lemmas.Color

/-! # Lemmas for palette, despeckle, smoothing and noise -/

namespace D10
open Spec
open Scalar (isNan)
open LawfulScalar

section order
variable {F : Type} [Scalar F] [LawfulScalar F]

theorem not_nan_of_lt_left {a b : F} (h : (a <. b) = true) : isNan a = false := by
  rw [Bool.eq_false_iff]; intro h'; rw [lt_nan_left a b h'] at h; cases h

theorem not_nan_of_lt_right {a b : F} (h : (a <. b) = true) : isNan b = false := by
  rw [Bool.eq_false_iff]; intro h'; rw [lt_nan_right a b h'] at h; cases h

theorem lt_of_lt_of_not_lt {a b c : F} (h : (a <. b) = true) (hc : isNan c = false)
    (h' : (c <. b) = false) : (a <. c) = true := by
  by_contra hn
  rw [Bool.not_eq_true] at hn
  have h1 := total a c (not_nan_of_lt_left h) hc hn
  have h2 := total c b hc (not_nan_of_lt_right h) h'
  rw [not_lt b a (le_trans _ _ _ h2 h1)] at h
  cases h

theorem lt_trans' {a b c : F} (h : (a <. b) = true) (h' : (b <. c) = true) : (a <. c) = true := by
  have hab : (a <=. b) = true := by show (_ || _) = true; rw [show Scalar.lt a b = true from h]; rfl
  by_contra hn
  rw [Bool.not_eq_true] at hn
  have h1 := total a c (not_nan_of_lt_left h) (not_nan_of_lt_right h') hn
  rw [not_lt c b (le_trans _ _ _ h1 hab)] at h'
  cases h'

end order

/-! ## Stateful closures -/

theorem mapM_visit {T U σ : Type} (f : σ → T → U × σ) (l : List T) (s : σ) :
    (l.mapM (m := StateT σ R) (fun c s => .ok (f s c))) s = .ok (visit f s l) := by
  induction l generalizing s with
  | nil => rfl
  | cons a as ih =>
    rw [List.mapM_cons]
    show (do
      let (b, s') ← (Except.ok (f s a) : R (U × σ))
      let (bs, s'') ← (as.mapM (m := StateT σ R) (fun c s => .ok (f s c))) s'
      pure (b :: bs, s'') : R (List U × σ)) = _
    simp only [ok_bind]
    rw [ih]
    rfl

theorem map_colorsM_visit {T U σ : Type} {b : PixelBuffer T} {w h px} (sh : Shows b w h px)
    (f : σ → T → U × σ) (g : T → StateT σ R U) (hg : ∀ c s, g c s = .ok (f s c)) (s : σ) :
    b.map_colorsM g s =
      .ok (⟨w, h, (visit f s (rows w h px)).1⟩, (visit f s (rows w h px)).2) := by
  have e : g = fun c s => .ok (f s c) := by funext c s; exact hg c s
  subst e
  unfold PixelBuffer.map_colorsM
  show (do
    let (data, s') ← (b.data.mapM (m := StateT σ R) (fun c s => .ok (f s c))) s
    pure (({ width := b.width, height := b.height, data := data } : PixelBuffer U), s') :
      R (PixelBuffer U × σ)) = _
  rw [mapM_visit, sh.pixels, sh.width, sh.height]
  rfl

theorem visit_length {α β σ : Type} (f : σ → α → β × σ) (s : σ) (l : List α) :
    (visit f s l).1.length = l.length := by
  induction l generalizing s with
  | nil => rfl
  | cons a as ih => simp [visit, ih]

/-- Every result of a visit comes from the element at the same place, in some state. -/
theorem visit_getElem? {α β σ : Type} (f : σ → α → β × σ) (l : List α) (s : σ) (i : Nat) (a : α)
    (h : l[i]? = some a) : ∃ s', (visit f s l).1[i]? = some (f s' a).1 := by
  induction l generalizing s i with
  | nil => simp at h
  | cons b bs ih =>
    cases i with
    | zero =>
      simp only [List.getElem?_cons_zero, Option.some.injEq] at h
      subst h
      exact ⟨s, rfl⟩
    | succ i =>
      simp only [List.getElem?_cons_succ] at h
      exact ih _ i h

/-- The image made by visiting the pixels of a `w x h` image. -/
theorem visit_shows {α β σ : Type} [Inhabited β] {w h : Nat} (hv : ValidSize w h)
    (px : Nat → Nat → α) (f : σ → α → β × σ) (s : σ) :
    ∃ px', Shows (⟨w, h, (visit f s (rows w h px)).1⟩ : PixelBuffer β) w h px' ∧
      ∀ x y, x < w → y < h → ∃ s', px' x y = (f s' (px x y)).1 := by
  have hwf : WellFormed (⟨w, h, (visit f s (rows w h px)).1⟩ : PixelBuffer β) := by
    refine ⟨hv, ?_⟩
    show (visit f s (rows w h px)).1.length = w * h
    rw [visit_length, rows_length]
  obtain ⟨px', hs⟩ : ∃ px', Shows _ w h px' := ⟨_, shows_of_wellFormed hwf⟩
  refine ⟨px', hs, ?_⟩
  intro x y hx hy
  have h1 := hs.getElem? hx hy
  have hs0 : Shows (⟨w, h, rows w h px⟩ : PixelBuffer α) w h px := ⟨rfl, rfl, hv, rfl⟩
  have h2 := hs0.getElem? hx hy
  obtain ⟨s', h3⟩ := visit_getElem? f _ s _ _ h2
  refine ⟨s', ?_⟩
  have h1 : (visit f s (rows w h px)).1[_]? = _ := h1
  rw [h3] at h1
  exact (Option.some.inj h1).symm

end D10
