import Verif.Props.Geometry

/-!
# Operations that do not prefer a direction

`Equivariant P`: the recipe `P` for the pixels of a result does not change when the image is mirrored
or transposed. Such operations commute with flips and quarter turns.
-/

namespace D10

open Spec PixelBuffer

variable {T U V : Type}

theorem nearest_lt {n : Nat} (hn : 0 < n) (v : Int) : nearest n v < n := by
  unfold nearest; omega

theorem nearest_mirror {n : Nat} (hn : 0 < n) (v : Int) :
    nearest n ((n : Int) - 1 - v) = n - 1 - nearest n v := by
  unfold nearest; omega

theorem nearest_id {n x : Nat} (hx : x < n) : nearest n (x : Int) = x := by
  unfold nearest; omega

/-- A recipe that computes pixel `(x, y)` of a result from a `w x h` image. -/
abbrev Recipe (T U : Type) := Nat → Nat → (Nat → Nat → T) → Nat → Nat → U

structure Equivariant (P : Recipe T U) : Prop where
  /-- only the pixels of the image count -/
  congr : ∀ {w h px px'}, (∀ x y, x < w → y < h → px x y = px' x y) →
    ∀ {x y}, x < w → y < h → P w h px x y = P w h px' x y
  flipX : ∀ {w h} (px) {x y}, x < w → y < h →
    P w h (fun x y => px (w - 1 - x) y) x y = P w h px (w - 1 - x) y
  transpose : ∀ {w h} (px) {x y}, x < w → y < h → P h w (fun x y => px y x) y x = P w h px x y

namespace Equivariant

theorem flipY {P : Recipe T U} (e : Equivariant P) {w h : Nat} (px : Nat → Nat → T) {x y : Nat}
    (hx : x < w) (hy : y < h) :
    P w h (fun x y => px x (h - 1 - y)) x y = P w h px x (h - 1 - y) := by
  rw [← e.transpose (fun x y => px x (h - 1 - y)) hx hy, e.flipX (fun x y => px y x) hy hx,
    e.transpose px hx (by omega)]

/-- Such an operation commutes with flips and quarter turns. -/
theorem commutes {P : Recipe T U} (e : Equivariant P) {op : PixelBuffer T → R (PixelBuffer U)}
    (hop : ∀ b w h px, Shows b w h px → ∃ b', op b = .ok b' ∧ Shows b' w h (P w h px))
    (d : T) (d' : U) {b : PixelBuffer T} (hb : WellFormed b) :
    (flip_horizontal d b >>= op) = (op b >>= flip_horizontal d') ∧
    (flip_vertical d b >>= op) = (op b >>= flip_vertical d') ∧
    (rotate90 d b >>= op) = (op b >>= rotate90 d') ∧
    (rotate180 d b >>= op) = (op b >>= rotate180 d') ∧
    (rotate270 d b >>= op) = (op b >>= rotate270 d') := by
  obtain ⟨px, s⟩ := wf_shows d hb
  obtain ⟨b1, e1, s1⟩ := hop _ _ _ _ s
  rw [e1]
  simp only [ok_bind]
  refine ⟨?_, ?_, ?_, ?_, ?_⟩
  · obtain ⟨b2, e2, s2⟩ := C13_flip_horizontal d s
    obtain ⟨b3, e3, s3⟩ := hop _ _ _ _ s2
    obtain ⟨b4, e4, s4⟩ := C13_flip_horizontal d' s1
    rw [e2, ok_bind, e3, e4]
    exact congrArg _ ((s3.congr fun x y hx hy => e.flipX px hx hy).eq s4)
  · obtain ⟨b2, e2, s2⟩ := C13_flip_vertical d s
    obtain ⟨b3, e3, s3⟩ := hop _ _ _ _ s2
    obtain ⟨b4, e4, s4⟩ := C13_flip_vertical d' s1
    rw [e2, ok_bind, e3, e4]
    exact congrArg _ ((s3.congr fun x y hx hy => e.flipY px hx hy).eq s4)
  · obtain ⟨b2, e2, s2⟩ := C14_rotate90 d s
    obtain ⟨b3, e3, s3⟩ := hop _ _ _ _ s2
    obtain ⟨b4, e4, s4⟩ := C14_rotate90 d' s1
    rw [e2, ok_bind, e3, e4]
    refine congrArg _ ((s3.congr fun x y hx hy => ?_).eq s4)
    rw [e.flipX (fun x y => px y x) hx hy]
    exact e.transpose px hy (by omega)
  · obtain ⟨b2, e2, s2⟩ := C14_rotate180 d s
    obtain ⟨b3, e3, s3⟩ := hop _ _ _ _ s2
    obtain ⟨b4, e4, s4⟩ := C14_rotate180 d' s1
    rw [e2, ok_bind, e3, e4]
    refine congrArg _ ((s3.congr fun x y hx hy => ?_).eq s4)
    rw [e.flipX (fun x y => px x (b.height - 1 - y)) hx hy]
    exact e.flipY px (by omega) hy
  · obtain ⟨b2, e2, s2⟩ := C14_rotate270 d s
    obtain ⟨b3, e3, s3⟩ := hop _ _ _ _ s2
    obtain ⟨b4, e4, s4⟩ := C14_rotate270 d' s1
    rw [e2, ok_bind, e3, e4]
    refine congrArg _ ((s3.congr fun x y hx hy => ?_).eq s4)
    rw [e.flipY (fun x y => px y x) hx hy]
    exact e.transpose px (by omega) hx

/-! ## Building blocks -/

theorem pixel : Equivariant (fun _ _ px x y => px x y : Recipe T T) where
  congr h _ _ hx hy := h _ _ hx hy
  flipX _ _ _ _ _ := rfl
  transpose _ _ _ _ _ := rfl

theorem const (c : U) : Equivariant (fun _ _ _ _ _ => c : Recipe T U) where
  congr _ _ _ _ _ := rfl
  flipX _ _ _ _ _ := rfl
  transpose _ _ _ _ _ := rfl

theorem map {P : Recipe T U} (e : Equivariant P) (f : U → V) :
    Equivariant (fun w h px x y => f (P w h px x y)) where
  congr h _ _ hx hy := congrArg f (e.congr h hx hy)
  flipX px _ _ hx hy := congrArg f (e.flipX px hx hy)
  transpose px _ _ hx hy := congrArg f (e.transpose px hx hy)

theorem map2 {U' : Type} {P : Recipe T U} {Q : Recipe T U'} (e : Equivariant P) (e' : Equivariant Q)
    (f : U → U' → V) : Equivariant (fun w h px x y => f (P w h px x y) (Q w h px x y)) where
  congr h _ _ hx hy := by simp only [e.congr h hx hy, e'.congr h hx hy]
  flipX px _ _ hx hy := by simp only [e.flipX px hx hy, e'.flipX px hx hy]
  transpose px _ _ hx hy := by simp only [e.transpose px hx hy, e'.transpose px hx hy]

theorem comp {P : Recipe U V} {Q : Recipe T U} (e : Equivariant P) (e' : Equivariant Q) :
    Equivariant (fun w h px x y => P w h (Q w h px) x y) where
  congr h _ _ hx hy := e.congr (fun _ _ hx hy => e'.congr h hx hy) hx hy
  flipX px _ _ hx hy := by
    rw [← e.flipX _ hx hy]
    exact e.congr (fun _ _ hx hy => e'.flipX px hx hy) hx hy
  transpose px _ _ hx hy := by
    rw [← e.transpose _ hx hy]
    exact e.congr (fun _ _ hx hy => e'.transpose px hy hx) hy hx

/-- Recipes that use the other pixels only through a summary that does not depend on their order. -/
theorem summary (G : List T → T → U) (hG : ∀ l l', l.Perm l' → ∀ c, G l c = G l' c) :
    Equivariant (fun w h px x y => G (rows w h px) (px x y)) where
  congr h _ _ hx hy := by rw [rows_congr h, h _ _ hx hy]
  flipX {w h} px _ _ hx hy := hG _ _
    (rows_perm (dst := fun x y => (w - 1 - x, y)) (src := fun x y => (w - 1 - x, y)) rfl
      (fun x y hx hy => ⟨by simp only; omega, hy, by simp only [Prod.mk.injEq, and_true]; omega⟩)) _
  transpose {w h} px _ _ hx hy := hG _ _
    (rows_perm (dst := fun x y => (y, x)) (src := fun x y => (y, x)) (Nat.mul_comm _ _)
      (fun x y hx hy => ⟨hy, hx, rfl⟩)) _

end Equivariant
end D10
