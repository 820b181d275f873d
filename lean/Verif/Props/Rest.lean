import Verif.SpecRest
import Verif.Props.Buffer
import Verif.Props.Hsl
import Verif.Props.Channels

/-!
# Editing through references, named colours, sources of errors (C111)
-/

namespace D10
open Spec
variable {T : Type}

/-- C111: `enumerate_mut` visits every pixel once, row by row, with its position; reading through its
references gives the pixel, writing through one is `put_pixel`, and any number of writes, in any order,
leaves every pixel with what was last written to it. -/
theorem C111_enumerate_mut {b : PixelBuffer T} {w h px} (s : Shows b w h px) :
    ∃ slot : Nat → Nat → Slot, b.enumerate_mut = rows w h (fun x y => (x, y, slot x y)) ∧
      b.data_mut = rows w h slot ∧
      (∀ x y, x < w → y < h → (slot x y).get b = some (px x y)) ∧
      (∀ {b' : PixelBuffer T} {px'} (_ : Shows b' w h px') x y v, x < w → y < h →
        b'.put_pixel x y v = .ok ((slot x y).set b' v)) ∧
      ∀ writes : List (Nat × Nat × T), (∀ p ∈ writes, p.1 < w ∧ p.2.1 < h) →
        Shows (writes.foldl (fun b p => (slot p.1 p.2.1).set b p.2.2) b) w h (written px writes) := by
  have hm := s.size.mul_le
  have put : ∀ {b' : PixelBuffer T} {px'} (_ : Shows b' w h px') x y v, x < w → y < h →
      b'.put_pixel x y v = .ok ((⟨x + y * w⟩ : Slot).set b' v) := by
    intro b' px' s' x y v hx hy
    have hlt := idx_lt hx hy
    have hyw : y * w ≤ x + y * w := Nat.le_add_left _ _
    simp only [PixelBuffer.put_pixel, s'.width, s'.height, assert, hx, hy, decide_true, if_true, ok_bind]
    rw [u32_ok (show y * w < 4294967296 by omega), ok_bind, u32_ok (by omega), ok_bind,
      setIndex_ok (by rw [s'.length]; exact hlt)]
    simp [Slot.set, s'.width, s'.height]
  have slots : b.data_mut = rows w h fun x y => ⟨x + y * w⟩ := by
    rw [PixelBuffer.data_mut, s.length, rows_eq_range]
    apply List.map_congr_left
    intro i _
    rw [Nat.mul_comm, Nat.mod_add_div]
  refine ⟨fun x y => ⟨x + y * w⟩, ?_, slots, fun x y hx hy => s.getElem? hx hy, put, ?_⟩
  · rw [PixelBuffer.enumerate_mut, slots, rows_eq_range, rows_eq_range, s.width]
    apply List.ext_getElem
    · simp
    · intro i h1 h2
      have hi : i < w * h := by simpa using h2
      simp [Nat.mod_eq_of_lt (show i < 4294967296 by omega)]
  · intro writes
    induction writes using List.reverseRecOn with
    | nil => intro _; exact s
    | append_singleton ws p ih =>
      intro hw
      rw [List.foldl_append, List.foldl_cons, List.foldl_nil]
      obtain ⟨hx, hy⟩ := hw p (by simp)
      have s' := ih fun q hq => hw q (by simp [hq])
      obtain ⟨b'', h1, h2⟩ := (C03_put_pixel s' p.1 p.2.1 p.2.2).1 ⟨hx, hy⟩
      rw [put s' _ _ _ hx hy] at h1
      cases h1
      refine h2.congr fun x y _ _ => ?_
      by_cases e : x = p.1 ∧ y = p.2.1
      · rw [if_pos e]
        simp [written, e.1, e.2]
      · rw [if_neg e]
        have : ¬ (p.1 = x ∧ p.2.1 = y) := fun h => e ⟨h.1.symm, h.2.symm⟩
        simp [written, this]

/-- C111: the loop of `mod_colors_enumerated` through these references is the function of
Model/PixelBuffer. -/
theorem C111_mod_colors_enumerated (b : PixelBuffer T) (func : Nat → Nat → T → R T) :
    b.mod_colors_enumerated_loop func = b.mod_colors_enumerated func := by
  have key : ∀ (rest done : List T) (b' : PixelBuffer T), b'.data = done ++ rest → b'.width = b.width →
      ((((List.range' done.length rest.length).map Slot.mk).zipIdx done.length).map fun (v, i) =>
        (i % 4294967296 % b.width, i % 4294967296 / b.width, v)).foldlM (PixelBuffer.visit func) b' =
      (do
        let data ← ((rest.zipIdx done.length).map fun ((v, i) : T × Nat) =>
          (i % 2 ^ 32 % b.width, i % 2 ^ 32 / b.width, v)).foldlM (fun (acc : List T) ((x, y, c) : Nat × Nat × T) => do
            let new_color ← func x y c
            return acc ++ [new_color]) done
        return { b' with data } : R (PixelBuffer T)) := by
    intro rest
    induction rest with
    | nil =>
      intro done b' h hw
      simp at h
      cases b'
      simp only at h
      subst h
      rfl
    | cons c rest ih =>
      intro done b' h hw
      have g : (⟨done.length⟩ : Slot).get b' = some c := by simp [Slot.get, h]
      simp only [List.length_cons, List.range'_succ, List.map_cons, List.zipIdx_cons, List.foldlM_cons,
        PixelBuffer.visit, g]
      cases hf : func (done.length % 4294967296 % b.width) (done.length % 4294967296 / b.width) c with
      | error e => simp
      | ok v =>
        have := ih (done ++ [v]) ((⟨done.length⟩ : Slot).set b' v) (by simp [Slot.set, h]) hw
        simp only [List.length_append, List.length_cons, List.length_nil, Nat.zero_add] at this
        simp only [ok_bind, pure_eq_ok]
        simpa [hf, Slot.set] using this
  have := key b.data [] b rfl rfl
  simpa [PixelBuffer.mod_colors_enumerated_loop, PixelBuffer.mod_colors_enumerated, PixelBuffer.enumerate_mut,
    PixelBuffer.data_mut, PixelBuffer.enumerate, List.range_eq_range'] using this

/-- C111: writing through the references of an image leaves its background colour, and the picture is
edited as above. -/
theorem C111_image {F : Type} [Scalar F] (img : Image F) (r : Slot) (v : Col F) :
    (img.write_data r v).bg_color = img.bg_color ∧ (img.write_data r v).buffer = r.set img.buffer v := ⟨rfl, rfl⟩

/-- C111: where an error came from. -/
theorem C111_source (e : CommandError) :
    (∀ d, e.source = some (.inl d) ↔ e = .from_decoding d) ∧ (∀ d, e.source = some (.inr d) ↔ e = .from_encoding d) ∧
    (e.source = none ↔ e = .MissingImage) ∧
    ∀ d, (CommandError.from_decoding d).display = d.display := by
  cases e <;> simp [CommandError.source, CommandError.from_decoding, CommandError.from_encoding, CommandError.display]

/-- C111: the six named colours are opaque, fully saturated and half light, a sixth of the circle of hues
apart: red, yellow, green, cyan, blue, magenta. -/
theorem C111_hues [Junk] :
    Rgb.to_hsl (Rgb.RED : Col ℝ) = ⟨0, 1, 1 / 2, 1⟩ ∧ Rgb.to_hsl (Rgb.YELLOW : Col ℝ) = ⟨1 / 6, 1, 1 / 2, 1⟩ ∧
    Rgb.to_hsl (Rgb.GREEN : Col ℝ) = ⟨2 / 6, 1, 1 / 2, 1⟩ ∧ Rgb.to_hsl (Rgb.CYAN : Col ℝ) = ⟨3 / 6, 1, 1 / 2, 1⟩ ∧
    Rgb.to_hsl (Rgb.BLUE : Col ℝ) = ⟨4 / 6, 1, 1 / 2, 1⟩ ∧ Rgb.to_hsl (Rgb.MAGENTA : Col ℝ) = ⟨5 / 6, 1, 1 / 2, 1⟩ := by
  refine ⟨?_, ?_, ?_, ?_, ?_, ?_⟩ <;>
    (simp only [Rgb.RED, Rgb.GREEN, Rgb.BLUE, Rgb.CYAN, Rgb.MAGENTA, Rgb.YELLOW, Rgb.to_hsl, Rgb.max, Rgb.min,
      List.foldl_cons, List.foldl_nil, Exact.EPSILON]
     ex_simp
     norm_num)

/-- C111: inverting exchanges the opposite ones, also with 32-bit numbers. -/
theorem C111_opposite [Libm b32] :
    Rgb.invert (Rgb.RED : Col F32) = Rgb.CYAN ∧ Rgb.invert (Rgb.GREEN : Col F32) = Rgb.MAGENTA ∧
    Rgb.invert (Rgb.BLUE : Col F32) = Rgb.YELLOW ∧ Rgb.invert (Rgb.CYAN : Col F32) = Rgb.RED ∧
    Rgb.invert (Rgb.MAGENTA : Col F32) = Rgb.GREEN ∧ Rgb.invert (Rgb.YELLOW : Col F32) = Rgb.BLUE ∧
    Rgb.invert (Rgb.WHITE : Col F32) = Rgb.BLACK ∧ Rgb.invert (Rgb.BLACK : Col F32) = Rgb.WHITE := by
  have a : (Scalar.lit 1 -. Scalar.lit 1 : F32) = Scalar.lit 0 := by
    show FP.sub (FP.ofRat b32 false 1) (FP.ofRat b32 false 1) = FP.ofRat b32 false 0
    decide +kernel
  have b : (Scalar.lit 1 -. Scalar.lit 0 : F32) = Scalar.lit 1 := by
    show FP.sub (FP.ofRat b32 false 1) (FP.ofRat b32 false 0) = FP.ofRat b32 false 1
    decide +kernel
  simp only [Rgb.invert, Rgb.RED, Rgb.GREEN, Rgb.BLUE, Rgb.CYAN, Rgb.MAGENTA, Rgb.YELLOW, Rgb.WHITE, Rgb.BLACK, a, b,
    and_self]

/-! ## Examples -/

example : (PixelBuffer.mk 2 2 ['a', 'b', 'c', 'd']).enumerate_mut =
    [(0, 0, ⟨0⟩), (1, 0, ⟨1⟩), (0, 1, ⟨2⟩), (1, 1, ⟨3⟩)] := rfl

/-- Two writes to one pixel, one to another. -/
example : written (fun x y => 10 * x + y) [(1, 0, 7), (0, 1, 8), (1, 0, 9)] 1 0 = 9 ∧
    written (fun x y => 10 * x + y) [(1, 0, 7), (0, 1, 8), (1, 0, 9)] 0 1 = 8 ∧
    written (fun x y => 10 * x + y) [(1, 0, 7), (0, 1, 8), (1, 0, 9)] 1 1 = 11 := by decide

end D10
