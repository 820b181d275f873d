import Verif.SpecStoredBytes
import Verif.Props.AccuracyPow
import Verif.Props.ResizeFloat
import Verif.Props.BlurFloat
import Verif.Props.Quant
import Verif.Props.Codecs
import Verif.Props.Order

/-!
# What rounding errors mean for the stored bytes (C108)
-/

namespace D10
open Spec
open Scalar (lit)

section
variable [Libm b32] [Junk]

omit [Libm b32] [Junk] in
theorem floor_off {a b d : ℝ} (h : |a - b| ≤ d) (n : Nat) :
    |((min n ⌊a⌋₊ : Nat) : ℝ) - ((min n ⌊b⌋₊ : Nat) : ℝ)| < d + 1 := by
  have d0 := (abs_nonneg _).trans h
  rw [abs_le] at h
  have one : ∀ {a b : ℝ}, a - b ≤ d → ((min n ⌊a⌋₊ : Nat) : ℝ) - ((min n ⌊b⌋₊ : Nat) : ℝ) < d + 1 := by
    intro a b h
    push_cast
    rcases le_or_gt (n : ℝ) (⌊b⌋₊ : ℝ) with hb | hb
    · rw [min_eq_left hb]
      have := min_le_left (n : ℝ) (⌊a⌋₊ : ℝ)
      linarith
    · rw [min_eq_right hb.le]
      have h1 := min_le_right (n : ℝ) (⌊a⌋₊ : ℝ)
      have h2 := Nat.lt_floor_add_one b
      rcases le_or_gt 0 a with ha | ha
      · have h3 := Nat.floor_le ha
        linarith
      · rw [Nat.floor_of_nonpos ha.le] at h1 ⊢
        have : (0 : ℝ) ≤ (⌊b⌋₊ : ℝ) := Nat.cast_nonneg _
        push_cast at h1 ⊢
        linarith
  rw [abs_lt]
  constructor
  · have := one (a := b) (b := a) (by linarith)
    linarith
  · exact one (by linarith)

/-- C108: the byte of a channel within `e` of an exact one. -/
theorem C108_level {x : F32} {q e : ℝ} (h : Close x q e) (h0 : 0 ≤ q) (h1 : q ≤ 1) :
    |(as_u8 x : ℝ) - as_u8 q| < 255 * e + 1 + 1 / 65536 := by
  have e0 := (abs_nonneg _).trans h.err
  rcases le_or_gt e 1 with he | he
  · rw [C48_encode _ h.fin, C48_encode_exact]
    have hb : |(x.val : ℝ)| ≤ 2 := by
      have := h.err; rw [abs_le] at this ⊢; constructor <;> linarith
    have hq : |x.val * 255| ≤ pow2 9 := by
      have t : ((|x.val * 255| : ℚ) : ℝ) ≤ ((512 : ℚ) : ℝ) := by
        push_cast
        rw [abs_mul, abs_of_pos (show (0 : ℝ) < 255 by norm_num)]
        linarith
      have t := (Rat.cast_le (K := ℝ)).1 t
      exact t.trans (by norm_num [pow2])
    have r := rn_err_le (f := b32) (k := 9) (by decide) hq
    have r' : |((rn b32 (x.val * 255) : ℚ) : ℝ) - (x.val : ℝ) * 255| ≤ 1 / 65536 := by
      have : pow2 (9 - (b32.prec : Int)) / 2 = 1 / 65536 := by decide +kernel
      rw [this] at r
      have := (Rat.cast_le (K := ℝ)).2 r
      push_cast at this; exact this
    have d : |((rn b32 (x.val * 255) : ℚ) : ℝ) - q * 255| ≤ 255 * e + 1 / 65536 := by
      have e1 : |(x.val : ℝ) * 255 - q * 255| ≤ 255 * e := by
        rw [← sub_mul, abs_mul, abs_of_pos (show (0 : ℝ) < 255 by norm_num)]
        linarith [h.err]
      refine (abs_sub_le _ _ _).trans ((add_le_add r' e1).trans (by linarith))
    have f := floor_off d 255
    have fl : ⌊((rn b32 (x.val * 255) : ℚ) : ℝ)⌋₊ = ⌊rn b32 (x.val * 255)⌋₊ := by
      rw [← Int.floor_toNat, ← Int.floor_toNat, Rat.floor_cast]
    rw [fl] at f
    linarith
  · have a := C48_byte x
    have b := C48_byte q
    have a' : (as_u8 x : ℝ) ≤ 255 := by exact_mod_cast a
    have b' : (as_u8 q : ℝ) ≤ 255 := by exact_mod_cast b
    have a0 : (0 : ℝ) ≤ as_u8 x := Nat.cast_nonneg _
    have b0 : (0 : ℝ) ≤ as_u8 q := Nat.cast_nonneg _
    rw [abs_lt]; constructor <;> linarith

/-- The bytes of one pixel. -/
theorem pixel_off {δ ε : ℝ} (hL : PowWithin δ) (hδ : δ ≤ 1 / 1024) {c : Col F32} {d : Col ℝ} (hc : UnitCol c)
    (hd : UnitReal d) (h : CloseCol ε c d) :
    OffBy (255 * (13 * ε + 1.06 * δ + 1 / 200000) + 1 + 1 / 65536)
      (sampleBytes c .Rgba8) (sampleBytes d .Rgba8) ∧
    OffBy (255 * (13 * ε + 1.06 * δ + 1 / 200000) + 1 + 1 / 65536)
      (sampleBytes c .Rgb8) (sampleBytes d .Rgb8) := by
  have δ0 := PowWithin.nonneg hL
  have ε0 := (abs_nonneg _).trans h.c0.err
  have chan : ∀ {v : F32} {q : ℝ}, (v.fin = true ∧ 0 ≤ v.val ∧ v.val ≤ 1) → 0 ≤ q → q ≤ 1 → Close v q ε →
      |(as_u8 (clamp01 (linear_to_gamma v)) : ℝ) - as_u8 (clamp01 (linear_to_gamma q) : ℝ)| <
        255 * (13 * ε + 1.06 * δ + 1 / 200000) + 1 + 1 / 65536 := by
    intro v q hv q0 q1 hvq
    have g := close_clamp (C86_linear_to_gamma δ hL hδ v hv)
    have n := l2g_near (unit_real hv).1 q0
    have m := clamp_sub (linear_to_gamma (v.val : ℝ)) (linear_to_gamma q)
    rw [← Exact.clamp01, ← Exact.clamp01] at m
    have cl : Close (clamp01 (linear_to_gamma v) : F32) (clamp01 (linear_to_gamma q) : ℝ)
        (13 * ε + 1.06 * δ + 1 / 200000) := by
      refine ⟨g.fin, (abs_sub_le _ _ _).trans ((add_le_add g.err (m.trans n)).trans ?_)⟩
      have := hvq.err
      norm_num at this ⊢
      linarith
    exact C108_level cl (clamp01_unit _).1 (clamp01_unit _).2
  have al : |(as_u8 (clamp01 c.alpha) : ℝ) - as_u8 (clamp01 d.alpha : ℝ)| <
        255 * (13 * ε + 1.06 * δ + 1 / 200000) + 1 + 1 / 65536 := by
    refine (C108_level (close_clamp h.alpha) (clamp01_unit _).1 (clamp01_unit _).2).trans_le ?_
    norm_num
    linarith
  have a0 := chan hc.c0 hd.c0.1 hd.c0.2 h.c0
  have a1 := chan hc.c1 hd.c1.1 hd.c1.2 h.c1
  have a2 := chan hc.c2 hd.c2.1 hd.c2.2 h.c2
  exact ⟨.cons a0 (.cons a1 (.cons a2 (.cons al .nil))), .cons a0 (.cons a1 (.cons a2 .nil))⟩

omit [Libm b32] [Junk] in
theorem offBy_flatMap {α β : Type} {k : ℝ} {f : α → List Nat} {g : β → List Nat} {l : List α} {m : List β}
    (h : List.Forall₂ (fun a b => OffBy k (f a) (g b)) l m) : OffBy k (l.flatMap f) (m.flatMap g) := by
  induction h with
  | nil => exact .nil
  | cons a _ ih =>
    rw [List.flatMap_cons, List.flatMap_cons]
    unfold OffBy at *
    exact List.rel_append a ih

omit [Libm b32] [Junk] in
theorem forall₂_rows {α β : Type} {r : α → β → Prop} {w h : Nat} {p : Nat → Nat → α} {q : Nat → Nat → β}
    (hr : ∀ x y, x < w → y < h → r (p x y) (q x y)) : List.Forall₂ r (rows w h p) (rows w h q) := by
  induction h with
  | zero => exact .nil
  | succ h ih =>
    rw [rows_succ, rows_succ]
    refine List.rel_append (R := r) (ih fun x y hx hy => hr x y hx (by omega)) ?_
    rw [List.forall₂_map_left_iff, List.forall₂_map_right_iff, List.forall₂_same]
    exact fun x hx => hr x h (List.mem_range.1 hx) (by omega)

/-- C108: the 8-bit bytes of a picture whose channels are within `ε` of those of an exact one. -/
theorem C108_bytes {δ ε : ℝ} (hL : PowWithin δ) (hδ : δ ≤ 1 / 1024) {b : PixelBuffer (Col F32)}
    {e : PixelBuffer (Col ℝ)} {w h px ex} (s : Shows b w h px) (t : Shows e w h ex)
    (hu : ∀ x y, x < w → y < h → UnitCol (px x y)) (hx : ∀ x y, x < w → y < h → UnitReal (ex x y))
    (hc : ∀ x y, x < w → y < h → CloseCol ε (px x y) (ex x y)) :
    OffBy (255 * (13 * ε + 1.06 * δ + 1 / 200000) + 1 + 1 / 65536) (to_rgba8_vec b) (to_rgba8_vec e) ∧
    OffBy (255 * (13 * ε + 1.06 * δ + 1 / 200000) + 1 + 1 / 65536) (to_rgb8_vec b) (to_rgb8_vec e) := by
  rw [vec_rgba8, vec_rgba8, vec_rgb8, vec_rgb8, s.pixels, t.pixels]
  exact ⟨offBy_flatMap (forall₂_rows fun x y i j => (pixel_off hL hδ (hu x y i j) (hx x y i j) (hc x y i j)).1),
    offBy_flatMap (forall₂_rows fun x y i j => (pixel_off hL hδ (hu x y i j) (hx x y i j) (hc x y i j)).2)⟩

/-- Resizing keeps the range, in both kinds of arithmetic. -/
theorem resize_unit {b' : PixelBuffer (Col F32)} {e' : PixelBuffer (Col ℝ)} {b : PixelBuffer (Col F32)}
    {e : PixelBuffer (Col ℝ)} {w h px} (s : Shows b w h px) (t : Shows e w h fun x y => exact (px x y))
    (hw : 0 < w) (hu : ∀ x y, x < w → y < h → UnitCol (px x y)) {nw nh : Nat} (hv : ValidSize nw nh)
    {filter : FilterMode} (hf : filter = .Bilinear ∨ filter = .Bicubic) {px' ex'} {d : ℝ}
    (h1 : resize b nw nh filter = .ok b') (h2 : Shows b' nw nh px')
    (h3 : resize e nw nh filter = .ok e') (h4 : Shows e' nw nh ex')
    (hc : ∀ x y, x < nw → y < nh → CloseCol d (px' x y) (ex' x y)) {x y : Nat} (hx : x < nw) (hy : y < nh) :
    UnitCol (px' x y) ∧ UnitReal (ex' x y) := by
  by_cases hne : nw = w ∧ nh = h
  · obtain ⟨rfl, rfl⟩ := hne
    have e1 := C18_resize_same b filter
    have e2 := C18_resize_same e filter
    rw [s.width, s.height, h1] at e1
    rw [t.width, t.height, h3] at e2
    cases e1; cases e2
    have p1 : px' x y = px x y := rows_inj (h2.pixels.symm.trans s.pixels) hx hy
    have p2 : ex' x y = exact (px x y) := rows_inj (h4.pixels.symm.trans t.pixels) hx hy
    have u := hu x y hx hy
    rw [p1, p2]
    exact ⟨u, unit_real u.c0, unit_real u.c1, unit_real u.c2, unit_real u.alpha⟩
  · have ha : filter = .Auto → w ≤ 134217728 ∧ h ≤ 134217728 := by
      rintro rfl; rcases hf with h | h <;> cases h
    obtain ⟨b2, e1, s'⟩ := C18_resize s hw nw nh hv hne filter ha
    obtain ⟨e2', e2, t'⟩ := C18_resize t hw nw nh hv hne filter ha
    rw [h1] at e1; cases e1
    rw [h3] at e2; cases e2
    have p1 : px' x y = _ := rows_inj (h2.pixels.symm.trans s'.pixels) hx hy
    have p2 : ex' x y = _ := rows_inj (h4.pixels.symm.trans t'.pixels) hx hy
    have c := hc x y hx hy
    rw [p1, p2] at c ⊢
    have key : ∀ g : F32, (clamp01 g).fin = true →
        (clamp01 g).fin = true ∧ 0 ≤ (clamp01 g).val ∧ (clamp01 g).val ≤ 1 := by
      intro g hg
      refine clamped_chan ?_
      rintro rfl
      have : (clamp01 FP.nan : F32) = FP.nan := by
        unfold clamp01 Scalar.clamp
        rw [LawfulScalar.lt_nan_left _ _ rfl, LawfulScalar.lt_nan_right _ _ rfl]; rfl
      rw [this] at hg
      cases hg
    rcases hf with rfl | rfl
    · exact ⟨⟨key _ c.c0.fin, key _ c.c1.fin, key _ c.c2.fin, key _ c.alpha.fin⟩,
        clamp01_unit _, clamp01_unit _, clamp01_unit _, clamp01_unit _⟩
    · exact ⟨⟨key _ c.c0.fin, key _ c.c1.fin, key _ c.c2.fin, key _ c.alpha.fin⟩,
        clamp01_unit _, clamp01_unit _, clamp01_unit _, clamp01_unit _⟩

/-- C108: a picture with sides adding up to at most 1000, resized bilinearly to any size: every stored
byte is at most one level off the one that exact arithmetic gives. -/
theorem C108_resize {δ : ℝ} (hL : PowWithin δ) (hδ : δ ≤ 1 / 65536) {b : PixelBuffer (Col F32)}
    {e : PixelBuffer (Col ℝ)} {w h px} (s : Shows b w h px) (t : Shows e w h fun x y => exact (px x y))
    (hw : 0 < w) (hu : ∀ x y, x < w → y < h → UnitCol (px x y)) (nw nh : Nat) (hv : ValidSize nw nh)
    (hwh : w + h ≤ 1000) (hnw : nw ≤ 2097152) (hnh : nh ≤ 2097152) :
    ∃ b' e', resize b nw nh .Bilinear = .ok b' ∧ resize e nw nh .Bilinear = .ok e' ∧
      OffBy 2 (to_rgba8_vec b') (to_rgba8_vec e') ∧ OffBy 2 (to_rgb8_vec b') (to_rgb8_vec e') := by
  obtain ⟨b', e', px', ex', h1, h2, h3, h4, hc⟩ := C104_bilinear s t hw hu nw nh hv (by omega) (by omega) hnw hnh
  have u := fun x y (hx : x < nw) (hy : y < nh) => resize_unit s t hw hu hv (.inl rfl) h1 h2 h3 h4 hc hx hy
  have o := C108_bytes hL (hδ.trans (by norm_num)) h2 h4 (fun x y hx hy => (u x y hx hy).1)
    (fun x y hx hy => (u x y hx hy).2) hc
  have le : 255 * (13 * (((w : ℝ) + h) / 2 ^ 22 + 20 / 2 ^ 24) + 1.06 * δ + 1 / 200000) + 1 + 1 / 65536 ≤ 2 := by
    have : (w : ℝ) + h ≤ 1000 := by exact_mod_cast hwh
    norm_num at hδ ⊢
    linarith
  exact ⟨b', e', h1, h3, o.1.imp fun _ _ h => h.trans_le le, o.2.imp fun _ _ h => h.trans_le le⟩

/-- C108: the same for any size up to 2^21, for both interpolating filters, with the bound that follows
from C104. -/
theorem C108_resize_any {δ : ℝ} (hL : PowWithin δ) (hδ : δ ≤ 1 / 1024) {b : PixelBuffer (Col F32)}
    {e : PixelBuffer (Col ℝ)} {w h px} (s : Shows b w h px) (t : Shows e w h fun x y => exact (px x y))
    (hw : 0 < w) (hu : ∀ x y, x < w → y < h → UnitCol (px x y)) (nw nh : Nat) (hv : ValidSize nw nh)
    (hwl : w ≤ 2097152) (hhl : h ≤ 2097152) (hnw : nw ≤ 2097152) (hnh : nh ≤ 2097152)
    (filter : FilterMode) (ε : ℝ) (hf : filter = .Bilinear ∧ ε = ((w : ℝ) + h) / 2 ^ 22 + 20 / 2 ^ 24 ∨
      filter = .Bicubic ∧ ε = 5 / 2 * ((w : ℝ) + h) / 2 ^ 22 + 2470 / 2 ^ 24) :
    ∃ b' e', resize b nw nh filter = .ok b' ∧ resize e nw nh filter = .ok e' ∧
      OffBy (255 * (13 * ε + 1.06 * δ + 1 / 200000) + 1 + 1 / 65536) (to_rgba8_vec b') (to_rgba8_vec e') ∧
      OffBy (255 * (13 * ε + 1.06 * δ + 1 / 200000) + 1 + 1 / 65536) (to_rgb8_vec b') (to_rgb8_vec e') := by
  rcases hf with ⟨rfl, rfl⟩ | ⟨rfl, rfl⟩
  · obtain ⟨b', e', px', ex', h1, h2, h3, h4, hc⟩ := C104_bilinear s t hw hu nw nh hv hwl hhl hnw hnh
    have u := fun x y (hx : x < nw) (hy : y < nh) => resize_unit s t hw hu hv (.inl rfl) h1 h2 h3 h4 hc hx hy
    exact ⟨b', e', h1, h3, C108_bytes hL hδ h2 h4 (fun x y hx hy => (u x y hx hy).1)
      (fun x y hx hy => (u x y hx hy).2) hc⟩
  · obtain ⟨b', e', px', ex', h1, h2, h3, h4, hc⟩ :=
      C104_bicubic s t hw hu nw nh hv hwl hhl hnw hnh .Bicubic (.inl rfl)
    have u := fun x y (hx : x < nw) (hy : y < nh) => resize_unit s t hw hu hv (.inr rfl) h1 h2 h3 h4 hc hx hy
    exact ⟨b', e', h1, h3, C108_bytes hL hδ h2 h4 (fun x y hx hy => (u x y hx hy).1)
      (fun x y hx hy => (u x y hx hy).2) hc⟩

/-- Truncation makes a tiny error visible: just below 1 the level is 254, at 1 it is 255. -/
example : as_u8 (FP.ofRat b32 false (16777215 / 16777216)) = 254 ∧ as_u8 (1 : ℝ) = 255 := by
  constructor
  · rw [C48_encode _ (by decide +kernel)]
    decide +kernel
  · rw [C48_encode_exact]
    norm_num

end

/-- A power function within 1/65536 exists, so that no byte of an enlarged 640 by 360 picture is off
by more than one. -/
example [Junk] : letI := nearestPow
    ∀ {b : PixelBuffer (Col F32)} {e : PixelBuffer (Col ℝ)} {px}, Shows b 640 360 px →
      Shows e 640 360 (fun x y => exact (px x y)) → (∀ x y, x < 640 → y < 360 → UnitCol (px x y)) →
      ∃ b' e', resize b 1920 1080 .Bilinear = .ok b' ∧ resize e 1920 1080 .Bilinear = .ok e' ∧
        OffBy 2 (to_rgba8_vec b') (to_rgba8_vec e') := by
  let := nearestPow
  intro b e px s t hu
  have hL : PowWithin (1 / 65536) := by
    intro x y hx hy h0 h1 hp
    exact (nearestPow_within x y hx hy h0 h1 hp).mono (by norm_num)
  obtain ⟨b', e', h1, h2, h3, _⟩ := C108_resize hL le_rfl s t (by norm_num) hu 1920 1080 (Or.inr (by norm_num))
    (by norm_num) (by norm_num) (by norm_num)
  exact ⟨b', e', h1, h2, h3⟩

end D10
