import Verif.Props.Range
import Verif.Model.Cli
import Verif.Lemmas.FP

/-!
# Pictures stay in range: colours, commands and the command line (C118)

In 32-bit numbers, for every math library.
-/

namespace D10
open Scalar (lit)
open Spec

/-! ## Interval arithmetic by monotone rounding -/

/-- Not a number, or between 0 and `q`. -/
def Upto (x : F32) (q : ℚ) : Prop := x = .nan ∨ (x.fin = true ∧ 0 ≤ x.val ∧ x.val ≤ q)

namespace Upto

theorem round {s : Bool} {q r : ℚ} (h0 : 0 ≤ q) (h : q ≤ r) (y : F32) (hy : y.fin = true)
    (hr : rn b32 r = y.val) :
    (FP.ofRat b32 s q).fin = true ∧ 0 ≤ (FP.ofRat b32 s q).val ∧ (FP.ofRat b32 s q).val ≤ y.val := by
  have z : rn b32 0 = 0 := rn_rep (IsRep.zero b32)
  have l0 : 0 ≤ rn b32 q := by rw [← z]; exact rn_mono h0
  have l1 : rn b32 q ≤ y.val := by rw [← hr]; exact rn_mono h
  have v := FP.ofRat_val (f := b32) (s := s) (q := q)
    (by rw [abs_of_nonneg l0]; exact lt_of_le_of_lt l1 (lt_of_abs_lt (FP.fin_rep hy).2))
  exact ⟨v.1, by rw [v.2]; exact l0, by rw [v.2]; exact l1⟩

theorem add {x y : F32} {p q : ℚ} (hx : Upto x p) (hy : Upto y q) (z : F32) (hz : z.fin = true)
    (h : rn b32 (p + q) = z.val) : Upto (FP.add x y) z.val := by
  rcases hx with rfl | ⟨f1, a1, b1⟩
  · exact .inl (by cases y <;> rfl)
  rcases hy with rfl | ⟨f2, a2, b2⟩
  · exact .inl (by cases x <;> rfl)
  right
  rw [FP.add_fin f1 f2]
  exact round (by linarith) (by linarith) z hz h

theorem mul {x y : F32} {p q : ℚ} (hx : Upto x p) (hy : Upto y q) (z : F32) (hz : z.fin = true)
    (h : rn b32 (p * q) = z.val) : Upto (FP.mul x y) z.val := by
  rcases hx with rfl | ⟨f1, a1, b1⟩
  · exact .inl (by cases y <;> rfl)
  rcases hy with rfl | ⟨f2, a2, b2⟩
  · exact .inl (by cases x <;> rfl)
  right
  rw [FP.mul_fin f1 f2]
  exact round (mul_nonneg a1 a2) (mul_le_mul b1 b2 a2 (le_trans a1 b1)) z hz h

theorem div {x y : F32} {p : ℚ} (hx : Upto x p) (hy : y.fin = true) (h0 : 0 < y.val) (z : F32)
    (hz : z.fin = true) (h : rn b32 (p / y.val) = z.val) : Upto (FP.div x y) z.val := by
  rcases hx with rfl | ⟨f1, a1, b1⟩
  · exact .inl (by cases y <;> rfl)
  right
  rw [FP.div_fin f1 hy h0.ne']
  exact round (div_nonneg a1 h0.le) (div_le_div_of_nonneg_right b1 h0.le) z hz h

end Upto

section
variable [Libm b32]

theorem upto_iff (x : F32) : InRange x ↔ Upto x 1 := inRange_f32 x

omit [Libm b32] in
theorem one32 : (FP.ofRat b32 false 1).fin = true ∧ (FP.ofRat b32 false 1).val = 1 := by
  decide +kernel

theorem invert_inRange {x : F32} (h : InRange x) : InRange (lit 1 -. x) := by
  rw [upto_iff] at h ⊢
  show Upto (FP.sub (FP.ofRat b32 false 1) x) 1
  rcases h with rfl | ⟨f, a, b⟩
  · exact .inl (by cases FP.ofRat b32 false 1 <;> rfl)
  right
  rw [FP.sub_fin one32.1 f, one32.2]
  have := Upto.round (s := (FP.ofRat b32 false 1).isNeg && x.neg.isNeg) (q := 1 - x.val) (r := 1)
    (by linarith) (by linarith) (FP.ofRat b32 false 1) one32.1 (by decide +kernel)
  rwa [one32.2] at this

theorem weighted_inRange {x y z : F32} {a b c : ℚ} (hx : InRange x) (hy : InRange y) (hz : InRange z)
    (A B C S T : F32) (ha : A = FP.ofRat b32 false a) (hb : B = FP.ofRat b32 false b)
    (hc : C = FP.ofRat b32 false c)
    (ok : A.fin = true ∧ B.fin = true ∧ C.fin = true ∧ S.fin = true ∧ T.fin = true ∧ 0 ≤ A.val ∧
      0 ≤ B.val ∧ 0 ≤ C.val ∧ rn b32 (A.val + B.val) = S.val ∧ rn b32 (S.val + C.val) = T.val ∧
      rn b32 (1 * A.val) = A.val ∧ rn b32 (1 * B.val) = B.val ∧ rn b32 (1 * C.val) = C.val ∧ T.val ≤ 1) :
    InRange (x *. lit a +. y *. lit b +. z *. lit c) := by
  obtain ⟨fA, fB, fC, fS, fT, nA, nB, nC, eS, eT, rA, rB, rC, h1⟩ := ok
  rw [upto_iff] at *
  have one : ∀ {v W : F32} {w : ℚ}, Upto v 1 → W = FP.ofRat b32 false w → W.fin = true → 0 ≤ W.val →
      rn b32 (1 * W.val) = W.val → Upto (FP.mul v (FP.ofRat b32 false w)) W.val := by
    intro v W w hv e f n r
    exact Upto.mul hv (.inr ⟨by rw [← e]; exact f, by rw [← e]; exact n, by rw [← e]⟩) W f r
  have t := ((one hx ha fA nA rA).add (one hy hb fB nB rB) S fS eS).add (one hz hc fC nC rC) T fT eT
  rcases t with t | ⟨f, l, u⟩
  · exact .inl t
  · exact .inr ⟨f, l, u.trans h1⟩

theorem half_inRange {x y : F32} (hx : InRange x) (hy : InRange y) : InRange ((x +. y) /. lit 2) := by
  rw [upto_iff] at *
  have t := (hx.add hy (FP.ofRat b32 false 2) (by decide +kernel) (by decide +kernel)).div
    (y := FP.ofRat b32 false 2) (by decide +kernel) (by decide +kernel) (FP.ofRat b32 false 1)
    (by decide +kernel) (by decide +kernel)
  rwa [one32.2] at t

theorem third_inRange {x y z : F32} (hx : InRange x) (hy : InRange y) (hz : InRange z) :
    InRange ((x +. y +. z) /. lit 3) := by
  rw [upto_iff] at *
  have t := ((hx.add hy (FP.ofRat b32 false 2) (by decide +kernel) (by decide +kernel)).add hz
    (FP.ofRat b32 false 3) (by decide +kernel) (by decide +kernel)).div
    (y := FP.ofRat b32 false 3) (by decide +kernel) (by decide +kernel) (FP.ofRat b32 false 1)
    (by decide +kernel) (by decide +kernel)
  rwa [one32.2] at t

/-- The largest and the smallest channel are numbers, whatever the channels are. -/
theorem extremes_number {c : Col F32} (h : ColourInRange c) :
    ((Rgb.max c).fin = true ∧ 0 ≤ (Rgb.max c).val ∧ (Rgb.max c).val ≤ 1) ∧
    ((Rgb.min c).fin = true ∧ 0 ≤ (Rgb.min c).val ∧ (Rgb.min c).val ≤ 1) := by
  have nmax : ∀ x y : F32, x ≠ .nan → Scalar.max x y ≠ .nan := by
    intro x y hx
    unfold Scalar.max
    rw [(FP.isNan_false x).2 hx]
    cases hy : Scalar.isNan y
    · have := (FP.isNan_false y).1 hy
      simp only [Bool.false_eq_true, if_false]
      split <;> assumption
    · simpa using hx
  have nmin : ∀ x y : F32, x ≠ .nan → Scalar.min x y ≠ .nan := by
    intro x y hx
    unfold Scalar.min
    rw [(FP.isNan_false x).2 hx]
    cases hy : Scalar.isNan y
    · have := (FP.isNan_false y).1 hy
      simp only [Bool.false_eq_true, if_false]
      split <;> assumption
    · simpa using hx
  have l : ∀ q, (lit q : F32) ≠ .nan := fun q => FP.ofRat_not_nan
  constructor
  · rcases (upto_iff _).1 (rgb_max_inRange h) with e | e
    · exact absurd e (nmax _ _ (nmax _ _ (nmax _ _ (l 0))))
    · exact e
  · rcases (upto_iff _).1 (rgb_min_inRange h) with e | e
    · exact absurd e (nmin _ _ (nmin _ _ (nmin _ _ (l 1))))
    · exact e

/-- The saturation is a number, whatever the channels are. -/
theorem hsl_saturation_number {c : Col F32} (h : ColourInRange c) :
    (Rgb.to_hsl c).c1.fin = true ∧ 0 ≤ (Rgb.to_hsl c).c1.val ∧ (Rgb.to_hsl c).c1.val ≤ 1 := by
  obtain ⟨⟨fM, a1, b1⟩, ⟨fm, a2, b2⟩⟩ := extremes_number h
  unfold Rgb.to_hsl
  simp only
  generalize Rgb.max c = M at *
  generalize Rgb.min c = m at *
  split
  · show (FP.ofRat b32 false 0).fin = true ∧ 0 ≤ (FP.ofRat b32 false 0).val ∧ (FP.ofRat b32 false 0).val ≤ 1
    decide +kernel
  · rename_i hd
    have rep : ∀ r : ℚ, |r| ≤ 2 → ∀ s, (FP.ofRat b32 s r).fin = true ∧ (FP.ofRat b32 s r).val = rn b32 r := by
      intro r hr s
      have t := FP.int_finite (f := b32) 2 (by decide)
      push_cast at t
      exact FP.ofRat_of_le t.1 (lt_of_abs_lt t.2) hr
    have d : (FP.sub M m).fin = true ∧ (FP.sub M m).val = rn b32 (M.val - m.val) := by
      rw [FP.sub_fin fM fm]; exact rep _ (by rw [abs_le]; constructor <;> linarith) _
    have s : (FP.add M m).fin = true ∧ (FP.add M m).val = rn b32 (M.val + m.val) := by
      rw [FP.add_fin fM fm]; exact rep _ (by rw [abs_le]; constructor <;> linarith) _
    have two : (FP.ofRat b32 false 2).fin = true ∧ (FP.ofRat b32 false 2).val = 2 := by decide +kernel
    have u : (FP.sub (FP.ofRat b32 false 2) M).fin = true ∧
        (FP.sub (FP.ofRat b32 false 2) M).val = rn b32 (2 - M.val) := by
      rw [FP.sub_fin two.1 fM, two.2]; exact rep _ (by rw [abs_le]; constructor <;> linarith) _
    have r1 : rn b32 1 = 1 := by decide +kernel
    have r2 : rn b32 2 = 2 := by decide +kernel
    have u1 : 1 ≤ rn b32 (2 - M.val) := by
      have := rn_mono (f := b32) (a := 1) (b := 2 - M.val) (by linarith)
      rwa [r1] at this
    have u2 : rn b32 (2 - M.val) ≤ 2 := by
      have := rn_mono (f := b32) (a := 2 - M.val) (b := 2) (by linarith)
      rwa [r2] at this
    have v : (FP.sub (FP.sub (FP.ofRat b32 false 2) M) m).fin = true ∧
        (FP.sub (FP.sub (FP.ofRat b32 false 2) M) m).val = rn b32 (rn b32 (2 - M.val) - m.val) := by
      rw [FP.sub_fin u.1 fm, u.2]; exact rep _ (by rw [abs_le]; constructor <;> linarith) _
    have eps : (EPSILON : F32).fin = true ∧ 0 < (EPSILON : F32).val := by
      show (FP.div (FP.ofRat b32 false 1) (FP.ofRat b32 false 32768)).fin = true ∧
        0 < (FP.div (FP.ofRat b32 false 1) (FP.ofRat b32 false 32768)).val
      decide +kernel
    have pos : 0 < (FP.sub M m).val := by
      have : ¬ (FP.sub M m).val < (EPSILON : F32).val := fun hlt =>
        hd (by show FP.lt (FP.sub M m) EPSILON = true; rw [FP.lt_fin d.1 eps.1]; exact decide_eq_true hlt)
      linarith [eps.2]
    have le : ∀ y : F32, y.fin = true → (FP.sub M m).val ≤ y.val → (FP.div (FP.sub M m) y).fin = true ∧
        0 ≤ (FP.div (FP.sub M m) y).val ∧ (FP.div (FP.sub M m) y).val ≤ 1 := by
      intro y hy hle
      have hy0 : 0 < y.val := lt_of_lt_of_le pos hle
      rw [FP.div_fin d.1 hy hy0.ne']
      have := Upto.round (s := (FP.sub M m).isNeg ^^ y.isNeg) (q := (FP.sub M m).val / y.val) (r := 1)
        (by positivity) ((div_le_one hy0).2 hle) (FP.ofRat b32 false 1) one32.1 (by decide +kernel)
      rwa [one32.2] at this
    have either : ∀ b : Bool, (fun x : F32 => x.fin = true ∧ 0 ≤ x.val ∧ x.val ≤ 1)
        (if b = true then FP.div (FP.sub M m) (FP.sub (FP.sub (FP.ofRat b32 false 2) M) m)
          else FP.div (FP.sub M m) (FP.add M m)) := by
      intro b
      cases b
      · exact le _ s.1 (by rw [d.2, s.2]; exact rn_mono (by linarith))
      · exact le _ v.1 (by rw [d.2, v.2]; exact rn_mono (by linarith))
    exact either _

theorem hsl_saturation_inRange {c : Col F32} (h : ColourInRange c) : InRange (Rgb.to_hsl c).c1 :=
  (upto_iff _).2 (.inr (hsl_saturation_number h))

/-- Every method of `Rgb` that makes a colour from colours in range makes a colour in range, for every
parameter, infinite ones and "not a number" included. -/
theorem C118_colours {c : Col F32} (hc : PixelInRange c) (o : Col F32) (p q r : F32)
    (i : Intensity) (f : F32 → F32) :
    (∀ d ∈ [Rgb.to_gray c, Rgb.to_gray_with_intensity c i, Rgb.invert c, Rgb.difference c o,
      Rgb.with_gamma c p, Rgb.with_gamma_opt c p, Rgb.with_level c p q r, Rgb.with_brightness c p,
      Rgb.with_contrast c p, Rgb.with_brightness_contrast c p q, Rgb.with_saturation c p,
      Rgb.stretch_saturation c p, Rgb.with_gamma_saturation c p, Rgb.with_lightness c p,
      Rgb.with_hue_rotate c p, Rgb.with_vibrance c p, Rgb.with_sepia c, Rgb.modulate c p q r,
      Rgb.alpha_blend c o, Rgb.map_channels c f], PixelInRange d) ∧
    InRange (Rgb.max c) ∧ InRange (Rgb.min c) := by
  have gray : ∀ i, PixelInRange (Rgb.to_gray_with_intensity c i) := by
    intro i
    have v : ∀ {x : F32}, InRange x → PixelInRange (⟨x, x, x, c.alpha⟩ : Col F32) :=
      fun h => ⟨⟨h, h, h⟩, hc.2⟩
    obtain ⟨h0, h1, h2⟩ := hc.1
    cases i with
    | Average => exact v (third_inRange h0 h1 h2)
    | Rec601Luma =>
      exact v (weighted_inRange h0 h1 h2 (FP.ofRat b32 false 0.298839) (FP.ofRat b32 false 0.586811)
        (FP.ofRat b32 false 0.114350) ((FP.ofRat b32 false 0.298839).add (FP.ofRat b32 false 0.586811))
        (((FP.ofRat b32 false 0.298839).add (FP.ofRat b32 false 0.586811)).add (FP.ofRat b32 false 0.114350))
        rfl rfl rfl (by decide +kernel))
    | Rec709Luma =>
      exact v (weighted_inRange h0 h1 h2 (FP.ofRat b32 false 0.212656) (FP.ofRat b32 false 0.715158)
        (FP.ofRat b32 false 0.072186) ((FP.ofRat b32 false 0.212656).add (FP.ofRat b32 false 0.715158))
        (((FP.ofRat b32 false 0.212656).add (FP.ofRat b32 false 0.715158)).add (FP.ofRat b32 false 0.072186))
        rfl rfl rfl (by decide +kernel))
    | Brightness => exact v (rgb_max_inRange hc.1)
    | Lightness => exact v (half_inRange (rgb_min_inRange hc.1) (rgb_max_inRange hc.1))
    | Saturation => exact v (hsl_saturation_inRange hc.1)
    | Red => exact v h0
    | Green => exact v h1
    | Blue => exact v h2
  refine ⟨?_, rgb_max_inRange hc.1, rgb_min_inRange hc.1⟩
  simp only [List.forall_mem_cons]
  refine ⟨gray _, gray i, ⟨⟨invert_inRange hc.1.1, invert_inRange hc.1.2.1, invert_inRange hc.1.2.2⟩, hc.2⟩,
    new_pixel_opaque _ _ _, channels_pixel hc.2 _, channels_pixel hc.2 _, channels_pixel hc.2 _,
    channels_pixel hc.2 _, channels_pixel hc.2 _, channels_pixel hc.2 _, hsl_pixel _, hsl_pixel _,
    hsl_pixel _, hsl_pixel _, hsl_pixel _, hsl_pixel _, new_pixel _ _ _ _, hsl_pixel _,
    new_pixel _ _ _ _, channels_pixel hc.2 _, fun d h => by cases h⟩

/-! ## Commands -/

variable {σ : Type} [FloatBytes F32]

theorem command_inRange (env : Env σ F32) (s : State σ F32) (cmd : Cmd F32 String)
    (hs : ∀ img, s.image = some img → ImageInRange img) (hc : CarefulCommand cmd) :
    ∀ img, (execute_command env s cmd).1.image = some img → ImageInRange img := by
  unfold execute_command
  have hs' : ∀ img, (if cmd.ignore_in_log then s else s.log_command_step env cmd).image = some img →
      ImageInRange img := by
    intro img h
    refine hs img ?_
    rw [← h]
    split
    · rfl
    · unfold State.log_command_step; simp only; split <;> rfl
  simp only
  generalize (if cmd.ignore_in_log then s else s.log_command_step env cmd) = t at hs' ⊢
  have modify : ∀ f : Col F32 → Col F32, (∀ c, PixelInRange c → PixelInRange (f c)) →
      ∀ img, (execute_mod_colors t f).1.image = some img → ImageInRange img := by
    intro f hf img h
    unfold execute_mod_colors State.with_image at h
    cases hi : t.image with
    | none => rw [hi] at h; exact hs' img (hi ▸ h)
    | some i =>
      rw [hi] at h
      cases h
      exact ⟨all_mod fun c hc => hf c ((hs' i hi).1 c hc), (hs' i hi).2⟩
  have noise : ∀ f : Image F32 → StateT σ R (Image F32), (∀ i, ImageInRange i → EnsS (f i) ImageInRange) →
      ∀ img, (execute_noise t f).1.image = some img → ImageInRange img := by
    intro f hf img h
    unfold execute_noise State.with_image at h
    cases hi : t.image with
    | none => rw [hi] at h; exact hs' img (hi ▸ h)
    | some i =>
      rw [hi] at h
      simp only at h
      split at h
      · exact hs' img h
      · rename_i i' rng e
        cases h
        exact hf i (hs' i hi) _ _ e
  have col : ∀ {c : Col F32}, PixelInRange c → ∀ (p q r : F32) (i : Intensity),
      PixelInRange (Rgb.to_gray_with_intensity c i) ∧ PixelInRange (Rgb.invert c) := by
    intro c hc p q r i
    have h := (C118_colours hc c p q r i id).1
    exact ⟨h _ (.tail _ (.head _)), h _ (.tail _ (.tail _ (.head _)))⟩
  have meta' : ∀ {i : Image F32} {b : PixelBuffer (Col F32)}, ImageInRange i → All PixelInRange b →
      ImageInRange (Image.new_from_buffer_with_meta i b) := fun hi hb => ⟨hb, hi.2⟩
  cases cmd with
  | Silent => exact hs'
  | «Open» path =>
    intro img h
    simp only [execute_open] at h
    split at h
    · exact hs' img h
    · exact hs' img h
    · rename_i i e
      cases h
      exact ensD_bind (range_decode_file env.libs t.fs path)
        (fun b hb => ensD_pure (Q := ImageInRange) (a := Image.new_from_buffer b) ⟨hb, fun c h => by cases h⟩) _ e
  | Save path =>
    intro img h
    simp only [execute_save, State.with_image] at h
    cases hi : t.image with
    | none => rw [hi] at h; exact hs' img (hi ▸ h)
    | some i =>
      rw [hi] at h
      simp only at h
      refine hs' img ?_
      rw [hi]
      split at h <;> exact h
  | ToGray i => exact modify _ fun c hc => (col hc (lit 0) (lit 0) (lit 0) i).1
  | Invert => exact modify _ fun c hc => (col hc (lit 0) (lit 0) (lit 0) .Red).2
  | Gamma p => exact modify _ fun c hc => channels_pixel hc.2 _
  | Level p q r => exact modify _ fun c hc => channels_pixel hc.2 _
  | Brightness p => exact modify _ fun c hc => channels_pixel hc.2 _
  | Contrast p => exact modify _ fun c hc => channels_pixel hc.2 _
  | BrightnessContrast p q => exact modify _ fun c hc => channels_pixel hc.2 _
  | Saturation p => exact modify _ fun c hc => hsl_pixel _
  | StretchSaturation p => exact modify _ fun c hc => hsl_pixel _
  | Lightness p => exact modify _ fun c hc => hsl_pixel _
  | HueRotate p => exact modify _ fun c hc => hsl_pixel _
  | Rotate p filter =>
    intro img h
    simp only [execute_rotate, State.with_image] at h
    cases hi : t.image with
    | none => rw [hi] at h; exact hs' img (hi ▸ h)
    | some i =>
      rw [hi] at h
      simp only at h
      split at h
      · exact hs' img h
      · rename_i i' e
        cases h
        have hin := hs' i hi
        have bg : PixelInRange (i.bg_color.getD Rgb.NONE) := by
          cases hb : i.bg_color with
          | none => exact none_pixel
          | some c => exact hin.2 c hb
        exact ens_bind (range_rotate hin.1 p bg filter hc) (fun b hb => ens_pure (meta' hin hb)) _ e
  | RandomNoise p =>
    exact noise _ fun i hi => ensS_bind (range_noise env.rng hi.1 p).1 fun b hb => ensS_pure (meta' hi hb)
  | SaltNPepperNoise p =>
    exact noise _ fun i hi => ensS_bind (range_noise env.rng hi.1 p).2.2.2.2.1 fun b hb =>
      ensS_pure (meta' hi hb)
  | RgbNoise p =>
    exact noise _ fun i hi => ensS_bind (range_noise env.rng hi.1 p).2.2.2.2.2.2.1 fun b hb =>
      ensS_pure (meta' hi hb)

/-- The image held after any commands is in range if the one before was, whether the run ended well, with
an error or with a panic. -/
theorem C118_execute (env : Env σ F32) (cmds : List (Cmd F32 String)) (s : State σ F32)
    (hs : ∀ img, s.image = some img → ImageInRange img) (hc : ∀ cmd ∈ cmds, CarefulCommand cmd) :
    ∀ img, (execute env s cmds).1.image = some img → ImageInRange img := by
  induction cmds generalizing s with
  | nil => exact hs
  | cons cmd cmds ih =>
    intro img h
    have one := command_inRange env s cmd hs (hc cmd (.head _))
    rw [execute] at h
    split at h
    · rename_i s' e
      rw [e] at one
      exact ih s' one (fun c h => hc c (.tail _ h)) img h
    · exact one img h

omit [Libm b32] [FloatBytes F32] in
/-- The command line cannot name a command that leaves the range. -/
theorem parse_careful {F P : Type} [Scalar F] (lossy : P → String) (parseF32 : String → Option F)
    (argv : List P) (queue : Queue F P) (h : parse lossy parseF32 create_args argv = .ok queue) :
    ∀ cmd ∈ queue.commands, CarefulCommand cmd := by
  let Ok : ArgHandler F P → Prop
    | .None c => CarefulCommand c
    | .String f => ∀ v c, f v = .ok c → CarefulCommand c
    | .OsString f => ∀ v c, f v = .ok c → CarefulCommand c
    | .Number f => ∀ v c, f v = .ok c → CarefulCommand c
    | .Number2 f => ∀ v w c, f v w = .ok c → CarefulCommand c
    | .Number3 f => ∀ u v w c, f u v w = .ok c → CarefulCommand c
  have ok : ∀ info ∈ (create_args : List (Arg F P)), Ok info.handler := by
    simp only [create_args, List.forall_mem_cons]
    refine ⟨trivial, ?_, ?_, ?_, trivial, ?_, ?_, ?_, ?_, ?_, ?_, ?_, ?_, ?_, ?_, ?_, ?_, ?_, by simp⟩
    case refine_3 =>
      intro v c h
      dsimp only at h
      cases hp : parse_intensity v with
      | error e => rw [hp] at h; cases h
      | ok i => rw [hp] at h; cases h; trivial
    case refine_13 =>
      intro v c h
      cases h
      exact fun e => by cases e
    all_goals first
      | (intro v c h; cases h; trivial)
      | (intro v w c h; cases h; trivial)
      | (intro u v w c h; cases h; trivial)
  have one : ∀ info ∈ (create_args : List (Arg F P)), ∀ iter cmd rest,
      parse_arg lossy parseF32 info iter = .ok (cmd, rest) → CarefulCommand cmd := by
    intro info hi iter cmd rest h
    have o := ok info hi
    obtain ⟨name, handler⟩ := info
    have keep : ∀ {x : Except String (Cmd F P)} {l : List P}, (∀ c, x = .ok c → CarefulCommand c) →
        (do return (← x, l)) = Except.ok (cmd, rest) → CarefulCommand cmd := by
      intro x l hx h
      cases x with
      | error e => cases h
      | ok c => cases h; exact hx _ rfl
    cases handler with
    | None c => cases h; exact o
    | String f => cases iter with
      | nil => cases h
      | cons s iter => exact keep (o _) h
    | OsString f => cases iter with
      | nil => cases h
      | cons s iter => exact keep (o _) h
    | Number f => cases iter with
      | nil => cases h
      | cons s iter =>
        simp only [parse_arg] at h
        split at h
        · exact keep (o _) h
        · cases h
    | Number2 f => cases iter with
      | nil => cases h
      | cons s iter =>
        simp only [parse_arg] at h
        repeat' split at h
        all_goals first
          | exact keep (o _ _) h
          | cases h
    | Number3 f => cases iter with
      | nil => cases h
      | cons s iter =>
        simp only [parse_arg] at h
        repeat' split at h
        all_goals first
          | exact keep (o _ _ _) h
          | cases h
  have loop : ∀ (n : Nat) (q : Queue F P) (iter : List P), iter.length ≤ n →
      (∀ cmd ∈ q.commands, CarefulCommand cmd) → ∀ queue,
      parseLoop lossy parseF32 create_args q iter = .ok queue → ∀ cmd ∈ queue.commands, CarefulCommand cmd := by
    have push : ∀ {q : Queue F P} {cmd : Cmd F P}, (∀ cmd ∈ q.commands, CarefulCommand cmd) →
        CarefulCommand cmd → ∀ cmd' ∈ (q.push cmd).commands, CarefulCommand cmd' := by
      intro q cmd hq hc cmd' h
      rcases List.mem_append.1 h with h | h
      · exact hq cmd' h
      · rw [List.mem_singleton.1 h]; exact hc
    intro n
    induction n with
    | zero =>
      intro q iter hl hq queue h
      obtain rfl : iter = [] := List.eq_nil_of_length_eq_zero (by omega)
      rw [parseLoop] at h
      cases h
      exact hq
    | succ n ih =>
      intro q iter hl hq queue h
      cases iter with
      | nil => rw [parseLoop] at h; cases h; exact hq
      | cons a iter =>
        have hl' : iter.length ≤ n := by simpa using hl
        rw [parseLoop] at h
        simp only at h
        split at h
        · split at h
          · rename_i info hfind
            split at h
            · rename_i cmd rest hp
              exact ih _ rest (le_trans (parse_arg_length hp) hl')
                (push hq (one info (List.mem_of_find?_eq_some hfind) iter cmd rest hp)) queue h
            · cases h
          · cases h
        · split at h
          · exact ih _ iter hl' (push (cmd := .Open a) hq trivial) queue h
          · exact ih _ iter hl' (push (cmd := .Save a) hq trivial) queue h
  exact loop _ Queue.new _ le_rfl (fun _ h => by cases h) queue h

/-- The picture a command line leaves in memory, and every picture it saves on the way, is in range:
nothing that can be written on the command line leads outside. -/
theorem C118_cli (parseF32 : String → Option F32) (env : Env σ F32) (fs : FS) (rng : σ) (out : List String)
    (argv : List String) (queue : Queue F32 String)
    (h : parse id parseF32 create_args argv = .ok queue) (pre rest : List (Cmd F32 String))
    (hsplit : queue.commands = pre ++ rest) :
    ∀ img, (Queue.run env fs rng out ⟨pre⟩).1.image = some img → ImageInRange img :=
  C118_execute env pre _ (fun img h => by cases h) fun cmd hc =>
    parse_careful id parseF32 argv queue h cmd (by rw [hsplit]; exact List.mem_append_left _ hc)

/-! ## The operations left out do leave the range -/

end

theorem laplace_trivial : letI := Libm.trivial b32
    ∃ b', edge_detection_laplace (F := F32) ⟨2, 1, [Rgb.BLACK, Rgb.WHITE]⟩ = .ok b' ∧
      b'.data.any (fun c => decide (c.c0.val < 0)) = true := by
  refine ⟨_, rfl, ?_⟩
  decide +kernel

theorem not_inRange {img : Image F32} [Libm b32]
    (h : img.data.any (fun c => decide (c.c0.val < 0)) = true) : ¬ ImageInRange img := by
  intro hi
  obtain ⟨c, hc, hneg⟩ := List.any_eq_true.1 h
  have hneg := of_decide_eq_true hneg
  rcases (inRange_f32 _).1 (hi.1 c hc).1.1 with e | e
  · rw [e] at hneg; exact lt_irrefl (0 : ℚ) hneg
  · linarith [e.2.1]

/-- Laplace edge detection makes a negative channel of a black and a white pixel. -/
theorem C118_laplace_not [Libm b32] :
    ∃ img img' : Image F32, ImageInRange img ∧ img.edge_detection .Laplace = .ok img' ∧
      ¬ ImageInRange img' := by
  obtain ⟨b', e, hneg⟩ : ∃ b', edge_detection_laplace (F := F32) ⟨2, 1, [Rgb.BLACK, Rgb.WHITE]⟩ = .ok b' ∧
      b'.data.any (fun c => decide (c.c0.val < 0)) = true := laplace_trivial
  refine ⟨⟨⟨2, 1, [Rgb.BLACK, Rgb.WHITE]⟩, none⟩, ⟨b', none⟩, ⟨?_, fun c h => by cases h⟩, ?_, not_inRange hneg⟩
  · intro c hc
    rcases List.mem_cons.1 hc with rfl | hc
    · exact black_pixel
    · rw [List.mem_singleton.1 hc]; exact white_pixel
  · exact congrArg (fun x : R (PixelBuffer (Col F32)) => x >>= fun b =>
      pure (Image.new_from_buffer_with_meta ⟨⟨2, 1, [Rgb.BLACK, Rgb.WHITE]⟩, none⟩ b)) e

/-- A library whose `tanh` is steep. -/
@[reducible] def steepTanh : Libm b32 := { Libm.trivial b32 with tanh := fun _ => .ofRat b32 false 1 }

/-- Balancing in RGB or HSV makes a negative channel of the black pixel in a row of a black, a dark red, a
red and a white one. -/
theorem C118_balance_not : letI := steepTanh
    ∀ mode ∈ [BalanceMode.Rgb, .Hsv], ∃ img img' : Image F32, ImageInRange img ∧
      img.balance mode (lit 300) = .ok img' ∧ ¬ ImageInRange img' := by
  intro mode hm
  let _ := steepTanh
  let b : PixelBuffer (Col F32) := ⟨4, 1, [Rgb.BLACK, Rgb.new (lit (1 / 4)) (lit 0) (lit 0),
    Rgb.new (lit (3 / 4)) (lit 0) (lit 0), Rgb.WHITE]⟩
  have key : (match balance b mode (lit 300) with
      | .ok b' => b'.data.any (fun c => decide (c.c0.val < 0))
      | .error _ => false) = true := by
    simp only [List.mem_cons, List.not_mem_nil, or_false] at hm
    rcases hm with rfl | rfl <;> decide +kernel
  cases e : balance b mode (lit 300) with
  | error p => rw [e] at key; cases key
  | ok b' =>
    rw [e] at key
    refine ⟨⟨b, none⟩, ⟨b', none⟩, ⟨?_, fun c h => by cases h⟩, ?_, not_inRange key⟩
    · show ∀ c ∈ [_, _, _, _], PixelInRange c
      simp only [List.forall_mem_cons]
      exact ⟨black_pixel, new_pixel_opaque _ _ _, new_pixel_opaque _ _ _, white_pixel, by simp⟩
    · exact congrArg (fun x : R (PixelBuffer (Col F32)) => x >>= fun b' =>
        pure (Image.new_from_buffer_with_meta ⟨b, none⟩ b')) e

/-! ## The hypotheses can be met -/

/-- `powf` of exact numbers keeps the unit interval, and so does a library that returns the base. -/
example [Junk] : PowKeeps ℝ := by
  intro x y hx hy
  rw [inRange_real] at hx ⊢
  rw [Exact.lt, Exact.lit] at hy
  have hy : (0 : ℝ) < y := by simpa using hy
  rcases hx.1.eq_or_lt with rfl | h
  · rw [Exact.powf_zero hy]; norm_num
  · rw [Exact.powf_pos y h]
    exact ⟨Real.rpow_nonneg hx.1 _, Real.rpow_le_one hx.1 hx.2 hy.le⟩

example : letI := Libm.trivial b32; PowKeeps F32 := fun _ _ h _ => h

/-- A careful picture: made white, one pixel replaced, then turned and mirrored. -/
example [Libm b32] {D : Type} [Scalar D] [Widen F32 D] [FloatBytes F32] (libs : Libs F32) :
    ∃ img : Image F32, Careful D libs img ∧ img.data = [Rgb.BLACK, Rgb.WHITE] :=
  ⟨_, .rotate90 _ _ (.put_pixel _ 0 0 Rgb.BLACK _ (.new_with_color 2 1 Rgb.WHITE _ white_pixel rfl)
    black_pixel rfl) rfl, rfl⟩

/-- A command line whose parts are all read: open, grey, turn. -/
example [Libm b32] : ∃ queue : Queue F32 String,
    parse id (fun _ => some (lit 1)) create_args ["d10", "in.png", "-invert", "-rotate", "1"] = .ok queue ∧
    queue.commands.length = 3 := by
  refine ⟨⟨[.Open "in.png", .Invert, .Rotate (lit 1) .Bilinear]⟩, ?_, rfl⟩
  simp [parse, parseLoop, parse_arg, create_args, Queue.new, Queue.push, Queue.is_empty, bind, Except.bind, pure,
    Except.pure]

end D10
