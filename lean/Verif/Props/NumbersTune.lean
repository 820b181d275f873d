import Verif.Lemmas.NumbersTune
import Verif.Props.NumbersOps
import Verif.Props.NumbersRun
import Verif.Props.AnySpace
import Verif.Props.Python

/-!
# The corrections for a whole picture lose no numbers (C126)

A picture made of finite numbers between 0 and 1 is still one after the automatic correction of the lightness,
after the automatic correction of the saturation (HSL and HSV), and after its colours were replaced by those of
a palette.
-/

namespace D10
open Scalar (lit)
open Spec

/-! ## Lightness -/

/-- A 32-bit number has the same value as a 64-bit number. -/
theorem wide_val {x : F32} (h : x.fin = true) : (FP.cast b64 x).fin = true ∧ (FP.cast b64 x).val = x.val := by
  cases x with
  | nan => cases h
  | inf _ => cases h
  | zero s => exact ⟨by show (FP.ofRat b64 s 0).fin = true; rw [FP.ofRat_zero]; rfl,
      by show (FP.ofRat b64 s 0).val = 0; rw [FP.ofRat_zero]; rfl⟩
  | num q hq =>
    have h64 : IsRep b64 q ∧ |q| < pow2 b64.emax := by
      obtain ⟨m, e, h1, h2, h3⟩ := hq.2.1
      exact ⟨⟨m, e, lt_of_lt_of_le h1 (by norm_num [b32, b64]), le_trans (by norm_num [b32, b64]) h2, h3⟩,
        lt_of_lt_of_le hq.2.2 (pow2_le (by norm_num [b32, b64]))⟩
    exact FP.ofRat_rep h64.1 h64.2

/-- A sum of 64-bit numbers between 0 and 1 stays below 2^53. -/
theorem wide_sum {T : Type} (g : T → F64) (l : List T) (hl : ∀ c ∈ l, (g c).fin = true ∧ 0 ≤ (g c).val ∧ (g c).val ≤ 1) :
    ∀ s : F64, s.fin = true → 0 ≤ s.val → s.val ≤ 2 ^ 53 →
      (l.foldl (fun s c => FP.add s (g c)) s).fin = true ∧ 0 ≤ (l.foldl (fun s c => FP.add s (g c)) s).val ∧
        (l.foldl (fun s c => FP.add s (g c)) s).val ≤ 2 ^ 53 := by
  induction l with
  | nil => intro s h1 h2 h3; exact ⟨h1, h2, h3⟩
  | cons c l ih =>
    intro s h1 h2 h3
    obtain ⟨v1, v2, v3⟩ := hl c (.head _)
    have big : rn b64 (2 ^ 53 + 1) = 2 ^ 53 := by decide +kernel
    have up := rn_mono (f := b64) (a := s.val + (g c).val) (b := 2 ^ 53 + 1) (by linarith)
    rw [big] at up
    have lo := rn_nonneg (f := b64) (q := s.val + (g c).val) (by linarith)
    have val := FP.ofRat_val (f := b64) (s := s.isNeg && (g c).isNeg) (q := s.val + (g c).val) (by
      rw [abs_of_nonneg lo]; exact up.trans_lt (by decide +kernel))
    rw [← FP.add_fin h1 v1] at val
    exact ih (fun w hw => hl w (.tail _ hw)) _ val.1 (by rw [val.2]; exact lo) (by rw [val.2]; exact up)

section
variable [Libm b32] [Libm b64]

omit [Libm b64] in
/-- The mean lightness is a finite number. -/
theorem mean_lightness {b : PixelBuffer (Col F32)} (hb : ∀ c ∈ b.data, UnitCol c) (h0 : 0 < b.data.length)
    (h1 : b.data.length ≤ 2 ^ 32) :
    (FP.cast b32 (FP.div (b.data.foldl (fun s c => FP.add s (FP.cast b64 (Rgb.to_hsl c).c2)) (FP.ofRat b64 false 0))
      (FP.ofRat b64 false ((b.data.length : Nat) : ℚ))) : F32).fin = true := by
  have z : (FP.ofRat b64 false 0).fin = true ∧ (FP.ofRat b64 false 0).val = 0 := by decide +kernel
  obtain ⟨a1, a2, a3⟩ := wide_sum (fun c : Col F32 => FP.cast b64 (Rgb.to_hsl c).c2) b.data (fun c hc => by
    have := (hsl_number (hb c hc)).2.2
    have w := wide_val this.1
    exact ⟨w.1, by rw [w.2]; exact this.2.1, by rw [w.2]; exact this.2.2⟩) (FP.ofRat b64 false 0) z.1 z.2.ge
    (by rw [z.2]; norm_num)
  generalize List.foldl (fun s c => FP.add s (FP.cast b64 (Rgb.to_hsl c).c2)) (FP.ofRat b64 false 0) b.data = s at *
  have n := FP.int_finite (f := b64) (b.data.length : Int) (by
    rw [abs_of_nonneg (by positivity)]; norm_num [b64]; omega)
  have nv := FP.ofRat_rep (f := b64) (s := false) n.1 n.2
  have e : (((b.data.length : Int) : ℚ)) = ((b.data.length : Nat) : ℚ) := by simp
  rw [e] at nv
  have np : 1 ≤ (FP.ofRat b64 false ((b.data.length : Nat) : ℚ)).val := by rw [nv.2]; exact_mod_cast h0
  generalize FP.ofRat b64 false ((b.data.length : Nat) : ℚ) = m at *
  have q0 : 0 ≤ s.val / m.val := div_nonneg a2 (by linarith)
  have q1 : s.val / m.val ≤ 2 ^ 53 := (div_le_self a2 np).trans a3
  have big : rn b64 (2 ^ 53) = 2 ^ 53 := by decide +kernel
  have up := rn_mono (f := b64) q1
  rw [big] at up
  have lo := rn_nonneg (f := b64) q0
  have val := FP.ofRat_val (f := b64) (s := s.isNeg ^^ m.isNeg) (q := s.val / m.val) (by
    rw [abs_of_nonneg lo]; exact up.trans_lt (by decide +kernel))
  rw [← FP.div_fin a1 nv.1 (by linarith)] at val
  generalize FP.div s m = d at *
  have fin : ∀ (t : Bool), (FP.ofRat b32 t d.val).fin = true := fun t =>
    (round_val (k := 53) (by norm_num) (by rw [val.2, abs_of_nonneg lo]; exact up)).1
  cases d with
  | nan => cases val.1
  | inf _ => cases val.1
  | zero t => exact fin t
  | num q h => exact fin _

/-- C126: the automatic correction of the lightness makes a picture of numbers out of a picture of numbers. -/
theorem C126_lightness (hp : PowGivesNumbers) {b : PixelBuffer (Col F32)} (hb : ∀ c ∈ b.data, UnitCol c)
    (hs : WellFormed b) {factor : F32} (hf : factor.fin = true) :
    ∀ c ∈ (optimize_lightness F64 b factor).data, UnitCol c := by
  refine all_map (Q := UnitCol) fun c hc => ?_
  have h1 : b.data.length ≤ 2 ^ 32 := by
    rw [hs.2]
    rcases hs.1 with h | h
    · rw [h.1, Nat.zero_mul]; norm_num
    · exact h.2.2.trans (by norm_num)
  have m := mean_lightness hb (List.length_pos_of_mem hc) h1
  have half : (FP.ofRat b32 false 0.5).fin = true ∧ (FP.ofRat b32 false 0.5).val = 1 / 2 := by decide +kernel
  have one : (FP.ofRat b32 false 1).fin = true := by decide +kernel
  have diff := sub_small m half.1 (by rw [half.2]; norm_num)
  have prod := mul_number diff hf
  have gamma : FP.sub (FP.ofRat b32 false 1) (FP.mul (FP.sub (FP.cast b32 (FP.div (b.data.foldl
      (fun s c => FP.add s (FP.cast b64 (Rgb.to_hsl c).c2)) (FP.ofRat b64 false 0))
      (FP.ofRat b64 false ((b.data.length : Nat) : ℚ)))) (FP.ofRat b32 false 0.5)) factor) ≠ .nan := by
    refine add_number one fun e => prod ?_
    revert e
    generalize FP.mul _ factor = x
    cases x <;> simp [FP.neg]
  exact channels_unit (hb c hc) fun v hv =>
    powf_number hp (unit_nonneg (clamp_number (fin_number hv.1))) (recip_number gamma)

end

/-! ## Saturation -/

section
variable [Libm b32]

omit [Libm b32] in
/-- The gamma that the automatic correction of the saturation uses is finite and not negative if the offset is. -/
theorem saturation_gamma {s o : F32} (hs : Un s) (fo : o.fin = true) (o0 : 0 ≤ o.val) :
    (FP.add o (FP.div (FP.sub (FP.ofRat b32 false 1) s) (FP.ofRat b32 false 1.5))).fin = true ∧
    0 ≤ (FP.add o (FP.div (FP.sub (FP.ofRat b32 false 1) s) (FP.ofRat b32 false 1.5))).val := by
  have one : (FP.ofRat b32 false 1).fin = true ∧ (FP.ofRat b32 false 1).val = 1 := by decide +kernel
  have half : (FP.ofRat b32 false 1.5).fin = true ∧ (FP.ofRat b32 false 1.5).val = 3 / 2 := by decide +kernel
  have d : Un (FP.sub (FP.ofRat b32 false 1) s) := by
    rw [FP.sub_fin one.1 hs.1, one.2]
    exact round_into (k := 0) (by norm_num) tune_zero tune_one (by linarith [hs.2.2]) (by linarith [hs.2.1]) (by norm_num)
      (by norm_num)
  generalize FP.sub (FP.ofRat b32 false 1) s = x at *
  have q : Un (FP.div x (FP.ofRat b32 false 1.5)) := by
    rw [FP.div_fin d.1 half.1 (by rw [half.2]; norm_num), half.2]
    exact round_into (k := 0) (by norm_num) tune_zero tune_one (div_nonneg d.2.1 (by norm_num)) (by linarith [d.2.2])
      (by norm_num) (by norm_num)
  generalize FP.div x (FP.ofRat b32 false 1.5) = y at *
  have f := add_small fo q.1 (abs_le.2 ⟨by linarith [q.2.1], q.2.2⟩)
  refine ⟨f, ?_⟩
  rw [FP.add_fin fo q.1] at f ⊢
  rw [ofRat_fin_val f]
  exact rn_nonneg (by linarith [q.2.1])

omit [Libm b32] in
theorem mean_saturation {b : PixelBuffer (Col F32)} (g : Col F32 → F32) (hg : ∀ c ∈ b.data, Un (g c))
    (h0 : 0 < b.data.length) (h1 : b.data.length ≤ 2 ^ 32) :
    Un (FP.div (b.data.foldl (fun s c => FP.add s (g c)) (FP.ofRat b32 false 0))
      (FP.ofRat b32 false ((b.data.length : Nat) : ℚ))) := by
  have := mean_unit (l := b.data.map g) (fun v hv => by
    obtain ⟨c, hc, rfl⟩ := List.mem_map.1 hv; exact hg c hc) (by simpa using h0) (by simpa using h1)
  rwa [List.foldl_map, List.length_map] at this

theorem unit_pow {s y : F32} (hp : PowGivesNumbers) (hk : PowKeeps F32) (hs : Un s) (yp : (lit 0 <. y) = true) (yn : y ≠ .nan) :
    Un (Scalar.powf s y) :=
  unit_of (hk _ _ ((inRange_f32 _).2 (.inr hs)) yp) (powf_number hp (unit_nonneg hs) yn)

omit [Libm b32] in
theorem unit_nn {c : Col F32} (h : UnitCol c) : Nn c.c0 ∧ Nn c.c1 ∧ Nn c.c2 := by
  have go : ∀ {x : F32}, Un x → Nn x := fun hx =>
    .inr ⟨⟨hx.1, (abs_le.2 ⟨by linarith [hx.2.1], hx.2.2⟩).trans (by norm_num)⟩, hx.2.1⟩
  exact ⟨go h.c0, go h.c1, go h.c2⟩

/-- The brightness of a colour of numbers is one of its channels. -/
theorem max_unit {c : Col F32} (h : UnitCol c) : Un (Rgb.max c) := (max32 h).1

/-- C126: the automatic correction of the saturation in HSL or HSV makes a picture of numbers out of a picture
of numbers, if the offset is not negative. -/
theorem C126_saturation (hp : PowGivesNumbers) (hk : PowKeeps F32) (hz : PowOfZero) {b : PixelBuffer (Col F32)}
    (hb : ∀ c ∈ b.data, UnitCol c) (hs : WellFormed b) {offset : F32} (fo : offset.fin = true) (o0 : 0 ≤ offset.val)
    {mode : SaturationMode} (hm : mode ≠ .Lch) :
    ∀ c ∈ (optimize_saturation b offset mode).data, UnitCol c := by
  refine all_map (Q := UnitCol) fun c hc => ?_
  have h0 := List.length_pos_of_mem hc
  have h1 : b.data.length ≤ 2 ^ 32 := by
    rw [hs.2]
    rcases hs.1 with h | h
    · rw [h.1, Nat.zero_mul]; norm_num
    · exact h.2.2.trans (by norm_num)
  have u := hb c hc
  cases mode with
  | Lch => exact absurd rfl hm
  | Hsl =>
    obtain ⟨g1, g2⟩ := saturation_gamma (mean_saturation (fun c => (Rgb.to_hsl c).c1)
      (fun c hc => (hsl_number (hb c hc)).2.1) h0 h1) fo o0
    obtain ⟨hh, hsat, hl⟩ := hsl_number u
    obtain ⟨p1, p2⟩ := gamma_pow_pos g1 g2 hl
    exact hsl_unit (hh.mono (by norm_num)) (unit_pow hp hk (clamp_number (fin_number hsat.1)) p1 p2) hl
      (fin_number u.alpha.1)
  | Hsv =>
    have hv : ∀ c ∈ b.data, Un (Rgb.to_hsv c).c1 := fun c hc => by
      obtain ⟨n0, n1, n2⟩ := unit_nn (hb c hc)
      exact (hsv_number n0 n1 n2).2.1
    obtain ⟨g1, g2⟩ := saturation_gamma (mean_saturation (fun c => (Rgb.to_hsv c).c1) hv h0 h1) fo o0
    obtain ⟨n0, n1, n2⟩ := unit_nn u
    obtain ⟨v1, v2, -, -, v5, v6⟩ := hsv_number n0 n1 n2
    have mu := max_unit u
    rw [← v5] at mu
    obtain ⟨p1, p2⟩ := gamma_pow_pos g1 g2 mu
    have cl : clamp01 (Rgb.to_hsv c).c1 = (Rgb.to_hsv c).c1 := clamp_self32 v2
    have pw := unit_pow hp hk (clamp_number (fin_number v2.1)) p1 p2
    have t := hsv_rgb (P := Un) (fun x hx => hx) v1 pw
      ⟨mu.1, (abs_le.2 ⟨by linarith [mu.2.1], mu.2.2⟩).trans (by norm_num)⟩ mu u.alpha
    have g := t.2 (fun e => (hz _ _ (clamp_number (fin_number v2.1)).1 (by
      rw [cl]; exact v6 e (fin_number u.c0.1) (fin_number u.c1.1) (fin_number u.c2.1)) p1).2)
    exact ⟨t.1.1, g, t.1.2.2.1, t.1.2.2.2⟩

end

/-! ## Palettes -/

section
variable [Libm b32]

/-- The Lab values of a colour of numbers. -/
theorem lab_small (hL : PowNear (1 / 4194304)) {c : Col F32} (h : UnitCol c) :
    Bd 3 (to_lab .D65 .O2 .rgb c).c0 ∧ Bd 3 (to_lab .D65 .O2 .rgb c).c1 ∧ Bd 3 (to_lab .D65 .O2 .rgb c).c2 := by
  obtain ⟨-, -, -, hr⟩ := rgb_xyz_near c h
  obtain ⟨⟨f0, b0⟩, ⟨f1, b1⟩, ⟨f2, b2⟩⟩ := lab_fin hL (by norm_num) .D65 .O2 _ hr
  have go : ∀ {x : F32} {k : ℝ}, x.fin = true → |(x.val : ℝ)| ≤ k → k ≤ 8 → Bd 3 x := fun hx hk h8 =>
    ⟨hx, by have := hk.trans h8; norm_num; exact_mod_cast this⟩
  exact ⟨go f0 b0 (by norm_num), go f1 b1 (by norm_num), go f2 b2 (by norm_num)⟩

/-- The Lab distance of two colours of numbers is below the greatest number. -/
theorem lab_distance (hL : PowNear (1 / 4194304)) (hm : SqrtMild) {c d : Col F32} (hc : UnitCol c) (hd : UnitCol d) :
    (distance (to_lab .D65 .O2 .rgb c) (to_lab .D65 .O2 .rgb d) <. (lit greatest : F32)) = true := by
  obtain ⟨c0, c1, c2⟩ := lab_small hL hc
  obtain ⟨d0, d1, d2⟩ := lab_small hL hd
  have sq : ∀ {x y : F32}, Bd 3 x → Bd 3 y → Bd 8 (FP.mul (FP.sub x y) (FP.sub x y)) ∧
      0 ≤ (FP.mul (FP.sub x y) (FP.sub x y)).val := by
    intro x y hx hy
    have t := hx.sub hy (m := 4) (by norm_num) (by norm_num) (by norm_num)
    have t2 := t.mul t (m := 8) (by norm_num) (by norm_num)
    refine ⟨t2, ?_⟩
    have f := t2.fin
    rw [FP.mul_fin t.fin t.fin] at f ⊢
    rw [ofRat_fin_val f]
    exact rn_nonneg (mul_self_nonneg _)
  have ad : ∀ {k : ℕ} {x y : F32}, k + 1 ≤ 127 → Bd k x → 0 ≤ x.val → Bd k y → 0 ≤ y.val →
      Bd (k + 1) (FP.add x y) ∧ 0 ≤ (FP.add x y).val := by
    intro k x y hk hx x0 hy y0
    have t := hx.add hy (m := k + 1) (by omega) (by omega) hk
    refine ⟨t, ?_⟩
    have f := t.fin
    rw [FP.add_fin hx.fin hy.fin] at f ⊢
    rw [ofRat_fin_val f]
    exact rn_nonneg (by linarith)
  have s0 := sq c0 d0
  have s1 := sq c1 d1
  have s2 := sq c2 d2
  have a1 := ad (by norm_num) s0.1 s0.2 s1.1 s1.2
  have a2 := ad (by norm_num) a1.1 a1.2 (s2.1.mono (by norm_num)) s2.2
  have ml := hm _ a2.1.fin a2.2
  have g : (FP.ofRat b32 false greatest).fin = true ∧ (2 : ℚ) ^ 20 < (FP.ofRat b32 false greatest).val := by decide +kernel
  refine (FP.lt_fin ml.1 g.1).trans (decide_eq_true ((ml.2.2.1.trans (max_le (by norm_num)
    ((le_abs_self _).trans (a2.1.le.trans ?_)))).trans_lt g.2))
  norm_num

/-- C126: after its colours were replaced by those of a palette, every pixel of a picture is, within 28
millionths per channel, an entry of the palette: the first one whose Lab distance from the pixel is least. It is
made of numbers, has the alpha of the entry, and compares equal to it. -/
theorem C126_palette (hL : PowNear (1 / 4194304)) (hm : SqrtMild) {b palette : PixelBuffer (Col F32)} {w h px}
    (sh : Shows b w h px) (hb : ∀ x y, x < w → y < h → UnitCol (px x y)) (hp : ∀ c ∈ palette.data, UnitCol c)
    (hne : palette.data ≠ []) :
    ∃ px', Shows (apply_palette b .rgb palette) w h px' ∧ ∀ x y, x < w → y < h →
      ∃ k p, palette.data[k]? = some p ∧
        FirstLeast (palette.data.map fun p => distance (to_lab .D65 .O2 .rgb (px x y)) (to_lab .D65 .O2 .rgb p)) k ∧
        CloseCol (28 / 1000000) (px' x y) (exact p) ∧ UnitCol (px' x y) ∧ (px' x y).alpha = p.alpha ∧
        Col.eq (px' x y) p = true := by
  obtain ⟨px', s', all⟩ := C39_apply_palette sh .rgb palette
  refine ⟨px', s', fun x y hx hy => ?_⟩
  rcases all x y hx hy with ⟨k, p, h1, h2, h3⟩ | ⟨h1, -⟩
  · have u := hp p (List.mem_of_getElem? h1)
    let _ : Junk := ⟨fun _ _ => 0⟩
    obtain ⟨t1, t2, t3⟩ := C112_lab_round_trip hL .D65 .O2 p u
    rw [← h3] at t1 t2 t3
    refine ⟨k, p, h1, h2, t1, ?_, t2, t3⟩
    obtain ⟨r, g, v, e⟩ : ∃ r g v : F32, px' x y = ⟨clamp01 r, clamp01 g, clamp01 v, (px' x y).alpha⟩ := by
      rw [h3]; exact ⟨_, _, _, rfl⟩
    rw [e] at t1 ⊢
    exact ⟨clamp_fin_chan t1.c0.fin, clamp_fin_chan t1.c1.fin, clamp_fin_chan t1.c2.fin, by rw [t2]; exact u.alpha⟩
  · obtain ⟨p, hpm⟩ := List.exists_mem_of_ne_nil _ hne
    have := h1 _ (List.mem_map.2 ⟨p, hpm, rfl⟩)
    rw [lab_distance hL hm (hb x y hx hy) (hp p hpm)] at this
    cases this

end

/-! ## Images -/

section
variable [Libm b32] [Libm b64] [FloatBytes F32]

omit [Libm b32] [Libm b64] [FloatBytes F32] in
theorem wellFormed_map {b : PixelBuffer (Col F32)} (hb : WellFormed b) (f : Col F32 → Col F32) : WellFormed (b.map_colors f) :=
  ⟨hb.1, by show (b.data.map f).length = _; rw [List.length_map]; exact hb.2⟩

/-- C126: the images of a program working with numbers stay so when their lightness or saturation is corrected or
a palette is applied; the names are those of the image methods. -/
theorem C126_images (hp : PowGivesNumbers) (hk : PowKeeps F32) (hz : PowOfZero) (hL : PowNear (1 / 4194304))
    (hq : SqrtGivesNumbers) (he : ExpInUnit) (hm : SqrtMild) (ht : SinCosInUnit) {libs : Libs F32} (hh : Honest libs)
    (hl : LibsGiveNumbers libs) {img : Image F32} (h : Tame libs img) (o : F32) (fo : o.fin = true) :
    Tame libs (img.optimize_lightness F64 o) ∧
    (0 ≤ o.val → Tame libs (img.optimize_saturation o .Hsl) ∧ Tame libs (img.optimize_saturation o .Hsv)) ∧
    ∀ palette : Image F32, Tame libs palette → palette.buffer.data ≠ [] →
      Tame libs (img.apply_palette palette) ∧ img.apply_palette_in_place palette = { img with buffer := (img.apply_palette palette).buffer } := by
  let _ : Widen F32 F32 := ⟨id, id⟩
  obtain ⟨made, nu⟩ := tame_keeps (D := F32) hp hq he hm ht hh hl h
  have wf := C65_wellFormed hh made
  refine ⟨.new_from_buffer_with_meta _ _ h (wellFormed_map wf _) (C126_lightness hp nu.1 wf fo), fun o0 =>
    ⟨.new_from_buffer_with_meta _ _ h (wellFormed_map wf _) (C126_saturation hp hk hz nu.1 wf fo o0 (by decide)),
     .new_from_buffer_with_meta _ _ h (wellFormed_map wf _) (C126_saturation hp hk hz nu.1 wf fo o0 (by decide))⟩,
    fun palette hpal hne => ?_⟩
  refine ⟨.new_from_buffer_with_meta _ _ h (wellFormed_map wf _) fun c hc => ?_, by
    show { img with buffer := D10.apply_palette_in_place img.buffer .rgb palette.buffer } = _
    rw [C39_in_place]; rfl⟩
  obtain ⟨px, sh⟩ := wf_shows Rgb.NONE wf
  obtain ⟨px', sh', all⟩ := C126_palette hL hm sh (fun x y hx hy => nu.1 _ (by
    show px x y ∈ img.buffer.data
    rw [sh.pixels]; exact pixel_mem_rows px hx hy)) (tame_keeps (D := F32) hp hq he hm ht hh hl hpal).2.1 hne
  rw [sh'.pixels] at hc
  obtain ⟨x, y, hx, hy, rfl⟩ := mem_rows.1 hc
  obtain ⟨-, -, -, -, -, u, -⟩ := all x y hx hy
  exact u

end

/-! ## Where numbers are lost, and a platform on which the hypotheses hold -/

/-- A picture of one grey pixel. -/
def greyDot [Libm b32] : PixelBuffer (Col F32) := ⟨1, 1, [⟨lit 0.5, lit 0.5, lit 0.5, lit 1⟩]⟩

theorem greyDot_unit [Libm b32] : WellFormed greyDot ∧ ∀ c ∈ (greyDot : PixelBuffer (Col F32)).data, UnitCol c := by
  refine ⟨⟨.inr ⟨Nat.one_pos, Nat.one_pos, by show 1 * 1 ≤ 1073741823; decide⟩, rfl⟩, fun c hc => ?_⟩
  obtain rfl := List.mem_singleton.1 hc
  have half : (lit 0.5 : F32).fin = true ∧ 0 ≤ (lit 0.5 : F32).val ∧ (lit 0.5 : F32).val ≤ 1 := by
    show (FP.ofRat b32 false 0.5).fin = true ∧ 0 ≤ (FP.ofRat b32 false 0.5).val ∧ (FP.ofRat b32 false 0.5).val ≤ 1
    decide +kernel
  exact ⟨half, half, half, lit1_unit⟩

theorem poleOfPow_keeps : letI := poleOfPow; PowGivesNumbers ∧ PowKeeps F32 ∧ PowOfZero := by
  let _ := poleOfPow
  have pos : ∀ {y : F32}, (lit 0 <. y) = true → FP.lt y (.zero false) = false := by
    intro y h
    have h : FP.lt (FP.ofRat b32 false 0) y = true := h
    rw [FP.ofRat_zero] at h
    cases y with
    | nan => rfl
    | inf s => cases s <;> simp_all [FP.lt]
    | zero s => rfl
    | num q hq => exact decide_eq_false (not_lt.2 (of_decide_eq_true (show decide (0 < q) = true from h)).le)
  have same : ∀ {x y : F32}, (lit 0 <. y) = true → Scalar.powf x y = x := by
    intro x y h
    show (if (FP.eq x (.zero false) && FP.lt y (.zero false)) = true then FP.inf false else x) = x
    rw [pos h, Bool.and_false]; rfl
  exact ⟨poleOfPow_numbers.1, fun x y hx hy => by rw [same hy]; exact hx, fun x y h1 h2 hy => by
    rw [same hy]; exact ⟨h1, h2⟩⟩

/-- The offset must not be negative: with an offset of -2 a grey pixel becomes "not a number", although `powf` is as
it should be. -/
theorem C126_saturation_not : letI := poleOfPow
    PowGivesNumbers ∧ PowKeeps F32 ∧ PowOfZero ∧ WellFormed greyDot ∧ (∀ c ∈ (greyDot : PixelBuffer (Col F32)).data, UnitCol c) ∧
    (lit (-2) : F32).fin = true ∧ ((optimize_saturation greyDot (lit (-2) : F32) .Hsl).data.map fun c => c.c0) = [.nan] := by
  let _ := poleOfPow
  exact ⟨poleOfPow_keeps.1, poleOfPow_keeps.2.1, poleOfPow_keeps.2.2, greyDot_unit.1, greyDot_unit.2, by decide +kernel,
    by decide +kernel⟩

/-- A `powf` next to the exact one that meets all conditions on `powf`. -/
@[instance_reducible] noncomputable def tuneLib : Libm b32 :=
  { poleOfPow with
    powf := fun x y =>
      if x.fin = true ∧ y.fin = true ∧ x.val ≠ 0 then
        if x.val ≤ 1 then letI := poleOfPow; clamp01 (nearestF ((x.val : ℝ) ^ (y.val : ℝ)))
        else nearestF ((x.val : ℝ) ^ (y.val : ℝ))
      else x }

theorem tuneLib_pow : letI := tuneLib; PowGivesNumbers ∧ PowKeeps F32 ∧ PowOfZero ∧ PowNear (1 / 4194304) := by
  have num : ∀ r, nearestF r ≠ .nan := fun r => FP.ofRat_not_nan
  let _ := tuneLib
  have un : ∀ r, Un (clamp01 (nearestF r)) := fun r => clamp_number (num r)
  have e : ∀ x y : F32, Scalar.powf x y = if x.fin = true ∧ y.fin = true ∧ x.val ≠ 0 then
        if x.val ≤ 1 then clamp01 (nearestF ((x.val : ℝ) ^ (y.val : ℝ)))
        else nearestF ((x.val : ℝ) ^ (y.val : ℝ))
      else x := fun _ _ => rfl
  refine ⟨fun x y hx _ _ => ?_, fun x y hx _ => ?_, fun x y h1 h2 _ => ?_, fun x y hx hy h0 h1 y0 y1 => ?_⟩ <;> rw [e]
  · split
    · split
      · exact fin_number (un _).1
      · exact num _
    · exact hx
  · split
    · rename_i h
      rw [inRange_f32] at hx
      rcases hx with rfl | hx
      · cases h.1
      · rw [if_pos hx.2.2]; exact (inRange_f32 _).2 (.inr (un _))
    · exact hx
  · rw [if_neg fun h => h.2.2 h2]; exact ⟨h1, h2⟩
  · have x0 : (0 : ℝ) ≤ x.val := by exact_mod_cast h0
    have yp : (0 : ℝ) < y.val := by exact_mod_cast y0
    have near : Close (nearestF ((x.val : ℝ) ^ (y.val : ℝ))) ((x.val : ℝ) ^ (y.val : ℝ)) (1 / 4194304) := by
      refine nearestF_close ?_
      have x1 : (x.val : ℝ) ≤ 1.4 := by
        have := (Rat.cast_le (K := ℝ)).2 h1
        push_cast at this
        exact this
      have y1 : (y.val : ℝ) ≤ 3 := by exact_mod_cast y1
      rw [abs_of_nonneg (Real.rpow_nonneg x0 _)]
      calc (x.val : ℝ) ^ (y.val : ℝ) ≤ (1.4 : ℝ) ^ (y.val : ℝ) := Real.rpow_le_rpow x0 x1 yp.le
        _ ≤ (1.4 : ℝ) ^ (3 : ℝ) := Real.rpow_le_rpow_of_exponent_le (by norm_num) y1
        _ ≤ 3.9 := by rw [show (3 : ℝ) = ((3 : ℕ) : ℝ) by norm_num, Real.rpow_natCast]; norm_num
    split
    · split
      · rename_i h
        exact clamp_close near (Real.rpow_nonneg x0 _) (Real.rpow_le_one x0 (by exact_mod_cast h) yp.le)
      · exact near
    · rename_i h
      have z : x.val = 0 := by by_contra hn; exact h ⟨hx, hy, hn⟩
      rw [z, Rat.cast_zero, Real.zero_rpow yp.ne']
      exact ⟨hx, by rw [z]; norm_num⟩

theorem tuneLib_rest : letI := tuneLib; SqrtGivesNumbers ∧ ExpInUnit ∧ SqrtMild ∧ SinCosInUnit :=
  ⟨poleOfPow_sqrt, poleOfPow_bell.1, poleOfPow_bell.2, poleOfPow_numbers.2⟩

/-- Non-vacuity: the hypotheses of `C126_images` hold on such a platform, and the corrections apply to an image. -/
example [Libm b64] [FloatBytes F32] : letI := tuneLib
    let dot : Image F32 := Image.new_from_buffer greyDot
    Tame demo (dot.optimize_lightness F64 (lit 1)) ∧ Tame demo (dot.optimize_saturation (lit 0.5) .Hsv) ∧
    Tame demo (dot.apply_palette dot) := by
  let _ := tuneLib
  intro dot
  have t : Tame demo dot := .new_from_buffer _ greyDot_unit.1 greyDot_unit.2
  have half : (lit 0.5 : F32).fin = true ∧ 0 ≤ (lit 0.5 : F32).val := by
    show (FP.ofRat b32 false 0.5).fin = true ∧ 0 ≤ (FP.ofRat b32 false 0.5).val
    decide +kernel
  have go := fun o fo => C126_images tuneLib_pow.1 tuneLib_pow.2.1 tuneLib_pow.2.2.1 tuneLib_pow.2.2.2 tuneLib_rest.1
    tuneLib_rest.2.1 tuneLib_rest.2.2.1 tuneLib_rest.2.2.2 (demo_honest (F := F32)) demo_numbers t o fo
  exact ⟨(go _ lit1_unit.1).1, ((go _ half.1).2.1 half.2).2, ((go _ half.1).2.2 dot t (by simp [dot, greyDot, Image.new_from_buffer])).1⟩

end D10
