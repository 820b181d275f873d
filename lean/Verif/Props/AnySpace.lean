import Verif.Props.YuvFloat
import Verif.Props.LchFloat
import Verif.Props.HsvFloat
import Verif.Props.StoredBytes

/-!
# C117: through any colour type and back

The bounds of the single conversions put together, and what they mean for pictures with 8 bits per channel.
-/

namespace D10

open D10 D10.Spec Scalar

section
variable [Libm b32] [Junk]

omit [Junk] in
theorem powWithin_mono {δ ε : ℝ} (h : PowWithin δ) (hd : δ ≤ ε) : PowWithin ε :=
  fun x y hx hy h0 h1 y0 => (h x y hx hy h0 h1 y0).mono hd

omit [Libm b32] [Junk] in
theorem closeCol_mono {d e : ℝ} {c : Col F32} {q : Col ℝ} (h : CloseCol d c q) (hd : d ≤ e) : CloseCol e c q :=
  ⟨h.c0.mono hd, h.c1.mono hd, h.c2.mono hd, h.alpha.mono hd⟩

omit [Junk] in
/-- What the limits leave, if it is a number, is in [0, 1]. -/
theorem clamp_fin_chan {x : F32} (h : (clamp01 x : F32).fin = true) :
    (clamp01 x : F32).fin = true ∧ 0 ≤ (clamp01 x : F32).val ∧ (clamp01 x : F32).val ≤ 1 := by
  cases hx : x.fin with
  | true => exact clamp_chan hx
  | false =>
    have l0 : (lit 0 : F32).fin = true ∧ (lit 0 : F32).val = 0 := FP.lit0
    have l1 : (lit 1 : F32).fin = true ∧ (lit 1 : F32).val = 1 := FP.lit1
    revert h
    unfold clamp01 Scalar.clamp
    split
    · intro _; exact ⟨l0.1, by rw [l0.2], by rw [l0.2]; exact zero_le_one⟩
    · split
      · intro _; exact ⟨l1.1, by rw [l1.2]; exact zero_le_one, by rw [l1.2]⟩
      · intro h; rw [hx] at h; cases h

/-- C117: a colour converted to any colour type and back has every channel within 65/1000000 of what it was, in
[0, 1], and the same alpha. -/
theorem C117_round_trip (hW : PowWithin (1 / 4194304)) (hL : PowNear (1 / 4194304)) (hS : SqrtNear)
    (hT : TrigNear (1 / 4194304)) (s : Space) (c : Col F32) (h : UnitCol c) :
    let d := to_rgb s (convert .rgb s c)
    CloseCol (65 / 1000000) d (exact c) ∧ UnitCol d ∧ d.alpha = c.alpha := by
  have ac : ∀ {x : F32}, (x.fin = true ∧ 0 ≤ x.val ∧ x.val ≤ 1) → clamp01 x = x := fun hx => clamp_self32 hx
  -- limited channels
  have fin : ∀ {d : Col F32} {e : ℝ}, CloseCol e d (exact c) → e ≤ 65 / 1000000 → d.alpha = c.alpha →
      (∃ x y z : F32, d = ⟨clamp01 x, clamp01 y, clamp01 z, d.alpha⟩) →
      CloseCol (65 / 1000000) d (exact c) ∧ UnitCol d ∧ d.alpha = c.alpha := by
    intro d e hc he ha ⟨x, y, z, hd⟩
    refine ⟨closeCol_mono hc he, ?_, ha⟩
    rw [hd] at hc ⊢
    exact ⟨clamp_fin_chan hc.c0.fin, clamp_fin_chan hc.c1.fin, clamp_fin_chan hc.c2.fin, by rw [ha]; exact h.alpha⟩
  cases s with
  | rgb =>
    exact ⟨⟨close_self h.c0.1 (by norm_num), close_self h.c1.1 (by norm_num), close_self h.c2.1 (by norm_num),
      close_self h.alpha.1 (by norm_num)⟩, h, rfl⟩
  | srgb =>
    refine fin (srgb_round_trip_close (powWithin_mono hW (by norm_num)) c h) (by norm_num) ?_ ⟨_, _, _, rfl⟩
    show clamp01 (clamp01 c.alpha) = _
    rw [ac h.alpha, ac h.alpha]
  | hsl =>
    refine fin (C28_hsl_float c h).1 (by norm_num) (C28_hsl_float c h).2 ?_
    show ∃ x y z : F32, Hsl.to_rgb (Rgb.to_hsl c) = ⟨clamp01 x, clamp01 y, clamp01 z, (Hsl.to_rgb (Rgb.to_hsl c)).alpha⟩
    unfold Hsl.to_rgb
    dsimp only
    split <;> exact ⟨_, _, _, rfl⟩
  | hsv =>
    by_cases hM : 1 / 32768 ≤ max c.c0.val (max c.c1.val c.c2.val)
    · have t := C29_hsv_float c h hM
      by_cases hz : ((Rgb.to_hsv c).c1 <=. lit 0) = true
      · have e : to_rgb .hsv (convert .rgb .hsv c) = _ := hsv_zero hz
        have t : CloseCol (1 / 200000) (to_rgb .hsv (convert .rgb .hsv c)) (exact c) := t.1
        have iM := (max32 h).1
        rw [e] at t ⊢
        exact ⟨closeCol_mono t (by norm_num), ⟨iM, iM, iM, h.alpha⟩, rfl⟩
      · refine fin t.1 (by norm_num) t.2 ?_
        show ∃ x y z : F32, Hsv.to_rgb (Rgb.to_hsv c) =
          ⟨clamp01 x, clamp01 y, clamp01 z, (Hsv.to_rgb (Rgb.to_hsv c)).alpha⟩
        unfold Hsv.to_rgb
        dsimp only
        rw [if_neg hz]
        split <;> exact ⟨_, _, _, rfl⟩
    · obtain ⟨iM, M0, M1, M2, Mc⟩ := max32 h
      obtain ⟨im, m0, m1, m2, mc⟩ := min32 h
      obtain ⟨lt, key⟩ := hsv_dark c h hM
      have e : to_rgb .hsv (convert .rgb .hsv c) = _ := key
      rw [e]
      have go : ∀ {x : F32}, (x.val : ℝ) ≤ (Rgb.max c).val → ((Rgb.min c).val : ℝ) ≤ x.val →
          Close (Rgb.max c) (x.val : ℝ) (65 / 1000000) := by
        intro x h1 h2
        refine ⟨iM.1, ?_⟩
        rw [abs_le]; constructor <;> linarith [im.real.1]
      exact ⟨⟨go M0 m0, go M1 m1, go M2 m2, close_self h.alpha.1 (by norm_num)⟩, ⟨iM, iM, iM, h.alpha⟩, rfl⟩
  | yuv =>
    have t := (C116_rgb_round_trip _ hW hL (by norm_num) c h).1
    refine fin t (by norm_num) ?_ ⟨_, _, _, rfl⟩
    show clamp01 (clamp01 c.alpha) = _
    rw [ac h.alpha, ac h.alpha]
  | xyz =>
    have t := C86_xyz_back c h
    have q := C31_xyz_round_trip (exact c) ⟨(unit_real h.c0).1, (unit_real h.c0).2, (unit_real h.c1).1,
      (unit_real h.c1).2, (unit_real h.c2).1, (unit_real h.c2).2, (unit_real h.alpha).1, (unit_real h.alpha).2⟩
    have t' : CloseCol (1 / 65536 + 2 / 1000000) (to_rgb .xyz (to_xyz .rgb c)) (exact c) :=
      ⟨close_clamp_exact t.c0 q.2.1, close_clamp_exact t.c1 q.2.2.1, close_clamp_exact t.c2 q.2.2.2.1,
        close_self h.alpha.1 (by norm_num)⟩
    exact fin t' (by norm_num) rfl ⟨_, _, _, rfl⟩
  | lab i o =>
    have t := C112_lab_round_trip hL i o c h
    exact fin t.1 (by norm_num) t.2.1 ⟨_, _, _, rfl⟩
  | lch i o =>
    have t := C113_lch_round_trip hL hS hT i o c h
    exact fin t.1 (by norm_num) t.2 ⟨_, _, _, rfl⟩

/-- C117: the same for any number of colour types one after the other: the errors add up. -/
theorem C117_chain (hW : PowWithin (1 / 4194304)) (hL : PowNear (1 / 4194304)) (hS : SqrtNear)
    (hT : TrigNear (1 / 4194304)) (l : List Space) (c : Col F32) (h : UnitCol c) :
    let d := l.foldl (fun d s => to_rgb s (convert .rgb s d)) c
    CloseCol (l.length * (65 / 1000000)) d (exact c) ∧ UnitCol d ∧ d.alpha = c.alpha := by
  induction l using List.reverseRecOn with
  | nil =>
    exact ⟨⟨close_self h.c0.1 (by simp), close_self h.c1.1 (by simp), close_self h.c2.1 (by simp),
      close_self h.alpha.1 (by simp)⟩, h, rfl⟩
  | append_singleton l s ih =>
    simp only [List.foldl_append, List.foldl_cons, List.foldl_nil, List.length_append, List.length_singleton]
    obtain ⟨i1, i2, i3⟩ := ih
    generalize l.foldl (fun d s => to_rgb s (convert .rgb s d)) c = d at *
    obtain ⟨j1, j2, j3⟩ := C117_round_trip hW hL hS hT s d i2
    have e : 65 / 1000000 + (l.length : ℝ) * (65 / 1000000) ≤ ((l.length + 1 : Nat) : ℝ) * (65 / 1000000) := by
      push_cast; linarith
    exact ⟨⟨(close_clamp_exact j1.c0 i1.c0.err).mono e, (close_clamp_exact j1.c1 i1.c1.err).mono e,
      (close_clamp_exact j1.c2 i1.c2.err).mono e, (close_clamp_exact j1.alpha i1.alpha.err).mono e⟩, j2, j3.trans i3⟩

omit [Junk] in
/-- A byte read as a sample. -/
theorem sample_near {v : Nat} (hv : v < 256) :
    ((from_u8 v : F32).fin = true ∧ 0 ≤ (from_u8 v : F32).val ∧ (from_u8 v : F32).val ≤ 1) ∧
    Close (from_u8 v : F32) ((v : ℝ) / 255) (1 / 10000000) := by
  have u := C48_decode v hv
  have h1 : ((v : Nat) : ℚ) ≤ 255 := by exact_mod_cast (by omega : v ≤ 255)
  have h2 : (0 : ℚ) ≤ (v : ℚ) / 255 := by positivity
  have h3 : (v : ℚ) / 255 ≤ 1 := by rw [div_le_one (by norm_num)]; exact h1
  have n := NearF.round (b := false) (q := (v : ℚ) / 255) (r := (v : ℝ) / 255) (e := 0) (B := 1) 0 (by norm_num)
    (by push_cast; simp) (by
      have : (v : ℝ) ≤ 255 := by exact_mod_cast h1
      rw [abs_of_nonneg (by positivity), div_le_one (by norm_num)]; exact this) (by norm_num)
  have e := n.close.err
  rw [ofRat_fin_val n.close.fin, ← u.2] at e
  refine ⟨⟨u.1, ?_, ?_⟩, u.1, e.trans (by norm_num)⟩
  · rw [u.2]; exact rn_nonneg h2
  · rw [u.2]
    refine rn_le_rep ?_ h3
    have := (FP.int_finite (f := b32) 1 (by norm_num [b32])).1
    simpa using this

/-- One channel: from a byte to a linear channel, which is then moved a little, and back to a byte. -/
theorem byte_back (hW : PowWithin (1 / 4194304)) {v : Nat} (hv : v < 256) {z : F32} {e : ℝ}
    (hz : z.fin = true ∧ 0 ≤ z.val ∧ z.val ≤ 1)
    (h : Close z ((clamp01 (gamma_to_linear (clamp01 (from_u8 v))) : F32).val : ℝ) e) (he : e ≤ 4 * (65 / 1000000)) :
    |(as_u8 (clamp01 (linear_to_gamma z)) : ℝ) - v| < 2 := by
  obtain ⟨hw, wn⟩ := sample_near hv
  have ew : clamp01 (from_u8 v : F32) = from_u8 v := clamp_self32 hw
  rw [ew] at h
  generalize (from_u8 v : F32) = w at *
  have v1 : (v : ℝ) / 255 ≤ 1 := by
    have : (v : ℝ) ≤ 255 := by exact_mod_cast (by omega : v ≤ 255)
    rw [div_le_one (by norm_num)]; exact this
  have v0 : 0 ≤ (v : ℝ) / 255 := by positivity
  obtain ⟨w0, w1⟩ := unit_real hw
  have g := close_clamp (C86_gamma_to_linear _ hW w hw)
  rw [Exact.clamp01_id (C30_range _ w0 w1).1 (C30_range _ w0 w1).2] at g
  have hx : (clamp01 (gamma_to_linear w) : F32).fin = true ∧ _ := clamp_chan (C86_gamma_to_linear _ hW w hw).fin
  generalize (clamp01 (gamma_to_linear w) : F32) = x at *
  have l := close_clamp (C86_linear_to_gamma _ hW (by norm_num) z hz)
  have n := l2g_near (a := (z.val : ℝ)) (b := gamma_to_linear (w.val : ℝ)) (unit_real hz).1 (C30_range _ w0 w1).1
  rw [C30_round_trip] at n
  have zx : |(z.val : ℝ) - gamma_to_linear (w.val : ℝ)| ≤ e + (1 / 4194304 + 8 / 10000000) :=
    (abs_sub_le _ (x.val : ℝ) _).trans (add_le_add h.err g.err)
  have n3 : |(linear_to_gamma (z.val : ℝ) : ℝ) - (v : ℝ) / 255| ≤ 0.0034 := by
    refine (abs_sub_le _ (w.val : ℝ) _).trans ((add_le_add n wn.err).trans ?_)
    norm_num at zx he ⊢
    linarith
  have c := close_clamp_exact l (clamp01_near v0 v1 n3)
  have q := C108_level c v0 v1
  have e2 : as_u8 ((v : ℝ) / 255) = v := by rw [← C48_decode_exact]; exact C48_round_trip_exact v hv
  rw [e2] at q
  refine q.trans_le ?_
  norm_num

/-- C117: a pixel read from bytes, converted to up to four colour types one after the other and back, is stored as
bytes that differ from those read by at most 1, and the byte of alpha is the same. -/
theorem C117_bytes (hW : PowWithin (1 / 4194304)) (hL : PowNear (1 / 4194304)) (hS : SqrtNear)
    (hT : TrigNear (1 / 4194304)) (l : List Space) (hl : l.length ≤ 4) (d : Nat → Nat) (hd : ∀ k, d k < 256) :
    let through := fun c : Col F32 => l.foldl (fun c s => to_rgb s (convert .rgb s c)) c
    OffBy 2 (sampleBytes (through (colourOf d .Rgba8)) .Rgba8) [d 0, d 1, d 2, d 3] ∧
    (sampleBytes (through (colourOf d .Rgba8)) .Rgba8)[3]? = some (d 3) ∧
    OffBy 2 (sampleBytes (through (colourOf d .Rgb8)) .Rgb8) [d 0, d 1, d 2] := by
  have le : (l.length : ℝ) * (65 / 1000000) ≤ 4 * (65 / 1000000) :=
    mul_le_mul_of_nonneg_right (by exact_mod_cast hl) (by norm_num)
  have ch : ∀ k, (clamp01 (gamma_to_linear (clamp01 (from_u8 (d k)))) : F32).fin = true ∧
      0 ≤ (clamp01 (gamma_to_linear (clamp01 (from_u8 (d k)))) : F32).val ∧
      (clamp01 (gamma_to_linear (clamp01 (from_u8 (d k)))) : F32).val ≤ 1 := fun k =>
    clamp_chan (C86_gamma_to_linear _ hW _ (clamp_chan (sample_near (hd k)).1.1)).fin
  have al : ∀ k, clamp01 (clamp01 (from_u8 (d k) : F32)) = from_u8 (d k) := fun k => by
    rw [clamp_self32 (sample_near (hd k)).1, clamp_self32 (sample_near (hd k)).1]
  have u4 : UnitCol (colourOf (F := F32) d .Rgba8) := by
    refine ⟨ch 0, ch 1, ch 2, ?_⟩
    show (clamp01 (clamp01 (from_u8 (d 3) : F32))).fin = true ∧ _
    rw [show (colourOf (F := F32) d .Rgba8).alpha = clamp01 (clamp01 (from_u8 (d 3))) from rfl, al 3]
    exact (sample_near (hd 3)).1
  have u3 : UnitCol (colourOf (F := F32) d .Rgb8) := ⟨ch 0, ch 1, ch 2, clamp_chan FP.lit1.1⟩
  obtain ⟨a1, a2, a3⟩ := C117_chain hW hL hS hT l _ u4
  obtain ⟨b1, b2, -⟩ := C117_chain hW hL hS hT l _ u3
  intro through
  have ea : as_u8 (clamp01 (through (colourOf d .Rgba8)).alpha) = d 3 := by
    have : (through (colourOf d .Rgba8)).alpha = from_u8 (d 3) := a3.trans (al 3)
    rw [this, clamp_self32 (sample_near (hd 3)).1]
    exact C48_round_trip _ (hd 3)
  refine ⟨.cons (byte_back hW (hd 0) a2.c0 a1.c0 le) (.cons (byte_back hW (hd 1) a2.c1 a1.c1 le)
      (.cons (byte_back hW (hd 2) a2.c2 a1.c2 le) (.cons ?_ .nil))), congrArg some ea,
    .cons (byte_back hW (hd 0) b2.c0 b1.c0 le) (.cons (byte_back hW (hd 1) b2.c1 b1.c1 le)
      (.cons (byte_back hW (hd 2) b2.c2 b1.c2 le) .nil))⟩
  show |((as_u8 (clamp01 (through (colourOf d .Rgba8)).alpha) : Nat) : ℝ) - d 3| < 2
  rw [ea]; simp

end

/-- Non-vacuity: with functions that meet the bounds, the theorems apply to a colour and to a pixel. -/
example [Junk] : letI := nearestLab
    UnitCol (to_rgb (.lch .D65 .O10) (convert .rgb (.lch .D65 .O10) labSample)) ∧
    (sampleBytes ([Space.hsv, .lab .D50 .O2, .yuv].foldl (fun (c : Col F32) s => to_rgb s (convert .rgb s c))
      (colourOf (fun k => [17, 200, 3, 255].getD k 0) .Rgba8)) .Rgba8)[3]? = some 255 := by
  let := nearestLab
  refine ⟨(C117_round_trip nearestLab_powWithin nearestLab_pow nearestLab_sqrt nearestLab_trig _ _ labSample_unit).2.1,
    (C117_bytes nearestLab_powWithin nearestLab_pow nearestLab_sqrt nearestLab_trig _ (by decide) _ ?_).2.1⟩
  intro k
  match k with
  | 0 | 1 | 2 | 3 => decide
  | _ + 4 => simp

end D10
