import Verif.Lemmas.Light
import Verif.Props.NumbersTune

/-!
# Temperatures of at least 2000 K in the program's arithmetic (C68, C126)
-/

namespace D10
open Scalar (lit)
open Spec

section
variable [Libm b32] [Libm b64]

omit [Libm b64] in
/-- A number of at least 2000 is a temperature of at least 2000 K. -/
theorem kelvin_ge {t : F32} (h : (lit 2000 <=. t) = true) : 2000 ≤ kelvin t ∧ kelvin t ≤ 12000 := by
  refine ⟨?_, by unfold kelvin; omega⟩
  have two : (FP.ofRat b32 false 2000).fin = true ∧ (FP.ofRat b32 false 2000).val = 2000 := by decide +kernel
  have h : (FP.ofRat b32 false 2000 <=. t) = true := h
  have big : (2000 : Int) ≤ Scalar.toInt 0 (2 ^ 64 - 1) t := by
    show 2000 ≤ FP.toInt 0 (2 ^ 64 - 1) t
    rcases FP.kinds t with rfl | ⟨s, rfl⟩ | hf
    · rw [FP.le_nan_right] at h; cases h
    · rw [FP.le_fin_inf two.1] at h
      cases s
      · show (2000 : Int) ≤ 2 ^ 64 - 1; norm_num
      · cases h
    · rw [FP.le_fin two.1 hf, two.2] at h
      have h := of_decide_eq_true h
      rw [FP.toInt_fin _ _ hf]
      have tr : 2000 ≤ FP.trunc t.val := by
        unfold FP.trunc
        rw [if_neg (by linarith), Int.le_floor]
        exact_mod_cast h
      omega
  unfold kelvin
  omega

/-- The three factors of a change between temperatures of at least 2000 K are finite. -/
theorem factors_fin {orig new : F32} (ho : (lit 2000 <=. orig) = true) (hn : (lit 2000 <=. new) = true) :
    let f : Col F32 := factors F64 orig new
    f.c0.fin = true ∧ f.c1.fin = true ∧ f.c2.fin = true := by
  obtain ⟨⟨a0, -⟩, ⟨a1, -⟩, ⟨a2, -⟩, -⟩ := light_channels _ (kelvin_ge ho).1 (kelvin_ge ho).2
  obtain ⟨⟨b0, p0⟩, ⟨b1, p1⟩, ⟨b2, p2⟩, -⟩ := light_channels _ (kelvin_ge hn).1 (kelvin_ge hn).2
  have go : ∀ {x y : F32}, Un x → Un y → 1 / 100 ≤ y.val → (FP.div x y).fin = true := by
    intro x y hx hy h
    have bx : Bd 0 x := ⟨hx.1, by rw [abs_of_nonneg hx.2.1]; simpa using hx.2.2⟩
    refine (bx.div (j := 7) (m := 7) hy.1 ?_ (by norm_num) (by norm_num)).fin
    rw [abs_of_nonneg hy.2.1]
    exact le_trans (by norm_num) h
  exact ⟨go a0 b0 p0, go a1 b1 p1, go a2 b2 p2⟩

/-- C68: in the program's own arithmetic a change between two temperatures of the same number of at least 2000
without tint correction leaves the picture as it is, bit for bit. -/
theorem C68_same_picture {b : PixelBuffer (Col F32)} {w h px} (sh : Shows b w h px)
    (hb : ∀ x y, x < w → y < h → UnitCol (px x y)) {t tint : F32} (ht : (lit 2000 <=. t) = true)
    (h0 : (tint <=. lit 0) = true) :
    ∃ b', change_color_temperature F64 b t t tint = .ok b' ∧ Shows b' w h px := by
  obtain ⟨b', e, sh'⟩ := C68_change (D := F64) sh t t tint
  refine ⟨b', e, sh'.congr fun x y hx hy => ?_⟩
  obtain ⟨⟨a0, p0⟩, ⟨a1, p1⟩, ⟨a2, p2⟩, -⟩ := light_channels _ (kelvin_ge ht).1 (kelvin_ge ht).2
  have u := hb x y hx hy
  have ne : ∀ {v : F32}, 1 / 100 ≤ v.val → v.val ≠ 0 := fun h e => by rw [e] at h; norm_num at h
  exact C68_same_f32 _ t tint ⟨⟨a0.1, ne p0⟩, ⟨a1.1, ne p1⟩, a2.1, ne p2⟩ h0 _ ⟨u.c0, u.c1, u.c2, u.alpha⟩

omit [Libm b64] in
/-- The pixels after a change with finite factors. -/
theorem tempered_unit (hp : PowGivesNumbers) (hk : PowKeeps F32) {f p c : Col F32}
    (hf : f.c0.fin = true ∧ f.c1.fin = true ∧ f.c2.fin = true) (hc : UnitCol c) : UnitCol (tempered f p c) := by
  have number : ∀ {y : F32}, (lit 0 <. y) = true → y ≠ .nan := fun h e => by
    subst e
    rw [LawfulScalar.lt_nan_right _ _ ((FP.isNan_iff _).2 rfl)] at h
    cases h
  have pw : ∀ {x y : F32}, Un x → Un (if (lit 0 <. y) = true then Scalar.powf x y else x) := by
    intro x y hx
    split
    · rename_i h; exact unit_pow hp hk hx h (number h)
    · exact hx
  have q := new_unit (mul_number hc.c0.1 hf.1) (mul_number (pw (y := p.c1) hc.c1).1 hf.2.1) (mul_number hc.c2.1 hf.2.2)
    (fin_number hc.alpha.1)
  exact ⟨pw q.c0, q.c1, pw q.c2, q.alpha⟩

/-- C126: a change between two temperatures of at least 2000 (also infinity), with any tint correction at all,
makes a picture of numbers out of a picture of numbers. -/
theorem C126_temperature (hp : PowGivesNumbers) (hk : PowKeeps F32) {b : PixelBuffer (Col F32)} {w h px}
    (sh : Shows b w h px) (hb : ∀ x y, x < w → y < h → UnitCol (px x y)) {orig new : F32}
    (ho : (lit 2000 <=. orig) = true) (hn : (lit 2000 <=. new) = true) (tint : F32) :
    ∃ b' px', change_color_temperature F64 b orig new tint = .ok b' ∧ Shows b' w h px' ∧
      ∀ x y, x < w → y < h → UnitCol (px' x y) := by
  obtain ⟨b', e, sh'⟩ := C68_change (D := F64) sh orig new tint
  exact ⟨b', _, e, sh', fun x y hx hy => tempered_unit hp hk (factors_fin ho hn) (hb x y hx hy)⟩

/-! ## The automatic change -/

omit [Libm b32] [Libm b64] in
/-- A 64-bit number between two whole 64-bit numbers is still between them after rounding. -/
theorem round64_into {s : Bool} {a b : ℤ} {q : ℚ} (ha : |a| ≤ 2 ^ 53) (hb : |b| ≤ 2 ^ 53) (h1 : (a : ℚ) ≤ q) (h2 : q ≤ b) :
    (FP.ofRat b64 s q).fin = true ∧ (a : ℚ) ≤ (FP.ofRat b64 s q).val ∧ (FP.ofRat b64 s q).val ≤ b := by
  have ra := FP.int_finite (f := b64) a (by simpa [b64] using ha)
  have rb := FP.int_finite (f := b64) b (by simpa [b64] using hb)
  have lo := rep_le_rn ra.1 h1
  have up := rn_le_rep rb.1 h2
  have v := FP.ofRat_val (f := b64) (s := s) (q := q) (by
    rw [abs_lt]
    exact ⟨by linarith [(abs_lt.1 ra.2).1], by linarith [(abs_lt.1 rb.2).2]⟩)
  exact ⟨v.1, by rw [v.2]; exact lo, by rw [v.2]; exact up⟩

omit [Libm b32] in
/-- A sum of 64-bit numbers between -1 and 1 stays within 2^53. -/
theorem wide_sum_signed (l : List F64) (hl : ∀ v ∈ l, v.fin = true ∧ |v.val| ≤ 1) :
    ∀ s : F64, s.fin = true → |s.val| ≤ 2 ^ 53 →
      (l.foldl Scalar.add s).fin = true ∧ |(l.foldl Scalar.add s).val| ≤ 2 ^ 53 := by
  induction l with
  | nil => intro s h1 h2; exact ⟨h1, h2⟩
  | cons v l ih =>
    intro s h1 h2
    obtain ⟨v1, v2⟩ := hl v (.head _)
    have s' := abs_le.1 h2
    have v' := abs_le.1 v2
    have b1 : rn b64 (2 ^ 53 + 1) = 2 ^ 53 := by decide +kernel
    have b2 : rn b64 (-(2 ^ 53 + 1)) = -2 ^ 53 := by decide +kernel
    have up := rn_mono (f := b64) (a := s.val + v.val) (b := 2 ^ 53 + 1) (by linarith)
    have lo := rn_mono (f := b64) (b := s.val + v.val) (a := -(2 ^ 53 + 1)) (by linarith)
    rw [b1] at up
    rw [b2] at lo
    have bd : |rn b64 (s.val + v.val)| ≤ 2 ^ 53 := abs_le.2 ⟨lo, up⟩
    have val := FP.ofRat_val (f := b64) (s := s.isNeg && v.isNeg) (q := s.val + v.val) (bd.trans_lt (by decide +kernel))
    rw [← FP.add_fin h1 v1] at val
    exact ih (fun w hw => hl w (.tail _ hw)) (FP.add s v) val.1 (by rw [val.2]; exact bd)

/-- The temperature the automatic change goes to is at least 2500 if the factor is between -1 and 1. -/
theorem auto_target (ht : TanhInUnit) {cs : List (Col F32)} (hc : ∀ c ∈ cs, UnitCol c) (h0 : 0 < cs.length)
    (h1 : cs.length ≤ 2 ^ 32) {factor : F32} (ff : factor.fin = true) (fb : |factor.val| ≤ 1) :
    let mean : F64 := addUp (cs.map fun c => Widen.up c.c0 -. Widen.up c.c2) /. lit (cs.length : ℚ)
    (lit 2000 <=. (Widen.down (lit 6500 -. Scalar.tanh mean *. (Widen.up factor *. lit 4000)) : F32)) = true := by
  intro mean
  -- the sum
  have z : (FP.ofRat b64 false 0).fin = true ∧ (FP.ofRat b64 false 0).val = 0 := by decide +kernel
  have sum : (addUp (cs.map fun c => (Widen.up c.c0 -. Widen.up c.c2 : F64)) : F64).fin = true ∧
      |(addUp (cs.map fun c => (Widen.up c.c0 -. Widen.up c.c2 : F64)) : F64).val| ≤ 2 ^ 53 := by
    refine wide_sum_signed _ (fun v hv => ?_) (FP.ofRat b64 false 0) z.1 (by rw [z.2]; norm_num)
    obtain ⟨c, hcm, rfl⟩ := List.mem_map.1 hv
    have u := hc c hcm
    have a := wide_val u.c0.1
    have b := wide_val u.c2.1
    show (FP.sub (FP.cast b64 c.c0) (FP.cast b64 c.c2)).fin = true ∧ |(FP.sub (FP.cast b64 c.c0) (FP.cast b64 c.c2)).val| ≤ 1
    rw [FP.sub_fin a.1 b.1, a.2, b.2]
    have t := round64_into (s := (FP.cast b64 c.c0).isNeg && (FP.cast b64 c.c2).neg.isNeg) (a := -1) (b := 1)
      (q := c.c0.val - c.c2.val) (by norm_num) (by norm_num) (by push_cast; linarith [u.c0.2.1, u.c2.2.2])
      (by push_cast; linarith [u.c0.2.2, u.c2.2.1])
    exact ⟨t.1, abs_le.2 ⟨by simpa using t.2.1, by simpa using t.2.2⟩⟩
  -- the mean
  have n := FP.int_finite (f := b64) (cs.length : Int) (by
    rw [abs_of_nonneg (by positivity)]; norm_num [b64]; omega)
  have nv := FP.ofRat_rep (f := b64) (s := false) n.1 n.2
  rw [Int.cast_natCast] at nv
  have np : 1 ≤ (FP.ofRat b64 false ((cs.length : Nat) : ℚ)).val := by rw [nv.2]; exact_mod_cast h0
  have mf : mean.fin = true := by
    show (FP.div (addUp (cs.map fun c => (Widen.up c.c0 -. Widen.up c.c2 : F64))) (FP.ofRat b64 false ((cs.length : Nat) : ℚ))).fin = true
    generalize addUp (cs.map fun c => (Widen.up c.c0 -. Widen.up c.c2 : F64)) = s at *
    generalize FP.ofRat b64 false ((cs.length : Nat) : ℚ) = m at *
    rw [FP.div_fin sum.1 nv.1 (by linarith)]
    have q : |s.val / m.val| ≤ 2 ^ 53 := by
      rw [abs_div, abs_of_pos (show 0 < m.val by linarith)]
      exact (div_le_self (abs_nonneg _) np).trans sum.2
    exact (round64_into (a := -2 ^ 53) (b := 2 ^ 53) (by norm_num) (by norm_num) (by push_cast; exact (abs_le.1 q).1)
      (by push_cast; exact (abs_le.1 q).2)).1
  obtain ⟨t1, t2⟩ := ht mean mf
  generalize Scalar.tanh mean = t at *
  have f4 : (FP.ofRat b64 false 4000).fin = true ∧ (FP.ofRat b64 false 4000).val = 4000 := by decide +kernel
  have f6 : (FP.ofRat b64 false 6500).fin = true ∧ (FP.ofRat b64 false 6500).val = 6500 := by decide +kernel
  have wf := wide_val ff
  have fb' := abs_le.1 fb
  have p1 : (FP.mul (FP.cast b64 factor) (FP.ofRat b64 false 4000)).fin = true ∧
      |(FP.mul (FP.cast b64 factor) (FP.ofRat b64 false 4000)).val| ≤ 4000 := by
    rw [FP.mul_fin wf.1 f4.1, wf.2, f4.2]
    have t := round64_into (s := (FP.cast b64 factor).isNeg ^^ (FP.ofRat b64 false 4000).isNeg) (a := -4000) (b := 4000)
      (q := factor.val * 4000) (by norm_num) (by norm_num) (by push_cast; linarith) (by push_cast; linarith)
    exact ⟨t.1, abs_le.2 ⟨by simpa using t.2.1, by simpa using t.2.2⟩⟩
  have p2 : (FP.mul t (FP.mul (FP.cast b64 factor) (FP.ofRat b64 false 4000))).fin = true ∧
      (FP.mul t (FP.mul (FP.cast b64 factor) (FP.ofRat b64 false 4000))).val ≤ 4000 ∧
      -4000 ≤ (FP.mul t (FP.mul (FP.cast b64 factor) (FP.ofRat b64 false 4000))).val := by
    rw [FP.mul_fin t1 p1.1]
    have q : |t.val * (FP.mul (FP.cast b64 factor) (FP.ofRat b64 false 4000)).val| ≤ 4000 := by
      rw [abs_mul]
      exact (mul_le_mul t2 p1.2 (abs_nonneg _) (by norm_num)).trans (by norm_num)
    have t := round64_into (s := t.isNeg ^^ (FP.mul (FP.cast b64 factor) (FP.ofRat b64 false 4000)).isNeg) (a := -4000)
      (b := 4000) (q := t.val * (FP.mul (FP.cast b64 factor) (FP.ofRat b64 false 4000)).val) (by norm_num) (by norm_num)
      (by push_cast; exact (abs_le.1 q).1) (by push_cast; exact (abs_le.1 q).2)
    exact ⟨t.1, by simpa using t.2.2, by simpa using t.2.1⟩
  show (FP.ofRat b32 false 2000 <=. FP.cast b32 (FP.sub (FP.ofRat b64 false 6500)
    (FP.mul t (FP.mul (FP.cast b64 factor) (FP.ofRat b64 false 4000))))) = true
  generalize FP.mul t (FP.mul (FP.cast b64 factor) (FP.ofRat b64 false 4000)) = y at *
  have d : (FP.sub (FP.ofRat b64 false 6500) y).fin = true ∧ 2500 ≤ (FP.sub (FP.ofRat b64 false 6500) y).val := by
    rw [FP.sub_fin f6.1 p2.1, f6.2]
    have t := round64_into (s := (FP.ofRat b64 false 6500).isNeg && y.neg.isNeg) (a := 2500) (b := 10500)
      (q := 6500 - y.val) (by norm_num) (by norm_num) (by push_cast; linarith) (by push_cast; linarith)
    exact ⟨t.1, by simpa using t.2.1⟩
  generalize FP.sub (FP.ofRat b64 false 6500) y = x at *
  have go : ∀ s : Bool, (FP.ofRat b32 false 2000 <=. FP.ofRat b32 s x.val) = true := fun s => FP.ofRat_le (by linarith)
  cases x with
  | nan => cases d.1
  | inf _ => cases d.1
  | zero s => exact go s
  | num p hp => exact go _

/-- C126: the automatic change of the temperature with a factor between -1 and 1, and any tint correction at all,
makes a picture of numbers out of a picture of numbers. -/
theorem C126_auto_temperature (hp : PowGivesNumbers) (hk : PowKeeps F32) (ht : TanhInUnit) {b : PixelBuffer (Col F32)} {w h px}
    (sh : Shows b w h px) (hb : ∀ x y, x < w → y < h → UnitCol (px x y)) {factor : F32} (ff : factor.fin = true)
    (fb : |factor.val| ≤ 1) (tint : F32) :
    ∃ b' px', optimize_color_temperature F64 b factor tint = .ok b' ∧ Shows b' w h px' ∧
      ∀ x y, x < w → y < h → UnitCol (px' x y) := by
  obtain ⟨b', e, sh'⟩ := C68_optimize (D := F64) sh factor tint
  refine ⟨b', _, e, sh', fun x y hx hy => ?_⟩
  have six : (lit 2000 <=. (lit 6500 : F32)) = true := LawfulScalar.lit_mono _ _ (by norm_num)
  refine tempered_unit hp hk (factors_fin six ?_) (hb x y hx hy)
  have len : (rows w h px).length = w * h := rows_length w h px
  have pos : 0 < w * h := Nat.mul_pos (by omega) (by omega)
  have big : w * h ≤ 2 ^ 32 := by
    rcases sh.size with s | s
    · rw [s.1, Nat.zero_mul]; norm_num
    · exact s.2.2.trans (by norm_num)
  have t := auto_target ht (cs := rows w h px) (fun c hc => by
    obtain ⟨x, y, hx, hy, rfl⟩ := mem_rows.1 hc
    exact hb x y hx hy) (by rw [len]; exact pos) (by rw [len]; exact big) ff fb
  rw [len, rows_map] at t
  exact t

/-- C126: the images of a program working with numbers stay so when their colour temperature is changed. -/
theorem C126_temperature_images [FloatBytes F32] (hp : PowGivesNumbers) (hk : PowKeeps F32) (hth : TanhInUnit)
    (hq : SqrtGivesNumbers) (he : ExpInUnit) (hm : SqrtMild) (ht : SinCosInUnit) {libs : Libs F32} (hh : Honest libs)
    (hl : LibsGiveNumbers libs) {img : Image F32} (h : Tame libs img) (tint : F32) :
    (∀ orig new : F32, (lit 2000 <=. orig) = true → (lit 2000 <=. new) = true →
      ∃ img', img.change_color_temperature F64 orig new tint = .ok img' ∧ Tame libs img') ∧
    ∀ factor : F32, factor.fin = true → |factor.val| ≤ 1 →
      ∃ img', img.optimize_color_temperature F64 factor tint = .ok img' ∧ Tame libs img' := by
  let _ : Widen F32 F32 := ⟨id, id⟩
  obtain ⟨made, nu⟩ := tame_keeps (D := F32) hp hq he hm ht hh hl h
  obtain ⟨px, sh⟩ := wf_shows Rgb.NONE (C65_wellFormed hh made)
  have u : ∀ x y, x < img.buffer.width → y < img.buffer.height → UnitCol (px x y) := fun x y hx hy => nu.1 _ (by
    show px x y ∈ img.buffer.data
    rw [sh.pixels]; exact pixel_mem_rows px hx hy)
  have fin : ∀ {b' : PixelBuffer (Col F32)} {w h px'}, Shows b' w h px' → (∀ x y, x < w → y < h → UnitCol (px' x y)) →
      Tame libs (Image.new_from_buffer_with_meta img b') := fun {b'} {w'} {h'} {px'} sh' u' =>
    .new_from_buffer_with_meta _ _ h sh'.wellFormed fun c hc => by
      rw [sh'.pixels] at hc
      obtain ⟨x, y, hx, hy, rfl⟩ := mem_rows.1 hc
      exact u' x y hx hy
  refine ⟨fun orig new ho hn => ?_, fun factor ff fb => ?_⟩
  · obtain ⟨b', px', e, sh', u'⟩ := C126_temperature hp hk sh u ho hn tint
    exact ⟨_, by show (do return Image.new_from_buffer_with_meta img (← D10.change_color_temperature F64 img.buffer orig new tint)) = _
                 rw [e]; rfl, fin sh' u'⟩
  · obtain ⟨b', px', e, sh', u'⟩ := C126_auto_temperature hp hk hth sh u ff fb tint
    exact ⟨_, by show (do return Image.new_from_buffer_with_meta img (← D10.optimize_color_temperature F64 img.buffer factor tint)) = _
                 rw [e]; rfl, fin sh' u'⟩

end

/-! ## Examples -/

theorem tuneLib_keeps : letI := tuneLib; PowGivesNumbers ∧ PowKeeps F32 := ⟨tuneLib_pow.1, tuneLib_pow.2.1⟩

/-- A 64-bit library whose `tanh` is 0. -/
@[reducible] def flatTanh : Libm b64 := { Libm.trivial b64 with tanh := fun _ => .ofRat b64 false 0 }

/-- Non-vacuity: on such a platform both changes apply to a grey pixel. -/
example : letI := tuneLib; letI := flatTanh
    (∃ b', change_color_temperature F64 greyDot (lit 2000 : F32) (lit 5000) (lit 1) = .ok b') ∧
    ∃ b', optimize_color_temperature F64 greyDot (lit (-1) : F32) .nan = .ok b' := by
  let _ := tuneLib
  let _ := flatTanh
  have sh : Shows greyDot 1 1 fun _ _ => (⟨lit 0.5, lit 0.5, lit 0.5, lit 1⟩ : Col F32) :=
    ⟨rfl, rfl, greyDot_unit.1.1, rfl⟩
  have u : ∀ x y, x < 1 → y < 1 → UnitCol (⟨lit 0.5, lit 0.5, lit 0.5, lit 1⟩ : Col F32) := fun _ _ _ _ =>
    greyDot_unit.2 _ (.head _)
  have th : TanhInUnit := fun x _ => by
    show (FP.ofRat b64 false 0).fin = true ∧ |(FP.ofRat b64 false 0).val| ≤ 1
    decide +kernel
  have m : (lit (-1) : F32).fin = true ∧ |(lit (-1) : F32).val| ≤ 1 := by
    show (FP.ofRat b32 false (-1)).fin = true ∧ |(FP.ofRat b32 false (-1)).val| ≤ 1
    decide +kernel
  have c := C126_temperature tuneLib_keeps.1 tuneLib_keeps.2 sh u (orig := lit 2000) (new := lit 5000)
    (LawfulScalar.lit_mono _ _ le_rfl) (LawfulScalar.lit_mono _ _ (by norm_num)) (lit 1)
  have d := C126_auto_temperature tuneLib_keeps.1 tuneLib_keeps.2 th sh u m.1 m.2 .nan
  exact ⟨⟨c.choose, c.choose_spec.choose_spec.1⟩, ⟨d.choose, d.choose_spec.choose_spec.1⟩⟩

end D10
