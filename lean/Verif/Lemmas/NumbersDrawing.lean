import Verif.Lemmas.NumbersBlur
import Verif.Lemmas.Histogram

/-!
# Numbers in the drawing effect

The colours of the third mode can lose their hue on the way ("not a number"), which then shows in the
green channel only; the last step, which changes the saturation, replaces it by a number.
-/

namespace D10
open Scalar (lit)
open Spec

section
variable [Libm b32]

/-- "Not a number", or a number that is not negative and not too large. -/
def Nn (v : F32) : Prop := v = .nan ∨ Pd 60 v

omit [Libm b32] in
theorem zero_of_val {x : F32} (h : x.fin = true) (h0 : x.val = 0) : ∃ s, x = .zero s := by
  cases x with
  | nan => cases h
  | inf _ => cases h
  | zero s => exact ⟨s, rfl⟩
  | num q hq => exact absurd h0 hq.1

omit [Libm b32] in
theorem sub_nan (x : F32) : FP.sub x .nan = .nan := by cases x <;> rfl

omit [Libm b32] in
theorem add_nan (x : F32) : FP.add x .nan = .nan := by cases x <;> rfl

theorem nan_lt (x : F32) : ((.nan : F32) <. x) = false := by cases x <;> rfl

theorem lt_nan (x : F32) : (x <. (.nan : F32)) = false := by cases x <;> rfl

theorem le_nan (x : F32) : (x <=. (.nan : F32)) = false := by rw [FP.le_def]; cases x <;> rfl

/-! ## HSV -/

omit [Libm b32] in
theorem Un.pd {v : F32} (h : Un v) : Pd 60 v := ⟨(Bd.unit h).mono (by norm_num), h.2.1⟩

theorem max_step {a x : F32} (ha : Pd 60 a) (hx : Nn x) :
    Pd 60 (Scalar.max a x) ∧ a.val ≤ (Scalar.max a x).val ∧ (x ≠ .nan → x.val ≤ (Scalar.max a x).val) := by
  rcases hx with rfl | hx
  · have e : Scalar.max a (.nan : F32) = a := by
      unfold Scalar.max
      rw [NearF.not_nan ha.1.fin]; rfl
    rw [e]
    exact ⟨ha, le_rfl, fun h => absurd rfl h⟩
  · obtain ⟨f, e⟩ := NearF.max_fin ha.1.fin hx.1.fin
    refine ⟨⟨⟨f, ?_⟩, ?_⟩, by rw [e]; exact le_max_left _ _, fun _ => by rw [e]; exact le_max_right _ _⟩
    · rw [e]; rcases max_choice a.val x.val with h | h <;> rw [h]
      · exact ha.1.le
      · exact hx.1.le
    · rw [e]; exact ha.2.trans (le_max_left _ _)

theorem min_step {a x : F32} (ha : Un a) (hx : Nn x) :
    Un (Scalar.min a x) ∧ (Scalar.min a x).val ≤ a.val ∧ (x ≠ .nan → (Scalar.min a x).val ≤ x.val) := by
  rcases hx with rfl | hx
  · have e : Scalar.min a (.nan : F32) = a := by
      unfold Scalar.min
      rw [NearF.not_nan ha.1]; rfl
    rw [e]
    exact ⟨ha, le_rfl, fun h => absurd rfl h⟩
  · obtain ⟨f, e⟩ := NearF.min_fin ha.1 hx.1.fin
    refine ⟨⟨f, ?_, ?_⟩, by rw [e]; exact min_le_left _ _, fun _ => by rw [e]; exact min_le_right _ _⟩
    · rw [e]; exact le_min ha.2.1 hx.2
    · rw [e]; exact (min_le_left _ _).trans ha.2.2

/-- The largest and the smallest channel; what is not a number is passed over. -/
theorem extremes {c : Col F32} (h0 : Nn c.c0) (h1 : Nn c.c1) (h2 : Nn c.c2) :
    Pd 60 (Rgb.max c) ∧ Un (Rgb.min c) ∧
    (∀ x, x = c.c0 ∨ x = c.c1 ∨ x = c.c2 → x ≠ .nan → (Rgb.min c).val ≤ x.val ∧ x.val ≤ (Rgb.max c).val) ∧
    ((Rgb.max c).val = 0 ∨ (Rgb.min c).val ≤ (Rgb.max c).val) := by
  have z : Pd 60 (lit 0 : F32) := zero60
  have zv : (lit 0 : F32).val = 0 := FP.lit0.2
  obtain ⟨a1, b1, d1⟩ := max_step z h0
  obtain ⟨a2, b2, d2⟩ := max_step a1 h1
  obtain ⟨a3, b3, d3⟩ := max_step a2 h2
  obtain ⟨p1, q1, r1⟩ := min_step (a := (lit 1 : F32)) lit1_unit h0
  obtain ⟨p2, q2, r2⟩ := min_step p1 h1
  obtain ⟨p3, q3, r3⟩ := min_step p2 h2
  have key : ∀ x, x = c.c0 ∨ x = c.c1 ∨ x = c.c2 → x ≠ .nan → (Rgb.min c).val ≤ x.val ∧ x.val ≤ (Rgb.max c).val := by
    rintro x (rfl | rfl | rfl) hx
    · exact ⟨q3.trans (q2.trans (r1 hx)), (d1 hx).trans (b2.trans b3)⟩
    · exact ⟨q3.trans (r2 hx), (d2 hx).trans b3⟩
    · exact ⟨r3 hx, d3 hx⟩
  refine ⟨a3, p3, key, ?_⟩
  by_cases n0 : c.c0 = .nan
  · by_cases n1 : c.c1 = .nan
    · by_cases n2 : c.c2 = .nan
      · refine .inl ?_
        show (Scalar.max (Scalar.max (Scalar.max (lit 0) c.c0) c.c1) c.c2).val = 0
        have e : ∀ {a : F32}, a.fin = true → Scalar.max a (.nan : F32) = a := fun h => by
          unfold Scalar.max
          rw [NearF.not_nan h]; rfl
        rw [n0, n1, n2, e z.1.fin, e z.1.fin, e z.1.fin]
        exact zv
      · exact .inr ((key _ (.inr (.inr rfl)) n2).1.trans (key _ (.inr (.inr rfl)) n2).2)
    · exact .inr ((key _ (.inr (.inl rfl)) n1).1.trans (key _ (.inr (.inl rfl)) n1).2)
  · exact .inr ((key _ (.inl rfl) n0).1.trans (key _ (.inl rfl) n0).2)

omit [Libm b32] in
/-- A difference of two channels, divided by the difference of the largest and the smallest one. -/
theorem share_number {x y M m : F32} (hx : Nn x) (hy : Nn y) (hM : Pd 60 M) (hm : Un m)
    (kx : x ≠ .nan → m.val ≤ x.val ∧ x.val ≤ M.val) (ky : y ≠ .nan → m.val ≤ y.val ∧ y.val ≤ M.val) :
    FP.div (FP.sub x y) (FP.sub M m) = .nan ∨ Bd 0 (FP.div (FP.sub x y) (FP.sub M m)) := by
  rcases hx with rfl | hx
  · exact .inl (by rw [show FP.sub (.nan : F32) y = .nan by cases y <;> rfl]; cases FP.sub M m <;> rfl)
  rcases hy with rfl | hy
  · exact .inl (by rw [show FP.sub x (.nan : F32) = .nan by cases x <;> rfl]; cases FP.sub M m <;> rfl)
  have big : ∀ {u v : F32}, Pd 60 u → Pd 60 v → |u.val - v.val| ≤ 2 ^ 61 := by
    intro u v hu hv
    have a := abs_le.1 hu.1.le
    have b := abs_le.1 hv.1.le
    have e : (2 : ℚ) ^ 61 = 2 ^ 60 + 2 ^ 60 := by norm_num
    rw [abs_le, e]
    constructor <;> linarith
  have vn : (FP.sub x y).fin = true ∧ (FP.sub x y).val = rn b32 (x.val - y.val) := by
    rw [FP.sub_fin hx.1.fin hy.1.fin]; exact round_val (by norm_num) (big hx hy)
  have vd : (FP.sub M m).fin = true ∧ (FP.sub M m).val = rn b32 (M.val - m.val) := by
    rw [FP.sub_fin hM.1.fin hm.1]; exact round_val (by norm_num) (big hM hm.pd)
  have kx := kx hx.1.number
  have ky := ky hy.1.number
  have up : rn b32 (x.val - y.val) ≤ rn b32 (M.val - m.val) := rn_mono (by linarith)
  have lo : -rn b32 (M.val - m.val) ≤ rn b32 (x.val - y.val) := by
    rw [← rn_neg]; exact rn_mono (by linarith)
  have d0 : 0 ≤ rn b32 (M.val - m.val) := rn_nonneg (by linarith)
  rcases d0.eq_or_lt with h | h
  · refine .inl ?_
    have n0 : (FP.sub x y).val = 0 := by rw [vn.2]; linarith
    have d0 : (FP.sub M m).val = 0 := by rw [vd.2, ← h]
    obtain ⟨s, e⟩ := zero_of_val vn.1 n0
    obtain ⟨t, e'⟩ := zero_of_val vd.1 d0
    rw [e, e']; rfl
  · refine .inr ?_
    rw [FP.div_fin vn.1 vd.1 (by rw [vd.2]; exact h.ne'), vn.2, vd.2]
    refine Bd.ofRat (by norm_num) ?_
    rw [abs_div, abs_of_pos h, div_le_iff₀ h, pow_zero, one_mul]
    exact abs_le.2 ⟨lo, up⟩

/-- Hue, saturation and value of a colour some of whose channels may not be numbers. -/
theorem hsv_number {c : Col F32} (h0 : Nn c.c0) (h1 : Nn c.c1) (h2 : Nn c.c2) :
    ((Rgb.to_hsv c).c0 = .nan ∨ Bd 20 (Rgb.to_hsv c).c0) ∧ Un (Rgb.to_hsv c).c1 ∧ Pd 60 (Rgb.to_hsv c).c2 ∧
    (Rgb.to_hsv c).alpha = c.alpha ∧ (Rgb.to_hsv c).c2 = Rgb.max c ∧
    ((Rgb.to_hsv c).c0 = .nan → c.c0 ≠ .nan → c.c1 ≠ .nan → c.c2 ≠ .nan → (Rgb.to_hsv c).c1.val = 0) := by
  obtain ⟨hM, hm, key, ord⟩ := extremes h0 h1 h2
  have fin360 : (FP.ofRat b32 false 360).fin = true ∧ 1 / 2 ^ 0 ≤ |(FP.ofRat b32 false 360).val| := by decide +kernel
  have zeroHue : Bd 20 (lit 0 /. lit 360 : F32) := ⟨by
    show (FP.div (FP.ofRat b32 false 0) (FP.ofRat b32 false 360)).fin = true; decide +kernel, by
    show |(FP.div (FP.ofRat b32 false 0) (FP.ofRat b32 false 360)).val| ≤ _; decide +kernel⟩
  unfold Rgb.to_hsv
  simp only
  generalize Rgb.max c = M at *
  generalize Rgb.min c = m at *
  split
  · rename_i hc
    have big : |M.val - m.val| ≤ 2 ^ 61 := by
      have a := abs_le.1 hM.1.le
      have e : (2 : ℚ) ^ 61 = 2 ^ 60 + 2 ^ 60 := by norm_num
      rw [abs_le, e]
      constructor <;> linarith [hm.2.1, hm.2.2, show (1 : ℚ) ≤ 2 ^ 60 by norm_num]
    have vd : (FP.sub M m).fin = true ∧ (FP.sub M m).val = rn b32 (M.val - m.val) := by
      rw [FP.sub_fin hM.1.fin hm.1]; exact round_val (by norm_num) big
    have dM : (FP.sub M m).val ≤ M.val := by
      rw [vd.2]
      conv_rhs => rw [← rn_rep (FP.fin_rep hM.1.fin).1]
      exact rn_mono (by linarith [hm.2.1])
    have low : 1 / 32768 ≤ M.val := by
      rw [Bool.or_eq_true] at hc
      have ep : (EPSILON : F32).fin = true ∧ (EPSILON : F32).val = 1 / 32768 := epsilon_val
      rcases hc with hc | hc
      · have := FP.le_fin ep.1 vd.1
        rw [show Scalar.le (EPSILON : F32) (FP.sub M m) = true from hc] at this
        have := of_decide_eq_true this.symm
        rw [ep.2] at this
        exact this.trans dM
      · have := FP.le_fin ep.1 hM.1.fin
        rw [show Scalar.le (EPSILON : F32) M = true from hc] at this
        have := of_decide_eq_true this.symm
        rwa [ep.2] at this
    have pos : 0 < M.val := lt_of_lt_of_le (by norm_num) low
    have le : m.val ≤ M.val := by
      rcases ord with h | h
      · exact absurd h pos.ne'
      · exact h
    have d0 : 0 ≤ (FP.sub M m).val := by rw [vd.2]; exact rn_nonneg (by linarith)
    have sat : Un (FP.div (FP.sub M m) M) ∧ ((FP.sub M m).val = 0 → (FP.div (FP.sub M m) M).val = 0) := by
      have q0 : 0 ≤ (FP.sub M m).val / M.val := div_nonneg d0 pos.le
      have q1 : (FP.sub M m).val / M.val ≤ 1 := div_le_one_of_le₀ dM pos.le
      have v : (FP.div (FP.sub M m) M).fin = true ∧ (FP.div (FP.sub M m) M).val = rn b32 ((FP.sub M m).val / M.val) := by
        rw [FP.div_fin vd.1 hM.1.fin pos.ne']
        exact round_val (k := 0) (by norm_num) (by rw [abs_of_nonneg q0]; simpa using q1)
      refine ⟨⟨v.1, by rw [v.2]; exact rn_nonneg q0, ?_⟩, fun h => by rw [v.2, h, zero_div, rn_zero]⟩
      rw [v.2, show (1 : ℚ) = rn b32 1 by decide +kernel]
      exact rn_mono q1
    have fin : ∀ {h : F32}, (h = .nan ∨ Bd 3 h) →
        ((if h *. lit 60 <. lit 0 then h *. lit 60 +. lit 360 else h *. lit 60) /. lit 360 = (.nan : F32) ∧ h = .nan) ∨
        Bd 20 ((if h *. lit 60 <. lit 0 then h *. lit 60 +. lit 360 else h *. lit 60) /. lit 360) := by
      intro h hh
      rcases hh with rfl | hh
      · refine .inl ⟨?_, rfl⟩
        have e : (FP.nan : F32) *. lit 60 = .nan := rfl
        rw [e, show ((FP.nan : F32) <. lit 0) = false from rfl]
        rfl
      · have hm : Bd 9 (FP.mul h (FP.ofRat b32 false 60)) :=
          hh.mul (Bd.ofRat (k := 6) (by norm_num) (by norm_num [abs_le])) (by norm_num) (by norm_num)
        refine .inr ?_
        have body : Bd 20 (if h *. lit 60 <. lit 0 then h *. lit 60 +. lit 360 else h *. lit 60) := by
          split
          · exact (hm.add (Bd.ofRat (k := 9) (by norm_num) (by norm_num [abs_le])) (m := 20) (by norm_num) (by norm_num)
              (by norm_num))
          · exact hm.mono (by norm_num)
        exact body.div (j := 0) fin360.1 fin360.2 (by norm_num) (by norm_num)
    have two : Bd 1 (FP.ofRat b32 false 2) := Bd.ofRat (by norm_num) (by norm_num)
    have four : Bd 2 (FP.ofRat b32 false 4) := Bd.ofRat (by norm_num) (by norm_num)
    have s12 := share_number h1 h2 hM hm (key _ (.inr (.inl rfl))) (key _ (.inr (.inr rfl)))
    have s20 := share_number h2 h0 hM hm (key _ (.inr (.inr rfl))) (key _ (.inl rfl))
    have s01 := share_number h0 h1 hM hm (key _ (.inl rfl)) (key _ (.inr (.inl rfl)))
    have addn : ∀ {k : F32} {x : F32}, k.fin = true → FP.add k x = .nan → x = .nan ∨ ¬ Bd 0 x := by
      intro k x hk e
      by_contra hc
      push Not at hc
      have := (FP.add_fin hk hc.2.fin).symm
      rw [e] at this
      exact FP.ofRat_not_nan this
    have hue : ∀ {h : F32}, h = (if M <=. c.c0 then (c.c1 -. c.c2) /. (M -. m) else if M <=. c.c1 then
          lit 2 +. (c.c2 -. c.c0) /. (M -. m) else lit 4 +. (c.c0 -. c.c1) /. (M -. m)) →
        (h = .nan ∨ Bd 3 h) ∧
          (h = .nan → c.c0 ≠ .nan → c.c1 ≠ .nan → c.c2 ≠ .nan → (FP.sub M m).val = 0) := by
      intro h hh
      have zero : ∀ {x y : F32}, Nn x → Nn y → FP.div (FP.sub x y) (FP.sub M m) = .nan → x ≠ .nan → y ≠ .nan →
          (FP.sub M m).val = 0 := by
        intro x y hx hy e nx ny
        by_contra hz
        rcases hx with h | hx
        · exact nx h
        rcases hy with h | hy
        · exact ny h
        exact div_number (sub_number hx.1.fin hy.1.fin) vd.1 hz e
      split at hh
      · subst hh
        exact ⟨s12.imp id fun h => h.mono (by norm_num), fun e n0 n1 n2 => zero h1 h2 e n1 n2⟩
      · split at hh
        · subst hh
          refine ⟨?_, fun e n0 n1 n2 => ?_⟩
          · rcases s20 with e | b
            · exact .inl (by exact (congrArg (FP.add _) e).trans (add_nan _))
            · exact .inr (two.add b (m := 3) (by norm_num) (by norm_num) (by norm_num))
          · rcases s20 with e' | b
            · exact zero h2 h0 e' n2 n0
            · exact absurd e (two.add b (m := 3) (by norm_num) (by norm_num) (by norm_num)).number
        · subst hh
          refine ⟨?_, fun e n0 n1 n2 => ?_⟩
          · rcases s01 with e | b
            · exact .inl (by exact (congrArg (FP.add _) e).trans (add_nan _))
            · exact .inr (four.add b (m := 3) (by norm_num) (by norm_num) (by norm_num))
          · rcases s01 with e' | b
            · exact zero h0 h1 e' n0 n1
            · exact absurd e (four.add b (m := 3) (by norm_num) (by norm_num) (by norm_num)).number
    obtain ⟨u, w⟩ := hue rfl
    refine ⟨(fin u).imp And.left id, sat.1, hM, rfl, rfl, fun e n0 n1 n2 => sat.2 (w ?_ n0 n1 n2)⟩
    rcases fin u with h | h
    · exact h.2
    · exact absurd e h.number
  · exact ⟨.inr zeroHue, lit0_unit, hM, rfl, rfl, fun e => absurd e zeroHue.number⟩

/-- From HSV to RGB. A hue that is not a number shows in the second channel only, and not at all if the
saturation is zero. -/
theorem hsv_rgb {P : F32 → Prop} (hP : ∀ x : F32, Un x → P x) {h s v a : F32} (hh : h = .nan ∨ Bd 20 h) (hs : Un s)
    (hv : Bd 60 v) (pv : P v) (ha : Un a) :
    Four P (fun x => x = .nan ∨ P x) P Un (Hsv.to_rgb ⟨h, s, v, a⟩) ∧
    ((h = .nan → s.val = 0) → P (Hsv.to_rgb ⟨h, s, v, a⟩).c1) := by
  unfold Hsv.to_rgb
  simp only
  split
  · exact ⟨⟨pv, .inr pv, pv, ha⟩, fun _ => pv⟩
  · rename_i hs0
    have snz : s.val ≠ 0 := by
      intro e
      refine hs0 ?_
      show (s <=. (FP.ofRat b32 false 0 : F32)) = true
      rw [FP.le_fin hs.1 FP.lit0.1, e, FP.lit0.2]
      rfl
    have one : Bd 0 (FP.ofRat b32 false 1) := Bd.ofRat (by norm_num) (by norm_num)
    have bp : FP.mul v (FP.sub (FP.ofRat b32 false 1) s) ≠ .nan :=
      mul_number hv.fin (one.sub (Bd.unit hs) (m := 1) (by norm_num) (by norm_num) (by norm_num)).fin
    have cl : ∀ {x : F32}, x ≠ .nan → P (clamp01 x) := fun h => hP _ (clamp_number h)
    have ca : Un (clamp01 a) := clamp_number (fin_number ha.1)
    have cv := cl hv.number
    have cp := cl bp
    rcases hh with rfl | hh
    · have i0 : Scalar.asU32 ((if lit 360 <=. (FP.nan : F32) *. lit 360 then lit 0 else (FP.nan : F32) *. lit 360) /. lit 60) = 0 := by
        rw [show (FP.nan : F32) *. lit 360 = .nan from rfl, le_nan]
        rfl
      rw [i0]
      exact ⟨⟨cv, (clamp_un _).imp id (hP _), cp, ca⟩, fun hz => absurd (hz rfl) snz⟩
    · have fin60 : (FP.ofRat b32 false 60).fin = true ∧ 1 / 2 ^ 0 ≤ |(FP.ofRat b32 false 60).val| := by decide +kernel
      have b360 : Bd 29 (FP.mul h (FP.ofRat b32 false 360)) :=
        hh.mul (Bd.ofRat (k := 9) (by norm_num) (by norm_num [abs_le])) (by norm_num) (by norm_num)
      have sel : Bd 29 (if lit 360 <=. h *. lit 360 then lit 0 else h *. lit 360) := by
        split
        · exact Bd.ofRat (by norm_num) (by norm_num)
        · exact b360
      have hd : Bd 29 ((if lit 360 <=. h *. lit 360 then lit 0 else h *. lit 360) /. lit 60) :=
        sel.div (j := 0) fin60.1 fin60.2 (by norm_num) (by norm_num)
      generalize (if lit 360 <=. h *. lit 360 then lit 0 else h *. lit 360) /. lit 60 = hh' at hd
      have bi : Bd 32 (FP.ofRat b32 false ((Scalar.asU32 hh' : Nat) : ℚ)) := by
        have := LawfulCast.toInt_range 0 4294967295 hh' (by norm_num) (by norm_num)
        refine nat_bd' (by norm_num) ?_
        unfold Scalar.asU32
        omega
      have ff : Bd 34 (FP.sub hh' (FP.ofRat b32 false ((Scalar.asU32 hh' : Nat) : ℚ))) :=
        hd.sub bi (by norm_num) (by norm_num) (by norm_num)
      have bq : FP.mul v (FP.sub (FP.ofRat b32 false 1)
          (FP.mul s (FP.sub hh' (FP.ofRat b32 false ((Scalar.asU32 hh' : Nat) : ℚ))))) ≠ .nan :=
        mul_number hv.fin (one.sub ((Bd.unit hs).mul ff (m := 34) (by norm_num) (by norm_num)) (m := 35)
          (by norm_num) (by norm_num) (by norm_num)).fin
      have bt : FP.mul v (FP.sub (FP.ofRat b32 false 1) (FP.mul s (FP.sub (FP.ofRat b32 false 1)
          (FP.sub hh' (FP.ofRat b32 false ((Scalar.asU32 hh' : Nat) : ℚ)))))) ≠ .nan :=
        mul_number hv.fin (one.sub ((Bd.unit hs).mul (one.sub ff (m := 35) (by norm_num) (by norm_num) (by norm_num))
          (m := 35) (by norm_num) (by norm_num)) (m := 36) (by norm_num) (by norm_num) (by norm_num)).fin
      have cq := cl bq
      have ct := cl bt
      generalize Scalar.asU32 hh' = i at *
      rcases i with _ | _ | _ | _ | _ | i
      · exact ⟨⟨cv, .inr ct, cp, ca⟩, fun _ => ct⟩
      · exact ⟨⟨cq, .inr cv, cp, ca⟩, fun _ => cv⟩
      · exact ⟨⟨cp, .inr cv, ct, ca⟩, fun _ => cv⟩
      · exact ⟨⟨cp, .inr cq, cv, ca⟩, fun _ => cq⟩
      · exact ⟨⟨ct, .inr cp, cv, ca⟩, fun _ => cp⟩
      · exact ⟨⟨cv, .inr cp, cq, ca⟩, fun _ => cp⟩

/-! ## HSL with a hue that may not be a number -/

theorem lost_hue {s l a : F32} (hs : Un s) (hl : Un l) (ha : a ≠ .nan) : UnitCol (Hsl.to_rgb ⟨.nan, s, l, a⟩) := by
  have one : Bd 0 (FP.ofRat b32 false 1) := Bd.ofRat (by norm_num) (by norm_num)
  have bl := Bd.unit hl
  unfold Hsl.to_rgb
  simp only
  split
  · exact new_unit bl.number bl.number bl.number ha
  · have hq : Bd 3 (if l <. lit 0.5 then l *. (lit 1 +. s) else l +. s -. l *. s) := by
      split
      · exact (Bd.mul (k := 0) (l := 1) (m := 2) bl (one.add (Bd.unit hs) (by norm_num) (by norm_num)
          (by norm_num)) (by norm_num) (by norm_num)).mono (by norm_num)
      · exact Bd.sub (k := 2) (l := 1) (bl.add (Bd.unit hs) (by norm_num) (by norm_num) (by norm_num))
          (bl.mul (Bd.unit hs) (by norm_num) (by norm_num)) (by norm_num) (by norm_num) (by norm_num)
    generalize (if l <. lit 0.5 then l *. (lit 1 +. s) else l +. s -. l *. s) = q at hq ⊢
    have hp' : Bd 4 (lit 2 *. l -. q) :=
      Bd.sub (k := 2) (l := 3) (Bd.mul (k := 1) (l := 0) (Bd.ofRat (by norm_num) (by norm_num)) bl (by norm_num)
        (by norm_num)) hq (by norm_num) (by norm_num) (by norm_num)
    have e : ∀ p q : F32, Hsl.hue2rgb p q .nan = p := by
      intro p q
      unfold Hsl.hue2rgb
      simp only [lt_nan, nan_lt, Bool.false_eq_true, if_false]
    have e1 : (FP.nan : F32) +. lit 1 /. lit 3 = .nan := rfl
    have e2 : (FP.nan : F32) -. lit 1 /. lit 3 = .nan := rfl
    rw [e1, e2, e]
    exact new_unit hp'.number hp'.number hp'.number ha

theorem hsl_lost {c : Col F32} (h : ColourInRange c) :
    ((Rgb.to_hsl c).c0 = .nan ∨ Bd 17 (Rgb.to_hsl c).c0) ∧ Un (Rgb.to_hsl c).c2 := by
  obtain ⟨hM, hm⟩ := extremes_number h
  have nn : ∀ {x : F32}, InRange x → x = .nan ∨ Un x := fun h => (upto_iff _).1 h
  refine ⟨?_, ?_⟩
  · unfold Rgb.to_hsl
    simp only
    generalize Rgb.max c = M at *
    generalize Rgb.min c = m at *
    split
    · exact .inr ((lit_bd 0 0 (by norm_num) (by norm_num)).mono (by norm_num))
    · rename_i hd
      have d : Bd 1 (FP.sub M m) := (Bd.unit hM).sub (Bd.unit hm) (by norm_num) (by norm_num) (by norm_num)
      have low : 1 / 2 ^ 15 ≤ |(FP.sub M m).val| := by
        refine le_trans ?_ (le_abs_self _)
        by_contra hlt
        refine hd ?_
        show FP.lt (FP.sub M m) EPSILON = true
        rw [FP.lt_fin d.fin epsilon_val.1, epsilon_val.2]
        refine decide_eq_true ?_
        push Not at hlt
        exact lt_of_lt_of_eq hlt (by norm_num)
      have nanAll : ∀ {n : ℚ}, FP.div (FP.add (FP.div .nan (FP.sub M m)) (FP.ofRat b32 false n)) (FP.ofRat b32 false 6) = .nan := by
        intro n
        cases FP.sub M m <;> rfl
      have part : ∀ {x y : F32} {n : ℚ}, InRange x → InRange y → |n| ≤ 2 ^ 3 →
          FP.div (FP.add (FP.div (FP.sub x y) (FP.sub M m)) (FP.ofRat b32 false n)) (FP.ofRat b32 false 6) = .nan ∨
          Bd 17 (FP.div (FP.add (FP.div (FP.sub x y) (FP.sub M m)) (FP.ofRat b32 false n)) (FP.ofRat b32 false 6)) := by
        intro x y n hx hy hn
        rcases nn hx with rfl | hx
        · exact .inl (by rw [show FP.sub (.nan : F32) y = .nan by cases y <;> rfl]; exact nanAll)
        rcases nn hy with rfl | hy
        · exact .inl (by rw [show FP.sub x (.nan : F32) = .nan by cases x <;> rfl]; exact nanAll)
        refine .inr (Bd.div (k := 17) (j := 0) (Bd.add (k := 16) (l := 3) (Bd.div (k := 1) (j := 15) ((Bd.unit hx).sub (Bd.unit hy)
          (by norm_num) (by norm_num) (by norm_num)) d.fin low (by norm_num) (by norm_num))
          (Bd.ofRat (by norm_num) hn) (by norm_num) (by norm_num) (by norm_num)) ?_ ?_ (by norm_num) (by norm_num))
        · decide +kernel
        · rw [show (FP.ofRat b32 false 6).val = 6 by decide +kernel]; norm_num
      show FP.div (if _ then FP.add (FP.div (FP.sub c.c1 c.c2) (FP.sub M m)) (if _ then _ else _)
        else if _ then _ else _) (FP.ofRat b32 false 6) = .nan ∨
        Bd 17 (FP.div (if _ then FP.add (FP.div (FP.sub c.c1 c.c2) (FP.sub M m)) (if _ then _ else _)
        else if _ then _ else _) (FP.ofRat b32 false 6))
      split
      · split
        · exact part h.2.1 h.2.2 (by norm_num)
        · exact part h.2.1 h.2.2 (by norm_num)
      · split
        · exact part h.2.2 h.1 (by norm_num)
        · exact part h.1 h.2.1 (by norm_num)
  · have e : (Rgb.to_hsl c).c2 = FP.div (FP.add (Rgb.max c) (Rgb.min c)) (FP.ofRat b32 false 2) := by
      unfold Rgb.to_hsl; simp only; split <;> rfl
    rw [e]
    have up : ∀ {x : F32}, (x.fin = true ∧ 0 ≤ x.val ∧ x.val ≤ 1) → InRange x :=
      fun h => (upto_iff _).2 (.inr h)
    refine unit_of (half_inRange (up hM) (up hm)) ?_
    have s : Bd 1 (FP.add (Rgb.max c) (Rgb.min c)) :=
      (Bd.unit hM).add (Bd.unit hm) (by norm_num) (by norm_num) (by norm_num)
    exact div_number s.number (by decide +kernel) (by decide +kernel)

/-- Changing the saturation makes numbers even of channels that are not. -/
theorem saturation_heals {c : Col F32} (h : ColourInRange c) (ha : Un c.alpha) {f : F32} (hf : f.fin = true) :
    UnitCol (Rgb.with_saturation c f) := by
  obtain ⟨hh, hl⟩ := hsl_lost h
  have s : Un (clamp01 ((Rgb.to_hsl c).c1 *. f)) := clamp_number (mul_number (hsl_saturation_number h).1 hf)
  unfold Rgb.with_saturation
  simp only
  rcases hh with e | hh
  · rw [e]
    exact lost_hue s hl (fin_number ha.1)
  · exact hsl_unit (hh.mono (by norm_num)) s hl (fin_number ha.1)

/-! ## Two pictures -/

theorem ens_compose2 {P1 P2 Q : Col F32 → Prop} {a b : PixelBuffer (Col F32)} (ha : All P1 a) (hb : All P2 b)
    (n1 : P1 Rgb.NONE) (n2 : P2 Rgb.NONE) {f : Col F32 → Col F32 → Col F32}
    (hf : ∀ c d, P1 c → P2 d → Q (f c d)) : Ens (compose2 a b f) (All Q) := by
  unfold compose2 compose_slice try_compose_slice PixelBuffer.try_new_from_func
  have pix : ∀ {P : Col F32 → Prop} {b : PixelBuffer (Col F32)}, All P b → P Rgb.NONE → ∀ (x y : Nat)
      {g : Option (Col F32) → R (Col F32)}, (∀ v, g (some v) = pure v) → g none = pure Rgb.NONE →
      Ens (b.get_pixel_optional (asI32 x) (asI32 y) >>= g) P := by
    intro P b hb n x y g g1 g2
    refine ens_bind (all_get_optional hb _ _) fun o ho => ?_
    cases o with
    | none => rw [g2]; exact ens_pure n
    | some v => rw [g1]; exact ens_pure (ho v rfl)
  refine ens_bind (P := fun e : Except Unit (PixelBuffer (Col F32)) => ∀ b, e = .ok b → All Q b) ?_ fun e he => ?_
  · refine ens_any fun _ => ens_any fun _ => ens_any fun _ => ens_any fun _ => ens_any fun _ => ?_
    refine ens_bind (ens_collectResult (Q := Q) _ fun i _ => ?_) fun e he => ?_
    · refine ens_bind (P := fun l : List (Col F32) => ∃ c d, l = [c, d] ∧ P1 c ∧ P2 d) ?_ fun l hl => ?_
      · simp only [List.mapM_cons, List.mapM_nil]
        refine ens_bind (pix ha n1 _ _ (fun _ => rfl) rfl) fun c hc => ?_
        refine ens_bind (P := fun l : List (Col F32) => ∃ d, l = [d] ∧ P2 d) ?_ fun l hl => ?_
        · refine ens_bind (P := P2) ?_ fun d hd => ens_bind (P := fun l : List (Col F32) => l = []) (ens_pure rfl)
            fun l hl => ens_pure ⟨d, by rw [hl], hd⟩
          exact pix hb n2 _ _ (fun _ => rfl) rfl
        · obtain ⟨d, rfl, hd⟩ := hl
          exact ens_pure ⟨c, d, rfl, hc, hd⟩
      · obtain ⟨c, d, rfl, hc, hd⟩ := hl
        exact ens_ok fun b h => by cases h; exact hf c d hc hd
    · cases e with
      | error e => exact ens_pure (fun b h => by cases h)
      | ok l => exact ens_pure (fun b h => by cases h; exact he _ rfl)
  · cases e with
    | error e => exact ens_error
    | ok l => exact ens_pure (he _ rfl)

theorem none_unit : UnitCol (Rgb.NONE : Col F32) := ⟨lit0_unit, lit0_unit, lit0_unit, lit0_unit⟩

/-! ## The blur with any radius -/

omit [Libm b32] in
theorem div_zero_kind (e : F32) (s : Bool) : FP.div e (.zero s) = .nan ∨ ∃ t, FP.div e (.zero s) = .inf t := by
  cases e with
  | nan => exact .inl rfl
  | inf a => exact .inr ⟨_, rfl⟩
  | zero a => exact .inl rfl
  | num q h => exact .inr ⟨_, rfl⟩

omit [Libm b32] in
theorem step_nan {s v w : F32} (hw : w = .nan) : Nn (FP.add s (FP.mul v w)) := by
  subst hw
  refine .inl ?_
  rw [show FP.mul v .nan = .nan by cases v <;> rfl]
  exact add_nan s

/-- Without a width, the blur of radius 0 makes no numbers (C12), and that of another radius does. -/
theorem number_blur_any (he : ExpInUnit) (hq : SqrtMild) {b : PixelBuffer (Col F32)} (hb : All UnitCol b) (r : Nat) :
    Ens (gaussian_blur b r none) (All (Four Nn Nn Nn Nn)) := by
  rcases Nat.eq_zero_or_pos r with rfl | hr
  · unfold gaussian_blur
    simp only [Nat.zero_mul]
    refine ens_bind (ens_u32 _) fun m hm => ens_bind (ens_u32 _) fun n hn => ?_
    obtain ⟨rfl, -⟩ := hm
    obtain ⟨rfl, -⟩ := hn
    show Ens (do b.apply_kernel_dyn (← KernelDyn.new_gaussian 1 _)) _
    obtain ⟨k, e, hk⟩ := KernelDyn.new_gaussian_ok 1 ((none : Option F32).getD (get_default_sigma 1)) (by norm_num)
    have nanW : ∀ v ∈ k.data, v = .nan := by
      intro v hv
      rw [hk.data] at hv
      obtain ⟨x, y, hx, hy, rfl⟩ := rows_mem hv
      obtain rfl : x = 0 := by omega
      obtain rfl : y = 0 := by omega
      have width : FP.mul (FP.ofRat b32 false 3.14159265358979323846264338327950288)
          (FP.mul (FP.mul (FP.ofRat b32 false 2) (FP.div (FP.sub (FP.ofRat b32 false ((1 : Nat) : ℚ)) (FP.ofRat b32 false 1))
            (FP.ofRat b32 false 4)))
            (FP.div (FP.sub (FP.ofRat b32 false ((1 : Nat) : ℚ)) (FP.ofRat b32 false 1)) (FP.ofRat b32 false 4))) = .zero false := by
        decide +kernel
      have cell : ∃ e : F32, bell (get_default_sigma 1 : F32) 0 0 = FP.div e (.zero false) := by
        rw [← width]
        exact ⟨_, rfl⟩
      obtain ⟨e, hc⟩ := cell
      have sum : bellSum 1 (get_default_sigma 1 : F32) = FP.add (lit 0) (bell (get_default_sigma 1 : F32) 0 0) := rfl
      have w : gaussWeight 1 (get_default_sigma 1 : F32) 0 0 =
          FP.div (bell (get_default_sigma 1 : F32) 0 0) (bellSum 1 (get_default_sigma 1 : F32)) := rfl
      show gaussWeight 1 (get_default_sigma 1 : F32) 0 0 = .nan
      rw [w, sum, hc]
      rcases div_zero_kind e false with h | ⟨t, h⟩
      · rw [h]; rfl
      · have z : (lit 0 : F32) = .zero false := by
          show FP.ofRat b32 false 0 = .zero false; decide +kernel
        rw [h, z]; rfl
    rw [e, ok_bind]
    refine all_enumerated fun x y c _ => ?_
    have z : Nn (lit 0 : F32) := .inr zero60
    exact value_ens (fun c hc => unit_four (hb c hc)) nanW ⟨z, z, z, z⟩ (fun _ _ _ _ _ h => step_nan h)
      (fun _ _ _ _ _ h => step_nan h) (fun _ _ _ _ _ h => step_nan h) (fun _ _ _ _ _ h => step_nan h) x y
  · exact ens_mono (number_blur he hq hb (r := r) (s := none) hr) fun b h c hc =>
      ⟨.inr (h c hc).1, .inr (h c hc).2.1, .inr (h c hc).2.2.1, .inr (h c hc).2.2.2⟩

/-! ## The drawing -/

/-- "Not a number", or a number of at most 1. -/
def Low (v : F32) : Prop := v = .nan ∨ (Bd 64 v ∧ v.val ≤ 1)

theorem invert_low {x : F32} (hx : Nn x) : lit 1 -. x = (.nan : F32) ∨ (Bd 61 (lit 1 -. x) ∧ (lit 1 -. x : F32).val ≤ 1) := by
  have one : (FP.ofRat b32 false 1).fin = true ∧ (FP.ofRat b32 false 1).val = 1 := one32
  rcases hx with rfl | hx
  · exact .inl (sub_nan _)
  · refine .inr ⟨Bd.sub (k := 0) (l := 60) (Bd.ofRat (by norm_num) (by norm_num)) hx.1 (by norm_num) (by norm_num)
      (by norm_num), ?_⟩
    show (FP.sub (FP.ofRat b32 false 1) x).val ≤ 1
    rw [FP.sub_fin one.1 hx.1.fin, one.2, (round_val (k := 61) (by norm_num) _).2]
    · conv_rhs => rw [show (1 : ℚ) = rn b32 1 by decide +kernel]
      exact rn_mono (by linarith [hx.2])
    · have a := abs_le.1 hx.1.le
      have : (2 : ℚ) ^ 61 = 2 ^ 60 + 2 ^ 60 := by norm_num
      rw [abs_le]
      constructor <;> linarith [hx.2, show (1 : ℚ) ≤ 2 ^ 60 by norm_num]

omit [Libm b32] in
theorem nan_add (x : F32) : FP.add .nan x = .nan := by cases x <;> rfl

theorem gray_low {c : Col F32} (h0 : c.c0 = .nan ∨ (Bd 61 c.c0 ∧ c.c0.val ≤ 1)) (h1 : c.c1 = .nan ∨ (Bd 61 c.c1 ∧ c.c1.val ≤ 1))
    (h2 : c.c2 = .nan ∨ (Bd 61 c.c2 ∧ c.c2.val ≤ 1)) : Low (grayAverage c) := by
  show Low (FP.div (FP.add (FP.add c.c0 c.c1) c.c2) (FP.ofRat b32 false 3))
  have three : (FP.ofRat b32 false 3).fin = true ∧ (FP.ofRat b32 false 3).val = 3 := by decide +kernel
  rcases h0 with h0 | h0
  · rw [h0, nan_add, nan_add]; exact .inl rfl
  rcases h1 with h1 | h1
  · rw [h1, add_nan, nan_add]; exact .inl rfl
  rcases h2 with h2 | h2
  · rw [h2, add_nan]; exact .inl rfl
  have b01 := h0.1.add h1.1 (m := 62) (by norm_num) (by norm_num) (by norm_num)
  have b012 := b01.add h2.1 (m := 63) (by norm_num) (by norm_num) (by norm_num)
  have sm : ∀ {x y : F32} {k l : ℕ}, Bd k x → Bd l y → k ≤ 63 → l ≤ 63 → (FP.add x y).val = rn b32 (x.val + y.val) := by
    intro x y k l hx hy hk hl
    rw [FP.add_fin hx.fin hy.fin, (round_val (k := 64) (by norm_num) _).2]
    refine (abs_add_le _ _).trans ?_
    have := (hx.mono hk).le
    have := (hy.mono hl).le
    have : (2 : ℚ) ^ 64 = 2 ^ 63 + 2 ^ 63 := by norm_num
    linarith
  have v01 : (FP.add c.c0 c.c1).val ≤ 2 := by
    rw [sm h0.1 h1.1 (by norm_num) (by norm_num)]
    conv_rhs => rw [show (2 : ℚ) = rn b32 2 by decide +kernel]
    exact rn_mono (by linarith [h0.2, h1.2])
  have v012 : (FP.add (FP.add c.c0 c.c1) c.c2).val ≤ 3 := by
    rw [sm b01 h2.1 (by norm_num) (by norm_num)]
    conv_rhs => rw [show (3 : ℚ) = rn b32 3 by decide +kernel]
    exact rn_mono (by linarith [h2.2])
  generalize FP.add (FP.add c.c0 c.c1) c.c2 = s at b012 v012
  have bd := b012.div (j := 0) three.1 (by rw [three.2]; norm_num) (m := 63) (by norm_num) (by norm_num)
  refine .inr ⟨bd.mono (by norm_num), ?_⟩
  rw [FP.div_fin b012.fin three.1 (by rw [three.2]; norm_num), three.2, (round_val (k := 63) (by norm_num) _).2]
  · conv_rhs => rw [show (1 : ℚ) = rn b32 1 by decide +kernel]
    exact rn_mono (by linarith)
  · rw [abs_div]
    exact (div_le_self (abs_nonneg _) (by norm_num)).trans b012.le

theorem ratio_bd {u v : F32} (hu : Un u) (hv : Low v) : Bd 8 (drawingRatio u v) := by
  have one : (FP.ofRat b32 false 1).fin = true ∧ (FP.ofRat b32 false 1).val = 1 := one32
  have cent : (FP.ofRat b32 false 0.01).fin = true ∧ 1 / 2 ^ 7 ≤ (FP.ofRat b32 false 0.01).val ∧
      (FP.ofRat b32 false 0.01).val ≤ 1 ∧ rn b32 (FP.ofRat b32 false 0.01).val = (FP.ofRat b32 false 0.01).val := by decide +kernel
  have d : (Scalar.min ((lit 1 : F32) -. v +. lit 0.01) (lit 1)).fin = true ∧
      1 / 2 ^ 7 ≤ |(Scalar.min ((lit 1 : F32) -. v +. lit 0.01) (lit 1)).val| := by
    rcases hv with rfl | hv
    · have e : Scalar.min ((lit 1 : F32) -. .nan +. lit 0.01) (lit 1) = lit 1 := by
        rw [show (lit 1 : F32) -. .nan = .nan from sub_nan _]; rfl
      rw [e]
      refine ⟨one.1, ?_⟩
      show _ ≤ |(FP.ofRat b32 false 1).val|
      rw [one.2]; norm_num
    · have bs : Bd 65 (FP.sub (FP.ofRat b32 false 1) v) :=
        Bd.sub (k := 0) (l := 64) (Bd.ofRat (by norm_num) (by norm_num)) hv.1 (by norm_num) (by norm_num) (by norm_num)
      have s0 : 0 ≤ (FP.sub (FP.ofRat b32 false 1) v).val := by
        rw [FP.sub_fin one.1 hv.1.fin, one.2, (round_val (k := 65) (by norm_num) _).2]
        · exact rn_nonneg (by linarith [hv.2])
        · have a := abs_le.1 hv.1.le
          have : (2 : ℚ) ^ 65 = 2 ^ 64 + 2 ^ 64 := by norm_num
          rw [abs_le]
          constructor <;> linarith [hv.2, show (1 : ℚ) ≤ 2 ^ 64 by norm_num]
      have ba : Bd 66 (FP.add (FP.sub (FP.ofRat b32 false 1) v) (FP.ofRat b32 false 0.01)) :=
        bs.add (Bd.unit ⟨cent.1, le_trans (by positivity) cent.2.1, cent.2.2.1⟩) (by norm_num) (by norm_num) (by norm_num)
      have a0 : 1 / 2 ^ 7 ≤ (FP.add (FP.sub (FP.ofRat b32 false 1) v) (FP.ofRat b32 false 0.01)).val := by
        rw [FP.add_fin bs.fin cent.1, (round_val (k := 66) (by norm_num) _).2]
        · refine cent.2.1.trans ?_
          rw [← cent.2.2.2]
          conv_rhs => rw [cent.2.2.2]
          exact rn_mono (by linarith)
        · refine (abs_add_le _ _).trans ?_
          rw [abs_of_nonneg (le_trans (by positivity) cent.2.1)]
          have := bs.le
          have : (2 : ℚ) ^ 66 = 2 ^ 65 + 2 ^ 65 := by norm_num
          linarith [cent.2.2.1, show (1 : ℚ) ≤ 2 ^ 65 by norm_num]
      obtain ⟨f, e⟩ := NearF.min_fin ba.fin one.1
      refine ⟨f, ?_⟩
      show _ ≤ |(Scalar.min (FP.add (FP.sub (FP.ofRat b32 false 1) v) (FP.ofRat b32 false 0.01)) (FP.ofRat b32 false 1)).val|
      rw [e, one.2]
      exact (le_min a0 (by norm_num)).trans (le_abs_self _)
  exact ((Bd.unit hu).div d.1 d.2 (m := 8) (by norm_num) (by norm_num)).abs

theorem gray_un (hp : PowGivesNumbers) {c : Col F32} (hc : UnitCol c) : Un (grayAverage c) :=
  (C122_colours hp hc hc lit0_unit.1 lit0_unit.1 lit0_unit.1 .Average (Rgb.to_gray_with_intensity c .Average)
    (.tail _ (.head _))).c0

theorem number_pixel (hp : PowGivesNumbers) {c d : Col F32} (hc : UnitCol c) (hd : Four Low Low Low (fun _ => True) d)
    (hg : Low (grayAverage d)) : UnitCol (drawingPixel c d) := by
  have gu := gray_un hp hc
  have body : ∀ l : List (F32 × F32), (∀ p ∈ l, Un p.1 ∧ Low p.2) → ∀ s : F32, Bd 8 s →
      Bd 8 ((l.map fun p => drawingRatio p.1 p.2).foldl Scalar.min s) := by
    intro l
    induction l with
    | nil => intro _ s hs; exact hs
    | cons p ps ih =>
      intro hl s hs
      have r := ratio_bd (hl p (.head _)).1 (hl p (.head _)).2
      refine ih (fun p hp => hl p (.tail _ hp)) _ ?_
      obtain ⟨f, e⟩ := NearF.min_fin hs.fin r.fin
      refine ⟨f, ?_⟩
      rw [e]
      rcases min_choice s.val (drawingRatio p.1 p.2).val with h | h <;> rw [h]
      · exact hs.le
      · exact r.le
  have pick : ∀ (t : F32 × F32 → Bool) (ps : List (F32 × F32)), (∀ p ∈ ps, Un p.1 ∧ Low p.2) → ∀ v : List (F32 × F32),
      (∀ p ∈ v, Un p.1 ∧ Low p.2) → ∀ p ∈ ps.foldl (fun v p => if t p then v ++ [p] else v) v, Un p.1 ∧ Low p.2 := by
    intro t ps
    induction ps with
    | nil => intro _ v hv; exact hv
    | cons q qs ih =>
      intro hq v hv
      refine ih (fun p hp => hq p (.tail _ hp)) _ ?_
      beta_reduce
      split
      · intro p hp
        rcases List.mem_append.1 hp with h | h
        · exact hv p h
        · rw [List.mem_singleton.1 h]; exact hq q (.head _)
      · exact hv
  unfold drawingPixel
  simp only
  have first : ∀ p ∈ (if (lit 0.05 <. grayAverage c) || (grayAverage d <. lit 0.95) then [] ++ [(grayAverage c, grayAverage d)]
      else []), Un p.1 ∧ Low p.2 := by
    intro p hp
    split at hp
    · rw [List.nil_append, List.mem_singleton] at hp
      subst hp
      exact ⟨gu, hg⟩
    · cases hp
  have all := pick (fun p => (lit 0.8 <. p.1) || (p.2 <. lit 0.2)) [(c.c0, d.c0), (c.c1, d.c1), (c.c2, d.c2)] (by
    intro p hp
    simp only [List.mem_cons, List.not_mem_nil, or_false] at hp
    rcases hp with rfl | rfl | rfl
    · exact ⟨hc.c0, hd.1⟩
    · exact ⟨hc.c1, hd.2.1⟩
    · exact ⟨hc.c2, hd.2.2.1⟩) _ first
  have b := body _ all (lit 1) (Bd.ofRat (by norm_num) (by norm_num))
  generalize List.foldl Scalar.min (lit 1 : F32) _ = diff at b ⊢
  have num : (if lit 0.8 <. diff then lit 1 else Scalar.max ((diff -. lit 0.5) *. lit 1.2) (lit 0) : F32) ≠ .nan := by
    split
    · exact fin_number lit1_unit.1
    · have m : Bd 20 (FP.mul (FP.sub diff (FP.ofRat b32 false 0.5)) (FP.ofRat b32 false 1.2)) :=
        Bd.mul (k := 9) (l := 1) (b.sub (Bd.ofRat (k := 0) (by norm_num) (by norm_num [abs_le])) (by norm_num) (by norm_num)
          (by norm_num)) (Bd.ofRat (by norm_num) (by norm_num [abs_le])) (by norm_num) (by norm_num)
      exact fin_number (NearF.max_fin m.fin lit0_unit.1).1
  exact ⟨clamp_number num, clamp_number num, clamp_number num, lit1_unit⟩

omit [Libm b32] in
theorem unit_bd60 {c : Col F32} (h : UnitCol c) {Q : Prop} : Four (Bd 60) (fun v => Q → Bd 60 v) (Bd 60) (Bd 60) c :=
  ⟨(Bd.unit h.c0).mono (by norm_num), fun _ => (Bd.unit h.c1).mono (by norm_num), (Bd.unit h.c2).mono (by norm_num),
    (Bd.unit h.alpha).mono (by norm_num)⟩

/-- Unsharp masking of a picture of numbers. -/
theorem number_unsharp_unit (he : ExpInUnit) (hq : SqrtMild) {b : PixelBuffer (Col F32)} (hb : All UnitCol b) {r : Nat}
    {a : F32} (ha : a.fin = true) {s : Option F32} (h : BlurWidthOK r s) : Ens (unsharp b r a s) (All UnitCol) :=
  ens_mono (number_unsharp he hq (Q := True) (fun c hc => unit_bd60 (hb c hc)) ha h) fun _ h c hc =>
    ⟨(h c hc).1, (h c hc).2.1.2 trivial, (h c hc).2.2.1, (h c hc).2.2.2⟩

theorem number_merge {a b : PixelBuffer (Col F32)} (ha : All UnitCol a) (hb : All UnitCol b) :
    Ens (merge_color a b) (All UnitCol) := by
  refine ens_compose2 ha hb none_unit none_unit fun d o hd ho => ?_
  obtain ⟨h, s, l⟩ := hsl_number ho
  obtain ⟨-, -, l'⟩ := hsl_number hd
  have m : Un (Scalar.min (Rgb.to_hsl o).c2 (Rgb.to_hsl d).c2) := by
    obtain ⟨f, e⟩ := NearF.min_fin l.1 l'.1
    exact ⟨f, by rw [e]; exact le_min l.2.1 l'.2.1, by rw [e]; exact (min_le_left _ _).trans l.2.2⟩
  exact hsl_unit (h.mono (by norm_num)) s m (by rw [to_hsl_alpha]; exact fin_number ho.alpha.1)

theorem number_reduce {c : Col F32} (hc : UnitCol c) : UnitCol (reduceColor c) := by
  have nn : ∀ {v : F32}, Un v → Nn v := fun h => .inr h.pd
  obtain ⟨h, s, v, a, vm, lost⟩ := hsv_number (nn hc.c0) (nn hc.c1) (nn hc.c2)
  have lost := fun e => lost e (fin_number hc.c0.1) (fin_number hc.c1.1) (fin_number hc.c2.1)
  have six : (FP.ofRat b32 false 6).fin = true ∧ (FP.ofRat b32 false 6).val = 6 := by decide +kernel
  have twelve : (FP.ofRat b32 false 12).fin = true ∧ (FP.ofRat b32 false 12).val = 12 := by decide +kernel
  have vu : Un (Rgb.to_hsv c).c2 := by rw [vm]; exact (extremes_number (UnitCol.inRange hc).1).1
  unfold reduceColor
  simp only
  rw [a]
  generalize (Rgb.to_hsv c).c0 = hue at h lost
  generalize (Rgb.to_hsv c).c1 = sat at s lost
  generalize (Rgb.to_hsv c).c2 = val at vu
  have m6 : (FP.mul sat (FP.ofRat b32 false 6)).fin = true ∧ (FP.mul sat (FP.ofRat b32 false 6)).val = rn b32 (sat.val * 6) := by
    rw [FP.mul_fin s.1 six.1, six.2]
    exact round_val (k := 3) (by norm_num) (by rw [abs_of_nonneg (by linarith [s.2.1])]; linarith [s.2.2])
  have m0 : 0 ≤ (FP.mul sat (FP.ofRat b32 false 6)).val := by rw [m6.2]; exact rn_nonneg (by linarith [s.2.1])
  have m1 : (FP.mul sat (FP.ofRat b32 false 6)).val ≤ 6 := by
    rw [m6.2]
    conv_rhs => rw [show (6 : ℚ) = rn b32 6 by decide +kernel]
    exact rn_mono (by linarith [s.2.2])
  have d12 : (FP.div (FP.mul sat (FP.ofRat b32 false 6)) (FP.ofRat b32 false 12)).fin = true ∧
      (FP.div (FP.mul sat (FP.ofRat b32 false 6)) (FP.ofRat b32 false 12)).val =
        rn b32 ((FP.mul sat (FP.ofRat b32 false 6)).val / 12) := by
    rw [FP.div_fin m6.1 twelve.1 (by rw [twelve.2]; norm_num), twelve.2]
    exact round_val (k := 0) (by norm_num) (by rw [abs_of_nonneg (by linarith)]; linarith)
  have s' : Un (sat *. lit 6 /. lit 12) := by
    show Un (FP.div (FP.mul sat (FP.ofRat b32 false 6)) (FP.ofRat b32 false 12))
    refine ⟨d12.1, by rw [d12.2]; exact rn_nonneg (by linarith), ?_⟩
    rw [d12.2]
    conv_rhs => rw [show (1 : ℚ) = rn b32 1 by decide +kernel]
    exact rn_mono (by linarith)
  have z' : sat.val = 0 → (sat *. lit 6 /. lit 12 : F32).val = 0 := by
    intro e
    show (FP.div (FP.mul sat (FP.ofRat b32 false 6)) (FP.ofRat b32 false 12)).val = 0
    rw [d12.2, m6.2, e]
    norm_num [rn_zero]
  have v' : Un (Scalar.min ((val *. lit 6.5 +. lit 0.2) /. lit 4.5) (lit 1)) := by
    have b : (FP.ofRat b32 false 6.5).fin = true ∧ 0 ≤ (FP.ofRat b32 false 6.5).val := by decide +kernel
    have g : (FP.ofRat b32 false 0.2).fin = true ∧ 0 ≤ (FP.ofRat b32 false 0.2).val ∧ (FP.ofRat b32 false 0.2).val ≤ 1 := by decide +kernel
    have k : (FP.ofRat b32 false 4.5).fin = true ∧ 1 / 2 ^ 0 ≤ (FP.ofRat b32 false 4.5).val := by decide +kernel
    have p1 : Pd 3 (FP.mul val (FP.ofRat b32 false 6.5)) :=
      Pd.mul (unit_pd vu) ⟨Bd.ofRat (k := 3) (by norm_num) (by norm_num [abs_le]), b.2⟩ (by norm_num) (by norm_num)
    have p2 : Pd 60 (FP.add (FP.mul val (FP.ofRat b32 false 6.5)) (FP.ofRat b32 false 0.2)) :=
      (Pd.absorb (k := 60) (j := 0) (by norm_num) (by decide +kernel) (by norm_num) ⟨p1.1.mono (by norm_num), p1.2⟩ (unit_pd g)).1
    have p3 := (p2.div k.1 k.2 (m := 60) (by norm_num) (by norm_num)).1
    obtain ⟨f, e⟩ := NearF.min_fin p3.1.fin one32.1
    refine ⟨f, ?_, ?_⟩
    · refine e.symm ▸ ?_
      rw [one32.2]; exact le_min p3.2 (by norm_num)
    · refine e.symm ▸ ?_
      rw [one32.2]; exact min_le_right _ _
  obtain ⟨four, green⟩ := hsv_rgb (P := Un) (fun _ h => h) h s' v'.pd.1 v' hc.alpha
  exact ⟨four.1, green fun e => z' (lost e), four.2.2.1, four.2.2.2⟩

/-- A colour whose green may be lost. -/
abbrev Lost (c : Col F32) : Prop := Four Un (fun v => v = .nan ∨ Un v) Un Un c

omit [Libm b32] in
theorem Lost.nn {c : Col F32} (h : Lost c) : Nn c.c0 ∧ Nn c.c1 ∧ Nn c.c2 :=
  ⟨.inr h.1.pd, h.2.1.imp id Un.pd, .inr h.2.2.1.pd⟩

theorem Lost.inRange {c : Col F32} (h : Lost c) : ColourInRange c :=
  ⟨(upto_iff _).2 (.inr h.1), (upto_iff _).2 h.2.1, (upto_iff _).2 (.inr h.2.2.1)⟩

theorem number_reduced (hp : PowGivesNumbers) (he : ExpInUnit) (hq : SqrtMild) {d o : PixelBuffer (Col F32)}
    (hd : All UnitCol d) (ho : All UnitCol o) : Ens (merge_color_reduced d o) (All UnitCol) := by
  have up : ∀ {c : Col F32}, UnitCol c → Lost c := fun h => ⟨h.c0, .inr h.c1, h.c2, h.alpha⟩
  have none60 : Four (Pd 60) (Pd 60) (Pd 60) (Pd 60) (Rgb.NONE : Col F32) := ⟨zero60, zero60, zero60, zero60⟩
  have nn : ∀ {c : Col F32}, Four (Pd 60) (Pd 60) (Pd 60) (Pd 60) c → Nn c.c0 ∧ Nn c.c1 ∧ Nn c.c2 :=
    fun h => ⟨.inr h.1, .inr h.2.1, .inr h.2.2.1⟩
  have val : ∀ {c : Col F32}, Lost c → Un (Rgb.to_hsv c).c2 ∧ Un (Rgb.to_hsv c).alpha := by
    intro c h
    obtain ⟨-, -, -, a, v, -⟩ := hsv_number h.nn.1 h.nn.2.1 h.nn.2.2
    rw [a, v]
    exact ⟨(extremes_number h.inRange).1, h.2.2.2⟩
  unfold merge_color_reduced
  simp only
  refine ens_bind (number_blur he hq (all_map fun c hc => number_reduce (ho c hc)) (r := 2) (s := none) (by decide : 0 < 2)) fun b1 h1 => ?_
  refine ens_bind (ens_compose2 (Q := Lost) (P1 := Lost) (fun c hc => up (hd c hc)) h1 (up none_unit) none60 fun c1 c2 u1 u2 => ?_)
    fun o1 k1 => ?_
  · obtain ⟨h, -⟩ := hsv_number u1.nn.1 u1.nn.2.1 u1.nn.2.2
    obtain ⟨-, s, -⟩ := hsv_number (nn u2).1 (nn u2).2.1 (nn u2).2.2
    exact (hsv_rgb (P := Un) (fun _ h => h) h s (val u1).1.pd.1 (val u1).1 (val u1).2).1
  refine ens_bind (number_blur he hq ho (r := 3) (s := none) (by decide : 0 < 3)) fun b2 h2 => ?_
  refine ens_bind (ens_compose2 (Q := Lost) k1 h2 (up none_unit) none60 fun c1 c2 u1 u2 => ?_) fun o2 k2 => ?_
  · obtain ⟨-, s, -⟩ := hsv_number u1.nn.1 u1.nn.2.1 u1.nn.2.2
    obtain ⟨h, -⟩ := hsv_number (nn u2).1 (nn u2).2.1 (nn u2).2.2
    exact (hsv_rgb (P := Un) (fun _ h => h) h s (val u1).1.pd.1 (val u1).1 (val u1).2).1
  refine ens_bind (number_blur he hq ho (r := 4) (s := none) (by decide : 0 < 4)) fun b3 h3 => ?_
  refine ens_bind (ens_compose2 (Q := Four (Bd 60) (fun v => False → Bd 60 v) (Bd 60) (Bd 60)) k2 h3 (up none_unit) none60
    fun c1 c2 u1 u2 => ?_) fun o3 k3 => ?_
  · obtain ⟨h, s, -⟩ := hsv_number u1.nn.1 u1.nn.2.1 u1.nn.2.2
    obtain ⟨-, -, v, -⟩ := hsv_number (nn u2).1 (nn u2).2.1 (nn u2).2.2
    have m : Bd 60 ((Rgb.to_hsv c1).c2 *. (Rgb.to_hsv c2).c2) :=
      (Bd.unit (val u1).1).mul v.1 (by norm_num) (by norm_num)
    have f := (hsv_rgb (P := Bd 60) (fun _ h => h.pd.1) h s m m (val u1).2).1
    exact ⟨f.1, fun h => h.elim, f.2.2.1, f.2.2.2.pd.1⟩
  refine ens_bind (number_unsharp he hq (Q := False) k3 (r := 3) (a := lit 1.5) (s := none) (by
    show (FP.ofRat b32 false 1.5).fin = true; decide +kernel) (by decide : 0 < 3)) fun b4 k4 => ens_pure (all_map fun c hc => ?_)
  have l : Lost c := ⟨(k4 c hc).1, (k4 c hc).2.1.1, (k4 c hc).2.2.1, (k4 c hc).2.2.2⟩
  have f13 : (lit 1.3 : F32).fin = true := by show (FP.ofRat b32 false 1.3).fin = true; decide +kernel
  have f11 : (lit 1.1 : F32).fin = true := by show (FP.ofRat b32 false 1.1).fin = true; decide +kernel
  have f03 : (lit 0.3 : F32).fin = true := by show (FP.ofRat b32 false 0.3).fin = true; decide +kernel
  have u1 := saturation_heals l.inRange l.2.2.2 f13
  have u2 := C122_colours hp u1 u1 (p := lit 1.1) (q := lit 0) (r := lit 0) f11 lit0_unit.1 lit0_unit.1 .Average
    (Rgb.with_gamma (Rgb.with_saturation c (lit 1.3)) (lit 1.1)) (by simp only [List.mem_cons, true_or, or_true])
  exact C122_colours hp u2 u2 (p := lit 0.3) (q := lit 0) (r := lit 0) f03 lit0_unit.1 lit0_unit.1 .Average
    (Rgb.with_vibrance (Rgb.with_gamma (Rgb.with_saturation c (lit 1.3)) (lit 1.1)) (lit 0.3))
    (by simp only [List.mem_cons, true_or, or_true])

theorem number_drawing (hp : PowGivesNumbers) (he : ExpInUnit) (hq : SqrtMild) {b : PixelBuffer (Col F32)}
    (hb : All UnitCol b) (r : Nat) (mode : DrawingMode) : Ens (drawing b r mode) (All UnitCol) := by
  unfold drawing
  simp only
  have light : All UnitCol (b.map_colors fun c => Rgb.map_channels c fun v => v *. lit 0.8 +. lit 0.2) :=
    all_map fun c hc => channels_unit (hb c hc) fun v hv => by
      have m : Bd 0 (FP.mul v (FP.ofRat b32 false 0.8)) :=
        (Bd.unit hv).mul (Bd.ofRat (k := 0) (by norm_num) (by norm_num [abs_le])) (by norm_num) (by norm_num)
      exact (m.add (Bd.ofRat (k := 0) (q := 0.2) (by norm_num) (by norm_num [abs_le])) (m := 1) (by norm_num) (by norm_num)
        (by norm_num)).number
  generalize (b.map_colors fun c => Rgb.map_channels c fun v => v *. lit 0.8 +. lit 0.2) = lb at light
  refine ens_bind (number_blur he hq light (r := 1) (s := none) (by decide : 0 < 1)) fun b1 h1 => ?_
  have five : ModerateWidth (lit 5 : F32) := by
    show (FP.ofRat b32 false 5).fin = true ∧ 1 / 2 ^ 30 ≤ |(FP.ofRat b32 false 5).val| ∧ |(FP.ofRat b32 false 5).val| ≤ 2 ^ 30
    decide +kernel
  refine ens_bind (number_unsharp he hq (Q := True) (a := lit 4) (r := 4) (s := some (lit 5)) (fun c hc =>
    ⟨(h1 c hc).1.1, fun _ => (h1 c hc).2.1.1, (h1 c hc).2.2.1.1, (h1 c hc).2.2.2.1⟩) (by
    show (FP.ofRat b32 false 4).fin = true; decide +kernel) five) fun b2 h2 => ?_
  have u2 : All UnitCol (b2.map_colors fun c => Rgb.with_contrast c (lit 1.05)) := all_map fun c hc => by
    have u : UnitCol c := ⟨(h2 c hc).1, (h2 c hc).2.1.2 trivial, (h2 c hc).2.2.1, (h2 c hc).2.2.2⟩
    exact C122_colours hp u u (p := lit 1.05) (q := lit 0) (r := lit 0) (by
      show (FP.ofRat b32 false 1.05).fin = true; decide +kernel) lit0_unit.1 lit0_unit.1 .Average
      (Rgb.with_contrast c (lit 1.05)) (by simp only [List.mem_cons, true_or, or_true])
  refine ens_bind (number_blur_any he hq light r) fun b3 h3 => ?_
  have u3 : All (fun c : Col F32 => Four Low Low Low (fun _ => True) c ∧ Low (grayAverage c)) (b3.map_colors Rgb.invert) :=
    all_map fun c hc => by
      have i0 := invert_low (h3 c hc).1
      have i1 := invert_low (h3 c hc).2.1
      have i2 := invert_low (h3 c hc).2.2.1
      have lw : ∀ {x : F32}, (x = .nan ∨ (Bd 61 x ∧ x.val ≤ 1)) → Low x :=
        fun h => h.imp id fun h => ⟨h.1.mono (by norm_num), h.2⟩
      exact ⟨⟨lw i0, lw i1, lw i2, trivial⟩, gray_low (c := Rgb.invert c) i0 i1 i2⟩
  have lowNone : Four Low Low Low (fun _ => True) (Rgb.NONE : Col F32) ∧ Low (grayAverage (Rgb.NONE : Col F32)) := by
    have z : (lit 0 : F32) = .nan ∨ (Bd 61 (lit 0 : F32) ∧ (lit 0 : F32).val ≤ 1) :=
      .inr ⟨zero60.1.mono (by norm_num), lit0_unit.2.2⟩
    have lz : Low (lit 0 : F32) := z.imp id fun h => ⟨h.1.mono (by norm_num), h.2⟩
    exact ⟨⟨lz, lz, lz, trivial⟩, gray_low (c := Rgb.NONE) z z z⟩
  refine ens_bind (ens_compose2 u2 u3 none_unit lowNone fun c d hc hd => number_pixel hp hc hd.1 hd.2) fun b4 h4 => ?_
  refine ens_bind (number_unsharp_unit he hq h4 (r := 2) (a := lit 1) (s := none) lit1_unit.1 (by decide : 0 < 2)) fun b5 h5 => ?_
  refine ens_bind (number_despeckle h5 (lit 0.15) (by norm_num : 1 < 9)) fun b6 h6 => ?_
  cases mode with
  | Gray => exact ens_pure h6
  | Colored => exact number_merge h6 hb
  | ReducedColors => exact number_reduced hp he hq h6 hb

end
end D10
