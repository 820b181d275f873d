import Verif.Lemmas.F32

/-!
# Colour equality, inversion and display (C26, C32, C33)
-/

namespace D10
open Scalar (isNan)

/-! ## C32: equality -/

section
variable [Junk]

/-- C32, exact arithmetic: two colours are equal exactly when every channel, alpha included, differs
by at most EPSILON = 2^-15. -/
theorem C32_eq_iff (a b : Col ℝ) : Col.eq a b = true ↔
    |a.c0 - b.c0| ≤ 1 / 32768 ∧ |a.c1 - b.c1| ≤ 1 / 32768 ∧ |a.c2 - b.c2| ≤ 1 / 32768 ∧
    |a.alpha - b.alpha| ≤ 1 / 32768 := Exact.col_eq a b

end

/-- All four channels are finite floats. -/
def Spec.Finite (c : Col F32) : Prop :=
  c.c0.fin = true ∧ c.c1.fin = true ∧ c.c2.fin = true ∧ c.alpha.fin = true

/-- Largest distance between the channels of two colours is at most `d`. -/
def Spec.Within (d : ℚ) (a b : Col F32) : Prop :=
  |a.c0.val - b.c0.val| ≤ d ∧ |a.c1.val - b.c1.val| ≤ d ∧ |a.c2.val - b.c2.val| ≤ d ∧
  |a.alpha.val - b.alpha.val| ≤ d

section
variable [Libm b32]

/-- C32, floats: finite colours that differ by at most 2^-15 in every channel are equal. -/
theorem C32_within_eq (a b : Col F32) (ha : Spec.Finite a) (hb : Spec.Finite b)
    (h : Spec.Within (1 / 32768) a b) : Col.eq a b = true := by
  obtain ⟨a0, a1, a2, a3⟩ := ha
  obtain ⟨b0, b1, b2, b3⟩ := hb
  obtain ⟨h0, h1, h2, h3⟩ := h
  unfold Col.eq
  rw [FP.chan_eq a0 b0 h0, FP.chan_eq a1 b1 h1, FP.chan_eq a2 b2 h2, FP.chan_eq a3 b3 h3]; rfl

/-- C32, floats: equal finite colours differ by less than 2^-15 (1 + 2^-23), the next float above
EPSILON, in every channel. -/
theorem C32_eq_within (a b : Col F32) (ha : Spec.Finite a) (hb : Spec.Finite b)
    (h : Col.eq a b = true) : Spec.Within (1 / 32768 * (1 + 1 / 8388608)) a b := by
  obtain ⟨a0, a1, a2, a3⟩ := ha
  obtain ⟨b0, b1, b2, b3⟩ := hb
  unfold Col.eq at h
  simp only [Bool.and_eq_true, Bool.not_eq_true'] at h
  obtain ⟨⟨⟨h0, h1⟩, h2⟩, h3⟩ := h
  exact ⟨(FP.chan_eq_conv a0 b0 h0).le, (FP.chan_eq_conv a1 b1 h1).le,
    (FP.chan_eq_conv a2 b2 h2).le, (FP.chan_eq_conv a3 b3 h3).le⟩

theorem chan_self (x : F32) : ((EPSILON : F32) <. Scalar.abs (x -. x)) = false := by
  rcases FP.kinds x with rfl | ⟨s, rfl⟩ | hx
  · exact LawfulScalar.lt_nan_right _ _ rfl
  · refine LawfulScalar.lt_nan_right _ _ ?_
    cases s <;> rfl
  · exact FP.chan_eq hx hx (by rw [sub_self, abs_zero]; norm_num)

omit [Libm b32] in
theorem FP.abs_ofRat_neg {f : Fmt} (s t : Bool) (q : ℚ) :
    FP.abs (ofRat f s q) = FP.abs (ofRat f t (-q)) := by
  by_cases h0 : rn f q = 0
  · have h0' : rn f (-q) = 0 := by rw [rn_neg, h0, neg_zero]
    have hz : ∀ u : Bool, FP.abs (zero u : FP f) = zero false := by
      intro u; cases u <;> rfl
    unfold ofRat
    rw [dif_pos h0, dif_pos h0', hz, hz]
  · have h0' : rn f (-q) ≠ 0 := by rw [rn_neg]; exact neg_ne_zero.2 h0
    by_cases h1 : |rn f q| < pow2 f.emax
    · have h1' : |rn f (-q)| < pow2 f.emax := by rw [rn_neg, abs_neg]; exact h1
      have a := ofRat_val (s := s) h1
      have b := ofRat_val (s := t) h1'
      have a' := abs_fin a.1
      have b' := abs_fin b.1
      refine ext_val a'.1 b'.1 ?_ ?_
      · rw [a'.2, b'.2, a.2, b.2, rn_neg, abs_neg]
      · rw [a'.2, a.2]; exact abs_ne_zero.2 h0
    · have h1' : ¬ |rn f (-q)| < pow2 f.emax := by rw [rn_neg, abs_neg]; exact h1
      have hi : ∀ u : Bool, FP.abs (inf u : FP f) = inf false := by
        intro u; cases u <;> rfl
      unfold ofRat
      rw [dif_neg h0, dif_neg h0', dif_neg h1, dif_neg h1', hi, hi]

omit [Libm b32] in
theorem FP.abs_sub_comm {f : Fmt} (x y : FP f) : FP.abs (FP.sub x y) = FP.abs (FP.sub y x) := by
  rcases FP.kinds x with rfl | ⟨s, rfl⟩ | hx
  · cases y <;> rfl
  · rcases FP.kinds y with rfl | ⟨t, rfl⟩ | hy
    · rfl
    · cases s <;> cases t <;> rfl
    · cases y <;> simp [fin] at hy <;> cases s <;> rfl
  · rcases FP.kinds y with rfl | ⟨t, rfl⟩ | hy
    · cases x <;> rfl
    · cases x <;> simp [fin] at hx <;> cases t <;> rfl
    · rw [sub_fin hx hy, sub_fin hy hx, FP.abs_ofRat_neg _ (y.isNeg && x.neg.isNeg), neg_sub]

/-- C32: `==` is reflexive for every colour, whatever its channels hold (NaN and infinities
included), and symmetric. -/
theorem C32_refl_symm (a b : Col F32) :
    Col.eq a a = true ∧ Col.eq a b = Col.eq b a := by
  constructor
  · unfold Col.eq; simp only [chan_self]; rfl
  · have h : ∀ x y : F32, Scalar.abs (x -. y) = Scalar.abs (y -. x) := FP.abs_sub_comm
    unfold Col.eq
    rw [h a.c0, h a.c1, h a.c2, h a.alpha]

/-- C32: a NaN channel equals anything: the result does not depend on that channel. -/
theorem C32_nan_channel (x g b a g' b' a' : F32) :
    Col.eq ⟨.nan, g, b, a⟩ ⟨x, g', b', a'⟩ = Col.eq ⟨x, g, b, a⟩ ⟨x, g', b', a'⟩ ∧
    Col.eq ⟨g, .nan, b, a⟩ ⟨g', x, b', a'⟩ = Col.eq ⟨g, x, b, a⟩ ⟨g', x, b', a'⟩ ∧
    Col.eq ⟨g, b, .nan, a⟩ ⟨g', b', x, a'⟩ = Col.eq ⟨g, b, x, a⟩ ⟨g', b', x, a'⟩ ∧
    Col.eq ⟨g, b, a, .nan⟩ ⟨g', b', a', x⟩ = Col.eq ⟨g, b, a, x⟩ ⟨g', b', a', x⟩ := by
  have h : ((EPSILON : F32) <. Scalar.abs (FP.nan -. x)) = false := by
    refine LawfulScalar.lt_nan_right _ _ ?_
    cases x <;> rfl
  unfold Col.eq
  simp only [h, chan_self]
  exact ⟨trivial, trivial, trivial, trivial⟩

/-- A gray of the given value, for the examples below. -/
def grayOf (q : ℚ) : Col F32 :=
  ⟨.ofRat b32 false q, .ofRat b32 false q, .ofRat b32 false q, .ofRat b32 false 1⟩

/-- C32: `==` is not transitive. -/
theorem C32_not_transitive : ∃ a b c : Col F32, Spec.Finite a ∧ Spec.Finite b ∧ Spec.Finite c ∧
    Col.eq a b = true ∧ Col.eq b c = true ∧ Col.eq a c = false := by
  have f0 : Spec.Finite (grayOf 0) := by unfold Spec.Finite; decide +kernel
  have f1 : Spec.Finite (grayOf (1 / 32768)) := by unfold Spec.Finite; decide +kernel
  have f2 : Spec.Finite (grayOf (2 / 32768)) := by unfold Spec.Finite; decide +kernel
  refine ⟨grayOf 0, grayOf (1 / 32768), grayOf (2 / 32768), f0, f1, f2, ?_, ?_, ?_⟩
  · exact C32_within_eq _ _ f0 f1 (by unfold Spec.Within; decide +kernel)
  · exact C32_within_eq _ _ f1 f2 (by unfold Spec.Within; decide +kernel)
  · rw [← Bool.not_eq_true]
    intro h
    have := (C32_eq_within _ _ f0 f2 h).1
    revert this
    decide +kernel

/-- Non-vacuity of the two bounds: a light and a slightly lighter gray. -/
example : Spec.Finite (grayOf (1 / 2)) ∧ Spec.Finite (grayOf (16385 / 32768)) ∧
    Spec.Within (1 / 32768) (grayOf (1 / 2)) (grayOf (16385 / 32768)) := by
  unfold Spec.Finite Spec.Within; decide +kernel

end

/-! ## C26: inversion -/

section
variable [Libm b32]

/-- C26: inverting gives the correctly rounded `1 - v` in each colour channel, which is again a
number in [0, 1], and leaves alpha alone. -/
theorem C26_invert (c : Col F32) (h0 : Spec.Chan c.c0) (h1 : Spec.Chan c.c1) (h2 : Spec.Chan c.c2) :
    Spec.Chan (Rgb.invert c).c0 ∧ (Rgb.invert c).c0.val = rn b32 (1 - c.c0.val) ∧
    Spec.Chan (Rgb.invert c).c1 ∧ (Rgb.invert c).c1.val = rn b32 (1 - c.c1.val) ∧
    Spec.Chan (Rgb.invert c).c2 ∧ (Rgb.invert c).c2.val = rn b32 (1 - c.c2.val) ∧
    (Rgb.invert c).alpha = c.alpha := by
  have key : ∀ x : F32, Spec.Chan x → Spec.Chan (lit 1 -. x) ∧ (lit 1 -. x).val = rn b32 (1 - x.val) := by
    intro x hx
    show Spec.Chan (FP.sub (FP.ofRat b32 false 1) x) ∧ (FP.sub (FP.ofRat b32 false 1) x).val = _
    rw [FP.sub_fin FP.lit1.1 hx.1, FP.lit1.2]
    have ha : |1 - x.val| ≤ 1 := by rw [abs_le]; constructor <;> linarith [hx.2.1, hx.2.2]
    have a := FP.ofRat_unit (s := (FP.ofRat b32 false 1).isNeg && x.neg.isNeg) ha
    refine ⟨⟨a.1, ?_, ?_⟩, a.2.1⟩
    · rw [a.2.1]; exact rn_nonneg (by linarith [hx.2.2])
    · rw [a.2.1]; exact (abs_le.1 a.2.2.2).2
  exact ⟨(key _ h0).1, (key _ h0).2, (key _ h1).1, (key _ h1).2, (key _ h2).1, (key _ h2).2, rfl⟩

/-- C26: inverting twice gives an equal (`==`) colour, for every colour with numbers in [0, 1] in
the colour channels and any alpha, in the program's own arithmetic. -/
theorem C26_invert_involution (c : Col F32)
    (h0 : Spec.Chan c.c0) (h1 : Spec.Chan c.c1) (h2 : Spec.Chan c.c2) :
    Col.eq (Rgb.invert (Rgb.invert c)) c = true := by
  obtain ⟨a0, b0, a1, b1, a2, b2, e⟩ := C26_invert c h0 h1 h2
  obtain ⟨a0', b0', a1', b1', a2', b2', e'⟩ := C26_invert (Rgb.invert c) a0 a1 a2
  have key : ∀ x y z : ℚ, 0 ≤ x → x ≤ 1 → y = rn b32 (1 - x) → 0 ≤ y → y ≤ 1 → z = rn b32 (1 - y) →
      |z - x| ≤ 1 / 32768 := by
    intro x y z hx0 hx1 hy hy0 hy1 hz
    have e1 := (FP.ofRat_unit (s := false) (q := 1 - x) (by rw [abs_le]; constructor <;> linarith)).2.2.1
    have e2 := (FP.ofRat_unit (s := false) (q := 1 - y) (by rw [abs_le]; constructor <;> linarith)).2.2.1
    rw [← hy] at e1
    rw [← hz] at e2
    rw [abs_le] at *
    constructor <;> linarith
  unfold Col.eq
  rw [FP.chan_eq a0'.1 h0.1 (key _ _ _ h0.2.1 h0.2.2 b0 a0.2.1 a0.2.2 b0'),
    FP.chan_eq a1'.1 h1.1 (key _ _ _ h1.2.1 h1.2.2 b1 a1.2.1 a1.2.2 b1'),
    FP.chan_eq a2'.1 h2.1 (key _ _ _ h2.2.1 h2.2.2 b2 a2.2.1 a2.2.2 b2'), e', e, chan_self]
  rfl

/-- Non-vacuity: 0.1 is a channel value; its double inverse is not the same float (but equal). -/
example : Spec.Chan (.ofRat b32 false (1 / 10)) := by unfold Spec.Chan; decide +kernel
example : (rn b32 (1 - rn b32 (1 - rn b32 (1 / 10)))) ≠ rn b32 (1 / 10) := by decide +kernel

end

/-- C26: in exact arithmetic inverting twice is the identity on all colours. -/
theorem C26_invert_involution_exact [Junk] (c : Col ℝ) : Rgb.invert (Rgb.invert c) = c := by
  unfold Rgb.invert; ex_simp; simp

/-! ## C33: display -/

/-- The name of a colour type as it is shown. -/
def Spec.typeName : Space → String
  | .rgb => "rgb" | .srgb => "srgb" | .hsl => "hsl" | .hsv => "hsv" | .yuv => "yuv" | .xyz => "xyz"
  | .lab i o => "lab<" ++ illuminant i ++ "," ++ observer o ++ ">"
  | .lch i o => "lch<" ++ illuminant i ++ "," ++ observer o ++ ">"
where
  illuminant : Illuminant → String
    | .D50 => "D50" | .D65 => "D65" | .E => "E"
  observer : Observer → String
    | .O2 => "O2" | .O10 => "O10"

/-- C33: a colour is shown as its type name, `a` exactly when it has transparency, and the comma
separated channels (the alpha only with transparency) in parentheses. `show_f32` is whatever the
standard library's number formatting does. -/
theorem C33_display {F : Type} [Scalar F] (show_f32 : F → String) (s : Space) (c : Col F) :
    format_color show_f32 s c =
      if c.has_transparency = true then
        Spec.typeName s ++ "a(" ++ ", ".intercalate
          ([c.c0, c.c1, c.c2, c.alpha].map (format_f32 show_f32)) ++ ")"
      else
        Spec.typeName s ++ "(" ++ ", ".intercalate
          ([c.c0, c.c1, c.c2].map (format_f32 show_f32)) ++ ")" := by
  have hn : type_name s = Spec.typeName s := by
    rcases s with _ | _ | _ | _ | _ | _ | ⟨_ | _ | _, _ | _⟩ | ⟨_ | _ | _, _ | _⟩ <;> decide
  have i3 : ∀ a b c : String, ", ".intercalate [a, b, c] = a ++ ", " ++ b ++ ", " ++ c :=
    fun _ _ _ => rfl
  have i4 : ∀ a b c d : String,
      ", ".intercalate [a, b, c, d] = a ++ ", " ++ b ++ ", " ++ c ++ ", " ++ d := fun _ _ _ _ => rfl
  unfold format_color
  simp only [List.foldl, ← hn, List.map, i3, i4]
  split
  · simp [String.append_assoc]
  · apply String.ext
    have hd : ∀ l : List Char, (l ++ [',', ' ']).dropLast.dropLast = l := by
      intro l
      rw [show l ++ [',', ' '] = (l ++ [',']) ++ [' '] by simp, List.dropLast_concat,
        List.dropLast_concat]
    generalize format_f32 show_f32 c.c0 = a
    generalize format_f32 show_f32 c.c1 = b
    generalize format_f32 show_f32 c.c2 = d
    simp only [String.toList_append, String.toList_ofList]
    have e : (", " : String).toList = [',', ' '] := rfl
    rw [e, hd]
    simp

/-- C33: "has transparency" means that alpha differs from 1 by more than EPSILON. -/
theorem C33_transparency [Junk] (c : Col ℝ) :
    c.has_transparency = true ↔ 1 / 32768 < |1 - c.alpha| := by
  unfold Col.has_transparency
  rw [Exact.EPSILON]; ex_simp

/-- C33: every channel is shown with a decimal point: the number is rounded to four decimals, and
`.0` is added when the standard formatting shows no point. -/
theorem C33_number {F : Type} [Scalar F] (show_f32 : F → String) (v : F) :
    (∃ w, w = show_f32 (Scalar.round (v *. lit 10000) /. lit 10000) ∧
      (('.' ∈ w.toList ∧ format_f32 show_f32 v = w) ∨
       ('.' ∉ w.toList ∧ format_f32 show_f32 v = w ++ ".0"))) := by
  refine ⟨_, rfl, ?_⟩
  unfold format_f32
  by_cases h : '.' ∈ (show_f32 (Scalar.round (v *. lit 10000) /. lit 10000)).toList
  · exact .inl ⟨h, by simp [h]⟩
  · exact .inr ⟨h, by simp [h]⟩

/-- The display of a half transparent colour, in exact arithmetic, with a formatter that always
answers "x": the general statement is not empty. -/
example (J : Junk) : format_color (fun _ : ℝ => "x") .hsl ⟨0, 1, 1 / 2, 1 / 2⟩
    = "hsla(x.0, x.0, x.0, x.0)" := by
  rw [C33_display, if_pos ((C33_transparency _).2 (by norm_num [abs_of_pos]))]
  have h : format_f32 (fun _ : ℝ => "x") = fun _ => "x.0" := by
    funext v; unfold format_f32; simp
  rw [h]; rfl
example (J : Junk) : format_color (fun _ : ℝ => "x") (.lab .D65 .O2) ⟨0, 1, 1 / 2, 1⟩
    = "lab<D65,O2>(x.0, x.0, x.0)" := by
  rw [C33_display, if_neg (fun h => absurd ((C33_transparency _).1 h) (by norm_num))]
  have h : format_f32 (fun _ : ℝ => "x") = fun _ => "x.0" := by
    funext v; unfold format_f32; simp
  rw [h]; rfl

end D10
