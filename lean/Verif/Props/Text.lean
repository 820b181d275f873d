import Verif.Lemmas.TextPrint
import Verif.Props.ColorEq
import Verif.Props.Ieee
import Verif.Props.Hsl
import Verif.Props.Cli

/-!
# C100: what a colour prints; C101: numbers on the command line

The specification is in `Verif/SpecText.lean`.
-/

namespace D10
open Spec
open Scalar (isNan lit)

/-! ## C100 -/

theorem isNeg_ofRat {f : Fmt} (s : Bool) (q : ℚ) :
    (FP.ofRat f s q).isNeg = if q = 0 then s else decide (q < 0) := by
  unfold FP.ofRat
  split
  · split <;> rfl
  · rename_i h0
    have hq : q ≠ 0 := by rintro rfl; exact h0 (rn_zero f)
    rw [if_neg hq]
    split
    · simp only [FP.isNeg]
      rw [decide_eq_decide]
      exact rn_neg_iff h0
    · rfl

theorem isNeg_val {f : Fmt} {x : FP f} (hx : x.fin = true) :
    (x.isNeg = true → x.val ≤ 0) ∧ (x.isNeg = false → 0 ≤ x.val) := by
  cases x with
  | nan => cases hx
  | inf _ => cases hx
  | zero s => exact ⟨fun _ => le_rfl, fun _ => le_rfl⟩
  | num q h => exact ⟨fun h => (of_decide_eq_true h).le, fun h => not_lt.1 (of_decide_eq_false h)⟩

theorem withPoint_sign (s : String) : withPoint ("-" ++ s) = "-" ++ withPoint s := by
  unfold withPoint
  by_cases h : '.' ∈ s.toList
  · rw [if_pos (by simp [h]), if_pos (by simp [h])]
  · rw [if_neg (by simp [h]), if_neg (by simp [h]), String.append_assoc]

theorem fourPlaces_zero : fourPlaces 0 = "0.0" := by decide

/-- The text of the float nearest to a number with four decimal places. -/
theorem printed_text {n : Nat} (hn : n ≤ 8000000) (neg : Bool) {s : String}
    (h : Prints (fourPlacesFloat neg n) s) : withPoint s = signed neg n := by
  unfold fourPlacesFloat at h
  rcases Nat.eq_zero_or_pos n with rfl | hpos
  · have : (if neg then -(((0 : Nat) : ℚ) / 10000) else ((0 : Nat) : ℚ) / 10000) = 0 := by
      cases neg <;> simp
    rw [this, FP.ofRat_zero] at h
    unfold signed
    rw [fourPlaces_zero]
    cases neg <;> (change s = _ at h; subst h; decide)
  · have nq : (1 : ℚ) ≤ n := by exact_mod_cast hpos
    have nq2 : (n : ℚ) ≤ 8000000 := by exact_mod_cast hn
    have p14 : pow2 (-14) = 1 / 16384 := by rw [pow2_eq]; norm_num
    have hlow : pow2 (-14) ≤ rn b32 ((n : ℚ) / 10000) :=
      rep_le_rn (IsRep.pow2 (by decide)) (by rw [p14]; linarith)
    have hr0 : 0 < rn b32 ((n : ℚ) / 10000) := lt_of_lt_of_le (pow2_pos _) hlow
    have hup : rn b32 ((n : ℚ) / 10000) ≤ pow2 10 :=
      rn_le_rep (IsRep.pow2 (by decide)) (by rw [pow2_eq]; norm_num; linarith)
    have hlt : rn b32 ((n : ℚ) / 10000) < pow2 b32.emax := lt_of_le_of_lt hup (pow2_lt_iff.2 (by decide))
    have hrn : rn b32 (if neg then -((n : ℚ) / 10000) else (n : ℚ) / 10000) =
        if neg then -rn b32 ((n : ℚ) / 10000) else rn b32 ((n : ℚ) / 10000) := by
      cases neg <;> simp [rn_neg]
    have habs : |rn b32 (if neg then -((n : ℚ) / 10000) else (n : ℚ) / 10000)| =
        rn b32 ((n : ℚ) / 10000) := by
      rw [hrn]; cases neg <;> simp [abs_of_pos hr0]
    unfold FP.ofRat at h
    rw [dif_neg (by rw [hrn]; cases neg <;> simp [hr0.ne']), dif_pos (by rw [habs]; exact hlt)] at h
    obtain ⟨ds, e, hd, h1, h2, h3⟩ := h
    rw [habs] at h1 h2
    obtain ⟨g, g1, g2, g3⟩ := shortest_digits hpos hn hd h1 (fun ds' e' hd' hr' => by
      rcases h2 ds' e' hd' hr' with h | ⟨h, -⟩
      · exact h.le
      · exact h.le)
    have hp := plain_fourPlaces hd g1 g2 g3
    rw [h3, hrn]
    unfold signed
    cases neg
    · simp only [Bool.false_eq_true, if_false]
      rw [if_neg (not_lt.2 hr0.le), String.empty_append, String.empty_append, hp]
    · simp only [if_true]
      rw [if_pos (by linarith), withPoint_sign, hp]

theorem lit10000 [Libm b32] : (lit 10000 : F32).fin = true ∧ (lit 10000 : F32).val = 10000 ∧
    (lit 10000 : F32).isNeg = false := by
  have h := FP.lit32 10000 (by decide)
  have e : (lit 10000 : F32) = FP.ofRat b32 false ((10000 : Int) : ℚ) := by
    show FP.ofRat b32 false 10000 = _
    norm_num
  rw [e]
  refine ⟨h.1, by rw [h.2]; norm_num, ?_⟩
  rw [isNeg_ofRat]
  norm_num

/-- The number that `format_f32` prints. -/
theorem rounded4 [Libm b32] (v : F32) (hv : v.fin = true) (hb : |v.val| ≤ 800) :
    ∃ k : Nat, k ≤ 8000000 ∧
      (Scalar.round (v *. lit 10000) /. lit 10000 : F32) = fourPlacesFloat v.isNeg k ∧
      abs ((k : ℚ) - |rn b32 (v.val * 10000)|) ≤ 1 / 2 := by
  obtain ⟨l1, l2, l3⟩ := lit10000
  have hx : (v *. lit 10000 : F32) = FP.ofRat b32 v.isNeg (v.val * 10000) := by
    show FP.mul v (lit 10000) = _
    rw [FP.mul_fin hv l1, l2, l3, Bool.xor_false]
  have hi : ((8000000 : Int) : ℚ) = 8000000 := by norm_num
  have hrep : IsRep b32 (8000000 : ℚ) := by
    rw [← hi]; exact IsRep.int (by decide)
  have hle : |v.val * 10000| ≤ 8000000 := by
    rw [abs_mul]; norm_num; linarith
  obtain ⟨x1, x2⟩ := FP.ofRat_of_le (s := v.isNeg) hrep
    (by rw [FP.pow2_b32]; norm_num) hle
  have x3 : (FP.ofRat b32 v.isNeg (v.val * 10000)).isNeg = v.isNeg := by
    rw [isNeg_ofRat]
    cases v with
    | nan => cases hv
    | inf _ => cases hv
    | zero s => simp [FP.val]
    | num q h =>
      have : q * 10000 ≠ 0 := mul_ne_zero h.1 (by norm_num)
      show (if q * 10000 = 0 then _ else decide (q * 10000 < 0)) = decide (q < 0)
      rw [if_neg this, decide_eq_decide]
      constructor <;> intro <;> linarith
  have hrle : |rn b32 (v.val * 10000)| ≤ 8000000 := rn_abs_le hrep hle
  rw [hx]
  generalize FP.ofRat b32 v.isNeg (v.val * 10000) = x at x1 x2 x3
  obtain ⟨c1, -, -, -, c5⟩ := C92_integral x
  obtain ⟨-, -, r1, n, r2, r3, r4⟩ := c1 x1
  have r5 : (Scalar.round x : F32).isNeg = v.isNeg := by rw [c5, x3]
  have x2' : x.val = rn b32 (v.val * 10000) := x2
  have hd : (Scalar.round x /. lit 10000 : F32) = FP.ofRat b32 v.isNeg ((n : ℚ) / 10000) := by
    show FP.div _ _ = _
    rw [FP.div_fin r1 l1 (by rw [l2]; norm_num), l2, l3, r5, Bool.xor_false, r2]
  have sg := isNeg_val r1
  have sx := isNeg_val x1
  rw [r5, r2] at sg
  rw [x3] at sx
  rw [← x2'] at hrle ⊢
  refine ⟨n.natAbs, ?_, ?_, ?_⟩
  · have h1 : |(n : ℚ)| < 8000001 := by
      have := abs_sub_abs_le_abs_sub (n : ℚ) x.val
      linarith
    have h2 : |n| < 8000001 := by exact_mod_cast h1
    rw [abs_lt] at h2
    omega
  · rw [hd]
    unfold fourPlacesFloat
    congr 1
    cases hs : v.isNeg
    · have h0 : 0 ≤ n := by exact_mod_cast sg.2 hs
      have : ((n.natAbs : Nat) : ℚ) = n := by
        rw [Nat.cast_natAbs, abs_of_nonneg h0]
      simp [this]
    · have h0 : n ≤ 0 := by exact_mod_cast sg.1 hs
      have : ((n.natAbs : Nat) : ℚ) = -n := by
        rw [Nat.cast_natAbs, abs_of_nonpos h0, Int.cast_neg]
      simp [this, neg_div]
  · cases hs : v.isNeg
    · have h0 : 0 ≤ n := by exact_mod_cast sg.2 hs
      have : ((n.natAbs : Nat) : ℚ) = n := by
        rw [Nat.cast_natAbs, abs_of_nonneg h0]
      rw [this, abs_of_nonneg (sx.2 hs)]
      exact r3
    · have h0 : n ≤ 0 := by exact_mod_cast sg.1 hs
      have : ((n.natAbs : Nat) : ℚ) = -n := by
        rw [Nat.cast_natAbs, abs_of_nonpos h0, Int.cast_neg]
      rw [this, abs_of_nonpos (sx.1 hs), show -(n : ℚ) - -x.val = -(n - x.val) by ring, abs_neg]
      exact r3

theorem format_f32_eq [Libm b32] (toStr : F32 → String) (v : F32) :
    format_f32 toStr v = withPoint (toStr (Scalar.round (v *. lit 10000) /. lit 10000)) := rfl

/-- C100: a number up to 800 is shown with its sign and one to four decimal places, without needless
zeros; the number shown differs from the real one by half of the last place, up to the rounding of
the product with 10000. -/
theorem C100_number [Libm b32] (toStr : F32 → String) (hs : ∀ v, Prints v (toStr v)) (v : F32)
    (hv : v.fin = true) (hb : |v.val| ≤ 800) :
    ∃ k : Nat, format_f32 toStr v = signed v.isNeg k ∧
      abs ((k : ℚ) / 10000 - |v.val|) ≤ 1 / 20000 + |v.val| / 16777216 := by
  obtain ⟨k, k1, k2, k3⟩ := rounded4 v hv hb
  refine ⟨k, ?_, ?_⟩
  · rw [format_f32_eq, k2]
    exact printed_text k1 _ (hs _)
  · have key : |(|rn b32 (v.val * 10000)| - |v.val * 10000|)| ≤ |v.val * 10000| / 16777216 ∨
        (k = 0 ∧ |v.val * 10000| ≤ 1 / 2) := by
      by_cases h : pow2 (-126) ≤ |v.val * 10000|
      · left
        exact le_trans (abs_abs_sub_abs_le _ _) (rn_rel_normal h)
      · right
        have h1 : |v.val * 10000| ≤ pow2 (-126) := (not_le.1 h).le
        have h2 := rn_abs_le (f := b32) (IsRep.pow2 (k := -126) (by decide)) h1
        have h3 : pow2 (-126) ≤ pow2 (-2) := pow2_le (by norm_num)
        have h4 : pow2 (-2) = 1 / 4 := by rw [pow2_eq]; norm_num
        rw [abs_le] at k3
        have h5 : (k : ℚ) < 1 := by linarith [k3.2]
        have h6 : k < 1 := by exact_mod_cast h5
        exact ⟨by omega, by linarith⟩
    have e : |v.val * 10000| = |v.val| * 10000 := by rw [abs_mul]; norm_num
    rw [e] at key
    rcases key with key | ⟨rfl, key⟩
    · rw [abs_le] at key k3 ⊢
      constructor <;> linarith [key.1, key.2, k3.1, k3.2]
    · have := abs_nonneg v.val
      rw [abs_le]
      constructor <;> push_cast <;> linarith

/-- C100: the float nearest to a number with at most four decimal places, up to 400, is shown as
exactly that number. -/
theorem C100_exact [Libm b32] (toStr : F32 → String) (hs : ∀ v, Prints v (toStr v)) (neg : Bool)
    (n : Nat) (hn : n ≤ 4000000) : format_f32 toStr (fourPlacesFloat neg n) = signed neg n := by
  have nq : (n : ℚ) ≤ 4000000 := by exact_mod_cast hn
  have n0 : (0 : ℚ) ≤ n := by positivity
  have hq : |(if neg then -((n : ℚ) / 10000) else (n : ℚ) / 10000)| = n / 10000 := by
    have : (0 : ℚ) ≤ (n : ℚ) / 10000 := by positivity
    cases neg <;> simp [abs_of_nonneg this]
  have hi : ((400 : Int) : ℚ) = 400 := by norm_num
  have hrep : IsRep b32 (400 : ℚ) := by rw [← hi]; exact IsRep.int (by decide)
  have hle : |(if neg then -((n : ℚ) / 10000) else (n : ℚ) / 10000)| ≤ 400 := by
    rw [hq]; linarith
  obtain ⟨v1, v2⟩ := FP.ofRat_of_le (s := neg) hrep (by rw [FP.pow2_b32]; norm_num) hle
  have v3 : (fourPlacesFloat neg n).isNeg = neg := by
    unfold fourPlacesFloat
    rw [isNeg_ofRat]
    by_cases h0 : n = 0
    · subst h0; cases neg <;> simp
    · have : (0 : ℚ) < n := by exact_mod_cast Nat.pos_of_ne_zero h0
      cases neg
      · simp [h0]; linarith
      · simp [h0]; omega
  have v4 : |(fourPlacesFloat neg n).val| = rn b32 ((n : ℚ) / 10000) := by
    have : (fourPlacesFloat neg n).val = _ := v2
    rw [this]
    have h0 := rn_nonneg (f := b32) (show (0 : ℚ) ≤ (n : ℚ) / 10000 by positivity)
    cases neg <;> simp [rn_neg, abs_of_nonneg h0]
  have hv : (fourPlacesFloat neg n).fin = true := v1
  have v5 : rn b32 ((n : ℚ) / 10000) ≤ 400 := rn_le_rep hrep (by linarith)
  obtain ⟨k, k1, k2, k3⟩ := rounded4 (fourPlacesFloat neg n) hv (by rw [v4]; linarith)
  rw [format_f32_eq, k2, v3]
  rw [printed_text k1 _ (hs _)]
  congr 1
  have e1 : |rn b32 ((fourPlacesFloat neg n).val * 10000)| =
      rn b32 (rn b32 ((n : ℚ) / 10000) * 10000) := by
    rw [← v4]
    generalize (fourPlacesFloat neg n).val = x
    rcases le_total 0 x with h | h
    · rw [abs_of_nonneg h, abs_of_nonneg (rn_nonneg (by positivity))]
    · rw [abs_of_nonpos h, show -x * 10000 = -(x * 10000) by ring, rn_neg,
        abs_of_nonpos]
      have := rn_nonneg (f := b32) (show 0 ≤ -(x * 10000) by linarith)
      rw [rn_neg] at this
      linarith
  rw [e1] at k3
  rcases Nat.eq_zero_or_pos n with rfl | hpos
  · simp only [Nat.cast_zero, zero_div, rn_zero, zero_mul, sub_zero] at k3
    rw [abs_le] at k3
    have h5 : (k : ℚ) < 1 := by linarith [k3.2]
    have h6 : k < 1 := by exact_mod_cast h5
    omega
  · have nq1 : (1 : ℚ) ≤ n := by exact_mod_cast hpos
    have p14 : pow2 (-14) = 1 / 16384 := by rw [pow2_eq]; norm_num
    have h126 : pow2 (-126) ≤ pow2 (-14) := pow2_le (by norm_num)
    have a0 : (0 : ℚ) < (n : ℚ) / 10000 := by linarith
    have a1 := rn_rel_normal (q := (n : ℚ) / 10000) (by rw [abs_of_pos a0]; linarith)
    rw [abs_of_pos a0] at a1
    have b0 : pow2 (-14) ≤ rn b32 ((n : ℚ) / 10000) :=
      rep_le_rn (IsRep.pow2 (by decide)) (by rw [p14]; linarith)
    generalize rn b32 ((n : ℚ) / 10000) = y at *
    have y0 : 0 < y := lt_of_lt_of_le (pow2_pos _) b0
    have a2 := rn_rel_normal (q := y * 10000) (by rw [abs_of_pos (by linarith)]; linarith)
    rw [abs_of_pos (show 0 < y * 10000 by linarith)] at a2
    generalize rn b32 (y * 10000) = z at *
    rw [abs_le] at a1 a2 k3
    have c1 : (k : ℚ) < n + 1 := by linarith [a1.2, a2.2, k3.2]
    have c2 : (n : ℚ) < k + 1 := by linarith [a1.1, a2.1, k3.1]
    have d1 : k < n + 1 := by exact_mod_cast c1
    have d2 : n < k + 1 := by exact_mod_cast c2
    omega

/-- C100: what is not a number or not finite is shown with `.0` after its name, and a zero keeps its
sign. -/
theorem C100_special [Libm b32] (toStr : F32 → String) (hs : ∀ v, Prints v (toStr v)) :
    format_f32 toStr .nan = "NaN.0" ∧ format_f32 toStr (.inf false) = "inf.0" ∧
    format_f32 toStr (.inf true) = "-inf.0" ∧ format_f32 toStr (.zero false) = "0.0" ∧
    format_f32 toStr (.zero true) = "-0.0" := by
  obtain ⟨l1, l2, l3⟩ := lit10000
  have key : ∀ v w : F32, (Scalar.round (v *. lit 10000) /. lit 10000 : F32) = w →
      format_f32 toStr v = withPoint (toStr w) := by
    rintro v w rfl; rfl
  have hl : ∃ h, (lit 10000 : F32) = FP.num 10000 h := by
    generalize (lit 10000 : F32) = x at l1 l2 l3
    cases x with
    | nan => cases l1
    | inf _ => cases l1
    | zero _ => simp [FP.val] at l2
    | num q h =>
      change q = 10000 at l2
      subst l2
      exact ⟨h, rfl⟩
  obtain ⟨h, hl⟩ := hl
  have hn : (decide ((10000 : ℚ) < 0)) = false := by decide
  refine ⟨?_, ?_, ?_, ?_, ?_⟩
  · rw [key .nan .nan (by rw [hl]; rfl), (show toStr .nan = "NaN" from hs .nan)]; decide
  · rw [key (.inf false) (.inf false) (by rw [hl]; rfl),
      (show toStr (.inf false) = "inf" from hs (.inf false))]; decide
  · rw [key (.inf true) (.inf true) (by rw [hl]; rfl),
      (show toStr (.inf true) = "-inf" from hs (.inf true))]; decide
  · exact C100_exact toStr hs false 0 (by norm_num) |> fun e => by
      rw [show fourPlacesFloat false 0 = .zero false by
        unfold fourPlacesFloat; simp [FP.ofRat_zero]] at e
      rw [e]; decide
  · exact C100_exact toStr hs true 0 (by norm_num) |> fun e => by
      rw [show fourPlacesFloat true 0 = .zero true by
        unfold fourPlacesFloat; simp [FP.ofRat_zero]] at e
      rw [e]; decide

/-- C100: a colour whose channels are the floats nearest to numbers with at most four decimal places
is shown with exactly these numbers; the alpha is left out exactly if it is 1. -/
theorem C100_color [Libm b32] (toStr : F32 → String) (hs : ∀ v, Prints v (toStr v)) (s : Space)
    (g0 g1 g2 : Bool) (n0 n1 n2 a : Nat) (h0 : n0 ≤ 4000000) (h1 : n1 ≤ 4000000) (h2 : n2 ≤ 4000000)
    (ha : a ≤ 10000) :
    format_color toStr s ⟨fourPlacesFloat g0 n0, fourPlacesFloat g1 n1, fourPlacesFloat g2 n2,
        fourPlacesFloat false a⟩ =
      if a = 10000 then typeName s ++ "(" ++ signed g0 n0 ++ ", " ++ signed g1 n1 ++ ", " ++
        signed g2 n2 ++ ")"
      else typeName s ++ "a(" ++ signed g0 n0 ++ ", " ++ signed g1 n1 ++ ", " ++ signed g2 n2 ++
        ", " ++ fourPlaces a ++ ")" := by
  have ht : (⟨fourPlacesFloat g0 n0, fourPlacesFloat g1 n1, fourPlacesFloat g2 n2,
      fourPlacesFloat false a⟩ : Col F32).has_transparency = decide (a ≠ 10000) := by
    unfold Col.has_transparency
    have aq : (a : ℚ) ≤ 10000 := by exact_mod_cast ha
    have a0 : (0 : ℚ) ≤ (a : ℚ) / 10000 := by positivity
    have l1 : (lit 1 : F32).fin = true ∧ (lit 1 : F32).val = 1 := FP.lit1
    obtain ⟨f1, f2⟩ := FP.ofRat_unit (s := false) (q := (a : ℚ) / 10000)
      (by rw [abs_of_nonneg a0]; linarith)
    have f1' : (fourPlacesFloat false a).fin = true := f1
    have f2' : (fourPlacesFloat false a).val = rn b32 ((a : ℚ) / 10000) := f2.1
    obtain ⟨sg, hs1⟩ : ∃ sg, (lit 1 -. fourPlacesFloat false a : F32) =
        FP.ofRat b32 sg (1 - rn b32 ((a : ℚ) / 10000)) := by
      have := FP.sub_fin l1.1 f1'
      rw [l1.2, f2'] at this
      exact ⟨_, this⟩
    have r0 := rn_nonneg (f := b32) a0
    have r1 : rn b32 ((a : ℚ) / 10000) ≤ 1 := le_trans (le_abs_self _) f2.2.2
    obtain ⟨u1, u2, u3, -⟩ := FP.ofRat_unit (s := sg) (q := 1 - rn b32 ((a : ℚ) / 10000))
      (by rw [abs_of_nonneg (by linarith)]; linarith)
    rw [hs1]
    show FP.lt EPSILON (FP.abs _) = _
    rw [FP.lt_fin FP.epsilon.1 (FP.abs_fin u1).1, FP.epsilon.2, (FP.abs_fin u1).2, u2, decide_eq_decide]
    by_cases h : a = 10000
    · subst h
      have e : rn b32 (((10000 : Nat) : ℚ) / 10000) = 1 := by
        have := rn_rep (f := b32) (IsRep.int (z := 1) (by decide))
        push_cast at this ⊢
        norm_num
        exact this
      rw [e]
      norm_num [rn_zero]
    · have h' : a ≤ 9999 := by omega
      have aq' : (a : ℚ) ≤ 9999 := by exact_mod_cast h'
      have e1 := f2.2.1
      rw [abs_le] at e1 u3
      refine ⟨fun _ => h, fun _ => lt_of_lt_of_le ?_ (le_abs_self _)⟩
      linarith [e1.2, u3.1]
  rw [C33_display, ht]
  have hsg : signed false a = fourPlaces a := by simp [signed]
  simp only [List.map, C100_exact toStr hs _ _ h0, C100_exact toStr hs _ _ h1,
    C100_exact toStr hs _ _ h2, C100_exact toStr hs false a (by omega), hsg]
  by_cases h : a = 10000
  · simp only [h, ne_eq, not_true, decide_false, Bool.false_eq_true, if_false, if_true]
    show typeName s ++ "(" ++ (signed g0 n0 ++ ", " ++ signed g1 n1 ++ ", " ++ signed g2 n2) ++ ")" = _
    simp [String.append_assoc]
  · simp only [h, ne_eq, not_false_eq_true, decide_true, if_true, if_false]
    show typeName s ++ "a(" ++ (signed g0 n0 ++ ", " ++ signed g1 n1 ++ ", " ++ signed g2 n2 ++ ", " ++
      fourPlaces a) ++ ")" = _
    simp [String.append_assoc]

/-- C100: the hue of a grey colour in HSV is shown as `NaN.0`. -/
theorem C100_gray_hsv [Libm b32] (toStr : F32 → String) (hs : ∀ v, Prints v (toStr v)) (v a : F32)
    (hv : v.fin = true) (h0 : 1 / 32768 ≤ v.val) (h1 : v.val ≤ 1) :
    ∃ rest, format_color toStr .hsv (to_hsv .rgb (⟨v, v, v, a⟩ : Col F32)) = "hsv(NaN.0, " ++ rest ∨
      format_color toStr .hsv (to_hsv .rgb (⟨v, v, v, a⟩ : Col F32)) = "hsva(NaN.0, " ++ rest := by
  have hh := (C29_gray_hue_is_nan v a hv h0 h1).1
  generalize to_hsv .rgb (⟨v, v, v, a⟩ : Col F32) = c at hh
  rw [C33_display]
  simp only [List.map, hh, (C100_special toStr hs).1]
  split
  · refine ⟨format_f32 toStr c.c1 ++ ", " ++ format_f32 toStr c.c2 ++ ", " ++ format_f32 toStr c.alpha ++
      ")", .inr ?_⟩
    show "hsv" ++ "a(" ++ ("NaN.0" ++ ", " ++ format_f32 toStr c.c1 ++ ", " ++ format_f32 toStr c.c2 ++
      ", " ++ format_f32 toStr c.alpha) ++ ")" = _
    rw [show ("hsva(NaN.0, " : String) = "hsv" ++ "a(" ++ "NaN.0" ++ ", " by decide]
    simp only [String.append_assoc]
  · refine ⟨format_f32 toStr c.c1 ++ ", " ++ format_f32 toStr c.c2 ++ ")", .inl ?_⟩
    show "hsv" ++ "(" ++ ("NaN.0" ++ ", " ++ format_f32 toStr c.c1 ++ ", " ++ format_f32 toStr c.c2) ++
      ")" = _
    rw [show ("hsv(NaN.0, " : String) = "hsv" ++ "(" ++ "NaN.0" ++ ", " by decide]
    simp only [String.append_assoc]

/-- C100: a negative number that is rounded to zero is shown as `-0.0`. -/
theorem C100_negative_zero [Libm b32] (toStr : F32 → String) (hs : ∀ v, Prints v (toStr v)) (v : F32)
    (hv : v.fin = true) (h0 : v.val < 0) (h1 : -(1 / 32768) ≤ v.val) : format_f32 toStr v = "-0.0" := by
  obtain ⟨k, -, k2, k3⟩ := rounded4 v hv (by rw [abs_of_neg h0]; linarith)
  have hn : v.isNeg = true := by
    cases v with
    | nan => cases hv
    | inf _ => cases hv
    | zero s => exact absurd h0 (lt_irrefl _)
    | num q h => exact decide_eq_true h0
  have hle : |v.val * 10000| ≤ 1 := by rw [abs_of_neg (by linarith)]; linarith
  obtain ⟨-, -, e1, -⟩ := FP.ofRat_unit (s := false) hle
  have e2 : |rn b32 (v.val * 10000)| ≤ |v.val * 10000| + 1 / 33554432 := by
    have := abs_sub_abs_le_abs_sub (rn b32 (v.val * 10000)) (v.val * 10000)
    linarith
  have e3 : |v.val * 10000| ≤ 10000 / 32768 := by rw [abs_of_neg (by linarith)]; linarith
  rw [abs_le] at k3
  have h5 : (k : ℚ) < 1 := by linarith [k3.2]
  have h6 : k < 1 := by exact_mod_cast h5
  have : k = 0 := by omega
  subst this
  rw [format_f32_eq, k2, hn, printed_text (by norm_num) true (hs _)]
  decide

/-! Every number has a text, so the hypothesis of the theorems about `toStr` can be met. -/

theorem exists_digits {q : ℚ} (hq : 0 < q) (hr : IsRep b32 q) :
    ∃ ds e, Digits ds ∧ rn b32 (decimal ds e) = q := by
  obtain ⟨m, x, -, -, hm⟩ := id hr
  have mpos : 0 < m := by
    rw [hm] at hq
    exact_mod_cast (pos_iff_pos_of_mul_pos hq).2 (pow2_pos x)
  obtain ⟨N, y, hN, hy⟩ : ∃ (N : Nat) (y : Int), 0 < N ∧ q = N * (10 : ℚ) ^ y := by
    rw [pow2_eq] at hm
    lift m to Nat using mpos.le
    rcases le_total 0 x with h | h
    · lift x to Nat using h
      refine ⟨m * 2 ^ x, 0, by have : 0 < m := by exact_mod_cast mpos
                               positivity, ?_⟩
      rw [hm]
      push_cast
      simp
    · obtain ⟨y, rfl⟩ : ∃ y : Nat, x = -y := ⟨(-x).toNat, by omega⟩
      refine ⟨m * 5 ^ y, -y, by have : 0 < m := by exact_mod_cast mpos
                                positivity, ?_⟩
      rw [hm, zpow_neg, zpow_neg, zpow_natCast, zpow_natCast, show (10 : ℚ) = 5 * 2 by norm_num, mul_pow]
      push_cast
      field_simp
  refine ⟨Nat.toDigits 10 N, (Nat.toDigits 10 N).length + y, digits_toDigits hN, ?_⟩
  rw [show decimal (Nat.toDigits 10 N) ((Nat.toDigits 10 N).length + y) = q by
    unfold decimal
    rw [digitsValue_toDigits, hy, add_sub_cancel_left]]
  exact rn_rep hr

theorem decimal_bounds {ds : List Char} (h : Digits ds) (e : Int) :
    (10 : ℚ) ^ (e - 1) ≤ decimal ds e ∧ decimal ds e < (10 : ℚ) ^ e := by
  have hlen : 0 < ds.length := List.length_pos_of_ne_nil h.some
  have h1 : ((10 : ℚ) ^ (ds.length - 1)) ≤ digitsValue ds := by exact_mod_cast h.pos
  have h2 : (digitsValue ds : ℚ) < (10 : ℚ) ^ ds.length := by exact_mod_cast digitsValue_lt h.digit
  have hp : (0 : ℚ) < 10 ^ (e - ds.length) := by positivity
  unfold decimal
  constructor
  · calc (10 : ℚ) ^ (e - 1) = 10 ^ (ds.length - 1) * 10 ^ (e - ds.length) := by
          rw [← zpow_natCast, ← zpow_add₀ (by norm_num)]
          congr 1
          omega
      _ ≤ _ := mul_le_mul_of_nonneg_right h1 hp.le
  · calc _ < (10 : ℚ) ^ ds.length * 10 ^ (e - ds.length) := mul_lt_mul_of_pos_right h2 hp
      _ = _ := by
          rw [← zpow_natCast, ← zpow_add₀ (by norm_num)]
          congr 1
          omega

theorem exponent_bounds {ds : List Char} {e : Int} (hd : Digits ds) {q : ℚ} (hq : 0 < q)
    (hr : IsRep b32 q) (hl : q < pow2 b32.emax) (h : rn b32 (decimal ds e) = q) : -60 ≤ e ∧ e ≤ 60 := by
  obtain ⟨b1, b2⟩ := decimal_bounds hd e
  have hD := decimal_pos (e := e) hd
  constructor
  · by_contra hc
    have h1 : (10 : ℚ) ^ e ≤ 10 ^ (-60 : Int) := zpow_le_zpow_right₀ (by norm_num) (by omega)
    have h2 : (10 : ℚ) ^ (-60 : Int) < 2 ^ (-150 : Int) := by norm_num
    have h3 : (2 : ℚ) ^ (-150 : Int) ≤ 2 ^ (-125 : Int) := zpow_le_zpow_right₀ (by norm_num) (by norm_num)
    have e1 := rn_err_le (f := b32) (q := decimal ds e) (k := -125) (by decide)
      (by rw [abs_of_pos hD, pow2_eq]; linarith)
    obtain ⟨m, x, -, hx, hm⟩ := hr
    have mpos : 0 < m := by
      rw [hm] at hq
      exact_mod_cast (pos_iff_pos_of_mul_pos hq).2 (pow2_pos x)
    have hq2 : pow2 (-149) ≤ q := by
      have m1 : (1 : ℚ) ≤ m := by exact_mod_cast mpos
      have := pow2_le (show (-149 : Int) ≤ x from hx)
      rw [hm]
      nlinarith [pow2_pos x]
    rw [h, abs_le] at e1
    have e2 := e1.2
    rw [pow2_eq] at e2 hq2
    have h4 : (2 : ℚ) ^ (-149 : Int) = 2 * 2 ^ (-150 : Int) := by norm_num
    norm_num [b32] at e2 hq2 h1 h2 
    linarith
  · by_contra hc
    have h1 : (10 : ℚ) ^ (60 : Int) ≤ 10 ^ (e - 1) := zpow_le_zpow_right₀ (by norm_num) (by omega)
    have h2 : pow2 b32.emax ≤ decimal ds e := by
      rw [FP.pow2_b32]
      refine le_trans ?_ (le_trans h1 b1)
      norm_num
    have h3 := rep_le_rn (f := b32) (IsRep.pow2 (k := b32.emax) (by decide)) h2
    rw [h] at h3
    linarith

/-- C100: every float has a text of the standard library, so the hypothesis about `toStr` can be met. -/
theorem C100_printable : ∃ toStr : F32 → String, ∀ v, Prints v (toStr v) := by
  suffices h : ∀ v : F32, ∃ s, Prints v s from ⟨fun v => (h v).choose, fun v => (h v).choose_spec⟩
  intro v
  cases v with
  | nan => exact ⟨_, rfl⟩
  | inf neg => exact ⟨_, rfl⟩
  | zero neg => exact ⟨_, rfl⟩
  | num q h =>
    have hq : 0 < |q| := abs_pos.2 h.1
    have hr : IsRep b32 |q| := by
      rcases abs_choice q with e | e <;> rw [e]
      · exact h.2.1
      · exact h.2.1.neg
    classical
    have hex : ∃ n, ∃ ds e, Digits ds ∧ ds.length = n ∧ rn b32 (decimal ds e) = |q| := by
      obtain ⟨ds, e, h1, h2⟩ := exists_digits hq hr
      exact ⟨_, ds, e, h1, rfl, h2⟩
    obtain ⟨ds0, e0, a1, a2, a3⟩ := Nat.find_spec hex
    have hmin := fun n => Nat.find_min' hex (m := n)
    generalize Nat.find hex = n at a2 hmin
    let T : Finset (Nat × Int) := (Finset.range (10 ^ n) ×ˢ Finset.Icc (-60) 60).filter fun p =>
      ∃ ds, Digits ds ∧ ds.length = n ∧ digitsValue ds = p.1 ∧ rn b32 (decimal ds p.2) = |q|
    have hT : ∀ ds e, Digits ds → ds.length = n → rn b32 (decimal ds e) = |q| →
        (digitsValue ds, e) ∈ T := by
      intro ds e h1 h2 h3
      have hb := exponent_bounds h1 hq hr h.2.2 h3
      have hl := digitsValue_lt h1.digit
      rw [h2] at hl
      simp only [T, Finset.mem_filter, Finset.mem_product, Finset.mem_range, Finset.mem_Icc]
      exact ⟨⟨hl, hb⟩, ds, h1, h2, rfl, h3⟩
    obtain ⟨⟨m, e⟩, hm, hle⟩ := Finset.exists_min_image T
      (fun p => abs ((p.1 : ℚ) * (10 : ℚ) ^ (p.2 - n) - |q|)) ⟨_, hT ds0 e0 a1 a2 a3⟩
    obtain ⟨-, ds, d1, d2, d3, d4⟩ := Finset.mem_filter.1 hm
    refine ⟨_, ds, e, d1, d4, fun ds' e' h1 h2 => ?_, rfl⟩
    rcases lt_or_eq_of_le (hmin ds'.length ⟨ds', e', h1, rfl, h2⟩) with hlt | heq
    · exact .inl (by omega)
    · refine .inr ⟨by omega, ?_⟩
      have := hle _ (hT ds' e' h1 heq.symm h2)
      simp only at this d3
      unfold decimal
      rw [d2, ← heq, d3]
      exact this

/-- The theorems applied: 0.3 and -12.5 in a colour, in whatever way the standard library is
implemented. -/
example [Libm b32] (toStr : F32 → String) (hs : ∀ v, Prints v (toStr v)) :
    format_f32 toStr (.ofRat b32 false (3 / 10)) = "0.3" ∧
    format_f32 toStr (.ofRat b32 true (-(25 / 2))) = "-12.5" ∧
    format_color toStr .hsl ⟨.ofRat b32 false (33 / 100), .ofRat b32 false (666 / 1000),
      .ofRat b32 false (999 / 1000), .ofRat b32 false (5555 / 10000)⟩ =
      "hsla(0.33, 0.666, 0.999, 0.5555)" := by
  have h1 := C100_exact toStr hs false 3000 (by norm_num)
  have h2 := C100_exact toStr hs true 125000 (by norm_num)
  have h3 := C100_color toStr hs .hsl false false false 3300 6660 9990 5555 (by norm_num) (by norm_num)
    (by norm_num) (by norm_num)
  unfold fourPlacesFloat at h1 h2 h3
  norm_num at h1 h2 h3
  refine ⟨h1.trans (by decide), h2.trans (by decide), ?_⟩
  norm_num
  exact h3.trans (by decide)

/-! ## C101 -/

/-- C101: `str::parse::<f32>` gives exactly the numbers of the grammar, correctly rounded. -/
theorem C101_reads (s : String) (v : F32) : parse_f32 s = some v ↔ Reads s v := parse_f32_iff s v

/-- C101: what has no meaning in the grammar is refused, and nothing has two meanings. -/
theorem C101_refuses (s : String) : (parse_f32 s = none ↔ ∀ v, ¬ Reads s v) ∧
    ∀ v w, Reads s v → Reads s w → v = w := by
  constructor
  · rw [Option.eq_none_iff_forall_ne_some]
    exact forall_congr' fun v => not_congr (parse_f32_iff s v)
  · intro v w h1 h2
    have e1 := (parse_f32_iff s v).2 h1
    have e2 := (parse_f32_iff s w).2 h2
    rw [e1] at e2
    exact Option.some.inj e2

theorem numeral_plain {ds : List Char} (h : Digits ds) (e : Int) :
    Numeral (plain ds e).toList (decimal ds e) := by
  have hlen : 0 < ds.length := List.length_pos_of_ne_nil h.some
  have hz : ∀ n, ∀ c ∈ List.replicate n '0', c.isDigit = true := by
    intro n c hc
    rw [(List.mem_replicate.1 hc).2]; decide
  unfold plain decimal
  split
  · rename_i h0
    have := Numeral.point ['0'] (List.replicate (-e).toNat '0' ++ ds) [] 0 (by decide)
      (fun c hc => (List.mem_append.1 hc).elim (hz _ c) (h.digit c)) (.inl (by decide)) .without
    rw [digitsValue_append, digitsValue_append, digitsValue_zeros,
      show digitsValue ['0'] = 0 by decide, Nat.zero_mul, Nat.zero_mul, Nat.zero_add, Nat.zero_add] at this
    convert this using 2
    · simp
    · simp only [List.length_append, List.length_replicate]
      congr 1
      omega
  · split
    · have := Numeral.point (ds.take e.toNat) (ds.drop e.toNat) [] 0
        (fun c hc => h.digit c (List.mem_of_mem_take hc)) (fun c hc => h.digit c (List.mem_of_mem_drop hc))
        (by
          right
          intro hn
          rw [List.drop_eq_nil_iff] at hn
          omega) .without
      rw [List.take_append_drop] at this
      convert this using 2
      · simp
      · rw [List.length_drop]
        congr 1
        omega
    · have := Numeral.whole (ds ++ List.replicate (e.toNat - ds.length) '0') [] 0
        (fun c hc => (List.mem_append.1 hc).elim (h.digit c) (hz _ c)) (by simp [h.some]) .without
      rw [digitsValue_append, digitsValue_zeros, List.length_replicate, Nat.add_zero] at this
      convert this using 1
      · simp
      · rw [zpow_zero, mul_one, Nat.cast_mul, Nat.cast_pow]
        congr 1
        rw [Nat.cast_ofNat, ← zpow_natCast]
        congr 1
        omega

theorem reads_sign {neg : Bool} {s : String} {v : F32} (h : Means neg s.toList v) :
    Reads ((if neg then "-" else "") ++ s) v := by
  cases neg
  · exact .unsigned v (by simpa using h)
  · exact .minus v s.toList (by simp) h

/-- C101: a number that the standard library has printed is read as the same number again (and also a
NaN as a NaN). -/
theorem C101_round_trip (v : F32) (s : String) (h : Prints v s) : parse_f32 s = some v := by
  rw [parse_f32_iff]
  cases v with
  | nan =>
    change s = "NaN" at h
    subst h
    exact .unsigned _ (.nan (by decide))
  | inf neg =>
    change s = _ at h
    subst h
    cases neg
    · exact reads_sign (neg := false) (s := "inf") (.inf (.inl (by decide)))
    · exact reads_sign (neg := true) (s := "inf") (.inf (.inl (by decide)))
  | zero neg =>
    change s = _ at h
    subst h
    have h1 : Means neg "0".toList (.zero neg) := by
      have := Means.number (neg := neg) _ (Numeral.whole ['0'] [] 0 (by decide) (by decide) .without)
      rw [show digitsValue ['0'] = 0 by decide, Nat.cast_zero, zero_mul, neg_zero, ite_self,
        FP.ofRat_zero] at this
      exact this
    have := reads_sign h1
    cases neg <;> exact this
  | num q hq =>
    obtain ⟨ds, e, d1, d2, -, rfl⟩ := h
    have h1 : Means (decide (q < 0)) (plain ds e).toList (.num q hq) := by
      have := Means.number (neg := decide (q < 0)) _ (numeral_plain d1 e)
      have hr : rn b32 (if decide (q < 0) = true then -decimal ds e else decimal ds e) = q := by
        by_cases h0 : q < 0
        · simp only [h0, decide_true, if_true]
          rw [rn_neg, d2, abs_of_neg h0, neg_neg]
        · simp only [h0, decide_false, Bool.false_eq_true, if_false]
          rw [d2, abs_of_nonneg (not_lt.1 h0)]
      unfold FP.ofRat at this
      rw [dif_neg (by rw [hr]; exact hq.1), dif_pos (by rw [hr]; exact hq.2.2)] at this
      convert this using 1
      congr 1
      exact hr.symm
    have := reads_sign h1
    simpa using this

/-- C101: a number with four decimal places, as it is shown by a colour, is read as the float nearest
to it; so what a colour shows of the floats of C100_exact is read as the same floats again. -/
theorem C101_four_places (neg : Bool) (n : Nat) :
    parse_f32 (signed neg n) = some (fourPlacesFloat neg n) := by
  rw [parse_f32_iff]
  refine reads_sign ?_
  have hp : digitsValue ((places n).map Nat.digitChar) * 10 ^ (4 - (places n).length) = n % 10000 ∧
      (places n).length ≤ 4 ∧ ∀ d ∈ places n, d < 10 := by
    have hv : ∀ d, d < 10 → (Nat.digitChar d).toNat - 48 = d := fun d hd =>
      Nat.toNat_digitChar_sub_48_of_lt_ten hd
    unfold places
    split_ifs <;> refine ⟨?_, by simp, ?_⟩ <;>
      simp only [List.map, digitsValue, List.foldl, List.length, List.mem_cons, List.not_mem_nil, or_false]
    all_goals first
      | (rw [hv _ (by omega), hv _ (by omega), hv _ (by omega), hv _ (by omega)]; omega)
      | (rw [hv _ (by omega), hv _ (by omega), hv _ (by omega)]; omega)
      | (rw [hv _ (by omega), hv _ (by omega)]; omega)
      | (rw [hv _ (by omega)]; omega)
      | omega
  obtain ⟨p1, p2, p3⟩ := hp
  have := Means.number (neg := neg) _ (Numeral.point (Nat.toDigits 10 (n / 10000))
    ((places n).map Nat.digitChar) [] 0
    (fun c hc => Nat.isDigit_of_mem_toDigits (by decide) (by decide) hc)
    (fun c hc => by
      obtain ⟨d, hd, rfl⟩ := List.mem_map.1 hc
      rw [Nat.isDigit_digitChar]
      exact decide_eq_true (p3 d hd))
    (.inl Nat.toDigits_ne_nil) .without)
  have hq : ((digitsValue (Nat.toDigits 10 (n / 10000) ++ (places n).map Nat.digitChar) : Nat) : ℚ) *
      10 ^ ((0 : Int) - ((places n).map Nat.digitChar).length) = n / 10000 := by
    rw [digitsValue_append, digitsValue_toDigits, List.length_map]
    have e : (n : ℚ) = ((n / 10000 * 10 ^ (places n).length +
        digitsValue ((places n).map Nat.digitChar)) * 10 ^ (4 - (places n).length) : Nat) := by
      congr 1
      rw [Nat.add_mul, p1, Nat.mul_assoc, ← Nat.pow_add, show (places n).length + (4 - (places n).length) = 4
        by omega]
      omega
    rw [e]
    push_cast
    have : (10 : ℚ) ^ ((0 : Int) - (places n).length) = 10 ^ (4 - (places n).length) / 10000 := by
      rw [eq_div_iff (by norm_num), show (10000 : ℚ) = 10 ^ (4 : Int) by norm_num, ← zpow_add₀ (by norm_num),
        ← zpow_natCast]
      congr 1
      omega
    rw [this]
    ring
  rw [hq] at this
  unfold fourPlacesFloat
  convert this using 1
  unfold fourPlaces
  rw [Nat.toString_eq_ofList_toDigits]
  simp

/-- C101: every option with a number, anywhere on the command line, takes exactly the texts that can
be read, also those beginning with a minus, and refuses the others. -/
theorem C101_option {P : Type} (lossy : P → String) (program o p : P) (before rest : List P)
    (name : String) (cmd : F32 → Cmd F32 P) (hn : NumberOption name cmd) (ho : lossy o = "-" ++ name)
    (cmds : List (Cmd F32 P)) (hb : LineMeans lossy parse_f32 true before cmds) :
    (∀ all, parse lossy parse_f32 create_args (program :: before ++ o :: p :: rest) = .ok ⟨all⟩ ↔
      ∃ v more, Reads (lossy p) v ∧ all = cmds ++ cmd v :: more ∧
        LineMeans lossy parse_f32 false rest more) ∧
    ((∀ v, ¬ Reads (lossy p) v) →
      parse lossy parse_f32 create_args (program :: before ++ o :: p :: rest) =
        .error ("Bad argument for parameter " ++ name ++ ": " ++ lossy p)) := by
  have herr : (∀ v, ¬ Reads (lossy p) v) →
      parse lossy parse_f32 create_args (program :: before ++ o :: p :: rest) =
        .error ("Bad argument for parameter " ++ name ++ ": " ++ lossy p) := fun h =>
    (C63_error ..).2 ⟨before, o :: p :: rest, cmds, rfl, hb,
      .not_number o p rest name cmd hn ho ((C101_refuses _).1.2 h)⟩
  refine ⟨fun all => ?_, herr⟩
  by_cases hv : ∃ v, Reads (lossy p) v
  · obtain ⟨v, hv⟩ := hv
    have hp := (parse_f32_iff _ _).2 hv
    obtain ⟨q, e1, e2⟩ := loop_complete hb Queue.new (o :: p :: rest) rfl
    simp only [Queue.new, List.nil_append] at e1
    have hi : LineMeans lossy parse_f32 q.is_empty ([o, p] ++ []) [cmd v] :=
      .cons _ [o, p] _ [] [] (.option _ _ _ (.number o p name cmd v hn ho hp)) (.nil _)
    obtain ⟨q2, e3, e4⟩ := loop_complete hi q rest rfl
    have he : q2.is_empty = false := by
      rw [Queue.is_empty, e3, e1]
      cases cmds <;> rfl
    have e5 : parse lossy parse_f32 create_args (program :: before ++ o :: p :: rest) =
        parseLoop lossy parse_f32 create_args q2 rest := by
      rw [parse, List.cons_append, List.tail_cons, e2]
      exact e4
    rw [e5]
    constructor
    · intro h
      have h1 := loop_sound (lossy := lossy) (number := parse_f32) rest q2
      rw [h, he] at h1
      obtain ⟨more, e6, e7⟩ := h1
      refine ⟨v, more, hv, ?_, e7⟩
      simpa [e1, e3] using e6
    · rintro ⟨w, more, hw, rfl, h⟩
      have : w = v := (C101_refuses _).2 w v hw hv
      subst this
      obtain ⟨q', e6, e7⟩ := loop_complete h q2 [] he
      rw [List.append_nil] at e7
      rw [e7, parseLoop]
      cases q'
      simp only [e1, e3, List.append_assoc, List.singleton_append] at e6
      rw [e6]
  · have h := herr fun v h => hv ⟨v, h⟩
    rw [h]
    constructor
    · intro h; cases h
    · rintro ⟨v, -, h, -⟩; exact absurd ⟨v, h⟩ hv

/-- The theorem applied to a negative brightness: the minus does not make it an option. -/
example : parse id parse_f32 create_args ["d10", "in.png", "-brightness", "-0.5", "out.png"] =
    .ok ⟨[.Open "in.png", .Brightness (.ofRat b32 true (-(1 / 2))), .Save "out.png"]⟩ := by
  have hd : ∀ s : String, s.toList.head? ≠ some '-' → ¬ Dashed id s := by
    rintro s h ⟨name, rfl⟩
    exact h (by simp)
  have h1 : LineMeans (F := F32) id parse_f32 true (["in.png"] ++ []) [.Open "in.png"] :=
    .cons _ _ _ _ _ (.input _ (hd _ (by decide))) (.nil _)
  have h2 : LineMeans (F := F32) id parse_f32 false (["out.png"] ++ []) [.Save "out.png"] :=
    .cons _ _ _ _ _ (.output _ (hd _ (by decide))) (.nil _)
  have h3 := (C101_reads _ _).1 (C101_four_places true 5000)
  rw [show signed true 5000 = "-0.5" by decide,
    show fourPlacesFloat true 5000 = .ofRat b32 true (-(1 / 2)) by
      unfold fourPlacesFloat; norm_num] at h3
  exact ((C101_option id "d10" "-brightness" "-0.5" ["in.png"] ["out.png"] "brightness" _ .brightness
    (by decide) _ h1).1 _).2 ⟨_, _, h3, rfl, h2⟩

/-- C101: `nan` and `inf` are numbers for the command line, in any case of the letters. -/
theorem C101_not_finite {P : Type} (lossy : P → String) (program o p : P) (before : List P)
    (name : String) (cmd : F32 → Cmd F32 P) (hn : NumberOption name cmd) (ho : lossy o = "-" ++ name)
    (cmds : List (Cmd F32 P)) (hb : LineMeans lossy parse_f32 true before cmds) :
    ((lossy p).toList.map Char.toLower = "nan".toList →
      parse lossy parse_f32 create_args (program :: before ++ [o, p]) = .ok ⟨cmds ++ [cmd .nan]⟩) ∧
    ((lossy p).toList.map Char.toLower = "inf".toList →
      parse lossy parse_f32 create_args (program :: before ++ [o, p]) = .ok ⟨cmds ++ [cmd (.inf false)]⟩) ∧
    (∀ l, (lossy p).toList = '-' :: l → l.map Char.toLower = "inf".toList →
      parse lossy parse_f32 create_args (program :: before ++ [o, p]) = .ok ⟨cmds ++ [cmd (.inf true)]⟩) := by
  have key := (C101_option lossy program o p before [] name cmd hn ho cmds hb).1
  exact ⟨fun h => (key _).2 ⟨_, [], .unsigned _ (.nan h), rfl, .nil _⟩,
    fun h => (key _).2 ⟨_, [], .unsigned _ (.inf (.inl h)), rfl, .nil _⟩,
    fun l hl h => (key _).2 ⟨_, [], .minus _ l hl (.inf (.inl h)), rfl, .nil _⟩⟩

example : parse id parse_f32 create_args ["d10", "-open", "in.png", "-gamma", "NaN"] =
    .ok ⟨[.Open "in.png", .Gamma .nan]⟩ := by
  have h1 : LineMeans (F := F32) id parse_f32 true (["-open", "in.png"] ++ []) [.Open "in.png"] :=
    .cons _ _ _ _ _ (.option _ _ _ (.open _ _ (by decide))) (.nil _)
  exact (C101_not_finite id "d10" "-gamma" "NaN" ["-open", "in.png"] "gamma" _ .gamma
    (by decide) _ h1).1 (by decide)

/-- Texts that are and are not read. -/
example : Reads "1.5e-3" (.ofRat b32 false (3 / 2000)) ∧ Reads "+.5" (.ofRat b32 false (1 / 2)) ∧
    Reads "-INFINITY" (.inf true) ∧ parse_f32 "" = none ∧ parse_f32 "." = none ∧
    parse_f32 "1,5" = none ∧ parse_f32 " 1" = none ∧ parse_f32 "0x10" = none ∧ parse_f32 "1e" = none := by
  refine ⟨.unsigned _ ?_, .plus _ ".5".toList (by decide) ?_, .minus _ "INFINITY".toList (by decide)
    (.inf (.inr (by decide))), by decide, by decide, by decide, by decide, by decide, by decide⟩
  · have := Means.number (neg := false) _ (Numeral.point ['1'] ['5'] ['e', '-', '3'] (-3) (by decide)
      (by decide) (.inl (by decide)) (.minus 'e' ['3'] (.inl rfl) (by decide) (by decide)))
    rw [show digitsValue (['1'] ++ ['5']) = 15 by decide] at this
    norm_num at this
    exact this
  · have := Means.number (neg := false) _ (Numeral.point [] ['5'] [] 0 (by decide)
      (by decide) (.inr (by decide)) .without)
    rw [show digitsValue ([] ++ ['5']) = 5 by decide] at this
    norm_num at this
    exact this

end D10
