import Verif.Lemmas.NumbersOps
import Verif.Lemmas.Gaussian
import Verif.SpecBlurNumbers

/-!
# Numbers in the blur and in what uses it
-/

namespace D10
open Scalar (lit)
open Spec

/-- Bounded, and not negative. -/
def Pd (k : ℕ) (x : F32) : Prop := Bd k x ∧ 0 ≤ x.val

section
variable [Libm b32]

omit [Libm b32] in
theorem round_val {k : ℕ} {s : Bool} {q : ℚ} (hk : k ≤ 127) (h : |q| ≤ 2 ^ k) :
    (FP.ofRat b32 s q).fin = true ∧ (FP.ofRat b32 s q).val = rn b32 q := by
  refine FP.ofRat_of_le (r := 2 ^ k) ?_ ?_ h
  · rw [show (2 : ℚ) ^ k = pow2 (k : Int) from (pow2_nat k).symm]
    exact IsRep.pow2 (by show (-149 : Int) ≤ k; omega)
  · rw [show (2 : ℚ) ^ k = pow2 (k : Int) from (pow2_nat k).symm]
    exact pow2_lt_iff.2 (by show (k : Int) < 128; omega)

omit [Libm b32] in
theorem Pd.mul {k l m : ℕ} {x y : F32} (hx : Pd k x) (hy : Pd l y) (h : k + l ≤ m) (hm : m ≤ 127) :
    Pd m (FP.mul x y) := by
  have b := hx.1.mul hy.1 h hm
  refine ⟨b, ?_⟩
  have hq : |x.val * y.val| ≤ 2 ^ m := by
    rw [abs_mul]
    refine (mul_le_mul hx.1.le hy.1.le (abs_nonneg _) (by positivity)).trans ?_
    rw [← pow_add]
    exact pow_le_pow_right₀ (by norm_num) h
  rw [FP.mul_fin hx.1.fin hy.1.fin, (round_val hm hq).2]
  exact rn_nonneg (mul_nonneg hx.2 hy.2)

omit [Libm b32] in
theorem Pd.absorb {k j : ℕ} (hk : k ≤ 126) (hr : rn b32 (2 ^ k + 2 ^ j) = 2 ^ k) (hj : j ≤ k) {x y : F32} (hx : Pd k x)
    (hy : Pd j y) : Pd k (FP.add x y) ∧ x.val ≤ (FP.add x y).val ∧ y.val ≤ (FP.add x y).val := by
  have b := Bd.absorb (by omega) hr hx.1 hy.1
  have hq : |x.val + y.val| ≤ 2 ^ 127 := by
    refine (abs_add_le _ _).trans ?_
    have h1 := hx.1.le.trans (pow_le_pow_right₀ (by norm_num : (1 : ℚ) ≤ 2) hk)
    have h2 := hy.1.le.trans (pow_le_pow_right₀ (by norm_num : (1 : ℚ) ≤ 2) (hj.trans hk))
    have : (2 : ℚ) ^ 127 = 2 ^ 126 + 2 ^ 126 := by norm_num
    linarith
  have v : (FP.add x y).val = rn b32 (x.val + y.val) := by
    rw [FP.add_fin hx.1.fin hy.1.fin, (round_val (by norm_num) hq).2]
  have h1 : x.val ≤ (FP.add x y).val := by
    rw [v, ← rn_rep (FP.fin_rep hx.1.fin).1]
    conv_rhs => rw [rn_rep (FP.fin_rep hx.1.fin).1]
    exact rn_mono (by linarith [hy.2])
  have h2 : y.val ≤ (FP.add x y).val := by
    rw [v, ← rn_rep (FP.fin_rep hy.1.fin).1]
    conv_rhs => rw [rn_rep (FP.fin_rep hy.1.fin).1]
    exact rn_mono (by linarith [hx.2])
  exact ⟨⟨b, hx.2.trans h1⟩, h1, h2⟩

omit [Libm b32] in
theorem Pd.div {k j m : ℕ} {x y : F32} (hx : Pd k x) (hy : y.fin = true) (h0 : 1 / 2 ^ j ≤ y.val) (h : k + j ≤ m)
    (hm : m ≤ 127) : Pd m (FP.div x y) ∧ (FP.div x y).val = rn b32 (x.val / y.val) := by
  have p : (0 : ℚ) < 1 / 2 ^ j := by positivity
  have py := lt_of_lt_of_le p h0
  have b := hx.1.div hy (by rw [abs_of_pos py]; exact h0) h hm
  have hq : |x.val / y.val| ≤ 2 ^ m := by
    rw [abs_div, abs_of_pos py, div_le_iff₀ py]
    refine hx.1.le.trans ?_
    have : (2 : ℚ) ^ k ≤ 2 ^ m * (1 / 2 ^ j) := by
      rw [mul_one_div, le_div_iff₀ (by positivity), ← pow_add]
      exact pow_le_pow_right₀ (by norm_num) h
    exact this.trans (mul_le_mul_of_nonneg_left h0 (by positivity))
  have v : (FP.div x y).val = rn b32 (x.val / y.val) := by
    rw [FP.div_fin hx.1.fin hy py.ne', (round_val hm hq).2]
  exact ⟨⟨b, by rw [v]; exact rn_nonneg (div_nonneg hx.2 py.le)⟩, v⟩

/-- One entry of the bell: not negative, and at most the entry in the middle, which is not too small. -/
theorem bell_bounds (he : ExpInUnit) (hq : SqrtMild) {σ : F32} (hs : ModerateWidth σ) :
    (Pd 62 (bell σ 0 0) ∧ 1 / 2 ^ 65 ≤ (bell σ 0 0).val) ∧
    ∀ dx dy : Int, |(dx : ℚ)| ≤ 2 ^ 16 → |(dy : ℚ)| ≤ 2 ^ 16 →
      Pd 62 (bell σ dx dy) ∧ (bell σ dx dy).val ≤ (bell σ 0 0).val := by
  obtain ⟨sf, sl, su⟩ := hs
  have bσ : Bd 30 σ := ⟨sf, su⟩
  have two : Bd 1 (FP.ofRat b32 false 2) := Bd.ofRat (by norm_num) (by norm_num)
  have twoV : (FP.ofRat b32 false 2).val = 2 := by decide +kernel
  have b2 : Bd 31 (FP.mul (FP.ofRat b32 false 2) σ) := two.mul bσ (by norm_num) (by norm_num)
  have v2 : (FP.mul (FP.ofRat b32 false 2) σ).val = rn b32 (2 * σ.val) := by
    rw [FP.mul_fin two.fin sf, (round_val (k := 31) (by norm_num) _).2, twoV]
    rw [twoV, abs_mul]
    have : (2 : ℚ) ^ 31 = |2| * 2 ^ 30 := by norm_num
    rw [this]
    exact mul_le_mul_of_nonneg_left su (by norm_num)
  have rep29 : rn b32 (1 / 2 ^ 29) = 1 / 2 ^ 29 := by decide +kernel
  -- twice the width times the width
  have bs : Bd 61 (FP.mul (FP.mul (FP.ofRat b32 false 2) σ) σ) := b2.mul bσ (by norm_num) (by norm_num)
  have sv : 1 / 2 ^ 59 ≤ (FP.mul (FP.mul (FP.ofRat b32 false 2) σ) σ).val := by
    have prod : 1 / 2 ^ 59 ≤ (FP.mul (FP.ofRat b32 false 2) σ).val * σ.val := by
      rw [v2]
      have e : (1 : ℚ) / 2 ^ 59 = 1 / 2 ^ 29 * (1 / 2 ^ 30) := by norm_num
      rcases le_total 0 σ.val with h | h
      · rw [abs_of_nonneg h] at sl
        have := rn_mono (f := b32) (a := 1 / 2 ^ 29) (b := 2 * σ.val) (by linarith)
        rw [rep29] at this
        rw [e]
        exact mul_le_mul this sl (by positivity) (le_trans (by positivity) this)
      · rw [abs_of_nonpos h] at sl
        have := rn_mono (f := b32) (a := 2 * σ.val) (b := -(1 / 2 ^ 29)) (by linarith)
        rw [rn_neg, rep29] at this
        rw [e, ← neg_mul_neg (rn b32 (2 * σ.val))]
        exact mul_le_mul (by linarith) sl (by positivity) (by linarith [show (0 : ℚ) < 1 / 2 ^ 29 by positivity])
    have up : (FP.mul (FP.ofRat b32 false 2) σ).val * σ.val ≤ 2 ^ 127 := by
      refine (le_abs_self _).trans ?_
      rw [abs_mul]
      refine (mul_le_mul b2.le su (abs_nonneg _) (by positivity)).trans (by norm_num)
    rw [FP.mul_fin b2.fin sf]
    exact (ofRat_ge (by norm_num) prod up).2
  generalize hS : FP.mul (FP.mul (FP.ofRat b32 false 2) σ) σ = S at bs sv
  -- times π
  have pi : Bd 2 (FP.ofRat b32 false 3.14159265358979323846264338327950288) :=
    Bd.ofRat (by norm_num) (by norm_num [abs_le])
  have piV : 1 ≤ (FP.ofRat b32 false 3.14159265358979323846264338327950288).val := by decide +kernel
  generalize hP : FP.ofRat b32 false 3.14159265358979323846264338327950288 = P at pi piV
  have bd : Bd 63 (FP.mul P S) := pi.mul bs (by norm_num) (by norm_num)
  have dv : 1 / 2 ^ 59 ≤ (FP.mul P S).val := by
    have s0 : (0 : ℚ) < 1 / 2 ^ 59 := by positivity
    have prod : 1 / 2 ^ 59 ≤ P.val * S.val := sv.trans (le_mul_of_one_le_left (s0.le.trans sv) piV)
    have up : P.val * S.val ≤ 2 ^ 127 := by
      refine (le_abs_self _).trans ?_
      rw [abs_mul]
      refine (mul_le_mul pi.le bs.le (abs_nonneg _) (by positivity)).trans (by norm_num)
    rw [FP.mul_fin pi.fin bs.fin]
    exact (ofRat_ge (by norm_num) prod up).2
  have dpos : 0 < (FP.mul P S).val := lt_of_lt_of_le (by positivity) dv
  have spos : 0 < S.val := lt_of_lt_of_le (by positivity) sv
  -- an entry is the value of `exp` at a number that is not positive, divided by `π S`
  have entry : ∀ dx dy : Int, |(dx : ℚ)| ≤ 2 ^ 16 → |(dy : ℚ)| ≤ 2 ^ 16 →
      ∃ e : F32, bell σ dx dy = FP.div e (FP.mul P S) ∧ Pd 0 e ∧ (dx = 0 → dy = 0 → e.val = 1) := by
    intro dx dy hx hy
    have sq : ∀ z : Int, |(z : ℚ)| ≤ 2 ^ 16 → Pd 32 (FP.mul (FP.ofRat b32 false (z : ℚ)) (FP.ofRat b32 false (z : ℚ))) ∧
        (z = 0 → (FP.mul (FP.ofRat b32 false (z : ℚ)) (FP.ofRat b32 false (z : ℚ))).val = 0) := by
      intro z hz
      have b := Bd.ofRat (k := 16) (s := false) (by norm_num) hz
      refine ⟨⟨b.mul b (by norm_num) (by norm_num), ?_⟩, fun h => ?_⟩
      · rw [FP.mul_fin b.fin b.fin, (round_val (k := 32) (by norm_num) _).2]
        · exact rn_nonneg (mul_self_nonneg _)
        · rw [abs_mul]
          refine (mul_le_mul b.le b.le (abs_nonneg _) (by positivity)).trans (by norm_num)
      · rw [h]; decide +kernel
    have hX := sq dx hx
    have hY := sq dy hy
    have add : Pd 33 (FP.add (FP.mul (FP.ofRat b32 false (dx : ℚ)) (FP.ofRat b32 false (dx : ℚ)))
        (FP.mul (FP.ofRat b32 false (dy : ℚ)) (FP.ofRat b32 false (dy : ℚ)))) ∧ (dx = 0 → dy = 0 →
        (FP.add (FP.mul (FP.ofRat b32 false (dx : ℚ)) (FP.ofRat b32 false (dx : ℚ)))
        (FP.mul (FP.ofRat b32 false (dy : ℚ)) (FP.ofRat b32 false (dy : ℚ)))).val = 0) := by
      refine ⟨⟨hX.1.1.add hY.1.1 (by norm_num) (by norm_num) (by norm_num), ?_⟩, fun h1 h2 => by rw [h1, h2]; decide +kernel⟩
      rw [FP.add_fin hX.1.1.fin hY.1.1.fin, (round_val (k := 33) (by norm_num) _).2]
      · exact rn_nonneg (add_nonneg hX.1.2 hY.1.2)
      · refine (abs_add_le _ _).trans ?_
        have := hX.1.1.le
        have := hY.1.1.le
        have : (2 : ℚ) ^ 33 = 2 ^ 32 + 2 ^ 32 := by norm_num
        linarith
    generalize hT : FP.add (FP.mul (FP.ofRat b32 false (dx : ℚ)) (FP.ofRat b32 false (dx : ℚ)))
        (FP.mul (FP.ofRat b32 false (dy : ℚ)) (FP.ofRat b32 false (dy : ℚ))) = T at add
    obtain ⟨rf, r0, r1, rz⟩ := hq T add.1.1.fin add.1.2
    have br : Bd 33 (Scalar.sqrt T) := ⟨rf, by
      rw [abs_of_nonneg r0]
      refine r1.trans (max_le (by norm_num) ((le_abs_self _).trans add.1.1.le))⟩
    generalize hR : Scalar.sqrt T = r at rf r0 r1 rz br
    have sqr : Pd 66 (FP.mul r r) := Pd.mul ⟨br, r0⟩ ⟨br, r0⟩ (by norm_num) (by norm_num)
    have ng := FP.neg_fin sqr.1.fin
    have qb : |(FP.neg (FP.mul r r)).val / S.val| ≤ 2 ^ 126 := by
      rw [ng.2, abs_div, abs_neg, abs_of_pos spos, div_le_iff₀ spos]
      refine sqr.1.le.trans ?_
      have : (2 : ℚ) ^ 66 ≤ 2 ^ 126 * (1 / 2 ^ 59) := by norm_num
      exact this.trans (mul_le_mul_of_nonneg_left sv (by positivity))
    have av : (FP.div (FP.neg (FP.mul r r)) S).fin = true ∧
        (FP.div (FP.neg (FP.mul r r)) S).val = rn b32 ((FP.neg (FP.mul r r)).val / S.val) := by
      rw [FP.div_fin ng.1 bs.fin spos.ne']
      exact round_val (by norm_num) qb
    have a0 : (FP.div (FP.neg (FP.mul r r)) S).val ≤ 0 := by
      rw [av.2]
      have := rn_mono (f := b32) (a := (FP.neg (FP.mul r r)).val / S.val) (b := 0)
        (div_nonpos_of_nonpos_of_nonneg (by rw [ng.2]; linarith [sqr.2]) spos.le)
      rwa [rn_zero] at this
    obtain ⟨ef, e0, e1, ez⟩ := he _ av.1 a0
    refine ⟨Scalar.exp (FP.div (FP.neg (FP.mul r r)) S), ?_, ⟨.unit ⟨ef, e0, e1⟩, e0⟩, fun h1 h2 => ez ?_⟩
    · subst hS hP hT hR
      rfl
    · have rv : r.val = 0 := rz (add.2 h1 h2)
      have mv : (FP.mul r r).val = 0 := by
        rw [FP.mul_fin rf rf, rv]
        show (FP.ofRat b32 _ (0 * 0)).val = 0
        rw [(round_val (k := 0) (by norm_num) (by norm_num)).2]
        norm_num [rn_zero]
      rw [av.2, ng.2, mv]
      norm_num [rn_zero]
  obtain ⟨e0, h0, p0, one⟩ := entry 0 0 (by norm_num) (by norm_num)
  have one := one rfl rfl
  have m0 := p0.div bd.fin dv (m := 62) (by norm_num) (by norm_num)
  refine ⟨⟨by rw [h0]; exact m0.1, ?_⟩, fun dx dy hx hy => ?_⟩
  · rw [h0, m0.2, one]
    have r65 : rn b32 (1 / 2 ^ 65) = 1 / 2 ^ 65 := by decide +kernel
    rw [← r65]
    refine rn_mono ?_
    rw [div_le_div_iff₀ (by positivity) dpos]
    have := (le_abs_self _).trans bd.le
    have : (2 : ℚ) ^ 63 ≤ 2 ^ 65 := by norm_num
    linarith
  · obtain ⟨e, h, p, _⟩ := entry dx dy hx hy
    have m := p.div bd.fin dv (m := 62) (by norm_num) (by norm_num)
    refine ⟨by rw [h]; exact m.1, ?_⟩
    rw [h, h0, m.2, m0.2, one]
    refine rn_mono (div_le_div_of_nonneg_right ?_ dpos.le)
    have := (le_abs_self _).trans p.1.le
    simpa using this

omit [Libm b32] in
theorem rows_mem {T : Type} {w h : Nat} {px : Nat → Nat → T} {v : T} (hv : v ∈ rows w h px) :
    ∃ x y, x < w ∧ y < h ∧ v = px x y := by
  unfold rows at hv
  obtain ⟨y, hy, hv⟩ := List.mem_flatMap.1 hv
  obtain ⟨x, hx, rfl⟩ := List.mem_map.1 hv
  exact ⟨x, y, List.mem_range.1 hx, List.mem_range.1 hy, rfl⟩

omit [Libm b32] in
theorem pixel_mem_rows {T : Type} {w h : Nat} (px : Nat → Nat → T) {x y : Nat} (hx : x < w) (hy : y < h) : px x y ∈ rows w h px := by
  unfold rows
  exact List.mem_flatMap.2 ⟨y, List.mem_range.2 hy, List.mem_map.2 ⟨x, List.mem_range.2 hx, rfl⟩⟩

omit [Libm b32] in
/-- The sum of the entries is bounded, and at least every entry. -/
theorem sum_bounds (l : List F32) (hl : ∀ v ∈ l, Pd 62 v) {s : F32} (hs : Pd 100 s) :
    Pd 100 (l.foldl FP.add s) ∧ s.val ≤ (l.foldl FP.add s).val ∧ ∀ v ∈ l, v.val ≤ (l.foldl FP.add s).val := by
  induction l generalizing s with
  | nil => exact ⟨hs, le_rfl, fun v hv => by cases hv⟩
  | cons x xs ih =>
    have a := Pd.absorb (k := 100) (j := 62) (by norm_num) (by decide +kernel) (by norm_num) hs (hl x (.head _))
    have r := ih (fun v hv => hl v (.tail _ hv)) a.1
    refine ⟨r.1, a.2.1.trans r.2.1, fun v hv => ?_⟩
    rcases List.mem_cons.1 hv with rfl | hv
    · exact a.2.2.trans r.2.1
    · exact r.2.2 v hv

/-- The weights of a Gaussian table are numbers between 0 and 1. -/
theorem weight_unit (he : ExpInUnit) (hq : SqrtMild) {σ : F32} (hs : ModerateWidth σ) {N : Nat} (hN : N ≤ 65536) {x y : Nat}
    (hx : x < N) (hy : y < N) : Pd 0 (gaussWeight N σ x y) := by
  obtain ⟨⟨c, c0⟩, other⟩ := bell_bounds he hq hs
  have off : ∀ i, i < N → |(((i : Int) - (N / 2 : Nat) : Int) : ℚ)| ≤ 2 ^ 16 := by
    intro i hi
    have : |((i : Int) - (N / 2 : Nat) : Int)| ≤ 65536 := by rw [abs_le]; omega
    have h : ((|((i : Int) - (N / 2 : Nat) : Int)| : Int) : ℚ) ≤ ((65536 : Int) : ℚ) := by exact_mod_cast this
    rw [Int.cast_abs] at h
    exact h.trans (by norm_num)
  have zero : Pd 100 (lit 0 : F32) := ⟨Bd.ofRat (by norm_num) (by norm_num), by
    show 0 ≤ (FP.ofRat b32 false 0).val; decide +kernel⟩
  have sum := sum_bounds (rows N N fun i j => bell σ ((j : Int) - (N / 2 : Nat)) ((i : Int) - (N / 2 : Nat)))
    (fun v hv => by
      obtain ⟨i, j, hi, hj, rfl⟩ := rows_mem hv
      exact (other _ _ (off j hj) (off i hi)).1) zero
  have mid : N / 2 < N := by omega
  have big : (bell σ 0 0).val ≤ (bellSum N σ).val := by
    have := sum.2.2 _ (pixel_mem_rows (fun i j : Nat => bell σ ((j : Int) - (N / 2 : Nat)) ((i : Int) - (N / 2 : Nat))) mid mid)
    have e : bell σ (((N / 2 : Nat) : Int) - (N / 2 : Nat)) (((N / 2 : Nat) : Int) - (N / 2 : Nat)) = bell σ 0 0 := by
      rw [sub_self]
    rw [← e]
    exact this
  have bs : (bellSum N σ).fin = true := sum.1.1.fin
  obtain ⟨v, hv⟩ := other _ _ (off x hx) (off y hy)
  have lo : 1 / 2 ^ 65 ≤ (bellSum N σ).val := c0.trans big
  have d := v.div bs lo (m := 127) (by norm_num) (by norm_num)
  have pos : 0 < (bellSum N σ).val := lt_of_lt_of_le (by positivity) lo
  refine ⟨⟨d.1.1.fin, ?_⟩, d.1.2⟩
  show |(FP.div _ _).val| ≤ _
  rw [abs_of_nonneg d.1.2]
  rw [d.2, show (2 : ℚ) ^ 0 = rn b32 1 by decide +kernel]
  exact rn_mono (div_le_one_of_le₀ (hv.trans big) pos.le)

/-- What holds for the four channels, each with its own predicate. -/
def Four (P0 P1 P2 P3 : F32 → Prop) (c : Col F32) : Prop := P0 c.c0 ∧ P1 c.c1 ∧ P2 c.c2 ∧ P3 c.alpha

/-- Adding up weighted pixels keeps what holds for the sums of each channel. -/
theorem value_ens {P0 P1 P2 P3 Q0 Q1 Q2 Q3 : F32 → Prop} {b : PixelBuffer (Col F32)} (hb : All (Four P0 P1 P2 P3) b)
    {k : KernelDyn F32} {W : F32 → Prop} (hk : ∀ v ∈ k.data, W v)
    (z : Q0 (lit 0) ∧ Q1 (lit 0) ∧ Q2 (lit 0) ∧ Q3 (lit 0))
    (h0 : ∀ s v w, Q0 s → P0 v → W w → Q0 (FP.add s (FP.mul v w)))
    (h1 : ∀ s v w, Q1 s → P1 v → W w → Q1 (FP.add s (FP.mul v w)))
    (h2 : ∀ s v w, Q2 s → P2 v → W w → Q2 (FP.add s (FP.mul v w)))
    (h3 : ∀ s v w, Q3 s → P3 v → W w → Q3 (FP.add s (FP.mul v w))) (x y : Nat) :
    Ens (b.get_kernel_value x y k) (Four Q0 Q1 Q2 Q3) := by
  refine ens_bind (P := fun l : List F32 => ∃ s0 s1 s2 s3, l = [s0, s1, s2, s3] ∧ Q0 s0 ∧ Q1 s1 ∧ Q2 s2 ∧ Q3 s3) ?_ ?_
  · refine ens_foldlM _ _ ⟨_, _, _, _, rfl, z⟩ fun p hp l hl => ?_
    obtain ⟨s0, s1, s2, s3, rfl, q0, q1, q2, q3⟩ := hl
    obtain ⟨i, j, v⟩ := p
    have hv : W v := by
      unfold KernelDyn.enumerate at hp
      obtain ⟨⟨v', i'⟩, hm, e⟩ := List.mem_map.1 hp
      cases e
      exact hk _ (List.fst_mem_of_mem_zipIdx hm)
    refine ens_any fun _ => ens_any fun _ => ens_any fun _ => ens_any fun _ => ?_
    refine ens_bind (all_get_clamped hb _ _) fun c hc => ens_pure ?_
    exact ⟨_, _, _, _, rfl, h0 _ _ _ q0 hc.1 hv, h1 _ _ _ q1 hc.2.1 hv, h2 _ _ _ q2 hc.2.2.1 hv, h3 _ _ _ q3 hc.2.2.2 hv⟩
  · rintro l ⟨s0, s1, s2, s3, rfl, q0, q1, q2, q3⟩
    exact ens_ok ⟨q0, q1, q2, q3⟩

omit [Libm b32] in
theorem unit_pd {x : F32} (h : x.fin = true ∧ 0 ≤ x.val ∧ x.val ≤ 1) : Pd 0 x := ⟨.unit h, h.2.1⟩

omit [Libm b32] in
theorem unit_four {c : Col F32} (h : UnitCol c) : Four (Pd 0) (Pd 0) (Pd 0) (Pd 0) c :=
  ⟨unit_pd h.c0, unit_pd h.c1, unit_pd h.c2, unit_pd h.alpha⟩

omit [Libm b32] in
theorem step60 {s v w : F32} (hs : Pd 60 s) (hv : Pd 0 v) (hw : Pd 0 w) : Pd 60 (FP.add s (FP.mul v w)) :=
  (Pd.absorb (j := 0) (by norm_num) (by decide +kernel) (by norm_num) hs (hv.mul hw (by norm_num) (by norm_num))).1

omit [Libm b32] in
theorem step110 {s v w : F32} (hs : Bd 110 s) (hv : Bd 60 v) (hw : Pd 0 w) : Bd 110 (FP.add s (FP.mul v w)) :=
  Bd.absorb (j := 60) (by norm_num) (by decide +kernel) hs (hv.mul hw.1 (by norm_num) (by norm_num))

theorem zero60 : Pd 60 (lit 0 : F32) := ⟨Bd.ofRat (by norm_num) (by norm_num), by
  show 0 ≤ (FP.ofRat b32 false 0).val; decide +kernel⟩

theorem dyn_weights (he : ExpInUnit) (hq : SqrtMild) {σ : F32} (hs : ModerateWidth σ) (N : Nat) :
    Ens (KernelDyn.new_gaussian N σ) fun k => ∀ v ∈ k.data, Pd 0 v := by
  by_cases hN : N * N < 4294967296
  · obtain ⟨k, e, hk⟩ := KernelDyn.new_gaussian_ok N σ hN
    rw [e]
    refine ens_ok fun v hv => ?_
    rw [hk.data] at hv
    obtain ⟨x, y, hx, hy, rfl⟩ := rows_mem hv
    exact weight_unit he hq hs (by nlinarith) hx hy
  · unfold KernelDyn.new_gaussian
    refine ens_bind (ens_u32 _) fun n hn => ?_
    omega

theorem static_weights (he : ExpInUnit) (hq : SqrtMild) {σ : F32} (hs : ModerateWidth σ) {N : Nat} (hN : N ≤ 65536) :
    Ens (Kernel.new_gaussian N σ) fun k => ∀ r ∈ k.data, ∀ v ∈ r, Pd 0 v := by
  obtain ⟨k, e, hk⟩ := Kernel.new_gaussian_ok N σ
  rw [e]
  refine ens_ok fun r hr v hv => ?_
  rw [show k.data = _ from hk] at hr
  obtain ⟨y, hy, rfl⟩ := List.mem_map.1 hr
  obtain ⟨x, hx, rfl⟩ := List.mem_map.1 hv
  exact weight_unit he hq hs hN (List.mem_range.1 hx) (List.mem_range.1 hy)

theorem static_value {b : PixelBuffer (Col F32)} (hb : All UnitCol b) (N : Nat) {k : Kernel F32}
    (hk : ∀ row ∈ k.data, ∀ v ∈ row, Pd 0 v) :
    Ens (b.apply_kernel N k) (All (Four (Pd 60) (Pd 60) (Pd 60) (Pd 60))) := by
  refine all_enumerated fun x y c _ => ?_
  refine ens_bind (ens_kernel hb N _ _) fun bk hbk => ?_
  refine ens_bind (P := fun l : List F32 => ∀ v ∈ l, Pd 60 v) ?_ fun l hl => ?_
  · unfold Kernel.apply_kernel
    refine ens_forRange (fun v hv => ?_) fun j _ s hs => ens_forRange hs fun i _ s hs => ?_
    · rw [(List.mem_replicate.1 hv).2]
      exact zero60
    · refine ens_mapM _ fun p hp => ?_
      have h60 := hs p.1 (List.fst_mem_of_mem_zipIdx hp)
      refine ens_bind (ens_index hk j) fun row hrow => ens_bind (ens_index hrow i) fun w hw => ?_
      refine ens_bind (ens_index hbk j) fun brow hbrow => ens_bind (ens_index hbrow i) fun d hd => ?_
      have hd4 : ∀ v ∈ d.data, Pd 0 v := by
        intro v hv
        simp only [Col.data, List.mem_cons, List.not_mem_nil, or_false] at hv
        rcases hv with rfl | rfl | rfl | rfl
        · exact unit_pd hd.c0
        · exact unit_pd hd.c1
        · exact unit_pd hd.c2
        · exact unit_pd hd.alpha
      refine ens_bind (ens_index hd4 p.2) fun v hv => ens_pure ?_
      exact step60 h60 hw hv
  · intro c hc
    unfold Col.ofData at hc
    split at hc
    · cases hc
      simp only [List.forall_mem_cons] at hl
      exact ⟨hl.1, hl.2.1, hl.2.2.1, hl.2.2.2.1⟩
    · cases hc

/-- The width that is used when none is given. -/
theorem default_width {r n : Nat} (hr : 0 < r) (hn : n < 2 ^ 32) (e : n = r * 2 + 1) :
    ModerateWidth (get_default_sigma n) := by
  have one : Bd 0 (FP.ofRat b32 false 1) := Bd.ofRat (by norm_num) (by norm_num)
  have oneV : (FP.ofRat b32 false 1).val = 1 := by decide +kernel
  have four : (FP.ofRat b32 false 4).fin = true ∧ (FP.ofRat b32 false 4).val = 4 := by decide +kernel
  have bn := nat_bd hn
  have n3 : (3 : ℚ) ≤ (n : ℚ) := by
    have : 3 ≤ n := by omega
    exact_mod_cast this
  have nu : (n : ℚ) ≤ 2 ^ 32 := by exact_mod_cast hn.le
  have vn := round_val (k := 32) (s := false) (q := (n : ℚ)) (by norm_num) (by rw [abs_of_nonneg (by linarith)]; exact nu)
  have l3 : 3 ≤ (FP.ofRat b32 false (n : ℚ)).val := by
    rw [vn.2, show (3 : ℚ) = rn b32 3 by decide +kernel]
    exact rn_mono n3
  have u := (abs_le.1 bn.le).2
  generalize hx : FP.ofRat b32 false (n : ℚ) = x at bn vn l3 u
  have vs : (FP.sub x (FP.ofRat b32 false 1)).fin = true ∧
      (FP.sub x (FP.ofRat b32 false 1)).val = rn b32 (x.val - 1) := by
    rw [FP.sub_fin bn.fin one.fin, oneV]
    exact round_val (k := 32) (by norm_num) (by rw [abs_of_nonneg (by linarith)]; linarith)
  have l2 : 2 ≤ (FP.sub x (FP.ofRat b32 false 1)).val := by
    rw [vs.2, show (2 : ℚ) = rn b32 2 by decide +kernel]
    exact rn_mono (by linarith)
  have u2 : (FP.sub x (FP.ofRat b32 false 1)).val ≤ 2 ^ 32 := by
    rw [vs.2, show (2 : ℚ) ^ 32 = rn b32 (2 ^ 32) by decide +kernel]
    exact rn_mono (by linarith)
  generalize hy : FP.sub x (FP.ofRat b32 false 1) = y at vs l2 u2
  have vd : (FP.div y (FP.ofRat b32 false 4)).fin = true ∧ (FP.div y (FP.ofRat b32 false 4)).val = rn b32 (y.val / 4) := by
    rw [FP.div_fin vs.1 four.1 (by rw [four.2]; norm_num), four.2]
    exact round_val (k := 32) (by norm_num) (by rw [abs_of_nonneg (by linarith)]; linarith)
  have lo : 1 / 2 ^ 30 ≤ rn b32 (y.val / 4) := by
    rw [show (1 : ℚ) / 2 ^ 30 = rn b32 (1 / 2 ^ 30) by decide +kernel]
    exact rn_mono (by linarith)
  have hi : rn b32 (y.val / 4) ≤ 2 ^ 30 := by
    rw [show (2 : ℚ) ^ 30 = rn b32 (2 ^ 30) by decide +kernel]
    exact rn_mono (by linarith)
  have e : (get_default_sigma n : F32) = FP.div y (FP.ofRat b32 false 4) := by subst hx hy; rfl
  unfold ModerateWidth
  rw [e, vd.2, abs_of_nonneg (le_trans (by positivity) lo)]
  exact ⟨vd.1, lo, hi⟩

theorem width_ok {r n : Nat} {s : Option F32} (h : BlurWidthOK r s) (hn : n < 2 ^ 32) (e : n = r * 2 + 1) :
    ModerateWidth (s.getD (get_default_sigma n)) := by
  cases s with
  | some s => exact h
  | none => exact default_width h hn e

theorem number_blur (he : ExpInUnit) (hq : SqrtMild) {b : PixelBuffer (Col F32)} (hb : All UnitCol b) {r : Nat}
    {s : Option F32} (h : BlurWidthOK r s) :
    Ens (gaussian_blur b r s) (All (Four (Pd 60) (Pd 60) (Pd 60) (Pd 60))) := by
  unfold gaussian_blur
  refine ens_bind (ens_u32 _) fun m hm => ens_bind (ens_u32 _) fun n hn => ?_
  have w := width_ok (n := n) h (by omega) (by omega)
  simp only
  generalize s.getD (get_default_sigma n) = σ at w
  split
  · exact ens_bind (static_weights he hq w (by norm_num)) fun k hk => static_value hb 3 hk
  · exact ens_bind (static_weights he hq w (by norm_num)) fun k hk => static_value hb 5 hk
  · exact ens_bind (static_weights he hq w (by norm_num)) fun k hk => static_value hb 7 hk
  · refine ens_bind (dyn_weights he hq w n) fun k hk => all_enumerated fun x y c _ => ?_
    exact value_ens (fun c hc => unit_four (hb c hc)) hk ⟨zero60, zero60, zero60, zero60⟩ (fun _ _ _ => step60)
      (fun _ _ _ => step60) (fun _ _ _ => step60) (fun _ _ _ => step60) x y

/-- A number between 0 and 1. -/
def Un (v : F32) : Prop := v.fin = true ∧ 0 ≤ v.val ∧ v.val ≤ 1

theorem clamp_un (x : F32) : clamp01 x = .nan ∨ Un (clamp01 x) := by
  by_cases h : x = .nan
  · exact .inl (by rw [clamp01_eq_spec]; exact (C23_range x).1 h)
  · exact .inr (clamp_number h)

/-- Unsharp masking, also of a picture that a blur has made. The second channel may be anything unless `Q`. -/
theorem number_unsharp (he : ExpInUnit) (hq : SqrtMild) {Q : Prop} {b : PixelBuffer (Col F32)}
    (hb : All (Four (Bd 60) (fun v => Q → Bd 60 v) (Bd 60) (Bd 60)) b) {r : Nat} {a : F32} (ha : a.fin = true)
    {s : Option F32} (h : BlurWidthOK r s) :
    Ens (unsharp b r a s) (All (Four Un (fun v => (v = .nan ∨ Un v) ∧ (Q → Un v)) Un Un)) := by
  unfold unsharp
  refine ens_bind (ens_u32 _) fun m hm => ens_bind (ens_u32 _) fun n hn => ?_
  have w := width_ok (n := n) h (by omega) (by omega)
  simp only
  generalize s.getD (get_default_sigma n) = σ at w
  refine ens_bind (dyn_weights he hq w n) fun k hk => all_enumerated fun x y c hc => ?_
  have z : Bd 110 (lit 0 : F32) := zero60.1.mono (by norm_num)
  refine ens_bind (value_ens (Q0 := Bd 110) (Q1 := fun v => Q → Bd 110 v) (Q2 := Bd 110) (Q3 := Bd 110) hb hk
    ⟨z, fun _ => z, z, z⟩ (fun _ _ _ => step110) (fun _ _ _ h1 h2 h3 hQ => step110 (h1 hQ) (h2 hQ) h3)
    (fun _ _ _ => step110) (fun _ _ _ => step110) x y) fun d hd => ens_pure ?_
  have num : ∀ {u v : F32}, Bd 60 u → Bd 110 v → FP.add u (FP.mul (FP.sub u v) a) ≠ .nan := fun hu hv =>
    add_number hu.fin (mul_number (hu.sub hv (m := 111) (by norm_num) (by norm_num) (by norm_num)).fin ha)
  have hc := hb c hc
  exact ⟨clamp_number (num hc.1 hd.1), ⟨clamp_un _, fun hQ => clamp_number (num (hc.2.1 hQ) (hd.2.1 hQ))⟩,
    clamp_number (num hc.2.2.1 hd.2.2.1), clamp_number (num hc.2.2.2 hd.2.2.2)⟩

end
end D10
