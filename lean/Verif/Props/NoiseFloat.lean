import Verif.SpecNoiseFloat
import Verif.Props.Chain
import Verif.Props.Noise
import Verif.Props.Image
import Verif.Lemmas.LanczosFloat

/-!
# C135: noise with the same random numbers stays close to exact arithmetic
-/

namespace D10
open Spec
open Scalar (lit)

/-- Two walks over lists of the same length, side by side. -/
theorem visit_both {α β γ δ σ : Type} (f : σ → α → γ × σ) (g : σ → β → δ × σ) (hs : ∀ s a b, (f s a).2 = (g s b).2)
    (l : List (α × β)) (s : σ) :
    (visit (fun s (p : α × β) => (((f s p.1).1, (g s p.2).1), (f s p.1).2)) s l).1.map Prod.fst = (visit f s (l.map Prod.fst)).1 ∧
    (visit (fun s (p : α × β) => (((f s p.1).1, (g s p.2).1), (f s p.1).2)) s l).1.map Prod.snd = (visit g s (l.map Prod.snd)).1 ∧
    (visit f s (l.map Prod.fst)).2 = (visit g s (l.map Prod.snd)).2 := by
  induction l generalizing s with
  | nil => exact ⟨rfl, rfl, rfl⟩
  | cons p l ih =>
    obtain ⟨h1, h2, h3⟩ := ih (f s p.1).2
    simp only [visit, List.map_cons]
    refine ⟨by rw [h1], ?_, ?_⟩
    · rw [h2, hs s p.1 p.2]
    · rw [h3, hs s p.1 p.2]

section
variable [Libm b32] [Junk]

/-- Two walks over alike pictures that do alike things to alike pixels. -/
theorem visit_alike {σ : Type} {w h : Nat} {px : Nat → Nat → Col F32} {ex : Nat → Nat → Col ℝ} {ε η : ℝ} (hv : ValidSize w h)
    (f : σ → Col F32 → Col F32 × σ) (g : σ → Col ℝ → Col ℝ × σ) (hs : ∀ s a b, (f s a).2 = (g s b).2)
    (hk : ∀ x y, x < w → y < h → AlikeAt ε (px x y) (ex x y))
    (hfg : ∀ s c d, AlikeAt ε c d → AlikeAt η (f s c).1 (g s d).1) (s : σ) :
    (visit f s (rows w h px)).2 = (visit g s (rows w h ex)).2 ∧
    Alike η ⟨w, h, (visit f s (rows w h px)).1⟩ ⟨w, h, (visit g s (rows w h ex)).1⟩ := by
  have : Inhabited (Col F32 × Col ℝ) := ⟨(Rgb.NONE, Rgb.NONE)⟩
  obtain ⟨q, sh, hq⟩ := visit_shows hv (fun x y => (px x y, ex x y))
    (fun s (p : Col F32 × Col ℝ) => (((f s p.1).1, (g s p.2).1), (f s p.1).2)) s
  obtain ⟨h1, h2, h3⟩ := visit_both f g hs (rows w h fun x y => (px x y, ex x y)) s
  simp only [rows_map] at h1 h2 h3
  refine ⟨h3, w, h, fun x y => (q x y).1, fun x y => (q x y).2, ?_, ?_, fun x y hx hy => ?_⟩
  · refine ⟨rfl, rfl, hv, ?_⟩
    show (visit f s (rows w h px)).1 = _
    rw [← h1, ← rows_map _ _ q Prod.fst]
    exact congrArg _ sh.pixels
  · refine ⟨rfl, rfl, hv, ?_⟩
    show (visit g s (rows w h ex)).1 = _
    rw [← h2, ← rows_map _ _ q Prod.snd]
    exact congrArg _ sh.pixels
  · obtain ⟨s', e⟩ := hq x y hx hy
    show AlikeAt η (q x y).1 (q x y).2
    rw [e]
    exact hfg s' _ _ (hk x y hx hy)

/-! ## One pixel -/

omit [Junk] in
/-- One channel of additive noise. -/
theorem mixed_close {n α v : F32} {d ε : ℝ} {m : ℕ} (hm : m ≤ 90) (hn : n.fin = true ∧ |(n.val : ℝ)| ≤ 2 ^ m)
    (ha : α.fin = true ∧ 0 ≤ α.val ∧ α.val ≤ 1) (hv : v.fin = true ∧ 0 ≤ v.val ∧ v.val ≤ 1) (hd : |(v.val : ℝ) - d| ≤ ε) :
    Close (n *. α +. (lit 1 -. α) *. v) (n.val * α.val + (1 - α.val) * d) (ε + 2 ^ m / 4194304) := by
  have a0 : (0 : ℝ) ≤ α.val := by exact_mod_cast ha.2.1
  have a1 : (α.val : ℝ) ≤ 1 := by exact_mod_cast ha.2.2
  have p1 : (1 : ℝ) ≤ 2 ^ m := one_le_pow₀ (by norm_num)
  have h1 : NearF (n *. α) (n.val * α.val) (2 ^ m / 33554432) (2 ^ m) := by
    have := NearF.mul m (by omega) (NearF.of_fin hn.1 hn.2) (NearF.unit ha) (by linarith)
    exact this.mono (by linarith) (by linarith)
  have h2 : NearF (lit 1 -. α) (1 - α.val) (1 / 33554432) 1 := by
    have := NearF.sub' 0 (by norm_num) NearF.one (NearF.unit ha) (C := 1) (by rw [abs_le]; constructor <;> linarith) (by norm_num)
    exact this.mono (by norm_num) le_rfl
  have h3 := NearF.mul 1 (by norm_num) h2 (NearF.unit hv) (by norm_num)
  have h4 := NearF.add (m + 2) (by omega) h1 h3 (by rw [pow_add]; norm_num; linarith)
  refine ⟨h4.close.fin, ?_⟩
  have e := h4.close.err
  have mv : |(n.val * α.val + (1 - α.val) * v.val : ℝ) - (n.val * α.val + (1 - α.val) * d)| ≤ ε := by
    rw [show (n.val * α.val + (1 - α.val) * v.val : ℝ) - (n.val * α.val + (1 - α.val) * d) = (1 - α.val) * (v.val - d) by ring,
      abs_mul, abs_of_nonneg (by linarith)]
    have := abs_nonneg ((v.val : ℝ) - d)
    nlinarith
  refine (abs_sub_le _ (n.val * α.val + (1 - α.val) * v.val : ℝ) _).trans ?_
  have : (2 : ℝ) ^ (m + 2) = 4 * 2 ^ m := by rw [pow_add]; ring
  rw [this] at e
  linarith

theorem noisy_alike {σ : Type} {m : ℕ} (hm : m ≤ 90) (draw : σ → F32 × σ)
    (hd : ∀ s, (draw s).1.fin = true ∧ |((draw s).1.val : ℝ)| ≤ 2 ^ m) {α : F32}
    (ha : α.fin = true ∧ 0 ≤ α.val ∧ α.val ≤ 1) {ε : ℝ} (s : σ) {c : Col F32} {d : Col ℝ} (k : AlikeAt ε c d) :
    AlikeAt (ε + 2 ^ m / 4194304) (noisy draw .rgb α s c).1
      (noisy (fun s => (((draw s).1.val : ℝ), (draw s).2)) .rgb (α.val : ℝ) s d).1 := by
  obtain ⟨u, v, k⟩ := k
  have cl : ∀ {x : F32} {q e : ℝ}, Close x q e → Close (clamp01 x) (clamp01 q) e := fun {x q e} h => by
    rw [Exact.clamp01]
    exact (NearF.clamp (x := x) (q := q) (e := e) (B := |q|) ⟨h, le_rfl⟩).close
  have p : (0 : ℝ) ≤ 2 ^ m / 4194304 := by positivity
  have c0 := cl (mixed_close hm (hd s) ha u.c0 k.c0.err)
  have c1 := cl (mixed_close hm (hd (draw s).2) ha u.c1 k.c1.err)
  have c2 := cl (mixed_close hm (hd (draw (draw s).2).2) ha u.c2 k.c2.err)
  have c3 := cl (k.alpha.mono (by linarith : ε ≤ ε + 2 ^ m / 4194304))
  refine ⟨⟨clamped_unit c0.fin, clamped_unit c1.fin, clamped_unit c2.fin, clamped_unit c3.fin⟩,
    ⟨clamp01_unit _, clamp01_unit _, clamp01_unit _, clamp01_unit _⟩, ?_⟩
  refine ⟨c0.congr ?_, c1.congr ?_, c2.congr ?_, c3⟩ <;>
  · show clamp01 _ = clamp01 (_ *. _ +. (lit 1 -. _) *. _)
    ex_simp

theorem speck_alike {σ : Type} (g : Rng σ F32) (hg : ∀ s, (g.unit s).1.fin = true) {t : F32} (ht : t.fin = true)
    {ε : ℝ} (s : σ) {c : Col F32} {d : Col ℝ} (k : AlikeAt ε c d) :
    AlikeAt ε (rgbSpeck g t s c).1 (rgbSpeck (exactRng g) (t.val : ℝ) s d).1 := by
  obtain ⟨u, v, k⟩ := k
  have ε0 : 0 ≤ ε := (abs_nonneg _).trans k.c0.err
  have w : (lit 1 : F32).fin = true ∧ (lit 1 : F32).val = 1 := FP.lit1
  have one : Close (lit 1 : F32) (lit 1) ε := by
    refine ⟨w.1, ?_⟩
    rw [w.2, Exact.lit]
    simpa using ε0
  have oneR : 0 ≤ (lit 1 : ℝ) ∧ (lit 1 : ℝ) ≤ 1 := by rw [Exact.lit]; norm_num
  have same : ((g.unit s).1 <. t) = (((g.unit s).1.val : ℝ) <. (t.val : ℝ)) := by
    rw [Bool.eq_iff_iff, lt_real (hg s) ht, Exact.lt]
  unfold rgbSpeck
  simp only [exactRng, ← same]
  by_cases h : ((g.unit s).1 <. t) = true
  · simp only [h, if_true]
    by_cases h0 : (g.three (g.unit s).2).1 = 0
    · simp only [h0, if_true]
      exact ⟨⟨lit_one_unit, u.c1, u.c2, u.alpha⟩, ⟨oneR, v.c1, v.c2, v.alpha⟩, one, k.c1, k.c2, k.alpha⟩
    · by_cases h1 : (g.three (g.unit s).2).1 = 1
      · simp only [h1, if_true]
        exact ⟨⟨u.c0, lit_one_unit, u.c2, u.alpha⟩, ⟨v.c0, oneR, v.c2, v.alpha⟩, k.c0, one, k.c2, k.alpha⟩
      · simp only [h0, h1, if_false]
        exact ⟨⟨u.c0, u.c1, lit_one_unit, u.alpha⟩, ⟨v.c0, v.c1, oneR, v.alpha⟩, k.c0, k.c1, one, k.alpha⟩
  · simp only [h]
    exact ⟨u, v, k⟩

omit [Junk] in
/-- Comparing a 32-bit number with a rounded one: the exact comparison says the same unless the two meet. -/
theorem lt_rounded {x t : F32} (hx : x.fin = true) (ht : t.fin = true ∧ 0 ≤ t.val ∧ t.val ≤ 1)
    (tie : x.val = (lit 1 -. t : F32).val → (lit 1 -. t : F32).val = 1 - t.val) :
    ((lit 1 -. t : F32) <. x) = true ↔ 1 - (t.val : ℝ) < x.val := by
  have w : (lit 1 : F32).fin = true ∧ (lit 1 : F32).val = 1 := FP.lit1
  have a0 : (0 : ℝ) ≤ t.val := by exact_mod_cast ht.2.1
  have a1 : (t.val : ℝ) ≤ 1 := by exact_mod_cast ht.2.2
  have h2 : NearF (lit 1 -. t) (1 - t.val) (1 / 33554432) 1 := by
    have := NearF.sub' 0 (by norm_num) NearF.one (NearF.unit ht) (C := 1) (by rw [abs_le]; constructor <;> linarith) (by norm_num)
    exact this.mono (by norm_num) le_rfl
  have fin := h2.close.fin
  have val : (lit 1 -. t : F32).val = rn b32 (1 - t.val) := by
    have e : (lit 1 -. t : F32) = FP.ofRat b32 _ ((lit 1 : F32).val - t.val) := FP.sub_fin w.1 ht.1
    rw [w.2] at e
    rw [e] at fin ⊢
    exact ofRat_val fin
  have rep : rn b32 x.val = x.val := rn_rep (FP.fin_rep hx).1
  rw [lt_real fin hx]
  have goal : (lit 1 -. t : F32).val < x.val ↔ 1 - t.val < x.val := by
    constructor
    · intro h
      by_contra hn
      have := rn_mono (f := b32) (not_lt.1 hn)
      rw [rep, ← val] at this
      exact absurd h (not_lt.2 this)
    · intro h
      have := rn_mono (f := b32) h.le
      rw [rep, ← val] at this
      refine lt_of_le_of_ne this fun e => ?_
      rw [← tie e.symm, e] at h
      exact lt_irrefl _ h
  have c : ∀ a b : ℚ, (a : ℝ) < b ↔ a < b := fun a b => Rat.cast_lt
  rw [c, goal, ← c]
  push_cast
  rfl

theorem salt_alike {σ : Type} (g : Rng σ F32) (hg : ∀ s, (g.unit s).1.fin = true) {t : F32}
    (ht : t.fin = true ∧ 0 ≤ t.val ∧ t.val ≤ 1)
    (tie : ∀ s, (g.unit s).1.val = (lit 1 -. t : F32).val → (lit 1 -. t : F32).val = 1 - t.val)
    {ε : ℝ} (s : σ) {c : Col F32} {d : Col ℝ} (k : AlikeAt ε c d) :
    AlikeAt ε (saltPepper g t s c).1 (saltPepper (exactRng g) (t.val : ℝ) s d).1 := by
  obtain ⟨u, v, k⟩ := k
  have ε0 : 0 ≤ ε := (abs_nonneg _).trans k.c0.err
  have w : (lit 1 : F32).fin = true ∧ (lit 1 : F32).val = 1 := FP.lit1
  have z : (lit 0 : F32).fin = true ∧ (lit 0 : F32).val = 0 := FP.lit0
  have one : Close (lit 1 : F32) (lit 1) ε := by
    refine ⟨w.1, ?_⟩
    rw [w.2, Exact.lit]
    simpa using ε0
  have zero : Close (lit 0 : F32) (lit 0) ε := by
    refine ⟨z.1, ?_⟩
    rw [z.2, Exact.lit]
    simpa using ε0
  have oneR : 0 ≤ (lit 1 : ℝ) ∧ (lit 1 : ℝ) ≤ 1 := by rw [Exact.lit]; norm_num
  have zeroR : 0 ≤ (lit 0 : ℝ) ∧ (lit 0 : ℝ) ≤ 1 := by rw [Exact.lit]; norm_num
  have zeroF : (lit 0 : F32).fin = true ∧ 0 ≤ (lit 0 : F32).val ∧ (lit 0 : F32).val ≤ 1 := by
    rw [z.2]; exact ⟨z.1, le_rfl, zero_le_one⟩
  have same : ((g.unit s).1 <. t) = (((g.unit s).1.val : ℝ) <. (t.val : ℝ)) := by
    rw [Bool.eq_iff_iff, lt_real (hg s) ht.1, Exact.lt]
  have same' : ((lit 1 -. t : F32) <. (g.unit s).1) = ((lit 1 : ℝ) -. (t.val : ℝ) <. ((g.unit s).1.val : ℝ)) := by
    rw [Bool.eq_iff_iff, lt_rounded (hg s) ht (tie s), Exact.lt]
    ex_simp
  unfold saltPepper
  simp only [exactRng, ← same, ← same']
  by_cases h : ((g.unit s).1 <. t) = true
  · simp only [h, if_true]
    exact ⟨⟨zeroF, zeroF, zeroF, lit_one_unit⟩, ⟨zeroR, zeroR, zeroR, oneR⟩, zero, zero, zero, one⟩
  · by_cases h' : ((lit 1 -. t : F32) <. (g.unit s).1) = true
    · simp only [h, h', if_true]
      exact ⟨⟨lit_one_unit, lit_one_unit, lit_one_unit, lit_one_unit⟩, ⟨oneR, oneR, oneR, oneR⟩, one, one, one, one⟩
    · simp only [h, h']
      exact ⟨u, v, k⟩

/-! ## Pictures -/

/-- **Random and Gaussian noise.** With the same random numbers both programs draw equally often, and the noise
adds only a rounding error to the distance of the pictures. -/
theorem C135_noise {σ : Type} {m : ℕ} (hm : m ≤ 90) (g : Rng σ F32) (hg : KeepsRange m g) {ε : ℝ} {a : Image F32}
    {b : Image ℝ} (k : Alike ε a.buffer b.buffer) (α : F32) (h1 : α.fin = true) (h2 : 0 ≤ α.val) (h3 : α.val ≤ 1) (s : σ) :
    BothMake (ε + 1 / 2 ^ 22) (a.random_noise g α s) (b.random_noise (exactRng g) (α.val : ℝ) s) ∧
    BothMake (ε + 1 / 2 ^ 22) (a.add_random_noise g α s) (b.add_random_noise (exactRng g) (α.val : ℝ) s) ∧
    BothMake (ε + 2 ^ m / 2 ^ 22) (a.gaussian_noise g α s) (b.gaussian_noise (exactRng g) (α.val : ℝ) s) ∧
    BothMake (ε + 2 ^ m / 2 ^ 22) (a.add_gaussian_noise g α s) (b.add_gaussian_noise (exactRng g) (α.val : ℝ) s) := by
  obtain ⟨w, h, px, ex, sa, sb, k⟩ := k
  have e22 : (2 : ℝ) ^ 22 = 4194304 := by norm_num
  rw [e22]
  have o := C65_operations_noise g a α s
  have o' := C65_operations_noise (exactRng g) b (α.val : ℝ) s
  rw [o.1, o.2.1, o.2.2.1, o.2.2.2.1, o'.1, o'.2.1, o'.2.2.1, o'.2.2.2.1, (C41_in_place g a.buffer .rgb α).2.2.1,
    (C41_in_place g a.buffer .rgb α).2.2.2, (C41_in_place (exactRng g) b.buffer .rgb _).2.2.1,
    (C41_in_place (exactRng g) b.buffer .rgb _).2.2.2, C42_random_noise g .rgb sa, C42_gaussian_noise g .rgb sa,
    C42_random_noise (exactRng g) .rgb sb, C42_gaussian_noise (exactRng g) .rgb sb]
  have r := visit_alike sa.size (noisy g.symmetric .rgb α) (noisy (exactRng g).symmetric .rgb (α.val : ℝ)) (fun _ _ _ => rfl) k
    (fun s c d k => noisy_alike (m := 0) (by norm_num) g.symmetric (fun s => by simpa using hg.symmetric s) ⟨h1, h2, h3⟩ s k) s
  have n := visit_alike sa.size (noisy g.normal .rgb α) (noisy (exactRng g).normal .rgb (α.val : ℝ)) (fun _ _ _ => rfl) k
    (fun s c d k => noisy_alike hm g.normal hg.normal ⟨h1, h2, h3⟩ s k) s
  rw [pow_zero] at r
  exact ⟨⟨_, _, _, rfl, congrArg _ (congrArg _ r.1.symm), r.2⟩, ⟨_, _, _, rfl, congrArg _ (congrArg _ r.1.symm), r.2⟩,
    ⟨_, _, _, rfl, congrArg _ (congrArg _ n.1.symm), n.2⟩, ⟨_, _, _, rfl, congrArg _ (congrArg _ n.1.symm), n.2⟩⟩

/-- **RGB noise.** Both programs colour the same pixels in the same way. -/
theorem C135_rgb {σ : Type} {m : ℕ} (g : Rng σ F32) (hg : KeepsRange m g) {ε : ℝ} {a : Image F32} {b : Image ℝ}
    (k : Alike ε a.buffer b.buffer) (t : F32) (ht : t.fin = true) (s : σ) :
    BothMake ε (a.rgb_noise g t s) (b.rgb_noise (exactRng g) (t.val : ℝ) s) ∧
    BothMake ε (a.add_rgb_noise g t s) (b.add_rgb_noise (exactRng g) (t.val : ℝ) s) := by
  obtain ⟨w, h, px, ex, sa, sb, k⟩ := k
  have o := C65_operations_noise g a t s
  have o' := C65_operations_noise (exactRng g) b (t.val : ℝ) s
  rw [o.2.2.2.2.2.2.1, o.2.2.2.2.2.2.2.1, o'.2.2.2.2.2.2.1, o'.2.2.2.2.2.2.2.1, (C41_in_place g a.buffer .rgb t).2.1,
    (C41_in_place (exactRng g) b.buffer .rgb _).2.1, C41_rgb_noise g sa, C41_rgb_noise (exactRng g) sb]
  have r := visit_alike sa.size (rgbSpeck g t) (rgbSpeck (exactRng g) (t.val : ℝ)) (fun s a b => by
      have same : ((g.unit s).1 <. t) = (((g.unit s).1.val : ℝ) <. (t.val : ℝ)) := by
        rw [Bool.eq_iff_iff, lt_real (hg.unit s).1 ht, Exact.lt]
      unfold rgbSpeck
      simp only [exactRng, ← same]
      split <;> rfl) k (fun s c d k => speck_alike g (fun s => (hg.unit s).1) ht s k) s
  exact ⟨⟨_, _, _, rfl, congrArg _ (congrArg _ r.1.symm), r.2⟩, ⟨_, _, _, rfl, congrArg _ (congrArg _ r.1.symm), r.2⟩⟩

/-- **Salt and pepper.** Both programs blacken and whiten the same pixels, unless a draw meets `1 - threshold` where
that number is rounded. -/
theorem C135_salt {σ : Type} {m : ℕ} (g : Rng σ F32) (hg : KeepsRange m g) {ε : ℝ} {a : Image F32} {b : Image ℝ}
    (k : Alike ε a.buffer b.buffer) (t : F32) (h1 : t.fin = true) (h2 : 0 ≤ t.val) (h3 : t.val ≤ 1)
    (tie : ∀ s, (g.unit s).1.val = (lit 1 -. t : F32).val → (lit 1 -. t : F32).val = 1 - t.val) (s : σ) :
    BothMake ε (a.salt_n_pepper_noise g t s) (b.salt_n_pepper_noise (exactRng g) (t.val : ℝ) s) ∧
    BothMake ε (a.add_salt_n_pepper_noise g t s) (b.add_salt_n_pepper_noise (exactRng g) (t.val : ℝ) s) := by
  obtain ⟨w, h, px, ex, sa, sb, k⟩ := k
  have o := C65_operations_noise g a t s
  have o' := C65_operations_noise (exactRng g) b (t.val : ℝ) s
  rw [o.2.2.2.2.1, o.2.2.2.2.2.1, o'.2.2.2.2.1, o'.2.2.2.2.2.1, (C41_in_place g a.buffer .rgb t).1,
    (C41_in_place (exactRng g) b.buffer .rgb _).1, C41_salt_n_pepper_noise g sa, C41_salt_n_pepper_noise (exactRng g) sb]
  have r := visit_alike sa.size (saltPepper g t) (saltPepper (exactRng g) (t.val : ℝ)) (fun _ _ _ => rfl) k
    (fun s c d k => salt_alike g (fun s => (hg.unit s).1) ⟨h1, h2, h3⟩ tie s k) s
  exact ⟨⟨_, _, _, rfl, congrArg _ (congrArg _ r.1.symm), r.2⟩, ⟨_, _, _, rfl, congrArg _ (congrArg _ r.1.symm), r.2⟩⟩

end

/-! ## The exception, and a case -/

/-- A generator that draws 1 and 0 in turn. -/
def onesAndZeros : Rng Nat F32 where
  unit s := (FP.ofRat b32 false (if s % 2 = 0 then 1 else 0), s + 1)
  symmetric s := (FP.ofRat b32 false (if s % 2 = 0 then 1 else -1), s + 1)
  normal s := (FP.ofRat b32 false (if s % 2 = 0 then 5 / 4 else -3), s + 1)
  three s := (s % 3, s + 1)

theorem onesAndZeros_range : KeepsRange 2 onesAndZeros where
  unit s := by
    unfold onesAndZeros
    by_cases h : s % 2 = 0
    · simp only [h, if_true]; exact ⟨by decide +kernel, by decide +kernel, by decide +kernel⟩
    · simp only [h, if_false]; exact ⟨by decide +kernel, by decide +kernel, by decide +kernel⟩
  symmetric s := by
    have v1 : (FP.ofRat b32 false 1).val = 1 := by decide +kernel
    have v2 : (FP.ofRat b32 false (-1)).val = -1 := by decide +kernel
    unfold onesAndZeros
    by_cases h : s % 2 = 0
    · simp only [h, if_true, v1]; exact ⟨by decide +kernel, by norm_num⟩
    · simp only [h, if_false, v2]; exact ⟨by decide +kernel, by norm_num⟩
  normal s := by
    have v1 : (FP.ofRat b32 false (5 / 4)).val = 5 / 4 := by decide +kernel
    have v2 : (FP.ofRat b32 false (-3)).val = -3 := by decide +kernel
    unfold onesAndZeros
    by_cases h : s % 2 = 0
    · simp only [h, if_true, v1]; exact ⟨by decide +kernel, by norm_num⟩
    · simp only [h, if_false, v2]; exact ⟨by decide +kernel, by norm_num⟩

/-- A threshold so small that `1 - threshold` is rounded to 1. -/
def tinyThreshold : F32 := FP.ofRat b32 false (1 / 67108864)

/-- **The exception is real.** With a threshold of `2 ^ -26` a draw of 1 whitens the pixel in exact arithmetic; the
program leaves it as it is, since `1 - threshold` is rounded to 1 and 1 is not above 1. -/
theorem C135_salt_tie [Libm b32] [Junk] (c : Col F32) :
    (onesAndZeros.unit 0).1.val = 1 ∧ tinyThreshold.val = 1 / 67108864 ∧
    salt_n_pepper_noise onesAndZeros ⟨1, 1, [c]⟩ tinyThreshold 0 = .ok (⟨1, 1, [c]⟩, 1) ∧
    salt_n_pepper_noise (exactRng onesAndZeros) ⟨1, 1, [exact c]⟩ (tinyThreshold.val : ℝ) 0 = .ok (⟨1, 1, [⟨1, 1, 1, 1⟩]⟩, 1) := by
  have v1 : (FP.ofRat b32 false 1).val = 1 := by decide +kernel
  have vt : tinyThreshold.val = 1 / 67108864 := by decide +kernel
  have l1 : (FP.lt (FP.ofRat b32 false 1) tinyThreshold) = false := by decide +kernel
  have l2 : (FP.lt (FP.sub (FP.ofRat b32 false 1) tinyThreshold) (FP.ofRat b32 false 1)) = false := by decide +kernel
  refine ⟨v1, vt, ?_, ?_⟩
  · have sh : Shows (⟨1, 1, [c]⟩ : PixelBuffer (Col F32)) 1 1 fun _ _ => c := ⟨rfl, rfl, by unfold ValidSize; omega, rfl⟩
    rw [C41_salt_n_pepper_noise onesAndZeros sh]
    have : saltPepper onesAndZeros tinyThreshold 0 c = (c, 1) := by
      show (if FP.lt (FP.ofRat b32 false 1) tinyThreshold = true then _ else
        if FP.lt (FP.sub (FP.ofRat b32 false 1) tinyThreshold) (FP.ofRat b32 false 1) = true then _ else c, 1) = (c, 1)
      rw [l1, l2]
      rfl
    show (Except.ok ((⟨1, 1, [(saltPepper onesAndZeros tinyThreshold 0 c).1]⟩ : PixelBuffer (Col F32)), (saltPepper onesAndZeros tinyThreshold 0 c).2) : R _) = _
    rw [this]
  · have sh : Shows (⟨1, 1, [exact c]⟩ : PixelBuffer (Col ℝ)) 1 1 fun _ _ => exact c := ⟨rfl, rfl, by unfold ValidSize; omega, rfl⟩
    rw [C41_salt_n_pepper_noise _ sh]
    have : saltPepper (exactRng onesAndZeros) (tinyThreshold.val : ℝ) 0 (exact c) = (⟨1, 1, 1, 1⟩, 1) := by
      have u : ((exactRng onesAndZeros).unit 0) = ((1 : ℝ), 1) := by
        show (((FP.ofRat b32 false 1).val : ℝ), 1) = _
        rw [v1]; norm_num
      unfold saltPepper
      rw [u, vt]
      ex_simp
      norm_num
    show (Except.ok ((⟨1, 1, [(saltPepper (exactRng onesAndZeros) (tinyThreshold.val : ℝ) 0 (exact c)).1]⟩ : PixelBuffer (Col ℝ)),
      (saltPepper (exactRng onesAndZeros) (tinyThreshold.val : ℝ) 0 (exact c)).2) : R _) = _
    rw [this]

/-- With a threshold of 1/4 no number is rounded: a draw that meets `1 - threshold` does no harm. -/
example [Libm b32] (s : Nat) : (onesAndZeros.unit s).1.val = (lit 1 -. FP.ofRat b32 false (1 / 4) : F32).val →
    (lit 1 -. FP.ofRat b32 false (1 / 4) : F32).val = 1 - (FP.ofRat b32 false (1 / 4)).val := fun _ => by
  show (FP.sub (FP.ofRat b32 false 1) (FP.ofRat b32 false (1 / 4))).val = _
  decide +kernel

/-- Gaussian noise over a picture of two pixels. -/
example [Libm b32] [Junk] (s : Nat) : BothMake (0 + 2 ^ 2 / 2 ^ 22)
    (Image.gaussian_noise onesAndZeros (Image.new_from_buffer ⟨2, 1, [twoPixels 0 0, twoPixels 1 0]⟩) (FP.ofRat b32 false (1 / 2)) s)
    (Image.gaussian_noise (exactRng onesAndZeros) (Image.new_from_buffer ⟨2, 1, [exact (twoPixels 0 0), exact (twoPixels 1 0)]⟩)
      ((FP.ofRat b32 false (1 / 2)).val : ℝ) s) := by
  have k : Alike 0 (⟨2, 1, [twoPixels 0 0, twoPixels 1 0]⟩ : PixelBuffer (Col F32))
      ⟨2, 1, [exact (twoPixels 0 0), exact (twoPixels 1 0)]⟩ := by
    refine C127_same (b := ⟨2, 1, [twoPixels 0 0, twoPixels 1 0]⟩) ⟨by norm_num [ValidSize], rfl⟩ ?_
    intro c hc
    rcases List.mem_cons.1 hc with rfl | hc
    · exact ⟨by decide +kernel, by decide +kernel, by decide +kernel, by decide +kernel⟩
    · rw [List.mem_singleton.1 hc]
      exact ⟨by decide +kernel, by decide +kernel, by decide +kernel, by decide +kernel⟩
  exact (C135_noise (by norm_num) onesAndZeros onesAndZeros_range (a := Image.new_from_buffer _) (b := Image.new_from_buffer _) k _
    (by decide +kernel) (by decide +kernel) (by decide +kernel) s).2.2.1

end D10
