import Verif.Lemmas.Bytes
import Verif.Props.Srgb
import Verif.Props.ColorOps

/-! # Properties of quantisation: C48, C49, C53 (levels) -/

namespace D10
open Spec
open Scalar (isNan lit)

/-! ## Generic facts -/

theorem as_u8_fin [Libm b32] {x : F32} (hx : x.fin = true) :
    as_u8 x = min 255 ⌊rn b32 (x.val * 255)⌋₊ := by
  have := quant_fin (n := 255) (by norm_num) hx
  push_cast at this
  exact this

theorem as_u16_fin [Libm b32] {x : F32} (hx : x.fin = true) :
    as_u16 x = min 65535 ⌊rn b32 (x.val * 65535)⌋₊ := by
  have := quant_fin (n := 65535) (by norm_num) hx
  push_cast at this
  exact this

theorem from_u8_fin [Libm b32] {v : Nat} (hv : v < 256) :
    (from_u8 v : F32).fin = true ∧ (from_u8 v : F32).val = rn b32 ((v : ℚ) / 255) := by
  have := unquant (n := 255) (v := v) (by norm_num) (by norm_num) (by omega)
  push_cast at this
  exact this

theorem exact_quant [Junk] (n : Nat) (hn : n ≤ 65535) (x : ℝ) :
    (Scalar.toInt 0 (n : Int) (Scalar.clamp (lit 0) (lit (n : ℚ)) (x *. lit (n : ℚ)))).toNat =
      min n ⌊x * n⌋₊ := by
  rw [LawfulCast.toInt_clamp (n : Int) n _ (by omega) le_rfl]
  have e : x *. (lit (n : ℚ)) = x * n := by rw [Exact.mul]; ex_simp
  rw [e]
  show (max 0 (min (n : Int) (if x * n < 0 then ⌈x * n⌉ else ⌊x * n⌋))).toNat = _
  split
  · rename_i h
    have h1 : ⌈x * n⌉ ≤ 0 := by rw [Int.ceil_le]; simpa using h.le
    rw [Nat.floor_of_nonpos h.le]
    omega
  · rename_i h
    have h1 := Int.natCast_floor_eq_floor (_root_.not_lt.1 h)
    omega

/-! ## C48: 8 bits -/

/-- Decoding a level and encoding it again gives the level, for every 8-bit level, in binary32. -/
theorem C48_round_trip [Libm b32] (v : Nat) (hv : v < 256) : as_u8 (from_u8 v : F32) = v := by
  have e := quant_round (n := 8) (v := v) (.inl rfl) (by omega)
  norm_num at e
  rw [as_u8_fin (from_u8_fin hv).1, (from_u8_fin hv).2, e, Nat.floor_natCast]
  omega

/-- The same in exact arithmetic. -/
theorem C48_round_trip_exact [Junk] (v : Nat) (hv : v < 256) : as_u8 (from_u8 v : ℝ) = v := by
  have e := exact_quant 255 (by norm_num) (from_u8 v : ℝ)
  push_cast at e
  refine Eq.trans e ?_
  have : (from_u8 v : ℝ) = v / 255 := by unfold from_u8; ex_simp
  rw [this, div_mul_cancel₀ _ (by norm_num), Nat.floor_natCast]
  omega

/-- What is encoded: `255 x` rounded to binary32, cut off to an integer and limited to 255. -/
theorem C48_encode [Libm b32] (x : F32) (hx : x.fin = true) :
    as_u8 x = min 255 ⌊rn b32 (x.val * 255)⌋₊ := as_u8_fin hx

theorem C48_encode_exact [Junk] (x : ℝ) : as_u8 x = min 255 ⌊x * 255⌋₊ := by
  have e := exact_quant 255 (by norm_num) x
  push_cast at e
  exact e

/-- What is decoded: `v / 255`, rounded. -/
theorem C48_decode [Libm b32] (v : Nat) (hv : v < 256) :
    (from_u8 v : F32).fin = true ∧ (from_u8 v : F32).val = rn b32 ((v : ℚ) / 255) := from_u8_fin hv

theorem C48_decode_exact [Junk] (v : Nat) : (from_u8 v : ℝ) = v / 255 := by
  unfold from_u8; ex_simp

/-- The brighter value never gets the smaller level. -/
theorem C48_monotone [Libm b32] (x y : F32) (h : (x <=. y) = true) : as_u8 x ≤ as_u8 y := by
  have := quant_mono (n := 255) (by norm_num) (by norm_num) h
  push_cast at this
  exact this

/-- A level is a byte, whatever the value was. -/
theorem C48_byte {F : Type} [Scalar F] [LawfulCast F] (x : F) : as_u8 x ≤ 255 := by
  unfold as_u8 Scalar.asU8
  have := (LawfulCast.toInt_range (F := F) 0 255 (Scalar.clamp (lit 0) (lit 255) (x *. lit 255)) le_rfl
    (by norm_num)).2
  omega

/-- NaN gives 0, the infinities (and everything outside the range) the end points. -/
theorem C48_special [Libm b32] : as_u8 (FP.nan : F32) = 0 ∧ as_u8 (FP.inf false : F32) = 255 ∧
    as_u8 (FP.inf true : F32) = 0 ∧
    (∀ x : F32, (lit 1 <=. x) = true → as_u8 x = 255) ∧
    (∀ x : F32, (x <=. lit 0) = true → as_u8 x = 0) := by
  have h1 : as_u8 (lit 1 : F32) = 255 := by
    rw [as_u8_fin (x := lit 1) FP.lit1.1]
    have : (lit 1 : F32).val = 1 := FP.lit1.2
    rw [this, one_mul]
    have : rn b32 255 = 255 := by decide +kernel
    rw [this]; norm_num
  have h0 : as_u8 (lit 0 : F32) = 0 := by
    rw [as_u8_fin (x := lit 0) FP.lit0.1]
    have : (lit 0 : F32).val = 0 := FP.lit0.2
    rw [this, zero_mul, rn_zero]; norm_num
  have hi : ∀ x : F32, (lit 1 <=. x) = true → as_u8 x = 255 := by
    intro x h
    have a := C48_monotone _ _ h
    have b := C48_byte x
    rw [h1] at a
    omega
  have lo : ∀ x : F32, (x <=. lit 0) = true → as_u8 x = 0 := by
    intro x h
    have a := C48_monotone _ _ h
    rw [h0] at a
    omega
  refine ⟨?_, hi _ ?_, lo _ ?_, hi, lo⟩
  · show (FP.toInt 0 255 (Scalar.clamp (lit 0) (lit 255) (FP.nan : F32))).toNat = 0
    have : Scalar.clamp (lit 0) (lit 255) (FP.nan : F32) = FP.nan := by
      unfold Scalar.clamp
      rw [LawfulScalar.lt_nan_left _ _ rfl, LawfulScalar.lt_nan_right _ _ rfl]; rfl
    rw [this]; rfl
  · exact FP.le_fin_inf FP.lit1.1
  · exact FP.le_inf_fin FP.lit0.1

example : let _ := Libm.trivial b32; as_u8 (from_u8 200 : F32) = 200 := by
  intro _; exact C48_round_trip 200 (by norm_num)

/-- One level up is really a different level: encoding separates what decoding separates. -/
example [Libm b32] : as_u8 (from_u8 17 : F32) ≠ as_u8 (from_u8 18 : F32) := by
  rw [C48_round_trip _ (by norm_num), C48_round_trip _ (by norm_num)]; norm_num

/-! ## C49: 16 bits -/

/-- Two bytes, decoded as a 16-bit level (high byte first) and encoded again. -/
theorem C49_round_trip [Libm b32] (a b : Nat) (ha : a < 256) (hb : b < 256) :
    u16be (as_u16 (from_u16_be a b : F32)) = [a, b] := by
  set v := a * 256 + b with hv
  have u := unquant (n := 65535) (v := v) (by norm_num) (by norm_num) (by omega)
  have u2 : (from_u16_be a b : F32).fin = true ∧
      (from_u16_be a b : F32).val = rn b32 ((v : ℚ) / 65535) := by
    have := u; push_cast at this; unfold from_u16_be; push_cast; rw [hv] at this; push_cast at this
    rw [hv]; push_cast; exact this
  have e := quant_round (n := 16) (v := v) (.inr rfl) (by omega)
  norm_num at e
  rw [as_u16_fin u2.1, u2.2, e, Nat.floor_natCast]
  unfold u16be
  have e1 : min 65535 v / 256 = a := by omega
  have e2 : min 65535 v % 256 = b := by omega
  rw [e1, e2]

/-- The machine's own byte order is used for 16-bit JPEG samples. -/
theorem C49_native {F : Type} [Scalar F] (a b : Nat) :
    (from_u16_ne true a b : F) = from_u16_be b a ∧ (from_u16_ne false a b : F) = from_u16_be a b :=
  ⟨rfl, rfl⟩

theorem C49_round_trip_exact [Junk] (a b : Nat) (ha : a < 256) (hb : b < 256) :
    u16be (as_u16 (from_u16_be a b : ℝ)) = [a, b] := by
  have e := exact_quant 65535 (by norm_num) (from_u16_be a b : ℝ)
  push_cast at e
  have e' : as_u16 (from_u16_be a b : ℝ) = min 65535 ⌊(from_u16_be a b : ℝ) * 65535⌋₊ := e
  have : (from_u16_be a b : ℝ) = ((a * 256 + b : Nat) : ℝ) / 65535 := by unfold from_u16_be; ex_simp
  rw [e', this, div_mul_cancel₀ _ (by norm_num), Nat.floor_natCast]
  unfold u16be
  have e1 : min 65535 (a * 256 + b) / 256 = a := by omega
  have e2 : min 65535 (a * 256 + b) % 256 = b := by omega
  rw [e1, e2]

theorem C49_encode [Libm b32] (x : F32) (hx : x.fin = true) :
    as_u16 x = min 65535 ⌊rn b32 (x.val * 65535)⌋₊ := as_u16_fin hx

theorem C49_encode_exact [Junk] (x : ℝ) : as_u16 x = min 65535 ⌊x * 65535⌋₊ := by
  have e := exact_quant 65535 (by norm_num) x
  push_cast at e
  exact e

theorem C49_decode_exact [Junk] (a b : Nat) : (from_u16_be a b : ℝ) = (256 * a + b) / 65535 := by
  unfold from_u16_be; ex_simp; push_cast; ring

theorem C49_monotone [Libm b32] (x y : F32) (h : (x <=. y) = true) : as_u16 x ≤ as_u16 y := by
  have := quant_mono (n := 65535) (by norm_num) (by norm_num) h
  push_cast at this
  exact this

theorem C49_word {F : Type} [Scalar F] [LawfulCast F] (x : F) : as_u16 x ≤ 65535 := by
  unfold as_u16 Scalar.asU16
  have := (LawfulCast.toInt_range (F := F) 0 65535 (Scalar.clamp (lit 0) (lit 65535) (x *. lit 65535))
    le_rfl (by norm_num)).2
  omega

/-- NaN gives 0, everything outside the range the end points. -/
theorem C49_special [Libm b32] : as_u16 (FP.nan : F32) = 0 ∧
    (∀ x : F32, (lit 1 <=. x) = true → as_u16 x = 65535) ∧
    (∀ x : F32, (x <=. lit 0) = true → as_u16 x = 0) := by
  refine ⟨?_, fun x h => ?_, fun x h => ?_⟩
  · show (FP.toInt 0 65535 (Scalar.clamp (lit 0) (lit 65535) (FP.nan : F32))).toNat = 0
    have : Scalar.clamp (lit 0) (lit 65535) (FP.nan : F32) = FP.nan := by
      unfold Scalar.clamp
      rw [LawfulScalar.lt_nan_left _ _ rfl, LawfulScalar.lt_nan_right _ _ rfl]; rfl
    rw [this]; rfl
  · have h1 : as_u16 (lit 1 : F32) = 65535 := by
      rw [as_u16_fin (x := lit 1) FP.lit1.1]
      have : (lit 1 : F32).val = 1 := FP.lit1.2
      rw [this, one_mul]
      have : rn b32 65535 = 65535 := by decide +kernel
      rw [this]; norm_num
    have a := C49_monotone _ _ h
    have b := C49_word x
    rw [h1] at a
    omega
  · have h0 : as_u16 (lit 0 : F32) = 0 := by
      rw [as_u16_fin (x := lit 0) FP.lit0.1]
      have : (lit 0 : F32).val = 0 := FP.lit0.2
      rw [this, zero_mul, rn_zero]; norm_num
    have a := C49_monotone _ _ h
    rw [h0] at a
    omega

example : let _ := Libm.trivial b32; u16be (as_u16 (from_u16_be 200 13 : F32)) = [200, 13] := by
  intro _; exact C49_round_trip 200 13 (by norm_num) (by norm_num)

/-! ## C53: levels through the sRGB curve -/

theorem srgb_back [Junk] {c : Col ℝ} (h : Spec.Unit c) : Rgb.to_srgb (Srgb.to_rgb c) = c :=
  (C30_colours c h).1

theorem gray_back [Junk] {v a : ℝ} (h : Spec.Unit ⟨v, v, v, a⟩) :
    Rgb.to_srgb (Rgb.to_gray (Srgb.to_rgb ⟨v, v, v, a⟩)) = ⟨v, v, v, a⟩ := by
  have hr := C30_range v h.r0 h.r1
  have e : Srgb.to_rgb (⟨v, v, v, a⟩ : Col ℝ) =
      ⟨gamma_to_linear v, gamma_to_linear v, gamma_to_linear v, a⟩ := by
    unfold Srgb.to_rgb Rgb.new_with_alpha
    simp only
    rw [Exact.clamp01_id hr.1 hr.2, Exact.clamp01_id h.a0 h.a1]
  have hu : Spec.Unit (⟨gamma_to_linear v, gamma_to_linear v, gamma_to_linear v, a⟩ : Col ℝ) :=
    ⟨hr.1, hr.2, hr.1, hr.2, hr.1, hr.2, h.a0, h.a1⟩
  have g : Rgb.to_gray (Srgb.to_rgb (⟨v, v, v, a⟩ : Col ℝ)) = Srgb.to_rgb ⟨v, v, v, a⟩ := by
    rw [e, C27_default, C27_gray_stays _ _ hu]; rfl
  rw [g, srgb_back h]

/-- In exact arithmetic, decoding the samples of a pixel to linear light and encoding the colour
again gives the same bytes, for every kind of samples. -/
theorem C53_exact [Junk] (d : Nat → Nat) (hd : ∀ k, d k < 256) (ct : PngColorType) :
    sampleBytes (colourOf (F := ℝ) d ct) ct = (List.range (channels ct * sampleSize ct)).map d := by
  have s8 : ∀ k, (sample8 d k : ℝ) = from_u8 (d k) := fun k => rfl
  have s16 : ∀ k, (sample16 d k : ℝ) = from_u16_be (d (2 * k)) (d (2 * k + 1)) := fun k => rfl
  have r8 : ∀ k, 0 ≤ (sample8 d k : ℝ) ∧ (sample8 d k : ℝ) ≤ 1 := by
    intro k
    rw [s8, C48_decode_exact]
    have : ((d k : Nat) : ℝ) ≤ 255 := by have := hd k; exact_mod_cast (by omega : d k ≤ 255)
    constructor
    · positivity
    · rw [div_le_one (by norm_num)]; exact this
  have r16 : ∀ k, 0 ≤ (sample16 d k : ℝ) ∧ (sample16 d k : ℝ) ≤ 1 := by
    intro k
    rw [s16, C49_decode_exact]
    have h1 : ((d (2 * k) : Nat) : ℝ) ≤ 255 := by
      have := hd (2 * k); exact_mod_cast (by omega : d (2 * k) ≤ 255)
    have h2 : ((d (2 * k + 1) : Nat) : ℝ) ≤ 255 := by
      have := hd (2 * k + 1); exact_mod_cast (by omega : d (2 * k + 1) ≤ 255)
    constructor
    · positivity
    · rw [div_le_one (by norm_num)]; linarith
  have e8 : ∀ k, as_u8 (sample8 d k : ℝ) = d k := fun k => C48_round_trip_exact _ (hd k)
  have e16 : ∀ k, bigEndian (as_u16 (sample16 d k : ℝ)) = [d (2 * k), d (2 * k + 1)] :=
    fun k => C49_round_trip_exact _ _ (hd _) (hd _)
  have one8 : as_u8 (1 : ℝ) = 255 := by rw [C48_encode_exact]; norm_num
  have new3 : ∀ {x y z : ℝ}, 0 ≤ x ∧ x ≤ 1 → 0 ≤ y ∧ y ≤ 1 → 0 ≤ z ∧ z ≤ 1 →
      Srgb.new x y z = ⟨x, y, z, 1⟩ ∧ Spec.Unit (⟨x, y, z, 1⟩ : Col ℝ) := by
    intro x y z hx hy hz
    refine ⟨?_, hx.1, hx.2, hy.1, hy.2, hz.1, hz.2, zero_le_one, le_rfl⟩
    unfold Srgb.new
    rw [Exact.clamp01_id hx.1 hx.2, Exact.clamp01_id hy.1 hy.2, Exact.clamp01_id hz.1 hz.2]
    ex_simp
  have new4 : ∀ {x y z a : ℝ}, 0 ≤ x ∧ x ≤ 1 → 0 ≤ y ∧ y ≤ 1 → 0 ≤ z ∧ z ≤ 1 → 0 ≤ a ∧ a ≤ 1 →
      Srgb.new_with_alpha x y z a = ⟨x, y, z, a⟩ ∧ Spec.Unit (⟨x, y, z, a⟩ : Col ℝ) := by
    intro x y z a hx hy hz ha
    refine ⟨?_, hx.1, hx.2, hy.1, hy.2, hz.1, hz.2, ha.1, ha.2⟩
    unfold Srgb.new_with_alpha
    rw [Exact.clamp01_id hx.1 hx.2, Exact.clamp01_id hy.1 hy.2, Exact.clamp01_id hz.1 hz.2,
      Exact.clamp01_id ha.1 ha.2]
  cases ct
  · obtain ⟨n, u⟩ := new3 (r8 0) (r8 0) (r8 0)
    show [as_u8 (Rgb.to_srgb (Rgb.to_gray (Srgb.to_rgb (Srgb.new _ _ _)))).c0] = [d 0]
    rw [n, gray_back u, e8]
  · obtain ⟨n, u⟩ := new4 (r8 0) (r8 0) (r8 0) (r8 1)
    show [as_u8 (Rgb.to_srgb (Rgb.to_gray (Srgb.to_rgb (Srgb.new_with_alpha _ _ _ _)))).c0,
      as_u8 (Rgb.to_srgb (Rgb.to_gray (Srgb.to_rgb (Srgb.new_with_alpha _ _ _ _)))).alpha] = [d 0, d 1]
    rw [n, gray_back u, e8, e8]
  · obtain ⟨n, u⟩ := new3 (r16 0) (r16 0) (r16 0)
    show bigEndian (as_u16 (Rgb.to_srgb (Rgb.to_gray (Srgb.to_rgb (Srgb.new _ _ _)))).c0) = [d 0, d 1]
    rw [n, gray_back u, e16]
  · obtain ⟨n, u⟩ := new4 (r16 0) (r16 0) (r16 0) (r16 1)
    show bigEndian (as_u16 (Rgb.to_srgb (Rgb.to_gray (Srgb.to_rgb (Srgb.new_with_alpha _ _ _ _)))).c0) ++
      bigEndian (as_u16 (Rgb.to_srgb (Rgb.to_gray (Srgb.to_rgb (Srgb.new_with_alpha _ _ _ _)))).alpha) =
      [d 0, d 1, d 2, d 3]
    rw [n, gray_back u, e16, e16]; rfl
  · obtain ⟨n, u⟩ := new3 (r8 0) (r8 1) (r8 2)
    show [as_u8 (Rgb.to_srgb (Srgb.to_rgb (Srgb.new _ _ _))).c0,
      as_u8 (Rgb.to_srgb (Srgb.to_rgb (Srgb.new _ _ _))).c1,
      as_u8 (Rgb.to_srgb (Srgb.to_rgb (Srgb.new _ _ _))).c2] = [d 0, d 1, d 2]
    rw [n, srgb_back u, e8, e8, e8]
  · obtain ⟨n, u⟩ := new4 (r8 0) (r8 1) (r8 2) (r8 3)
    show [as_u8 (Rgb.to_srgb (Srgb.to_rgb (Srgb.new_with_alpha _ _ _ _))).c0,
      as_u8 (Rgb.to_srgb (Srgb.to_rgb (Srgb.new_with_alpha _ _ _ _))).c1,
      as_u8 (Rgb.to_srgb (Srgb.to_rgb (Srgb.new_with_alpha _ _ _ _))).c2,
      as_u8 (Rgb.to_srgb (Srgb.to_rgb (Srgb.new_with_alpha _ _ _ _))).alpha] = [d 0, d 1, d 2, d 3]
    rw [n, srgb_back u, e8, e8, e8, e8]
  · obtain ⟨n, u⟩ := new3 (r16 0) (r16 1) (r16 2)
    show bigEndian (as_u16 (Rgb.to_srgb (Srgb.to_rgb (Srgb.new _ _ _))).c0) ++
      bigEndian (as_u16 (Rgb.to_srgb (Srgb.to_rgb (Srgb.new _ _ _))).c1) ++
      bigEndian (as_u16 (Rgb.to_srgb (Srgb.to_rgb (Srgb.new _ _ _))).c2) =
      [d 0, d 1, d 2, d 3, d 4, d 5]
    rw [n, srgb_back u, e16, e16, e16]; rfl
  · obtain ⟨n, u⟩ := new4 (r16 0) (r16 1) (r16 2) (r16 3)
    show bigEndian (as_u16 (Rgb.to_srgb (Srgb.to_rgb (Srgb.new_with_alpha _ _ _ _))).c0) ++
      bigEndian (as_u16 (Rgb.to_srgb (Srgb.to_rgb (Srgb.new_with_alpha _ _ _ _))).c1) ++
      bigEndian (as_u16 (Rgb.to_srgb (Srgb.to_rgb (Srgb.new_with_alpha _ _ _ _))).c2) ++
      bigEndian (as_u16 (Rgb.to_srgb (Srgb.to_rgb (Srgb.new_with_alpha _ _ _ _))).alpha) =
      [d 0, d 1, d 2, d 3, d 4, d 5, d 6, d 7]
    rw [n, srgb_back u, e16, e16, e16, e16]; rfl

theorem white_linear [Libm b32] (hp : ∀ y : F32, Scalar.powf (lit 1) y = lit 1) :
    gamma_to_linear (lit 1 : F32) = lit 1 := by
  unfold gamma_to_linear
  have hc : ((lit 0.04045 : F32) <. lit 1) = true :=
    show FP.lt (FP.ofRat b32 false 0.04045) (FP.ofRat b32 false 1) = true by decide +kernel
  rw [if_pos hc]
  have : ((lit 1 : F32) +. lit 0.055) /. lit 1.055 = lit 1 :=
    show FP.div (FP.add (FP.ofRat b32 false 1) (FP.ofRat b32 false 0.055)) (FP.ofRat b32 false 1.055) =
      FP.ofRat b32 false 1 by decide +kernel
  rw [this, hp]

theorem white_gamma [Libm b32] (hp : ∀ y : F32, Scalar.powf (lit 1) y = lit 1) :
    linear_to_gamma (lit 1 : F32) = lit (16777215 / 16777216) := by
  unfold linear_to_gamma
  have hc : ((lit 0.003130805 : F32) <. lit 1) = true :=
    show FP.lt (FP.ofRat b32 false 0.003130805) (FP.ofRat b32 false 1) = true by decide +kernel
  rw [if_pos hc, hp]
  exact show FP.sub (FP.mul (FP.ofRat b32 false 1.055) (FP.ofRat b32 false 1)) (FP.ofRat b32 false 0.055) =
      FP.ofRat b32 false (16777215 / 16777216) by decide +kernel

/-- In binary32 white does not survive: with any `powf` that is right about `1^y = 1`, a red sample of
255 becomes 254 when it is decoded and encoded again. -/
theorem C53_white [Libm b32] (hp : ∀ y : F32, Scalar.powf (lit 1) y = lit 1) (d : Nat → Nat)
    (h0 : d 0 = 255) : (sampleBytes (colourOf (F := F32) d .Rgb8) .Rgb8)[0]? = some 254 := by
  have c1 : clamp01 (lit 1 : F32) = lit 1 := by
    show (if FP.lt (FP.ofRat b32 false 1) (FP.ofRat b32 false 0) = true then FP.ofRat b32 false 0
      else if FP.lt (FP.ofRat b32 false 1) (FP.ofRat b32 false 1) = true then FP.ofRat b32 false 1
      else FP.ofRat b32 false 1) = FP.ofRat b32 false 1
    decide +kernel
  have c2 : clamp01 (lit (16777215 / 16777216) : F32) = lit (16777215 / 16777216) := by
    show (if FP.lt (FP.ofRat b32 false (16777215 / 16777216)) (FP.ofRat b32 false 0) = true then
      FP.ofRat b32 false 0
      else if FP.lt (FP.ofRat b32 false 1) (FP.ofRat b32 false (16777215 / 16777216)) = true then
        FP.ofRat b32 false 1
      else FP.ofRat b32 false (16777215 / 16777216)) = FP.ofRat b32 false (16777215 / 16777216)
    decide +kernel
  have s : (sample8 d 0 : F32) = lit 1 := by
    unfold sample8; rw [h0]
    exact show FP.div (FP.ofRat b32 false ((255 : Nat) : ℚ)) (FP.ofRat b32 false 255) =
      FP.ofRat b32 false 1 by decide +kernel
  have e : (Rgb.to_srgb (colourOf (F := F32) d .Rgb8)).c0 = lit (16777215 / 16777216) := by
    show clamp01 (linear_to_gamma (clamp01 (gamma_to_linear (clamp01 (sample8 d 0))))) = _
    rw [s, c1, white_linear hp, c1, white_gamma hp, c2]
  show some (as_u8 (Rgb.to_srgb (colourOf (F := F32) d .Rgb8)).c0) = some 254
  rw [e, C48_encode (lit (16777215 / 16777216)) (show (FP.ofRat b32 false (16777215 / 16777216)).fin = true by decide +kernel)]
  have : rn b32 ((lit (16777215 / 16777216) : F32).val * 255) = 16711679 / 65536 :=
    show rn b32 ((FP.ofRat b32 false (16777215 / 16777216)).val * 255) = _ by decide +kernel
  rw [this]
  have : ⌊(16711679 / 65536 : ℚ)⌋₊ = 254 := by rw [Nat.floor_eq_iff (by norm_num)]; norm_num
  rw [this]; norm_num

/-- There are such libms. -/
example : ∃ _ : Libm b32, ∀ y : F32, Scalar.powf (lit 1) y = (lit 1 : F32) :=
  ⟨Libm.trivial b32, fun _ => rfl⟩

/-- Alpha does survive in binary32: it does not go through the curve. -/
theorem C53_alpha [Libm b32] (d : Nat → Nat) (h : ∀ k, d k < 256) :
    (sampleBytes (colourOf (F := F32) d .Rgba8) .Rgba8)[3]? = some (d 3) := by
  have r : (lit 0 <=. (sample8 d 3 : F32)) = true ∧ ((sample8 d 3 : F32) <=. lit 1) = true := by
    have u := C48_decode (d 3) (h 3)
    have h1 : ((d 3 : Nat) : ℚ) ≤ 255 := by have := h 3; exact_mod_cast (by omega : d 3 ≤ 255)
    have h2 : (0 : ℚ) ≤ (d 3 : ℚ) / 255 := by positivity
    have h3 : ((d 3 : Nat) : ℚ) / 255 ≤ 1 := by rw [div_le_one (by norm_num)]; exact h1
    have e : (sample8 d 3 : F32) = from_u8 (d 3) := rfl
    rw [e]
    have l0 : (lit 0 <=. (from_u8 (d 3) : F32)) = _ := FP.le_fin FP.lit0.1 u.1
    have l1 : ((from_u8 (d 3) : F32) <=. lit 1) = _ := FP.le_fin u.1 FP.lit1.1
    rw [l0, l1, u.2, decide_eq_true_iff, decide_eq_true_iff,
      show (lit 0 : F32).val = 0 from FP.lit0.2, show (lit 1 : F32).val = 1 from FP.lit1.2]
    refine ⟨rn_nonneg h2, rn_le_rep ?_ h3⟩
    have := (FP.int_finite (f := b32) 1 (by norm_num [b32])).1
    simpa using this
  have c : clamp01 (sample8 d 3 : F32) = sample8 d 3 := by
    unfold clamp01 Scalar.clamp
    rw [LawfulScalar.not_lt _ _ r.1, LawfulScalar.not_lt _ _ r.2]; rfl
  show some (as_u8 (clamp01 (clamp01 (clamp01 (sample8 d 3 : F32))))) = _
  rw [c, c, c]
  exact congrArg some (C48_round_trip (d 3) (h 3))

end D10
