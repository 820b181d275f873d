import Verif.SpecGenerations
import Verif.Props.SaveOpen
import Verif.Props.AnySpace
import Verif.Props.Numbers

/-! # C125: opening and saving a picture again and again -/

namespace D10
open Spec
open Scalar (lit)

section
variable [Libm b32]

/-- A number that lies close to a level is stored as that level or the one below. -/
theorem level_below {x : F32} {v : Nat} (hv : v < 256) {e : ℝ} (h : Close x ((v : ℝ) / 255) e) (he : e ≤ 1 / 1000) :
    as_u8 x ≤ v ∧ v ≤ as_u8 x + 1 := by
  rw [C48_encode _ h.fin]
  have hx := h.err
  rw [abs_le] at hx
  have up : x.val * 255 ≤ ((v + 1 : Int) : ℚ) - 1 / 2 := by
    have : ((x.val * 255 : ℚ) : ℝ) ≤ ((((v + 1 : Int) : ℚ) - 1 / 2 : ℚ) : ℝ) := by push_cast; linarith
    exact_mod_cast this
  have lo : ((v - 1 : Int) : ℚ) ≤ x.val * 255 := by
    have : ((((v - 1 : Int) : ℚ)) : ℝ) ≤ ((x.val * 255 : ℚ) : ℝ) := by push_cast; linarith
    exact_mod_cast this
  have u := rn_le_rep (half_rep (v + 1) (by rw [abs_le]; omega)) up
  have l := rep_le_rn (FP.int_finite (f := b32) (v - 1) (by rw [abs_le]; norm_num [b32]; omega)).1 lo
  push_cast at u l
  constructor
  · refine (min_le_right _ _).trans ?_
    have : ⌊rn b32 (x.val * 255)⌋₊ < v + 1 := Nat.floor_lt' (by omega) |>.2 (by push_cast; linarith)
    omega
  · rcases Nat.eq_zero_or_pos v with rfl | h0
    · omega
    · have : v - 1 ≤ ⌊rn b32 (x.val * 255)⌋₊ := Nat.le_floor (by rw [Nat.cast_sub h0]; push_cast; linarith)
      omega

/-- The same for 16 bits. -/
theorem word_near {x : F32} {v : Nat} (hv : v < 65536) {e : ℝ} (h : Close x ((v : ℝ) / 65535) e) (he : e ≤ 19 / 1000000) :
    as_u16 x ≤ v + 1 ∧ v ≤ as_u16 x + 2 := by
  rw [C49_encode _ h.fin]
  have hx := h.err
  rw [abs_le] at hx
  have up : x.val * 65535 ≤ ((v + 2 : Int) : ℚ) - 1 / 2 := by
    have : ((x.val * 65535 : ℚ) : ℝ) ≤ ((((v + 2 : Int) : ℚ) - 1 / 2 : ℚ) : ℝ) := by push_cast; linarith
    exact_mod_cast this
  have lo : ((v - 2 : Int) : ℚ) ≤ x.val * 65535 := by
    have : ((((v - 2 : Int) : ℚ)) : ℝ) ≤ ((x.val * 65535 : ℚ) : ℝ) := by push_cast; linarith
    exact_mod_cast this
  have u := rn_le_rep (half_rep (v + 2) (by rw [abs_le]; omega)) up
  have l := rep_le_rn (FP.int_finite (f := b32) (v - 2) (by rw [abs_le]; norm_num [b32]; omega)).1 lo
  push_cast at u l
  constructor
  · refine (min_le_right _ _).trans ?_
    have : ⌊rn b32 (x.val * 65535)⌋₊ < v + 2 := Nat.floor_lt' (by omega) |>.2 (by push_cast; linarith)
    omega
  · rcases Nat.lt_or_ge v 2 with h0 | h0
    · omega
    · have : v - 2 ≤ ⌊rn b32 (x.val * 65535)⌋₊ := Nat.le_floor (by rw [Nat.cast_sub h0]; push_cast; linarith)
      omega

variable [Junk]

/-- From sRGB to linear, moved by at most `e`, and back. -/
theorem trip_near {δ : ℝ} (hW : PowWithin δ) (hδ : δ ≤ 1 / 1024) {w z : F32} (hw : w.fin = true ∧ 0 ≤ w.val ∧ w.val ≤ 1)
    (hz : z.fin = true ∧ 0 ≤ z.val ∧ z.val ≤ 1) {e : ℝ}
    (h : Close z ((clamp01 (gamma_to_linear w) : F32).val : ℝ) e) :
    Close (clamp01 (linear_to_gamma z)) (w.val : ℝ) (13 * (e + (δ + 8 / 10000000)) + 2 / 1000000 + (1.06 * δ + 27 / 10000000)) := by
  obtain ⟨w0, w1⟩ := unit_real hw
  have g := close_clamp (C86_gamma_to_linear _ hW w hw)
  rw [Exact.clamp01_id (C30_range _ w0 w1).1 (C30_range _ w0 w1).2] at g
  have l := C86_linear_to_gamma _ hW hδ z hz
  have n := l2g_near (a := (z.val : ℝ)) (b := gamma_to_linear (w.val : ℝ)) (unit_real hz).1 (C30_range _ w0 w1).1
  rw [C30_round_trip] at n
  have zx : |(z.val : ℝ) - gamma_to_linear (w.val : ℝ)| ≤ e + (δ + 8 / 10000000) :=
    (abs_sub_le _ _ _).trans (add_le_add h.err g.err)
  have c := close_clamp ⟨l.fin, (abs_sub_le _ (linear_to_gamma (z.val : ℝ)) (w.val : ℝ)).trans (add_le_add l.err n)⟩
  rw [Exact.clamp01_id w0 w1] at c
  exact c.mono (by linarith)

/-- One sample of 8 bits. -/
theorem sample_step (hW : PowWithin (1 / 16384)) {v : Nat} (hv : v < 256) {z : F32}
    (hz : z.fin = true ∧ 0 ≤ z.val ∧ z.val ≤ 1)
    (h : Close z ((clamp01 (gamma_to_linear (clamp01 (from_u8 v))) : F32).val : ℝ) (1 / 1048576)) :
    as_u8 (clamp01 (linear_to_gamma z)) ≤ v ∧ v ≤ as_u8 (clamp01 (linear_to_gamma z)) + 1 := by
  obtain ⟨hw, wn⟩ := sample_near hv
  rw [clamp_self32 hw] at h
  have t := trip_near hW (by norm_num) hw hz h
  refine level_below hv (e := 9 / 10000) ⟨t.fin, ?_⟩ (by norm_num)
  refine (abs_sub_le _ _ _).trans ((add_le_add t.err wn.err).trans ?_)
  norm_num

theorem linear_unit {δ : ℝ} (hW : PowWithin δ) {w : F32} (hw : w.fin = true) :
    (clamp01 (gamma_to_linear (clamp01 w)) : F32).fin = true ∧ 0 ≤ (clamp01 (gamma_to_linear (clamp01 w)) : F32).val ∧
      (clamp01 (gamma_to_linear (clamp01 w)) : F32).val ≤ 1 :=
  clamp_chan (C86_gamma_to_linear _ hW _ (clamp_chan hw)).fin

/-- A gray colour stays about the same when it is made gray once more. -/
theorem gray_again {g a : F32} (h : UnitCol (⟨g, g, g, a⟩ : Col F32)) :
    ((Rgb.to_gray (⟨g, g, g, a⟩ : Col F32)).c0.fin = true ∧ 0 ≤ (Rgb.to_gray (⟨g, g, g, a⟩ : Col F32)).c0.val ∧
      (Rgb.to_gray (⟨g, g, g, a⟩ : Col F32)).c0.val ≤ 1) ∧
    Close (Rgb.to_gray (⟨g, g, g, a⟩ : Col F32)).c0 (g.val : ℝ) (1 / 1048576) := by
  have c := (C86_gray _ .Rec709Luma (by decide) h).c0
  have s := C27_gray_stays (g.val : ℝ) (a.val : ℝ) (exact_unit h) .Rec709Luma
  rw [if_neg (by decide)] at s
  rw [show (exact (⟨g, g, g, a⟩ : Col F32)) = ⟨(g.val : ℝ), (g.val : ℝ), (g.val : ℝ), (a.val : ℝ)⟩ from rfl, s] at c
  have r := (C118_colours (UnitCol.inRange h) ⟨g, g, g, a⟩ (lit 0) (lit 0) (lit 0) .Rec709Luma id).1
    (Rgb.to_gray ⟨g, g, g, a⟩) (.head _)
  exact ⟨unit_of r.1.1 (fin_number c.fin), c⟩

/-- C125: the samples of an 8-bit pixel that is read and written again. -/
theorem C125_step (hW : PowWithin (1 / 16384)) (ct : PngColorType) (hct : ct ∈ [.L8, .La8, .Rgb8, .Rgba8]) (d : Nat → Nat)
    (hd : ∀ k, d k < 256) (k : Nat) (hk : k < channels ct) :
    Faded 1 (isAlpha ct k) (d k) ((sampleBytes (colourOf (F := F32) d ct) ct).getD k 0) := by
  have self : ∀ {x : F32}, x.fin = true → Close x (x.val : ℝ) (1 / 1048576) := fun h => ⟨h, by simp⟩
  have sf : ∀ k, (from_u8 (d k) : F32).fin = true := fun k => (sample_near (hd k)).1.1
  have one : ∀ k, as_u8 (clamp01 (linear_to_gamma (clamp01 (gamma_to_linear (clamp01 (from_u8 (d k) : F32)))))) ≤ d k ∧
      d k ≤ as_u8 (clamp01 (linear_to_gamma (clamp01 (gamma_to_linear (clamp01 (from_u8 (d k) : F32)))))) + 1 := fun k =>
    sample_step hW (hd k) (linear_unit hW (sf k)) (self (linear_unit hW (sf k)).1)
  have al : ∀ k, as_u8 (clamp01 (clamp01 (clamp01 (from_u8 (d k) : F32)))) = d k := fun k => by
    rw [clamp_self32 (sample_near (hd k)).1, clamp_self32 (sample_near (hd k)).1, clamp_self32 (sample_near (hd k)).1]
    exact C48_round_trip _ (hd k)
  have gray : ∀ a : F32, (a.fin = true ∧ 0 ≤ a.val ∧ a.val ≤ 1) →
      as_u8 (grayLevel (⟨clamp01 (gamma_to_linear (clamp01 (from_u8 (d 0)))), clamp01 (gamma_to_linear (clamp01 (from_u8 (d 0)))),
        clamp01 (gamma_to_linear (clamp01 (from_u8 (d 0)))), a⟩ : Col F32)) ≤ d 0 ∧
      d 0 ≤ as_u8 (grayLevel (⟨clamp01 (gamma_to_linear (clamp01 (from_u8 (d 0)))), clamp01 (gamma_to_linear (clamp01 (from_u8 (d 0)))),
        clamp01 (gamma_to_linear (clamp01 (from_u8 (d 0)))), a⟩ : Col F32)) + 1 := fun a ha => by
    have u := linear_unit hW (sf 0)
    obtain ⟨g1, g2⟩ := gray_again (a := a) ⟨u, u, u, ha⟩
    exact sample_step hW (hd 0) g1 g2
  have au : ∀ k, (clamp01 (clamp01 (from_u8 (d k) : F32))).fin = true ∧ 0 ≤ (clamp01 (clamp01 (from_u8 (d k) : F32))).val ∧
      (clamp01 (clamp01 (from_u8 (d k) : F32))).val ≤ 1 := fun k => clamp_chan (clamp_chan (sf k)).1
  simp only [List.mem_cons, List.not_mem_nil, or_false] at hct
  rcases hct with rfl | rfl | rfl | rfl <;> simp only [channels] at hk
  · obtain rfl : k = 0 := by omega
    exact gray _ (clamp_chan FP.lit1.1)
  · obtain rfl | rfl : k = 0 ∨ k = 1 := by omega
    · exact gray _ (au 1)
    · exact al 1
  · obtain rfl | rfl | rfl : k = 0 ∨ k = 1 ∨ k = 2 := by omega
    · exact one 0
    · exact one 1
    · exact one 2
  · obtain rfl | rfl | rfl | rfl : k = 0 ∨ k = 1 ∨ k = 2 ∨ k = 3 := by omega
    · exact one 0
    · exact one 1
    · exact one 2
    · exact al 3

omit [Junk] in
/-- A 16-bit sample. -/
theorem sample16_near {a b : Nat} (ha : a < 256) (hb : b < 256) :
    ((from_u16_be a b : F32).fin = true ∧ 0 ≤ (from_u16_be a b : F32).val ∧ (from_u16_be a b : F32).val ≤ 1) ∧
    Close (from_u16_be a b : F32) (((a * 256 + b : Nat) : ℝ) / 65535) (1 / 10000000) := by
  have u := unquant (n := 65535) (v := a * 256 + b) (by norm_num) (by norm_num) (by omega)
  have u : (from_u16_be a b : F32).fin = true ∧
      (from_u16_be a b : F32).val = rn b32 (((a * 256 + b : Nat) : ℚ) / 65535) := by
    have := u; push_cast at this; unfold from_u16_be; push_cast; exact this
  have hv : a * 256 + b ≤ 65535 := by omega
  generalize a * 256 + b = v at *
  have h1 : ((v : Nat) : ℚ) ≤ 65535 := by exact_mod_cast hv
  have h2 : (0 : ℚ) ≤ (v : ℚ) / 65535 := by positivity
  have h3 : (v : ℚ) / 65535 ≤ 1 := by rw [div_le_one (by norm_num)]; exact h1
  have n := NearF.round (b := false) (q := (v : ℚ) / 65535) (r := (v : ℝ) / 65535) (e := 0) (B := 1) 0 (by norm_num)
    (by push_cast; simp) (by
      have : (v : ℝ) ≤ 65535 := by exact_mod_cast h1
      rw [abs_of_nonneg (by positivity), div_le_one (by norm_num)]; exact this) (by norm_num)
  have e := n.close.err
  rw [ofRat_fin_val n.close.fin, ← u.2] at e
  refine ⟨⟨u.1, ?_, ?_⟩, u.1, e.trans (by norm_num)⟩
  · rw [u.2]; exact rn_nonneg h2
  · rw [u.2]
    refine rn_le_rep ?_ h3
    have := (FP.int_finite (f := b32) 1 (by norm_num [b32])).1
    simpa using this

/-- C125: the samples of a 16-bit pixel that is read and written again. -/
theorem C125_step_16 (hW : PowWithin (1 / 4194304)) (ct : PngColorType) (hct : ct ∈ [.Rgb16, .Rgba16]) (d : List Nat)
    (hd : ∀ k, d.getD k 0 < 256) (k : Nat) (hk : k < channels ct) :
    Drifted 1 (isAlpha ct k) (sampleWord d k)
      (sampleWord (sampleBytes (colourOf (F := F32) (fun k => d.getD k 0) ct) ct) k) := by
  have near : ∀ k, _ := fun k => sample16_near (hd (2 * k)) (hd (2 * k + 1))
  have fit : ∀ n : Nat, n / 256 * 256 + n % 256 = n := fun n => by omega
  have one : ∀ k, as_u16 (clamp01 (linear_to_gamma (clamp01 (gamma_to_linear (clamp01
        (sample16 (fun k => d.getD k 0) k : F32)))))) ≤ sampleWord d k + 1 ∧
      sampleWord d k ≤ as_u16 (clamp01 (linear_to_gamma (clamp01 (gamma_to_linear (clamp01
        (sample16 (fun k => d.getD k 0) k : F32)))))) + 2 := by
    intro k
    obtain ⟨hw, wn⟩ := near k
    rw [show (sample16 (fun k => d.getD k 0) k : F32) = from_u16_be (d.getD (2 * k) 0) (d.getD (2 * k + 1) 0) from rfl]
    have u := linear_unit hW hw.1
    rw [clamp_self32 hw] at u ⊢
    have t := trip_near hW (by norm_num) hw u (e := 0) ⟨u.1, by simp⟩
    refine word_near (v := sampleWord d k) ?_ (e := 19 / 1000000)
      ⟨t.fin, (abs_sub_le _ _ _).trans ((add_le_add t.err wn.err).trans ?_)⟩ le_rfl
    · have := hd (2 * k); have := hd (2 * k + 1); unfold sampleWord; omega
    · norm_num
  have al : ∀ k, as_u16 (clamp01 (clamp01 (clamp01 (sample16 (fun k => d.getD k 0) k : F32)))) = sampleWord d k := by
    intro k
    obtain ⟨hw, wn⟩ := near k
    rw [show (sample16 (fun k => d.getD k 0) k : F32) = from_u16_be (d.getD (2 * k) 0) (d.getD (2 * k + 1) 0) from rfl,
      clamp_self32 hw, clamp_self32 hw, clamp_self32 hw]
    have r := C49_round_trip _ _ (hd (2 * k)) (hd (2 * k + 1))
    unfold u16be at r
    rw [List.cons.injEq, List.cons.injEq] at r
    rw [← fit (as_u16 _), r.1, r.2.1]
    rfl
  have pick : ∀ {n : Nat} {a : Bool} {m : Nat}, (if a then n = m else n ≤ m + 1 ∧ m ≤ n + 2) →
      Drifted 1 a m (n / 256 * 256 + n % 256) := by
    intro n a m h
    rw [fit]
    unfold Drifted
    split at h <;> simp_all
  simp only [List.mem_cons, List.not_mem_nil, or_false] at hct
  rcases hct with rfl | rfl <;> simp only [channels] at hk
  · obtain rfl | rfl | rfl : k = 0 ∨ k = 1 ∨ k = 2 := by omega
    · exact pick (one 0)
    · exact pick (one 1)
    · exact pick (one 2)
  · obtain rfl | rfl | rfl | rfl : k = 0 ∨ k = 1 ∨ k = 2 ∨ k = 3 := by omega
    · exact pick (one 0)
    · exact pick (one 1)
    · exact pick (one 2)
    · exact pick (a := true) (al 3)

/-! ## Files -/

omit [Libm b32] [Junk] in
theorem Faded.trans {m n : Nat} {a : Bool} {x y z : Nat} (h : Faded m a x y) (g : Faded n a y z) : Faded (n + m) a x z := by
  unfold Faded at *
  split at h
  · simp_all
  · simp_all; omega

omit [Libm b32] [Junk] in
theorem Drifted.trans {m n : Nat} {a : Bool} {x y z : Nat} (h : Drifted m a x y) (g : Drifted n a y z) :
    Drifted (n + m) a x z := by
  unfold Drifted at *
  split at h
  · simp_all
  · simp_all; omega

omit [Libm b32] [Junk] in
theorem getD_byte {d : List Nat} (hd : ∀ v ∈ d, v < 256) (k : Nat) : d.getD k 0 < 256 := by
  by_cases hk : k < d.length
  · rw [List.getD, List.getElem?_eq_getElem hk]
    exact hd _ (List.getElem_mem hk)
  · rw [List.getD, List.getElem?_eq_none (Nat.le_of_not_lt hk)]; decide

omit [Junk] in
/-- Whatever a relation says of one generation holds of all. -/
theorem generations_rel [FloatBytes F32] (libs : Libs F32) (hlib : Lossless libs) (path : String) (ct : PngColorType)
    (hct : ct ≠ .L16) (cmp : PngCompression) (flt : PngFilterType) (rel : Nat → List Nat → List Nat → Prop)
    (zero : ∀ d, rel 0 d d) (trans : ∀ n d d' d'', rel 1 d d' → rel n d' d'' → rel (n + 1) d d'')
    (step : ∀ d : List Nat, (∀ k, d.getD k 0 < 256) → rel 1 d (sampleBytes (colourOf (F := F32) (fun k => d.getD k 0) ct) ct))
    {w h : Nat} (hw : 0 < w) (hh : 0 < h) (n : Nat) :
    ∀ (fs : FS) (_ : Reliable fs) (b : PixelBuffer (Col F32)) (d : Nat → Nat → List Nat) (_ : ∀ x y k, (d x y).getD k 0 < 256)
      (_ : (decode_file libs fs path).run = .ok (.ok b)) (_ : Shows b w h fun x y => colourOf (fun k => (d x y).getD k 0) ct),
    ∃ (fs' : FS) (b' : PixelBuffer (Col F32)) (d' : Nat → Nat → List Nat),
      generations libs path ct cmp flt n fs = some fs' ∧ (decode_file libs fs' path).run = .ok (.ok b') ∧
      Shows b' w h (fun x y => colourOf (fun k => (d' x y).getD k 0) ct) ∧ ∀ x y, rel n (d x y) (d' x y) := by
  induction n with
  | zero => intro fs _ b d _ ho sh; exact ⟨fs, b, d, rfl, ho, sh, fun _ _ => zero _⟩
  | succ n ih =>
    intro fs hfs b d hd ho sh
    obtain ⟨fs1, b1, e1, o1, s1⟩ := C78_png libs hlib fs hfs path path rfl sh hw hh ct hct cmp flt
    obtain ⟨-, -, r1, r2, r3⟩ := C57_other_files libs fs path b _ fs1 _ e1
    obtain ⟨fs', b', d', g, o, s, r⟩ := ih fs1 ⟨by rw [r3]; exact hfs.1, by rw [r1]; exact hfs.2.1, by rw [r2]; exact hfs.2.2⟩
      b1 (fun x y => sampleBytes (colourOf (F := F32) (fun k => (d x y).getD k 0) ct) ct)
      (fun x y => getD_byte (bytes_lt _ ct)) o1 s1
    refine ⟨fs', b', d', ?_, o, s, fun x y => trans _ _ _ _ (step _ (hd x y)) (r x y)⟩
    rw [generations, resave, ho]
    simp only [e1, Option.bind_some, g]

/-- C125: opening a PNG file with 8 bits and saving it there again, any number of times. -/
theorem C125_files [FloatBytes F32] (hW : PowWithin (1 / 16384)) (libs : Libs F32) (hlib : Lossless libs) (fs : FS)
    (hfs : Reliable fs) (path : String) (ct : PngColorType) (hct : ct ∈ [.L8, .La8, .Rgb8, .Rgba8])
    (cmp : PngCompression) (flt : PngFilterType) {b : PixelBuffer (Col F32)} {w h : Nat} (hw : 0 < w) (hh : 0 < h)
    {d : Nat → Nat → List Nat} (hd : ∀ x y, ∀ v ∈ d x y, v < 256) (ho : (decode_file libs fs path).run = .ok (.ok b))
    (sh : Shows b w h fun x y => colourOf (fun k => (d x y).getD k 0) ct) (n : Nat) :
    ∃ (fs' : FS) (b' : PixelBuffer (Col F32)) (d' : Nat → Nat → List Nat),
      generations libs path ct cmp flt n fs = some fs' ∧ (decode_file libs fs' path).run = .ok (.ok b') ∧
      Shows b' w h (fun x y => colourOf (fun k => (d' x y).getD k 0) ct) ∧
      ∀ x y k, k < channels ct → Faded n (isAlpha ct k) ((d x y).getD k 0) ((d' x y).getD k 0) := by
  refine generations_rel libs hlib path ct ?_ cmp flt
    (fun n d d' => ∀ k, k < channels ct → Faded n (isAlpha ct k) (d.getD k 0) (d'.getD k 0))
    (fun d k _ => ?_) (fun n d d' d'' h g k hk => Faded.trans (h k hk) (g k hk))
    (fun d hd k hk => C125_step hW ct hct (fun k => d.getD k 0) hd k hk) hw hh n fs hfs b d
    (fun x y => getD_byte (hd x y)) ho sh
  · rintro rfl; simp at hct
  · unfold Faded; split <;> simp

/-- C125: the same for a file with 16 bits. -/
theorem C125_files_16 [FloatBytes F32] (hW : PowWithin (1 / 4194304)) (libs : Libs F32) (hlib : Lossless libs) (fs : FS)
    (hfs : Reliable fs) (path : String) (ct : PngColorType) (hct : ct ∈ [.Rgb16, .Rgba16])
    (cmp : PngCompression) (flt : PngFilterType) {b : PixelBuffer (Col F32)} {w h : Nat} (hw : 0 < w) (hh : 0 < h)
    {d : Nat → Nat → List Nat} (hd : ∀ x y, ∀ v ∈ d x y, v < 256) (ho : (decode_file libs fs path).run = .ok (.ok b))
    (sh : Shows b w h fun x y => colourOf (fun k => (d x y).getD k 0) ct) (n : Nat) :
    ∃ (fs' : FS) (b' : PixelBuffer (Col F32)) (d' : Nat → Nat → List Nat),
      generations libs path ct cmp flt n fs = some fs' ∧ (decode_file libs fs' path).run = .ok (.ok b') ∧
      Shows b' w h (fun x y => colourOf (fun k => (d' x y).getD k 0) ct) ∧
      ∀ x y k, k < channels ct → Drifted n (isAlpha ct k) (sampleWord (d x y) k) (sampleWord (d' x y) k) := by
  refine generations_rel libs hlib path ct ?_ cmp flt
    (fun n d d' => ∀ k, k < channels ct → Drifted n (isAlpha ct k) (sampleWord d k) (sampleWord d' k))
    (fun d k _ => ?_) (fun n d d' d'' h g k hk => Drifted.trans (h k hk) (g k hk))
    (fun d hd k hk => C125_step_16 hW ct hct d hd k hk) hw hh n fs hfs b d
    (fun x y => getD_byte (hd x y)) ho sh
  · rintro rfl; simp at hct
  · unfold Drifted; split <;> simp

/-- C125: every picture that is saved as PNG with 8 bits, then opened and saved again any number of times, shows colours
whose samples are those of the first file or a little lower. -/
theorem C125_saved [FloatBytes F32] (hW : PowWithin (1 / 16384)) (libs : Libs F32) (hlib : Lossless libs) (fs : FS)
    (hfs : Reliable fs) (path : String) (ct : PngColorType) (hct : ct ∈ [.L8, .La8, .Rgb8, .Rgba8])
    (cmp : PngCompression) (flt : PngFilterType) {b : PixelBuffer (Col F32)} {w h : Nat} (hw : 0 < w) (hh : 0 < h)
    {px : Nat → Nat → Col F32} (sh : Shows b w h px) (n : Nat) :
    ∃ (fs' fs'' : FS) (b' : PixelBuffer (Col F32)) (d' : Nat → Nat → List Nat),
      encode_to_file libs fs path b (some (.Png ct cmp flt)) = (fs', .ok (.ok ())) ∧
      generations libs path ct cmp flt n fs' = some fs'' ∧ (decode_file libs fs'' path).run = .ok (.ok b') ∧
      Shows b' w h (fun x y => colourOf (fun k => (d' x y).getD k 0) ct) ∧
      ∀ x y k, k < channels ct → Faded n (isAlpha ct k) ((sampleBytes (px x y) ct).getD k 0) ((d' x y).getD k 0) := by
  obtain ⟨fs1, b1, e1, o1, s1⟩ := C78_png libs hlib fs hfs path path rfl sh hw hh ct (by rintro rfl; simp at hct) cmp flt
  obtain ⟨-, -, r1, r2, r3⟩ := C57_other_files libs fs path b _ fs1 _ e1
  obtain ⟨fs2, b2, d2, g, o, s, r⟩ := C125_files hW libs hlib fs1
    ⟨by rw [r3]; exact hfs.1, by rw [r1]; exact hfs.2.1, by rw [r2]; exact hfs.2.2⟩ path ct hct cmp flt hw hh
    (d := fun x y => sampleBytes (px x y) ct) (fun x y => bytes_lt _ ct) o1 s1 n
  exact ⟨fs1, fs2, b2, d2, e1, g, o, s, r⟩

end

/-- Non-vacuity: a platform, a library and a disk as required, and a picture. -/
example [Junk] [FloatBytes F32] :=
  letI := nearestLab
  C125_saved (fun x y h1 h2 h3 h4 h5 => (nearestLab_powWithin x y h1 h2 h3 h4 h5).mono (by norm_num)) rawPng rawPng_lossless demoFS
    ⟨fun _ _ => rfl, fun _ => rfl, fun _ => rfl⟩ "a.png" .La8 (by simp) .Default .Sub (by decide) (by decide) demo_shows 1000

end D10
