import Verif.Props.Numbers
import Verif.Props.Ieee
import Verif.Lemmas.Order

/-!
# Pictures of numbers stay pictures of numbers: files, commands and the command line (C122)
-/

namespace D10
open Scalar (lit)
open Spec

section
variable [Libm b32]

/-! ## Decoders -/

omit [Libm b32] in
theorem mem_chunks {α : Type} {n : Nat} {l c : List α} (hc : c ∈ chunks n l) : ∀ a ∈ c, a ∈ l := by
  induction hn : l.length using Nat.strong_induction_on generalizing l with
  | _ m ih =>
    intro a ha
    rw [chunks] at hc
    split at hc
    · cases hc
    · rename_i h
      rcases List.mem_cons.1 hc with rfl | hc
      · exact List.mem_of_mem_take ha
      · have h1 : 0 < l.length := List.length_pos_iff.2 fun e => h (.inl e)
        have h2 : n ≠ 0 := fun e => h (.inr e)
        exact List.mem_of_mem_drop (ih (l.drop n).length (by rw [List.length_drop]; omega) hc rfl a ha)

theorem ratio_number (q r : ℚ) (h : (FP.ofRat b32 false r).fin = true ∧ (FP.ofRat b32 false r).val ≠ 0) :
    (lit q /. lit r : F32) ≠ .nan := div_number FP.ofRat_not_nan h.1 h.2

theorem u8_number (v : Nat) : (from_u8 v : F32) ≠ .nan := ratio_number _ _ (by decide +kernel)
theorem u16_number (a b : Nat) : (from_u16_be a b : F32) ≠ .nan := ratio_number _ _ (by decide +kernel)
theorem u16_ne_number (l : Bool) (a b : Nat) : (from_u16_ne l a b : F32) ≠ .nan := ratio_number _ _ (by decide +kernel)

theorem lit1_unit : (lit 1 : F32).fin = true ∧ 0 ≤ (lit 1 : F32).val ∧ (lit 1 : F32).val ≤ 1 := by
  show (FP.ofRat b32 false 1).fin = true ∧ 0 ≤ (FP.ofRat b32 false 1).val ∧ (FP.ofRat b32 false 1).val ≤ 1
  decide +kernel

theorem lit0_unit : (lit 0 : F32).fin = true ∧ 0 ≤ (lit 0 : F32).val ∧ (lit 0 : F32).val ≤ 1 := by
  show (FP.ofRat b32 false 0).fin = true ∧ 0 ≤ (FP.ofRat b32 false 0).val ∧ (FP.ofRat b32 false 0).val ≤ 1
  decide +kernel

theorem opaque_unit (hp : PowGivesNumbers) {r g b : F32} (hr : r ≠ .nan) (hg : g ≠ .nan) (hb : b ≠ .nan) :
    UnitCol (Srgb.to_rgb (Srgb.new r g b)) :=
  srgb_unit hp (fin_number (clamp_number hr).1) (fin_number (clamp_number hg).1) (fin_number (clamp_number hb).1)
    (fin_number lit1_unit.1)

theorem alpha_unit (hp : PowGivesNumbers) {r g b a : F32} (hr : r ≠ .nan) (hg : g ≠ .nan) (hb : b ≠ .nan)
    (ha : a ≠ .nan) : UnitCol (Srgb.to_rgb (Srgb.new_with_alpha r g b a)) :=
  srgb_unit hp (fin_number (clamp_number hr).1) (fin_number (clamp_number hg).1) (fin_number (clamp_number hb).1)
    (fin_number (clamp_number ha).1)

theorem cmyk_unit (hp : PowGivesNumbers) {c m y k : Nat} (hc : c < 256) (hm : m < 256) (hy : y < 256) (hk : k < 256) :
    UnitCol (cmyk_to_rgb c m y k) := by
  have b : ∀ {n : Nat}, n < 256 → Bd 9 (FP.sub (FP.ofRat b32 false 255) (FP.ofRat b32 false (n : ℚ))) := by
    intro n hn
    refine Bd.sub (k := 8) (l := 8) (Bd.ofRat (by norm_num) (by norm_num)) (Bd.ofRat (by norm_num) ?_) (by norm_num)
      (by norm_num) (by norm_num)
    rw [abs_of_nonneg (by positivity)]
    have : (n : ℚ) ≤ 256 := by exact_mod_cast hn.le
    linarith
  have d : ∀ {n : Nat}, n < 256 → FP.div (FP.mul (FP.sub (FP.ofRat b32 false 255) (FP.ofRat b32 false (n : ℚ)))
      (FP.sub (FP.ofRat b32 false 255) (FP.ofRat b32 false (k : ℚ)))) (FP.ofRat b32 false 65536) ≠ .nan := fun hn =>
    div_number (mul_number (b hn).fin (b hk).fin) (by decide +kernel) (by decide +kernel)
  exact opaque_unit hp (d hc) (d hm) (d hy)

theorem number_read_into (hp : PowGivesNumbers) {img : DynamicImage F32} (hi : FloatPixelsAreNumbers img) :
    EnsD (read_into_buffer img) (All UnitCol) := by
  have key : ∀ {α : Type} (l : List α) (f : α → Col F32), (∀ a ∈ l, UnitCol (Srgb.to_rgb (f a))) →
      EnsD (pure (l.map fun p => Srgb.to_rgb (f p)) : Dec (List (Col F32))) fun l => ∀ c ∈ l, UnitCol c := by
    intro α l f hf
    refine ensD_pure fun c hc => ?_
    obtain ⟨p, hm, rfl⟩ := List.mem_map.1 hc
    exact hf p hm
  have b8 : ∀ n : Nat, (lit (n : ℚ) /. lit 255 : F32) ≠ .nan := u8_number
  have b16 : ∀ n : Nat, (lit (n : ℚ) /. lit 65535 : F32) ≠ .nan := fun n => ratio_number _ _ (by decide +kernel)
  have n1 : (lit 1 : F32) ≠ .nan := FP.ofRat_not_nan
  have n0 : (lit 0 : F32) ≠ .nan := FP.ofRat_not_nan
  unfold read_into_buffer
  simp only
  split
  · exact ensD_thrown
  split
  case h_9 l e =>
    exact ensD_bind (key _ _ fun p h => by
      obtain ⟨a, b, c⟩ := hi.1 l e p h
      exact srgb_unit hp a b c n1) fun l hl => ensD_lift (all_raw hl)
  case h_10 l e =>
    exact ensD_bind (key _ _ fun p h => by
      obtain ⟨a, b, c, d⟩ := hi.2 l e p h
      exact srgb_unit hp a b c d) fun l hl => ensD_lift (all_raw hl)
  all_goals first
    | exact ensD_thrown
    | exact ensD_bind (key _ _ fun p _ => srgb_unit hp (b8 _) (b8 _) (b8 _) n1) fun l hl => ensD_lift (all_raw hl)
    | exact ensD_bind (key _ _ fun p _ => srgb_unit hp (b8 _) (b8 _) (b8 _) (b8 _)) fun l hl => ensD_lift (all_raw hl)
    | exact ensD_bind (key _ _ fun p _ => srgb_unit hp (b16 _) (b16 _) (b16 _) n0) fun l hl => ensD_lift (all_raw hl)
    | exact ensD_bind (key _ _ fun p _ => srgb_unit hp (b16 _) (b16 _) (b16 _) n1) fun l hl => ensD_lift (all_raw hl)
    | exact ensD_bind (key _ _ fun p _ => srgb_unit hp (b16 _) (b16 _) (b16 _) (b16 _)) fun l hl =>
        ensD_lift (all_raw hl)

theorem number_decode (hp : PowGivesNumbers) {libs : Libs F32} (hl : LibsGiveNumbers libs) (input : List Nat)
    (format : Format) : EnsD (decode libs input format) (All UnitCol) := by
  have key : ∀ {α : Type} (l : List α) (f : α → Col F32), (∀ a ∈ l, UnitCol (f a)) →
      EnsD (pure (l.map f) : Dec (List (Col F32))) fun l => ∀ c ∈ l, UnitCol c := by
    intro α l f hf
    refine ensD_pure fun c hc => ?_
    obtain ⟨p, hm, rfl⟩ := List.mem_map.1 hc
    exact hf p hm
  have chunk : ∀ (n : Nat) (data : List Nat) (f : List Nat → R (Col F32)),
      (∀ l, (∀ a ∈ l, a ∈ data) → Ens (f l) UnitCol) →
      EnsD (perChunk n data f) fun l => ∀ c ∈ l, UnitCol c :=
    fun n data f hf => ensD_lift (ens_mapM _ fun l h => hf l (mem_chunks h))
  have of : ∀ {α β : Type} {x : Except DecodingError α} {f : α → Dec β} {Q : β → Prop},
      (∀ a, x = .ok a → EnsD (f a) Q) → EnsD (Dec.of x >>= f) Q :=
    fun {α β x f Q} h => ensD_bind (P := fun a => x = .ok a) (fun a e => by cases e; rfl) h
  have a8 : ∀ a b c d : Nat, UnitCol (Srgb.to_rgb (Srgb.new_with_alpha (from_u8 a) (from_u8 b) (from_u8 c) (from_u8 d) : Col F32)) :=
    fun _ _ _ _ => alpha_unit hp (u8_number _) (u8_number _) (u8_number _) (u8_number _)
  have o8 : ∀ a b c : Nat, UnitCol (Srgb.to_rgb (Srgb.new (from_u8 a) (from_u8 b) (from_u8 c) : Col F32)) :=
    fun _ _ _ => opaque_unit hp (u8_number _) (u8_number _) (u8_number _)
  have a16 : ∀ a b c d e f g h : Nat, UnitCol (Srgb.to_rgb (Srgb.new_with_alpha (from_u16_be a b) (from_u16_be c d)
      (from_u16_be e f) (from_u16_be g h) : Col F32)) :=
    fun _ _ _ _ _ _ _ _ => alpha_unit hp (u16_number _ _) (u16_number _ _) (u16_number _ _) (u16_number _ _)
  have o16 : ∀ a b c d e f : Nat, UnitCol (Srgb.to_rgb (Srgb.new (from_u16_be a b) (from_u16_be c d)
      (from_u16_be e f) : Col F32)) :=
    fun _ _ _ _ _ _ => opaque_unit hp (u16_number _ _) (u16_number _ _) (u16_number _ _)
  cases format with
  | Jpeg =>
    show EnsD (decode_jpeg libs input) _
    unfold decode_jpeg
    refine of fun data hd => ?_
    have small := hl.2 _ _ hd
    split
    · exact ensD_throw
    · simp only
      split
      · exact ensD_bind (key _ _ fun v _ => o8 _ _ _) fun l hl => ensD_lift (all_raw hl)
      all_goals refine ensD_bind ?_ fun l hl => ensD_lift (all_raw hl)
      · exact chunk _ _ _ fun l _ => ens_any fun _ => ens_any fun _ => ens_pure
          (opaque_unit hp (u16_ne_number _ _ _) (u16_ne_number _ _ _) (u16_ne_number _ _ _))
      · exact chunk _ _ _ fun l _ => ens_any fun _ => ens_any fun _ => ens_any fun _ => ens_pure (o8 _ _ _)
      · refine chunk _ _ _ fun l hm => ?_
        have ix : ∀ i, Ens (index l i) (· < 256) := fun i => ens_index (fun a ha => small a (hm a ha)) i
        exact ens_bind (ix _) fun _ h0 => ens_bind (ix _) fun _ h1 => ens_bind (ix _) fun _ h2 =>
          ens_bind (ix _) fun _ h3 => ens_pure (cmyk_unit hp h0 h1 h2 h3)
  | Png =>
    show EnsD (decode_png libs input) _
    unfold decode_png
    simp only
    refine ensD_any fun reader => ?_
    split
    · exact ensD_thrown
    refine ensD_any fun n => ?_
    split
    all_goals first
      | exact ensD_thrown
      | refine ensD_any fun buffer => ?_
    all_goals first
      | exact ensD_bind (key _ _ fun v _ => by with_reducible exact o8 _ _ _) fun l hl => ensD_lift (all_raw hl)
      | refine ensD_bind (chunk _ _ _ fun l _ => ?_) fun l hl => ensD_lift (all_raw hl)
    all_goals
      repeat with_reducible refine ens_any fun _ => ?_
      first
        | with_reducible exact ens_pure (a8 _ _ _ _)
        | with_reducible exact ens_pure (o8 _ _ _)
        | with_reducible exact ens_pure (a16 _ _ _ _ _ _ _ _)
        | with_reducible exact ens_pure (o16 _ _ _ _ _ _)
  | Gif =>
    show EnsD (decode_gif libs input) _
    unfold decode_gif
    refine ensD_any fun o => ?_
    cases o with
    | none => exact ensD_throw
    | some frame =>
      refine ensD_bind (chunk _ _ _ fun l _ => ?_) fun l hl => ?_
      · exact ens_any fun _ => ens_any fun _ => ens_any fun _ => ens_any fun _ => ens_pure (a8 _ _ _ _)
      · simp only
        split
        · exact ensD_thrown
        · exact ensD_lift (all_raw hl)
  | Bmp => exact of fun img h => number_read_into hp (hl.1 _ _ (.inl h))
  | Ico => exact of fun img h => number_read_into hp (hl.1 _ _ (.inr h))
  | WebP =>
    show EnsD (decode_webp libs input) _
    unfold decode_webp
    simp only
    split
    · exact ensD_thrown
    split
    · exact ensD_throw
    · exact ensD_lift (all_func fun x y => ens_any fun _ => ens_any fun _ => ens_any fun _ =>
        ens_any fun _ => ens_pure (a8 _ _ _ _))

theorem number_decode_file (hp : PowGivesNumbers) {libs : Libs F32} (hl : LibsGiveNumbers libs) (fs : FS)
    (path : String) : EnsD (decode_file libs fs path) (All UnitCol) := by
  unfold decode_file
  split
  · exact ensD_throw
  · split
    · exact number_decode hp hl _ _
    · split
      · exact number_decode hp hl _ _
      · exact ensD_throw

/-! ## Rotation -/

omit [Libm b32] in
theorem ens_u32 (n : Nat) : Ens (u32 n) fun m => m = n ∧ n < 2 ^ 32 := by
  unfold u32
  split
  · exact ens_ok ⟨rfl, ‹_›⟩
  · exact ens_error

omit [Libm b32] in
theorem all_func_in {T : Type} {P : T → Prop} {w h : Nat} {f : Nat → Nat → R T}
    (hf : ∀ x y, x < w → y < h → Ens (f x y) P) : Ens (PixelBuffer.new_from_func w h f) (All P) := by
  unfold PixelBuffer.new_from_func PixelBuffer.new_from_funcM
  refine ens_any fun _ => ens_bind (P := fun m => m = w * h ∧ w * h < 2 ^ 32) (ens_u32 _) fun len hlen => ?_
  refine ens_bind (ens_mapM _ fun i hi => ?_) fun d hd => ens_pure hd
  have hi := List.mem_range.1 hi
  rw [hlen.1] at hi
  have hw : 0 < w := Nat.pos_of_ne_zero fun e => by rw [e] at hi; simp at hi
  exact hf _ _ (Nat.mod_lt _ hw) (Nat.div_lt_of_lt_mul hi)

theorem frac_bd {v : F32} (hv : v.fin = true) : Bd 0 (get_base_and_offset v).2 := by
  obtain ⟨⟨hf, n, hn, l, u⟩, _⟩ := (C92_integral v).1 hv
  show Bd 0 (FP.sub v (Scalar.floor v))
  rw [FP.sub_fin hv hf, hn]
  refine Bd.ofRat (by norm_num) ?_
  rw [abs_of_nonneg (by linarith)]
  linarith

theorem lerp_bd {k : ℕ} (hk : k ≤ 100) {v w t : F32} (hv : Bd k v) (hw : Bd k w) (ht : Bd 0 t) :
    Bd (k + 2) (linear_interpolate v w t) :=
  hv.add (l := k + 1) (Bd.mul (k := k + 1) (l := 0) (hw.sub hv (by omega) (by omega) (by omega)) ht (by omega) (by omega))
    (by omega) (by omega) (by omega)

theorem cubic_bd {k : ℕ} (hk : k ≤ 100) {v1 v2 v3 v4 t : F32} (h1 : Bd k v1) (h2 : Bd k v2) (h3 : Bd k v3)
    (h4 : Bd k v4) (ht : Bd 0 t) : Bd (k + 9) (cubic_hermite_interpolate v1 v2 v3 v4 t) := by
  have half : ∀ {m : ℕ} {x : F32}, m ≤ 120 → Bd m x → Bd m (FP.div x (FP.ofRat b32 false 2)) := by
    intro m x hm h
    refine h.div (j := 0) (by decide +kernel) ?_ (by omega) (by omega)
    rw [show (FP.ofRat b32 false 2).val = 2 by decide +kernel]; norm_num
  have times : ∀ {m : ℕ} {x : F32} (q : ℚ), |q| ≤ 2 ^ 3 → m ≤ 110 → Bd m x → Bd (m + 3) (FP.mul (FP.ofRat b32 false q) x) := by
    intro m x q hq hm h
    exact Bd.mul (k := 3) (Bd.ofRat (by norm_num) hq) h (by omega) (by omega)
  have t : ∀ {m : ℕ} {x : F32}, m ≤ 120 → Bd m x → Bd m (FP.mul x t) := fun hm h => h.mul ht (by omega) (by omega)
  have o1 : Bd (k + 6) (FP.add (FP.sub (FP.add (FP.div (FP.neg v1) (FP.ofRat b32 false 2))
      (FP.div (FP.mul (FP.ofRat b32 false 3) v2) (FP.ofRat b32 false 2)))
      (FP.div (FP.mul (FP.ofRat b32 false 3) v3) (FP.ofRat b32 false 2))) (FP.div v4 (FP.ofRat b32 false 2))) :=
    Bd.add (k := k + 5) (l := k) (Bd.sub (k := k + 4) (l := k + 3) (Bd.add (k := k) (l := k + 3) (half (by omega) h1.neg)
      (half (by omega) (times 3 (by norm_num) (by omega) h2)) (by omega) (by omega) (by omega))
      (half (by omega) (times 3 (by norm_num) (by omega) h3)) (by omega) (by omega) (by omega)) (half (by omega) h4)
      (by omega) (by omega) (by omega)
  have o2 : Bd (k + 6) (FP.sub (FP.add (FP.sub v1 (FP.div (FP.mul (FP.ofRat b32 false 5) v2) (FP.ofRat b32 false 2)))
      (FP.mul (FP.ofRat b32 false 2) v3)) (FP.div v4 (FP.ofRat b32 false 2))) :=
    Bd.sub (k := k + 5) (l := k) (Bd.add (k := k + 4) (l := k + 3) (Bd.sub (k := k) (l := k + 3) h1
      (half (by omega) (times 5 (by norm_num) (by omega) h2)) (by omega) (by omega) (by omega))
      (times 2 (by norm_num) (by omega) h3) (by omega) (by omega) (by omega)) (half (by omega) h4) (by omega) (by omega)
      (by omega)
  have o3 : Bd (k + 1) (FP.add (FP.div (FP.neg v1) (FP.ofRat b32 false 2)) (FP.div v3 (FP.ofRat b32 false 2))) :=
    (half (by omega) h1.neg).add (half (by omega) h3) (by omega) (by omega) (by omega)
  exact Bd.add (k := k + 8) (l := k) (Bd.add (k := k + 7) (l := k + 1) (Bd.add (k := k + 6) (l := k + 6)
    (t (by omega) (t (by omega) (t (by omega) o1))) (t (by omega) (t (by omega) o2)) (by omega) (by omega) (by omega))
    (t (by omega) o3) (by omega) (by omega) (by omega)) h2 (by omega) (by omega) (by omega)

theorem bilinear_unit {b : PixelBuffer (Col F32)} (hb : All UnitCol b) {x y : F32} (hx : x.fin = true)
    (hy : y.fin = true) : Ens (get_pixel_bilinear b x y) UnitCol := by
  have tx := frac_bd hx
  have ty := frac_bd hy
  unfold get_pixel_bilinear
  generalize get_base_and_offset x = px at *
  generalize get_base_and_offset y = py at *
  simp only
  refine ens_bind (all_get_clamped hb _ _) fun c1 h1 => ens_any fun _ => ens_bind (all_get_clamped hb _ _) fun c2 h2 =>
    ens_any fun _ => ens_bind (all_get_clamped hb _ _) fun c3 h3 => ens_any fun _ => ens_any fun _ =>
    ens_bind (all_get_clamped hb _ _) fun c4 h4 => ens_pure ?_
  have go : ∀ {v1 v2 v3 v4 : F32}, Bd 0 v1 → Bd 0 v2 → Bd 0 v3 → Bd 0 v4 →
      linear_interpolate (linear_interpolate v1 v2 px.2) (linear_interpolate v3 v4 px.2) py.2 ≠ .nan :=
    fun a b c d => (lerp_bd (k := 2) (by norm_num) (lerp_bd (by norm_num) a b tx) (lerp_bd (by norm_num) c d tx) ty).number
  exact new_unit (go (.unit h1.c0) (.unit h2.c0) (.unit h3.c0) (.unit h4.c0))
    (go (.unit h1.c1) (.unit h2.c1) (.unit h3.c1) (.unit h4.c1))
    (go (.unit h1.c2) (.unit h2.c2) (.unit h3.c2) (.unit h4.c2))
    (go (.unit h1.alpha) (.unit h2.alpha) (.unit h3.alpha) (.unit h4.alpha))

theorem bicubic_unit {b : PixelBuffer (Col F32)} (hb : All UnitCol b) {x y : F32} (hx : x.fin = true)
    (hy : y.fin = true) : Ens (get_pixel_bicubic b x y) UnitCol := by
  have tx := frac_bd hx
  have ty := frac_bd hy
  have get : ∀ (i j : Int), Ens (b.get_pixel_clamped i j) UnitCol := fun i j => all_get_clamped hb i j
  unfold get_pixel_bicubic
  generalize get_base_and_offset x = px at *
  generalize get_base_and_offset y = py at *
  simp only
  refine ens_any fun _ => ens_any fun _ => ens_bind (get _ _) fun c00 h00 => ?_
  refine ens_any fun _ => ens_bind (get _ _) fun c10 h10 => ?_
  refine ens_any fun _ => ens_any fun _ => ens_bind (get _ _) fun c20 h20 => ?_
  refine ens_any fun _ => ens_any fun _ => ens_bind (get _ _) fun c30 h30 => ?_
  refine ens_any fun _ => ens_bind (get _ _) fun c01 h01 => ?_
  refine ens_bind (get _ _) fun c11 h11 => ?_
  refine ens_any fun _ => ens_bind (get _ _) fun c21 h21 => ?_
  refine ens_any fun _ => ens_bind (get _ _) fun c31 h31 => ?_
  refine ens_any fun _ => ens_any fun _ => ens_bind (get _ _) fun c02 h02 => ?_
  refine ens_any fun _ => ens_bind (get _ _) fun c12 h12 => ?_
  refine ens_any fun _ => ens_any fun _ => ens_bind (get _ _) fun c22 h22 => ?_
  refine ens_any fun _ => ens_any fun _ => ens_bind (get _ _) fun c32 h32 => ?_
  refine ens_any fun _ => ens_any fun _ => ens_bind (get _ _) fun c03 h03 => ?_
  refine ens_any fun _ => ens_bind (get _ _) fun c13 h13 => ?_
  refine ens_any fun _ => ens_any fun _ => ens_bind (get _ _) fun c23 h23 => ?_
  refine ens_any fun _ => ens_any fun _ => ens_bind (get _ _) fun c33 h33 => ens_pure ?_
  have one : ∀ {c d e f : Col F32} (i : Col F32 → F32), Bd 0 (i c) → Bd 0 (i d) → Bd 0 (i e) → Bd 0 (i f) →
      Bd 9 (cubic_hermite_interpolate (i c) (i d) (i e) (i f) px.2) :=
    fun i a b c d => cubic_bd (k := 0) (by norm_num) a b c d tx
  have all : ∀ i : Col F32 → F32, (∀ c, UnitCol c → Bd 0 (i c)) →
      cubic_hermite_interpolate
        (cubic_hermite_interpolate (i c00) (i c10) (i c20) (i c30) px.2)
        (cubic_hermite_interpolate (i c01) (i c11) (i c21) (i c31) px.2)
        (cubic_hermite_interpolate (i c02) (i c12) (i c22) (i c32) px.2)
        (cubic_hermite_interpolate (i c03) (i c13) (i c23) (i c33) px.2) py.2 ≠ .nan := fun i hi =>
    (cubic_bd (k := 9) (by norm_num)
      (one i (hi _ h00) (hi _ h10) (hi _ h20) (hi _ h30)) (one i (hi _ h01) (hi _ h11) (hi _ h21) (hi _ h31))
      (one i (hi _ h02) (hi _ h12) (hi _ h22) (hi _ h32)) (one i (hi _ h03) (hi _ h13) (hi _ h23) (hi _ h33)) ty).number
  exact new_unit (all Col.c0 fun c h => .unit h.c0) (all Col.c1 fun c h => .unit h.c1)
    (all Col.c2 fun c h => .unit h.c2) (all Col.alpha fun c h => .unit h.alpha)

theorem number_rotate (ht : SinCosInUnit) {b : PixelBuffer (Col F32)} (hb : All UnitCol b) {a : F32}
    (fa : a.fin = true) {bg : Col F32} (hbg : UnitCol bg) (filter : FilterMode) (hf : filter ≠ .Lanczos3) :
    Ens (rotate b a bg filter) (All UnitCol) := by
  have rad : ((a /. lit (-180)) *. PI : F32).fin = true := by
    have v : (FP.ofRat b32 false (-180)).fin = true ∧ (FP.ofRat b32 false (-180)).val = -180 := by decide +kernel
    have q : Bd 121 (FP.div a (FP.ofRat b32 false (-180))) := by
      rw [FP.div_fin fa v.1 (by rw [v.2]; norm_num), v.2]
      refine Bd.ofRat (by norm_num) ?_
      rw [abs_div, div_le_iff₀ (by norm_num)]
      exact (fin_le_largest fa).trans (by norm_num)
    exact (q.mul (l := 2) (m := 123) (Bd.ofRat (by norm_num) (by norm_num [abs_le])) (by norm_num) (by norm_num)).fin
  obtain ⟨⟨s1, s2⟩, c1, c2⟩ := ht _ rad
  have hs : Bd 0 (Scalar.sin ((a /. lit (-180)) *. PI : F32)) := ⟨s1, by simpa using s2⟩
  have hc : Bd 0 (Scalar.cos ((a /. lit (-180)) *. PI : F32)) := ⟨c1, by simpa using c2⟩
  have run : ∀ f : PixelBuffer (Col F32) → F32 → F32 → R (Option (Col F32)),
      (∀ x y : F32, x.fin = true → y.fin = true → Ens (f b x y) fun o => ∀ c, o = some c → UnitCol c) →
      Ens (rotate_with_fn b a bg f) (All UnitCol) := by
    intro f h
    unfold rotate_with_fn
    simp only
    generalize Scalar.sin ((a /. lit (-180)) *. PI : F32) = sn at *
    generalize Scalar.cos ((a /. lit (-180)) *. PI : F32) = cs at *
    have nat : ∀ {n : Nat}, n < 2 ^ 32 → Bd 32 (FP.ofRat b32 false (n : ℚ)) := by
      intro n hn
      refine Bd.ofRat (by norm_num) ?_
      rw [abs_of_nonneg (by positivity)]
      have : (n : ℚ) ≤ ((2 ^ 32 : Nat) : ℚ) := by exact_mod_cast hn.le
      exact this.trans (by norm_num)
    have half : ∀ {n : Nat}, n < 2 ^ 32 → Bd 32 (FP.div (FP.ofRat b32 false (n : ℚ)) (FP.ofRat b32 false 2)) := by
      intro n hn
      refine (nat hn).div (j := 0) (by decide +kernel) ?_ (by norm_num) (by norm_num)
      rw [show (FP.ofRat b32 false 2).val = 2 by decide +kernel]; norm_num
    have one : Bd 0 (FP.ofRat b32 false 1) := Bd.ofRat (by norm_num) (by norm_num)
    refine ens_bind (ens_u32 _) fun w hw => ens_bind (ens_u32 _) fun h' hh => all_func_in fun i j hi hj => ?_
    have dx : Bd 34 (FP.sub (FP.add (FP.ofRat b32 false (i : ℚ)) (FP.ofRat b32 false 1))
        (FP.div (FP.ofRat b32 false (w : ℚ)) (FP.ofRat b32 false 2))) :=
      Bd.sub (k := 33) (l := 32) ((nat (by omega)).add one (by norm_num) (by norm_num) (by norm_num)) (half (by omega))
        (by norm_num) (by norm_num) (by norm_num)
    have dy : Bd 34 (FP.sub (FP.add (FP.ofRat b32 false (j : ℚ)) (FP.ofRat b32 false 1))
        (FP.div (FP.ofRat b32 false (h' : ℚ)) (FP.ofRat b32 false 2))) :=
      Bd.sub (k := 33) (l := 32) ((nat (by omega)).add one (by norm_num) (by norm_num) (by norm_num)) (half (by omega))
        (by norm_num) (by norm_num) (by norm_num)
    have turn : ∀ {x y s t : F32} {n : Nat}, Bd 34 x → Bd 34 y → Bd 0 s → Bd 0 t → n < 2 ^ 32 →
        (FP.sub (FP.add (FP.sub (FP.mul x s) (FP.mul y t)) (FP.div (FP.ofRat b32 false (n : ℚ)) (FP.ofRat b32 false 2)))
          (FP.ofRat b32 false 1)).fin = true ∧
        (FP.sub (FP.add (FP.add (FP.mul x s) (FP.mul y t)) (FP.div (FP.ofRat b32 false (n : ℚ)) (FP.ofRat b32 false 2)))
          (FP.ofRat b32 false 1)).fin = true := by
      intro x y s t n hx hy hs ht hn
      have p1 : Bd 34 (FP.mul x s) := hx.mul hs (by norm_num) (by norm_num)
      have p2 : Bd 34 (FP.mul y t) := hy.mul ht (by norm_num) (by norm_num)
      constructor
      · exact (Bd.sub (k := 36) (l := 0) (m := 37) (Bd.add (k := 35) (l := 32) (p1.sub p2 (by norm_num) (by norm_num)
          (by norm_num)) (half hn) (by norm_num) (by norm_num) (by norm_num)) one (by norm_num) (by norm_num)
          (by norm_num)).fin
      · exact (Bd.sub (k := 36) (l := 0) (m := 37) (Bd.add (k := 35) (l := 32) (p1.add p2 (by norm_num) (by norm_num)
          (by norm_num)) (half hn) (by norm_num) (by norm_num) (by norm_num)) one (by norm_num) (by norm_num)
          (by norm_num)).fin
    refine ens_bind (h _ _ (turn dx dy hc hs (by omega)).1 (turn dx dy hs hc (by omega)).2) fun o ho => ens_pure ?_
    cases o with
    | none => exact hbg
    | some c => exact ho c rfl
  have some_of : ∀ {x : R (Col F32)}, Ens x UnitCol →
      Ens (do return some (← x)) fun o => ∀ c, o = some c → UnitCol c :=
    fun h => ens_bind h fun c hc => ens_pure fun d hd => by cases hd; exact hc
  have none_of : Ens (pure none : R (Option (Col F32))) fun o => ∀ c, o = some c → UnitCol c :=
    ens_pure fun c hc => by cases hc
  have bil : ∀ x y : F32, x.fin = true → y.fin = true →
      Ens (rotate_pixel_bilinear b x y) fun o => ∀ c, o = some c → UnitCol c := by
    intro x y hx hy; unfold rotate_pixel_bilinear; split
    · exact some_of (bilinear_unit hb hx hy)
    · exact none_of
  have bic : ∀ x y : F32, x.fin = true → y.fin = true →
      Ens (rotate_pixel_bicubic b x y) fun o => ∀ c, o = some c → UnitCol c := by
    intro x y hx hy; unfold rotate_pixel_bicubic; split
    · exact some_of (bicubic_unit hb hx hy)
    · exact none_of
  unfold rotate
  split
  · exact ens_ok hb
  · cases filter with
    | Nearest => exact run _ fun x y _ _ => all_get_optional hb _ _
    | Bilinear => exact run _ bil
    | Bicubic => exact run _ bic
    | Auto => exact run _ bic
    | Lanczos3 => exact absurd rfl hf

/-! ## Noise -/

theorem number_noise {σ : Type} {g : Rng σ F32} (hg : DrawsNumbers g) {b : PixelBuffer (Col F32)} (hb : All UnitCol b)
    {a : F32} (fa : a.fin = true) :
    EnsS (random_noise g .rgb b a) (All UnitCol) ∧ EnsS (add_random_noise g .rgb b a) (All UnitCol) ∧
    EnsS (salt_n_pepper_noise g b a) (All UnitCol) ∧ EnsS (add_salt_n_pepper_noise g b a) (All UnitCol) ∧
    EnsS (rgb_noise g b a) (All UnitCol) ∧ EnsS (add_rgb_noise g b a) (All UnitCol) := by
  have one : Bd 0 (FP.ofRat b32 false 1) := Bd.ofRat (by norm_num) (by norm_num)
  have chan : ∀ {v : F32}, (v.fin = true ∧ 0 ≤ v.val ∧ v.val ≤ 1) →
      EnsS (noiseChannel g.symmetric a v) (· ≠ .nan) := by
    intro v hv
    refine ensS_bind (P := fun n : F32 => n.fin = true ∧ |n.val| ≤ 1) ?_ fun n hn => ensS_pure ?_
    · intro s p hp; cases hp; exact hg s
    · have na : (FP.mul n a).fin = true := by
        rw [FP.mul_fin hn.1 fa]
        refine (FP.ofRat_of_le largest.1 largest.2.2 ?_).1
        rw [abs_mul]
        exact (mul_le_of_le_one_left (abs_nonneg _) hn.2).trans (fin_le_largest fa)
      have rest : (FP.sub (FP.ofRat b32 false 1) a).fin = true := small_sub one.fin fa (by simpa using one.le)
      exact add_number na (mul_number rest hv.1)
  have col : ∀ c : Col F32, UnitCol c → EnsS (try_map_color_channels .rgb c (noiseChannel g.symmetric a)) UnitCol :=
    fun c hc => ensS_bind (chan hc.c0) fun _ h0 => ensS_bind (chan hc.c1) fun _ h1 => ensS_bind (chan hc.c2) fun _ h2 =>
      ensS_pure (new_unit h0 h1 h2 (fin_number hc.alpha.1))
  have salt : ∀ c : Col F32, UnitCol c → EnsS (salt_n_pepper g c a) UnitCol := by
    intro c hc
    refine ensS_any fun _ => ?_
    split
    · exact ensS_pure ⟨lit0_unit, lit0_unit, lit0_unit, lit1_unit⟩
    · split
      · exact ensS_pure ⟨lit1_unit, lit1_unit, lit1_unit, lit1_unit⟩
      · exact ensS_pure hc
  have dot : ∀ c : Col F32, UnitCol c → EnsS (rgb_noise_for_pixel g c a) UnitCol := by
    intro c hc
    refine ensS_any fun _ => ?_
    split
    · refine ensS_any fun n => ?_
      split
      · exact ensS_pure ⟨lit1_unit, hc.c1, hc.c2, hc.alpha⟩
      · exact ensS_pure ⟨hc.c0, lit1_unit, hc.c2, hc.alpha⟩
      · exact ensS_pure ⟨hc.c0, hc.c1, lit1_unit, hc.alpha⟩
    · exact ensS_pure hc
  exact ⟨all_mapS fun c h => col c (hb c h), all_modS fun c h => col c (hb c h), all_mapS fun c hc => salt c (hb c hc),
    all_modS fun c hc => salt c (hb c hc), all_mapS fun c hc => dot c (hb c hc), all_modS fun c hc => dot c (hb c hc)⟩

/-! ## Commands -/

variable {σ : Type} [FloatBytes F32]

theorem command_number (hp : PowGivesNumbers) (ht : SinCosInUnit) {env : Env σ F32} (hl : LibsGiveNumbers env.libs)
    (hg : DrawsNumbers env.rng) (s : State σ F32) (cmd : Cmd F32 String)
    (hs : ∀ img, s.image = some img → ImageOfNumbers img) (hc : CarefulCommand cmd) (hf : FiniteCommand cmd) :
    ∀ img, (execute_command env s cmd).1.image = some img → ImageOfNumbers img := by
  unfold execute_command
  have hs' : ∀ img, (if cmd.ignore_in_log then s else s.log_command_step env cmd).image = some img →
      ImageOfNumbers img := by
    intro img h
    refine hs img ?_
    rw [← h]
    split
    · rfl
    · unfold State.log_command_step; simp only; split <;> rfl
  simp only
  generalize (if cmd.ignore_in_log then s else s.log_command_step env cmd) = t at hs' ⊢
  have modify : ∀ f : Col F32 → Col F32, (∀ c, UnitCol c → UnitCol (f c)) →
      ∀ img, (execute_mod_colors t f).1.image = some img → ImageOfNumbers img := by
    intro f hf img h
    unfold execute_mod_colors State.with_image at h
    cases hi : t.image with
    | none => rw [hi] at h; exact hs' img (hi ▸ h)
    | some i =>
      rw [hi] at h
      cases h
      exact ⟨all_mod fun c hc => hf c ((hs' i hi).1 c hc), (hs' i hi).2⟩
  have noise : ∀ f : Image F32 → StateT σ R (Image F32), (∀ i, ImageOfNumbers i → EnsS (f i) ImageOfNumbers) →
      ∀ img, (execute_noise t f).1.image = some img → ImageOfNumbers img := by
    intro f hf img h
    unfold execute_noise State.with_image at h
    cases hi : t.image with
    | none => rw [hi] at h; exact hs' img (hi ▸ h)
    | some i =>
      rw [hi] at h
      simp only at h
      split at h
      · exact hs' img h
      · rename_i i' rng e
        cases h
        exact hf i (hs' i hi) _ _ e
  have meta' : ∀ {i : Image F32} {b : PixelBuffer (Col F32)}, ImageOfNumbers i → All UnitCol b →
      ImageOfNumbers (Image.new_from_buffer_with_meta i b) := fun hi hb => ⟨hb, hi.2⟩
  have z : (lit 0 : F32).fin = true := lit0_unit.1
  have col : ∀ {c : Col F32}, UnitCol c → ∀ {p q r : F32}, p.fin = true → q.fin = true → r.fin = true → ∀ i : Intensity,
      ∀ n : Nat, ∀ d, [Rgb.to_gray c, Rgb.to_gray_with_intensity c i, Rgb.invert c, Rgb.difference c c,
      Rgb.with_gamma c p, Rgb.with_gamma_opt c p, Rgb.with_level c p q r, Rgb.with_brightness c p,
      Rgb.with_contrast c p, Rgb.with_brightness_contrast c p q, Rgb.with_saturation c p,
      Rgb.stretch_saturation c p, Rgb.with_lightness c p,
      Rgb.with_hue_rotate c p, Rgb.with_vibrance c p, Rgb.with_sepia c, Rgb.modulate c p q r,
      Rgb.alpha_blend c c][n]? = some d → UnitCol d :=
    fun hc _ _ _ fp fq fr i n d h => C122_colours hp hc hc fp fq fr i d (List.mem_of_getElem? h)
  cases cmd with
  | Silent => exact hs'
  | «Open» path =>
    intro img h
    simp only [execute_open] at h
    split at h
    · exact hs' img h
    · exact hs' img h
    · rename_i i e
      cases h
      exact ensD_bind (number_decode_file hp hl t.fs path)
        (fun b hb => ensD_pure (Q := ImageOfNumbers) (a := Image.new_from_buffer b) ⟨hb, fun c h => by cases h⟩) _ e
  | Save path =>
    intro img h
    simp only [execute_save, State.with_image] at h
    cases hi : t.image with
    | none => rw [hi] at h; exact hs' img (hi ▸ h)
    | some i =>
      rw [hi] at h
      simp only at h
      refine hs' img ?_
      rw [hi]
      split at h <;> exact h
  | ToGray i => exact modify _ fun c hc => col hc z z z i 1 _ rfl
  | Invert => exact modify _ fun c hc => col hc z z z .Red 2 _ rfl
  | Gamma p => exact modify _ fun c hc => col hc hf z z .Red 4 _ rfl
  | Level p q r => exact modify _ fun c hc => col hc hf.1 hf.2.1 hf.2.2 .Red 6 _ rfl
  | Brightness p => exact modify _ fun c hc => col hc hf z z .Red 7 _ rfl
  | Contrast p => exact modify _ fun c hc => col hc hf z z .Red 8 _ rfl
  | BrightnessContrast p q => exact modify _ fun c hc => col hc hf.1 hf.2 z .Red 9 _ rfl
  | Saturation p => exact modify _ fun c hc => col hc hf z z .Red 10 _ rfl
  | StretchSaturation p => exact modify _ fun c hc => col hc hf z z .Red 11 _ rfl
  | Lightness p => exact modify _ fun c hc => col hc hf z z .Red 12 _ rfl
  | HueRotate p => exact modify _ fun c hc => col hc hf z z .Red 13 _ rfl
  | Rotate p filter =>
    intro img h
    simp only [execute_rotate, State.with_image] at h
    cases hi : t.image with
    | none => rw [hi] at h; exact hs' img (hi ▸ h)
    | some i =>
      rw [hi] at h
      simp only at h
      split at h
      · exact hs' img h
      · rename_i i' e
        cases h
        have hin := hs' i hi
        have bg : UnitCol (i.bg_color.getD Rgb.NONE) := by
          cases hb : i.bg_color with
          | none => exact ⟨lit0_unit, lit0_unit, lit0_unit, lit0_unit⟩
          | some c => exact hin.2 c hb
        exact ens_bind (number_rotate ht hin.1 hf bg filter hc) (fun b hb => ens_pure (meta' hin hb)) _ e
  | RandomNoise p =>
    exact noise _ fun i hi => ensS_bind (number_noise hg hi.1 hf).1 fun b hb => ensS_pure (meta' hi hb)
  | SaltNPepperNoise p =>
    exact noise _ fun i hi => ensS_bind (number_noise hg hi.1 hf).2.2.1 fun b hb => ensS_pure (meta' hi hb)
  | RgbNoise p =>
    exact noise _ fun i hi => ensS_bind (number_noise hg hi.1 hf).2.2.2.2.1 fun b hb => ensS_pure (meta' hi hb)

/-- The image held after any commands with finite arguments is made of numbers if the one before was,
whether the run ended well, with an error or with a panic. -/
theorem C122_execute (hp : PowGivesNumbers) (ht : SinCosInUnit) {env : Env σ F32} (hl : LibsGiveNumbers env.libs)
    (hg : DrawsNumbers env.rng) (cmds : List (Cmd F32 String)) (s : State σ F32)
    (hs : ∀ img, s.image = some img → ImageOfNumbers img)
    (hc : ∀ cmd ∈ cmds, CarefulCommand cmd ∧ FiniteCommand cmd) :
    ∀ img, (execute env s cmds).1.image = some img → ImageOfNumbers img := by
  induction cmds generalizing s with
  | nil => exact hs
  | cons cmd cmds ih =>
    intro img h
    have one := command_number hp ht hl hg s cmd hs (hc cmd (.head _)).1 (hc cmd (.head _)).2
    rw [execute] at h
    split at h
    · rename_i s' e
      rw [e] at one
      exact ih s' one (fun c h => hc c (.tail _ h)) img h
    · exact one img h

/-- The picture a command line leaves in memory, and every picture it saves on the way, is made of finite
numbers between 0 and 1 if all numbers on the command line are finite. -/
theorem C122_cli (hp : PowGivesNumbers) (ht : SinCosInUnit) (parseF32 : String → Option F32) {env : Env σ F32}
    (hl : LibsGiveNumbers env.libs) (hg : DrawsNumbers env.rng) (fs : FS) (rng : σ) (out : List String)
    (argv : List String) (queue : Queue F32 String)
    (h : parse id parseF32 create_args argv = .ok queue) (pre rest : List (Cmd F32 String))
    (hsplit : queue.commands = pre ++ rest) (hf : ∀ cmd ∈ pre, FiniteCommand cmd) :
    ∀ img, (Queue.run env fs rng out ⟨pre⟩).1.image = some img → ImageOfNumbers img :=
  C122_execute hp ht hl hg pre _ (fun img h => by cases h) fun cmd hc =>
    ⟨parse_careful id parseF32 argv queue h cmd (by rw [hsplit]; exact List.mem_append_left _ hc), hf cmd hc⟩

end

/-! ## Where numbers are lost -/

/-- A library whose `powf` is infinite for a zero base and a negative exponent, as IEEE 754 asks for. -/
@[reducible] def poleOfPow : Libm b32 :=
  { Libm.trivial b32 with
    exp := fun _ => .ofRat b32 false 1
    sin := fun _ => .ofRat b32 false 0
    cos := fun _ => .ofRat b32 false 1
    powf := fun x y => if FP.eq x (.zero false) && FP.lt y (.zero false) then .inf false else x }

theorem poleOfPow_numbers : letI := poleOfPow; PowGivesNumbers ∧ SinCosInUnit := by
  constructor
  · intro x y hx _ _ h
    have h : (if (FP.eq x (.zero false) && FP.lt y (.zero false)) = true then FP.inf false else x) = .nan := h
    split at h
    · cases h
    · exact hx h
  · intro x _
    show ((FP.ofRat b32 false 0).fin = true ∧ |(FP.ofRat b32 false 0).val| ≤ 1) ∧
      (FP.ofRat b32 false 1).fin = true ∧ |(FP.ofRat b32 false 1).val| ≤ 1
    decide +kernel

/-- Finite arguments are needed: a brightness that is not a number turns black into "not a number". -/
theorem C122_brightness_not [Libm b32] :
    UnitCol (Rgb.BLACK : Col F32) ∧ (Rgb.with_brightness (Rgb.BLACK : Col F32) .nan).c0 = .nan :=
  ⟨⟨lit0_unit, lit0_unit, lit0_unit, lit1_unit⟩,
    show (letI := Libm.trivial b32; (Rgb.with_brightness (Rgb.BLACK : Col F32) .nan).c0) = .nan by decide +kernel⟩

/-- The gamma of the saturation is not part of `C122_colours`: with a gamma of -1 black becomes "not a
number" although the argument is finite and `powf` is as it should be. -/
theorem C122_gamma_saturation_not : letI := poleOfPow
    PowGivesNumbers ∧ UnitCol (Rgb.BLACK : Col F32) ∧ (lit (-1) : F32).fin = true ∧
      (Rgb.with_gamma_saturation (Rgb.BLACK : Col F32) (lit (-1))).c0 = .nan := by
  let _ := poleOfPow
  exact ⟨poleOfPow_numbers.1, ⟨lit0_unit, lit0_unit, lit0_unit, lit1_unit⟩, by decide +kernel, by decide +kernel⟩

/-- With a finite positive gamma, and a `powf` that keeps the unit interval for positive exponents, the gamma
of the saturation keeps numbers. -/
theorem C122_gamma_saturation [Libm b32] (hp : PowGivesNumbers) (hk : PowKeeps F32) {c : Col F32} (hc : UnitCol c)
    {p : F32} (fp : p.fin = true) (pos : 0 < p.val) : UnitCol (Rgb.with_gamma_saturation c p) := by
  obtain ⟨hh, hs, hl⟩ := hsl_number hc
  have cs := clamp_number (fin_number hs.1)
  have small : (lit 0 <. FP.ofRat b32 false (1 / 2 ^ 140)) = true := by
    show FP.lt (FP.ofRat b32 false 0) (FP.ofRat b32 false (1 / 2 ^ 140)) = true
    decide +kernel
  have one : (FP.ofRat b32 false 1).fin = true ∧ (FP.ofRat b32 false 1).val = 1 := by decide +kernel
  have le : (FP.ofRat b32 false (1 / 2 ^ 140) <=. (lit 1 /. p : F32)) = true := by
    show (_ <=. FP.div (FP.ofRat b32 false 1) p) = true
    rw [FP.div_fin one.1 fp pos.ne', one.2]
    refine FP.ofRat_le (one_div_le_one_div_of_le pos ?_)
    exact ((le_abs_self _).trans (fin_le_largest fp)).trans (by norm_num)
  have yp : (lit 0 <. (lit 1 /. p : F32)) = true := by
    by_contra h
    have h := LawfulScalar.total (lit 0 : F32) (lit 1 /. p) ((FP.isNan_false _).2 (fin_number lit0_unit.1))
      ((FP.isNan_false _).2 (FP.le_not_nan le).2) (eq_false_of_ne_true h)
    have := LawfulScalar.not_lt _ _ (LawfulScalar.le_trans _ _ _ le h)
    rw [this] at small; cases small
  have inr : InRange (Scalar.powf (clamp01 (Rgb.to_hsl c).c1) (lit 1 /. p)) :=
    hk _ _ ((inRange_f32 _).2 (.inr cs)) yp
  have num : Scalar.powf (clamp01 (Rgb.to_hsl c).c1) (lit 1 /. p) ≠ .nan := by
    refine hp _ _ (fin_number cs.1) ?_ (FP.le_not_nan le).2
    show FP.lt _ (FP.ofRat b32 false 0) = false
    refine eq_false_of_ne_true fun h => ?_
    have z : (FP.ofRat b32 false 0).fin = true ∧ (FP.ofRat b32 false 0).val = 0 := by decide +kernel
    rw [FP.lt_fin cs.1 z.1, z.2] at h
    exact absurd cs.2.1 (not_le.2 (of_decide_eq_true h))
  exact hsl_unit (hh.mono (by norm_num)) (unit_of inr num) hl (fin_number hc.alpha.1)

/-! ## The hypotheses can be met -/

/-- A generator that always draws one half meets the condition on generators. -/
example : letI := poleOfPow
    DrawsNumbers (⟨fun s => (lit (1 / 2), s), fun s => (lit (1 / 2), s), fun s => (lit 0, s), fun s => (1, s)⟩ : Rng Unit F32) := by
  intro s
  show (FP.ofRat b32 false (1 / 2)).fin = true ∧ |(FP.ofRat b32 false (1 / 2)).val| ≤ 1
  decide +kernel

/-- The commands of a command line with finite numbers. -/
example [Libm b32] : ∃ queue : Queue F32 String,
    parse id (fun _ => some (lit 1)) create_args ["d10", "in.png", "-invert", "-rotate", "1"] = .ok queue ∧
    queue.commands.length = 3 ∧ ∀ cmd ∈ queue.commands, FiniteCommand cmd := by
  refine ⟨⟨[.Open "in.png", .Invert, .Rotate (lit 1) .Bilinear]⟩, ?_, rfl, ?_⟩
  · simp [parse, parseLoop, parse_arg, create_args, Queue.new, Queue.push, Queue.is_empty, bind, Except.bind, pure,
      Except.pure]
  · simp only [List.forall_mem_cons]
    exact ⟨trivial, trivial, lit1_unit.1, by simp⟩

end D10
