import Verif.Lemmas.Traverse

/-!
# Properties of pixel buffers (C01 - C08)

Model: `Verif/Model/PixelBuffer.lean` (d10-core/src/pixelbuffer.rs). Specification: `Verif/Spec.lean`.
-/

namespace D10

open Spec PixelBuffer

variable {T U : Type}

/-! ## C02 Construction -/

/-- Filling with one colour: succeeds exactly for valid sizes, otherwise panics. -/
theorem C02_new_with_color (w h : Nat) (c : T) :
    (ValidSize w h → ∃ b, new_with_color w h c = .ok b ∧ Shows b w h (fun _ _ => c)) ∧
    (¬ ValidSize w h → new_with_color w h c = .error .invalidSize) := by
  constructor
  · intro hv
    refine ⟨⟨w, h, List.replicate (w * h) c⟩, ?_, rfl, rfl, hv, ?_⟩
    · have := hv.mul_le
      simp [new_with_color, validate_ok hv, u32_ok (show w * h < 4294967296 by omega)]
    · rw [rows_eq_range]; simp [List.map_const']
  · intro hv; simp [new_with_color, validate_err hv]

/-- `new` is filling with the default colour. -/
theorem C02_new (dflt : T) (w h : Nat) :
    (ValidSize w h → ∃ b, new dflt w h = .ok b ∧ Shows b w h (fun _ _ => dflt)) ∧
    (¬ ValidSize w h → new dflt w h = .error .invalidSize) := C02_new_with_color w h dflt

/-- From raw pixels: succeeds exactly for a valid size and exactly `w*h` pixels. -/
theorem C02_new_from_raw (w h : Nat) (d : List T) :
    (ValidSize w h ∧ d.length = w * h →
      new_from_raw w h d = .ok ⟨w, h, d⟩ ∧
      ∀ x y, x < w → y < h → ∃ c, d[x + y * w]? = some c ∧ get_pixel ⟨w, h, d⟩ x y = .ok c) ∧
    (¬ (ValidSize w h ∧ d.length = w * h) → ∃ e, new_from_raw w h d = .error e) := by
  constructor
  · rintro ⟨hv, hl⟩
    refine ⟨new_from_raw_ok hv hl, ?_⟩
    intro x y hx hy
    have hlt := idx_lt hx hy
    have hm := hv.mul_le
    have hyw : y * w ≤ x + y * w := Nat.le_add_left _ _
    refine ⟨d[x + y * w]'(by omega), List.getElem?_eq_getElem (by omega), ?_⟩
    simp only [get_pixel, assert, hx, hy, decide_true, if_true, ok_bind]
    rw [u32_ok (show y * w < 4294967296 by omega), ok_bind, u32_ok (by omega), ok_bind,
      index_ok (List.getElem?_eq_getElem (by omega))]
  · intro hn
    by_cases hl : d.length = w * h
    · have hv : ¬ ValidSize w h := fun hv => hn ⟨hv, hl⟩
      exact ⟨.invalidSize, by simp [new_from_raw, hl, validate_err hv]⟩
    · exact ⟨.wrongLength, by simp [new_from_raw, Ne.symm hl]⟩

/-- From a function: succeeds exactly for valid sizes, with the function's value at each
coordinate (for a function that does not itself panic). -/
theorem C02_new_from_func (w h : Nat) (f : Nat → Nat → R T) (px : Nat → Nat → T)
    (hf : ∀ x y, x < w → y < h → f x y = .ok (px x y)) :
    (ValidSize w h → ∃ b, new_from_func w h f = .ok b ∧ Shows b w h px) ∧
    (¬ ValidSize w h → new_from_func w h f = .error .invalidSize) := by
  constructor
  · intro hv
    have := hv.mul_le
    refine ⟨⟨w, h, rows w h px⟩, ?_, rfl, rfl, hv, rfl⟩
    simp only [new_from_func, new_from_funcM, liftM, monadLift, validate_ok hv,
      ok_bind, u32_ok (show w * h < 4294967296 by omega)]
    rw [mapM_ok _ _ (fun i => px (i % w) (i / w)) (fun i hi => hf _ _
      (mod_lt (by simpa using hi)) (div_lt (by simpa using hi))), rows_eq_range]
    rfl
  · intro hv
    simp [new_from_func, new_from_funcM, liftM, monadLift, validate_err hv]

example : ValidSize 3 2 ∧ ¬ ValidSize 3 0 ∧ ¬ ValidSize 40000 40000 := by
  simp [ValidSize]

/-! ## C03 Pixel access -/

theorem C03_get_pixel {b : PixelBuffer T} {w h px} (s : Shows b w h px) (x y : Nat) :
    b.get_pixel x y = if x < w ∧ y < h then .ok (px x y) else .error .assertion := by
  have hs := s.size
  have hm := hs.mul_le
  simp only [get_pixel, s.width, s.height]
  by_cases hx : x < w
  · by_cases hy : y < h
    · have hlt := idx_lt hx hy
      have hyw : y * w ≤ x + y * w := Nat.le_add_left _ _
      simp only [assert, hx, hy, decide_true, if_true, ok_bind, and_self]
      rw [u32_ok (show y * w < 4294967296 by omega), ok_bind, u32_ok (by omega), ok_bind,
        index_ok (s.getElem? hx hy)]
    · simp [assert, hx, hy]
  · simp [assert, hx]

/-- Writing a pixel changes that pixel and nothing else; outside the image it panics. -/
theorem C03_put_pixel {b : PixelBuffer T} {w h px} (s : Shows b w h px) (x y : Nat) (c : T) :
    (x < w ∧ y < h → ∃ b', b.put_pixel x y c = .ok b' ∧
      Shows b' w h (fun x' y' => if x' = x ∧ y' = y then c else px x' y')) ∧
    (¬ (x < w ∧ y < h) → b.put_pixel x y c = .error .assertion) := by
  have hs := s.size
  have hm := hs.mul_le
  constructor
  · rintro ⟨hx, hy⟩
    have hlt := idx_lt hx hy
    have hyw : y * w ≤ x + y * w := Nat.le_add_left _ _
    refine ⟨{ b with data := b.data.set (x + y * w) c }, ?_, s.width, s.height, hs, ?_⟩
    · simp only [put_pixel, s.width, s.height, assert, hx, hy, decide_true, if_true, ok_bind]
      rw [u32_ok (show y * w < 4294967296 by omega), ok_bind, u32_ok (by omega), ok_bind,
        setIndex_ok (by rw [s.length]; exact hlt)]
      rfl
    · apply eq_rows
      · simp [s.length]
      · intro x' y' hx' hy'
        by_cases he : x' = x ∧ y' = y
        · obtain ⟨rfl, rfl⟩ := he
          rw [List.getElem?_set_self (by rw [s.length]; exact hlt)]; simp
        · have hne : x + y * w ≠ x' + y' * w := by
            intro hc
            have := idx_inj hx hx' hc
            exact he ⟨this.1.symm, this.2.symm⟩
          rw [List.getElem?_set_ne hne, s.getElem? hx' hy', if_neg he]
  · intro hn
    simp only [put_pixel, s.width, s.height]
    by_cases hx : x < w
    · have hy : ¬ y < h := fun hy => hn ⟨hx, hy⟩
      simp [assert, hx, hy]
    · simp [assert, hx]

/-- Read after write, stated on the API only. -/
theorem C03_get_after_put {b b' : PixelBuffer T} (hb : WellFormed b) {x y : Nat} {c : T}
    (hput : b.put_pixel x y c = .ok b') (x' y' : Nat) :
    b'.width = b.width ∧ b'.height = b.height ∧
    b'.get_pixel x' y' = if x' = x ∧ y' = y then .ok c else b.get_pixel x' y' := by
  haveI : Inhabited T := ⟨c⟩
  have s := shows_of_wellFormed hb
  have hp := C03_put_pixel s x y c
  by_cases hin : x < b.width ∧ y < b.height
  · obtain ⟨b'', h1, s'⟩ := hp.1 hin
    rw [hput] at h1
    cases h1
    refine ⟨s'.width, s'.height, ?_⟩
    rw [C03_get_pixel s', C03_get_pixel s]
    by_cases he : x' = x ∧ y' = y
    · obtain ⟨rfl, rfl⟩ := he; simp [hin]
    · simp [he]
  · rw [hp.2 hin] at hput; cases hput

example : ∃ b' : PixelBuffer Nat,
    (PixelBuffer.mk 2 2 [1, 2, 3, 4]).put_pixel 1 0 9 = .ok b' ∧ b'.data = [1, 9, 3, 4] ∧
    WellFormed (PixelBuffer.mk 2 2 [1, 2, 3, 4]) := ⟨_, rfl, rfl, by simp [WellFormed, ValidSize]⟩

/-! ## C04 Clamped access -/

/-- Clamped access on a non-empty image: the pixel nearest to the requested position, no panic. -/
theorem C04_get_pixel_clamped {b : PixelBuffer T} {w h px} (s : Shows b w h px) (hne : 0 < w)
    (x y : Int) : b.get_pixel_clamped x y = .ok (px (nearest w x) (nearest h y)) := by
  have hs := s.size
  have hw := hs.width_le
  have hh := hs.height_le
  have hhp : 0 < h := by rcases hs with ⟨rfl, _⟩ | ⟨_, h, _⟩ <;> omega
  have key : ∀ (n : Nat) (v : Int), 0 < n → n ≤ 1073741823 →
      clampI32 v 0 (asI32 (n - 1)) = .ok (nearest n v : Int) ∧
      asU32 (nearest n v : Int) = nearest n v ∧ nearest n v < n := by
    intro n v hn hle
    rw [asI32_of_lt (by omega)]
    refine ⟨?_, ?_, ?_⟩
    · unfold clampI32 nearest
      rw [if_pos (by omega)]
      congr 1
      split
      · omega
      · split <;> omega
    · rw [asU32_of_nonneg (by omega) (by unfold nearest; omega)]; simp
    · unfold nearest; omega
  obtain ⟨kx1, kx2, kx3⟩ := key w x hne hw
  obtain ⟨ky1, ky2, ky3⟩ := key h y hhp hh
  simp only [get_pixel_clamped, s.width, s.height]
  rw [usub_ok (by omega), ok_bind, kx1, ok_bind, usub_ok (by omega), ok_bind, ky1, ok_bind, kx2, ky2,
    C03_get_pixel s, if_pos ⟨kx3, ky3⟩]

/-- On the empty image clamped access always panics. -/
theorem C04_get_pixel_clamped_empty {b : PixelBuffer T} {px} (s : Shows b 0 0 px) (x y : Int) :
    b.get_pixel_clamped x y = .error .overflow := by
  simp [get_pixel_clamped, s.width, usub]

/-- What "nearest" means: inside the image the coordinate itself, left of it the first, right of it
the last column. -/
theorem C04_nearest (n : Nat) (hn : 0 < n) (v : Int) :
    (0 ≤ v ∧ v < n → (nearest n v : Int) = v) ∧ (v < 0 → nearest n v = 0) ∧
    (n ≤ v → nearest n v = n - 1) := by
  unfold nearest; refine ⟨?_, ?_, ?_⟩ <;> intro h <;> omega

example : Shows (PixelBuffer.mk 2 2 [1, 2, 3, 4]) 2 2 (fun x y => 1 + x + 2 * y) :=
  ⟨rfl, rfl, by simp [ValidSize], by decide⟩

/-! ## C05 Optional access -/

theorem C05_is_in_image {b : PixelBuffer T} {w h px} (s : Shows b w h px) (x y : Int) :
    b.is_in_image x y = true ↔ (0 ≤ x ∧ x < w ∧ 0 ≤ y ∧ y < h) := by
  have hw := s.size.width_le
  have hh := s.size.height_le
  simp only [is_in_image, s.width, s.height, asI32_of_lt (show w < 2147483648 by omega),
    asI32_of_lt (show h < 2147483648 by omega), Bool.and_eq_true, decide_eq_true_eq]
  omega

theorem C05_get_pixel_optional {b : PixelBuffer T} {w h px} (s : Shows b w h px) (x y : Int) :
    b.get_pixel_optional x y =
      .ok (if 0 ≤ x ∧ x < w ∧ 0 ≤ y ∧ y < h then some (px x.toNat y.toNat) else none) := by
  have hw := s.size.width_le
  have hh := s.size.height_le
  have hm := s.size.mul_le
  have hin := C05_is_in_image s x y
  simp only [get_pixel_optional, s.width]
  by_cases hc : b.is_in_image x y = true
  · have hr := hin.1 hc
    rw [if_pos hc, if_pos hr, asU32_of_nonneg hr.1 (by omega), asU32_of_nonneg hr.2.2.1 (by omega)]
    have hlt := idx_lt (w := w) (h := h) (x := x.toNat) (y := y.toNat) (by omega) (by omega)
    have hyw : y.toNat * w ≤ x.toNat + y.toNat * w := Nat.le_add_left _ _
    rw [u32_ok (show y.toNat * w < 4294967296 by omega), ok_bind, u32_ok (by omega), ok_bind,
        index_ok (s.getElem? (x := x.toNat) (y := y.toNat) (by omega) (by omega))]
    rfl
  · rw [if_neg hc, if_neg (mt hin.2 hc)]; rfl

/-! ## C06 Enumeration -/

theorem C06_enumerate {b : PixelBuffer T} {w h px} (s : Shows b w h px) :
    b.enumerate = rows w h (fun x y => (x, y, px x y)) := by
  have hm := s.size.mul_le
  simp only [enumerate, s.width, s.pixels, rows_eq_range]
  apply List.ext_getElem
  · simp
  · intro i h1 h2
    have hi : i < w * h := by simpa using h2
    simp [Nat.mod_eq_of_lt (show i < 4294967296 by omega)]

/-- Rebuilding a buffer from its enumerated colours gives the same buffer. -/
theorem C06_rebuild {b : PixelBuffer T} (hb : WellFormed b) :
    new_from_raw b.width b.height (b.enumerate.map (fun p => p.2.2)) = .ok b := by
  have : b.enumerate.map (fun p => p.2.2) = b.data := by
    simp only [enumerate, List.map_map, Function.comp_def]
    simp
  rw [this]; exact new_from_raw_ok hb.1 hb.2

example : (PixelBuffer.mk 2 2 ['a', 'b', 'c', 'd']).enumerate =
    [(0, 0, 'a'), (1, 0, 'b'), (0, 1, 'c'), (1, 1, 'd')] := rfl

/-! ## C07 Mapping -/

theorem C07_map_colors {b : PixelBuffer T} {w h px} (s : Shows b w h px) (f : T → U) :
    Shows (b.map_colors f) w h (fun x y => f (px x y)) :=
  ⟨s.width, s.height, s.size, by simp [map_colors, s.pixels, rows_map]⟩

/-- The in-place variant computes the same buffer, and performs the same closure calls, as the
copying variant, whatever the closure's effects. -/
theorem C07_mod_eq_map {m : Type → Type} [Monad m] [LawfulMonad m] (b : PixelBuffer T)
    (f : T → m T) : b.mod_colorsM f = b.map_colorsM f := by
  simp [mod_colorsM, map_colorsM, modLoop_eq]

theorem C07_mod_colors (b : PixelBuffer T) (f : T → T) : b.mod_colors f = b.map_colors f := by
  have : b.data.mapM (m := Id) f = b.data.map f := by
    induction b.data with
    | nil => rfl
    | cons a as ih => rw [List.mapM_cons, ih]; rfl
  simp only [mod_colors, C07_mod_eq_map, map_colorsM, map_colors, this]
  rfl

/-- A stateful closure is called once per pixel, in row-major order, threading its state. -/
theorem C07_map_colors_stateful {σ : Type} {b : PixelBuffer T} {w h px} (s : Shows b w h px)
    (f : σ → T → U × σ) (s0 : σ) :
    b.map_colorsM (m := StateM σ) (fun c st => f st c) s0 =
      (⟨w, h, (visit f s0 (rows w h px)).1⟩, (visit f s0 (rows w h px)).2) := by
  have key : ∀ (l : List T) (st : σ),
      (l.mapM (m := StateM σ) (fun c st => f st c)) st = visit f st l := by
    intro l
    induction l with
    | nil => intro st; rfl
    | cons a as ih =>
      intro st
      rw [List.mapM_cons]
      have := ih (f st a).2
      simp only [visit, ← this]
      rfl
  simp only [map_colorsM, s.width, s.height, s.pixels]
  have := key (rows w h px) s0
  rw [← this]
  rfl

theorem C07_map_colors_enumerated {b : PixelBuffer T} {w h px} (s : Shows b w h px)
    (f : Nat → Nat → T → R T) (g : Nat → Nat → T)
    (hf : ∀ x y, x < w → y < h → f x y (px x y) = .ok (g x y)) :
    ∃ b', b.map_colors_enumerated f = .ok b' ∧ Shows b' w h g := by
  refine ⟨⟨w, h, rows w h g⟩, ?_, rfl, rfl, s.size, rfl⟩
  simp only [map_colors_enumerated, C06_enumerate s, s.width, s.height]
  rw [mapM_ok _ _ (fun p => g p.1 p.2.1)]
  · simp [rows_map]
  · intro a ha
    rw [rows_eq_range] at ha
    obtain ⟨i, hi, rfl⟩ := List.mem_map.1 ha
    have hi : i < w * h := by simpa using hi
    exact hf _ _ (mod_lt hi) (div_lt hi)

theorem C07_mod_colors_enumerated (b : PixelBuffer T) (f : Nat → Nat → T → R T) :
    b.mod_colors_enumerated f = b.map_colors_enumerated f := by
  have key : ∀ (l : List (Nat × Nat × T)) (acc : List T),
      l.foldlM (fun acc p => do let n ← f p.1 p.2.1 p.2.2; (pure (acc ++ [n]) : R (List T))) acc =
        (fun r => acc ++ r) <$> l.mapM (fun p => f p.1 p.2.1 p.2.2) := by
    intro l
    induction l with
    | nil => intro acc; simp [Functor.map, Except.map]
    | cons a as ih =>
      intro acc
      rw [List.foldlM_cons, List.mapM_cons]
      cases f a.1 a.2.1 a.2.2 with
      | error e => rfl
      | ok v =>
        rw [ok_bind, ok_bind, pure_eq_ok, ok_bind, ih]
        cases as.mapM (fun p => f p.1 p.2.1 p.2.2) with
        | error e => rfl
        | ok r => simp [Functor.map, Except.map]
  simp only [mod_colors_enumerated, map_colors_enumerated]
  have := key b.enumerate []
  simp only [List.nil_append, id_map'] at this
  rw [this]

example : (PixelBuffer.mk 2 1 [5, 6]).map_colorsM (m := StateM Nat)
    (fun c st => (c + st, st + 1)) 10 = (⟨2, 1, [15, 17]⟩, 12) := rfl

/-! ## C08 Fallible traversals -/

/-- `try_map_colors`: if the closure succeeds on every pixel the result is the mapped buffer and
the closure was called once per pixel in order. -/
theorem C08_try_map_colors_ok {E : Type} {b : PixelBuffer T} {w h px} (s : Shows b w h px)
    (f : T → Except E U) (g : T → U) (hf : ∀ c ∈ b.data, f c = .ok (g c)) :
    ∃ b', b.try_map_colors (m := StateM (List T)) (traced f) [] = (.ok b', b.data) ∧
      Shows b' w h (fun x y => g (px x y)) := by
  refine ⟨_, ?_, C07_map_colors s g⟩
  have := collectResult_traced_ok f g b.data hf []
  simp [try_map_colors, bind, StateT.bind, this, pure, StateT.pure, map_colors]

/-- `try_map_colors`: at the first failing pixel its error is returned and the closure is not
called again. -/
theorem C08_try_map_colors_err {E : Type} (b : PixelBuffer T)
    (f : T → Except E U) (g : T → U) (pre post : List T) (c : T) (e : E)
    (hb : b.data = pre ++ c :: post) (hpre : ∀ a ∈ pre, f a = .ok (g a)) (hc : f c = .error e) :
    b.try_map_colors (m := StateM (List T)) (traced f) [] = (.error e, pre ++ [c]) := by
  have := collectResult_traced_err f g pre post c e hpre hc []
  simp [try_map_colors, bind, StateT.bind, hb, this, pure, StateT.pure]

theorem C08_try_mod_colors_ok {E : Type} (b : PixelBuffer T) (f : T → Except E T) (g : T → T)
    (hf : ∀ c ∈ b.data, f c = .ok (g c)) :
    b.try_mod_colors (m := StateM (List T)) (traced f) [] =
      (({ b with data := b.data.map g }, .ok ()), b.data) := by
  have := tryModLoop_traced_ok f g b.data [] hf []
  simp [try_mod_colors, bind, StateT.bind, this, pure, StateT.pure]

/-- `try_mod_colors`: on failure exactly the pixels before the failing one are modified. -/
theorem C08_try_mod_colors_err {E : Type} (b : PixelBuffer T) (f : T → Except E T) (g : T → T)
    (pre post : List T) (c : T) (e : E)
    (hb : b.data = pre ++ c :: post) (hpre : ∀ a ∈ pre, f a = .ok (g a)) (hc : f c = .error e) :
    b.try_mod_colors (m := StateM (List T)) (traced f) [] =
      (({ b with data := pre.map g ++ c :: post }, .error e), pre ++ [c]) := by
  have := tryModLoop_traced_err f g pre post [] c e hpre hc []
  simp [try_mod_colors, bind, StateT.bind, hb, this, pure, StateT.pure]

/-- Every fallible traversal is in one of the two situations above. -/
theorem C08_cases {E : Type} (f : T → Except E U) (l : List T) :
    (∃ us : List U, l.map f = us.map .ok) ∨
    (∃ pre c post e, l = pre ++ c :: post ∧ (∀ a ∈ pre, ∃ u, f a = .ok u) ∧ f c = .error e) := by
  induction l with
  | nil => exact .inl ⟨[], rfl⟩
  | cons a as ih =>
    cases ha : f a with
    | error e => exact .inr ⟨[], a, as, e, rfl, by simp, ha⟩
    | ok u =>
      rcases ih with ⟨us, h⟩ | ⟨pre, c, post, e, h1, h2, h3⟩
      · exact .inl ⟨u :: us, by simp [ha, h]⟩
      · refine .inr ⟨a :: pre, c, post, e, by simp [h1], ?_, h3⟩
        intro b hb
        rcases List.mem_cons.1 hb with rfl | hb
        · exact ⟨u, ha⟩
        · exact h2 b hb

/-- `try_new_from_func`: the generated pixels are those of the function, or its first error in
row-major order; an invalid size panics before any call. -/
theorem C08_try_new_from_func {E : Type} (w h : Nat) (f : Nat → Nat → Except E T) :
    (ValidSize w h →
      (∀ px : Nat → Nat → T, (∀ x y, x < w → y < h → f x y = .ok (px x y)) →
        ∃ b, try_new_from_func (m := R) w h (fun x y => .ok (f x y)) = .ok (.ok b) ∧
          Shows b w h px) ∧
      (∀ x y e, x < w → y < h → f x y = .error e →
        (∀ x' y', x' < w → y' < h → Before x' y' x y → ∃ c, f x' y' = .ok c) →
        try_new_from_func (m := R) w h (fun x y => .ok (f x y)) = .ok (.error e))) ∧
    (¬ ValidSize w h →
      try_new_from_func (m := R) w h (fun x y => .ok (f x y)) = .error .invalidSize) := by
  constructor
  · intro hv
    have hm := hv.mul_le
    have unf : try_new_from_func (m := R) w h (fun x y => .ok (f x y)) =
        (do match ← collectResult (m := R) (fun i => .ok (f (i % w) (i / w))) (List.range (w * h)) with
            | .error e => pure (.error e)
            | .ok data => pure (.ok ⟨w, h, data⟩)) := by
      simp only [try_new_from_func, liftM, monadLift, validate_ok hv,
        ok_bind, u32_ok (show w * h < 4294967296 by omega)]
      rfl
    constructor
    · intro px hpx
      refine ⟨⟨w, h, rows w h px⟩, ?_, rfl, rfl, hv, rfl⟩
      rw [unf, collectResult_run, collectResult_all_ok _ (fun i => px (i % w) (i / w))]
      · simp [rows_eq_range]
      · intro i hi
        have hi : i < w * h := by simpa using hi
        exact hpx _ _ (mod_lt hi) (div_lt hi)
    · intro x y e hx hy he hpre
      have hlt := idx_lt hx hy
      rw [unf, collectResult_run, range_split hlt, collectResult_err]
      · rfl
      · intro i hi
        have hi : i < x + y * w := by simpa using hi
        exact hpre _ _ (mod_lt (h := h) (by omega)) (div_lt (by omega)) (before_of_lt hx hi)
      · rw [idx_mod hx, idx_div hx]; exact he
  · intro hv
    simp [try_new_from_func, liftM, monadLift, validate_err hv]

/-- `try_map_colors_enumerated`: all pixels mapped, or the first error in row-major order. -/
theorem C08_try_map_colors_enumerated {E : Type} {b : PixelBuffer T} {w h px} (s : Shows b w h px)
    (f : Nat → Nat → T → Except E T) :
    (∀ g : Nat → Nat → T, (∀ x y, x < w → y < h → f x y (px x y) = .ok (g x y)) →
      ∃ b', b.try_map_colors_enumerated f = .ok b' ∧ Shows b' w h g) ∧
    (∀ x y e, x < w → y < h → f x y (px x y) = .error e →
      (∀ x' y', x' < w → y' < h → Before x' y' x y → ∃ c, f x' y' (px x' y') = .ok c) →
      b.try_map_colors_enumerated f = .error e) := by
  simp only [try_map_colors_enumerated, C06_enumerate s, s.width, s.height]
  constructor
  · intro g hg
    refine ⟨⟨w, h, rows w h g⟩, ?_, rfl, rfl, s.size, rfl⟩
    rw [collectResult_all_ok _ (fun p => g p.1 p.2.1)]
    · simp [rows_map, Id.run, bind, Except.bind, pure, Except.pure]
    · intro a ha
      rw [rows_eq_range] at ha
      obtain ⟨i, hi, rfl⟩ := List.mem_map.1 ha
      have hi : i < w * h := by simpa using hi
      exact hg _ _ (mod_lt hi) (div_lt hi)
  · intro x y e hx hy he hpre
    obtain ⟨pre, post, h1, h2⟩ := rows_split hx hy (fun x y => (x, y, px x y))
    rw [h1, collectResult_err (e := e)]
    · rfl
    · intro a ha
      obtain ⟨x', y', hx', hy', hb, rfl⟩ := h2 a ha
      exact hpre x' y' hx' hy' hb
    · exact he

/-- `try_mod_colors_enumerated`: all pixels replaced; or, when the closure first fails at `(x, y)`,
the error of that call and exactly the pixels before `(x, y)` replaced. -/
theorem C08_try_mod_colors_enumerated {E : Type} {b : PixelBuffer T} {w h px} (s : Shows b w h px)
    (f : Nat → Nat → T → Except E T) (g : Nat → Nat → T) :
    ((∀ x y, x < w → y < h → f x y (px x y) = .ok (g x y)) →
      (b.try_mod_colors_enumerated f).2 = .ok () ∧
      Shows (b.try_mod_colors_enumerated f).1 w h g) ∧
    (∀ x y e, x < w → y < h → f x y (px x y) = .error e →
      (∀ x' y', x' < w → y' < h → Before x' y' x y → f x' y' (px x' y') = .ok (g x' y')) →
      (b.try_mod_colors_enumerated f).2 = .error e ∧
      (∀ x' y', x' < w → y' < h → Before x' y' x y →
        (b.try_mod_colors_enumerated f).1.get_pixel x' y' = .ok (g x' y')) ∧
      (∀ x' y', x' < w → y' < h → ¬ Before x' y' x y →
        (b.try_mod_colors_enumerated f).1.get_pixel x' y' = .ok (px x' y'))) := by
  simp only [try_mod_colors_enumerated, C06_enumerate s]
  constructor
  · intro hg
    rw [tryModEnum_ok b f (fun p => g p.1 p.2.1)]
    · exact ⟨rfl, s.width, s.height, s.size, by simp [rows_map]⟩
    · intro a ha
      rw [rows_eq_range] at ha
      obtain ⟨i, hi, rfl⟩ := List.mem_map.1 ha
      have hi : i < w * h := by simpa using hi
      exact hg _ _ (mod_lt hi) (div_lt hi)
  · intro x y e hx hy he hpre
    obtain ⟨pre, post, h1, h2, h3'⟩ := rows_split' hx hy (fun x y => (x, y, px x y))
    rw [h1, tryModEnum_err b f (fun p => g p.1 p.2.1) (e := e)]
    · classical
      have sh : Shows (PixelBuffer.mk b.width b.height
          ([] ++ pre.map (fun p => g p.1 p.2.1) ++ px x y :: post.map (fun p => p.2.2))) w h
          (fun x' y' => if Before x' y' x y then g x' y' else px x' y') := by
        refine ⟨s.width, s.height, s.size, ?_⟩
        have : rows w h (fun x' y' => if Before x' y' x y then g x' y' else px x' y') =
            (rows w h (fun x y => (x, y, px x y))).map
              (fun p => if Before p.1 p.2.1 x y then g p.1 p.2.1 else p.2.2) := by
          rw [rows_map]
        rw [this, h1, List.map_append, List.map_cons]
        have hself : ¬ Before x y x y := by unfold Before; omega
        rw [if_neg hself]
        simp only [List.nil_append]
        congr 1
        · apply List.map_congr_left
          intro a ha
          obtain ⟨x', y', _, _, hb, rfl⟩ := h2 a ha
          simp [hb]
        · congr 1
          apply List.map_congr_left
          intro a ha
          obtain ⟨x', y', _, _, hb, rfl⟩ := h3' a ha
          simp [hb]
      refine ⟨rfl, ?_, ?_⟩
      · intro x' y' hx' hy' hb
        rw [C03_get_pixel sh, if_pos ⟨hx', hy'⟩, if_pos hb]
      · intro x' y' hx' hy' hb
        rw [C03_get_pixel sh, if_pos ⟨hx', hy'⟩, if_neg hb]
    · intro a ha
      obtain ⟨x', y', hx', hy', hb, rfl⟩ := h2 a ha
      exact hpre x' y' hx' hy' hb
    · exact he

example : (PixelBuffer.mk 3 1 [1, 2, 3]).try_mod_colors (m := StateM (List Nat))
    (traced (fun c => if c = 2 then .error "two" else .ok (c + 10))) [] =
      ((⟨3, 1, [11, 2, 3]⟩, .error "two"), [1, 2]) := rfl

end D10
