import Verif.Props.Image
import Verif.Props.Options
import Verif.SpecPython

/-!
# The Python binding: methods

* C80: options and defaults
* C81: pixels, lists and Python functions
* C82: colour classes
-/

namespace D10
open Spec Python
open Scalar (lit)

variable {F D : Type} [Scalar F] [Scalar D] [Widen F D]

/-! ## C80 -/

theorem forwards_ofR {α : Type} (x : R α) : Forwards (Py.ofR x) x :=
  ⟨fun a h => by rw [h]; rfl, fun p h => by rw [h]; rfl⟩

theorem selects_of {α β : Type} {parse : String → Except ParseEnumError α} {type : String}
    {table : List (String × α)} (hp : Parses parse type table) (default : α) (method : α → R β) :
    Selects (fun name => do let v ← parse_or parse default name; Py.ofR (method v)) table type default
      method := by
  refine ⟨forwards_ofR _, fun p h => ?_, fun name h => ?_⟩
  · have := (hp.accepts p.1 p.2).2 h
    simp only [parse_or, this]
    exact forwards_ofR _
  · have := (hp.rejects name ⟨name, type⟩).2 ⟨h, rfl⟩
    simp only [parse_or, this]
    rfl

theorem selects_of_name {α β : Type} {parse : String → Except ParseEnumError α} {type : String}
    {table : List (String × α)} (hp : Parses parse type table) (dname : String) (default : α)
    (hd : (dname, default) ∈ table) (method : α → R β) :
    Selects (fun name => do let v ← py_err (parse (name.getD dname)); Py.ofR (method v)) table type
      default method := by
  refine ⟨?_, fun p h => ?_, fun name h => ?_⟩
  · have := (hp.accepts _ _).2 hd
    simp only [Option.getD_none, this]
    exact forwards_ofR _
  · have := (hp.accepts p.1 p.2).2 h
    simp only [Option.getD_some, this]
    exact forwards_ofR _
  · have := (hp.rejects name ⟨name, type⟩).2 ⟨h, rfl⟩
    simp only [Option.getD_some, this]
    rfl

/-- C80: resizing and rotating take the name of a filter; without one they use `bilinear` (although
the filter called `default` is `auto`). -/
theorem C80_filters (img : Image F) :
    (∀ r, Selects (Python.rotate img r) filterModes "FilterMode" .Bilinear (img.rotate r)) ∧
    (∀ w h, Selects (Python.resize img w h) filterModes "FilterMode" .Bilinear (img.resize w h)) ∧
    (∀ p, Selects (Python.resize_pct img p) filterModes "FilterMode" .Bilinear (img.resize_pct p)) :=
  ⟨fun _ => selects_of C34_filter _ _, fun _ _ => selects_of C34_filter _ _,
    fun _ => selects_of C34_filter _ _⟩

/-- C80: the other methods with the name of an option. Numbers that are left out are replaced by the
given default. -/
theorem C80_options (img other : Image F) :
    Selects (Python.edge_detection img) edgeDetections "EdgeDetection" .Sobel img.edge_detection ∧
    (∀ r, Selects (Python.drawing img r) drawingModes "DrawingMode" .Colored (img.drawing r)) ∧
    Selects (Python.equalize img) equalizeModes "EqualizeMode" .Srgb img.equalize ∧
    (∀ t, Selects (fun mode => Python.balance img mode (some t)) balanceModes "BalanceMode" .Rgb
      fun mode => img.balance mode t) ∧
    (∀ mode, Python.balance img mode none = Python.balance img mode (some (lit (1 / 2)))) ∧
    (∀ k, Selects (fun op => Python.blend img other op (some k)) blendOps "BlendOp" .Normal
      fun op => img.blend other op k) ∧
    (∀ op, Python.blend img other op none = Python.blend img other op (some (lit 1))) ∧
    (∀ k, Selects (fun mode => Python.optimize_saturation img (some k) mode) saturationModes "SaturationMode"
      .Hsl fun mode => .ok (img.optimize_saturation k mode)) ∧
    (∀ mode, Python.optimize_saturation img none mode = Python.optimize_saturation img (some (lit 1)) mode) := by
  refine ⟨selects_of C34_edge_detection _ _, fun r => selects_of_name C34_drawing "default" _ (by decide) _,
    selects_of C34_equalize _ _, fun t => selects_of C34_balance _ _, fun _ => rfl,
    fun k => selects_of_name C34_blend "normal" _ (by decide) _, fun _ => rfl,
    fun k => selects_of_name C34_saturation "hsl" .Hsl (by decide)
      (fun mode => .ok (img.optimize_saturation k mode)), fun _ => rfl⟩

/-- C80: the methods with optional numbers and flags only: what is given is passed on, what is left
out has a fixed default. -/
theorem C80_defaults (img : Image F) :
    (∀ r k s, Python.unsharp img r (some k) s = img.unsharp r k s ∧ Python.unsharp img r none s = img.unsharp r (lit 1) s) ∧
    (∀ t n, Python.despeckle img (some t) (some n) = img.despeckle t n ∧
      Python.despeckle img none (some n) = img.despeckle (lit (1 / 10)) n ∧
      Python.despeckle img (some t) none = img.despeckle t 1 ∧
      Python.despeckle img none none = img.despeckle (lit (1 / 10)) 1) ∧
    (∀ r c, Python.symmetric_nearest_neighbor img (some r) (some c) = img.symmetric_nearest_neighbor r c ∧
      Python.symmetric_nearest_neighbor img none (some c) = img.symmetric_nearest_neighbor 4 c ∧
      Python.symmetric_nearest_neighbor img (some r) none = img.symmetric_nearest_neighbor r true ∧
      Python.symmetric_nearest_neighbor img none none = img.symmetric_nearest_neighbor 4 true) ∧
    (∀ t, Forwards (Python.stretch_contrast img (some t)) (img.stretch_contrast t)) ∧
    Forwards (Python.stretch_contrast img none) (img.stretch_contrast (lit (1 / 2))) ∧
    (∀ t, Forwards (Python.white_balance img (some t)) (img.white_balance t)) ∧
    Forwards (Python.white_balance img none) (img.white_balance (lit (1 / 2))) ∧
    (∀ o n t, Forwards (Python.change_color_temperature D img o n (some t)) (img.change_color_temperature D o n t)) ∧
    (∀ o n, Forwards (Python.change_color_temperature D img o n none) (img.change_color_temperature D o n (lit 0))) ∧
    (∀ k t, Forwards (Python.optimize_color_temperature D img k (some t)) (img.optimize_color_temperature D k t)) ∧
    (∀ k, Forwards (Python.optimize_color_temperature D img k none) (img.optimize_color_temperature D k (lit 0))) :=
  ⟨fun _ _ _ => ⟨rfl, rfl⟩, fun _ _ => ⟨rfl, rfl, rfl, rfl⟩, fun _ _ => ⟨rfl, rfl, rfl, rfl⟩,
    fun _ => forwards_ofR _, forwards_ofR _, fun _ => forwards_ofR _, forwards_ofR _,
    fun _ _ _ => forwards_ofR _, fun _ _ => forwards_ofR _, fun _ _ => forwards_ofR _,
    fun _ => forwards_ofR _⟩

/-- C80: simulated JPEG compression keeps alpha unless told otherwise; saving goes by the name of the
file unless a format is given. -/
theorem C80_files [FloatBytes F] (libs : Libs F) (fs : FS) (img : Image F) (path : String) :
    (∀ q a, with_jpeg_quality libs img q (some a) = img.with_jpeg_quality libs q a) ∧
    (∀ q, with_jpeg_quality libs img q none = img.with_jpeg_quality libs q true) ∧
    (∀ f, Python.save libs fs img path (some f) = Image.save_with_format libs fs img path f) ∧
    Python.save libs fs img path none = Image.save libs fs img path :=
  ⟨fun _ _ => rfl, fun _ => rfl, fun _ => rfl, rfl⟩

theorem parse_or_ok {α : Type} {parse : String → Except ParseEnumError α} {type : String}
    {table : List (String × α)} (hp : Parses parse type table) {default : α} :
    parse_or parse default none = pure default ∧
    (∀ p ∈ table, parse_or parse default (some p.1) = pure p.2) ∧
    (∀ name, name ∉ table.map (·.1) → parse_or parse default (some name) =
      throw ("Unknown value for " ++ type ++ ": " ++ name)) := by
  refine ⟨rfl, fun p h => ?_, fun name h => ?_⟩
  · simp only [parse_or, (hp.accepts p.1 p.2).2 h]; rfl
  · simp only [parse_or, (hp.rejects name ⟨name, type⟩).2 ⟨h, rfl⟩]; rfl

/-- C80: JPEG options: quality 85, not progressive, no subsampling chosen, in colour, optimised
tables, unless given. -/
theorem C80_jpeg (q : Nat) (p g o : Bool) :
    Selects (fun s => Python.jpeg (some q) (some p) s (some g) (some o))
      (samplingFactors.map fun e => (e.1, some e.2)) "JpegSamplingFactor" none
      (fun s => .ok (.Jpeg q p s g o)) ∧
    (∀ q' p' s g' o', Python.jpeg q' p' s g' o' =
      Python.jpeg (some (q'.getD 85)) (some (p'.getD false)) s (some (g'.getD false)) (some (o'.getD true))) := by
  refine ⟨⟨forwards_ofR (.ok _), fun e he => ?_, fun name h => ?_⟩, fun _ _ _ _ _ => rfl⟩
  · obtain ⟨e', h', rfl⟩ := List.mem_map.1 he
    have := (C34_jpeg_sampling.accepts e'.1 e'.2).2 h'
    simp only [Python.jpeg, parse_option, this]
    exact forwards_ofR (.ok _)
  · have := (C34_jpeg_sampling.rejects name ⟨name, "JpegSamplingFactor"⟩).2 ⟨by simpa using h, rfl⟩
    simp only [Python.jpeg, parse_option, this]
    rfl

/-- C80: PNG options: `rgba8`, default compression, the filter `sub`, unless given. -/
theorem C80_png :
    returns (Python.png none none none) (.Png .Rgba8 .Default .Sub) ∧
    (∀ c ∈ pngColorTypes, ∀ k ∈ pngCompressions, ∀ f ∈ pngFilterTypes,
      returns (Python.png (some c.1) (some k.1) (some f.1)) (.Png c.2 k.2 f.2)) ∧
    (∀ k f, Python.png none k f = Python.png (some "rgba8") k f) ∧
    (∀ c f, Python.png c none f = Python.png c (some "default") f) ∧
    (∀ c k, Python.png c k none = Python.png c k (some "sub")) ∧
    (∀ c k f, c ∉ pngColorTypes.map (·.1) →
      raises (Python.png (some c) k f) ("Unknown value for PngColorType: " ++ c)) ∧
    (∀ c ∈ pngColorTypes, ∀ k f, k ∉ pngCompressions.map (·.1) →
      raises (Python.png (some c.1) (some k) f) ("Unknown value for PngCompression: " ++ k)) ∧
    (∀ c ∈ pngColorTypes, ∀ k ∈ pngCompressions, ∀ f, f ∉ pngFilterTypes.map (·.1) →
      raises (Python.png (some c.1) (some k.1) (some f)) ("Unknown value for PngFilterType: " ++ f)) := by
  have hc := parse_or_ok C34_png_color (default := .Rgba8)
  have hk := parse_or_ok C34_png_compression (default := .Default)
  have hf := parse_or_ok C34_png_filter (default := .Sub)
  refine ⟨rfl, fun c hc' k hk' f hf' => ?_, fun k f => rfl, fun c f => ?_, fun c k => ?_,
    fun c k f h => ?_, fun c hc' k f h => ?_, fun c hc' k hk' f h => ?_⟩
  · unfold Python.png; rw [hc.2.1 c hc', hk.2.1 k hk', hf.2.1 f hf']; rfl
  · rfl
  · rfl
  · unfold Python.png; rw [hc.2.2 c h]; rfl
  · unfold Python.png; rw [hc.2.1 c hc', hk.2.2 k h]; rfl
  · unfold Python.png; rw [hc.2.1 c hc', hk.2.1 k hk', hf.2.2 f h]; rfl

/-- C80: the other formats. The default quality of WebP is 85 here. -/
theorem C80_formats (q : Nat) :
    Python.gif = .Gif ∧
    Selects Python.bmp imageColorTypes "BmpColorType" .Rgba8 (fun c => .ok (.Bmp c)) ∧
    Selects Python.ico imageColorTypes "IcoColorType" .Rgba8 (fun c => .ok (.Ico c)) ∧
    Selects (Python.webp (some q)) webpPresets "WebPPreset" .Default (fun p => .ok (.WebP q p)) ∧
    (∀ p, Python.webp none p = Python.webp (some 85) p) :=
  ⟨rfl, selects_of C34_bmp_color .Rgba8 fun c => .ok (EncodingFormat.Bmp c),
    selects_of C34_ico_color .Rgba8 fun c => .ok (EncodingFormat.Ico c),
    selects_of C34_webp_preset .Default fun p => .ok (EncodingFormat.WebP q p), fun _ => rfl⟩

/-! ## C81 -/

/-- C81: a new image has the given colour everywhere, or is transparent; an image made from a list
has these pixels row by row, and the list can be read back. -/
theorem C81_new (w h : Nat) (hv : ValidSize w h) :
    (∀ c : Col F, ∃ img, Python.new w h (some c) = .ok img ∧ Shows img.buffer w h fun _ _ => c) ∧
    (∃ img : Image F, Python.new w h none = .ok img ∧ Shows img.buffer w h fun _ _ => Rgb.NONE) ∧
    (∀ px : Nat → Nat → Col F, ∃ img, Python.from_list w h (rows w h px) = .ok img ∧ Shows img.buffer w h px) ∧
    (∀ l : List (Col F), l.length ≠ w * h → ∃ e, Python.from_list w h l = .error e) := by
  refine ⟨fun c => ?_, ?_, fun px => ?_, fun l hl => ?_⟩
  · obtain ⟨b, h1, h2⟩ := (C02_new_with_color w h c).1 hv
    exact ⟨⟨b, none⟩, by simp only [Python.new, Image.new_with_color, h1]; rfl, h2⟩
  · obtain ⟨b, h1, h2⟩ := (C02_new (Rgb.NONE : Col F) w h).1 hv
    exact ⟨⟨b, none⟩, by simp only [Python.new, Image.new, h1]; rfl, h2⟩
  · refine ⟨⟨⟨w, h, rows w h px⟩, none⟩, ?_, rfl, rfl, hv, rfl⟩
    simp only [Python.from_list, Image.new_from_raw, new_from_raw_ok hv (rows_length w h px)]; rfl
  · obtain ⟨e, he⟩ := (C02_new_from_raw w h l).2 fun hc => hl hc.2
    exact ⟨e, by simp only [Python.from_list, Image.new_from_raw, he]; rfl⟩

/-- C81: invalid sizes panic. -/
theorem C81_new_invalid (w h : Nat) (hv : ¬ ValidSize w h) (c : Option (Col F)) :
    Python.new w h c = .error .invalidSize ∧ ∀ l : List (Col F), ∃ e, Python.from_list w h l = .error e := by
  refine ⟨?_, fun l => ?_⟩
  · cases c with
    | some c => simp only [Python.new, Image.new_with_color, (C02_new_with_color w h c).2 hv]; rfl
    | none => simp only [Python.new, Image.new, (C02_new (Rgb.NONE : Col F) w h).2 hv]; rfl
  · obtain ⟨e, he⟩ := (C02_new_from_raw w h l).2 fun hc => hv hc.1
    exact ⟨e, by simp only [Python.from_list, Image.new_from_raw, he]; rfl⟩

/-- C81: `image[x, y]` is the pixel in column `x` and row `y`, an exception that names both (row
first) outside of the image, negative ones included; `image[x, y] = c` writes that pixel only, and
panics outside; `len` is the number of pixels; `to_list` are the pixels row by row. -/
theorem C81_items (img : Image F) (w h : Nat) (px : Nat → Nat → Col F) (hi : Shows img.buffer w h px) :
    Python.to_list img = rows w h px ∧ Python.len img = w * h ∧
    (∀ x y : Nat, x < w → y < h → Python.get_pixel img x y = .ok (some (px x y)) ∧
      returns (Python.getitem img (x, y)) (px x y)) ∧
    (∀ x y : Int, ¬ (0 ≤ x ∧ x < w ∧ 0 ≤ y ∧ y < h) → Python.get_pixel img x y = .ok none ∧
      raises (Python.getitem img (x, y)) ("Array not within range: " ++ toString y ++ "x" ++ toString x)) ∧
    (∀ x y c, x < w → y < h → ∃ img', Python.setitem img (x, y) c = .ok img' ∧ img'.bg_color = img.bg_color ∧
      Shows img'.buffer w h fun x' y' => if x' = x ∧ y' = y then c else px x' y') ∧
    (∀ x y c, ¬ (x < w ∧ y < h) → Python.setitem img (x, y) c = .error .assertion) := by
  have hg : ∀ x y : Int, Python.get_pixel img x y =
      .ok (if 0 ≤ x ∧ x < w ∧ 0 ≤ y ∧ y < h then some (px x.toNat y.toNat) else none) :=
    fun x y => C05_get_pixel_optional hi x y
  refine ⟨hi.pixels, ?_, fun x y hx hy => ?_, fun x y h => ?_, fun x y c hx hy => ?_, fun x y c h => ?_⟩
  · show img.buffer.data.length = _
    rw [hi.pixels, rows_length]
  · have := hg x y
    rw [if_pos (by omega)] at this
    refine ⟨this, ?_⟩
    simp only [Python.getitem, this]
    rfl
  · have := hg x y
    rw [if_neg h] at this
    refine ⟨this, ?_⟩
    simp only [Python.getitem, this]
    rfl
  · obtain ⟨b, h1, h2⟩ := (C03_put_pixel hi x y c).1 ⟨hx, hy⟩
    exact ⟨⟨b, img.bg_color⟩, by simp only [Python.setitem, Image.put_pixel, h1]; rfl, rfl, h2⟩
  · simp only [Python.setitem, Image.put_pixel, (C03_put_pixel hi x y c).2 h]; rfl

theorem asI32_small {n : Nat} (h : n < 2147483648) : asI32 n = n := by
  unfold asI32; rw [Nat.mod_eq_of_lt (by omega), if_pos (by omega)]

theorem collectResult_snd {E α β T : Type} (g : α → T) (f : T → Except E β) (l : List α) :
    PixelBuffer.collectResult (m := Id) f (l.map g) = PixelBuffer.collectResult (m := Id) (fun a => f (g a)) l := by
  induction l with
  | nil => rfl
  | cons a l ih =>
    simp only [List.map_cons, PixelBuffer.collectResult]
    rw [ih]

theorem map_colors_enum {E : Type} {img : Image F} {w h : Nat} {px : Nat → Nat → Col F}
    (hi : Shows img.buffer w h px) (f : Col F → Except E (Col F)) :
    Python.map_colors img f = Python.map_colors_enumerated img fun _ _ c => f c := by
  have hd : img.buffer.data = img.buffer.enumerate.map fun p => p.2.2 := by
    rw [C06_enumerate hi, rows_map, hi.pixels]
  have hc : PixelBuffer.collectResult (m := Id) f img.buffer.data =
      PixelBuffer.collectResult (m := Id) (fun p => f p.2.2) img.buffer.enumerate := by
    conv_lhs => rw [hd]
    exact collectResult_snd _ f _
  let φ (r : Except E (List (Col F))) : Except E (Image F) :=
    r.map fun d => ⟨⟨img.buffer.width, img.buffer.height, d⟩, img.bg_color⟩
  have ha : Python.map_colors img f = φ (PixelBuffer.collectResult (m := Id) f img.buffer.data) := by
    unfold Python.map_colors Image.try_map_colors PixelBuffer.try_map_colors
    generalize PixelBuffer.collectResult (m := Id) f img.buffer.data = r
    cases r <;> rfl
  have hb : Python.map_colors_enumerated img (fun _ _ c => f c) =
      φ (PixelBuffer.collectResult (m := Id) (fun p => f p.2.2) img.buffer.enumerate) := by
    have : ∀ r : Except E (List (Col F)), (do
        let b ← (do let d ← r; return ⟨img.buffer.width, img.buffer.height, d⟩)
        return Image.new_from_buffer_with_meta img b) = φ r := by
      intro r; cases r <;> rfl
    exact this _
  rw [ha, hb, hc]

/-- C81: calling a Python function for every pixel gives an image of the same size with its results;
if it raises, the first exception (row by row) is raised, and there is no image. The function gets
the column and the row. -/
theorem C81_map (img : Image F) (w h : Nat) (px : Nat → Nat → Col F) (hi : Shows img.buffer w h px)
    (E : Type) (f : Int → Int → Col F → Except E (Col F)) :
    (∀ g : Nat → Nat → Col F, (∀ x y : Nat, x < w → y < h → f x y (px x y) = .ok (g x y)) →
      ∃ img', Python.map_colors_enumerated img f = .ok img' ∧ img'.bg_color = img.bg_color ∧
        Shows img'.buffer w h g) ∧
    (∀ (x y : Nat) e, x < w → y < h → f x y (px x y) = .error e →
      (∀ x' y' : Nat, x' < w → y' < h → Before x' y' x y → ∃ c, f x' y' (px x' y') = .ok c) →
      Python.map_colors_enumerated img f = .error e) ∧
    (∀ k : Col F → Except E (Col F), Python.map_colors img k = Python.map_colors_enumerated img fun _ _ c => k c) := by
  have hw := hi.size.width_le
  have hh := hi.size.height_le
  have hs := C08_try_map_colors_enumerated hi fun x y c => f (asI32 x) (asI32 y) c
  refine ⟨fun g hg => ?_, fun x y e hx hy he hpre => ?_, fun k => map_colors_enum hi k⟩
  · obtain ⟨b, h1, h2⟩ := hs.1 g fun x y hx hy => by
      rw [asI32_small (by omega), asI32_small (by omega)]; exact hg x y hx hy
    exact ⟨⟨b, img.bg_color⟩, by
      simp only [Python.map_colors_enumerated, Image.try_map_colors_enumerated, h1]; rfl, rfl, h2⟩
  · have := hs.2 x y e hx hy (by rw [asI32_small (by omega), asI32_small (by omega)]; exact he)
      fun x' y' hx' hy' hb => by
        rw [asI32_small (by omega), asI32_small (by omega)]; exact hpre x' y' hx' hy' hb
    simp only [Python.map_colors_enumerated, Image.try_map_colors_enumerated, this]
    rfl

theorem tryModLoop_enum {E : Type} (b : PixelBuffer (Col F)) (f : Col F → Except E (Col F))
    (l : List (Nat × Nat × Col F)) (done : List (Col F)) :
    PixelBuffer.try_mod_colors_enumerated.go b (fun _ _ c => f c) done l =
      (({ b with data := (PixelBuffer.tryModLoop (m := Id) f done (l.map fun p => p.2.2)).1 },
        (PixelBuffer.tryModLoop (m := Id) f done (l.map fun p => p.2.2)).2) :
        PixelBuffer (Col F) × Except E Unit) := by
  induction l generalizing done with
  | nil => rfl
  | cons a l ih =>
    obtain ⟨x, y, c⟩ := a
    unfold PixelBuffer.try_mod_colors_enumerated.go
    simp only [List.map_cons, PixelBuffer.tryModLoop]
    cases hf : f c with
    | error e => simp [bind]; exact ⟨rfl, rfl⟩
    | ok v =>
      simp only
      rw [ih]
      simp [bind]

/-- C81: changing every pixel in place: the same, but if the function raises, the pixels before that
one have been changed already. -/
theorem C81_mod (img : Image F) (w h : Nat) (px : Nat → Nat → Col F) (hi : Shows img.buffer w h px)
    (E : Type) (f : Int → Int → Col F → Except E (Col F)) (g : Nat → Nat → Col F) :
    ((∀ x y : Nat, x < w → y < h → f x y (px x y) = .ok (g x y)) →
      ∃ img', Python.mod_colors_enumerated img f = (img', .ok ()) ∧ img'.bg_color = img.bg_color ∧
        Shows img'.buffer w h g) ∧
    (∀ (x y : Nat) e, x < w → y < h → f x y (px x y) = .error e →
      (∀ x' y' : Nat, x' < w → y' < h → Before x' y' x y → f x' y' (px x' y') = .ok (g x' y')) →
      ∃ img', Python.mod_colors_enumerated img f = (img', .error e) ∧ img'.bg_color = img.bg_color ∧
        ∀ x' y' : Nat, x' < w → y' < h →
          (Before x' y' x y → img'.get_pixel x' y' = .ok (g x' y')) ∧
          (¬ Before x' y' x y → img'.get_pixel x' y' = .ok (px x' y'))) ∧
    (∀ k : Col F → Except E (Col F), Python.mod_colors img k = Python.mod_colors_enumerated img fun _ _ c => k c) := by
  have hw := hi.size.width_le
  have hh := hi.size.height_le
  have hs := C08_try_mod_colors_enumerated hi (fun x y c => f (asI32 x) (asI32 y) c) g
  refine ⟨fun hg => ?_, fun x y e hx hy he hpre => ?_, fun k => ?_⟩
  · obtain ⟨h1, h2⟩ := hs.1 fun x y hx hy => by
      rw [asI32_small (by omega), asI32_small (by omega)]; exact hg x y hx hy
    refine ⟨⟨(img.buffer.try_mod_colors_enumerated fun x y c => f (asI32 x) (asI32 y) c).1, img.bg_color⟩,
      ?_, rfl, h2⟩
    rw [← h1]; rfl
  · obtain ⟨h1, h2, h3⟩ := hs.2 x y e hx hy
      (by rw [asI32_small (by omega), asI32_small (by omega)]; exact he)
      fun x' y' hx' hy' hb => by
        rw [asI32_small (by omega), asI32_small (by omega)]; exact hpre x' y' hx' hy' hb
    refine ⟨⟨(img.buffer.try_mod_colors_enumerated fun x y c => f (asI32 x) (asI32 y) c).1, img.bg_color⟩,
      ?_, rfl, fun x' y' hx' hy' => ⟨h2 x' y' hx' hy', h3 x' y' hx' hy'⟩⟩
    rw [← h1]; rfl
  · have hd : img.buffer.enumerate.map (fun p => p.2.2) = img.buffer.data := by
      rw [C06_enumerate hi, rows_map, hi.pixels]
    have := tryModLoop_enum img.buffer k img.buffer.enumerate []
    rw [hd] at this
    show _ = (let (buffer, res) := img.buffer.try_mod_colors_enumerated (fun _ _ c => k c)
      (({ img with buffer }, res) : Image F × Except E Unit))
    unfold PixelBuffer.try_mod_colors_enumerated
    rw [this]
    rfl

/-- C81: `compose` calls a Python function at every position of the largest width and height with the
pixels of all images there, transparent black (or the given colour) where an image has none. -/
theorem C81_compose (first : Image F) (rest : List (Image F)) (E : Type)
    (f : Nat → Nat → List (Col F) → Except E (Col F)) (d : Option (Col F))
    (hb : ∀ i ∈ first :: rest, WellFormed i.buffer) (W H : Nat)
    (hW : (∃ i ∈ first :: rest, i.width = W) ∧ ∀ i ∈ first :: rest, i.width ≤ W)
    (hH : (∃ i ∈ first :: rest, i.height = H) ∧ ∀ i ∈ first :: rest, i.height ≤ H) (hv : ValidSize W H)
    (g : Nat → Nat → Col F)
    (hg : ∀ x y, x < W → y < H →
      f x y ((first :: rest).map fun i => pixelOr (d.getD Rgb.NONE) i.buffer x y) = .ok (g x y)) :
    ∃ img, Python.compose (first :: rest) f d = .ok (.ok img) ∧ img.bg_color = first.bg_color ∧
      Shows img.buffer W H g := by
  have hm : ∀ {p : PixelBuffer (Col F) → Prop}, (∀ b ∈ (first :: rest).map (fun i => i.buffer), p b) ↔
      ∀ i ∈ first :: rest, p i.buffer := by
    intro p; simp
  have hx : ∀ {p : PixelBuffer (Col F) → Prop}, (∃ i ∈ first :: rest, p i.buffer) →
      ∃ b ∈ (first :: rest).map (fun i => i.buffer), p b := by
    rintro p ⟨i, h1, h2⟩; exact ⟨_, List.mem_map.2 ⟨i, h1, rfl⟩, h2⟩
  obtain ⟨b, h1, h2⟩ := ((C38_try_compose (d.getD Rgb.NONE) ((first :: rest).map fun i => i.buffer)
    (hm.2 hb) W H ⟨hx hW.1, hm.2 hW.2⟩ ⟨hx hH.1, hm.2 hH.2⟩ f).1 hv).1 g
    (fun x y hx hy => by rw [List.map_map]; exact hg x y hx hy)
  refine ⟨⟨b, first.bg_color⟩, ?_, rfl, h2⟩
  unfold Python.compose
  rw [(C65_compose first rest (d.getD Rgb.NONE)).2 E _, h1]
  rfl

/-- C81: without images, `compose` panics. -/
theorem C81_compose_none (E : Type) (f : Nat → Nat → List (Col F) → Except E (Col F)) (d : Option (Col F)) :
    Python.compose [] f d = .error .assertion := rfl

/-! ## C82 -/

/-- C82: a colour object has the given values (clamped for the classes `Rgb` and `Srgb`, as the library
does) and is opaque unless an alpha is given. -/
theorem C82_new (s : Space) (a b c : F) :
    (∀ alpha, color_new s a b c (some alpha) = new_with_alpha s a b c alpha) ∧
    color_new s a b c none = new_with_alpha s a b c (lit 1) ∧
    (∀ alpha, s ≠ .rgb → s ≠ .srgb → color_new s a b c (some alpha) = ⟨a, b, c, alpha⟩) := by
  refine ⟨fun _ => rfl, rfl, fun alpha h1 h2 => ?_⟩
  cases s <;> first | exact absurd rfl h1 | exact absurd rfl h2 | rfl

theorem byReference_of {β : Type} {kind : String} (make : Illuminant → Observer → β)
    {call : Option String → Option String → Py β}
    (hc : ∀ i o, call i o = match reference (i.getD "D65") (o.getD "2") with
      | some (ill, obs) => pure (make ill obs)
      | none => throw ("Unsupported " ++ kind ++ " type: " ++ i.getD "D65" ++ " " ++ o.getD "2")) :
    ByReference call kind make := by
  refine ⟨fun i o ill obs h => ?_, fun i o h => ?_⟩
  · rw [hc]
    have : reference (i.getD "D65") (o.getD "2") = some (ill, obs) := by
      generalize i.getD "D65" = i' at h
      generalize o.getD "2" = o' at h
      simp only [references, List.mem_cons, List.not_mem_nil, or_false, Prod.mk.injEq] at h
      rcases h with ⟨rfl, rfl, rfl, rfl⟩ | ⟨rfl, rfl, rfl, rfl⟩ | ⟨rfl, rfl, rfl, rfl⟩ |
        ⟨rfl, rfl, rfl, rfl⟩ | ⟨rfl, rfl, rfl, rfl⟩ | ⟨rfl, rfl, rfl, rfl⟩ <;> rfl
    simp only [this]
    rfl
  · rw [hc]
    have : reference (i.getD "D65") (o.getD "2") = none := by
      generalize i.getD "D65" = i' at h
      generalize o.getD "2" = o' at h
      unfold reference
      split <;> first | rfl | (exfalso; revert h; decide)
    simp only [this]
    rfl

/-- C82: the constructors `Lab` and `Lch` take the white point by name. -/
theorem C82_reference (a b c : F) (alpha : Option F) :
    ByReference (fun i o => Python.lab a b c alpha i o) "Lab"
      (fun i o => (.lab i o, ⟨a, b, c, alpha.getD (lit 1)⟩)) ∧
    ByReference (fun i o => Python.lch a b c alpha i o) "Lch"
      (fun i o => (.lch i o, ⟨a, b, c, alpha.getD (lit 1)⟩)) :=
  ⟨byReference_of _ fun i o => by
      unfold Python.lab
      dsimp only
      cases reference (i.getD "D65") (o.getD "2") <;> rfl,
    byReference_of _ fun i o => by
      unfold Python.lch
      dsimp only
      cases reference (i.getD "D65") (o.getD "2") <;> rfl⟩

/-- C82: so do the conversions to Lab and LCh of all classes. -/
theorem C82_convert (s : Space) (c : Col F) :
    ByReference (color_to_lab s c) "Lab" (fun i o => (.lab i o, to_lab i o s c)) ∧
    ByReference (color_to_lch s c) "Lch" (fun i o => (.lch i o, to_lch i o s c)) :=
  ⟨byReference_of _ fun i o => by
      unfold color_to_lab
      dsimp only
      cases reference (i.getD "D65") (o.getD "2") <;> rfl,
    byReference_of _ fun i o => by
      unfold color_to_lch
      dsimp only
      cases reference (i.getD "D65") (o.getD "2") <;> rfl⟩

/-- C82: `to_gray` takes the name of an intensity; without one it is the default intensity. -/
theorem C82_to_gray (c : Col F) :
    Selects (Python.to_gray c) intensities "Intensity" .Rec709Luma
      (fun i => .ok (Rgb.to_gray_with_intensity c i)) := by
  refine ⟨forwards_ofR (.ok _), fun p h => ?_, fun name h => ?_⟩
  · have := (C34_intensity.accepts p.1 p.2).2 h
    simp only [Python.to_gray, this]
    exact forwards_ofR (.ok _)
  · have := (C34_intensity.rejects name ⟨name, "Intensity"⟩).2 ⟨h, rfl⟩
    simp only [Python.to_gray, this]
    rfl

/-! ## Examples -/

section examples

/-- Two pixels side by side. -/
theorem pair_shows (a b : Col F) :
    Shows (⟨2, 1, [a, b]⟩ : PixelBuffer (Col F)) 2 1 fun x _ => if x = 0 then a else b :=
  ⟨rfl, rfl, by simp [ValidSize], rfl⟩

example (img : Image F) := (C80_filters img).2.1 5 5 |>.unknown "cubic" (by decide)
example (img : Image F) := (C80_options img img).1.named ("laplace", .Laplace) (by decide)
example := C80_png.2.2.2.2.2.2.1 ("l16", .L16) (by decide) "max" none (by decide)
example := (C80_jpeg 90 true false true).1.named ("4:2:0", some .R_4_2_0) (by decide)
example := C81_new (F := F) 3 4 (by simp [ValidSize])
example (c : Option (Col F)) := C81_new_invalid 3 0 (by simp [ValidSize]) c
example (a b : Col F) := (C81_items ⟨_, none⟩ 2 1 _ (pair_shows a b)).2.2.2.1 (-1) 0 (by simp)
/-- A function that raises at the second pixel. -/
example (a b : Col F) := (C81_mod ⟨_, none⟩ 2 1 _ (pair_shows a b) String
  (fun x _ c => if x = 1 then .error "stop" else .ok c) (fun _ _ => a)).2.1 1 0 "stop" (by decide) (by decide)
  rfl (by intro x y hx hy hb; obtain rfl : x = 0 := by (simp [Before] at hb; omega)
          rfl)
example (a b : Col F) := (C81_map ⟨_, none⟩ 2 1 _ (pair_shows a b) String
  (fun x _ c => if x = 1 then .error "stop" else .ok c)).2.1 1 0 "stop" (by decide) (by decide)
  rfl (by intro x y hx hy hb; obtain rfl : x = 0 := by (simp [Before] at hb; omega)
          exact ⟨_, rfl⟩)
example (a b : Col F) := C81_compose ⟨⟨2, 1, [a, b]⟩, none⟩ [⟨⟨1, 1, [b]⟩, none⟩] String
  (fun _ _ l => match l with | [_, y] => .ok y | _ => .error "count") none
  (by intro i hi
      rcases List.mem_cons.1 hi with rfl | hi
      · exact ⟨by simp [ValidSize], rfl⟩
      · rw [List.mem_singleton.1 hi]; exact ⟨by simp [ValidSize], rfl⟩) 2 1
  (by simp [Image.width]) (by simp [Image.height]) (by simp [ValidSize])
  (fun x y => pixelOr Rgb.NONE ⟨1, 1, [b]⟩ x y) (fun _ _ _ _ => rfl)
example (a b c : F) := (C82_reference a b c none).1.known (some "D50") none .D50 .O2 (by decide)
example (a b c : F) := (C82_reference a b c none).2.unknown (some "F11") none (by decide)
example (c : Col F) := (C82_convert .hsl c).2.known (some "E") (some "10") .E .O10 (by decide)

end examples

end D10
