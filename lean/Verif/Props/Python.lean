import Verif.Props.Hsl
import Verif.Props.Srgb
import Verif.Props.Lab
import Verif.Props.Tone
import Verif.Props.Quant
import Verif.Props.Image
import Verif.Props.Options
import Verif.SpecPython

/-!
# The Python binding

* C67: NumPy export and import
-/

namespace D10
open Spec Python
open Scalar (isNan)

variable {F D : Type} [Scalar F] [Scalar D] [Widen F D]

/-! ## Arrays -/

theorem cube_eq {α : Type} (h w n : Nat) (e : Nat → Nat → Nat → α) :
    cube h w n e = (rows w h fun x y => (x, y)).flatMap fun p => (List.range n).map (e p.2 p.1) := by
  simp only [cube, rows, List.flatMap_assoc, List.flatMap_map]

theorem rows_cube {α : Type} (h w n : Nat) (e : Nat → Nat → Nat → α) :
    (rows w h fun x y => (List.range n).map (e y x)).flatten = cube h w n e := by
  simp only [cube, rows, List.flatten_eq_flatMap, List.flatMap_assoc, List.flatMap_map, id]

theorem cube_length {α : Type} (h w n : Nat) (e : Nat → Nat → Nat → α) :
    (cube h w n e).length = h * w * n := by
  simp [cube, List.length_flatMap, Nat.mul_assoc]

theorem cube_map {α β : Type} (h w n : Nat) (e : Nat → Nat → Nat → α) (f : α → β) :
    (cube h w n e).map f = cube h w n fun y x k => f (e y x k) := by
  simp only [cube, List.map_flatMap, List.map_map]; rfl

theorem cube_congr {α : Type} {h w n : Nat} {e e' : Nat → Nat → Nat → α}
    (he : ∀ y x k, y < h → x < w → k < n → e y x k = e' y x k) : cube h w n e = cube h w n e' := by
  unfold cube
  refine List.flatMap_congr fun y hy => List.flatMap_congr fun x hx => List.map_congr_left fun k hk => ?_
  exact he y x k (List.mem_range.1 hy) (List.mem_range.1 hx) (List.mem_range.1 hk)

omit [Scalar F] in
theorem export_values (w h n : Nat) (px : Nat → Nat → Col F) (f : Col F → List F)
    (v : Col F → Nat → F) (hf : ∀ c, f c = (List.range n).map (v c)) :
    (rows w h px).flatMap f = cube h w n fun y x k => v (px x y) k := by
  simp only [cube, rows, List.flatMap_assoc, List.flatMap_map, hf]

omit [Scalar F] in
theorem chunked4_flatMap {α : Type} (l : List α) (e : α → Nat → F) :
    chunked4 (l.flatMap fun p => (List.range 4).map (e p)) =
      l.map fun p => (e p 0, e p 1, e p 2, e p 3) := by
  induction l with
  | nil => rfl
  | cons a l ih =>
    rw [List.flatMap_cons]
    show chunked4 ([e a 0, e a 1, e a 2, e a 3] ++ _) = _
    simp only [List.cons_append, List.nil_append, chunked4, List.map_cons, ih]

omit [Scalar F] in
theorem chunked3_flatMap {α : Type} (l : List α) (e : α → Nat → F) :
    chunked3 (l.flatMap fun p => (List.range 3).map (e p)) =
      l.map fun p => (e p 0, e p 1, e p 2) := by
  induction l with
  | nil => rfl
  | cons a l ih =>
    rw [List.flatMap_cons]
    show chunked3 ([e a 0, e a 1, e a 2] ++ _) = _
    simp only [List.cons_append, List.nil_append, chunked3, List.map_cons, ih]

omit [Scalar F] in
theorem chunked4_cube (h w : Nat) (e : Nat → Nat → Nat → F) :
    chunked4 (cube h w 4 e) = rows w h fun x y => (e y x 0, e y x 1, e y x 2, e y x 3) := by
  rw [cube_eq, chunked4_flatMap _ (fun p : Nat × Nat => e p.2 p.1), rows_map]

omit [Scalar F] in
theorem chunked3_cube (h w : Nat) (e : Nat → Nat → Nat → F) :
    chunked3 (cube h w 3 e) = rows w h fun x y => (e y x 0, e y x 1, e y x 2) := by
  rw [cube_eq, chunked3_flatMap _ (fun p : Nat × Nat => e p.2 p.1), rows_map]

theorem cube_one {α : Type} (h w : Nat) (e : Nat → Nat → Nat → α) :
    cube h w 1 e = rows w h fun x y => e y x 0 := by
  rw [cube_eq]
  show (rows w h fun x y => (x, y)).flatMap (fun p => [e p.2 p.1 0]) = _
  rw [← List.map_eq_flatMap, rows_map]

/-! ## C67 Names -/

/-- C67: a data type may be given as one of six strings or as a type object; without one it is
`float32`. Everything else raises, and the message repeats what was given. -/
theorem C67_data_types :
    returns (extract_data_type none) .Float32 ∧
    (∀ p ∈ typeNames, returns (extract_data_type (some (.str p.1))) p.2) ∧
    (∀ s, s ∉ typeNames.map (·.1) →
      raises (extract_data_type (some (.str s))) ("Unsupported data type: \"" ++ s ++ "\"")) ∧
    (∀ p ∈ typeObjects, returns (extract_data_type (some (.obj p.1))) p.2) ∧
    (∀ s, s ∉ typeObjects.map (·.1) →
      raises (extract_data_type (some (.obj s))) ("Unsupported data type: " ++ s)) := by
  refine ⟨rfl, ?_, ?_, ?_, ?_⟩
  · intro p hp
    simp only [typeNames, List.mem_cons, List.not_mem_nil, or_false] at hp
    rcases hp with rfl | rfl | rfl | rfl | rfl | rfl <;> rfl
  · intro s hs
    simp only [typeNames, List.map_cons, List.map_nil, List.mem_cons, List.not_mem_nil, or_false,
      not_or] at hs
    obtain ⟨h1, h2, h3, h4, h5, h6⟩ := hs
    unfold extract_data_type raises
    simp only
    rfl
  · intro p hp
    simp only [typeObjects, List.mem_cons, List.not_mem_nil, or_false] at hp
    rcases hp with rfl | rfl | rfl | rfl | rfl | rfl | rfl | rfl <;> rfl
  · intro s hs
    simp only [typeObjects, List.map_cons, List.map_nil, List.mem_cons, List.not_mem_nil, or_false,
      not_or] at hs
    obtain ⟨h1, h2, h3, h4, h5, h6, h7, h8⟩ := hs
    unfold extract_data_type raises
    simp only
    rfl

theorem export_color_model {name : String} {s : Space} (hm : (name, s) ∈ colourModels) :
    (∃ f : Col F → List F, export_color name = some (3, f) ∧
      ∀ c, f c = (List.range 3).map (value (convert .rgb s c))) ∧
    (∃ f : Col F → List F, export_color (name ++ "a") = some (4, f) ∧
      ∀ c, f c = (List.range 4).map (value (convert .rgb s c))) := by
  simp only [colourModels, List.mem_cons, List.not_mem_nil, or_false, Prod.mk.injEq] at hm
  rcases hm with ⟨rfl, rfl⟩ | ⟨rfl, rfl⟩ | ⟨rfl, rfl⟩ | ⟨rfl, rfl⟩ | ⟨rfl, rfl⟩ | ⟨rfl, rfl⟩ |
    ⟨rfl, rfl⟩ | ⟨rfl, rfl⟩ <;>
  exact ⟨⟨_, rfl, fun _ => rfl⟩, ⟨_, rfl, fun _ => rfl⟩⟩

theorem export_color_known {s : String} {r : Nat × (Col F → List F)} (h : export_color s = some r) :
    s = "gray" ∨ ∃ p ∈ colourModels, s = p.1 ∨ s = p.1 ++ "a" := by
  unfold export_color at h
  split at h
  case h_18 => cases h
  case h_11 => exact .inl rfl
  all_goals
    refine .inr ?_
    first
    | exact ⟨("rgb", .rgb), by decide, by decide⟩
    | exact ⟨("srgb", .srgb), by decide, by decide⟩
    | exact ⟨("hsl", .hsl), by decide, by decide⟩
    | exact ⟨("hsv", .hsv), by decide, by decide⟩
    | exact ⟨("yuv", .yuv), by decide, by decide⟩
    | exact ⟨("xyz", .xyz), by decide, by decide⟩
    | exact ⟨("lab", .lab .D65 .O2), by decide, by decide⟩
    | exact ⟨("lch", .lch .D65 .O2), by decide, by decide⟩

/-! ## C67 Export -/

theorem py_pure_bind {α β : Type} (a : α) (f : α → Py β) : ((pure a : Py α) >>= f) = f a := rfl

theorem to_np_array_of {img : Image F} {w h n : Nat} {px : Nat → Nat → Col F}
    (hi : Shows img.buffer w h px) {t : DataType} {dt : Option PyDtype}
    (ht : returns (extract_data_type dt) t) {cs : Option String} {f : Col F → List F}
    (hc : export_color (cs.getD "rgba") = some (n, f)) (v : Col F → Nat → F)
    (hf : ∀ c, f c = (List.range n).map (v c)) :
    returns (to_np_array D img cs dt) (exported h w n (fun y x k => v (px x y) k) t) := by
  have hd : img.buffer.data.flatMap f = cube h w n fun y x k => v (px x y) k := by
    rw [hi.pixels, export_values w h n px f v hf]
  unfold returns to_np_array
  rw [show extract_data_type dt = (pure t : Py DataType) from ht]
  simp only [py_pure_bind, hc, hd]
  have hw : img.width = w := hi.width
  have hh : img.height = h := hi.height
  rw [hh, hw, if_pos (cube_length h w n _)]
  cases t <;> simp only [export_data, exported, cube_map] <;> rfl

/-- C67: exporting gives an array of shape (height, width, channels) whose element `[y, x, k]` is
value `k` of the pixel in column `x` and row `y`, in the colour space that was asked for; a name
ending in `a` adds alpha. The element type decides how values are written (`exported`). -/
theorem C67_export (img : Image F) (w h : Nat) (px : Nat → Nat → Col F)
    (hi : Shows img.buffer w h px) (name : String) (s : Space) (hm : (name, s) ∈ colourModels)
    (dt : Option PyDtype) (t : DataType) (ht : returns (extract_data_type dt) t) :
    returns (to_np_array D img (some name) dt)
      (exported h w 3 (fun y x k => value (convert .rgb s (px x y)) k) t) ∧
    returns (to_np_array D img (some (name ++ "a")) dt)
      (exported h w 4 (fun y x k => value (convert .rgb s (px x y)) k) t) := by
  obtain ⟨⟨f, hf, hf'⟩, ⟨g, hg, hg'⟩⟩ := export_color_model (F := F) hm
  exact ⟨to_np_array_of (cs := some name) hi ht hf (fun c => value (convert .rgb s c)) hf',
    to_np_array_of (cs := some (name ++ "a")) hi ht hg (fun c => value (convert .rgb s c)) hg'⟩

/-- C67: `gray` exports one value per pixel, the grey level of the colour; without a name the
colours are exported as RGB with alpha. -/
theorem C67_export_gray (img : Image F) (w h : Nat) (px : Nat → Nat → Col F)
    (hi : Shows img.buffer w h px) (dt : Option PyDtype) (t : DataType)
    (ht : returns (extract_data_type dt) t) :
    returns (to_np_array D img (some "gray") dt)
      (exported h w 1 (fun y x _ => (Rgb.to_gray (px x y)).c0) t) ∧
    returns (to_np_array D img none dt) (exported h w 4 (fun y x k => value (px x y) k) t) :=
  ⟨to_np_array_of hi ht rfl (fun c _ => (Rgb.to_gray c).c0) fun _ => rfl,
    to_np_array_of hi ht rfl value fun _ => rfl⟩

/-- C67: a bad data type raises whatever the colour space; with a good one, an unknown colour space
raises. -/
theorem C67_export_errors (img : Image F) (cs : Option String) (dt : Option PyDtype) :
    (∀ m, raises (extract_data_type dt) m → raises (to_np_array D img cs dt) m) ∧
    (∀ t name, returns (extract_data_type dt) t → name ≠ "gray" →
      (∀ p ∈ colourModels, name ≠ p.1 ∧ name ≠ p.1 ++ "a") →
      raises (to_np_array D img (some name) dt) ("Unknown colorspace: " ++ name)) := by
  constructor
  · intro m hm
    unfold raises to_np_array
    rw [show extract_data_type dt = (throw m : Py DataType) from hm]
    rfl
  · intro t name ht hg hn
    have : export_color (F := F) name = none := by
      by_contra hc
      obtain ⟨r, hr⟩ := Option.ne_none_iff_exists'.1 hc
      rcases export_color_known hr with h | ⟨p, hp, h | h⟩
      · exact hg h
      · exact (hn p hp).1 h
      · exact (hn p hp).2 h
    unfold raises to_np_array
    rw [show extract_data_type dt = (pure t : Py DataType) from ht]
    simp only [py_pure_bind, Option.getD_some, this]
    rfl

/-- The element at `[y, x, k]` of an array of shape `(h, w, n)` is where NumPy looks for it. -/
theorem C67_element {α : Type} (h w n : Nat) (e : Nat → Nat → Nat → α) (y x k : Nat) (hy : y < h)
    (hx : x < w) (hk : k < n) : (cube h w n e)[(y * w + x) * n + k]? = some (e y x k) := by
  have key : ∀ (l : List (Nat × Nat)) (i : Nat) (p : Nat × Nat), l[i]? = some p →
      (l.flatMap fun p => (List.range n).map (e p.2 p.1))[i * n + k]? = some (e p.2 p.1 k) := by
    intro l
    induction l with
    | nil => intro i p h; simp at h
    | cons a l ih =>
      intro i p hp
      rw [List.flatMap_cons]
      cases i with
      | zero =>
        have : a = p := by simpa using hp
        subst this
        rw [List.getElem?_append_left (by simp; omega)]
        simp [hk]
      | succ i =>
        rw [List.getElem?_append_right (by simp; nlinarith)]
        rw [show (i + 1) * n + k - ((List.range n).map (e a.2 a.1)).length = i * n + k by
          simp; rw [Nat.add_mul, Nat.one_mul]; omega]
        exact ih i p (by simpa using hp)
  rw [cube_eq]
  refine key _ _ (x, y) ?_
  rw [Nat.add_comm, rows_getElem? _ hx hy]

/-! ## C67 Import -/

theorem from_np_array_numbers (a : NpArray F D) (cs : Option String) (l : List F)
    (hn : ElementValues a.data l) : from_np_array a cs = from_np_array_iter a.dims l cs := by
  obtain ⟨dims, data⟩ := a
  cases hn <;> rfl

omit [Scalar F] in
theorem finish_import {w h : Nat} (hv : ValidSize w h) (px : Nat → Nat → Col F) :
    ∃ img : Image F, (do
      Py.ofR (assert (w * h == (rows w h px).length))
      Py.ofR (Image.new_from_raw (w % 2 ^ 32) (h % 2 ^ 32) (rows w h px)) : Py (Image F)) =
        .ok (.ok img) ∧ Shows img.buffer w h px ∧ img.bg_color = none := by
  have h1 : w < 2 ^ 32 := by
    rcases hv with ⟨rfl, -⟩ | ⟨h1, h2, h3⟩
    · norm_num
    · nlinarith
  have h2 : h < 2 ^ 32 := by
    rcases hv with ⟨-, rfl⟩ | ⟨h1, h2, h3⟩
    · norm_num
    · nlinarith
  refine ⟨⟨⟨w, h, rows w h px⟩, none⟩, ?_, ⟨rfl, rfl, hv, rfl⟩, rfl⟩
  rw [Nat.mod_eq_of_lt h1, Nat.mod_eq_of_lt h2, rows_length]
  unfold Image.new_from_raw
  rw [new_from_raw_ok hv (rows_length w h px)]
  simp [assert, Py.ofR]
  rfl

/-- C67: an array of shape (height, width, 4) becomes an image of that width and height; the pixel
in column `x` and row `y` is the colour with the values `[y, x, 0]` to `[y, x, 3]` in the named
colour space (`auto`, the default, is `rgb`; the final `a` is optional). -/
theorem C67_import_alpha (a : NpArray F D) (w h : Nat) (v : Nat → Nat → Nat → F) (hv : ValidSize w h)
    (hd : a.dims = [h, w, 4]) (hn : ElementValues a.data (cube h w 4 v)) (name : String) (s : Space)
    (hm : (name, s) ∈ colourModels) (hl : name ≠ "lch") (cs : Option String)
    (hc : cs = some name ∨ cs = some (name ++ "a") ∨ (name = "rgb" ∧ (cs = some "auto" ∨ cs = none))) :
    ∃ img, returns (from_np_array a cs) img ∧ img.bg_color = none ∧ Shows img.buffer w h fun x y =>
      to_rgb s (new_with_alpha s (v y x 0) (v y x 1) (v y x 2) (v y x 3)) := by
  have hs : import_space4 (cs.getD "auto") = some s := by
    simp only [colourModels, List.mem_cons, List.not_mem_nil, or_false, Prod.mk.injEq] at hm
    rcases hm with ⟨rfl, rfl⟩ | ⟨rfl, rfl⟩ | ⟨rfl, rfl⟩ | ⟨rfl, rfl⟩ | ⟨rfl, rfl⟩ | ⟨rfl, rfl⟩ |
      ⟨rfl, rfl⟩ | ⟨rfl, rfl⟩
    case inr.inr.inr.inr.inr.inr.inr => exact absurd rfl hl
    all_goals rcases hc with rfl | rfl | ⟨hx, rfl | rfl⟩ <;> first | rfl | exact absurd hx (by decide)
  obtain ⟨img, h1, h2, h3⟩ := finish_import hv fun x y =>
    to_rgb s (new_with_alpha s (v y x 0) (v y x 1) (v y x 2) (v y x 3))
  refine ⟨img, ?_, h3, h2⟩
  unfold returns
  rw [from_np_array_numbers a cs _ hn, hd]
  refine Eq.trans ?_ h1
  unfold from_np_array_iter
  simp only [hs, chunked4_cube, rows_map]
  rfl

/-- C67: the same for three values per pixel; the image is opaque. -/
theorem C67_import (a : NpArray F D) (w h : Nat) (v : Nat → Nat → Nat → F) (hv : ValidSize w h)
    (hd : a.dims = [h, w, 3]) (hn : ElementValues a.data (cube h w 3 v)) (name : String) (s : Space)
    (hm : (name, s) ∈ colourModels) (cs : Option String)
    (hc : cs = some name ∨ (name = "rgb" ∧ (cs = some "auto" ∨ cs = none))) :
    ∃ img, returns (from_np_array a cs) img ∧ img.bg_color = none ∧ Shows img.buffer w h fun x y =>
      to_rgb s { new_with_alpha s (v y x 0) (v y x 1) (v y x 2) (lit 1) with alpha := lit 1 } := by
  have hs : import_space3 (cs.getD "auto") = some s := by
    simp only [colourModels, List.mem_cons, List.not_mem_nil, or_false, Prod.mk.injEq] at hm
    rcases hm with ⟨rfl, rfl⟩ | ⟨rfl, rfl⟩ | ⟨rfl, rfl⟩ | ⟨rfl, rfl⟩ | ⟨rfl, rfl⟩ | ⟨rfl, rfl⟩ |
      ⟨rfl, rfl⟩ | ⟨rfl, rfl⟩
    all_goals rcases hc with rfl | ⟨hx, rfl | rfl⟩ <;> first | rfl | exact absurd hx (by decide)
  obtain ⟨img, h1, h2, h3⟩ := finish_import hv fun x y =>
    to_rgb s { new_with_alpha s (v y x 0) (v y x 1) (v y x 2) (lit 1) with alpha := lit 1 }
  refine ⟨img, ?_, h3, h2⟩
  unfold returns
  rw [from_np_array_numbers a cs _ hn, hd]
  refine Eq.trans ?_ h1
  have hnew : ∀ p q r : F, new_opaque s p q r = { new_with_alpha s p q r (lit 1) with alpha := lit 1 } := by
    intro p q r; cases s <;> rfl
  unfold from_np_array_iter
  simp only [hs, chunked3_cube, rows_map, hnew]
  rfl

/-- C67: one value per pixel, in an array with two dimensions or with a third of length 1, is a grey
level; the image is opaque. -/
theorem C67_import_gray [LawfulScalar F] (a : NpArray F D) (w h : Nat) (v : Nat → Nat → F)
    (hv : ValidSize w h)
    (hd : a.dims = [h, w, 1] ∨ a.dims = [h, w]) (hn : ElementValues a.data (rows w h fun x y => v y x))
    (cs : Option String) (hc : cs = some "gray" ∨ cs = some "auto" ∨ cs = none) :
    ∃ img, returns (from_np_array a cs) img ∧ img.bg_color = none ∧ Shows img.buffer w h fun x y =>
      ⟨clamp01 (v y x), clamp01 (v y x), clamp01 (v y x), lit 1⟩ := by
  have h1 : clamp01 (lit 1 : F) = lit 1 :=
    clamp01_id (LawfulScalar.lit_mono _ _ (by norm_num)) (LawfulScalar.lit_mono _ _ (by norm_num))
  obtain ⟨img, e1, e2, e3⟩ := finish_import hv fun x y =>
    (⟨clamp01 (v y x), clamp01 (v y x), clamp01 (v y x), lit 1⟩ : Col F)
  refine ⟨img, ?_, e3, e2⟩
  unfold returns
  rw [from_np_array_numbers a cs _ hn]
  refine Eq.trans ?_ e1
  unfold from_np_array_iter
  rcases hd with hd | hd <;> rcases hc with rfl | rfl | rfl <;> rw [hd] <;>
    simp only [rows_map, Rgb.new_with_alpha, h1] <;> rfl

/-- C67, a defect of the program: four values per pixel that are said to be LCh are read as Lab, so
the chroma becomes the `a` axis and the hue the `b` axis. (Three values are read as LCh, see
`C67_import`.) -/
theorem C67_lch_read_as_lab (a : NpArray F D) (w h : Nat) (v : Nat → Nat → Nat → F)
    (hv : ValidSize w h) (hd : a.dims = [h, w, 4]) (hn : ElementValues a.data (cube h w 4 v))
    (cs : Option String) (hc : cs = some "lch" ∨ cs = some "lcha") :
    from_np_array a cs = from_np_array a (some "lab") ∧
    ∃ img, returns (from_np_array a cs) img ∧ Shows img.buffer w h fun x y =>
      to_rgb (.lab .D65 .O2) ⟨v y x 0, v y x 1, v y x 2, v y x 3⟩ := by
  have e : from_np_array a cs = from_np_array a (some "lab") := by
    rw [from_np_array_numbers a cs _ hn, from_np_array_numbers a (some "lab") _ hn, hd]
    rcases hc with rfl | rfl <;> rfl
  refine ⟨e, ?_⟩
  rw [e]
  obtain ⟨img, h1, -, h2⟩ := C67_import_alpha a w h v hv hd hn "lab" (.lab .D65 .O2) (by decide) (by decide)
    (some "lab") (.inl rfl)
  exact ⟨img, h1, h2⟩

/-- C67: what cannot be imported. -/
theorem C67_import_errors (dims : List Nat) (data : NpData F D) (l : List F) (hn : ElementValues data l)
    (cs : Option String) (name : String) (hname : name = cs.getD "auto") :
    -- fewer than two dimensions: a panic, not an exception
    (dims.length < 2 → from_np_array ⟨dims, data⟩ cs = .error .index) ∧
    -- more than three dimensions
    (3 < dims.length →
      raises (from_np_array ⟨dims, data⟩ cs) ("Bad number of dimensions: " ++ toString dims.length)) ∧
    -- not one, three or four values per pixel
    (∀ h w n, dims = [h, w, n] → n ≠ 1 → n ≠ 3 → n ≠ 4 →
      raises (from_np_array ⟨dims, data⟩ cs) ("Bad color dimensions: " ++ toString n)) ∧
    -- a colour space that does not fit
    (∀ h w, (dims = [h, w] → name ≠ "gray" → name ≠ "auto" →
        raises (from_np_array ⟨dims, data⟩ cs) ("Bad colorspace " ++ name ++ " for dimensions: " ++ toString 2)) ∧
      (dims = [h, w, 1] → name ≠ "gray" → name ≠ "auto" →
        raises (from_np_array ⟨dims, data⟩ cs) ("Bad colorspace " ++ name ++ " for dimensions: " ++ toString 3)) ∧
      (dims = [h, w, 3] → name ≠ "auto" → (∀ p ∈ colourModels, name ≠ p.1) →
        raises (from_np_array ⟨dims, data⟩ cs) ("Bad colorspace " ++ name ++ " for dimensions: " ++ toString 3)) ∧
      (dims = [h, w, 4] → name ≠ "auto" → (∀ p ∈ colourModels, name ≠ p.1 ∧ name ≠ p.1 ++ "a") →
        raises (from_np_array ⟨dims, data⟩ cs) ("Bad colorspace " ++ name ++ " for dimensions: " ++ toString 3))) := by
  subst hname
  unfold raises
  rw [from_np_array_numbers ⟨dims, data⟩ cs l hn]
  refine ⟨?_, ?_, ?_, ?_⟩
  · intro h
    match dims, h with
    | [], _ => rfl
    | [_], _ => rfl
  · intro h
    match dims, h with
    | a :: b :: c :: d :: rest, _ =>
      unfold from_np_array_iter
      have h3 : ¬ (a :: b :: c :: d :: rest).length = 3 := by simp
      have h2 : ¬ (a :: b :: c :: d :: rest).length = 2 := by simp
      simp only [if_neg h3, if_neg h2]
      rfl
  · rintro h w n rfl h1 h3 h4
    unfold from_np_array_iter
    show (do
      let data ← (if n = 4 then _ else if n = 3 then _ else if n = 1 then _ else _ : Py (List (Col F)))
      _ : Py (Image F)) = _
    rw [if_neg h4, if_neg h3, if_neg h1]
    rfl
  · intro h w
    refine ⟨?_, ?_, ?_, ?_⟩
    · rintro rfl h1 h2
      unfold from_np_array_iter
      show (do
        let data ← (if _ ≠ "gray" ∧ _ ≠ "auto" then _ else _ : Py (List (Col F)))
        _ : Py (Image F)) = _
      rw [if_pos ⟨h1, h2⟩]
      rfl
    · rintro rfl h1 h2
      unfold from_np_array_iter
      show (do
        let data ← (if _ ≠ "gray" ∧ _ ≠ "auto" then _ else _ : Py (List (Col F)))
        _ : Py (Image F)) = _
      rw [if_pos ⟨h1, h2⟩]
      rfl
    · rintro rfl h1 h2
      have : import_space3 (cs.getD "auto") = none := by
        simp only [colourModels, List.forall_mem_cons, List.not_mem_nil, false_imp_iff, implies_true,
          and_true] at h2
        obtain ⟨h3, h4, h5, h6, h7, h8, h9, h10⟩ := h2
        unfold import_space3
        split <;> first | contradiction | rfl
      unfold from_np_array_iter
      simp only [this]
      rfl
    · rintro rfl h1 h2
      have : import_space4 (cs.getD "auto") = none := by
        simp only [colourModels, List.forall_mem_cons, List.not_mem_nil, false_imp_iff, implies_true,
          and_true] at h2
        obtain ⟨⟨h3, i3⟩, ⟨h4, i4⟩, ⟨h5, i5⟩, ⟨h6, i6⟩, ⟨h7, i7⟩, ⟨h8, i8⟩, ⟨h9, i9⟩, ⟨h10, i10⟩⟩ := h2
        unfold import_space4
        split <;> first | contradiction | rfl
      unfold from_np_array_iter
      simp only [this]
      rfl

/-- C67: an array with another element type raises, whatever its shape. -/
theorem C67_import_other (dims : List Nat) (t : String) (ht : t ∉ typeObjects.map (·.1))
    (cs : Option String) :
    raises (from_np_array (⟨dims, .Other t⟩ : NpArray F D) cs) ("Unsupported data type: " ++ t) := by
  have := C67_data_types.2.2.2.2 t ht
  unfold raises at this ⊢
  unfold from_np_array
  rw [show extract_data_type (some (.obj (NpData.typeobj (.Other t : NpData F D)))) =
    (throw ("Unsupported data type: " ++ t) : Py DataType) from this]
  rfl

/-- C67: an array with a side of length zero (but not both), or too many pixels, panics. -/
theorem C67_import_size (a : NpArray F D) (w h : Nat) (v : Nat → Nat → Nat → F)
    (hv : ¬ ValidSize w h) (hw : w < 2 ^ 32) (hh : h < 2 ^ 32) (hd : a.dims = [h, w, 4])
    (hn : ElementValues a.data (cube h w 4 v)) : from_np_array a none = .error .invalidSize := by
  rw [from_np_array_numbers a none _ hn, hd]
  have hl : (rows w h fun x y => to_rgb .rgb (new_with_alpha .rgb (v y x 0) (v y x 1) (v y x 2)
      (v y x 3))).length = w * h := rows_length _ _ _
  have : Image.new_from_raw w h (rows w h fun x y => to_rgb .rgb (new_with_alpha .rgb (v y x 0)
      (v y x 1) (v y x 2) (v y x 3))) = .error .invalidSize := by
    unfold Image.new_from_raw PixelBuffer.new_from_raw
    simp only [hl, ne_eq, not_true_eq_false, if_false]
    rw [validate_err hv]
    rfl
  refine Eq.trans (b := (do
    Py.ofR (assert (w * h == (rows w h fun x y => to_rgb .rgb (new_with_alpha .rgb (v y x 0)
      (v y x 1) (v y x 2) (v y x 3))).length))
    Py.ofR (Image.new_from_raw (w % 2 ^ 32) (h % 2 ^ 32) (rows w h fun x y => to_rgb .rgb
      (new_with_alpha .rgb (v y x 0) (v y x 1) (v y x 2) (v y x 3)))) : Py (Image F))) ?_ ?_
  · unfold from_np_array_iter
    simp only [show import_space4 ((none : Option String).getD "auto") = some .rgb from rfl,
      chunked4_cube, rows_map]
    rfl
  · rw [Nat.mod_eq_of_lt hw, Nat.mod_eq_of_lt hh, this, hl]
    simp [assert, Py.ofR]
    rfl

/-! ## C67 Round trips -/

/-- Every value of the colour is in [0, 1] (or not a number). -/
def Spec.AllInRange (c : Col F) : Prop := ColourInRange c ∧ InRange c.alpha

theorem clamp_range [LawfulScalar F] {x : F} (h : InRange x) : clamp01 x = x := by
  rcases h with h | ⟨h0, h1⟩
  · exact clamp01_nan h
  · exact clamp01_id h0 h1

/-- Storing a value as `f64` and reading it back gives the value. -/
class Widen.Faithful (F D : Type) [Scalar F] [Scalar D] [Widen F D] : Prop where
  down_up : ∀ x : F, (Widen.down (Widen.up x : D) : F) = x

noncomputable instance [Junk] : Widen.Faithful ℝ ℝ where
  down_up _ := rfl

theorem FP.ofRat_num {f : Fmt} (s : Bool) {q : ℚ} (h : q ≠ 0 ∧ IsRep f q ∧ |q| < pow2 f.emax) :
    FP.ofRat f s q = .num q h := by
  have h1 := FP.ofRat_rep (f := f) (s := s) h.2.1 h.2.2
  generalize FP.ofRat f s q = x at h1
  cases x with
  | nan => simp [FP.fin] at h1
  | inf b => simp [FP.fin] at h1
  | zero b => exact absurd h1.2.symm h.1
  | num r hr => have := h1.2; simp only [FP.val] at this; subst this; rfl

instance [Libm b32] [Libm b64] : Widen.Faithful F32 F64 where
  down_up x := by
    show FP.cast b32 (FP.cast b64 x) = x
    cases x with
    | nan => rfl
    | inf s => rfl
    | zero s =>
      show FP.cast b32 (FP.ofRat b64 s 0) = _
      rw [FP.ofRat_zero]
      show FP.ofRat b32 s 0 = _
      rw [FP.ofRat_zero]
    | num q h =>
      have h64 : q ≠ 0 ∧ IsRep b64 q ∧ |q| < pow2 b64.emax := by
        obtain ⟨m, e, h1, h2, h3⟩ := h.2.1
        refine ⟨h.1, ⟨m, e, lt_of_lt_of_le h1 (by norm_num [b32, b64]), le_trans (by norm_num [b32, b64]) h2, h3⟩, ?_⟩
        refine lt_of_lt_of_le h.2.2 ?_
        exact pow2_le (by norm_num [b32, b64])
      show FP.cast b32 (FP.ofRat b64 _ q) = _
      rw [FP.ofRat_num _ h64]
      show FP.ofRat b32 _ q = _
      rw [FP.ofRat_num _ h]

/-- C67: an image with values in [0, 1] that is exported with alpha as floats of either size and
imported again is the same image, bit for bit. The names may be left out. -/
theorem C67_round_trip [LawfulScalar F] [Widen.Faithful F D] (img : Image F) (w h : Nat)
    (px : Nat → Nat → Col F) (hi : Shows img.buffer w h px)
    (hp : ∀ x y, x < w → y < h → AllInRange (px x y)) (dt : Option PyDtype) (t : DataType)
    (ht : returns (extract_data_type dt) t) (hf : t = .Float32 ∨ t = .Float64) :
    ∃ a img', returns (to_np_array D img (some "rgba") dt) a ∧
      to_np_array D img none dt = to_np_array D img (some "rgba") dt ∧
      returns (from_np_array a (some "rgba")) img' ∧
      from_np_array a none = from_np_array a (some "rgba") ∧ Shows img'.buffer w h px := by
  have he := (C67_export (D := D) img w h px hi "rgb" .rgb (by decide) dt t ht).2
  have hd := (C67_export_gray (D := D) img w h px hi dt t ht).2
  have same : to_np_array D img none dt = to_np_array D img (some "rgba") dt := hd.trans he.symm
  have hn : ∃ data, exported (D := D) h w 4 (fun y x k => value (px x y) k) t = ⟨[h, w, 4], data⟩ ∧
      ElementValues data (cube h w 4 fun y x k => value (px x y) k) := by
    rcases hf with rfl | rfl
    · exact ⟨_, rfl, .float32 _⟩
    · refine ⟨_, rfl, ?_⟩
      have := ElementValues.float64 (F := F) (cube h w 4 fun y x k => (Widen.up (value (px x y) k) : D))
      rwa [cube_map, cube_congr (e' := fun y x k => value (px x y) k)
        (fun y x k _ _ _ => Widen.Faithful.down_up _)] at this
  obtain ⟨data, h1, h2⟩ := hn
  rw [h1] at hd
  obtain ⟨img', r1, -, r2⟩ := C67_import_alpha (D := D) ⟨[h, w, 4], data⟩ w h _ hi.size rfl h2 "rgb"
    .rgb (by decide) (by decide) (some "rgba") (.inr (.inl rfl))
  obtain ⟨img'', q1, -, q2⟩ := C67_import_alpha (D := D) ⟨[h, w, 4], data⟩ w h _ hi.size rfl h2 "rgb"
    .rgb (by decide) (by decide) none (.inr (.inr ⟨rfl, .inr rfl⟩))
  refine ⟨_, img', hd ▸ same.symm, same, r1, ?_, ?_⟩
  · rw [from_np_array_numbers _ none _ h2, from_np_array_numbers _ (some "rgba") _ h2]; rfl
  · refine ⟨r2.width, r2.height, r2.size, r2.pixels.trans (rows_congr fun x y hx hy => ?_)⟩
    obtain ⟨⟨c0, c1, c2⟩, ca⟩ := hp x y hx hy
    show (⟨clamp01 _, clamp01 _, clamp01 _, clamp01 _⟩ : Col F) = _
    simp only [value]
    rw [clamp_range c0, clamp_range c1, clamp_range c2, clamp_range ca]

/-- C67: without alpha the colours come back opaque. -/
theorem C67_round_trip_opaque [LawfulScalar F] (img : Image F) (w h : Nat)
    (px : Nat → Nat → Col F) (hi : Shows img.buffer w h px)
    (hp : ∀ x y, x < w → y < h → AllInRange (px x y)) :
    ∃ a img', returns (to_np_array D img (some "rgb") none) a ∧
      returns (from_np_array a (some "rgb")) img' ∧
      Shows img'.buffer w h fun x y => { px x y with alpha := lit 1 } := by
  have he := (C67_export (D := D) img w h px hi "rgb" .rgb (by decide) none .Float32 rfl).1
  obtain ⟨img', r1, -, r2⟩ := C67_import (D := D) ⟨[h, w, 3], _⟩ w h _ hi.size rfl (ElementValues.float32 (F := F) (D := D) _) "rgb" .rgb
    (by decide) (some "rgb") (.inl rfl)
  refine ⟨_, img', he, r1, r2.width, r2.height, r2.size, r2.pixels.trans (rows_congr fun x y hx hy => ?_)⟩
  obtain ⟨⟨c0, c1, c2⟩, ca⟩ := hp x y hx hy
  show (⟨clamp01 (px x y).c0, clamp01 (px x y).c1, clamp01 (px x y).c2, _⟩ : Col F) = _
  rw [clamp_range c0, clamp_range c1, clamp_range c2]

/-- C67, a defect of the program: an exported boolean image comes back with every value inverted,
alpha too: what was at least one half is 0, everything else is 1. So white comes back as transparent
black. -/
theorem C67_bool_inverted [LawfulScalar F] (img : Image F) (w h : Nat)
    (px : Nat → Nat → Col F) (hi : Shows img.buffer w h px) :
    ∃ a img', returns (to_np_array D img (some "rgba") (some (.str "bool"))) a ∧
      returns (from_np_array a (some "rgba")) img' ∧
      (let inv (v : F) := if (lit (1 / 2) <=. v) = true then lit 0 else lit 1
      Shows img'.buffer w h fun x y =>
        ⟨inv (px x y).c0, inv (px x y).c1, inv (px x y).c2, inv (px x y).alpha⟩) := by
  have he := (C67_export (D := D) img w h px hi "rgb" .rgb (by decide) (some (.str "bool")) .Bool rfl).2
  have hn := ElementValues.bool (F := F) (D := D) (cube h w 4 fun y x k => lit (1 / 2) <=. value (px x y) k)
  rw [cube_map] at hn
  obtain ⟨img', r1, -, r2⟩ := C67_import_alpha (D := D) ⟨[h, w, 4], _⟩ w h _ hi.size rfl hn "rgb" .rgb
    (by decide) (by decide) (some "rgba") (.inr (.inl rfl))
  refine ⟨_, img', he, r1, r2.width, r2.height, r2.size, r2.pixels.trans (rows_congr fun x y hx hy => ?_)⟩
  have hb : ∀ b : Bool, clamp01 (if b = true then lit 0 else lit 1 : F) = if b = true then lit 0 else lit 1 := by
    intro b
    have r : ∀ q : ℚ, 0 ≤ q → q ≤ 1 → clamp01 (lit q : F) = lit q := fun q h0 h1 =>
      clamp01_id (LawfulScalar.lit_mono _ _ h0) (LawfulScalar.lit_mono _ _ h1)
    cases b
    · exact r 1 (by norm_num) (by norm_num)
    · exact r 0 (by norm_num) (by norm_num)
  show (⟨clamp01 _, clamp01 _, clamp01 _, clamp01 _⟩ : Col F) = _
  simp only [hb]
  rfl

/-- C67: white comes back as transparent black from a boolean array. -/
theorem C67_bool_white [LawfulScalar F] (img : Image F) (w h : Nat)
    (hi : Shows img.buffer w h fun _ _ => Rgb.WHITE) :
    ∃ a img', returns (to_np_array D img (some "rgba") (some (.str "bool"))) a ∧
      returns (from_np_array a (some "rgba")) img' ∧ Shows img'.buffer w h fun _ _ => Rgb.NONE := by
  obtain ⟨a, img', h1, h2, h3⟩ := C67_bool_inverted (D := D) img w h _ hi
  refine ⟨a, img', h1, h2, ?_⟩
  have : ((lit (1 / 2) : F) <=. lit 1) = true := LawfulScalar.lit_mono _ _ (by norm_num)
  simp only [Rgb.WHITE, this, if_true] at h3
  exact h3

theorem byte_range [Libm b32] {n v : Nat} (hn : n ≤ 65535) (h0 : 0 < n) (hv : v ≤ n) :
    clamp01 ((lit (v : ℚ) : F32) /. lit (n : ℚ)) = (lit (v : ℚ) : F32) /. lit (n : ℚ) := by
  have u := unquant (n := n) (v := v) hn h0 hv
  have hnq : (0 : ℚ) < n := by exact_mod_cast h0
  refine clamp_range ((inRange_f32 _).2 (.inr ⟨u.1, ?_, ?_⟩))
  · rw [u.2]
    exact rep_le_rn (IsRep.zero _) (by positivity)
  · rw [u.2]
    have r1 : IsRep b32 1 := by simpa using IsRep.int (f := b32) (z := 1) (by norm_num [b32])
    refine rn_le_rep r1 ?_
    rw [div_le_one hnq]
    exact_mod_cast hv

/-- C67: an array of 8-bit integers (three or four per pixel) that is imported and exported again is
the same array, in 32-bit floats. -/
theorem C67_uint8_round_trip [Libm b32] [Libm b64] (w h : Nat) (hv : ValidSize w h)
    (e : Nat → Nat → Nat → Nat) (he : ∀ y x k, e y x k < 256) :
    (∃ img : Image F32, returns (from_np_array (⟨[h, w, 4], .Uint8 (cube h w 4 e)⟩ : NpArray F32 F64) none) img ∧
      returns (to_np_array F64 img (some "rgba") (some (.str "uint8"))) ⟨[h, w, 4], .Uint8 (cube h w 4 e)⟩) ∧
    (∃ img : Image F32, returns (from_np_array (⟨[h, w, 3], .Uint8 (cube h w 3 e)⟩ : NpArray F32 F64) none) img ∧
      returns (to_np_array F64 img (some "rgb") (some (.str "uint8"))) ⟨[h, w, 3], .Uint8 (cube h w 3 e)⟩) := by
  have back : ∀ v : Nat, v < 256 → Scalar.asU8 (clamp01 ((lit (v : ℚ) : F32) /. lit 255) *. lit 255) = v := by
    intro v hv
    have := byte_range (n := 255) (v := v) (by norm_num) (by norm_num) (by omega)
    push_cast at this
    rw [this]
    have r := C48_round_trip v hv
    unfold as_u8 Scalar.asU8 at r
    have c := LawfulCast.toInt_clamp (F := F32) (255 : Int) 255 ((from_u8 v : F32) *. lit 255) (by omega) le_rfl
    push_cast at c
    rw [c] at r
    exact r
  constructor
  · have hn := ElementValues.uint8 (F := F32) (D := F64) (cube h w 4 e)
    rw [cube_map] at hn
    obtain ⟨img, r1, -, r2⟩ := C67_import_alpha (D := F64) ⟨[h, w, 4], _⟩ w h _ hv rfl hn "rgb" .rgb
      (by decide) (by decide) none (.inr (.inr ⟨rfl, .inr rfl⟩))
    refine ⟨img, r1, ?_⟩
    have := (C67_export (D := F64) img w h _ r2 "rgb" .rgb (by decide) (some (.str "uint8")) .Uint8 rfl).2
    unfold returns at this ⊢
    rw [show ("rgb" ++ "a") = "rgba" from rfl] at this
    rw [this]
    show Except.ok (Except.ok (⟨[h, w, 4], .Uint8 _⟩ : NpArray F32 F64)) = _
    rw [cube_congr (e' := e)]
    intro y x k _ _ hk
    have hk' : k = 0 ∨ k = 1 ∨ k = 2 ∨ k = 3 := by omega
    rcases hk' with rfl | rfl | rfl | rfl <;> exact back _ (he _ _ _)
  · have hn := ElementValues.uint8 (F := F32) (D := F64) (cube h w 3 e)
    rw [cube_map] at hn
    obtain ⟨img, r1, -, r2⟩ := C67_import (D := F64) ⟨[h, w, 3], _⟩ w h _ hv rfl hn "rgb" .rgb
      (by decide) none (.inr ⟨rfl, .inr rfl⟩)
    refine ⟨img, r1, ?_⟩
    have := (C67_export (D := F64) img w h _ r2 "rgb" .rgb (by decide) (some (.str "uint8")) .Uint8 rfl).1
    unfold returns at this ⊢
    rw [this]
    show Except.ok (Except.ok (⟨[h, w, 3], .Uint8 _⟩ : NpArray F32 F64)) = _
    rw [cube_congr (e' := e)]
    intro y x k _ _ hk
    have hk' : k = 0 ∨ k = 1 ∨ k = 2 := by omega
    rcases hk' with rfl | rfl | rfl <;> exact back _ (he _ _ _)

/-- C67: an array of 16-bit integers (three or four per pixel) that is imported and exported again is
the same array, in 32-bit floats. -/
theorem C67_uint16_round_trip [Libm b32] [Libm b64] (w h : Nat) (hv : ValidSize w h)
    (e : Nat → Nat → Nat → Nat) (he : ∀ y x k, e y x k < 65536) :
    (∃ img : Image F32, returns (from_np_array (⟨[h, w, 4], .Uint16 (cube h w 4 e)⟩ : NpArray F32 F64) none) img ∧
      returns (to_np_array F64 img (some "rgba") (some (.str "uint16"))) ⟨[h, w, 4], .Uint16 (cube h w 4 e)⟩) ∧
    (∃ img : Image F32, returns (from_np_array (⟨[h, w, 3], .Uint16 (cube h w 3 e)⟩ : NpArray F32 F64) none) img ∧
      returns (to_np_array F64 img (some "rgb") (some (.str "uint16"))) ⟨[h, w, 3], .Uint16 (cube h w 3 e)⟩) := by
  have back : ∀ v : Nat, v < 65536 → Scalar.asU16 (clamp01 ((lit (v : ℚ) : F32) /. lit 65535) *. lit 65535) = v := by
    intro v hv
    have := byte_range (n := 65535) (v := v) (by norm_num) (by norm_num) (by omega)
    push_cast at this
    rw [this]
    have u := unquant (n := 65535) (v := v) (by norm_num) (by norm_num) (by omega)
    push_cast at u
    have e := quant_round (n := 16) (v := v) (.inr rfl) (by omega)
    norm_num at e
    have r : as_u16 ((lit (v : ℚ) : F32) /. lit 65535) = v := by
      rw [as_u16_fin u.1, u.2, e, Nat.floor_natCast]
      omega
    unfold as_u16 Scalar.asU16 at r
    have c := LawfulCast.toInt_clamp (F := F32) (65535 : Int) 65535 (((lit (v : ℚ) : F32) /. lit 65535) *. lit 65535)
      (by omega) le_rfl
    push_cast at c
    rw [c] at r
    exact r
  constructor
  · have hn := ElementValues.uint16 (F := F32) (D := F64) (cube h w 4 e)
    rw [cube_map] at hn
    obtain ⟨img, r1, -, r2⟩ := C67_import_alpha (D := F64) ⟨[h, w, 4], _⟩ w h _ hv rfl hn "rgb" .rgb
      (by decide) (by decide) none (.inr (.inr ⟨rfl, .inr rfl⟩))
    refine ⟨img, r1, ?_⟩
    have := (C67_export (D := F64) img w h _ r2 "rgb" .rgb (by decide) (some (.str "uint16")) .Uint16 rfl).2
    unfold returns at this ⊢
    rw [show ("rgb" ++ "a") = "rgba" from rfl] at this
    rw [this]
    show Except.ok (Except.ok (⟨[h, w, 4], .Uint16 _⟩ : NpArray F32 F64)) = _
    rw [cube_congr (e' := e)]
    intro y x k _ _ hk
    have hk' : k = 0 ∨ k = 1 ∨ k = 2 ∨ k = 3 := by omega
    rcases hk' with rfl | rfl | rfl | rfl <;> exact back _ (he _ _ _)
  · have hn := ElementValues.uint16 (F := F32) (D := F64) (cube h w 3 e)
    rw [cube_map] at hn
    obtain ⟨img, r1, -, r2⟩ := C67_import (D := F64) ⟨[h, w, 3], _⟩ w h _ hv rfl hn "rgb" .rgb
      (by decide) none (.inr ⟨rfl, .inr rfl⟩)
    refine ⟨img, r1, ?_⟩
    have := (C67_export (D := F64) img w h _ r2 "rgb" .rgb (by decide) (some (.str "uint16")) .Uint16 rfl).1
    unfold returns at this ⊢
    rw [this]
    show Except.ok (Except.ok (⟨[h, w, 3], .Uint16 _⟩ : NpArray F32 F64)) = _
    rw [cube_congr (e' := e)]
    intro y x k _ _ hk
    have hk' : k = 0 ∨ k = 1 ∨ k = 2 := by omega
    rcases hk' with rfl | rfl | rfl <;> exact back _ (he _ _ _)

/-- C67, exact arithmetic: exporting an in-range image in another colour model with alpha and
importing it under the same name gives an equal image (colours compared with `==`). Greyscale pixels
are excepted for HSV, whose hue they do not have; LCh is excepted altogether, see
`C67_lch_round_trip_fails`. -/
theorem C67_round_trip_models [Junk] (img : Image ℝ) (w h : Nat) (px : Nat → Nat → Col ℝ)
    (hi : Shows img.buffer w h px) (hp : ∀ x y, x < w → y < h → Spec.Unit (px x y))
    (name : String) (s : Space) (hm : (name, s) ∈ colourModels) (hl : name ≠ "lch")
    (hg : name = "hsv" → ∀ x y, x < w → y < h → ¬ ((px x y).c0 = (px x y).c1 ∧ (px x y).c1 = (px x y).c2)) :
    ∃ a img', returns (to_np_array ℝ img (some (name ++ "a")) none) a ∧
      returns (from_np_array a (some (name ++ "a"))) img' ∧
      ∃ px', Shows img'.buffer w h px' ∧
        ∀ x y, x < w → y < h → Col.eq (px' x y) (px x y) = true := by
  have he := (C67_export (D := ℝ) img w h px hi name s hm none .Float32 rfl).2
  obtain ⟨img', r1, -, r2⟩ := C67_import_alpha (D := ℝ) ⟨[h, w, 4], _⟩ w h _ hi.size rfl
    (ElementValues.float32 (F := ℝ) (D := ℝ) _) name s hm hl (some (name ++ "a")) (.inr (.inl rfl))
  refine ⟨_, img', he, r1, _, r2, fun x y hx hy => ?_⟩
  have hu := hp x y hx hy
  have unit : ∀ c : Col ℝ, Spec.Unit c → Rgb.new_with_alpha c.c0 c.c1 c.c2 c.alpha = c := by
    intro c hc
    unfold Rgb.new_with_alpha
    rw [Exact.clamp01_id hc.r0 hc.r1, Exact.clamp01_id hc.g0 hc.g1, Exact.clamp01_id hc.b0 hc.b1,
      Exact.clamp01_id hc.a0 hc.a1]
  simp only [colourModels, List.mem_cons, List.not_mem_nil, or_false, Prod.mk.injEq] at hm
  rcases hm with ⟨rfl, rfl⟩ | ⟨rfl, rfl⟩ | ⟨rfl, rfl⟩ | ⟨rfl, rfl⟩ | ⟨rfl, rfl⟩ | ⟨rfl, rfl⟩ |
    ⟨rfl, rfl⟩ | ⟨rfl, rfl⟩
  · show Col.eq (Rgb.new_with_alpha (px x y).c0 (px x y).c1 (px x y).c2 (px x y).alpha) (px x y) = true
    rw [unit _ hu]
    exact Exact.col_eq_of_eq rfl
  · show Col.eq (to_rgb .srgb (Rgb.new_with_alpha (to_srgb .rgb (px x y)).c0 (to_srgb .rgb (px x y)).c1
      (to_srgb .rgb (px x y)).c2 (to_srgb .rgb (px x y)).alpha)) (px x y) = true
    have hs : Spec.Unit (to_srgb .rgb (px x y)) := by
      have r : ∀ x : ℝ, 0 ≤ clamp01 x ∧ clamp01 x ≤ 1 := fun x => by
        rw [Exact.clamp01]; exact ⟨le_max_left _ _, max_le zero_le_one (min_le_left _ _)⟩
      exact ⟨(r _).1, (r _).2, (r _).1, (r _).2, (r _).1, (r _).2, (r _).1, (r _).2⟩
    rw [unit _ hs]
    exact (C30_colours _ hu).2
  · exact C28_hsl_round_trip _ hu
  · exact C29_hsv_round_trip _ hu (hg rfl x y hx hy)
  · exact C31_yuv_round_trip_rgb _ hu
  · exact (C31_xyz_round_trip _ hu).1
  · exact (C72_lab_round_trip .D65 .O2 _ hu).1
  · exact absurd rfl hl

/-- C67, exact arithmetic: an image with a pure green pixel does not survive the export and import
as LCh with alpha (`C67_lch_read_as_lab`): its red value comes back as more than one half. -/
theorem C67_lch_round_trip_fails [Junk] (img : Image ℝ) (w h : Nat) (px : Nat → Nat → Col ℝ)
    (hi : Shows img.buffer w h px) (x y : Nat) (_hx : x < w) (_hy : y < h) (hp : px x y = ⟨0, 1, 0, 1⟩) :
    ∃ a img', returns (to_np_array ℝ img (some "lcha") none) a ∧
      returns (from_np_array a (some "lcha")) img' ∧
      ∃ px', Shows img'.buffer w h px' ∧ 1 / 2 < (px' x y).c0 := by
  have he := (C67_export (D := ℝ) img w h px hi "lch" (.lch .D65 .O2) (by decide) none .Float32 rfl).2
  obtain ⟨-, img', r1, r2⟩ := C67_lch_read_as_lab (D := ℝ) ⟨[h, w, 4], _⟩ w h _ hi.size rfl
    (ElementValues.float32 (F := ℝ) (D := ℝ) _) (some "lcha") (.inr rfl)
  refine ⟨_, img', he, r1, _, r2, ?_⟩
  rw [hp]
  show 1 / 2 < (to_rgb (.lab .D65 .O2) (to_lch .D65 .O2 .rgb (⟨0, 1, 0, 1⟩ : Col ℝ))).c0
  obtain ⟨l0, l1, lc, ls, lp, lp', la⟩ := C72_lch .D65 .O2 .rgb (⟨0, 1, 0, 1⟩ : Col ℝ)
  have lab := (C72_lab_by_xyz .D65 .O2 .rgb (⟨0, 1, 0, 1⟩ : Col ℝ)).1
  rw [lab] at l0 l1 ls
  rw [(C72_lab_by_xyz .D65 .O2 .rgb (to_lch .D65 .O2 .rgb (⟨0, 1, 0, 1⟩ : Col ℝ))).2]
  generalize to_lch .D65 .O2 .rgb (⟨0, 1, 0, 1⟩ : Col ℝ) = q at *
  have xyz : to_xyz .rgb (⟨0, 1, 0, 1⟩ : Col ℝ) = ⟨0.357580, 0.715160, 0.119193, 1⟩ := by
    show Rgb.to_xyz _ = _
    unfold Rgb.to_xyz apply_matrix
    simp only [show to_rgb .rgb (⟨0, 1, 0, 1⟩ : Col ℝ) = ⟨0, 1, 0, 1⟩ from rfl]
    ex_simp
    norm_num
  rw [xyz] at l0 l1 ls
  simp only [cieLab, whitePoint, div_one] at l0 l1 ls
  have hc : ∀ t : ℝ, 0.008856 ≤ t → cieCurve t = t ^ (1 / 3 : ℝ) := fun t ht => by
    unfold cieCurve; rw [if_neg (not_lt.2 ht)]
  have cube3 : ∀ t : ℝ, 0 ≤ t → (t ^ (1 / 3 : ℝ)) ^ 3 = t := fun t ht => by
    rw [← Real.rpow_natCast, ← Real.rpow_mul ht]; norm_num
  set fy := cieCurve 0.715160 with hfy
  have fy3 : fy ^ 3 = 0.715160 := by rw [hfy, hc _ (by norm_num), cube3 _ (by norm_num)]
  have fy0 : 0 ≤ fy := by rw [hfy, hc _ (by norm_num)]; positivity
  have fyl : 0.8 < fy := by
    by_contra hcon
    have : fy ^ 3 ≤ 0.8 ^ 3 := pow_le_pow_left₀ fy0 (not_lt.1 hcon) 3
    norm_num [fy3] at this
  set fz := cieCurve (0.119193 / 1.08883) with hfz
  have fz3 : fz ^ 3 = 0.119193 / 1.08883 := by
    rw [hfz, hc _ (by norm_num), cube3 _ (by norm_num)]
  have fzl : fz < 0.8 := by
    by_contra hcon
    have : (0.8 : ℝ) ^ 3 ≤ fz ^ 3 := pow_le_pow_left₀ (by norm_num) (not_lt.1 hcon) 3
    norm_num [fz3] at this
  have c0 : 0 ≤ q.c1 := by rw [l1]; exact Real.sqrt_nonneg _
  have h0 : 0 ≤ q.c2 := by
    by_contra hcon
    have hneg : Real.sin q.c2 < 0 := Real.sin_neg_of_neg_of_neg_pi_lt (not_le.1 hcon) lp
    have hb : (0 : ℝ) < 200 * (fy - fz) / 128 := by linarith
    have : q.c1 * Real.sin q.c2 ≤ 0 := mul_nonpos_of_nonneg_of_nonpos c0 hneg.le
    linarith
  have hfyq : (100 * q.c0 + 16) / 116 = fy := by rw [l0]; ring
  have hx' : 0.715160 ≤ cieCurveInv (fy + 128 * q.c1 / 500) := by
    unfold cieCurveInv
    rw [if_pos (by linarith), ← fy3]
    exact pow_le_pow_left₀ fy0 (by linarith) 3
  have hz' : cieCurveInv (fy - 128 * q.c2 / 200) ≤ 0.715160 := by
    unfold cieCurveInv
    split
    · rename_i h1
      rw [← fy3]
      exact pow_le_pow_left₀ (by linarith) (by linarith) 3
    · rename_i h1
      have := not_lt.1 h1
      rw [div_le_iff₀ (by norm_num)]
      linarith
  have hy' : cieCurveInv fy = 0.715160 := by
    unfold cieCurveInv
    rw [if_pos (by linarith), fy3]
  show 1 / 2 < (Xyz.to_rgb (cieXyz (whitePoint .D65 .O2) q)).c0
  unfold Xyz.to_rgb apply_matrix_clamped cieXyz
  simp only [hfyq, hy', whitePoint]
  ex_simp
  rw [Exact.clamp01]
  refine lt_max_of_lt_right (lt_min (by norm_num) ?_)
  norm_num at hx' hz' ⊢
  linarith

/-! ## Examples -/

section examples

/-- A green and a white pixel side by side. -/
def pyImage : Image F := ⟨⟨2, 1, [⟨lit 0, lit 1, lit 0, lit 1⟩, Rgb.WHITE]⟩, none⟩

def pyPx : Nat → Nat → Col F := fun x _ => if x = 0 then ⟨lit 0, lit 1, lit 0, lit 1⟩ else Rgb.WHITE

theorem pyImage_shows : Shows (pyImage : Image F).buffer 2 1 pyPx :=
  ⟨rfl, rfl, by simp [ValidSize], rfl⟩

theorem pyPx_range [LawfulScalar F] (x y : Nat) : AllInRange (pyPx x y : Col F) := by
  unfold pyPx
  have h0 : InRange (lit 0 : F) :=
    .inr ⟨LawfulScalar.lit_mono 0 0 le_rfl, LawfulScalar.lit_mono 0 1 zero_le_one⟩
  have h1 : InRange (lit 1 : F) :=
    .inr ⟨LawfulScalar.lit_mono 0 1 zero_le_one, LawfulScalar.lit_mono 1 1 le_rfl⟩
  split
  · exact ⟨⟨h0, h1, h0⟩, h1⟩
  · exact ⟨⟨h1, h1, h1⟩, h1⟩

example := C67_export (D := D) pyImage 2 1 pyPx (F := F) pyImage_shows "lab" (.lab .D65 .O2) (by decide)
  (some (.str "uint8")) .Uint8 rfl
example := C67_export_gray (D := D) pyImage 2 1 pyPx (F := F) pyImage_shows (some (.obj "<class 'bool'>")) .Bool rfl
example := (C67_export_errors (D := D) (pyImage : Image F) none (some (.str "int"))).1 _
  ((C67_data_types).2.2.1 "int" (by decide))
example := (C67_export_errors (D := D) (pyImage : Image F) none none).2 .Float32 "cmyk" rfl (by decide) (by decide)
example := C67_import_alpha (⟨[1, 2, 4], .Uint8 [0, 255, 0, 255, 255, 255, 255, 255]⟩ : NpArray F D) 2 1
  (fun _ x k => lit ((if x = 0 ∧ k ∈ [0, 2] then 0 else 255 : Nat) : ℚ) /. lit 255) (by simp [ValidSize]) rfl
  (ElementValues.uint8 [0, 255, 0, 255, 255, 255, 255, 255]) "hsl" .hsl (by decide) (by decide) (some "hsla") (by decide)
example (a b c : D) := C67_import (⟨[1, 1, 3], .Float64 [a, b, c]⟩ : NpArray F D) 1 1
  (fun _ _ k => Widen.down ([a, b, c].getD k a)) (by simp [ValidSize]) rfl
  (ElementValues.float64 [a, b, c]) "lch" (.lch .D65 .O2) (by decide) (some "lch") (by decide)
example [LawfulScalar F] := C67_import_gray (⟨[1, 2], .Bool [true, false]⟩ : NpArray F D) 2 1
  (fun _ x => if (x == 0) = true then lit 0 else lit 1) (by simp [ValidSize]) (.inr rfl)
  (ElementValues.bool [true, false]) none (by decide)
example (c : F) := C67_lch_read_as_lab (⟨[1, 1, 4], .Float32 [c, c, c, c]⟩ : NpArray F D) 1 1
  (fun _ _ _ => c) (by simp [ValidSize]) rfl (ElementValues.float32 [c, c, c, c]) (some "lcha") (by decide)
example := (C67_import_errors [7] (.Uint8 [1, 2, 3] : NpData F D) _ (ElementValues.uint8 _) none _ rfl).1 (by decide)
example := C67_import_other (F := F) (D := D) [1] "<class 'numpy.int64'>" (by decide) none
example := C67_import_size (⟨[1, 0, 4], .Float32 []⟩ : NpArray F D) 0 1 (fun _ _ _ => lit 0)
  (by simp [ValidSize]) (by decide) (by decide) rfl (ElementValues.float32 [])
example [LawfulScalar F] [Widen.Faithful F D] := C67_round_trip (D := D) pyImage 2 1 pyPx (F := F) pyImage_shows
  (fun x y _ _ => pyPx_range x y) (some (.str "float64")) .Float64 rfl (.inr rfl)
example [LawfulScalar F] := C67_round_trip_opaque (D := D) pyImage 2 1 pyPx (F := F) pyImage_shows
  (fun x y _ _ => pyPx_range x y)
example [Junk] := C67_lch_round_trip_fails pyImage 2 1 pyPx pyImage_shows 0 0 (by decide) (by decide)
  (by simp [pyPx, Exact.lit])

end examples

end D10
