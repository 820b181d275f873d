import Verif.Lemmas.ObjectsShape
import Verif.SpecObjectsShape
import Verif.Props.Range
import Verif.Props.Objects

/-!
# C120: the images of a Python program
-/

namespace D10
open Spec Python
open Scalar (lit)

namespace Python
section
set_option linter.unusedSectionVars false
variable {F D G E K : Type} [Scalar F] [Scalar D] [Widen F D] [FloatBytes F]
variable {libs : Libs F} {g : Rng G F}

theorem ofR_inv {α : Type} {x : R α} {a : α} (h : (Py.ofR x).run = .ok (.ok a)) : x = .ok a := by
  cases x with
  | error p => cases h
  | ok b => cases h; rfl

theorem bind_inv {α β : Type} {x : Py α} {f : α → Py β} {b : β} (h : (x >>= f).run = .ok (.ok b)) :
    ∃ a, x.run = .ok (.ok a) ∧ (f a).run = .ok (.ok b) := by
  rw [ExceptT.run_bind] at h
  cases hx : x.run with
  | error p => rw [hx] at h; cases h
  | ok y =>
    cases y with
    | error m => rw [hx] at h; cases h
    | ok a => rw [hx] at h; exact ⟨a, rfl, h⟩

theorem image_inv {x : Py (Image F)} {img : Image F}
    (h : (do return (.image (← x) : Out F D) : Py (Out F D)).run = .ok (.ok (.image img))) :
    x.run = .ok (.ok img) := by
  obtain ⟨a, h1, h2⟩ := bind_inv h
  cases h2
  exact h1

theorem made_inv {x : R (Image F)} {img : Image F}
    (h : (made x : Py (Out F D)).run = .ok (.ok (.image img))) : x = .ok img :=
  ofR_inv (image_inv h)

theorem fst_inv {σ α : Type} {x : R (α × σ)} {a : α}
    (h : (do return (← x).1 : R α) = .ok a) : ∃ s, x = .ok (a, s) := by
  cases x with
  | error p => cases h
  | ok p => cases h; exact ⟨_, rfl⟩

theorem parse_inv {α : Type} {from_str : String → Except ParseEnumError α} {d : α} {name : Option String}
    {a : α} (h : (parse_or from_str d name).run = .ok (.ok a)) :
    (name = none ∧ a = d) ∨ ∃ n, name = some n ∧ from_str n = .ok a := by
  cases name with
  | none => cases h; exact .inl ⟨rfl, rfl⟩
  | some n =>
    refine .inr ⟨n, rfl, ?_⟩
    change (py_err (from_str n)).run = _ at h
    cases hb : from_str n with
    | ok b => rw [hb] at h; cases h; rfl
    | error e => rw [hb] at h; cases h

theorem value_no_image {v : Value F D} {img : Image F} :
    ((return .value v : Py (Out F D)).run = .ok (.ok (.image img))) → False := by
  intro h; cases h

/-- An image that comes out of a method of the library. -/
theorem reader_made {img img' : Image F} (hm : Made D libs img) {m : Reader F G}
    (h : (m.run (D := D) libs g img).run = .ok (.ok (.image img'))) : Made D libs img' := by
  cases m with
  | to_list => cases h
  | get_width => cases h
  | get_height => cases h
  | has_transparency => cases h
  | is_grayscale => cases h
  | len => cases h
  | get_pixel x y =>
    obtain ⟨o, _, h2⟩ := bind_inv h
    cases o <;> cases h2
  | get_pixel_clamped x y => obtain ⟨o, _, h2⟩ := bind_inv h; cases h2
  | is_in_image x y => cases h
  | getitem k => obtain ⟨o, _, h2⟩ := bind_inv h; cases h2
  | crop x y w k => exact .crop _ _ _ _ _ _ hm (made_inv h)
  | flip_horizontal => exact .keeps _ _ hm (.flip_horizontal _ _ (made_inv h))
  | flip_vertical => exact .keeps _ _ hm (.flip_vertical _ _ (made_inv h))
  | rotate90 => exact .rotate90 _ _ hm (made_inv h)
  | rotate180 => exact .keeps _ _ hm (.rotate180 _ _ (made_inv h))
  | rotate270 => exact .rotate270 _ _ hm (made_inv h)
  | rotate a f =>
    obtain ⟨_, _, h2⟩ := bind_inv (image_inv h)
    exact .keeps _ _ hm (.rotate _ _ _ _ (ofR_inv h2))
  | resize w k f =>
    obtain ⟨_, _, h2⟩ := bind_inv (image_inv h)
    exact .resize _ _ _ _ _ hm (ofR_inv h2)
  | resize_pct p f =>
    obtain ⟨_, _, h2⟩ := bind_inv (image_inv h)
    exact .resize_pct _ _ _ _ hm (ofR_inv h2)
  | edge_detection mode =>
    obtain ⟨_, _, h2⟩ := bind_inv (image_inv h)
    exact .keeps _ _ hm (.edge_detection _ _ _ (ofR_inv h2))
  | with_jpeg_quality q a => exact .with_jpeg_quality _ _ _ _ hm (made_inv h)
  | random_noise a r =>
    obtain ⟨s, hs⟩ := fst_inv (made_inv h)
    exact .keeps _ _ hm (.random_noise _ _ _ _ _ _ hs)
  | salt_n_pepper_noise a r =>
    obtain ⟨s, hs⟩ := fst_inv (made_inv h)
    exact .keeps _ _ hm (.salt_n_pepper_noise _ _ _ _ _ _ hs)
  | rgb_noise a r =>
    obtain ⟨s, hs⟩ := fst_inv (made_inv h)
    exact .keeps _ _ hm (.rgb_noise _ _ _ _ _ _ hs)
  | gaussian_noise a r =>
    obtain ⟨s, hs⟩ := fst_inv (made_inv h)
    exact .keeps _ _ hm (.gaussian_noise _ _ _ _ _ _ hs)
  | gaussian_blur r s => exact .keeps _ _ hm (.gaussian_blur _ _ _ _ (made_inv h))
  | unsharp r f s => exact .keeps _ _ hm (.unsharp _ _ _ _ _ (made_inv h))
  | drawing r mode =>
    obtain ⟨_, _, h2⟩ := bind_inv (image_inv h)
    exact .keeps _ _ hm (.drawing _ _ _ _ (ofR_inv h2))
  | interlace o => exact .keeps _ _ hm (.interlace _ _ _ (made_inv h))
  | despeckle t a => exact .keeps _ _ hm (.despeckle _ _ _ _ (made_inv h))
  | symmetric_nearest_neighbor r c =>
    exact .keeps _ _ hm (.symmetric_nearest_neighbor _ _ _ _ (made_inv h))
  | stretch_contrast t => exact .keeps _ _ hm (.stretch_contrast _ _ _ (ofR_inv (image_inv h)))
  | optimize_saturation o mode =>
    obtain ⟨_, _, h2⟩ := bind_inv (image_inv h)
    cases h2
    exact .keeps _ _ hm (.optimize_saturation _ _ _)
  | change_color_temperature o n t =>
    exact .keeps _ _ hm (.change_color_temperature _ _ _ _ _ (ofR_inv (image_inv h)))
  | optimize_color_temperature f t =>
    exact .keeps _ _ hm (.optimize_color_temperature _ _ _ _ (ofR_inv (image_inv h)))
  | optimize_lightness f => cases h; exact .keeps _ _ hm (.optimize_lightness _ _)
  | white_balance t => exact .keeps _ _ hm (.white_balance _ _ _ (ofR_inv (image_inv h)))
  | balance mode t =>
    obtain ⟨_, _, h2⟩ := bind_inv (image_inv h)
    exact .keeps _ _ hm (.balance _ _ _ _ (ofR_inv h2))
  | equalize mode =>
    obtain ⟨_, _, h2⟩ := bind_inv (image_inv h)
    exact .keeps _ _ hm (.equalize _ _ _ (ofR_inv h2))
  | to_np_array c t => obtain ⟨o, _, h2⟩ := bind_inv h; cases h2

theorem reader2_made {img other img' : Image F} (hm : Made D libs img) (ho : Made D libs other)
    {m : Reader2 F} (h : (m.run (D := D) img other).run = .ok (.ok (.image img'))) :
    Made D libs img' := by
  cases m with
  | apply_palette => cases h; exact .keeps _ _ hm (.apply_palette _ _)
  | blend op i =>
    obtain ⟨_, _, h2⟩ := bind_inv (image_inv h)
    exact .blend _ _ _ _ _ hm ho (ofR_inv h2)

variable (D) in
/-- A method that changes an image returns the image itself or one that a method of the library made
of it. -/
theorem writer_keeps {img img' : Image F} {m : Writer F G}
    (h : (m.run libs g img).run = .ok (.ok img')) : img' = img ∨ Keeps D img img' := by
  cases m with
  | save fs path format =>
    obtain ⟨o, _, h2⟩ := bind_inv h
    cases o with
    | ok u => cases h2; exact .inl rfl
    | error e => cases h2
  | put_pixel x y c => exact .inr (.put_pixel _ _ _ _ _ (ofR_inv h))
  | setitem k c => exact .inr (.put_pixel _ _ _ _ _ (ofR_inv h))
  | add_random_noise a r =>
    obtain ⟨s, hs⟩ := fst_inv (ofR_inv h)
    exact .inr (.add_random_noise _ _ _ _ _ _ hs)
  | add_salt_n_pepper_noise a r =>
    obtain ⟨s, hs⟩ := fst_inv (ofR_inv h)
    exact .inr (.add_salt_n_pepper_noise _ _ _ _ _ _ hs)
  | add_rgb_noise a r =>
    obtain ⟨s, hs⟩ := fst_inv (ofR_inv h)
    exact .inr (.add_rgb_noise _ _ _ _ _ _ hs)
  | add_gaussian_noise a r =>
    obtain ⟨s, hs⟩ := fst_inv (ofR_inv h)
    exact .inr (.add_gaussian_noise _ _ _ _ _ _ hs)

/-- What an imported array is made of. -/
theorem import_raw {a : NpArray F D} {cs : Option String} {img : Image F}
    (h : (from_np_array a cs).run = .ok (.ok img)) :
    ∃ (values : List F), (from_np_array_iter a.dims values cs).run = .ok (.ok img) := by
  obtain ⟨t, _, h2⟩ := bind_inv h
  split at h2
  · exact ⟨_, h2⟩
  · exact ⟨_, h2⟩
  · exact ⟨_, h2⟩
  · exact ⟨_, h2⟩
  · exact ⟨_, h2⟩
  · exact ⟨_, h2⟩
  · cases h2

theorem iter_raw {dims : List Nat} {values : List F} {cs : Option String} {img : Image F}
    (h : (from_np_array_iter dims values cs).run = .ok (.ok img)) :
    ∃ w k data, Image.new_from_raw w k data = .ok img ∧
      ((∃ s, import_space4 (cs.getD "auto") = some s ∧ data = (chunked4 values).map fun v =>
          to_rgb s (new_with_alpha s v.1 v.2.1 v.2.2.1 v.2.2.2)) ∨
        (∃ s, import_space3 (cs.getD "auto") = some s ∧ data = (chunked3 values).map fun v =>
          to_rgb s (new_opaque s v.1 v.2.1 v.2.2)) ∨
        data = values.map fun v => Rgb.new_with_alpha v v v (lit 1)) := by
  obtain ⟨w, _, h⟩ := bind_inv h
  obtain ⟨k, _, h⟩ := bind_inv h
  obtain ⟨data, hd, h⟩ := bind_inv h
  obtain ⟨u, _, h⟩ := bind_inv h
  refine ⟨_, _, data, ofR_inv h, ?_⟩
  split at hd
  · obtain ⟨depth, _, hd⟩ := bind_inv hd
    split at hd
    · split at hd
      · rename_i s hs; cases hd; exact .inl ⟨s, hs, rfl⟩
      · cases hd
    · split at hd
      · split at hd
        · rename_i s hs; cases hd; exact .inr (.inl ⟨s, hs, rfl⟩)
        · cases hd
      · split at hd
        · split at hd
          · cases hd
          · cases hd; exact .inr (.inr rfl)
        · cases hd
  · split at hd
    · split at hd
      · cases hd
      · cases hd; exact .inr (.inr rfl)
    · cases hd

theorem open_inv {fs : FS} {path : String} {img : Image F}
    (h : ((Creator.open fs path : Creator F D).run libs).run = .ok (.ok img)) :
    (Image.open libs fs path).run = .ok (.ok img) := by
  obtain ⟨o, h1, h2⟩ := bind_inv h
  cases o with
  | ok i => cases h2; exact ofR_inv h1
  | error e => cases h2

theorem creator_made {c : Creator F D} {img : Image F} (h : (c.run libs).run = .ok (.ok img)) :
    Made D libs img := by
  cases c with
  | new w k color =>
    cases color with
    | some c => exact .new_with_color _ _ _ _ (ofR_inv h)
    | none => exact .new _ _ _ (ofR_inv h)
  | from_list w k l => exact .new_from_raw _ _ _ _ (ofR_inv h)
  | «open» fs path => exact .open _ _ _ (open_inv h)
  | from_np_array a cs =>
    obtain ⟨values, h1⟩ := import_raw h
    obtain ⟨w, k, data, h2, -⟩ := iter_raw h1
    exact .new_from_raw _ _ _ _ h2

theorem Good.made {Q : Col F → Prop} {img : Image F} (hg : Good Q img) : Made D libs img := by
  have : img = Image.new_from_buffer img.buffer := by
    cases img
    have := hg.background
    dsimp only at this
    rw [this]
    rfl
  rw [this]
  exact .new_from_buffer _ hg.shape

theorem Good.of_made (hl : Honest libs) {Q : Col F → Prop} {img : Image F} (hm : Made D libs img)
    (hc : ∀ c ∈ img.buffer.data, Q c) : Good Q img :=
  ⟨C65_wellFormed hl hm, C65_no_background hm, hc⟩

theorem writer_size (D : Type) [Scalar D] [Widen F D] {Q : Col F → Prop} {img img' : Image F} (hg : Good Q img) {m : Writer F G}
    (h : (m.run libs g img).run = .ok (.ok img')) :
    img'.buffer.width = img.buffer.width ∧ img'.buffer.height = img.buffer.height := by
  rcases writer_keeps D h with rfl | hk
  · exact ⟨rfl, rfl⟩
  · have := C65_same_size hg.shape hk
    exact ⟨this.2.1, this.2.2.1⟩

/-- Every step of every program keeps images in shape. -/
theorem shape_obeys (hl : Honest libs) (a : Act F D G E K) : Obeys libs g (fun _ => True) a := by
  cases a with
  | ret r => exact fun _ _ => trivial
  | create c k => exact fun img h => .of_made (D := D) hl (creator_made h) fun _ _ => trivial
  | read r m k => exact fun img img' hg h => .of_made hl (reader_made hg.made h) fun _ _ => trivial
  | read2 r o m k =>
    exact fun img other img' hg ho h => .of_made hl (reader2_made hg.made ho.made h) fun _ _ => trivial
  | write r m k =>
    refine fun img img' hg h => ⟨.of_made (D := D) hl ?_ fun _ _ => trivial, writer_size D hg h⟩
    rcases writer_keeps D h with rfl | hk
    · exact hg.made
    · exact .keeps _ _ hg.made hk
  | apply_palette_in_place r p k =>
    refine fun img palette hg hp => ?_
    have := C65_same_size (D := D) hg.shape (.apply_palette_in_place img palette)
    exact ⟨.of_made (D := D) hl (.keeps _ _ hg.made (.apply_palette_in_place img palette))
      fun _ _ => trivial, this.2.1, this.2.2.1⟩
  | mod_colors => trivial
  | mod_colors_enumerated => trivial
  | map_colors => trivial
  | map_colors_enumerated => trivial
  | compose => trivial
  | spawn => trivial

/-! ## Colours in range -/

section
variable [LawfulScalar F]

theorem Good.careful {img : Image F} (hg : Good PixelInRange img) : Careful D libs img := by
  have : img = Image.new_from_buffer img.buffer := by
    cases img
    have := hg.background
    dsimp only at this
    rw [this]
    rfl
  rw [this]
  exact .new_from_buffer _ hg.colours

theorem plain_pixel4 {name : Option String} (hn : PlainColours name) {s : Space}
    (hs : import_space4 (name.getD "auto") = some s) (a b c d : F) :
    PixelInRange (to_rgb s (new_with_alpha s a b c d)) := by
  rcases hn with rfl | rfl | rfl | rfl | rfl | rfl | rfl <;> cases hs <;> exact new_pixel _ _ _ _

theorem plain_pixel3 {name : Option String} (hn : PlainColours name) {s : Space}
    (hs : import_space3 (name.getD "auto") = some s) (a b c : F) :
    PixelInRange (to_rgb s (new_opaque s a b c)) := by
  rcases hn with rfl | rfl | rfl | rfl | rfl | rfl | rfl <;> cases hs <;>
    first | exact new_pixel_opaque _ _ _ | exact new_pixel _ _ _ _

theorem creator_careful {c : Creator F D} {img : Image F}
    {k : Except (Exc E) (Value F D) → K} (hc : CarefulAct (.create c k : Act F D G E K))
    (h : (c.run libs).run = .ok (.ok img)) : Careful D libs img := by
  cases c with
  | new w k color =>
    cases color with
    | some c => exact .new_with_color _ _ _ _ hc (ofR_inv h)
    | none => exact .new _ _ _ (ofR_inv h)
  | from_list w k l => exact .new_from_raw _ _ _ _ hc (ofR_inv h)
  | «open» fs path => exact .open _ _ _ (open_inv h)
  | from_np_array a cs =>
    obtain ⟨values, h1⟩ := import_raw h
    obtain ⟨w, k, data, h2, h3⟩ := iter_raw h1
    refine .new_from_raw _ _ _ _ (fun c hm => ?_) h2
    rcases h3 with ⟨s, hs, rfl⟩ | ⟨s, hs, rfl⟩ | rfl
    · obtain ⟨v, _, rfl⟩ := List.mem_map.1 hm
      exact plain_pixel4 hc hs _ _ _ _
    · obtain ⟨v, _, rfl⟩ := List.mem_map.1 hm
      exact plain_pixel3 hc hs _ _ _
    · obtain ⟨v, _, rfl⟩ := List.mem_map.1 hm
      exact new_pixel _ _ _ _

theorem filter_lanczos {n : String} (h : FilterMode.from_str n = .ok .Lanczos3) :
    n = "lanczos3" ∨ n = "Lanczos" := by
  unfold FilterMode.from_str at h
  split at h <;> first | cases h; done | simp

theorem balance_rgb {n : String} (h : BalanceMode.from_str n = .ok .Rgb) : n = "rgb" := by
  unfold BalanceMode.from_str at h
  split at h <;> first | cases h; done | simp

theorem balance_hsv {n : String} (h : BalanceMode.from_str n = .ok .Hsv) : n = "hsv" := by
  unfold BalanceMode.from_str at h
  split at h <;> first | cases h; done | simp

theorem filter_clamping {name : Option String} {f : FilterMode}
    (hn : name = none ∨ name = some "nearest" ∨ name = some "bilinear" ∨ name = some "bicubic")
    (h : (parse_or FilterMode.from_str .Bilinear name).run = .ok (.ok f)) : clampingFilter f = true := by
  rcases hn with rfl | rfl | rfl | rfl <;> cases h <;> rfl

theorem reader_careful {img img' : Image F} (hm : Careful D libs img) {self : Ref} {m : Reader F G}
    {k : Except (Exc E) (Value F D) → K} (hc : CarefulAct (.read self m k : Act F D G E K))
    (h : (m.run (D := D) libs g img).run = .ok (.ok (.image img'))) : Careful D libs img' := by
  cases m with
  | to_list => cases h
  | get_width => cases h
  | get_height => cases h
  | has_transparency => cases h
  | is_grayscale => cases h
  | len => cases h
  | get_pixel x y =>
    obtain ⟨o, _, h2⟩ := bind_inv h
    cases o <;> cases h2
  | get_pixel_clamped x y => obtain ⟨o, _, h2⟩ := bind_inv h; cases h2
  | is_in_image x y => cases h
  | getitem k => obtain ⟨o, _, h2⟩ := bind_inv h; cases h2
  | crop x y w k => exact .crop _ _ _ _ _ _ hm (made_inv h)
  | flip_horizontal => exact .flip_horizontal _ _ hm (made_inv h)
  | flip_vertical => exact .flip_vertical _ _ hm (made_inv h)
  | rotate90 => exact .rotate90 _ _ hm (made_inv h)
  | rotate180 => exact .rotate180 _ _ hm (made_inv h)
  | rotate270 => exact .rotate270 _ _ hm (made_inv h)
  | rotate a f =>
    obtain ⟨_, h1, h2⟩ := bind_inv (image_inv h)
    refine .rotate _ _ _ _ hm (fun e => ?_) (ofR_inv h2)
    rw [e] at h1
    rcases parse_inv h1 with ⟨_, h3⟩ | ⟨n, rfl, h3⟩
    · cases h3
    · rcases filter_lanczos h3 with rfl | rfl
      · exact hc.1 rfl
      · exact hc.2 rfl
  | resize w k f =>
    obtain ⟨_, h1, h2⟩ := bind_inv (image_inv h)
    exact .resize _ _ _ _ _ hm (filter_clamping hc h1) (ofR_inv h2)
  | resize_pct p f =>
    obtain ⟨_, h1, h2⟩ := bind_inv (image_inv h)
    exact .resize_pct _ _ _ _ hm (filter_clamping hc h1) (ofR_inv h2)
  | edge_detection mode =>
    obtain ⟨_, h1, h2⟩ := bind_inv (image_inv h)
    rcases hc with rfl | rfl <;> cases h1 <;> exact .edge_detection _ _ hm (ofR_inv h2)
  | with_jpeg_quality q a => exact .with_jpeg_quality _ _ _ _ hm (made_inv h)
  | random_noise a r =>
    obtain ⟨s, hs⟩ := fst_inv (made_inv h)
    exact .random_noise _ _ _ _ _ _ hm hs
  | salt_n_pepper_noise a r =>
    obtain ⟨s, hs⟩ := fst_inv (made_inv h)
    exact .salt_n_pepper_noise _ _ _ _ _ _ hm hs
  | rgb_noise a r =>
    obtain ⟨s, hs⟩ := fst_inv (made_inv h)
    exact .rgb_noise _ _ _ _ _ _ hm hs
  | gaussian_noise a r =>
    obtain ⟨s, hs⟩ := fst_inv (made_inv h)
    exact .gaussian_noise _ _ _ _ _ _ hm hs
  | gaussian_blur r s => exact hc.elim
  | unsharp r f s => exact .unsharp _ _ _ _ _ hm (made_inv h)
  | drawing r mode =>
    obtain ⟨_, _, h2⟩ := bind_inv (image_inv h)
    exact .drawing _ _ _ _ hm (ofR_inv h2)
  | interlace o => exact .interlace _ _ _ hm (made_inv h)
  | despeckle t a => exact .despeckle _ _ _ _ hm (made_inv h)
  | symmetric_nearest_neighbor r c => exact .symmetric_nearest_neighbor _ _ _ _ hm (made_inv h)
  | stretch_contrast t => exact .stretch_contrast _ _ _ hm (ofR_inv (image_inv h))
  | optimize_saturation o mode =>
    obtain ⟨_, _, h2⟩ := bind_inv (image_inv h)
    cases h2
    exact .optimize_saturation _ _ _ hm
  | change_color_temperature o n t =>
    exact .change_color_temperature _ _ _ _ _ hm (ofR_inv (image_inv h))
  | optimize_color_temperature f t =>
    exact .optimize_color_temperature _ _ _ _ hm (ofR_inv (image_inv h))
  | optimize_lightness f => cases h; exact .optimize_lightness _ _ hm
  | white_balance t => exact hc.elim
  | balance mode t =>
    obtain ⟨b, h1, h2⟩ := bind_inv (image_inv h)
    refine .balance _ _ _ _ hm (fun e => ?_) (fun e => ?_) (ofR_inv h2) <;> rw [e] at h1 <;>
      rcases parse_inv h1 with ⟨h3, _⟩ | ⟨n, rfl, h3⟩
    · exact hc.1 h3
    · exact hc.2.1 (by rw [balance_rgb h3])
    · exact hc.1 h3
    · exact hc.2.2 (by rw [balance_hsv h3])
  | equalize mode =>
    obtain ⟨_, _, h2⟩ := bind_inv (image_inv h)
    exact .equalize _ _ _ hm (ofR_inv h2)
  | to_np_array c t => obtain ⟨o, _, h2⟩ := bind_inv h; cases h2

theorem reader2_careful {img other img' : Image F} (hm : Careful D libs img) (ho : Careful D libs other)
    {m : Reader2 F} (h : (m.run (D := D) img other).run = .ok (.ok (.image img'))) :
    Careful D libs img' := by
  cases m with
  | apply_palette => cases h; exact .apply_palette _ _ hm ho
  | blend op i =>
    obtain ⟨_, _, h2⟩ := bind_inv (image_inv h)
    exact .blend _ _ _ _ _ hm ho (ofR_inv h2)

theorem writer_careful {img img' : Image F} (hm : Careful D libs img) {self : Ref} {m : Writer F G}
    {k : Except (Exc E) (Value F D) → K} (hc : CarefulAct (.write self m k : Act F D G E K))
    (h : (m.run libs g img).run = .ok (.ok img')) : Careful D libs img' := by
  cases m with
  | save fs path format =>
    obtain ⟨o, _, h2⟩ := bind_inv h
    cases o with
    | ok u => cases h2; exact hm
    | error e => cases h2
  | put_pixel x y c => exact .put_pixel _ _ _ _ _ hm hc (ofR_inv h)
  | setitem k c => exact .put_pixel _ _ _ _ _ hm hc (ofR_inv h)
  | add_random_noise a r =>
    obtain ⟨s, hs⟩ := fst_inv (ofR_inv h)
    exact .add_random_noise _ _ _ _ _ _ hm hs
  | add_salt_n_pepper_noise a r =>
    obtain ⟨s, hs⟩ := fst_inv (ofR_inv h)
    exact .add_salt_n_pepper_noise _ _ _ _ _ _ hm hs
  | add_rgb_noise a r =>
    obtain ⟨s, hs⟩ := fst_inv (ofR_inv h)
    exact .add_rgb_noise _ _ _ _ _ _ hm hs
  | add_gaussian_noise a r =>
    obtain ⟨s, hs⟩ := fst_inv (ofR_inv h)
    exact .add_gaussian_noise _ _ _ _ _ _ hm hs

/-- Every careful step keeps images in shape and in range. -/
theorem careful_obeys (hl : Honest libs) (hpow : PowKeeps F) {a : Act F D G E K} (hc : CarefulAct a) :
    Obeys libs g PixelInRange a := by
  cases a with
  | ret r => rintro c rfl; exact hc
  | create c k =>
    exact fun img h => .of_made (D := D) hl (creator_made h) (C118_careful hpow (creator_careful hc h)).1
  | read r m k =>
    exact fun img img' hg h => .of_made hl (reader_made hg.made h)
      (C118_careful hpow (reader_careful hg.careful hc h)).1
  | read2 r o m k =>
    exact fun img other img' hg ho h => .of_made hl (reader2_made hg.made ho.made h)
      (C118_careful hpow (reader2_careful (D := D) (libs := libs) hg.careful ho.careful h)).1
  | write r m k =>
    refine fun img img' hg h => ⟨.of_made (D := D) hl ?_
      (C118_careful hpow (writer_careful hg.careful hc h)).1, writer_size D hg h⟩
    rcases writer_keeps D h with rfl | hk
    · exact hg.made
    · exact .keeps _ _ hg.made hk
  | apply_palette_in_place r p k =>
    refine fun img palette hg hp => ?_
    have := C65_same_size (D := D) hg.shape (.apply_palette_in_place img palette)
    exact ⟨.of_made (D := D) hl (.keeps _ _ hg.made (.apply_palette_in_place img palette))
      (C118_careful (D := D) (libs := libs) hpow
        (.apply_palette_in_place _ _ hg.careful hp.careful)).1, this.2.1, this.2.2.1⟩
  | mod_colors => trivial
  | mod_colors_enumerated => trivial
  | map_colors => trivial
  | map_colors_enumerated => trivial
  | compose => trivial
  | spawn => trivial

end
end
end Python

section
set_option linter.unusedSectionVars false
variable {F D G E K : Type} [Scalar F] [Scalar D] [Widen F D] [FloatBytes F]
variable {libs : Libs F} {g : Rng G F} {act : K → Act F D G E K} {main : K}

/-- C120: however many threads a Python program has, whatever its functions do and however it is
interrupted - also in the middle of `mod_colors`, and after functions that raised - every image object
has exactly width times height pixels and an allowed size, and no background colour. -/
theorem C120_shape (hl : Honest libs) {s : Python.State F D E K} (ha : Arises libs g act main s) {r : Ref}
    {img : Image F} (hr : Holds s r img) : WellFormed img.buffer ∧ img.bg_color = none := by
  obtain ⟨c, hc, rfl⟩ := hr
  have := (arises_good (shape_obeys hl <| act ·) ha).good r c hc
  exact ⟨this.shape, this.background⟩

/-- C120: an image object never goes away while it can be used, and never changes its size. -/
theorem C120_same_size (hl : Honest libs) {s s' : Python.State F D E K} (ha : Arises libs g act main s)
    (hs : Reaches libs g act s s') {r : Ref} {img : Image F} (hr : Holds s r img) :
    ∃ img', Holds s' r img' ∧ img'.width = img.width ∧ img'.height = img.height := by
  obtain ⟨c, hc, rfl⟩ := hr
  obtain ⟨c1, h1, h2, h3⟩ := (reaches_good (arises_good (shape_obeys hl <| act ·) ha)
    (shape_obeys hl <| act ·) hs).2 r c hc
  exact ⟨_, ⟨c1, h1, rfl⟩, h2, h3⟩

/-- C120: a careful Python program - its own colours, and those that its functions return, are in
range, and it uses none of the methods listed at `CarefulAct` - only ever sees pixels in range. -/
theorem C120_range [LawfulScalar F] (hl : Honest libs) (hpow : PowKeeps F)
    (hc : ∀ code, CarefulAct (act code)) {s : Python.State F D E K} (ha : Arises libs g act main s)
    {r : Ref} {img : Image F} (hr : Holds s r img) : ImageInRange img := by
  obtain ⟨c, h, rfl⟩ := hr
  have := (arises_good (careful_obeys hl hpow <| hc ·) ha).good r c h
  exact ⟨this.colours, fun c e => by rw [this.background] at e; cases e⟩

/-! ## What the methods do -/

theorem makes_image (x : R (Image F)) : MakesImage (made x : Py (Out F D)) x := by
  refine ⟨?_, ?_⟩ <;> rintro _ rfl <;> rfl

theorem makes_image_fst {σ : Type} (x : R (Image F × σ)) :
    MakesImage (made (do return (← x).1) : Py (Out F D)) (withoutRng x) := by
  cases x <;> exact makes_image _

theorem makes_image_or_raises (x : Py (Image F)) :
    MakesImageOrRaises (do return .image (← x) : Py (Out F D)) x := by
  refine ⟨fun img h => ?_, fun e h => ?_, fun p h => ?_⟩ <;> rw [ExceptT.run_bind, h] <;> rfl

theorem becomes_ofR (x : R (Image F)) : Becomes (Py.ofR x) x := by
  refine ⟨?_, ?_⟩ <;> rintro _ rfl <;> rfl

theorem becomes_fst {σ : Type} (x : R (Image F × σ)) :
    Becomes (Py.ofR (do return (← x).1)) (withoutRng x) := by
  cases x <;> exact becomes_ofR _

/-- C120: what the methods of an image object that ask about the image return. -/
theorem C120_methods_ask (img : Image F) :
    Tells (Reader.run (D := D) libs g img .to_list) (.colours img.buffer.data) ∧
    Tells (Reader.run (D := D) libs g img .get_width) (.number img.buffer.width) ∧
    Tells (Reader.run (D := D) libs g img .get_height) (.number img.buffer.height) ∧
    Tells (Reader.run (D := D) libs g img .has_transparency) (.bool img.buffer.has_transparency) ∧
    Tells (Reader.run (D := D) libs g img .is_grayscale) (.bool img.buffer.is_grayscale) ∧
    Tells (Reader.run (D := D) libs g img .len) (.number img.buffer.data.length) ∧
    (∀ x y, Tells (Reader.run (D := D) libs g img (.is_in_image x y))
      (.bool (img.buffer.is_in_image x y))) ∧
    (∀ x y c, img.buffer.get_pixel_optional x y = .ok (some c) →
      Tells (Reader.run (D := D) libs g img (.get_pixel x y)) (.colour c)) ∧
    (∀ x y, img.buffer.get_pixel_optional x y = .ok none →
      Tells (Reader.run (D := D) libs g img (.get_pixel x y)) .none) ∧
    (∀ x y c, img.buffer.get_pixel_clamped x y = .ok c →
      Tells (Reader.run (D := D) libs g img (.get_pixel_clamped x y)) (.colour c)) ∧
    (∀ x y c, img.buffer.get_pixel_optional x y = .ok (some c) →
      Tells (Reader.run (D := D) libs g img (.getitem (x, y))) (.colour c)) ∧
    (∀ colorspace data_type a, (Python.to_np_array D img colorspace data_type).run = .ok (.ok a) →
      Tells (Reader.run (D := D) libs g img (.to_np_array colorspace data_type)) (.array a)) := by
  have e : ∀ x y, Python.get_pixel img x y = img.buffer.get_pixel_optional x y := fun _ _ => rfl
  have e' : ∀ x y, img.get_pixel_clamped x y = img.buffer.get_pixel_clamped x y := fun _ _ => rfl
  refine ⟨rfl, rfl, rfl, rfl, rfl, rfl, fun _ _ => rfl, fun x y c h => ?_, fun x y h => ?_,
    fun x y c h => ?_, fun x y c h => ?_, fun cs t a h => ?_⟩
  · simp only [Tells, Reader.run, e, h]; rfl
  · simp only [Tells, Reader.run, e, h]; rfl
  · simp only [Tells, Reader.run, e', h]; rfl
  · simp only [Tells, Reader.run, Python.getitem, e, h]; rfl
  · simp only [Tells, Reader.run, ExceptT.run_bind, h]; rfl

/-- C120: what the methods of an image object that make a new image return: what the method of the
same name of the library returns (C65 says what that is). -/
theorem C120_methods_make (img : Image F) :
    (∀ x y w h, MakesImage (Reader.run (D := D) libs g img (.crop x y w h)) (img.crop x y w h)) ∧
    MakesImage (Reader.run (D := D) libs g img .flip_horizontal) img.flip_horizontal ∧
    MakesImage (Reader.run (D := D) libs g img .flip_vertical) img.flip_vertical ∧
    MakesImage (Reader.run (D := D) libs g img .rotate90) img.rotate90 ∧
    MakesImage (Reader.run (D := D) libs g img .rotate180) img.rotate180 ∧
    MakesImage (Reader.run (D := D) libs g img .rotate270) img.rotate270 ∧
    (∀ o, MakesImage (Reader.run (D := D) libs g img (.interlace o)) (img.interlace o)) ∧
    (∀ r s, MakesImage (Reader.run (D := D) libs g img (.gaussian_blur r s)) (img.gaussian_blur r s)) ∧
    (∀ r f s, MakesImage (Reader.run (D := D) libs g img (.unsharp r f s)) (Python.unsharp img r f s)) ∧
    (∀ t n, MakesImage (Reader.run (D := D) libs g img (.despeckle t n)) (Python.despeckle img t n)) ∧
    (∀ r c, MakesImage (Reader.run (D := D) libs g img (.symmetric_nearest_neighbor r c))
      (Python.symmetric_nearest_neighbor img r c)) ∧
    (∀ q a, MakesImage (Reader.run (D := D) libs g img (.with_jpeg_quality q a))
      (Python.with_jpeg_quality libs img q a)) ∧
    (∀ f, MakesImage (Reader.run (D := D) libs g img (.optimize_lightness f))
      (.ok (img.optimize_lightness D f))) ∧
    (∀ a s, MakesImage (Reader.run (D := D) libs g img (.random_noise a s))
      (withoutRng (img.random_noise g a s))) ∧
    (∀ a s, MakesImage (Reader.run (D := D) libs g img (.salt_n_pepper_noise a s))
      (withoutRng (img.salt_n_pepper_noise g a s))) ∧
    (∀ a s, MakesImage (Reader.run (D := D) libs g img (.rgb_noise a s))
      (withoutRng (img.rgb_noise g a s))) ∧
    (∀ a s, MakesImage (Reader.run (D := D) libs g img (.gaussian_noise a s))
      (withoutRng (img.gaussian_noise g a s))) :=
  ⟨fun _ _ _ _ => makes_image _, makes_image _, makes_image _, makes_image _, makes_image _,
    makes_image _, fun _ => makes_image _, fun _ _ => makes_image _, fun _ _ _ => makes_image _,
    fun _ _ => makes_image _, fun _ _ => makes_image _, fun _ _ => makes_image _,
    fun _ => makes_image (.ok _), fun _ _ => makes_image_fst _, fun _ _ => makes_image_fst _,
    fun _ _ => makes_image_fst _, fun _ _ => makes_image_fst _⟩

/-- C120: the same for the methods whose options have names, and those with two images. -/
theorem C120_methods_options (img other : Image F) :
    (∀ a f, MakesImageOrRaises (Reader.run (D := D) libs g img (.rotate a f)) (Python.rotate img a f)) ∧
    (∀ w h f, MakesImageOrRaises (Reader.run (D := D) libs g img (.resize w h f))
      (Python.resize img w h f)) ∧
    (∀ p f, MakesImageOrRaises (Reader.run (D := D) libs g img (.resize_pct p f))
      (Python.resize_pct img p f)) ∧
    (∀ m, MakesImageOrRaises (Reader.run (D := D) libs g img (.edge_detection m))
      (Python.edge_detection img m)) ∧
    (∀ r m, MakesImageOrRaises (Reader.run (D := D) libs g img (.drawing r m))
      (Python.drawing img r m)) ∧
    (∀ t, MakesImageOrRaises (Reader.run (D := D) libs g img (.stretch_contrast t))
      (Python.stretch_contrast img t)) ∧
    (∀ o m, MakesImageOrRaises (Reader.run (D := D) libs g img (.optimize_saturation o m))
      (Python.optimize_saturation img o m)) ∧
    (∀ o n t, MakesImageOrRaises (Reader.run (D := D) libs g img (.change_color_temperature o n t))
      (Python.change_color_temperature D img o n t)) ∧
    (∀ f t, MakesImageOrRaises (Reader.run (D := D) libs g img (.optimize_color_temperature f t))
      (Python.optimize_color_temperature D img f t)) ∧
    (∀ t, MakesImageOrRaises (Reader.run (D := D) libs g img (.white_balance t))
      (Python.white_balance img t)) ∧
    (∀ m t, MakesImageOrRaises (Reader.run (D := D) libs g img (.balance m t))
      (Python.balance img m t)) ∧
    (∀ m, MakesImageOrRaises (Reader.run (D := D) libs g img (.equalize m)) (Python.equalize img m)) ∧
    MakesImage (Reader2.run (D := D) img other .apply_palette) (.ok (img.apply_palette other)) ∧
    (∀ op i, MakesImageOrRaises (Reader2.run (D := D) img other (.blend op i))
      (Python.blend img other op i)) :=
  ⟨fun _ _ => makes_image_or_raises _, fun _ _ _ => makes_image_or_raises _,
    fun _ _ => makes_image_or_raises _, fun _ => makes_image_or_raises _,
    fun _ _ => makes_image_or_raises _, fun _ => makes_image_or_raises _,
    fun _ _ => makes_image_or_raises _, fun _ _ _ => makes_image_or_raises _,
    fun _ _ => makes_image_or_raises _, fun _ => makes_image_or_raises _,
    fun _ _ => makes_image_or_raises _, fun _ => makes_image_or_raises _, makes_image (.ok _),
    fun _ _ => makes_image_or_raises _⟩

/-- C120: what the methods that change an image object leave in it. Saving changes nothing, and raises
if the file could not be written. -/
theorem C120_methods_change (img : Image F) :
    (∀ x y c, Becomes (Writer.run libs g img (.put_pixel x y c)) (img.put_pixel x y c)) ∧
    (∀ x y c, Becomes (Writer.run libs g img (.setitem (x, y) c)) (img.put_pixel x y c)) ∧
    (∀ a s, Becomes (Writer.run libs g img (.add_random_noise a s))
      (withoutRng (img.add_random_noise g a s))) ∧
    (∀ a s, Becomes (Writer.run libs g img (.add_salt_n_pepper_noise a s))
      (withoutRng (img.add_salt_n_pepper_noise g a s))) ∧
    (∀ a s, Becomes (Writer.run libs g img (.add_rgb_noise a s))
      (withoutRng (img.add_rgb_noise g a s))) ∧
    (∀ a s, Becomes (Writer.run libs g img (.add_gaussian_noise a s))
      (withoutRng (img.add_gaussian_noise g a s))) ∧
    (∀ fs path format, (Python.save libs fs img path format).2 = .ok (.ok ()) →
      (Writer.run libs g img (.save fs path format)).run = .ok (.ok img)) ∧
    (∀ fs path format e, (Python.save libs fs img path format).2 = .ok (.error e) →
      (Writer.run libs g img (.save fs path format)).run = .ok (.error e.display)) ∧
    (∀ fs path format p, (Python.save libs fs img path format).2 = .error p →
      (Writer.run libs g img (.save fs path format)).run = .error p) := by
  refine ⟨fun _ _ _ => becomes_ofR _, fun _ _ _ => becomes_ofR _, fun _ _ => becomes_fst _,
    fun _ _ => becomes_fst _, fun _ _ => becomes_fst _, fun _ _ => becomes_fst _,
    fun fs path format h => ?_, fun fs path format e h => ?_, fun fs path format p h => ?_⟩ <;>
  · simp only [Writer.run, h]; rfl

/-- C120: what the constructor and the functions that make images make. -/
theorem C120_methods_create :
    (∀ w h c, Becomes (Creator.run (D := D) libs (.new w h (some c))) (Image.new_with_color w h c)) ∧
    (∀ w h, Becomes (Creator.run (D := D) libs (.new w h none)) (Image.new w h : R (Image F))) ∧
    (∀ w h l, Becomes (Creator.run (D := D) libs (.from_list w h l)) (Image.new_from_raw w h l)) ∧
    (∀ a cs, (Creator.run (D := D) libs (.from_np_array a cs)) = Python.from_np_array a cs) ∧
    (∀ fs path img, (Image.open libs fs path).run = .ok (.ok img) →
      (Creator.run (D := D) libs (.open fs path)).run = .ok (.ok img)) ∧
    (∀ fs path e, (Image.open libs fs path).run = .ok (.error e) →
      (Creator.run (D := D) libs (.open fs path)).run = .ok (.error e.display)) ∧
    (∀ fs path p, (Image.open libs fs path).run = .error p →
      (Creator.run (D := D) libs (.open fs path)).run = .error p) := by
  refine ⟨fun _ _ _ => becomes_ofR _, fun _ _ => becomes_ofR _, fun _ _ _ => becomes_ofR _,
    fun _ _ => rfl, fun fs path img h => ?_, fun fs path e h => ?_, fun fs path p h => ?_⟩ <;>
  · simp only [Creator.run, h]; rfl

end

/-! ## A program that meets the hypotheses -/

section
variable [Libm b32] {D G E : Type} [Scalar D] [Widen F32 D] [FloatBytes F32] (libs : Libs F32) (g : Rng G F32)

/-- The program of C119 with the colours white, black and transparent black. -/
abbrev careful : Point → Act F32 D G E Point :=
  sample Rgb.WHITE Rgb.BLACK Rgb.NONE

/-- It is careful. -/
example : ∀ code, CarefulAct (careful (D := D) (G := G) (E := E) code) := by
  have hr := white_pixel (F := F32)
  have hg := black_pixel (F := F32)
  have hb := none_pixel (F := F32)
  intro code
  cases code <;> first | trivial | exact hb | exact hg | skip
  intro c hc
  rcases List.mem_cons.1 hc with rfl | hc
  · exact hr
  · rw [List.mem_singleton.1 hc]; exact hg

/-- While its function runs for the second pixel, object 0 holds a transparent and a black pixel. -/
example : ∃ s : Python.State F32 D E Point, Arises libs g (careful (D := D) (E := E)) .create s ∧
    Holds s 0 (Image.new_from_buffer ⟨2, 1, [Rgb.NONE, Rgb.BLACK]⟩) := by
  have h : ∀ a b c : Col F32, ∃ s : Python.State F32 D E Point,
      Arises libs g (sample (D := D) (E := E) a b c) .create s ∧
        Holds s 0 (Image.new_from_buffer ⟨2, 1, [c, b]⟩) := fun a b c => by
    refine ⟨_, .step (.step (.step (.step (.step .here 0) 0) 0) 0) 0,
      ⟨Image.new_from_buffer ⟨2, 1, [c, b]⟩, .exclusive⟩, ?_, rfl⟩
    cbv
  exact h _ _ _

end
end D10
