import Verif.Model.Color

/-!
# Channels of colours

The getters, setters and `with_` methods of every colour type. A setter takes `&mut self`; here it
returns the new colour. None of them clamps.
-/

namespace D10

variable {F : Type}

/-! ## `Rgb` -/

/-- rgb.rs L58-60 -/
def Rgb.red (c : Col F) : F := c.c0

/-- rgb.rs L62-64 -/
def Rgb.set_red (c : Col F) (v : F) : Col F := { c with c0 := v }

/-- rgb.rs L66-70 -/
def Rgb.with_red (c : Col F) (v : F) : Col F := ⟨v, c.c1, c.c2, c.alpha⟩

/-- rgb.rs L72-74 -/
def Rgb.green (c : Col F) : F := c.c1

/-- rgb.rs L76-78 -/
def Rgb.set_green (c : Col F) (v : F) : Col F := { c with c1 := v }

/-- rgb.rs L80-84 -/
def Rgb.with_green (c : Col F) (v : F) : Col F := ⟨c.c0, v, c.c2, c.alpha⟩

/-- rgb.rs L86-88 -/
def Rgb.blue (c : Col F) : F := c.c2

/-- rgb.rs L90-92 -/
def Rgb.set_blue (c : Col F) (v : F) : Col F := { c with c2 := v }

/-- rgb.rs L94-98 -/
def Rgb.with_blue (c : Col F) (v : F) : Col F := ⟨c.c0, c.c1, v, c.alpha⟩

/-- rgb.rs L377-379 -/
def Rgb.alpha (c : Col F) : F := c.alpha

/-- rgb.rs L381-383 -/
def Rgb.set_alpha (c : Col F) (v : F) : Col F := { c with alpha := v }

/-- rgb.rs L385-389 -/
def Rgb.with_alpha (c : Col F) (v : F) : Col F := ⟨c.c0, c.c1, c.c2, v⟩

/-! ## `Srgb` -/

/-- srgb.rs L29-31 -/
def Srgb.red (c : Col F) : F := c.c0

/-- srgb.rs L33-35 -/
def Srgb.set_red (c : Col F) (v : F) : Col F := { c with c0 := v }

/-- srgb.rs L37-41 -/
def Srgb.with_red (c : Col F) (v : F) : Col F := ⟨v, c.c1, c.c2, c.alpha⟩

/-- srgb.rs L43-45 -/
def Srgb.green (c : Col F) : F := c.c1

/-- srgb.rs L47-49 -/
def Srgb.set_green (c : Col F) (v : F) : Col F := { c with c1 := v }

/-- srgb.rs L51-55 -/
def Srgb.with_green (c : Col F) (v : F) : Col F := ⟨c.c0, v, c.c2, c.alpha⟩

/-- srgb.rs L57-59 -/
def Srgb.blue (c : Col F) : F := c.c2

/-- srgb.rs L61-63 -/
def Srgb.set_blue (c : Col F) (v : F) : Col F := { c with c2 := v }

/-- srgb.rs L65-69 -/
def Srgb.with_blue (c : Col F) (v : F) : Col F := ⟨c.c0, c.c1, v, c.alpha⟩

/-- srgb.rs L88-90 -/
def Srgb.alpha (c : Col F) : F := c.alpha

/-- srgb.rs L92-94 -/
def Srgb.set_alpha (c : Col F) (v : F) : Col F := { c with alpha := v }

/-- srgb.rs L96-100 -/
def Srgb.with_alpha (c : Col F) (v : F) : Col F := ⟨c.c0, c.c1, c.c2, v⟩

/-! ## `Hsl` -/

/-- hsl.rs L29-31 -/
def Hsl.hue (c : Col F) : F := c.c0

/-- hsl.rs L33-35 -/
def Hsl.set_hue (c : Col F) (v : F) : Col F := { c with c0 := v }

/-- hsl.rs L53-57 -/
def Hsl.with_hue (c : Col F) (v : F) : Col F := ⟨v, c.c1, c.c2, c.alpha⟩

/-- hsl.rs L37-39 -/
def Hsl.saturation (c : Col F) : F := c.c1

/-- hsl.rs L41-43 -/
def Hsl.set_saturation (c : Col F) (v : F) : Col F := { c with c1 := v }

/-- hsl.rs L59-63 -/
def Hsl.with_saturation (c : Col F) (v : F) : Col F := ⟨c.c0, v, c.c2, c.alpha⟩

/-- hsl.rs L45-47 -/
def Hsl.lightness (c : Col F) : F := c.c2

/-- hsl.rs L49-51 -/
def Hsl.set_lightness (c : Col F) (v : F) : Col F := { c with c2 := v }

/-- hsl.rs L65-69 -/
def Hsl.with_lightness (c : Col F) (v : F) : Col F := ⟨c.c0, c.c1, v, c.alpha⟩

/-- hsl.rs L132-134 -/
def Hsl.alpha (c : Col F) : F := c.alpha

/-- hsl.rs L136-138 -/
def Hsl.set_alpha (c : Col F) (v : F) : Col F := { c with alpha := v }

/-- hsl.rs L140-144 -/
def Hsl.with_alpha (c : Col F) (v : F) : Col F := ⟨c.c0, c.c1, c.c2, v⟩

/-! ## `Hsv` -/

/-- hsv.rs L29-31 -/
def Hsv.hue (c : Col F) : F := c.c0

/-- hsv.rs L33-35 -/
def Hsv.set_hue (c : Col F) (v : F) : Col F := { c with c0 := v }

/-- hsv.rs L37-41 -/
def Hsv.with_hue (c : Col F) (v : F) : Col F := ⟨v, c.c1, c.c2, c.alpha⟩

/-- hsv.rs L43-45 -/
def Hsv.saturation (c : Col F) : F := c.c1

/-- hsv.rs L47-49 -/
def Hsv.set_saturation (c : Col F) (v : F) : Col F := { c with c1 := v }

/-- hsv.rs L51-55 -/
def Hsv.with_saturation (c : Col F) (v : F) : Col F := ⟨c.c0, v, c.c2, c.alpha⟩

/-- hsv.rs L57-59 -/
def Hsv.value (c : Col F) : F := c.c2

/-- hsv.rs L61-63 -/
def Hsv.set_value (c : Col F) (v : F) : Col F := { c with c2 := v }

/-- hsv.rs L65-69 -/
def Hsv.with_value (c : Col F) (v : F) : Col F := ⟨c.c0, c.c1, v, c.alpha⟩

/-- hsv.rs L122-124 -/
def Hsv.alpha (c : Col F) : F := c.alpha

/-- hsv.rs L126-128 -/
def Hsv.set_alpha (c : Col F) (v : F) : Col F := { c with alpha := v }

/-- hsv.rs L130-134 -/
def Hsv.with_alpha (c : Col F) (v : F) : Col F := ⟨c.c0, c.c1, c.c2, v⟩

/-! ## `Yuv` -/

/-- yuv.rs L41-43 -/
def Yuv.y (c : Col F) : F := c.c0

/-- yuv.rs L45-47 -/
def Yuv.set_y (c : Col F) (v : F) : Col F := { c with c0 := v }

/-- yuv.rs L49-53 -/
def Yuv.with_y (c : Col F) (v : F) : Col F := ⟨v, c.c1, c.c2, c.alpha⟩

/-- yuv.rs L55-57 -/
def Yuv.u (c : Col F) : F := c.c1

/-- yuv.rs L59-61 -/
def Yuv.set_u (c : Col F) (v : F) : Col F := { c with c1 := v }

/-- yuv.rs L63-67 -/
def Yuv.with_u (c : Col F) (v : F) : Col F := ⟨c.c0, v, c.c2, c.alpha⟩

/-- yuv.rs L79-81 -/
def Yuv.v (c : Col F) : F := c.c2

/-- yuv.rs L75-77 -/
def Yuv.set_v (c : Col F) (v : F) : Col F := { c with c2 := v }

/-- yuv.rs L69-73 -/
def Yuv.with_v (c : Col F) (v : F) : Col F := ⟨c.c0, c.c1, v, c.alpha⟩

/-- yuv.rs L112-114 -/
def Yuv.alpha (c : Col F) : F := c.alpha

/-- yuv.rs L116-118 -/
def Yuv.set_alpha (c : Col F) (v : F) : Col F := { c with alpha := v }

/-- yuv.rs L120-124 -/
def Yuv.with_alpha (c : Col F) (v : F) : Col F := ⟨c.c0, c.c1, c.c2, v⟩

/-! ## `Xyz` -/

/-- xyz.rs L42-44 -/
def Xyz.x (c : Col F) : F := c.c0

/-- xyz.rs L46-48 -/
def Xyz.set_x (c : Col F) (v : F) : Col F := { c with c0 := v }

/-- xyz.rs L50-54 -/
def Xyz.with_x (c : Col F) (v : F) : Col F := ⟨v, c.c1, c.c2, c.alpha⟩

/-- xyz.rs L56-58 -/
def Xyz.y (c : Col F) : F := c.c1

/-- xyz.rs L60-62 -/
def Xyz.set_y (c : Col F) (v : F) : Col F := { c with c1 := v }

/-- xyz.rs L64-68 -/
def Xyz.with_y (c : Col F) (v : F) : Col F := ⟨c.c0, v, c.c2, c.alpha⟩

/-- xyz.rs L80-82 -/
def Xyz.z (c : Col F) : F := c.c2

/-- xyz.rs L76-78 -/
def Xyz.set_z (c : Col F) (v : F) : Col F := { c with c2 := v }

/-- xyz.rs L70-74 -/
def Xyz.with_z (c : Col F) (v : F) : Col F := ⟨c.c0, c.c1, v, c.alpha⟩

/-- xyz.rs L112-114 -/
def Xyz.alpha (c : Col F) : F := c.alpha

/-- xyz.rs L116-118 -/
def Xyz.set_alpha (c : Col F) (v : F) : Col F := { c with alpha := v }

/-- xyz.rs L120-124 -/
def Xyz.with_alpha (c : Col F) (v : F) : Col F := ⟨c.c0, c.c1, c.c2, v⟩

/-! ## `Lab` -/

/-- lab.rs L144-146 -/
def Lab.l (c : Col F) : F := c.c0

/-- lab.rs L148-150 -/
def Lab.set_l (c : Col F) (v : F) : Col F := { c with c0 := v }

/-- lab.rs L152-154 -/
def Lab.with_l (c : Col F) (v : F) : Col F := ⟨v, c.c1, c.c2, c.alpha⟩

/-- lab.rs L156-158 -/
def Lab.a (c : Col F) : F := c.c1

/-- lab.rs L160-162 -/
def Lab.set_a (c : Col F) (v : F) : Col F := { c with c1 := v }

/-- lab.rs L164-166 -/
def Lab.with_a (c : Col F) (v : F) : Col F := ⟨c.c0, v, c.c2, c.alpha⟩

/-- lab.rs L168-170 -/
def Lab.b (c : Col F) : F := c.c2

/-- lab.rs L172-174 -/
def Lab.set_b (c : Col F) (v : F) : Col F := { c with c2 := v }

/-- lab.rs L176-178 -/
def Lab.with_b (c : Col F) (v : F) : Col F := ⟨c.c0, c.c1, v, c.alpha⟩

/-- lab.rs L226-228 -/
def Lab.alpha (c : Col F) : F := c.alpha

/-- lab.rs L230-232 -/
def Lab.set_alpha (c : Col F) (v : F) : Col F := { c with alpha := v }

/-- lab.rs L234-236 -/
def Lab.with_alpha (c : Col F) (v : F) : Col F := ⟨c.c0, c.c1, c.c2, v⟩

/-! ## `Lch` -/

/-- lab.rs L304-306 -/
def Lch.l (c : Col F) : F := c.c0

/-- lab.rs L308-310 -/
def Lch.set_l (c : Col F) (v : F) : Col F := { c with c0 := v }

/-- lab.rs L312-314 -/
def Lch.with_l (c : Col F) (v : F) : Col F := ⟨v, c.c1, c.c2, c.alpha⟩

/-- lab.rs L316-318 -/
def Lch.c (c : Col F) : F := c.c1

/-- lab.rs L320-322 -/
def Lch.set_c (c : Col F) (v : F) : Col F := { c with c1 := v }

/-- lab.rs L324-326 -/
def Lch.with_c (c : Col F) (v : F) : Col F := ⟨c.c0, v, c.c2, c.alpha⟩

/-- lab.rs L328-330 -/
def Lch.h (c : Col F) : F := c.c2

/-- lab.rs L332-334 -/
def Lch.set_h (c : Col F) (v : F) : Col F := { c with c2 := v }

/-- lab.rs L336-338 -/
def Lch.with_h (c : Col F) (v : F) : Col F := ⟨c.c0, c.c1, v, c.alpha⟩

/-- lab.rs L366-368 -/
def Lch.alpha (c : Col F) : F := c.alpha

/-- lab.rs L370-372 -/
def Lch.set_alpha (c : Col F) (v : F) : Col F := { c with alpha := v }

/-- lab.rs L374-376 -/
def Lch.with_alpha (c : Col F) (v : F) : Col F := ⟨c.c0, c.c1, c.c2, v⟩

end D10
