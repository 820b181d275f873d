import Verif.SpecLibErrors
import Verif.Props.Codecs

/-!
# C115: errors of the format libraries

An error of a library reaches the caller once, unchanged in kind and text, and it is the error of the first call
that failed; I/O errors are never invented; what was written before the error is what the calls wrote.
-/

namespace D10

open D10 D10.Spec Scalar

variable {F : Type} [Scalar F]

/-! ## Reading -/

/-- The computation does not report an I/O error. -/
def NoIo {α : Type} (m : Dec α) : Prop := ∀ s, m.run ≠ .ok (.error (.IoError s))

theorem noIo_bind {α β : Type} {m : Dec α} {f : α → Dec β} (hm : NoIo m) (hf : ∀ a, NoIo (f a)) :
    NoIo (m >>= f) := by
  intro s h
  have e : (m >>= f).run = (m.run >>= fun x => match x with
    | .ok a => (f a).run
    | .error e => .ok (.error e)) := by
    show (ExceptT.bind m f).run = _
    unfold ExceptT.bind ExceptT.run ExceptT.mk
    congr 1
    funext x
    cases x <;> rfl
  rw [e] at h
  cases hx : m.run with
  | error p => rw [hx] at h; cases h
  | ok x =>
    rw [hx] at h
    cases x with
    | ok a => exact hf a s h
    | error e =>
      have : e = .IoError s := by injection h with h; injection h
      subst this
      exact hm s hx

theorem noIo_lift {α : Type} (m : R α) : NoIo (liftM m : Dec α) := by
  intro s h
  cases m with
  | ok a => cases h
  | error p => cases h

theorem noIo_pure {α : Type} (a : α) : NoIo (pure a : Dec α) := fun s h => by cases h

theorem noIo_throw {α : Type} {e : DecodingError} (h : ∀ s, e ≠ .IoError s) : NoIo (throw e : Dec α) := by
  intro s hs
  injection hs with hs
  injection hs with hs
  exact h s hs

theorem noIo_perChunk {α : Type} (n : Nat) (data : List Nat) (f : List Nat → R α) : NoIo (perChunk n data f) :=
  noIo_lift _

/-- Decides `NoIo` along the shape of a computation. -/
macro "no_io" : tactic => `(tactic| repeat' (with_reducible first
  | exact noIo_perChunk _ _ _
  | exact noIo_lift _
  | exact noIo_pure _
  | exact noIo_throw fun s h => by cases h
  | refine noIo_bind ?_ fun _ => ?_
  | split))

theorem noIo_read_into (img : DynamicImage F) : NoIo (read_into_buffer img) := by
  unfold read_into_buffer
  dsimp only
  no_io

/-- A call of a library whose error was translated, and then something that reports no I/O error: an I/O error
comes from the call. -/
theorem readIo_of {α β : Type} {x : Except DecodingError α} {f : α → Dec β} (hf : ∀ a, x = .ok a → NoIo (f a))
    {s : String} (h : (Dec.of x >>= f).run = .ok (.error (.IoError s))) : x = .error (.IoError s) := by
  cases x with
  | error e =>
    have : e = .IoError s := by
      have h : (Except.ok (Except.error e) : R (Except DecodingError β)) = _ := h
      injection h with h; injection h
    rw [this]
  | ok a => exact absurd h (hf a rfl s)

theorem decode_error_io {e : LibError} {s : String} : decode_error e = .IoError s ↔ e = .Io s := by
  cases e <;> simp [decode_error]

theorem map_io {α : Type} {x : Except LibError α} {s : String} :
    x.mapError decode_error = .error (.IoError s) ↔ x = .error (.Io s) := by
  cases x with
  | ok a => simp [Except.mapError]
  | error e => simp [Except.mapError, decode_error_io]

theorem two_io {α : Type} {x : Except LibError Unit} {y : Except LibError α} {s : String} :
    twoReads x y = .error (.IoError s) ↔ EitherFails x y (.Io s) := by
  unfold twoReads EitherFails
  cases x with
  | ok a =>
    have : (Except.mapError decode_error (.ok a : Except LibError Unit) >>=
      fun _ => y.mapError decode_error) = y.mapError decode_error := rfl
    rw [this, map_io]
    simp
  | error e =>
    have : (Except.mapError decode_error (.error e : Except LibError Unit) >>=
      fun _ => y.mapError decode_error) = .error (decode_error e) := rfl
    rw [this]
    simp [decode_error_io]

theorem two_fails {α : Type} {x : Except LibError Unit} {y : Except LibError α} {e : LibError}
    (h : EitherFails x y e) : twoReads x y = .error (decode_error e) := by
  rcases h with h | ⟨⟨a, h⟩, h'⟩
  · rw [h]; rfl
  · rw [h, h']; rfl

/-- Whatever call of a library fails first, its error is what reading gives. -/
theorem read_fails (r : RawLibs F) (input : List Nat) (f : Format) {e : LibError} (h : ReadFails r input e f) :
    (decode r.libs input f).run = .ok (.error (decode_error e)) := by
  cases f with
  | Jpeg =>
    have h : r.jpeg_decode input = .error e := h
    exact (C50_read_jpeg_fail r.libs input).1 _ (by show Except.mapError _ _ = _; rw [h]; rfl)
  | Png =>
    obtain ⟨f1, f2⟩ := C50_read_png_fail r.libs input
    rcases h with h | ⟨rd, ct, h, hv, hc, hb, hn⟩
    · exact f1 _ (by show (match r.png_read_info input with | .error e => _ | .ok p => _) = _; rw [h])
    · refine ((f2 ⟨rd.color_type, rd.bits, rd.width, rd.height,
        fun n => (rd.next_frame n).mapError decode_error⟩ ?_).2 hv).1 ct hc hb _ _ rfl ?_
      · show (match r.png_read_info input with | .error e => _ | .ok p => _) = _; rw [h]
      · show Except.mapError _ _ = _; rw [hn]; rfl
  | Gif => exact (C50_read_gif_fail r.libs input).1 _ (two_fails h)
  | Bmp => exact ((C50_read_bmp_ico_fail r.libs input).1 _ (two_fails h))
  | Ico => exact ((C50_read_bmp_ico_fail r.libs input).2.1 _ (two_fails h))
  | WebP => exact h.elim

/-- Reading gives the I/O error `s` exactly if that is the error of the library call that failed. So an I/O error
of a library is passed on as it is, and there is no other source of I/O errors once the bytes are there. -/
theorem C115_read_io (r : RawLibs F) (input : List Nat) (f : Format) (s : String) :
    (decode r.libs input f).run = .ok (.error (.IoError s)) ↔ ReadFails r input (.Io s) f := by
  refine ⟨fun h => ?_, fun h => read_fails r input f h⟩
  cases f with
  | Jpeg =>
    refine map_io.1 (readIo_of (fun a _ => ?_) h)
    dsimp only
    no_io
  | Png =>
    cases hp : r.png_read_info input with
    | error e =>
      have h2 := read_fails r input .Png (e := e) (Or.inl hp)
      rw [h2] at h
      have : decode_error e = .IoError s := by injection h with h; injection h
      exact Or.inl (by rw [hp, decode_error_io.1 this])
    | ok rd =>
      have hr : r.libs.png_read input = .ok ⟨rd.color_type, rd.bits, rd.width, rd.height,
          fun n => (rd.next_frame n).mapError decode_error⟩ := by
        show (match r.png_read_info input with | .error e => _ | .ok p => _) = _; rw [hp]
      by_cases hv : ValidSize rd.width rd.height
      · refine Or.inr ?_
        by_cases hk : ∃ ct, rd.color_type = pngColor ct ∧ rd.bits = pngDepth ct
        · obtain ⟨ct, hc, hb⟩ := hk
          refine ⟨rd, ct, hp, hv, hc, hb, ?_⟩
          cases hn : rd.next_frame (rd.width * rd.height * (channels ct * sampleSize ct)) with
          | error e =>
            have h2 := read_fails r input .Png (e := e) (Or.inr ⟨rd, ct, hp, hv, hc, hb, hn⟩)
            rw [h2] at h
            have : decode_error e = .IoError s := by injection h with h; injection h
            rw [decode_error_io.1 this]
          | ok data =>
            obtain ⟨b, hb', -⟩ := C50_read_png r.libs hr rfl rfl hv ct hc hb rfl
              (data := data.1) (hl := data.2) (by show Except.mapError _ _ = _; rw [hn]; rfl)
            rw [hb'] at h
            cases h
        · have h2 := (((C50_read_png_fail r.libs input).2 _ hr).2 hv).2 (fun ct hct => hk ⟨ct, hct⟩)
          rw [h2] at h
          cases h
      · have h2 := ((C50_read_png_fail r.libs input).2 _ hr).1 hv
        rw [h2] at h
        cases h
  | Gif =>
    refine two_io.1 (readIo_of (fun a _ => ?_) h)
    dsimp only
    no_io
  | Bmp => exact two_io.1 (readIo_of (fun a _ => noIo_read_into a) h)
  | Ico => exact two_io.1 (readIo_of (fun a _ => noIo_read_into a) h)
  | WebP =>
    have : NoIo (decode_webp r.libs input) := by
      unfold decode_webp
      dsimp only
      no_io
    exact absurd h (this s)

/-- Any other error of a library is reported as a decoding error with the library's text. -/
theorem C115_read_other (r : RawLibs F) (input : List Nat) (f : Format) (t : String)
    (h : ReadFails r input (.Other t) f) :
    (decode r.libs input f).run = .ok (.error (.Decoding t)) := read_fails r input f h

/-- In both cases the text a user of the command line sees is the library's. -/
theorem C115_read_text (r : RawLibs F) (input : List Nat) (f : Format) {e : LibError}
    (h : ReadFails r input e f) :
    ∃ d, (decode r.libs input f).run = .ok (.error d) ∧ (CommandError.Decoding d).display = libText e :=
  ⟨_, read_fails r input f h, by cases e <;> rfl⟩

/-! ## Writing -/

theorem performed_once (w : RawWritten) : Performed [w] w.once := by
  obtain ⟨bytes, res⟩ := w
  cases res with
  | ok u =>
    have := Performed.step (w := ⟨bytes, .ok u⟩) (ws := []) rfl .done
    rw [List.append_nil] at this
    exact this
  | error e => cases e with
    | Io s => exact Performed.io (w := ⟨bytes, .error (.Io s)⟩) rfl
    | Other s => exact Performed.other (w := ⟨bytes, .error (.Other s)⟩) rfl

theorem performed_twice (a b : RawWritten) : Performed [a, b] (a.twice b) := by
  obtain ⟨bytes, res⟩ := a
  cases res with
  | ok u => exact Performed.step (w := ⟨bytes, .ok u⟩) (ws := [b]) rfl (performed_once b)
  | error e => cases e with
    | Io s => exact Performed.io (w := ⟨bytes, .error (.Io s)⟩) rfl
    | Other s => exact Performed.other (w := ⟨bytes, .error (.Other s)⟩) rfl

/-- Saving as PNG performs the two calls of the library with the same image (laid out as C50 says; for 16-bit gray
see C51), and reports the first error. -/
theorem C115_write_png [FloatBytes F] (r : RawLibs F) {b : PixelBuffer (Col F)} {w h : Nat}
    {px : Nat → Nat → Col F} (sh : Shows b w h px) (ct : PngColorType) (cmp : PngCompression)
    (flt : PngFilterType) :
    ∃ data out, encode r.libs b (.Png ct cmp flt) = .ok out ∧
      Performed [r.png_write_header ⟨w, h, pngColor ct, pngDepth ct, cmp, flt, data⟩,
        r.png_write_image_data ⟨w, h, pngColor ct, pngDepth ct, cmp, flt, data⟩] out ∧
      (ct ≠ .L16 → Layout w h (channels ct * sampleSize ct) data fun x y => sampleBytes (px x y) ct) := by
  by_cases hct : ct = .L16
  · subst hct
    refine ⟨to_l16_be_vec b, _, ?_, performed_twice _ _, fun h => absurd rfl h⟩
    rw [← sh.width, ← sh.height]
    rfl
  · obtain ⟨data, hd, hl⟩ := C50_png r.libs sh ct hct cmp flt
    exact ⟨data, _, hd, performed_twice _ _, fun _ => hl⟩

/-- Saving as GIF: the header, then the frame. -/
theorem C115_write_gif [FloatBytes F] (r : RawLibs F) {b : PixelBuffer (Col F)} {w h : Nat}
    {px : Nat → Nat → Col F} (sh : Shows b w h px) (hw : w ≤ 65535) (hh : h ≤ 65535) :
    ∃ data out, encode r.libs b .Gif = .ok out ∧
      Performed [r.gif_encoder_new ⟨w, h, data, 10⟩, r.gif_write_frame ⟨w, h, data, 10⟩] out ∧
      Layout w h 4 data fun x y => sampleBytes (px x y) .Rgba8 := by
  obtain ⟨data, hd, hl⟩ := C50_gif r.libs sh hw hh
  exact ⟨data, _, hd, performed_twice _ _, hl⟩

/-- Saving as JPEG: one call. -/
theorem C115_write_jpeg [FloatBytes F] (r : RawLibs F) {b : PixelBuffer (Col F)} {w h : Nat}
    {px : Nat → Nat → Col F} (sh : Shows b w h px) (hw : w ≤ 65535) (hh : h ≤ 65535) (q : Nat)
    (prog : Bool) (sf : Option JpegSamplingFactor) (gray opt : Bool) :
    ∃ data out, encode r.libs b (.Jpeg q prog sf gray opt) = .ok out ∧
      Performed [r.jpeg_encode ⟨max 1 (min q 100), sf, prog, opt, data, w, h, gray⟩] out ∧
      Layout w h (if gray then 1 else 3) data
        fun x y => sampleBytes (px x y) (if gray then .L8 else .Rgb8) := by
  obtain ⟨data, hd, hl⟩ := C50_jpeg r.libs sh hw hh q prog sf gray opt
  exact ⟨data, _, hd, performed_once _, hl⟩

/-- Saving as BMP and as ICO: one call. -/
theorem C115_write_bmp_ico [FloatBytes F] (r : RawLibs F) {b : PixelBuffer (Col F)} {w h : Nat}
    {px : Nat → Nat → Col F} (sh : Shows b w h px) (ct : ImageColorType) :
    ∃ data, Layout w h (channels (imageSamples ct)) data
        (fun x y => sampleBytes (px x y) (imageSamples ct)) ∧
      (∃ out, encode r.libs b (.Bmp ct) = .ok out ∧ Performed [r.bmp_encode ⟨data, w, h, ct⟩] out) ∧
      ∃ out, encode r.libs b (.Ico ct) = .ok out ∧ Performed [r.ico_write_image ⟨data, w, h, ct⟩] out := by
  refine ⟨imageBytes b ct, imageBytes_layout sh ct, ⟨_, ?_, performed_once _⟩, ⟨_, ?_, performed_once _⟩⟩ <;>
    (rw [← sh.width, ← sh.height]; rfl)

/-- What `Performed` fixes: there is only one such outcome, so the theorems above say exactly what is written and
what is reported. -/
theorem C115_outcome {calls : List RawWritten} {v v' : Written} (h : Performed calls v)
    (h' : Performed calls v') : v = v' := by
  induction h generalizing v' with
  | done => cases h'; rfl
  | step ok _ ih =>
    cases h' with
    | step _ rest => rw [ih rest]
    | io fail => rw [ok] at fail; cases fail
    | other fail => rw [ok] at fail; cases fail
  | io fail =>
    cases h' with
    | step ok _ => rw [ok] at fail; cases fail
    | io fail' => rw [fail'] at fail; cases fail; rfl
    | other fail' => rw [fail'] at fail; cases fail
  | other fail =>
    cases h' with
    | step ok _ => rw [ok] at fail; cases fail
    | io fail' => rw [fail'] at fail; cases fail
    | other fail' => rw [fail'] at fail; cases fail; rfl

/-- The text of an error in writing is the library's too. -/
theorem C115_write_text {calls : List RawWritten} {v : Written} (h : Performed calls v) {d : EncodingError}
    (hd : v.result = .error d) :
    ∃ w ∈ calls, ∃ e, w.result = .error e ∧ (CommandError.Encoding d).display = libText e := by
  induction h with
  | done => cases hd
  | step _ _ ih =>
    obtain ⟨w, hw, h⟩ := ih hd
    exact ⟨w, List.mem_cons_of_mem _ hw, h⟩
  | io fail => cases hd; exact ⟨_, List.mem_cons_self, _, fail, rfl⟩
  | other fail => cases hd; exact ⟨_, List.mem_cons_self, _, fail, rfl⟩

/-! ## Cases -/

/-- Libraries of which the first call succeeds and the second fails: on reading with a full set of I/O errors, on
writing after some bytes. -/
def failing (e : LibError) : RawLibs F where
  png_read_info _ := .ok ⟨.Rgb, .Eight, 2, 1, fun _ => .error e⟩
  png_write_header _ := ⟨[137, 80], .ok ()⟩
  png_write_image_data _ := ⟨[7], .error e⟩
  jpeg_decode _ := .error e
  jpeg_info _ := none
  jpeg_encode _ := ⟨[255], .error e⟩
  gif_read_info _ := .ok ()
  gif_read_next_frame _ := .error e
  gif_encoder_new _ := ⟨[71, 73], .error e⟩
  gif_write_frame _ := ⟨[1], .ok ()⟩
  bmp_decoder_new _ := .error e
  bmp_from_decoder _ := .error (.Other "not reached")
  bmp_encode _ := ⟨[], .ok ()⟩
  ico_decoder_new _ := .ok ()
  ico_from_decoder _ := .error e
  ico_write_image _ := ⟨[0], .error e⟩
  webp_info _ := true
  webp_read _ := none
  webp_write _ := .error false
  little := true

example : ∀ f, f ≠ .WebP → ReadFails (failing (F := F) (.Io "gone")) [1, 2] (.Io "gone") f := by
  intro f hf
  cases f with
  | Png => exact Or.inr ⟨_, .Rgb8, rfl, Or.inr (by decide), rfl, rfl, rfl⟩
  | Jpeg => rfl
  | Gif => exact Or.inr ⟨⟨(), rfl⟩, rfl⟩
  | Bmp => exact Or.inl rfl
  | Ico => exact Or.inr ⟨⟨(), rfl⟩, rfl⟩
  | WebP => exact absurd rfl hf

example : (decode (failing (F := F) (.Io "gone")).libs [1, 2] .Gif).run = .ok (.error (.IoError "gone")) :=
  (C115_read_io _ _ _ _).2 (Or.inr ⟨⟨(), rfl⟩, rfl⟩)

example : (decode (failing (F := F) (.Other "bad code")).libs [1, 2] .Gif).run =
    .ok (.error (.Decoding "bad code")) :=
  C115_read_other _ _ _ _ (Or.inr ⟨⟨(), rfl⟩, rfl⟩)

/-- The header of the PNG file is there, the disk is full at the data. -/
example [FloatBytes F] {b : PixelBuffer (Col F)} {w h : Nat} {px : Nat → Nat → Col F} (sh : Shows b w h px) :
    encode (failing (.Io "disk full")).libs b (.Png .Rgb8 .Default .NoFilter) =
      .ok ⟨[137, 80, 7], .error (.IoError "disk full")⟩ := by
  obtain ⟨data, out, ho, hp, -⟩ := C115_write_png (failing (F := F) (.Io "disk full")) sh .Rgb8 .Default .NoFilter
  rw [ho, C115_outcome hp (.step rfl (.io rfl))]
  rfl

end D10
