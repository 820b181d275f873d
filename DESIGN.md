# Formal model of vstroebel/d10 in Lean 4

The subject is the Rust workspace in /repo (crates d10-core, d10-ops, d10-codecs,
d10-commands, d10-cli, d10, d10-python). The model lives in `lean/Verif/`; property theorems
live in `lean/Verif/Props/`, apart from helper lemmas (`lean/Verif/Lemmas/`) and from the
small independent specification (`lean/Verif/Spec.lean`).

## Modelling decisions

* **Panics and overflow.** Every function that can panic returns `R α` (`Except Panic α`).
  `assert!`, slice indexing, `unwrap`, `validate_size` and u32/i32/usize overflow are explicit
  error values. Overflow is modelled as a panic (debug profile). Theorems that state `= .ok _`
  therefore also say that no wrap-around happens, so debug and release agree there.
* **Integers.** `u32`, `usize` are `Nat`, `i32` is `Int`; every arithmetic step that could leave
  the range goes through a checking helper, every `as` cast is the wrapping or saturating cast.
* **Floats.** All colour code is written once over a class `Scalar F` (the f32 operations the
  code uses). Two instances are used:
  * `F32` — IEEE binary32 with NaN, infinities, signed zeros, subnormals, round-to-nearest-even
    for + - * / and literals (C92 proves this against a separate definition). Library functions (`powf`, `sqrt`, `sin`, `cos`, `exp`, `tanh`,
    `atan2`) are an arbitrary parameter `Libm`; a theorem that needs a fact about them states it
    as a hypothesis.
  * `ℝ` — exact arithmetic, with `powf`, `sqrt`, ... the real functions. Division by zero returns
    an arbitrary unspecified value, so no theorem can exploit `x/0 = 0`.
  Theorems that hold for every `Scalar` need neither.
* **Pixel buffers.** `PixelBuffer T` is width, height and a `List T` (the Vec). The independent
  specification is `Shows b w h px`: the buffer has these dimensions, a valid size, and its
  pixels listed row by row are `px x y`.
* **Closures.** `FnMut` is a state-passing function; `Fn` is a function.
* **Randomness.** A random generator is an arbitrary state machine; theorems hold for all of them.
* **External crates** (png, jpeg, gif, image, webp codecs, rand, numpy, clap-free CLI std APIs)
  are not modelled; only the code of this repository around them is.

## Plan per property

- **C01 Buffer shape invariant** — Inductive set of operations over the buffer model; invariant preserved by each; induction over the operation list. Companion: every valid size is reachable.
- **C02 Construction accepts exactly the valid sizes** — Checked u32 arithmetic in the model; iff theorem against a three-line size spec and a row-major listing spec.
- **C03 Pixel write then read** — Refinement of the buffer to a function of coordinates; injectivity of x + y*width.
- **C04 Clamped access is nearest-pixel extension** — Checked casts (u32 as i32 wrapping) in the model; theorem states the spec clamp directly.
- **C05 Optional access is total** — Direct case analysis over the checked index arithmetic.
- **C06 Enumeration lists every pixel once with its coordinates** — Equality of the enumerated list with the row-major listing spec.
- **C07 Mapping is pointwise, in order, and shape preserving** — State-passing model of FnMut; theorem against a left-to-right fold spec.
- **C08 Fallible traversals stop at the first error** — Induction over the pixel list; explicit prefix/suffix statement.
- **C09 Kernel window fast path equals the clamped neighbourhood** — Both paths modelled with explicit slices; equality with the clamped spec for all N.
- **C10 Static and dynamic convolution agree** — Generic over any scalar with commutative multiplication (hence also the binary32 model); fold reindexing.
- **C11 Normalised kernels leave constant images unchanged** — Exact-arithmetic instance; sum factorisation by induction.
- **C12 Gaussian kernels are normalised, positive and symmetric** — Exact instance with exp>0; binary32 instance for the NaN witness.
- **C13 Flips** — Loop model (x outer, y inner, put_pixel) shown equal to the coordinate spec; algebra on the spec.
- **C14 Quarter turns** — As C13; the whole dihedral-group table.
- **C15 Geometric moves only permute pixels** — List permutation theorem for each operation.
- **C16 Crop** — Checked arithmetic and slice bounds in the model; spec by intersection.
- **C17 Crop composition** — Corollary of the C16 characterisation.
- **C18 Resize yields exactly the requested size** — Generic scalar model of all filters; shape theorem independent of arithmetic.
- **C19 Nearest resize only copies pixels** — Generic scalar; clamped access theorem.
- **C20 Interpolating filters reproduce constants and sample points** — Exact instance; polynomial identities.
- **C21 Free rotation** — Generic scalar model.
- **C22 Interlace** — Refinement; overflow region stated separately.
- **C23 Constructed colours are in range** — binary32 model with NaN, infinities, signed zero.
- **C24 Tonal operations keep alpha** — Generic scalar theorems, no arithmetic used.
- **C25 Tonal operations stay in range** — binary32 instance, arbitrary libm functions.
- **C26 Invert is an involution** — Rounding-error lemma of the binary32 model.
- **C27 Grayscale output is gray** — Generic + exact instances.
- **C28 HSL round trip** — Exact instance; case split over the hue sextants, with the epsilon tests of the code. Binary32: error analysis of each step, with a periodic trapezoid as the exact meaning of the hue ramp; a witness for the failure of ==.
- **C29 HSV round trip and undefined hue of grays** — Exact instance for non-grays, binary32 instance for grays; binary32 error analysis over a periodic trapezoid for all colours.
- **C30 sRGB transfer functions are inverse and monotone** — Exact instance with real powers; thresholds compared through integer powers.
- **C31 XYZ and YUV conversions invert each other** — Exact instance, linear arithmetic on the matrix product.
- **C32 Colour equality** — binary32 instance; explicit witnesses for the negative parts.
- **C33 Colour names** — String model with the number formatter as a parameter.
- **C34 Option names parse to exactly the documented variants** — iff theorem per parser.
- **C35 Alpha compositing** — Exact instance.
- **C36 Blending shape** — Refinement theorem.
- **C37 Blend intensity end points** — Exact instance per mode.
- **C38 Compose** — Refinement theorem.
- **C39 Palette mapping picks a nearest palette colour** — argmin induction over the palette; distance function generic.
- **C40 Despeckle** — Generic decision theorem, binary32 NaN witness.
- **C41 Salt-and-pepper and RGB noise** — RNG as an arbitrary state machine; theorem for all streams.
- **C42 Additive noise** — as C41
- **C43 Symmetric nearest neighbour smoothing** — Exact instance + binary32 witness.
- **C44 Histogram equalisation lookup** — Exact instance for monotonicity/range; binary32 for index safety.
- **C45 Contrast stretching** — Generic decision theorem.
- **C46 Unsharp mask** — Exact instance using C11/C12.
- **C47 Edge detection of flat images** — Corollary of C11.
- **C48 8-bit quantisation** — binary32 model; whole-table kernel evaluation plus monotonicity proof.
- **C49 16-bit quantisation** — as C48.
- **C50 Encoded byte layout** — flatMap/chunks induction.
- **C51 16-bit gray serialisation has the wrong length** — Negation proved for every non-empty image.
- **C52 Decoders produce opaque pixels for formats without alpha** — Generic theorem per variant + negation.
- **C53 Decode after encode of an untouched 8-bit image** — Exact theorem over all 256 levels, binary32 counterexample.
- **C54 Format sniffing** — iff theorem per format against a magic-number table.
- **C55 Extension detection** — String model of Path::extension.
- **C56 Opening trusts content over name** — Decision theorem.
- **C57 Saving with a bad extension leaves the file system untouched, other failures may not** — File-system state model; theorem + witness of data loss.
- **C58 JPEG and GIF dimension guard** — Decision theorem.
- **C59 CMYK conversion** — Exact + binary32 instances.
- **C60 Command queues run in order and stop at the first failure** — State-machine model; fold semantics; append homomorphism.
- **C61 Commands before opening an image fail** — Invariant over the run.
- **C62 Progress log** — Induction over the run.
- **C63 Command line grammar** — Parser model; grammar spec; soundness and completeness.
- **C64 Positional arguments** — Theorem + witness.
- **C65 Image facade keeps metadata and size** — Invariant over the facade's operations.
- **C66 Percentage resize** — Generic scalar model.
- **C67 NumPy export/import** — List model of the array; negations for Bool and LCh.
- **C68 Temperature change** — Generic scalar model with two precisions.
- **C69 Level balance** — Generic scalar model.
- **C70 Brightness, contrast and level laws** — Exact instance.
- **C71 Hue rotation wraps only once** — Exact instance; negation witness.
- **C72 Lab and LCh conversions** — Exact instance with a CIE specification.
- **C73 Lightness and saturation optimisation** — Generic scalar model with two precisions; neutral laws in exact arithmetic.
- **C74 Drawing effect** — Built from the proved window operations (blur, unsharp, despeckle, compose).
- **C75 Simulated JPEG quality** — Codec as an arbitrary function.
- **C76 Buffer conversions and predicates** — Quantified over all buffers.
- **C77 Decoding never panics and yields well-formed buffers** — Libraries as parameters with a stated contract; negation witness for JPEG.
- **C78 Saving and opening again** — Composition of the writing and reading theorems under a library contract.
- **C79 Exit status** — Model of main over the parser and the queue.
- **C80 Python options and defaults** — Wrapper model over the facade; one specification structure for all methods.
- **C81 Python pixels, lists and callbacks** — Reduction to C02, C03, C05, C08 and C38 through the wrapper model.
- **C82 Python colour classes** — Table of white points as specification.
- **C83 Formulas of the tonal operations** — Exact instance against a small table of formulas.
- **C84 Channel access** — One specification structure for the four channels, instantiated per colour type.
- **C85 Colour iterators** — Iterators as state machines; induction on the number of calls.
- **C86 Accuracy of the 32-bit computations** — Error bounds propagated through the binary32 instance and compared with the exact instance.
- **C87 No preferred direction** — Each operation's pixel recipe is shown invariant under mirroring and transposing; the moves follow.
- **C88 Resizing has no preferred direction** — The filters are written as sums with weights that are symmetric around the sampled position.
- **C89 Rotation has no preferred direction** — The rotated-back positions of mirrored pixels are mirror images; the inside test is symmetric; then as C88.
- **C90 Lanczos filters change the brightness** — Bounds of the sines at the sampled positions from bounds of π.
- **C91 How far an operation looks** — Locality of the pixel recipes, closed under composition with clamped borders.
- **C92 Floating point arithmetic follows IEEE 754** — The number layer of the model against a separate definition of rounding by distances; the definition determines the result.
- **C93 Brighter stays brighter, despite rounding** — Monotonicity of each float operation (rounding is monotone; no NaN or overflow to the wrong side can arise), composed along the code.
- **C94 A whole run of the command line** — Composition of the grammar (C63), the rules of command runs (C60, C62), saving by name (C57) and the PNG round trip (C78).
- **C95 Blurring, sharpening and edge detection stay close to the exact formula** — Running error bound of a sum by induction over its terms; relative error of the bell's argument; shares of close tables are close; the length of a vector changes by at most the change of its components.
- **C96 How colour operations combine** — The formulas of C83 and C37 composed; case distinction on the saturated side.
- **C97 Red, green and blue are treated alike** — Each result pixel is one recipe applied to each channel.
- **C98 Grey pictures stay grey** — Equal channels go through equal computations; the conversion to HSL gives greys the saturation 0, from which the conversion back makes greys.
- **C99 Recolouring before or after; negatives; superposition** — Both sides show the same pixels; sums of weights.
- **C100 What a colour prints** — Rounding error bounds show that a decimal with at most four places is the only one of at most its length near its float; the digits are then laid out.
- **C101 Numbers on the command line** — The reader of the standard library is modelled from its documented grammar and shown to accept exactly the grammar's texts with their values.
- **C102 How changes of hue, saturation and lightness combine** — Each channel is a periodic, Lipschitz function of the hue between the least and the greatest channel; the six sectors of the circle are inverted one by one.
- **C103 Enlarging with sharp pixels and going back** — The distance of the scaled position from the nearest half exceeds the accumulated rounding error, except where the position is exactly representable.
- **C104 Resizing stays close to the exact formula** — Running error bounds for the positions and the interpolation polynomials; the exact interpolations are Lipschitz functions of the position, also across the borders of pixels.
- **C105 Rotating stays close to the exact formula** — Running error bound through the rotation formula (half integers are exact); Lipschitz bounds of sine, cosine and the interpolations as in C104.
- **C106 When the command line panics** — Invariant over runs: the current image's size and data agree (kept by every command), so that only decoding can fail, and C77 says when.
- **C107 A brighter picture gives a brighter result** — Sums with non-negative weights and rounding keep the order; interpolation between two values keeps it for a fraction in [0, 1]; two counterexamples, evaluated.
- **C108 What rounding errors mean for the stored bytes** — The sRGB curve is a Lipschitz function with constant 12.92; errors of powf, of the product with 255 and of truncation are added.
- **C109 Saving when the disk fails or the process is stopped** — The loops of write_all and BufWriter are modelled from the standard library; the invariant is that the file followed by the buffer is what was handed over.
- **C110 Readers that deliver in pieces** — Induction over the answers of the reader; prefixes of the magic numbers.
- **C111 Editing through references** — A reference is an index into the data; induction over the writes.
- **C112 Lab with 32-bit numbers** — Running error bounds in both branches, and a bound on how far the two formulas differ near the switch; bounds on the derivative of the cube root and the cube.
- **C113 LCh with 32-bit numbers** — Relative error of the sum of squares and its root; an error of the hue moves (a, b) by at most chroma times the error, so the ill-conditioned hue of grays does no harm.
- **C114 Changing the channels with a function** — The function is a computation in an arbitrary monad; cases by its results.
- **C115 Errors of the format libraries** — The libraries get an error type of their own and one function per call; cases by the results of the calls. That nothing else reports an I/O error follows the structure of the decoders.
- **C116 YUV with 32-bit numbers** — Running error bounds for the two matrices; the product of the exact matrices is near the identity; bounds on the slope of the transfer function, extended to numbers slightly outside [0, 1].
- **C117 Through any colour type and back with 32-bit numbers** — The bounds of the single conversions (C28, C29, C86, C112, C113, C116) for each type; induction over the sequence; the slope of the transfer function bounds the effect on the bytes.
- **C118 Pictures stay in range** — Induction over the operations; for each one, that the colours it makes are clamped, are those of its input or are bounded by monotone rounding. Counterexamples for the operations left out.
- **C119 Python functions and threads never see a half rewritten image** — A Python program is an arbitrary type of program points with the next action at each of them; a schedule is any sequence of thread numbers. Invariant over all steps: the borrow counter of each object is the number of calls in progress that use it, and each call in progress fits the images it began with. Then the course of a single call from beginning to end.
- **C120 Image objects of Python programs keep their shape and their range** — Invariant over all steps of the programs of C119; for each method the invariant of the library's images (C65) and of images in range (C118). A call in progress has collected at most as many colours as there are pixels.
- **C121 When methods of Python images panic** — A table of the causes, method by method, and an equivalence for each, from the exact results of the other properties; programs by C119 and C120. Distances and, for the filter `auto`, sides above 2^30 and 2^27 are left out.
- **C122 Pictures of numbers stay pictures of numbers** — Bounds by powers of two for every intermediate result that must stay finite; for the others, that the two operands are not infinities of opposite sign or zero and infinity. Then induction over the commands as in C118. Counterexamples for the two exceptions.
- **C123 Programs that work with numbers make pictures of numbers** — Induction over the methods as in C118. Sums of any length stay bounded because adding a small number to a large one no longer changes it; divisors are bounded from below; the normalised tables of equalizing lie between 0 and 1 because rounding is monotone. A counterexample for the blend.
- **C124 Blurring, sharpening and drawing lose no numbers** — The centre of the bell bounds the sum of the weights from below, so weights lie between 0 and 1; sums of any length stay below 2^60 because a small number added to a large one is absorbed. For the drawing, where NaN can be (only in the green channel) and that the last steps remove it.
- **C125 What opening and saving again and again costs** — The error of the way from sRGB to linear and back from the bounds of C86 and the slope of the transfer function; a number near a level is stored as this level or the one below because the bounds are themselves 32-bit numbers. Induction over the generations with C78.
- **C126 The corrections for a whole picture lose no numbers** — Sums of any length stay bounded because a small number added to a large one is absorbed; running error bounds for the chromaticity of the light show that its channels are at least 1/100, so the factors are finite; the exponents are positive numbers. Counterexamples where numbers are lost. Optimizing the saturation in LCh is left out.
- **C127 A whole program of operations stays close to exact arithmetic** — The bounds of the single calls (C86, C95, C104) for the picture in 32-bit numbers; for the exact formulas, how much they enlarge differences (a weighted mean does not, the four weights of a bicubic sample add up to at most 5/4 in absolute value per direction, a power from 1 on is not steeper than its exponent); induction over the calls.
- **C128 The Lanczos filters stay close to the exact formula** — sin(x)/x is 1/2-Lipschitz (integral of the cosine), so rounding the distance to a pixel costs little; running error bounds for the weight and for the two sums; positions from C104 and C105. The window size from relative error bounds.
- **C129 How exact a whole run of the command line is** — C94 for the run, C50 for the samples read and written, the factors and errors of C127 for each option, C108 for the bytes; induction over the options.
- **C130 Joining pictures stays close to exact arithmetic** — Running error bounds for the five formulas; the exact formulas move between base and overlay by a fraction, so differences of the two and of the fraction add up; pixels from C36 and C38.
- **C131 Every kind of file keeps pictures close to exact arithmetic** — The slope of the sRGB curve bounds how a difference grows; rounding and cutting off cost one step and 1/256; products of two bytes are exact in 32 bits, so CMYK adds no error before the curve; layouts as in C50.
- **C132 How exact a run is that writes any kind of file** — Running error bound for the quotient in the levels, then C127 for the power; C131 for what the library is given; C57 and C60 for the file and the end of the program.
- **C133 Taking away saturation** — Running error bounds for hue, saturation and the way back; the hue as a position on the wheel whose error times the spread stays small; the exact identity that channels are linear in the saturation; C28 and C83.
- **C134 Turning the hue** — The wheel position of C133 for the hue, an error bound for the turned hue up to whole turns, the error bound of the way back; the exact half from C28 and C71; a turned channel as the least or the greatest of linear functions of the channels, for the enlargement.
- **C135 Noise stays close to exact arithmetic when the random numbers are the same** — C41 and C42 give the walk over the pixels; two walks side by side by induction over the pixels; a running error bound for one channel; rounding is monotone and keeps 32-bit numbers, so the rounded comparison can only differ from the exact one when both sides meet.
- **C136 The command line with options for colours and noise stays close to exact arithmetic** — Every option means the same command with the same numbers to both programs; induction over the options with C135 and the exactness of the colour commands; then C60, C94 and the bytes of C108.
- **C137 Changing the lightness and adding saturation, and why near white they are unstable** — Hue, saturation and lightness of a colour in closed form, the channels as lightness plus span times a function of the hue; the hue drops out by comparing with the round trip C28.
- **C138 Layers of partly transparent colours and images** — Induction over the layers from the formula for one blending (C35); the usual rule and the weights are in SpecLayers.lean; images by C38; rounding by C86 and C130.
- **C139 Stretching the contrast again** — Black and white points as counts of values (C45); the values of a level are followed through the stretching, so the counts after it are not smaller; the counterexample from the same theorem applied twice.
- **C140 A command line that saves several times stays close to exact arithmetic** — Induction over the saves with the run of the options between two saves of C136; after each save the two file systems differ only in files that have been saved (C57), and a saved file remains unless it is saved again.
- **C141 Laws of blending pictures** — Pixelwise from C36 and C37; the counterexamples for different sizes and for rounded sums are theorems; for 32-bit numbers multiplication by 1 and addition of 0 are exact.
- **C142 Moving pictures before or after they are joined** — Each move places pixels at places that depend only on the size (C13, C14, C16, C22), and joining works pixel by pixel (C36, C38).
- **C143 What matters of a palette** — Invariant of the search loop: an entry that has been looked at is never nearer than the best so far; the rest from the characterisation of the chosen entry in C39.
- **C144 Interlacing again and again** — From the description of the result in C22: moving in one direction and stopping at the edge adds up.
- **C145 Cropping and moving** — From the descriptions of the results in C13, C14 and C16, with linear arithmetic for the places.
- **C146 Making a gray picture gray again, with 32-bit numbers** — Rounding of doubling and halving is exact; the accuracy of C86 together with C27 for the rest; a number just below one as the witness against exactness.
- **C147 The negative of a negative, with 32-bit numbers** — The 32-bit numbers from one half on are multiples of 2^-24, the complement of such a number is exact, and every complement is such a multiple.
- **C148 Settings that should change nothing, with 32-bit numbers** — The 32-bit numbers from one quarter on are multiples of 2^-25, and subtracting and adding one half is exact for such multiples and always gives one.
- **C149 Compositing with 32-bit numbers** — Products with 0 and 1 and sums with 0 are exact; rounding keeps the order; two pairs of byte values as witnesses against staying between.
- **C150 Blending that shows nothing of the second picture, with 32-bit numbers** — Products with 0 and 1 and sums with 0 are exact; C149 for the normal mode; C36 for pictures.

## How statements are built

Files under `lean/Verif/`:

* `Model/*.lean` — the code, function by function, each with the file and lines it models.
* `Spec*.lean` — the vocabulary of the statements: what a buffer shows (`Shows`, `ValidSize`, `rows`),
  reference formulas, tables of option names, an abstract disk, an abstract command line grammar, and so on.
  They do not use the model's functions, except the types and primitive operations they talk about.
* `Lemmas/*.lean` — helper lemmas; nothing there is claimed as a property.
* `Props/*.lean` — the property theorems, named `Cnn_…` after the property, each file followed by examples that
  instantiate the hypotheses with concrete values.

A theorem about a property that the code violates is stated as the code behaves: the exact exception is part of the
statement of the property, and a theorem with a concrete witness proves that it really occurs (list below).

## Trusted base

* Lean 4.33.0's kernel. No `sorry`, no axioms of this development, no `native_decide`, no `bv_decide`, no
  `implemented_by`, no `unsafe`.
* The axioms `propext`, `Classical.choice` and `Quot.sound` of Lean's standard library (see the list per theorem at the
  end of this file). `Classical.choice` comes in mainly through the real numbers and through Mathlib's tactics.
* The reading of the Rust source: each definition cites file and lines. Nothing checks mechanically that the model is
  the code.
* The reading of the language and its standard library that the model contains: evaluation order, `?`, iterator
  adapters (`map`, `zip`, `enumerate`, `collect`, `chunks`), `Vec`, `f32::clamp/min/max/floor/ceil/abs`, saturating
  float-to-integer casts, wrapping integer casts, panics of arithmetic overflow (debug profile), `as` casts,
  `Path::extension`, `str::parse` for enums, `str::parse::<f32>` (`Model/Text.lean`), and what `f32::to_string` promises
  (`Prints` in `SpecText.lean`).
* For binary32 and binary64: the definition of IEEE rounding in `Model/Scalar.lean` (an `FP` value is NaN, an infinity,
  a signed zero or a rational on the grid; an operation rounds the exact rational result to nearest, ties to even).
  Library functions (`powf`, `sqrt`, `sin`, ...) are arbitrary there. `f32::mul_add` and extended precision do not occur.

### External behaviour taken as a parameter

These are universally quantified, so a theorem holds whatever they do, unless it names an assumption:

* random generators: any state machine (C41, C42);
* the codec libraries (png, jpeg-decoder, jpeg-encoder, gif, image, libwebp): any functions; where a theorem needs a
  contract (sizes agree with the data, writing then reading a PNG gives the same samples) it is a hypothesis with a name
  (`Libs`, `Lossless`, ...), and an example shows a library that meets it;
* the file system: a state with reading and writing functions that may fail, cut off or lose data;
* number formatting and parsing of the standard library;
* closures, palettes, Python callbacks: arbitrary, possibly failing or stateful;
* `powf`, `sqrt`, `exp`, `sin`, `cos`, `tanh`, `atan2` in floating point.

### Modelled

| crate | modelled | left out |
|---|---|---|
| d10-core | pixelbuffer.rs, kernel.rs, kernel_dyn.rs, color/{mod,rgb,srgb,hsl,hsv,yuv,xyz,lab,iter}.rs, errors.rs | `Debug` output; allocation; `Send`/`Sync` |
| d10-ops | all operations: flip, rotate_90, rotate, crop, resize, filters, interlace, compose, blend, gaussian_blur, unsharp, edge_detection, despeckle, symmetric_nearest_neighbor, noise (4 files), equalize, stretch_contrast, saturation, lightness, balance_channels, temperature, apply_palette, drawing, jpeg_quality | time and memory |
| d10-codecs | lib.rs (sniffing, formats, files), utils.rs (byte layout, decoding of `DynamicImage`), png.rs, jpeg.rs, gif.rs, bmp.rs, ico.rs, webp.rs (guards and sample conversion), errors.rs | the codec libraries themselves; raw pointers (the C callback of libwebp is modelled as a function of the bytes) |
| d10 | image.rs (the facade) | re-exports |
| d10-commands | commands.rs, queue.rs, errors.rs, log.rs | wall-clock text of the log |
| d10-cli | main.rs (arguments, positional files, exit status) | terminal encoding |
| d10-python | image.rs, color.rs, lib.rs: methods, options, NumPy exchange, items, comparison, borrowed objects, callbacks and threads (Model/Objects) | when objects are freed, the PyO3 library itself (its borrow rules are modelled from its documentation), the text of some exceptions |

### What a theorem about ℝ says about the program

A theorem about `ℝ` is about the formulas of the program, computed without rounding. It does not bound the rounding
error of the running program. Where the rounding matters (equality, byte conversion, percentages, ranges, constants,
NaN) there are theorems about `F32`/`F64`, or about every `Scalar`.

C86 closes the gap for the colour operations it lists: it bounds the distance between the binary32 result and the exact
result, for every colour in the unit range. Where such an operation calls `powf`, the theorem assumes that the
platform's `powf` is within a stated relative distance of the real power (`Spec.PowWithin`); an example shows a `powf`
that meets the assumption. C95 does the same for convolutions, blurring, sharpening and edge detection; it assumes that
the platform's `exp` (on numbers up to 0) is within `δ` of the real one and stays in [0, 1] (`Spec.ExpWithin`) and that
its `sqrt` has a relative error of at most 2^-23 (`Spec.SqrtWithin`), again with an example that meets both.

## Where the code departs from what a user might expect

Most items are theorems about the model; the property states the behaviour as it is. Items marked (read) were only
seen while reading the code.

* C04: clamped access to an empty buffer panics.
* C08: a fallible in-place traversal leaves the pixels before the error changed.
* C12, C43, C40: a Gaussian of radius 0 with default sigma, SNN with radius 0 without centre, despeckle with an amount
  of 9 or more on dark surroundings divide zero by zero; radii above 32767 overflow.
* C18: the automatic filter's sampling window overflows `i32` for extreme reductions.
* C24, C83: vibrance and difference drop the alpha value.
* C28, C29: grey colours have no hue in HSV (NaN by division by zero) and hue 0 in HSL.
* C28: in binary32 the round trip through HSL is not always `==` to the original: a colour whose red or green is just
  under EPSILON below its greatest channel gets the greatest channel there, and rounding adds to that error.
* C32: equality with tolerance is not transitive; NaN equals everything.
* C36, C37: blending two images of different shapes can exceed the largest size and panic; the result has the alpha of
  the second colour at every intensity.
* C71: hue rotation wraps only once; two turns leave the range, and from three turns on every colour becomes gray.
* C44: in `f32`, bins of the histogram stop counting at 2^24 pixels.
* C47: the Laplace filter is not clamped.
* C51: 16-bit grey PNG data has four bytes per pixel instead of two, so saving fails.
* C52: 16-bit RGB images without alpha decode as fully transparent.
* C53, C78: white decodes and encodes as 254 in binary32 (sample quantisation truncates).
* C57: a failed save has already destroyed the old file; a failed flush is reported as success.
* C59: CMYK without ink is not quite white (division by 65536).
* C64: an option before the input file makes the input a file to save to.
* C65: the background colour cannot be set, so rotation always fills with transparent black.
* C66: resizing to 100 % changes sides above 2^24 pixels; an empty image panics.
* C67: NumPy booleans are inverted on import; four-channel LCh arrays are read as Lab; arrays with fewer than two
  dimensions panic.
* C68: changing the temperature to 1000 K divides zero by zero in the blue channel.
* C69: balancing the channels in RGB mode can leave the range 0..1.
* C77: a JPEG with too many pixels panics instead of giving an error.
* C82: `!=` of Python colours compares object identity, so equal colours are also unequal.
* C84: setters do not clamp.
* C87: symmetric nearest neighbour smoothing breaks ties by direction, so it does not commute with flips.
* C88: halving by the automatic filter is not symmetric (its kernel is stretched to the diameter of the window instead
  of its radius, so it is cut off); the nearest-pixel filter reads from the corner of a pixel, not from its middle.
* C90: halving darkens an image of one colour by 1.1 % with the Lanczos filter and brightens it by 7 % with the automatic
  filter.
* C95: conversion to 8 bits truncates, so a blurred 8-bit picture of one colour is only shown to stay within one level of
  that colour, although its channels move by far less.
* C118: Laplace edge detection, Gaussian blur, the Lanczos filters and balancing in RGB or HSV do not clamp; the first and the
  last are shown to give negative channels of a picture in range.
* C119: `save` takes `&mut self`, so an image cannot be saved from within the function of its own `map_colors`; `compose`
  panics instead of raising a Python error if one of its images is being changed; `apply_palette_in_place` of an image with
  itself always raises.
* C121: `put_pixel` and `__setitem__` with a position outside the image panic, although `__getitem__` there raises an
  ordinary exception; `from_np_array` panics for arrays with fewer than two dimensions; `resize` of an empty image panics.
* C98: stretching the saturation by a factor below 1 gives grey pixels a saturation, so they turn reddish.
* C122: `with_gamma_saturation` does not clamp its result: with a gamma of -1, black becomes NaN. `-brightness nan` and the
  like are accepted on the command line and fill the picture with NaN.
* C123: blending in HSL with a huge finite intensity makes NaN; `Image::blend` does not limit the intensity.
* C124: blurring with radius 0 and without a width makes the whole picture NaN: the width is computed as 0. Drawing with reduced colours of a picture with grey pixels has NaN in the green channel on the way; the last step happens to remove it.
* C100: `NaN.0`, `inf.0` and `-0.0` are shown; the hue of every grey colour in HSV is shown as `NaN.0`.
* C101: the command line takes `nan` and `inf` as numbers.
* C103: enlarging with the nearest-pixel filter moves the picture by half a pixel to the left and up: by a factor 4, the
  first column is shown twice and the last one six times.
* C109: an error of the last flush is not reported: a picture of less than 8 KiB can be saved successfully to an empty file
  (`BufWriter` is dropped, not flushed). This makes the general statement of C57 precise.
* C110: the WebP decoder and `Format::from_reader` do not try again after `Interrupted`; a reader that delivers less than
  12 bytes at first makes a WebP file unknown.

## Axioms per theorem

From `#print axioms` for every theorem of MANIFEST.json.

* propext (22 theorems): `C04_get_pixel_clamped_empty`, `C08_try_map_colors_err`, `C08_try_mod_colors_ok`, `C08_try_mod_colors_err`, `C09_get_kernel_dyn`, `C34_message`, `C38_compose_none`, `C54_first_twelve`, `C60_builders`, `C60_messages`, `C65_compose`, `C67_data_types`, `C75_codec_error`, `C109_silent`, `C109_to_buffer`, `C109_to_writer`, `C109_webp`, `C110_whole`, `C110_error`, `C110_from_reader_error`, `C115_write_text`, `C144_mirrored`

* no axioms (3 theorems): `C55_usual`, `C111_image`, `C115_outcome`

* propext, Quot.sound (38 theorems): `C03_get_pixel`, `C04_get_pixel_clamped`, `C04_nearest`, `C06_enumerate`, `C07_map_colors`, `C07_mod_eq_map`, `C07_mod_colors`, `C07_map_colors_stateful`, `C07_mod_colors_enumerated`, `C08_try_map_colors_ok`, `C08_cases`, `C10_kernel_get`, `C10_kernel_new`, `C23_other_constructors`, `C38_try_compose_array`, `C38_compose_array`, `C41_salt_n_pepper_noise`, `C41_rgb_noise`, `C41_in_place`, `C42_random_noise`, `C42_gaussian_noise`, `C49_native`, `C65_operations_noise`, `C65_pixels`, `C65_compose_array`, `C65_new`, `C68_alpha`, `C81_compose_none`, `C82_equal`, `C82_not_equal`, `C82_no_order`, `C82_map_channels`, `C82_new`, `C82_reference`, `C85_list`, `C111_source`, `C114_calls`, `C114_total`

* propext, Classical.choice, Quot.sound (818 theorems): `C01_reachable_wellFormed`, `C01_wellFormed_reachable`, `C02_new_with_color`, `C02_new`, `C02_new_from_raw`, `C02_new_from_func`, `C03_put_pixel`, `C03_get_after_put`, `C05_is_in_image`, `C05_get_pixel_optional`, `C06_rebuild`, `C07_map_colors_enumerated`, `C08_try_new_from_func`, `C08_try_map_colors_enumerated`, `C08_try_mod_colors_enumerated`, `C09_get_kernel`, `C09_get_kernel_in_image`, `C09_get_kernel_empty`, `C10_apply_kernel`, `C10_apply_kernel_dyn`, `C10_agree`, `C10_sobel_kernels`, `C11_constant`, `C11_constant_one`, `C11_constant_zero`, `C11_constant_dyn`, `C11_between`, `C12_constructors`, `C12_formula`, `C12_gaussian`, `C12_default_sigma`, `C12_sigma_zero_nan`, `C12_default_sigma_radius0`, `C12_gaussian_blur`, `C12_blur_constant`, `C13_flip_horizontal`, `C13_flip_vertical`, `C13_flip_horizontal_involution`, `C13_flip_vertical_involution`, `C13_flips_commute`, `C14_rotate90`, `C14_rotate180`, `C14_rotate270`, `C14_rotate180_eq_flips`, `C14_rotate90_twice`, `C14_rotate180_involution`, `C14_rotate90_rotate270`, `C14_rotate90_four`, `C15_permute`, `C16_crop`, `C17_crop_crop`, `C17_crop_full`, `C18_resize`, `C18_resize_same`, `C18_resize_invalid`, `C18_resize_empty`, `C18_auto_window`, `C19_nearest_copies`, `C19_nearest_position`, `C20_interpolation`, `C20_sample_at_pixel`, `C20_resize_constant`, `C20_rotate_constant`, `C20_bilinear_between`, `C20_position`, `C21_rotate_360`, `C21_rotate`, `C21_rotated_position`, `C21_rotate_zero`, `C22_interlace`, `C22_interlace_zero`, `C22_interlace_overflow`, `C23_constructors`, `C23_range`, `C23_identity`, `C23_exact`, `C24_channel_maps_keep_alpha`, `C24_hsl_operations_keep_alpha`, `C24_vibrance_difference_opaque`, `C24_conversions_keep_alpha`, `C25_tonal_operations_in_range`, `C25_conversions_in_range`, `C25_gray_hsv_not_clamped`, `C26_invert`, `C26_invert_involution`, `C26_invert_involution_exact`, `C27_gray_channels`, `C27_reported_gray`, `C27_gray_value`, `C27_gray_stays`, `C27_default`, `C28_hsl_round_trip`, `C28_hsl_round_trip_exact`, `C28_hsl_range`, `C28_hsl_float`, `C28_hsl_float_apart`, `C28_hsl_float_not_eq`, `C29_hsv_round_trip_exact`, `C29_hsv_round_trip`, `C29_gray_hue_is_nan`, `C29_hsv_float`, `C29_hsv_float_eq`, `C30_end_points`, `C30_strictly_monotone`, `C30_range`, `C30_round_trip`, `C30_round_trip_linear`, `C30_colours`, `C31_xyz_round_trip`, `C31_yuv_round_trip`, `C31_yuv_round_trip_rgb`, `C32_eq_iff`, `C32_within_eq`, `C32_eq_within`, `C32_refl_symm`, `C32_nan_channel`, `C32_not_transitive`, `C33_display`, `C33_transparency`, `C33_number`, `C34_intensity`, `C34_edge_detection`, `C34_drawing`, `C34_saturation`, `C34_balance`, `C34_filter`, `C34_equalize`, `C34_blend`, `C34_png_color`, `C34_png_filter`, `C34_png_compression`, `C34_bmp_color`, `C34_ico_color`, `C34_jpeg_sampling`, `C34_webp_preset`, `C35_alpha_blend`, `C35_ends`, `C35_between`, `C36_blend_image`, `C37_channel_modes`, `C37_intensity_zero`, `C37_intensity_one`, `C37_darken_lighten`, `C37_normal`, `C37_normal_ends`, `C37_hsl_modes`, `C37_lch_modes`, `C37_hue_shorter_way`, `C37_hue_ends`, `C37_converted_modes_ends`, `C37_hsl_intensity_zero`, `C37_range`, `C38_try_compose`, `C38_compose`, `C39_apply_palette`, `C39_in_place`, `C39_empty_palette`, `C39_nearest`, `C39_palette_colour_kept`, `C40_despeckle`, `C40_mean`, `C40_all_dark_nan`, `C41_salt_n_pepper_pixels`, `C41_rgb_noise_pixels`, `C41_threshold_zero`, `C42_noise_pixels`, `C42_alpha_zero`, `C43_symmetric_nearest_neighbor`, `C43_huge_radius`, `C43_mean`, `C43_nearer`, `C43_constant`, `C43_radius_zero_nan`, `C44_table`, `C44_equalize`, `C44_exact`, `C44_monotone`, `C44_order_kept`, `C44_f32`, `C44_count_stuck`, `C45_stretch_contrast`, `C45_alpha`, `C45_black_point`, `C45_white_point`, `C45_ordered`, `C45_channel`, `C46_unsharp`, `C46_factor_zero`, `C46_constant`, `C46_range`, `C47_sobel`, `C47_laplace`, `C47_constant`, `C48_round_trip`, `C48_round_trip_exact`, `C48_encode`, `C48_encode_exact`, `C48_decode`, `C48_decode_exact`, `C48_monotone`, `C48_byte`, `C48_special`, `C49_round_trip`, `C49_round_trip_exact`, `C49_encode`, `C49_encode_exact`, `C49_decode_exact`, `C49_monotone`, `C49_word`, `C49_special`, `C50_png`, `C50_bmp`, `C50_ico`, `C50_jpeg`, `C50_gif`, `C50_webp`, `C50_read_png`, `C50_read_png_fail`, `C50_read_jpeg`, `C50_read_jpeg_fail`, `C50_read_gif`, `C50_read_gif_fail`, `C50_read_webp`, `C50_read_webp_fail`, `C50_read_bmp`, `C50_read_ico`, `C50_read_bmp_ico_fail`, `C51_length`, `C51_rejected`, `C52_opaque`, `C52_rgb16_transparent`, `C53_png_exact`, `C53_exact`, `C53_white`, `C53_alpha`, `C54_sniff`, `C54_unique`, `C54_unknown`, `C54_append`, `C54_short_read`, `C55_from_path`, `C55_unique`, `C55_encoding`, `C55_case`, `C56_content`, `C56_name`, `C56_unknown`, `C56_unreadable`, `C56_memory`, `C57_bad_extension`, `C57_by_name`, `C57_not_created`, `C57_created`, `C57_other_files`, `C57_content_lost`, `C57_ok_but_cut`, `C58_jpeg`, `C58_jpeg_iff`, `C58_gif`, `C58_gif_iff`, `C58_settings`, `C59_formula`, `C59_range`, `C59_more_ink`, `C59_more_ink_strict`, `C59_black`, `C59_no_ink`, `C59_formula_f32`, `C60_run`, `C60_deterministic`, `C60_append`, `C60_first_failure`, `C60_other_files`, `C60_saved_remains`, `C60_recolour`, `C61_has_image`, `C61_after_open`, `C61_iff`, `C62_log`, `C62_all`, `C62_silent`, `C63_ok`, `C63_error`, `C63_unambiguous`, `C64_first`, `C64_later`, `C64_opened`, `C64_option_first`, `C65_operations`, `C65_operations_tone`, `C65_open`, `C65_save`, `C65_same_size`, `C65_wellFormed`, `C65_no_background`, `C65_rotate`, `C65_rotate_background`, `C66_resize_pct`, `C66_same`, `C66_too_large`, `C66_empty`, `C66_side`, `C66_hundred_exact`, `C66_hundred`, `C66_hundred_large`, `C67_export`, `C67_export_gray`, `C67_export_errors`, `C67_element`, `C67_import_alpha`, `C67_import`, `C67_import_gray`, `C67_lch_read_as_lab`, `C67_import_errors`, `C67_import_other`, `C67_import_size`, `C67_round_trip`, `C67_round_trip_opaque`, `C67_bool_inverted`, `C67_bool_white`, `C67_uint8_round_trip`, `C67_uint16_round_trip`, `C67_round_trip_models`, `C67_lch_round_trip_fails`, `C68_same_picture`, `C68_light`, `C68_change`, `C68_optimize`, `C68_same_temperature`, `C68_same_f32`, `C68_cold_nan`, `C69_balance`, `C69_alpha`, `C69_channel`, `C69_leaves_range`, `C70_neutral`, `C70_neutral_hsl`, `C70_monotone`, `C70_level`, `C71_wraps_once`, `C71_full_turn`, `C71_large_angle_leaves_range`, `C71_three_turns_wrong`, `C71_rotation`, `C71_large_angle_gray`, `C72_xyz_to_lab`, `C72_lab_to_xyz`, `C72_lab_by_xyz`, `C72_white`, `C72_xyz_round_trip`, `C72_lab_round_trip`, `C72_lch`, `C72_lch_to_xyz`, `C72_lch_round_trip`, `C73_lightness`, `C73_saturation`, `C73_alpha`, `C73_power`, `C73_lightness_zero`, `C73_saturation_neutral`, `C74_drawing`, `C74_gray`, `C74_colored_alpha`, `C74_opaque`, `C75_jpeg_quality`, `C76_convert`, `C76_has_transparency`, `C76_is_grayscale`, `C76_f32`, `C77_no_panic`, `C77_jpeg_panics`, `C77_panic_iff`, `C78_png`, `C78_bmp_ico`, `C78_webp`, `C78_again`, `C78_close`, `C79_main`, `C79_code`, `C79_success`, `C79_wrong_changes_nothing`, `C80_filters`, `C80_options`, `C80_defaults`, `C80_files`, `C80_jpeg`, `C80_png`, `C80_formats`, `C81_new`, `C81_new_invalid`, `C81_items`, `C81_map`, `C81_mod`, `C81_compose`, `C82_text`, `C82_equal_and_not_equal`, `C82_convert`, `C82_to_gray`, `C83_brightness_contrast`, `C83_gamma`, `C83_level`, `C83_mix`, `C83_hsl`, `C83_hue`, `C84_rgb`, `C84_srgb`, `C84_hsl`, `C84_hsv`, `C84_yuv`, `C84_xyz`, `C84_lab`, `C84_lch`, `C85_values`, `C85_references`, `C86_sepia`, `C86_invert`, `C86_difference`, `C86_brightness`, `C86_contrast`, `C86_brightness_contrast`, `C86_alpha_blend`, `C86_matrices`, `C86_xyz_back`, `C86_xyz_round_trip`, `C86_gray`, `C86_gamma_to_linear`, `C86_linear_to_gamma`, `C86_srgb`, `C86_srgb_round_trip`, `C86_srgb_round_trip_rgb`, `C86_gamma`, `C87_pointwise`, `C87_palette`, `C87_pointwise_copying`, `C87_equalize`, `C87_stretch_contrast`, `C87_balance`, `C87_convolution`, `C87_gaussian_blur`, `C87_unsharp`, `C87_edge_detection`, `C87_despeckle`, `C87_drawing`, `C87_change_color_temperature`, `C87_optimize_color_temperature`, `C87_optimize_lightness`, `C87_optimize_saturation`, `C87_snn_direction`, `C88_auto_direction`, `C88_nearest_direction`, `C88_resize`, `C89_rotate_turns`, `C89_rotate_flips`, `C90_lanczos3_darkens`, `C90_auto_brightens`, `C91_pointwise`, `C91_convolution`, `C91_convolution_dyn`, `C91_gaussian_blur`, `C91_unsharp`, `C91_edge_detection`, `C91_despeckle`, `C91_symmetric_nearest_neighbor`, `C91_drawing`, `C92_formats`, `C92_rounding`, `C92_literal`, `C92_add`, `C92_sub_neg`, `C92_mul`, `C92_div`, `C92_compare`, `C92_min_max`, `C92_integral`, `C92_toInt`, `C92_cast`, `C92_widen`, `C92_bits`, `C93_brightness`, `C93_contrast`, `C93_brightness_contrast`, `C93_invert`, `C93_gray`, `C93_sepia`, `C93_alpha_blend`, `C93_gamma`, `C93_gamma_opt`, `C93_level`, `C93_convolution`, `C94_convert`, `C94_bad_input`, `C94_bad_output`, `C94_any`, `C95_convolution`, `C95_convolution_dyn`, `C95_default_sigma`, `C95_gaussian_blur`, `C95_blur_range`, `C95_blur_flat`, `C95_unsharp`, `C95_sobel`, `C95_laplace`, `C96_brightness_adds`, `C96_brightness_undo`, `C96_contrast_multiplies`, `C96_contrast_undo`, `C96_gamma_multiplies`, `C96_gamma_undo`, `C96_level_splits`, `C96_level_full`, `C96_level_twice`, `C96_negative_contrast`, `C96_negative_brightness`, `C96_negative_level`, `C96_difference`, `C96_blend_symmetric`, `C96_blend_negative`, `C97_colour_operations`, `C97_two_colours`, `C97_blend`, `C97_convolution`, `C97_convolution_dyn`, `C97_gaussian_blur`, `C97_unsharp`, `C97_edge_detection`, `C97_resize`, `C97_rotate`, `C98_pointwise`, `C98_colour_operations`, `C98_to_gray`, `C98_convolution`, `C98_convolution_dyn`, `C98_blur_sharpen_edges`, `C98_despeckle`, `C98_symmetric_nearest_neighbor`, `C98_stretch_contrast`, `C98_equalize`, `C98_resize`, `C98_rotate`, `C98_hsl`, `C98_stretch_saturation_colours`, `C98_equalize_hsl`, `C98_hsl_binary32`, `C99_moves`, `C99_interlace`, `C99_resize_nearest`, `C99_rotate_nearest`, `C99_convolution`, `C99_convolution_dyn`, `C99_gaussian_blur`, `C99_unsharp`, `C99_edge_detection`, `C99_resize`, `C99_rotate`, `C99_linear`, `C100_number`, `C100_exact`, `C100_special`, `C100_color`, `C100_gray_hsv`, `C100_negative_zero`, `C100_printable`, `C101_reads`, `C101_refuses`, `C101_round_trip`, `C101_four_places`, `C101_option`, `C101_not_finite`, `C102_hsl_back`, `C102_hue_twice`, `C102_hue_undo`, `C102_saturation_twice`, `C102_lightness_twice`, `C102_hue_saturation`, `C102_lost`, `C103_enlarge`, `C103_reduce`, `C103_enlarge_reduce`, `C103_enlarge_exact`, `C103_reduce_exact`, `C103_enlarge_reduce_exact`, `C104_bilinear`, `C104_bicubic`, `C104_nearest`, `C105_background`, `C105_bilinear`, `C105_bicubic`, `C105_nearest`, `C106_open`, `C106_encode`, `C106_save`, `C106_queue`, `C106_main`, `C106_no_panic`, `C107_blur`, `C107_resize`, `C107_rotate`, `C107_bicubic`, `C107_bilinear_float`, `C108_level`, `C108_bytes`, `C108_resize`, `C108_resize_any`, `C109_prefix`, `C109_ok`, `C109_result`, `C109_reliable`, `C109_flushed`, `C109_webp_encode`, `C109_webp_ok`, `C110_from_reader`, `C111_enumerate_mut`, `C111_mod_colors_enumerated`, `C111_hues`, `C111_opposite`, `C112_xyz_round_trip`, `C112_to_lab`, `C112_to_xyz`, `C112_lab_round_trip`, `C112_rgb_to_lab`, `C113_to_lch`, `C113_xyz_round_trip`, `C113_rgb_to_lch`, `C113_lch_round_trip`, `C114_channels`, `C114_identity`, `C114_compose`, `C114_rgb_methods`, `C115_read_io`, `C115_read_other`, `C115_read_text`, `C115_write_png`, `C115_write_gif`, `C115_write_jpeg`, `C115_write_bmp_ico`, `C116_from_yuv`, `C116_srgb_round_trip`, `C116_rgb_round_trip`, `C117_round_trip`, `C117_chain`, `C117_bytes`, `C118_careful`, `C118_colours`, `C118_execute`, `C118_cli`, `C118_laplace_not`, `C118_balance_not`, `C119_reading`, `C119_changing`, `C119_refused`, `C119_busy`, `C119_message`, `C119_create`, `C119_read`, `C119_read2`, `C119_write`, `C119_palette`, `C119_self`, `C119_begin`, `C119_next`, `C119_end`, `C119_raise`, `C120_shape`, `C120_same_size`, `C120_range`, `C120_methods_ask`, `C120_methods_make`, `C120_methods_options`, `C120_methods_change`, `C120_methods_create`, `C121_methods`, `C121_two_images`, `C121_changes`, `C121_making`, `C121_program_reads`, `C121_program_two_images`, `C121_program_changes`, `C121_program_making`, `C122_colours`, `C122_execute`, `C122_cli`, `C122_brightness_not`, `C122_gamma_saturation_not`, `C122_gamma_saturation`, `C123_tame`, `C123_blend_not`, `C124_blur`, `C124_unsharp`, `C124_blur_unsharp`, `C124_drawing`, `C124_radius_zero_nan`, `C125_step`, `C125_step_16`, `C125_files`, `C125_files_16`, `C125_saved`, `C126_lightness`, `C126_saturation`, `C126_palette`, `C126_images`, `C126_saturation_not`, `C126_temperature`, `C126_auto_temperature`, `C126_temperature_images`, `C127_colours`, `C127_gamma`, `C127_same`, `C127_both`, `C127_unsharp`, `C127_edges`, `C127_close`, `C127_bytes`, `C127_open`, `C127_blur`, `C127_laplace`, `C128_lanczos3`, `C128_auto`, `C128_rotate`, `C129_convert`, `C130_modes`, `C130_factor`, `C130_colours`, `C130_blend`, `C130_compose`, `C131_level`, `C131_png`, `C131_image`, `C131_jpeg`, `C131_gif`, `C131_webp`, `C131_read_jpeg`, `C131_read_image`, `C132_level`, `C132_save`, `C132_convert`, `C133_fade`, `C133_exact`, `C133_follows`, `C134_turn`, `C134_exact`, `C134_follows`, `C135_noise`, `C135_rgb`, `C135_salt`, `C135_salt_tie`, `C136_line`, `C136_png`, `C137_lightness`, `C137_darken`, `C137_lighten`, `C137_near_white`, `C137_not_stable`, `C137_saturation`, `C137_darken_float`, `C138_layers`, `C138_below`, `C138_opaque`, `C138_halo`, `C138_merge`, `C138_merge_fails`, `C138_on_nothing`, `C138_images`, `C138_layer_float`, `C138_layers_float`, `C138_float`, `C138_images_float`, `C139_after`, `C139_again`, `C140_stages`, `C140_png`, `C141_swap`, `C141_order`, `C141_corner`, `C141_self`, `C141_neutral`, `C141_add_subtract`, `C141_full_float`, `C141_swap_float`, `C141_order_float`, `C141_sum_order_fails`, `C141_self_float`, `C142_moves`, `C142_crop`, `C142_diagonal`, `C142_compose`, `C142_anchored`, `C143_repeated`, `C143_order`, `C143_more`, `C143_opacity`, `C144_adds`, `C144_smeared`, `C144_turned`, `C145_moves`, `C145_twice`, `C145_corner`, `C146_exact`, `C146_close`, `C146_average_moves`, `C146_black_white`, `C147_thrice`, `C147_twice`, `C147_light`, `C147_pictures`, `C147_dark`, `C147_commands`, `C148_brightness`, `C148_contrast`, `C148_contrast_light`, `C148_contrast_again`, `C148_both`, `C148_contrast_dark`, `C149_ends`, `C149_alpha`, `C149_not_between`, `C150_nothing`, `C150_normal`, `C150_picture`
