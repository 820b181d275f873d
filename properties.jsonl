{"id": "C01", "title": "Buffer shape invariant", "statement": "Every pixel buffer that any sequence of successful public operations (constructors, pixel writes, mutating and mapping operations, conversions) can produce holds exactly width*height pixels, has width 0 iff height 0, and never more than i32::MAX/2 pixels.", "quantifier": "all finite sequences of public buffer operations with all arguments, from every constructor", "why_tests_cant": "The set of operation histories is infinite; tests only exercise a few short ones.", "anchors": ["d10-core/src/pixelbuffer.rs: PixelBuffer, is_valid_buffer_size, new, new_with_color, new_from_raw, new_from_func, put_pixel, mod_colors, map_colors"]}
{"id": "C02", "title": "Construction accepts exactly the valid sizes", "statement": "Creating a buffer of w x h succeeds iff the size is valid (both zero, or both non-zero with w*h <= i32::MAX/2); creating it from raw data succeeds iff additionally the data has exactly w*h pixels; in every other case the call panics and no buffer exists. On success the dimensions are w and h and the pixels are the given colour / data / function values in row-major order.", "quantifier": "all u32 widths and heights, all colours, all pixel vectors, all generator functions", "why_tests_cant": "2^64 size pairs including the product-overflow region cannot be enumerated.", "anchors": ["d10-core/src/pixelbuffer.rs: is_valid_buffer_size, validate_size, new, new_with_color, new_from_raw, new_from_func, try_new_from_func"]}
{"id": "C03", "title": "Pixel write then read", "statement": "put_pixel(x,y,c) followed by get_pixel(x',y') returns c if (x',y')=(x,y) and the old pixel otherwise; dimensions are unchanged; a coordinate outside the image always panics and never touches another pixel.", "quantifier": "all valid buffers, all coordinates, all colours", "why_tests_cant": "Aliasing of linear indices would show only for specific width/coordinate combinations.", "anchors": ["d10-core/src/pixelbuffer.rs: get_pixel, put_pixel"]}
{"id": "C04", "title": "Clamped access is nearest-pixel extension", "statement": "On every non-empty image and every pair of signed 32-bit coordinates get_pixel_clamped returns the pixel at the coordinates clamped into the image and does not panic; on the empty image it always panics.", "quantifier": "all valid buffers, all i32 coordinate pairs", "why_tests_cant": "2^64 coordinate pairs; extreme coordinates interact with u32/i32 casts.", "anchors": ["d10-core/src/pixelbuffer.rs: get_pixel_clamped"]}
{"id": "C05", "title": "Optional access is total", "statement": "get_pixel_optional returns Some(pixel) exactly for coordinates inside the image and None for all others, without panicking, including on the empty image; is_in_image decides exactly that.", "quantifier": "all valid buffers, all i32 coordinate pairs", "why_tests_cant": "as C04", "anchors": ["d10-core/src/pixelbuffer.rs: get_pixel_optional, is_in_image"]}
{"id": "C06", "title": "Enumeration lists every pixel once with its coordinates", "statement": "enumerate yields exactly one entry (x, y, colour at (x,y)) per pixel, in row-major order; rebuilding a buffer from the enumerated colours gives the same buffer.", "quantifier": "all valid buffers", "why_tests_cant": "Depends on div/mod by the width for every size.", "anchors": ["d10-core/src/pixelbuffer.rs: enumerate, enumerate_mut, new_from_func"]}
{"id": "C07", "title": "Mapping is pointwise, in order, and shape preserving", "statement": "map_colors / mod_colors / *_enumerated apply the closure exactly once to each pixel in row-major order (observable for a stateful closure), put each result at the same coordinate and keep the dimensions; the in-place and the copying variants agree.", "quantifier": "all valid buffers, all (stateful) closures", "why_tests_cant": "Closures and closure states are unbounded.", "anchors": ["d10-core/src/pixelbuffer.rs: map_colors, mod_colors, map_colors_enumerated, mod_colors_enumerated"]}
{"id": "C08", "title": "Fallible traversals stop at the first error", "statement": "try_* traversals succeed iff the closure succeeds on every pixel, otherwise return the error of the first failing pixel in row-major order without calling the closure again; the in-place variant leaves exactly the pixels before the failure modified.", "quantifier": "all valid buffers, all fallible closures", "why_tests_cant": "Needs every failure position.", "anchors": ["d10-core/src/pixelbuffer.rs: try_new_from_func, try_map_colors, try_mod_colors, try_map_colors_enumerated, try_mod_colors_enumerated"]}
{"id": "C09", "title": "Kernel window fast path equals the clamped neighbourhood", "statement": "For every window size N and every position, get_kernel returns at row r, column c the clamped pixel at (x + c - N/2, y + r - N/2): the row-copy fast path is indistinguishable from the per-cell path and never reads past a row or the buffer; the dynamic-size variant returns the same.", "quantifier": "all non-empty valid buffers, all N, all coordinates whose window arithmetic fits i32", "why_tests_cant": "The two code paths split on position; off-by-one errors appear only at specific borders and sizes.", "anchors": ["d10-core/src/pixelbuffer.rs: get_kernel, get_kernel_dyn"]}
{"id": "C10", "title": "Static and dynamic convolution agree", "statement": "Convolving with a static N x N kernel and with a dynamic kernel holding the same weights row-major gives bit-for-bit the same pixels for every image.", "quantifier": "all images, all N >= 1, all weights", "why_tests_cant": "Weights and images are unbounded.", "anchors": ["d10-core/src/pixelbuffer.rs: apply_kernel, apply_kernel_dyn, get_kernel_value", "d10-core/src/kernel.rs: Kernel::apply_kernel", "d10-core/src/kernel_dyn.rs: KernelDyn"]}
{"id": "C11", "title": "Normalised kernels leave constant images unchanged", "statement": "Convolving a constant image with a kernel whose weights sum to one returns that image; with weights summing to zero every channel becomes 0 (exact arithmetic).", "quantifier": "all sizes, colours, kernels", "why_tests_cant": "Sizes and weights unbounded.", "anchors": ["d10-core/src/pixelbuffer.rs: apply_kernel", "d10-core/src/kernel.rs: apply_kernel", "d10-ops/src/edge_detection.rs"]}
{"id": "C12", "title": "Gaussian kernels are normalised, positive and symmetric", "statement": "For every size >= 1 and sigma > 0 the generated Gaussian kernel has positive weights summing to one, is symmetric under both reflections (odd sizes) and transposition, and the static and dynamic constructors agree; with sigma = 0 (the default sigma for radius 0) the weights are not a number.", "quantifier": "all sizes, all sigma", "why_tests_cant": "Real-valued parameter.", "anchors": ["d10-core/src/kernel.rs: new_gaussian", "d10-core/src/kernel_dyn.rs: new_gaussian", "d10-ops/src/gaussian_blur.rs"]}
{"id": "C13", "title": "Flips", "statement": "flip_horizontal moves the pixel at (x,y) to (w-1-x,y), flip_vertical to (x,h-1-y); dimensions are kept; each flip applied twice is the identity; the two flips commute.", "quantifier": "all valid buffers", "why_tests_cant": "All sizes.", "anchors": ["d10-ops/src/flip.rs: flip_horizontal, flip_vertical"]}
{"id": "C14", "title": "Quarter turns", "statement": "rotate90 swaps the dimensions and moves (x,y) to (h-1-y,x); rotate180 moves to (w-1-x,h-1-y); rotate270 swaps and moves to (y,w-1-x). rotate90 four times, rotate180 twice and rotate90 followed by rotate270 are the identity; rotate180 = rotate90 twice = both flips.", "quantifier": "all valid buffers", "why_tests_cant": "All sizes.", "anchors": ["d10-ops/src/rotate_90.rs: rotate90, rotate180, rotate270"]}
{"id": "C15", "title": "Geometric moves only permute pixels", "statement": "Flips and quarter turns never lose, duplicate or alter a pixel: the multiset of pixel colours is unchanged.", "quantifier": "all valid buffers", "why_tests_cant": "All sizes.", "anchors": ["d10-ops/src/flip.rs", "d10-ops/src/rotate_90.rs"]}
{"id": "C16", "title": "Crop", "statement": "crop(ox,oy,w,h) never panics; the result is the intersection of the image with the requested rectangle (empty 0x0 if there is none) and its pixel (x,y) is the source pixel (ox+x,oy+y).", "quantifier": "all valid buffers, all u32 offsets and sizes", "why_tests_cant": "2^128 argument tuples incl. overflow candidates.", "anchors": ["d10-ops/src/crop.rs: crop"]}
{"id": "C17", "title": "Crop composition", "statement": "Cropping a crop equals one crop with summed offsets when the inner rectangle fits; cropping to the full size is the identity.", "quantifier": "all valid buffers and nested rectangles", "why_tests_cant": "Infinite pairs of rectangles.", "anchors": ["d10-ops/src/crop.rs: crop"]}
{"id": "C18", "title": "Resize yields exactly the requested size", "statement": "For every filter, resizing a non-empty image to a valid w x h returns an image of exactly that size whose pixels are the filter's samples at the scaled positions (for the automatic filter, if no side is longer than 2^27; beyond that its window no longer fits an i32); resizing to the current size returns the image unchanged; resizing to an invalid size, or resizing an empty image to a non-empty size, panics.", "quantifier": "all images, sizes and filters", "why_tests_cant": "All sizes and filters.", "anchors": ["d10-ops/src/resize.rs: resize"]}
{"id": "C19", "title": "Nearest resize only copies pixels", "statement": "Nearest-neighbour resize produces no new colours: every output pixel equals the source pixel nearest to the mapped coordinate.", "quantifier": "all images and target sizes", "why_tests_cant": "All size pairs.", "anchors": ["d10-ops/src/resize.rs: resize_pixel_nearest"]}
{"id": "C20", "title": "Interpolating filters reproduce constants and sample points", "statement": "Bilinear and bicubic sampling return exactly the pixel at integer coordinates, and a constant image stays constant under bilinear and bicubic resize and rotation; bilinear values lie between the minimum and maximum of the four neighbours (exact arithmetic).", "quantifier": "all images, coordinates", "why_tests_cant": "Real-valued coordinates.", "anchors": ["d10-ops/src/filters.rs: get_pixel_bilinear, get_pixel_bicubic", "d10-ops/src/resize.rs"]}
{"id": "C21", "title": "Free rotation", "statement": "rotate keeps the dimensions for every angle and filter, returns the image unchanged at 360, and every output pixel is either the background colour (exactly when the back-rotated position is outside the image) or the filter's sample there.", "quantifier": "all images, angles, filters, backgrounds", "why_tests_cant": "Real-valued angle.", "anchors": ["d10-ops/src/rotate.rs: rotate, rotate_with_fn"]}
{"id": "C22", "title": "Interlace", "statement": "interlace(offset) keeps the size and moves even rows by -offset and odd rows by +offset with edge clamping; offset 0 is the identity.", "quantifier": "all images and offsets that fit i32 arithmetic", "why_tests_cant": "All sizes/offsets.", "anchors": ["d10-ops/src/interlace.rs"]}
{"id": "C23", "title": "Constructed colours are in range", "statement": "Rgb and Srgb constructors return channels in [0,1] for every non-NaN input including infinities; NaN channels stay NaN; in-range values are returned bit-for-bit. The constructors of the other colour types keep their arguments unchanged.", "quantifier": "all f32 values", "why_tests_cant": "2^128 inputs.", "anchors": ["d10-core/src/color/rgb.rs: Rgb::new, new_with_alpha", "d10-core/src/color/srgb.rs: Srgb::new", "d10-core/src/color/mod.rs: clamp"]}
{"id": "C24", "title": "Tonal operations keep alpha", "statement": "gray, invert, gamma, level, brightness, contrast, brightness-contrast and sepia-like channel maps never change alpha of an in-range colour, and so do saturation, lightness, hue rotation and modulate; vibrance and difference return alpha 1 instead.", "quantifier": "all colours and parameters", "why_tests_cant": "Unbounded parameter space.", "anchors": ["d10-core/src/color/rgb.rs: to_gray_with_intensity, invert, with_gamma, with_level, with_brightness, with_contrast, with_saturation, with_hue_rotate, with_vibrance, difference"]}
{"id": "C25", "title": "Tonal operations stay in range", "statement": "gamma, level, brightness, contrast, brightness-contrast, saturation, lightness, hue-rotate, sepia, alpha-blend return colour channels that are in [0,1] or NaN, for every parameter and every input colour, in or out of range.", "quantifier": "all f32 colours and parameters", "why_tests_cant": "Unbounded.", "anchors": ["d10-core/src/color/rgb.rs: map_channels, with_*, alpha_blend, with_sepia"]}
{"id": "C26", "title": "Invert is an involution", "statement": "Inverting twice returns a colour equal (==) to the original for all colours with channels in [0,1] in binary32 arithmetic, and exactly the original in exact arithmetic.", "quantifier": "all f32 channels in [0,1]", "why_tests_cant": "2^30 values per channel, cubed.", "anchors": ["d10-core/src/color/rgb.rs: invert, PartialEq"]}
{"id": "C27", "title": "Grayscale output is gray", "statement": "to_gray with every intensity gives equal red, green and blue, is reported as grayscale whenever the value is finite, leaves alpha alone; for Rec709/Rec601/average/brightness/lightness a gray in-range input stays the same gray up to the weights' sum, and output lies in [0,1] for in-range input (exact arithmetic).", "quantifier": "all colours, all intensities", "why_tests_cant": "Unbounded.", "anchors": ["d10-core/src/color/rgb.rs: to_gray_with_intensity, is_grayscale"]}
{"id": "C28", "title": "HSL round trip", "statement": "Converting an in-range colour to HSL and back gives a colour equal (==) to the original; hue lies in [0,1), saturation and lightness in [0,1] (exact arithmetic). In binary32 every channel comes back within EPSILON + 1/100000; it is within 1/100000 and equal (==) if the colour is not just under EPSILON away from a tie or from gray, and there are colours for which == fails.", "quantifier": "all colours with channels in [0,1]", "why_tests_cant": "Real-valued cube.", "anchors": ["d10-core/src/color/mod.rs: to_hsl", "d10-core/src/color/hsl.rs: to_rgb"]}
{"id": "C29", "title": "HSV round trip and undefined hue of grays", "statement": "Converting a non-gray in-range colour to HSV and back gives an equal colour (exact arithmetic); the HSV hue of every gray of at least EPSILON is NaN in binary32, although converting it back still yields the same gray; in binary32 every in-range colour equals (==) its round trip and, unless it is darker than EPSILON, comes back within 1/200000.", "quantifier": "all colours with channels in [0,1]; all f32 grays", "why_tests_cant": "Real-valued cube.", "anchors": ["d10-core/src/color/mod.rs: to_hsv", "d10-core/src/color/hsv.rs: to_rgb"]}
{"id": "C30", "title": "sRGB transfer functions are inverse and monotone", "statement": "gamma_to_linear followed by linear_to_gamma is the identity on [0,1] and strictly monotone, maps [0,1] to [0,1] with fixed end points; the other order returns a value within EPSILON (exact arithmetic).", "quantifier": "all values in [0,1]", "why_tests_cant": "Real interval.", "anchors": ["d10-core/src/color/srgb.rs: gamma_to_linear, linear_to_gamma"]}
{"id": "C31", "title": "XYZ and YUV conversions invert each other", "statement": "RGB to XYZ and back (and sRGB to YUV and back) returns a colour equal (==) to the original for in-range colours; alpha is unchanged (exact arithmetic).", "quantifier": "all colours with channels in [0,1]", "why_tests_cant": "Real-valued cube.", "anchors": ["d10-core/src/color/xyz.rs", "d10-core/src/color/yuv.rs", "d10-core/src/color/mod.rs: apply_matrix"]}
{"id": "C32", "title": "Colour equality", "statement": "== compares every channel (alpha included) with tolerance EPSILON: it is symmetric, and reflexive for all finite colours, equal colours differ by at most EPSILON in each channel; it is not transitive, and a colour with a NaN channel compares equal on that channel to everything.", "quantifier": "all pairs/triples of colours", "why_tests_cant": "Unbounded.", "anchors": ["d10-core/src/color/rgb.rs: PartialEq"]}
{"id": "C33", "title": "Colour names", "statement": "Displaying a colour writes its type name, 'a' exactly when its alpha differs from 1 by more than EPSILON, then the comma separated channels (3 or 4 accordingly) in parentheses.", "quantifier": "all colours, any number formatter", "why_tests_cant": "Unbounded.", "anchors": ["d10-core/src/color/mod.rs: format_color, has_transparency"]}
{"id": "C34", "title": "Option names parse to exactly the documented variants", "statement": "Each FromStr (intensity, filters, drawing, edge detection, equalize, balance, blend, saturation, png/bmp/ico colour type, png filter/compression, jpeg sampling, webp preset) accepts exactly its listed strings, case-sensitively, each to its own variant, and every other string is rejected with an error naming the value and the type.", "quantifier": "all strings", "why_tests_cant": "Infinitely many strings.", "anchors": ["d10-core/src/color/rgb.rs: Intensity::from_str", "d10-ops/src/*.rs: from_str", "d10-codecs/src/*.rs: from_str"]}
{"id": "C35", "title": "Alpha compositing", "statement": "alpha_blend with a fully opaque in-range overlay gives the overlay's colour, with a fully transparent one gives the base colour; the resulting alpha is min(a1+a2,1) and each channel lies between the two inputs (exact arithmetic for in-range colours).", "quantifier": "all pairs of in-range colours", "why_tests_cant": "Unbounded.", "anchors": ["d10-core/src/color/rgb.rs: alpha_blend"]}
{"id": "C36", "title": "Blending shape", "statement": "blend of two images has the maximum width and height; where both have a pixel the blend function decides, where only one has a pixel that pixel is copied, elsewhere the pixel is transparent; it panics iff the combined size is invalid.", "quantifier": "all pairs of images, all blend modes and intensities", "why_tests_cant": "All size combinations.", "anchors": ["d10-ops/src/blend.rs: blend_image, blend_image_with_func"]}
{"id": "C37", "title": "Blend intensity end points", "statement": "Intensity 0 keeps the base colour channels in every mode and intensity 1 with an opaque overlay gives the mode's full formula; darken/lighten never brighten/darken a channel; the alpha of arithmetic modes is the overlay's alpha even at intensity 0.", "quantifier": "all colours and intensities in [0,1]", "why_tests_cant": "Unbounded.", "anchors": ["d10-ops/src/blend.rs: blend_color, blend_*"]}
{"id": "C38", "title": "Compose", "statement": "compose of one or more images has the maximum dimensions and calls the function with, for each image, its pixel or the given default; the first error is returned; composing zero images panics.", "quantifier": "all image lists, functions", "why_tests_cant": "Unbounded lists.", "anchors": ["d10-ops/src/compose.rs"]}
{"id": "C39", "title": "Palette mapping picks a nearest palette colour", "statement": "apply_palette maps each pixel to the RGB value of a palette entry whose Lab distance is minimal, the first such entry; with an empty palette every pixel becomes the default colour; size is kept.", "quantifier": "all images and palettes", "why_tests_cant": "Unbounded palettes.", "anchors": ["d10-ops/src/apply_palette.rs"]}
{"id": "C40", "title": "Despeckle", "statement": "despeckle changes a pixel only if its gray level is below the threshold and at most `amount` of its 3x3 neighbourhood is; the new value is the mean of the neighbours at or above the threshold, alpha kept. For amount >= 9 a uniformly dark region turns into NaN.", "quantifier": "all images, thresholds, amounts", "why_tests_cant": "All sizes and thresholds.", "anchors": ["d10-ops/src/despeckle.rs"]}
{"id": "C41", "title": "Salt-and-pepper and RGB noise", "statement": "For every random stream salt_n_pepper leaves each pixel unchanged or makes it exactly black or white, rgb noise leaves it unchanged or sets exactly one of r,g,b to 1; size kept; threshold 0 changes nothing.", "quantifier": "all images, thresholds and random streams", "why_tests_cant": "Random streams are unbounded.", "anchors": ["d10-ops/src/salt_n_pepper_noise.rs", "d10-ops/src/rgb_noise.rs"]}
{"id": "C42", "title": "Additive noise", "statement": "random/gaussian noise keeps size and alpha, gives in-range channels, and with alpha 0 is the identity on in-range images (exact arithmetic) for every random stream.", "quantifier": "all images, alphas and random streams", "why_tests_cant": "as C41", "anchors": ["d10-ops/src/random_noise.rs", "d10-ops/src/gaussian_noise.rs"]}
{"id": "C43", "title": "Symmetric nearest neighbour smoothing", "statement": "Each output channel is the mean of pixels chosen from opposite pairs around the pixel: it lies between the minimum and maximum of the window, constant images are unchanged; with radius 0 and without the centre the result is NaN.", "quantifier": "all images and radii", "why_tests_cant": "All radii.", "anchors": ["d10-ops/src/symmetric_nearest_neighbor.rs"]}
{"id": "C44", "title": "Histogram equalisation lookup", "statement": "The equalisation table is monotone and, for an image whose level histogram is not concentrated at one point, maps the lowest cumulative level to 0 and the highest to 1; lookups never go out of bounds for any value including NaN.", "quantifier": "all images", "why_tests_cant": "All histograms.", "anchors": ["d10-ops/src/equalize.rs: channel_histogram, pick_value"]}
{"id": "C45", "title": "Contrast stretching", "statement": "stretch_contrast returns the image unchanged when the detected black and white points are 0 and 1; otherwise maps each channel by the level formula; it keeps size and alpha and channels stay in range or NaN.", "quantifier": "all images, thresholds", "why_tests_cant": "All histograms.", "anchors": ["d10-ops/src/stretch_contrast.rs"]}
{"id": "C46", "title": "Unsharp mask", "statement": "With factor 0 unsharp returns the (clamped) image and a constant image is a fixed point (exact arithmetic); size kept; channels in range or NaN.", "quantifier": "all images, radii, sigmas, factors", "why_tests_cant": "Unbounded.", "anchors": ["d10-ops/src/unsharp.rs"]}
{"id": "C47", "title": "Edge detection of flat images", "statement": "Sobel and Laplace edge detection of a constant image are black everywhere (and keep the size); Laplace output is opaque (exact arithmetic).", "quantifier": "all sizes and colours", "why_tests_cant": "All sizes.", "anchors": ["d10-ops/src/edge_detection.rs"]}
{"id": "C48", "title": "8-bit quantisation", "statement": "Decoding an 8-bit level to a channel and encoding it again returns the same level, for all 256 levels, in binary32; encoding is monotone, total (NaN gives 0, out of range saturates) and never exceeds 255.", "quantifier": "all u8 levels, all f32 values", "why_tests_cant": "Monotonicity/totality over 2^32 values.", "anchors": ["d10-codecs/src/utils.rs: as_u8, from_u8"]}
{"id": "C49", "title": "16-bit quantisation", "statement": "As C48 for the 65536 16-bit levels, including the big-endian byte order round trip.", "quantifier": "all u16 levels, all f32 values", "why_tests_cant": "as C48", "anchors": ["d10-codecs/src/utils.rs: as_u16, from_u16_be"]}
{"id": "C50", "title": "Encoded byte layout", "statement": "Each 8/16-bit pixel serialisation has exactly pixels*channels*bytes length with channel k of pixel i at its documented position, and deserialising it gives pixel-wise quantised colours; the packed ARGB words carry the four bytes in distinct lanes.", "quantifier": "all images", "why_tests_cant": "All sizes.", "anchors": ["d10-codecs/src/utils.rs: to_rgb8_vec, to_rgba8_vec, to_argb8_vec32, to_l16_be_vec, to_la16_be_vec, to_rgb16_be_vec, to_rgba16_be_vec", "d10-codecs/src/png.rs: decode_png"]}
{"id": "C51", "title": "16-bit gray serialisation has the wrong length", "statement": "The 16-bit grayscale serialisation should have 2 bytes per pixel; the code emits 4 bytes per pixel, so for every non-empty image the length is wrong and a PNG writer that checks lengths rejects it.", "quantifier": "all non-empty images", "why_tests_cant": "No test covers L16.", "anchors": ["d10-codecs/src/utils.rs: to_l16_be_vec", "d10-codecs/src/png.rs: encode_png"]}
{"id": "C52", "title": "Decoders produce opaque pixels for formats without alpha", "statement": "Decoding a format without an alpha channel yields alpha 1 for every pixel (8-bit gray, 8-bit RGB, float RGB, PNG 16-bit RGB); the 16-bit RGB path shared by bmp and ico yields alpha 0.", "quantifier": "all decoded images", "why_tests_cant": "All images.", "anchors": ["d10-codecs/src/utils.rs: read_into_buffer", "d10-codecs/src/png.rs: decode_png"]}
{"id": "C53", "title": "Decode after encode of an untouched 8-bit image", "statement": "Opening an 8-bit image and saving it losslessly should reproduce its bytes. In exact arithmetic it does; in binary32 with truncation it does not: pure white 255 comes back as 254 for every powf with powf(1,y)=1.", "quantifier": "all 8-bit levels", "why_tests_cant": "Depends on rounding at each level.", "anchors": ["d10-codecs/src/utils.rs: to_rgb8_vec, as_u8", "d10-core/src/color/srgb.rs"]}
{"id": "C54", "title": "Format sniffing", "statement": "The content-sniffed format depends only on the first 12 bytes, equals the format whose magic number they start with (at most one matches) and is 'unknown' otherwise; appending data never changes it (12 bytes or more).", "quantifier": "all byte strings", "why_tests_cant": "2^96 prefixes.", "anchors": ["d10-codecs/src/lib.rs: Format::from_reader"]}
{"id": "C55", "title": "Extension detection", "statement": "The format from a path depends only on the extension after the last dot of the final component, case-insensitively; exactly jpg, jpeg, png, gif, bmp, ico, webp are known.", "quantifier": "all paths", "why_tests_cant": "Infinitely many.", "anchors": ["d10-codecs/src/lib.rs: Format::from_path"]}
{"id": "C56", "title": "Opening trusts content over name", "statement": "Opening a file decodes with the sniffed format whenever the content has a known magic number whatever the name; the extension is used only otherwise; if neither is known the error is UnknownFormat.", "quantifier": "all files and names", "why_tests_cant": "Infinitely many.", "anchors": ["d10-codecs/src/lib.rs: decode_file, decode_buffer"]}
{"id": "C57", "title": "Saving with a bad extension leaves the file system untouched, other failures may not", "statement": "Saving without explicit format to a path with unknown extension fails before the target is created or truncated. Any later failure (e.g. JPEG/GIF larger than 65535) happens after the target was truncated, so the previous content is lost.", "quantifier": "all file system states, paths, images", "why_tests_cant": "Failure points in the middle of saving.", "anchors": ["d10-codecs/src/lib.rs: encode_to_file", "d10-codecs/src/jpeg.rs: encode_jpeg", "d10-codecs/src/gif.rs: encode_gif"]}
{"id": "C58", "title": "JPEG and GIF dimension guard", "statement": "Encoding to JPEG or GIF fails with BadDimensions iff width or height exceeds 65535, so the 16-bit dimension casts never truncate; JPEG quality passed on is always in 1..100 and WebP's in 0..100.", "quantifier": "all images and qualities", "why_tests_cant": "All sizes.", "anchors": ["d10-codecs/src/jpeg.rs: encode_jpeg", "d10-codecs/src/gif.rs: encode_gif", "d10-codecs/src/webp.rs: encode_webp"]}
{"id": "C59", "title": "CMYK conversion", "statement": "CMYK to RGB yields in-range opaque colours, is monotone decreasing in each ink, maps full black to black; but zero ink does not give white: the sRGB value is 65025/65536.", "quantifier": "all 2^32 ink combinations", "why_tests_cant": "2^32 inputs.", "anchors": ["d10-codecs/src/utils.rs: cmyk_to_rgb"]}
{"id": "C60", "title": "Command queues run in order and stop at the first failure", "statement": "Running a queue applies its commands one after another to the single current image; the first failing command ends the run with its error; later commands have no effect, earlier saves remain.", "quantifier": "all command lists, all file systems", "why_tests_cant": "Unbounded histories.", "anchors": ["d10-commands/src/commands.rs: execute", "d10-commands/src/queue.rs: run"]}
{"id": "C61", "title": "Commands before opening an image fail", "statement": "Every command other than open and silent fails with MissingImage when no image has been opened, without touching the file system; after a successful open none of them fails with MissingImage.", "quantifier": "all command lists", "why_tests_cant": "Unbounded histories.", "anchors": ["d10-commands/src/commands.rs: execute", "d10-commands/src/commands.rs: Context"]}
{"id": "C62", "title": "Progress log", "statement": "Without silent the log has one line per executed non-silent command, numbered 1..n of the queue's total; silent suppresses exactly the lines after it and does not count.", "quantifier": "all command lists", "why_tests_cant": "Unbounded.", "anchors": ["d10-commands/src/log.rs", "d10-commands/src/queue.rs"]}
{"id": "C63", "title": "Command line grammar", "statement": "Parsing never panics; it yields one command per option in order with its parameters taken from the following arguments; an unknown option, missing parameter or non-numeric parameter is reported by the first offending argument.", "quantifier": "all argument vectors", "why_tests_cant": "Infinitely many.", "anchors": ["d10-cli/src/main.rs: parse, parse_arg, create_args"]}
{"id": "C64", "title": "Positional arguments", "statement": "The first argument, if positional, is opened; every later positional is saved. A positional input file after a leading option such as -silent is treated as an output instead.", "quantifier": "all argument vectors", "why_tests_cant": "Infinitely many.", "anchors": ["d10-cli/src/main.rs: parse"]}
{"id": "C65", "title": "Image facade keeps metadata and size", "statement": "Colour operations on an Image keep its width, height and background colour; no public operation ever sets a background colour, so free rotation always fills with transparent black.", "quantifier": "all operation sequences on images", "why_tests_cant": "Unbounded histories.", "anchors": ["d10/src/image.rs"]}
{"id": "C66", "title": "Percentage resize", "statement": "resize_pct(p) yields an image of max(1, round(w*p/100)) x max(1, round(h*p/100)) pixels for a non-empty image (saturating the f32 product at 0 and at u32::MAX) resampled with the chosen filter, panics exactly when that size is too large, and panics on an empty image; resize_pct(100) is the identity for sides up to 2^24.", "quantifier": "all images and factors", "why_tests_cant": "Real parameter.", "anchors": ["d10/src/image.rs: resize_pct"]}
{"id": "C67", "title": "NumPy export/import", "statement": "to_np_array makes an array of shape (height, width, n) whose element [y, x, k] is value k of the pixel in column x and row y, in the named colour space and element type; from_np_array makes the image an array of that layout describes. Exporting and importing keeps width, height and each pixel's position; float data round-trips exactly for in-range colours, uint8/uint16 arrays survive import and export unchanged in binary32, and the other colour models round-trip in exact arithmetic. Exceptions: boolean data comes back inverted, four-channel LCh data is read as Lab (so LCh does not round-trip), arrays of fewer than two dimensions or of an invalid size panic instead of raising.", "quantifier": "all images, colour spaces, element types and arrays", "why_tests_cant": "All sizes, values and names.", "anchors": ["d10-python/src/image.rs: to_np_array, from_np_array, extract_data_type, from_np_array_iter"]}
{"id": "C68", "title": "Temperature change", "statement": "Changing colour temperature never panics for any input temperatures (NaN and infinities included), keeps size and alpha, and with equal temperatures and no tint correction is the identity on in-range images with non-zero factors (exact arithmetic); with 32-bit numbers and a temperature of at least 2000 every pixel is then what the way to linear light and back makes of it, nothing else.", "quantifier": "all images and temperatures", "why_tests_cant": "All f32 values.", "anchors": ["d10-ops/src/temperature.rs"]}
{"id": "C69", "title": "Level balance", "statement": "balance never panics and keeps the size; in every mode the selected channels of each pixel (in the colour space of the mode) are moved by v -> (v - b*s)*s/(w - b) where b and w are the black and white points of that channel at threshold/1000 and s = tanh(10*|w-b|), and are left alone when the points coincide; other channels and alpha go through unchanged. In Rgb mode the result can leave [0,1].", "quantifier": "all images", "why_tests_cant": "All histograms.", "anchors": ["d10-ops/src/balance_channels.rs"]}
{"id": "C70", "title": "Brightness, contrast and level laws", "statement": "brightness 0, contrast 1, gamma 1, level(0,1,1), saturation 1 and hue rotation 0 are identities on in-range colours; brightness and contrast (factor >= 0), gamma and level are monotone in each channel (exact arithmetic).", "quantifier": "all in-range colours and parameters", "why_tests_cant": "Unbounded.", "anchors": ["d10-core/src/color/rgb.rs: with_brightness, with_contrast, with_gamma, with_level, with_saturation, with_hue_rotate"]}
{"id": "C71", "title": "Hue rotation wraps only once", "statement": "with_hue_rotate by any angle in [-360,360] keeps hue in [0,1) and rotation by 360 is the identity (exact); for larger angles the hue leaves the range and the result differs from the rotation reduced modulo 360: from three turns on every colour becomes gray.", "quantifier": "all colours and angles", "why_tests_cant": "Real parameter.", "anchors": ["d10-core/src/color/rgb.rs: with_hue_rotate"]}
{"id": "C72", "title": "Lab and LCh conversions", "statement": "In exact arithmetic the conversion between XYZ and Lab follows the CIE formulas for the chosen illuminant and observer (L scaled to 0..1): the white point becomes L=1, a=b=0 and black becomes 0; XYZ -> Lab -> XYZ changes no component by more than 1.1e-7 (the rounded constants 903.3 and 7.787), RGB -> Lab -> RGB and RGB -> LCh -> RGB give equal colours with every channel within 4e-6; LCh is the polar form of Lab (chroma = sqrt(a^2+b^2), angle in (-pi,pi]).", "quantifier": "all colours, all supported illuminants and observers", "why_tests_cant": "Real-valued inputs and 2 x 13 white points.", "anchors": ["d10-core/src/color/lab.rs", "d10-core/src/color/mod.rs: to_lab, to_lch"]}
{"id": "C73", "title": "Lightness and saturation optimisation", "statement": "optimize_lightness applies one gamma correction to every pixel, with gamma 1 - (m - 1/2)*factor for the mean HSL lightness m; optimize_saturation raises the saturation (chroma), limited to [0,1], of every pixel to one power determined by the mean saturation m, the offset and the pixel's brightness. Both never panic, keep size and alpha; factor 0 resp. a resulting gamma of 1 leaves every pixel equal (exact arithmetic).", "quantifier": "all images, factors, offsets and modes", "why_tests_cant": "Unbounded images and real parameters.", "anchors": ["d10-ops/src/lightness.rs: optimize_lightness", "d10-ops/src/saturation.rs: optimize_saturation"]}
{"id": "C74", "title": "Drawing effect", "statement": "drawing keeps the size in every mode and panics only for a radius above 32767 (kernel side overflow); in gray mode every pixel is an opaque gray whose three channels are equal; in colored mode the result has hue and HSL saturation of the original pixel and its lightness is the minimum of the original's and the drawing's, with the original alpha.", "quantifier": "all images with at least one pixel, all radii and modes", "why_tests_cant": "Unbounded images.", "anchors": ["d10-ops/src/drawing.rs: drawing, merge_color, merge_color_reduced"]}
{"id": "C75", "title": "Simulated JPEG quality", "statement": "jpeg_quality returns the buffer the codec decodes; with preserve_alpha every pixel takes the colour of the decoded image and the alpha of the original pixel at the same position.", "quantifier": "all images, qualities and codecs", "why_tests_cant": "The codec is a parameter.", "anchors": ["d10-ops/src/jpeg_quality.rs: jpeg_quality"]}
{"id": "C76", "title": "Buffer conversions and predicates", "statement": "Converting a whole buffer to another colour type keeps the size and converts every pixel by itself; has_transparency holds exactly if some pixel's alpha is not 1; is_grayscale holds exactly if every pixel is gray.", "quantifier": "all images", "why_tests_cant": "Unbounded images.", "anchors": ["d10-core/src/pixelbuffer.rs: to_rgb, to_srgb, to_hsl, to_hsv, to_xyz, to_lab, has_transparency, is_grayscale"]}
{"id": "C77", "title": "Decoding never panics and yields well-formed buffers", "statement": "Decoding any byte string with any format gives an error or a buffer of valid size with width*height pixels, for every behaviour of the codec libraries that keeps their documented contract - except in exactly one case: a JPEG whose size the JPEG library reports as having more than 1073741823 pixels (or a zero side) makes d10 panic.", "quantifier": "all byte strings, formats and library behaviours", "why_tests_cant": "Byte strings and libraries are unbounded.", "anchors": ["d10-codecs/src/lib.rs: decode", "d10-codecs/src/jpeg.rs: decode_jpeg", "d10-codecs/src/utils.rs: read_into_buffer"]}
{"id": "C78", "title": "Saving and opening again", "statement": "With a lossless PNG library and a disk that keeps what is written, an image with at least one pixel saved as PNG (any kind except 16-bit gray) opens again under any name of the same file, with the same size, every pixel being the quantised original; with 8-bit RGBA every sRGB channel and alpha gets smaller by less than 1/255, and saving the opened image again gives the same file (exact arithmetic). Likewise for BMP, for ICO up to the size the library writes, and for lossless WebP, where invisible pixels may change their colour but stay invisible.", "quantifier": "all images, paths, file systems and libraries that read what they wrote", "why_tests_cant": "Unbounded images and arbitrary libraries.", "anchors": ["d10-codecs/src/lib.rs: encode_to_file, decode_file", "d10-codecs/src/png.rs: encode_png, decode_png"]}
{"id": "C79", "title": "Exit status", "statement": "The program ends with status 0 and nothing on the error output exactly when it was given arguments that mean a list of commands and all of them succeeded; otherwise it ends with status 1 after exactly one message on the error output. Arguments that are wrong anywhere leave the file system unchanged; without arguments the message is 'Missing arguments'.", "quantifier": "all argument vectors and file systems", "why_tests_cant": "Infinitely many.", "anchors": ["d10-cli/src/main.rs: main"]}
{"id": "C80", "title": "Python options and defaults", "statement": "Every Python method with an optional argument does what the library's method does with the given value, or with a fixed default if it is left out (bilinear filter, Sobel, coloured drawing, sRGB equalisation, RGB balance, normal blending, quality 85 for JPEG and WebP, ...); the name of an option is one of the names of C34, and any other name raises an exception naming the option type and the name.", "quantifier": "all images, names and numbers", "why_tests_cant": "All strings.", "anchors": ["d10-python/src/image.rs: Image, EncodingFormat", "d10-python/src/lib.rs: py_err"]}
{"id": "C81", "title": "Python pixels, lists and callbacks", "statement": "image[x, y] reads the pixel in column x and row y and raises outside (negative indices included); image[x, y] = c writes that pixel only; len counts pixels; lists hold the pixels row by row. A Python function given to the mapping methods is called with column, row and pixel; the result has its results; if it raises, the first exception is raised (and the in-place variants have changed exactly the pixels before). compose calls the function with the pixels of all images, the default colour where an image has none.", "quantifier": "all images, functions and positions", "why_tests_cant": "All functions, including raising ones.", "anchors": ["d10-python/src/image.rs: __getitem__, __setitem__, mod_colors*, map_colors*, compose, from_list, to_list"]}
{"id": "C82", "title": "Python colour classes", "statement": "Colour objects hold the given values and are opaque unless alpha is given; Lab and LCh constructors and conversions choose the white point by the two names (D65 and 2 by default) and raise for every other pair of names; to_gray takes the names of C34. == compares the colours of two objects of one class as C32 says; != does not: it tells whether the operands are different objects, so two objects with the same colour are both equal and unequal; there is no order. map_color_channels calls a Python function for the three colour channels in order and raises the first exception; str and repr are the text of C33.", "quantifier": "all colours and names", "why_tests_cant": "All strings.", "anchors": ["d10-python/src/lib.rs: lab, lch", "d10-python/src/color.rs: color_type!"]}
{"id": "C83", "title": "Formulas of the tonal operations", "statement": "In exact arithmetic every tonal operation of a colour is its formula, for all colours and parameters (gammas greater than 0): brightness limit(v+b), contrast limit((v-1/2)k+1/2), both, gamma limit(v)^(1/g), split gamma, level limit((v-b)/(w-b))^(1/g), absolute difference, sepia mixture, and on hue, saturation and lightness: saturation, stretched saturation, gamma saturation, lightness, hue rotation, modulation and vibrance.", "quantifier": "all colours and parameters", "why_tests_cant": "Real parameters.", "anchors": ["d10-core/src/color/rgb.rs: with_brightness, with_contrast, with_brightness_contrast, with_gamma, with_gamma_opt, with_level, difference, with_sepia, with_saturation, stretch_saturation, with_gamma_saturation, with_lightness, with_hue_rotate, modulate, with_vibrance"]}
{"id": "C84", "title": "Channel access", "statement": "Every colour type has three named channels and alpha; with_x and set_x change exactly the named channel, to exactly the given value (they never clamp), and reading a channel gives the value last written or the one given to the constructor (which clamps for Rgb and Srgb only); data lists the channels in order.", "quantifier": "all colours, channels and values", "why_tests_cant": "All floats.", "anchors": ["d10-core/src/color/*.rs: red, green, blue, alpha, hue, set_*, with_*, data, new_with_alpha"]}
{"id": "C85", "title": "Colour iterators", "statement": "into_rgb, into_srgb, into_hsl, into_hsv, into_yuv, into_xyz, into_lab and into_lch of an iterator over colours or over references to colours yield the conversion of every item, in order, one for one, end exactly where the iterator ends and announce the same number of remaining items.", "quantifier": "all iterators (any state machine), colour types and numbers of calls", "why_tests_cant": "Iterators may be infinite or resume after ending.", "anchors": ["d10-core/src/color/iter.rs"]}
{"id": "C86", "title": "Accuracy of the 32-bit computations", "statement": "For every colour with channels in [0, 1] the 32-bit result of an operation is finite and within a stated distance of the result in exact arithmetic: inversion and difference 2^-25, brightness 2^-24 (any amount), contrast (|k|+4) 2^-25 (any factor), alpha blending 2^-22, gray values, sepia, XYZ and YUV 2^-20; and, when the platform's powf is within d of the exact power, gamma d + 2^-23, sRGB to RGB d + 8e-7 and back 1.06 d + 2.7e-6. RGB to XYZ and back is == the colour, and so is sRGB to RGB and back in both orders when powf is within 2^-20.", "quantifier": "all colours with channels in [0, 1], all finite parameters, all platforms", "why_tests_cant": "2^128 colours, and the platform's powf is not known.", "anchors": ["d10-core/src/color/rgb.rs: invert, difference, with_brightness, with_contrast, with_brightness_contrast, alpha_blend, to_gray_with_intensity, with_sepia, with_gamma", "d10-core/src/color/srgb.rs", "d10-core/src/color/xyz.rs", "d10-core/src/color/yuv.rs"]}
{"id": "C87", "title": "No preferred direction", "statement": "Flipping an image or turning it by a quarter, half or three quarters and then applying an operation gives the same image as the operation followed by the flip or turn. In every arithmetic: everything done pixel by pixel, palettes, equalising, stretching contrast, balancing channels. In exact arithmetic: convolution with a kernel that is symmetric under these moves, Gaussian blur, unsharp mask, edge detection, despeckle, drawing and the colour temperature, lightness and saturation optimisers. Symmetric nearest neighbour smoothing is the exception: where two opposite neighbours are equally close it prefers one side. Pixel-by-pixel operations also commute with cropping, interlacing and nearest-neighbour resizing and rotation.", "quantifier": "all images, parameters and the five moves", "why_tests_cant": "Images are arbitrary; tests try a few.", "anchors": ["d10-ops/src/*.rs", "d10-ops/src/flip.rs", "d10-ops/src/rotate_90.rs"]}
{"id": "C88", "title": "Resizing has no preferred direction", "statement": "In exact arithmetic, resizing a mirrored or turned image gives the mirrored or turned result of resizing (with width and height exchanged for quarter turns), for the bilinear, bicubic and Lanczos filters and for the automatic filter unless it reduces the image by a factor above 3/2 and up to 3. The exceptions are real: halving by the automatic filter gives the second column more weight than the first, and the nearest-pixel filter reduces three pixels to the first one.", "quantifier": "all images, sizes and filters", "why_tests_cant": "All pixel contents and all pairs of sizes.", "anchors": ["d10-ops/src/resize.rs: resize", "d10-ops/src/filters.rs"]}
{"id": "C89", "title": "Rotation has no preferred direction", "statement": "In exact arithmetic and for every filter but the nearest pixel, rotating a turned image by any angle gives the turned rotated image, and rotating a mirrored image by the opposite angle gives the mirrored rotated image (except for 360 degrees, which is handled apart).", "quantifier": "all images, angles, backgrounds and filters", "why_tests_cant": "Real angles.", "anchors": ["d10-ops/src/rotate.rs: rotate", "d10-ops/src/filters.rs"]}
{"id": "C90", "title": "Lanczos filters change the brightness", "statement": "In exact arithmetic, halving an image of one colour with the Lanczos filter multiplies every channel, alpha included, by one factor between 0.988 and 0.9891, and with the automatic filter by one factor between 1.067 and 1.075, whatever the colour and the size: the filters' weights do not add up to 1 (unlike those of the other filters, C20).", "quantifier": "all colours and even sizes (automatic filter: sides up to 2^27)", "why_tests_cant": "Infinitely many colours and sizes.", "anchors": ["d10-ops/src/filters.rs: get_pixel_lanczos3, get_pixel_lanczos, lanczos, sinc", "d10-ops/src/resize.rs: resize_auto"]}
{"id": "C91", "title": "How far an operation looks", "statement": "A pixel of the result depends only on the pixels at most r columns and rows away, bit for bit: r = 0 for pixel-by-pixel operations, half the table for convolutions, the radius for Gaussian blur, unsharp mask and symmetric nearest neighbour smoothing, 1 for edge detection and despeckle, max(5, radius) + 3 for drawing (+ 6 with reduced colours). Hence an image can be processed in tiles: the operation on a tile gives the pixels of the operation on the image, except for a border of r pixels at the inner sides of the tile.", "quantifier": "all images, tiles, positions and parameters, every arithmetic", "why_tests_cant": "All pairs of images that agree near a pixel.", "anchors": ["d10-core/src/pixelbuffer.rs: apply_kernel, get_kernel", "d10-ops/src/gaussian_blur.rs", "d10-ops/src/unsharp.rs", "d10-ops/src/edge_detection.rs", "d10-ops/src/despeckle.rs", "d10-ops/src/symmetric_nearest_neighbor.rs", "d10-ops/src/drawing.rs"]}
{"id": "C92", "title": "Floating point arithmetic follows IEEE 754", "statement": "Every sum, difference, product, quotient, literal, conversion, comparison, minimum, maximum, floor, ceil, round and integer cast of the computations is the one the standard and Rust's reference define: the exact result rounded to the nearest representable number, ties to the even significand, infinite from half a unit above the largest finite number on; the rules for infinities, NaN and the sign of zero; casts toward zero that saturate; the byte pattern of f32.", "quantifier": "all pairs of floats of both formats", "why_tests_cant": "2^64 pairs of f32.", "anchors": ["d10-core/src/color/*.rs", "d10-ops/src/*.rs", "d10-codecs/src/utils.rs: f32 arithmetic"]}
{"id": "C93", "title": "Brighter stays brighter, despite rounding", "statement": "If no channel of one colour is above the same channel of another, the same holds after changing brightness, contrast, both, gamma, two-sided gamma or levels by the same parameters, after sepia, after conversion to gray by any intensity but the saturation, after drawing the same colour over both (or the brighter of two equally opaque colours over the brighter base), and, pixel for pixel, after a convolution with non-negative weights; inversion reverses the order. This is about the 32-bit results themselves, so rounding never creates a reversal of neighbouring tones (gamma and levels: if the platform's powf is monotone).", "quantifier": "all pairs of colours with channels in [0, 1], all finite parameters (factors at least 0, white point at least the black point), all kernels and images", "why_tests_cant": "2^96 colours; a reversal by one unit in the last place would show as banding only in rare pixels.", "anchors": ["d10-core/src/color/rgb.rs: with_*, to_gray_with_intensity, invert, alpha_blend, with_sepia", "d10-core/src/pixelbuffer.rs: apply_kernel"]}
{"id": "C94", "title": "A whole run of the command line", "statement": "`d10 input options output.png`, where the options change colours, reads the input, sends every pixel through the options from left to right, and writes a PNG file that opens again as that picture stored in 8 bits; it prints one line per step and ends with exit code 0 and no message, and no other file has changed. If the input cannot be read, the output has no known extension or cannot be created, it prints the reason, ends with exit code 1 and leaves every file as it was.", "quantifier": "all command lines of this form, file systems, pictures and option values; PNG libraries that read what they wrote", "why_tests_cant": "The option list, its values and the pictures are unbounded.", "anchors": ["d10-cli/src/main.rs: main, Args::parse", "d10-commands/src/queue.rs: run", "d10-commands/src/commands.rs: execute", "d10/src/image.rs: open, save", "d10-codecs/src/lib.rs: decode_file, encode_to_file"]}
{"id": "C95", "title": "Blurring, sharpening and edge detection stay close to the exact formula", "statement": "With the 32-bit numbers the program uses, for pictures with channels in [0, 1]: a convolution with n weights whose absolute values add up to at most 2^m is within 3\u00b7n\u00b72^m/2^25 of the exact weighted sum; a Gaussian blur (n weights, radius up to 1023) is within n\u00b7(2\u03b4 + 42/2^24) of the exact one if the platform's exp is within \u03b4, its result leaves the range of the picture's channel values by at most 12\u00b7n/2^25 whatever the accuracy of exp, and blurring an 8-bit picture of one colour with a radius up to 36 changes no channel by more than one level; the unsharp mask with a factor up to 2^m adds at most 2^m times the blur's error; Sobel edges are within 1/50000 and Laplace edges within 432/2^25 of the exact value.", "quantifier": "all pictures with channels in [0, 1], all weights, radii, widths between 2^-40 and 2^40 and factors", "why_tests_cant": "Rounding errors accumulate over millions of additions whose operands are arbitrary.", "anchors": ["d10-core/src/pixelbuffer.rs: apply_kernel, apply_kernel_dyn", "d10-core/src/kernel.rs: new_gaussian", "d10-ops/src/gaussian_blur.rs", "d10-ops/src/unsharp.rs", "d10-ops/src/edge_detection.rs"]}
{"id": "C96", "title": "How colour operations combine", "statement": "In exact arithmetic: two brightness changes in the same direction add up, and a change of at most 1 is undone by the opposite one exactly if no channel saturated; a contrast change followed by one of factor at least 1 in absolute value is one change by the product, so that a reduction of contrast can be undone; two gamma corrections multiply and the reciprocal undoes one; a level change is the level change without gamma followed by the gamma correction, and two level changes are one, whose points are those of the first scaled by the second; contrast, brightness and levels of a negative are the negatives of contrast, the opposite brightness and mirrored levels; the difference of two colours does not depend on their order; addition, darken and lighten of opaque colours are symmetric, darken of negatives is the negative of lighten, adding to a negative the negative of subtracting.", "quantifier": "all colours with channels in [0, 1], all parameters", "why_tests_cant": "Real parameters, saturation on either side at every step.", "anchors": ["d10-core/src/color/rgb.rs: with_brightness, with_contrast, with_gamma, with_level, invert, difference", "d10-ops/src/blend.rs"]}
{"id": "C97", "title": "Red, green and blue are treated alike", "statement": "Exchanging the colour channels of a picture (or copying one over another) before an operation gives the same, bit for bit, as doing it afterwards, for inversion, brightness, contrast, both, gamma, two-sided gamma, levels, the difference of colours, drawing a colour over another, the blend modes that work channel by channel, convolution, Gaussian blur, unsharp mask, edge detection, resizing with every filter and rotation (with the background's channels exchanged too).", "quantifier": "all pictures, parameters and ways to exchange channels, every arithmetic", "why_tests_cant": "Any channel could be mistaken for another in code that spells out all of them.", "anchors": ["d10-core/src/color/rgb.rs", "d10-core/src/pixelbuffer.rs: apply_kernel, apply_kernel_dyn", "d10-ops/src/gaussian_blur.rs", "d10-ops/src/unsharp.rs", "d10-ops/src/edge_detection.rs", "d10-ops/src/resize.rs", "d10-ops/src/rotate.rs", "d10-ops/src/filters.rs"]}
{"id": "C98", "title": "Grey pictures stay grey", "statement": "If red, green and blue are equal in every pixel of a picture, they are equal in every pixel of the result of brightness, contrast, gamma, levels, conversion to grey, convolution, blur, unsharp mask, edge detection, despeckling, symmetric nearest neighbour smoothing, contrast stretching, equalising the channels, resizing and rotation (onto a grey background), bit for bit; changing hue, saturation and lightness, vibrance, and equalising saturation or lightness keep them equal too. Stretching the saturation by a factor below 1 does not: it turns every grey but black and white reddish.", "quantifier": "all grey pictures and parameters; every arithmetic, for the operations on hue and saturation exact numbers and binary32", "why_tests_cant": "All pictures and parameters; a colour cast of one unit in the last place.", "anchors": ["d10-core/src/color/rgb.rs", "d10-core/src/color/hsl.rs: to_rgb", "d10-ops/src/*.rs"]}
{"id": "C99", "title": "Recolouring before or after; negatives; superposition", "statement": "Flips, quarter turns, crops, interlacing, and resizing and rotation by the nearest pixel commute with everything that is done to each pixel on its own, bit for bit (rotation: if the background is recoloured too). In exact arithmetic the negative of the result is the result of the negative for convolutions whose weights add up to 1, Gaussian blur, unsharp mask, bilinear and bicubic resizing, and rotation onto the inverted background; the negative has the same Sobel edges and the opposite Laplace edges; convolving a weighted sum of two pictures gives the weighted sum of their convolutions.", "quantifier": "all pictures, functions of colours, kernels, sizes, angles and parameters", "why_tests_cant": "All pictures and all functions of a colour.", "anchors": ["d10-core/src/pixelbuffer.rs: map_colors, apply_kernel", "d10-ops/src/flip.rs", "d10-ops/src/rotate_90.rs", "d10-ops/src/crop.rs", "d10-ops/src/interlace.rs", "d10-ops/src/resize.rs", "d10-ops/src/rotate.rs", "d10-ops/src/gaussian_blur.rs", "d10-ops/src/unsharp.rs", "d10-ops/src/edge_detection.rs"]}
{"id": "C100", "title": "What a colour prints", "statement": "Converting a colour to text shows each channel up to 800 in absolute value as its sign, the whole part, a point and one to four decimal places without needless zeros; the number shown differs from the channel by at most half of the fourth place, up to the rounding of 32-bit numbers. The 32-bit number nearest to a number with at most four decimal places, up to 400, is shown as exactly that number, so a colour made of such numbers shows them literally, with the alpha left out exactly if it is 1. NaN and the infinities are shown as `NaN.0`, `inf.0` and `-inf.0`, which happens for the hue of every grey colour in HSV, and a negative number that rounds to zero as `-0.0`.", "quantifier": "all channels and colours; every number formatting that prints the shortest digits that read back", "why_tests_cant": "There are 2^32 channel values; the text depends on which decimal digits are the shortest that identify a float.", "anchors": ["d10-core/src/color/mod.rs: format_color", "d10-core/src/color/*.rs: impl Display"]}
{"id": "C101", "title": "Numbers on the command line", "statement": "Each option with a number accepts as its parameter exactly an optional sign followed by digits with an optional point and exponent, or by `inf`, `infinity` or `nan` in any case, and takes the number written, correctly rounded to 32 bits; every other text is refused with a message naming the option and the text. A negative number is not mistaken for an option. A number printed by the standard library, or shown by a colour with up to four decimal places, is read as the same number again.", "quantifier": "all texts, options and command lines", "why_tests_cant": "There are infinitely many texts.", "anchors": ["d10-cli/src/main.rs: Args::parse_arg"]}
{"id": "C102", "title": "How changes of hue, saturation and lightness combine", "statement": "In exact arithmetic: a colour given in HSL whose channels span at least the comparison tolerance (1/32768) returns from RGB with its saturation, lightness and alpha, and with its hue up to a share of the tolerance (exactly, unless the hue is that little above yellow or cyan or below magenta). Hence two hue rotations in a row equal one by the sum of the angles, as `==` sees it, and a rotation is undone by the opposite one up to twice the tolerance; two saturation or lightness factors in a row act like their product, if the first neither reaches the limit nor leaves the channels closer together than the tolerance; hue rotation and saturation can be exchanged up to 1 + factor tolerances. Saturation 0 and lightness 0 cannot be undone: no factor brings a colour back.", "quantifier": "all colours with channels in [0, 1], all angles and factors", "why_tests_cant": "Real parameters; the conversion takes a channel near the greatest for the greatest, so errors depend on the colour.", "anchors": ["d10-core/src/color/rgb.rs: with_hue_rotate, with_saturation, with_lightness", "d10-core/src/color/mod.rs: to_hsl", "d10-core/src/color/hsl.rs: to_rgb, hue2rgb"]}
{"id": "C103", "title": "Enlarging with sharp pixels and going back", "statement": "Resizing with the nearest-pixel filter to k times the width and l times the height, for whole k and l, repeats every pixel k times across and l times down; the whole is moved by half a pixel to the left and up, so that the first column is k/2 places narrower and the last one as much wider. Resizing to a k-th of the width and an l-th of the height keeps every k-th pixel of every l-th row. Enlarging and going back gives the same picture, bit for bit.", "quantifier": "all pictures, factors and sizes (with the 32-bit numbers of the program: sides of the larger picture up to 2^21; in exact arithmetic all sizes)", "why_tests_cant": "The position is computed with rounding errors for every pixel and size; a single one rounded to the wrong side would shift a column.", "anchors": ["d10-ops/src/resize.rs: resize, resize_with_fn, resize_pixel_nearest"]}
{"id": "C104", "title": "Resizing stays close to the exact formula", "statement": "With the 32-bit numbers the program uses, for pictures with channels in [0, 1] and sides up to 2^21: each channel of a picture of w by h pixels resized with the bilinear filter is within (w + h)/2^22 + 20/2^24 of what the same program gives in exact arithmetic, and with the bicubic filter (also the automatic one, if a side is not reduced) within 2.5\u00b7(w + h)/2^22 + 2470/2^24, although a position that is rounded across a pixel's border makes it read other pixels. The nearest-pixel filter reads a pixel that is at most half a pixel and w/2^21 (h/2^21) away from the exact position.", "quantifier": "all pictures with channels in [0, 1], all old and new sizes up to 2^21", "why_tests_cant": "Rounding errors of positions grow with the position and can fall on either side of a pixel's border; 2^21 sizes in each direction and arbitrary colours.", "anchors": ["d10-ops/src/resize.rs: resize, resize_with_fn, resize_pixel_nearest, resize_pixel_bilinear, resize_pixel_bicubic", "d10-ops/src/filters.rs: get_pixel_bilinear, get_pixel_bicubic, linear_interpolate, cubic_hermite_interpolate"]}
{"id": "C105", "title": "Rotating stays close to the exact formula", "statement": "With the 32-bit numbers the program uses, for an angle of at most two turns (and not the full turn, which changes nothing), sides adding up to at most 2^21 and a platform whose sine and cosine are within \u03b4: the position each pixel is taken from is off by at most m = (w + h)\u00b7(\u03b4/2 + 37/2^25) pixels. A pixel whose exact position is outside the picture by more than m shows the background. One whose exact position is inside by more than m is, for pictures with channels in [0, 1], within 2m + 20/2^24 of what the same program gives in exact arithmetic with the bilinear filter and within 5m + 2470/2^24 with the bicubic or automatic one; the nearest-pixel filter shows a pixel at most half a pixel and m away from the exact position.", "quantifier": "all pictures with channels in [0, 1], all angles up to two turns, all sizes up to 2^21, all backgrounds, every platform's sine and cosine", "why_tests_cant": "Angles and colours are arbitrary numbers; rounding errors decide on which side of a border a position falls.", "anchors": ["d10-ops/src/rotate.rs: rotate, rotate_with_fn, rotate_pixel_nearest, rotate_pixel_bilinear, rotate_pixel_bicubic", "d10-ops/src/filters.rs: get_pixel_bilinear, get_pixel_bicubic"]}
{"id": "C106", "title": "When the command line panics", "statement": "If the codec libraries keep to their documentation, the program ends with an exit code for every list of arguments, all files and all random numbers, with one exception: it panics exactly if the arguments are right and one of the commands opens a file that at that moment is read as a JPEG file whose picture has a size no buffer can have, after commands that all succeeded. Editing commands and saving, in any format with any settings, never panic.", "quantifier": "all argument lists, file systems, libraries that keep to their documentation, random generators, settings of the encoders", "why_tests_cant": "Arguments, file contents and random numbers are unbounded, and a file read later may have been written by an earlier command.", "anchors": ["d10-cli/src/main.rs: main", "d10-commands/src/queue.rs: Queue::run", "d10-commands/src/commands.rs: execute", "d10-codecs/src/lib.rs: decode_file, encode_to_file, encode"]}
{"id": "C107", "title": "A brighter picture gives a brighter result", "statement": "Take two pictures of one size, the first nowhere brighter than the second in any channel. Gaussian blur keeps that order with the 32-bit numbers the program uses, for pictures with channels in [0, 1]. In exact arithmetic resizing and rotating keep it, alpha included, with the nearest-pixel and the bilinear filter (for rotating also between two backgrounds in order). The bicubic filter does not keep it even in exact arithmetic: a brighter pixel can make another one darker. With 32-bit numbers the bilinear filter does not keep it either: making one of two pixels brighter by the last digit can make the pixel between them darker by the last digit.", "quantifier": "all pairs of pictures, sizes, angles, backgrounds, radii up to 1023; every platform's exp and sqrt within the stated error", "why_tests_cant": "Pairs of arbitrary pictures; the order could fail by a single rounding.", "anchors": ["d10-ops/src/gaussian_blur.rs: gaussian_blur", "d10-core/src/pixelbuffer.rs: apply_kernel", "d10-ops/src/resize.rs: resize", "d10-ops/src/rotate.rs: rotate", "d10-ops/src/filters.rs: get_pixel_bilinear, get_pixel_bicubic"]}
{"id": "C108", "title": "What rounding errors mean for the stored bytes", "statement": "If every channel of a picture, computed with 32-bit numbers, is within \u03b5 of the one computed exactly, and the platform's power function within \u03b4 \u2264 1/1024, then every byte handed to an encoder (RGBA and RGB with 8 bits) is less than 255\u00b7(13\u03b5 + 1.06\u03b4 + 1/200000) + 1 + 1/65536 away from the byte exact arithmetic would give; the 13 is the steepness of the sRGB curve near black, the 1 comes from truncation. For resizing with the bilinear filter from a picture with width + height up to 1000, and \u03b4 \u2264 1/65536, no byte is off by more than one; for other sizes, and the bicubic filter, the bound follows from C104.", "quantifier": "all pictures with channels in [0, 1], all sizes up to 2^21, every platform's powf", "why_tests_cant": "Every colour and position has its own rounding error; truncation turns the smallest one into a whole level.", "anchors": ["d10-codecs/src/utils.rs: to_rgba8_vec, to_rgb8_vec, as_u8", "d10-core/src/color/srgb.rs: linear_to_gamma", "d10-ops/src/resize.rs: resize"]}
{"id": "C109", "title": "Saving when the disk fails or the process is stopped", "statement": "While a picture is saved to a file the system may take the bytes in any pieces, ask to try again, fail at any write, or stop the process at any point. If the format's library stops at the first failed write and passes the error on: at every moment the file holds a beginning of the bytes the encoder wrote, followed at most (after a failure) by what the library's destructor adds; nothing is lost in the middle, doubled or reordered, and nothing of an older file is left. The result is the encoder's own or the error of the file. If no write fails, all bytes are in the file. If saving succeeds, at most the last 8192 bytes are missing, and those the library writes while it is destroyed; they can really be missing: an error of the last flush is not reported, so a small picture can be saved successfully to an empty file. With a library that flushes at the end this cannot happen. For WebP success is reported only if no write failed, even if libwebp goes on after being told of a failure. Saving to memory gives exactly the bytes.", "quantifier": "all encoders (as programs that write pieces and react to the answers), all answers of the system, all points at which the process is stopped", "why_tests_cant": "Every sequence of short writes, interruptions, failures and crash points is a different run; tests on a healthy disk see one.", "anchors": ["d10-codecs/src/lib.rs: encode_to_file", "d10-codecs/src/webp.rs: writer_function, encode_webp", "d10/src/image.rs: save, save_with_format, save_to_writer, save_to_buffer"]}
{"id": "C110", "title": "Readers that deliver in pieces", "statement": "The WebP decoder gets the whole input, however it is cut into pieces; an error of the reader, even one that only asks to try again, ends it and is reported. A format is recognised from what the first read call delivers: if that is enough bytes for the format (JPEG 3, PNG 8, GIF 6, BMP 2, ICO 4, WebP 12) the format of the data, otherwise none, and never another one; errors of reading and of seeking are reported.", "quantifier": "all inputs, all ways to cut them into pieces, all points at which an error occurs", "why_tests_cant": "Readers are supplied by the user and may deliver as little as one byte at a time.", "anchors": ["d10-codecs/src/webp.rs: decode_webp", "d10-codecs/src/lib.rs: Format::from_reader"]}
{"id": "C111", "title": "Editing through references", "statement": "`enumerate_mut` visits every pixel once, row by row, with its position; reading through its references gives the pixel, writing through one is `put_pixel`, and after any number of writes in any order every pixel shows what was last written to it and all others are unchanged; `data_mut` gives the same references. The functions that change all pixels with their positions are loops over it. The named colours are opaque, fully saturated, of lightness one half and evenly spread over the circle of hues; inverting exchanges the opposite ones. An error of a command names as its source exactly the error of the codec it came from.", "quantifier": "all buffers, all sequences of writes", "why_tests_cant": "Histories of writes are unbounded.", "anchors": ["d10-core/src/pixelbuffer.rs: enumerate_mut, data_mut, mod_colors_enumerated", "d10/src/image.rs: data_mut", "d10-core/src/color/rgb.rs: RED, GREEN, BLUE, CYAN, MAGENTA, YELLOW", "d10-commands/src/errors.rs: source, from"]}
{"id": "C112", "title": "Lab with 32-bit numbers", "statement": "With the 32-bit numbers the program uses, on a platform whose power function is within \u03b4 \u2264 10^-6: XYZ to Lab is within 8\u03b4 + 2\u00b710^-5 of the exact conversion for XYZ values in the range of RGB colours, RGB to Lab within 8\u03b4 + 5\u00b710^-5, Lab to XYZ within 1.1\u03b4 + 4\u00b710^-6, and XYZ to Lab and back within 6\u03b4 + 4.2\u00b710^-6 of the colour itself. RGB to Lab and back, with \u03b4 = 2^-22, is within 2.8\u00b710^-5 and equal (`==`) to the colour, with the same alpha. All of this for every illuminant and observer, although the curve switches between two formulas and a rounding error can make the two directions take different ones.", "quantifier": "all colours in range, all illuminants and observers, every platform's powf within the stated error", "why_tests_cant": "The colours are about 2^90 triples; near the switch of the curve the error depends on which formula each direction takes.", "anchors": ["d10-core/src/color/mod.rs: to_lab", "d10-core/src/color/lab.rs: to_xyz, get_refs", "d10-core/src/color/rgb.rs: to_xyz, from xyz"]}
{"id": "C113", "title": "LCh with 32-bit numbers", "statement": "With the 32-bit numbers the program uses: the lightness of LCh is that of Lab, its chroma the length of (a, b) with a relative error of at most 1/7000000 (and 8\u00b710^-5 + 12\u03b4 compared with the exact conversion from RGB) and its hue the direction of (a, b) up to the error \u03b4 of atan2. XYZ to LCh and back is within 32\u03b4 + 7\u00b710^-6 of the colour. RGB to LCh and back, which goes through Lab twice, is within 6.5\u00b710^-5 with \u03b4 = 2^-22, with the same alpha.", "quantifier": "all colours in range, all illuminants and observers, every platform whose powf, sqrt, sin, cos and atan2 are within the stated errors", "why_tests_cant": "Near gray the direction is decided by rounding errors; the colours are about 2^90 triples.", "anchors": ["d10-core/src/color/mod.rs: to_lch", "d10-core/src/color/lab.rs: Lch::to_xyz, to_lab"]}
{"id": "C114", "title": "Changing the channels with a function", "statement": "Mapping a colour calls the function for the three colour channels in order, once each, and never for alpha, whatever state the function keeps; the first error ends it and is returned; otherwise the results become the channels of a colour of the same type. RGB and sRGB bring them into [0, 1], the other types take them as they are. The function that changes nothing gives the same colour bit for bit; mapping twice is mapping once with both functions (for RGB and sRGB with the limits applied in between).", "quantifier": "all colours of all types, all functions with any state and any errors", "why_tests_cant": "The function is supplied by the user.", "anchors": ["d10-core/src/color/mod.rs: map_color_channels, try_map_color_channels"]}
{"id": "C115", "title": "Errors of the format libraries", "statement": "Reading a file calls the format's library once or twice. If one of the calls fails, reading ends with the error of the first one that failed: an I/O error inside the library's error is reported as that same I/O error, any other as a decoding error with the library's text, so that the text shown to the user is the library's. Once the bytes are there, an I/O error is reported exactly if it is the library's. Saving performs the library's calls in order; the bytes written are those of the calls made, and the first error ends it and is reported in the same two ways.", "quantifier": "all pictures, inputs, formats and settings, all libraries with any errors at any call", "why_tests_cant": "Errors of a library depend on the data and on the reader or writer; a test would have to provoke each one at each call.", "anchors": ["d10-codecs/src/png.rs: encode_error, decode_error, encode_png, decode_png", "d10-codecs/src/gif.rs: encode_error, decode_error, encode_gif, decode_gif", "d10-codecs/src/jpeg.rs: encode_jpeg, decode_jpeg", "d10-codecs/src/bmp.rs: encode_bmp, decode_bmp", "d10-codecs/src/ico.rs: encode_ico, decode_ico"]}
{"id": "C116", "title": "YUV with 32-bit numbers", "statement": "With the 32-bit numbers the program uses, on a platform whose power function is within \u03b4: a YUV colour that a screen can show is converted to RGB within \u03b4 + 4.3\u00b710^-6 of the exact conversion. sRGB to YUV and back is within 14.1\u03b4 + 1.67\u00b710^-5 of the colour and, for \u03b4 up to 2^-20, equal (`==`) to it; RGB to YUV and back, which applies the transfer function in both directions, is within 3.5\u03b4 + 2.68\u00b710^-5 and equal to it. Rounding errors of the matrices can make a channel slightly negative or greater than 1 before the transfer function is applied; this does no harm.", "quantifier": "all colours in range, every platform's powf within the stated error", "why_tests_cant": "The colours are about 2^90 triples, and the transfer function is steep near black.", "anchors": ["d10-core/src/color/srgb.rs: to_yuv", "d10-core/src/color/yuv.rs: to_rgb", "d10-core/src/color/mod.rs: apply_matrix, gamma_to_linear, linear_to_gamma"]}
{"id": "C117", "title": "Through any colour type and back with 32-bit numbers", "statement": "With the 32-bit numbers the program uses, on a platform whose powf, sqrt, sin, cos and atan2 are within 2^-22: an RGB colour with channels in [0, 1] converted to any of the colour types (RGB, sRGB, HSL, HSV, YUV, XYZ, Lab and LCh with any illuminant and observer) and back has every channel within 6.5\u00b710^-5 of what it was and in [0, 1], and the same alpha. For any sequence of such conversions the errors at most add up. A pixel read from 8-bit samples, taken through up to four colour types one after the other, is stored as 8-bit samples that differ from those read by at most 1, and that of alpha not at all.", "quantifier": "all colours in range, all colour types, all sequences of colour types, all pixels of 8-bit files", "why_tests_cant": "There are about 2^90 colours, 2^32 8-bit pixels and infinitely many sequences of conversions.", "anchors": ["d10-core/src/color/mod.rs: to_srgb, to_hsl, to_hsv, to_yuv, to_xyz, to_lab, to_lch", "d10-core/src/color/rgb.rs: to_rgb", "d10-codecs/src/utils.rs: from_u8, as_u8"]}
{"id": "C118", "title": "Pictures stay in range", "statement": "A channel is in range if it is not a number or between 0 and 1. With 32-bit numbers, every method of RGB colours that makes a colour of a colour in range makes one in range, for every parameter, infinite ones and NaN included. Every picture in memory while a command line runs is in range after every command, whether the run ends well, with an error or with a panic: nothing that can be written on the command line leads outside. A program that uses the library's image methods with closures and colours in range only has images in range, files read included, whatever the parameters, libraries and random numbers are, if it does not blur, use a Lanczos filter (or the automatic filter of resizing to a smaller size, which uses one), detect edges with the Laplace method or balance in RGB or HSV (changing the colour temperature needs a power function that keeps the unit interval). Laplace edge detection and balancing in RGB and HSV do leave the range.", "quantifier": "all sequences of commands and image methods with any parameters, all input files, libraries and random generators", "why_tests_cant": "The property must hold after every sequence of operations with any 32-bit parameters.", "anchors": ["d10/src/image.rs", "d10-core/src/color/rgb.rs", "d10-commands/src/commands.rs: execute", "d10-cli/src/main.rs: parse, create_args", "d10-codecs/src/lib.rs: decode_file, decode_buffer", "d10-ops/src/edge_detection.rs: edge_detection_laplace", "d10-ops/src/balance_channels.rs: balance"]}
{"id": "C119", "title": "Python functions and threads never see a half rewritten image", "statement": "In Python, `mod_colors`, `mod_colors_enumerated`, `map_colors`, `map_colors_enumerated` and `compose` call a Python function for every pixel. The function may do anything, including calling methods of the same images, and other threads may run in between. Whatever they do: an image that such a call goes over without changing it stays as it was when the call began; an image that is being rewritten holds the colours returned so far, one after the other, and otherwise what it held when the call began. Any call that concerns an image being rewritten raises an exception and changes nothing, and so does any call that would change an image being gone over, saving it included. The function is called for the pixels in row order with the colours they had when the call began, and the result consists of the colours it returned. An exception in the function ends the call with the same exception, and the images can be used again. An image no call in progress uses can always be used.", "quantifier": "all Python programs, all functions passed in, all threads and schedules of their steps, all images", "why_tests_cant": "A test runs a few functions under a few schedules; the functions and the interleaving of threads are the user's and the interpreter's.", "anchors": ["d10-python/src/image.rs: mod_colors, mod_colors_enumerated, map_colors, map_colors_enumerated, compose, apply_palette_in_place, save", "d10-core/src/pixelbuffer.rs: try_mod_colors, try_mod_colors_enumerated, try_map_colors, try_map_colors_enumerated, try_new_from_func", "d10-ops/src/compose.rs: try_compose_slice"]}
{"id": "C120", "title": "Image objects of Python programs keep their shape and their range", "statement": "However many threads a Python program has, whatever its functions do and wherever it is interrupted - also in the middle of rewriting an image, and after functions that raised - every image object has exactly width times height pixels, an allowed size and no background colour, and an image object never changes its size. If the program's own colours and those its functions return are in range, and it does not blur, use a Lanczos or automatic filter, detect edges with the Laplace method or balance in RGB or HSV, and imports arrays only as RGB, sRGB or grey values, then every pixel of every image object is in range at every moment. Every method of an image object, and every way to make one, does what the function of that name of the library does (C65 to C70 say what that is).", "quantifier": "all Python programs, all functions passed in, all threads and schedules of their steps, all libraries that keep to their documentation", "why_tests_cant": "The state in the middle of a call is visible to other threads and after exceptions; programs and schedules are unbounded.", "anchors": ["d10-python/src/image.rs: Image, mod_colors, mod_colors_enumerated, map_colors, map_colors_enumerated, compose, from_np_array, put_pixel", "d10/src/image.rs"]}
{"id": "C121", "title": "When methods of Python images panic", "statement": "In a Python program a panic arrives as a `PanicException`, which ordinary `except Exception` clauses do not catch. A method of an image that nobody is changing panics exactly in these cases: the nearest pixel of an empty image is asked for; an image is resized to an impossible size, or an empty image to a size above zero, or an empty image by percent; a picture cannot be encoded as JPEG and read back in `with_jpeg_quality`; blur, unsharp or drawing get a radius above 32767; a pixel outside the image is set; the picture covering two blended images would be of an impossible size. Making an image panics exactly for impossible sizes, lists of another length, files with a JPEG picture of an impossible size, and arrays with fewer than two dimensions or an impossible size. An unknown option name raises an ordinary exception instead, whatever the other arguments are. Everything else, for all images and arguments, returns or raises an ordinary exception.", "quantifier": "all images, all arguments, all random generators and libraries that keep to their documentation, all programs and schedules", "why_tests_cant": "A panic is the absence of an ordinary outcome: it has to be excluded for all images and arguments.", "anchors": ["d10-python/src/image.rs", "d10/src/image.rs", "d10-ops/src/resize.rs: resize", "d10-ops/src/gaussian_blur.rs: gaussian_blur", "d10-ops/src/unsharp.rs: unsharp", "d10-ops/src/drawing.rs: drawing", "d10-ops/src/jpeg_quality.rs: jpeg_quality", "d10-core/src/pixelbuffer.rs: put_pixel, get_pixel_clamped, new_from_raw"]}
{"id": "C122", "title": "Pictures of numbers stay pictures of numbers", "statement": "With 32-bit numbers, on a platform whose power function gives a number for every base that is not negative: the methods of RGB colours turn colours with finite channels between 0 and 1 into such colours for all finite arguments, however large; no NaN and no infinity appears. The gamma of the saturation does so for positive gammas; with a gamma of -1 it turns black into NaN. Decoded files hold such colours only, as far as the libraries hand over bytes or numbers. So every picture in memory while a command line with finite numbers runs, rotations and noise included, consists of finite numbers between 0 and 1. A brightness given as `nan` is enough to lose that.", "quantifier": "all colours, all finite 32-bit arguments, all sequences of commands, all input files, all random generators that draw from [-1, 1]", "why_tests_cant": "Intermediate results may overflow to infinity, and infinity minus infinity or zero times infinity is NaN: this depends on the magnitude of arguments of any size.", "anchors": ["d10-core/src/color/rgb.rs", "d10-core/src/color/hsl.rs: to_rgb, hue2rgb", "d10-commands/src/commands.rs: execute", "d10-ops/src/rotate.rs: rotate", "d10-ops/src/filters.rs: get_pixel_bilinear, get_pixel_bicubic", "d10-ops/src/noise.rs: random_noise, salt_n_pepper_noise, rgb_noise", "d10-codecs/src/lib.rs: decode_file, decode_buffer"]}
{"id": "C123", "title": "Programs that work with numbers make pictures of numbers", "statement": "With 32-bit numbers, on a platform whose power function, square root and exponential give numbers where they should and whose sine and cosine lie between -1 and 1: every image of a program that uses the methods of the library - reading files, moving, cropping, rotating, resizing (to any size, with the nearest, bilinear or bicubic filter), edge detection by Sobel, JPEG quality, all kinds of noise, blending, composing, interlacing, despeckling, stretching the contrast, equalizing in every mode, the symmetric nearest neighbour, sharpening and drawing - with finite arguments and with closures and colours made of finite numbers between 0 and 1 consists of finite numbers between 0 and 1. Blending in HSL needs an intensity between 0 and 1: a huge one makes NaN. Despeckling needs an amount below 9, the symmetric nearest neighbour a radius above zero or the centre (otherwise there is nothing to divide by).", "quantifier": "all programs of these methods, all sizes, all finite arguments, all files and libraries that keep to their documentation, all random generators", "why_tests_cant": "Sums over any number of pixels, quotients of sizes and of table entries may overflow or be zero by zero: this depends on sizes and histories.", "anchors": ["d10/src/image.rs", "d10-ops/src/resize.rs: resize", "d10-ops/src/edge_detection.rs: edge_detection_sobel", "d10-ops/src/despeckle.rs: despeckle", "d10-ops/src/symmetric_nearest_neighbor.rs: symmetric_nearest_neighbor", "d10-ops/src/stretch_contrast.rs: stretch_contrast", "d10-ops/src/equalize.rs: equalize", "d10-ops/src/blend.rs: blend_image", "d10-ops/src/gaussian_noise.rs: gaussian_noise", "d10-ops/src/jpeg_quality.rs: jpeg_quality"]}
{"id": "C124", "title": "Blurring, sharpening and drawing lose no numbers", "statement": "With 32-bit numbers, on a platform whose exponential lies between 0 and 1 for arguments that are not positive and whose square root of a number that is not negative lies between 0 and the larger of 1 and the number: blurring a picture of finite numbers between 0 and 1 gives finite numbers that are not negative, for every radius, if the width is between 2^-30 and 2^30 in magnitude or is left to the program and the radius is at least 1. Sharpening such a picture, or one that was blurred before, with any finite amount gives numbers between 0 and 1, and so does drawing in every mode and with every radius, also with radius 0 and for grey pictures, where NaN appears on the way. Blurring with radius 0 and without a width makes every channel of every pixel NaN.", "quantifier": "all pictures, all radii, all widths of moderate magnitude, all finite amounts, all modes", "why_tests_cant": "Weights may underflow to zero, their sum and the sums of the pixels grow with the radius, and hues of grey are zero by zero: this depends on all sizes and colours.", "anchors": ["d10-ops/src/gaussian_blur.rs: gaussian_blur", "d10-ops/src/unsharp.rs: unsharp", "d10-ops/src/drawing.rs: drawing", "d10-core/src/kernel.rs: new_gaussian", "d10-core/src/kernel_dyn.rs: new_gaussian", "d10-core/src/color/hsv.rs: to_rgb"]}
{"id": "C125", "title": "What opening and saving again and again costs", "statement": "With 32-bit numbers, on a platform whose power function is within 2^-14 on the unit interval, a PNG library that reads what it wrote and a disk that keeps what is written: a PNG file with 8 bits (grey, grey and alpha, RGB, RGBA) can be opened and saved under its name any number of times. After n times every colour sample is what it was or lower by at most n, never higher, and every alpha sample is what it was. The same holds for a picture that is saved and then opened and saved n times. With 16 bits (RGB, RGBA; power function within 2^-22) the samples are at most 2n lower and at most n higher. (In exact arithmetic nothing is lost, C78; white is one of the samples that are lost, C53.)", "quantifier": "all pictures, all numbers of generations, all paths, compression settings and platforms with such a power function", "why_tests_cant": "The number of generations is unbounded, and the rounding of each depends on the power function of the platform.", "anchors": ["d10-codecs/src/lib.rs: decode_file, encode_to_file", "d10-codecs/src/utils.rs: from_u8, as_u8, from_u16_be, as_u16", "d10-core/src/color/srgb.rs: to_rgb", "d10-core/src/color/rgb.rs: to_srgb, to_gray"]}
{"id": "C126", "title": "The corrections for a whole picture lose no numbers", "statement": "With 32-bit numbers (and 64-bit ones for the means), on a platform whose power function gives numbers, keeps the unit interval and gives 0 for 0 and a positive exponent, and whose tanh lies between -1 and 1: a picture of finite numbers between 0 and 1 is such a picture again after the lightness was optimized with any finite offset, after the saturation was optimized in HSL or HSV with any finite offset that is not negative, after the colour temperature was changed between any two temperatures of at least 2000 with any tint correction, and after it was changed automatically with a factor between -1 and 1. Applying a palette replaces each pixel by an entry of the palette whose distance is within 2.8\u00b710^-5 of the smallest, with the alpha of the pixel. With an offset of -2 the saturation can make NaN; temperatures of 1000 and less make NaN (C68).", "quantifier": "all pictures of any size, all finite offsets, all temperatures from 2000, all tint corrections, all palettes, all platforms with such functions", "why_tests_cant": "Means over any number of pixels, quotients of chromaticities and powers with exponents computed from the picture may overflow or be zero by zero.", "anchors": ["d10-ops/src/lightness.rs: optimize_lightness", "d10-ops/src/saturation.rs: optimize_saturation", "d10-ops/src/temperature.rs: change_color_temperature, optimize_color_temperature, convert_kelvin_to_rgb", "d10-ops/src/apply_palette.rs: apply_palette, apply_palette_in_place", "d10/src/image.rs: optimize_lightness, optimize_saturation, change_color_temperature, optimize_color_temperature, apply_palette"]}
{"id": "C127", "title": "A whole program of operations stays close to exact arithmetic", "statement": "Run the same program twice, once with the 32-bit numbers of the library and once with exact numbers: open the same PNG, GIF or WebP file (or begin with the same picture), then make any number of the same calls in any order - inverting, brightness, contrast, both together, gray, sepia, gamma up to 1 (changing the image or copying it), any other function on colours for which a bound is known, setting pixels, cropping, flipping, turning, interlacing, bilinear and bicubic resizing, sharpening, looking for edges by Sobel. Each call succeeds in both programs or in neither. The two pictures always have the same size and are in range, and no channel of any pixel differs by more than a sum that can be counted up from the calls: each call multiplies the difference there was by a factor that belongs to the operation (1 for most, the contrast for contrast, 1.351 for sepia, 25/16 for bicubic resizing, 1 + 2\u00b72^m for sharpening by up to 2^m, 16 for edges) and adds the rounding error of a single call. The bytes saved in the end differ by at most 13 times that sum (in units of the byte range) and one unit. A blur or Laplace edges at the end keep the pictures together too.", "quantifier": "all programs of these calls of any length, all pictures in range, all files, all finite parameters, every platform whose powf, exp and sqrt are within the stated errors", "why_tests_cant": "Errors of one call are the input of the next: they can only be bounded for all sequences by a statement about arbitrary inputs of each call.", "anchors": ["d10/src/image.rs: mod_colors, map_colors, put_pixel, crop, flip_horizontal, flip_vertical, rotate90, rotate180, rotate270, resize, unsharp, gaussian_blur, edge_detection", "d10-ops/src/edge_detection.rs: edge_detection", "d10-core/src/color/rgb.rs: invert, with_brightness, with_contrast, with_brightness_contrast, to_gray_with_intensity, with_sepia, with_gamma", "d10-codecs/src/lib.rs: decode", "d10-codecs/src/utils.rs: to_rgba8_vec, to_rgb8_vec"]}
{"id": "C128", "title": "The Lanczos filters stay close to the exact formula", "statement": "With 32-bit numbers, on a platform whose sine of a number x in (0, 10] is off by at most \u03b4\u00b7x (\u03b4 up to 1/1000): resizing a picture with channels in [0, 1] and sides up to 2^21 with the Lanczos filter, making it smaller with the automatic filter by factors up to 2047, and rotating it with the Lanczos filter succeed, and every channel of every pixel (when rotating: that comes from clearly inside the picture) is a finite number within 200\u00b7\u03b4 + (72 + 3\u00b7N)/2^18 of the exact Lanczos sum with N rows and columns around a point that is not further from the exact position than the rounding error of positions. N is 7 for the Lanczos filter; for the automatic filter the window reaches max(3, \u2308m\u2309) pixels in each direction, for an m that is twice the larger factor up to one part in 2^20. With a sine good to the last bit the Lanczos filter is within 1/2000.", "quantifier": "all pictures with channels in range, all sizes up to 2^21, all angles up to two turns, every platform with such a sine", "why_tests_cant": "The weights are quotients of sines near zero and sums of up to 8191 x 8191 products; whether a division by nearly zero or the length of the sums spoils the result cannot be seen from samples.", "anchors": ["d10-ops/src/resize.rs: resize, resize_auto", "d10-ops/src/filters.rs: sinc, lanczos, get_pixel_lanczos3, get_pixel_lanczos, lanczos_dyn, get_pixel_lanczos_dyn", "d10-ops/src/rotate.rs: rotate", "d10/src/image.rs: resize, resize_pct, rotate"]}
{"id": "C129", "title": "How exact a whole run of the command line is", "statement": "`d10 input options output.png`, with 32-bit numbers, on a platform whose power function is within \u03b4 (at most 2^-10), for an input that is a PNG file of any of the supported kinds, and with any number of the options -invert, -brightness, -contrast, -brightness-contrast, -grayscale (except saturation), -gamma (up to 1) and -level (black and white in [0, 1], at least 2^-12 apart, gamma up to 1), -saturation (0 to 1) and -hue-rotate (at most one turn) in any order: the program ends with code 0 and without a message, and the output file, read by the PNG library, has the size of the input, and 8-bit RGBA samples. Each of them is less than 255\u00b7(13\u00b7(L\u00b7(\u03b4 + 10^-6) + \u03b7) + 1.06\u00b7\u03b4 + 1/200000) + 1 + 2^-16 away from the sample that the same formulas give in exact arithmetic for the samples of the input file, where L and \u03b7 are counted up from the options (each multiplies by its factor and adds its rounding error). For a usual line that is: no sample is off by more than one.", "quantifier": "all PNG files, all lines of these options of any length with all finite numbers, all libraries and disks that keep to their documentation, every platform with such a power function", "why_tests_cant": "The result depends on every byte of the input, on any number of options and on the rounding of each step; exact arithmetic is not available to a test.", "anchors": ["d10-cli/src/main.rs: main", "d10-commands/src/queue.rs", "d10-commands/src/commands.rs: execute", "d10-codecs/src/lib.rs: decode_file, encode_to_file", "d10-codecs/src/utils.rs: from_u8, to_rgba8_vec", "d10-core/src/color/rgb.rs: invert, with_brightness, with_contrast, with_brightness_contrast, to_gray_with_intensity, with_gamma, with_level, with_saturation, with_hue_rotate"]}
{"id": "C130", "title": "Joining pictures stays close to exact arithmetic", "statement": "The same program run twice, with 32-bit numbers and exactly: if two pairs of pictures, of any sizes, are in range and no channel of any pixel differs by more than \u03b5, then blending them with the modes normal, addition, subtract, darken or lighten and an intensity i between 0 and 1 succeeds in both programs or stops both for the size, and the results are in range and differ by at most (1 + i)\u00b7\u03b5 + 2^-20, for addition and subtraction (1 + 2\u00b7i)\u00b7\u03b5 + 2^-20. Composing any number of pictures, at least one, with a function that makes of colours at most t apart colours at most L\u00b7t + \u03b7 apart gives pictures at most L\u00b7\u03b5 + \u03b7 apart. So programs as in C127 may join pictures and go on.", "quantifier": "all pictures in range of all sizes, all intensities in [0, 1], any number of pictures to compose, all functions with such a bound", "why_tests_cant": "The bound must hold for every pair of colours and every difference the earlier calls left; the sizes of the pictures decide which pixels meet.", "anchors": ["d10-ops/src/blend.rs: blend_image, blend_color, apply_intensity, blend_normal, blend_addition, blend_subtract, blend_darken, blend_lighten", "d10-core/src/color/rgb.rs: alpha_blend", "d10-ops/src/compose.rs: compose_slice, try_compose_slice", "d10/src/image.rs: blend, compose_slice"]}
{"id": "C131", "title": "Every kind of file keeps pictures close to exact arithmetic", "statement": "The same program run twice, with 32-bit numbers and exactly, on a platform whose power function is within \u03b4 (at most 2^-10). Reading: a JPEG file in gray (8 or 16 bits), RGB or CMYK, and a BMP or ICO file with 8-bit samples or 16-bit gray or RGBA samples are opened by both programs, and the pictures are in range and differ by at most \u03b4 + 10^-6 in any channel. Writing: if two pictures are in range and no channel differs by more than \u03b5, storing them as PNG (all kinds except 16-bit gray), BMP, ICO, JPEG (gray or colour), GIF or WebP gives the library the same size and settings in both programs, and every stored sample differs by less than m\u00b7(13\u00b7(\u03b5 + g) + 1.06\u00b7\u03b4 + 1/200000) + 1 and a rounding error of at most 1/256, where m is 255 or 65535, and g is 2^-20 for gray files and 0 for the others.", "quantifier": "all files of these kinds, all pictures in range of all sizes the formats allow, all settings, every platform with such a power function", "why_tests_cant": "Every sample goes through the sRGB curve and is cut off, so a tiny error can change it by one; how far an error grows in each kind of file must be known for every pixel.", "anchors": ["d10-codecs/src/utils.rs: from_u8, from_u16_ne, cmyk_to_rgb, to_l8_vec, to_la8_vec, to_rgb8_vec, to_rgba8_vec, to_la16_be_vec, to_rgb16_be_vec, to_rgba16_be_vec, to_argb8_vec32, read_into_buffer", "d10-codecs/src/png.rs: encode_png", "d10-codecs/src/jpeg.rs: encode_jpeg, decode_jpeg", "d10-codecs/src/bmp.rs", "d10-codecs/src/ico.rs", "d10-codecs/src/gif.rs: encode_gif", "d10-codecs/src/webp.rs: encode_webp", "d10-core/src/color/rgb.rs: to_gray, to_srgb"]}
{"id": "C132", "title": "How exact a run is that writes any kind of file", "statement": "Levels with black and white points at least 2^-m apart (m up to 12) and a gamma g of at most 1 follow exact levels: differences grow at most by 2^m/g, and rounding adds at most (4^m + 3\u00b72^m)/(g\u00b72^24) + \u03b4 + 2^-23, where \u03b4 is the accuracy of the platform's power function. A whole run: `d10 input options output`, with 32-bit numbers, where the input is a readable file of any kind whose picture differs by at most \u03b5 from an exact one (C127, C131), the options change colours as in C129, and the name of the output says any of the six kinds. The library for that kind is called with the settings that saving by name has, the size of the picture, and samples that are less than 255\u00b7(13\u00b7(L\u00b7\u03b5 + \u03b7) + 1.06\u00b7\u03b4 + 1/200000) + 1 + 2^-16 away from the samples that the same formulas give in exact arithmetic; the output file holds what the library wrote; the program ends with code 0 and no message if the library succeeds, and with code 1 and its message if it does not. The same holds, with the \u03b5 that they lead to, for any other arguments before the last save, because it only depends on the picture they lead to.", "quantifier": "all arguments, all files, all numbers in the stated ranges, all answers of the libraries including errors, all disks that let the output be opened, every platform with such a power function", "why_tests_cant": "The result depends on every pixel, every option and every answer of a library, and the exact result is not available to a test.", "anchors": ["d10-cli/src/main.rs: main", "d10-commands/src/queue.rs", "d10-commands/src/commands.rs: execute", "d10-codecs/src/lib.rs: decode_file, encode_to_file, encode", "d10-core/src/color/rgb.rs: with_level, with_gamma"]}
{"id": "C133", "title": "Taking away saturation", "statement": "Scaling the saturation of a colour in range by a factor k between 0 and 1 keeps alpha and moves every channel towards the middle between the brightest and the darkest channel, m = (max + min)/2: channel v becomes m + k\u00b7(v \u2212 m), so k = 0 makes the colour gray and k = 1 keeps it. The program goes through hue, saturation and lightness for that; with exact arithmetic its result is within k/32768 of this formula, and with 32-bit numbers within 1/32768 + 1/100000, whatever hue the colour has and however close to gray, black or white it is. So the two programs never drift apart by more than 2/32768 + 1/100000 in this step, and differences from before it are not enlarged.", "quantifier": "all colours in range, all factors in [0, 1], every platform", "why_tests_cant": "The way through hue divides by the spread of the channels and by what is left to white, both of which may be arbitrarily small, and has six cases with borders that rounding may cross; a sample cannot find the worst colour, and the exact result is not available to a test.", "anchors": ["d10-core/src/color/rgb.rs: with_saturation, to_hsl", "d10-core/src/color/hsl.rs: to_rgb"]}
{"id": "C134", "title": "Turning the hue", "statement": "Turning the hue of a colour in range by an angle of at most one turn either way keeps alpha, the darkest and the brightest value, and moves the colour on the wheel between these two: there is a hue t such that every channel of the colour is within 1/32768 of the wheel at t, and every channel of the result is within 1/32768 of the wheel at t plus the angle over 360, where the wheel is the usual one (red at 0, green at 1/3, blue at 2/3, repeating after 1). That holds in exact arithmetic and with 32-bit numbers, whatever hue the colour has, however close to gray it is, and also where rounding decides whether a whole turn is taken off. Colours that differ by at most \u03b5 before differ by at most 11\u00b7\u03b5 + 12/32768 after it, one of them with 32-bit numbers and the other exactly.", "quantifier": "all colours in range, all angles in [-360, 360], every platform", "why_tests_cant": "The hue of a nearly gray colour is a quotient of small differences, the cases for the brightest channel overlap within a tolerance, and the wrap at a whole turn depends on the rounding of a sum; a sample cannot find the worst colour or angle, and the exact result is not available to a test.", "anchors": ["d10-core/src/color/rgb.rs: with_hue_rotate", "d10-core/src/color/mod.rs: to_hsl", "d10-core/src/color/hsl.rs: to_rgb"]}
{"id": "C135", "title": "Noise stays close to exact arithmetic when the random numbers are the same", "statement": "Run the same program twice, once with 32-bit numbers and once with exact ones, on pictures of the same size in range whose channels differ by at most \u03b5, and let both draw the same random numbers (finite, in [0, 1], in [-1, 1] and, the normally distributed ones, not above 2^m in size). Then random and Gaussian noise (on a copy or in place, with an amount in [0, 1]), RGB noise (any finite threshold) and salt and pepper (threshold in [0, 1]) succeed in both programs, draw equally often, so that the programs may go on with the same numbers, and the pictures are in range and differ by at most \u03b5 + 2^-22 (random), \u03b5 + 2^m/2^22 (Gaussian) and \u03b5 (RGB, salt and pepper: the same pixels are coloured, blackened and whitened). For salt and pepper there is one exception: a draw that equals 1 - threshold where that number is rounded. It is real: with threshold 2^-26 and a draw of 1 exact arithmetic whitens the pixel and the program does not.", "quantifier": "all pictures in range of all sizes, all differences, all generators as arbitrary state machines that keep to their ranges, all amounts and thresholds in range", "why_tests_cant": "Whether a rounded comparison goes the same way as the exact one must be known for every random number; a single wrong branch would also shift all later draws.", "anchors": ["d10/src/image.rs: random_noise, add_random_noise, gaussian_noise, add_gaussian_noise, rgb_noise, add_rgb_noise, salt_n_pepper_noise, add_salt_n_pepper_noise", "d10-ops/src/random_noise.rs", "d10-ops/src/gaussian_noise.rs", "d10-ops/src/rgb_noise.rs", "d10-ops/src/salt_n_pepper_noise.rs"]}
{"id": "C136", "title": "The command line with options for colours and noise stays close to exact arithmetic", "statement": "Give the words `d10 input options output.png` to the program with 32-bit numbers and to the same program with exact numbers that draws the same random numbers. If both read the input as pictures of at least one pixel, in range and at most \u03b5 apart, and the options are `silent`, options for colours (`invert`, `brightness`, `contrast`, `brightness-contrast`, `grayscale`, `gamma`, `level`, `saturation`, `hue-rotate`, with numbers in the range where they are accurate) or for noise (`random-noise`, `rgb-noise`, `salt-n-pepper-noise`), in any order and number, then both programs end with code 0 without a message, have drawn equally many random numbers, and the two output files, read by the libraries, have the size of the input and 8-bit RGBA samples that differ by less than 255 (13 (L \u03b5 + \u03b7) + 1.06 \u03b4 + 1/200000) + 1 + 1/65536. Here L is the product of the factors of the options, \u03b7 what they add, and \u03b4 the accuracy of the platform's powf. For a PNG input \u03b5 is \u03b4 + 10^-6. For example `-random-noise 0.5 -gamma 0.5 -rgb-noise 0.5` on an accurate platform: no stored byte is off by 2.", "quantifier": "all lines of such options of all lengths, all numbers in range, all generators that keep to their ranges, all inputs that are read alike, all sizes, all file systems that work, all accuracies of powf up to 1/1024", "why_tests_cant": "Errors of any number of options must be added up; a noise option in the middle could send the random numbers of the two programs apart, and only a proof over all lines excludes it.", "anchors": ["d10-cli/src/main.rs: main, parse, parse_arg", "d10-commands/src/queue.rs: Queue::run", "d10-commands/src/commands.rs: execute"]}
{"id": "C137", "title": "Changing the lightness and adding saturation, and why near white they are unstable", "statement": "In exact arithmetic, for every colour in range, with m the middle between its greatest and its least channel: the lightness factor k moves m to m' = k m, limited to [0, 1], and multiplies the distances of the channels from the middle by room(m')/room(m), where room(m) = 2 min(m, 1 - m) is the most that the channels can be apart. The error is that factor times 1/32768. So darkening a colour with m at most 1/2 multiplies its channels by k (with 32-bit numbers and k between 0 and 1 up to 1/32768 + 1/100000, alpha exactly), and lightening a colour with m at least 1/2 multiplies what each channel lacks to white by one factor. A saturation factor k multiplies the distances by k, or as far as there is room; colours whose channels are less than 1/32768 apart become gray. Near white the lightness has no limit: white darkened by k at most 1/2 is the gray k, but (1, 1, 1 - e), for every e from 1/32768 to 1, becomes the pure yellow (k (2 - e), k (2 - e), 0). Two colours that are 1/32768 apart end up 1/2 apart, so no accuracy of the input is enough for this operation.", "quantifier": "all colours in range, all factors (for saturation not below 0), all e from 1/32768 to 1", "why_tests_cant": "The laws hold for a continuum of colours; the instability is a statement about arbitrarily close colours, which no list of examples shows.", "anchors": ["d10-core/src/color/rgb.rs: with_lightness, with_saturation", "d10-core/src/color/mod.rs: to_hsl", "d10-core/src/color/hsl.rs: to_rgb"]}
{"id": "C138", "title": "Layers of partly transparent colours and images", "statement": "Blending any number of colours one after the other shows of the base the product of all (1 - alpha), of every layer its own alpha times the product of (1 - alpha) of those above, and adds up the alphas to at most 1; an opaque layer hides everything below. Over opaque colours this is the usual rule for layers (Porter and Duff's over), and two layers may be merged first if that rule merges them. Over partly transparent colours it is not: the hidden colour of what lies below counts as if that was opaque, the difference to the usual rule is given by a formula, alpha is never smaller and differs unless the base is fully transparent or one of both is opaque. Merging layers with the library's own blending changes the result. Stacking images of any sizes with compose, starting from transparent black, gives at every position this mixture of the images that reach it. With 32-bit numbers n layers are off by at most n/4194304 in every channel, and n images that are at most \u03b5 from exact ones by at most n (2 \u03b5 + 1/4194304).", "quantifier": "all lists of colours with channels from 0 to 1, all bases, all lists of images of any sizes; exact and 32-bit arithmetic", "why_tests_cant": "Tests blend two or three given colours; which rule holds for every stack, and where it leaves the usual one, is a statement about all of them.", "anchors": ["d10-core/src/color/rgb.rs: alpha_blend, NONE", "d10-ops/src/compose.rs: compose_slice", "d10-ops/src/blend.rs: normal"]}
{"id": "C139", "title": "Stretching the contrast again", "statement": "In exact arithmetic, stretching the contrast of a gray picture moves its white point to 1 exactly, and its black point to at most 1/(255 (w - b)), where b and w were the points before. If no value lies strictly inside the level of the black point, the black point becomes 0 and stretching again leaves the picture as it is. Otherwise stretching again may change the picture: the points are rounded down to one of 256 levels, so the darkest value may stay above the black point; a picture of the grays 3/8 and 5/8 is changed by each of two stretchings.", "quantifier": "all gray pictures in range of all sizes, all thresholds below 1000 per mille for which the black point is below the white point", "why_tests_cant": "Tests stretch one picture once; whether a second run changes anything depends on where the values lie within the levels, for every picture.", "anchors": ["d10-ops/src/stretch_contrast.rs: stretch_contrast, get_min_value, get_max_value", "d10-core/src/color/rgb.rs: with_level"]}
{"id": "C140", "title": "A command line that saves several times stays close to exact arithmetic", "statement": "Give the words `d10 input options first.png options second.png ...` to the program with 32-bit numbers and to the same program with exact numbers that draws the same random numbers. If both read the input as pictures of at least one pixel, in range and at most \u03b5 apart, and the options are those of C136, then both end with code 0 and have drawn the same number of random numbers. Every file named on the line, unless the same file is saved again later, is in both cases a PNG file of the size of the input whose 8-bit samples differ by less than an explicit bound, computed from the options before it only. No other file is changed.", "quantifier": "all lines of such options with any number of outputs in any places, all numbers in range, all generators that keep to their ranges, all inputs that are read alike, all sizes, all file systems that work, also those in which several names lead to the same file, all accuracies of powf up to 1/1024", "why_tests_cant": "The number of saved files is not bounded, names may lead to the same file, and noise between two saves must not send the random numbers of the two programs apart.", "anchors": ["d10-cli/src/main.rs: main, parse, parse_arg", "d10-commands/src/queue.rs: Queue::run", "d10-commands/src/commands.rs: execute", "d10-codecs/src/lib.rs: encode_to_file"]}
{"id": "C141", "title": "Laws of blending pictures", "statement": "With exact numbers and opaque pictures in range: adding two pictures, or keeping the darker or the lighter channels of both, at intensity 1 gives the same result whichever of the two is the base, whatever their sizes, also when the size is refused. For three pictures of the same size it does not matter which two are blended first. For different sizes it does: where neither of the first two reaches, their blend is transparent black, and keeping the darker channels then turns the third picture black there. A picture blended with itself in normal, darken or lighten mode is unchanged at every intensity, and subtracted from itself at intensity 1 it is black. Adding or subtracting black, lightening by black and darkening by white change nothing at any intensity. Adding a picture and subtracting it again at intensity 1 gives back every channel, limited to 1 minus the channel of the added picture. With 32-bit numbers at intensity 1 the darker and the lighter channels are exact and sums and differences are rounded to the nearest number, so swapping two pictures still gives the same values without any tolerance, the order still does not matter for the darker and the lighter channels, and a picture minus itself is still black; the order does matter for sums.", "quantifier": "all opaque pictures in range, all sizes, all pixels; all intensities where stated", "why_tests_cant": "Equality of whole pictures over a continuum of channel values and all size combinations; the failure in the corner shows only for three pictures of certain sizes.", "anchors": ["d10-ops/src/blend.rs: blend_image, blend_image_with_func, blend_addition, blend_subtract, blend_darken, blend_lighten, blend_normal"]}
{"id": "C142", "title": "Moving pictures before or after they are joined", "statement": "Flipping, turning by quarters, cropping or interlacing two pictures of the same size and then blending them gives the same as blending them first, in every mode, at every intensity and whatever the numbers are, NaN included. The same holds for flips, turns and crops of any number of pictures of the same size composed with a function that looks only at the colours. Pictures of different sizes are joined at their top left corners: there the mirror image on the diagonal (a quarter turn followed by a flip) can still be made before or after, also when the size is refused, but a flip cannot.", "quantifier": "all pictures, sizes, modes, intensities, rectangles, offsets that fit, functions of colours and number types", "why_tests_cant": "Equality of whole results for all sizes and all pixel contents.", "anchors": ["d10-ops/src/blend.rs: blend_image", "d10-ops/src/compose.rs: compose_slice", "d10-ops/src/flip.rs: flip_horizontal, flip_vertical", "d10-ops/src/rotate_90.rs: rotate90, rotate180, rotate270", "d10-ops/src/crop.rs: crop", "d10-ops/src/interlace.rs: interlace"]}
{"id": "C143", "title": "What matters of a palette", "statement": "Mapping a picture to a palette depends only on the list of palette colours, and an entry that occurs a second time can be left out wherever it stands. The order of the entries matters only for pixels that are equally far from two different entries. More entries never map a pixel to an entry that is further away. Opacity does not count as distance: of two entries with the colour of the pixel the first one is taken, with its own opacity, whatever the opacity of the pixel is.", "quantifier": "all pictures, palettes of all colour types, sizes and lengths, all permutations; every number type in which comparisons are lawful, so also 32-bit numbers and entries without a distance", "why_tests_cant": "All palettes and permutations, over a continuum of colours.", "anchors": ["d10-ops/src/apply_palette.rs: apply_palette, apply_palette_in_place, get_color_from_palette, get_delta_e"]}
{"id": "C144", "title": "Interlacing again and again", "statement": "Interlacing by one offset and then by another is interlacing by their sum. From an offset of one less than the width on, every even row shows its first pixel everywhere and every odd row its last. Turning the picture upside down before or after interlacing is the same for an odd number of rows, half a turn is the same for an even number of rows, and a mirror image is not.", "quantifier": "all pictures of any pixel type and all offsets up to the limit of C22", "why_tests_cant": "All sizes, offsets and pixel contents.", "anchors": ["d10-ops/src/interlace.rs: interlace", "d10-ops/src/flip.rs: flip_vertical, flip_horizontal", "d10-ops/src/rotate_90.rs: rotate180"]}
{"id": "C145", "title": "Cropping and moving", "statement": "Cropping a picture by a rectangle inside it and then flipping or turning it gives the same as flipping or turning first and cropping by the rectangle moved in the same way. Cropping twice by any rectangles, also those that reach beyond the picture or miss it, is one crop by the part of the second rectangle that lies in the first. The order of two crops from the top left corner does not matter.", "quantifier": "all pictures of any pixel type, all rectangles", "why_tests_cant": "All sizes, rectangles and pixel contents.", "anchors": ["d10-ops/src/crop.rs: crop", "d10-ops/src/flip.rs: flip_horizontal, flip_vertical", "d10-ops/src/rotate_90.rs: rotate90, rotate180, rotate270"]}
{"id": "C146", "title": "Making a gray picture gray again, with 32-bit numbers", "statement": "With 32-bit numbers a gray colour is kept exactly by the brightness, the lightness and the single channels. By every intensity but the saturation it is kept within 2^-20, and black and white are kept exactly. It is not kept exactly in general: there is a gray colour that the average of the channels changes.", "quantifier": "all gray colours with channels in [0, 1] and all intensities", "why_tests_cant": "All 32-bit values of the channels; a test tries a few grays.", "anchors": ["d10-core/src/color/rgb.rs: to_gray_with_intensity"]}
{"id": "C147", "title": "The negative of a negative, with 32-bit numbers", "statement": "With 32-bit numbers the negative of the negative of a negative is that negative, to the last bit, for colours and for pictures. The negative of a negative is the colour itself exactly when the channels are multiples of 2^-24, so channels of at least one half always come back. Dark channels lose digits: the gray of a byte picture next to black does not come back exactly. On the command line two more inversions after the first never change the image, whatever their number.", "quantifier": "all colours and pictures with channels in [0, 1]", "why_tests_cant": "All 32-bit values of the channels; a test tries a few colours.", "anchors": ["d10-core/src/color/rgb.rs: invert", "d10-core/src/pixelbuffer.rs: map_colors", "d10-commands/src/commands.rs: execute, execute_invert"]}
{"id": "C148", "title": "Settings that should change nothing, with 32-bit numbers", "statement": "With 32-bit numbers the brightness 0 changes no colour. The contrast 1 changes nothing exactly when the channels are multiples of 2^-25, so channels of at least one quarter are kept, but the gray of a byte picture next to black is changed. Applied again the contrast 1 changes nothing more, and the brightness 0 together with the contrast 1 is the same as the contrast 1.", "quantifier": "all colours with channels in [0, 1]", "why_tests_cant": "All 32-bit values of the channels; a test tries a few colours.", "anchors": ["d10-core/src/color/rgb.rs: with_brightness, with_contrast, with_brightness_contrast"]}
{"id": "C149", "title": "Compositing with 32-bit numbers", "statement": "With 32-bit numbers an opaque colour over another is exactly that colour and a transparent one changes nothing at all. The alpha of the result is the sum of both, rounded and limited to 1, and never below either of them. Unlike with exact numbers the result need not lie between the two colours: a partly transparent colour over the same colour can be brighter or darker than it, already with values of byte pictures.", "quantifier": "all pairs of colours with channels in [0, 1]", "why_tests_cant": "All 32-bit values of the channels of both colours.", "anchors": ["d10-core/src/color/rgb.rs: alpha_blend"]}
{"id": "C150", "title": "Blending that shows nothing of the second picture, with 32-bit numbers", "statement": "With 32-bit numbers blending with intensity 0, or with a transparent second colour, keeps the channels of the first colour exactly in the modes normal, addition, subtract, darken and lighten. The normal mode keeps its alpha too, the other modes take the alpha of the second colour. With intensity 1 an opaque second colour replaces the first exactly in the normal mode. Blending pictures of the same size in the normal mode with intensity 0 gives the numbers of the first picture.", "quantifier": "all pairs of colours and pictures with channels in [0, 1]", "why_tests_cant": "All 32-bit values of the channels of both pictures, all sizes.", "anchors": ["d10-ops/src/blend.rs: blend_image, blend_color, apply_intensity, blend_normal", "d10-core/src/color/rgb.rs: alpha_blend"]}
