{"id": "C01", "title": "Clamping confines and is idempotent", "statement": "For a <= b, clamp(x,a,b) lies in [a,b], returns x itself whenever x already lies in [a,b], is idempotent and monotone in x; clamprgb does this to every component. A NaN input is passed through unchanged.", "quantifier": "every x, every bounds a <= b, in exact and in IEEE arithmetic (incl. NaN, infinities, signed zeros)", "why_tests_cant": "the claim ranges over all floats and all bounds", "anchors": ["src/math.rs:clamp", "src/rgb.rs:clamprgb"]}
{"id": "C02", "title": "Integer quantisation is total and saturating", "statement": "Converting any RGBf32/RGBf64 to RGBu8/RGBu16 yields components in 0..=255 / 0..=65535: every value <= 0 and NaN become 0, every value >= 1 (incl. +inf) becomes the maximum code. No input panics.", "quantifier": "every IEEE binary32/binary64 component value, including NaN, +-inf, -0 and subnormals", "why_tests_cant": "2^32 / 2^64 inputs per channel and the cast semantics at special values", "anchors": ["src/rgb.rs:From<RGBf32> for RGBu8", "src/rgb.rs:From<RGBf32> for RGBu16", "src/rgb.rs:From<RGBf64> for RGBu8", "src/rgb.rs:From<RGBf64> for RGBu16"]}
{"id": "C03", "title": "Integer quantisation is monotone", "statement": "If x <= y then the u8 (u16) code of x is <= the code of y, with all IEEE roundings of the multiply and the clamp taken into account.", "quantifier": "every pair of IEEE floats x <= y", "why_tests_cant": "pairs of floats cannot be enumerated", "anchors": ["src/rgb.rs:From<RGBf32> for RGBu8", "src/rgb.rs:From<RGBf64> for RGBu16"]}
{"id": "C04", "title": "8- and 16-bit pixels survive a trip through floating point", "statement": "RGBu8 -> RGBf32 -> RGBu8, RGBu8 -> RGBf64 -> RGBu8, RGBu16 -> RGBf32 -> RGBu16 and RGBu16 -> RGBf64 -> RGBu16 are the identity under IEEE rounding.", "quantifier": "every RGBu8 / RGBu16 value", "why_tests_cant": "needs the rounding-error argument for all 65536 codes and both formats", "anchors": ["src/rgb.rs:From<RGBu8> for RGBf32", "src/rgb.rs:From<RGBu16> for RGBf32", "src/rgb.rs:From<RGBu8> for RGBf64", "src/rgb.rs:From<RGBu16> for RGBf64"]}
{"id": "C05", "title": "Quantisation is to the nearest code", "statement": "For x in [0,1] the returned u8 (u16) code n is a nearest one: |n - 255 x| <= 1/2 (|n - 65535 x| <= 1/2) in exact arithmetic, and within one half plus the multiplication rounding error in IEEE arithmetic.", "quantifier": "every x in [0,1]", "why_tests_cant": "continuum of inputs", "anchors": ["src/rgb.rs:From<RGBf32> for RGBu8", "src/rgb.rs:From<RGBf64> for RGBu16"]}
{"id": "C06", "title": "Component indexing behaves like a three-cell array", "statement": "c[i] returns r/g/b (x/y/z) for i = 0/1/2 and panics for every other i; after c[i] = v, c[i] reads v, every other component is unchanged, and writing back what was read changes nothing.", "quantifier": "every colour, every usize index, every value", "why_tests_cant": "unbounded index range and value space", "anchors": ["src/rgb.rs:Index<usize> for RGBf", "src/rgb.rs:IndexMut<usize> for RGBf", "src/xyz.rs:Index<usize> for XYZ", "src/xyz.rs:IndexMut<usize> for XYZ"]}
{"id": "C07", "title": "Slice casting re-groups without loss", "statement": "cast_slice panics exactly when the length is not a multiple of 3; otherwise it has length/3 pixels, pixel k is elements 3k,3k+1,3k+2 in r,g,b order, and flattening the pixels gives the original slice.", "quantifier": "every slice length and contents", "why_tests_cant": "all lengths", "anchors": ["src/rgb.rs:RGBf::cast_slice", "src/rgb.rs:RGBu8::cast_slice"]}
{"id": "C08", "title": "normalize makes the largest component 1", "statement": "hmax(c) is an upper bound of the components and is one of them; if hmax(c) is finite and > 0 then the largest component of normalize(c) is exactly 1 (also under IEEE rounding). The documented claim without the positivity condition fails for all-negative colours.", "quantifier": "every colour", "why_tests_cant": "all floats; rounding of each quotient", "anchors": ["src/rgb.rs:hmax", "src/rgb.rs:normalize"]}
{"id": "C09", "title": "Matrix33 multiplication is matrix multiplication", "statement": "The product operator, identity, transpose and determinant obey the ring laws: associativity, identity is neutral, (AB)^T = B^T A^T, transpose is an involution, det(AB) = det A det B, det A^T = det A, agreeing with the mathematical 3x3 definitions.", "quantifier": "all matrices (exact arithmetic)", "why_tests_cant": "polynomial identities over all real entries", "anchors": ["src/math.rs:Matrix33::make_identity", "src/math.rs:Matrix33::transposed", "src/math.rs:Matrix33::determinant", "src/math.rs:Mul for Matrix33"]}
{"id": "C10", "title": "Matrix-colour products compose", "statement": "(A*B)*v = A*(B*v) for XYZ and RGB operands, the map is linear in v, the identity matrix leaves v unchanged, and the XYZ and RGB versions perform the same arithmetic (bit for bit).", "quantifier": "all matrices and colours", "why_tests_cant": "all real entries", "anchors": ["src/math.rs:Mul<XYZ<T>> for Matrix33", "src/math.rs:Mul<RGBf<T>> for Matrix33"]}
{"id": "C11", "title": "inverse() returns an inverse", "statement": "Whenever m.inverse() is Some(n), m*n and n*m are the identity.", "quantifier": "every 3x3 matrix", "why_tests_cant": "singularity, scaling and affine fast-path branches over all entries", "anchors": ["src/math.rs:Matrix33::inverse"]}
{"id": "C12", "title": "inverse() detects singularity", "statement": "A singular matrix gives None; a matrix with determinant of absolute value >= 1 always gives Some; below 1, None is returned exactly when the division would overflow the format's guard.", "quantifier": "every 3x3 matrix", "why_tests_cant": "continuum of inputs", "anchors": ["src/math.rs:Matrix33::inverse"]}
{"id": "C13", "title": "gj_inverse() inverts", "statement": "gj_inverse returns None exactly for singular matrices and otherwise returns a two-sided inverse.", "quantifier": "every 3x3 matrix", "why_tests_cant": "pivot order depends on all entries", "anchors": ["src/math.rs:Matrix33::gj_inverse"]}
{"id": "C14", "title": "xyY and XYZ conversions are mutually inverse", "statement": "For c.y != 0, XYY::from(XYZ::from(c)) = c when Y != 0; for XYZ with y != 0 and x+y+z != 0, XYZ::from(XYY::from(v)) = v. Luminance Y = 1 corresponds to XYZ y = 100.", "quantifier": "every chromaticity / tristimulus value (exact arithmetic)", "why_tests_cant": "continuum of inputs", "anchors": ["src/chromaticity.rs:XYY::from_xyz", "src/chromaticity.rs:xy", "src/xyz.rs:XYZ::from_chromaticity", "src/xyz.rs:XYZ::from_xy"]}
{"id": "C15", "title": "Adapting between equal whites is a no-op", "statement": "cat02, bradford and von_kries return exactly the identity matrix when both white points convert to equal XYZ values, in whatever arithmetic.", "quantifier": "every white point, every floating-point format", "why_tests_cant": "all floats", "anchors": ["src/chromatic_adaptation.rs:cat02", "src/chromatic_adaptation.rs:bradford", "src/chromatic_adaptation.rs:von_kries"]}
{"id": "C16", "title": "Chromatic adaptation maps source white to destination white", "statement": "cat02(src,dst)*src = dst and bradford(src,dst)*src = dst for every pair of whites whose cone response to src has no zero; von_kries (which ships a rounded inverse) does so to a bounded relative error.", "quantifier": "every pair of white points (exact arithmetic)", "why_tests_cant": "continuum of pairs", "anchors": ["src/chromatic_adaptation.rs:cat02", "src/chromatic_adaptation.rs:bradford", "src/chromatic_adaptation.rs:von_kries"]}
{"id": "C17", "title": "Chromatic adaptation is invertible and transitive", "statement": "cat(b,a)*cat(a,b) = identity and cat(b,c)*cat(a,b) = cat(a,c) for cat02 and bradford, for whites with non-zero cone responses.", "quantifier": "every pair/triple of white points", "why_tests_cant": "continuum", "anchors": ["src/chromatic_adaptation.rs:cat02", "src/chromatic_adaptation.rs:bradford"]}
{"id": "C18", "title": "Chromatic adaptation never panics", "statement": "The unwrap() of the cone-matrix inverse inside cat02 and bradford always succeeds, for both the f32 and f64 epsilon/min-positive constants and whatever the white points.", "quantifier": "every pair of white points", "why_tests_cant": "the claim is the absence of a panic on all inputs", "anchors": ["src/chromatic_adaptation.rs:cat02", "src/chromatic_adaptation.rs:bradford", "src/math.rs:Matrix33::inverse"]}
{"id": "C19", "title": "A colour space built from primaries maps white to (1,1,1) and primaries to axes", "statement": "For ColorSpaceRGB::new with non-degenerate primaries, xf_xyz_to_rgb sends the unit-luminance white XYZ to (1,1,1) and each primary's XYZ to a multiple of its axis.", "quantifier": "all primaries and white points with non-zero scale factors", "why_tests_cant": "continuum", "anchors": ["src/color_space_rgb.rs:ColorSpaceRGB::new", "src/color_space_rgb.rs:build_xyz_to_rgb_matrix"]}
{"id": "C20", "title": "A colour space's two matrices are inverse", "statement": "For every ColorSpaceRGB::new that does not panic, xf_xyz_to_rgb*xf_rgb_to_xyz is the identity.", "quantifier": "all primaries and white points accepted by ColorSpaceRGB::new", "why_tests_cant": "continuum; depends on the branch inverse() takes", "anchors": ["src/color_space_rgb.rs:ColorSpaceRGB::new", "src/math.rs:Matrix33::inverse"]}
{"id": "C21", "title": "XYZ -> RGB -> XYZ is the identity", "statement": "rgb_to_xyz(rgb_to_xyz_matrix(w,cs), xyz_to_rgb(xyz_to_rgb_matrix(w,cs), v)) = v, and the other way round, for every colour space whose two matrices are inverse and every reference white w.", "quantifier": "every colour, every reference white, every such colour space", "why_tests_cant": "continuum", "anchors": ["src/transform.rs:xyz_to_rgb_matrix", "src/transform.rs:rgb_to_xyz_matrix", "src/transform.rs:xyz_to_rgb", "src/transform.rs:rgb_to_xyz", "src/transform.rs:xyz_to_rgb_matrix_with_cat"]}
{"id": "C22", "title": "RGB to RGB conversion matrices form a groupoid", "statement": "rgb_to_rgb_matrix(A,A) = identity, rgb_to_rgb_matrix(B,C)*rgb_to_rgb_matrix(A,B) = rgb_to_rgb_matrix(A,C), hence A->B->A is the identity, and A's white (1,1,1) goes to B's white (1,1,1).", "quantifier": "every pair/triple of colour spaces with inverse matrices and usable whites", "why_tests_cant": "continuum", "anchors": ["src/transform.rs:rgb_to_rgb_matrix"]}
{"id": "C23", "title": "rgb_to_rgb converts exactly the common prefix", "statement": "rgb_to_rgb returns min(from.len(), to.len()); element i < that count is encode(M*decode(from[i])) converted to the output type; every later element of `to` is untouched.", "quantifier": "every pair of slices of any lengths, any transfer functions, any output type", "why_tests_cant": "unbounded lengths", "anchors": ["src/transform.rs:rgb_to_rgb"]}
{"id": "C24", "title": "Batch XYZ to RGB equals one-by-one conversion", "statement": "xyz_slice_to_rgb(m, xs) has xs.len() elements and element i is bit-identical to xyz_to_rgb(m, xs[i]).", "quantifier": "every slice, every matrix, every floating-point format", "why_tests_cant": "unbounded lengths, all floats", "anchors": ["src/transform.rs:xyz_slice_to_rgb", "src/transform.rs:xyz_to_rgb"]}
{"id": "C25", "title": "The SIMD planar conversion converts every element", "statement": "xyz_slice_to_rgb_avx_planes returns, for every index i of the planes, the same colour as the scalar conversion (exact arithmetic).", "quantifier": "every plane length and vector width", "why_tests_cant": "only lengths with remainder larger than the block count expose the defect", "anchors": ["src/transform.rs:xyz_slice_to_rgb_avx_planes"]}
{"id": "C26", "title": "sRGB decode inverts encode", "statement": "decode::srgb_t(encode::srgb_t(x)) = x for every real x outside the seam (0.0031308, 0.003130803), where it is within 1e-8, and encode(decode(f)) = f for every real f; components are independent.", "quantifier": "every real x", "why_tests_cant": "continuum, with a seam narrower than any sampling grid", "anchors": ["src/color_space_rgb.rs:encode::srgb_t", "src/color_space_rgb.rs:decode::srgb_t", "src/color_space_rgb.rs:encode::srgb", "src/color_space_rgb.rs:decode::srgb"]}
{"id": "C27", "title": "BT.709 and BT.2020 decode invert encode", "statement": "decode(encode(x)) = x for every real x, for bt709 and bt2020, although encode(decode(f)) = f fails on the seam just above 0.081.", "quantifier": "every real x", "why_tests_cant": "continuum with a narrow seam", "anchors": ["src/color_space_rgb.rs:encode::bt709_t", "src/color_space_rgb.rs:decode::bt709_t", "src/color_space_rgb.rs:encode::bt2020_t", "src/color_space_rgb.rs:decode::bt2020_t"]}
{"id": "C28", "title": "Alexa LogC decode inverts encode", "statement": "decode::alexa_logc_v3_t(encode::alexa_logc_v3_t(x)) = x for every real x outside the seam (0.010591, 0.0105911) just above the cut point, where the error is bounded by 2e-7.", "quantifier": "every real x", "why_tests_cant": "continuum with a narrow seam", "anchors": ["src/color_space_rgb.rs:encode::alexa_logc_v3_t", "src/color_space_rgb.rs:decode::alexa_logc_v3_t"]}
{"id": "C29", "title": "Power-law and linear transfer functions round-trip", "statement": "For DCI-P3, P3-D65 and Adobe RGB, decode(encode(c)) = c and encode(decode(c)) = c for all non-negative c; for the ACES spaces encode and decode return the colour unchanged bit for bit.", "quantifier": "every colour with non-negative components (every colour for ACES)", "why_tests_cant": "continuum", "anchors": ["src/color_space_rgb.rs:model_f64::DCI_P3", "src/color_space_rgb.rs:model_f64::DCI_P3_D65", "src/color_space_rgb.rs:model_f64::ADOBE_RGB_1998", "src/color_space_rgb.rs:model_f64::ACES", "src/color_space_rgb.rs:encode::linear", "src/color_space_rgb.rs:decode::linear"]}
{"id": "C30", "title": "Transfer functions keep black, white and order", "statement": "Each encode/decode curve maps 0 to 0 and 1 to 1 (sRGB, BT.709, BT.2020), the sRGB and LogC decoders and the BT.709/BT.2020 encoders are strictly increasing on the reals; the other four curves are increasing up to a drop at their seam of at most 3e-8 (sRGB encoder), 3.1e-7 (LogC encoder) and 6e-5 (BT decoders), and do drop there.", "quantifier": "every pair x <= y of reals", "why_tests_cant": "pairs of reals; the non-monotone seam is narrower than sampling", "anchors": ["src/color_space_rgb.rs:encode", "src/color_space_rgb.rs:decode"]}
{"id": "C31", "title": "Lab round-trips with XYZ", "statement": "lab_to_xyz(xyz_to_lab(v,w),w) = v and xyz_to_lab(lab_to_xyz(l,w),w) = l exactly, for every colour and every reference white with non-zero components, on both sides of the epsilon threshold and for negative values.", "quantifier": "every colour and reference white (exact arithmetic)", "why_tests_cant": "the repository test samples a grid; the threshold seam needs a proof", "anchors": ["src/lab.rs:xyz_to_lab", "src/lab.rs:lab_to_xyz"]}
{"id": "C32", "title": "Lab anchors", "statement": "The reference white has L=100,a=b=0; XYZ 0 has L=0,a=b=0; any scalar multiple of the white is neutral (a=b=0); L depends only on Y and is strictly increasing in it.", "quantifier": "every reference white, every colour", "why_tests_cant": "continuum", "anchors": ["src/lab.rs:xyz_to_lab"]}
{"id": "C33", "title": "delta_E_1976 is a metric", "statement": "It is non-negative, symmetric, zero exactly for equal colours and satisfies the triangle inequality.", "quantifier": "all pairs/triples of Lab colours", "why_tests_cant": "continuum", "anchors": ["src/lab.rs:delta_E_1976"]}
{"id": "C34", "title": "delta_E_2000 is symmetric", "statement": "delta_E_2000(c1,c2) = delta_E_2000(c2,c1), including every branch of the hue wrap-around.", "quantifier": "all pairs of Lab colours (exact arithmetic)", "why_tests_cant": "hue branches over a 6-dimensional continuum", "anchors": ["src/lab.rs:delta_E_2000"]}
{"id": "C35", "title": "delta_E_2000 is a well-defined discrepancy", "statement": "Its denominators never vanish and its radicand is never negative, so the result is a real number >= 0; it is 0 exactly when the colours are equal.", "quantifier": "all pairs of Lab colours (exact arithmetic)", "why_tests_cant": "absence of NaN over a 6-dimensional continuum", "anchors": ["src/lab.rs:delta_E_2000"]}
{"id": "C36", "title": "cct accepts exactly the documented range", "statement": "illuminant::xy::cct(t) is Err exactly for t < 4000 or t > 25000 and otherwise returns Y = 1 and a point of the daylight locus y = -3x^2+2.87x-0.275 with 0 < x, 0 < y, x+y < 1.", "quantifier": "every temperature, including NaN in IEEE arithmetic", "why_tests_cant": "continuum plus special values", "anchors": ["src/illuminant.rs:xy::cct"]}
{"id": "C37", "title": "SpdShape::iter enumerates the grid", "statement": "For a uniform shape the iterator yields start + k*interval for k = 0..floor((end-start)/interval), all within [start,end], then None forever; it panics when end < start by an interval or more, or when the interval is varying.", "quantifier": "every shape", "why_tests_cant": "all shapes", "anchors": ["src/vspd.rs:SpdShape::iter", "src/vspd.rs:SpdShapeIterator::next", "src/vspd.rs:SpdShape::astm_e308"]}
{"id": "C38", "title": "VSPD::new reports the true shape", "statement": "VSPD::new panics exactly for fewer than two samples; its start and end are the first and last wavelengths; if it reports a uniform interval then all consecutive wavelengths differ by that interval.", "quantifier": "every sample vector", "why_tests_cant": "all vectors; only the last gap exposes the defect", "anchors": ["src/vspd.rs:VSPD::new", "src/vspd.rs:calculate_shape", "src/vspd.rs:calculate_interval"]}
{"id": "C39", "title": "Constructors from a shape produce that shape", "statement": "VSPD::constant and VSPD::from_values panic exactly in the documented cases and otherwise hold exactly one sample per grid wavelength, in order, with the given value(s) and report the given shape.", "quantifier": "every shape and value slice", "why_tests_cant": "all shapes/lengths", "anchors": ["src/vspd.rs:VSPD::constant", "src/vspd.rs:VSPD::from_values"]}
{"id": "C40", "title": "Sprague interpolation passes through the samples", "statement": "For a uniform VSPD, InterpolatorSprague::evaluate at each sample wavelength returns exactly that sample's value, including the first and last.", "quantifier": "every uniform VSPD with at least two samples, every sample", "why_tests_cant": "all lengths and values", "anchors": ["src/interpolation.rs:InterpolatorSprague::new", "src/interpolation.rs:InterpolatorSprague::evaluate", "src/interpolation.rs:SpragueCoefficients::coeff_a"]}
{"id": "C41", "title": "Sprague interpolation reproduces constants and straight lines", "statement": "If the samples lie on v = a + b*nm then evaluate(x) = a + b*x for every x in the domain.", "quantifier": "every uniform VSPD, every x in its domain", "why_tests_cant": "all lengths; fewer than six samples expose the defect", "anchors": ["src/interpolation.rs:InterpolatorSprague::new", "src/interpolation.rs:InterpolatorSprague::evaluate"]}
{"id": "C42", "title": "Sprague interpolation is total on its domain", "statement": "For every VSPD with >= 2 samples and positive first interval, evaluate(x) does not panic for any x between the first and the last wavelength; it panics for x at or beyond last + 2*interval.", "quantifier": "every VSPD, every x", "why_tests_cant": "index arithmetic over all lengths", "anchors": ["src/interpolation.rs:InterpolatorSprague::evaluate"]}
{"id": "C43", "title": "Interpolation is linear in the spectrum", "statement": "Interpolating, extrapolating, aligning and trimming commute with sums and scalar multiples of spectra sampled at the same wavelengths.", "quantifier": "all spectra with equal wavelengths, all scalars, all target shapes", "why_tests_cant": "all lengths and values", "anchors": ["src/vspd.rs:VSPD::interpolate", "src/vspd.rs:VSPD::extrapolate", "src/vspd.rs:VSPD::align", "src/vspd.rs:VSPD::trim"]}
{"id": "C44", "title": "interpolate() re-samples inside the common range", "statement": "interpolate(shape) has start = max, end = min of the two ranges, samples exactly at the grid of that narrowed shape, and when the grids coincide returns the original values.", "quantifier": "every uniform VSPD and shape", "why_tests_cant": "all shapes", "anchors": ["src/vspd.rs:VSPD::interpolate"]}
{"id": "C45", "title": "extrapolate() extends with constant ends", "statement": "extrapolate(shape) keeps all original samples contiguously and in order, prepends samples holding the first value at shape.start, shape.start+interval, ... below the start and appends samples holding the last value up to shape.end; it terminates whenever the interval is positive and never returns when the interval is zero or negative.", "quantifier": "every VSPD and shape", "why_tests_cant": "loop termination and all lengths", "anchors": ["src/vspd.rs:VSPD::extrapolate", "src/interpolation.rs:ExtrapolatorConstant::evaluate"]}
{"id": "C46", "title": "align() lands on the requested grid", "statement": "The result of align(shape) has exactly the wavelengths start + k*interval of `shape` and reports `shape`.", "quantifier": "every uniform VSPD and shape", "why_tests_cant": "only incommensurate grids expose the defect", "anchors": ["src/vspd.rs:VSPD::align"]}
{"id": "C47", "title": "trim() keeps exactly the samples inside the range", "statement": "For increasing wavelengths trim(shape) holds exactly the samples with start <= nm <= end in order, its reported start/end are its first/last wavelength, trimming twice equals trimming once, and it panics exactly when no sample is inside.", "quantifier": "every VSPD with increasing wavelengths and every shape", "why_tests_cant": "all lengths", "anchors": ["src/vspd.rs:VSPD::trim"]}
{"id": "C48", "title": "Linear interpolation is total and bounded", "statement": "InterpolatorLinear::evaluate returns the first/last value outside the domain, each sample's value at its wavelength, and otherwise a value between the two neighbouring samples; it never panics for strictly increasing wavelengths.", "quantifier": "every VSPD with increasing wavelengths, every x", "why_tests_cant": "all lengths and x", "anchors": ["src/interpolation.rs:InterpolatorLinear::evaluate"]}
{"id": "C49", "title": "Lagrange coefficients interpolate", "statement": "lagrange_coefficients(r,n) are the values at r of the Lagrange basis on nodes 0..n-1: they sum to 1, are 0/1 at the nodes, and reproduce every polynomial of degree < n.", "quantifier": "every n, every r, every polynomial", "why_tests_cant": "all n and all polynomials", "anchors": ["src/vspd.rs:lagrange_coefficients", "src/vspd.rs:lagrange_coefficients_astm_e2022"]}
{"id": "C50", "title": "linspace spans its end points", "statement": "linspace(a,b,n) yields n values, the first a, the last b, equally spaced, then None forever, for n >= 2; for n = 1 it yields NaN in IEEE arithmetic and for n = 0 it panics; consequently lagrange_coefficients_astm_e2022(2.0,_) contains NaN.", "quantifier": "every a,b,n", "why_tests_cant": "all n", "anchors": ["src/vspd.rs:linspace", "src/vspd.rs:FloatRange::next", "src/vspd.rs:lagrange_coefficients_astm_e2022"]}
{"id": "C51", "title": "ASTM E2022 weights are normalised", "statement": "For every measurement interval >= 3 nm and every illuminant and CMF table of sufficient length the Y weights sum to 100 (so the perfect diffuser has Y = 100) and no index is out of bounds.", "quantifier": "every table length, interval and contents", "why_tests_cant": "index arithmetic over all lengths", "anchors": ["src/vspd.rs:tristimulus_weighting_factors_astme2022"]}
{"id": "C52", "title": "ASTM E2022 weights integrate the interpolated spectrum", "statement": "Summing weights times reflectance samples equals 100 times the 1 nm sum of illuminant * CMF * (Lagrange-interpolated reflectance) divided by the 1 nm sum of illuminant * y-bar.", "quantifier": "every reflectance, illuminant, CMF table and interval", "why_tests_cant": "double-loop accumulation for all lengths", "anchors": ["src/vspd.rs:tristimulus_weighting_factors_astme2022", "src/vspd.rs:lagrange_coefficients_astm_e2022"]}
{"id": "C53", "title": "Trimming weights conserves their sum", "statement": "adjust_tristimulus_weighting_factors_astme308 folds the weights outside the measured range into the end weights, so the totals are unchanged, interior weights are unchanged, and the length equals the number of measured samples.", "quantifier": "every weight table and measured range inside it", "why_tests_cant": "all lengths", "anchors": ["src/vspd.rs:adjust_tristimulus_weighting_factors_astme308"]}
{"id": "C54", "title": "A perfect diffuser has Y = 100", "statement": "VSPD::to_xyz of a spectrum that is constantly 1 has y = 100 on each computation path (1 nm, 5 nm, 10 nm, other), whatever illuminant and CMF with non-zero luminance sum; a constant v gives y = 100 v.", "quantifier": "every constant spectrum, illuminant, CMF", "why_tests_cant": "all shapes and tables", "anchors": ["src/vspd.rs:VSPD::to_xyz", "src/vspd.rs:spd_to_xyz_integration", "src/vspd.rs:spd_to_xyz_tristimulus_weighting_factors_astme308"]}
{"id": "C55", "title": "to_xyz is linear in the spectrum and independent of illuminant power", "statement": "For spectra on the same wavelengths to_xyz(a*s+b*t) = a*to_xyz(s)+b*to_xyz(t), and scaling the illuminant by c != 0 does not change the result.", "quantifier": "all spectra, scalars, illuminants", "why_tests_cant": "continuum, all lengths", "anchors": ["src/vspd.rs:VSPD::to_xyz"]}
{"id": "C56", "title": "The fixed-size SPD conversion is the weighted sum", "statement": "In exact arithmetic spd_to_xyz_scalar (Kahan compensated) and spd_to_xyz_avx (8-lane, horizontal add) both equal the dot products of the samples with the W_X, W_Y, W_Z tables; hence they agree, and are linear.", "quantifier": "every SPD", "why_tests_cant": "all 40-dimensional inputs", "anchors": ["src/spd.rs:spd_to_xyz_scalar", "src/spd.rs:spd_to_xyz_avx", "src/spd.rs:hadd_avx", "src/spd.rs:SPD::to_xyz"]}
{"id": "C57", "title": "SPD construction, product and equality are sample-wise", "statement": "SPD::constant(v) holds v in all 40 samples; &a * &b multiplies sample-wise; a == b exactly when all samples compare equal (so an SPD with a NaN sample is not equal to itself).", "quantifier": "every SPD, every arithmetic", "why_tests_cant": "all 40-dimensional inputs", "anchors": ["src/spd.rs:SPD::constant", "src/spd.rs:Mul for &SPD", "src/spd.rs:PartialEq for SPD"]}
{"id": "C58", "title": "The built-in D65 weights are normalised", "statement": "SPD::constant(v).to_xyz().y = 100 v up to a relative error of 4e-17 (exact arithmetic on the decimal table), and its chromaticity is that of D65 to 1e-4.", "quantifier": "every v", "why_tests_cant": "statement for all v", "anchors": ["src/spd.rs:W_X", "src/spd.rs:W_Y", "src/spd.rs:W_Z", "src/spd.rs:SPD::constant"]}
{"id": "C59", "title": "RGB uplifting is linear and energy conserving", "statement": "uplift_my is linear in the RGB; for components in [0,1] every sample lies in [0, 1+1e-8], white gives at least 0.99999 everywhere, and the wavelengths are always 380,385,...,780.", "quantifier": "every RGB", "why_tests_cant": "continuum of colours", "anchors": ["src/uplifting.rs:uplift_my", "src/uplifting.rs:my_basis"]}
{"id": "C60", "title": "Photometric conversion is linear", "statement": "spd_to_nit(s, cmf) = 683/len * sum s_k * ybar(lambda_k); it is linear in s and 0 for the zero spectrum; it panics for a varying spectrum.", "quantifier": "every SPD and CMF", "why_tests_cant": "all lengths", "anchors": ["src/photometry.rs:spd_to_nit"]}
{"id": "C61", "title": "Summing colours", "statement": "Iterator::sum over XYZ/RGB starts at black and adds component-wise: the sum of an empty iterator is black, it is additive over concatenation and invariant under permutation in exact arithmetic.", "quantifier": "every list of colours", "why_tests_cant": "unbounded lists", "anchors": ["src/xyz.rs:Sum for XYZf32", "src/xyz.rs:AddAssign for XYZ", "src/rgb.rs:Sum for RGBf32", "src/rgb.rs:AddAssign for RGBf"]}
{"id": "C62", "title": "Scaling a VSPD changes only its values", "statement": "spd*s and spd/s keep the wavelengths and scale every value; owned and borrowed versions agree; (spd*s)/s = spd's samples for s != 0. The reported shape is recomputed from the samples, so it can differ from the original's and a one-sample VSPD panics.", "quantifier": "every VSPD and scalar", "why_tests_cant": "all lengths", "anchors": ["src/vspd.rs:Mul<f64> for VSPD", "src/vspd.rs:Div<f64> for VSPD", "src/vspd.rs:FromIterator<Sample> for VSPD"]}
{"id": "C63", "title": "Normalising XYZ preserves chromaticity", "statement": "For y != 0, normalized() has y = 1 (exactly, also under IEEE rounding for finite y), normalized_y() has y = 100, and both have the same chromaticity as the input.", "quantifier": "every XYZ with y != 0", "why_tests_cant": "continuum; rounding", "anchors": ["src/xyz.rs:XYZ::normalized", "src/xyz.rs:XYZ::normalized_y"]}
{"id": "C64", "title": "lerp hits its end points", "statement": "lerp(a,b,0) = a and lerp(a,b,1) = b exactly under IEEE rounding for finite representable a,b; in exact arithmetic it is affine in t, monotone and between a and b for t in [0,1].", "quantifier": "every finite a,b and t", "why_tests_cant": "all float pairs", "anchors": ["src/math.rs:lerp"]}
{"id": "C65", "title": "The shipped matrix pairs are near-inverse", "statement": "For SRGB, ACES, ADOBE_RGB_1998 and ALEXA_WIDE_GAMUT (given by published matrices) converting any colour to RGB and back changes each component by at most a small fixed multiple of the largest component.", "quantifier": "every colour", "why_tests_cant": "continuum of colours", "anchors": ["src/color_space_rgb.rs:model_f64::SRGB", "src/color_space_rgb.rs:model_f64::ACES", "src/color_space_rgb.rs:model_f64::ADOBE_RGB_1998", "src/color_space_rgb.rs:model_f64::ALEXA_WIDE_GAMUT"]}
{"id": "C66", "title": "The shipped derived colour spaces construct", "statement": "Constructing SRGB_DRV, ITUR_BT709, ITUR_BT2020, DCI_P3, DCI_P3_D65 and ACES_CG does not panic, and each gets mutually inverse matrices with white at (1,1,1) (exact arithmetic on the decimal constants).", "quantifier": "all colours converted through these spaces", "why_tests_cant": "the claim about all colours needs exact inverses", "anchors": ["src/color_space_rgb.rs:model_f64"]}
{"id": "C67", "title": "VSPD equality", "statement": "Two VSPDs are equal exactly when they have the same number of samples, equal shapes and pairwise equal samples; equality is symmetric, and reflexive when no NaN is involved.", "quantifier": "every pair of VSPDs", "why_tests_cant": "all lengths", "anchors": ["src/vspd.rs:PartialEq for VSPD"]}
{"id": "C68", "title": "Sprague interpolation reproduces quartics away from the ends", "statement": "If evenly spaced samples lie on a polynomial of degree at most four, evaluate(x) returns that polynomial's value for every x with at least two samples to the left and two to the right of its interval.", "quantifier": "every polynomial of degree at most four, every even grid of at least six samples, every x between the third and the third-last sample", "why_tests_cant": "an exactness claim over all polynomials, grids and points", "anchors": ["src/interpolation.rs: InterpolatorSprague::evaluate", "src/interpolation.rs: SpragueCoefficients::coeff_a"]}
{"id": "C69", "title": "to_xyz computes the tristimulus integral", "statement": "to_xyz(s, illuminant, cmf) returns X, Y, Z = 100 * sum(R*S*c) / sum(S*ybar) with c = xbar, ybar, zbar: for 1 nm and for other uniform spectra over the 1 nm grid 360..780, for 5 nm spectra over the 5 nm grid, for spectra with varying intervals over the 1 nm grid of their own range, and for 10 nm spectra on the 10 nm grid over 1 nm values given by the ASTM E2022 interpolation of the measurements, held constant outside the measured range.", "quantifier": "every spectrum, illuminant and CMF tables covering 360..780, however many samples", "why_tests_cant": "a closed form for all lengths, ranges and values", "anchors": ["src/vspd.rs:VSPD::to_xyz", "src/vspd.rs:spd_to_xyz_integration", "src/vspd.rs:spd_to_xyz_tristimulus_weighting_factors_astme308"]}
{"id": "C70", "title": "Every shipped spectrum loads with its documented shape", "statement": "Building CIE_1931_2_DEGREE's three curves, the D50, D55, D60 and D65 illuminants and the 24 colour-checker spectra does not panic; each holds the listed rows in order and reports the listed start, end and uniform interval, in binary32, binary64 and any wider format.", "quantifier": "every shipped table, every IEEE format of at least ten bits of precision", "why_tests_cant": "the uniform-interval detection depends on float comparisons of every adjacent pair; the claim is for every format", "anchors": ["src/cmf.rs", "src/illuminant.rs", "src/colorchecker.rs", "src/vspd.rs:VSPD::new"]}
{"id": "C71", "title": "Greys have the illuminant's white point", "statement": "A spectrum of constant reflectance v, converted by to_xyz with a shipped D-series illuminant and the CIE 1931 observer, has Y = 100 v, and (v non-zero, uniform intervals) the chromaticity illuminant::xy gives for that illuminant, to within 4e-5 in x and 1.2e-4 in y.", "quantifier": "every reflectance, illuminant, start, end and sampling: uniform intervals (5 nm and 10 nm ones on their grid), varying intervals starting on a whole nanometre (Y only)", "why_tests_cant": "all reflectances, ranges and intervals", "anchors": ["src/vspd.rs:VSPD::to_xyz", "src/illuminant.rs:xy", "src/illuminant.rs"]}
{"id": "C72", "title": "Uplifted colours convert back to themselves", "statement": "uplift_my(rgb).to_xyz(D65, CIE 1931) converted with the sRGB xyz_to_rgb matrix recovers the linear rgb, within 1.1e-4 (red, green) and 3.4e-4 (blue) times the largest component.", "quantifier": "every linear sRGB colour, including negative and above-one components", "why_tests_cant": "all colours; the test in the repository prints the colour without asserting anything", "anchors": ["src/uplifting.rs:uplift_my", "src/vspd.rs:VSPD::to_xyz", "src/transform.rs:xyz_to_rgb"]}
{"id": "C73", "title": "Colour and matrix operators act component by component", "statement": "Every arithmetic operator on RGB, XYZ and matrices (colour-colour, colour-scalar, scalar-colour, negation, abs, powf) gives at each index the scalar operation on the operands' values at that index; scalar*colour and colour*scalar, scalar+colour and colour+scalar agree bit for bit in floating point; over the reals colours form a vector space with zero() and one() neutral; is_zero() holds exactly for colours of (signed) zeros; min_value() and max_value() bound exactly the finite components.", "quantifier": "every pair of colours, matrix and scalar", "why_tests_cant": "all floats, all operators and components", "anchors": ["src/rgb.rs:Add/Sub/Mul/Div/Neg for RGBf", "src/rgb.rs:rgbf_impl_rhs_mul/add/sub/div", "src/rgb.rs:Zero/One/Bounded for RGBf", "src/xyz.rs:Add/Sub/Mul/Div/Neg for XYZ", "src/xyz.rs:Zero/One/Bounded for XYZ", "src/math.rs:Add<T>/Sub<T>/Mul<T>/Div<T>/Neg for Matrix33"]}
{"id": "C74", "title": "f64 to f32 conversion rounds to nearest", "statement": "Converting an RGB colour, an XYZ colour or a matrix from f64 to f32 maps each component to a nearest f32 (no f32 is closer), keeps NaN, infinities and signed zeros, overflows to the infinity of the same sign exactly from (2 - 2^-24)*2^127 on, has relative error at most 2^-24 for normal numbers, and never reverses the order of two numbers.", "quantifier": "every f64 component", "why_tests_cant": "2^64 values per component", "anchors": ["src/rgb.rs:From<RGBf64> for RGBf32", "src/xyz.rs:From<XYZf64> for XYZf32", "src/math.rs:From<M3f64> for M3f32"]}
{"id": "C75", "title": "Approximate comparison and matrix indexing", "statement": "approx_eq on colours holds exactly when it holds for all three components; on spectra exactly when both have the same number of samples and these agree one by one in wavelength and value (the reported shape is ignored). m[i][j] reads and writes exactly the entry in row i, column j for i, j < 3 and panics otherwise.", "quantifier": "every margin, colour, spectrum, matrix and index", "why_tests_cant": "all lengths and indices", "anchors": ["src/rgb.rs:ApproxEq for RGBf32/RGBf64", "src/xyz.rs:ApproxEq for XYZf32/XYZf64", "src/vspd.rs:ApproxEq for Sample", "src/vspd.rs:ApproxEq for &VSPD", "src/math.rs:Index/IndexMut for Matrix33"]}
{"id": "C76", "title": "Matrix products are accurate under rounding", "statement": "Every component of matrix*XYZ, matrix*RGB and matrix*matrix computed in floating point is finite and differs from the exact value by at most 4u times the sum of the absolute values of its three terms plus 5 times half the smallest positive number, unless that sum exceeds half of 2^emax.", "quantifier": "every IEEE format, every finite matrix and colour", "why_tests_cant": "all pairs of floats; cancellation hides errors from sampling", "anchors": ["src/math.rs:Mul for Matrix33", "src/math.rs:Mul<XYZ> for Matrix33", "src/math.rs:Mul<RGBf> for Matrix33"]}
{"id": "C77", "title": "Conversions through the shipped spaces round-trip in f32 and f64", "statement": "For every shipped RGB space and each of the six white points, building both matrices succeeds and XYZ -> RGB -> XYZ and RGB -> XYZ -> RGB return each component to within a stated fraction of the largest one (f64: 8e-5 sRGB, 2e-5 Adobe RGB, 3e-6 Alexa, 2e-10 ACES, 1e-14 derived spaces; f32: 8e-5, 2e-5, 5e-6), with all roundings of construction and conversion included; likewise RGB A -> B -> A for every pair of spaces.", "quantifier": "every colour with largest component between 2^-90 and 2^100, in f32 and f64", "why_tests_cant": "2^96 or more colours; worst-case rounding is not sampled", "anchors": ["src/color_space_rgb.rs:xyz_to_rgb_matrix", "src/transform.rs:rgb_to_xyz_matrix", "src/color_space_rgb.rs:rgb_to_rgb_matrix", "src/color_space_rgb.rs:xyz_to_rgb", "src/color_space_rgb.rs:rgb_to_xyz"]}
{"id": "C78", "title": "Lab and delta_E_2000 follow the published definitions", "statement": "xyz_to_lab is CIELAB as stated by CIE 15 with delta = 6/29. delta_E_2000 is the CIEDE2000 formula evaluated at any polar angles of the two stretched colours that lie less than half a turn apart (exactly opposite hues taken in [0,360)), a neutral colour taking the hue of the other; for two neutral colours it is the weighted lightness difference.", "quantifier": "every pair of Lab colours (exact arithmetic)", "why_tests_cant": "the published test data has 34 pairs; the hue branches range over a 6-dimensional continuum", "anchors": ["src/lab.rs:xyz_to_lab", "src/lab.rs:delta_E_2000"]}
{"id": "C79", "title": "Daylight gets bluer with temperature", "statement": "For 4000 <= t <= 25000 cct(t) returns the CIE daylight chromaticity, and its x strictly decreases with temperature over the whole range, also across the change of formula at 7000 K.", "quantifier": "every pair of temperatures in range (exact arithmetic)", "why_tests_cant": "continuum; the seam at 7000 K", "anchors": ["src/illuminant.rs:xy::cct"]}
{"id": "C80", "title": "Summing colours is accurate under rounding", "statement": "Iterator::sum over n finite XYZ or RGB colours yields in each component a finite value within (1+u)^n - 1 times the sum of absolute values of the exact sum, unless (1+u)^n times that sum exceeds 2^emax.", "quantifier": "every IEEE format and every list of finite colours", "why_tests_cant": "all lists of all lengths", "anchors": ["src/xyz.rs:Sum for XYZ", "src/rgb.rs:Sum for RGBf"]}
{"id": "C81", "title": "The two SPD code paths are accurate and agree under rounding", "statement": "For finite samples and weights spd_to_xyz_scalar and spd_to_xyz_avx are finite and within 8u*sum|s w| + 41*eta of the exact weighted sum in each channel, so they agree within twice that; with the built-in weights, f32 and samples in [0,1], to_xyz is within 6e-5 of the exact sums of the printed weights on either path.", "quantifier": "every spectrum and weights, every format at least as wide as f32", "why_tests_cant": "2^1280 spectra; worst-case rounding", "anchors": ["src/spd.rs:spd_to_xyz_scalar", "src/spd.rs:spd_to_xyz_avx", "src/spd.rs:hadd_avx"]}
{"id": "C82", "title": "Decoding and re-encoding an image is lossless", "statement": "Converting an 8-bit image to floating point, decoding it to linear light and encoding it again with the same shipped colour space, then quantising, returns the same image; so does a 16-bit image, except with BT.709 and BT.2020, whose curves have a gap: with them the 16-bit level 5310 does not come back.", "quantifier": "every pixel, every shipped space, f32 and f64, every math library whose powf is within two ulp and whose log10 is within a few", "why_tests_cant": "2^48 pixels per space, and any conforming libm", "anchors": ["src/color_space_rgb.rs:encode", "src/color_space_rgb.rs:decode", "src/color_space_rgb.rs:ColorSpaceRGB::encode", "src/rgb.rs:RGBu8", "src/rgb.rs:RGBu16"]}
{"id": "C83", "title": "8-bit images survive a trip through another colour space", "statement": "Decoding an 8-bit image of sRGB, SRGB_DRV, BT.709, BT.2020, ACES or ACEScg, converting it to any other shipped space or to XYZ under any of the six white points, converting it back, encoding and quantising gives the same image. For Adobe RGB this is false: (0,0,255) through sRGB comes back with red 2.", "quantifier": "every 8-bit pixel, every pair of a listed space and a shipped space, f32 and f64, every math library whose powf is within two ulp", "why_tests_cant": "2^24 pixels times 57 pairs times every conforming libm", "anchors": ["src/transform.rs:rgb_to_rgb_matrix", "src/transform.rs:xyz_to_rgb", "src/transform.rs:rgb_to_xyz", "src/color_space_rgb.rs:encode", "src/color_space_rgb.rs:decode", "src/rgb.rs:RGBu8"]}
{"id": "C84", "title": "The Smits spectra carry the listed values on the stated grid", "statement": "Each of the seven Smits spectra loads without panic with 32 samples at exactly 380 + 10.9375 k nm carrying the listed values in order, between -0.0126 and 1.0626; it reports 380 nm to 720 nm although the last sample is 0.9375 nm short of 720 nm.", "quantifier": "all seven spectra, all samples, f64 with any math library", "why_tests_cant": "the f64 grid arithmetic and truncated counts must agree with the assertion in from_values for every table", "anchors": ["src/uplifting.rs:SMITS_WHITE", "src/uplifting.rs:SMITS_BLUE", "src/vspd.rs:from_values"]}
{"id": "C85", "title": "The shipped spaces realise their published primaries and white", "statement": "For each of the shipped RGB spaces, converting (1,0,0), (0,1,0), (0,0,1) and (1,1,1) to XYZ gives, up to a stated tolerance, the chromaticities of the published red, green and blue primaries and of the published white, with luminance 1 for white; the stored chromaticities are the published ones.", "quantifier": "every shipped space, f32 and f64, every math library", "why_tests_cant": "the derived matrices are computed at run time through a matrix inversion in floating point, and the agreement must not depend on the math library or on the numeric type", "anchors": ["src/color_space_rgb.rs:SRGB", "src/color_space_rgb.rs:ADOBE_RGB_1998", "src/color_space_rgb.rs:ACES_CG", "src/transform.rs:rgb_to_xyz_matrix"]}
{"id": "C86", "title": "Sprague interpolation draws one smooth curve", "statement": "Between the first and the last wavelength the interpolator's values are those of one continuous function whatever the spacing of the samples, and of one function with a continuous second derivative when the samples are evenly spaced; the pieces fit together at every sample.", "quantifier": "every spectrum with two or more samples at increasing wavelengths, every wavelength between the first and last, exact arithmetic", "why_tests_cant": "continuity and differentiability are statements about all real wavelengths", "anchors": ["src/interpolation.rs:InterpolatorSprague::evaluate", "src/interpolation.rs:InterpolatorSprague::new"]}
{"id": "C87", "title": "Sprague interpolation is accurate in floating point", "statement": "Evaluating the Sprague interpolator at any finite wavelength between the first and the last sample neither panics nor yields NaN or infinity, and differs from the exact interpolation of the same samples by at most a stated multiple of the rounding unit times the largest sample. For every shipped spectrum in f64 the result is within 1e-12 of the largest value of the exact interpolation of the listed table, the rounding of the literals included.", "quantifier": "every spectrum of finite samples at increasing wavelengths up to 2^20 nm, every finite wavelength of its range, f32 and f64, every math library whose powi is within seven roundings for bases up to 4 and exponents up to 5, which a loop of multiplications is; every shipped spectrum in f64", "why_tests_cant": "rounding errors of some eighty operations accumulate differently for every choice of samples and wavelength", "anchors": ["src/interpolation.rs:InterpolatorSprague::evaluate", "src/interpolation.rs:InterpolatorSprague::new", "src/cmf.rs", "src/illuminant.rs", "src/colorchecker.rs"]}
{"id": "C88", "title": "How far Sprague interpolation leaves the range of the samples", "statement": "If all samples lie between lo and hi, every interpolated value lies between lo - 25/128 (hi-lo) and hi + 25/128 (hi-lo). In particular values bounded by V in absolute value give results bounded by 89/64 V, and changing every sample by at most e changes every interpolated value by at most 89/64 e. The constant is attained.", "quantifier": "every spectrum with six or more samples at increasing wavelengths, every wavelength of its range, exact arithmetic", "why_tests_cant": "the worst case over all samples and wavelengths is a maximum over infinitely many inputs", "anchors": ["src/interpolation.rs:InterpolatorSprague::evaluate", "src/interpolation.rs:InterpolatorSprague::new"]}
{"id": "C89", "title": "L*a*b* is accurate in floating point and converts back and forth without loss", "statement": "Converting a finite XYZ colour between -0.08 and 1.5 times the white to L*a*b* yields finite coordinates within 1200, 10100 and 4100 rounding units of the exact L*, a* and b*. Converting L*a*b* with L* in [0,100] and a*, b* in [-128,128] to XYZ yields finite components within 105 rounding units times the white of the exact ones. There and back returns L*a*b* up to 3200, 27000 and 11000 rounding units, and XYZ up to 195 rounding units times the white. All of this also holds where rounding makes the code take the branch the exact value would not.", "quantifier": "every colour in the ranges given, every white with components between 2^-20 and 2^20, f32 and f64, every math library whose powf is accurate to two ulps and whose powi to seven roundings", "why_tests_cant": "near the threshold between cube root and straight line the computed and the exact value may fall on different sides, and only a bound over all inputs rules out a jump there", "anchors": ["src/lab.rs:xyz_to_lab", "src/lab.rs:lab_to_xyz"]}
{"id": "C90", "title": "Whole-nanometre grids are exact in floating point", "statement": "For a spectrum at whole wavelengths and a shape with whole start, end and interval, the wavelengths a shape lists, and those of interpolated, extrapolated, aligned and trimmed spectra, are computed without any rounding: the same number of samples at exactly the wavelengths exact arithmetic gives, and nothing panics that would not panic in exact arithmetic. Values of an aligned spectrum differ from the exact ones by at most 8940 rounding units of the largest sample plus 89/64 times the error of the input. All shipped tables qualify when loaded in f64. With fractional steps this fails: 0 to 0.3 in steps of 0.1 lists three points in f64, and extrapolating 0..1 in steps of 0.1 adds a sample too many.", "quantifier": "every spectrum of at least six samples at whole wavelengths up to 2^20, every shape of whole numbers up to 2^20, f32 and f64, every math library whose powi is accurate to seven roundings", "why_tests_cant": "whether a floating point loop counter meets its end point exactly depends on every combination of start, end and step", "anchors": ["src/vspd.rs:SpdShape::iter", "src/vspd.rs:VSPD::interpolate", "src/vspd.rs:VSPD::extrapolate", "src/vspd.rs:VSPD::align", "src/vspd.rs:VSPD::trim"]}
{"id": "C91", "title": "Spectrum to XYZ is accurate in floating point", "statement": "For spectra at whole wavelengths, and a reflectance with a whole interval other than 10 nm, to_xyz does not panic, each channel is finite, and each differs from the exact result by a bound proportional to the rounding unit. With a shipped D-series illuminant and the shipped observer in f64, a reflectance with values up to V gives channels within 2e-8 V plus 1.1e-10 times the exact channel.", "quantifier": "every reflectance, illuminant and observer at whole wavelengths meeting 360..780 nm with values up to bounds between 2^-16 and 2^16, f32 and f64, every math library whose powi is accurate to seven roundings", "why_tests_cant": "the bound covers five resamplings, 421 products and two sums of rounded numbers for every reflectance", "anchors": ["src/vspd.rs:VSPD::to_xyz", "src/vspd.rs:spd_to_xyz_integration"]}
{"id": "C92", "title": "10 nm reflectances to XYZ are accurate in floating point", "statement": "For a reflectance with a 10 nm interval on the grid 360 + 10k and illuminant and observer at whole wavelengths, to_xyz does not panic, each channel is finite, and each differs from the exact result of the ASTM E2022 method by a bound proportional to the rounding unit. With a shipped D-series illuminant and the shipped observer in f64, a reflectance with values up to V gives channels within 1.5e-8 V plus 1.5e-10 times the exact channel; this covers the 24 shipped colour-checker patches.", "quantifier": "every 10 nm reflectance of any length whose grid meets 360..780, also one that starts before or ends after it, every illuminant and observer at whole wavelengths with values up to bounds between 2^-16 and 2^16, f32 and f64, every math library whose powi is accurate to seven roundings", "why_tests_cant": "the weights collect rounded products from up to 37 places into each cell, are scaled, folded at the ends and summed; the bound covers every reflectance", "anchors": ["src/vspd.rs:VSPD::to_xyz", "src/vspd.rs:tristimulus_weighting_factors_astme2022", "src/vspd.rs:adjust_tristimulus_weighting_factors_astme308", "src/vspd.rs:lagrange_coefficients_astm_e2022"]}
{"id": "C93", "title": "Colour differences in floating point: symmetric, zero on equal colours, never NaN", "statement": "In f32 and f64, delta_E_1976 and delta_E_2000 of two L*a*b* colours do not depend on the order of the arguments, to the last bit; the difference of a colour with itself is zero; for finite coordinates of size up to 1024 both results are finite and not negative, so the rounded argument of the final square root of delta_E_2000 never falls below zero; and delta_E_1976 is within 14 units of rounding of the exact distance.", "quantifier": "symmetry: every pair of colours, including infinities and NaN; the rest: every pair of colours with finite coordinates between -1024 and 1024, and every mathematical library that is accurate to a few units of rounding", "why_tests_cant": "The argument of the square root is a sum of three squares and a rotation term of either sign that can be nearly as large; whether rounding can push it below zero, giving NaN, depends on all pairs of nearly equal saturated blues. Symmetry to the last bit must hold for every pair of floats, through every branch of the hue arithmetic.", "anchors": ["src/lab.rs:delta_E_1976", "src/lab.rs:delta_E_2000"]}
{"id": "C94", "title": "Chromatic adaptation in floating point", "statement": "In f32 and f64, bradford, cat02 and von_kries return a matrix of finite entries that differs from the exact adaptation between the same two white points by rounding only: with S and R the size of the source and the destination white, every entry is within 1690 (Bradford), 2028 (CAT02) or 4173 (Von Kries) units of rounding times R / S. The Bradford and CAT02 matrices, applied in the same arithmetic to the source white, give the destination white within 5400 and 6500 units of rounding times R.", "quantifier": "every pair of white points with finite components of size up to S and R, S and R between 2^-20 and 2^20, where the three cone responses of the source are at least S/4 (met by daylight and by illuminant A); both formats and every mathematical library", "why_tests_cant": "The matrix divides by computed cone responses, and multiplies by an inverse computed in floating point; whether rounding is amplified depends on every pair of white points, not on the few standard illuminants a test can list.", "anchors": ["src/chromatic_adaptation.rs:bradford", "src/chromatic_adaptation.rs:cat02", "src/chromatic_adaptation.rs:von_kries"]}
{"id": "C95", "title": "Daylight chromaticities in floating point", "statement": "In f32 and f64, for every temperature from 4000 K to 25000 K, illuminant::xy::cct returns Ok with a chromaticity whose x is within 2.1 units of rounding of the CIE daylight formula and whose y is within 18.1 units of rounding of the daylight locus at that x; x and y are positive and x + y is below 1.", "quantifier": "every finite temperature in the range, in both formats, including both sides of the 7000 K seam", "why_tests_cant": "The formula divides by the cube of the temperature and adds terms of opposite sign; the rounding error has to stay small at every float in the range and not only at the temperatures of the named illuminants.", "anchors": ["src/illuminant.rs:xy::cct"]}
{"id": "C96", "title": "xyY and XYZ conversions in floating point", "statement": "In f32 and f64: converting an xyY colour with 0 <= x, y >= 2^-10, x + y <= 1 and luminance between 2^-20 and 2^20 to XYZ gives finite components within 3.01, 1.01 and 5.01 units of rounding of the exact ones, relative to their sum 100 Y / y; converting a non-negative XYZ colour with a sum between 2^-20 and 2^20 to xyY gives chromaticities within 7.1 units of rounding and a luminance within 1.01 units relative to the sum; and the trip from xyY to XYZ and back returns x within 20 and y within 18 units of rounding.", "quantifier": "every colour in the stated ranges, in both formats", "why_tests_cant": "1 - x - y cancels for chromaticities near the edge of the diagram and the conversion divides by y; that the errors stay at a few units of rounding relative to the sum has to be shown for all chromaticities at once.", "anchors": ["src/chromaticity.rs:XYY::from_xyz", "src/xyz.rs:XYZ::from_chromaticity"]}
{"id": "C97", "title": "Linear light survives encoding and decoding in floating point", "statement": "In f32 and f64, with power and logarithm functions accurate to a few units of rounding: encoding a colour with components in [0,1] and decoding the result gives the colour back within 75 units of rounding for BT.709 and BT.2020, within 75 units plus 6e-9 for sRGB, and exactly for the linear curve; for LogC, with components from 0 to 50, within 2e-5 of the component plus 0.1. Every shipped colour space exists and does the same through its encode and decode, the power-law spaces within 63 units for components that are zero or at least 2^-17.", "quantifier": "every colour with finite components in the stated range, every shipped space, both formats, every accurate maths library", "why_tests_cant": "The curves switch formula at a threshold in the encoder and at another in the decoder; a value that rounds to the other side is decoded with the other formula, and only a proof over all floats shows that this never costs more than the bound.", "anchors": ["src/color_space_rgb.rs:encode::srgb_t", "src/color_space_rgb.rs:decode::srgb_t", "src/color_space_rgb.rs:encode::bt709_t", "src/color_space_rgb.rs:decode::bt709_t", "src/color_space_rgb.rs:encode::bt2020_t", "src/color_space_rgb.rs:decode::bt2020_t", "src/color_space_rgb.rs:encode::alexa_logc_v3_t", "src/color_space_rgb.rs:decode::alexa_logc_v3_t"]}
{"id": "C98", "title": "RGB to spectrum and back in f64", "statement": "In f64, with the shipped D65 illuminant, the shipped CIE 1931 observer and the sRGB matrix: uplifting a linear sRGB colour with finite components up to m in magnitude (2^-16 <= m <= 2^14) and converting the spectrum to XYZ and back to RGB does not panic and recovers the colour within 1.11e-4 m in red and green and 3.41e-4 m in blue. Hence every linear 8-bit pixel, uplifted, converted back and quantised, is the same pixel.", "quantifier": "every such colour, every 8-bit pixel, every maths library with an accurate integer power", "why_tests_cant": "The existing test prints the colours of one chart; the error of the basis spectra, the alignment of the spectra, the integration and every rounding have to be bounded together for all colours, and a pixel is preserved only if the total stays below half a code for all 2^24 of them.", "anchors": ["src/uplifting.rs:uplift_my", "src/vspd.rs:VSPD::to_xyz", "src/transform.rs:xyz_to_rgb_matrix", "src/transform.rs:xyz_to_rgb"]}
{"id": "C99", "title": "Transfer curves in floating point follow the published curves", "statement": "In f32 and f64, encoding and decoding a component of [0,1] with the sRGB, BT.709, BT.2020 and ARRI LogC (encoding: up to 100) curves gives a finite result within a stated number of roundings of the published piecewise formula, the piece being the published one except within four roundings of the threshold. The power-law spaces (Adobe RGB 563/256, DCI-P3 2.6) follow their power to a stated relative error. Black maps to black exactly and white to white within 51 roundings for sRGB, BT.709 and BT.2020.", "quantifier": "every finite component in range, every maths library with an accurate power and logarithm", "why_tests_cant": "There are about 2^30 f32 and 2^62 f64 components in [0,1]; a wrong constant, exponent or threshold can show on a narrow interval only, and cancellation in the affine parts amplifies rounding errors.", "anchors": ["src/color_space_rgb.rs:encode::srgb_t", "src/color_space_rgb.rs:encode::bt709_t", "src/color_space_rgb.rs:encode::bt2020_t", "src/color_space_rgb.rs:encode::alexa_logc_v3_t", "src/color_space_rgb.rs:decode::srgb_t", "src/color_space_rgb.rs:decode::bt709_t", "src/color_space_rgb.rs:decode::bt2020_t", "src/color_space_rgb.rs:decode::alexa_logc_v3_t"]}
{"id": "C100", "title": "Matrix inversion in floating point", "statement": "In f32 and f64, Matrix33::inverse of a matrix of finite entries at most A whose determinant is at least d (well above the rounding errors) and whose last column does not look like (0,0,1) succeeds. Every entry of the result is within 100 A^5/d^2 roundings of the entry of the exact inverse, and the products with the matrix on either side are within 300 A^6/d^2 roundings of the identity.", "quantifier": "every such matrix in every IEEE format of at least f32 precision", "why_tests_cant": "The error of an inverse depends on the conditioning of the matrix; no sample of matrices shows the bound for all nine free entries.", "anchors": ["src/math.rs:Matrix33::inverse"]}
{"id": "C101", "title": "A colour space built from primaries, in floating point", "statement": "In f32 and f64, the XYZ to RGB matrix of a colour space built from primaries and a white point has finite entries, sends the white point to (1,1,1) within 85/delta roundings, and sends every primary to a colour whose two other channels are at most 90/delta roundings, where delta bounds from below the three triangles of the white point and two primaries. The RGB to XYZ matrix is its inverse within the bound of C100.", "quantifier": "all primaries and white points with coordinates of magnitude at most 5/4 and non-degenerate triangles", "why_tests_cant": "The shipped spaces are a handful of points of an eight-dimensional family; users build their own spaces.", "anchors": ["src/color_space_rgb.rs:ColorSpaceRGB::new", "src/color_space_rgb.rs:build_xyz_to_rgb_matrix", "src/math.rs:Matrix33::inverse"]}
{"id": "C102", "title": "Brighter light is never encoded darker, and greater codes decode to more light", "statement": "In f32 and f64, encoding two colours without negative components in the same shipped colour space, the one at least as bright in every component never gets a smaller 8-bit or 16-bit code, infinite components included. For BT.709 and BT.2020 the encoded values themselves are in order, negative components included. Of two 8-bit codes the greater decodes to strictly more light in every shipped space; of two 16-bit codes in every space except BT.709 and BT.2020, where 5309 decodes to less light than 5308.", "quantifier": "every pair of colours, every pair of codes, every shipped colour space, every math library whose powf and log10 are accurate and (for encoding) monotone", "why_tests_cant": "A reversal needs two neighbouring inputs; there are 2^32 f32 pairs of neighbours per curve and 2^64 in f64, and the curves are defined in two pieces that do not meet exactly.", "anchors": ["src/color_space_rgb.rs:encode", "src/color_space_rgb.rs:decode", "src/color_space_rgb.rs:ColorSpaceRGB::encode", "src/rgb.rs:RGBu8", "src/rgb.rs:RGBu16"]}
{"id": "C103", "title": "Linear interpolation in floating point", "statement": "In f32 and f64, InterpolatorLinear::evaluate on a spectrum of finite samples at strictly increasing wavelengths (uneven spacing allowed) returns a finite number for every wavelength but NaN, where it panics. At and beyond the ends, infinities included, it returns the end values unchanged; every sample is reproduced exactly; between two neighbours the result is within eleven roundings of the larger neighbour of the exact straight line.", "quantifier": "every spectrum of any length with magnitudes up to 2^38, every wavelength", "why_tests_cant": "Cancellation in the position and the weights depends on all four neighbouring numbers and the wavelength; a sample of spectra cannot exclude an overshoot or a panic.", "anchors": ["src/interpolation.rs:InterpolatorLinear::evaluate"]}
{"id": "C104", "title": "Luminance of a spectrum in floating point", "statement": "In f32 and f64, spd_to_nit of a spectrum at up to 1024 whole wavelengths is finite and within 683 * 10400 roundings (times the largest value of the spectrum and of the observer) of the exact luminance of the exact spectrum. In f64, for the shipped daylight illuminants and observer, that is within 2e-7 nit.", "quantifier": "every such spectrum and observer", "why_tests_cant": "The observer is resampled with a six-point polynomial and summed over hundreds of terms; the accumulated error depends on every sample.", "anchors": ["src/photometry.rs:spd_to_nit", "src/vspd.rs:VSPD::align"]}
{"id": "C105", "title": "Flat reflectances in f64 are grey", "statement": "In f64, VSPD::constant with a whole-nanometre shape and a value v, measured with to_xyz under any shipped daylight illuminant and the shipped CIE 1931 observer, returns the colour of a perfect grey: finite, Y = 100 v to nine digits, and the chromaticity published for the illuminant within 4.1e-5 in x and 1.21e-4 in y. This holds at every whole interval, with the samples on multiples of the interval when it is 5 or 10 nm.", "quantifier": "every shape of at least six whole wavelengths (two at 10 nm) meeting 360..780 nm, every value from 2^-16 to 2^16, every shipped D illuminant", "why_tests_cant": "The result passes through resampling, extrapolation and three sums of hundreds of rounded products for every shape; a test fixes one shape.", "anchors": ["src/vspd.rs:VSPD::constant", "src/illuminant.rs", "src/cmf.rs", "src/vspd.rs:VSPD::to_xyz"]}
{"id": "C106", "title": "delta_E_2000 in floating point is accurate", "statement": "In f32 and f64 delta_E_2000 differs from the published CIEDE2000 difference of the same two colours by at most 80000 (1 + dE) u, u the unit roundoff: about 0.005 (1 + dE) in f32 and 9e-12 (1 + dE) in f64. This holds whenever the two hues are clear, by 1/1000 degree, of the two places where the published formula itself jumps (opposite hues, and a mean hue at 0 degrees reached across 0), and without that condition when a colour is grey.", "quantifier": "every pair of colours with finite coordinates up to 128 in size, a and b zero or at least 2^-60, in f32 and f64, for every mathematical library accurate to four units of rounding", "why_tests_cant": "Forty rounded operations with cancellations, hue branches and a square root near zero lie between input and result; test vectors sample thirty-odd pairs.", "anchors": ["src/lab.rs:delta_E_2000"]}
{"id": "C107", "title": "When extrapolate() returns in floating point and when it hangs", "statement": "In f32 and f64 extrapolate returns whenever the step is at least 2 u M (one to two ulps of the largest wavelength M involved): the samples put in are start, start + i, (start + i) + i, ... below the spectrum and end + i, (end + i) + i, ... above it, strictly increasing, at most 6 M / i + 1 on either side, with the first and last value. It never returns when the step is zero or negative, or at most u x / 2 for the end x of the spectrum, or at most u x / 2 for a requested start x below the spectrum.", "quantifier": "every spectrum with finite ends, every requested range, every step (the band between u x / 2 and 2 u M is left open)", "why_tests_cant": "Termination: a test that hangs proves nothing and a test that returns covers one step size.", "anchors": ["src/vspd.rs:extrapolate", "src/vspd.rs:align"]}
{"id": "C108", "title": "XYZ to RGB in floating point, one by one and in planes", "statement": "In f32 and f64 xyz_to_rgb gives in every channel the matrix row applied to XYZ/100, up to ten roundings of the size of the terms, with no overflow below 2^40; rgb_to_xyz gives a hundred times the row applied to the colour, up to six. The planar conversion, whether its multiply-add rounds once or twice and whatever its vector width W, returns one colour per element; every element in a full block of W or among the last len/W has the same accuracy and is within twenty roundings of the one-by-one conversion, and the others are zero. When W divides the length every element is converted.", "quantifier": "every matrix and every list of colours with finite entries up to 2^40, every length and vector width, fused or unfused multiply-add", "why_tests_cant": "A test runs on one machine, with one vector width and one multiply-add, on a few lengths and colours.", "anchors": ["src/transform.rs:xyz_to_rgb", "src/transform.rs:rgb_to_xyz", "src/transform.rs:xyz_slice_to_rgb_avx_planes"]}
{"id": "C109", "title": "Greys and detours between colour spaces in floating point", "statement": "In f32 and f64 the conversion of linear RGB between any two of the ten shipped spaces keeps greys grey: every component of the converted grey is the grey itself to within the sum of the two spaces' tolerances, which in f64 is a few roundings for the spaces derived from primaries, 2.5e-10 for ACES, 1.4e-6 for Alexa Wide Gamut, 2.8e-5 for Adobe RGB and 1.75e-4 for sRGB with its published matrices. Converting by way of a third space gives what the direct conversion gives, to within the tolerance of the space in the middle times the largest component. Nothing overflows.", "quantifier": "every ordered pair and triple of the ten shipped spaces, every finite linear colour with components up to 2^100 and every grey between 2^-90 and 2^100, both formats", "why_tests_cant": "A test converts a few colours between a few spaces; here every colour goes through every pair and triple.", "anchors": ["src/color_space_rgb.rs:ColorSpaceRGB", "src/transform.rs:rgb_to_rgb_matrix"]}
{"id": "C110", "title": "Spectra outside the visible range have no XYZ", "statement": "Converting a spectrum to XYZ never returns if the spectrum lies wholly outside 360..780 nm by 5 nm or more, whatever its interval, the illuminant and the colour-matching functions: it panics rather than give black. Aligning or interpolating a spectrum to a range at least one requested step away from its own never returns either, nor does the luminance of a spectrum at least one interval away from the range of the luminosity function. Conversely, in exact arithmetic, the conversion to XYZ returns for every spectrum that meets 360..780 nm, whatever its interval, unless the whole part of the interval is 10, which C69 treats.", "quantifier": "every spectrum, every interval uniform or varying, every illuminant and set of colour-matching functions, every IEEE format; for the converse every spectrum over the reals with tables over 360..780", "why_tests_cant": "A test tries one infrared spectrum; the claim is for every spectrum out of range and every table.", "anchors": ["src/vspd.rs:to_xyz", "src/vspd.rs:align", "src/vspd.rs:interpolate", "src/photometry.rs:spd_to_nit"]}
{"id": "C111", "title": "8-bit greys, white and black between colour spaces", "statement": "With a power function that is within two units in the last place, in f32 and in f64: every 8-bit grey of sRGB, SRGB_DRV, BT.709, BT.2020, DCI-P3, DCI-P3 D65, ACES, ACEScg or Adobe RGB survives decoding, conversion to any of the ten shipped spaces, conversion back and encoding. Between two shipped spaces with the same transfer curve every 8-bit grey keeps its code. Between any two of the nine spaces 8-bit white is converted to white and black to black.", "quantifier": "every 8-bit grey level, every ordered pair of shipped spaces, both float formats, every mathematical library whose powf is accurate to two ulp", "why_tests_cant": "A test runs one library on one machine; the claim is for every library within the accuracy bound, and the greys of the power-law spaces are where the curve has unbounded slope at black.", "anchors": ["src/color_space_rgb.rs:ColorSpaceRGB", "src/color_space_rgb.rs:encode", "src/color_space_rgb.rs:decode", "src/transform.rs:rgb_to_rgb_matrix", "src/rgb.rs:RGBu8"]}
{"id": "C112", "title": "16-bit images, and DCI-P3 images, through other spaces", "statement": "In f64, with a power function within two units in the last place: every 16-bit SRGB_DRV image survives decoding, conversion to ACES or to any shipped space with computed matrices, conversion back and encoding. Every 16-bit ACES or ACEScg image survives the same trip, and the trip through ALEXA Wide Gamut, in f32 as well. If the power function also keeps the order and gives NaN for negative bases and fractional exponents, as IEEE 754 says, every 16-bit DCI-P3 or DCI-P3 D65 image survives the trip through any space with computed matrices, every 8-bit one the trip through ACES, and all these 16-bit images the trip through XYZ with any white point. The printed sRGB matrices are too coarse: 16-bit sRGB blue converted to SRGB_DRV and back gains red of at least 19 codes. For the same reason 8-bit DCI-P3 D65 blue converted to sRGB and back gains red of at least 3 codes.", "quantifier": "all 2^48 pixels, the listed pairs of shipped spaces and all six white points, every mathematical library satisfying the stated assumptions", "why_tests_cant": "There are 2^48 pixels per pair of spaces, and a test exercises a single library; the curve of DCI-P3 has unbounded slope at black, so nearby values cannot be extrapolated.", "anchors": ["src/color_space_rgb.rs:ColorSpaceRGB", "src/color_space_rgb.rs:encode", "src/color_space_rgb.rs:decode", "src/transform.rs:rgb_to_rgb_matrix", "src/transform.rs:xyz_to_rgb", "src/rgb.rs:RGBu16"]}
{"id": "C113", "title": "Printed values determine the value", "statement": "Two 8-bit colours, 16-bit colours, floating-point colours, tristimulus values, shapes of spectra, forty-value spectra or sampled spectra print the same text only if they are the same value; for sampled spectra this means the same samples and the same shape, and a varying interval is told from every number. For floating-point components this assumes what Rust guarantees of printed floats: digits, sign, point, inf and NaN only, and different texts for different numbers.", "quantifier": "all pairs of values of each printable type, sampled spectra with any number of samples, every way of printing single floats with the stated property", "why_tests_cant": "The claim is about all pairs of values, including sample lists of unbounded length and numbers whose texts run together.", "anchors": ["src/rgb.rs:Display for RGBu8", "src/rgb.rs:Display for RGBf", "src/xyz.rs:Display for XYZ", "src/vspd.rs:Display for VSPD", "src/vspd.rs:Display for Interval", "src/spd.rs:Display for SPD"]}
{"id": "C114", "title": "Comparison of colours, tristimulus values and shapes is an order", "statement": "Comparing with < and partial_cmp is a strict order that agrees with == and is decided by the first differing component: red, green, blue; X, Y, Z; x, y, luminance; start, end, interval, with a varying interval after every uniform one. It is total on 8-bit and 16-bit colours, and on floating-point values without NaN, so sorting by partial_cmp().unwrap() does not panic there. A colour with a NaN component is not comparable to itself.", "quantifier": "all triples of values, including infinities, signed zeros and NaN, any floating-point format", "why_tests_cant": "Transitivity and totality range over all triples of values, including those with NaN components.", "anchors": ["src/rgb.rs:RGBf", "src/rgb.rs:RGBu8", "src/rgb.rs:RGBu16", "src/xyz.rs:XYZ", "src/chromaticity.rs:XYY", "src/vspd.rs:SpdShape", "src/vspd.rs:Interval"]}
{"id": "C115", "title": "Converting an image to its own space", "statement": "rgb_to_rgb from a shipped space to itself reports the whole length and leaves the image as it was: 8-bit images in sRGB, SRGB_DRV, BT.709, BT.2020, ACES and ACEScg in f32 and f64; 16-bit images in ACES and ACEScg in f32 and f64; 16-bit SRGB_DRV and 8-bit and 16-bit DCI-P3 images in f64. For all ten spaces a component moves by at most a stated fraction of the largest component. It is not so for the printed matrices elsewhere: 8-bit Adobe RGB blue gains one code of red and 16-bit sRGB blue at least 19.", "quantifier": "all images of any length and any output buffer of that length, every mathematical library accurate to two units in the last place", "why_tests_cant": "There are 2^24 or 2^48 pixels per space, and the result depends on the platform's powf; the theorem covers every accurate library.", "anchors": ["src/transform.rs:rgb_to_rgb", "src/color_space_rgb.rs:ColorSpaceRGB", "src/rgb.rs:RGBu8", "src/chromatic_adaptation.rs:cat02"]}
{"id": "C116", "title": "A brighter reflectance is never darker", "statement": "If one reflectance is nowhere below another, its X, Y and lightness are not below either: for the forty-value SPD on both code paths (Z too when the two agree at 660 nm, the one wavelength where the built-in Z weight is negative; raising that sample alone lowers Z), and for spectra sampled every 1 nm or 5 nm over a common range meeting 360..780 nm under each shipped D illuminant, where Z is included. If somewhere it is higher, Y and L are higher. In floating point the AVX path keeps the order exactly, whatever the format.", "quantifier": "all pairs of reflectances ordered at each wavelength; all four shipped D illuminants; every floating-point format and all finite non-negative samples for the AVX path", "why_tests_cant": "It compares the results of every ordered pair of 40-, 85- or 421-dimensional spectra; a sample of pairs would miss the single negative weight.", "anchors": ["src/spd.rs:to_xyz", "src/vspd.rs:to_xyz", "src/lab.rs:xyz_to_lab"]}
{"id": "C117", "title": "A brighter RGB colour uplifts to a brighter spectrum", "statement": "If no component of one linear RGB colour exceeds that of another, uplift_my gives spectra at the same wavelengths with no sample of the first above the second's; under each shipped D illuminant X, Y, Z and L of the first are not above the second's, and if the colours differ Y and L are below. In f64, for finite components that are not negative, the sample-wise order holds exactly in spite of rounding.", "quantifier": "all pairs of colours ordered component by component; all four shipped D illuminants", "why_tests_cant": "All ordered pairs of colours; depends on the sign of every one of the 243 basis values, of the illuminant and of the observer, and on rounding never reversing an order.", "anchors": ["src/uplifting.rs:uplift_my", "src/uplifting.rs:my_basis", "src/vspd.rs:to_xyz", "src/lab.rs:xyz_to_lab"]}
{"id": "C118", "title": "Resampling keeps the samples exactly, but for the last", "statement": "In f32 and f64, when a VSPD with increasing finite wavelengths is interpolated onto a grid, every wavelength of the new grid that is also the wavelength of a sample other than the last gets exactly that sample's value, with no rounding error. For the last sample this is false: a spectrum of zeros and ones that ends in 0 is resampled at its own last wavelength as a negative number.", "quantifier": "all spectra with increasing finite wavelengths and bounded finite values, all samples but the last, all target grids", "why_tests_cant": "All spectra and grids; exactness of a quintic evaluated in floating point depends on every term vanishing, not on the error being small.", "anchors": ["src/interpolation.rs:InterpolatorSprague::evaluate", "src/vspd.rs:interpolate"]}
{"id": "C119", "title": "Exposure in whole stops is exact", "statement": "In f32 and f64, making a colour or spectrum exactly 2^k times brighter makes its converted values exactly 2^k times as large, with no rounding difference at all: matrix products, rgb_to_xyz, xyz_to_rgb, sums of colours, and both spectrum-to-XYZ code paths, as long as the result does not overflow and the inputs are zero or not extremely small. Chromaticities x and y, XYZ::normalized and normalize do not change at all. Multiplying a colour by 2 is exactly one stop.", "quantifier": "all colours, lists of colours and spectra with components zero or above 2^-50 (2^-40 for spectra) in size, all k, all matrices with entries zero or above 2^-20, and the printed matrices of sRGB, Adobe RGB, Alexa Wide Gamut and ACES", "why_tests_cant": "All inputs and all k; exact equality of rounded results, which depends on every rounding in every code path commuting with powers of two, including the compensated and the vectorised sums.", "anchors": ["src/transform.rs:rgb_to_xyz", "src/transform.rs:xyz_to_rgb", "src/spd.rs:spd_to_xyz_scalar", "src/spd.rs:spd_to_xyz_avx", "src/chromaticity.rs:XYY::from_xyz", "src/xyz.rs:normalized", "src/rgb.rs:normalize", "src/math.rs:Matrix33"]}
{"id": "C120", "title": "Hero-wavelength sampling converges whatever numbers are drawn", "statement": "The spectral sampling loop of the shipped example (one stratified random wavelength and three more a quarter of the range apart, wrapped at 780 nm) never leaves 360..780 nm and never panics, and its estimate differs from 4/420 of the integral of colour matching function, illuminant and reflectance over 360..780 nm by at most a constant over the number of samples, whatever random numbers are drawn. In f64 with its 16384 samples the result is finite and within the same kind of bound plus a rounding error of 2e-7 of the largest reflectance. The estimate is not normalised: unlike to_xyz it grows with the power of the illuminant.", "quantifier": "all outcomes of the random generator in [0,1], all numbers of samples divisible by four (16384 in f64), all evenly spaced reflectances covering 360..780 nm, the shipped observer and D65", "why_tests_cant": "The random numbers are different in every run; the bound must hold for each of the uncountably many (in f64, astronomically many) outcomes, including the wavelengths that round up to the end of the range.", "anchors": ["examples/hero_wavelength_sampling.rs:main", "src/vspd.rs:InterpolatorSprague::evaluate", "src/illuminant.rs:spd::D65", "src/cmf.rs:CIE_1931_2_DEGREE"]}
{"id": "C121", "title": "Converting an image directly or step by step through XYZ gives the same result", "statement": "The two example programs that convert an 8-bit image, one with a single rgb_to_rgb call and one with explicit decode, rgb_to_xyz, xyz_to_rgb and encode steps, agree. In exact arithmetic they write the same bytes for every image and every pair of spaces. In f32 and f64, from sRGB to Adobe RGB, ALEXA Wide Gamut and DCI-P3, neither panics and corresponding bytes differ by at most one. Each writes three bytes per whole input pixel, in order, each pixel depending on its own input pixel only; a trailing incomplete pixel is dropped.", "quantifier": "all images of any length and content; all pairs of colour spaces in exact arithmetic, the three pairs of the programs in f32 and f64", "why_tests_cant": "There are 2^24 pixel values per destination and unboundedly many images; the two programs multiply different rounded matrices in a different order, so the claim is about every rounding combination.", "anchors": ["examples/convert.rs:main", "examples/convert_with_matrices.rs:main", "src/transform.rs:rgb_to_rgb", "src/transform.rs:rgb_to_xyz", "src/transform.rs:xyz_to_rgb"]}
{"id": "C122", "title": "The two colour differences bound one another", "statement": "delta_E_2000 is at most 2.05 times delta_E_1976 for every pair of colours, so colours that are close are never reported as far apart, even across the hue seams of the formula. Conversely, for colours of mean lightness 0..100, delta_E_1976 is at most 2.74 (1.75 + 0.07 C) times delta_E_2000 with C the mean chroma. Between greys delta_E_2000 is the lightness difference over the published weight and at most delta_E_1976. Unlike delta_E_1976 it does not satisfy the triangle inequality: black and white are 100 apart but each is less than 37 from the grey between them.", "quantifier": "all pairs of L*a*b* colours with real coordinates (mean lightness in 0..100 for the converse)", "why_tests_cant": "The formula switches branches on hue and chroma; a bound that holds near every switch, for all six coordinates at once, cannot be sampled.", "anchors": ["src/lab.rs:delta_E_2000", "src/lab.rs:delta_E_1976"]}
{"id": "C123", "title": "A small change of XYZ is a small colour difference, and the other way round", "statement": "If two colours agree in each XYZ component to within a fraction e of the reference white's, then delta_E_1976 between their L*a*b* coordinates is at most 8436 e and delta_E_2000 at most 17294 e, for all colours, including black, negative and brighter than white. Conversely, for colours not brighter than white each component agrees to within 0.03 times delta_E_1976 of white's, and for colours between black and white to within 2.83 times delta_E_2000 of white's. Colours between black and white have lightness 0 to 100, a at most 432 and b at most 173 in size.", "quantifier": "every pair of colours, every white with positive components, every tolerance e", "why_tests_cant": "the bounds must hold for every pair of colours, including the seam between the linear and the cube-root part of the companding and the hue seams of delta_E_2000; a test compares a few pairs", "anchors": ["src/lab.rs:xyz_to_lab", "src/lab.rs:delta_E_1976", "src/lab.rs:delta_E_2000"]}
{"id": "C124", "title": "Storing an sRGB colour in 8 or 16 bits moves it by a bounded colour difference", "statement": "Converting an sRGB-encoded colour with components from 0 to 1 to 8-bit codes and back changes its L*a*b* coordinates by at most 3.65 in delta_E_1976 and 7.5 in delta_E_2000; with 16-bit codes by at most 0.0143 and 0.03. For greys the lightness changes by at most 0.256 with 8 bits. More generally, if the encoded components of two non-negative colours differ by at most d, then delta_E_1976 is at most 1860 d + 0.0001, for every matrix to XYZ whose primaries are non-negative and no brighter than white. For spaces that decode by a power g from 1 to 3 the bound is 551 g (29/6)^(3/g-1) d; Adobe RGB (1998) colours move by at most 4.23 with 8 bits and 0.0165 with 16, DCI P3 ones by at most 3.59 and 0.014. Every space built from physical primaries with its white inside their triangle meets the condition.", "quantifier": "every colour in the unit cube, every pair of non-negative encoded colours, every tolerance d, every matrix and white meeting the stated condition", "why_tests_cant": "the bound must hold for every real colour, not only for sampled ones, across the seams of the sRGB curve and of the L*a*b* companding", "anchors": ["src/rgb.rs:From<RGBf32> for RGBu8", "src/rgb.rs:From<RGBf32> for RGBu16", "src/color_space_rgb.rs:decode::srgb", "src/transform.rs:rgb_to_xyz", "src/lab.rs:xyz_to_lab", "src/lab.rs:delta_E_1976", "src/lab.rs:delta_E_2000"]}
{"id": "C125", "title": "Different 8-bit or 16-bit sRGB codes are different colours", "statement": "Two different 8-bit sRGB colours, converted to L*a*b* with respect to the white of the space, differ by at least 0.0019 in delta_E_1976, and two different 16-bit ones by at least 0.0000075. More generally, for colours with components up to 1 each encoded component agrees to within 2.02 times delta_E_1976.", "quantifier": "all pairs of 8-bit colours, all pairs of 16-bit colours, all pairs of real colours with components up to 1", "why_tests_cant": "there are 2^48 pairs of 8-bit colours, 2^96 pairs of 16-bit ones and infinitely many real ones", "anchors": ["src/rgb.rs:From<RGBu8> for RGBf32", "src/rgb.rs:From<RGBu16> for RGBf32", "src/color_space_rgb.rs:SRGB", "src/color_space_rgb.rs:decode::srgb", "src/transform.rs:rgb_to_xyz", "src/lab.rs:xyz_to_lab", "src/lab.rs:delta_E_1976"]}
{"id": "C126", "title": "One space is contained in another exactly when its primaries are", "statement": "Between two spaces built from their primaries around the same white, each with the white inside its triangle of primaries, rgb_to_rgb_matrix turns every colour without negative components into one without negative components exactly when the three primaries of the source lie in the triangle of the destination; then components from 0 to 1 also stay from 0 to 1. So SRGB_DRV and ITUR_BT709 colours converted to DCI_P3_D65 or ITUR_BT2020 never need clipping. The matrix has a closed form: each entry is a product of two ratios of areas of triangles of primaries and white. The conversions back, and those between DCI_P3_D65 and ITUR_BT2020, give some colour a negative component; from DCI_P3_D65 to ITUR_BT2020 because the red of P3 is just outside. SRGB itself, whose matrices are printed to four decimals, misses this by rounding when converted to DCI_P3_D65. Among the six spaces derived from primaries, chromatic adaptation between their whites included, exactly these conversions never need clipping: from SRGB_DRV or ITUR_BT709 to any, from any to ACES_CG, and from a space to itself.", "quantifier": "all primaries and whites of two spaces that share a white inside both triangles, all colours without negative components", "why_tests_cant": "it must hold for every colour of the cube and for every choice of primaries; the colours that fail can be a thin sliver", "anchors": ["src/transform.rs:rgb_to_rgb_matrix", "src/color_space_rgb.rs:ColorSpaceRGB::new", "src/color_space_rgb.rs:build_xyz_to_rgb_matrix", "src/color_space_rgb.rs:ITUR_BT709", "src/color_space_rgb.rs:ITUR_BT2020", "src/color_space_rgb.rs:DCI_P3_D65"]}
{"id": "C127", "title": "8-bit sRGB and BT.709 images survive a trip through a wider space in 16 bits", "statement": "Converting an 8-bit SRGB_DRV or ITUR_BT709 image with rgb_to_rgb to 16-bit codes in DCI_P3_D65 or ITUR_BT2020, and from these back to 8-bit codes in the original space, returns the same image, in exact arithmetic between the roundings to codes; both conversions report the length of the image. With 8-bit codes in the middle this fails: black and the darkest grey of SRGB_DRV get the same code in ITUR_BT2020.", "quantifier": "every 8-bit image of any size, every previous content of the buffers, four pairs of spaces", "why_tests_cant": "there are 2^24 pixels for each pair of spaces; the worst ones sit at the seams of the transfer curves, where the decoder drops by 5.5e-5 and a component near black is stretched 12.92 times", "anchors": ["src/transform.rs:rgb_to_rgb", "src/transform.rs:rgb_to_rgb_matrix", "src/color_space_rgb.rs:SRGB_DRV", "src/color_space_rgb.rs:ITUR_BT709", "src/color_space_rgb.rs:ITUR_BT2020", "src/color_space_rgb.rs:DCI_P3_D65", "src/rgb.rs:From<RGBf32> for RGBu16", "src/rgb.rs:From<RGBf32> for RGBu8"]}
