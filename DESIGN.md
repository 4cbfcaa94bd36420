# Formal model of colorspace-rs in Lean 4

## 1. What is being verified

`/repo` (colorspace-rs, pinned commit) is a Rust crate for colorimetry: RGB/XYZ/xyY/Lab
types, 3x3 matrices, RGB colour spaces and their transfer functions, chromatic adaptation,
spectral power distributions (`VSPD`, `SPD`), interpolation, ASTM E308/E2022 integration,
uplifting and photometry. The model is a function-by-function transcription into Lean 4
(`lean/Verif/Model/*`), and each property of `properties.jsonl` is a theorem about it
(`lean/Verif/Props/*`).

## 2. Numbers: one model, three arithmetics

The Rust code is generic over `T: Real` (f32 and f64). The model is generic as well: every
definition takes a type `T` with `+ - * / -x` and a class `Flt T` listing the other float
operations the code calls (`lt`, `max`, `powf`, `sqrt`, `to_usize`, casts, ...). Each
theorem says at which level it holds:

* **[G] generic** - for every `T` and every interpretation of the operations, hence bit for
  bit for f32 and f64, whatever the rounding;
* **[F] IEEE** - for `FP fmt`, an executable model of IEEE-754 binary arithmetic
  (round-to-nearest-even, signed zeros, infinities, NaN, subnormals, overflow) at any
  precision and exponent range, instantiated at binary32 and binary64. Transcendental
  functions are an uninterpreted parameter (`Libm`), so these theorems hold for any libm (C82, C83, C89, C97, C99, C102, C111, C112, C115 and C121 assume
  that its `powf` and `log10` are accurate to a few units in the last place, C87, C89 to C92, C98, C104, C105, C118 and C120 that `powi` is, which the multiplication loop of compiler-rt meets: `C87_powi_loop`; C102 also assumes `PowMonotone` and `LogMonotone`, that `powf` with a fixed positive exponent and `log10` keep the order, which the rounded exact functions do: `ordered_pow_mono`, `ordered_log_mono`; C112, C115 and C121 assume `PowMonotone` and `PowNegative`, that a negative number to a fractional power is NaN, met by `strict_facts`; C93 and C106 assume `Spec.MathAccurate` — `sqrt`, `hypot`, `sin`, `cos`, `exp`, `atan2` and the conversions of angles within four units of rounding on the range the code uses, powers within 4 and 14, `atan2` free to return either sign of pi where IEEE 754 lets a signed zero decide, `hypot` of zeros zero, the angle of the positive axis zero — and `Spec.OddTrig`; the rounded exact functions meet both, `ideal_math`, `ideal_odd`);
* **[R] real** - for `T = R`, exact real arithmetic. Rounding error is *not* covered by
  these theorems. Division by zero and out-of-domain `powf`/`sqrt` are totalised in Mathlib
  (`x/0 = 0`), so each theorem carries the non-zero/domain hypotheses that make the
  totalised value irrelevant.

## 3. Panics, loops, aliasing

* A panicking function returns `Except Panic a` with one error per panic site class
  (`index`, `unwrap`, `overflow`, `assert msg`, `diverge`). `usize` subtraction underflow is modelled as
  a panic (debug profile); in release builds the wrapped value is used as an index and
  panics one step later in every place where it occurs here.
* `while` loops in `VSPD::extrapolate` are run with fuel; running out is `diverge`. Theorems
  state both termination for some fuel (and then any larger) and divergence for all fuel.
* `for`/iterator chains are folds or maps over lists in the same order.
* `usize` is `Nat`; `usize` overflow above 2^64 is not modelled (a slice that long does not
  exist) except in float->usize casts, which check the bound.

## 4. Trusted base

* Lean 4.33.0 kernel; Mathlib as a library of kernel-checked theorems.
* Axioms: only `propext`, `Classical.choice`, `Quot.sound` (checked by
  `#print axioms`; see the list in section 7). No own axioms, no `sorry`, no `native_decide`,
  no `bv_decide`.
* The transcription from Rust to Lean (by hand, each definition cites file and lines), the
  IEEE model, and the reading of std/num_traits/float_cmp semantics (`f64::max` ignores NaN,
  `as` casts saturate, `to_usize` returns None outside (-1, 2^64), ...).

## 5. Modelled / not modelled

Modelled, function by function (Lean file - Rust source):

* `Model/Color.lean` - rgb.rs, xyz.rs: constructors, indexing, arithmetic, `Sum`, `clamp`, `lerp`,
  `hmax`, `normalize`, quantisation to and from 8/16 bits, `cast_slice`, xyY conversion.
* `Model/Matrix.lean` - math.rs: all of `Matrix33`, both inverses, Gauss-Jordan step by step.
* `Model/Cat.lean`, `Model/Space.lean`, `Model/Shipped.lean` - chromatic_adaptation.rs,
  color_space_rgb.rs, chromaticity.rs, transform.rs: adaptation matrices, `ColorSpaceRGB::new`, all
  shipped spaces (matrices and white points), conversion matrices, slice conversion, AVX planar path.
* `Model/Transfer.lean` - the encode/decode functions of color_space_rgb.rs.
* `Model/Lab.lean` - lab.rs and `illuminant::cct`.
* `Model/Extra.lean` - left-scalar operators, Zero/One/Bounded, approx_eq, f64 to f32 conversions,
  matrix row indexing.
* `Model/Vspd.lean`, `Model/ToXyz.lean` - vspd.rs, interpolation.rs, cmf.rs, photometry.rs.
* `Model/Spd.lean`, `Model/Tables.lean` - spd.rs, scalar and AVX path, with its weight tables.
* `Model/Uplift.lean` - uplifting.rs: `uplift_my`, its basis, the `SMITS_*` constructors.
* `Model/Show.lean` - the texts printed for colours, matrices and shapes, given the texts of the numbers.
* `Model/Hero.lean`, `Model/Convert.lean` - the three example programs.
* `Model/Spectra.lean` - the tables of cmf.rs, illuminant.rs and the SPECTRAL entries of
  colorchecker.rs, number for number (generated from the source text by a script).

Conformance: `Verif/Conformance.lean` replays the repository's own unit tests in the model, with the same
inputs, reference tables and tolerances (down to one unit in the last place): interpolation, extrapolation,
trimming, the four `to_xyz` routes, Lagrange coefficients, the 24 colour-checker spectra, `SPD` scalar and
AVX, seven colour spaces with encoding and decoding, the planar AVX path, CIEDE2000. They are tests (`#guard`,
run by Lean's evaluator with the machine's maths library), not proofs, and no theorem uses them: they are
evidence that the code was read correctly.

Not modelled: the texts of single numbers (`core::fmt`) and formatter flags, derived `Debug` texts, serde derives, error texts, `println!`, the storage-only
types `RGBAf32`, `RGBf16`, `RGBAf16`; the float comparison inside `float_cmp` (a parameter of
`approx_eq`, and at vspd.rs:445 equality or a 1e-11 difference or an uninterpreted ulp test); `lazy_static` initialisation order; in colorchecker.rs the name list, the
`XYZ_D65`/`RGB` hash maps and the BABELCOLOR tables (used by the conformance tests only) and the second copy of the dark-skin table; memory
layout behind `cast_slice` (modelled as regrouping); SIMD intrinsics beyond their lane-wise meaning;
NaN payloads; the sign of the zero returned by `max(+0,-0)`. Of examples/ the three sampling loops of hero_wavelength_sampling.rs
are modelled (the random numbers are a parameter), not what it prints; of convert.rs and convert_with_matrices.rs
all but reading and writing the PNG files.

## 6. Plan per property

| id | level | how it is modelled and proved |
|----|-------|-------------------------------|
| C01 | F,R | `clamp` as nested comparisons; case analysis over IEEE classes |
| C02-C03 | F | casts as explicit saturating functions; monotonicity of rounding lemma |
| C04-C05 | F,R | relative error bound of round-to-nearest, nearest-integer argument for all codes |
| C06-C07 | G | panic-returning index functions; regrouping by induction on length |
| C08 | F,R | `max` semantics; x/x = 1 under rounding |
| C09-C10 | R(,G) | bridge to Mathlib `Matrix (Fin 3) (Fin 3)`; ring |
| C11-C13 | R | branch by branch; adjugate identity; counterexamples for the affine path and for Gauss-Jordan pivoting, partial theorems for the rest; exactly when each inverse is right in `Props/InverseIff` |
| C14 | R | field_simp |
| C15 | G | the equality branch |
| C16-C18 | R | cone matrix inverse computed by the modelled `inverse` |
| C19-C22 | R | matrix algebra on top of C11/C17 |
| C23-C24 | G | list induction |
| C25 | R | index characterisation; counterexample; partial |
| C26-C30 | R | rpow monotonicity, rational bounds on rpow by integer powers; seams proved as counterexamples |
| C31-C35 | R | cubic/linear branch matching; trigonometric identities for hue wrap; positivity bounds |
| C36 | R,F | polynomial bounds; NaN counterexample |
| C37-C39 | R,G | iterators as state machines |
| C40-C44 | R(,F) | Sprague polynomials; index arithmetic; counterexamples for short inputs |
| C45-C48 | R,G | loops with fuel, invariants |
| C49-C55 | R | Lagrange basis (Mathlib), double sums over the accumulation loops |
| C56-C58 | R | Kahan invariant (compensation = 0), lane sums; table sums by kernel evaluation |
| C59-C60 | R | linearity, table bounds by kernel evaluation, monotone combination |
| C61-C64,C67 | G,F,R | list induction; IEEE lemmas |
| C65-C66 | R | rational evaluation of the constant matrices, then bounds for all vectors |
| C68 | R | divided differences of the Sprague quintic against a quartic |
| C69 | R | the alignment pipeline evaluated to a closed sum (`Spec.xyz`); off-grid spectra from the exact sample-by-sample form of `align` (Props/OffGrid) |
| C70 | F,R | every table: length = grid length by kernel evaluation; integer grids are exact in any format with 10 bits of precision |
| C71 | R | closed sum of C69, table values as rationals, kernel evaluation of the sums, then all grey levels |
| C72 | R | basis spectra through C69, 3x3 matrix of rational sums, then all colours by linearity |
| C73 | G,F,R | operators through `index`; commutativity of IEEE + and *; ring |
| C74 | F | nearest-number and overflow-threshold lemmas for `roundQ` |
| C75 | G | case analysis, list induction |
| C76 | F | standard-model error bounds per operation (FPErr), summed over a dot product (FPDot) |
| C77 | F | round-trip bound (11 u alpha beta + defect) from C76 (FPRound), with alpha, beta and the defect evaluated by the kernel for each space, white and format (TripEval64/32) |
| C78 | R | uniqueness of polar angles modulo full turns; case split on the hue branches against a separate statement of the published formula |
| C79 | R | monotone cubic in 1/T on each piece, comparison at the seam |
| C80 | F | induction on the list with growth factor (1+u)^n |
| C81 | F | invariant of the compensated sum (sum less compensation tracks the exact sum); tree depth 7 for AVX; weight tables evaluated by the kernel |
| C82 | F | accumulated relative errors (FPRel), branch analysis of each curve including crossings of the threshold, then half a quantisation step; assumes `PowAccurate`, `LogAccurate`, which the rounded exact functions meet (IdealLibm) |
| C83 | F | each curve is Lipschitz up to its seam (FPTransfer3, BtClose), conversion there and back moves components by at most 1.1e-4 (C77), so encoding lands within 1/600 of the 8-bit level; counterexample for Adobe RGB by evaluating the matrices and bounding the power |
| C84 | F, R | evaluation of the grid arithmetic, then `from_values` on any table of 32 values |
| C85 | F, G | published tables written down separately (Spec.Primaries); kernel evaluation of the matrices in both formats without math library, then transfer to any library; the stored chromaticities by unfolding in any arithmetic |
| C86 | R | in units of the spacing, two neighbouring quintic pieces differ by a multiple of (t-1)^3; each such truncated power is twice continuously differentiable, so the curve is a polynomial plus a sum of them; continuity for uneven spacing by gluing at the samples |
| C87 | F | an error calculus tracking magnitude and error in units of `u V`: every operation of `evaluate` and of the extrapolated end values is bounded in turn, the position in the interval being within 4u and `powi` assumed within seven roundings; the shipped spectra add the rounding of the literals through C88. `Libm` exists: `ideal_powi` |
| C88 | R | the six basis functions of each interval, with the extrapolation folded in at the ends, have fixed signs on [0,1] and absolute sum at most 89/64, certified by Bernstein coefficients |
| C89 | F | the companding function contracts relative errors (0.72 t for a relative error t), and its inverse is Lipschitz; each branch is accurate on a neighbourhood of the threshold, so the wrong branch costs no more than the distance to the threshold, which is some u. Errors are followed in the companded coordinates, where both directions are short |
| C90 | F | whole numbers up to 2^24 are floats and their sums, differences and products are exact (`Whole`); the quotient in the point count is off by a rounding but its integer part is not. The float run and the exact run of the same loop are followed side by side (`Spec.Tracks`) |
| C91 | F | both runs side by side again; the errors of the two resamplings are added up as multiples of the rounding unit times a bound on the values, through products (`Tr.mul`), sums (`fsum_tr`) and the final quotient (`ratio_err`). How ill-conditioned the quotient is enters as the number κ, which for the shipped tables is a rational computation |
| C92 | F | the two runs side by side once more: the Lagrange coefficients (`coefficients_tr`), the cells of the weight table with a count of how many products went into each (`Follows`, `channel_follows`), the scaling (`inv_err`) and the folding at the ends (`channel_sum`). The indices are whole quotients of whole numbers, which rounding does not move (`Whole.asUInt_div`) |
| C93 | F | symmetry: swapping the colours negates `delta L`, `delta C`, `delta h` up to the sign of zeros (`FP.Opp`), squares and the product of two of them do not see the sign (`FP.Opp.sq`, `FP.Opp.mul_opp`). Range: interval bounds with short significands, which rounding does not move (`In`, `in_round`), on every intermediate value; the radicand: if the rotation factor is at most 1 the rounded product is at most the larger rounded square, otherwise the mean chroma is at least 16, different chromas differ by at least 8 units of rounding (`rep_gap`) and the squares dominate all rounding errors (`radicand_core`) |
| C94 | F | the cone matrices and their computed inverses are evaluated by the kernel in each format and compared with the exact rational ones (`cone_bradford`, `cone_cat02`, `cone_vonKries`); the error of cone responses, gains and the two matrix products follows for all white points by C76 (`cat_near`). Specification: the same adaptation over the reals. The constants are not sharp |
| C95 | F | powers and quotients of the temperature by relative errors (`RelF`), the sums and the locus by absolute errors in units of rounding (`Nr`: rules for sum, difference, product, quotient, literal); the large literals are checked by evaluation. Specification: `Spec.daylightX`, the CIE formula of C79 |
| C96 | F | errors relative to a common scale, here the sum of the components (`Ns`: sums, multiplication and division by an exact number, the share of a component in the sum) |
| C97 | F | the encoder followed by the decoder on each branch: the decoder is Lipschitz on the image of the encoder, so the encoder's rounding error comes back multiplied by a constant; values that cross the seam are handled by comparing both formulas at the threshold (`Lemmas/FPLinear`, `Lemmas/FPLogCLin`); the thresholds themselves by evaluation in each format |
| C98 | F | composition: the uplifted f64 spectrum follows the exact one (C59), `to_xyz` in f64 follows the exact `to_xyz` (C91), the exact trip is near the identity (C72), the matrix product is accurate (C76); the size of the tristimulus values follows from the exact trip; 8-bit pixels by `quant8_of_near` |
| C99 | F | the published formulas written out over the reals in the statement; forward error analysis of each branch from `PowAccurate`/`LogAccurate`; the rounded thresholds are within four roundings of the published ones, so that away from them the branch taken is the published one |
| C100 | F | forward error analysis of the cofactors, the determinant, the guarded scaling and the division; the exact inverse and determinant are Mathlib's; the determinant must exceed 2^12 A^3 roundings. The affine branch (last column near (0,0,1)) is excluded: C11 shows it is wrong |
| C101 | F | each row of the built matrix is a cross product of two chromaticities divided by a triple product; forward error analysis of both, with the cross product exactly orthogonal to its factors; second theorem from C100 |
| C102 | F | every IEEE operation by a constant is monotone (all non-NaN values), powf and log10 are assumed monotone on one branch (`PowMonotone`, `LogMonotone`; met by the rounded exact functions); the jump between the branches is bounded by the accuracy: upwards for BT, a fall below the resolution of a 16-bit code for sRGB and LogC. Decoding: two codes are far enough apart for the accuracy alone to separate them. The 16-bit BT step is a proved counterexample |
| C103 | F | the search for the interval is exact; forward error analysis of the fraction (differences of floats have purely relative error) and of the weighted mean; at a sample the fraction is exactly zero |
| C104 | F | resampling by C90, products and sum with accumulated absolute error, then the scaling; the shipped case from the loaded tables |
| C105 | F | the float spectrum tracks a flat exact one, whose colour is C71; error from C91 and C92; perturbation of the chromaticity quotient |
| C106 | F | relative errors of the chromas, absolute errors of hues and weights, then the quadratic form under the root: positive definite because the rotation term is at most 2 sin 60°, so its root is a norm and the errors of its arguments add; the published formula is C78 |
| C107 | F | every step of the walk gains at least a third of the step size, so the loop ends; below half an ulp the sum rounds back to where it was (spacing of floats), so it never does |
| C108 | F | error of each operation added up, with the multiply-add an arbitrary function within three roundings of a b + c (both the fused and the unfused one are shown to be) |
| C109 | F | the hundred conversion matrices of each format are computed in the model by the kernel and tabled as integers; row sums and products are then compared in integer arithmetic and the roundings of applying them added. C77 uses the same table |
| C110 | F, R | the grid a reversed range asks for has a quotient of at most -1 after rounding, which is no `usize`; every path of `to_xyz` reaches such a grid or an empty `trim` |
| C111 | F | greys move by a fraction of themselves (C77, C109), and a power below one does not magnify a relative error; so each encoder brings a relatively perturbed decoded grey back to within 1/600 |
| C112 | F | as C83 with 16-bit quantisers (Deep16); for DCI-P3 powers with exponent below one are subadditive, and at black the order and the NaN of negative bases decide (`PowMonotone`, `PowNegative`; met by `strictLibm`); counterexample for the printed sRGB matrices by evaluating them (Srgb16, P3Srgb) |
| C113 | G,F | `Display` as text concatenation (Model/Show); texts are cut at the first comma or parenthesis, which numbers do not contain; induction on samples |
| C114 | G,F | derived `PartialOrd` as lexicographic comparison of fields (Model/Show); a comparison with four laws keeps them under lexicographic combination |
| C115 | F | diagonals of the kernel-evaluated tables of conversion matrices (Lemmas/SelfEval) with the curve bounds of C83 and C112, and induction over the image; counterexamples from the evaluated matrices of Adobe RGB and sRGB |
| C116 | R, F | weighted-sum form of both conversions (C56, C69) with the signs of the shipped weights and tables checked over the whole tables; the AVX tree of additions preserves `0 <= a <= b` in every format |
| C117 | R, F | positivity of the whole basis table with C59 and C116; in f64 products and sums preserve `0 <= a <= b` |
| C118 | F | at a knot the offset is a zero, so each term of the polynomial but the constant vanishes exactly; `powi` of zero is zero (proved of the loop of compiler-rt); the last knot is evaluated at offset 1, where the sum of the rounded coefficients is not exact: counterexample evaluated by the kernel |
| C119 | F | rounding commutes with powers of two away from the subnormal numbers, and sums of numbers of the format are exact where they are subnormal; relational proof through every operation, by induction over the compensated sum |
| C120 | F, R | the loop visits each of the N strata four times (a rotation of the strata for each of the four wavelengths), so it is a Riemann sum of a Lipschitz function; in f64 stratum ends are exact and rounding is monotone, so a wavelength stays in its stratum or is the first wavelength instead of the last; induction over the 65536 accumulations; slopes from the smoothness of Sprague interpolation (C86) and errors from C87, C88 |
| C121 | G, R, F | examples/convert*.rs as functions from bytes to bytes; over the reals equality by associativity of the matrix product; in f32/f64 the gap between the two matrices is evaluated in the kernel, rounding of both programs is bounded relative to the largest component, and the encodings (power 1/2.199, power 1/2.6, LogC) are shown to stretch that gap to less than a code; negative components give NaN and code 0 in both |
| C122 | R | chroma and hue difference together are a distance in the stretched a, b plane (law of cosines, whatever branch the hue difference takes); weights between 1 and 1 + 0.045 C; the rotation term is at most √3, so the quadratic form stays between 0.13 and 1.87 times the sum of squares; the triangle inequality fails on the grey axis |
| C123 | R | the inverse companding has slope at least 108/841 everywhere and at most 3 up to white, split at 6/29; components of L*a*b* from that; `delta_E_2000` by C122 |
| C124 | R | the companding is concave and a weight up to 1 shrinks its increments, so one component at a time; the companded 2.4 power has slope at most 0.8/(6/29)^(1/4) (fifth roots make both pieces polynomial), the jump at the sRGB seam is below 3e-8; three steps by the triangle inequality; C05 and C122 for the codes and `delta_E_2000`; powers from 1 to 3 by Bernoulli's inequality |
| C125 | R | C123 backwards to XYZ, the printed matrix inverted by linear arithmetic, and the sRGB decoder is nowhere flatter than 1/12.92 |
| C126 | R | each column of the source's matrix is a positive multiple of a primary and each row of the destination's is an area of a triangle over a positive one, so the sign of every entry is that of a `tri`; the rows add to 1 because white goes to white; the shipped spaces by evaluating the areas; `C126_order` evaluates the 36 matrices between the derived spaces in exact rationals (Lemmas/ExactSpaces), with the adaptations between D65, DCI and ACES white; `SRGB` with its printed matrices is not a space of this kind |
| C127 | R | C126 keeps the light in [0, 1]; encoding, rounding to 16 bits and decoding moves it by at most 6.3e-5 (the drop at the BT.2020 seam is the worst case); the rows of the matrix back (closed form, C126) add up to at most 2.33 in absolute value; the sRGB decoder is nowhere flatter than 1/12.92, so the component moves by less than half an 8-bit code. BT.709: slope 4.62 and the jump of its encoder, no 8-bit code lies in the seam |

## 7. Findings and axioms

Every theorem of the manifest depends on `propext`, `Classical.choice` and `Quot.sound` at most.
Kernel evaluation is used for closed facts about tables (`decide +kernel`) and for closed floating-point
computations with an arbitrary libm (`krefl`, `Num/KRefl.lean`: `rfl` checked by the kernel). Both only
use the kernel's own reduction.

Places where the code does not do what its documentation or a user would expect. Each is a theorem.

* `Matrix33::inverse`, affine branch: the bottom-right entry is divided by the determinant as well, and
  the branch test lacks an absolute value (`C11_inverse_counterexample*`). `None` is returned for some
  matrices of determinant 1 and `Some` for some singular ones (`C12_*_counterexample`). A colour space
  can be built whose two matrices are not inverse (`C20_counterexample`).
* `gj_inverse` picks pivots from the unreduced matrix (`C13_gj_counterexample_*`).
* The planar AVX conversion computes the tail start as `len - len / 8` and leaves elements black
  (`C25_planes_counterexample`).
* `normalize` of an all-negative colour (`C08_normalize_negative_counterexample`).
* sRGB, BT.709, BT.2020, LogC curves: decode does not invert encode on a narrow seam, and the curve drops
  there (`C26_` to `C30_`). With BT.709 and BT.2020 this loses 16-bit levels
  (`C82_bt_sixteen_bit_counterexample`).
* The steep foot of a power curve magnifies the rounding of the printed matrices: 8-bit Adobe RGB blue
  through sRGB and back gains red 2 (`C83_adobe_counterexample`).
* The printed sRGB matrices are inverse only to 8e-5, so 16-bit sRGB images do not survive a detour: blue 65535 gains
  red of at least 19 (`C112_srgb_counterexample`). DCI-P3 D65 images do not survive a detour through sRGB even with 8 bits:
  blue 255 gains red of at least 3 (`C112_p3_counterexample`).
* BT.709 and BT.2020 decode the 16-bit code 5309 to less light than 5308 (`C102_bt_decode_step`).
* `VSPD::new` never looks at the last gap (`C38_counterexample`).
* Sprague interpolation below six samples does not reproduce constants (`C41_counterexample`).
* Sprague interpolation gives back every sample exactly but the last: zeros and ones ending in 0 give a negative value at the
  last wavelength (`C118_last_counterexample`).
* `extrapolate` with a non-positive interval never returns (`C45_diverges`, `C107_hangs_nonpositive`), nor with
  one below half an ulp of the wavelengths (`C107_hangs_left`, `C107_hangs_right`).
* Grids with fractional steps are off by one point in floating point (`C90_fractional_grid`,
  `C90_fractional_extrapolate`); whole-nanometre grids are exact.
* `align` of a spectrum off the requested grid keeps its own wavelengths but reports the grid
  (`C46_counterexample`). `C46_align_exact` and `C46_count` say exactly which samples come out.
* `to_xyz` of 10 nm spectra off the grid 360 + 10k pairs weights with the wrong samples
  (`C54_counterexample`). `C54_one_nm_exact`, `C54_one_nm_iff`, `C54_five_nm_exact`, `C54_ten_nm_off_grid`
  and `C54_varying_exact` give the result for every spectrum; a constant one starting at 355.5 nm is
  another failure (`C54_one_nm_counterexample`).
* `to_xyz` of a spectrum 5 nm or more outside 360..780 nm panics instead of giving black (`C110_to_xyz`).
* The hero-wavelength example compares an estimate that is not divided by the white point (`xyz_w` is accumulated and never read)
  with `to_xyz`, which is: the two scale differently with the illuminant (`C120_unnormalised`). In f64 a wavelength that rounds
  up to 780 nm is taken at 360 nm (`C120_strata`).
* `delta_E_2000` violates the triangle inequality (`C122_triangle_counterexample`); the published formula does as well.
* The printed matrices of `SRGB` are too coarse for containment: converted to `DCI_P3_D65` its blue has a green component
  of about -3e-6 and its white a red one of 1.00013 (`C126_printed_counterexample`); `SRGB_DRV` does not.
* `linspace(_, _, 1)` and `lagrange_coefficients_astm_e2022(2, _)` give NaN (`C50_*`).
* `cct(NaN)` returns `Ok(NaN)` (`C36_ieee`).
* Multiplying a VSPD recomputes its shape, which may change it (`C62_shape_counterexample`).
* The shipped `SMITS_*` spectra report the end 720 nm although their last sample is at 719.0625 nm
  (`C84_end_counterexample`).

`seeded/LOG.jsonl` lists the wrong programs the theorems were tested against.
