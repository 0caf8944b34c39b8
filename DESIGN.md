# Formal model of chrisf1337/pbrtrs — design

Source of truth: `/repo` (Rust, read as text, never built or run here).
Model, specifications and proofs: Lean 4.33.0 (+ single Mathlib modules) in `/verif/lean/Verif`.
The properties are in `properties.jsonl`, the theorems that prove them in `MANIFEST.json`.

## Layout

| directory | contents |
|---|---|
| `Verif/Model` | the executable model, function by function, each definition citing file and lines of `/repo` |
| `Verif/Spec` | small specifications written without the model's helpers |
| `Verif/Proof` | helper lemmas |
| `Verif/Props` | the property theorems `Cnn_…`, each with an `example` of a concrete case |
| `Verif/Props/UnitTests` | the repository's own unit tests and its demonstration program, evaluated on the model |

| model | source |
|---|---|
| `Model/Basic` | outcomes (`ok`, `err`, `panic`, `diverge`) and state passing |
| `Model/Lexer` | `src/parser.rs` 6–34, 195–231, 242–520 (tokenizer) |
| `Model/Parser` | `src/parser.rs` 36–193, 213–261, 522–1362 (AST, parser) |
| `Model/Cost` | `src/parser.rs`: the functions of `Model/Lexer` and `Model/Parser` word for word, counting reads of characters and tokens |
| `Model/Depth` | the recursive functions of `src/parser.rs` with a limited number of open calls |
| `Model/Elem`, `Ints`, `Floats` | `src/core/mod.rs` (element types and free functions), `i64`, `f32`/`f64` |
| `Model/Vector` | `src/core/vector.rs`, `point.rs`, `normal.rs` |
| `Model/Bounds` | `src/core/boundingbox.rs` |
| `Model/Matrix` | `src/core/matrix.rs` |
| `Model/Transform` | `src/core/transform.rs`, `ray.rs`, `Vector3::transform` |
| `Model/Equality` | derived `PartialEq` of the geometric types |
| `Model/SceneEquality` | derived `PartialEq` of tokens and parse results; comparison of `PathBuf`s by their components (`std::path` on Unix) |

| specification | says |
|---|---|
| `Spec/Lexical` | rows and columns, lexemes, the lexical language `Lex` |
| `Spec/Scene` | grammar of accepted token sequences and their meaning |
| `Spec/Erase`, `Messages` | results without positions; what an error message should name |
| `Spec/Faults` | the texts outside the lexical language and the report each of them gets |
| `Spec/Reports` | the token lists that are no scene and the report each of them gets |
| `Spec/Moved` | changes of coordinates, axis by axis: adding, scaling, rounding; those that keep the order |
| `Spec/SceneEquality` | shape, floats and paths of a scene; when two spellings name the same path |
| `Spec/Prefix` | texts that break off inside a string |
| `Spec/ScaleTest` | transforms that keep lengths, or right angles |
| `Spec/FloatType` | two standard libraries that differ in their floats; related tokens, scenes and outcomes |
| `Spec/TwoPrecisions` | formulas in place of floats, and their values |
| `Spec/Scientific` | what is assumed of powers of ten |
| `Spec/Tables` | two versions of the Unicode tables; what all versions say about ASCII |
| `Spec/Printer` | the exact decimal text of a float; texts of tokens and scenes |
| `Spec/Format` | a text for a parse result, the shape of parse results |
| `Spec/Moderate` | floats of moderate size |
| `Spec/Zones` | which characters of a text stand in comments, in strings, or outside of both |
| `Spec/Whole` | exact arithmetic with whole numbers up to a limit, and what it means that coordinates are whole numbers |
| `Spec/Reorder` | the types of parameters, and lists of parameters that are the same for every type |
| `Spec/Reading` | assumption that the conversion messages of the standard library do not look like a position |
| `Spec/Edit` | which values may be replaced by which; a scene before and after |
| `Spec/Depth` | exponents in a row, tokens that open blocks, height of a directive |
| `Spec/Size` | how large a string, a parameter, a directive, a scene and a token are |
| `Spec/Mirror` | mirror images of numbers, points, vectors, boxes and matrices |
| `Spec/Relabel` | the same objects with the axes permuted |
| `Spec/Frame` | right-handed orthonormal frames of floats, up to rounding |
| `Spec/Numbers` | what `i64`, `f32` and `f64` compute |
| `Spec/Sphere` | boxes of floats as regions of real space; distance |
| `Spec/Units` | the same quantities in another unit of length; underflow |
| `Spec/FloatTransforms` | transforms of floats: translations, scales, stretch along an axis |
| `Spec/Conditioning` | matrices of floats as real matrices, condition, approximate inverses, rigid motions |
| `Spec/Equality` | what `==` should mean |
| `Spec/Writer` | scenes as a user writes them, their tokens, and the expected AST |
| `Spec/Reader`, `Contents` | vocabulary for reader positions and for the parts of an AST |
| `Spec/Geometry` | boxes as sets of points, one axis at a time |
| `Spec/Laws` | laws of element types; exact arithmetic |
| `Spec/FloatValue` | IEEE float types; the real number a float stands for |
| `Spec/Builds` | the same computation on another element type (overflow checks, exact integers) |
| `Spec/Literals` | the number a literal is written for, nearest floats, a correctly rounding library |
| `Spec/FloatText` | `{:?}` of floats: the shortest decimal that reads back |
| `Spec/Concrete`, `Samples` | concrete instances used only in examples and counterexamples |

## Modelling decisions

* **Tokenizer and parser.** State-passing functions over the state of the Rust structs
  (`chars`, `index`, `pos`, `prev_pos`; `tokens`, `index`). `Result` is data; a panic (failed index,
  failed assertion, overflow with checks on) is an explicit outcome. A loop is indexed by fuel and
  running out of fuel is a separate outcome, so termination is a theorem (C01), not an assumption.
* **std functions** that are not part of the repository are the fields of the parameter record
  `Env F`: the Unicode classes `is_numeric`, `is_alphabetic`, `is_alphanumeric`, `is_whitespace`,
  `str::parse::<Float>`, float `*`, `powf(10, _)`, `isize as Float`, `{:?}` of floats and strings,
  and the texts of conversion errors; also the float type `F` and the overflow mode. What theorems need
  of it is the hypothesis `Sane E` (ten facts about character classes, true of Unicode; `exEnv` is an
  instance). `str::parse::<isize>`, `isize::pow`, `*` on `isize`, `as u32`, `split_whitespace`,
  `replace("\r\n","\n")`, `chunks(2)` are modelled concretely (64-bit `isize`). `{:?}` of floats is also defined concretely, from the
  documented behaviour of the library (`Spec/FloatText`), and meets what theorems assume of the parameter (C125).
* **Overflow mode**: builds with overflow checks (panic) and without (wrap) are both modelled, in
  the tokenizer (`Env.overflowChecks`) and in the geometry (`I64 checks`).
* **Geometry** is generic over the element type like the Rust code. `Elem T` has the operations of
  the trait `ElemType`; arithmetic returns an `Outcome` because it can panic. Instances: `I64 checks`;
  `Float32.Model` and `Float.Model` (Lean core's logical models of IEEE binary32 and binary64); and
  `exactElem`, exact arithmetic in any linearly ordered field. A theorem is stated for the weakest
  laws it needs:
  `LawfulOrder` (order-only code: integers, floats with NaN, exact numbers),
  `ExactRing` (wrapping integers, exact numbers), ordered fields, ℝ (square roots),
  `IEEE` (every float type with correct rounding, i.e. both `f32` and `f64`).
* **Floats.** `Proof/Rounding` defines rounding to nearest even of real numbers; `Proof/FloatRound`,
  `FloatDiv`, `FloatVal`, `IEEE` prove that the operations of Lean core's float model are the exact
  operations followed by that rounding, for all operands, with overflow to infinity, subnormal
  numbers, signed zeros and NaN. Float theorems talk about `IsFinite x` and the real number `val x`.
* **Arrays** `[[T; 4]; 4]` are functions of two indices in `Fin 4`. `usize` counters are natural
  numbers. `PathBuf` is the string it is built from.

## Trusted base

* Lean's kernel. Axioms: at most `propext`, `Classical.choice`, `Quot.sound`. No `sorry`, no own
  axioms, no `native_decide`, no `bv_decide`, no `implemented_by`. The axioms of every theorem are
  listed at the end of this file.
* The reading of the Rust sources by the author of the model (the code is not run). As evidence, all 36
  unit tests of the repository are evaluated on the model by the kernel (`Props/UnitTests`), for
  `f32` and `f64`.
* `Env` stands for the Rust standard library. `Float32.Model`/`Float.Model` of Lean core stand for
  `f32`/`f64` (all NaNs identified); they are definitions, and their rounding is proved here.
* Not modelled: the size of the native stack (how many calls are open at once is: `Model/Depth`), memory, running time (the number of reads is: `Model/Cost`; a read that copies a long string counts as one),
  the text of a float in `Debug` output (the rest of `Debug` is: `Model/Debug`, `Model/DebugTree`), and `f32::powf`. `src/bin/pbrt.rs` prints one matrix inverse (`Model/Main`).

## Findings: where the code does not do what a user expects

Each is proved as a theorem about the model (the names are in brackets), together with what holds
instead.

Tokenizer
* An integer exponent that overflows panics in a debug build and silently wraps in a release build:
  `1e19` [`C09_overflow_panics`, `C09_overflow_wraps`]. The exponent is cut to 32 bits, so
  `1e4294967296` is the integer 1 [`C09_exponent_cut`]. `0e19` also panics (10^19 overflows).
* The exponent is itself a number literal, so `1e1e1` and `1e0.5` are literals [grammar `NumLit`].
* `1E5` is the integer 1 followed by the identifier `E5`.
* Comments, blanks between comments and exponents are read by recursion, so a file with enough comment lines
  in a row exhausts the stack; so do nested blocks [`C85_refuted`, `C85_comments`, `C85_exponents`,
  `C85_nested`]. What is needed is bounded by the text [`C85_text`].
* `\t` in a string is the letter `t`; only `\n` is special [`C06_literal`]. A CRLF inside a string
  becomes LF [`C03_crlf`].
* What is wrong inside of a parameter (a list with too few numbers, a misspelt type) is never explained: no
  message of `parse_param_list`, `parse_list`, `parse_int`, `parse_bool`, `parse_spectrum` reaches the user
  [`C112_hidden`, `C112_parameter_refuted`].
* Brackets are optional around a single integer, float, truth value or string, forbidden around a texture name
  or the file of a spectrum, and required for the other types [`C113_tokens`, `C113_elsewhere_refuted`].
* NaN can be lost: in the upper corner of a box by `expand` and by unions, in the argument of `min` and
  `max`; a bounding sphere around NaN has radius 0 [`C114_boxes_refuted`, `C114_unions`, `C114_sphere`].
* Boxes that reach infinity: the bounding sphere of the box of everything has the radius 0 [`C117_sphere_refuted`], an
  infinite column over a tiny square has no volume, flat infinite boxes have no surface area [`C117_volume_refuted`,
  `C117_flat`], `lerp` at 0 is not the lower corner [`C117_boxes_refuted`]. A ray along an axis has no point at its own
  `t_max` [`C117_ray_refuted`].
* Most scenes of pbrt-v3 are rejected: transformations inside the world, named materials, objects and media,
  `PixelFilter` (the code has `Filter`), parameters of the types `point`, `vector`, `normal`, `color`, and every
  `Transform` (nine numbers without brackets are read instead of sixteen in brackets) [`C118_refuted`].
* `1E5` is not a number but the number `1` and the word `E5`, and makes the parse fail [`C119_refuted`, `C119_letter`].
* The reasons why a parameter is malformed are composed and thrown away (parser.rs:563-566): the scene is refused with
  another message or accepted without the parameter; the messages for empty lists (parser.rs:709-713, 764-770) are never
  used [`C120_refuted`, `C120_empty`].
* `==` and `Debug` do not tell the same scenes apart: zeros of both signs and spellings of a path are equal but shown differently, and
  a scene with NaN is shown like itself but not equal to itself [`C121_equality_refuted`].
* The single precision float of a literal without exponent is a float nearest to the double precision one, but not always the one that a
  conversion (ties to even) gives: `1.0000000596046447753906251` is read as the `f32` above one, its `f64` converts to one (C122).
* `1.1e2` is not 110 in double precision and `1.2e2` is not 120 in single precision, although `11e1`, `110.0`, `12e1` and `120.0` are (C123).
* The program prints the inverse of a matrix whose last entry is the whole number -7; neither build prints the float -7 (C124).
* Very small and very large floats are shown with an exponent (by libraries since 2022), and the parser does not read such texts
  back: `3e-5` becomes another `f64`, `1e16` an integer, and `1e19` makes it panic if overflow is checked [`C125_exponent_refuted`];
  without the checks `1e70` is read as 0 [`C126_wrapped64`]. So the parser panics at a scene `Translate 1e19 0 0` [`C127_refuted`].
* Printing and parsing in turn can drift: from `7.521651023526171e146` (`f64`) every round goes to the float below, at least
  twenty times [`C127_drift_refuted`].
* The smallest `f64` is shown as `5e-324`, which the parser reads as zero, because the power of ten underflows; the largest `f32`
  is read as the one below it [`C126_refuted`]. Floats that are not tiny are read as finite floats that are off by a few
  units in the last place at most [`C126_point32`, `C126_point64`, `C126_small32`, `C126_small64`].
* A scene that breaks off inside of a point or a colour is not reported as incomplete; a number that is right
  is blamed [`C115_blame_refuted`]. Elsewhere the report is the end of the input or says what is missing
  [`C115_cut`].
* An accepted scene may have a first part that panics when it is read (in builds with overflow checks): `Scale 1e30`
  of `Scale 1e30.5 1 1 …` [`C116_panic_refuted`]. It may also be rejected inside of a number [`C116_number_refuted`].
  `Transform` is the one keyword that begins another one [`C116_keyword`].
* Messages about numbers that do not fit, and about a text that ends too early, do not say where
  [`C107_number_refuted`, `C107_end_refuted`]; all others name exactly one place [`C107_place`].

Parser
* **A nested block loses its later siblings.** The end token of a block is never consumed, so the
  first block end closes all enclosing blocks [`C16_complete_refuted`, `C15_tail_ignored`].
* Any of the three end keywords closes any block [`C26_matching_refuted`].
* A malformed parameter is swallowed when an identifier follows [`C19_malformed_refuted`].
* An `rgb`, `xyz` or `blackbody` list with too few numbers is reported at its first number, as a missing
  directive (examples in `Props/Messages`).
* `point3`, `vector3`, `normal` parameters are not recognised; their lists are never filled.
* A text can parse to a scene that is not equal to itself (a literal that is NaN), and different scenes can be
  equal (sign of zero, spelling of paths) [`C88_twice_refuted`, `C88_identical_refuted`].

Geometry
* `Bounds3::new` sorts its corners. So `new_inf` is the box of everything instead of the empty box
  [`C41_empty_refuted`], intersecting disjoint boxes gives the gap between them
  [`C39_disjoint_refuted`] and depends on the grouping [`C104_assoc_refuted`], and shrinking a box too far turns it inside out [`C44_shrink_inside_out`].
* `Bounds2Iter` never visits `p_min`, visits `p_max`, and restarts rows at `x = 0`
  [`C49_lower_corner_refuted`, `C49_outside_refuted`, `C108_half_open`]. To visit the pixels of an image of
  `w` times `h` pixels, iterate from `(-1, 0)` to `(w - 1, h - 1)` [`C108_grid`].
* `Vector2 / s` multiplies [`C52_div_refuted`].
* `coordinate_system` jumps: unit vectors on different sides of `|x| = |y|`, as near as one likes, have opposite
  second vectors [`C111_frame_refuted`]; on one side it does not [`C111_frame`].
* `Transform::scale` stores a wrong inverse for every choice of factors [`C34_scale_refuted`].
* `Bounds3<i64>::new_inf().offset(origin)` panics even in a release build
  [`C47_integer_offset_refuted`].
* With floats the point between two points of a box, as computed by `lerp`, may be outside the box
  [`C105_lerp_refuted`]; a ray never leaves a box and comes back [`C105_float_between`].
* The transpose of the inverse transforms normals correctly for exact numbers, also after `scale`
  [`C106_built`], but not for `new_` of a matrix with another last row than `0 0 0 w`
  [`C106_projective_refuted`] and not exactly with floats [`C106_float_refuted`, `C106_float_scale`].
* NaN in the first component makes `pmin`/`pmax` NaN, elsewhere it is skipped [`C59_pmin`].
* `has_scale` looks at the three unit vectors only: a transform without scale may shorten other vectors by any
  factor [`C91_no_scale_refuted`], and its inverse may have scale [`C91_inverse_refuted`].
* With a NaN component `max_dimension` may name an axis that is not the longest [`C46_nan_refuted`].
* The float read with `f32` is not always the one nearest to the float read with `f64`: `9e-1` [`C92_rounding_refuted`].
* A character that is numeric in one version of Unicode only changes what is a token: `a٣` [`C97_characters_refuted`].
* A character that is white space in one version of Unicode only (U+180E, before 6.3) separates a type from a name: the declaration `"float᠎r"` is accepted by one and rejected by the other [`C101_white_refuted`].
* Eight significant digits do not identify an `f32` (`1000.0001`), sixteen not an `f64` (`5.000000000000004`) [`C98_digits_refuted`].
* The laws of inverse matrices fail with floats: inverting twice, products, and the inverse of a symmetric matrix,
  which need not be symmetric [`C93_twice_refuted`, `C93_product_refuted`, `C93_symmetric_refuted`].
* `lerp` with a weight in `[0, 1]` never overflows [`C94_finite`], but a larger weight may give a smaller
  result between `a <= b`, and with a weight outside `[0, 1]` the result between two equal ends may be NaN
  [`C94_weight_refuted`, `C94_outside_refuted`].
* `v / v.len()` of a very short vector is infinite or NaN, of a very long one zero; its length need not be 1
  [`C95_short_refuted`, `C95_long_refuted`, `C95_exact_refuted`].

Floats
* `Matrix4::inverse` of a singular float matrix may return a matrix that is no inverse
  [`C31_float_rounding`]; its first panic is reachable, with NaN [`C31_float_first_panic`].
* `Transform::new_` of a translation matrix computes a wrong inverse, already for the translation by
  `(3, 5, 7)` [`C73_translation_refuted`]. A singular matrix of small integers is accepted, a regular
  matrix is rejected, a regular matrix of large floats gives NaN [`C73_singular_refuted`,
  `C73_regular_refuted`, `C73_overflow_refuted`].
* `scale_differentials(1)` can change a ray [`C57_float_one_refuted`].
* `lerp(t, a, b)` with `t` in [0, 1] may leave the interval, even for `a = b`
  [`C58_float_between_refuted`].
* The length of a non-zero vector may be 0 and that of a finite vector infinite
  [`C67_float_range_refuted`].
* An exponent literal is computed as mantissa times power of ten, so it need not be the nearest
  float: `3e-1` is not `0.3` in `f64`, `9e-1` is not `0.9` in `f32` [`C70_exponent_refuted`].
* The volume of a finite box may be NaN [`C45_float_volume_nan`]; `offset` of a corner may be NaN
  when a side overflows [`C47_float_overflow`]; expanding an infinite box by infinity gives NaN
  [`C44_float_infinite`].
* Mirroring a scene mirrors the results [`C74_*`], except that a point on a face is in one of a box and
  its mirror image for `inside_exclusive` [`C74_half_open_refuted`], the radius of the bounding sphere
  is measured to the upper corner only [`C74_sphere_refuted`], and boxes with NaN corners depend on
  argument order [`C74_nan_refuted`]. The length of a vector depends on the order of its coordinates
  [`C74_permute_refuted`]; what else depends on the order of the axes is listed by `C84_refuted`.
* `coordinate_system` of a short non-zero vector is not finite, that of a long vector is zero
  [`C75_short_refuted`, `C75_long_refuted`]; near unit length it is accurate [`C75_frame_f32`].
* `bounding_sphere` on floats can miss a corner of the box by rounding [`C76_small_refuted`], and has
  radius 0 when the centre of a finite box overflows [`C76_overflow_refuted`]; otherwise it contains the
  box up to a stated error [`C76_contains_f32`], in particular if no coordinate exceeds 2^61 [`C76_range_f32`].
* `has_scale` is false for a scale by NaN and for two infinite entries in a row [`C78_has_scale_refuted`].
  An infinite component makes the others NaN under any transform [`C78_infinite_refuted`], `scale` by zero
  stores an infinite inverse [`C78_scale_zero_refuted`], and scaling by 7 and back turns 3 into the next
  float [`C78_round_trip_refuted`].
* `Matrix4::inverse` depends on the unit of length: it pivots on the largest entry of the matrix, which may
  be the translation in one unit and not in another, and rounds differently [`C79_inverse_refuted`]; an
  elimination that underflows makes it panic in one unit only [`C79_singular_refuted`].
* The failures of `inverse` on floats are confined to matrices that are nearly singular or near the ends of
  the range: otherwise it returns the inverse up to a stated error [`C80_inverse_f32`, `C80_rigid_f32`].
* The stored inverse of a projective transform does not take vectors back [`C81_projective_refuted`]; rotating a
  finite vector can overflow [`C81_overflow_refuted`].
* In a thin box far from the origin a relative position does not survive `lerp` and `offset`: 1/2 comes
  back as 0 [`C83_exact_refuted`].
* Zero with a large exponent is read as NaN (`0.0e39` with `f32`) [`C70_zero_refuted`].
* Moving a whole scene can change the answers: a point outside a box comes to lie on it, and with wrapping
  integers boxes turn inside out [`C87_float_refuted`, `C87_wrap_refuted`].

## How the properties are proved

| id | proof |
|---|---|
| C01 | fuel never runs out: the measure is the remaining input |
| C02 | every panic branch excluded; in checked mode only the exponent branch remains |
| C03 | `replace` on `List Char`, by induction |
| C04, C10, C11 | grammar `Lex` refined in both directions by symbolic execution |
| C05–C09, C12, C13 | consequences of the refinement |
| C14–C19, C25–C27, C29 | grammar of scenes refined in both directions; writer; counterexamples |
| C20–C24, C28 | specification of each reader by induction on the token list |
| C30, C31 | invariant of in-place Gauss–Jordan; panic ⇔ determinant 0 |
| C32 | translation to Mathlib's `Matrix (Fin 4) (Fin 4) R` |
| C33–C36 | transform algebra; induction over the constructors |
| C37–C43, C46, C59 | order-only lemmas |
| C44, C45, C47, C48, C50–C58 | ordered-field and real algebra; rounding lemmas for floats |
| C49 | closed form of the visited list by induction |
| C60 | rounding lemmas |
| C65, C66 | component-wise unfolding; floor and ceil of the unpacked float compared with the real floor |
| C67 | `EuclideanSpace`; monotonicity of rounding |
| C68 | simulation `Sim` between element types, followed through every function; interval bounds |
| C69 | forward error analysis with the structure `Within` (`Proof/FloatErr`) |
| C70 | `NumLit` (tokenizer spec) with a library that rounds correctly (`Rounds`, instance `ieeeEnv`); `RN` is nearest among `p`-bit numbers (`Proof/Nearest`) |
| C71 | every fault of the specification is executed; every text has lexemes or a fault, so nothing else is reported |
| C72 | every fault of the specification is executed; behind every keyword there are its arguments or a fault, so a run that ends in a message meets a fault; cut-off parameters are skipped as far as the specification's longest prefix of parameters reaches |
| C73 | invariants of the elimination loop on floats: for one entry per row and column only zeros are subtracted; for small translations the pivots run from the last to the first and nothing is rounded (`Proof/Inversion`) |
| C74 | the relation "equal up to the sign and the sign of zeros, or both NaN" is kept by every IEEE operation; the elimination loop makes the same choices on both matrices (`Proof/Mirror`) |
| C75 | forward error analysis, with the two branches as one computation in a plane (`Proof/Frame`) |
| C76 | rounding is monotonic and keeps doubles, so the centre stays between the corners; error analysis of the radius (`Proof/Sphere`) |
| C77 | bit-vector lemmas of Lean core; the rounding lemmas of `Proof/IEEE`; instances of the laws |
| C78 | adding zeros changes nothing but the sign of a zero; the error of `len_sq` (C69) against the exact thresholds of `not_one` |
| C79 | rounding commutes with powers of two, for numbers that do not underflow and for all sums of floats; then operation by operation |
| C80 | rounding error analysis of the elimination with full pivoting: the defect of the solved equations is passed on by a step, and the bounds on entries, multipliers and defect grow by fixed tables over the four steps (`Proof/Stability`) |
| C81 | residual of C80 and the errors of two products (C69), in real arithmetic |
| C82 | laws of the order; congruence is C74 with no axis mirrored |
| C83 | relative errors of the two differences and the quotient (`quotient_error`); C69 for `lerp`; C47 keeps the offset in `[0, 1]` |
| C84 | component-wise characterisations (C65 and others) reindexed; sums reindexed; the six permutations for cross, area and volume; errors of C69 |
| C85 | simulation of the functions with limited room by those without, by induction on fuel; comments, exponents and blocks still ahead bound the open calls |
| C86 | the descriptions of faults (C71, C72) are closed under longer texts and longer token lists, by induction on the description |
| C87 | minimum and maximum commute with order-keeping maps up to `==`; rounding to nearest is monotone on the extended reals; ring identities for exact arithmetic |
| C89 | a counted function simulates the model's; amortized bounds with constants that may be negative, by recursion over the functions |
| C90 | induction over the grammar of lexemes and of scenes: every rule's result is no larger than its tokens or characters |
| C91 | the squared length of an image is a quadratic form whose diagonal `has_scale` looks at; Cauchy-Schwarz; unit columns that are nearly parallel |
| C92 | a relation between the two runs that every tokenizer and parser function keeps: same state, related tokens, related outcomes |
| C93 | `inverse a = b` iff the product of the Mathlib matrices is 1 (C30, C31); determinants for the panics; float matrices with a non-symmetric inverse |
| C94 | a weight times the largest float, rounded, loses a unit in the last place, which makes up for the rounding of `1 - t` (`Proof/NoOverflow`); monotone rounding for the order |
| C95 | the error bound of `len` (C69) and of one division; finiteness from bounds on the squares; C75 for the frame |
| C96 | the parser run on both token lists at once: related states, related outcomes, as for C92, with a relation for every kind of value |
| C97 | the walk of C92, with a set of characters that the text, the state and the strings of the tokens stay in |
| C98 | the decimal expansion of `m 2^e`; two floats that differ, differ by at least the last of `p` bits (`val_gap`); C17 for scenes |
| C99 | the shape of results by induction on the grammar; the scene written for a result meets the hypotheses of C98 and is placed as the result |
| C100 | every operation enlarges a bound by a factor and a constant; the bounds of all formulas stay below half of the range |
| C101 | simultaneous run of both tokenizers from the same state; invariant: the characters still to be read are known at the place where they stand |
| C102 | a whole number of at most `p` bits is its own rounding, so the types share the laws `WholeArith`; every formula is evaluated with these laws, step by step with bounds |
| C103 | parameters at the start of a list are read first whatever follows, and what is stored depends on the list of each type only; the reordered part lies within one directive, because it ends before the next keyword, so induction on the grammar carries the exchange through headers, nested blocks and unfinished texts |
| C104 | three intervals any two of which meet have a common point, so the common part of two boxes still overlaps a third one; the rest is the order of the least and greatest corners, where minimum and maximum distribute |
| C105 | multiplying by the fixed direction and adding the fixed origin are monotone before rounding, and rounding is monotone; between two parameters at which a coordinate is a number it cannot be NaN, as infinity can appear at the ends only |
| C106 | `transform` is multiplication with the 3x3 part, so a dot product moves it across as its transpose; the adjugate is the determinant times the inverse, which gives cross products; a last row `0 0 0 w` makes the last row of the inverse `0 0 0 1/w`, so that the 3x3 parts are inverse to each other |
| C107 | the digits of row and column end at the comma and at the parenthesis, so a position cancels from both sides of an equation of messages; what is left is compared word by word with all other messages of the specifications of C71 and C72; positions of prefixes of a text are strictly ordered |
| C108 | the closed form of C49 is counted, and sorted by rows; after a point the iterator holds nothing but this point and the upper corner |
| C109 | per axis, hull and common part (or gap) of two intervals satisfy an inequality that is closed under products; the rest is algebra, and the inequality between arithmetic and geometric mean of the areas of the faces |
| C110 | the identities by `ring` on the components; the columns of a matrix with orthonormal rows are orthonormal (`mul_eq_one_comm`) |
| C111 | minimum and maximum move by no more than their arguments; norms of Euclidean space; `A⁻¹ - B⁻¹ = A⁻¹ (B - A) B⁻¹`; the two cases of `coordinate_system` as unit vectors of a projected vector |
| C112 | escapes form a prefix code; the words of all messages differ within 24 characters; C72, C107 |
| C113 | both spellings denote the same parameter, so C103 applies; every rule of the grammar is closed under replacing floats by integers |
| C114 | NaN of each rounded operation characterised once; spread through the definitions by a tactic; elimination steps of the inverse keep a NaN entry |
| C115 | every rule of the grammar is cut anywhere: what is left is a text of the same rule or one of five kinds of breaks; those are faults by C72 |
| C116 | two readings of a text and of its first part agree token by token until the last one, where the lexeme is a word or a number that goes on; what a shorter word does follows from C115 and the list of keywords |
| C117 | extended reals: where an operation is not NaN it is the rounding of the operation on extended reals; a difference of different floats is never zero |
| C118 | the lists of the format against the grammar; `C72_error` for what is reported |
| C119 | the lexical grammar: a lexeme depends on the next character only; `tokenize_lexTo_ok`, `C62_tokens`, `C27_accepted` |
| C120 | every private reader either reads its grammar or gives the reason of a small fault grammar (`Says`): soundness and exhaustion, one reader at a time; uniqueness because the reader is a function |
| C121 | what a derived `fmt` hands to the builders is a tree; both forms are one renderer with two layouts (`PadAdapter` shifts a text one level deeper), which is read back by cutting off the first word; trees of values are well-formed and injective, type by type |
| C122 | parsing with formulas for floats is one of the libraries of C92, related to every other by `Value`; the point half way between neighbours of the narrow format is a number of the wide one, so rounding to the wide format does not cross it |
| C123 | both factors are exact, so the product is rounded once; the powers of ten of `ieeeEnv` are evaluated one by one |
| C124 | the inverse is evaluated by the kernel and compared with fractions; the text is that of C121 |
| C125 | rounding is monotone, so if any multiple of a power of ten reads as the float, so does one of the two around it; the search therefore stops at the highest place; the texts of the program are evaluated by the kernel |
| C126 | the number shown rounds to the float (C125) and what is read is within three roundings of the number shown (C70); a digit times a power of ten up to `10^18` fits into 64 bits, and from `10^19` on it does not |
| C127 | the tokens read and the tokens meant differ in the floats only, and related tokens are parsed as related scenes (the relation is that of C92, within one library) |
| C88 | combinators for derived comparisons, by structural recursion over scenes; paths are rewritten to a shortest spelling that the components determine |
| C61–C64 | consequences of the scene grammar; erasing positions by induction on the grammar; every error branch followed by symbolic execution |

## Mutation testing

`seeded/LOG.jsonl` has one line per edited model: the definition, the edit, the claim it breaks, the
theorems that no longer prove, and the theorems that were tightened.

The edits are slips a programmer could make: a comparison turned round or made strict, two
components or arguments exchanged, a forgotten case, a position taken one step too late, a message
of another place, a list extended at the wrong end, a missing panic, a repaired defect.  Each one is
made in a copy outside of this directory and everything is built again.  Where a proof breaks, it is
replaced by a hole in the copy and the build goes on to the next one; `first_declarations_rejected`
lists the declarations whose own proofs broke, `theorems_failed` all theorems of the manifest that
then depend on a hole.  (So a theorem can be in that list because a lemma it uses has to be proved
in another way; the theorems not in the list are really proved of the edited program.)

Limits of this log:

* The `properties` of 19 lines were changed after the run, to properties whose theorems had failed:
  G11, G14, G18, G19, G21, G23, G30, G31, G32, G35, G36, G45, G46, G47, G48, G52, G53, G55, X02.
  They do not show that the property first named for the edit catches it.  X02 was first put under
  C72; a second run of it (X02b) got stuck after rejecting two examples and has no line.
* Edits without a line: L27 and G94 (the edited model did not compile), W05 and W06 (the runs were
  cut off).  Other edits that had been listed (Y16 to Y77 and part of an older list) were never
  run.

What the survivors led to:

* the words and the places of error messages were not stated at first: C71 (tokenizer) and C72
  (parser) say exactly which message is given for which text;
* comparisons, rounding, the least value of the number types were used but not stated: C77;
* that vectors, points and normals act on every axis (not only on the one of an example): C65;
* equality of parse results and of vectors was not modelled: C82, C88.

## Axioms of each theorem

As printed by `#print axioms` for every theorem of `MANIFEST.json`.

* none (6): `C50_len_sq_vector`, `C50_len_sq_normal`, `C53_permute_id_vector`, `C53_permute_id_normal`, `C56_infinite`, `C57_new`.
* `propext` (11): `C27_shared`, `C28_tokens`, `C32_index`, `C47_integer_offset_refuted`, `C50_wrapping_len_sq`, `C52_div_zero`, `C68_release`, `C87_rounding`, `C104_assoc_refuted`, `C104_distribute_refuted`, `C122_exponents`.
* `Quot.sound`, `propext` (59): `C24_int_as_float`, `C24_float_not_int`, `C35_translate`, `C35_linear`, `C46_same_axis`, `C49_fused`, `C50_dot_symm_vector`, `C50_dot_add_vector`, `C50_dot_scale_vector`, `C50_cross_antisymm_vector`, `C50_cross_add_vector`, `C50_cross_scale_vector`, `C50_cross_orthogonal_vector`, `C50_lagrange_vector`, `C50_dot_symm_normal`, `C50_dot_add_normal`, `C50_dot_scale_normal`, `C50_cross_antisymm_normal`, `C50_cross_add_normal`, `C50_cross_scale_normal`, `C50_cross_orthogonal_normal`, `C50_lagrange_normal`, `C54_sub_add`, `C54_add_sub`, `C54_add_assoc`, `C54_sub_neg`, `C54_cancel`, `C56_at_zero`, `C56_at_add`, `C56_at_one`, `C57_one`, `C57_zero`, `C57_twice`, `C58_lerp_ends`, `C59_empty`, `C65_point2`, `C68_vector`, `C68_normal`, `C68_point`, `C68_box`, `C68_iter`, `C82_laws`, `C82_integers`, `C85_comments`, `C87_differences`, `C88_tokens`, `C89_characters`, `C108_resume`, `C108_rest`, `C110_triple_vector`, `C110_triple_normal`, `C110_jacobi_vector`, `C110_jacobi_normal`, `C110_rotate_vector`, `C110_rotate_normal`, `C110_four_vector`, `C110_four_normal`, `C119_ends`, `C122_same_formulas`.
* `propext`, `Classical.choice`, `Quot.sound`: all the other theorems (935).
