{"id": "C01", "title": "Parsing terminates on every text", "statement": "Parser::parse returns (Ok, Err or, for overflowing literals, a panic) after finitely many steps on every input text; no loop or recursion in the tokenizer or the parser can run forever, and the number of iterations is bounded by the length of the text.", "quantifier": "every finite input string, every build mode", "why_tests_cant": "termination ranges over all strings; a test only shows that the sampled strings finish", "anchors": ["src/parser.rs: Tokenizer::tokenize, tokenize_one, tokenize_num, tokenize_str, tokenize_id, Parser::parse_many, parse_directives, parse_predirectives, parse_param_lists, parse"]}
{"id": "C02", "title": "Parsing never panics except on overflowing integer exponents", "statement": "With overflow checks off, Parser::parse never panics on any text. With overflow checks on, it can panic only if the text contains a number literal with an exponent part (m e k) for which 10^k or m*10^k does not fit in isize; in particular a text without the letter e never makes it panic. No indexing expression or assertion of the parser can fail.", "quantifier": "every input string, both overflow-check modes", "why_tests_cant": "absence of panics must hold on all inputs; fuzzing only samples", "anchors": ["src/parser.rs: Tokenizer::tokenize_num, Parser::peek, next, parse_n, parse_spectrum, parse_param_list, parse_predirective, parse"]}
{"id": "C03", "title": "CRLF and LF texts parse identically", "statement": "Replacing every line feed of a text (one that contains no CRLF already) by CRLF changes nothing in the result of Parser::parse: same directives, same positions, same error.", "quantifier": "every input string without CRLF", "why_tests_cant": "ranges over all texts and all placements of line ends, including inside strings and comments", "anchors": ["src/parser.rs: Tokenizer::new"]}
{"id": "C04", "title": "Token positions are exact", "statement": "Every token the tokenizer returns carries the 1-based row and column of its first character in the (CRLF-normalised) text: row = 1 + number of line feeds before it, column = 1 + number of characters since the last line feed; and the tokens come in strictly increasing text order.", "quantifier": "every input string that tokenizes, every token of the result", "why_tests_cant": "positions depend on the whole history of characters consumed (comments, strings with line feeds, escapes)", "anchors": ["src/parser.rs: Tokenizer::next, tokenize_one, tokenize_num, tokenize_str, tokenize_id"]}
{"id": "C05", "title": "Whitespace and comments between tokens are insignificant", "statement": "The sequence of token values produced from a sequence of lexemes does not depend on which separators (any mix of whitespace and #-comments ended by a line feed) stand between them, and comments may contain any characters except a line feed.", "quantifier": "every list of lexemes and every choice of separators", "why_tests_cant": "infinitely many separators and comment bodies", "anchors": ["src/parser.rs: Tokenizer::tokenize_one"]}
{"id": "C06", "title": "String literals round-trip", "statement": "For every string s, quoting it (backslash before double quote and backslash, \\n for a line feed) and tokenizing gives exactly one string token holding s. In a literal, \\n denotes a line feed and a backslash before any other character denotes that character.", "quantifier": "every string (any Unicode content)", "why_tests_cant": "all string contents, including quotes, backslashes, line feeds and '#'", "anchors": ["src/parser.rs: Tokenizer::tokenize_str"]}
{"id": "C07", "title": "Unterminated strings are rejected", "statement": "A text whose last string literal is not closed never tokenizes: the tokenizer reports an error whatever the contents of the string.", "quantifier": "every well-formed prefix and every unterminated string body", "why_tests_cant": "infinitely many bodies, including ones that end in an escape", "anchors": ["src/parser.rs: Tokenizer::tokenize_str, tokenize"]}
{"id": "C08", "title": "Integer literals are exact or rejected", "statement": "For every integer i in the isize range the decimal text of i (optionally with a leading + when it is not negative, and with leading zeros) tokenizes to the integer token i; the decimal text of any integer outside the range is an error, never a wrapped value.", "quantifier": "every integer, every number of leading zeros", "why_tests_cant": "2^64 values and unboundedly many out-of-range ones", "anchors": ["src/parser.rs: Tokenizer::tokenize_num"]}
{"id": "C09", "title": "Integer literals with a non-negative integer exponent", "statement": "A literal m e k with integer m and integer k >= 0 denotes the integer m*10^k whenever k < 2^32, and m, 10^k and m*10^k fit in isize. (When they do not fit, a build with overflow checks panics and a build without them silently yields another number.)", "quantifier": "every m and k", "why_tests_cant": "all pairs (m, k), including the boundary of the isize range", "anchors": ["src/parser.rs: Tokenizer::tokenize_num"]}
{"id": "C10", "title": "Decimal literals denote the value of their digits", "statement": "A literal with a decimal point is a float token whose value is exactly what the standard float parser gives for the literal without its leading +; a float or negative exponent multiplies the value of the mantissa by ten to that power; a second decimal point is an error; a literal without digits is an error.", "quantifier": "every number literal", "why_tests_cant": "all literals, all exponents (exponents may themselves have exponents)", "anchors": ["src/parser.rs: Tokenizer::tokenize_num"]}
{"id": "C11", "title": "The tokenizer accepts exactly the lexical grammar", "statement": "A text tokenizes to a token list if and only if it is a sequence of separators and lexemes of the lexical grammar (brackets, identifiers, strings, numbers, each read with longest match) with those values and positions. So tokenization is deterministic, loses nothing, and rejects every text outside the grammar.", "quantifier": "every input string and every token list", "why_tests_cant": "an equivalence with a grammar ranges over all texts", "anchors": ["src/parser.rs: Tokenizer::tokenize, tokenize_one, tokenize_num, tokenize_str, tokenize_id"]}
{"id": "C12", "title": "Tokenizing is compositional at line boundaries", "statement": "If text a tokenizes, then a followed by a line feed and b tokenizes to the tokens of a followed by the tokens of b with their rows shifted by the number of lines of a; if b does not tokenize neither does the whole.", "quantifier": "every pair of texts a, b", "why_tests_cant": "all pairs of texts; no state (open comment, open string) may leak across the boundary", "anchors": ["src/parser.rs: Tokenizer::tokenize"]}
{"id": "C13", "title": "Tokenizer errors carry a real position", "statement": "Every tokenizer error that starts with a position (all except number conversion errors) names a row and column that exist in the text: the position of some character of the text or the position just after its last character.", "quantifier": "every input string that does not tokenize", "why_tests_cant": "all erroneous texts", "anchors": ["src/parser.rs: Tokenizer::tokenize_one, tokenize_num, tokenize_str"]}
{"id": "C14", "title": "A successful parse is a World block preceded by pre-world directives", "statement": "If Parser::parse succeeds, its second component is a World block whose position is that of the first WorldBegin keyword reached, and everything before that keyword was consumed by the pre-world directives returned in text order. A text with no WorldBegin identifier is always an error.", "quantifier": "every input string", "why_tests_cant": "all texts", "anchors": ["src/parser.rs: Parser::parse, parse_predirectives, parse_directive"]}
{"id": "C15", "title": "Text after the first block end is never looked at by the parser", "statement": "Once the tokens up to and including the first AttributeEnd, TransformEnd or WorldEnd identifier after WorldBegin have been read successfully, the result of parsing does not depend on any later token. (This is how the code behaves: it stops at the first block end.)", "quantifier": "every accepted token sequence and every continuation", "why_tests_cant": "all continuations", "anchors": ["src/parser.rs: Parser::parse_directives, parse"]}
{"id": "C16", "title": "World contents are complete (siblings after a nested block are kept)", "statement": "A user expects the World block to contain every directive up to its own WorldEnd. The code violates this: a nested block's end token is not consumed, so all enclosing blocks end at the first block end and later siblings are silently lost. What holds: the parse of a rendered scene is that scene with, in every block, everything after its first nested block removed; so a scene where a nested block is always the last child is returned complete.", "quantifier": "every scene (any nesting depth, any number of directives and parameters)", "why_tests_cant": "all nesting shapes; the existing tests only use shapes where the defect is invisible", "anchors": ["src/parser.rs: Parser::parse_directives, parse_directive"]}
{"id": "C17", "title": "Rendering a scene and parsing it back gives the scene", "statement": "For every scene whose nested blocks come last in their parents, writing it as pbrt text with any legal separators and passing it to Parser::parse returns exactly that scene: every directive, type, name, parameter and value, in order, with the positions of the written tokens.", "quantifier": "every scene of the language, every choice of separators", "why_tests_cant": "unbounded scenes; composition of the lexer and the parser", "anchors": ["src/parser.rs: Parser::parse"]}
{"id": "C18", "title": "Well-formed parameters are recorded faithfully", "statement": "Parsing a sequence of well-formed parameters after a directive records each in the list of its declared type (integer, float, point2, vector2, bool, string, rgb/xyz/spectrum/blackbody, texture), with its name, the position of its declaration and its values in order; parameters of one type keep their text order and the lists of other types are untouched.", "quantifier": "every sequence of well-formed parameters of any length", "why_tests_cant": "all sequences and all value lists", "anchors": ["src/parser.rs: Parser::parse_param_lists, parse_param_list"]}
{"id": "C19", "title": "Malformed parameters are reported", "statement": "A user expects a malformed parameter to make the parse fail. The code violates this: a parameter error is swallowed, and if the reader stopped just before an identifier the directive is accepted without the parameter. What holds: the parse of the enclosing block fails whenever the reader stops in front of a token that is not an identifier, in particular for every parameter of unknown type or with a declaration that is not two words.", "quantifier": "every parameter list", "why_tests_cant": "all ways a parameter can be malformed", "anchors": ["src/parser.rs: Parser::parse_param_lists, parse_param_list"]}
{"id": "C20", "title": "Transform directives have exact arity", "statement": "Translate and Scale accept exactly 3 numbers, Rotate 4, LookAt, Transform and ConcatTransform 9, TransformTimes 2: with exactly that many numbers before the next non-number the directive is returned with the numbers in order (row by row for matrices), and with any other count the parse fails.", "quantifier": "every run of numbers of any length after the keyword", "why_tests_cant": "all counts and all values", "anchors": ["src/parser.rs: Parser::parse_predirective, parse_floats, parse_many"]}
{"id": "C21", "title": "Bracketed lists are read completely and never empty", "statement": "Reading a bracketed list of values of one type returns exactly the values between the brackets, in order, when all of them have the type and there is at least one, and fails otherwise (empty list, element of another type, missing closing bracket, missing opening bracket).", "quantifier": "every list of values, every element type", "why_tests_cant": "all lengths and all positions of an ill-typed element", "anchors": ["src/parser.rs: Parser::parse_list, parse_one_or_list, parse_many"]}
{"id": "C22", "title": "Point and vector lists are read in pairs", "statement": "A bracketed point2/vector2 list of 2n numbers (n > 0) gives n points, the i-th made of numbers 2i and 2i+1; an odd count or zero numbers fails.", "quantifier": "every list of numbers", "why_tests_cant": "all lengths; involves backtracking of a half-read pair", "anchors": ["src/parser.rs: Parser::parse_point2f, parse_vector2f, parse_n, parse_list"]}
{"id": "C23", "title": "Sampled spectra are read in pairs", "statement": "A bracketed spectrum list of 2n numbers (n > 0) gives n (wavelength, value) pairs in order; an odd count is an error; a string gives a file spectrum; rgb and xyz need exactly 3 numbers and blackbody exactly 2.", "quantifier": "every list of numbers", "why_tests_cant": "all lengths", "anchors": ["src/parser.rs: Parser::parse_spectrum, parse_list_of_n"]}
{"id": "C24", "title": "Integers are accepted as floats but not conversely", "statement": "Wherever a float is expected an integer token is accepted and converted; where an integer is expected a float token is an error. A parameter declared integer therefore never contains a value that was written with a decimal point or a negative exponent.", "quantifier": "every token sequence", "why_tests_cant": "all values", "anchors": ["src/parser.rs: Parser::parse_float, parse_int"]}
{"id": "C25", "title": "Nothing is invented", "statement": "Every keyword position, name, string and number in the result of Parser::parse comes from a token of the text: strings are string tokens (or the two words of one), numbers are number tokens (converted to float where a float is expected), positions are token positions, and directives appear in strictly increasing text order.", "quantifier": "every accepted text", "why_tests_cant": "all texts; a provenance property of the whole result", "anchors": ["src/parser.rs: Parser::parse"]}
{"id": "C26", "title": "Block ends match block begins", "statement": "A user expects AttributeBegin to be closed by AttributeEnd only, TransformBegin by TransformEnd and WorldBegin by WorldEnd. The code violates this: any of the three end keywords closes every open block. What holds: the result is independent of which end keyword is used.", "quantifier": "every scene and every choice of end keywords", "why_tests_cant": "all nesting shapes", "anchors": ["src/parser.rs: Parser::parse_directives"]}
{"id": "C27", "title": "Unknown directives are rejected", "statement": "Before WorldBegin any identifier outside the list of pre-world directives, and inside a block any identifier that is not a world directive or a block end, makes the parse fail; the two keyword sets share only Include (and the name Transform is only valid before WorldBegin).", "quantifier": "every identifier (all strings) at every position where a directive is expected", "why_tests_cant": "infinitely many identifiers and contexts", "anchors": ["src/parser.rs: Parser::parse_directive, parse_predirective"]}
{"id": "C28", "title": "A failed fixed-size read does not move the reader", "statement": "Reading exactly n values either consumes exactly those n tokens or fails and leaves the reader where it was.", "quantifier": "every n > 0, every parser state", "why_tests_cant": "all states", "anchors": ["src/parser.rs: Parser::parse_n"]}
{"id": "C29", "title": "Premature end of text is reported as Eof or as an error, never as success", "statement": "Cutting an accepted token sequence anywhere before its first block end makes the parse fail; and the parse returns the plain end-of-input error exactly when the text ends where a directive or a block end was expected.", "quantifier": "every accepted token sequence and every cut point", "why_tests_cant": "all cut points of all texts", "anchors": ["src/parser.rs: Parser::parse_directives, parse_predirectives, pos, peek"]}
{"id": "C30", "title": "Matrix inverse is correct", "statement": "Whenever Matrix4::inverse returns, the returned matrix times the input and the input times the returned matrix are the identity (in exact arithmetic, i.e. up to float rounding).", "quantifier": "every 4x4 matrix", "why_tests_cant": "all matrices and all pivot orders of the elimination", "anchors": ["src/core/matrix.rs: Matrix4::inverse, mat4swap, to_mat4f"]}
{"id": "C31", "title": "Matrix inverse panics exactly on singular matrices", "statement": "In exact arithmetic Matrix4::inverse panics if and only if the determinant is zero, and then always with the second message (zero pivot); the first panic (pivot used twice) is unreachable.", "quantifier": "every 4x4 matrix", "why_tests_cant": "all matrices", "anchors": ["src/core/matrix.rs: Matrix4::inverse"]}
{"id": "C32", "title": "Matrix multiplication, addition and transposition satisfy the matrix laws", "statement": "Matrix4 multiplication is associative, has the identity matrix as unit, distributes over addition; addition is commutative and associative; transposing twice is the identity and (AB)^T = B^T A^T. The i64 instance satisfies them even when arithmetic wraps.", "quantifier": "all triples of matrices, any commutative ring of elements", "why_tests_cant": "all matrices", "anchors": ["src/core/matrix.rs: Mul, Add, transpose, Index"]}
{"id": "C33", "title": "A Transform's stored inverse stays the inverse", "statement": "Transforms built by new_ (for an invertible matrix), translate, inverse and transpose from consistent ones always satisfy m * m_inv = m_inv * m = identity; inverting twice gives back the transform.", "quantifier": "every sequence of these constructors", "why_tests_cant": "all histories of constructor calls", "anchors": ["src/core/transform.rs: Transform::new_, inverse, transpose, translate"]}
{"id": "C34", "title": "Scale transforms carry the right inverse", "statement": "A user expects Transform::scale(x,y,z) with non-zero factors to be consistent (m * m_inv = identity). The code violates this for every choice of non-zero factors, because the last row of m_inv holds z. What holds: on vectors, applying scale and then its inverse is the identity.", "quantifier": "all non-zero factors", "why_tests_cant": "all factors", "anchors": ["src/core/transform.rs: Transform::scale", "src/core/vector.rs: Vector3::transform"]}
{"id": "C35", "title": "Vectors transform linearly and ignore translation", "statement": "Vector3::transform is linear, is not affected by the translation part, and transforming by the product of two matrices with affine bottom rows is transforming twice.", "quantifier": "all vectors, transforms, scalars", "why_tests_cant": "all inputs", "anchors": ["src/core/vector.rs: Vector3::transform", "src/core/transform.rs: translate"]}
{"id": "C36", "title": "has_scale and is_identity", "statement": "is_identity holds exactly when the matrix is the identity; translate(d) never has scale; has_scale(scale(x,y,z)) holds exactly when the square of some factor lies outside [0.999, 1.001]; the identity has no scale.", "quantifier": "all transforms", "why_tests_cant": "all inputs", "anchors": ["src/core/transform.rs: has_scale, is_identity", "src/core/mod.rs: not_one"]}
{"id": "C37", "title": "A bounding box built from two points is the smallest box around them", "statement": "Bounds3::new(p1, p2) has p_min <= p_max in every coordinate, contains both points, is contained in every box that contains both, and does not depend on the order of the points (for coordinates that are not NaN).", "quantifier": "all points of any totally ordered element type, and all non-NaN floats", "why_tests_cant": "all inputs including infinities and signed zeros", "anchors": ["src/core/boundingbox.rs: Bounds3::new, new_pt", "src/core/mod.rs: pmin, pmax"]}
{"id": "C38", "title": "Union is the least box containing both", "statement": "a.union(b) contains a point whenever a or b does, every box that contains a and b contains it, and union is commutative, associative and idempotent; union_pt(p) is the least box containing the box and p; folding union_pt over any list of points yields a box containing all of them, whatever the order.", "quantifier": "all boxes, points and lists of points", "why_tests_cant": "all inputs and all orders of insertion", "anchors": ["src/core/boundingbox.rs: union, union_pt"]}
{"id": "C39", "title": "Intersection contains exactly the common points", "statement": "For boxes that overlap, a point is inside a.intersect(b) if and only if it is inside both. A user expects the intersection of disjoint boxes to be empty; the code violates this: the constructor sorts the corners, so the result is a valid non-empty box (the gap between them).", "quantifier": "all pairs of boxes, all points", "why_tests_cant": "all inputs", "anchors": ["src/core/boundingbox.rs: intersect, new, inside"]}
{"id": "C40", "title": "Overlap test is exact", "statement": "a.overlaps(b) holds if and only if some point is inside both boxes (for well-formed boxes), and it is symmetric.", "quantifier": "all pairs of boxes", "why_tests_cant": "all inputs", "anchors": ["src/core/boundingbox.rs: overlaps, inside"]}
{"id": "C41", "title": "new_inf is the box of everything", "statement": "Bounds3::new_inf() contains every (non-NaN) point and is absorbing for union and neutral for intersect. A user who expects the empty box of pbrt (neutral for union) is wrong: the constructor sorts the corners.", "quantifier": "all points and boxes", "why_tests_cant": "all inputs", "anchors": ["src/core/boundingbox.rs: new_inf, new", "src/core/mod.rs: ElemType::max_value, min_value"]}
{"id": "C42", "title": "Corners", "statement": "corner(i) depends only on the low three bits of i; bit set selects the minimum, bit clear the maximum of that coordinate; every corner of a well-formed box is inside it, and the box is the smallest box containing corner(0) and corner(7).", "quantifier": "all boxes, all usize indices", "why_tests_cant": "all indices and boxes", "anchors": ["src/core/boundingbox.rs: corner"]}
{"id": "C43", "title": "Inside tests", "statement": "inside is membership in the closed box, inside_exclusive membership in the half-open box (upper bounds excluded); exclusive implies inclusive, and half-open boxes that tile an interval never share a point.", "quantifier": "all boxes and points", "why_tests_cant": "all inputs", "anchors": ["src/core/boundingbox.rs: inside, inside_exclusive"]}
{"id": "C44", "title": "Expanding a box", "statement": "For delta >= 0, expand(delta) contains the box (also under float rounding), expansion is monotone, and in exact arithmetic expanding by a then by b is expanding by a+b and a point is inside the expanded box iff it is within delta of the box in every coordinate.", "quantifier": "all well-formed boxes, all delta >= 0", "why_tests_cant": "all inputs", "anchors": ["src/core/boundingbox.rs: expand"]}
{"id": "C45", "title": "Extent measures", "statement": "For well-formed boxes diagonal is non-negative in each coordinate, surface_area and volume are non-negative, equal the sum of the face areas and the product of the sides, and grow with the box.", "quantifier": "all boxes", "why_tests_cant": "all inputs", "anchors": ["src/core/boundingbox.rs: diagonal, surface_area, volume"]}
{"id": "C46", "title": "Largest axis", "statement": "maximum_extent and max_dimension return an axis index (0, 1 or 2) whose component is the greatest; ties go to the later of the tied axes.", "quantifier": "all boxes, vectors, normals", "why_tests_cant": "all inputs including ties", "anchors": ["src/core/boundingbox.rs: maximum_extent", "src/core/vector.rs: max_dimension", "src/core/normal.rs: max_dimension"]}
{"id": "C47", "title": "Offset and lerp are inverse", "statement": "For a box with non-empty extent, offset maps p_min to 0 and p_max to 1, maps points of the box into the unit cube, and lerp maps it back: lerp(box, offset(p)) = p and offset(lerp(box, t)) = t. On a degenerate axis offset returns the plain difference. It never divides by zero.", "quantifier": "all boxes and points", "why_tests_cant": "all inputs", "anchors": ["src/core/boundingbox.rs: offset, lerp"]}
{"id": "C48", "title": "Bounding sphere contains the box", "statement": "In exact arithmetic every point of a well-formed box is within the returned radius of the returned centre, and the radius is the smallest possible for that centre.", "quantifier": "all boxes, all points inside", "why_tests_cant": "all inputs", "anchors": ["src/core/boundingbox.rs: bounding_sphere"]}
{"id": "C49", "title": "Iterating an integer rectangle visits its points", "statement": "A user expects iterating Bounds2 to visit every integer point of the half-open rectangle once, row by row. The code violates this: p_min is never visited, p_max.x and p_max.y are visited, and rows after the first start at x = 0 instead of p_min.x. What holds: the iteration terminates for every rectangle, and visits exactly the points given by an explicit formula, each once; for rectangles starting at the origin these are the points of the closed rectangle except the origin.", "quantifier": "all integer rectangles", "why_tests_cant": "all rectangles, including inverted and negative ones", "anchors": ["src/core/boundingbox.rs: Bounds2::into_iter, Bounds2Iter::next"]}
{"id": "C50", "title": "Dot and cross products", "statement": "dot is symmetric and bilinear, len_sq is dot with itself and is zero only for the zero vector, cross is antisymmetric, bilinear and orthogonal to both factors, and |u x v|^2 + (u.v)^2 = |u|^2 |v|^2; the same for normals.", "quantifier": "all vectors and normals", "why_tests_cant": "all inputs", "anchors": ["src/core/vector.rs: dot, cross, len_sq", "src/core/normal.rs: dot, cross, len_sq"]}
{"id": "C51", "title": "face_forward", "statement": "v.face_forward(w) is v or -v and never has a negative dot product with w; it is v itself whenever v.w >= 0.", "quantifier": "all vectors, normals (exact arithmetic and IEEE floats that do not produce NaN)", "why_tests_cant": "all inputs", "anchors": ["src/core/vector.rs: face_forward", "src/core/normal.rs: face_forward"]}
{"id": "C52", "title": "Dividing a 2D vector by a scalar divides its components", "statement": "A user expects Vector2 / s to divide both components. The code violates this: it multiplies them. What holds: it panics exactly for s = 0, and the result is right exactly when s*s = 1 or the vector is zero.", "quantifier": "all vectors and scalars", "why_tests_cant": "all inputs", "anchors": ["src/core/vector.rs: Div<T> for Vector2<T>"]}
{"id": "C53", "title": "Indexing and permuting components", "statement": "Indexing returns the named component for valid indices and panics for all others; permute panics exactly when some index is out of range, permute(0,1,2) is the identity, and permutations compose.", "quantifier": "all usize indices", "why_tests_cant": "all indices", "anchors": ["src/core/vector.rs: Index, permute", "src/core/normal.rs: Index, permute", "src/core/matrix.rs: Index"]}
{"id": "C54", "title": "Points and vectors form an affine space", "statement": "p - q + q = p, (p + v) - p = v, (p + v) + w = p + (v + w), p - v = p + (-v), and conversions between points, vectors and normals keep the components.", "quantifier": "all points and vectors (exact arithmetic; also wrapping integers)", "why_tests_cant": "all inputs", "anchors": ["src/core/point.rs: Add, Sub, From", "src/core/vector.rs: Add, Sub, Neg, From", "src/core/normal.rs: From"]}
{"id": "C55", "title": "coordinate_system returns an orthonormal frame", "statement": "For every unit vector v1, coordinate_system(v1) returns v2, v3 of unit length with v1, v2, v3 pairwise orthogonal and right-handed (v3 = v1 x v2); it divides by zero only for the zero vector.", "quantifier": "all unit vectors (exact arithmetic)", "why_tests_cant": "all directions, both branches", "anchors": ["src/core/vector.rs: coordinate_system"]}
{"id": "C56", "title": "Rays", "statement": "Ray::at(0) is the origin, at is affine in t, and new_infinite has an infinite range at time 0.", "quantifier": "all rays and parameters", "why_tests_cant": "all inputs", "anchors": ["src/core/ray.rs: Ray::at, new_infinite"]}
{"id": "C57", "title": "Scaling ray differentials", "statement": "scale_differentials(s) keeps the main ray, with s = 1 changes nothing, with s = 0 collapses the differentials on the main ray, and scaling by s then t is scaling by s*t (exact arithmetic).", "quantifier": "all ray differentials, all scale factors, all sequences of scalings", "why_tests_cant": "all histories of scalings", "anchors": ["src/core/ray.rs: RayDifferential::scale_differentials"]}
{"id": "C58", "title": "Interpolation", "statement": "lerp(0,a,b) = a, lerp(1,a,b) = b, and for t in [0,1] the result lies between a and b; componentwise for points.", "quantifier": "all t, a, b", "why_tests_cant": "all inputs", "anchors": ["src/core/mod.rs: lerp", "src/core/point.rs: lerp"]}
{"id": "C59", "title": "Minimum and maximum of a slice", "statement": "pmin and pmax of a non-empty slice return an element of it that is <= (>=) every element that is not NaN, provided the first element is not NaN; if the first element is NaN the result is NaN. They panic exactly on the empty slice.", "quantifier": "all slices of any length", "why_tests_cant": "unbounded length, all positions of NaN", "anchors": ["src/core/mod.rs: pmin, pmax", "src/core/vector.rs: min, max, min_component, max_component"]}
{"id": "C60", "title": "Float-level guarantees of the geometry code", "statement": "With IEEE binary32 arithmetic (rounding, infinities, signed zeros): translate(d) has m * m_inv equal to the identity exactly for finite d; multiplying by the identity matrix changes no finite matrix; at(0) is the origin for finite rays; the diagonal of a well-formed finite box is non-negative; len_sq is never negative; dot is symmetric.", "quantifier": "all binary32 inputs satisfying the stated finiteness", "why_tests_cant": "2^32 values per coordinate", "anchors": ["src/core/transform.rs: translate", "src/core/matrix.rs: Mul", "src/core/ray.rs: at", "src/core/boundingbox.rs: diagonal, expand", "src/core/vector.rs: len_sq, dot"]}
{"id": "C61", "title": "The parser accepts exactly the scene language", "statement": "A text is parsed to a scene exactly if it splits by the lexical grammar into tokens that the scene grammar gives that scene; the scene grammar is unambiguous; tokens outside it are reported as Eof exactly if they stop where a directive or block end could follow, and otherwise with a message.", "quantifier": "all input texts and token lists of any length, all results", "why_tests_cant": "an equivalence over an infinite language; tests only sample accepted and rejected texts", "anchors": ["src/parser.rs: tokenize, parse_predirectives, parse_directives, parse_directive, parse_param_lists"]}
{"id": "C62", "title": "Layout does not change the scene", "statement": "Two texts made of the same lexemes with any whitespace and comments between them parse to the same scene apart from the recorded positions, or fail in the same way.", "quantifier": "all lexeme sequences and all pairs of layouts", "why_tests_cant": "unboundedly many layouts of unboundedly many scenes", "anchors": ["src/parser.rs: tokenize, parse"]}
{"id": "C63", "title": "Parser errors say where", "statement": "An error message of the parser starts (possibly after the parse_many_floats header) with the position of a token of the text such that all tokens before it are the start of some valid scene; the only other messages say EOF, and then the whole text is the start of some valid scene. Eof is reported only for texts that a world or a block end completes.", "quantifier": "all token lists", "why_tests_cant": "every error path on every input", "anchors": ["src/parser.rs: ParserError, parse_string, parse_identifier, parse_float, parse_many, parse_predirective, parse_directive"]}
{"id": "C64", "title": "Headers and world contents compose", "statement": "Pre-world directives read in front of an empty world are read the same way in front of any other directives, and a world content without nested blocks is read the same way in front of any other content.", "quantifier": "all token lists with the stated shape", "why_tests_cant": "all pairs of scenes", "anchors": ["src/parser.rs: parse_predirectives, parse_directives"]}
{"id": "C65", "title": "Vector, normal and point operators act on every axis", "statement": "Addition, subtraction, negation, scaling, division and abs of vectors, normals and points return exactly when the element operation returns on every axis, and each component of the result is the element result of the same axis; min and max are the greatest lower and least upper bound on every axis; min_component and max_component are components and bound all components.", "quantifier": "all element types (i64 with and without overflow checks, all floats incl. non-NaN conditions), all operands", "why_tests_cant": "a swapped axis shows only for operands that differ on these axes; overflow panics depend on all three axes", "anchors": ["src/core/vector.rs", "src/core/normal.rs", "src/core/point.rs"]}
{"id": "C66", "title": "floor and ceil of points are exact", "statement": "For every finite float, floor is the largest integer not above and ceil the smallest integer not below, without rounding error and keeping the sign; other floats are unchanged; floor <= x <= ceil; both are idempotent and mirror images; Point3::floor and ceil apply them on every axis.", "quantifier": "all floats of both widths", "why_tests_cant": "2^64 floats, in particular the large ones, subnormals and negative fractions", "anchors": ["src/core/point.rs: floor, ceil"]}
{"id": "C67", "title": "len is the Euclidean norm", "statement": "Over exact arithmetic len is the Euclidean norm and dot the inner product: zero only for the zero vector, triangle inequality, scaling, Cauchy-Schwarz, and division by len gives a unit vector. An i64 vector whose len returns under overflow checks has the exact norm. In floats len of a non-NaN vector is non-negative, monotone in the absolute components and invariant under negation; that it is zero only for the zero vector and finite for finite vectors is false (underflow, overflow).", "quantifier": "all vectors and normals", "why_tests_cant": "laws over all pairs of vectors; the float exceptions are at the ends of the range", "anchors": ["src/core/vector.rs: len, len_sq, dot", "src/core/normal.rs: len, len_sq, dot"]}
{"id": "C69", "title": "Rounding error of the float formulas is bounded", "statement": "If the result is finite, then dot, cross, len_sq, len, point on a ray, lerp, scaled ray differentials, matrix product, vector transform, box volume, surface area and diagonal computed in f32 or f64 differ from the exact real value of the formula by at most a stated small multiple of the unit roundoff times the sum of absolute terms, plus a multiple of the subnormal spacing.", "quantifier": "all floats for which the result is finite, both widths", "why_tests_cant": "worst-case rounding over all floats", "anchors": ["src/core/vector.rs", "src/core/normal.rs", "src/core/point.rs: lerp", "src/core/ray.rs", "src/core/matrix.rs: Mul", "src/core/boundingbox.rs: volume, surface_area, diagonal", "src/core/transform.rs: Transformable for Vector3"]}
{"id": "C68", "title": "Overflow checks only turn wrong integer results into panics", "statement": "For every integer geometry function (operators and methods of vectors, normals, points, boxes, the rectangle iterator, matrices): if a debug build returns, a release build returns the same value, and that value is the one the same formula has over the mathematical integers. Comparisons, unions, intersections and casts agree in both builds always. With coordinates up to 2^30 (vectors) or 2^19 (boxes) the products do not overflow, so the debug build returns the exact dot product, squared length, cross product, diagonal, volume and surface area.", "quantifier": "all i64 operands", "why_tests_cant": "overflow is at the ends of 64-bit ranges of up to 32 operands", "anchors": ["src/core/mod.rs: impl ElemType for i64", "src/core/vector.rs", "src/core/normal.rs", "src/core/point.rs", "src/core/boundingbox.rs", "src/core/matrix.rs: Add, Mul, transpose"]}
{"id": "C70", "title": "Number literals denote the nearest float", "statement": "Given a standard library that rounds correctly, a decimal or integer literal in the finite range denotes, wherever a float is expected, a finite float to which no other finite float is closer to the number written. So literals keep their order, numbers of at most 24 (f32) or 53 (f64) significant bits are read exactly, and the relative error is at most half a unit in the last place. Literals with an exponent go through a product with a power of ten: their error is bounded by the errors of mantissa, power and product, and the expectation that they too denote the nearest float is false (3e-1 is not 0.3 in f64, 9e-1 is not 0.9 in f32). Zero with a large exponent (0.0e39 with f32, 0.0e309 with f64) is read as NaN, given a correctly rounded power of ten.", "quantifier": "all decimal literals of any length, all libraries that round correctly, f32 and f64", "why_tests_cant": "unboundedly many digits; rounding errors appear only for some values", "anchors": ["src/parser.rs: Tokenizer::tokenize_num", "src/parser.rs: Parser::parse_float", "src/core/mod.rs: type Float"]}
{"id": "C71", "title": "The tokenizer reports exactly the first fault of a text", "statement": "Every text is either a sequence of lexemes and separators or consists of them up to a place where none stands; in the second case the tokenizer fails with exactly the message (text, row and column) that the kind of fault prescribes, or panics exactly if the fault is an overflowing literal in a checked build; the fault is unique and parse hands it on unchanged.", "quantifier": "all input texts, both build modes", "why_tests_cant": "an exact description of every failing text, including the position and wording of each message and which of several faults is reported", "anchors": ["src/parser.rs: tokenize_one, tokenize_num, tokenize_str, tokenize, TokenizerError, Parser::new"]}
{"id": "C72", "title": "The parser reports exactly the first fault of a token list", "statement": "Every list of tokens is exactly one of: a scene, the beginning of a scene whose world is not closed, or a list with a fault; in the third case the parser fails with exactly the message (wording, position and shown token) that the first fault from the left prescribes: a token that is no keyword, a keyword unknown at this place, a missing or wrong string or identifier, missing numbers or a wrong number of them. Parameters that are cut off never are a fault: all tokens that can be taken for parameters are skipped. For a text, a fault of its lexemes is reported first.", "quantifier": "all token lists and all input texts", "why_tests_cant": "an exact description of every failing scene, including which of several faults is reported and its wording", "anchors": ["src/parser.rs: parse_predirective(s), parse_directive(s), parse_string, parse_identifier, parse_float, parse_many, parse_param_lists, Parser::parse"]}
{"id": "C73", "title": "Inverting matrices of floats", "statement": "A user expects Matrix4::inverse on floats to be the inverse up to rounding of its entries. This holds when every row and column has one non-zero entry (scalings, axis exchanges, quarter turns, reflections; also for integer matrices, which are converted first): every entry is a float nearest to the entry of the true inverse (bit for bit the quotient 1/x), and signed permutations are inverted without error. It also holds for translations by components of at most 1, where Transform::new_ stores the inverse that Transform::translate stores. It fails in general: new_ and translate disagree for the translation by (3, 5, 7), a singular matrix of small integers is accepted, a regular one is rejected, a regular matrix of large floats gives NaN, and NaN reaches the pivot-used-twice panic. On every float matrix the only outcomes are a result and the two panics.", "quantifier": "all float and integer matrices of the two classes; all float matrices for the outcomes; both float types", "why_tests_cant": "all scale factors, all permutations and all pivot orders under IEEE rounding", "anchors": ["src/core/matrix.rs: Matrix4::inverse, mat4swap, to_mat4f", "src/core/transform.rs: Transform::new_, translate"]}
{"id": "C74", "title": "Mirror images and exchanged arguments under rounding", "statement": "A user expects that a mirrored scene gives the mirrored picture: negating chosen coordinates of all inputs negates the same coordinates of all results, for vectors, normals, points, rays, boxes, matrix products, transforms and matrix inverses, under IEEE rounding, apart from the sign of zeros. This holds: the inverse panics for both or neither. Lengths do not change in a single bit; cross products change the signs of the axes where exactly one other axis is mirrored. Exchanging the arguments of a sum, an inner product or a distance, transposing a product, running a ray backwards, exchanging x with y in an inner product, and interpolating from the other end for t in [1/2, 1] do not change a bit. It fails for: the order of all three coordinates in a length, interpolating from the other end below 1/2, inside_exclusive (half open), the radius of the bounding sphere, boxes with NaN corners.", "quantifier": "all float inputs (boxes for union, intersect: without NaN; expand: finite), all eight mirror images, both float types", "why_tests_cant": "all inputs under IEEE rounding, including zeros of both signs, infinities and NaN, and all pivot orders of the inversion", "anchors": ["src/core/vector.rs: Vector3", "src/core/normal.rs: Normal3", "src/core/point.rs: Point3", "src/core/boundingbox.rs: Bounds3", "src/core/ray.rs: Ray::at", "src/core/matrix.rs: Matrix4::inverse", "src/core/transform.rs: Transform"]}
{"id": "C75", "title": "The coordinate system of a float vector", "statement": "A user expects coordinate_system to complete a unit vector of floats to an orthonormal right-handed frame up to rounding. For every finite vector v1 with squared length between 1/2 and 2 the results are finite; |v2|^2 differs from 1 by at most 7 units of roundoff, v1.v2, v1.v3, v2.v3 from 0 by at most 1.5, 5, 3 units, |v3|^2 from |v1|^2 by at most 12 units times |v1|^2, v3 from v1 x v2 by at most 6 units per component; and v2, v3 differ from the exact results of real arithmetic by at most 4 and 14 units per component. It fails far from unit length: a short non-zero vector gives infinities and NaN, a long one gives zero vectors.", "quantifier": "all finite f32 and f64 vectors of squared length between 1/2 and 2", "why_tests_cant": "all float vectors, with all rounding errors, both branches and subnormal components", "anchors": ["src/core/vector.rs: coordinate_system"]}
{"id": "C76", "title": "The bounding sphere of a box of floats", "statement": "A user expects bounding_sphere to return a sphere that contains the box. For every well-formed box whose centre comes out finite, the centre lies in the box and differs from the exact middle by at most one unit of roundoff relative to the middle plus half the smallest subnormal number; every real point of the box is within (1 + 2^-22) times the radius plus 2^-22 times the largest coordinate of the middle plus 2^-73 of the centre (f64: 2^-51, 2^-51, 2^-535), and the radius is not larger than the distance to the upper corner by more than such an error; a one-point box gives that point and radius 0. The exact expectation fails: the sphere of [1, 16777218] misses the lower corner; and for large finite boxes the centre overflows and the radius is 0. For every box of finite floats, either the centre is finite or the radius is 0; with coordinates up to 2^61 (f64: 2^509) centre and radius are finite.", "quantifier": "all well-formed f32 and f64 boxes, and all real points of them", "why_tests_cant": "all boxes and all points of them, with all rounding errors; the misses are by less than the tolerance of a usual test", "anchors": ["src/core/boundingbox.rs: bounding_sphere"]}
{"id": "C77", "title": "The number types of the program", "statement": "Coordinates are i64, f32 or f64 (ElemType). i64 comparisons are those of integers; sums, differences, products, negation and absolute value return the exact result if it fits 64 bits, and otherwise panic in a debug build and wrap around modulo 2^64 in a release build; division truncates, and panics for a zero divisor and for MIN / -1 in every build. Float comparisons are those of the number line with both infinities, and false whenever NaN is involved; each of + - * / sqrt of finite operands returns a finite float to which no other is nearer, or an infinity if the exact result is beyond all finite floats; NaN spreads, infinities and zero divisors give the values of IEEE 754, and nothing panics. max_value and min_value bound everything but NaN. So the laws assumed by the theorems about all number types (order, extremes, ring) hold of the types of the program.", "quantifier": "all operands of i64 (with and without overflow checks), f32 and f64", "why_tests_cant": "2^128 pairs of operands per operation", "anchors": ["src/core/mod.rs: ElemType, impl ElemType for Float, impl ElemType for i64"]}
{"id": "C78", "title": "Transforms of floats", "statement": "For f32 and f64. transform takes a unit vector to a column of the matrix without error, and leaves every finite vector unchanged if is_identity holds or the transform is a translation (by any vector, even NaN); transforming a finite vector by scale(x, y, z) multiplies each component once, with one rounding, for all factors. has_scale of a matrix with a finite upper left block returns false if the squared lengths of its columns differ from 1 by at most 0.001 - 5e, and true if one differs by more than 0.001 + 5e (e: unit roundoff), also when the computation overflows; it is false for every translation. Scaling a vector and transforming it back by the stored inverse has a relative error of at most (1 + e)^3 - 1 and a bounded underflow term. Refuted expectations: has_scale does not notice NaN or two infinities in a row; a translation turns finite components into NaN if another is infinite; scale by zero does not panic but stores an infinite inverse; there and back is not exact.", "quantifier": "all transforms, vectors, translations and scale factors of floats (NaN, infinities and overflow included where not stated finite)", "why_tests_cant": "infinitely many matrices and vectors; rounding, overflow and signed zeros at every operation", "anchors": ["src/core/transform.rs: is_identity, translate, scale, has_scale, inverse", "src/core/vector.rs: Vector3::transform, len_sq", "src/core/mod.rs: not_one"]}
{"id": "C79", "title": "The choice of the unit of length", "statement": "For f32 and f64. If all coordinates are multiplied by a power of two (a change of the unit of length), the operations on vectors, normals, points, rays, boxes, matrices and transforms give the same results in the other unit, with no additional rounding, unless something overflows or a product or quotient underflows: sums, differences, lengths, inner and cross products, face_forward, minima and maxima, interpolation, points on rays, ray differentials, boxes and their corners, tests, diagonal, area, volume, longest axis, expansion, offset, bounding sphere, coordinate systems, matrix products, translations and transformed vectors. Sums, differences, box construction and tests need no condition on underflow, and offset gives the same fractions even if they underflow. Refuted expectations: with underflow (inner products) or a factor that is not a power of two (sums) results differ; Matrix4::inverse of an affine matrix is rounded differently in another unit, and panics in one unit and not in another.", "quantifier": "all finite inputs of floats and all powers of two", "why_tests_cant": "infinitely many inputs and units; holds bit for bit only where rounding is not disturbed by underflow, which is rare in random tests", "anchors": ["src/core/vector.rs", "src/core/normal.rs", "src/core/point.rs", "src/core/boundingbox.rs", "src/core/ray.rs", "src/core/matrix.rs: Mul, inverse", "src/core/transform.rs: translate"]}
{"id": "C80", "title": "Inverting well conditioned matrices of floats", "statement": "Let the entries of a matrix of finite floats (or of integers, which are converted to floats) be at most a in absolute value, and let the absolute values of every column of its true inverse sum to at most k. If a and k are at most 2^121 and a k is at most 2^13 for f32 (2^1017 and 2^42 for f64), then Matrix4::inverse does not panic, every entry of the result is finite, the product of the result with the matrix differs from the identity by at most 1000 u a k in every entry, and the result differs from the true inverse by at most 1000 u a k^2, where u is the unit roundoff (2^-24 or 2^-53). Transform::new_ keeps such a matrix and stores that inverse. In particular new_ accepts every rigid motion (rotation or reflection with axes accurate up to 1/30, then a translation) that translates by at most t along each axis, for 1 <= t <= 25 (f32) or 1 <= t <= 2^19 (f64), with an error of at most 150000 u t^3.", "quantifier": "all matrices of finite floats or integers within the bounds; both float types", "why_tests_cant": "infinitely many matrices; the claim is about every pivot order and every accumulation of rounding errors, and the rejected regular matrices (C73) are rare", "anchors": ["src/core/matrix.rs: Matrix4::inverse, to_mat4f", "src/core/transform.rs: Transform::new_"]}
{"id": "C81", "title": "Transforming a vector and back", "statement": "Let m be an affine matrix of finite floats (last row 0, 0, 0, x) that is well conditioned in the sense of C80 (entries at most a, column sums of the inverse at most k). Then Transform::new_(m) returns a transform t such that for every vector v with components of at most V in absolute value: if transforming v by t and the result by t.inverse() gives a finite vector, it differs from v in each component by at most 3100 u a k V + (15 k + 4) w, where u is the unit roundoff and w half of the smallest positive float; and it is finite whenever a V and a k V are at most 2^121 (f32) or 2^1017 (f64). In the other order, t.inverse() first and then t, the result is finite if k V and a k V are so bounded, and the error is at most 9100 u (a k)^2 V + (10 a + 4) w. For rotations and reflections (up to 1/30) without translation beyond 1 the error there and back is at most 38000 u V + 184 w, for all vectors with components up to 2^115 (2^1011). It fails for projective matrices: there is one, inverted without error, for which (1,0,0) comes back as (2,0,0), since transform ignores the last row and column; and a rotation can make a finite vector infinite.", "quantifier": "all affine well conditioned matrices and all vectors; f32 and f64", "why_tests_cant": "infinitely many matrices and vectors; combines the rounding errors of elimination and of two products", "anchors": ["src/core/transform.rs: Transform::new_, inverse", "src/core/vector.rs: Vector3::transform", "src/core/matrix.rs: Matrix4::inverse"]}
{"id": "C82", "title": "Equality of vectors, points, normals, matrices and transforms", "statement": "The derived == of Vector2, Vector3, Point2, Point3, Normal3, Matrix3, Matrix4 and Transform holds exactly if all components are pairwise equal; it is symmetric and transitive, and a value equals itself unless one of its components is NaN. With i64 only identical values are equal. With floats (where 0 == -0) equal arguments give equal results, or NaN for both: sums, differences, multiples, negation, quotients by the same number, inner and cross products, lengths (bit for bit), face_forward, interpolation, points on rays, matrix products, transforms, is_identity and Matrix4::inverse (which panics for both or neither). It fails for divisors: 0 and -0 are equal, and v / 0 differs from v / -0, scale(0,1,1) from scale(-0,1,1).", "quantifier": "all values of all element types", "why_tests_cant": "all pairs of values, including NaN and signed zeros, and every operation", "anchors": ["src/core/vector.rs:5,40", "src/core/point.rs:5,21", "src/core/normal.rs:4", "src/core/matrix.rs:4,9", "src/core/transform.rs:3"]}
{"id": "C83", "title": "Rounding errors of offset and lerp of boxes", "statement": "Let u be the unit roundoff and w half of the smallest positive float. For a box of floats and an axis with pMin < pMax whose diagonal component is finite: a finite component of offset(p) differs from the exact (p - pMin) / (pMax - pMin) by at most 4 u times its absolute value, plus w; on an axis with pMin = pMax (or pMin > pMax or NaN) a finite component differs from p - pMin by at most u |p - pMin|. If p is inside a finite box whose coordinates on the axis are at most M in absolute value, then lerp(offset(p)), if finite, differs from p by at most 12 u M + 3 w; and for t between 0 and 1, offset(lerp(t)), if finite, differs from t by at most (12 u M + 3 w) / (pMax - pMin) + w. The round trips are not exact: in the f32 cube from 0 to 13 the point 7 comes back as another number, and in the f32 cube from 2^24 to 2^24 + 2 the middle t = 1/2 comes back as 0.", "quantifier": "all boxes, points and relative positions of floats; f32 and f64", "why_tests_cant": "infinitely many boxes; the worst cases are thin boxes far from the origin and quotients that underflow", "anchors": ["src/core/boundingbox.rs: Bounds3::offset, Bounds3::lerp, Bounds3::diagonal", "src/core/mod.rs:20-22"]}
{"id": "C84", "title": "Exchanging the axes", "statement": "Let sigma be a permutation of the three axes, applied to every argument. For every number type, bit for bit and with panics for the same arguments: the component-wise operations of vectors, normals and points (arithmetic, scaling, minima and maxima; abs, floor, ceil and lerp of points), union, intersection, overlaps, inside, inside_exclusive, the diagonal, expand, offset and lerp of boxes, point_at of rays and scale_differentials commute with sigma, and the eight corners are the same set of corners; cross commutes with even permutations, and with odd ones after its two factors are exchanged (multiplication of all number types is commutative). In exact arithmetic also the inner product, lengths, normalization, distances, face_forward, surface_area, volume and the bounding sphere do not depend on the names of the axes, matrices multiply, transpose and invert with permuted rows and columns, and transforming a vector commutes with sigma. The least and greatest component of a vector without NaN, and the axis of a strictly greatest component or strictly longest side, follow sigma. With floats the inner product, the area and the volume change by at most the two rounding errors. What does depend on the order: with overflow checks an inner product of integers may panic in one order and not in the other; a float inner product may round differently; ties of maximum_extent go to the later axis; coordinate_system and the stored inverse of scale are not symmetric.", "quantifier": "all permutations, vectors, normals, points, boxes, rays and matrices; all number types where not restricted to exact arithmetic or floats", "why_tests_cant": "a component written in the wrong place shows only on arguments with distinct components, and a symmetry relates two runs of the program for all arguments", "anchors": ["src/core/vector.rs", "src/core/normal.rs", "src/core/point.rs", "src/core/boundingbox.rs", "src/core/ray.rs", "src/core/matrix.rs", "src/core/transform.rs"]}
{"id": "C85", "title": "How many calls are open at the same time", "statement": "The tokenizer and the parser are recursive: tokenize_one calls itself after a comment and after blanks, tokenize_num calls itself for an exponent, and parse_directive calls itself (through parse_directives) for the children of a block. If only d calls of these functions may be open at the same time, then parsing any text gives the same result as with unlimited room, or the room is exhausted; more room never changes a result. On a token list that is a scene, the parser needs exactly as much room as the directives of its world are nested. On any token list one call more than the number of tokens that open a block is enough. On any text twice the number of characters '#', plus the greatest number of letters e in a stretch of number characters, plus three is enough for the tokenizer; so twice the length of the text plus three is always enough for parsing. No fixed amount of room is enough: n comments need n + 1 calls, a number with n exponents n + 2 calls, n nested blocks n + 1 calls, so for every d there is an accepted scene on which d calls do not suffice.", "quantifier": "all texts, all token lists, all amounts of room", "why_tests_cant": "a stack overflow shows only on inputs much larger than test files, and a bound on the stack is a statement about all inputs", "anchors": ["src/parser.rs:273-359", "src/parser.rs:361-434", "src/parser.rs:1004-1103"]}
{"id": "C86", "title": "What follows a fault does not change the report", "statement": "When a text is rejected by the tokenizer, or makes it panic, then it is rejected with the same message, or panics, whatever lines are appended to it, unless the text breaks off inside a string; and a text that breaks off inside a string is rejected with the position of its end. When a token list is rejected by the parser and the message does not say that the list ends too early, then every longer list whose first new token is an identifier is rejected with the same message; so a text whose tokens are rejected is rejected with the same message when lines are appended that start with an identifier. The identifier is needed: Translate 1 2 is rejected for having two numbers and becomes right when the next line is 3.", "quantifier": "all texts, all token lists, all continuations", "why_tests_cant": "a statement about every continuation of every faulty text", "anchors": ["src/parser.rs:273-359", "src/parser.rs:361-434", "src/parser.rs:600-660", "src/parser.rs:1004-1103"]}
{"id": "C87", "title": "Changing the coordinates of a scene", "statement": "A change of coordinates, axis by axis, that never exchanges the order of two numbers (it may make them fall together) keeps containment and overlap: a point of a box becomes a point of the changed box, overlapping boxes overlap, a box in a box stays in it; the corners of the changed box are the changed corners; and the box of two points, unions of boxes and points, of any number of points, and intersections have changed corners equal to what is computed from the changed points and boxes. If numbers never fall together either, inside, inside_exclusive and overlaps decide the same. With floats, adding or subtracting a finite vector, multiplying with or dividing by a finite positive number, and rounding down or up are such changes, in spite of rounding and overflow; with checked integers and in exact arithmetic adding, subtracting and multiplying with a positive number are, and never make numbers fall together. Without rounding, and also when integers wrap, differences of points, diagonal, surface area, volume and longest side do not change when a vector is added to all points; in exact arithmetic relative positions (offset) do not change either, and interpolated points, points on rays, expanded boxes, scaled ray differentials and bounding spheres move along. What rounding breaks: a point outside a float box can be inside after a translation, a point strictly inside on a face, and separate boxes can overlap; wrapping integers break containment itself.", "quantifier": "all boxes, points, vectors, rays; all order-keeping changes of coordinates; floats, integers, exact numbers", "why_tests_cant": "rounding makes translated floats fall together for some inputs only; that containment never gets lost is a statement about all of them", "anchors": ["src/core/boundingbox.rs:21-45", "src/core/boundingbox.rs:47-141", "src/core/boundingbox.rs:143-180", "src/core/boundingbox.rs:220-238", "src/core/point.rs:123-129", "src/core/ray.rs:26-57"]}
{"id": "C88", "title": "Equality of parse results", "statement": "`==` on what Parser::parse returns (derived PartialEq on PreDirective, Directive, ParamSet, Param, Spectrum and their parts, used by every assert_eq! of the tests) holds of two scenes exactly if they have the same shape, that is the same directives at the same positions with the same strings, integers, booleans and numbers of values, pairwise equal floats and pairwise equal paths; shape, floats and paths are everything in a scene. Two paths are equal exactly if they are spellings of the same path, which repeated separators, a final separator and single dots after a separator do not change. `==` is symmetric and transitive; a scene equals itself exactly if it has no NaN; equal scenes have the same keywords at the same positions; equal scenes without zeros and with paths spelled the same are identical. Every float of a scene is a number of the text, so parsing a text twice gives equal scenes if no number in it is NaN, in particular if all number literals are in range and written without exponents. What does not hold: a text with the literal 0.0e39 parses to a scene that is not equal to itself, and scenes that differ in the sign of a zero or in the spelling of a path are equal.", "quantifier": "all scenes, all texts", "why_tests_cant": "the tests compare with == themselves; that == is neither too coarse nor fails for valid texts is about all scenes", "anchors": ["src/parser.rs:6-76", "src/parser.rs:143-203", "src/core/mod.rs:123-130"]}
{"id": "C89", "title": "The number of reads is linear", "statement": "Counting every call of Tokenizer::peek and Tokenizer::next as one read of a character and every call of Parser::peek, Parser::next and Parser::pos as one read of a token, with the same results: tokenizing a text reads at most 5 characters per character of the text and 3 more; parsing a list of tokens reads at most 5 tokens per token and 3 more, and at most 5 per token if it succeeds; so Parser::parse makes at most 10 reads per character and 6 more, whatever the text, including texts with faults, deep nesting and lists where the parser goes back. For every length there are scenes that reach 5 reads per token.", "quantifier": "all texts, all token lists", "why_tests_cant": "the tests parse short texts; that no text makes the parser do more than a constant amount of reading per character is about all texts", "anchors": ["src/parser.rs:273-520", "src/parser.rs:530-561", "src/parser.rs:563-1361"]}
{"id": "C90", "title": "A scene is no larger than its text", "statement": "Counting a string as its characters and two more, a number or truth value as one, a directive as the characters of its keyword, and a parameter as its name and its values: the tokens of a text are together no larger than the number of characters of the text, the scene Parser::parse returns is smaller than its tokens by at least 8 (the end of the world), and so smaller than the text. In particular no text, however nested or with whatever escapes, makes the parser build a result larger than itself.", "quantifier": "all texts, all token lists", "why_tests_cant": "the tests look at single results; that no text is blown up is about all texts", "anchors": ["src/parser.rs:36-211", "src/parser.rs:273-520", "src/parser.rs:563-1361"]}
{"id": "C91", "title": "A transform without scale keeps lengths", "statement": "A user expects that has_scale() = false means that the transform keeps the lengths of vectors (the squares up to a thousandth), and that a transform has scale exactly if its inverse has. In exact arithmetic: if all squared lengths change by a thousandth at most then has_scale is false, and where the images of the axes are orthogonal to each other the converse holds; rigid motions and their inverses have no scale, and a rigid motion applied after a transform does not change has_scale. In general the code violates the expectation, since it looks at the images of the three unit vectors only: transforms built by new_ without scale shorten some vector by any factor, or lengthen it by a factor up to sqrt 3.003 (which is the most, and reached), and there are transforms without scale whose inverse has scale.", "quantifier": "all transforms, all vectors (exact arithmetic)", "why_tests_cant": "the tests do not call has_scale", "anchors": ["src/core/transform.rs:69-74", "src/core/mod.rs:154-156"]}
{"id": "C92", "title": "The float type does not decide what is a scene", "statement": "The crate is built with Float = f32 or Float = f64. The two builds accept the same texts: for every text both tokenize it into the same tokens at the same positions, up to the values of the floats, or both reject it with the same tokenizer message, or both panic; and both parse it into scenes with the same directives, positions, strings, integers and paths and the same number of floats, or both report an error (the same message if the floats shown in it are displayed alike), or both panic. More generally any relation between the floats of the two builds that holds between the values of literals and of integers and is kept by multiplication and powers of ten holds between the floats of the two scenes, pairwise. One would also expect that the single precision float is the double precision one, rounded; this fails for literals with an exponent (9e-1).", "quantifier": "all texts, all pairs of standard libraries that agree on characters, integers and on which strings are floats", "why_tests_cant": "the tests run with one float type and compare with fixed values", "anchors": ["src/core/mod.rs:31-34", "src/parser.rs:273-284", "src/parser.rs:361-452", "src/parser.rs:913-938", "src/parser.rs:1358-1361"]}
{"id": "C93", "title": "Calculating with inverse matrices", "statement": "In exact arithmetic Matrix4::inverse obeys the laws of inverses: a matrix that is an inverse from one side is what inverse returns; the inverse of a product is the product of the inverses in the other order, and panics exactly if one of the two panics; inverting and transposing can be exchanged, so that the inverse of a symmetric matrix is symmetric; multiplying by the inverse solves equations from the left and from the right; the identity is its own inverse. A user may expect these laws of float matrices as well: with f32 the inverse of the inverse, the inverse of a product and the inverse of a symmetric matrix of small integers already differ from what the laws say.", "quantifier": "all matrices (exact arithmetic)", "why_tests_cant": "the tests invert two fixed matrices", "anchors": ["src/core/matrix.rs:25-105", "src/core/matrix.rs:137-152"]}
{"id": "C94", "title": "Interpolating between floats", "statement": "For a weight t with 0 <= t <= 1 and any two finite floats, lerp is finite: (1-t)*a + t*b neither overflows nor becomes NaN, however large a and b are, although 1-t is rounded and a+b may overflow. It is monotone in both ends, keeps their sign, and leaves the interval between them by about three units of rounding of the larger end at most. Consequently Point3::lerp of finite points and Bounds3::lerp of a finite box at a relative position in [0,1]^3 are finite points. A user may expect the same of the weight: lerp is not monotone in t, and with a weight outside [0,1] it may be infinite, or NaN between two equal ends.", "quantifier": "all f32 / f64 weights in [0,1], all finite ends, all finite points and boxes", "why_tests_cant": "no test calls lerp; overflow is only possible for a few of 2^96 inputs and a sampled test would meet none of them", "anchors": ["src/core/mod.rs:20-22", "src/core/point.rs:123-125", "src/core/boundingbox.rs:232-238"]}
{"id": "C95", "title": "Unit vectors of floats", "statement": "Dividing a vector or normal of floats by its len() gives finite components, a squared length within 8 units of roundoff of 1, and components within 4 units of the exact unit vector v/|v|, for every finite vector whose squared length lies between 2^-102 and 2^126 (f32) or 2^-969 and 2^1022 (f64); the quotient is then a valid argument of coordinate_system, which completes it to an orthonormal right-handed frame up to rounding. A user may expect this of every non-zero finite vector, and a length of exactly one: a short vector has length zero and gives infinities and NaN, a long one has infinite length and gives the zero vector, and the length of the quotient need not be 1.", "quantifier": "all finite f32 and f64 vectors and normals of squared length in the stated range", "why_tests_cant": "no test divides by a length; the bound must hold for 2^96 vectors, and the failing ranges are far from sampled values", "anchors": ["src/core/vector.rs:66-73", "src/core/vector.rs:197-203", "src/core/vector.rs:211-222", "src/core/normal.rs:30-37", "src/core/normal.rs:150-156"]}
{"id": "C96", "title": "Replacing numbers and names", "statement": "Which integers, floats and plain strings (neither true nor false nor two words) stand in a text does not decide whether it is a scene: if they are replaced by others of their kind, with any change of layout, the new text is accepted if and only if the old one was, fails in the same way otherwise, and the new scene has the same directives, nesting, parameter names and numbers of values, with each value being the replacement of the corresponding value. A user may expect the same of every replacement of a literal: an integer cannot be replaced by a float, a truth value not by another string, and a plain string not by two words.", "quantifier": "all token lists and all relations between old and new values that respect the conversion of integers to floats; all texts and layouts", "why_tests_cant": "the tests parse single fixed texts; that no value influences the control flow is a statement about pairs of runs on all texts", "anchors": ["src/parser.rs:563-700", "src/parser.rs:1004-1102", "src/parser.rs:1105-1296", "src/parser.rs:1358-1375"]}
{"id": "C97", "title": "The Unicode tables matter only for the characters of the text", "statement": "Which characters count as digits, letters and white space follows the version of Unicode the compiler was made with. Two versions that agree on the characters occurring in a text (and on the line break, which an escape in a string stands for) give the same tokens or the same lexical error, and the same scene or a rejection by both, with the same message if strings are quoted alike. In particular an ASCII text is read in the same way by every build, whatever its tables. A user may expect the tables not to matter at all: for a character of the text they do.", "quantifier": "all texts and all pairs of standard libraries whose tables agree on the characters of the text; all ASCII texts and all tables that are right for ASCII", "why_tests_cant": "the tests run with the tables of one compiler; independence from the rest of the tables is a statement about pairs of runs on all texts", "anchors": ["src/parser.rs:313-359", "src/parser.rs:361-452", "src/parser.rs:499-519", "src/parser.rs:568-600"]}
{"id": "C98", "title": "Every scene of finite floats can be written down", "statement": "Every finite float has a decimal text (its exact value, digits on both sides of a point) that the tokenizer reads back as that float bit for bit, negative zero included, and no two floats share a text. Nine significant digits are enough for an f32 and seventeen for an f64: a literal within half a unit of the ninth (seventeenth) digit of a float is read as that float. Hence every scene made of finite floats, machine integers and arbitrary strings, in which nested blocks come last, has a text for which the parser returns exactly that scene. A user may expect eight (sixteen) digits to be enough: they are not.", "quantifier": "all finite floats of both formats; all literals; all scenes; every standard library whose decimal conversion rounds correctly and keeps the sign of zero", "why_tests_cant": "there are 2^32 and 2^64 floats and unboundedly many scenes; a test prints and reads back only some", "anchors": ["src/parser.rs:361-452", "src/parser.rs:454-519", "src/parser.rs:568-690", "src/parser.rs:913-938", "src/parser.rs:1004-1103", "src/parser.rs:1105-1295", "src/parser.rs:1358-1368"]}
{"id": "C99", "title": "A parse result can be printed and parsed again", "statement": "Every parse result has a shape that is described without reference to the parser: each parameter has a name without white space and at least one value (spectra and textures exactly one, a sampled spectrum at least one sample), point3, vector3 and normal3 lists are empty, integers fit in a machine word, the name after ActiveTransform is an identifier, the second component is a world block, and in every block a nested block is the last child. Conversely every scene of that shape whose floats are finite is, up to positions, the result of parsing some text. If a result with finite floats is printed (in any layout) and parsed again, only positions change; printing again gives the same text, and two results are printed alike exactly if they are equal up to positions.", "quantifier": "all texts, all parse results, all scenes of the stated shape, all layouts; every standard library meeting the stated assumptions", "why_tests_cant": "a formatter can be tested on some scenes only, and that no text has a result of another shape concerns all texts", "anchors": ["src/parser.rs:361-452", "src/parser.rs:568-690", "src/parser.rs:913-938", "src/parser.rs:1004-1103", "src/parser.rs:1105-1295", "src/parser.rs:1297-1340", "src/parser.rs:1358-1368"]}
{"id": "C100", "title": "Coordinates of moderate size do not overflow", "statement": "If all numbers involved are finite floats of absolute value at most 2^40 (f32) or 2^339 (f64), then sums, differences, multiples, dot and cross products, squared lengths and lengths of vectors and normals, face_forward, moving, subtracting, scaling and interpolating points (with any such weight), the diagonal, surface area, volume, expansion, interpolation and bounding sphere of boxes, points on rays, scaled ray differentials, transformed vectors, and sums and products of matrices consist of finite floats: no infinity and no NaN. Dividing a vector, normal or point by a number that is not smaller than the inverse of that limit is finite too. So the error bounds of C69 apply without a look at the result. Beyond the limit this fails: the volume of an f32 box with sides 2^43 is infinite, and so is the length of a vector of length 2^64.", "quantifier": "all vectors, normals, points, boxes, rays, matrices of f32 or f64 of moderate size; every limit M for which 32 M^3 is in the range", "why_tests_cant": "whether an intermediate result overflows depends on the combination of all inputs; the claim is about every combination of bounded inputs", "anchors": ["src/core/vector.rs:66-97", "src/core/vector.rs:137-203", "src/core/normal.rs:30-61", "src/core/point.rs:66-125", "src/core/boundingbox.rs:136-155", "src/core/boundingbox.rs:220-238", "src/core/ray.rs:26-57", "src/core/matrix.rs:123-151"]}
{"id": "C101", "title": "Comments and strings may contain any character", "statement": "What the Unicode tables say about the characters of comments and of strings does not matter to the tokenizer: two versions that agree on the characters outside of comments and strings give the same tokens or the same lexical error. They also give the same scene, or both reject the text (with the same message if strings are quoted alike), as soon as they agree about which characters between quotes are white space. So a text that is ASCII except for its comments and strings (names of files in other alphabets, for example) is tokenized alike by every build. Where comments and strings are can be found out without any table, by looking for #, the line break, the quote and the backslash. A user may expect that white space between quotes does not matter either: it does, since parameters are declared by a type and a name with white space between them.", "quantifier": "all texts and all pairs of standard libraries that agree on the characters outside of comments and strings (and on white space between quotes, for the parser)", "why_tests_cant": "the tests run with the tables of one compiler, and a comment or string in the wrong state of the tokenizer shows only for particular characters; the claim is about pairs of runs on all texts", "anchors": ["src/parser.rs:313-359", "src/parser.rs:454-497", "src/parser.rs:568-600"]}
{"id": "C102", "title": "Whole numbers of moderate size are computed exactly", "statement": "Geometry on whole numbers is exact, whatever the number type, as long as no intermediate result exceeds the limit of the type: 2^63 - 1 for i64 (in debug and release builds), 2^24 for f32, 2^53 for f64. If all coordinates are whole numbers of absolute value at most M, then: sums, differences and negation of vectors, normals and points, absolute values, diagonals, expanded boxes and the longest axis are exact if 2M is within the limit; multiples, and division without remainder, if M^2 is; dot and cross products, squared lengths, face_forward and transformed vectors (also i64 vectors cast to floats) if 3M^2 is, and also the length if it is a whole number; points on rays if M + M^2 is; scaled ray differentials if M + 2M^2 is; products of matrices if 4M^2 is; surface areas if 24M^2 is and volumes if 8M^3 is. Minimum, maximum, boxes around points and boxes, common parts of boxes, and all tests on them are exact anyway. has_scale answers exactly whether a matrix of whole numbers maps some axis to a vector of another length than one. Hence integer and float versions of the same computation agree. Beyond the limit this fails: in f32, 2^24 + 1 is 2^24 and the squared length of (4097, 0, 0) is one too small; in i64, 2^62 + 2^62 panics or wraps around.", "quantifier": "all whole coordinates up to every bound M that meets the stated limit; i64 with and without overflow checks, f32, f64", "why_tests_cant": "the repo's tests compare a few small integers; exactness for every whole number up to the limit, with rounding at each step, needs the semantics of the number types", "anchors": ["src/core/vector.rs:66-135", "src/core/normal.rs:30-99", "src/core/point.rs:33-121", "src/core/boundingbox.rs:21-166", "src/core/matrix.rs:25-33", "src/core/matrix.rs:123-151", "src/core/ray.rs:26-57", "src/core/transform.rs:69-74", "src/core/mod.rs:41-111"]}
{"id": "C103", "title": "The order of parameters of different types does not matter", "statement": "If the parameters of one directive are written in another order, but those of the same type (with rgb, xyz, spectrum and blackbody as one type) keep their order, the result is the same: the same scene up to the positions it holds, or a rejection, or Eof, as before. In particular two neighbouring parameters of different types may be exchanged. This holds for every directive with parameters, in the header and in nested blocks, and whatever stands before the directive and after the reordered parameters. Nothing else is forgotten: two lists of parameters of a shape give the same scene exactly if they contain, for every type, the same parameters in the same order. Exchanging two parameters of the same type does change the scene.", "quantifier": "all token lists and texts; every directive with parameters; every list of well-formed parameters; every reordering that keeps the order within a type", "why_tests_cant": "the repo's tests read a few fixed lists of parameters; that no order is special, for any number of parameters, in any directive and with anything after them, also in texts that are rejected, is a statement about all texts", "anchors": ["src/parser.rs:63-94", "src/parser.rs:563-690", "src/parser.rs:1004-1080", "src/parser.rs:1105-1295"]}
{"id": "C104", "title": "Calculating with common parts of boxes", "statement": "The common part of two overlapping boxes is the greatest box in both; for overlapping and disjoint boxes its arguments may be exchanged. A box lies in another exactly if it is their common part, and exactly if the other is their union. Larger boxes have larger common parts. Boxes any two of which overlap may be intersected in any order and grouping, and then unions and common parts distribute over each other. Any number of boxes have a common point exactly if any two of them overlap; intersecting one after the other then gives the box of exactly the common points. The union of any number of boxes, taken one after the other in any order, is the least box containing all. Without overlap, grouping and distribution fail, because the gap between disjoint boxes is taken for their common part.", "quantifier": "all well-formed boxes of floats, integers or exact numbers, lists of any length", "why_tests_cant": "statements about all boxes and lists of boxes of any length; the repo tests no intersection of more than two boxes", "anchors": ["src/core/boundingbox.rs:81-125"]}
{"id": "C105", "title": "Rays and boxes", "statement": "Boxes are convex: what lies between two points of a box lies in it. A ray that is in a box at two parameters is in it at every parameter in between, and this survives rounding: with floats every coordinate of Ray::at grows or falls with the parameter, so a ray with a finite direction enters a box at most once and leaves it at most once; between a point in one box and a point in another it stays in the union. The parameters at which a ray is in a box are those between the two planes on every axis on which it moves. With floats, the point computed by Point3::lerp may lie outside the box of its two ends, and a ray with an infinite direction passes through NaN.", "quantifier": "all boxes, rays and parameters; exact numbers, and all floats", "why_tests_cant": "all inputs; the repo has no test of rays, and monotonicity in spite of rounding concerns all pairs of floats", "anchors": ["src/core/ray.rs:26-28", "src/core/boundingbox.rs:117-133", "src/core/point.rs:123-125"]}
{"id": "C106", "title": "Normals and orientation under transforms", "statement": "Moving a transform to the other side of a dot product transposes it. If vectors are transformed by t and normals by t.inverse().transpose(), every dot product is kept exactly when the 3x3 parts of the two matrices of t are inverse to each other; so what is orthogonal stays orthogonal. This is so for all transforms built by translate, scale, inverse and transpose (in spite of the wrong inverse stored by scale) and for new_ of every invertible matrix with last row 0 0 0 w. Then cross products are transformed like normals, times the determinant, and face_forward commutes with transforming. Signed volumes are multiplied by the determinant under every transform. Not so: transforming a normal like a vector, new_ of a matrix with another last row, and floats; with floats, after scale, the dot product is off by at most six roundings of each product, and numbers below the normal range.", "quantifier": "all transforms and vectors over every ordered field; floats for the last refutation and the bound", "why_tests_cant": "identities of polynomials in all entries of the matrices; the repo has no test of transposed inverses", "anchors": ["src/core/vector.rs:75-97", "src/core/vector.rs:137-148", "src/core/transform.rs:10-24"]}
{"id": "C107", "title": "What can be read from an error message", "statement": "The position at the start of an error message can be read back, and a message names at most one position. If the parser reports a message with a position, there is exactly one place of the text with this position, and for faults of the parser a token stands there and the tokens before it are the start of some scene. An unexpected character is reported exactly if everything before the named position is in order and the named character, which starts nothing, stands there. If an unknown directive or pre-world directive is reported, the named identifier stands at the named position and is not a known keyword. Messages about numbers that do not fit, and about the end of the text, name no position: texts with faults at different places give the same message.", "quantifier": "all texts, positions, characters and names; all environments whose number conversion messages do not start with a position", "why_tests_cant": "all texts and all messages; the converse direction excludes every other way to the same message", "anchors": ["src/parser.rs:12-16", "src/parser.rs:313-359", "src/parser.rs:361-452"]}
{"id": "C108", "title": "Number and order of the points of an iterated rectangle", "statement": "Iterating an integer rectangle visits max(0, X - x) + max(0, Y - y) * (1 + max(0, X)) points, where (x, y) is the lower and (X, Y) the upper corner: row after row, and every row from left to right, with and without overflow checks. Nothing is visited exactly if X <= x and Y <= y, and only then are the visited points those of the half-open rectangle. No point outside of the closed rectangle is visited exactly if (x < X implies y <= Y) and (y < Y implies x <= 0 <= X). A rectangle from the origin of area X * Y gives X + Y points more than its area. The rectangle from (-1, 0) to (w - 1, h - 1) visits the w times h pixels from the origin once each. A loop that was broken off after a point is continued by iterating the rectangle from that point to the upper corner.", "quantifier": "all integer rectangles, debug and release builds", "why_tests_cant": "rectangles of every size and place, including those with corners in the wrong order or at the ends of the number range", "anchors": ["src/core/boundingbox.rs:183-194", "src/core/boundingbox.rs:196-218"]}
{"id": "C109", "title": "Surface area and volume of unions, parts and expanded boxes", "statement": "In exact arithmetic the volumes of the union and of the common part (or gap) of two boxes are together at least the volumes of the two boxes, and so are the surface areas. The sides of the union and of the common part of overlapping boxes add up to those of the two boxes. The volume of the union of boxes that do not overlap is at least the sum of their volumes. Cutting a box at a plane adds up volumes, and counts the cut twice in the surface areas. Expanding by r >= 0 turns volume V, surface area A and sum of the sides L into V + A r + 4 L r^2 + 8 r^3 and A + 8 L r + 24 r^2. 216 V^2 <= A^3, for positive volume with equality exactly for cubes; A plus the squared diagonal is L^2; and A is at most twice the squared diagonal. Not so: the surface areas of separate boxes may add up to more than that of their union, and with floats the volumes of two parts of a box may add up to more than the volume of the box.", "quantifier": "all well-formed boxes over every ordered field; floats for the last refutation", "why_tests_cant": "all boxes in all positions to each other", "anchors": ["src/core/boundingbox.rs:81-110", "src/core/boundingbox.rs:136-156"]}
{"id": "C110", "title": "Triple products, parallel vectors and coordinates in a frame", "statement": "For vectors and normals, with exact numbers and with wrapping i64: u x (v x w) = v (u.w) - w (u.v); the three cyclic triple cross products add up to zero; (u x v).w does not change if the three are rotated; and (a x b).(c x d) = (a.c)(b.d) - (a.d)(b.c). In exact arithmetic u x v is zero exactly if u is zero or v is a multiple of u; (u.v)^2 is at most the product of the squared lengths, with equality exactly if u is zero or v is a multiple of u. A unit vector and the two vectors of coordinate_system are an orthonormal frame in which the cross product of two in a row is the third; every vector is the sum of its parts along the vectors of a frame, dot products can be computed from coordinates, and coordinates are read back from the vector put together from them.", "quantifier": "all vectors and normals over every exact ring (identities), every ordered field (parallel, Cauchy-Schwarz), the reals (frames)", "why_tests_cant": "identities over all triples and quadruples of vectors", "anchors": ["src/core/vector.rs:75-85", "src/core/normal.rs:39-49", "src/core/vector.rs:211-222"]}
{"id": "C111", "title": "Small changes of the input", "statement": "A user expects that a small change of the input changes the result a little. In exact arithmetic, if the corners of boxes (and points) move by at most e on every axis, so do the corners of the box of two points, of unions and common parts (or gaps), all eight corners, and the point at a relative position in [0,1]; corners of expanded boxes move by e plus the change of the amount; sides change by at most 2e, and maximum_extent names an axis that was longest up to 4e; inside and overlaps change only within e at the faces; the relative position of a point of the box changes by at most e divided by the side; the centre of the bounding sphere moves by at most e per axis and its radius by sqrt(3) e. Lengths change by at most the length of the change, unit vectors by at most twice the relative change. Entries of inverse matrices change by at most e times a row sum of one inverse times a column sum of the other. The frame of coordinate_system moves by at most sqrt(8) and 1 + sqrt(8) times the change of a unit vector as long as the same coordinate decides. Boxes, unions and common parts of finite floats are exact, so the same bounds hold for them. The expectation fails where |x| = |y|: unit vectors as near as one likes have opposite second frame vectors; and for the relative position of a point outside a box that becomes flat.", "quantifier": "all boxes, points, vectors and matrices over every ordered field (the reals for lengths, spheres and frames); all finite floats for boxes", "why_tests_cant": "all pairs of neighbouring inputs", "anchors": ["src/core/boundingbox.rs:21-240", "src/core/vector.rs:211-222", "src/core/matrix.rs:35-100"]}
{"id": "C112", "title": "The token that an error message shows", "statement": "Strings are shown in messages as the standard library's Debug does: between quotes, with escapes. Such a text says where it ends and which string it is, whatever characters the library's tables count as printable; a string of printable characters without quotes and backslashes is shown as it is. Consequently, if floats are shown so that they can be told apart, a shown token can be read off. What the parser says about a list of tokens has one of seven forms, and each of them tells the truth: if it says that it got a token at a position instead of a number, string, identifier or keyword, exactly this token stands at this position of the text, it is not of the wanted kind, and the tokens before it are the start of some scene; if it says that a keyword was given k numbers, the keyword stands there, exactly k numbers stand behind it and it takes another number of them; if it reports the end of the text, the last keyword lacks a string, its identifier or all its numbers, as the message says. The messages of the functions that read parameters are never seen: what is wrong inside of a parameter is not explained.", "quantifier": "all texts and token lists; all tables of printable characters; all environments meeting the stated assumptions", "why_tests_cant": "all messages for all texts", "anchors": ["src/parser.rs:195-203", "src/parser.rs:227-240", "src/parser.rs:825-992", "src/parser.rs:1074-1330"]}
{"id": "C113", "title": "Several ways to write the same scene", "statement": "One parameter may be written in several ways: brackets around a single integer, float, truth value or string are optional, and the amount and kind of blanks in the declaration does not matter. Whatever stands before the directive and after the parameter, the text is read as the same scene, up to positions, or is rejected both times. Everywhere in a text a float may be replaced by an integer that is converted to it: a scene stays the same scene, and a text that stops too early still does; the other way round the scene is the same as long as the text is still accepted. A user may expect more: brackets are not optional for the other types, a float cannot replace an integer in a parameter declared integer, and blanks in strings that are values count.", "quantifier": "all token lists and texts, all environments", "why_tests_cant": "all places in all scenes", "anchors": ["src/parser.rs:563-760", "src/parser.rs:823-960"]}
{"id": "C114", "title": "Where NaN goes", "statement": "An operation on floats gives NaN exactly if an operand is NaN or the operation has no value (inf - inf, 0 * inf, 0/0, inf/inf, the root of a negative number). In vectors, normals and points NaN stays on its axis under sums and multiples; dot products, lengths, surface area and volume become NaN, the cross product on the other axes, a transformed vector on all axes. Sums, products, transposes and inverses of matrices with NaN have NaN, at the places one expects for the first three, or inverse panics. Containment, overlap and equality fail as soon as NaN is looked at. has_nan of a point is exact. Minimum, maximum, union, intersection and expand keep NaN of the receiver (its lower corner) and lose other NaN. A user would expect NaN never to be lost: expand and offset lose NaN in the upper corner, minimum depends on the order, the bounding sphere has radius 0, the first vector of coordinate_system can be free of NaN, and the identity spreads NaN to all components.", "quantifier": "all floats of both formats, all vectors, points, normals, boxes, matrices, transforms and rays", "why_tests_cant": "NaN at every place of every operand together with all values of the others", "anchors": ["src/core/vector.rs:30-219", "src/core/matrix.rs:60-121", "src/core/boundingbox.rs:21-238", "src/core/transform.rs:14-60", "src/core/mod.rs:117-121"]}
{"id": "C115", "title": "Scenes that break off", "statement": "If a scene is cut off at any token before the end of its block, this is reported as the end of the input, except where the cut is inside of a directive that needs more: too few numbers, a missing string or identifier, half a point, a part of a colour. Then a message appears, and it is known which; a message never appears elsewhere, and behind the block end the result does not change. Before a keyword the cut is always harmless, except for the name behind ActiveTransform. Likewise for a text of which only the first lines are read. A user would expect that only the end of the input is reported: instead a number that belongs to an unfinished colour or point is blamed.", "quantifier": "all accepted token lists and texts, all places of the cut, all environments", "why_tests_cant": "all cuts of all scenes", "anchors": ["src/parser.rs:563-760", "src/parser.rs:823-960"]}
{"id": "C116", "title": "Texts cut off or continued at any character", "statement": "If a text is cut at any character and the first part is still a sequence of tokens, its tokens are the first tokens of the whole text; only the last one may be the beginning of an identifier or another number. A text that is accepted and continued by anything that still yields tokens is the same scene, except that the word of the block end may become longer, which is reported as an unknown identifier. So a text and its first part are never two different scenes. An accepted text that is cut inside of an identifier is already complete, or the beginning of the word is reported as unknown at its place, or the word is the name behind ActiveTransform; one keyword is the beginning of another (Transform and TransformTimes). The first part fails to be a sequence of tokens only if the cut is inside of a string or a number. A user would expect that the first part of an accepted text never panics: it may, in a number with an exponent and a dot.", "quantifier": "all texts, all places of the cut, all environments", "why_tests_cant": "all cuts of all texts", "anchors": ["src/parser.rs:184-330", "src/parser.rs:823-960"]}
{"id": "C117", "title": "Where infinities go", "statement": "A sum, difference, product, quotient or root with an infinite operand that is not NaN is the infinity of the expected sign, and a finite number divided by infinity is zero. The length of a vector with an infinite component is infinite; divided by it, the infinite components become NaN and the others zero. For a box a side of which reaches infinity: this side has infinite length and is the longest one if the others are finite; expand by a finite distance keeps infinite coordinates; if all sides have a length the surface area is infinite, and the volume is if the side is one of the first two. If the box is flat on another axis, there is neither surface area nor volume. Relative positions of finite points are zero or NaN, points between a finite and an infinite coordinate are infinite, the bounding sphere has a centre that is not finite and the radius zero, infinity or NaN, and a ray has points at infinity only on the axes on which it moves. A user would expect a volume for an infinite column, a radius for the box of everything, and lerp(0) to be the lower corner.", "quantifier": "all floats of both formats, all vectors, boxes and rays", "why_tests_cant": "infinite operands in every place of every formula, for all values of the others", "anchors": ["src/core/boundingbox.rs:136-238", "src/core/vector.rs:65-80", "src/core/ray.rs:22-30"]}
{"id": "C118", "title": "What of the pbrt-v3 scene format is understood", "statement": "Of the keywords that the scene format of pbrt, version 3, allows before WorldBegin all but PixelFilter, MakeNamedMedium and MediumInterface can start a scene; inside the world the transformations, objects, named materials, media and ReverseOrientation are missing, all others can be used. A missing keyword makes the parse fail wherever it stands and is named in the message. Parameters of the types integer, float, point2, vector2, bool, string, rgb, xyz, spectrum, blackbody and texture are recorded; a parameter of type point, point3, vector, vector3, normal, normal3 or color makes the parse fail, and its declaration is shown as unexpected. A matrix in brackets is never read. A user would expect scenes of version 3 to be read; a triangle mesh, a translation inside the world, a matrix and a pixel filter are not.", "quantifier": "every keyword and parameter type of the format, after every header and every beginning of a world, whatever follows", "why_tests_cant": "the keywords can stand anywhere in a scene", "anchors": ["src/parser.rs:568-700", "src/parser.rs:1004-1103", "src/parser.rs:1105-1310"]}
{"id": "C119", "title": "Where blanks are needed, and letters behind numbers", "statement": "A lexeme is one token exactly where the next character does not stick to it: letters and digits stick to a word, digits, points and the letter e to a number, nothing sticks to brackets and strings. Where nothing sticks, blanks and comments may be added or left out: the tokens are the same up to positions, and so is the scene. A number may be followed directly by a word that does not start with e: these are two tokens. So a text in which a number is directly followed by a letter that starts no keyword (all small letters but e, half of the capital ones), before the end of a block, is not a scene, whatever comes after it. A user would expect 1E5 to be read as 1e5; it is the number 1 and the word E5.", "quantifier": "all texts, all lexemes, all separators, every letter", "why_tests_cant": "any lexeme can stand before any other, in front of any rest of a text", "anchors": ["src/parser.rs:313-528"]}
{"id": "C120", "title": "Why a parameter is malformed, and that nobody is told", "statement": "Where a parameter could start, either one does or there is exactly one reason why not, which the parameter reader states: nothing left, no string, not two words, not a type, or a value that is not of the type (no item, no opening bracket, no closing bracket, too few numbers, an odd number of samples), with the place and the token found. An empty list is refused because a bracket is no item; the messages for empty lists are never used. A user would expect to be told the reason; but it is thrown away: the scene is refused with another message or accepted without the parameter.", "quantifier": "all token lists, all parameter types, all positions of the reader", "why_tests_cant": "every type can meet every token at every place in its value, and the messages are not visible from outside", "anchors": ["src/parser.rs:563-821", "src/parser.rs:823-1002", "src/parser.rs:1321-1356"]}
{"id": "C121", "title": "What Debug prints", "statement": "From the derived Debug output of a scene, a part of a scene, a list of tokens, an error, a vector, point, normal, matrix or transform, in one line or in many, the value can be read off: values that are shown alike are identical. This needs that the standard library shows different floats, strings and paths differently, strings and paths between quotes and floats without separators. The one-line form has no line breaks; the many-line form of a 4 by 4 matrix, which the program prints, has 28 lines with one entry each. A user would expect that Debug and == tell the same scenes apart; but equal scenes can be shown differently (zeros of both signs, spellings of a path), and a scene with NaN is shown like itself but not equal to itself.", "quantifier": "all scenes, tokens, parameter sets, errors, vectors, matrices and transforms; all float texts, both versions of the trailing comma", "why_tests_cant": "a test compares the output of a few values; strings can contain what looks like output", "anchors": ["src/parser.rs:6-61", "src/parser.rs:143-231", "src/core/matrix.rs:4-12", "src/core/mod.rs:123-130", "src/bin/pbrt.rs:18-20"]}
{"id": "C122", "title": "How far the two precisions differ", "statement": "Every float of a scene is computed by a formula that depends on the text only, not on the float type: a text given to the library, an integer, or products and powers of ten of these; the formula is a single text exactly if the literal has no exponent. For literals without exponent and for integers, with a library that rounds correctly, the single precision float is a float nearest to the double precision one, so the two differ by at most half a unit in the last place of single precision, and numbers of at most 24 bits are the same in both. One would expect that converting the double precision float gives the single precision one; this fails even for literals without exponent, if the double precision float is half way between two single precision ones.", "quantifier": "all texts, all libraries; for the distance all decimal literals in the range of single precision and all libraries that round correctly", "why_tests_cant": "the cases where rounding twice matters are rare: the literal has to be next to the middle of two floats", "anchors": ["src/core/mod.rs:31-34", "src/parser.rs:361-440"]}
{"id": "C123", "title": "Numbers in scientific notation", "statement": "A literal with a point and an exponent is the product of its mantissa and a power of ten, each rounded. If the mantissa is a number of the format and the exponent is from 0 to 10 (f32) or to 22 (f64), the literal denotes a float nearest to the number written, and the number itself if the format has it; this assumes that powf is exact where it can be. Literals with the same exponent keep the order of their mantissas. One would expect that any number that the format has is read exactly however it is written; this fails: 1.1e2 is not 110 in double precision, 1.2e2 is not 120 in single precision, although 11e1, 110.0, 12e1 and 120.0 are.", "quantifier": "all literals with a point and an exponent, all libraries that round correctly and have exact powers of ten, f32 and f64", "why_tests_cant": "most literals are read exactly; the failing ones have to be searched for", "anchors": ["src/parser.rs:361-440"]}
{"id": "C124", "title": "What the program prints", "statement": "Whatever its arguments, the program does not panic: it prints 28 lines that show a 4 by 4 matrix of finite floats, one entry per line. Every entry differs from the entry of the exact inverse of the matrix in the program by less than 0.0000013 (f32) or 1e-13 (f64). One would expect that entries of the inverse that are whole numbers are printed as such; this fails: the last entry is -7, but neither build prints the float -7.", "quantifier": "all arguments, with and without overflow checks, all ways to show floats that can be read off, both versions of the trailing comma, f32 and f64", "why_tests_cant": "the program has no tests", "anchors": ["src/bin/pbrt.rs:10-20", "src/core/matrix.rs:35-100"]}
{"id": "C125", "title": "Floats as they are shown", "statement": "Debug shows a finite float as the shortest decimal that is read back as that float: every decimal that is read as it has at least as many significant digits and ends at the same or a lower place, and none that ends at the same place is closer; nine (f32) or seventeen (f64) digits are enough. The texts are in the order of the floats. Newer libraries write the same decimal, with an exponent exactly if it is below 10^-4 or from 10^16 on. Different floats have different texts, so values can be read off what Debug writes and off the messages. A text without an exponent is a literal from which the parser makes the same float (this covers all floats from 0.0001 up to 10^16), so a scene can be written with such texts. One would expect this of all texts; it fails for very small and very large floats, which newer libraries show with an exponent: 3e-5 (f64) and 1.3e-5 (f32) are read as other floats, 1e16 (f32) as an integer, and 1e19 (f64) makes the parser panic if overflow is checked. With this the output of the program is known to the last digit.", "quantifier": "all floats, libraries that write exponents and libraries that do not, f32 and f64", "why_tests_cant": "there are 2^64 floats, and the failing ones are outside the range that scenes usually have", "anchors": ["src/parser.rs:361-440", "src/bin/pbrt.rs:10-20", "src/core/matrix.rs:10-33"]}
{"id": "C126", "title": "Reading what is shown with an exponent", "statement": "Floats below 10^-4 and from 10^16 on are shown with an exponent by newer libraries. If such a text has no point and the float is large, the parser reads it as an integer if the float is below 2^63, and where a float is expected this integer is converted to the same float again; from 2^63 on the parser panics if overflow is checked, and otherwise reads an integer that is not converted to that float (0 from 10^65 on). Any other such text is read as a finite float, which is at most five times half a unit in the last place away if the float shown is at least 10^-30 (f32) or 10^-290 (f64); powers of ten are assumed to be rounded correctly. One would expect that tiny floats are read as something near too; this fails: the smallest f64 is shown as 5e-324, which is read as zero, and the second smallest f32 is shown as 3e-45, which is read as the third smallest. The largest f32 is shown as 3.4028235e38, which is read as the one below.", "quantifier": "all finite floats that are shown with an exponent, f32 and f64, with and without overflow checks", "why_tests_cant": "there are 2^64 floats; the exact ones among the texts suggest that all are, and the failing ones are at the ends of the range", "anchors": ["src/parser.rs:361-440"]}
{"id": "C127", "title": "Scenes written with approximate numbers", "statement": "If the numbers of a scene are written as literals that the parser reads as other floats, the parser returns the scene with these floats and nothing else changed: the same directives, names, integers and texts. In particular a scene can be written with what newer libraries show of its floats, if floats from 10^16 on are shown with a point: every float of what is read is finite, and differs from the right one by at most five times half a unit in the last place if that is zero or at least 10^-30 (f32) or 10^-290 (f64). The same holds for what was parsed from any text, printed in this way and parsed again. One would expect that every scene of finite floats can be written in this way; this fails: the parser panics at Translate 1e19 0 0 if overflow is checked. One would also expect that a second round changes nothing; this fails: 7.521651023526171e146 (f64) is read as the float below, the text of that as the next one below, and so on for at least twenty rounds.", "quantifier": "all scenes whose blocks come last, all layouts, all texts for the floats; f32 and f64, with and without overflow checks", "why_tests_cant": "scenes and floats are unbounded, and the property relates every float read to the float written", "anchors": ["src/parser.rs:361-440", "src/parser.rs:1358-1361"]}
