import Verif.Proof.Nearest
import Verif.Spec.Samples
import Verif.Props.Lexing
import Verif.Props.Literals
import Mathlib.Algebra.BigOperators.Fin

/-!
# The repository's own unit tests, run on the model

`/repo/src/parser.rs:1364-1891` and `/repo/src/core/matrix.rs:161-209`: each test is evaluated by the
kernel on the model, with both float types. They are no properties; they are evidence that the
model is the program. The library is `ieeeEnv`. The two test files of `/repo/parser_tests` are
copied character by character.
-/

namespace Pbrt.UnitTests

open Spec

/-! Equality of directives is decidable. -/

mutual
def decDirective {F : Type} [DecidableEq F] : (a b : Directive F) → Decidable (a = b)
  | .Material d, .Material d' => decidable_of_iff (d = d') (by simp)
  | .Shape d, .Shape d' => decidable_of_iff (d = d') (by simp)
  | .LightSource d, .LightSource d' => decidable_of_iff (d = d') (by simp)
  | .AreaLightSource d, .AreaLightSource d' => decidable_of_iff (d = d') (by simp)
  | .Texture d, .Texture d' => decidable_of_iff (d = d') (by simp)
  | .Attribute p ds, .Attribute p' ds' =>
    match decDirectives ds ds' with
    | isTrue h => decidable_of_iff (p = p') (by simp [h])
    | isFalse h => isFalse (by simp [h])
  | .Transform p ds, .Transform p' ds' =>
    match decDirectives ds ds' with
    | isTrue h => decidable_of_iff (p = p') (by simp [h])
    | isFalse h => isFalse (by simp [h])
  | .World p ds, .World p' ds' =>
    match decDirectives ds ds' with
    | isTrue h => decidable_of_iff (p = p') (by simp [h])
    | isFalse h => isFalse (by simp [h])
  | .Include p s, .Include p' s' => decidable_of_iff (p = p' ∧ s = s') (by simp)
  | .Material _, .Shape _ => isFalse nofun
  | .Material _, .LightSource _ => isFalse nofun
  | .Material _, .AreaLightSource _ => isFalse nofun
  | .Material _, .Texture _ => isFalse nofun
  | .Material _, .Attribute _ _ => isFalse nofun
  | .Material _, .Transform _ _ => isFalse nofun
  | .Material _, .World _ _ => isFalse nofun
  | .Material _, .Include _ _ => isFalse nofun
  | .Shape _, .Material _ => isFalse nofun
  | .Shape _, .LightSource _ => isFalse nofun
  | .Shape _, .AreaLightSource _ => isFalse nofun
  | .Shape _, .Texture _ => isFalse nofun
  | .Shape _, .Attribute _ _ => isFalse nofun
  | .Shape _, .Transform _ _ => isFalse nofun
  | .Shape _, .World _ _ => isFalse nofun
  | .Shape _, .Include _ _ => isFalse nofun
  | .LightSource _, .Material _ => isFalse nofun
  | .LightSource _, .Shape _ => isFalse nofun
  | .LightSource _, .AreaLightSource _ => isFalse nofun
  | .LightSource _, .Texture _ => isFalse nofun
  | .LightSource _, .Attribute _ _ => isFalse nofun
  | .LightSource _, .Transform _ _ => isFalse nofun
  | .LightSource _, .World _ _ => isFalse nofun
  | .LightSource _, .Include _ _ => isFalse nofun
  | .AreaLightSource _, .Material _ => isFalse nofun
  | .AreaLightSource _, .Shape _ => isFalse nofun
  | .AreaLightSource _, .LightSource _ => isFalse nofun
  | .AreaLightSource _, .Texture _ => isFalse nofun
  | .AreaLightSource _, .Attribute _ _ => isFalse nofun
  | .AreaLightSource _, .Transform _ _ => isFalse nofun
  | .AreaLightSource _, .World _ _ => isFalse nofun
  | .AreaLightSource _, .Include _ _ => isFalse nofun
  | .Texture _, .Material _ => isFalse nofun
  | .Texture _, .Shape _ => isFalse nofun
  | .Texture _, .LightSource _ => isFalse nofun
  | .Texture _, .AreaLightSource _ => isFalse nofun
  | .Texture _, .Attribute _ _ => isFalse nofun
  | .Texture _, .Transform _ _ => isFalse nofun
  | .Texture _, .World _ _ => isFalse nofun
  | .Texture _, .Include _ _ => isFalse nofun
  | .Attribute _ _, .Material _ => isFalse nofun
  | .Attribute _ _, .Shape _ => isFalse nofun
  | .Attribute _ _, .LightSource _ => isFalse nofun
  | .Attribute _ _, .AreaLightSource _ => isFalse nofun
  | .Attribute _ _, .Texture _ => isFalse nofun
  | .Attribute _ _, .Transform _ _ => isFalse nofun
  | .Attribute _ _, .World _ _ => isFalse nofun
  | .Attribute _ _, .Include _ _ => isFalse nofun
  | .Transform _ _, .Material _ => isFalse nofun
  | .Transform _ _, .Shape _ => isFalse nofun
  | .Transform _ _, .LightSource _ => isFalse nofun
  | .Transform _ _, .AreaLightSource _ => isFalse nofun
  | .Transform _ _, .Texture _ => isFalse nofun
  | .Transform _ _, .Attribute _ _ => isFalse nofun
  | .Transform _ _, .World _ _ => isFalse nofun
  | .Transform _ _, .Include _ _ => isFalse nofun
  | .World _ _, .Material _ => isFalse nofun
  | .World _ _, .Shape _ => isFalse nofun
  | .World _ _, .LightSource _ => isFalse nofun
  | .World _ _, .AreaLightSource _ => isFalse nofun
  | .World _ _, .Texture _ => isFalse nofun
  | .World _ _, .Attribute _ _ => isFalse nofun
  | .World _ _, .Transform _ _ => isFalse nofun
  | .World _ _, .Include _ _ => isFalse nofun
  | .Include _ _, .Material _ => isFalse nofun
  | .Include _ _, .Shape _ => isFalse nofun
  | .Include _ _, .LightSource _ => isFalse nofun
  | .Include _ _, .AreaLightSource _ => isFalse nofun
  | .Include _ _, .Texture _ => isFalse nofun
  | .Include _ _, .Attribute _ _ => isFalse nofun
  | .Include _ _, .Transform _ _ => isFalse nofun
  | .Include _ _, .World _ _ => isFalse nofun

def decDirectives {F : Type} [DecidableEq F] : (a b : List (Directive F)) → Decidable (a = b)
  | [], [] => isTrue rfl
  | a :: as, b :: bs =>
    match decDirective a b, decDirectives as bs with
    | isTrue h, isTrue h' => isTrue (by rw [h, h'])
    | isFalse h, _ => isFalse (by rintro ⟨⟩; exact h rfl)
    | _, isFalse h => isFalse (by rintro ⟨⟩; exact h rfl)
  | [], _ :: _ => isFalse nofun
  | _ :: _, [] => isFalse nofun
end

instance {F : Type} [DecidableEq F] : DecidableEq (Directive F) := decDirective

/-- `Parser::new(text).unwrap()` followed by a method; `none` is the panic of `unwrap` -/
def run {F α : Type} (E : Env F) (text : String) (method : PM F α) : Option (Res ParserError α) :=
  match tokenize E text.toList with
  | .ok tokens => some (method ⟨tokens, 0⟩).1
  | _ => none

/-- `is_err` -/
def isErr {α : Type} : Option (Res ParserError α) → Bool
  | some (.err _) => true
  | _ => false

variable {T : Type} [Elem T] [As T T] [FloatFns T] [IEEE T]

variable (T) in
/-- A float literal of the Rust sources -/
def lit (s : String) : T :=
  match ieeeParse T s.toList with
  | .ok f => f
  | .error _ => Elem.fromInt 0

/-- `/repo/parser_tests/block.pbrt` -/
def block : String :=
    "\n".intercalate [
      "WorldBegin",
      "    AttributeBegin",
      "        Material \"glass\"",
      "        Shape \"sphere\" \"float radius\" 1",
      "    AttributeEnd",
      "WorldEnd",
      ""]

/-- The lines of `/repo/parser_tests/test1.pbrt` -/
def test1Lines : List String := [
      "Include \"file1.pbrt\"",
      "",
      "LookAt 3 4 1.5  # eye",
      "       .5 .5 0  # look at point",
      "       0 0 1    # up vector",
      "Camera \"perspective\" \"float fov\" 45",
      "",
      "Sampler \"halton\" \"integer pixelsamples\" 128",
      "Integrator \"path\"",
      "Film \"image\" \"string filename\" \"simple.png\"",
      "     \"integer xresolution\" [400] \"integer yresolution\" [400]",
      "",
      "WorldBegin",
      "LightSource \"infinite\" \"rgb L\" [.4 .45 .5]",
      "",
      "AttributeBegin",
      "  Texture \"checks\" \"spectrum\" \"checkerboard\"",
      "          \"float uscale\" [8] \"float vscale\" [8]",
      "          \"rgb tex1\" [.1 .1 .1] \"rgb tex2\" [.8 .8 .8]",
      "  Material \"matte\" \"texture Kd\" \"checks\"",
      "  Shape \"sphere\" \"float radius\" 1",
      "AttributeEnd",
      "WorldEnd",
      ""]

/-- `/repo/parser_tests/test1.pbrt` -/
def test1 : List Char :=
    ['\n'].intercalate (test1Lines.map String.toList)

variable (T) in
/-- parser.rs:1372-1375 `test_tokenize_whitespace` -/
def testTokenizeWhitespace (E : Env T) : Prop :=
    tokenize E "   ".toList = .ok []

theorem test_tokenize_whitespace : testTokenizeWhitespace Float32.Model (ieeeEnv _ true) ∧ testTokenizeWhitespace Float.Model (ieeeEnv _ true) := by
  unfold testTokenizeWhitespace; decide +kernel

variable (T) in
/-- parser.rs:1377-1386 `test_tokenize_comment` -/
def testTokenizeComment (E : Env T) : Prop :=
    tokenize E "  # comment\n123".toList = .ok [⟨⟨2, 1⟩, .Int 123⟩]

theorem test_tokenize_comment : testTokenizeComment Float32.Model (ieeeEnv _ true) ∧ testTokenizeComment Float.Model (ieeeEnv _ true) := by
  unfold testTokenizeComment; decide +kernel

variable (T) in
/-- parser.rs:1388-1397 `test_tokenize_positive_int` -/
def testTokenizePositiveInt (E : Env T) : Prop :=
    tokenize E "123".toList = .ok [⟨⟨1, 1⟩, .Int 123⟩]

theorem test_tokenize_positive_int : testTokenizePositiveInt Float32.Model (ieeeEnv _ true) ∧ testTokenizePositiveInt Float.Model (ieeeEnv _ true) := by
  unfold testTokenizePositiveInt; decide +kernel

variable (T) in
/-- parser.rs:1399-1408 `test_tokenize_negative_int` -/
def testTokenizeNegativeInt (E : Env T) : Prop :=
    tokenize E "-123".toList = .ok [⟨⟨1, 1⟩, .Int (-123)⟩]

theorem test_tokenize_negative_int : testTokenizeNegativeInt Float32.Model (ieeeEnv _ true) ∧ testTokenizeNegativeInt Float.Model (ieeeEnv _ true) := by
  unfold testTokenizeNegativeInt; decide +kernel

variable (T) in
/-- parser.rs:1410-1419 `test_tokenize_negative_float` -/
def testTokenizeNegativeFloat (E : Env T) : Prop :=
    tokenize E "-1.23".toList = .ok [⟨⟨1, 1⟩, .Float (lit T "-1.23")⟩]

theorem test_tokenize_negative_float : testTokenizeNegativeFloat Float32.Model (ieeeEnv _ true) ∧ testTokenizeNegativeFloat Float.Model (ieeeEnv _ true) := by
  unfold testTokenizeNegativeFloat; decide +kernel

variable (T) in
/-- parser.rs:1421-1430 `test_tokenize_positive_float` -/
def testTokenizePositiveFloat (E : Env T) : Prop :=
    tokenize E "1.23".toList = .ok [⟨⟨1, 1⟩, .Float (lit T "1.23")⟩]

theorem test_tokenize_positive_float : testTokenizePositiveFloat Float32.Model (ieeeEnv _ true) ∧ testTokenizePositiveFloat Float.Model (ieeeEnv _ true) := by
  unfold testTokenizePositiveFloat; decide +kernel

variable (T) in
/-- parser.rs:1432-1441 `test_tokenize_exp1` -/
def testTokenizeExp1 (E : Env T) : Prop :=
    tokenize E "1.23e12".toList = .ok [⟨⟨1, 1⟩, .Float (E.fmul (lit T "1.23") (E.powf10 (lit T "12.0")))⟩]

theorem test_tokenize_exp1 : testTokenizeExp1 Float32.Model (ieeeEnv _ true) ∧ testTokenizeExp1 Float.Model (ieeeEnv _ true) := by
  unfold testTokenizeExp1; decide +kernel

variable (T) in
/-- parser.rs:1443-1452 `test_tokenize_exp2` -/
def testTokenizeExp2 (E : Env T) : Prop :=
    tokenize E "1.23e-12".toList = .ok [⟨⟨1, 1⟩, .Float (E.fmul (lit T "1.23") (E.powf10 (lit T "-12.0")))⟩]

theorem test_tokenize_exp2 : testTokenizeExp2 Float32.Model (ieeeEnv _ true) ∧ testTokenizeExp2 Float.Model (ieeeEnv _ true) := by
  unfold testTokenizeExp2; decide +kernel

variable (T) in
/-- parser.rs:1454-1463 `test_tokenize_exp3` -/
def testTokenizeExp3 (E : Env T) : Prop :=
    tokenize E "1e12".toList = .ok [⟨⟨1, 1⟩, .Int (10 ^ 12)⟩]

theorem test_tokenize_exp3 : testTokenizeExp3 Float32.Model (ieeeEnv _ true) ∧ testTokenizeExp3 Float.Model (ieeeEnv _ true) := by
  unfold testTokenizeExp3; decide +kernel

variable (T) in
/-- parser.rs:1465-1473 `test_tokenize_exp4` -/
def testTokenizeExp4 (E : Env T) : Prop :=
    tokenize E "1ed12".toList = .err (.Str "(1, 3) tokenize_num(): no number")

theorem test_tokenize_exp4 : testTokenizeExp4 Float32.Model (ieeeEnv _ true) ∧ testTokenizeExp4 Float.Model (ieeeEnv _ true) := by
  unfold testTokenizeExp4; decide +kernel

variable (T) in
/-- parser.rs:1475-1506 `test_tokenize1` -/
def testTokenize1 (E : Env T) : Prop :=
    tokenize E "Accelerator \"kdtree\" \"float emptybonus\" [0.1]".toList = .ok [
      ⟨⟨1, 1⟩, .Identifier "Accelerator"⟩, ⟨⟨1, 13⟩, .Str "kdtree"⟩,
      ⟨⟨1, 22⟩, .Str "float emptybonus"⟩, ⟨⟨1, 41⟩, .LBracket⟩,
      ⟨⟨1, 42⟩, .Float (lit T "0.1")⟩, ⟨⟨1, 45⟩, .RBracket⟩]

theorem test_tokenize1 : testTokenize1 Float32.Model (ieeeEnv _ true) ∧ testTokenize1 Float.Model (ieeeEnv _ true) := by
  unfold testTokenize1; decide +kernel

variable (T) in
/-- parser.rs:1508-1515 `test_parse_one_int` -/
def testParseOneInt (E : Env T) : Prop :=
    run E "1" (parseOneOrList E (parseInt E) "int") = some (.ok [1])

theorem test_parse_one_int : testParseOneInt Float32.Model (ieeeEnv _ true) ∧ testParseOneInt Float.Model (ieeeEnv _ true) := by
  unfold testParseOneInt; decide +kernel

variable (T) in
/-- parser.rs:1517-1524 `test_parse_ints` -/
def testParseInts (E : Env T) : Prop :=
    run E "[1 2 3]" (parseOneOrList E (parseInt E) "int") = some (.ok [1, 2, 3])

theorem test_parse_ints : testParseInts Float32.Model (ieeeEnv _ true) ∧ testParseInts Float.Model (ieeeEnv _ true) := by
  unfold testParseInts; decide +kernel

variable (T) in
/-- parser.rs:1526-1530 `test_parse_ints_err1` -/
def testParseIntsErr1 (E : Env T) : Prop :=
    isErr (run E "[1 2 3.0]" (parseOneOrList E (parseInt E) "int")) = true

theorem test_parse_ints_err1 : testParseIntsErr1 Float32.Model (ieeeEnv _ true) ∧ testParseIntsErr1 Float.Model (ieeeEnv _ true) := by
  unfold testParseIntsErr1; decide +kernel

variable (T) in
/-- parser.rs:1532-1536 `test_parse_ints_err2` -/
def testParseIntsErr2 (E : Env T) : Prop :=
    isErr (run E "[]" (parseOneOrList E (parseInt E) "int")) = true

theorem test_parse_ints_err2 : testParseIntsErr2 Float32.Model (ieeeEnv _ true) ∧ testParseIntsErr2 Float.Model (ieeeEnv _ true) := by
  unfold testParseIntsErr2; decide +kernel

variable (T) in
/-- parser.rs:1538-1545 `test_parse_one_bool` -/
def testParseOneBool (E : Env T) : Prop :=
    run E "[\"true\"]" (parseOneOrList E (parseBool E) "bool") = some (.ok [true])

theorem test_parse_one_bool : testParseOneBool Float32.Model (ieeeEnv _ true) ∧ testParseOneBool Float.Model (ieeeEnv _ true) := by
  unfold testParseOneBool; decide +kernel

variable (T) in
/-- parser.rs:1547-1554 `test_parse_bools` -/
def testParseBools (E : Env T) : Prop :=
    run E "[\"true\" \"false\" \"true\"]" (parseOneOrList E (parseBool E) "bool") = some (.ok [true, false, true])

theorem test_parse_bools : testParseBools Float32.Model (ieeeEnv _ true) ∧ testParseBools Float.Model (ieeeEnv _ true) := by
  unfold testParseBools; decide +kernel

variable (T) in
/-- parser.rs:1556-1564 `test_parse_bools_err` -/
def testParseBoolsErr (E : Env T) : Prop :=
    isErr (run E "[\"true\" \"false\" 3.0]" (parseOneOrList E (parseBool E) "bool")) = true

theorem test_parse_bools_err : testParseBoolsErr Float32.Model (ieeeEnv _ true) ∧ testParseBoolsErr Float.Model (ieeeEnv _ true) := by
  unfold testParseBoolsErr; decide +kernel

variable (T) in
/-- parser.rs:1566-1573 `test_parse_one_float` -/
def testParseOneFloat (E : Env T) : Prop :=
    run E "1.0" (parseOneOrList E (parseFloat E) "float") = some (.ok [lit T "1.0"])

theorem test_parse_one_float : testParseOneFloat Float32.Model (ieeeEnv _ true) ∧ testParseOneFloat Float.Model (ieeeEnv _ true) := by
  unfold testParseOneFloat; decide +kernel

variable (T) in
/-- parser.rs:1575-1582 `test_parse_floats` -/
def testParseFloats (E : Env T) : Prop :=
    run E "[1 2.0 3]" (parseOneOrList E (parseFloat E) "float") = some (.ok [lit T "1.0", lit T "2.0", lit T "3.0"])

theorem test_parse_floats : testParseFloats Float32.Model (ieeeEnv _ true) ∧ testParseFloats Float.Model (ieeeEnv _ true) := by
  unfold testParseFloats; decide +kernel

variable (T) in
/-- parser.rs:1584-1592 `test_parse_floats_err` -/
def testParseFloatsErr (E : Env T) : Prop :=
    isErr (run E "[1 test 2]" (parseOneOrList E (parseFloat E) "float")) = true

theorem test_parse_floats_err : testParseFloatsErr Float32.Model (ieeeEnv _ true) ∧ testParseFloatsErr Float.Model (ieeeEnv _ true) := by
  unfold testParseFloatsErr; decide +kernel

variable (T) in
/-- parser.rs:1594-1601 `test_parse_one_point2` -/
def testParseOnePoint2 (E : Env T) : Prop :=
    run E "1.0 2.0" (parseOneOrList E (parsePoint2f E) "point2f") = some (.ok [⟨lit T "1.0", lit T "2.0"⟩])

theorem test_parse_one_point2 : testParseOnePoint2 Float32.Model (ieeeEnv _ true) ∧ testParseOnePoint2 Float.Model (ieeeEnv _ true) := by
  unfold testParseOnePoint2; decide +kernel

variable (T) in
/-- parser.rs:1603-1614 `test_parse_point2s` -/
def testParsePoint2s (E : Env T) : Prop :=
    run E "[1 2.0 3 4 5 6]" (parseOneOrList E (parsePoint2f E) "point2f") = some (.ok [
      ⟨lit T "1.0", lit T "2.0"⟩, ⟨lit T "3.0", lit T "4.0"⟩, ⟨lit T "5.0", lit T "6.0"⟩])

theorem test_parse_point2s : testParsePoint2s Float32.Model (ieeeEnv _ true) ∧ testParsePoint2s Float.Model (ieeeEnv _ true) := by
  unfold testParsePoint2s; decide +kernel

variable (T) in
/-- parser.rs:1616-1622 `test_parse_point2s_err` -/
def testParsePoint2sErr (E : Env T) : Prop :=
    isErr (run E "[1 2.0 3]" (parseOneOrList E (parsePoint2f E) "point2f")) = true

theorem test_parse_point2s_err : testParsePoint2sErr Float32.Model (ieeeEnv _ true) ∧ testParsePoint2sErr Float.Model (ieeeEnv _ true) := by
  unfold testParsePoint2sErr; decide +kernel

variable (T) in
/-- parser.rs:1624-1633 `test_parse_param_list1` -/
def testParseParamList1 (E : Env T) : Prop :=
    run E "\"float fov\" [30]" (parseParamList E .default) = some (.ok 
      { ParamSet.default with floats := [⟨"fov", ⟨1, 1⟩, [lit T "30.0"]⟩] })

theorem test_parse_param_list1 : testParseParamList1 Float32.Model (ieeeEnv _ true) ∧ testParseParamList1 Float.Model (ieeeEnv _ true) := by
  unfold testParseParamList1; decide +kernel

variable (T) in
/-- parser.rs:1635-1652 `test_parse_param_list2` -/
def testParseParamList2 (E : Env T) : Prop :=
    run E "\"point2 points\" [1 2 3 4 5 6]" (parseParamList E .default) = some (.ok 
      { ParamSet.default with point2fs := [⟨"points", ⟨1, 1⟩, [⟨lit T "1.0", lit T "2.0"⟩,
        ⟨lit T "3.0", lit T "4.0"⟩, ⟨lit T "5.0", lit T "6.0"⟩]⟩] })

theorem test_parse_param_list2 : testParseParamList2 Float32.Model (ieeeEnv _ true) ∧ testParseParamList2 Float.Model (ieeeEnv _ true) := by
  unfold testParseParamList2; decide +kernel

variable (T) in
/-- parser.rs:1654-1667 `test_parse_param_list_rgb` -/
def testParseParamListRgb (E : Env T) : Prop :=
    run E "\"rgb Kd\" [.2 .5 .3]" (parseParamList E .default) = some (.ok 
      { ParamSet.default with spectra := [⟨"Kd", ⟨1, 1⟩,
        [.Rgb (lit T "0.2") (lit T "0.5") (lit T "0.3")]⟩] })

theorem test_parse_param_list_rgb : testParseParamListRgb Float32.Model (ieeeEnv _ true) ∧ testParseParamListRgb Float.Model (ieeeEnv _ true) := by
  unfold testParseParamListRgb; decide +kernel

variable (T) in
/-- parser.rs:1669-1673 `test_parse_param_list_rgb_err1` -/
def testParseParamListRgbErr1 (E : Env T) : Prop :=
    isErr (run E "\"rgb Kd\" [.2 .5]" (parseParamList E .default)) = true

theorem test_parse_param_list_rgb_err1 : testParseParamListRgbErr1 Float32.Model (ieeeEnv _ true) ∧ testParseParamListRgbErr1 Float.Model (ieeeEnv _ true) := by
  unfold testParseParamListRgbErr1; decide +kernel

variable (T) in
/-- parser.rs:1675-1678 `test_parse_param_list_rgb_err2` -/
def testParseParamListRgbErr2 (E : Env T) : Prop :=
    isErr (run E "\"rgb Kd\" [.2 .5 .3 .4]" (parseParamList E .default)) = true

theorem test_parse_param_list_rgb_err2 : testParseParamListRgbErr2 Float32.Model (ieeeEnv _ true) ∧ testParseParamListRgbErr2 Float.Model (ieeeEnv _ true) := by
  unfold testParseParamListRgbErr2; decide +kernel

variable (T) in
/-- parser.rs:1680-1693 `test_parse_param_list_spectrum` -/
def testParseParamListSpectrum (E : Env T) : Prop :=
    run E "\"spectrum Kd\" [300 .3 400 .6]" (parseParamList E .default) = some (.ok 
      { ParamSet.default with spectra := [⟨"Kd", ⟨1, 1⟩,
        [.Spectrum [(lit T "300.0", lit T "0.3"), (lit T "400.0", lit T "0.6")]]⟩] })

theorem test_parse_param_list_spectrum : testParseParamListSpectrum Float32.Model (ieeeEnv _ true) ∧ testParseParamListSpectrum Float.Model (ieeeEnv _ true) := by
  unfold testParseParamListSpectrum; decide +kernel

variable (T) in
/-- parser.rs:1695-1708 `test_parse_param_list_spectrum_file` -/
def testParseParamListSpectrumFile (E : Env T) : Prop :=
    run E "\"spectrum Kd\" \"filename\"" (parseParamList E .default) = some (.ok 
      { ParamSet.default with spectra := [⟨"Kd", ⟨1, 1⟩, [.File "filename"]⟩] })

theorem test_parse_param_list_spectrum_file : testParseParamListSpectrumFile Float32.Model (ieeeEnv _ true) ∧ testParseParamListSpectrumFile Float.Model (ieeeEnv _ true) := by
  unfold testParseParamListSpectrumFile; decide +kernel

variable (T) in
/-- parser.rs:1710-1725 `test_parse_directive` -/
def testParseDirective (E : Env T) : Prop :=
    run E "Shape \"sphere\" \"float radius\" 1" (parseDirective E 10) = some (.ok 
      (.Shape ⟨"sphere", ⟨1, 1⟩,
        { ParamSet.default with floats := [⟨"radius", ⟨1, 16⟩, [lit T "1.0"]⟩] }⟩))

theorem test_parse_directive : testParseDirective Float32.Model (ieeeEnv _ true) ∧ testParseDirective Float.Model (ieeeEnv _ true) := by
  unfold testParseDirective; decide +kernel

variable (T) in
/-- parser.rs:1727-1737 `test_parse_transform` -/
def testParseTransform (E : Env T) : Prop :=
    run E "Translate 1 0 0" (parsePredirective E) = some (.ok 
      (.Translate ⟨1, 1⟩ ⟨lit T "1.0", lit T "0.0", lit T "0.0"⟩))

theorem test_parse_transform : testParseTransform Float32.Model (ieeeEnv _ true) ∧ testParseTransform Float.Model (ieeeEnv _ true) := by
  unfold testParseTransform; decide +kernel

variable (T) in
/-- parser.rs:1739-1773 `test_parse_block` -/
def testParseBlock (E : Env T) : Prop :=
    run E block (parseDirective E 40) = some (.ok 
      (.World ⟨1, 1⟩ [.Attribute ⟨2, 5⟩ [
        .Material ⟨"glass", ⟨3, 9⟩, .default⟩,
        .Shape ⟨"sphere", ⟨4, 9⟩,
          { ParamSet.default with floats := [⟨"radius", ⟨4, 24⟩, [lit T "1.0"]⟩] }⟩]]))

theorem test_parse_block : testParseBlock Float32.Model (ieeeEnv _ true) ∧ testParseBlock Float.Model (ieeeEnv _ true) := by
  unfold testParseBlock; decide +kernel

variable (T) in
/-- parser.rs:1775-1890 `test_parse1` -/
def testParse1 (E : Env T) : Prop :=
    parse E test1 = .ok (
      [.Include ⟨1, 1⟩ "file1.pbrt",
       .LookAt ⟨3, 1⟩ ⟨lit T "3.0", lit T "4.0", lit T "1.5", lit T "0.5", lit T "0.5", lit T "0.0",
         lit T "0.0", lit T "0.0", lit T "1.0"⟩,
       .Camera ⟨"perspective", ⟨6, 1⟩,
         { ParamSet.default with floats := [⟨"fov", ⟨6, 22⟩, [lit T "45.0"]⟩] }⟩,
       .Sampler ⟨"halton", ⟨8, 1⟩,
         { ParamSet.default with ints := [⟨"pixelsamples", ⟨8, 18⟩, [128]⟩] }⟩,
       .Integrator ⟨"path", ⟨9, 1⟩, .default⟩,
       .Film ⟨"image", ⟨10, 1⟩, { ParamSet.default with
         strings := [⟨"filename", ⟨10, 14⟩, ["simple.png"]⟩],
         ints := [⟨"xresolution", ⟨11, 6⟩, [400]⟩, ⟨"yresolution", ⟨11, 34⟩, [400]⟩] }⟩],
      .World ⟨13, 1⟩ [
        .LightSource ⟨"infinite", ⟨14, 1⟩, { ParamSet.default with
          spectra := [⟨"L", ⟨14, 24⟩, [.Rgb (lit T "0.4") (lit T "0.45") (lit T "0.5")]⟩] }⟩,
        .Attribute ⟨16, 1⟩ [
          .Texture ⟨"checks", "spectrum", "checkerboard", ⟨17, 3⟩, { ParamSet.default with
            floats := [⟨"uscale", ⟨18, 11⟩, [lit T "8.0"]⟩, ⟨"vscale", ⟨18, 30⟩, [lit T "8.0"]⟩],
            spectra := [⟨"tex1", ⟨19, 11⟩, [.Rgb (lit T "0.1") (lit T "0.1") (lit T "0.1")]⟩,
              ⟨"tex2", ⟨19, 33⟩, [.Rgb (lit T "0.8") (lit T "0.8") (lit T "0.8")]⟩] }⟩,
          .Material ⟨"matte", ⟨20, 3⟩,
            { ParamSet.default with textures := [⟨"Kd", ⟨20, 20⟩, ["checks"]⟩] }⟩,
          .Shape ⟨"sphere", ⟨21, 3⟩,
            { ParamSet.default with floats := [⟨"radius", ⟨21, 18⟩, [lit T "1.0"]⟩] }⟩]])

/-- Tokenizing line by line -/
def tokenizeLines {F : Type} (E : Env F) : List (List Char) → Option (List (Token F))
  | [] => some []
  | l :: ls =>
    match tokenize E l, tokenizeLines E ls with
    | .ok a, some b => some (a ++ b.map (down 1))
    | _, _ => none

theorem tokenize_lines {F : Type} {E : Env F} (hE : Sane E) : ∀ (ls : List (List Char)) (ts : List (Token F)), ls ≠ [] →
    (∀ l ∈ ls, l.count '\n' = 0) → tokenizeLines E ls = some ts → tokenize E (['\n'].intercalate ls) = .ok ts
  | [], _, h, _, _ => absurd rfl h
  | [l], ts, _, _, h => by
    simp only [tokenizeLines] at h
    split at h
    · rename_i a b h1 h2
      cases h2
      cases h
      simpa using h1
    · cases h
  | l :: l' :: ls, ts, _, hn, h => by
    rw [tokenizeLines] at h
    split at h
    · rename_i a b h1 h2
      cases h
      have := (C12_lines hE l (['\n'].intercalate (l' :: ls)) a h1).1 b
        (tokenize_lines hE (l' :: ls) b (by simp) (fun x hx => hn x (by simp [hx])) h2)
      rw [List.count_append, hn l (by simp)] at this
      simpa using this
    · cases h

variable (T) in
/-- The tokens of `test1` -/
def test1Tokens : List (Token T) :=
      [⟨⟨1, 1⟩, .Identifier "Include"⟩, ⟨⟨1, 9⟩, .Str "file1.pbrt"⟩, ⟨⟨3, 1⟩, .Identifier "LookAt"⟩,
       ⟨⟨3, 8⟩, .Int 3⟩, ⟨⟨3, 10⟩, .Int 4⟩, ⟨⟨3, 12⟩, .Float (lit T "1.5")⟩, ⟨⟨4, 8⟩, .Float (lit T ".5")⟩,
       ⟨⟨4, 11⟩, .Float (lit T ".5")⟩, ⟨⟨4, 14⟩, .Int 0⟩, ⟨⟨5, 8⟩, .Int 0⟩, ⟨⟨5, 10⟩, .Int 0⟩,
       ⟨⟨5, 12⟩, .Int 1⟩, ⟨⟨6, 1⟩, .Identifier "Camera"⟩, ⟨⟨6, 8⟩, .Str "perspective"⟩,
       ⟨⟨6, 22⟩, .Str "float fov"⟩, ⟨⟨6, 34⟩, .Int 45⟩, ⟨⟨8, 1⟩, .Identifier "Sampler"⟩,
       ⟨⟨8, 9⟩, .Str "halton"⟩, ⟨⟨8, 18⟩, .Str "integer pixelsamples"⟩, ⟨⟨8, 41⟩, .Int 128⟩,
       ⟨⟨9, 1⟩, .Identifier "Integrator"⟩, ⟨⟨9, 12⟩, .Str "path"⟩, ⟨⟨10, 1⟩, .Identifier "Film"⟩,
       ⟨⟨10, 6⟩, .Str "image"⟩, ⟨⟨10, 14⟩, .Str "string filename"⟩, ⟨⟨10, 32⟩, .Str "simple.png"⟩,
       ⟨⟨11, 6⟩, .Str "integer xresolution"⟩, ⟨⟨11, 28⟩, .LBracket⟩, ⟨⟨11, 29⟩, .Int 400⟩,
       ⟨⟨11, 32⟩, .RBracket⟩, ⟨⟨11, 34⟩, .Str "integer yresolution"⟩, ⟨⟨11, 56⟩, .LBracket⟩,
       ⟨⟨11, 57⟩, .Int 400⟩, ⟨⟨11, 60⟩, .RBracket⟩, ⟨⟨13, 1⟩, .Identifier "WorldBegin"⟩,
       ⟨⟨14, 1⟩, .Identifier "LightSource"⟩, ⟨⟨14, 13⟩, .Str "infinite"⟩, ⟨⟨14, 24⟩, .Str "rgb L"⟩,
       ⟨⟨14, 32⟩, .LBracket⟩, ⟨⟨14, 33⟩, .Float (lit T ".4")⟩, ⟨⟨14, 36⟩, .Float (lit T ".45")⟩,
       ⟨⟨14, 40⟩, .Float (lit T ".5")⟩, ⟨⟨14, 42⟩, .RBracket⟩, ⟨⟨16, 1⟩, .Identifier "AttributeBegin"⟩,
       ⟨⟨17, 3⟩, .Identifier "Texture"⟩, ⟨⟨17, 11⟩, .Str "checks"⟩, ⟨⟨17, 20⟩, .Str "spectrum"⟩,
       ⟨⟨17, 31⟩, .Str "checkerboard"⟩, ⟨⟨18, 11⟩, .Str "float uscale"⟩, ⟨⟨18, 26⟩, .LBracket⟩,
       ⟨⟨18, 27⟩, .Int 8⟩, ⟨⟨18, 28⟩, .RBracket⟩, ⟨⟨18, 30⟩, .Str "float vscale"⟩, ⟨⟨18, 45⟩, .LBracket⟩,
       ⟨⟨18, 46⟩, .Int 8⟩, ⟨⟨18, 47⟩, .RBracket⟩, ⟨⟨19, 11⟩, .Str "rgb tex1"⟩, ⟨⟨19, 22⟩, .LBracket⟩,
       ⟨⟨19, 23⟩, .Float (lit T ".1")⟩, ⟨⟨19, 26⟩, .Float (lit T ".1")⟩, ⟨⟨19, 29⟩, .Float (lit T ".1")⟩,
       ⟨⟨19, 31⟩, .RBracket⟩, ⟨⟨19, 33⟩, .Str "rgb tex2"⟩, ⟨⟨19, 44⟩, .LBracket⟩,
       ⟨⟨19, 45⟩, .Float (lit T ".8")⟩, ⟨⟨19, 48⟩, .Float (lit T ".8")⟩, ⟨⟨19, 51⟩, .Float (lit T ".8")⟩,
       ⟨⟨19, 53⟩, .RBracket⟩, ⟨⟨20, 3⟩, .Identifier "Material"⟩, ⟨⟨20, 12⟩, .Str "matte"⟩,
       ⟨⟨20, 20⟩, .Str "texture Kd"⟩, ⟨⟨20, 33⟩, .Str "checks"⟩, ⟨⟨21, 3⟩, .Identifier "Shape"⟩,
       ⟨⟨21, 9⟩, .Str "sphere"⟩, ⟨⟨21, 18⟩, .Str "float radius"⟩, ⟨⟨21, 33⟩, .Int 1⟩,
       ⟨⟨22, 1⟩, .Identifier "AttributeEnd"⟩, ⟨⟨23, 1⟩, .Identifier "WorldEnd"⟩]

theorem test1_tokens_f32 : tokenizeLines (ieeeEnv Float32.Model true) (test1Lines.map String.toList) =
    some (test1Tokens _) := by
  decide +kernel

theorem test1_tokens_f64 : tokenizeLines (ieeeEnv Float.Model true) (test1Lines.map String.toList) =
    some (test1Tokens _) := by
  decide +kernel

theorem parse_lines {F : Type} {E : Env F} (hE : Sane E) {ts : List (Token F)}
    {r : Res ParserError (List (PreDirective F) × Directive F)}
    (h : tokenizeLines E (test1Lines.map String.toList) = some ts) (hr : parseTokens E ts = r) :
    parse E test1 = r := by
  rw [parse, test1, tokenize_lines hE _ ts (by simp [test1Lines]) (by decide +kernel) h]
  exact hr

theorem test_parse1 : testParse1 Float32.Model (ieeeEnv _ true) ∧ testParse1 Float.Model (ieeeEnv _ true) :=
  ⟨parse_lines (ieeeEnv_sane true) test1_tokens_f32 (by decide +kernel),
    parse_lines (ieeeEnv_sane true) test1_tokens_f64 (by decide +kernel)⟩

/-- matrix.rs:166-190 `test_mul`, in a build with overflow checks -/
theorem test_mul :
    let i (n : Int) : I64 true := Elem.fromInt n
    let m1 : Matrix4 (I64 true) := ⟨Mat44.ofRows
      (i (-1)) (i 0) (i 4) (i (-1))
      (i 5) (i (-1)) (i (-8)) (i (-9))
      (i 7) (i (-4)) (i 5) (i (-4))
      (i (-2)) (i (-10)) (i 1) (i 4)⟩
    let m2 : Matrix4 (I64 true) := ⟨Mat44.ofRows
      (i (-10)) (i 10) (i (-8)) (i (-3))
      (i 2) (i 6) (i 0) (i (-9))
      (i 7) (i (-1)) (i 10) (i 9)
      (i (-8)) (i (-2)) (i (-4)) (i 5)⟩
    (m1.mul m2).map (fun m => m.eq ⟨Mat44.ofRows
      (i 46) (i (-12)) (i 52) (i 34)
      (i (-36)) (i 70) (i (-84)) (i (-123))
      (i (-11)) (i 49) (i 10) (i 40)
      (i (-25)) (i (-89)) (i 10) (i 125)⟩) = .ok true := by
  decide +kernel

variable (T) in
/-- matrix.rs:192-208 `test_inverse` -/
def testInverse : Prop :=
  let l := lit T
  let mat : Matrix4 T := ⟨Mat44.ofRows
    (l "4.") (l "0.") (l "0.") (l "0.")
    (l "0.") (l "0.") (l "2.") (l "0.")
    (l "0.") (l "1.") (l "2.") (l "0.")
    (l "1.") (l "0.") (l "0.") (l "1.")⟩
  (mat.inverse (F := T)).map (fun m => m.eq ⟨Mat44.ofRows
    (l "0.25") (l "0.") (l "0.") (l "0.")
    (l "0.") (l "-1.") (l "1.") (l "0.")
    (l "0.") (l "0.5") (l "0.") (l "0.")
    (l "-0.25") (l "0.") (l "0.") (l "1.")⟩) = .ok true

theorem test_inverse : testInverse Float32.Model ∧ testInverse Float.Model := by
  unfold testInverse; decide +kernel

/-! ### The program `/repo/src/bin/pbrt.rs` -/

/-- bin/pbrt.rs:17: the matrix -/
def demo : Fin 4 → Fin 4 → Int := ![![7, 1, 9, 5], ![4, 5, 2, 4], ![3, 7, 8, 8], ![1, 9, 8, 9]]

/-- The inverse of the matrix -/
def demoInverse : Fin 4 → Fin 4 → ℚ :=
  ![![2 / 13, 3 / 13, -5 / 13, 2 / 13], ![58 / 39, 35 / 39, -236 / 39, 54 / 13],
    ![17 / 13, 6 / 13, -62 / 13, 43 / 13], ![-8 / 3, -4 / 3, 31 / 3, -7]]

theorem demo_inverse : ∀ i j, ∑ k, (demo i k : ℚ) * demoInverse k j = if i = j then 1 else 0 := by
  decide +kernel

/-- The number a float stands for, computably -/
def ratVal : Float.Model.UnpackedFloat → ℚ
  | .finite s m e _ => (s.apply m : Int) * (if 0 ≤ e then 2 ^ e.toNat else 1 / 2 ^ (-e).toNat)
  | _ => 0

theorem val_eq (x : T) : val x = (ratVal (up x) : ℝ) := by
  unfold val
  cases h : up x with
  | finite s m e hm =>
    simp only [uval, ratVal, Rat.cast_mul, Rat.cast_intCast]
    congr 1
    split
    · rename_i he
      obtain ⟨k, rfl⟩ := Int.eq_ofNat_of_zero_le he
      simp
    · rename_i he
      obtain ⟨k, hk⟩ := Int.eq_ofNat_of_zero_le (show 0 ≤ -e by omega)
      obtain rfl : e = -(k : ℤ) := by omega
      simp
  | _ => simp [uval, ratVal]

/-- Every entry is within `e` of the inverse -/
def close (e : ℚ) : Outcome (Matrix4 T) → Bool
  | .ok m => decide (∀ i j, IsFinite (m.mat i j) ∧ |ratVal (up (m.mat i j)) - demoInverse i j| < e)
  | .error _ => false

theorem close_spec {e : ℚ} {r : Outcome (Matrix4 T)} (h : close e r = true) : ∃ m, r = .ok m ∧
    ∀ i j, IsFinite (m.mat i j) ∧ |val (m.mat i j) - demoInverse i j| < e := by
  match r, h with
  | .ok m, h =>
    refine ⟨m, rfl, fun i j => ⟨(of_decide_eq_true h i j).1, ?_⟩⟩
    rw [val_eq]
    exact_mod_cast (of_decide_eq_true h i j).2

/-- The program prints the inverse, every entry with an error below `0.0000013`. -/
theorem demo_f32 : ∃ m : Matrix4 Float32.Model,
    (⟨fun i j => i64 (demo i j)⟩ : Matrix4 (I64 true)).inverse = .ok m ∧
    ∀ i j, IsFinite (m.mat i j) ∧ |val (m.mat i j) - demoInverse i j| < (13 / 10 ^ 7 : ℚ) :=
  close_spec (by decide +kernel)

/-- With the feature `float_as_f64` the error is below `10 ^ -13`. -/
theorem demo_f64 : ∃ m : Matrix4 Float.Model,
    (⟨fun i j => i64 (demo i j)⟩ : Matrix4 (I64 true)).inverse = .ok m ∧
    ∀ i j, IsFinite (m.mat i j) ∧ |val (m.mat i j) - demoInverse i j| < (1 / 10 ^ 13 : ℚ) :=
  close_spec (by decide +kernel)

end Pbrt.UnitTests
