import Verif.Proof.DebugValues
import Verif.Props.SceneEquality

/-!
# C121: what `Debug` prints
-/

namespace Pbrt
open Spec Proof Proof.DebugTree

section
variable {F : Type} {L : DebugLeaves F} (hL : Legible L)
include hL

/-- **C121**: scenes that are shown alike are identical, in one line and in many. -/
theorem C121_scenes : TellsApart (sceneTree L) := (good_scene hL).tells

/-- **C121**: the same for lists of tokens and for errors; -/
theorem C121_tokens : TellsApart (fun ts : List (Token F) => dList (ts.map (Token.tree L))) ∧
    TellsApart (Token.tree L) ∧ TellsApart (ParserError.tree L) :=
  ⟨(good_list (good_token hL)).tells, (good_token hL).tells, (good_error hL).tells⟩

/-- **C121**: for the parts of a scene; -/
theorem C121_parts : TellsApart (PreDirective.tree L) ∧ TellsApart (Directive.tree L) ∧ TellsApart (ParamSet.tree L) ∧
    TellsApart (DirectiveStruct.tree L) ∧ TellsApart (TextureStruct.tree L) ∧ TellsApart (Spectrum.tree L) :=
  ⟨(good_preDirective hL).tells, (good_directive hL).tells, (good_paramSet hL).tells, (good_directiveStruct hL).tells,
    (good_textureStruct hL).tells, (good_spectrum hL).tells⟩

/-- **C121**: and for vectors, points, normals, matrices and transforms. -/
theorem C121_geometry : TellsApart (Vector2.tree L) ∧ TellsApart (Vector3.tree L) ∧ TellsApart (Point2.tree L) ∧
    TellsApart (Point3.tree L) ∧ TellsApart (Normal3.tree L) ∧ TellsApart (Matrix3.tree L) ∧ TellsApart (Matrix4.tree L) ∧
    TellsApart (Transform.tree L) :=
  ⟨(good_vector2 hL).tells, (good_vector3 hL).tells, (good_point2 hL).tells, (good_point3 hL).tells, (good_normal3 hL).tells,
    (good_matrix3 hL).tells, (good_matrix4 hL).tells, (good_transform hL).tells⟩

set_option maxRecDepth 8000 in
/-- **C121**: `{:#?}` of a 4 by 4 matrix (what src/bin/pbrt.rs prints): 28 lines. -/
theorem C121_matrix (trailing : Bool) (m : Matrix4 F) : (m.tree L).pretty trailing =
    ['\n'].intercalate (matrixLines trailing fun i j => (L.float (m.mat i j)).toList) ∧
    (matrixLines trailing fun i j => (L.float (m.mat i j)).toList).length = 28 := by
  refine ⟨?_, by simp [matrixLines, rowLines]⟩
  rw [pretty_eq trailing _ ((good_matrix4 hL).wf m)]
  have a : "Matrix4".toList = ['M', 'a', 't', 'r', 'i', 'x', '4'] := by decide
  have b : "mat".toList = ['m', 'a', 't'] := by decide
  have c : "Matrix4 {".toList = ['M', 'a', 't', 'r', 'i', 'x', '4', ' ', '{'] := by decide
  have d : "    mat: [".toList = [' ', ' ', ' ', ' ', 'm', 'a', 't', ':', ' ', '['] := by decide
  have e : "        [".toList = [' ', ' ', ' ', ' ', ' ', ' ', ' ', ' ', '['] := by decide
  have f : "        ]".toList = [' ', ' ', ' ', ' ', ' ', ' ', ' ', ' ', ']'] := by decide
  have g : "    ]".toList = [' ', ' ', ' ', ' ', ']'] := by decide
  have h : "}".toList = ['}'] := by decide
  have k : "            ".toList = [' ', ' ', ' ', ' ', ' ', ' ', ' ', ' ', ' ', ' ', ' ', ' '] := by decide
  have i0 : ind 0 = [] := rfl
  have i1 : ind (0 + 1) = [' ', ' ', ' ', ' '] := rfl
  have i2 : ind (0 + 1 + 1) = [' ', ' ', ' ', ' ', ' ', ' ', ' ', ' '] := rfl
  have i3 : ind (0 + 1 + 1 + 1) = [' ', ' ', ' ', ' ', ' ', ' ', ' ', ' ', ' ', ' ', ' ', ' '] := rfl
  cases trailing <;>
    simp only [Matrix4.tree, Matrix4.rowTree, dStruct, dList, dText, DebugTree.render, rest, prettyLayout, i0, i1, i2, i3, matrixLines, rowLines,
      List.intercalate, List.intersperse, comma, List.map, a, b, c, d, e, f, g, h, k, List.flatten_cons, List.flatten_nil, List.cons_append, List.nil_append,
      List.append_assoc, List.append_nil, if_true, Bool.false_eq_true, if_false]

/-- **C121**: `{:?}` has no line breaks. -/
theorem C121_one_line (s : List (PreDirective F) × Directive F) : '\n' ∉ (sceneTree L s).flat := by
  rw [flat_eq _ 0]
  exact flat_line _ ((good_scene hL).wf s) 0

end

section
variable {F : Type}

/-- **C121**: what is shown of a directive before the world starts with its keyword. -/
theorem C121_predirective (L : DebugLeaves F) (d : PreDirective F) : ∃ r, (d.tree L).flat = (preKey d).2.toList ++ '(' :: r := by
  cases d <;> exact ⟨_, rfl⟩

/-- **C121**: what is shown of a directive in the world starts with its keyword, without `Begin`. -/
theorem C121_directive (L : DebugLeaves F) (d : Directive F) : ∃ n r p k, (d.tree L).flat = n ++ '(' :: r ∧
    (dirKey d).head? = some (p, k) ∧ (k.toList = n ∨ k.toList = n ++ "Begin".toList) := by
  cases d with
  | Material d => exact ⟨_, _, _, _, rfl, rfl, .inl rfl⟩
  | Shape d => exact ⟨_, _, _, _, rfl, rfl, .inl rfl⟩
  | LightSource d => exact ⟨_, _, _, _, rfl, rfl, .inl rfl⟩
  | AreaLightSource d => exact ⟨_, _, _, _, rfl, rfl, .inl rfl⟩
  | Attribute p ds => exact ⟨_, _, _, _, rfl, rfl, .inr (by decide)⟩
  | Transform p ds => exact ⟨_, _, _, _, rfl, rfl, .inr (by decide)⟩
  | World p ds => exact ⟨_, _, _, _, rfl, rfl, .inr (by decide)⟩
  | Include p s => exact ⟨_, _, _, _, rfl, rfl, .inl rfl⟩
  | Texture t => exact ⟨_, _, _, _, rfl, rfl, .inl rfl⟩

/-- **C121**: a token and an error in a message of the parser are shown as `{:?}` shows them. -/
theorem C121_messages (E : Env F) (path : String → String) (t : TokenType F) (e : ParserError) :
    String.ofList (t.tree ⟨E.dbgFloat, E.dbgStr, path⟩).flat = shown E t ∧
    String.ofList (e.tree (⟨E.dbgFloat, E.dbgStr, path⟩ : DebugLeaves F)).flat = e.debug E := by
  constructor
  · cases t <;> simp [TokenType.tree, dVariant, dText, intTree, DTree.flat, DTree.flats, Builder.flat.eq_def, sepBy, shown, String.ofList_append] <;> rfl
  · cases e <;> simp [ParserError.tree, dVariant, dText, DTree.flat, DTree.flats, Builder.flat.eq_def, sepBy, ParserError.debug, String.ofList_append]
    rfl

end

/-! ### A library that meets the assumptions -/

section
open Float.Model (UnpackedFloat)
variable {T : Type} [Elem T] [As T T] [FloatFns T] [IEEE T]

theorem floatText_unmarked {f : T} (hf : IsFinite f) : Unmarked (floatText f) := by
  obtain ⟨s, a, b, h, -, hd, -⟩ := C98_exact hf
  rw [h]
  intro c hc
  have dig : IsDigit c → c ∉ marks := fun h => by
    have key : ∀ m ∈ marks, ¬ ('0' ≤ m ∧ m ≤ '9') := by decide
    exact fun hm => key c hm h
  rw [List.mem_append, List.mem_append, List.mem_cons] at hc
  rcases hc with hc | hc | hc | hc
  · cases s with
    | _ =>
      clear dig
      revert c
      decide
  · exact dig (hd _ (List.mem_append_left _ hc))
  · subst hc; decide
  · exact dig (hd _ (List.mem_append_right _ hc))

theorem hex_plain (n : Nat) : ∀ c ∈ Nat.toDigits 16 n, c ≠ '"' ∧ c ≠ '\\' ∧ c ≠ '\n' := by
  induction n using Nat.strong_induction_on with
  | _ n ih =>
    intro c hc
    have dig : ∀ i : Fin 16, i.1.digitChar ≠ '"' ∧ i.1.digitChar ≠ '\\' ∧ i.1.digitChar ≠ '\n' := by decide
    rcases Nat.lt_or_ge n 16 with hn | hn
    · rw [Nat.toDigits_of_lt_base hn, List.mem_singleton] at hc
      exact hc ▸ dig ⟨n, hn⟩
    · rw [Nat.toDigits_of_base_le (by decide) hn, List.mem_append, List.mem_singleton] at hc
      rcases hc with hc | rfl
      · exact ih _ (Nat.div_lt_self (by omega) (by decide)) c hc
      · exact dig ⟨n % 16, Nat.mod_lt _ (by decide)⟩

theorem escape_escaped (D : DebugTable) (c : Char) {s : List Char} (hs : Escaped s) : Escaped (D.escape c ++ s) := by
  unfold DebugTable.escape
  rcases hc : D.letter c with _ | l <;> dsimp only
  · obtain ⟨h1, h2⟩ := letter_special D c hc
    have h3 : c ≠ '\n' := by rintro rfl; simp [DebugTable.letter] at hc
    rcases pc : D.plain c <;> simp only [if_true, Bool.false_eq_true, if_false]
    · refine .slash _ _ (by decide) (.plain _ _ (by decide) ?_)
      have hex : ∀ x ∈ Nat.toDigits 16 c.toNat ++ ['}'], x ≠ '"' ∧ x ≠ '\\' ∧ x ≠ '\n' := by
        intro x hx
        rw [List.mem_append] at hx
        rcases hx with hx | hx
        · exact hex_plain _ x hx
        · have : x = '}' := by simpa using hx
          subst this; decide
      generalize Nat.toDigits 16 c.toNat ++ ['}'] = l at hex
      induction l with
      | nil => exact hs
      | cons x l ih => exact .plain _ _ (hex x (by simp)) (ih fun y hy => hex y (by simp [hy]))
    · exact .plain _ _ ⟨h1, h2, h3⟩ hs
  · refine .slash _ _ ?_ hs
    rintro rfl
    revert hc
    unfold DebugTable.letter
    repeat' split
    all_goals decide

theorem str_quoted (D : DebugTable) (s : String) : Quoted (D.str s).toList := by
  refine ⟨s.toList.flatMap D.escape, ?_, by rw [DebugTable.str, String.toList_ofList]⟩
  induction s.toList with
  | nil => exact .nil
  | cons c l ih => rw [List.flatMap_cons]; exact escape_escaped D c ih

/-- **C121**: the assumptions hold for strings as the library shows them and floats with all their digits. -/
theorem C121_library (D D' : DebugTable) : Legible (shownLeaves T D D') where
  float f := by
    show digitsFloat f ≠ "" ∧ Unmarked (digitsFloat f).toList
    rcases digitsFloat_cases f with ⟨hf, e⟩ | ⟨hf, e⟩ | ⟨hf, e⟩ | ⟨hf, e⟩ <;> rw [e]
    · refine ⟨fun h => ?_, by rw [String.toList_ofList]; exact floatText_unmarked hf⟩
      have := (floatText_chars hf).1
      rw [← String.toList_ofList (l := floatText f), h] at this
      simp at this
    · exact ⟨by decide, by unfold Unmarked; decide⟩
    · exact ⟨by decide, by unfold Unmarked; decide⟩
    · exact ⟨by decide, by unfold Unmarked; decide⟩
  floats := digitsFloat_inj
  str := str_quoted D
  strs s t h := (C112_string D s t "" "" (by rw [show D.str s = D.str t from h])).1
  path := str_quoted D'
  paths s t h := (C112_string D' s t "" "" (by rw [show D'.str s = D'.str t from h])).1

end

/-! ### Texts -/

/-- ASCII, as the library shows it today -/
def exLeaves : DebugLeaves Float32.Model := shownLeaves Float32.Model ⟨fun c => ' ' ≤ c ∧ c ≤ '~', false, true⟩ asciiTable

/-- What is shown of the scene of a text -/
def shownScene (text : String) : Option String :=
  match parse (ieeeEnv Float32.Model true) text.toList with
  | .ok s => some (String.ofList (sceneTree exLeaves s).flat)
  | _ => none

example : (Token.tree exLeaves ⟨⟨1, 2⟩, .Str "a\"b"⟩).flat = "Token { pos: Pos { r: 1, c: 2 }, ty: Str(\"a\\\"b\") }".toList := by
  decide +kernel
example : (Token.tree exLeaves ⟨⟨1, 2⟩, .LBracket⟩).pretty true =
    "Token {\n    pos: Pos {\n        r: 1,\n        c: 2,\n    },\n    ty: LBracket,\n}".toList := by
  decide +kernel
example : (Token.tree exLeaves ⟨⟨1, 2⟩, .Int (-3)⟩).pretty false =
    "Token {\n    pos: Pos {\n        r: 1,\n        c: 2\n    },\n    ty: Int(\n        -3\n    )\n}".toList := by
  decide +kernel
example : shownScene "Translate 1 -2 0.5 WorldBegin Include \"it's\" AttributeBegin AttributeEnd WorldEnd" = some
    ("([Translate(Pos { r: 1, c: 1 }, Vector3 { x: 1.0, y: -2.0, z: 0.5 })], World(BlockStruct { pos: Pos { r: 1, c: 20 }, " ++
     "children: [Include(Pos { r: 1, c: 31 }, \"it\\'s\"), Attribute(BlockStruct { pos: Pos { r: 1, c: 46 }, children: [] })] }))") := by
  decide +kernel

-- most kinds of directives and parameters
example : shownScene "LookAt 1 2 3 4 5 6 7 8 9 CoordinateSystem \"c\" ActiveTransform All TransformTimes 0 1 WorldBegin WorldEnd" = some
    ("([LookAt(Pos { r: 1, c: 1 }, Matrix3 { mat: [[1.0, 2.0, 3.0], [4.0, 5.0, 6.0], [7.0, 8.0, 9.0]] }), " ++
     "CoordinateSystem(Pos { r: 1, c: 26 }, \"c\"), ActiveTransform(Pos { r: 1, c: 47 }, \"All\"), " ++
     "TransformTimes(Pos { r: 1, c: 67 }, 0.0, 1.0)], World(BlockStruct { pos: Pos { r: 1, c: 86 }, children: " ++
     "[] }))") := by
  decide +kernel
example : shownScene "Camera \"p\" \"bool b\" [\"true\" \"false\"] \"integer i\" 7 Include \"f\" WorldBegin WorldEnd" = some
    ("([Camera(DirectiveStruct { ty: \"p\", pos: Pos { r: 1, c: 1 }, param_set: ParamSet { bools: [Param { name: " ++
     "\"b\", pos: Pos { r: 1, c: 12 }, values: [true, false] }], ints: [Param { name: \"i\", pos: Pos { r: 1, c: " ++
     "38 }, values: [7] }], floats: [], point2fs: [], vector2fs: [], point3fs: [], vector3fs: [], normal3fs: " ++
     "[], spectra: [], strings: [], textures: [] } }), Include(Pos { r: 1, c: 52 }, \"f\")], World(BlockStruct { " ++
     "pos: Pos { r: 1, c: 64 }, children: [] }))") := by
  decide +kernel
example : shownScene "WorldBegin Texture \"n\" \"t\" \"k\" \"float f\" 0.5 \"string s\" \"v\" \"texture w\" \"z\" \"rgb r\" [1 2 3] WorldEnd" = some
    ("([], World(BlockStruct { pos: Pos { r: 1, c: 1 }, children: [Texture(TextureStruct { name: \"n\", ty: \"t\", " ++
     "class: \"k\", pos: Pos { r: 1, c: 12 }, param_set: ParamSet { bools: [], ints: [], floats: [Param { name: " ++
     "\"f\", pos: Pos { r: 1, c: 32 }, values: [0.5] }], point2fs: [], vector2fs: [], point3fs: [], vector3fs: " ++
     "[], normal3fs: [], spectra: [Param { name: \"r\", pos: Pos { r: 1, c: 77 }, values: [Rgb(1.0, 2.0, 3.0)] " ++
     "}], strings: [Param { name: \"s\", pos: Pos { r: 1, c: 46 }, values: [\"v\"] }], textures: [Param { name: " ++
     "\"w\", pos: Pos { r: 1, c: 61 }, values: [\"z\"] }] } })] }))") := by
  decide +kernel
example : shownScene "WorldBegin Shape \"s\" \"spectrum s\" \"x\" \"spectrum t\" [1 2] \"vector2 v\" [1 2] \"point2 p\" [1 2] WorldEnd" = some
    ("([], World(BlockStruct { pos: Pos { r: 1, c: 1 }, children: [Shape(DirectiveStruct { ty: \"s\", pos: Pos { " ++
     "r: 1, c: 12 }, param_set: ParamSet { bools: [], ints: [], floats: [], point2fs: [Param { name: \"p\", pos: " ++
     "Pos { r: 1, c: 76 }, values: [Point2 { x: 1.0, y: 2.0 }] }], vector2fs: [Param { name: \"v\", pos: Pos { " ++
     "r: 1, c: 58 }, values: [Vector2 { x: 1.0, y: 2.0 }] }], point3fs: [], vector3fs: [], normal3fs: [], " ++
     "spectra: [Param { name: \"s\", pos: Pos { r: 1, c: 22 }, values: [File(\"x\")] }, Param { name: \"t\", pos: " ++
     "Pos { r: 1, c: 39 }, values: [Spectrum([(1.0, 2.0)])] }], strings: [], textures: [] } })] }))") := by
  decide +kernel

/-- **C121**, refuted: `==` and `Debug` do not tell the same scenes apart. Zeros of both signs and two spellings of a path are
    equal but shown differently, and a scene with NaN is shown like itself but not equal to itself. -/
theorem C121_equality_refuted :
    (alikeTexts "Rotate 1 0 0 0.0\nWorldBegin WorldEnd" "Rotate 1 0 0 -0.0\nWorldBegin WorldEnd" = some true ∧
      shownScene "Rotate 1 0 0 0.0\nWorldBegin WorldEnd" ≠ shownScene "Rotate 1 0 0 -0.0\nWorldBegin WorldEnd") ∧
    (alikeTexts "WorldBegin Include \"a//b\"\nWorldEnd" "WorldBegin Include \"a/b\"\nWorldEnd" = some true ∧
      shownScene "WorldBegin Include \"a//b\"\nWorldEnd" ≠ shownScene "WorldBegin Include \"a/b\"\nWorldEnd") ∧
    (alikeTexts "Rotate 0.0e39 0 0 1 WorldBegin WorldEnd" "Rotate 0.0e39 0 0 1 WorldBegin WorldEnd" = some false ∧
      (shownScene "Rotate 0.0e39 0 0 1 WorldBegin WorldEnd").isSome) := by
  decide +kernel

end Pbrt
