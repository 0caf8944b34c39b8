import Verif.Spec.Reports

/-!
# Scenes that break off
-/

namespace Pbrt.Spec

variable {F : Type}

/-- `Stuck ty n k`: of the numbers in a list of type `ty` that is not closed, the first `n` are taken and the
    other `k` are not: points are read whole, colours and black bodies completely or not at all. -/
def Stuck (ty : String) (n k : Nat) : Prop :=
  (ty ∈ ["point2", "vector2"] ∧ n % 2 = 0 ∧ k = 1) ∨
  (ty ∈ ["rgb", "xyz"] ∧ n = 0 ∧ 0 < k ∧ k < 3) ∨
  (ty = "blackbody" ∧ n = 0 ∧ k = 1)

/-- `Breaks E w p s v m`: the arguments `v` of the keyword `s` at `p` break off where more is needed, and `m` is what is
    said about it; `w` is what is expected between directives. -/
inductive Breaks (E : Env F) (w : String) (p : Pos) : String → List (Token F) → String → Prop
  /-- no number -/
  | noNumber (s n) (hs : (s, n) ∈ numKeys) :
      Breaks E w p s [] (floatsHeader ++ "parse_float(): EOF while parsing float")
  /-- too few numbers -/
  | numbers (s n v) (hs : (s, n) ∈ numKeys) (hv : ∀ t ∈ v, IsNumber t) (h0 : v ≠ []) (hn : v.length < n) :
      Breaks E w p s v (p.fmt ++ " parse_predirective(): " ++ s ++ " expects " ++ toString n ++
          " floats but was given " ++ toString v.length)
  /-- too few strings -/
  | strings (s n v) (hs : (s, n) ∈ nameKeys ++ paramKeys) (hv : ∀ t ∈ v, IsStr t) (hn : v.length < n) :
      Breaks E w p s v "parse_string(): EOF while processing string"
  | active : Breaks E w p "ActiveTransform" [] "parse_identifier(): EOF while processing identifier"
  /-- half a point, part of a colour: the first number that is not taken is taken for what comes between directives -/
  | value (s n strs a ps q r decl ty name good t bad) (hs : (s, n) ∈ paramKeys) (hv : ∀ t ∈ strs, IsStr t)
      (hn : strs.length = n) (ha : Many (ParamText E) a ps) (hd : TwoWords E decl ty name)
      (hnum : ∀ u ∈ good ++ t :: bad, IsNumber u) (ht : Stuck ty good.length (bad.length + 1)) :
      Breaks E w p s (strs ++ (a ++ ⟨q, .Str decl⟩ :: ⟨r, .LBracket⟩ :: (good ++ t :: bad)))
        (t.pos.fmt ++ w ++ shown E t.ty)

/-- what is expected before the world -/
def betweenPre : String := " parse_predirectives(): expected predirective but got "

/-- what is expected in the world -/
def betweenDirs : String := " parse_directives(): expected identifier or block close but got "

/-- `At E w x keys`: the tokens `x` are complete directives, and one with a keyword in `keys` may come next. -/
inductive At (E : Env F) : String → List (Token F) → List String → Prop
  | pre (x pre) (h : Many (PreText E) x pre) : At E betweenPre x preKeys
  | body (a p body pre ds) (h : Many (PreText E) a pre) (hb : DirsText E body ds) :
      At E betweenDirs (a ++ kw p "WorldBegin" :: body) dirKeys

/-- The tokens break off inside of a directive that needs more, and `m` is reported. -/
def BreaksOff (E : Env F) (toks : List (Token F)) (m : String) : Prop :=
  ∃ w x keys p s v, toks = x ++ kw p s :: v ∧ At E w x keys ∧ s ∈ keys ∧ Breaks E w p s v m

end Pbrt.Spec
