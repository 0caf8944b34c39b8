import Verif.Props.ExponentText
import Verif.Props.Format
import Verif.Proof.FloatTypeParser

/-!
# C127: scenes written with approximate numbers

A scene is written with texts that are read as floats near to the right ones. It is read as the scene with these floats.
-/

namespace Pbrt

open Spec Proof Proof.Printing

section
variable {F : Type} {E : Env F}

/-- The tokens that were meant -/
theorem meant_tokens {P : F → Prop} {R : F → F → Prop} {g : F → F} (hg : ∀ f, P f → R f (g f)) (toks : List (Token F)) :
    ∀ tys : List (TokenType F), (∀ f, TokenType.Float f ∈ tys → P f) →
      toks.map Token.ty = tys.map (fun t => match t with | .Float f => .Float (g f) | t => t) →
      ∃ orig : List (Token F), orig.map Token.ty = tys ∧ orig.map Token.pos = toks.map Token.pos ∧
        List.Forall₂ (FloatType.TokenOn (fun _ => True) R) orig toks := by
  induction toks with
  | nil =>
    intro tys _ h
    cases tys with
    | nil => exact ⟨[], rfl, rfl, .nil⟩
    | cons t ts => simp at h
  | cons k ks ih =>
    intro tys hP h
    cases tys with
    | nil => simp at h
    | cons t ts =>
      rw [List.map_cons, List.map_cons, List.cons.injEq] at h
      obtain ⟨o, o1, o2, o3⟩ := ih ts (fun f hf => hP f (by simp [hf])) h.2
      refine ⟨⟨k.pos, t⟩ :: o, by simp [o1], by simp [o2], .cons ?_ o3⟩
      obtain ⟨p, ty⟩ := k
      obtain rfl : ty = _ := h.1
      cases t with
      | Float f => exact .float p _ _ (hg f (hP f (by simp)))
      | Str s => exact .str p s (fun _ _ => trivial)
      | Int i => exact .int p i
      | Identifier s => exact .identifier p s
      | LBracket => exact .lbracket p
      | RBracket => exact .rbracket p

/-- **C127**: whatever the float type is: if the texts `ft` are literals for floats related to those of the scene, then the tokens
    of the scene, written with any layout, are read as the scene with related floats: everything else is the same. -/
theorem C127_layout (hE : Sane E) {ft : F → List Char} {P : F → Prop} {R : F → F → Prop}
    (hR : ∀ i, R (E.ofIsize i) (E.ofIsize i)) (hft : ∀ f, P f → ∃ g, NumLit E (ft f) (.Float g) ∧ R f g)
    (s : WScene F) (hs : s.Ok E) (hb : s.BlocksLast) (hw : s.Writable E P) (lead text : List Char) (hlead : Sep E lead)
    (htext : Layout E (s.toks.map (tokenText ft)) text) :
    ∃ toks r, tokenize E (lead ++ text) = .ok toks ∧ toks.length = s.toks.length ∧ parse E (lead ++ text) = .ok r ∧
      AlikeScene R (s.place E (toks.map Token.pos)) r := by
  classical
  obtain ⟨g, hg⟩ : ∃ g : F → F, ∀ f, P f → NumLit E (ft f) (.Float (g f)) ∧ R f (g f) := by
    refine ⟨fun f => if h : P f then (hft f h).choose else f, fun f h => ?_⟩
    simp only [dif_pos h]
    exact (hft f h).choose_spec
  have hl : List.Forall₂ (fun l v => Lexeme E l v [] ∧ NoCrlf l) (s.toks.map (tokenText ft))
      (s.toks.map (fun t => match t with | .Float f => .Float (g f) | t => t)) := by
    obtain ⟨h1, h2, h3⟩ := hw
    have h4 := scene_ident hE s h3
    rw [List.forall₂_map_left_iff, List.forall₂_map_right_iff, List.forall₂_same]
    intro t ht
    have other : (∀ f, t ≠ .Float f) → Lexeme E (tokenText ft t) t [] ∧ NoCrlf (tokenText ft t) := fun hn =>
      tokenText_lexeme hE (P := fun _ => False) (fun _ h => h.elim) t (fun f hf => hn f hf)
        (by rintro i rfl; exact h2 i ht) (by rintro i rfl; exact h4 i ht)
    cases t with
    | Float f =>
      have := (hg f (h1 f ht)).1
      exact ⟨lexeme_of_numLit hE this (numFollow_nil E), numLit_noCrlf hE this⟩
    | _ => exact other (by simp)
  obtain ⟨toks, t1, t2⟩ := C05_separators hE _ _ hl lead text hlead htext
  obtain ⟨o, o1, o2, o3⟩ := meant_tokens (fun f hf => (hg f hf).2) toks s.toks hw.1 t2
  have key := FloatType.rel_parseTokens (C := fun _ => True) (R := R) (E := E) (E' := E) (q := False) ⟨fun _ _ => rfl, hR⟩ False.elim o3
  rw [C17_round_trip_tokens s hs hb o o1, o2] at key
  have hlen : toks.length = s.toks.length := by simpa using congrArg List.length t2
  generalize hp : parseTokens E toks = r at key
  cases key with
  | ok a a' h => exact ⟨toks, a', t1, hlen, by rw [parse_of t1]; exact hp, h⟩

/-- **C127**: printing what was parsed and parsing that again gives related floats, and changes nothing else but positions: `q` is
    what was parsed with other positions. -/
theorem C127_print_parse (hE : Sane E) {ft : F → List Char} {P : F → Prop} {R : F → F → Prop}
    (hR : ∀ i, R (E.ofIsize i) (E.ofIsize i)) (hft : ∀ f, P f → ∃ g, NumLit E (ft f) (.Float g) ∧ R f g)
    {input : List Char} {r : List (PreDirective F) × Directive F} (h : parse E input = .ok r) (hP : ∀ f ∈ sceneFloats r, P f) :
    ∃ q r', parse E (printed ft r) = .ok r' ∧ erase q = erase r ∧ AlikeScene R q r' ∧
      List.Forall₂ R (sceneFloats r) (sceneFloats r') := by
  have hr := C99_regular hE h
  obtain ⟨h1, h2, h3⟩ := regular_writable hE hr hP
  obtain ⟨toks, r', -, -, h4, h5⟩ := C127_layout hE hR hft _ h1 h2 h3 [] _ .nil (spaced_layout hE _)
  have he := scene_of_placed r hr (toks.map Token.pos)
  refine ⟨_, r', h4, he, h5, ?_⟩
  rw [← sceneFloats_erase r, ← he, sceneFloats_erase]
  exact h5.2.1

end

section
variable {T : Type} [Elem T] [As T T] [FloatFns T] [IEEE T]
local notation "𝔽" => IEEE.fmt T

/-- Texts with a point are float literals. -/
theorem point_numLit {f : T} (hT : (𝔽).minExponent ≤ -1) (hmax : |val f| < 2 ^ 1024) (hf : IsFinite f)
    (he : 'e' ∈ (rustFloat true f).toList) (hp : '.' ∈ (rustFloat true f).toList) (h1 : 1 ≤ |val f|) (checks : Bool) :
    ∃ r, NumLit (ieeeEnv T checks) (rustFloat true f).toList (.Float r) := by
  obtain ⟨s, a, b, k, t1, t2, t3, t4, t5, t6, t7⟩ := exponent_text hf he
  have ht : (0 : ℝ) < 10 ^ k := zpow_pos (by norm_num) k
  have hRN : (grid 𝔽).RN (|decimal s a b| * 10 ^ k) = |val f| := by
    rw [← t6, ← RN_abs', abs_mul, abs_of_pos ht]
  have h0 : (grid 𝔽).Rep 0 := by rw [← RN_zero (g := grid 𝔽)]; exact rep_RN _
  have h6 : 0 ≤ |decimal s a b| * 10 ^ k := by positivity
  have hk16 : 16 ≤ k := by
    refine t7.resolve_left fun hk => ?_
    have h4 : (10 : ℝ) ^ (k + 1) ≤ 10 ^ (-4 : ℤ) := zpow_le_zpow_right₀ (by norm_num) (by omega)
    rw [zpow_add_one₀ (by norm_num)] at h4
    have h5 : |decimal s a b| * 10 ^ k < 1 / 1000 := by norm_num at h4 ⊢; nlinarith
    have h7 := RN_nearest (x := |decimal s a b| * 10 ^ k) h0
    rw [hRN, zero_sub, abs_neg, abs_of_nonneg h6] at h7
    have := (abs_le.1 h7).2
    linarith
  have hk400 : k < 400 := by
    by_contra hk
    have h4 : (10 : ℝ) ^ (400 : ℤ) ≤ 10 ^ k := zpow_le_zpow_right₀ (by norm_num) (by omega)
    have hten : (2 : ℝ) ^ 1024 ≤ 10 ^ (400 : ℤ) := calc
      (2 : ℝ) ^ 1024 ≤ 2 ^ (3 * 400) := pow_le_pow_right₀ (by norm_num) (by norm_num)
      _ = (2 ^ 3) ^ 400 := pow_mul _ _ _
      _ ≤ 10 ^ 400 := pow_le_pow_left₀ (by norm_num) (by norm_num) _
      _ = 10 ^ (400 : ℤ) := (zpow_ofNat _ _).symm
    have := RN_mono (g := grid 𝔽) (x := 2 ^ 1024) (y := |decimal s a b| * 10 ^ k)
      ((hten.trans h4).trans (le_mul_of_one_le_left ht.le t4))
    have hr : (grid 𝔽).Rep (2 ^ 1024) := ⟨1, 1024, by simp; exact one_le_pow₀ (by norm_num), hT.trans (by norm_num), by
      rw [Int.cast_one, one_mul]; exact (zpow_ofNat _ _).symm⟩
    rw [hRN, RN_rep hr] at this
    exact absurd hmax (not_lt.2 this)
  have hne : a ++ b ≠ [] := by
    intro h
    rw [(List.append_eq_nil_iff.1 h).1] at t2
    simp at t2
  have hb : b ≠ [] := by
    rintro rfl
    rw [t1, if_pos rfl, List.append_nil] at hp
    have hdot : ¬ IsDigit '.' := by unfold IsDigit; decide
    simp only [List.mem_append, List.mem_cons] at hp
    rcases hp with hp | hp | hp | hp
    · cases s <;> simp [Sign.text] at hp
    · exact hdot (t3 _ (by simpa using hp))
    · exact absurd hp (by decide)
    · rcases intDigits_chars _ _ hp with h | h
      · exact hdot h
      · exact absurd h (by decide)
  rw [if_neg hb] at t1
  have hread := NumLit.fracExp (E := ieeeEnv T checks) s _ (intDigits k) _ k (fracBody_digits (ieeeEnv_sane checks) t3)
    (ieeeParse_body s a b _ t3 hne (.inl rfl)) (intDigits_numLit (by unfold Fits; omega))
  exact ⟨_, by rw [t1]; simpa using hread⟩

/-- What is read is known if it is known to be a float. -/
theorem numLit_read {f r r' : T} {checks : Bool} (h : NumLit (ieeeEnv T checks) (rustFloat true f).toList (.Float r))
    (h' : tokenize (ieeeEnv T checks) (rustFloat true f).toList = .ok [⟨⟨1, 1⟩, .Float r'⟩]) :
    NumLit (ieeeEnv T checks) (rustFloat true f).toList (.Float r') := by
  rw [tokenize_numLit (ieeeEnv_sane checks) h] at h'
  simp only [Res.ok.injEq, List.cons.injEq, Token.mk.injEq, TokenType.Float.injEq] at h'
  rwa [← h'.1.2]

end

theorem read_float32 {f : Float32.Model} (hf : IsFinite f)
    (h16 : |val f| < 10 ^ 16 ∨ '.' ∈ (rustFloat true f).toList) (checks : Bool) :
    ∃ g, NumLit (ieeeEnv Float32.Model checks) (rustFloat true f).toList (.Float g) ∧ IsFinite g ∧
      (val f = 0 ∨ 1 / 10 ^ 30 ≤ |val f| → |val g - val f| ≤ 5 * 2 ^ (-24 : ℤ) * |val f|) := by
  have same : |val f - val f| ≤ 5 * 2 ^ (-24 : ℤ) * |val f| := by rw [sub_self, abs_zero]; positivity
  have hmax : |val f| < 2 ^ 1024 := by
    refine ((C70_range32 _).1 ⟨f, f, hf, hf, le_rfl, le_rfl⟩).trans_lt ?_
    calc ((2 : ℝ) ^ 24 - 1) * 2 ^ 104 < 2 ^ 128 := by norm_num
      _ ≤ 2 ^ 1024 := pow_le_pow_right₀ (by norm_num) (by norm_num)
  by_cases he : 'e' ∈ (rustFloat true f).toList
  · have hlo : val f = 0 ∨ 1 / 10 ^ 30 ≤ |val f| → 1 / 10 ^ 30 ≤ |val f| := by
      refine fun h0 => h0.resolve_left fun h => ?_
      obtain ⟨s, m, e, hm, hu, -⟩ := rustFloat_e hf he
      have hpos : (0 : ℝ) < m * 2 ^ e := mul_pos (by exact_mod_cast hm) (two_zpow_pos e)
      unfold val at h
      rw [hu, uval_finite] at h
      cases s <;> simp only [sgn] at h <;> linarith
    by_cases h1 : |val f| < 1
    · obtain ⟨r, r1, r2⟩ := small_numLit32 hf he h1 checks
      exact ⟨r, r1, r2, fun h0 => C126_close32 hf he (hlo h0) r1 r2⟩
    · rw [not_lt] at h1
      by_cases hp : '.' ∈ (rustFloat true f).toList
      · obtain ⟨r, r1, r2, r3⟩ := C126_point32 hf he hp h1 checks
        obtain ⟨r', h⟩ := point_numLit (by decide) hmax hf he hp h1 checks
        exact ⟨r, numLit_read h r1, r2, fun _ => r3⟩
      · exact ⟨f, C125_range32 hf true checks (le_trans (by norm_num) h1) (h16.resolve_right hp), hf, fun _ => same⟩
  · exact ⟨f, C125_reads_back hf true checks he, hf, fun _ => same⟩

theorem read_float64 {f : Float.Model} (hf : IsFinite f)
    (h16 : |val f| < 10 ^ 16 ∨ '.' ∈ (rustFloat true f).toList) (checks : Bool) :
    ∃ g, NumLit (ieeeEnv Float.Model checks) (rustFloat true f).toList (.Float g) ∧ IsFinite g ∧
      (val f = 0 ∨ 1 / 10 ^ 290 ≤ |val f| → |val g - val f| ≤ 5 * 2 ^ (-53 : ℤ) * |val f|) := by
  have same : |val f - val f| ≤ 5 * 2 ^ (-53 : ℤ) * |val f| := by rw [sub_self, abs_zero]; positivity
  have hmax : |val f| < 2 ^ 1024 := by
    refine ((C70_range64 _).1 ⟨f, f, hf, hf, le_rfl, le_rfl⟩).trans_lt ?_
    rw [show (2 : ℝ) ^ 1024 = 2 ^ 53 * 2 ^ 971 by rw [← pow_add]]
    exact mul_lt_mul_of_pos_right (by linarith) (by positivity)
  by_cases he : 'e' ∈ (rustFloat true f).toList
  · have hlo : val f = 0 ∨ 1 / 10 ^ 290 ≤ |val f| → 1 / 10 ^ 290 ≤ |val f| := by
      refine fun h0 => h0.resolve_left fun h => ?_
      obtain ⟨s, m, e, hm, hu, -⟩ := rustFloat_e hf he
      have hpos : (0 : ℝ) < m * 2 ^ e := mul_pos (by exact_mod_cast hm) (two_zpow_pos e)
      unfold val at h
      rw [hu, uval_finite] at h
      cases s <;> simp only [sgn] at h <;> linarith
    by_cases h1 : |val f| < 1
    · obtain ⟨r, r1, r2⟩ := small_numLit64 hf he h1 checks
      exact ⟨r, r1, r2, fun h0 => C126_close64 hf he (hlo h0) r1 r2⟩
    · rw [not_lt] at h1
      by_cases hp : '.' ∈ (rustFloat true f).toList
      · obtain ⟨r, r1, r2, r3⟩ := C126_point64 hf he hp h1 checks
        obtain ⟨r', h⟩ := point_numLit (by decide) hmax hf he hp h1 checks
        exact ⟨r, numLit_read h r1, r2, fun _ => r3⟩
      · exact ⟨f, C125_range64 hf true checks (le_trans (by norm_num) h1) (h16.resolve_right hp), hf, fun _ => same⟩
  · exact ⟨f, C125_reads_back hf true checks he, hf, fun _ => same⟩

/-- **C127**: a scene can be written with what a newer library shows of its floats. It is read as the same scene with finite floats,
    close to the right ones unless these are tiny, if no float that is large is shown without a point. -/
theorem C127_scene32 (checks : Bool) (s : WScene Float32.Model) (hs : s.Ok (ieeeEnv Float32.Model checks)) (hb : s.BlocksLast)
    (hw : s.Writable (ieeeEnv Float32.Model checks) fun f => IsFinite f ∧ (|val f| < 10 ^ 16 ∨ '.' ∈ (rustFloat true f).toList)) :
    ∃ toks r, tokenize (ieeeEnv Float32.Model checks) (s.text fun f => (rustFloat true f).toList) = .ok toks ∧
      toks.length = s.toks.length ∧ parse (ieeeEnv Float32.Model checks) (s.text fun f => (rustFloat true f).toList) = .ok r ∧
      AlikeScene (fun f g => (IsFinite f → IsFinite g) ∧
        (val f = 0 ∨ 1 / 10 ^ 30 ≤ |val f| → |val g - val f| ≤ 5 * 2 ^ (-24 : ℤ) * |val f|))
        (s.place (ieeeEnv Float32.Model checks) (toks.map Token.pos)) r :=
  C127_layout (ieeeEnv_sane checks) (fun i => ⟨id, fun _ => by rw [sub_self, abs_zero]; positivity⟩)
    (fun _ hf => (read_float32 hf.1 hf.2 checks).imp fun _ h => ⟨h.1, fun _ => h.2.1, h.2.2⟩) s hs hb hw [] _ .nil (spaced_layout (ieeeEnv_sane checks) _)

theorem C127_scene64 (checks : Bool) (s : WScene Float.Model) (hs : s.Ok (ieeeEnv Float.Model checks)) (hb : s.BlocksLast)
    (hw : s.Writable (ieeeEnv Float.Model checks) fun f => IsFinite f ∧ (|val f| < 10 ^ 16 ∨ '.' ∈ (rustFloat true f).toList)) :
    ∃ toks r, tokenize (ieeeEnv Float.Model checks) (s.text fun f => (rustFloat true f).toList) = .ok toks ∧
      toks.length = s.toks.length ∧ parse (ieeeEnv Float.Model checks) (s.text fun f => (rustFloat true f).toList) = .ok r ∧
      AlikeScene (fun f g => (IsFinite f → IsFinite g) ∧
        (val f = 0 ∨ 1 / 10 ^ 290 ≤ |val f| → |val g - val f| ≤ 5 * 2 ^ (-53 : ℤ) * |val f|))
        (s.place (ieeeEnv Float.Model checks) (toks.map Token.pos)) r :=
  C127_layout (ieeeEnv_sane checks) (fun i => ⟨id, fun _ => by rw [sub_self, abs_zero]; positivity⟩)
    (fun _ hf => (read_float64 hf.1 hf.2 checks).imp fun _ h => ⟨h.1, fun _ => h.2.1, h.2.2⟩) s hs hb hw [] _ .nil (spaced_layout (ieeeEnv_sane checks) _)

/-- **C127**: so what was parsed can be printed with what a newer library shows of its floats. -/
theorem C127_again32 {checks : Bool} {input : List Char} {r : List (PreDirective Float32.Model) × Directive Float32.Model}
    (h : parse (ieeeEnv Float32.Model checks) input = .ok r)
    (hP : ∀ f ∈ sceneFloats r, IsFinite f ∧ (|val f| < 10 ^ 16 ∨ '.' ∈ (rustFloat true f).toList)) :
    ∃ q r', parse (ieeeEnv Float32.Model checks) (printed (fun f => (rustFloat true f).toList) r) = .ok r' ∧ erase q = erase r ∧
      shapeScene q = shapeScene r' ∧ scenePaths q = scenePaths r' ∧
      List.Forall₂ (fun f g => IsFinite g ∧ (val f = 0 ∨ 1 / 10 ^ 30 ≤ |val f| → |val g - val f| ≤ 5 * 2 ^ (-24 : ℤ) * |val f|))
        (sceneFloats r) (sceneFloats r') := by
  obtain ⟨q, r', h1, h2, h3, h4⟩ := C127_print_parse (ieeeEnv_sane checks)
    (R := fun f g => (IsFinite f → IsFinite g) ∧ (val f = 0 ∨ 1 / 10 ^ 30 ≤ |val f| → |val g - val f| ≤ 5 * 2 ^ (-24 : ℤ) * |val f|))
    (fun i => ⟨id, fun _ => by rw [sub_self, abs_zero]; positivity⟩)
    (fun _ hf => (read_float32 hf.1 hf.2 checks).imp fun _ h => ⟨h.1, fun _ => h.2.1, h.2.2⟩) h hP
  refine ⟨q, r', h1, h2, h3.1, h3.2.2, ?_⟩
  rw [List.forall₂_iff_zip] at h4 ⊢
  exact ⟨h4.1, fun hm => ⟨(h4.2 hm).1 (hP _ (List.of_mem_zip hm).1).1, (h4.2 hm).2⟩⟩

theorem C127_again64 {checks : Bool} {input : List Char} {r : List (PreDirective Float.Model) × Directive Float.Model}
    (h : parse (ieeeEnv Float.Model checks) input = .ok r)
    (hP : ∀ f ∈ sceneFloats r, IsFinite f ∧ (|val f| < 10 ^ 16 ∨ '.' ∈ (rustFloat true f).toList)) :
    ∃ q r', parse (ieeeEnv Float.Model checks) (printed (fun f => (rustFloat true f).toList) r) = .ok r' ∧ erase q = erase r ∧
      shapeScene q = shapeScene r' ∧ scenePaths q = scenePaths r' ∧
      List.Forall₂ (fun f g => IsFinite g ∧ (val f = 0 ∨ 1 / 10 ^ 290 ≤ |val f| → |val g - val f| ≤ 5 * 2 ^ (-53 : ℤ) * |val f|))
        (sceneFloats r) (sceneFloats r') := by
  obtain ⟨q, r', h1, h2, h3, h4⟩ := C127_print_parse (ieeeEnv_sane checks)
    (R := fun f g => (IsFinite f → IsFinite g) ∧ (val f = 0 ∨ 1 / 10 ^ 290 ≤ |val f| → |val g - val f| ≤ 5 * 2 ^ (-53 : ℤ) * |val f|))
    (fun i => ⟨id, fun _ => by rw [sub_self, abs_zero]; positivity⟩)
    (fun _ hf => (read_float64 hf.1 hf.2 checks).imp fun _ h => ⟨h.1, fun _ => h.2.1, h.2.2⟩) h hP
  refine ⟨q, r', h1, h2, h3.1, h3.2.2, ?_⟩
  rw [List.forall₂_iff_zip] at h4 ⊢
  exact ⟨h4.1, fun hm => ⟨(h4.2 hm).1 (hP _ (List.of_mem_zip hm).1).1, (h4.2 hm).2⟩⟩

/-! ### Where it fails -/

/-- `Translate 1e19 0 0` and an empty world -/
def largeScene : WScene Float.Model where
  pre := [.translate (.flt shownLarge64) (.int 0) (.int 0)]
  world := []

/-- **C127** (an expectation that fails): not every scene of finite floats can be written in this way. With overflow checks the parser
    panics at `Translate 1e19 0 0`. -/
theorem C127_refuted : largeScene.Ok (ieeeEnv Float.Model true) ∧ largeScene.BlocksLast ∧
    largeScene.Writable (ieeeEnv Float.Model true) IsFinite ∧
    largeScene.text (fun f => (rustFloat true f).toList) = "Translate 1e19 0 0 WorldBegin WorldEnd".toList ∧
    parse (ieeeEnv Float.Model true) "Translate 1e19 0 0 WorldBegin WorldEnd".toList = .panic := by
  refine ⟨⟨?_, ?_⟩, ?_, ⟨?_, ?_, ?_⟩, by decide +kernel, ?_⟩
  · simp [largeScene, WPre.Ok]
  · simp [largeScene, WDir.OkAll]
  · simp [largeScene, WScene.BlocksLast, WDir.BlocksLastAll]
  · intro f hf
    have h : ∀ t ∈ largeScene.toks, (match t with | .Float f => decide (IsFinite f) | _ => true) = true := by decide +kernel
    exact of_decide_eq_true (h _ hf)
  · intro i hi
    have h : ∀ t ∈ largeScene.toks, (match t with | .Int i => decide (-(2 ^ 63) ≤ i ∧ i < 2 ^ 63) | _ => true) = true := by
      decide +kernel
    have h2 : -(2 ^ 63) ≤ i ∧ i < 2 ^ 63 := of_decide_eq_true (h _ hi)
    exact h2
  · simp [largeScene]
  · have : tokenize (ieeeEnv Float.Model true) "Translate 1e19 0 0 WorldBegin WorldEnd".toList = .panic := by decide +kernel
    rw [parse, this]

/-- Adjacent floats near `7.521651023526171e146` -/
def drifting (i : ℕ) : Float.Model := .pack (.finite .positive (8477446663899331 - i + 1) 435 (by omega))

/-- **C127** (an expectation that fails): the errors add up. `7.521651023526171e146` is read as the float below, that is shown as
    `7.52165102352617e146`, which is read as the next one below, and so on: printing and parsing twenty times goes down by twenty floats. -/
theorem C127_drift_refuted :
    rustFloat true (drifting 0) = "7.521651023526171e146" ∧ rustFloat true (drifting 20) = "7.521651023526153e146" ∧
    ∀ i < 20, val (drifting (i + 1)) < val (drifting i) ∧
      tokenize (ieeeEnv Float.Model true) (rustFloat true (drifting i)).toList = .ok [⟨⟨1, 1⟩, .Float (drifting (i + 1))⟩] := by
  have key : ∀ i < 20, tokenize (ieeeEnv Float.Model true) (rustFloat true (drifting i)).toList =
      .ok [⟨⟨1, 1⟩, .Float (drifting (i + 1))⟩] := by decide +kernel
  have hup : ∀ i < 21, up (drifting i) = .finite .positive (8477446663899331 - i + 1) 435 (Nat.succ_pos _) := by
    intro i hi
    interval_cases i <;> rfl
  refine ⟨by decide +kernel, by decide +kernel, fun i hi => ⟨?_, key i hi⟩⟩
  unfold val
  rw [hup i (by omega), hup (i + 1) (by omega), uval_finite, uval_finite]
  simp only [sgn, one_mul]
  refine mul_lt_mul_of_pos_right ?_ (two_zpow_pos _)
  exact_mod_cast (by omega : 8477446663899331 - (i + 1) + 1 < 8477446663899331 - i + 1)

/-- `Translate 1.3e-5 0 3.4028235e38` and an empty world -/
def closeScene : WScene Float32.Model where
  pre := [.translate (.flt shownSmall32) (.int 0) (.flt largest32)]
  world := []

-- the hypotheses of the theorems above
example : closeScene.text (fun f => (rustFloat true f).toList) = "Translate 1.3e-5 0 3.4028235e38 WorldBegin WorldEnd".toList := by
  decide +kernel
example : closeScene.Ok (ieeeEnv Float32.Model true) ∧ closeScene.BlocksLast ∧
    closeScene.Writable (ieeeEnv Float32.Model true) fun f => IsFinite f ∧
      (|val f| < 10 ^ 16 ∨ '.' ∈ (rustFloat true f).toList) := by
  refine ⟨⟨?_, ?_⟩, ?_, ?_, ?_, ?_⟩
  · simp [closeScene, WPre.Ok]
  · simp [closeScene, WDir.OkAll]
  · simp [closeScene, WScene.BlocksLast, WDir.BlocksLastAll]
  · intro f hf
    have h : f = shownSmall32 ∨ f = largest32 := by
      have h : ∀ t ∈ closeScene.toks, (match t with | .Float f => decide (f = shownSmall32 ∨ f = largest32) | _ => true) = true := by
        decide +kernel
      exact of_decide_eq_true (h _ hf)
    rcases h with rfl | rfl <;> exact ⟨by decide +kernel, .inr (by decide +kernel)⟩
  · intro i hi
    have h : ∀ t ∈ closeScene.toks, (match t with | .Int i => decide (-(2 ^ 63) ≤ i ∧ i < 2 ^ 63) | _ => true) = true := by
      decide +kernel
    have h2 : -(2 ^ 63) ≤ i ∧ i < 2 ^ 63 := of_decide_eq_true (h _ hi)
    exact h2
  · simp [closeScene]

example : ∃ r, parse (ieeeEnv Float32.Model true) "Translate 1.3e-5 0 3.4028235e38 WorldBegin WorldEnd".toList = .ok r ∧
    ∀ f ∈ sceneFloats r, IsFinite f ∧ (|val f| < 10 ^ 16 ∨ '.' ∈ (rustFloat true f).toList) := by
  have h : (match parse (ieeeEnv Float32.Model true) "Translate 1.3e-5 0 3.4028235e38 WorldBegin WorldEnd".toList with
      | .ok r => decide (∀ f ∈ sceneFloats r, IsFinite f ∧ '.' ∈ (rustFloat true f).toList) | _ => false) = true := by decide +kernel
  generalize parse (ieeeEnv Float32.Model true) "Translate 1.3e-5 0 3.4028235e38 WorldBegin WorldEnd".toList = x at h
  match x, h with
  | .ok r, h => exact ⟨r, rfl, fun f hf => ⟨(of_decide_eq_true h f hf).1, .inr (of_decide_eq_true h f hf).2⟩⟩

end Pbrt
