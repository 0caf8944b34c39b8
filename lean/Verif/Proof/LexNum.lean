import Verif.Proof.LexBasic

/-!
# Symbolic execution of the tokenizer: numbers
-/

namespace Pbrt.Proof
open Pbrt.Spec

variable {F : Type}

/-! ### Integer conversion -/

theorem digitVal_some {c : Char} (h : IsDigit c) : digitVal c = some (c.toNat - 48) := by
  unfold digitVal
  unfold IsDigit at h
  rw [if_pos h]
  rfl

theorem digitVal_none {c : Char} (h : ¬ IsDigit c) : digitVal c = none := by
  unfold digitVal
  unfold IsDigit at h
  rw [if_neg h]

theorem digitsVal_some (ds : List Char) (acc : Nat) (h : ∀ c ∈ ds, IsDigit c) :
    digitsVal acc ds = some (ds.foldl (fun n c => 10 * n + (c.toNat - 48)) acc) := by
  induction ds generalizing acc with
  | nil => rfl
  | cons c cs ih =>
    have hc := h c (by simp)
    simp only [digitsVal, digitVal_some hc, List.foldl_cons]
    exact ih _ fun d hd => h d (by simp [hd])

theorem digitsVal_none (ds : List Char) (acc : Nat) (h : ¬ ∀ c ∈ ds, IsDigit c) :
    digitsVal acc ds = none := by
  induction ds generalizing acc with
  | nil => simp at h
  | cons c cs ih =>
    by_cases hc : IsDigit c
    · simp only [digitsVal, digitVal_some hc]
      refine ih _ fun hh => h ?_
      intro d hd
      rcases List.mem_cons.1 hd with rfl | hd
      · exact hc
      · exact hh d hd
    · simp only [digitsVal, digitVal_none hc]

theorem inIsize_iff (i : Int) : inIsize i = true ↔ Fits i := by
  unfold inIsize Fits isizeMin isizeMax
  simp only [Bool.and_eq_true, decide_eq_true_eq]
  omega

theorem inIsize_eq_false_iff (i : Int) : inIsize i = false ↔ ¬ Fits i := by
  rw [← inIsize_iff]; simp

theorem not_isDigit_minus : ¬ IsDigit '-' := by unfold IsDigit; decide
theorem not_isDigit_plus : ¬ IsDigit '+' := by unfold IsDigit; decide

/-- The integer conversion on the characters collected by `tokenize_num`. -/
theorem parseIsize_spec (s : Sign) (ds : List Char) (hp : '+' ∉ ds) (hm : '-' ∉ ds) (i : Int) :
    parseIsize (s.kept ++ ds) = some i ↔
      ds ≠ [] ∧ (∀ c ∈ ds, IsDigit c) ∧ Fits (s.apply (decVal ds)) ∧ i = s.apply (decVal ds) := by
  have key : ∀ x : Int, rangeCheck x = some i ↔ Fits x ∧ i = x := by
    intro x
    unfold rangeCheck
    by_cases h : inIsize x = true
    · rw [if_pos h]
      constructor
      · intro hh; exact ⟨(inIsize_iff x).1 h, (Option.some.inj hh).symm⟩
      · rintro ⟨_, rfl⟩; rfl
    · rw [if_neg h]
      constructor
      · intro hh; exact absurd hh (by simp)
      · rintro ⟨hh, _⟩; exact absurd ((inIsize_iff x).2 hh) h
  have plain : ds ≠ [] → ∀ g : Nat → Int,
      ((digitsVal 0 ds).bind fun n => rangeCheck (g n)) = some i ↔
      (∀ c ∈ ds, IsDigit c) ∧ Fits (g (decVal ds)) ∧ i = g (decVal ds) := by
    intro _ g
    by_cases h : ∀ c ∈ ds, IsDigit c
    · rw [digitsVal_some ds 0 h]
      show rangeCheck (g (decVal ds)) = some i ↔ _
      rw [key]
      exact ⟨fun hh => ⟨h, hh⟩, fun hh => hh.2⟩
    · rw [digitsVal_none ds 0 h]
      constructor
      · intro hh; exact absurd hh (by simp)
      · intro hh; exact absurd hh.1 h
  have pos : parseIsize ds = some i ↔ ds ≠ [] ∧ (∀ c ∈ ds, IsDigit c) ∧
      Fits ((decVal ds : Nat) : Int) ∧ i = (decVal ds : Nat) := by
    cases ds with
    | nil => simp [parseIsize]
    | cons c cs =>
      have h1 : c ≠ '-' := by rintro rfl; simp at hm
      have h2 : c ≠ '+' := by rintro rfl; simp at hp
      have : parseIsize (c :: cs) = (digitsVal 0 (c :: cs)).bind fun n => rangeCheck n := by
        unfold parseIsize
        split
        · exact absurd ‹_› (by simp)
        · rename_i heq; simp at heq; exact absurd heq.1 h1
        · rename_i heq; simp at heq; exact absurd heq.1 h2
        · rfl
      rw [this, plain (by simp) fun n => (n : Int)]
      simp
  cases s with
  | none => simpa [Sign.kept, Sign.apply] using pos
  | plus => simpa [Sign.kept, Sign.apply] using pos
  | minus =>
    show parseIsize ('-' :: ds) = some i ↔ _
    by_cases hne : ds = []
    · subst hne; simp [parseIsize]
    · have : parseIsize ('-' :: ds) = (digitsVal 0 ds).bind fun n => rangeCheck (-(n : Int)) := by
        show (if ds = [] then none else _) = _
        rw [if_neg hne]
      rw [this, plain hne fun n => -(n : Int)]
      simp [Sign.apply, hne]

/-! ### Machine arithmetic -/

theorem wrapIsize_fits (x : Int) : Fits (wrapIsize x) ∧ (2 ^ 64 : Int) ∣ (x - wrapIsize x) := by
  unfold wrapIsize Fits
  have h1 := Int.le_bmod (x := x) (m := 18446744073709551616) (by omega)
  have h2 := Int.bmod_lt (x := x) (m := 18446744073709551616) (by omega)
  refine ⟨⟨by omega, by omega⟩, ?_⟩
  have h3 := Int.bmod_add_bdiv x 18446744073709551616
  refine ⟨x.bdiv 18446744073709551616, ?_⟩
  have : (18446744073709551616 : Nat) = (2 ^ 64 : Nat) := rfl
  generalize x.bmod 18446744073709551616 = b at *
  generalize x.bdiv 18446744073709551616 = d at *
  have h4 : ((18446744073709551616 : Nat) : Int) = 2 ^ 64 := rfl
  rw [h4] at h3
  omega

theorem fits_congr {a b : Int} (ha : Fits a) (hb : Fits b) (h : (2 ^ 64 : Int) ∣ (a - b)) :
    a = b := by
  unfold Fits at ha hb
  omega

theorem machine_unique {E : Env F} {x v w : Int} (hv : Machine E x v) (hw : Machine E x w) :
    v = w := by
  rcases hv with ⟨h1, rfl⟩ | ⟨h1, h2, h3, h4⟩
  · rcases hw with ⟨_, rfl⟩ | ⟨h, _⟩
    · rfl
    · exact absurd h1 h
  · rcases hw with ⟨h, _⟩ | ⟨_, _, h5, h6⟩
    · exact absurd h h1
    · exact fits_congr h3 h5 (by omega)

theorem isizeOp_ok {E : Env F} {x v : Int} (h : Machine E x v) (s : Tokenizer) :
    isizeOp E x s = (.ok v, s) := by
  unfold isizeOp
  rcases h with ⟨h1, rfl⟩ | ⟨h1, h2, h3, h4⟩
  · rw [if_pos ((inIsize_iff _).2 h1)]; rfl
  · rw [if_neg (by rw [inIsize_iff]; exact h1), h2]
    have := wrapIsize_fits x
    have e : v = wrapIsize x := fits_congr h3 this.1 (by omega)
    rw [e]; rfl

/-- An `isize` operation succeeds, or it panics because its result does not fit. -/
theorem isizeOp_cases (E : Env F) (x : Int) (s : Tokenizer) :
    (∃ v, Machine E x v ∧ isizeOp E x s = (.ok v, s)) ∨
    (E.overflowChecks = true ∧ ¬ Fits x ∧ isizeOp E x s = (.panic, s)) := by
  by_cases h : Fits x
  · exact .inl ⟨x, .inl ⟨h, rfl⟩, isizeOp_ok (.inl ⟨h, rfl⟩) s⟩
  · cases hc : E.overflowChecks
    · have := wrapIsize_fits x
      exact .inl ⟨_, .inr ⟨h, hc, this.1, this.2⟩, isizeOp_ok (.inr ⟨h, hc, this.1, this.2⟩) s⟩
    · refine .inr ⟨rfl, h, ?_⟩
      unfold isizeOp
      rw [if_neg (by rw [inIsize_iff]; exact h), hc]
      rfl

/-- Powers of ten that fit have an exponent below 19. -/
theorem pow_fits_lt {n : Nat} (h : Fits (10 ^ n)) : n < 19 := by
  rcases Nat.lt_or_ge n 19 with hn | hn
  · exact hn
  · exfalso
    have h1 : (10 : Nat) ^ 19 ≤ 10 ^ n := Nat.pow_le_pow_right (by decide) hn
    have h2 := h.2
    have h3 : ((10 ^ n : Nat) : Int) = (10 : Int) ^ n := by simp
    rw [← h3] at h2
    omega

theorem not_fits_cut {n : Nat} (h : ¬ Fits (10 ^ (n % 4294967296))) : ¬ Fits (10 ^ n) := by
  intro hf
  have := pow_fits_lt hf
  rw [Nat.mod_eq_of_lt (by omega)] at h
  exact h hf

theorem not_fits_mul_cut {m : Int} {n : Nat} (h : ¬ Fits (m * 10 ^ (n % 4294967296))) :
    ¬ Fits (10 ^ n) ∨ ¬ Fits (m * 10 ^ n) := by
  by_cases hf : Fits (10 ^ n)
  · have := pow_fits_lt hf
    rw [Nat.mod_eq_of_lt (by omega)] at h
    exact .inr h
  · exact .inl hf

/-! ### Outcomes of `tokenize_num` -/

def NumOut (E : Env F) (pre cs : List Char) :
    Res TokenizerError (Token F) × Tokenizer → Prop
  | (.ok t, s) => t.pos = posOf pre ∧ ∃ l rest, cs = l ++ rest ∧ s = St (pre ++ l) rest ∧
      NumLit E l t.ty ∧ NumFollow E rest
  | (.err (.Str m), _) => PosErr pre cs m ∨ ConvErr E m
  | (.err .Eof, _) => False
  | (.panic, _) => E.overflowChecks = true ∧ ∃ a l b, cs = a ++ l ++ b ∧ OverflowLit E l
  | (.diverge, _) => False

theorem numLit_kind {E : Env F} {l : List Char} {v : TokenType F} (h : NumLit E l v) :
    (∃ i, v = .Int i) ∨ (∃ f, v = .Float f) := by
  cases h <;> simp

theorem numLoop_digit {E : Env F} {c : Char} (h : E.isNumeric c = true) (fuel : Nat) (sp : Pos)
    (nc : List Char) (b : Bool) (pre cs : List Char) :
    numLoop E (fuel + 1) sp nc b (St pre (c :: cs)) =
      numLoop E fuel sp (nc ++ [c]) b (St (pre ++ [c]) cs) := by
  rw [numLoop, bind_ok (attempt_ok (tkPeek_cons ..))]
  simp only [h, if_true]
  rw [bind_ok (tkNext_cons ..)]

theorem numLoop_digits {E : Env F} {ds : List Char} (h : IntBody E ds) (fuel : Nat) (sp : Pos)
    (nc : List Char) (b : Bool) (pre rest : List Char) :
    numLoop E (fuel + ds.length) sp nc b (St pre (ds ++ rest)) =
      numLoop E fuel sp (nc ++ ds) b (St (pre ++ ds) rest) := by
  induction ds generalizing nc pre with
  | nil => simp
  | cons c cs ih =>
    rw [List.length_cons, ← Nat.add_assoc, List.cons_append, numLoop_digit (h c (by simp)),
      ih (fun d hd => h d (by simp [hd]))]
    simp

theorem numLoop_dot {E : Env F} (hE : Sane E) (fuel : Nat) (sp : Pos)
    (nc : List Char) (pre cs : List Char) :
    numLoop E (fuel + 1) sp nc false (St pre ('.' :: cs)) =
      numLoop E fuel sp (nc ++ ['.']) true (St (pre ++ ['.']) cs) := by
  rw [numLoop, bind_ok (attempt_ok (tkPeek_cons ..))]
  simp only [(hE.punct '.' (by simp)).1, if_true]
  rw [if_neg (by simp), if_neg (by simp), bind_ok (tkNext_cons ..)]

theorem numLoop_dot_err {E : Env F} (hE : Sane E) (fuel : Nat) (sp : Pos)
    (nc : List Char) (pre cs : List Char) :
    ∃ txt, numLoop E (fuel + 1) sp nc true (St pre ('.' :: cs)) =
      (.err (.Str ((posOf pre).fmt ++ txt)), St pre ('.' :: cs)) := by
  rw [numLoop, bind_ok (attempt_ok (tkPeek_cons ..))]
  simp only [(hE.punct '.' (by simp)).1, if_true]
  refine ⟨" tokenize_num(): unexpected char '" ++ String.singleton '.' ++ "'", ?_⟩
  show (tkPos >>= fun p => _) _ = _
  rw [bind_ok (tkPos_St ..)]
  simp only [M.throw_apply, String.append_assoc]

theorem numLoop_end {E : Env F} (fuel : Nat) (sp : Pos) (nc : List Char) (b : Bool)
    (pre rest : List Char) (h : NumFollow E rest) :
    numLoop E (fuel + 1) sp nc b (St pre rest) = numFinish E sp nc b (St pre rest) := by
  rw [numLoop]
  cases rest with
  | nil => rw [bind_ok (attempt_err (tkPeek_nil ..))]
  | cons c cs =>
    obtain ⟨h1, h2, h3⟩ := h c rfl
    rw [bind_ok (attempt_ok (tkPeek_cons ..))]
    simp only [h1, h2, h3, if_false]
    rfl

theorem sane_e {E : Env F} (hE : Sane E) : E.isNumeric 'e' = false :=
  (hE.letter 'e' (by decide)).2.1

/-- The exponent branch of the loop. -/
theorem numLoop_exp {E : Env F} (hE : Sane E) (fuel : Nat) (sp : Pos) (nc : List Char) (b : Bool)
    (pre cs : List Char) (hne : nc ≠ []) :
    numLoop E (fuel + 1) sp nc b (St pre ('e' :: cs)) =
      (tokenizeNum E fuel >>= fun t => match t.removePos with
          | .Float f => do
            let m ← parseFloatM E nc
            pure ⟨sp, .Float (E.fmul m (E.powf10 f))⟩
          | .Int i =>
            if i ≥ 0 ∧ b = false then do
              let m ← parseIntM E nc
              let p ← pow10M E i
              let v ← isizeOp E (m * p)
              pure ⟨sp, .Int v⟩
            else do
              let m ← parseFloatM E nc
              pure ⟨sp, .Float (E.fmul m (E.powf10 (E.ofIsize i)))⟩
          | _ => M.throw (noNumber sp)) (St (pre ++ ['e']) cs) := by
  rw [numLoop, bind_ok (attempt_ok (tkPeek_cons ..))]
  simp only [sane_e hE, if_true, hne, if_false]
  rw [if_neg (by simp), if_neg (by decide)]
  rw [bind_ok (attempt_ok (tkNext_cons ..))]
  rfl

theorem numLoop_exp_err {E : Env F} (hE : Sane E) (fuel : Nat) (sp : Pos) (b : Bool)
    (pre cs : List Char) :
    numLoop E (fuel + 1) sp [] b (St pre ('e' :: cs)) =
      (.err (noNumber (posOf pre)), St pre ('e' :: cs)) := by
  rw [numLoop, bind_ok (attempt_ok (tkPeek_cons ..))]
  simp only [sane_e hE, if_true]
  rw [if_neg (by simp), if_neg (by decide)]
  rw [bind_ok (tkPos_St ..)]
  rfl

/-! ### Conversions -/

theorem parseFloatM_cases (E : Env F) (cs : List Char) (s : Tokenizer) :
    (∃ f, E.parseFloat cs = .ok f ∧ parseFloatM E cs s = (.ok f, s)) ∨
    (∃ m, E.parseFloat cs = .error m ∧ parseFloatM E cs s = (.err (.Str m), s)) := by
  unfold parseFloatM
  cases h : E.parseFloat cs with
  | ok f => exact .inl ⟨f, rfl, rfl⟩
  | error m => exact .inr ⟨m, rfl, rfl⟩

theorem parseIntM_cases (E : Env F) (cs : List Char) (s : Tokenizer) :
    (∃ i, parseIsize cs = some i ∧ parseIntM E cs s = (.ok i, s)) ∨
    (parseIsize cs = none ∧ parseIntM E cs s = (.err (.Str (E.parseIntError cs)), s)) := by
  unfold parseIntM
  cases h : parseIsize cs with
  | some f => exact .inl ⟨f, rfl, rfl⟩
  | none => exact .inr ⟨rfl, rfl⟩

theorem noSign_of_body {E : Env F} (hE : Sane E) {ds : List Char} (h : IntBody E ds) :
    '+' ∉ ds ∧ '-' ∉ ds := by
  constructor
  · intro hm
    have := h _ hm
    rw [(hE.punct '+' (by simp)).1] at this
    exact absurd this (by simp)
  · intro hm
    have := h _ hm
    rw [(hE.punct '-' (by simp)).1] at this
    exact absurd this (by simp)

/-- `b` says whether the body contains a point. -/
def Body (E : Env F) (b : Bool) (ds : List Char) : Prop :=
  (b = false ∧ IntBody E ds) ∨ (b = true ∧ FracBody E ds)

theorem kept_ne_of_frac {E : Env F} {s : Sign} {ds : List Char} (h : FracBody E ds) :
    s.kept ++ ds ≠ [] := by
  obtain ⟨a, b, rfl, _, _⟩ := h
  simp

theorem text_eq_nil_of {s : Sign} {ds : List Char} (h : s.kept ++ ds = []) : ds = [] := by
  simp at h; exact h.2

/-! ### `tokenize_num` -/

theorem numFinish_out {E : Env F} (hE : Sane E) (s : Sign) (b : Bool) (pre ds rest : List Char)
    (hb : Body E b ds) (hr : NumFollow E rest) :
    NumOut E pre (s.text ++ ds ++ rest)
      (numFinish E (posOf pre) (s.kept ++ ds) b (St (pre ++ (s.text ++ ds)) rest)) := by
  unfold numFinish
  by_cases hne : s.kept ++ ds = []
  · rw [if_pos hne]
    rw [bind_ok (tkPos_St ..)]
    refine .inl ⟨s.text ++ ds, rest, " tokenize_num(): no number", by simp, rfl⟩
  · rw [if_neg hne]
    rcases hb with ⟨rfl, hb⟩ | ⟨rfl, hb⟩
    · rw [if_neg (by simp)]
      have hs := noSign_of_body hE hb
      rcases parseIntM_cases E (s.kept ++ ds) (St (pre ++ (s.text ++ ds)) rest) with
        ⟨i, h1, h2⟩ | ⟨h1, h2⟩
      · rw [bind_ok h2]
        obtain ⟨h3, h4, h5, rfl⟩ := (parseIsize_spec s ds hs.1 hs.2 i).1 h1
        exact ⟨rfl, s.text ++ ds, rest, rfl, rfl, .int s ds h3 h4 h5, hr⟩
      · rw [bind_err h2]
        exact .inr ⟨_, .inl rfl⟩
    · rw [if_pos rfl]
      rcases parseFloatM_cases E (s.kept ++ ds) (St (pre ++ (s.text ++ ds)) rest) with
        ⟨f, h1, h2⟩ | ⟨m, h1, h2⟩
      · rw [bind_ok h2]
        exact ⟨rfl, s.text ++ ds, rest, rfl, rfl, .frac s ds f hb h1, hr⟩
      · rw [bind_err h2]
        exact .inr ⟨_, .inr h1⟩

theorem numExp_out {E : Env F} (hE : Sane E) (s : Sign) (b : Bool) (pre ds x : List Char)
    (fuel : Nat) (hb : Body E b ds)
    (ih : NumOut E (pre ++ (s.text ++ ds) ++ ['e']) x
      (tokenizeNum E fuel (St (pre ++ (s.text ++ ds) ++ ['e']) x))) :
    NumOut E pre (s.text ++ ds ++ 'e' :: x)
      (numLoop E (fuel + 1) (posOf pre) (s.kept ++ ds) b (St (pre ++ (s.text ++ ds)) ('e' :: x))) := by
  by_cases hne : s.kept ++ ds = []
  · rw [hne, numLoop_exp_err hE]
    exact .inl ⟨s.text ++ ds, 'e' :: x, " tokenize_num(): no number", by simp, rfl⟩
  rw [numLoop_exp hE _ _ _ _ _ _ hne]
  generalize hT : tokenizeNum E fuel (St (pre ++ (s.text ++ ds) ++ ['e']) x) = T at ih
  obtain ⟨r, st⟩ := T
  cases r with
  | diverge => exact ih.elim
  | panic =>
    rw [bind_panic hT]
    obtain ⟨hc, a, l, b', rfl, ho⟩ := ih
    exact ⟨hc, s.text ++ ds ++ 'e' :: a, l, b', by simp, ho⟩
  | err e =>
    rw [bind_err hT]
    cases e with
    | Eof => exact ih
    | Str m =>
      rcases ih with ⟨a, b', txt, rfl, rfl⟩ | h
      · exact .inl ⟨s.text ++ ds ++ 'e' :: a, b', txt, by simp, by simp⟩
      · exact .inr h
  | ok t =>
    rw [bind_ok hT]
    obtain ⟨-, l, rest, rfl, rfl, hl, hf⟩ := ih
    have hst : St (pre ++ (s.text ++ ds) ++ ['e'] ++ l) rest =
        St (pre ++ (s.text ++ ds ++ 'e' :: l)) rest := by simp
    rw [hst]
    obtain ⟨tp, ty⟩ := t
    rcases numLit_kind hl with ⟨i, rfl⟩ | ⟨f, rfl⟩
    · simp only [Token.removePos]
      by_cases hi : i ≥ 0 ∧ b = false
      · rw [if_pos hi]
        obtain ⟨hi, rfl⟩ := hi
        have hbd : IntBody E ds := by
          rcases hb with ⟨_, h⟩ | ⟨h, _⟩
          · exact h
          · exact absurd h (by simp)
        have hs := noSign_of_body hE hbd
        rcases parseIntM_cases E (s.kept ++ ds) (St (pre ++ (s.text ++ ds ++ 'e' :: l)) rest) with
          ⟨m, h1, h2⟩ | ⟨h1, h2⟩
        · rw [bind_ok h2]
          obtain ⟨h3, h4, h5, rfl⟩ := (parseIsize_spec s ds hs.1 hs.2 m).1 h1
          rcases isizeOp_cases E ((10 : Int) ^ (i.toNat % 4294967296))
            (St (pre ++ (s.text ++ ds ++ 'e' :: l)) rest) with ⟨p, hp, hop⟩ | ⟨hc, hp, hop⟩
          · have hop' : pow10M E i (St (pre ++ (s.text ++ ds ++ 'e' :: l)) rest) = _ := hop
            rw [bind_ok hop']
            rcases isizeOp_cases E (s.apply (decVal ds) * p)
              (St (pre ++ (s.text ++ ds ++ 'e' :: l)) rest) with ⟨v, hv, hov⟩ | ⟨hc, hv, hov⟩
            · rw [bind_ok hov]
              exact ⟨rfl, s.text ++ ds ++ 'e' :: l, rest, by simp, rfl,
                .intExp s ds l i v h3 h4 h5 hl hi ⟨p, hp, hv⟩, hf⟩
            · rw [bind_panic hov]
              refine ⟨hc, [], s.text ++ ds ++ 'e' :: l, rest, by simp,
                s, ds, l, i, rfl, h3, h4, hl, hi, ?_⟩
              rcases hp with ⟨_, rfl⟩ | ⟨_, h, _⟩
              · exact not_fits_mul_cut hv
              · rw [hc] at h; exact absurd h (by simp)
          · have hop' : pow10M E i (St (pre ++ (s.text ++ ds ++ 'e' :: l)) rest) = _ := hop
            rw [bind_panic hop']
            exact ⟨hc, [], s.text ++ ds ++ 'e' :: l, rest, by simp,
                s, ds, l, i, rfl, h3, h4, hl, hi, .inl (not_fits_cut hp)⟩
        · rw [bind_err h2]
          exact .inr ⟨_, .inl rfl⟩
      · rw [if_neg hi]
        rcases parseFloatM_cases E (s.kept ++ ds) (St (pre ++ (s.text ++ ds ++ 'e' :: l)) rest) with
          ⟨m, h1, h2⟩ | ⟨m, h1, h2⟩
        · rw [bind_ok h2]
          refine ⟨rfl, s.text ++ ds ++ 'e' :: l, rest, by simp, rfl, ?_, hf⟩
          rcases hb with ⟨rfl, hb⟩ | ⟨rfl, hb⟩
          · exact .negExp s ds l m i hne hb h1 hl (by
              have : ¬ i ≥ 0 := fun h => hi ⟨h, rfl⟩
              omega)
          · exact .fracExp s ds l m i hb h1 hl
        · rw [bind_err h2]
          exact .inr ⟨_, .inr h1⟩
    · simp only [Token.removePos]
      rcases parseFloatM_cases E (s.kept ++ ds) (St (pre ++ (s.text ++ ds ++ 'e' :: l)) rest) with
        ⟨m, h1, h2⟩ | ⟨m, h1, h2⟩
      · rw [bind_ok h2]
        refine ⟨rfl, s.text ++ ds ++ 'e' :: l, rest, by simp, rfl, ?_, hf⟩
        refine .floatExp s ds l m f hne ?_ h1 hl
        rcases hb with ⟨_, h⟩ | ⟨_, h⟩
        · exact .inl h
        · exact .inr h
      · rw [bind_err h2]
        exact .inr ⟨_, .inr h1⟩

/-- After a body, with the next character not a digit (and not a point if the body has none). -/
theorem numTail_out {E : Env F} (hE : Sane E) (s : Sign) (b : Bool) (pre ds rest : List Char)
    (fuel : Nat) (hb : Body E b ds)
    (hnum : ∀ c, rest.head? = some c → E.isNumeric c = false)
    (hdot : b = false → rest.head? ≠ some '.')
    (ih : ∀ pre' x, x.length < rest.length → NumOut E pre' x (tokenizeNum E fuel (St pre' x))) :
    NumOut E pre (s.text ++ ds ++ rest)
      (numLoop E (fuel + 1) (posOf pre) (s.kept ++ ds) b (St (pre ++ (s.text ++ ds)) rest)) := by
  by_cases hf : NumFollow E rest
  · rw [numLoop_end _ _ _ _ _ _ hf]
    exact numFinish_out hE s b pre ds rest hb hf
  · have : ∃ c x, rest = c :: x ∧ (c = '.' ∨ c = 'e') := by
      cases rest with
      | nil => exact absurd (fun c hc => by simp at hc) hf
      | cons c x =>
        refine ⟨c, x, rfl, ?_⟩
        apply Classical.byContradiction
        intro hh
        refine hf fun d hd => ?_
        simp at hd
        subst hd
        exact ⟨hnum c rfl, fun h => hh (.inl h), fun h => hh (.inr h)⟩
    obtain ⟨c, x, rfl, hc⟩ := this
    rcases hc with rfl | rfl
    · cases b with
      | false => exact absurd rfl (hdot rfl)
      | true =>
        obtain ⟨txt, h⟩ := numLoop_dot_err hE fuel (posOf pre) (s.kept ++ ds)
          (pre ++ (s.text ++ ds)) x
        rw [h]
        exact .inl ⟨s.text ++ ds, '.' :: x, txt, by simp, rfl⟩
    · exact numExp_out hE s b pre ds x fuel hb (ih _ x (by simp))

/-- The loop started just after the sign. -/
theorem numLoop_out {E : Env F} (hE : Sane E) (s : Sign) (pre cs : List Char)
    (fuel : Nat) (hfuel : fuel ≥ 2 * cs.length + 1)
    (ih : ∀ fuel' pre' x, x.length < cs.length → fuel' ≥ 2 * x.length + 2 →
      NumOut E pre' x (tokenizeNum E fuel' (St pre' x))) :
    NumOut E pre (s.text ++ cs)
      (numLoop E fuel (posOf pre) s.kept false (St (pre ++ s.text) cs)) := by
  obtain ⟨a, r, rfl, ha, hr⟩ := span_exists E.isNumeric cs
  obtain ⟨f1, rfl⟩ : ∃ f1, fuel = f1 + 1 + a.length := ⟨fuel - 1 - a.length, by
    simp only [List.length_append] at hfuel; omega⟩
  rw [numLoop_digits ha, ← List.append_assoc]
  rw [show St (pre ++ s.text ++ a) r = St (pre ++ (s.text ++ a)) r by simp]
  by_cases hd : r.head? = some '.'
  · obtain ⟨r1, rfl⟩ : ∃ r1, r = '.' :: r1 := by
      cases r with
      | nil => simp at hd
      | cons c r1 => simp at hd; subst hd; exact ⟨r1, rfl⟩
    obtain ⟨a2, r2, rfl, ha2, hr2⟩ := span_exists E.isNumeric r1
    simp only [List.length_append, List.length_cons] at hfuel
    obtain ⟨f2, rfl⟩ : ∃ f2, f1 = f2 + 1 + a2.length := ⟨f1 - 1 - a2.length, by omega⟩
    rw [numLoop_dot hE, numLoop_digits ha2]
    have := numTail_out hE s true pre (a ++ '.' :: a2) r2 f2 (.inr ⟨rfl, a, a2, rfl, ha, ha2⟩) hr2
      (by simp) (fun pre' x hx => ih f2 pre' x (by simp; omega) (by omega))
    simpa using this
  · refine numTail_out hE s false pre a r f1 (.inl ⟨rfl, ha⟩) hr (fun _ => hd) ?_
    intro pre' x hx
    simp only [List.length_append] at hfuel
    exact ih f1 pre' x (by simp; omega) (by omega)

/-- Every outcome of `tokenize_num`. -/
theorem tokenizeNum_out {E : Env F} (hE : Sane E) (n : Nat) :
    ∀ (fuel : Nat) (pre cs : List Char), cs.length ≤ n → fuel ≥ 2 * cs.length + 2 →
      NumOut E pre cs (tokenizeNum E fuel (St pre cs)) := by
  induction n using Nat.strongRecOn with
  | ind n IH =>
  intro fuel pre cs hn hfuel
  have ih : ∀ fuel' pre' x, x.length < cs.length → fuel' ≥ 2 * x.length + 2 →
      NumOut E pre' x (tokenizeNum E fuel' (St pre' x)) := fun f p x hx hf =>
    IH x.length (by omega) f p x (Nat.le_refl _) hf
  obtain ⟨fuel, rfl⟩ : ∃ f, fuel = f + 1 := ⟨fuel - 1, by omega⟩
  rw [tokenizeNum, bind_ok (tkPos_St ..)]
  cases cs with
  | nil =>
    have := numLoop_out hE .none pre [] fuel (by simpa using hfuel) ih
    rw [bind_ok (a := []) (s' := St pre [])]
    · simpa [Sign.text, Sign.kept] using this
    · rw [bind_ok (attempt_err (tkPeek_nil ..))]; rfl
  | cons c cs =>
    simp only [List.length_cons] at hfuel ih
    by_cases h1 : c = '-'
    · subst h1
      have := numLoop_out hE .minus pre cs fuel (by omega)
        (fun f p x hx hf => ih f p x (by omega) hf)
      rw [bind_ok (a := ['-']) (s' := St (pre ++ ['-']) cs)]
      · simpa [Sign.text, Sign.kept] using this
      · rw [bind_ok (attempt_ok (tkPeek_cons ..))]
        show (M.attempt tkNext >>= fun _ => _) _ = _
        rw [bind_ok (attempt_ok (tkNext_cons ..))]; rfl
    by_cases h2 : c = '+'
    · subst h2
      have := numLoop_out hE .plus pre cs fuel (by omega)
        (fun f p x hx hf => ih f p x (by omega) hf)
      rw [bind_ok (a := []) (s' := St (pre ++ ['+']) cs)]
      · simpa [Sign.text, Sign.kept] using this
      · rw [bind_ok (attempt_ok (tkPeek_cons ..))]
        show (M.attempt tkNext >>= fun _ => _) _ = _
        rw [bind_ok (attempt_ok (tkNext_cons ..))]; rfl
    · have := numLoop_out hE .none pre (c :: cs) fuel (by simp; omega)
        (fun f p x hx hf => ih f p x (by simpa using hx) hf)
      rw [bind_ok (a := []) (s' := St pre (c :: cs))]
      · simpa [Sign.text, Sign.kept] using this
      · rw [bind_ok (attempt_ok (tkPeek_cons ..))]
        have hk : ∀ x : Except TokenizerError Char, x ≠ .ok '-' → x ≠ .ok '+' →
            (match x with
              | Except.ok '-' => do
                let _ ← M.attempt tkNext
                pure ['-']
              | Except.ok '+' => do
                let _ ← M.attempt tkNext
                pure []
              | _ => pure [] : TM (List Char)) = pure [] := by
          intro x hx1 hx2
          split
          · exact absurd rfl hx1
          · exact absurd rfl hx2
          · rfl
        exact congrFun (hk (.ok c) (by simpa using h1) (by simpa using h2)) _

/-! ### Completeness: every number literal is read -/

theorem numLoop_body {E : Env F} (hE : Sane E) {b : Bool} {ds : List Char} (hb : Body E b ds)
    (fuel : Nat) (sp : Pos) (nc pre rest : List Char) :
    numLoop E (fuel + ds.length) sp nc false (St pre (ds ++ rest)) =
      numLoop E fuel sp (nc ++ ds) b (St (pre ++ ds) rest) := by
  rcases hb with ⟨rfl, hb⟩ | ⟨rfl, a, b, rfl, ha, hb⟩
  · exact numLoop_digits hb ..
  · rw [show fuel + (a ++ '.' :: b).length = (fuel + b.length + 1) + a.length by
      simp [List.length_append]; omega]
    rw [List.append_assoc, numLoop_digits ha, List.cons_append, numLoop_dot hE,
      numLoop_digits hb]
    simp

theorem body_head {E : Env F} (hE : Sane E) {b : Bool} {ds rest : List Char} (hb : Body E b ds)
    (hr : rest.head? ≠ some '-' ∧ rest.head? ≠ some '+') :
    (ds ++ rest).head? ≠ some '-' ∧ (ds ++ rest).head? ≠ some '+' := by
  cases ds with
  | nil => exact hr
  | cons c cs =>
    have hc : E.isNumeric c = true ∨ c = '.' := by
      rcases hb with ⟨_, hb⟩ | ⟨_, a, b, he, ha, hb⟩
      · exact .inl (hb c (by simp))
      · cases a with
        | nil => simp at he; exact .inr he.1
        | cons d a => simp at he; rw [he.1]; exact .inl (ha d (by simp))
    constructor <;>
    · simp only [List.cons_append, List.head?_cons, ne_eq, Option.some.injEq]
      rintro rfl
      rcases hc with hc | hc
      · first
        | rw [(hE.punct '-' (by simp)).1] at hc; exact absurd hc (by simp)
        | rw [(hE.punct '+' (by simp)).1] at hc; exact absurd hc (by simp)
      · exact absurd hc (by decide)

theorem tokenizeNum_start {E : Env F} (fuel : Nat) (s : Sign) (pre cs : List Char)
    (hh : cs.head? ≠ some '-' ∧ cs.head? ≠ some '+') :
    tokenizeNum E (fuel + 1) (St pre (s.text ++ cs)) =
      numLoop E fuel (posOf pre) s.kept false (St (pre ++ s.text) cs) := by
  rw [tokenizeNum, bind_ok (tkPos_St ..)]
  cases s with
  | minus =>
    rw [bind_ok (a := ['-']) (s' := St (pre ++ ['-']) cs)]
    · rfl
    · show (M.attempt tkPeek >>= fun _ => _) (St pre ('-' :: cs)) = _
      rw [bind_ok (attempt_ok (tkPeek_cons ..))]
      show (M.attempt tkNext >>= fun _ => _) _ = _
      rw [bind_ok (attempt_ok (tkNext_cons ..))]; rfl
  | plus =>
    rw [bind_ok (a := []) (s' := St (pre ++ ['+']) cs)]
    · rfl
    · show (M.attempt tkPeek >>= fun _ => _) (St pre ('+' :: cs)) = _
      rw [bind_ok (attempt_ok (tkPeek_cons ..))]
      show (M.attempt tkNext >>= fun _ => _) _ = _
      rw [bind_ok (attempt_ok (tkNext_cons ..))]; rfl
  | none =>
    simp only [Sign.text, List.nil_append, List.append_nil, Sign.kept]
    rw [bind_ok (a := []) (s' := St pre cs)]
    cases cs with
    | nil => rw [bind_ok (attempt_err (tkPeek_nil ..))]; rfl
    | cons c cs =>
      rw [bind_ok (attempt_ok (tkPeek_cons ..))]
      have hk : ∀ x : Except TokenizerError Char, x ≠ .ok '-' → x ≠ .ok '+' →
          (match x with
            | Except.ok '-' => do
              let _ ← M.attempt tkNext
              pure ['-']
            | Except.ok '+' => do
              let _ ← M.attempt tkNext
              pure []
            | _ => pure [] : TM (List Char)) = pure [] := by
        intro x hx1 hx2
        split
        · exact absurd rfl hx1
        · exact absurd rfl hx2
        · rfl
      exact congrFun (hk (.ok c) (by simpa using hh.1) (by simpa using hh.2)) _

theorem parseFloatM_ok {E : Env F} {cs : List Char} {f : F} (h : E.parseFloat cs = .ok f)
    (s : Tokenizer) : parseFloatM E cs s = (.ok f, s) := by
  unfold parseFloatM; rw [h]; rfl

theorem parseIntM_ok {E : Env F} {cs : List Char} {i : Int} (h : parseIsize cs = some i)
    (s : Tokenizer) : parseIntM E cs s = (.ok i, s) := by
  unfold parseIntM; rw [h]; rfl

theorem intBody_of_digits {E : Env F} (hE : Sane E) {ds : List Char} (h : ∀ c ∈ ds, IsDigit c) :
    IntBody E ds := fun c hc => hE.digit c (h c hc).1 (h c hc).2

theorem parseIsize_of {E : Env F} (hE : Sane E) {s : Sign} {ds : List Char} (hne : ds ≠ [])
    (h : ∀ c ∈ ds, IsDigit c) (hf : Fits (s.apply (decVal ds))) :
    parseIsize (s.kept ++ ds) = some (s.apply (decVal ds)) := by
  have hs := noSign_of_body hE (intBody_of_digits hE h)
  exact (parseIsize_spec s ds hs.1 hs.2 _).2 ⟨hne, h, hf, rfl⟩

/-- A literal without exponent. -/
theorem tokenizeNum_plain {E : Env F} (hE : Sane E) (s : Sign) {b : Bool} {ds : List Char}
    (hb : Body E b ds) (hne : ds ≠ []) (fuel : Nat) (pre rest : List Char)
    (hfuel : fuel ≥ ds.length + 2) (hr : NumFollow E rest) :
    tokenizeNum E fuel (St pre (s.text ++ ds ++ rest)) =
      numFinish E (posOf pre) (s.kept ++ ds) b (St (pre ++ (s.text ++ ds)) rest) := by
  obtain ⟨f, rfl⟩ : ∃ f, fuel = (f + 1) + ds.length + 1 := ⟨fuel - ds.length - 2, by omega⟩
  rw [List.append_assoc, tokenizeNum_start, numLoop_body hE hb, numLoop_end _ _ _ _ _ _ hr]
  · simp
  · cases ds with
    | nil => exact absurd rfl hne
    | cons c cs => simpa using body_head hE hb (rest := []) (by simp)

/-- A literal with exponent, up to the start of the exponent. -/
theorem tokenizeNum_upto_exp {E : Env F} (hE : Sane E) (s : Sign) {b : Bool} {ds : List Char}
    (hb : Body E b ds) (fuel : Nat) (pre x : List Char) :
    tokenizeNum E ((fuel + 1) + ds.length + 1) (St pre (s.text ++ ds ++ 'e' :: x)) =
      numLoop E (fuel + 1) (posOf pre) (s.kept ++ ds) b (St (pre ++ (s.text ++ ds)) ('e' :: x)) := by
  rw [List.append_assoc, tokenizeNum_start, numLoop_body hE hb]
  · simp
  · exact body_head hE hb (by constructor <;> simp)

theorem tokenizeNum_complete {E : Env F} (hE : Sane E) {l : List Char} {v : TokenType F}
    (h : NumLit E l v) : ∀ (fuel : Nat) (pre rest : List Char),
    fuel ≥ 2 * l.length + 2 → NumFollow E rest →
    tokenizeNum E fuel (St pre (l ++ rest)) = (.ok ⟨posOf pre, v⟩, St (pre ++ l) rest) := by
  induction h with
  | int s ds hne hds hfit =>
    intro fuel pre rest hfuel hr
    simp only [List.length_append] at hfuel
    have hb := intBody_of_digits hE hds
    rw [tokenizeNum_plain hE s (.inl ⟨rfl, hb⟩) hne fuel pre rest (by omega) hr]
    unfold numFinish
    rw [if_neg (by simp [hne]), if_neg (by simp),
      bind_ok (parseIntM_ok (parseIsize_of hE hne hds hfit) _)]
    rfl
  | frac s ds f hds hf =>
    intro fuel pre rest hfuel hr
    simp only [List.length_append] at hfuel
    have hne : ds ≠ [] := by obtain ⟨a, b, rfl, _, _⟩ := hds; simp
    rw [tokenizeNum_plain hE s (.inr ⟨rfl, hds⟩) hne fuel pre rest (by omega) hr]
    unfold numFinish
    rw [if_neg (by simp [hne]), if_pos rfl, bind_ok (parseFloatM_ok hf _)]
    rfl
  | intExp s ds x k v hne hds hfit hx hk hv ih =>
    intro fuel pre rest hfuel hr
    simp only [List.length_append, List.length_cons] at hfuel
    obtain ⟨f, rfl⟩ : ∃ f, fuel = (f + 1) + ds.length + 1 := ⟨fuel - ds.length - 2, by omega⟩
    rw [show s.text ++ ds ++ 'e' :: x ++ rest = s.text ++ ds ++ 'e' :: (x ++ rest) by simp]
    rw [tokenizeNum_upto_exp hE s (.inl ⟨rfl, intBody_of_digits hE hds⟩)]
    rw [numLoop_exp hE _ _ _ _ _ _ (by simp [hne]),
      bind_ok (ih f (pre ++ (s.text ++ ds) ++ ['e']) rest (by omega) hr)]
    simp only [Token.removePos]
    rw [if_pos ⟨hk, by simp⟩]
    obtain ⟨p, hp, hv⟩ := hv
    rw [bind_ok (parseIntM_ok (parseIsize_of hE hne hds hfit) _),
      bind_ok (show pow10M E k _ = (.ok p, _) from isizeOp_ok hp _), bind_ok (isizeOp_ok hv _)]
    simp [M.pure_apply]
  | negExp s ds x m k hne hds hm hx hk ih =>
    intro fuel pre rest hfuel hr
    simp only [List.length_append, List.length_cons] at hfuel
    obtain ⟨f, rfl⟩ : ∃ f, fuel = (f + 1) + ds.length + 1 := ⟨fuel - ds.length - 2, by omega⟩
    rw [show s.text ++ ds ++ 'e' :: x ++ rest = s.text ++ ds ++ 'e' :: (x ++ rest) by simp]
    rw [tokenizeNum_upto_exp hE s (.inl ⟨rfl, hds⟩)]
    rw [numLoop_exp hE _ _ _ _ _ _ hne,
      bind_ok (ih f (pre ++ (s.text ++ ds) ++ ['e']) rest (by omega) hr)]
    simp only [Token.removePos]
    rw [if_neg (by omega), bind_ok (parseFloatM_ok hm _)]
    simp [M.pure_apply]
  | fracExp s ds x m k hds hm hx ih =>
    intro fuel pre rest hfuel hr
    simp only [List.length_append, List.length_cons] at hfuel
    obtain ⟨f, rfl⟩ : ∃ f, fuel = (f + 1) + ds.length + 1 := ⟨fuel - ds.length - 2, by omega⟩
    rw [show s.text ++ ds ++ 'e' :: x ++ rest = s.text ++ ds ++ 'e' :: (x ++ rest) by simp]
    rw [tokenizeNum_upto_exp hE s (.inr ⟨rfl, hds⟩)]
    rw [numLoop_exp hE _ _ _ _ _ _ (kept_ne_of_frac hds),
      bind_ok (ih f (pre ++ (s.text ++ ds) ++ ['e']) rest (by omega) hr)]
    simp only [Token.removePos]
    rw [if_neg (by simp), bind_ok (parseFloatM_ok hm _)]
    simp [M.pure_apply]
  | floatExp s ds x m f' hne hds hm hx ih =>
    intro fuel pre rest hfuel hr
    simp only [List.length_append, List.length_cons] at hfuel
    obtain ⟨f, rfl⟩ : ∃ f, fuel = (f + 1) + ds.length + 1 := ⟨fuel - ds.length - 2, by omega⟩
    rw [show s.text ++ ds ++ 'e' :: x ++ rest = s.text ++ ds ++ 'e' :: (x ++ rest) by simp]
    obtain ⟨b, hb⟩ : ∃ b, Body E b ds := by
      rcases hds with h | h
      · exact ⟨false, .inl ⟨rfl, h⟩⟩
      · exact ⟨true, .inr ⟨rfl, h⟩⟩
    rw [tokenizeNum_upto_exp hE s hb]
    rw [numLoop_exp hE _ _ _ _ _ _ hne,
      bind_ok (ih f (pre ++ (s.text ++ ds) ++ ['e']) rest (by omega) hr)]
    simp only [Token.removePos]
    rw [bind_ok (parseFloatM_ok hm _)]
    simp [M.pure_apply]

end Pbrt.Proof
