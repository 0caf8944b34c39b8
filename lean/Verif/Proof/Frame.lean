import Verif.Proof.FloatErr
import Mathlib.Tactic.FieldSimp
import Mathlib.Tactic.LinearCombination

/-!
# Rounding errors of `coordinate_system`

Real arithmetic: the two components of a vector divided by its length, computed with relative errors
`e` and absolute errors `h`, and the cross product with such a vector.
-/

namespace Pbrt

/-- A number known up to a factor, rounded -/
theorem factor {x y S u v w : ℝ} (hS : 0 ≤ S) (hv : 0 ≤ v) (hv1 : v ≤ 1)
    (hx1 : S * (1 - u) ≤ x) (hx2 : x ≤ S * (1 + u)) (hy1 : x * (1 - v) ≤ y) (hy2 : y ≤ x * (1 + v))
    (h1 : 1 - w ≤ (1 - u) * (1 - v)) (h2 : (1 + u) * (1 + v) ≤ 1 + w) :
    S * (1 - w) ≤ y ∧ y ≤ S * (1 + w) := by
  have k1 : S * (1 - u) * (1 - v) ≤ x * (1 - v) := mul_le_mul_of_nonneg_right hx1 (by linarith)
  have k2 : x * (1 + v) ≤ S * (1 + u) * (1 + v) := mul_le_mul_of_nonneg_right hx2 (by linarith)
  have k3 := mul_le_mul_of_nonneg_left h1 hS
  have k4 := mul_le_mul_of_nonneg_left h2 hS
  constructor <;> linarith

theorem sq_sum {a b A B e h : ℝ} (he : 0 < e) (he' : e ≤ 1 / 1000) (hh' : h ≤ e ^ 3)
    (hS : 1 / 4 ≤ a ^ 2 + b ^ 2) (hA : |A - a ^ 2| ≤ e * a ^ 2 + h) (hB : |B - b ^ 2| ≤ e * b ^ 2 + h) :
    (a ^ 2 + b ^ 2) * (1 - 101 / 100 * e) ≤ A + B ∧ A + B ≤ (a ^ 2 + b ^ 2) * (1 + 101 / 100 * e) := by
  obtain ⟨hA1, hA2⟩ := abs_le.1 hA
  obtain ⟨hB1, hB2⟩ := abs_le.1 hB
  have k : e ^ 3 ≤ 1 / 1000 * e := by
    have : e ^ 2 ≤ 1 / 1000 := by nlinarith
    calc e ^ 3 = e ^ 2 * e := by ring
      _ ≤ _ := mul_le_mul_of_nonneg_right this he.le
  have k2 := mul_le_mul_of_nonneg_left hS (show 0 ≤ 1 / 100 * e by linarith)
  constructor <;> linarith

theorem plane_len {a b A B s l e h : ℝ} (he : 0 < e) (he' : e ≤ 1 / 1000) (hh' : h ≤ e ^ 3)
    (hS : 1 / 4 ≤ a ^ 2 + b ^ 2) (hA : |A - a ^ 2| ≤ e * a ^ 2 + h) (hB : |B - b ^ 2| ≤ e * b ^ 2 + h)
    (hs : |s - (A + B)| ≤ e * |A + B|) (hl : |l - √s| ≤ e * √s) :
    0 < s ∧ 0 < l ∧ (a ^ 2 + b ^ 2) * (1 - 41 / 10 * e) ≤ l ^ 2 ∧ l ^ 2 ≤ (a ^ 2 + b ^ 2) * (1 + 41 / 10 * e) := by
  obtain ⟨h1, h2⟩ := sq_sum he he' hh' hS hA hB
  clear hA hB
  generalize A + B = x at *
  generalize a ^ 2 + b ^ 2 = S at *
  have hS0 : 0 ≤ S := by linarith
  have h3 : 0 < x := lt_of_lt_of_le (mul_pos (by linarith) (by linarith)) h1
  rw [abs_of_pos h3] at hs
  obtain ⟨hs1, hs2⟩ := abs_le.1 hs
  obtain ⟨h4, h5⟩ := factor (y := s) (v := e) (w := 203 / 100 * e) hS0 he.le (by linarith) h1 h2 (by linarith)
    (by linarith) (by nlinarith) (by nlinarith)
  have h6 : 0 < s := lt_of_lt_of_le (mul_pos (by linarith) (by linarith)) h4
  have hr := Real.sqrt_pos.2 h6
  have hrr := Real.sq_sqrt h6.le
  clear hs hs1 hs2 h1 h2 h3
  generalize √s = r at *
  obtain ⟨hl1, hl2⟩ := abs_le.1 hl
  have hre : 0 < r * (1 - e) := mul_pos hr (by linarith)
  have hl0 : 0 < l := by linarith
  have h7 : (r * (1 - e)) ^ 2 ≤ l ^ 2 := pow_le_pow_left₀ hre.le (by linarith) 2
  have h8 : l ^ 2 ≤ (r * (1 + e)) ^ 2 := pow_le_pow_left₀ hl0.le (by linarith) 2
  rw [mul_pow, hrr] at h7 h8
  refine ⟨h6, hl0, ?_⟩
  have j1 : 1 - 2001 / 1000 * e ≤ (1 - e) ^ 2 := by nlinarith
  have j2 : (1 + e) ^ 2 ≤ 1 + 2001 / 1000 * e := by nlinarith
  exact factor (v := 2001 / 1000 * e) hS0 (by linarith) (by linarith) h4 h5
    ((mul_le_mul_of_nonneg_left j1 h6.le).trans h7) (h8.trans (mul_le_mul_of_nonneg_left j2 h6.le))
    (by nlinarith) (by nlinarith)

/-- The square of a rounded number -/
theorem sq_round {w m M k t c : ℝ} (h1 : |w - m| ≤ k * M + t) (h2 : |m| ≤ M) (hM : M ≤ 2) (hk : 0 ≤ k)
    (hk1 : k ≤ 1 / 100) (ht : 0 ≤ t) (ht1 : t ≤ 1 / 2) (hc : k * (2 + k) ≤ c) :
    |w ^ 2 - m ^ 2| ≤ c * M ^ 2 + 5 * t := by
  have h0 : 0 ≤ M := (abs_nonneg _).trans h2
  have h3 : |w + m| ≤ 2 * M + (k * M + t) := by
    calc |w + m| = |(w - m) + 2 * m| := by ring_nf
      _ ≤ |w - m| + |2 * m| := abs_add_le _ _
      _ ≤ _ := by rw [abs_mul, abs_two]; linarith
  rw [show w ^ 2 - m ^ 2 = (w - m) * (w + m) by ring, abs_mul]
  have hkM : k * M ≤ 1 / 100 * 2 := mul_le_mul hk1 hM h0 (by norm_num)
  calc |w - m| * |w + m| ≤ (k * M + t) * (2 * M + (k * M + t)) :=
        mul_le_mul h1 h3 (abs_nonneg _) (by positivity)
    _ = k * (2 + k) * M ^ 2 + t * (2 * M + 2 * (k * M) + t) := by ring
    _ ≤ c * M ^ 2 + t * 5 := by gcongr; linarith
    _ = _ := by ring

/-- The components divided by the length -/
theorem plane_norm {a b l e : ℝ} (he : 0 < e) (he' : e ≤ 1 / 1000)
    (hS : 1 / 4 ≤ a ^ 2 + b ^ 2) (hl0 : 0 < l)
    (hl1 : (a ^ 2 + b ^ 2) * (1 - 41 / 10 * e) ≤ l ^ 2) (hl2 : l ^ 2 ≤ (a ^ 2 + b ^ 2) * (1 + 41 / 10 * e)) :
    1 - 41 / 10 * e ≤ (a / l) ^ 2 + (b / l) ^ 2 ∧ (a / l) ^ 2 + (b / l) ^ 2 ≤ 1 + 42 / 10 * e := by
  have hN : ((a / l) ^ 2 + (b / l) ^ 2) * l ^ 2 = a ^ 2 + b ^ 2 := by field_simp
  have hN0 : 0 ≤ (a / l) ^ 2 + (b / l) ^ 2 := by positivity
  generalize (a / l) ^ 2 + (b / l) ^ 2 = N at *
  generalize a ^ 2 + b ^ 2 = S at *
  have hSpos : 0 < S := by linarith
  have n1 : 1 ≤ N * (1 + 41 / 10 * e) := by
    have : S * 1 ≤ S * (N * (1 + 41 / 10 * e)) := by
      calc S * 1 = N * l ^ 2 := by rw [hN, mul_one]
        _ ≤ N * (S * (1 + 41 / 10 * e)) := mul_le_mul_of_nonneg_left hl2 hN0
        _ = _ := by ring
    exact le_of_mul_le_mul_left this hSpos
  have n2 : N * (1 - 41 / 10 * e) ≤ 1 := by
    have : S * (N * (1 - 41 / 10 * e)) ≤ S * 1 := by
      calc S * (N * (1 - 41 / 10 * e)) = N * (S * (1 - 41 / 10 * e)) := by ring
        _ ≤ N * l ^ 2 := mul_le_mul_of_nonneg_left hl1 hN0
        _ = _ := by rw [hN, mul_one]
    exact le_of_mul_le_mul_left this hSpos
  clear hl1 hl2 hN hS
  constructor
  · by_contra hc
    push Not at hc
    have := mul_lt_mul_of_pos_right hc (show 0 < 1 + 41 / 10 * e by linarith)
    nlinarith
  · by_contra hc
    push Not at hc
    have := mul_lt_mul_of_pos_right hc (show 0 < 1 - 41 / 10 * e by linarith)
    nlinarith

theorem abs_le_root {x c : ℝ} (hc : 0 ≤ c) (h : x ^ 2 ≤ c ^ 2) : |x| ≤ c := abs_le_of_sq_le_sq h hc

theorem plane_unit {a b l p q e h : ℝ} (he : 0 < e) (he' : e ≤ 1 / 1000) (hh : 0 ≤ h) (hh' : h ≤ e ^ 3)
    (hS : 1 / 4 ≤ a ^ 2 + b ^ 2) (hS' : a ^ 2 + b ^ 2 ≤ 2) (hl0 : 0 < l)
    (hl1 : (a ^ 2 + b ^ 2) * (1 - 41 / 10 * e) ≤ l ^ 2) (hl2 : l ^ 2 ≤ (a ^ 2 + b ^ 2) * (1 + 41 / 10 * e))
    (hp : |p - a / l| ≤ e * |a / l| + h) (hq : |q - b / l| ≤ e * |b / l| + h) :
    |p ^ 2 + q ^ 2 - 1| ≤ 7 * e ∧ |a * q - b * p| ≤ 3 / 2 * e := by
  have hle : h ≤ 1 / 1000000 * e := by
    have : e ^ 2 ≤ 1 / 1000000 := by nlinarith
    calc h ≤ e ^ 3 := hh'
      _ = e ^ 2 * e := by ring
      _ ≤ _ := mul_le_mul_of_nonneg_right this he.le
  obtain ⟨n4, n3⟩ := plane_norm he he' hS hl0 hl1 hl2
  have hl3 : l ≤ 142 / 100 := by
    refine (abs_le_of_sq_le_sq' ?_ (by norm_num)).2
    have : (a ^ 2 + b ^ 2) * (1 + 41 / 10 * e) ≤ 2 * (1 + 41 / 10 * e) := mul_le_mul_of_nonneg_right hS' (by linarith)
    linarith
  clear hl1 hl2
  have ea : a = a / l * l := by field_simp
  have eb : b = b / l * l := by field_simp
  have ha : |a| ≤ 3 / 2 := abs_le_root (by norm_num) (by linarith [sq_nonneg b])
  have hb : |b| ≤ 3 / 2 := abs_le_root (by norm_num) (by linarith [sq_nonneg a])
  generalize a / l = α at *
  generalize b / l = β at *
  have n5 : α ^ 2 + β ^ 2 ≤ 1005 / 1000 := by linarith
  have hα1 : |α| ≤ 2 := abs_le_root (by norm_num) (by linarith [sq_nonneg β])
  have hβ1 : |β| ≤ 2 := abs_le_root (by norm_num) (by linarith [sq_nonneg α])
  refine ⟨?_, ?_⟩
  · have hc : e * (2 + e) ≤ 2001 / 1000 * e := by nlinarith
    obtain ⟨a1, a2⟩ := abs_le.1 (sq_round hp (le_refl _) hα1 he.le (by linarith) hh (by linarith) hc)
    obtain ⟨b1, b2⟩ := abs_le.1 (sq_round hq (le_refl _) hβ1 he.le (by linarith) hh (by linarith) hc)
    rw [sq_abs] at *
    have := mul_le_mul_of_nonneg_left n5 (show 0 ≤ 2001 / 1000 * e by linarith)
    rw [abs_le]
    constructor <;> linarith
  · have e1 : a * q - b * p = a * (q - β) - b * (p - α) := by linear_combination (-α) * eb + β * ea
    have e2 : |a| = |α| * l := by conv_lhs => rw [ea, abs_mul, abs_of_pos hl0]
    have e3 : |b| = |β| * l := by conv_lhs => rw [eb, abs_mul, abs_of_pos hl0]
    have e4 : 2 * (|α| * |β|) ≤ α ^ 2 + β ^ 2 := by
      rw [← sq_abs α, ← sq_abs β]; linarith [sq_nonneg (|α| - |β|)]
    rw [e1]
    calc |a * (q - β) - b * (p - α)| ≤ |a * (q - β)| + |b * (p - α)| := abs_sub _ _
      _ = |a| * |q - β| + |b| * |p - α| := by rw [abs_mul, abs_mul]
      _ ≤ |a| * (e * |β| + h) + |b| * (e * |α| + h) :=
          add_le_add (mul_le_mul_of_nonneg_left hq (abs_nonneg _)) (mul_le_mul_of_nonneg_left hp (abs_nonneg _))
      _ = e * l * (2 * (|α| * |β|)) + h * (|a| + |b|) := by rw [e2, e3]; ring
      _ ≤ e * (142 / 100) * (1005 / 1000) + h * 3 :=
          add_le_add (mul_le_mul (mul_le_mul_of_nonneg_left hl3 he.le) (e4.trans n5) (by positivity) (by positivity))
            (mul_le_mul_of_nonneg_left (by linarith) hh)
      _ ≤ 3 / 2 * e := by linarith

section
variable {a b c p q w1 w2 w3 e t : ℝ}

theorem cs_abs : (|a| * |p| + |b| * |q|) ^ 2 ≤ (a ^ 2 + b ^ 2) * (p ^ 2 + q ^ 2) := by
  rw [← sq_abs a, ← sq_abs b, ← sq_abs p, ← sq_abs q]
  linarith [sq_nonneg (|a| * |q| - |b| * |p|)]

/-- The cross product of `(a, b, c)` with a vector nearly orthogonal to it in the plane of `a` and `b`:
    orthogonal to the first vector -/
theorem frame_dot1 (he : 0 < e) (ht : 0 ≤ t) (ht' : t ≤ 3 / 1000000 * e)
    (hV' : a ^ 2 + b ^ 2 + c ^ 2 ≤ 2) (hPQ : p ^ 2 + q ^ 2 ≤ 1007 / 1000)
    (h1 : |w1 - c * p| ≤ 2001 / 1000 * e * (|c| * |p|) + t)
    (h2 : |w2 + (a * p + b * q)| ≤ 2001 / 1000 * e * (|a| * |p| + |b| * |q|) + t)
    (h3 : |w3 - c * q| ≤ 2001 / 1000 * e * (|c| * |q|) + t) : |a * w1 + b * w3 + c * w2| ≤ 5 * e := by
  have ha : |a| ≤ 142 / 100 := abs_le_root (by norm_num) (by linarith [sq_nonneg b, sq_nonneg c])
  have hb : |b| ≤ 142 / 100 := abs_le_root (by norm_num) (by linarith [sq_nonneg a, sq_nonneg c])
  have hc : |c| ≤ 142 / 100 := abs_le_root (by norm_num) (by linarith [sq_nonneg a, sq_nonneg b])
  have e1 : a * w1 + b * w3 + c * w2 =
      a * (w1 - c * p) + b * (w3 - c * q) + c * (w2 + (a * p + b * q)) := by ring
  have hcX : 2 * (|c| * (|a| * |p| + |b| * |q|)) ≤ 2014 / 1000 := by
    have k1 := sq_nonneg (|c| - (|a| * |p| + |b| * |q|))
    have k2 : (a ^ 2 + b ^ 2) * (p ^ 2 + q ^ 2) ≤ (a ^ 2 + b ^ 2) * (1007 / 1000) :=
      mul_le_mul_of_nonneg_left hPQ (by positivity)
    have k3 := sq_abs c
    have k4 := cs_abs (a := a) (b := b) (p := p) (q := q)
    linarith [sq_nonneg c]
  rw [e1]
  calc |a * (w1 - c * p) + b * (w3 - c * q) + c * (w2 + (a * p + b * q))|
      ≤ |a * (w1 - c * p)| + |b * (w3 - c * q)| + |c * (w2 + (a * p + b * q))| := abs_add_three _ _ _
    _ = |a| * |w1 - c * p| + |b| * |w3 - c * q| + |c| * |w2 + (a * p + b * q)| := by simp only [abs_mul]
    _ ≤ |a| * (2001 / 1000 * e * (|c| * |p|) + t) + |b| * (2001 / 1000 * e * (|c| * |q|) + t) +
        |c| * (2001 / 1000 * e * (|a| * |p| + |b| * |q|) + t) := by gcongr
    _ = 2001 / 1000 * e * (2 * (|c| * (|a| * |p| + |b| * |q|))) + t * (|a| + |b| + |c|) := by ring
    _ ≤ 2001 / 1000 * e * (2014 / 1000) + t * 5 := by gcongr; linarith
    _ ≤ 5 * e := by linarith

/-- The cross product is orthogonal to the second vector. -/
theorem frame_dot2 (he : 0 < e) (ht : 0 ≤ t) (ht' : t ≤ 3 / 1000000 * e)
    (hV' : a ^ 2 + b ^ 2 + c ^ 2 ≤ 2) (hPQ : p ^ 2 + q ^ 2 ≤ 1007 / 1000)
    (h1 : |w1 - c * p| ≤ 2001 / 1000 * e * (|c| * |p|) + t)
    (h3 : |w3 - c * q| ≤ 2001 / 1000 * e * (|c| * |q|) + t) : |p * w3 - q * w1| ≤ 3 * e := by
  have hc : |c| ≤ 142 / 100 := abs_le_root (by norm_num) (by linarith [sq_nonneg a, sq_nonneg b])
  have hp : |p| ≤ 3 / 2 := abs_le_root (by norm_num) (by linarith [sq_nonneg q])
  have hq : |q| ≤ 3 / 2 := abs_le_root (by norm_num) (by linarith [sq_nonneg p])
  have e1 : p * w3 - q * w1 = p * (w3 - c * q) - q * (w1 - c * p) := by ring
  have hpq : 2 * (|p| * |q|) ≤ 1007 / 1000 := by
    have := sq_abs p
    have := sq_abs q
    linarith [sq_nonneg (|p| - |q|)]
  rw [e1]
  calc |p * (w3 - c * q) - q * (w1 - c * p)| ≤ |p * (w3 - c * q)| + |q * (w1 - c * p)| := abs_sub _ _
    _ = |p| * |w3 - c * q| + |q| * |w1 - c * p| := by simp only [abs_mul]
    _ ≤ |p| * (2001 / 1000 * e * (|c| * |q|) + t) + |q| * (2001 / 1000 * e * (|c| * |p|) + t) := by gcongr
    _ = 2001 / 1000 * e * (|c| * (2 * (|p| * |q|))) + t * (|p| + |q|) := by ring
    _ ≤ 2001 / 1000 * e * (142 / 100 * (1007 / 1000)) + t * 3 := by gcongr; linarith
    _ ≤ 3 * e := by linarith

/-- The cross product is as long as the first vector. -/
theorem frame_len (he : 0 < e) (he' : e ≤ 1 / 1000) (ht : 0 ≤ t) (ht' : t ≤ 3 / 1000 * e ^ 2)
    (hV : 1 / 2 ≤ a ^ 2 + b ^ 2 + c ^ 2) (hV' : a ^ 2 + b ^ 2 + c ^ 2 ≤ 2)
    (P1 : 1 - 7 * e ≤ p ^ 2 + q ^ 2) (P2 : p ^ 2 + q ^ 2 ≤ 1 + 7 * e) (hO : |a * q - b * p| ≤ 3 / 2 * e)
    (h1 : |w1 - c * p| ≤ 2001 / 1000 * e * (|c| * |p|) + t)
    (h2 : |w2 + (a * p + b * q)| ≤ 2001 / 1000 * e * (|a| * |p| + |b| * |q|) + t)
    (h3 : |w3 - c * q| ≤ 2001 / 1000 * e * (|c| * |q|) + t) :
    |w1 ^ 2 + w2 ^ 2 + w3 ^ 2 - (a ^ 2 + b ^ 2 + c ^ 2)| ≤ 12 * e * (a ^ 2 + b ^ 2 + c ^ 2) := by
  have hPQ : p ^ 2 + q ^ 2 ≤ 1007 / 1000 := by linarith
  have he2 : e ^ 2 ≤ 1 / 1000 * e := by nlinarith
  have hc : |c| ≤ 142 / 100 := abs_le_root (by norm_num) (by linarith [sq_nonneg a, sq_nonneg b])
  have hp : |p| ≤ 101 / 100 := abs_le_root (by norm_num) (by linarith [sq_nonneg q])
  have hq : |q| ≤ 101 / 100 := abs_le_root (by norm_num) (by linarith [sq_nonneg p])
  have m1 : |c| * |p| ≤ 2 := (mul_le_mul hc hp (abs_nonneg _) (by norm_num)).trans (by norm_num)
  have m3 : |c| * |q| ≤ 2 := (mul_le_mul hc hq (abs_nonneg _) (by norm_num)).trans (by norm_num)
  have k4 := cs_abs (a := a) (b := b) (p := p) (q := q)
  have k5 := mul_le_mul_of_nonneg_left hPQ (show 0 ≤ a ^ 2 + b ^ 2 by positivity)
  have m2 : |a| * |p| + |b| * |q| ≤ 2 := by
    refine abs_le_of_sq_le_sq' ?_ (by norm_num) |>.2
    linarith [sq_nonneg c]
  have hk : 2001 / 1000 * e * (2 + 2001 / 1000 * e) ≤ 4007 / 1000 * e := by nlinarith
  obtain ⟨u1, u2⟩ := abs_le.1 (sq_round h1 (abs_mul c p).le m1 (by linarith) (by linarith) ht (by linarith) hk)
  obtain ⟨u3, u4⟩ := abs_le.1 (sq_round (w := w2) (m := -(a * p + b * q)) (by rw [sub_neg_eq_add]; exact h2)
    (by rw [abs_neg, ← abs_mul, ← abs_mul]; exact abs_add_le _ _) m2 (by linarith) (by linarith) ht (by linarith) hk)
  obtain ⟨u5, u6⟩ := abs_le.1 (sq_round h3 (abs_mul c q).le m3 (by linarith) (by linarith) ht (by linarith) hk)
  clear h1 h2 h3 hk m1 m2 m3
  have hE : (c * p) ^ 2 + (-(a * p + b * q)) ^ 2 + (c * q) ^ 2 =
      (a ^ 2 + b ^ 2 + c ^ 2) * (p ^ 2 + q ^ 2) - (a * q - b * p) ^ 2 := by ring
  have hM : (|c| * |p|) ^ 2 + (|a| * |p| + |b| * |q|) ^ 2 + (|c| * |q|) ^ 2 ≤
      (a ^ 2 + b ^ 2 + c ^ 2) * (1007 / 1000) := by
    have : (|c| * |p|) ^ 2 + (|c| * |q|) ^ 2 = c ^ 2 * (p ^ 2 + q ^ 2) := by
      rw [mul_pow, mul_pow, sq_abs, sq_abs, sq_abs]; ring
    have := mul_le_mul_of_nonneg_left hPQ (sq_nonneg c)
    linarith
  have hO2 : (a * q - b * p) ^ 2 ≤ 9 / 4 * e ^ 2 := by
    have := sq_le_sq' (by linarith [(abs_le.1 hO).1]) (abs_le.1 hO).2
    linarith
  have hO0 := sq_nonneg (a * q - b * p)
  generalize (a * q - b * p) ^ 2 = O at *
  generalize (|c| * |p|) ^ 2 = M1 at *
  generalize (|a| * |p| + |b| * |q|) ^ 2 = M2 at *
  generalize (|c| * |q|) ^ 2 = M3 at *
  generalize a ^ 2 + b ^ 2 + c ^ 2 = V at *
  have hMe := mul_le_mul_of_nonneg_left hM (show 0 ≤ 4007 / 1000 * e by linarith)
  have hv1 := mul_le_mul_of_nonneg_left P2 (show 0 ≤ V by linarith)
  have hv2 := mul_le_mul_of_nonneg_left P1 (show 0 ≤ V by linarith)
  have hv3 := mul_le_mul_of_nonneg_left hV he.le
  rw [abs_le]
  constructor <;> linarith

end

/-! ### Floats -/

open Float.Model (UnpackedFloat Format)

/-- What the error bounds need of a float format -/
structure Usual (T : Type) [Elem T] [As T T] [FloatFns T] [IEEE T] : Prop where
  eps : unitRoundoff T ≤ 1 / 1000
  tiny : tiny T ≤ unitRoundoff T ^ 3
  big : 16 ≤ big (IEEE.fmt T)

theorem usual32 : Usual Float32.Model := by
  have h1 : unitRoundoff Float32.Model = 2 ^ (-24 : ℤ) := rfl
  have h2 : tiny Float32.Model = 2 ^ (-150 : ℤ) := rfl
  have h3 : big (IEEE.fmt Float32.Model) = 2 ^ (128 : ℤ) := rfl
  refine ⟨?_, ?_, ?_⟩
  · rw [h1]; norm_num
  · rw [h1, h2]; norm_num
  · rw [h3]; norm_num

theorem usual64 : Usual Float.Model := by
  have h1 : unitRoundoff Float.Model = 2 ^ (-53 : ℤ) := rfl
  have h2 : tiny Float.Model = 2 ^ (-1075 : ℤ) := rfl
  have h3 : big (IEEE.fmt Float.Model) = 2 ^ (1024 : ℤ) := rfl
  refine ⟨?_, ?_, ?_⟩
  · rw [h1]; norm_num
  · rw [h1, h2, ← zpow_natCast, ← zpow_mul]
    exact zpow_le_zpow_right₀ (by norm_num) (by norm_num)
  · rw [h3, show (16 : ℝ) = 2 ^ (4 : ℤ) by norm_num]
    exact zpow_le_zpow_right₀ (by norm_num) (by norm_num)

section
variable {T : Type} [Elem T] [As T T] [FloatFns T] [IEEE T]

local notation "𝔽" => IEEE.fmt T
local notation "ε" => unitRoundoff T
local notation "η" => tiny T
local notation "z" => (Elem.fromInt 0 : T)

theorem Usual.tiny_le (U : Usual T) : η ≤ 1 / 1000000 * ε := by
  have h := U.tiny
  have h1 := U.eps
  have h0 := eps_pos (T := T)
  have h2 : ε ^ 2 ≤ 1 / 1000000 := by nlinarith
  calc η ≤ ε ^ 3 := h
    _ = ε ^ 2 * ε := by ring
    _ ≤ _ := mul_le_mul_of_nonneg_right h2 h0.le

/-- Small numbers do not overflow. -/
theorem Usual.finite (U : Usual T) {a : T} {x : ℝ} (h : Elem.isNan a = false ∧ ext a = rnd 𝔽 x) (hx : |x| ≤ 8) :
    IsFinite a := by
  have he := RN_error (grid 𝔽) x
  have h1 := U.eps
  have h2 := U.tiny_le
  have h3 := U.big
  have h0 := eps_pos (T := T)
  change |(grid 𝔽).RN x - x| ≤ ε * |x| + η at he
  obtain ⟨e1, e2⟩ := abs_le.1 he
  obtain ⟨x1, x2⟩ := abs_le.1 hx
  have h4 : ε * |x| ≤ ε * 8 := mul_le_mul_of_nonneg_left hx h0.le
  refine (finite_of_ext h.1 (x := (grid 𝔽).RN x) ?_).1
  rw [h.2]
  unfold rnd
  rw [if_neg (by linarith), if_neg (by linarith)]

/-- The length of a vector in a plane -/
def flen2 (a b : T) : T := fsqrt (fadd (fmul a a) (fmul b b))

theorem flen2_spec (U : Usual T) {a b : T} (ha : IsFinite a) (hb : IsFinite b)
    (hS : 1 / 4 ≤ val a ^ 2 + val b ^ 2) (hS' : val a ^ 2 + val b ^ 2 ≤ 2) :
    IsFinite (flen2 a b) ∧ 0 < val (flen2 a b) ∧
    (val a ^ 2 + val b ^ 2) * (1 - 41 / 10 * ε) ≤ val (flen2 a b) ^ 2 ∧
    val (flen2 a b) ^ 2 ≤ (val a ^ 2 + val b ^ 2) * (1 + 41 / 10 * ε) := by
  have he := eps_pos (T := T)
  have hsq : ∀ {c : T}, IsFinite c → val c ^ 2 ≤ 2 → IsFinite (fmul c c) := fun hc h =>
    U.finite (fmul_rnd hc hc) (by rw [← pow_two, abs_of_nonneg (sq_nonneg _)]; linarith)
  have fa := hsq ha (by linarith [sq_nonneg (val b)])
  have fb := hsq hb (by linarith [sq_nonneg (val a)])
  have ea := fmul_err fa
  have eb := fmul_err fb
  rw [← pow_two, abs_of_nonneg (sq_nonneg (val _))] at ea eb
  obtain ⟨s1, s2⟩ := sq_sum he U.eps U.tiny hS ea eb
  have hlo : 0 ≤ val (fmul a a) + val (fmul b b) :=
    le_trans (mul_nonneg (by linarith) (by linarith [U.eps])) s1
  have hhi : val (fmul a a) + val (fmul b b) ≤ 3 :=
    s2.trans ((mul_le_mul_of_nonneg_right hS' (by linarith)).trans (by linarith [U.eps]))
  have fs : IsFinite (fadd (fmul a a) (fmul b b)) :=
    U.finite (fadd_rnd fa fb) (by rw [abs_of_nonneg hlo]; linarith)
  have es := fadd_err fs
  have hs0 : 0 ≤ val (fadd (fmul a a) (fmul b b)) := by
    rw [abs_of_nonneg hlo] at es
    have := mul_nonneg hlo (show 0 ≤ 1 - ε by linarith [U.eps])
    linarith [(abs_le.1 es).1]
  have hs1 : √(val (fadd (fmul a a) (fmul b b))) ≤ 4 := by
    rw [Real.sqrt_le_left (by norm_num)]
    rw [abs_of_nonneg hlo] at es
    have := mul_le_mul_of_nonneg_left hhi he.le
    linarith [(abs_le.1 es).2, U.eps]
  have fl : IsFinite (flen2 a b) :=
    U.finite (fsqrt_rnd fs hs0) (by rw [abs_of_nonneg (Real.sqrt_nonneg _)]; linarith)
  obtain ⟨-, h2, h3, h4⟩ := plane_len he U.eps U.tiny hS ea eb es (fsqrt_err fl)
  exact ⟨fl, h2, h3, h4⟩

/-- A component divided by the length -/
theorem fdiv_len2 (U : Usual T) {a b c : T} (ha : IsFinite a) (hb : IsFinite b) (hc : IsFinite c)
    (hS : 1 / 4 ≤ val a ^ 2 + val b ^ 2) (hS' : val a ^ 2 + val b ^ 2 ≤ 2)
    (hca : val c ^ 2 ≤ val a ^ 2 + val b ^ 2) :
    IsFinite (fdiv c (flen2 a b)) ∧
    |val (fdiv c (flen2 a b)) - val c / val (flen2 a b)| ≤ ε * |val c / val (flen2 a b)| + η := by
  obtain ⟨h1, h2, h3, h4⟩ := flen2_spec U ha hb hS hS'
  have hq : |val c / val (flen2 a b)| ≤ 2 := by
    refine abs_le_root (by norm_num) ?_
    rw [div_pow, div_le_iff₀ (by positivity)]
    have : (val a ^ 2 + val b ^ 2) * (1 / 4) ≤ (val a ^ 2 + val b ^ 2) * (1 - 41 / 10 * ε) :=
      mul_le_mul_of_nonneg_left (by linarith [U.eps]) (by linarith)
    linarith
  have hf := U.finite (fdiv_rnd hc h1 h2.ne') (by linarith)
  exact ⟨hf, fdiv_err hc h1 h2.ne' hf⟩

theorem val_fdiv_zero {l : T} (hl : IsFinite l) (h0 : val l ≠ 0) : IsFinite (fdiv z l) ∧ val (fdiv z l) = 0 := by
  have h := fdiv_rnd finite_zero hl h0
  rw [val_zero, zero_div, show (0 : ℝ) = val z from val_zero.symm, rnd_val finite_zero] at h
  obtain ⟨h1, h2⟩ := finite_of_ext h.1 h.2
  exact ⟨h1, h2.trans val_zero⟩

/-- A difference of two products, as in a cross product -/
theorem fcross_err (U : Usual T) {a b c d : T} (ha : IsFinite a) (hb : IsFinite b) (hc : IsFinite c)
    (hd : IsFinite d) (h1 : |val a| ≤ 142 / 100) (h2 : |val b| ≤ 101 / 100) (h3 : |val c| ≤ 142 / 100)
    (h4 : |val d| ≤ 101 / 100) :
    IsFinite (fsub (fmul a b) (fmul c d)) ∧
    |val (fsub (fmul a b) (fmul c d)) - (val a * val b - val c * val d)| ≤
      2001 / 1000 * ε * (|val a * val b| + |val c * val d|) + 3 * η := by
  have he := eps_pos (T := T)
  have hη := tiny_pos (T := T)
  have b1 : |val a * val b| ≤ 2 := by
    rw [abs_mul]; exact (mul_le_mul h1 h2 (abs_nonneg _) (by norm_num)).trans (by norm_num)
  have b2 : |val c * val d| ≤ 2 := by
    rw [abs_mul]; exact (mul_le_mul h3 h4 (abs_nonneg _) (by norm_num)).trans (by norm_num)
  have f1 := U.finite (fmul_rnd ha hb) (by linarith)
  have f2 := U.finite (fmul_rnd hc hd) (by linarith)
  have bound : ∀ {x y : ℝ}, |x - y| ≤ ε * |y| + η → |y| ≤ 2 → |x| ≤ 3 := by
    intro x y k1 k2
    have := mul_le_mul_of_nonneg_left k2 he.le
    have k3 := abs_sub_abs_le_abs_sub x y
    linarith [U.eps, U.tiny_le]
  have c1 := bound (fmul_err f1) b1
  have c2 := bound (fmul_err f2) b2
  have f3 := U.finite (fsub_rnd f1 f2) ((abs_sub _ _).trans (by linarith))
  refine ⟨f3, ?_⟩
  have := ((Within.prod f1).fsub (Within.prod f2) f3).err
  refine this.trans ?_
  have k1 : (1 + ε) ^ 2 - 1 ≤ 2001 / 1000 * ε := by nlinarith [U.eps]
  have k2 : (η + η) * (1 + ε) ^ 2 ≤ 3 * η := by
    have : (1 + ε) ^ 2 ≤ 3 / 2 := by nlinarith [U.eps]
    calc (η + η) * (1 + ε) ^ 2 ≤ (η + η) * (3 / 2) := mul_le_mul_of_nonneg_left this (by linarith)
      _ = _ := by ring
  exact add_le_add (mul_le_mul_of_nonneg_right k1 (by positivity)) k2

end

end Pbrt
