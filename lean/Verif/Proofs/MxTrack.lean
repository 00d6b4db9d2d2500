import Verif.Proofs.MxCoefErr
import Verif.Proofs.MxModis

/-!
# Error of the track and scan weights of the MODIS interpolation
-/

namespace Verif.Mx
open Verif Verif.Modis Verif.Err
variable {q : Mixed} {ε : ℝ}

private theorem mul_err {a b A B α β mA mB : ℝ} (h1 : |a - A| ≤ α) (h2 : |b - B| ≤ β) (h3 : |A| ≤ mA) (h4 : |B| ≤ mB) :
    |a * b - A * B| ≤ α * (mB + β) + mA * β := by
  have e : a * b - A * B = (a - A) * (B + (b - B)) + A * (b - B) := by ring
  rw [e]
  refine (abs_add_le _ _).trans ?_
  rw [abs_mul, abs_mul]
  have h5 : |B + (b - B)| ≤ mB + β := (abs_add_le _ _).trans (add_le_add h4 h2)
  exact add_le_add (mul_le_mul h1 h5 (abs_nonneg _) ((abs_nonneg _).trans h1))
    (mul_le_mul h3 h2 (abs_nonneg _) ((abs_nonneg _).trans h3))

/-- a quantity `s (1 - s)` -/
private theorem par_err (h : Prec q ε) {s m n : ℝ} (hs : |s| ≤ m) (hn : |1 - s| ≤ n) (hm : m ≤ 3) (hn' : n ≤ 3) :
    |q.s.rnd s - s| ≤ m * ε ∧
    |q.s.rnd (q.s.rnd s * q.s.rnd (1 - q.s.rnd s)) - s * (1 - s)| ≤ (m * (m + n) + 2 * (m * n) + 0.0001) * ε := by
  have h0 := h.pos
  have he := h.le'
  have hm0 := (abs_nonneg _).trans hs
  have hn0 := (abs_nonneg _).trans hn
  have h1 : |q.s.rnd s - s| ≤ m * ε := by
    have := h.rs (x := s) hs (e := 0) (by simp)
    linarith
  have h2 : |(1 - q.s.rnd s) - (1 - s)| ≤ m * ε := by
    rw [show (1 - q.s.rnd s) - (1 - s) = -(q.s.rnd s - s) by ring, abs_neg]; exact h1
  have h3 := h.rs hn h2
  have h4 := mul_err h1 h3 hs hn
  have hP : |s * (1 - s)| ≤ m * n := by
    rw [abs_mul]; exact mul_le_mul hs hn (abs_nonneg _) hm0
  have h5 := h.rs hP h4
  refine ⟨h1, h5.trans ?_⟩
  have hee : ε * ε ≤ 0.000001 * ε := mul_le_mul_of_nonneg_right he h0.le
  have hmm : m * m ≤ 9 := by nlinarith
  have hmn : m * n ≤ 9 := by nlinarith
  have hmm0 := mul_nonneg hm0 hm0
  have hmn0 := mul_nonneg hm0 hn0
  obtain ⟨b, eb⟩ : ∃ b, b = (n + m * ε) * ε + m * ε := ⟨_, rfl⟩
  have hb : b ≤ (m + n + 0.00001) * ε := by rw [eb]; nlinarith
  have hb0 : 0 ≤ b := by rw [eb]; positivity
  rw [← eb]
  obtain ⟨c, ec⟩ : ∃ c, c = m * ε * (n + b) + m * b := ⟨_, rfl⟩
  have hb1 : b ≤ 0.00001 := by nlinarith
  have hc : c ≤ (m * (m + n) + m * n + 0.00007) * ε := by
    have e1 : m * b ≤ m * ((m + n + 0.00001) * ε) := mul_le_mul_of_nonneg_left hb hm0
    have e2 : m * ε * (n + b) ≤ m * ε * (n + 0.00001) := mul_le_mul_of_nonneg_left (by linarith) (by positivity)
    rw [ec]; nlinarith
  have hc0 : 0 ≤ c := by rw [ec]; positivity
  rw [← ec]
  have hc1 : c ≤ 0.00003 := by nlinarith
  have : (m * n + c) * ε ≤ (m * n + 0.00003) * ε := mul_le_mul_of_nonneg_right (by linarith) h0.le
  linarith

/-- the error of `a_scan`, from the errors of the coefficients -/
theorem ascan_err (h : Prec q ε) {s t ce ca Ce Ca E : ℝ} (hs : |s| ≤ 2.2) (hs' : |1 - s| ≤ 1.4) (ht : |t| ≤ 1.85)
    (ht' : |1 - t| ≤ 1.5) (hE0 : 0 ≤ E) (hE : E ≤ 0.000017) (hce : |ce - Ce| ≤ 48000 * E) (hca : |ca - Ca| ≤ 900 * E)
    (hCe : |Ce| ≤ 2) (hCa : |Ca| ≤ 0.125) :
    |q.s.rnd (q.s.rnd (q.s.rnd s + q.s.rnd (q.s.rnd (q.s.rnd s * q.s.rnd (1 - q.s.rnd s)) * ce))
        + q.s.rnd (q.s.rnd (q.s.rnd t * q.s.rnd (1 - q.s.rnd t)) * ca)) - (s + s * (1 - s) * Ce + t * (1 - t) * Ca)|
      ≤ (48000 * |s * (1 - s)| + 2500) * E + 80 * ε := by
  have h0 := h.pos
  have he := h.le'
  obtain ⟨s1, s2⟩ := par_err h hs hs' (by norm_num) (by norm_num)
  obtain ⟨t1, t2⟩ := par_err h ht ht' (by norm_num) (by norm_num)
  obtain ⟨P, eP⟩ : ∃ P, P = s * (1 - s) := ⟨_, rfl⟩
  obtain ⟨Q, eQ⟩ : ∃ Q, Q = t * (1 - t) := ⟨_, rfl⟩
  have hP : |P| ≤ 3.08 := by
    rw [eP, abs_mul]; exact (mul_le_mul hs hs' (abs_nonneg _) (by norm_num)).trans (by norm_num)
  have hQ : |Q| ≤ 2.775 := by
    rw [eQ, abs_mul]; exact (mul_le_mul ht ht' (abs_nonneg _) (by norm_num)).trans (by norm_num)
  rw [← eP] at s2 ⊢
  rw [← eQ] at t2 ⊢
  obtain ⟨p, ep⟩ : ∃ p, p = q.s.rnd (q.s.rnd s * q.s.rnd (1 - q.s.rnd s)) := ⟨_, rfl⟩
  obtain ⟨g, eg⟩ : ∃ g, g = q.s.rnd (q.s.rnd t * q.s.rnd (1 - q.s.rnd t)) := ⟨_, rfl⟩
  rw [← ep] at s2 ⊢
  rw [← eg] at t2 ⊢
  have s3 : |p - P| ≤ 14.09 * ε := s2.trans (mul_le_mul_of_nonneg_right (by norm_num) h0.le)
  have t3 : |g - Q| ≤ 11.76 * ε := t2.trans (mul_le_mul_of_nonneg_right (by norm_num) h0.le)
  obtain ⟨G, eG⟩ : ∃ G, G = |P| * (48000 * E) := ⟨_, rfl⟩
  have hG0 : 0 ≤ G := by rw [eG]; positivity
  have hG : G ≤ 2.52 := by
    rw [eG]
    exact (mul_le_mul hP (by linarith : 48000 * E ≤ 0.816) (by positivity) (by norm_num)).trans (by norm_num)
  -- the part of the expansion
  have a1 : |p * ce - P * Ce| ≤ 39.8 * ε + G := by
    have e : p * ce - P * Ce = (p - P) * (Ce + (ce - Ce)) + P * (ce - Ce) := by ring
    rw [e]
    refine (abs_add_le _ _).trans ?_
    rw [abs_mul, abs_mul, eG]
    have h5 : |Ce + (ce - Ce)| ≤ 2.816 := (abs_add_le _ _).trans (by norm_num at *; linarith)
    have h6 := mul_le_mul s3 h5 (abs_nonneg _) (by positivity)
    have h7 := mul_le_mul_of_nonneg_left hce (abs_nonneg P)
    norm_num at *
    linarith
  have hPC : |P * Ce| ≤ 6.16 := by
    rw [abs_mul]; exact (mul_le_mul hP hCe (abs_nonneg _) (by norm_num)).trans (by norm_num)
  have a2 := h.rs hPC a1
  have a3 : (6.16 + (39.8 * ε + G)) * ε ≤ 8.7 * ε := mul_le_mul_of_nonneg_right (by norm_num at *; linarith) h0.le
  obtain ⟨v, ev⟩ : ∃ v, v = q.s.rnd (p * ce) := ⟨_, rfl⟩
  rw [← ev] at a2 ⊢
  have a4 : |(q.s.rnd s + v) - (s + P * Ce)| ≤ 50.7 * ε + G := by
    rw [show (q.s.rnd s + v) - (s + P * Ce) = (q.s.rnd s - s) + (v - P * Ce) by ring]
    refine (abs_add_le _ _).trans ?_
    norm_num at *
    linarith
  have hsP : |s + P * Ce| ≤ 8.36 := (abs_add_le _ _).trans (by norm_num at *; linarith)
  have a5 := h.rs hsP a4
  have a6 : (8.36 + (50.7 * ε + G)) * ε ≤ 10.9 * ε := mul_le_mul_of_nonneg_right (by norm_num at *; linarith) h0.le
  -- the part of the alignment
  have b1 := mul_err t3 hca hQ hCa
  have b2 : 11.76 * ε * (0.125 + 900 * E) + 2.775 * (900 * E) ≤ 1.66 * ε + 2500 * E := by
    have : 11.76 * ε * (0.125 + 900 * E) ≤ 11.76 * ε * 0.141 :=
      mul_le_mul_of_nonneg_left (by norm_num at *; linarith) (by positivity)
    norm_num at *
    linarith
  have hQC : |Q * Ca| ≤ 0.35 := by
    rw [abs_mul]; exact (mul_le_mul hQ hCa (abs_nonneg _) (by norm_num)).trans (by norm_num)
  have b3 := h.rs hQC (b1.trans b2)
  have b4 : (0.35 + (1.66 * ε + 2500 * E)) * ε ≤ 0.4 * ε := mul_le_mul_of_nonneg_right (by norm_num at *; linarith) h0.le
  obtain ⟨w, ew⟩ : ∃ w, w = q.s.rnd (g * ca) := ⟨_, rfl⟩
  rw [← ew] at b3 ⊢
  obtain ⟨v2, ev2⟩ : ∃ v2, v2 = q.s.rnd (q.s.rnd s + v) := ⟨_, rfl⟩
  rw [← ev2] at a5 ⊢
  have c1 : |(v2 + w) - (s + P * Ce + Q * Ca)| ≤ 63.7 * ε + G + 2500 * E := by
    rw [show (v2 + w) - (s + P * Ce + Q * Ca) = (v2 - (s + P * Ce)) + (w - Q * Ca) by ring]
    refine (abs_add_le _ _).trans ?_
    norm_num at *
    linarith
  have hT : |s + P * Ce + Q * Ca| ≤ 8.71 := (abs_add_le _ _).trans (by norm_num at *; linarith)
  have c2 := h.rs hT c1
  have c3 : (8.71 + (63.7 * ε + G + 2500 * E)) * ε ≤ 11.4 * ε := mul_le_mul_of_nonneg_right (by norm_num at *; linarith) h0.le
  refine c2.trans ?_
  rw [eG] at c3 ⊢
  norm_num at *
  linarith

end Verif.Mx
