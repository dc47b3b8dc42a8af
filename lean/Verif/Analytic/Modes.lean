import Verif.Analytic.Props
import Mathlib.Algebra.BigOperators.Field
import Mathlib.Analysis.SpecialFunctions.Trigonometric.Bounds
import Mathlib.Analysis.SpecialFunctions.Log.Deriv
import Mathlib.Analysis.Normed.Group.Tannery
import Mathlib.Analysis.PSeries
/-!
# The implicit difference scheme for the diffusion equation, in closed form

Specification for C76: pressures in the middle of `n` equal cells with `pL`, `pR` given on the two end faces and `pi` everywhere at the start, after `t` implicit
steps with ratio `r = α dt / h²`.
-/
namespace RF
noncomputable section
open Real Finset

/-- Weight of a mode: the shortest wave counts half. -/
def modeWeight (n m : ℕ) : ℝ := if m = n then 1 / 2 else 1

/-- Decay of mode `m` per step: `1 + 4 r sin² (m π / 2n)`. -/
def modeFactor (n : ℕ) (r : ℝ) (m : ℕ) : ℝ := 1 + 4 * r * sin (m * (π / (2 * n))) ^ 2

/-- Amplitude of mode `m`. -/
def modeAmp (n : ℕ) (pi pL pR : ℝ) (m : ℕ) : ℝ := modeWeight n m * ((pi - pL) + (pR - pi) * (-1) ^ m) / (n * sin (m * (π / (2 * n))))

/-- The scheme's pressure at `y` (the middle of the cell at position `i` is `y = i`) after `t` steps: the straight line between the given pressures and `n` waves. -/
def schemeAt (n : ℕ) (r pi pL pR : ℝ) (t : ℕ) (y : ℝ) : ℝ :=
  pL + (pR - pL) * ((y + 1 / 2) / n) + ∑ m ∈ range n, modeAmp n pi pL pR (m + 1) * sin ((m + 1 : ℕ) * (π * ((y + 1 / 2) / n))) / modeFactor n r (m + 1) ^ t

/-- Pressure of the cell at position `i`. -/
def scheme (n : ℕ) (r pi pL pR : ℝ) (t i : ℕ) : ℝ := schemeAt n r pi pL pR t i

variable {n : ℕ} {r pi pL pR : ℝ}

lemma modeFactor_pos (hr : 0 ≤ r) (m : ℕ) : 0 < modeFactor n r m := by unfold modeFactor; positivity

/-! ### the recurrence -/

lemma sin_second (a b : ℝ) : sin (a - 2 * b) - 2 * sin a + sin (a + 2 * b) = -(4 * sin b ^ 2) * sin a := by
  have h : cos (2 * b) = 1 - 2 * sin b ^ 2 := by rw [cos_two_mul, cos_sq']; ring
  rw [sin_sub, sin_add, h]; ring

lemma schemeAt_second (hn : 0 < n) (t : ℕ) (y : ℝ) : schemeAt n r pi pL pR t (y - 1) - 2 * schemeAt n r pi pL pR t y + schemeAt n r pi pL pR t (y + 1) =
    ∑ m ∈ range n, modeAmp n pi pL pR (m + 1) * sin ((m + 1 : ℕ) * (π * ((y + 1 / 2) / n))) / modeFactor n r (m + 1) ^ t * -(4 * sin ((m + 1 : ℕ) * (π / (2 * n))) ^ 2) := by
  have hn' : (n : ℝ) ≠ 0 := by positivity
  unfold schemeAt
  set S := fun y : ℝ => ∑ m ∈ range n, modeAmp n pi pL pR (m + 1) * sin ((m + 1 : ℕ) * (π * ((y + 1 / 2) / n))) / modeFactor n r (m + 1) ^ t with hS
  have e : S (y - 1) - 2 * S y + S (y + 1) =
      ∑ m ∈ range n, modeAmp n pi pL pR (m + 1) * sin ((m + 1 : ℕ) * (π * ((y + 1 / 2) / n))) / modeFactor n r (m + 1) ^ t * -(4 * sin ((m + 1 : ℕ) * (π / (2 * n))) ^ 2) := by
    rw [hS]
    simp only
    rw [mul_sum, ← sum_sub_distrib, ← sum_add_distrib]
    refine sum_congr rfl fun m _ => ?_
    have := sin_second ((m + 1 : ℕ) * (π * ((y + 1 / 2) / n))) ((m + 1 : ℕ) * (π / (2 * n)))
    have e1 : ((m + 1 : ℕ) : ℝ) * (π * ((y + 1 / 2) / n)) - 2 * ((m + 1 : ℕ) * (π / (2 * n))) = (m + 1 : ℕ) * (π * ((y - 1 + 1 / 2) / n)) := by field_simp; ring
    have e2 : ((m + 1 : ℕ) : ℝ) * (π * ((y + 1 / 2) / n)) + 2 * ((m + 1 : ℕ) * (π / (2 * n))) = (m + 1 : ℕ) * (π * ((y + 1 + 1 / 2) / n)) := by field_simp; ring
    rw [e1, e2] at this
    rw [div_mul_eq_mul_div, mul_assoc, mul_comm (sin _) (-_), ← this]; ring
  rw [← e]
  simp only [hS]
  ring

lemma schemeAt_left (t : ℕ) : schemeAt n r pi pL pR t (-1) = 2 * pL - schemeAt n r pi pL pR t 0 := by
  unfold schemeAt
  have : ∀ m ∈ range n, modeAmp n pi pL pR (m + 1) * sin ((m + 1 : ℕ) * (π * ((-1 + 1 / 2) / n))) / modeFactor n r (m + 1) ^ t =
      -(modeAmp n pi pL pR (m + 1) * sin ((m + 1 : ℕ) * (π * ((0 + 1 / 2) / n))) / modeFactor n r (m + 1) ^ t) := fun m _ => by
    rw [show ((m + 1 : ℕ) : ℝ) * (π * ((-1 + 1 / 2) / n)) = -((m + 1 : ℕ) * (π * ((0 + 1 / 2) / n))) by ring, sin_neg]; ring
  rw [sum_congr rfl this, sum_neg_distrib]; ring

lemma schemeAt_right (hn : 0 < n) (t : ℕ) : schemeAt n r pi pL pR t n = 2 * pR - schemeAt n r pi pL pR t (n - 1) := by
  have hn' : (n : ℝ) ≠ 0 := by positivity
  unfold schemeAt
  have : ∀ m ∈ range n, modeAmp n pi pL pR (m + 1) * sin ((m + 1 : ℕ) * (π * ((n + 1 / 2) / n))) / modeFactor n r (m + 1) ^ t =
      -(modeAmp n pi pL pR (m + 1) * sin ((m + 1 : ℕ) * (π * ((n - 1 + 1 / 2) / n))) / modeFactor n r (m + 1) ^ t) := fun m _ => by
    have e1 : ((m + 1 : ℕ) : ℝ) * (π * ((n + 1 / 2) / n)) = (m + 1 : ℕ) * π + (m + 1 : ℕ) * (π / (2 * n)) := by field_simp
    have e2 : ((m + 1 : ℕ) : ℝ) * (π * ((n - 1 + 1 / 2) / n)) = (m + 1 : ℕ) * π - (m + 1 : ℕ) * (π / (2 * n)) := by field_simp; ring
    rw [e1, e2, sin_add, sin_sub, sin_nat_mul_pi]; ring
  rw [sum_congr rfl this, sum_neg_distrib]
  generalize (∑ m ∈ range n, modeAmp n pi pL pR (m + 1) * sin ((m + 1 : ℕ) * (π * ((n - 1 + 1 / 2) / n))) / modeFactor n r (m + 1) ^ t) = S
  field_simp; ring

/-- Every step of the scheme balances. -/
lemma schemeAt_step (hn : 0 < n) (hr : 0 ≤ r) (t : ℕ) (y : ℝ) :
    r * (schemeAt n r pi pL pR (t + 1) (y - 1) - 2 * schemeAt n r pi pL pR (t + 1) y + schemeAt n r pi pL pR (t + 1) (y + 1)) =
      schemeAt n r pi pL pR (t + 1) y - schemeAt n r pi pL pR t y := by
  rw [schemeAt_second hn]
  unfold schemeAt
  rw [add_sub_add_left_eq_sub, ← sum_sub_distrib, mul_sum]
  refine sum_congr rfl fun m _ => ?_
  have h := (modeFactor_pos (n := n) hr (m + 1)).ne'
  have e : -(4 * r * sin ((m + 1 : ℕ) * (π / (2 * n))) ^ 2) = 1 - modeFactor n r (m + 1) := by unfold modeFactor; ring
  rw [show ∀ a b c : ℝ, r * (a / b * -(4 * c)) = a / b * -(4 * r * c) from fun a b c => by ring, e, pow_succ]
  field_simp

/-! ### the start -/

lemma cos_sum (N : ℕ) (θ : ℝ) : 2 * sin (θ / 2) * ∑ m ∈ range N, cos ((m + 1 : ℕ) * θ) = sin ((N + 1 / 2) * θ) - sin (θ / 2) := by
  induction N with
  | zero => simp [show (2⁻¹ : ℝ) * θ = θ / 2 by ring]
  | succ N ih =>
    rw [sum_range_succ, mul_add, ih]
    have e1 : ((N + 1 : ℕ) + 1 / 2 : ℝ) * θ = (N + 1 : ℕ) * θ + θ / 2 := by push_cast; ring
    have e2 : ((N : ℝ) + 1 / 2) * θ = (N + 1 : ℕ) * θ - θ / 2 := by push_cast; ring
    rw [e1, e2, sin_add, sin_sub]; ring

/-- The waves of even weight add up to minus one half. -/
lemma cos_sum_half (hn : 0 < n) {i : ℕ} (h0 : 0 < i) (hi : i < n) : ∑ m ∈ range n, modeWeight n (m + 1) * cos ((m + 1 : ℕ) * (π * (i / n))) = -(1 / 2) := by
  obtain ⟨N, rfl⟩ : ∃ N, n = N + 1 := ⟨n - 1, by omega⟩
  set θ := π * (i / (N + 1 : ℕ)) with hθ
  have hnθ : sin ((N + 1 : ℕ) * θ) = 0 := by
    rw [show ((N + 1 : ℕ) : ℝ) * θ = i * π by rw [hθ]; field_simp]; exact sin_nat_mul_pi i
  have hp : 0 < sin (θ / 2) := by
    have h1 : (0 : ℝ) < i := by exact_mod_cast h0
    have h2 : (i : ℝ) < (N + 1 : ℕ) := by exact_mod_cast hi
    have h3 : (i : ℝ) / (N + 1 : ℕ) < 1 := (div_lt_one (by positivity)).2 h2
    have h4 : 0 < θ := by rw [hθ]; positivity
    have h5 : θ < π := by rw [hθ]; nlinarith [Real.pi_pos]
    exact sin_pos_of_pos_of_lt_pi (by linarith) (by linarith)
  have hw : ∀ m ∈ range N, modeWeight (N + 1) (m + 1) * cos ((m + 1 : ℕ) * θ) = cos ((m + 1 : ℕ) * θ) := fun m hm => by
    unfold modeWeight; rw [if_neg (by have := mem_range.1 hm; omega), one_mul]
  rw [sum_range_succ, sum_congr rfl hw]
  have hl : modeWeight (N + 1) (N + 1) = 1 / 2 := if_pos rfl
  rw [hl]
  have key := cos_sum N θ
  have e2 : ((N : ℝ) + 1 / 2) * θ = (N + 1 : ℕ) * θ - θ / 2 := by push_cast; ring
  rw [e2, sin_sub, hnθ] at key
  have : 2 * sin (θ / 2) * (∑ m ∈ range N, cos ((m + 1 : ℕ) * θ) + 1 / 2 * cos ((N + 1 : ℕ) * θ)) = 2 * sin (θ / 2) * -(1 / 2) := by
    rw [mul_add, key]; ring
  exact mul_left_cancel₀ (by positivity) this

lemma sin_mode_pos {m : ℕ} (h0 : 0 < m) (hm : m ≤ n) : 0 < sin (m * (π / (2 * n))) := by
  have h1 : (0 : ℝ) < m := by exact_mod_cast h0
  have h2 : (m : ℝ) ≤ n := by exact_mod_cast hm
  have h3 : (0 : ℝ) < n := h1.trans_le h2
  refine sin_pos_of_pos_of_lt_pi (by positivity) ?_
  have : (m : ℝ) * (π / (2 * n)) = π / 2 * (m / n) := by field_simp
  have h4 : (m : ℝ) / n ≤ 1 := (div_le_one h3).2 h2
  rw [this]
  nlinarith [Real.pi_pos]

/-- The waves that make up the constant one minus the straight line. -/
lemma start_left (hn : 0 < n) {i : ℕ} (hi : i < n) :
    ∑ m ∈ range n, modeWeight n (m + 1) / (n * sin ((m + 1 : ℕ) * (π / (2 * n)))) * sin ((m + 1 : ℕ) * (π * ((i + 1 / 2) / n))) = 1 - (i + 1 / 2) / n := by
  have hn' : (n : ℝ) ≠ 0 := by positivity
  induction i with
  | zero =>
    have : ∀ m ∈ range n, modeWeight n (m + 1) / (n * sin ((m + 1 : ℕ) * (π / (2 * n)))) * sin ((m + 1 : ℕ) * (π * (((0 : ℕ) + 1 / 2) / n))) = modeWeight n (m + 1) / n := fun m hm => by
      have hs : sin ((m + 1 : ℕ) * (π / (2 * n))) ≠ 0 := (sin_mode_pos (n := n) (Nat.succ_pos m) (mem_range.1 hm)).ne'
      rw [show ((m + 1 : ℕ) : ℝ) * (π * (((0 : ℕ) + 1 / 2) / n)) = (m + 1 : ℕ) * (π / (2 * n)) by push_cast; field_simp; ring]
      generalize sin ((m + 1 : ℕ) * (π / (2 * n))) = S at hs ⊢
      field_simp
    rw [sum_congr rfl this, ← Finset.sum_div]
    obtain ⟨N, rfl⟩ : ∃ N, n = N + 1 := ⟨n - 1, by omega⟩
    have hw : ∀ m ∈ range N, modeWeight (N + 1) (m + 1) = 1 := fun m hm => if_neg (by have := mem_range.1 hm; omega)
    rw [sum_range_succ, sum_congr rfl hw, show modeWeight (N + 1) (N + 1) = 1 / 2 from if_pos rfl]
    push_cast at hn' ⊢
    simp
    field_simp
    ring
  | succ i ih =>
    have hd : ∑ m ∈ range n, modeWeight n (m + 1) / (n * sin ((m + 1 : ℕ) * (π / (2 * n)))) * sin ((m + 1 : ℕ) * (π * (((i + 1 : ℕ) + 1 / 2) / n))) -
        ∑ m ∈ range n, modeWeight n (m + 1) / (n * sin ((m + 1 : ℕ) * (π / (2 * n)))) * sin ((m + 1 : ℕ) * (π * ((i + 1 / 2) / n))) =
        2 / n * ∑ m ∈ range n, modeWeight n (m + 1) * cos ((m + 1 : ℕ) * (π * ((i + 1 : ℕ) / n))) := by
      rw [← sum_sub_distrib, mul_sum]
      refine sum_congr rfl fun m hm => ?_
      have hs : sin ((m + 1 : ℕ) * (π / (2 * n))) ≠ 0 := (sin_mode_pos (n := n) (Nat.succ_pos m) (mem_range.1 hm)).ne'
      have e1 : ((m + 1 : ℕ) : ℝ) * (π * (((i + 1 : ℕ) + 1 / 2) / n)) = (m + 1 : ℕ) * (π * ((i + 1 : ℕ) / n)) + (m + 1 : ℕ) * (π / (2 * n)) := by field_simp
      have e2 : ((m + 1 : ℕ) : ℝ) * (π * ((i + 1 / 2) / n)) = (m + 1 : ℕ) * (π * ((i + 1 : ℕ) / n)) - (m + 1 : ℕ) * (π / (2 * n)) := by push_cast; field_simp; ring
      rw [e1, e2, sin_add, sin_sub]
      generalize sin ((m + 1 : ℕ) * (π / (2 * n))) = S at hs ⊢
      field_simp
      ring
    rw [cos_sum_half hn (Nat.succ_pos i) hi] at hd
    rw [ih (by omega)] at hd
    rw [sub_eq_iff_eq_add] at hd
    rw [hd]; push_cast; field_simp; ring

lemma start_right (hn : 0 < n) {i : ℕ} (hi : i < n) :
    ∑ m ∈ range n, modeWeight n (m + 1) * (-1) ^ (m + 1) / (n * sin ((m + 1 : ℕ) * (π / (2 * n)))) * sin ((m + 1 : ℕ) * (π * ((i + 1 / 2) / n))) = -((i + 1 / 2) / n) := by
  have hn' : (n : ℝ) ≠ 0 := by positivity
  have h := start_left hn (i := n - 1 - i) (by omega)
  have hc : ((n - 1 - i : ℕ) : ℝ) = n - 1 - i := by
    rw [Nat.cast_sub (by omega), Nat.cast_sub (by omega)]; simp
  rw [hc] at h
  have e : ∀ m ∈ range n, modeWeight n (m + 1) * (-1) ^ (m + 1) / (n * sin ((m + 1 : ℕ) * (π / (2 * n)))) * sin ((m + 1 : ℕ) * (π * ((i + 1 / 2) / n))) =
      -(modeWeight n (m + 1) / (n * sin ((m + 1 : ℕ) * (π / (2 * n)))) * sin ((m + 1 : ℕ) * (π * (((n : ℝ) - 1 - i + 1 / 2) / n)))) := fun m _ => by
    rw [show ((m + 1 : ℕ) : ℝ) * (π * (((n : ℝ) - 1 - i + 1 / 2) / n)) = (m + 1 : ℕ) * π - (m + 1 : ℕ) * (π * ((i + 1 / 2) / n)) by field_simp; ring,
      sin_sub, sin_nat_mul_pi, cos_nat_mul_pi]
    ring
  rw [sum_congr rfl e, sum_neg_distrib, h]
  field_simp; ring

lemma scheme_zero (hn : 0 < n) {i : ℕ} (hi : i < n) : scheme n r pi pL pR 0 i = pi := by
  unfold scheme schemeAt
  have e : ∀ m ∈ range n, modeAmp n pi pL pR (m + 1) * sin ((m + 1 : ℕ) * (π * ((i + 1 / 2) / n))) / modeFactor n r (m + 1) ^ 0 =
      (pi - pL) * (modeWeight n (m + 1) / (n * sin ((m + 1 : ℕ) * (π / (2 * n)))) * sin ((m + 1 : ℕ) * (π * ((i + 1 / 2) / n)))) +
      (pR - pi) * (modeWeight n (m + 1) * (-1) ^ (m + 1) / (n * sin ((m + 1 : ℕ) * (π / (2 * n)))) * sin ((m + 1 : ℕ) * (π * ((i + 1 / 2) / n)))) := fun m _ => by
    unfold modeAmp; rw [pow_zero, div_one]; ring
  rw [sum_congr rfl e, sum_add_distrib, ← mul_sum, ← mul_sum, start_left hn hi, start_right hn hi]
  ring

end
end RF
