import Mathlib.Algebra.BigOperators.Ring.Finset
import Mathlib.Algebra.Order.BigOperators.Group.Finset
import Mathlib.Algebra.Order.Field.Basic
import Mathlib.Tactic.Linarith
import Mathlib.Tactic.Ring
import Mathlib.Tactic.Positivity
/-!
# Steady flow through a network between two heads

`n` cells with conductances `T` between them, conductances `a` to a head `H` and `b` to a head `L`. (Used for C94.)
-/
namespace RF.Net
open Finset

variable {K : Type} [Field K] [LinearOrder K] [IsStrictOrderedRing K]

/-- The dissipation of two states, as a bilinear form in the drops of head along all conductances. -/
def pairing (n : ℕ) (T : ℕ → ℕ → K) (a b : ℕ → K) (H L : K) (x y : ℕ → K) : K :=
  (∑ i ∈ range n, ∑ j ∈ range n, T i j * ((x j - x i) * (y j - y i))) / 2 + ∑ i ∈ range n, a i * ((H - x i) * (H - y i)) + ∑ i ∈ range n, b i * ((x i - L) * (y i - L))

/-- In the steady state `x`, the pairing with any other state is the flow times the difference between the heads. -/
lemma pairing_steady {n : ℕ} {T : ℕ → ℕ → K} (hT : ∀ i j, i < n → j < n → T i j = T j i) {a b x : ℕ → K} {H L : K}
    (hx : ∀ i, i < n → ∑ j ∈ range n, T i j * (x j - x i) + a i * (H - x i) + b i * (L - x i) = 0) (y : ℕ → K) :
    pairing n T a b H L x y = (∑ i ∈ range n, a i * (H - x i)) * (H - L) := by
  have e1 : ∑ i ∈ range n, ∑ j ∈ range n, T i j * ((x j - x i) * (y j - y i)) = -(2 * ∑ i ∈ range n, (∑ j ∈ range n, T i j * (x j - x i)) * (y i - L)) := by
    have s1 : ∑ i ∈ range n, ∑ j ∈ range n, T i j * ((x j - x i) * (y j - y i)) =
        ∑ i ∈ range n, ∑ j ∈ range n, T i j * (x j - x i) * (y j - L) - ∑ i ∈ range n, ∑ j ∈ range n, T i j * (x j - x i) * (y i - L) := by
      rw [← sum_sub_distrib]
      refine sum_congr rfl fun i _ => ?_
      rw [← sum_sub_distrib]
      exact sum_congr rfl fun j _ => by ring
    have s2 : ∑ i ∈ range n, ∑ j ∈ range n, T i j * (x j - x i) * (y j - L) = -∑ i ∈ range n, ∑ j ∈ range n, T i j * (x j - x i) * (y i - L) := by
      rw [sum_comm, ← sum_neg_distrib]
      refine sum_congr rfl fun i hi => ?_
      rw [← sum_neg_distrib]
      refine sum_congr rfl fun j hj => ?_
      rw [hT j i (mem_range.1 hj) (mem_range.1 hi)]; ring
    rw [s1, s2, two_mul, neg_add, sub_eq_add_neg]
    congr 1 <;>
    · congr 1
      exact sum_congr rfl fun i _ => by rw [sum_mul]
  unfold pairing
  rw [e1, neg_div, mul_div_cancel_left₀ _ (two_ne_zero), ← sum_neg_distrib, ← sum_add_distrib, ← sum_add_distrib, sum_mul]
  refine sum_congr rfl fun i hi => ?_
  have := hx i (mem_range.1 hi)
  have h2 : ∑ j ∈ range n, T i j * (x j - x i) = -(a i * (H - x i) + b i * (L - x i)) := by linarith
  rw [h2]; ring

lemma pairing_self_nonneg {n : ℕ} {T : ℕ → ℕ → K} (h0 : ∀ i j, i < n → j < n → 0 ≤ T i j) {a b : ℕ → K} (ha : ∀ i, i < n → 0 ≤ a i) (hb : ∀ i, i < n → 0 ≤ b i) (H L : K) (x : ℕ → K) :
    0 ≤ pairing n T a b H L x x := by
  unfold pairing
  have h1 := sum_nonneg fun i hi => sum_nonneg fun j hj => mul_nonneg (h0 i j (mem_range.1 hi) (mem_range.1 hj)) (mul_self_nonneg (x j - x i))
  have h2 := sum_nonneg fun i hi => mul_nonneg (ha i (mem_range.1 hi)) (mul_self_nonneg (H - x i))
  have h3 := sum_nonneg fun i hi => mul_nonneg (hb i (mem_range.1 hi)) (mul_self_nonneg (x i - L))
  positivity

/-- Larger conductances dissipate more in the same state. -/
lemma pairing_mono {n : ℕ} {T T' : ℕ → ℕ → K} (hT : ∀ i j, i < n → j < n → T i j ≤ T' i j) {a a' b b' : ℕ → K} (ha : ∀ i, i < n → a i ≤ a' i) (hb : ∀ i, i < n → b i ≤ b' i) (H L : K) (x : ℕ → K) :
    pairing n T a b H L x x ≤ pairing n T' a' b' H L x x := by
  unfold pairing
  have h1 := sum_le_sum fun i hi => sum_le_sum fun j hj => mul_le_mul_of_nonneg_right (hT i j (mem_range.1 hi) (mem_range.1 hj)) (mul_self_nonneg (x j - x i))
  have h2 := sum_le_sum fun i hi => mul_le_mul_of_nonneg_right (ha i (mem_range.1 hi)) (mul_self_nonneg (H - x i))
  have h3 := sum_le_sum fun i hi => mul_le_mul_of_nonneg_right (hb i (mem_range.1 hi)) (mul_self_nonneg (x i - L))
  linarith

/-- The steady state dissipates least. -/
lemma pairing_least {n : ℕ} {T : ℕ → ℕ → K} (hT : ∀ i j, i < n → j < n → T i j = T j i) (h0 : ∀ i j, i < n → j < n → 0 ≤ T i j) {a b x : ℕ → K} (ha : ∀ i, i < n → 0 ≤ a i) (hb : ∀ i, i < n → 0 ≤ b i)
    {H L : K} (hx : ∀ i, i < n → ∑ j ∈ range n, T i j * (x j - x i) + a i * (H - x i) + b i * (L - x i) = 0) (y : ℕ → K) :
    (∑ i ∈ range n, a i * (H - x i)) * (H - L) ≤ pairing n T a b H L y y := by
  have e1 := pairing_steady hT hx y
  have e2 := pairing_steady hT hx x
  have key : pairing n T a b H L y y = 2 * pairing n T a b H L x y - pairing n T a b H L x x + pairing n T a b 0 0 (fun i => y i - x i) (fun i => y i - x i) := by
    unfold pairing
    have t1 : ∑ i ∈ range n, ∑ j ∈ range n, T i j * ((y j - y i) * (y j - y i)) = 2 * ∑ i ∈ range n, ∑ j ∈ range n, T i j * ((x j - x i) * (y j - y i)) - ∑ i ∈ range n, ∑ j ∈ range n, T i j * ((x j - x i) * (x j - x i)) +
        ∑ i ∈ range n, ∑ j ∈ range n, T i j * (((y j - x j) - (y i - x i)) * ((y j - x j) - (y i - x i))) := by
      rw [mul_sum, ← sum_sub_distrib, ← sum_add_distrib]
      refine sum_congr rfl fun i _ => ?_
      rw [mul_sum, ← sum_sub_distrib, ← sum_add_distrib]
      exact sum_congr rfl fun j _ => by ring
    have t2 : ∑ i ∈ range n, a i * ((H - y i) * (H - y i)) = 2 * ∑ i ∈ range n, a i * ((H - x i) * (H - y i)) - ∑ i ∈ range n, a i * ((H - x i) * (H - x i)) +
        ∑ i ∈ range n, a i * ((0 - (y i - x i)) * (0 - (y i - x i))) := by
      rw [mul_sum, ← sum_sub_distrib, ← sum_add_distrib]
      exact sum_congr rfl fun j _ => by ring
    have t3 : ∑ i ∈ range n, b i * ((y i - L) * (y i - L)) = 2 * ∑ i ∈ range n, b i * ((x i - L) * (y i - L)) - ∑ i ∈ range n, b i * ((x i - L) * (x i - L)) +
        ∑ i ∈ range n, b i * (((y i - x i) - 0) * ((y i - x i) - 0)) := by
      rw [mul_sum, ← sum_sub_distrib, ← sum_add_distrib]
      exact sum_congr rfl fun j _ => by ring
    rw [t1, t2, t3]; ring
  have := pairing_self_nonneg h0 ha hb 0 0 fun i => y i - x i
  rw [key, e1, e2]; linarith

/-- **Rayleigh's law**: with larger conductances the steady flow from the higher to the lower head is not smaller. -/
theorem flow_mono {n : ℕ} {T T' : ℕ → ℕ → K} (hT : ∀ i j, i < n → j < n → T i j = T j i) (hT' : ∀ i j, i < n → j < n → T' i j = T' j i) (h0 : ∀ i j, i < n → j < n → 0 ≤ T i j)
    (hle : ∀ i j, i < n → j < n → T i j ≤ T' i j) {a a' b b' x x' : ℕ → K} (ha : ∀ i, i < n → 0 ≤ a i) (hb : ∀ i, i < n → 0 ≤ b i) (ha' : ∀ i, i < n → a i ≤ a' i) (hb' : ∀ i, i < n → b i ≤ b' i)
    {H L : K} (hHL : L < H) (hx : ∀ i, i < n → ∑ j ∈ range n, T i j * (x j - x i) + a i * (H - x i) + b i * (L - x i) = 0)
    (hx' : ∀ i, i < n → ∑ j ∈ range n, T' i j * (x' j - x' i) + a' i * (H - x' i) + b' i * (L - x' i) = 0) :
    0 ≤ ∑ i ∈ range n, a i * (H - x i) ∧ ∑ i ∈ range n, a i * (H - x i) ≤ ∑ i ∈ range n, a' i * (H - x' i) := by
  have h1 := pairing_least hT h0 ha hb hx x'
  have h2 := pairing_mono hle ha' hb' H L x'
  have h3 := pairing_steady hT' hx' x'
  have h4 := pairing_steady hT hx x
  have h5 := pairing_self_nonneg h0 ha hb H L x
  have hp : 0 < H - L := sub_pos.2 hHL
  refine ⟨?_, ?_⟩
  · rw [h4] at h5
    exact nonneg_of_mul_nonneg_left h5 hp
  · rw [h3] at h2
    exact le_of_mul_le_mul_right (h1.trans h2) hp

end RF.Net
