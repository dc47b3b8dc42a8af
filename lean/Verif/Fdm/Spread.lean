import Verif.Fdm.Linear
import Mathlib.Analysis.Convex.Jensen
/-!
# Convex functions of the potentials of a network decay

One implicit time step of a network of cells with storages `S`, connections `T` and leaks `D` to one potential `H`. New potentials are weighted means of the old ones and of `H`, and no old
potential is given more weight than it has. (Used for C95.)
-/
namespace RF.Net
open Finset

variable {K : Type} [Field K] [LinearOrder K] [IsStrictOrderedRing K]

/-- The weights of the old potentials in the new ones. -/
theorem weights {n : ℕ} {T : ℕ → ℕ → K} (hT : ∀ i j, i < n → j < n → T i j = T j i) (h0 : ∀ i j, i < n → j < n → 0 ≤ T i j) {S D : ℕ → K} (hS : ∀ i, i < n → 0 < S i) (hD : ∀ i, i < n → 0 ≤ D i) :
    ∃ P : ℕ → ℕ → K, (∀ i j, i < n → j < n → 0 ≤ P i j) ∧ (∀ i, i < n → ∑ j ∈ range n, P i j ≤ 1) ∧ ((∀ i, i < n → D i = 0) → ∀ i, i < n → ∑ j ∈ range n, P i j = 1) ∧
      (∀ j, j < n → ∑ i ∈ range n, S i * P i j ≤ S j) ∧ ∀ (H : K) (old x : ℕ → K), (∀ i, i < n → ∑ j ∈ range n, T i j * (x j - x i) + D i * (H - x i) = S i * (x i - old i)) →
        ∀ i, i < n → x i = ∑ j ∈ range n, P i j * old j + (1 - ∑ j ∈ range n, P i j) * H := by
  have hL : Leaky n T fun i => S i + D i :=
    ⟨fun i j hi hj _ => h0 i j hi hj, fun i hi => add_nonneg (hS i hi).le (hD i hi), fun i hi => ⟨i, hi, .refl, add_pos_of_pos_of_nonneg (hS i hi) (hD i hi)⟩⟩
  choose p hp using fun j => exists_inflow hL fun i => -(if i = j then S i else 0)
  have lin : ∀ (w : ℕ → K) (i : ℕ), i < n → inflow n T (fun i => S i + D i) (fun i => ∑ j ∈ range n, p j i * w j) i = -(S i * w i) := fun w i hi => by
    have e : inflow n T (fun i => S i + D i) (fun i => ∑ j ∈ range n, p j i * w j) i = ∑ j ∈ range n, inflow n T (fun i => S i + D i) (p j) i * w j := by
      unfold inflow
      simp only [sub_mul, sum_sub_distrib]
      congr 1
      · have : ∀ k, T i k * (∑ j ∈ range n, p j k * w j - ∑ j ∈ range n, p j i * w j) = ∑ j ∈ range n, T i k * (p j k - p j i) * w j := fun k => by
          rw [← sum_sub_distrib, mul_sum]; exact sum_congr rfl fun j _ => by ring
        rw [sum_congr rfl fun k _ => this k, sum_comm]
        exact sum_congr rfl fun j _ => by rw [sum_mul]
      · rw [mul_sum]; exact sum_congr rfl fun j _ => by ring
    rw [e, sum_congr rfl fun j _ => by rw [hp j i hi]]
    rw [sum_eq_single i (fun j _ hj => by rw [if_neg (Ne.symm hj)]; ring) (fun h => absurd (mem_range.2 hi) h), if_pos rfl]
    ring
  have one : ∀ i, i < n → inflow n T (fun i => S i + D i) (fun _ => 1) i = -(S i + D i) := fun i _ => by unfold inflow; simp
  have sums : ∀ i, i < n → inflow n T (fun i => S i + D i) (fun i => ∑ j ∈ range n, p j i) i = -S i := fun i hi => by
    have := lin (fun _ => 1) i hi
    simp only [mul_one] at this
    exact this
  refine ⟨fun i j => p j i, fun i j hi hj => ?_, fun i hi => ?_, fun hz i hi => ?_, fun j hj => ?_, fun H old x hx i hi => ?_⟩
  · refine nonneg_of_inflow_nonpos hL (fun k hk => ?_) i hi
    rw [hp j k hk]
    split_ifs
    · exact (neg_neg_of_pos (hS k hk)).le
    · simp
  · refine le_of_inflow_le hL (p := fun i => ∑ j ∈ range n, p j i) (q := fun _ => 1) (fun k hk => ?_) i hi
    rw [sums k hk, one k hk]
    linarith [hD k hk]
  · refine eq_of_inflow_eq hL (p := fun i => ∑ j ∈ range n, p j i) (q := fun _ => 1) (fun k hk => ?_) i hi
    rw [sums k hk, one k hk, hz k hk, add_zero]
  · have t0 : ∑ i ∈ range n, ∑ k ∈ range n, T i k * (p j k - p j i) = 0 := by
      have : ∑ i ∈ range n, ∑ k ∈ range n, T i k * (p j k - p j i) = -∑ i ∈ range n, ∑ k ∈ range n, T i k * (p j k - p j i) := by
        conv_lhs => rw [sum_comm]
        rw [← sum_neg_distrib]
        refine sum_congr rfl fun i hi => ?_
        rw [← sum_neg_distrib]
        refine sum_congr rfl fun k hk => ?_
        rw [hT k i (mem_range.1 hk) (mem_range.1 hi)]; ring
      linarith
    have t1 : ∑ i ∈ range n, inflow n T (fun i => S i + D i) (p j) i = -S j := by
      rw [sum_congr rfl fun i hi => hp j i (mem_range.1 hi), sum_neg_distrib, sum_ite_eq' (range n) j S, if_pos (mem_range.2 hj)]
    unfold inflow at t1
    rw [sum_sub_distrib, t0] at t1
    have nn : ∀ i, i < n → 0 ≤ p j i := fun i hi => by
      refine nonneg_of_inflow_nonpos hL (fun k hk => ?_) i hi
      rw [hp j k hk]
      split_ifs
      · exact (neg_neg_of_pos (hS k hk)).le
      · simp
    have t2 : ∑ i ∈ range n, (S i + D i) * p j i = ∑ i ∈ range n, S i * p j i + ∑ i ∈ range n, D i * p j i := by
      rw [← sum_add_distrib]; exact sum_congr rfl fun i _ => by ring
    have t3 : 0 ≤ ∑ i ∈ range n, D i * p j i := sum_nonneg fun i hi => mul_nonneg (hD i (mem_range.1 hi)) (nn i (mem_range.1 hi))
    show ∑ i ∈ range n, S i * p j i ≤ S j
    linarith
  · have := eq_of_inflow_eq hL (p := fun i => x i - H) (q := fun i => ∑ j ∈ range n, p j i * (old j - H)) (fun k hk => ?_) i hi
    · dsimp only at this ⊢
      have e : ∑ j ∈ range n, p j i * (old j - H) = ∑ j ∈ range n, p j i * old j - (∑ j ∈ range n, p j i) * H := by
        rw [sum_mul, ← sum_sub_distrib]; exact sum_congr rfl fun j _ => by ring
      rw [e] at this
      linarith
    · rw [lin (fun j => old j - H) k hk]
      have h1 := hx k hk
      unfold inflow
      have : ∑ j ∈ range n, T k j * (x j - H - (x k - H)) = ∑ j ∈ range n, T k j * (x j - x k) := sum_congr rfl fun j _ => by ring
      rw [this]; linarith

/-- Convex functions of the potentials, weighted with the storages, do not grow; if there are leaks, this asks for functions that are least at the potential outside. -/
theorem spread_le {n : ℕ} {T : ℕ → ℕ → K} (hT : ∀ i j, i < n → j < n → T i j = T j i) (h0 : ∀ i j, i < n → j < n → 0 ≤ T i j) {S D : ℕ → K} (hS : ∀ i, i < n → 0 < S i) (hD : ∀ i, i < n → 0 ≤ D i)
    {H : K} {old x : ℕ → K} (hx : ∀ i, i < n → ∑ j ∈ range n, T i j * (x j - x i) + D i * (H - x i) = S i * (x i - old i)) {φ : K → K} (hφ : ConvexOn K Set.univ φ)
    (hH : (∀ i, i < n → D i = 0) ∨ ∀ y, φ H ≤ φ y) : ∑ i ∈ range n, S i * φ (x i) ≤ ∑ i ∈ range n, S i * φ (old i) := by
  obtain ⟨P, p1, p2, p3, p4, p5⟩ := weights hT h0 hS hD
  have p5 := p5 H old x hx
  have jensen : ∀ i, i < n → φ (x i) ≤ ∑ j ∈ range n, P i j * φ (old j) + (1 - ∑ j ∈ range n, P i j) * φ H := fun i hi => by
    have := hφ.map_sum_le (t := range (n + 1)) (w := fun j => if j < n then P i j else 1 - ∑ j ∈ range n, P i j) (p := fun j => if j < n then old j else H)
      (fun j _ => by
        split_ifs with h
        · exact p1 i j hi h
        · linarith [p2 i hi])
      (by rw [sum_range_succ, if_neg (lt_irrefl n), sum_congr rfl fun j hj => if_pos (mem_range.1 hj)]; ring) (fun _ _ => trivial)
    simp only [smul_eq_mul] at this
    rw [sum_range_succ, sum_range_succ, sum_congr rfl fun j hj => by rw [if_pos (mem_range.1 hj), if_pos (mem_range.1 hj)]] at this
    simp only [lt_irrefl, if_false] at this
    rw [← p5 i hi] at this
    refine this.trans (le_of_eq ?_)
    congr 1
    exact sum_congr rfl fun j hj => by rw [if_pos (mem_range.1 hj), if_pos (mem_range.1 hj)]
  -- how much more than at `H`
  obtain ⟨φ0, q1, q2⟩ : ∃ φ0, (∀ j, j < n → φ0 ≤ φ (old j)) ∧ ∀ i, i < n → φ (x i) - φ0 ≤ ∑ j ∈ range n, P i j * (φ (old j) - φ0) := by
    rcases hH with hz | hH
    · obtain ⟨φ0, hφ0⟩ : ∃ φ0, ∀ j, j < n → φ0 ≤ φ (old j) := by
        by_cases hn : (range n).Nonempty
        · obtain ⟨k, -, hk⟩ := exists_min_image (range n) (fun j => φ (old j)) hn
          exact ⟨φ (old k), fun j hj => hk j (mem_range.2 hj)⟩
        · exact ⟨0, fun j hj => absurd ⟨j, mem_range.2 hj⟩ hn⟩
      refine ⟨φ0, hφ0, fun i hi => ?_⟩
      have := jensen i hi
      rw [p3 hz i hi, sub_self, zero_mul, add_zero] at this
      have e : ∑ j ∈ range n, P i j * (φ (old j) - φ0) = ∑ j ∈ range n, P i j * φ (old j) - φ0 := by
        rw [show φ0 = (∑ j ∈ range n, P i j) * φ0 by rw [p3 hz i hi, one_mul], sum_mul, ← sum_sub_distrib, ← sum_mul, p3 hz i hi, one_mul]
        exact sum_congr rfl fun j _ => by ring
      rw [e]; linarith
    · refine ⟨φ H, fun j _ => hH _, fun i hi => ?_⟩
      have := jensen i hi
      have e : ∑ j ∈ range n, P i j * (φ (old j) - φ H) = ∑ j ∈ range n, P i j * φ (old j) - (∑ j ∈ range n, P i j) * φ H := by
        rw [sum_mul, ← sum_sub_distrib]; exact sum_congr rfl fun j _ => by ring
      rw [e]; linarith
  have s1 : ∑ i ∈ range n, S i * (φ (x i) - φ0) ≤ ∑ i ∈ range n, S i * ∑ j ∈ range n, P i j * (φ (old j) - φ0) :=
    sum_le_sum fun i hi => mul_le_mul_of_nonneg_left (q2 i (mem_range.1 hi)) (hS i (mem_range.1 hi)).le
  have s2 : ∑ i ∈ range n, S i * ∑ j ∈ range n, P i j * (φ (old j) - φ0) = ∑ j ∈ range n, (∑ i ∈ range n, S i * P i j) * (φ (old j) - φ0) := by
    simp only [mul_sum, sum_mul]
    rw [sum_comm]
    exact sum_congr rfl fun j _ => sum_congr rfl fun i _ => by ring
  have s3 : ∑ j ∈ range n, (∑ i ∈ range n, S i * P i j) * (φ (old j) - φ0) ≤ ∑ j ∈ range n, S j * (φ (old j) - φ0) :=
    sum_le_sum fun j hj => mul_le_mul_of_nonneg_right (p4 j (mem_range.1 hj)) (sub_nonneg.2 (q1 j (mem_range.1 hj)))
  have s4 : ∀ u : ℕ → K, ∑ i ∈ range n, S i * (u i - φ0) = ∑ i ∈ range n, S i * u i - ∑ i ∈ range n, S i * φ0 := fun u => by
    rw [← sum_sub_distrib]; exact sum_congr rfl fun i _ => by ring
  rw [s2] at s1
  have := s1.trans s3
  rw [s4 fun i => φ (x i), s4 fun i => φ (old i)] at this
  linarith

end RF.Net
