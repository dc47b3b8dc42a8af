import Mathlib.Algebra.Order.BigOperators.Group.Finset
import Mathlib.Algebra.Order.Field.Basic
import Mathlib.Logic.Relation
import Mathlib.LinearAlgebra.FiniteDimensional.Lemmas
import Mathlib.LinearAlgebra.FiniteDimensional.Basic
import Mathlib.Tactic.Linarith
import Mathlib.Tactic.Ring
/-!
# Flow networks: connections, leaks and the comparison principle

`n` nodes with connection strengths `T i j` and leak strengths `D i`. The net inflow of node `i` at potentials `p` is
`Σ T i j (p j - p i) - D i p i`.
-/
namespace RF.Net
open Finset

variable {K : Type} [Field K]

/-- Net inflow of a node. -/
def inflow (n : ℕ) (T : ℕ → ℕ → K) (D : ℕ → K) (p : ℕ → K) (i : ℕ) : K :=
  ∑ j ∈ range n, T i j * (p j - p i) - D i * p i

variable [LinearOrder K] [IsStrictOrderedRing K]

/-- One step along a connection of positive strength. -/
def Link (n : ℕ) (T : ℕ → ℕ → K) (i j : ℕ) : Prop := j < n ∧ 0 < T i j

/-- Connections and leaks are not negative, and from every node a leaking node can be reached. -/
structure Leaky (n : ℕ) (T : ℕ → ℕ → K) (D : ℕ → K) : Prop where
  t : ∀ i j, i < n → j < n → i ≠ j → 0 ≤ T i j
  d : ∀ i, i < n → 0 ≤ D i
  reach : ∀ i, i < n → ∃ j, j < n ∧ Relation.ReflTransGen (Link n T) i j ∧ 0 < D j

variable {n : ℕ} {T : ℕ → ℕ → K} {D : ℕ → K}

lemma term_nonneg (ht : ∀ i j, i < n → j < n → i ≠ j → 0 ≤ T i j) {p : ℕ → K} {i : ℕ} (hi : i < n)
    (hmin : ∀ k, k < n → p i ≤ p k) : ∀ j ∈ range n, 0 ≤ T i j * (p j - p i) := by
  intro j hj
  rw [mem_range] at hj
  by_cases e : i = j
  · subst e; simp
  · exact mul_nonneg (ht i j hi hj e) (sub_nonneg.2 (hmin j hj))

/-- Comparison principle: if no node has a positive net inflow then no potential is negative. -/
theorem nonneg_of_inflow_nonpos (h : Leaky n T D) {p : ℕ → K} (hp : ∀ i, i < n → inflow n T D p i ≤ 0) :
    ∀ i, i < n → 0 ≤ p i := by
  intro i hi
  obtain ⟨i0, h0, hmin⟩ := exists_min_image (range n) p ⟨i, mem_range.2 hi⟩
  rw [mem_range] at h0
  have hmin' : ∀ k, k < n → p i0 ≤ p k := fun k hk => hmin k (mem_range.2 hk)
  refine le_trans ?_ (hmin' i hi)
  by_contra hneg
  push Not at hneg
  have key : ∀ k, k < n → p k = p i0 → D k = 0 ∧ ∀ j, Link n T k j → p j = p i0 := by
    intro k hk e
    have hs := hp k hk
    unfold inflow at hs
    have hnn : ∀ j ∈ range n, 0 ≤ T k j * (p j - p k) := term_nonneg h.t hk (fun j hj => e ▸ hmin' j hj)
    have h1 : 0 ≤ ∑ j ∈ range n, T k j * (p j - p k) := sum_nonneg hnn
    have h2 : 0 ≤ -(D k * p k) := by
      rw [e]; have := mul_nonneg (h.d k hk) (le_of_lt (neg_pos.2 hneg)); linarith [mul_neg (D k) (p i0)]
    have h3 : ∑ j ∈ range n, T k j * (p j - p k) = 0 := by linarith
    have h4 : D k * p k = 0 := by linarith
    refine ⟨?_, fun j hj => ?_⟩
    · rcases mul_eq_zero.1 h4 with z | z
      · exact z
      · rw [e] at z; exact absurd z (ne_of_lt hneg)
    · have := (sum_eq_zero_iff_of_nonneg hnn).1 h3 j (mem_range.2 hj.1)
      rcases mul_eq_zero.1 this with z | z
      · exact absurd z (ne_of_gt hj.2)
      · rw [← e]; exact sub_eq_zero.1 z
  obtain ⟨j, hj, hr, hD⟩ := h.reach i0 h0
  have hprop : ∀ k, Relation.ReflTransGen (Link n T) i0 k → k < n ∧ p k = p i0 := by
    intro k hk
    induction hk with
    | refl => exact ⟨h0, rfl⟩
    | tail _ hl ih => exact ⟨hl.1, (key _ ih.1 ih.2).2 _ hl⟩
  obtain ⟨-, e⟩ := hprop j hr
  exact absurd (key j hj e).1 (ne_of_gt hD)

lemma inflow_sub (p q : ℕ → K) (i : ℕ) :
    inflow n T D (fun j => p j - q j) i = inflow n T D p i - inflow n T D q i := by
  unfold inflow
  have : ∑ j ∈ range n, T i j * (p j - q j - (p i - q i)) =
      ∑ j ∈ range n, T i j * (p j - p i) - ∑ j ∈ range n, T i j * (q j - q i) := by
    rw [← sum_sub_distrib]; refine sum_congr rfl fun j _ => ?_; ring
  rw [this]; ring

/-- A smaller net inflow everywhere means larger potentials. -/
theorem le_of_inflow_le (h : Leaky n T D) {p q : ℕ → K} (hpq : ∀ i, i < n → inflow n T D q i ≤ inflow n T D p i) :
    ∀ i, i < n → p i ≤ q i := by
  have := nonneg_of_inflow_nonpos h (p := fun j => q j - p j) fun i hi => by
    rw [inflow_sub]; exact sub_nonpos.2 (hpq i hi)
  exact fun i hi => sub_nonneg.1 (this i hi)

/-- Potentials are determined by the net inflows. -/
theorem eq_of_inflow_eq (h : Leaky n T D) {p q : ℕ → K} (hpq : ∀ i, i < n → inflow n T D p i = inflow n T D q i) :
    ∀ i, i < n → p i = q i := fun i hi =>
  le_antisymm (le_of_inflow_le h (fun j hj => (hpq j hj).symm.le) i hi) (le_of_inflow_le h (fun j hj => (hpq j hj).le) i hi)

/-- Any net inflows are those of some potentials. -/
theorem exists_inflow (h : Leaky n T D) (b : ℕ → K) : ∃ p : ℕ → K, ∀ i, i < n → inflow n T D p i = b i := by
  let ext : (Fin n → K) → ℕ → K := fun x i => if hi : i < n then x ⟨i, hi⟩ else 0
  have e1 : ∀ x (j : Fin n), ext x j = x j := fun x j => by simp [ext]
  let f : (Fin n → K) →ₗ[K] (Fin n → K) :=
    { toFun := fun x i => inflow n T D (ext x) i
      map_add' := fun x y => by
        funext i
        simp only [inflow, Pi.add_apply]
        have : ∀ j, ext (x + y) j = ext x j + ext y j := fun j => by simp only [ext]; split_ifs <;> simp
        rw [show ∑ j ∈ range n, T i j * (ext (x + y) j - ext (x + y) i) =
          ∑ j ∈ range n, T i j * (ext x j - ext x i) + ∑ j ∈ range n, T i j * (ext y j - ext y i) by
            rw [← sum_add_distrib]; refine sum_congr rfl fun j _ => ?_; rw [this, this]; ring, this]
        ring
      map_smul' := fun k x => by
        funext i
        simp only [inflow, Pi.smul_apply, smul_eq_mul, RingHom.id_apply]
        have : ∀ j, ext (k • x) j = k * ext x j := fun j => by simp only [ext]; split_ifs <;> simp
        rw [show ∑ j ∈ range n, T i j * (ext (k • x) j - ext (k • x) i) =
          k * ∑ j ∈ range n, T i j * (ext x j - ext x i) by
            rw [mul_sum]; refine sum_congr rfl fun j _ => ?_; rw [this, this]; ring, this]
        ring }
  have inj : Function.Injective f := by
    intro x y hxy
    funext j
    have := eq_of_inflow_eq h (p := ext x) (q := ext y) (fun i hi => congrFun hxy ⟨i, hi⟩) j j.2
    rwa [e1, e1] at this
  obtain ⟨x, hx⟩ := LinearMap.injective_iff_surjective.1 inj (fun j => b j)
  exact ⟨ext x, fun i hi => congrFun hx ⟨i, hi⟩⟩

/-- The net inflows of a network with symmetric connections sum to minus the total leak. -/
theorem sum_inflow (n : ℕ) (T : ℕ → ℕ → K) (D p : ℕ → K) (hs : ∀ i j, T i j = T j i) :
    ∑ i ∈ range n, inflow n T D p i = -∑ i ∈ range n, D i * p i := by
  unfold inflow
  rw [sum_sub_distrib]
  have : ∑ i ∈ range n, ∑ j ∈ range n, T i j * (p j - p i) = 0 := by
    have h1 : ∑ i ∈ range n, ∑ j ∈ range n, T i j * (p j - p i) =
        ∑ i ∈ range n, ∑ j ∈ range n, T i j * p j - ∑ i ∈ range n, ∑ j ∈ range n, T i j * p i := by
      rw [← sum_sub_distrib]; refine sum_congr rfl fun i _ => ?_
      rw [← sum_sub_distrib]; refine sum_congr rfl fun j _ => ?_; ring
    rw [h1, sub_eq_zero, sum_comm]
    refine sum_congr rfl fun i _ => sum_congr rfl fun j _ => ?_
    rw [hs]
  rw [this]; ring
end RF.Net
