import Verif.Fdm.Linear
/-!
# One barrier for all networks with nearly the same conductances

In a network where every node is connected to a leak there are potentials whose net inflow is at most -1 at every node, for these conductances and for all others that differ from them by a factor of at
most two. (Used for C93.)
-/
set_option linter.unusedSectionVars false
namespace RF.Net
open Finset

variable {K : Type} [Field K] [LinearOrder K] [IsStrictOrderedRing K]

lemma positive_bound {α : Type} (f : α → K) (l : List α) : ∃ t, 0 < t ∧ ∀ a, a ∈ l → 0 < f a → t ≤ f a := by
  induction l with
  | nil => exact ⟨1, one_pos, by simp⟩
  | cons a l ih =>
    obtain ⟨t, h0, h⟩ := ih
    by_cases ha : 0 < f a
    · refine ⟨min t (f a), lt_min h0 ha, fun b hb hf => ?_⟩
      rcases List.mem_cons.1 hb with rfl | hb
      · exact min_le_right _ _
      · exact (min_le_left _ _).trans (h b hb hf)
    · refine ⟨t, h0, fun b hb hf => ?_⟩
      rcases List.mem_cons.1 hb with rfl | hb
      · exact absurd hf ha
      · exact h b hb hf

lemma upper_bound {α : Type} (f : α → K) (l : List α) : ∃ t, 0 ≤ t ∧ ∀ a, a ∈ l → f a ≤ t := by
  induction l with
  | nil => exact ⟨0, le_rfl, by simp⟩
  | cons a l ih =>
    obtain ⟨t, h0, h⟩ := ih
    refine ⟨max t (f a), h0.trans (le_max_left _ _), fun b hb => ?_⟩
    rcases List.mem_cons.1 hb with rfl | hb
    · exact le_max_right _ _
    · exact (h b hb).trans (le_max_left _ _)

variable {n : ℕ} {T : ℕ → ℕ → K} {D : ℕ → K}

/-- A node numbering in which every node without a leak has a neighbour with a smaller number. -/
lemma Leaky.rank (h : Leaky n T D) : ∃ r : ℕ → ℕ, ∀ i, i < n → r i ≤ n ∧ (0 < D i ∨ ∃ k, k < n ∧ k ≠ i ∧ 0 < T i k ∧ r k < r i) := by
  obtain ⟨z, hz⟩ := exists_inflow h fun _ => -1
  refine ⟨fun i => ((range n).filter fun j => z j < z i).card, fun i hi => ⟨(card_filter_le _ _).trans (card_range n).le, ?_⟩⟩
  by_contra hno
  push Not at hno
  have hd : D i = 0 := le_antisymm hno.1 (h.d i hi)
  have h1 := hz i hi
  unfold inflow at h1
  rw [hd, zero_mul, sub_zero] at h1
  have : 0 ≤ ∑ j ∈ range n, T i j * (z j - z i) := sum_nonneg fun j hj => by
    have hj := mem_range.1 hj
    by_cases hji : j = i
    · rw [hji, sub_self, mul_zero]
    · rcases (h.t i j hi hj (Ne.symm hji)).lt_or_eq with ht | ht
      · refine mul_nonneg ht.le (sub_nonneg.2 ?_)
        by_contra hlt
        push Not at hlt
        have := hno.2 j hj hji ht
        refine absurd (card_lt_card ?_) (not_lt.2 this)
        refine ⟨fun x hx => ?_, fun hs => ?_⟩
        · rw [mem_filter] at hx ⊢
          exact ⟨hx.1, hx.2.trans hlt⟩
        · have := hs (mem_filter.2 ⟨mem_range.2 hj, hlt⟩)
          exact lt_irrefl _ (mem_filter.1 this).2
      · rw [← ht, zero_mul]
  linarith

/-- Potentials with net inflows of at most -1 in all networks that differ by a factor of at most two. -/
theorem Leaky.barrier (h : Leaky n T D) : ∃ (z : ℕ → K) (Z : K), 0 ≤ Z ∧ (∀ i, i < n → 0 ≤ z i ∧ z i ≤ Z) ∧
    ∀ (T' : ℕ → ℕ → K) (D' : ℕ → K), (∀ i j, i < n → j < n → i ≠ j → T i j ≤ 2 * T' i j ∧ T' i j ≤ 2 * T i j) → (∀ i, i < n → D i ≤ 2 * D' i) →
      ∀ i, i < n → ∑ j ∈ range n, T' i j * (z j - z i) + 1 ≤ D' i * z i := by
  obtain ⟨r, hr⟩ := h.rank
  obtain ⟨t1, p1, h1⟩ := positive_bound (fun q : ℕ × ℕ => T q.1 q.2) (List.range n ×ˢ List.range n)
  obtain ⟨t2, p2, h2⟩ := positive_bound D (List.range n)
  obtain ⟨L, hL0, hL⟩ := upper_bound (fun q : ℕ × ℕ => T q.1 q.2) (List.range n ×ˢ List.range n)
  replace hL : ∀ i j, i < n → j < n → T i j ≤ L := fun i j hi hj => hL (i, j) (by simp [hi, hj])
  obtain ⟨τ, hτ, hT, hD⟩ : ∃ τ, 0 < τ ∧ (∀ i j, i < n → j < n → 0 < T i j → τ ≤ T i j) ∧ ∀ i, i < n → 0 < D i → τ ≤ D i :=
    ⟨min t1 t2, lt_min p1 p2, fun i j hi hj ht => (min_le_left _ _).trans (h1 (i, j) (by simp [hi, hj]) ht), fun i hi hd => (min_le_right _ _).trans (h2 i (by simpa using hi) hd)⟩
  have hn0 : (0 : K) ≤ n := Nat.cast_nonneg n
  have hnL : 0 ≤ (n : K) * L := mul_nonneg hn0 hL0
  obtain ⟨θ, hθ0, hθ1, hθ⟩ : ∃ θ : K, 0 < θ ∧ θ ≤ 1 ∧ θ * (τ / 2 + 2 * (n * L)) ≤ τ / 4 := by
    refine ⟨τ / (2 * τ + 8 * (n * L)), by positivity, ?_, le_of_eq ?_⟩
    · rw [div_le_one (by positivity)]; linarith
    · rw [div_mul_eq_mul_div, div_eq_iff (by positivity)]; ring
  have hp0 : ∀ k : ℕ, 0 < θ ^ k := fun k => pow_pos hθ0 k
  have hp1 : ∀ k : ℕ, θ ^ k ≤ 1 := fun k => pow_le_one₀ hθ0.le hθ1
  set B : K := 4 / (τ * θ ^ n) with hB
  have hB0 : 0 < B := by rw [hB]; have := hp0 n; positivity
  have hBn : B * θ ^ n * (τ / 4) = 1 := by
    have := (hp0 n).ne'
    rw [hB]; field_simp
  set A : K := B + (1 + n * (2 * L * B)) * (2 / τ) with hA
  have hAB : B ≤ A := by
    rw [hA]
    have : 0 ≤ (1 + n * (2 * L * B)) * (2 / τ) := by positivity
    linarith
  refine ⟨fun i => A - B * θ ^ r i, A, hB0.le.trans hAB, fun i hi => ⟨?_, ?_⟩, fun T' D' hT' hD' i hi => ?_⟩
  · have := mul_le_mul_of_nonneg_left (hp1 (r i)) hB0.le
    dsimp only; linarith
  · have := mul_pos hB0 (hp0 (r i))
    dsimp only; linarith
  · have e : ∀ j, A - B * θ ^ r j - (A - B * θ ^ r i) = B * (θ ^ r i - θ ^ r j) := fun j => by ring
    have up : ∀ j, j < n → T' i j * (A - B * θ ^ r j - (A - B * θ ^ r i)) ≤ 2 * L * (B * θ ^ r i) := fun j hj => by
      have pos : 0 ≤ 2 * L * (B * θ ^ r i) := by have := hp0 (r i); positivity
      by_cases hji : i = j
      · rw [← hji, sub_self, mul_zero]; exact pos
      · obtain ⟨a1, a2⟩ := hT' i j hi hj hji
        have t0 := h.t i j hi hj hji
        have b0 : 0 ≤ T' i j := by linarith
        have b1 : T' i j ≤ 2 * L := by linarith [hL i j hi hj]
        rw [e]
        have c1 : B * (θ ^ r i - θ ^ r j) ≤ B * θ ^ r i := mul_le_mul_of_nonneg_left (by linarith [hp0 (r j)]) hB0.le
        refine (mul_le_mul_of_nonneg_left c1 b0).trans (mul_le_mul_of_nonneg_right b1 ?_)
        have := hp0 (r i); positivity
    dsimp only
    rcases (hr i hi).2 with hd | ⟨k, hk, hki, ht, hlt⟩
    · have s1 : ∑ j ∈ range n, T' i j * (A - B * θ ^ r j - (A - B * θ ^ r i)) ≤ n * (2 * L * B) := by
        have := sum_le_sum (s := range n) fun j hj => up j (mem_range.1 hj)
        rw [sum_const, card_range, nsmul_eq_mul] at this
        refine this.trans (mul_le_mul_of_nonneg_left (mul_le_mul_of_nonneg_left ?_ (by linarith)) hn0)
        exact (mul_le_mul_of_nonneg_left (hp1 _) hB0.le).trans (mul_one B).le
      have d1 : τ / 2 ≤ D' i := by linarith [hD i hi hd, hD' i hi]
      have d2 : (1 + n * (2 * L * B)) * (2 / τ) ≤ A - B * θ ^ r i := by
        have := (mul_le_mul_of_nonneg_left (hp1 (r i)) hB0.le).trans (mul_one B).le
        rw [hA]; linarith
      have d3 : τ / 2 * ((1 + n * (2 * L * B)) * (2 / τ)) ≤ D' i * (A - B * θ ^ r i) := mul_le_mul d1 d2 (by positivity) (by linarith)
      have d4 : τ / 2 * ((1 + n * (2 * L * B)) * (2 / τ)) = 1 + n * (2 * L * B) := by field_simp
      linarith
    · have hrk : θ ^ r i ≤ θ * θ ^ r k := by
        rw [← pow_succ']
        exact pow_le_pow_of_le_one hθ0.le hθ1 hlt
      have hkp := hp0 (r k)
      have k1 : T' i k * (A - B * θ ^ r k - (A - B * θ ^ r i)) ≤ -(τ / 2 * (B * θ ^ r k * (1 - θ))) := by
        have b1 : τ / 2 ≤ T' i k := by linarith [(hT' i k hi hk (Ne.symm hki)).1, hT i k hi hk ht]
        have c1 : B * θ ^ r k * (1 - θ) ≤ B * (θ ^ r k - θ ^ r i) := by
          rw [mul_assoc]
          refine mul_le_mul_of_nonneg_left ?_ hB0.le
          linarith
        have c2 : 0 ≤ B * θ ^ r k * (1 - θ) := mul_nonneg (mul_pos hB0 hkp).le (by linarith)
        have := mul_le_mul b1 c1 c2 (by linarith)
        rw [e]
        linarith
      have u2 : ∀ j, j < n → T' i j * (A - B * θ ^ r j - (A - B * θ ^ r i)) ≤ (if j = k then -(τ / 2 * (B * θ ^ r k * (1 - θ))) else 0) + 2 * L * (B * (θ * θ ^ r k)) := fun j hj => by
        have c0 : 0 ≤ 2 * L * (B * (θ * θ ^ r k)) := by positivity
        split_ifs with hjk
        · rw [hjk]; linarith
        · rw [zero_add]
          exact (up j hj).trans (mul_le_mul_of_nonneg_left (mul_le_mul_of_nonneg_left hrk hB0.le) (by linarith))
      have s1 := sum_le_sum (s := range n) fun j hj => u2 j (mem_range.1 hj)
      rw [sum_add_distrib, sum_ite_eq' (range n) k, if_pos (mem_range.2 hk), sum_const, card_range, nsmul_eq_mul] at s1
      have s2 : -(τ / 2 * (B * θ ^ r k * (1 - θ))) + n * (2 * L * (B * (θ * θ ^ r k))) = B * θ ^ r k * (θ * (τ / 2 + 2 * (n * L)) - τ / 2) := by ring
      have s3 : B * θ ^ r k * (θ * (τ / 2 + 2 * (n * L)) - τ / 2) ≤ B * θ ^ r k * (-(τ / 4)) := mul_le_mul_of_nonneg_left (by linarith) (mul_pos hB0 hkp).le
      have s4 : B * θ ^ n ≤ B * θ ^ r k := mul_le_mul_of_nonneg_left (pow_le_pow_of_le_one hθ0.le hθ1 ((hr k hk).1)) hB0.le
      have s5 := mul_le_mul_of_nonneg_right s4 (show 0 ≤ τ / 4 by linarith)
      have s6 : 0 ≤ D' i * (A - B * θ ^ r i) := by
        refine mul_nonneg (by linarith [h.d i hi, hD' i hi]) ?_
        have := (mul_le_mul_of_nonneg_left (hp1 (r i)) hB0.le).trans (mul_one B).le
        linarith
      linarith

end RF.Net
