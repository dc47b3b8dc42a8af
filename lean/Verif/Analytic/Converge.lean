import Verif.Analytic.Modes
import Mathlib.Analysis.SpecialFunctions.Trigonometric.Sinc
/-!
# The implicit scheme converges to the Fourier series of the analytical solution

As the cells and the time steps become small, the closed form of `Verif.Analytic.Modes` tends to the limit of the series that `D1P1` truncates.
-/
namespace RF
noncomputable section
open Real Finset Filter Topology

/-- Term `m + 1` of the series of the analytical solution (`pD`). -/
def seriesTerm (pi pL pR tD xD : ℝ) (m : ℕ) : ℝ :=
  ((pi - pL) / ((m + 1 : ℕ) : ℝ) + (pR - pi) * (-1) ^ (m + 1) / ((m + 1 : ℕ) : ℝ)) * sin (((m + 1 : ℕ) : ℝ) * (π * xD)) * exp ((((m + 1 : ℕ) : ℝ) ^ 2) * (-π ^ 2 * tD))

/-- The exact solution at dimensionless time `tD` and position `xD`: the whole series. -/
def exactAt (pi pL pR tD xD : ℝ) : ℝ := pL + (pR - pL) * xD + 2 / π * ∑' m, seriesTerm pi pL pR tD xD m

variable {pi pL pR : ℝ}

lemma summable_sq : Summable fun m : ℕ => 1 / ((m + 1 : ℕ) : ℝ) ^ 2 :=
  (summable_nat_add_iff 1).2 (Real.summable_one_div_nat_pow.2 one_lt_two)

lemma sign_bound (m : ℕ) : |(pi - pL) + (pR - pi) * (-1) ^ m| ≤ |pi - pL| + |pR - pi| := by
  refine (abs_add_le _ _).trans (add_le_add_right ?_ _)
  rw [abs_mul, abs_pow, abs_neg, abs_one, one_pow, mul_one]

lemma seriesTerm_bound {tD : ℝ} (ht : 0 < tD) (xD : ℝ) (m : ℕ) : ‖seriesTerm pi pL pR tD xD m‖ ≤ (|pi - pL| + |pR - pi|) / (π ^ 2 * tD) * (1 / ((m + 1 : ℕ) : ℝ) ^ 2) := by
  have hm : (1 : ℝ) ≤ ((m + 1 : ℕ) : ℝ) := by exact_mod_cast Nat.succ_pos m
  have hC := sign_bound (pi := pi) (pL := pL) (pR := pR) (m + 1)
  set M := ((m + 1 : ℕ) : ℝ) with hM
  have hM0 : 0 < M := by linarith
  have hz : 0 < M ^ 2 * (π ^ 2 * tD) := by positivity
  have he : exp (M ^ 2 * (-π ^ 2 * tD)) ≤ 1 / (M ^ 2 * (π ^ 2 * tD)) := by
    rw [show M ^ 2 * (-π ^ 2 * tD) = -(M ^ 2 * (π ^ 2 * tD)) by ring, exp_neg, ← one_div]
    exact one_div_le_one_div_of_le hz (by linarith [add_one_le_exp (M ^ 2 * (π ^ 2 * tD))])
  have h1 : |(pi - pL) / M + (pR - pi) * (-1) ^ (m + 1) / M| ≤ |pi - pL| + |pR - pi| := by
    rw [← add_div, abs_div, abs_of_pos hM0]
    exact (div_le_self (abs_nonneg _) hm).trans hC
  unfold seriesTerm
  rw [norm_eq_abs, abs_mul, abs_mul, abs_of_pos (exp_pos _)]
  calc |(pi - pL) / M + (pR - pi) * (-1) ^ (m + 1) / M| * |sin (M * (π * xD))| * exp (M ^ 2 * (-π ^ 2 * tD))
      ≤ (|pi - pL| + |pR - pi|) * 1 * (1 / (M ^ 2 * (π ^ 2 * tD))) := by
        gcongr
        exact abs_sin_le_one _
    _ = (|pi - pL| + |pR - pi|) / (π ^ 2 * tD) * (1 / M ^ 2) := by field_simp

lemma seriesTerm_summable {tD : ℝ} (ht : 0 < tD) (xD : ℝ) : Summable (seriesTerm pi pL pR tD xD) :=
  .of_norm_bounded (summable_sq.mul_left _) (seriesTerm_bound ht xD)

/-- The truncated series of the analytical solution tends to the exact solution as more terms are kept. -/
theorem pD_tendsto_exact {tD : ℝ} (ht : 0 < tD) (xD : ℝ) : Tendsto (fun N => pD N pi pL pR tD xD) atTop (𝓝 (exactAt pi pL pR tD xD)) :=
  ((seriesTerm_summable ht xD).hasSum.tendsto_sum_nat.const_mul _).const_add _

/-! ### limits of the modes -/

variable {ι : Type} {l : Filter ι} {n t i : ι → ℕ} {r : ι → ℝ} {x τ : ℝ}

lemma tendsto_nat_sin (hn : Tendsto n l atTop) {c : ℝ} (hc : c ≠ 0) : Tendsto (fun j => (n j : ℝ) * sin (c / n j)) l (𝓝 c) := by
  have hn' : Tendsto (fun j => (n j : ℝ)) l atTop := tendsto_natCast_atTop_atTop.comp hn
  have h0 : Tendsto (fun j => c / (n j : ℝ)) l (𝓝 0) := hn'.const_div_atTop c
  have hs : Tendsto (fun j => c * sinc (c / n j)) l (𝓝 (c * sinc 0)) := ((continuous_sinc.tendsto 0).comp h0).const_mul c
  rw [sinc_zero, mul_one] at hs
  refine hs.congr' ?_
  filter_upwards [hn'.eventually_gt_atTop 0] with j hj
  rw [sinc_of_ne_zero (div_ne_zero hc hj.ne')]
  field_simp

lemma mode_arg (N m : ℕ) : (m : ℝ) * (π / (2 * N)) = m * (π / 2) / N := by
  rcases eq_or_ne (N : ℝ) 0 with h | h
  · simp [h]
  · field_simp

lemma tendsto_modeAmp (hn : Tendsto n l atTop) (m : ℕ) :
    Tendsto (fun j => modeAmp (n j) pi pL pR (m + 1)) l (𝓝 (2 / π * ((pi - pL) / ((m + 1 : ℕ) : ℝ) + (pR - pi) * (-1) ^ (m + 1) / ((m + 1 : ℕ) : ℝ)))) := by
  have hm : ((m + 1 : ℕ) : ℝ) ≠ 0 := by positivity
  have hc : ((m + 1 : ℕ) : ℝ) * (π / 2) ≠ 0 := by positivity
  have h := (tendsto_const_nhds (x := (pi - pL) + (pR - pi) * (-1) ^ (m + 1)) (f := l)).div (tendsto_nat_sin hn hc) hc
  have e : ((pi - pL) + (pR - pi) * (-1) ^ (m + 1)) / (((m + 1 : ℕ) : ℝ) * (π / 2)) = 2 / π * ((pi - pL) / ((m + 1 : ℕ) : ℝ) + (pR - pi) * (-1) ^ (m + 1) / ((m + 1 : ℕ) : ℝ)) := by
    field_simp
  rw [e] at h
  refine h.congr' ?_
  filter_upwards [hn.eventually_gt_atTop (m + 1)] with j hj
  unfold modeAmp modeWeight
  rw [if_neg (by omega), one_mul, mode_arg]; rfl

/-- `(1 + y)^t → exp z` when `t y → z` and `y → 0` through non-negative values. -/
lemma tendsto_pow_exp {y : ι → ℝ} {z : ℝ} (h0 : ∀ j, 0 ≤ y j) (hy : Tendsto y l (𝓝 0)) (hz : Tendsto (fun j => (t j : ℝ) * y j) l (𝓝 z)) :
    Tendsto (fun j => (1 + y j) ^ t j) l (𝓝 (exp z)) := by
  have hlow : Tendsto (fun j => (t j : ℝ) * y j / (1 + y j)) l (𝓝 z) := by
    have := hz.div (hy.const_add 1) (by norm_num)
    rw [add_zero, div_one] at this
    exact this
  have hlog : Tendsto (fun j => (t j : ℝ) * log (1 + y j)) l (𝓝 z) := by
    refine tendsto_of_tendsto_of_tendsto_of_le_of_le hlow hz (fun j => ?_) (fun j => ?_)
    · have hp : 0 < 1 + y j := by linarith [h0 j]
      have := one_sub_inv_le_log_of_pos hp
      have e : 1 - (1 + y j)⁻¹ = y j / (1 + y j) := by field_simp; ring
      simp only
      rw [mul_div_assoc, ← e]
      exact mul_le_mul_of_nonneg_left this (Nat.cast_nonneg _)
    · have hp : 0 < 1 + y j := by linarith [h0 j]
      exact mul_le_mul_of_nonneg_left (by linarith [log_le_sub_one_of_pos hp]) (Nat.cast_nonneg _)
  refine ((continuous_exp.tendsto z).comp hlog).congr fun j => ?_
  have hp : 0 < 1 + y j := by linarith [h0 j]
  simp only [Function.comp]
  rw [mul_comm, exp_mul, exp_log hp, rpow_natCast]

lemma tendsto_modeFactor (hn : Tendsto n l atTop) (hr : ∀ j, 0 ≤ r j) (ht : Tendsto (fun j => (t j : ℝ) * (r j / (n j : ℝ) ^ 2)) l (𝓝 τ))
    (hd : Tendsto (fun j => r j / (n j : ℝ) ^ 2) l (𝓝 0)) (m : ℕ) :
    Tendsto (fun j => modeFactor (n j) (r j) (m + 1) ^ t j) l (𝓝 (exp (((m + 1 : ℕ) : ℝ) ^ 2 * (π ^ 2 * τ)))) := by
  have hc : ((m + 1 : ℕ) : ℝ) * (π / 2) ≠ 0 := by positivity
  have hs := (tendsto_nat_sin hn hc).pow 2
  have key : ∀ᶠ j in l, 4 * r j * sin ((m + 1 : ℕ) * (π / (2 * (n j : ℝ)))) ^ 2 = 4 * (r j / (n j : ℝ) ^ 2) * ((n j : ℝ) * sin (((m + 1 : ℕ) : ℝ) * (π / 2) / n j)) ^ 2 := by
    filter_upwards [hn.eventually_gt_atTop 0] with j hj
    have : (n j : ℝ) ≠ 0 := by positivity
    rw [mode_arg]; field_simp
  unfold modeFactor
  refine tendsto_pow_exp (fun j => by have := hr j; positivity) ?_ ?_
  · have := (hd.const_mul 4).mul hs
    simp only [mul_zero, zero_mul] at this
    exact this.congr' (key.mono fun j h => h.symm)
  · have := (ht.const_mul 4).mul hs
    rw [show 4 * τ * (((m + 1 : ℕ) : ℝ) * (π / 2)) ^ 2 = ((m + 1 : ℕ) : ℝ) ^ 2 * (π ^ 2 * τ) by ring] at this
    refine this.congr' (key.mono fun j h => ?_)
    beta_reduce
    rw [h]; ring

/-- What a mode contributes is at most a constant over its number squared. -/
lemma mode_bound {N : ℕ} {ρ σ : ℝ} {T : ℕ} (hρ : 0 ≤ ρ) (hσ : 0 < σ) (hT : σ ≤ T * (ρ / (N : ℝ) ^ 2)) {m : ℕ} (hm : m < N) (z : ℝ) :
    ‖modeAmp N pi pL pR (m + 1) * sin z / modeFactor N ρ (m + 1) ^ T‖ ≤ (|pi - pL| + |pR - pi|) / (4 * σ) * (1 / ((m + 1 : ℕ) : ℝ) ^ 2) := by
  have hN : (0 : ℝ) < N := by exact_mod_cast (by omega : 0 < N)
  have hM : (1 : ℝ) ≤ ((m + 1 : ℕ) : ℝ) := by exact_mod_cast Nat.succ_pos m
  have hMN : ((m + 1 : ℕ) : ℝ) ≤ N := by exact_mod_cast hm
  have hC := sign_bound (pi := pi) (pL := pL) (pR := pR) (m + 1)
  have hw : |modeWeight N (m + 1)| ≤ 1 := by unfold modeWeight; split_ifs <;> norm_num
  have hF := modeFactor_pos (n := N) hρ (m + 1)
  have hsin : ((m + 1 : ℕ) : ℝ) / N ≤ sin ((m + 1 : ℕ) * (π / (2 * N))) := by
    have h1 : 0 ≤ ((m + 1 : ℕ) : ℝ) * (π / (2 * N)) := by positivity
    have h2 : ((m + 1 : ℕ) : ℝ) * (π / (2 * N)) ≤ π / 2 := by
      rw [mode_arg, div_le_iff₀ hN]; nlinarith [pi_pos]
    have := mul_le_sin h1 h2
    refine le_trans (le_of_eq ?_) this
    field_simp
  have hpow : 4 * σ * ((m + 1 : ℕ) : ℝ) ^ 2 ≤ modeFactor N ρ (m + 1) ^ T := by
    have hb : 1 + (T : ℝ) * (4 * ρ * sin ((m + 1 : ℕ) * (π / (2 * N))) ^ 2) ≤ modeFactor N ρ (m + 1) ^ T :=
      one_add_mul_le_pow (by have : 0 ≤ 4 * ρ * sin ((m + 1 : ℕ) * (π / (2 * N))) ^ 2 := by positivity
                             linarith) T
    have hsq : (((m + 1 : ℕ) : ℝ) / N) ^ 2 ≤ sin ((m + 1 : ℕ) * (π / (2 * N))) ^ 2 := pow_le_pow_left₀ (by positivity) hsin 2
    have h3 : (T : ℝ) * (4 * ρ * (((m + 1 : ℕ) : ℝ) / N) ^ 2) ≤ T * (4 * ρ * sin ((m + 1 : ℕ) * (π / (2 * N))) ^ 2) := by gcongr
    have h4 : (T : ℝ) * (4 * ρ * (((m + 1 : ℕ) : ℝ) / N) ^ 2) = 4 * (T * (ρ / (N : ℝ) ^ 2)) * ((m + 1 : ℕ) : ℝ) ^ 2 := by field_simp
    have h5 : 4 * σ * ((m + 1 : ℕ) : ℝ) ^ 2 ≤ 4 * (T * (ρ / (N : ℝ) ^ 2)) * ((m + 1 : ℕ) : ℝ) ^ 2 := by gcongr
    linarith
  have hns : (1 : ℝ) ≤ N * sin ((m + 1 : ℕ) * (π / (2 * N))) := by
    have := mul_le_mul_of_nonneg_left hsin hN.le
    rw [mul_div_cancel₀ _ hN.ne'] at this
    linarith
  have hA : |modeAmp N pi pL pR (m + 1)| ≤ |pi - pL| + |pR - pi| := by
    unfold modeAmp
    rw [abs_div, abs_mul, abs_of_pos (show 0 < (N : ℝ) * sin ((m + 1 : ℕ) * (π / (2 * N))) by linarith)]
    refine (div_le_self (by positivity) hns).trans ?_
    calc _ ≤ 1 * |(pi - pL) + (pR - pi) * (-1) ^ (m + 1)| := by gcongr
      _ ≤ _ := by rw [one_mul]; exact hC
  rw [norm_eq_abs, abs_div, abs_mul, abs_of_pos (pow_pos hF T)]
  calc |modeAmp N pi pL pR (m + 1)| * |sin z| / modeFactor N ρ (m + 1) ^ T
      ≤ (|pi - pL| + |pR - pi|) * 1 / (4 * σ * ((m + 1 : ℕ) : ℝ) ^ 2) := by
        gcongr
        exact abs_sin_le_one _
    _ = _ := by field_simp

/-- Refining cells and time steps together, in any way, the scheme tends to the exact solution. -/
theorem scheme_tendsto_exact (hn : Tendsto n l atTop) (hr : ∀ j, 0 ≤ r j) (hτ : 0 < τ) (ht : Tendsto (fun j => (t j : ℝ) * (r j / (n j : ℝ) ^ 2)) l (𝓝 τ))
    (hd : Tendsto (fun j => r j / (n j : ℝ) ^ 2) l (𝓝 0)) (hx : Tendsto (fun j => ((i j : ℝ) + 1 / 2) / n j) l (𝓝 x)) :
    Tendsto (fun j => scheme (n j) (r j) pi pL pR (t j) (i j)) l (𝓝 (exactAt pi pL pR τ x)) := by
  unfold scheme schemeAt exactAt
  refine ((hx.const_mul _).const_add _).add ?_
  rw [← tsum_mul_left]
  set f : ι → ℕ → ℝ := fun j m => if m < n j then modeAmp (n j) pi pL pR (m + 1) * sin ((m + 1 : ℕ) * (π * (((i j : ℝ) + 1 / 2) / n j))) / modeFactor (n j) (r j) (m + 1) ^ t j else 0 with hf
  have hsum : ∀ j, ∑ m ∈ range (n j), modeAmp (n j) pi pL pR (m + 1) * sin ((m + 1 : ℕ) * (π * (((i j : ℝ) + 1 / 2) / n j))) / modeFactor (n j) (r j) (m + 1) ^ t j = ∑' m, f j m := fun j => by
    rw [tsum_eq_sum (s := range (n j)) fun m hm => if_neg (by simpa using hm)]
    exact sum_congr rfl fun m hm => (if_pos (mem_range.1 hm)).symm
  simp only [hsum]
  refine tendsto_tsum_of_dominated_convergence (bound := fun m => (|pi - pL| + |pR - pi|) / (4 * (τ / 2)) * (1 / ((m + 1 : ℕ) : ℝ) ^ 2)) (summable_sq.mul_left _) (fun m => ?_) ?_
  · have h1 := tendsto_modeAmp (pi := pi) (pL := pL) (pR := pR) hn m
    have h2 := ((continuous_sin.tendsto _).comp ((hx.const_mul π).const_mul ((m + 1 : ℕ) : ℝ)))
    have h3 := tendsto_modeFactor hn hr ht hd m
    have h := (h1.mul h2).div h3 (exp_pos _).ne'
    have e : 2 / π * seriesTerm pi pL pR τ x m = 2 / π * ((pi - pL) / ((m + 1 : ℕ) : ℝ) + (pR - pi) * (-1) ^ (m + 1) / ((m + 1 : ℕ) : ℝ)) * sin (((m + 1 : ℕ) : ℝ) * (π * x)) /
        exp (((m + 1 : ℕ) : ℝ) ^ 2 * (π ^ 2 * τ)) := by
      unfold seriesTerm
      rw [show ((m + 1 : ℕ) : ℝ) ^ 2 * (-π ^ 2 * τ) = -(((m + 1 : ℕ) : ℝ) ^ 2 * (π ^ 2 * τ)) by ring, exp_neg]
      ring
    rw [e]
    refine h.congr' ?_
    filter_upwards [hn.eventually_gt_atTop m] with j hj
    simp only [hf, if_pos hj, Function.comp, Pi.div_apply, Pi.mul_apply]
  · filter_upwards [ht.eventually (le_mem_nhds (show τ / 2 < τ by linarith))] with j hj m
    simp only [hf]
    split_ifs with hm
    · exact mode_bound (hr j) (by linarith) hj hm _
    · rw [norm_zero]; positivity

/-- For a fixed number of cells the pressures settle on the straight line between the pressures of the two end faces. -/
theorem scheme_tendsto_steady {N : ℕ} {ρ : ℝ} (hρ : 0 < ρ) (c : ℕ) :
    Tendsto (fun T => scheme N ρ pi pL pR T c) atTop (𝓝 (pL + (pR - pL) * (((c : ℝ) + 1 / 2) / N))) := by
  unfold scheme schemeAt
  have h : Tendsto (fun T => ∑ m ∈ range N, modeAmp N pi pL pR (m + 1) * sin ((m + 1 : ℕ) * (π * (((c : ℝ) + 1 / 2) / N))) / modeFactor N ρ (m + 1) ^ T) atTop (𝓝 (∑ m ∈ range N, 0)) := by
    refine tendsto_finsetSum _ fun m hm => ?_
    refine Tendsto.const_div_atTop (tendsto_pow_atTop_atTop_of_one_lt ?_) _
    have := sin_mode_pos (n := N) (Nat.succ_pos m) (mem_range.1 hm)
    unfold modeFactor
    have : 0 < 4 * ρ * sin ((m + 1 : ℕ) * (π / (2 * N))) ^ 2 := by positivity
    linarith
  rw [sum_const_zero] at h
  simpa using h.const_add (pL + (pR - pL) * (((c : ℝ) + 1 / 2) / N))

end
end RF
