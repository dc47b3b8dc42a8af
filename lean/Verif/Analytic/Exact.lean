import Verif.Analytic.Converge
import Mathlib.Analysis.Calculus.SmoothSeries
/-!
# The limit of the series is the solution of the diffusion problem

`exactAt` satisfies the diffusion equation after the start, takes the given values at both ends, and tends to the initial value as time goes back to the start.
-/
namespace RF
noncomputable section
open Real Finset Filter Topology

variable {pi pL pR : ℝ}

/-- Coefficient of mode `m + 1`. -/
def seriesCoef (pi pL pR : ℝ) (m : ℕ) : ℝ := (pi - pL) / ((m + 1 : ℕ) : ℝ) + (pR - pi) * (-1) ^ (m + 1) / ((m + 1 : ℕ) : ℝ)

lemma seriesTerm_eq (t x : ℝ) (m : ℕ) : seriesTerm pi pL pR t x m = seriesCoef pi pL pR m * sin (((m + 1 : ℕ) : ℝ) * (π * x)) * exp ((((m + 1 : ℕ) : ℝ) ^ 2) * (-π ^ 2 * t)) := rfl

lemma seriesCoef_bound (m : ℕ) : |seriesCoef pi pL pR m| * ((m + 1 : ℕ) : ℝ) ≤ |pi - pL| + |pR - pi| := by
  have hm : (0 : ℝ) < ((m + 1 : ℕ) : ℝ) := by positivity
  unfold seriesCoef
  rw [← add_div, abs_div, abs_of_pos hm, div_mul_cancel₀ _ hm.ne']
  exact sign_bound (m + 1)

/-- Modes decay faster than any power: this is enough of it. -/
lemma decay {t τ : ℝ} (hτ : 0 < τ) (ht : τ ≤ t) (m : ℕ) : exp ((((m + 1 : ℕ) : ℝ) ^ 2) * (-π ^ 2 * t)) ≤ 2 / (π ^ 4 * τ ^ 2) * (1 / ((m + 1 : ℕ) : ℝ) ^ 4) := by
  set M := ((m + 1 : ℕ) : ℝ) with hM
  have hm : (0 : ℝ) < M := by positivity
  have h1 : exp (M ^ 2 * (-π ^ 2 * t)) ≤ exp (-(M ^ 2 * (π ^ 2 * τ))) := by
    apply exp_le_exp.2
    have : M ^ 2 * (π ^ 2 * τ) ≤ M ^ 2 * (π ^ 2 * t) := by gcongr
    linarith
  have hz : 0 < M ^ 2 * (π ^ 2 * τ) := by positivity
  have h2 : (M ^ 2 * (π ^ 2 * τ)) ^ 2 / 2 ≤ exp (M ^ 2 * (π ^ 2 * τ)) := by
    have := quadratic_le_exp_of_nonneg hz.le
    linarith
  refine h1.trans ?_
  rw [exp_neg, ← one_div]
  refine (one_div_le_one_div_of_le (by positivity) h2).trans (le_of_eq ?_)
  field_simp

lemma term_bound {t τ : ℝ} (hτ : 0 < τ) (ht : τ ≤ t) (m k : ℕ) (hk : k ≤ 2) (c s : ℝ) (hs : |s| ≤ 1) :
    ‖seriesCoef pi pL pR m * s * exp ((((m + 1 : ℕ) : ℝ) ^ 2) * (-π ^ 2 * t)) * (c * ((m + 1 : ℕ) : ℝ) ^ k)‖ ≤
      (|pi - pL| + |pR - pi|) * |c| * (2 / (π ^ 4 * τ ^ 2)) * (1 / ((m + 1 : ℕ) : ℝ) ^ 2) := by
  have hd := decay hτ ht m
  have hC := seriesCoef_bound (pi := pi) (pL := pL) (pR := pR) m
  set M := ((m + 1 : ℕ) : ℝ) with hM
  have hm : (1 : ℝ) ≤ M := by rw [hM]; exact_mod_cast Nat.succ_pos m
  have hM0 : 0 < M := by linarith
  have hA : |seriesCoef pi pL pR m| ≤ |pi - pL| + |pR - pi| := (le_mul_of_one_le_right (abs_nonneg _) hm).trans hC
  have hMk : M ^ k ≤ M ^ 2 := pow_le_pow_right₀ hm hk
  rw [norm_eq_abs, abs_mul, abs_mul, abs_mul, abs_of_pos (exp_pos _), abs_mul, abs_of_pos (pow_pos hM0 k)]
  calc |seriesCoef pi pL pR m| * |s| * exp (M ^ 2 * (-π ^ 2 * t)) * (|c| * M ^ k)
      ≤ (|pi - pL| + |pR - pi|) * 1 * (2 / (π ^ 4 * τ ^ 2) * (1 / M ^ 4)) * (|c| * M ^ 2) := by gcongr
    _ = _ := by field_simp

/-- Derivatives of the terms. -/
def termT (pi pL pR t x : ℝ) (m : ℕ) : ℝ :=
  seriesCoef pi pL pR m * sin (((m + 1 : ℕ) : ℝ) * (π * x)) * exp ((((m + 1 : ℕ) : ℝ) ^ 2) * (-π ^ 2 * t)) * (-π ^ 2 * ((m + 1 : ℕ) : ℝ) ^ 2)
def termX (pi pL pR t x : ℝ) (m : ℕ) : ℝ :=
  seriesCoef pi pL pR m * cos (((m + 1 : ℕ) : ℝ) * (π * x)) * exp ((((m + 1 : ℕ) : ℝ) ^ 2) * (-π ^ 2 * t)) * (π * ((m + 1 : ℕ) : ℝ) ^ 1)

lemma hasDeriv_termT (x t : ℝ) (m : ℕ) : HasDerivAt (fun t => seriesTerm pi pL pR t x m) (termT pi pL pR t x m) t := by
  have h1 : HasDerivAt (fun t : ℝ => (((m + 1 : ℕ) : ℝ) ^ 2) * (-π ^ 2 * t)) ((((m + 1 : ℕ) : ℝ) ^ 2) * -π ^ 2) t := by
    simpa using ((hasDerivAt_id t).const_mul (-π ^ 2)).const_mul ((((m + 1 : ℕ) : ℝ) ^ 2))
  refine (h1.exp.const_mul (seriesCoef pi pL pR m * sin (((m + 1 : ℕ) : ℝ) * (π * x)))).congr_deriv ?_
  unfold termT; ring

lemma hasDeriv_arg (x : ℝ) (m : ℕ) : HasDerivAt (fun x : ℝ => ((m + 1 : ℕ) : ℝ) * (π * x)) (((m + 1 : ℕ) : ℝ) * π) x := by
  simpa using ((hasDerivAt_id x).const_mul π).const_mul ((m + 1 : ℕ) : ℝ)

lemma hasDeriv_termX (t x : ℝ) (m : ℕ) : HasDerivAt (fun x => seriesTerm pi pL pR t x m) (termX pi pL pR t x m) x := by
  refine (((hasDeriv_arg x m).sin.const_mul (seriesCoef pi pL pR m)).mul_const (exp ((((m + 1 : ℕ) : ℝ) ^ 2) * (-π ^ 2 * t)))).congr_deriv ?_
  unfold termX; ring

lemma hasDeriv_termXX (t x : ℝ) (m : ℕ) : HasDerivAt (fun x => termX pi pL pR t x m) (termT pi pL pR t x m) x := by
  refine ((((hasDeriv_arg x m).cos.const_mul (seriesCoef pi pL pR m)).mul_const (exp ((((m + 1 : ℕ) : ℝ) ^ 2) * (-π ^ 2 * t)))).mul_const (π * ((m + 1 : ℕ) : ℝ) ^ 1)).congr_deriv ?_
  unfold termT; ring

lemma exact_hasDeriv_t {t : ℝ} (ht : 0 < t) (x : ℝ) : HasDerivAt (fun t => exactAt pi pL pR t x) (2 / π * ∑' m, termT pi pL pR t x m) t := by
  refine HasDerivAt.const_add _ (HasDerivAt.const_mul _ ?_)
  refine hasDerivAt_tsum_of_isPreconnected (t := Set.Ioi (t / 2)) (summable_sq.mul_left _) isOpen_Ioi isPreconnected_Ioi (fun m y _ => hasDeriv_termT x y m)
    (fun m y hy => term_bound (τ := t / 2) (by linarith) (le_of_lt hy) m 2 le_rfl _ _ (abs_sin_le_one _)) (y₀ := t) (by simp; linarith) (seriesTerm_summable ht x) (by simp; linarith)

lemma exact_hasDeriv_x {t : ℝ} (ht : 0 < t) (x : ℝ) : HasDerivAt (fun x => exactAt pi pL pR t x) (pR - pL + 2 / π * ∑' m, termX pi pL pR t x m) x := by
  have h0 : HasDerivAt (fun x : ℝ => pL + (pR - pL) * x) (pR - pL) x := by
    simpa using ((hasDerivAt_id x).const_mul (pR - pL)).const_add pL
  refine h0.add (HasDerivAt.const_mul _ ?_)
  exact hasDerivAt_tsum (summable_sq.mul_left _) (fun m y => hasDeriv_termX t y m) (fun m y => term_bound ht le_rfl m 1 one_le_two _ _ (abs_cos_le_one _)) (seriesTerm_summable ht x) x

lemma termX_summable {t : ℝ} (ht : 0 < t) (x : ℝ) : Summable (termX pi pL pR t x) :=
  .of_norm_bounded (summable_sq.mul_left _) fun m => term_bound ht le_rfl m 1 one_le_two _ _ (abs_cos_le_one _)

lemma exact_hasDeriv_xx {t : ℝ} (ht : 0 < t) (x : ℝ) : HasDerivAt (fun x => pR - pL + 2 / π * ∑' m, termX pi pL pR t x m) (2 / π * ∑' m, termT pi pL pR t x m) x := by
  refine HasDerivAt.const_add _ (HasDerivAt.const_mul _ ?_)
  exact hasDerivAt_tsum (summable_sq.mul_left _) (fun m y => hasDeriv_termXX t y m) (fun m y => term_bound ht le_rfl m 2 le_rfl _ _ (abs_sin_le_one _)) (termX_summable ht x) x

/-- The diffusion equation, in dimensionless time and place. -/
theorem exact_diffusion {t : ℝ} (ht : 0 < t) (x : ℝ) : deriv (fun t => exactAt pi pL pR t x) t = deriv (deriv fun x => exactAt pi pL pR t x) x := by
  have : deriv (fun x => exactAt pi pL pR t x) = fun x => pR - pL + 2 / π * ∑' m, termX pi pL pR t x m := funext fun x => (exact_hasDeriv_x ht x).deriv
  rw [(exact_hasDeriv_t ht x).deriv, this, (exact_hasDeriv_xx ht x).deriv]

theorem exact_left (t : ℝ) : exactAt pi pL pR t 0 = pL := by
  unfold exactAt seriesTerm; simp

theorem exact_right (t : ℝ) : exactAt pi pL pR t 1 = pR := by
  unfold exactAt seriesTerm
  simp only [mul_one, sin_nat_mul_pi, mul_zero, zero_mul, tsum_zero]; ring

/-! ### the start -/

/-- The scheme obeys a discrete maximum principle: near the start it has hardly moved, away from the ends, however the cells and steps are chosen. -/
lemma scheme_start {n : ℕ} (hn : 0 < n) {r : ℝ} (hr : 0 ≤ r) {y0 d : ℝ} (hd : 0 < d) (h0 : d ≤ y0) (h1 : y0 + d ≤ 1) (σ : ℝ) (hσ : σ = 1 ∨ σ = -1) (t : ℕ) : ∀ i, i < n →
    σ * (scheme n r pi pL pR t i - pi) ≤ max |pL - pi| |pR - pi| * (((((i : ℝ) + 1 / 2) / n - y0) ^ 2 + 2 * (t * (r / (n : ℝ) ^ 2))) / d ^ 2) := by
  have hn' : (0 : ℝ) < n := by exact_mod_cast hn
  set P := max |pL - pi| |pR - pi| with hP
  have hP0 : 0 ≤ P := (abs_nonneg _).trans (le_max_left _ _)
  have hσa : ∀ v : ℝ, σ * v ≤ |v| := fun v => by
    rcases hσ with rfl | rfl
    · rw [one_mul]; exact le_abs_self v
    · rw [neg_one_mul]; exact neg_le_abs v
  set D : ℕ → ℝ → ℝ := fun t y => P * ((((y + 1 / 2) / n - y0) ^ 2 + 2 * (t * (r / (n : ℝ) ^ 2))) / d ^ 2) - σ * (schemeAt n r pi pL pR t y - pi) with hD
  suffices h : ∀ t i, i < n → 0 ≤ D t (i : ℝ) by
    intro i hi
    have := h t i hi
    simp only [hD] at this
    unfold scheme
    linarith
  -- every step of `D` balances
  have hstep : ∀ (t : ℕ) (y : ℝ), r * (D (t + 1) (y - 1) - 2 * D (t + 1) y + D (t + 1) (y + 1)) = D (t + 1) y - D t y := by
    intro t y
    have e := schemeAt_step (pi := pi) (pL := pL) (pR := pR) hn hr t y
    simp only [hD]
    have e2 : r * (P * ((((y - 1 + 1 / 2) / n - y0) ^ 2 + 2 * ((t + 1 : ℕ) * (r / (n : ℝ) ^ 2))) / d ^ 2) - 2 * (P * ((((y + 1 / 2) / n - y0) ^ 2 + 2 * ((t + 1 : ℕ) * (r / (n : ℝ) ^ 2))) / d ^ 2)) +
        P * ((((y + 1 + 1 / 2) / n - y0) ^ 2 + 2 * ((t + 1 : ℕ) * (r / (n : ℝ) ^ 2))) / d ^ 2)) =
        P * ((((y + 1 / 2) / n - y0) ^ 2 + 2 * ((t + 1 : ℕ) * (r / (n : ℝ) ^ 2))) / d ^ 2) - P * ((((y + 1 / 2) / n - y0) ^ 2 + 2 * (t * (r / (n : ℝ) ^ 2))) / d ^ 2) := by
      push_cast
      field_simp
      ring
    linear_combination e2 - σ * e
  have hquad : ∀ (t : ℕ) (a b e : ℝ), (a + b) / 2 = e → d ^ 2 ≤ (e - y0) ^ 2 → 2 * P ≤ P * (((a - y0) ^ 2 + 2 * (t * (r / (n : ℝ) ^ 2))) / d ^ 2) + P * (((b - y0) ^ 2 + 2 * (t * (r / (n : ℝ) ^ 2))) / d ^ 2) := by
    intro t a b e hab he
    rw [← mul_add, ← add_div, mul_comm 2 P]
    refine mul_le_mul_of_nonneg_left ?_ hP0
    rw [le_div_iff₀ (by positivity)]
    have : 0 ≤ (t : ℝ) * (r / (n : ℝ) ^ 2) := by positivity
    subst hab
    nlinarith [sq_nonneg (a - b)]
  have hleft : ∀ t : ℕ, 0 ≤ D t (-1) + D t 0 := by
    intro t
    have e := schemeAt_left (n := n) (r := r) (pi := pi) (pL := pL) (pR := pR) t
    have q := hquad t ((-1 + 1 / 2) / n) ((0 + 1 / 2) / n) 0 (by ring) (by nlinarith)
    have hs := (hσa (pL - pi)).trans (le_max_left _ |pR - pi|)
    simp only [hD, e]
    rw [← hP] at hs
    linarith
  have hright : ∀ t : ℕ, 0 ≤ D t n + D t ((n : ℝ) - 1) := by
    intro t
    have e := schemeAt_right (r := r) (pi := pi) (pL := pL) (pR := pR) hn t
    have q := hquad t (((n : ℝ) + 1 / 2) / n) (((n : ℝ) - 1 + 1 / 2) / n) 1 (by field_simp; ring) (by nlinarith)
    have hs := (hσa (pR - pi)).trans (le_max_right |pL - pi| _)
    simp only [hD, e]
    rw [← hP] at hs
    linarith
  intro t
  induction t with
  | zero =>
    intro i hi
    have e := scheme_zero (r := r) (pi := pi) (pL := pL) (pR := pR) hn hi
    unfold scheme at e
    simp only [hD, e, sub_self, mul_zero, sub_zero, CharP.cast_eq_zero, zero_mul, add_zero]
    positivity
  | succ t ih =>
    by_contra hc
    push Not at hc
    obtain ⟨j, hj, hneg⟩ := hc
    obtain ⟨i, hi, hmin⟩ := Finset.exists_min_image (range n) (fun i : ℕ => D (t + 1) (i : ℝ)) ⟨j, mem_range.2 hj⟩
    have hi' := mem_range.1 hi
    have hlt : D (t + 1) (i : ℝ) < 0 := (hmin j (mem_range.2 hj)).trans_lt hneg
    have hl : D (t + 1) (i : ℝ) ≤ D (t + 1) ((i : ℝ) - 1) := by
      rcases Nat.eq_zero_or_pos i with rfl | hp
      · have := hleft (t + 1)
        norm_num at this hlt ⊢
        linarith
      · have := hmin (i - 1) (mem_range.2 (by omega))
        rwa [Nat.cast_sub hp, Nat.cast_one] at this
    have hr' : D (t + 1) (i : ℝ) ≤ D (t + 1) ((i : ℝ) + 1) := by
      rcases eq_or_lt_of_le (Nat.succ_le_of_lt hi') with he | hp
      · have := hright (t + 1)
        have e : (n : ℝ) = i + 1 := by rw [← he]; push_cast; ring
        rw [e, add_sub_cancel_right] at this
        linarith
      · have := hmin (i + 1) (mem_range.2 hp)
        rwa [Nat.cast_add, Nat.cast_one] at this
    have hs := hstep t (i : ℝ)
    have hnn : 0 ≤ r * (D (t + 1) ((i : ℝ) - 1) - 2 * D (t + 1) (i : ℝ) + D (t + 1) ((i : ℝ) + 1)) := mul_nonneg hr (by linarith)
    have := ih i hi'
    linarith

/-- Away from the ends the exact solution moves away from the initial value at most linearly in time. -/
lemma exact_start {x τ d : ℝ} (hτ : 0 < τ) (hd : 0 < d) (h0 : d ≤ x) (h1 : x + d ≤ 1) : |exactAt pi pL pR τ x - pi| ≤ max |pL - pi| |pR - pi| * (2 * τ / d ^ 2) := by
  -- one step per cell squared of the finest scheme: `n = j + 1` cells, `t = (j+1)` steps
  set n : ℕ → ℕ := fun j => j + 1 with hnj
  set r : ℕ → ℝ := fun j => τ * ((j : ℝ) + 1) with hr
  set i : ℕ → ℕ := fun j => ⌊x * ((j : ℝ) + 1)⌋₊ with hij
  have hx0 : 0 < x := by linarith
  have hnn : ∀ j, ((n j : ℕ) : ℝ) = (j : ℝ) + 1 := fun j => by simp [hnj]
  have ln : Tendsto n atTop atTop := tendsto_add_atTop_nat 1
  have e1 : ∀ j, r j / (n j : ℝ) ^ 2 = τ * (1 / ((j : ℝ) + 1)) := fun j => by
    rw [hnn]; simp only [hr]; field_simp
  have e2 : ∀ j, (n j : ℝ) * (r j / (n j : ℝ) ^ 2) = τ := fun j => by
    have : (j : ℝ) + 1 ≠ 0 := by positivity
    rw [e1, hnn]; field_simp
  have lim : Tendsto (fun j : ℕ => 1 / ((j : ℝ) + 1)) atTop (𝓝 0) := tendsto_one_div_add_atTop_nhds_zero_nat
  have hfl : ∀ j, |((i j : ℝ) + 1 / 2) / n j - x| ≤ 1 / ((j : ℝ) + 1) := fun j => by
    have hp : (0 : ℝ) < (j : ℝ) + 1 := by positivity
    have f1 := Nat.floor_le (show 0 ≤ x * ((j : ℝ) + 1) by positivity)
    have f2 := Nat.lt_floor_add_one (x * ((j : ℝ) + 1))
    rw [hnn, div_sub' hp.ne', abs_div, abs_of_pos hp]
    refine div_le_div_of_nonneg_right ?_ hp.le
    simp only [hij]
    rw [abs_le]; constructor <;> nlinarith
  have lx : Tendsto (fun j => ((i j : ℝ) + 1 / 2) / n j) atTop (𝓝 x) := tendsto_iff_dist_tendsto_zero.2 (squeeze_zero (fun _ => dist_nonneg) hfl lim)
  have key := scheme_tendsto_exact (pi := pi) (pL := pL) (pR := pR) (n := n) (t := n) (r := r) (i := i) (x := x) (τ := τ) ln (fun j => by simp only [hr]; positivity) hτ
    (by simp only [e2]; exact tendsto_const_nhds) (by simp only [e1]; simpa using lim.const_mul τ) lx
  have hi : ∀ j, i j < n j := fun j => by
    have hp : (0 : ℝ) < (j : ℝ) + 1 := by positivity
    simp only [hij]
    rw [Nat.floor_lt (by positivity), hnn]
    nlinarith
  have bound : Tendsto (fun j => max |pL - pi| |pR - pi| * (((((i j : ℝ) + 1 / 2) / n j - x) ^ 2 + 2 * (n j * (r j / (n j : ℝ) ^ 2))) / d ^ 2)) atTop (𝓝 (max |pL - pi| |pR - pi| * (2 * τ / d ^ 2))) := by
    have := ((((lx.sub_const x).pow 2).add_const (2 * τ)).div_const (d ^ 2)).const_mul (max |pL - pi| |pR - pi|)
    simp only [sub_self, ne_eq, OfNat.ofNat_ne_zero, not_false_eq_true, zero_pow, zero_add] at this
    simpa only [e2] using this
  have hle : ∀ σ : ℝ, σ = 1 ∨ σ = -1 → σ * (exactAt pi pL pR τ x - pi) ≤ max |pL - pi| |pR - pi| * (2 * τ / d ^ 2) := fun σ hσ =>
    le_of_tendsto_of_tendsto' ((key.sub_const pi).const_mul σ) bound fun j =>
      scheme_start (Nat.succ_pos j) (by simp only [hr]; positivity) hd h0 h1 σ hσ (n j) (i j) (hi j)
  rw [abs_le]
  have a1 := hle 1 (.inl rfl)
  have a2 := hle (-1) (.inr rfl)
  constructor <;> linarith

/-- Going back to the start, the exact solution tends to the initial value at every place between the ends. -/
theorem exact_initial {x : ℝ} (h0 : 0 < x) (h1 : x < 1) : Tendsto (fun τ => exactAt pi pL pR τ x) (𝓝[>] 0) (𝓝 pi) := by
  have hd : 0 < min x (1 - x) := lt_min h0 (by linarith)
  rw [tendsto_iff_dist_tendsto_zero]
  have lim : Tendsto (fun τ : ℝ => max |pL - pi| |pR - pi| * (2 * τ / min x (1 - x) ^ 2)) (𝓝[>] 0) (𝓝 0) := by
    have : Continuous fun τ : ℝ => max |pL - pi| |pR - pi| * (2 * τ / min x (1 - x) ^ 2) := by fun_prop
    have h := this.tendsto 0
    simp only [mul_zero, zero_div] at h
    exact h.mono_left nhdsWithin_le_nhds
  refine squeeze_zero' (.of_forall fun _ => dist_nonneg) ?_ lim
  filter_upwards [self_mem_nhdsWithin] with τ hτ
  exact exact_start hτ hd (min_le_left _ _) (by have := min_le_right x (1 - x); linarith)

end
end RF
