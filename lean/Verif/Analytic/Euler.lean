import Mathlib.Analysis.ODE.ExistUnique
import Mathlib.Analysis.Calculus.MeanValue
import Mathlib.Analysis.Normed.Lp.PiLp
/-!
# Implicit Euler steps for dissipative systems

A finite system of ordinary differential equations `u' = F u` in which the component that is furthest above another solution does not grow faster: existence and uniqueness of the solution, and
the distance of implicit Euler steps from it.
-/
namespace RF.Euler
open Set Filter Topology
open scoped NNReal

variable {n : ℕ} {F : (Fin n → ℝ) → Fin n → ℝ} {Λ : ℝ≥0}

/-- Where the lead of `x` over `y` is greatest, `F x` is not greater than `F y`. -/
def Dissip (F : (Fin n → ℝ) → Fin n → ℝ) : Prop := ∀ x y i, (∀ j, x j - y j ≤ x i - y i) → 0 ≤ x i - y i → F x i ≤ F y i

/-- `u` solves `u' = F u` from time zero on. -/
def Flows (F : (Fin n → ℝ) → Fin n → ℝ) (u : ℝ → Fin n → ℝ) : Prop := ∀ t, 0 ≤ t → HasDerivWithinAt u (F (u t)) (Ici 0) t

/-! ### one step -/

lemma step_le (hF : Dissip F) {h D : ℝ} (hh : 0 ≤ h) {x y xo yo a b : Fin n → ℝ} (hD : 0 ≤ D) (hx : ∀ i, x i - xo i - a i = h * F x i) (hy : ∀ i, y i - yo i - b i = h * F y i)
    (hd : ∀ i, xo i - yo i + a i - b i ≤ D) (i : Fin n) : x i - y i ≤ D := by
  have : Nonempty (Fin n) := ⟨i⟩
  obtain ⟨k, hk⟩ := Finite.exists_max fun j => x j - y j
  refine (hk i).trans ?_
  rcases le_total (x k - y k) 0 with h0 | h0
  · exact h0.trans hD
  · have h1 := hF x y k hk h0
    have h2 := hx k
    have h3 := hy k
    have h4 := hd k
    have : h * F x k ≤ h * F y k := mul_le_mul_of_nonneg_left h1 hh
    linarith

lemma step_norm (hF : Dissip F) {h : ℝ} (hh : 0 ≤ h) {x y xo yo a b : Fin n → ℝ} (hx : x - xo - a = h • F x) (hy : y - yo - b = h • F y) :
    ‖x - y‖ ≤ ‖xo - yo‖ + ‖a‖ + ‖b‖ := by
  have hx' : ∀ i, x i - xo i - a i = h * F x i := fun i => by simpa using congrFun hx i
  have hy' : ∀ i, y i - yo i - b i = h * F y i := fun i => by simpa using congrFun hy i
  have h0 : 0 ≤ ‖xo - yo‖ + ‖a‖ + ‖b‖ := by positivity
  have ho : ∀ i, |xo i - yo i| ≤ ‖xo - yo‖ := fun i => norm_le_pi_norm (xo - yo) i
  have ha : ∀ i, |a i| ≤ ‖a‖ := fun i => norm_le_pi_norm a i
  have hb : ∀ i, |b i| ≤ ‖b‖ := fun i => norm_le_pi_norm b i
  rw [pi_norm_le_iff_of_nonneg h0]
  intro i
  rw [Pi.sub_apply, Real.norm_eq_abs, abs_le]
  have k1 := step_le hF hh h0 hx' hy' (fun i => by have := abs_le.1 (ho i); have := abs_le.1 (ha i); have := abs_le.1 (hb i); linarith) i
  have k2 := step_le hF hh h0 hy' hx' (fun i => by have := abs_le.1 (ho i); have := abs_le.1 (ha i); have := abs_le.1 (hb i); linarith) i
  constructor <;> linarith

/-! ### solutions -/

lemma Flows.cont {u : ℝ → Fin n → ℝ} (hu : Flows F u) : ContinuousOn u (Ici 0) := fun t ht => (hu t ht).continuousWithinAt

lemma Flows.shift {u : ℝ → Fin n → ℝ} (hu : Flows F u) {s : ℝ} (hs : 0 ≤ s) : Flows F fun t => u (t + s) := fun t ht => by
  have h1 := HasDerivWithinAt.scomp (g₁ := u) (h := fun t => t + s) (h' := 1) t (hu (t + s) (by linarith)) ((hasDerivAt_id t).add_const s).hasDerivWithinAt (s := Ici 0)
    fun r hr => by have : (0 : ℝ) ≤ r := hr; show 0 ≤ r + s; linarith
  simpa [Function.comp_def] using h1

/-- Up to any time the speed is bounded. -/
lemma Flows.speed {u : ℝ → Fin n → ℝ} (hu : Flows F u) (hL : LipschitzWith Λ F) (τ : ℝ) : ∃ V, 0 ≤ V ∧ ∀ t, 0 ≤ t → t ≤ τ → ‖F (u t)‖ ≤ V := by
  have hc : ContinuousOn (fun t => F (u t)) (Icc 0 τ) := hL.continuous.comp_continuousOn (hu.cont.mono fun t ht => ht.1)
  obtain ⟨V, hV⟩ := isCompact_Icc.exists_bound_of_continuousOn hc
  exact ⟨max V 0, le_max_right _ _, fun t h0 h1 => (hV t ⟨h0, h1⟩).trans (le_max_left _ _)⟩

lemma Flows.lip {u : ℝ → Fin n → ℝ} (hu : Flows F u) {τ V : ℝ} (hV : ∀ t, 0 ≤ t → t ≤ τ → ‖F (u t)‖ ≤ V) {s t : ℝ} (hs : 0 ≤ s) (hst : s ≤ t) (ht : t ≤ τ) :
    ‖u t - u s‖ ≤ V * (t - s) :=
  norm_image_sub_le_of_norm_deriv_le_segment' (f := u) (f' := fun r => F (u r)) (fun r hr => (hu r (hs.trans hr.1)).mono fun q hq => hs.trans hq.1)
    (fun r hr => hV r (hs.trans hr.1) (hr.2.le.trans ht)) t ⟨hst, le_rfl⟩

/-- How far a solution is from an implicit Euler step. -/
lemma Flows.trunc {u : ℝ → Fin n → ℝ} (hu : Flows F u) (hL : LipschitzWith Λ F) {τ V : ℝ} (hV : ∀ t, 0 ≤ t → t ≤ τ → ‖F (u t)‖ ≤ V) {t h : ℝ} (ht : 0 ≤ t) (hh : 0 ≤ h) (hτ : t + h ≤ τ) :
    ‖u (t + h) - u t - h • F (u (t + h))‖ ≤ Λ * V * h ^ 2 := by
  have h0 : 0 ≤ V := (norm_nonneg _).trans (hV t ht (by linarith))
  have key := norm_image_sub_le_of_norm_deriv_le_segment' (f := fun r => u r - r • F (u (t + h))) (f' := fun r => F (u r) - F (u (t + h))) (a := t) (b := t + h) (C := Λ * (V * h))
    (fun r hr => by
      have h1 := (hu r (ht.trans hr.1)).mono (show Icc t (t + h) ⊆ Ici 0 from fun q hq => ht.trans hq.1)
      have h2 := ((hasDerivAt_id r).smul_const (F (u (t + h)))).hasDerivWithinAt (s := Icc t (t + h))
      rw [one_smul] at h2
      exact h1.sub h2)
    (fun r hr => by
      have h1 := hL.norm_sub_le (u r) (u (t + h))
      have h2 := hu.lip hV (ht.trans hr.1) hr.2.le hτ
      rw [norm_sub_rev] at h2
      refine h1.trans (mul_le_mul_of_nonneg_left (h2.trans (mul_le_mul_of_nonneg_left ?_ h0)) Λ.2)
      linarith [hr.1]) (t + h) ⟨by linarith, le_rfl⟩
  have e : u (t + h) - u t - h • F (u (t + h)) = u (t + h) - (t + h) • F (u (t + h)) - (u t - t • F (u (t + h))) := by rw [add_smul]; abel
  rw [e]
  refine key.trans (le_of_eq ?_)
  ring

/-- Implicit Euler steps, up to errors `a k`, stay near a solution. -/
lemma Flows.euler {u : ℝ → Fin n → ℝ} (hu : Flows F u) (hF : Dissip F) (hL : LipschitzWith Λ F) {τ V : ℝ} (hV : ∀ t, 0 ≤ t → t ≤ τ → ‖F (u t)‖ ≤ V) {h η D : ℝ} (hh : 0 ≤ h)
    {p a : ℕ → Fin n → ℝ} {N : ℕ} (hp : ∀ k, k < N → p (k + 1) - p k - a k = h • F (p (k + 1))) (ha : ∀ k, k < N → ‖a k‖ ≤ η) (h0 : ‖p 0 - u 0‖ ≤ D) (hN : N * h ≤ τ) :
    ∀ k, k ≤ N → ‖p k - u (k * h)‖ ≤ D + k * (η + Λ * V * h ^ 2) := by
  intro k
  induction k with
  | zero => intro _; simpa using h0
  | succ k ih =>
    intro hk
    have h1 := ih (by omega)
    have hkN : ((k + 1 : ℕ) : ℝ) * h ≤ τ := (mul_le_mul_of_nonneg_right (by exact_mod_cast hk) hh).trans hN
    have hk0 : (0 : ℝ) ≤ k * h := by positivity
    have e : ((k + 1 : ℕ) : ℝ) * h = k * h + h := by push_cast; ring
    rw [e] at hkN ⊢
    have h2 := hu.trunc hL hV hk0 hh hkN
    have h3 := step_norm hF hh (hp k (by omega)) (y := u (k * h + h)) (yo := u (k * h)) (b := u (k * h + h) - u (k * h) - h • F (u (k * h + h))) (by abel)
    have h4 := ha k (by omega)
    push_cast
    nlinarith

/-- Two solutions do not move apart. -/
lemma Flows.contract {u w : ℝ → Fin n → ℝ} (hu : Flows F u) (hw : Flows F w) (hF : Dissip F) (hL : LipschitzWith Λ F) {t : ℝ} (ht : 0 ≤ t) : ‖u t - w t‖ ≤ ‖u 0 - w 0‖ := by
  obtain ⟨V, hV0, hV⟩ := hu.speed hL t
  obtain ⟨W, hW0, hW⟩ := hw.speed hL t
  have key : ∀ N : ℕ, ‖u t - w t‖ ≤ ‖u 0 - w 0‖ + Λ * (V + W) * t ^ 2 * (1 / ((N : ℝ) + 1)) := fun N => by
    have hN : (0 : ℝ) < (N : ℝ) + 1 := by positivity
    set h := t / ((N : ℝ) + 1) with hh
    have hh0 : 0 ≤ h := by positivity
    have hNh : ((N + 1 : ℕ) : ℝ) * h = t := by push_cast; rw [hh]; field_simp
    have h1 := hw.euler hF hL hW hh0 (N := N + 1) (p := fun k => u (k * h)) (a := fun k => u (((k + 1 : ℕ) : ℝ) * h) - u (k * h) - h • F (u (((k + 1 : ℕ) : ℝ) * h))) (η := Λ * V * h ^ 2)
      (D := ‖u 0 - w 0‖) (fun k hk => by abel) (fun k hk => by
        have e : ((k + 1 : ℕ) : ℝ) * h = k * h + h := by push_cast; ring
        rw [e]
        refine hu.trunc hL hV (by positivity) hh0 ?_
        rw [← e, ← hNh]
        exact mul_le_mul_of_nonneg_right (by exact_mod_cast hk) hh0) (by simp) hNh.le (N + 1) le_rfl
    rw [hNh] at h1
    refine h1.trans (le_of_eq ?_)
    push_cast
    rw [hh]; field_simp
  have lim : Tendsto (fun N : ℕ => ‖u 0 - w 0‖ + Λ * (V + W) * t ^ 2 * (1 / ((N : ℝ) + 1))) atTop (𝓝 (‖u 0 - w 0‖ + Λ * (V + W) * t ^ 2 * 0)) :=
    (tendsto_one_div_add_atTop_nhds_zero_nat.const_mul _).const_add _
  rw [mul_zero, add_zero] at lim
  exact ge_of_tendsto' lim key

/-- A solution is fastest at the start. -/
lemma Flows.slows {u : ℝ → Fin n → ℝ} (hu : Flows F u) (hF : Dissip F) (hL : LipschitzWith Λ F) {t : ℝ} (ht : 0 ≤ t) : ‖F (u t)‖ ≤ ‖F (u 0)‖ := by
  have slope : ∀ r, 0 ≤ r → Tendsto (fun s => s⁻¹ • (u (s + r) - u r)) (𝓝[>] 0) (𝓝 (F (u r))) := fun r hr => by
    have h1 := (hu.shift hr) 0 le_rfl
    rw [hasDerivWithinAt_iff_tendsto_slope] at h1
    have e : Ici (0 : ℝ) \ {0} = Ioi 0 := by ext x; simp [lt_iff_le_and_ne, eq_comm]
    rw [e] at h1
    rw [show (fun s => s⁻¹ • (u (s + r) - u r)) = slope (fun t => u (t + r)) 0 from funext fun s => by rw [slope_def_module, sub_zero, zero_add]]
    simpa using h1
  refine le_of_tendsto_of_tendsto (slope t ht).norm (slope 0 le_rfl).norm ?_
  filter_upwards [self_mem_nhdsWithin] with s hs
  have hs' : (0 : ℝ) < s := hs
  have h1 := (hu.shift hs'.le).contract hu hF hL ht
  rw [norm_smul, norm_smul, add_comm s t, add_zero]
  rw [zero_add] at h1
  exact mul_le_mul_of_nonneg_left h1 (norm_nonneg _)

/-! ### existence -/

/-- From every point there is a solution for a time that is the same for all points. -/
lemma exists_short (hL : LipschitzWith Λ F) (hΛ : 0 < Λ) (t₀ : ℝ) (x : Fin n → ℝ) :
    ∃ u : ℝ → Fin n → ℝ, u t₀ = x ∧ ∀ t ∈ Icc t₀ (t₀ + 1 / (2 * Λ)), HasDerivWithinAt u (F (u t)) (Icc t₀ (t₀ + 1 / (2 * Λ))) t := by
  have hΛ' : (0 : ℝ) < Λ := hΛ
  have hT : (0 : ℝ) < 1 / (2 * Λ) := by positivity
  have hpl : IsPicardLindelof (fun _ => F) (tmin := t₀) (tmax := t₀ + 1 / (2 * Λ)) ⟨t₀, le_rfl, by linarith⟩ x (‖F x‖₊ / Λ) 0 (2 * ‖F x‖₊) Λ :=
    IsPicardLindelof.of_time_independent (fun y hy => by
      have h1 := hL.norm_sub_le y x
      have h2 : ‖y - x‖ ≤ ‖F x‖ / Λ := by rw [← dist_eq_norm]; exact hy
      have h3 : ‖F y‖ ≤ ‖F y - F x‖ + ‖F x‖ := by simpa using norm_add_le (F y - F x) (F x)
      have h4 : (Λ : ℝ) * ‖y - x‖ ≤ ‖F x‖ := by rw [le_div_iff₀ hΛ'] at h2; linarith
      push_cast
      linarith) hL.lipschitzOnWith (by
        push_cast
        have : max (t₀ + 1 / (2 * (Λ : ℝ)) - t₀) (t₀ - t₀) = 1 / (2 * Λ) := by rw [sub_self, add_sub_cancel_left, max_eq_left hT.le]
        simp only [this, sub_zero]
        apply le_of_eq; field_simp)
  obtain ⟨u, h1, h2⟩ := hpl.exists_eq_forall_mem_Icc_hasDerivWithinAt₀
  exact ⟨u, h1, h2⟩

/-- From every point there is a solution for any number of such times. -/
lemma exists_long (hL : LipschitzWith Λ F) (hΛ : 0 < Λ) (x : Fin n → ℝ) (N : ℕ) :
    ∃ u : ℝ → Fin n → ℝ, u 0 = x ∧ ∀ t ∈ Icc 0 (N * (1 / (2 * (Λ : ℝ)))), HasDerivWithinAt u (F (u t)) (Icc 0 (N * (1 / (2 * (Λ : ℝ))))) t := by
  have hΛ' : (0 : ℝ) < Λ := hΛ
  have hT : (0 : ℝ) < 1 / (2 * Λ) := by positivity
  induction N with
  | zero =>
    refine ⟨fun _ => x, rfl, fun t ht => ?_⟩
    simp only [Nat.cast_zero, zero_mul, Icc_self] at ht ⊢
    exact HasFDerivWithinAt.of_subsingleton (by simp)
  | succ N ih =>
    obtain ⟨u, h1, h2⟩ := ih
    set a : ℝ := N * (1 / (2 * (Λ : ℝ))) with ha
    have ha0 : 0 ≤ a := by positivity
    have e : ((N + 1 : ℕ) : ℝ) * (1 / (2 * (Λ : ℝ))) = a + 1 / (2 * Λ) := by push_cast; rw [ha]; ring
    rw [e]
    obtain ⟨w, k1, k2⟩ := exists_short hL hΛ a (u a)
    set b : ℝ := a + 1 / (2 * Λ) with hb
    let v : ℝ → Fin n → ℝ := fun t => if t ≤ a then u t else w t
    have hab : a ≤ b := by linarith
    have vl : ∀ t, t ≤ a → v t = u t := fun t ht => if_pos ht
    have vr : ∀ t, a ≤ t → v t = w t := fun t ht => by
      rcases ht.eq_or_lt with rfl | h
      · rw [vl _ le_rfl, k1]
      · exact if_neg (not_le.2 h)
    have gl : ∀ t ∈ Icc 0 a, HasDerivWithinAt v (F (v t)) (Icc 0 a) t := fun t ht => by
      rw [vl t ht.2]
      exact (h2 t ht).congr (fun r hr => vl r hr.2) (vl t ht.2)
    have gr : ∀ t ∈ Icc a b, HasDerivWithinAt v (F (v t)) (Icc a b) t := fun t ht => by
      rw [vr t ht.1]
      exact (k2 t ht).congr (fun r hr => vr r hr.1) (vr t ht.1)
    refine ⟨v, by rw [vl 0 ha0, h1], fun t ht => ?_⟩
    rw [← Icc_union_Icc_eq_Icc ha0 hab]
    rcases lt_trichotomy t a with h | h | h
    · refine HasDerivWithinAt.union (gl t ⟨ht.1, h.le⟩) ?_
      exact HasFDerivWithinAt.of_notMem_closure fun hc => by rw [closure_Icc] at hc; exact absurd hc.1 (not_le.2 h)
    · exact HasDerivWithinAt.union (gl t ⟨ht.1, h.le⟩) (gr t ⟨h.ge, ht.2⟩)
    · refine HasDerivWithinAt.union ?_ (gr t ⟨h.le, ht.2⟩)
      exact HasFDerivWithinAt.of_notMem_closure fun hc => by rw [closure_Icc] at hc; exact absurd hc.2 (not_le.2 h)

/-- From every point there is a solution for all times. -/
theorem exists_flow (hL : LipschitzWith Λ F) (x : Fin n → ℝ) : ∃ u, Flows F u ∧ u 0 = x := by
  wlog hΛ : 0 < Λ generalizing Λ
  · exact this (Λ := Λ + 1) (hL.weaken le_self_add) (by positivity)
  have hΛ' : (0 : ℝ) < Λ := hΛ
  have hT : (0 : ℝ) < 1 / (2 * Λ) := by positivity
  choose w h1 h2 using exists_long hL hΛ x
  set T : ℝ := 1 / (2 * Λ) with hTd
  have agree : ∀ N M : ℕ, N ≤ M → ∀ t ∈ Icc 0 (N * T), w N t = w M t := fun N M hNM t ht => by
    have hle : (N : ℝ) * T ≤ M * T := mul_le_mul_of_nonneg_right (by exact_mod_cast hNM) hT.le
    have up : ∀ K : ℕ, (N : ℝ) * T ≤ K * T → ∀ r ∈ Ico 0 (N * T), HasDerivWithinAt (w K) (F (w K r)) (Ici r) r := fun K hK r hr => by
      refine (h2 K r ⟨hr.1, hr.2.le.trans hK⟩).mono_of_mem_nhdsWithin ?_
      refine mem_of_superset (Icc_mem_nhdsGE (lt_of_lt_of_le hr.2 hK)) fun q hq => ⟨hr.1.trans hq.1, hq.2⟩
    refine ODE_solution_unique_of_mem_Icc_right (v := fun _ => F) (s := fun _ => univ) (K := Λ) (fun _ _ => hL.lipschitzOnWith)
      (fun r hr => (h2 N r hr).continuousWithinAt) (up N le_rfl) (fun _ _ => mem_univ _)
      (fun r hr => ((h2 M r ⟨hr.1, hr.2.trans hle⟩).continuousWithinAt).mono fun q hq => ⟨hq.1, hq.2.trans hle⟩) (up M hle) (fun _ _ => mem_univ _) ?_ ht
    rw [h1, h1]
  have big : ∀ t : ℝ, ∃ N : ℕ, t < N * T := fun t => by
    obtain ⟨N, hN⟩ := exists_nat_gt (t / T)
    exact ⟨N, (div_lt_iff₀ hT).1 hN⟩
  choose ix hix using big
  let u : ℝ → Fin n → ℝ := fun t => w (ix t) t
  have ue : ∀ N : ℕ, ∀ t ∈ Icc 0 (N * T), u t = w N t := fun N t ht => by
    rcases le_total (ix t) N with h | h
    · exact agree _ _ h t ⟨ht.1, (hix t).le⟩
    · exact (agree _ _ h t ht).symm
  refine ⟨u, fun t ht => ?_, by rw [ue 0 0 (by simp), h1]⟩
  have hm : t ∈ Icc 0 (ix t * T) := ⟨ht, (hix t).le⟩
  have h3 := (h2 (ix t) t hm).congr (fun r hr => ue (ix t) r hr) (ue (ix t) t hm)
  rw [← ue (ix t) t hm] at h3
  refine h3.mono_of_mem_nhdsWithin ?_
  refine mem_of_superset (inter_mem_nhdsWithin (Ici 0) (Iio_mem_nhds (hix t))) fun q hq => ⟨hq.1, hq.2.le⟩

end RF.Euler
