import Verif.Fdm.Bar
import Verif.Analytic.Exact
import Verif.Fdm.PropsProgress
/-!
# C76: finite differences and the analytical solution of the one-dimensional problem

A row of equal cells, the same pressure everywhere at the start, pressures given at both ends.
-/
set_option linter.unusedSectionVars false
namespace RF.Fdm
open RF RF.Spec RF.Dims Filter Topology

/-- A model of a row of `n` cells of length `h`, at pressure `pi` before the first step, with `pL` and `pR` given at the ends, and an exact linear solver. -/
structure BarCase (M : GridModel ℝ) (n : ℕ) (h k φ : ℝ) (c : Ctx ℝ) (m0 : Mdl ℝ) (pi pL pR : ℝ) : Prop where
  bar : IsBar M n h k φ
  pos : M.Pos
  env : M.env = .ok c.e
  ready : Ready c m0
  exact : Exact c.lin
  ends : BothEnds m0 n pL pR
  init : ∀ i, i < n → m0.initP (i + 1) = some pi

/-- Diffusivity of the row, as `get_alpha` computes it. -/
noncomputable def IsBar.alpha (M : GridModel ℝ) (k φ : ℝ) : ℝ := getAlpha M.β k M.mu M.B φ M.ct M.vconv

variable {M : GridModel ℝ} {n : ℕ} {h k φ : ℝ} {c : Ctx ℝ} {m0 m : Mdl ℝ} {s : Sol ℝ} {pi pL pR : ℝ}

lemma BarCase.alpha_pos (b : BarCase M n h k φ c m0 pi pL pR) : 0 < IsBar.alpha M k φ := by
  have := b.bar.k_pos b.pos; have := b.bar.φ_pos b.pos; have := b.pos.ct b.bar.comp; have := b.pos.vconv; have := b.pos.B; have := b.pos.mu; have := b.pos.β
  unfold IsBar.alpha getAlpha; positivity

lemma scheme_neighbours (hn : 0 < n) (r : ℝ) (t : ℕ) {i : ℕ} (hi : i < n) :
    IsBar.left pL (scheme n r pi pL pR t) i = schemeAt n r pi pL pR t ((i : ℝ) - 1) ∧ IsBar.right n pR (scheme n r pi pL pR t) i = schemeAt n r pi pL pR t ((i : ℝ) + 1) := by
  constructor
  · unfold IsBar.left scheme
    split_ifs with h0
    · subst h0
      rw [show ((0 : ℕ) : ℝ) - 1 = -1 by norm_num, schemeAt_left]; norm_num
    · rw [Nat.cast_sub (by omega)]; norm_num
  · unfold IsBar.right scheme
    split_ifs with h0
    · have e : (i : ℝ) = n - 1 := by rw [← h0]; push_cast; ring
      rw [e, sub_add_cancel, schemeAt_right hn]
    · push_cast; rfl

/-- **C76, closed form.** After any history, the pressure stored for step `t` in the cell at position `i` is the straight line between the end pressures plus `n` sine waves,
each of which has decayed by its own constant factor per step. -/
theorem C76_closed_form (b : BarCase M n h k φ c m0 pi pL pR) (hh : Hist c Any m0 m s) {t i : ℕ} (ht : t ≤ s.tstep) (hi : i < n) :
    rowAt s.press t none (i + 1) = some (scheme n (IsBar.alpha M k φ * M.dt / h ^ 2) pi pL pR t i) := by
  have hn : 0 < n := by have := b.bar.two; omega
  have hR := b.bar.R_pos b.pos
  have hT := b.bar.T_pos b.pos
  have hr : IsBar.T M h k / IsBar.R M h φ = IsBar.alpha M k φ * M.dt / h ^ 2 := b.bar.ratio b.pos
  refine b.bar.history b.pos b.env b.ready b.exact b.ends (F := fun t i => scheme n (IsBar.alpha M k φ * M.dt / h ^ 2) pi pL pR t i)
    (fun i hi => by rw [b.init i hi, scheme_zero hn hi]) (fun t i hi => ?_) hh t ht i hi
  obtain ⟨e1, e2⟩ := scheme_neighbours (pi := pi) (pL := pL) (pR := pR) hn (IsBar.alpha M k φ * M.dt / h ^ 2) (t + 1) hi
  have e3 := schemeAt_step (pi := pi) (pL := pL) (pR := pR) hn (show 0 ≤ IsBar.alpha M k φ * M.dt / h ^ 2 by rw [← hr]; positivity) t (i : ℝ)
  rw [e1, e2]
  unfold scheme
  rw [← e3, ← hr]
  field_simp

/-- The closed form is near the exact solution when cells and steps are small. -/
lemma scheme_close {α L x τ ε : ℝ} (hα : 0 < α) (hL : 0 < L) (hτ : 0 < τ) (hε : 0 < ε) : ∃ δ > 0, ∀ (n : ℕ) (h dt : ℝ) (t i : ℕ), 0 < h → 0 < dt → n * h = L → h < δ → dt < δ →
    |t * dt - τ| < δ → |((i : ℝ) + 1 / 2) * h - x| < δ → |scheme n (α * dt / h ^ 2) pi pL pR t i - exactAt pi pL pR (α * τ / L ^ 2) (x / L)| < ε := by
  by_contra hc
  push Not at hc
  have hδ : ∀ j : ℕ, (0 : ℝ) < 1 / ((j : ℝ) + 1) := fun j => Nat.one_div_pos_of_nat
  choose n h dt t i h0 d0 hnL hh hd ht hx hbad using fun j : ℕ => hc (1 / ((j : ℝ) + 1)) (hδ j)
  have lim : Tendsto (fun j : ℕ => 1 / ((j : ℝ) + 1)) atTop (𝓝 0) := tendsto_one_div_add_atTop_nhds_zero_nat
  have lh : Tendsto h atTop (𝓝 0) := squeeze_zero (fun j => (h0 j).le) (fun j => (hh j).le) lim
  have ld : Tendsto dt atTop (𝓝 0) := squeeze_zero (fun j => (d0 j).le) (fun j => (hd j).le) lim
  have lt : Tendsto (fun j => (t j : ℝ) * dt j) atTop (𝓝 τ) := tendsto_iff_dist_tendsto_zero.2 (squeeze_zero (fun _ => dist_nonneg) (fun j => (ht j).le) lim)
  have lx : Tendsto (fun j => ((i j : ℝ) + 1 / 2) * h j) atTop (𝓝 x) := tendsto_iff_dist_tendsto_zero.2 (squeeze_zero (fun _ => dist_nonneg) (fun j => (hx j).le) lim)
  have en : ∀ j, (n j : ℝ) = L / h j := fun j => by rw [eq_div_iff (h0 j).ne']; exact hnL j
  have ln : Tendsto n atTop atTop := by
    rw [← tendsto_natCast_atTop_iff (R := ℝ)]
    simp only [en, div_eq_mul_inv]
    exact Tendsto.const_mul_atTop hL ((tendsto_nhdsWithin_iff.2 ⟨lh, .of_forall fun j => h0 j⟩).inv_tendsto_nhdsGT_zero)
  have er : ∀ j, α * dt j / h j ^ 2 / (n j : ℝ) ^ 2 = α / L ^ 2 * dt j := fun j => by
    have := (h0 j).ne'
    rw [en]; field_simp
  have key := scheme_tendsto_exact (pi := pi) (pL := pL) (pR := pR) (l := atTop) (n := n) (t := t) (i := i) (r := fun j => α * dt j / h j ^ 2) (x := x / L) (τ := α * τ / L ^ 2) ln
    (fun j => by have := h0 j; have := d0 j; positivity) (by positivity)
    (by simp only [er]
        have := lt.const_mul (α / L ^ 2)
        rw [show α / L ^ 2 * τ = α * τ / L ^ 2 by ring] at this
        exact this.congr fun j => by ring)
    (by simp only [er]; simpa using ld.const_mul (α / L ^ 2))
    (by refine (lx.div_const L).congr fun j => ?_
        have := (h0 j).ne'
        rw [en]; field_simp)
  obtain ⟨j, hj⟩ := (key.eventually (Metric.ball_mem_nhds _ hε)).exists
  exact absurd hj (not_lt.2 (hbad j))

/-- **C76, convergence.** For every diffusivity `α`, length `L`, pressures, place `x` and time `τ > 0`, and every tolerance: in every row of cells of that length and diffusivity with short
enough cells and steps, after any history, the pressure stored for a cell with its middle near `x` at a time near `τ` is within the tolerance of the exact solution. -/
theorem C76_converges {α L x τ ε : ℝ} (hα : 0 < α) (hL : 0 < L) (hτ : 0 < τ) (hε : 0 < ε) (pi pL pR : ℝ) :
    ∃ δ > 0, ∀ (M : GridModel ℝ) (n : ℕ) (h k φ : ℝ) (c : Ctx ℝ) (m0 m : Mdl ℝ) (s : Sol ℝ), BarCase M n h k φ c m0 pi pL pR → IsBar.alpha M k φ = α → n * h = L → h < δ → M.dt < δ →
      Hist c Any m0 m s → ∀ t i, t ≤ s.tstep → i < n → |t * M.dt - τ| < δ → |((i : ℝ) + 1 / 2) * h - x| < δ →
        ∃ p, rowAt s.press t none (i + 1) = some p ∧ |p - exactAt pi pL pR (α * τ / L ^ 2) (x / L)| < ε := by
  obtain ⟨δ, hδ, key⟩ := scheme_close (pi := pi) (pL := pL) (pR := pR) (x := x) hα hL hτ hε
  refine ⟨δ, hδ, fun M n h k φ c m0 m s b ha hnL hh hd hist t i ht hi htt hxx => ⟨_, C76_closed_form b hist ht hi, ?_⟩⟩
  rw [ha]
  exact key n h M.dt t i (b.bar.h_pos b.pos) b.pos.dt hnL hh hd htt hxx

/-- **C76, what the limit is.** The limit in `C76_converges` solves the problem: the diffusion equation with diffusivity `α` holds at every place and every time after the start, the end pressures hold
at both ends, and going back to the start the pressure at every place between the ends tends to the initial pressure. -/
theorem C76_limit_solves {α L : ℝ} (hα : 0 < α) (hL : 0 < L) (pi pL pR : ℝ) :
    (∀ τ x, 0 < τ → deriv (fun τ => exactAt pi pL pR (α * τ / L ^ 2) (x / L)) τ = α * deriv (deriv fun x => exactAt pi pL pR (α * τ / L ^ 2) (x / L)) x) ∧
    (∀ τ, exactAt pi pL pR (α * τ / L ^ 2) (0 / L) = pL ∧ exactAt pi pL pR (α * τ / L ^ 2) (L / L) = pR) ∧
    ∀ x, 0 < x → x < L → Tendsto (fun τ => exactAt pi pL pR (α * τ / L ^ 2) (x / L)) (𝓝[>] 0) (𝓝 pi) := by
  refine ⟨fun τ x hτ => ?_, fun τ => ⟨by rw [zero_div, exact_left], by rw [div_self hL.ne', exact_right]⟩, fun x h0 h1 => ?_⟩
  · have ht : 0 < α * τ / L ^ 2 := by positivity
    have i1 : HasDerivAt (fun t : ℝ => α * t / L ^ 2) (α / L ^ 2) τ := by
      simpa using ((hasDerivAt_id τ).const_mul α).div_const (L ^ 2)
    have i2 : ∀ x, HasDerivAt (fun x : ℝ => x / L) (1 / L) x := fun x => (hasDerivAt_id x).div_const L
    have d1 := ((exact_hasDeriv_t (pi := pi) (pL := pL) (pR := pR) ht (x / L)).comp τ i1).deriv
    have d2 : deriv (fun x => exactAt pi pL pR (α * τ / L ^ 2) (x / L)) = fun x => (pR - pL + 2 / Real.pi * ∑' m, termX pi pL pR (α * τ / L ^ 2) (x / L) m) * (1 / L) :=
      funext fun x => by
        have := ((exact_hasDeriv_x (pi := pi) (pL := pL) (pR := pR) ht (x / L)).comp x (i2 x)).deriv
        exact this
    have d3 := (((exact_hasDeriv_xx (pi := pi) (pL := pL) (pR := pR) ht (x / L)).comp x (i2 x)).mul_const (1 / L)).deriv
    simp only [Function.comp_def] at d1 d3
    rw [d1, d2, d3]
    field_simp
  · have hx : 0 < x / L := by positivity
    have hx1 : x / L < 1 := (div_lt_one hL).2 h1
    refine (exact_initial hx hx1).comp (tendsto_nhdsWithin_iff.2 ⟨?_, ?_⟩)
    · have : Continuous fun τ : ℝ => α * τ / L ^ 2 := by fun_prop
      have h := this.tendsto 0
      simp only [mul_zero, zero_div] at h
      exact h.mono_left nhdsWithin_le_nhds
    · filter_upwards [self_mem_nhdsWithin] with τ hτ
      have : 0 < τ := hτ
      exact Set.mem_Ioi.2 (by positivity)

/-- **C76, late times.** The pressures settle on the straight line between the end pressures, taken on the end faces of the row. -/
theorem C76_steady (b : BarCase M n h k φ c m0 pi pL pR) {i : ℕ} (hi : i < n) {ε : ℝ} (hε : 0 < ε) :
    ∃ t0, ∀ (m : Mdl ℝ) (s : Sol ℝ), Hist c Any m0 m s → ∀ t, t0 ≤ t → t ≤ s.tstep →
      ∃ p, rowAt s.press t none (i + 1) = some p ∧ |p - (pL + (pR - pL) * ((((i : ℝ) + 1 / 2) * h) / (n * h)))| < ε := by
  have hh := b.bar.h_pos b.pos
  have hr : 0 < IsBar.alpha M k φ * M.dt / h ^ 2 := by have := b.alpha_pos; have := b.pos.dt; positivity
  obtain ⟨t0, ht0⟩ := ((scheme_tendsto_steady (pi := pi) (pL := pL) (pR := pR) (N := n) hr i).eventually (Metric.ball_mem_nhds _ hε)).exists_forall_of_atTop
  refine ⟨t0, fun m s hist t h0 ht => ⟨_, C76_closed_form b hist ht hi, ?_⟩⟩
  rw [mul_div_mul_right _ _ hh.ne']
  exact ht0 t h0

/-! ### the analytical solution of the same model -/

/-- What `D1P1` reads from this model: the middles of all cells, boundary cells included; one diffusivity; a first row with the end pressures in the boundary cells. -/
structure SameBar (a : AInput) (n : ℕ) (h α dt pi pL pR : ℝ) : Prop where
  x : a.x = (List.range (n + 2)).map fun j : ℕ => ((j : ℝ) + 1 / 2) * h
  alpha : a.alpha = List.replicate (n + 2) α
  p : a.p = [pL :: (List.replicate n pi ++ [pR])]
  pi : a.pi = pi
  dt : a.dt = dt

lemma SameBar.posed {a : AInput} {α dt : ℝ} (hs : SameBar a n h α dt pi pL pR) (hh : 0 < h) (hdt : 0 < dt) (hne : pL ≠ pR) : Posed a (1 / 2 * h) ((n + 1 + 1 / 2) * h) pL pR where
  x := by
    refine ⟨(List.range n).map fun j : ℕ => ((j : ℝ) + 1 + 1 / 2) * h, ?_, fun y hy => ?_⟩
    · rw [hs.x, List.range_succ, List.map_append, List.range_succ_eq_map]
      simp [Function.comp_def]
    · obtain ⟨j, hj, rfl⟩ := List.mem_map.1 hy
      have : (j : ℝ) ≤ n := by exact_mod_cast (List.mem_range.1 hj).le
      have h0 : (0 : ℝ) ≤ j := Nat.cast_nonneg j
      constructor <;> nlinarith
  lt := by have : (0 : ℝ) ≤ n := Nat.cast_nonneg n
           nlinarith
  p := ⟨_, [], hs.p⟩
  ne := ⟨pL, by simp [hs.p], pR, by simp [hs.p], hne⟩
  dt := by rw [hs.dt]; exact hdt

/-- The analytical solution settles on the straight line between the same pressures, but taken in the middles of the boundary cells. -/
lemma SameBar.steady {a : AInput} {α dt : ℝ} (hs : SameBar a n h α dt pi pL pR) (hh : 0 < h) (hdt : 0 < dt) (hα : 0 < α) (hne : pL ≠ pR) {i : ℕ} (hi : i < n) {ε : ℝ} (hε : 0 < ε) :
    ∃ t0, ∀ t, t0 ≤ t → ∀ nsteps cell, t ≤ nsteps → cell < n + 2 → ∃ row q, (a.run nsteps)[t * (n + 2) + cell]? = some row ∧ row[i + 1]? = some q ∧
      |q - (pL + (pR - pL) * (((i : ℝ) + 1) / (n + 1)))| < ε := by
  have P := hs.posed hh hdt hne
  have hn1 : (0 : ℝ) < (n : ℝ) + 1 := by positivity
  set y : ℝ := ((i : ℝ) + 1) / (n + 1) with hy
  have hy01 : 0 ≤ y ∧ y ≤ 1 := ⟨by positivity, (div_le_one hn1).2 (by have : (i : ℝ) + 1 ≤ n := by exact_mod_cast hi
                                                                      linarith)⟩
  obtain ⟨e0, en, m0, mn⟩ := P.ends
  have b0 := P.scale_mem _ m0
  have bn := P.scale_mem _ mn
  set S := a.scale pL + (a.scale pR - a.scale pL) * y with hS
  have hSb : 0 ≤ S ∧ S ≤ 1 := by constructor <;> nlinarith
  have hLx : lmax a.x - lmin a.x = (n + 1) * h := by rw [P.lmin_x.1, P.lmin_x.2]; ring
  set g : ℕ → ℝ := fun t => a.unscale (clip (pD 1000 (a.scale pi) (a.scale pL) (a.scale pR) (α * ((t : ℝ) * dt) / ((n + 1) * h) ^ 2) y)) with hg
  have hclip : Continuous clip := by
    have : clip = fun v => max 0 (min v 1) := by
      funext v
      unfold clip
      split_ifs with h1 h2
      · rw [min_eq_left (by linarith), max_eq_left h1.le]
      · rw [min_eq_right (by linarith), max_eq_right (by norm_num)]
      · rw [min_eq_left (by linarith), max_eq_right (by linarith)]
    rw [this]; fun_prop
  have hun : Continuous a.unscale := by unfold AInput.unscale; fun_prop
  have lt : Tendsto (fun t : ℕ => α * ((t : ℝ) * dt) / ((n + 1) * h) ^ 2) atTop atTop := by
    have h1 : Tendsto (fun t : ℕ => α * dt / ((n + 1) * h) ^ 2 * (t : ℝ)) atTop atTop := Tendsto.const_mul_atTop (by positivity) tendsto_natCast_atTop_atTop
    exact h1.congr fun t => by ring
  have lg : Tendsto g atTop (𝓝 (a.unscale (clip S))) := ((hun.comp hclip).tendsto _).comp ((C62_steady_state 1000 (a.scale pi) (a.scale pL) (a.scale pR) y).comp lt)
  have hlim : a.unscale (clip S) = pL + (pR - pL) * y := by
    rw [clip_id hSb]
    have h1 := P.unscale_scale pL
    have h2 := P.unscale_scale pR
    have haff : a.unscale S = a.unscale (a.scale pL) + (a.unscale (a.scale pR) - a.unscale (a.scale pL)) * y := by rw [hS]; unfold AInput.unscale; ring
    rw [haff, h1, h2]
  rw [hlim] at lg
  obtain ⟨t0, ht0⟩ := (lg.eventually (Metric.ball_mem_nhds _ hε)).exists_forall_of_atTop
  refine ⟨t0, fun t h0 nsteps cell ht hc => ?_⟩
  have hal : a.alpha.length = n + 2 := by rw [hs.alpha]; simp
  have row := C57_repeated_partial P.dt α (fun v hv => by rw [hs.alpha] at hv; exact (List.mem_replicate.1 hv).2) nsteps t cell ht (by rw [hal]; exact hc)
  rw [hal, e0, en, hLx, hs.pi, hs.dt] at row
  refine ⟨_, g t, row, ?_, ht0 t h0⟩
  have hx1 : a.xD[i + 1]? = some y := by
    unfold AInput.xD
    rw [hLx, P.lmin_x.1, hs.x, List.map_map, List.getElem?_map, List.getElem?_range (by omega), Option.map_some, hy]
    simp only [Function.comp]
    congr 1
    push_cast
    field_simp
    ring
  rw [List.getElem?_map, hx1]; rfl

/-- The two late-time values of a cell differ by this much. -/
lemma steady_gap (hn : 0 < n) (i : ℕ) : (pL + (pR - pL) * (((i : ℝ) + 1) / (n + 1))) - (pL + (pR - pL) * (((i : ℝ) + 1 / 2) / n)) = (pR - pL) * (n - 1 - 2 * i) / (2 * n * (n + 1)) := by
  have : (n : ℝ) ≠ 0 := by positivity
  have : (n : ℝ) + 1 ≠ 0 := by positivity
  field_simp; ring

/-- **C76, the two solutions of one model.** With different end pressures, in every cell but the middle one, from some step on the analytical solution of the model is never what finite differences
store: the two solutions take the end pressures at different places. -/
theorem C76_analytic_differs (b : BarCase M n h k φ c m0 pi pL pR) {a : AInput} (hs : SameBar a n h (IsBar.alpha M k φ) M.dt pi pL pR) (hne : pL ≠ pR) {i : ℕ} (hi : i < n) (hmid : 2 * i + 1 ≠ n) :
    ∃ t0, ∀ (m : Mdl ℝ) (s : Sol ℝ), Hist c Any m0 m s → ∀ t, t0 ≤ t → t ≤ s.tstep → ∀ nsteps cell, t ≤ nsteps → cell < n + 2 →
      ∃ p row q, rowAt s.press t none (i + 1) = some p ∧ (a.run nsteps)[t * (n + 2) + cell]? = some row ∧ row[i + 1]? = some q ∧ p ≠ q := by
  have hn : 0 < n := by omega
  have hh := b.bar.h_pos b.pos
  have gap := steady_gap (pL := pL) (pR := pR) hn i
  set A := pL + (pR - pL) * (((i : ℝ) + 1) / (n + 1)) with hA
  set F := pL + (pR - pL) * (((i : ℝ) + 1 / 2) / n) with hF
  have hd : A - F ≠ 0 := by
    rw [gap]
    have h1 : (n : ℝ) - 1 - 2 * i ≠ 0 := fun h0 => hmid (by have : (2 * i + 1 : ℝ) = n := by linarith
                                                            exact_mod_cast this)
    have h2 : (n : ℝ) ≠ 0 := by positivity
    have h3 : (n : ℝ) + 1 ≠ 0 := by positivity
    exact div_ne_zero (mul_ne_zero (sub_ne_zero.2 hne.symm) h1) (mul_ne_zero (mul_ne_zero two_ne_zero h2) h3)
  have hε : 0 < |A - F| / 2 := by positivity
  obtain ⟨t1, h1⟩ := C76_steady b hi hε
  obtain ⟨t2, h2⟩ := hs.steady hh b.pos.dt b.alpha_pos hne hi hε
  refine ⟨max t1 t2, fun m s hist t h0 ht nsteps cell hst hc => ?_⟩
  obtain ⟨p, hp, hp'⟩ := h1 m s hist t (le_of_max_le_left h0) ht
  obtain ⟨row, q, hr, hq, hq'⟩ := h2 t (le_of_max_le_right h0) nsteps cell hst hc
  refine ⟨p, row, q, hp, hr, hq, fun e => ?_⟩
  rw [mul_div_mul_right _ _ hh.ne'] at hp'
  rw [← e] at hq'
  have := abs_sub_le A p F
  rw [abs_sub_comm A p] at this
  linarith

/-! ## Instances -/

/-- A grid with positive data and at least one flow axis always gives an environment. -/
lemma env_exists {K : Type} [Field K] [LinearOrder K] [IsStrictOrderedRing K] {M : GridModel K} (hM : M.Pos) (hD : 1 ≤ M.g.getD) : ∃ e, M.env = .ok e := by
  have hg := geomOf_of_calc hM.geom
  obtain ⟨G, hG, -⟩ := matrix_values (r := M.rock) M.β hg hM.sizes hM.rock hD
  obtain ⟨v, hv, -⟩ := arithFlag_eq hg hM.rock
  have hlen := getD_length M.g
  obtain ⟨a, l, hf⟩ : ∃ a l, M.g.getFdir = a :: l := List.exists_cons_of_length_pos (by omega)
  have ha : Flow M.g.nx M.g.ny M.g.nz a := (mem_fdir M.g a).1 (by rw [hf]; exact List.mem_cons_self)
  have hd : RF.diag1 M.g M.geom M.rock M.β true = .ok ((List.range (M.g.getN true - 1)).map fun p =>
      pairG M.g M.sizes M.rock M.β v a (RF.pcell M.g true p) (RF.pcell M.g true (p + 1))) := by
    unfold RF.diag1 fdirAt
    simp only [hf, List.getElem?_cons_zero]
    rw [bind_ok, diagAt_eq hg hM.rock hv M.β true ha]
  unfold GridModel.env Env.ofGrid
  rw [getCellsId_false, bind_ok, getBoundariesId_eq, bind_ok]
  unfold cellsTransVect
  rw [hG, bind_ok]
  exact ⟨_, by rw [show ∀ T : ℕ → ℕ → K, (pure T : Except Err (ℕ → ℕ → K)) = .ok T from fun _ => rfl, bind_ok, hd, bind_ok]; rfl⟩

lemma runAll_any {K : Type} [Field K] [LinearOrder K] [IsStrictOrderedRing K] (c : Ctx K) (fuel : ℕ) (vect : Bool) (n : ℕ) (m : Mdl K) (s : Sol K) : RunAll c Any fuel vect n m s := by
  induction n generalizing m s with
  | zero => trivial
  | succ n ih => exact ⟨solveAll_any c fuel vect m s, fun m' s' _ => ih m' s'⟩

/-- A row of `n` cells of length `h` and diffusivity `α`, all other data one. -/
noncomputable def barModel (n : ℕ) (hn : 2 ≤ n) (h α dt : ℝ) (q : Geom ℝ) : GridModel ℝ :=
  { g := ⟨n, 1, 1, true, by omega, le_rfl, le_rfl⟩, sizes := ⟨.scalar h, .scalar 1, .scalar 1⟩, geom := q, rock := ⟨some (List.replicate (n + 2) 1), none, none⟩, β := α, mu := 1, B := 1
    grav := 0, depth := [], comp := true, phi := List.replicate (n + 2) 1, ct := 1, vconv := 1, dt := dt, wellReq := fun _ => .ok 1, wellG := fun _ _ r _ => .ok r }

lemma barModel_spec {n : ℕ} (hn : 2 ≤ n) {h α dt : ℝ} (hh : 0 < h) (hα : 0 < α) (hdt : 0 < dt) :
    ∃ q, IsBar (barModel n hn h α dt q) n h 1 1 ∧ (barModel n hn h α dt q).Pos := by
  obtain ⟨q, hq, -⟩ := calc_ok (K := ℝ) ⟨n, 1, 1, true, by omega, le_rfl, le_rfl⟩ ⟨.scalar h, .scalar 1, .scalar 1⟩ trivial trivial trivial
  have hrep : ∀ i, i < n + 2 → (List.replicate (n + 2) (1 : ℝ)).getD i 0 = 1 := fun i hi => by simp [hi]
  have hb : IsBar (barModel n hn h α dt q) n h 1 1 :=
    ⟨hn, rfl, rfl, rfl, fun _ _ => rfl, fun i hi => by
      show (List.replicate (n + 2) (1 : ℝ)).getD (cellNumber n 1 (i, 0, 0)) 0 = 1
      rw [show cellNumber n 1 (i, 0, 0) = i by simp [cellNumber, number]]; exact hrep i hi, hrep, rfl, .inl rfl⟩
  have hcell : ∀ c, InGrid n 1 1 c → cellNumber n 1 c < n + 2 := fun c hc => by
    have := (barModel n hn h α dt q).g.num_lt hc
    have e := (barModel n hn h α dt q).g.getN_true
    rw [hb.padded_nx, hb.padded_ny, hb.padded_nz] at e
    have : cellNumber n 1 c < (barModel n hn h α dt q).g.getN true := this
    omega
  refine ⟨q, hb, ⟨hq, ⟨fun _ _ => hh, fun _ _ => one_pos, fun _ _ => one_pos⟩, ⟨fun a l hl => ?_, fun a ha => ?_⟩, fun a ha c hc => ?_, fun a c hc => ?_, hα, one_pos, one_pos, one_pos, hdt, fun c hc => ?_, fun _ => one_pos⟩⟩
  · rw [hb.padded_nx, hb.padded_ny, hb.padded_nz]
    cases a
    · have : l = List.replicate (n + 2) 1 := (Option.some.inj hl).symm
      rw [this]; simp
    · exact absurd hl (by simp [barModel, Rock.k])
    · exact absurd hl (by simp [barModel, Rock.k])
  · cases a
    · simp [barModel, Rock.k]
    · simp [Flow, along, barModel] at ha
    · simp [Flow, along, barModel] at ha
  · cases a
    · show (0 : ℝ) < (List.replicate (n + 2) (1 : ℝ)).getD (cellNumber n 1 c) 0
      rw [hrep _ (hcell c (Interior.inGrid hc))]; exact one_pos
    · simp [Flow, along, barModel] at ha
    · simp [Flow, along, barModel] at ha
  · cases a
    · show (0 : ℝ) ≤ (List.replicate (n + 2) (1 : ℝ)).getD (cellNumber n 1 c) 0
      rw [hrep _ (hcell c hc)]; exact zero_le_one
    · exact le_of_eq (by simp [perm, barModel, Rock.k])
    · exact le_of_eq (by simp [perm, barModel, Rock.k])
  · show (0 : ℝ) < (List.replicate (n + 2) (1 : ℝ)).getD (cellNumber n 1 c) 0
    rw [hrep _ (hcell c (Interior.inGrid hc))]; exact one_pos

/-- The hypotheses of C76 are met: for every number of cells, cell length, diffusivity, time step and pressures (not zero at the ends) there is such a model, and it can be run for any number of steps. -/
theorem C76_instances {n : ℕ} (hn : 2 ≤ n) {h α dt : ℝ} (hh : 0 < h) (hα : 0 < α) (hdt : 0 < dt) (pi : ℝ) {pL pR : ℝ} (hL : pL ≠ 0) (hR : pR ≠ 0) :
    ∃ M c m0, BarCase M n h 1 1 c m0 pi pL pR ∧ IsBar.alpha M 1 1 = α ∧ M.dt = dt ∧ ∀ steps, ∃ m s, Hist c Any m0 m s ∧ s.tstep = steps := by
  obtain ⟨q, hb, hM⟩ := barModel_spec hn hh hα hdt
  obtain ⟨e, he⟩ := env_exists hM (by rw [hb.dim])
  obtain ⟨lin, hx, hcomplete⟩ := exists_solver (K := ℝ)
  let c : Ctx ℝ := ⟨e, fun s => s, fun _ _ => 1, lin⟩
  let m0 : Mdl ℝ := { Mdl.init e (some pi) with
    bdict := [(0, "pressure", pL), (n + 1, "pressure", pR)], bUpdate := [0, n + 1]
    initP := Function.update (Function.update (Mdl.init e (some pi)).initP 0 (some pL)) (n + 1) (some pR) }
  have hset : setBoundaries c.lower e (Mdl.init e (some pi)) none [(0, "pressure", pL), (n + 1, "pressure", pR)] = ((m0, none), .ok ()) := by
    unfold setBoundaries setBoundaryLoop setBoundaryLoop setBoundaryLoop setBoundary
    simp [hb.mem_bnd he (.inl rfl), hb.mem_bnd he (.inr rfl), c, setPressure, m0]
  have hstd : Standard c.lower e [(0, "pressure", pL), (n + 1, "pressure", pR)] m0 := .bounds (by simp) hset
  have hready : Ready c m0 := by
    refine ⟨⟨⟨rfl, rfl⟩, ⟨_, hM, he⟩, fun _ _ => one_ne_zero⟩, hstd.setup, fun x G hx => ?_, fun x hx => ?_, fun x hx => ?_⟩
    · simp [m0, Mdl.init] at hx
    · simp [m0, Mdl.init] at hx
    · have hx : x = (0, "pressure", pL) ∨ x = (n + 1, "pressure", pR) := by simpa [m0] using hx
      rcases hx with rfl | rfl <;> simp [c]
  have hid : ∀ id, id ∈ e.ids → ∃ i, i < n ∧ id = i + 1 := fun id hid => by
    have hid' := hid
    rw [(env_ok he).1, Dims.mem_innerIds] at hid'
    obtain ⟨i, hi, rfl⟩ := List.getElem_of_mem hid
    have hi' : i < n := by rw [← hb.n_eq he]; exact hi
    refine ⟨i, hi', ?_⟩
    rw [← hb.at_ he hi']
    unfold Env.at
    simp [hi]
  have hin : ∀ i, i < n → i + 1 ∈ e.ids := fun i hi => by
    rw [← hb.at_ he hi]
    unfold Env.at
    have : i < e.ids.length := by have := hb.n_eq he; unfold Env.n at this; omega
    simp [this]
  have hinit : ∀ i, i < n → m0.initP (i + 1) = some pi := fun i hi => by
    have h1 : i + 1 ≠ n + 1 := by omega
    simp only [m0]
    rw [Function.update_of_ne h1, Function.update_of_ne (by omega)]
    simp [Mdl.init, hin i hi]
  refine ⟨_, c, m0, ⟨hb, hM, he, hready, hx, ⟨.inl rfl, rfl⟩, hinit⟩, by simp [IsBar.alpha, getAlpha, barModel], rfl, fun steps => ?_⟩
  have hgiven : Given c.e m0 := fun _ id h => by
    obtain ⟨i, hi, rfl⟩ := hid id h
    exact ⟨pi, hinit i hi⟩
  have hcomp : c.e.comp = true := by
    obtain ⟨-, -, -, -, -, -, -, -, -, e10, -⟩ := env_ok he
    exact e10
  have hgrav : c.e.grav = 0 := by
    obtain ⟨-, -, -, -, -, -, -, -, -, -, -, e12, -⟩ := env_ok he
    exact e12
  have hT := hb.T_pos hM
  have hcond : Conducting c.e m0 := fun x hx _ => by
    have hx : x = (0, "pressure", pL) ∨ x = (n + 1, "pressure", pR) := by simpa [m0] using hx
    rcases hx with rfl | rfl
    · exact ⟨1, _, hb.face hM he (.inl ⟨rfl, rfl⟩), hT.ne', by rw [hgrav, zero_mul]; exact hL⟩
    · exact ⟨n, _, hb.face hM he (.inr ⟨rfl, rfl⟩), hT.ne', by rw [hgrav, zero_mul]; exact hR⟩
  have hrun := C67_run_partial (fuel := 1) hready (hcomplete _) hgiven hcond (.inl hcomp) (by simp [m0, Mdl.init]) .start steps 0
  exact ⟨_, _, Hist.run hready.ctx.lower hready.ctx.wf hready.started.mdl steps 0 .start (runAll_any _ _ _ _ _ _), hrun.2.trans (by simp [Sol.init])⟩

/-- The hypotheses of `C76_converges` are met however small `δ` is, at every place and time. -/
theorem C76_instances_fine {δ α L x τ : ℝ} (hδ : 0 < δ) (hα : 0 < α) (hx0 : 0 ≤ x) (hxL : x < L) (hτ : 0 < τ) (pi : ℝ) {pL pR : ℝ} (hL : pL ≠ 0) (hR : pR ≠ 0) :
    ∃ M n h c m0 m s t i, BarCase M n h 1 1 c m0 pi pL pR ∧ IsBar.alpha M 1 1 = α ∧ n * h = L ∧ h < δ ∧ M.dt < δ ∧ Hist c Any m0 m s ∧ t ≤ s.tstep ∧ i < n ∧
      |t * M.dt - τ| < δ ∧ |((i : ℝ) + 1 / 2) * h - x| < δ := by
  have hLp : 0 < L := hx0.trans_lt hxL
  obtain ⟨N, hN⟩ := exists_nat_gt (L / δ)
  have hn : (0 : ℝ) < ((N + 2 : ℕ) : ℝ) := by positivity
  have hNn : L / δ < ((N + 2 : ℕ) : ℝ) := hN.trans_le (by push_cast; linarith)
  have hh : 0 < L / ((N + 2 : ℕ) : ℝ) := by positivity
  have hlt : L / ((N + 2 : ℕ) : ℝ) < δ := by rw [div_lt_iff₀ hn]; rw [div_lt_iff₀ hδ] at hNn; linarith
  have hd : 0 < δ / 2 := by positivity
  obtain ⟨M, c, m0, b, ha, hdt, hrun⟩ := C76_instances (n := N + 2) (by omega) hh hα hd pi hL hR
  obtain ⟨m, s, hist, hs⟩ := hrun ⌊τ / (δ / 2)⌋₊
  set H := L / ((N + 2 : ℕ) : ℝ) with hH
  have f1 := Nat.floor_le (show 0 ≤ τ / (δ / 2) by positivity)
  have f2 := Nat.lt_floor_add_one (τ / (δ / 2))
  have g1 := Nat.floor_le (show 0 ≤ x / H by positivity)
  have g2 := Nat.lt_floor_add_one (x / H)
  rw [le_div_iff₀ hd] at f1
  rw [div_lt_iff₀ hd] at f2
  rw [le_div_iff₀ hh] at g1
  rw [div_lt_iff₀ hh] at g2
  refine ⟨M, N + 2, H, c, m0, m, s, ⌊τ / (δ / 2)⌋₊, ⌊x / H⌋₊, b, ha, by rw [hH]; field_simp, hlt, by rw [hdt]; linarith, hist, hs.ge, ?_, ?_, ?_⟩
  · rw [Nat.floor_lt (by positivity), div_lt_iff₀ hh, hH, mul_div_cancel₀ _ hn.ne']; exact hxL
  · rw [hdt, abs_lt]; constructor <;> linarith
  · rw [abs_lt]; constructor <;> linarith

/-- The hypotheses of `C76_analytic_differs` are met by three cells: in the first one the two solutions differ from some step on. -/
example : ∃ M c m0 a, BarCase M 3 2 1 1 c m0 3000 4000 1000 ∧ SameBar a 3 2 (IsBar.alpha M 1 1) M.dt 3000 4000 1000 ∧ (4000 : ℝ) ≠ 1000 ∧ 2 * 0 + 1 ≠ 3 ∧
    ∃ m s, Hist c Any m0 m s ∧ s.tstep = 100 := by
  obtain ⟨M, c, m0, b, -, -, hrun⟩ := C76_instances (n := 3) (by norm_num) (h := 2) (α := 5) (dt := 1) (by norm_num) (by norm_num) (by norm_num) 3000 (pL := 4000) (pR := 1000) (by norm_num) (by norm_num)
  exact ⟨M, c, m0, ⟨_, _, _, 3000, M.dt⟩, b, ⟨rfl, rfl, rfl, rfl, rfl⟩, by norm_num, by norm_num, hrun 100⟩

end RF.Fdm
