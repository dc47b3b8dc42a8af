import Verif.Fdm.PropsTiltOrder
/-!
# The initial state is forgotten, on inclined reservoirs with target rates (C69)

As in PropsTiltOrder.lean, for runs in which no well changes its constraint.
-/
set_option linter.unusedSectionVars false
namespace RF.Fdm
open RF RF.Dims RF.Spec Finset

variable {K : Type} [Field K] [LinearOrder K] [IsStrictOrderedRing K]
variable {c : Ctx K} {m n m0 : Mdl K}

lemma PressureGiven.asRates {e : Env K} (h : PressureGiven e m) : PressureGiven e m.asRates := by
  rcases h with ⟨b, id, T, hb, hp, hF, hT⟩ | h
  · exact .inl ⟨b, id, T, List.mem_map.2 ⟨b, hb, by unfold plain; rw [if_pos hp]⟩, hp, hF, hT⟩
  · exact .inr h

/-- **C69, inclined reservoirs, vectorised, all wells.** Where a pressure is imposed somewhere there are `A` and `ρ < 1`, depending only on grid, fluid, time step and on which conditions are pressures, such that two runs
of models that differ by at most `D` in initial pressures and by at most `δ` in given pressures differ after `j` steps by at most `δ + A ρ ^ j D`, whatever the depths of the cells and the target rates, as long as no
well changes its constraint in either run. -/
theorem C69_tilted_partial (hm : Ready c m) (hx : Exact c.lin) (hi : PressureGiven c.e m) :
    ∃ A ρ : K, 0 ≤ ρ ∧ ρ < 1 ∧ 0 ≤ A ∧ ∀ (m0 n0 : Mdl K) (δ D : K) (f f' k : ℕ) (el el' : K), Shape m m0 → Shape m n0 → Ready c m0 → Ready c n0 → Within δ m0 n0 → 0 ≤ D → 0 ≤ δ →
      (c.e.comp = true → ∀ id, id ∈ c.e.ids → ∃ p q, m0.initP id = some p ∧ n0.initP id = some q ∧ |p - q| ≤ D) →
      RunAll c Steady f true k m0 { Sol.init m0 with nsteps := (Sol.init m0).nsteps + k } → RunAll c Steady f' true k n0 { Sol.init n0 with nsteps := (Sol.init n0).nsteps + k } →
      (run c f true k el m0 (Sol.init m0)).2 = .ok () → (run c f' true k el' n0 (Sol.init n0)).2 = .ok () →
      Close (fun j => δ + A * ρ ^ j * D) c (run c f true k el m0 (Sol.init m0)).1.2 (run c f' true k el' n0 (Sol.init n0)).1.2 := by
  obtain ⟨z, ρ, a, b, hρ, hρ1, ha, hab, hz⟩ := profile hm.ctx true hm.asRates.started.mdl hi.asRates
  have hz0 : ∀ i, i < c.e.n → 0 ≤ z i := fun i hi => ha.le.trans (hab i hi).1
  have hb : 0 ≤ b := (hz0 0 hm.ctx.wf.pos).trans (hab 0 hm.ctx.wf.pos).2
  refine ⟨b / a, ρ, hρ, hρ1, by positivity, fun m0 n0 δ D f f' k el el' s1 s2 hr hr' hw hD hδ hinit hP hP' hs hs' => ?_⟩
  have hC : 0 ≤ D / a := by positivity
  have r := run_asRates hr f k el
  have r' := run_asRates hr' f' k el'
  have far : ∀ i, i < c.e.n → D ≤ δ + D / a * ρ ^ 0 * z i := fun i hin => by
    have : D = D / a * a := by field_simp
    have h4 : D / a * a ≤ D / a * z i := mul_le_mul_of_nonneg_left (hab i hin).1 hC
    rw [pow_zero, mul_one]; linarith
  have k1 := run_decay_tilted (f := f) (f' := f') (el := el) (el' := el') hr.asRates hr'.asRates hx (hw.asRates hr hr' |>.shape hr.asRates hr'.asRates) (hw.asRates hr hr').most
    (decays_profile δ (D / a) hC hρ hz0 s1.asRates.outLeak hz) (asRates_given m0) (asRates_given n0) (s1.pressureGiven hi).asRates.anchored
    (fun h i hin => by obtain ⟨p, q, k1, k2, k3⟩ := hinit h _ (at_mem c.e hin); exact ⟨p, q, k1, k2, by linarith [(abs_le.1 k3).2, far i hin]⟩)
    (r.2.2.2 _ steady_blind hP) (r'.2.2.2 _ steady_blind hP') (by rw [r.2.1]; exact hs) (by rw [r'.2.1]; exact hs')
  have k2 := run_decay_tilted (f := f') (f' := f) (el := el') (el' := el) hr'.asRates hr.asRates hx (hw.symm.asRates hr' hr |>.shape hr'.asRates hr.asRates) (hw.symm.asRates hr' hr).most
    (decays_profile δ (D / a) hC hρ hz0 s2.asRates.outLeak hz) (asRates_given n0) (asRates_given m0) (s2.pressureGiven hi).asRates.anchored
    (fun h i hin => by obtain ⟨p, q, k1, k2, k3⟩ := hinit h _ (at_mem c.e hin); exact ⟨q, p, k2, k1, by linarith [(abs_le.1 k3).1, far i hin]⟩)
    (r'.2.2.2 _ steady_blind hP') (r.2.2.2 _ steady_blind hP) (by rw [r'.2.1]; exact hs') (by rw [r.2.1]; exact hs)
  rw [r.1, r'.1] at k1 k2
  obtain ⟨t, t', k1⟩ := k1
  obtain ⟨-, -, k2⟩ := k2
  refine ⟨by rw [t, t'], fun j hj hcp id hid => ?_⟩
  obtain ⟨p, q, a1, a2, a3⟩ := k1 j (by omega) hcp id hid
  obtain ⟨q', p', b1, b2, b3⟩ := k2 j (by omega) hcp id hid
  rw [a2] at b1
  rw [a1] at b2
  obtain rfl := Option.some.inj b1
  obtain rfl := Option.some.inj b2
  have h4 : D / a * ρ ^ j * z (c.e.ids.idxOf id) ≤ D / a * ρ ^ j * b := mul_le_mul_of_nonneg_left (hab _ (idx_lt c.e hid)).2 (mul_nonneg hC (pow_nonneg hρ _))
  have : D / a * ρ ^ j * b = b / a * ρ ^ j * D := by ring
  exact ⟨p, q, a1, a2, abs_le.2 ⟨by linarith, by linarith⟩⟩

/-! ### A simulation settles down -/

/-- Two solutions of the balance with the same sources: what separates the old pressures separates the new ones, one step further down the profile. -/
lemma residue_le {β : ℕ → ℕ → K} (hr : Ready c m) (hd : Decays c true m 0 0 β) (han : Anchored c.e m) (k : ℕ) {o o' x y : ℕ → K}
    (h1 : ∀ i, i < c.e.n → residue c.e (c.e.trans true) m o x i = residue c.e (c.e.trans true) m o' y i) (h2 : ∀ i, i < c.e.n → o i ≤ o' i + β k i) :
    ∀ i, i < c.e.n → x i ≤ y i + β (k + 1) i := fun i hi => by
  have he := hr.ctx.wf
  have hm := hr.started.mdl
  have := Net.nonneg_of_inflow_nonpos (anchored_leaky he (hr.ctx.grid.network true) hm han) (p := fun j => y j - x j + β (k + 1) j) (fun i hi => by
    rw [inflow_add]
    have d := residue_diff (T := c.e.trans true) he hm hm (shape_self m) o o' x y i
    rw [h1 i hi, sub_self, push_self] at d
    have e : leak c.e m i = c.e.rhs (c.e.at i) + outLeak c.e m i := by unfold leak outLeak; ring
    have rr := mul_nonneg (rhs_nonneg he (at_mem c.e hi)) (show 0 ≤ o' i - o i + β k i by linarith [h2 i hi])
    have f := (hd k i hi).2
    have g : Net.inflow c.e.n (c.e.trans true) (leak c.e m) (β (k + 1)) i = ∑ j ∈ range c.e.n, c.e.trans true i j * (β (k + 1) j - β (k + 1) i) - leak c.e m i * β (k + 1) i := rfl
    rw [g, e]
    nlinarith) i hi
  linarith

/-- **C69, inclined reservoirs, vectorised, all wells (a simulation settles down).** With constants as in `C69_tilted_partial`: if the first step of a run changes no pressure by more than `D`, the pressures never leave
a band of width `A ρ ^ j D` around those after `j` steps again, whatever the depths of the cells and the target rates, as long as no well changes its constraint. -/
theorem C69_tilted_settle_partial (hm : Ready c m) (hx : Exact c.lin) (hi : PressureGiven c.e m) :
    ∃ A ρ : K, 0 ≤ ρ ∧ ρ < 1 ∧ 0 ≤ A ∧ ∀ (m0 : Mdl K) (D : K) (f k : ℕ) (el : K) (s : Sol K), Shape m m0 → Ready c m0 → 0 ≤ D →
      RunAll c Steady f true k m0 { Sol.init m0 with nsteps := (Sol.init m0).nsteps + k } → (run c f true k el m0 (Sol.init m0)).2 = .ok () →
      s = (run c f true k el m0 (Sol.init m0)).1.2 →
      (∀ id, id ∈ c.e.ids → ∃ p q, s.at 0 id = some p ∧ s.at 1 id = some q ∧ |q - p| ≤ D) →
      ∀ id, id ∈ c.e.ids → ∀ j l, j ≤ l → l ≤ k → ∃ p q, s.at j id = some p ∧ s.at l id = some q ∧ |q - p| ≤ A * ρ ^ j * D := by
  obtain ⟨z, ρ, a, b, hρ, hρ1, ha, hab, hz⟩ := profile hm.ctx true hm.asRates.started.mdl hi.asRates
  have hz0 : ∀ i, i < c.e.n → 0 ≤ z i := fun i hi => ha.le.trans (hab i hi).1
  have hb : 0 ≤ b := (hz0 0 hm.ctx.wf.pos).trans (hab 0 hm.ctx.wf.pos).2
  have hd0 : 0 < 1 - ρ := by linarith
  refine ⟨b / a / (1 - ρ), ρ, hρ, hρ1, by positivity, fun m0 D f k el s s1 hr hD hP hs he hfirst id hid j l hjl hlk => ?_⟩
  have hC : 0 ≤ D / a := by positivity
  have hd := decays_profile (n := m0.asRates) 0 (D / a) hC hρ hz0 s1.asRates.outLeak hz
  have han := (s1.pressureGiven hi).asRates.anchored
  have r := run_asRates hr f k el
  obtain ⟨bal, nn, t, i0⟩ := run_tilted hr.asRates (f := f) (N := k) (el := el) hx (asRates_given m0) (r.2.2.2 _ steady_blind hP) (by rw [r.2.1]; exact hs)
  rw [r.1, ← he] at bal nn t i0
  have num : ∀ j, j ≤ k → ∀ id, id ∈ c.e.ids → s.at j id = some (s.inner c.e j (c.e.ids.idxOf id)) := fun j hj id hid => by
    rcases Nat.eq_zero_or_pos j with h0 | h0
    · obtain ⟨p, q, h1, -, -⟩ := hfirst id hid
      have h2 := h1
      unfold Sol.at at h2
      unfold Sol.inner
      rw [h0, at_idx c.e hid, h1, h2]; rfl
    · have := nn j h0 (by omega) _ (idx_lt c.e hid)
      rw [at_idx c.e hid] at this
      exact this
  have key : ∀ j, j < k → ∀ i, i < c.e.n → |s.inner c.e j i - s.inner c.e (j + 1) i| ≤ 0 + D / a * ρ ^ j * z i := by
    intro j
    induction j with
    | zero =>
      intro hj i hin
      obtain ⟨p, q, h1, h2, h3⟩ := hfirst _ (at_mem c.e hin)
      unfold Sol.at at h1 h2
      unfold Sol.inner
      rw [h1, h2]
      have : D = D / a * a := by field_simp
      have h4 : D / a * a ≤ D / a * z i := mul_le_mul_of_nonneg_left (hab i hin).1 hC
      rw [abs_sub_comm, pow_zero, mul_one]
      exact h3.trans (by linarith)
    | succ j ih =>
      intro hj i hin
      have ih := ih (by omega)
      have e : ∀ i, i < c.e.n → residue c.e (c.e.trans true) m0.asRates (s.inner c.e j) (s.inner c.e (j + 1)) i = residue c.e (c.e.trans true) m0.asRates (s.inner c.e (j + 1)) (s.inner c.e (j + 1 + 1)) i := fun i hi => by
        rw [eq_neg_of_add_eq_zero_left (bal j (by omega) i hi), eq_neg_of_add_eq_zero_left (bal (j + 1) (by omega) i hi)]
      have u1 := residue_le hr.asRates hd han j e (fun i hi => by linarith [(abs_le.1 (ih i hi)).2]) i hin
      have u2 := residue_le hr.asRates hd han j (fun i hi => (e i hi).symm) (fun i hi => by linarith [(abs_le.1 (ih i hi)).1]) i hin
      exact abs_le.2 ⟨by linarith, by linarith⟩
  have hin := idx_lt c.e hid
  refine ⟨_, _, num j (by omega) id hid, num l hlk id hid, ?_⟩
  have := geom_tail (C := D / a * b) hρ hρ1 (by positivity) (p := fun j => s.inner c.e j (c.e.ids.idxOf id)) (j := j) (l := l - j) fun i _ hi => by
    refine (key i (by omega) _ hin).trans ?_
    have h4 : D / a * ρ ^ i * z (c.e.ids.idxOf id) ≤ D / a * ρ ^ i * b := mul_le_mul_of_nonneg_left (hab _ hin).2 (mul_nonneg hC (pow_nonneg hρ _))
    rw [zero_add]
    refine h4.trans (le_of_eq (by ring))
  rw [show j + (l - j) = l by omega] at this
  refine this.trans (le_of_eq ?_)
  field_simp

/-! ### The hypotheses are met -/

/-- On the slope, for initial pressures of 8 and 16: the difference dies out. -/
example : ∃ A ρ : ℚ, 0 ≤ ρ ∧ ρ < 1 ∧ 0 ≤ A ∧ Close (fun j => 0 + A * ρ ^ j * 8) (exC true 3 [4, 5, 7, 9]) (exSteepRun 8 10 (-2) (-90) 3) (exSteepRun 16 10 (-2) (-90) 3) := by
  obtain ⟨A, ρ, h1, h2, h3, key⟩ := C69_tilted_partial (c := exC true 3 [4, 5, 7, 9]) (m := exSteep 8 10 (-2) (-90)) (exMdl_ready (by decide +kernel)) cramer_exact
    (.inl ⟨(0, "pressure", 10), 1, 1, by decide +kernel, rfl, by unfold Env.Face; decide +kernel, by norm_num⟩)
  exact ⟨A, ρ, h1, h2, h3, key (exSteep 8 10 (-2) (-90)) (exSteep 16 10 (-2) (-90)) 0 8 10 10 3 0 0 ⟨by decide +kernel, by decide +kernel⟩ ⟨by decide +kernel, by decide +kernel⟩ (exMdl_ready (by decide +kernel))
    (exMdl_ready (by decide +kernel)) ⟨by decide +kernel, by decide +kernel⟩ (by norm_num) le_rfl
    (fun _ id hid => ⟨8, 16, all_of (p := fun id => (exSteep 8 10 (-2) (-90)).initP id = some 8) (by decide +kernel) id hid,
      all_of (p := fun id => (exSteep 16 10 (-2) (-90)).initP id = some 16) (by decide +kernel) id hid, by norm_num⟩)
    (runSteadyB_all (by decide +kernel)) (runSteadyB_all (by decide +kernel)) (isOk_unit (by decide +kernel)) (isOk_unit (by decide +kernel))⟩

/-- On the slope, with initial pressures of 8: it settles down. -/
example : ∃ A ρ D : ℚ, 0 ≤ ρ ∧ ρ < 1 ∧ 0 ≤ A ∧ ∀ id, id ∈ (exC true 3 [4, 5, 7, 9]).e.ids → ∀ j l, j ≤ l → l ≤ 3 →
    ∃ p q, (exSteepRun 8 10 (-2) (-90) 3).at j id = some p ∧ (exSteepRun 8 10 (-2) (-90) 3).at l id = some q ∧ |q - p| ≤ A * ρ ^ j * D := by
  obtain ⟨A, ρ, h1, h2, h3, key⟩ := C69_tilted_settle_partial (c := exC true 3 [4, 5, 7, 9]) (m := exSteep 8 10 (-2) (-90)) (exMdl_ready (by decide +kernel)) cramer_exact
    (.inl ⟨(0, "pressure", 10), 1, 1, by decide +kernel, rfl, by unfold Env.Face; decide +kernel, by norm_num⟩)
  refine ⟨A, ρ, 100, h1, h2, h3, key (exSteep 8 10 (-2) (-90)) 100 10 3 0 _ ⟨by decide +kernel, by decide +kernel⟩ (exMdl_ready (by decide +kernel)) (by norm_num)
    (runSteadyB_all (by decide +kernel)) (isOk_unit (by decide +kernel)) rfl fun id hid => ?_⟩
  have : ∀ id ∈ (exC true 3 [4, 5, 7, 9]).e.ids, ((exSteepRun 8 10 (-2) (-90) 3).at 0 id).isSome ∧ ((exSteepRun 8 10 (-2) (-90) 3).at 1 id).isSome ∧
      |((exSteepRun 8 10 (-2) (-90) 3).at 1 id).getD 0 - ((exSteepRun 8 10 (-2) (-90) 3).at 0 id).getD 0| ≤ 100 := by decide +kernel
  obtain ⟨k1, k2, k3⟩ := this id hid
  obtain ⟨p, hp⟩ := Option.isSome_iff_exists.1 k1
  obtain ⟨q, hq⟩ := Option.isSome_iff_exists.1 k2
  rw [hp, hq] at k3
  exact ⟨p, q, hp, hq, k3⟩

end RF.Fdm
