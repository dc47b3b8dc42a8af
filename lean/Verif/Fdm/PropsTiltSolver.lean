import Verif.Fdm.PropsInclined
import Verif.Fdm.PropsSolver
/-!
# Approximate solvers on inclined reservoirs (C72), vectorised assembler, wells without target rates
-/
set_option linter.unusedSectionVars false
namespace RF.Fdm
open RF RF.Dims RF.Spec Finset

variable {K : Type} [Field K] [LinearOrder K] [IsStrictOrderedRing K]
variable {c : Ctx K} {m0 : Mdl K}

/-- The levelled reservoir is the same for all linear solvers. -/
lemma level_lin (hr : Ready c m0) (hw : ∀ w, w ∈ m0.wells → w.2.qsp = none) : ∃ z : ℕ → K, (c.moved z c.e.grav).e.Flat ∧ Ready (c.moved z c.e.grav) m0 ∧
    ∀ lin f n t, run { c.moved z c.e.grav with lin := lin } f true n t m0 (Sol.init m0) = run { c with lin := lin } f true n t m0 (Sol.init m0) := by
  obtain ⟨M, hM, he⟩ := hr.ctx.grid
  have he' : (M.moved (levelled M c.e) c.e.grav).env = .ok (c.moved (fun id => (levelled M c.e).getD id 0) c.e.grav).e := moved_env he _ _
  have hM' : (M.moved (levelled M c.e) c.e.grav).Pos := ⟨hM.geom, hM.sizes, hM.rock, hM.perm, hM.permB, hM.β, hM.mu, hM.B, hM.vconv, hM.dt, hM.phi, hM.ct⟩
  refine ⟨fun id => (levelled M c.e).getD id 0, .inr fun i hi => ?_, ⟨⟨hr.ctx.lower, ⟨_, hM', he'⟩, hr.ctx.scale⟩, setup_moved hr.setup, hr.G, hr.cfg, hr.canon⟩, fun lin f n t => ?_⟩
  · show (levelled M c.e).getD (c.e.at i) 0 = (levelled M c.e).getD (c.e.at 0) 0
    rw [levelled_inner he (at_mem c.e hi), levelled_inner he (at_mem c.e hr.ctx.wf.pos)]
  · have hr1 : Ready { c with lin := lin } m0 := ⟨⟨hr.ctx.lower, hr.ctx.grid, hr.ctx.scale⟩, hr.setup, hr.G, hr.cfg, hr.canon⟩
    exact C49_depths_ignored (c := { c with lin := lin }) (c' := { c.moved (fun id => (levelled M c.e).getD id 0) c.e.grav with lin := lin }) he _ _ he' rfl rfl rfl hr1 hw
      (fun b id T hb _ hf => by
        show c.e.grav * _ = c.e.grav * _
        rw [levelled_head hM he (hr.started.mdl.bmem b hb) hf]) f n t

/-- **C72, inclined reservoirs, vectorised.** Where a pressure is imposed there is a constant `C` such that two runs with solvers that miss their equations by at most `ε` and `ε'` differ by at most
`C * (ε + ε')` in every cell after every step, whatever the depths of the cells. Missing: wells with target rates. -/
theorem C72_inclined_partial (hr : Ready c m0) (hw : PressureWells m0) {S : K} (hu : ScaledBy S c true) (hi : PressureGiven c.e m0) :
    ∃ C : K, 0 ≤ C ∧ ∀ (lin lin' : LinSolver K) (tol tol' : (ℕ → K) → K) (ε ε' : K) (f f' k : ℕ) (el el' : K) (m m' : Mdl K) (s s' : Sol K),
      Tolerant tol lin → Tolerant tol' lin' → 0 ≤ ε → 0 ≤ ε' →
      (c.e.comp = true → ∀ id, id ∈ c.e.ids → (m0.initP id).isSome = true) →
      run { c with lin := lin } f true k el m0 (Sol.init m0) = ((m, s), .ok ()) → run { c with lin := lin' } f' true k el' m0 (Sol.init m0) = ((m', s'), .ok ()) →
      (∀ d, d ∈ s.ds → tol d ≤ ε) → (∀ d, d ∈ s'.ds → tol' d ≤ ε') → Close (fun _ => C * (ε + ε')) c s s' := by
  obtain ⟨z, flat, r, e⟩ := level_lin hr fun w h => (hw w h).1
  obtain ⟨C, hC, key⟩ := C72_uniform_partial r (vect := true) hu (fun _ => flat) hi
  refine ⟨C, hC, fun lin lin' tol tol' ε ε' f f' k el el' m m' s s' h1 h2 h3 h4 h5 h6 h7 h8 h9 => ?_⟩
  have rl : ∀ lin, Ready { c.moved z c.e.grav with lin := lin } m0 := fun lin => ⟨⟨r.ctx.lower, r.ctx.grid, r.ctx.scale⟩, r.setup, r.G, r.cfg, r.canon⟩
  exact key lin lin' tol tol' ε ε' f f' k el el' m m' s s' h1 h2 h3 h4 h5 (pressure_runAll (rl lin) hw true f k (.clock _ (Sol.init m0).ctime .start))
    (pressure_runAll (rl lin') hw true f' k (.clock _ (Sol.init m0).ctime .start)) ((e lin f k el).trans h6) ((e lin' f' k el').trans h7) h8 h9

/-- **C72, inclined compressible reservoirs, vectorised.** Also where no pressure is imposed; after `j` steps the two runs differ by at most `j S (ε + ε') / ρ`, where `ρ` is the smallest storage of a cell. Missing: wells
with target rates. -/
theorem C72_inclined_storage_partial (hr : Ready c m0) (hw : PressureWells m0) {S : K} (hu : ScaledBy S c true) (hc : c.e.comp = true) {ρ : K} (hρ : 0 < ρ) (hst : ∀ id, id ∈ c.e.ids → ρ ≤ c.e.rhs id)
    (lin lin' : LinSolver K) (tol tol' : (ℕ → K) → K) {ε ε' : K} (f f' k : ℕ) (el el' : K) {m m' : Mdl K} {s s' : Sol K} (hx : Tolerant tol lin) (hx' : Tolerant tol' lin') (hε : 0 ≤ ε) (hε' : 0 ≤ ε')
    (hinit : ∀ id, id ∈ c.e.ids → (m0.initP id).isSome = true) (hs : run { c with lin := lin } f true k el m0 (Sol.init m0) = ((m, s), .ok ()))
    (hs' : run { c with lin := lin' } f' true k el' m0 (Sol.init m0) = ((m', s'), .ok ())) (hd : ∀ d, d ∈ s.ds → tol d ≤ ε) (hd' : ∀ d, d ∈ s'.ds → tol' d ≤ ε') :
    Close (fun j => j * ((S * ε + S * ε') / ρ)) c s s' := by
  obtain ⟨z, flat, r, e⟩ := level_lin hr fun w h => (hw w h).1
  have rl : ∀ lin, Ready { c.moved z c.e.grav with lin := lin } m0 := fun lin => ⟨⟨r.ctx.lower, r.ctx.grid, r.ctx.scale⟩, r.setup, r.G, r.cfg, r.canon⟩
  exact C72_storage_partial (c := c.moved z c.e.grav) r (vect := true) hu (fun _ => flat) hc hρ hst lin lin' tol tol' f f' k el el' hx hx' hε hε' hinit
    (pressure_runAll (rl lin) hw true f k (.clock _ (Sol.init m0).ctime .start)) (pressure_runAll (rl lin') hw true f' k (.clock _ (Sol.init m0).ctime .start)) ((e lin f k el).trans hs)
    ((e lin' f' k el').trans hs') hd hd'

/-! ### instances -/

/-- A slope with a pressure at the upper end and a well at bottom-hole pressure 13 in the lower cell. -/
def exSlopeRough : Mdl ℚ := exMdl true 3 [4, 5, 7, 9] (some 20) [(0, "pressure", 10)] [(2, { pwf := some 13, r := some 1 })]

lemma exSlopeRough_ready : Ready (exC true 3 [4, 5, 7, 9]) exSlopeRough := exMdl_ready (by decide +kernel)

lemma exSlopeRough_wells : PressureWells exSlopeRough := by unfold PressureWells; decide +kernel

/-- The hypotheses of both theorems are met by a solver that misses its equations; the pressures do differ. -/
example : ∃ (C : ℚ) (s t : Sol ℚ), s.tstep = 3 ∧ rowAt s.press 3 none 1 ≠ rowAt t.press 3 none 1 ∧ Close (fun _ => C * (1 / 100 + 0)) (exC true 3 [4, 5, 7, 9]) s t := by
  obtain ⟨C, -, h⟩ := C72_inclined_partial (S := 1) exSlopeRough_ready exSlopeRough_wells ⟨le_rfl, fun h => by cases h⟩ (.inr (by decide +kernel))
  exact ⟨C, _, _, by decide +kernel, by decide +kernel, h exInexact cramer _ _ (1 / 100) 0 10 10 3 0 0 _ _ _ _ exInexact_tolerant cramer_exact.tolerant (by norm_num) le_rfl
    (fun _ => by decide +kernel) (Prod.ext rfl (isOk_unit (by decide +kernel))) (Prod.ext rfl (isOk_unit (by decide +kernel))) (fun _ _ => le_rfl) (fun _ _ => le_rfl)⟩

example : ∃ (ρ : ℚ) (s t : Sol ℚ), 0 < ρ ∧ s.tstep = 3 ∧ rowAt s.press 3 none 1 ≠ rowAt t.press 3 none 1 ∧ Close (fun j => j * ((1 * (1 / 100) + 1 * 0) / ρ)) (exC true 3 [4, 5, 7, 9]) s t :=
  ⟨1, _, _, one_pos, by decide +kernel, by decide +kernel, C72_inclined_storage_partial exSlopeRough_ready exSlopeRough_wells ⟨le_rfl, fun h => by cases h⟩ (by decide +kernel) one_pos (by decide +kernel)
    exInexact cramer _ _ 10 10 3 0 0 exInexact_tolerant cramer_exact.tolerant (by norm_num) le_rfl (by decide +kernel)
    (Prod.ext rfl (isOk_unit (by decide +kernel))) (Prod.ext rfl (isOk_unit (by decide +kernel))) (fun _ _ => le_rfl) (fun _ _ => le_rfl)⟩

end RF.Fdm
