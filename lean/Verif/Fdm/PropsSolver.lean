import Verif.Fdm.PropsStable
import Verif.Fdm.PropsMB
/-!
# C72: approximate linear solvers

By default systems are solved by an iterative solver that stops when the residual is small enough (fdm.py l.744-756), and even a direct solver rounds. A solver that leaves small
residuals leaves small errors: in the balance of every step and in the pressures after any number of steps.
-/
set_option linter.unusedSectionVars false
namespace RF.Fdm
open RF RF.Dims Finset

variable {K : Type} [Field K] [LinearOrder K] [IsStrictOrderedRing K]

/-! ### Specification -/

/-- Solutions returned by the solver miss every equation by at most `tol d`, where `d` is the right-hand side (`tol d = rtol * ‖d‖` for the iterative solvers). -/
def Tolerant (tol : (ℕ → K) → K) (lin : LinSolver K) : Prop :=
  ∀ n A d x, lin n A d = .ok x → ∀ i, i < n → |∑ j ∈ range n, A i j * x j - d i| ≤ tol d

/-- Sympy does not divide rows of the symbolic system by more than `S` (nothing is asked of the vectorised assembler). -/
def ScaledBy (S : K) (c : Ctx K) (vect : Bool) : Prop := 1 ≤ S ∧ (vect = false → ∀ a b, |c.scale a b| ≤ S)

lemma Exact.tolerant {lin : LinSolver K} (h : Exact lin) : Tolerant (fun _ => 0) lin := fun n A d x hx i hi => by
  rw [h n A d x hx i hi, sub_self, abs_zero]

/-! ### balances -/

lemma Tolerant.meets {c : Ctx K} {tol : (ℕ → K) → K} (hx : Tolerant tol c.lin) {m0 : Mdl K} (hr : Ready c m0) {vect : Bool} {S : K} (hu : ScaledBy S c vect) (hf : vect = true → c.e.Flat) (ε : K) :
    Meets c vect m0 (fun d => tol d ≤ ε) (S * ε) := fun m s m' s' again hh ha hz hd i hi => by
  obtain ⟨hi', hq⟩ := hr.calm hh
  obtain ⟨m1, s1, A, d, x, p, r', ps, h⟩ := hi'.toCore.attempted hr.ctx.lower hr.ctx.wf ha
  have hmem : d ∈ s'.ds := by
    obtain ⟨m2, s2, A', d', x', r, ws, r'', ps', h1, -, -, -, -, e⟩ := attempt_parts ha
    rw [h.asm] at h1
    simp only [Except.ok.injEq, Prod.mk.injEq] at h1
    rw [e, ← h1.2.2.2]; simp
  rw [excess_congr (fun j hj => h.inner' hr.ctx.wf hi'.toCore hj) hi]
  obtain ⟨k, hk, hv, hks, e⟩ := core_residual_scale hr.ctx hi'.toCore hq hf hz h.asm hi
  have h1 := (hx _ _ _ _ h.lin i hi).trans (hd d hmem)
  rw [e x, abs_mul] at h1
  have hk1 : 1 ≤ S * |k| := by
    rcases hks with hk' | ⟨a, b, hk'⟩
    · rw [hk', abs_one, mul_one]; exact hu.1
    · cases vect
      · have h2 := hu.2 rfl a b
        have h3 : 0 < |c.scale a b| := abs_pos.2 fun h0 => hk (by rw [hk', h0, inv_zero])
        rw [hk', abs_inv, ← div_eq_mul_inv, le_div_iff₀ h3, one_mul]
        exact h2
      · rw [hv rfl, abs_one, mul_one]; exact hu.1
  have h2 := mul_le_mul_of_nonneg_left h1 (zero_le_one.trans hu.1)
  rw [← mul_assoc] at h2
  exact (le_mul_of_one_le_left (abs_nonneg _) hk1).trans h2

/-- **C72** (balance), partial: if the solver misses the equations by at most `ε`, the sum of the recorded rates of every step misses the change of the stored volume (and what is booked on
edges and corners, see `C40_exact`) by at most `ε` per cell (times the largest number `S ≥ 1` by which sympy divides a row), after any calls of `solve` and `run`. Missing: what C40 misses. -/
theorem C72_balance_partial {c : Ctx K} {tol : (ℕ → K) → K} {ε S : K} {m0 m : Mdl K} {s : Sol K} {b : List (ℕ × String × K)} (hr : Ready c m0)
    (hx : Tolerant tol c.lin) (hb : Standard c.lower c.e b m0)
    (h : Hist c (fun vect m m' => Sound c.lower c.e b vect m m' ∧ ScaledBy S c vect) m0 m s) (hd : ∀ d, d ∈ s.ds → tol d ≤ ε) :
    ∀ t, t < s.tstep → |rowSum c.e (rowAt s.rates (t + 1) 0) - (stored c.e s (t + 1) t + lost c.e b)| ≤ c.e.n * (S * ε) := by
  obtain ⟨eb, hn, hg⟩ := hb.rates
  have hl := hr.setup.edge hr.canon
  rw [show lost c.e b = lost c.e m0.bdict by rw [eb]]
  have wk : ∀ {m s}, Hist c (fun vect m m' => Sound c.lower c.e b vect m m' ∧ ScaledBy S c vect) m0 m s → Hist c Calm m0 m s := fun h => h.weaken fun _ _ _ h => h.1.1
  induction h with
  | start => intro t ht; simp [Sol.init] at ht
  | @step m1 s1 v m2 s2 hh hat hp ih =>
    intro t ht
    obtain ⟨hi, hq⟩ := hr.calm (wk hh)
    obtain ⟨_, _, _, _, _, _, _, _, h1⟩ := attempted hr.ctx.lower hr.ctx.wf hi hat
    by_cases ht' : t = s1.tstep
    · obtain ⟨k1, k2⟩ := attempt_booked hr.ctx hi hq hn (fun hv => hg (hp.1.2.2 hv)) hl hp.1.1 hat
      rw [ht', ← k2, k1, add_sub_cancel_left]
      refine (abs_sum_le_sum_abs _ _).trans ((sum_le_sum fun i h => hx.meets hr hp.2 hp.1.2.1 ε _ _ _ _ _ (wk hh) hat hp.1.1.2 hd i (mem_range.1 h)).trans (le_of_eq ?_))
      rw [sum_const, card_range, nsmul_eq_mul]
    · rw [h1.tstep] at ht
      have hlt := lt_of_le_of_ne (Nat.lt_succ_iff.1 ht) ht'
      have := ih (fun d h => hd d (attempt_ds hat d h)) t hlt
      unfold stored at this ⊢
      rw [h1.rates, h1.press, rowAt_append_lt (by rw [hi.rlen]; omega), rowAt_append_lt (by rw [hi.plen]; omega), rowAt_append_lt (by rw [hi.plen]; omega)]
      exact this
  | again hh hat hp ih =>
    obtain ⟨_, _, _, _, _, _, _, _, h1⟩ := attempted hr.ctx.lower hr.ctx.wf (hr.inv hh) hat
    obtain ⟨b1, b2, b3⟩ := back_attempted (hr.inv hh) h1
    have ih := ih fun d h => hd d (attempt_ds hat d h)
    unfold stored at ih ⊢
    rw [b1, b2, b3]; exact ih
  | look hh hat ih =>
    obtain ⟨-, vA, bV, res, sM, rfl⟩ := assemble_frame hat
    exact ih hd
  | clock n t _ ih => exact ih hd

/-! ### pressures -/

/-- **C72** (pressures), partial: where a pressure is imposed there is a constant `C`, depending only on the grid, the fluid, the time step, the model and how rows are scaled, such that two runs of the model
with solvers that miss their equations by at most `ε` and `ε'` differ by at most `C * (ε + ε')` in every cell after every step: the errors of the steps do not add up. With an exact second
solver (`ε' = 0`) this is the distance to the exact solution. Wells may go to their limits at different steps in the two runs. Missing: wells that leave their limit. -/
theorem C72_uniform_partial {c : Ctx K} {m0 : Mdl K} (hr : Ready c m0) {vect : Bool} {S : K} (hu : ScaledBy S c vect) (hf : vect = true → c.e.Flat)
    (hi : PressureGiven c.e m0) :
    ∃ C : K, 0 ≤ C ∧ ∀ (lin lin' : LinSolver K) (tol tol' : (ℕ → K) → K) (ε ε' : K) (f f' k : ℕ) (el el' : K) (m m' : Mdl K) (s s' : Sol K),
      Tolerant tol lin → Tolerant tol' lin' → 0 ≤ ε → 0 ≤ ε' →
      (c.e.comp = true → ∀ id, id ∈ c.e.ids → (m0.initP id).isSome = true) →
      RunAll { c with lin := lin } Calm f vect k m0 { Sol.init m0 with nsteps := (Sol.init m0).nsteps + k } →
      RunAll { c with lin := lin' } Calm f' vect k m0 { Sol.init m0 with nsteps := (Sol.init m0).nsteps + k } →
      run { c with lin := lin } f vect k el m0 (Sol.init m0) = ((m, s), .ok ()) → run { c with lin := lin' } f' vect k el' m0 (Sol.init m0) = ((m', s'), .ok ()) →
      (∀ d, d ∈ s.ds → tol d ≤ ε) → (∀ d, d ∈ s'.ds → tol' d ≤ ε') → Close (fun _ => C * (ε + ε')) c s s' := by
  have he := hr.ctx.wf
  have hm := hr.started.mdl
  have hT := hr.ctx.grid.network vect
  have hl : Net.Leaky c.e.n (c.e.trans vect) (outLeak c.e m0) := hT.leaky (fun i _ => outLeak_nonneg he hm i) (hi.leak he hm)
  obtain ⟨z, hz⟩ := Net.exists_inflow hl fun _ => -1
  have h0 := Net.nonneg_of_inflow_nonpos hl (p := z) fun i hi => by rw [hz i hi]; linarith [zero_lt_one (α := K)]
  have ne : (range c.e.n).Nonempty := ⟨0, mem_range.2 he.pos⟩
  obtain ⟨i1, hi1, hmax⟩ := exists_max_image (range c.e.n) z ne
  have hS : 0 ≤ S := zero_le_one.trans hu.1
  refine ⟨z i1 * S, mul_nonneg (h0 i1 (mem_range.1 hi1)) hS, fun lin lin' tol tol' ε ε' f f' k el el' m m' s s' hx hx' hε hε' hinit hP hP' hs hs' hd hd' => ?_⟩
  have hη : 0 ≤ S * ε + S * ε' := add_nonneg (mul_nonneg hS hε) (mul_nonneg hS hε')
  have dec : Decays { c with lin := lin } vect m0 0 (S * ε + S * ε') (fun _ i => z i * (S * ε + S * ε')) := fun j i hin => by
    refine ⟨mul_nonneg (h0 i hin) hη, ?_⟩
    have h1 := hz i hin
    unfold Net.inflow at h1
    have h2 : ∑ j ∈ range c.e.n, c.e.trans vect i j * (z j * (S * ε + S * ε') - z i * (S * ε + S * ε')) = (S * ε + S * ε') * ∑ j ∈ range c.e.n, c.e.trans vect i j * (z j - z i) := by
      rw [mul_sum]; exact sum_congr rfl fun j _ => by ring
    dsimp only
    rw [h2, show ∑ j ∈ range c.e.n, c.e.trans vect i j * (z j - z i) = outLeak c.e m0 i * z i - 1 by linarith]
    apply le_of_eq; ring
  have hr1 := hr.lin lin
  have hr2 := hr.lin lin'
  have key := run_near (c := { c with lin := lin }) (lin' := lin') (D := fun d => tol d ≤ ε) (D' := fun d => tol' d ≤ ε') (el := el) (el' := el') hr1 hr1
    (Tolerant.meets (c := { c with lin := lin }) hx hr1 hu hf ε) (Tolerant.meets (c := { c with lin := lin' }) hx' hr2 hu hf ε') (within_self m0)
    hi.anchored hi.anchored dec dec k (fun hc i hin => by
      obtain ⟨p, hp⟩ := Option.isSome_iff_exists.1 (hinit hc _ (at_mem c.e hin))
      exact ⟨p, p, hp, hp, by rw [sub_self, abs_zero]; exact mul_nonneg (h0 i hin) hη⟩) hP hP' (by rw [hs]) (by rw [hs']) (by rw [hs]; exact hd) (by rw [hs']; exact hd')
  rw [hs, hs'] at key
  refine key.close fun _ i hin => (mul_le_mul_of_nonneg_right (hmax i (mem_range.2 hin)) hη).trans (le_of_eq ?_)
  ring

/-- **C72** (pressures of compressible models), partial: also where no pressure is imposed; after `j` steps the two runs differ by at most `j S (ε + ε') / ρ`, where `ρ` is the smallest storage
of a cell. -/
theorem C72_storage_partial {c : Ctx K} {m0 : Mdl K} (hr : Ready c m0) {vect : Bool} {S : K} (hu : ScaledBy S c vect) (hf : vect = true → c.e.Flat)
    (hc : c.e.comp = true) {ρ : K} (hρ : 0 < ρ) (hst : ∀ id, id ∈ c.e.ids → ρ ≤ c.e.rhs id) (lin lin' : LinSolver K) (tol tol' : (ℕ → K) → K) {ε ε' : K} (f f' k : ℕ) (el el' : K) {m m' : Mdl K}
    {s s' : Sol K} (hx : Tolerant tol lin) (hx' : Tolerant tol' lin') (hε : 0 ≤ ε) (hε' : 0 ≤ ε') (hinit : ∀ id, id ∈ c.e.ids → (m0.initP id).isSome = true)
    (hP : RunAll { c with lin := lin } Calm f vect k m0 { Sol.init m0 with nsteps := (Sol.init m0).nsteps + k })
    (hP' : RunAll { c with lin := lin' } Calm f' vect k m0 { Sol.init m0 with nsteps := (Sol.init m0).nsteps + k })
    (hs : run { c with lin := lin } f vect k el m0 (Sol.init m0) = ((m, s), .ok ())) (hs' : run { c with lin := lin' } f' vect k el' m0 (Sol.init m0) = ((m', s'), .ok ()))
    (hd : ∀ d, d ∈ s.ds → tol d ≤ ε) (hd' : ∀ d, d ∈ s'.ds → tol' d ≤ ε') : Close (fun j => j * ((S * ε + S * ε') / ρ)) c s s' := by
  have hS : 0 ≤ S := zero_le_one.trans hu.1
  have hη : 0 ≤ (S * ε + S * ε') / ρ := div_nonneg (add_nonneg (mul_nonneg hS hε) (mul_nonneg hS hε')) hρ.le
  have dec : Decays { c with lin := lin } vect m0 0 (S * ε + S * ε') (fun j _ => j * ((S * ε + S * ε') / ρ)) := fun j i hin => by
    refine ⟨mul_nonneg (Nat.cast_nonneg _) hη, ?_⟩
    have h1 : 0 ≤ outLeak c.e m0 i * (((j + 1 : ℕ) : K) * ((S * ε + S * ε') / ρ) - 0) :=
      mul_nonneg (outLeak_nonneg hr.ctx.wf hr.started.mdl i) (by rw [sub_zero]; exact mul_nonneg (Nat.cast_nonneg _) hη)
    refine le_trans ?_ h1
    have h2 : (S * ε + S * ε') ≤ c.e.rhs (c.e.at i) * ((S * ε + S * ε') / ρ) := by
      have := mul_le_mul_of_nonneg_right (hst _ (at_mem c.e hin)) hη
      rwa [mul_div_cancel₀ _ hρ.ne'] at this
    simp only [sub_self, mul_zero, sum_const_zero, zero_add]
    push_cast
    linarith
  have hr1 := hr.lin lin
  have hr2 := hr.lin lin'
  have key := run_near (c := { c with lin := lin }) (lin' := lin') (D := fun d => tol d ≤ ε) (D' := fun d => tol' d ≤ ε') (el := el) (el' := el') hr1 hr1
    (Tolerant.meets (c := { c with lin := lin }) hx hr1 hu hf ε) (Tolerant.meets (c := { c with lin := lin' }) hx' hr2 hu hf ε') (within_self m0)
    (.inl hc) (.inl hc) dec dec k (fun hc i hin => by
      obtain ⟨p, hp⟩ := Option.isSome_iff_exists.1 (hinit _ (at_mem c.e hin))
      exact ⟨p, p, hp, hp, by rw [sub_self, abs_zero]; simp⟩) hP hP' (by rw [hs]) (by rw [hs']) (by rw [hs]; exact hd) (by rw [hs']; exact hd')
  rw [hs, hs'] at key
  exact key.close fun _ _ _ => le_rfl

/-! ### not vacuous -/

/-- Adds 1/1000 to the first and 2/1000 to the second unknown when that leaves residuals of at most 1/100. -/
def exInexact : LinSolver ℚ := fun n A d =>
  match cramer n A d with
  | .error e => .error e
  | .ok x => if ∀ i, i < n → |∑ j ∈ range n, A i j * (x j + (j + 1) / 1000) - d i| ≤ 1 / 100 then .ok fun j => x j + (j + 1) / 1000 else .ok x

lemma exInexact_tolerant : Tolerant (fun _ => 1 / 100) exInexact := fun n A d x hx i hi => by
  unfold exInexact at hx
  rcases hc : cramer n A d with e | y
  · rw [hc] at hx; cases hx
  · rw [hc] at hx
    dsimp only at hx
    split_ifs at hx with hn
    · cases hx; exact hn i hi
    · cases hx
      rw [cramer_exact n A d _ hc i hi, sub_self, abs_zero]
      norm_num

def exInexactC : Ctx ℚ := { exC true 0 [] with lin := exInexact }

lemma exInexactC_unscaled (vect : Bool) : ScaledBy 1 (exC true 0 []) vect := ⟨le_rfl, fun _ _ _ => le_of_eq abs_one⟩

/-- Its run differs from the exact one. -/
lemma exInexactC_differs (vect : Bool) : rowAt (run exInexactC 10 vect 3 0 exA (Sol.init exA)).1.2.press 3 none 1 ≠ rowAt (run (exC true 0 []) 10 vect 3 0 exA (Sol.init exA)).1.2.press 3 none 1 := by
  cases vect <;> decide +kernel

example (vect : Bool) : ∃ (C : ℚ) (s t : Sol ℚ), s.tstep = 3 ∧ rowAt s.press 3 none 1 ≠ rowAt t.press 3 none 1 ∧ Close (fun _ => C * (1 / 100 + 0)) (exC true 0 []) s t := by
  obtain ⟨C, -, h⟩ := C72_uniform_partial (vect := vect) exA_ready (exInexactC_unscaled _) (fun _ => ex_flat _) exA_pgiven
  exact ⟨C, _, _, by cases vect <;> decide +kernel, exInexactC_differs vect, h exInexact cramer _ _ (1 / 100) 0 10 10 3 0 0 _ _ _ _ exInexact_tolerant cramer_exact.tolerant (by norm_num) le_rfl
    (fun _ => by decide +kernel)
    (runCalmB_all (c := exInexactC) (by cases vect <;> decide +kernel)) (runCalmB_all (c := exC true 0 []) (by cases vect <;> decide +kernel))
    (Prod.ext rfl (isOk_unit (by cases vect <;> decide +kernel))) (Prod.ext rfl (isOk_unit (by cases vect <;> decide +kernel))) (fun _ _ => le_rfl) (fun _ _ => le_rfl)⟩

/-- A closed compressible reservoir with a producer. -/
def exSealed : Mdl ℚ := exMdl true 0 [] (some 8) [] [(2, { q := some (-1), pwf := some 1, r := some 1 })]

lemma exSealed_ready : Ready (exC true 0 []) exSealed := exMdl_ready (by decide +kernel)

example (vect : Bool) : ∃ (ρ : ℚ) (s t : Sol ℚ), 0 < ρ ∧ s.tstep = 3 ∧ rowAt s.press 3 none 1 ≠ rowAt t.press 3 none 1 ∧ Close (fun j => j * ((1 * (1 / 100) + 1 * 0) / ρ)) (exC true 0 []) s t :=
  ⟨1, _, _, one_pos, by cases vect <;> decide +kernel, by cases vect <;> decide +kernel, C72_storage_partial (vect := vect) exSealed_ready (exInexactC_unscaled _) (fun _ => ex_flat _)
    (by decide +kernel) one_pos (by decide +kernel) exInexact cramer _ _ 10 10 3 0 0 exInexact_tolerant cramer_exact.tolerant (by norm_num) le_rfl (by decide +kernel)
    (runCalmB_all (c := exInexactC) (by cases vect <;> decide +kernel)) (runCalmB_all (c := exC true 0 []) (by cases vect <;> decide +kernel))
    (Prod.ext rfl (isOk_unit (by cases vect <;> decide +kernel))) (Prod.ext rfl (isOk_unit (by cases vect <;> decide +kernel))) (fun _ _ => le_rfl) (fun _ _ => le_rfl)⟩

/-- The balance of the inexact run is off, by no more than 2/100. -/
example (vect : Bool) : ∃ s : Sol ℚ, s.tstep = 3 ∧ rowSum exInexactC.e (rowAt s.rates 1 0) ≠ stored exInexactC.e s 1 0 + lost exInexactC.e [(0, "pressure", 10), (3, "rate", 1)] ∧
    ∀ t, t < s.tstep → |rowSum exInexactC.e (rowAt s.rates (t + 1) 0) - (stored exInexactC.e s (t + 1) t + lost exInexactC.e [(0, "pressure", 10), (3, "rate", 1)])| ≤ 2 * (1 * (1 / 100)) := by
  have hro : RatesOnly exInexactC.lower [(0, "pressure", (10 : ℚ)), (3, "rate", 1)] :=
    all_of (p := fun x : ℕ × String × ℚ => x.2.1 ≠ "pressure" → exInexactC.lower x.2.1 ∈ ["rate", "q"]) (by decide +kernel)
  refine ⟨(exRun exInexactC vect 3 exA).2, by cases vect <;> decide +kernel, by cases vect <;> decide +kernel, ?_⟩
  have h := (exRun_hist (c := exInexactC) (vect := vect) (n := 3) (exA_ready.lin exInexact) (by cases vect <;> decide +kernel)).weaken
    (Q := fun vect m m' => Sound exInexactC.lower exInexactC.e [(0, "pressure", 10), (3, "rate", 1)] vect m m' ∧ ScaledBy 1 exInexactC vect) fun v _ _ h => ⟨ex_sound hro h, exInexactC_unscaled v⟩
  have hn : (exInexactC.e.n : ℚ) = 2 := by decide +kernel
  rw [← hn]
  exact C72_balance_partial (c := exInexactC) (exA_ready.lin exInexact) exInexact_tolerant exA_standard h fun _ _ => le_rfl

end RF.Fdm
