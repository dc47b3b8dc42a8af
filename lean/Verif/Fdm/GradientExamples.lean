import Verif.Fdm.PropsOrder
import Verif.Fdm.PropsSolver
import Verif.Fdm.PropsAsm
/-!
# Models with gradient conditions

The theorems on pressures apply to models with gradient conditions also where the rate that is stored for a gradient differs from the given value: transmissibility times
size is 1/2 at the boundary.
-/
set_option linter.unusedSectionVars false
namespace RF.Fdm
open RF RF.Dims Finset

/-- A gradient of `v` on the left, a well with rate `q`. -/
def exSlope (v q : ℚ) : Mdl ℚ := mkMdl (exNC true 0 []) (some 8) [(0, "gradient", v), (3, "pressure", 9)] [(2, { q := some q, pwf := some (-9), r := some 1 })]

lemma exSlope_ready4 : Ready (exNC true 0 []) (exSlope 4 (-1)) := mkMdl_ready (exNC_ok _ _ _) (fun _ => rfl) (by decide +kernel)
lemma exSlope_ready6 : Ready (exNC true 0 []) (exSlope 6 (-1)) := mkMdl_ready (exNC_ok _ _ _) (fun _ => rfl) (by decide +kernel)
lemma exSlope_ready42 : Ready (exNC true 0 []) (exSlope 4 (-2)) := mkMdl_ready (exNC_ok _ _ _) (fun _ => rfl) (by decide +kernel)
lemma exSlope_ready80 : Ready (exNC true 0 []) (exSlope 8 0) := mkMdl_ready (exNC_ok _ _ _) (fun _ => rfl) (by decide +kernel)

/-- Rates of 2 and 3 are stored for gradients of 4 and 6. -/
example : (exSlope 4 (-1)).initR 0 = 2 ∧ (exSlope 6 (-1)).initR 0 = 3 ∧ ¬RatesGiven (exSlope 4 (-1)) := by decide +kernel

lemma exNC_flat : (exNC true 0 []).e.Flat := Or.inl (by decide +kernel)

lemma exSlope_init {v q : ℚ} (h : ∀ id, id ∈ (exNC true 0 []).e.ids → (exSlope v q).initP id = some 8) (w r : ℚ) (h' : ∀ id, id ∈ (exNC true 0 []).e.ids → (exSlope w r).initP id = some 8) :
    ∀ id, id ∈ (exNC true 0 []).e.ids → ∃ p p' : ℚ, (exSlope v q).initP id = some p ∧ (exSlope w r).initP id = some p' ∧ p ≤ p' := fun id hid => ⟨8, 8, h id hid, h' id hid, le_rfl⟩

lemma exSlope_most : AtMost (exSlope 4 (-1)) (exSlope 6 (-1)) :=
  ⟨by have h1 : (exSlope 4 (-1)).bdict = [(0, "gradient", 4), (3, "pressure", 9)] := by decide +kernel
      have h2 : (exSlope 6 (-1)).bdict = [(0, "gradient", 6), (3, "pressure", 9)] := by decide +kernel
      rw [h1, h2]; simp; norm_num,
   by have h1 : (exSlope 4 (-1)).wells = (exSlope 6 (-1)).wells := by decide +kernel
      rw [h1]; exact List.forall₂_same.2 fun w _ => by simp⟩

/-- C39: a larger gradient gives larger pressures. -/
example (vect : Bool) : ∃ s t : Sol ℚ, s.tstep = 3 ∧ Below (exNC true 0 []) s t :=
  ⟨_, _, by cases vect <;> decide +kernel, C39_run_partial (f := 10) (f' := 10) (vect := vect) exSlope_ready4 exSlope_ready6 cramer_exact exSlope_most
    (fun _ => exNC_flat) (.inl (by decide +kernel)) 3 0 0 (fun _ => exSlope_init (by decide +kernel) _ _ (by decide +kernel))
    (runCalmB_all (by cases vect <;> decide +kernel)) (runCalmB_all (by cases vect <;> decide +kernel))
    (isOk_unit (by cases vect <;> decide +kernel)) (isOk_unit (by cases vect <;> decide +kernel))⟩

/-- The pressures of the two runs differ in cell 1. -/
example : rowAt (run (exNC true 0 []) 10 true 1 0 (exSlope 4 (-1)) (Sol.init (exSlope 4 (-1)))).1.2.press 1 none 1 ≠ rowAt (run (exNC true 0 []) 10 true 1 0 (exSlope 6 (-1)) (Sol.init (exSlope 6 (-1)))).1.2.press 1 none 1 := by
  decide +kernel

def exSlopes : Fin 2 → Mdl ℚ := ![exSlope 4 (-1), exSlope 8 0]

/-- Twice the first minus the second. -/
lemma exSlopes_comb : Combined univ ![2, -1] exSlopes (exSlope 0 (-2)) where
  shape := fun i _ => by fin_cases i <;> exact ⟨by decide +kernel, by decide +kernel⟩
  bval := by decide +kernel
  rate := by decide +kernel
  pwf := by decide +kernel

lemma exSlope_ready02 : Ready (exNC true 0 []) (exSlope 0 (-2)) := mkMdl_ready (exNC_ok _ _ _) (fun _ => rfl) (by decide +kernel)

/-- C71: superposition of gradients. -/
example (vect : Bool) : ∃ (t : Fin 2 → Sol ℚ) (s : Sol ℚ), s.tstep = 2 ∧ Superposed univ ![2, -1] (exNC true 0 []) t s :=
  ⟨_, _, by cases vect <;> decide +kernel, C71_run_partial (f := 10) (F := fun _ => 10) (vect := vect) (M := exSlopes) (m := exSlope 0 (-2)) (.inl (by decide +kernel)) exSlope_ready02
    (fun i _ => by fin_cases i; exacts [exSlope_ready4, exSlope_ready80]) cramer_exact exSlopes_comb (fun _ => exNC_flat) (.inl (by decide +kernel)) 2 0 (fun _ => 0)
    (fun _ id hid => ⟨8, fun _ => 8, by revert id; decide +kernel, fun i _ => by fin_cases i <;> (revert id; decide +kernel), by decide +kernel⟩)
    (runSteadyB_all (by cases vect <;> decide +kernel)) (fun i _ => by fin_cases i <;> exact runSteadyB_all (by cases vect <;> decide +kernel))
    (isOk_unit (by cases vect <;> decide +kernel)) (fun i _ => by fin_cases i <;> exact isOk_unit (by cases vect <;> decide +kernel))⟩

/-- C68: the initial pressures are the same, and so are the gradients; the pressure on the right differs by 1. -/
def exSlopeP (p : ℚ) : Mdl ℚ := mkMdl (exNC true 0 []) (some 8) [(0, "gradient", 4), (3, "pressure", p)] [(2, { q := some (-1), pwf := some (-9), r := some 1 })]

lemma exSlopeP_ready9 : Ready (exNC true 0 []) (exSlopeP 9) := mkMdl_ready (exNC_ok _ _ _) (fun _ => rfl) (by decide +kernel)
lemma exSlopeP_ready10 : Ready (exNC true 0 []) (exSlopeP 10) := mkMdl_ready (exNC_ok _ _ _) (fun _ => rfl) (by decide +kernel)

lemma exSlopeP_within : Within 1 (exSlopeP 9) (exSlopeP 10) :=
  ⟨by have h1 : (exSlopeP 9).bdict = [(0, "gradient", 4), (3, "pressure", 9)] := by decide +kernel
      have h2 : (exSlopeP 10).bdict = [(0, "gradient", 4), (3, "pressure", 10)] := by decide +kernel
      rw [h1, h2]; simp; norm_num,
   by have h1 : (exSlopeP 9).wells = (exSlopeP 10).wells := by decide +kernel
      rw [h1]; exact List.forall₂_same.2 fun w _ => by simp⟩

example (vect : Bool) : ∃ s t : Sol ℚ, s.tstep = 3 ∧ Close (fun _ => 1) (exNC true 0 []) s t :=
  ⟨_, _, by cases vect <;> decide +kernel, C68_run_partial (f := 10) (f' := 10) (vect := vect) exSlopeP_ready9 exSlopeP_ready10 cramer_exact exSlopeP_within
    (fun _ => exNC_flat) (.inl (by decide +kernel)) (.inl (by decide +kernel)) 3 0 0
    (fun _ id hid => ⟨8, 8, by revert id; decide +kernel, by revert id; decide +kernel, by norm_num⟩)
    (runCalmB_all (by cases vect <;> decide +kernel)) (runCalmB_all (by cases vect <;> decide +kernel))
    (isOk_unit (by cases vect <;> decide +kernel)) (isOk_unit (by cases vect <;> decide +kernel))⟩

/-- Another well, in the first cell. -/
def exSlope2 (q1 q2 : ℚ) : Mdl ℚ :=
  mkMdl (exNC true 0 []) (some 8) [(0, "gradient", 4), (3, "pressure", 9)] [(1, { q := some q1, pwf := some (-9), r := some 1 }), (2, { q := some q2, pwf := some (-9), r := some 1 })]

lemma exSlope2_ready : Ready (exNC true 0 []) (exSlope2 0 0) := mkMdl_ready (exNC_ok _ _ _) (fun _ => rfl) (by decide +kernel)
lemma exSlope2_ready1 : Ready (exNC true 0 []) (exSlope2 (-1) 0) := mkMdl_ready (exNC_ok _ _ _) (fun _ => rfl) (by decide +kernel)
lemma exSlope2_ready2 : Ready (exNC true 0 []) (exSlope2 0 (-2)) := mkMdl_ready (exNC_ok _ _ _) (fun _ => rfl) (by decide +kernel)

lemma exSlope2_rate1 : RateChanged (exSlope2 0 0) (exSlope2 (-1) 0) 1 :=
  ⟨⟨by decide +kernel, by decide +kernel⟩, by decide +kernel, by decide +kernel, by decide +kernel, by decide +kernel⟩

lemma exSlope2_rate2 : RateChanged (exSlope2 0 0) (exSlope2 0 (-2)) 2 :=
  ⟨⟨by decide +kernel, by decide +kernel⟩, by decide +kernel, by decide +kernel, by decide +kernel, by decide +kernel⟩

/-- C79: reciprocity next to a gradient. -/
example (vect : Bool) : ∃ pa pb Δ Γ : ℚ, rowAt (run (exNC true 0 []) 10 vect 2 0 (exSlope2 0 0) (Sol.init (exSlope2 0 0))).1.2.press 2 none 1 = some pa ∧
    rowAt (run (exNC true 0 []) 10 vect 2 0 (exSlope2 0 0) (Sol.init (exSlope2 0 0))).1.2.press 2 none 2 = some pb ∧
    rowAt (run (exNC true 0 []) 10 vect 2 0 (exSlope2 (-1) 0) (Sol.init (exSlope2 (-1) 0))).1.2.press 2 none 2 = some (pb + Δ) ∧
    rowAt (run (exNC true 0 []) 10 vect 2 0 (exSlope2 0 (-2)) (Sol.init (exSlope2 0 (-2)))).1.2.press 2 none 1 = some (pa + Γ) ∧
    (wRate (exSlope2 0 (-2)) 2 - wRate (exSlope2 0 0) 2) * Δ = (wRate (exSlope2 (-1) 0) 1 - wRate (exSlope2 0 0) 1) * Γ :=
  C79_wells_partial exSlope2_ready exSlope2_ready1 exSlope2_ready2 cramer_exact exSlope2_rate1 exSlope2_rate2 (fun _ => exNC_flat)
    (fun _ => by decide +kernel) (runSteadyB_all (by cases vect <;> decide +kernel)) (runSteadyB_all (by cases vect <;> decide +kernel)) (runSteadyB_all (by cases vect <;> decide +kernel))
    (isOk_unit (by cases vect <;> decide +kernel)) (isOk_unit (by cases vect <;> decide +kernel)) (isOk_unit (by cases vect <;> decide +kernel)) 2 (by decide) le_rfl

/-- All attempts of a call use the assembler of the call. -/
lemma SolveAll.tag {c : Ctx ℚ} {P : Bool → Mdl ℚ → Mdl ℚ → Prop} {fuel : ℕ} {vect : Bool} {m : Mdl ℚ} {s : Sol ℚ} (h : SolveAll c P fuel vect m s) :
    SolveAll c (fun v m m' => v = vect ∧ P v m m') fuel vect m s := by
  induction fuel generalizing m s with
  | zero => trivial
  | succ n ih => exact fun m' s' again ha => ⟨⟨rfl, (h m' s' again ha).1⟩, fun hag => ih ((h m' s' again ha).2 hag)⟩

lemma exRun_tagged {c : Ctx ℚ} {m : Mdl ℚ} (hr : Ready c m) {vect : Bool} {n : ℕ} (h : exRunB c vect n m = true) :
    Hist c (fun v m m' => v = vect ∧ Calm v m m') m (exRun c vect n m).1 (exRun c vect n m).2 := by
  induction n with
  | zero => exact .start
  | succ n ih =>
    unfold exRunB at h
    rw [Bool.and_eq_true] at h
    unfold exRun
    rcases hs : solve c 10 vect true (exRun c vect n m).1 (exRun c vect n m).2 with x | ⟨m', s'⟩
    · exact ih h.1
    · exact (ih h.1).solve hr.ctx.lower hr.ctx.wf hr.started.mdl (solveCalmB_all h.2).tag hs

lemma exSlope_standard : Standard (exNC true 0 []).lower (exNC true 0 []).e [(0, "gradient", 4), (3, "pressure", 9)] (exSlope 4 (-1)) := mkMdl_standard (by decide +kernel)

/-- C40, C41: with the vectorised assembler the recorded rates balance next to a gradient. -/
example : ∃ m s, Hist (exNC true 0 []) (Sound (exNC true 0 []).lower (exNC true 0 []).e [(0, "gradient", 4), (3, "pressure", 9)]) (exSlope 4 (-1)) m s ∧ s.tstep = 3 ∧
    (∀ t, t < 3 → rowSum (exNC true 0 []).e (rowAt s.rates (t + 1) 0) = stored (exNC true 0 []).e s (t + 1) t) ∧ rowAt s.rates 3 0 0 = 2 ∧
    rowSum (exNC true 0 []).e (rowAt s.rates 3 0) ≠ 0 := by
  have ht : (exRun (exNC true 0 []) true 3 (exSlope 4 (-1))).2.tstep = 3 := by decide +kernel
  have h : Hist (exNC true 0 []) (Sound (exNC true 0 []).lower (exNC true 0 []).e [(0, "gradient", 4), (3, "pressure", 9)]) (exSlope 4 (-1))
      (exRun (exNC true 0 []) true 3 (exSlope 4 (-1))).1 (exRun (exNC true 0 []) true 3 (exSlope 4 (-1))).2 :=
    (exRun_tagged exSlope_ready4 (by decide +kernel)).weaken fun v _ _ h => ⟨h.2, fun _ => exNC_flat, fun hv => by rw [hv] at h; cases h.1⟩
  refine ⟨_, _, h, ht, ?_, by decide +kernel, by decide +kernel⟩
  have := C40_balance_partial exSlope_ready4 cramer_exact exSlope_standard (onFaces_of (by decide +kernel)) h
  rw [ht] at this; exact this

/-- **C40 fails** with a gradient and the symbolic assembler: the equations take 4 in, 2 is recorded. -/
theorem C40_gradient_fails : ∃ (c : Ctx ℚ) (m0 m : Mdl ℚ) (s : Sol ℚ) (b : List (ℕ × String × ℚ)), Ready c m0 ∧ Exact c.lin ∧ Standard c.lower c.e b m0 ∧ OnFaces c.e b ∧ c.e.Level ∧
    (∀ w, w ∈ m0.wells → w.2.pwfsp ≠ some 0) ∧ Hist c Calm m0 m s ∧ rowSum c.e (rowAt s.rates s.tstep 0) = stored c.e s s.tstep (s.tstep - 1) - 2 :=
  ⟨exNC true 0 [], exSlope 4 (-1), _, _, _, exSlope_ready4, cramer_exact, exSlope_standard, onFaces_of (by decide +kernel), Or.inl (by decide +kernel),
    all_of (p := fun w : ℕ × Well ℚ => w.2.pwfsp ≠ some 0) (by decide +kernel), exRun_hist (vect := false) (n := 3) exSlope_ready4 (by decide +kernel), by decide +kernel⟩

end RF.Fdm
