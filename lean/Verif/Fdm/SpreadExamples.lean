import Verif.Fdm.PropsSpread
import Verif.Fdm.BetterExamples
/-!
# C95: where it fails, and instances
-/
namespace RF.Fdm
open RF RF.Dims RF.Spec Finset

/-- Squares of distances are convex. -/
lemma convex_square (H : ℚ) : ConvexOn ℚ Set.univ fun y : ℚ => (y - H) ^ 2 := by
  refine ⟨convex_univ, fun x _ y _ a b ha hb hab => ?_⟩
  simp only [smul_eq_mul]
  obtain rfl : b = 1 - a := by linarith
  nlinarith [mul_nonneg (mul_nonneg ha hb) (sq_nonneg (x - y))]

/-- Distances are convex. -/
lemma convex_dist (H : ℚ) : ConvexOn ℚ Set.univ fun y : ℚ => |y - H| := by
  refine ⟨convex_univ, fun x _ y _ a b ha hb hab => ?_⟩
  simp only [smul_eq_mul]
  obtain rfl : b = 1 - a := by linarith
  have : a * x + (1 - a) * y - H = a * (x - H) + (1 - a) * (y - H) := by ring
  rw [this]
  refine (abs_add_le _ _).trans (le_of_eq ?_)
  rw [abs_mul, abs_mul, abs_of_nonneg ha, abs_of_nonneg hb]

/-- Cells at depths 0, 1, 2, 3. -/
def tiltC : Ctx ℚ := exC true 1 [0, 1, 2, 3]
/-- Pressure 10 in front of the upper cell, no flow behind the lower one; pressure 12 in both at first. -/
def tiltHeld : Mdl ℚ := mkMdl tiltC (some 12) [(0, "pressure", 10), (3, "rate", 0)] []
/-- Closed. -/
def tiltShut : Mdl ℚ := mkMdl tiltC (some 12) [(0, "rate", 0), (3, "rate", 0)] []

lemma tilt_ready : Ready tiltC tiltHeld ∧ Ready tiltC tiltShut := ⟨mkMdl_ready (exC_ok _ _ _) (fun _ => rfl) (by decide +kernel), mkMdl_ready (exC_ok _ _ _) (fun _ => rfl) (by decide +kernel)⟩

/-- **C95** fails for inclined reservoirs and vectorised assembly, which leaves out gravity between cells (C32): held at head 10, with heads 11 and 10 at first, the heads come closer to 10 in the first step and
go away from it in the second. -/
theorem C95_vectorised_fails : ∃ (M : GridModel ℚ) (c : Ctx ℚ) (m0 m : Mdl ℚ) (s : Sol ℚ), M.Pos ∧ M.env = .ok c.e ∧ Ready c m0 ∧ Exact c.lin ∧ c.e.comp = true ∧ TwoHeads c.e 10 10 m0 ∧
    Hist c (fun v _ _ => v = true) m0 m s ∧ s.tstep = 2 ∧ scatter M c.e (fun y => (y - 10) ^ 2) s 1 < scatter M c.e (fun y => (y - 10) ^ 2) s 2 :=
  ⟨exM true 1 [0, 1, 2, 3], tiltC, tiltHeld, (exRun tiltC true 2 tiltHeld).1, (exRun tiltC true 2 tiltHeld).2, exM_pos _ _ _, exE_env _ _ _, tilt_ready.1, cramer_exact, by decide +kernel,
    twoHeads_of (by decide +kernel), exRun_vect tilt_ready.1 true 2, by decide +kernel, by decide +kernel⟩

/-- One assembler, the symbolic one. -/
lemma single_symbolic {c : Ctx ℚ} {m0 m : Mdl ℚ} {s : Sol ℚ} (hh : Hist c (fun v _ _ => v = false) m0 m s) : Hist c (Single c.e false) m0 m s := by
  induction hh with
  | start => exact .start
  | step hh ha hp ih => exact .step ih ha ⟨hp, fun h => absurd h (by simp)⟩
  | again hh ha hp ih => exact .again ih ha ⟨hp, fun h => absurd h (by simp)⟩
  | look hh ha ih => exact .look ih ha
  | clock n t hh ih => exact .clock n t ih

/-- The hypotheses of `C95_spread_partial` are met: inclined and held at one head. -/
example : scatter (exM true 1 [0, 1, 2, 3]) tiltC.e (fun y => (y - 10) ^ 2) (exRun tiltC false 3 tiltHeld).2 3 ≤ scatter (exM true 1 [0, 1, 2, 3]) tiltC.e (fun y => (y - 10) ^ 2) (exRun tiltC false 3 tiltHeld).2 1 :=
  C95_spread_partial (exM_pos _ _ _) (exE_env _ _ _) tilt_ready.1 cramer_exact (by decide +kernel) (H := 10) (twoHeads_of (by decide +kernel)) (single_symbolic (exRun_vect tilt_ready.1 false 3)) (convex_square 10)
    (.inr fun y => by simpa using sq_nonneg (y - 10)) (by norm_num) (by decide +kernel)

example : scatter (exM true 1 [0, 1, 2, 3]) tiltC.e (fun y => (y - 10) ^ 2) (exRun tiltC false 3 tiltHeld).2 3 < scatter (exM true 1 [0, 1, 2, 3]) tiltC.e (fun y => (y - 10) ^ 2) (exRun tiltC false 3 tiltHeld).2 1 := by
  decide +kernel

/-- Inclined and closed, about any value. -/
example (a : ℚ) : scatter (exM true 1 [0, 1, 2, 3]) tiltC.e (fun y => |y - a|) (exRun tiltC false 3 tiltShut).2 3 ≤ scatter (exM true 1 [0, 1, 2, 3]) tiltC.e (fun y => |y - a|) (exRun tiltC false 3 tiltShut).2 0 :=
  C95_spread_partial (exM_pos _ _ _) (exE_env _ _ _) tilt_ready.2 cramer_exact (by decide +kernel) (H := 0) (twoHeads_of (by decide +kernel)) (single_symbolic (exRun_vect tilt_ready.2 false 3)) (convex_dist a)
    (.inl ⟨by decide +kernel, by decide +kernel⟩) (by norm_num) (by decide +kernel)

end RF.Fdm
