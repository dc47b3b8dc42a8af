import Verif.Fdm.PropsWells
/-!
# C47: more repetitions than wells

Three cells in a row (ids 1, 2, 3), unit sizes and properties, closed, with three wells. In the third step the wells ask for a new solve in the order 2, 3, 1, 2.
-/
set_option linter.unusedSectionVars false
namespace RF.Fdm
open RF RF.Dims RF.Spec Finset

/-- Determinant of a 3 x 3 matrix. -/
def det3 (A : ℕ → ℕ → ℚ) : ℚ :=
  A 0 0 * (A 1 1 * A 2 2 - A 1 2 * A 2 1) - A 0 1 * (A 1 0 * A 2 2 - A 1 2 * A 2 0) + A 0 2 * (A 1 0 * A 2 1 - A 1 1 * A 2 0)

/-- Cramer's rule for three equations. -/
def cramer3 : LinSolver ℚ := fun n A d =>
  if n = 3 ∧ det3 A ≠ 0 then .ok fun i => det3 (fun a b => if b = i then d a else A a b) / det3 A else .error .value

lemma cramer3_exact : Exact cramer3 := by
  intro n A d x h
  unfold cramer3 at h
  split_ifs at h with hn
  obtain ⟨rfl, hd⟩ := hn
  simp only [Except.ok.injEq] at h
  subst h
  intro i hi
  have hi' : i = 0 ∨ i = 1 ∨ i = 2 := by omega
  simp only [sum_range_succ, sum_range_zero, zero_add]
  rw [mul_div_assoc', mul_div_assoc', mul_div_assoc', ← add_div, ← add_div, div_eq_iff hd]
  rcases hi' with rfl | rfl | rfl <;> simp [det3] <;> ring

/-- Three cells in a row. -/
def gRow : Dims := ⟨3, 1, 1, true, by decide, by decide, by decide⟩

/-- One value per cell of the padded row. -/
def exRowL : List ℚ := [1, 1, 1, 1, 1]

lemma exRow_calc : isOk (Geom.calc gRow s2.x s2.y s2.z) = true := by decide +kernel

/-- Unit sizes and properties. -/
def exRowM : GridModel ℚ :=
  { g := gRow, sizes := s2, geom := getOk _ exRow_calc, rock := ones gRow, β := 1, mu := 1, B := 1, grav := 0, depth := [], comp := true
    phi := exRowL, ct := 1, vconv := 1, dt := 1, wellReq := fun _ => .ok 1, wellG := fun _ _ r _ => .ok r }

lemma exRowM_pos : exRowM.Pos := by
  refine ⟨getOk_eq _ exRow_calc, s2_pos _, ones_set _, ones_pos _, ?_, one_pos, one_pos, one_pos, one_pos, one_pos, ?_, fun _ => one_pos⟩
  · intro a c hc
    have : cellNumber gRow.nx gRow.ny c < gRow.getN true := gRow.num_lt hc
    have e : perm gRow (ones gRow) a c = 1 := by cases a <;> simp [perm, ones, Rock.k, this]
    show 0 ≤ perm gRow (ones gRow) a c
    rw [e]; exact zero_le_one
  · intro c hc
    have : cellNumber gRow.nx gRow.ny c < gRow.getN true := gRow.num_lt (Interior.inGrid hc)
    rw [show gRow.getN true = 5 by decide +kernel] at this
    show (0 : ℚ) < (List.replicate 5 1).getD (cellNumber gRow.nx gRow.ny c) 0
    rw [List.getD_eq_getElem?_getD, List.getElem?_replicate_of_lt this]
    exact one_pos

lemma exRowM_ok : isOk exRowM.env = true := by decide +kernel

/-- Its environment. -/
def exRowE : Env ℚ := getOk _ exRowM_ok

/-- With an exact solver. -/
def exRowC : Ctx ℚ := ⟨exRowE, fun s => s, fun _ _ => 1, cramer3⟩

lemma exRowC_ok : CtxOK exRowC := by
  refine ⟨⟨rfl, rfl⟩, ⟨exRowM, exRowM_pos, getOk_eq _ exRowM_ok⟩, ?_⟩
  intro a b; exact (one_ne_zero : (1 : ℚ) ≠ 0)

/-- The wells: two injectors and a producer, all with rates and limits. -/
def exRowWells : List (ℕ × WellArgs ℚ) :=
  [(2, { q := some 6, pwf := some (1115 / 28), r := some 2 }), (3, { q := some 3, pwf := some (353 / 8), r := some (1 / 2) }), (1, { q := some (-10), pwf := some 19, r := some 1 })]

/-- Every cell at pressure 36. -/
def exRow : Mdl ℚ := (build exRowC.lower exRowC.e (some 36) [] exRowWells).1

lemma exRow_built : (build exRowC.lower exRowC.e (some 36) [] exRowWells).2 = true := by decide +kernel

lemma exRow_readyB : readyB exRow = true := by decide +kernel

lemma exRow_ready : Ready exRowC exRow := by
  have hs := (build_standard (lower := exRowC.lower) (e := exRowC.e) (pi := some 36) (b := []) (ws := exRowWells) (by decide) exRow_built).setup
  have h2 := exRow_readyB
  unfold readyB at h2
  rw [Bool.and_eq_true, List.all_eq_true, List.all_eq_true] at h2
  refine ⟨exRowC_ok, hs, fun x G hx hG => ?_, fun x hx => ?_, fun x hx => ?_⟩
  · have := h2.1 x hx
    rw [hG] at this
    simp only [Bool.and_eq_true, decide_eq_true_eq] at this
    exact this.2
  · have := h2.1 x hx
    simp only [Bool.and_eq_true, decide_eq_true_eq] at this
    exact this.1
  · have := h2.2 x hx
    rw [decide_eq_true_eq] at this
    exact this

/-- Is the step repeated at least `k` times? -/
def repeatsB (c : Ctx ℚ) (vect : Bool) : ℕ → Mdl ℚ → Sol ℚ → Bool
  | 0, _, _ => true
  | k + 1, m, s => match attempt c vect m s with
    | .ok (m', s', true) => repeatsB c vect k m' s'.back
    | _ => false

lemma repeatsB_ok {c : Ctx ℚ} {vect : Bool} {k : ℕ} {m : Mdl ℚ} {s : Sol ℚ} (h : repeatsB c vect k m s = true) : Repeats c vect k m s := by
  induction k generalizing m s with
  | zero => exact .zero
  | succ k ih =>
    unfold repeatsB at h
    split at h
    · exact .succ ‹_› (ih h)
    · simp at h

/-- **C47 fails**: with three wells, an exact solver and positive limits, the third step of a run is repeated four times. A well that leaves its limit lowers
the pressures around it, because the vectorised matrix keeps its conductance, and sends another well back to its limit. -/
theorem C47_more_than_wells : ∃ (c : Ctx ℚ) (m0 m : Mdl ℚ) (s : Sol ℚ), Ready c m0 ∧ Exact c.lin ∧ Hist c Any m0 m s ∧ m0.wells.length = 3 ∧ s.tstep = 2 ∧
    Repeats c true 4 m s ∧ ∃ y, solve c 10 true true m s = .ok y :=
  ⟨exRowC, exRow, _, _, exRow_ready, cramer3_exact, exRun_any exRow_ready true 2, by decide +kernel, by decide +kernel, repeatsB_ok (by decide +kernel),
    by
      have h : isOk (solve exRowC 10 true true (exRun exRowC true 2 exRow).1 (exRun exRowC true 2 exRow).2) = true := by decide +kernel
      exact ⟨_, getOk_eq _ h⟩⟩

end RF.Fdm
