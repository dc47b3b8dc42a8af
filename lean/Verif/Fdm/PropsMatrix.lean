import Verif.Fdm.Examples
/-!
# The assembled matrix (C34, C35, C36)

`leak e m i` (in `Spec.lean`) is the sum of the accumulation term, the pressure-boundary terms and the bottom-hole-pressure terms of
the cell at position `i`.
-/
set_option linter.unusedSectionVars false
namespace RF.Fdm
open RF RF.Dims Finset

variable {K : Type} [Field K] [LinearOrder K] [IsStrictOrderedRing K]

lemma assemble_vect {c : Ctx K} {m m' : Mdl K} {s s' : Sol K} {A : ℕ → ℕ → K} {d : ℕ → K} (ha : assemble c true m s = .ok (m', s', A, d)) :
    m' = m ∧ matricesVect c.lower c.e m s = .ok (s', A, d) := by
  unfold assemble at ha
  simp only [if_true] at ha
  rw [ok_bind] at ha
  obtain ⟨⟨s1, A1, d1⟩, h1, ha⟩ := ha
  simp only [ok_pure, Prod.mk.injEq] at ha
  obtain ⟨rfl, rfl, rfl, rfl⟩ := ha
  exact ⟨rfl, h1⟩

/-! ## C34 -/

/-- **C34** (symmetry): after any sequence of `solve` and `run` calls, whatever the wells did, the vectorised matrix is symmetric. -/
theorem C34_symmetric {c : Ctx K} {m0 m m' : Mdl K} {s s' : Sol K} (hr : Ready c m0) (h : Hist c Any m0 m s) {A : ℕ → ℕ → K} {d : ℕ → K}
    (ha : assemble c true m s = .ok (m', s', A, d)) : ∀ i j, i < c.e.n → j < c.e.n → A i j = A j i := by
  obtain ⟨bV, res, -, hk, -, -⟩ := matricesVect_ok hr.ctx.lower hr.ctx.wf (hr.inv h).mdl (hr.inv h).vinv (assemble_vect ha).2
  intro i j hi hj
  rw [hk.mat i j hi hj, hk.mat j i hj hi]
  by_cases hij : i = j
  · subst hij; rfl
  · rw [if_neg hij, if_neg (Ne.symm hij), hr.ctx.wf.symm]

/-- **C34** (signs): entries off the diagonal are the transmissibilities between the cells and not negative; no row has a positive sum. -/
theorem C34_signs {c : Ctx K} {m0 m m' : Mdl K} {s s' : Sol K} (hr : Ready c m0) (h : Hist c Any m0 m s) {A : ℕ → ℕ → K} {d : ℕ → K}
    (ha : assemble c true m s = .ok (m', s', A, d)) :
    (∀ i j, i < c.e.n → j < c.e.n → i ≠ j → A i j = c.e.transV i j ∧ 0 ≤ A i j) ∧ ∀ i, i < c.e.n → ∑ j ∈ range c.e.n, A i j ≤ 0 := by
  have he := hr.ctx.wf
  have hm := (hr.inv h).mdl
  obtain ⟨bV, res, -, hk, -, -⟩ := matricesVect_ok hr.ctx.lower he hm (hr.inv h).vinv (assemble_vect ha).2
  refine ⟨fun i j hi hj hij => ?_, fun i hi => ?_⟩
  · have : A i j = c.e.transV i j := by rw [hk.mat i j hi hj, if_neg hij]
    exact ⟨this, by rw [this]; exact he.nonneg i j hi hj⟩
  · have h1 := row_inflow he hk.mat (fun _ => 1) hi
    simp only [mul_one] at h1
    rw [h1]
    unfold Net.inflow
    have hw : 0 ≤ leakW c.e m.wells res i := by
      unfold leakW
      refine sum_nonneg' fun x hx => ?_
      split_ifs
      · unfold wCond; split_ifs
        · exact le_refl 0
        · exact (windex_pos he.B he.mu (hm.well x hx)).le
      · exact le_refl 0
    have hb : 0 ≤ leakB c.e m i := by
      rw [leakB_eq hm]
      exact sum_nonneg' fun x hx => bLeak_nonneg he i (hm.bmem x hx)
    have := rhs_nonneg he (at_mem c.e hi)
    simp; linarith

/-- **C34** (row sums), partial: every row sums to minus (accumulation term + pressure-boundary terms + bottom-hole-pressure terms), as long
as no well has left its pressure limit before and none is held at bottom-hole pressure zero. Both conditions are needed:
`C34_released_well` and `C34_zero_bottom_hole_pressure`. -/
theorem C34_row_sums_partial {c : Ctx K} {m0 m m' : Mdl K} {s s' : Sol K} (hr : Ready c m0) (h : Hist c Calm m0 m s) (hz : NoZeroPwf m) {A : ℕ → ℕ → K}
    {d : ℕ → K} (ha : assemble c true m s = .ok (m', s', A, d)) : ∀ i, i < c.e.n → ∑ j ∈ range c.e.n, A i j = -leak c.e m i := by
  intro i hi
  obtain ⟨hi1, hq⟩ := hr.calm h
  obtain ⟨k, -, hk, h1⟩ := assemble_matrix hr.ctx hi1 hq (fun _ => hz) ha hi
  have h2 := h1 fun _ => 1
  simp only [mul_one] at h2
  rw [h2, hk rfl]
  unfold Net.inflow; simp

/-- The first assembly of a model needs no condition on the past. -/
theorem C34_row_sums_first {c : Ctx K} {m0 m' : Mdl K} {s' : Sol K} (hr : Ready c m0) (hz : NoZeroPwf m0) {A : ℕ → ℕ → K}
    {d : ℕ → K} (ha : assemble c true m0 (Sol.init m0) = .ok (m', s', A, d)) : ∀ i, i < c.e.n → ∑ j ∈ range c.e.n, A i j = -leak c.e m0 i :=
  C34_row_sums_partial hr .start hz ha

/-- Entries of the matrix the next call would assemble. -/
def nextA (c : Ctx ℚ) (vect : Bool) (x : Mdl ℚ × Sol ℚ) : Option (ℚ × ℚ × ℚ × ℚ) :=
  match assemble c vect x.1 x.2 with
  | .ok (_, _, A, _) => some (A 0 0, A 0 1, A 1 0, A 1 1)
  | .error _ => none

/-- The hypotheses can be met after three steps, in the last of which the well switched to its limit. -/
example : Hist (exC true 0 []) Calm exA (exRun (exC true 0 []) true 3 exA).1 (exRun (exC true 0 []) true 3 exA).2 ∧
    nextA (exC true 0 []) true (exRun (exC true 0 []) true 3 exA) = some (-4, 1, 1, -3) ∧
    NoZeroPwf (exRun (exC true 0 []) true 3 exA).1 :=
  ⟨exA_calm true, by decide +kernel, noZeroB_ok (by decide +kernel)⟩

/-- A well whose target needs its pressure limit at first and not later: it starts at the limit while the reservoir is empty and is
released when the injector on the left has filled it. -/
def exRel : Mdl ℚ := exMdl true 0 [] (some 0) [(0, "pressure", 16)] [(2, { q := some (-1), pwf := some 4, r := some 1 })]

lemma exRel_ready : Ready (exC true 0 []) exRel := exMdl_ready (by decide +kernel)

/-- What an assembly that succeeded returned. -/
def exAsm (c : Ctx ℚ) (vect : Bool) (x : Mdl ℚ × Sol ℚ) (h : isOk (assemble c vect x.1 x.2) = true) : Mdl ℚ × Sol ℚ × (ℕ → ℕ → ℚ) × (ℕ → ℚ) := getOk _ h

lemma exAsm_eq (c : Ctx ℚ) (vect : Bool) (x : Mdl ℚ × Sol ℚ) (h : isOk (assemble c vect x.1 x.2) = true) :
    assemble c vect x.1 x.2 = .ok ((exAsm c vect x h).1, (exAsm c vect x h).2.1, (exAsm c vect x h).2.2.1, (exAsm c vect x h).2.2.2) := getOk_eq _ h

lemma exRel_ok : isOk (assemble (exC true 0 []) true (exRun (exC true 0 []) true 2 exRel).1 (exRun (exC true 0 []) true 2 exRel).2) = true := by decide +kernel

/-- **C34 fails** after a well has left its pressure limit: its bottom-hole-pressure term stays in the matrix although the well is back
under rate constraint. -/
theorem C34_released_well : ∃ (c : Ctx ℚ) (m0 m m' : Mdl ℚ) (s s' : Sol ℚ) (A : ℕ → ℕ → ℚ) (d : ℕ → ℚ) (i : ℕ), Ready c m0 ∧ Hist c Any m0 m s ∧ NoZeroPwf m ∧
    assemble c true m s = .ok (m', s', A, d) ∧ i < c.e.n ∧ ∑ j ∈ range c.e.n, A i j ≠ -leak c.e m i :=
  ⟨exC true 0 [], exRel, _, _, _, _, _, _, 1, exRel_ready, exRun_any exRel_ready true 2, noZeroB_ok (by decide +kernel), exAsm_eq _ _ _ exRel_ok,
    by decide +kernel, by decide +kernel⟩

/-- A well held at bottom-hole pressure 0. -/
def exZero : Mdl ℚ := exMdl true 0 [] (some 8) [] [(2, { pwf := some 0, r := some 1 })]

lemma exZero_ready : Ready (exC true 0 []) exZero := exMdl_ready (by decide +kernel)

lemma exZero_ok : isOk (assemble (exC true 0 []) true exZero (Sol.init exZero)) = true := by decide +kernel

/-- **C34 fails** for a well held at bottom-hole pressure 0: its term is missing in the matrix. -/
theorem C34_zero_bottom_hole_pressure : ∃ (c : Ctx ℚ) (m0 m' : Mdl ℚ) (s' : Sol ℚ) (A : ℕ → ℕ → ℚ) (d : ℕ → ℚ) (i : ℕ), Ready c m0 ∧
    assemble c true m0 (Sol.init m0) = .ok (m', s', A, d) ∧ i < c.e.n ∧ ∑ j ∈ range c.e.n, A i j ≠ -leak c.e m0 i :=
  ⟨exC true 0 [], exZero, _, _, _, _, 1, exZero_ready, exAsm_eq _ true (exZero, Sol.init exZero) exZero_ok, by decide +kernel, by decide +kernel⟩

/-! ## C35 -/

/-- **C35**, partial: if the model is compressible, or a face has a pressure condition, or a well is under pressure constraint, then the
assembled matrix has exactly one solution for every right-hand side — with both assemblers, after any history in which no well left
its pressure limit, and without a well held at bottom-hole pressure zero (`C35_zero_bottom_hole_pressure`). -/
theorem C35_unique_solution_partial {c : Ctx K} {m0 m m' : Mdl K} {s s' : Sol K} {vect : Bool} (hr : Ready c m0) (h : Hist c Calm m0 m s)
    (hz : vect = true → NoZeroPwf m) (han : Anchored c.e m) {A : ℕ → ℕ → K} {d : ℕ → K} (ha : assemble c vect m s = .ok (m', s', A, d)) (b : ℕ → K) :
    ∃ x, Solves c.e.n A b x ∧ ∀ y, Solves c.e.n A b y → ∀ i, i < c.e.n → y i = x i := by
  obtain ⟨hi, hq⟩ := hr.calm h
  have hk := fun i (hin : i < c.e.n) => assemble_matrix hr.ctx hi hq hz ha hin
  choose! k hk0 _ hk2 using hk
  have hL := anchored_leaky hr.ctx.wf (hr.ctx.grid.network vect) hi.mdl han
  have hS : ∀ x, Solves c.e.n A b x ↔ ∀ i, i < c.e.n → Net.inflow c.e.n (c.e.trans vect) (leak c.e m) x i = b i / k i := by
    intro x
    refine forall₂_congr fun i hin => ?_
    rw [hk2 i hin x, eq_div_iff (hk0 i hin), mul_comm]
  obtain ⟨x, hx⟩ := Net.exists_inflow hL fun i => b i / k i
  refine ⟨x, (hS x).2 hx, fun y hy => Net.eq_of_inflow_eq hL fun i hin => ?_⟩
  rw [(hS y).1 hy i hin, hx i hin]

example : Anchored (exC false 0 []).e (exMdl false 0 [] (some 8) [] [(2, { pwf := some 2, r := some 1 })]) :=
  .inr (.inr ⟨_, List.head_mem (l := (exMdl false 0 [] (some 8) [] [(2, { pwf := some 2, r := some 1 })]).wells) (by decide +kernel), by decide +kernel⟩)

/-- An incompressible reservoir drained by one well at bottom-hole pressure 0. -/
def exZeroI : Mdl ℚ := exMdl false 0 [] (some 8) [] [(2, { pwf := some 0, r := some 1 })]

lemma exZeroI_ready : Ready (exC false 0 []) exZeroI := exMdl_ready (by decide +kernel)

lemma exZeroI_ok : isOk (assemble (exC false 0 []) true exZeroI (Sol.init exZeroI)) = true := by decide +kernel

/-- **C35 fails** when the only anchor is a well held at bottom-hole pressure 0: the vectorised matrix is singular. -/
theorem C35_zero_bottom_hole_pressure : ∃ (c : Ctx ℚ) (m0 m' : Mdl ℚ) (s' : Sol ℚ) (A : ℕ → ℕ → ℚ) (d : ℕ → ℚ), Ready c m0 ∧ Anchored c.e m0 ∧
    assemble c true m0 (Sol.init m0) = .ok (m', s', A, d) ∧ Solves c.e.n A (fun _ => 0) (fun _ => 1) ∧ 0 < c.e.n := by
  refine ⟨exC false 0 [], exZeroI, _, _, _, _, exZeroI_ready, ?_, exAsm_eq _ true (exZeroI, Sol.init exZeroI) exZeroI_ok, ?_, by decide +kernel⟩
  · exact .inr (.inr ⟨_, List.head_mem (l := exZeroI.wells) (by decide +kernel), by decide +kernel⟩)
  · intro i hi
    have hn : (exC false 0 []).e.n = 2 := by decide +kernel
    rw [hn] at hi ⊢
    have : i = 0 ∨ i = 1 := by omega
    rcases this with rfl | rfl <;> decide +kernel

/-! ## C36 -/

/-- The model is closed: incompressible, no pressure condition, no well under pressure constraint. -/
def Closed (e : Env K) (m : Mdl K) : Prop :=
  e.comp = false ∧ (∀ b, b ∈ m.bdict → b.2.1 ≠ "pressure") ∧ ∀ w, w ∈ m.wells → w.2.con ≠ some .pwf

/-- All imposed rates together: rate conditions on faces (`rate` of the boundary cell; corner and edge cells have no interior cell
behind them) and wells. -/
def imposed (e : Env K) (m : Mdl K) (rate : ℕ → K) : K :=
  (m.bdict.map fun b => if e.behind b.1 = none then 0 else rate b.1).sum + (m.wells.map fun w => w.2.q.getD 0).sum

lemma closed_leak {e : Env K} (he : e.WF) {m : Mdl K} (hc : Closed e m) (i : ℕ) : leak e m i = 0 := by
  unfold leak
  have h1 : m.bdict.map (bLeak e i) = m.bdict.map fun _ => (0 : K) := List.map_congr_left fun b hb => by unfold bLeak; rw [if_neg (hc.2.1 b hb)]
  have h2 : m.wells.map (wLeak e i) = m.wells.map fun _ => (0 : K) := List.map_congr_left fun w hw => by unfold wLeak; rw [if_neg fun h => hc.2.2 w hw h.2]
  rw [he.rhsI hc.1, h1, h2]; simp

/-- **C36** (singular), partial: the matrix of a closed incompressible model takes the constant pressures to zero, with both assemblers and after
any history in which no well left its pressure limit. -/
theorem C36_singular_partial {c : Ctx K} {m0 m m' : Mdl K} {s s' : Sol K} {vect : Bool} (hr : Ready c m0) (h : Hist c Calm m0 m s) (hcl : Closed c.e m)
    {A : ℕ → ℕ → K} {d : ℕ → K} (ha : assemble c vect m s = .ok (m', s', A, d)) : Solves c.e.n A (fun _ => 0) (fun _ => 1) ∧ 0 < c.e.n := by
  obtain ⟨hi, hq⟩ := hr.calm h
  refine ⟨fun i hin => ?_, hr.ctx.wf.pos⟩
  obtain ⟨k, -, -, hk⟩ := assemble_matrix hr.ctx hi hq (fun _ x hx hp => absurd hp (hcl.2.2 x hx)) ha hin
  rw [hk]
  unfold Net.inflow
  rw [closed_leak hr.ctx.wf hcl]; simp

/-- **C36** (solvable only if balanced), partial: a solution exists only if the imposed rates sum to zero. The vectorised assembler needs cells at
the same depth or a fluid without density (`C49`). -/
theorem C36_rates_balance_partial {c : Ctx K} {m0 m m' : Mdl K} {s s' : Sol K} {vect : Bool} (hr : Ready c m0) (h : Hist c Calm m0 m s) (hcl : Closed c.e m)
    (hf : vect = true → c.e.Flat) {A : ℕ → ℕ → K} {d x : ℕ → K} (ha : assemble c vect m s = .ok (m', s', A, d)) (hx : Solves c.e.n A d x) :
    imposed c.e m (usedRate vect m s) = 0 := by
  obtain ⟨hi, hq⟩ := hr.calm h
  have h1 := (assemble_solves hr.ctx hi hq hf (fun _ x hx hp => absurd hp (hcl.2.2 x hx)) ha x).1 hx
  have h2 := sum_excess hr.ctx.wf (hr.ctx.grid.network vect) hi.mdl (usedRate vect m s) (s.inner c.e s.tstep) x
  rw [sum_eq_zero fun i hin => h1 i (mem_range.1 hin), sum_eq_zero (f := fun i => c.e.rhs (c.e.at i) * (x i - s.inner c.e s.tstep i)) fun i _ => by
    rw [hr.ctx.wf.rhsI hcl.1, zero_mul], sub_zero] at h2
  refine Eq.trans ?_ h2.symm
  unfold imposed
  congr 1
  · congr 1
    refine List.map_congr_left fun b hb => ?_
    unfold Env.behind boundaryFlow
    rcases hr.ctx.wf.face b.1 (hi.mdl.bmem b hb) with h | ⟨id, T, -, -, h⟩
    · rw [h]; rfl
    · rw [show c.e.transC b.1 false = _ from h]
      simp [hcl.2.1 b hb]
  · congr 1
    refine List.map_congr_left fun w hw => ?_
    unfold wellFlow
    rcases hc : w.2.con with _ | _ | _
    · exact absurd hc (hq.cfg w hw)
    · rfl
    · exact absurd hc (hcl.2.2 w hw)

/-- Injection through the right face and an equal production from cell 1. -/
def exClosed : Mdl ℚ := exMdl false 0 [] none [(3, "rate", 5)] [(1, { q := some (-5), r := some 1 })]

example : Ready (exC false 0 []) exClosed ∧ Closed (exC false 0 []).e exClosed ∧ (∀ vect, isOk (assemble (exC false 0 []) vect exClosed (Sol.init exClosed)) = true) := by
  refine ⟨exMdl_ready (by decide +kernel), ⟨by decide +kernel, ?_, ?_⟩, fun vect => by cases vect <;> decide +kernel⟩
  · have : (exClosed.bdict.all fun b => decide (b.2.1 ≠ "pressure")) = true := by decide +kernel
    rw [List.all_eq_true] at this
    exact fun b hb => of_decide_eq_true (this b hb)
  · have : (exClosed.wells.all fun b => decide (b.2.con ≠ some .pwf)) = true := by decide +kernel
    rw [List.all_eq_true] at this
    exact fun b hb => of_decide_eq_true (this b hb)

/-- A solver that also answers a singular balanced system of two cells, with one of its many solutions. -/
def balLin : LinSolver ℚ := fun n A d =>
  if n = 2 ∧ A 0 0 * -100 + A 0 1 * -101 = d 0 ∧ A 1 0 * -100 + A 1 1 * -101 = d 1 then .ok fun i => if i = 0 then -100 else -101 else cramer n A d

lemma balLin_exact : Exact balLin := by
  intro n A d x h
  unfold balLin at h
  split_ifs at h with hn
  · obtain ⟨rfl, h0, h1⟩ := hn
    simp only [Except.ok.injEq] at h
    subst h
    intro i hi
    have : i = 0 ∨ i = 1 := by omega
    rcases this with rfl | rfl
    · simpa [sum_range_succ] using h0
    · simpa [sum_range_succ] using h1
  · exact cramer_exact _ _ _ _ h

/-- Injection through the left face and two producers that can deliver it together, each with a pressure limit. -/
def exFree : Mdl ℚ := exMdl false 0 [] (some 0) [(0, "rate", 2)] [(1, { q := some (-1), pwf := some (-4), r := some 1 }), (2, { q := some (-1), pwf := some (-4), r := some 1 })]

/-- Its configuration with that solver. -/
def exFreeC : Ctx ℚ := { exC false 0 [] with lin := balLin }

lemma exFree_ready : Ready exFreeC exFree :=
  have h : Ready (exC false 0 []) exFree := exMdl_ready (by decide +kernel)
  ⟨⟨h.ctx.lower, h.ctx.grid, h.ctx.scale⟩, h.setup, h.G, h.cfg, h.canon⟩

lemma exFree_ok : isOk (assemble exFreeC true (exRun exFreeC true 2 exFree).1 (exRun exFreeC true 2 exFree).2) = true := by decide +kernel

/-- **C36 fails** once wells have left their pressure limits, with an exact linear solver and the vectorised assembler: the model is closed and both
wells are under rate constraint, but the matrix is regular, and there is a solution although the imposed rates do not sum to zero. -/
theorem C36_released_wells_fail : ∃ (c : Ctx ℚ) (m0 m m' : Mdl ℚ) (s s' : Sol ℚ) (A : ℕ → ℕ → ℚ) (d : ℕ → ℚ), Ready c m0 ∧ Exact c.lin ∧ Hist c Any m0 m s ∧
    Closed c.e m ∧ assemble c true m s = .ok (m', s', A, d) ∧ (∀ x, Solves c.e.n A (fun _ => 0) x → ∀ i, i < c.e.n → x i = 0) ∧
    imposed c.e m (usedRate true m s) ≠ 0 ∧ ∃ x, Solves c.e.n A d x := by
  have hn : exFreeC.e.n = 2 := by decide +kernel
  refine ⟨exFreeC, exFree, _, _, _, _, _, _, exFree_ready, balLin_exact, exRun_any exFree_ready true 2, ⟨by decide +kernel, ?_, ?_⟩, exAsm_eq _ _ _ exFree_ok, ?_, by decide +kernel, ?_⟩
  · have : ((exRun exFreeC true 2 exFree).1.bdict.all fun b => decide (b.2.1 ≠ "pressure")) = true := by decide +kernel
    rw [List.all_eq_true] at this
    exact fun b hb => of_decide_eq_true (this b hb)
  · have : ((exRun exFreeC true 2 exFree).1.wells.all fun b => decide (b.2.con ≠ some .pwf)) = true := by decide +kernel
    rw [List.all_eq_true] at this
    exact fun b hb => of_decide_eq_true (this b hb)
  · intro x hx i hi
    rw [hn] at hx hi
    have h0 := hx 0 (by omega)
    have h1 := hx 1 (by omega)
    simp only [sum_range_succ, range_zero, sum_empty, zero_add] at h0 h1
    rw [show (exAsm exFreeC true (exRun exFreeC true 2 exFree) exFree_ok).2.2.1 0 0 = -2 by decide +kernel,
      show (exAsm exFreeC true (exRun exFreeC true 2 exFree) exFree_ok).2.2.1 0 1 = 1 by decide +kernel] at h0
    rw [show (exAsm exFreeC true (exRun exFreeC true 2 exFree) exFree_ok).2.2.1 1 0 = 1 by decide +kernel,
      show (exAsm exFreeC true (exRun exFreeC true 2 exFree) exFree_ok).2.2.1 1 1 = -2 by decide +kernel] at h1
    have : i = 0 ∨ i = 1 := by omega
    rcases this with rfl | rfl <;> linarith
  · have hl : isOk (balLin 2 (exAsm exFreeC true (exRun exFreeC true 2 exFree) exFree_ok).2.2.1 (exAsm exFreeC true (exRun exFreeC true 2 exFree) exFree_ok).2.2.2) = true := by decide +kernel
    exact ⟨_, by rw [hn]; exact balLin_exact _ _ _ _ (getOk_eq _ hl)⟩

end RF.Fdm
