import Verif.Fdm.PropsAsm
/-! # Gravity in the vectorised assembler (C49) -/
set_option linter.unusedSectionVars false
namespace RF.Fdm
open RF RF.Dims Finset

section
variable {K : Type} [Field K] [LinearOrder K] [IsStrictOrderedRing K]

/-- The gravity head of the cell at position `i`: what gravity adds to the flow between cells. -/
def cellHead (e : Env K) (i : ℕ) : K := ∑ j ∈ range e.n, e.transV i j * (e.grav * (e.z (e.at j) - e.z (e.at i)))

lemma excess_head (e : Env K) (m : Mdl K) (rate old x : ℕ → K) (i : ℕ) :
    excess e e.transV m rate old x i = Net.inflow e.n e.transV (leak e m) x i + source e m rate old i - cellHead e i := by
  unfold excess Net.inflow source leak cellHead
  rw [outsideIn_eq]
  have : ∑ j ∈ range e.n, e.transV i j * (x j - x i - e.grav * (e.z (e.at j) - e.z (e.at i))) =
      ∑ j ∈ range e.n, e.transV i j * (x j - x i) - ∑ j ∈ range e.n, e.transV i j * (e.grav * (e.z (e.at j) - e.z (e.at i))) := by
    rw [← sum_sub_distrib]; exact sum_congr rfl fun j _ => by ring
  rw [this]; ring

/-- **C49, the vectorised assembler, exactly.** The residual of every row is the balance of its cell, gravity included, plus the gravity head of the cell minus what the
assembler enters for it: nothing if no well is under rate constraint, otherwise the head to the next and the previous cell in the list, both with the transmissibility
to the next cell. -/
theorem C49_vectorised_exact {c : Ctx K} {m0 m m' : Mdl K} {s s' : Sol K} (hr : Ready c m0) (hh : Hist c Calm m0 m s) (hz : NoZeroPwf m) {A : ℕ → ℕ → K} {d : ℕ → K}
    (ha : assemble c true m s = .ok (m', s', A, d)) (x : ℕ → K) {i : ℕ} (hin : i < c.e.n) :
    ∑ j ∈ range c.e.n, A i j * x j - d i = excess c.e c.e.transV m (rowAt s.rates s.tstep 0) (s.inner c.e s.tstep) x i + cellHead c.e i -
      (if (∃ w, w ∈ m.wells ∧ w.2.con = some .q) ∧ ¬ ∀ j, j < c.e.n → c.e.z (c.e.at j) = c.e.z (c.e.at 0) then
        c.e.diag1 i * c.e.grav * ((if i + 1 < c.e.n then c.e.z (c.e.at (i + 1)) - c.e.z (c.e.at i) else 0) + (if 0 < i then c.e.z (c.e.at (i - 1)) - c.e.z (c.e.at i) else 0))
      else 0) := by
  obtain ⟨hi, hq⟩ := hr.calm hh
  obtain ⟨bV, res, -, hk, hres, hd⟩ := matricesVect_exact hr.ctx.lower hr.ctx.wf hi.mdl hi.vinv (assemble_vect ha).2
  rw [excess_head, row_inflow hr.ctx.wf hk.mat x hin, hd i hin, wellNum_eq hi.mdl hz]
  have h1 : Net.inflow c.e.n c.e.transV (fun i => c.e.rhs (c.e.at i) + leakB c.e m i + leakW c.e m.wells res i) x i = Net.inflow c.e.n c.e.transV (leak c.e m) x i := by
    unfold Net.inflow leak
    dsimp only
    rw [leakB_eq hi.mdl, leakW_eq hi.mdl hz hq.noStale hres]
  have h2 : entered c.e m i = if (∃ w, w ∈ m.wells ∧ w.2.con = some .q) ∧ ¬ ∀ j, j < c.e.n → c.e.z (c.e.at j) = c.e.z (c.e.at 0) then
        c.e.diag1 i * c.e.grav * ((if i + 1 < c.e.n then c.e.z (c.e.at (i + 1)) - c.e.z (c.e.at i) else 0) + (if 0 < i then c.e.z (c.e.at (i - 1)) - c.e.z (c.e.at i) else 0))
      else 0 := by
    have b1 : (m.wells.any fun x => decide (x.2.con = some .q)) = true ↔ ∃ w, w ∈ m.wells ∧ w.2.con = some .q := by simp
    have b2 : ((List.range c.e.n).all fun i => decide (c.e.z (c.e.at i) = c.e.z (c.e.at 0))) = true ↔ ∀ j, j < c.e.n → c.e.z (c.e.at j) = c.e.z (c.e.at 0) := by simp
    unfold entered zHead
    by_cases g1 : ∃ w, w ∈ m.wells ∧ w.2.con = some .q
    · rw [if_pos (b1.2 g1)]
      by_cases g2 : ∀ j, j < c.e.n → c.e.z (c.e.at j) = c.e.z (c.e.at 0)
      · rw [if_pos (b2.2 g2), if_neg fun h => h.2 g2]
      · rw [if_neg fun h => g2 (b2.1 h), if_pos (show _ ∧ _ from ⟨g1, g2⟩)]
        split_ifs <;> ring
    · rw [if_neg fun h => g1 (b1.1 h), if_neg fun h => g1 h.1]
  rw [h1, h2]
  unfold source outsideIn
  generalize (if (∃ w, w ∈ m.wells ∧ w.2.con = some .q) ∧ ¬ ∀ j, j < c.e.n → c.e.z (c.e.at j) = c.e.z (c.e.at 0) then
        c.e.diag1 i * c.e.grav * ((if i + 1 < c.e.n then c.e.z (c.e.at (i + 1)) - c.e.z (c.e.at i) else 0) + (if 0 < i then c.e.z (c.e.at (i - 1)) - c.e.z (c.e.at i) else 0))
      else 0) = E
  ring

/-- A column of cells with one transmissibility: each cell is linked with the next. -/
structure Column (e : Env K) (t : K) : Prop where
  links : ∀ i j, i < e.n → j < e.n → e.transV i j = if j = i + 1 ∨ i = j + 1 then t else 0
  diag : ∀ i, i < e.n → e.diag1 i = t

lemma Column.head {e : Env K} {t : K} (h : Column e t) {i : ℕ} (hi : i < e.n) : cellHead e i =
    t * e.grav * ((if i + 1 < e.n then e.z (e.at (i + 1)) - e.z (e.at i) else 0) + (if 0 < i then e.z (e.at (i - 1)) - e.z (e.at i) else 0)) := by
  unfold cellHead
  have h1 : ∀ j ∈ range e.n, e.transV i j * (e.grav * (e.z (e.at j) - e.z (e.at i))) =
      (if j = i + 1 then t * e.grav * (e.z (e.at (i + 1)) - e.z (e.at i)) else 0) + (if j = i - 1 then (if 0 < i then t * e.grav * (e.z (e.at (i - 1)) - e.z (e.at i)) else 0) else 0) := by
    intro j hj
    rw [h.links i j hi (mem_range.1 hj)]
    rcases Nat.lt_trichotomy j i with g | g | g
    · by_cases g1 : i = j + 1
      · subst g1
        rw [if_pos (Or.inr rfl), if_neg (by omega), if_pos (by omega), if_pos (by omega), Nat.add_sub_cancel]; ring
      · rw [if_neg (by omega), if_neg (by omega), if_neg (by omega)]; ring
    · subst g
      rw [if_neg (by omega), if_neg (by omega)]
      by_cases g1 : 0 < j
      · rw [if_neg (by omega)]; ring
      · rw [if_neg g1]; simp
    · by_cases g1 : j = i + 1
      · subst g1
        rw [if_pos (Or.inl rfl), if_pos rfl, if_neg (by omega)]; ring
      · rw [if_neg (by omega), if_neg g1, if_neg (by omega)]; ring
  rw [sum_congr rfl h1, sum_add_distrib, sum_ite_eq', sum_ite_eq']
  simp only [mem_range]
  rw [if_pos (show i - 1 < e.n by omega)]
  split_ifs <;> ring

/-- **C49**, partial, vectorised: in a column of cells with one transmissibility and with a well under rate constraint the vectorised assembler has the right gravity
terms: the assembled system says that every cell balances, gravity included. Missing: models without such a well (`C49_vectorised_fails`) and other grids
(`C49_vectorised_exact` gives the difference). -/
theorem C49_column_partial {c : Ctx K} {m0 m m' : Mdl K} {s s' : Sol K} (hr : Ready c m0) (hh : Hist c Calm m0 m s) (hz : NoZeroPwf m) {t : K} (hc : Column c.e t)
    (hw : ∃ w, w ∈ m.wells ∧ w.2.con = some .q) {A : ℕ → ℕ → K} {d : ℕ → K} (ha : assemble c true m s = .ok (m', s', A, d)) (x : ℕ → K) :
    Solves c.e.n A d x ↔ ∀ i, i < c.e.n → excess c.e c.e.transV m (rowAt s.rates s.tstep 0) (s.inner c.e s.tstep) x i = 0 := by
  refine forall₂_congr fun i hin => ?_
  rw [← sub_eq_zero, C49_vectorised_exact hr hh hz ha x hin, hc.head hin, hc.diag i hin]
  by_cases g : ∀ j, j < c.e.n → c.e.z (c.e.at j) = c.e.z (c.e.at 0)
  · rw [if_neg (show ¬ ((∃ w, w ∈ m.wells ∧ w.2.con = some .q) ∧ ¬ ∀ j, j < c.e.n → c.e.z (c.e.at j) = c.e.z (c.e.at 0)) from fun h => h.2 g)]
    have : (if i + 1 < c.e.n then c.e.z (c.e.at (i + 1)) - c.e.z (c.e.at i) else 0) + (if 0 < i then c.e.z (c.e.at (i - 1)) - c.e.z (c.e.at i) else 0) = 0 := by
      split_ifs with g1 g2 g2
      · rw [g _ g1, g _ hin, g (i - 1) (by omega)]; simp
      · rw [g _ g1, g _ hin]; simp
      · rw [g _ hin, g (i - 1) (by omega)]; simp
      · simp
    rw [this]; simp
  · rw [if_pos (show _ ∧ _ from ⟨hw, g⟩), add_sub_cancel_right]

/-- **C49**, partial, vectorised: with the switch of the last well from a rate to a pressure constraint the gravity terms vanish from the equations: what the assembler enters for
gravity is the same for all models without a well under rate constraint, whatever the depths. -/
theorem C49_switch_partial {c : Ctx K} {m0 m m' : Mdl K} {s s' : Sol K} (hr : Ready c m0) (hh : Hist c Calm m0 m s) (hz : NoZeroPwf m)
    (hw : ∀ w, w ∈ m.wells → w.2.con ≠ some .q) {A : ℕ → ℕ → K} {d : ℕ → K} (ha : assemble c true m s = .ok (m', s', A, d)) (x : ℕ → K) {i : ℕ} (hin : i < c.e.n) :
    ∑ j ∈ range c.e.n, A i j * x j - d i = excess c.e c.e.transV m (rowAt s.rates s.tstep 0) (s.inner c.e s.tstep) x i + cellHead c.e i := by
  rw [C49_vectorised_exact hr hh hz ha x hin, if_neg, sub_zero]
  rintro ⟨⟨w, h1, h2⟩, -⟩
  exact hw w h1 h2

end

/-! ## Instances -/

/-- Cells at depths 5 and 7 under gravity with a shut-in well. -/
def exShaft : Mdl ℚ := exMdl true 3 [5, 5, 7, 7] (some 8) [] [(1, { q := some 0, r := some 1 })]

lemma exShaft_ready : Ready (exC true 3 [5, 5, 7, 7]) exShaft := exMdl_ready (by decide +kernel)

lemma exShaft_column : Column (exC true 3 [5, 5, 7, 7]).e 1 := by
  have hn : (exC true 3 [5, 5, 7, 7]).e.n = 2 := by decide +kernel
  refine ⟨fun i j hi hj => ?_, fun i hi => ?_⟩
  · rw [hn] at hi hj
    interval_cases i <;> interval_cases j <;> decide +kernel
  · rw [hn] at hi
    interval_cases i <;> decide +kernel

/-- The hypotheses of the three theorems are met in a reservoir that is not flat, with and without a well. -/
example : Ready (exC true 3 [5, 5, 7, 7]) exShaft ∧ NoZeroPwf exShaft ∧ ¬ (exC true 3 [5, 5, 7, 7]).e.Flat ∧ (∃ w, w ∈ exShaft.wells ∧ w.2.con = some .q) ∧
    isOk (assemble (exC true 3 [5, 5, 7, 7]) true exShaft (Sol.init exShaft)) = true ∧ isOk (assemble (exC true 3 [5, 5, 7, 7]) true (exDeep true) (Sol.init (exDeep true))) = true ∧
    (∀ w, w ∈ (exDeep true).wells → w.2.con ≠ some .q) ∧ cellHead (exC true 3 [5, 5, 7, 7]).e 0 = 6 := by
  refine ⟨exShaft_ready, noZeroB_ok (by decide +kernel), ?_, ?_, by decide +kernel, by decide +kernel, ?_, by decide +kernel⟩
  · rintro (h | h)
    · exact absurd h (by decide +kernel)
    · exact absurd (h 1 (by decide +kernel)) (by decide +kernel)
  · have : (exShaft.wells.any fun w => decide (w.2.con = some .q)) = true := by decide +kernel
    simpa using this
  · rw [show (exDeep true).wells = [] by decide +kernel]; simp

end RF.Fdm
