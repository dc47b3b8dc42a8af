import Verif.Fdm.PropsBetter
import Verif.Fdm.CoeffJump
/-!
# C94: where it fails, and instances
-/
set_option linter.unusedSectionVars false
namespace RF.Fdm
open RF RF.Dims RF.Spec Finset

variable {K : Type} [Field K] [LinearOrder K] [IsStrictOrderedRing K]

/-- In reservoirs without gravity between cells, with no bottom-hole pressure of zero, any history with one assembler will do. -/
lemma single_hist {c : Ctx K} {m0 m : Mdl K} {s : Sol K} {vect : Bool} (hr : Ready c m0) (hf : c.e.Flat) (h0 : ∀ w, w ∈ m0.wells → w.2.pwfsp ≠ some 0)
    (hh : Hist c (fun v _ _ => v = vect) m0 m s) : Hist c (Single c.e vect) m0 m s := by
  have key : ∀ {m : Mdl K} {s : Sol K}, Hist c (fun v _ _ => v = vect) m0 m s → NoZeroPwf m := fun hh x hx _ => by
    obtain ⟨w, hw, h4⟩ := (forall2_mem (hr.inv hh).same.wells).1 x hx
    rw [h4.2.2.1]; exact h0 w hw
  induction hh with
  | start => exact .start
  | step hh ha hp ih => exact .step ih ha ⟨hp, fun _ => ⟨hf, key hh⟩⟩
  | again hh ha hp ih => exact .again ih ha ⟨hp, fun _ => ⟨hf, key hh⟩⟩
  | look hh ha ih => exact .look ih ha
  | clock n t hh ih => exact .clock n t ih

/-- Checks. -/
def twoHeadsB (e : Env ℚ) (H L : ℚ) (m : Mdl ℚ) : Bool :=
  m.bdict.all (fun b => decide (b.2.1 = "pressure" → e.head b.1 b.2.2 = H ∨ e.head b.1 b.2.2 = L)) && m.bdict.all (fun b => decide (b.2.1 ≠ "pressure" → b.2.2 = 0 ∧ m.initR b.1 = 0)) &&
    m.wells.all fun w => decide (w.2.qsp = none ∧ (e.head w.1 (w.2.pwfsp.getD 0) = H ∨ e.head w.1 (w.2.pwfsp.getD 0) = L))

lemma twoHeads_of {e : Env ℚ} {H L : ℚ} {m : Mdl ℚ} (h : twoHeadsB e H L m = true) : TwoHeads e H L m := by
  unfold twoHeadsB at h
  simp only [Bool.and_eq_true, List.all_eq_true, decide_eq_true_eq] at h
  exact ⟨h.1.1, h.1.2, h.2⟩

def moreOpenB (m n : Mdl ℚ) : Bool :=
  m.bdict.all (fun b => decide (b.2.1 = "pressure" → b ∈ n.bdict)) && m.wells.all fun w => n.wells.any fun w' => decide (w'.1 = w.1 ∧ w'.2.pwfsp = w.2.pwfsp ∧ w.2.G.getD 0 ≤ w'.2.G.getD 0)

lemma moreOpen_of {m n : Mdl ℚ} (h : moreOpenB m n = true) : MoreOpen m n := by
  unfold moreOpenB at h
  simp only [Bool.and_eq_true, List.all_eq_true, List.any_eq_true, decide_eq_true_eq] at h
  exact ⟨h.1, h.2⟩

/-! ### Where it fails -/

lemma jM_ok : isOk (jM 1).env = true ∧ isOk (jM (11 / 10)).env = true := ⟨by decide +kernel, by decide +kernel⟩

/-- Two cells of permeability 1 between boundary cells of permeability 9. -/
def jC1 : Ctx ℚ := ⟨getOk _ jM_ok.1, fun s => s, fun _ _ => 1, cramer⟩
/-- The second one of permeability 1.1. -/
def jC2 : Ctx ℚ := ⟨getOk _ jM_ok.2, fun s => s, fun _ _ => 1, cramer⟩

lemma jC_ctx : CtxOK jC1 ∧ CtxOK jC2 :=
  ⟨⟨⟨rfl, rfl⟩, ⟨_, jM_pos one_pos, getOk_eq _ jM_ok.1⟩, fun _ _ => (one_ne_zero : (1 : ℚ) ≠ 0)⟩, ⟨⟨rfl, rfl⟩, ⟨_, jM_pos (by norm_num), getOk_eq _ jM_ok.2⟩, fun _ _ => (one_ne_zero : (1 : ℚ) ≠ 0)⟩⟩

/-- Pressures 12 and 1 at the ends. -/
def jEnds (c : Ctx ℚ) : Mdl ℚ := mkMdl c (some 5) [(0, "pressure", 12), (3, "pressure", 1)] []

lemma jEnds_ready : Ready jC1 (jEnds jC1) ∧ Ready jC2 (jEnds jC2) :=
  ⟨mkMdl_ready jC_ctx.1 (fun _ => rfl) (by decide +kernel), mkMdl_ready jC_ctx.2 (fun _ => rfl) (by decide +kernel)⟩

lemma jM_better : BetterRock (jM 1) (jM (11 / 10)) := by
  refine ⟨rfl, rfl, rfl, rfl, rfl, fun a c hc => ?_, le_rfl, le_rfl⟩
  cases a
  · rcases g2_cell hc with rfl | rfl | rfl | rfl <;> show perm g2 (jRock 1) .x _ ≤ perm g2 (jRock (11 / 10)) .x _ <;> decide +kernel
  · exact le_rfl
  · exact le_rfl

/-- **C94** fails where boundary cells have another permeability than a uniform interior: two cells of permeability 1 between boundary cells of permeability 9 carry a flow of 55/6; with a second
cell of permeability 1.1, which is better rock, they carry less. -/
theorem C94_edge_fails (vect : Bool) : ∃ (M M' : GridModel ℚ) (c c' : Ctx ℚ) (m0 n0 m n : Mdl ℚ) (s s' : Sol ℚ), M.Pos ∧ M'.Pos ∧ BetterRock M M' ∧ M.g.getD ≠ 3 ∧ M.env = .ok c.e ∧ M'.env = .ok c'.e ∧
    Ready c m0 ∧ Ready c' n0 ∧ Exact c.lin ∧ Exact c'.lin ∧ c.e.comp = false ∧ c'.e.comp = false ∧ MoreOpen m0 n0 ∧ TwoHeads c.e 12 1 m0 ∧ TwoHeads c'.e 12 1 n0 ∧
    Hist c (Single c.e vect) m0 m s ∧ Hist c' (Single c'.e vect) n0 n s' ∧ s.tstep = 1 ∧ s'.tstep = 1 ∧ feed c.e 12 m0 s 1 = 55 / 6 ∧ feed c'.e 12 n0 s' 1 < 55 / 6 := by
  refine ⟨jM 1, jM (11 / 10), jC1, jC2, jEnds jC1, jEnds jC2, (exRun jC1 vect 1 (jEnds jC1)).1, (exRun jC2 vect 1 (jEnds jC2)).1, (exRun jC1 vect 1 (jEnds jC1)).2, (exRun jC2 vect 1 (jEnds jC2)).2,
    jM_pos one_pos, jM_pos (by norm_num), jM_better, by show g2.getD ≠ 3; decide, getOk_eq _ jM_ok.1, getOk_eq _ jM_ok.2, jEnds_ready.1, jEnds_ready.2, cramer_exact, cramer_exact, by decide +kernel,
    by decide +kernel, moreOpen_of (by decide +kernel), twoHeads_of (by decide +kernel), twoHeads_of (by decide +kernel), ?_, ?_, ?_, ?_, ?_, ?_⟩
  · exact single_hist jEnds_ready.1 (.inl (by decide +kernel)) (by decide +kernel) (exRun_vect jEnds_ready.1 vect 1)
  · exact single_hist jEnds_ready.2 (.inl (by decide +kernel)) (by decide +kernel) (exRun_vect jEnds_ready.2 vect 1)
  · cases vect <;> decide +kernel
  · cases vect <;> decide +kernel
  · cases vect <;> decide +kernel
  · cases vect <;> decide +kernel

/-! ### Instances -/

/-- Permeabilities 1, 1, `k`, `k`, incompressible, viscosity `mu`. -/
def bM (k mu : ℚ) : GridModel ℚ := { exM false 0 [] with rock := pRock k, mu := mu }

lemma bM_pos {k mu : ℚ} (hk : 0 < k) (hmu : 0 < mu) : (bM k mu).Pos := by
  have h := pM_pos hk
  exact ⟨h.geom, h.sizes, h.rock, h.perm, h.permB, one_pos, hmu, one_pos, one_pos, one_pos, h.phi, fun _ => one_pos⟩

lemma bM_plain (k mu : ℚ) : PlainEdge (bM k mu) := pM_plain k

lemma bM_ok : isOk (bM 1 2).env = true ∧ isOk (bM 3 1).env = true := ⟨by decide +kernel, by decide +kernel⟩

/-- Permeability 1, viscosity 2. -/
def bC1 : Ctx ℚ := ⟨getOk _ bM_ok.1, fun s => s, fun _ _ => 1, cramer⟩
/-- Permeability 3 in the second cell, viscosity 1. -/
def bC2 : Ctx ℚ := ⟨getOk _ bM_ok.2, fun s => s, fun _ _ => 1, cramer⟩

lemma bC_ctx : CtxOK bC1 ∧ CtxOK bC2 :=
  ⟨⟨⟨rfl, rfl⟩, ⟨_, bM_pos one_pos two_pos, getOk_eq _ bM_ok.1⟩, fun _ _ => (one_ne_zero : (1 : ℚ) ≠ 0)⟩, ⟨⟨rfl, rfl⟩, ⟨_, bM_pos (by norm_num) one_pos, getOk_eq _ bM_ok.2⟩, fun _ _ => (one_ne_zero : (1 : ℚ) ≠ 0)⟩⟩

/-- Pressure 10 at the left end, no flow over the right one, a well in the second cell at pressure 3. -/
def bOne : Mdl ℚ := mkMdl bC1 (some 5) [(0, "pressure", 10), (3, "rate", 0)] [(2, { pwf := some 3, r := some 1 })]
/-- The right end opened. -/
def bTwo : Mdl ℚ := mkMdl bC2 (some 5) [(0, "pressure", 10), (3, "pressure", 3)] [(2, { pwf := some 3, r := some 1 })]

lemma bReady : Ready bC1 bOne ∧ Ready bC2 bTwo := ⟨mkMdl_ready bC_ctx.1 (fun _ => rfl) (by decide +kernel), mkMdl_ready bC_ctx.2 (fun _ => rfl) (by decide +kernel)⟩

lemma bM_better : BetterRock (bM 1 2) (bM 3 1) := by
  refine ⟨rfl, rfl, rfl, rfl, rfl, fun a c hc => ?_, by show (1 : ℚ) ≤ 2; norm_num, le_rfl⟩
  cases a
  · rcases g2_cell hc with rfl | rfl | rfl | rfl <;> show perm g2 (pRock 1) .x _ ≤ perm g2 (pRock 3) .x _ <;> decide +kernel
  · exact le_rfl
  · exact le_rfl

/-- The hypotheses of `C94_flow_partial` are met: with the better rock, the thinner fluid and the opened end more enters. -/
example (vect : Bool) : 0 ≤ feed bC1.e 10 bOne (exRun bC1 vect 2 bOne).2 2 ∧ feed bC1.e 10 bOne (exRun bC1 vect 2 bOne).2 2 ≤ feed bC2.e 10 bTwo (exRun bC2 vect 1 bTwo).2 1 :=
  C94_flow_partial (bM_pos one_pos two_pos) (bM_pos (by norm_num) one_pos) bM_better (bM_plain _ _) (bM_plain _ _) (fun _ => by show g2.getD ≠ 3; decide) (getOk_eq _ bM_ok.1) (getOk_eq _ bM_ok.2) bReady.1
    bReady.2 cramer_exact cramer_exact (by decide +kernel) (by decide +kernel) (moreOpen_of (by decide +kernel)) (by norm_num : (3 : ℚ) < 10) (twoHeads_of (by decide +kernel)) (twoHeads_of (by decide +kernel))
    (single_hist bReady.1 (.inl (by decide +kernel)) (by decide +kernel) (exRun_vect bReady.1 vect 2)) (single_hist bReady.2 (.inl (by decide +kernel)) (by decide +kernel) (exRun_vect bReady.2 vect 1))
    two_pos (by cases vect <;> decide +kernel) one_pos (by cases vect <;> decide +kernel)

example (vect : Bool) : 0 < feed bC1.e 10 bOne (exRun bC1 vect 2 bOne).2 2 ∧ feed bC1.e 10 bOne (exRun bC1 vect 2 bOne).2 2 < feed bC2.e 10 bTwo (exRun bC2 vect 1 bTwo).2 1 := by
  cases vect <;> decide +kernel

end RF.Fdm
