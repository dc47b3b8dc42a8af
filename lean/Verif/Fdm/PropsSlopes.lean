import Verif.Fdm.PropsInclined
import Verif.Fdm.PropsIdle
/-!
# Inclined reservoirs, vectorised assembler, wells with target rates

The vectorised assembler counts gravity between cells only while some well is under rate constraint (C49_switch_partial). So what is proved for level reservoirs, or for wells without target rates, fails
on a slope as soon as a well with a target rate is added, replaced or reaches its limit: C39, C68, C86, C97, C98, C99, C100, C101. In all examples below no well leaves its limit.
-/
set_option linter.unusedSectionVars false
namespace RF.Fdm
open RF RF.Dims RF.Spec Finset

/-- Two cells at depths 5 and 7, a given pressure on the left, a rate of -1 on the right, and a well in the deeper cell. -/
def exSteep (pi pb q lim : ℚ) : Mdl ℚ := exMdl true 3 [4, 5, 7, 9] (some pi) [(0, "pressure", pb), (3, "rate", -1)] [(2, { q := some q, pwf := some lim, r := some 1 })]

/-- What `run` records for it with the vectorised assembler. -/
def exSteepRun (pi pb q lim : ℚ) (N : ℕ) : Sol ℚ := (run (exC true 3 [4, 5, 7, 9]) 10 true N 0 (exSteep pi pb q lim) (Sol.init (exSteep pi pb q lim))).1.2

lemma exSteep1_ready : Ready (exC true 3 [4, 5, 7, 9]) (exSteep 8 10 (-1) (99 / 10)) := exMdl_ready (by decide +kernel)
lemma exSteep2_ready : Ready (exC true 3 [4, 5, 7, 9]) (exSteep 8 (51 / 5) (-1) (99 / 10)) := exMdl_ready (by decide +kernel)

/-- The two models differ by 1/5 in the boundary pressure. -/
lemma exSteep_within : Within (1 / 5) (exSteep 8 10 (-1) (99 / 10)) (exSteep 8 (51 / 5) (-1) (99 / 10)) :=
  ⟨by have h1 : (exSteep 8 10 (-1) (99 / 10)).bdict = [(0, "pressure", 10), (3, "rate", -1)] := by decide +kernel
      have h2 : (exSteep 8 (51 / 5) (-1) (99 / 10)).bdict = [(0, "pressure", 51 / 5), (3, "rate", -1)] := by decide +kernel
      rw [h1, h2]; norm_num,
    by have h1 : (exSteep 8 10 (-1) (99 / 10)).wells = (exSteep 8 (51 / 5) (-1) (99 / 10)).wells := by decide +kernel
       rw [h1]
       exact List.forall₂_same.2 fun w _ => ⟨rfl, rfl, rfl, by norm_num⟩⟩

lemma exSteep_most : AtMost (exSteep 8 10 (-1) (99 / 10)) (exSteep 8 (51 / 5) (-1) (99 / 10)) :=
  ⟨by have h1 : (exSteep 8 10 (-1) (99 / 10)).bdict = [(0, "pressure", 10), (3, "rate", -1)] := by decide +kernel
      have h2 : (exSteep 8 (51 / 5) (-1) (99 / 10)).bdict = [(0, "pressure", 51 / 5), (3, "rate", -1)] := by decide +kernel
      rw [h1, h2]; norm_num,
    by have h1 : (exSteep 8 10 (-1) (99 / 10)).wells = (exSteep 8 (51 / 5) (-1) (99 / 10)).wells := by decide +kernel
       rw [h1]
       exact List.forall₂_same.2 fun w _ => ⟨rfl, rfl, ⟨rfl, le_rfl⟩, le_rfl⟩⟩

/-- **C39 fails** on a slope with the vectorised assembler and a target rate: with a boundary pressure of 10.2 instead of 10, everything else being equal, the pressure in the cell at this boundary
is lower by more than 0.9 after one step. (The well reaches its limit in one run only, and only there gravity is left out.) -/
theorem C39_vectorised_fails : ∃ (c : Ctx ℚ) (m0 n0 m n : Mdl ℚ) (s t : Sol ℚ), Ready c m0 ∧ Ready c n0 ∧ Exact c.lin ∧ Anchored c.e m0 ∧ AtMost m0 n0 ∧ Within (1 / 5) m0 n0 ∧ m0.wells = n0.wells ∧
    (∀ id, id ∈ c.e.ids → m0.initP id = n0.initP id) ∧ Raise c.lower c.e true m0 n0 s ∧
    RunAll c Calm 10 true 1 m0 { Sol.init m0 with nsteps := (Sol.init m0).nsteps + 1 } ∧ RunAll c Calm 10 true 1 n0 { Sol.init n0 with nsteps := (Sol.init n0).nsteps + 1 } ∧
    run c 10 true 1 0 m0 (Sol.init m0) = ((m, s), .ok ()) ∧ run c 10 true 1 0 n0 (Sol.init n0) = ((n, t), .ok ()) ∧
    ∃ id p q, id ∈ c.e.ids ∧ rowAt s.press 1 none id = some p ∧ rowAt t.press 1 none id = some q ∧ q + 9 / 10 < p :=
  ⟨exC true 3 [4, 5, 7, 9], exSteep 8 10 (-1) (99 / 10), exSteep 8 (51 / 5) (-1) (99 / 10), _, _, exSteepRun 8 10 (-1) (99 / 10) 1, exSteepRun 8 (51 / 5) (-1) (99 / 10) 1, exSteep1_ready, exSteep2_ready,
    cramer_exact, .inl (by decide +kernel), exSteep_most, exSteep_within, by decide +kernel,
    all_of (p := fun id => (exSteep 8 10 (-1) (99 / 10)).initP id = (exSteep 8 (51 / 5) (-1) (99 / 10)).initP id) (by decide +kernel),
    .press 0 10 (51 / 5) 1 1 (by decide +kernel) (by decide +kernel) (by norm_num) (by unfold Env.Face; decide +kernel) (by norm_num),
    runCalmB_all (by decide +kernel), runCalmB_all (by decide +kernel), Prod.ext rfl (isOk_unit (by decide +kernel)), Prod.ext rfl (isOk_unit (by decide +kernel)),
    1, 1189 / 110, 344 / 35, by decide +kernel, by decide +kernel, by decide +kernel, by norm_num⟩

/-- **C68 fails** there too: given pressures differ by at most 1/5, everything else is equal, and a pressure differs by more than 0.9 after one step. -/
theorem C68_vectorised_fails : ∃ (c : Ctx ℚ) (m0 n0 m n : Mdl ℚ) (s t : Sol ℚ), Ready c m0 ∧ Ready c n0 ∧ Exact c.lin ∧ Anchored c.e m0 ∧ Within (1 / 5) m0 n0 ∧ (∀ id, id ∈ c.e.ids → m0.initP id = n0.initP id) ∧
    RunAll c Calm 10 true 1 m0 { Sol.init m0 with nsteps := (Sol.init m0).nsteps + 1 } ∧ RunAll c Calm 10 true 1 n0 { Sol.init n0 with nsteps := (Sol.init n0).nsteps + 1 } ∧
    run c 10 true 1 0 m0 (Sol.init m0) = ((m, s), .ok ()) ∧ run c 10 true 1 0 n0 (Sol.init n0) = ((n, t), .ok ()) ∧
    ∃ id p q, id ∈ c.e.ids ∧ rowAt s.press 1 none id = some p ∧ rowAt t.press 1 none id = some q ∧ 9 / 10 < |p - q| := by
  obtain ⟨c, m0, n0, m, n, s, t, h1, h2, h3, h4, -, h6, -, h8, -, h10, h11, h12, h13, id, p, q, h14, h15, h16, h17⟩ := C39_vectorised_fails
  exact ⟨c, m0, n0, m, n, s, t, h1, h2, h3, h4, h6, h8, h10, h11, h12, h13, id, p, q, h14, h15, h16, lt_of_lt_of_le (by linarith) (le_abs_self _)⟩

/-- **C100 fails** there too: something is raised, nothing lowered, and a pressure is lower after one step. -/
theorem C100_vectorised_fails : ∃ (c : Ctx ℚ) (m0 n0 m n : Mdl ℚ) (s t : Sol ℚ), Ready c m0 ∧ Ready c n0 ∧ Exact c.lin ∧ Anchored c.e m0 ∧ AtMost m0 n0 ∧ (∀ id, id ∈ c.e.ids → m0.initP id = n0.initP id) ∧
    Raise c.lower c.e true m0 n0 s ∧
    RunAll c Calm 10 true 1 m0 { Sol.init m0 with nsteps := (Sol.init m0).nsteps + 1 } ∧ RunAll c Calm 10 true 1 n0 { Sol.init n0 with nsteps := (Sol.init n0).nsteps + 1 } ∧
    run c 10 true 1 0 m0 (Sol.init m0) = ((m, s), .ok ()) ∧ run c 10 true 1 0 n0 (Sol.init n0) = ((n, t), .ok ()) ∧
    ∃ id p q, id ∈ c.e.ids ∧ rowAt s.press 1 none id = some p ∧ rowAt t.press 1 none id = some q ∧ q < p := by
  obtain ⟨c, m0, n0, m, n, s, t, h1, h2, h3, h4, h5, -, -, h8, h9, h10, h11, h12, h13, id, p, q, h14, h15, h16, h17⟩ := C39_vectorised_fails
  exact ⟨c, m0, n0, m, n, s, t, h1, h2, h3, h4, h5, h8, h9, h10, h11, h12, h13, id, p, q, h14, h15, h16, by linarith⟩

lemma exSteep3_ready : Ready (exC true 3 [4, 5, 7, 9]) (exSteep 8 10 (-1) 10) := exMdl_ready (by decide +kernel)
lemma exSteep4_ready : Ready (exC true 3 [4, 5, 7, 9]) (exSteep 8 10 (-1 / 2) (101 / 10)) := exMdl_ready (by decide +kernel)

/-- **C101 fails** on a slope with the vectorised assembler and a target rate: the target rate and the limit of the well are raised, and more flows in at the boundary with the unchanged pressure. -/
theorem C101_vectorised_fails : ∃ (c : Ctx ℚ) (m0 n0 m n : Mdl ℚ) (s t : Sol ℚ), Ready c m0 ∧ Ready c n0 ∧ Exact c.lin ∧ Anchored c.e m0 ∧ AtMost m0 n0 ∧ m0.bdict = n0.bdict ∧
    (∀ id, id ∈ c.e.ids → m0.initP id = n0.initP id) ∧ Raise c.lower c.e true m0 n0 s ∧
    RunAll c Calm 10 true 1 m0 { Sol.init m0 with nsteps := (Sol.init m0).nsteps + 1 } ∧ RunAll c Calm 10 true 1 n0 { Sol.init n0 with nsteps := (Sol.init n0).nsteps + 1 } ∧
    run c 10 true 1 0 m0 (Sol.init m0) = ((m, s), .ok ()) ∧ run c 10 true 1 0 n0 (Sol.init n0) = ((n, t), .ok ()) ∧
    ∃ b v, (b, "pressure", v) ∈ m0.bdict ∧ rowAt s.rates 1 0 b < rowAt t.rates 1 0 b :=
  ⟨exC true 3 [4, 5, 7, 9], exSteep 8 10 (-1) 10, exSteep 8 10 (-1 / 2) (101 / 10), _, _, exSteepRun 8 10 (-1) 10 1, exSteepRun 8 10 (-1 / 2) (101 / 10) 1, exSteep3_ready, exSteep4_ready,
    cramer_exact, .inl (by decide +kernel),
    ⟨by have h1 : (exSteep 8 10 (-1) 10).bdict = (exSteep 8 10 (-1 / 2) (101 / 10)).bdict := by decide +kernel
        rw [h1]
        exact List.forall₂_same.2 fun b _ => ⟨rfl, rfl, le_rfl⟩, by decide +kernel⟩, by decide +kernel,
    all_of (p := fun id => (exSteep 8 10 (-1) 10).initP id = (exSteep 8 10 (-1 / 2) (101 / 10)).initP id) (by decide +kernel),
    .both 2 ((exSteep 8 10 (-1) 10).wells.getD 0 (0, {})).2 ((exSteep 8 10 (-1 / 2) (101 / 10)).wells.getD 0 (0, {})).2 (-1) (-1 / 2) 10 (101 / 10) (by decide +kernel) (by decide +kernel) (by decide +kernel)
      (by decide +kernel) (by norm_num) (by decide +kernel) (by decide +kernel) (by norm_num),
    runCalmB_all (by decide +kernel), runCalmB_all (by decide +kernel), Prod.ext rfl (isOk_unit (by decide +kernel)), Prod.ext rfl (isOk_unit (by decide +kernel)),
    0, 10, by decide +kernel, by decide +kernel⟩

/-- **C86 fails** on a slope with the vectorised assembler and a target rate: the pressures of all cells fall in steps 1 and 2; in step 3 the well reaches its limit and the pressure of cell 1 rises. -/
theorem C86_vectorised_fails : ∃ (c : Ctx ℚ) (m0 m : Mdl ℚ) (s : Sol ℚ), Ready c m0 ∧ Exact c.lin ∧ c.e.comp = true ∧
    RunAll c Calm 10 true 3 m0 { Sol.init m0 with nsteps := (Sol.init m0).nsteps + 3 } ∧ run c 10 true 3 0 m0 (Sol.init m0) = ((m, s), .ok ()) ∧
    Trend false c s 0 ∧ Trend false c s 1 ∧ ∃ id p q, id ∈ c.e.ids ∧ s.at 2 id = some p ∧ s.at 3 id = some q ∧ p < q :=
  ⟨exC true 3 [4, 5, 7, 9], exSteep 16 10 (-5) 7, _, exSteepRun 16 10 (-5) 7 3, exMdl_ready (by decide +kernel), cramer_exact, by decide +kernel, runCalmB_all (by decide +kernel),
    Prod.ext rfl (isOk_unit (by decide +kernel)), trend_of (by decide +kernel), trend_of (by decide +kernel), 1, 556 / 49, 916 / 77, by decide +kernel, by decide +kernel, by decide +kernel, by norm_num⟩

/-! ### what a target rate is replaced by -/

/-- A well that is shut in, on the slope. -/
def exShutSteep : List (SetCall ℚ) := [.bounds [(0, "pressure", 10), (3, "rate", -1)] (by decide), .well 2 { q := some 0, pwf := some 1, r := some 1 }]

/-- The script without it. -/
lemma exShutSteep_spared : spared exShutSteep = [.bounds [(0, "pressure", 10), (3, "rate", -1)] (by decide)] := by
  simp [spared, exShutSteep, SetCall.Idle, about, SetCall.topic, SetCall.trim, IdleCond]

lemma exShutSteep_ok : isOk (setUp (exC true 3 [4, 5, 7, 9]).lower (exC true 3 [4, 5, 7, 9]).e (some 8) exShutSteep) = true := by decide +kernel
lemma exShutSteep'_ok : isOk (setUp (exC true 3 [4, 5, 7, 9]).lower (exC true 3 [4, 5, 7, 9]).e (some 8) (spared exShutSteep)) = true := by decide +kernel

lemma steep_ready {l : List (SetCall ℚ)} {pi : Option ℚ} {m : Mdl ℚ} (h : setUp (exC true 3 [4, 5, 7, 9]).lower (exC true 3 [4, 5, 7, 9]).e pi l = .ok m)
    (h1 : ∀ x, x ∈ m.wells → 0 < x.2.G.getD 0 ∧ x.2.con ≠ none) (h2 : ∀ x, x ∈ m.bdict → (x.2.1 ∈ ["pressure", "press", "p"] ↔ x.2.1 = "pressure")) : Ready (exC true 3 [4, 5, 7, 9]) m :=
  ⟨exC_ok _ _ _, steps_setup _ (.init _) h, fun x G hx hG => by have := (h1 x hx).1; rw [hG] at this; exact this, fun x hx => (h1 x hx).2, h2⟩

/-- **C97 fails** on a slope with the vectorised assembler: a well that is shut in (and stays at rate 0, above its limit) changes the pressures: with it gravity counts between cells, without it not. -/
theorem C97_vectorised_fails : ∃ (c : Ctx ℚ) (l : List (SetCall ℚ)) (m m' : Mdl ℚ), (about none l).length ≤ 1 ∧ setUp c.lower c.e (some 8) l = .ok m ∧ setUp c.lower c.e (some 8) (spared l) = .ok m' ∧
    Ready c m ∧ Ready c m' ∧ Exact c.lin ∧ Anchored c.e m ∧ RunAll c Calm 10 true 1 m { Sol.init m with nsteps := (Sol.init m).nsteps + 1 } ∧
    RunAll c Calm 10 true 1 m' { Sol.init m' with nsteps := (Sol.init m').nsteps + 1 } ∧
    (run c 10 true 1 0 m (Sol.init m)).2 = .ok () ∧ (run c 10 true 1 0 m' (Sol.init m')).2 = .ok () ∧
    (∀ w, w ∈ m.wells → dictGet m'.wells w.1 = none → ∃ p, rowAt (run c 10 true 1 0 m' (Sol.init m')).1.2.press 1 none w.1 = some p ∧ w.2.pwfsp.getD 0 ≤ p ∧
      rowAt (run c 10 true 1 0 m (Sol.init m)).1.2.rates 1 0 w.1 = 0) ∧
    rowAt (run c 10 true 1 0 m (Sol.init m)).1.2.press 1 none 1 ≠ rowAt (run c 10 true 1 0 m' (Sol.init m')).1.2.press 1 none 1 :=
  ⟨exC true 3 [4, 5, 7, 9], exShutSteep, _, _, by decide +kernel, getOk_eq _ exShutSteep_ok, getOk_eq _ exShutSteep'_ok, steep_ready (getOk_eq _ exShutSteep_ok) (by decide +kernel) (by decide +kernel),
    steep_ready (getOk_eq _ exShutSteep'_ok) (by decide +kernel) (by decide +kernel), cramer_exact, .inl (by decide +kernel), runCalmB_all (by decide +kernel), runCalmB_all (by decide +kernel),
    isOk_unit (by decide +kernel), isOk_unit (by decide +kernel), fun w hw _ => by
      have h1 : (getOk _ exShutSteep_ok).wells.map (fun w => (w.1, w.2.pwfsp.getD 0)) = [(2, 1)] := by decide +kernel
      have h2 : (w.1, w.2.pwfsp.getD 0) ∈ [(2, (1 : ℚ))] := h1 ▸ List.mem_map_of_mem hw
      rw [List.mem_singleton, Prod.mk.injEq] at h2
      rw [h2.1, h2.2]
      exact ⟨62 / 7, by decide +kernel, by norm_num, by decide +kernel⟩, by decide +kernel⟩

/-- A rate of -2 on the right, no well. -/
def exDrain : Mdl ℚ := exMdl true 3 [4, 5, 7, 9] (some 8) [(0, "pressure", 10), (3, "rate", -2)] []

/-- **C98 fails** on a slope with the vectorised assembler: the rate of -1 of a well, which it meets, plus one of -1 through the face beside it, or a rate of -2 through this face, give different pressures. -/
theorem C98_vectorised_fails : ∃ (c : Ctx ℚ) (m m' : Mdl ℚ), Ready c m ∧ Ready c m' ∧ Exact c.lin ∧ Anchored c.e m ∧ SameNet c.lower c.e true m m' ∧
    RunAll c Calm 10 true 1 m { Sol.init m with nsteps := (Sol.init m).nsteps + 1 } ∧ RunAll c Calm 10 true 1 m' { Sol.init m' with nsteps := (Sol.init m').nsteps + 1 } ∧
    (run c 10 true 1 0 m (Sol.init m)).2 = .ok () ∧ (run c 10 true 1 0 m' (Sol.init m')).2 = .ok () ∧ Met m (run c 10 true 1 0 m (Sol.init m)).1.2 ∧ Met m' (run c 10 true 1 0 m' (Sol.init m')).1.2 ∧
    rowAt (run c 10 true 1 0 m (Sol.init m)).1.2.press 1 none 1 ≠ rowAt (run c 10 true 1 0 m' (Sol.init m')).1.2.press 1 none 1 :=
  ⟨exC true 3 [4, 5, 7, 9], exSteep 8 10 (-1) 1, exDrain, exMdl_ready (by decide +kernel), exMdl_ready (by decide +kernel), cramer_exact, .inl (by decide +kernel),
    ⟨by decide +kernel, by decide +kernel, by decide +kernel, by decide +kernel⟩, runCalmB_all (by decide +kernel), runCalmB_all (by decide +kernel), isOk_unit (by decide +kernel), isOk_unit (by decide +kernel),
    met_of (by decide +kernel) (by decide +kernel), met_of (by decide +kernel) (by decide +kernel), by decide +kernel⟩

/-- The well held at the bottom-hole pressure that was reported for it. -/
def exTraded : Mdl ℚ := exMdl true 3 [4, 5, 7, 9] (some 8) [(0, "pressure", 10), (3, "rate", -1)] [(2, { pwf := some (69 / 7), r := some 1 })]

/-- **C99 fails** on a slope with the vectorised assembler, already for one step: a well that meets its rate of -1 is held at the bottom-hole pressure reported for it instead, and injects. -/
theorem C99_vectorised_fails : ∃ (c : Ctx ℚ) (m m' : Mdl ℚ), Ready c m ∧ Ready c m' ∧ Exact c.lin ∧ Anchored c.e m ∧
    RunAll c Calm 10 true 1 m { Sol.init m with nsteps := (Sol.init m).nsteps + 1 } ∧ RunAll c Calm 10 true 1 m' { Sol.init m' with nsteps := (Sol.init m').nsteps + 1 } ∧
    (run c 10 true 1 0 m (Sol.init m)).2 = .ok () ∧ (run c 10 true 1 0 m' (Sol.init m')).2 = .ok () ∧ Met m (run c 10 true 1 0 m (Sol.init m)).1.2 ∧
    Traded c.e (fun id => ((run c 10 true 1 0 m (Sol.init m)).1.1.reported id).getLastD none) m m' ∧
    rowAt (run c 10 true 1 0 m (Sol.init m)).1.2.rates 1 0 2 < 0 ∧ 0 < rowAt (run c 10 true 1 0 m' (Sol.init m')).1.2.rates 1 0 2 :=
  ⟨exC true 3 [4, 5, 7, 9], exSteep 8 10 (-1) 1, exTraded, exMdl_ready (by decide +kernel), exMdl_ready (by decide +kernel), cramer_exact, .inl (by decide +kernel),
    runCalmB_all (by decide +kernel), runCalmB_all (by decide +kernel), isOk_unit (by decide +kernel), isOk_unit (by decide +kernel), met_of (by decide +kernel) (by decide +kernel),
    ⟨by decide +kernel, by decide +kernel, by decide +kernel⟩, by decide +kernel, by decide +kernel⟩

end RF.Fdm
