import Verif.Fdm.PropsCoeff
import Verif.Fdm.PropsConverge
import Verif.Fdm.PropsDarcy
/-!
# C93: where it fails, and instances

Two cells in a row of permeabilities 1 and `k` between boundary cells of permeability 9. For `k = 1` the interior is uniform and the code takes the arithmetic mean at the boundary; for every
other `k`, however close to 1, the harmonic one.
-/
set_option linter.unusedSectionVars false
namespace RF.Fdm
open RF RF.Dims RF.Spec Finset

/-- Permeabilities 9, 1, `k`, 9. -/
def jRock (k : ℚ) : Rock ℚ := ⟨some [9, 1, k, 9], none, none⟩

def jM (k : ℚ) : GridModel ℚ := { exM false 0 [] with rock := jRock k }

lemma jM_pos {k : ℚ} (hk : 0 < k) : (jM k).Pos := by
  refine ⟨q2_calc, s2_pos _, rock_g2 _ rfl, ?_, ?_, one_pos, one_pos, one_pos, one_pos, one_pos, ?_, fun _ => one_pos⟩
  · intro a ha c hc
    have ha' : a = .x := by cases a <;> simp [Flow, along, jM, exM, g2] at ha ⊢
    subst ha'
    rcases g2_cell (Interior.inGrid hc) with rfl | rfl | rfl | rfl
    · exact (by norm_num : (0 : ℚ) < 9)
    · exact one_pos
    · exact hk
    · exact (by norm_num : (0 : ℚ) < 9)
  · intro a c hc
    cases a
    · rcases g2_cell hc with rfl | rfl | rfl | rfl
      · exact (by norm_num : (0 : ℚ) ≤ 9)
      · exact zero_le_one
      · exact hk.le
      · exact (by norm_num : (0 : ℚ) ≤ 9)
    · exact le_rfl
    · exact le_rfl
  · intro c hc
    rcases g2_cell (Interior.inGrid hc) with rfl | rfl | rfl | rfl <;> show (0 : ℚ) < ([1, 1, 1, 1] : List ℚ).getD (cellNumber g2.nx g2.ny _) 0 <;> decide +kernel

lemma jM_iso (k : ℚ) : IsoSpec (jM k).g (jM k).rock ↔ k = 1 := by
  have i1 : Interior g2.nx g2.ny g2.nz (1, 0, 0) := by decide
  have i2 : Interior g2.nx g2.ny g2.nz (2, 0, 0) := by decide
  constructor
  · intro h
    exact (h .x (by simp [jM, jRock, Rock.k]) _ _ i2 i1 : perm g2 (jRock k) .x (2, 0, 0) = perm g2 (jRock k) .x (1, 0, 0))
  · rintro rfl a ha c c' hc hc'
    have ha' : a = .x := by cases a <;> simp [jM, jRock, Rock.k] at ha ⊢
    subst ha'
    have key : ∀ c, Interior g2.nx g2.ny g2.nz c → perm g2 (jRock 1) .x c = 1 := fun c hc => by
      rcases g2_cell (Interior.inGrid hc) with rfl | rfl | rfl | rfl
      · exact absurd hc (by decide)
      · rfl
      · rfl
      · exact absurd hc (by decide)
    exact (key c hc).trans (key c' hc').symm

/-- What the code takes for the transmissibility between the first cell and its boundary cell. -/
def jT (k : ℚ) : ℚ := if k = 1 then 5 else 9 / 5

lemma jM_env {k : ℚ} (hk : 0 < k) : ∃ e, (jM k).env = .ok e := env_exists (jM_pos hk) (by show 1 ≤ g2.getD; decide)

lemma s2_unit (c : Cell) (a : Axis) : s2.area c a = 1 ∧ s2.along c a = 1 := by
  cases a <;> simp [Sizes.area, Sizes.along, s2, size]

lemma jPair (k : ℚ) (v : Bool) (c d : Cell) : pairG g2 s2 (jRock k) 1 v .x c d =
    if v then (perm g2 (jRock k) .x c + perm g2 (jRock k) .x d) / 2 else 2 * perm g2 (jRock k) .x c * perm g2 (jRock k) .x d / (perm g2 (jRock k) .x c + perm g2 (jRock k) .x d) := by
  unfold pairG
  rw [(s2_unit c .x).1, (s2_unit c .x).2, (s2_unit d .x).1, (s2_unit d .x).2]
  generalize perm g2 (jRock k) .x c = a
  generalize perm g2 (jRock k) .x d = b
  unfold gForm gArith gHarm
  cases v
  · simp only [Bool.false_eq_true, if_false, one_mul, mul_one]
    by_cases ha : a = 0
    · simp [ha]
    by_cases hb : b = 0
    · simp [hb]
    rw [if_neg (by simp [ha, hb]), div_add_div _ _ ha hb, div_div_eq_mul_div]
    congr 1 <;> ring
  · norm_num

lemma jItems (k : ℚ) (iso : Bool) : transItems (jM k) iso 0 false = [(1, pairG g2 s2 (jRock k) 1 iso .x (0, 0, 0) (1, 0, 0) / (1 * 1))] ∧
    transItems (jM k) iso 3 false = [(2, pairG g2 s2 (jRock k) 1 iso .x (3, 0, 0) (2, 0, 0) / (1 * 1))] := by
  constructor
  · show (g2.getFdir.flatMap fun a => ((g2.nbrs ((0 : ℕ) : ℤ) false).get a).map fun n => (n, pairG g2 s2 (jRock k) 1 iso a (g2.dec 0) (g2.dec n))).map (fun p => (p.1, p.2 / (1 * 1))) = _
    rw [show g2.getFdir = [.x] by decide, List.flatMap_cons, List.flatMap_nil, List.append_nil, show (g2.nbrs ((0 : ℕ) : ℤ) false).get .x = [1] by decide, List.map_cons, List.map_nil, List.map_cons, List.map_nil,
      show g2.dec 0 = (0, 0, 0) by decide, show g2.dec 1 = (1, 0, 0) by decide]
  · show (g2.getFdir.flatMap fun a => ((g2.nbrs ((3 : ℕ) : ℤ) false).get a).map fun n => (n, pairG g2 s2 (jRock k) 1 iso a (g2.dec 3) (g2.dec n))).map (fun p => (p.1, p.2 / (1 * 1))) = _
    rw [show g2.getFdir = [.x] by decide, List.flatMap_cons, List.flatMap_nil, List.append_nil, show (g2.nbrs ((3 : ℕ) : ℤ) false).get .x = [2] by decide, List.map_cons, List.map_nil, List.map_cons, List.map_nil,
      show g2.dec 3 = (3, 0, 0) by decide, show g2.dec 2 = (2, 0, 0) by decide]

lemma jM_face {k : ℚ} (hk : 0 < k) {e : Env ℚ} (he : (jM k).env = .ok e) : e.Face 0 1 (jT k) ∧ (∃ T, e.Face 3 2 T) ∧ 0 < e.trans true 0 1 ∧ (1 ≤ k → 1 ≤ e.trans true 0 1) := by
  have hM := jM_pos hk
  obtain ⟨e1, -, -, -, e5, -⟩ := env_ok he
  obtain ⟨iso, hiso, hisoS⟩ := isIsotropic_eq hM.rock
  have hisoK : iso = true ↔ k = 1 := hisoS.trans (jM_iso k)
  have i0 : InGrid (jM k).g.nx (jM k).g.ny (jM k).g.nz ((jM k).g.dec 0) := by show InGrid g2.nx g2.ny g2.nz (g2.dec 0); decide
  have i3 : InGrid (jM k).g.nx (jM k).g.ny (jM k).g.nz ((jM k).g.dec 3) := by show InGrid g2.nx g2.ny g2.nz (g2.dec 3); decide
  have c0 := cellTrans_false hM hiso i0
  have c3 := cellTrans_false hM hiso i3
  have p0 : perm g2 (jRock k) .x (0, 0, 0) = 9 := rfl
  have p1 : perm g2 (jRock k) .x (1, 0, 0) = 1 := rfl
  have p2 : perm g2 (jRock k) .x (2, 0, 0) = k := rfl
  rw [← e5, (jItems k iso).1, jPair, p0, p1] at c0
  rw [← e5, (jItems k iso).2] at c3
  refine ⟨?_, ⟨_, c3⟩, ?_⟩
  · unfold Env.Face jT
    rw [c0]
    by_cases h1 : k = 1
    · rw [hisoK.2 h1, if_pos h1]; norm_num
    · have : iso = false := by cases iso; rfl; exact absurd (hisoK.1 rfl) h1
      rw [this, if_neg h1]; norm_num
  · have n2 : (jM k).g.getN false = 2 := by show g2.getN false = 2; decide
    have hn : e.n = 2 := by unfold Env.n; rw [e1, length_innerIds]; show g2.getN false = 2; decide
    have h := (transS_val hM he hiso (i := 0) (j := 1) (by rw [n2]; omega) (by rw [n2]; omega)).1 .x (by show Adjacent .x (pcell g2 false 0) (pcell g2 false 1); decide)
    have ta := trans_agree hM he (by show g2.getD ≠ 3; decide) (i := 0) (j := 1) (by rw [hn]; omega) (by rw [hn]; omega)
    have h' : e.trans true 0 1 = pairG g2 s2 (jRock k) 1 iso .x (pcell g2 false 0) (pcell g2 false 1) / (1 * 1) := ta.symm.trans h
    rw [h', show pcell g2 false 0 = (1, 0, 0) by decide, show pcell g2 false 1 = (2, 0, 0) by decide, jPair, p1, p2]
    by_cases h1 : k = 1
    · rw [hisoK.2 h1, h1]; norm_num
    · have : iso = false := by cases iso; rfl; exact absurd (hisoK.1 rfl) h1
      rw [this]
      simp only [Bool.false_eq_true, if_false, mul_one, div_one]
      refine ⟨by positivity, fun h => ?_⟩
      rw [le_div_iff₀ (by positivity)]; linarith

/-- Pressure 100 at the left end, rate 45 into the right one. -/
def jMdl (e : Env ℚ) : Mdl ℚ := { Mdl.init e none with
  bdict := [(0, "pressure", 100), (3, "rate", 45)], bUpdate := [0]
  initP := Function.update (Mdl.init e none).initP 0 (some 100), initR := Function.update (Mdl.init e none).initR 3 45 }

/-- One step of such a model. -/
lemma jRun {k : ℚ} (hk : 0 < k) : ∃ (c : Ctx ℚ) (m : Mdl ℚ) (s : Sol ℚ), (jM k).env = .ok c.e ∧ Ready c (jMdl c.e) ∧ Exact c.lin ∧ PressureGiven c.e (jMdl c.e) ∧ RatesGiven (jMdl c.e) ∧ c.e.Flat ∧
    RunAll c Calm 1 true 1 (jMdl c.e) { Sol.init (jMdl c.e) with nsteps := (Sol.init (jMdl c.e)).nsteps + 1 } ∧ run c 1 true 1 0 (jMdl c.e) (Sol.init (jMdl c.e)) = ((m, s), .ok ()) ∧ s.tstep = 1 ∧
    c.e.ids = [1, 2] ∧ c.e.comp = false ∧ rowAt s.press 1 none 1 = some (100 + 45 / (2 * jT k)) ∧ ∃ p, rowAt s.press 1 none 2 = some p ∧ 100 + 45 / (2 * jT k) ≤ p ∧ (1 ≤ k → p ≤ 145 + 45 / (2 * jT k)) := by
  have hM := jM_pos hk
  obtain ⟨e, he⟩ := jM_env hk
  obtain ⟨lin, hx, hcomplete⟩ := exists_solver (K := ℚ)
  obtain ⟨f0, ⟨T3, f3⟩, ht, ht1⟩ := jM_face hk he
  obtain ⟨e1, e2, -, -, -, -, -, -, -, e10, e11, e12, -⟩ := env_ok he
  have ids : e.ids = [1, 2] := by rw [e1]; show g2.innerIds = _; decide
  have hn : e.n = 2 := by unfold Env.n; rw [ids]; rfl
  have at0 : e.at 0 = 1 := by unfold Env.at; rw [ids]; rfl
  have at1 : e.at 1 = 2 := by unfold Env.at; rw [ids]; rfl
  have bnd : e.bnd = [0, 3] := by rw [e2]; show g2.boundIds = _; decide
  let c : Ctx ℚ := ⟨e, fun s => s, fun _ _ => 1, lin⟩
  have hset : setBoundaries c.lower e (Mdl.init e none) none [(0, "pressure", 100), (3, "rate", 45)] = ((jMdl e, none), .ok ()) := by
    unfold setBoundaries setBoundaryLoop setBoundaryLoop setBoundaryLoop setBoundary
    simp [bnd, c, setPressure, setRate, jMdl]
  have hstd : Standard c.lower e [(0, "pressure", 100), (3, "rate", 45)] (jMdl e) := .bounds (by simp) hset
  have hr : Ready c (jMdl e) := by
    refine ⟨⟨⟨rfl, rfl⟩, ⟨_, hM, he⟩, fun _ _ => one_ne_zero⟩, hstd.setup, fun x G hx => ?_, fun x hx => ?_, fun x hx => ?_⟩
    · simp [jMdl, Mdl.init] at hx
    · simp [jMdl, Mdl.init] at hx
    · have hx : x = (0, "pressure", 100) ∨ x = (3, "rate", 45) := by simpa [jMdl] using hx
      rcases hx with rfl | rfl <;> simp [c]
  have hgrav : e.grav = 0 := e12
  have hcomp : e.comp = false := e10
  have hT : 0 < jT k := by unfold jT; split_ifs <;> norm_num
  have hmem : ((0 : ℕ), "pressure", (100 : ℚ)) ∈ (jMdl e).bdict := by simp [jMdl]
  have hgiven : PressureGiven e (jMdl e) := .inl ⟨_, 1, _, hmem, rfl, f0, hT⟩
  have hcond : Conducting e (jMdl e) := fun x hx hp => by
    have hx : x = (0, "pressure", 100) ∨ x = (3, "rate", 45) := by simpa [jMdl] using hx
    rcases hx with rfl | rfl
    · exact ⟨1, _, f0, hT.ne', by rw [hgrav, zero_mul]; norm_num⟩
    · simp at hp
  have hg : Given e (jMdl e) := fun h => by rw [hcomp] at h; simp at h
  have hflat : e.Flat := .inl hgrav
  have hrates : RatesGiven (jMdl e) := fun x hx hp => by
    have hx : x = (0, "pressure", 100) ∨ x = (3, "rate", 45) := by simpa [jMdl] using hx
    rcases hx with rfl | rfl
    · simp at hp
    · simp [jMdl]
  have hnw : (jMdl e).wells = [] := rfl
  have calm : ∀ v (m m' : Mdl ℚ), m.wells = [] → Calm v m m' := fun v m m' h => by
    unfold Calm NoRelease NoZeroPwf
    rw [h]; simp
  obtain ⟨m, s, hsolve, -⟩ := C67_solve_partial (c := c) hr (hcomplete _) hg hcond (.inr (.inl ⟨_, 1, _, hmem, rfl, f0, hT⟩)) (fuel := 1) (by simp [hnw])
    (.clock ((Sol.init (jMdl e)).nsteps + 1) (Sol.init (jMdl e)).ctime .start)
  have hsa : SolveAll c Calm 1 true (jMdl e) { Sol.init (jMdl e) with nsteps := (Sol.init (jMdl e)).nsteps + 1 } := fun m' s' again _ => ⟨calm _ _ _ hnw, fun _ => trivial⟩
  obtain ⟨m1, s1, h1, -, r1, t1, hat, -⟩ := solve_last hr.ctx.lower hr.ctx.wf hr.started.mdl (.clock ((Sol.init (jMdl e)).nsteps + 1) (Sol.init (jMdl e)).ctime .start) hsa hsolve
  obtain ⟨hi, hq⟩ := hr.calm h1
  have hw1 : m1.wells = [] := by
    have := hi.same.wells
    rw [hnw] at this
    exact List.forall₂_nil_left_iff.1 this
  have hb1 : m1.bdict = [(0, "pressure", 100), (3, "rate", 45)] := hi.same.bdict.trans rfl
  have bal := step_balance hr.ctx hx hi hq (fun _ => hflat) (fun _ => by unfold NoZeroPwf; rw [hw1]; simp) hat
  have row := fun i hin => row_inner (i := i) hr hi hat hin
  obtain ⟨_, _, _, _, _, _, _, _, h2⟩ := attempted hr.ctx.lower hr.ctx.wf hi hat
  have ts : s.tstep = 1 := by rw [h2.tstep, t1]; rfl
  have b0 := bal 0 (by rw [show c.e.n = 2 from hn]; omega)
  have b1 := bal 1 (by rw [show c.e.n = 2 from hn]; omega)
  have w0 := row 0 (by rw [show c.e.n = 2 from hn]; omega)
  have w1 := row 1 (by rw [show c.e.n = 2 from hn]; omega)
  rw [ts, show c.e.at 0 = 1 from at0] at w0
  rw [ts, show c.e.at 1 = 2 from at1] at w1
  rw [ts] at b0 b1
  have rate3 : usedRate true m1 s1 3 = 45 := by
    show rowAt s1.rates s1.tstep 0 3 = 45
    rw [r1, t1]
    simp [rowAt, Sol.init, jMdl]
  generalize s.inner c.e 1 = x at b0 b1 w0 w1
  have rhs0 : ∀ id, e.rhs id = 0 := hr.ctx.wf.rhsI hcomp
  have hsym := hr.ctx.wf.symm 1 0
  have d0 : e.transV 0 0 = 0 := hr.ctx.wf.diag 0 (by rw [show c.e.n = 2 from hn]; omega)
  have d1 : e.transV 1 1 = 0 := hr.ctx.wf.diag 1 (by rw [show c.e.n = 2 from hn]; omega)
  have ht' : 0 < e.transV 0 1 := ht
  unfold excess outsideIn boundaryIn at b0 b1
  rw [hb1, hw1, show c.e.n = 2 from hn] at b0 b1
  simp only [List.map_cons, List.map_nil, List.sum_cons, List.sum_nil, show c.e.transC 0 false = _ from f0, show c.e.transC 3 false = _ from f3, show c.e.at 0 = 1 from at0, show c.e.at 1 = 2 from at1,
    show c.e.grav = 0 from hgrav, rate3, sum_range_succ, sum_range_zero, show ∀ id, c.e.rhs id = 0 from rhs0, show c.e.trans true = e.transV from rfl, d0, d1, show e.transV 1 0 = e.transV 0 1 from hsym] at b0 b1
  norm_num at b0 b1
  have ht1' : 1 ≤ k → 1 ≤ e.transV 0 1 := ht1
  generalize e.transV 0 1 = t at ht' ht1' b0 b1
  rw [if_neg (by decide)] at b1
  have hx0 : x 0 = 100 + 45 / (2 * jT k) := by
    field_simp; linarith
  have hx1 : x 1 = x 0 + 45 / t := by
    field_simp; linarith
  have hrun : run c 1 true 1 0 (jMdl e) (Sol.init (jMdl e)) = ((m, { s with ctime := s.ctime + 0 }), .ok ()) := by
    unfold run runLoop
    rw [hsolve]
    rfl
  refine ⟨c, m, _, he, hr, hx, hgiven, hrates, hflat, ⟨hsa, fun _ _ _ => trivial⟩, hrun, ts, ids, hcomp, by rw [← hx0]; exact w0, x 1, w1, ?_, fun h => ?_⟩
  · rw [hx1, hx0]
    have : 0 < 45 / t := by positivity
    linarith
  · rw [hx1, hx0]
    have : 45 / t ≤ 45 := by rw [div_le_iff₀ ht']; linarith [ht1' h]
    linarith

lemma rel_refl {ε x : ℚ} (h : 0 ≤ ε) : Rel ε x x := by
  unfold Rel; rw [sub_self, abs_zero]; positivity

lemma jM_near {ε : ℚ} (h : 0 ≤ ε) : NearData ε (jM 1) (jM (1 + ε)) := by
  refine ⟨rfl, rfl, fun _ _ _ => rel_refl h, fun _ _ _ _ => rel_refl h, fun a c hc => ?_, fun _ _ => rel_refl h, rel_refl h, rel_refl h, rel_refl h, rel_refl h, rel_refl h, rel_refl h, rel_refl h⟩
  cases a
  · rcases g2_cell hc with rfl | rfl | rfl | rfl
    · exact rel_refl h
    · exact rel_refl h
    · show |1 + ε - 1| ≤ ε * |(1 : ℚ)|
      rw [add_sub_cancel_left, abs_of_nonneg h, abs_one, mul_one]
    · exact rel_refl h
  · exact rel_refl h
  · exact rel_refl h

/-- **C93 fails** where the boundary cells do not have the permeability of a uniform interior: there is a reservoir (boundary cells nine times as permeable as two equal cells) such that an error of any size
`ε`, however small, in one permeability changes a computed pressure by 8, within a range of pressures of 70. All other hypotheses of `C93_uniform_partial` hold. -/
theorem C93_jump_fails : ∃ (M : GridModel ℚ) (c : Ctx ℚ) (m0 m : Mdl ℚ) (s : Sol ℚ), M.Pos ∧ M.env = .ok c.e ∧ Ready c m0 ∧ Exact c.lin ∧ M.g.getD ≠ 3 ∧ c.e.Flat ∧ RatesGiven m0 ∧ PressureGiven c.e m0 ∧
    RunAll c Calm 1 true 1 m0 { Sol.init m0 with nsteps := (Sol.init m0).nsteps + 1 } ∧ run c 1 true 1 0 m0 (Sol.init m0) = ((m, s), .ok ()) ∧ HeadsWithin 70 c.e ∧ InBand 100 70 c.e m0 s ∧
    ∀ ε : ℚ, 0 < ε → ∃ (M' : GridModel ℚ) (c' : Ctx ℚ) (n0 n : Mdl ℚ) (s' : Sol ℚ), NearData ε M M' ∧ NearModel ε c.e m0 n0 ∧ M'.Pos ∧ M'.env = .ok c'.e ∧ Ready c' n0 ∧ Exact c'.lin ∧
      RatesGiven n0 ∧ RunAll c' Calm 1 true 1 n0 { Sol.init n0 with nsteps := (Sol.init n0).nsteps + 1 } ∧ run c' 1 true 1 0 n0 (Sol.init n0) = ((n, s'), .ok ()) ∧ InBand 100 70 c'.e n0 s' ∧
      ∃ p, rowAt s.press 1 none 1 = some p ∧ rowAt s'.press 1 none 1 = some (p + 8) := by
  have band : ∀ {k : ℚ} {c : Ctx ℚ} {s : Sol ℚ}, 1 ≤ k → s.tstep = 1 → c.e.ids = [1, 2] → c.e.comp = false → rowAt s.press 1 none 1 = some (100 + 45 / (2 * jT k)) →
      (∃ p, rowAt s.press 1 none 2 = some p ∧ 100 + 45 / (2 * jT k) ≤ p ∧ (1 ≤ k → p ≤ 145 + 45 / (2 * jT k))) → InBand 100 70 c.e (jMdl c.e) s := by
    intro k c s hk ht hi hc h1 ⟨p, h2, h3, h4⟩
    have b : (0 : ℚ) ≤ 45 / (2 * jT k) ∧ 45 / (2 * jT k) ≤ 25 / 2 := by unfold jT; split_ifs <;> norm_num
    refine ⟨fun j hj hj' id hid => ?_, fun x hx hp => ?_, fun w p hw => by simp [jMdl, Mdl.init] at hw⟩
    · have : j = 1 := by
        rcases hj' with h | h
        · rw [hc] at h; simp at h
        · omega
      subst this
      rw [hi] at hid
      have hid : id = 1 ∨ id = 2 := by simpa using hid
      rcases hid with rfl | rfl
      · exact ⟨_, h1, by linarith [b.1], by linarith [b.2]⟩
      · exact ⟨p, h2, by linarith [b.1], by linarith [b.2, h4 hk]⟩
    · have hx : x = (0, "pressure", 100) ∨ x = (3, "rate", 45) := by simpa [jMdl] using hx
      rcases hx with rfl | rfl
      · norm_num
      · simp at hp
  obtain ⟨c, m, s, he, hr, hx, hg, hrg, hf, hP, hs, ht, hi, hc, h1, h2⟩ := jRun (k := 1) one_pos
  refine ⟨jM 1, c, jMdl c.e, m, s, jM_pos one_pos, he, hr, hx, (by show g2.getD ≠ 3; decide), hf, hrg, hg, hP, hs, fun a b _ _ => ?_, band le_rfl ht hi hc h1 h2, fun ε hε => ?_⟩
  · obtain ⟨-, -, -, -, -, -, -, -, -, -, -, e12, -⟩ := env_ok he
    rw [show c.e.grav = 0 from e12, zero_mul, abs_zero]; norm_num
  have hk : 0 < 1 + ε := by linarith
  obtain ⟨c', n, s', he', hr', hx', hg', hrg', hf', hP', hs', ht', hi', hc', h1', h2'⟩ := jRun hk
  refine ⟨jM (1 + ε), c', jMdl c'.e, n, s', jM_near hε.le, ⟨rfl, List.Forall₂.nil, fun h => ?_⟩, jM_pos hk, he', hr', hx', hrg', hP', hs', band (by linarith) ht' hi' hc' h1' h2', _, h1, ?_⟩
  · rw [hc] at h; simp at h
  · rw [h1']
    unfold jT
    rw [if_pos rfl, if_neg (by linarith)]
    norm_num

/-! ### not vacuous -/

/-- The edge permeabilities of the example differ, as they must. -/
example : ¬ PlainEdge (jM 1) := fun h => by
  have := h ((jM_iso 1).2 rfl) .x (0, 0, 0) (1, 0, 0) (by show Boundary g2.nx g2.ny g2.nz _; decide) (by show Interior g2.nx g2.ny g2.nz _; decide) (by decide)
  exact absurd (show (9 : ℚ) = 1 from this) (by norm_num)

/-- Permeabilities 1, 1, `k`, `k`. -/
def pRock (k : ℚ) : Rock ℚ := ⟨some [1, 1, k, k], none, none⟩

/-- Two compressible cells; viscosity and time step `k`. -/
def pM (k : ℚ) : GridModel ℚ := { exM true 0 [] with rock := pRock k, mu := k, dt := k }

lemma pM_pos {k : ℚ} (hk : 0 < k) : (pM k).Pos := by
  refine ⟨q2_calc, s2_pos _, rock_g2 _ rfl, ?_, ?_, one_pos, hk, one_pos, one_pos, hk, ?_, fun _ => one_pos⟩
  · intro a ha c hc
    have ha' : a = .x := by cases a <;> simp [Flow, along, pM, exM, g2] at ha ⊢
    subst ha'
    rcases g2_cell (Interior.inGrid hc) with rfl | rfl | rfl | rfl
    · exact one_pos
    · exact one_pos
    · exact hk
    · exact hk
  · intro a c hc
    cases a
    · rcases g2_cell hc with rfl | rfl | rfl | rfl
      · exact zero_le_one
      · exact zero_le_one
      · exact hk.le
      · exact hk.le
    · exact le_rfl
    · exact le_rfl
  · intro c hc
    rcases g2_cell (Interior.inGrid hc) with rfl | rfl | rfl | rfl <;> show (0 : ℚ) < ([1, 1, 1, 1] : List ℚ).getD (cellNumber g2.nx g2.ny _) 0 <;> decide +kernel

lemma pM_plain (k : ℚ) : PlainEdge (pM k) := by
  intro _ a c d hc hd had
  have hd' : Interior g2.nx g2.ny g2.nz d := hd
  have hc' : Boundary g2.nx g2.ny g2.nz c := hc
  show perm g2 (pRock k) a c = perm g2 (pRock k) a d
  cases a
  · rcases g2_cell hc'.1 with rfl | rfl | rfl | rfl <;> rcases g2_cell (Interior.inGrid hd') with rfl | rfl | rfl | rfl <;>
      first | rfl | exact absurd had (by decide) | exact absurd hd' (by decide) | exact absurd hc'.2 (by decide)
  · rfl
  · rfl

lemma pM_near {ε : ℚ} (h : 0 ≤ ε) : NearData ε (pM 1) (pM (1 + ε)) := by
  have r1 : Rel ε 1 (1 + ε) := by
    show |1 + ε - 1| ≤ ε * |(1 : ℚ)|
    rw [add_sub_cancel_left, abs_of_nonneg h, abs_one, mul_one]
  refine ⟨rfl, rfl, fun _ _ _ => rel_refl h, fun _ _ _ _ => rel_refl h, fun a c hc => ?_, fun _ _ => rel_refl h, r1, rel_refl h, rel_refl h, rel_refl h, r1, rel_refl h, rel_refl h⟩
  cases a
  · rcases g2_cell hc with rfl | rfl | rfl | rfl
    · exact rel_refl h
    · exact rel_refl h
    · exact r1
    · exact r1
  · exact rel_refl h
  · exact rel_refl h

/-- Pressure 10 at the left, no condition at the right end, initial pressure 5. -/
def pMdl (e : Env ℚ) : Mdl ℚ := { Mdl.init e (some 5) with
  bdict := [(0, "pressure", 10)], bUpdate := [0], initP := Function.update (Mdl.init e (some 5)).initP 0 (some 10) }

lemma pRun {k : ℚ} (hk : 0 < k) : ∃ c : Ctx ℚ, (pM k).env = .ok c.e ∧ Ready c (pMdl c.e) ∧ Exact c.lin ∧ PressureGiven c.e (pMdl c.e) ∧ c.e.ids = [1, 2] ∧ c.e.Level ∧
    ∀ steps, RunAll c Calm 1 true steps (pMdl c.e) { Sol.init (pMdl c.e) with nsteps := (Sol.init (pMdl c.e)).nsteps + steps } ∧
      (run c 1 true steps 0 (pMdl c.e) (Sol.init (pMdl c.e))).2 = .ok () ∧ (run c 1 true steps 0 (pMdl c.e) (Sol.init (pMdl c.e))).1.2.tstep = steps := by
  have hM := pM_pos hk
  obtain ⟨e, he⟩ := env_exists hM (by show 1 ≤ g2.getD; decide)
  obtain ⟨lin, hx, hcomplete⟩ := exists_solver (K := ℚ)
  obtain ⟨e1, e2, -, -, -, -, -, -, -, e10, e11, e12, -⟩ := env_ok he
  have ids : e.ids = [1, 2] := by rw [e1]; show g2.innerIds = _; decide
  have bnd : e.bnd = [0, 3] := by rw [e2]; show g2.boundIds = _; decide
  let c : Ctx ℚ := ⟨e, fun s => s, fun _ _ => 1, lin⟩
  have hset : setBoundaries c.lower e (Mdl.init e (some 5)) none [(0, "pressure", 10)] = ((pMdl e, none), .ok ()) := by
    unfold setBoundaries setBoundaryLoop setBoundaryLoop setBoundary
    simp [bnd, c, setPressure, pMdl]
  have hstd : Standard c.lower e [(0, "pressure", 10)] (pMdl e) := .bounds (by simp) hset
  have hr : Ready c (pMdl e) := by
    refine ⟨⟨⟨rfl, rfl⟩, ⟨_, hM, he⟩, fun _ _ => one_ne_zero⟩, hstd.setup, fun x G hx => ?_, fun x hx => ?_, fun x hx => ?_⟩
    · simp [pMdl, Mdl.init] at hx
    · simp [pMdl, Mdl.init] at hx
    · have hx : x = (0, "pressure", 10) := by simpa [pMdl] using hx
      rw [hx]; simp [c]
  have hgrav : e.grav = 0 := e12
  have hcomp : e.comp = true := e10
  obtain ⟨T, hT, hF⟩ : ∃ T, 0 < T ∧ e.Face 0 1 T := by
    obtain ⟨iso, hiso, hisoS⟩ := isIsotropic_eq hM.rock
    have i0 : InGrid (pM k).g.nx (pM k).g.ny (pM k).g.nz ((pM k).g.dec 0) := by show InGrid g2.nx g2.ny g2.nz (g2.dec 0); decide
    have c0 := cellTrans_false hM hiso i0
    have hitems : transItems (pM k) iso 0 false = [(1, pairG g2 s2 (pRock k) 1 iso .x (0, 0, 0) (1, 0, 0) / (k * 1))] := by
      show (g2.getFdir.flatMap fun a => ((g2.nbrs ((0 : ℕ) : ℤ) false).get a).map fun n => (n, pairG g2 s2 (pRock k) 1 iso a (g2.dec 0) (g2.dec n))).map (fun p => (p.1, p.2 / (k * 1))) = _
      rw [show g2.getFdir = [.x] by decide, List.flatMap_cons, List.flatMap_nil, List.append_nil, show (g2.nbrs ((0 : ℕ) : ℤ) false).get .x = [1] by decide, List.map_cons, List.map_nil, List.map_cons,
        List.map_nil, show g2.dec 0 = (0, 0, 0) by decide, show g2.dec 1 = (1, 0, 0) by decide]
    obtain ⟨-, -, -, -, e5, -⟩ := env_ok he
    rw [← e5, hitems] at c0
    refine ⟨_, ?_, c0⟩
    have : pairG g2 s2 (pRock k) 1 iso .x (0, 0, 0) (1, 0, 0) = 1 := by
      cases iso
      · exact (by decide +kernel : pairG g2 s2 (pRock 1) 1 false .x (0, 0, 0) (1, 0, 0) = 1)
      · exact (by decide +kernel : pairG g2 s2 (pRock 1) 1 true .x (0, 0, 0) (1, 0, 0) = 1)
    rw [this]; positivity
  have hmem : ((0 : ℕ), "pressure", (10 : ℚ)) ∈ (pMdl e).bdict := by simp [pMdl]
  have hcond : Conducting e (pMdl e) := fun x hx hp => by
    have hx : x = (0, "pressure", 10) := by simpa [pMdl] using hx
    rw [hx]
    exact ⟨1, _, hF, hT.ne', by rw [hgrav, zero_mul]; norm_num⟩
  have hg : Given e (pMdl e) := fun h id hid => by
    rw [ids] at hid
    have hid : id = 1 ∨ id = 2 := by simpa using hid
    refine ⟨5, ?_⟩
    rcases hid with rfl | rfl <;> simp [pMdl, Mdl.init, ids]
  refine ⟨c, he, hr, hx, .inl ⟨_, 1, _, hmem, rfl, hF, hT⟩, ids, .inl hgrav, fun steps => ⟨?_, ?_⟩⟩
  · have key : ∀ n m s, Hist c Any (pMdl e) m s → RunAll c Calm 1 true n m s := by
      intro n
      induction n with
      | zero => exact fun _ _ _ => trivial
      | succ n ih =>
        intro m s hh
        have hw : m.wells = [] := by
          have := (hr.inv hh).same.wells
          rw [show (pMdl e).wells = [] from rfl] at this
          exact List.forall₂_nil_left_iff.1 this
        refine ⟨fun m' s' again _ => ⟨?_, fun _ => trivial⟩, fun m' s' hs => ih m' s' (hh.solve hr.ctx.lower hr.ctx.wf hr.started.mdl (solveAll_any _ _ _ _ _) hs)⟩
        unfold Calm NoRelease NoZeroPwf
        rw [hw]; simp
    exact key steps _ _ (.clock _ _ .start)
  · have := C67_run_partial (fuel := 1) (c := c) hr (hcomplete _) hg hcond (.inl hcomp) (by simp [pMdl, Mdl.init]) .start steps 0
    exact ⟨this.1, this.2.trans (by simp [Sol.init])⟩

/-- The hypotheses of `C93_sourceless_partial` (and so, with the bands of C37, of `C93_uniform_partial`) are met for every error of at most 1/32 and every number of steps. -/
example : ∃ (C : ℚ) (c : Ctx ℚ), ∀ ε, 0 < ε → ε ≤ 1 / 32 → ∀ steps, ∃ (s s' : Sol ℚ), s.tstep = steps ∧ s'.tstep = steps ∧ Close (fun _ => C * ε * (10 - 5)) c s s' := by
  have rg : ∀ e : Env ℚ, RatesGiven (pMdl e) := fun e x hx hp => by
    have hx : x = (0, "pressure", 10) := by simpa [pMdl] using hx
    rw [hx] at hp; simp at hp
  obtain ⟨c, he, hr, hx, hg, hi, hl, hrun⟩ := pRun (k := 1) one_pos
  have ini : ∀ {c : Ctx ℚ}, c.e.ids = [1, 2] → ∀ id, id ∈ c.e.ids → (pMdl c.e).initP id = some 5 := fun {c} hi id hid => by
    have hid' := hid
    rw [hi] at hid'
    have hid' : id = 1 ∨ id = 2 := by simpa using hid'
    rcases hid' with rfl | rfl <;> simp [pMdl, Mdl.init, hi]
  obtain ⟨C, -, key⟩ := C93_sourceless_partial (M := pM 1) (vect := true) (lo := 5) (hi' := 10) (pM_pos one_pos) he (pM_plain 1) hr hx (fun _ => ⟨by show g2.getD ≠ 3; decide, rg _⟩) hg hl
    ⟨fun b hb hp => by
      have hb : b = (0, "pressure", 10) := by simpa [pMdl] using hb
      rw [hb] at hp; simp at hp, fun w hw => by simp [pMdl, Mdl.init] at hw⟩
    (fun _ id hid => ⟨5, ini hi id hid, le_rfl, by norm_num⟩) (fun b hb _ => by
      have hb : b = (0, "pressure", 10) := by simpa [pMdl] using hb
      rw [hb]; norm_num) (fun w p hw => by simp [pMdl, Mdl.init] at hw) (by norm_num)
  refine ⟨C, c, fun ε h0 h1 steps => ?_⟩
  have hk : 0 < 1 + ε := by linarith
  obtain ⟨c', he', hr', hx', hg', hi', hl', hrun'⟩ := pRun hk
  obtain ⟨a1, a2, a3⟩ := hrun steps
  obtain ⟨b1, b2, b3⟩ := hrun' steps
  exact ⟨_, _, a3, b3, key (pM (1 + ε)) c' (pMdl c'.e) ε 1 1 steps 0 0 _ _ _ _ (pM_near h0.le) ⟨rfl, List.Forall₂.nil, fun _ id hid => ⟨5, ini hi id hid, ini hi' id (by rw [hi', ← hi]; exact hid)⟩⟩ h0.le h1
    (pM_pos hk) he' (pM_plain _) hr' hx' (fun _ => rg _) a1 b1 (Prod.ext rfl a2) (Prod.ext rfl b2)⟩

lemma pM_ok : isOk (pM (101 / 100)).env = true := by
  have h1 : isOk (g2.getCellsId false) = true := by decide +kernel
  have h2 : isOk g2.getBoundariesId = true := by decide +kernel
  have h3 : isOk (cellsTransVect g2 q2 (pRock (101 / 100)) 1 (101 / 100) 1) = true := by decide +kernel
  have h4 : isOk (RF.diag1 g2 q2 (pRock (101 / 100)) 1 true) = true := by decide +kernel
  show isOk (Env.ofGrid g2 q2 (pRock (101 / 100)) 1 (101 / 100) 1 0 [] true (calcRHS true q2.V [1, 1, 1, 1] 1 1 1 (101 / 100)) (fun _ => .ok 1) fun _ _ r _ => .ok r) = true
  unfold Env.ofGrid
  rw [getOk_eq _ h1, bind_ok, getOk_eq _ h2, bind_ok, getOk_eq _ h3, bind_ok, getOk_eq _ h4, bind_ok]
  rfl

/-- The environment of `pM (101 / 100)`. -/
def pE : Env ℚ := getOk _ pM_ok

lemma pE_env : (pM (101 / 100)).env = .ok pE := getOk_eq _ pM_ok

attribute [irreducible] pE

/-- With an exact solver. -/
def pC : Ctx ℚ := ⟨pE, fun s => s, fun _ _ => 1, cramer⟩

lemma pC_ok : CtxOK pC := by
  refine ⟨⟨rfl, rfl⟩, ⟨_, pM_pos (by norm_num), pE_env⟩, ?_⟩
  intro a b; exact (one_ne_zero : (1 : ℚ) ≠ 0)

/-- The model of `exSealed`, over the data of `pM (101 / 100)`. -/
def pSealed : Mdl ℚ := mkMdl pC (some 8) [] [(2, { q := some (-1), pwf := some 1, r := some 1 })]

lemma pSealed_ready : Ready pC pSealed := mkMdl_ready pC_ok (fun _ => rfl) (by decide +kernel)

/-- A check of `InBand`. -/
def bandB (lo D : ℚ) (e : Env ℚ) (m0 : Mdl ℚ) (s : Sol ℚ) : Bool :=
  (List.range (s.tstep + 1)).all (fun k => e.ids.all fun id => match rowAt s.press k none id with | some p => decide (lo ≤ p ∧ p ≤ lo + D) | none => false) &&
  m0.bdict.all (fun b => decide (b.2.1 = "pressure" → lo ≤ b.2.2 ∧ b.2.2 ≤ lo + D)) &&
  m0.wells.all fun w => match w.2.pwfsp with | some p => decide (lo ≤ p ∧ p ≤ lo + D) | none => true

lemma bandB_inBand {lo D : ℚ} {e : Env ℚ} {m0 : Mdl ℚ} {s : Sol ℚ} (h : bandB lo D e m0 s = true) : InBand lo D e m0 s := by
  unfold bandB at h
  simp only [Bool.and_eq_true, List.all_eq_true, List.mem_range, decide_eq_true_eq] at h
  refine ⟨fun k hk _ id hid => ?_, fun b hb => h.1.2 b hb, fun w p hw hp => ?_⟩
  · have := h.1.1 k (by omega) id hid
    rcases hq : rowAt s.press k none id with _ | p
    · rw [hq] at this; cases this
    · rw [hq] at this; exact ⟨p, rfl, of_decide_eq_true this⟩
  · have := h.2 w hw
    rw [hp] at this; exact of_decide_eq_true this

/-- The hypotheses of `C93_storage_partial` are met by a closed reservoir with a producer, with 1 % of error in a permeability, the viscosity and the time step; the two histories differ. -/
example (vect : Bool) : ∃ (C : ℚ) (s t : Sol ℚ), s.tstep = 3 ∧ rowAt s.press 3 none 1 ≠ rowAt t.press 3 none 1 ∧ Close (fun j => C * j * (1 / 100) * 8) (exC true 0 []) s t := by
  obtain ⟨C, -, h⟩ := C93_storage_partial (M := pM 1) (c := exC true 0 []) (vect := vect) (pM_pos one_pos) (exE_env true 0 []) (pM_plain 1) exSealed_ready cramer_exact
    (fun _ => ⟨by show g2.getD ≠ 3; decide, ex_flat _, by decide +kernel⟩) (by decide +kernel)
  have near : NearData (1 / 100) (pM 1) (pM (101 / 100)) := by
    have := pM_near (ε := 1 / 100) (by norm_num)
    rwa [show (1 : ℚ) + 1 / 100 = 101 / 100 by norm_num] at this
  have hgrav : (exC true 0 []).e.grav = 0 := by decide +kernel
  refine ⟨C, _, _, ?_, ?_, h (pM (101 / 100)) pC pSealed (1 / 100) 8 0 0 10 10 3 0 0 _ _ _ _ near ⟨by decide +kernel, ?_, ?_⟩ (by norm_num) (by norm_num) (pM_pos (by norm_num)) pE_env (pM_plain _)
    pSealed_ready cramer_exact (fun _ => by decide +kernel)
    (runCalmB_all (c := exC true 0 []) (by cases vect <;> decide +kernel)) (runCalmB_all (c := pC) (by cases vect <;> decide +kernel))
    (Prod.ext rfl (isOk_unit (by cases vect <;> decide +kernel))) (Prod.ext rfl (isOk_unit (by cases vect <;> decide +kernel))) ?_ ?_ ?_⟩
  · cases vect <;> decide +kernel
  · cases vect <;> decide +kernel
  · rw [show pSealed.wells = exSealed.wells by decide +kernel]
    exact List.forall₂_same.2 fun _ _ => ⟨rfl, rfl, rfl, rfl, rel_refl (by norm_num)⟩
  · intro _ id hid
    exact ⟨8, (by decide +kernel : ∀ id ∈ (exC true 0 []).e.ids, exSealed.initP id = some 8) id hid, (by decide +kernel : ∀ id ∈ (exC true 0 []).e.ids, pSealed.initP id = some 8) id hid⟩
  · intro a b _ _
    rw [hgrav, zero_mul, abs_zero]; norm_num
  · exact bandB_inBand (by cases vect <;> decide +kernel)
  · exact bandB_inBand (by cases vect <;> decide +kernel)

end RF.Fdm
