import Verif.Fdm.PropsTiltFold
import Verif.Fdm.PropsSimilar
/-!
# Similar inclined reservoirs have similar histories (C78), vectorised assembler, wells without target rates
-/
set_option linter.unusedSectionVars false
namespace RF.Fdm
open RF RF.Dims RF.Spec Finset

variable {K : Type} [Field K] [LinearOrder K] [IsStrictOrderedRing K]
variable {M M' : GridModel K} {φ : Cell → Cell} {π : Axis → Axis} {α β sk sA sd : K} {c c' : Ctx K} {m0 m0' : Mdl K}

/-- **C78, inclined reservoirs, vectorised.** `C78_run_partial` for cells at any depths, where wells are given bottom-hole pressures (not 0): reservoirs that are laid out differently, with permeabilities, areas, lengths and
gravity heads multiplied by constants and conditions transformed accordingly, have correspondingly transformed pressures, rates and wells at every step. Missing: wells with target rates, three-dimensional grids
(`C78_three_d_fails`). -/
theorem C78_inclined_partial (hL : Looks M M' φ π α sk sA sd) (hM : M.Pos) (hM' : M'.Pos) (hα : 0 < α) (hk : 0 < sk) (hA : 0 < sA) (hd : 0 < sd) (he : M.env = .ok c.e) (he' : M'.env = .ok c'.e)
    (hD : M.g.getD ≠ 3) (hD' : M'.g.getD ≠ 3) (hr : Ready c m0) (hr' : Ready c' m0') (hx : Exact c.lin) (hx' : Exact c'.lin) (hw : PressureWells m0) (hw' : PressureWells m0') (han : Anchored c.e m0)
    (h0 : ModelSim (renumber M.g M'.g φ) α β (condScale M M' sk sA sd) true c.e c'.e m0 m0') {f f' n : ℕ} {t t' : K}
    (h : (run c f true n t m0 (Sol.init m0)).2 = .ok ()) (h' : (run c' f' true n t' m0' (Sol.init m0')).2 = .ok ()) :
    SameStory M M' φ α β (condScale M M' sk sA sd) m0 (run c f true n t m0 (Sol.init m0)).1.1 (run c' f' true n t' m0' (Sol.init m0')).1.1
      (run c f true n t m0 (Sol.init m0)).1.2 (run c' f' true n t' m0' (Sol.init m0')).1.2 := by
  set L := levelled M' c'.e with hLe
  set D := lifted M M' φ L with hDe
  have pos : ∀ {M : GridModel K}, M.Pos → ∀ L g', (M.moved L g').Pos := fun hM L g' => ⟨hM.geom, hM.sizes, hM.rock, hM.perm, hM.permB, hM.β, hM.mu, hM.B, hM.vconv, hM.dt, hM.phi, hM.ct⟩
  have e1 : (M.moved D (M'.grav / α)).env = .ok (c.moved (fun id => D.getD id 0) (M'.grav / α)).e := moved_env he _ _
  have e2 : (M'.moved L M'.grav).env = .ok (c'.moved (fun id => L.getD id 0) M'.grav).e := moved_env he' _ _
  have g1 : c.e.grav = M.grav := (env_ok he).2.2.2.2.2.2.2.2.2.2.2.1
  have g2 : c'.e.grav = M'.grav := (env_ok he').2.2.2.2.2.2.2.2.2.2.2.1
  obtain ⟨-, bn1, -, -, -, -, -, -, -, -, -, -, -, z1, -⟩ := env_ok he
  obtain ⟨-, bn2, -, -, -, -, -, -, -, -, -, -, -, z2, -⟩ := env_ok he'
  obtain ⟨iso, hiso, -⟩ := isIsotropic_eq hM.rock
  obtain ⟨iso', hiso', -⟩ := isIsotropic_eq hM'.rock
  have inner : ∀ x, Interior M.g.nx M.g.ny M.g.nz x → Interior M'.g.nx M'.g.ny M'.g.nz (φ x) := fun x hx => (hL.layout.inner x (Interior.inGrid hx)).2 hx
  have zero : ∀ id, id ∈ c.e.ids → D.getD id 0 = 0 := fun id hid => by
    have hi : Interior M.g.nx M.g.ny M.g.nz (M.g.dec id) := by rwa [(env_ok he).1, mem_innerIds] at hid
    have hn : cellNumber M.g.nx M.g.ny (M.g.dec id) = id := M.g.num_dec id
    rw [← hn, hDe, lifted_cell L (Interior.inGrid hi)]
    exact levelled_inner he' (inner_cell he' (inner _ hi))
  have q1 := C49_depths_ignored he D (M'.grav / α) e1 rfl rfl rfl hr (fun w h => (hw w h).1) (fun b id T hb hk hf => by
      obtain ⟨f1, f2, a, -, f4, -⟩ := face_grid hM he hiso (hr.started.mdl.bmem b hb) hf
      have n1 : cellNumber M.g.nx M.g.ny (M.g.dec b.1) = b.1 := M.g.num_dec b.1
      have n2 : cellNumber M.g.nx M.g.ny (M.g.dec id) = id := M.g.num_dec id
      have b1 : Boundary M'.g.nx M'.g.ny M'.g.nz (φ (M.g.dec b.1)) := ⟨hL.layout.inGrid _ f1.1, fun H => f1.2 ((hL.layout.inner _ f1.1).1 H)⟩
      have b2 : Adjacent (π a) (φ (M.g.dec b.1)) (φ (M.g.dec id)) := (hL.layout.adj a _ _ f1.1 (Interior.inGrid f2)).2 f4
      have F := grid_face hM' he' hiso' b1 (inner _ f2) (bound_flow b1 (inner _ f2) b2) b2
      have mem : cellNumber M'.g.nx M'.g.ny (φ (M.g.dec b.1)) ∈ c'.e.bnd := by
        rw [bn2, M'.g.mem_boundIds (env_dim he'), show M'.g.dec (cellNumber M'.g.nx M'.g.ny _) = _ from M'.g.dec_num b1.1]; exact b1
      have lv := levelled_head hM' he' mem F
      have hh := hL.head _ _ f1.1 (Interior.inGrid f2)
      have l1 := lifted_cell (M' := M') (φ := φ) L f1.1
      have l2 := lifted_cell (M' := M') (φ := φ) L (Interior.inGrid f2)
      rw [n1] at l1 hh
      rw [n2] at l2 hh
      show M'.grav / α * (D.getD b.1 0 - D.getD id 0) = _
      rw [hDe, l1, l2, lv, z2, z2, div_mul_eq_mul_div, hh, mul_div_cancel_left₀ _ hα.ne', g1, z1, z1]) f n t
  have q2 := C49_depths_ignored he' L M'.grav e2 rfl rfl rfl hr' (fun w h => (hw' w h).1) (fun b id T hb _ hf => by
      show M'.grav * (L.getD b.1 0 - L.getD id 0) = _
      rw [levelled_head hM' he' (hr'.started.mdl.bmem b hb) hf, g2]) f' n t'
  have r1 : Ready (c.moved (fun id => D.getD id 0) (M'.grav / α)) m0 := ⟨⟨hr.ctx.lower, ⟨_, pos hM D _, e1⟩, hr.ctx.scale⟩, setup_moved hr.setup, hr.G, hr.cfg, hr.canon⟩
  have r2 : Ready (c'.moved (fun id => L.getD id 0) M'.grav) m0' := ⟨⟨hr'.ctx.lower, ⟨_, pos hM' L _, e2⟩, hr'.ctx.scale⟩, setup_moved hr'.setup, hr'.G, hr'.cfg, hr'.canon⟩
  have looks : Looks (M.moved D (M'.grav / α)) (M'.moved L M'.grav) φ π α sk sA sd := by
    refine ⟨hL.layout, hL.stored, hL.perm, hL.along, hL.area, hL.comp, hL.storage, fun x y hx hy => ?_⟩
    show M'.grav * (L.getD (cellNumber M'.g.nx M'.g.ny (φ x)) 0 - L.getD (cellNumber M'.g.nx M'.g.ny (φ y)) 0) =
      α * (M'.grav / α * (D.getD (cellNumber M.g.nx M.g.ny x) 0 - D.getD (cellNumber M.g.nx M.g.ny y) 0))
    rw [hDe, lifted_cell (M := M) L hx, lifted_cell (M := M) L hy, ← mul_assoc, mul_div_cancel₀ _ hα.ne']
  have flat : (c.moved (fun id => D.getD id 0) (M'.grav / α)).e.Flat := .inr fun i hi => by
    show D.getD (c.e.at i) 0 = D.getD (c.e.at 0) 0
    rw [zero _ (at_mem c.e hi), zero _ (at_mem c.e hr.ctx.wf.pos)]
  have sim : ModelSim (renumber M.g M'.g φ) α β (condScale M M' sk sA sd) true (c.moved (fun id => D.getD id 0) (M'.grav / α)).e (c'.moved (fun id => L.getD id 0) M'.grav).e m0 m0' :=
    ⟨h0.bd, h0.wells.imp fun w w' hw => ⟨hw.1, ⟨hw.2.index, hw.2.q, hw.2.qsp, hw.2.pwf, hw.2.pwfsp, hw.2.con⟩⟩, h0.wPress, h0.initP, h0.initR⟩
  have hP := pressure_runAll r1 hw true f n (.clock (s := Sol.init m0) ((Sol.init m0).nsteps + n) (Sol.init m0).ctime .start)
  rw [← q1] at h ⊢
  rw [← q2] at h' ⊢
  have key := C78_run_partial (c := c.moved (fun id => D.getD id 0) (M'.grav / α)) (c' := c'.moved (fun id => L.getD id 0) M'.grav) looks (pos hM D _) (pos hM' L _) hα hk hA hd e1 e2 (vect := true)
    (fun _ => ⟨hD, hD', flat⟩) r1 r2 hx hx' han sim (fun _ => .inr fun w h => (hw' w h).2) hP h h'
  exact ⟨key.steps, key.pressures, key.rates, key.faces, key.wells, key.holes⟩

/-! ### instance -/

/-- A slope seen in a mirror. -/
lemma exSlope_mirror : Looks (exM true 3 [4, 5, 7, 9]) (exM true 3 [9, 7, 5, 4]) (mirror g2 .x) id 1 1 1 1 := by
  have h := exM_mirror
  refine ⟨h.layout, h.stored, h.perm, h.along, h.area, h.comp, h.storage, fun x y hx hy => ?_⟩
  rcases g2_cell hx with rfl | rfl | rfl | rfl <;> rcases g2_cell hy with rfl | rfl | rfl | rfl <;> decide +kernel

/-- The slope with all pressures raised by 100, seen in a mirror. -/
def exSlopeHalfM : Mdl ℚ := exMdl true 3 [9, 7, 5, 4] (some 108) [(3, "pressure", 110)] [(1, { pwf := some 104, r := some 1 })]

/-- The hypotheses are met: pressures on the other slope are higher by 100, rates the same. -/
example : SameStory (exM true 3 [4, 5, 7, 9]) (exM true 3 [9, 7, 5, 4]) (mirror g2 .x) 1 100 (condScale (exM true 3 [4, 5, 7, 9]) (exM true 3 [9, 7, 5, 4]) 1 1 1) exSlopeHalf
    (run (exC true 3 [4, 5, 7, 9]) 10 true 3 0 exSlopeHalf (Sol.init exSlopeHalf)).1.1 (run (exC true 3 [9, 7, 5, 4]) 12 true 3 0 exSlopeHalfM (Sol.init exSlopeHalfM)).1.1
    (run (exC true 3 [4, 5, 7, 9]) 10 true 3 0 exSlopeHalf (Sol.init exSlopeHalf)).1.2 (run (exC true 3 [9, 7, 5, 4]) 12 true 3 0 exSlopeHalfM (Sol.init exSlopeHalfM)).1.2 :=
  C78_inclined_partial exSlope_mirror (exM_pos _ _ _) (exM_pos _ _ _) one_pos one_pos one_pos one_pos (exE_env _ _ _) (exE_env _ _ _) (by decide +kernel) (by decide +kernel) (exMdl_ready (by decide +kernel))
    (exMdl_ready (by decide +kernel)) cramer_exact cramer_exact (by unfold PressureWells; decide +kernel) (by unfold PressureWells; decide +kernel) (.inl (by decide +kernel))
    (modelSim_of (by decide +kernel)) (isOk_unit (by decide +kernel)) (isOk_unit (by decide +kernel))

example : rowAt (run (exC true 3 [9, 7, 5, 4]) 12 true 3 0 exSlopeHalfM (Sol.init exSlopeHalfM)).1.2.press 1 none 2 = some (114 / 11 + 100) := by decide +kernel

end RF.Fdm
