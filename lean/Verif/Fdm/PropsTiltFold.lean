import Verif.Fdm.PropsInclined
import Verif.Fdm.PropsFold
/-!
# Part of an inclined reservoir stands for all of it (C80), vectorised assembler, wells without target rates
-/
set_option linter.unusedSectionVars false
namespace RF.Fdm
open RF RF.Dims RF.Spec Finset

variable {K : Type} [Field K] [LinearOrder K] [IsStrictOrderedRing K]
variable {M M' : GridModel K} {φ : Cell → Cell} {s : Cell → K} {c c' : Ctx K} {m m' : Mdl K}

/-- Depths of the levelled smaller reservoir, given to the cells above. -/
def lifted (M M' : GridModel K) (φ : Cell → Cell) (L : List K) : List K := (List.range (M.g.getN true)).map fun id => L.getD (renumber M.g M'.g φ id) 0

lemma lifted_cell (L : List K) {x : Cell} (hx : InGrid M.g.nx M.g.ny M.g.nz x) : (lifted M M' φ L).getD (cellNumber M.g.nx M.g.ny x) 0 = L.getD (cellNumber M'.g.nx M'.g.ny (φ x)) 0 := by
  unfold lifted
  rw [getD_map_range _ _ _ (show cellNumber M.g.nx M.g.ny x < M.g.getN true from M.g.num_lt hx), renumber_cell φ hx]

lemma inner_cell {M : GridModel K} {e : Env K} (he : M.env = .ok e) {x : Cell} (hx : Interior M.g.nx M.g.ny M.g.nz x) : cellNumber M.g.nx M.g.ny x ∈ e.ids := by
  rw [(env_ok he).1, mem_innerIds, show M.g.dec (cellNumber M.g.nx M.g.ny x) = x from M.g.dec_num (Interior.inGrid hx)]; exact hx

/-- Both reservoirs levelled. -/
lemma fold_level (hL : FoldLooks M M' φ s) (hM : M.Pos) (hM' : M'.Pos) (he : M.env = .ok c.e) (he' : M'.env = .ok c'.e) (hr : Ready c m) (hr' : Ready c' m') (hw : PressureWells m) (hw' : PressureWells m')
    (h0 : FoldModel M M' φ s c.e c'.e m m') : ∃ (N N' : GridModel K) (d d' : Ctx K), FoldLooks N N' φ s ∧ N.Pos ∧ N'.Pos ∧ N.env = .ok d.e ∧ N'.env = .ok d'.e ∧ N.g = M.g ∧ N'.g = M'.g ∧ N.comp = M.comp ∧
      d.e.Flat ∧ d'.e.Flat ∧ Ready d m ∧ Ready d' m' ∧ d.lin = c.lin ∧ d'.lin = c'.lin ∧ FoldModel N N' φ s d.e d'.e m m' ∧ (Anchored c.e m → Anchored d.e m) ∧
      (∀ f n t, run d f true n t m (Sol.init m) = run c f true n t m (Sol.init m)) ∧ ∀ f n t, run d' f true n t m' (Sol.init m') = run c' f true n t m' (Sol.init m') := by
  set L := levelled M' c'.e with hLe
  set D := lifted M M' φ L with hD
  have pos : ∀ {M : GridModel K}, M.Pos → ∀ L g', (M.moved L g').Pos := fun hM L g' => ⟨hM.geom, hM.sizes, hM.rock, hM.perm, hM.permB, hM.β, hM.mu, hM.B, hM.vconv, hM.dt, hM.phi, hM.ct⟩
  have e1 : (M.moved D M'.grav).env = .ok (c.moved (fun id => D.getD id 0) M'.grav).e := moved_env he _ _
  have e2 : (M'.moved L M'.grav).env = .ok (c'.moved (fun id => L.getD id 0) M'.grav).e := moved_env he' _ _
  have g1 : c.e.grav = M.grav := (env_ok he).2.2.2.2.2.2.2.2.2.2.2.1
  have g2 : c'.e.grav = M'.grav := (env_ok he').2.2.2.2.2.2.2.2.2.2.2.1
  obtain ⟨-, -, -, -, -, -, -, -, -, -, -, -, -, z1, -⟩ := env_ok he
  obtain ⟨-, -, -, -, -, -, -, -, -, -, -, -, -, z2, -⟩ := env_ok he'
  obtain ⟨iso, hiso, -⟩ := isIsotropic_eq hM.rock
  obtain ⟨iso', hiso', -⟩ := isIsotropic_eq hM'.rock
  have zero : ∀ id, id ∈ c.e.ids → D.getD id 0 = 0 := fun id hid => by
    have hi : Interior M.g.nx M.g.ny M.g.nz (M.g.dec id) := by rwa [(env_ok he).1, mem_innerIds] at hid
    have hn : cellNumber M.g.nx M.g.ny (M.g.dec id) = id := M.g.num_dec id
    rw [← hn, hD, lifted_cell L (Interior.inGrid hi)]
    exact levelled_inner he' (inner_cell he' (hL.layout.inner _ hi))
  have q1 : ∀ f n t, run (c.moved (fun id => D.getD id 0) M'.grav) f true n t m (Sol.init m) = run c f true n t m (Sol.init m) := fun f n t =>
    C49_depths_ignored he D M'.grav e1 rfl rfl rfl hr (fun w h => (hw w h).1) (fun b id T hb hk hf => by
      obtain ⟨f1, f2, a, -, f4, -⟩ := face_grid hM he hiso (hr.started.mdl.bmem b hb) hf
      have n1 : cellNumber M.g.nx M.g.ny (M.g.dec b.1) = b.1 := M.g.num_dec b.1
      have n2 : cellNumber M.g.nx M.g.ny (M.g.dec id) = id := M.g.num_dec id
      obtain ⟨b1, b2, v', b3, -⟩ := (h0.up a _ _ b.2.1 b.2.2 f1 f2 f4 (by rw [n1]; exact hb)).resolve_left fun H => H.1 hk
      have F := grid_face hM' he' hiso' b1 (hL.layout.inner _ f2) (bound_flow b1 (hL.layout.inner _ f2) b2) b2
      have lv := levelled_head hM' he' (hr'.started.mdl.bmem _ b3) F
      have hh := hL.head _ _ f1.1 (Interior.inGrid f2)
      have l1 := lifted_cell (M' := M') (φ := φ) L f1.1
      have l2 := lifted_cell (M' := M') (φ := φ) L (Interior.inGrid f2)
      rw [n1] at l1 hh
      rw [n2] at l2 hh
      show M'.grav * (D.getD b.1 0 - D.getD id 0) = _
      rw [hD, l1, l2, lv, z2, z2, hh, g1, z1, z1]) f n t
  have q2 : ∀ f n t, run (c'.moved (fun id => L.getD id 0) M'.grav) f true n t m' (Sol.init m') = run c' f true n t m' (Sol.init m') := fun f n t =>
    C49_depths_ignored he' L M'.grav e2 rfl rfl rfl hr' (fun w h => (hw' w h).1) (fun b id T hb _ hf => by
      show M'.grav * (L.getD b.1 0 - L.getD id 0) = _
      rw [levelled_head hM' he' (hr'.started.mdl.bmem b hb) hf, g2]) f n t
  refine ⟨M.moved D M'.grav, M'.moved L M'.grav, c.moved (fun id => D.getD id 0) M'.grav, c'.moved (fun id => L.getD id 0) M'.grav,
    ⟨hL.layout, hL.pos, hL.weight, hL.perm, hL.along, hL.area, hL.iso, hL.β, hL.mu, hL.B, hL.comp, hL.storage, fun x y hx hy => ?_⟩, pos hM D M'.grav, pos hM' L M'.grav, e1, e2, rfl, rfl, rfl, .inr fun i hi => ?_,
    .inr fun i hi => ?_, ⟨⟨hr.ctx.lower, ⟨_, pos hM D M'.grav, e1⟩, hr.ctx.scale⟩, setup_moved hr.setup, hr.G, hr.cfg, hr.canon⟩,
    ⟨⟨hr'.ctx.lower, ⟨_, pos hM' L M'.grav, e2⟩, hr'.ctx.scale⟩, setup_moved hr'.setup, hr'.G, hr'.cfg, hr'.canon⟩, rfl, rfl, ⟨h0.up, h0.down, fun x w hx hw => ?_, h0.wellDown, h0.init⟩, fun h => h, q1, q2⟩
  · show M'.grav * (L.getD _ 0 - L.getD _ 0) = M'.grav * (D.getD _ 0 - D.getD _ 0)
    rw [hD]
    show _ = M'.grav * ((lifted M M' φ L).getD (cellNumber M.g.nx M.g.ny x) 0 - (lifted M M' φ L).getD (cellNumber M.g.nx M.g.ny y) 0)
    rw [lifted_cell (M := M) L hx, lifted_cell (M := M) L hy]; rfl
  · show D.getD (c.e.at i) 0 = D.getD (c.e.at 0) 0
    rw [zero _ (at_mem c.e hi), zero _ (at_mem c.e hr.ctx.wf.pos)]
  · show L.getD (c'.e.at i) 0 = L.getD (c'.e.at 0) 0
    rw [hLe, levelled_inner he' (at_mem c'.e hi), levelled_inner he' (at_mem c'.e hr'.ctx.wf.pos)]
  · obtain ⟨w', h1, h2⟩ := h0.wellUp x w hx hw
    exact ⟨w', h1, ⟨h2.1, h2.2, h2.3⟩⟩

/-- **C80, inclined reservoirs, vectorised.** `C80_run_partial` for cells at any depths, where wells are given bottom-hole pressures (not 0): at every step each cell of `M` has the pressure of the cell of `M'` below it, and
the inflow over a face under a pressure condition is `s` times that over the face below it. Missing: wells with target rates, three-dimensional grids (C35). -/
theorem C80_inclined_partial (hL : FoldLooks M M' φ s) (hM : M.Pos) (hM' : M'.Pos) (he : M.env = .ok c.e) (he' : M'.env = .ok c'.e) (hD : M.g.getD ≠ 3) (hD' : M'.g.getD ≠ 3) (hg : RatesGiven m) (hg' : RatesGiven m')
    (hr : Ready c m) (hr' : Ready c' m') (hx : Exact c.lin) (hx' : Exact c'.lin) (hw : PressureWells m) (hw' : PressureWells m') (han : Anchored c.e m) (h0 : FoldModel M M' φ s c.e c'.e m m') {f f' N : ℕ} {t t' : K}
    (h : (run c f true N t m (Sol.init m)).2 = .ok ()) (h' : (run c' f' true N t' m' (Sol.init m')).2 = .ok ()) :
    (∀ k, (0 < k ∨ M.comp = true) → k ≤ N → ∀ x, Interior M.g.nx M.g.ny M.g.nz x →
      rowAt (run c f true N t m (Sol.init m)).1.2.press k none (cellNumber M.g.nx M.g.ny x) =
        rowAt (run c' f' true N t' m' (Sol.init m')).1.2.press k none (cellNumber M'.g.nx M'.g.ny (φ x))) ∧
    ∀ a x y v, Boundary M.g.nx M.g.ny M.g.nz x → Interior M.g.nx M.g.ny M.g.nz y → Adjacent a x y → (cellNumber M.g.nx M.g.ny x, "pressure", v) ∈ m.bdict →
      ∀ k, 0 < k → k ≤ N → rowAt (run c f true N t m (Sol.init m)).1.2.rates k 0 (cellNumber M.g.nx M.g.ny x) =
        s x * rowAt (run c' f' true N t' m' (Sol.init m')).1.2.rates k 0 (cellNumber M'.g.nx M'.g.ny (φ x)) := by
  obtain ⟨W, W', d, d', a1, a2, a3, a4, a5, a6, a7, a8, a9, a10, a11, a12, a13, a14, a15, a16, q, q'⟩ := fold_level hL hM hM' he he' hr hr' hw hw' h0
  rw [← q] at h ⊢
  rw [← q'] at h' ⊢
  have hv : true = true → W.g.getD ≠ 3 ∧ W'.g.getD ≠ 3 ∧ d.e.Flat ∧ d'.e.Flat ∧ RatesGiven m ∧ RatesGiven m' := fun _ => ⟨by rw [a6]; exact hD, by rw [a7]; exact hD', a9, a10, hg, hg'⟩
  have hP := steady_runAll a11 hw true f N (.clock (s := Sol.init m) ((Sol.init m).nsteps + N) (Sol.init m).ctime .start)
  have hP' := steady_runAll a12 hw' true f' N (.clock (s := Sol.init m') ((Sol.init m').nsteps + N) (Sol.init m').ctime .start)
  have k1 := C80_run_partial a1 a2 a3 a4 a5 hv a11 a12 (a13 ▸ hx) (a14 ▸ hx') (a16 han) a15 hP hP' h h'
  rw [a6, a7, a8] at k1
  refine ⟨k1.2.2, fun a x y v b1 b2 b3 b4 => ?_⟩
  have k2 := C80_fluxes_partial a1 a2 a3 a4 a5 hv a11 a12 (a13 ▸ hx) (a14 ▸ hx') (a16 han) a15 hP hP' h h' (a := a) (x := x) (y := y) (v := v) (by rw [a6]; exact b1) (by rw [a6]; exact b2) b3 (by rw [a6]; exact b4)
  rw [a6, a7] at k2
  exact k2

/-! ### instance -/

/-- A trough of four cells: two slopes that are mirror images. -/
def ex4Slope : GridModel ℚ := ex4M.moved [4, 5, 7, 7, 5, 4] 3

def ex4SlopeC (xs : List (List ℚ)) : Ctx ℚ := (ex4C xs).moved (fun id => [4, 5, 7, 7, 5, 4].getD id 0) 3

/-- One slope, closed at the lower end. -/
def exSlopeHalf : Mdl ℚ := exMdl true 3 [4, 5, 7, 9] (some 8) [(0, "pressure", 10)] [(2, { pwf := some 4, r := some 1 })]

def exSlopeX : List (List ℚ) := [[114/11, 82/11, 82/11, 114/11], [1326/121, 904/121, 904/121, 1326/121]]

/-- Both slopes. -/
def exTrough : Mdl ℚ := mkMdl (ex4SlopeC exSlopeX) (some 8) [(0, "pressure", 10), (5, "pressure", 10)] [(2, { pwf := some 4, r := some 1 }), (3, { pwf := some 4, r := some 1 })]

lemma ex4Slope_pos : ex4Slope.Pos := by
  have h := ex4M_pos
  exact ⟨h.geom, h.sizes, h.rock, h.perm, h.permB, h.β, h.mu, h.B, h.vconv, h.dt, h.phi, h.ct⟩

lemma ex4Slope_env : ex4Slope.env = .ok (ex4SlopeC exSlopeX).e := moved_env (getOk_eq _ ex4M_ok) _ _

lemma exTrough_ready : Ready (ex4SlopeC exSlopeX) exTrough :=
  mkMdl_ready ⟨⟨rfl, rfl⟩, ⟨_, ex4Slope_pos, ex4Slope_env⟩, fun _ _ => (one_ne_zero : (1 : ℚ) ≠ 0)⟩ (fun _ => rfl) (by decide +kernel)

lemma ex4Slope_looks : FoldLooks ex4Slope (exM true 3 [4, 5, 7, 9]) (half 2 .x) fun _ => 1 := by
  have h := ex4_looks
  refine ⟨h.layout, h.pos, h.weight, h.perm, h.along, h.area, h.iso, h.β, h.mu, h.B, h.comp, h.storage, fun x y hx hy => ?_⟩
  have key : ∀ x, InGrid g4.nx g4.ny g4.nz x → ([4, 5, 7, 9] : List ℚ).getD (cellNumber g2.nx g2.ny (half 2 .x x)) 0 = ([4, 5, 7, 7, 5, 4] : List ℚ).getD (cellNumber g4.nx g4.ny x) 0 := by
    rintro ⟨i, j, k⟩ ⟨h1, h2, h3⟩
    have h1 : i < 6 := h1
    have h2 : j < 1 := h2
    have h3 : k < 1 := h3
    interval_cases i <;> interval_cases j <;> interval_cases k <;> decide +kernel
  show (3 : ℚ) * (_ - _) = 3 * (_ - _)
  rw [show (exM true 3 [4, 5, 7, 9]).depth = [4, 5, 7, 9] from rfl, show ex4Slope.depth = [4, 5, 7, 7, 5, 4] from rfl]
  exact congrArg (3 * ·) (congrArg₂ (· - ·) (key x hx) (key y hy))

/-- The hypotheses are met: one slope has the pressures of the trough. -/
example : ∀ k, k ≤ 2 → ∀ x, Interior 4 1 1 x → rowAt (run (ex4SlopeC exSlopeX) 10 true 2 0 exTrough (Sol.init exTrough)).1.2.press k none (cellNumber 4 1 x) =
    rowAt (run (exC true 3 [4, 5, 7, 9]) 10 true 2 0 exSlopeHalf (Sol.init exSlopeHalf)).1.2.press k none (cellNumber 2 1 (half 2 .x x)) := by
  have := (C80_inclined_partial (c := ex4SlopeC exSlopeX) (c' := exC true 3 [4, 5, 7, 9]) (m := exTrough) (m' := exSlopeHalf) (f := 10) (f' := 10) (N := 2) (t := 0) (t' := 0) ex4Slope_looks ex4Slope_pos (exM_pos _ _ _)
    ex4Slope_env (exE_env _ _ _) (by decide +kernel) (by decide +kernel) (by unfold RatesGiven; decide +kernel) (by unfold RatesGiven; decide +kernel) exTrough_ready (exMdl_ready (by decide +kernel)) (listLin_exact _)
    cramer_exact (by unfold PressureWells; decide +kernel) (by unfold PressureWells; decide +kernel) (.inl (by decide +kernel)) (foldModel_of (by decide +kernel)) (isOk_unit (by decide +kernel))
    (isOk_unit (by decide +kernel))).1
  exact fun k hk x hx => this k (.inr rfl) hk x hx

example : (run (ex4SlopeC exSlopeX) 10 true 2 0 exTrough (Sol.init exTrough)).1.2.tstep = 2 ∧ rowAt (run (ex4SlopeC exSlopeX) 10 true 2 0 exTrough (Sol.init exTrough)).1.2.press 2 none 4 = some (1326 / 121) := by decide +kernel

end RF.Fdm
