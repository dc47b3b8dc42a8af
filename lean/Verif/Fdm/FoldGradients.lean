import Verif.Fdm.FoldLimits
/-!
# C80 with gradient conditions

The vectorised assembler turns a gradient into a rate when it is set: transmissibility of the face times size of the cell behind it times gradient. Over a face with a gradient lie
faces with the same gradient.
-/
set_option linter.unusedSectionVars false
namespace RF.Fdm
open RF RF.Dims RF.Spec Finset

variable {K : Type} [Field K] [LinearOrder K] [IsStrictOrderedRing K]

/-! ### Specification -/

/-- The value of a condition over the condition with value `v`: pressures and gradients are the same, rates go with the size of the cell. -/
def overAny (lower : String → String) (s : K) (k : String) (v : K) : K := if k = "pressure" then v else if lower k ∈ ["rate", "q"] then s * v else v

/-- `FoldModel` where conditions may be gradients. -/
structure FoldAny (M M' : GridModel K) (φ : Cell → Cell) (s : Cell → K) (lower : String → String) (e e' : Env K) (m m' : Mdl K) : Prop where
  up : ∀ a x c k v, Boundary M.g.nx M.g.ny M.g.nz x → Interior M.g.nx M.g.ny M.g.nz c → Adjacent a x c → (cellNumber M.g.nx M.g.ny x, k, v) ∈ m.bdict →
    ClosedFace k v ∨ (Boundary M'.g.nx M'.g.ny M'.g.nz (φ x) ∧ Adjacent a (φ x) (φ c) ∧ ∃ v', (cellNumber M'.g.nx M'.g.ny (φ x), k, v') ∈ m'.bdict ∧ v = overAny lower (s c) k v')
  down : ∀ a x' c k v', Boundary M'.g.nx M'.g.ny M'.g.nz x' → Interior M.g.nx M.g.ny M.g.nz c → Adjacent a x' (φ c) → (cellNumber M'.g.nx M'.g.ny x', k, v') ∈ m'.bdict →
    ClosedFace k v' ∨ ∃ x, Boundary M.g.nx M.g.ny M.g.nz x ∧ Adjacent a x c ∧ φ x = x' ∧ (cellNumber M.g.nx M.g.ny x, k, overAny lower (s c) k v') ∈ m.bdict
  wellUp : ∀ c w, Interior M.g.nx M.g.ny M.g.nz c → (cellNumber M.g.nx M.g.ny c, w) ∈ m.wells → ∃ w', (cellNumber M'.g.nx M'.g.ny (φ c), w') ∈ m'.wells ∧ WellOver (s c) e e' w w'
  wellDown : ∀ c w', Interior M.g.nx M.g.ny M.g.nz c → (cellNumber M'.g.nx M'.g.ny (φ c), w') ∈ m'.wells → ∃ w, (cellNumber M.g.nx M.g.ny c, w) ∈ m.wells
  init : M.comp = true → ∀ c, Interior M.g.nx M.g.ny M.g.nz c → m.initP (cellNumber M.g.nx M.g.ny c) = m'.initP (cellNumber M'.g.nx M'.g.ny (φ c))

/-! ### the rate a gradient stands for -/

lemma Setup.slope {lower : String → String} {e : Env K} {m : Mdl K} (h : Setup lower e m) (hc : Canonical lower m) :
    ∀ b, b ∈ m.bdict → b.2.1 ≠ "pressure" → lower b.2.1 ∉ ["rate", "q"] → gradientRate e b.1 b.2.2 = .ok (m.initR b.1) := by
  induction h with
  | init pi => intro b hb; exact absurd hb (by simp [Mdl.init])
  | @bounds m m' b h hb hs _ =>
    obtain ⟨-, a1, -, -, -, -, -, -, a8⟩ := setBoundaries_ok hb hs
    intro x hx hp h1
    obtain ⟨-, -, c3⟩ := a8 x (by rwa [a1] at hx)
    exact (c3 h1 fun h2 => hp ((hc x hx).1 h2)).2
  | @well m m' id a h hs ih =>
    obtain ⟨k, req, r, G, w', wp, -, -, -, -, -, rfl, -⟩ := setWell_ok hs
    exact ih hc

section
variable {M M' : GridModel K} {φ : Cell → Cell} {s : Cell → K} {c c' : Ctx K} {m m' : Mdl K}

lemma env_size_along (hM : M.Pos) {e : Env K} (he : M.env = .ok e) {x : Cell} (hx : InGrid M.g.nx M.g.ny M.g.nz x) (a : Axis) :
    e.size a (cellNumber M.g.nx M.g.ny x) = M.sizes.along x a := by
  obtain ⟨-, -, -, -, -, -, -, -, -, -, -, -, hs, -⟩ := env_ok he
  have hg := geomOf_of_calc hM.geom
  have hd : M.g.dec (cellNumber M.g.nx M.g.ny x) = x := M.g.dec_num hx
  have hid : cellNumber M.g.nx M.g.ny x < M.g.getN true := M.g.num_lt hx
  rw [hs]
  cases a
  · rw [show M.geom.d .x = M.geom.dx from rfl, hg.dx, getD_map_range _ _ _ hid, hd]; rfl
  · rw [show M.geom.d .y = M.geom.dy from rfl, hg.dy, getD_map_range _ _ _ hid, hd]; rfl
  · rw [show M.geom.d .z = M.geom.dz from rfl, hg.dz, getD_map_range _ _ _ hid, hd]; rfl

/-- On a grid: the rate of a gradient over the face between boundary cell `x` and cell `y`. -/
lemma gradientRate_grid (hM : M.Pos) {e : Env K} (he : M.env = .ok e) {iso : Bool} (hiso : isIsotropic M.g M.rock = .ok iso) {a : Axis} {x y : Cell} (hx : Boundary M.g.nx M.g.ny M.g.nz x)
    (hy : Interior M.g.nx M.g.ny M.g.nz y) (hf : Flow M.g.nx M.g.ny M.g.nz a) (h : Adjacent a x y) {v q : K} (hq : gradientRate e (cellNumber M.g.nx M.g.ny x) v = .ok q) :
    q = pairG M.g M.sizes M.rock M.β iso a x y / (M.mu * M.B) * M.sizes.along y a * v := by
  obtain ⟨id, T, d, a', hF, hd, hmem, rfl⟩ := gradientRate_ok hq
  have hF' := grid_face hM he hiso hx hy hf h
  have := (show e.transC _ false = _ from hF).symm.trans hF'
  simp only [Except.ok.injEq, List.cons.injEq, Prod.mk.injEq, and_true] at this
  obtain ⟨rfl, rfl⟩ := this
  have ha : a' = a := by
    obtain ⟨-, -, -, -, -, e6, -⟩ := env_ok he
    rw [e6, neighborsId_eq, if_neg (by simp)] at hd
    cases hd
    rw [show cellNumber M.g.nx M.g.ny x = M.g.num x from rfl, M.g.mem_nbrs_false x hx.1] at hmem
    obtain ⟨-, d, hd1, hadj, hnum⟩ := hmem
    have hdy : y = d := by
      have := congrArg M.g.dec hnum
      rw [show M.g.dec (cellNumber M.g.nx M.g.ny y) = y from M.g.dec_num (Interior.inGrid hy), M.g.dec_num (Interior.inGrid hd1)] at this
      exact this
    rw [← hdy] at hadj
    exact adjacent_axis hadj h
  rw [ha, env_size_along hM he (Interior.inGrid hy)]

/-- The stored rates: over a face, `s` times the rate of the face below. -/
lemma over_rate (hL : FoldLooks M M' φ s) (hM : M.Pos) (hM' : M'.Pos) (he : M.env = .ok c.e) (he' : M'.env = .ok c'.e) (hr : Ready c m) (hr' : Ready c' m') (hlow : c'.lower = c.lower)
    {a : Axis} {x y : Cell} (hx : Boundary M.g.nx M.g.ny M.g.nz x) (hy : Interior M.g.nx M.g.ny M.g.nz y) (hxy : Adjacent a x y) (hx' : Boundary M'.g.nx M'.g.ny M'.g.nz (φ x))
    (hxy' : Adjacent a (φ x) (φ y)) {k : String} {v' : K} (hk : k ≠ "pressure") (hb : (cellNumber M.g.nx M.g.ny x, k, overAny c.lower (s y) k v') ∈ m.bdict)
    (hb' : (cellNumber M'.g.nx M'.g.ny (φ x), k, v') ∈ m'.bdict) : m.initR (cellNumber M.g.nx M.g.ny x) = s y * m'.initR (cellNumber M'.g.nx M'.g.ny (φ x)) := by
  by_cases h1 : c.lower k ∈ ["rate", "q"]
  · rw [hr.factor hb hk, hr'.factor hb' hk]
    unfold rateFactor overAny
    dsimp only
    rw [hlow, if_pos h1, if_pos h1, if_neg hk, if_pos h1, one_mul, one_mul]
  · have g := hr.setup.slope hr.canon _ hb hk h1
    have g' := hr'.setup.slope hr'.canon _ hb' hk (by rw [hlow]; exact h1)
    obtain ⟨iso, hiso, hisoS⟩ := isIsotropic_eq hM.rock
    obtain ⟨iso', hiso', hisoS'⟩ := isIsotropic_eq hM'.rock
    have hii : iso' = iso := by rw [Bool.eq_iff_iff, hisoS, hisoS', hL.iso]
    subst hii
    have hf := bound_flow hx' (hL.layout.inner y hy) hxy'
    dsimp only at g g'
    rw [overAny, if_neg hk, if_neg h1] at g
    have q := gradientRate_grid hM he hiso hx hy (bound_flow hx hy hxy) hxy g
    have q' := gradientRate_grid hM' he' hiso' hx' (hL.layout.inner y hy) hf hxy' g'
    have hw := hL.weight a x y hf hx.1 (Interior.inGrid hy) hxy
    rw [q, q', hL.pairG hM' iso' hf hx.1 (Interior.inGrid hy) hw, hL.along a y hf (Interior.inGrid hy), hw]
    ring

lemma FoldAny.asRates (h : FoldAny M M' φ s c.lower c.e c'.e m m') (hL : FoldLooks M M' φ s) (hM : M.Pos) (hM' : M'.Pos) (he : M.env = .ok c.e) (he' : M'.env = .ok c'.e) (hr : Ready c m)
    (hr' : Ready c' m') (hlow : c'.lower = c.lower) : FoldModel M M' φ s c.e c'.e m.asRates m'.asRates where
  up := by
    intro a x y k v hx hy hxy hb
    obtain ⟨⟨b1, k0, v0⟩, hb0, e0⟩ := List.mem_map.1 (show _ ∈ m.bdict.map (plain m.initR) from hb)
    have hb1 : b1 = cellNumber M.g.nx M.g.ny x := by have := plain_key m.initR (b1, k0, v0); rw [e0] at this; exact this.symm
    subst hb1
    by_cases hk : k0 = "pressure"
    · rw [plain_eq hk] at e0
      simp only [Prod.mk.injEq, true_and] at e0
      obtain ⟨rfl, rfl⟩ := e0
      obtain ⟨p1, p2, v', p3, p4⟩ := (h.up a x y k0 v0 hx hy hxy hb0).resolve_left fun H => H.1 hk
      rw [overAny, if_pos hk] at p4
      exact .inr ⟨p1, p2, v', List.mem_map.2 ⟨_, p3, plain_eq hk⟩, by rw [overValue, if_pos hk]; exact p4⟩
    · rw [plain_ne hk] at e0
      simp only [Prod.mk.injEq, true_and] at e0
      obtain ⟨rfl, rfl⟩ := e0
      rcases h.up a x y k0 v0 hx hy hxy hb0 with H | ⟨p1, p2, v', p3, p4⟩
      · refine .inl ⟨by decide, ?_⟩
        rw [hr.factor hb0 hk]
        dsimp only
        rw [H.2, mul_zero]
      · refine .inr ⟨p1, p2, _, List.mem_map.2 ⟨_, p3, plain_ne hk⟩, ?_⟩
        rw [overValue, if_neg (by decide)]
        rw [p4] at hb0
        exact over_rate hL hM hM' he he' hr hr' hlow hx hy hxy p1 p2 hk hb0 p3
  down := by
    intro a x' y k v' hx' hy hxy hb
    obtain ⟨⟨b1, k0, v0⟩, hb0, e0⟩ := List.mem_map.1 (show _ ∈ m'.bdict.map (plain m'.initR) from hb)
    have hb1 : b1 = cellNumber M'.g.nx M'.g.ny x' := by have := plain_key m'.initR (b1, k0, v0); rw [e0] at this; exact this.symm
    subst hb1
    by_cases hk : k0 = "pressure"
    · rw [plain_eq hk] at e0
      simp only [Prod.mk.injEq, true_and] at e0
      obtain ⟨rfl, rfl⟩ := e0
      obtain ⟨x, p1, p2, p3, p4⟩ := (h.down a x' y k0 v0 hx' hy hxy hb0).resolve_left fun H => H.1 hk
      rw [overAny, if_pos hk] at p4
      refine .inr ⟨x, p1, p2, p3, List.mem_map.2 ⟨_, p4, ?_⟩⟩
      rw [overValue, if_pos hk]; exact plain_eq hk
    · rw [plain_ne hk] at e0
      simp only [Prod.mk.injEq, true_and] at e0
      obtain ⟨rfl, rfl⟩ := e0
      rcases h.down a x' y k0 v0 hx' hy hxy hb0 with H | ⟨x, p1, p2, rfl, p4⟩
      · refine .inl ⟨by decide, ?_⟩
        rw [hr'.factor hb0 hk]
        dsimp only
        rw [H.2, mul_zero]
      · refine .inr ⟨x, p1, p2, rfl, List.mem_map.2 ⟨_, p4, ?_⟩⟩
        rw [plain_ne hk, overValue, if_neg (by decide)]
        dsimp only
        rw [over_rate hL hM hM' he he' hr hr' hlow p1 hy p2 hx' hxy hk p4 hb0]
  wellUp := h.wellUp
  wellDown := h.wellDown
  init := h.init

/-! ### C80 -/

/-- **C80 with gradients, partial.** `C80_limits_partial` for the vectorised assembler where conditions may be gradients: at every step each cell of `M` has the pressure of the cell of
`M'` below it. Wells may go to their limits. Missing: wells that leave their limits (`C80_limit_fails`), three-dimensional grids (C35) and inclined reservoirs (C37). -/
theorem C80_gradients_partial (hL : FoldLooks M M' φ s) (hM : M.Pos) (hM' : M'.Pos) (he : M.env = .ok c.e) (he' : M'.env = .ok c'.e) (hD : M.g.getD ≠ 3) (hD' : M'.g.getD ≠ 3) (hf : c.e.Flat)
    (hf' : c'.e.Flat) (hr : Ready c m) (hr' : Ready c' m') (hlow : c'.lower = c.lower) (hx : Exact c.lin) (hx' : Exact c'.lin) (han : Anchored c.e m)
    (h0 : FoldAny M M' φ s c.lower c.e c'.e m m') (hlim : LimitsOver M M' φ s c.e c'.e m m') {f f' N : ℕ} {t t' : K}
    (hP : RunAll c Calm f true N m { Sol.init m with nsteps := (Sol.init m).nsteps + N }) (hP' : RunAll c' Calm f' true N m' { Sol.init m' with nsteps := (Sol.init m').nsteps + N })
    (h : (run c f true N t m (Sol.init m)).2 = .ok ()) (h' : (run c' f' true N t' m' (Sol.init m')).2 = .ok ()) :
    (run c f true N t m (Sol.init m)).1.2.tstep = N ∧ (run c' f' true N t' m' (Sol.init m')).1.2.tstep = N ∧
    ∀ k, (0 < k ∨ M.comp = true) → k ≤ N → ∀ x, Interior M.g.nx M.g.ny M.g.nz x →
      rowAt (run c f true N t m (Sol.init m)).1.2.press k none (cellNumber M.g.nx M.g.ny x) =
        rowAt (run c' f' true N t' m' (Sol.init m')).1.2.press k none (cellNumber M'.g.nx M'.g.ny (φ x)) := by
  have r := run_asRates hr f N t
  have r' := run_asRates hr' f' N t'
  have key := C80_limits_partial (vect := true) (m := m.asRates) (m' := m'.asRates) (f := f) (f' := f') (t := t) (t' := t') hL hM hM' he he' (fun _ => ⟨hD, hD', hf, hf', asRates_given m, asRates_given m'⟩)
    hr.asRates hr'.asRates hx hx' (asRates_anchored.2 han) (h0.asRates hL hM hM' he he' hr hr' hlow) hlim (r.2.2.2 _ calm_blind hP) (r'.2.2.2 _ calm_blind hP')
    (by rw [r.2.1]; exact h) (by rw [r'.2.1]; exact h')
  rw [r.1, r'.1] at key
  exact key

/-- **C80 with gradients, boundary inflow, partial.** In the situation of `C80_gradients_partial` the inflow recorded for a boundary cell, under any condition, is `s` times the inflow
recorded for the boundary cell below it (a face with another condition than a closed one lies over one). -/
theorem C80_gradient_fluxes_partial (hL : FoldLooks M M' φ s) (hM : M.Pos) (hM' : M'.Pos) (he : M.env = .ok c.e) (he' : M'.env = .ok c'.e) (hD : M.g.getD ≠ 3) (hD' : M'.g.getD ≠ 3)
    (hf : c.e.Flat) (hf' : c'.e.Flat) (hr : Ready c m) (hr' : Ready c' m') (hlow : c'.lower = c.lower) (hx : Exact c.lin) (hx' : Exact c'.lin) (han : Anchored c.e m)
    (h0 : FoldAny M M' φ s c.lower c.e c'.e m m') (hlim : LimitsOver M M' φ s c.e c'.e m m') {f f' N : ℕ} {t t' : K}
    (hP : RunAll c Calm f true N m { Sol.init m with nsteps := (Sol.init m).nsteps + N }) (hP' : RunAll c' Calm f' true N m' { Sol.init m' with nsteps := (Sol.init m').nsteps + N })
    (h : (run c f true N t m (Sol.init m)).2 = .ok ()) (h' : (run c' f' true N t' m' (Sol.init m')).2 = .ok ()) {a : Axis} {x y : Cell} {kind : String} {v : K}
    (hxb : Boundary M.g.nx M.g.ny M.g.nz x) (hy : Interior M.g.nx M.g.ny M.g.nz y) (hxy : Adjacent a x y) (hb : (cellNumber M.g.nx M.g.ny x, kind, v) ∈ m.bdict) :
    (ClosedFace kind v ∧ ∀ k, k ≤ N → rowAt (run c f true N t m (Sol.init m)).1.2.rates k 0 (cellNumber M.g.nx M.g.ny x) = 0) ∨
    ∀ k, 0 < k → k ≤ N → rowAt (run c f true N t m (Sol.init m)).1.2.rates k 0 (cellNumber M.g.nx M.g.ny x) =
      s x * rowAt (run c' f' true N t' m' (Sol.init m')).1.2.rates k 0 (cellNumber M'.g.nx M'.g.ny (φ x)) := by
  have r := run_asRates hr f N t
  have r' := run_asRates hr' f' N t'
  obtain ⟨t1, t2, -⟩ := C80_gradients_partial (t := t) (t' := t') hL hM hM' he he' hD hD' hf hf' hr hr' hlow hx hx' han h0 hlim hP hP' h h'
  by_cases hk : kind = "pressure"
  · subst hk
    have key := C80_limit_fluxes_partial (vect := true) (m := m.asRates) (m' := m'.asRates) (f := f) (f' := f') (t := t) (t' := t') hL hM hM' he he'
      (fun _ => ⟨hD, hD', hf, hf', asRates_given m, asRates_given m'⟩) hr.asRates hr'.asRates hx hx' (asRates_anchored.2 han) (h0.asRates hL hM hM' he he' hr hr' hlow) hlim
      (r.2.2.2 _ calm_blind hP) (r'.2.2.2 _ calm_blind hP') (by rw [r.2.1]; exact h) (by rw [r'.2.1]; exact h') hxb hy hxy (List.mem_map.2 ⟨_, hb, plain_eq rfl⟩)
    rw [r.1, r'.1] at key
    exact .inr key
  · have kept : ∀ k, k ≤ N → rowAt (run c f true N t m (Sol.init m)).1.2.rates k 0 (cellNumber M.g.nx M.g.ny x) = m.initR (cellNumber M.g.nx M.g.ny x) := fun k hk' =>
      (hr.inv (Hist.run hr.ctx.lower hr.ctx.wf hr.started.mdl N t .start hP)).row k (by rw [t1]; exact hk') _ (mem_bdict_not_upd hr.started.mdl hb hk) (mem_bdict_not_well hr.ctx.wf hr.started.mdl hb)
    rcases h0.up a x y kind v hxb hy hxy hb with H | ⟨p1, p2, v', p3, p4⟩
    · refine .inl ⟨H, fun k hk' => ?_⟩
      rw [kept k hk', hr.factor hb hk]
      dsimp only
      rw [H.2, mul_zero]
    · refine .inr fun k _ hk' => ?_
      rw [p4] at hb
      rw [kept k hk', (hr'.inv (Hist.run hr'.ctx.lower hr'.ctx.wf hr'.started.mdl N t' .start hP')).row k (by rw [t2]; exact hk') _ (mem_bdict_not_upd hr'.started.mdl p3 hk)
        (mem_bdict_not_well hr'.ctx.wf hr'.started.mdl p3), over_rate hL hM hM' he he' hr hr' hlow hxb hy hxy p1 p2 hk hb p3,
        hL.weight a x y (bound_flow p1 (hL.layout.inner y hy) p2) hxb.1 (Interior.inGrid hy) hxy]

end

/-! ### The hypotheses are met -/

/-- The checks of `FoldAny` on conditions. -/
def foldAnyB (M M' : GridModel ℚ) (φ : Cell → Cell) (s : Cell → ℚ) (lower : String → String) (m m' : Mdl ℚ) : Bool :=
  axes3.all fun a => (allCells M.g).all fun c => !decide (Interior M.g.nx M.g.ny M.g.nz c) ||
    ((m.bdict.all fun b => !decide (Adjacent a (M.g.dec b.1) c) || decide (ClosedFace b.2.1 b.2.2) ||
        (decide (Boundary M'.g.nx M'.g.ny M'.g.nz (φ (M.g.dec b.1))) && decide (Adjacent a (φ (M.g.dec b.1)) (φ c)) &&
          m'.bdict.any fun b' => decide (b'.1 = cellNumber M'.g.nx M'.g.ny (φ (M.g.dec b.1)) ∧ b'.2.1 = b.2.1 ∧ b.2.2 = overAny lower (s c) b.2.1 b'.2.2))) &&
      (m'.bdict.all fun b' => !decide (Adjacent a (M'.g.dec b'.1) (φ c)) || decide (ClosedFace b'.2.1 b'.2.2) ||
        (allCells M.g).any fun x => decide (Boundary M.g.nx M.g.ny M.g.nz x) && decide (Adjacent a x c) && decide (φ x = M'.g.dec b'.1) &&
          m.bdict.any fun b => decide (b = (cellNumber M.g.nx M.g.ny x, b'.2.1, overAny lower (s c) b'.2.1 b'.2.2))))

/-- Wells and initial pressures are as in `FoldModel`, of the models without conditions. -/
lemma foldAny_of {M M' : GridModel ℚ} {φ : Cell → Cell} {s : Cell → ℚ} {lower : String → String} {e e' : Env ℚ} {m m' : Mdl ℚ}
    (hw : foldModelB M M' φ s e e' { m with bdict := [] } { m' with bdict := [] } = true) (h1 : foldAnyB M M' φ s lower m m' = true) : FoldAny M M' φ s lower e e' m m' := by
  have hw := foldModel_of hw
  unfold foldAnyB at h1
  simp only [Bool.and_eq_true, List.all_eq_true, List.any_eq_true, Bool.or_eq_true, decide_eq_true_eq, Bool.not_eq_true', decide_eq_false_iff_not] at h1
  have hdn : ∀ (g : Dims) c, InGrid g.nx g.ny g.nz c → g.dec (cellNumber g.nx g.ny c) = c := fun g c hc => g.dec_num hc
  refine ⟨fun a x c k v hx hc ha hb => ?_, fun a x' c k v' hx hc ha hb => ?_, hw.wellUp, hw.wellDown, hw.init⟩
  · rcases ((h1 a (mem_axes3 a) c (mem_allCells (Interior.inGrid hc))).resolve_left fun H => H hc).1 _ hb with (H | H) | ⟨⟨p1, p2⟩, b', q1, q2, q3, q4⟩
    · simp only [hdn _ _ hx.1] at H
      exact absurd ha H
    · exact .inl H
    · simp only [hdn _ _ hx.1] at p1 p2 q2 q3 q4
      exact .inr ⟨p1, p2, b'.2.2, by rw [← q2, ← q3]; exact q1, q4⟩
  · rcases ((h1 a (mem_axes3 a) c (mem_allCells (Interior.inGrid hc))).resolve_left fun H => H hc).2 _ hb with (H | H) | ⟨x, -, ⟨⟨p1, p2⟩, p3⟩, b, q1, q2⟩
    · simp only [hdn _ _ hx.1] at H
      exact absurd ha H
    · exact .inl H
    · simp only [hdn _ _ hx.1] at p3
      exact .inr ⟨x, p1, p2, p3, q2 ▸ q1⟩

/-- The solutions met by `exWholeTilt`. -/
def exWholeTiltX : List (List ℚ) := [[31/3, 26/3, 26/3, 31/3], [109/9, 89/9, 89/9, 109/9]]

/-- A row of four cells with gradients at both ends and two wells. -/
def exWholeTilt : Mdl ℚ := mkMdl (ex4C exWholeTiltX) (some 8) [(0, "gradient", 4), (5, "gradient", 4)] [(2, { q := some (-1), pwf := some 1, r := some 1 }), (3, { q := some (-1), pwf := some 1, r := some 1 })]

/-- The near half. -/
def exHalfTilt : Mdl ℚ := exMdl true 0 [] (some 8) [(0, "gradient", 4)] [(2, { q := some (-1), pwf := some 1, r := some 1 })]

/-- The half has the pressures of the whole. -/
example : ∀ k, k ≤ 2 → ∀ x, Interior 4 1 1 x →
    rowAt (run (ex4C exWholeTiltX) 10 true 2 0 exWholeTilt (Sol.init exWholeTilt)).1.2.press k none (cellNumber 4 1 x) =
      rowAt (run (exC true 0 []) 10 true 2 0 exHalfTilt (Sol.init exHalfTilt)).1.2.press k none (cellNumber 2 1 (half 2 .x x)) := by
  have := (C80_gradients_partial (c := ex4C exWholeTiltX) (c' := exC true 0 []) (m := exWholeTilt) (m' := exHalfTilt) (f := 10) (f' := 10) (N := 2) (t := 0) (t' := 0)
    ex4_looks ex4M_pos (exM_pos _ _ _) (getOk_eq _ ex4M_ok) (exE_env _ _ _)
    (by decide +kernel) (by decide +kernel) (.inl (by decide +kernel)) (ex_flat _) (mkMdl_ready (ex4C_ok _) (fun _ => rfl) (by decide +kernel))
    (exMdl_ready (by decide +kernel)) rfl (listLin_exact _) cramer_exact
    (.inl (by decide +kernel)) (foldAny_of (by decide +kernel) (by decide +kernel)) (limitsOver_of (by decide +kernel)) (runCalmB_all (by decide +kernel)) (runCalmB_all (by decide +kernel))
    (isOk_unit (by decide +kernel)) (isOk_unit (by decide +kernel))).2.2
  exact fun k hk x hx => this k (.inr rfl) hk x hx

end RF.Fdm
