import Verif.Fdm.FoldGrid
import Verif.Fdm.PropsSimilar
/-!
# C80: part of a reservoir stands for all of it

Layers that do not differ may be simulated as one layer, a symmetric reservoir as its half with a closed face at the plane of symmetry.
-/
set_option linter.unusedSectionVars false
set_option linter.constructorNameAsVariable false
namespace RF.Fdm
open RF RF.Dims RF.Spec Finset

variable {K : Type} [Field K] [LinearOrder K] [IsStrictOrderedRing K]

/-! ### layers and halves -/

/-- The layers perpendicular to an axis laid on one. -/
def collapse : Axis → Cell → Cell
  | .x, c => (0, c.2.1, c.2.2) | .y, c => (c.1, 0, c.2.2) | .z, c => (c.1, c.2.1, 0)

/-- A coordinate folded at the middle of `2 m` cells. -/
def fold (m i : ℕ) : ℕ := if i ≤ m then i else 2 * m + 1 - i

/-- The far half of the grid folded over the near half. -/
def half (m : ℕ) : Axis → Cell → Cell
  | .x, c => (fold m c.1, c.2.1, c.2.2) | .y, c => (c.1, fold m c.2.1, c.2.2) | .z, c => (c.1, c.2.1, fold m c.2.2)

/-- The grid with one layer instead of the layers perpendicular to an axis. -/
theorem layout_collapse {g g' : Dims} (a : Axis) (h1 : along g'.nx g'.ny g'.nz a = 1) (h2 : ∀ b, b ≠ a → along g'.nx g'.ny g'.nz b = along g.nx g.ny g.nz b) : FoldLayout g g' (collapse a) := by
  have hx := h2 .x; have hy := h2 .y; have hz := h2 .z
  refine ⟨?_, ?_, ?_, ?_, ?_, ?_⟩
  · rintro ⟨i, j, k⟩ ⟨i1, i2, i3⟩
    cases a <;> simp [along] at h1 hx hy hz <;> simp only [InGrid, collapse, h1, hx, hy, hz] <;> refine ⟨?_, ?_, ?_⟩ <;> first | assumption | (simp [padded])
  · rintro ⟨i, j, k⟩ ⟨i1, i2, i3⟩
    cases a <;> simp [along] at h1 hx hy hz <;> simp only [Interior, collapse, h1, hx, hy, hz] <;> refine ⟨?_, ?_, ?_⟩ <;> first | assumption | (simp [innerCoord])
  · intro b
    cases a <;> cases b <;> simp [along] at h1 hx hy hz <;> simp only [Flow, along, h1, hx, hy, hz] <;> omega
  · rintro b ⟨i, j, k⟩ ⟨i', j', k'⟩ - - h
    cases a <;> cases b <;> simp only [Adjacent, collapse, near, Prod.mk.injEq] at h ⊢ <;> grind
  · rintro b ⟨i, j, k⟩ ⟨i', j', k'⟩ ⟨c1, c2, c3⟩ ⟨d1, d2, d3⟩ h
    cases a <;> simp [along] at h1 hx hy hz
    · simp only [h1, hy, hz] at d1 d2 d3
      refine ⟨(i, j', k'), ⟨c1, d2, d3⟩, ?_⟩
      cases b <;> simp only [Adjacent, collapse, near, innerCoord, Prod.mk.injEq] at * <;> grind
    · simp only [h1, hx, hz] at d1 d2 d3
      refine ⟨(i', j, k'), ⟨d1, c2, d3⟩, ?_⟩
      cases b <;> simp only [Adjacent, collapse, near, innerCoord, Prod.mk.injEq] at * <;> grind
    · simp only [h1, hx, hy] at d1 d2 d3
      refine ⟨(i', j', k), ⟨d1, d2, c3⟩, ?_⟩
      cases b <;> simp only [Adjacent, collapse, near, innerCoord, Prod.mk.injEq] at * <;> grind
  · rintro b ⟨i, j, k⟩ ⟨i1, j1, k1⟩ ⟨i2, j2, k2⟩ - - - e1 e2 e3 e4
    cases a <;> cases b <;> simp only [Adjacent, collapse, near, Prod.mk.injEq, ne_eq] at * <;> grind

/-- The near half of the grid. -/
theorem layout_half {g g' : Dims} {m : ℕ} (a : Axis) (hm : 2 ≤ m) (h0 : along g.nx g.ny g.nz a = 2 * m) (h1 : along g'.nx g'.ny g'.nz a = m) (h2 : ∀ b, b ≠ a → along g'.nx g'.ny g'.nz b = along g.nx g.ny g.nz b) :
    FoldLayout g g' (half m a) := by
  have hx := h2 .x; have hy := h2 .y; have hz := h2 .z
  have p1 : ∀ i, i < padded (2 * m) → fold m i < padded m := fun i hi => by unfold fold padded at *; split_ifs at * <;> omega
  have p2 : ∀ i, innerCoord (2 * m) i → innerCoord m (fold m i) := fun i hi => by unfold fold innerCoord at *; split_ifs at * <;> omega
  have p3 : ∀ i j, innerCoord (2 * m) i → innerCoord (2 * m) j → near i j → fold m j = fold m i ∨ near (fold m i) (fold m j) := fun i j hi hj h => by
    unfold fold innerCoord near at *; split_ifs at * <;> omega
  have p4 : ∀ i j', innerCoord (2 * m) i → innerCoord m j' → near (fold m i) j' → ∃ j, innerCoord (2 * m) j ∧ near i j ∧ fold m j = j' := fun i j' hi hj h => by
    by_cases him : i ≤ m
    · exact ⟨j', by unfold fold innerCoord near at *; split_ifs at * <;> omega⟩
    · exact ⟨2 * m + 1 - j', by unfold fold innerCoord near at *; split_ifs at * <;> omega⟩
  have p4' : ∀ i j', innerCoord (2 * m) i → fold m i = j' → ∃ j, innerCoord (2 * m) j ∧ i = j ∧ fold m j = j' := fun i j' hi h => ⟨i, hi, rfl, h⟩
  have p5 : ∀ i j1 j2, innerCoord (2 * m) i → near i j1 → near i j2 → fold m j1 = fold m j2 → fold m j1 ≠ fold m i → j1 = j2 := fun i j1 j2 hi h1 h2 h3 h4 => by
    unfold fold innerCoord near at *; split_ifs at * <;> omega
  refine ⟨?_, ?_, ?_, ?_, ?_, ?_⟩
  · rintro ⟨i, j, k⟩ ⟨i1, i2, i3⟩
    cases a <;> simp [along] at h0 h1 hx hy hz <;> simp only [InGrid, half, h0, h1, hx, hy, hz] at * <;> refine ⟨?_, ?_, ?_⟩ <;> first | assumption | exact p1 _ (by assumption)
  · rintro ⟨i, j, k⟩ ⟨i1, i2, i3⟩
    cases a <;> simp [along] at h0 h1 hx hy hz <;> simp only [Interior, half, h0, h1, hx, hy, hz] at * <;> refine ⟨?_, ?_, ?_⟩ <;> first | assumption | exact p2 _ (by assumption)
  · intro b
    cases a <;> cases b <;> simp [along] at h0 h1 hx hy hz <;> simp only [Flow, along, h0, h1, hx, hy, hz] <;> omega
  · rintro b ⟨i, j, k⟩ ⟨i', j', k'⟩ ⟨c1, c2, c3⟩ ⟨d1, d2, d3⟩ h
    cases a <;> simp [along] at h0 <;> simp only [h0] at c1 c2 c3 d1 d2 d3
    · cases b <;> simp only [Adjacent, half] at h ⊢
      · rcases p3 _ _ c1 d1 h.1 with e | e
        · left; rw [e, h.2.1, h.2.2]
        · right; exact ⟨e, h.2⟩
      · right; exact ⟨by rw [h.1], h.2⟩
      · right; exact ⟨by rw [h.1], h.2⟩
    · cases b <;> simp only [Adjacent, half] at h ⊢
      · right; exact ⟨h.1, by rw [h.2.1], h.2.2⟩
      · rcases p3 _ _ c2 d2 h.2.1 with e | e
        · left; rw [e, h.1, h.2.2]
        · right; exact ⟨h.1, e, h.2.2⟩
      · right; exact ⟨h.1, by rw [h.2.1], h.2.2⟩
    · cases b <;> simp only [Adjacent, half] at h ⊢
      · right; exact ⟨h.1, h.2.1, by rw [h.2.2]⟩
      · right; exact ⟨h.1, h.2.1, by rw [h.2.2]⟩
      · rcases p3 _ _ c3 d3 h.2.2 with e | e
        · left; rw [e, h.1, h.2.1]
        · right; exact ⟨h.1, h.2.1, e⟩
  · rintro b ⟨i, j, k⟩ ⟨i', j', k'⟩ ⟨c1, c2, c3⟩ ⟨d1, d2, d3⟩ h
    cases a <;> simp [along] at h0 h1 hx hy hz
    · simp only [h0, h1, hy, hz] at c1 c2 c3 d1 d2 d3
      cases b <;> simp only [Adjacent, half] at h ⊢
      · obtain ⟨t, t1, t2, t3⟩ := p4 _ _ c1 d1 h.1
        exact ⟨(t, j', k'), ⟨by rw [h0]; exact t1, d2, d3⟩, ⟨t2, h.2⟩, by rw [t3]⟩
      · exact ⟨(i, j', k'), ⟨by rw [h0]; exact c1, d2, d3⟩, ⟨rfl, h.2⟩, by rw [h.1]⟩
      · exact ⟨(i, j', k'), ⟨by rw [h0]; exact c1, d2, d3⟩, ⟨rfl, h.2⟩, by rw [h.1]⟩
    · simp only [h0, h1, hx, hz] at c1 c2 c3 d1 d2 d3
      cases b <;> simp only [Adjacent, half] at h ⊢
      · exact ⟨(i', j, k'), ⟨d1, by rw [h0]; exact c2, d3⟩, ⟨h.1, rfl, h.2.2⟩, by rw [h.2.1]⟩
      · obtain ⟨t, t1, t2, t3⟩ := p4 _ _ c2 d2 h.2.1
        exact ⟨(i', t, k'), ⟨d1, by rw [h0]; exact t1, d3⟩, ⟨h.1, t2, h.2.2⟩, by rw [t3]⟩
      · exact ⟨(i', j, k'), ⟨d1, by rw [h0]; exact c2, d3⟩, ⟨h.1, rfl, h.2.2⟩, by rw [h.2.1]⟩
    · simp only [h0, h1, hx, hy] at c1 c2 c3 d1 d2 d3
      cases b <;> simp only [Adjacent, half] at h ⊢
      · exact ⟨(i', j', k), ⟨d1, d2, by rw [h0]; exact c3⟩, ⟨h.1, h.2.1, rfl⟩, by rw [h.2.2]⟩
      · exact ⟨(i', j', k), ⟨d1, d2, by rw [h0]; exact c3⟩, ⟨h.1, h.2.1, rfl⟩, by rw [h.2.2]⟩
      · obtain ⟨t, t1, t2, t3⟩ := p4 _ _ c3 d3 h.2.2
        exact ⟨(i', j', t), ⟨d1, d2, by rw [h0]; exact t1⟩, ⟨h.1, h.2.1, t2⟩, by rw [t3]⟩
  · rintro b ⟨i, j, k⟩ ⟨i1, j1, k1⟩ ⟨i2, j2, k2⟩ ⟨c1, c2, c3⟩ - - e1 e2 e3 e4
    cases a <;> simp [along] at h0 <;> simp only [h0] at c1 c2 c3
    · cases b <;> simp only [Adjacent, half, Prod.mk.injEq] at e1 e2 e3
      · have : fold m i1 ≠ fold m i := fun H => e4 (by simp only [half]; rw [H, ← e1.2.1, ← e1.2.2])
        rw [p5 _ _ _ c1 e1.1 e2.1 e3.1 this, e3.2.1, e3.2.2]
      · rw [← e1.1, ← e2.1, e3.2.1, e3.2.2]
      · rw [← e1.1, ← e2.1, e3.2.1, e3.2.2]
    · cases b <;> simp only [Adjacent, half, Prod.mk.injEq] at e1 e2 e3
      · rw [← e1.2.1, ← e2.2.1, e3.1, e3.2.2]
      · have : fold m j1 ≠ fold m j := fun H => e4 (by simp only [half]; rw [H, ← e1.1, ← e1.2.2])
        rw [p5 _ _ _ c2 e1.2.1 e2.2.1 e3.2.1 this, e3.1, e3.2.2]
      · rw [← e1.2.1, ← e2.2.1, e3.1, e3.2.2]
    · cases b <;> simp only [Adjacent, half, Prod.mk.injEq] at e1 e2 e3
      · rw [← e1.2.2, ← e2.2.2, e3.1, e3.2.1]
      · rw [← e1.2.2, ← e2.2.2, e3.1, e3.2.1]
      · have : fold m k1 ≠ fold m k := fun H => e4 (by simp only [half]; rw [H, ← e1.1, ← e1.2.1])
        rw [p5 _ _ _ c3 e1.2.2 e2.2.2 e3.2.2 this, e3.1, e3.2.1]

section
variable {M M' : GridModel K} {φ : Cell → Cell} {s : Cell → K} {c c' : Ctx K} {m m' : Mdl K}

/-- **C80, partial.** A reservoir `M` whose cells lie over the cells of a smaller reservoir `M'` (`FoldLooks`: layers over one layer, a symmetric reservoir over its half), with conditions,
wells and initial pressures that do not differ between cells over the same cell (`FoldModel`; rates go with the size of the cell). Both are simulated for `N` steps with exact linear
solvers. Then at every step each cell of `M` has the pressure of the cell of `M'` below it.

Missing: wells that change their constraint (`C80_limits_partial` for those that reach their limits, `C80_limit_fails` for those that leave them), the vectorised assembler on three-dimensional grids (C35), and with gravity on inclined reservoirs (C37), unanchored
incompressible systems (no unique solution). -/
theorem C80_run_partial (hL : FoldLooks M M' φ s) (hM : M.Pos) (hM' : M'.Pos) (he : M.env = .ok c.e) (he' : M'.env = .ok c'.e) {vect : Bool}
    (hv : vect = true → M.g.getD ≠ 3 ∧ M'.g.getD ≠ 3 ∧ c.e.Flat ∧ c'.e.Flat ∧ RatesGiven m ∧ RatesGiven m') (hr : Ready c m) (hr' : Ready c' m') (hx : Exact c.lin) (hx' : Exact c'.lin)
    (han : Anchored c.e m) (h0 : FoldModel M M' φ s c.e c'.e m m') {f f' N : ℕ} {t t' : K}
    (hP : RunAll c Steady f vect N m { Sol.init m with nsteps := (Sol.init m).nsteps + N }) (hP' : RunAll c' Steady f' vect N m' { Sol.init m' with nsteps := (Sol.init m').nsteps + N })
    (h : (run c f vect N t m (Sol.init m)).2 = .ok ()) (h' : (run c' f' vect N t' m' (Sol.init m')).2 = .ok ()) :
    (run c f vect N t m (Sol.init m)).1.2.tstep = N ∧ (run c' f' vect N t' m' (Sol.init m')).1.2.tstep = N ∧
    ∀ k, (0 < k ∨ M.comp = true) → k ≤ N → ∀ x, Interior M.g.nx M.g.ny M.g.nz x →
      rowAt (run c f vect N t m (Sol.init m)).1.2.press k none (cellNumber M.g.nx M.g.ny x) =
        rowAt (run c' f' vect N t' m' (Sol.init m')).1.2.press k none (cellNumber M'.g.nx M'.g.ny (φ x)) := by
  obtain ⟨e1, -, -, -, -, -, -, -, -, e10, -⟩ := env_ok he
  obtain ⟨t1, t2, key⟩ := fold_run (el := t) (el' := t') (hL.folds hM hM' he he' (vect := vect) fun h => ⟨(hv h).1, (hv h).2.1⟩) (h0.folds hL hM hM' he he' hr.started.mdl hr'.started.mdl) hr hr' hx hx'
    (fun h => (hv h).2.2.2.2) (fun h => ⟨(hv h).2.2.1, (hv h).2.2.2.1⟩) han hP hP' h h'
  refine ⟨t1, t2, fun k hk hkN x hx => ?_⟩
  have := key k (by rw [e10]; exact hk) hkN (cellNumber M.g.nx M.g.ny x)
    (by rw [e1, mem_innerIds, show M.g.dec (cellNumber M.g.nx M.g.ny x) = x from M.g.dec_num (Interior.inGrid hx)]; exact hx)
  rw [renumber_cell φ (Interior.inGrid hx)] at this
  exact this

/-- **C80, fluxes, partial.** In the situation of `C80_run_partial`, the inflow recorded for a boundary cell `x` under a pressure condition is `s` times the inflow recorded for the boundary
cell below it. -/
theorem C80_fluxes_partial (hL : FoldLooks M M' φ s) (hM : M.Pos) (hM' : M'.Pos) (he : M.env = .ok c.e) (he' : M'.env = .ok c'.e) {vect : Bool}
    (hv : vect = true → M.g.getD ≠ 3 ∧ M'.g.getD ≠ 3 ∧ c.e.Flat ∧ c'.e.Flat ∧ RatesGiven m ∧ RatesGiven m') (hr : Ready c m) (hr' : Ready c' m') (hx : Exact c.lin) (hx' : Exact c'.lin)
    (han : Anchored c.e m) (h0 : FoldModel M M' φ s c.e c'.e m m') {f f' N : ℕ} {t t' : K}
    (hP : RunAll c Steady f vect N m { Sol.init m with nsteps := (Sol.init m).nsteps + N }) (hP' : RunAll c' Steady f' vect N m' { Sol.init m' with nsteps := (Sol.init m').nsteps + N })
    (h : (run c f vect N t m (Sol.init m)).2 = .ok ()) (h' : (run c' f' vect N t' m' (Sol.init m')).2 = .ok ()) {a : Axis} {x y : Cell} {v : K}
    (hxb : Boundary M.g.nx M.g.ny M.g.nz x) (hy : Interior M.g.nx M.g.ny M.g.nz y) (hxy : Adjacent a x y) (hb : (cellNumber M.g.nx M.g.ny x, "pressure", v) ∈ m.bdict) :
    ∀ k, 0 < k → k ≤ N → rowAt (run c f vect N t m (Sol.init m)).1.2.rates k 0 (cellNumber M.g.nx M.g.ny x) =
      s x * rowAt (run c' f' vect N t' m' (Sol.init m')).1.2.rates k 0 (cellNumber M'.g.nx M'.g.ny (φ x)) := by
  intro k h1 h2
  obtain ⟨t1, t2, key⟩ := C80_run_partial (t := t) (t' := t') hL hM hM' he he' hv hr hr' hx hx' han h0 hP hP' h h'
  obtain ⟨b1, b2, v', b3, b4⟩ := (h0.up a x y "pressure" v hxb hy hxy hb).resolve_left fun H => H.1 rfl
  rw [overValue, if_pos rfl] at b4
  subst b4
  obtain ⟨iso, hiso, hisoS⟩ := isIsotropic_eq hM.rock
  obtain ⟨iso', hiso', hisoS'⟩ := isIsotropic_eq hM'.rock
  have hii : iso' = iso := by rw [Bool.eq_iff_iff, hisoS, hisoS', hL.iso]
  subst hii
  have hf := bound_flow b1 (hL.layout.inner y hy) b2
  have r1 := run_fluxes hr hP h k h1 (by omega) _ _ _ _ hb (grid_face hM he hiso hxb hy (bound_flow hxb hy hxy) hxy)
  have r2 := run_fluxes hr' hP' h' k h1 (by omega) _ _ _ _ b3 (grid_face hM' he' hiso' b1 (hL.layout.inner y hy) hf b2)
  obtain ⟨-, -, -, -, -, -, -, -, -, -, -, e12, -, e14, -⟩ := env_ok he
  obtain ⟨-, -, -, -, -, -, -, -, -, -, -, e12', -, e14', -⟩ := env_ok he'
  have hw := hL.weight a x y hf hxb.1 (Interior.inGrid hy) hxy
  have hh := hL.head x y hxb.1 (Interior.inGrid hy)
  rw [r1, r2, key k (.inl h1) h2 y hy, hL.pairG hM' iso' hf hxb.1 (Interior.inGrid hy) hw, e12, e12', e14, e14, e14', e14', hh]
  ring

/-! ### particular cases -/

lemma along_pos (hM : M.Pos) {x : Cell} (hx : InGrid M.g.nx M.g.ny M.g.nz x) (a : Axis) : 0 < M.sizes.along x a := by
  cases a
  · exact hM.sizes.1 _ hx.1
  · exact hM.sizes.2.1 _ hx.2.1
  · exact hM.sizes.2.2 _ hx.2.2

/-- Layers perpendicular to `a` with the data of the single layer of `M'`; they may differ in thickness. -/
theorem looks_layers (hM : M.Pos) (hM' : M'.Pos) (a : Axis) (h1 : Spec.along M'.g.nx M'.g.ny M'.g.nz a = 1) (h2 : ∀ b, b ≠ a → Spec.along M'.g.nx M'.g.ny M'.g.nz b = Spec.along M.g.nx M.g.ny M.g.nz b)
    (hsz : ∀ b x, b ≠ a → InGrid M.g.nx M.g.ny M.g.nz x → M.sizes.along x b = M'.sizes.along (collapse a x) b)
    (hperm : ∀ b x, b ≠ a → InGrid M.g.nx M.g.ny M.g.nz x → perm M.g M.rock b x = perm M'.g M'.rock b (collapse a x))
    (hphi : ∀ x, Interior M.g.nx M.g.ny M.g.nz x → M.phi.getD (cellNumber M.g.nx M.g.ny x) 0 = M'.phi.getD (cellNumber M'.g.nx M'.g.ny (collapse a x)) 0)
    (hiso : IsoSpec M.g M.rock ↔ IsoSpec M'.g M'.rock) (hβ : M'.β = M.β) (hmu : M'.mu = M.mu) (hB : M'.B = M.B) (hcomp : M'.comp = M.comp) (hct : M'.ct = M.ct) (hvc : M'.vconv = M.vconv)
    (hdt : M'.dt = M.dt)
    (hhead : ∀ x y, InGrid M.g.nx M.g.ny M.g.nz x → InGrid M.g.nx M.g.ny M.g.nz y →
      M'.grav * (M'.depth.getD (cellNumber M'.g.nx M'.g.ny (collapse a x)) 0 - M'.depth.getD (cellNumber M'.g.nx M'.g.ny (collapse a y)) 0) =
        M.grav * (M.depth.getD (cellNumber M.g.nx M.g.ny x) 0 - M.depth.getD (cellNumber M.g.nx M.g.ny y) 0)) :
    FoldLooks M M' (collapse a) fun x => M.sizes.along x a / M'.sizes.along (collapse a x) a := by
  have hL := layout_collapse (g := M.g) (g' := M'.g) a h1 h2
  have hne : ∀ b, Flow M'.g.nx M'.g.ny M'.g.nz b → b ≠ a := by
    rintro b hb rfl
    unfold Flow at hb
    omega
  refine ⟨hL, fun x hx => div_pos (along_pos hM hx a) (along_pos hM' (hL.inGrid x hx) a), fun b x y hb hx hy hxy => ?_, fun b x hb hx => hperm b x (hne b hb) hx, fun b x hb hx => hsz b x (hne b hb) hx,
    fun b x hb hx => ?_, hiso, hβ, hmu, hB, hcomp, fun _ x hx => ?_, hhead⟩
  · have hb := hne b hb
    cases a <;> cases b <;> first | exact absurd rfl hb | (simp only [Adjacent] at hxy; simp only [Sizes.along, collapse, hxy])
  · have hb := hne b hb
    have hp := (along_pos hM' (hL.inGrid x hx) a).ne'
    have hs := fun d hd => hsz d x hd hx
    cases a <;> cases b <;> first
      | exact absurd rfl hb
      | (have q1 := hs .x; have q2 := hs .y; have q3 := hs .z
         simp only [ne_eq, reduceCtorEq, not_false_eq_true, not_true_eq_false, forall_true_left, IsEmpty.forall_iff] at q1 q2 q3
         simp only [Sizes.along, collapse] at q1 q2 q3 hp
         simp only [Sizes.area, Sizes.along, collapse, q1, q2, q3]
         field_simp)
  · have hx' := Interior.inGrid hx
    have hp := (along_pos hM' (hL.inGrid x hx') a).ne'
    have hs := fun d hd => hsz d x hd hx'
    have hph := hphi x hx
    have hr : M.sizes.along x a = M.sizes.along x a / M'.sizes.along (collapse a x) a * M'.sizes.along (collapse a x) a := (div_mul_cancel₀ _ hp).symm
    generalize M.sizes.along x a / M'.sizes.along (collapse a x) a = r at hr ⊢
    have key : M.sizes.volume x = r * M'.sizes.volume (collapse a x) := by
      clear hph
      cases a <;> (
        have q1 := hs .x; have q2 := hs .y; have q3 := hs .z
        simp only [ne_eq, reduceCtorEq, not_false_eq_true, not_true_eq_false, forall_true_left, IsEmpty.forall_iff] at q1 q2 q3
        simp only [Sizes.along, collapse] at q1 q2 q3 hr
        simp only [Sizes.volume, collapse, q1, q2, q3, hr]
        ring)
    unfold storageCoef
    rw [hph, hct, hvc, hB, hdt, key]
    ring

/-- The near half of a symmetric reservoir. -/
theorem looks_half (hm : 2 ≤ n) (a : Axis) (h0 : Spec.along M.g.nx M.g.ny M.g.nz a = 2 * n) (h1 : Spec.along M'.g.nx M'.g.ny M'.g.nz a = n)
    (h2 : ∀ b, b ≠ a → Spec.along M'.g.nx M'.g.ny M'.g.nz b = Spec.along M.g.nx M.g.ny M.g.nz b)
    (hsz : ∀ b x, InGrid M.g.nx M.g.ny M.g.nz x → M.sizes.along x b = M'.sizes.along (half n a x) b)
    (hperm : ∀ b x, Flow M'.g.nx M'.g.ny M'.g.nz b → InGrid M.g.nx M.g.ny M.g.nz x → perm M.g M.rock b x = perm M'.g M'.rock b (half n a x))
    (hphi : ∀ x, Interior M.g.nx M.g.ny M.g.nz x → M.phi.getD (cellNumber M.g.nx M.g.ny x) 0 = M'.phi.getD (cellNumber M'.g.nx M'.g.ny (half n a x)) 0)
    (hiso : IsoSpec M.g M.rock ↔ IsoSpec M'.g M'.rock) (hβ : M'.β = M.β) (hmu : M'.mu = M.mu) (hB : M'.B = M.B) (hcomp : M'.comp = M.comp) (hct : M'.ct = M.ct) (hvc : M'.vconv = M.vconv)
    (hdt : M'.dt = M.dt)
    (hhead : ∀ x y, InGrid M.g.nx M.g.ny M.g.nz x → InGrid M.g.nx M.g.ny M.g.nz y →
      M'.grav * (M'.depth.getD (cellNumber M'.g.nx M'.g.ny (half n a x)) 0 - M'.depth.getD (cellNumber M'.g.nx M'.g.ny (half n a y)) 0) =
        M.grav * (M.depth.getD (cellNumber M.g.nx M.g.ny x) 0 - M.depth.getD (cellNumber M.g.nx M.g.ny y) 0)) :
    FoldLooks M M' (half n a) fun _ => 1 := by
  refine ⟨layout_half a hm h0 h1 h2, fun _ _ => one_pos, fun _ _ _ _ _ _ _ => rfl, fun b x hb hx => hperm b x hb hx, fun b x _ hx => hsz b x hx, fun b x _ hx => ?_, hiso, hβ, hmu, hB, hcomp, fun _ x hx => ?_, hhead⟩
  · have q1 := hsz .x x hx; have q2 := hsz .y x hx; have q3 := hsz .z x hx
    simp only [Sizes.along] at q1 q2 q3
    cases b <;> simp only [Sizes.area, q1, q2, q3, one_mul]
  · have hx' := Interior.inGrid hx
    have q1 := hsz .x x hx'; have q2 := hsz .y x hx'; have q3 := hsz .z x hx'
    simp only [Sizes.along] at q1 q2 q3
    unfold storageCoef
    rw [hphi x hx, hct, hvc, hB, hdt, one_mul]
    simp only [Sizes.volume, q1, q2, q3]

end

/-! ### examples -/

/-- The cells of a padded grid. -/
def allCells (g : Dims) : List Cell := (List.range (g.getN true)).map g.dec

lemma mem_allCells {g : Dims} {c : Cell} (h : InGrid g.nx g.ny g.nz c) : c ∈ allCells g :=
  List.mem_map.2 ⟨g.num c, List.mem_range.2 (g.num_lt h), g.dec_num h⟩

/-- The axes. -/
def axes3 : List Axis := [.x, .y, .z]

lemma mem_axes3 (a : Axis) : a ∈ axes3 := by cases a <;> decide

instance (k : String) (v : ℚ) : Decidable (ClosedFace k v) := by unfold ClosedFace; infer_instance

/-- The checks of `WellOver`. -/
def wellOverB (s : ℚ) (e e' : Env ℚ) (w w' : Well ℚ) : Bool :=
  decide (w.con = w'.con) && decide (w.con = some .q → w.qsp = w'.qsp.map (s * ·)) && decide (w.con = some .pwf → w.pwfsp = w'.pwfsp ∧ windex e w = s * windex e' w')

lemma wellOver_of {s : ℚ} {e e' : Env ℚ} {w w' : Well ℚ} (h : wellOverB s e e' w w' = true) : WellOver s e e' w w' := by
  unfold wellOverB at h
  simp only [Bool.and_eq_true, decide_eq_true_eq] at h
  exact ⟨h.1.1, h.1.2, h.2⟩

/-- The checks of `FoldModel`. -/
def foldModelB (M M' : GridModel ℚ) (φ : Cell → Cell) (s : Cell → ℚ) (e e' : Env ℚ) (m m' : Mdl ℚ) : Bool :=
  (axes3.all fun a => (allCells M.g).all fun c => !decide (Interior M.g.nx M.g.ny M.g.nz c) ||
    ((m.bdict.all fun b => !decide (Adjacent a (M.g.dec b.1) c) || decide (ClosedFace b.2.1 b.2.2) ||
        (decide (Boundary M'.g.nx M'.g.ny M'.g.nz (φ (M.g.dec b.1))) && decide (Adjacent a (φ (M.g.dec b.1)) (φ c)) &&
          m'.bdict.any fun b' => decide (b'.1 = cellNumber M'.g.nx M'.g.ny (φ (M.g.dec b.1)) ∧ b'.2.1 = b.2.1 ∧ b.2.2 = overValue (s c) b.2.1 b'.2.2))) &&
      (m'.bdict.all fun b' => !decide (Adjacent a (M'.g.dec b'.1) (φ c)) || decide (ClosedFace b'.2.1 b'.2.2) ||
        (allCells M.g).any fun x => decide (Boundary M.g.nx M.g.ny M.g.nz x) && decide (Adjacent a x c) && decide (φ x = M'.g.dec b'.1) &&
          m.bdict.any fun b => decide (b = (cellNumber M.g.nx M.g.ny x, b'.2.1, overValue (s c) b'.2.1 b'.2.2))))) &&
  ((allCells M.g).all fun c => !decide (Interior M.g.nx M.g.ny M.g.nz c) ||
    ((m.wells.all fun w => !decide (w.1 = cellNumber M.g.nx M.g.ny c) || m'.wells.any fun w' => decide (w'.1 = cellNumber M'.g.nx M'.g.ny (φ c)) && wellOverB (s c) e e' w.2 w'.2) &&
      (m'.wells.all fun w' => !decide (w'.1 = cellNumber M'.g.nx M'.g.ny (φ c)) || m.wells.any fun w => decide (w.1 = cellNumber M.g.nx M.g.ny c)) &&
      decide (m.initP (cellNumber M.g.nx M.g.ny c) = m'.initP (cellNumber M'.g.nx M'.g.ny (φ c)))))

lemma foldModel_of {M M' : GridModel ℚ} {φ : Cell → Cell} {s : Cell → ℚ} {e e' : Env ℚ} {m m' : Mdl ℚ} (h : foldModelB M M' φ s e e' m m' = true) : FoldModel M M' φ s e e' m m' := by
  unfold foldModelB at h
  simp only [Bool.and_eq_true, List.all_eq_true, List.any_eq_true, Bool.or_eq_true, decide_eq_true_eq, Bool.not_eq_true', decide_eq_false_iff_not] at h
  obtain ⟨h1, h2⟩ := h
  have hdn : ∀ (g : Dims) c, InGrid g.nx g.ny g.nz c → g.dec (cellNumber g.nx g.ny c) = c := fun g c hc => g.dec_num hc
  refine ⟨fun a x c k v hx hc ha hb => ?_, fun a x' c k v' hx hc ha hb => ?_, fun c w hc hw => ?_, fun c w hc hw => ?_, fun _ c hc => ?_⟩
  · rcases ((h1 a (mem_axes3 a) c (mem_allCells (Interior.inGrid hc))).resolve_left fun H => H hc).1 _ hb with (H | H) | ⟨⟨p1, p2⟩, b', q1, q2, q3, q4⟩
    · simp only [hdn _ _ hx.1] at H
      exact absurd ha H
    · exact .inl H
    · simp only [hdn _ _ hx.1] at p1 p2 q2 q3 q4
      exact .inr ⟨p1, p2, b'.2.2, by rw [← q2, ← q3]; exact q1, q4⟩
  · rcases ((h1 a (mem_axes3 a) c (mem_allCells (Interior.inGrid hc))).resolve_left fun H => H hc).2 _ hb with (H | H) | ⟨x, -, ⟨⟨p1, p2⟩, p3⟩, b, q1, q2⟩
    · simp only [hdn _ _ hx.1] at H
      exact absurd ha H
    · exact .inl H
    · simp only [hdn _ _ hx.1] at p3
      exact .inr ⟨x, p1, p2, p3, q2 ▸ q1⟩
  · obtain ⟨w', q1, q2, q3⟩ := (((h2 c (mem_allCells (Interior.inGrid hc))).resolve_left fun H => H hc).1.1 _ hw).resolve_left fun H => H rfl
    exact ⟨w'.2, by rw [← q2]; exact q1, wellOver_of q3⟩
  · obtain ⟨w', q1, q2⟩ := (((h2 c (mem_allCells (Interior.inGrid hc))).resolve_left fun H => H hc).1.2 _ hw).resolve_left fun H => H rfl
    exact ⟨w'.2, by rw [← q2]; exact q1⟩
  · exact ((h2 c (mem_allCells (Interior.inGrid hc))).resolve_left fun H => H hc).2

/-- Two rows of two cells. -/
def g22 : Dims := ⟨2, 2, 1, true, by decide, by decide, by decide⟩

/-- The second row is twice as wide as the first. -/
def s22 : Sizes ℚ := ⟨.scalar 1, .list [1, 1, 2, 1], .scalar 1⟩

lemma ex22_calc : isOk (Geom.calc g22 s22.x s22.y s22.z) = true := by decide +kernel

/-- Unit properties. -/
def ex22M : GridModel ℚ :=
  { g := g22, sizes := s22, geom := getOk _ ex22_calc, rock := ones g22, β := 1, mu := 1, B := 1, grav := 0, depth := [], comp := true
    phi := List.replicate 16 1, ct := 1, vconv := 1, dt := 1, wellReq := fun _ => .ok 1, wellG := fun _ _ r _ => .ok r }

lemma ones_perm {g : Dims} (a : Axis) {c : Cell} (hc : InGrid g.nx g.ny g.nz c) : perm g (ones g) a c = 1 := by
  have : cellNumber g.nx g.ny c < g.getN true := g.num_lt hc
  cases a <;> simp [perm, ones, Rock.k, this]

lemma ones_iso (g : Dims) : IsoSpec g (ones g) := fun a _ c d hc hd => by rw [ones_perm a (Interior.inGrid hc), ones_perm a (Interior.inGrid hd)]

lemma ones_nonneg (g : Dims) : NonnegPerm g (ones g) := fun a c hc => by rw [ones_perm a hc]; exact zero_le_one

lemma ones_getD {n i : ℕ} (h : i < n) : (List.replicate n (1 : ℚ)).getD i 0 = 1 := by
  rw [List.getD_eq_getElem?_getD, List.getElem?_replicate_of_lt h]; rfl

lemma ex22M_pos : ex22M.Pos := by
  refine ⟨getOk_eq _ ex22_calc, ⟨fun _ _ => one_pos, fun i hi => ?_, fun _ _ => one_pos⟩, ones_set _, ones_pos _, ones_nonneg _, one_pos, one_pos, one_pos, one_pos, one_pos, fun c hc => ?_, fun _ => one_pos⟩
  · have : i < 4 := hi
    interval_cases i <;> decide +kernel
  · show (0 : ℚ) < (List.replicate 16 1).getD (cellNumber g22.nx g22.ny c) 0
    have : cellNumber g22.nx g22.ny c < 16 := g22.num_lt (Interior.inGrid hc)
    rw [ones_getD this]
    exact one_pos

lemma ex22M_ok : isOk ex22M.env = true := by decide +kernel

/-- Its environment, with a solver that knows two solutions. -/
def ex22C : Ctx ℚ := ⟨getOk _ ex22M_ok, fun s => s, fun _ _ => 1, twoLin (fun i => ([71/9, 67/9, 71/9, 67/9] : List ℚ).getD i 0) (fun i => ([632/81, 577/81, 632/81, 577/81] : List ℚ).getD i 0)⟩

lemma ex22C_ok : CtxOK ex22C := by
  refine ⟨⟨rfl, rfl⟩, ⟨ex22M, ex22M_pos, getOk_eq _ ex22M_ok⟩, ?_⟩
  intro a b; exact (one_ne_zero : (1 : ℚ) ≠ 0)

/-- One row: pressure 10 on the left, closed on the right, a well at pressure 4 and a well with rate -1. -/
def exOneRow : Mdl ℚ := exMdl true 0 [] (some 8) [(0, "pressure", 10), (3, "rate", 0)] [(1, { pwf := some 4, r := some 1 }), (2, { q := some (-1), pwf := some (-20), r := some 1 })]

/-- The same in both rows; in the wider row well indices and rates are doubled. -/
def exTwoRows : Mdl ℚ := mkMdl ex22C (some 8) [(4, "pressure", 10), (8, "pressure", 10), (7, "rate", 0)]
  [(5, { pwf := some 4, r := some 1 }), (9, { pwf := some 4, r := some 2 }), (6, { q := some (-1), pwf := some (-20), r := some 1 }), (10, { q := some (-2), pwf := some (-20), r := some 2 })]

lemma exOneRow_ready : Ready (exC true 0 []) exOneRow := exMdl_ready (by decide +kernel)
lemma exTwoRows_ready : Ready ex22C exTwoRows := mkMdl_ready ex22C_ok (fun _ => rfl) (by decide +kernel)

lemma exRow_iso : IsoSpec g2 exRock := by
  intro a ha c d hc hd
  rcases g2_cell (Interior.inGrid hc) with rfl | rfl | rfl | rfl <;> rcases g2_cell (Interior.inGrid hd) with rfl | rfl | rfl | rfl <;> cases a <;> decide +kernel

lemma exRock_perm {c : Cell} (hc : InGrid g2.nx g2.ny g2.nz c) : perm g2 exRock .x c = 1 := by
  rcases g2_cell hc with rfl | rfl | rfl | rfl <;> decide +kernel

lemma ex22_looks : FoldLooks ex22M (exM true 0 []) (collapse .y) fun x => size s22.y x.2.1 := by
  have hs : ∀ i, size s2.x i = 1 := fun _ => rfl
  have hL := layout_collapse (g := g22) (g' := g2) .y rfl (by intro b hb; cases b <;> first | rfl | exact absurd rfl hb)
  have hfl : ∀ b, Flow g2.nx g2.ny g2.nz b → b = .x := fun b hb => by cases b <;> simp [Flow, Spec.along, g2] at hb ⊢
  refine ⟨hL, fun x hx => ex22M_pos.sizes.2.1 _ hx.2.1, fun b x y hb _ _ hxy => ?_, fun b x hb hx => ?_, fun b x hb hx => ?_, fun b x hb hx => ?_, ⟨fun _ => exRow_iso, fun _ => ones_iso _⟩, rfl, rfl, rfl, rfl,
    fun _ x hx => ?_, fun x y _ _ => ?_⟩
  · rw [hfl b hb] at hxy
    simp only [Adjacent] at hxy
    rw [hxy.2.1]
  · rw [hfl b hb]
    exact (ones_perm .x hx).trans (exRock_perm (hL.inGrid x hx)).symm
  · rw [hfl b hb]; rfl
  · rw [hfl b hb]
    show size s22.y x.2.1 * 1 = size s22.y x.2.1 * (1 * 1)
    ring
  · have h1 : (List.replicate 16 (1 : ℚ)).getD (cellNumber g22.nx g22.ny x) 0 = 1 := ones_getD (show cellNumber g22.nx g22.ny x < g22.getN true from g22.num_lt (Interior.inGrid hx))
    have h2 : (List.replicate 4 (1 : ℚ)).getD (cellNumber g2.nx g2.ny (collapse .y x)) 0 = 1 := ones_getD (show _ < g2.getN true from g2.num_lt (hL.inGrid x (Interior.inGrid hx)))
    show 1 * size s22.y x.2.1 * 1 * (List.replicate 16 (1 : ℚ)).getD (cellNumber g22.nx g22.ny x) 0 * 1 / (1 * 1 * 1) = size s22.y x.2.1 * (1 * 1 * 1 * (List.replicate 4 (1 : ℚ)).getD (cellNumber g2.nx g2.ny (collapse .y x)) 0 * 1 / (1 * 1 * 1))
    rw [h1, h2]; ring
  · show (0 : ℚ) * _ = 0 * _
    rw [zero_mul, zero_mul]

/-- Both rows have the pressures of the single row. -/
example (vect : Bool) : ∀ k, k ≤ 2 → ∀ x, Interior 2 2 1 x →
    rowAt (run ex22C 10 vect 2 0 exTwoRows (Sol.init exTwoRows)).1.2.press k none (cellNumber 2 2 x) = rowAt (run (exC true 0 []) 10 vect 2 0 exOneRow (Sol.init exOneRow)).1.2.press k none (cellNumber 2 1 (collapse .y x)) := by
  have := (C80_run_partial (c := ex22C) (c' := exC true 0 []) (m := exTwoRows) (m' := exOneRow) (f := 10) (f' := 10) (N := 2) (t := 0) (t' := 0) (vect := vect) ex22_looks ex22M_pos (exM_pos _ _ _) (getOk_eq _ ex22M_ok)
    (exE_env _ _ _) (fun _ => ⟨by decide +kernel, by decide +kernel, .inl (by decide +kernel), ex_flat _, by decide +kernel, by decide +kernel⟩) exTwoRows_ready exOneRow_ready (twoLin_exact _ _) cramer_exact
    (.inl (by decide +kernel)) (foldModel_of (by decide +kernel)) (runSteadyB_all (by cases vect <;> decide +kernel)) (runSteadyB_all (by cases vect <;> decide +kernel))
    (isOk_unit (by cases vect <;> decide +kernel)) (isOk_unit (by cases vect <;> decide +kernel))).2.2
  exact fun k hk x hx => this k (.inr rfl) hk x hx

/-- A solver that knows some solutions. -/
def listLin (xs : List (List ℚ)) : LinSolver ℚ := fun n A d =>
  match xs.find? fun x => decide (∀ i < n, ∑ j ∈ Finset.range n, A i j * x.getD j 0 = d i) with
  | some x => .ok fun i => x.getD i 0
  | none => .error .value

lemma listLin_exact (xs : List (List ℚ)) : Exact (listLin xs) := by
  intro n A d x h
  unfold listLin at h
  cases hf : xs.find? fun x => decide (∀ i < n, ∑ j ∈ Finset.range n, A i j * x.getD j 0 = d i) with
  | none => rw [hf] at h; cases h
  | some y =>
    rw [hf] at h
    cases h
    have := List.find?_some hf
    rw [decide_eq_true_eq] at this
    exact this

/-- A row of four cells. -/
def g4 : Dims := ⟨4, 1, 1, true, by decide, by decide, by decide⟩

lemma ex4_calc : isOk (Geom.calc (K := ℚ) g4 s2.x s2.y s2.z) = true := by decide +kernel

/-- Unit properties. -/
def ex4M : GridModel ℚ :=
  { g := g4, sizes := s2, geom := getOk _ ex4_calc, rock := ones g4, β := 1, mu := 1, B := 1, grav := 0, depth := [], comp := true
    phi := List.replicate 6 1, ct := 1, vconv := 1, dt := 1, wellReq := fun _ => .ok 1, wellG := fun _ _ r _ => .ok r }

lemma ex4M_pos : ex4M.Pos := by
  refine ⟨getOk_eq _ ex4_calc, ⟨fun _ _ => one_pos, fun _ _ => one_pos, fun _ _ => one_pos⟩, ones_set _, ones_pos _, ones_nonneg _, one_pos, one_pos, one_pos, one_pos, one_pos, fun c hc => ?_, fun _ => one_pos⟩
  show (0 : ℚ) < (List.replicate 6 1).getD (cellNumber g4.nx g4.ny c) 0
  have : cellNumber g4.nx g4.ny c < 6 := g4.num_lt (Interior.inGrid hc)
  rw [ones_getD this]
  exact one_pos

lemma ex4M_ok : isOk ex4M.env = true := by decide +kernel

/-- Its environment, with a solver that knows some solutions. -/
def ex4C (xs : List (List ℚ)) : Ctx ℚ := ⟨getOk _ ex4M_ok, fun s => s, fun _ _ => 1, listLin xs⟩

lemma ex4C_ok (xs : List (List ℚ)) : CtxOK (ex4C xs) := by
  refine ⟨⟨rfl, rfl⟩, ⟨ex4M, ex4M_pos, getOk_eq _ ex4M_ok⟩, ?_⟩
  intro a b; exact (one_ne_zero : (1 : ℚ) ≠ 0)

/-- `exOneRow` and its mirror image. -/
def exWhole : Mdl ℚ := mkMdl (ex4C [[71/9, 67/9, 67/9, 71/9], [632/81, 577/81, 577/81, 632/81]]) (some 8) [(0, "pressure", 10), (5, "pressure", 10)]
  [(1, { pwf := some 4, r := some 1 }), (2, { q := some (-1), pwf := some (-20), r := some 1 }), (4, { pwf := some 4, r := some 1 }), (3, { q := some (-1), pwf := some (-20), r := some 1 })]

lemma exWhole_ready : Ready (ex4C [[71/9, 67/9, 67/9, 71/9], [632/81, 577/81, 577/81, 632/81]]) exWhole := mkMdl_ready (ex4C_ok _) (fun _ => rfl) (by decide +kernel)

lemma ex4_looks : FoldLooks ex4M (exM true 0 []) (half 2 .x) fun _ => 1 := by
  have h2 : ∀ b, b ≠ Axis.x → Spec.along g2.nx g2.ny g2.nz b = Spec.along g4.nx g4.ny g4.nz b := by intro b hb; cases b <;> first | rfl | exact absurd rfl hb
  have hL := layout_half (g := g4) (g' := g2) (m := 2) .x le_rfl rfl rfl h2
  refine looks_half (n := 2) le_rfl .x rfl rfl h2 (fun b x _ => by cases b <;> rfl) (fun b x hb hx => ?_) (fun x hx => ?_) ⟨fun _ => exRow_iso, fun _ => ones_iso _⟩ rfl rfl rfl rfl rfl rfl rfl fun x y _ _ => ?_
  · have : b = .x := by cases b <;> simp [Flow, Spec.along, exM, g2] at hb ⊢
    rw [this]
    exact (ones_perm .x hx).trans (exRock_perm (hL.inGrid x hx)).symm
  · have h1 : cellNumber g4.nx g4.ny x < 6 := g4.num_lt (Interior.inGrid hx)
    have h2 : cellNumber g2.nx g2.ny (half 2 .x x) < 4 := g2.num_lt (hL.inGrid x (Interior.inGrid hx))
    exact (ones_getD h1).trans (ones_getD h2).symm
  · show (0 : ℚ) * _ = 0 * _
    rw [zero_mul, zero_mul]

/-- The half has the pressures of the whole. -/
example (vect : Bool) : ∀ k, k ≤ 2 → ∀ x, Interior 4 1 1 x →
    rowAt (run (ex4C [[71/9, 67/9, 67/9, 71/9], [632/81, 577/81, 577/81, 632/81]]) 10 vect 2 0 exWhole (Sol.init exWhole)).1.2.press k none (cellNumber 4 1 x) =
      rowAt (run (exC true 0 []) 10 vect 2 0 exOneRow (Sol.init exOneRow)).1.2.press k none (cellNumber 2 1 (half 2 .x x)) := by
  have := (C80_run_partial (c := ex4C [[71/9, 67/9, 67/9, 71/9], [632/81, 577/81, 577/81, 632/81]]) (c' := exC true 0 []) (m := exWhole) (m' := exOneRow) (f := 10) (f' := 10) (N := 2) (t := 0) (t' := 0)
    (vect := vect) ex4_looks ex4M_pos (exM_pos _ _ _) (getOk_eq _ ex4M_ok) (exE_env _ _ _)
    (fun _ => ⟨by decide +kernel, by decide +kernel, .inl (by decide +kernel), ex_flat _, by decide +kernel, by decide +kernel⟩) exWhole_ready exOneRow_ready (listLin_exact _) cramer_exact
    (.inl (by decide +kernel)) (foldModel_of (by decide +kernel)) (runSteadyB_all (by cases vect <;> decide +kernel)) (runSteadyB_all (by cases vect <;> decide +kernel))
    (isOk_unit (by cases vect <;> decide +kernel)) (isOk_unit (by cases vect <;> decide +kernel))).2.2
  exact fun k hk x hx => this k (.inr rfl) hk x hx

/-- The inflow over the second end of the row is that over the end of the half. -/
example (vect : Bool) : ∀ k, 0 < k → k ≤ 2 →
    rowAt (run (ex4C [[71/9, 67/9, 67/9, 71/9], [632/81, 577/81, 577/81, 632/81]]) 10 vect 2 0 exWhole (Sol.init exWhole)).1.2.rates k 0 5 =
      1 * rowAt (run (exC true 0 []) 10 vect 2 0 exOneRow (Sol.init exOneRow)).1.2.rates k 0 0 :=
  C80_fluxes_partial (c := ex4C [[71/9, 67/9, 67/9, 71/9], [632/81, 577/81, 577/81, 632/81]]) (c' := exC true 0 []) (m := exWhole) (m' := exOneRow) (f := 10) (f' := 10) (N := 2) (t := 0) (t' := 0)
    (vect := vect) ex4_looks ex4M_pos (exM_pos _ _ _) (getOk_eq _ ex4M_ok) (exE_env _ _ _)
    (fun _ => ⟨by decide +kernel, by decide +kernel, .inl (by decide +kernel), ex_flat _, by decide +kernel, by decide +kernel⟩) exWhole_ready exOneRow_ready (listLin_exact _) cramer_exact
    (.inl (by decide +kernel)) (foldModel_of (by decide +kernel)) (runSteadyB_all (by cases vect <;> decide +kernel)) (runSteadyB_all (by cases vect <;> decide +kernel))
    (isOk_unit (by cases vect <;> decide +kernel)) (isOk_unit (by cases vect <;> decide +kernel)) (a := .x) (x := (5, 0, 0)) (y := (4, 0, 0)) (v := 10) (by decide +kernel) (by decide +kernel)
    (by decide +kernel) (by decide +kernel)

/-- The solutions met in the first step of `exSwitch`. -/
def exSwitchX : List (List ℚ) := [[-19/3, -41/3, -41/3, -19/3], [-107/34, -423/34, -224/17, -207/34], [78/49, 87/49, -367/49, -159/49], [196/71, 375/71, 381/71, 226/71]]

/-- Two pairs of wells that are images of each other. All four ask for more than their limits allow. -/
def exSwitch : Mdl ℚ := mkMdl (ex4C exSwitchX) (some 9) []
  [(1, { q := some (-8), pwf := some (-6), r := some 1 }), (2, { q := some (-30), pwf := some 4, r := some 1 }), (3, { q := some (-30), pwf := some 4, r := some 1 }), (4, { q := some (-8), pwf := some (-6), r := some 1 })]

/-- The near half. -/
def exSwitchHalf : Mdl ℚ := exMdl true 0 [] (some 9) [] [(1, { q := some (-8), pwf := some (-6), r := some 1 }), (2, { q := some (-30), pwf := some 4, r := some 1 })]

/-- **C80 fails with limits.** A reservoir that is its own mirror image, wells and their limits included, does not have the pressures of its half: when limits are reached the wells are
changed one after the other, a well that has been put on its limit too early is not solved again, and so its image, reached later, is treated differently. The last line: not even the
pressures of the whole are symmetric. -/
theorem C80_limit_fails (vect : Bool) : ∃ (c c' : Ctx ℚ) (M M' : GridModel ℚ) (m m' : Mdl ℚ), FoldLooks M M' (half 2 .x) (fun _ => 1) ∧ M.Pos ∧ M'.Pos ∧ M.env = .ok c.e ∧ M'.env = .ok c'.e ∧
    (vect = true → M.g.getD ≠ 3 ∧ M'.g.getD ≠ 3 ∧ c.e.Flat ∧ c'.e.Flat ∧ RatesGiven m ∧ RatesGiven m') ∧ Ready c m ∧ Ready c' m' ∧ Exact c.lin ∧ Exact c'.lin ∧ Anchored c.e m ∧
    FoldModel M M' (half 2 .x) (fun _ => 1) c.e c'.e m m' ∧ m.wells.map (fun w => (w.2.qsp, w.2.pwfsp)) = (m'.wells ++ m'.wells.reverse).map (fun w => (w.2.qsp, w.2.pwfsp)) ∧
    (run c 10 vect 1 0 m (Sol.init m)).2 = .ok () ∧ (run c' 10 vect 1 0 m' (Sol.init m')).2 = .ok () ∧
    (∃ x, Interior M.g.nx M.g.ny M.g.nz x ∧ rowAt (run c 10 vect 1 0 m (Sol.init m)).1.2.press 1 none (cellNumber M.g.nx M.g.ny x) ≠
      rowAt (run c' 10 vect 1 0 m' (Sol.init m')).1.2.press 1 none (cellNumber M'.g.nx M'.g.ny (half 2 .x x))) ∧
    rowAt (run c 10 vect 1 0 m (Sol.init m)).1.2.press 1 none (cellNumber M.g.nx M.g.ny (1, 0, 0)) ≠ rowAt (run c 10 vect 1 0 m (Sol.init m)).1.2.press 1 none (cellNumber M.g.nx M.g.ny (4, 0, 0)) :=
  ⟨ex4C exSwitchX, exC true 0 [], ex4M, exM true 0 [], exSwitch, exSwitchHalf, ex4_looks, ex4M_pos, exM_pos _ _ _, getOk_eq _ ex4M_ok, exE_env _ _ _,
    fun _ => ⟨by decide +kernel, by decide +kernel, .inl (by decide +kernel), ex_flat _, by decide +kernel, by decide +kernel⟩, mkMdl_ready (ex4C_ok _) (fun _ => rfl) (by decide +kernel),
    exMdl_ready (by decide +kernel), listLin_exact _, cramer_exact, .inl (by decide +kernel), foldModel_of (by decide +kernel), by decide +kernel, isOk_unit (by cases vect <;> decide +kernel),
    isOk_unit (by cases vect <;> decide +kernel), ⟨(4, 0, 0), by decide +kernel, by cases vect <;> decide +kernel⟩, by cases vect <;> decide +kernel⟩

end RF.Fdm
