import Verif.Fdm.SimGrid
import Verif.Fdm.Examples2
import Verif.Fdm.PropsPressure
/-!
# C78: the same reservoir described differently

A reservoir can be described in many ways: seen from the other side, with axes exchanged, in other units, with another pressure datum. Its simulation must not depend on the
description. Also: a thicker reservoir produces proportionally more, a doubled drawdown doubles the rates.
-/
set_option linter.unusedSectionVars false
namespace RF.Fdm
open RF RF.Dims RF.Spec Finset

variable {K : Type} [Field K] [LinearOrder K] [IsStrictOrderedRing K]

/-! ### ways to look at a grid -/

/-- A coordinate counted from the other end. -/
def flip (n i : ℕ) : ℕ := if 1 < n then n + 1 - i else i

/-- The cell seen in a mirror perpendicular to an axis. -/
def mirror (g : Dims) : Axis → Cell → Cell
  | .x, c => (flip g.nx c.1, c.2.1, c.2.2) | .y, c => (c.1, flip g.ny c.2.1, c.2.2) | .z, c => (c.1, c.2.1, flip g.nz c.2.2)

/-- x and y exchanged. -/
def swapXY : Cell → Cell := fun c => (c.2.1, c.1, c.2.2)
def axisXY : Axis → Axis | .x => .y | .y => .x | .z => .z

/-- y and z exchanged. -/
def swapYZ : Cell → Cell := fun c => (c.1, c.2.2, c.2.1)
def axisYZ : Axis → Axis | .x => .x | .y => .z | .z => .y

lemma flip_pad {n i : ℕ} (h : i < padded n) : flip n i < padded n := by unfold flip padded at *; split_ifs at * <;> omega
lemma flip_flip {n i : ℕ} (h : i < padded n) : flip n (flip n i) = i := by unfold flip padded at *; split_ifs at * <;> omega
lemma flip_inner {n i : ℕ} (h : i < padded n) : innerCoord n (flip n i) ↔ innerCoord n i := by unfold flip padded innerCoord at *; split_ifs at * <;> omega
lemma flip_near {n i j : ℕ} (hi : i < padded n) (hj : j < padded n) : near (flip n i) (flip n j) ↔ near i j := by unfold flip padded near at *; split_ifs at * <;> omega
lemma flip_inj {n i j : ℕ} (hi : i < padded n) (hj : j < padded n) : flip n i = flip n j ↔ i = j := by unfold flip padded at *; split_ifs at * <;> omega

/-- The same grid, seen in a mirror. -/
theorem layout_mirror (g : Dims) (a : Axis) : Layout g g (mirror g a) id := by
  have hin : ∀ c, InGrid g.nx g.ny g.nz c → InGrid g.nx g.ny g.nz (mirror g a c) := by
    rintro ⟨i, j, k⟩ ⟨h1, h2, h3⟩
    cases a
    · exact ⟨flip_pad h1, h2, h3⟩
    · exact ⟨h1, flip_pad h2, h3⟩
    · exact ⟨h1, h2, flip_pad h3⟩
  have hmm : ∀ c, InGrid g.nx g.ny g.nz c → mirror g a (mirror g a c) = c := by
    rintro ⟨i, j, k⟩ ⟨h1, h2, h3⟩
    cases a
    · exact Prod.ext (flip_flip h1) rfl
    · exact Prod.ext rfl (Prod.ext (flip_flip h2) rfl)
    · exact Prod.ext rfl (Prod.ext rfl (flip_flip h3))
  refine ⟨hin, ?_, fun c d hc hd h => ?_, fun c hc => ⟨mirror g a c, hin c hc, hmm c hc⟩, fun b => ⟨b, rfl⟩, fun _ => Iff.rfl, ?_⟩
  · rintro ⟨i, j, k⟩ ⟨h1, h2, h3⟩
    cases a
    · exact and_congr_left fun _ => flip_inner h1
    · exact and_congr_right fun _ => and_congr_left fun _ => flip_inner h2
    · exact and_congr_right fun _ => and_congr_right fun _ => flip_inner h3
  · rw [← hmm c hc, h, hmm d hd]
  · rintro b ⟨i, j, k⟩ ⟨i', j', k'⟩ ⟨h1, h2, h3⟩ ⟨h1', h2', h3'⟩
    cases a <;> cases b <;> simp only [id, Adjacent, mirror] <;>
      simp only [flip_near h1 h1', flip_near h2 h2', flip_near h3 h3', flip_inj h1 h1', flip_inj h2 h2', flip_inj h3 h3']

/-- The grid with x and y exchanged. -/
theorem layout_swapXY {g g' : Dims} (hx : g'.nx = g.ny) (hy : g'.ny = g.nx) (hz : g'.nz = g.nz) : Layout g g' swapXY axisXY := by
  refine ⟨?_, ?_, ?_, ?_, ?_, ?_, ?_⟩
  · rintro ⟨i, j, k⟩ ⟨h1, h2, h3⟩
    rw [hx, hy, hz]; exact ⟨h2, h1, h3⟩
  · rintro ⟨i, j, k⟩ -
    rw [hx, hy, hz]
    exact ⟨fun ⟨a, b, c⟩ => ⟨b, a, c⟩, fun ⟨a, b, c⟩ => ⟨b, a, c⟩⟩
  · rintro ⟨i, j, k⟩ ⟨i', j', k'⟩ - - h
    simp only [swapXY, Prod.mk.injEq] at h ⊢
    exact ⟨h.2.1, h.1, h.2.2⟩
  · rintro ⟨i, j, k⟩ ⟨h1, h2, h3⟩
    rw [hx] at h1; rw [hy] at h2; rw [hz] at h3
    exact ⟨(j, i, k), ⟨h2, h1, h3⟩, rfl⟩
  · intro a
    cases a
    · exact ⟨.y, rfl⟩
    · exact ⟨.x, rfl⟩
    · exact ⟨.z, rfl⟩
  · intro a
    cases a <;> simp only [Flow, RF.Spec.along, axisXY, hx, hy, hz]
  · rintro a ⟨i, j, k⟩ ⟨i', j', k'⟩ - -
    cases a <;> simp only [Adjacent, axisXY, swapXY] <;> tauto

/-- The grid with y and z exchanged. -/
theorem layout_swapYZ {g g' : Dims} (hx : g'.nx = g.nx) (hy : g'.ny = g.nz) (hz : g'.nz = g.ny) : Layout g g' swapYZ axisYZ := by
  refine ⟨?_, ?_, ?_, ?_, ?_, ?_, ?_⟩
  · rintro ⟨i, j, k⟩ ⟨h1, h2, h3⟩
    rw [hx, hy, hz]; exact ⟨h1, h3, h2⟩
  · rintro ⟨i, j, k⟩ -
    rw [hx, hy, hz]
    exact ⟨fun ⟨a, b, c⟩ => ⟨a, c, b⟩, fun ⟨a, b, c⟩ => ⟨a, c, b⟩⟩
  · rintro ⟨i, j, k⟩ ⟨i', j', k'⟩ - - h
    simp only [swapYZ, Prod.mk.injEq] at h ⊢
    exact ⟨h.1, h.2.2, h.2.1⟩
  · rintro ⟨i, j, k⟩ ⟨h1, h2, h3⟩
    rw [hx] at h1; rw [hy] at h2; rw [hz] at h3
    exact ⟨(i, k, j), ⟨h1, h3, h2⟩, rfl⟩
  · intro a
    cases a
    · exact ⟨.x, rfl⟩
    · exact ⟨.z, rfl⟩
    · exact ⟨.y, rfl⟩
  · intro a
    cases a <;> simp only [Flow, RF.Spec.along, axisYZ, hx, hy, hz]
  · rintro a ⟨i, j, k⟩ ⟨i', j', k'⟩ - -
    cases a <;> simp only [Adjacent, axisYZ, swapYZ] <;> tauto

/-- Ways of looking at a grid can be combined: mirrors and exchanges give all orientations. -/
theorem Layout.trans {g g' g'' : Dims} {φ φ' : Cell → Cell} {π π' : Axis → Axis} (h : Layout g g' φ π) (h' : Layout g' g'' φ' π') : Layout g g'' (φ' ∘ φ) (π' ∘ π) := by
  refine ⟨fun c hc => h'.inGrid _ (h.inGrid c hc), fun c hc => (h'.inner _ (h.inGrid c hc)).trans (h.inner c hc),
    fun c d hc hd H => h.inj c d hc hd (h'.inj _ _ (h.inGrid c hc) (h.inGrid d hd) H), fun c'' hc => ?_, h'.axes.comp h.axes, fun a => (h'.flow _).trans (h.flow a),
    fun a c d hc hd => (h'.adj _ _ _ (h.inGrid c hc) (h.inGrid d hd)).trans (h.adj a c d hc hd)⟩
  obtain ⟨c', hc', rfl⟩ := h'.surj c'' hc
  obtain ⟨c, hc1, rfl⟩ := h.surj c' hc'
  exact ⟨c, hc1, rfl⟩

/-- The grid as it is. -/
theorem layout_same {g g' : Dims} (hx : g'.nx = g.nx) (hy : g'.ny = g.ny) (hz : g'.nz = g.nz) : Layout g g' id id := by
  refine ⟨?_, ?_, fun _ _ _ _ h => h, ?_, fun a => ⟨a, rfl⟩, ?_, fun _ _ _ _ _ => Iff.rfl⟩
  · intro c hc; rw [hx, hy, hz]; exact hc
  · intro c _; rw [hx, hy, hz]; rfl
  · intro c hc; rw [hx, hy, hz] at hc; exact ⟨c, hc, rfl⟩
  · intro a; cases a <;> simp only [Flow, RF.Spec.along, id, hx, hy, hz]

/-! ### the theorem -/

section
variable {M M' : GridModel K} {φ : Cell → Cell} {π : Axis → Axis} {α β sk sA sd : K} {c c' : Ctx K} {m0 m0' : Mdl K}

/-- What the two simulations have to do with each other, in terms of cells. -/
structure SameStory (M M' : GridModel K) (φ : Cell → Cell) (α β ℓ : K) (m0 : Mdl K) (m m' : Mdl K) (s s' : Sol K) : Prop where
  steps : s'.tstep = s.tstep
  pressures : ∀ t, (0 < t ∨ M.comp = true) → ∀ x, Interior M.g.nx M.g.ny M.g.nz x →
    rowAt s'.press t none (cellNumber M'.g.nx M'.g.ny (φ x)) = (rowAt s.press t none (cellNumber M.g.nx M.g.ny x)).map fun p => α * p + β
  rates : ∀ t x, Interior M.g.nx M.g.ny M.g.nz x → rowAt s'.rates t 0 (cellNumber M'.g.nx M'.g.ny (φ x)) = α * ℓ * rowAt s.rates t 0 (cellNumber M.g.nx M.g.ny x)
  faces : ∀ t x, InGrid M.g.nx M.g.ny M.g.nz x → cellNumber M.g.nx M.g.ny x ∈ m0.bdict.map (·.1) →
    rowAt s'.rates t 0 (cellNumber M'.g.nx M'.g.ny (φ x)) = α * ℓ * rowAt s.rates t 0 (cellNumber M.g.nx M.g.ny x)
  wells : List.Forall₂ (fun w w' => w'.1 = renumber M.g M'.g φ w.1 ∧ w'.2.con = w.2.con ∧ w'.2.q = w.2.q.map (fun q => α * ℓ * q) ∧ w'.2.pwf = w.2.pwf.map fun p => α * p + β) m.wells m'.wells
  holes : List.Forall₂ (fun w w' => w'.1 = renumber M.g M'.g φ w.1 ∧ w'.2 = w.2.map (Option.map fun p => α * p + β)) m.wPress m'.wPress

lemma RunSim.story {ℓ : K} {e e' : Env K} (he : M.env = .ok e) {m m' : Mdl K} {s s' : Sol K} (hb : m.bdict = m0.bdict) (h : RunSim (renumber M.g M'.g φ) α β ℓ e e' m m' s s') :
    SameStory M M' φ α β ℓ m0 m m' s s' := by
  obtain ⟨e1, -, -, -, -, -, -, -, -, e10, -⟩ := env_ok he
  have hmem : ∀ x, Interior M.g.nx M.g.ny M.g.nz x → cellNumber M.g.nx M.g.ny x ∈ e.ids := fun x hx => by
    rw [e1, mem_innerIds, show M.g.dec (cellNumber M.g.nx M.g.ny x) = x from M.g.dec_num (Interior.inGrid hx)]; exact hx
  refine ⟨h.tstep, fun t ht x hx => ?_, fun t x hx => ?_, fun t x hx hxb => ?_, h.wells.imp fun w w' hw => ⟨hw.1, hw.2.con, hw.2.q, hw.2.pwf⟩,
    h.wPress.imp fun w w' hw => hw.2⟩
  · have := h.press t (by rw [e10]; exact ht) _ (hmem x hx)
    rw [renumber_cell φ (Interior.inGrid hx)] at this; exact this
  · have := h.rates t _ (.inl (hmem x hx))
    rw [renumber_cell φ (Interior.inGrid hx)] at this; exact this
  · have := h.rates t (cellNumber M.g.nx M.g.ny x) (.inr (by rw [hb]; exact hxb))
    rw [renumber_cell φ hx] at this; exact this

/-- **C78, partial.** Two reservoirs with positive data of which the second is the first one laid out differently (`Layout`: mirrored, axes exchanged, …), with permeabilities,
areas and lengths multiplied by constants, gravity heads multiplied by `α`, and correspondingly transformed initial pressures, boundary conditions and wells (pressures
`α p + β`, rates `α ℓ q`, where `ℓ` is what conductances are multiplied by). If `n` steps of both are simulated with the same assembler and exact linear solvers, then at
every step the pressures, rates and wells correspond in the same way.

Missing: attempts in which a well leaves its pressure limit (there the code's equations are not the balances, C36), the vectorised assembler on three-dimensional grids
(`C78_three_d_fails`) and with gravity on inclined reservoirs (C37), unanchored incompressible systems (no unique solution). -/
theorem C78_run_partial (hL : Looks M M' φ π α sk sA sd) (hM : M.Pos) (hM' : M'.Pos) (hα : 0 < α) (hk : 0 < sk) (hA : 0 < sA) (hd : 0 < sd) (he : M.env = .ok c.e) (he' : M'.env = .ok c'.e)
    {vect : Bool} (hv : vect = true → M.g.getD ≠ 3 ∧ M'.g.getD ≠ 3 ∧ c.e.Flat) (hr : Ready c m0) (hr' : Ready c' m0') (hx : Exact c.lin) (hx' : Exact c'.lin) (han : Anchored c.e m0)
    (h0 : ModelSim (renumber M.g M'.g φ) α β (condScale M M' sk sA sd) vect c.e c'.e m0 m0') (hz : vect = true → β = 0 ∨ ∀ w, w ∈ m0'.wells → w.2.pwfsp ≠ some 0)
    {fuel fuel' n : ℕ} {t t' : K} (hP : RunAll c Calm fuel vect n m0 { Sol.init m0 with nsteps := (Sol.init m0).nsteps + n })
    (h : (run c fuel vect n t m0 (Sol.init m0)).2 = .ok ()) (h' : (run c' fuel' vect n t' m0' (Sol.init m0')).2 = .ok ()) :
    SameStory M M' φ α β (condScale M M' sk sA sd) m0 (run c fuel vect n t m0 (Sol.init m0)).1.1 (run c' fuel' vect n t' m0' (Sol.init m0')).1.1
      (run c fuel vect n t m0 (Sol.init m0)).1.2 (run c' fuel' vect n t' m0' (Sol.init m0')).1.2 := by
  have hS := hL.similar hM hM' hk hA hd he he' (vect := vect) fun hv' => ⟨(hv hv').1, (hv hv').2.1⟩
  have hℓ := condScale_pos hM hM' hk hA hd
  have hi0 := init_sim h0
  have hi : RunSim (renumber M.g M'.g φ) α β (condScale M M' sk sA sd) c.e c'.e m0 m0' { Sol.init m0 with nsteps := (Sol.init m0).nsteps + n } { Sol.init m0' with nsteps := (Sol.init m0').nsteps + n } :=
    ⟨hi0.tstep, hi0.wells, hi0.wPress, hi0.press, hi0.rates⟩
  have hh := Hist.run hr.ctx.lower hr.ctx.wf hr.started.mdl n t (.start (c := c) (P := Calm) (m0 := m0)) hP
  have key := fun a b => runLoop_sim (fuel := fuel) (fuel' := fuel') hα hℓ hS hr hr' hx hx' (fun hv' => (hv hv').2.2) han h0 hz (.clock _ _ .start) (.clock _ _ .start) hi n hP a b
  have hb := (hr.inv hh).same.bdict
  unfold Fdm.run at h h' hb ⊢
  rcases e1 : runLoop c fuel vect n m0 { Sol.init m0 with nsteps := (Sol.init m0).nsteps + n } with ⟨⟨m1, s1⟩, x | ⟨⟩⟩
  · rw [e1] at h; simp at h
  rcases e2 : runLoop c' fuel' vect n m0' { Sol.init m0' with nsteps := (Sol.init m0').nsteps + n } with ⟨⟨m1', s1'⟩, x | ⟨⟩⟩
  · rw [e2] at h'; simp at h'
  rw [e1] at hb
  obtain ⟨k, -⟩ := key (by rw [e1]) (by rw [e2])
  rw [e1, e2] at k
  exact RunSim.story he hb ⟨k.tstep, k.wells, k.wPress, k.press, k.rates⟩

lemma Similar.held {σ : ℕ → ℕ} {ℓ : K} {vect : Bool} {e e' : Env K} (hS : Similar σ α ℓ vect e e') (hℓ : 0 < ℓ) (hα : 0 < α) (hm : MdlOK e m0)
    (h0 : ModelSim σ α β ℓ vect e e' m0 m0') (hz : β = 0 ∨ ∀ w, w ∈ m0'.wells → w.2.pwfsp ≠ some 0) (h : Held e m0) : Held e' m0' := by
  rcases h with h | ⟨b, id, T, hb, hp, hF, hT⟩ | ⟨w, hw, hq, hp⟩
  · exact .inl (hS.comp.trans h)
  · obtain ⟨b', hb', h1, h2, -⟩ := (forall2_mem h0.bd).2 b hb
    refine .inr (.inl ⟨b', σ id, ℓ * T, hb', h2.trans hp, ?_, mul_pos hℓ hT⟩)
    rw [h1]; exact hS.face _ _ (hm.bmem b hb) hF
  · obtain ⟨w', hw', h1, h2⟩ := (forall2_mem h0.wells).2 w hw
    refine .inr (.inr ⟨w', hw', by rw [h2.qsp, hq]; rfl, ?_⟩)
    rcases hz with rfl | hz
    · rw [h2.pwfsp]
      intro H
      obtain ⟨v, hv, hv0⟩ := Option.map_eq_some_iff.1 H
      rw [add_zero, mul_eq_zero] at hv0
      exact hp (by rw [hv, hv0.resolve_left hα.ne'])
    · exact hz w' hw'

lemma Similar.given {σ : ℕ → ℕ} {ℓ : K} {vect : Bool} {e e' : Env K} (hS : Similar σ α ℓ vect e e') (h0 : ModelSim σ α β ℓ vect e e' m0 m0') : Given e m0 ∧ Given e' m0' := by
  refine ⟨fun hc id hid => ?_, fun hc id hid => ?_⟩
  · obtain ⟨v, hv, -⟩ := h0.initP hc id hid
    exact ⟨v, hv⟩
  · obtain ⟨a, ha, rfl⟩ := List.mem_map.1 (hS.perm.mem_iff.1 hid)
    obtain ⟨v, -, hv⟩ := h0.initP (hS.comp.symm.trans hc) a ha
    exact ⟨_, hv⟩

/-- **C78, vectorised, partial.** With linear solvers that solve every regular system exactly (they exist, `exists_solver`), something that holds the pressure level and
conducting faces under pressure conditions, both vectorised simulations complete and correspond. -/
theorem C78_vectorised_partial (hL : Looks M M' φ π α sk sA sd) (hM : M.Pos) (hM' : M'.Pos) (hα : 0 < α) (hk : 0 < sk) (hA : 0 < sA) (hd : 0 < sd) (he : M.env = .ok c.e) (he' : M'.env = .ok c'.e)
    (h3 : M.g.getD ≠ 3) (h3' : M'.g.getD ≠ 3) (hf : c.e.Flat) (hr : Ready c m0) (hr' : Ready c' m0') (hx : Exact c.lin) (hx' : Exact c'.lin) (hcl : Complete c.lin c.e.n) (hcl' : Complete c'.lin c'.e.n)
    (h0 : ModelSim (renumber M.g M'.g φ) α β (condScale M M' sk sA sd) true c.e c'.e m0 m0') (hz : β = 0 ∨ ∀ w, w ∈ m0'.wells → w.2.pwfsp ≠ some 0)
    (han : Anchored c.e m0) (hh : Held c.e m0) (hcd : Conducting c.e m0) (hcd' : Conducting c'.e m0') {fuel fuel' : ℕ} (hfuel : 2 ^ m0.wells.length ≤ fuel) (hfuel' : 2 ^ m0'.wells.length ≤ fuel')
    (n : ℕ) (t t' : K) (hP : RunAll c Calm fuel true n m0 { Sol.init m0 with nsteps := (Sol.init m0).nsteps + n }) :
    (run c fuel true n t m0 (Sol.init m0)).2 = .ok () ∧ (run c' fuel' true n t' m0' (Sol.init m0')).2 = .ok () ∧
    SameStory M M' φ α β (condScale M M' sk sA sd) m0 (run c fuel true n t m0 (Sol.init m0)).1.1 (run c' fuel' true n t' m0' (Sol.init m0')).1.1
      (run c fuel true n t m0 (Sol.init m0)).1.2 (run c' fuel' true n t' m0' (Sol.init m0')).1.2 := by
  have hS := hL.similar hM hM' hk hA hd he he' (vect := true) fun _ => ⟨h3, h3'⟩
  obtain ⟨g1, g2⟩ := hS.given h0
  have r1 := (C67_run_partial hr hcl g1 hcd hh hfuel .start n t).1
  have r2 := (C67_run_partial hr' hcl' g2 hcd' (hS.held (condScale_pos hM hM' hk hA hd) hα hr.started.mdl h0 hz hh) hfuel' .start n t').1
  exact ⟨r1, r2, C78_run_partial hL hM hM' hα hk hA hd he he' (fun _ => ⟨h3, h3', hf⟩) hr hr' hx hx' han h0 (fun _ => hz) hP r1 r2⟩

/-! ### particular cases -/

/-- A reservoir looks like itself; without gravity heads also when all pressures are multiplied by `α`. -/
theorem looks_self (M : GridModel K) (hα : α = 1 ∨ M.grav = 0) (hM : M.Pos) : Looks M M id id α 1 1 1 := by
  have h1 : condScale M M 1 1 1 = 1 := by
    unfold condScale
    have := hM.mu.ne'; have := hM.B.ne'; have := hM.β.ne'
    field_simp
  refine ⟨layout_same rfl rfl rfl, fun _ => Iff.rfl, fun _ _ _ => (one_mul _).symm, fun _ _ _ _ => (one_mul _).symm, fun _ _ _ _ => (one_mul _).symm, rfl,
    fun _ c _ => by rw [h1, one_mul]; rfl, fun c d _ _ => ?_⟩
  rcases hα with rfl | h
  · rw [one_mul]; rfl
  · rw [h, zero_mul, zero_mul, mul_zero]

lemma condScale_self (hM : M.Pos) : condScale M M 1 1 1 = 1 := by
  unfold condScale
  have := hM.mu.ne'; have := hM.B.ne'; have := hM.β.ne'
  field_simp

lemma renumber_self (g : Dims) : renumber g g id = id := by
  funext a; exact g.num_dec a

/-- **C78, datum and drawdown, partial.** One reservoir, two models: the second has all pressures (initial, at faces, of wells) `α p + β` and all rates `α q`, `α = 1` unless gravity
is off. Then all pressures of the second simulation are `α p + β` and all rates `α q`: raising the datum shifts all pressures and changes no rate, a doubled drawdown doubles
the rates. -/
theorem C78_datum_partial (hM : M.Pos) (hα : 0 < α) (hg : α = 1 ∨ M.grav = 0) (he : M.env = .ok c.e) {vect : Bool} (hv : vect = true → M.g.getD ≠ 3 ∧ c.e.Flat) (hr : Ready c m0) (hr' : Ready c m0')
    (hx : Exact c.lin) (han : Anchored c.e m0) (h0 : ModelSim id α β 1 vect c.e c.e m0 m0') (hz : vect = true → β = 0 ∨ ∀ w, w ∈ m0'.wells → w.2.pwfsp ≠ some 0)
    {fuel fuel' n : ℕ} {t t' : K} (hP : RunAll c Calm fuel vect n m0 { Sol.init m0 with nsteps := (Sol.init m0).nsteps + n })
    (h : (run c fuel vect n t m0 (Sol.init m0)).2 = .ok ()) (h' : (run c fuel' vect n t' m0' (Sol.init m0')).2 = .ok ()) :
    SameStory M M id α β 1 m0 (run c fuel vect n t m0 (Sol.init m0)).1.1 (run c fuel' vect n t' m0' (Sol.init m0')).1.1
      (run c fuel vect n t m0 (Sol.init m0)).1.2 (run c fuel' vect n t' m0' (Sol.init m0')).1.2 := by
  have := C78_run_partial (M' := M) (c' := c) (m0' := m0') (β := β) (looks_self M hg hM) hM hM hα one_pos one_pos one_pos he he (fun hv' => ⟨(hv hv').1, (hv hv').1, (hv hv').2⟩) hr hr' hx hx han
    (by rw [renumber_self, condScale_self hM]; exact h0) hz hP h h'
  rw [condScale_self hM] at this
  exact this

/-- A reservoir `T` times as thick (no flow along z), everything else equal, looks like the first with areas multiplied by `T`. -/
theorem looks_thicker {T : K} (hM : M.Pos) (hg : M'.g = M.g) (hz : M.g.nz = 1) (hsx : M'.sizes.x = M.sizes.x) (hsy : M'.sizes.y = M.sizes.y)
    (hsz : ∀ i, i < padded M.g.nz → size M'.sizes.z i = T * size M.sizes.z i) (hrock : M'.rock = M.rock) (hβ : M'.β = M.β) (hmu : M'.mu = M.mu) (hB : M'.B = M.B)
    (hgr : M'.grav = M.grav) (hdep : M'.depth = M.depth) (hcomp : M'.comp = M.comp) (hphi : M'.phi = M.phi) (hct : M'.ct = M.ct) (hvc : M'.vconv = M.vconv) (hdt : M'.dt = M.dt) :
    Looks M M' id id 1 1 T 1 ∧ condScale M M' 1 T 1 = T := by
  have hcs : condScale M M' 1 T 1 = T := by
    unfold condScale
    rw [hβ, hmu, hB]
    have := hM.mu.ne'; have := hM.B.ne'; have := hM.β.ne'
    field_simp
  refine ⟨⟨layout_same (by rw [hg]) (by rw [hg]) (by rw [hg]), fun _ => by rw [hrock]; rfl, fun _ _ _ => by rw [hrock, hg, one_mul]; rfl, fun a x ha hx => ?_, fun a x ha hx => ?_, hcomp, fun _ x hx => ?_,
    fun c d _ _ => by rw [hg, hgr, hdep, one_mul]; rfl⟩, hcs⟩
  · rw [one_mul]
    cases a
    · show size M'.sizes.x _ = _; rw [hsx]; rfl
    · show size M'.sizes.y _ = _; rw [hsy]; rfl
    · exfalso; unfold Flow RF.Spec.along at ha; dsimp only at ha; omega
  · cases a
    · show size M'.sizes.y x.2.1 * size M'.sizes.z x.2.2 = _
      rw [hsy, hsz _ hx.2.2]; unfold Sizes.area; ring
    · show size M'.sizes.x x.1 * size M'.sizes.z x.2.2 = _
      rw [hsx, hsz _ hx.2.2]; unfold Sizes.area; ring
    · exfalso; unfold Flow RF.Spec.along at ha; dsimp only at ha; omega
  · rw [hcs]
    unfold storageCoef Sizes.volume
    rw [hg, hphi, hct, hvc, hB, hdt, hsx, hsy]
    show size M.sizes.x x.1 * size M.sizes.y x.2.1 * size M'.sizes.z x.2.2 * _ * _ / _ = _
    rw [hsz _ (Interior.inGrid hx).2.2]
    simp only [id]
    ring

end

/-! ### examples -/

/-- The checks of `ModelSim`. -/
def modelSimB (σ : ℕ → ℕ) (α β ℓ : ℚ) (vect : Bool) (e e' : Env ℚ) (m m' : Mdl ℚ) : Bool :=
  decide (m.bdict.length = m'.bdict.length) && (m.bdict.zip m'.bdict).all (fun x => decide (x.2.1 = σ x.1.1 ∧ x.2.2.1 = x.1.2.1 ∧ (x.1.2.1 = "pressure" → x.2.2.2 = α * x.1.2.2 + β) ∧
    (x.1.2.1 ≠ "pressure" → vect = false → x.2.2.2 = α * ℓ * x.1.2.2))) &&
  decide (m.wells.length = m'.wells.length) && (m.wells.zip m'.wells).all (fun x => decide (x.2.1 = σ x.1.1 ∧ windex e' x.2.2 = ℓ * windex e x.1.2 ∧ x.2.2.q = x.1.2.q.map (fun v => α * ℓ * v) ∧
    x.2.2.qsp = x.1.2.qsp.map (fun v => α * ℓ * v) ∧ x.2.2.pwf = x.1.2.pwf.map (fun v => α * v + β) ∧ x.2.2.pwfsp = x.1.2.pwfsp.map (fun v => α * v + β) ∧ x.2.2.con = x.1.2.con)) &&
  decide (m.wPress.length = m'.wPress.length) && (m.wPress.zip m'.wPress).all (fun x => decide (x.1.1 ∈ e.ids ∧ x.2.1 = σ x.1.1 ∧ x.2.2 = x.1.2.map (Option.map fun v => α * v + β))) &&
  (!e.comp || e.ids.all fun id => (m.initP id).isSome && decide (m'.initP (σ id) = (m.initP id).map fun v => α * v + β)) &&
  ((e.ids ++ m.bdict.map (·.1)).all fun id => decide (m'.initR (σ id) = α * ℓ * m.initR id))

lemma forall2_of_zip {A B : Type} {R : A → B → Prop} {l : List A} {l' : List B} (h : l.length = l'.length) (h2 : ∀ x, x ∈ l.zip l' → R x.1 x.2) : List.Forall₂ R l l' :=
  List.forall₂_iff_zip.2 ⟨h, fun {a b} hab => h2 (a, b) hab⟩

lemma modelSim_of {σ : ℕ → ℕ} {α β ℓ : ℚ} {vect : Bool} {e e' : Env ℚ} {m m' : Mdl ℚ} (h : modelSimB σ α β ℓ vect e e' m m' = true) : ModelSim σ α β ℓ vect e e' m m' := by
  unfold modelSimB at h
  simp only [Bool.and_eq_true, decide_eq_true_eq, List.all_eq_true, Bool.or_eq_true, Bool.not_eq_true'] at h
  obtain ⟨⟨⟨⟨⟨⟨⟨h1, h2⟩, h3⟩, h4⟩, h5⟩, h6⟩, h7⟩, h8⟩ := h
  refine ⟨forall2_of_zip h1 h2, forall2_of_zip h3 fun x hx => ?_, forall2_of_zip h5 h6, fun hc id hid => ?_, fun id hid => h8 id ?_⟩
  · obtain ⟨a, b, c, d, e, f, g⟩ := h4 x hx
    exact ⟨a, b, c, d, e, f, g⟩
  · rcases h7 with h7 | h7
    · rw [hc] at h7; simp at h7
    · obtain ⟨a, b⟩ := h7 id hid
      obtain ⟨v, hv⟩ := Option.isSome_iff_exists.1 a
      exact ⟨v, hv, by rw [b, hv]; rfl⟩
  · rw [List.mem_append]; exact hid

lemma exE_env (comp : Bool) (grav : ℚ) (depth : List ℚ) : (exM comp grav depth).env = .ok (exC comp grav depth).e := by
  show (exM comp grav depth).env = .ok (exE comp grav depth)
  unfold exE
  exact getOk_eq _ (exM_ok comp grav depth)

/-- The row of two cells seen in a mirror. -/
lemma exM_mirror : Looks (exM true 0 []) (exM true 0 []) (mirror g2 .x) id 1 1 1 1 := by
  have hcell : ∀ c, InGrid g2.nx g2.ny g2.nz c → c = (0, 0, 0) ∨ c = (1, 0, 0) ∨ c = (2, 0, 0) ∨ c = (3, 0, 0) := fun c => g2_cell
  have hs : ∀ c a, (exM true 0 []).sizes.along c a = 1 := fun c a => by cases a <;> rfl
  have hA : ∀ c a, (exM true 0 []).sizes.area c a = 1 := fun c a => by cases a <;> exact one_mul (1 : ℚ)
  refine ⟨layout_mirror g2 .x, fun _ => Iff.rfl, fun a c hc => ?_, fun a c _ _ => by rw [hs, hs, one_mul], fun a c _ _ => by rw [hA, hA, one_mul], rfl, fun _ c hc => ?_, fun c d _ _ => ?_⟩
  · rcases hcell c hc with rfl | rfl | rfl | rfl <;> cases a <;> show perm g2 exRock _ _ = 1 * perm g2 exRock _ _ <;> decide +kernel
  · rcases hcell c (Interior.inGrid hc) with rfl | rfl | rfl | rfl <;> decide +kernel
  · show (0 : ℚ) * _ = 1 * (0 * _)
    rw [zero_mul, zero_mul, mul_zero]

/-- `exA` seen in a mirror: the pressure is given on the right, the rate on the left, the well is in cell 1. -/
def exAm : Mdl ℚ := exMdl true 0 [] (some 8) [(3, "pressure", 10), (0, "rate", 1)] [(1, { q := some (-4), pwf := some 2, r := some 1 })]

lemma exAm_ready : Ready (exC true 0 []) exAm := exMdl_ready (by decide +kernel)

example (vect : Bool) : SameStory (exM true 0 []) (exM true 0 []) (mirror g2 .x) 1 0 1 exA (run (exC true 0 []) 10 vect 3 0 exA (Sol.init exA)).1.1 (run (exC true 0 []) 12 vect 3 0 exAm (Sol.init exAm)).1.1
    (run (exC true 0 []) 10 vect 3 0 exA (Sol.init exA)).1.2 (run (exC true 0 []) 12 vect 3 0 exAm (Sol.init exAm)).1.2 := by
  have := C78_run_partial (β := 0) (c := exC true 0 []) (c' := exC true 0 []) (m0 := exA) (m0' := exAm) (fuel := 10) (fuel' := 12) (n := 3) (t := 0) (t' := 0) (vect := vect) exM_mirror (exM_pos _ _ _) (exM_pos _ _ _)
    one_pos one_pos one_pos one_pos (exE_env _ _ _) (exE_env _ _ _) (fun _ => ⟨by decide +kernel, by decide +kernel, ex_flat _⟩) exA_ready exAm_ready cramer_exact cramer_exact (.inl (by decide +kernel))
    (by rw [condScale_self (exM_pos _ _ _)]; exact modelSim_of (by cases vect <;> decide +kernel)) (fun _ => .inl rfl)
    (runCalmB_all (by cases vect <;> decide +kernel)) (isOk_unit (by cases vect <;> decide +kernel)) (isOk_unit (by cases vect <;> decide +kernel))
  rw [condScale_self (exM_pos _ _ _)] at this
  exact this

/-- The pressures really change in this example and the well switches to its limit. -/
example : ∃ s : Sol ℚ, ∃ m, m = (run (exC true 0 []) 10 true 3 0 exA (Sol.init exA)).1.1 ∧ s = (run (exC true 0 []) 10 true 3 0 exA (Sol.init exA)).1.2 ∧
    rowAt s.press 1 none 1 ≠ rowAt s.press 0 none 1 ∧ m.wells.map (·.2.con) = [some .pwf] := ⟨_, _, rfl, rfl, by decide +kernel, by decide +kernel⟩

/-- Two cells in a row along y. -/
def gY : Dims := ⟨1, 2, 1, true, by decide, by decide, by decide⟩

lemma exY_calc : isOk (Geom.calc gY s2.x s2.y s2.z) = true := by decide +kernel

/-- `exM` along y. -/
def exY : GridModel ℚ :=
  { exM true 0 [] with g := gY, geom := getOk _ exY_calc, rock := ⟨none, some [1, 1, 1, 1], none⟩ }

lemma gY_cell {c : Cell} (h : InGrid gY.nx gY.ny gY.nz c) : c = (0, 0, 0) ∨ c = (0, 1, 0) ∨ c = (0, 2, 0) ∨ c = (0, 3, 0) := by
  obtain ⟨i, j, k⟩ := c
  obtain ⟨h1, h2, h3⟩ := h
  simp [gY, padded] at h1 h2 h3
  subst h1 h3
  interval_cases j <;> simp

lemma exY_pos : exY.Pos := by
  refine ⟨getOk_eq _ exY_calc, s2_pos _, ⟨fun a l hl => ?_, fun a ha => ?_⟩, ?_, ?_, one_pos, one_pos, one_pos, one_pos, one_pos, ?_, fun _ => one_pos⟩
  · cases a <;> simp [exY, Rock.k] at hl
    subst hl; decide
  · cases a <;> simp [exY, Rock.k, Flow, RF.Spec.along, gY] at ha ⊢
  · intro a ha c hc
    have ha' : a = .y := by cases a <;> simp [Flow, RF.Spec.along, exY, gY] at ha ⊢
    subst ha'
    rcases gY_cell (Interior.inGrid hc) with rfl | rfl | rfl | rfl <;> decide +kernel
  · intro a c hc
    rcases gY_cell hc with rfl | rfl | rfl | rfl <;> cases a <;> decide +kernel
  · intro c hc
    rcases gY_cell (Interior.inGrid hc) with rfl | rfl | rfl | rfl <;> decide +kernel

lemma exY_ok : isOk exY.env = true := by decide +kernel

def exYC : Ctx ℚ := ⟨getOk _ exY_ok, fun s => s, fun _ _ => 1, cramer⟩

lemma exYC_ok : CtxOK exYC := by
  refine ⟨⟨rfl, rfl⟩, ⟨exY, exY_pos, getOk_eq _ exY_ok⟩, ?_⟩
  intro a b; exact (one_ne_zero : (1 : ℚ) ≠ 0)

/-- The row along x looks like the row along y. -/
lemma exY_looks : Looks (exM true 0 []) exY swapXY axisXY 1 1 1 1 := by
  have hs : ∀ c a, (exM true 0 []).sizes.along c a = 1 := fun c a => by cases a <;> rfl
  have hA : ∀ c a, (exM true 0 []).sizes.area c a = 1 := fun c a => by cases a <;> exact one_mul (1 : ℚ)
  refine ⟨layout_swapXY rfl rfl rfl, fun a => by cases a <;> simp [exY, exM, exRock, Rock.k, axisXY], fun a c hc => ?_, fun a c _ _ => by rw [hs, show exY.sizes.along _ _ = _ from hs _ _, one_mul],
    fun a c _ _ => by rw [hA, show exY.sizes.area _ _ = _ from hA _ _, one_mul], rfl, fun _ c hc => ?_, fun c d _ _ => ?_⟩
  · rcases g2_cell hc with rfl | rfl | rfl | rfl <;> cases a <;> decide +kernel
  · rcases g2_cell (Interior.inGrid hc) with rfl | rfl | rfl | rfl <;> decide +kernel
  · show (0 : ℚ) * _ = 1 * (0 * _)
    rw [zero_mul, zero_mul, mul_zero]

/-- `exA` along y, all pressures raised by 100. -/
def exAy : Mdl ℚ := mkMdl exYC (some 108) [(0, "pressure", 110), (3, "rate", 1)] [(2, { q := some (-4), pwf := some 102, r := some 1 })]

lemma exAy_ready : Ready exYC exAy := mkMdl_ready exYC_ok (fun _ => rfl) (by decide +kernel)

lemma condScale_exY : condScale (exM true 0 []) exY 1 1 1 = 1 := by decide +kernel

lemma exYC_complete : Complete exYC.lin exYC.e.n := by rw [show exYC.e.n = 2 by decide +kernel]; exact cramer_complete

example (n : ℕ) (hn : RunAll (exC true 0 []) Calm 10 true n exA { Sol.init exA with nsteps := (Sol.init exA).nsteps + n }) :
    SameStory (exM true 0 []) exY swapXY 1 100 1 exA (run (exC true 0 []) 10 true n 0 exA (Sol.init exA)).1.1 (run exYC 10 true n 0 exAy (Sol.init exAy)).1.1
    (run (exC true 0 []) 10 true n 0 exA (Sol.init exA)).1.2 (run exYC 10 true n 0 exAy (Sol.init exAy)).1.2 := by
  have := (C78_vectorised_partial (β := 100) (c := exC true 0 []) (c' := exYC) (m0 := exA) (m0' := exAy) (fuel := 10) (fuel' := 10) exY_looks (exM_pos _ _ _) exY_pos
    one_pos one_pos one_pos one_pos (exE_env _ _ _) (getOk_eq _ exY_ok) (by decide +kernel) (by decide +kernel) (ex_flat _) exA_ready exAy_ready cramer_exact cramer_exact (by rw [show (exC true 0 []).e.n = 2 by decide +kernel]; exact cramer_complete) exYC_complete
    (by rw [condScale_exY]; exact modelSim_of (by decide +kernel)) (.inr (by decide +kernel)) (.inl (by decide +kernel)) (.inl (by decide +kernel)) (conductingB_ok (by decide +kernel))
    (conductingB_ok (by decide +kernel)) (by decide +kernel) (by decide +kernel) n 0 0 hn).2.2
  rw [condScale_exY] at this
  exact this

example : RunAll (exC true 0 []) Calm 10 true 4 exA { Sol.init exA with nsteps := (Sol.init exA).nsteps + 4 } := runCalmB_all (by decide +kernel)

/-- `exA` with all pressures raised by 100, on the same grid. -/
def exA100 : Mdl ℚ := exMdl true 0 [] (some 108) [(0, "pressure", 110), (3, "rate", 1)] [(2, { q := some (-4), pwf := some 102, r := some 1 })]
/-- `exA` with everything doubled. -/
def exAtwice : Mdl ℚ := exMdl true 0 [] (some 16) [(0, "pressure", 20), (3, "rate", 2)] [(2, { q := some (-8), pwf := some 4, r := some 1 })]

example (vect : Bool) : SameStory (exM true 0 []) (exM true 0 []) id 1 100 1 exA (run (exC true 0 []) 10 vect 3 0 exA (Sol.init exA)).1.1 (run (exC true 0 []) 10 vect 3 0 exA100 (Sol.init exA100)).1.1
    (run (exC true 0 []) 10 vect 3 0 exA (Sol.init exA)).1.2 (run (exC true 0 []) 10 vect 3 0 exA100 (Sol.init exA100)).1.2 :=
  C78_datum_partial (exM_pos _ _ _) one_pos (.inl rfl) (exE_env _ _ _) (fun _ => ⟨by decide +kernel, ex_flat _⟩) exA_ready (exMdl_ready (by decide +kernel)) cramer_exact (.inl (by decide +kernel))
    (modelSim_of (by cases vect <;> decide +kernel)) (fun _ => .inr (by decide +kernel)) (runCalmB_all (by cases vect <;> decide +kernel))
    (isOk_unit (by cases vect <;> decide +kernel)) (isOk_unit (by cases vect <;> decide +kernel))

example (vect : Bool) : SameStory (exM true 0 []) (exM true 0 []) id 2 0 1 exA (run (exC true 0 []) 10 vect 3 0 exA (Sol.init exA)).1.1 (run (exC true 0 []) 10 vect 3 0 exAtwice (Sol.init exAtwice)).1.1
    (run (exC true 0 []) 10 vect 3 0 exA (Sol.init exA)).1.2 (run (exC true 0 []) 10 vect 3 0 exAtwice (Sol.init exAtwice)).1.2 :=
  C78_datum_partial (exM_pos _ _ _) two_pos (.inr rfl) (exE_env _ _ _) (fun _ => ⟨by decide +kernel, ex_flat _⟩) exA_ready (exMdl_ready (by decide +kernel)) cramer_exact (.inl (by decide +kernel))
    (modelSim_of (by cases vect <;> decide +kernel)) (fun _ => .inl rfl) (runCalmB_all (by cases vect <;> decide +kernel))
    (isOk_unit (by cases vect <;> decide +kernel)) (isOk_unit (by cases vect <;> decide +kernel))

/-- A thicker reservoir exists. -/
example : ∃ M' : GridModel ℚ, Looks (exM true 0 []) M' id id 1 1 3 1 ∧ condScale (exM true 0 []) M' 1 3 1 = 3 :=
  ⟨{ exM true 0 [] with sizes := ⟨.scalar 1, .scalar 1, .scalar 3⟩ }, looks_thicker (exM_pos _ _ _) rfl rfl rfl rfl (fun _ _ => by show (3 : ℚ) = 3 * 1; norm_num) rfl rfl rfl rfl rfl rfl rfl rfl rfl rfl rfl⟩

/-! ### three dimensions -/

/-- A direct solver that knows two solutions: it returns the one that solves the system it is given. -/
def twoLin (x1 x2 : ℕ → ℚ) : LinSolver ℚ := fun n A d =>
  if ∀ i < n, ∑ j ∈ Finset.range n, A i j * x1 j = d i then .ok x1 else if ∀ i < n, ∑ j ∈ Finset.range n, A i j * x2 j = d i then .ok x2 else .error .value

lemma twoLin_exact (x1 x2 : ℕ → ℚ) : Exact (twoLin x1 x2) := by
  intro n A d x h
  unfold twoLin at h
  split_ifs at h with h1 h2
  · cases h; exact h1
  · cases h; exact h2

/-- Pressures after one vectorised step of `ex3P`. -/
def ex3x (i : ℕ) : ℚ := ([83/59, 203/177, 203/177, 193/177, 203/177, 193/177, 193/177, 63/59] : List ℚ).getD i 0
/-- Pressures after one vectorised step of `ex3Q`. -/
def ex3y (i : ℕ) : ℚ := ([4655/4057, 4425/4057, 5699/4057, 4599/4057, 4439/4057, 4389/4057, 4655/4057, 4425/4057] : List ℚ).getD i 0

def ex3L2 : Ctx ℚ := { ex3C with lin := twoLin ex3x ex3y }

/-- The 2 x 2 x 2 reservoir at pressure 1, the front of cell 21 held at pressure 2. -/
def ex3P : Mdl ℚ := mkMdl ex3L2 (some 1) [(20, "pressure", 2)] []
/-- The same seen in a mirror perpendicular to y. -/
def ex3Q : Mdl ℚ := mkMdl ex3L2 (some 1) [(24, "pressure", 2)] []

lemma ex3L2_ok : CtxOK ex3L2 := ⟨ex3C_ok.1, ex3C_ok.2, ex3C_ok.3⟩

lemma ex3M_mirror (a : Axis) : Looks ex3M ex3M (mirror g222 a) id 1 1 1 1 := by
  have hs : ∀ c a, ex3M.sizes.along c a = 1 := fun c a => by cases a <;> rfl
  have hA : ∀ c a, ex3M.sizes.area c a = 1 := fun c a => by cases a <;> exact one_mul (1 : ℚ)
  have hL := layout_mirror g222 a
  have hp : ∀ b c, InGrid g222.nx g222.ny g222.nz c → perm g222 (ones g222) b c = 1 := fun b c hc => by
    have : cellNumber g222.nx g222.ny c < g222.getN true := g222.num_lt hc
    cases b <;> simp [perm, ones, Rock.k, this]
  have hst : ∀ c, InGrid g222.nx g222.ny g222.nz c → storageCoef ex3M c = 1 := fun c hc => by
    have : cellNumber g222.nx g222.ny c < g222.getN true := g222.num_lt hc
    rw [show g222.getN true = 64 by decide +kernel] at this
    show (1 * 1 * 1 : ℚ) * (List.replicate 64 1).getD (cellNumber g222.nx g222.ny c) 0 * 1 / (1 * 1 * 1) = 1
    rw [List.getD_eq_getElem?_getD, List.getElem?_replicate_of_lt this]
    norm_num
  refine ⟨hL, fun _ => Iff.rfl, fun b c hc => ?_, fun b c _ _ => by rw [hs, hs, one_mul], fun b c _ _ => by rw [hA, hA, one_mul], rfl, fun _ c hc => ?_, fun c d _ _ => ?_⟩
  · show perm g222 (ones g222) _ _ = 1 * perm g222 (ones g222) _ _
    rw [hp _ _ hc, hp _ _ (hL.inGrid _ hc), one_mul]
  · rw [hst _ (hL.inGrid _ (Interior.inGrid hc)), hst _ (Interior.inGrid hc), condScale_self ex3M_pos, one_mul]
  · show (0 : ℚ) * _ = 1 * (0 * _)
    rw [zero_mul, zero_mul, mul_zero]

/-- **C78 fails for the vectorised assembler in three dimensions.** A 2 x 2 x 2 reservoir with equal cells and a pressure given on one face; the same in a mirror perpendicular
to y. Everything `C78_run_partial` asks for holds except the dimension, both simulations succeed with an exact solver, and yet the pressures are not mirror images of each other:
the vectorised assembler connects two cells of different layers that do not touch (C32), and the mirror takes them to a pair it does not connect. -/
theorem C78_three_d_fails : ∃ (c : Ctx ℚ) (M : GridModel ℚ) (m0 m0' : Mdl ℚ), Looks M M (mirror M.g .y) id 1 1 1 1 ∧ M.Pos ∧ M.env = .ok c.e ∧ M.g.getD = 3 ∧ c.e.Flat ∧ Ready c m0 ∧ Ready c m0' ∧
    Exact c.lin ∧ Anchored c.e m0 ∧ ModelSim (renumber M.g M.g (mirror M.g .y)) 1 0 1 true c.e c.e m0 m0' ∧
    RunAll c Calm 1 true 1 m0 { Sol.init m0 with nsteps := (Sol.init m0).nsteps + 1 } ∧
    (run c 1 true 1 0 m0 (Sol.init m0)).2 = .ok () ∧ (run c 1 true 1 0 m0' (Sol.init m0')).2 = .ok () ∧
    ¬ SameStory M M (mirror M.g .y) 1 0 1 m0 (run c 1 true 1 0 m0 (Sol.init m0)).1.1 (run c 1 true 1 0 m0' (Sol.init m0')).1.1 (run c 1 true 1 0 m0 (Sol.init m0)).1.2
      (run c 1 true 1 0 m0' (Sol.init m0')).1.2 := by
  refine ⟨ex3L2, ex3M, ex3P, ex3Q, ex3M_mirror .y, ex3M_pos, getOk_eq _ ex3M_ok, by decide +kernel, ?_, mkMdl_ready ex3L2_ok (fun _ => rfl) (by decide +kernel),
    mkMdl_ready ex3L2_ok (fun _ => rfl) (by decide +kernel), twoLin_exact _ _, .inl (by decide +kernel), modelSim_of (by decide +kernel), runCalmB_all (by decide +kernel),
    isOk_unit (by decide +kernel), isOk_unit (by decide +kernel), fun h => ?_⟩
  · exact .inl (by decide +kernel)
  · have := h.pressures 1 (.inl one_pos) (1, 2, 1) (by decide +kernel)
    revert this
    decide +kernel

end RF.Fdm
