import Verif.Fdm.PropsTiltFlowLevel
import Verif.Fdm.SpreadExamples
/-!
# What evens out on inclined reservoirs with the vectorised assembler (C95)

Heads do not (C95_vectorised_fails). Without target rates pressures do: what is held at one pressure, given pressures being carried to the depth of the cells behind the faces, or closed, approaches equal pressures,
however the cells lie.
-/
set_option linter.unusedSectionVars false
namespace RF.Fdm
open RF RF.Dims RF.Spec Finset

variable {K : Type} [Field K] [LinearOrder K] [IsStrictOrderedRing K]

/-- Sum of `φ` of the pressures recorded at step `t`, each cell with its pore volume. -/
def pressureScatter (M : GridModel K) (e : Env K) (φ : K → K) (s : Sol K) (t : ℕ) : K :=
  (e.ids.map fun id => M.sizes.volume (M.g.dec id) * M.phi.getD id 0 * φ ((rowAt s.press t none id).getD 0)).sum

/-- **C95, inclined reservoirs, vectorised.** A compressible reservoir, whatever the depths of its cells, without target rates, closed or with all given pressures, carried to the depth of the cells behind, and
bottom-hole pressures equal to `P`. In any run the pore-volume weighted sum of a convex function of the pressures at a later step is not larger than at an earlier one, for all convex functions if it is closed, and otherwise
for those least at `P`. (In terms of heads it is false, C95_vectorised_fails.) -/
theorem C95_inclined_partial {M : GridModel K} (hM : M.Pos) {c : Ctx K} (he : M.env = .ok c.e) {m : Mdl K} (hr : Ready c m) (hx : Exact c.lin) (hc : c.e.comp = true) {P : K} (hp : TwoLevels c.e P P m)
    {f N : ℕ} {el : K} {φ : K → K} (hφ : ConvexOn K Set.univ φ) (hP : Shut m ∨ ∀ y, φ P ≤ φ y) {t t' : ℕ} (htt : t ≤ t') (ht' : t' ≤ (run c f true N el m (Sol.init m)).1.2.tstep) :
    pressureScatter M c.e φ (run c f true N el m (Sol.init m)).1.2 t' ≤ pressureScatter M c.e φ (run c f true N el m (Sol.init m)).1.2 t := by
  have hz := levelled_depths hM he
  set L := levelled M c.e with hL
  have pos : (M.moved L c.e.grav).Pos := ⟨hM.geom, hM.sizes, hM.rock, hM.perm, hM.permB, hM.β, hM.mu, hM.B, hM.vconv, hM.dt, hM.phi, hM.ct⟩
  have e1 : (M.moved L c.e.grav).env = .ok (c.moved (fun id => L.getD id 0) c.e.grav).e := moved_env he _ _
  have r1 : Ready (c.moved (fun id => L.getD id 0) c.e.grav) m := ⟨⟨hr.ctx.lower, ⟨_, pos, e1⟩, hr.ctx.scale⟩, setup_moved hr.setup, hr.G, hr.cfg, hr.canon⟩
  have q1 := C49_depths_ignored he L c.e.grav e1 rfl rfl rfl hr (fun w hw => (hp.well w hw).1) (hz.heads hr.ctx.wf hr.started.mdl) f N el
  have flat : (c.moved (fun id => L.getD id 0) c.e.grav).e.Flat := .inr fun i hi => by
    show L.getD (c.e.at i) 0 = L.getD (c.e.at 0) 0
    rw [hz.inner _ (at_mem c.e hi), hz.inner _ (at_mem c.e hr.ctx.wf.pos)]
  have H1 := single_hist r1 flat (fun w hw => (hp.well w hw).2.1) (Hist.run r1.ctx.lower r1.ctx.wf r1.started.mdl (fuel := f) N el .start (runAll_same _ f true N _ _))
  have key := C95_spread_partial pos e1 r1 hx hc (hp.heads hz hr.started.mdl) H1 hφ hP htt (by rw [q1]; exact ht')
  rw [q1] at key
  have same : ∀ t, scatter (M.moved L c.e.grav) (c.moved (fun id => L.getD id 0) c.e.grav).e φ (run c f true N el m (Sol.init m)).1.2 t = pressureScatter M c.e φ (run c f true N el m (Sol.init m)).1.2 t := fun t => by
    unfold scatter pressureScatter
    refine congrArg List.sum (List.map_congr_left fun id hid => ?_)
    have : (c.moved (fun id => L.getD id 0) c.e.grav).e.head id ((rowAt (run c f true N el m (Sol.init m)).1.2.press t none id).getD 0) = (rowAt (run c f true N el m (Sol.init m)).1.2.press t none id).getD 0 := by
      show _ - c.e.grav * L.getD id 0 = _
      rw [hz.inner id hid, mul_zero, sub_zero]
    rw [this]; rfl
  rwa [same, same] at key

/-! ### instances -/

/-- A slope held at pressure 13 in the upper cell and, by a well, in the lower one; pressures 20 at first. -/
def exSlopeHeld : Mdl ℚ := exMdl true 3 [4, 5, 7, 9] (some 20) [(0, "pressure", 10)] [(2, { pwf := some 13, r := some 1 })]

/-- The hypotheses of `C95_inclined_partial` are met, and the distance shrinks. -/
example : pressureScatter (exM true 3 [4, 5, 7, 9]) (exC true 3 [4, 5, 7, 9]).e (fun x => |x - 13|) (run (exC true 3 [4, 5, 7, 9]) 10 true 2 0 exSlopeHeld (Sol.init exSlopeHeld)).1.2 2 ≤
    pressureScatter (exM true 3 [4, 5, 7, 9]) (exC true 3 [4, 5, 7, 9]).e (fun x => |x - 13|) (run (exC true 3 [4, 5, 7, 9]) 10 true 2 0 exSlopeHeld (Sol.init exSlopeHeld)).1.2 1 :=
  C95_inclined_partial (exM_pos _ _ _) (exE_env _ _ _) (exMdl_ready (by decide +kernel)) cramer_exact (by decide +kernel) (P := 13) (twoLevels_of (by decide +kernel)) (convex_dist 13)
    (.inr fun y => by simp) one_le_two (by decide +kernel)

example : pressureScatter (exM true 3 [4, 5, 7, 9]) (exC true 3 [4, 5, 7, 9]).e (fun x => |x - 13|) (run (exC true 3 [4, 5, 7, 9]) 10 true 2 0 exSlopeHeld (Sol.init exSlopeHeld)).1.2 2 <
    pressureScatter (exM true 3 [4, 5, 7, 9]) (exC true 3 [4, 5, 7, 9]).e (fun x => |x - 13|) (run (exC true 3 [4, 5, 7, 9]) 10 true 2 0 exSlopeHeld (Sol.init exSlopeHeld)).1.2 1 := by decide +kernel

end RF.Fdm
