import Verif.Fdm.Spread
import Verif.Fdm.PropsBetter
import Verif.Fdm.PropsMB
/-!
# C95: heads even out

A compressible reservoir that is closed, or whose boundary cells and wells are all held at one head. From step to step the pore-volume weighted sum of any convex function of the heads goes down or
stays: so do the mean square distance from the head outside, the mean distance from it, and, in closed reservoirs, the scatter about any value.
-/
set_option linter.unusedSectionVars false
namespace RF.Fdm
open RF RF.Dims RF.Spec Finset

variable {K : Type} [Field K] [LinearOrder K] [IsStrictOrderedRing K]

/-! ### Specification -/

/-- Sum of `φ` of the heads recorded at step `t`, each cell with its pore volume. -/
def scatter (M : GridModel K) (e : Env K) (φ : K → K) (s : Sol K) (t : ℕ) : K :=
  (e.ids.map fun id => M.sizes.volume (M.g.dec id) * M.phi.getD id 0 * φ (e.head id ((rowAt s.press t none id).getD 0))).sum

/-- No pressure conditions and no wells. -/
def Shut (m : Mdl K) : Prop := (∀ b, b ∈ m.bdict → b.2.1 ≠ "pressure") ∧ m.wells = []

/-! ### the balances of a history -/

section
variable {c : Ctx K} {m0 m : Mdl K} {s : Sol K} {vect : Bool} {H L : K}

/-- Every completed step satisfies the balances, in terms of heads. -/
lemma held_change (hr : Ready c m0) (hx : Exact c.lin) (ht : TwoHeads c.e H L m0) (hh : Hist c (Single c.e vect) m0 m s) :
    ∀ t, t < s.tstep → ∀ i, i < c.e.n →
      ∑ j ∈ range c.e.n, c.e.trans vect i j * (c.e.head (c.e.at j) (s.inner c.e (t + 1) j) - c.e.head (c.e.at i) (s.inner c.e (t + 1) i)) +
        toHead c.e (· = H) m0 i * (H - c.e.head (c.e.at i) (s.inner c.e (t + 1) i)) + toHead c.e (· ≠ H) m0 i * (L - c.e.head (c.e.at i) (s.inner c.e (t + 1) i)) =
        c.e.rhs (c.e.at i) * (c.e.head (c.e.at i) (s.inner c.e (t + 1) i) - c.e.head (c.e.at i) (s.inner c.e t i)) := by
  induction hh with
  | start => exact fun t ht => absurd ht (by show ¬ t < 0; omega)
  | @step m s v m' s' hh hat hp ih =>
    have hcalm := held_calm hr ht hh
    obtain ⟨hi, hq⟩ := hr.calm hcalm
    obtain ⟨_, _, _, _, x, p, r', _, h1⟩ := attempted hr.ctx.lower hr.ctx.wf hi hat
    obtain ⟨rfl, hpv⟩ := hp
    intro t htt i hin
    have old : ∀ k, k ≤ s.tstep → s'.inner c.e k = s.inner c.e k := fun k hk => by
      funext j; unfold Sol.inner; rw [h1.press, rowAt_append_lt (by rw [hi.plen]; omega)]
    by_cases ht' : t = s.tstep
    · have hbal := step_balance hr.ctx hx hi hq (fun hv => (hpv hv).1) (fun hv => (hpv hv).2) hat i hin
      have tm : TwoHeads c.e H L m := by
        refine ⟨by rw [hi.same.bdict]; exact ht.bd, by rw [hi.same.bdict, hi.same.initR]; exact ht.rate, fun w hw => ?_⟩
        obtain ⟨w0, hw0, h4⟩ := (forall2_mem hi.same.wells).1 w hw
        rw [h4.1, h4.2.2.1, h4.2.2.2]; exact ht.well w0 hw0
      have hw : ∀ w, w ∈ m.wells → w.2.con = some .pwf ∧ w.2.pwf = w.2.pwfsp := fun w hw => by
        obtain ⟨f1, f2⟩ := (hi.mdl.well w hw).free (tm.well w hw).1
        refine ⟨?_, f1⟩
        rcases hcw : w.2.con with _ | _ | _
        · exact absurd hcw (hq.cfg w hw)
        · exact absurd hcw f2
        · rfl
      have hrate : ∀ b, b ∈ m.bdict → b.2.1 ≠ "pressure" → usedRate v m s b.1 = 0 := fun b hb hk => by
        have hb0 : b ∈ m0.bdict := by rw [← hi.same.bdict]; exact hb
        rw [usedRate_eq hr.ctx.wf hr.started.mdl hi v hb0 hk, (ht.rate b hb0 hk).1, (ht.rate b hb0 hk).2, ite_self]
      unfold excess at hbal
      rw [outside_heads tm _ hrate hw, toHead_same _ hi.same, toHead_same _ hi.same] at hbal
      rw [ht', old s.tstep le_rfl, show s.tstep + 1 = s'.tstep from h1.tstep.symm]
      have : ∀ j, c.e.trans v i j * (c.e.head (c.e.at j) (s'.inner c.e s'.tstep j) - c.e.head (c.e.at i) (s'.inner c.e s'.tstep i)) =
          c.e.trans v i j * (s'.inner c.e s'.tstep j - s'.inner c.e s'.tstep i - c.e.grav * (c.e.z (c.e.at j) - c.e.z (c.e.at i))) := fun j => by unfold Env.head; ring
      have r : c.e.head (c.e.at i) (s'.inner c.e s'.tstep i) - c.e.head (c.e.at i) (s.inner c.e s.tstep i) = s'.inner c.e s'.tstep i - s.inner c.e s.tstep i := by unfold Env.head; ring
      rw [sum_congr rfl fun j _ => this j, r]; linarith
    · rw [h1.tstep] at htt
      rw [old t (by omega), old (t + 1) (by omega)]
      exact ih t (by omega) i hin
  | @again m s v m' s' hh hat hp ih =>
    have hi := hr.inv hh
    obtain ⟨m1, s1, A, d, x, p, r', ps, h1⟩ := attempted hr.ctx.lower hr.ctx.wf hi hat
    obtain ⟨b1, b2, b3⟩ := back_attempted hi h1
    unfold Sol.inner at ih ⊢
    rw [b1, b3]; exact ih
  | look hh hat ih =>
    obtain ⟨-, vA, bV, res, sM, rfl⟩ := assemble_frame hat
    exact ih
  | clock n t hh ih => exact ih

end

lemma scatter_sum (M : GridModel K) (e : Env K) (φ : K → K) (s : Sol K) (t : ℕ) :
    scatter M e φ s t = ∑ i ∈ range e.n, M.sizes.volume (M.g.dec (e.at i)) * M.phi.getD (e.at i) 0 * φ (e.head (e.at i) (s.inner e t i)) := by
  unfold scatter
  rw [sum_ids e]
  rfl

/-- The storage of a cell is its pore volume, times the same factor for all cells. -/
lemma storage {M : GridModel K} (hM : M.Pos) {e : Env K} (he : M.env = .ok e) (hc : e.comp = true) : ∃ k : K, 0 < k ∧ ∀ id, id ∈ e.ids → e.rhs id = k * (M.sizes.volume (M.g.dec id) * M.phi.getD id 0) := by
  obtain ⟨e1, -, -, -, -, -, -, -, -, e10, e11, -⟩ := env_ok he
  have hcm : M.comp = true := by rw [← e10]; exact hc
  refine ⟨M.ct / (M.vconv * M.B * M.dt), div_pos (hM.ct hcm) (mul_pos (mul_pos hM.vconv hM.B) hM.dt), fun id hid => ?_⟩
  have hi : Interior M.g.nx M.g.ny M.g.nz (M.g.dec id) := by rw [e1, mem_innerIds] at hid; exact hid
  have hlt : id < M.g.getN true := by
    have := M.g.num_lt (Interior.inGrid hi)
    rwa [M.g.num_dec] at this
  have hV : M.geom.V.getD id 0 = M.sizes.volume (M.g.dec id) := by
    rw [(geomOf_of_calc hM.geom).V_eq, List.getD_eq_getElem?_getD, List.getElem?_map, List.getElem?_range hlt]; rfl
  rw [e11, calcRHS, if_pos hcm, hV]; ring

/-- **C95** (partial): a compressible reservoir, closed or held at one head. Whatever was done with the model, the pore-volume weighted sum of a convex function of the heads at a later step is not larger than
at an earlier one, for all convex functions if it is closed, and otherwise for those least at the head outside. -/
theorem C95_spread_partial {M : GridModel K} (hM : M.Pos) {c : Ctx K} (he : M.env = .ok c.e) {m0 : Mdl K} (hr : Ready c m0) (hx : Exact c.lin) (hc : c.e.comp = true) {H : K} (ht : TwoHeads c.e H H m0)
    {vect : Bool} {m : Mdl K} {s : Sol K} (hh : Hist c (Single c.e vect) m0 m s) {φ : K → K} (hφ : ConvexOn K Set.univ φ) (hH : Shut m0 ∨ ∀ y, φ H ≤ φ y) {t t' : ℕ} (htt : t ≤ t') (ht' : t' ≤ s.tstep) :
    scatter M c.e φ s t' ≤ scatter M c.e φ s t := by
  induction t', htt using Nat.le_induction with
  | base => exact le_rfl
  | succ t' _ ih =>
    refine le_trans ?_ (ih (by omega))
    have b := held_change hr hx ht hh t' (by omega)
    have T := hr.ctx.grid.network vect
    have wf := hr.ctx.wf
    obtain ⟨k, hk, hS⟩ := storage hM he hc
    have := Net.spread_le (S := fun i => c.e.rhs (c.e.at i)) (D := fun i => toHead c.e (· = H) m0 i + toHead c.e (· ≠ H) m0 i) (H := H)
      (old := fun i => c.e.head (c.e.at i) (s.inner c.e t' i)) (x := fun i => c.e.head (c.e.at i) (s.inner c.e (t' + 1) i)) T.symm T.nonneg
      (fun i hi => wf.rhsC hc _ (at_mem c.e hi)) (fun i _ => add_nonneg (toHead_nonneg wf hr.started.mdl _ i) (toHead_nonneg wf hr.started.mdl _ i)) (fun i hi => by rw [← b i hi]; ring) hφ
      (hH.imp_left fun h i _ => by
        have z : ∀ (P : K → Prop) [DecidablePred P], toHead c.e P m0 i = 0 := fun P _ => by
          unfold toHead
          rw [h.2, List.map_nil, List.sum_nil, add_zero]
          refine List.sum_eq_zero fun y hy => ?_
          obtain ⟨b, hb, rfl⟩ := List.mem_map.1 hy
          rw [if_neg fun hk => h.1 b hb hk.1]
        rw [z, z, add_zero])
    have key : ∀ u : ℕ → K, ∑ i ∈ range c.e.n, c.e.rhs (c.e.at i) * u i = k * ∑ i ∈ range c.e.n, M.sizes.volume (M.g.dec (c.e.at i)) * M.phi.getD (c.e.at i) 0 * u i := fun u => by
      rw [mul_sum]
      exact sum_congr rfl fun i hi => by rw [hS _ (at_mem c.e (mem_range.1 hi))]; ring
    rw [key, key] at this
    rw [scatter_sum, scatter_sum]
    exact le_of_mul_le_mul_left this hk

end RF.Fdm
