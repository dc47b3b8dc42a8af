import Verif.Fdm.PropsInclined
import Verif.Fdm.PropsDarcy
import Verif.Fdm.PropsMB
import Verif.Fdm.PropsBetter
import Verif.Fdm.PropsConverge
import Verif.Fdm.PropsSetup
/-! # C102: heads stay between the heads that are given -/
set_option linter.unusedSectionVars false
namespace RF.Fdm
open RF RF.Dims Finset

variable {K : Type} [Field K] [LinearOrder K] [IsStrictOrderedRing K]

/-! ### Specification -/

/-- The head of the pressure `p` at the depth of cell `id` lies between two bounds. -/
def Env.HeadIn (e : Env K) (lo hi : K) (id : ℕ) (p : K) : Prop := lo ≤ e.head id p ∧ e.head id p ≤ hi

/-- All pressures a user gives, at boundaries (that touch a cell) and as limits of wells, are pressures at heads between the bounds. A well is at the depth of its cell. -/
structure GivenHeads (e : Env K) (m : Mdl K) (lo hi : K) : Prop where
  bd : ∀ b v id T, (b, "pressure", v) ∈ m.bdict → e.Face b id T → e.HeadIn lo hi b v
  well : ∀ w p, w ∈ m.wells → w.2.pwfsp = some p → e.HeadIn lo hi w.1 p

/-- Calls as in C37 (no well goes back to its rate, no bottom-hole pressure of zero with the vectorised assembler), the vectorised assembler only where all cells are at one depth. -/
def Upright (e : Env K) : Bool → Mdl K → Mdl K → Prop := fun v m m' => Calm v m m' ∧ (v = true → e.Flat)

/-! ### one step -/

lemma sum_nonpos' : ∀ {l : List K}, (∀ x, x ∈ l → x ≤ 0) → l.sum ≤ 0
  | [], _ => by simp
  | x :: l, h => by
    rw [List.sum_cons]
    exact add_nonpos (h x (by simp)) (sum_nonpos' fun y hy => h y (by simp [hy]))

lemma boundaryIn_heads {e : Env K} (he : e.WF) {rate : ℕ → K} (i : ℕ) (p : K) {b : ℕ × String × K} (hb : b.1 ∈ e.bnd)
    (hq : b.2.1 ≠ "pressure" → rate b.1 = 0) : boundaryIn e rate p i b = bLeak e i b * (e.head b.1 b.2.2 - e.head (e.at i) p) := by
  unfold boundaryIn bLeak faceLeak Env.head
  rcases he.face b.1 hb with h | ⟨id, T, hid, -, h⟩
  · rw [h]; simp
  · rw [show e.transC b.1 false = _ from h]
    dsimp only
    by_cases hp : b.2.1 = "pressure"
    · rw [if_pos hp, if_pos hp]
      by_cases h1 : id = e.at i
      · rw [if_pos h1, if_pos h1, h1]; ring
      · rw [if_neg h1, if_neg h1]; ring
    · rw [if_neg hp, if_neg hp, hq hp]; simp

lemma wellIn_heads {e : Env K} (i : ℕ) (p : K) {w : ℕ × Well K} (hw : WellOK w.2) (hq : w.2.con = some .q → w.2.q = some 0) :
    wellIn e p i w = wLeak e i w * (e.head w.1 (w.2.pwfsp.getD 0) - e.head (e.at i) p) := by
  unfold wellIn wLeak wellFlow windex Env.head
  rcases h : w.2.con with _ | _ | _
  · simp
  · simp [hq h]
  · have := hw.lim h
    by_cases h1 : w.1 = e.at i <;> simp [h1, this]

/-- Net inflow when all cells are at head `H`. -/
lemma excess_heads {c : Ctx K} {m0 m : Mdl K} {s : Sol K} {vect : Bool} (hr : Ready c m0) (hh : Hist c Calm m0 m s) (hns : NoSources m0) (H : K) (i : ℕ) :
    excess c.e (c.e.trans vect) m (usedRate vect m s) (s.inner c.e s.tstep) (fun j => H + c.e.grav * c.e.z (c.e.at j)) i =
      (m.bdict.map fun b => bLeak c.e i b * (c.e.head b.1 b.2.2 - H)).sum + (m.wells.map fun w => wLeak c.e i w * (c.e.head w.1 (w.2.pwfsp.getD 0) - H)).sum +
        c.e.rhs (c.e.at i) * (c.e.head (c.e.at i) (s.inner c.e s.tstep i) - H) := by
  obtain ⟨hin, hq⟩ := hr.calm hh
  have he := hr.ctx.wf
  have hH : c.e.head (c.e.at i) (H + c.e.grav * c.e.z (c.e.at i)) = H := by unfold Env.head; ring
  unfold excess outsideIn
  have t0 : ∑ j ∈ range c.e.n, c.e.trans vect i j * (H + c.e.grav * c.e.z (c.e.at j) - (H + c.e.grav * c.e.z (c.e.at i)) - c.e.grav * (c.e.z (c.e.at j) - c.e.z (c.e.at i))) = 0 :=
    sum_eq_zero fun j _ => by ring
  have t1 : (m.bdict.map (boundaryIn c.e (usedRate vect m s) (H + c.e.grav * c.e.z (c.e.at i)) i)).sum = (m.bdict.map fun b => bLeak c.e i b * (c.e.head b.1 b.2.2 - H)).sum := by
    congr 1
    refine List.map_congr_left fun b hb' => ?_
    have hb0 : b ∈ m0.bdict := by rw [← hin.same.bdict]; exact hb'
    rw [boundaryIn_heads he i _ (hin.mdl.bmem b hb') fun hp => ?_, hH]
    rw [usedRate_eq he hr.started.mdl hin vect hb0 hp]
    cases vect
    · exact hns.bd b hb0 hp
    · exact hr.setup.zero_rates hr.canon b hb0 hp (hns.bd b hb0 hp)
  have t2 : (m.wells.map (wellIn c.e (H + c.e.grav * c.e.z (c.e.at i)) i)).sum = (m.wells.map fun w => wLeak c.e i w * (c.e.head w.1 (w.2.pwfsp.getD 0) - H)).sum := by
    congr 1
    refine List.map_congr_left fun w hw => ?_
    rw [wellIn_heads i _ (hin.mdl.well w hw) fun hcq => ?_, hH]
    obtain ⟨x, hx0, h1⟩ := (forall2_mem hin.same.wells).1 w hw
    have h2 := hq.tame w hw hcq
    rw [h1.2.2.2] at h2
    rcases hns.well x hx0 with h3 | h3
    · exact absurd hcq ((hin.mdl.well w hw).free (by rw [h1.2.2.2]; exact h3)).2
    · rw [h2, h3]
  rw [t0, t1, t2]
  unfold Env.head; ring

/-- Upper and lower bounds of the heads after an attempt without sources. -/
lemma attempt_heads {c : Ctx K} {m0 m m' : Mdl K} {s s' : Sol K} {vect again : Bool} (hr : Ready c m0) (hx : Exact c.lin) (hh : Hist c Calm m0 m s)
    (hf : vect = true → c.e.Flat) (ha : Anchored c.e m0) (hns : NoSources m0) (hat : attempt c vect m s = .ok (m', s', again)) (hz : vect = true → NoZeroPwf m) {lo hi : K}
    (hold : c.e.comp = true → ∀ i, i < c.e.n → c.e.HeadIn lo hi (c.e.at i) (s.inner c.e s.tstep i)) (hg : GivenHeads c.e m0 lo hi) :
    ∀ i, i < c.e.n → c.e.HeadIn lo hi (c.e.at i) (s'.inner c.e s'.tstep i) := by
  obtain ⟨hin, hq⟩ := hr.calm hh
  have he := hr.ctx.wf
  have hb := step_balance hr.ctx hx hin hq hf hz hat
  have hT := hr.ctx.grid.network vect
  have han := anchored_leaky he hT hin.mdl (hh.anchored hr ha)
  have bv : ∀ i b, b ∈ m.bdict → 0 ≤ bLeak c.e i b * (c.e.head b.1 b.2.2 - lo) ∧ bLeak c.e i b * (c.e.head b.1 b.2.2 - hi) ≤ 0 := by
    intro i b hb'
    have hn := bLeak_nonneg he i (hin.mdl.bmem b hb')
    by_cases hp : b.2.1 = "pressure"
    · rcases he.face b.1 (hin.mdl.bmem b hb') with h | ⟨id, T, hid, -, h⟩
      · have : bLeak c.e i b = 0 := by unfold bLeak faceLeak; rw [h]; simp
        simp [this]
      · obtain ⟨h1, h2⟩ := hg.bd b.1 b.2.2 id T (by rw [← hin.same.bdict, ← hp]; exact hb') h
        exact ⟨mul_nonneg hn (sub_nonneg.2 h1), mul_nonpos_of_nonneg_of_nonpos hn (sub_nonpos.2 h2)⟩
    · have : bLeak c.e i b = 0 := by unfold bLeak; rw [if_neg hp]
      simp [this]
  have wv : ∀ i w, w ∈ m.wells → 0 ≤ wLeak c.e i w * (c.e.head w.1 (w.2.pwfsp.getD 0) - lo) ∧ wLeak c.e i w * (c.e.head w.1 (w.2.pwfsp.getD 0) - hi) ≤ 0 := by
    intro i w hw
    have hn := wLeak_nonneg he i (hin.mdl.well w hw)
    obtain ⟨x, hx0, h1⟩ := (forall2_mem hin.same.wells).1 w hw
    obtain ⟨p, hp⟩ := (hin.mdl.well w hw).sp
    obtain ⟨h2, h3⟩ := hg.well x p hx0 (by rw [← h1.2.2.1]; exact hp)
    rw [← h1.1] at h2 h3
    rw [hp, Option.getD_some]
    exact ⟨mul_nonneg hn (sub_nonneg.2 h2), mul_nonpos_of_nonneg_of_nonpos hn (sub_nonpos.2 h3)⟩
  have rv : ∀ i, i < c.e.n → 0 ≤ c.e.rhs (c.e.at i) * (c.e.head (c.e.at i) (s.inner c.e s.tstep i) - lo) ∧
      c.e.rhs (c.e.at i) * (c.e.head (c.e.at i) (s.inner c.e s.tstep i) - hi) ≤ 0 := by
    intro i hi'
    rcases hcm : c.e.comp
    · simp [he.rhsI hcm]
    · obtain ⟨h1, h2⟩ := hold hcm i hi'
      have hn := rhs_nonneg he (at_mem c.e hi')
      exact ⟨mul_nonneg hn (sub_nonneg.2 h1), mul_nonpos_of_nonneg_of_nonpos hn (sub_nonpos.2 h2)⟩
  have low : ∀ i, i < c.e.n → lo + c.e.grav * c.e.z (c.e.at i) ≤ s'.inner c.e s'.tstep i := by
    refine Net.le_of_inflow_le (p := fun i => lo + c.e.grav * c.e.z (c.e.at i)) han fun i hin' => ?_
    have e1 := excess_linear c.e hT m (usedRate vect m s) (s.inner c.e s.tstep) (s'.inner c.e s'.tstep) hin'
    have e2 := excess_linear c.e hT m (usedRate vect m s) (s.inner c.e s.tstep) (fun i => lo + c.e.grav * c.e.z (c.e.at i)) hin'
    rw [excess_heads hr hh hns] at e2
    rw [hb i hin'] at e1
    have k1 : 0 ≤ (m.bdict.map fun b => bLeak c.e i b * (c.e.head b.1 b.2.2 - lo)).sum := List.sum_nonneg fun x hx => by
      obtain ⟨b, hb', rfl⟩ := List.mem_map.1 hx
      exact (bv i b hb').1
    have k2 : 0 ≤ (m.wells.map fun w => wLeak c.e i w * (c.e.head w.1 (w.2.pwfsp.getD 0) - lo)).sum := List.sum_nonneg fun x hx => by
      obtain ⟨w, hw, rfl⟩ := List.mem_map.1 hx
      exact (wv i w hw).1
    have k3 := (rv i hin').1
    linarith
  have high : ∀ i, i < c.e.n → s'.inner c.e s'.tstep i ≤ hi + c.e.grav * c.e.z (c.e.at i) := by
    refine Net.le_of_inflow_le (q := fun i => hi + c.e.grav * c.e.z (c.e.at i)) han fun i hin' => ?_
    have e1 := excess_linear c.e hT m (usedRate vect m s) (s.inner c.e s.tstep) (s'.inner c.e s'.tstep) hin'
    have e2 := excess_linear c.e hT m (usedRate vect m s) (s.inner c.e s.tstep) (fun i => hi + c.e.grav * c.e.z (c.e.at i)) hin'
    rw [excess_heads hr hh hns] at e2
    rw [hb i hin'] at e1
    have k1 : (m.bdict.map fun b => bLeak c.e i b * (c.e.head b.1 b.2.2 - hi)).sum ≤ 0 := sum_nonpos' fun x hx => by
      obtain ⟨b, hb', rfl⟩ := List.mem_map.1 hx
      exact (bv i b hb').2
    have k2 : (m.wells.map fun w => wLeak c.e i w * (c.e.head w.1 (w.2.pwfsp.getD 0) - hi)).sum ≤ 0 := sum_nonpos' fun x hx => by
      obtain ⟨w, hw, rfl⟩ := List.mem_map.1 hx
      exact (wv i w hw).2
    have k3 := (rv i hin').2
    linarith
  intro i hi'
  have h1 := low i hi'
  have h2 := high i hi'
  unfold Env.HeadIn Env.head
  constructor <;> linarith

/-! ### histories -/

/-- **C102** (partial): whatever is done with a model without imposed rates, from any completed step `t0` on all heads of cells lie between any bounds of the heads of the pressures given by the user and, if the fluid is compressible, of the heads of the cells at step `t0`; of an incompressible fluid, at every later step whatever the pressures at step `t0`. -/
theorem C102_heads_partial {c : Ctx K} {m0 m : Mdl K} {s : Sol K} (hr : Ready c m0) (hx : Exact c.lin) (ha : Anchored c.e m0) (hns : NoSources m0)
    (h : Hist c (Upright c.e) m0 m s) {lo hi : K} (hg : GivenHeads c.e m0 lo hi) (t0 : ℕ)
    (hstart : c.e.comp = true → ∀ id, id ∈ c.e.ids → ∃ p, rowAt s.press t0 none id = some p ∧ c.e.HeadIn lo hi id p) :
    ∀ t, t0 ≤ t → t ≤ s.tstep → (c.e.comp = true ∨ t0 < t) → ∀ id, id ∈ c.e.ids → ∃ p, rowAt s.press t none id = some p ∧ c.e.HeadIn lo hi id p := by
  have cm : ∀ {m : Mdl K} {s : Sol K}, Hist c (Upright c.e) m0 m s → Hist c Calm m0 m s := fun h => h.weaken fun _ _ _ hp => hp.1
  induction h with
  | start =>
    intro t h0 ht hc id hid
    have e1 : t = 0 := by simpa [Sol.init] using ht
    have e2 : t0 = t := by omega
    rcases hc with hc | hc
    · subst e2; exact hstart hc id hid
    · omega
  | @step m s vect m' s' hh hat hp ih =>
    obtain ⟨m1, s1, A, d, x, p, r', ps, h1⟩ := attempted hr.ctx.lower hr.ctx.wf (hr.inv hh) hat
    have old : ∀ t, t ≤ s.tstep → ∀ id, rowAt s'.press t none id = rowAt s.press t none id := fun t ht id => by
      rw [h1.press, rowAt_append_lt (by rw [(hr.inv hh).plen]; omega)]
    intro t h0 ht hc id hid
    rw [h1.tstep] at ht
    by_cases ht0 : t0 = s.tstep + 1
    · have : t = t0 := by omega
      subst this
      rcases hc with hc | hc
      · exact hstart hc id hid
      · omega
    have ih' := ih fun hcm id hid => by
      obtain ⟨p, h2, h3⟩ := hstart hcm id hid
      exact ⟨p, by rw [← old t0 (by omega)]; exact h2, h3⟩
    by_cases ht' : t = s.tstep + 1
    · subst ht'
      have := attempt_heads hr hx (cm hh) hp.2 ha hns hat hp.1.2 (fun hcm i hin => by
        obtain ⟨p, h2, h3⟩ := ih' s.tstep (by omega) le_rfl (.inl hcm) _ (at_mem c.e hin)
        unfold Sol.inner; rw [h2]; exact h3) hg
      have hi' := idx_lt c.e hid
      have h3 := this _ hi'
      have h4 := row_inner hr (hr.inv hh) hat hi'
      rw [at_idx c.e hid] at h4 h3
      rw [← h1.tstep]
      exact ⟨_, h4, h3⟩
    · rw [old t (by omega)]
      exact ih' t h0 (by omega) hc id hid
  | again hh hat hp ih =>
    obtain ⟨m1, s1, A, d, x, p, r', ps, h1⟩ := attempted hr.ctx.lower hr.ctx.wf (hr.inv hh) hat
    obtain ⟨b1, -, b3⟩ := back_attempted (hr.inv hh) h1
    rw [b1] at hstart
    rw [b1, b3]; exact ih hstart
  | look hh hat ih =>
    obtain ⟨-, vA, bV, res, sM, rfl⟩ := assemble_frame hat
    exact ih hstart
  | clock n t _ ih => exact ih hstart

/-- Any calls on models whose wells are all given non-zero bottom-hole pressures and no rates are covered, if the vectorised assembler is used only where all cells are at one depth. -/
theorem C102_pressure_wells {c : Ctx K} {m0 m : Mdl K} {s : Sol K} (hr : Ready c m0) (hx : Exact c.lin) (ha : Anchored c.e m0) (hbz : ∀ b, b ∈ m0.bdict → b.2.1 ≠ "pressure" → b.2.2 = 0)
    (hw : PressureWells m0) (h : Hist c (VectLevel c.e) m0 m s) {lo hi : K} (hg : GivenHeads c.e m0 lo hi) (t0 : ℕ)
    (hstart : c.e.comp = true → ∀ id, id ∈ c.e.ids → ∃ p, rowAt s.press t0 none id = some p ∧ c.e.HeadIn lo hi id p) :
    Hist c (Upright c.e) m0 m s ∧
    ∀ t, t0 ≤ t → t ≤ s.tstep → (c.e.comp = true ∨ t0 < t) → ∀ id, id ∈ c.e.ids → ∃ p, rowAt s.press t none id = some p ∧ c.e.HeadIn lo hi id p := by
  have hu : Hist c (Upright c.e) m0 m s := by
    have keep : ∀ {m : Mdl K} {s : Sol K}, Hist c (VectLevel c.e) m0 m s → PressureWells m ∧ ∀ w, w ∈ m.wells → w.2.con = some .pwf := by
      intro m s h
      have h' : Hist c Any m0 m s := h.weaken fun _ _ _ _ => trivial
      refine ⟨fun w hw' => ?_, (h'.pressureWells hr hw).2⟩
      obtain ⟨x, hx, h1⟩ := (forall2_mem (hr.inv h).same.wells).1 w hw'
      rw [h1.2.2.2, h1.2.2.1]; exact hw x hx
    have move : ∀ {m m' : Mdl K} {s s' : Sol K} {vect again : Bool}, Hist c (VectLevel c.e) m0 m s → attempt c vect m s = .ok (m', s', again) → Calm vect m m' := by
      intro m m' s s' vect again h ha
      obtain ⟨hk, hc⟩ := keep h
      obtain ⟨m1, s1, A, d, x, p, r', ps, h1⟩ := attempted hr.ctx.lower hr.ctx.wf (hr.inv h) ha
      have : ∀ w, w ∈ m'.wells → w.2.con = some .pwf := by
        intro w hw'
        obtain ⟨y, hy, h2, h3⟩ := (forall2_mem h1.move).1 w hw'
        exact move_pwf h3 (hk y hy).1 (hc y hy)
      exact ⟨fun x y _ hy _ _ => this y hy, fun _ x hx _ => (hk x hx).2⟩
    clear hstart
    induction h with
    | start => exact .start
    | step h ha hp ih => exact .step ih ha ⟨move h ha, hp⟩
    | again h ha hp ih => exact .again ih ha ⟨move h ha, hp⟩
    | look h ha ih => exact .look ih ha
    | clock n t _ ih => exact .clock n t ih
  exact ⟨hu, C102_heads_partial hr hx ha ⟨hbz, fun w h => .inl (hw w h).1⟩ hu hg t0 hstart⟩

/-- **C102** (partial), what is recorded: where the head given at a boundary is the highest of all, the recorded rate is never out of the reservoir, where it is the lowest, never into it. So for the limits of wells without a target rate. -/
theorem C102_direction_partial {c : Ctx K} {m0 m : Mdl K} {s : Sol K} (hr : Ready c m0) (hx : Exact c.lin) (ha : Anchored c.e m0) (hns : NoSources m0)
    (h : Hist c (Upright c.e) m0 m s) {lo hi : K} (hg : GivenHeads c.e m0 lo hi) (t0 : ℕ)
    (hstart : c.e.comp = true → ∀ id, id ∈ c.e.ids → ∃ p, rowAt s.press t0 none id = some p ∧ c.e.HeadIn lo hi id p) (t : ℕ) (h0 : t0 < t) (ht : t ≤ s.tstep) :
    (∀ b v, (b, "pressure", v) ∈ m0.bdict → (c.e.head b v = hi → 0 ≤ rowAt s.rates t 0 b) ∧ (c.e.head b v = lo → rowAt s.rates t 0 b ≤ 0)) ∧
    ∀ w p, w ∈ m0.wells → w.2.qsp = none → w.2.pwfsp = some p → (c.e.head w.1 p = hi → 0 ≤ rowAt s.rates t 0 w.1) ∧ (c.e.head w.1 p = lo → rowAt s.rates t 0 w.1 ≤ 0) := by
  have hc : Hist c Calm m0 m s := h.weaken fun _ _ _ hp => hp.1
  have hb := C102_heads_partial hr hx ha hns h hg t0 hstart t h0.le ht (.inr h0)
  obtain ⟨f1, f2⟩ := hist_fluxes hr hc
  refine ⟨fun b v hbm => ?_, fun w p hw hq hp => ?_⟩
  · obtain ⟨id, T, hF⟩ := f2 b v hbm (by omega)
    obtain ⟨hid, hT⟩ := face_mem hr.ctx.wf (hr.started.mdl.bmem _ hbm) hF
    obtain ⟨q, h1, h2, h3⟩ := hb id hid
    have e1 : rowAt s.rates t 0 b = 2 * T * (c.e.head b v - c.e.head id q) := by
      rw [f1 t (by omega) ht b v id T hbm hF, h1]
      unfold Env.head; simp only [Option.getD_some]; ring
    rw [e1]
    exact ⟨fun hv => mul_nonneg (by linarith) (by rw [hv]; linarith), fun hv => mul_nonpos_of_nonneg_of_nonpos (by linarith) (by rw [hv]; linarith)⟩
  · have hid : w.1 ∈ c.e.ids := hr.started.mdl.wmem w hw
    obtain ⟨q, h1, h2, h3⟩ := hb w.1 hid
    have hn : 0 ≤ windex c.e w.2 := (windex_pos hr.ctx.wf.B hr.ctx.wf.mu (hr.started.mdl.well w hw)).le
    have e1 : rowAt s.rates t 0 w.1 = windex c.e w.2 * (c.e.head w.1 p - c.e.head w.1 q) := by
      rw [hist_best hr hc t (by omega) ht w hw, show s.at t w.1 = some q from h1]
      unfold bestRate Env.head
      rw [hq, hp]; simp only [Option.getD_some]; ring
    rw [e1]
    exact ⟨fun hv => mul_nonneg hn (by rw [hv]; linarith), fun hv => mul_nonpos_of_nonneg_of_nonpos hn (by rw [hv]; linarith)⟩

/-- **C102** (partial), fluid at rest: if everything that is given is given at one head, and a compressible fluid is at this head at step `t0`, then at all later steps the pressure of every cell is the weight of the fluid above it plus this head, and nothing flows anywhere. -/
theorem C102_hydrostatic_partial {c : Ctx K} {m0 m : Mdl K} {s : Sol K} (hr : Ready c m0) (hx : Exact c.lin) (ha : Anchored c.e m0) (hns : NoSources m0)
    (h : Hist c (Upright c.e) m0 m s) {H : K} (hbd : ∀ b v, (b, "pressure", v) ∈ m0.bdict → v = H + c.e.grav * c.e.z b)
    (hwl : ∀ w p, w ∈ m0.wells → w.2.pwfsp = some p → p = H + c.e.grav * c.e.z w.1) (t0 : ℕ)
    (hstart : c.e.comp = true → ∀ id, id ∈ c.e.ids → rowAt s.press t0 none id = some (H + c.e.grav * c.e.z id)) (t : ℕ) (h0 : t0 < t) (ht : t ≤ s.tstep) :
    (∀ id, id ∈ c.e.ids → rowAt s.press t none id = some (H + c.e.grav * c.e.z id)) ∧
    (∀ b v, (b, "pressure", v) ∈ m0.bdict → rowAt s.rates t 0 b = 0) ∧ ∀ w, w ∈ m0.wells → rowAt s.rates t 0 w.1 = 0 := by
  have hH : ∀ id, c.e.head id (H + c.e.grav * c.e.z id) = H := fun id => by unfold Env.head; ring
  have hg : GivenHeads c.e m0 H H :=
    ⟨fun b v _ _ hb _ => by rw [hbd b v hb]; unfold Env.HeadIn; rw [hH]; exact ⟨le_rfl, le_rfl⟩, fun w p hw hp => by rw [hwl w p hw hp]; unfold Env.HeadIn; rw [hH]; exact ⟨le_rfl, le_rfl⟩⟩
  have hs : c.e.comp = true → ∀ id, id ∈ c.e.ids → ∃ p, rowAt s.press t0 none id = some p ∧ c.e.HeadIn H H id p := fun hcm id hid =>
    ⟨_, hstart hcm id hid, by unfold Env.HeadIn; rw [hH]; exact ⟨le_rfl, le_rfl⟩⟩
  have hp : ∀ id, id ∈ c.e.ids → rowAt s.press t none id = some (H + c.e.grav * c.e.z id) := fun id hid => by
    obtain ⟨p, h1, h2, h3⟩ := C102_heads_partial hr hx ha hns h hg t0 hs t h0.le ht (.inr h0) id hid
    rw [h1, show p = H + c.e.grav * c.e.z id from by unfold Env.head at h2 h3; linarith]
  obtain ⟨d1, d2⟩ := C102_direction_partial hr hx ha hns h hg t0 hs t h0 ht
  refine ⟨hp, fun b v hb => ?_, fun w hw => ?_⟩
  · have hv : c.e.head b v = H := by rw [hbd b v hb]; exact hH b
    exact le_antisymm ((d1 b v hb).2 hv) ((d1 b v hb).1 hv)
  · obtain ⟨p, hpw⟩ := (hr.started.mdl.well w hw).sp
    rw [hist_best hr (h.weaken fun _ _ _ hp => hp.1) t (by omega) ht w hw, show s.at t w.1 = _ from hp w.1 (hr.started.mdl.wmem w hw)]
    unfold bestRate
    rw [hpw, hwl w p hw hpw]
    rcases hns.well w hw with h3 | h3 <;> rw [h3] <;> simp

/-- **C37, inclined reservoirs, vectorised.** Whatever the depths of the cells, with wells that are given bottom-hole pressures (not 0) and no imposed rates, all cell pressures of a run with the vectorised assembler
lie between any bounds of the initial pressures (compressible only), the bottom-hole pressures and the boundary pressures less the weight of the fluid between the boundary and the cell behind it. -/
theorem C37_inclined_partial {c : Ctx K} {m : Mdl K} (hr : Ready c m) (hx : Exact c.lin) (ha : Anchored c.e m) (hbz : ∀ b, b ∈ m.bdict → b.2.1 ≠ "pressure" → b.2.2 = 0) (hw : PressureWells m) (lo hi : K)
    (hinit : c.e.comp = true → ∀ id, id ∈ c.e.ids → ∃ p, m.initP id = some p ∧ lo ≤ p ∧ p ≤ hi)
    (hbd : ∀ b v id T, (b, "pressure", v) ∈ m.bdict → c.e.Face b id T → lo ≤ v - c.e.grav * (c.e.z b - c.e.z id) ∧ v - c.e.grav * (c.e.z b - c.e.z id) ≤ hi)
    (hwl : ∀ w p, w ∈ m.wells → w.2.pwfsp = some p → lo ≤ p ∧ p ≤ hi) (f N : ℕ) (el : K) :
    ∀ t, t ≤ (run c f true N el m (Sol.init m)).1.2.tstep → (c.e.comp = true ∨ 0 < t) → ∀ id, id ∈ c.e.ids →
      ∃ p, rowAt (run c f true N el m (Sol.init m)).1.2.press t none id = some p ∧ lo ≤ p ∧ p ≤ hi := by
  obtain ⟨M, hM, he⟩ := hr.ctx.grid
  have he' : (M.moved (levelled M c.e) c.e.grav).env = .ok (c.moved (fun id => (levelled M c.e).getD id 0) c.e.grav).e := moved_env he _ _
  have hM' : (M.moved (levelled M c.e) c.e.grav).Pos := ⟨hM.geom, hM.sizes, hM.rock, hM.perm, hM.permB, hM.β, hM.mu, hM.B, hM.vconv, hM.dt, hM.phi, hM.ct⟩
  have r : Ready (c.moved (fun id => (levelled M c.e).getD id 0) c.e.grav) m := ⟨⟨hr.ctx.lower, ⟨_, hM', he'⟩, hr.ctx.scale⟩, setup_moved hr.setup, hr.G, hr.cfg, hr.canon⟩
  rw [← C49_depths_ignored he _ _ he' rfl rfl rfl hr (fun w h => (hw w h).1) (fun b id T hb _ hf => by rw [levelled_head hM he (hr.started.mdl.bmem b hb) hf]) f N el]
  have zc : ∀ id, id ∈ c.e.ids → ∀ p, (c.moved (fun id => (levelled M c.e).getD id 0) c.e.grav).e.head id p = p := fun id hid p => by
    show p - c.e.grav * (levelled M c.e).getD id 0 = p
    rw [levelled_inner he hid]; ring
  have hh : Hist (c.moved (fun id => (levelled M c.e).getD id 0) c.e.grav) Any m _ _ := Hist.run r.ctx.lower r.ctx.wf r.started.mdl N el (fuel := f) (vect := true) (m := m) (s := Sol.init m) .start (runAll_any _ _ _ _ _ _)
  intro t ht hc id hid
  have flat : (c.moved (fun id => (levelled M c.e).getD id 0) c.e.grav).e.Flat := .inr fun i hi => by
    show (levelled M c.e).getD (c.e.at i) 0 = (levelled M c.e).getD (c.e.at 0) 0
    rw [levelled_inner he (at_mem c.e hi), levelled_inner he (at_mem c.e hr.ctx.wf.pos)]
  have hg : GivenHeads (c.moved (fun id => (levelled M c.e).getD id 0) c.e.grav).e m lo hi := by
    refine ⟨fun b v id T hb hF => ?_, fun w p hw' hp => ?_⟩
    · have hF' : c.e.Face b id T := hF
      have h1 := levelled_head hM he (hr.started.mdl.bmem _ hb) hF'
      rw [levelled_inner he (face_mem hr.ctx.wf (hr.started.mdl.bmem _ hb) hF').1, sub_zero] at h1
      show lo ≤ v - c.e.grav * (levelled M c.e).getD b 0 ∧ v - c.e.grav * (levelled M c.e).getD b 0 ≤ hi
      rw [h1]; exact hbd b v id T hb hF'
    · unfold Env.HeadIn
      rw [zc w.1 (hr.started.mdl.wmem w hw')]; exact hwl w p hw' hp
  have hv : Hist (c.moved (fun id => (levelled M c.e).getD id 0) c.e.grav) (VectLevel (c.moved (fun id => (levelled M c.e).getD id 0) c.e.grav).e) m _ _ := hh.weaken fun _ _ _ _ => fun _ => flat
  obtain ⟨p, h1, h2⟩ := (C102_pressure_wells r hx ha hbz hw hv hg 0 fun hcm id hid => by
    obtain ⟨p, h1, h2⟩ := hinit hcm id hid
    refine ⟨p, ?_, by unfold Env.HeadIn; rw [zc id hid]; exact h2⟩
    rw [Hist.first r hh, show (Fdm.run (c.moved (fun id => (levelled M c.e).getD id 0) c.e.grav) f true N el m (Sol.init m)).1.1.initP = m.initP from (r.inv hh).same.initP]
    exact h1).2 t (by omega) ht hc id hid
  unfold Env.HeadIn at h2
  rw [zc id hid] at h2
  exact ⟨p, h1, h2⟩

/-! ### examples -/

/-- On a slope, an incompressible fluid: pressure 10 at depth 4, pressure 30 at depth 9, a well at bottom-hole pressure 21 at depth 7. The heads are -2, 3 and 0. -/
def exHeads : Mdl ℚ := exMdl false 3 [4, 5, 7, 9] (some 8) [(0, "pressure", 10), (3, "pressure", 30)] [(2, { pwf := some 21, r := some 1 })]

lemma exHeads_ready : Ready (exC false 3 [4, 5, 7, 9]) exHeads := exMdl_ready (by decide +kernel)

/-- On the same slope everything is given at head -2. -/
def exRest : Mdl ℚ := exMdl false 3 [4, 5, 7, 9] (some 8) [(0, "pressure", 10), (3, "rate", 0)] [(2, { pwf := some 19, r := some 1 })]

lemma exRest_ready : Ready (exC false 3 [4, 5, 7, 9]) exRest := exMdl_ready (by decide +kernel)

/-- A compressible fluid in two cells at depth 5, at pressure 13 from the start, with pressure 10 given at a face at depth 4: all at head -2. -/
def exStill : Mdl ℚ := exMdl true 3 [4, 5, 5, 9] (some 13) [(0, "pressure", 10), (3, "rate", 0)] []

lemma exStill_ready : Ready (exC true 3 [4, 5, 5, 9]) exStill := exMdl_ready (by decide +kernel)

lemma symbolic_upright {c : Ctx ℚ} {m : Mdl ℚ} (hr : Ready c m) (n : ℕ) : Hist c (VectLevel c.e) m (exRun c false n m).1 (exRun c false n m).2 :=
  (exRun_vect hr false n).weaken fun v _ _ hv => fun h => by rw [hv] at h; simp at h

/-- The hypotheses are met on a slope, the heads of the cells really differ, and fluid enters at the highest head and leaves at the lowest one. -/
example : Ready (exC false 3 [4, 5, 7, 9]) exHeads ∧ Exact (exC false 3 [4, 5, 7, 9]).lin ∧ Anchored (exC false 3 [4, 5, 7, 9]).e exHeads ∧ PressureWells exHeads ∧
    ¬ (exC false 3 [4, 5, 7, 9]).e.Flat ∧ (∀ b, b ∈ exHeads.bdict → b.2.1 ≠ "pressure" → b.2.2 = 0) ∧ GivenHeads (exC false 3 [4, 5, 7, 9]).e exHeads (-2) 3 ∧
    Hist (exC false 3 [4, 5, 7, 9]) (VectLevel (exC false 3 [4, 5, 7, 9]).e) exHeads (exRun (exC false 3 [4, 5, 7, 9]) false 2 exHeads).1 (exRun (exC false 3 [4, 5, 7, 9]) false 2 exHeads).2 ∧
    (exRun (exC false 3 [4, 5, 7, 9]) false 2 exHeads).2.tstep = 2 ∧
    (exRun (exC false 3 [4, 5, 7, 9]) false 2 exHeads).2.press.map (fun r => ((r 1).map ((exC false 3 [4, 5, 7, 9]).e.head 1), (r 2).map ((exC false 3 [4, 5, 7, 9]).e.head 2))) =
      [(some (-7), some (-13)), (some (-10 / 11), some (14 / 11)), (some (-10 / 11), some (14 / 11))] ∧
    (exRun (exC false 3 [4, 5, 7, 9]) false 2 exHeads).2.rates.map (fun r => (r 0, r 2, r 3)) = [(0, 0, 0), (-24 / 11, -14 / 11, 38 / 11), (-24 / 11, -14 / 11, 38 / 11)] :=
  ⟨exHeads_ready, cramer_exact, .inr (.inl ⟨(0, "pressure", 10), 1, 1, by decide +kernel, rfl, by unfold Env.Face; decide +kernel, by norm_num⟩),
    all_of (p := fun w : ℕ × Well ℚ => w.2.qsp = none ∧ w.2.pwfsp ≠ some 0) (by decide +kernel), by
      rintro (h | h)
      · exact absurd h (by decide +kernel)
      · exact absurd (h 1 (by decide +kernel)) (by decide +kernel),
    all_of (p := fun b : ℕ × String × ℚ => b.2.1 ≠ "pressure" → b.2.2 = 0) (by decide +kernel),
    ⟨fun b v _ _ hb _ => by
        have := all_of (p := fun b : ℕ × String × ℚ => b.2.1 = "pressure" → -2 ≤ (exC false 3 [4, 5, 7, 9]).e.head b.1 b.2.2 ∧ (exC false 3 [4, 5, 7, 9]).e.head b.1 b.2.2 ≤ 3)
          (l := exHeads.bdict) (by decide +kernel) _ hb rfl
        exact this,
      fun w p hw hp => by
        have := all_of (p := fun w : ℕ × Well ℚ => -2 ≤ (exC false 3 [4, 5, 7, 9]).e.head w.1 (w.2.pwfsp.getD 0) ∧ (exC false 3 [4, 5, 7, 9]).e.head w.1 (w.2.pwfsp.getD 0) ≤ 3)
          (l := exHeads.wells) (by decide +kernel) _ hw
        rw [hp] at this; exact this⟩,
    symbolic_upright exHeads_ready 2, by decide +kernel, by decide +kernel, by decide +kernel⟩

/-- A compressible fluid that moves: the hypotheses of the bounds are met from the first row on. -/
example : Ready (exC true 3 [4, 5, 7, 9]) exHill ∧ Anchored (exC true 3 [4, 5, 7, 9]).e exHill ∧ PressureWells exHill ∧
    ((exC true 3 [4, 5, 7, 9]).e.ids.all fun id => decide (-19 ≤ (exC true 3 [4, 5, 7, 9]).e.head id 8 ∧ (exC true 3 [4, 5, 7, 9]).e.head id 8 ≤ -2)) = true ∧
    (exC true 3 [4, 5, 7, 9]).e.head 0 10 = -2 ∧ (exC true 3 [4, 5, 7, 9]).e.head 2 2 = -19 ∧ (exRun (exC true 3 [4, 5, 7, 9]) false 2 exHill).2.tstep = 2 :=
  ⟨exHill_ready, .inl (by decide +kernel), all_of (p := fun w : ℕ × Well ℚ => w.2.qsp = none ∧ w.2.pwfsp ≠ some 0) (by decide +kernel), by decide +kernel, by decide +kernel,
    by decide +kernel, by decide +kernel⟩

/-- The hypotheses of `C37_inclined_partial` are met by a compressible fluid on a slope, with bounds 2 and 13: the boundary pressure of 10 counts as 13. -/
example : Ready (exC true 3 [4, 5, 7, 9]) exHill ∧ ¬ (exC true 3 [4, 5, 7, 9]).e.Flat ∧ (∀ b, b ∈ exHill.bdict → b.2.1 ≠ "pressure" → b.2.2 = 0) ∧
    (exC true 3 [4, 5, 7, 9]).e.Face 0 1 1 ∧ (10 : ℚ) - (exC true 3 [4, 5, 7, 9]).e.grav * ((exC true 3 [4, 5, 7, 9]).e.z 0 - (exC true 3 [4, 5, 7, 9]).e.z 1) = 13 ∧
    exHill.initP 1 = some 8 ∧ exHill.initP 2 = some 8 ∧ (run (exC true 3 [4, 5, 7, 9]) 10 true 3 0 exHill (Sol.init exHill)).2 = .ok () ∧
    (run (exC true 3 [4, 5, 7, 9]) 10 true 3 0 exHill (Sol.init exHill)).1.2.tstep = 3 :=
  ⟨exHill_ready, by
      rintro (h | h)
      · exact absurd h (by decide +kernel)
      · exact absurd (h 1 (by decide +kernel)) (by decide +kernel),
    all_of (p := fun b : ℕ × String × ℚ => b.2.1 ≠ "pressure" → b.2.2 = 0) (by decide +kernel), by unfold Env.Face; decide +kernel, by decide +kernel, by decide +kernel, by decide +kernel,
    isOk_unit (by decide +kernel), by decide +kernel⟩

/-- A compressible fluid at rest: the hypotheses of `C102_hydrostatic_partial` are met with `t0 = 0`, with the vectorised assembler too. -/
example : Ready (exC true 3 [4, 5, 5, 9]) exStill ∧ (exC true 3 [4, 5, 5, 9]).e.Flat ∧ (exC true 3 [4, 5, 5, 9]).e.grav = 3 ∧ (exC true 3 [4, 5, 5, 9]).e.z 0 ≠ (exC true 3 [4, 5, 5, 9]).e.z 1 ∧
    (∀ b v, (b, "pressure", v) ∈ exStill.bdict → v = -2 + (exC true 3 [4, 5, 5, 9]).e.grav * (exC true 3 [4, 5, 5, 9]).e.z b) ∧
    (exRun (exC true 3 [4, 5, 5, 9]) true 2 exStill).2.press.map (fun r => (r 1, r 2)) = [(some 13, some 13), (some 13, some 13), (some 13, some 13)] ∧
    (exRun (exC true 3 [4, 5, 5, 9]) true 2 exStill).2.rates.map (fun r => r 0) = [0, 0, 0] :=
  ⟨exStill_ready, .inr (by
      have := all_of (p := fun i => (exC true 3 [4, 5, 5, 9]).e.z ((exC true 3 [4, 5, 5, 9]).e.at i) = (exC true 3 [4, 5, 5, 9]).e.z ((exC true 3 [4, 5, 5, 9]).e.at 0))
        (l := List.range (exC true 3 [4, 5, 5, 9]).e.n) (by decide +kernel)
      exact fun i hi => this i (List.mem_range.2 hi)), by decide +kernel, by decide +kernel,
    fun b v hb => by
      have := all_of (p := fun b : ℕ × String × ℚ => b.2.1 = "pressure" → b.2.2 = -2 + (exC true 3 [4, 5, 5, 9]).e.grav * (exC true 3 [4, 5, 5, 9]).e.z b.1)
        (l := exStill.bdict) (by decide +kernel) _ hb rfl
      exact this, by decide +kernel, by decide +kernel⟩

lemma exRest_given : (∀ b v, (b, "pressure", v) ∈ exRest.bdict → v = -2 + (exC false 3 [4, 5, 7, 9]).e.grav * (exC false 3 [4, 5, 7, 9]).e.z b) ∧
    ∀ w p, w ∈ exRest.wells → w.2.pwfsp = some p → p = -2 + (exC false 3 [4, 5, 7, 9]).e.grav * (exC false 3 [4, 5, 7, 9]).e.z w.1 :=
  ⟨fun b v hb => by
      have := all_of (p := fun b : ℕ × String × ℚ => b.2.1 = "pressure" → b.2.2 = -2 + (exC false 3 [4, 5, 7, 9]).e.grav * (exC false 3 [4, 5, 7, 9]).e.z b.1)
        (l := exRest.bdict) (by decide +kernel) _ hb rfl
      exact this,
    fun w p hw hp => by
      have := all_of (p := fun w : ℕ × Well ℚ => w.2.pwfsp.getD 0 = -2 + (exC false 3 [4, 5, 7, 9]).e.grav * (exC false 3 [4, 5, 7, 9]).e.z w.1)
        (l := exRest.wells) (by decide +kernel) _ hw
      rw [hp] at this; exact this⟩

/-- **C102 fails** with the vectorised assembler on a slope: everything is given at head -2, and the symbolic assembler finds the fluid at rest, with nothing flowing; the vectorised one finds heads above -2 and a fluid that enters at the well and leaves at the boundary for ever. -/
theorem C102_vectorised_fails : Ready (exC false 3 [4, 5, 7, 9]) exRest ∧ Exact (exC false 3 [4, 5, 7, 9]).lin ∧ Anchored (exC false 3 [4, 5, 7, 9]).e exRest ∧ NoSources exRest ∧ PressureWells exRest ∧
    (∀ b v, (b, "pressure", v) ∈ exRest.bdict → v = -2 + (exC false 3 [4, 5, 7, 9]).e.grav * (exC false 3 [4, 5, 7, 9]).e.z b) ∧
    (∀ w p, w ∈ exRest.wells → w.2.pwfsp = some p → p = -2 + (exC false 3 [4, 5, 7, 9]).e.grav * (exC false 3 [4, 5, 7, 9]).e.z w.1) ∧
    Hist (exC false 3 [4, 5, 7, 9]) (fun v _ _ => v = true) exRest (exRun (exC false 3 [4, 5, 7, 9]) true 2 exRest).1 (exRun (exC false 3 [4, 5, 7, 9]) true 2 exRest).2 ∧
    (exRun (exC false 3 [4, 5, 7, 9]) false 2 exRest).2.press.map (fun r => (r 1, r 2)) = [(some 8, some 8), (some 13, some 19), (some 13, some 19)] ∧
    (exRun (exC false 3 [4, 5, 7, 9]) false 2 exRest).2.rates.map (fun r => (r 0, r 2)) = [(0, 0), (0, 0), (0, 0)] ∧
    (exRun (exC false 3 [4, 5, 7, 9]) true 2 exRest).2.press.map (fun r => (r 1, r 2)) = [(some 8, some 8), (some (71 / 5), some (83 / 5)), (some (71 / 5), some (83 / 5))] ∧
    (exRun (exC false 3 [4, 5, 7, 9]) true 2 exRest).2.rates.map (fun r => (r 0, r 2)) = [(0, 0), (-12 / 5, 12 / 5), (-12 / 5, 12 / 5)] ∧
    -2 < (exC false 3 [4, 5, 7, 9]).e.head 1 (71 / 5) :=
  ⟨exRest_ready, cramer_exact, .inr (.inl ⟨(0, "pressure", 10), 1, 1, by decide +kernel, rfl, by unfold Env.Face; decide +kernel, by norm_num⟩),
    ⟨all_of (p := fun b : ℕ × String × ℚ => b.2.1 ≠ "pressure" → b.2.2 = 0) (by decide +kernel), all_of (p := fun w : ℕ × Well ℚ => w.2.qsp = none ∨ w.2.qsp = some 0) (by decide +kernel)⟩,
    all_of (p := fun w : ℕ × Well ℚ => w.2.qsp = none ∧ w.2.pwfsp ≠ some 0) (by decide +kernel), exRest_given.1, exRest_given.2, exRun_vect exRest_ready true 2,
    by decide +kernel, by decide +kernel, by decide +kernel, by decide +kernel, by decide +kernel⟩

end RF.Fdm
