import Verif.Fdm.PropsMatrix
import Verif.Fdm.Compare
import Verif.Fdm.Gradients
/-! # Pressures after a step (C37, C38, C39) -/
set_option linter.unusedSectionVars false
namespace RF.Fdm
open RF RF.Dims Finset

variable {K : Type} [Field K] [LinearOrder K] [IsStrictOrderedRing K]

lemma row_inner {c : Ctx K} {vect again : Bool} {m0 m m' : Mdl K} {s s' : Sol K} (hr : Ready c m0) (hi : Inv c.e m0 m s) (ha : attempt c vect m s = .ok (m', s', again))
    {i : ℕ} (h : i < c.e.n) : rowAt s'.press s'.tstep none (c.e.at i) = some (s'.inner c.e s'.tstep i) := by
  obtain ⟨m1, s1, A, d, x, p, r', ps, h1⟩ := attempted hr.ctx.lower hr.ctx.wf hi ha
  rw [h1.inner hr.ctx.wf hi h, h1.press, h1.tstep, rowAt_append_eq hi.plen, h1.peq, newRow_at hr.ctx.wf.nodup _ _ h]

/-- The state after the next call. -/
lemma exRun_step {c : Ctx ℚ} {vect : Bool} {n : ℕ} {m : Mdl ℚ} (h : isOk (solve c 10 vect true (exRun c vect n m).1 (exRun c vect n m).2) = true) :
    solve c 10 vect true (exRun c vect n m).1 (exRun c vect n m).2 = .ok ((exRun c vect (n + 1) m).1, (exRun c vect (n + 1) m).2) := by
  conv_rhs => unfold exRun
  rcases hs : solve c 10 vect true (exRun c vect n m).1 (exRun c vect n m).2 with x | x
  · rw [hs] at h; simp [isOk] at h
  · rfl

/-! ## C37 -/

/-- **C37** (one step), partial: without imposed rates, the pressures after a step lie between any lower and upper bound of the previous pressures
(compressible only), the boundary pressures and the bottom-hole pressure limits of the wells. "Level": no density given or all cells at the
same depth. "Calm" (no well leaves its limit; the vectorised assembler not with a well held at pressure zero) is needed:
`C37_released_well`, `C37_zero_bottom_hole_pressure`. -/
theorem C37_step_partial {c : Ctx K} {m0 m m' : Mdl K} {s s' : Sol K} {vect : Bool} {fuel : ℕ} (hr : Ready c m0) (hx : Exact c.lin) (hl : c.e.Level) (ha : Anchored c.e m0)
    (hns : NoSources m0) (h : Hist c Calm m0 m s) (hP : SolveAll c Calm fuel vect m s) (hs : solve c fuel vect true m s = .ok (m', s')) (lo hi : K)
    (hold : c.e.comp = true → ∀ i, i < c.e.n → lo ≤ s.inner c.e s.tstep i ∧ s.inner c.e s.tstep i ≤ hi)
    (hbd : ∀ b, b ∈ m0.bdict → b.2.1 = "pressure" → lo ≤ b.2.2 ∧ b.2.2 ≤ hi)
    (hwl : ∀ w p, w ∈ m0.wells → w.2.pwfsp = some p → lo ≤ p ∧ p ≤ hi) :
    ∀ id, id ∈ c.e.ids → ∃ p, rowAt s'.press s'.tstep none id = some p ∧ lo ≤ p ∧ p ≤ hi := by
  intro id hid
  obtain ⟨m1, s1, h1, h2, h3, h4, h5, h6⟩ := solve_last hr.ctx.lower hr.ctx.wf hr.started.mdl h hP hs
  have := attempt_bounds hr hx h1 hl ha hns h5 h6.2 lo hi (fun hc i hin => by
    have := hold hc i hin
    unfold Sol.inner at this ⊢
    rw [h2, h4]; exact this) hbd hwl
  have hi' := idx_lt c.e hid
  refine ⟨_, ?_, this _ hi'⟩
  have := row_inner hr (hr.inv h1) h5 hi'
  rw [at_idx c.e hid] at this; exact this

/-- **C37** (whole history), partial: after any calls of `solve` and `run`, all stored pressures of the cells after the first row lie between
any bounds of the initial pressures (compressible only), the boundary pressures and the bottom-hole pressure limits. -/
theorem C37_history_partial {c : Ctx K} {m0 m : Mdl K} {s : Sol K} (hr : Ready c m0) (hx : Exact c.lin) (hl : c.e.Level) (ha : Anchored c.e m0)
    (hns : NoSources m0) (h : Hist c Calm m0 m s) (lo hi : K)
    (hinit : c.e.comp = true → ∀ id, id ∈ c.e.ids → ∃ p, m0.initP id = some p ∧ lo ≤ p ∧ p ≤ hi)
    (hbd : ∀ b, b ∈ m0.bdict → b.2.1 = "pressure" → lo ≤ b.2.2 ∧ b.2.2 ≤ hi)
    (hwl : ∀ w p, w ∈ m0.wells → w.2.pwfsp = some p → lo ≤ p ∧ p ≤ hi) :
    ∀ t, t ≤ s.tstep → (c.e.comp = true ∨ 0 < t) → ∀ id, id ∈ c.e.ids → ∃ p, rowAt s.press t none id = some p ∧ lo ≤ p ∧ p ≤ hi := by
  have stp : ∀ {m m' : Mdl K} {s s' : Sol K} {vect again : Bool}, Hist c Calm m0 m s →
      (∀ t, t ≤ s.tstep → (c.e.comp = true ∨ 0 < t) → ∀ id, id ∈ c.e.ids → ∃ p, rowAt s.press t none id = some p ∧ lo ≤ p ∧ p ≤ hi) →
      attempt c vect m s = .ok (m', s', again) → Calm vect m m' →
      ∀ t, t ≤ s'.tstep → (c.e.comp = true ∨ 0 < t) → ∀ id, id ∈ c.e.ids → ∃ p, rowAt s'.press t none id = some p ∧ lo ≤ p ∧ p ≤ hi := by
    intro m m' s s' vect again hh ih hat hp t ht hc id hid
    obtain ⟨m1, s1, A, d, x, p, r', ps, h1⟩ := attempted hr.ctx.lower hr.ctx.wf (hr.inv hh) hat
    by_cases ht' : t = s'.tstep
    · subst ht'
      have := attempt_bounds hr hx hh hl ha hns hat hp.2 lo hi (fun hc i hin => by
        obtain ⟨p, h1, h2⟩ := ih s.tstep le_rfl (.inl hc) _ (at_mem c.e hin)
        unfold Sol.inner; rw [h1]; exact h2) hbd hwl
      have hi' := idx_lt c.e hid
      refine ⟨_, ?_, this _ hi'⟩
      have := row_inner hr (hr.inv hh) hat hi'
      rw [at_idx c.e hid] at this; exact this
    · rw [h1.tstep] at ht ht'
      rw [h1.press, rowAt_append_lt (by rw [(hr.inv hh).plen]; omega)]
      exact ih t (by omega) hc id hid
  induction h with
  | start =>
    intro t ht hc id hid
    have h0 : t = 0 := by simpa [Sol.init] using ht
    subst h0
    rcases hc with hc | hc
    · exact hinit hc id hid
    · omega
  | step hh hat hp ih => exact stp hh ih hat hp
  | again hh hat hp ih =>
    obtain ⟨m1, s1, A, d, x, p, r', ps, h1⟩ := attempted hr.ctx.lower hr.ctx.wf (hr.inv hh) hat
    obtain ⟨b1, -, b3⟩ := back_attempted (hr.inv hh) h1
    rw [b1, b3]; exact ih
  | look hh hat ih =>
    obtain ⟨-, vA, bV, res, sM, rfl⟩ := assemble_frame hat
    exact ih
  | clock n t _ ih => exact ih

/-- Any calls on models whose wells are all given non-zero bottom-hole pressures and no rates are covered. -/
theorem C37_pressure_wells {c : Ctx K} {m0 m : Mdl K} {s : Sol K} (hr : Ready c m0) (hx : Exact c.lin) (hl : c.e.Level) (ha : Anchored c.e m0)
    (hbz : ∀ b, b ∈ m0.bdict → b.2.1 ≠ "pressure" → b.2.2 = 0) (hw : PressureWells m0) (h : Hist c Any m0 m s) (lo hi : K)
    (hinit : c.e.comp = true → ∀ id, id ∈ c.e.ids → ∃ p, m0.initP id = some p ∧ lo ≤ p ∧ p ≤ hi)
    (hbd : ∀ b, b ∈ m0.bdict → b.2.1 = "pressure" → lo ≤ b.2.2 ∧ b.2.2 ≤ hi)
    (hwl : ∀ w p, w ∈ m0.wells → w.2.pwfsp = some p → lo ≤ p ∧ p ≤ hi) :
    ∀ t, t ≤ s.tstep → (c.e.comp = true ∨ 0 < t) → ∀ id, id ∈ c.e.ids → ∃ p, rowAt s.press t none id = some p ∧ lo ≤ p ∧ p ≤ hi :=
  C37_history_partial hr hx hl ha ⟨hbz, fun w h => .inl (hw w h).1⟩ (h.pressureWells hr hw).1 lo hi hinit hbd hwl

lemma all_of {α : Type} {p : α → Prop} [DecidablePred p] {l : List α} (h : (l.all fun x => decide (p x)) = true) : ∀ x, x ∈ l → p x := by
  rw [List.all_eq_true] at h
  exact fun x hx => of_decide_eq_true (h x hx)

/-- A pressure of 10 on the left and a well at bottom-hole pressure 2 on the right, initial pressure 8. -/
def exP : Mdl ℚ := exMdl true 0 [] (some 8) [(0, "pressure", 10), (3, "rate", 0)] [(2, { pwf := some 2, r := some 1 })]

lemma exP_ready : Ready (exC true 0 []) exP := exMdl_ready (by decide +kernel)

lemma ex_level : ∀ comp : Bool, (exC comp 0 []).e.Level
  | true => .inl (by decide +kernel)
  | false => .inl (by decide +kernel)

example : Ready (exC true 0 []) exP ∧ Exact (exC true 0 []).lin ∧ (exC true 0 []).e.Level ∧ Anchored (exC true 0 []).e exP ∧ PressureWells exP ∧
    (∀ b, b ∈ exP.bdict → b.2.1 ≠ "pressure" → b.2.2 = 0) ∧ (exRun (exC true 0 []) true 2 exP).2.tstep = 2 ∧
    (exRun (exC true 0 []) true 2 exP).2.press.map (fun r => (r 1, r 2)) = [(some 8, some 8), (some (94 / 11), some (68 / 11)), (some (1032 / 121), some (674 / 121))] :=
  ⟨exP_ready, cramer_exact, ex_level _, .inl (by decide +kernel), all_of (p := fun w : ℕ × Well ℚ => w.2.qsp = none ∧ w.2.pwfsp ≠ some 0) (by decide +kernel),
    all_of (p := fun b : ℕ × String × ℚ => b.2.1 ≠ "pressure" → b.2.2 = 0) (by decide +kernel), by decide +kernel, by decide +kernel⟩

/-- A reservoir in equilibrium with a well at bottom-hole pressure 0. -/
def exNull : Mdl ℚ := exMdl true 0 [] (some 0) [] [(2, { pwf := some 0, r := some 1 })]

lemma exNull_ready : Ready (exC true 0 []) exNull := exMdl_ready (by decide +kernel)

/-- **C37 and C38 fail** with a well at bottom-hole pressure 0 (vectorised): initial pressures and bottom-hole pressure are all 0, there are no
other conditions, and the pressures become negative. -/
theorem C37_zero_bottom_hole_pressure : ∃ (c : Ctx ℚ) (m0 m : Mdl ℚ) (s : Sol ℚ), Ready c m0 ∧ Exact c.lin ∧ c.e.Level ∧ Anchored c.e m0 ∧ NoSources m0 ∧
    Hist c Any m0 m s ∧ (∀ id, id ∈ c.e.ids → m0.initP id = some 0) ∧ m0.bdict = [] ∧ (∀ w, w ∈ m0.wells → w.2.pwfsp = some 0) ∧
    ∃ id p, id ∈ c.e.ids ∧ rowAt s.press s.tstep none id = some p ∧ p < 0 :=
  ⟨exC true 0 [], exNull, _, _, exNull_ready, cramer_exact, ex_level _, .inl (by decide +kernel),
    ⟨all_of (p := fun b : ℕ × String × ℚ => b.2.1 ≠ "pressure" → b.2.2 = 0) (by decide +kernel),
     all_of (p := fun w : ℕ × Well ℚ => w.2.qsp = none ∨ w.2.qsp = some 0) (by decide +kernel)⟩, exRun_any exNull_ready true 1,
    all_of (p := fun id => exNull.initP id = some 0) (by decide +kernel), by decide +kernel,
    all_of (p := fun w : ℕ × Well ℚ => w.2.pwfsp = some 0) (by decide +kernel), 2, -2 / 3, by decide +kernel, by decide +kernel, by decide +kernel⟩

/-- A shut well (rate 0) with a limit of 4, which the reservoir reaches from below. -/
def exShut : Mdl ℚ := exMdl true 0 [] (some 0) [(0, "pressure", 5)] [(2, { q := some 0, pwf := some 4, r := some 1 })]

lemma exShut_ready : Ready (exC true 0 []) exShut := exMdl_ready (by decide +kernel)

/-- **C37 fails** after a well leaves its limit (vectorised): previous pressures, boundary pressure and limit are at least 4, the well's rate is
0, and a pressure falls below 3. -/
theorem C37_released_well : ∃ (c : Ctx ℚ) (m0 m m' : Mdl ℚ) (s s' : Sol ℚ), Ready c m0 ∧ Exact c.lin ∧ c.e.Level ∧ Anchored c.e m0 ∧ NoSources m0 ∧
    Hist c Any m0 m s ∧ solve c 10 true true m s = .ok (m', s') ∧ (∀ i, i < c.e.n → 4 ≤ s.inner c.e s.tstep i) ∧ (∀ b, b ∈ m0.bdict → 4 ≤ b.2.2) ∧
    (∀ w, w ∈ m0.wells → w.2.pwfsp = some 4) ∧ ∃ id p, id ∈ c.e.ids ∧ rowAt s'.press s'.tstep none id = some p ∧ p < 3 :=
  ⟨exC true 0 [], exShut, (exRun (exC true 0 []) true 3 exShut).1, (exRun (exC true 0 []) true 4 exShut).1, (exRun (exC true 0 []) true 3 exShut).2,
    (exRun (exC true 0 []) true 4 exShut).2, exShut_ready, cramer_exact, ex_level _, .inl (by decide +kernel),
    ⟨all_of (p := fun b : ℕ × String × ℚ => b.2.1 ≠ "pressure" → b.2.2 = 0) (by decide +kernel),
     all_of (p := fun w : ℕ × Well ℚ => w.2.qsp = none ∨ w.2.qsp = some 0) (by decide +kernel)⟩, exRun_any exShut_ready true 3,
    exRun_step (by decide +kernel),
    fun i hi => all_of (l := List.range 2) (p := fun i => 4 ≤ (exRun (exC true 0 []) true 3 exShut).2.inner (exC true 0 []).e (exRun (exC true 0 []) true 3 exShut).2.tstep i) (by decide +kernel) i
      (List.mem_range.2 (lt_of_lt_of_eq hi (by decide +kernel))),
    all_of (p := fun b : ℕ × String × ℚ => 4 ≤ b.2.2) (by decide +kernel),
    all_of (p := fun w : ℕ × Well ℚ => w.2.pwfsp = some 4) (by decide +kernel), 2, 43370 / 14641, by decide +kernel, by decide +kernel, by decide +kernel⟩

/-! ## C38 -/

/-- **C38**, partial: in equilibrium nothing changes. All initial pressures, boundary pressures and bottom-hole pressures are `p0`, no rate or gradient other
than 0 is imposed, wells are given bottom-hole pressures only, and the reservoir is level. Whatever calls are made, all stored pressures stay
`p0`. Missing: wells held at exactly 0 (`C37_zero_bottom_hole_pressure`), and closed reservoirs of an incompressible fluid, whose
equations do not determine the pressures. -/
theorem C38_equilibrium_partial {c : Ctx K} {m0 m : Mdl K} {s : Sol K} (p0 : K) (hr : Ready c m0) (hx : Exact c.lin) (hl : c.e.Level) (ha : Anchored c.e m0)
    (hinit : c.e.comp = true → ∀ id, id ∈ c.e.ids → m0.initP id = some p0) (hbd : ∀ b, b ∈ m0.bdict → (b.2.1 = "pressure" → b.2.2 = p0) ∧ (b.2.1 ≠ "pressure" → b.2.2 = 0))
    (hw : ∀ w, w ∈ m0.wells → w.2.qsp = none ∧ w.2.pwfsp = some p0) (hp0 : p0 ≠ 0 ∨ m0.wells = []) (h : Hist c Any m0 m s) :
    ∀ t, t ≤ s.tstep → (c.e.comp = true ∨ 0 < t) → ∀ id, id ∈ c.e.ids → rowAt s.press t none id = some p0 := by
  intro t ht ht0 id hid
  have hpw : PressureWells m0 := by
    intro w hw'
    refine ⟨(hw w hw').1, ?_⟩
    rcases hp0 with h | h
    · rw [(hw w hw').2]
      simpa using h
    · rw [h] at hw'; cases hw'
  obtain ⟨p, h1, h2, h3⟩ := C37_pressure_wells hr hx hl ha (fun b hb => (hbd b hb).2) hpw h p0 p0
    (fun hc id hid => ⟨p0, hinit hc id hid, le_rfl, le_rfl⟩) (fun b hb hc => ⟨((hbd b hb).1 hc).ge, ((hbd b hb).1 hc).le⟩)
    (fun w p hw' hp => by
      have := (hw w hw').2
      rw [hp] at this
      rw [Option.some.inj this]
      exact ⟨le_rfl, le_rfl⟩) t ht ht0 id hid
  rw [h1, le_antisymm h3 h2]

/-- Pressure 7 everywhere. -/
def exEq : Mdl ℚ := exMdl true 0 [] (some 7) [(0, "pressure", 7), (3, "rate", 0)] [(2, { pwf := some 7, r := some 1 })]

lemma exEq_ready : Ready (exC true 0 []) exEq := exMdl_ready (by decide +kernel)

example : ∃ m s, Hist (exC true 0 []) Any exEq m s ∧ s.tstep = 3 ∧ ∀ t, t ≤ s.tstep → ∀ id, id ∈ (exC true 0 []).e.ids → rowAt s.press t none id = some 7 :=
  ⟨_, _, exRun_any exEq_ready true 3, by decide +kernel, fun t ht => C38_equilibrium_partial 7 exEq_ready cramer_exact (ex_level _) (.inl (by decide +kernel))
    (fun _ => all_of (p := fun id => exEq.initP id = some 7) (by decide +kernel))
    (all_of (p := fun b : ℕ × String × ℚ => (b.2.1 = "pressure" → b.2.2 = 7) ∧ (b.2.1 ≠ "pressure" → b.2.2 = 0)) (by decide +kernel))
    (all_of (p := fun w : ℕ × Well ℚ => w.2.qsp = none ∧ w.2.pwfsp = some 7) (by decide +kernel)) (.inl (by decide +kernel)) (exRun_any exEq_ready true 3) t ht (.inl (by decide +kernel))⟩

/-! ## C39 -/

/-- All pressures of the cells in `s` are at most those in `t`, at all steps (from step 1 on if the fluid is incompressible). -/
def Below (c : Ctx K) (s t : Sol K) : Prop :=
  s.tstep = t.tstep ∧ ∀ k, k ≤ s.tstep → (c.e.comp = true ∨ 0 < k) → ∀ id, id ∈ c.e.ids →
    ∃ p q, rowAt s.press k none id = some p ∧ rowAt t.press k none id = some q ∧ p ≤ q

/-- **C39** (one step), partial: raise boundary pressures, boundary rates, well rates, limits and previous pressures (in any combination, none lowered); then all
pressures after the step are at least as high. Wells may go to their limits in either run. Missing: wells that leave their limit
(`C39_released_well`). -/
theorem C39_step_partial {c : Ctx K} {m0 m m' n0 n n' : Mdl K} {s s' t t' : Sol K} {vect : Bool} {f f' : ℕ} (hr : Ready c m0) (hr' : Ready c n0) (hx : Exact c.lin)
    (hle : AtMost m0 n0) (hf : vect = true → c.e.Flat) (han : Anchored c.e m0)
    (hh : Hist c Calm m0 m s) (hh' : Hist c Calm n0 n t) (hP : SolveAll c Calm f vect m s) (hP' : SolveAll c Calm f' vect n t)
    (hs : solve c f vect true m s = .ok (m', s')) (hs' : solve c f' vect true n t = .ok (n', t')) (hb : Below c s t) : Below c s' t' := by
  obtain ⟨m1, s1, a1, a2, a3, a4, a5, a6⟩ := solve_last hr.ctx.lower hr.ctx.wf hr.started.mdl hh hP hs
  obtain ⟨n1, t1, b1, b2, b3, b4, b5, b6⟩ := solve_last hr'.ctx.lower hr'.ctx.wf hr'.started.mdl hh' hP' hs'
  obtain ⟨_, _, _, _, _, _, _, _, h1⟩ := attempted hr.ctx.lower hr.ctx.wf (hr.inv a1) a5
  obtain ⟨_, _, _, _, _, _, _, _, h2⟩ := attempted hr'.ctx.lower hr'.ctx.wf (hr'.inv b1) b5
  have es : s'.tstep = s.tstep + 1 := by rw [h1.tstep, a4]
  have et : t'.tstep = t.tstep + 1 := by rw [h2.tstep, b4]
  refine ⟨by rw [es, et, hb.1], fun k hk hc id hid => ?_⟩
  have hi' := idx_lt c.e hid
  by_cases hk' : k = s'.tstep
  · have r1 := row_inner hr (hr.inv a1) a5 hi'
    have r2 := row_inner hr' (hr'.inv b1) b5 hi'
    rw [at_idx c.e hid] at r1 r2
    have ek : k = t'.tstep := by rw [hk', es, et, hb.1]
    refine ⟨_, _, by rw [hk']; exact r1, by rw [ek]; exact r2, ?_⟩
    refine attempt_mono hr hr' hx hle (fun hv b hb' hc => ?_) a1 b1 hf han a5 a6.2 b5 b6 (fun hc i hin => ?_) _ hi'
    · obtain ⟨b', hb2, e1, e2, e3⟩ := (forall2_mem hle.bd).2 b hb'
      rw [hr.factor hb' hc, ← e1, hr'.factor hb2 (by rw [e2]; exact hc), e1, e2]
      exact mul_le_mul_of_nonneg_left e3 (hr.factor_nonneg hb')
    · obtain ⟨p, q, k1, k2, k3⟩ := hb.2 s.tstep le_rfl (.inl hc) _ (at_mem c.e hin)
      rw [hb.1] at k2
      unfold Sol.inner
      rw [a2, a4, b2, b4, k1, k2]; exact k3
  · have hk2 : k ≤ s.tstep := by omega
    obtain ⟨p, q, k1, k2, k3⟩ := hb.2 k hk2 hc id hid
    refine ⟨p, q, ?_, ?_, k3⟩
    · rw [h1.press, rowAt_append_lt (by rw [(hr.inv a1).plen]; omega), a2]; exact k1
    · rw [h2.press, rowAt_append_lt (by rw [(hr'.inv b1).plen]; have := hb.1; omega), b2]; exact k2

lemma runLoop_below {c : Ctx K} {m0 n0 : Mdl K} {vect : Bool} {f f' : ℕ} (hr : Ready c m0) (hr' : Ready c n0) (hx : Exact c.lin)
    (hle : AtMost m0 n0) (hf : vect = true → c.e.Flat) (han : Anchored c.e m0) (k : ℕ) {m n : Mdl K} {s t : Sol K}
    (hh : Hist c Calm m0 m s) (hh' : Hist c Calm n0 n t) (hP : RunAll c Calm f vect k m s) (hP' : RunAll c Calm f' vect k n t)
    (hs : (runLoop c f vect k m s).2 = .ok ()) (hs' : (runLoop c f' vect k n t).2 = .ok ()) (hb : Below c s t) :
    Below c (runLoop c f vect k m s).1.2 (runLoop c f' vect k n t).1.2 := by
  induction k generalizing m n s t with
  | zero => exact hb
  | succ k ih =>
    unfold runLoop at hs hs' ⊢
    rcases h1 : solve c f vect true m s with x | ⟨m1, s1⟩
    · rw [h1] at hs; cases hs
    rcases h2 : solve c f' vect true n t with x | ⟨n1, t1⟩
    · rw [h2] at hs'; cases hs'
    rw [h1] at hs
    rw [h2] at hs'
    exact ih (hh.solve hr.ctx.lower hr.ctx.wf hr.started.mdl hP.1 h1) (hh'.solve hr'.ctx.lower hr'.ctx.wf hr'.started.mdl hP'.1 h2) (hP.2 _ _ h1) (hP'.2 _ _ h2) hs hs'
      (C39_step_partial hr hr' hx hle hf han hh hh' hP.1 hP'.1 h1 h2 hb)

/-- **C39** (whole run), partial: `run` for any number of steps on a model and on one with higher boundary pressures, rates, well
rates, limits and initial pressures; all stored pressures are at least as high in the second. -/
theorem C39_run_partial {c : Ctx K} {m0 n0 : Mdl K} {vect : Bool} {f f' : ℕ} (hr : Ready c m0) (hr' : Ready c n0) (hx : Exact c.lin)
    (hle : AtMost m0 n0) (hf : vect = true → c.e.Flat) (han : Anchored c.e m0) (k : ℕ) (el el' : K)
    (hinit : c.e.comp = true → ∀ id, id ∈ c.e.ids → ∃ p q, m0.initP id = some p ∧ n0.initP id = some q ∧ p ≤ q)
    (hP : RunAll c Calm f vect k m0 { Sol.init m0 with nsteps := (Sol.init m0).nsteps + k }) (hP' : RunAll c Calm f' vect k n0 { Sol.init n0 with nsteps := (Sol.init n0).nsteps + k })
    (hs : (run c f vect k el m0 (Sol.init m0)).2 = .ok ()) (hs' : (run c f' vect k el' n0 (Sol.init n0)).2 = .ok ()) :
    Below c (run c f vect k el m0 (Sol.init m0)).1.2 (run c f' vect k el' n0 (Sol.init n0)).1.2 := by
  have key := runLoop_below hr hr' hx hle hf han k (.clock _ (Sol.init m0).ctime .start) (.clock _ (Sol.init n0).ctime .start) hP hP'
  unfold run at hs hs' ⊢
  rcases h1 : runLoop c f vect k m0 { Sol.init m0 with nsteps := (Sol.init m0).nsteps + k } with ⟨⟨m1, s1⟩, x | ⟨⟩⟩
  · rw [h1] at hs; cases hs
  rcases h2 : runLoop c f' vect k n0 { Sol.init n0 with nsteps := (Sol.init n0).nsteps + k } with ⟨⟨n1, t1⟩, x | ⟨⟩⟩
  · rw [h2] at hs'; cases hs'
  rw [h1, h2] at key
  refine key rfl rfl ⟨rfl, fun j hj hc id hid => ?_⟩
  have h0 : j = 0 := by simpa [Sol.init] using hj
  subst h0
  rcases hc with hc | hc
  · exact hinit hc id hid
  · omega

/-- All attempts of a run are calm. -/
def runCalmB (c : Ctx ℚ) (fuel : ℕ) (vect : Bool) : ℕ → Mdl ℚ → Sol ℚ → Bool
  | 0, _, _ => true
  | n + 1, m, s => solveCalmB c fuel vect m s && match solve c fuel vect true m s with
    | .ok (m', s') => runCalmB c fuel vect n m' s'
    | .error _ => true

lemma runCalmB_all {c : Ctx ℚ} {fuel : ℕ} {vect : Bool} {n : ℕ} {m : Mdl ℚ} {s : Sol ℚ} (h : runCalmB c fuel vect n m s = true) : RunAll c Calm fuel vect n m s := by
  induction n generalizing m s with
  | zero => exact trivial
  | succ n ih =>
    unfold runCalmB at h
    rw [Bool.and_eq_true] at h
    refine ⟨solveCalmB_all h.1, fun m' s' hs => ih ?_⟩
    rw [hs] at h
    exact h.2

/-- `exA` with more pressure on the left, a higher rate on the right, a smaller production target, a higher limit and higher initial pressures. -/
def exA2 : Mdl ℚ := exMdl true 0 [] (some 9) [(0, "pressure", 12), (3, "rate", 2)] [(2, { q := some (-3), pwf := some 5, r := some 1 })]

lemma exA2_ready : Ready (exC true 0 []) exA2 := exMdl_ready (by decide +kernel)

lemma ex_flat : ∀ comp : Bool, (exC comp 0 []).e.Flat
  | true => .inl (by decide +kernel)
  | false => .inl (by decide +kernel)

instance {m : Mdl ℚ} : Decidable (RatesGiven m) := List.decidableBAll (p := fun b : ℕ × String × ℚ => b.2.1 ≠ "pressure" → m.initR b.1 = b.2.2) m.bdict

lemma isOk_unit {x : Except Err Unit} (h : isOk x = true) : x = .ok () := by
  rcases x with x | ⟨⟩
  · simp [isOk] at h
  · rfl

lemma exA_most : AtMost exA exA2 :=
  ⟨by have h1 : exA.bdict = [(0, "pressure", 10), (3, "rate", 1)] := by decide +kernel
      have h2 : exA2.bdict = [(0, "pressure", 12), (3, "rate", 2)] := by decide +kernel
      rw [h1, h2]; simp; norm_num,
   by have h1 : exA.wells = [(2, { G := some 1, q := some (-4), con := some .q, qsp := some (-4), pwf := some 2, pwfsp := some 2, r := some 1, req := some 1 })] := by decide +kernel
      have h2 : exA2.wells = [(2, { G := some 1, q := some (-3), con := some .q, qsp := some (-3), pwf := some 5, pwfsp := some 5, r := some 1, req := some 1 })] := by decide +kernel
      rw [h1, h2]; simp; norm_num⟩

example (vect : Bool) : ∃ s t : Sol ℚ, s.tstep = 3 ∧ Below (exC true 0 []) s t :=
  ⟨_, _, by cases vect <;> decide +kernel, C39_run_partial (f := 10) (f' := 10) (vect := vect) exA_ready exA2_ready cramer_exact exA_most
    (fun _ => ex_flat _) (.inl (by decide +kernel)) 3 0 0
    (fun _ id hid => ⟨8, 9, all_of (p := fun id => exA.initP id = some 8) (by decide +kernel) id hid, all_of (p := fun id => exA2.initP id = some 9) (by decide +kernel) id hid, by norm_num⟩)
    (runCalmB_all (by cases vect <;> decide +kernel)) (runCalmB_all (by cases vect <;> decide +kernel))
    (isOk_unit (by cases vect <;> decide +kernel)) (isOk_unit (by cases vect <;> decide +kernel))⟩

/-- A well with target rate −1 and limit 4 in a reservoir that starts at 0 with pressure `P` on the left. -/
def exLow (P : ℚ) : Mdl ℚ := exMdl true 0 [] (some 0) [(0, "pressure", P)] [(2, { q := some (-1), pwf := some 4, r := some 1 })]

lemma exLow10_ready : Ready (exC true 0 []) (exLow 10) := exMdl_ready (by decide +kernel)
lemma exLow11_ready : Ready (exC true 0 []) (exLow 11) := exMdl_ready (by decide +kernel)

lemma exLow_most : AtMost (exLow 10) (exLow 11) :=
  ⟨by have h1 : (exLow 10).bdict = [(0, "pressure", 10)] := by decide +kernel
      have h2 : (exLow 11).bdict = [(0, "pressure", 11)] := by decide +kernel
      rw [h1, h2]; simp; norm_num,
   by have h1 : (exLow 10).wells = (exLow 11).wells := by decide +kernel
      rw [h1]
      exact List.forall₂_same.2 fun w _ => ⟨rfl, rfl, ⟨rfl, le_rfl⟩, le_rfl⟩⟩

/-- **C39 fails** when a well leaves its limit (vectorised): the same model with a boundary pressure of 11 instead of 10 ends with a lower pressure in cell 2. -/
theorem C39_released_well : ∃ (c : Ctx ℚ) (m0 n0 m n : Mdl ℚ) (s t : Sol ℚ), Ready c m0 ∧ Ready c n0 ∧ Exact c.lin ∧ c.e.Level ∧ AtMost m0 n0 ∧
    m0.wells = n0.wells ∧ (∀ id, id ∈ c.e.ids → m0.initP id = n0.initP id) ∧ run c 10 true 3 0 m0 (Sol.init m0) = ((m, s), .ok ()) ∧ run c 10 true 3 0 n0 (Sol.init n0) = ((n, t), .ok ()) ∧
    ∃ id p q, id ∈ c.e.ids ∧ rowAt s.press 3 none id = some p ∧ rowAt t.press 3 none id = some q ∧ q < p :=
  ⟨exC true 0 [], exLow 10, exLow 11, _, _, _, _, exLow10_ready, exLow11_ready, cramer_exact, ex_level _, exLow_most, by decide +kernel,
    all_of (p := fun id => (exLow 10).initP id = (exLow 11).initP id) (by decide +kernel),
    Prod.ext rfl (isOk_unit (by decide +kernel)), Prod.ext rfl (isOk_unit (by decide +kernel)), 2, 7704 / 1331, 6504 / 1331, by decide +kernel, by decide +kernel, by decide +kernel, by decide +kernel⟩

end RF.Fdm
