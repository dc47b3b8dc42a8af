import Verif.Fdm.PropsTiltScript
/-!
# Idle and divided rates on inclined reservoirs with target rates (C97, C98)

As in PropsTiltOrder.lean, for runs in which no well changes its constraint. What the vectorised assembler enters for gravity depends on whether there is a well with a target rate at all: both claims hold as long
as this is not changed, and fail otherwise (C97_vectorised_fails, C98_vectorised_fails).
-/
set_option linter.unusedSectionVars false
namespace RF.Fdm
open RF RF.Dims RF.Spec Finset

variable {K : Type} [Field K] [LinearOrder K] [IsStrictOrderedRing K]
variable {c : Ctx K} {m m' : Mdl K} {D : List (ℕ × Well K)} {E : List (ℕ × String × K)}

lemma same_residue (hr : Ready c m) (han : Anchored c.e m) {o o' x y : ℕ → K} (ho : ∀ i, i < c.e.n → o i = o' i)
    (h : ∀ i, i < c.e.n → residue c.e (c.e.trans true) m o x i = residue c.e (c.e.trans true) m o' y i) : ∀ i, i < c.e.n → x i = y i := fun i hi => by
  have u1 := residue_le hr (decays_const c true m 0) han 0 h (fun i hi => by rw [ho i hi, add_zero]) i hi
  have u2 := residue_le hr (decays_const c true m 0) han 0 (fun i hi => (h i hi).symm) (fun i hi => by rw [ho i hi, add_zero]) i hi
  rw [add_zero] at u1 u2
  exact le_antisymm u1 u2

/-! ### C97 -/

lemma AddsIdle.residue (h : AddsIdle m m' D E) {e : Env K} (T : ℕ → ℕ → K) (old x : ℕ → K) (i : ℕ) : residue e T m old x i = residue e T m' old x i := by
  unfold Fdm.residue
  rw [(h.bdict.map _).sum_eq, (h.wells.map (wIn e (x i) i)).sum_eq]
  simp only [List.map_append, List.sum_append]
  rw [sum_zero fun b hb => bIn_idle (h.closed b hb) (x i) i, sum_zero fun w hw => wIn_idle (h.idle w hw) (x i) i]
  simp only [add_zero]

lemma best_idle {e : Env K} (hB : 0 < e.B) (hmu : 0 < e.mu) {w : ℕ × Well K} (hw : WellOK w.2) (h : IdleWell w) {p : K} (hp : w.2.pwfsp.getD 0 ≤ p) : bestRate e w.2 p = 0 := by
  unfold bestRate
  rw [h.2]
  exact max_eq_left (mul_nonpos_of_nonneg_of_nonpos (windex_pos hB hmu hw).le (sub_nonpos.2 hp))

/-- Idle wells and conditions do not change the history on inclined reservoirs either, if there are other wells with target rates or none at all. -/
theorem idle_history_tilted (h : AddsIdle m m' D E) (hr : Ready c m) (hr' : Ready c m') (hx : Exact c.lin) (hg : RatesGiven m) (han : Anchored c.e m)
    (hqq : (∃ w, w ∈ m.wells ∧ w.2.con = some .q) → ∃ w, w ∈ m'.wells ∧ w.2.con = some .q) {f f' N : ℕ} {t t' : K}
    (hP : RunAll c Steady f true N m { Sol.init m with nsteps := (Sol.init m).nsteps + N }) (hP' : RunAll c Steady f' true N m' { Sol.init m' with nsteps := (Sol.init m').nsteps + N })
    (hs : (run c f true N t m (Sol.init m)).2 = .ok ()) (hs' : (run c f' true N t' m' (Sol.init m')).2 = .ok ())
    (hlim : ∀ w, w ∈ D → ∀ k, 0 < k → k ≤ N → ∀ p, rowAt (run c f' true N t' m' (Sol.init m')).1.2.press k none w.1 = some p → w.2.pwfsp.getD 0 ≤ p) :
    (run c f true N t m (Sol.init m)).1.2.tstep = N ∧ (run c f' true N t' m' (Sol.init m')).1.2.tstep = N ∧
    (∀ k, k ≤ N → ∀ id, rowAt (run c f true N t m (Sol.init m)).1.2.press k none id = rowAt (run c f' true N t' m' (Sol.init m')).1.2.press k none id) ∧
    (∀ k, 0 < k → k ≤ N → ∀ id, rowAt (run c f true N t m (Sol.init m)).1.2.rates k 0 id = rowAt (run c f' true N t' m' (Sol.init m')).1.2.rates k 0 id) ∧
    (∀ w, w ∈ m'.wells → (run c f true N t m (Sol.init m)).1.1.reported w.1 = (run c f' true N t' m' (Sol.init m')).1.1.reported w.1) ∧
    ∀ w, w ∈ D → (run c f true N t m (Sol.init m)).1.1.reported w.1 = m.reported w.1 ++ (List.range N).map fun k => rowAt (run c f' true N t' m' (Sol.init m')).1.2.press (k + 1) none w.1 := by
  have hq : (∃ w, w ∈ m.wells ∧ w.2.con = some .q) ↔ ∃ w, w ∈ m'.wells ∧ w.2.con = some .q := ⟨hqq, fun ⟨w, hw, hc⟩ => ⟨w, h.mem hw, hc⟩⟩
  have hg' : RatesGiven m' := fun b hb hk => by rw [← h.initR]; exact hg b (h.memB hb) hk
  obtain ⟨b, n, t1, i⟩ := run_tilted (el := t) hr hx hg hP hs
  obtain ⟨b', n', t1', i'⟩ := run_tilted (el := t') hr' hx hg' hP' hs'
  have dl := run_delivers (el := t) hr hP hs
  have dl' := run_delivers (el := t') hr' hP' hs'
  have fl := run_fluxes (el := t) hr hP hs
  have fl' := run_fluxes (el := t') hr' hP' hs'
  have hh := ((Hist.run hr.ctx.lower hr.ctx.wf hr.started.mdl N t .start hP).steady hr).1
  have hh' := ((Hist.run hr'.ctx.lower hr'.ctx.wf hr'.started.mdl N t' .start hP').steady hr').1
  have iv := hr.inv hh
  have iv' := hr'.inv hh'
  have fc := hh.faces hr
  have rp := hh.reports hr
  have rp' := hh'.reports hr'
  generalize (run c f true N t m (Sol.init m)).1 = R at *
  generalize (run c f' true N t' m' (Sol.init m')).1 = R' at *
  have he := hr.ctx.wf
  have key : ∀ k, k ≤ N → ∀ j, j < c.e.n → R.2.inner c.e k j = R'.2.inner c.e k j := by
    intro k
    induction k with
    | zero =>
      intro _ j hj
      unfold Sol.inner
      rw [i, i', h.initP]
    | succ k ih =>
      intro hk
      refine same_residue hr han (fun j hj => ih (by omega) j hj) fun j hj => ?_
      rw [eq_neg_of_add_eq_zero_left (b k (by omega) j hj), h.residue, eq_neg_of_add_eq_zero_left (b' k (by omega) j hj), headGap_congr hq]
  have press : ∀ k, k ≤ N → ∀ id, rowAt R.2.press k none id = rowAt R'.2.press k none id := fun k hk id => by
    rcases Nat.eq_zero_or_pos k with rfl | h0
    · rw [i, i', h.initP]
    by_cases hid : id ∈ c.e.ids
    · have h1 := n k h0 (by omega) _ (idx_lt c.e hid)
      have h2 := n' k h0 (by omega) _ (idx_lt c.e hid)
      rw [at_idx c.e hid] at h1 h2
      rw [h1, h2, key k hk _ (idx_lt c.e hid)]
    · rw [iv.prow k (by omega) id hid, iv'.prow k (by omega) id hid, h.initP]
  have still : ∀ k, 0 < k → k ≤ N → ∀ w, w ∈ D → rowAt R.2.rates k 0 w.1 = 0 := fun k h0 hk w hw => by
    have hid := idx_lt c.e (hr.started.mdl.wmem w (h.memD hw))
    rw [dl k h0 (by omega) w (h.memD hw), key k hk _ hid]
    exact best_idle he.B he.mu (hr.started.mdl.well w (h.memD hw)) (h.idle w hw) (hlim w hw k h0 hk _ (by
      have := n' k h0 (by omega) _ hid
      rw [at_idx c.e (hr.started.mdl.wmem w (h.memD hw))] at this
      exact this))
  have iv0 := hr.setup.inv
  have iv0' := hr'.setup.inv
  have keys : ∀ w, w ∈ D → w.1 ∉ m'.wells.map (·.1) := fun w hw H => by
    have := (h.wells.map (·.1)).nodup_iff.1 iv0.wkeys
    rw [List.map_append] at this
    exact List.disjoint_of_nodup_append this H (List.mem_map_of_mem hw)
  have rates : ∀ k, 0 < k → k ≤ N → ∀ id, rowAt R.2.rates k 0 id = rowAt R'.2.rates k 0 id := fun k h0 hk id => by
    by_cases hw : id ∈ m.wells.map (·.1)
    · obtain ⟨w, hw1, rfl⟩ := List.mem_map.1 hw
      rcases List.mem_append.1 (h.wells.mem_iff.1 hw1) with hw2 | hw2
      · rw [dl k h0 (by omega) w hw1, dl' k h0 (by omega) w hw2, key k hk _ (idx_lt c.e (hr.started.mdl.wmem w hw1))]
      · rw [still k h0 hk w hw2, iv'.row k (by omega) w.1 (fun H => ?_) (keys w hw2), hr'.setup.quiet he _ (iv0.wmem w hw1)]
        rw [iv0'.upd] at H
        obtain ⟨y, hy, hy'⟩ := List.mem_map.1 H
        exact he.disj y.1 (iv0'.bmem y (List.mem_filter.1 hy).1) (hy' ▸ iv0.wmem w hw1)
    by_cases hb : id ∈ m.bUpdate
    · obtain ⟨j, T, hF⟩ := fc (by omega) id hb
      obtain ⟨v, hv⟩ := upd_pressure hr.started.mdl hb
      have hv := mem_of_dictGet hv
      have hv' : (id, "pressure", v) ∈ m'.bdict := by
        rcases List.mem_append.1 (h.bdict.mem_iff.1 hv) with H | H
        · exact H
        · exact absurd rfl (h.closed _ H).1
      rw [fl k h0 (by omega) id v j T hv hF, fl' k h0 (by omega) id v j T hv' hF, press k hk]
    · rw [iv.row k (by omega) id hb hw, iv'.row k (by omega) id (fun H => hb ((h.upd iv0 iv0' id).2 H)) (fun H => hw ?_), h.initR]
      obtain ⟨w, hw1, rfl⟩ := List.mem_map.1 H
      exact List.mem_map_of_mem (h.mem hw1)
  refine ⟨t1, t1', press, rates, fun w hw => ?_, fun w hw => ?_⟩
  · rw [rp w (h.mem hw), rp' w hw, h.reported w hw, t1, t1']
    congr 1
    refine List.map_congr_left fun k hk => ?_
    have hk := List.mem_range.1 hk
    rw [press (k + 1) (by omega), rates (k + 1) (by omega) (by omega)]
  · rw [rp w (h.memD hw), t1]
    congr 1
    refine List.map_congr_left fun k hk => ?_
    have hk := List.mem_range.1 hk
    have hid := iv0.wmem w (h.memD hw)
    have h2 := n' (k + 1) (by omega) (by omega) _ (idx_lt c.e hid)
    rw [at_idx c.e hid] at h2
    rw [still (k + 1) (by omega) (by omega) w hw, press (k + 1) (by omega), h2]
    unfold holePressure
    simp

/-- **C97, inclined reservoirs, vectorised, all wells.** A script of set-up calls, with at most one call of `set_boundaries`, leaves a model that is ready to run, on a grid with cells at any depths. Then the script without
the wells that are shut in and without the conditions of rate or gradient 0 also leaves one. Take two runs of the same length in which no well changes its constraint, and in the second of which the pressure in the cell
of a well that is shut in does not fall below the limit of this well. If another well with a target rate remains (or there was none), all recorded pressures and rates of all cells are the same, and so are the reported
bottom-hole pressures of the other wells; the bottom-hole pressure reported for a well that is shut in is the pressure of its cell. Where no other target rate remains it is false (C97_vectorised_fails). -/
theorem C97_tilted_partial {l : List (SetCall K)} {pi : Option K} (h : setUp c.lower c.e pi l = .ok m) (h1 : (about none l).length ≤ 1) (hr : Ready c m) (hx : Exact c.lin) (han : Anchored c.e m) :
    ∃ m', setUp c.lower c.e pi (spared l) = .ok m' ∧ Ready c m' ∧ ∀ (f f' N : ℕ) (t t' : K),
      RunAll c Steady f true N m { Sol.init m with nsteps := (Sol.init m).nsteps + N } → RunAll c Steady f' true N m' { Sol.init m' with nsteps := (Sol.init m').nsteps + N } →
      (run c f true N t m (Sol.init m)).2 = .ok () → (run c f' true N t' m' (Sol.init m')).2 = .ok () →
      ((∃ w, w ∈ m.wells ∧ w.2.con = some .q) → ∃ w, w ∈ m'.wells ∧ w.2.con = some .q) →
      (∀ w, w ∈ m.wells → dictGet m'.wells w.1 = none → ∀ k, 0 < k → k ≤ N → ∀ p, rowAt (run c f' true N t' m' (Sol.init m')).1.2.press k none w.1 = some p → w.2.pwfsp.getD 0 ≤ p) →
      (run c f true N t m (Sol.init m)).1.2.tstep = N ∧ (run c f' true N t' m' (Sol.init m')).1.2.tstep = N ∧
      (∀ k, k ≤ N → ∀ id, rowAt (run c f true N t m (Sol.init m)).1.2.press k none id = rowAt (run c f' true N t' m' (Sol.init m')).1.2.press k none id) ∧
      (∀ k, 0 < k → k ≤ N → ∀ id, rowAt (run c f true N t m (Sol.init m)).1.2.rates k 0 id = rowAt (run c f' true N t' m' (Sol.init m')).1.2.rates k 0 id) ∧
      (∀ w, w ∈ m'.wells → (run c f true N t m (Sol.init m)).1.1.reported w.1 = (run c f' true N t' m' (Sol.init m')).1.1.reported w.1) ∧
      ∀ w, w ∈ m.wells → dictGet m'.wells w.1 = none →
        (run c f true N t m (Sol.init m)).1.1.reported w.1 = m.reported w.1 ++ (List.range N).map fun k => rowAt (run c f true N t m (Sol.init m)).1.2.press (k + 1) none w.1 := by
  obtain ⟨m', D, E, h2, h3⟩ := C97_setup c.lower hr.ctx.wf h h1 hr.canon
  have hr' := h3.ready hr (steps_setup _ (.init pi) h2)
  have inv := hr.setup.inv
  have inv' := hr'.setup.inv
  have hD : ∀ w, w ∈ D → dictGet m'.wells w.1 = none := fun w hw => dictGet_none fun H => by
    have := (h3.wells.map (·.1)).nodup_iff.1 inv.wkeys
    rw [List.map_append] at this
    exact List.disjoint_of_nodup_append this H (List.mem_map_of_mem hw)
  have hD' : ∀ w, w ∈ m.wells → dictGet m'.wells w.1 = none → w ∈ D := fun w hw hn => by
    rcases List.mem_append.1 (h3.wells.mem_iff.1 hw) with H | H
    · rw [show dictGet m'.wells w.1 = some w.2 from dictGet_of_mem inv'.wkeys H] at hn
      cases hn
    · exact H
  refine ⟨m', h2, hr', fun f f' N t t' hP hP' hs hs' hq hlim => ?_⟩
  have hlim' := fun w hw => hlim w (h3.memD hw) (hD w hw)
  have fin : ∀ {R R' : Mdl K × Sol K}, (R.2.tstep = N ∧ R'.2.tstep = N ∧ (∀ k, k ≤ N → ∀ id, rowAt R.2.press k none id = rowAt R'.2.press k none id) ∧
      (∀ k, 0 < k → k ≤ N → ∀ id, rowAt R.2.rates k 0 id = rowAt R'.2.rates k 0 id) ∧ (∀ w, w ∈ m'.wells → R.1.reported w.1 = R'.1.reported w.1) ∧
      ∀ w, w ∈ D → R.1.reported w.1 = m.reported w.1 ++ (List.range N).map fun k => rowAt R'.2.press (k + 1) none w.1) →
      R.2.tstep = N ∧ R'.2.tstep = N ∧ (∀ k, k ≤ N → ∀ id, rowAt R.2.press k none id = rowAt R'.2.press k none id) ∧
      (∀ k, 0 < k → k ≤ N → ∀ id, rowAt R.2.rates k 0 id = rowAt R'.2.rates k 0 id) ∧ (∀ w, w ∈ m'.wells → R.1.reported w.1 = R'.1.reported w.1) ∧
      ∀ w, w ∈ m.wells → dictGet m'.wells w.1 = none → R.1.reported w.1 = m.reported w.1 ++ (List.range N).map fun k => rowAt R.2.press (k + 1) none w.1 := by
    rintro R R' ⟨a1, a2, a3, a4, a5, a6⟩
    refine ⟨a1, a2, a3, a4, a5, fun w hw hn => ?_⟩
    rw [a6 w (hD' w hw hn)]
    congr 1
    exact List.map_congr_left fun k hk => (a3 (k + 1) (by have := List.mem_range.1 hk; omega) _).symm
  have r := run_asRates hr f N t
  have r' := run_asRates hr' f' N t'
  have key := idle_history_tilted (t := t) (t' := t') (h3.asRates hr) hr.asRates hr'.asRates hx (asRates_given m) (asRates_anchored.2 han) hq (r.2.2.2 _ steady_blind hP)
      (r'.2.2.2 _ steady_blind hP') (by rw [r.2.1]; exact hs) (by rw [r'.2.1]; exact hs') (by rw [r'.1]; exact hlim')
  rw [r.1, r'.1, r.2.2.1, r'.2.2.1] at key
  exact fin key

/-! ### C98 -/

lemma net_history_tilted (h : SameNet c.lower c.e false m m') (hr : Ready c m) (hr' : Ready c m') (hx : Exact c.lin) (hg : RatesGiven m) (hg' : RatesGiven m') (han : Anchored c.e m)
    (hq : (∃ w, w ∈ m.wells ∧ w.2.con = some .q) ↔ ∃ w, w ∈ m'.wells ∧ w.2.con = some .q) {f f' N : ℕ} {t t' : K}
    (hP : RunAll c Steady f true N m { Sol.init m with nsteps := (Sol.init m).nsteps + N }) (hP' : RunAll c Steady f' true N m' { Sol.init m' with nsteps := (Sol.init m').nsteps + N })
    (hs : (run c f true N t m (Sol.init m)).2 = .ok ()) (hs' : (run c f' true N t' m' (Sol.init m')).2 = .ok ()) :
    (run c f true N t m (Sol.init m)).1.2.tstep = N ∧ (run c f' true N t' m' (Sol.init m')).1.2.tstep = N ∧
    (∀ k, k ≤ N → ∀ id, id ∈ c.e.ids → rowAt (run c f true N t m (Sol.init m)).1.2.press k none id = rowAt (run c f' true N t' m' (Sol.init m')).1.2.press k none id) ∧
    (∀ k, 0 < k → k ≤ N → ∀ b v id T, (b, "pressure", v) ∈ m.bdict → c.e.Face b id T →
      rowAt (run c f true N t m (Sol.init m)).1.2.rates k 0 b = rowAt (run c f' true N t' m' (Sol.init m')).1.2.rates k 0 b) ∧
    ∀ k, 0 < k → k ≤ N → ∀ w, w ∈ m.wells → w.2.con = some .pwf →
      rowAt (run c f true N t m (Sol.init m)).1.2.rates k 0 w.1 = rowAt (run c f' true N t' m' (Sol.init m')).1.2.rates k 0 w.1 := by
  obtain ⟨b, n, t1, i⟩ := run_tilted (el := t) hr hx hg hP hs
  obtain ⟨b', n', t1', i'⟩ := run_tilted (el := t') hr' hx hg' hP' hs'
  have dl := run_delivers (el := t) hr hP hs
  have dl' := run_delivers (el := t') hr' hP' hs'
  have fl := run_fluxes (el := t) hr hP hs
  have fl' := run_fluxes (el := t') hr' hP' hs'
  generalize (run c f true N t m (Sol.init m)).1 = R at *
  generalize (run c f' true N t' m' (Sol.init m')).1 = R' at *
  have he := hr.ctx.wf
  have key : ∀ k, k ≤ N → ∀ j, j < c.e.n → R.2.inner c.e k j = R'.2.inner c.e k j := by
    intro k
    induction k with
    | zero =>
      intro _ j hj
      unfold Sol.inner
      rw [i, i', h.init _ (at_mem c.e hj)]
    | succ k ih =>
      intro hk
      refine same_residue hr han (fun j hj => ih (by omega) j hj) fun j hj => ?_
      rw [eq_neg_of_add_eq_zero_left (b k (by omega) j hj), h.residue _ _ _ hj, eq_neg_of_add_eq_zero_left (b' k (by omega) j hj), headGap_congr hq]
  have press : ∀ k, k ≤ N → ∀ id, id ∈ c.e.ids → rowAt R.2.press k none id = rowAt R'.2.press k none id := fun k hk id hid => by
    rcases Nat.eq_zero_or_pos k with rfl | h0
    · rw [i, i', h.init _ hid]
    have h1 := n k h0 (by omega) _ (idx_lt c.e hid)
    have h2 := n' k h0 (by omega) _ (idx_lt c.e hid)
    rw [at_idx c.e hid] at h1 h2
    rw [h1, h2, key k hk _ (idx_lt c.e hid)]
  refine ⟨t1, t1', press, fun k h0 hk x v id T hx hF => ?_, fun k h0 hk w hw hc => ?_⟩
  · have hx' : (x, "pressure", v) ∈ m'.bdict := (List.mem_filter.1 (h.press.mem_iff.1 (List.mem_filter.2 ⟨hx, by simp⟩))).1
    rw [fl k h0 (by omega) x v id T hx hF, fl' k h0 (by omega) x v id T hx' hF, press k hk id ?_]
    rcases he.face x (hr.started.mdl.bmem _ hx) with H | ⟨id', T', H1, -, H2⟩
    · rw [show c.e.transC x false = .ok [(id, T)] from hF] at H; cases H
    · have := (show c.e.transC x false = .ok [(id, T)] from hF).symm.trans H2
      cases this
      exact H1
  · have hw' : w ∈ m'.wells := (List.mem_filter.1 (h.held.mem_iff.1 (List.mem_filter.2 ⟨hw, by simp [hc]⟩))).1
    have hid := idx_lt c.e (hr.started.mdl.wmem w hw)
    rw [dl k h0 (by omega) w hw, dl' k h0 (by omega) w hw', key k hk _ hid]

/-- **C98, inclined reservoirs, vectorised, all wells.** Two models with the same pressure conditions, the same wells held at a pressure, the same initial pressures and the same net rate into every cell, however it is divided
between wells and boundary faces, on a grid with cells at any depths; either both or neither have a well with a target rate. In runs of the same length in which no well changes its constraint, the pressures of all cells
are the same at all steps, and so are the flows recorded for the pressure boundaries and for the wells held at a pressure. Where only one of them has a target rate it is false (C98_vectorised_fails). -/
theorem C98_tilted_partial (h : SameNet c.lower c.e true m m') (hr : Ready c m) (hr' : Ready c m') (hx : Exact c.lin) (han : Anchored c.e m)
    (hq : (∃ w, w ∈ m.wells ∧ w.2.con = some .q) ↔ ∃ w, w ∈ m'.wells ∧ w.2.con = some .q) {f f' N : ℕ} {t t' : K}
    (hP : RunAll c Steady f true N m { Sol.init m with nsteps := (Sol.init m).nsteps + N }) (hP' : RunAll c Steady f' true N m' { Sol.init m' with nsteps := (Sol.init m').nsteps + N })
    (hs : (run c f true N t m (Sol.init m)).2 = .ok ()) (hs' : (run c f' true N t' m' (Sol.init m')).2 = .ok ()) :
    (run c f true N t m (Sol.init m)).1.2.tstep = N ∧ (run c f' true N t' m' (Sol.init m')).1.2.tstep = N ∧
    (∀ k, k ≤ N → ∀ id, id ∈ c.e.ids → rowAt (run c f true N t m (Sol.init m)).1.2.press k none id = rowAt (run c f' true N t' m' (Sol.init m')).1.2.press k none id) ∧
    (∀ k, 0 < k → k ≤ N → ∀ b v id T, (b, "pressure", v) ∈ m.bdict → c.e.Face b id T →
      rowAt (run c f true N t m (Sol.init m)).1.2.rates k 0 b = rowAt (run c f' true N t' m' (Sol.init m')).1.2.rates k 0 b) ∧
    ∀ k, 0 < k → k ≤ N → ∀ w, w ∈ m.wells → w.2.con = some .pwf →
      rowAt (run c f true N t m (Sol.init m)).1.2.rates k 0 w.1 = rowAt (run c f' true N t' m' (Sol.init m')).1.2.rates k 0 w.1 := by
  have r := run_asRates hr f N t
  have r' := run_asRates hr' f' N t'
  have key := net_history_tilted (t := t) (t' := t') (h.asRates hr hr') hr.asRates hr'.asRates hx (asRates_given m) (asRates_given m') (asRates_anchored.2 han) hq
    (r.2.2.2 _ steady_blind hP) (r'.2.2.2 _ steady_blind hP') (by rw [r.2.1]; exact hs) (by rw [r'.2.1]; exact hs')
  rw [r.1, r'.1] at key
  refine ⟨key.1, key.2.1, key.2.2.1, fun k h0 hk b v id T hb => key.2.2.2.1 k h0 hk b v id T ?_, key.2.2.2.2⟩
  exact List.mem_map.2 ⟨_, hb, plain_eq rfl⟩

/-! ### The hypotheses are met -/

/-- A well that is shut in beside one that produces, on the slope. -/
def exTiltShut : List (SetCall ℚ) := [.bounds [(0, "pressure", 10), (3, "rate", -1)] (by decide), .well 1 { q := some 0, pwf := some (-90), r := some 1 }, .well 2 { q := some (-2), pwf := some (-90), r := some 1 }]

lemma exTiltShut_ok : isOk (setUp (exC true 3 [4, 5, 7, 9]).lower (exC true 3 [4, 5, 7, 9]).e (some 8) exTiltShut) = true := by decide +kernel
lemma exTiltShut_ok' : isOk (setUp (exC true 3 [4, 5, 7, 9]).lower (exC true 3 [4, 5, 7, 9]).e (some 8) (spared exTiltShut)) = true := by decide +kernel

/-- `C97_tilted_partial` applies to two steps; the shut-in well is gone in the second model. -/
example : ∃ m', setUp (exC true 3 [4, 5, 7, 9]).lower (exC true 3 [4, 5, 7, 9]).e (some 8) (spared exTiltShut) = .ok m' ∧ m'.wells.map (·.1) = [2] ∧
    ∀ k, k ≤ 2 → ∀ id, rowAt (run (exC true 3 [4, 5, 7, 9]) 10 true 2 0 (getOk _ exTiltShut_ok) (Sol.init (getOk _ exTiltShut_ok))).1.2.press k none id =
      rowAt (run (exC true 3 [4, 5, 7, 9]) 10 true 2 0 m' (Sol.init m')).1.2.press k none id := by
  obtain ⟨m', h1, h2, h3⟩ := C97_tilted_partial (getOk_eq _ exTiltShut_ok) (by decide +kernel) (steep_ready (getOk_eq _ exTiltShut_ok) (by decide +kernel) (by decide +kernel)) cramer_exact (.inl (by decide +kernel))
  have : m' = getOk _ exTiltShut_ok' := Except.ok.inj (h1.symm.trans (getOk_eq _ exTiltShut_ok'))
  subst this
  obtain ⟨-, -, h4, -⟩ := h3 10 10 2 0 0 (runSteadyB_all (by decide +kernel)) (runSteadyB_all (by decide +kernel)) (isOk_unit (by decide +kernel)) (isOk_unit (by decide +kernel))
    (fun _ => by decide +kernel) (fun w hw hn k h0 hk p hp => by
      have h5 : ∀ w ∈ (getOk _ exTiltShut_ok).wells, w.1 ∈ [1, 2] ∧ w.2.pwfsp.getD 0 ≤ -90 := by decide +kernel
      have h6 : ∀ x ∈ [1, 2], ∀ k ∈ [1, 2], -90 ≤ (rowAt (run (exC true 3 [4, 5, 7, 9]) 10 true 2 0 (getOk _ exTiltShut_ok') (Sol.init (getOk _ exTiltShut_ok'))).1.2.press k none x).getD 0 := by decide +kernel
      have h7 := h6 w.1 (h5 w hw).1 k (by simp; omega)
      rw [hp] at h7
      exact (h5 w hw).2.trans h7)
  exact ⟨_, h1, by decide +kernel, h4⟩

/-- The rate of -1 of the face moved to the well. -/
def exTiltMoved : Mdl ℚ := exMdl true 3 [4, 5, 7, 9] (some 8) [(0, "pressure", 10)] [(2, { q := some (-3), pwf := some (-90), r := some 1 })]

/-- `C98_tilted_partial` applies to two steps. -/
example : ∀ k, k ≤ 2 → ∀ id, id ∈ (exC true 3 [4, 5, 7, 9]).e.ids → rowAt (exSteepRun 8 10 (-2) (-90) 2).press k none id = rowAt (run (exC true 3 [4, 5, 7, 9]) 10 true 2 0 exTiltMoved (Sol.init exTiltMoved)).1.2.press k none id :=
  (C98_tilted_partial (c := exC true 3 [4, 5, 7, 9]) (m := exSteep 8 10 (-2) (-90)) (m' := exTiltMoved) (f := 10) (f' := 10) (N := 2) (t := 0) (t' := 0)
    ⟨by decide +kernel, by decide +kernel, by decide +kernel, by decide +kernel⟩ (exMdl_ready (by decide +kernel)) (exMdl_ready (by decide +kernel)) cramer_exact (.inl (by decide +kernel)) (by decide +kernel)
    (runSteadyB_all (by decide +kernel)) (runSteadyB_all (by decide +kernel)) (isOk_unit (by decide +kernel)) (isOk_unit (by decide +kernel))).2.2.1

end RF.Fdm
