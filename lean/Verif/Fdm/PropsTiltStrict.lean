import Verif.Fdm.PropsTiltOrder
/-!
# Every cause is felt everywhere, on inclined reservoirs with target rates (C100)

As in PropsTiltOrder.lean, for runs in which no well changes its constraint.
-/
set_option linter.unusedSectionVars false
namespace RF.Fdm
open RF RF.Dims RF.Spec Finset

variable {K : Type} [Field K] [LinearOrder K] [IsStrictOrderedRing K]
variable {c : Ctx K} {m n m0 : Mdl K}

/-- Potentials that are not negative, with net outflow from everywhere and really from somewhere, are positive in a connected network. -/
lemma inflow_pos {N : ℕ} {T : ℕ → ℕ → K} {D u : ℕ → K} (hT : Network N T) (hu : ∀ i, i < N → 0 ≤ u i) (h : ∀ i, i < N → Net.inflow N T D u i ≤ 0) {j : ℕ} (hj : j < N)
    (hs : Net.inflow N T D u j < 0) : ∀ i, i < N → 0 < u i := by
  have zero : ∀ i, u i = 0 → Net.inflow N T D u i = ∑ k ∈ range N, T i k * u k := fun i h0 => by
    unfold Net.inflow
    rw [h0, mul_zero, sub_zero]
    exact sum_congr rfl fun k _ => by rw [sub_zero]
  have nn : ∀ i, i < N → ∀ k, k ∈ range N → 0 ≤ T i k * u k := fun i hi k hk => mul_nonneg (hT.nonneg i k hi (mem_range.1 hk)) (hu k (mem_range.1 hk))
  intro i hi
  rcases (hu i hi).lt_or_eq with h1 | h1
  · exact h1
  have all : u j = 0 := by
    have := hT.conn i j hi hj
    clear hs
    induction this with
    | refl => exact h1.symm
    | tail h2 h3 ih =>
      rename_i b d
      have hb : b < N := by
        rcases Relation.ReflTransGen.cases_tail h2 with rfl | ⟨_, _, h⟩
        · exact hi
        · exact h.1
      have z := zero b (ih hb)
      have := (sum_eq_zero_iff_of_nonneg (nn b hb)).1 (le_antisymm (by rw [← z]; exact h b hb) (sum_nonneg (nn b hb))) d (mem_range.2 h3.1)
      exact (mul_eq_zero.1 this).resolve_left h3.2.ne'
  rw [zero j all] at hs
  exact absurd hs (not_lt.2 (sum_nonneg (nn j hj)))

/-- What is raised, pushes. -/
lemma Raise.pushes (hr : Ready c m) (hr' : Ready c n) (h : AtMost m n) {s : Sol K} (hR : Raise c.lower c.e false m n s) :
    (c.e.comp = true ∧ ∃ id p p', id ∈ c.e.ids ∧ m.initP id = some p ∧ n.initP id = some p' ∧ p < p') ∨ ∃ j, j < c.e.n ∧ 0 < push c.e m n j := by
  have he := hr.ctx.wf
  have hm := hr.started.mdl
  have hm' := hr'.started.mdl
  have g1 : ∀ i b, b ∈ m.bdict → 0 ≤ bPush c.e (bValue n b.1 - bValue m b.1) i b := fun i b hb => by
    have := bPush_least he hm hm' h.by i hb
    rwa [mul_zero, add_zero] at this
  have g2 : ∀ i w, w ∈ m.wells → 0 ≤ wPush c.e (wRate n w.1 - wRate m w.1) (wPwf n w.1 - wPwf m w.1) i w := fun i w hw => by
    have := wPush_least he hm hm' h.by i hw
    rwa [mul_zero, add_zero] at this
  have face : ∀ b kind (v v' : K) id T, (b, kind, v) ∈ m.bdict → (b, kind, v') ∈ n.bdict → v < v' → c.e.Face b id T → (kind = "pressure" → 0 < T) → ∃ j, j < c.e.n ∧ 0 < push c.e m n j :=
    fun b kind v v' id T hb hb' hv hF hT => by
    have hid : id ∈ c.e.ids := by
      rcases he.face b (hm.bmem _ hb) with H | ⟨id', T', H1, -, H2⟩
      · rw [show c.e.transC b false = .ok [(id, T)] from hF] at H; cases H
      · have := (show c.e.transC b false = .ok [(id, T)] from hF).symm.trans H2
        cases this
        exact H1
    refine ⟨c.e.ids.idxOf id, idx_lt c.e hid, add_pos_of_pos_of_nonneg (lt_of_lt_of_le ?_ (le_sum_of_mem (g1 _) hb)) (sum_nonneg' (g2 _))⟩
    have e1 : bValue n b = v' := by unfold bValue; rw [dictGet_of_mem hm'.bkeys hb']; rfl
    have e2 : bValue m b = v := by unfold bValue; rw [dictGet_of_mem hm.bkeys hb]; rfl
    unfold bPush
    dsimp only
    rw [e1, e2, show c.e.transC b false = .ok [(id, T)] from hF]
    dsimp only
    rw [at_idx c.e hid, if_pos rfl]
    split_ifs with hk
    · exact mul_pos (by linarith [hT hk]) (sub_pos.2 hv)
    · exact sub_pos.2 hv
  have well : ∀ id (w w' : Well K), (id, w) ∈ m.wells → (id, w') ∈ n.wells → ((w.con = some .q ∧ w.qsp.getD 0 < w'.qsp.getD 0) ∨ (w.con = some .pwf ∧ w.pwfsp.getD 0 < w'.pwfsp.getD 0)) →
      ∃ j, j < c.e.n ∧ 0 < push c.e m n j := fun id w w' hw hw' H => by
    have hid := hm.wmem _ hw
    refine ⟨c.e.ids.idxOf id, idx_lt c.e hid, add_pos_of_nonneg_of_pos (sum_nonneg' (g1 _)) (lt_of_lt_of_le ?_ (le_sum_of_mem (g2 _) hw))⟩
    have e1 : wRate n id = w'.qsp.getD 0 ∧ wPwf n id = w'.pwfsp.getD 0 := by unfold wRate wPwf; rw [dictGet_of_mem hm'.wkeys hw']; exact ⟨rfl, rfl⟩
    have e2 : wRate m id = w.qsp.getD 0 ∧ wPwf m id = w.pwfsp.getD 0 := by unfold wRate wPwf; rw [dictGet_of_mem hm.wkeys hw]; exact ⟨rfl, rfl⟩
    unfold wPush
    dsimp only
    rw [e1.1, e1.2, e2.1, e2.2, at_idx c.e hid, if_pos rfl]
    rcases H with ⟨H1, H2⟩ | ⟨H1, H2⟩ <;> rw [H1]
    · exact sub_pos.2 H2
    · exact mul_pos (windex_pos he.B he.mu (hm.well _ hw)) (sub_pos.2 H2)
  have target : ∀ id (w : Well K) (q : K), (id, w) ∈ m.wells → w.qsp = some q → w.con = some .q := fun id w q hw hq => by
    have h1 := hr.cfg _ hw
    have h2 := hr.setup.target _ hw
    rcases hc : w.con with _ | _ | _
    · exact absurd hc h1
    · rfl
    · have := h2 hc
      dsimp only at this
      rw [hq] at this; cases this
  cases hR with
  | press b v v' id T hb hb' hv hF hT => exact .inr (face b "pressure" v v' id T hb hb' hv hF fun _ => hT)
  | flow b kind v v' id T hb hb' _ hv hF => exact .inr (face b kind v v' id T hb hb' hv hF fun h => absurd h ‹_›)
  | held id w w' p p' hw hw' hq hp hp' hlt =>
    refine .inr (well id w w' hw hw' (.inr ⟨?_, by rw [hp, hp']; exact hlt⟩))
    have h1 := hr.cfg _ hw
    have h2 := ((hm.well _ hw).free hq).2
    rcases hc : w.con with _ | _ | _
    · exact absurd hc h1
    · exact absurd hc h2
    · rfl
  | rate id w w' q q' hw hw' hq hq' hlt hmet => exact .inr (well id w w' hw hw' (.inl ⟨target id w q hw hq, by rw [hq, hq']; exact hlt⟩))
  | both id w w' q q' p p' hw hw' hq hq' hlt hp hp' hlt' => exact .inr (well id w w' hw hw' (.inl ⟨target id w q hw hq, by rw [hq, hq']; exact hlt⟩))
  | init id p p' hc hid h1 h2 h3 => exact .inl ⟨hc, id, p, p', hid, h1, h2, h3⟩

lemma strict_tilted {f f' N : ℕ} {el el' : K} (hr : Ready c m) (hr' : Ready c n) (hx : Exact c.lin) (hsh : Shape m n) (hle : AtMost m n) (hg : RatesGiven m) (hg' : RatesGiven n) (han : Anchored c.e m)
    (hinit : c.e.comp = true → ∀ id, id ∈ c.e.ids → ∃ p q, m.initP id = some p ∧ n.initP id = some q ∧ p ≤ q)
    (hP : RunAll c Steady f true N m { Sol.init m with nsteps := (Sol.init m).nsteps + N }) (hP' : RunAll c Steady f' true N n { Sol.init n with nsteps := (Sol.init n).nsteps + N })
    (hs : (run c f true N el m (Sol.init m)).2 = .ok ()) (hs' : (run c f' true N el' n (Sol.init n)).2 = .ok ())
    (hR : Raise c.lower c.e false m n (run c f true N el m (Sol.init m)).1.2) :
    ∀ k, 0 < k → k ≤ N → ∀ id, id ∈ c.e.ids → ∃ p q, rowAt (run c f true N el m (Sol.init m)).1.2.press k none id = some p ∧
      rowAt (run c f' true N el' n (Sol.init n)).1.2.press k none id = some q ∧ p < q := by
  have act := hR.pushes hr hr' hle
  have bel := C39_tilted_partial (el := el) (el' := el') hr hr' hx hle han hinit hP hP' hs hs'
  obtain ⟨b, nn, t, i0⟩ := run_tilted hr hx hg hP hs
  obtain ⟨b', nn', t', i0'⟩ := run_tilted hr' hx hg' hP' hs'
  generalize (run c f true N el m (Sol.init m)).1.2 = s at *
  generalize (run c f' true N el' n (Sol.init n)).1.2 = s' at *
  have he := hr.ctx.wf
  have hm := hr.started.mdl
  have hm' := hr'.started.mdl
  have hT := hr.ctx.grid.network true
  have le : ∀ k, k ≤ N → (c.e.comp = true ∨ 0 < k) → ∀ j, j < c.e.n → s.inner c.e k j ≤ s'.inner c.e k j := fun k hk hc j hj => by
    obtain ⟨p, q, h1, h2, h3⟩ := bel.2 k (by omega) hc _ (at_mem c.e hj)
    unfold Sol.inner
    rw [h1, h2]
    exact h3
  have pu : ∀ j, 0 ≤ push c.e m n j := fun j => by
    have := push_least he hm hm' hle.by j
    rwa [mul_zero, add_zero] at this
  have old : ∀ k, k < N → ∀ j, j < c.e.n → 0 ≤ c.e.rhs (c.e.at j) * (s'.inner c.e k j - s.inner c.e k j) := fun k hk j hj => by
    rcases hc : c.e.comp
    · rw [he.rhsI hc, zero_mul]
    · exact mul_nonneg (rhs_nonneg he (at_mem c.e hj)) (sub_nonneg.2 (le k hk.le (.inl hc) j hj))
  have bal : ∀ k, k < N → ∀ j, j < c.e.n → Net.inflow c.e.n (c.e.trans true) (leak c.e m) (fun j => s'.inner c.e (k + 1) j - s.inner c.e (k + 1) j) j =
      - (c.e.rhs (c.e.at j) * (s'.inner c.e k j - s.inner c.e k j) + push c.e m n j) := fun k hk j hj => by
    have d := residue_diff (T := c.e.trans true) he hm hm' hsh (s.inner c.e k) (s'.inner c.e k) (s.inner c.e (k + 1)) (s'.inner c.e (k + 1)) j
    rw [eq_neg_of_add_eq_zero_left (b k (by omega) j hj), eq_neg_of_add_eq_zero_left (b' k (by omega) j hj), hsh.headGap, sub_self] at d
    linarith
  have step : ∀ k, k < N → (∃ j, j < c.e.n ∧ 0 < c.e.rhs (c.e.at j) * (s'.inner c.e k j - s.inner c.e k j) + push c.e m n j) → ∀ j, j < c.e.n → s.inner c.e (k + 1) j < s'.inner c.e (k + 1) j :=
    fun k hk ⟨j, hj, H⟩ i hi => sub_pos.1 (inflow_pos hT (fun i hi => sub_nonneg.2 (le (k + 1) hk (.inr k.succ_pos) i hi)) (fun i hi => by
      rw [bal k hk i hi]
      linarith [old k hk i hi, pu i]) hj (by rw [bal k hk j hj]; linarith) i hi)
  have key : ∀ k, k < N → ∀ j, j < c.e.n → s.inner c.e (k + 1) j < s'.inner c.e (k + 1) j := by
    rcases act with ⟨hc, id, p, p', hid, h1, h2, h3⟩ | ⟨j, hj, H⟩
    · have go : ∀ k, k < N → (∃ j, j < c.e.n ∧ s.inner c.e k j < s'.inner c.e k j) → ∀ j, j < c.e.n → s.inner c.e (k + 1) j < s'.inner c.e (k + 1) j := fun k hk ⟨j, hj, H⟩ =>
        step k hk ⟨j, hj, add_pos_of_pos_of_nonneg (mul_pos (he.rhsC hc _ (at_mem c.e hj)) (sub_pos.2 H)) (pu j)⟩
      intro k
      induction k with
      | zero =>
        intro hk
        refine go 0 hk ⟨c.e.ids.idxOf id, idx_lt c.e hid, ?_⟩
        unfold Sol.inner
        rw [i0, i0', at_idx c.e hid, h1, h2]
        exact h3
      | succ k ih =>
        intro hk
        exact go (k + 1) hk ⟨0, he.pos, ih (by omega) 0 he.pos⟩
    · intro k hk
      exact step k hk ⟨j, hj, add_pos_of_nonneg_of_pos (old k hk j hj) H⟩
  intro k h0 hk id hid
  obtain ⟨k, rfl⟩ : ∃ k', k = k' + 1 := ⟨k - 1, by omega⟩
  have h1 := nn (k + 1) h0 (by omega) _ (idx_lt c.e hid)
  have h2 := nn' (k + 1) h0 (by omega) _ (idx_lt c.e hid)
  rw [at_idx c.e hid] at h1 h2
  exact ⟨_, _, h1, h2, key k (by omega) _ (idx_lt c.e hid)⟩

/-- **C100, inclined reservoirs, vectorised, all wells.** Two runs of the same length on the same grid, whatever the depths of its cells, the second with conditions, target rates, bottom-hole pressures and initial
pressures that are nowhere lower and with at least one of them really higher. As long as no well changes its constraint in either run, every pressure is really higher in the second run at every step, from the
first on. Missing: wells that reach their limit, for which it is false (C100_vectorised_fails). -/
theorem C100_tilted_partial {f f' N : ℕ} {el el' : K} (hr : Ready c m) (hr' : Ready c n) (hx : Exact c.lin) (hle : AtMost m n) (han : Anchored c.e m)
    (hinit : c.e.comp = true → ∀ id, id ∈ c.e.ids → ∃ p q, m.initP id = some p ∧ n.initP id = some q ∧ p ≤ q)
    (hP : RunAll c Steady f true N m { Sol.init m with nsteps := (Sol.init m).nsteps + N }) (hP' : RunAll c Steady f' true N n { Sol.init n with nsteps := (Sol.init n).nsteps + N })
    (hs : (run c f true N el m (Sol.init m)).2 = .ok ()) (hs' : (run c f' true N el' n (Sol.init n)).2 = .ok ())
    (hR : Raise c.lower c.e true m n (run c f true N el m (Sol.init m)).1.2) :
    ∀ k, 0 < k → k ≤ N → ∀ id, id ∈ c.e.ids → ∃ p q, rowAt (run c f true N el m (Sol.init m)).1.2.press k none id = some p ∧
      rowAt (run c f' true N el' n (Sol.init n)).1.2.press k none id = some q ∧ p < q := by
  have hsh := hle.shape hr hr'
  have r := run_asRates hr f N el
  have r' := run_asRates hr' f' N el'
  have key := strict_tilted (f := f) (f' := f') (el := el) (el' := el') hr.asRates hr'.asRates hx hsh.asRates (hle.asRates hr hr') (asRates_given m) (asRates_given n) (asRates_anchored.2 han) hinit
    (r.2.2.2 _ steady_blind hP) (r'.2.2.2 _ steady_blind hP') (by rw [r.2.1]; exact hs) (by rw [r'.2.1]; exact hs') (by rw [r.1]; exact hR.asRates hr hr')
  rw [r.1, r'.1] at key
  exact key

/-- On the slope, with the pressure on the left raised: C100 applies. -/
example : ∃ s t : Sol ℚ, s.tstep = 2 ∧ ∀ k, 0 < k → k ≤ 2 → ∀ id, id ∈ (exC true 3 [4, 5, 7, 9]).e.ids → ∃ p q, rowAt s.press k none id = some p ∧ rowAt t.press k none id = some q ∧ p < q :=
  ⟨_, _, by decide +kernel, C100_tilted_partial (f := 10) (f' := 10) (N := 2) (el := 0) (el' := 0) (m := exSteep 8 10 (-2) (-90)) (n := exSteep 8 12 (-2) (-90)) (exMdl_ready (by decide +kernel))
    (exMdl_ready (by decide +kernel)) cramer_exact ⟨by decide +kernel, by decide +kernel⟩ (.inl (by decide +kernel))
    (fun _ id hid => ⟨8, 8, all_of (p := fun id => (exSteep 8 10 (-2) (-90)).initP id = some 8) (by decide +kernel) id hid,
      all_of (p := fun id => (exSteep 8 12 (-2) (-90)).initP id = some 8) (by decide +kernel) id hid, le_rfl⟩)
    (runSteadyB_all (by decide +kernel)) (runSteadyB_all (by decide +kernel)) (isOk_unit (by decide +kernel)) (isOk_unit (by decide +kernel))
    (.press 0 10 12 1 1 (by decide +kernel) (by decide +kernel) (by norm_num) (by unfold Env.Face; decide +kernel) (by norm_num))⟩

end RF.Fdm
