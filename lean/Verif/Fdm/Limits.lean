import Verif.Fdm.Fold
/-!
# Steps with wells at their limits

As long as no well leaves its pressure limit, the flow of every well is what its settings and the pressure of its cell determine: the larger of the target rate and the flow at the
limiting bottom-hole pressure. The pressures of a step solve a problem that does not know which wells changed their constraint, when, and in which order; it has one solution.
-/
set_option linter.unusedSectionVars false
namespace RF.Fdm
open RF RF.Dims RF.Spec Finset

variable {K : Type} [Field K] [LinearOrder K] [IsStrictOrderedRing K]

/-! ### what a well with a limit delivers -/

/-- What the limit of a well adds to its target rate when the pressure of its cell is `p`. -/
def topUp (e : Env K) (p : K) (i : ℕ) (w : ℕ × Well K) : K :=
  if w.1 = e.at i then
    match w.2.con with
    | some .q => max 0 (windex e w.2 * (w.2.pwfsp.getD 0 - p) - w.2.qsp.getD 0)
    | _ => 0
  else 0

/-- The balance of a cell when wells respect their limits. -/
def limited (e : Env K) (T : ℕ → ℕ → K) (m : Mdl K) (old x : ℕ → K) (i : ℕ) : K := residue e T m old x i + (m.wells.map (topUp e (x i) i)).sum

lemma topUp_anti {e : Env K} (hB : 0 < e.B) (hmu : 0 < e.mu) {w : ℕ × Well K} (hw : WellOK w.2) (i : ℕ) {p q : K} (h : p ≤ q) : topUp e q i w ≤ topUp e p i w := by
  unfold topUp
  split_ifs
  · rcases w.2.con with _ | _ | _
    · exact le_rfl
    · dsimp only
      exact max_le_max le_rfl (sub_le_sub_right (mul_le_mul_of_nonneg_left (by linarith) (windex_pos hB hmu hw).le) _)
    · exact le_rfl
  · exact le_rfl

lemma topUps_anti {e : Env K} (he : e.WF) {m : Mdl K} (hm : MdlOK e m) (i : ℕ) {p q : K} (h : p ≤ q) : (m.wells.map (topUp e q i)).sum ≤ (m.wells.map (topUp e p i)).sum :=
  List.sum_le_sum fun w hw => topUp_anti he.B he.mu (hm.well w hw) i h

/-- Such balances have at most one solution. -/
lemma limited_unique {e : Env K} {m : Mdl K} (he : e.WF) {T : ℕ → ℕ → K} (hT : Network e.n T) (hm : MdlOK e m) (ha : Anchored e m) {old old' x y : ℕ → K}
    (ho : ∀ i, i < e.n → e.rhs (e.at i) * (old' i - old i) = 0) (hx : ∀ i, i < e.n → limited e T m old x i = 0) (hy : ∀ i, i < e.n → limited e T m old' y i = 0) :
    ∀ i, i < e.n → y i = x i := by
  let μ : ℕ → K := fun i => if y i = x i then 0 else ((m.wells.map (topUp e (x i) i)).sum - (m.wells.map (topUp e (y i) i)).sum) / (y i - x i)
  have hμ : ∀ i, μ i * (y i - x i) = (m.wells.map (topUp e (x i) i)).sum - (m.wells.map (topUp e (y i) i)).sum := fun i => by
    dsimp only [μ]
    split_ifs with h
    · rw [h]; ring
    · exact div_mul_cancel₀ _ (sub_ne_zero.2 h)
  have hμ0 : ∀ i, 0 ≤ μ i := fun i => by
    dsimp only [μ]
    split_ifs with h
    · exact le_rfl
    · rcases lt_or_gt_of_ne h with h | h
      · exact div_nonneg_of_nonpos (sub_nonpos.2 (topUps_anti he hm i h.le)) (sub_nonpos.2 h.le)
      · exact div_nonneg (sub_nonneg.2 (topUps_anti he hm i h.le)) (sub_nonneg.2 h.le)
  have hL := anchored_leaky he hT hm ha
  have hL' : Net.Leaky e.n T fun i => leak e m i + μ i := ⟨hL.t, fun i hi => add_nonneg (hL.d i hi) (hμ0 i), fun i hi => by
    obtain ⟨j, hj, h1, h2⟩ := hL.reach i hi
    exact ⟨j, hj, h1, add_pos_of_pos_of_nonneg h2 (hμ0 j)⟩⟩
  refine Net.eq_of_inflow_eq hL' fun i hi => ?_
  have h1 := residue_diff (T := T) he hm hm (shape_self m) old old' x y i
  have h3 := hx i hi
  have h4 := hy i hi
  unfold limited at h3 h4
  rw [push_self, ho i hi] at h1
  have h2 : Net.inflow e.n T (leak e m) (fun j => y j - x j) i = Net.inflow e.n T (fun i => leak e m i + μ i) y i - Net.inflow e.n T (fun i => leak e m i + μ i) x i + μ i * (y i - x i) := by
    unfold Net.inflow
    have : ∑ j ∈ range e.n, T i j * (y j - y i) - ∑ j ∈ range e.n, T i j * (x j - x i) = ∑ j ∈ range e.n, T i j * (y j - x j - (y i - x i)) := by
      rw [← sum_sub_distrib]; exact sum_congr rfl fun j _ => by ring
    rw [← this]; ring
  rw [h2, hμ] at h1
  linear_combination -h1 + h4 - h3

/-! ### histories -/

/-- A well under pressure constraint at the start stays under it. -/
lemma Hist.held {c : Ctx K} {m0 : Mdl K} (hr : Ready c m0) {m : Mdl K} {s : Sol K} (hh : Hist c Calm m0 m s) : NoRelease m0 m := by
  have step : ∀ {m m' : Mdl K} {s s' : Sol K} {vect again : Bool}, Hist c Calm m0 m s → NoRelease m0 m → attempt c vect m s = .ok (m', s', again) → Calm vect m m' → NoRelease m0 m' := by
    intro m m' s s' vect again hh ih ha hp x z hx hz hxz hc
    obtain ⟨m1, s1, A, d, x', p, r', ps, h1⟩ := attempted hr.ctx.lower hr.ctx.wf (hr.inv hh) ha
    obtain ⟨y, hy, h2, -⟩ := (forall2_mem h1.move).1 z hz
    exact hp.1 y z hy hz h2.symm (ih x y hx hy (hxz.trans h2) hc)
  induction hh with
  | start =>
    intro x y hx hy hxy hc
    rw [← mem_unique hr.started.mdl.wkeys hx hy hxy]; exact hc
  | step hh ha hp ih => exact step hh ih ha hp
  | again hh ha hp ih => exact step hh ih ha hp
  | look hh ha ih =>
    obtain ⟨⟨ts, rfl⟩, -⟩ := assemble_frame ha
    exact ih
  | clock n t _ ih => exact ih

/-- What a well delivers in an accepted attempt, in terms of its settings. -/
lemma held_flow {e : Env K} (hB : 0 < e.B) (hmu : 0 < e.mu) {i : ℕ} {w0 w w' : ℕ × Well K} (hw0 : WellOK w0.2) (hw : WellOK w.2) (hid : w.1 = w0.1) (hG : w.2.G = w0.2.G) (hp : w.2.pwfsp = w0.2.pwfsp)
    (hqs : w.2.qsp = w0.2.qsp) (h0 : w0.2.con ≠ none) (hc : w.2.con ≠ none) (ht : w.2.con = some .q → w.2.q = w.2.qsp) {p q b : K} (hd : WellDone e p w.2 w'.2 q b)
    (hr : w.2.con = some .pwf → w'.2.con = some .pwf) (hh : w0.2.con = some .pwf → w.2.con = some .pwf) (hi : w0.1 = e.at i) :
    wellFlow e w.2 p = q ∧ q = wIn e p i w0 + topUp e p i w0 := by
  have f1 := (done_flow hB hmu hw hc ht hd hr).1
  refine ⟨f1, ?_⟩
  have f2 := done_best hB hmu hw hc ht hd hr
  have hwi : windex e w.2 = windex e w0.2 := by unfold windex; rw [hG]
  unfold wIn topUp
  rw [if_pos hi, if_pos hi]
  rcases hcon : w0.2.con with _ | _ | _
  · exact absurd hcon h0
  · rcases hq0 : w0.2.qsp with _ | qs
    · exact absurd hcon (hw0.free hq0).2
    · rw [f2]
      unfold bestRate
      rw [hqs, hq0, hp, hwi]
      dsimp only [Option.getD_some]
      rw [add_comm, ← max_add_add_right, zero_add, sub_add_cancel]
  · have h1 := hh hcon
    rw [← f1]
    unfold wellFlow
    rw [h1]
    dsimp only
    rw [hw.lim h1, hp, add_zero, hG]
    rfl

/-- In all recorded steps the pressures satisfy the balances with limits, and the recorded rates of the wells are what they deliver. -/
structure Limited (c : Ctx K) (vect : Bool) (m0 : Mdl K) (s : Sol K) : Prop where
  press : ∀ k, k < s.tstep → ∀ j, j < c.e.n → limited c.e (c.e.trans vect) m0 (s.inner c.e k) (s.inner c.e (k + 1)) j = 0
  rates : ∀ k, 0 < k → k ≤ s.tstep → ∀ w, w ∈ m0.wells → rowAt s.rates k 0 w.1 =
    wIn c.e (s.inner c.e k (c.e.ids.idxOf w.1)) (c.e.ids.idxOf w.1) w + topUp c.e (s.inner c.e k (c.e.ids.idxOf w.1)) (c.e.ids.idxOf w.1) w

lemma solve_limited {c : Ctx K} {m0 m m' : Mdl K} {s s' : Sol K} {vect : Bool} {f : ℕ} (hr : Ready c m0) (hx : Exact c.lin) (hg : vect = true → RatesGiven m0) (hf : vect = true → c.e.Flat)
    (hh : Hist c Calm m0 m s) (hP : SolveAll c Calm f vect m s) (hs : solve c f vect true m s = .ok (m', s')) (hb : Limited c vect m0 s) (hn : Numbers c s) :
    Limited c vect m0 s' ∧ Numbers c s' ∧ s'.tstep = s.tstep + 1 ∧ ∀ id, rowAt s'.press 0 none id = rowAt s.press 0 none id := by
  obtain ⟨m1, s1, a1, a2, a3, a4, a5, a6⟩ := solve_last hr.ctx.lower hr.ctx.wf hr.started.mdl hh hP hs
  obtain ⟨hi, hq⟩ := hr.calm a1
  obtain ⟨_, _, _, _, _, p, r', _, h1⟩ := attempted hr.ctx.lower hr.ctx.wf hi a5
  have he := hr.ctx.wf
  have hm0 := hr.started.mdl
  have es : s'.tstep = s.tstep + 1 := by rw [h1.tstep, a4]
  have old : ∀ k, k ≤ s.tstep → ∀ id, rowAt s'.press k none id = rowAt s.press k none id := fun k hk id => by
    rw [h1.press, rowAt_append_lt (by rw [hi.plen]; omega), a2]
  have inn : ∀ k, k ≤ s.tstep → s'.inner c.e k = s.inner c.e k := fun k hk => by
    funext j; unfold Sol.inner; rw [old k hk]
  have hheld := a1.held hr
  have flow : ∀ w0 w, w0 ∈ m0.wells → w ∈ m1.wells → (w.1 = w0.1 ∧ w.2.G = w0.2.G ∧ w.2.pwfsp = w0.2.pwfsp ∧ w.2.qsp = w0.2.qsp) → ∀ j, j < c.e.n → w0.1 = c.e.at j →
      wellFlow c.e w.2 (s'.inner c.e s'.tstep j) = r' w.1 ∧ r' w.1 = wIn c.e (s'.inner c.e s'.tstep j) j w0 + topUp c.e (s'.inner c.e s'.tstep j) j w0 := by
    rintro w0 w hw0 hw ⟨g1, g2, g3, g4⟩ j hj hid
    obtain ⟨y, hy, h7, bb, h8⟩ := (forall2_mem (h1.done rfl).1).2 w hw
    have hpx : (p w.1).getD 0 = s'.inner c.e s'.tstep j := by
      have := h1.inner he hi hj
      rw [this, h1.peq, g1, hid, newRow_at he.nodup _ _ hj]; rfl
    rw [hpx] at h8
    exact held_flow he.B he.mu (hm0.well w0 hw0) (hi.mdl.well w hw) g1 g2 g3 g4 (hr.cfg w0 hw0) (hq.cfg w hw) (hq.tame w hw) h8 (a6.1 w y hw hy h7.symm) (hheld w0 w hw0 hw g1.symm) hid
  refine ⟨⟨fun k hk j hj => ?_, fun k h0 hk w hw => ?_⟩, fun k h0 hk j hj => ?_, es, old 0 (Nat.zero_le _)⟩
  · by_cases hk' : k = s.tstep
    · have := step_balance hr.ctx hx hi hq hf a6.2 a5 j hj
      have e0 : s1.inner c.e s.tstep = s'.inner c.e s.tstep := by rw [inn _ le_rfl]; unfold Sol.inner; rw [a2]
      rw [a4, e0] at this
      rw [hk', ← es, ← this]
      unfold limited residue excess outsideIn
      have k1 : (m0.bdict.map (bIn c.e (s'.inner c.e s'.tstep j) j)).sum = (m1.bdict.map (boundaryIn c.e (usedRate vect m1 s1) (s'.inner c.e s'.tstep j) j)).sum := by
        rw [hi.same.bdict]
        refine congrArg List.sum (List.map_congr_left fun b hbm => ?_)
        unfold bIn boundaryIn
        by_cases hp : b.2.1 = "pressure"
        · simp only [hp, if_true]
        · rw [usedRate_eq he hm0 hi vect hbm hp]
          cases vect
          · rfl
          · simp only [if_true]; rw [hg rfl b hbm hp]
      have k2 : (m0.wells.map (wIn c.e (s'.inner c.e s'.tstep j) j)).sum + (m0.wells.map (topUp c.e (s'.inner c.e s'.tstep j) j)).sum = (m1.wells.map (wellIn c.e (s'.inner c.e s'.tstep j) j)).sum := by
        rw [← List.sum_map_add]
        refine sum_map_forall2 (fun w w' h => ?_) (forall2_and hi.same.wells)
        by_cases hid : w.1 = c.e.at j
        · have := flow w w' h.2.1 h.2.2 h.1 j hj hid
          unfold wellIn
          rw [if_pos (h.1.1.trans hid), this.1, this.2]
        · unfold wIn topUp wellIn
          rw [h.1.1, if_neg hid, if_neg hid, if_neg hid, add_zero]
      rw [← k1, ← k2]
      ring
    · rw [inn k (by omega), inn (k + 1) (by omega)]
      exact hb.press k (by omega) j hj
  · by_cases hk' : k = s'.tstep
    · obtain ⟨w', hw', g⟩ := (forall2_mem hi.same.wells).2 w hw
      have := (flow w w' hw hw' g _ (idx_lt c.e (hm0.wmem w hw)) (at_idx c.e (hm0.wmem w hw)).symm).2
      rw [hk', ← this, h1.rates, h1.tstep, rowAt_append_eq hi.rlen, g.1]
    · rw [inn k (by omega), ← hb.rates k h0 (by omega) w hw, h1.rates, rowAt_append_lt (by rw [hi.rlen]; omega), a3]
  · by_cases hk' : k = s'.tstep
    · rw [hk']; exact row_inner hr hi a5 hj
    · rw [inn k (by omega), old k (by omega)]
      exact hn k h0 (by omega) j hj

lemma runLoop_limited {c : Ctx K} {m0 : Mdl K} {vect : Bool} {f : ℕ} (hr : Ready c m0) (hx : Exact c.lin) (hg : vect = true → RatesGiven m0) (hf : vect = true → c.e.Flat)
    (N : ℕ) {m : Mdl K} {s : Sol K} (hh : Hist c Calm m0 m s) (hP : RunAll c Calm f vect N m s) (hs : (runLoop c f vect N m s).2 = .ok ()) (hb : Limited c vect m0 s) (hn : Numbers c s) :
    Limited c vect m0 (runLoop c f vect N m s).1.2 ∧ Numbers c (runLoop c f vect N m s).1.2 ∧ (runLoop c f vect N m s).1.2.tstep = s.tstep + N ∧
      ∀ id, rowAt (runLoop c f vect N m s).1.2.press 0 none id = rowAt s.press 0 none id := by
  induction N generalizing m s with
  | zero => exact ⟨hb, hn, rfl, fun _ => rfl⟩
  | succ N ih =>
    rcases h1 : solve c f vect true m s with x | ⟨m1, s1⟩
    · unfold runLoop at hs; rw [h1] at hs; cases hs
    have st : runLoop c f vect (N + 1) m s = runLoop c f vect N m1 s1 := by conv_lhs => unfold runLoop; rw [h1]
    rw [st] at hs ⊢
    obtain ⟨k1, k2, k3, k4⟩ := solve_limited hr hx hg hf hh hP.1 h1 hb hn
    obtain ⟨l1, l2, l3, l4⟩ := ih (hh.solve hr.ctx.lower hr.ctx.wf hr.started.mdl hP.1 h1) (hP.2 _ _ h1) hs k1 k2
    exact ⟨l1, l2, by rw [l3, k3]; omega, fun id => by rw [l4, k4]⟩

lemma run_limited {c : Ctx K} {m : Mdl K} {vect : Bool} {f N : ℕ} {el : K} (hr : Ready c m) (hx : Exact c.lin) (hg : vect = true → RatesGiven m) (hf : vect = true → c.e.Flat)
    (hP : RunAll c Calm f vect N m { Sol.init m with nsteps := (Sol.init m).nsteps + N }) (hs : (run c f vect N el m (Sol.init m)).2 = .ok ()) :
    Limited c vect m (run c f vect N el m (Sol.init m)).1.2 ∧ Numbers c (run c f vect N el m (Sol.init m)).1.2 ∧ (run c f vect N el m (Sol.init m)).1.2.tstep = N ∧
      ∀ id, rowAt (run c f vect N el m (Sol.init m)).1.2.press 0 none id = m.initP id := by
  have z : ∀ k, ¬ (0 < k ∧ k ≤ (Sol.init m).tstep) := fun k h => by
    have : (Sol.init m).tstep = 0 := rfl
    omega
  have key := runLoop_limited hr hx hg hf N (.clock _ (Sol.init m).ctime .start) hP (run_sol hs).1 ⟨fun k hk => absurd hk (Nat.not_lt_zero _), fun k h0 hk => absurd ⟨h0, hk⟩ (z k)⟩
    (fun k h0 hk => absurd ⟨h0, hk⟩ (z k))
  unfold run at hs ⊢
  rcases hl : runLoop c f vect N m { Sol.init m with nsteps := (Sol.init m).nsteps + N } with ⟨⟨m', s'⟩, x | ⟨⟩⟩
  · rw [hl] at hs; cases hs
  · rw [hl] at key
    obtain ⟨k1, k2, k3, k4⟩ := key
    exact ⟨⟨k1.press, k1.rates⟩, k2, by rw [k3]; show 0 + N = N; omega, fun id => by rw [k4]; rfl⟩

/-! ### folded reservoirs -/

/-- The limits of the wells of `m` are those of `m'`. -/
def FoldsTop (σ : ℕ → ℕ) (s : ℕ → K) (e e' : Env K) (m m' : Mdl K) : Prop :=
  ∀ a p, a ∈ e.ids → (m.wells.map (topUp e p (e.ids.idxOf a))).sum = s a * (m'.wells.map (topUp e' p (e'.ids.idxOf (σ a)))).sum

lemma Folds.limited {σ : ℕ → ℕ} {s : ℕ → K} {vect : Bool} {e e' : Env K} {m m' : Mdl K} (h : Folds σ s vect e e') (hm : FoldsMdl σ s e e' m m') (ht : FoldsTop σ s e e' m m') (he : e.WF) (he' : e'.WF)
    {i : ℕ} (hi : i < e.n) (old x : ℕ → K) :
    limited e (e.trans vect) m (fun j => old (e'.ids.idxOf (σ (e.at j)))) (fun j => x (e'.ids.idxOf (σ (e.at j)))) i =
      s (e.at i) * limited e' (e'.trans vect) m' old x (e'.ids.idxOf (σ (e.at i))) := by
  have h2 := ht (e.at i) (x (e'.ids.idxOf (σ (e.at i)))) (at_mem e hi)
  rw [idx_at e he.nodup hi] at h2
  unfold RF.Fdm.limited
  rw [h.residue hm he he' hi, h2]
  ring

/-- The runs of a large and a small reservoir with wells at limits: at every step the pressure of a cell is the pressure of the cell below. -/
theorem fold_limited {σ : ℕ → ℕ} {s : ℕ → K} {vect : Bool} {c c' : Ctx K} {m m' : Mdl K} {f f' N : ℕ} {el el' : K} (h : Folds σ s vect c.e c'.e) (hm : FoldsMdl σ s c.e c'.e m m')
    (ht : FoldsTop σ s c.e c'.e m m') (hr : Ready c m) (hr' : Ready c' m')
    (hx : Exact c.lin) (hx' : Exact c'.lin) (hg : vect = true → RatesGiven m ∧ RatesGiven m') (hf : vect = true → c.e.Flat ∧ c'.e.Flat) (han : Anchored c.e m)
    (hP : RunAll c Calm f vect N m { Sol.init m with nsteps := (Sol.init m).nsteps + N }) (hP' : RunAll c' Calm f' vect N m' { Sol.init m' with nsteps := (Sol.init m').nsteps + N })
    (hs : (run c f vect N el m (Sol.init m)).2 = .ok ()) (hs' : (run c' f' vect N el' m' (Sol.init m')).2 = .ok ()) :
    (run c f vect N el m (Sol.init m)).1.2.tstep = N ∧ (run c' f' vect N el' m' (Sol.init m')).1.2.tstep = N ∧
    ∀ k, (0 < k ∨ c.e.comp = true) → k ≤ N → ∀ a, a ∈ c.e.ids →
      rowAt (run c f vect N el m (Sol.init m)).1.2.press k none a = rowAt (run c' f' vect N el' m' (Sol.init m')).1.2.press k none (σ a) := by
  obtain ⟨b, n, t, i⟩ := run_limited hr hx (fun h => (hg h).1) (fun h => (hf h).1) hP hs
  obtain ⟨b', n', t', i'⟩ := run_limited hr' hx' (fun h => (hg h).2) (fun h => (hf h).2) hP' hs'
  generalize (run c f vect N el m (Sol.init m)).1.2 = S at *
  generalize (run c' f' vect N el' m' (Sol.init m')).1.2 = S' at *
  have he := hr.ctx.wf
  have he' := hr'.ctx.wf
  have start : ∀ j, j < c.e.n → c.e.rhs (c.e.at j) * (S.inner c.e 0 j - S'.inner c'.e 0 (c'.e.ids.idxOf (σ (c.e.at j)))) = 0 := fun j hj => by
    by_cases hc : c.e.comp = true
    · unfold Sol.inner
      rw [at_idx c'.e (h.mem _ (at_mem c.e hj)), i, i', hm.init hc _ (at_mem c.e hj), sub_self, mul_zero]
    · rw [he.rhsI (by simpa using hc), zero_mul]
  have key : ∀ k, k < N → ∀ j, j < c.e.n → S.inner c.e (k + 1) j = S'.inner c'.e (k + 1) (c'.e.ids.idxOf (σ (c.e.at j))) := by
    intro k
    induction k with
    | zero =>
      intro hk
      refine limited_unique he (hr.ctx.grid.network vect) hr.started.mdl han (old' := S.inner c.e 0) (old := fun j => S'.inner c'.e 0 (c'.e.ids.idxOf (σ (c.e.at j)))) start (fun j hj => ?_) (b.press 0 (by omega))
      rw [h.limited hm ht he he' hj, b'.press 0 (by omega) _ (idx_lt c'.e (h.mem _ (at_mem c.e hj))), mul_zero]
    | succ k ih =>
      intro hk
      refine limited_unique he (hr.ctx.grid.network vect) hr.started.mdl han (old' := S.inner c.e (k + 1)) (old := fun j => S'.inner c'.e (k + 1) (c'.e.ids.idxOf (σ (c.e.at j))))
        (fun j hj => by rw [ih (by omega) j hj, sub_self, mul_zero]) (fun j hj => ?_) (b.press (k + 1) (by omega))
      rw [h.limited hm ht he he' hj, b'.press (k + 1) (by omega) _ (idx_lt c'.e (h.mem _ (at_mem c.e hj))), mul_zero]
  refine ⟨t, t', fun k h0 hk a ha => ?_⟩
  rcases k with _ | k
  · rw [i, i']; exact hm.init (h0.resolve_left (lt_irrefl _)) a ha
  · have h1 := n (k + 1) (Nat.succ_pos _) (by omega) _ (idx_lt c.e ha)
    have h2 := n' (k + 1) (Nat.succ_pos _) (by omega) _ (idx_lt c'.e (h.mem a ha))
    have h3 := key k (by omega) _ (idx_lt c.e ha)
    rw [at_idx c.e ha] at h1 h3
    rw [at_idx c'.e (h.mem a ha)] at h2
    rw [h1, h2, h3]

end RF.Fdm
