import Verif.Fdm.PropsHead
import Verif.Fdm.PropsSlopes
/-!
# Superposition and reciprocity on inclined reservoirs with target rates (C71, C79)

What the vectorised assembler enters for gravity depends on the grid and on whether some well is under rate constraint, not on pressures and given values (C49_vectorised_exact). As long as no well changes
its constraint it is one vector for all models of one shape and all steps, so that it drops out of differences and of combinations with weights that add up to 1.
-/
set_option linter.unusedSectionVars false
namespace RF.Fdm
open RF RF.Dims RF.Spec Finset

variable {K : Type} [Field K] [LinearOrder K] [IsStrictOrderedRing K]
variable {c : Ctx K} {m n m0 : Mdl K} {ι : Type}

/-- The gravity head of cell `i` less what the vectorised assembler enters for it. -/
def headGap (e : Env K) (m : Mdl K) (i : ℕ) : K :=
  cellHead e i - (if (∃ w, w ∈ m.wells ∧ w.2.con = some .q) ∧ ¬ ∀ j, j < e.n → e.z (e.at j) = e.z (e.at 0) then
    e.diag1 i * e.grav * ((if i + 1 < e.n then e.z (e.at (i + 1)) - e.z (e.at i) else 0) + (if 0 < i then e.z (e.at (i - 1)) - e.z (e.at i) else 0)) else 0)

lemma headGap_congr {e : Env K} (h : (∃ w, w ∈ m.wells ∧ w.2.con = some .q) ↔ ∃ w, w ∈ n.wells ∧ w.2.con = some .q) (i : ℕ) : headGap e m i = headGap e n i := by
  unfold headGap
  simp only [h]

lemma rateWell_cons (h : m.wells.map (fun x => (x.1, x.2.con)) = n.wells.map fun x => (x.1, x.2.con)) : (∃ w, w ∈ m.wells ∧ w.2.con = some .q) ↔ ∃ w, w ∈ n.wells ∧ w.2.con = some .q := by
  have key : ∀ m : Mdl K, (∃ w, w ∈ m.wells ∧ w.2.con = some .q) ↔ ∃ x, x ∈ m.wells.map (fun x => (x.1, x.2.con)) ∧ x.2 = some .q := fun m => by simp
  rw [key, key, h]

lemma Shape.headGap (h : Shape m n) (e : Env K) (i : ℕ) : headGap e m i = headGap e n i := by
  refine headGap_congr ⟨fun ⟨w, hw, hc⟩ => ?_, fun ⟨w, hw, hc⟩ => ?_⟩ i
  · obtain ⟨w', hw', k⟩ := (forall2_mem h.well).2 w hw
    exact ⟨w', hw', by rw [k.2.2, hc]⟩
  · obtain ⟨w', hw', k⟩ := (forall2_mem h.well).1 w hw
    exact ⟨w', hw', by rw [← k.2.2, hc]⟩

/-- One attempt: the balances of the new pressures, up to the gap. -/
lemma step_tilted {m m' : Mdl K} {s s' : Sol K} {again : Bool} (hr : Ready c m0) (hx : Exact c.lin) (hg : RatesGiven m0) (hh : Hist c Steady m0 m s) (hz : NoZeroPwf m)
    (ha : attempt c true m s = .ok (m', s', again)) {j : ℕ} (hj : j < c.e.n) :
    residue c.e (c.e.trans true) m0 (s.inner c.e s.tstep) (s'.inner c.e s'.tstep) j + headGap c.e m0 j = 0 := by
  obtain ⟨hc, hcon⟩ := hh.steady hr
  obtain ⟨hi, hq⟩ := hr.calm hc
  obtain ⟨m1, s1, A, d, x, p, r', ps, h⟩ := attempted hr.ctx.lower hr.ctx.wf hi ha
  have h1 := hx _ _ _ _ h.lin j hj
  have h2 := C49_vectorised_exact hr hc hz h.asm x hj
  have h3 := excess_residue hr (vect := true) (fun _ => hg) hh (c.e.trans true) (s.inner c.e s.tstep) (s'.inner c.e s'.tstep) j
  rw [← h3, excess_congr (fun j hj => h.inner hr.ctx.wf hi hj) hj, ← headGap_congr (rateWell_cons hcon)]
  unfold headGap
  rw [h1, sub_self] at h2
  have h4 : excess c.e (c.e.trans true) m (usedRate true m s) (s.inner c.e s.tstep) x j = excess c.e c.e.transV m (rowAt s.rates s.tstep 0) (s.inner c.e s.tstep) x j := rfl
  rw [h4]
  convert h2.symm using 1
  rw [add_sub_assoc]

/-- In all recorded steps the pressures satisfy the balances of the model, up to the gap. -/
def Tilted (c : Ctx K) (m0 : Mdl K) (s : Sol K) : Prop :=
  ∀ k, k < s.tstep → ∀ j, j < c.e.n → residue c.e (c.e.trans true) m0 (s.inner c.e k) (s.inner c.e (k + 1)) j + headGap c.e m0 j = 0

lemma solve_tilted {m m' : Mdl K} {s s' : Sol K} {f : ℕ} (hr : Ready c m0) (hx : Exact c.lin) (hg : RatesGiven m0)
    (hh : Hist c Steady m0 m s) (hP : SolveAll c Steady f true m s) (hs : solve c f true true m s = .ok (m', s')) (hb : Tilted c m0 s) (hn : Numbers c s) :
    Tilted c m0 s' ∧ Numbers c s' ∧ s'.tstep = s.tstep + 1 ∧ ∀ id, rowAt s'.press 0 none id = rowAt s.press 0 none id := by
  obtain ⟨m1, s1, a1, a2, a3, a4, a5, a6⟩ := solve_last hr.ctx.lower hr.ctx.wf hr.started.mdl hh hP hs
  have a1' := (a1.steady hr).1
  obtain ⟨hi, hq⟩ := hr.calm a1'
  obtain ⟨_, _, _, _, _, _, _, _, h1⟩ := attempted hr.ctx.lower hr.ctx.wf hi a5
  have es : s'.tstep = s.tstep + 1 := by rw [h1.tstep, a4]
  have old : ∀ k, k ≤ s.tstep → ∀ id, rowAt s'.press k none id = rowAt s.press k none id := fun k hk id => by
    rw [h1.press, rowAt_append_lt (by rw [hi.plen]; omega), a2]
  have inn : ∀ k, k ≤ s.tstep → s'.inner c.e k = s.inner c.e k := fun k hk => by
    funext j; unfold Sol.inner; rw [old k hk]
  refine ⟨fun k hk j hj => ?_, fun k h0 hk j hj => ?_, es, old 0 (Nat.zero_le _)⟩
  · by_cases hk' : k = s.tstep
    · have := step_tilted hr hx hg a1 (a6.2 rfl) a5 hj
      rw [a4, es] at this
      have e0 : s1.inner c.e s.tstep = s'.inner c.e s.tstep := by rw [inn _ le_rfl]; unfold Sol.inner; rw [a2]
      rw [e0] at this
      rw [hk']; exact this
    · rw [inn k (by omega), inn (k + 1) (by omega)]
      exact hb k (by omega) j hj
  · by_cases hk' : k = s'.tstep
    · rw [hk']; exact row_inner hr hi a5 hj
    · rw [inn k (by omega), old k (by omega)]
      exact hn k h0 (by omega) j hj

lemma runLoop_tilted {f : ℕ} (hr : Ready c m0) (hx : Exact c.lin) (hg : RatesGiven m0)
    (N : ℕ) {m : Mdl K} {s : Sol K} (hh : Hist c Steady m0 m s) (hP : RunAll c Steady f true N m s) (hs : (runLoop c f true N m s).2 = .ok ()) (hb : Tilted c m0 s) (hn : Numbers c s) :
    Tilted c m0 (runLoop c f true N m s).1.2 ∧ Numbers c (runLoop c f true N m s).1.2 ∧ (runLoop c f true N m s).1.2.tstep = s.tstep + N ∧
      ∀ id, rowAt (runLoop c f true N m s).1.2.press 0 none id = rowAt s.press 0 none id := by
  induction N generalizing m s with
  | zero => exact ⟨hb, hn, rfl, fun _ => rfl⟩
  | succ N ih =>
    rcases h1 : solve c f true true m s with x | ⟨m1, s1⟩
    · unfold runLoop at hs; rw [h1] at hs; cases hs
    have st : runLoop c f true (N + 1) m s = runLoop c f true N m1 s1 := by conv_lhs => unfold runLoop; rw [h1]
    rw [st] at hs ⊢
    obtain ⟨k1, k2, k3, k4⟩ := solve_tilted hr hx hg hh hP.1 h1 hb hn
    obtain ⟨l1, l2, l3, l4⟩ := ih (hh.solve hr.ctx.lower hr.ctx.wf hr.started.mdl hP.1 h1) (hP.2 _ _ h1) hs k1 k2
    exact ⟨l1, l2, by rw [l3, k3]; omega, fun id => by rw [l4, k4]⟩

lemma run_tilted {f N : ℕ} {el : K} (hr : Ready c m) (hx : Exact c.lin) (hg : RatesGiven m)
    (hP : RunAll c Steady f true N m { Sol.init m with nsteps := (Sol.init m).nsteps + N }) (hs : (run c f true N el m (Sol.init m)).2 = .ok ()) :
    Tilted c m (run c f true N el m (Sol.init m)).1.2 ∧ Numbers c (run c f true N el m (Sol.init m)).1.2 ∧ (run c f true N el m (Sol.init m)).1.2.tstep = N ∧
      ∀ id, rowAt (run c f true N el m (Sol.init m)).1.2.press 0 none id = m.initP id := by
  obtain ⟨e1, e2, e3⟩ := run_sol hs
  obtain ⟨k1, k2, k3, k4⟩ := runLoop_tilted hr hx hg N (.clock _ (Sol.init m).ctime .start) hP e1 (fun k hk => absurd hk (Nat.not_lt_zero _)) (fun k h0 hk => absurd hk (by
    have : (Sol.init m).tstep = 0 := rfl
    show ¬ k ≤ 0
    omega))
  refine ⟨fun k hk j hj => ?_, fun k h0 hk j hj => ?_, ?_, fun id => ?_⟩
  · have := k1 k (by rw [← e3]; exact hk) j hj
    unfold Sol.inner at this ⊢
    rw [e2]; exact this
  · have := k2 k h0 (by rw [← e3]; exact hk) j hj
    unfold Sol.inner at this ⊢
    rw [e2]; exact this
  · rw [e3, k3]; show 0 + N = N; omega
  · rw [e2, k4]; rfl

/-! ### C71 -/

lemma run_comb_tilted {S : Finset ι} {a : ι → K} {M : ι → Mdl K} {f : ℕ} {F : ι → ℕ}
    (ha : ∑ i ∈ S, a i = 1) (hr : Ready c m) (hR : ∀ i, i ∈ S → Ready c (M i)) (hx : Exact c.lin) (hc : Combined S a M m) (hg : RatesGiven m) (hG : ∀ i, i ∈ S → RatesGiven (M i))
    (han : Anchored c.e m) (N : ℕ) (el : K) (el' : ι → K)
    (hinit : c.e.comp = true → ∀ id, id ∈ c.e.ids → ∃ (p : K) (q : ι → K), m.initP id = some p ∧ (∀ i, i ∈ S → (M i).initP id = some (q i)) ∧ p = ∑ i ∈ S, a i * q i)
    (hP : RunAll c Steady f true N m { Sol.init m with nsteps := (Sol.init m).nsteps + N })
    (hPP : ∀ i, i ∈ S → RunAll c Steady (F i) true N (M i) { Sol.init (M i) with nsteps := (Sol.init (M i)).nsteps + N })
    (hs : (run c f true N el m (Sol.init m)).2 = .ok ()) (hS : ∀ i, i ∈ S → (run c (F i) true N (el' i) (M i) (Sol.init (M i))).2 = .ok ()) :
    Superposed S a c (fun i => (run c (F i) true N (el' i) (M i) (Sol.init (M i))).1.2) (run c f true N el m (Sol.init m)).1.2 := by
  obtain ⟨b, nn, t, i0⟩ := run_tilted hr hx hg hP hs
  have B := fun i hi => run_tilted (hR i hi) hx (hG i hi) (hPP i hi) (hS i hi)
  generalize (run c f true N el m (Sol.init m)).1.2 = s at *
  generalize hT' : (fun i => (run c (F i) true N (el' i) (M i) (Sol.init (M i))).1.2) = T' at *
  have hT'' : ∀ i, (run c (F i) true N (el' i) (M i) (Sol.init (M i))).1.2 = T' i := fun i => congrFun hT' i
  simp only [hT''] at B
  have he := hr.ctx.wf
  have hm := hr.started.mdl
  have hT := hr.ctx.grid.network true
  have refl : Shape m m := ⟨List.forall₂_same.2 fun _ _ => ⟨rfl, rfl⟩, List.forall₂_same.2 fun _ _ => ⟨rfl, rfl, rfl⟩⟩
  have key : ∀ k, k ≤ N → (c.e.comp = true ∨ 0 < k) → ∀ j, j < c.e.n → s.inner c.e k j = ∑ i ∈ S, a i * (T' i).inner c.e k j := by
    intro k
    induction k with
    | zero =>
      intro _ h j hj
      rcases h with h | h
      · obtain ⟨p, q, k1, k2, k3⟩ := hinit h _ (at_mem c.e hj)
        unfold Sol.inner
        rw [i0, k1, show (some p).getD 0 = p from rfl, k3]
        exact sum_congr rfl fun i hi => by rw [(B i hi).2.2.2, k2 i hi]; rfl
      · omega
    | succ k ih =>
      intro hk _
      have bk := b k (by omega)
      have lin := fun j hj => residue_lin he (.inl ha) hm (fun i hi => (hR i hi).started.mdl) hc (c.e.trans true) (fun i => (T' i).inner c.e k) (fun i => (T' i).inner c.e (k + 1)) (j := j) hj
        (s.inner c.e k j) (by
          rcases hcm : c.e.comp
          · rw [he.rhsI hcm, zero_mul, zero_mul]
          · rw [ih (by omega) (.inl hcm) j hj])
      refine Net.eq_of_inflow_eq (anchored_leaky he hT hm han) fun j hj => ?_
      have d1 := residue_diff (T := c.e.trans true) he hm hm refl (s.inner c.e k) (s.inner c.e k) (fun _ => 0) (s.inner c.e (k + 1)) j
      have d2 := residue_diff (T := c.e.trans true) he hm hm refl (s.inner c.e k) (s.inner c.e k) (fun _ => 0) (fun j => ∑ i ∈ S, a i * (T' i).inner c.e (k + 1) j) j
      have d3 : residue c.e (c.e.trans true) m (s.inner c.e k) (fun j => ∑ i ∈ S, a i * (T' i).inner c.e (k + 1) j) j = - headGap c.e m j := by
        have h1 := lin j hj
        have h2 : ∀ i ∈ S, a i * residue c.e (c.e.trans true) (M i) ((T' i).inner c.e k) ((T' i).inner c.e (k + 1)) j = a i * (- headGap c.e m j) := fun i hi => by
          have := (B i hi).1 k (by rw [(B i hi).2.2.1]; omega) j hj
          rw [← (hc.shape i hi).headGap] at this
          rw [eq_neg_of_add_eq_zero_left this]
        rw [sum_congr rfl h2, ← sum_mul, ha, one_mul] at h1
        exact h1
      have d4 := eq_neg_of_add_eq_zero_left (bk j hj)
      simp only [sub_zero] at d1 d2
      rw [d4] at d1
      rw [d3] at d2
      linarith
  refine ⟨fun i hi => by rw [(B i hi).2.2.1, t], fun k hk hcp id hid => ?_⟩
  have hj := idx_lt c.e hid
  have hk' : k ≤ N := by omega
  have num : ∀ (u : Sol K) (m' : Mdl K), Numbers c u → u.tstep = N → (∀ id, rowAt u.press 0 none id = m'.initP id) → (c.e.comp = true → ∃ p, m'.initP id = some p) →
      rowAt u.press k none id = some (u.inner c.e k (c.e.ids.idxOf id)) := fun u m' h1 h2 h3 h4 => by
    by_cases h0 : 0 < k
    · have := h1 k h0 (by omega) _ hj
      rw [at_idx c.e hid] at this
      exact this
    · have e0 : k = 0 := by omega
      obtain ⟨p, hp⟩ := h4 (hcp.resolve_right h0)
      unfold Sol.inner
      rw [e0, at_idx c.e hid, h3, hp]
      rfl
  refine ⟨_, fun i => (T' i).inner c.e k (c.e.ids.idxOf id), num s m nn t i0 (fun h => ?_), fun i hi => num (T' i) (M i) (B i hi).2.1 (B i hi).2.2.1 (B i hi).2.2.2 (fun h => ?_), key k hk' hcp _ hj⟩
  · obtain ⟨p, q, k1, -⟩ := hinit h id hid
    exact ⟨p, k1⟩
  · obtain ⟨p, q, -, k2, -⟩ := hinit h id hid
    exact ⟨q i, k2 i hi⟩

/-- **C71, inclined reservoirs, vectorised, all wells.** Combine the data of any number of models with weights that add up to 1; in runs in which no well changes its constraint all stored pressures are those of
the models combined with the same weights, whatever the depths of the cells. Missing: weights that do not add up to 1 on inclined reservoirs, where gravity would be counted with their sum. -/
theorem C71_tilted_partial {S : Finset ι} {a : ι → K} {M : ι → Mdl K} {f : ℕ} {F : ι → ℕ}
    (ha : ∑ i ∈ S, a i = 1) (hr : Ready c m) (hR : ∀ i, i ∈ S → Ready c (M i)) (hx : Exact c.lin) (hc : Combined S a M m) (han : Anchored c.e m) (k : ℕ) (el : K) (el' : ι → K)
    (hinit : c.e.comp = true → ∀ id, id ∈ c.e.ids → ∃ (p : K) (q : ι → K), m.initP id = some p ∧ (∀ i, i ∈ S → (M i).initP id = some (q i)) ∧ p = ∑ i ∈ S, a i * q i)
    (hP : RunAll c Steady f true k m { Sol.init m with nsteps := (Sol.init m).nsteps + k })
    (hPP : ∀ i, i ∈ S → RunAll c Steady (F i) true k (M i) { Sol.init (M i) with nsteps := (Sol.init (M i)).nsteps + k })
    (hs : (run c f true k el m (Sol.init m)).2 = .ok ()) (hS : ∀ i, i ∈ S → (run c (F i) true k (el' i) (M i) (Sol.init (M i))).2 = .ok ()) :
    Superposed S a c (fun i => (run c (F i) true k (el' i) (M i) (Sol.init (M i))).1.2) (run c f true k el m (Sol.init m)).1.2 := by
  have key := run_comb_tilted (M := fun i => (M i).asRates) (m := m.asRates) (F := F) (f := f) ha hr.asRates (fun i hi => (hR i hi).asRates) hx (hc.asRates hr hR)
    (asRates_given m) (fun i _ => asRates_given (M i)) (asRates_anchored.2 han) k el el' hinit ((run_asRates hr f k el).2.2.2 _ steady_blind hP)
    (fun i hi => (run_asRates (hR i hi) (F i) k (el' i)).2.2.2 _ steady_blind (hPP i hi)) (by rw [(run_asRates hr f k el).2.1]; exact hs)
    (fun i hi => by rw [(run_asRates (hR i hi) (F i) k (el' i)).2.1]; exact hS i hi)
  rw [(run_asRates hr f k el).1] at key
  refine ⟨fun i hi => by dsimp only; rw [← (run_asRates (hR i hi) (F i) k (el' i)).1]; exact key.1 i hi, fun j hj hcp id hid => ?_⟩
  obtain ⟨p, q, k1, k2, k3⟩ := key.2 j hj hcp id hid
  exact ⟨p, q, k1, fun i hi => by dsimp only; rw [← (run_asRates (hR i hi) (F i) k (el' i)).1]; exact k2 i hi, k3⟩

/-! ### C79 -/

lemma reciprocal_tilted {m1 m2 : Mdl K} {f f1 f2 N : ℕ} {el el1 el2 : K} (hr : Ready c m) (hr1 : Ready c m1) (hr2 : Ready c m2) (hx : Exact c.lin)
    (h1 : Shape m m1) (h2 : Shape m m2) (hg : RatesGiven m) (hg1 : RatesGiven m1) (hg2 : RatesGiven m2)
    (hinit : c.e.comp = true → ∀ id, id ∈ c.e.ids → m1.initP id = m.initP id ∧ m2.initP id = m.initP id)
    (hP : RunAll c Steady f true N m { Sol.init m with nsteps := (Sol.init m).nsteps + N }) (hP1 : RunAll c Steady f1 true N m1 { Sol.init m1 with nsteps := (Sol.init m1).nsteps + N })
    (hP2 : RunAll c Steady f2 true N m2 { Sol.init m2 with nsteps := (Sol.init m2).nsteps + N })
    (hs : (run c f true N el m (Sol.init m)).2 = .ok ()) (hs1 : (run c f1 true N el1 m1 (Sol.init m1)).2 = .ok ()) (hs2 : (run c f2 true N el2 m2 (Sol.init m2)).2 = .ok ()) (k : ℕ) (h0 : 0 < k) (hk : k ≤ N) :
    ∃ p p1 p2 : ℕ → K, (∀ id, id ∈ c.e.ids → rowAt (run c f true N el m (Sol.init m)).1.2.press k none id = some (p id) ∧ rowAt (run c f1 true N el1 m1 (Sol.init m1)).1.2.press k none id = some (p1 id) ∧
      rowAt (run c f2 true N el2 m2 (Sol.init m2)).1.2.press k none id = some (p2 id)) ∧
      work c.e m m2 (fun id => p1 id - p id) = work c.e m m1 (fun id => p2 id - p id) := by
  obtain ⟨b, n, t, i⟩ := run_tilted hr hx hg hP hs
  obtain ⟨b1, n1, t1, i1⟩ := run_tilted hr1 hx hg1 hP1 hs1
  obtain ⟨b2, n2, t2, i2⟩ := run_tilted hr2 hx hg2 hP2 hs2
  generalize (run c f true N el m (Sol.init m)).1.2 = s at *
  generalize (run c f1 true N el1 m1 (Sol.init m1)).1.2 = s1 at *
  generalize (run c f2 true N el2 m2 (Sol.init m2)).1.2 = s2 at *
  have he := hr.ctx.wf
  have hm := hr.started.mdl
  have hT := hr.ctx.grid.network true
  refine ⟨fun id => s.inner c.e k (c.e.ids.idxOf id), fun id => s1.inner c.e k (c.e.ids.idxOf id), fun id => s2.inner c.e k (c.e.ids.idxOf id), fun id hid => ?_, ?_⟩
  · have hj := idx_lt c.e hid
    have a := n k h0 (by omega) _ hj
    have a1 := n1 k h0 (by omega) _ hj
    have a2 := n2 k h0 (by omega) _ hj
    rw [at_idx c.e hid] at a a1 a2
    exact ⟨a, a1, a2⟩
  · rw [← push_work he hm, ← push_work he hm]
    obtain ⟨k, rfl⟩ : ∃ k', k = k' + 1 := ⟨k - 1, by omega⟩
    have start : ∀ (s' : Sol K) (m' : Mdl K), (∀ id, rowAt s'.press 0 none id = m'.initP id) → (c.e.comp = true → ∀ id, id ∈ c.e.ids → m'.initP id = m.initP id) →
        ∀ j, j < c.e.n → c.e.rhs (c.e.at j) * (s'.inner c.e 0 j - s.inner c.e 0 j) = 0 := fun s' m' hi' hin j hj => by
      by_cases hc : c.e.comp = true
      · unfold Sol.inner
        rw [hi', i, hin hc _ (at_mem c.e hj), sub_self, mul_zero]
      · rw [he.rhsI (by simpa using hc), zero_mul]
    have key := Net.reciprocal (fun i j hi hj => hT.symm i j hi hj) (leak c.e m) (fun j => c.e.rhs (c.e.at j)) (push c.e m m1) (push c.e m m2) (fun k j => s1.inner c.e k j - s.inner c.e k j)
      (fun k j => s2.inner c.e k j - s.inner c.e k j) N (start s1 m1 i1 fun h id hid => (hinit h id hid).1) (start s2 m2 i2 fun h id hid => (hinit h id hid).2)
      (fun k hk j hj => by
        have := residue_diff (T := c.e.trans true) he hm hr1.started.mdl h1 (s.inner c.e k) (s1.inner c.e k) (s.inner c.e (k + 1)) (s1.inner c.e (k + 1)) j
        rw [eq_neg_of_add_eq_zero_left (b k (by omega) j hj), eq_neg_of_add_eq_zero_left (b1 k (by omega) j hj), h1.headGap, sub_self] at this
        exact this.symm)
      (fun k hk j hj => by
        have := residue_diff (T := c.e.trans true) he hm hr2.started.mdl h2 (s.inner c.e k) (s2.inner c.e k) (s.inner c.e (k + 1)) (s2.inner c.e (k + 1)) j
        rw [eq_neg_of_add_eq_zero_left (b k (by omega) j hj), eq_neg_of_add_eq_zero_left (b2 k (by omega) j hj), h2.headGap, sub_self] at this
        exact this.symm) k (by omega)
    refine (sum_congr rfl fun j hj => ?_).trans (key.trans (sum_congr rfl fun j hj => ?_))
    · dsimp only; rw [idx_at c.e he.nodup (mem_range.1 hj)]
    · dsimp only; rw [idx_at c.e he.nodup (mem_range.1 hj)]

/-- **C79, inclined reservoirs, vectorised, all wells.** Reciprocity of changed boundary pressures, rates, gradients, target rates and bottom-hole pressures, whatever the depths of the cells (partial: as long as no
well changes its constraint). -/
theorem C79_tilted_partial {m1 m2 : Mdl K} {f f1 f2 N : ℕ} {el el1 el2 : K} (hr : Ready c m) (hr1 : Ready c m1) (hr2 : Ready c m2) (hx : Exact c.lin)
    (h1 : Shape m m1) (h2 : Shape m m2)
    (hinit : c.e.comp = true → ∀ id, id ∈ c.e.ids → m1.initP id = m.initP id ∧ m2.initP id = m.initP id)
    (hP : RunAll c Steady f true N m { Sol.init m with nsteps := (Sol.init m).nsteps + N }) (hP1 : RunAll c Steady f1 true N m1 { Sol.init m1 with nsteps := (Sol.init m1).nsteps + N })
    (hP2 : RunAll c Steady f2 true N m2 { Sol.init m2 with nsteps := (Sol.init m2).nsteps + N })
    (hs : (run c f true N el m (Sol.init m)).2 = .ok ()) (hs1 : (run c f1 true N el1 m1 (Sol.init m1)).2 = .ok ()) (hs2 : (run c f2 true N el2 m2 (Sol.init m2)).2 = .ok ()) (k : ℕ) (h0 : 0 < k) (hk : k ≤ N) :
    ∃ p p1 p2 : ℕ → K, (∀ id, id ∈ c.e.ids → rowAt (run c f true N el m (Sol.init m)).1.2.press k none id = some (p id) ∧ rowAt (run c f1 true N el1 m1 (Sol.init m1)).1.2.press k none id = some (p1 id) ∧
      rowAt (run c f2 true N el2 m2 (Sol.init m2)).1.2.press k none id = some (p2 id)) ∧
      workAny c m m2 (fun id => p1 id - p id) = workAny c m m1 (fun id => p2 id - p id) := by
  have r := run_asRates hr f N el
  have r1 := run_asRates hr1 f1 N el1
  have r2 := run_asRates hr2 f2 N el2
  have key := reciprocal_tilted (f := f) (f1 := f1) (f2 := f2) (el := el) (el1 := el1) (el2 := el2) hr.asRates hr1.asRates hr2.asRates hx h1.asRates h2.asRates
    (asRates_given m) (asRates_given m1) (asRates_given m2) hinit (r.2.2.2 _ steady_blind hP) (r1.2.2.2 _ steady_blind hP1) (r2.2.2.2 _ steady_blind hP2)
    (by rw [r.2.1]; exact hs) (by rw [r1.2.1]; exact hs1) (by rw [r2.2.1]; exact hs2) k h0 hk
  rw [r.1, r1.1, r2.1] at key
  obtain ⟨p, p1, p2, a, b⟩ := key
  exact ⟨p, p1, p2, a, by rw [← work_asRates hr hr2 h2, ← work_asRates hr hr1 h1]; exact b⟩

/-! ### The hypotheses are met -/

/-- The slope with the well at rates 0 and -1. -/
def exTilt2 : Fin 2 → Mdl ℚ := ![exSteep 8 10 0 (-90), exSteep 8 10 (-1) (-90)]

/-- Superposition applies on the slope: twice the second minus the first is the slope with the well at rate -2. -/
example : ∃ (t : Fin 2 → Sol ℚ) (s : Sol ℚ), s.tstep = 2 ∧ Superposed univ ![-1, 2] (exC true 3 [4, 5, 7, 9]) t s := by
  have hi : ∀ q : ℚ, ((exC true 3 [4, 5, 7, 9]).e.ids.all fun id => decide ((exSteep 8 10 q (-90)).initP id = some 8)) = true →
    ∀ id, id ∈ (exC true 3 [4, 5, 7, 9]).e.ids → (exSteep 8 10 q (-90)).initP id = some 8 := fun q h => all_of h
  exact ⟨_, _, by decide +kernel, C71_tilted_partial (f := 10) (F := fun _ => 10) (M := exTilt2) (m := exSteep 8 10 (-2) (-90)) (by decide +kernel) (exMdl_ready (by decide +kernel))
    (fun i _ => by fin_cases i <;> exact exMdl_ready (by decide +kernel)) cramer_exact
    ⟨fun i _ => by fin_cases i <;> exact ⟨by decide +kernel, by decide +kernel⟩, by decide +kernel, by decide +kernel, by decide +kernel⟩ (.inl (by decide +kernel)) 2 0 (fun _ => 0)
    (fun _ id hid => ⟨8, fun _ => 8, hi _ (by decide +kernel) id hid, fun i _ => by fin_cases i <;> exact hi _ (by decide +kernel) id hid, by decide +kernel⟩)
    (runSteadyB_all (by decide +kernel)) (fun i _ => by fin_cases i <;> exact runSteadyB_all (by decide +kernel))
    (isOk_unit (by decide +kernel)) (fun i _ => by fin_cases i <;> exact isOk_unit (by decide +kernel))⟩

/-- Reciprocity applies on the slope to the boundary pressure on the left and the target rate of the well. -/
example (k : ℕ) (h0 : 0 < k) (hk : k ≤ 2) : ∃ p p1 p2 : ℕ → ℚ, (∀ id, id ∈ (exC true 3 [4, 5, 7, 9]).e.ids →
      rowAt (run (exC true 3 [4, 5, 7, 9]) 10 true 2 0 (exSteep 8 10 (-1) (-90)) (Sol.init (exSteep 8 10 (-1) (-90)))).1.2.press k none id = some (p id) ∧
      rowAt (run (exC true 3 [4, 5, 7, 9]) 10 true 2 0 (exSteep 8 12 (-1) (-90)) (Sol.init (exSteep 8 12 (-1) (-90)))).1.2.press k none id = some (p1 id) ∧
      rowAt (run (exC true 3 [4, 5, 7, 9]) 10 true 2 0 (exSteep 8 10 (-3) (-90)) (Sol.init (exSteep 8 10 (-3) (-90)))).1.2.press k none id = some (p2 id)) ∧
      workAny (exC true 3 [4, 5, 7, 9]) (exSteep 8 10 (-1) (-90)) (exSteep 8 10 (-3) (-90)) (fun id => p1 id - p id) =
        workAny (exC true 3 [4, 5, 7, 9]) (exSteep 8 10 (-1) (-90)) (exSteep 8 12 (-1) (-90)) (fun id => p2 id - p id) :=
  C79_tilted_partial (exMdl_ready (by decide +kernel)) (exMdl_ready (by decide +kernel)) (exMdl_ready (by decide +kernel)) cramer_exact ⟨by decide +kernel, by decide +kernel⟩
    ⟨by decide +kernel, by decide +kernel⟩ (fun _ => by decide +kernel) (runSteadyB_all (by decide +kernel)) (runSteadyB_all (by decide +kernel)) (runSteadyB_all (by decide +kernel))
    (isOk_unit (by decide +kernel)) (isOk_unit (by decide +kernel)) (isOk_unit (by decide +kernel)) k h0 hk

end RF.Fdm
