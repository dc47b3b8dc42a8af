import Verif.Fdm.PropsLinear
/-!
# C79: reciprocity

What a change of the rate of one well does to the pressure at another one is what the same change at the other one does to the pressure at the first.
-/
set_option linter.unusedSectionVars false
namespace RF.Fdm
open RF RF.Dims Finset

variable {K : Type} [Field K] [LinearOrder K] [IsStrictOrderedRing K]

/-! ### Specification -/

/-- How much more flows in over a boundary cell at unchanged pressure inside if the given value is raised by `d`, times the value `x` has in the cell behind. -/
def bWork (e : Env K) (x : ℕ → K) (d : K) (b : ℕ × String × K) : K :=
  match e.transC b.1 false with
  | .ok [(id, T)] => (if b.2.1 = "pressure" then 2 * T * d else d) * x id
  | _ => 0

/-- The same for a well: its rate is raised by `dq` or its bottom-hole pressure by `dp`. -/
def wWork (e : Env K) (x : ℕ → K) (dq dp : K) (w : ℕ × Well K) : K :=
  match w.2.con with
  | some .q => dq * x w.1
  | some .pwf => windex e w.2 * dp * x w.1
  | none => 0

/-- The changes that lead from model `m0` to model `m`, each as a change of inflow into its cell, times the values `x` of these cells. -/
def work (e : Env K) (m0 m : Mdl K) (x : ℕ → K) : K :=
  (m0.bdict.map fun b => bWork e x (bValue m b.1 - bValue m0 b.1) b).sum + (m0.wells.map fun w => wWork e x (wRate m w.1 - wRate m0 w.1) (wPwf m w.1 - wPwf m0 w.1) w).sum

/-! ### two sequences of states of a symmetric network -/

lemma Net.inflow_symm {n : ℕ} {T : ℕ → ℕ → K} (hT : ∀ i j, i < n → j < n → T i j = T j i) (D u v : ℕ → K) :
    ∑ i ∈ range n, v i * Net.inflow n T D u i = ∑ i ∈ range n, u i * Net.inflow n T D v i := by
  have key : ∀ u v : ℕ → K, ∑ i ∈ range n, v i * Net.inflow n T D u i =
      ∑ i ∈ range n, ∑ j ∈ range n, T i j * (v i * u j) - ∑ i ∈ range n, (∑ j ∈ range n, T i j + D i) * (u i * v i) := fun u v => by
    rw [← sum_sub_distrib]
    refine sum_congr rfl fun i _ => ?_
    unfold Net.inflow
    have : ∑ j ∈ range n, T i j * (u j - u i) = ∑ j ∈ range n, T i j * u j - (∑ j ∈ range n, T i j) * u i := by
      rw [sum_mul, ← sum_sub_distrib]; exact sum_congr rfl fun j _ => by ring
    rw [this, show ∑ j ∈ range n, T i j * (v i * u j) = v i * ∑ j ∈ range n, T i j * u j by rw [mul_sum]; exact sum_congr rfl fun j _ => by ring]
    ring
  rw [key u v, key v u, sum_comm]
  congr 1
  · refine sum_congr rfl fun i hi => sum_congr rfl fun j hj => ?_
    rw [hT j i (mem_range.1 hj) (mem_range.1 hi)]; ring
  · exact sum_congr rfl fun i _ => by ring

/-- Two sequences that start at zero and are driven by constant sources `s` and `r`. -/
lemma Net.reciprocal {n : ℕ} {T : ℕ → ℕ → K} (hT : ∀ i j, i < n → j < n → T i j = T j i) (D C s r : ℕ → K) (u v : ℕ → ℕ → K) (N : ℕ)
    (hu0 : ∀ i, i < n → C i * u 0 i = 0) (hv0 : ∀ i, i < n → C i * v 0 i = 0)
    (hu : ∀ k, k < N → ∀ i, i < n → Net.inflow n T D (u (k + 1)) i + C i * u k i + s i = 0)
    (hv : ∀ k, k < N → ∀ i, i < n → Net.inflow n T D (v (k + 1)) i + C i * v k i + r i = 0) :
    ∀ k, k < N → ∑ i ∈ range n, r i * u (k + 1) i = ∑ i ∈ range n, s i * v (k + 1) i := by
  -- the sum over all steps up to `M`
  have tot : ∀ M, M ≤ N → ∑ k ∈ range M, ∑ i ∈ range n, r i * u (k + 1) i = ∑ k ∈ range M, ∑ i ∈ range n, s i * v (k + 1) i := by
    intro M hM
    have e1 : ∀ k, k < M → ∑ i ∈ range n, r i * u (k + 1) i = - (∑ i ∈ range n, u (k + 1) i * Net.inflow n T D (v (M - k)) i) - ∑ i ∈ range n, C i * (u (k + 1) i * v (M - 1 - k) i) := fun k hk => by
      rw [← sum_neg_distrib, ← sum_sub_distrib]
      refine sum_congr rfl fun i hi => ?_
      have := hv (M - 1 - k) (by omega) i (mem_range.1 hi)
      rw [show M - 1 - k + 1 = M - k by omega] at this
      linear_combination (u (k + 1) i) * this
    have e2 : ∀ k, k < M → ∑ i ∈ range n, s i * v (M - k) i = - (∑ i ∈ range n, v (M - k) i * Net.inflow n T D (u (k + 1)) i) - ∑ i ∈ range n, C i * (u k i * v (M - k) i) := fun k hk => by
      rw [← sum_neg_distrib, ← sum_sub_distrib]
      refine sum_congr rfl fun i hi => ?_
      have := hu k (by omega) i (mem_range.1 hi)
      linear_combination (v (M - k) i) * this
    have e3 : ∑ k ∈ range M, ∑ i ∈ range n, s i * v (k + 1) i = ∑ k ∈ range M, ∑ i ∈ range n, s i * v (M - k) i := by
      rw [← sum_range_reflect]
      refine sum_congr rfl fun k hk => ?_
      rw [show M - 1 - k + 1 = M - k by have := mem_range.1 hk; omega]
    rw [e3, sum_congr rfl fun k hk => e1 k (mem_range.1 hk), sum_congr rfl fun k hk => e2 k (mem_range.1 hk), sum_sub_distrib, sum_sub_distrib]
    congr 1
    · exact sum_congr rfl fun k _ => by rw [Net.inflow_symm hT]
    · rcases M with _ | M
      · simp
      · -- both are sums over i + j = M + 1, apart from terms with a state at the start
        have g1 : ∑ k ∈ range (M + 1), ∑ i ∈ range n, C i * (u (k + 1) i * v (M + 1 - 1 - k) i) = ∑ k ∈ range M, ∑ i ∈ range n, C i * (u (k + 1) i * v (M - k) i) := by
          rw [sum_range_succ]
          have : ∑ i ∈ range n, C i * (u (M + 1) i * v (M + 1 - 1 - M) i) = 0 := sum_eq_zero fun i hi => by
            rw [show M + 1 - 1 - M = 0 by omega]
            linear_combination (u (M + 1) i) * hv0 i (mem_range.1 hi)
          rw [this, add_zero]; rfl
        have g2 : ∑ k ∈ range (M + 1), ∑ i ∈ range n, C i * (u k i * v (M + 1 - k) i) = ∑ k ∈ range M, ∑ i ∈ range n, C i * (u (k + 1) i * v (M - k) i) := by
          rw [sum_range_succ']
          have : ∑ i ∈ range n, C i * (u 0 i * v (M + 1 - 0) i) = 0 := sum_eq_zero fun i hi => by
            linear_combination (v (M + 1) i) * hu0 i (mem_range.1 hi)
          rw [this, add_zero]
          exact sum_congr rfl fun k _ => by rw [show M + 1 - (k + 1) = M - k by omega]
        rw [g1, g2]
  intro k hk
  have h1 := tot (k + 1) (by omega)
  have h2 := tot k (by omega)
  rw [sum_range_succ, sum_range_succ, h2] at h1
  exact add_left_cancel h1

/-! ### the balances of a run -/

/-- In all recorded steps the pressures satisfy the balances of the model as it was set up. -/
def Balanced (c : Ctx K) (vect : Bool) (m0 : Mdl K) (s : Sol K) : Prop :=
  ∀ k, k < s.tstep → ∀ j, j < c.e.n → residue c.e (c.e.trans vect) m0 (s.inner c.e k) (s.inner c.e (k + 1)) j = 0

/-- Pressures of cells are numbers from step 1 on. -/
def Numbers (c : Ctx K) (s : Sol K) : Prop := ∀ k, 0 < k → k ≤ s.tstep → ∀ j, j < c.e.n → rowAt s.press k none (c.e.at j) = some (s.inner c.e k j)

lemma solve_balanced {c : Ctx K} {m0 m m' : Mdl K} {s s' : Sol K} {vect : Bool} {f : ℕ} (hr : Ready c m0) (hx : Exact c.lin) (hg : vect = true → RatesGiven m0) (hf : vect = true → c.e.Flat)
    (hh : Hist c Steady m0 m s) (hP : SolveAll c Steady f vect m s) (hs : solve c f vect true m s = .ok (m', s')) (hb : Balanced c vect m0 s) (hn : Numbers c s) :
    Balanced c vect m0 s' ∧ Numbers c s' ∧ s'.tstep = s.tstep + 1 ∧ ∀ id, rowAt s'.press 0 none id = rowAt s.press 0 none id := by
  obtain ⟨m1, s1, a1, a2, a3, a4, a5, a6⟩ := solve_last hr.ctx.lower hr.ctx.wf hr.started.mdl hh hP hs
  have a1' := (a1.steady hr).1
  obtain ⟨hi, hq⟩ := hr.calm a1'
  obtain ⟨_, _, _, _, _, _, _, _, h1⟩ := attempted hr.ctx.lower hr.ctx.wf hi a5
  have es : s'.tstep = s.tstep + 1 := by rw [h1.tstep, a4]
  have old : ∀ k, k ≤ s.tstep → ∀ id, rowAt s'.press k none id = rowAt s.press k none id := fun k hk id => by
    rw [h1.press, rowAt_append_lt (by rw [hi.plen]; omega), a2]
  have inn : ∀ k, k ≤ s.tstep → s'.inner c.e k = s.inner c.e k := fun k hk => by
    funext j; unfold Sol.inner; rw [old k hk]
  refine ⟨fun k hk j hj => ?_, fun k h0 hk j hj => ?_, es, old 0 (Nat.zero_le _)⟩
  · by_cases hk' : k = s.tstep
    · have := step_balance hr.ctx hx hi hq hf a6.2 a5 j hj
      rw [excess_residue hr hg a1, a4, es] at this
      have e0 : s1.inner c.e s.tstep = s'.inner c.e s.tstep := by rw [inn _ le_rfl]; unfold Sol.inner; rw [a2]
      rw [e0] at this
      rw [hk']; exact this
    · rw [inn k (by omega), inn (k + 1) (by omega)]
      exact hb k (by omega) j hj
  · by_cases hk' : k = s'.tstep
    · rw [hk']; exact row_inner hr hi a5 hj
    · rw [inn k (by omega), old k (by omega)]
      exact hn k h0 (by omega) j hj

lemma runLoop_balanced {c : Ctx K} {m0 : Mdl K} {vect : Bool} {f : ℕ} (hr : Ready c m0) (hx : Exact c.lin) (hg : vect = true → RatesGiven m0) (hf : vect = true → c.e.Flat)
    (N : ℕ) {m : Mdl K} {s : Sol K} (hh : Hist c Steady m0 m s) (hP : RunAll c Steady f vect N m s) (hs : (runLoop c f vect N m s).2 = .ok ()) (hb : Balanced c vect m0 s) (hn : Numbers c s) :
    Balanced c vect m0 (runLoop c f vect N m s).1.2 ∧ Numbers c (runLoop c f vect N m s).1.2 ∧ (runLoop c f vect N m s).1.2.tstep = s.tstep + N ∧
      ∀ id, rowAt (runLoop c f vect N m s).1.2.press 0 none id = rowAt s.press 0 none id := by
  induction N generalizing m s with
  | zero => exact ⟨hb, hn, rfl, fun _ => rfl⟩
  | succ N ih =>
    rcases h1 : solve c f vect true m s with x | ⟨m1, s1⟩
    · unfold runLoop at hs; rw [h1] at hs; cases hs
    have st : runLoop c f vect (N + 1) m s = runLoop c f vect N m1 s1 := by conv_lhs => unfold runLoop; rw [h1]
    rw [st] at hs ⊢
    obtain ⟨k1, k2, k3, k4⟩ := solve_balanced hr hx hg hf hh hP.1 h1 hb hn
    obtain ⟨l1, l2, l3, l4⟩ := ih (hh.solve hr.ctx.lower hr.ctx.wf hr.started.mdl hP.1 h1) (hP.2 _ _ h1) hs k1 k2
    exact ⟨l1, l2, by rw [l3, k3]; omega, fun id => by rw [l4, k4]⟩

lemma run_balanced {c : Ctx K} {m : Mdl K} {vect : Bool} {f N : ℕ} {el : K} (hr : Ready c m) (hx : Exact c.lin) (hg : vect = true → RatesGiven m) (hf : vect = true → c.e.Flat)
    (hP : RunAll c Steady f vect N m { Sol.init m with nsteps := (Sol.init m).nsteps + N }) (hs : (run c f vect N el m (Sol.init m)).2 = .ok ()) :
    Balanced c vect m (run c f vect N el m (Sol.init m)).1.2 ∧ Numbers c (run c f vect N el m (Sol.init m)).1.2 ∧ (run c f vect N el m (Sol.init m)).1.2.tstep = N ∧
      ∀ id, rowAt (run c f vect N el m (Sol.init m)).1.2.press 0 none id = m.initP id := by
  obtain ⟨e1, e2, e3⟩ := run_sol hs
  obtain ⟨k1, k2, k3, k4⟩ := runLoop_balanced hr hx hg hf N (.clock _ (Sol.init m).ctime .start) hP e1 (fun k hk => absurd hk (Nat.not_lt_zero _)) (fun k h0 hk => absurd hk (by
    have : (Sol.init m).tstep = 0 := rfl
    show ¬ k ≤ 0
    omega))
  refine ⟨fun k hk j hj => ?_, fun k h0 hk j hj => ?_, ?_, fun id => ?_⟩
  · have := k1 k (by rw [← e3]; exact hk) j hj
    unfold Sol.inner at this ⊢
    rw [e2]; exact this
  · have := k2 k h0 (by rw [← e3]; exact hk) j hj
    unfold Sol.inner at this ⊢
    rw [e2]; exact this
  · rw [e3, k3]; show 0 + N = N; omega
  · rw [e2, k4]; rfl

/-! ### the difference of two balances -/

lemma sum_sub_forall2 {α β : Type} {R : α → β → Prop} {f g : α → K} {f' : β → K} (h : ∀ a b, R a b → f' b - f a = g a) {l : List α} {l' : List β} (hl : List.Forall₂ R l l') :
    (l'.map f').sum - (l.map f).sum = (l.map g).sum := by
  induction hl with
  | nil => simp
  | cons h1 _ ih => simp only [List.map_cons, List.sum_cons]; linear_combination ih + h _ _ h1

/-- What a change `d` of the value of a condition adds to the inflow into position `i`. -/
def bPush (e : Env K) (d : K) (i : ℕ) (b : ℕ × String × K) : K :=
  match e.transC b.1 false with
  | .ok [(id, T)] => if id = e.at i then (if b.2.1 = "pressure" then 2 * T * d else d) else 0
  | _ => 0

/-- The same for a well. -/
def wPush (e : Env K) (dq dp : K) (i : ℕ) (w : ℕ × Well K) : K :=
  if w.1 = e.at i then
    match w.2.con with
    | some .q => dq
    | some .pwf => windex e w.2 * dp
    | none => 0
  else 0

/-- All changes that lead from `m` to `m'`. -/
def push (e : Env K) (m m' : Mdl K) (i : ℕ) : K :=
  (m.bdict.map fun b => bPush e (bValue m' b.1 - bValue m b.1) i b).sum + (m.wells.map fun w => wPush e (wRate m' w.1 - wRate m w.1) (wPwf m' w.1 - wPwf m w.1) i w).sum

lemma sum_mul_list {α : Type} {n : ℕ} (x : ℕ → K) {l : List α} (f : ℕ → α → K) (g : α → K) (h : ∀ b, b ∈ l → ∑ i ∈ range n, f i b * x i = g b) :
    ∑ i ∈ range n, (l.map (f i)).sum * x i = (l.map g).sum := by
  induction l with
  | nil => simp
  | cons b l ih =>
    simp only [List.map_cons, List.sum_cons, add_mul, sum_add_distrib]
    rw [h b List.mem_cons_self, ih fun b' hb' => h b' (List.mem_cons_of_mem _ hb')]

lemma sum_at_id {e : Env K} (he : e.WF) (x : ℕ → K) {id : ℕ} (hid : id ∈ e.ids) (v : K) : ∑ i ∈ range e.n, (if id = e.at i then v else 0) * x (e.at i) = v * x id := by
  rw [sum_eq_single (e.ids.idxOf id)]
  · rw [at_idx e hid, if_pos rfl]
  · intro i hi hne
    rw [if_neg, zero_mul]
    intro h
    exact hne (by rw [h, idx_at e he.nodup (mem_range.1 hi)])
  · intro h; exact absurd (mem_range.2 (idx_lt e hid)) h

lemma push_work {e : Env K} (he : e.WF) {m m' : Mdl K} (hm : MdlOK e m) (x : ℕ → K) : ∑ i ∈ range e.n, push e m m' i * x (e.at i) = work e m m' x := by
  have h1 : ∀ b, b ∈ m.bdict → ∑ i ∈ range e.n, bPush e (bValue m' b.1 - bValue m b.1) i b * x (e.at i) = bWork e x (bValue m' b.1 - bValue m b.1) b := fun b hb => by
    unfold bPush bWork
    rcases he.face b.1 (hm.bmem b hb) with hF | ⟨id, T, hid, -, hF⟩
    · simp [hF]
    · simp only [Env.Face] at hF
      simp only [hF]
      exact sum_at_id he x hid _
  have h2 : ∀ w, w ∈ m.wells → ∑ i ∈ range e.n, wPush e (wRate m' w.1 - wRate m w.1) (wPwf m' w.1 - wPwf m w.1) i w * x (e.at i) =
      wWork e x (wRate m' w.1 - wRate m w.1) (wPwf m' w.1 - wPwf m w.1) w := fun w hw => by
    unfold wPush wWork
    rw [sum_at_id he x (hm.wmem w hw)]
    rcases w.2.con with _ | _ | _ <;> simp
  have k1 := sum_mul_list (fun i => x (e.at i)) (fun i (b : ℕ × String × K) => bPush e (bValue m' b.1 - bValue m b.1) i b) (fun b => bWork e x (bValue m' b.1 - bValue m b.1) b) h1
  have k2 := sum_mul_list (fun i => x (e.at i)) (fun i (w : ℕ × Well K) => wPush e (wRate m' w.1 - wRate m w.1) (wPwf m' w.1 - wPwf m w.1) i w)
    (fun w => wWork e x (wRate m' w.1 - wRate m w.1) (wPwf m' w.1 - wPwf m w.1) w) h2
  unfold work
  rw [← k1, ← k2, ← sum_add_distrib]
  exact sum_congr rfl fun i _ => by unfold push; ring

lemma residue_diff {e : Env K} {T : ℕ → ℕ → K} {m m' : Mdl K} (he : e.WF) (hm : MdlOK e m) (hm' : MdlOK e m') (h : Shape m m') (old old' x x' : ℕ → K) (i : ℕ) :
    residue e T m' old' x' i - residue e T m old x i = Net.inflow e.n T (leak e m) (fun j => x' j - x j) i + e.rhs (e.at i) * (old' i - old i) + push e m m' i := by
  have h1 : (m'.bdict.map (bIn e (x' i) i)).sum - (m.bdict.map (bIn e (x i) i)).sum = (m.bdict.map fun b => bPush e (bValue m' b.1 - bValue m b.1) i b + bLeak e i b * (x i - x' i)).sum := by
    refine sum_sub_forall2 (fun b b' hb => ?_) (forall2_and h.bd)
    have v' : bValue m' b.1 = b'.2.2 := by unfold bValue; rw [← hb.1.1, dictGet_of_mem hm'.bkeys hb.2.2]; rfl
    have v : bValue m b.1 = b.2.2 := by unfold bValue; rw [dictGet_of_mem hm.bkeys hb.2.1]; rfl
    rw [v, v']
    unfold bIn boundaryIn bPush bLeak faceLeak
    rw [hb.1.1, hb.1.2]
    rcases he.face b.1 (hm.bmem b hb.2.1) with hF | ⟨id, T, hid, -, hF⟩
    · simp [hF]
    · simp only [Env.Face] at hF
      simp only [hF]
      split_ifs <;> ring
  have h2 : (m'.wells.map (wIn e (x' i) i)).sum - (m.wells.map (wIn e (x i) i)).sum =
      (m.wells.map fun w => wPush e (wRate m' w.1 - wRate m w.1) (wPwf m' w.1 - wPwf m w.1) i w + wLeak e i w * (x i - x' i)).sum := by
    refine sum_sub_forall2 (fun w w' hw => ?_) (forall2_and h.well)
    have v' : wRate m' w.1 = w'.2.qsp.getD 0 ∧ wPwf m' w.1 = w'.2.pwfsp.getD 0 := by
      unfold wRate wPwf; rw [← hw.1.1, dictGet_of_mem hm'.wkeys hw.2.2]; exact ⟨rfl, rfl⟩
    have v : wRate m w.1 = w.2.qsp.getD 0 ∧ wPwf m w.1 = w.2.pwfsp.getD 0 := by
      unfold wRate wPwf; rw [dictGet_of_mem hm.wkeys hw.2.1]; exact ⟨rfl, rfl⟩
    rw [v.1, v.2, v'.1, v'.2]
    unfold wIn wPush wLeak windex
    rw [hw.1.1, hw.1.2.1, hw.1.2.2]
    by_cases hid : w.1 = e.at i
    · rcases hc : w.2.con with _ | _ | _
      · simp [hid]
      · simp [hid]
      · simp [hid]; ring
    · simp [hid]
  rw [List.sum_map_add, List.sum_map_mul_right] at h1 h2
  unfold residue Net.inflow push leak
  have h3 : ∑ j ∈ range e.n, T i j * (x' j - x' i - e.grav * (e.z (e.at j) - e.z (e.at i))) - ∑ j ∈ range e.n, T i j * (x j - x i - e.grav * (e.z (e.at j) - e.z (e.at i))) =
      ∑ j ∈ range e.n, T i j * (x' j - x j - (x' i - x i)) := by
    rw [← sum_sub_distrib]; exact sum_congr rfl fun j _ => by ring
  linear_combination h1 + h2 + h3

/-! ### C79 -/

/-- **C79** (partial: as long as no well changes its constraint). Three models of the same reservoir with the same kinds of conditions and wells: `m`, and two models `m1`, `m2` that
may differ from it in the values given for boundaries and wells. The initial pressures are the same (or the fluid is incompressible). At every step, the changes from `m` to `m2`
weighted with the changes of pressure the changes from `m` to `m1` have caused, are the changes from `m` to `m1` weighted with the changes of pressure the changes to `m2` have caused. -/
theorem C79_run_partial {c : Ctx K} {m m1 m2 : Mdl K} {vect : Bool} {f f1 f2 N : ℕ} {el el1 el2 : K} (hr : Ready c m) (hr1 : Ready c m1) (hr2 : Ready c m2) (hx : Exact c.lin)
    (h1 : Shape m m1) (h2 : Shape m m2) (hg : vect = true → RatesGiven m ∧ RatesGiven m1 ∧ RatesGiven m2) (hf : vect = true → c.e.Flat)
    (hinit : c.e.comp = true → ∀ id, id ∈ c.e.ids → m1.initP id = m.initP id ∧ m2.initP id = m.initP id)
    (hP : RunAll c Steady f vect N m { Sol.init m with nsteps := (Sol.init m).nsteps + N }) (hP1 : RunAll c Steady f1 vect N m1 { Sol.init m1 with nsteps := (Sol.init m1).nsteps + N })
    (hP2 : RunAll c Steady f2 vect N m2 { Sol.init m2 with nsteps := (Sol.init m2).nsteps + N })
    (hs : (run c f vect N el m (Sol.init m)).2 = .ok ()) (hs1 : (run c f1 vect N el1 m1 (Sol.init m1)).2 = .ok ()) (hs2 : (run c f2 vect N el2 m2 (Sol.init m2)).2 = .ok ()) (k : ℕ) (h0 : 0 < k) (hk : k ≤ N) :
    ∃ p p1 p2 : ℕ → K, (∀ id, id ∈ c.e.ids → rowAt (run c f vect N el m (Sol.init m)).1.2.press k none id = some (p id) ∧ rowAt (run c f1 vect N el1 m1 (Sol.init m1)).1.2.press k none id = some (p1 id) ∧
      rowAt (run c f2 vect N el2 m2 (Sol.init m2)).1.2.press k none id = some (p2 id)) ∧
      work c.e m m2 (fun id => p1 id - p id) = work c.e m m1 (fun id => p2 id - p id) := by
  obtain ⟨b, n, t, i⟩ := run_balanced hr hx (fun h => (hg h).1) hf hP hs
  obtain ⟨b1, n1, t1, i1⟩ := run_balanced hr1 hx (fun h => (hg h).2.1) hf hP1 hs1
  obtain ⟨b2, n2, t2, i2⟩ := run_balanced hr2 hx (fun h => (hg h).2.2) hf hP2 hs2
  generalize (run c f vect N el m (Sol.init m)).1.2 = s at *
  generalize (run c f1 vect N el1 m1 (Sol.init m1)).1.2 = s1 at *
  generalize (run c f2 vect N el2 m2 (Sol.init m2)).1.2 = s2 at *
  have he := hr.ctx.wf
  have hm := hr.started.mdl
  have hT := hr.ctx.grid.network vect
  refine ⟨fun id => s.inner c.e k (c.e.ids.idxOf id), fun id => s1.inner c.e k (c.e.ids.idxOf id), fun id => s2.inner c.e k (c.e.ids.idxOf id), fun id hid => ?_, ?_⟩
  · have hj := idx_lt c.e hid
    have a := n k h0 (by omega) _ hj
    have a1 := n1 k h0 (by omega) _ hj
    have a2 := n2 k h0 (by omega) _ hj
    rw [at_idx c.e hid] at a a1 a2
    exact ⟨a, a1, a2⟩
  · rw [← push_work he hm, ← push_work he hm]
    obtain ⟨k, rfl⟩ : ∃ k', k = k' + 1 := ⟨k - 1, by omega⟩
    have start : ∀ (s' : Sol K) (m' : Mdl K), (∀ id, rowAt s'.press 0 none id = m'.initP id) → (c.e.comp = true → ∀ id, id ∈ c.e.ids → m'.initP id = m.initP id) →
        ∀ j, j < c.e.n → c.e.rhs (c.e.at j) * (s'.inner c.e 0 j - s.inner c.e 0 j) = 0 := fun s' m' hi' hin j hj => by
      by_cases hc : c.e.comp = true
      · unfold Sol.inner
        rw [hi', i, hin hc _ (at_mem c.e hj), sub_self, mul_zero]
      · rw [he.rhsI (by simpa using hc), zero_mul]
    have key := Net.reciprocal (fun i j hi hj => hT.symm i j hi hj) (leak c.e m) (fun j => c.e.rhs (c.e.at j)) (push c.e m m1) (push c.e m m2) (fun k j => s1.inner c.e k j - s.inner c.e k j)
      (fun k j => s2.inner c.e k j - s.inner c.e k j) N (start s1 m1 i1 fun h id hid => (hinit h id hid).1) (start s2 m2 i2 fun h id hid => (hinit h id hid).2)
      (fun k hk j hj => by
        have := residue_diff (T := c.e.trans vect) he hm hr1.started.mdl h1 (s.inner c.e k) (s1.inner c.e k) (s.inner c.e (k + 1)) (s1.inner c.e (k + 1)) j
        rw [b k (by omega) j hj, b1 k (by omega) j hj, sub_self] at this
        exact this.symm)
      (fun k hk j hj => by
        have := residue_diff (T := c.e.trans vect) he hm hr2.started.mdl h2 (s.inner c.e k) (s2.inner c.e k) (s.inner c.e (k + 1)) (s2.inner c.e (k + 1)) j
        rw [b k (by omega) j hj, b2 k (by omega) j hj, sub_self] at this
        exact this.symm) k (by omega)
    refine (sum_congr rfl fun j hj => ?_).trans (key.trans (sum_congr rfl fun j hj => ?_))
    · dsimp only; rw [idx_at c.e he.nodup (mem_range.1 hj)]
    · dsimp only; rw [idx_at c.e he.nodup (mem_range.1 hj)]

/-! ### two wells -/

lemma list_sum_single {α : Type} {l : List (ℕ × α)} (hk : (l.map (·.1)).Nodup) (f : ℕ × α → K) {x : ℕ × α} (hx : x ∈ l) (hz : ∀ y, y ∈ l → y.1 ≠ x.1 → f y = 0) : (l.map f).sum = f x := by
  induction l with
  | nil => simp at hx
  | cons a l ih =>
    rw [List.map_cons, List.nodup_cons] at hk
    rw [List.map_cons, List.sum_cons]
    rcases List.mem_cons.1 hx with rfl | hx'
    · rw [List.sum_eq_zero, add_zero]
      intro v hv
      obtain ⟨y, hy, rfl⟩ := List.mem_map.1 hv
      exact hz y (List.mem_cons_of_mem _ hy) fun h => hk.1 (List.mem_map.2 ⟨y, hy, h⟩)
    · rw [ih hk.2 hx' fun y hy => hz y (List.mem_cons_of_mem _ hy), hz a List.mem_cons_self fun h => hk.1 (List.mem_map.2 ⟨x, hx', h.symm⟩), zero_add]

/-- `m'` is `m` with another rate for the well in cell `a`, which is controlled by rate. -/
structure RateChanged (m m' : Mdl K) (a : ℕ) : Prop where
  shape : Shape m m'
  bval : ∀ b, b ∈ m.bdict → bValue m' b.1 = bValue m b.1
  pwf : ∀ w, w ∈ m.wells → wPwf m' w.1 = wPwf m w.1
  rate : ∀ w, w ∈ m.wells → w.1 ≠ a → wRate m' w.1 = wRate m w.1
  con : ∃ w, w ∈ m.wells ∧ w.1 = a ∧ w.2.con = some .q

lemma RateChanged.work {e : Env K} {m m' : Mdl K} {a : ℕ} (hm : MdlOK e m) (h : RateChanged m m' a) (x : ℕ → K) : work e m m' x = (wRate m' a - wRate m a) * x a := by
  obtain ⟨w, hw, rfl, hc⟩ := h.con
  unfold RF.Fdm.work
  rw [List.sum_eq_zero, zero_add, list_sum_single hm.wkeys _ hw]
  · unfold wWork; rw [hc]
  · intro y hy hne
    unfold wWork
    rw [h.rate y hy hne, h.pwf y hy]
    rcases y.2.con with _ | _ | _ <;> simp
  · intro v hv
    obtain ⟨b, hb, rfl⟩ := List.mem_map.1 hv
    unfold bWork
    rw [h.bval b hb]
    split <;> simp

/-! ### gradient conditions -/

lemma same_value_asRates {c : Ctx K} {m m' : Mdl K} (hr : Ready c m) (hr' : Ready c m') (hs : Shape m m') {b : ℕ × String × K} (hb : b ∈ m.bdict) (h : bValue m' b.1 = bValue m b.1) :
    bValue m'.asRates b.1 = bValue m.asRates b.1 := by
  obtain ⟨y, hy, f1, f2⟩ := (forall2_mem hs.bd).2 b hb
  have e1 := bValue_asRates hr' hy
  rw [f1, f2] at e1
  rw [e1, bValue_asRates hr hb, h]

lemma RateChanged.asRates {c : Ctx K} {m m' : Mdl K} {a : ℕ} (hr : Ready c m) (hr' : Ready c m') (h : RateChanged m m' a) : RateChanged m.asRates m'.asRates a where
  shape := h.shape.asRates
  bval := fun b hb => by
    obtain ⟨y, hy, rfl⟩ := List.mem_map.1 (show b ∈ m.bdict.map (plain m.initR) from hb)
    rw [plain_key]; exact same_value_asRates hr hr' h.shape hy (h.bval y hy)
  pwf := h.pwf
  rate := h.rate
  con := h.con

/-- `C79_wells_partial` for models without gradient conditions, or with the symbolic assembler. -/
lemma wells_reciprocal {c : Ctx K} {m m1 m2 : Mdl K} {a b : ℕ} {vect : Bool} {f f1 f2 N : ℕ} {el el1 el2 : K} (hr : Ready c m) (hr1 : Ready c m1) (hr2 : Ready c m2) (hx : Exact c.lin)
    (h1 : RateChanged m m1 a) (h2 : RateChanged m m2 b) (hg : vect = true → RatesGiven m ∧ RatesGiven m1 ∧ RatesGiven m2) (hf : vect = true → c.e.Flat)
    (hinit : c.e.comp = true → ∀ id, id ∈ c.e.ids → m1.initP id = m.initP id ∧ m2.initP id = m.initP id)
    (hP : RunAll c Steady f vect N m { Sol.init m with nsteps := (Sol.init m).nsteps + N }) (hP1 : RunAll c Steady f1 vect N m1 { Sol.init m1 with nsteps := (Sol.init m1).nsteps + N })
    (hP2 : RunAll c Steady f2 vect N m2 { Sol.init m2 with nsteps := (Sol.init m2).nsteps + N })
    (hs : (run c f vect N el m (Sol.init m)).2 = .ok ()) (hs1 : (run c f1 vect N el1 m1 (Sol.init m1)).2 = .ok ()) (hs2 : (run c f2 vect N el2 m2 (Sol.init m2)).2 = .ok ()) (k : ℕ) (h0 : 0 < k) (hk : k ≤ N) :
    ∃ pa pb Δ Γ : K, rowAt (run c f vect N el m (Sol.init m)).1.2.press k none a = some pa ∧ rowAt (run c f vect N el m (Sol.init m)).1.2.press k none b = some pb ∧
      rowAt (run c f1 vect N el1 m1 (Sol.init m1)).1.2.press k none b = some (pb + Δ) ∧ rowAt (run c f2 vect N el2 m2 (Sol.init m2)).1.2.press k none a = some (pa + Γ) ∧
      (wRate m2 b - wRate m b) * Δ = (wRate m1 a - wRate m a) * Γ := by
  obtain ⟨p, p1, p2, e1, e2⟩ := C79_run_partial hr hr1 hr2 hx h1.shape h2.shape hg hf hinit hP hP1 hP2 hs hs1 hs2 k h0 hk
  rw [h1.work hr.started.mdl, h2.work hr.started.mdl] at e2
  obtain ⟨w, hw, rfl, -⟩ := h1.con
  obtain ⟨w', hw', rfl, -⟩ := h2.con
  have ha := e1 w.1 (hr.started.mdl.wmem _ hw)
  have hb := e1 w'.1 (hr.started.mdl.wmem _ hw')
  exact ⟨p w.1, p w'.1, p1 w'.1 - p w'.1, p2 w.1 - p w.1, ha.1, hb.1, by rw [hb.2.1]; congr 1; ring, by rw [ha.2.2]; congr 1; ring, e2⟩

/-- **C79** for two wells (partial: as long as no well changes its constraint): changing the rate of well `a` by `δ` changes the pressure in the cell of well `b` by `Δ`; changing
instead the rate of well `b` by `ε` changes the pressure in the cell of well `a` by `Γ`; then `ε Δ = δ Γ`, at every step. For equal changes, the effects are equal. -/
theorem C79_wells_partial {c : Ctx K} {m m1 m2 : Mdl K} {a b : ℕ} {vect : Bool} {f f1 f2 N : ℕ} {el el1 el2 : K} (hr : Ready c m) (hr1 : Ready c m1) (hr2 : Ready c m2) (hx : Exact c.lin)
    (h1 : RateChanged m m1 a) (h2 : RateChanged m m2 b) (hf : vect = true → c.e.Flat)
    (hinit : c.e.comp = true → ∀ id, id ∈ c.e.ids → m1.initP id = m.initP id ∧ m2.initP id = m.initP id)
    (hP : RunAll c Steady f vect N m { Sol.init m with nsteps := (Sol.init m).nsteps + N }) (hP1 : RunAll c Steady f1 vect N m1 { Sol.init m1 with nsteps := (Sol.init m1).nsteps + N })
    (hP2 : RunAll c Steady f2 vect N m2 { Sol.init m2 with nsteps := (Sol.init m2).nsteps + N })
    (hs : (run c f vect N el m (Sol.init m)).2 = .ok ()) (hs1 : (run c f1 vect N el1 m1 (Sol.init m1)).2 = .ok ()) (hs2 : (run c f2 vect N el2 m2 (Sol.init m2)).2 = .ok ()) (k : ℕ) (h0 : 0 < k) (hk : k ≤ N) :
    ∃ pa pb Δ Γ : K, rowAt (run c f vect N el m (Sol.init m)).1.2.press k none a = some pa ∧ rowAt (run c f vect N el m (Sol.init m)).1.2.press k none b = some pb ∧
      rowAt (run c f1 vect N el1 m1 (Sol.init m1)).1.2.press k none b = some (pb + Δ) ∧ rowAt (run c f2 vect N el2 m2 (Sol.init m2)).1.2.press k none a = some (pa + Γ) ∧
      (wRate m2 b - wRate m b) * Δ = (wRate m1 a - wRate m a) * Γ := by
  cases vect
  · exact wells_reciprocal hr hr1 hr2 hx h1 h2 (fun h => by cases h) hf hinit hP hP1 hP2 hs hs1 hs2 k h0 hk
  · have r := run_asRates hr f N el
    have r1 := run_asRates hr1 f1 N el1
    have r2 := run_asRates hr2 f2 N el2
    have key := wells_reciprocal (vect := true) (f := f) (f1 := f1) (f2 := f2) (el := el) (el1 := el1) (el2 := el2) hr.asRates hr1.asRates hr2.asRates hx (h1.asRates hr hr1) (h2.asRates hr hr2)
      (fun _ => ⟨asRates_given m, asRates_given m1, asRates_given m2⟩) hf hinit (r.2.2.2 _ steady_blind hP) (r1.2.2.2 _ steady_blind hP1) (r2.2.2.2 _ steady_blind hP2)
      (by rw [r.2.1]; exact hs) (by rw [r1.2.1]; exact hs1) (by rw [r2.2.1]; exact hs2) k h0 hk
    rw [r.1, r1.1, r2.1] at key
    exact key

/-! ### gradient conditions in any set of changes -/

/-- The inflow a change `d` of the value of a condition stands for, per unit of `d`: 1 for rates (and for pressures, whose inflow is counted in `bWork`); the transmissibility times the
distance of the centres (or what `set_boundaries` makes of it) for gradients. -/
def bFactor (c : Ctx K) (b : ℕ × String × K) : K := if b.2.1 = "pressure" then 1 else rateFactor c.lower c.e b.1 b.2.1

/-- `work` where conditions may be gradients: a change of a gradient counts with the inflow it stands for. -/
def workAny (c : Ctx K) (m0 m : Mdl K) (x : ℕ → K) : K :=
  (m0.bdict.map fun b => bWork c.e x (bFactor c b * (bValue m b.1 - bValue m0 b.1)) b).sum +
    (m0.wells.map fun w => wWork c.e x (wRate m w.1 - wRate m0 w.1) (wPwf m w.1 - wPwf m0 w.1) w).sum

lemma work_asRates {c : Ctx K} {m m' : Mdl K} (hr : Ready c m) (hr' : Ready c m') (h : Shape m m') (x : ℕ → K) : work c.e m.asRates m'.asRates x = workAny c m m' x := by
  unfold work workAny
  congr 1
  rw [show m.asRates.bdict = m.bdict.map (plain m.initR) from rfl, List.map_map]
  congr 1
  refine List.map_congr_left fun b hb => ?_
  obtain ⟨y, hy, f1, f2⟩ := (forall2_mem h.bd).2 b hb
  have e1 := bValue_asRates hr' hy
  rw [f1, f2] at e1
  simp only [Function.comp, plain_key]
  rw [e1, bValue_asRates hr hb, ← mul_sub]
  unfold bWork bFactor
  simp only [plain_key, plain_pressure]

/-- **C79** for all sets of changes where conditions may be gradients, with the vectorised assembler (partial: as long as no well changes its constraint). -/
theorem C79_gradients_partial {c : Ctx K} {m m1 m2 : Mdl K} {f f1 f2 N : ℕ} {el el1 el2 : K} (hr : Ready c m) (hr1 : Ready c m1) (hr2 : Ready c m2) (hx : Exact c.lin)
    (h1 : Shape m m1) (h2 : Shape m m2) (hf : c.e.Flat)
    (hinit : c.e.comp = true → ∀ id, id ∈ c.e.ids → m1.initP id = m.initP id ∧ m2.initP id = m.initP id)
    (hP : RunAll c Steady f true N m { Sol.init m with nsteps := (Sol.init m).nsteps + N }) (hP1 : RunAll c Steady f1 true N m1 { Sol.init m1 with nsteps := (Sol.init m1).nsteps + N })
    (hP2 : RunAll c Steady f2 true N m2 { Sol.init m2 with nsteps := (Sol.init m2).nsteps + N })
    (hs : (run c f true N el m (Sol.init m)).2 = .ok ()) (hs1 : (run c f1 true N el1 m1 (Sol.init m1)).2 = .ok ()) (hs2 : (run c f2 true N el2 m2 (Sol.init m2)).2 = .ok ()) (k : ℕ) (h0 : 0 < k) (hk : k ≤ N) :
    ∃ p p1 p2 : ℕ → K, (∀ id, id ∈ c.e.ids → rowAt (run c f true N el m (Sol.init m)).1.2.press k none id = some (p id) ∧ rowAt (run c f1 true N el1 m1 (Sol.init m1)).1.2.press k none id = some (p1 id) ∧
      rowAt (run c f2 true N el2 m2 (Sol.init m2)).1.2.press k none id = some (p2 id)) ∧
      workAny c m m2 (fun id => p1 id - p id) = workAny c m m1 (fun id => p2 id - p id) := by
  have r := run_asRates hr f N el
  have r1 := run_asRates hr1 f1 N el1
  have r2 := run_asRates hr2 f2 N el2
  have key := C79_run_partial (vect := true) (f := f) (f1 := f1) (f2 := f2) (el := el) (el1 := el1) (el2 := el2) hr.asRates hr1.asRates hr2.asRates hx h1.asRates h2.asRates
    (fun _ => ⟨asRates_given m, asRates_given m1, asRates_given m2⟩) (fun _ => hf) hinit (r.2.2.2 _ steady_blind hP) (r1.2.2.2 _ steady_blind hP1) (r2.2.2.2 _ steady_blind hP2)
    (by rw [r.2.1]; exact hs) (by rw [r1.2.1]; exact hs1) (by rw [r2.2.1]; exact hs2) k h0 hk
  rw [r.1, r1.1, r2.1] at key
  obtain ⟨p, p1, p2, a, b⟩ := key
  exact ⟨p, p1, p2, a, by rw [← work_asRates hr hr2 h2, ← work_asRates hr hr1 h1]; exact b⟩

/-! ### a well and a boundary -/

/-- `m'` is `m` with another pressure on boundary cell `b`, next to cell `id`. -/
structure PressureChanged (m m' : Mdl K) (b : ℕ) : Prop where
  shape : Shape m m'
  bval : ∀ b', b' ∈ m.bdict → b'.1 ≠ b → bValue m' b'.1 = bValue m b'.1
  pwf : ∀ w, w ∈ m.wells → wPwf m' w.1 = wPwf m w.1
  rate : ∀ w, w ∈ m.wells → wRate m' w.1 = wRate m w.1
  kind : ∃ v, (b, "pressure", v) ∈ m.bdict

lemma PressureChanged.work {e : Env K} {m m' : Mdl K} {b id : ℕ} {T : K} (hm : MdlOK e m) (h : PressureChanged m m' b) (hF : e.Face b id T) (x : ℕ → K) :
    work e m m' x = 2 * T * (bValue m' b - bValue m b) * x id := by
  obtain ⟨v, hv⟩ := h.kind
  unfold RF.Fdm.work
  rw [list_sum_single hm.bkeys _ hv, List.sum_eq_zero, add_zero]
  · unfold bWork
    simp only [Env.Face] at hF
    simp [hF]
  · intro v hv
    obtain ⟨y, hy, rfl⟩ := List.mem_map.1 hv
    unfold wWork
    rw [h.rate y hy, h.pwf y hy]
    rcases y.2.con with _ | _ | _ <;> simp
  · intro y hy hne
    unfold bWork
    rw [h.bval y hy hne]
    split <;> simp

/-- The rates recorded for boundary cells under pressure conditions follow from the recorded pressures. -/
def Fluxes (c : Ctx K) (m0 : Mdl K) (s : Sol K) : Prop := ∀ k, 0 < k → k ≤ s.tstep → ∀ b v id T, (b, "pressure", v) ∈ m0.bdict → c.e.Face b id T →
  rowAt s.rates k 0 b = 2 * T * (v - (rowAt s.press k none id).getD 0 - c.e.grav * (c.e.z b - c.e.z id))

lemma solve_fluxes {c : Ctx K} {m0 m m' : Mdl K} {s s' : Sol K} {vect : Bool} {f : ℕ} {P : Bool → Mdl K → Mdl K → Prop} (hr : Ready c m0)
    (hh : Hist c P m0 m s) (hP : SolveAll c P f vect m s) (hs : solve c f vect true m s = .ok (m', s')) (hb : Fluxes c m0 s) : Fluxes c m0 s' := by
  obtain ⟨m1, s1, a1, a2, a3, a4, a5, a6⟩ := solve_last hr.ctx.lower hr.ctx.wf hr.started.mdl hh hP hs
  have hi := hr.inv a1
  obtain ⟨_, _, _, _, _, p, r', _, h1⟩ := attempted hr.ctx.lower hr.ctx.wf hi a5
  have es : s'.tstep = s.tstep + 1 := by rw [h1.tstep, a4]
  intro k h0 hk b v id T hbm hF
  by_cases hk' : k = s'.tstep
  · have hbm' : (b, "pressure", v) ∈ m1.bdict := by rw [hi.same.bdict]; exact hbm
    obtain ⟨id', T', hF', hrr⟩ := h1.bound b (upd_of_mem hi.mdl hbm' rfl)
    have := (show c.e.transC b false = _ from hF).symm.trans hF'
    simp only [Except.ok.injEq, List.cons.injEq, Prod.mk.injEq, and_true] at this
    obtain ⟨rfl, rfl⟩ := this
    rw [hk', h1.rates, h1.press, h1.tstep, rowAt_append_eq hi.rlen, rowAt_append_eq hi.plen, hrr, bTerm_pressure hr.ctx.lower (v := v) (by rw [dictGet_of_mem hi.mdl.bkeys hbm'])]
    simp only [Aff.smul, Aff.sub, Aff.c]; ring
  · have e1 : rowAt s'.rates k 0 b = rowAt s.rates k 0 b := by rw [h1.rates, rowAt_append_lt (by rw [hi.rlen]; omega), a3]
    have e2 : rowAt s'.press k none id = rowAt s.press k none id := by rw [h1.press, rowAt_append_lt (by rw [hi.plen]; omega), a2]
    rw [e1, e2]
    exact hb k h0 (by omega) b v id T hbm hF

lemma runLoop_fluxes {c : Ctx K} {m0 : Mdl K} {vect : Bool} {f : ℕ} {P : Bool → Mdl K → Mdl K → Prop} (hr : Ready c m0) (N : ℕ) {m : Mdl K} {s : Sol K} (hh : Hist c P m0 m s) (hP : RunAll c P f vect N m s)
    (hs : (runLoop c f vect N m s).2 = .ok ()) (hb : Fluxes c m0 s) : Fluxes c m0 (runLoop c f vect N m s).1.2 := by
  induction N generalizing m s with
  | zero => exact hb
  | succ N ih =>
    rcases h1 : solve c f vect true m s with x | ⟨m1, s1⟩
    · unfold runLoop at hs; rw [h1] at hs; cases hs
    have st : runLoop c f vect (N + 1) m s = runLoop c f vect N m1 s1 := by conv_lhs => unfold runLoop; rw [h1]
    rw [st] at hs ⊢
    exact ih (hh.solve hr.ctx.lower hr.ctx.wf hr.started.mdl hP.1 h1) (hP.2 _ _ h1) hs (solve_fluxes hr hh hP.1 h1 hb)

lemma run_fluxes {c : Ctx K} {m : Mdl K} {vect : Bool} {f N : ℕ} {el : K} {P : Bool → Mdl K → Mdl K → Prop} (hr : Ready c m) (hP : RunAll c P f vect N m { Sol.init m with nsteps := (Sol.init m).nsteps + N })
    (hs : (run c f vect N el m (Sol.init m)).2 = .ok ()) : Fluxes c m (run c f vect N el m (Sol.init m)).1.2 := by
  have k := runLoop_fluxes hr N (.clock _ (Sol.init m).ctime .start) hP (run_sol hs).1 (fun k h0 hk => absurd hk (by show ¬ k ≤ 0; omega))
  unfold run at hs ⊢
  rcases hl : runLoop c f vect N m { Sol.init m with nsteps := (Sol.init m).nsteps + N } with ⟨⟨m', s'⟩, x | ⟨⟩⟩
  · rw [hl] at hs; cases hs
  · rw [hl] at k; exact k

lemma PressureChanged.asRates {c : Ctx K} {m m' : Mdl K} {a : ℕ} (hr : Ready c m) (hr' : Ready c m') (h : PressureChanged m m' a) : PressureChanged m.asRates m'.asRates a where
  shape := h.shape.asRates
  bval := fun b hb hne => by
    obtain ⟨y, hy, rfl⟩ := List.mem_map.1 (show b ∈ m.bdict.map (plain m.initR) from hb)
    rw [plain_key] at hne ⊢; exact same_value_asRates hr hr' h.shape hy (h.bval y hy hne)
  pwf := h.pwf
  rate := h.rate
  kind := by
    obtain ⟨v, hv⟩ := h.kind
    exact ⟨v, List.mem_map.2 ⟨_, hv, plain_eq rfl⟩⟩

/-- `C79_boundary_partial` for models without gradient conditions, or with the symbolic assembler. -/
lemma boundary_reciprocal {c : Ctx K} {m m1 m2 : Mdl K} {a b : ℕ} {vect : Bool} {f f1 f2 N : ℕ} {el el1 el2 : K} (hr : Ready c m) (hr1 : Ready c m1) (hr2 : Ready c m2) (hx : Exact c.lin)
    (h1 : RateChanged m m1 a) (h2 : PressureChanged m m2 b) (hg : vect = true → RatesGiven m ∧ RatesGiven m1 ∧ RatesGiven m2) (hf : vect = true → c.e.Flat) (hF : ∃ id T, c.e.Face b id T)
    (hinit : c.e.comp = true → ∀ id, id ∈ c.e.ids → m1.initP id = m.initP id ∧ m2.initP id = m.initP id)
    (hP : RunAll c Steady f vect N m { Sol.init m with nsteps := (Sol.init m).nsteps + N }) (hP1 : RunAll c Steady f1 vect N m1 { Sol.init m1 with nsteps := (Sol.init m1).nsteps + N })
    (hP2 : RunAll c Steady f2 vect N m2 { Sol.init m2 with nsteps := (Sol.init m2).nsteps + N })
    (hs : (run c f vect N el m (Sol.init m)).2 = .ok ()) (hs1 : (run c f1 vect N el1 m1 (Sol.init m1)).2 = .ok ()) (hs2 : (run c f2 vect N el2 m2 (Sol.init m2)).2 = .ok ()) (k : ℕ) (h0 : 0 < k) (hk : k ≤ N) :
    ∃ pa Γ : K, rowAt (run c f vect N el m (Sol.init m)).1.2.press k none a = some pa ∧ rowAt (run c f2 vect N el2 m2 (Sol.init m2)).1.2.press k none a = some (pa + Γ) ∧
      (bValue m2 b - bValue m b) * (rowAt (run c f1 vect N el1 m1 (Sol.init m1)).1.2.rates k 0 b - rowAt (run c f vect N el m (Sol.init m)).1.2.rates k 0 b) = -((wRate m1 a - wRate m a) * Γ) := by
  obtain ⟨id, T, hF⟩ := hF
  obtain ⟨p, p1, p2, e1, e2⟩ := C79_run_partial hr hr1 hr2 hx h1.shape h2.shape hg hf hinit hP hP1 hP2 hs hs1 hs2 k h0 hk
  rw [h1.work hr.started.mdl, h2.work hr.started.mdl hF] at e2
  obtain ⟨w, hw, rfl, -⟩ := h1.con
  obtain ⟨v, hv⟩ := h2.kind
  have hm := hr.started.mdl
  have ha := e1 w.1 (hm.wmem _ hw)
  have hb := e1 id (face_mem hr.ctx.wf (hm.bmem _ hv) hF).1
  obtain ⟨y, hy, hy1⟩ := (forall2_mem (forall2_and h1.shape.bd)).2 _ hv
  have hv1 : (b, "pressure", v) ∈ m1.bdict := by
    have g1 : bValue m b = v := by unfold bValue; rw [dictGet_of_mem hm.bkeys hv]; rfl
    have g2 : bValue m1 y.1 = y.2.2 := by unfold bValue; rw [dictGet_of_mem hr1.started.mdl.bkeys hy]; rfl
    obtain ⟨y1, y2, y3⟩ := y
    obtain ⟨⟨r1, r2⟩, -⟩ := hy1
    simp only at r1 r2 g2
    rw [r1, h1.bval _ hv, g1] at g2
    rw [r1, r2, ← g2] at hy
    exact hy
  obtain ⟨_, _, t, _⟩ := run_balanced hr hx (fun h => (hg h).1) hf hP hs
  obtain ⟨_, _, t1, _⟩ := run_balanced hr1 hx (fun h => (hg h).2.1) hf hP1 hs1
  have q := run_fluxes hr hP hs k h0 (by omega) b v id T hv hF
  have q1 := run_fluxes hr1 hP1 hs1 k h0 (by omega) b v id T hv1 hF
  rw [hb.1] at q
  rw [hb.2.1] at q1
  refine ⟨p w.1, p2 w.1 - p w.1, ha.1, by rw [ha.2.2]; congr 1; ring, ?_⟩
  rw [q, q1]
  simp only [Option.getD_some]
  linear_combination -e2

/-- **C79** for a well and a boundary cell (partial: as long as no well changes its constraint): raising the rate of well `a` by `δ` changes the inflow recorded for boundary cell `b`
by `Δ`; raising the pressure on `b` by `ε` instead changes the pressure in the cell of the well by `Γ`; then `ε Δ = - δ Γ`: the share of what a well takes out that comes in over `b`
is the share of a change of pressure on `b` that is felt at the well. -/
theorem C79_boundary_partial {c : Ctx K} {m m1 m2 : Mdl K} {a b : ℕ} {vect : Bool} {f f1 f2 N : ℕ} {el el1 el2 : K} (hr : Ready c m) (hr1 : Ready c m1) (hr2 : Ready c m2) (hx : Exact c.lin)
    (h1 : RateChanged m m1 a) (h2 : PressureChanged m m2 b) (hf : vect = true → c.e.Flat) (hF : ∃ id T, c.e.Face b id T)
    (hinit : c.e.comp = true → ∀ id, id ∈ c.e.ids → m1.initP id = m.initP id ∧ m2.initP id = m.initP id)
    (hP : RunAll c Steady f vect N m { Sol.init m with nsteps := (Sol.init m).nsteps + N }) (hP1 : RunAll c Steady f1 vect N m1 { Sol.init m1 with nsteps := (Sol.init m1).nsteps + N })
    (hP2 : RunAll c Steady f2 vect N m2 { Sol.init m2 with nsteps := (Sol.init m2).nsteps + N })
    (hs : (run c f vect N el m (Sol.init m)).2 = .ok ()) (hs1 : (run c f1 vect N el1 m1 (Sol.init m1)).2 = .ok ()) (hs2 : (run c f2 vect N el2 m2 (Sol.init m2)).2 = .ok ()) (k : ℕ) (h0 : 0 < k) (hk : k ≤ N) :
    ∃ pa Γ : K, rowAt (run c f vect N el m (Sol.init m)).1.2.press k none a = some pa ∧ rowAt (run c f2 vect N el2 m2 (Sol.init m2)).1.2.press k none a = some (pa + Γ) ∧
      (bValue m2 b - bValue m b) * (rowAt (run c f1 vect N el1 m1 (Sol.init m1)).1.2.rates k 0 b - rowAt (run c f vect N el m (Sol.init m)).1.2.rates k 0 b) = -((wRate m1 a - wRate m a) * Γ) := by
  cases vect
  · exact boundary_reciprocal hr hr1 hr2 hx h1 h2 (fun h => by cases h) hf hF hinit hP hP1 hP2 hs hs1 hs2 k h0 hk
  · have r := run_asRates hr f N el
    have r1 := run_asRates hr1 f1 N el1
    have r2 := run_asRates hr2 f2 N el2
    have key := boundary_reciprocal (vect := true) (f := f) (f1 := f1) (f2 := f2) (el := el) (el1 := el1) (el2 := el2) hr.asRates hr1.asRates hr2.asRates hx (h1.asRates hr hr1) (h2.asRates hr hr2)
      (fun _ => ⟨asRates_given m, asRates_given m1, asRates_given m2⟩) hf hF hinit (r.2.2.2 _ steady_blind hP) (r1.2.2.2 _ steady_blind hP1) (r2.2.2.2 _ steady_blind hP2)
      (by rw [r.2.1]; exact hs) (by rw [r1.2.1]; exact hs1) (by rw [r2.2.1]; exact hs2) k h0 hk
    obtain ⟨v, hv⟩ := h2.kind
    obtain ⟨y, hy, f1', f2'⟩ := (forall2_mem h2.shape.bd).2 _ hv
    have e := bValue_asRates hr hv
    have e2 := bValue_asRates hr2 hy
    rw [f1', f2'] at e2
    rw [if_pos rfl, one_mul] at e e2
    dsimp only at e e2
    rw [r.1, r1.1, r2.1, e, e2] at key
    exact key

/-! ### The hypotheses are met -/

/-- Two wells in a reservoir at pressure 8, fed from a boundary at pressure `b`. -/
def exPair (q1 q2 b : ℚ) : Mdl ℚ :=
  exMdl true 0 [] (some 8) [(0, "pressure", b), (3, "rate", 0)] [(1, { q := some q1, pwf := some (-20), r := some 1 }), (2, { q := some q2, pwf := some (-20), r := some 1 })]

lemma exPair_rate1 : RateChanged (exPair 0 0 10) (exPair (-1) 0 10) 1 :=
  ⟨⟨by decide +kernel, by decide +kernel⟩, by decide +kernel, by decide +kernel, by decide +kernel, by decide +kernel⟩

lemma exPair_rate2 : RateChanged (exPair 0 0 10) (exPair 0 (-2) 10) 2 :=
  ⟨⟨by decide +kernel, by decide +kernel⟩, by decide +kernel, by decide +kernel, by decide +kernel, by decide +kernel⟩

lemma exPair_rate40 : RateChanged (exPair 0 0 10) (exPair 0 (-40) 10) 2 :=
  ⟨⟨by decide +kernel, by decide +kernel⟩, by decide +kernel, by decide +kernel, by decide +kernel, by decide +kernel⟩

lemma exPair_feed : PressureChanged (exPair 0 0 10) (exPair 0 0 12) 0 :=
  ⟨⟨by decide +kernel, by decide +kernel⟩, by decide +kernel, by decide +kernel, by decide +kernel, ⟨10, by decide +kernel⟩⟩

lemma exPair_ready : Ready (exC true 0 []) (exPair 0 0 10) := exMdl_ready (by decide +kernel)
lemma exPair_ready1 : Ready (exC true 0 []) (exPair (-1) 0 10) := exMdl_ready (by decide +kernel)
lemma exPair_ready2 : Ready (exC true 0 []) (exPair 0 (-2) 10) := exMdl_ready (by decide +kernel)
lemma exPair_ready40 : Ready (exC true 0 []) (exPair 0 (-40) 10) := exMdl_ready (by decide +kernel)
lemma exPair_ready12 : Ready (exC true 0 []) (exPair 0 0 12) := exMdl_ready (by decide +kernel)

/-- One well takes 1, or the other takes 2: after three steps pressures differ by -120/343 and -240/343. -/
example (vect : Bool) : ∃ pa pb Δ Γ : ℚ, rowAt (run (exC true 0 []) 10 vect 3 0 (exPair 0 0 10) (Sol.init (exPair 0 0 10))).1.2.press 3 none 1 = some pa ∧
    rowAt (run (exC true 0 []) 10 vect 3 0 (exPair 0 0 10) (Sol.init (exPair 0 0 10))).1.2.press 3 none 2 = some pb ∧
    rowAt (run (exC true 0 []) 10 vect 3 0 (exPair (-1) 0 10) (Sol.init (exPair (-1) 0 10))).1.2.press 3 none 2 = some (pb + Δ) ∧
    rowAt (run (exC true 0 []) 10 vect 3 0 (exPair 0 (-2) 10) (Sol.init (exPair 0 (-2) 10))).1.2.press 3 none 1 = some (pa + Γ) ∧
    (wRate (exPair 0 (-2) 10) 2 - wRate (exPair 0 0 10) 2) * Δ = (wRate (exPair (-1) 0 10) 1 - wRate (exPair 0 0 10) 1) * Γ :=
  C79_wells_partial exPair_ready exPair_ready1 exPair_ready2 cramer_exact exPair_rate1 exPair_rate2 (fun _ => ex_flat _)
    (fun _ => by decide +kernel) (runSteadyB_all (by cases vect <;> decide +kernel)) (runSteadyB_all (by cases vect <;> decide +kernel)) (runSteadyB_all (by cases vect <;> decide +kernel))
    (isOk_unit (by cases vect <;> decide +kernel)) (isOk_unit (by cases vect <;> decide +kernel)) (isOk_unit (by cases vect <;> decide +kernel)) 3 (by decide) le_rfl

example (vect : Bool) : rowAt (run (exC true 0 []) 10 vect 3 0 (exPair 0 0 10) (Sol.init (exPair 0 0 10))).1.2.press 3 none 2 = some (3224 / 343) ∧
    rowAt (run (exC true 0 []) 10 vect 3 0 (exPair (-1) 0 10) (Sol.init (exPair (-1) 0 10))).1.2.press 3 none 2 = some (3224 / 343 - 120 / 343) ∧
    rowAt (run (exC true 0 []) 10 vect 3 0 (exPair 0 0 10) (Sol.init (exPair 0 0 10))).1.2.press 3 none 1 = some (3340 / 343) ∧
    rowAt (run (exC true 0 []) 10 vect 3 0 (exPair 0 (-2) 10) (Sol.init (exPair 0 (-2) 10))).1.2.press 3 none 1 = some (3340 / 343 - 240 / 343) := by
  cases vect <;> decide +kernel

/-- A well and the boundary that feeds it. -/
example (vect : Bool) : ∃ pa Γ : ℚ, rowAt (run (exC true 0 []) 10 vect 3 0 (exPair 0 0 10) (Sol.init (exPair 0 0 10))).1.2.press 3 none 1 = some pa ∧
    rowAt (run (exC true 0 []) 10 vect 3 0 (exPair 0 0 12) (Sol.init (exPair 0 0 12))).1.2.press 3 none 1 = some (pa + Γ) ∧
    (bValue (exPair 0 0 12) 0 - bValue (exPair 0 0 10) 0) * (rowAt (run (exC true 0 []) 10 vect 3 0 (exPair (-1) 0 10) (Sol.init (exPair (-1) 0 10))).1.2.rates 3 0 0 -
      rowAt (run (exC true 0 []) 10 vect 3 0 (exPair 0 0 10) (Sol.init (exPair 0 0 10))).1.2.rates 3 0 0) = -((wRate (exPair (-1) 0 10) 1 - wRate (exPair 0 0 10) 1) * Γ) :=
  C79_boundary_partial exPair_ready exPair_ready1 exPair_ready12 cramer_exact exPair_rate1 exPair_feed (fun _ => ex_flat _)
    ⟨1, 1, (by decide +kernel : (exC true 0 []).e.transC 0 false = .ok [(1, 1)])⟩
    (fun _ => by decide +kernel) (runSteadyB_all (by cases vect <;> decide +kernel)) (runSteadyB_all (by cases vect <;> decide +kernel)) (runSteadyB_all (by cases vect <;> decide +kernel))
    (isOk_unit (by cases vect <;> decide +kernel)) (isOk_unit (by cases vect <;> decide +kernel)) (isOk_unit (by cases vect <;> decide +kernel)) 3 (by decide) le_rfl

/-- **C79 fails** when a well reaches its limit: the other well is asked for 40, which it cannot give. Everything `C79_wells_partial` asks for holds, except that its constraint changes. -/
theorem C79_limit_fails (vect : Bool) : ∃ (c : Ctx ℚ) (m m1 m2 : Mdl ℚ) (a b : ℕ) (s s1 s2 : Sol ℚ), Ready c m ∧ Ready c m1 ∧ Ready c m2 ∧ Exact c.lin ∧ RateChanged m m1 a ∧ RateChanged m m2 b ∧
    c.e.Flat ∧ (∀ id, id ∈ c.e.ids → m1.initP id = m.initP id ∧ m2.initP id = m.initP id) ∧
    (∃ n, run c 10 vect 1 0 m (Sol.init m) = ((n, s), .ok ())) ∧ (∃ n, run c 10 vect 1 0 m1 (Sol.init m1) = ((n, s1), .ok ())) ∧ (∃ n, run c 10 vect 1 0 m2 (Sol.init m2) = ((n, s2), .ok ())) ∧
    ∃ pa pb Δ Γ : ℚ, rowAt s.press 1 none a = some pa ∧ rowAt s.press 1 none b = some pb ∧ rowAt s1.press 1 none b = some (pb + Δ) ∧ rowAt s2.press 1 none a = some (pa + Γ) ∧
      (wRate m2 b - wRate m b) * Δ ≠ (wRate m1 a - wRate m a) * Γ :=
  ⟨exC true 0 [], exPair 0 0 10, exPair (-1) 0 10, exPair 0 (-40) 10, 1, 2, _, _, _, exPair_ready, exPair_ready1, exPair_ready40, cramer_exact, exPair_rate1, exPair_rate40,
    ex_flat _, by decide +kernel, ⟨_, Prod.ext rfl (isOk_unit (by cases vect <;> decide +kernel))⟩,
    ⟨_, Prod.ext rfl (isOk_unit (by cases vect <;> decide +kernel))⟩, ⟨_, Prod.ext rfl (isOk_unit (by cases vect <;> decide +kernel))⟩, 64 / 7, 60 / 7, -1 / 7, -200 / 77,
    by cases vect <;> decide +kernel, by cases vect <;> decide +kernel, by cases vect <;> decide +kernel, by cases vect <;> decide +kernel, by decide +kernel⟩

/-- A well and a gradient on the right face are changed. -/
def exTilt (q g : ℚ) : Mdl ℚ := exMdl true 0 [] (some 8) [(0, "pressure", 10), (3, "gradient", g)] [(1, { q := some q, pwf := some (-20), r := some 1 })]

example : ∃ p p1 p2 : ℕ → ℚ, (∀ id, id ∈ (exC true 0 []).e.ids → rowAt (run (exC true 0 []) 10 true 3 0 (exTilt 0 1) (Sol.init (exTilt 0 1))).1.2.press 3 none id = some (p id) ∧
    rowAt (run (exC true 0 []) 10 true 3 0 (exTilt (-1) 1) (Sol.init (exTilt (-1) 1))).1.2.press 3 none id = some (p1 id) ∧
    rowAt (run (exC true 0 []) 10 true 3 0 (exTilt 0 3) (Sol.init (exTilt 0 3))).1.2.press 3 none id = some (p2 id)) ∧
    workAny (exC true 0 []) (exTilt 0 1) (exTilt 0 3) (fun id => p1 id - p id) = workAny (exC true 0 []) (exTilt 0 1) (exTilt (-1) 1) (fun id => p2 id - p id) :=
  C79_gradients_partial (exMdl_ready (by decide +kernel)) (exMdl_ready (by decide +kernel)) (exMdl_ready (by decide +kernel)) cramer_exact
    ⟨by decide +kernel, by decide +kernel⟩ ⟨by decide +kernel, by decide +kernel⟩ (ex_flat _) (fun _ => by decide +kernel) (runSteadyB_all (by decide +kernel)) (runSteadyB_all (by decide +kernel))
    (runSteadyB_all (by decide +kernel)) (isOk_unit (by decide +kernel)) (isOk_unit (by decide +kernel)) (isOk_unit (by decide +kernel)) 3 (by decide) le_rfl

example : workAny (exC true 0 []) (exTilt 0 1) (exTilt 0 3) (fun _ => 1) ≠ 0 ∧
    rowAt (run (exC true 0 []) 10 true 3 0 (exTilt 0 1) (Sol.init (exTilt 0 1))).1.2.press 3 none 2 ≠ rowAt (run (exC true 0 []) 10 true 3 0 (exTilt (-1) 1) (Sol.init (exTilt (-1) 1))).1.2.press 3 none 2 := by
  decide +kernel

end RF.Fdm
