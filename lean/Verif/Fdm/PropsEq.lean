import Verif.Fdm.PropsAsm
import Verif.Fdm.Alike
/-! # C32: the two assemblers -/
set_option linter.unusedSectionVars false
namespace RF.Fdm
open RF RF.Dims Finset

variable {K : Type} [Field K] [LinearOrder K] [IsStrictOrderedRing K]

/-- The environment of a one- or two-dimensional grid with positive data. -/
def Planar (e : Env K) : Prop := ∃ M : GridModel K, M.Pos ∧ M.env = .ok e ∧ M.g.getD ≠ 3

lemma excess_same {e : Env K} {T T' : ℕ → ℕ → K} {m : Mdl K} {rate rate' : ℕ → K} (hT : ∀ i j, i < e.n → j < e.n → T' i j = T i j)
    (hrate : ∀ b, b ∈ m.bdict → b.2.1 ≠ "pressure" → rate' b.1 = rate b.1) (old x : ℕ → K) {i : ℕ} (hi : i < e.n) :
    excess e T' m rate' old x i = excess e T m rate old x i := by
  unfold excess outsideIn
  rw [sum_congr rfl fun j hj => by rw [hT i j hi (mem_range.1 hj)]]
  have : m.bdict.map (boundaryIn e rate' (x i) i) = m.bdict.map (boundaryIn e rate (x i) i) := by
    refine List.map_congr_left fun b hb => ?_
    unfold boundaryIn
    split
    · split_ifs with h1 h2
      · rfl
      · exact hrate b hb h2
      · rfl
    · rfl
  rw [this]

/-- The balance the symbolic assembler puts into the equations is the one of the vectorised assembler. -/
lemma excess_agree {c : Ctx K} {m0 m : Mdl K} {s : Sol K} (hr : Ready c m0) (h2 : Planar c.e) (hg : RatesGiven m0) (hi : Inv c.e m0 m s) (old x : ℕ → K) {i : ℕ} (hin : i < c.e.n) :
    excess c.e (c.e.trans false) m (usedRate false m s) old x i = excess c.e (c.e.trans true) m (usedRate true m s) old x i := by
  obtain ⟨M, hM, h, h3⟩ := h2
  refine excess_same (fun i j hi hj => ?_) (fun b hb hp => ?_) old x hin
  · exact trans_agree hM h h3 hi hj
  · have hb0 : b ∈ m0.bdict := by rw [← hi.same.bdict]; exact hb
    rw [usedRate_eq hr.ctx.wf hr.started.mdl hi false hb0 hp, usedRate_eq hr.ctx.wf hr.started.mdl hi true hb0 hp]
    exact (hg b hb0 hp).symm

/-- Two rows with proportional residuals are proportional. -/
lemma rows_of_residuals {n : ℕ} {a b : ℕ → K} {u v k : K} (h : ∀ x : ℕ → K, ∑ j ∈ range n, b j * x j - v = k * (∑ j ∈ range n, a j * x j - u)) :
    (∀ j, j < n → b j = k * a j) ∧ v = k * u := by
  have h0 : v = k * u := by
    have := h 0
    simp at this
    exact this
  refine ⟨fun j hj => ?_, h0⟩
  have := h (fun i => if i = j then 1 else 0)
  simp [hj, h0] at this
  linear_combination this

/-- **C32, one step.** On one- and two-dimensional grids without gravity, from any state reached by calls in which no well left its
pressure limit, with rate and pressure conditions: if both assemblies succeed, every symbolic row is a nonzero multiple of the
vectorised row, matrix and right-hand side. -/
theorem C32_rows_partial {c : Ctx K} {m0 m m1 m2 : Mdl K} {s s1 s2 : Sol K} (hr : Ready c m0) (h2 : Planar c.e) (hf : c.e.Flat) (hg : RatesGiven m0) (hh : Hist c Calm m0 m s)
    (hz : NoZeroPwf m) {A A' : ℕ → ℕ → K} {d d' : ℕ → K} (hv : assemble c true m s = .ok (m1, s1, A, d)) (hs : assemble c false m s = .ok (m2, s2, A', d'))
    {i : ℕ} (hin : i < c.e.n) : ∃ k, k ≠ 0 ∧ (∀ j, j < c.e.n → A' i j = k * A i j) ∧ d' i = k * d i := by
  obtain ⟨hi, hq⟩ := hr.calm hh
  obtain ⟨k, hk, -, e1⟩ := assemble_residual hr.ctx hi hq (by simp) (by simp) hs hin
  obtain ⟨k', -, hk', e2⟩ := assemble_residual hr.ctx hi hq (fun _ => hf) (fun _ => hz) hv hin
  refine ⟨k, hk, ?_⟩
  obtain rfl := hk' rfl
  refine rows_of_residuals fun x => ?_
  rw [e1 x, e2 x, one_mul, excess_agree hr h2 hg hi _ x hin]

/-- The systems of the two assemblers have the same solutions. -/
theorem C32_solutions_partial {c : Ctx K} {m0 m m1 m2 : Mdl K} {s s1 s2 : Sol K} (hr : Ready c m0) (h2 : Planar c.e) (hf : c.e.Flat) (hg : RatesGiven m0) (hh : Hist c Calm m0 m s)
    (hz : NoZeroPwf m) {A A' : ℕ → ℕ → K} {d d' : ℕ → K} (hv : assemble c true m s = .ok (m1, s1, A, d)) (hs : assemble c false m s = .ok (m2, s2, A', d')) (x : ℕ → K) :
    Solves c.e.n A' d' x ↔ Solves c.e.n A d x := by
  refine forall₂_congr fun i hin => ?_
  obtain ⟨k, hk, e1, e2⟩ := C32_rows_partial hr h2 hf hg hh hz hv hs hin
  rw [e2, sum_congr rfl fun j hj => by rw [e1 j (mem_range.1 hj), mul_assoc], ← mul_sum]
  exact ⟨fun h => mul_left_cancel₀ hk h, fun h => by rw [h]⟩

/-! ### whole runs -/

/-- Two simulations report the same: pressures and rates of all cells at all steps, wells and bottom-hole pressures. -/
structure Twin (m n : Mdl K) (s t : Sol K) : Prop where
  wells : n.wells = m.wells
  wPress : n.wPress = m.wPress
  press : t.press = s.press
  rates : t.rates = s.rates
  tstep : t.tstep = s.tstep

lemma Twin.refl (m : Mdl K) (s : Sol K) : Twin m m s s := ⟨rfl, rfl, rfl, rfl, rfl⟩

lemma Twin.back {m n : Mdl K} {s t : Sol K} (h : Twin m n s t) : Twin m n s.back t.back := by
  refine ⟨h.wells, h.wPress, ?_, ?_, ?_⟩
  · show t.press.take t.tstep = s.press.take s.tstep
    rw [h.press, h.tstep]
  · show t.rates.take t.tstep = s.rates.take s.tstep
    rw [h.rates, h.tstep]
  · show t.tstep - 1 = s.tstep - 1
    rw [h.tstep]

lemma newRow_congr {e : Env K} (last : ℕ → Option K) {x y : ℕ → K} (h : ∀ i, i < e.n → x i = y i) : newRow e.ids last x = newRow e.ids last y := by
  funext id
  unfold newRow
  split_ifs with h1
  · rw [h _ (idx_lt e h1)]
  · rfl

/-- The same cell pressures lead to the same report. -/
lemma attempt_twin {c : Ctx K} {v v' : Bool} {m m' n n' : Mdl K} {s s' t t' : Sol K} {ag ag' : Bool} (h : Twin m n s t) (hb : n.bdict = m.bdict) (hu : n.bUpdate = m.bUpdate)
    (h1 : attempt c v m s = .ok (m', s', ag)) (h2 : attempt c v' n t = .ok (n', t', ag'))
    (hx : ∀ m1 s1 A d x m2 s2 A' d' x', assemble c v m s = .ok (m1, s1, A, d) → c.lin c.e.n A d = .ok x → assemble c v' n t = .ok (m2, s2, A', d') → c.lin c.e.n A' d' = .ok x' →
      ∀ i, i < c.e.n → x i = x' i) : Twin m' n' s' t' ∧ ag' = ag := by
  obtain ⟨m1, s1, A, d, x, r, ws, r', ps, a1, a2, a3, a4, rfl, rfl⟩ := attempt_parts h1
  obtain ⟨n1, t1, A', d', x', q, us, q', qs, b1, b2, b3, b4, rfl, rfl⟩ := attempt_parts h2
  have key := hx _ _ _ _ _ _ _ _ _ _ a1 a2 b1 b2
  obtain ⟨⟨ts, rfl⟩, vA, bV, res, sM, rfl⟩ := assemble_frame a1
  obtain ⟨⟨ts', rfl⟩, vA', bV', res', sM', rfl⟩ := assemble_frame b1
  dsimp only at a3 a4 b3 b4 ⊢
  have hp : newRow c.e.ids (lastRow t.press none) x' = newRow c.e.ids (lastRow s.press none) x := by
    rw [h.press]; exact (newRow_congr _ key).symm
  rw [hp, h.rates] at b3
  have b3' : updateBounds c.lower c.e m (newRow c.e.ids (lastRow s.press none) x) (lastRow s.rates 0) = .ok q := by
    unfold updateBounds at b3 ⊢
    dsimp only at b3
    rw [hu, hb] at b3
    exact b3
  have a3' : updateBounds c.lower c.e m (newRow c.e.ids (lastRow s.press none) x) (lastRow s.rates 0) = .ok r := a3
  rw [a3'] at b3'
  simp only [Except.ok.injEq] at b3'
  subst b3'
  rw [hp, h.wells, a4] at b4
  simp only [Except.ok.injEq, Prod.mk.injEq] at b4
  obtain ⟨rfl, rfl, rfl, rfl⟩ := b4
  refine ⟨⟨rfl, ?_, ?_, ?_, ?_⟩, rfl⟩
  · dsimp only; rw [h.wPress]
  · dsimp only; rw [h.press]
    rw [← h.press, hp, h.press]
  · dsimp only; rw [h.rates]
  · dsimp only; rw [h.tstep]

/-- Twins of two calm histories solve to the same cell pressures. -/
lemma solutions_agree {c : Ctx K} {m0 m n m1 m2 : Mdl K} {s t s1 s2 : Sol K} (hr : Ready c m0) (h2 : Planar c.e) (hf : c.e.Flat) (hg : RatesGiven m0) (han : Anchored c.e m0)
    (hx : Exact c.lin) (hh : Hist c Calm m0 m s) (hh' : Hist c Calm m0 n t) (hz : NoZeroPwf m) (htw : Twin m n s t) {A A' : ℕ → ℕ → K} {d d' x x' : ℕ → K}
    (a1 : assemble c true m s = .ok (m1, s1, A, d)) (a2 : c.lin c.e.n A d = .ok x) (b1 : assemble c false n t = .ok (m2, s2, A', d')) (b2 : c.lin c.e.n A' d' = .ok x') :
    ∀ i, i < c.e.n → x i = x' i := by
  obtain ⟨hi, hq⟩ := hr.calm hh
  obtain ⟨hi', hq'⟩ := hr.calm hh'
  have e1 := (assemble_solves hr.ctx hi hq (fun _ => hf) (fun _ => hz) a1 x).1 (hx _ _ _ _ a2)
  have e2 := (assemble_solves hr.ctx hi' hq' (by simp) (by simp) b1 x').1 (hx _ _ _ _ b2)
  refine balance_unique hr.ctx.wf hf (hr.ctx.grid.network true) hi.mdl (hh.anchored hr han) e1 fun i hin => ?_
  have := e2 i hin
  rw [excess_agree hr h2 hg hi' _ x' hin] at this
  rw [← this]
  have hb : m.bdict = n.bdict := by rw [hi.same.bdict, hi'.same.bdict]
  unfold excess outsideIn usedRate Sol.inner
  rw [htw.wells, hb, htw.press, htw.rates, htw.tstep]
  rfl

/-- **C32, one call of `solve`.** -/
lemma solve_twin {c : Ctx K} {m0 : Mdl K} (hr : Ready c m0) (h2 : Planar c.e) (hf : c.e.Flat) (hg : RatesGiven m0) (han : Anchored c.e m0) (hx : Exact c.lin) (f f' : ℕ)
    {m n m' n' : Mdl K} {s t s' t' : Sol K} (hh : Hist c Calm m0 m s) (hh' : Hist c Calm m0 n t) (htw : Twin m n s t) (hP : SolveAll c Calm f true m s)
    (h1 : solve c f true true m s = .ok (m', s')) (h3 : solve c f' false true n t = .ok (n', t')) :
    Twin m' n' s' t' ∧ Hist c Calm m0 m' s' ∧ Hist c Calm m0 n' t' := by
  induction f generalizing f' m n s t with
  | zero => simp [solve] at h1
  | succ f ih =>
    cases f' with
    | zero => simp [solve] at h3
    | succ f' =>
      unfold solve at h1 h3
      simp only [if_true] at h1 h3
      rw [ok_bind] at h1 h3
      obtain ⟨⟨ma, sa, ag⟩, a1, h1⟩ := h1
      obtain ⟨⟨na, ta, ag'⟩, b1, h3⟩ := h3
      obtain ⟨p1, p2⟩ := hP ma sa ag a1
      have hi := hr.inv hh
      have hi' := hr.inv hh'
      obtain ⟨t1, rfl⟩ := attempt_twin htw (by rw [hi.same.bdict, hi'.same.bdict]) (by rw [hi.same.upd, hi'.same.upd]) a1 b1
        fun _ _ _ _ _ _ _ _ _ _ k1 k2 k3 k4 => solutions_agree hr h2 hf hg han hx hh hh' (p1.2 rfl) htw k1 k2 k3 k4
      have p1' : Calm false n na := ⟨by unfold NoRelease; rw [htw.wells, t1.wells]; exact p1.1, by simp⟩
      cases ag'
      · simp only [Bool.false_eq_true, if_false, ok_pure, Prod.mk.injEq] at h1 h3
        obtain ⟨rfl, rfl⟩ := h1
        obtain ⟨rfl, rfl⟩ := h3
        exact ⟨t1, .step hh a1 p1, .step hh' b1 p1'⟩
      · simp only [if_true] at h1 h3
        exact ih f' (.again hh a1 p1) (.again hh' b1 p1') t1.back (p2 rfl) h1 h3

lemma runLoop_twin {c : Ctx K} {m0 : Mdl K} (hr : Ready c m0) (h2 : Planar c.e) (hf : c.e.Flat) (hg : RatesGiven m0) (han : Anchored c.e m0) (hx : Exact c.lin) (f f' k : ℕ)
    {m n : Mdl K} {s t : Sol K} (hh : Hist c Calm m0 m s) (hh' : Hist c Calm m0 n t) (htw : Twin m n s t) (hP : RunAll c Calm f true k m s)
    (hs : (runLoop c f true k m s).2 = .ok ()) (hs' : (runLoop c f' false k n t).2 = .ok ()) :
    Twin (runLoop c f true k m s).1.1 (runLoop c f' false k n t).1.1 (runLoop c f true k m s).1.2 (runLoop c f' false k n t).1.2 := by
  induction k generalizing m n s t with
  | zero => exact htw
  | succ k ih =>
    unfold runLoop at hs hs' ⊢
    rcases h1 : solve c f true true m s with x | ⟨m1, s1⟩
    · rw [h1] at hs; cases hs
    rcases h3 : solve c f' false true n t with x | ⟨n1, t1⟩
    · rw [h3] at hs'; cases hs'
    rw [h1] at hs
    rw [h3] at hs'
    obtain ⟨k1, k2, k3⟩ := solve_twin hr h2 hf hg han hx f f' hh hh' htw hP.1 h1 h3
    exact ih k2 k3 k1 (hP.2 _ _ h1) hs hs'

/-- **C32, whole runs.** On one- and two-dimensional grids without gravity, with rate and pressure conditions, pressures determined
by the equations (`Anchored`), an exact linear solver and no well leaving its pressure limit or held at bottom-hole pressure zero:
if `run(nsteps, vectorize=True)` and `run(nsteps, vectorize=False)` complete from the same state, they report the same pressures and
rates for all cells and steps, the same wells and the same bottom-hole pressures. -/
theorem C32_run_partial {c : Ctx K} {m0 m : Mdl K} {s : Sol K} (hr : Ready c m0) (h2 : Planar c.e) (hf : c.e.Flat) (hg : RatesGiven m0) (han : Anchored c.e m0) (hx : Exact c.lin)
    (f f' k : ℕ) (el el' : K) (hh : Hist c Calm m0 m s) (hP : RunAll c Calm f true k m { s with nsteps := s.nsteps + k })
    (hs : (run c f true k el m s).2 = .ok ()) (hs' : (run c f' false k el' m s).2 = .ok ()) :
    Twin (run c f true k el m s).1.1 (run c f' false k el' m s).1.1 (run c f true k el m s).1.2 (run c f' false k el' m s).1.2 := by
  have key := runLoop_twin hr h2 hf hg han hx f f' k (.clock (s.nsteps + k) s.ctime hh) (.clock (s.nsteps + k) s.ctime hh) (.refl _ _) hP
  unfold run at hs hs' ⊢
  rcases h1 : runLoop c f true k m { s with nsteps := s.nsteps + k } with ⟨⟨m1, s1⟩, x | ⟨⟩⟩
  · rw [h1] at hs; cases hs
  rcases h3 : runLoop c f' false k m { s with nsteps := s.nsteps + k } with ⟨⟨n1, t1⟩, x | ⟨⟩⟩
  · rw [h3] at hs'; cases hs'
  rw [h1, h3] at key
  obtain ⟨a, b, c, d, e⟩ := key rfl rfl
  exact ⟨a, b, c, d, e⟩


/-! ### where the assemblers differ -/

/-- Entries off the diagonal are multiples of the transmissibility. -/
lemma assemble_off {c : Ctx K} {m0 m m' : Mdl K} {s s' : Sol K} {vect : Bool} (hr : Ready c m0) (hh : Hist c Calm m0 m s) (hz : vect = true → NoZeroPwf m) {A : ℕ → ℕ → K} {d : ℕ → K}
    (ha : assemble c vect m s = .ok (m', s', A, d)) {i j : ℕ} (hin : i < c.e.n) (hjn : j < c.e.n) (hij : j ≠ i) : ∃ k, k ≠ 0 ∧ A i j = k * c.e.trans vect i j := by
  obtain ⟨hi, hq⟩ := hr.calm hh
  obtain ⟨k, hk, -, h⟩ := assemble_matrix hr.ctx hi hq hz ha hin
  refine ⟨k, hk, ?_⟩
  have := h fun a => if a = j then 1 else 0
  unfold Net.inflow at this
  simpa [hjn, hij.symm, hij] using this

/-- **C32 fails** on every three-dimensional grid: there are two cells that are not neighbours, between which the vectorised system has a
connection and the symbolic system has none; the rows are not multiples of each other. -/
theorem C32_three_d_fails {c : Ctx K} {m0 m m1 m2 : Mdl K} {s s1 s2 : Sol K} (hr : Ready c m0) {M : GridModel K} (hM : M.Pos) (he : M.env = .ok c.e) (h3 : M.g.getD = 3)
    (hh : Hist c Calm m0 m s) (hz : NoZeroPwf m) {A A' : ℕ → ℕ → K} {d d' : ℕ → K} (hv : assemble c true m s = .ok (m1, s1, A, d))
    (hs : assemble c false m s = .ok (m2, s2, A', d')) : ∃ i j, i < c.e.n ∧ j < c.e.n ∧ A i j ≠ 0 ∧ A' i j = 0 ∧ ∀ k, k ≠ 0 → ¬ ∀ b, b < c.e.n → A' i b = k * A i b := by
  obtain ⟨G, ids, p, p', g1, g2, g3, g4, g5, g6, g7, g8⟩ := C21_three_d_fails M.g M.sizes M.geom M.rock M.β hM.β hM.geom hM.sizes hM.rock hM.perm h3
  obtain ⟨l1, l2⟩ := listed M.g g2 (Interior.inGrid g5) g3
  obtain ⟨l3, l4⟩ := listed M.g g2 (Interior.inGrid g6) g4
  obtain ⟨iso, hiso, -⟩ := isIsotropic_eq hM.rock
  obtain ⟨e1, -, -, ⟨G', hG', e4⟩, -⟩ := env_ok he
  rw [g1] at hG'; cases hG'
  have hn : c.e.n = M.g.getN false := by unfold Env.n; rw [e1, length_innerIds, getN_false]
  have b2 := (transS_val hM he hiso l1 l3).2
  rw [l2, l4] at b2
  have hS : c.e.transS p p' = 0 := b2 g7
  have hV : c.e.transV p p' ≠ 0 := by rw [e4]; exact div_ne_zero g8 (mul_pos hM.mu hM.B).ne'
  have hp : p < c.e.n := by rw [hn]; exact l1
  have hp' : p' < c.e.n := by rw [hn]; exact l3
  have hne : p' ≠ p := fun h => hV (by rw [h]; exact hr.ctx.wf.diag p hp)
  obtain ⟨k, hk, a1⟩ := assemble_off hr hh (fun _ => hz) hv hp hp' hne
  obtain ⟨k', hk', a2⟩ := assemble_off hr hh (by simp) hs hp hp' hne
  have hA : A p p' ≠ 0 := by rw [a1]; exact mul_ne_zero hk hV
  have hA' : A' p p' = 0 := by rw [a2]; exact mul_eq_zero_of_right _ hS
  exact ⟨p, p', hp, hp', hA, hA', fun q hq h => mul_ne_zero hq hA (by rw [← h p' hp', hA'])⟩

/-- **C32 fails** for every compressible model in which the numbers in the balance of some cell cancel (for instance a cell without
conditions at pressure 0): the symbolic assembly raises an exception. -/
theorem C32_symbolic_raises {c : Ctx K} {m0 m : Mdl K} {s : Sol K} (hr : Ready c m0) (hcomp : c.e.comp = true) (hh : Hist c Calm m0 m s) {i : ℕ} (hin : i < c.e.n)
    (h0 : excess c.e c.e.transS m (givenRate m) (s.inner c.e s.tstep) (fun _ => 0) i = 0) : ∃ err, assemble c false m s = .error err := by
  obtain ⟨hi, hq⟩ := hr.calm hh
  rcases h : assemble c false m s with err | ⟨m', s', A, d⟩
  · exact ⟨err, rfl⟩
  · unfold assemble at h
    simp only [Bool.false_eq_true, if_false] at h
    exact absurd h0 (((symb_rows hr.ctx.scale hr.ctx.wf hr.ctx.grid.sym hr.ctx.grid.networkS hi.mdl hq.canon hq.cfg hq.tinv hq.symb h).2.2.2 i hin).2 hcomp)


/-! ## Instances -/

lemma ex_planar (comp : Bool) (grav : ℚ) (depth : List ℚ) : Planar (exC comp grav depth).e := by
  refine ⟨exM comp grav depth, exM_pos comp grav depth, ?_, by show g2.getD ≠ 3; decide +kernel⟩
  show _ = Except.ok (exE comp grav depth)
  unfold exE
  exact getOk_eq _ _

lemma exA_given : RatesGiven exA := by
  have h : (exA.bdict.all fun b => decide (b.2.1 ≠ "pressure" → exA.initR b.1 = b.2.2)) = true := by decide +kernel
  exact all_of h

/-- The hypotheses of the three positive theorems are met in the middle and over the whole of a run in which a well reaches its limit. -/
example : Ready (exC true 0 []) exA ∧ Planar (exC true 0 []).e ∧ (exC true 0 []).e.Flat ∧ RatesGiven exA ∧ Anchored (exC true 0 []).e exA ∧ Exact (exC true 0 []).lin ∧
    Hist (exC true 0 []) Calm exA (exRun (exC true 0 []) true 3 exA).1 (exRun (exC true 0 []) true 3 exA).2 ∧ NoZeroPwf (exRun (exC true 0 []) true 3 exA).1 ∧
    (∀ vect, isOk (assemble (exC true 0 []) vect (exRun (exC true 0 []) true 3 exA).1 (exRun (exC true 0 []) true 3 exA).2) = true) ∧
    RunAll (exC true 0 []) Calm 10 true 3 exA { Sol.init exA with nsteps := (Sol.init exA).nsteps + 3 } ∧
    ∀ vect, (run (exC true 0 []) 10 vect 3 0 exA (Sol.init exA)).2 = .ok () :=
  ⟨exA_ready, ex_planar _ _ _, ex_flat true, exA_given, Or.inl (by decide +kernel), cramer_exact, exA_calm true, noZeroB_ok (by decide +kernel),
    fun vect => by cases vect <;> decide +kernel, runCalmB_all (by decide +kernel), fun vect => isOk_unit (by cases vect <;> decide +kernel)⟩

lemma exLow11_given : RatesGiven (exLow 11) := by
  have h : ((exLow 11).bdict.all fun b => decide (b.2.1 ≠ "pressure" → (exLow 11).initR b.1 = b.2.2)) = true := by decide +kernel
  exact all_of h

/-- `run` both ways for some steps, the pressures differ although both runs complete. -/
def Differ (c : Ctx ℚ) (m0 : Mdl ℚ) : Prop := ∃ (k t id : ℕ), (∀ vect, (run c 10 vect k 0 m0 (Sol.init m0)).2 = .ok ()) ∧ id ∈ c.e.ids ∧ t ≤ k ∧
  rowAt (run c 10 true k 0 m0 (Sol.init m0)).1.2.press t none id ≠ rowAt (run c 10 false k 0 m0 (Sol.init m0)).1.2.press t none id

/-- **C32 fails** with a gradient condition. -/
theorem C32_gradient_fails : ∃ (c : Ctx ℚ) (m0 : Mdl ℚ), Ready c m0 ∧ Exact c.lin ∧ c.e.Flat ∧ Anchored c.e m0 ∧ NoZeroPwf m0 ∧ Differ c m0 :=
  ⟨exNC true 0 [], exGrad, exGrad_ready, cramer_exact, Or.inl (by decide +kernel), Or.inl (by decide +kernel), noZeroB_ok (by decide +kernel),
    1, 1, 1, fun vect => isOk_unit (by cases vect <;> decide +kernel), by decide +kernel, by decide, by decide +kernel⟩

/-- **C32 fails** under gravity between cells at different depths. -/
theorem C32_gravity_fails : ∃ (c : Ctx ℚ) (m0 : Mdl ℚ), Ready c m0 ∧ Exact c.lin ∧ Planar c.e ∧ RatesGiven m0 ∧ Anchored c.e m0 ∧ NoZeroPwf m0 ∧ Differ c m0 :=
  ⟨exC true 3 [5, 5, 7, 7], exDeep true, exDeep_ready true, cramer_exact, ex_planar _ _ _, fun b hb => absurd hb (by rw [show (exDeep true).bdict = [] by decide +kernel]; simp),
    Or.inl (by decide +kernel), noZeroB_ok (by decide +kernel),
    1, 1, 1, fun vect => isOk_unit (by cases vect <;> decide +kernel), by decide +kernel, by decide, by decide +kernel⟩

/-- **C32 fails** with a well held at bottom-hole pressure zero. -/
theorem C32_zero_bottom_hole_pressure_fails : ∃ (c : Ctx ℚ) (m0 : Mdl ℚ), Ready c m0 ∧ Exact c.lin ∧ Planar c.e ∧ c.e.Level ∧ RatesGiven m0 ∧ Anchored c.e m0 ∧ Differ c m0 :=
  ⟨exC true 0 [], exZero, exZero_ready, cramer_exact, ex_planar _ _ _, ex_level true, fun b hb => absurd hb (by rw [show exZero.bdict = [] by decide +kernel]; simp), Or.inl (by decide +kernel),
    1, 1, 1, fun vect => isOk_unit (by cases vect <;> decide +kernel), by decide +kernel, by decide, by decide +kernel⟩

/-- **C32 fails** when a well leaves its pressure limit. -/
theorem C32_released_well_fails : ∃ (c : Ctx ℚ) (m0 : Mdl ℚ), Ready c m0 ∧ Exact c.lin ∧ Planar c.e ∧ c.e.Level ∧ RatesGiven m0 ∧ Anchored c.e m0 ∧ NoZeroPwf m0 ∧ Differ c m0 :=
  ⟨exC true 0 [], exLow 11, exLow11_ready, cramer_exact, ex_planar _ _ _, ex_level true,
    exLow11_given, Or.inl (by decide +kernel), noZeroB_ok (by decide +kernel),
    3, 3, 1, fun vect => isOk_unit (by cases vect <;> decide +kernel), by decide +kernel, by decide, by decide +kernel⟩

/-- The hypotheses of `C32_symbolic_raises` are met where the vectorised run completes. -/
example : Ready (exC true 0 []) exShut ∧ (exC true 0 []).e.comp = true ∧ 1 < (exC true 0 []).e.n ∧
    excess (exC true 0 []).e (exC true 0 []).e.transS exShut (givenRate exShut) ((Sol.init exShut).inner (exC true 0 []).e (Sol.init exShut).tstep) (fun _ => 0) 1 = 0 ∧
    isOk (run (exC true 0 []) 10 true 5 0 exShut (Sol.init exShut)).2 = true ∧ isOk (run (exC true 0 []) 10 false 5 0 exShut (Sol.init exShut)).2 = false :=
  ⟨exShut_ready, by decide +kernel, by decide +kernel, by decide +kernel, by decide +kernel, by decide +kernel⟩

/-! ### a 2 x 2 x 2 grid -/

open RF.Spec

/-- One value per cell of the padded 2 x 2 x 2 grid. -/
def ex3L : List ℚ := List.replicate 64 1

lemma ex3_calc : isOk (Geom.calc g222 s2.x s2.y s2.z) = true := by decide +kernel

/-- A 2 x 2 x 2 grid with unit sizes and properties. -/
def ex3M : GridModel ℚ :=
  { g := g222, sizes := s2, geom := getOk _ ex3_calc, rock := ones g222, β := 1, mu := 1, B := 1, grav := 0, depth := [], comp := true
    phi := ex3L, ct := 1, vconv := 1, dt := 1, wellReq := fun _ => .ok 1, wellG := fun _ _ r _ => .ok r }

lemma ex3M_pos : ex3M.Pos := by
  refine ⟨getOk_eq _ ex3_calc, s2_pos _, ones_set _, ones_pos _, ?_, one_pos, one_pos, one_pos, one_pos, one_pos, ?_, fun _ => one_pos⟩
  · intro a c hc
    have : cellNumber g222.nx g222.ny c < g222.getN true := g222.num_lt hc
    have e : perm g222 (ones g222) a c = 1 := by cases a <;> simp [perm, ones, Rock.k, this]
    show 0 ≤ perm g222 (ones g222) a c
    rw [e]; exact zero_le_one
  · intro c hc
    have : cellNumber g222.nx g222.ny c < g222.getN true := g222.num_lt (Interior.inGrid hc)
    rw [show g222.getN true = 64 by decide +kernel] at this
    show (0 : ℚ) < (List.replicate 64 1).getD (cellNumber g222.nx g222.ny c) 0
    rw [List.getD_eq_getElem?_getD, List.getElem?_replicate_of_lt this]
    exact one_pos

lemma ex3M_ok : isOk ex3M.env = true := by decide +kernel

/-- Its environment. -/
def ex3E : Env ℚ := getOk _ ex3M_ok

/-- With a solver that always fails: only the assembly is looked at. -/
def ex3C : Ctx ℚ := ⟨ex3E, fun s => s, fun _ _ => 1, fun _ _ _ => .error .value⟩

lemma ex3C_ok : CtxOK ex3C := by
  refine ⟨⟨rfl, rfl⟩, ⟨ex3M, ex3M_pos, getOk_eq _ ex3M_ok⟩, ?_⟩
  intro a b; exact (one_ne_zero : (1 : ℚ) ≠ 0)

/-- Every cell at pressure 1, one face held at pressure 2 and one well. -/
def ex3Mdl : Mdl ℚ := (build ex3C.lower ex3C.e (some 1) [(20, "pressure", 2)] [(21, { q := some 1, r := some 1 })]).1

lemma ex3_ready : Ready ex3C ex3Mdl := by
  have hs := (build_standard (lower := ex3C.lower) (e := ex3C.e) (pi := some 1) (b := [(20, "pressure", 2)]) (ws := [(21, { q := some 1, r := some 1 })]) (by decide) (by decide +kernel)).setup
  have h2 : readyB ex3Mdl = true := by decide +kernel
  unfold readyB at h2
  rw [Bool.and_eq_true, List.all_eq_true, List.all_eq_true] at h2
  refine ⟨ex3C_ok, hs, fun x G hx hG => ?_, fun x hx => ?_, fun x hx => ?_⟩
  · have := h2.1 x hx
    rw [hG] at this
    simp only [Bool.and_eq_true, decide_eq_true_eq] at this
    exact this.2
  · have := h2.1 x hx
    simp only [Bool.and_eq_true, decide_eq_true_eq] at this
    exact this.1
  · have := h2.2 x hx
    rw [decide_eq_true_eq] at this
    exact this

/-- The hypotheses of `C32_three_d_fails` are met. -/
example : Ready ex3C ex3Mdl ∧ ex3M.Pos ∧ ex3M.env = .ok ex3C.e ∧ ex3M.g.getD = 3 ∧ Hist ex3C Calm ex3Mdl ex3Mdl (Sol.init ex3Mdl) ∧ NoZeroPwf ex3Mdl ∧
    (∀ vect, isOk (assemble ex3C vect ex3Mdl (Sol.init ex3Mdl)) = true) :=
  ⟨ex3_ready, ex3M_pos, getOk_eq _ ex3M_ok, by decide +kernel, .start, noZeroB_ok (by decide +kernel), fun vect => by cases vect <;> decide +kernel⟩

end RF.Fdm
