import Verif.Fdm.PropsLevel
import Verif.Fdm.PropsShare
import Verif.Fdm.PropsTrend
import Verif.Fdm.PropsLinear
import Verif.Fdm.PropsReciprocal
import Verif.Fdm.PropsNet
/-!
# Inclined reservoirs, vectorised assembler, wells without target rates

What is proved for reservoirs with cells at one depth holds, with the vectorised assembler and wells that are given bottom-hole pressures, for cells at any depths: the simulation is that of the levelled
reservoir (C49). Corollaries for C39, C68, C69, C71, C79, C81, C86, C97, C98, C100 and C101.
-/
set_option linter.unusedSectionVars false
namespace RF.Fdm
open RF RF.Dims RF.Spec Finset

variable {K : Type} [Field K] [LinearOrder K] [IsStrictOrderedRing K]
variable {c : Ctx K} {m n m0 : Mdl K}

lemma level_of (hc : CtxOK c) : ∃ z : ℕ → K, (c.moved z c.e.grav).e.Flat ∧ ∀ m, Ready c m → Ready (c.moved z c.e.grav) m ∧
    ((∀ w, w ∈ m.wells → w.2.qsp = none) → ∀ f n t, run (c.moved z c.e.grav) f true n t m (Sol.init m) = run c f true n t m (Sol.init m)) := by
  obtain ⟨M, hM, he⟩ := hc.grid
  have hg : c.e.grav = M.grav := (env_ok he).2.2.2.2.2.2.2.2.2.2.2.1
  have he' : (M.moved (levelled M c.e) c.e.grav).env = .ok (c.moved (fun id => (levelled M c.e).getD id 0) c.e.grav).e := moved_env he _ _
  have hM' : (M.moved (levelled M c.e) c.e.grav).Pos := ⟨hM.geom, hM.sizes, hM.rock, hM.perm, hM.permB, hM.β, hM.mu, hM.B, hM.vconv, hM.dt, hM.phi, hM.ct⟩
  refine ⟨fun id => (levelled M c.e).getD id 0, .inr fun i hi => ?_, fun m hr => ⟨⟨⟨hc.lower, ⟨_, hM', he'⟩, hc.scale⟩, setup_moved hr.setup, hr.G, hr.cfg, hr.canon⟩, fun hw f n t => ?_⟩⟩
  · show (levelled M c.e).getD (c.e.at i) 0 = (levelled M c.e).getD (c.e.at 0) 0
    rw [levelled_inner he (at_mem c.e hi), levelled_inner he (at_mem c.e hc.wf.pos)]
  · exact C49_depths_ignored he _ _ he' rfl rfl rfl hr hw (fun b id T hb _ hf => by rw [levelled_head hM he (hr.started.mdl.bmem b hb) hf]) f n t

/-- **C39, inclined reservoirs, vectorised.** Two runs of the same length on the same grid, whatever the depths of its cells, with wells that are given bottom-hole pressures (not 0): raise boundary pressures and
rates, bottom-hole pressures and initial pressures, in any combination; then all pressures of all steps are at least as high. Missing: wells with target rates. -/
theorem C39_inclined_partial (hr : Ready c m) (hr' : Ready c n) (hx : Exact c.lin) (hw : PressureWells m) (hw' : PressureWells n) (hle : AtMost m n) (han : Anchored c.e m) (N : ℕ) (t t' : K)
    (hinit : c.e.comp = true → ∀ id, id ∈ c.e.ids → ∃ p q, m.initP id = some p ∧ n.initP id = some q ∧ p ≤ q) {f f' : ℕ}
    (hs : (run c f true N t m (Sol.init m)).2 = .ok ()) (hs' : (run c f' true N t' n (Sol.init n)).2 = .ok ()) :
    Below c (run c f true N t m (Sol.init m)).1.2 (run c f' true N t' n (Sol.init n)).1.2 := by
  obtain ⟨z, flat, h⟩ := level_of hr.ctx
  obtain ⟨r, e⟩ := h m hr
  obtain ⟨r', e'⟩ := h n hr'
  have e := e (fun w h => (hw w h).1) f N t
  have e' := e' (fun w h => (hw' w h).1) f' N t'
  rw [← e] at hs ⊢
  rw [← e'] at hs' ⊢
  exact C39_run_partial r r' hx hle (fun _ => flat) han N t t' hinit (pressure_runAll r hw true f N (.clock _ (Sol.init m).ctime .start)) (pressure_runAll r' hw' true f' N (.clock _ (Sol.init n).ctime .start)) hs hs'

/-- **C68, inclined reservoirs, vectorised.** Given pressures and initial pressures that differ by at most `δ` lead to pressures that differ by at most `δ`, at every step, whatever the depths of the cells. Missing: wells with target rates. -/
theorem C68_inclined_partial {δ : K} (hr : Ready c m) (hr' : Ready c n) (hx : Exact c.lin) (hw : PressureWells m) (hw' : PressureWells n) (hd : Within δ m n) (han : Anchored c.e m) (han' : Anchored c.e n) (N : ℕ) (t t' : K)
    (hinit : c.e.comp = true → ∀ id, id ∈ c.e.ids → ∃ p q, m.initP id = some p ∧ n.initP id = some q ∧ |p - q| ≤ δ) {f f' : ℕ}
    (hs : (run c f true N t m (Sol.init m)).2 = .ok ()) (hs' : (run c f' true N t' n (Sol.init n)).2 = .ok ()) :
    Close (fun _ => δ) c (run c f true N t m (Sol.init m)).1.2 (run c f' true N t' n (Sol.init n)).1.2 := by
  obtain ⟨z, flat, h⟩ := level_of hr.ctx
  obtain ⟨r, e⟩ := h m hr
  obtain ⟨r', e'⟩ := h n hr'
  have e := e (fun w h => (hw w h).1) f N t
  have e' := e' (fun w h => (hw' w h).1) f' N t'
  rw [← e] at hs ⊢
  rw [← e'] at hs' ⊢
  exact C68_run_partial r r' hx hd (fun _ => flat) han han' N t t' hinit (pressure_runAll r hw true f N (.clock _ (Sol.init m).ctime .start)) (pressure_runAll r' hw' true f' N (.clock _ (Sol.init n).ctime .start)) hs hs'

/-- **C69, inclined reservoirs, vectorised.** The initial state is forgotten at a geometric rate that depends only on grid, fluid, time step and on which conditions are pressures, whatever the depths of the cells.
Missing: wells with target rates. -/
theorem C69_inclined_partial (hm : Ready c m0) (hx : Exact c.lin) (hi : PressureGiven c.e m0) :
    ∃ A ρ : K, 0 ≤ ρ ∧ ρ < 1 ∧ 0 ≤ A ∧ ∀ (m n : Mdl K) (δ D : K) (f f' k : ℕ) (t t' : K), Shape m0 m → Shape m0 n → Ready c m → Ready c n → PressureWells m → PressureWells n → Within δ m n → 0 ≤ D → 0 ≤ δ →
      (c.e.comp = true → ∀ id, id ∈ c.e.ids → ∃ p q, m.initP id = some p ∧ n.initP id = some q ∧ |p - q| ≤ D) →
      (run c f true k t m (Sol.init m)).2 = .ok () → (run c f' true k t' n (Sol.init n)).2 = .ok () →
      Close (fun j => δ + A * ρ ^ j * D) c (run c f true k t m (Sol.init m)).1.2 (run c f' true k t' n (Sol.init n)).1.2 := by
  obtain ⟨z, flat, h⟩ := level_of hm.ctx
  obtain ⟨A, ρ, h1, h2, h3, key⟩ := C69_forget_partial (h m0 hm).1 hx (vect := true) (fun _ => flat) hi
  refine ⟨A, ρ, h1, h2, h3, fun m n δ D f f' k t t' s1 s2 hr hr' hw hw' hd hD hδ hinit hs hs' => ?_⟩
  obtain ⟨r, e⟩ := h m hr
  obtain ⟨r', e'⟩ := h n hr'
  have e := e (fun w h => (hw w h).1) f k t
  have e' := e' (fun w h => (hw' w h).1) f' k t'
  rw [← e] at hs ⊢
  rw [← e'] at hs' ⊢
  exact key m n δ D f f' k t t' s1 s2 r r' hd hD hδ hinit (pressure_runAll r hw true f k (.clock _ (Sol.init m).ctime .start)) (pressure_runAll r' hw' true f' k (.clock _ (Sol.init n).ctime .start)) hs hs'

/-- **C86, inclined reservoirs, vectorised.** If all pressures rise (fall) in one step they do so in every later one, whatever the depths of the cells. Missing: wells with target rates. -/
theorem C86_inclined_partial (hr : Ready c m) (hx : Exact c.lin) (hw : PressureWells m) (han : Anchored c.e m) {f k : ℕ} {t : K} (hs : (run c f true k t m (Sol.init m)).2 = .ok ())
    (up : Bool) (j : ℕ) (hj : Trend up c (run c f true k t m (Sol.init m)).1.2 j) : ∀ l, j ≤ l → l < k → Trend up c (run c f true k t m (Sol.init m)).1.2 l := by
  obtain ⟨z, flat, h⟩ := level_of hr.ctx
  obtain ⟨r, e⟩ := h m hr
  have e := e (fun w h => (hw w h).1) f k t
  rw [← e] at hs hj ⊢
  exact C86_trend_partial r hx (fun _ => flat) han (pressure_runAll r hw true f k (.clock _ (Sol.init m).ctime .start)) hs up j hj

lemma Raise.moved {lower : String → String} {e : Env K} {z : ℕ → K} {g : K} {s : Sol K} (h : Raise lower e true m n s) : Raise lower (e.moved z g) true m n s := by
  cases h with
  | press b v v' id T h1 h2 h3 h4 h5 => exact .press b v v' id T h1 h2 h3 h4 h5
  | flow b kind v v' id T h1 h2 h3 h4 h5 => exact .flow b kind v v' id T h1 h2 h3 h4 h5
  | held id w w' p p' h1 h2 h3 h4 h5 h6 => exact .held id w w' p p' h1 h2 h3 h4 h5 h6
  | rate id w w' q q' h1 h2 h3 h4 h5 h6 => exact .rate id w w' q q' h1 h2 h3 h4 h5 h6
  | both id w w' q q' p p' h1 h2 h3 h4 h5 h6 h7 h8 => exact .both id w w' q q' p p' h1 h2 h3 h4 h5 h6 h7 h8
  | init id p p' h1 h2 h3 h4 h5 => exact .init id p p' h1 h2 h3 h4 h5

/-- **C100 and C101 (the others), inclined reservoirs, vectorised.** Two runs of the same length on the same grid, whatever the depths of its cells, the second with conditions, bottom-hole pressures and initial
pressures that are nowhere lower and with at least one of them really higher. At every step, from the first on, every pressure is really higher in the second run, every well with the same settings in both has a lower rate,
and less flows in over every conducting boundary face with the same given pressure in both. Missing: wells with target rates. -/
theorem C100_inclined_partial (h : AtMost m n) (hr : Ready c m) (hr' : Ready c n) (hx : Exact c.lin) (hw : PressureWells m) (hw' : PressureWells n) (han : Anchored c.e m)
    (hinit : c.e.comp = true → ∀ id, id ∈ c.e.ids → ∃ p q, m.initP id = some p ∧ n.initP id = some q ∧ p ≤ q) {f f' N : ℕ} {t t' : K}
    (hs : (run c f true N t m (Sol.init m)).2 = .ok ()) (hs' : (run c f' true N t' n (Sol.init n)).2 = .ok ()) (hR : Raise c.lower c.e true m n (run c f true N t m (Sol.init m)).1.2) :
    (∀ k, 0 < k → k ≤ N → ∀ id, id ∈ c.e.ids → ∃ p q, rowAt (run c f true N t m (Sol.init m)).1.2.press k none id = some p ∧
      rowAt (run c f' true N t' n (Sol.init n)).1.2.press k none id = some q ∧ p < q) ∧
    (∀ k, 0 < k → k ≤ N → ∀ w, w ∈ m.wells → w ∈ n.wells → rowAt (run c f' true N t' n (Sol.init n)).1.2.rates k 0 w.1 < rowAt (run c f true N t m (Sol.init m)).1.2.rates k 0 w.1) ∧
    ∀ k, 0 < k → k ≤ N → ∀ b v id T, (b, "pressure", v) ∈ m.bdict → (b, "pressure", v) ∈ n.bdict → c.e.Face b id T → 0 < T →
      rowAt (run c f' true N t' n (Sol.init n)).1.2.rates k 0 b < rowAt (run c f true N t m (Sol.init m)).1.2.rates k 0 b := by
  obtain ⟨z, flat, hz⟩ := level_of hr.ctx
  obtain ⟨r, e⟩ := hz m hr
  obtain ⟨r', e'⟩ := hz n hr'
  have e := e (fun w h => (hw w h).1) f N t
  have e' := e' (fun w h => (hw' w h).1) f' N t'
  rw [← e] at hs hR ⊢
  rw [← e'] at hs' ⊢
  have P := pressure_runAll r hw true f N (.clock ((Sol.init m).nsteps + N) (Sol.init m).ctime .start)
  have P' := pressure_runAll r' hw' true f' N (.clock ((Sol.init n).nsteps + N) (Sol.init n).ctime .start)
  have st := C100_strict_partial h r r' hx (vect := true) (fun _ => flat) han hinit P P' hs hs' hR.moved
  have ot := C101_others_partial h r r' hx (vect := true) (fun _ => flat) han hinit P P' hs hs' hR.moved
  exact ⟨st, fun k h0 hk w h1 h2 => (ot.1 k h0 hk w h1 h2).2 ((Hist.pressureWells hr hw .start).2 w h1), ot.2⟩

/-- **C101 (the place itself), inclined reservoirs, vectorised.** Raise given pressures by at most `δ`; then no less flows in where the given pressure is higher by `δ`, whatever the depths of the cells. Missing: wells with target rates. -/
theorem C101_inclined_partial {δ : K} (h : AtMost m n) (hd : Within δ m n) (hr : Ready c m) (hr' : Ready c n) (hx : Exact c.lin) (hw : PressureWells m) (hw' : PressureWells n) (han : Anchored c.e m) (han' : Anchored c.e n)
    (hinit : c.e.comp = true → ∀ id, id ∈ c.e.ids → ∃ p q, m.initP id = some p ∧ n.initP id = some q ∧ p ≤ q ∧ q ≤ p + δ) {f f' N : ℕ} {t t' : K}
    (hs : (run c f true N t m (Sol.init m)).2 = .ok ()) (hs' : (run c f' true N t' n (Sol.init n)).2 = .ok ()) :
    (∀ k, 0 < k → k ≤ N → ∀ id w w' p, (id, w) ∈ m.wells → (id, w') ∈ n.wells → w.pwfsp = some p → w'.pwfsp = some (p + δ) →
      rowAt (run c f true N t m (Sol.init m)).1.2.rates k 0 id ≤ rowAt (run c f' true N t' n (Sol.init n)).1.2.rates k 0 id) ∧
    ∀ k, 0 < k → k ≤ N → ∀ b v id T, (b, "pressure", v) ∈ m.bdict → (b, "pressure", v + δ) ∈ n.bdict → c.e.Face b id T →
      rowAt (run c f true N t m (Sol.init m)).1.2.rates k 0 b ≤ rowAt (run c f' true N t' n (Sol.init n)).1.2.rates k 0 b := by
  obtain ⟨z, flat, hz⟩ := level_of hr.ctx
  obtain ⟨r, e⟩ := hz m hr
  obtain ⟨r', e'⟩ := hz n hr'
  have e := e (fun w h => (hw w h).1) f N t
  have e' := e' (fun w h => (hw' w h).1) f' N t'
  rw [← e] at hs ⊢
  rw [← e'] at hs' ⊢
  have key := C101_own_partial h hd r r' hx (vect := true) (fun _ => flat) han han' hinit (pressure_runAll r hw true f N (.clock _ (Sol.init m).ctime .start))
    (pressure_runAll r' hw' true f' N (.clock _ (Sol.init n).ctime .start)) hs hs'
  exact ⟨fun k h0 hk id w w' p h1 h2 h3 h4 => key.1 k h0 hk id w w' p h1 h2 (hw _ h1).1 h3 h4, key.2⟩

lemma pressure_steady (hr : Ready c m0) (hw : PressureWells m0) (vect : Bool) {m m' : Mdl K} {s s' : Sol K} (hh : Hist c Any m0 m s) (hh' : Hist c Any m0 m' s') : Steady vect m m' := by
  have keys : ∀ {m : Mdl K} {s : Sol K}, Hist c Any m0 m s → m.wells.map (fun x => (x.1, x.2.con)) = (m0.wells.map (·.1)).map fun i => (i, some .pwf) := fun {m s} hh => by
    rw [← (hr.inv hh).same.wells.keys, List.map_map]
    exact List.map_congr_left fun x hx => by rw [(Hist.pressureWells hr hw hh).2 x hx]; rfl
  refine ⟨by rw [keys hh, keys hh'], fun _ x hx _ => ?_⟩
  obtain ⟨y, hy, h1⟩ := (forall2_mem (hr.inv hh).same.wells).1 x hx
  rw [h1.2.2.1]
  exact (hw y hy).2

lemma steady_solveAll (hr : Ready c m0) (hw : PressureWells m0) (vect : Bool) (f : ℕ) : ∀ {m : Mdl K} {s : Sol K}, Hist c Any m0 m s → SolveAll c Steady f vect m s := by
  induction f with
  | zero => exact fun _ => trivial
  | succ f ih =>
    intro m s hh m' s' again ha
    cases again
    · exact ⟨pressure_steady hr hw vect hh (.step hh ha trivial), fun h => by cases h⟩
    · exact ⟨pressure_steady hr hw vect hh (.again hh ha trivial), fun _ => ih (.again hh ha trivial)⟩

lemma steady_runAll (hr : Ready c m0) (hw : PressureWells m0) (vect : Bool) (f n : ℕ) : ∀ {m : Mdl K} {s : Sol K}, Hist c Any m0 m s → RunAll c Steady f vect n m s := by
  induction n with
  | zero => exact fun _ => trivial
  | succ n ih =>
    exact fun hh => ⟨steady_solveAll hr hw vect f hh, fun m' s' hs => ih (hh.solve hr.ctx.lower hr.ctx.wf hr.started.mdl (solveAll_any _ _ _ _ _) hs)⟩

/-- **C71, inclined reservoirs, vectorised.** Combine the data of any number of models with weights that add up to 1; all stored pressures are those of the models combined with the same weights, whatever the depths of
the cells. Missing: wells with target rates, weights that do not add up to 1. -/
theorem C71_inclined_partial {ι : Type} {S : Finset ι} {a : ι → K} {M : ι → Mdl K} {f : ℕ} {F : ι → ℕ} (ha : ∑ i ∈ S, a i = 1) (hr : Ready c m) (hR : ∀ i, i ∈ S → Ready c (M i)) (hx : Exact c.lin)
    (hw : PressureWells m) (hW : ∀ i, i ∈ S → PressureWells (M i)) (hc : Combined S a M m) (han : Anchored c.e m) (k : ℕ) (t : K) (T : ι → K)
    (hinit : c.e.comp = true → ∀ id, id ∈ c.e.ids → ∃ (p : K) (q : ι → K), m.initP id = some p ∧ (∀ i, i ∈ S → (M i).initP id = some (q i)) ∧ p = ∑ i ∈ S, a i * q i)
    (hs : (run c f true k t m (Sol.init m)).2 = .ok ()) (hS : ∀ i, i ∈ S → (run c (F i) true k (T i) (M i) (Sol.init (M i))).2 = .ok ()) :
    Superposed S a c (fun i => (run c (F i) true k (T i) (M i) (Sol.init (M i))).1.2) (run c f true k t m (Sol.init m)).1.2 := by
  obtain ⟨z, flat, hz⟩ := level_of hr.ctx
  obtain ⟨r, e⟩ := hz m hr
  have e := e (fun w h => (hw w h).1) f k t
  have eM : ∀ i, i ∈ S → run (c.moved z c.e.grav) (F i) true k (T i) (M i) (Sol.init (M i)) = run c (F i) true k (T i) (M i) (Sol.init (M i)) := fun i hi =>
    (hz (M i) (hR i hi)).2 (fun w h => (hW i hi w h).1) (F i) k (T i)
  rw [← e] at hs ⊢
  have key := C71_run_partial (c := c.moved z c.e.grav) (vect := true) (.inl ha) r (fun i hi => (hz (M i) (hR i hi)).1) hx hc (fun _ => flat) han k t T hinit
    (steady_runAll r hw true f k (.clock _ (Sol.init m).ctime .start)) (fun i hi => steady_runAll (hz (M i) (hR i hi)).1 (hW i hi) true (F i) k (.clock _ (Sol.init (M i)).ctime .start)) hs
    (fun i hi => by rw [eM i hi]; exact hS i hi)
  refine ⟨fun i hi => by have := key.1 i hi; beta_reduce at this; rw [eM i hi] at this; exact this, fun j hj h0 id hid => ?_⟩
  obtain ⟨p, q, h1, h2, h3⟩ := key.2 j hj h0 id hid
  exact ⟨p, q, h1, fun i hi => by have := h2 i hi; beta_reduce at this; rw [eM i hi] at this; exact this, h3⟩

/-- **C79, inclined reservoirs, vectorised.** Reciprocity of changed boundary pressures, rates, gradients and bottom-hole pressures, whatever the depths of the cells. Missing: wells with target rates. -/
theorem C79_inclined_partial {m1 m2 : Mdl K} {f f1 f2 N : ℕ} {el el1 el2 : K} (hr : Ready c m) (hr1 : Ready c m1) (hr2 : Ready c m2) (hx : Exact c.lin) (h1 : Shape m m1) (h2 : Shape m m2)
    (hw : PressureWells m) (hw1 : PressureWells m1) (hw2 : PressureWells m2) (hinit : c.e.comp = true → ∀ id, id ∈ c.e.ids → m1.initP id = m.initP id ∧ m2.initP id = m.initP id)
    (hs : (run c f true N el m (Sol.init m)).2 = .ok ()) (hs1 : (run c f1 true N el1 m1 (Sol.init m1)).2 = .ok ()) (hs2 : (run c f2 true N el2 m2 (Sol.init m2)).2 = .ok ()) (k : ℕ) (h0 : 0 < k) (hk : k ≤ N) :
    ∃ p p1 p2 : ℕ → K, (∀ id, id ∈ c.e.ids → rowAt (run c f true N el m (Sol.init m)).1.2.press k none id = some (p id) ∧ rowAt (run c f1 true N el1 m1 (Sol.init m1)).1.2.press k none id = some (p1 id) ∧
      rowAt (run c f2 true N el2 m2 (Sol.init m2)).1.2.press k none id = some (p2 id)) ∧
      workAny c m m2 (fun id => p1 id - p id) = workAny c m m1 (fun id => p2 id - p id) := by
  obtain ⟨z, flat, h⟩ := level_of hr.ctx
  obtain ⟨r, e⟩ := h m hr
  obtain ⟨r1, e1⟩ := h m1 hr1
  obtain ⟨r2, e2⟩ := h m2 hr2
  have e := e (fun w h => (hw w h).1) f N el
  have e1 := e1 (fun w h => (hw1 w h).1) f1 N el1
  have e2 := e2 (fun w h => (hw2 w h).1) f2 N el2
  rw [← e] at hs ⊢
  rw [← e1] at hs1 ⊢
  rw [← e2] at hs2 ⊢
  exact C79_gradients_partial r r1 r2 hx h1 h2 flat hinit (steady_runAll r hw true f N (.clock _ (Sol.init m).ctime .start)) (steady_runAll r1 hw1 true f1 N (.clock _ (Sol.init m1).ctime .start))
    (steady_runAll r2 hw2 true f2 N (.clock _ (Sol.init m2).ctime .start)) hs hs1 hs2 k h0 hk

/-- **C98, inclined reservoirs, vectorised.** Only the net rate given at the faces of a cell matters, whatever the depths of the cells. Missing: wells with target rates. -/
theorem C98_inclined_partial {m' : Mdl K} (h : SameNet c.lower c.e true m m') (hr : Ready c m) (hr' : Ready c m') (hx : Exact c.lin) (hw : PressureWells m) (hw' : PressureWells m') (han : Anchored c.e m)
    {f f' N : ℕ} {t t' : K} (hs : (run c f true N t m (Sol.init m)).2 = .ok ()) (hs' : (run c f' true N t' m' (Sol.init m')).2 = .ok ()) :
    (run c f true N t m (Sol.init m)).1.2.tstep = N ∧ (run c f' true N t' m' (Sol.init m')).1.2.tstep = N ∧
    (∀ k, k ≤ N → ∀ id, id ∈ c.e.ids → rowAt (run c f true N t m (Sol.init m)).1.2.press k none id = rowAt (run c f' true N t' m' (Sol.init m')).1.2.press k none id) ∧
    (∀ k, 0 < k → k ≤ N → ∀ b v id T, (b, "pressure", v) ∈ m.bdict → c.e.Face b id T →
      rowAt (run c f true N t m (Sol.init m)).1.2.rates k 0 b = rowAt (run c f' true N t' m' (Sol.init m')).1.2.rates k 0 b) ∧
    ∀ k, 0 < k → k ≤ N → ∀ w, w ∈ m.wells → rowAt (run c f true N t m (Sol.init m)).1.2.rates k 0 w.1 = rowAt (run c f' true N t' m' (Sol.init m')).1.2.rates k 0 w.1 := by
  obtain ⟨z, flat, hz⟩ := level_of hr.ctx
  obtain ⟨r, e⟩ := hz m hr
  obtain ⟨r', e'⟩ := hz m' hr'
  have e := e (fun w h => (hw w h).1) f N t
  have e' := e' (fun w h => (hw' w h).1) f' N t'
  rw [← e] at hs ⊢
  rw [← e'] at hs' ⊢
  have held : ∀ {n : Mdl K}, Ready c n → PressureWells n → ∀ w, w ∈ n.wells → w.2.con = some .pwf := fun hr hw => (Hist.pressureWells hr hw .start).2
  have key := C98_net_partial (c := c.moved z c.e.grav) (vect := true) ⟨h.press, h.held, h.net, h.init⟩ r r' hx (fun _ => flat) han (pressure_runAll r hw true f N (.clock _ (Sol.init m).ctime .start))
    (pressure_runAll r' hw' true f' N (.clock _ (Sol.init m').ctime .start)) hs hs' (fun _ _ _ w hw1 hc => by rw [held hr hw w hw1] at hc; cases hc) (fun _ _ _ w hw1 hc => by rw [held hr' hw' w hw1] at hc; cases hc)
  exact ⟨key.1, key.2.1, key.2.2.1, key.2.2.2.1, fun k h0 hk w hw1 => key.2.2.2.2 k h0 hk w hw1 (held hr hw w hw1)⟩

lemma setUp_moved {lower : String → String} {e : Env K} {z : ℕ → K} {g : K} (pi : Option K) (l : List (SetCall K)) : setUp lower (e.moved z g) pi l = setUp lower e pi l := by
  have : SetCall.make lower (e.moved z g) = SetCall.make lower e := by
    funext m x
    cases x with
    | bounds b h => simp only [SetCall.make, setBoundaries_moved]
    | well id a => rfl
  unfold setUp
  rw [this]
  rfl

/-- **C81, inclined reservoirs, vectorised.** The order of the calls that set up a model does not matter, whatever the depths of the cells. Missing: wells with target rates. -/
theorem C81_inclined_partial {l l' : List (SetCall K)} {pi : Option K} (h : setUp c.lower c.e pi l = .ok m) (hl : SameCalls l l') (hr : Ready c m) (hx : Exact c.lin) (hw : PressureWells m) (han : Anchored c.e m) :
    ∃ m', setUp c.lower c.e pi l' = .ok m' ∧ Ready c m' ∧ ∀ (f f' N : ℕ) (t t' : K), (run c f true N t m (Sol.init m)).2 = .ok () → (run c f' true N t' m' (Sol.init m')).2 = .ok () →
      (run c f true N t m (Sol.init m)).1.2.tstep = N ∧ (run c f' true N t' m' (Sol.init m')).1.2.tstep = N ∧
      (∀ k, k ≤ N → ∀ id, rowAt (run c f true N t m (Sol.init m)).1.2.press k none id = rowAt (run c f' true N t' m' (Sol.init m')).1.2.press k none id) ∧
      (∀ k, 0 < k → k ≤ N → ∀ id, rowAt (run c f true N t m (Sol.init m)).1.2.rates k 0 id = rowAt (run c f' true N t' m' (Sol.init m')).1.2.rates k 0 id) ∧
      ∀ w, w ∈ m.wells → (run c f true N t m (Sol.init m)).1.1.reported w.1 = (run c f' true N t' m' (Sol.init m')).1.1.reported w.1 := by
  obtain ⟨z, flat, hz⟩ := level_of hr.ctx
  obtain ⟨r, e⟩ := hz m hr
  obtain ⟨m1, h1, h2⟩ := C81_setup c.lower hr.ctx.wf h hl
  have hw1 : PressureWells m1 := fun w hw' => hw w (h2.wells.mem_iff.2 hw')
  obtain ⟨m', h3, r', key⟩ := C81_order_partial (c := c.moved z c.e.grav) (vect := true) (by rw [← setUp_moved (z := z) (g := c.e.grav)] at h; exact h) hl r hx (fun _ => flat) han
  have h3 : setUp c.lower c.e pi l' = .ok m' := by rw [← setUp_moved (z := z) (g := c.e.grav)]; exact h3
  obtain rfl : m1 = m' := by rw [h1] at h3; exact Except.ok.inj h3
  have hr' := h2.ready hr (steps_setup l' (.init pi) h1)
  refine ⟨m1, h1, hr', fun f f' N t t' hs hs' => ?_⟩
  have e := e (fun w h => (hw w h).1) f N t
  have e' := (hz m1 hr').2 (fun w h => (hw1 w h).1) f' N t'
  rw [← e] at hs ⊢
  rw [← e'] at hs' ⊢
  exact key f f' N t t' (pressure_runAll r hw true f N (.clock _ (Sol.init m).ctime .start)) (pressure_runAll r' hw1 true f' N (.clock _ (Sol.init m1).ctime .start)) hs hs'

/-- **C97, inclined reservoirs, vectorised.** Conditions of rate or gradient 0 change nothing, whatever the depths of the cells. Missing: wells with target rates, shut-in wells among them. -/
theorem C97_inclined_partial {l : List (SetCall K)} {pi : Option K} (h : setUp c.lower c.e pi l = .ok m) (h1 : (about none l).length ≤ 1) (hr : Ready c m) (hx : Exact c.lin) (hw : PressureWells m) (han : Anchored c.e m) :
    ∃ m', setUp c.lower c.e pi (spared l) = .ok m' ∧ Ready c m' ∧ ∀ (f f' N : ℕ) (t t' : K), (run c f true N t m (Sol.init m)).2 = .ok () → (run c f' true N t' m' (Sol.init m')).2 = .ok () →
      (run c f true N t m (Sol.init m)).1.2.tstep = N ∧ (run c f' true N t' m' (Sol.init m')).1.2.tstep = N ∧
      (∀ k, k ≤ N → ∀ id, rowAt (run c f true N t m (Sol.init m)).1.2.press k none id = rowAt (run c f' true N t' m' (Sol.init m')).1.2.press k none id) ∧
      (∀ k, 0 < k → k ≤ N → ∀ id, rowAt (run c f true N t m (Sol.init m)).1.2.rates k 0 id = rowAt (run c f' true N t' m' (Sol.init m')).1.2.rates k 0 id) ∧
      ∀ w, w ∈ m.wells → (run c f true N t m (Sol.init m)).1.1.reported w.1 = (run c f' true N t' m' (Sol.init m')).1.1.reported w.1 := by
  obtain ⟨z, flat, hz⟩ := level_of hr.ctx
  obtain ⟨r, e⟩ := hz m hr
  obtain ⟨m1, D, E, h2, h3⟩ := C97_setup c.lower hr.ctx.wf h h1 hr.canon
  have hw1 : PressureWells m1 := fun w hw' => hw w (h3.wells.mem_iff.2 (List.mem_append_left _ hw'))
  obtain ⟨m', h4, r', key⟩ := C97_run_partial (c := c.moved z c.e.grav) (vect := true) (by rw [← setUp_moved (z := z) (g := c.e.grav)] at h; exact h) h1 r hx (fun _ => flat) han
  have h4 : setUp c.lower c.e pi (spared l) = .ok m' := by rw [← setUp_moved (z := z) (g := c.e.grav)]; exact h4
  obtain rfl : m1 = m' := by rw [h2] at h4; exact Except.ok.inj h4
  have hr' := h3.ready hr (steps_setup _ (.init pi) h2)
  refine ⟨m1, h2, hr', fun f f' N t t' hs hs' => ?_⟩
  have e := e (fun w h => (hw w h).1) f N t
  have e' := (hz m1 hr').2 (fun w h => (hw1 w h).1) f' N t'
  rw [← e] at hs ⊢
  rw [← e'] at hs' ⊢
  have all : ∀ w, w ∈ m.wells → w ∈ m1.wells := fun w hw' => by
    rcases List.mem_append.1 (h3.wells.mem_iff.1 hw') with H | H
    · exact H
    · have := (h3.idle w H).2
      rw [(hw w hw').1] at this; cases this
  have := key f f' N t t' (pressure_runAll r hw true f N (.clock _ (Sol.init m).ctime .start)) (pressure_runAll r' hw1 true f' N (.clock _ (Sol.init m1).ctime .start)) hs hs'
    (fun w hw' hn => by rw [show dictGet m1.wells w.1 = some w.2 from dictGet_of_mem hr'.setup.inv.wkeys (all w hw')] at hn; cases hn)
  exact ⟨this.1, this.2.1, this.2.2.1, this.2.2.2.1, fun w hw' => this.2.2.2.2.1 w (all w hw')⟩

/-! ## Instances -/

/-- The same slope with a pressure of 12 on the left. -/
def exHillUp : Mdl ℚ := exMdl true 3 [4, 5, 7, 9] (some 8) [(0, "pressure", 12), (3, "rate", 0)] [(2, { pwf := some 2, r := some 1 })]

lemma exHillUp_ready : Ready (exC true 3 [4, 5, 7, 9]) exHillUp := exMdl_ready (by decide +kernel)

/-- The hypotheses of the theorems are met on a slope that is not flat, and there is a really higher condition. -/
example : Ready (exC true 3 [4, 5, 7, 9]) exHill ∧ Ready (exC true 3 [4, 5, 7, 9]) exHillUp ∧ ¬ (exC true 3 [4, 5, 7, 9]).e.Flat ∧ Exact (exC true 3 [4, 5, 7, 9]).lin ∧ PressureWells exHill ∧ PressureWells exHillUp ∧
    AtMost exHill exHillUp ∧ Within 2 exHill exHillUp ∧ Anchored (exC true 3 [4, 5, 7, 9]).e exHill ∧ Anchored (exC true 3 [4, 5, 7, 9]).e exHillUp ∧ Shape exHill exHillUp ∧ Shape exHill exHill ∧
    PressureGiven (exC true 3 [4, 5, 7, 9]).e exHill ∧
    (∀ id, id ∈ (exC true 3 [4, 5, 7, 9]).e.ids → exHill.initP id = some 8 ∧ exHillUp.initP id = some 8) ∧
    (run (exC true 3 [4, 5, 7, 9]) 10 true 3 0 exHill (Sol.init exHill)).2 = .ok () ∧ (run (exC true 3 [4, 5, 7, 9]) 10 true 3 0 exHillUp (Sol.init exHillUp)).2 = .ok () ∧
    Raise (exC true 3 [4, 5, 7, 9]).lower (exC true 3 [4, 5, 7, 9]).e true exHill exHillUp (run (exC true 3 [4, 5, 7, 9]) 10 true 3 0 exHill (Sol.init exHill)).1.2 := by
  have hp : ∀ m : Mdl ℚ, (m.wells.all fun w => decide (w.2.qsp = none ∧ w.2.pwfsp ≠ some 0)) = true → PressureWells m := fun m h => all_of h
  refine ⟨exHill_ready, exHillUp_ready, ?_, cramer_exact, hp _ (by decide +kernel), hp _ (by decide +kernel), ⟨by decide +kernel, by decide +kernel⟩, ⟨by decide +kernel, by decide +kernel⟩, .inl (by decide +kernel),
    .inl (by decide +kernel), ⟨by decide +kernel, by decide +kernel⟩, ⟨by decide +kernel, by decide +kernel⟩, .inr ?_, by decide +kernel, isOk_unit (by decide +kernel), isOk_unit (by decide +kernel), ?_⟩
  · rintro (h | h)
    · exact absurd h (by decide +kernel)
    · exact absurd (h 1 (by decide +kernel)) (by decide +kernel)
  · have : (exHill.wells.any fun w => decide (w.2.con = some .pwf)) = true := by decide +kernel
    simpa using this
  · exact .press 0 10 12 1 1 (by decide +kernel) (by decide +kernel) (by norm_num) (by unfold Env.Face; decide +kernel) one_pos

/-- The same slope with a pressure of 14 on the left, which combines the two others with weights -1 and 2. -/
def exHillTop : Mdl ℚ := exMdl true 3 [4, 5, 7, 9] (some 8) [(0, "pressure", 14), (3, "rate", 0)] [(2, { pwf := some 2, r := some 1 })]

/-- Superposition applies on the slope. -/
example : Superposed univ ![-1, 2] (exC true 3 [4, 5, 7, 9]) (fun i => (run (exC true 3 [4, 5, 7, 9]) 10 true 3 0 (![exHill, exHillUp] i) (Sol.init (![exHill, exHillUp] i))).1.2)
    (run (exC true 3 [4, 5, 7, 9]) 10 true 3 0 exHillTop (Sol.init exHillTop)).1.2 := by
  have hp : ∀ m : Mdl ℚ, (m.wells.all fun w => decide (w.2.qsp = none ∧ w.2.pwfsp ≠ some 0)) = true → PressureWells m := fun m h => all_of h
  have hi : ∀ id, id ∈ (exC true 3 [4, 5, 7, 9]).e.ids → exHill.initP id = some 8 ∧ exHillUp.initP id = some 8 ∧ exHillTop.initP id = some 8 := by decide +kernel
  refine C71_inclined_partial (F := fun _ => 10) (T := fun _ => 0) (by decide +kernel) (exMdl_ready (by decide +kernel)) (fun i _ => ?_) cramer_exact (hp _ (by decide +kernel)) (fun i _ => ?_)
    ⟨fun i _ => ?_, by decide +kernel, by decide +kernel, by decide +kernel⟩ (.inl (by decide +kernel)) 3 0 (fun _ id hid => ⟨8, fun _ => 8, (hi id hid).2.2, fun i _ => ?_, by decide +kernel⟩)
    (isOk_unit (by decide +kernel)) (fun i _ => ?_)
  · fin_cases i
    · exact exHill_ready
    · exact exHillUp_ready
  · fin_cases i
    · exact hp _ (by decide +kernel)
    · exact hp _ (by decide +kernel)
  · fin_cases i
    · exact ⟨by decide +kernel, by decide +kernel⟩
    · exact ⟨by decide +kernel, by decide +kernel⟩
  · fin_cases i
    · exact (hi id hid).1
    · exact (hi id hid).2.1
  · fin_cases i
    · exact isOk_unit (by decide +kernel)
    · exact isOk_unit (by decide +kernel)

/-- The same slope with the well at 3. -/
def exHillWell : Mdl ℚ := exMdl true 3 [4, 5, 7, 9] (some 8) [(0, "pressure", 10), (3, "rate", 0)] [(2, { pwf := some 3, r := some 1 })]

/-- Reciprocity of the boundary on the left and the well applies on the slope. -/
example (k : ℕ) (h0 : 0 < k) (hk : k ≤ 3) : ∃ p p1 p2 : ℕ → ℚ, (∀ id, id ∈ (exC true 3 [4, 5, 7, 9]).e.ids → rowAt (run (exC true 3 [4, 5, 7, 9]) 10 true 3 0 exHill (Sol.init exHill)).1.2.press k none id = some (p id) ∧
      rowAt (run (exC true 3 [4, 5, 7, 9]) 10 true 3 0 exHillUp (Sol.init exHillUp)).1.2.press k none id = some (p1 id) ∧
      rowAt (run (exC true 3 [4, 5, 7, 9]) 10 true 3 0 exHillWell (Sol.init exHillWell)).1.2.press k none id = some (p2 id)) ∧
      workAny (exC true 3 [4, 5, 7, 9]) exHill exHillWell (fun id => p1 id - p id) = workAny (exC true 3 [4, 5, 7, 9]) exHill exHillUp (fun id => p2 id - p id) := by
  have hp : ∀ m : Mdl ℚ, (m.wells.all fun w => decide (w.2.qsp = none ∧ w.2.pwfsp ≠ some 0)) = true → PressureWells m := fun m h => all_of h
  exact C79_inclined_partial exHill_ready exHillUp_ready (exMdl_ready (by decide +kernel)) cramer_exact ⟨by decide +kernel, by decide +kernel⟩ ⟨by decide +kernel, by decide +kernel⟩ (hp _ (by decide +kernel))
    (hp _ (by decide +kernel)) (hp _ (by decide +kernel)) (fun _ => by decide +kernel) (isOk_unit (by decide +kernel)) (isOk_unit (by decide +kernel)) (isOk_unit (by decide +kernel)) k h0 hk

/-- The same slope with a rate of -2 on the right, given as a rate and as a gradient. -/
def exHillRate : Mdl ℚ := exMdl true 3 [4, 5, 7, 9] (some 8) [(0, "pressure", 10), (3, "rate", -2)] [(2, { pwf := some 2, r := some 1 })]

def exHillGrad : Mdl ℚ := exMdl true 3 [4, 5, 7, 9] (some 8) [(3, "gradient", -2), (0, "pressure", 10)] [(2, { pwf := some 2, r := some 1 })]

/-- C98 applies on the slope. -/
example : ∀ k, k ≤ 3 → ∀ id, id ∈ (exC true 3 [4, 5, 7, 9]).e.ids → rowAt (run (exC true 3 [4, 5, 7, 9]) 10 true 3 0 exHillRate (Sol.init exHillRate)).1.2.press k none id =
    rowAt (run (exC true 3 [4, 5, 7, 9]) 10 true 3 0 exHillGrad (Sol.init exHillGrad)).1.2.press k none id := by
  have hp : ∀ m : Mdl ℚ, (m.wells.all fun w => decide (w.2.qsp = none ∧ w.2.pwfsp ≠ some 0)) = true → PressureWells m := fun m h => all_of h
  exact (C98_inclined_partial ⟨by decide +kernel, by decide +kernel, by decide +kernel, by decide +kernel⟩ (exMdl_ready (by decide +kernel)) (exMdl_ready (by decide +kernel)) cramer_exact (hp _ (by decide +kernel))
    (hp _ (by decide +kernel)) (.inl (by decide +kernel)) (isOk_unit (by decide +kernel)) (isOk_unit (by decide +kernel))).2.2.1

/-- Set-up calls for the slope: a closed face on the right, two wells. -/
def exHillCalls : List (SetCall ℚ) := [.bounds [(0, "pressure", 10), (3, "rate", 0)] (by decide), .well 1 { pwf := some 4, r := some 1 }, .well 2 { pwf := some 2, r := some 1 }]

/-- The same calls in another order. -/
def exHillCalls' : List (SetCall ℚ) := [.well 2 { pwf := some 2, r := some 1 }, .bounds [(3, "rate", 0), (0, "pressure", 10)] (by decide), .well 1 { pwf := some 4, r := some 1 }]

lemma exHillCalls_ok : isOk (setUp (exC true 3 [4, 5, 7, 9]).lower (exC true 3 [4, 5, 7, 9]).e (some 8) exHillCalls) = true := by decide +kernel

lemma exHillCalls_ready : Ready (exC true 3 [4, 5, 7, 9]) (getOk _ exHillCalls_ok) := by
  refine ⟨exC_ok _ _ _, steps_setup _ (.init _) (getOk_eq _ exHillCalls_ok), ?_, ?_, ?_⟩
  · intro x G hx hG
    have : ∀ x, x ∈ (getOk _ exHillCalls_ok).wells → 0 < x.2.G.getD 0 := by decide +kernel
    have := this x hx
    rw [hG] at this; exact this
  · intro x hx
    have : ∀ x, x ∈ (getOk _ exHillCalls_ok).wells → x.2.con ≠ none := by decide +kernel
    exact this x hx
  · intro x hx
    have : ∀ x, x ∈ (getOk _ exHillCalls_ok).bdict → (x.2.1 ∈ ["pressure", "press", "p"] ↔ x.2.1 = "pressure") := by decide +kernel
    exact this x hx

/-- The hypotheses of C81 and C97 are met on the slope; the calls come in another order, and one condition is spared; all runs go through. -/
example : SameCalls exHillCalls exHillCalls' ∧ PressureWells (getOk _ exHillCalls_ok) ∧ Anchored (exC true 3 [4, 5, 7, 9]).e (getOk _ exHillCalls_ok) ∧ (about none exHillCalls).length = 1 ∧
    (getOk _ exHillCalls_ok).bdict.length = 2 ∧ (run (exC true 3 [4, 5, 7, 9]) 10 true 2 0 (getOk _ exHillCalls_ok) (Sol.init (getOk _ exHillCalls_ok))).2 = .ok () ∧
    (∃ m', setUp (exC true 3 [4, 5, 7, 9]).lower (exC true 3 [4, 5, 7, 9]).e (some 8) exHillCalls' = .ok m' ∧ (run (exC true 3 [4, 5, 7, 9]) 10 true 2 0 m' (Sol.init m')).2 = .ok ()) ∧
    ∃ m', setUp (exC true 3 [4, 5, 7, 9]).lower (exC true 3 [4, 5, 7, 9]).e (some 8) (spared exHillCalls) = .ok m' ∧ m'.bdict.length = 1 ∧ (run (exC true 3 [4, 5, 7, 9]) 10 true 2 0 m' (Sol.init m')).2 = .ok () :=
  ⟨sameCalls_of (by decide +kernel), all_of (p := fun w : ℕ × Well ℚ => w.2.qsp = none ∧ w.2.pwfsp ≠ some 0) (by decide +kernel), .inl (by decide +kernel), by decide +kernel, by decide +kernel,
    isOk_unit (by decide +kernel), ⟨_, getOk_eq (setUp (exC true 3 [4, 5, 7, 9]).lower (exC true 3 [4, 5, 7, 9]).e (some 8) exHillCalls') (by decide +kernel), isOk_unit (by decide +kernel)⟩,
    ⟨_, getOk_eq (setUp (exC true 3 [4, 5, 7, 9]).lower (exC true 3 [4, 5, 7, 9]).e (some 8) (spared exHillCalls)) (by decide +kernel), by decide +kernel, isOk_unit (by decide +kernel)⟩⟩

end RF.Fdm
