import Verif.Fdm.PropsConverge
import Verif.Fdm.PropsTrend
import Verif.Fdm.PropsPseudo
import Verif.Analytic.Euler
/-!
# C89: what the time step is for

For every reservoir with compressible fluid there is exactly one way in which the pressures of its cells can change continuously in time such that every cell stores what flows into it. What a run
keeps differs from it by at most a constant times the length of the time step.
-/
set_option linter.unusedSectionVars false
namespace RF.Fdm
open RF RF.Dims Finset

/-! ## Specification -/

/-- What a cell stores per unit of pressure: volume times porosity times compressibility, in surface units. -/
noncomputable def store (M : GridModel ℝ) (id : ℕ) : ℝ := M.geom.V.getD id 0 * M.phi.getD id 0 * M.ct / (M.vconv * M.B)

/-- What flows from outside into the cell at position `i` at cell pressure `p`: over boundaries, and from wells that keep their target rate as long as their limit allows. -/
noncomputable def supply (e : Env ℝ) (m0 : Mdl ℝ) (p : ℝ) (i : ℕ) : ℝ :=
  (m0.bdict.map (boundaryIn e (givenRate m0) p i)).sum + (m0.wells.map fun w => if w.1 = e.at i then bestRate e w.2 p else 0).sum

/-- Pressures `u τ id` that start from the initial ones and change continuously in time such that at every time every cell stores what flows into it. -/
structure Evolution (M : GridModel ℝ) (e : Env ℝ) (vect : Bool) (m0 : Mdl ℝ) (u : ℝ → ℕ → ℝ) : Prop where
  start : ∀ id, id ∈ e.ids → m0.initP id = some (u 0 id)
  law : ∀ τ, 0 ≤ τ → ∀ i, i < e.n → ∃ v, HasDerivWithinAt (fun τ => u τ (e.at i)) v (Set.Ici 0) τ ∧
    store M (e.at i) * v = flowIn e (e.trans vect) (fun j => u τ (e.at j)) i + supply e m0 (u τ (e.at i)) i

/-- A step with the given assembler (the vectorised one without gravity between cells) in which no well leaves its limit. -/
def Paced (e : Env ℝ) (vect : Bool) : Bool → Mdl ℝ → Mdl ℝ → Prop := fun v m m' => v = vect ∧ (vect = true → e.Flat) ∧ Calm v m m'

/-! ## Every step -/

lemma outside_best {c : Ctx ℝ} {m0 m m' : Mdl ℝ} {s s' : Sol ℝ} {vect : Bool} (hr : Ready c m0) (hg : vect = true → RatesGiven m0) (hh : Hist c Calm m0 m s)
    (hat : attempt c vect m s = .ok (m', s', false)) (hP : Calm vect m m') {i : ℕ} (hin : i < c.e.n) :
    outsideIn c.e m (usedRate vect m s) (s'.inner c.e s'.tstep i) i = supply c.e m0 (s'.inner c.e s'.tstep i) i := by
  obtain ⟨hi, hq⟩ := hr.calm hh
  have he := hr.ctx.wf
  obtain ⟨n1, t1, A, d, x, p, r', ps, ha⟩ := attempted hr.ctx.lower he hi hat
  have hdone := (ha.done rfl).1
  unfold outsideIn supply
  congr 1
  · rw [hi.same.bdict]
    congr 1
    refine List.map_congr_left fun b hb => ?_
    by_cases hp : b.2.1 = "pressure"
    · unfold boundaryIn; simp only [hp, if_true]
    · have hu : usedRate vect m s b.1 = givenRate m0 b.1 := by
        have hgv : givenRate m0 b.1 = b.2.2 := by unfold givenRate; rw [dictGet_of_mem hr.started.mdl.bkeys hb]; rfl
        rw [usedRate_eq he hr.started.mdl hi vect hb hp, hgv]
        cases vect
        · rfl
        · exact hg rfl b hb hp
      unfold boundaryIn; rw [hu]
  · refine (forall2_map_sum hi.same.wells fun x w hw h => ?_).symm
    unfold wellIn
    rw [h.1]
    split_ifs with hid
    · obtain ⟨y, hy, h7, bb, h8⟩ := (forall2_mem hdone).2 w hw
      have hpx : (p w.1).getD 0 = s'.inner c.e s'.tstep i := by
        have := ha.inner he hi hin
        rw [this, ha.peq, h.1, hid, newRow_at he.nodup _ _ hin]; rfl
      rw [hpx] at h8
      have hrel := hP.1 w y hw hy h7.symm
      rw [(done_flow he.B he.mu (hi.mdl.well w hw) (hq.cfg w hw) (hq.tame w hw) h8 hrel).1, done_best he.B he.mu (hi.mdl.well w hw) (hq.cfg w hw) (hq.tame w hw) h8 hrel]
      unfold bestRate windex
      rw [h.2.1, h.2.2.1, h.2.2.2]
    · rfl

lemma paced_calm {e : Env ℝ} {vect v : Bool} {m m' : Mdl ℝ} (h : Paced e vect v m m') : Calm v m m' := h.2.2

/-- The balance of every cell at every step of a history. -/
lemma hist_supply {c : Ctx ℝ} {m0 m : Mdl ℝ} {s : Sol ℝ} {vect : Bool} (hr : Ready c m0) (hx : Exact c.lin) (hg : vect = true → RatesGiven m0) (hh : Hist c (Paced c.e vect) m0 m s) :
    ∀ t, t < s.tstep → ∀ i, i < c.e.n →
      c.e.rhs (c.e.at i) * (s.inner c.e (t + 1) i - s.inner c.e t i) = flowIn c.e (c.e.trans vect) (s.inner c.e (t + 1)) i + supply c.e m0 (s.inner c.e (t + 1) i) i := by
  have wk : ∀ {m s}, Hist c (Paced c.e vect) m0 m s → Hist c Calm m0 m s := fun h => h.weaken fun _ _ _ h => paced_calm h
  induction hh with
  | start => exact fun t h => absurd h (by show ¬ t < 0; omega)
  | @step m s v m' s' h ha hp ih =>
    obtain ⟨hi, hq⟩ := hr.calm (wk h)
    obtain ⟨_, _, _, _, _, p, r', _, h2⟩ := attempted hr.ctx.lower hr.ctx.wf hi ha
    obtain rfl := hp.1
    intro t t1 i hin
    rw [h2.tstep] at t1
    have old : ∀ t, t ≤ s.tstep → s'.inner c.e t = s.inner c.e t := fun t ht => by
      funext j
      unfold Sol.inner
      rw [h2.press, rowAt_append_lt (by rw [hi.plen]; omega)]
    rcases Nat.lt_or_ge t s.tstep with h' | h'
    · rw [old (t + 1) (by omega), old t (by omega)]
      exact ih t h' i hin
    · have et : t = s.tstep := by omega
      subst et
      have hb := step_balance hr.ctx hx hi hq hp.2.1 hp.2.2.2 ha i hin
      unfold excess at hb
      rw [outside_best hr hg (wk h) ha hp.2.2 hin] at hb
      rw [old s.tstep le_rfl, ← h2.tstep]
      unfold flowIn
      linarith
  | @again m s v m' s' h ha hp ih =>
    obtain ⟨_, _, _, _, _, _, _, _, h2⟩ := attempted hr.ctx.lower hr.ctx.wf (hr.inv (wk h)) ha
    obtain ⟨e1, e2, e3⟩ := back_attempted (hr.inv (wk h)) h2
    unfold Sol.inner at ih ⊢
    rw [e1, e3]
    exact ih
  | @look m s v m' s' A d h ha ih =>
    obtain ⟨-, vA, bV, res, sM, rfl⟩ := assemble_frame ha
    exact ih
  | clock n t h ih => exact ih

/-! ## The system of equations -/

/-- Speeds of the pressures by position. -/
noncomputable def speed (M : GridModel ℝ) (e : Env ℝ) (vect : Bool) (m0 : Mdl ℝ) (x : Fin e.n → ℝ) (i : Fin e.n) : ℝ :=
  (flowIn e (e.trans vect) (fun j => if h : j < e.n then x ⟨j, h⟩ else 0) i + supply e m0 (x i) i) / store M (e.at i)

lemma flow_diff (e : Env ℝ) (T : ℕ → ℕ → ℝ) (x y : ℕ → ℝ) (i : ℕ) : flowIn e T x i - flowIn e T y i = ∑ j ∈ range e.n, T i j * ((x j - y j) - (x i - y i)) := by
  unfold flowIn
  rw [← sum_sub_distrib]
  exact sum_congr rfl fun j _ => by ring

lemma best_lip {e : Env ℝ} (hB : 0 < e.B) (hmu : 0 < e.mu) {w : Well ℝ} (hw : WellOK w) (p q : ℝ) : |bestRate e w p - bestRate e w q| ≤ windex e w * |p - q| := by
  have hp := (windex_pos hB hmu hw).le
  have h1 : |windex e w * (w.pwfsp.getD 0 - p) - windex e w * (w.pwfsp.getD 0 - q)| = windex e w * |p - q| := by
    rw [← mul_sub, abs_mul, abs_of_nonneg hp, show w.pwfsp.getD 0 - p - (w.pwfsp.getD 0 - q) = -(p - q) by ring, abs_neg]
  unfold bestRate
  rcases w.qsp with _ | qs
  · exact h1.le
  · dsimp only
    rw [max_comm qs, max_comm qs]; exact (abs_max_sub_max_le_abs _ _ _).trans h1.le

/-- All conductances from the cell at position `i` to the outside, wells at their limits included. -/
noncomputable def allLeak (e : Env ℝ) (m0 : Mdl ℝ) (i : ℕ) : ℝ := (m0.bdict.map (bLeak e i)).sum + (m0.wells.map fun w => if w.1 = e.at i then windex e w.2 else 0).sum

lemma abs_sum_le' {α : Type} {l : List α} {f g : α → ℝ} (h : ∀ x, x ∈ l → |f x| ≤ g x) : |(l.map f).sum| ≤ (l.map g).sum := by
  induction l with
  | nil => simp
  | cons a l ih =>
    simp only [List.map_cons, List.sum_cons]
    exact (abs_add_le _ _).trans (add_le_add (h a (by simp)) (ih fun x hx => h x (by simp [hx])))

lemma sum_map_sub' {α : Type} (l : List α) (f g : α → ℝ) : (l.map f).sum - (l.map g).sum = (l.map fun x => f x - g x).sum := by
  induction l with
  | nil => simp
  | cons a l ih => simp only [List.map_cons, List.sum_cons, ← ih]; ring

lemma sum_map_mul' {α : Type} (l : List α) (f : α → ℝ) (k : ℝ) : (l.map fun x => f x * k).sum = (l.map f).sum * k := by
  induction l with
  | nil => simp
  | cons a l ih => simp only [List.map_cons, List.sum_cons, ih]; ring

lemma supply_lip {e : Env ℝ} (he : e.WF) {m0 : Mdl ℝ} (hm : MdlOK e m0) (p q : ℝ) (i : ℕ) : |supply e m0 p i - supply e m0 q i| ≤ allLeak e m0 i * |p - q| := by
  unfold supply allLeak
  rw [add_mul, ← sum_map_mul', ← sum_map_mul', add_sub_add_comm, sum_map_sub', sum_map_sub']
  refine (abs_add_le _ _).trans (add_le_add (abs_sum_le' fun b hb => ?_) (abs_sum_le' fun w hw => ?_))
  · rw [boundaryIn_eq e _ p, boundaryIn_eq e _ q, show ∀ a k : ℝ, a - k * p - (a - k * q) = -(k * (p - q)) from fun a k => by ring, abs_neg, abs_mul,
      abs_of_nonneg (bLeak_nonneg he i (hm.bmem b hb))]
  · split_ifs
    · exact best_lip he.B he.mu (hm.well w hw) p q
    · simp

lemma supply_anti {e : Env ℝ} (he : e.WF) {m0 : Mdl ℝ} (hm : MdlOK e m0) {p q : ℝ} (h : p ≤ q) (i : ℕ) : supply e m0 q i ≤ supply e m0 p i := by
  unfold supply
  refine add_le_add (List.sum_le_sum fun b hb => ?_) (List.sum_le_sum fun w hw => ?_)
  · rw [boundaryIn_eq e _ p, boundaryIn_eq e _ q]
    have := mul_le_mul_of_nonneg_left h (bLeak_nonneg he i (hm.bmem b hb))
    linarith
  · split_ifs
    · exact best_anti he.B he.mu (hm.well w hw) h
    · exact le_rfl

lemma allLeak_nonneg {e : Env ℝ} (he : e.WF) {m0 : Mdl ℝ} (hm : MdlOK e m0) (i : ℕ) : 0 ≤ allLeak e m0 i := by
  refine add_nonneg (sum_nonneg' fun b hb => bLeak_nonneg he i (hm.bmem b hb)) (sum_nonneg' fun w hw => ?_)
  split_ifs
  · exact (windex_pos he.B he.mu (hm.well w hw)).le
  · exact le_rfl

lemma rhs_store {M : GridModel ℝ} (hM : M.Pos) (hc : M.comp = true) {e : Env ℝ} (he : M.env = .ok e) (id : ℕ) : e.rhs id * M.dt = store M id := by
  obtain ⟨-, -, -, -, -, -, -, -, -, -, e11, -⟩ := env_ok he
  have := hM.dt; have := hM.vconv; have := hM.B
  rw [e11]
  unfold calcRHS store
  rw [hc, if_pos rfl]
  field_simp

lemma store_pos {M : GridModel ℝ} (hM : M.Pos) (hc : M.comp = true) {e : Env ℝ} (he : M.env = .ok e) {id : ℕ} (hid : id ∈ e.ids) : 0 < store M id := by
  have hw := (show FromGrid e from ⟨M, hM, he⟩).wf
  obtain ⟨-, -, -, -, -, -, -, -, -, e10, -⟩ := env_ok he
  rw [← rhs_store hM hc he]
  exact mul_pos (hw.rhsC (by rw [e10, hc]) id hid) hM.dt

section System
variable {M : GridModel ℝ} {e : Env ℝ} {m0 : Mdl ℝ} {vect : Bool}

lemma speed_dissip (hM : M.Pos) (hc : M.comp = true) (he : M.env = .ok e) (hm : MdlOK e m0) : Euler.Dissip (speed M e vect m0) := fun x y i h h0 => by
  have hg : FromGrid e := ⟨M, hM, he⟩
  have hw := hg.wf
  unfold speed
  refine div_le_div_of_nonneg_right ?_ (store_pos hM hc he (at_mem e i.2)).le
  refine add_le_add ?_ (supply_anti hw hm (by linarith) i)
  rw [← sub_nonpos, flow_diff]
  refine sum_nonpos fun j hj => ?_
  have hj' := mem_range.1 hj
  refine mul_nonpos_of_nonneg_of_nonpos ((hg.network vect).nonneg i j i.2 hj') ?_
  rw [dif_pos hj', dif_pos hj', dif_pos i.2, dif_pos i.2]
  have := h ⟨j, hj'⟩
  simp only [Fin.eta]
  linarith

/-- A bound on how fast speeds change with pressures. -/
noncomputable def stiff (M : GridModel ℝ) (e : Env ℝ) (vect : Bool) (m0 : Mdl ℝ) : ℝ :=
  ∑ i ∈ range e.n, (∑ j ∈ range e.n, e.trans vect i j * 2 + allLeak e m0 i) / store M (e.at i)

lemma speed_lip (hM : M.Pos) (hc : M.comp = true) (he : M.env = .ok e) (hm : MdlOK e m0) : LipschitzWith (Real.toNNReal (stiff M e vect m0)) (speed M e vect m0) := by
  have hg : FromGrid e := ⟨M, hM, he⟩
  have hw := hg.wf
  have hterm : ∀ i, i ∈ range e.n → 0 ≤ (∑ j ∈ range e.n, e.trans vect i j * 2 + allLeak e m0 i) / store M (e.at i) := fun i hi =>
    div_nonneg (add_nonneg (sum_nonneg fun j hj => mul_nonneg ((hg.network vect).nonneg i j (mem_range.1 hi) (mem_range.1 hj)) zero_le_two) (allLeak_nonneg hw hm i))
      (store_pos hM hc he (at_mem e (mem_range.1 hi))).le
  refine LipschitzWith.of_dist_le_mul fun x y => ?_
  have hd : ∀ i : Fin e.n, |x i - y i| ≤ dist x y := fun i => by rw [dist_eq_norm]; exact norm_le_pi_norm (x - y) i
  have hst : 0 ≤ stiff M e vect m0 := sum_nonneg hterm
  rw [Real.coe_toNNReal _ hst, dist_pi_le_iff (mul_nonneg hst dist_nonneg)]
  intro i
  have hi : (i : ℕ) ∈ range e.n := mem_range.2 i.2
  have hs := store_pos hM hc he (at_mem e i.2)
  rw [Real.dist_eq]
  refine le_trans ?_ (mul_le_mul_of_nonneg_right (single_le_sum hterm hi) dist_nonneg)
  unfold speed
  rw [← sub_div, abs_div, abs_of_pos hs, div_mul_eq_mul_div]
  refine div_le_div_of_nonneg_right ?_ hs.le
  rw [add_sub_add_comm, flow_diff, add_mul]
  refine (abs_add_le _ _).trans (add_le_add ?_ ((supply_lip hw hm _ _ i).trans (mul_le_mul_of_nonneg_left (hd i) (allLeak_nonneg hw hm i))))
  rw [sum_mul]
  refine (abs_sum_le_sum_abs _ _).trans (sum_le_sum fun j hj => ?_)
  have hj' := mem_range.1 hj
  have hT := (hg.network vect).nonneg i j i.2 hj'
  rw [abs_mul, abs_of_nonneg hT, mul_assoc]
  refine mul_le_mul_of_nonneg_left ?_ hT
  rw [dif_pos hj', dif_pos hj', dif_pos i.2, dif_pos i.2]
  have h1 := hd ⟨j, hj'⟩
  have h2 := hd i
  simp only [Fin.eta]
  have := abs_sub (x ⟨j, hj'⟩ - y ⟨j, hj'⟩) (x i - y i)
  linarith

lemma Evolution.flows (hM : M.Pos) (hc : M.comp = true) (he : M.env = .ok e) {u : ℝ → ℕ → ℝ} (hu : Evolution M e vect m0 u) :
    Euler.Flows (speed M e vect m0) fun τ i => u τ (e.at i) := fun τ hτ => by
  rw [hasDerivWithinAt_pi]
  intro i
  obtain ⟨v, h1, h2⟩ := hu.law τ hτ i i.2
  have hs := store_pos hM hc he (at_mem e i.2)
  have : speed M e vect m0 (fun i => u τ (e.at i)) i = v := by
    unfold speed
    rw [div_eq_iff hs.ne', mul_comm, h2]
    congr 1
    unfold flowIn
    refine sum_congr rfl fun j hj => ?_
    dsimp only
    rw [dif_pos (mem_range.1 hj), dif_pos i.2]
  rw [this]; exact h1

end System

/-! ## Rows -/

/-- Row 0 holds the initial pressures, the later rows a pressure for every cell. -/
lemma hist_stored {c : Ctx ℝ} {m0 m : Mdl ℝ} {s : Sol ℝ} {P : Bool → Mdl ℝ → Mdl ℝ → Prop} (hr : Ready c m0) (hh : Hist c P m0 m s) :
    (∀ id, s.at 0 id = m0.initP id) ∧ ∀ t, 0 < t → t ≤ s.tstep → ∀ id, id ∈ c.e.ids → ∃ p, s.at t id = some p := by
  induction hh with
  | start => exact ⟨fun _ => rfl, fun t h1 h2 => absurd h2 (by show ¬ t ≤ 0; omega)⟩
  | @step m s v m' s' h ha hp ih =>
    have hi := hr.inv h
    obtain ⟨_, _, _, _, _, p, r', _, h2⟩ := attempted hr.ctx.lower hr.ctx.wf hi ha
    unfold Sol.at at ih ⊢
    refine ⟨fun id => by rw [h2.press, rowAt_append_lt (by rw [hi.plen]; omega)]; exact ih.1 id, fun t t1 t2 id hid => ?_⟩
    rw [h2.tstep] at t2
    rcases Nat.lt_or_ge t (s.tstep + 1) with h' | h'
    · rw [h2.press, rowAt_append_lt (by rw [hi.plen]; omega)]
      exact ih.2 t t1 (by omega) id hid
    · have et : t = s.tstep + 1 := by omega
      rw [et, h2.press, rowAt_append_eq hi.plen, h2.peq]
      exact ⟨_, newRow_mem hid⟩
  | @again m s v m' s' h ha hp ih =>
    obtain ⟨_, _, _, _, _, _, _, _, h2⟩ := attempted hr.ctx.lower hr.ctx.wf (hr.inv h) ha
    obtain ⟨e1, e2, e3⟩ := back_attempted (hr.inv h) h2
    unfold Sol.at at ih ⊢
    rw [e1, e3]
    exact ih
  | @look m s v m' s' A d h ha ih =>
    obtain ⟨-, vA, bV, res, sM, rfl⟩ := assemble_frame ha
    exact ih
  | clock n t h ih => exact ih

/-! ## Another time step -/

/-- The same reservoir with another time step. -/
def GridModel.withStep (M : GridModel ℝ) (dt : ℝ) : GridModel ℝ := { M with dt := dt }

lemma withStep_pos {M : GridModel ℝ} (hM : M.Pos) {dt : ℝ} (h : 0 < dt) : (M.withStep dt).Pos :=
  ⟨hM.geom, hM.sizes, hM.rock, hM.perm, hM.permB, hM.β, hM.mu, hM.B, hM.vconv, h, hM.phi, hM.ct⟩

lemma withStep_env {M : GridModel ℝ} {e e' : Env ℝ} {dt : ℝ} (h : M.env = .ok e) (h' : (M.withStep dt).env = .ok e') : e' = { e with rhs := e'.rhs } := by
  unfold GridModel.env Env.ofGrid at h h'
  rw [getCellsId_false, bind_ok, getBoundariesId_eq, bind_ok, ok_bind] at h h'
  obtain ⟨T, hT, h⟩ := h
  obtain ⟨T', hT', h'⟩ := h'
  rw [ok_bind] at h h'
  obtain ⟨dg, hdg, h⟩ := h
  obtain ⟨dg', hdg', h'⟩ := h'
  have e1 : T = T' := Except.ok.inj (hT.symm.trans hT')
  have e2 : dg = dg' := Except.ok.inj (hdg.symm.trans hdg')
  rw [ok_pure] at h h'
  subst e1 e2 h h'
  rfl

/-! ## Theorems -/

/-- **C89** (what the equations say), partial: for every reservoir with positive data and compressible fluid, boundary conditions and wells set up through the API, and initial pressures, there is exactly one way in which
pressures can change continuously such that every cell stores what flows into it. -/
theorem C89_evolution_partial {M : GridModel ℝ} (hM : M.Pos) (hc : M.comp = true) {c : Ctx ℝ} (he : M.env = .ok c.e) {m0 : Mdl ℝ} (hr : Ready c m0)
    (h0 : ∀ id, id ∈ c.e.ids → ∃ p, m0.initP id = some p) (vect : Bool) :
    (∃ u, Evolution M c.e vect m0 u) ∧ ∀ u w, Evolution M c.e vect m0 u → Evolution M c.e vect m0 w → ∀ τ, 0 ≤ τ → ∀ id, id ∈ c.e.ids → u τ id = w τ id := by
  have hm := hr.started.mdl
  have hw := hr.ctx.wf
  have hL := speed_lip (vect := vect) hM hc he hm
  constructor
  · obtain ⟨x, h1, h2⟩ := Euler.exists_flow hL fun i => (m0.initP (c.e.at i)).getD 0
    have hat : ∀ i : Fin c.e.n, ∀ h : c.e.at i ∈ c.e.ids, (⟨c.e.ids.idxOf (c.e.at i), idx_lt c.e h⟩ : Fin c.e.n) = i := fun i h => by
      apply Fin.ext
      show c.e.ids.idxOf (c.e.at i) = i
      have := at_eq c.e i.2
      rw [this]
      exact hw.nodup.idxOf_getElem _ _
    let u : ℝ → ℕ → ℝ := fun τ id => if h : id ∈ c.e.ids then x τ ⟨c.e.ids.idxOf id, idx_lt c.e h⟩ else 0
    have ux : ∀ τ (i : Fin c.e.n), u τ (c.e.at i) = x τ i := fun τ i => by
      have hid := at_mem c.e i.2
      show (if h : c.e.at i ∈ c.e.ids then x τ ⟨c.e.ids.idxOf (c.e.at i), idx_lt c.e h⟩ else 0) = x τ i
      rw [dif_pos hid, hat i hid]
    refine ⟨u, ⟨fun id hid => ?_, fun τ hτ i hi => ?_⟩⟩
    · obtain ⟨p, hp⟩ := h0 id hid
      have h3 := ux 0 ⟨_, idx_lt c.e hid⟩
      rw [h2] at h3
      dsimp only at h3
      rw [at_idx c.e hid] at h3
      rw [h3, hp]; rfl
    · have h3 := hasDerivWithinAt_pi.1 (h1 τ hτ) ⟨i, hi⟩
      refine ⟨_, h3.congr (fun r _ => ux r ⟨i, hi⟩) (ux τ ⟨i, hi⟩), ?_⟩
      have hs := store_pos hM hc he (at_mem c.e hi)
      unfold speed
      rw [mul_div_cancel₀ _ hs.ne', ux τ ⟨i, hi⟩]
      congr 1
      unfold flowIn
      refine sum_congr rfl fun j hj => ?_
      dsimp only
      rw [dif_pos (mem_range.1 hj), dif_pos hi, ux τ ⟨i, hi⟩, ux τ ⟨j, mem_range.1 hj⟩]
  · intro u w hu hw' τ hτ id hid
    have key := (hu.flows hM hc he).contract (hw'.flows hM hc he) (speed_dissip hM hc he hm) hL hτ
    have e0 : (fun i : Fin c.e.n => u 0 (c.e.at i)) = fun i : Fin c.e.n => w 0 (c.e.at i) := funext fun i => by
      have h1 := hu.start _ (at_mem c.e i.2)
      have h2 := hw'.start _ (at_mem c.e i.2)
      rw [h1] at h2
      exact Option.some.inj h2
    rw [e0, sub_self, norm_zero] at key
    have := congrFun (sub_eq_zero.1 (norm_le_zero_iff.1 key)) ⟨_, idx_lt c.e hid⟩
    dsimp only at this
    rwa [at_idx c.e hid] at this

/-- The distance of the rows of a history from the evolution. -/
lemma hist_euler {M : GridModel ℝ} (hM : M.Pos) (hc : M.comp = true) {c : Ctx ℝ} (he : M.env = .ok c.e) {m0 m : Mdl ℝ} {s : Sol ℝ} {vect : Bool} {u : ℝ → ℕ → ℝ}
    (hu : Evolution M c.e vect m0 u) (hr : Ready c m0) (hx : Exact c.lin) (hg : vect = true → RatesGiven m0) (hh : Hist c (Paced c.e vect) m0 m s) {t : ℕ} (ht : t ≤ s.tstep) {id : ℕ}
    (hid : id ∈ c.e.ids) :
    ∃ p, s.at t id = some p ∧ |p - u (t * M.dt) id| ≤ Real.toNNReal (stiff M c.e vect m0) * ‖speed M c.e vect m0 fun i => u 0 (c.e.at i)‖ * (t * M.dt) * M.dt := by
  have hm := hr.started.mdl
  have hL := speed_lip (vect := vect) hM hc he hm
  have hF := speed_dissip (vect := vect) hM hc he hm
  have hfl := hu.flows hM hc he
  obtain ⟨r0, r1⟩ := hist_stored hr hh
  have hdt := hM.dt
  have hbal := hist_supply hr hx hg hh
  have key := hfl.euler hF hL (τ := s.tstep * M.dt) (fun r h1 _ => hfl.slows hF hL h1) hdt.le (p := fun k i => s.inner c.e k i) (a := fun _ => 0) (N := s.tstep) (η := 0) (D := 0)
    (fun k hk => by
      funext i
      have hs := store_pos hM hc he (at_mem c.e i.2)
      have h1 := hbal k hk i i.2
      have h2 := rhs_store hM hc he (c.e.at i)
      have h3 : c.e.rhs (c.e.at i) = store M (c.e.at i) / M.dt := by rw [← h2]; field_simp
      rw [h3] at h1
      simp only [Pi.sub_apply, Pi.zero_apply, sub_zero, Pi.smul_apply, smul_eq_mul]
      unfold speed
      have h4 : flowIn c.e (c.e.trans vect) (fun j => if h : j < c.e.n then s.inner c.e (k + 1) j else 0) i = flowIn c.e (c.e.trans vect) (s.inner c.e (k + 1)) i := by
        unfold flowIn
        refine sum_congr rfl fun j hj => ?_
        dsimp only
        rw [dif_pos (mem_range.1 hj), dif_pos i.2]
      rw [h4, ← h1]
      field_simp)
    (fun _ _ => by simp) (by
      have : (fun i : Fin c.e.n => s.inner c.e 0 i) = fun i : Fin c.e.n => u 0 (c.e.at i) := funext fun i => by
        show (s.at 0 (c.e.at i)).getD 0 = _
        rw [r0, hu.start _ (at_mem c.e i.2)]; rfl
      simp [this]) le_rfl t ht
  have hi := idx_lt c.e hid
  have hcomp := (norm_le_pi_norm _ (⟨_, hi⟩ : Fin c.e.n)).trans key
  simp only [Pi.sub_apply, Real.norm_eq_abs] at hcomp
  rw [at_idx c.e hid] at hcomp
  have hp : ∃ p, s.at t id = some p := by
    rcases Nat.eq_zero_or_pos t with rfl | h
    · exact ⟨_, (r0 id).trans (hu.start id hid)⟩
    · exact r1 t h ht id hid
  obtain ⟨p, hp⟩ := hp
  have e2 : s.inner c.e t (c.e.ids.idxOf id) = p := by
    show (s.at t (c.e.at (c.e.ids.idxOf id))).getD 0 = p
    rw [at_idx c.e hid, hp]; rfl
  rw [e2] at hcomp
  refine ⟨p, hp, hcomp.trans (le_of_eq ?_)⟩
  ring

/-- **C89** (first order), partial: for every reservoir there is a constant such that, whatever the time step and the way of calling `solve` and `run`, the pressures kept for a step differ from those of the evolution at that
time by at most the constant times the time times the time step. -/
theorem C89_first_order_partial {M : GridModel ℝ} (hM : M.Pos) (hc : M.comp = true) {e : Env ℝ} (he : M.env = .ok e) {m0 : Mdl ℝ} {vect : Bool} (hg : vect = true → RatesGiven m0)
    {u : ℝ → ℕ → ℝ} (hu : Evolution M e vect m0 u) :
    ∃ C : ℝ, 0 ≤ C ∧ ∀ (dt : ℝ) (c : Ctx ℝ) (m : Mdl ℝ) (s : Sol ℝ), 0 < dt → (M.withStep dt).env = .ok c.e → Ready c m0 → Exact c.lin → Hist c (Paced c.e vect) m0 m s →
      ∀ t, t ≤ s.tstep → ∀ id, id ∈ c.e.ids → ∃ p, s.at t id = some p ∧ |p - u (t * dt) id| ≤ C * (t * dt) * dt := by
  refine ⟨Real.toNNReal (stiff M e vect m0) * ‖speed M e vect m0 fun i => u 0 (e.at i)‖, by positivity, fun dt c m s hdt he' hr hx hh t ht id hid => ?_⟩
  have heq := withStep_env he he'
  obtain ⟨ce, lower, scale, lin⟩ := c
  dsimp only at heq he' hid hh
  generalize ce.rhs = rhs at heq
  subst heq
  exact hist_euler (M := M.withStep dt) (withStep_pos hM hdt) hc he' ⟨hu.start, hu.law⟩ hr hx hg hh ht hid

/-- The evolution is Lipschitz in time. -/
lemma Evolution.lip {M : GridModel ℝ} (hM : M.Pos) (hc : M.comp = true) {e : Env ℝ} (he : M.env = .ok e) {m0 : Mdl ℝ} (hm : MdlOK e m0) {vect : Bool} {u : ℝ → ℕ → ℝ}
    (hu : Evolution M e vect m0 u) {a b : ℝ} (ha : 0 ≤ a) (hb : 0 ≤ b) {id : ℕ} (hid : id ∈ e.ids) :
    |u a id - u b id| ≤ ‖speed M e vect m0 fun i => u 0 (e.at i)‖ * |a - b| := by
  have hL := speed_lip (vect := vect) hM hc he hm
  have hF := speed_dissip (vect := vect) hM hc he hm
  have hfl := hu.flows hM hc he
  have one : ∀ {s t : ℝ}, 0 ≤ s → s ≤ t → |u t id - u s id| ≤ ‖speed M e vect m0 fun i => u 0 (e.at i)‖ * (t - s) := fun {s t} h1 h2 => by
    have key := hfl.lip (τ := t) (fun r h1 _ => hfl.slows hF hL h1) h1 h2 le_rfl
    have := (norm_le_pi_norm _ (⟨_, idx_lt e hid⟩ : Fin e.n)).trans key
    simpa [at_idx e hid] using this
  rcases le_total a b with h | h
  · rw [abs_sub_comm, abs_sub_comm a b, abs_of_nonneg (sub_nonneg.2 h)]; exact one ha h
  · rw [abs_of_nonneg (sub_nonneg.2 h)]; exact one hb h

/-- C89: as the time step goes to zero, the pressures of the steps whose time is close to `τ` go to the pressures of the continuous evolution at `τ`. (Partial: steps in which no well leaves its limit, exact linear solver and arithmetic.) -/
theorem C89_converges_partial {M : GridModel ℝ} (hM : M.Pos) (hc : M.comp = true) {e : Env ℝ} (he : M.env = .ok e) {m0 : Mdl ℝ} {vect : Bool} (hg : vect = true → RatesGiven m0)
    {u : ℝ → ℕ → ℝ} (hu : Evolution M e vect m0 u) {τ ε : ℝ} (hτ : 0 ≤ τ) (hε : 0 < ε) :
    ∃ δ : ℝ, 0 < δ ∧ ∀ (dt : ℝ) (c : Ctx ℝ) (m : Mdl ℝ) (s : Sol ℝ), 0 < dt → dt < δ → (M.withStep dt).env = .ok c.e → Ready c m0 → Exact c.lin → Hist c (Paced c.e vect) m0 m s →
      ∀ t, t ≤ s.tstep → |t * dt - τ| < δ → ∀ id, id ∈ c.e.ids → ∃ p, s.at t id = some p ∧ |p - u τ id| < ε := by
  obtain ⟨C, hC, key⟩ := C89_first_order_partial hM hc he hg hu
  set V := ‖speed M e vect m0 fun i => u 0 (e.at i)‖ with hV
  have hV0 : 0 ≤ V := norm_nonneg _
  have hD : 0 < C * (τ + 1) + V + 1 := by positivity
  refine ⟨min 1 (ε / (C * (τ + 1) + V + 1)), lt_min one_pos (by positivity), fun dt c m s hdt hdδ he' hr hx hh t ht htδ id hid => ?_⟩
  obtain ⟨p, hp, h1⟩ := key dt c m s hdt he' hr hx hh t ht id hid
  have hm : MdlOK e m0 ∧ id ∈ e.ids := by
    have heq := withStep_env he he'
    have hmd := hr.started.mdl
    obtain ⟨ce, lower, scale, lin⟩ := c
    dsimp only at heq hid hmd
    generalize ce.rhs = rhs at heq
    subst heq
    exact ⟨⟨hmd.1, hmd.2, hmd.3, hmd.4, hmd.5, hmd.6⟩, hid⟩
  have htd : 0 ≤ (t : ℝ) * dt := by positivity
  have h2 := hu.lip hM hc he hm.1 htd hτ hm.2
  rw [← hV] at h2
  have hd1 : dt < 1 := hdδ.trans_le (min_le_left _ _)
  have hd2 := hdδ.trans_le (min_le_right _ _)
  have ht1 := htδ.trans_le (min_le_left _ _)
  have ht2 := htδ.trans_le (min_le_right _ _)
  rw [lt_div_iff₀ hD] at hd2 ht2
  have ht3 : (t : ℝ) * dt ≤ τ + 1 := by have := (abs_lt.1 ht1).2; linarith
  refine ⟨p, hp, ?_⟩
  have tri : |p - u τ id| ≤ |p - u (t * dt) id| + |u (t * dt) id - u τ id| := by
    have := abs_add_le (p - u (t * dt) id) (u (t * dt) id - u τ id)
    rwa [sub_add_sub_cancel] at this
  have b1 : C * (t * dt) * dt ≤ C * (τ + 1) * dt := by gcongr
  have a0 := abs_nonneg ((t : ℝ) * dt - τ)
  have key2 : C * (τ + 1) * dt + V * |(t : ℝ) * dt - τ| < ε := by
    rcases le_total dt |(t : ℝ) * dt - τ| with h | h
    · calc C * (τ + 1) * dt + V * |(t : ℝ) * dt - τ| ≤ C * (τ + 1) * |(t : ℝ) * dt - τ| + V * |(t : ℝ) * dt - τ| := by gcongr
        _ ≤ |(t : ℝ) * dt - τ| * (C * (τ + 1) + V + 1) := by nlinarith
        _ < ε := ht2
    · calc C * (τ + 1) * dt + V * |(t : ℝ) * dt - τ| ≤ C * (τ + 1) * dt + V * dt := by gcongr
        _ ≤ dt * (C * (τ + 1) + V + 1) := by nlinarith
        _ < ε := hd2
  linarith

/-- C89: the recorded rates of wells are as close to the rates the wells have in the continuous evolution. (Partial: as above.) -/
theorem C89_rates_partial {M : GridModel ℝ} (hM : M.Pos) (hc : M.comp = true) {e : Env ℝ} (he : M.env = .ok e) {m0 : Mdl ℝ} {vect : Bool} (hg : vect = true → RatesGiven m0)
    {u : ℝ → ℕ → ℝ} (hu : Evolution M e vect m0 u) :
    ∃ C : ℝ, 0 ≤ C ∧ ∀ (dt : ℝ) (c : Ctx ℝ) (m : Mdl ℝ) (s : Sol ℝ), 0 < dt → (M.withStep dt).env = .ok c.e → Ready c m0 → Exact c.lin → Hist c (Paced c.e vect) m0 m s →
      ∀ t, 0 < t → t ≤ s.tstep → ∀ w, w ∈ m0.wells → |rowAt s.rates t 0 w.1 - bestRate e w.2 (u (t * dt) w.1)| ≤ C * (t * dt) * dt := by
  obtain ⟨C, hC, key⟩ := C89_first_order_partial hM hc he hg hu
  have hS : 0 ≤ (m0.wells.map fun w => |windex e w.2|).sum := List.sum_nonneg fun x h => by
    obtain ⟨w, -, rfl⟩ := List.mem_map.1 h; exact abs_nonneg _
  refine ⟨(m0.wells.map fun w => |windex e w.2|).sum * C, mul_nonneg hS hC, fun dt c m s hdt he' hr hx hh t t0 ht w hw => ?_⟩
  have hb := hist_best hr (hh.weaken fun _ _ _ h => paced_calm h) t t0 ht w hw
  have hmd := hr.started.mdl
  obtain ⟨p, hp, h1⟩ := key dt c m s hdt he' hr hx hh t ht w.1 (hmd.wmem w hw)
  rw [hp, Option.getD_some] at hb
  have hwf := hr.ctx.wf
  have heq := withStep_env he he'
  have e1 : bestRate c.e w.2 p = bestRate e w.2 p := by rw [heq]; rfl
  have e2 : c.e.B = e.B ∧ c.e.mu = e.mu := by rw [heq]; exact ⟨rfl, rfl⟩
  rw [hb, e1]
  refine (best_lip (e2.1 ▸ hwf.B) (e2.2 ▸ hwf.mu) (hmd.well w hw) _ _).trans ?_
  have h2 : |windex e w.2| ≤ (m0.wells.map fun w => |windex e w.2|).sum := List.single_le_sum (fun x h => by
    obtain ⟨w, -, rfl⟩ := List.mem_map.1 h; exact abs_nonneg _) _ (List.mem_map.2 ⟨w, hw, rfl⟩)
  calc windex e w.2 * |p - u (t * dt) w.1| ≤ |windex e w.2| * |p - u (t * dt) w.1| := by gcongr; exact le_abs_self _
    _ ≤ (m0.wells.map fun w => |windex e w.2|).sum * (C * (t * dt) * dt) := by gcongr
    _ = _ := by ring

lemma runAll_vect (c : Ctx ℝ) (fuel : ℕ) (vect : Bool) (n : ℕ) (m : Mdl ℝ) (s : Sol ℝ) : RunAll c (fun v _ _ => v = vect) fuel vect n m s := by
  have one : ∀ fuel (m : Mdl ℝ) (s : Sol ℝ), SolveAll c (fun v _ _ => v = vect) fuel vect m s := by
    intro fuel
    induction fuel with
    | zero => exact fun _ _ => trivial
    | succ n ih => exact fun m s m' s' again _ => ⟨rfl, fun _ => ih m' s'.back⟩
  induction n generalizing m s with
  | zero => trivial
  | succ n ih => exact ⟨one fuel m s, fun m' s' _ => ih m' s'⟩

/-- The hypotheses of C89 are met: a bar of any number of cells with a pressure at each end and one initial pressure has a continuous evolution, and it can be run with every time step for any number of steps. -/
theorem C89_instances {n : ℕ} (hn : 2 ≤ n) {h α : ℝ} (hh : 0 < h) (hα : 0 < α) (pi : ℝ) {pL pR : ℝ} (hL : pL ≠ 0) (hR : pR ≠ 0) :
    ∃ (M : GridModel ℝ) (e : Env ℝ) (m0 : Mdl ℝ) (u : ℝ → ℕ → ℝ), M.Pos ∧ M.comp = true ∧ M.env = .ok e ∧ e.n = n ∧ RatesGiven m0 ∧
      m0.bdict = [(0, "pressure", pL), (n + 1, "pressure", pR)] ∧ (∀ id, id ∈ e.ids → m0.initP id = some pi) ∧ Evolution M e true m0 u ∧
      ∀ dt, 0 < dt → ∃ c : Ctx ℝ, (M.withStep dt).env = .ok c.e ∧ Ready c m0 ∧ Exact c.lin ∧ ∀ steps, ∃ m s, Hist c (Paced c.e true) m0 m s ∧ s.tstep = steps := by
  obtain ⟨q, hb, hM⟩ := barModel_spec hn hh hα one_pos
  obtain ⟨e, he⟩ := env_exists hM (by rw [hb.dim])
  obtain ⟨lin, hx, hcomplete⟩ := exists_solver (K := ℝ)
  let m0 : Mdl ℝ := { Mdl.init e (some pi) with
    bdict := [(0, "pressure", pL), (n + 1, "pressure", pR)], bUpdate := [0, n + 1]
    initP := Function.update (Function.update (Mdl.init e (some pi)).initP 0 (some pL)) (n + 1) (some pR) }
  have hid : ∀ id, id ∈ e.ids → ∃ i, i < n ∧ id = i + 1 := fun id hid => by
    obtain ⟨i, hi, rfl⟩ := List.getElem_of_mem hid
    have hi' : i < n := by rw [← hb.n_eq he]; exact hi
    refine ⟨i, hi', ?_⟩
    rw [← hb.at_ he hi']
    unfold Env.at
    simp [hi]
  have hinit : ∀ id, id ∈ e.ids → m0.initP id = some pi := fun id h => by
    obtain ⟨i, hi, rfl⟩ := hid id h
    simp only [m0]
    rw [Function.update_of_ne (by omega), Function.update_of_ne (by omega)]
    simp [Mdl.init, h]
  have hrg : RatesGiven m0 := fun b hb' hp => by
    have hb' : b = (0, "pressure", pL) ∨ b = (n + 1, "pressure", pR) := by simpa [m0] using hb'
    rcases hb' with rfl | rfl <;> exact absurd rfl hp
  have hready : ∀ (dt : ℝ) (e' : Env ℝ), 0 < dt → ((barModel n hn h α 1 q).withStep dt).env = .ok e' → Ready (⟨e', fun s => s, fun _ _ => 1, lin⟩ : Ctx ℝ) m0 := by
    intro dt e' hdt he'
    have heq := withStep_env he he'
    have hids : e'.ids = e.ids := by rw [heq]
    have hbnd : e'.bnd = e.bnd := by rw [heq]
    have hi : Mdl.init e' (some pi) = Mdl.init e (some pi) := by unfold Mdl.init; rw [hids]
    have hset : setBoundaries (fun s => s) e' (Mdl.init e' (some pi)) none [(0, "pressure", pL), (n + 1, "pressure", pR)] = ((m0, none), .ok ()) := by
      unfold setBoundaries setBoundaryLoop setBoundaryLoop setBoundaryLoop setBoundary
      rw [hi]
      have b1 := hb.mem_bnd he (.inl rfl)
      have b2 := hb.mem_bnd he (.inr rfl)
      rw [← hbnd] at b1 b2
      simp [b1, b2, setPressure, m0]
    have hstd : Standard (fun s => s) e' [(0, "pressure", pL), (n + 1, "pressure", pR)] m0 := .bounds (by simp) hset
    refine ⟨⟨⟨rfl, rfl⟩, ⟨_, withStep_pos hM hdt, he'⟩, fun _ _ => one_ne_zero⟩, hstd.setup, fun x G hx => ?_, fun x hx => ?_, fun x hx => ?_⟩
    · simp [m0, Mdl.init] at hx
    · simp [m0, Mdl.init] at hx
    · have hx : x = (0, "pressure", pL) ∨ x = (n + 1, "pressure", pR) := by simpa [m0] using hx
      rcases hx with rfl | rfl <;> simp
  have hr1 := hready 1 e one_pos he
  obtain ⟨⟨u, hu⟩, -⟩ := C89_evolution_partial hM rfl (c := ⟨e, fun s => s, fun _ _ => 1, lin⟩) he hr1 (fun id h => ⟨pi, hinit id h⟩) true
  refine ⟨_, e, m0, u, hM, rfl, he, hb.n_eq he, hrg, rfl, hinit, hu, fun dt hdt => ?_⟩
  have hM' := withStep_pos hM hdt
  obtain ⟨e', he'⟩ := env_exists hM' (by show 1 ≤ (barModel n hn h α 1 q).g.getD; rw [hb.dim])
  have hr := hready dt e' hdt he'
  have heq := withStep_env he he'
  have hids : e'.ids = e.ids := by rw [heq]
  have hcomp : e'.comp = true := by
    obtain ⟨-, -, -, -, -, -, -, -, -, e10, -⟩ := env_ok he'
    exact e10
  have hgrav : e'.grav = 0 := by
    obtain ⟨-, -, -, -, -, -, -, -, -, -, -, e12, -⟩ := env_ok he'
    exact e12
  have hT := hb.T_pos hM
  have hface : ∀ b id T, e.Face b id T → e'.Face b id T := fun b id T h => by rw [heq]; exact h
  have hcond : Conducting e' m0 := fun x hx _ => by
    have hx : x = (0, "pressure", pL) ∨ x = (n + 1, "pressure", pR) := by simpa [m0] using hx
    rcases hx with rfl | rfl
    · exact ⟨1, _, hface _ _ _ (hb.face hM he (.inl ⟨rfl, rfl⟩)), hT.ne', by rw [hgrav, zero_mul]; exact hL⟩
    · exact ⟨n, _, hface _ _ _ (hb.face hM he (.inr ⟨rfl, rfl⟩)), hT.ne', by rw [hgrav, zero_mul]; exact hR⟩
  refine ⟨⟨e', fun s => s, fun _ _ => 1, lin⟩, he', hr, hx, fun steps => ?_⟩
  have hrun := C67_run_partial (fuel := 1) hr (hcomplete _) (fun _ id h => ⟨pi, hinit id (hids ▸ h)⟩) hcond (.inl hcomp) (by simp [m0, Mdl.init]) .start steps 0
  have h1 := Hist.run hr.ctx.lower hr.ctx.wf hr.started.mdl steps 0 .start (runAll_vect _ 1 true steps _ _)
  have pace : ∀ {m : Mdl ℝ} {s : Sol ℝ}, Hist ⟨e', fun s => s, fun _ _ => 1, lin⟩ (fun v _ _ => v = true) m0 m s → Hist ⟨e', fun s => s, fun _ _ => 1, lin⟩ (Paced e' true) m0 m s := by
    have calm : ∀ {m : Mdl ℝ} {s : Sol ℝ} (vect : Bool) (m' : Mdl ℝ), Hist ⟨e', fun s => s, fun _ _ => 1, lin⟩ (fun v _ _ => v = true) m0 m s → Calm vect m m' := fun vect m' hh => by
      have : _ = _ := List.forall₂_nil_left_iff.1 (show List.Forall₂ _ [] _ from (hr.inv (hh.weaken fun _ _ _ _ => trivial)).same.wells)
      refine ⟨?_, fun _ => ?_⟩
      · unfold NoRelease; rw [this]; simp
      · unfold NoZeroPwf; rw [this]; simp
    intro m s hh
    induction hh with
    | start => exact .start
    | step hh ha hp ih => exact .step ih ha ⟨hp, fun _ => .inl hgrav, calm _ _ hh⟩
    | again hh ha hp ih => exact .again ih ha ⟨hp, fun _ => .inl hgrav, calm _ _ hh⟩
    | look hh ha ih => exact .look ih ha
    | clock k t hh ih => exact .clock k t ih
  exact ⟨_, _, pace h1, hrun.2.trans (by simp [Sol.init])⟩

end RF.Fdm
