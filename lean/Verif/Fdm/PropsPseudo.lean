import Verif.Fdm.PropsMB
import Verif.Fdm.PropsTrend
/-!
# C87: pseudo-steady state

In a reservoir with given rates only, the pressure of every cell comes to change by the same amount in every step: total rate divided by total storage capacity.
-/
set_option linter.unusedSectionVars false
namespace RF.Fdm
open RF RF.Dims Finset

variable {K : Type} [Field K] [LinearOrder K] [IsStrictOrderedRing K]

/-! ## Specification -/

/-- Only rates are given: no boundary pressure, and the conditions are on faces and were entered as rates. -/
structure GivenRates (e : Env K) (m : Mdl K) : Prop where
  rates : ∀ b, b ∈ m.bdict → b.2.1 ≠ "pressure"
  given : RatesGiven m
  faces : OnFaces e m.bdict

/-- A step with the given assembler before which all wells are at their target rates (the vectorised one without gravity between cells). -/
def AtTarget (e : Env K) (vect : Bool) : Bool → Mdl K → Mdl K → Prop := fun v m _ => v = vect ∧ (vect = true → e.Flat) ∧ ∀ w, w ∈ m.wells → w.2.con = some .q

/-- All rates that were given, boundaries and wells, added up. -/
def totalRate (m : Mdl K) : K := (m.bdict.map (·.2.2)).sum + (m.wells.map fun w => w.2.qsp.getD 0).sum

/-- What the whole reservoir stores per unit of pressure and step. -/
def capacity (e : Env K) : K := (e.ids.map e.rhs).sum

/-- The change of the pressure of a cell from step `t` to step `t + 1`. -/
def change (s : Sol K) (t id : ℕ) : K := (s.at (t + 1) id).getD 0 - (s.at t id).getD 0

/-- How far the changes of the cells' pressures in a step are from one common value: squares of the deviations, weighted with the capacities of the cells. -/
def spread (e : Env K) (s : Sol K) (v : K) (t : ℕ) : K := (e.ids.map fun id => e.rhs id * (change s t id - v) ^ 2).sum

/-! ## Networks -/

/-- The sum of the squares of all differences. -/
def gaps (n : ℕ) (T : ℕ → ℕ → K) (u : ℕ → K) : K := ∑ i ∈ range n, ∑ j ∈ range n, T i j * (u i - u j) ^ 2

lemma gaps_nonneg {n : ℕ} {T : ℕ → ℕ → K} (h : Network n T) (u : ℕ → K) : 0 ≤ gaps n T u :=
  sum_nonneg fun i hi => sum_nonneg fun j hj => mul_nonneg (h.nonneg i j (mem_range.1 hi) (mem_range.1 hj)) (sq_nonneg _)

lemma gap_le {n : ℕ} {T : ℕ → ℕ → K} (h : Network n T) (u : ℕ → K) {i j : ℕ} (hi : i < n) (hj : j < n) : T i j * (u i - u j) ^ 2 ≤ gaps n T u :=
  (single_le_sum (f := fun j => T i j * (u i - u j) ^ 2) (fun k hk => mul_nonneg (h.nonneg i k hi (mem_range.1 hk)) (sq_nonneg _)) (mem_range.2 hj)).trans
    (single_le_sum (f := fun i => ∑ j ∈ range n, T i j * (u i - u j) ^ 2)
      (fun k hk => sum_nonneg fun l hl => mul_nonneg (h.nonneg k l (mem_range.1 hk) (mem_range.1 hl)) (sq_nonneg _)) (mem_range.2 hi))

lemma gap_path {n : ℕ} {T : ℕ → ℕ → K} (h : Network n T) {i j : ℕ} (hi : i < n) (hp : Relation.ReflTransGen (Net.Link n T) i j) :
    j < n ∧ ∃ C : K, 0 ≤ C ∧ ∀ u : ℕ → K, (u i - u j) ^ 2 ≤ C * gaps n T u := by
  induction hp with
  | refl => exact ⟨hi, 0, le_rfl, fun u => by simp⟩
  | @tail k l _ hl ih =>
    obtain ⟨hk, C, hC, ih⟩ := ih
    refine ⟨hl.1, 2 * C + 2 / T k l, add_nonneg (by linarith) (div_nonneg zero_le_two hl.2.le), fun u => ?_⟩
    have h1 := gap_le h u hk hl.1
    have h2 : (u k - u l) ^ 2 ≤ gaps n T u / T k l := by rw [le_div_iff₀ hl.2]; linarith
    have h3 : (u i - u l) ^ 2 ≤ 2 * (u i - u k) ^ 2 + 2 * (u k - u l) ^ 2 := by nlinarith [sq_nonneg ((u i - u k) - (u k - u l))]
    have h4 : (2 * C + 2 / T k l) * gaps n T u = 2 * (C * gaps n T u) + 2 * (gaps n T u / T k l) := by ring
    rw [h4]
    linarith [ih u]

/-- In a connected network all squares of differences are bounded by the same multiple of `gaps`. -/
lemma gap_all {n : ℕ} {T : ℕ → ℕ → K} (h : Network n T) : ∃ C : K, 0 ≤ C ∧ ∀ i j, i < n → j < n → ∀ u : ℕ → K, (u i - u j) ^ 2 ≤ C * gaps n T u := by
  have key : ∀ i j, ∃ C : K, 0 ≤ C ∧ (i < n → j < n → ∀ u : ℕ → K, (u i - u j) ^ 2 ≤ C * gaps n T u) := by
    intro i j
    by_cases hi : i < n
    · by_cases hj : j < n
      · obtain ⟨-, C, h1, h2⟩ := gap_path h hi (h.conn i j hi hj)
        exact ⟨C, h1, fun _ _ => h2⟩
      · exact ⟨0, le_rfl, fun _ h => absurd h hj⟩
    · exact ⟨0, le_rfl, fun h => absurd h hi⟩
  choose C h1 h2 using key
  refine ⟨∑ i ∈ range n, ∑ j ∈ range n, C i j, sum_nonneg fun i _ => sum_nonneg fun j _ => h1 i j, fun i j hi hj u => (h2 i j hi hj u).trans (mul_le_mul_of_nonneg_right ?_ (gaps_nonneg h u))⟩
  exact (single_le_sum (f := fun j => C i j) (fun k _ => h1 i k) (mem_range.2 hj)).trans
    (single_le_sum (f := fun i => ∑ j ∈ range n, C i j) (fun k _ => sum_nonneg fun l _ => h1 k l) (mem_range.2 hi))

/-- An inequality of Poincaré type: what has mean zero is bounded by its differences. -/
lemma poincare {n : ℕ} {T : ℕ → ℕ → K} (h : Network n T) (hn : 0 < n) {R : ℕ → K} (hR : ∀ i, i < n → 0 < R i) :
    ∃ C : K, 0 ≤ C ∧ ∀ u : ℕ → K, ∑ i ∈ range n, R i * u i = 0 → ∑ i ∈ range n, R i * u i ^ 2 ≤ C * gaps n T u := by
  obtain ⟨C, hC, hg⟩ := gap_all h
  have hW : 0 < ∑ i ∈ range n, R i := sum_pos (fun i hi => hR i (mem_range.1 hi)) ⟨0, mem_range.2 hn⟩
  refine ⟨(∑ i ∈ range n, R i) * C, mul_nonneg hW.le hC, fun u hu => ?_⟩
  have e1 : ∑ i ∈ range n, ∑ j ∈ range n, R i * R j * (u i - u j) ^ 2 = 2 * ((∑ i ∈ range n, R i) * ∑ i ∈ range n, R i * u i ^ 2) := by
    have a1 : ∀ i j, R i * R j * (u i - u j) ^ 2 = R i * u i ^ 2 * R j + R i * (R j * u j ^ 2) - 2 * (R i * u i * (R j * u j)) := fun i j => by ring
    simp only [a1, sum_sub_distrib, sum_add_distrib, ← mul_sum, ← sum_mul, hu]
    ring
  have e2 : ∑ i ∈ range n, ∑ j ∈ range n, R i * R j * (u i - u j) ^ 2 ≤ ∑ i ∈ range n, ∑ j ∈ range n, R i * R j * (C * gaps n T u) :=
    sum_le_sum fun i hi => sum_le_sum fun j hj =>
      mul_le_mul_of_nonneg_left (hg i j (mem_range.1 hi) (mem_range.1 hj) u) (mul_pos (hR i (mem_range.1 hi)) (hR j (mem_range.1 hj))).le
  have e3 : ∑ i ∈ range n, ∑ j ∈ range n, R i * R j * (C * gaps n T u) = (∑ i ∈ range n, R i) * ((∑ i ∈ range n, R i) * (C * gaps n T u)) := by
    simp only [← sum_mul, ← mul_sum]; ring
  rw [e1, e3] at e2
  have e4 : 0 ≤ (∑ i ∈ range n, R i) * ∑ i ∈ range n, R i * u i ^ 2 := mul_nonneg hW.le (sum_nonneg fun i hi => mul_nonneg (hR i (mem_range.1 hi)).le (sq_nonneg _))
  have e5 : (∑ i ∈ range n, R i) * ∑ i ∈ range n, R i * u i ^ 2 ≤ (∑ i ∈ range n, R i) * ((∑ i ∈ range n, R i) * (C * gaps n T u)) := by linarith
  have := le_of_mul_le_mul_left e5 hW
  linarith

/-- One implicit step without sources: the energy falls by at least the differences left. -/
lemma energy_step {n : ℕ} {T : ℕ → ℕ → K} (h : Network n T) {R : ℕ → K} (hR : ∀ i, i < n → 0 < R i) {p x : ℕ → K}
    (hs : ∀ i, i < n → R i * (x i - p i) = ∑ j ∈ range n, T i j * (x j - x i)) :
    ∑ i ∈ range n, R i * x i ^ 2 + gaps n T x ≤ ∑ i ∈ range n, R i * p i ^ 2 := by
  have e1 : ∑ i ∈ range n, 2 * x i * (R i * (x i - p i)) = - gaps n T x := by
    rw [sum_congr rfl fun i hi => by rw [hs i (mem_range.1 hi)]]
    have a1 : ∑ i ∈ range n, 2 * x i * ∑ j ∈ range n, T i j * (x j - x i) = ∑ i ∈ range n, ∑ j ∈ range n, 2 * x i * (T i j * (x j - x i)) :=
      sum_congr rfl fun i _ => mul_sum _ _ _
    have a2 : ∑ i ∈ range n, ∑ j ∈ range n, 2 * x i * (T i j * (x j - x i)) = ∑ i ∈ range n, ∑ j ∈ range n, 2 * x j * (T i j * (x i - x j)) := by
      rw [sum_comm]
      exact sum_congr rfl fun i hi => sum_congr rfl fun j hj => by rw [h.symm i j (mem_range.1 hi) (mem_range.1 hj)]
    have a3 : ∑ i ∈ range n, ∑ j ∈ range n, 2 * x i * (T i j * (x j - x i)) + ∑ i ∈ range n, ∑ j ∈ range n, 2 * x j * (T i j * (x i - x j)) = - 2 * gaps n T x := by
      unfold gaps
      rw [← sum_add_distrib, mul_sum]
      refine sum_congr rfl fun i _ => ?_
      rw [← sum_add_distrib, mul_sum]
      exact sum_congr rfl fun j _ => by ring
    rw [a1]
    rw [← a2] at a3
    linarith
  have e2 : ∑ i ∈ range n, (R i * x i ^ 2 - R i * p i ^ 2) ≤ ∑ i ∈ range n, 2 * x i * (R i * (x i - p i)) :=
    sum_le_sum fun i hi => by nlinarith [mul_nonneg (hR i (mem_range.1 hi)).le (sq_nonneg (x i - p i))]
  rw [sum_sub_distrib] at e2
  linarith

/-- What has mean zero loses a fixed share of its energy in every implicit step. -/
lemma energy_contract {n : ℕ} {T : ℕ → ℕ → K} (h : Network n T) (hn : 0 < n) {R : ℕ → K} (hR : ∀ i, i < n → 0 < R i) :
    ∃ ρ : K, 0 ≤ ρ ∧ ρ < 1 ∧ ∀ p x : ℕ → K, (∀ i, i < n → R i * (x i - p i) = ∑ j ∈ range n, T i j * (x j - x i)) → ∑ i ∈ range n, R i * x i = 0 →
      ∑ i ∈ range n, R i * x i ^ 2 ≤ ρ * ∑ i ∈ range n, R i * p i ^ 2 := by
  obtain ⟨C, hC, hp⟩ := poincare h hn hR
  have h1 : (0 : K) < 1 + C := by linarith
  refine ⟨C / (1 + C), div_nonneg hC h1.le, by rw [div_lt_one h1]; linarith, fun p x hs hx => ?_⟩
  have a := energy_step h hR hs
  have b := hp x hx
  rw [div_mul_eq_mul_div, le_div_iff₀ h1]
  nlinarith [mul_le_mul_of_nonneg_left a hC]

/-! ## Steps -/

/-- What flows into the cell at position `i` from outside. -/
def rateIn (e : Env K) (m : Mdl K) (i : ℕ) : K :=
  (m.bdict.map fun b => if e.behind b.1 = some (e.at i) then b.2.2 else 0).sum + (m.wells.map fun w => if w.1 = e.at i then w.2.qsp.getD 0 else 0).sum

lemma forall2_map_sum {α β : Type} {r : α → β → Prop} {f : α → K} {g : β → K} {l : List α} {l' : List β} (h : List.Forall₂ r l l') (hfg : ∀ a b, b ∈ l' → r a b → g b = f a) :
    (l.map f).sum = (l'.map g).sum := by
  induction h with
  | nil => rfl
  | cons h0 _ ih => rw [List.map_cons, List.map_cons, List.sum_cons, List.sum_cons, hfg _ _ (by simp) h0, ih fun a b hb => hfg a b (by simp [hb])]

lemma atTarget_calm {e : Env K} {vect v : Bool} {m m' : Mdl K} (h : AtTarget e vect v m m') : Calm v m m' :=
  ⟨fun x _ hx _ _ hc => absurd (hc.symm.trans (h.2.2 x hx)) (by simp), fun _ x hx hc => absurd (hc.symm.trans (h.2.2 x hx)) (by simp)⟩

lemma outside_target {c : Ctx K} {m0 m m' : Mdl K} {s : Sol K} {vect : Bool} (hr : Ready c m0) (hcl : GivenRates c.e m0) (hi : Inv c.e m0 m s) (hq : QInv c.lower c.e m s)
    (hP : AtTarget c.e vect vect m m') (p : K) (i : ℕ) : outsideIn c.e m (usedRate vect m s) p i = rateIn c.e m0 i := by
  unfold outsideIn rateIn
  congr 1
  · rw [hi.same.bdict]
    congr 1
    refine List.map_congr_left fun b hb => ?_
    obtain ⟨id, T, hF⟩ := hcl.faces b hb
    have hu : usedRate vect m s b.1 = b.2.2 := by
      rw [usedRate_eq hr.ctx.wf hr.started.mdl hi vect hb (hcl.rates b hb)]
      cases vect
      · rfl
      · exact hcl.given b hb (hcl.rates b hb)
    unfold boundaryIn
    rw [behind_of_face hF, show c.e.transC b.1 false = _ from hF]
    dsimp only
    rw [if_neg (hcl.rates b hb), hu]
    simp only [Option.some.injEq]
  · refine (forall2_map_sum hi.same.wells fun x w hw h => ?_).symm
    unfold wellIn wellFlow
    rw [h.1, hP.2.2 w hw, hq.tame w hw (hP.2.2 w hw), h.2.2.2]

/-- The balance of every cell at every step of a history. -/
lemma hist_flow {c : Ctx K} {m0 m : Mdl K} {s : Sol K} {vect : Bool} (hr : Ready c m0) (hx : Exact c.lin) (hcl : GivenRates c.e m0) (hh : Hist c (AtTarget c.e vect) m0 m s) :
    ∀ t, t < s.tstep → ∀ i, i < c.e.n →
      c.e.rhs (c.e.at i) * (s.inner c.e (t + 1) i - s.inner c.e t i) = flowIn c.e (c.e.trans vect) (s.inner c.e (t + 1)) i + rateIn c.e m0 i := by
  have wk : ∀ {m s}, Hist c (AtTarget c.e vect) m0 m s → Hist c Calm m0 m s := fun h => h.weaken fun _ _ _ h => atTarget_calm h
  induction hh with
  | start => exact fun t h => absurd h (by show ¬ t < 0; omega)
  | @step m s v m' s' h ha hp ih =>
    obtain ⟨hi, hq⟩ := hr.calm (wk h)
    obtain ⟨_, _, _, _, _, p, r', _, h2⟩ := attempted hr.ctx.lower hr.ctx.wf hi ha
    obtain rfl := hp.1
    intro t t1 i hin
    rw [h2.tstep] at t1
    have old : ∀ t, t ≤ s.tstep → s'.inner c.e t = s.inner c.e t := fun t ht => by
      funext j
      unfold Sol.inner
      rw [h2.press, rowAt_append_lt (by rw [hi.plen]; omega)]
    rcases Nat.lt_or_ge t s.tstep with h | h
    · rw [old (t + 1) (by omega), old t (by omega)]
      exact ih t h i hin
    · have et : t = s.tstep := by omega
      subst et
      have hb := step_balance hr.ctx hx hi hq hp.2.1 (atTarget_calm hp).2 ha i hin
      unfold excess at hb
      rw [outside_target hr hcl hi hq hp] at hb
      rw [old s.tstep le_rfl, ← h2.tstep]
      unfold flowIn
      linarith
  | @again m s v m' s' h ha hp ih =>
    obtain ⟨_, _, _, _, _, _, _, _, h2⟩ := attempted hr.ctx.lower hr.ctx.wf (hr.inv (wk h)) ha
    obtain ⟨e1, e2, e3⟩ := back_attempted (hr.inv (wk h)) h2
    unfold Sol.inner at ih ⊢
    rw [e1, e3]
    exact ih
  | @look m s v m' s' A d h ha ih =>
    obtain ⟨-, vA, bV, res, sM, rfl⟩ := assemble_frame ha
    exact ih
  | clock n t h ih => exact ih

lemma flow_total {e : Env K} {T : ℕ → ℕ → K} (h : Network e.n T) (x : ℕ → K) : ∑ i ∈ range e.n, flowIn e T x i = 0 := by
  unfold flowIn
  have a2 : ∑ i ∈ range e.n, ∑ j ∈ range e.n, T i j * (x j - x i - e.grav * (e.z (e.at j) - e.z (e.at i))) =
      ∑ i ∈ range e.n, ∑ j ∈ range e.n, T i j * (x i - x j - e.grav * (e.z (e.at i) - e.z (e.at j))) := by
    rw [sum_comm]
    exact sum_congr rfl fun i hi => sum_congr rfl fun j hj => by rw [h.symm i j (mem_range.1 hi) (mem_range.1 hj)]
  have a3 : ∑ i ∈ range e.n, ∑ j ∈ range e.n, T i j * (x j - x i - e.grav * (e.z (e.at j) - e.z (e.at i))) +
      ∑ i ∈ range e.n, ∑ j ∈ range e.n, T i j * (x i - x j - e.grav * (e.z (e.at i) - e.z (e.at j))) = 0 := by
    rw [← sum_add_distrib]
    refine sum_eq_zero fun i _ => ?_
    rw [← sum_add_distrib]
    exact sum_eq_zero fun j _ => by ring
  rw [← a2] at a3
  linarith

lemma sum_pick {e : Env K} (he : e.WF) {a : ℕ} (ha : a ∈ e.ids) (v : K) : ∑ i ∈ range e.n, (if a = e.at i then v else 0) = v := by
  rw [← sum_ids e fun id => if a = id then v else 0, ← List.sum_toFinset _ he.nodup, sum_ite_eq, if_pos (List.mem_toFinset.2 ha)]

lemma sum_swap {α : Type} {n : ℕ} (l : List α) (f : ℕ → α → K) (g : α → K) (h : ∀ a ∈ l, ∑ i ∈ range n, f i a = g a) : ∑ i ∈ range n, (l.map (f i)).sum = (l.map g).sum := by
  induction l with
  | nil => simp
  | cons a l ih =>
    simp only [List.map_cons, List.sum_cons]
    rw [sum_add_distrib, h a (by simp), ih fun b hb => h b (by simp [hb])]

lemma rateIn_total {c : Ctx K} {m0 : Mdl K} (hr : Ready c m0) (hcl : GivenRates c.e m0) : ∑ i ∈ range c.e.n, rateIn c.e m0 i = totalRate m0 := by
  have he := hr.ctx.wf
  unfold rateIn totalRate
  rw [sum_add_distrib]
  congr 1
  · refine sum_swap _ (fun i (b : ℕ × String × K) => if c.e.behind b.1 = some (c.e.at i) then b.2.2 else 0) _ fun b hb => ?_
    obtain ⟨id, T, hF⟩ := hcl.faces b hb
    rw [behind_of_face hF]
    simp only [Option.some.injEq]
    refine sum_pick he ?_ _
    have hF' : c.e.transC b.1 false = .ok [(id, T)] := hF
    rcases he.face b.1 (hr.started.mdl.bmem b hb) with h | ⟨id', T', hid, -, h⟩
    · rw [h] at hF'; cases hF'
    · rw [show c.e.transC b.1 false = _ from h] at hF'; cases hF'; exact hid
  · exact sum_swap _ (fun i (w : ℕ × Well K) => if w.1 = c.e.at i then w.2.qsp.getD 0 else 0) _ fun w hw => sum_pick he (hr.started.mdl.wmem w hw) _

lemma capacity_eq (e : Env K) : capacity e = ∑ i ∈ range e.n, e.rhs (e.at i) := sum_ids e e.rhs

lemma change_inner (e : Env K) (s : Sol K) (t i : ℕ) : change s t (e.at i) = s.inner e (t + 1) i - s.inner e t i := rfl

lemma spread_eq (e : Env K) (s : Sol K) (v : K) (t : ℕ) : spread e s v t = ∑ i ∈ range e.n, e.rhs (e.at i) * (s.inner e (t + 1) i - s.inner e t i - v) ^ 2 :=
  sum_ids e fun id => e.rhs id * (change s t id - v) ^ 2

/-- **C87** (mean), partial: with given rates only, the mean pressure, weighted with the capacities of the cells, changes in every step by the total rate divided by the total capacity. -/
theorem C87_mean_partial {c : Ctx K} {m0 m : Mdl K} {s : Sol K} {vect : Bool} (hr : Ready c m0) (hx : Exact c.lin) (hcl : GivenRates c.e m0) (hh : Hist c (AtTarget c.e vect) m0 m s) :
    ∀ t, t < s.tstep → (c.e.ids.map fun id => c.e.rhs id * change s t id).sum = totalRate m0 := by
  intro t ht
  rw [sum_ids c.e fun id => c.e.rhs id * change s t id]
  have := sum_congr rfl fun i (hi : i ∈ range c.e.n) => hist_flow hr hx hcl hh t ht i (mem_range.1 hi)
  rw [sum_add_distrib, flow_total (hr.ctx.grid.network vect), zero_add, rateIn_total hr hcl] at this
  exact this

/-- **C87** (pseudo-steady state), partial: with given rates only, the changes of the pressures approach one common value in all cells, total rate over total capacity, at least as fast as a geometric
sequence whose ratio depends on the reservoir only and not on the rates, the wells or the start. Missing: wells that go over to their limits (then the reservoir is not closed, see C69). -/
theorem C87_pseudo_partial {c : Ctx K} (hc : CtxOK c) (hx : Exact c.lin) (hcomp : c.e.comp = true) (vect : Bool) :
    ∃ ρ : K, 0 ≤ ρ ∧ ρ < 1 ∧ ∀ (m0 m : Mdl K) (s : Sol K), Ready c m0 → GivenRates c.e m0 → Hist c (AtTarget c.e vect) m0 m s →
      ∀ t, t < s.tstep → spread c.e s (totalRate m0 / capacity c.e) t ≤ ρ ^ t * spread c.e s (totalRate m0 / capacity c.e) 0 := by
  have he := hc.wf
  have hR : ∀ i, i < c.e.n → 0 < c.e.rhs (c.e.at i) := fun i hi => he.rhsC hcomp _ (at_mem c.e hi)
  have hW : 0 < capacity c.e := by rw [capacity_eq]; exact sum_pos (fun i hi => hR i (mem_range.1 hi)) ⟨0, mem_range.2 he.pos⟩
  obtain ⟨ρ, h1, h2, h3⟩ := energy_contract (hc.grid.network vect) he.pos hR
  refine ⟨ρ, h1, h2, fun m0 m s hr hcl hh t => ?_⟩
  induction t with
  | zero => intro _; rw [pow_zero, one_mul]
  | succ t ih =>
    intro ht
    have a1 := hist_flow hr hx hcl hh t (by omega)
    have a2 := hist_flow hr hx hcl hh (t + 1) ht
    have a3 := C87_mean_partial hr hx hcl hh (t + 1) ht
    rw [sum_ids c.e fun id => c.e.rhs id * change s (t + 1) id] at a3
    refine (?_ : spread c.e s (totalRate m0 / capacity c.e) (t + 1) ≤ ρ * spread c.e s (totalRate m0 / capacity c.e) t).trans ?_
    · rw [spread_eq, spread_eq]
      refine h3 _ (fun i => s.inner c.e (t + 1 + 1) i - s.inner c.e (t + 1) i - totalRate m0 / capacity c.e) (fun i hi => ?_) ?_
      · have b1 := a1 i hi
        have b2 := a2 i hi
        unfold flowIn at b1 b2
        have b3 : ∑ j ∈ range c.e.n, c.e.trans vect i j * (s.inner c.e (t + 1 + 1) j - s.inner c.e (t + 1) j - totalRate m0 / capacity c.e -
            (s.inner c.e (t + 1 + 1) i - s.inner c.e (t + 1) i - totalRate m0 / capacity c.e)) =
            ∑ j ∈ range c.e.n, c.e.trans vect i j * (s.inner c.e (t + 1 + 1) j - s.inner c.e (t + 1 + 1) i - c.e.grav * (c.e.z (c.e.at j) - c.e.z (c.e.at i))) -
            ∑ j ∈ range c.e.n, c.e.trans vect i j * (s.inner c.e (t + 1) j - s.inner c.e (t + 1) i - c.e.grav * (c.e.z (c.e.at j) - c.e.z (c.e.at i))) := by
          rw [← sum_sub_distrib]
          exact sum_congr rfl fun j _ => by ring
        rw [b3]
        linear_combination b2 - b1
      · simp only [mul_sub (c.e.rhs _) _ (totalRate m0 / capacity c.e)]
        rw [sum_sub_distrib, ← sum_mul, ← capacity_eq, mul_div_cancel₀ _ hW.ne']
        simp only [change_inner] at a3
        rw [a3, sub_self]
    · rw [pow_succ', mul_assoc]
      exact mul_le_mul_of_nonneg_left (ih (by omega)) h1

/-- The change of the pressure of each cell: what the weighted sum of squares says about one of them. -/
theorem C87_cells_partial {c : Ctx K} (hc : CtxOK c) (hx : Exact c.lin) (hcomp : c.e.comp = true) (vect : Bool) :
    ∃ ρ : K, 0 ≤ ρ ∧ ρ < 1 ∧ ∀ (m0 m : Mdl K) (s : Sol K), Ready c m0 → GivenRates c.e m0 → Hist c (AtTarget c.e vect) m0 m s →
      ∀ t, t < s.tstep → ∀ id, id ∈ c.e.ids →
        (change s t id - totalRate m0 / capacity c.e) ^ 2 ≤ ρ ^ t * (spread c.e s (totalRate m0 / capacity c.e) 0 / c.e.rhs id) := by
  obtain ⟨ρ, h1, h2, h3⟩ := C87_pseudo_partial hc hx hcomp vect
  refine ⟨ρ, h1, h2, fun m0 m s hr hcl hh t ht id hid => ?_⟩
  have hR := hc.wf.rhsC hcomp id hid
  rw [← mul_div_assoc, le_div_iff₀ hR, mul_comm]
  refine le_trans ?_ (h3 m0 m s hr hcl hh t ht)
  unfold spread
  exact List.single_le_sum (fun x hx => by
    obtain ⟨j, hj, rfl⟩ := List.mem_map.1 hx
    exact mul_nonneg (hc.wf.rhsC hcomp j hj).le (sq_nonneg _)) _ (List.mem_map.2 ⟨id, hid, rfl⟩)

/-! ## Example -/

/-- Three given rates: a producer in cell 2, an influx on the right and an outflow on the left. -/
def exPseudo : Mdl ℚ := exMdl true 0 [] (some 90) [(0, "rate", -2), (3, "rate", 1)] [(2, { q := some (-4), pwf := some 2, r := some 1 })]

lemma exPseudo_ready : Ready (exC true 0 []) exPseudo := exMdl_ready (by decide +kernel)

lemma exPseudo_rates : GivenRates (exC true 0 []).e exPseudo :=
  ⟨all_of (p := fun b : ℕ × String × ℚ => b.2.1 ≠ "pressure") (by decide +kernel), all_of (p := fun b : ℕ × String × ℚ => b.2.1 ≠ "pressure" → exPseudo.initR b.1 = b.2.2) (by decide +kernel),
    onFaces_of (by decide +kernel)⟩

/-- `SolveAll c (AtTarget …)`, computed. -/
def targetB (c : Ctx ℚ) (vect : Bool) (m : Mdl ℚ) (s : Sol ℚ) : Bool :=
  m.wells.all (fun w => decide (w.2.con = some .q)) && match attempt c vect m s with
    | .error _ => true
    | .ok (_, _, again) => !again

lemma targetB_all {c : Ctx ℚ} {fuel : ℕ} {vect : Bool} (hf : vect = true → c.e.Flat) {m : Mdl ℚ} {s : Sol ℚ} (h : targetB c vect m s = true) : SolveAll c (AtTarget c.e vect) fuel vect m s := by
  cases fuel with
  | zero => trivial
  | succ n =>
    intro m' s' again ha
    unfold targetB at h
    rw [ha] at h
    simp only [Bool.and_eq_true, List.all_eq_true, decide_eq_true_eq, Bool.not_eq_true'] at h
    exact ⟨⟨rfl, hf, h.1⟩, fun hag => by rw [h.2] at hag; cases hag⟩

def exTargetB (c : Ctx ℚ) (vect : Bool) : ℕ → Mdl ℚ → Bool
  | 0, _ => true
  | n + 1, m => exTargetB c vect n m && targetB c vect (exRun c vect n m).1 (exRun c vect n m).2

lemma exTarget_hist {c : Ctx ℚ} {m : Mdl ℚ} (hr : Ready c m) {vect : Bool} (hf : vect = true → c.e.Flat) {n : ℕ} (h : exTargetB c vect n m = true) :
    Hist c (AtTarget c.e vect) m (exRun c vect n m).1 (exRun c vect n m).2 := by
  induction n with
  | zero => exact .start
  | succ n ih =>
    unfold exTargetB at h
    rw [Bool.and_eq_true] at h
    unfold exRun
    rcases hs : solve c 10 vect true (exRun c vect n m).1 (exRun c vect n m).2 with x | ⟨m', s'⟩
    · exact ih h.1
    · exact (ih h.1).solve hr.ctx.lower hr.ctx.wf hr.started.mdl (targetB_all hf h.2) hs

/-- Four steps with the rates −2, 1 and −4: the changes differ at first. -/
example (vect : Bool) : (exRun (exC true 0 []) vect 4 exPseudo).2.tstep = 4 ∧ totalRate exPseudo = -5 ∧
    0 < spread (exC true 0 []).e (exRun (exC true 0 []) vect 4 exPseudo).2 (totalRate exPseudo / capacity (exC true 0 []).e) 0 ∧
    ∃ ρ : ℚ, ρ < 1 ∧ spread (exC true 0 []).e (exRun (exC true 0 []) vect 4 exPseudo).2 (totalRate exPseudo / capacity (exC true 0 []).e) 3 ≤
      ρ ^ 3 * spread (exC true 0 []).e (exRun (exC true 0 []) vect 4 exPseudo).2 (totalRate exPseudo / capacity (exC true 0 []).e) 0 := by
  refine ⟨by cases vect <;> decide +kernel, by decide +kernel, by cases vect <;> decide +kernel, ?_⟩
  obtain ⟨ρ, -, h2, h3⟩ := C87_pseudo_partial exPseudo_ready.ctx cramer_exact (by decide +kernel) vect
  exact ⟨ρ, h2, h3 _ _ _ exPseudo_ready exPseudo_rates (exTarget_hist exPseudo_ready (fun _ => ex_flat _) (by cases vect <;> decide +kernel)) 3 (by cases vect <;> decide +kernel)⟩

example (vect : Bool) : ((exC true 0 []).e.ids.map fun id => (exC true 0 []).e.rhs id * change (exRun (exC true 0 []) vect 4 exPseudo).2 2 id).sum = totalRate exPseudo :=
  C87_mean_partial exPseudo_ready cramer_exact exPseudo_rates (exTarget_hist exPseudo_ready (fun _ => ex_flat _) (by cases vect <;> decide +kernel)) 2 (by cases vect <;> decide +kernel)

end RF.Fdm
