import Verif.Fdm.PropsWells
import Verif.Fdm.PropsEq
import Verif.Fdm.PropsMB
import Verif.Fdm.PropsHistory
import Mathlib.LinearAlgebra.Matrix.ToLin
import Mathlib.LinearAlgebra.FiniteDimensional.Basic
/-!
# C67: simulations that cannot fail

Everything that can raise an exception in `solve` and `run` is in the model: missing values, unpacking, unknown cells, NaN
pressures, the linear solver, the recursion limit. Here is what a user has to provide so that none of it happens.
-/
set_option linter.unusedSectionVars false
namespace RF.Fdm
open RF RF.Dims Finset

variable {K : Type} [Field K] [LinearOrder K] [IsStrictOrderedRing K]

/-! ### Specification -/

/-- Only the zero pressures are taken to zero. -/
def Regular (n : ℕ) (A : ℕ → ℕ → K) : Prop := ∀ x, Solves n A (fun _ => 0) x → ∀ i, i < n → x i = 0

/-- A linear solver that answers whenever the matrix of size `n` is regular. -/
def Complete (lin : LinSolver K) (n : ℕ) : Prop := ∀ A d, Regular n A → ∃ x, lin n A d = .ok x

/-- Initial pressures are known if they matter. -/
def Given (e : Env K) (m : Mdl K) : Prop := e.comp = true → ∀ id, id ∈ e.ids → ∃ p, m.initP id = some p

/-- Every pressure condition is on a face (not on an edge or a corner cell of the padded grid). -/
def PressureFaces (e : Env K) (m : Mdl K) : Prop := ∀ c, c ∈ m.bdict → c.2.1 = "pressure" → ∃ id T, e.Face c.1 id T

/-- Every pressure condition is on a face that conducts, and its pressure is not the weight of the fluid between the two cell centres
(without gravity: not zero). -/
def Conducting (e : Env K) (m : Mdl K) : Prop :=
  ∀ c, c ∈ m.bdict → c.2.1 = "pressure" → ∃ id T, e.Face c.1 id T ∧ T ≠ 0 ∧ c.2.2 ≠ e.grav * (e.z c.1 - e.z id)

/-- Something holds the pressure level all the time: the reservoir is compressible, a conducting face has a pressure condition, or a
well has a bottom-hole pressure (not zero) and no rate. -/
def Held (e : Env K) (m : Mdl K) : Prop :=
  e.comp = true ∨ (∃ c id T, c ∈ m.bdict ∧ c.2.1 = "pressure" ∧ e.Face c.1 id T ∧ 0 < T) ∨ ∃ w, w ∈ m.wells ∧ w.2.qsp = none ∧ w.2.pwfsp ≠ some 0

/-! ### the steps of an attempt -/

lemma Conducting.faces {e : Env K} {m : Mdl K} (h : Conducting e m) : PressureFaces e m := fun c hc hp => by
  obtain ⟨id, T, h1, -⟩ := h c hc hp; exact ⟨id, T, h1⟩

/-- The loop over pressure boundaries of the first assembly succeeds. -/
lemma bounds_total {lower : String → String} (hl : LowerOK lower) {e : Env K} {m : Mdl K} (bs : List ℕ)
    (hbs : ∀ b, b ∈ bs → ∃ v id T, dictGet m.bdict b = some ("pressure", v) ∧ e.Face b id T ∧ id ∈ e.ids ∧ T ≠ 0 ∧ v ≠ e.grav * (e.z b - e.z id))
    (acc : (ℕ → ℕ → K) × List (ℕ × K × K × ℕ)) : ∃ acc', bs.foldlM (vBound lower e m) acc = .ok acc' := by
  induction bs generalizing acc with
  | nil => exact ⟨acc, rfl⟩
  | cons b bs ih =>
    obtain ⟨v, id, T, h1, h2, h3, h4, h5⟩ := hbs b (by simp)
    have : ∃ a, vBound lower e m acc b = .ok a := by
      unfold vBound
      rw [show e.transC b false = _ from h2, bind_ok]
      dsimp only
      have hv : (bTerm lower e m.bdict id b (Aff.p id) T).values id = [T * 2 * (v - e.grav * (e.z b - e.z id)), -(T * 2)] := by
        rw [bTerm_pressure hl h1, values_two]
        have h6 : v - e.grav * (e.z b - e.z id) ≠ 0 := sub_ne_zero.2 h5
        simp [Aff.smul, Aff.sub, Aff.c, Aff.p, h4, h6]
      rw [hv]
      dsimp only
      rw [cellIndex_ok.2 ⟨h3, rfl⟩, bind_ok]
      exact ⟨_, rfl⟩
    obtain ⟨a, ha⟩ := this
    obtain ⟨acc', h⟩ := ih (fun b hb => hbs b (by simp [hb])) a
    exact ⟨acc', by rw [List.foldlM_cons, ha, bind_ok]; exact h⟩

/-- The vectorised assembly succeeds. -/
lemma matricesVect_total {lower : String → String} (hl : LowerOK lower) {e : Env K} (he : e.WF) {m : Mdl K} (hm : MdlOK e m) {s : Sol K} (hv : VInv e m s)
    (hc : Conducting e m) (hp : e.comp = true → ∀ id, id ∈ e.ids → (rowAt s.press s.tstep none id).isSome = true) :
    ∃ x, matricesVect lower e m s = .ok x := by
  have hfresh : ∃ y, (do
      let (A, bV) ← m.bUpdate.foldlM (vBound lower e m) (initA e, [])
      pure (A, bV, fun _ => false) : Except Err ((ℕ → ℕ → K) × List (ℕ × K × K × ℕ) × (ℕ → Bool))) = .ok y := by
    obtain ⟨a, ha⟩ := bounds_total hl (e := e) (m := m) m.bUpdate (fun b hb => by
      obtain ⟨v, hv⟩ := upd_pressure hm hb
      have hmem := mem_of_dictGet hv
      obtain ⟨id, T, h1, h2, h3⟩ := hc _ hmem rfl
      exact ⟨v, id, T, hv, h1, (face_mem he (hm.bmem _ hmem) h1).1, h2, h3⟩) (initA e, [])
    rw [ha, bind_ok]; exact ⟨_, rfl⟩
  have hR : ∃ y, vReady lower e m s = .ok y := by
    unfold vReady
    split
    · split_ifs
      · exact hfresh
      · exact ⟨_, rfl⟩
    · exact hfresh
  obtain ⟨⟨A0, bV, res0⟩, h0⟩ := hR
  obtain ⟨hk, -⟩ := vReady_ok hl he hm hv h0
  have hD : ∃ d, initD e s = .ok d := by
    unfold initD
    rcases hcomp : e.comp
    · exact ⟨_, rfl⟩
    · rw [if_pos rfl, if_pos (List.all_eq_true.2 (hp hcomp))]; exact ⟨_, rfl⟩
  obtain ⟨d0, h1⟩ := hD
  obtain ⟨acc, a0, -⟩ := wells_ok he.B he.mu he.nodup s m.wells hm.wkeys (fun x hx => ⟨hm.well x hx, hm.wmem x hx⟩) ⟨A0, d0, res0, false⟩
  obtain ⟨d1, b0, -⟩ := bds_ok he s (bV := bV) m.bdict hm.bmem (fun x hx hp => by
    obtain ⟨id, T, c, hF, hid, -, hg⟩ := hk.bv x.1 (upd_of_mem hm hx hp) x.2.2 (by rw [dictGet_of_mem hm.bkeys hx, ← hp])
    exact ⟨id, T, c, hF, hid, hg⟩) acc.d
  unfold matricesVect
  rw [h0, bind_ok]
  dsimp only
  rw [h1, bind_ok, a0, bind_ok, b0, bind_ok]
  exact ⟨_, rfl⟩

/-- The loop over pressure boundaries after a solve succeeds. -/
lemma updateBounds_total {lower : String → String} {e : Env K} {m : Mdl K} (p : ℕ → Option K) (bs : List ℕ)
    (hbs : ∀ b, b ∈ bs → ∃ id T, e.Face b id T) (r : ℕ → K) : ∃ r', bs.foldlM (fun r idb => do
      match ← e.transC idb false with
      | [(id, T)] => pure (Function.update r idb (bTerm lower e m.bdict id idb (Aff.c ((p id).getD 0)) T).const)
      | _ => .error .value) r = .ok r' := by
  induction bs generalizing r with
  | nil => exact ⟨r, rfl⟩
  | cons b bs ih =>
    obtain ⟨id, T, h⟩ := hbs b (by simp)
    rw [List.foldlM_cons, show e.transC b false = _ from h, bind_ok]
    dsimp only
    exact ih (fun b hb => hbs b (by simp [hb])) _

/-- Once the system is assembled and solved an attempt succeeds. -/
lemma attempt_total {c : Ctx K} (hl : LowerOK c.lower) (he : c.e.WF) {m0 m m1 : Mdl K} {s s1 : Sol K} {vect : Bool} (hi : Inv c.e m0 m s) (hf : PressureFaces c.e m0)
    {A : ℕ → ℕ → K} {d x : ℕ → K} (ha : assemble c vect m s = .ok (m1, s1, A, d)) (hx : c.lin c.e.n A d = .ok x) : ∃ y, attempt c vect m s = .ok y := by
  have h1 := hi.assemble hl he ha
  obtain ⟨r, hr⟩ := updateBounds_total (lower := c.lower) (e := c.e) (m := m1) (newRow c.e.ids (lastRow s1.press none) x) m1.bUpdate (fun b hb => by
    obtain ⟨v, hv⟩ := upd_pressure h1.mdl hb
    have hmem := mem_of_dictGet hv
    rw [h1.same.bdict] at hmem
    exact hf _ hmem rfl) (lastRow s1.rates 0)
  obtain ⟨ws, r', ps, ag, hw, -⟩ := updateWells_ok (e := c.e) (newRow c.e.ids (lastRow s1.press none) x) m1.wells h1.mdl.well h1.mdl.wkeys r
  unfold attempt
  rw [ha, bind_ok]
  dsimp only
  rw [hx, bind_ok]
  have hr' : updateBounds c.lower c.e m1 (newRow c.e.ids (lastRow s1.press none) x) (lastRow s1.rates 0) = .ok r := hr
  rw [hr', bind_ok, hw, bind_ok]
  exact ⟨_, rfl⟩

/-! ### pressures of all cells are known -/

lemma Hist.known {c : Ctx K} {m0 m : Mdl K} {s : Sol K} (hr : Ready c m0) {P : Bool → Mdl K → Mdl K → Prop} (hg : ∀ id, id ∈ c.e.ids → ∃ p, m0.initP id = some p)
    (hh : Hist c P m0 m s) : ∀ t, t ≤ s.tstep → ∀ id, id ∈ c.e.ids → (rowAt s.press t none id).isSome = true := by
  have step : ∀ {m m' : Mdl K} {s s' : Sol K} {vect again : Bool}, Hist c P m0 m s → (∀ t, t ≤ s.tstep → ∀ id, id ∈ c.e.ids → (rowAt s.press t none id).isSome = true) →
      attempt c vect m s = .ok (m', s', again) → s'.tstep = s.tstep + 1 ∧ s'.press.length = s.tstep + 2 ∧ ∀ t, t ≤ s.tstep + 1 → ∀ id, id ∈ c.e.ids → (rowAt s'.press t none id).isSome = true := by
    intro m m' s s' vect again h ih ha
    have hi := hr.inv h
    obtain ⟨m1, s1, A, d, x, p, r', ps, h1⟩ := attempted hr.ctx.lower hr.ctx.wf hi ha
    refine ⟨h1.tstep, by rw [h1.press]; simp [hi.plen], fun t ht id hid => ?_⟩
    rw [h1.press]
    rcases Nat.lt_or_ge t (s.tstep + 1) with h2 | h2
    · rw [rowAt_append_lt (by rw [hi.plen]; exact h2)]; exact ih t (by omega) id hid
    · rw [rowAt_append_eq (by rw [hi.plen]; omega), h1.peq]
      unfold newRow; rw [if_pos hid]; rfl
  induction hh with
  | start =>
    intro t ht id hid
    obtain rfl : t = 0 := by simpa [Sol.init] using ht
    obtain ⟨p, hp⟩ := hg id hid
    show (m0.initP id).isSome = true
    rw [hp]; rfl
  | step h ha _ ih =>
    obtain ⟨h1, -, h2⟩ := step h ih ha
    rw [h1]; exact h2
  | @again m s vect m' s' h ha _ ih =>
    obtain ⟨h1, -, h2⟩ := step h ih ha
    intro t ht id hid
    have ht' : t ≤ s'.tstep - 1 := ht
    show (rowAt (s'.press.take s'.tstep) t none id).isSome = true
    rw [rowAt_take (by omega)]
    exact h2 t (by omega) id hid
  | look _ ha ih =>
    obtain ⟨-, vA, bV, res, sM, hs⟩ := assemble_frame ha
    rw [show _ = _ from hs]; exact ih
  | clock n t _ ih => exact ih

/-- A well without a target rate stays at its limit. -/
lemma Hist.limit {c : Ctx K} {m0 m : Mdl K} {s : Sol K} (hr : Ready c m0) {P : Bool → Mdl K → Mdl K → Prop} (hh : Hist c P m0 m s) :
    ∀ w, w ∈ m.wells → w.2.qsp = none → w.2.con = some .pwf := by
  have move : ∀ {m m' : Mdl K} {s s' : Sol K} {vect again : Bool}, Hist c P m0 m s → (∀ w, w ∈ m.wells → w.2.qsp = none → w.2.con = some .pwf) →
      attempt c vect m s = .ok (m', s', again) → ∀ w, w ∈ m'.wells → w.2.qsp = none → w.2.con = some .pwf := by
    intro m m' s s' vect again h ih ha w hw hq
    obtain ⟨m1, s1, A, d, x, p, r', ps, h1⟩ := attempted hr.ctx.lower hr.ctx.wf (hr.inv h) ha
    obtain ⟨y, hy, h2, h3⟩ := (forall2_mem h1.move).1 w hw
    have hq' : y.2.qsp = none := by rw [← h3.same.2.2]; exact hq
    exact move_pwf h3 hq' (ih y hy hq')
  induction hh with
  | start =>
    intro w hw hq
    have h1 := hr.cfg w hw
    have h2 := ((hr.started.mdl.well w hw).free hq).2
    rcases hc : w.2.con with _ | _ | _
    · exact absurd hc h1
    · exact absurd hc h2
    · rfl
  | step h ha _ ih => exact move h ih ha
  | again h ha _ ih => exact move h ih ha
  | look _ ha ih =>
    obtain ⟨⟨ts, hm⟩, -⟩ := assemble_frame ha
    rw [show _ = _ from hm]; exact ih
  | clock n t _ ih => exact ih

/-! ### the vectorised matrix is regular -/

/-- What the vectorised assembly takes from the diagonals holds the pressure level. -/
lemma vect_leaky {e : Env K} (he : e.WF) {m : Mdl K} (hm : MdlOK e m) (hh : Held e m) (hw : ∀ w, w ∈ m.wells → w.2.qsp = none → w.2.con = some .pwf)
    {res : ℕ → Bool} (hr : ∀ k, onPwf m.wells k = true → res k = true) :
    Net.Leaky e.n e.transV fun i => e.rhs (e.at i) + leakB e m i + leakW e m.wells res i := by
  have h1 : ∀ i, i < e.n → 0 ≤ e.rhs (e.at i) := fun i hi => rhs_nonneg he (at_mem e hi)
  have g2 : ∀ i c, c ∈ m.bdict → 0 ≤ bLeak e i c := fun i c hc => bLeak_nonneg he i (hm.bmem c hc)
  have h2 : ∀ i, 0 ≤ leakB e m i := fun i => by rw [leakB_eq hm]; exact sum_nonneg' (g2 i)
  have g3 : ∀ i w, w ∈ m.wells → 0 ≤ (if w.1 = e.at i ∧ res w.1 = true then wCond e w.2 else 0) := by
    intro i w hw'
    split_ifs
    · unfold wCond; split_ifs
      · exact le_rfl
      · exact (windex_pos he.B he.mu (hm.well w hw')).le
    · exact le_rfl
  have h3 : ∀ i, 0 ≤ leakW e m.wells res i := fun i => sum_nonneg' (g3 i)
  refine he.network.leaky (fun i hi => by have := h1 i hi; have := h2 i; have := h3 i; linarith) ?_
  rcases hh with hc | ⟨c, id, T, hc, hp, hF, hT⟩ | ⟨w, hw', hq, hz⟩
  · refine ⟨0, he.pos, ?_⟩
    have := he.rhsC hc _ (at_mem e he.pos); have := h2 0; have := h3 0
    linarith
  · have hid := (face_mem he (hm.bmem c hc) hF).1
    refine ⟨e.ids.idxOf id, idx_lt e hid, ?_⟩
    have a1 := h1 _ (idx_lt e hid)
    have a3 := h3 (e.ids.idxOf id)
    have a2 : 0 < leakB e m (e.ids.idxOf id) := by
      rw [leakB_eq hm]
      refine lt_of_lt_of_le ?_ (le_sum_of_mem (g2 _) hc)
      unfold bLeak faceLeak
      rw [if_pos hp, show e.transC c.1 false = _ from hF]
      dsimp only
      rw [if_pos (at_idx e hid).symm]; positivity
    linarith
  · have hid := hm.wmem w hw'
    refine ⟨e.ids.idxOf w.1, idx_lt e hid, ?_⟩
    have a1 := h1 _ (idx_lt e hid)
    have a2 := h2 (e.ids.idxOf w.1)
    have a3 : 0 < leakW e m.wells res (e.ids.idxOf w.1) := by
      unfold leakW
      refine lt_of_lt_of_le ?_ (le_sum_of_mem (g3 _) hw')
      rw [if_pos ⟨(at_idx e hid).symm, hr _ ((onPwf_iff hm.wkeys hw').2 (hw w hw' hq))⟩]
      unfold wCond
      rw [if_neg hz]
      exact windex_pos he.B he.mu (hm.well w hw')
    linarith

lemma regular_of_leaky {n : ℕ} {T : ℕ → ℕ → K} {D : ℕ → K} (h : Net.Leaky n T D) {A : ℕ → ℕ → K} (hA : ∀ i, i < n → ∃ k, k ≠ 0 ∧ ∀ x, ∑ j ∈ range n, A i j * x j = k * Net.inflow n T D x i) :
    Regular n A := by
  intro x hx i hi
  refine Net.eq_of_inflow_eq (p := x) (q := fun _ => 0) h (fun j hj => ?_) i hi
  obtain ⟨k, hk, h1⟩ := hA j hj
  have := hx j hj
  rw [h1] at this
  rw [(mul_eq_zero.1 this).resolve_left hk]
  unfold Net.inflow; simp

lemma SameMdl.held {e : Env K} {m m' : Mdl K} (h : SameMdl m m') (hh : Held e m) : Held e m' := by
  rcases hh with hc | hc | ⟨w, hw, hq, hz⟩
  · exact .inl hc
  · rw [← h.bdict] at hc; exact .inr (.inl hc)
  · obtain ⟨y, hy, h1⟩ := (forall2_mem h.wells).2 w hw
    exact .inr (.inr ⟨y, hy, by rw [h1.2.2.2]; exact hq, by rw [h1.2.2.1]; exact hz⟩)

/-- Every attempt with the vectorised assembler succeeds, whatever happened before. -/
lemma vect_attempt {c : Ctx K} {m0 m : Mdl K} {s : Sol K} (hr : Ready c m0) (hlin : Complete c.lin c.e.n) (hg : Given c.e m0) (hc : Conducting c.e m0) (hd : Held c.e m0)
    (hh : Hist c Any m0 m s) : ∃ y, attempt c true m s = .ok y := by
  have he := hr.ctx.wf
  have hi := hr.inv hh
  obtain ⟨⟨s1, A, d⟩, h1⟩ := matricesVect_total hr.ctx.lower he hi.mdl hi.vinv (by unfold Conducting; rw [hi.same.bdict]; exact hc)
    (fun hcomp id hid => hh.known hr (hg hcomp) _ le_rfl id hid)
  have ha : assemble c true m s = .ok (m, s1, A, d) := by
    unfold assemble; rw [if_pos rfl, h1]; rfl
  obtain ⟨bV, res, -, hk, hres, -⟩ := matricesVect_ok hr.ctx.lower he hi.mdl hi.vinv h1
  have hreg : Regular c.e.n A := by
    refine regular_of_leaky (vect_leaky he hi.mdl (hi.same.held hd) (hh.limit hr) (res := res) (fun k hk' => by rw [hres, hk', Bool.or_true])) fun i hin =>
      ⟨1, one_ne_zero, fun x => ?_⟩
    rw [one_mul]
    exact row_inflow he hk.mat x hin
  obtain ⟨x, hx⟩ := hlin A d hreg
  exact attempt_total hr.ctx.lower he hi hc.faces ha hx

/-! ### calls -/

/-- If every attempt succeeds and the recursion limit is not reached then so does `solve`. -/
lemma solve_total {c : Ctx K} {m0 : Mdl K} {vect : Bool} (hs : ∀ m s, Hist c Any m0 m s → ∃ y, attempt c vect m s = .ok y) (fuel : ℕ) {m : Mdl K} {s : Sol K}
    (hh : Hist c Any m0 m s) (hf : ¬ Repeats c vect fuel m s) : ∃ m' s', solve c fuel vect true m s = .ok (m', s') ∧ Hist c Any m0 m' s' := by
  induction fuel generalizing m s with
  | zero => exact absurd .zero hf
  | succ n ih =>
    obtain ⟨⟨m1, s1, again⟩, ha⟩ := hs m s hh
    unfold solve
    rw [if_pos rfl, ha, bind_ok]
    cases again
    · exact ⟨m1, s1, rfl, .step hh ha trivial⟩
    · exact ih (.again hh ha trivial) fun h => hf (.succ ha h)

/-- **C67, vectorised solve.** A simulation set up through the API, with known initial pressures if the model is compressible, pressure conditions
on conducting faces and something that holds the pressure level: after any calls of `solve` and `run` (with either assembler), the
next `solve` succeeds, provided the linear solver solves regular systems and Python's recursion limit is at least `2 ^ n` for `n` wells. -/
theorem C67_solve_partial {c : Ctx K} {m0 m : Mdl K} {s : Sol K} (hr : Ready c m0) (hlin : Complete c.lin c.e.n) (hg : Given c.e m0) (hc : Conducting c.e m0) (hd : Held c.e m0)
    {fuel : ℕ} (hfuel : 2 ^ m0.wells.length ≤ fuel) (hh : Hist c Any m0 m s) :
    ∃ m' s', solve c fuel true true m s = .ok (m', s') ∧ Hist c Any m0 m' s' := by
  refine solve_total (fun m s h => vect_attempt hr hlin hg hc hd h) fuel hh fun h => ?_
  have := C47_terminates hr hh h
  omega

/-- **C67, vectorised run.** Under the same conditions `run` completes for every number of steps and has then stored exactly that many. -/
theorem C67_run_partial {c : Ctx K} {m0 m : Mdl K} {s : Sol K} (hr : Ready c m0) (hlin : Complete c.lin c.e.n) (hg : Given c.e m0) (hc : Conducting c.e m0) (hd : Held c.e m0)
    {fuel : ℕ} (hfuel : 2 ^ m0.wells.length ≤ fuel) (hh : Hist c Any m0 m s) (n : ℕ) (t : K) :
    (run c fuel true n t m s).2 = .ok () ∧ (run c fuel true n t m s).1.2.tstep = s.tstep + n := by
  have key : ∀ n m s, Hist c Any m0 m s → (runLoop c fuel true n m s).2 = .ok () := by
    intro n
    induction n with
    | zero => exact fun _ _ _ => rfl
    | succ n ih =>
      intro m s hh
      obtain ⟨m', s', h1, h2⟩ := C67_solve_partial hr hlin hg hc hd hfuel hh
      unfold runLoop
      rw [h1]
      exact ih m' s' h2
  have h := key n m { s with nsteps := s.nsteps + n } (.clock _ s.ctime hh)
  have h1 : (run c fuel true n t m s).2 = .ok () := by
    unfold run
    rcases hE : runLoop c fuel true n m { s with nsteps := s.nsteps + n } with ⟨⟨m', s'⟩, _ | _⟩
    · rw [hE] at h; simp at h
    · rfl
  obtain ⟨e1, e2⟩ := runE_eq c fuel true n t m s
  rw [e1] at h1
  rw [e2 h1]
  exact ⟨h1, (C43_run c fuel true n t m s ⟨(hr.inv hh).plen, (hr.inv hh).rlen⟩).2.2 h1⟩

/-! ### the symbolic assembler -/

/-- In the balance of some cell the numbers cancel. -/
def Stuck (e : Env K) (m : Mdl K) (s : Sol K) : Prop := ∃ i, i < e.n ∧ excess e e.transS m (givenRate m) (s.inner e s.tstep) (fun _ => 0) i = 0

lemma aTerm_total {e : Env K} {s : Sol K} {id : ℕ} (hp : e.comp = true → (rowAt s.press s.tstep none id).isSome = true) : ∃ a, aTerm e s id = .ok a := by
  unfold aTerm
  rcases hc : e.comp
  · exact ⟨_, rfl⟩
  · obtain ⟨p, h⟩ := Option.isSome_iff_exists.1 (hp hc)
    rw [if_pos rfl, h]; exact ⟨_, rfl⟩

lemma wTerm_total {e : Env K} {w : Well K} (hw : WellOK w) (x : Aff K) : ∃ y, wTerm e w x = .ok y := by
  by_cases h : w.con = some .q
  · exact ⟨_, wTerm_q hw h x⟩
  · exact ⟨_, wTerm_pwf hw h x⟩

/-- The terms of every cell can be found. -/
lemma cellTerms_total {lower : String → String} {e : Env K} (hS : e.Sym) {m : Mdl K} (hm : MdlOK e m) {s : Sol K} {id : ℕ} (hid : id ∈ e.ids)
    (hp : e.comp = true → (rowAt s.press s.tstep none id).isSome = true) : ∃ t, cellTerms lower e m s id = .ok t := by
  obtain ⟨a, ha⟩ := aTerm_total hp
  unfold cellTerms
  split
  · obtain ⟨N, B, l, h1, h2, h3, h4, h5, h6, h7, h8, h9, h10⟩ := hS.cell _ hid
    have hget : ∀ k, k ∈ N.all ∨ k ∈ B.all → ∃ T, dictGet l k = some T := fun k hk => by
      obtain ⟨v, hv, -⟩ := dictGet_some_mem ((h9 k).2 hk); exact ⟨v, hv⟩
    unfold buildTerms
    rw [if_neg (not_not.2 hid), h1, h2, h3]
    simp only [bind_ok]
    rw [mapM_ok _ (fun n => nTerm e id n ((dictGet l n).getD 0)) _ (fun k hk => by
        obtain ⟨T, hT⟩ := hget k (Or.inl hk); rw [hT]; rfl), bind_ok,
      mapM_ok _ (fun b => bTerm lower e m.bdict id b (Aff.p id) ((dictGet l b).getD 0)) _ (fun k hk => by
        obtain ⟨T, hT⟩ := hget k (Or.inr hk); rw [hT]; rfl), bind_ok]
    rcases hg : dictGet m.wells id with _ | w
    · simp only [pure_bind]
      rw [ha, bind_ok]; exact ⟨_, rfl⟩
    · obtain ⟨y, hy⟩ := wTerm_total (e := e) (hm.well _ (mem_of_dictGet hg)) (Aff.p id)
      simp only
      rw [hy, bind_ok, bind_pure', ha, bind_ok]; exact ⟨_, rfl⟩
  · rename_i t _
    unfold refreshTerms
    have : ∃ t', refreshWell e m id t = .ok t' := by
      unfold refreshWell
      rcases hg : dictGet m.wells id with _ | w
      · exact ⟨_, rfl⟩
      · simp only
        split_ifs
        · obtain ⟨y, hy⟩ := wTerm_total (e := e) (hm.well _ (mem_of_dictGet hg)) (Aff.p id)
          rw [hy, bind_ok]; exact ⟨_, rfl⟩
        · exact ⟨_, rfl⟩
    obtain ⟨t', ht'⟩ := this
    rw [ht', bind_ok]
    split_ifs
    · rw [ha, bind_ok]; exact ⟨_, rfl⟩
    · exact ⟨_, rfl⟩

/-- With something that holds the pressure level every cell is connected to something. -/
lemma row_pos {e : Env K} (he : e.WF) {T : ℕ → ℕ → K} (hT : Network e.n T) {m : Mdl K} (hm : MdlOK e m) (hl : HasLeak e m) {i : ℕ} (hi : i < e.n) :
    0 < ∑ k ∈ range e.n, T i k + leak e m i := by
  have h1 : 0 ≤ ∑ k ∈ range e.n, T i k := sum_nonneg fun k hk => hT.nonneg i k hi (mem_range.1 hk)
  have h2 := leak_nonneg he hm hi
  obtain ⟨j, hj, hlj⟩ := hl
  by_cases hij : i = j
  · subst hij; linarith
  · rcases Relation.ReflTransGen.cases_head (hT.conn i j hi hj) with h | ⟨k, hk, -⟩
    · exact absurd h hij
    · have : T i k ≤ ∑ k ∈ range e.n, T i k := single_le_sum (f := T i) (fun k hk => hT.nonneg i k hi (mem_range.1 hk)) (mem_range.2 hk.1)
      have := hk.2
      linarith

/-- Reading off an equation succeeds, unless the model is compressible and the numbers in it cancel. -/
lemma eqRow_total {scale : (ℕ → K) → K → K} {e : Env K} (he : e.WF) (hT : Network e.n e.transS) {m : Mdl K} (hm : MdlOK e m) (hl : HasLeak e m)
    {old : ℕ → K} {i : ℕ} (hi : i < e.n) {l r : Aff K} (hev : ∀ x, l.ev e x - r.ev e x = excess e e.transS m (givenRate m) old x i)
    (hz : e.comp = false → r = Aff.c 0) :
    (∃ row, eqRow scale e.ids l r = .ok row) ∨
      (e.comp = true ∧ excess e e.transS m (givenRate m) old (fun _ => 0) i = 0 ∧ eqRow scale e.ids l r = .error .type) := by
  have hcoef : l.coef (e.at i) - r.coef (e.at i) = -(∑ k ∈ range e.n, e.transS i k) - leak e m i := by
    have h1 := hev fun k => if k = i then 1 else 0
    have h0 := hev fun _ => 0
    rw [excess_affine e hT m _ _ _ hi] at h1
    simp only [Aff.ev, mul_ite, mul_one, mul_zero, sum_ite_eq', mem_range, hi, if_true, sum_const_zero, zero_add] at h1 h0
    linear_combination h1 - h0
  have hconst : l.const - r.const = excess e e.transS m (givenRate m) old (fun _ => 0) i := by
    have h0 := hev fun _ => 0
    simpa [Aff.ev] using h0
  have hne : ¬ (e.ids.all fun id => decide (l.coef id = r.coef id)) = true := by
    rw [List.all_eq_true]
    intro h
    have h1 := of_decide_eq_true (h _ (at_mem e hi))
    rw [h1, sub_self] at hcoef
    have := row_pos he hT hm hl hi
    linarith
  unfold eqRow
  rw [if_neg hne]
  split_ifs with h1 h2
  · exact .inl ⟨_, rfl⟩
  · right
    refine ⟨?_, by rw [← hconst, h1.1, h1.2, sub_zero], rfl⟩
    rcases hc : e.comp
    · exfalso
      apply h2
      rw [hz hc, List.all_eq_true]
      intro id _
      simp [Aff.c]
    · rfl
  · dsimp only
    split_ifs with h3
    · right
      refine ⟨?_, by rw [← hconst, h3], rfl⟩
      rcases hc : e.comp
      · exfalso
        have hr0 : r.const = 0 := by rw [hz hc]; rfl
        rw [hr0, sub_zero] at h3
        exact h1 ⟨h3, hr0⟩
      · rfl
    · exact .inl ⟨_, rfl⟩

lemma cellsEq_total {lower : String → String} {scale : (ℕ → K) → K → K} (hsc : ∀ a b, scale a b ≠ 0) {e : Env K} (he : e.WF) (hS : e.Sym)
    (hT : Network e.n e.transS) {m0 : Mdl K} (hm : MdlOK e m0) (hl : HasLeak e m0) (hc : Canonical lower m0) (hcf : Configured m0) {s : Sol K}
    (hp : e.comp = true → ∀ id, id ∈ e.ids → (rowAt s.press s.tstep none id).isSome = true) (l : List ℕ)
    (hids : ∀ id, id ∈ l → id ∈ e.ids) (acc : Mdl K × List (ℕ × (ℕ → K) × K)) (hacc : (∃ ts, acc.1 = { m0 with terms := ts }) ∧ TInv lower e acc.1) :
    (∃ acc', l.foldlM (fun acc id => do
      let (m, row) ← cellEq lower scale e acc.1 s id
      pure (m, acc.2 ++ [(id, row)])) acc = .ok acc') ∨
    (e.comp = true ∧ Stuck e m0 s ∧ l.foldlM (fun acc id => do
      let (m, row) ← cellEq lower scale e acc.1 s id
      pure (m, acc.2 ++ [(id, row)])) acc = .error .type) := by
  induction l generalizing acc with
  | nil => exact .inl ⟨acc, rfl⟩
  | cons id l ih =>
    obtain ⟨⟨m1, a2⟩, ts, rfl⟩ : ∃ a : Mdl K × List (ℕ × (ℕ → K) × K), ∃ ts, acc = ({ m0 with terms := ts }, a.2) := by
      obtain ⟨ts, h⟩ := hacc.1
      exact ⟨acc, ts, by rw [← h]⟩
    have hid := hids id (by simp)
    have hi := idx_lt e hid
    have hat := at_idx e hid
    have hm' : MdlOK e { m0 with terms := ts } := ⟨hm.bkeys, hm.bmem, hm.upd, hm.wkeys, hm.wmem, hm.well⟩
    obtain ⟨t, ht⟩ := cellTerms_total (lower := lower) (m := { m0 with terms := ts }) (s := s) hS hm' hid (fun h => hp h id hid)
    have hg : Good lower e { m0 with terms := ts } s (e.ids.idxOf id) t := by
      have h1 := ht
      unfold cellTerms at h1
      split at h1
      · exact build_good he hS hm' hc hcf hi (by rw [hat]; exact h1)
      · rename_i t0 hd
        have := hacc.2 _ _ hd
        exact refresh_good he hS hm' hc hcf hi (t := t0) (by rw [hat]; exact this) (by rw [hat]; exact h1)
    rw [List.foldlM_cons]
    rcases eqRow_total (scale := scale) he hT hm' hl hi hg.ev hg.ok.a with ⟨row, h2⟩ | ⟨h1, h2, h3⟩
    · have h3 : cellEq lower scale e { m0 with terms := ts } s id = .ok ({ m0 with terms := dictSet ts id t }, row) := by
        unfold cellEq; rw [ht, bind_ok, h2, bind_ok]; rfl
      obtain ⟨-, g2, -⟩ := cellEq_ok hsc he hS hT hm' hc hcf hacc.2 hid h3
      have h4 := ih (fun k hk => hids k (by simp [hk])) ({ m0 with terms := dictSet ts id t }, a2 ++ [(id, row)]) ⟨⟨_, rfl⟩, g2⟩
      simp only [h3, bind_ok, bind_pure'] at h4 ⊢
      exact h4
    · have h4 : cellEq lower scale e { m0 with terms := ts } s id = .error .type := by
        unfold cellEq; rw [ht, bind_ok, h3]; rfl
      refine .inr ⟨h1, ⟨_, hi, h2⟩, ?_⟩
      rw [h4]; rfl

/-- The symbolic assembly succeeds, unless the model is compressible and the numbers in the balance of some cell cancel. -/
lemma symb_total {c : Ctx K} {m0 m : Mdl K} {s : Sol K} (hr : Ready c m0) (hg : Given c.e m0) (ha : Anchored c.e m0) (hh : Hist c Calm m0 m s) :
    (∃ y, assemble c false m s = .ok y) ∨ (c.e.comp = true ∧ Stuck c.e m s ∧ assemble c false m s = .error .type) := by
  obtain ⟨hi, hq⟩ := hr.calm hh
  have he := hr.ctx.wf
  have h := cellsEq_total (scale := c.scale) hr.ctx.scale he hr.ctx.grid.sym hr.ctx.grid.networkS hi.mdl ((hh.anchored hr ha).leak he hi.mdl) hq.canon hq.cfg (s := s)
    (fun hcomp id hid => hh.known hr (hg hcomp) _ le_rfl id hid) c.e.ids (fun _ h => h) (m, []) ⟨⟨m.terms, rfl⟩, hq.tinv⟩
  unfold assemble
  rw [if_neg (by simp)]
  unfold matricesSymb cellsEq
  rcases h with ⟨acc, h⟩ | ⟨h1, h2, h3⟩
  · rw [h, bind_ok]; exact .inl ⟨_, rfl⟩
  · rw [h3]; exact .inr ⟨h1, h2, rfl⟩

/-- An attempt with the symbolic assembler. -/
lemma symb_attempt {c : Ctx K} {m0 m : Mdl K} {s : Sol K} (hr : Ready c m0) (hlin : Complete c.lin c.e.n) (hg : Given c.e m0) (hf : PressureFaces c.e m0) (ha : Anchored c.e m0)
    (hh : Hist c Calm m0 m s) :
    (∃ y, attempt c false m s = .ok y) ∨ (c.e.comp = true ∧ Stuck c.e m s ∧ attemptE c false m s = ((m, s), .error .type)) := by
  obtain ⟨hi, hq⟩ := hr.calm hh
  rcases symb_total hr hg ha hh with ⟨⟨m1, s1, A, d⟩, h⟩ | ⟨h1, h2, h3⟩
  · left
    have hreg : Regular c.e.n A := by
      refine regular_of_leaky (anchored_leaky hr.ctx.wf (hr.ctx.grid.network false) hi.mdl (hh.anchored hr ha)) fun i hin => ?_
      obtain ⟨k, hk, -, h'⟩ := assemble_matrix hr.ctx hi hq (by simp) h hin
      exact ⟨k, hk, h'⟩
    obtain ⟨x, hx⟩ := hlin A d hreg
    exact attempt_total hr.ctx.lower hr.ctx.wf hi hf h hx
  · exact .inr ⟨h1, h2, by unfold attemptE; rw [h3]⟩

lemma symb_solve {c : Ctx K} {m0 : Mdl K} (hr : Ready c m0) (hlin : Complete c.lin c.e.n) (hg : Given c.e m0) (hf : PressureFaces c.e m0) (ha : Anchored c.e m0) (fuel : ℕ)
    {m : Mdl K} {s : Sol K} (hh : Hist c Calm m0 m s) (hP : SolveAll c Calm fuel false m s) (hrep : ¬ Repeats c false fuel m s) :
    (∃ m' s', solveE c fuel false true m s = ((m', s'), .ok ()) ∧ Hist c Calm m0 m' s') ∨
      (c.e.comp = true ∧ ∃ m' s', solveE c fuel false true m s = ((m', s'), .error .type) ∧ Stuck c.e m' s') := by
  induction fuel generalizing m s with
  | zero => exact absurd .zero hrep
  | succ n ih =>
    rcases symb_attempt hr hlin hg hf ha hh with ⟨⟨m1, s1, again⟩, h⟩ | ⟨h1, h2, h3⟩
    · have hE : attemptE c false m s = ((m1, s1), .ok again) := by
        have := attemptE_eq c false m s
        rw [h] at this
        rcases hE : attemptE c false m s with ⟨⟨m2, s2⟩, x | ag⟩
        · rw [hE] at this; simp at this
        · rw [hE] at this
          simp only [Except.ok.injEq, Prod.mk.injEq] at this
          obtain ⟨rfl, rfl, rfl⟩ := this
          rfl
      obtain ⟨p1, p2⟩ := hP m1 s1 again h
      unfold solveE
      rw [if_pos rfl, hE]
      cases again
      · exact .inl ⟨m1, s1, rfl, .step hh h p1⟩
      · exact ih (.again hh h p1) (p2 rfl) fun h' => hrep (.succ h h')
    · refine .inr ⟨h1, m, s, ?_, h2⟩
      unfold solveE
      rw [if_pos rfl, h3]

/-- **C67, symbolic run.** A simulation set up through the API, with known initial pressures if the model is compressible, pressure conditions on
faces and something that holds the pressure level: a `run` in which no well leaves its pressure limit completes for every number of
steps, or the model is compressible and it stops with `TypeError` in a state in which the numbers in the balance of some cell cancel
(then every symbolic assembly raises, `C32_symbolic_raises`). -/
theorem C67_symbolic_partial {c : Ctx K} {m0 m : Mdl K} {s : Sol K} (hr : Ready c m0) (hlin : Complete c.lin c.e.n) (hg : Given c.e m0) (hf : PressureFaces c.e m0) (ha : Anchored c.e m0)
    {fuel : ℕ} (hfuel : 2 ^ m0.wells.length ≤ fuel) (hh : Hist c Calm m0 m s) (n : ℕ) (t : K) (hP : RunAll c Calm fuel false n m { s with nsteps := s.nsteps + n }) :
    ((runE c fuel false n t m s).2 = .ok () ∧ (runE c fuel false n t m s).1.2.tstep = s.tstep + n) ∨
      (c.e.comp = true ∧ (runE c fuel false n t m s).2 = .error .type ∧ Stuck c.e (runE c fuel false n t m s).1.1 (runE c fuel false n t m s).1.2) := by
  have key : ∀ n m s, Hist c Calm m0 m s → RunAll c Calm fuel false n m s →
      (runLoopE c fuel false n m s).2 = .ok () ∨ (c.e.comp = true ∧ (runLoopE c fuel false n m s).2 = .error .type ∧
        Stuck c.e (runLoopE c fuel false n m s).1.1 (runLoopE c fuel false n m s).1.2) := by
    intro n
    induction n with
    | zero => exact fun _ _ _ _ => .inl rfl
    | succ n ih =>
      intro m s hh hP
      have hrep : ¬ Repeats c false fuel m s := fun h => by
        have := C47_terminates hr (hh.weaken fun _ _ _ _ => trivial) h
        omega
      unfold runLoopE
      rcases symb_solve hr hlin hg hf ha fuel hh hP.1 hrep with ⟨m', s', h1, h2⟩ | ⟨h1, m', s', h2, h3⟩
      · rw [h1]
        refine ih m' s' h2 (hP.2 m' s' ?_)
        rw [solveE_eq, h1]
      · rw [h2]; exact .inr ⟨h1, rfl, h3⟩
  have h := key n m { s with nsteps := s.nsteps + n } (.clock _ s.ctime hh) hP
  have h43 := (C43_run c fuel false n t m s ⟨(hr.inv hh).plen, (hr.inv hh).rlen⟩).2.2
  unfold runE at h43 ⊢
  rcases hE : runLoopE c fuel false n m { s with nsteps := s.nsteps + n } with ⟨⟨m', s'⟩, x | _⟩
  · rw [hE] at h h43
    rcases h with h | ⟨h1, h2, h3⟩
    · simp at h
    · exact .inr ⟨h1, h2, h3⟩
  · rw [hE] at h43
    exact .inl ⟨rfl, h43 rfl⟩

/-- **C67, symbolic run of an incompressible model**: completes. -/
theorem C67_symbolic_incompressible_partial {c : Ctx K} {m0 m : Mdl K} {s : Sol K} (hr : Ready c m0) (hlin : Complete c.lin c.e.n) (hinc : c.e.comp = false) (hf : PressureFaces c.e m0)
    (ha : Anchored c.e m0) {fuel : ℕ} (hfuel : 2 ^ m0.wells.length ≤ fuel) (hh : Hist c Calm m0 m s) (n : ℕ) (t : K)
    (hP : RunAll c Calm fuel false n m { s with nsteps := s.nsteps + n }) :
    (run c fuel false n t m s).2 = .ok () ∧ (run c fuel false n t m s).1.2.tstep = s.tstep + n := by
  rcases C67_symbolic_partial hr hlin (fun h => by rw [hinc] at h; simp at h) hf ha hfuel hh n t hP with h | ⟨h, -⟩
  · obtain ⟨e1, e2⟩ := runE_eq c fuel false n t m s
    rw [e2 h.1]; exact h
  · rw [hinc] at h; simp at h

/-! ### what goes wrong otherwise -/

/-- **C67 fails** for a pressure condition on an edge or a corner of the padded grid (a boundary cell that touches no cell): `set_boundaries` accepts it,
and no `solve` and no `run` of a step ever succeeds, whichever assembler and solver is used and whatever was done before. -/
theorem C67_corner_fails {c : Ctx K} {m0 m : Mdl K} {s : Sol K} {P : Bool → Mdl K → Mdl K → Prop} (hr : Ready c m0) {b : ℕ} {v : K} (hb : (b, "pressure", v) ∈ m0.bdict)
    (hb0 : c.e.transC b false = .ok []) (hh : Hist c P m0 m s) (vect : Bool) (fuel n : ℕ) (t : K) :
    (∀ y, solve c fuel vect true m s ≠ .ok y) ∧ (run c fuel vect (n + 1) t m s).2 ≠ .ok () := by
  have step : ∀ (m : Mdl K) (s : Sol K), Hist c P m0 m s → ∀ y, attempt c vect m s ≠ .ok y := by
    rintro m s hh ⟨m', s', again⟩ h
    obtain ⟨m1, s1, A, d, x, r, ws, r', ps, ha, -, hB, -⟩ := attempt_parts h
    have h1 := (hr.inv hh).assemble hr.ctx.lower hr.ctx.wf ha
    have : updateBounds c.lower c.e m1 (newRow c.e.ids (lastRow s1.press none) x) (lastRow s1.rates 0) = .error .value := by
      unfold updateBounds
      refine foldlM_error _ _ (x := b) (upd_of_mem h1.mdl (x := (b, "pressure", v)) (by rw [h1.same.bdict]; exact hb) rfl) (fun r a ha => ?_) fun r => ?_
      · obtain ⟨v', hv'⟩ := upd_pressure h1.mdl ha
        rcases hr.ctx.wf.face a (h1.mdl.bmem _ (mem_of_dictGet hv')) with h | ⟨id', T', -, -, h⟩
        · rw [h]; exact .inl rfl
        · rw [show c.e.transC a false = _ from h]; exact .inr ⟨_, rfl⟩
      · rw [hb0]; rfl
    rw [this] at hB
    simp at hB
  have solve_ne : ∀ (m : Mdl K) (s : Sol K), Hist c P m0 m s → ∀ y, solve c fuel vect true m s ≠ .ok y := by
    intro m s hh y hy
    cases fuel with
    | zero => simp [solve] at hy
    | succ k =>
      unfold solve at hy
      rw [if_pos rfl] at hy
      obtain ⟨a, ha, -⟩ := ok_bind.1 hy
      exact step m s hh a ha
  refine ⟨solve_ne m s hh, fun h => ?_⟩
  unfold run runLoop at h
  rcases hE : solve c fuel vect true m { s with nsteps := s.nsteps + (n + 1) } with x | y
  · rw [hE] at h; simp at h
  · exact solve_ne m _ (.clock _ s.ctime hh) y hE

/-! ## Instances -/

/-- A linear solver that gives solutions only and fails only if the matrix is singular. -/
theorem exists_solver : ∃ lin : LinSolver K, Exact lin ∧ ∀ n, Complete lin n := by
  classical
  refine ⟨fun n A d => if h : ∃ x, Solves n A d x then .ok h.choose else .error .value, fun n A d x h => ?_, fun n A d hA => ?_⟩
  · dsimp only at h
    split_ifs at h with hx
    simp only [Except.ok.injEq] at h
    rw [← h]; exact hx.choose_spec
  · have hx : ∃ x, Solves n A d x := by
      let M : Matrix (Fin n) (Fin n) K := fun i j => A i j
      have hinj : Function.Injective M.mulVecLin := by
        rw [← LinearMap.ker_eq_bot, LinearMap.ker_eq_bot']
        intro y hy
        have h1 := hA (fun k => if h : k < n then y ⟨k, h⟩ else 0) (fun i hi => by
          have := congrFun hy ⟨i, hi⟩
          simp only [Matrix.mulVecLin_apply, Matrix.mulVec, dotProduct, Pi.zero_apply] at this
          refine Eq.trans ?_ this
          rw [← Fin.sum_univ_eq_sum_range (fun j => A i j * if h : j < n then y ⟨j, h⟩ else 0)]
          exact sum_congr rfl fun j _ => by simp [M])
        funext i
        have := h1 i i.2
        simpa using this
      obtain ⟨y, hy⟩ := LinearMap.injective_iff_surjective.1 hinj fun i => d i
      refine ⟨fun k => if h : k < n then y ⟨k, h⟩ else 0, fun i hi => ?_⟩
      have := congrFun hy ⟨i, hi⟩
      simp only [Matrix.mulVecLin_apply, Matrix.mulVec, dotProduct] at this
      refine Eq.trans ?_ this
      rw [← Fin.sum_univ_eq_sum_range (fun j => A i j * if h : j < n then y ⟨j, h⟩ else 0)]
      exact sum_congr rfl fun j _ => by simp [M]
    exact ⟨hx.choose, by simp [hx]⟩

/-- Cramer's rule is complete. -/
lemma cramer_complete : Complete cramer 2 := by
  intro A d hA
  have two : ∀ a b : ℚ, A 0 0 * a + A 0 1 * b = 0 → A 1 0 * a + A 1 1 * b = 0 → a = 0 ∧ b = 0 := by
    intro a b h0 h1
    have := hA (fun k => if k = 0 then a else b) (fun i hi => by
      have hi' : i = 0 ∨ i = 1 := by omega
      rcases hi' with rfl | rfl <;> simpa [sum_range_succ])
    exact ⟨by simpa using this 0 (by omega), by simpa using this 1 (by omega)⟩
  have hd : A 0 0 * A 1 1 - A 0 1 * A 1 0 ≠ 0 := by
    intro h
    obtain ⟨h1, h2⟩ := two (A 1 1) (-A 1 0) (by linear_combination h) (by ring)
    obtain ⟨h3, h4⟩ := two (A 0 1) (-A 0 0) (by ring) (by linear_combination -h)
    obtain ⟨h5, -⟩ := two 1 0 (by linarith) (by linarith)
    exact one_ne_zero h5
  unfold cramer
  rw [if_pos ⟨rfl, hd⟩]
  exact ⟨_, rfl⟩

/-- Is every initial pressure known? -/
def givenB (e : Env ℚ) (m : Mdl ℚ) : Bool := e.ids.all fun id => (m.initP id).isSome

lemma givenB_ok {e : Env ℚ} {m : Mdl ℚ} (h : givenB e m = true) : Given e m := fun _ id hid =>
  Option.isSome_iff_exists.1 (List.all_eq_true.1 h id hid)

/-- Is every pressure condition on a conducting face, with a pressure that is not the gravity term? -/
def conductingB (e : Env ℚ) (m : Mdl ℚ) : Bool := m.bdict.all fun c => decide (c.2.1 ≠ "pressure") ||
  match e.transC c.1 false with
  | .ok [(id, T)] => decide (T ≠ 0) && decide (c.2.2 ≠ e.grav * (e.z c.1 - e.z id))
  | _ => false

lemma conductingB_ok {e : Env ℚ} {m : Mdl ℚ} (h : conductingB e m = true) : Conducting e m := by
  intro c hc hp
  have := List.all_eq_true.1 h c hc
  rw [Bool.or_eq_true] at this
  rcases this with h | h
  · exact absurd hp (of_decide_eq_true h)
  · split at h
    · rename_i id T hT
      rw [Bool.and_eq_true, decide_eq_true_eq, decide_eq_true_eq] at h
      exact ⟨id, T, hT, h⟩
    · simp at h

/-- A steady flow: incompressible, one face held at pressure 10, a well that produces by rate down to a limit. -/
def exSteady : Mdl ℚ := exMdl false 0 [] none [(0, "pressure", 10)] [(2, { q := some (-4), pwf := some 2, r := some 1 })]

lemma exSteady_ready : Ready (exC false 0 []) exSteady := exMdl_ready (by decide +kernel)

/-- The hypotheses of `C67_solve_partial` and `C67_run_partial` are met, compressible and incompressible, by models whose well reaches its limit. -/
example : (Ready (exC true 0 []) exA ∧ Complete (exC true 0 []).lin (exC true 0 []).e.n ∧ Given (exC true 0 []).e exA ∧ Conducting (exC true 0 []).e exA ∧ Held (exC true 0 []).e exA ∧
    2 ^ exA.wells.length ≤ 10) ∧
    (Ready (exC false 0 []) exSteady ∧ Complete (exC false 0 []).lin (exC false 0 []).e.n ∧ Given (exC false 0 []).e exSteady ∧ Conducting (exC false 0 []).e exSteady ∧
      Held (exC false 0 []).e exSteady ∧ 2 ^ exSteady.wells.length ≤ 10) :=
  ⟨⟨exA_ready, by rw [show (exC true 0 []).e.n = 2 by decide +kernel]; exact cramer_complete, givenB_ok (by decide +kernel), conductingB_ok (by decide +kernel),
    .inl (by decide +kernel), by decide +kernel⟩,
   ⟨exSteady_ready, by rw [show (exC false 0 []).e.n = 2 by decide +kernel]; exact cramer_complete, fun h => absurd h (by decide +kernel), conductingB_ok (by decide +kernel),
    .inr (.inl (by
      have h : isOk ((exC false 0 []).e.transC 0 false) = true ∧ ∀ h, getOk ((exC false 0 []).e.transC 0 false) h = [(1, 1)] := ⟨by decide +kernel, by decide +kernel⟩
      exact ⟨(0, "pressure", 10), 1, 1, by decide +kernel, rfl, by unfold Env.Face; rw [getOk_eq _ h.1, h.2], one_pos⟩)), by decide +kernel⟩⟩

/-- The hypotheses of `C67_symbolic_partial` are met by the compressible model and those of `C67_symbolic_incompressible_partial` by the steady flow. -/
example : (PressureFaces (exC true 0 []).e exA ∧ Anchored (exC true 0 []).e exA ∧ RunAll (exC true 0 []) Calm 10 false 3 exA { Sol.init exA with nsteps := (Sol.init exA).nsteps + 3 }) ∧
    (PressureFaces (exC false 0 []).e exSteady ∧ RunAll (exC false 0 []) Calm 10 false 3 exSteady { Sol.init exSteady with nsteps := (Sol.init exSteady).nsteps + 3 }) :=
  ⟨⟨(conductingB_ok (by decide +kernel)).faces, .inl (by decide +kernel), runCalmB_all (by decide +kernel)⟩,
    ⟨(conductingB_ok (by decide +kernel)).faces, runCalmB_all (by decide +kernel)⟩⟩

/-- A corner of the padded 2 x 2 x 2 grid held at pressure 2. -/
def ex3Corner : Mdl ℚ := (build ex3C.lower ex3C.e (some 1) [(0, "pressure", 2)] [(21, { q := some 1, r := some 1 })]).1

lemma ex3Corner_ready : Ready ex3C ex3Corner := by
  have hs := (build_standard (lower := ex3C.lower) (e := ex3C.e) (pi := some 1) (b := [(0, "pressure", 2)]) (ws := [(21, { q := some 1, r := some 1 })]) (by decide) (by decide +kernel)).setup
  have h2 : readyB ex3Corner = true := by decide +kernel
  unfold readyB at h2
  rw [Bool.and_eq_true, List.all_eq_true, List.all_eq_true] at h2
  refine ⟨ex3C_ok, hs, fun x G hx hG => ?_, fun x hx => ?_, fun x hx => ?_⟩
  · have := h2.1 x hx
    rw [hG] at this
    simp only [Bool.and_eq_true, decide_eq_true_eq] at this
    exact this.2
  · have := h2.1 x hx
    simp only [Bool.and_eq_true, decide_eq_true_eq] at this
    exact this.1
  · have := h2.2 x hx
    rw [decide_eq_true_eq] at this
    exact this

lemma ex3_corner : isOk (ex3C.e.transC 0 false) = true := by decide +kernel

lemma ex3_corner_nil : ∀ h, getOk (ex3C.e.transC 0 false) h = [] := by decide +kernel

/-- The hypotheses of `C67_corner_fails` are met. -/
example : Ready ex3C ex3Corner ∧ (0, "pressure", (2 : ℚ)) ∈ ex3Corner.bdict ∧ ex3C.e.transC 0 false = .ok [] ∧ Hist ex3C Any ex3Corner ex3Corner (Sol.init ex3Corner) :=
  ⟨ex3Corner_ready, by decide +kernel, by rw [getOk_eq _ ex3_corner, ex3_corner_nil], .start⟩

end RF.Fdm
