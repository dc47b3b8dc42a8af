import Verif.Fdm.SetupOK
import Verif.Fdm.Recorded
/-! # Simulations that were set up through the API, and sums of the balance over all cells -/
set_option linter.unusedSectionVars false
namespace RF.Fdm
open RF RF.Dims Finset

variable {K : Type} [Field K] [LinearOrder K] [IsStrictOrderedRing K]

/-- A simulation set up through the API: a grid with positive data, boundary conditions and wells set before compiling, every well
given a rate or a bottom-hole pressure and with a positive well index, pressure conditions spelled `"pressure"`. -/
structure Ready (c : Ctx K) (m0 : Mdl K) : Prop where
  ctx : CtxOK c
  setup : Setup c.lower c.e m0
  G : ∀ x G, x ∈ m0.wells → x.2.G = some G → 0 < G
  cfg : Configured m0
  canon : Canonical c.lower m0

lemma Ready.started {c : Ctx K} {m0 : Mdl K} (h : Ready c m0) : Started c.lower c.e m0 := h.setup.started h.G h.cfg h.canon

lemma Ready.inv {c : Ctx K} {m0 : Mdl K} (h : Ready c m0) {P : Bool → Mdl K → Mdl K → Prop} {m : Mdl K} {s : Sol K} (hh : Hist c P m0 m s) :
    Inv c.e m0 m s := hh.inv h.ctx.lower h.ctx.wf h.started.mdl

lemma Ready.calm {c : Ctx K} {m0 : Mdl K} (h : Ready c m0) {m : Mdl K} {s : Sol K} (hh : Hist c Calm m0 m s) :
    Inv c.e m0 m s ∧ QInv c.lower c.e m s := hh.calm h.ctx (fun _ _ _ hp => hp.1) h.started

/-! ### sums over all cells -/

lemma sum_flow {n : ℕ} {T : ℕ → ℕ → K} (hT : ∀ i j, i < n → j < n → T i j = T j i) (x z : ℕ → K) (g : K) :
    ∑ i ∈ range n, ∑ j ∈ range n, T i j * (x j - x i - g * (z j - z i)) = 0 := by
  have h : ∑ i ∈ range n, ∑ j ∈ range n, T i j * (x j - x i - g * (z j - z i)) =
      -∑ i ∈ range n, ∑ j ∈ range n, T i j * (x j - x i - g * (z j - z i)) := by
    conv_lhs => rw [sum_comm]
    rw [← sum_neg_distrib]
    refine sum_congr rfl fun i hi => ?_
    rw [← sum_neg_distrib]
    refine sum_congr rfl fun j hj => ?_
    rw [hT i j (mem_range.1 hi) (mem_range.1 hj)]; ring
  linarith

lemma sum_list_comm {α : Type} (n : ℕ) (l : List α) (f : ℕ → α → K) :
    ∑ i ∈ range n, (l.map (f i)).sum = (l.map fun a => ∑ i ∈ range n, f i a).sum := by
  induction l with
  | nil => simp
  | cons a l ih => simp only [List.map_cons, List.sum_cons, sum_add_distrib, ih]

lemma sum_at {e : Env K} (hn : e.ids.Nodup) {id : ℕ} (hid : id ∈ e.ids) (f : ℕ → K) :
    ∑ i ∈ range e.n, (if id = e.at i then f i else 0) = f (e.ids.idxOf id) := by
  rw [sum_eq_single (e.ids.idxOf id)]
  · rw [if_pos (at_idx e hid).symm]
  · intro i hi hne
    rw [if_neg]
    intro h
    exact hne (by rw [h, idx_at e hn (mem_range.1 hi)])
  · intro h; exact absurd (mem_range.2 (idx_lt e hid)) h

/-- Flow over the boundary cell of a condition at interior pressures `x`, into whichever cell is behind it. -/
def boundaryFlow (e : Env K) (rate : ℕ → K) (x : ℕ → K) (c : ℕ × String × K) : K :=
  match e.transC c.1 false with
  | .ok [(id, T)] => if c.2.1 = "pressure" then 2 * T * (c.2.2 - x (e.ids.idxOf id) - e.grav * (e.z c.1 - e.z id)) else rate c.1
  | _ => 0

lemma sum_boundaryIn {e : Env K} (he : e.WF) (rate x : ℕ → K) {c : ℕ × String × K} (hb : c.1 ∈ e.bnd) :
    ∑ i ∈ range e.n, boundaryIn e rate (x i) i c = boundaryFlow e rate x c := by
  unfold boundaryIn boundaryFlow
  rcases he.face c.1 hb with h | ⟨id, T, hid, -, h⟩
  · rw [h]; simp
  · rw [show e.transC c.1 false = _ from h]
    dsimp only
    rw [sum_at he.nodup hid fun i => if c.2.1 = "pressure" then 2 * T * (c.2.2 - x i - e.grav * (e.z c.1 - e.z id)) else rate c.1]

lemma sum_wellIn {e : Env K} (he : e.WF) (x : ℕ → K) {w : ℕ × Well K} (hw : w.1 ∈ e.ids) :
    ∑ i ∈ range e.n, wellIn e (x i) i w = wellFlow e w.2 (x (e.ids.idxOf w.1)) := by
  unfold wellIn
  exact sum_at he.nodup hw fun i => wellFlow e w.2 (x i)

/-- The balance summed over all cells: only what enters from outside and what is stored remains. -/
lemma sum_excess {e : Env K} (he : e.WF) {T : ℕ → ℕ → K} (hT : Network e.n T) {m : Mdl K} (hm : MdlOK e m) (rate old x : ℕ → K) :
    ∑ i ∈ range e.n, excess e T m rate old x i = (m.bdict.map (boundaryFlow e rate x)).sum + (m.wells.map fun w => wellFlow e w.2 (x (e.ids.idxOf w.1))).sum
      - ∑ i ∈ range e.n, e.rhs (e.at i) * (x i - old i) := by
  unfold excess outsideIn
  rw [sum_sub_distrib, sum_add_distrib, sum_add_distrib, sum_flow hT.symm x (fun i => e.z (e.at i)) e.grav, sum_list_comm, sum_list_comm,
    List.map_congr_left (fun c hc => sum_boundaryIn he rate x (hm.bmem c hc)), List.map_congr_left (fun w hw => sum_wellIn he x (hm.wmem w hw))]
  ring

/-! ### the assembled matrix as a network -/

lemma excess_linear (e : Env K) {T : ℕ → ℕ → K} (hT : Network e.n T) (m : Mdl K) (rate old x : ℕ → K) {i : ℕ} (hi : i < e.n) :
    excess e T m rate old x i - excess e T m rate old (fun _ => 0) i = Net.inflow e.n T (leak e m) x i := by
  rw [excess_affine e hT m rate old x hi, add_sub_cancel_right, sum_if_single hi, hT.diag i hi]
  unfold Net.inflow
  have : ∑ j ∈ range e.n, T i j * (x j - x i) = ∑ j ∈ range e.n, T i j * x j - (∑ j ∈ range e.n, T i j) * x i := by
    rw [sum_mul, ← sum_sub_distrib]; exact sum_congr rfl fun j _ => by ring
  rw [this]; ring

/-- Rows of the assembled matrix are multiples (with the vectorised assembler: just the rows) of a network leaking to the outside. -/
theorem assemble_matrix {c : Ctx K} (hc : CtxOK c) {m0 m m' : Mdl K} {s s' : Sol K} (hi : Inv c.e m0 m s) (hq : QInv c.lower c.e m s) {vect : Bool}
    (hz : vect = true → NoZeroPwf m) {A : ℕ → ℕ → K} {d : ℕ → K} (ha : assemble c vect m s = .ok (m', s', A, d)) {i : ℕ} (hin : i < c.e.n) :
    ∃ k, k ≠ 0 ∧ (vect = true → k = 1) ∧ ∀ x, ∑ j ∈ range c.e.n, A i j * x j = k * Net.inflow c.e.n (c.e.trans vect) (leak c.e m) x i := by
  cases vect
  · obtain ⟨k, hk, -, h⟩ := assemble_residual hc hi hq (by simp) (by simp) ha hin
    refine ⟨k, hk, by simp, fun x => ?_⟩
    rw [← excess_linear c.e (hc.grid.network false) m (usedRate false m s) (s.inner c.e s.tstep) x hin, mul_sub, ← h x, ← h fun _ => 0]
    simp
  · unfold assemble at ha
    simp only [if_true] at ha
    rw [ok_bind] at ha
    obtain ⟨⟨s1, A1, d1⟩, h1, ha⟩ := ha
    simp only [ok_pure, Prod.mk.injEq] at ha
    obtain ⟨-, -, rfl, rfl⟩ := ha
    obtain ⟨bV, res, -, hk, hr, -⟩ := matricesVect_ok hc.lower hc.wf hi.mdl hi.vinv h1
    refine ⟨1, one_ne_zero, fun _ => rfl, fun x => ?_⟩
    rw [row_inflow hc.wf hk.mat x hin, one_mul]
    unfold Net.inflow leak
    dsimp only
    rw [leakB_eq hi.mdl, leakW_eq hi.mdl (hz rfl) hq.noStale hr]
    rfl

end RF.Fdm
