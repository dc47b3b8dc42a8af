import Verif.Analytic.Model
import Verif.Scaler.Props
import Mathlib.Analysis.SpecialFunctions.Trigonometric.Deriv
import Mathlib.Analysis.SpecialFunctions.ExpDeriv
import Mathlib.Analysis.Calculus.Deriv.Add
import Mathlib.Analysis.Calculus.Deriv.Mul
/-!
# Properties of the analytical solution (C56, C57, C62)
-/
namespace RF
noncomputable section
open Real

lemma timeVector_eq (tstep : ℕ) (dt : ℝ) (h : 0 < dt) :
    timeVector tstep dt = (List.range (tstep + 1)).map fun i : ℕ => (i : ℝ) * dt := by
  unfold timeVector arange
  rw [mul_div_assoc, div_self h.ne', mul_one, Nat.ceil_natCast]

lemma pD_left (N : ℕ) (pDi pD0 pDn tD : ℝ) : pD N pDi pD0 pDn tD 0 = pD0 := by
  simp [pD]

lemma pD_right (N : ℕ) (pDi pD0 pDn tD : ℝ) : pD N pDi pD0 pDn tD 1 = pDn := by
  unfold pD
  rw [Finset.sum_eq_zero]
  · ring
  · intro n _
    rw [mul_one, sin_nat_mul_pi]
    ring

lemma lmin_mem (l : List ℝ) (h : l ≠ []) : lmin l ∈ l ∧ ∀ x ∈ l, lmin l ≤ x := by
  cases l with
  | nil => exact absurd rfl h
  | cons a l => exact minL_spec a l

lemma lmax_mem (l : List ℝ) (h : l ≠ []) : lmax l ∈ l ∧ ∀ x ∈ l, x ≤ lmax l := by
  cases l with
  | nil => exact absurd rfl h
  | cons a l => exact maxL_spec a l

/-- A 1D problem: centres from `xa` to `xb`, first row of pressures from `pa` to `pb`, not all pressures equal. -/
structure Posed (a : AInput) (xa xb pa pb : ℝ) : Prop where
  x : ∃ mid, a.x = xa :: (mid ++ [xb]) ∧ ∀ m ∈ mid, xa ≤ m ∧ m ≤ xb
  lt : xa < xb
  p : ∃ mid rest, a.p = (pa :: (mid ++ [pb])) :: rest
  ne : ∃ q ∈ a.p.flatten, ∃ q' ∈ a.p.flatten, q ≠ q'
  dt : 0 < a.dt

variable {a : AInput} {xa xb pa pb : ℝ}

lemma Posed.lmin_x (h : Posed a xa xb pa pb) : lmin a.x = xa ∧ lmax a.x = xb := by
  obtain ⟨mid, hx, hm⟩ := h.x
  have hne : a.x ≠ [] := by rw [hx]; simp
  have h1 := lmin_mem a.x hne
  have h2 := lmax_mem a.x hne
  have hb : ∀ y ∈ a.x, xa ≤ y ∧ y ≤ xb := by
    intro y hy
    rw [hx] at hy
    simp only [List.mem_cons, List.mem_append, List.not_mem_nil, or_false] at hy
    rcases hy with rfl | hy | rfl
    · exact ⟨le_rfl, h.lt.le⟩
    · exact hm y hy
    · exact ⟨h.lt.le, le_rfl⟩
  have ha : xa ∈ a.x := by rw [hx]; simp
  have hb' : xb ∈ a.x := by rw [hx]; simp
  exact ⟨le_antisymm (h1.2 _ ha) (hb _ h1.1).1, le_antisymm (hb _ h2.1).2 (h2.2 _ hb')⟩

lemma Posed.range (h : Posed a xa xb pa pb) :
    lmin a.p.flatten < lmax a.p.flatten ∧ lmin a.p.flatten ∈ a.p.flatten ∧ lmax a.p.flatten ∈ a.p.flatten ∧
      ∀ q ∈ a.p.flatten, lmin a.p.flatten ≤ q ∧ q ≤ lmax a.p.flatten := by
  obtain ⟨q, hq, q', hq', hne⟩ := h.ne
  have hn : a.p.flatten ≠ [] := List.ne_nil_of_mem hq
  have h1 := lmin_mem _ hn
  have h2 := lmax_mem _ hn
  refine ⟨?_, h1.1, h2.1, fun y hy => ⟨h1.2 y hy, h2.2 y hy⟩⟩
  rcases lt_or_gt_of_ne hne with hl | hl
  · exact ((h1.2 _ hq).trans_lt hl).trans_le (h2.2 _ hq')
  · exact ((h1.2 _ hq').trans_lt hl).trans_le (h2.2 _ hq)

lemma Posed.unscale_scale (h : Posed a xa xb pa pb) (v : ℝ) : a.unscale (a.scale v) = v := by
  have := sub_pos.2 h.range.1
  unfold AInput.unscale AInput.scale
  field_simp
  ring

lemma Posed.scale_mem (h : Posed a xa xb pa pb) (v : ℝ) (hv : v ∈ a.p.flatten) : 0 ≤ a.scale v ∧ a.scale v ≤ 1 := by
  have hp := sub_pos.2 h.range.1
  have hb := h.range.2.2.2 v hv
  unfold AInput.scale
  constructor
  · have : 0 ≤ (1 - 0) * (v - lmin a.p.flatten) / (lmax a.p.flatten - lmin a.p.flatten) :=
      div_nonneg (by linarith) hp.le
    linarith
  · have : (1 - 0) * (v - lmin a.p.flatten) / (lmax a.p.flatten - lmin a.p.flatten) ≤ 1 := by
      rw [div_le_one hp]; linarith
    linarith

lemma clip_id {v : ℝ} (h : 0 ≤ v ∧ v ≤ 1) : clip v = v := by
  unfold clip; rw [if_neg (not_lt.2 h.1), if_neg (not_lt.2 h.2)]

lemma clip_bounds (v : ℝ) : 0 ≤ clip v ∧ clip v ≤ 1 := by
  unfold clip; split_ifs <;> constructor <;> linarith

lemma Posed.ends (h : Posed a xa xb pa pb) : a.p0 = pa ∧ a.pn = pb ∧ pa ∈ a.p.flatten ∧ pb ∈ a.p.flatten := by
  obtain ⟨mid, rest, hp⟩ := h.p
  refine ⟨?_, ?_, ?_, ?_⟩
  · simp [AInput.p0, hp]
  · have : (pa :: (mid ++ [pb])).getLast? = some pb := by
      rw [← List.cons_append, List.getLast?_concat]
    simp only [AInput.pn, hp, List.head?_cons, Option.getD_some, this]
  · simp [hp]
  · simp [hp]

lemma Posed.xD_ends (h : Posed a xa xb pa pb) : ∃ mid, a.xD = 0 :: (mid ++ [1]) := by
  obtain ⟨mid, hx, _⟩ := h.x
  refine ⟨mid.map fun x => (x - xa) / (xb - xa), ?_⟩
  have hne : xb - xa ≠ 0 := (sub_pos.2 h.lt).ne'
  unfold AInput.xD
  rw [h.lmin_x.1, h.lmin_x.2, hx]
  simp [hne]

/-- **C56** At both ends of the domain the analytical solution equals the boundary pressures exactly, at every time, for every
number of terms, with and without clipping. -/
theorem C56_ends (h : Posed a xa xb pa pb) (tstep N : ℕ) (lo hi : ℝ) (clean : Bool) :
    ∀ row ∈ a.calc tstep N false lo hi clean, row.head? = some pa ∧ row.getLast? = some pb := by
  intro row hrow
  obtain ⟨e0, en, m0, mn⟩ := h.ends
  obtain ⟨mid, hx⟩ := h.xD_ends
  simp only [AInput.calc, AInput.table, List.mem_map, exists_exists_and_eq_and, Bool.false_eq_true, if_false] at hrow
  obtain ⟨t, _, rfl⟩ := hrow
  rw [hx]
  have c0 := clip_id (h.scale_mem pa m0)
  have cn := clip_id (h.scale_mem pb mn)
  constructor
  · simp only [List.map_cons, List.head?_cons, pD_left, e0, c0, ite_self, h.unscale_scale]
  · simp only [List.map_cons, List.map_append, List.map_nil, ← List.cons_append, List.getLast?_concat,
      pD_right, en, cn, ite_self, h.unscale_scale]

/-- **C56** The same in scaled form: the ends carry the images of the boundary pressures under the linear map that takes the
smallest pressure to `lo` and the largest to `hi`. -/
theorem C56_ends_scaled (h : Posed a xa xb pa pb) (tstep N : ℕ) (lo hi : ℝ) (clean : Bool) :
    ∀ row ∈ a.calc tstep N true lo hi clean, row.head? = some ((hi - lo) * a.scale pa + lo) ∧
      row.getLast? = some ((hi - lo) * a.scale pb + lo) := by
  intro row hrow
  obtain ⟨e0, en, m0, mn⟩ := h.ends
  obtain ⟨mid, hx⟩ := h.xD_ends
  simp only [AInput.calc, AInput.table, List.mem_map, exists_exists_and_eq_and, if_true] at hrow
  obtain ⟨t, _, rfl⟩ := hrow
  rw [hx]
  have c0 := clip_id (h.scale_mem pa m0)
  have cn := clip_id (h.scale_mem pb mn)
  constructor
  · simp only [List.map_cons, List.head?_cons, pD_left, e0, c0, ite_self, sub_zero, div_one]
  · simp only [List.map_cons, List.map_append, List.map_nil, ← List.cons_append, List.getLast?_concat,
      pD_right, en, cn, ite_self, sub_zero, div_one]

/-- **C56** With clipping, every computed pressure lies between any bounds that hold for the pressures in the table it starts
from: between the two boundary pressures if those enclose the initial pressure. -/
theorem C56_bounds (h : Posed a xa xb pa pb) (tstep N : ℕ) (lo hi : ℝ) (m M : ℝ)
    (hb : ∀ q ∈ a.p.flatten, m ≤ q ∧ q ≤ M) :
    ∀ row ∈ a.calc tstep N false lo hi true, ∀ v ∈ row, m ≤ v ∧ v ≤ M := by
  intro row hrow v hv
  simp only [AInput.calc, AInput.table, List.mem_map, exists_exists_and_eq_and, Bool.false_eq_true, if_false, if_true] at hrow
  obtain ⟨t, _, rfl⟩ := hrow
  simp only [List.mem_map, exists_exists_and_eq_and] at hv
  obtain ⟨x, _, rfl⟩ := hv
  obtain ⟨hlt, h1, h2, _⟩ := h.range
  have hc := clip_bounds (pD N (a.scale a.pi) (a.scale a.p0) (a.scale a.pn) t x)
  generalize clip (pD N (a.scale a.pi) (a.scale a.p0) (a.scale a.pn) t x) = w at hc
  have b1 := (hb _ h1).1
  have b2 := (hb _ h2).2
  unfold AInput.unscale
  have hd := sub_pos.2 hlt
  rw [sub_zero, sub_zero, div_one]
  constructor
  · have := mul_nonneg hd.le hc.1; linarith
  · have := mul_le_mul_of_nonneg_left hc.2 hd.le; linarith

lemma tD_get (a : AInput) (times : List ℝ) (s c : ℕ) (hs : s < times.length) (hc : c < a.alpha.length) :
    (a.tD times)[s * a.alpha.length + c]? = some (a.alpha[c] * times[s] / (lmax a.x - lmin a.x) ^ 2) := by
  unfold AInput.tD
  induction times generalizing s with
  | nil => simp at hs
  | cons t ts ih =>
    rw [List.flatMap_cons]
    cases s with
    | zero =>
      rw [List.getElem?_append_left (by simpa using hc)]
      simp [hc]
    | succ s =>
      rw [List.getElem?_append_right (by simp; nlinarith)]
      have : (s + 1) * a.alpha.length + c - (a.alpha.map fun al => al * t / (lmax a.x - lmin a.x) ^ 2).length
          = s * a.alpha.length + c := by
        rw [List.length_map, Nat.succ_mul]; omega
      rw [this]
      simpa using ih s (by simpa using hs)

lemma tD_length (a : AInput) (times : List ℝ) : (a.tD times).length = times.length * a.alpha.length := by
  unfold AInput.tD
  induction times with
  | nil => simp
  | cons t ts ih => rw [List.flatMap_cons, List.length_append, ih]; simp [Nat.succ_mul, Nat.add_comm]

/-- **C57** What `run(nsteps)` stores: `(nsteps+1)·n` rows, `n` the number of cells with boundaries; the row `s·n + c` is the
solution at time `s·dt` with the diffusivity of cell `c`. -/
theorem C57_rows (hdt : 0 < a.dt) (nsteps : ℕ) :
    (a.run nsteps).length = (nsteps + 1) * a.alpha.length ∧
    ∀ s c, s ≤ nsteps → ∀ hc : c < a.alpha.length,
      (a.run nsteps)[s * a.alpha.length + c]? = some (a.xD.map fun x => a.unscale (clip
        (pD 1000 (a.scale a.pi) (a.scale a.p0) (a.scale a.pn) (a.alpha[c] * (s * a.dt) / (lmax a.x - lmin a.x) ^ 2) x))) := by
  constructor
  · simp only [AInput.run, AInput.calc, AInput.table, List.length_map, tD_length, timeVector_eq _ _ hdt, List.length_range]
  · intro s c hs hc
    have := tD_get a (timeVector nsteps a.dt) s c (by rw [timeVector_eq _ _ hdt]; simp; omega) hc
    simp only [AInput.run, AInput.calc, AInput.table, List.getElem?_map, this, Option.map_some, List.map_map]
    simp [timeVector_eq _ _ hdt, Function.comp_def]

/-- **C57** So the claim of one row per step fails for every grid: a grid with boundary cells has more than one cell. -/
theorem C57_one_row_per_step_fails (hdt : 0 < a.dt) (hn : 1 < a.alpha.length) (nsteps : ℕ) :
    (a.run nsteps).length ≠ nsteps + 1 := by
  rw [(C57_rows hdt nsteps).1]
  have : (nsteps + 1) * 2 ≤ (nsteps + 1) * a.alpha.length := Nat.mul_le_mul_left _ hn
  omega

/-- **C57** (partial) With one diffusivity for all cells, the rows `s·n, …, s·n+n-1` all hold the solution at time `s·dt`: the
solution of step `s` is stored, but `n` times and at row `s·n` instead of row `s`. -/
theorem C57_repeated_partial (hdt : 0 < a.dt) (al : ℝ) (ha : ∀ v ∈ a.alpha, v = al) (nsteps s c : ℕ) (hs : s ≤ nsteps)
    (hc : c < a.alpha.length) :
    (a.run nsteps)[s * a.alpha.length + c]? = some (a.xD.map fun x => a.unscale (clip
      (pD 1000 (a.scale a.pi) (a.scale a.p0) (a.scale a.pn) (al * (s * a.dt) / (lmax a.x - lmin a.x) ^ 2) x))) := by
  rw [(C57_rows hdt nsteps).2 s c hs hc, ha _ (List.getElem_mem hc)]

/-- Time derivative of the truncated series. -/
def pDt (N : ℕ) (pDi pD0 pDn tD xD : ℝ) : ℝ :=
  2 / Real.pi * ∑ n ∈ Finset.range N,
    ((pDi - pD0) / ((n + 1 : ℕ) : ℝ) + (pDn - pDi) * (-1) ^ (n + 1) / ((n + 1 : ℕ) : ℝ))
      * sin (((n + 1 : ℕ) : ℝ) * (Real.pi * xD))
      * (exp ((((n + 1 : ℕ) : ℝ) ^ 2) * (-Real.pi ^ 2 * tD)) * ((((n + 1 : ℕ) : ℝ) ^ 2) * -Real.pi ^ 2))

/-- Space derivative of the truncated series. -/
def pDx (N : ℕ) (pDi pD0 pDn tD xD : ℝ) : ℝ :=
  (pDn - pD0) + 2 / Real.pi * ∑ n ∈ Finset.range N,
    ((pDi - pD0) / ((n + 1 : ℕ) : ℝ) + (pDn - pDi) * (-1) ^ (n + 1) / ((n + 1 : ℕ) : ℝ))
      * (cos (((n + 1 : ℕ) : ℝ) * (Real.pi * xD)) * (((n + 1 : ℕ) : ℝ) * Real.pi))
      * exp ((((n + 1 : ℕ) : ℝ) ^ 2) * (-Real.pi ^ 2 * tD))

lemma hasDeriv_t (N : ℕ) (pDi pD0 pDn t x : ℝ) :
    HasDerivAt (fun t => pD N pDi pD0 pDn t x) (pDt N pDi pD0 pDn t x) t := by
  unfold pD pDt
  refine HasDerivAt.const_add _ (HasDerivAt.const_mul _ (HasDerivAt.fun_sum fun n _ => HasDerivAt.const_mul _ ?_))
  have h1 : HasDerivAt (fun t : ℝ => (((n + 1 : ℕ) : ℝ) ^ 2) * (-Real.pi ^ 2 * t)) ((((n + 1 : ℕ) : ℝ) ^ 2) * -Real.pi ^ 2) t := by
    simpa using ((hasDerivAt_id t).const_mul (-Real.pi ^ 2)).const_mul ((((n + 1 : ℕ) : ℝ) ^ 2))
  exact h1.exp

lemma hasDeriv_x (N : ℕ) (pDi pD0 pDn t x : ℝ) :
    HasDerivAt (fun x => pD N pDi pD0 pDn t x) (pDx N pDi pD0 pDn t x) x := by
  unfold pD pDx
  have h0 : HasDerivAt (fun x : ℝ => pD0 + (pDn - pD0) * x) (pDn - pD0) x := by
    simpa using ((hasDerivAt_id x).const_mul (pDn - pD0)).const_add pD0
  refine h0.add (HasDerivAt.const_mul _ (HasDerivAt.fun_sum fun n _ => HasDerivAt.mul_const ?_ _))
  refine HasDerivAt.const_mul _ ?_
  have h1 : HasDerivAt (fun x : ℝ => ((n + 1 : ℕ) : ℝ) * (Real.pi * x)) (((n + 1 : ℕ) : ℝ) * Real.pi) x := by
    simpa using ((hasDerivAt_id x).const_mul Real.pi).const_mul (((n + 1 : ℕ) : ℝ))
  exact h1.sin

lemma hasDeriv_xx (N : ℕ) (pDi pD0 pDn t x : ℝ) :
    HasDerivAt (fun x => pDx N pDi pD0 pDn t x) (pDt N pDi pD0 pDn t x) x := by
  unfold pDx pDt
  refine HasDerivAt.const_add _ (HasDerivAt.const_mul _ (HasDerivAt.fun_sum fun n _ => ?_))
  have h1 : HasDerivAt (fun x : ℝ => ((n + 1 : ℕ) : ℝ) * (Real.pi * x)) (((n + 1 : ℕ) : ℝ) * Real.pi) x := by
    simpa using ((hasDerivAt_id x).const_mul Real.pi).const_mul (((n + 1 : ℕ) : ℝ))
  have h2 := (((h1.cos).mul_const (((n + 1 : ℕ) : ℝ) * Real.pi)).const_mul
    ((pDi - pD0) / ((n + 1 : ℕ) : ℝ) + (pDn - pDi) * (-1) ^ (n + 1) / ((n + 1 : ℕ) : ℝ))).mul_const
    (exp ((((n + 1 : ℕ) : ℝ) ^ 2) * (-Real.pi ^ 2 * t)))
  refine h2.congr_deriv ?_
  ring

/-- **C62** The computed series, cut off after any number of terms, satisfies the diffusion equation exactly: its time
derivative is its second space derivative, at every time and position. -/
theorem C62_diffusion (N : ℕ) (pDi pD0 pDn t x : ℝ) :
    deriv (fun t => pD N pDi pD0 pDn t x) t = deriv (deriv (fun x => pD N pDi pD0 pDn t x)) x := by
  have : deriv (fun x => pD N pDi pD0 pDn t x) = fun x => pDx N pDi pD0 pDn t x :=
    funext fun x => (hasDeriv_x N pDi pD0 pDn t x).deriv
  rw [(hasDeriv_t N pDi pD0 pDn t x).deriv, this, (hasDeriv_xx N pDi pD0 pDn t x).deriv]

/-- **C62** In real units: with `tD = α t / L²` and `xD = (x - x₀) / L` the pressure satisfies `∂p/∂t = α ∂²p/∂x²`. -/
theorem C62_diffusion_units (N : ℕ) (pDi pD0 pDn α L x0 t x : ℝ) (hL : L ≠ 0) :
    deriv (fun t => pD N pDi pD0 pDn (α * t / L ^ 2) ((x - x0) / L)) t =
      α * deriv (deriv (fun x => pD N pDi pD0 pDn (α * t / L ^ 2) ((x - x0) / L))) x := by
  have i1 : HasDerivAt (fun t : ℝ => α * t / L ^ 2) (α / L ^ 2) t := by
    simpa using ((hasDerivAt_id t).const_mul α).div_const (L ^ 2)
  have i2 : ∀ x, HasDerivAt (fun x : ℝ => (x - x0) / L) (1 / L) x := fun x =>
    ((hasDerivAt_id x).sub_const x0).div_const L
  have d1 := (hasDeriv_t N pDi pD0 pDn (α * t / L ^ 2) ((x - x0) / L)).comp t i1
  have d2 : deriv (fun x => pD N pDi pD0 pDn (α * t / L ^ 2) ((x - x0) / L)) =
      fun x => pDx N pDi pD0 pDn (α * t / L ^ 2) ((x - x0) / L) * (1 / L) :=
    funext fun x => by
      have := ((hasDeriv_x N pDi pD0 pDn (α * t / L ^ 2) ((x - x0) / L)).comp x (i2 x)).deriv
      exact this
  have d3 := ((hasDeriv_xx N pDi pD0 pDn (α * t / L ^ 2) ((x - x0) / L)).comp x (i2 x)).mul_const (1 / L)
  rw [d2]
  have e1 := d1.deriv
  have e3 := d3.deriv
  simp only [Function.comp_def] at e1 e3
  rw [e1, e3]
  field_simp

/-- **C62** For late times the solution tends to the straight line between the boundary values, for every number of terms. -/
theorem C62_steady_state (N : ℕ) (pDi pD0 pDn x : ℝ) :
    Filter.Tendsto (fun t => pD N pDi pD0 pDn t x) Filter.atTop (nhds (pD0 + (pDn - pD0) * x)) := by
  unfold pD
  have key : ∀ n ∈ Finset.range N, Filter.Tendsto (fun t : ℝ =>
      ((pDi - pD0) / ((n + 1 : ℕ) : ℝ) + (pDn - pDi) * (-1) ^ (n + 1) / ((n + 1 : ℕ) : ℝ))
      * sin (((n + 1 : ℕ) : ℝ) * (Real.pi * x)) * exp ((((n + 1 : ℕ) : ℝ) ^ 2) * (-Real.pi ^ 2 * t)))
      Filter.atTop (nhds 0) := ?_
  · have := (Filter.Tendsto.const_mul (2 / Real.pi) (tendsto_finsetSum _ key)).const_add (pD0 + (pDn - pD0) * x)
    simpa using this
  intro n _
  rw [← mul_zero (((pDi - pD0) / ((n + 1 : ℕ) : ℝ) + (pDn - pDi) * (-1) ^ (n + 1) / ((n + 1 : ℕ) : ℝ))
      * sin (((n + 1 : ℕ) : ℝ) * (Real.pi * x)))]
  refine Filter.Tendsto.const_mul _ ?_
  have hneg : (((n + 1 : ℕ) : ℝ) ^ 2) * -Real.pi ^ 2 < 0 := by
    have := Real.pi_pos
    have : 0 < (((n + 1 : ℕ) : ℝ) ^ 2) := by positivity
    have : 0 < Real.pi ^ 2 := by positivity
    nlinarith
  have h1 : Filter.Tendsto (fun t : ℝ => ((((n + 1 : ℕ) : ℝ) ^ 2) * -Real.pi ^ 2) * t) Filter.atTop Filter.atBot :=
    Filter.Tendsto.const_mul_atTop_of_neg hneg Filter.tendsto_id
  have h2 : ∀ t : ℝ, (((n + 1 : ℕ) : ℝ) ^ 2) * (-Real.pi ^ 2 * t) = ((((n + 1 : ℕ) : ℝ) ^ 2) * -Real.pi ^ 2) * t :=
    fun t => by ring
  simp only [h2]
  exact tendsto_exp_atBot.comp h1

/-- A grid of three cells and two boundary cells, 4000 psi on the left, 1000 psi on the right, 3000 psi initially. -/
def demoA : AInput := ⟨[0, 1, 2, 3, 4], [2, 2, 2, 2, 2], [[4000, 3000, 3000, 3000, 1000]], 3000, 1⟩
example : Posed demoA 0 4 4000 1000 where
  x := ⟨[1, 2, 3], rfl, by intro m hm; simp at hm; rcases hm with rfl | rfl | rfl <;> norm_num⟩
  lt := by norm_num
  p := ⟨[3000, 3000, 3000], [], rfl⟩
  ne := ⟨4000, by simp [demoA], 1000, by simp [demoA], by norm_num⟩
  dt := by norm_num [demoA]
example : (demoA.run 10).length = 55 := by
  rw [(C57_rows (by norm_num [demoA]) 10).1]; rfl
end
end RF
