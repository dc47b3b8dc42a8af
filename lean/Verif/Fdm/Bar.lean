import Verif.Fdm.PropsPressure
import Verif.Fdm.PropsMB
/-!
# Homogeneous one-dimensional reservoirs

A row of `n` equal cells with pressures given at both ends: the balance of every cell in closed form.
-/
set_option linter.unusedSectionVars false
namespace RF.Fdm
open RF RF.Spec RF.Dims Finset

variable {K : Type} [Field K] [LinearOrder K] [IsStrictOrderedRing K]

/-- `get_alpha` (black_oil.py l.635-646) for one cell: `(β kx / (μ B)) / (φ c / (v B))`. -/
def getAlpha (β k mu B phi comp v : K) : K := β * k / (mu * B) / (phi * comp / (v * B))

/-- A row of `n` cells of length `h` along x (boundary cells included), permeability `k` and porosity `φ` everywhere, compressible, horizontal or of weightless fluid. -/
structure IsBar (M : GridModel K) (n : ℕ) (h k φ : K) : Prop where
  two : 2 ≤ n
  nx : M.g.nx = n
  ny : M.g.ny = 1
  nz : M.g.nz = 1
  len : ∀ i, i < n + 2 → size M.sizes.x i = h
  kx : ∀ i, i < n + 2 → perm M.g M.rock .x (i, 0, 0) = k
  phi : ∀ i, i < n + 2 → M.phi.getD i 0 = φ
  comp : M.comp = true
  level : M.grav = 0 ∨ ∃ d, ∀ i, i < n + 2 → M.depth.getD i 0 = d

/-- Pressures `pL`, `pR` are given at the two ends (in either order) and there are no wells. -/
structure BothEnds (m : Mdl K) (n : ℕ) (pL pR : K) : Prop where
  bd : m.bdict = [(0, "pressure", pL), (n + 1, "pressure", pR)] ∨ m.bdict = [(n + 1, "pressure", pR), (0, "pressure", pL)]
  wells : m.wells = []

namespace IsBar
variable {M : GridModel K} {n : ℕ} {h k φ : K}

/-- Cross-section. -/
def area (M : GridModel K) : K := size M.sizes.y 0 * size M.sizes.z 0
/-- Transmissibility between two adjacent cells. -/
def T (M : GridModel K) (h k : K) : K := M.β * k * area M / h / (M.mu * M.B)
/-- Coefficient of the accumulation term. -/
def R (M : GridModel K) (h φ : K) : K := h * area M * φ * M.ct / (M.vconv * M.B * M.dt)

lemma padded_nx (b : IsBar M n h k φ) : padded M.g.nx = n + 2 := by
  have := b.two
  unfold padded; rw [b.nx, if_pos (by omega)]

lemma padded_ny (b : IsBar M n h k φ) : padded M.g.ny = 1 := by
  unfold padded; rw [b.ny, if_neg (by omega)]

lemma padded_nz (b : IsBar M n h k φ) : padded M.g.nz = 1 := by
  unfold padded; rw [b.nz, if_neg (by omega)]

lemma inGrid (b : IsBar M n h k φ) {i : ℕ} : InGrid M.g.nx M.g.ny M.g.nz (i, 0, 0) ↔ i < n + 2 := by
  unfold InGrid; rw [b.padded_nx, b.padded_ny, b.padded_nz]; simp

lemma interior (b : IsBar M n h k φ) {i : ℕ} : Interior M.g.nx M.g.ny M.g.nz (i, 0, 0) ↔ 1 ≤ i ∧ i ≤ n := by
  have := b.two
  unfold Interior innerCoord
  rw [b.nx, b.ny, b.nz, if_pos (by omega)]
  simp; omega

lemma num (b : IsBar M n h k φ) (i : ℕ) : M.g.num (i, 0, 0) = i := by
  simp [Dims.num, cellNumber, number]

lemma dec (b : IsBar M n h k φ) {i : ℕ} (hi : i < n + 2) : M.g.dec i = (i, 0, 0) := by
  have := M.g.dec_num (b.inGrid.2 hi)
  rwa [b.num] at this

lemma dim (b : IsBar M n h k φ) : M.g.getD = 1 := by
  have := b.two
  rw [getD_cases, b.nx, b.ny, b.nz]; simp; omega

lemma getN (b : IsBar M n h k φ) : M.g.getN false = n := by
  rw [getN_false, b.nx, b.ny, b.nz]; simp

lemma pcell (b : IsBar M n h k φ) {i : ℕ} (hi : i < n) : RF.pcell M.g false i = (i + 1, 0, 0) := by
  have := b.two
  unfold RF.pcell sh
  rw [b.nx, b.ny, b.nz]
  simp only [shape_false, b.nx, b.ny, decode]
  rw [Nat.mod_eq_of_lt hi, Nat.div_eq_of_lt hi]
  simp; omega

lemma flow (b : IsBar M n h k φ) : Flow M.g.nx M.g.ny M.g.nz .x := by
  have := b.two
  simp only [Flow, along, b.nx]; omega

lemma h_pos (b : IsBar M n h k φ) (hM : M.Pos) : 0 < h := by
  rw [← b.len 0 (by omega)]; exact hM.sizes.1 0 (by rw [b.padded_nx]; omega)

lemma area_pos (b : IsBar M n h k φ) (hM : M.Pos) : 0 < area M :=
  mul_pos (hM.sizes.2.1 0 (by rw [b.padded_ny]; omega)) (hM.sizes.2.2 0 (by rw [b.padded_nz]; omega))

lemma k_pos (b : IsBar M n h k φ) (hM : M.Pos) : 0 < k := by
  have := b.two
  rw [← b.kx 1 (by omega)]; exact hM.perm .x b.flow _ (b.interior.2 ⟨le_rfl, by omega⟩)

lemma φ_pos (b : IsBar M n h k φ) (hM : M.Pos) : 0 < φ := by
  have := b.two
  have := hM.phi (1, 0, 0) (b.interior.2 ⟨le_rfl, by omega⟩)
  rwa [show cellNumber M.g.nx M.g.ny (1, 0, 0) = 1 from b.num 1, b.phi 1 (by omega)] at this

lemma T_pos (b : IsBar M n h k φ) (hM : M.Pos) : 0 < T M h k := by
  have := b.h_pos hM; have := b.k_pos hM; have := b.area_pos hM; have := hM.β; have := hM.mu; have := hM.B
  unfold T; positivity

lemma R_pos (b : IsBar M n h k φ) (hM : M.Pos) : 0 < R M h φ := by
  have := b.h_pos hM; have := b.φ_pos hM; have := b.area_pos hM; have := hM.ct b.comp; have := hM.vconv; have := hM.dt; have := hM.B
  unfold R; positivity

/-- The ratio of the two coefficients is `α dt / h²` with the diffusivity of `get_alpha`. -/
lemma ratio (b : IsBar M n h k φ) (hM : M.Pos) : T M h k / R M h φ = getAlpha M.β k M.mu M.B φ M.ct M.vconv * M.dt / h ^ 2 := by
  have := b.h_pos hM; have := b.φ_pos hM; have := b.area_pos hM; have := hM.ct b.comp; have := hM.vconv; have := hM.dt; have := hM.B; have := hM.mu
  unfold T R getAlpha
  field_simp

lemma pair (b : IsBar M n h k φ) (hM : M.Pos) (iso : Bool) {i j : ℕ} (hi : i < n + 2) (hj : j < n + 2) :
    pairG M.g M.sizes M.rock M.β iso .x (i, 0, 0) (j, 0, 0) / (M.mu * M.B) = T M h k := by
  have h1 := b.h_pos hM; have h2 := b.k_pos hM; have h3 := b.area_pos hM
  have ha : ∀ i, M.sizes.area (i, 0, 0) .x = area M := fun _ => rfl
  have hl : ∀ i, i < n + 2 → M.sizes.along (i, 0, 0) .x = h := fun i hi => b.len i hi
  unfold pairG T
  rw [b.kx i hi, b.kx j hj, ha, ha, hl i hi, hl j hj]
  congr 1
  unfold gForm gArith gHarm
  cases iso
  · have : area M * k ≠ 0 := by positivity
    rw [if_neg (by simp), if_neg (by simp [this])]
    field_simp; ring
  · rw [if_pos rfl]; field_simp; ring

lemma adjacent (a : Axis) (i j : ℕ) : Adjacent a (i, 0, 0) (j, 0, 0) ↔ a = .x ∧ (j = i + 1 ∨ i = j + 1) := by
  cases a <;> simp only [Adjacent, near] <;> simp <;> omega

/-- Transmissibilities of both assemblers: between neighbours only, all the same. -/
lemma trans (b : IsBar M n h k φ) (hM : M.Pos) {e : Env K} (he : M.env = .ok e) (vect : Bool) {i j : ℕ} (hi : i < n) (hj : j < n) :
    e.trans vect i j = if j = i + 1 ∨ i = j + 1 then T M h k else 0 := by
  have en : e.n = n := by unfold Env.n; rw [(env_ok he).1, length_innerIds, ← getN_false, b.getN]
  have : e.trans vect i j = e.transS i j := by
    cases vect
    · rfl
    · exact (trans_agree hM he (by rw [b.dim]; omega) (by rw [en]; exact hi) (by rw [en]; exact hj)).symm
  rw [this]
  obtain ⟨iso, hiso, -⟩ := isIsotropic_eq hM.rock
  obtain ⟨h1, h2⟩ := transS_val hM he hiso (i := i) (j := j) (by rw [b.getN]; exact hi) (by rw [b.getN]; exact hj)
  rw [b.pcell hi, b.pcell hj] at h1 h2
  split_ifs with hc
  · rw [h1 .x ((adjacent _ _ _).2 ⟨rfl, by omega⟩), b.pair hM iso (by omega) (by omega)]
  · exact h2 fun a ha => by rw [adjacent] at ha; omega

lemma at_ (b : IsBar M n h k φ) {e : Env K} (he : M.env = .ok e) {i : ℕ} (hi : i < n) : e.at i = i + 1 := by
  unfold Env.at
  rw [(env_ok he).1, List.getD_eq_getElem?_getD, innerIds_get M.g (by rw [b.getN]; exact hi), b.pcell hi, b.num]; rfl

lemma mem_bnd (b : IsBar M n h k φ) {e : Env K} (he : M.env = .ok e) {i : ℕ} (hi : i = 0 ∨ i = n + 1) : i ∈ e.bnd := by
  have := b.two
  rw [(env_ok he).2.1, M.g.mem_boundIds (by rw [b.dim])]
  rw [b.dec (by omega)]
  exact ⟨b.inGrid.2 (by omega), fun h => by rw [b.interior] at h; omega⟩

/-- The cells at the ends. -/
lemma face (b : IsBar M n h k φ) (hM : M.Pos) {e : Env K} (he : M.env = .ok e) {i j : ℕ} (hi : i = 0 ∧ j = 1 ∨ i = n + 1 ∧ j = n) : e.Face i j (T M h k) := by
  have := b.two
  have hj : Interior M.g.nx M.g.ny M.g.nz (j, 0, 0) := b.interior.2 (by omega)
  have hjm : j ∈ e.ids := by
    rw [(env_ok he).1, M.g.mem_innerIds, b.dec (by omega)]; exact hj
  obtain ⟨N, B, l, -, -, h3, -, -, -, -, -, -, h9⟩ := FromGrid.sym ⟨M, hM, he⟩ |>.cell j hjm
  rw [h9 i _ (b.mem_bnd he (by omega))]
  obtain ⟨iso, hiso, -⟩ := isIsotropic_eq hM.rock
  obtain ⟨-, -, -, -, e5, -⟩ := env_ok he
  rw [e5, cellTrans_true hM (by rw [b.dim]) hiso (by rw [b.dec (by omega)]; exact hj)] at h3
  rw [← Except.ok.inj h3, mem_transItems]
  refine ⟨.x, ?_, ?_⟩
  · have := nbrs_true_of hj (a := .x) (b.inGrid.2 (show i < n + 2 by omega)) b.flow ((adjacent _ _ _).2 ⟨rfl, by omega⟩)
    rwa [b.num, b.num] at this
  · rw [b.dec (by omega), b.dec (by omega), b.pair hM iso (by omega) (by omega)]

lemma n_eq (b : IsBar M n h k φ) {e : Env K} (he : M.env = .ok e) : e.n = n := by
  unfold Env.n; rw [(env_ok he).1, length_innerIds, ← getN_false, b.getN]

lemma rhs (b : IsBar M n h k φ) (hM : M.Pos) {e : Env K} (he : M.env = .ok e) {i : ℕ} (hi : i < n) : e.rhs (i + 1) = R M h φ := by
  obtain ⟨-, -, -, -, -, -, -, -, -, -, e11, -⟩ := env_ok he
  rw [e11]
  unfold calcRHS R
  rw [if_pos b.comp, b.phi _ (by omega)]
  have hV : M.geom.V.getD (i + 1) 0 = h * area M := by
    have hlt : i + 1 < M.g.getN true := by
      have := M.g.num_lt (b.inGrid.2 (show i + 1 < n + 2 by omega))
      rwa [b.num] at this
    rw [(geomOf_of_calc hM.geom).V_eq, List.getD_eq_getElem?_getD, List.getElem?_map, List.getElem?_range hlt]
    show M.sizes.volume (M.g.dec (i + 1)) = _
    rw [b.dec (by omega)]
    unfold Sizes.volume area
    rw [b.len _ (by omega)]; ring
  rw [hV]

lemma flat (b : IsBar M n h k φ) {e : Env K} (he : M.env = .ok e) {i j : ℕ} (hi : i < n + 2) (hj : j < n + 2) : e.grav * (e.z i - e.z j) = 0 := by
  obtain ⟨-, -, -, -, -, -, -, -, -, -, -, e12, -, e14, -⟩ := env_ok he
  rw [e12, e14, e14]
  rcases b.level with h | ⟨d, h⟩
  · rw [h, zero_mul]
  · rw [h i hi, h j hj, sub_self, mul_zero]

/-- The neighbour on the left of the cell at position `i`; behind the end the mirror image that makes the pressure `pL` on the face. -/
def left (pL : K) (x : ℕ → K) (i : ℕ) : K := if i = 0 then 2 * pL - x 0 else x (i - 1)
/-- The neighbour on the right. -/
def right (n : ℕ) (pR : K) (x : ℕ → K) (i : ℕ) : K := if i + 1 = n then 2 * pR - x i else x (i + 1)

lemma sum_near {n i : ℕ} (hi : i < n) (t : K) (f : ℕ → K) :
    ∑ j ∈ range n, (if j = i + 1 ∨ i = j + 1 then t else 0) * f j = t * ((if i = 0 then 0 else f (i - 1)) + if i + 1 = n then 0 else f (i + 1)) := by
  have : ∀ j, (if j = i + 1 ∨ i = j + 1 then t else 0) * f j = (if j = i + 1 then t * f j else 0) + if i = j + 1 then t * f j else 0 := by
    intro j
    by_cases h1 : j = i + 1
    · rw [if_pos (.inl h1), if_pos h1, if_neg (by omega), add_zero]
    · by_cases h2 : i = j + 1
      · rw [if_pos (.inr h2), if_neg h1, if_pos h2, zero_add]
      · rw [if_neg (by omega), if_neg h1, if_neg h2]; simp
  simp only [this]
  rw [sum_add_distrib, mul_add, add_comm]
  congr 1
  · by_cases h0 : i = 0
    · rw [if_pos h0, mul_zero]
      exact sum_eq_zero fun j _ => if_neg (by omega)
    · rw [if_neg h0, sum_eq_single (i - 1) (fun j _ hj => if_neg (by omega)) (fun h => absurd (mem_range.2 (by omega)) h), if_pos (by omega)]
  · by_cases h0 : i + 1 = n
    · rw [if_pos h0, mul_zero]
      exact sum_eq_zero fun j hj => if_neg (by have := mem_range.1 hj; omega)
    · rw [if_neg h0, sum_eq_single (i + 1) (fun j _ hj => if_neg hj) (fun h => absurd (mem_range.2 (by omega)) h), if_pos rfl]

/-- The balance of a cell of the row. -/
theorem balance (b : IsBar M n h k φ) (hM : M.Pos) {e : Env K} (he : M.env = .ok e) {m : Mdl K} {pL pR : K} (hm : BothEnds m n pL pR) (vect : Bool) (rate old x : ℕ → K)
    {i : ℕ} (hi : i < n) :
    excess e (e.trans vect) m rate old x i = T M h k * (left pL x i - 2 * x i + right n pR x i) - R M h φ * (x i - old i) := by
  have h2 := b.two
  have fl := b.face hM he (i := 0) (j := 1) (.inl ⟨rfl, rfl⟩)
  have fr := b.face hM he (i := n + 1) (j := n) (.inr ⟨rfl, rfl⟩)
  have bl : boundaryIn e rate (x i) i (0, "pressure", pL) = if i = 0 then 2 * T M h k * (pL - x i) else 0 := by
    unfold boundaryIn
    rw [show e.transC (0, "pressure", pL).1 false = _ from fl]
    dsimp only
    rw [b.at_ he hi, b.flat he (by omega) (by omega), sub_zero, if_pos rfl]
    by_cases h0 : i = 0
    · rw [if_pos (by omega), if_pos h0]
    · rw [if_neg (by omega), if_neg h0]
  have br : boundaryIn e rate (x i) i (n + 1, "pressure", pR) = if i + 1 = n then 2 * T M h k * (pR - x i) else 0 := by
    unfold boundaryIn
    rw [show e.transC (n + 1, "pressure", pR).1 false = _ from fr]
    dsimp only
    rw [b.at_ he hi, b.flat he (by omega) (by omega), sub_zero, if_pos rfl]
    by_cases h0 : i + 1 = n
    · rw [if_pos (by omega), if_pos h0]
    · rw [if_neg (by omega), if_neg h0]
  have ho : outsideIn e m rate (x i) i = (if i = 0 then 2 * T M h k * (pL - x i) else 0) + if i + 1 = n then 2 * T M h k * (pR - x i) else 0 := by
    unfold outsideIn
    rw [hm.wells]
    rcases hm.bd with hb | hb
    · rw [hb]; simp only [List.map_cons, List.map_nil, List.sum_cons, List.sum_nil, bl, br]; ring
    · rw [hb]; simp only [List.map_cons, List.map_nil, List.sum_cons, List.sum_nil, bl, br]; ring
  unfold excess
  rw [ho, b.at_ he hi, b.rhs hM he hi, b.n_eq he]
  have hs : ∑ j ∈ range n, e.trans vect i j * (x j - x i - e.grav * (e.z (e.at j) - e.z (i + 1))) =
      ∑ j ∈ range n, (if j = i + 1 ∨ i = j + 1 then T M h k else 0) * (x j - x i) := by
    refine sum_congr rfl fun j hj => ?_
    have hj := mem_range.1 hj
    rw [b.trans hM he vect hi hj, b.at_ he hj, b.flat he (by omega) (by omega), sub_zero]
  rw [hs, sum_near hi]
  unfold left right
  by_cases h0 : i = 0
  · by_cases h1 : i + 1 = n
    · omega
    · rw [if_pos h0, if_pos h0, if_neg h1, if_neg h1, if_pos h0, if_neg h1, h0]; ring
  · by_cases h1 : i + 1 = n
    · rw [if_neg h0, if_neg h0, if_pos h1, if_pos h1, if_neg h0, if_pos h1]; ring
    · rw [if_neg h0, if_neg h0, if_neg h1, if_neg h1, if_neg h0, if_neg h1]; ring

end IsBar

/-- Without wells every history is calm. -/
lemma Hist.calm_of_noWells {c : Ctx K} {m0 : Mdl K} (hr : Ready c m0) (hw : m0.wells = []) {m : Mdl K} {s : Sol K} (hh : Hist c Any m0 m s) : Hist c Calm m0 m s := by
  have key : ∀ {m : Mdl K} {s : Sol K}, Hist c Any m0 m s → m.wells = [] := fun hh => by
    have := (hr.inv hh).same.wells
    rw [hw] at this
    exact List.forall₂_nil_left_iff.1 this
  have calm : ∀ {m : Mdl K} {s : Sol K} (vect : Bool) (m' : Mdl K), Hist c Any m0 m s → Calm vect m m' := fun vect m' hh => by
    have := key hh
    refine ⟨?_, fun _ => ?_⟩
    · unfold NoRelease; rw [this]; simp
    · unfold NoZeroPwf; rw [this]; simp
  induction hh with
  | start => exact .start
  | step hh ha hp ih => exact .step ih ha (calm _ _ hh)
  | again hh ha hp ih => exact .again ih ha (calm _ _ hh)
  | look hh ha ih => exact .look ih ha
  | clock n t _ ih => exact .clock n t ih

/-- What a history of a row of cells has stored is the table `F`, if `F` starts with the initial pressures and satisfies the balances. -/
theorem IsBar.history {M : GridModel K} {n : ℕ} {h k φ : K} (b : IsBar M n h k φ) (hM : M.Pos) {c : Ctx K} (he : M.env = .ok c.e) {m0 : Mdl K} (hr : Ready c m0) (hx : Exact c.lin)
    {pL pR : K} (hm : BothEnds m0 n pL pR) {F : ℕ → ℕ → K} (h0 : ∀ i, i < n → m0.initP (i + 1) = some (F 0 i))
    (hF : ∀ t i, i < n → IsBar.T M h k * (left pL (F (t + 1)) i - 2 * F (t + 1) i + right n pR (F (t + 1)) i) = IsBar.R M h φ * (F (t + 1) i - F t i))
    {m : Mdl K} {s : Sol K} (hh : Hist c Any m0 m s) : ∀ t, t ≤ s.tstep → ∀ i, i < n → rowAt s.press t none (i + 1) = some (F t i) := by
  replace hh := hh.calm_of_noWells hr hm.wells
  have en := b.n_eq he
  have hcomp : c.e.comp = true := by
    obtain ⟨-, -, -, -, -, -, -, -, -, e10, -⟩ := env_ok he
    rw [e10]; exact b.comp
  have ends : ∀ {m : Mdl K} {s : Sol K}, Hist c Calm m0 m s → BothEnds m n pL pR := fun hh => by
    have hs := (hr.inv hh).same
    refine ⟨by rw [hs.bdict]; exact hm.bd, ?_⟩
    have := hs.wells
    rw [hm.wells] at this
    exact List.forall₂_nil_left_iff.1 this
  have hflat : c.e.Flat := by
    obtain ⟨-, -, -, -, -, -, -, -, -, -, -, e12, -, e14, -⟩ := env_ok he
    rcases b.level with hl | ⟨d, hl⟩
    · exact .inl (by rw [e12]; exact hl)
    · refine .inr fun i hi => ?_
      rw [en] at hi
      rw [b.at_ he hi, b.at_ he (by omega), e14, e14, hl _ (by omega), hl _ (by omega)]
  have stp : ∀ {m m' : Mdl K} {s s' : Sol K} {vect again : Bool}, Hist c Calm m0 m s → (∀ t, t ≤ s.tstep → ∀ i, i < n → rowAt s.press t none (i + 1) = some (F t i)) →
      attempt c vect m s = .ok (m', s', again) → Calm vect m m' → ∀ t, t ≤ s'.tstep → ∀ i, i < n → rowAt s'.press t none (i + 1) = some (F t i) := by
    intro m m' s s' vect again hh ih hat hp t ht i hi
    obtain ⟨m1, s1, A, d, x, p, r', ps, h1⟩ := attempted hr.ctx.lower hr.ctx.wf (hr.inv hh) hat
    by_cases ht' : t = s'.tstep
    · obtain ⟨hin, hq⟩ := hr.calm hh
      have hold : ∀ i, i < n → s.inner c.e s.tstep i = F s.tstep i := fun i hi => by
        unfold Sol.inner; rw [b.at_ he hi, ih _ le_rfl i hi]; rfl
      have hbal := step_balance hr.ctx hx hin hq (fun _ => hflat) hp.2 hat
      have hT := hr.ctx.grid.network vect
      have hu : ∀ i, i < c.e.n → s'.inner c.e s'.tstep i = F (s.tstep + 1) i := by
        refine Net.eq_of_inflow_eq (anchored_leaky hr.ctx.wf hT hin.mdl (.inl hcomp)) fun i hi => ?_
        have e1 := excess_linear c.e hT m (usedRate vect m s) (s.inner c.e s.tstep) (s'.inner c.e s'.tstep) hi
        have e2 := excess_linear c.e hT m (usedRate vect m s) (s.inner c.e s.tstep) (F (s.tstep + 1)) hi
        rw [← e1, ← e2, hbal i hi]
        rw [en] at hi
        rw [b.balance hM he (ends hh) vect _ _ (F (s.tstep + 1)) hi, hF _ _ hi, hold i hi, sub_self]
      have := row_inner hr (hr.inv hh) hat (i := i) (by rw [en]; exact hi)
      rw [b.at_ he hi, hu i (by rw [en]; exact hi)] at this
      rw [ht', this, h1.tstep]
    · rw [h1.tstep] at ht ht'
      rw [h1.press, rowAt_append_lt (by rw [(hr.inv hh).plen]; omega)]
      exact ih t (by omega) i hi
  induction hh with
  | start =>
    intro t ht i hi
    have ht0 : t = 0 := by simpa [Sol.init] using ht
    subst ht0
    exact h0 i hi
  | step hh hat hp ih => exact stp hh ih hat hp
  | again hh hat hp ih =>
    obtain ⟨m1, s1, A, d, x, p, r', ps, h1⟩ := attempted hr.ctx.lower hr.ctx.wf (hr.inv hh) hat
    obtain ⟨b1, -, b3⟩ := back_attempted (hr.inv hh) h1
    rw [b1, b3]; exact ih
  | look hh hat ih =>
    obtain ⟨-, vA, bV, res, sM, rfl⟩ := assemble_frame hat
    exact ih
  | clock n t hh ih => exact ih

end RF.Fdm
