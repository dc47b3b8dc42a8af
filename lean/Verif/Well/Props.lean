import Verif.Well.Model
import Mathlib.Analysis.SpecialFunctions.Pow.NNReal
/-!
# Properties of the well index (C26)
-/
namespace RF
noncomputable section
open Real

/-- A cell with positive sizes and permeabilities. -/
structure PosCell (c : WellCell) : Prop where
  dx : 0 < c.dx
  dy : 0 < c.dy
  dz : 0 < c.dz
  kx : 0 < c.kx
  ky : 0 < c.ky

/-- The flow directions for which wells are supported. -/
def WellDir (fdir : FDir) : Prop := fdir = [.x] ∨ fdir = [.x, .y] ∨ fdir = [.x, .y, .z]

/-- Total resistance around the well: logarithm of the radius ratio plus skin. -/
def wellRes (req r s : ℝ) : ℝ := log (12 * req / r) + s

lemma half_eq : ((0.5 : ℝ)) = 1 / 2 := by norm_num

lemma wellK_pos {fdir : FDir} {c : WellCell} (hf : WellDir fdir) (hc : PosCell c) :
    ∃ k, wellK fdir c = .ok k ∧ 0 < k := by
  unfold wellK
  rcases hf with rfl | rfl | rfl
  · exact ⟨_, if_pos rfl, hc.kx⟩
  · exact ⟨_, by rw [if_neg (by decide), if_pos rfl], rpow_pos_of_pos (mul_pos hc.kx hc.ky) _⟩
  · exact ⟨_, by rw [if_neg (by decide), if_neg (by decide), if_pos rfl], rpow_pos_of_pos (mul_pos hc.kx hc.ky) _⟩

/-- **C26** The well index in closed form, for every supported direction: `2π·β·k·dz` over the well resistance, `k` being the
permeability along x on a 1D grid and the geometric mean of the horizontal permeabilities otherwise. -/
theorem C26_value (fdir : FDir) (hf : WellDir fdir) (β : ℝ) (c : WellCell) (hc : PosCell c) (req r s : ℝ) :
    let k := if fdir = [.x] then c.kx else sqrt (c.kx * c.ky)
    wellG fdir β c req r (some s) = .ok (2 * π * β * k * c.dz / wellRes req r s) ∧
      wellG fdir β c req r none = wellG fdir β c req r (some 0) := by
  intro k
  have hk : wellK fdir c = .ok k := by
    unfold wellK
    rcases hf with rfl | rfl | rfl
    · rw [if_pos rfl]; simp [k]
    · rw [if_neg (by decide), if_pos rfl, half_eq, ← sqrt_eq_rpow]; simp [k]
    · rw [if_neg (by decide), if_neg (by decide), if_pos rfl, half_eq, ← sqrt_eq_rpow]; simp [k]
  have e : req / r * 12 = 12 * req / r := by ring
  constructor
  · simp only [wellG, hk, e]; rfl
  · simp only [wellG, hk, add_zero]

/-- **C26** With the equivalent radius above the wellbore radius (`12·req > r`, lengths in feet and inches) and skin that does
not outweigh it, the index is positive, strictly decreases with skin, and increases with the permeabilities. -/
theorem C26_monotone (fdir : FDir) (hf : WellDir fdir) (β : ℝ) (hβ : 0 < β) (c : WellCell) (hc : PosCell c) (req r : ℝ)
    (hr : 0 < r) (hreq : r < 12 * req) (s : ℝ) (hs : 0 ≤ s) :
    ∃ G, wellG fdir β c req r (some s) = .ok G ∧ 0 < G ∧
      (∀ s', s < s' → ∃ G', wellG fdir β c req r (some s') = .ok G' ∧ G' < G) ∧
      (∀ c' : WellCell, c'.dz = c.dz → c.kx ≤ c'.kx → c.ky ≤ c'.ky →
        ∃ G', wellG fdir β c' req r (some s) = .ok G' ∧ G ≤ G') := by
  have hL : 0 < log (12 * req / r) := log_pos (by rw [lt_div_iff₀ hr]; linarith)
  have hR : ∀ t, 0 ≤ t → 0 < wellRes req r t := fun t ht => by unfold wellRes; linarith
  have hk : ∀ c : WellCell, PosCell c → 0 < (if fdir = [.x] then c.kx else sqrt (c.kx * c.ky)) := by
    intro c hc; split_ifs
    · exact hc.kx
    · exact sqrt_pos.2 (mul_pos hc.kx hc.ky)
  have hN : 0 < 2 * π * β * (if fdir = [.x] then c.kx else sqrt (c.kx * c.ky)) * c.dz := by
    have := hk c hc; have := hc.dz; have := pi_pos; positivity
  refine ⟨_, (C26_value fdir hf β c hc req r s).1, div_pos hN (hR s hs), fun s' hs' => ?_, fun c' hz hx hy => ?_⟩
  · refine ⟨_, (C26_value fdir hf β c hc req r s').1, ?_⟩
    exact div_lt_div_of_pos_left hN (hR s hs) (by unfold wellRes; linarith)
  · have hc0 : 0 < c'.kx := hc.kx.trans_le hx
    have hc1 : 0 < c'.ky := hc.ky.trans_le hy
    have hk' : wellK fdir c' = .ok (if fdir = [.x] then c'.kx else sqrt (c'.kx * c'.ky)) := by
      unfold wellK
      rcases hf with rfl | rfl | rfl
      · rw [if_pos rfl]; simp
      · rw [if_neg (by decide), if_pos rfl, half_eq, ← sqrt_eq_rpow]; simp
      · rw [if_neg (by decide), if_neg (by decide), if_pos rfl, half_eq, ← sqrt_eq_rpow]; simp
    have e : req / r * 12 = 12 * req / r := by ring
    refine ⟨2 * π * β * (if fdir = [.x] then c'.kx else sqrt (c'.kx * c'.ky)) * c'.dz / wellRes req r s, ?_, ?_⟩
    · simp only [wellG, hk', e]; rfl
    · rw [hz]
      refine div_le_div_of_nonneg_right ?_ (hR s hs).le
      refine mul_le_mul_of_nonneg_right ?_ hc.dz.le
      refine mul_le_mul_of_nonneg_left ?_ (by have := pi_pos; positivity)
      split_ifs
      · exact hx
      · exact sqrt_le_sqrt (mul_le_mul hx hy hc.ky.le hc0.le)

/-- **C26** With equal permeabilities the two-dimensional equivalent radius is the one-dimensional `0.14·√(dx²+dy²)`. -/
theorem C26_isotropic_radius (c : WellCell) (hc : PosCell c) (h : c.kx = c.ky) (fdir : FDir) (hf : fdir = [.x, .y] ∨ fdir = [.x, .y, .z]) :
    wellReq fdir c = .ok (0.14 * sqrt (c.dx ^ 2 + c.dy ^ 2)) ∧ wellReq [.x] c = wellReq fdir c := by
  have hne : c.ky ≠ 0 := hc.ky.ne'
  have hp : peaceman c = 0.14 * sqrt (c.dx ^ 2 + c.dy ^ 2) := by
    unfold peaceman
    rw [h, div_self hne, one_rpow, one_rpow, half_eq, ← sqrt_eq_rpow, one_mul, one_mul]
    ring
  have h1 : wellReq fdir c = .ok (peaceman c) := by
    unfold wellReq
    rcases hf with rfl | rfl
    · rw [if_neg (by decide), if_pos rfl]
    · rw [if_neg (by decide), if_neg (by decide), if_pos rfl]
  refine ⟨by rw [h1, hp], ?_⟩
  rw [h1, hp]
  unfold wellReq
  rw [if_pos (.inl rfl), half_eq, ← sqrt_eq_rpow]

/-- **C26** The equivalent radius is positive for positive inputs, and does not depend on the order of the two horizontal
axes. -/
theorem C26_radius (c : WellCell) (hc : PosCell c) (fdir : FDir) (hf : WellDir fdir) :
    ∃ q, wellReq fdir c = .ok q ∧ 0 < q ∧ wellReq fdir ⟨c.dy, c.dx, c.dz, c.ky, c.kx⟩ = .ok q := by
  have hx := hc.kx; have hy := hc.ky; have dx := hc.dx; have dy := hc.dy
  have p1 : 0 < (c.ky / c.kx) ^ (0.5 : ℝ) := rpow_pos_of_pos (by positivity) _
  have p2 : 0 < (c.kx / c.ky) ^ (0.5 : ℝ) := rpow_pos_of_pos (by positivity) _
  have p3 : 0 < (c.ky / c.kx) ^ (0.25 : ℝ) := rpow_pos_of_pos (by positivity) _
  have p4 : 0 < (c.kx / c.ky) ^ (0.25 : ℝ) := rpow_pos_of_pos (by positivity) _
  have hp : 0 < peaceman c := by
    unfold peaceman
    have : 0 < ((c.ky / c.kx) ^ (0.5 : ℝ) * c.dx ^ 2 + (c.kx / c.ky) ^ (0.5 : ℝ) * c.dy ^ 2) ^ (0.5 : ℝ) :=
      rpow_pos_of_pos (by positivity) _
    positivity
  have hs : peaceman ⟨c.dy, c.dx, c.dz, c.ky, c.kx⟩ = peaceman c := by
    unfold peaceman; simp only; rw [add_comm ((c.kx / c.ky) ^ (0.5 : ℝ) * c.dy ^ 2), add_comm ((c.kx / c.ky) ^ (0.25 : ℝ))]
  unfold wellReq
  rcases hf with rfl | rfl | rfl
  · refine ⟨_, if_pos (.inl rfl), ?_, ?_⟩
    · have : 0 < (c.dx ^ 2 + c.dy ^ 2) ^ (0.5 : ℝ) := rpow_pos_of_pos (by positivity) _
      positivity
    · rw [if_pos (.inl rfl), add_comm]
  · exact ⟨_, by rw [if_neg (by decide), if_pos rfl], hp, by rw [if_neg (by decide), if_pos rfl, hs]⟩
  · exact ⟨_, by rw [if_neg (by decide), if_neg (by decide), if_pos rfl], hp,
      by rw [if_neg (by decide), if_neg (by decide), if_pos rfl, hs]⟩

/-- **C26** Wells are refused for every other flow direction: grids with flow along y only, z only, or in vertical planes. -/
theorem C26_refused (fdir : FDir) (h : ¬ WellDir fdir) (β : ℝ) (c : WellCell) (req r : ℝ) (s : Option ℝ) :
    wellG fdir β c req r s = .error .value := by
  simp only [WellDir, not_or] at h
  have : wellK fdir c = .error .value := by
    unfold wellK; rw [if_neg h.1, if_neg h.2.1, if_neg h.2.2]
  simp only [wellG, this]; rfl

lemma wellIndex_eq {fdir : FDir} {c : WellCell} {q : ℝ} (h : wellReq fdir c = .ok q) (β r : ℝ) (s : Option ℝ) :
    wellIndex fdir β c r s = wellG fdir β c q r s := by
  simp only [wellIndex, h]; rfl

/-- Both horizontal permeabilities multiplied by `l`. -/
def WellCell.scaleK (c : WellCell) (l : ℝ) : WellCell := { c with kx := l * c.kx, ky := l * c.ky }

lemma wellReq_scale (fdir : FDir) (c : WellCell) (hc : PosCell c) (l : ℝ) (hl : 0 < l) :
    wellReq fdir (c.scaleK l) = wellReq fdir c := by
  have e1 : l * c.ky / (l * c.kx) = c.ky / c.kx := mul_div_mul_left _ _ hl.ne'
  have e2 : l * c.kx / (l * c.ky) = c.kx / c.ky := mul_div_mul_left _ _ hl.ne'
  simp only [wellReq, peaceman, WellCell.scaleK, e1, e2]

/-- **C26** (partial) The index a well is given when it is set. If the equivalent radius the program computes exceeds the
wellbore radius, the index is positive, strictly decreases with skin, and strictly increases when both horizontal
permeabilities grow by the same factor; on a 1D grid it strictly increases with the permeability along the grid.
Missing: on 2D and 3D grids growth of one permeability alone, for which the claim is false (`C26_not_monotone`). -/
theorem C26_index_partial (fdir : FDir) (hf : WellDir fdir) (β : ℝ) (hβ : 0 < β) (c : WellCell) (hc : PosCell c) (q r : ℝ)
    (hq : wellReq fdir c = .ok q) (hr : 0 < r) (hqr : r < 12 * q) (s : ℝ) (hs : 0 ≤ s) :
    ∃ G, wellIndex fdir β c r (some s) = .ok G ∧ 0 < G ∧
      (∀ s', s < s' → ∃ G', wellIndex fdir β c r (some s') = .ok G' ∧ G' < G) ∧
      (∀ l, 1 < l → ∃ G', wellIndex fdir β (c.scaleK l) r (some s) = .ok G' ∧ G < G') ∧
      (fdir = [.x] → ∀ kx ky, c.kx < kx → 0 < ky →
        ∃ G', wellIndex fdir β { c with kx := kx, ky := ky } r (some s) = .ok G' ∧ G < G') := by
  have hL : 0 < log (12 * q / r) := log_pos (by rw [lt_div_iff₀ hr]; linarith)
  have hR : 0 < wellRes q r s := by unfold wellRes; linarith
  obtain ⟨G, h1, h2, h3, _⟩ := C26_monotone fdir hf β hβ c hc q r hr hqr s hs
  have hG := (C26_value fdir hf β c hc q r s).1
  rw [h1] at hG
  have hG := Except.ok.inj hG
  refine ⟨G, by rw [wellIndex_eq hq, h1], h2, fun s' hs' => ?_, fun l hl => ?_, fun hx kx ky hk hky => ?_⟩
  · obtain ⟨G', a, b⟩ := h3 s' hs'
    exact ⟨G', by rw [wellIndex_eq hq, a], b⟩
  · have hl0 : 0 < l := by linarith
    have hc' : PosCell (c.scaleK l) := ⟨hc.dx, hc.dy, hc.dz, mul_pos hl0 hc.kx, mul_pos hl0 hc.ky⟩
    have hq' := (wellReq_scale fdir c hc l hl0).trans hq
    refine ⟨l * G, ?_, by nlinarith⟩
    rw [wellIndex_eq hq', (C26_value fdir hf β _ hc' q r s).1, hG]
    congr 1
    have : sqrt (l * c.kx * (l * c.ky)) = l * sqrt (c.kx * c.ky) := by
      rw [show l * c.kx * (l * c.ky) = l ^ 2 * (c.kx * c.ky) by ring, sqrt_mul (sq_nonneg l), sqrt_sq hl0.le]
    simp only [WellCell.scaleK, this]
    split_ifs <;> ring
  · subst hx
    have hc' : PosCell { c with kx := kx, ky := ky } := ⟨hc.dx, hc.dy, hc.dz, hc.kx.trans hk, hky⟩
    have hq' : wellReq [.x] { c with kx := kx, ky := ky } = .ok q := hq
    refine ⟨_, by rw [wellIndex_eq hq', (C26_value [.x] hf β _ hc' q r s).1], ?_⟩
    rw [hG]
    refine div_lt_div_of_pos_right ?_ hR
    simp only [if_true]
    refine mul_lt_mul_of_pos_right ?_ hc.dz
    exact mul_lt_mul_of_pos_left hk (by have := pi_pos; positivity)

/-- **C26** The unrestricted claim is false: on a 2D grid there is a well, its equivalent radius above its radius, whose index
falls when the permeability along x is raised from 1 to 16. The equivalent radius depends on the permeabilities too. -/
theorem C26_not_monotone (β : ℝ) (hβ : 0 < β) :
    ∃ (c : WellCell) (k' r q G G' : ℝ), PosCell c ∧ 0 < r ∧ c.kx < k' ∧ wellReq [.x, .y] c = .ok q ∧ r < 12 * q ∧
      wellIndex [.x, .y] β c r none = .ok G ∧ wellIndex [.x, .y] β { c with kx := k' } r none = .ok G' ∧ 0 < G' ∧ G' < G := by
  let c : WellCell := ⟨100, 100, 1, 1, 1⟩
  have hc : PosCell c := by constructor <;> norm_num [c]
  have hc' : PosCell { c with kx := 16 } := by constructor <;> norm_num [c]
  have hq := (C26_isotropic_radius c hc rfl [.x, .y] (.inl rfl)).1
  have e0 : c.dx ^ 2 + c.dy ^ 2 = 100 ^ 2 * 2 := by norm_num [c]
  rw [e0, sqrt_mul (by norm_num), sqrt_sq (by norm_num)] at hq
  have s2 : (0:ℝ) < sqrt 2 := by positivity
  have s2' : sqrt 2 ≤ 1.42 := by
    rw [sqrt_le_left (by norm_num)]; norm_num
  have p1 : ((16:ℝ)) ^ (0.5:ℝ) = 4 := by
    rw [half_eq, ← sqrt_eq_rpow, show (16:ℝ) = 4 ^ 2 by norm_num, sqrt_sq (by norm_num)]
  have p2 : ((16:ℝ)) ^ (0.25:ℝ) = 2 := by
    rw [show (16:ℝ) = 2 ^ (4:ℝ) by norm_num, ← rpow_mul (by norm_num)]; norm_num
  have p3 : ((1:ℝ) / 16) ^ (0.5:ℝ) = 1 / 4 := by rw [div_rpow (by norm_num) (by norm_num), p1, one_rpow]
  have p4 : ((1:ℝ) / 16) ^ (0.25:ℝ) = 1 / 2 := by rw [div_rpow (by norm_num) (by norm_num), p2, one_rpow]
  have hq' : wellReq [.x, .y] { c with kx := 16 } = .ok (0.28 * sqrt 42500 / 2.5) := by
    unfold wellReq
    rw [if_neg (by decide), if_pos rfl]
    congr 1
    simp only [peaceman, c, div_one, p1, p2, p3, p4]
    rw [half_eq, ← sqrt_eq_rpow]
    norm_num
  have s4 : (206:ℝ) ≤ sqrt 42500 := le_sqrt_of_sq_le (by norm_num)
  let q : ℝ := 0.14 * (100 * sqrt 2)
  let r : ℝ := 12 * q * exp (-(1/100))
  have hqpos : 0 < q := by positivity
  have hr : 0 < r := by positivity
  have hlt : r < 12 * q := by
    have : exp (-(1/100 : ℝ)) < 1 := by rw [exp_lt_one_iff]; norm_num
    show 12 * q * exp (-(1/100)) < 12 * q
    nlinarith
  have hlog : log (12 * q / r) = 1 / 100 := by
    rw [show 12 * q / r = (exp (-(1/100)))⁻¹ by
      show 12 * q / (12 * q * exp (-(1/100))) = _
      field_simp, log_inv, log_exp, neg_neg]
  let q' : ℝ := 0.28 * sqrt 42500 / 2.5
  have hq'pos : 0 < q' := by positivity
  have hlog' : 1/100 + 0.1 ≤ log (12 * q' / r) := by
    have e : 12 * q' / r = (12 * q / r) * (q' / q) := by field_simp
    have h1 : (1.15 : ℝ) ≤ q' / q := by
      rw [le_div_iff₀ hqpos]
      show 1.15 * (0.14 * (100 * sqrt 2)) ≤ 0.28 * sqrt 42500 / 2.5
      generalize sqrt 2 = a at s2'
      generalize sqrt 42500 = b at s4
      norm_num at s2' ⊢
      linarith
    have h2 : (0.1 : ℝ) ≤ log (q' / q) := by
      have := one_sub_inv_le_log_of_pos (show 0 < q' / q by positivity)
      have h3 : (q' / q)⁻¹ ≤ (1.15)⁻¹ := inv_anti₀ (by norm_num) h1
      have h4 : (1.15 : ℝ)⁻¹ ≤ 0.9 := by norm_num
      linarith
    rw [e, log_mul (by positivity) (by positivity), hlog]
    linarith
  have v := (C26_value [.x, .y] (.inr (.inl rfl)) β c hc q r 0)
  have v' := (C26_value [.x, .y] (.inr (.inl rfl)) β _ hc' q' r 0)
  have hpi := pi_pos
  have n1 : sqrt ((16:ℝ) * 1) = 4 := by rw [mul_one, show (16:ℝ) = 4 ^ 2 by norm_num, sqrt_sq (by norm_num)]
  refine ⟨c, 16, r, q, 2 * π * β / (1 / 100), 2 * π * β * 4 / log (12 * q' / r), hc, hr, by norm_num [c], hq, hlt, ?_, ?_, ?_, ?_⟩
  · rw [wellIndex_eq hq, v.2, v.1]
    have n0 : sqrt (c.kx * c.ky) = 1 := by norm_num [c]
    rw [if_neg (by decide), n0]
    simp only [wellRes, add_zero, hlog, c, mul_one]
  · rw [wellIndex_eq hq', v'.2, v'.1]
    simp only [wellRes, c, n1, add_zero]
    simp
  · have : 0 < log (12 * q' / r) := by linarith
    positivity
  · have h0 : 0 < log (12 * q' / r) := by linarith
    rw [div_lt_div_iff₀ h0 (by norm_num)]
    have : 0 < 2 * π * β := by positivity
    nlinarith

/-- A 300 ft × 350 ft × 40 ft cell with a 3.5 in wellbore. -/
example : ∃ q, wellReq [.x] ⟨300, 350, 40, 270, 270⟩ = .ok q ∧ (3.5 : ℝ) < 12 * q := by
  refine ⟨_, if_pos (.inl rfl), ?_⟩
  have : (300 : ℝ) ≤ (300 ^ 2 + 350 ^ 2) ^ (0.5 : ℝ) := by
    rw [half_eq, ← sqrt_eq_rpow]; exact le_sqrt_of_sq_le (by norm_num)
  linarith
example : PosCell ⟨300, 350, 40, 270, 270⟩ := by constructor <;> norm_num
end
end RF
