import Verif.Fdm.Bar
import Verif.Fdm.PropsMB
import Verif.Fdm.PropsSimilar
/-!
# C88: Darcy's law

An incompressible row of cells between two given pressures carries the flow of resistances in series.
-/
set_option linter.unusedSectionVars false
namespace RF.Fdm
open RF RF.Spec RF.Dims Finset

variable {K : Type} [Field K] [LinearOrder K] [IsStrictOrderedRing K]

/-! ## Specification -/

/-- A row of `n` incompressible cells along x, with two boundary cells; cell `i` is `h i` long and has permeability `k i`, and the boundary cells have the permeability of the cells next to them. -/
structure Row (M : GridModel K) (n : ℕ) (h k : ℕ → K) : Prop where
  two : 2 ≤ n
  nx : M.g.nx = n
  ny : M.g.ny = 1
  nz : M.g.nz = 1
  len : ∀ i, i < n + 2 → size M.sizes.x i = h i
  kx : ∀ i, i < n + 2 → perm M.g M.rock .x (i, 0, 0) = k i
  left : k 0 = k 1
  right : k (n + 1) = k n
  comp : M.comp = false

/-- Resistance between the centres of cells `j` and `j + 1`: viscosity and formation volume factor times length over permeability and area, half of each cell. -/
def resist (M : GridModel K) (h k : ℕ → K) (j : ℕ) : K := M.mu * M.B / (M.β * (size M.sizes.y 0 * size M.sizes.z 0)) * ((h j / k j + h (j + 1) / k (j + 1)) / 2)

/-- Resistance from the left end to the centre of the cell at position `i`: half of the way from cell 0 to cell 1, then from centre to centre. -/
def upTo (r : ℕ → K) (i : ℕ) : K := r 0 / 2 + ∑ j ∈ range i, r (j + 1)

/-- Resistance from end to end. -/
def endToEnd (r : ℕ → K) (n : ℕ) : K := upTo r (n - 1) + r n / 2

/-! ## A chain of resistances -/

lemma chain {n : ℕ} (hn : 0 < n) {r : ℕ → K} (hr : ∀ j, j ≤ n → 0 < r j) {F : ℕ → K} {L R : K}
    (h : ∀ i, i < n → (if i = 0 then 2 / r 0 * (L - F 0) else 1 / r i * (F (i - 1) - F i)) + (if i + 1 = n then 2 / r n * (R - F i) else 1 / r (i + 1) * (F (i + 1) - F i)) = 0) :
    2 / r 0 * (L - F 0) = (L - R) / endToEnd r n ∧ 2 / r n * (R - F (n - 1)) = - ((L - R) / endToEnd r n) ∧ ∀ i, i < n → F i = L - (L - R) / endToEnd r n * upTo r i := by
  have h0 := hr 0 (by omega)
  set q := 2 / r 0 * (L - F 0) with hq
  have key : ∀ i, i < n → F i = L - q * upTo r i ∧ (if i = 0 then 2 / r 0 * (L - F 0) else 1 / r i * (F (i - 1) - F i)) = q := by
    intro i
    induction i with
    | zero =>
      intro _
      refine ⟨?_, by rw [if_pos rfl]⟩
      unfold upTo
      rw [sum_range_zero, add_zero, hq]
      field_simp; ring
    | succ i ih =>
      intro hi
      obtain ⟨i1, i2⟩ := ih (by omega)
      have hb := h i (by omega)
      rw [i2, if_neg (by omega)] at hb
      have hp := hr (i + 1) (by omega)
      have hf : F (i + 1) = F i - q * r (i + 1) := by
        have : 1 / r (i + 1) * (F (i + 1) - F i) = - q := by linarith
        field_simp at this
        linarith
      refine ⟨?_, ?_⟩
      · rw [hf, i1]
        unfold upTo
        rw [sum_range_succ]; ring
      · rw [if_neg (by omega), Nat.add_sub_cancel, hf]
        field_simp; ring
  have hl := h (n - 1) (by omega)
  rw [(key (n - 1) (by omega)).2, if_pos (by omega)] at hl
  have hrn := hr n le_rfl
  have ht : 0 < endToEnd r n := by
    have : 0 ≤ ∑ j ∈ range (n - 1), r (j + 1) := sum_nonneg fun j hj => (hr _ (by have := mem_range.1 hj; omega)).le
    unfold endToEnd upTo
    linarith
  have hR : R = L - q * endToEnd r n := by
    have : 2 / r n * (R - F (n - 1)) = - q := by linarith
    have e := (key (n - 1) (by omega)).1
    unfold endToEnd
    field_simp at this
    rw [e] at this
    linarith
  have hQ : (L - R) / endToEnd r n = q := by rw [hR]; field_simp; ring
  rw [hQ]
  exact ⟨rfl, by linarith, fun i hi => (key i hi).1⟩

namespace Row
variable {M : GridModel K} {n : ℕ} {h k : ℕ → K}

lemma padded_nx (b : Row M n h k) : padded M.g.nx = n + 2 := by
  have := b.two
  unfold padded; rw [b.nx, if_pos (by omega)]

lemma padded_ny (b : Row M n h k) : padded M.g.ny = 1 := by
  unfold padded; rw [b.ny, if_neg (by omega)]

lemma padded_nz (b : Row M n h k) : padded M.g.nz = 1 := by
  unfold padded; rw [b.nz, if_neg (by omega)]

lemma inGrid (b : Row M n h k) {i : ℕ} : InGrid M.g.nx M.g.ny M.g.nz (i, 0, 0) ↔ i < n + 2 := by
  unfold InGrid; rw [b.padded_nx, b.padded_ny, b.padded_nz]; simp

lemma interior (b : Row M n h k) {i : ℕ} : Interior M.g.nx M.g.ny M.g.nz (i, 0, 0) ↔ 1 ≤ i ∧ i ≤ n := by
  have := b.two
  unfold Interior innerCoord
  rw [b.nx, b.ny, b.nz, if_pos (by omega)]
  simp; omega

lemma num (b : Row M n h k) (i : ℕ) : M.g.num (i, 0, 0) = i := by
  simp [Dims.num, cellNumber, number]

lemma dec (b : Row M n h k) {i : ℕ} (hi : i < n + 2) : M.g.dec i = (i, 0, 0) := by
  have := M.g.dec_num (b.inGrid.2 hi)
  rwa [b.num] at this

lemma dim (b : Row M n h k) : M.g.getD = 1 := by
  have := b.two
  rw [getD_cases, b.nx, b.ny, b.nz]; simp; omega

lemma getN (b : Row M n h k) : M.g.getN false = n := by
  rw [getN_false, b.nx, b.ny, b.nz]; simp

lemma pcell (b : Row M n h k) {i : ℕ} (hi : i < n) : RF.pcell M.g false i = (i + 1, 0, 0) := by
  have := b.two
  unfold RF.pcell sh
  rw [b.nx, b.ny, b.nz]
  simp only [shape_false, b.nx, b.ny, decode]
  rw [Nat.mod_eq_of_lt hi, Nat.div_eq_of_lt hi]
  simp; omega

lemma flow (b : Row M n h k) : Flow M.g.nx M.g.ny M.g.nz .x := by
  have := b.two
  simp only [Flow, along, b.nx]; omega

lemma h_pos (b : Row M n h k) (hM : M.Pos) {i : ℕ} (hi : i < n + 2) : 0 < h i := by
  rw [← b.len i hi]; exact hM.sizes.1 i (by rw [b.padded_nx]; omega)

lemma area_pos (b : Row M n h k) (hM : M.Pos) : 0 < size M.sizes.y 0 * size M.sizes.z 0 :=
  mul_pos (hM.sizes.2.1 0 (by rw [b.padded_ny]; omega)) (hM.sizes.2.2 0 (by rw [b.padded_nz]; omega))

lemma k_pos (b : Row M n h k) (hM : M.Pos) {i : ℕ} (hi : i < n + 2) : 0 < k i := by
  have h2 := b.two
  have key : ∀ i, 1 ≤ i → i ≤ n → 0 < k i := fun i h1 h2 => by
    rw [← b.kx i (by omega)]; exact hM.perm .x b.flow _ (b.interior.2 ⟨h1, h2⟩)
  rcases Nat.eq_zero_or_pos i with h0 | h0
  · rw [h0, b.left]; exact key 1 le_rfl (by omega)
  · rcases Nat.lt_or_ge n i with h1 | h1
    · rw [show i = n + 1 by omega, b.right]; exact key n (by omega) le_rfl
    · exact key i h0 h1

lemma resist_pos (b : Row M n h k) (hM : M.Pos) {j : ℕ} (hj : j ≤ n) : 0 < resist M h k j := by
  have := b.h_pos hM (show j < n + 2 by omega); have := b.h_pos hM (show j + 1 < n + 2 by omega)
  have := b.k_pos hM (show j < n + 2 by omega); have := b.k_pos hM (show j + 1 < n + 2 by omega)
  have := b.area_pos hM; have := hM.β; have := hM.mu; have := hM.B
  unfold resist; positivity

/-- If the grid counts as isotropic all cells of the row have the same permeability. -/
lemma iso (b : Row M n h k) (hM : M.Pos) (hi : IsoSpec M.g M.rock) : ∀ i, i < n + 2 → k i = k 1 := by
  have h2 := b.two
  have hx : M.rock.k .x ≠ none := by
    intro hn
    have := hM.perm .x b.flow (1, 0, 0) (b.interior.2 ⟨le_rfl, by omega⟩)
    unfold perm at this
    rw [hn] at this
    simp at this
  have key : ∀ i, 1 ≤ i → i ≤ n → k i = k 1 := fun i h1 h3 => by
    rw [← b.kx i (by omega), ← b.kx 1 (by omega)]
    exact hi .x hx _ _ (b.interior.2 ⟨h1, h3⟩) (b.interior.2 ⟨le_rfl, by omega⟩)
  intro i hi
  rcases Nat.eq_zero_or_pos i with h0 | h0
  · rw [h0, b.left]
  · rcases Nat.lt_or_ge n i with h1 | h1
    · rw [show i = n + 1 by omega, b.right]; exact key n (by omega) le_rfl
    · exact key i h0 h1

lemma pair (b : Row M n h k) (hM : M.Pos) {v : Bool} (hv : v = true ↔ IsoSpec M.g M.rock) {j : ℕ} (hj : j ≤ n) :
    pairG M.g M.sizes M.rock M.β v .x (j, 0, 0) (j + 1, 0, 0) / (M.mu * M.B) = 1 / resist M h k j ∧
      pairG M.g M.sizes M.rock M.β v .x (j + 1, 0, 0) (j, 0, 0) / (M.mu * M.B) = 1 / resist M h k j := by
  have h1 := b.h_pos hM (show j < n + 2 by omega); have h2 := b.h_pos hM (show j + 1 < n + 2 by omega)
  have h3 := b.k_pos hM (show j < n + 2 by omega); have h4 := b.k_pos hM (show j + 1 < n + 2 by omega)
  have h5 := b.area_pos hM; have h6 := hM.β; have h7 := hM.mu; have h8 := hM.B
  have ha : ∀ i, M.sizes.area (i, 0, 0) .x = size M.sizes.y 0 * size M.sizes.z 0 := fun _ => rfl
  have hl : ∀ i, i < n + 2 → M.sizes.along (i, 0, 0) .x = h i := fun i hi => b.len i hi
  unfold pairG resist
  rw [b.kx j (by omega), b.kx (j + 1) (by omega), ha, ha, hl j (by omega), hl (j + 1) (by omega)]
  generalize size M.sizes.y 0 * size M.sizes.z 0 = A at *
  unfold gForm gArith gHarm
  cases v
  · have n1 : A * k j ≠ 0 := by positivity
    have n2 : A * k (j + 1) ≠ 0 := by positivity
    rw [if_neg (by simp), if_neg (by simp [n1, n2]), if_neg (by simp), if_neg (by simp [n1, n2])]
    constructor
    · field_simp
    · field_simp; ring
  · have hi := b.iso hM (hv.1 rfl)
    rw [if_pos rfl, if_pos rfl, hi j (by omega), hi (j + 1) (by omega)]
    have h9 : 0 < k 1 := by rw [← hi j (by omega)]; exact h3
    constructor
    · field_simp; ring
    · field_simp; ring

lemma n_eq (b : Row M n h k) {e : Env K} (he : M.env = .ok e) : e.n = n := by
  unfold Env.n; rw [(env_ok he).1, length_innerIds, ← getN_false, b.getN]

/-- Transmissibilities of both assemblers: between neighbours only, the reciprocals of the resistances. -/
lemma trans (b : Row M n h k) (hM : M.Pos) {e : Env K} (he : M.env = .ok e) (vect : Bool) {i j : ℕ} (hi : i < n) (hj : j < n) :
    e.trans vect i j = if j = i + 1 then 1 / resist M h k (i + 1) else if i = j + 1 then 1 / resist M h k i else 0 := by
  have en := b.n_eq he
  have : e.trans vect i j = e.transS i j := by
    cases vect
    · rfl
    · exact (trans_agree hM he (by rw [b.dim]; omega) (by rw [en]; exact hi) (by rw [en]; exact hj)).symm
  rw [this]
  obtain ⟨v, hiso, hv⟩ := isIsotropic_eq hM.rock
  obtain ⟨h1, h2⟩ := transS_val hM he hiso (i := i) (j := j) (by rw [b.getN]; exact hi) (by rw [b.getN]; exact hj)
  rw [b.pcell hi, b.pcell hj] at h1 h2
  split_ifs with hc hc'
  · subst hc
    rw [h1 .x ((IsBar.adjacent _ _ _).2 ⟨rfl, by omega⟩), (b.pair hM hv (by omega)).1]
  · subst hc'
    rw [h1 .x ((IsBar.adjacent _ _ _).2 ⟨rfl, by omega⟩), (b.pair hM hv (by omega)).2]
  · exact h2 fun a ha => by rw [IsBar.adjacent] at ha; omega

lemma at_ (b : Row M n h k) {e : Env K} (he : M.env = .ok e) {i : ℕ} (hi : i < n) : e.at i = i + 1 := by
  unfold Env.at
  rw [(env_ok he).1, List.getD_eq_getElem?_getD, innerIds_get M.g (by rw [b.getN]; exact hi), b.pcell hi, b.num]; rfl

lemma mem_bnd (b : Row M n h k) {e : Env K} (he : M.env = .ok e) {i : ℕ} (hi : i = 0 ∨ i = n + 1) : i ∈ e.bnd := by
  have := b.two
  rw [(env_ok he).2.1, M.g.mem_boundIds (by rw [b.dim])]
  rw [b.dec (by omega)]
  exact ⟨b.inGrid.2 (by omega), fun h => by rw [b.interior] at h; omega⟩

/-- The cells at the ends. -/
lemma face (b : Row M n h k) (hM : M.Pos) {e : Env K} (he : M.env = .ok e) : e.Face 0 1 (1 / resist M h k 0) ∧ e.Face (n + 1) n (1 / resist M h k n) := by
  have h2 := b.two
  obtain ⟨v, hiso, hv⟩ := isIsotropic_eq hM.rock
  have key : ∀ {i j : ℕ} {T : K}, (i = 0 ∧ j = 1 ∨ i = n + 1 ∧ j = n) → pairG M.g M.sizes M.rock M.β v .x (j, 0, 0) (i, 0, 0) / (M.mu * M.B) = T → e.Face i j T := by
    intro i j T hi hT
    have hj : Interior M.g.nx M.g.ny M.g.nz (j, 0, 0) := b.interior.2 (by omega)
    have hjm : j ∈ e.ids := by
      rw [(env_ok he).1, M.g.mem_innerIds, b.dec (by omega)]; exact hj
    obtain ⟨N, B, l, -, -, h3, -, -, -, -, -, -, h9⟩ := FromGrid.sym ⟨M, hM, he⟩ |>.cell j hjm
    rw [h9 i _ (b.mem_bnd he (by omega))]
    obtain ⟨-, -, -, -, e5, -⟩ := env_ok he
    rw [e5, cellTrans_true hM (by rw [b.dim]) hiso (by rw [b.dec (by omega)]; exact hj)] at h3
    rw [← Except.ok.inj h3, mem_transItems]
    refine ⟨.x, ?_, ?_⟩
    · have := nbrs_true_of hj (a := .x) (b.inGrid.2 (show i < n + 2 by omega)) b.flow ((IsBar.adjacent _ _ _).2 ⟨rfl, by omega⟩)
      rwa [b.num, b.num] at this
    · rw [b.dec (by omega), b.dec (by omega), hT]
  exact ⟨key (.inl ⟨rfl, rfl⟩) (b.pair hM hv (by omega)).2, key (.inr ⟨rfl, rfl⟩) (b.pair hM hv le_rfl).1⟩

lemma sum_near {n i : ℕ} (hi : i < n) (r : ℕ → K) (f : ℕ → K) :
    ∑ j ∈ range n, (if j = i + 1 then 1 / r (i + 1) else if i = j + 1 then 1 / r i else 0) * f j =
      (if i = 0 then 0 else 1 / r i * f (i - 1)) + if i + 1 = n then 0 else 1 / r (i + 1) * f (i + 1) := by
  have : ∀ j, (if j = i + 1 then 1 / r (i + 1) else if i = j + 1 then 1 / r i else 0) * f j = (if i = j + 1 then 1 / r i * f j else 0) + if j = i + 1 then 1 / r (i + 1) * f j else 0 := by
    intro j
    by_cases h1 : j = i + 1
    · rw [if_pos h1, if_neg (by omega), if_pos h1, zero_add]
    · by_cases h2 : i = j + 1
      · rw [if_neg h1, if_pos h2, if_pos h2, if_neg h1, add_zero]
      · rw [if_neg h1, if_neg h2, if_neg h2, if_neg h1, zero_mul, add_zero]
  rw [sum_congr rfl fun j _ => this j, sum_add_distrib]
  congr 1
  · by_cases h0 : i = 0
    · rw [if_pos h0]
      exact sum_eq_zero fun j _ => if_neg (by omega)
    · rw [if_neg h0, sum_eq_single (i - 1) (fun j _ hj => if_neg (by omega)) (fun h => absurd (mem_range.2 (by omega)) h), if_pos (by omega)]
  · by_cases h0 : i + 1 = n
    · rw [if_pos h0]
      exact sum_eq_zero fun j hj => if_neg (by have := mem_range.1 hj; omega)
    · rw [if_neg h0, sum_eq_single (i + 1) (fun j _ hj => if_neg hj) (fun h => absurd (mem_range.2 (by omega)) h), if_pos rfl]

/-- The balance of a cell of the row, in terms of pressures less the weight of the fluid. -/
theorem balance (b : Row M n h k) (hM : M.Pos) {e : Env K} (he : M.env = .ok e) {m : Mdl K} {pL pR : K} (hm : BothEnds m n pL pR) (vect : Bool) (rate old x : ℕ → K)
    {F : ℕ → K} (hF : ∀ i, F i = x i - e.grav * e.z (i + 1)) {i : ℕ} (hi : i < n) :
    excess e (e.trans vect) m rate old x i = (if i = 0 then 2 / resist M h k 0 * (pL - e.grav * e.z 0 - F 0) else 1 / resist M h k i * (F (i - 1) - F i)) +
      (if i + 1 = n then 2 / resist M h k n * (pR - e.grav * e.z (n + 1) - F i) else 1 / resist M h k (i + 1) * (F (i + 1) - F i)) := by
  have h2 := b.two
  obtain ⟨fl, fr⟩ := b.face hM he
  have bl : boundaryIn e rate (x i) i (0, "pressure", pL) = if i = 0 then 2 / resist M h k 0 * (pL - e.grav * e.z 0 - F 0) else 0 := by
    unfold boundaryIn
    rw [show e.transC (0, "pressure", pL).1 false = _ from fl]
    dsimp only
    rw [b.at_ he hi, if_pos rfl]
    by_cases h0 : i = 0
    · rw [if_pos (by omega), if_pos h0, h0, hF 0]; ring
    · rw [if_neg (by omega), if_neg h0]
  have br : boundaryIn e rate (x i) i (n + 1, "pressure", pR) = if i + 1 = n then 2 / resist M h k n * (pR - e.grav * e.z (n + 1) - F i) else 0 := by
    unfold boundaryIn
    rw [show e.transC (n + 1, "pressure", pR).1 false = _ from fr]
    dsimp only
    rw [b.at_ he hi, if_pos rfl]
    by_cases h0 : i + 1 = n
    · rw [if_pos (by omega), if_pos h0, hF i, h0]; ring
    · rw [if_neg (by omega), if_neg h0]
  have ho : outsideIn e m rate (x i) i = (if i = 0 then 2 / resist M h k 0 * (pL - e.grav * e.z 0 - F 0) else 0) +
      if i + 1 = n then 2 / resist M h k n * (pR - e.grav * e.z (n + 1) - F i) else 0 := by
    unfold outsideIn
    rw [hm.wells]
    rcases hm.bd with hb | hb
    · rw [hb]; simp only [List.map_cons, List.map_nil, List.sum_cons, List.sum_nil, bl, br]; ring
    · rw [hb]; simp only [List.map_cons, List.map_nil, List.sum_cons, List.sum_nil, bl, br]; ring
  have hcomp : e.comp = false := by
    obtain ⟨-, -, -, -, -, -, -, -, -, e10, -⟩ := env_ok he
    rw [e10, b.comp]
  unfold excess
  rw [ho, b.at_ he hi, (show FromGrid e from ⟨M, hM, he⟩).wf.rhsI hcomp, b.n_eq he]
  have hs : ∑ j ∈ range n, e.trans vect i j * (x j - x i - e.grav * (e.z (e.at j) - e.z (i + 1))) =
      ∑ j ∈ range n, (if j = i + 1 then 1 / resist M h k (i + 1) else if i = j + 1 then 1 / resist M h k i else 0) * (F j - F i) := by
    refine sum_congr rfl fun j hj => ?_
    have hj := mem_range.1 hj
    rw [b.trans hM he vect hi hj, b.at_ he hj, hF j, hF i]
    ring
  rw [hs, sum_near hi]
  split_ifs <;> ring

end Row

/-- The vectorized assembler is used only where gravity plays no part between interior cells (it leaves gravity out, C32). -/
def VectLevel (e : Env K) : Bool → Mdl K → Mdl K → Prop := fun v _ _ => v = true → e.Flat

/-- Pressure less the weight of the fluid above: what drives the flow. -/
def Env.head (e : Env K) (id : ℕ) (p : K) : K := p - e.grav * e.z id

/-- Darcy's law: the flow through the row is the difference between the heads at the two ends divided by the resistance from end to end. -/
def darcyRate (M : GridModel K) (e : Env K) (n : ℕ) (h k : ℕ → K) (pL pR : K) : K := (e.head 0 pL - e.head (n + 1) pR) / endToEnd (resist M h k) n

/-- The head of the cell at position `i` lies below the head at the left end by the flow times the resistance between them. -/
def darcyPressure (M : GridModel K) (e : Env K) (n : ℕ) (h k : ℕ → K) (pL pR : K) (i : ℕ) : K := e.head 0 pL - darcyRate M e n h k pL pR * upTo (resist M h k) i + e.grav * e.z (i + 1)

/-- **C88** (partial): whatever is done with a model of an incompressible row of cells of any number, lengths and permeabilities, with pressures given at both ends and no wells, every completed step stores the pressures of Darcy's law in all cells and its flow, in at the left end and out at the right one. -/
theorem C88_darcy_partial {M : GridModel K} {n : ℕ} {h k : ℕ → K} (b : Row M n h k) (hM : M.Pos) {c : Ctx K} (he : M.env = .ok c.e) {m0 : Mdl K} (hr : Ready c m0) (hx : Exact c.lin)
    {pL pR : K} (hm : BothEnds m0 n pL pR) {m : Mdl K} {s : Sol K} (hh : Hist c (VectLevel c.e) m0 m s) :
    ∀ t, 0 < t → t ≤ s.tstep → rowAt s.rates t 0 0 = darcyRate M c.e n h k pL pR ∧ rowAt s.rates t 0 (n + 1) = - darcyRate M c.e n h k pL pR ∧
      ∀ i, i < n → rowAt s.press t none (i + 1) = some (darcyPressure M c.e n h k pL pR i) := by
  have h2 := b.two
  have en := b.n_eq he
  have wk : ∀ {m : Mdl K} {s : Sol K}, Hist c (VectLevel c.e) m0 m s → Hist c Calm m0 m s := fun hh => (hh.weaken fun _ _ _ _ => trivial : Hist c Any m0 _ _).calm_of_noWells hr hm.wells
  have ends : ∀ {m : Mdl K} {s : Sol K}, Hist c Calm m0 m s → BothEnds m n pL pR := fun hh => by
    have hs := (hr.inv hh).same
    refine ⟨by rw [hs.bdict]; exact hm.bd, ?_⟩
    have := hs.wells
    rw [hm.wells] at this
    exact List.forall₂_nil_left_iff.1 this
  obtain ⟨fl, fr⟩ := b.face hM he
  induction hh with
  | start => exact fun t h0 ht => absurd ht (by show ¬ t ≤ 0; omega)
  | @step m s v m' s' hh hat hp ih =>
    obtain ⟨hi, hq⟩ := hr.calm (wk hh)
    obtain ⟨_, _, _, _, x, p, r', _, h1⟩ := attempted hr.ctx.lower hr.ctx.wf hi hat
    have hE := ends (wk hh)
    intro t h0 ht
    by_cases ht' : t = s'.tstep
    · have hz : v = true → NoZeroPwf m := fun _ => by unfold NoZeroPwf; rw [hE.wells]; simp
      have hbal := step_balance hr.ctx hx hi hq hp hz hat
      set F : ℕ → K := fun i => s'.inner c.e s'.tstep i - c.e.grav * c.e.z (i + 1) with hF
      have hch := chain (r := resist M h k) (F := F) (L := c.e.head 0 pL) (R := c.e.head (n + 1) pR) (show 0 < n by omega) (fun j hj => b.resist_pos hM hj) fun i hin => by
        have := hbal i (by rw [en]; exact hin)
        rw [b.balance hM he hE v _ _ _ (F := F) (fun _ => rfl) hin] at this
        exact this
      obtain ⟨c1, c2, c3⟩ := hch
      have prow : ∀ i, i < n → rowAt s'.press s'.tstep none (i + 1) = some (s'.inner c.e s'.tstep i) := fun i hin => by
        have := row_inner hr hi hat (i := i) (by rw [en]; exact hin)
        rwa [b.at_ he hin] at this
      have flux : ∀ {k id : ℕ} {T v : K}, (k, "pressure", v) ∈ m.bdict → c.e.Face k id T → rowAt s'.rates s'.tstep 0 k = 2 * T * (v - (rowAt s'.press s'.tstep none id).getD 0 - c.e.grav * (c.e.z k - c.e.z id)) := by
        intro k id T v hmem hf
        obtain ⟨id', T', hF', hrr⟩ := h1.bound k (upd_of_mem hi.mdl hmem rfl)
        have := (show c.e.transC k false = _ from hf).symm.trans hF'
        simp only [Except.ok.injEq, List.cons.injEq, Prod.mk.injEq, and_true] at this
        obtain ⟨rfl, rfl⟩ := this
        rw [h1.rates, h1.press, h1.tstep, rowAt_append_eq hi.rlen, rowAt_append_eq hi.plen, hrr, bTerm_pressure hr.ctx.lower (v := v) (by rw [dictGet_of_mem hi.mdl.bkeys hmem])]
        simp only [Aff.smul, Aff.sub, Aff.c]; ring
      have pn : rowAt s'.press s'.tstep none n = some (s'.inner c.e s'.tstep (n - 1)) := by
        have := prow (n - 1) (by omega)
        rwa [Nat.sub_add_cancel (by omega)] at this
      subst ht'
      refine ⟨?_, ?_, fun i hin => ?_⟩
      · rw [flux (v := pL) (by rcases hE.bd with hb | hb <;> rw [hb] <;> simp) fl, prow 0 (by omega)]
        unfold darcyRate
        rw [← c1, hF]
        unfold Env.head
        simp only [Option.getD_some]; ring
      · rw [flux (v := pR) (by rcases hE.bd with hb | hb <;> rw [hb] <;> simp) fr, pn]
        unfold darcyRate
        rw [← c2, hF]
        unfold Env.head
        simp only [Option.getD_some]
        rw [show n - 1 + 1 = n by omega]; ring
      · rw [prow i hin]
        have := c3 i hin
        rw [hF] at this
        unfold darcyPressure darcyRate
        rw [← this]
        simp only [sub_add_cancel]
    · rw [h1.tstep] at ht ht'
      rw [h1.press, h1.rates, rowAt_append_lt (by rw [hi.rlen]; omega), rowAt_append_lt (by rw [hi.plen]; omega)]
      exact ih t h0 (by omega)
  | again hh hat hp ih =>
    obtain ⟨m1, s1, A, d, x, p, r', ps, h1⟩ := attempted hr.ctx.lower hr.ctx.wf (hr.inv hh) hat
    obtain ⟨b1, b2, b3⟩ := back_attempted (hr.inv hh) h1
    rw [b1, b2, b3]; exact ih
  | look hh hat ih =>
    obtain ⟨-, vA, bV, res, sM, rfl⟩ := assemble_frame hat
    exact ih
  | clock n t hh ih => exact ih

lemma endToEnd_const (n : ℕ) (hn : 0 < n) (r : K) : endToEnd (fun _ => r) n = n * r := by
  unfold endToEnd upTo
  simp only [sum_const, card_range, nsmul_eq_mul]
  rw [Nat.cast_sub hn]; push_cast; ring

lemma upTo_const (i : ℕ) (r : K) : upTo (fun _ => r) i = (i + 1 / 2) * r := by
  unfold upTo
  simp only [sum_const, card_range, nsmul_eq_mul]; ring

/-- **C88** (partial): equal cells: the flow is `β k A (ΔΦ) / (μ B L)` with the length `L = n h` of the row. -/
theorem C88_uniform_partial {M : GridModel K} {n : ℕ} {h k : K} (b : Row M n (fun _ => h) fun _ => k) (hM : M.Pos) {c : Ctx K} (he : M.env = .ok c.e) {m0 : Mdl K} (hr : Ready c m0) (hx : Exact c.lin)
    {pL pR : K} (hm : BothEnds m0 n pL pR) {m : Mdl K} {s : Sol K} (hh : Hist c (VectLevel c.e) m0 m s) {t : ℕ} (h0 : 0 < t) (ht : t ≤ s.tstep) :
    rowAt s.rates t 0 0 = M.β * k * (size M.sizes.y 0 * size M.sizes.z 0) * ((pL - c.e.grav * c.e.z 0) - (pR - c.e.grav * c.e.z (n + 1))) / (M.mu * M.B * (n * h)) := by
  rw [(C88_darcy_partial b hM he hr hx hm hh t h0 ht).1]
  have h2 := b.two
  have := b.h_pos hM (i := 0) (by omega); have := b.k_pos hM (i := 0) (by omega); have := b.area_pos hM; have := hM.β; have := hM.mu; have := hM.B
  have hn : (0 : K) < n := by exact_mod_cast (show 0 < n by omega)
  unfold darcyRate Env.head
  have : resist M (fun _ => h) (fun _ => k) = fun _ => M.mu * M.B / (M.β * (size M.sizes.y 0 * size M.sizes.z 0)) * (h / k) := by
    funext j; unfold resist; ring
  rw [this, endToEnd_const n (by omega)]
  field_simp

/-! ## Non-vacuity -/

/-- Lengths 1 and 3. -/
def exDarcyS : Sizes ℚ := ⟨.list [1, 1, 3, 3], .scalar 2, .scalar 1⟩

lemma exDarcy_calc : isOk (Geom.calc g2 exDarcyS.x exDarcyS.y exDarcyS.z) = true := by decide +kernel

/-- Permeabilities 1 and 2. -/
def exDarcyR : Rock ℚ := ⟨some [1, 1, 2, 2], none, none⟩

/-- Two different cells on a slope: permeabilities 1 and 2, viscosity 2. -/
def exDarcyM (grav : ℚ) : GridModel ℚ := { exM false grav [0, 1, 3, 4] with sizes := exDarcyS, geom := getOk _ exDarcy_calc, rock := exDarcyR, mu := 2 }

lemma exDarcyM_pos (grav : ℚ) : (exDarcyM grav).Pos := by
  refine ⟨getOk_eq _ exDarcy_calc, ⟨fun i hi => ?_, fun _ _ => two_pos, fun _ _ => one_pos⟩, rock_g2 _ rfl, ?_, ?_, one_pos, two_pos, one_pos, one_pos, one_pos, ?_, fun _ => one_pos⟩
  · have : i < 4 := hi
    interval_cases i <;> show 0 < size exDarcyS.x _ <;> decide +kernel
  · intro a ha c hc
    have ha' : a = .x := by cases a <;> simp [Flow, along, exDarcyM, exM, g2] at ha ⊢
    subst ha'
    rcases g2_cell (Interior.inGrid hc) with rfl | rfl | rfl | rfl <;> show (0 : ℚ) < perm g2 exDarcyR .x _ <;> decide +kernel
  · intro a c hc
    rcases g2_cell hc with rfl | rfl | rfl | rfl <;> cases a <;> show (0 : ℚ) ≤ perm g2 exDarcyR _ _ <;> decide +kernel
  · intro c hc
    rcases g2_cell (Interior.inGrid hc) with rfl | rfl | rfl | rfl <;> show (0 : ℚ) < ([1, 1, 1, 1] : List ℚ).getD (cellNumber g2.nx g2.ny _) 0 <;> decide +kernel

lemma exDarcyM_ok : isOk (exDarcyM 0).env = true ∧ isOk (exDarcyM 1).env = true := ⟨by decide +kernel, by decide +kernel⟩

/-- Weightless fluid. -/
def exDarcy0 : Ctx ℚ := ⟨getOk _ exDarcyM_ok.1, fun s => s, fun _ _ => 1, cramer⟩
/-- A fluid with weight. -/
def exDarcy1 : Ctx ℚ := ⟨getOk _ exDarcyM_ok.2, fun s => s, fun _ _ => 1, cramer⟩

lemma exDarcy_ctx : CtxOK exDarcy0 ∧ CtxOK exDarcy1 :=
  ⟨⟨⟨rfl, rfl⟩, ⟨_, exDarcyM_pos 0, getOk_eq _ exDarcyM_ok.1⟩, fun _ _ => (one_ne_zero : (1 : ℚ) ≠ 0)⟩, ⟨⟨rfl, rfl⟩, ⟨_, exDarcyM_pos 1, getOk_eq _ exDarcyM_ok.2⟩, fun _ _ => (one_ne_zero : (1 : ℚ) ≠ 0)⟩⟩

def exDarcyL (i : ℕ) : ℚ := if i ≤ 1 then 1 else 3
def exDarcyK (i : ℕ) : ℚ := if i ≤ 1 then 1 else 2

lemma exDarcy_row (grav : ℚ) : Row (exDarcyM grav) 2 exDarcyL exDarcyK := by
  refine ⟨le_rfl, rfl, rfl, rfl, fun i hi => ?_, fun i hi => ?_, rfl, rfl, rfl⟩
  · interval_cases i <;> show size exDarcyS.x _ = _ <;> decide +kernel
  · interval_cases i <;> show perm g2 exDarcyR .x _ = _ <;> decide +kernel

/-- Pressures 10 and 3 at the ends. -/
def exDarcyMdl (c : Ctx ℚ) : Mdl ℚ := mkMdl c (some 5) [(0, "pressure", 10), (3, "pressure", 3)] []

lemma exDarcy_ready : Ready exDarcy0 (exDarcyMdl exDarcy0) ∧ Ready exDarcy1 (exDarcyMdl exDarcy1) :=
  ⟨mkMdl_ready exDarcy_ctx.1 (fun _ => rfl) (by decide +kernel), mkMdl_ready exDarcy_ctx.2 (fun _ => rfl) (by decide +kernel)⟩

lemma solveAll_vect (c : Ctx ℚ) (fuel : ℕ) (vect : Bool) (m : Mdl ℚ) (s : Sol ℚ) : SolveAll c (fun v _ _ => v = vect) fuel vect m s := by
  induction fuel generalizing m s with
  | zero => trivial
  | succ n ih => exact fun m' s' again _ => ⟨rfl, fun _ => ih m' s'.back⟩

lemma exRun_vect {c : Ctx ℚ} {m : Mdl ℚ} (hr : Ready c m) (vect : Bool) (n : ℕ) : Hist c (fun v _ _ => v = vect) m (exRun c vect n m).1 (exRun c vect n m).2 := by
  induction n with
  | zero => exact .start
  | succ n ih =>
    unfold exRun
    rcases hs : solve c 10 vect true (exRun c vect n m).1 (exRun c vect n m).2 with x | ⟨m', s'⟩
    · exact ih
    · exact ih.solve hr.ctx.lower hr.ctx.wf hr.started.mdl (solveAll_vect _ _ _ _ _) hs

/-- The hypotheses of `C88_darcy_partial` are met by two different cells on a slope: without weight by both assemblers, with weight by the symbolic one. Three steps are made; without weight the flow is 14/5, with weight 22/5. -/
example : (∀ grav, (exDarcyM grav).Pos ∧ Row (exDarcyM grav) 2 exDarcyL exDarcyK) ∧ (exDarcyM 0).env = .ok exDarcy0.e ∧ (exDarcyM 1).env = .ok exDarcy1.e ∧
    Ready exDarcy0 (exDarcyMdl exDarcy0) ∧ Ready exDarcy1 (exDarcyMdl exDarcy1) ∧ Exact exDarcy0.lin ∧ BothEnds (exDarcyMdl exDarcy0) 2 10 3 ∧ BothEnds (exDarcyMdl exDarcy1) 2 10 3 ∧
    (∀ vect, Hist exDarcy0 (VectLevel exDarcy0.e) (exDarcyMdl exDarcy0) (exRun exDarcy0 vect 3 (exDarcyMdl exDarcy0)).1 (exRun exDarcy0 vect 3 (exDarcyMdl exDarcy0)).2 ∧
      (exRun exDarcy0 vect 3 (exDarcyMdl exDarcy0)).2.tstep = 3 ∧ rowAt (exRun exDarcy0 vect 3 (exDarcyMdl exDarcy0)).2.rates 3 0 0 = 14 / 5) ∧
    Hist exDarcy1 (VectLevel exDarcy1.e) (exDarcyMdl exDarcy1) (exRun exDarcy1 false 3 (exDarcyMdl exDarcy1)).1 (exRun exDarcy1 false 3 (exDarcyMdl exDarcy1)).2 ∧
    (exRun exDarcy1 false 3 (exDarcyMdl exDarcy1)).2.tstep = 3 ∧ darcyRate (exDarcyM 1) exDarcy1.e 2 exDarcyL exDarcyK 10 3 = 22 / 5 ∧ darcyRate (exDarcyM 0) exDarcy0.e 2 exDarcyL exDarcyK 10 3 = 14 / 5 := by
  refine ⟨fun g => ⟨exDarcyM_pos g, exDarcy_row g⟩, getOk_eq _ exDarcyM_ok.1, getOk_eq _ exDarcyM_ok.2, exDarcy_ready.1, exDarcy_ready.2, cramer_exact, ⟨.inl (by decide +kernel), by decide +kernel⟩, ⟨.inl (by decide +kernel), by decide +kernel⟩, fun vect => ⟨?_, ?_, ?_⟩, ?_, ?_, ?_, ?_⟩
  · exact (exRun_any exDarcy_ready.1 vect 3).weaken fun _ _ _ _ _ => .inl (by decide +kernel)
  · cases vect <;> decide +kernel
  · cases vect <;> decide +kernel
  · exact (exRun_vect exDarcy_ready.2 false 3).weaken fun _ _ _ h h' => absurd (h.symm.trans h') (by decide)
  · decide +kernel
  · decide +kernel
  · decide +kernel

/-- The hypotheses of `C88_uniform_partial` are met. -/
example : (exM false 0 []).Pos ∧ Row (exM false 0 []) 2 (fun _ => 1) (fun _ => 1) := by
  refine ⟨exM_pos _ _ _, ⟨le_rfl, rfl, rfl, rfl, fun i hi => rfl, fun i hi => ?_, rfl, rfl, rfl⟩⟩
  interval_cases i <;> show perm g2 exRock .x _ = _ <;> decide +kernel

end RF.Fdm
