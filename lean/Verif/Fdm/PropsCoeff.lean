import Verif.Fdm.Coeff
import Verif.Fdm.Barrier
import Verif.Fdm.SimGrid
import Verif.Fdm.PropsPressure
/-!
# C93: small errors of the data have small effects

Permeabilities, porosities, cell sizes, differences of depth, viscosity, formation volume factor, compressibility, density, time step, conversion factors and well indices are known up to a relative
error `ε` only. The pressures computed with the wrong
data differ from those computed with the right ones by at most a constant times `ε` times the range of the pressures. One kind of data is excluded, because there it is false: boundary cells
with another permeability than a uniform interior (`C93_jump_fails`).
-/
set_option linter.unusedSectionVars false
namespace RF.Fdm
open RF RF.Dims RF.Spec Finset

variable {K : Type} [Field K] [LinearOrder K] [IsStrictOrderedRing K]

/-! ### Specification -/

/-- `y` is `x` up to a relative error of at most `ε`. -/
def Rel (ε x y : K) : Prop := |y - x| ≤ ε * |x|

/-- The same numbers of cells, all other data up to relative errors of at most `ε` (depths: their differences). -/
structure NearData (ε : K) (M M' : GridModel K) : Prop where
  grid : M'.g = M.g
  comp : M'.comp = M.comp
  sizes : ∀ a c, InGrid M.g.nx M.g.ny M.g.nz c → Rel ε (M.sizes.along c a) (M'.sizes.along c a)
  depth : ∀ a b, InGrid M.g.nx M.g.ny M.g.nz (M.g.dec a) → InGrid M.g.nx M.g.ny M.g.nz (M.g.dec b) → Rel ε (M.depth.getD a 0 - M.depth.getD b 0) (M'.depth.getD a 0 - M'.depth.getD b 0)
  perm : ∀ a c, InGrid M.g.nx M.g.ny M.g.nz c → Rel ε (perm M.g M.rock a c) (perm M'.g M'.rock a c)
  phi : ∀ c, Interior M.g.nx M.g.ny M.g.nz c → Rel ε (M.phi.getD (cellNumber M.g.nx M.g.ny c) 0) (M'.phi.getD (cellNumber M.g.nx M.g.ny c) 0)
  mu : Rel ε M.mu M'.mu
  B : Rel ε M.B M'.B
  ct : Rel ε M.ct M'.ct
  grav : Rel ε M.grav M'.grav
  dt : Rel ε M.dt M'.dt
  β : Rel ε M.β M'.β
  vconv : Rel ε M.vconv M'.vconv

/-- The same conditions and initial pressures; the same wells up to relative errors of their factors. -/
structure NearModel (ε : K) (e : Env K) (m n : Mdl K) : Prop where
  bd : n.bdict = m.bdict
  well : List.Forall₂ (fun w w' => w'.1 = w.1 ∧ w'.2.con = w.2.con ∧ w'.2.qsp = w.2.qsp ∧ w'.2.pwfsp = w.2.pwfsp ∧ Rel ε (w.2.G.getD 0) (w'.2.G.getD 0)) m.wells n.wells
  init : e.comp = true → ∀ id, id ∈ e.ids → ∃ p, m.initP id = some p ∧ n.initP id = some p

/-- Where the permeability of the interior is uniform, the boundary cells have it, too (as after `set_props(kx=…)` with a number). -/
def PlainEdge (M : GridModel K) : Prop :=
  IsoSpec M.g M.rock → ∀ a c d, Boundary M.g.nx M.g.ny M.g.nz c → Interior M.g.nx M.g.ny M.g.nz d → Adjacent a c d → perm M.g M.rock a c = perm M.g M.rock a d

/-- No gravity head between two cells is larger than `D`. -/
def HeadsWithin (D : K) (e : Env K) : Prop := ∀ a b, (a ∈ e.ids ∨ a ∈ e.bnd) → (b ∈ e.ids ∨ b ∈ e.bnd) → |e.grav * (e.z a - e.z b)| ≤ D

/-! ### relative errors -/

lemma Rel.pos {ε x y : K} (h : Rel ε x y) (hx : 0 ≤ x) : (1 - ε) * x ≤ y ∧ y ≤ (1 + ε) * x := by
  unfold Rel at h
  rw [abs_of_nonneg hx, abs_le] at h
  constructor <;> linarith [h.1, h.2]

lemma Rel.of {ε x y : K} (hx : 0 ≤ x) (h1 : (1 - ε) * x ≤ y) (h2 : y ≤ (1 + ε) * x) : Rel ε x y := by
  unfold Rel
  rw [abs_of_nonneg hx, abs_le]
  constructor <;> linarith

lemma Rel.zero {ε y : K} (h : Rel ε 0 y) : y = 0 := by
  rw [Rel, abs_zero, mul_zero, sub_zero] at h
  exact abs_nonpos_iff.1 h

/-- Two numbers that differ by `j` errors of `ε`. -/
structure Fac (j : ℕ) (ε x y : K) : Prop where
  x0 : 0 ≤ x
  y0 : 0 ≤ y
  le : (1 - ε) ^ j * x ≤ y
  ge : (1 - ε) ^ j * y ≤ x

section
variable {ε x y x' y' : K} {j k : ℕ}

lemma Rel.fac (h : Rel ε x y) (hε : 0 ≤ ε) (hε1 : ε ≤ 1) (hx : 0 ≤ x) : Fac 1 ε x y := by
  obtain ⟨h1, h2⟩ := h.pos hx
  have h3 : 0 ≤ (1 - ε) * x := mul_nonneg (by linarith) hx
  refine ⟨hx, h3.trans h1, by rw [pow_one]; exact h1, ?_⟩
  rw [pow_one]
  have a := mul_le_mul_of_nonneg_left h2 (show 0 ≤ 1 - ε by linarith)
  have b := mul_nonneg (mul_nonneg hε hε) hx
  linarith

lemma Fac.mul (h : Fac j ε x y) (h' : Fac k ε x' y') (hε1 : ε ≤ 1) : Fac (j + k) ε (x * x') (y * y') := by
  have p : ∀ i, 0 ≤ (1 - ε) ^ i := fun i => pow_nonneg (by linarith) i
  refine ⟨mul_nonneg h.x0 h'.x0, mul_nonneg h.y0 h'.y0, ?_, ?_⟩
  · have := mul_le_mul h.le h'.le (mul_nonneg (p k) h'.x0) h.y0
    rw [pow_add]; linarith
  · have := mul_le_mul h.ge h'.ge (mul_nonneg (p k) h'.y0) h.x0
    rw [pow_add]; linarith

lemma Fac.pos (h : Fac j ε x y) (hε1 : ε < 1) (hx : 0 < x) : 0 < y := lt_of_lt_of_le (mul_pos (pow_pos (by linarith) j) hx) h.le

lemma Fac.inv (h : Fac j ε x y) (hε1 : ε < 1) (hx : 0 < x) : Fac j ε x⁻¹ y⁻¹ := by
  have hy := h.pos hε1 hx
  refine ⟨by positivity, by positivity, ?_, ?_⟩
  · rw [← div_eq_mul_inv, div_le_iff₀ hx, ← div_eq_inv_mul, le_div_iff₀ hy]; exact h.ge
  · rw [← div_eq_mul_inv, div_le_iff₀ hy, ← div_eq_inv_mul, le_div_iff₀ hx]; exact h.le

lemma Fac.div (h : Fac j ε x y) (h' : Fac k ε x' y') (hε1 : ε < 1) (hx : 0 < x') : Fac (j + k) ε (x / x') (y / y') := by
  rw [div_eq_mul_inv, div_eq_mul_inv]
  exact h.mul (h'.inv hε1 hx) hε1.le

lemma Fac.add (h : Fac j ε x y) (h' : Fac j ε x' y') : Fac j ε (x + x') (y + y') :=
  ⟨add_nonneg h.x0 h'.x0, add_nonneg h.y0 h'.y0, by rw [mul_add]; exact add_le_add h.le h'.le, by rw [mul_add]; exact add_le_add h.ge h'.ge⟩

lemma Fac.half (h : Fac j ε x y) : Fac j ε (x / 2) (y / 2) :=
  ⟨by have := h.x0; positivity, by have := h.y0; positivity, by linarith [h.le], by linarith [h.ge]⟩

lemma Fac.rel (h : Fac j ε x y) (hε : 0 ≤ ε) (hε1 : ε ≤ 1) (hj : 2 * (j * ε) ≤ 1) : Rel (2 * (j * ε)) x y := by
  have hb : 1 - j * ε ≤ (1 - ε) ^ j := by
    clear hj h
    induction j with
    | zero => simp
    | succ j ih =>
      have a := mul_le_mul_of_nonneg_right ih (show 0 ≤ 1 - ε by linarith)
      have b : 0 ≤ (j : K) * ε * ε := by positivity
      rw [pow_succ]; push_cast; linarith
  have ne : 0 ≤ (j : K) * ε := mul_nonneg (Nat.cast_nonneg _) hε
  refine Rel.of h.x0 ?_ ?_
  · have := mul_le_mul_of_nonneg_right hb h.x0
    have := mul_nonneg ne h.x0
    linarith [h.le]
  · have a := (mul_le_mul_of_nonneg_right hb h.y0).trans h.ge
    generalize (j : K) * ε = t at *
    have b : y ≤ (1 + 2 * t) * ((1 - t) * y) := by
      have : 0 ≤ t * (1 - 2 * t) * y := mul_nonneg (mul_nonneg ne (by linarith)) h.y0
      linarith
    exact b.trans (mul_le_mul_of_nonneg_left a (by linarith))

lemma Rel.weaken {ε' : K} (h : Rel ε x y) (he : ε ≤ ε') : Rel ε' x y := h.trans (mul_le_mul_of_nonneg_right he (abs_nonneg _))

lemma Fac.rel16 (h : Fac j ε x y) (hε : 0 ≤ ε) (hε1 : ε ≤ 1 / 32) (hj : j ≤ 8) : Rel (16 * ε) x y := by
  have h8 : (j : K) * ε ≤ 8 * ε := mul_le_mul_of_nonneg_right (by exact_mod_cast hj) hε
  exact (h.rel hε (by linarith) (by linarith)).weaken (by linarith)

end

/-- A quotient of data with errors. -/
lemma quot_near {ε x y a b a' b' : K} (hε : 0 ≤ ε) (hε1 : ε ≤ 1 / 32) (hx : 0 ≤ x) (h1 : Rel ε x y) (ha : 0 < a) (hb : 0 < b) (hra : Rel ε a a') (hrb : Rel ε b b') :
    Rel (16 * ε) (x / (a * b)) (y / (a' * b')) := by
  have l : ε < 1 := by linarith
  exact ((h1.fac hε l.le hx).div ((hra.fac hε l.le ha.le).mul (hrb.fac hε l.le hb.le) l.le) l (mul_pos ha hb)).rel16 hε hε1 (by norm_num)

/-- A product of data with errors. -/
lemma prod_near {ε x y x' y' : K} (hε : 0 ≤ ε) (hε1 : ε ≤ 1) (h : Rel ε x y) (h' : Rel ε x' y') : Rel (16 * ε) (x * x') (y * y') := by
  unfold Rel at *
  rw [abs_mul, show y * y' - x * x' = (y - x) * (y' - x') + (y - x) * x' + x * (y' - x') by ring]
  have a1 := abs_add_le ((y - x) * (y' - x') + (y - x) * x') (x * (y' - x'))
  have a2 := abs_add_le ((y - x) * (y' - x')) ((y - x) * x')
  rw [abs_mul] at a1
  rw [abs_mul, abs_mul] at a2
  have hx := abs_nonneg x; have hx' := abs_nonneg x'
  have b1 := mul_le_mul h h' (abs_nonneg _) (mul_nonneg hε hx)
  have b2 := mul_le_mul_of_nonneg_right h hx'
  have b3 := mul_le_mul_of_nonneg_left h' hx
  have b4 : ε * |x| * (ε * |x'|) ≤ ε * (|x| * |x'|) := by
    have := mul_le_mul_of_nonneg_right hε1 (mul_nonneg hε (mul_nonneg hx hx'))
    linarith
  have b5 := mul_nonneg hε (mul_nonneg hx hx')
  linarith

lemma series_nonneg {β d1 A1 k1 d2 A2 k2 : K} (hβ : 0 ≤ β) (hd1 : 0 < d1) (hA1 : 0 < A1) (hd2 : 0 < d2) (hA2 : 0 < A2) (h1 : 0 ≤ k1) (h2 : 0 ≤ k2) : 0 ≤ series β d1 A1 k1 d2 A2 k2 := by
  unfold series halfResistance
  split_ifs with h
  · exact le_rfl
  · positivity

lemma series_fac {ε β β' d1 A1 k1 d2 A2 k2 d1' A1' k1' d2' A2' k2' : K} (hε : 0 ≤ ε) (hε1 : ε < 1) (hβ : 0 ≤ β) (hd1 : 0 < d1) (hA1 : 0 < A1) (hd2 : 0 < d2) (hA2 : 0 < A2) (h1 : 0 ≤ k1) (h2 : 0 ≤ k2)
    (rβ : Rel ε β β') (rd1 : Rel ε d1 d1') (fA1 : Fac 2 ε A1 A1') (rd2 : Rel ε d2 d2') (fA2 : Fac 2 ε A2 A2') (r1 : Rel ε k1 k1') (r2 : Rel ε k2 k2') :
    Fac 5 ε (series β d1 A1 k1 d2 A2 k2) (series β' d1' A1' k1' d2' A2' k2') := by
  unfold series
  have f1 := r1.fac hε hε1.le h1
  have f2 := r2.fac hε hε1.le h2
  by_cases h : k1 = 0 ∨ k2 = 0
  · have h' : k1' = 0 ∨ k2' = 0 := h.imp (fun h => by rw [h] at r1; exact r1.zero) fun h => by rw [h] at r2; exact r2.zero
    rw [if_pos h, if_pos h']
    exact ⟨le_rfl, le_rfl, by simp, by simp⟩
  · push Not at h
    have p1 : 0 < k1 := lt_of_le_of_ne h1 (Ne.symm h.1)
    have p2 : 0 < k2 := lt_of_le_of_ne h2 (Ne.symm h.2)
    have q1 := f1.pos hε1 p1
    have q2 := f2.pos hε1 p2
    rw [if_neg (by push Not; exact h), if_neg (by push Not; exact ⟨q1.ne', q2.ne'⟩)]
    have g : ∀ {d A k d' A' k' : K}, 0 < A → 0 < k → 0 < d → Rel ε d d' → Fac 2 ε A A' → Fac 1 ε k k' → Fac 4 ε (halfResistance d A k) (halfResistance d' A' k') := fun hA hk hd rd fA fk =>
      (rd.fac hε hε1.le hd.le).half.div (fA.mul fk hε1.le) hε1 (mul_pos hA hk)
    refine (rβ.fac hε hε1.le hβ).div ((g hA1 p1 hd1 rd1 fA1 f1).add (g hA2 p2 hd2 rd2 fA2 f2)) hε1 ?_
    unfold halfResistance; positivity

/-! ### the coefficients the solvers use -/

/-- Coefficients with relative errors of at most `ε`. -/
structure NearEnv (ε : K) (vect : Bool) (e e' : Env K) : Prop where
  ids : e'.ids = e.ids
  bnd : e'.bnd = e.bnd
  comp : e'.comp = e.comp
  trans : ∀ i j, i < e.n → j < e.n → Rel ε (e.trans vect i j) (e'.trans vect i j)
  face : ∀ b, b ∈ e.bnd → (e.transC b false = .ok [] ∧ e'.transC b false = .ok []) ∨ ∃ id T T', id ∈ e.ids ∧ e.Face b id T ∧ e'.Face b id T' ∧ 0 ≤ T ∧ Rel ε T T'
  rhs : ∀ id, id ∈ e.ids → Rel ε (e.rhs id) (e'.rhs id)
  head : ∀ a b, (a ∈ e.ids ∨ a ∈ e.bnd) → (b ∈ e.ids ∨ b ∈ e.bnd) → Rel ε (e.grav * (e.z a - e.z b)) (e'.grav * (e'.z a - e'.z b))

lemma plain_pair {M : GridModel K} (hM : M.Pos) (hp : PlainEdge M) {iso : Bool} (hiso : iso = true ↔ IsoSpec M.g M.rock) {a : Axis} {c d : Cell} (hc : InGrid M.g.nx M.g.ny M.g.nz c)
    (hd : Interior M.g.nx M.g.ny M.g.nz d) (had : Adjacent a c d) : pairG M.g M.sizes M.rock M.β iso a c d = RF.Spec.face M.g M.sizes M.rock M.β a c d := by
  refine pairG_face hM.sizes M.β iso hc (Interior.inGrid hd) had fun hi => ?_
  by_cases hci : Interior M.g.nx M.g.ny M.g.nz c
  · exact hiso.1 hi a (hM.rock.2 a (adj_flow hci hd had)) _ _ hci hd
  · exact hp (hiso.1 hi) a c d ⟨hc, hci⟩ hd had

section
variable {ε : K} {M M' : GridModel K}

lemma NearData.area (h : NearData ε M M') (hM : M.Pos) (hε : 0 ≤ ε) (hε1 : ε ≤ 1) {c : Cell} (hc : InGrid M.g.nx M.g.ny M.g.nz c) (a : Axis) : Fac 2 ε (M.sizes.area c a) (M'.sizes.area c a) := by
  have f : ∀ a, Fac 1 ε (M.sizes.along c a) (M'.sizes.along c a) := fun a => (h.sizes a c hc).fac hε hε1 (along_pos hM.sizes hc a).le
  cases a
  · exact (f .y).mul (f .z) hε1
  · exact (f .x).mul (f .z) hε1
  · exact (f .x).mul (f .y) hε1

lemma NearData.volume (h : NearData ε M M') (hM : M.Pos) (hε : 0 ≤ ε) (hε1 : ε ≤ 1) {c : Cell} (hc : InGrid M.g.nx M.g.ny M.g.nz c) : Fac 3 ε (M.sizes.volume c) (M'.sizes.volume c) := by
  have f : ∀ a, Fac 1 ε (M.sizes.along c a) (M'.sizes.along c a) := fun a => (h.sizes a c hc).fac hε hε1 (along_pos hM.sizes hc a).le
  exact ((f .x).mul (f .y) hε1).mul (f .z) hε1

lemma NearData.pairG (h : NearData ε M M') (hM : M.Pos) (hM' : M'.Pos) (hp : PlainEdge M) (hp' : PlainEdge M') (hε : 0 ≤ ε) (hε1 : ε ≤ 1 / 32) {iso iso' : Bool} (hiso : iso = true ↔ IsoSpec M.g M.rock)
    (hiso' : iso' = true ↔ IsoSpec M'.g M'.rock) {a : Axis} {c d : Cell} (hc : InGrid M.g.nx M.g.ny M.g.nz c) (hd : Interior M.g.nx M.g.ny M.g.nz d) (had : Adjacent a c d) :
    0 ≤ pairG M.g M.sizes M.rock M.β iso a c d / (M.mu * M.B) ∧
      Rel (16 * ε) (pairG M.g M.sizes M.rock M.β iso a c d / (M.mu * M.B)) (pairG M'.g M'.sizes M'.rock M'.β iso' a c d / (M'.mu * M'.B)) := by
  rw [plain_pair hM hp hiso hc hd had, plain_pair hM' hp' hiso' (by rw [h.grid]; exact hc) (by rw [h.grid]; exact hd) had]
  have i2 := Interior.inGrid hd
  have d1 := along_pos hM.sizes hc a; have A1 := area_pos hM.sizes hc a; have d2 := along_pos hM.sizes i2 a; have A2 := area_pos hM.sizes i2 a
  have k1 := hM.permB a c hc; have k2 := hM.permB a d i2
  have h0 : 0 ≤ RF.Spec.face M.g M.sizes M.rock M.β a c d := series_nonneg hM.β.le d1 A1 d2 A2 k1 k2
  have hmu := hM.mu; have hB := hM.B
  refine ⟨by positivity, ?_⟩
  have l : ε < 1 := by linarith
  have key := series_fac hε l hM.β.le d1 A1 d2 A2 k1 k2 h.β (h.sizes a c hc) (h.area hM hε l.le hc a) (h.sizes a d i2) (h.area hM hε l.le i2 a) (h.perm a c hc) (h.perm a d i2)
  exact (Fac.div key ((h.mu.fac hε l.le hmu.le).mul (h.B.fac hε l.le hB.le) l.le) l (mul_pos hmu hB)).rel16 hε hε1 (by norm_num)

/-- Data with relative errors of `ε` give coefficients with relative errors of `16 ε`. -/
theorem NearData.env (h : NearData ε M M') (hM : M.Pos) (hM' : M'.Pos) (hp : PlainEdge M) (hp' : PlainEdge M') (hε : 0 ≤ ε) (hε1 : ε ≤ 1 / 32) {e e' : Env K} (he : M.env = .ok e) (he' : M'.env = .ok e')
    {vect : Bool} (hv : vect = true → M.g.getD ≠ 3) : NearEnv (16 * ε) vect e e' := by
  have hD := env_dim he
  have wf := FromGrid.wf ⟨M, hM, he⟩
  have wf' := FromGrid.wf ⟨M', hM', he'⟩
  obtain ⟨e1, e2, -, -, e5, -, -, e8, e9, e10, e11, e12, -, e14, -⟩ := env_ok he
  obtain ⟨e1', e2', -, -, e5', -, -, e8', e9', e10', e11', e12', -, e14', -⟩ := env_ok he'
  obtain ⟨iso, hiso, hisoS⟩ := isIsotropic_eq hM.rock
  obtain ⟨iso', hiso', hisoS'⟩ := isIsotropic_eq hM'.rock
  have gids : e'.ids = e.ids := by rw [e1, e1', h.grid]
  have gbnd : e'.bnd = e.bnd := by rw [e2, e2', h.grid]
  have hn : e.n = M.g.getN false := by unfold Env.n; rw [e1, length_innerIds, getN_false]
  have hn' : e'.n = e.n := by unfold Env.n; rw [gids]
  have hid : ∀ a, a ∈ e.ids → Interior M.g.nx M.g.ny M.g.nz (M.g.dec a) := fun a ha => by rw [e1, mem_innerIds] at ha; exact ha
  have hbd : ∀ a, a ∈ e.bnd → Boundary M.g.nx M.g.ny M.g.nz (M.g.dec a) := fun a ha => by rw [e2, M.g.mem_boundIds hD] at ha; exact ha
  have transS : ∀ i j, i < e.n → j < e.n → Rel (16 * ε) (e.transS i j) (e'.transS i j) := fun i j hi hj => by
    rw [hn] at hi hj
    obtain ⟨t1, t2⟩ := transS_val hM he hiso hi hj
    obtain ⟨t1', t2'⟩ := transS_val hM' he' hiso' (i := i) (j := j) (by rw [h.grid]; exact hi) (by rw [h.grid]; exact hj)
    by_cases hx : ∃ x, Adjacent x (pcell M.g false i) (pcell M.g false j)
    · obtain ⟨x, hx⟩ := hx
      rw [t1 x hx, t1' x (by rw [h.grid]; exact hx)]
      have := (h.pairG hM hM' hp hp' hε hε1 hisoS hisoS' (Interior.inGrid (pcell_inner M.g hi)) (pcell_inner M.g hj) hx).2
      rw [h.grid] at this ⊢
      exact this
    · push Not at hx
      rw [t2 hx, t2' (by rw [h.grid]; exact hx)]
      simp [Rel]
  refine ⟨gids, gbnd, by rw [e10, e10', h.comp], fun i j hi hj => ?_, fun b hb => ?_, fun id hi => ?_, fun a b ha hb => ?_⟩
  · cases vect
    · exact transS i j hi hj
    · have := transS i j hi hj
      rw [trans_agree hM he (hv rfl) hi hj, trans_agree hM' he' (by rw [h.grid]; exact hv rfl) (by rw [hn']; exact hi) (by rw [hn']; exact hj)] at this
      exact this
  · have hbi := (hbd b hb).1
    have T : e.transC b false = .ok (transItems M iso b false) := by rw [e5]; exact cellTrans_false hM hiso hbi
    have T' : e'.transC b false = .ok (transItems M' iso' b false) := by rw [e5']; exact cellTrans_false hM' hiso' (by rw [h.grid]; exact hbi)
    have keys : (transItems M' iso' b false).map (·.1) = (transItems M iso b false).map (·.1) := by rw [keys_transItems, keys_transItems, h.grid]
    rcases wf.face b hb with hF | ⟨id, x, hid1, hx, hF⟩
    · refine .inl ⟨hF, ?_⟩
      rw [T, Except.ok.injEq] at hF
      rw [hF, List.map_nil, List.map_eq_nil_iff] at keys
      rw [T', keys]
    · refine .inr ?_
      have hF2 := hF
      rw [Env.Face, T, Except.ok.injEq] at hF
      rw [hF] at keys
      obtain ⟨⟨id', x'⟩, hq⟩ : ∃ q, transItems M' iso' b false = [q] := by
        rw [← List.length_eq_one_iff, ← List.length_map (f := (·.1)), keys]; rfl
      rw [hq] at keys
      simp only [List.map_cons, List.map_nil, List.cons.injEq, and_true] at keys
      subst keys
      refine ⟨id', x, x', hid1, hF2, by rw [Env.Face, T', hq], hx, ?_⟩
      obtain ⟨a, m1, rfl⟩ := mem_transItems.1 (show (id', x) ∈ transItems M iso b false by rw [hF]; simp)
      obtain ⟨a', m2, rfl⟩ := mem_transItems.1 (show (id', x') ∈ transItems M' iso' b false by rw [hq]; simp)
      have adj : ∀ y, id' ∈ (M.g.nbrs (b : ℤ) false).get y → Adjacent y (M.g.dec b) (M.g.dec id') := fun y hy => by
        have h2 : id' ∈ (M.g.nbrs ((M.g.num (M.g.dec b) : ℕ) : ℤ) false).get y := by rw [M.g.num_dec]; exact hy
        rw [M.g.mem_nbrs_false _ hbi] at h2
        obtain ⟨-, d, hd1, hadj, hd2⟩ := h2
        rw [hd2, M.g.dec_num (Interior.inGrid hd1)]; exact hadj
      have ha1 := adj a m1
      have ha2 := adj a' (by rw [h.grid] at m2; exact m2)
      have : a' = a := adj_unique ha2 ha1
      subst this
      have := (h.pairG hM hM' hp hp' hε hε1 hisoS hisoS' hbi (hid id' hid1) ha1).2
      rw [h.grid] at this ⊢
      exact this
  · rw [e11, e11']
    unfold calcRHS
    rw [h.comp]
    split_ifs with hc
    · have V : ∀ (N : GridModel K), N.Pos → ∀ c, InGrid N.g.nx N.g.ny N.g.nz c → N.geom.V.getD (cellNumber N.g.nx N.g.ny c) 0 = N.sizes.volume c := by
        intro N hN c hc
        rw [(geomOf_of_calc hN.geom).V_eq, List.getD_eq_getElem?_getD, List.getElem?_map, List.getElem?_range (show cellNumber N.g.nx N.g.ny c < _ from N.g.num_lt hc)]
        simp only [Option.map_some, Option.getD_some]
        rw [show N.g.dec (cellNumber N.g.nx N.g.ny c) = c from N.g.dec_num hc]
      have hi' := hid id hi
      have v1 := V M hM _ (Interior.inGrid hi')
      have v2 := V M' hM' (M.g.dec id) (by rw [h.grid]; exact Interior.inGrid hi')
      have ph := h.phi _ hi'
      have ph0 := hM.phi _ hi'
      rw [h.grid] at v2
      rw [show cellNumber M.g.nx M.g.ny (M.g.dec id) = id from M.g.num_dec id] at v1 v2 ph ph0
      rw [v1, v2]
      have vol : 0 < M.sizes.volume (M.g.dec id) := by
        have a1 := along_pos hM.sizes (Interior.inGrid hi') .x
        have a2 := along_pos hM.sizes (Interior.inGrid hi') .y
        have a3 := along_pos hM.sizes (Interior.inGrid hi') .z
        unfold Sizes.volume
        simp only [Sizes.along] at a1 a2 a3
        positivity
      have hct := hM.ct hc
      have hB := hM.B; have hvc := hM.vconv; have hdt := hM.dt
      have l : ε < 1 := by linarith
      exact ((((h.volume hM hε l.le (Interior.inGrid hi')).mul (ph.fac hε l.le ph0.le) l.le).mul (h.ct.fac hε l.le hct.le) l.le).div
        (((h.vconv.fac hε l.le hvc.le).mul (h.B.fac hε l.le hB.le) l.le).mul (h.dt.fac hε l.le hdt.le) l.le) l (by positivity)).rel16 hε hε1 (by norm_num)
    · simp [Rel]
  · have hg : ∀ a, (a ∈ e.ids ∨ a ∈ e.bnd) → InGrid M.g.nx M.g.ny M.g.nz (M.g.dec a) := fun a ha => ha.elim (fun h => Interior.inGrid (hid a h)) fun h => (hbd a h).1
    rw [e12, e12', e14, e14, e14', e14']
    exact prod_near hε (by linarith) h.grav (h.depth a b (hg a ha) (hg b hb))

end

/-- Bounds of the coefficients. -/
structure CoefLe (L : K) (vect : Bool) (e : Env K) (m : Mdl K) : Prop where
  trans : ∀ i j, i < e.n → j < e.n → |e.trans vect i j| ≤ L
  face : ∀ b id T, b ∈ e.bnd → e.Face b id T → |2 * T| ≤ L
  rhs : ∀ id, id ∈ e.ids → |e.rhs id| ≤ L
  well : ∀ w, w ∈ m.wells → |windex e w.2| ≤ L

lemma list_bound {α : Type} (f : α → K) (l : List α) : ∃ L, 0 ≤ L ∧ ∀ a, a ∈ l → f a ≤ L := by
  induction l with
  | nil => exact ⟨0, le_rfl, by simp⟩
  | cons a l ih =>
    obtain ⟨L, h0, h⟩ := ih
    refine ⟨max (f a) L, h0.trans (le_max_right _ _), fun b hb => ?_⟩
    rcases List.mem_cons.1 hb with rfl | hb
    · exact le_max_left _ _
    · exact (h b hb).trans (le_max_right _ _)

lemma coef_bound (vect : Bool) (e : Env K) (m : Mdl K) : ∃ L, 0 ≤ L ∧ CoefLe L vect e m := by
  obtain ⟨L1, p1, h1⟩ := list_bound (fun q : ℕ × ℕ => |e.trans vect q.1 q.2|) (List.range e.n ×ˢ List.range e.n)
  obtain ⟨L2, p2, h2⟩ := list_bound (fun b : ℕ => match e.transC b false with | .ok [(_, T)] => |2 * T| | _ => 0) e.bnd
  obtain ⟨L3, p3, h3⟩ := list_bound (fun id : ℕ => |e.rhs id|) e.ids
  obtain ⟨L4, p4, h4⟩ := list_bound (fun w : ℕ × Well K => |windex e w.2|) m.wells
  refine ⟨L1 + L2 + L3 + L4, by positivity, ⟨fun i j hi hj => ?_, fun b id T hb hF => ?_, fun id hi => ?_, fun w hw => ?_⟩⟩
  · have := h1 (i, j) (by simp [hi, hj]); dsimp only at this; linarith
  · have := h2 b hb; rw [show e.transC b false = .ok [(id, T)] from hF] at this; dsimp only at this; linarith
  · have := h3 id hi; linarith
  · have := h4 w hw; linarith

lemma Rel.le {ε x y L : K} (h : Rel ε x y) (hε : 0 ≤ ε) (hL : |x| ≤ L) : |y - x| ≤ ε * L := h.trans (mul_le_mul_of_nonneg_left hL hε)

lemma Rel.mul {ε x y c : K} (h : Rel ε x y) : Rel ε (c * x) (c * y) := by
  unfold Rel at h ⊢
  rw [← mul_sub, abs_mul, abs_mul]
  have := mul_le_mul_of_nonneg_left h (abs_nonneg c)
  linarith

/-- One flow with errors. -/
lemma flow_near {ε T T' h h' L D u : K} (hε : 0 ≤ ε) (hε1 : ε ≤ 1) (hT : Rel ε T T') (hh : Rel ε h h') (hL : |T| ≤ L) (hD : |h| ≤ D) (hu : |u| ≤ D) : |T' * (u - h') - T * (u - h)| ≤ 4 * ε * L * D := by
  have D0 : 0 ≤ D := (abs_nonneg _).trans hD
  have L0 : 0 ≤ L := (abs_nonneg _).trans hL
  have a1 := hT.le hε hL
  have a2 := hh.le hε hD
  have a3 : |u - h'| ≤ 3 * D := by
    have b1 : |u - h'| ≤ |u| + |h'| := abs_sub _ _
    have b2 : |h'| ≤ |h' - h| + |h| := by simpa using abs_add_le (h' - h) h
    nlinarith
  have e1 : T' * (u - h') - T * (u - h) = (T' - T) * (u - h') - T * (h' - h) := by ring
  rw [e1]
  refine (abs_sub _ _).trans ?_
  rw [abs_mul, abs_mul]
  have c1 := mul_le_mul a1 a3 (abs_nonneg _) (by positivity)
  have c2 := mul_le_mul hL a2 (abs_nonneg _) L0
  linarith

section
variable {ε L D : K} {vect : Bool} {e e' : Env K} {m n : Mdl K}

/-- The same wells, well indices up to `ε`. -/
def NearWells (ε : K) (e e' : Env K) (m n : Mdl K) : Prop :=
  List.Forall₂ (fun w w' => w'.1 = w.1 ∧ w'.2.con = w.2.con ∧ w'.2.qsp = w.2.qsp ∧ w'.2.pwfsp = w.2.pwfsp ∧ Rel ε (windex e w.2) (windex e' w'.2)) m.wells n.wells

lemma NearEnv.at (h : NearEnv ε vect e e') : e'.at = e.at := by funext i; unfold Env.at; rw [h.ids]
lemma NearEnv.card (h : NearEnv ε vect e e') : e'.n = e.n := by unfold Env.n; rw [h.ids]

lemma NearEnv.gap (h : NearEnv ε vect e e') (hε : 0 ≤ ε) (hε1 : ε ≤ 1) (hL : CoefLe L vect e m) (hL0 : 0 ≤ L) (hD0 : 0 ≤ D) (hD : HeadsWithin D e) (hb : n.bdict = m.bdict) (hw : NearWells ε e e' m n) :
    Gap D (4 * ε * L * D) vect e e' m n where
  ids := h.ids
  bnd := h.bnd
  comp := h.comp
  flow i j hi hj u hu := flow_near hε hε1 (h.trans i j hi hj) (h.head _ _ (.inl (at_mem e hj)) (.inl (at_mem e hi))) (hL.trans i j hi hj) (hD _ _ (.inl (at_mem e hj)) (.inl (at_mem e hi))) hu
  face b hb i rate v p hp := by
    have g0 : 0 ≤ 4 * ε * L * D := by positivity
    unfold boundaryIn
    dsimp only
    rcases h.face b hb with ⟨h1, h2⟩ | ⟨id, T, T', hid, h1, h2, -, h3⟩
    · rw [h1, h2]; simpa using g0
    · rw [show e.transC b false = .ok [(id, T)] from h1, show e'.transC b false = .ok [(id, T')] from h2, h.at]
      dsimp only
      rw [if_pos rfl, if_pos rfl]
      split_ifs with hi
      · exact flow_near hε hε1 h3.mul (h.head _ _ (.inr hb) (.inl hid)) (hL.face b id T hb h1) (hD _ _ (.inr hb) (.inl hid)) hp
      · simpa using g0
  rate b hb i rate k v p hk := by
    unfold boundaryIn
    dsimp only
    rcases h.face b hb with ⟨h1, h2⟩ | ⟨id, T, T', hid, h1, h2, -, -⟩
    · rw [h1, h2]
    · rw [show e.transC b false = .ok [(id, T)] from h1, show e'.transC b false = .ok [(id, T')] from h2, h.at]
      dsimp only
      simp only [if_neg hk]
  rhs i hi u hu := by
    rw [← sub_mul, abs_mul]
    have a := (h.rhs _ (at_mem e hi)).le hε (hL.rhs _ (at_mem e hi))
    have := mul_le_mul a hu (abs_nonneg _) (by positivity)
    have g0 : 0 ≤ ε * L * D := by positivity
    linarith
  bd := hb
  well := (forall2_and hw).imp fun w w' hw => ⟨hw.1.1, hw.1.2.2.1, hw.1.2.2.2.1, fun u hu => by
    rw [← sub_mul, abs_mul]
    have a := hw.1.2.2.2.2.le hε (hL.well _ hw.2.1)
    have := mul_le_mul a hu (abs_nonneg _) (by positivity)
    have g0 : 0 ≤ ε * L * D := by positivity
    linarith⟩

lemma sum_half {α β : Type} {R : α → β → Prop} {f : α → K} {g : β → K} (h : ∀ a b, R a b → f a ≤ 2 * g b) {l : List α} {l' : List β} (h2 : List.Forall₂ R l l') :
    (l.map f).sum ≤ 2 * (l'.map g).sum := by
  induction h2 with
  | nil => simp
  | cons h1 _ ih =>
    simp only [List.map_cons, List.sum_cons]
    linarith [h _ _ h1]

lemma Rel.half {x y : K} (h : Rel ε x y) (hε : ε ≤ 1 / 2) (hx : 0 ≤ x) : x ≤ 2 * y := by
  have h1 := (h.pos hx).1
  have := mul_le_mul_of_nonneg_right (show 1 / 2 ≤ 1 - ε by linarith) hx
  linarith

lemma NearEnv.outLeak (h : NearEnv ε vect e e') (hε1 : ε ≤ 1 / 2) (he : e.WF) (hm : MdlOK e m) (hb : n.bdict = m.bdict) (hw : NearWells ε e e' m n) (i : ℕ) :
    RF.Fdm.outLeak e m i ≤ 2 * RF.Fdm.outLeak e' n i := by
  have h1 : (m.bdict.map (bLeak e i)).sum ≤ 2 * (n.bdict.map (bLeak e' i)).sum := by
    rw [hb]
    refine sum_half (R := fun a b => a = b ∧ a ∈ m.bdict ∧ b ∈ m.bdict) ?_ (forall2_and (List.forall₂_eq_eq_eq ▸ rfl : List.Forall₂ (· = ·) m.bdict m.bdict))
    rintro b b' ⟨rfl, hb, -⟩
    unfold bLeak
    split_ifs
    · unfold faceLeak
      rcases h.face b.1 (hm.bmem b hb) with ⟨h1, h2⟩ | ⟨id, T, T', hid, h1, h2, h0, h3⟩
      · rw [h1, h2]; simp
      · rw [show e.transC b.1 false = .ok [(id, T)] from h1, show e'.transC b.1 false = .ok [(id, T')] from h2, h.at]
        dsimp only
        split_ifs
        · linarith [h3.half hε1 h0]
        · simp
    · simp
  have h2 : (m.wells.map (wLeak e i)).sum ≤ 2 * (n.wells.map (wLeak e' i)).sum := by
    refine sum_half ?_ (forall2_and hw)
    rintro w w' ⟨⟨a1, a2, -, -, a5⟩, hw, -⟩
    unfold wLeak
    rw [a1, a2, h.at]
    split_ifs
    · exact a5.half hε1 (windex_pos he.B he.mu (hm.well w hw)).le
    · simp
  unfold RF.Fdm.outLeak
  linarith

end

/-! ### the theorems -/

lemma NearData.z {ε : K} {M M' : GridModel K} (h : NearData ε M M') {e e' : Env K} (he : M.env = .ok e) (he' : M'.env = .ok e') {a b : ℕ} (ha : a ∈ e.ids ∨ a ∈ e.bnd) (hb : b ∈ e.ids ∨ b ∈ e.bnd)
    (hz : e.z a = e.z b) : e'.z a = e'.z b := by
  have hD := env_dim he
  obtain ⟨e1, e2, -, -, -, -, -, -, -, -, -, -, -, e14, -⟩ := env_ok he
  obtain ⟨-, -, -, -, -, -, -, -, -, -, -, -, -, e14', -⟩ := env_ok he'
  have hg : ∀ a, (a ∈ e.ids ∨ a ∈ e.bnd) → InGrid M.g.nx M.g.ny M.g.nz (M.g.dec a) := fun a ha => ha.elim
    (fun h => by rw [e1, mem_innerIds] at h; exact Interior.inGrid h) fun h => by rw [e2, M.g.mem_boundIds hD] at h; exact h.1
  have := h.depth a b (hg a ha) (hg b hb)
  rw [← e14, ← e14, ← e14', ← e14', sub_eq_zero.2 hz] at this
  exact sub_eq_zero.1 this.zero

lemma NearData.flat {ε : K} {M M' : GridModel K} (h : NearData ε M M') {e e' : Env K} (he : M.env = .ok e) (he' : M'.env = .ok e') (hf : e.Flat) : e'.Flat := by
  obtain ⟨e1, -, -, -, -, -, -, -, -, -, -, e12, -, e14, -⟩ := env_ok he
  obtain ⟨e1', -, -, -, -, -, -, -, -, -, -, e12', -, e14', -⟩ := env_ok he'
  have gids : e'.ids = e.ids := by rw [e1, e1', h.grid]
  rcases hf with hf | hf
  · left
    have := h.grav
    rw [← e12, hf, Rel, abs_zero, mul_zero, sub_zero] at this
    rw [e12']; exact abs_nonpos_iff.1 this
  · right
    intro i hi
    have hat : e'.at = e.at := by funext i; unfold Env.at; rw [gids]
    have hi' : i < e.n := by unfold Env.n at hi ⊢; rw [← gids]; exact hi
    rw [hat]
    exact h.z he he' (.inl (at_mem e hi')) (.inl (at_mem e (Nat.zero_lt_of_lt hi'))) (hf i hi')

lemma NearData.level {ε : K} {M M' : GridModel K} (h : NearData ε M M') {e e' : Env K} (he : M.env = .ok e) (he' : M'.env = .ok e') (hf : e.Level) : e'.Level := by
  obtain ⟨e1, e2, -, -, -, -, -, -, -, -, -, e12, -, e14, -⟩ := env_ok he
  obtain ⟨e1', e2', -, -, -, -, -, -, -, -, -, e12', -, e14', -⟩ := env_ok he'
  rcases hf with hf | hf
  · left
    have := h.grav
    rw [← e12, hf, Rel, abs_zero, mul_zero, sub_zero] at this
    rw [e12']; exact abs_nonpos_iff.1 this
  · right
    intro a b ha hb
    rw [e1', e2', h.grid, ← e1, ← e2] at ha hb
    exact h.z he he' ha hb (hf a b ha hb)

lemma NearData.wells {ε : K} {M M' : GridModel K} (h : NearData ε M M') (hM : M.Pos) (hε : 0 ≤ ε) (hε1 : ε ≤ 1 / 32) {e e' : Env K} (he : M.env = .ok e) (he' : M'.env = .ok e') {m n : Mdl K}
    (hm : MdlOK e m) (hn : NearModel ε e m n) : NearWells (16 * ε) e e' m n := by
  obtain ⟨-, -, -, -, -, -, -, e8, e9, -⟩ := env_ok he
  obtain ⟨-, -, -, -, -, -, -, e8', e9', -⟩ := env_ok he'
  refine (forall2_and hn.well).imp fun w w' hw => ⟨hw.1.1, hw.1.2.1, hw.1.2.2.1, hw.1.2.2.2.1, ?_⟩
  obtain ⟨G, hG, hG0⟩ := (hm.well w hw.2.1).G
  have r := hw.1.2.2.2.2
  rw [hG, Option.getD_some] at r
  unfold windex
  rw [hG, Option.getD_some, e8, e9, e8', e9']
  exact quot_near hε hε1 hG0.le r hM.B hM.mu h.B h.mu

lemma NearEnv.given {ε : K} {vect : Bool} {e e' : Env K} {m n : Mdl K} (h : NearEnv ε vect e e') (hε1 : ε < 1) (hm : MdlOK e m) (hb : n.bdict = m.bdict) (hw : NearWells ε e e' m n) (hp : PressureGiven e m) :
    PressureGiven e' n := by
  rcases hp with ⟨b, id, T, hbm, hk, hF, hT⟩ | ⟨w, hwm, hc⟩
  · refine .inl ?_
    rcases h.face b.1 (hm.bmem b hbm) with ⟨h1, -⟩ | ⟨id', T1, T', -, h1, h2, h3, h4⟩
    · rw [show e.transC b.1 false = _ from hF] at h1; simp at h1
    · rw [Env.Face, show e.transC b.1 false = _ from hF] at h1
      simp only [Except.ok.injEq, List.cons.injEq, Prod.mk.injEq, and_true] at h1
      obtain ⟨rfl, rfl⟩ := h1
      refine ⟨b, id, T', by rw [hb]; exact hbm, hk, h2, lt_of_lt_of_le (mul_pos (by linarith) hT) (h4.pos h3).1⟩
  · refine .inr ?_
    obtain ⟨w', hw', h'⟩ := (forall2_mem hw).2 w hwm
    exact ⟨w', hw', by rw [h'.2.1]; exact hc⟩

section
variable {M : GridModel K} {c : Ctx K} {m0 : Mdl K} {vect : Bool}

/-- **C93, partial.** Where a pressure is imposed there is a constant `C`, depending only on the grid, rock, fluid, time step and model, such that for all other data with
relative errors of at most `ε ≤ 1/32` and runs of any number of steps: the pressures of the two runs differ by at most `C * ε * D` in every cell after every step, where `D` is a range in which
the pressures of each run, the given pressures and the gravity heads lie. Wells may go to their limits at different steps in the two runs.

Missing: boundary cells whose permeability differs from that of a uniform interior (`C93_jump_fails`); gradient conditions count by the rates made of
them; wells that leave their limit; the vectorised assembler on three-dimensional grids and inclined reservoirs. -/
theorem C93_uniform_partial (hM : M.Pos) (he : M.env = .ok c.e) (hp : PlainEdge M) (hr : Ready c m0) (hx : Exact c.lin) (hv : vect = true → M.g.getD ≠ 3 ∧ c.e.Flat ∧ RatesGiven m0)
    (hi : PressureGiven c.e m0) :
    ∃ C : K, 0 ≤ C ∧ ∀ (M' : GridModel K) (c' : Ctx K) (n0 : Mdl K) (ε D lo lo' : K) (f f' k : ℕ) (el el' : K) (m n : Mdl K) (s s' : Sol K),
      NearData ε M M' → NearModel ε c.e m0 n0 → 0 ≤ ε → ε ≤ 1 / 32 → M'.Pos → M'.env = .ok c'.e → PlainEdge M' → Ready c' n0 → Exact c'.lin → (vect = true → RatesGiven n0) →
      RunAll c Calm f vect k m0 { Sol.init m0 with nsteps := (Sol.init m0).nsteps + k } →
      RunAll c' Calm f' vect k n0 { Sol.init n0 with nsteps := (Sol.init n0).nsteps + k } →
      run c f vect k el m0 (Sol.init m0) = ((m, s), .ok ()) → run c' f' vect k el' n0 (Sol.init n0) = ((n, s'), .ok ()) →
      HeadsWithin D c.e → InBand lo D c.e m0 s → InBand lo' D c'.e n0 s' → Close (fun _ => C * ε * D) c s s' := by
  have wf := hr.ctx.wf
  have hm := hr.started.mdl
  have hT := hr.ctx.grid.network vect
  have hl : Net.Leaky c.e.n (c.e.trans vect) (outLeak c.e m0) := hT.leaky (fun i _ => outLeak_nonneg wf hm i) (hi.leak wf hm)
  obtain ⟨z, Z, hZ0, hz, hbar⟩ := hl.barrier
  obtain ⟨L, hL0, hL⟩ := coef_bound vect c.e m0
  set N : K := c.e.n + m0.bdict.length + m0.wells.length + 1 with hN
  have hN0 : 0 ≤ N := by positivity
  refine ⟨64 * (N * L * Z), by positivity, ?_⟩
  intro M' c' n0 ε D lo lo' f f' k el el' m n s s' hd hn hε hε1 hM' he' hp' hr' hx' hg' hP hP' hs hs' hD hband hband'
  have hD0 : 0 ≤ D := by
    have := hD (c.e.at 0) (c.e.at 0) (.inl (at_mem _ wf.pos)) (.inl (at_mem _ wf.pos))
    exact (abs_nonneg _).trans this
  have hE := hd.env hM hM' hp hp' hε hε1 he he' (vect := vect) fun h => (hv h).1
  have hW := hd.wells hM hε hε1 he he' hm hn
  have h4 : 0 ≤ 16 * ε := by linarith
  have hgap := hE.gap h4 (by linarith) hL hL0 hD0 hD hn.bd hW
  set g : K := 4 * (16 * ε) * L * D with hg
  have hg0 : 0 ≤ g := by positivity
  have htot : Gap.total g c.e m0 = N * g := rfl
  have hi' := hE.given (by linarith) hm hn.bd hW hi
  have dec : ∀ (c2 : Ctx K) (n2 : Mdl K), c2.e.n = c.e.n → (∀ i j, i < c.e.n → j < c.e.n → i ≠ j → c.e.trans vect i j ≤ 2 * c2.e.trans vect i j ∧ c2.e.trans vect i j ≤ 2 * c.e.trans vect i j) →
      (∀ i, i < c.e.n → outLeak c.e m0 i ≤ 2 * outLeak c2.e n2 i) → Decays c2 vect n2 0 (Gap.total g c.e m0) (fun _ i => z i * (N * g)) := fun c2 n2 hcard ht ho j i hin => by
    rw [hcard] at hin
    refine ⟨mul_nonneg (hz i hin).1 (by positivity), ?_⟩
    have h1 := hbar _ _ ht ho i hin
    have h2 : ∑ j ∈ range c2.e.n, c2.e.trans vect i j * (z j * (N * g) - z i * (N * g)) = N * g * ∑ j ∈ range c.e.n, c2.e.trans vect i j * (z j - z i) := by
      rw [mul_sum, hcard]; exact sum_congr rfl fun j _ => by ring
    have := mul_le_mul_of_nonneg_left h1 (show 0 ≤ N * g by positivity)
    dsimp only
    rw [htot, h2]
    linarith
  have key := run_gap (el := el) (el' := el') hr hr' hx hx' (fun h => (hv h).2.1) (fun h => hd.flat he he' (hv h).2.1) hgap hg0 (fun h => ⟨(hv h).2.2, hg' h⟩) hi.anchored hi'.anchored
    (dec c m0 rfl (fun i j hi hj hij => by have := hl.t i j hi hj hij; constructor <;> linarith) fun i hi => by linarith [hl.d i hi])
    (dec c' n0 hE.card (fun i j hi hj hij => by
      have h0 := hl.t i j hi hj hij
      have h1 := (hE.trans i j hi hj).pos h0
      have := mul_le_mul_of_nonneg_right (show 16 * ε ≤ 1 / 2 by linarith) h0
      constructor <;> linarith [h1.1, h1.2]) fun i _ => hE.outLeak (by linarith) wf hm hn.bd hW i) k
    (fun hc i hin => by
      obtain ⟨p, hp1, hp2⟩ := hn.init hc _ (at_mem c.e hin)
      exact ⟨p, p, hp1, hp2, by rw [sub_self, abs_zero]; exact mul_nonneg (hz i hin).1 (by positivity)⟩) hP hP' (by rw [hs]) (by rw [hs']) (by rw [hs]; exact hband) (by rw [hs']; exact hband')
  rw [hs, hs'] at key
  refine key.close fun _ i hin => (mul_le_mul_of_nonneg_right (hz i hin).2 (by positivity)).trans (le_of_eq ?_)
  rw [hg]; ring

/-- **C93** (compressible models), partial: also where no pressure is imposed; after `j` steps the two runs differ by at most `C * j * ε * D`. -/
theorem C93_storage_partial (hM : M.Pos) (he : M.env = .ok c.e) (hp : PlainEdge M) (hr : Ready c m0) (hx : Exact c.lin) (hv : vect = true → M.g.getD ≠ 3 ∧ c.e.Flat ∧ RatesGiven m0)
    (hc : c.e.comp = true) :
    ∃ C : K, 0 ≤ C ∧ ∀ (M' : GridModel K) (c' : Ctx K) (n0 : Mdl K) (ε D lo lo' : K) (f f' k : ℕ) (el el' : K) (m n : Mdl K) (s s' : Sol K),
      NearData ε M M' → NearModel ε c.e m0 n0 → 0 ≤ ε → ε ≤ 1 / 32 → M'.Pos → M'.env = .ok c'.e → PlainEdge M' → Ready c' n0 → Exact c'.lin → (vect = true → RatesGiven n0) →
      RunAll c Calm f vect k m0 { Sol.init m0 with nsteps := (Sol.init m0).nsteps + k } →
      RunAll c' Calm f' vect k n0 { Sol.init n0 with nsteps := (Sol.init n0).nsteps + k } →
      run c f vect k el m0 (Sol.init m0) = ((m, s), .ok ()) → run c' f' vect k el' n0 (Sol.init n0) = ((n, s'), .ok ()) →
      HeadsWithin D c.e → InBand lo D c.e m0 s → InBand lo' D c'.e n0 s' → Close (fun j => C * j * ε * D) c s s' := by
  have wf := hr.ctx.wf
  have hm := hr.started.mdl
  obtain ⟨L, hL0, hL⟩ := coef_bound vect c.e m0
  have ne : (range c.e.n).Nonempty := ⟨0, mem_range.2 wf.pos⟩
  obtain ⟨i1, hi1, hmin⟩ := exists_min_image (range c.e.n) (fun i => c.e.rhs (c.e.at i)) ne
  have hρ : 0 < c.e.rhs (c.e.at i1) := wf.rhsC hc _ (at_mem _ (mem_range.1 hi1))
  have hρ' : ∀ i, i < c.e.n → c.e.rhs (c.e.at i1) ≤ c.e.rhs (c.e.at i) := fun i hi => hmin i (mem_range.2 hi)
  generalize c.e.rhs (c.e.at i1) = ρ at hρ hρ'
  set N : K := c.e.n + m0.bdict.length + m0.wells.length + 1 with hN
  have hN0 : 0 ≤ N := by positivity
  refine ⟨128 * (N * L / ρ), by positivity, ?_⟩
  intro M' c' n0 ε D lo lo' f f' k el el' m n s s' hd hn hε hε1 hM' he' hp' hr' hx' hg' hP hP' hs hs' hD hband hband'
  have hD0 : 0 ≤ D := by
    have := hD (c.e.at 0) (c.e.at 0) (.inl (at_mem _ wf.pos)) (.inl (at_mem _ wf.pos))
    exact (abs_nonneg _).trans this
  have hE := hd.env hM hM' hp hp' hε hε1 he he' (vect := vect) fun h => (hv h).1
  have hW := hd.wells hM hε hε1 he he' hm hn
  have h4 : 0 ≤ 16 * ε := by linarith
  have hgap := hE.gap h4 (by linarith) hL hL0 hD0 hD hn.bd hW
  set g : K := 4 * (16 * ε) * L * D with hg
  have hg0 : 0 ≤ g := by positivity
  have htot : Gap.total g c.e m0 = N * g := rfl
  have hη : 0 ≤ 2 * (N * g) / ρ := by positivity
  have any : ∀ (c2 : Ctx K) (n2 : Mdl K), c2.e.WF → MdlOK c2.e n2 → (∀ i, i < c2.e.n → ρ / 2 ≤ c2.e.rhs (c2.e.at i)) → Decays c2 vect n2 0 (Gap.total g c.e m0) (fun j _ => j * (2 * (N * g) / ρ)) :=
    fun c2 n2 w2 m2 hr2 j i hin => by
      refine ⟨mul_nonneg (Nat.cast_nonneg _) hη, ?_⟩
      have h1 : 0 ≤ outLeak c2.e n2 i * (((j + 1 : ℕ) : K) * (2 * (N * g) / ρ) - 0) :=
        mul_nonneg (outLeak_nonneg w2 m2 i) (by rw [sub_zero]; exact mul_nonneg (Nat.cast_nonneg _) hη)
      refine le_trans ?_ h1
      have h2 : N * g ≤ c2.e.rhs (c2.e.at i) * (2 * (N * g) / ρ) := by
        have := mul_le_mul_of_nonneg_right (hr2 i hin) hη
        have e1 : ρ / 2 * (2 * (N * g) / ρ) = N * g := by field_simp
        rwa [e1] at this
      simp only [sub_self, mul_zero, sum_const_zero, zero_add]
      rw [htot]
      push_cast
      linarith
  have dec := any c m0 wf hm fun i hi => by linarith [hρ' i hi]
  have dec' := any c' n0 hr'.ctx.wf hr'.started.mdl fun i hi => by
    rw [hE.card] at hi
    rw [hE.at]
    have a := hρ' i hi
    have b := ((hE.rhs _ (at_mem _ hi)).pos (hρ.le.trans a)).1
    have : (1 - 16 * ε) * ρ ≤ (1 - 16 * ε) * c.e.rhs (c.e.at i) := mul_le_mul_of_nonneg_left a (by linarith)
    have : 1 / 2 * ρ ≤ (1 - 16 * ε) * ρ := mul_le_mul_of_nonneg_right (by linarith) hρ.le
    linarith
  have key := run_gap (el := el) (el' := el') hr hr' hx hx' (fun h => (hv h).2.1) (fun h => hd.flat he he' (hv h).2.1) hgap hg0 (fun h => ⟨(hv h).2.2, hg' h⟩) (.inl hc) (.inl (by rw [hE.comp]; exact hc)) dec dec' k
    (fun hc i hin => by
      obtain ⟨p, hp1, hp2⟩ := hn.init hc _ (at_mem c.e hin)
      exact ⟨p, p, hp1, hp2, by simp⟩) hP hP' (by rw [hs]) (by rw [hs']) (by rw [hs]; exact hband) (by rw [hs']; exact hband')
  rw [hs, hs'] at key
  refine key.close fun j i hin => le_of_eq ?_
  rw [hg]; ring

/-- **C93** (no sources), partial: if gravity plays no part and no rates are imposed, the range of the pressures is that of the data (C37): after any number of steps the pressures computed with
data wrong by `ε` differ by at most `C * ε` times the range of the initial pressures, the given pressures and the limits of the wells. -/
theorem C93_sourceless_partial (hM : M.Pos) (he : M.env = .ok c.e) (hp : PlainEdge M) (hr : Ready c m0) (hx : Exact c.lin) (hv : vect = true → M.g.getD ≠ 3 ∧ RatesGiven m0)
    (hi : PressureGiven c.e m0) (hl : c.e.Level) (hns : NoSources m0) {lo hi' : K}
    (hini : c.e.comp = true → ∀ id, id ∈ c.e.ids → ∃ p, m0.initP id = some p ∧ lo ≤ p ∧ p ≤ hi') (hbd : ∀ b, b ∈ m0.bdict → b.2.1 = "pressure" → lo ≤ b.2.2 ∧ b.2.2 ≤ hi')
    (hwl : ∀ w p, w ∈ m0.wells → w.2.pwfsp = some p → lo ≤ p ∧ p ≤ hi') (hlo : lo ≤ hi') :
    ∃ C : K, 0 ≤ C ∧ ∀ (M' : GridModel K) (c' : Ctx K) (n0 : Mdl K) (ε : K) (f f' k : ℕ) (el el' : K) (m n : Mdl K) (s s' : Sol K),
      NearData ε M M' → NearModel ε c.e m0 n0 → 0 ≤ ε → ε ≤ 1 / 32 → M'.Pos → M'.env = .ok c'.e → PlainEdge M' → Ready c' n0 → Exact c'.lin → (vect = true → RatesGiven n0) →
      RunAll c Calm f vect k m0 { Sol.init m0 with nsteps := (Sol.init m0).nsteps + k } →
      RunAll c' Calm f' vect k n0 { Sol.init n0 with nsteps := (Sol.init n0).nsteps + k } →
      run c f vect k el m0 (Sol.init m0) = ((m, s), .ok ()) → run c' f' vect k el' n0 (Sol.init n0) = ((n, s'), .ok ()) →
      Close (fun _ => C * ε * (hi' - lo)) c s s' := by
  have hflat : vect = true → c.e.Flat := fun _ => hl.imp_right fun h i hin => h _ _ (.inl (at_mem _ hin)) (.inl (at_mem _ hr.ctx.wf.pos))
  obtain ⟨C, hC, key⟩ := C93_uniform_partial hM he hp hr hx (vect := vect) (fun h => ⟨(hv h).1, hflat h, (hv h).2⟩) hi
  refine ⟨C, hC, fun M' c' n0 ε f f' k el el' m n s s' hd hn hε hε1 hM' he' hp' hr' hx' hg' hP hP' hs hs' => ?_⟩
  have hm := hr.started.mdl
  have hE := hd.env hM hM' hp hp' hε hε1 he he' (vect := vect) fun h => (hv h).1
  have hW := hd.wells hM hε hε1 he he' hm hn
  have hsum : lo + (hi' - lo) = hi' := by ring
  refine key M' c' n0 ε (hi' - lo) lo lo f f' k el el' m n s s' hd hn hε hε1 hM' he' hp' hr' hx' hg' hP hP' hs hs' (fun a b ha hb => ?_) ?_ ?_
  · have h0 : c.e.grav * (c.e.z a - c.e.z b) = 0 := by
      rcases hl with h | h
      · rw [h, zero_mul]
      · rw [h a b ha hb, sub_self, mul_zero]
    rw [h0, abs_zero]; linarith
  · have hh : Hist c Calm m0 m s := by
      have := Hist.run hr.ctx.lower hr.ctx.wf hm k el (.start : Hist c Calm m0 m0 (Sol.init m0)) hP
      rw [hs] at this; exact this
    refine ⟨?_, ?_, ?_⟩ <;> rw [hsum]
    · exact C37_history_partial hr hx hl hi.anchored hns hh lo hi' hini hbd hwl
    · exact hbd
    · exact hwl
  · have hh : Hist c' Calm n0 n s' := by
      have := Hist.run hr'.ctx.lower hr'.ctx.wf hr'.started.mdl k el' (.start : Hist c' Calm n0 n0 (Sol.init n0)) hP'
      rw [hs'] at this; exact this
    have hi2 := hE.given (by linarith) hm hn.bd hW hi
    have hbd' : ∀ b, b ∈ n0.bdict → b.2.1 = "pressure" → lo ≤ b.2.2 ∧ b.2.2 ≤ hi' := by rw [hn.bd]; exact hbd
    have hwl' : ∀ w p, w ∈ n0.wells → w.2.pwfsp = some p → lo ≤ p ∧ p ≤ hi' := fun w' p hw' hp => by
      obtain ⟨w, hw, h⟩ := (forall2_mem hW).1 w' hw'
      exact hwl w p hw (by rw [← h.2.2.2.1]; exact hp)
    have hns' : NoSources n0 := ⟨by rw [hn.bd]; exact hns.bd, fun w' hw' => by
      obtain ⟨w, hw, h⟩ := (forall2_mem hW).1 w' hw'
      rw [h.2.2.1]; exact hns.well w hw⟩
    refine ⟨?_, ?_, ?_⟩ <;> rw [hsum]
    · refine C37_history_partial hr' hx' (hd.level he he' hl) hi2.anchored hns' hh lo hi' (fun hc id hid => ?_) hbd' hwl'
      rw [hE.comp] at hc
      rw [hE.ids] at hid
      obtain ⟨p, h1, h2⟩ := hini hc id hid
      obtain ⟨q, h3, h4⟩ := hn.init hc id hid
      have : q = p := Option.some.inj (h3.symm.trans h1)
      exact ⟨p, by rw [← this]; exact h4, h2⟩
    · exact hbd'
    · exact hwl'

end
end RF.Fdm
