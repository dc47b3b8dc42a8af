import Verif.Fdm.PropsUnits
import Verif.Fdm.PropsStrict
/-!
# C92: how far apart simulations in two systems of units are

Every quantity is converted by its label, nothing else is changed. The conversion factors in the code's tables are rounded, so the two simulations are not the same (`C92_exact_fails`). They differ by
less than one part in 1199 of what changes in the reservoir.
-/
set_option linter.unusedSectionVars false
namespace RF.Fdm
open RF RF.Dims RF.Spec Finset

variable {K : Type} [Field K] [LinearOrder K] [IsStrictOrderedRing K]

/-! ### specification -/

/-- The same conditions (given pressures and given rates), wells and initial pressures, converted by their labels. The well index of the second system is the converted one up to the rounding of the
code's conversion factor, as it is by the code's formula (`C92_label_index`). -/
structure LabelStart (u v : String) (e e' : Env K) (m m' : Mdl K) : Prop where
  bd : List.Forall₂ (fun b b' => b'.1 = b.1 ∧ b'.2.1 = b.2.1 ∧ ((b.2.1 = "pressure" ∧ SameQ u v "pressure" (some b.2.2) (some b'.2.2)) ∨ (b.2.1 = "rate" ∧ SameQ u v "rate" (some b.2.2) (some b'.2.2))))
    m.bdict m'.bdict
  wells : List.Forall₂ (fun w w' => w'.1 = w.1 ∧ w'.2.con = w.2.con ∧ SameQ u v "rate" w.2.qsp w'.2.qsp ∧ SameQ u v "pressure" w.2.pwfsp w'.2.pwfsp ∧
    permFactor u v * (windex e' w'.2 * (unitOf v "rate" / unitOf v "pressure")) = windex e w.2 * (unitOf u "rate" / unitOf u "pressure")) m.wells m'.wells
  press : e.comp = true → ∀ id, id ∈ e.ids → (m.initP id).isSome ∧ SameQ u v "pressure" (m.initP id) (m'.initP id)

/-- The rates imposed on the cell at position `i`, without their signs. -/
def imposedRate (e : Env K) (m : Mdl K) (i : ℕ) : K :=
  (m.bdict.map fun b => if b.2.1 ≠ "pressure" ∧ e.behind b.1 = some (e.at i) then |b.2.2| else 0).sum +
    (m.wells.map fun w => if w.2.con = some .q ∧ w.1 = e.at i then |w.2.qsp.getD 0| else 0).sum

/-- What gravity heads alone would drive through a boundary face with a given pressure into or out of the cell at position `i`. -/
def faceHead (e : Env K) (i : ℕ) (b : ℕ × String × K) : K :=
  match e.transC b.1 false with
  | .ok [(id, T)] => if id = e.at i ∧ b.2.1 = "pressure" then 2 * T * |e.grav * (e.z b.1 - e.z id)| else 0
  | _ => 0

/-- What gravity heads alone would drive through the faces of the cell at position `i`, without signs. -/
def headFlow (e : Env K) (vect : Bool) (m : Mdl K) (i : ℕ) : K :=
  ∑ j ∈ range e.n, e.trans vect i j * |e.grav * (e.z (e.at j) - e.z (e.at i))| + (m.bdict.map (faceHead e i)).sum

/-! ### comparison of balances -/

/-- A larger net inflow at lower pressures only. -/
lemma limited_mono {e : Env K} {m : Mdl K} (he : e.WF) {T : ℕ → ℕ → K} (hT : Network e.n T) (hm : MdlOK e m) (ha : Anchored e m) {old x y : ℕ → K}
    (h : ∀ i, i < e.n → limited e T m old y i ≤ limited e T m old x i) : ∀ i, i < e.n → x i ≤ y i := by
  let μ : ℕ → K := fun i => if y i = x i then 0 else ((m.wells.map (topUp e (x i) i)).sum - (m.wells.map (topUp e (y i) i)).sum) / (y i - x i)
  have hμ : ∀ i, μ i * (y i - x i) = (m.wells.map (topUp e (x i) i)).sum - (m.wells.map (topUp e (y i) i)).sum := fun i => by
    dsimp only [μ]
    split_ifs with h
    · rw [h]; ring
    · exact div_mul_cancel₀ _ (sub_ne_zero.2 h)
  have hμ0 : ∀ i, 0 ≤ μ i := fun i => by
    dsimp only [μ]
    split_ifs with h
    · exact le_rfl
    · rcases lt_or_gt_of_ne h with h | h
      · exact div_nonneg_of_nonpos (sub_nonpos.2 (topUps_anti he hm i h.le)) (sub_nonpos.2 h.le)
      · exact div_nonneg (sub_nonneg.2 (topUps_anti he hm i h.le)) (sub_nonneg.2 h.le)
  have hL := anchored_leaky he hT hm ha
  have hL' : Net.Leaky e.n T fun i => leak e m i + μ i := ⟨hL.t, fun i hi => add_nonneg (hL.d i hi) (hμ0 i), fun i hi => by
    obtain ⟨j, hj, h1, h2⟩ := hL.reach i hi
    exact ⟨j, hj, h1, add_pos_of_pos_of_nonneg h2 (hμ0 j)⟩⟩
  refine Net.le_of_inflow_le hL' fun i hi => ?_
  have h1 := residue_diff (T := T) he hm hm (shape_self m) old old x y i
  have h3 := h i hi
  unfold limited at h3
  rw [push_self, sub_self, mul_zero] at h1
  have h2 : Net.inflow e.n T (leak e m) (fun j => y j - x j) i = Net.inflow e.n T (fun i => leak e m i + μ i) y i - Net.inflow e.n T (fun i => leak e m i + μ i) x i + μ i * (y i - x i) := by
    unfold Net.inflow
    have : ∑ j ∈ range e.n, T i j * (y j - y i) - ∑ j ∈ range e.n, T i j * (x j - x i) = ∑ j ∈ range e.n, T i j * (y j - x j - (y i - x i)) := by
      rw [← sum_sub_distrib]; exact sum_congr rfl fun j _ => by ring
    rw [← this]; ring
  rw [h2, hμ] at h1
  linarith

/-- Raising all pressures by `d` lowers the net inflow. -/
lemma limited_shift {e : Env K} {m : Mdl K} (he : e.WF) (T : ℕ → ℕ → K) (hm : MdlOK e m) (old old' x : ℕ → K) {d : K} (hd : 0 ≤ d) (i : ℕ) :
    limited e T m old' (fun j => x j + d) i ≤ limited e T m old x i - e.rhs (e.at i) * (d - (old' i - old i)) := by
  have h1 := residue_diff (T := T) he hm hm (shape_self m) old old' x (fun j => x j + d) i
  have h2 := topUps_anti he hm i (show x i ≤ x i + d by linarith)
  have h3 : Net.inflow e.n T (leak e m) (fun j => x j + d - x j) i = -(leak e m i * d) := by
    unfold Net.inflow
    rw [sum_eq_zero fun j _ => by ring]
    ring
  have h4 : leak e m i = e.rhs (e.at i) + outLeak e m i := by unfold leak outLeak; ring
  have h5 := mul_nonneg (outLeak_nonneg he hm i) hd
  rw [push_self, h3, h4] at h1
  unfold limited
  nlinarith

/-- Pressures `y` that balance up to `r_i * η` are within `σ + η` of those that balance. -/
lemma limited_near {e : Env K} {m : Mdl K} (he : e.WF) {T : ℕ → ℕ → K} (hT : Network e.n T) (hm : MdlOK e m) (ha : Anchored e m) {old old' x y : ℕ → K} {σ η : K} (hσ : 0 ≤ σ) (hη : 0 ≤ η)
    (hr : ∀ i, i < e.n → 0 ≤ e.rhs (e.at i)) (ho : ∀ i, i < e.n → |old' i - old i| ≤ σ) (hx : ∀ i, i < e.n → limited e T m old x i = 0)
    (hy : ∀ i, i < e.n → |limited e T m old' y i| ≤ e.rhs (e.at i) * η) : ∀ i, i < e.n → |y i - x i| ≤ σ + η := by
  have up : ∀ i, i < e.n → x i ≤ y i + (σ + η) := limited_mono he hT hm ha (old := old) (x := x) (y := fun j => y j + (σ + η)) fun i hi => by
    have h1 := limited_shift he T hm old' old y (show 0 ≤ σ + η by linarith) i
    have h2 := (abs_le.1 (hy i hi)).2
    have h3 := mul_le_mul_of_nonneg_left (abs_le.1 (ho i hi)).1 (hr i hi)
    rw [hx i hi]
    nlinarith
  have lo : ∀ i, i < e.n → y i ≤ x i + (σ + η) := limited_mono he hT hm ha (old := old') (x := y) (y := fun j => x j + (σ + η)) fun i hi => by
    have h1 := limited_shift he T hm old old' x (show 0 ≤ σ + η by linarith) i
    have h2 := (abs_le.1 (hy i hi)).1
    have h3 := mul_le_mul_of_nonneg_left (abs_le.1 (ho i hi)).2 (hr i hi)
    rw [hx i hi] at h1
    nlinarith
  intro i hi
  rw [abs_le]
  constructor <;> linarith [up i hi, lo i hi]

/-! ### the reservoir seen from the second system -/

variable {u v : String} {M M' : GridModel K} {c c' : Ctx K} {m0 m0' : Mdl K}

/-- The first reservoir with storage and gravity as the second system has them, relative to conductances. -/
def tilt (u v : String) (M : GridModel K) : GridModel K := { M with ct := permFactor u v / ctFactor u v * M.ct, grav := M.grav / densityFactor u v }

lemma factor_pos (hu : Known u) (hv : Known v) : (0 : K) < permFactor u v ∧ (0 : K) < ctFactor u v ∧ (0 : K) < densityFactor u v := by
  obtain ⟨a1, a2, a3⟩ := miss_close (K := K) hu
  obtain ⟨b1, b2, b3⟩ := miss_close (K := K) hv
  exact ⟨(ratio_close a1 b1).1, (ratio_close a2 b2).1, (ratio_close a3 b3).1⟩

lemma tilt_env {e : Env K} (he : M.env = .ok e) :
    (tilt u v M).env = .ok { e with grav := e.grav / densityFactor u v, rhs := fun id => permFactor u v / ctFactor u v * e.rhs id } := by
  unfold GridModel.env Env.ofGrid at he ⊢
  rw [ok_bind] at he
  obtain ⟨ids, h1, he⟩ := he
  rw [ok_bind] at he
  obtain ⟨bnd, h2, he⟩ := he
  rw [ok_bind] at he
  obtain ⟨T, h3, he⟩ := he
  rw [ok_bind] at he
  obtain ⟨dg, h4, he⟩ := he
  rw [ok_pure] at he
  subst he
  simp only [tilt, h1, h2, h3, h4, bind_ok]
  rw [ok_pure]
  congr 1
  funext id
  unfold calcRHS
  split_ifs
  · ring
  · ring

lemma tilt_pos (hu : Known u) (hv : Known v) (hM : M.Pos) : (tilt u v M).Pos := by
  obtain ⟨f1, f2, f3⟩ := factor_pos (K := K) hu hv
  exact ⟨hM.geom, hM.sizes, hM.rock, hM.perm, hM.permB, hM.β, hM.mu, hM.B, hM.vconv, hM.dt, hM.phi, fun h => mul_pos (div_pos f1 f2) (hM.ct h)⟩

/-- What conductances are multiplied by. -/
def condRatio (u v : String) : K := unitOf u "rate" / unitOf v "rate" / (unitOf u "pressure" / unitOf v "pressure") / permFactor u v

theorem tilt_looks (hu : Known u) (hv : Known v) (h : Restated u v 1 1 1 M M') (hM : M.Pos) :
    Looks (tilt u v M) M' id id (unitOf u "pressure" / unitOf v "pressure") (permMeant u / permMeant v) ((unitOf u "length" / unitOf v "length") ^ 2) (unitOf u "length" / unitOf v "length") ∧
      condScale (tilt u v M) M' (permMeant u / permMeant v) ((unitOf u "length" / unitOf v "length") ^ 2) (unitOf u "length" / unitOf v "length") = condRatio u v := by
  obtain ⟨a1, a2, a3, a4, a5, a6, a7, a8, a9, a10, a11, a12⟩ := unit_pos (K := K) hu
  obtain ⟨b1, b2, b3, b4, b5, b6, b7, b8, b9, b10, b11, b12⟩ := unit_pos (K := K) hv
  have hmu := hM.mu; have hB := hM.B; have hdt := hM.dt
  have hs : condScale (tilt u v M) M' (permMeant u / permMeant v) ((unitOf u "length" / unitOf v "length") ^ 2) (unitOf u "length" / unitOf v "length") = condRatio u v := by
    unfold condScale condRatio
    show M'.β / M.β * _ * (M.mu * M.B / _) = _
    rw [h.mu, h.B, h.conv.1, h.conv.2]
    unfold convert permFactor darcyMiss
    field_simp
  refine ⟨⟨layout_same (by rw [h.grid]; rfl) (by rw [h.grid]; rfl) (by rw [h.grid]; rfl), h.stored, fun a x hx => ?_, fun a x _ hx => h.lengths a x hx, fun a x _ hc => ?_, h.comp, fun _ x hc => ?_, fun x y hc hd => ?_⟩, hs⟩
  · have := h.perm a x hx
    rw [one_mul] at this; exact this
  · have e1 := h.lengths .x x hc; have e2 := h.lengths .y x hc; have e3 := h.lengths .z x hc
    simp only [Sizes.along, convert] at e1 e2 e3
    cases a <;> simp only [Sizes.area, id, e1, e2, e3, tilt] <;> ring
  · rw [hs]
    have hc : InGrid M.g.nx M.g.ny M.g.nz x := Interior.inGrid hc
    have e1 := h.lengths .x x hc; have e2 := h.lengths .y x hc; have e3 := h.lengths .z x hc
    simp only [Sizes.along, convert] at e1 e2 e3
    have hV : M'.sizes.volume x = (unitOf u "length" / unitOf v "length") ^ 3 * M.sizes.volume x := by
      unfold Sizes.volume
      rw [e1, e2, e3]; ring
    unfold storageCoef
    simp only [tilt, id]
    rw [hV, h.grid, h.phi, h.ct, h.vconv.1, h.vconv.2, h.B, h.dt]
    unfold convert condRatio permFactor ctFactor volumeMiss darcyMiss
    rw [a9, b9]
    field_simp
  · obtain ⟨ρ, g1, g2⟩ := h.grav
    have hc : InGrid M.g.nx M.g.ny M.g.nz x := hc
    have hd : InGrid M.g.nx M.g.ny M.g.nz y := hd
    rw [h.grid]
    simp only [id, tilt]
    rw [h.depth x hc, h.depth y hd, g1, g2]
    unfold convert densityFactor gravityMiss
    field_simp

lemma sum_near_forall2 {A B : Type} {R : A → B → Prop} {f h : A → K} {g : B → K} {k κ : K} {l : List A} {l' : List B} (hl : List.Forall₂ R l l')
    (H : ∀ a b, a ∈ l → b ∈ l' → R a b → |f a - k * g b| ≤ κ * h a) : |(l.map f).sum - k * (l'.map g).sum| ≤ κ * (l.map h).sum := by
  induction hl with
  | nil => simp
  | cons h1 _ ih =>
    have a1 := H _ _ (List.mem_cons_self ..) (List.mem_cons_self ..) h1
    have a2 := ih fun a b ha hb => H a b (List.mem_cons_of_mem _ ha) (List.mem_cons_of_mem _ hb)
    simp only [List.map_cons, List.sum_cons]
    rw [abs_le] at a1 a2 ⊢
    constructor <;> linarith [a1.1, a1.2, a2.1, a2.2]

/-- How far the factors are from 1. -/
lemma factor_near (hu : Known u) (hv : Known v) : |1 - (permFactor u v : K)| ≤ 1 / 1199 ∧ |1 / densityFactor u v - (1 : K)| ≤ 1 / 1199 ∧ |permFactor u v / ctFactor u v - (1 : K)| ≤ 1 / 1199 := by
  obtain ⟨f1, f2, f3⟩ := factor_pos (K := K) hu hv
  obtain ⟨⟨h1, h2, h3⟩, -⟩ := C92_factors (K := K) u v hu hv
  rw [abs_lt] at h1 h2 h3
  refine ⟨?_, ?_, ?_⟩
  · rw [abs_le]; constructor <;> linarith
  · rw [div_sub_one f3.ne', abs_div, abs_of_pos f3, div_le_iff₀ f3, abs_le]; constructor <;> linarith
  · rw [div_sub_one f2.ne', abs_div, abs_of_pos f2, div_le_iff₀ f2, abs_le]; constructor <;> linarith

section
variable {vect : Bool} {e e' : Env K} {α ℓ φ ψ γ κ : K}

/-- The balances of the second reservoir, in the units of the first: conductances are multiplied by `ℓ`, heads divided by `γ`, storage multiplied by `ψ`. -/
structure Seen (α ℓ ψ γ : K) (vect : Bool) (e e' : Env K) : Prop where
  ids : e'.ids = e.ids
  trans : ∀ i j, i < e.n → j < e.n → e'.trans vect i j = ℓ * e.trans vect i j
  face : ∀ b l, b ∈ e.bnd → e.transC b false = .ok l → e'.transC b false = .ok (l.map fun x => (x.1, ℓ * x.2))
  rhs : ∀ id, id ∈ e.ids → e'.rhs id = ℓ * (ψ * e.rhs id)
  head : ∀ a b, (a ∈ e.ids ∨ a ∈ e.bnd) → (b ∈ e.ids ∨ b ∈ e.bnd) → e'.grav * (e'.z a - e'.z b) = α * (1 / γ * (e.grav * (e.z a - e.z b)))

lemma Seen.at (h : Seen α ℓ ψ γ vect e e') : e'.at = e.at := by funext i; unfold Env.at; rw [h.ids]
lemma Seen.n (h : Seen α ℓ ψ γ vect e e') : e'.n = e.n := by unfold Env.n; rw [h.ids]

lemma bIn_seen (h : Seen α ℓ ψ γ vect e e') (he : e.WF) (hα : 0 < α) (hℓ : 0 < ℓ) (h1 : |1 - φ| ≤ κ) (h2 : |1 / γ - 1| ≤ κ) {b b' : ℕ × String × K} (hb : b.1 ∈ e.bnd)
    (hbb : b'.1 = b.1 ∧ b'.2.1 = b.2.1 ∧ (b.2.1 = "pressure" → b'.2.2 = α * b.2.2) ∧ (b.2.1 ≠ "pressure" → b'.2.2 = α * ℓ * (φ * b.2.2))) (y : K) (i : ℕ) :
    |bIn e y i b - (α * ℓ)⁻¹ * bIn e' (α * y) i b'| ≤ κ * ((if b.2.1 ≠ "pressure" ∧ e.behind b.1 = some (e.at i) then |b.2.2| else 0) + faceHead e i b) := by
  obtain ⟨k1, k2, k3, k4⟩ := hbb
  have hκ := (abs_nonneg _).trans h1
  rcases he.face b.1 hb with hf | ⟨id, T, hid, hT, hf⟩
  · have hf' := h.face b.1 _ hb hf
    unfold bIn boundaryIn faceHead Env.behind
    rw [k1, hf, hf']
    simp
  · have hf : e.transC b.1 false = .ok [(id, T)] := hf
    have hf' := h.face b.1 _ hb hf
    unfold bIn boundaryIn faceHead Env.behind
    rw [k1, hf, hf', k2, h.at]
    simp only [List.map_cons, List.map_nil]
    by_cases hi : id = e.at i
    · by_cases hp : b.2.1 = "pressure"
      · have hh := h.head b.1 id (.inr hb) (.inl hid)
        simp only [if_pos hi, if_pos hp, hi, hp, ne_eq, not_true_eq_false, false_and, if_false, true_and, if_true, and_self, zero_add]
        rw [← hi, hh, k3 hp]
        generalize e.grav * (e.z b.1 - e.z id) = x
        have : 2 * T * (b.2.2 - y - x) - (α * ℓ)⁻¹ * (2 * (ℓ * T) * (α * b.2.2 - α * y - α * (1 / γ * x))) = 2 * T * ((1 / γ - 1) * x) := by field_simp; ring
        rw [this, abs_mul, abs_mul (1 / γ - 1), abs_of_nonneg (show 0 ≤ 2 * T by linarith)]
        have := mul_le_mul_of_nonneg_left (mul_le_mul_of_nonneg_right h2 (abs_nonneg x)) (show 0 ≤ 2 * T by linarith)
        linarith
      · simp only [if_pos hi, if_neg hp, hi, hp, ne_eq, not_false_eq_true, true_and, and_false, if_false, if_true, add_zero]
        rw [k4 hp]
        have : b.2.2 - (α * ℓ)⁻¹ * (α * ℓ * (φ * b.2.2)) = (1 - φ) * b.2.2 := by field_simp
        rw [this, abs_mul]
        exact mul_le_mul_of_nonneg_right h1 (abs_nonneg _)
    · simp [hi]

lemma wOut_seen (h : Seen α ℓ ψ γ vect e e') (hα : 0 < α) (hℓ : 0 < ℓ) (h1 : |1 - φ| ≤ κ) {w w' : ℕ × Well K}
    (hw : w'.1 = w.1 ∧ w'.2.con = w.2.con ∧ w'.2.qsp.getD 0 = α * ℓ * (φ * w.2.qsp.getD 0) ∧ w'.2.pwfsp.getD 0 = α * w.2.pwfsp.getD 0 ∧ windex e' w'.2 = ℓ * windex e w.2) (y : K) (i : ℕ) :
    |wOut e y i w - (α * ℓ)⁻¹ * wOut e' (α * y) i w'| ≤ κ * (if w.2.con = some .q ∧ w.1 = e.at i then |w.2.qsp.getD 0| else 0) := by
  obtain ⟨k1, k2, k3, k4, k5⟩ := hw
  unfold wOut wIn topUp
  rw [k1, k2, k3, k4, k5, h.at]
  by_cases hi : w.1 = e.at i
  · simp only [hi, and_true]
    rcases hc : w.2.con with _ | _ | _
    · simp
    · simp only [if_true]
      generalize w.2.qsp.getD 0 = q
      have e1 : ℓ * windex e w.2 * (α * w.2.pwfsp.getD 0 - α * y) = α * ℓ * (windex e w.2 * (w.2.pwfsp.getD 0 - y)) := by ring
      rw [e1]
      generalize windex e w.2 * (w.2.pwfsp.getD 0 - y) = a
      have pos : 0 < α * ℓ := mul_pos hα hℓ
      have m1 : q + max 0 (a - q) = max q a := by rcases le_total q a with h | h <;> simp [h]
      have m2 : α * ℓ * (φ * q) + max 0 (α * ℓ * a - α * ℓ * (φ * q)) = α * ℓ * max (φ * q) a := by
        rw [mul_max_of_nonneg _ _ pos.le]
        generalize α * ℓ * (φ * q) = q'
        generalize α * ℓ * a = a'
        rcases le_total q' a' with h | h <;> simp [h]
      rw [m1, m2, ← mul_assoc, inv_mul_cancel₀ pos.ne', one_mul]
      refine (abs_max_sub_max_le_abs _ _ _).trans ?_
      rw [show q - φ * q = (1 - φ) * q by ring, abs_mul]
      exact mul_le_mul_of_nonneg_right h1 (abs_nonneg _)
    · have : windex e w.2 * (w.2.pwfsp.getD 0 - y) - (α * ℓ)⁻¹ * (ℓ * windex e w.2 * (α * w.2.pwfsp.getD 0 - α * y)) = 0 := by field_simp; ring
      simp only [reduceCtorEq, if_true, if_false, add_zero, this, abs_zero, mul_zero, Option.some.injEq, le_refl]
  · simp [hi]

/-- Balances of the two reservoirs at corresponding pressures. -/
lemma limited_seen (h : Seen α ℓ ψ γ vect e e') (he : e.WF) (hT : Network e.n (e.trans vect)) (hα : 0 < α) (hℓ : 0 < ℓ) (h1 : |1 - φ| ≤ κ) (h2 : |1 / γ - 1| ≤ κ) (h3 : |ψ - 1| ≤ κ) {m m' : Mdl K} (hm : MdlOK e m)
    (hb : List.Forall₂ (fun b b' => b'.1 = b.1 ∧ b'.2.1 = b.2.1 ∧ (b.2.1 = "pressure" → b'.2.2 = α * b.2.2) ∧ (b.2.1 ≠ "pressure" → b'.2.2 = α * ℓ * (φ * b.2.2))) m.bdict m'.bdict)
    (hw : List.Forall₂ (fun w w' => w'.1 = w.1 ∧ w'.2.con = w.2.con ∧ w'.2.qsp.getD 0 = α * ℓ * (φ * w.2.qsp.getD 0) ∧ w'.2.pwfsp.getD 0 = α * w.2.pwfsp.getD 0 ∧ windex e' w'.2 = ℓ * windex e w.2) m.wells m'.wells)
    (old y : ℕ → K) {i : ℕ} (hi : i < e.n) :
    |limited e (e.trans vect) m old y i - (α * ℓ)⁻¹ * limited e' (e'.trans vect) m' (fun j => α * old j) (fun j => α * y j) i| ≤
      κ * (imposedRate e m i + headFlow e vect m i + e.rhs (e.at i) * |y i - old i|) := by
  have a1 := sum_near_forall2 hb fun b b' hbm _ H => bIn_seen h he hα hℓ h1 h2 (hm.bmem b hbm) H (y i) i
  have a2 := sum_near_forall2 hw fun w w' _ _ H => wOut_seen h hα hℓ h1 H (y i) i
  have a3 : |∑ j ∈ range e.n, e.trans vect i j * (y j - y i - e.grav * (e.z (e.at j) - e.z (e.at i))) -
      (α * ℓ)⁻¹ * ∑ j ∈ range e.n, e'.trans vect i j * (α * y j - α * y i - e'.grav * (e'.z (e.at j) - e'.z (e.at i)))| ≤
      κ * ∑ j ∈ range e.n, e.trans vect i j * |e.grav * (e.z (e.at j) - e.z (e.at i))| := by
    rw [mul_sum, ← sum_sub_distrib, mul_sum]
    refine (abs_sum_le_sum_abs _ _).trans (sum_le_sum fun j hj => ?_)
    have hj := mem_range.1 hj
    rw [h.trans i j hi hj, h.head _ _ (.inl (at_mem e hj)) (.inl (at_mem e hi))]
    have hT0 := hT.nonneg i j hi hj
    generalize e.grav * (e.z (e.at j) - e.z (e.at i)) = x
    generalize e.trans vect i j = t at hT0 ⊢
    have : t * (y j - y i - x) - (α * ℓ)⁻¹ * (ℓ * t * (α * y j - α * y i - α * (1 / γ * x))) = t * ((1 / γ - 1) * x) := by field_simp; ring
    rw [this, abs_mul, abs_mul (1 / γ - 1), abs_of_nonneg hT0]
    have := mul_le_mul_of_nonneg_left (mul_le_mul_of_nonneg_right h2 (abs_nonneg x)) hT0
    linarith
  have a4 : |e.rhs (e.at i) * (y i - old i) - (α * ℓ)⁻¹ * (e'.rhs (e.at i) * (α * y i - α * old i))| ≤ κ * (e.rhs (e.at i) * |y i - old i|) := by
    have hr := rhs_nonneg he (at_mem e hi)
    rw [h.rhs _ (at_mem e hi)]
    have : e.rhs (e.at i) * (y i - old i) - (α * ℓ)⁻¹ * (ℓ * (ψ * e.rhs (e.at i)) * (α * y i - α * old i)) = -((ψ - 1) * (e.rhs (e.at i) * (y i - old i))) := by field_simp; ring
    rw [this, abs_neg, abs_mul, abs_mul (e.rhs _), abs_of_nonneg hr]
    exact mul_le_mul_of_nonneg_right h3 (mul_nonneg hr (abs_nonneg _))
  rw [limited_outside, limited_outside, h.n, h.at]
  unfold fromOutside imposedRate headFlow
  rw [list_sum_add] at a1
  rw [abs_le] at a1 a2 a3 a4 ⊢
  constructor <;> linarith [a1.1, a1.2, a2.1, a2.2, a3.1, a3.2, a4.1, a4.2]

end

/-- The second reservoir, converted by labels, seen from the first. -/
lemma restated_seen (hu : Known u) (hv : Known v) (hR : Restated u v 1 1 1 M M') (hM : M.Pos) (hM' : M'.Pos) (he : M.env = .ok c.e) (he' : M'.env = .ok c'.e) {vect : Bool} (hvt : vect = true → M.g.getD ≠ 3) :
    Seen (unitOf u "pressure" / unitOf v "pressure") (condRatio u v) (permFactor u v / ctFactor u v) (densityFactor u v) vect c.e c'.e ∧ c'.e.comp = c.e.comp := by
  obtain ⟨a1, a2, a3, a4, a5, -⟩ := unit_pos (K := K) hu
  obtain ⟨b1, b2, b3, b4, b5, -⟩ := unit_pos (K := K) hv
  obtain ⟨hl, hs⟩ := tilt_looks hu hv hR hM
  have hS := hl.similar (tilt_pos hu hv hM) hM' (by positivity) (by positivity) (by positivity) (tilt_env he) he' (vect := vect) (fun h => ⟨hvt h, by rw [hR.grid]; exact hvt h⟩)
  rw [hs, show (tilt u v M).g = M.g from rfl, hR.grid, renumber_self] at hS
  have e1 := (env_ok he).1
  have e1' := (env_ok he').1
  have hid : c'.e.ids = c.e.ids := by rw [e1, e1', hR.grid]
  have wf := FromGrid.wf ⟨M, hM, he⟩
  refine ⟨⟨hid, fun i j hi hj => ?_, hS.face, hS.rhs, fun a b ha hb => ?_⟩, hS.comp⟩
  · have := hS.trans _ _ (at_mem c.e hi) (at_mem c.e hj)
    simp only [id, hid, idx_at c.e wf.nodup hi, idx_at c.e wf.nodup hj] at this
    exact this
  · have := hS.head a b ha hb
    simp only [id] at this
    rw [this]; ring

lemma Seen.flat {α ℓ ψ γ : K} {vect : Bool} {e e' : Env K} (h : Seen α ℓ ψ γ vect e e') (he : e.WF) (hf : e.Flat) : e'.Flat := by
  by_cases g : e'.grav = 0
  · exact .inl g
  refine .inr fun i hi => ?_
  rw [h.n] at hi
  have h1 := h.head _ _ (.inl (at_mem e hi)) (.inl (at_mem e he.pos))
  rw [flat_zero hf he.pos hi, mul_zero, mul_zero] at h1
  rw [h.at]
  exact sub_eq_zero.1 ((mul_eq_zero.1 h1).resolve_left g)

/-- Conditions that are pressures and rates only. -/
lemma rates_given {c : Ctx K} {m : Mdl K} (hr : Ready c m) (h : ∀ b, b ∈ m.bdict → b.2.1 = "pressure" ∨ b.2.1 = "rate") : RatesGiven m := fun b hb hp => by
  rw [hr.factor hb hp, (h b hb).resolve_left hp]
  unfold rateFactor
  rw [hr.ctx.lower.2]
  simp

lemma LabelStart.sim (hu : Known u) (hv : Known v) {e e' : Env K} {m m' : Mdl K} (h : LabelStart u v e e' m m') :
    List.Forall₂ (fun b b' => b'.1 = b.1 ∧ b'.2.1 = b.2.1 ∧ (b.2.1 = "pressure" → b'.2.2 = unitOf u "pressure" / unitOf v "pressure" * b.2.2) ∧
      (b.2.1 ≠ "pressure" → b'.2.2 = unitOf u "pressure" / unitOf v "pressure" * condRatio u v * (permFactor u v * b.2.2))) m.bdict m'.bdict ∧
    List.Forall₂ (fun w w' => w'.1 = w.1 ∧ w'.2.con = w.2.con ∧ w'.2.qsp.getD 0 = unitOf u "pressure" / unitOf v "pressure" * condRatio u v * (permFactor u v * w.2.qsp.getD 0) ∧
      w'.2.pwfsp.getD 0 = unitOf u "pressure" / unitOf v "pressure" * w.2.pwfsp.getD 0 ∧ windex e' w'.2 = condRatio u v * windex e w.2) m.wells m'.wells ∧
    (∀ b, b ∈ m.bdict → b.2.1 = "pressure" ∨ b.2.1 = "rate") ∧ (∀ b, b ∈ m'.bdict → b.2.1 = "pressure" ∨ b.2.1 = "rate") := by
  obtain ⟨a1, a2, a3, a4, -⟩ := unit_pos (K := K) hu
  obtain ⟨b1, b2, b3, b4, -⟩ := unit_pos (K := K) hv
  obtain ⟨f1, -⟩ := factor_pos (K := K) hu hv
  have hq : ∀ q : K, unitOf u "pressure" / unitOf v "pressure" * condRatio u v * (permFactor u v * q) = unitOf u "rate" / unitOf v "rate" * q := fun q => by
    unfold condRatio; field_simp
  refine ⟨h.bd.imp fun b b' hb => ?_, h.wells.imp fun w w' hw => ?_, ?_, ?_⟩
  · obtain ⟨h1, h2, h3⟩ := hb
    refine ⟨h1, h2, fun hk => ?_, fun hk => ?_⟩
    · rcases h3 with ⟨-, h3⟩ | ⟨h3, -⟩
      · rw [sameQ_iff b2.ne'] at h3; exact Option.some.inj h3
      · rw [hk] at h3; exact absurd h3 (by decide)
    · rcases h3 with ⟨h3, -⟩ | ⟨-, h3⟩
      · exact absurd h3 hk
      · rw [sameQ_iff b4.ne'] at h3; rw [hq]; exact Option.some.inj h3
  · obtain ⟨h1, h2, h3, h4, h5⟩ := hw
    rw [sameQ_iff b4.ne'] at h3
    rw [sameQ_iff b2.ne'] at h4
    refine ⟨h1, h2, ?_, ?_, ?_⟩
    · rw [h3, hq]; cases w.2.qsp <;> simp
    · rw [h4]; cases w.2.pwfsp <;> simp
    · unfold condRatio
      field_simp at h5 ⊢
      linarith
  · intro b hb
    obtain ⟨b', -, -, -, h3⟩ := (forall2_mem h.bd).2 b hb
    exact h3.imp (·.1) (·.1)
  · intro b' hb
    obtain ⟨b, -, -, h2, h3⟩ := (forall2_mem h.bd).1 b' hb
    rw [h2]
    exact h3.imp (·.1) (·.1)

section
variable {fuel fuel' n : ℕ} {t t' : K} {vect : Bool}

/-- The pressures of the second simulation, in the units of the first, balance the first reservoir up to the rounding. -/
lemma second_balance (hu : Known u) (hv : Known v) (hR : Restated u v 1 1 1 M M') (hM : M.Pos) (hM' : M'.Pos) (he : M.env = .ok c.e) (he' : M'.env = .ok c'.e)
    (hr : Ready c m0) (hr' : Ready c' m0') (hx' : Exact c'.lin) (h0 : LabelStart u v c.e c'.e m0 m0') (hvt : vect = true → M.g.getD ≠ 3 ∧ c.e.Flat)
    (hP' : RunAll c' Calm fuel' vect n m0' { Sol.init m0' with nsteps := (Sol.init m0').nsteps + n }) (h' : (run c' fuel' vect n t' m0' (Sol.init m0')).2 = .ok ()) :
    ∀ k, k < n → ∀ i, i < c.e.n → |limited c.e (c.e.trans vect) m0 (fun j => convert v u "pressure" ((run c' fuel' vect n t' m0' (Sol.init m0')).1.2.inner c'.e k j))
      (fun j => convert v u "pressure" ((run c' fuel' vect n t' m0' (Sol.init m0')).1.2.inner c'.e (k + 1) j)) i| ≤
      1 / 1199 * (imposedRate c.e m0 i + headFlow c.e vect m0 i + c.e.rhs (c.e.at i) *
        |convert v u "pressure" ((run c' fuel' vect n t' m0' (Sol.init m0')).1.2.inner c'.e (k + 1) i) - convert v u "pressure" ((run c' fuel' vect n t' m0' (Sol.init m0')).1.2.inner c'.e k i)|) := by
  obtain ⟨a1, a2, a3, a4, -⟩ := unit_pos (K := K) hu
  obtain ⟨b1, b2, b3, b4, -⟩ := unit_pos (K := K) hv
  obtain ⟨f1, -⟩ := factor_pos (K := K) hu hv
  obtain ⟨g1, g2, g3⟩ := factor_near (K := K) hu hv
  obtain ⟨hS, -⟩ := restated_seen hu hv hR hM hM' he he' (vect := vect) fun h => (hvt h).1
  obtain ⟨s1, s2, -, s4⟩ := h0.sim hu hv
  obtain ⟨b, -, t1, -⟩ := run_limited (el := t') hr' hx' (fun _ => rates_given hr' s4) (fun h => hS.flat hr.ctx.wf (hvt h).2) hP' h'
  generalize (run c' fuel' vect n t' m0' (Sol.init m0')).1.2 = s' at *
  intro k hk i hi
  have key := limited_seen hS hr.ctx.wf (hr.ctx.grid.network vect) (div_pos a2 b2) (show 0 < condRatio u v by unfold condRatio; positivity) g1 g2 g3 hr.started.mdl s1 s2
    (fun j => convert v u "pressure" (s'.inner c'.e k j)) (fun j => convert v u "pressure" (s'.inner c'.e (k + 1) j)) hi
  have back : ∀ x : K, unitOf u "pressure" / unitOf v "pressure" * convert v u "pressure" x = x := fun x => by unfold convert; field_simp
  simp only [back] at key
  rw [show (fun j => s'.inner c'.e k j) = s'.inner c'.e k from rfl, show (fun j => s'.inner c'.e (k + 1) j) = s'.inner c'.e (k + 1) from rfl, b.press k (by omega) i (by rw [hS.n]; exact hi), mul_zero, sub_zero] at key
  exact key

/-- **C92, partial.** For any two systems of units, every grid, rock, compressible fluid, boundary conditions, wells (also at limits), initial state, time step, number of steps and assembler: if the
reservoir is described in both systems, every quantity converted by its label and nothing else changed, then after `k` steps the two simulations, compared in the same unit, differ in no cell by more
than one part in 1199 of: the sum over the steps of the largest change of pressure in the step, plus `k` times the largest change of pressure that the imposed rates and the gravity heads alone
would cause in a cell in one step. In particular what the rounded conversion factors add does not grow faster than what happens in the reservoir.

Missing: as in `C92_run_partial`; incompressible fluids (`C92_flow_partial`). -/
theorem C92_close_partial (hu : Known u) (hv : Known v) (hR : Restated u v 1 1 1 M M') (hM : M.Pos) (hM' : M'.Pos) (he : M.env = .ok c.e) (he' : M'.env = .ok c'.e)
    (hr : Ready c m0) (hr' : Ready c' m0') (hx : Exact c.lin) (hx' : Exact c'.lin) (h0 : LabelStart u v c.e c'.e m0 m0') (hvt : vect = true → M.g.getD ≠ 3 ∧ c.e.Flat) (hcomp : M.comp = true)
    (hP : RunAll c Calm fuel vect n m0 { Sol.init m0 with nsteps := (Sol.init m0).nsteps + n })
    (hP' : RunAll c' Calm fuel' vect n m0' { Sol.init m0' with nsteps := (Sol.init m0').nsteps + n })
    (h : (run c fuel vect n t m0 (Sol.init m0)).2 = .ok ()) (h' : (run c' fuel' vect n t' m0' (Sol.init m0')).2 = .ok ()) (S : ℕ → K) (V : K)
    (hS : ∀ k, k < n → ∀ id, id ∈ c.e.ids → ∀ p q, rowAt (run c' fuel' vect n t' m0' (Sol.init m0')).1.2.press k none id = some p →
      rowAt (run c' fuel' vect n t' m0' (Sol.init m0')).1.2.press (k + 1) none id = some q → |convert v u "pressure" q - convert v u "pressure" p| ≤ S k)
    (hV : ∀ i, i < c.e.n → imposedRate c.e m0 i + headFlow c.e vect m0 i ≤ V * c.e.rhs (c.e.at i)) :
    ∀ k, k ≤ n → ∀ id, id ∈ c.e.ids → ∃ p p', rowAt (run c fuel vect n t m0 (Sol.init m0)).1.2.press k none id = some p ∧ rowAt (run c' fuel' vect n t' m0' (Sol.init m0')).1.2.press k none id = some p' ∧
      |convert v u "pressure" p' - p| ≤ 1 / 1199 * (∑ j ∈ range k, S j + k * V) := by
  obtain ⟨a1, a2, a3, a4, -⟩ := unit_pos (K := K) hu
  obtain ⟨b1, b2, b3, b4, -⟩ := unit_pos (K := K) hv
  have sec := second_balance (t' := t') hu hv hR hM hM' he he' hr hr' hx' h0 hvt hP' h'
  obtain ⟨hSe, -⟩ := restated_seen hu hv hR hM hM' he he' (vect := vect) fun h => (hvt h).1
  obtain ⟨-, -, s3, s4⟩ := h0.sim hu hv
  obtain ⟨b, nu, t1, i1⟩ := run_limited (el := t) hr hx (fun _ => rates_given hr s3) (fun h => (hvt h).2) hP h
  obtain ⟨-, nu', t1', i1'⟩ := run_limited (el := t') hr' hx' (fun _ => rates_given hr' s4) (fun h => hSe.flat hr.ctx.wf (hvt h).2) hP' h'
  generalize (run c fuel vect n t m0 (Sol.init m0)).1.2 = s at *
  generalize (run c' fuel' vect n t' m0' (Sol.init m0')).1.2 = s' at *
  have wf := hr.ctx.wf
  have hc : c.e.comp = true := by rw [(env_ok he).2.2.2.2.2.2.2.2.2.1]; exact hcomp
  have rows : ∀ k, k ≤ n → ∀ id, id ∈ c.e.ids → ∃ p p', rowAt s.press k none id = some p ∧ rowAt s'.press k none id = some p' := fun k hk id hid => by
    rcases k.eq_zero_or_pos with rfl | hk0
    · obtain ⟨h1, h2⟩ := h0.press hc id hid
      obtain ⟨p, hp⟩ := Option.isSome_iff_exists.1 h1
      rw [hp, sameQ_iff b2.ne'] at h2
      exact ⟨p, _, by rw [i1, hp], by rw [i1', h2]; rfl⟩
    · have h1 := nu k hk0 (by omega) _ (idx_lt c.e hid)
      have h2 := nu' k hk0 (by omega) (c.e.ids.idxOf id) (by rw [hSe.n]; exact idx_lt c.e hid)
      rw [at_idx c.e hid] at h1
      rw [hSe.at, at_idx c.e hid] at h2
      exact ⟨_, _, h1, h2⟩
  have inn : ∀ k i, s'.inner c'.e k i = (rowAt s'.press k none (c.e.at i)).getD 0 := fun k i => by unfold Sol.inner; rw [hSe.at]
  have inc : ∀ k, k < n → ∀ i, i < c.e.n → |convert v u "pressure" (s'.inner c'.e (k + 1) i) - convert v u "pressure" (s'.inner c'.e k i)| ≤ S k := fun k hk i hi => by
    obtain ⟨-, p, -, hp⟩ := rows k hk.le _ (at_mem c.e hi)
    obtain ⟨-, q, -, hq⟩ := rows (k + 1) hk _ (at_mem c.e hi)
    rw [inn, inn, hp, hq]
    exact hS k hk _ (at_mem c.e hi) p q hp hq
  have V0 : 0 ≤ V := by
    have h1 := hV 0 wf.pos
    have h2 : 0 ≤ imposedRate c.e m0 0 := by
      unfold imposedRate
      refine add_nonneg (sum_nonneg' fun x _ => ?_) (sum_nonneg' fun x _ => ?_) <;> split_ifs <;> first | exact abs_nonneg _ | exact le_rfl
    have h3 : 0 ≤ headFlow c.e vect m0 0 := by
      unfold headFlow
      refine add_nonneg (sum_nonneg fun j hj => mul_nonneg ((hr.ctx.grid.network vect).nonneg _ _ wf.pos (mem_range.1 hj)) (abs_nonneg _)) (sum_nonneg' fun x hx => ?_)
      unfold faceHead
      rcases wf.face x.1 (hr.started.mdl.bmem x hx) with hf | ⟨id, T, hid, hT, hf⟩
      · rw [hf]
      · have hf : c.e.transC x.1 false = .ok [(id, T)] := hf
        rw [hf]
        dsimp only
        split_ifs
        · exact mul_nonneg (by linarith) (abs_nonneg _)
        · exact le_rfl
    exact nonneg_of_mul_nonneg_left ((add_nonneg h2 h3).trans h1) (wf.rhsC hc _ (at_mem c.e wf.pos))
  have S0 : ∀ k, k < n → 0 ≤ S k := fun k hk => (abs_nonneg _).trans (inc k hk 0 wf.pos)
  have key : ∀ k, k ≤ n → ∀ i, i < c.e.n → |convert v u "pressure" (s'.inner c'.e k i) - s.inner c.e k i| ≤ 1 / 1199 * (∑ j ∈ range k, S j + k * V) := by
    intro k
    induction k with
    | zero =>
      intro _ i hi
      obtain ⟨h1, h2⟩ := h0.press hc _ (at_mem c.e hi)
      obtain ⟨p, hp⟩ := Option.isSome_iff_exists.1 h1
      rw [hp, sameQ_iff b2.ne'] at h2
      have : convert v u "pressure" (unitOf u "pressure" / unitOf v "pressure" * p) - p = 0 := by unfold convert; field_simp; ring
      rw [inn, i1', h2]
      unfold Sol.inner
      rw [i1, hp]
      simp only [Option.map_some, Option.getD_some, this]
      simp
    | succ k ih =>
      intro hk i hi
      have pos : 0 ≤ 1 / 1199 * (∑ j ∈ range k, S j + k * V) :=
        mul_nonneg (by norm_num) (add_nonneg (sum_nonneg fun j hj => S0 j (by have := mem_range.1 hj; omega)) (mul_nonneg k.cast_nonneg V0))
      have := limited_near wf (hr.ctx.grid.network vect) hr.started.mdl (.inl hc) pos (show 0 ≤ 1 / 1199 * (S k + V) from mul_nonneg (by norm_num) (add_nonneg (S0 k (by omega)) V0))
        (fun i hi => rhs_nonneg wf (at_mem c.e hi)) (ih (by omega)) (b.press k (by omega)) (fun i hi => (sec k (by omega) i hi).trans ?_) i hi
      · refine this.trans (le_of_eq ?_)
        rw [sum_range_succ]; push_cast; ring
      · have h1 := hV i hi
        have h2 := mul_le_mul_of_nonneg_left (inc k (by omega) i hi) (rhs_nonneg wf (at_mem c.e hi))
        linarith
  intro k hk id hid
  obtain ⟨p, p', h1, h2⟩ := rows k hk id hid
  refine ⟨p, p', h1, h2, ?_⟩
  have := key k hk _ (idx_lt c.e hid)
  rw [inn, at_idx c.e hid, h2] at this
  unfold Sol.inner at this
  rw [at_idx c.e hid, h1] at this
  exact this

/-- **C92, steady flow, partial.** For any two systems of units and every reservoir with an incompressible fluid whose flow is driven by given pressures only (no imposed rates, no gravity heads): with every
quantity converted by its label and nothing else changed, the pressures of the two simulations are exactly the same physical quantities, although the conversion factors are rounded. -/
theorem C92_flow_partial (hu : Known u) (hv : Known v) (hR : Restated u v 1 1 1 M M') (hM : M.Pos) (hM' : M'.Pos) (he : M.env = .ok c.e) (he' : M'.env = .ok c'.e)
    (hr : Ready c m0) (hr' : Ready c' m0') (hx : Exact c.lin) (hx' : Exact c'.lin) (h0 : LabelStart u v c.e c'.e m0 m0') (hvt : vect = true → M.g.getD ≠ 3 ∧ c.e.Flat) (hcomp : M.comp = false)
    (han : Anchored c.e m0) (hV : ∀ i, i < c.e.n → imposedRate c.e m0 i = 0 ∧ headFlow c.e vect m0 i = 0)
    (hP : RunAll c Calm fuel vect n m0 { Sol.init m0 with nsteps := (Sol.init m0).nsteps + n })
    (hP' : RunAll c' Calm fuel' vect n m0' { Sol.init m0' with nsteps := (Sol.init m0').nsteps + n })
    (h : (run c fuel vect n t m0 (Sol.init m0)).2 = .ok ()) (h' : (run c' fuel' vect n t' m0' (Sol.init m0')).2 = .ok ()) :
    ∀ k, 0 < k → k ≤ n → ∀ id, id ∈ c.e.ids → (rowAt (run c fuel vect n t m0 (Sol.init m0)).1.2.press k none id).isSome ∧
      SameQ u v "pressure" (rowAt (run c fuel vect n t m0 (Sol.init m0)).1.2.press k none id) (rowAt (run c' fuel' vect n t' m0' (Sol.init m0')).1.2.press k none id) := by
  obtain ⟨a1, a2, a3, a4, -⟩ := unit_pos (K := K) hu
  obtain ⟨b1, b2, b3, b4, -⟩ := unit_pos (K := K) hv
  have sec := second_balance (t' := t') hu hv hR hM hM' he he' hr hr' hx' h0 hvt hP' h'
  obtain ⟨hSe, -⟩ := restated_seen hu hv hR hM hM' he he' (vect := vect) fun h => (hvt h).1
  obtain ⟨-, -, s3, s4⟩ := h0.sim hu hv
  obtain ⟨b, nu, t1, -⟩ := run_limited (el := t) hr hx (fun _ => rates_given hr s3) (fun h => (hvt h).2) hP h
  obtain ⟨-, nu', t1', -⟩ := run_limited (el := t') hr' hx' (fun _ => rates_given hr' s4) (fun h => hSe.flat hr.ctx.wf (hvt h).2) hP' h'
  generalize (run c fuel vect n t m0 (Sol.init m0)).1.2 = s at *
  generalize (run c' fuel' vect n t' m0' (Sol.init m0')).1.2 = s' at *
  have wf := hr.ctx.wf
  have hc : c.e.comp = false := by rw [(env_ok he).2.2.2.2.2.2.2.2.2.1]; exact hcomp
  have forget : ∀ (old old' x : ℕ → K) i, limited c.e (c.e.trans vect) m0 old x i = limited c.e (c.e.trans vect) m0 old' x i := fun old old' x i => by
    rw [limited_outside, limited_outside, wf.rhsI hc, zero_mul, zero_mul]
  intro k hk0 hk id hid
  obtain ⟨k, rfl⟩ : ∃ k', k = k' + 1 := ⟨k - 1, by omega⟩
  have h1 := nu (k + 1) hk0 (by omega) _ (idx_lt c.e hid)
  have h2 := nu' (k + 1) hk0 (by omega) (c.e.ids.idxOf id) (by rw [hSe.n]; exact idx_lt c.e hid)
  rw [at_idx c.e hid] at h1
  rw [hSe.at, at_idx c.e hid] at h2
  have near := limited_near wf (hr.ctx.grid.network vect) hr.started.mdl han (le_refl 0) (le_refl 0) (fun i hi => rhs_nonneg wf (at_mem c.e hi)) (old := fun j => convert v u "pressure" (s'.inner c'.e k j))
    (fun i _ => by simp) (x := s.inner c.e (k + 1)) (fun i hi => by rw [forget _ (s.inner c.e k)]; exact b.press k (by omega) i hi)
    (fun i hi => (sec k (by omega) i hi).trans (by rw [(hV i hi).1, (hV i hi).2, wf.rhsI hc]; simp)) _ (idx_lt c.e hid)
  rw [add_zero, abs_nonpos_iff, sub_eq_zero] at near
  rw [h1, h2]
  refine ⟨rfl, (sameQ_iff b2.ne' _ _).2 ?_⟩
  rw [← near]
  unfold convert
  simp only [Option.map_some, Option.some.injEq]
  field_simp

end

/-- **C92** Wells. For every supported flow direction, cell, radius, skin, viscosity and volume factor, in any two systems, all converted by their labels: the well index of the code over viscosity and
volume factor is, up to the factor of permeability (within one part in 2400 of 1), the same physical quantity, as `LabelStart` says of wells. -/
theorem C92_label_index {u v : String} (hu : Known u) (hv : Known v) {fdir : FDir} (hf : WellDir fdir) {c c' : WellCell} (hc : PosCell c) (h : CellRestated u v 1 c c') (r : ℝ) (s : Option ℝ)
    {mu B : ℝ} (hmu : 0 < mu) (hB : 0 < B) : ∃ G G', wellIndex fdir (factorOf u "transmissibility conversion") c r s = .ok G ∧
      wellIndex fdir (factorOf v "transmissibility conversion") c' (convert u v "length" r) s = .ok G' ∧
      permFactor u v * (G' / (B * convert u v "viscosity" mu) * (unitOf v "rate" / unitOf v "pressure")) = G / (B * mu) * (unitOf u "rate" / unitOf u "pressure") := by
  obtain ⟨G, G', h1, h2, h3⟩ := wellIndex_factor one_pos hu hv hf hc h r s hmu hB
  refine ⟨G, G', h1, h2, ?_⟩
  rw [h3, ← mul_assoc, mul_one_div_cancel (factor_pos (K := ℝ) hu hv).1.ne', one_mul]

/-! ### example: two blocks with a well, in field and in metric units, converted by their labels -/

/-- Permeability of 100 md. -/
def exVR (b : Bool) : Rock ℚ := ⟨some (List.replicate 4 (permMeant "field" / permMeant (sysOf b) * 100)), none, none⟩

/-- Two blocks of 100 ft with 100 md, 1 cp, 60 lbm/ft³ and 10⁻³/psi, inclined; or incompressible and without a density. Time steps of one day. -/
def exV (comp b : Bool) : GridModel ℚ :=
  { g := g2, sizes := ⟨exUS b, exUS b, exUS b⟩, geom := getOk _ (exU_calc b), rock := exVR b
    β := factorOf (sysOf b) "transmissibility conversion", mu := convert "field" (sysOf b) "viscosity" 1, B := 1
    grav := gravityOf (sysOf b) * convert "field" (sysOf b) "density" (if comp then 60 else 0)
    depth := [0, 10, 25, 30].map (convert "field" (sysOf b) "length"), comp := comp, phi := [1, 1 / 5, 1 / 5, 1], ct := convert "field" (sysOf b) "compressibility" (1 / 1000)
    vconv := factorOf (sysOf b) "volume conversion", dt := convert "field" (sysOf b) "time" 1, wellReq := fun _ => .ok 1, wellG := fun _ _ r _ => .ok r }

lemma exV_ok : ∀ comp b, isOk (exV comp b).env = true := by decide +kernel

lemma exV_pos (comp b : Bool) : (exV comp b).Pos := by
  have hS : (0 : ℚ) < convert "field" (sysOf b) "length" 100 := by cases b <;> decide +kernel
  refine ⟨getOk_eq _ (exU_calc b), ⟨fun _ _ => hS, fun _ _ => hS, fun _ _ => hS⟩, rock_g2 _ rfl, ?_, ?_, ?_, ?_, one_pos, ?_, ?_, ?_, fun _ => ?_⟩
  · intro a ha c hc
    have ha' : a = .x := by cases a <;> simp [Flow, RF.Spec.along, exV, g2] at ha ⊢
    subst ha'
    rcases g2_cell (Interior.inGrid hc) with rfl | rfl | rfl | rfl <;> show (0 : ℚ) < perm g2 (exVR b) .x _ <;> cases b <;> decide +kernel
  · intro a c hc
    rcases g2_cell hc with rfl | rfl | rfl | rfl <;> cases a <;> show (0 : ℚ) ≤ perm g2 (exVR b) _ _ <;> cases b <;> decide +kernel
  · cases b <;> cases comp <;> decide +kernel
  · cases b <;> cases comp <;> decide +kernel
  · cases b <;> cases comp <;> decide +kernel
  · cases b <;> cases comp <;> decide +kernel
  · intro c hc
    rcases g2_cell (Interior.inGrid hc) with rfl | rfl | rfl | rfl <;> show (0 : ℚ) < ([1, 1 / 5, 1 / 5, 1] : List ℚ).getD (cellNumber g2.nx g2.ny _) 0 <;> decide +kernel
  · cases b <;> cases comp <;> decide +kernel

def exVE (comp b : Bool) : Env ℚ := getOk _ (exV_ok comp b)

lemma exVE_env (comp b : Bool) : (exV comp b).env = .ok (exVE comp b) := by
  unfold exVE
  exact getOk_eq _ (exV_ok comp b)

lemma exVE_grid (comp b : Bool) : FromGrid (exVE comp b) := ⟨exV comp b, exV_pos comp b, exVE_env comp b⟩

attribute [irreducible] exVE

def exVC (comp b : Bool) : Ctx ℚ := ⟨exVE comp b, fun s => s, fun _ _ => 1, cramer⟩

lemma exVC_ok (comp b : Bool) : CtxOK (exVC comp b) :=
  ⟨⟨rfl, rfl⟩, exVE_grid comp b, fun _ _ => (one_ne_zero : (1 : ℚ) ≠ 0)⟩

lemma exV_restated (comp : Bool) : Restated "field" "metric" 1 1 1 (exV comp false) (exV comp true) := by
  have hl : ∀ a c, (exV comp true).sizes.along c a = convert "field" "metric" "length" ((exV comp false).sizes.along c a) := fun a c => by
    have : convert "field" "metric" "length" (100 : ℚ) = convert "field" "metric" "length" (convert "field" "field" "length" 100) := by decide +kernel
    cases a <;> exact this
  have hd : ∀ i, i < 4 → (exV comp true).depth.getD i 0 = convert "field" "metric" "length" ((exV comp false).depth.getD i 0) := by cases comp <;> decide +kernel
  exact {
    grid := rfl
    lengths := fun a c _ => hl a c
    stored := fun a => by cases a <;> simp [exV, exVR, Rock.k]
    perm := fun a c hc => by
      show perm g2 (exVR true) a c = 1 * (permMeant "field" / permMeant "metric" * perm g2 (exVR false) a c)
      rcases g2_cell hc with rfl | rfl | rfl | rfl <;> cases a <;> decide +kernel
    conv := by cases comp <;> exact ⟨by decide +kernel, by decide +kernel⟩
    mu := by cases comp <;> decide +kernel
    B := by cases comp <;> decide +kernel
    grav := by cases comp <;> [exact ⟨0, by decide +kernel, by decide +kernel⟩; exact ⟨60, by decide +kernel, by decide +kernel⟩]
    depth := fun c hc => by
      rcases g2_cell hc with rfl | rfl | rfl | rfl
      · exact hd 0 (by decide)
      · exact hd 1 (by decide)
      · exact hd 2 (by decide)
      · exact hd 3 (by decide)
    comp := rfl
    phi := rfl
    ct := by cases comp <;> decide +kernel
    vconv := by cases comp <;> exact ⟨by decide +kernel, by decide +kernel⟩
    dt := by cases comp <;> decide +kernel }

/-- A well index of 0.5 stb cp/(day·psi). -/
def exVG (b : Bool) : ℚ := unitOf "field" "rate" / unitOf (sysOf b) "rate" / (unitOf "field" "pressure" / unitOf (sysOf b) "pressure") * (unitOf "field" "viscosity" / unitOf (sysOf b) "viscosity") * (1 / 2) / permFactor "field" (sysOf b)

/-- 3000 psi at the left end, a rate of 2 stb/day at the right end, a well of 50 stb/day with at least 2000 psi, at the start 3500 psi. -/
def exVA (b : Bool) : Mdl ℚ :=
  mkMdl (exVC true b) (some (convert "field" (sysOf b) "pressure" 3500)) [(0, "pressure", convert "field" (sysOf b) "pressure" 3000), (3, "rate", convert "field" (sysOf b) "rate" 2)]
    [(2, { q := some (convert "field" (sysOf b) "rate" (-50)), pwf := some (convert "field" (sysOf b) "pressure" 2000), r := some (exVG b) })]

/-- 3000 psi at the left end, 2500 psi at the right end, a well of 2000 psi. -/
def exVI (b : Bool) : Mdl ℚ :=
  mkMdl (exVC false b) none [(0, "pressure", convert "field" (sysOf b) "pressure" 3000), (3, "pressure", convert "field" (sysOf b) "pressure" 2500)]
    [(2, { pwf := some (convert "field" (sysOf b) "pressure" 2000), r := some (exVG b) })]

lemma exVA_ready (b : Bool) : Ready (exVC true b) (exVA b) := mkMdl_ready (exVC_ok true b) (fun _ => rfl) (by cases b <;> decide +kernel)
lemma exVI_ready (b : Bool) : Ready (exVC false b) (exVI b) := mkMdl_ready (exVC_ok false b) (fun _ => rfl) (by cases b <;> decide +kernel)

/-- The checks of `LabelStart`. -/
def labelStartB (u v : String) (e e' : Env ℚ) (m m' : Mdl ℚ) : Bool :=
  let P := fun x y : Option ℚ => decide (y.map (· * unitOf v "pressure") = x.map (· * unitOf u "pressure"))
  let Q := fun x y : Option ℚ => decide (y.map (· * unitOf v "rate") = x.map (· * unitOf u "rate"))
  decide (m.bdict.length = m'.bdict.length) && (m.bdict.zip m'.bdict).all (fun x => decide (x.2.1 = x.1.1) && decide (x.2.2.1 = x.1.2.1) &&
    ((decide (x.1.2.1 = "pressure") && P (some x.1.2.2) (some x.2.2.2)) || (decide (x.1.2.1 = "rate") && Q (some x.1.2.2) (some x.2.2.2)))) &&
  decide (m.wells.length = m'.wells.length) && (m.wells.zip m'.wells).all (fun x => decide (x.2.1 = x.1.1) && decide (x.2.2.con = x.1.2.con) && Q x.1.2.qsp x.2.2.qsp && P x.1.2.pwfsp x.2.2.pwfsp &&
    decide (permFactor u v * (windex e' x.2.2 * (unitOf v "rate" / unitOf v "pressure")) = windex e x.1.2 * (unitOf u "rate" / unitOf u "pressure"))) &&
  (!e.comp || e.ids.all fun id => (m.initP id).isSome && P (m.initP id) (m'.initP id))

lemma labelStart_of {u v : String} {e e' : Env ℚ} {m m' : Mdl ℚ} (h : labelStartB u v e e' m m' = true) : LabelStart u v e e' m m' := by
  unfold labelStartB at h
  simp only [Bool.and_eq_true, decide_eq_true_eq, List.all_eq_true, Bool.or_eq_true, Bool.not_eq_true'] at h
  obtain ⟨⟨⟨⟨h1, h2⟩, h3⟩, h4⟩, h5⟩ := h
  refine ⟨forall2_of_zip h1 fun x hx => ?_, forall2_of_zip h3 fun x hx => ?_, fun hc id hid => ?_⟩
  · obtain ⟨⟨a, b⟩, c⟩ := h2 x hx
    exact ⟨a, b, c⟩
  · obtain ⟨⟨⟨⟨a, b⟩, c⟩, d⟩, e⟩ := h4 x hx
    exact ⟨a, b, c, d, e⟩
  · rcases h5 with h5 | h5
    · rw [hc] at h5; cases h5
    · exact h5 id hid

/-- What the simulation in metric units records. -/
def exVM : Sol ℚ := (run (exVC true true) 10 false 3 0 (exVA true) (Sol.init (exVA true))).1.2

/-- In three days no pressure changes by more than 700 psi in a day; the well and gravity alone would take 10 psi a day. The two simulations agree to 2 psi. -/
example : ∀ k, k ≤ 3 → ∀ id, id ∈ (exVC true false).e.ids → ∃ p p', rowAt (run (exVC true false) 10 false 3 0 (exVA false) (Sol.init (exVA false))).1.2.press k none id = some p ∧ rowAt exVM.press k none id = some p' ∧
    |convert "metric" "field" "pressure" p' - p| ≤ 1 / 1199 * (∑ j ∈ range k, (fun _ => 700) j + k * 10) :=
  C92_close_partial (c := exVC true false) (c' := exVC true true) (m0 := exVA false) (m0' := exVA true) (M := exV true false) (M' := exV true true) (.inl rfl) (.inr (.inl rfl)) (exV_restated _) (exV_pos _ _) (exV_pos _ _)
    (exVE_env _ _) (exVE_env _ _) (exVA_ready _) (exVA_ready _) cramer_exact cramer_exact (labelStart_of (by decide +kernel)) (by simp) rfl (runCalmB_all (by decide +kernel)) (runCalmB_all (by decide +kernel))
    (isOk_unit (by decide +kernel)) (isOk_unit (by decide +kernel)) (fun _ => 700) 10
    (fun k hk id hid p q hp hq => by
      have h : ∀ k, k < 3 → ∀ id, id ∈ (exVC true false).e.ids → |convert "metric" "field" "pressure" ((rowAt exVM.press (k + 1) none id).getD 0) - convert "metric" "field" "pressure" ((rowAt exVM.press k none id).getD 0)| ≤ 700 := by
        decide +kernel
      have := h k hk id hid
      unfold exVM at this
      rw [hp, hq] at this
      exact this)
    (by decide +kernel)

/-- The pressures of the two simulations are not exactly the same. -/
example : ∃ p p', rowAt (run (exVC true false) 10 false 3 0 (exVA false) (Sol.init (exVA false))).1.2.press 3 none 2 = some p ∧ rowAt exVM.press 3 none 2 = some p' ∧ convert "metric" "field" "pressure" p' ≠ p := by
  have h : rowAt (run (exVC true false) 10 false 3 0 (exVA false) (Sol.init (exVA false))).1.2.press 3 none 2 ≠ none ∧ rowAt exVM.press 3 none 2 ≠ none ∧
      convert "metric" "field" "pressure" ((rowAt exVM.press 3 none 2).getD 0) ≠ (rowAt (run (exVC true false) 10 false 3 0 (exVA false) (Sol.init (exVA false))).1.2.press 3 none 2).getD 0 := by decide +kernel
  obtain ⟨h1, h2, h3⟩ := h
  obtain ⟨p, hp⟩ := Option.ne_none_iff_exists'.1 h1
  obtain ⟨p', hp'⟩ := Option.ne_none_iff_exists'.1 h2
  rw [hp, hp'] at h3
  exact ⟨p, p', hp, hp', h3⟩

/-- Incompressible flow from the ends to the well. -/
example : ∀ k, 0 < k → k ≤ 2 → ∀ id, id ∈ (exVC false false).e.ids → (rowAt (run (exVC false false) 10 false 2 0 (exVI false) (Sol.init (exVI false))).1.2.press k none id).isSome ∧
    SameQ "field" "metric" "pressure" (rowAt (run (exVC false false) 10 false 2 0 (exVI false) (Sol.init (exVI false))).1.2.press k none id)
      (rowAt (run (exVC false true) 10 false 2 0 (exVI true) (Sol.init (exVI true))).1.2.press k none id) :=
  C92_flow_partial (c := exVC false false) (c' := exVC false true) (m0 := exVI false) (m0' := exVI true) (M := exV false false) (M' := exV false true) (.inl rfl) (.inr (.inl rfl)) (exV_restated _) (exV_pos _ _) (exV_pos _ _)
    (exVE_env _ _) (exVE_env _ _) (exVI_ready _) (exVI_ready _) cramer_exact cramer_exact (labelStart_of (by decide +kernel)) (by simp) rfl
    (.inr (.inr (by decide +kernel))) (by decide +kernel) (runCalmB_all (by decide +kernel)) (runCalmB_all (by decide +kernel))
    (isOk_unit (by decide +kernel)) (isOk_unit (by decide +kernel))

end RF.Fdm
