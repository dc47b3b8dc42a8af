import Verif.Fdm.PropsSimilar
import Verif.Units.Dimension
import Verif.Well.Props
/-!
# A simulation in another system of units (C92)

One reservoir described twice, in two of the three systems of units, with every quantity converted according to the labels of the units table (Units/Dimension.lean has their sizes in
SI). The conversion factors of the code are rounded, so the two descriptions that give *exactly* the same physical simulation differ, beyond the conversion, by three constant factors on
permeability, compressibility and density. The factors depend on the two systems alone and differ from 1 by less than one part in 2400.
-/
set_option linter.unusedSectionVars false
namespace RF.Fdm
open RF RF.Dims RF.Spec Finset
section
variable {K : Type} [Field K] [LinearOrder K] [IsStrictOrderedRing K]

/-! ### specification -/

/-- What a number measured in the unit of `q` of the system `u` becomes in the system `v`. -/
def convert (u v q : String) (x : K) : K := unitOf u q / unitOf v q * x

/-- The same reservoir, fluid and time step described in the systems `u` (as `M`) and `v` (as `M'`): every quantity converted by its label, apart from the factors `τ` on permeability, `ν` on
compressibility and `γ` on density. Permeabilities are in `permMeant` (square micrometres in the metric system, C63). -/
structure Restated (u v : String) (τ ν γ : K) (M M' : GridModel K) : Prop where
  grid : M'.g = M.g
  lengths : ∀ a c, InGrid M.g.nx M.g.ny M.g.nz c → M'.sizes.along c a = convert u v "length" (M.sizes.along c a)
  stored : ∀ a, M'.rock.k a = none ↔ M.rock.k a = none
  perm : ∀ a c, InGrid M.g.nx M.g.ny M.g.nz c → perm M'.g M'.rock a c = τ * (permMeant u / permMeant v * perm M.g M.rock a c)
  conv : M.β = factorOf u "transmissibility conversion" ∧ M'.β = factorOf v "transmissibility conversion"
  mu : M'.mu = convert u v "viscosity" M.mu
  B : M'.B = M.B
  grav : ∃ ρ, M.grav = gravityOf u * ρ ∧ M'.grav = gravityOf v * (γ * convert u v "density" ρ)
  depth : ∀ c, InGrid M.g.nx M.g.ny M.g.nz c → M'.depth.getD (cellNumber M.g.nx M.g.ny c) 0 = convert u v "length" (M.depth.getD (cellNumber M.g.nx M.g.ny c) 0)
  comp : M'.comp = M.comp
  phi : M'.phi = M.phi
  ct : M'.ct = ν * convert u v "compressibility" M.ct
  vconv : M.vconv = factorOf u "volume conversion" ∧ M'.vconv = factorOf v "volume conversion"
  dt : M'.dt = convert u v "time" M.dt

/-- Two optional numbers, the first in the unit of `q` of the system `u`, the second in that of `v`, are the same physical quantity. -/
def SameQ (u v q : String) (x y : Option K) : Prop := y.map (· * unitOf v q) = x.map (· * unitOf u q)

/-- The same well: same kind of constraint, same rate, pressure and limits, same productivity (rate per pressure difference). -/
structure SameWell (u v : String) (e e' : Env K) (w w' : Well K) : Prop where
  index : windex e' w' * (unitOf v "rate" / unitOf v "pressure") = windex e w * (unitOf u "rate" / unitOf u "pressure")
  q : SameQ u v "rate" w.q w'.q
  qsp : SameQ u v "rate" w.qsp w'.qsp
  pwf : SameQ u v "pressure" w.pwf w'.pwf
  pwfsp : SameQ u v "pressure" w.pwfsp w'.pwfsp
  con : w'.con = w.con

/-- The same boundary conditions (given pressures and given rates), wells and initial state, in the two systems. -/
structure SameStart (u v : String) (e e' : Env K) (m m' : Mdl K) : Prop where
  bd : List.Forall₂ (fun b b' => b'.1 = b.1 ∧ b'.2.1 = b.2.1 ∧ ((b.2.1 = "pressure" ∧ SameQ u v "pressure" (some b.2.2) (some b'.2.2)) ∨ (b.2.1 = "rate" ∧ SameQ u v "rate" (some b.2.2) (some b'.2.2))))
    m.bdict m'.bdict
  wells : List.Forall₂ (fun w w' => w'.1 = w.1 ∧ SameWell u v e e' w.2 w'.2) m.wells m'.wells
  holes : List.Forall₂ (fun x x' => x.1 ∈ e.ids ∧ x'.1 = x.1 ∧ List.Forall₂ (SameQ u v "pressure") x.2 x'.2) m.wPress m'.wPress
  press : e.comp = true → ∀ id, id ∈ e.ids → (m.initP id).isSome ∧ SameQ u v "pressure" (m.initP id) (m'.initP id)
  rates : ∀ id, (id ∈ e.ids ∨ id ∈ m.bdict.map (·.1)) → SameQ u v "rate" (some (m.initR id)) (some (m'.initR id))

/-- The two simulations are the same physical history: as many steps, and at every step the same pressure and rate of every cell, the same rate through every face with a condition, the same
rates and pressures of wells under the same constraints. -/
structure SameHistory (u v : String) (M : GridModel K) (m0 m m' : Mdl K) (s s' : Sol K) : Prop where
  steps : s'.tstep = s.tstep
  pressures : ∀ t, (0 < t ∨ M.comp = true) → ∀ x, Interior M.g.nx M.g.ny M.g.nz x →
    SameQ u v "pressure" (rowAt s.press t none (cellNumber M.g.nx M.g.ny x)) (rowAt s'.press t none (cellNumber M.g.nx M.g.ny x))
  rates : ∀ t x, Interior M.g.nx M.g.ny M.g.nz x →
    SameQ u v "rate" (some (rowAt s.rates t 0 (cellNumber M.g.nx M.g.ny x))) (some (rowAt s'.rates t 0 (cellNumber M.g.nx M.g.ny x)))
  faces : ∀ t x, InGrid M.g.nx M.g.ny M.g.nz x → cellNumber M.g.nx M.g.ny x ∈ m0.bdict.map (·.1) →
    SameQ u v "rate" (some (rowAt s.rates t 0 (cellNumber M.g.nx M.g.ny x))) (some (rowAt s'.rates t 0 (cellNumber M.g.nx M.g.ny x)))
  wells : List.Forall₂ (fun w w' => w'.1 = w.1 ∧ w'.2.con = w.2.con ∧ SameQ u v "rate" w.2.q w'.2.q ∧ SameQ u v "pressure" w.2.pwf w'.2.pwf) m.wells m'.wells
  holes : List.Forall₂ (fun x x' => x'.1 = x.1 ∧ List.Forall₂ (SameQ u v "pressure") x.2 x'.2) m.wPress m'.wPress

/-! ### the units -/

/-- By what the rate of the code differs from Darcy's. -/
def darcyMiss (u : String) : K :=
  factorOf u "transmissibility conversion" * unitOf u "rate" / (permMeant u * unitOf u "length" ^ 2 / (unitOf u "viscosity" * unitOf u "length") * unitOf u "pressure")

/-- By what a volume over a time of the code differs from the rate. -/
def volumeMiss (u : String) : K := 1 / factorOf u "volume conversion" * unitOf u "rate" / (unitOf u "length" ^ 3 / unitOf u "time")

/-- By what the gravity term of the code differs from density times standard gravity. -/
def gravityMiss (u : String) : K := gravityOf u * (unitOf u "pressure" / unitOf u "length") / (unitOf u "density" * 9.80665)

/-- The factors, close to 1 (`C92_factors`), by which permeability, compressibility and density must differ in the second system, beyond their conversion, for the simulations to agree exactly. -/
def permFactor (u v : String) : K := darcyMiss u / darcyMiss v
@[inherit_doc permFactor] def ctFactor (u v : String) : K := volumeMiss u / volumeMiss v
@[inherit_doc permFactor] def densityFactor (u v : String) : K := gravityMiss u / gravityMiss v

lemma unit_pos {u : String} (h : Known u) : 0 < unitOf (K := K) u "length" ∧ 0 < unitOf (K := K) u "pressure" ∧ 0 < unitOf (K := K) u "time" ∧ 0 < unitOf (K := K) u "rate" ∧
    0 < permMeant (K := K) u ∧ 0 < unitOf (K := K) u "viscosity" ∧ 0 < unitOf (K := K) u "density" ∧ 0 < unitOf (K := K) u "compressibility" ∧ unitOf (K := K) u "compressibility" = 1 / unitOf u "pressure" ∧
    0 < factorOf (K := K) u "transmissibility conversion" ∧ 0 < factorOf (K := K) u "volume conversion" ∧ 0 < gravityOf (K := K) u := by
  obtain ⟨f1, f2, f3, f4, f5, f6, -⟩ := factor_all (K := K)
  rcases h with rfl | rfl | rfl
  · obtain ⟨u1, u2, u3, u4, u5, u6, u7, u8, u9, u10, u11, u12, u13⟩ := unit_field (K := K)
    rw [show permMeant (K := K) "field" = unitOf "field" "permeability" from if_neg (by decide), f1, f4, u1, u3, u4, u5, u6, u7, u8, u13, gravity_field]
    unfold psiSI barrelSI daySI darcySI
    norm_num
  · obtain ⟨u1, u2, u3, u4, u5, u6, u7, u8, u9, u10, u11, u12, u13⟩ := unit_metric (K := K)
    rw [show permMeant (K := K) "metric" = 10⁻¹ ^ 12 from if_pos rfl, f2, f5, u1, u3, u4, u5, u7, u8, u13, gravity_metric]
    unfold daySI
    norm_num
  · obtain ⟨u1, u2, u3, u4, u5, u6, u7, u8, u9, u10, u11, u12, u13⟩ := unit_lab (K := K)
    rw [show permMeant (K := K) "lab" = unitOf "lab" "permeability" from if_neg (by decide), f3, f6, u1, u3, u4, u5, u6, u7, u8, u13, gravity_lab]
    unfold atmSI darcySI
    norm_num

lemma close_ratio {x y : K} (hy : 0 < y) (h : Close x y) : |x / y - 1| ≤ 1 / 5000 := by
  unfold Close at h
  rw [abs_of_pos hy] at h
  rw [div_sub_one hy.ne', abs_div, abs_of_pos hy, div_le_iff₀ hy]
  linarith

lemma miss_close {u : String} (h : Known u) : |darcyMiss (K := K) u - 1| ≤ 1 / 5000 ∧ |volumeMiss (K := K) u - 1| ≤ 1 / 5000 ∧ |gravityMiss (K := K) u - 1| ≤ 1 / 5000 := by
  obtain ⟨p1, p2, p3, p4, p5, p6, p7, p8, p9, p10, p11, p12⟩ := unit_pos (K := K) h
  refine ⟨close_ratio (by positivity) (darcy_core u h), close_ratio (by positivity) ?_, close_ratio (by positivity) ?_⟩
  · have := C63_volume (K := K) u h 1 1
    rw [mul_one, one_mul, one_mul, ((C63_derived_labels_partial (K := K)).1 u h).2] at this
    exact this
  · obtain ⟨f0, h1, h2, -⟩ := C63_gravity (K := K) u h 1
    obtain ⟨f1, g1, g2, g3, g4, -⟩ := C25_gravity_partial (K := K) u h (some 1) [] 0 [] (by simp)
    rw [g1] at h1
    cases h1
    rw [g2, g3, g4] at h2
    simp only [Option.getD_some, mul_one, one_mul] at h2
    rwa [show unitOf (K := K) u "phase gravity" = unitOf u "pressure" / unitOf u "length" by rcases h with rfl | rfl | rfl <;> first | rfl | exact (div_one _).symm] at h2

lemma ratio_close {a b : K} (ha : |a - 1| ≤ 1 / 5000) (hb : |b - 1| ≤ 1 / 5000) : 0 < a / b ∧ |a / b - 1| < 1 / 2400 := by
  rw [abs_le] at ha hb
  have h1 : (0 : K) < a := by linarith [ha.1]
  have h2 : (0 : K) < b := by linarith [hb.1]
  refine ⟨div_pos h1 h2, ?_⟩
  rw [div_sub_one h2.ne', abs_div, abs_of_pos h2, div_lt_iff₀ h2, abs_lt]
  constructor <;> linarith [ha.1, ha.2, hb.1, hb.2]

lemma sameQ_iff {u v q : String} (hv : unitOf (K := K) v q ≠ 0) (x y : Option K) : SameQ u v q x y ↔ y = x.map fun p => unitOf u q / unitOf v q * p := by
  unfold SameQ
  cases x <;> cases y <;> simp only [Option.map_some, Option.map_none, Option.some.injEq, reduceCtorEq]
  constructor
  · intro h; field_simp; linarith
  · rintro rfl; field_simp

lemma sameQ_list {u v q : String} (hv : unitOf (K := K) v q ≠ 0) {l l' : List (Option K)} : List.Forall₂ (SameQ u v q) l l' ↔ l' = l.map (Option.map fun p => unitOf u q / unitOf v q * p) := by
  induction l generalizing l' with
  | nil => simp
  | cons x l ih =>
    constructor
    · intro h
      rcases h with _ | ⟨h1, h2⟩
      rw [List.map_cons, (sameQ_iff hv _ _).1 h1, ih.1 h2]
    · rintro rfl
      exact .cons ((sameQ_iff hv _ _).2 rfl) (ih.2 rfl)

variable {u v : String} {M M' : GridModel K} {c c' : Ctx K} {m0 m0' : Mdl K} {τ ν γ : K}

/-- The factors the rounding of the tables makes for. -/
def Restated.Exactly (u v : String) (τ ν γ : K) : Prop := τ = permFactor u v ∧ ν = ctFactor u v ∧ γ = densityFactor u v

lemma Restated.cond (hu : Known u) (hv : Known v) (h : Restated u v τ ν γ M M') (hM : M.Pos) (hx : Restated.Exactly u v τ ν γ) :
    condScale M M' (τ * (permMeant u / permMeant v)) ((unitOf u "length" / unitOf v "length") ^ 2) (unitOf u "length" / unitOf v "length") =
      unitOf u "rate" / unitOf v "rate" / (unitOf u "pressure" / unitOf v "pressure") := by
  obtain ⟨a1, a2, a3, a4, a5, a6, a7, a8, a9, a10, a11, a12⟩ := unit_pos (K := K) hu
  obtain ⟨b1, b2, b3, b4, b5, b6, b7, b8, b9, b10, b11, b12⟩ := unit_pos (K := K) hv
  have := hM.mu; have := hM.B
  unfold condScale
  rw [h.mu, h.B, h.conv.1, h.conv.2, hx.1]
  unfold convert permFactor darcyMiss
  field_simp

lemma Restated.storage (hu : Known u) (hv : Known v) (h : Restated u v τ ν γ M M') (hM : M.Pos) (hx : Restated.Exactly u v τ ν γ) {x : Cell} (hc : InGrid M.g.nx M.g.ny M.g.nz x) :
    storageCoef M' x = unitOf u "rate" / unitOf v "rate" / (unitOf u "pressure" / unitOf v "pressure") * storageCoef M x := by
  obtain ⟨a1, a2, a3, a4, a5, a6, a7, a8, a9, a10, a11, a12⟩ := unit_pos (K := K) hu
  obtain ⟨b1, b2, b3, b4, b5, b6, b7, b8, b9, b10, b11, b12⟩ := unit_pos (K := K) hv
  have := hM.dt; have := hM.B
  have hV : M'.sizes.volume x = (unitOf u "length" / unitOf v "length") ^ 3 * M.sizes.volume x := by
    have e1 := h.lengths .x x hc; have e2 := h.lengths .y x hc; have e3 := h.lengths .z x hc
    simp only [Sizes.along, convert] at e1 e2 e3
    unfold Sizes.volume
    rw [e1, e2, e3]; ring
  unfold storageCoef
  rw [hV, h.grid, h.phi, h.ct, h.vconv.1, h.vconv.2, h.B, h.dt, hx.2.1]
  unfold convert ctFactor volumeMiss
  rw [a9, b9]
  field_simp

theorem Restated.looks (hu : Known u) (hv : Known v) (h : Restated u v τ ν γ M M') (hM : M.Pos) (hx : Restated.Exactly u v τ ν γ) :
    Looks M M' id id (unitOf u "pressure" / unitOf v "pressure") (τ * (permMeant u / permMeant v)) ((unitOf u "length" / unitOf v "length") ^ 2) (unitOf u "length" / unitOf v "length") := by
  obtain ⟨a1, a2, a3, a4, a5, a6, a7, a8, a9, a10, a11, a12⟩ := unit_pos (K := K) hu
  obtain ⟨b1, b2, b3, b4, b5, b6, b7, b8, b9, b10, b11, b12⟩ := unit_pos (K := K) hv
  refine ⟨layout_same (by rw [h.grid]) (by rw [h.grid]) (by rw [h.grid]), h.stored, fun a x hx => ?_, fun a x _ hx => h.lengths a x hx, fun a x _ hc => ?_, h.comp, fun _ x hc => ?_, fun x y hc hd => ?_⟩
  · rw [mul_assoc]; exact h.perm a x hx
  · have e1 := h.lengths .x x hc; have e2 := h.lengths .y x hc; have e3 := h.lengths .z x hc
    simp only [Sizes.along, convert] at e1 e2 e3
    cases a <;> simp only [Sizes.area, id, e1, e2, e3] <;> ring
  · rw [h.cond hu hv hM hx]; exact h.storage hu hv hM hx (Interior.inGrid hc)
  · obtain ⟨ρ, g1, g2⟩ := h.grav
    rw [h.grid]
    simp only [id]
    rw [h.depth x hc, h.depth y hd, g1, g2, hx.2.2]
    unfold convert densityFactor gravityMiss
    field_simp

lemma SameStart.sim (hu : Known u) (hv : Known v) {e e' : Env K} {m m' : Mdl K} (vect : Bool) (h : SameStart u v e e' m m') :
    ModelSim id (unitOf u "pressure" / unitOf v "pressure") 0 (unitOf u "rate" / unitOf v "rate" / (unitOf u "pressure" / unitOf v "pressure")) vect e e' m m' := by
  obtain ⟨a1, a2, a3, a4, -⟩ := unit_pos (K := K) hu
  obtain ⟨b1, b2, b3, b4, -⟩ := unit_pos (K := K) hv
  have hr : unitOf u "pressure" / unitOf v "pressure" * (unitOf u "rate" / unitOf v "rate" / (unitOf u "pressure" / unitOf v "pressure")) = unitOf (K := K) u "rate" / unitOf v "rate" := by
    field_simp
  have hp0 : (fun p : K => unitOf u "pressure" / unitOf v "pressure" * p + 0) = fun p => unitOf u "pressure" / unitOf v "pressure" * p := by funext p; rw [add_zero]
  have hwell : ∀ w w' : Well K, SameWell u v e e' w w' → WellSim (unitOf u "pressure" / unitOf v "pressure") 0 (unitOf u "rate" / unitOf v "rate" / (unitOf u "pressure" / unitOf v "pressure")) e e' w w' := by
    intro w w' hw
    refine ⟨?_, by rw [hr]; exact (sameQ_iff b4.ne' _ _).1 hw.q, by rw [hr]; exact (sameQ_iff b4.ne' _ _).1 hw.qsp, by rw [hp0]; exact (sameQ_iff b2.ne' _ _).1 hw.pwf,
      by rw [hp0]; exact (sameQ_iff b2.ne' _ _).1 hw.pwfsp, hw.con⟩
    have := hw.index
    field_simp at this ⊢
    linarith
  refine ⟨h.bd.imp fun b b' hb => ?_, h.wells.imp fun w w' hw => ⟨hw.1, hwell w.2 w'.2 hw.2⟩, h.holes.imp fun x x' hw => ⟨hw.1, hw.2.1, by rw [hp0]; exact (sameQ_list b2.ne').1 hw.2.2⟩, fun hc id hid => ?_, fun id hid => ?_⟩
  · obtain ⟨h1, h2, h3⟩ := hb
    refine ⟨h1, h2, fun hk => ?_, fun hk _ => ?_⟩
    · rcases h3 with ⟨-, h3⟩ | ⟨h3, -⟩
      · rw [sameQ_iff b2.ne'] at h3; rw [add_zero]; exact Option.some.inj h3
      · rw [hk] at h3; exact absurd h3 (by decide)
    · rcases h3 with ⟨h3, -⟩ | ⟨-, h3⟩
      · exact absurd h3 hk
      · rw [sameQ_iff b4.ne'] at h3; rw [hr]; exact Option.some.inj h3
  · obtain ⟨h1, h2⟩ := h.press hc id hid
    obtain ⟨p, hp⟩ := Option.isSome_iff_exists.1 h1
    rw [hp, sameQ_iff b2.ne'] at h2
    exact ⟨p, hp, by rw [add_zero]; exact h2⟩
  · have := h.rates id hid
    rw [sameQ_iff b4.ne'] at this
    rw [hr]; exact Option.some.inj this

lemma SameStory.physical (hu : Known u) (hv : Known v) (hg : M'.g = M.g) {m m' : Mdl K} {s s' : Sol K}
    (h : SameStory M M' id (unitOf u "pressure" / unitOf v "pressure") 0 (unitOf u "rate" / unitOf v "rate" / (unitOf u "pressure" / unitOf v "pressure")) m0 m m' s s') : SameHistory u v M m0 m m' s s' := by
  obtain ⟨a1, a2, a3, a4, -⟩ := unit_pos (K := K) hu
  obtain ⟨b1, b2, b3, b4, -⟩ := unit_pos (K := K) hv
  have hr : unitOf u "pressure" / unitOf v "pressure" * (unitOf u "rate" / unitOf v "rate" / (unitOf u "pressure" / unitOf v "pressure")) = unitOf (K := K) u "rate" / unitOf v "rate" := by
    field_simp
  obtain ⟨h1, h2, h3, h4, h5, h6⟩ := h
  rw [hg] at h2 h3 h4 h5 h6
  simp only [add_zero, hr, id, renumber_self] at h2 h3 h4 h5 h6
  refine ⟨h1, fun t ht x hx => (sameQ_iff b2.ne' _ _).2 (h2 t ht x hx), fun t x hx => (sameQ_iff b4.ne' _ _).2 (by rw [h3 t x hx]; rfl), fun t x hx hb => (sameQ_iff b4.ne' _ _).2 (by rw [h4 t x hx hb]; rfl),
    h5.imp fun w w' hw => ⟨hw.1, hw.2.1, (sameQ_iff b4.ne' _ _).2 hw.2.2.1, (sameQ_iff b2.ne' _ _).2 hw.2.2.2⟩, h6.imp fun x x' hw => ⟨hw.1, (sameQ_list b2.ne').2 hw.2⟩⟩

/-- **C92** The three factors differ from 1 by less than one part in 2400, and are 1 between a system and itself. -/
theorem C92_factors (u v : String) (hu : Known u) (hv : Known v) : (|permFactor u v - (1 : K)| < 1 / 2400 ∧ |ctFactor u v - (1 : K)| < 1 / 2400 ∧ |densityFactor u v - (1 : K)| < 1 / 2400) ∧
    permFactor u u = (1 : K) ∧ ctFactor u u = (1 : K) ∧ densityFactor u u = (1 : K) := by
  obtain ⟨a1, a2, a3⟩ := miss_close (K := K) hu
  obtain ⟨b1, b2, b3⟩ := miss_close (K := K) hv
  refine ⟨⟨(ratio_close a1 b1).2, (ratio_close a2 b2).2, (ratio_close a3 b3).2⟩, div_self ?_, div_self ?_, div_self ?_⟩
  · exact fun h => absurd (ratio_close a1 a1).1 (by rw [h, div_zero]; exact lt_irrefl _)
  · exact fun h => absurd (ratio_close a2 a2).1 (by rw [h, div_zero]; exact lt_irrefl _)
  · exact fun h => absurd (ratio_close a3 a3).1 (by rw [h, div_zero]; exact lt_irrefl _)

/-- **C92, partial.** For any two systems of units, every grid, rock, fluid, boundary conditions, wells, initial state, time step, number of steps and assembler: if the reservoir is described in both
systems, every quantity converted by its label, and in the second description permeability, compressibility and density are multiplied by three numbers that depend on the two systems only and are
within one part in 2400 of 1 (`C92_factors`), then the two simulations are the same physical history. (Conversion factors in the code's tables are rounded; without the three numbers the histories
differ, `C92_exact_fails`.)

Missing: metric permeabilities must be in square micrometres, against the label (C63); given gradients; the well index is given as a physical quantity (`C92_well_index` for the code's
formula); what C78 leaves out (wells leaving their limit, the vectorised assembler on three-dimensional grids and on inclined reservoirs, unanchored incompressible systems). -/
theorem C92_run_partial (hu : Known u) (hv : Known v) (hR : Restated u v (permFactor u v) (ctFactor u v) (densityFactor u v) M M') (hM : M.Pos) (hM' : M'.Pos) (he : M.env = .ok c.e) (he' : M'.env = .ok c'.e)
    (hr : Ready c m0) (hr' : Ready c' m0') (hx : Exact c.lin) (hx' : Exact c'.lin) (han : Anchored c.e m0) (h0 : SameStart u v c.e c'.e m0 m0') {vect : Bool} (hvt : vect = true → M.g.getD ≠ 3 ∧ c.e.Flat)
    {fuel fuel' n : ℕ} {t t' : K} (hP : RunAll c Calm fuel vect n m0 { Sol.init m0 with nsteps := (Sol.init m0).nsteps + n })
    (h : (run c fuel vect n t m0 (Sol.init m0)).2 = .ok ()) (h' : (run c' fuel' vect n t' m0' (Sol.init m0')).2 = .ok ()) :
    SameHistory u v M m0 (run c fuel vect n t m0 (Sol.init m0)).1.1 (run c' fuel' vect n t' m0' (Sol.init m0')).1.1
      (run c fuel vect n t m0 (Sol.init m0)).1.2 (run c' fuel' vect n t' m0' (Sol.init m0')).1.2 := by
  have hX : Restated.Exactly (K := K) u v (permFactor u v) (ctFactor u v) (densityFactor u v) := ⟨rfl, rfl, rfl⟩
  obtain ⟨p1, p2, -, p4, p5, -⟩ := unit_pos (K := K) hu
  obtain ⟨q1, q2, -, q4, q5, -⟩ := unit_pos (K := K) hv
  have hτ : (0 : K) < permFactor u v := (ratio_close (miss_close hu).1 (miss_close hv).1).1
  have hs := h0.sim hu hv vect
  have := C78_run_partial (M := M) (M' := M') (c := c) (c' := c') (m0 := m0) (m0' := m0') (β := 0) (hR.looks hu hv hM hX) hM hM' (by positivity) (by positivity) (by positivity) (by positivity) he he'
    (fun h => ⟨(hvt h).1, by rw [hR.grid]; exact (hvt h).1, (hvt h).2⟩) hr hr' hx hx' han (by rw [hR.grid, renumber_self, hR.cond hu hv hM hX]; exact hs) (fun _ => .inl rfl) hP h h'
  rw [hR.cond hu hv hM hX] at this
  exact this.physical hu hv hR.grid

/-- **C92 fails** for exact equality: described in field and in metric units with every quantity converted exactly, two blocks exchange physically different rates under the same pressure difference,
whatever the (non-zero) data. -/
theorem C92_exact_fails (k A mu dx dp : K) (hk : k ≠ 0) (hA : A ≠ 0) (hmu : mu ≠ 0) (hdx : dx ≠ 0) (hdp : dp ≠ 0) :
    factorOf "metric" "transmissibility conversion" * (permMeant "field" / permMeant "metric" * k) * ((unitOf "field" "length" / unitOf "metric" "length") ^ 2 * A) /
        (convert "field" "metric" "viscosity" mu * convert "field" "metric" "length" dx) * convert "field" "metric" "pressure" dp * unitOf "metric" "rate" ≠
      factorOf "field" "transmissibility conversion" * k * A / (mu * dx) * dp * unitOf "field" "rate" := by
  obtain ⟨f1, f2, -⟩ := factor_all (K := K)
  obtain ⟨u1, u2, u3, u4, u5, u6, u7, -⟩ := unit_field (K := K)
  obtain ⟨v1, v2, v3, v4, v5, v6, v7, -⟩ := unit_metric (K := K)
  unfold convert
  rw [show permMeant (K := K) "field" = unitOf "field" "permeability" from if_neg (by decide), show permMeant (K := K) "metric" = 10⁻¹ ^ 12 from if_pos rfl, f1, f2, u1, u3, u5, u6, u7, v1, v3, v5, v7]
  unfold psiSI barrelSI daySI darcySI
  intro h
  field_simp at h
  norm_num at h

end

/-! ### wells -/
noncomputable section
open Real

/-- The well cell described in another system. -/
structure CellRestated (u v : String) (τ : ℝ) (c c' : WellCell) : Prop where
  dx : c'.dx = convert u v "length" c.dx
  dy : c'.dy = convert u v "length" c.dy
  dz : c'.dz = convert u v "length" c.dz
  kx : c'.kx = τ * (permMeant u / permMeant v * c.kx)
  ky : c'.ky = τ * (permMeant u / permMeant v * c.ky)

lemma half_scale {a x : ℝ} (ha : 0 ≤ a) (hx : 0 ≤ x) : (a ^ 2 * x) ^ (0.5 : ℝ) = a * x ^ (0.5 : ℝ) := by
  rw [half_eq, ← sqrt_eq_rpow, ← sqrt_eq_rpow, sqrt_mul (by positivity), sqrt_sq ha]

lemma wellReq_scale {fdir : FDir} {c : WellCell} (hf : WellDir fdir) (hc : PosCell c) {L s : ℝ} (hL : 0 < L) (hs : 0 < s) {q : ℝ} (h : wellReq fdir c = .ok q) (dz : ℝ) :
    wellReq fdir ⟨L * c.dx, L * c.dy, dz, s * c.kx, s * c.ky⟩ = .ok (L * q) := by
  have hx := hc.kx; have hy := hc.ky; have hdx := hc.dx; have hdy := hc.dy
  have e0 : (0.14 : ℝ) * ((L * c.dx) ^ 2 + (L * c.dy) ^ 2) ^ (0.5 : ℝ) = L * (0.14 * (c.dx ^ 2 + c.dy ^ 2) ^ (0.5 : ℝ)) := by
    rw [show (L * c.dx) ^ 2 + (L * c.dy) ^ 2 = L ^ 2 * (c.dx ^ 2 + c.dy ^ 2) by ring, half_scale hL.le (by positivity)]; ring
  have ep : peaceman ⟨L * c.dx, L * c.dy, dz, s * c.kx, s * c.ky⟩ = L * peaceman c := by
    have p1 : 0 ≤ (c.ky / c.kx) ^ (0.5 : ℝ) := rpow_nonneg (by positivity) _
    have p2 : 0 ≤ (c.kx / c.ky) ^ (0.5 : ℝ) := rpow_nonneg (by positivity) _
    unfold peaceman
    simp only
    rw [mul_div_mul_left _ _ hs.ne', mul_div_mul_left _ _ hs.ne',
      show (c.ky / c.kx) ^ (0.5 : ℝ) * (L * c.dx) ^ 2 + (c.kx / c.ky) ^ (0.5 : ℝ) * (L * c.dy) ^ 2 = L ^ 2 * ((c.ky / c.kx) ^ (0.5 : ℝ) * c.dx ^ 2 + (c.kx / c.ky) ^ (0.5 : ℝ) * c.dy ^ 2) by ring,
      half_scale hL.le (by positivity)]
    ring
  unfold wellReq at h ⊢
  rcases hf with rfl | rfl | rfl
  · rw [if_pos (.inl rfl)] at h ⊢
    cases h
    exact congrArg Except.ok e0
  · rw [if_neg (by decide), if_pos rfl] at h ⊢
    cases h
    rw [ep]
  · rw [if_neg (by decide), if_neg (by decide), if_pos rfl] at h ⊢
    cases h
    rw [ep]

/-- The well index where permeabilities are converted up to a factor `τ`. -/
lemma wellIndex_factor {u v : String} {τ : ℝ} (hτ : 0 < τ) (hu : Known u) (hv : Known v) {fdir : FDir} (hf : WellDir fdir) {c c' : WellCell} (hc : PosCell c) (h : CellRestated u v τ c c') (r : ℝ) (s : Option ℝ)
    {mu B : ℝ} (hmu : 0 < mu) (hB : 0 < B) : ∃ G G', wellIndex fdir (factorOf u "transmissibility conversion") c r s = .ok G ∧
      wellIndex fdir (factorOf v "transmissibility conversion") c' (convert u v "length" r) s = .ok G' ∧
      G' / (B * convert u v "viscosity" mu) * (unitOf v "rate" / unitOf v "pressure") = τ / permFactor u v * (G / (B * mu) * (unitOf u "rate" / unitOf u "pressure")) := by
  obtain ⟨a1, a2, a3, a4, a5, a6, a7, a8, a9, a10, a11, a12⟩ := unit_pos (K := ℝ) hu
  obtain ⟨b1, b2, b3, b4, b5, b6, b7, b8, b9, b10, b11, b12⟩ := unit_pos (K := ℝ) hv
  obtain ⟨q, hq, hq0, -⟩ := C26_radius c hc fdir hf
  have hL : (0 : ℝ) < unitOf u "length" / unitOf v "length" := by positivity
  have hs : (0 : ℝ) < τ * (permMeant u / permMeant v) := by positivity
  have hc' : c' = ⟨unitOf u "length" / unitOf v "length" * c.dx, unitOf u "length" / unitOf v "length" * c.dy, unitOf u "length" / unitOf v "length" * c.dz,
      τ * (permMeant u / permMeant v) * c.kx, τ * (permMeant u / permMeant v) * c.ky⟩ := by
    obtain ⟨x1, x2, x3, x4, x5⟩ := c'
    obtain ⟨h1, h2, h3, h4, h5⟩ := h
    simp only [convert] at h1 h2 h3 h4 h5
    subst h1 h2 h3 h4 h5
    simp only [mul_assoc]
  have hp' : PosCell c' := by
    have := hc.dx; have := hc.dy; have := hc.dz; have := hc.kx; have := hc.ky
    rw [hc']; constructor <;> simp only <;> positivity
  have hq' := wellReq_scale hf hc hL hs hq (unitOf u "length" / unitOf v "length" * c.dz)
  rw [← hc'] at hq'
  obtain ⟨v1, w1⟩ := C26_value fdir hf (factorOf u "transmissibility conversion") c hc q r (s.getD 0)
  obtain ⟨v2, w2⟩ := C26_value fdir hf (factorOf v "transmissibility conversion") c' hp' (unitOf u "length" / unitOf v "length" * q) (convert u v "length" r) (s.getD 0)
  have g1 : wellG fdir (factorOf u "transmissibility conversion") c q r s = wellG fdir (factorOf u "transmissibility conversion") c q r (some (s.getD 0)) := by
    cases s with
    | none => exact (C26_value fdir hf _ c hc q r 0).2
    | some s => rfl
  have g2 : wellG fdir (factorOf v "transmissibility conversion") c' (unitOf u "length" / unitOf v "length" * q) (convert u v "length" r) s =
      wellG fdir (factorOf v "transmissibility conversion") c' (unitOf u "length" / unitOf v "length" * q) (convert u v "length" r) (some (s.getD 0)) := by
    cases s with
    | none => exact (C26_value fdir hf _ c' hp' _ _ 0).2
    | some s => rfl
  have i1 : wellIndex fdir (factorOf u "transmissibility conversion") c r s = wellG fdir (factorOf u "transmissibility conversion") c q r s := by
    unfold wellIndex; rw [hq]; rfl
  have i2 : wellIndex fdir (factorOf v "transmissibility conversion") c' (convert u v "length" r) s =
      wellG fdir (factorOf v "transmissibility conversion") c' (unitOf u "length" / unitOf v "length" * q) (convert u v "length" r) s := by
    unfold wellIndex; rw [hq']; rfl
  refine ⟨_, _, i1.trans (g1.trans v1), i2.trans (g2.trans v2), ?_⟩
  · have hres : wellRes (unitOf u "length" / unitOf v "length" * q) (convert u v "length" r) (s.getD 0) = wellRes q r (s.getD 0) := by
      unfold wellRes convert
      rw [show 12 * (unitOf u "length" / unitOf v "length" * q) / (unitOf u "length" / unitOf v "length" * r) = 12 * q / r by
        rw [show 12 * (unitOf u "length" / unitOf v "length" * q) = unitOf u "length" / unitOf v "length" * (12 * q) by ring, mul_div_mul_left _ _ hL.ne']]
    have hk : (if fdir = [.x] then c'.kx else sqrt (c'.kx * c'.ky)) = τ * (permMeant u / permMeant v) * (if fdir = [.x] then c.kx else sqrt (c.kx * c.ky)) := by
      rw [hc']
      split
      · rfl
      · simp only
        rw [show τ * (permMeant u / permMeant v) * c.kx * (τ * (permMeant u / permMeant v) * c.ky) = (τ * (permMeant u / permMeant v)) ^ 2 * (c.kx * c.ky) by ring,
          sqrt_mul (by positivity), sqrt_sq hs.le]
    rw [hres, hk, show c'.dz = unitOf u "length" / unitOf v "length" * c.dz by rw [hc']]
    unfold convert permFactor darcyMiss
    generalize (if fdir = [.x] then c.kx else sqrt (c.kx * c.ky)) = k
    rcases eq_or_ne (wellRes q r (s.getD 0)) 0 with h0 | h0
    · rw [h0]; simp
    · field_simp

/-- **C92** Wells. For every supported flow direction, cell, radius, skin, viscosity and volume factor, in any two systems: if the cell, the radius and the viscosity are converted by their labels (the
permeabilities with the factor of `C92_run_partial`), the well index of the code over viscosity and volume factor is the same physical quantity, as `C92_run_partial` assumes of wells. -/
theorem C92_well_index {u v : String} (hu : Known u) (hv : Known v) {fdir : FDir} (hf : WellDir fdir) {c c' : WellCell} (hc : PosCell c) (h : CellRestated u v (permFactor u v) c c') (r : ℝ) (s : Option ℝ)
    {mu B : ℝ} (hmu : 0 < mu) (hB : 0 < B) : ∃ G G', wellIndex fdir (factorOf u "transmissibility conversion") c r s = .ok G ∧
      wellIndex fdir (factorOf v "transmissibility conversion") c' (convert u v "length" r) s = .ok G' ∧
      G' / (B * convert u v "viscosity" mu) * (unitOf v "rate" / unitOf v "pressure") = G / (B * mu) * (unitOf u "rate" / unitOf u "pressure") := by
  have hφ : (0 : ℝ) < permFactor u v := (ratio_close (miss_close hu).1 (miss_close hv).1).1
  obtain ⟨G, G', h1, h2, h3⟩ := wellIndex_factor hφ hu hv hf hc h r s hmu hB
  exact ⟨G, G', h1, h2, by rw [h3, div_self hφ.ne', one_mul]⟩

/-- Peaceman's well index for a wellbore radius `r` in the unit of length: `2π·β·k·h / (ln(r_eq / r) + s)`. -/
def peacemanIndex (fdir : FDir) (β : ℝ) (c : WellCell) (req r s : ℝ) : ℝ :=
  2 * π * β * (if fdir = [.x] then c.kx else sqrt (c.kx * c.ky)) * c.dz / (log (req / r) + s)

/-- **C92 fails** for the radius of a well. In every system, for every flow direction, cell, skin and radius smaller than the equivalent radius, the code's index is not Peaceman's index with the radius in
the labelled unit of length (it is smaller); it is Peaceman's index for one twelfth of that radius. In the field system this makes the radius a number of inches; in the metric and lab systems it is
a number of twelfths of a metre and of a centimetre, and the units table has no label for that. -/
theorem C92_radius_fails {fdir : FDir} (hf : WellDir fdir) {β : ℝ} (hβ : 0 < β) {c : WellCell} (hc : PosCell c) {r s : ℝ} (hr : 0 < r) (hs : 0 ≤ s) {req : ℝ} (hq : wellReq fdir c = .ok req) (hrq : r < req) :
    (∃ G, wellIndex fdir β c r (some s) = .ok G ∧ G < peacemanIndex fdir β c req r s ∧ G = peacemanIndex fdir β c req (r / 12) s) ∧ unitOf (K := ℝ) "field" "length" / 12 = 0.0254 := by
  have hk : 0 < (if fdir = [.x] then c.kx else sqrt (c.kx * c.ky)) := by
    have := hc.kx; have := hc.ky
    split
    · exact hc.kx
    · exact sqrt_pos.2 (by positivity)
  have hz := hc.dz
  have h0 : 0 < req := hr.trans hrq
  have e1 : (12 : ℝ) * req / r = req / (r / 12) := by field_simp
  have l1 : 0 < log (req / r) := log_pos (by rw [one_lt_div hr]; exact hrq)
  have l2 : log (req / r) < log (12 * req / r) := log_lt_log (by positivity) (by rw [div_lt_div_iff_of_pos_right hr]; linarith)
  have i1 : wellIndex fdir β c r (some s) = wellG fdir β c req r (some s) := by unfold wellIndex; rw [hq]; rfl
  refine ⟨⟨_, i1.trans (C26_value fdir hf β c hc req r s).1, ?_, ?_⟩, by rw [unit_field.1]; norm_num⟩
  · unfold peacemanIndex wellRes
    exact div_lt_div_of_pos_left (by positivity) (by linarith) (by linarith)
  · unfold peacemanIndex wellRes
    rw [e1]

end

/-! ### example: two inclined blocks with a well, in field and in metric units -/

/-- The field system and the metric system. -/
def sysOf (b : Bool) : String := if b then "metric" else "field"

/-- Sides of 100 ft. -/
def exUS (b : Bool) : DArg ℚ := .scalar (convert "field" (sysOf b) "length" 100)

lemma exU_calc : ∀ b, isOk (Geom.calc g2 (exUS b) (exUS b) (exUS b)) = true := by decide +kernel

/-- Permeability of 100 md. -/
def exUR (b : Bool) : Rock ℚ := ⟨some (List.replicate 4 (permFactor "field" (sysOf b) * (permMeant "field" / permMeant (sysOf b) * 100))), none, none⟩

/-- Two blocks of 100 ft with 100 md, 1 cp, 60 lbm/ft³ and 10⁻³/psi, inclined, time steps of one day. -/
def exU (b : Bool) : GridModel ℚ :=
  { g := g2, sizes := ⟨exUS b, exUS b, exUS b⟩, geom := getOk _ (exU_calc b), rock := exUR b
    β := factorOf (sysOf b) "transmissibility conversion", mu := convert "field" (sysOf b) "viscosity" 1, B := 1
    grav := gravityOf (sysOf b) * (densityFactor "field" (sysOf b) * convert "field" (sysOf b) "density" 60)
    depth := [0, 10, 25, 30].map (convert "field" (sysOf b) "length"), comp := true, phi := [1, 1 / 5, 1 / 5, 1], ct := ctFactor "field" (sysOf b) * convert "field" (sysOf b) "compressibility" (1 / 1000)
    vconv := factorOf (sysOf b) "volume conversion", dt := convert "field" (sysOf b) "time" 1, wellReq := fun _ => .ok 1, wellG := fun _ _ r _ => .ok r }

lemma exU_ok : ∀ b, isOk (exU b).env = true := by decide +kernel

lemma exU_pos (b : Bool) : (exU b).Pos := by
  have hS : (0 : ℚ) < convert "field" (sysOf b) "length" 100 := by cases b <;> decide +kernel
  refine ⟨getOk_eq _ (exU_calc b), ⟨fun _ _ => hS, fun _ _ => hS, fun _ _ => hS⟩, rock_g2 _ rfl, ?_, ?_, ?_, ?_, one_pos, ?_, ?_, ?_, fun _ => ?_⟩
  · intro a ha c hc
    have ha' : a = .x := by cases a <;> simp [Flow, RF.Spec.along, exU, g2] at ha ⊢
    subst ha'
    rcases g2_cell (Interior.inGrid hc) with rfl | rfl | rfl | rfl <;> show (0 : ℚ) < perm g2 (exUR b) .x _ <;> cases b <;> decide +kernel
  · intro a c hc
    rcases g2_cell hc with rfl | rfl | rfl | rfl <;> cases a <;> show (0 : ℚ) ≤ perm g2 (exUR b) _ _ <;> cases b <;> decide +kernel
  · cases b <;> decide +kernel
  · cases b <;> decide +kernel
  · cases b <;> decide +kernel
  · cases b <;> decide +kernel
  · intro c hc
    rcases g2_cell (Interior.inGrid hc) with rfl | rfl | rfl | rfl <;> show (0 : ℚ) < ([1, 1 / 5, 1 / 5, 1] : List ℚ).getD (cellNumber g2.nx g2.ny _) 0 <;> decide +kernel
  · cases b <;> decide +kernel

def exUE (b : Bool) : Env ℚ := getOk _ (exU_ok b)

lemma exUE_env (b : Bool) : (exU b).env = .ok (exUE b) := by
  unfold exUE
  exact getOk_eq _ (exU_ok b)

lemma exUE_grid (b : Bool) : FromGrid (exUE b) := ⟨exU b, exU_pos b, exUE_env b⟩

attribute [irreducible] exUE

def exUC (b : Bool) : Ctx ℚ := ⟨exUE b, fun s => s, fun _ _ => 1, cramer⟩

lemma exUC_ok (b : Bool) : CtxOK (exUC b) :=
  ⟨⟨rfl, rfl⟩, exUE_grid b, fun _ _ => (one_ne_zero : (1 : ℚ) ≠ 0)⟩

lemma exU_restated : Restated "field" "metric" (permFactor "field" "metric") (ctFactor "field" "metric") (densityFactor "field" "metric") (exU false) (exU true) := by
  have hl : ∀ a c, (exU true).sizes.along c a = convert "field" "metric" "length" ((exU false).sizes.along c a) := fun a c => by
    have : convert "field" "metric" "length" (100 : ℚ) = convert "field" "metric" "length" (convert "field" "field" "length" 100) := by decide +kernel
    cases a <;> exact this
  have hd : ∀ i, i < 4 → (exU true).depth.getD i 0 = convert "field" "metric" "length" ((exU false).depth.getD i 0) := by decide +kernel
  exact {
    grid := rfl
    lengths := fun a c _ => hl a c
    stored := fun a => by cases a <;> simp [exU, exUR, Rock.k]
    perm := fun a c hc => by
      show perm g2 (exUR true) a c = permFactor "field" "metric" * (permMeant "field" / permMeant "metric" * perm g2 (exUR false) a c)
      rcases g2_cell hc with rfl | rfl | rfl | rfl <;> cases a <;> decide +kernel
    conv := ⟨by decide +kernel, by decide +kernel⟩
    mu := by decide +kernel
    B := by decide +kernel
    grav := ⟨60, by decide +kernel, by decide +kernel⟩
    depth := fun c hc => by
      rcases g2_cell hc with rfl | rfl | rfl | rfl
      · exact hd 0 (by decide)
      · exact hd 1 (by decide)
      · exact hd 2 (by decide)
      · exact hd 3 (by decide)
    comp := rfl
    phi := rfl
    ct := by decide +kernel
    vconv := ⟨by decide +kernel, by decide +kernel⟩
    dt := by decide +kernel }

/-- 3000 psi at the left end, a rate of 2 stb/day at the right end, a well of 50 stb/day with at least 2000 psi, productivity 0.5 stb/(day·psi), at the start 3500 psi. -/
def exUA (b : Bool) : Mdl ℚ :=
  mkMdl (exUC b) (some (convert "field" (sysOf b) "pressure" 3500)) [(0, "pressure", convert "field" (sysOf b) "pressure" 3000), (3, "rate", convert "field" (sysOf b) "rate" 2)]
    [(2, { q := some (convert "field" (sysOf b) "rate" (-50)), pwf := some (convert "field" (sysOf b) "pressure" 2000)
           r := some (unitOf "field" "rate" / unitOf (sysOf b) "rate" / (unitOf "field" "pressure" / unitOf (sysOf b) "pressure") * (unitOf "field" "viscosity" / unitOf (sysOf b) "viscosity") * (1 / 2)) })]

lemma exUA_ready (b : Bool) : Ready (exUC b) (exUA b) := mkMdl_ready (exUC_ok b) (fun _ => rfl) (by cases b <;> decide +kernel)

/-- The checks of `SameStart`. -/
def sameStartB (u v : String) (e e' : Env ℚ) (m m' : Mdl ℚ) : Bool :=
  let P := fun x y : Option ℚ => decide (y.map (· * unitOf v "pressure") = x.map (· * unitOf u "pressure"))
  let Q := fun x y : Option ℚ => decide (y.map (· * unitOf v "rate") = x.map (· * unitOf u "rate"))
  decide (m.bdict.length = m'.bdict.length) && (m.bdict.zip m'.bdict).all (fun x => decide (x.2.1 = x.1.1) && decide (x.2.2.1 = x.1.2.1) &&
    ((decide (x.1.2.1 = "pressure") && P (some x.1.2.2) (some x.2.2.2)) || (decide (x.1.2.1 = "rate") && Q (some x.1.2.2) (some x.2.2.2)))) &&
  decide (m.wells.length = m'.wells.length) && (m.wells.zip m'.wells).all (fun x => decide (x.2.1 = x.1.1) &&
    decide (windex e' x.2.2 * (unitOf v "rate" / unitOf v "pressure") = windex e x.1.2 * (unitOf u "rate" / unitOf u "pressure")) && Q x.1.2.q x.2.2.q && Q x.1.2.qsp x.2.2.qsp && P x.1.2.pwf x.2.2.pwf &&
    P x.1.2.pwfsp x.2.2.pwfsp && decide (x.2.2.con = x.1.2.con)) &&
  decide (m.wPress.length = m'.wPress.length) && (m.wPress.zip m'.wPress).all (fun x => decide (x.1.1 ∈ e.ids) && decide (x.2.1 = x.1.1) && decide (x.1.2.length = x.2.2.length) && (x.1.2.zip x.2.2).all fun y => P y.1 y.2) &&
  (e.ids.all fun id => (m.initP id).isSome && P (m.initP id) (m'.initP id)) &&
  ((e.ids ++ m.bdict.map (·.1)).all fun id => Q (some (m.initR id)) (some (m'.initR id)))

lemma sameStart_of {u v : String} {e e' : Env ℚ} {m m' : Mdl ℚ} (h : sameStartB u v e e' m m' = true) : SameStart u v e e' m m' := by
  unfold sameStartB at h
  simp only [Bool.and_eq_true, decide_eq_true_eq, List.all_eq_true, Bool.or_eq_true] at h
  obtain ⟨⟨⟨⟨⟨⟨⟨h1, h2⟩, h3⟩, h4⟩, h5⟩, h6⟩, h7⟩, h8⟩ := h
  refine ⟨forall2_of_zip h1 fun x hx => ?_, forall2_of_zip h3 fun x hx => ?_, forall2_of_zip h5 fun x hx => ?_, fun _ id hid => h7 id hid, fun id hid => h8 id (List.mem_append.2 hid)⟩
  · obtain ⟨⟨a, b⟩, c⟩ := h2 x hx
    exact ⟨a, b, c⟩
  · obtain ⟨⟨⟨⟨⟨⟨a, b⟩, c⟩, d⟩, e⟩, f⟩, g⟩ := h4 x hx
    exact ⟨a, b, c, d, e, f, g⟩
  · obtain ⟨⟨⟨a, b⟩, c⟩, d⟩ := h6 x hx
    exact ⟨a, b, forall2_of_zip c d⟩

/-- Three days of the reservoir, in field and in metric units, with the cell-by-cell assembler. -/
example : SameHistory "field" "metric" (exU false) (exUA false) (run (exUC false) 10 false 3 0 (exUA false) (Sol.init (exUA false))).1.1 (run (exUC true) 10 false 3 0 (exUA true) (Sol.init (exUA true))).1.1
    (run (exUC false) 10 false 3 0 (exUA false) (Sol.init (exUA false))).1.2 (run (exUC true) 10 false 3 0 (exUA true) (Sol.init (exUA true))).1.2 :=
  C92_run_partial (c := exUC false) (c' := exUC true) (m0 := exUA false) (m0' := exUA true) (M := exU false) (M' := exU true) (.inl rfl) (.inr (.inl rfl)) exU_restated (exU_pos _) (exU_pos _) (exUE_env _) (exUE_env _)
    (exUA_ready _) (exUA_ready _) cramer_exact cramer_exact (.inl (by decide +kernel)) (sameStart_of (by decide +kernel)) (by simp) (runCalmB_all (by decide +kernel)) (isOk_unit (by decide +kernel))
    (isOk_unit (by decide +kernel))

/-- The pressures change, gravity matters, and the factors are not 1. -/
example : rowAt (run (exUC false) 10 false 3 0 (exUA false) (Sol.init (exUA false))).1.2.press 3 none 2 ≠ rowAt (run (exUC false) 10 false 3 0 (exUA false) (Sol.init (exUA false))).1.2.press 0 none 2 ∧
    (exUE false).grav ≠ 0 ∧ permFactor "field" "metric" ≠ (1 : ℚ) ∧ ctFactor "field" "metric" ≠ (1 : ℚ) ∧ densityFactor "field" "metric" ≠ (1 : ℚ) := by decide +kernel

/-- A block of 100 ft with a well of 3 inches, in the metric system. -/
example : ∃ c c' : WellCell, PosCell c ∧ CellRestated "field" "metric" (permFactor "field" "metric") c c' ∧ WellDir [.x, .y] ∧ Known "field" ∧ Known "metric" ∧
    ∃ req, wellReq [.x, .y] c = .ok req ∧ (3 : ℝ) < req := by
  have hp : PosCell ⟨100, 100, 20, 50, 50⟩ := ⟨by norm_num, by norm_num, by norm_num, by norm_num, by norm_num⟩
  refine ⟨⟨100, 100, 20, 50, 50⟩, ⟨_, _, _, _, _⟩, hp, ⟨rfl, rfl, rfl, rfl, rfl⟩, .inr (.inl rfl), .inl rfl, .inr (.inl rfl), _, (C26_isotropic_radius _ hp rfl _ (.inl rfl)).1, ?_⟩
  have : (100 : ℝ) ≤ Real.sqrt (100 ^ 2 + 100 ^ 2) := Real.le_sqrt_of_sq_le (by norm_num)
  show (3 : ℝ) < 0.14 * Real.sqrt (100 ^ 2 + 100 ^ 2)
  calc (3 : ℝ) < 0.14 * 100 := by norm_num
    _ ≤ _ := by gcongr

end RF.Fdm
