import Verif.Units.Props
/-!
# Unit labels and conversion factors (C63)

What the units table promises, in SI: the size of every unit label used below, by its legal definition.
-/
set_option linter.unusedSectionVars false
namespace RF
section
variable {K : Type} [Field K] [LinearOrder K] [IsStrictOrderedRing K]

/-- Pound-force per square inch, in pascal. -/
def psiSI : K := 4.4482216152605 / 0.0254 ^ 2
/-- A barrel (42 gallons of 231 cubic inches), in cubic metres. -/
def barrelSI : K := 42 * 231 * 0.0254 ^ 3
/-- A day, in seconds. -/
def daySI : K := 86400
/-- A standard atmosphere, in pascal. -/
def atmSI : K := 101325
/-- A darcy: 1 cm/s of a fluid of 1 cp under 1 atm/cm. -/
def darcySI : K := 0.01 * 0.001 / (101325 / 0.01)

/-- Size in SI of the unit a label names. -/
def siOf : String → Option K
  | "ft" => some 0.3048 | "m" => some 1 | "cm" => some 0.01
  | "ft^3" => some (0.3048 ^ 3) | "m^3" => some 1 | "cm^3" => some (0.01 ^ 3)
  | "psia" => some psiSI | "kpa" => some 1000 | "atm" => some atmSI
  | "days" => some daySI | "sec" => some 1
  | "stb/day" => some (barrelSI / daySI) | "m^3/day" => some (1 / daySI) | "cm^3/sec" => some (0.01 ^ 3)
  | "(std\\,m^3)/day" => some (1 / daySI) | "(std\\,cm^3)/day" => some (0.01 ^ 3 / daySI)
  | "md" => some (darcySI / 1000) | "darcy" => some darcySI | "m^2" => some 1
  | "cp" => some 0.001 | "mpa.sec" => some 0.001
  | "lbm/ft^3" => some (0.45359237 / 0.3048 ^ 3) | "kg/m^3" => some 1 | "g/cm^3" => some (0.001 / 0.01 ^ 3)
  | "psi/ft" => some (psiSI / 0.3048) | "kpa/m" => some 1000 | "atm/cm" => some (atmSI / 0.01)
  | "ft/(sec^2)" => some 0.3048 | "m/(sec^2)" => some 1 | "cm/(sec^2)" => some 0.01
  | "stb/(day.psi)" => some (barrelSI / daySI / psiSI) | "m^3/(day.bar)" => some (1 / daySI / 100000)
  | "cm^3/(sec.atm)" => some (0.01 ^ 3 / atmSI)
  | "psi^{-1}" => some (1 / psiSI) | "kpa^{-1}" => some (1 / 1000) | "atm^{-1}" => some (1 / atmSI)
  | _ => none

/-- Size in SI of the unit in which the system `u` measures the quantity `q`, by the units table; 0 if there is no such label. -/
def unitOf (u q : String) : K := ((UNITS.lookup u).bind fun l => (l.lookup q).bind siOf).getD 0

/-- A conversion factor of the system `u`, by the factors table; 0 if there is none. -/
def factorOf (u q : String) : K := (((FACTORS K).lookup u).bind fun f => f.lookup q).getD 0

/-- `x` is `y` up to one part in five thousand. -/
def Close (x y : K) : Prop := |x - y| ≤ |y| / 5000

lemma Close.mul {x y : K} (h : Close x y) (a : K) : Close (a * x) (a * y) := by
  unfold Close at *
  rw [← mul_sub, abs_mul, abs_mul, mul_div_assoc]
  exact mul_le_mul_of_nonneg_left h (abs_nonneg a)

/-- Volume rate through a block, in SI: Darcy's law with every quantity multiplied by the size of its unit. `perm` is the size of the
unit of permeability. -/
def darcySIrate (u : String) (perm k A mu dx dp : K) : K :=
  (k * perm) * (A * unitOf u "length" ^ 2) / ((mu * unitOf u "viscosity") * (dx * unitOf u "length")) * (dp * unitOf u "pressure")

/-! ## the three systems -/

lemma unit_field : unitOf (K := K) "field" "length" = 0.3048 ∧ unitOf (K := K) "field" "volume" = 0.3048 ^ 3 ∧ unitOf (K := K) "field" "pressure" = psiSI ∧
    unitOf (K := K) "field" "time" = daySI ∧ unitOf (K := K) "field" "rate" = barrelSI / daySI ∧ unitOf (K := K) "field" "permeability" = darcySI / 1000 ∧
    unitOf (K := K) "field" "viscosity" = 0.001 ∧ unitOf (K := K) "field" "density" = 0.45359237 / 0.3048 ^ 3 ∧ unitOf (K := K) "field" "phase gravity" = psiSI / 0.3048 ∧
    unitOf (K := K) "field" "gravitational acceleration" = 0.3048 ∧ unitOf (K := K) "field" "transmissibility" = barrelSI / daySI / psiSI ∧
    unitOf (K := K) "field" "liquid flow rate" = barrelSI / daySI ∧ unitOf (K := K) "field" "compressibility" = 1 / psiSI :=
  ⟨rfl, rfl, rfl, rfl, rfl, rfl, rfl, rfl, rfl, rfl, rfl, rfl, rfl⟩

lemma unit_metric : unitOf (K := K) "metric" "length" = 1 ∧ unitOf (K := K) "metric" "volume" = 1 ∧ unitOf (K := K) "metric" "pressure" = 1000 ∧
    unitOf (K := K) "metric" "time" = daySI ∧ unitOf (K := K) "metric" "rate" = 1 / daySI ∧ unitOf (K := K) "metric" "permeability" = 1 ∧
    unitOf (K := K) "metric" "viscosity" = 0.001 ∧ unitOf (K := K) "metric" "density" = 1 ∧ unitOf (K := K) "metric" "phase gravity" = 1000 ∧
    unitOf (K := K) "metric" "gravitational acceleration" = 1 ∧ unitOf (K := K) "metric" "transmissibility" = 1 / daySI / 100000 ∧
    unitOf (K := K) "metric" "liquid flow rate" = 1 / daySI ∧ unitOf (K := K) "metric" "compressibility" = 1 / 1000 :=
  ⟨rfl, rfl, rfl, rfl, rfl, rfl, rfl, rfl, rfl, rfl, rfl, rfl, rfl⟩

lemma unit_lab : unitOf (K := K) "lab" "length" = 0.01 ∧ unitOf (K := K) "lab" "volume" = 0.01 ^ 3 ∧ unitOf (K := K) "lab" "pressure" = atmSI ∧
    unitOf (K := K) "lab" "time" = 1 ∧ unitOf (K := K) "lab" "rate" = 0.01 ^ 3 ∧ unitOf (K := K) "lab" "permeability" = darcySI ∧
    unitOf (K := K) "lab" "viscosity" = 0.001 ∧ unitOf (K := K) "lab" "density" = 0.001 / 0.01 ^ 3 ∧ unitOf (K := K) "lab" "phase gravity" = atmSI / 0.01 ∧
    unitOf (K := K) "lab" "gravitational acceleration" = 0.01 ∧ unitOf (K := K) "lab" "transmissibility" = 0.01 ^ 3 / atmSI ∧
    unitOf (K := K) "lab" "liquid flow rate" = 0.01 ^ 3 / daySI ∧ unitOf (K := K) "lab" "compressibility" = 1 / atmSI :=
  ⟨rfl, rfl, rfl, rfl, rfl, rfl, rfl, rfl, rfl, rfl, rfl, rfl, rfl⟩

lemma factor_all : factorOf (K := K) "field" "transmissibility conversion" = 1127 / 1000000 ∧ factorOf (K := K) "metric" "transmissibility conversion" = 54 / 625 ∧
    factorOf (K := K) "lab" "transmissibility conversion" = 1 ∧ factorOf (K := K) "field" "volume conversion" = 5614583 / 1000000 ∧
    factorOf (K := K) "metric" "volume conversion" = 1 ∧ factorOf (K := K) "lab" "volume conversion" = 1 ∧
    factorOf (K := K) "field" "gravity conversion" = 1349 / 6250000 ∧ factorOf (K := K) "metric" "gravity conversion" = 1 / 1000 ∧
    factorOf (K := K) "lab" "gravity conversion" = 986923 / 1000000000000 ∧ factorOf (K := K) "field" "gravitational acceleration" = 16087 / 500 ∧
    factorOf (K := K) "metric" "gravitational acceleration" = 1961327 / 200000 ∧ factorOf (K := K) "lab" "gravitational acceleration" = 1961327 / 2000 :=
  ⟨rfl, rfl, rfl, rfl, rfl, rfl, rfl, rfl, rfl, rfl, rfl, rfl⟩

/-- The size of the permeability unit the transmissibility factor is made for: the labelled unit, but square micrometres in the metric
system. -/
def permMeant (u : String) : K := if u = "metric" then 10⁻¹ ^ 12 else unitOf u "permeability"

lemma darcy_core (u : String) (h : Known u) :
    Close (factorOf u "transmissibility conversion" * unitOf (K := K) u "rate")
      (permMeant u * unitOf u "length" ^ 2 / (unitOf u "viscosity" * unitOf u "length") * unitOf u "pressure") := by
  obtain ⟨f1, f2, f3, f4, f5, f6, f7, f8, f9, f10, f11, f12⟩ := factor_all (K := K)
  rcases h with rfl | rfl | rfl
  · obtain ⟨u1, u2, u3, u4, u5, u6, u7, -⟩ := unit_field (K := K)
    rw [show permMeant (K := K) "field" = unitOf "field" "permeability" from if_neg (by decide), f1, u1, u3, u5, u6, u7]
    unfold Close psiSI barrelSI daySI darcySI
    rw [abs_le]; norm_num [abs_of_pos]
  · obtain ⟨u1, u2, u3, u4, u5, u6, u7, -⟩ := unit_metric (K := K)
    rw [show permMeant (K := K) "metric" = 10⁻¹ ^ 12 from if_pos rfl, f2, u1, u3, u5, u7]
    unfold Close daySI
    rw [abs_le]; norm_num [abs_of_pos]
  · obtain ⟨u1, u2, u3, u4, u5, u6, u7, -⟩ := unit_lab (K := K)
    rw [show permMeant (K := K) "lab" = unitOf "lab" "permeability" from if_neg (by decide), f3, u1, u3, u5, u6, u7]
    unfold Close atmSI darcySI
    rw [abs_le]; norm_num [abs_of_pos]

/-- **C63, partial.** In every unit system, for all values of permeability, area, viscosity, distance and pressure difference in the
labelled units, the rate the code computes from the transmissibility factor, in the labelled unit of rate, is Darcy's rate, to one part in five
thousand. Missing: in the metric system only if permeabilities are in square micrometres; the table says square metres
(`C63_metric_permeability_fails`). -/
theorem C63_darcy_partial (u : String) (h : Known u) (k A mu dx dp : K) :
    Close (factorOf u "transmissibility conversion" * k * A / (mu * dx) * dp * unitOf u "rate") (darcySIrate u (permMeant u) k A mu dx dp) := by
  have := (darcy_core (K := K) u h).mul (k * A / (mu * dx) * dp)
  have e1 : k * A / (mu * dx) * dp * (factorOf u "transmissibility conversion" * unitOf u "rate") =
      factorOf u "transmissibility conversion" * k * A / (mu * dx) * dp * unitOf u "rate" := by ring
  have e2 : k * A / (mu * dx) * dp * (permMeant u * unitOf u "length" ^ 2 / (unitOf u "viscosity" * unitOf u "length") * unitOf u "pressure") =
      darcySIrate u (permMeant u) k A mu dx dp := by unfold darcySIrate; simp only [div_eq_mul_inv, mul_inv]; ring
  rwa [e1, e2] at this

/-- **C63 fails** for the metric permeability label: with permeabilities in the labelled unit, the code's rate is 10^12 times smaller than
Darcy's, whatever the data. -/
theorem C63_metric_permeability_fails (k A mu dx dp : K) :
    darcySIrate "metric" (unitOf "metric" "permeability") k A mu dx dp =
      10 ^ 12 * (factorOf "metric" "transmissibility conversion" * k * A / (mu * dx) * dp * unitOf "metric" "rate") := by
  obtain ⟨u1, u2, u3, u4, u5, u6, u7, -⟩ := unit_metric (K := K)
  unfold darcySIrate
  rw [(factor_all (K := K)).2.1, u1, u3, u5, u6, u7]
  unfold daySI
  simp only [div_eq_mul_inv, mul_inv]
  ring

/-- **C63** Accumulation: in every system a volume over a time, divided by the volume factor, is the rate in the labelled unit. -/
theorem C63_volume (u : String) (h : Known u) (V t : K) :
    Close (V / (factorOf u "volume conversion" * t) * unitOf u "rate") ((V * unitOf u "volume") / (t * unitOf u "time")) := by
  have key : Close (1 / factorOf u "volume conversion" * unitOf (K := K) u "rate") (unitOf u "volume" / unitOf u "time") := by
    obtain ⟨f1, f2, f3, f4, f5, f6, -⟩ := factor_all (K := K)
    rcases h with rfl | rfl | rfl
    · obtain ⟨u1, u2, u3, u4, u5, u6, u7, -⟩ := unit_field (K := K)
      rw [f4, u2, u4, u5]; unfold Close barrelSI daySI; rw [abs_le]; norm_num [abs_of_pos]
    · obtain ⟨u1, u2, u3, u4, u5, u6, u7, -⟩ := unit_metric (K := K)
      rw [f5, u2, u4, u5]; unfold Close daySI; rw [abs_le]; norm_num [abs_of_pos]
    · obtain ⟨u1, u2, u3, u4, u5, u6, u7, -⟩ := unit_lab (K := K)
      rw [f6, u2, u4, u5]; unfold Close; rw [abs_le]; norm_num [abs_of_pos]
  have := key.mul (V / t)
  have e1 : V / t * (1 / factorOf u "volume conversion" * unitOf u "rate") = V / (factorOf u "volume conversion" * t) * unitOf u "rate" := by
    simp only [div_eq_mul_inv, mul_inv]; ring
  have e2 : V / t * (unitOf u "volume" / unitOf u "time") = (V * unitOf u "volume") / (t * unitOf u "time") := by
    simp only [div_eq_mul_inv, mul_inv]; ring
  rwa [e1, e2] at this

/-- **C63** Gravity: in every system, and for every density, the gravity term of a fluid, in the labelled unit, is density times
standard gravity. -/
theorem C63_gravity (u : String) (h : Known u) (rho : K) : ∃ f, Fluid.init u (some rho) = .ok f ∧
    Close (f.g * unitOf u "phase gravity") ((rho * unitOf u "density") * 9.80665) ∧
    Close (factorOf u "gravitational acceleration" * unitOf (K := K) u "gravitational acceleration") 9.80665 := by
  obtain ⟨f0, h1, h2, h3, h4, -⟩ := C25_gravity_partial u h (some rho) [] 0 [] (by simp)
  refine ⟨f0, h1, ?_, ?_⟩
  · have key : Close (gravityOf u * unitOf (K := K) u "phase gravity") (unitOf u "density" * 9.80665) := by
      rcases h with rfl | rfl | rfl
      · obtain ⟨u1, u2, u3, u4, u5, u6, u7, u8, u9, -⟩ := unit_field (K := K)
        rw [gravity_field, u8, u9]; unfold Close psiSI; rw [abs_le]; norm_num [abs_of_pos]
      · obtain ⟨u1, u2, u3, u4, u5, u6, u7, u8, u9, -⟩ := unit_metric (K := K)
        rw [gravity_metric, u8, u9]; unfold Close; rw [abs_le]; norm_num [abs_of_pos]
      · obtain ⟨u1, u2, u3, u4, u5, u6, u7, u8, u9, -⟩ := unit_lab (K := K)
        rw [gravity_lab, u8, u9]; unfold Close atmSI; rw [abs_le]; norm_num [abs_of_pos]
    have := key.mul rho
    rw [h2, h3, h4]
    simp only [Option.getD_some]
    have e1 : rho * (gravityOf u * unitOf u "phase gravity") = gravityOf u * rho * unitOf u "phase gravity" := by ring
    have e2 : rho * (unitOf u "density" * 9.80665) = rho * unitOf u "density" * 9.80665 := by ring
    rwa [e1, e2] at this
  · obtain ⟨f1, f2, f3, f4, f5, f6, f7, f8, f9, f10, f11, f12⟩ := factor_all (K := K)
    rcases h with rfl | rfl | rfl
    · obtain ⟨u1, u2, u3, u4, u5, u6, u7, u8, u9, u10, -⟩ := unit_field (K := K)
      rw [f10, u10]; unfold Close; rw [abs_le]; norm_num [abs_of_pos]
    · obtain ⟨u1, u2, u3, u4, u5, u6, u7, u8, u9, u10, -⟩ := unit_metric (K := K)
      rw [f11, u10]; unfold Close; rw [abs_le]; norm_num [abs_of_pos]
    · obtain ⟨u1, u2, u3, u4, u5, u6, u7, u8, u9, u10, -⟩ := unit_lab (K := K)
      rw [f12, u10]; unfold Close; rw [abs_le]; norm_num [abs_of_pos]

/-- **C63, partial.** Derived labels agree with the base labels: compressibility is one over pressure in every system; transmissibility is rate
over pressure in the field and lab systems, and the liquid flow rate is the rate in the field and metric systems. Missing: the two other cases
(`C63_derived_labels_fail`). -/
theorem C63_derived_labels_partial : (∀ u, Known u → unitOf (K := K) u "compressibility" = 1 / unitOf u "pressure" ∧ unitOf (K := K) u "volume" = unitOf u "length" ^ 3) ∧
    (∀ u, u = "field" ∨ u = "lab" → unitOf (K := K) u "transmissibility" = unitOf u "rate" / unitOf u "pressure") ∧
    (∀ u, u = "field" ∨ u = "metric" → unitOf (K := K) u "liquid flow rate" = unitOf u "rate") := by
  refine ⟨?_, ?_, ?_⟩
  · rintro u (rfl | rfl | rfl)
    · exact ⟨rfl, rfl⟩
    · exact ⟨rfl, (one_pow 3).symm⟩
    · exact ⟨rfl, rfl⟩
  · rintro u (rfl | rfl) <;> rfl
  · rintro u (rfl | rfl) <;> rfl

/-- **C63 fails** for two derived labels: metric transmissibilities are labelled per bar although pressures are in kPa (a factor 100), and lab
liquid rates are labelled per day although rates are per second (a factor 86400). -/
theorem C63_derived_labels_fail : unitOf (K := K) "metric" "rate" / unitOf "metric" "pressure" = 100 * unitOf "metric" "transmissibility" ∧
    unitOf (K := K) "lab" "rate" = 86400 * unitOf "lab" "liquid flow rate" := by
  obtain ⟨-, -, u3, -, u5, -, -, -, -, -, u11, -⟩ := unit_metric (K := K)
  obtain ⟨-, -, -, -, v5, -, -, -, -, -, -, v12, -⟩ := unit_lab (K := K)
  rw [u3, u5, u11, v5, v12]
  unfold daySI
  constructor <;> norm_num

end

-- a block of 100 ft in the field system
example : Known "field" ∧ factorOf (K := ℚ) "field" "transmissibility conversion" * 100 * 10000 / (1 * 100) * 50 = 563.5 :=
  ⟨Or.inl rfl, by rw [factor_all.1]; norm_num⟩

end RF
