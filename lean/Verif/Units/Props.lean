import Verif.Units.Model
import Mathlib.Data.Rat.Defs
import Mathlib.Algebra.Order.Ring.Rat
/-!
# Properties of units and compressibility (C24, C25)
-/
set_option linter.unusedSectionVars false
namespace RF

/-! ## C25 -/
section
variable {K : Type} [Field K]

/-- The unit systems. -/
def Known (u : String) : Prop := u = "field" ∨ u = "metric" ∨ u = "lab"

/-- Gravity constant of a unit system: conversion times acceleration. -/
def gravityOf (u : String) : K :=
  if u = "field" then 0.21584e-3 * 32.174 else if u = "metric" then 0.001 * 9.806635 else 0.986923e-6 * 980.6635

lemma gravity_field : gravityOf (K := K) "field" = 0.21584e-3 * 32.174 := if_pos rfl
lemma gravity_metric : gravityOf (K := K) "metric" = 0.001 * 9.806635 := by
  rw [gravityOf, if_neg (by decide), if_pos rfl]
lemma gravity_lab : gravityOf (K := K) "lab" = 0.986923e-6 * 980.6635 := by
  rw [gravityOf, if_neg (by decide), if_neg (by decide)]

lemma setUnits_cases (b : Base K) (u : String) : (Known u ∧ ∃ l f, UNITS.lookup u = some l ∧ (FACTORS K).lookup u = some f ∧
    setUnits b u = .ok ⟨u, l, f⟩) ∨ (¬ Known u ∧ setUnits b u = .error .value) := by
  by_cases h : Known u
  · refine .inl ⟨h, ?_⟩
    rcases h with rfl | rfl | rfl
    all_goals exact ⟨_, _, rfl, rfl, rfl⟩
  · refine .inr ⟨h, ?_⟩
    have : u ∉ UNITS.map Prod.fst := by
      rw [show UNITS.map Prod.fst = ["field", "metric", "lab"] from rfl]
      simpa [Known] using h
    simp only [setUnits]; rw [if_neg this]

/-- **C25** `set_units` accepts exactly the three unit systems; it then replaces name, labels and factors together, and
otherwise raises (leaving the object as it was, since nothing was stored). -/
theorem C25_set_units (b : Base K) (u : String) :
    (Known u → ∃ b', setUnits b u = .ok b' ∧ b'.unit = u ∧ UNITS.lookup u = some b'.units ∧ (FACTORS K).lookup u = some b'.factors) ∧
      (¬ Known u → setUnits b u = .error .value) := by
  rcases setUnits_cases b u with ⟨h, l, f, h1, h2, h3⟩ | ⟨h, h3⟩
  · exact ⟨fun _ => ⟨_, h3, rfl, h1, h2⟩, fun h' => absurd h h'⟩
  · exact ⟨fun h' => absurd h' h, fun _ => h3⟩

/-- **C25** Every unit system labels the same quantities and has the same four factors, all of them positive. -/
theorem C25_tables [LinearOrder K] [IsStrictOrderedRing K] (u : String) (h : Known u) : ∃ l f, UNITS.lookup u = some l ∧
    (FACTORS K).lookup u = some f ∧
    l.map Prod.fst = ["transmissibility", "error", "pressure", "potential", "time", "rate", "length", "area", "volume",
      "permeability", "viscosity", "gas formation volume factor", "liquid formation volume factor", "solution gas oil ratio",
      "phase gravity", "gas flow rate", "liquid flow rate", "volumetric velocity", "density", "compressibility",
      "compressibility factor", "temperature", "porosity", "saturation", "relative permeability", "angle",
      "gravitational acceleration", "transmissibility conversion", "gravity conversion", "volume conversion"] ∧
    f.map Prod.fst = ["gravitational acceleration", "transmissibility conversion", "gravity conversion", "volume conversion"] ∧
    (∀ e ∈ f, 0 < e.2) := by
  rcases h with rfl | rfl | rfl
  all_goals
    refine ⟨_, _, rfl, rfl, rfl, rfl, ?_⟩
    intro e he
    simp only [List.mem_cons, List.not_mem_nil, or_false] at he
    rcases he with rfl | rfl | rfl | rfl <;> norm_num

/-- The fluid is in a known unit system. -/
def Fluid.Ok (f : Fluid K) : Prop := Known f.base.unit ∧ (FACTORS K).lookup f.base.unit = some f.base.factors

/-- The gravity term belongs to the density and unit system. -/
def Fluid.Consistent (f : Fluid K) : Prop := f.g = gravityOf f.base.unit * f.rho

variable [CharZero K]

lemma setRho_ok (f : Fluid K) (h : f.Ok) (v : K) :
    ∃ f', f.setRho v = .ok f' ∧ f'.Ok ∧ f'.Consistent ∧ f'.base = f.base ∧ f'.rho = v := by
  obtain ⟨hk, hl⟩ := h
  obtain ⟨⟨u, l, fs⟩, rho, g⟩ := f
  simp only at hk hl
  rcases hk with rfl | rfl | rfl
  all_goals
    obtain rfl : _ = fs := Option.some.inj hl
    refine ⟨_, rfl, ⟨?_, rfl⟩, ?_, rfl, rfl⟩
    · simp [Known]
    · simp only [Fluid.Consistent, gravity_field, gravity_metric, gravity_lab]; norm_num; ring

lemma setUnits_ok (f : Fluid K) (u : String) (h : Known u) :
    ∃ f', f.setUnits u = .ok f' ∧ f'.Ok ∧ f'.base.unit = u ∧ f'.rho = f.rho ∧ f'.g = f.g := by
  rcases setUnits_cases f.base u with ⟨h, l, fs, h1, h2, h3⟩ | ⟨h', _⟩
  · refine ⟨{ f with base := ⟨u, l, fs⟩ }, ?_, ⟨h, h2⟩, rfl, rfl, rfl⟩
    simp only [Fluid.setUnits, h3]; rfl
  · exact absurd h h'

lemma setUnits_bad (f : Fluid K) (u : String) (h : ¬ Known u) : f.setUnits u = .error .value := by
  rcases setUnits_cases f.base u with ⟨h', _⟩ | ⟨_, h3⟩
  · exact absurd h' h
  · simp only [Fluid.setUnits, h3]; rfl

lemma call_ok (f : Fluid K) (h : f.Ok) (c : FCall K) : (f.call c).Ok := by
  cases c with
  | units u =>
    by_cases hk : Known u
    · obtain ⟨f', h1, h2, _⟩ := setUnits_ok f u hk
      simp only [Fluid.call, h1]; exact h2
    · simp only [Fluid.call, setUnits_bad f u hk]; exact h
  | rho v =>
    obtain ⟨f', h1, h2, _⟩ := setRho_ok f h v
    simp only [Fluid.call, h1]; exact h2

lemma calls_ok (cs : List (FCall K)) (f : Fluid K) (h : f.Ok) : (cs.foldl Fluid.call f).Ok := by
  induction cs generalizing f with
  | nil => exact h
  | cons c cs ih => exact ih _ (call_ok f h c)

/-- **C25, partial.** After creation, and after any sequence of `set_units` and `set_rho` calls followed by a `set_rho` and
then only refused `set_units`, the gravity term is density times the constants of the current unit system. Missing: after an
accepted `set_units` it is not recomputed (`C25_gravity_stale`). -/
theorem C25_gravity_partial (u : String) (hu : Known u) (rho : Option K) (cs : List (FCall K)) (v : K) (bad : List String)
    (hbad : ∀ b ∈ bad, ¬ Known b) :
    ∃ f0, Fluid.init u rho = .ok f0 ∧ f0.Consistent ∧ f0.base.unit = u ∧ f0.rho = rho.getD 0 ∧
      ((cs ++ FCall.rho v :: bad.map FCall.units).foldl Fluid.call f0).Consistent ∧
      ((cs ++ FCall.rho v :: bad.map FCall.units).foldl Fluid.call f0).rho = v := by
  obtain ⟨f1, h1, ok1, u1, _, _⟩ := setUnits_ok (⟨⟨"", [], []⟩, 0, 0⟩ : Fluid K) u hu
  have hb : ∃ b, setUnits (⟨"", [], []⟩ : Base K) u = .ok b ∧ b.unit = u ∧ (FACTORS K).lookup u = some b.factors := by
    obtain ⟨b, h, h2, _, h4⟩ := (C25_set_units (⟨"", [], []⟩ : Base K) u).1 hu
    exact ⟨b, h, h2, h4⟩
  obtain ⟨b, hb1, hb2, hb3⟩ := hb
  have okb : (⟨b, 0, 0⟩ : Fluid K).Ok := ⟨by rw [hb2]; exact hu, by rw [hb2]; exact hb3⟩
  obtain ⟨f0, e0, o0, c0, bs0, r0⟩ := setRho_ok ⟨b, 0, 0⟩ okb (rho.getD 0)
  refine ⟨f0, ?_, c0, by rw [bs0]; exact hb2, r0, ?_⟩
  · simp only [Fluid.init, hb1]; exact e0
  · rw [List.foldl_append, List.foldl_cons]
    obtain ⟨f', e1, o1, c1, _, r1⟩ := setRho_ok _ (calls_ok cs f0 o0) v
    rw [show Fluid.call (cs.foldl Fluid.call f0) (.rho v) = f' by simp only [Fluid.call, e1]]
    have : (bad.map FCall.units).foldl Fluid.call f' = f' := by
      clear e1
      induction bad with
      | nil => rfl
      | cons b t ih =>
        simp only [List.map_cons, List.foldl_cons]
        rw [show Fluid.call f' (.units b) = f' by simp only [Fluid.call, setUnits_bad f' b (hbad b (by simp))]]
        exact ih fun x hx => hbad x (by simp [hx])
    rw [this]
    exact ⟨c1, r1⟩

/-- **C25 fails for the gravity term.** Changing the unit system of a fluid of non-zero density always leaves a gravity term
of the old system. -/
theorem C25_gravity_stale (f : Fluid K) (h : f.Ok) (hc : f.Consistent) (hr : f.rho ≠ 0) (u : String) (hu : Known u)
    (hne : u ≠ f.base.unit) : ¬ (f.call (.units u)).Consistent := by
  obtain ⟨f', h1, _, h3, h4, h5⟩ := setUnits_ok f u hu
  simp only [Fluid.call, h1, Fluid.Consistent] at *
  rw [h3, h4, h5, hc]
  intro e
  have e' := mul_right_cancel₀ hr e
  rcases h.1 with hk | hk | hk <;> rcases hu with rfl | rfl | rfl <;> rw [hk] at hne e' <;>
    first
    | exact hne rfl
    | (simp only [gravity_field, gravity_metric, gravity_lab] at e'
       norm_num at e')
end

/-- A field-unit fluid of density 50 switched to metric keeps the field gravity term. -/
example : ∃ f : Fluid ℚ, Fluid.init "field" (some 50) = .ok f ∧ f.Ok ∧ f.Consistent ∧ f.rho ≠ 0 := by
  obtain ⟨f, h1, h2, h3, h4, _⟩ := C25_gravity_partial (K := ℚ) "field" (.inl rfl) (some 50) [] 0 [] (by simp)
  obtain ⟨b, hb1, hb2, _, hb4⟩ := (C25_set_units (⟨"", [], []⟩ : Base ℚ) "field").1 (.inl rfl)
  have okb : (⟨b, 0, 0⟩ : Fluid ℚ).Ok := ⟨by rw [hb2]; exact .inl rfl, by rw [hb2]; exact hb4⟩
  obtain ⟨f0, e0, o0, c0, _, r0⟩ := setRho_ok ⟨b, 0, 0⟩ okb (50 : ℚ)
  have : Fluid.init "field" (some (50 : ℚ)) = .ok f0 := by simp only [Fluid.init, hb1]; exact e0
  exact ⟨f0, this, o0, c0, by rw [r0]; norm_num⟩

/-! ## C24 -/
section
variable {K : Type} [Field K] [LinearOrder K] [IsStrictOrderedRing K]

/-- **C24** The type after `set_comp`: incompressible exactly for 0, compressible exactly for positive values, and an error
exactly for negative ones; a value that is accepted is stored. -/
theorem C24_classification (s : Comp K) (v : K) :
    ((setComp s v).2 = none ↔ 0 ≤ v) ∧ (0 ≤ v → (setComp s v).1.comp = v) ∧
    ((setComp s v).1.type = some .incompressible ↔ v = 0) ∧ ((setComp s v).1.type = some .compressible ↔ 0 < v) := by
  unfold setComp
  rcases lt_trichotomy v 0 with h | h | h
  · have h1 : ¬ (0 < v) := not_lt.2 h.le
    simp [h.ne, h1, h]
  · subst h; simp
  · simp [h.ne', h, h.le]

/-- **C24** The total compressibility of a model is that of fluid plus grid; the model is incompressible exactly if both are. -/
theorem C24_total (a b : K) (ha : 0 ≤ a) (hb : 0 ≤ b) (s t u v : Comp K) (hs : s = (setComp u a).1) (ht : t = (setComp v b).1) :
    (calcComp s t).2 = none ∧ (calcComp s t).1.comp = a + b ∧
      ((calcComp s t).1.type = some .incompressible ↔ s.type = some .incompressible ∧ t.type = some .incompressible) := by
  have ca := C24_classification u a
  have cb := C24_classification v b
  rw [← hs] at ca; rw [← ht] at cb
  obtain ⟨_, a2, a3, _⟩ := ca
  obtain ⟨_, b2, b3, _⟩ := cb
  unfold calcComp
  by_cases h : s.type = t.type ∧ t.type = some .incompressible
  · rw [if_pos h]
    have h0 : a = 0 := a3.1 (h.1.trans h.2)
    have h1 : b = 0 := b3.1 h.2
    simp [setComp, h0, h1, h.1, h.2]
  · rw [if_neg h]
    have c := C24_classification (⟨0, none⟩ : Comp K) (s.comp + t.comp)
    rw [a2 ha, b2 hb] at c ⊢
    refine ⟨c.1.2 (add_nonneg ha hb), c.2.1 (add_nonneg ha hb), c.2.2.1.trans ?_⟩
    rw [a3, b3]
    constructor
    · intro e; exact ⟨by linarith, by linarith⟩
    · rintro ⟨rfl, rfl⟩; simp

/-- **C24 fails for refused values**: a negative value raises but the object is changed, whatever it was: it holds the
negative value and no type. -/
theorem C24_refused_mutates (s : Comp K) (v : K) (h : v < 0) :
    (setComp s v).2 = some .value ∧ (setComp s v).1 = ⟨v, none⟩ ∧ (0 ≤ s.comp → (setComp s v).1 ≠ s) := by
  have h1 : ¬ (0 < v) := not_lt.2 h.le
  have : setComp s v = (⟨v, none⟩, some .value) := by simp [setComp, h.ne, h1]
  rw [this]
  exact ⟨rfl, rfl, fun h2 e => by have := congrArg Comp.comp e; simp at this; rw [← this] at h2; exact absurd h2 (not_le.2 h)⟩
end

example : (setComp (⟨1, some .compressible⟩ : Comp ℚ) (-1)).1 = ⟨-1, none⟩ := by decide +kernel

end RF
