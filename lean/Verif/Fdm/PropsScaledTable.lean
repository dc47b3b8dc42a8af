import Verif.Fdm.PropsProgress
import Verif.Table.PropsScaled
/-!
# C70: scaled tables of a simulation
-/
set_option linter.unusedSectionVars false
namespace RF.Fdm
open RF RF.Dims Finset

variable {K : Type} [Field K] [LinearOrder K] [IsStrictOrderedRing K]

/-- The first stored row is that of the initial pressures, and later ones know every cell of the grid. -/
lemma Hist.rows {c : Ctx K} {m0 m : Mdl K} {s : Sol K} (hr : Ready c m0) {P : Bool → Mdl K → Mdl K → Prop}
    (hh : Hist c P m0 m s) : (∀ id, rowAt s.press 0 none id = m0.initP id) ∧ ∀ t, 1 ≤ t → t ≤ s.tstep → ∀ id, id ∈ c.e.ids → (rowAt s.press t none id).isSome = true := by
  have step : ∀ {m m' : Mdl K} {s s' : Sol K} {vect again : Bool}, Hist c P m0 m s →
      ((∀ id, rowAt s.press 0 none id = m0.initP id) ∧ ∀ t, 1 ≤ t → t ≤ s.tstep → ∀ id, id ∈ c.e.ids → (rowAt s.press t none id).isSome = true) →
      attempt c vect m s = .ok (m', s', again) → s'.tstep = s.tstep + 1 ∧ (∀ id, rowAt s'.press 0 none id = m0.initP id) ∧
        ∀ t, 1 ≤ t → t ≤ s.tstep + 1 → ∀ id, id ∈ c.e.ids → (rowAt s'.press t none id).isSome = true := by
    intro m m' s s' vect again h ih ha
    have hi := hr.inv h
    obtain ⟨m1, s1, A, d, x, p, r', ps, h1⟩ := attempted hr.ctx.lower hr.ctx.wf hi ha
    refine ⟨h1.tstep, fun id => ?_, fun t ht0 ht id hid => ?_⟩
    · rw [h1.press, rowAt_append_lt (by rw [hi.plen]; omega)]; exact ih.1 id
    rw [h1.press]
    rcases Nat.lt_or_ge t (s.tstep + 1) with h2 | h2
    · rw [rowAt_append_lt (by rw [hi.plen]; exact h2)]; exact ih.2 t ht0 (by omega) id hid
    · rw [rowAt_append_eq (by rw [hi.plen]; omega), h1.peq]
      unfold newRow; rw [if_pos hid]; rfl
  induction hh with
  | start => exact ⟨fun _ => rfl, fun t h1 h2 => absurd h2 (by show ¬ t ≤ 0; omega)⟩
  | step h ha _ ih =>
    obtain ⟨h1, h2, h3⟩ := step h ih ha
    exact ⟨h2, by rw [h1]; exact h3⟩
  | @again m s vect m' s' h ha _ ih =>
    obtain ⟨h1, h2, h3⟩ := step h ih ha
    refine ⟨fun id => ?_, fun t ht0 ht id hid => ?_⟩
    · show rowAt (s'.press.take s'.tstep) 0 none id = _
      rw [rowAt_take (by omega)]; exact h2 id
    · have ht' : t ≤ s'.tstep - 1 := ht
      show (rowAt (s'.press.take s'.tstep) t none id).isSome = true
      rw [rowAt_take (by omega)]
      exact h3 t ht0 (by omega) id hid
  | look _ ha ih =>
    obtain ⟨-, vA, bV, res, sM, hs⟩ := assemble_frame ha
    rw [show _ = _ from hs]; exact ih
  | clock n t _ ih => exact ih

variable [FloorRing K]

/-- **C70 fails** for every model without initial pressures (they are optional if the fluid is incompressible): after any simulation of at least one step, scaled pressures
are all NaN with a min-max scaler, and the scaled table of pressures has no columns. Here `t` is what the tables are made of, with the pressures of the simulation. -/
theorem C70_incompressible_fails {lower : String → String} {t : SInput K} (hl : LowerLit lower) (hc : t.whole.Consistent) (hw : t.whole.WellsConsistent) (hc' : t.toTInput.Consistent)
    (hw' : t.toTInput.WellsConsistent) {lo hi : K} (hs : t.scaler .pressure = .minmax lo hi) {F : Fits K} (hF : t.fits lower = .ok F)
    {c : Ctx K} {m0 m : Mdl K} {s : Sol K} (hr : Ready c m0) (hh : Hist c Any m0 m s) (h1 : 1 ≤ s.tstep) (hn : t.nsteps = s.tstep + 1)
    (hp : ∀ k, k ≤ s.tstep → ∀ id, id ∈ t.allCells → entry t.press k id = rowAt s.press k none id)
    {id : ℕ} (hid : id ∈ c.e.ids) (hid' : id ∈ t.allCells) (h0 : m0.initP id = none) :
    (∀ y, F.press.apply y = none) ∧ ∀ dz, t.getDfS lower ["cells_pressure"] false true dz = .ok [] := by
  obtain ⟨hz, ho⟩ := Hist.rows hr hh
  obtain ⟨x, hx⟩ := Option.isSome_iff_exists.1 (ho 1 le_rfl h1 id hid)
  exact C70_nan_fails hl hc hw hc' hw' hs hF (id := id) (s := 0) (s' := 1) (x := x) hid' (by omega) (by omega)
    (by rw [hp 0 (by omega) id hid', hz, h0]) (by rw [hp 1 h1 id hid', hx])

/-! ### The hypotheses are met -/

/-- A steady flow: incompressible, one face held at pressure 10, a well that produces by rate; no initial pressures. -/
def exSlow : Mdl ℚ := exMdl false 0 [] none [(0, "pressure", 10)] [(2, { q := some (-1), r := some 1 })]

lemma exSlow_ready : Ready (exC false 0 []) exSlow := exMdl_ready (by decide +kernel)

/-- The first attempt at a step of the steady flow. -/
def exFirst : Except Err (Mdl ℚ × Sol ℚ × Bool) := attempt (exC false 0 []) true exSlow (Sol.init exSlow)

lemma exFirst_ok : isOk exFirst = true := by decide +kernel

/-- The table of the steady flow after one step. -/
def exTable (s : Sol ℚ) : SInput ℚ := { demoS with press := s.press.map fun r => (List.range 4).map r }

example : ∃ m s, Hist (exC false 0 []) Any exSlow m s ∧ s.tstep = 1 ∧ ∀ dz, (exTable s).getDfS (fun s => s) ["cells_pressure"] false true dz = .ok [] := by
  have hq : ∀ h, (getOk exFirst h).2.2 = false ∧ (getOk exFirst h).2.1.tstep = 1 ∧ (getOk exFirst h).2.1.press.length = 2 ∧ fitsB (fun s => s) (exTable (getOk exFirst h).2.1) = true := by decide +kernel
  have e := getOk_eq _ exFirst_ok
  obtain ⟨q1, q2, q3, q4⟩ := hq exFirst_ok
  generalize getOk exFirst exFirst_ok = y at e q1 q2 q3 q4
  obtain ⟨m, s, again⟩ := y
  dsimp only at q1 q2 q3 q4
  subst q1
  have hh : Hist (exC false 0 []) Any exSlow m s := .step .start e trivial
  have hlen : (exTable s).press.length = 2 := by simp [exTable, q3]
  obtain ⟨F, hF⟩ := fitsB_ok q4
  have d1 := demoS_whole
  have d2 := demoS_self
  refine ⟨m, s, hh, q2, (C70_incompressible_fails (t := exTable s) lit_id ⟨rfl, hlen, rfl, rfl, d1.1.dims, d1.1.nodup, d1.1.flow, d1.1.dt⟩ ⟨d1.2.len, d1.2.nodup⟩
    ⟨rfl, hlen, rfl, rfl, d2.1.dims, d2.1.nodup, d2.1.flow, d2.1.dt⟩ ⟨d2.2.len, d2.2.nodup⟩ (lo := -1) (hi := 1) rfl hF exSlow_ready hh (by omega) (by rw [q2]; rfl)
    (fun k hk id hid => ?_) (id := 1) (by decide +kernel) (show 1 ∈ demoS.allCells by decide) (by decide +kernel)).2⟩
  have hid' : id < 4 := (show ∀ id ∈ demoS.allCells, id < 4 by decide) id hid
  have hk' : k < s.press.length := by omega
  simp [entry, exTable, rowAt, List.getElem?_map, List.getElem?_eq_getElem hk', List.getElem?_range hid']
end RF.Fdm
