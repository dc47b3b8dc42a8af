import Verif.Fdm.PropsPressure
/-! # Material balance (C40, C41, C42) -/
set_option linter.unusedSectionVars false
namespace RF.Fdm
open RF RF.Dims Finset

variable {K : Type} [Field K] [LinearOrder K] [IsStrictOrderedRing K]

/-- Every boundary condition is on the face of a cell (not on an edge or corner of the padded grid). -/
def OnFaces (e : Env K) (b : List (ℕ × String × K)) : Prop := ∀ x, x ∈ b → ∃ id T, e.Face x.1 id T

/-- Every condition that is not a pressure is a rate. -/
def RatesOnly (lower : String → String) (b : List (ℕ × String × K)) : Prop := ∀ x, x ∈ b → x.2.1 ≠ "pressure" → lower x.2.1 ∈ ["rate", "q"]

/-! ### sums -/

lemma sum_ids (e : Env K) (f : ℕ → K) : (e.ids.map f).sum = ∑ i ∈ range e.n, f (e.at i) := by
  have h : ∀ (l : List ℕ), (l.map f).sum = ∑ i ∈ range l.length, f (l.getD i 0) := by
    intro l
    induction l with
    | nil => simp
    | cons a l ih => rw [List.map_cons, List.sum_cons, List.length_cons, sum_range_succ', ih, add_comm]; rfl
  exact h e.ids

lemma stored_eq (e : Env K) (s : Sol K) (t t' : ℕ) : stored e s t t' = ∑ i ∈ range e.n, e.rhs (e.at i) * (s.inner e t i - s.inner e t' i) :=
  sum_ids e fun id => e.rhs id * ((rowAt s.press t none id).getD 0 - (rowAt s.press t' none id).getD 0)

/-- Whether a boundary cell has no cell behind it: an edge or corner of the padded grid. -/
def offFace (e : Env K) (b : ℕ) : Bool := match e.transC b false with | .ok [] => true | _ => false

/-- All recorded rates belong to some cell, except those on edges and corners. -/
lemma rowSum_recorded {e : Env K} (he : e.WF) {r : ℕ → K} (hz : ∀ k, k ∉ e.ids → k ∉ e.bnd → r k = 0) :
    rowSum e r = ∑ i ∈ range e.n, recordedIn e r i + (e.bnd.map fun b => if offFace e b = true then r b else 0).sum := by
  have h1 : rowSum e r = (e.ids.map r).sum + (e.bnd.map r).sum := by
    unfold rowSum
    rw [← List.sum_toFinset r List.nodup_range, ← List.sum_toFinset r he.nodup, ← List.sum_toFinset r he.bnodup, ← sum_union]
    · refine (sum_subset (fun k hk => ?_) fun k _ hk => ?_).symm
      · rw [mem_union, List.mem_toFinset, List.mem_toFinset] at hk
        rw [List.mem_toFinset, List.mem_range]
        exact he.lt k hk
      · rw [mem_union, List.mem_toFinset, List.mem_toFinset, not_or] at hk
        exact hz k hk.1 hk.2
    · rw [disjoint_left]
      intro k h1 h2
      exact he.disj k (List.mem_toFinset.1 h2) (List.mem_toFinset.1 h1)
  have h2 : ∑ i ∈ range e.n, (e.bnd.map fun b => if e.behind b = some (e.at i) then r b else 0).sum + (e.bnd.map fun b => if offFace e b = true then r b else 0).sum =
      (e.bnd.map r).sum := by
    rw [sum_list_comm, ← List.sum_map_add]
    congr 1
    refine List.map_congr_left fun b hb => ?_
    rcases he.face b hb with h | ⟨id, T, hid, -, hF⟩
    · have hb' : e.behind b = none := by unfold Env.behind; rw [h]
      have ho : offFace e b = true := by unfold offFace; rw [h]
      rw [if_pos ho, hb']; simp
    · have ho : offFace e b = false := by unfold offFace; rw [show e.transC b false = _ from hF]
      rw [ho, if_neg (by simp), add_zero]
      refine Eq.trans (sum_congr rfl fun i _ => ?_) (sum_at he.nodup hid fun _ => r b)
      rw [behind_of_face hF]
      simp only [Option.some.injEq]
  unfold recordedIn
  rw [sum_add_distrib, h1, sum_ids, ← h2]; ring

/-! ## C40 -/

/-- The values of the conditions on edges and corners. -/
def lost (e : Env K) (b : List (ℕ × String × K)) : K := (b.map fun x => if offFace e x.1 = true then x.2.2 else 0).sum

lemma lost_zero {e : Env K} {b : List (ℕ × String × K)} (h : OnFaces e b) : lost e b = 0 := by
  unfold lost
  apply List.sum_eq_zero
  intro y hy
  obtain ⟨x, hx, rfl⟩ := List.mem_map.1 hy
  obtain ⟨id, T, hF⟩ := h x hx
  have : offFace e x.1 = false := by unfold offFace; rw [show e.transC x.1 false = _ from hF]
  rw [this]; simp

/-- `set_boundaries` refuses gradients on edges and corners; a rate is stored as given. -/
lemma Setup.edge {lower : String → String} {e : Env K} {m : Mdl K} (h : Setup lower e m) (hc : Canonical lower m) :
    ∀ b, b ∈ m.bdict → b.2.1 ≠ "pressure" → offFace e b.1 = true → m.initR b.1 = b.2.2 := by
  induction h with
  | init pi => intro b hb; exact absurd hb (by simp [Mdl.init])
  | @bounds m m' b h hb hs _ =>
    obtain ⟨-, a1, -, -, -, -, -, -, a8⟩ := setBoundaries_ok hb hs
    intro x hx hp ho
    obtain ⟨c1, -, c3⟩ := a8 x (by rwa [a1] at hx)
    by_cases h1 : lower x.2.1 ∈ ["rate", "q"]
    · exact c1 h1
    · obtain ⟨-, h2⟩ := c3 h1 fun h2 => hp ((hc x hx).1 h2)
      unfold gradientRate at h2
      unfold offFace at ho
      rw [ok_bind] at h2
      obtain ⟨l, hl, h2⟩ := h2
      rw [hl] at ho
      split at h2
      · simp at ho
      · cases h2
  | @well m m' id a h hs ih =>
    obtain ⟨k, req, r, G, w', wp, -, -, -, -, -, rfl, -⟩ := setWell_ok hs
    exact ih hc

/-- What is recorded for an accepted step is what is stored, what was lost on edges and corners, and what the pressures miss the equations. -/
lemma attempt_booked {c : Ctx K} (hc : CtxOK c) {m0 m m' : Mdl K} {s s' : Sol K} {vect : Bool} (hi : Inv c.e m0 m s)
    (hq : QInv c.lower c.e m s) (hn : NoLeftover m0) (hg : vect = false → RatesGiven m0)
    (hl : ∀ b, b ∈ m0.bdict → b.2.1 ≠ "pressure" → offFace c.e b.1 = true → m0.initR b.1 = b.2.2) (hP : Calm vect m m') (ha : attempt c vect m s = .ok (m', s', false)) :
    rowSum c.e (rowAt s'.rates s'.tstep 0) = stored c.e s' s'.tstep s.tstep + lost c.e m0.bdict +
      ∑ i ∈ range c.e.n, excess c.e (c.e.trans vect) m (usedRate vect m s) (s.inner c.e s.tstep) (s'.inner c.e s'.tstep) i ∧ s'.tstep = s.tstep + 1 := by
  obtain ⟨m1, s1, A, d, x, p, r', ps, h⟩ := attempted hc.lower hc.wf hi ha
  have hsum := sum_congr rfl fun i (hi' : i ∈ range c.e.n) => recorded_excess hc hi hq hn hg hP ha (mem_range.1 hi')
  rw [sum_add_distrib, sum_add_distrib] at hsum
  unfold flowIn at hsum
  rw [sum_flow (hc.grid.network vect).symm _ (fun i => c.e.z (c.e.at i)), zero_add] at hsum
  have hrow : rowAt s'.rates s'.tstep 0 = r' := by rw [h.rates, h.tstep, rowAt_append_eq hi.rlen]
  have hin : ∀ i, s'.inner c.e s.tstep i = s.inner c.e s.tstep i := by
    intro i
    unfold Sol.inner
    rw [h.press, rowAt_append_lt (by rw [hi.plen]; omega)]
  have hbw : ∀ b, b ∈ c.e.bnd → b ∉ m.wells.map (·.1) := by
    intro b hb hw
    obtain ⟨y, hy, rfl⟩ := List.mem_map.1 hw
    exact hc.wf.disj _ hb (hi.mdl.wmem y hy)
  have hkeep : ∀ k, k ∉ m.bUpdate → k ∉ m.wells.map (·.1) → r' k = m0.initR k := by
    intro k h1 h2
    rw [h.keep k h1 h2]
    exact hi.row _ le_rfl k (by rw [← hi.same.upd]; exact h1) (by rw [← hi.same.wells.keys]; exact h2)
  refine ⟨?_, h.tstep⟩
  rw [rowSum_recorded hc.wf, hsum, stored_eq, add_right_comm]
  · simp only [hin]
    congr 2
    unfold lost
    rw [← hi.same.bdict, ← sum_over_keys hi.mdl.bkeys hc.wf.bnodup hi.mdl.bmem fun b => if offFace c.e b = true then rowAt s'.rates s'.tstep 0 b else 0]
    · congr 1
      refine List.map_congr_left fun b hb => ?_
      split_ifs with ho
      · have hnu : b.1 ∉ m.bUpdate := by
          intro hu
          obtain ⟨id', T', hF', -⟩ := h.bound b.1 hu
          unfold offFace at ho
          rw [show c.e.transC b.1 false = _ from hF'] at ho
          simp at ho
        have hp : b.2.1 ≠ "pressure" := fun hp => hnu (upd_of_mem hi.mdl hb hp)
        rw [hrow, hkeep _ hnu (hbw _ (hi.mdl.bmem b hb)), hl b (by rw [← hi.same.bdict]; exact hb) hp ho]
      · rfl
    · intro b hb hbk
      have hnu : b ∉ m.bUpdate := by
        intro hu
        obtain ⟨v, hv⟩ := upd_pressure hi.mdl hu
        exact hbk (List.mem_map.2 ⟨_, mem_of_dictGet hv, rfl⟩)
      rw [hrow, hkeep _ hnu (hbw _ hb), hn b (by rw [← hi.same.bdict]; exact hbk), ite_self]
  · intro k hk hb
    have hu : k ∉ m.bUpdate := by
      intro hu
      obtain ⟨v, hv⟩ := upd_pressure hi.mdl hu
      exact hb (hi.mdl.bmem _ (mem_of_dictGet hv))
    have hw : k ∉ m.wells.map (·.1) := by
      intro hw
      obtain ⟨y, hy, rfl⟩ := List.mem_map.1 hw
      exact hk (hi.mdl.wmem y hy)
    rw [hrow, hkeep k hu hw]
    apply hn k
    rw [← hi.same.bdict]
    intro hm
    obtain ⟨y, hy, rfl⟩ := List.mem_map.1 hm
    exact hb (hi.mdl.bmem y hy)

lemma attempt_closes {c : Ctx K} (hc : CtxOK c) (hx : Exact c.lin) {m0 m m' : Mdl K} {s s' : Sol K} {vect : Bool} (hi : Inv c.e m0 m s)
    (hq : QInv c.lower c.e m s) (hf : vect = true → c.e.Flat) (hn : NoLeftover m0) (hg : vect = false → RatesGiven m0)
    (hl : ∀ b, b ∈ m0.bdict → b.2.1 ≠ "pressure" → offFace c.e b.1 = true → m0.initR b.1 = b.2.2) (hP : Calm vect m m') (ha : attempt c vect m s = .ok (m', s', false)) :
    rowSum c.e (rowAt s'.rates s'.tstep 0) = stored c.e s' s'.tstep s.tstep + lost c.e m0.bdict ∧ s'.tstep = s.tstep + 1 := by
  obtain ⟨h1, h2⟩ := attempt_booked hc hi hq hn hg hl hP ha
  rw [sum_eq_zero fun i hi' => step_balance hc hx hi hq hf hP.2 ha i (mem_range.1 hi'), add_zero] at h1
  exact ⟨h1, h2⟩

/-- The attempts for which the recorded rates balance with conditions `b`: calm ones, the vectorised assembler only where gravity plays no part, the symbolic one only without gradients. -/
def Sound (lower : String → String) (e : Env K) (b : List (ℕ × String × K)) : Bool → Mdl K → Mdl K → Prop := fun vect m m' =>
  Calm vect m m' ∧ (vect = true → e.Flat) ∧ (vect = false → RatesOnly lower b)

lemma Hist.weaken {c : Ctx K} {P Q : Bool → Mdl K → Mdl K → Prop} (hPQ : ∀ v a b, P v a b → Q v a b) {m0 m : Mdl K} {s : Sol K} (h : Hist c P m0 m s) : Hist c Q m0 m s := by
  induction h with
  | start => exact .start
  | step _ ha hp ih => exact .step ih ha (hPQ _ _ _ hp)
  | again _ ha hp ih => exact .again ih ha (hPQ _ _ _ hp)
  | look _ ha ih => exact .look ih ha
  | clock n t _ ih => exact .clock n t ih

/-- The balance of every step of every history: what is recorded is what is stored and what was lost on edges and corners. -/
theorem C40_exact {c : Ctx K} {m0 m : Mdl K} {s : Sol K} {b : List (ℕ × String × K)} (hr : Ready c m0) (hx : Exact c.lin) (hb : Standard c.lower c.e b m0)
    (h : Hist c (Sound c.lower c.e b) m0 m s) :
    ∀ t, t < s.tstep → rowSum c.e (rowAt s.rates (t + 1) 0) = stored c.e s (t + 1) t + lost c.e b := by
  obtain ⟨eb, hn, hg⟩ := hb.rates
  have hl := hr.setup.edge hr.canon
  rw [show lost c.e b = lost c.e m0.bdict by rw [eb]]
  have wk : ∀ {m s}, Hist c (Sound c.lower c.e b) m0 m s → Hist c Calm m0 m s := fun h => h.weaken fun _ _ _ h => h.1
  induction h with
  | start => intro t ht; simp [Sol.init] at ht
  | @step m1 s1 v m2 s2 hh hat hp ih =>
    intro t ht
    obtain ⟨hi, hq⟩ := hr.calm (wk hh)
    obtain ⟨_, _, _, _, _, _, _, _, h1⟩ := attempted hr.ctx.lower hr.ctx.wf hi hat
    by_cases ht' : t = s1.tstep
    · obtain ⟨k1, k2⟩ := attempt_closes hr.ctx hx hi hq hp.2.1 hn (fun hv => hg (hp.2.2 hv)) hl hp.1 hat
      rw [ht', ← k2]; exact k1
    · rw [h1.tstep] at ht
      have hlt := lt_of_le_of_ne (Nat.lt_succ_iff.1 ht) ht'
      have := ih t hlt
      unfold stored at this ⊢
      rw [h1.rates, h1.press, rowAt_append_lt (by rw [hi.rlen]; omega), rowAt_append_lt (by rw [hi.plen]; omega), rowAt_append_lt (by rw [hi.plen]; omega)]
      exact this
  | again hh hat hp ih =>
    obtain ⟨_, _, _, _, _, _, _, _, h1⟩ := attempted hr.ctx.lower hr.ctx.wf (hr.inv hh) hat
    obtain ⟨b1, b2, b3⟩ := back_attempted (hr.inv hh) h1
    unfold stored at ih ⊢
    rw [b1, b2, b3]; exact ih
  | look hh hat ih =>
    obtain ⟨-, vA, bV, res, sM, rfl⟩ := assemble_frame hat
    exact ih
  | clock n t _ ih => exact ih

/-- **C40**, partial: after any calls of `solve` and `run` on a model with pressure and rate conditions on faces, the sum of the recorded rates of every step is
the change of the stored volume in that step (0 if incompressible, `C40_incompressible_partial`). Missing: steps in which a well leaves its
limit (`C40_released_well`), wells held at pressure 0 (`C40_zero_bottom_hole_pressure`) and gravity with the vectorised assembler, conditions on edges and corners
(by how much: `C40_exact`), and gradients with the symbolic assembler (`C40_gradient_fails`). -/
theorem C40_balance_partial {c : Ctx K} {m0 m : Mdl K} {s : Sol K} {b : List (ℕ × String × K)} (hr : Ready c m0) (hx : Exact c.lin) (hb : Standard c.lower c.e b m0)
    (hon : OnFaces c.e b) (h : Hist c (Sound c.lower c.e b) m0 m s) :
    ∀ t, t < s.tstep → rowSum c.e (rowAt s.rates (t + 1) 0) = stored c.e s (t + 1) t := fun t ht => by
  rw [C40_exact hr hx hb h t ht, lost_zero hon, add_zero]

lemma stored_incompressible {e : Env K} (he : e.WF) (hc : e.comp = false) (s : Sol K) (t t' : ℕ) : stored e s t t' = 0 := by
  rw [stored_eq]
  exact sum_eq_zero fun i _ => by rw [he.rhsI hc, zero_mul]

theorem C40_incompressible_partial {c : Ctx K} {m0 m : Mdl K} {s : Sol K} {b : List (ℕ × String × K)} (hr : Ready c m0) (hx : Exact c.lin) (hb : Standard c.lower c.e b m0)
    (hon : OnFaces c.e b) (hc : c.e.comp = false) (h : Hist c (Sound c.lower c.e b) m0 m s) :
    ∀ t, t < s.tstep → rowSum c.e (rowAt s.rates (t + 1) 0) = 0 := fun t ht => by
  rw [C40_balance_partial hr hx hb hon h t ht, stored_incompressible hr.ctx.wf hc]

/-! ## C41 -/

lemma stored_add (e : Env K) (s : Sol K) (t1 t2 t3 : ℕ) : stored e s t1 t2 + stored e s t2 t3 = stored e s t1 t3 := by
  rw [stored_eq, stored_eq, stored_eq, ← sum_add_distrib]
  exact sum_congr rfl fun i _ => by ring

/-- **C41**, partial (as C40): over any number of steps the sum of all recorded rates of the steps is the change of the stored volume since the start. -/
theorem C41_total_partial {c : Ctx K} {m0 m : Mdl K} {s : Sol K} {b : List (ℕ × String × K)} (hr : Ready c m0) (hx : Exact c.lin) (hb : Standard c.lower c.e b m0)
    (hon : OnFaces c.e b) (h : Hist c (Sound c.lower c.e b) m0 m s) :
    ∀ t, t ≤ s.tstep → ∑ k ∈ range t, rowSum c.e (rowAt s.rates (k + 1) 0) = stored c.e s t 0 := by
  have key := C40_balance_partial hr hx hb hon h
  intro t
  induction t with
  | zero => intro _; rw [stored_eq]; simp
  | succ t ih =>
    intro ht
    rw [sum_range_succ, ih (by omega), key t (by omega), add_comm, stored_add]

/-! ## C42 -/

/-- **C42**, partial: for an incompressible model `check_MB` reports error 0; for a compressible one the incremental error 0 whenever something flows in or out (it divides
by the sum of the rates). -/
theorem C42_error_partial {c : Ctx K} {m0 m : Mdl K} {s : Sol K} {b : List (ℕ × String × K)} (hr : Ready c m0) (hx : Exact c.lin) (hb : Standard c.lower c.e b m0)
    (hon : OnFaces c.e b) (h : Hist c (Sound c.lower c.e b) m0 m s) (ht : 0 < s.tstep) (dt : K)
    (hflow : c.e.comp = true → rowSum c.e (rowAt s.rates s.tstep 0) ≠ 0) : (checkMB c.e dt s).1 = some 0 := by
  have key := C40_balance_partial hr hx hb hon h (s.tstep - 1) (by omega)
  rw [Nat.sub_add_cancel ht] at key
  unfold checkMB
  cases hc : c.e.comp
  · simp only [Bool.false_eq_true, if_false]
    rw [key, stored_incompressible hr.ctx.wf hc]
  · simp only [if_true]
    rw [if_neg (hflow hc), ← key, div_self (hflow hc)]
    simp

/-- When nothing flows the incremental error is a division of zero by zero. -/
theorem C42_no_flow {c : Ctx K} {m0 m : Mdl K} {s : Sol K} {b : List (ℕ × String × K)} (hr : Ready c m0) (hx : Exact c.lin) (hb : Standard c.lower c.e b m0)
    (hon : OnFaces c.e b) (h : Hist c (Sound c.lower c.e b) m0 m s) (ht : 0 < s.tstep) (dt : K) (hc : c.e.comp = true)
    (hflow : rowSum c.e (rowAt s.rates s.tstep 0) = 0) : (checkMB c.e dt s).1 = none ∧ stored c.e s s.tstep (s.tstep - 1) = 0 := by
  have key := C40_balance_partial hr hx hb hon h (s.tstep - 1) (by omega)
  rw [Nat.sub_add_cancel ht] at key
  unfold checkMB
  rw [hc]
  simp only [if_true]
  rw [if_pos hflow, ← key]
  exact ⟨rfl, hflow⟩

/-- **C42 fails** for the cumulative error of every compressible model and history: it is never the error. When the balance closes it is the total
of the steps' rates over `tstep` times that total plus the rates stored before the first step; if none are stored, exactly `1/tstep`. -/
theorem C42_cumulative {c : Ctx K} {m0 m : Mdl K} {s : Sol K} {b : List (ℕ × String × K)} (hr : Ready c m0) (hx : Exact c.lin) (hb : Standard c.lower c.e b m0)
    (hon : OnFaces c.e b) (h : Hist c (Sound c.lower c.e b) m0 m s) (ht : 0 < s.tstep) (dt : K) (hdt : dt ≠ 0) (hc : c.e.comp = true)
    (h0 : rowSum c.e (rowAt s.rates 0 0) = 0) (hflow : stored c.e s s.tstep 0 ≠ 0) : (checkMB c.e dt s).2 = some (1 / (s.tstep : K)) := by
  have key := C41_total_partial hr hx hb hon h s.tstep le_rfl
  have hlen := (hr.inv h).rlen
  have hsum : (s.rates.map (rowSum c.e)).sum = stored c.e s s.tstep 0 := by
    have : ∀ (l : List (ℕ → K)), (l.map (rowSum c.e)).sum = ∑ i ∈ range l.length, rowSum c.e (rowAt l i 0) := by
      intro l
      induction l with
      | nil => simp
      | cons a l ih => rw [List.map_cons, List.sum_cons, List.length_cons, sum_range_succ', ih, add_comm]; rfl
    rw [this, hlen, sum_range_succ', key, h0, add_zero]
  have hT : (s.tstep : K) ≠ 0 := by exact_mod_cast ht.ne'
  unfold checkMB
  rw [hc]
  simp only [if_true]
  rw [hsum, if_neg (mul_ne_zero (mul_ne_zero hdt hT) hflow)]
  have hnum : (c.e.ids.map fun id => c.e.rhs id * dt * ((rowAt s.press s.tstep none id).getD 0 - (rowAt s.press 0 none id).getD 0)).sum = dt * stored c.e s s.tstep 0 := by
    unfold stored
    rw [← List.sum_map_mul_left]
    congr 1
    exact List.map_congr_left fun id _ => by ring
  rw [hnum]
  congr 1
  field_simp

/-! ## Instances -/

lemma ex_sound {m m' : Mdl ℚ} {comp vect : Bool} {b : List (ℕ × String × ℚ)} (hro : RatesOnly (exC comp 0 []).lower b) (h : Calm vect m m') :
    Sound (exC comp 0 []).lower (exC comp 0 []).e b vect m m' := ⟨h, fun _ => ex_flat comp, fun _ => hro⟩

lemma exA_standard : Standard (exC true 0 []).lower (exC true 0 []).e [(0, "pressure", 10), (3, "rate", 1)] exA := exMdl_standard (by decide +kernel)

/-- Whether a boundary cell has one cell behind it. -/
def faceB (e : Env ℚ) (b : ℕ) : Bool := match e.transC b false with | .ok [_] => true | _ => false

lemma onFaces_of {e : Env ℚ} {b : List (ℕ × String × ℚ)} (h : (b.all fun x => faceB e x.1) = true) : OnFaces e b := by
  intro x hx
  have := List.all_eq_true.1 h x hx
  unfold faceB at this
  split at this
  · rename_i y hy; exact ⟨y.1, y.2, hy⟩
  · cases this

example (vect : Bool) : ∃ m s, Hist (exC true 0 []) (Sound (exC true 0 []).lower (exC true 0 []).e [(0, "pressure", 10), (3, "rate", 1)]) exA m s ∧ s.tstep = 3 ∧
    (∀ t, t < 3 → rowSum (exC true 0 []).e (rowAt s.rates (t + 1) 0) = stored (exC true 0 []).e s (t + 1) t) ∧
    rowSum (exC true 0 []).e (rowAt s.rates 3 0) = -202 / 539 ∧ (checkMB (exC true 0 []).e 1 s).1 = some 0 := by
  have ht : (exRun (exC true 0 []) vect 3 exA).2.tstep = 3 := by cases vect <;> decide +kernel
  have hro : RatesOnly (exC true 0 []).lower [(0, "pressure", (10 : ℚ)), (3, "rate", 1)] :=
    all_of (p := fun x : ℕ × String × ℚ => x.2.1 ≠ "pressure" → (exC true 0 []).lower x.2.1 ∈ ["rate", "q"]) (by decide +kernel)
  have h := (exA_calm vect).weaken (Q := Sound (exC true 0 []).lower (exC true 0 []).e [(0, "pressure", 10), (3, "rate", 1)]) fun _ _ _ h => ex_sound hro h
  refine ⟨_, _, h, ht, ?_, ?_, ?_⟩
  · have := C40_balance_partial exA_ready cramer_exact exA_standard (onFaces_of (by decide +kernel)) h
    rw [ht] at this; exact this
  · cases vect <;> decide +kernel
  · exact C42_error_partial exA_ready cramer_exact exA_standard (onFaces_of (by decide +kernel)) h (by rw [ht]; norm_num) 1
      (fun _ => by cases vect <;> decide +kernel)

/-- **C40 fails** in the step after a well leaves its limit: what is recorded is not what was stored. -/
theorem C40_released_well : ∃ (c : Ctx ℚ) (m0 m : Mdl ℚ) (s : Sol ℚ) (b : List (ℕ × String × ℚ)), Ready c m0 ∧ Exact c.lin ∧ Standard c.lower c.e b m0 ∧ OnFaces c.e b ∧
    RatesOnly c.lower b ∧ c.e.Level ∧ (∀ w, w ∈ m0.wells → w.2.pwfsp ≠ some 0) ∧ Hist c Any m0 m s ∧
    rowSum c.e (rowAt s.rates s.tstep 0) ≠ stored c.e s s.tstep (s.tstep - 1) :=
  ⟨exC true 0 [], exRel, _, _, [(0, "pressure", 16)], exRel_ready, cramer_exact, exMdl_standard (by decide +kernel), onFaces_of (by decide +kernel),
    all_of (p := fun x : ℕ × String × ℚ => x.2.1 ≠ "pressure" → (exC true 0 []).lower x.2.1 ∈ ["rate", "q"]) (by decide +kernel), ex_level _,
    all_of (p := fun w : ℕ × Well ℚ => w.2.pwfsp ≠ some 0) (by decide +kernel), exRun_any exRel_ready true 2, by decide +kernel⟩

/-- **C40 fails** with a well held at bottom-hole pressure 0 (vectorised): 2/3 is recorded, −1 is stored. -/
theorem C40_zero_bottom_hole_pressure : ∃ (c : Ctx ℚ) (m0 m : Mdl ℚ) (s : Sol ℚ), Ready c m0 ∧ Exact c.lin ∧ Standard c.lower c.e [] m0 ∧ c.e.Level ∧ Hist c Any m0 m s ∧
    rowSum c.e (rowAt s.rates s.tstep 0) = 2 / 3 ∧ stored c.e s s.tstep (s.tstep - 1) = -1 :=
  ⟨exC true 0 [], exNull, _, _, exNull_ready, cramer_exact, exMdl_standard (by decide +kernel), ex_level _, exRun_any exNull_ready true 1, by decide +kernel, by decide +kernel⟩

/-- **C42 fails**: the cumulative error reported after 2 steps is not 0 although everything balances: no rates stored before the first step, it is 1/2. -/
theorem C42_cumulative_fails : ∃ (c : Ctx ℚ) (m0 m : Mdl ℚ) (s : Sol ℚ), Ready c m0 ∧ Exact c.lin ∧ Hist c Calm m0 m s ∧ s.tstep = 2 ∧
    (∀ t, t < 2 → rowSum c.e (rowAt s.rates (t + 1) 0) = stored c.e s (t + 1) t) ∧ (checkMB c.e 1 s).2 = some (1 / 2) := by
  have h : Hist (exC true 0 []) Calm exP (exRun (exC true 0 []) true 2 exP).1 (exRun (exC true 0 []) true 2 exP).2 := exRun_hist exP_ready (by decide +kernel)
  refine ⟨exC true 0 [], exP, _, _, exP_ready, cramer_exact, h, by decide +kernel, ?_, by decide +kernel⟩
  intro t ht
  interval_cases t <;> decide +kernel

end RF.Fdm
