import Verif.Fdm.PropsStable
import Verif.Fdm.PropsWells
/-!
# C86: under constant conditions pressures keep the direction in which they move

Once all pressures have fallen (risen) in one step, they fall (rise) in every later step; a reservoir that starts at one pressure and is only drawn from falls from the beginning on, one that is
only fed rises. The rates of wells move the other way. An incompressible reservoir is steady from the first step on.
-/
set_option linter.unusedSectionVars false
namespace RF.Fdm
open RF RF.Dims Finset

variable {K : Type} [Field K] [LinearOrder K] [IsStrictOrderedRing K]

/-! ## Specification -/

/-- Whether a quantity that goes from `p` to `q` does not fall (`up`) or does not rise. -/
def Moves (up : Bool) (p q : K) : Prop := if up then p ≤ q else q ≤ p

/-- Between steps `j` and `j + 1` the pressures of all cells move in the given direction. -/
def Trend (up : Bool) (c : Ctx K) (s : Sol K) (j : ℕ) : Prop :=
  ∀ id, id ∈ c.e.ids → ∃ p q, s.at j id = some p ∧ s.at (j + 1) id = some q ∧ Moves up p q

/-- Nothing holds a pressure above `P` or injects: boundary pressures and bottom-hole pressures are at most `P`, rates and gradients at most zero. -/
structure Draws (P : K) (m : Mdl K) : Prop where
  press : ∀ b, b ∈ m.bdict → b.2.1 = "pressure" → b.2.2 ≤ P
  rate : ∀ b, b ∈ m.bdict → b.2.1 ≠ "pressure" → b.2.2 ≤ 0
  target : ∀ w q, w ∈ m.wells → w.2.qsp = some q → q ≤ 0
  limit : ∀ w p, w ∈ m.wells → w.2.pwfsp = some p → p ≤ P

/-- Nothing holds a pressure below `P` or produces: boundary pressures and the pressures of wells without target rate are at least `P`, rates and gradients at least zero. -/
structure Feeds (P : K) (m : Mdl K) : Prop where
  press : ∀ b, b ∈ m.bdict → b.2.1 = "pressure" → P ≤ b.2.2
  rate : ∀ b, b ∈ m.bdict → b.2.1 ≠ "pressure" → 0 ≤ b.2.2
  target : ∀ w q, w ∈ m.wells → w.2.qsp = some q → 0 ≤ q
  limit : ∀ w p, w ∈ m.wells → w.2.qsp = none → w.2.pwfsp = some p → P ≤ p

/-! ## One step -/

lemma trend_step {c : Ctx K} {m0 m m1 m2 : Mdl K} {s s1 s2 : Sol K} {vect up : Bool} {f : ℕ} (hr : Ready c m0) (hx : Exact c.lin) (hf : vect = true → c.e.Flat)
    (han : Anchored c.e m0) (hh : Hist c Calm m0 m s) (hP : SolveAll c Calm f vect m s) (hs : solve c f vect true m s = .ok (m1, s1))
    (hP' : SolveAll c Calm f vect m1 s1) (hs' : solve c f vect true m1 s1 = .ok (m2, s2)) (hb : c.e.comp = true → Trend up c s1 s.tstep) : Trend up c s2 s1.tstep := by
  have hh1 := hh.solve hr.ctx.lower hr.ctx.wf hr.started.mdl hP hs
  obtain ⟨m1', s1', a1, a2, a3, a4, a5, a6⟩ := solve_last hr.ctx.lower hr.ctx.wf hr.started.mdl hh hP hs
  obtain ⟨n1, t1, b1, b2, b3, b4, b5, b6⟩ := solve_last hr.ctx.lower hr.ctx.wf hr.started.mdl hh1 hP' hs'
  obtain ⟨_, _, _, _, _, _, _, _, h1⟩ := attempted hr.ctx.lower hr.ctx.wf (hr.inv a1) a5
  obtain ⟨_, _, _, _, _, _, _, _, h2⟩ := attempted hr.ctx.lower hr.ctx.wf (hr.inv b1) b5
  have es : s1.tstep = s.tstep + 1 := by rw [h1.tstep, a4]
  have et : s2.tstep = s1.tstep + 1 := by rw [h2.tstep, b4]
  have old : c.e.comp = true → ∀ i, i < c.e.n → Moves up (s1'.inner c.e s1'.tstep i) (t1.inner c.e t1.tstep i) := fun hc i hin => by
    obtain ⟨p, q, k1, k2, k3⟩ := hb hc _ (at_mem c.e hin)
    unfold Sol.at at k1 k2
    rw [h1.press, rowAt_append_lt (by rw [(hr.inv a1).plen]; omega), a2] at k1
    rw [← es] at k2
    unfold Sol.inner
    rw [a2, a4, b2, b4, k1, k2]; exact k3
  intro id hid
  have hin := idx_lt c.e hid
  have r1 := row_inner hr (hr.inv a1) a5 hin
  have r2 := row_inner hr (hr.inv b1) b5 hin
  rw [at_idx c.e hid] at r1 r2
  refine ⟨_, _, by unfold Sol.at; rw [h2.press, rowAt_append_lt (by rw [(hr.inv b1).plen]; omega), b2]; exact r1, by unfold Sol.at; rw [← et]; exact r2, ?_⟩
  have hw : AtMost m0 m0 := ⟨List.forall₂_same.2 fun _ _ => ⟨rfl, rfl, le_rfl⟩, List.forall₂_same.2 fun _ _ => ⟨rfl, rfl, ⟨rfl, le_rfl⟩, le_rfl⟩⟩
  unfold Moves at old ⊢
  cases up
  · exact attempt_mono hr hr hx hw (fun _ _ _ _ => le_rfl) b1 a1 hf han b5 b6.2 a5 a6 old _ hin
  · exact attempt_mono hr hr hx hw (fun _ _ _ _ => le_rfl) a1 b1 hf han a5 a6.2 b5 b6 old _ hin

/-! ## Runs -/

lemma trend_rows {c : Ctx K} {up : Bool} {s t : Sol K} {j : ℕ} (h : ∀ i, i ≤ j + 1 → ∀ id, rowAt s.press i none id = rowAt t.press i none id) : Trend up c s j ↔ Trend up c t j := by
  unfold Trend Sol.at
  simp only [h j (by omega), h (j + 1) le_rfl]

lemma runLoop_trend {c : Ctx K} {m0 : Mdl K} {vect up : Bool} {f : ℕ} (hr : Ready c m0) (hx : Exact c.lin) (hf : vect = true → c.e.Flat)
    (han : Anchored c.e m0) (k : ℕ) {m m1 : Mdl K} {s s1 : Sol K} (hh : Hist c Calm m0 m s) (hP : SolveAll c Calm f vect m s)
    (hs : solve c f vect true m s = .ok (m1, s1)) (hP' : RunAll c Calm f vect k m1 s1) (hl : (runLoop c f vect k m1 s1).2 = .ok ())
    (hb : c.e.comp = true → Trend up c s1 s.tstep) : ∀ l, s1.tstep ≤ l → l < s1.tstep + k → Trend up c (runLoop c f vect k m1 s1).1.2 l := by
  induction k generalizing m m1 s s1 with
  | zero => intro l h1 h2; omega
  | succ k ih =>
    intro l h1 h2
    unfold runLoop at hl ⊢
    rcases hs2 : solve c f vect true m1 s1 with x | ⟨m2, s2⟩
    · rw [hs2] at hl; cases hl
    rw [hs2] at hl
    have hh1 := hh.solve hr.ctx.lower hr.ctx.wf hr.started.mdl hP hs
    have hh2 := hh1.solve hr.ctx.lower hr.ctx.wf hr.started.mdl hP'.1 hs2
    have ht := trend_step hr hx hf han hh hP hs hP'.1 hs2 hb
    obtain ⟨m1', s1', a1, a2, a3, a4, a5, a6⟩ := solve_last hr.ctx.lower hr.ctx.wf hr.started.mdl hh1 hP'.1 hs2
    obtain ⟨_, _, _, _, _, _, _, _, h3⟩ := attempted hr.ctx.lower hr.ctx.wf (hr.inv a1) a5
    have es : s2.tstep = s1.tstep + 1 := by rw [h3.tstep, a4]
    obtain ⟨-, k2⟩ := runLoop_rows hr k hh2 (hP'.2 _ _ hs2) hl
    by_cases hlt : l = s1.tstep
    · subst hlt
      exact (trend_rows fun i hi id => (k2 i (by omega) id).symm).1 ht
    · exact ih hh1 hP'.1 hs2 (hP'.2 _ _ hs2) hl (fun _ => ht) l (by omega) (by omega)

lemma runLoop_trend_from {c : Ctx K} {m0 : Mdl K} {vect up : Bool} {f : ℕ} (hr : Ready c m0) (hx : Exact c.lin) (hf : vect = true → c.e.Flat)
    (han : Anchored c.e m0) (j k : ℕ) {m : Mdl K} {s : Sol K} (hh : Hist c Calm m0 m s) (hP : RunAll c Calm f vect k m s) (hl : (runLoop c f vect k m s).2 = .ok ())
    (hj : c.e.comp = true → Trend up c (runLoop c f vect k m s).1.2 (s.tstep + j)) : ∀ l, j < l → l < k → Trend up c (runLoop c f vect k m s).1.2 (s.tstep + l) := by
  induction j generalizing k m s with
  | zero =>
    intro l h1 h2
    rcases k with _ | k
    · omega
    unfold runLoop at hl hj ⊢
    rcases hs : solve c f vect true m s with x | ⟨m1, s1⟩
    · rw [hs] at hl; cases hl
    rw [hs] at hl hj
    dsimp only at hj ⊢
    have hh1 := hh.solve hr.ctx.lower hr.ctx.wf hr.started.mdl hP.1 hs
    obtain ⟨m1', s1', a1, a2, a3, a4, a5, a6⟩ := solve_last hr.ctx.lower hr.ctx.wf hr.started.mdl hh hP.1 hs
    obtain ⟨_, _, _, _, _, _, _, _, h3⟩ := attempted hr.ctx.lower hr.ctx.wf (hr.inv a1) a5
    have es : s1.tstep = s.tstep + 1 := by rw [h3.tstep, a4]
    obtain ⟨-, k2⟩ := runLoop_rows hr k hh1 (hP.2 _ _ hs) hl
    exact runLoop_trend hr hx hf han k hh hP.1 hs (hP.2 _ _ hs) hl (fun hc => (trend_rows fun i hi id => k2 i (by omega) id).1 (hj hc)) _ (by omega) (by omega)
  | succ j ih =>
    intro l h1 h2
    rcases k with _ | k
    · omega
    unfold runLoop at hl hj ⊢
    rcases hs : solve c f vect true m s with x | ⟨m1, s1⟩
    · rw [hs] at hl; cases hl
    rw [hs] at hl hj
    dsimp only at hj ⊢
    have hh1 := hh.solve hr.ctx.lower hr.ctx.wf hr.started.mdl hP.1 hs
    obtain ⟨m1', s1', a1, a2, a3, a4, a5, a6⟩ := solve_last hr.ctx.lower hr.ctx.wf hr.started.mdl hh hP.1 hs
    obtain ⟨_, _, _, _, _, _, _, _, h3⟩ := attempted hr.ctx.lower hr.ctx.wf (hr.inv a1) a5
    have es : s1.tstep = s.tstep + 1 := by rw [h3.tstep, a4]
    have := ih k hh1 (hP.2 _ _ hs) hl (fun hc => by rw [es, show s.tstep + 1 + j = s.tstep + (j + 1) by omega]; exact hj hc) (l - 1) (by omega) (by omega)
    rwa [es, show s.tstep + 1 + (l - 1) = s.tstep + l by omega] at this

/-- The table of a run is the one of its loop. -/
lemma run_press {c : Ctx K} {f k : ℕ} {vect : Bool} {el : K} {m : Mdl K} {s : Sol K} (hs : (run c f vect k el m s).2 = .ok ()) :
    (run c f vect k el m s).1.2.press = (runLoop c f vect k m { s with nsteps := s.nsteps + k }).1.2.press ∧
      (run c f vect k el m s).1.2.rates = (runLoop c f vect k m { s with nsteps := s.nsteps + k }).1.2.rates ∧
      (run c f vect k el m s).1.2.tstep = (runLoop c f vect k m { s with nsteps := s.nsteps + k }).1.2.tstep ∧
      (runLoop c f vect k m { s with nsteps := s.nsteps + k }).2 = .ok () := by
  unfold run at hs ⊢
  rcases h1 : runLoop c f vect k m { s with nsteps := s.nsteps + k } with ⟨⟨m1, s1⟩, x | ⟨⟩⟩
  · rw [h1] at hs; cases hs
  · exact ⟨rfl, rfl, rfl, rfl⟩

/-- **C86** (the direction is kept), partial: if all pressures move in one direction between steps `j` and `j + 1` of a run, they do so between all later steps. Wells may reach their limits.
Missing: wells that leave their limit (`C86_released_well_fails`). -/
theorem C86_trend_partial {c : Ctx K} {m0 : Mdl K} (hr : Ready c m0) (hx : Exact c.lin) {vect : Bool} (hf : vect = true → c.e.Flat) (han : Anchored c.e m0) {f k : ℕ} {el : K}
    (hP : RunAll c Calm f vect k m0 { Sol.init m0 with nsteps := (Sol.init m0).nsteps + k }) (hs : (run c f vect k el m0 (Sol.init m0)).2 = .ok ())
    (up : Bool) (j : ℕ) (hj : Trend up c (run c f vect k el m0 (Sol.init m0)).1.2 j) :
    ∀ l, j ≤ l → l < k → Trend up c (run c f vect k el m0 (Sol.init m0)).1.2 l := by
  obtain ⟨hp, -, -, hl⟩ := run_press hs
  have hh : Hist c Calm m0 m0 { Sol.init m0 with nsteps := (Sol.init m0).nsteps + k } := .clock _ (Sol.init m0).ctime .start
  have e : ∀ l, Trend up c (run c f vect k el m0 (Sol.init m0)).1.2 l ↔ Trend up c (runLoop c f vect k m0 { Sol.init m0 with nsteps := (Sol.init m0).nsteps + k }).1.2 l :=
    fun l => trend_rows fun i _ id => by rw [hp]
  intro l h1 h2
  rcases Nat.eq_or_lt_of_le h1 with rfl | h1
  · exact hj
  rw [e] at hj ⊢
  have := runLoop_trend_from hr hx hf han j k hh hP hl (up := up) (fun _ => by rw [show ({ Sol.init m0 with nsteps := (Sol.init m0).nsteps + k } : Sol K).tstep + j = j from Nat.zero_add j]; exact hj) l h1 h2
  rwa [show ({ Sol.init m0 with nsteps := (Sol.init m0).nsteps + k } : Sol K).tstep + l = l from Nat.zero_add l] at this

/-- **C86** (incompressible reservoirs are steady), partial: from step 1 on the pressures stay as they are. -/
theorem C86_steady_partial {c : Ctx K} {m0 : Mdl K} (hr : Ready c m0) (hx : Exact c.lin) {vect : Bool} (hf : vect = true → c.e.Flat) (han : Anchored c.e m0) (hc : c.e.comp = false)
    {f k : ℕ} {el : K} (hP : RunAll c Calm f vect k m0 { Sol.init m0 with nsteps := (Sol.init m0).nsteps + k }) (hs : (run c f vect k el m0 (Sol.init m0)).2 = .ok ()) :
    ∀ l, 0 < l → l < k → ∀ id, id ∈ c.e.ids → ∃ p, (run c f vect k el m0 (Sol.init m0)).1.2.at l id = some p ∧ (run c f vect k el m0 (Sol.init m0)).1.2.at (l + 1) id = some p := by
  obtain ⟨hp, -, -, hl⟩ := run_press hs
  have hh : Hist c Calm m0 m0 { Sol.init m0 with nsteps := (Sol.init m0).nsteps + k } := .clock _ (Sol.init m0).ctime .start
  intro l h1 h2 id hid
  have key : ∀ up, Trend up c (run c f vect k el m0 (Sol.init m0)).1.2 l := fun up => by
    rw [trend_rows (t := (runLoop c f vect k m0 { Sol.init m0 with nsteps := (Sol.init m0).nsteps + k }).1.2) fun i _ id => by rw [hp]]
    have := runLoop_trend_from hr hx hf han 0 k hh hP hl (up := up) (fun h => by rw [hc] at h; cases h) l h1 h2
    rwa [show ({ Sol.init m0 with nsteps := (Sol.init m0).nsteps + k } : Sol K).tstep + l = l from Nat.zero_add l] at this
  obtain ⟨p, q, a1, a2, a3⟩ := key true id hid
  obtain ⟨p', q', b1, b2, b3⟩ := key false id hid
  rw [a1] at b1; rw [a2] at b2
  cases b1; cases b2
  unfold Moves at a3 b3
  have : p = q := le_antisymm (by simpa using a3) (by simpa using b3)
  exact ⟨p, a1, by rw [this]; exact a2⟩

/-! ## The first step -/

lemma listSum_nonpos : ∀ {l : List K}, (∀ x ∈ l, x ≤ 0) → l.sum ≤ 0
  | [], _ => by simp
  | x :: l, h => by
    rw [List.sum_cons]
    linarith [h x (by simp), listSum_nonpos (l := l) fun y hy => h y (by simp [hy])]

/-- The rate the assembler uses for a condition has the sign of the given value. -/
lemma usedRate_sign {c : Ctx K} {m0 m : Mdl K} {s : Sol K} (hr : Ready c m0) (hi : Inv c.e m0 m s) (vect : Bool) {b : ℕ × String × K} (hb : b ∈ m0.bdict) (hp : b.2.1 ≠ "pressure") :
    ∃ a, 0 ≤ a ∧ usedRate vect m s b.1 = a * b.2.2 := by
  rw [usedRate_eq hr.ctx.wf hr.started.mdl hi vect hb hp]
  cases vect
  · exact ⟨1, zero_le_one, by simp⟩
  · exact ⟨_, hr.factor_nonneg hb, hr.factor hb hp⟩

lemma boundaryIn_sign {e : Env K} (he : e.WF) (hl : e.Level) {rate : ℕ → K} {p : K} (i : ℕ) {b : ℕ × String × K} (hb : b.1 ∈ e.bnd) :
    ((b.2.1 = "pressure" → b.2.2 ≤ p) → (b.2.1 ≠ "pressure" → rate b.1 ≤ 0) → boundaryIn e rate p i b ≤ 0) ∧
    ((b.2.1 = "pressure" → p ≤ b.2.2) → (b.2.1 ≠ "pressure" → 0 ≤ rate b.1) → 0 ≤ boundaryIn e rate p i b) := by
  unfold boundaryIn
  rcases he.face b.1 hb with h | ⟨id, T, hid, hT, h⟩
  · rw [h]; simp
  · rw [show e.transC b.1 false = _ from h]
    dsimp only
    rw [level_face hl hb hid, sub_zero]
    split_ifs with ha hp
    · exact ⟨fun h _ => mul_nonpos_of_nonneg_of_nonpos (by linarith) (by linarith [h hp]), fun h _ => mul_nonneg (by linarith) (by linarith [h hp])⟩
    · exact ⟨fun _ h => h hp, fun _ h => h hp⟩
    · exact ⟨fun _ _ => le_rfl, fun _ _ => le_rfl⟩

lemma level_between {e : Env K} (hl : e.Level) {i j : ℕ} (hi : i < e.n) (hj : j < e.n) : e.grav * (e.z (e.at j) - e.z (e.at i)) = 0 := by
  rcases hl with h | h
  · simp [h]
  · rw [h _ _ (.inl (at_mem e hj)) (.inl (at_mem e hi))]; simp

/-- A reservoir at most at pressure `P` that is only drawn from stays at most at `P`. -/
lemma attempt_draws {c : Ctx K} {m0 m m' : Mdl K} {s s' : Sol K} {vect again : Bool} (hr : Ready c m0) (hx : Exact c.lin) (hh : Hist c Calm m0 m s) (hl : c.e.Level)
    (hc : c.e.comp = true) {P : K} (hd : Draws P m0) (hat : attempt c vect m s = .ok (m', s', again)) (hz : vect = true → NoZeroPwf m)
    (hold : ∀ i, i < c.e.n → s.inner c.e s.tstep i ≤ P) : ∀ i, i < c.e.n → s'.inner c.e s'.tstep i ≤ P := by
  obtain ⟨hi, hq⟩ := hr.calm hh
  have he := hr.ctx.wf
  have hT := hr.ctx.grid.network vect
  have hb := step_balance hr.ctx hx hi hq (fun _ => level_flat hl) hz hat
  obtain ⟨i, hi1, hmax⟩ := exists_max_image (range c.e.n) (s'.inner c.e s'.tstep) ⟨0, mem_range.2 he.pos⟩
  have hin := mem_range.1 hi1
  intro j hj
  refine (hmax j (mem_range.2 hj)).trans (not_lt.1 fun hlt => ?_)
  have e0 := hb i hin
  unfold excess outsideIn at e0
  have k1 : ∑ j ∈ range c.e.n, c.e.trans vect i j * (s'.inner c.e s'.tstep j - s'.inner c.e s'.tstep i - c.e.grav * (c.e.z (c.e.at j) - c.e.z (c.e.at i))) ≤ 0 :=
    sum_nonpos fun j hj => by
      rw [level_between hl hin (mem_range.1 hj), sub_zero]
      exact mul_nonpos_of_nonneg_of_nonpos (hT.nonneg i j hin (mem_range.1 hj)) (by linarith [hmax j hj])
  have k2 : (m.bdict.map (boundaryIn c.e (usedRate vect m s) (s'.inner c.e s'.tstep i) i)).sum ≤ 0 :=
    listSum_nonpos fun y hy => by
      obtain ⟨b, hb1, rfl⟩ := List.mem_map.1 hy
      have hb0 : b ∈ m0.bdict := by rw [← hi.same.bdict]; exact hb1
      refine (boundaryIn_sign he hl i (hi.mdl.bmem b hb1)).1 (fun hp => (hd.press b hb0 hp).trans hlt.le) fun hp => ?_
      obtain ⟨a, h1, h2⟩ := usedRate_sign hr hi vect hb0 hp
      rw [h2]; exact mul_nonpos_of_nonneg_of_nonpos h1 (hd.rate b hb0 hp)
  have k3 : (m.wells.map (wellIn c.e (s'.inner c.e s'.tstep i) i)).sum ≤ 0 :=
    listSum_nonpos fun y hy => by
      obtain ⟨w, hw1, rfl⟩ := List.mem_map.1 hy
      obtain ⟨x, hx0, h1⟩ := (forall2_mem hi.same.wells).1 w hw1
      have hw := hi.mdl.well w hw1
      unfold wellIn
      split_ifs
      · rcases hcon : w.2.con with _ | _ | _
        · exact absurd hcon (hq.cfg w hw1)
        · unfold wellFlow
          rw [hcon, hq.tame w hw1 hcon]
          rcases hqs : w.2.qsp with _ | qs
          · simp
          · exact hd.target x qs hx0 (by rw [← h1.2.2.2]; exact hqs)
        · have : wellFlow c.e w.2 (s'.inner c.e s'.tstep i) = windex c.e w.2 * (w.2.pwfsp.getD 0 - s'.inner c.e s'.tstep i) := by
            unfold wellFlow windex; rw [hcon, hw.lim hcon]
          obtain ⟨p, hp⟩ := hw.sp
          rw [this, hp, Option.getD_some]
          have := hd.limit x p hx0 (by rw [← h1.2.2.1]; exact hp)
          exact mul_nonpos_of_nonneg_of_nonpos (windex_pos he.B he.mu hw).le (by linarith)
      · exact le_rfl
  have k4 := mul_pos (he.rhsC hc _ (at_mem c.e hin)) (show 0 < s'.inner c.e s'.tstep i - s.inner c.e s.tstep i by linarith [hold i hin])
  linarith

/-- A reservoir at least at pressure `P` that is only fed stays at least at `P`. -/
lemma attempt_feeds {c : Ctx K} {m0 m m' : Mdl K} {s s' : Sol K} {vect : Bool} (hr : Ready c m0) (hx : Exact c.lin) (hh : Hist c Calm m0 m s) (hl : c.e.Level)
    (hc : c.e.comp = true) {P : K} (hd : Feeds P m0) (hat : attempt c vect m s = .ok (m', s', false)) (hP : Calm vect m m')
    (hold : ∀ i, i < c.e.n → P ≤ s.inner c.e s.tstep i) : ∀ i, i < c.e.n → P ≤ s'.inner c.e s'.tstep i := by
  obtain ⟨hi, hq⟩ := hr.calm hh
  have he := hr.ctx.wf
  have hT := hr.ctx.grid.network vect
  have hb := step_balance hr.ctx hx hi hq (fun _ => level_flat hl) hP.2 hat
  obtain ⟨n1, t1, A, d, x, p, r', ps, ha⟩ := attempted hr.ctx.lower he hi hat
  have hdone := (ha.done rfl).1
  obtain ⟨i, hi1, hmin⟩ := exists_min_image (range c.e.n) (s'.inner c.e s'.tstep) ⟨0, mem_range.2 he.pos⟩
  have hin := mem_range.1 hi1
  intro j hj
  refine (not_lt.1 fun hlt => ?_ : P ≤ s'.inner c.e s'.tstep i).trans (hmin j (mem_range.2 hj))
  have e0 := hb i hin
  unfold excess outsideIn at e0
  have k1 : 0 ≤ ∑ j ∈ range c.e.n, c.e.trans vect i j * (s'.inner c.e s'.tstep j - s'.inner c.e s'.tstep i - c.e.grav * (c.e.z (c.e.at j) - c.e.z (c.e.at i))) :=
    sum_nonneg fun j hj => by
      rw [level_between hl hin (mem_range.1 hj), sub_zero]
      exact mul_nonneg (hT.nonneg i j hin (mem_range.1 hj)) (by linarith [hmin j hj])
  have k2 : 0 ≤ (m.bdict.map (boundaryIn c.e (usedRate vect m s) (s'.inner c.e s'.tstep i) i)).sum :=
    List.sum_nonneg fun y hy => by
      obtain ⟨b, hb1, rfl⟩ := List.mem_map.1 hy
      have hb0 : b ∈ m0.bdict := by rw [← hi.same.bdict]; exact hb1
      refine (boundaryIn_sign he hl i (hi.mdl.bmem b hb1)).2 (fun hp => hlt.le.trans (hd.press b hb0 hp)) fun hp => ?_
      obtain ⟨a, h1, h2⟩ := usedRate_sign hr hi vect hb0 hp
      rw [h2]; exact mul_nonneg h1 (hd.rate b hb0 hp)
  have k3 : 0 ≤ (m.wells.map (wellIn c.e (s'.inner c.e s'.tstep i) i)).sum :=
    List.sum_nonneg fun y hy => by
      obtain ⟨w, hw1, rfl⟩ := List.mem_map.1 hy
      obtain ⟨x0, hx0, h1⟩ := (forall2_mem hi.same.wells).1 w hw1
      have hw := hi.mdl.well w hw1
      unfold wellIn
      split_ifs with hid
      · obtain ⟨y, hy, h7, bb, h8⟩ := (forall2_mem hdone).2 w hw1
        have hpx : (p w.1).getD 0 = s'.inner c.e s'.tstep i := by
          rw [ha.inner he hi hin, ha.peq, hid, newRow_at he.nodup _ _ hin]; rfl
        rw [hpx] at h8
        have hrel := hP.1 w y hw1 hy h7.symm
        rw [(done_flow he.B he.mu hw (hq.cfg w hw1) (hq.tame w hw1) h8 hrel).1, done_best he.B he.mu hw (hq.cfg w hw1) (hq.tame w hw1) h8 hrel]
        unfold bestRate
        rcases hqs : w.2.qsp with _ | qs
        · obtain ⟨p, hp⟩ := hw.sp
          dsimp only
          rw [hp, Option.getD_some]
          have := hd.limit x0 p hx0 (by rw [← h1.2.2.2]; exact hqs) (by rw [← h1.2.2.1]; exact hp)
          exact mul_nonneg (windex_pos he.B he.mu hw).le (by linarith)
        · exact (hd.target x0 qs hx0 (by rw [← h1.2.2.2]; exact hqs)).trans (le_max_left _ _)
      · exact le_rfl
  have k4 := mul_pos (he.rhsC hc _ (at_mem c.e hin)) (show 0 < s.inner c.e s.tstep i - s'.inner c.e s'.tstep i by linarith [hold i hin])
  linarith

lemma run_first {c : Ctx K} {m0 : Mdl K} (hr : Ready c m0) (hx : Exact c.lin) {vect up : Bool} (hl : c.e.Level) (hc : c.e.comp = true) {f k : ℕ} {el : K}
    (hP : RunAll c Calm f vect k m0 { Sol.init m0 with nsteps := (Sol.init m0).nsteps + k }) (hs : (run c f vect k el m0 (Sol.init m0)).2 = .ok ()) (hk : 0 < k) {P : K}
    (h0 : ∀ id, id ∈ c.e.ids → m0.initP id = some P) (hd : up = true → Feeds P m0) (hd' : up = false → Draws P m0) : Trend up c (run c f vect k el m0 (Sol.init m0)).1.2 0 := by
  obtain ⟨hp, -, -, hlo⟩ := run_press hs
  rw [trend_rows (t := (runLoop c f vect k m0 { Sol.init m0 with nsteps := (Sol.init m0).nsteps + k }).1.2) fun i _ id => by rw [hp]]
  have hh : Hist c Calm m0 m0 { Sol.init m0 with nsteps := (Sol.init m0).nsteps + k } := .clock _ (Sol.init m0).ctime .start
  generalize hS : ({ Sol.init m0 with nsteps := (Sol.init m0).nsteps + k } : Sol K) = S at *
  have hS1 : S.tstep = 0 := by rw [← hS]; rfl
  have hS2 : S.press = [m0.initP] := by rw [← hS]; rfl
  rcases k with _ | k
  · omega
  unfold runLoop at hlo ⊢
  rcases h1 : solve c f vect true m0 S with x | ⟨m1, s1⟩
  · rw [h1] at hlo; cases hlo
  rw [h1] at hlo
  dsimp only at hlo ⊢
  have hh1 := hh.solve hr.ctx.lower hr.ctx.wf hr.started.mdl hP.1 h1
  obtain ⟨m1', s1', a1, a2, a3, a4, a5, a6⟩ := solve_last hr.ctx.lower hr.ctx.wf hr.started.mdl hh hP.1 h1
  obtain ⟨_, _, _, _, _, _, _, _, h2⟩ := attempted hr.ctx.lower hr.ctx.wf (hr.inv a1) a5
  have es : s1.tstep = 1 := by rw [h2.tstep, a4, hS1]
  have hk := (runLoop_rows hr k hh1 (hP.2 _ _ h1) hlo).2
  rw [trend_rows (t := s1) fun i hi id => hk i (by omega) id]
  have hold : ∀ i, i < c.e.n → s1'.inner c.e s1'.tstep i = P := fun i hin => by
    unfold Sol.inner
    rw [a2, a4, hS1, hS2]
    show ((m0.initP (c.e.at i)).getD 0) = P
    rw [h0 _ (at_mem c.e hin)]; rfl
  intro id hid
  have hin := idx_lt c.e hid
  have r1 := row_inner hr (hr.inv a1) a5 hin
  rw [at_idx c.e hid, es] at r1
  refine ⟨P, _, ?_, r1, ?_⟩
  · unfold Sol.at
    rw [h2.press, rowAt_append_lt (by rw [(hr.inv a1).plen]; omega), a2, hS2]
    exact h0 id hid
  rw [← es]
  unfold Moves
  cases up
  · exact attempt_draws hr hx a1 hl hc (hd' rfl) a5 a6.2 (fun i hi => (hold i hi).le) _ hin
  · exact attempt_feeds hr hx a1 hl hc (hd rfl) a5 a6 (fun i hi => (hold i hi).ge) _ hin

/-- **C86** (drawdown), partial: a reservoir that starts at one pressure and is only drawn from falls in every cell and every step. -/
theorem C86_drawdown_partial {c : Ctx K} {m0 : Mdl K} (hr : Ready c m0) (hx : Exact c.lin) {vect : Bool} (hl : c.e.Level) (hc : c.e.comp = true) {f k : ℕ} {el : K}
    (hP : RunAll c Calm f vect k m0 { Sol.init m0 with nsteps := (Sol.init m0).nsteps + k }) (hs : (run c f vect k el m0 (Sol.init m0)).2 = .ok ()) (P : K)
    (h0 : ∀ id, id ∈ c.e.ids → m0.initP id = some P) (hd : Draws P m0) : ∀ l, l < k → Trend false c (run c f vect k el m0 (Sol.init m0)).1.2 l := fun l h =>
  C86_trend_partial hr hx (fun _ => level_flat hl) (.inl hc) hP hs false 0 (run_first hr hx hl hc hP hs (by omega) h0 (by simp) fun _ => hd) l (by omega) h

/-- **C86** (build-up), partial: a reservoir that starts at one pressure and is only fed rises in every cell and every step. -/
theorem C86_buildup_partial {c : Ctx K} {m0 : Mdl K} (hr : Ready c m0) (hx : Exact c.lin) {vect : Bool} (hl : c.e.Level) (hc : c.e.comp = true) {f k : ℕ} {el : K}
    (hP : RunAll c Calm f vect k m0 { Sol.init m0 with nsteps := (Sol.init m0).nsteps + k }) (hs : (run c f vect k el m0 (Sol.init m0)).2 = .ok ()) (P : K)
    (h0 : ∀ id, id ∈ c.e.ids → m0.initP id = some P) (hd : Feeds P m0) : ∀ l, l < k → Trend true c (run c f vect k el m0 (Sol.init m0)).1.2 l := fun l h =>
  C86_trend_partial hr hx (fun _ => level_flat hl) (.inl hc) hP hs true 0 (run_first hr hx hl hc hP hs (by omega) h0 (fun _ => hd) (by simp)) l (by omega) h

/-! ## Rates of wells -/

/-- What is recorded for a well after a step: the larger (with its sign) of the target rate and the rate at the limit, at the pressure found. -/
lemma hist_best {c : Ctx K} {m0 m : Mdl K} {s : Sol K} (hr : Ready c m0) (hh : Hist c Calm m0 m s) :
    ∀ t, 0 < t → t ≤ s.tstep → ∀ w, w ∈ m0.wells → rowAt s.rates t 0 w.1 = bestRate c.e w.2 ((s.at t w.1).getD 0) := by
  induction hh with
  | start => exact fun t h1 h2 => absurd h2 (by show ¬ t ≤ 0; omega)
  | @step m s vect m' s' h ha hp ih =>
    obtain ⟨hi, hq⟩ := hr.calm h
    obtain ⟨_, _, _, _, _, p, r', _, h2⟩ := attempted hr.ctx.lower hr.ctx.wf hi ha
    intro t t1 t2 w hw
    rw [h2.tstep] at t2
    unfold Sol.at
    rcases Nat.lt_or_ge t (s.tstep + 1) with h | h
    · rw [h2.rates, h2.press, rowAt_append_lt (by rw [hi.rlen]; omega), rowAt_append_lt (by rw [hi.plen]; omega)]
      exact ih t t1 (by omega) w hw
    · have et : t = s.tstep + 1 := by omega
      subst et
      rw [h2.rates, h2.press, rowAt_append_eq hi.plen, rowAt_append_eq hi.rlen]
      obtain ⟨x, hx, h1⟩ := (forall2_mem hi.same.wells).2 w hw
      obtain ⟨y, hy, h7, b, h8⟩ := (forall2_mem (h2.done rfl).1).2 x hx
      have hb := done_best hr.ctx.wf.B hr.ctx.wf.mu (hi.mdl.well x hx) (hq.cfg x hx) (hq.tame x hx) h8 (hp.1 x y hx hy h7.symm)
      rw [show w.1 = x.1 from h1.1.symm, hb]
      unfold bestRate windex
      rw [h1.2.1, h1.2.2.1, h1.2.2.2]
  | @again m s vect m' s' h ha hp ih =>
    obtain ⟨_, _, _, _, _, _, _, _, h2⟩ := attempted hr.ctx.lower hr.ctx.wf (hr.inv h) ha
    obtain ⟨e1, e2, e3⟩ := back_attempted (hr.inv h) h2
    unfold Sol.at at ih ⊢
    rw [e1, e2, e3]
    exact ih
  | @look m s vect m' s' A d h ha ih =>
    obtain ⟨-, vA, bV, res, sM, rfl⟩ := assemble_frame ha
    exact ih
  | clock n t h ih => exact ih

lemma best_anti {e : Env K} (hB : 0 < e.B) (hmu : 0 < e.mu) {w : Well K} (hw : WellOK w) {p q : K} (h : p ≤ q) : bestRate e w q ≤ bestRate e w p := by
  have h1 : windex e w * (w.pwfsp.getD 0 - q) ≤ windex e w * (w.pwfsp.getD 0 - p) := mul_le_mul_of_nonneg_left (by linarith) (windex_pos hB hmu hw).le
  unfold bestRate
  rcases w.qsp with _ | qs
  · exact h1
  · exact max_le_max le_rfl h1

lemma run_rates {c : Ctx K} {f : ℕ} {vect : Bool} {k : ℕ} {el : K} {m : Mdl K} {s : Sol K} (hs : (run c f vect k el m s).2 = .ok ()) :
    (run c f vect k el m s).1.2.tstep = (runLoop c f vect k m { s with nsteps := s.nsteps + k }).1.2.tstep := (run_press hs).2.2.1

/-- **C86** (rates), partial: where the pressures fall between two steps (neither of them step 0) the rates of all wells, which are negative for production, rise, and where they rise the rates fall:
a producer never gains while the reservoir declines. -/
theorem C86_rates_partial {c : Ctx K} {m0 : Mdl K} (hr : Ready c m0) {vect : Bool} {f k : ℕ} {el : K}
    (hP : RunAll c Calm f vect k m0 { Sol.init m0 with nsteps := (Sol.init m0).nsteps + k }) (hs : (run c f vect k el m0 (Sol.init m0)).2 = .ok ())
    (up : Bool) (j : ℕ) (h1 : 0 < j) (h2 : j < k) (hj : Trend up c (run c f vect k el m0 (Sol.init m0)).1.2 j) :
    ∀ w, w ∈ m0.wells → Moves (!up) (rowAt (run c f vect k el m0 (Sol.init m0)).1.2.rates j 0 w.1) (rowAt (run c f vect k el m0 (Sol.init m0)).1.2.rates (j + 1) 0 w.1) := by
  have hh := Hist.run hr.ctx.lower hr.ctx.wf hr.started.mdl k el .start hP
  have hk : (run c f vect k el m0 (Sol.init m0)).1.2.tstep = k := by
    obtain ⟨-, -, -, hl⟩ := run_press hs
    have e1 := (runLoop_rows hr k (.clock _ (Sol.init m0).ctime .start) hP hl).1
    rw [run_rates hs, e1]
    exact Nat.zero_add k
  intro w hw
  have hb := hist_best hr hh
  rw [hb j h1 (by omega) w hw, hb (j + 1) (by omega) (by omega) w hw]
  obtain ⟨p, q, hp, hq, hpq⟩ := hj w.1 (hr.started.mdl.wmem w hw)
  rw [hp, hq]
  have he := hr.ctx.wf
  unfold Moves at hpq ⊢
  cases up
  · exact best_anti he.B he.mu (hr.started.mdl.well w hw) hpq
  · exact best_anti he.B he.mu (hr.started.mdl.well w hw) hpq

/-! ## Examples and the exception -/

/-- A reservoir at 9 whose left boundary is held at 8 and whose well produces 4 until its limit of 3 is reached. -/
def exDown : Mdl ℚ := exMdl true 0 [] (some 9) [(0, "pressure", 8), (3, "rate", -1)] [(2, { q := some (-4), pwf := some 3, r := some 1 })]

/-- A reservoir at 5 that is fed by both boundaries and an injector. -/
def exUp : Mdl ℚ := exMdl true 0 [] (some 5) [(0, "pressure", 10), (3, "rate", 1)] [(2, { q := some 2, pwf := some 3, r := some 1 })]

lemma exDown_ready : Ready (exC true 0 []) exDown := exMdl_ready (by decide +kernel)
lemma exUp_ready : Ready (exC true 0 []) exUp := exMdl_ready (by decide +kernel)

def drawsB (P : ℚ) (m : Mdl ℚ) : Bool :=
  m.bdict.all (fun b => decide ((b.2.1 = "pressure" → b.2.2 ≤ P) ∧ (b.2.1 ≠ "pressure" → b.2.2 ≤ 0))) && m.wells.all fun w => decide (w.2.qsp.getD 0 ≤ 0 ∧ w.2.pwfsp.getD P ≤ P)

def feedsB (P : ℚ) (m : Mdl ℚ) : Bool :=
  m.bdict.all (fun b => decide ((b.2.1 = "pressure" → P ≤ b.2.2) ∧ (b.2.1 ≠ "pressure" → 0 ≤ b.2.2))) && m.wells.all fun w => decide (0 ≤ w.2.qsp.getD 0 ∧ (w.2.qsp = none → P ≤ w.2.pwfsp.getD P))

lemma draws_of {P : ℚ} {m : Mdl ℚ} (h : drawsB P m = true) : Draws P m := by
  simp only [drawsB, Bool.and_eq_true, List.all_eq_true, decide_eq_true_eq] at h
  exact ⟨fun b hb => (h.1 b hb).1, fun b hb => (h.1 b hb).2, fun w q hw hq => by simpa [hq] using (h.2 w hw).1, fun w p hw hp => by simpa [hp] using (h.2 w hw).2⟩

lemma feeds_of {P : ℚ} {m : Mdl ℚ} (h : feedsB P m = true) : Feeds P m := by
  simp only [feedsB, Bool.and_eq_true, List.all_eq_true, decide_eq_true_eq] at h
  exact ⟨fun b hb => (h.1 b hb).1, fun b hb => (h.1 b hb).2, fun w q hw hq => by simpa [hq] using (h.2 w hw).1, fun w p hw h0 hp => by simpa [hp] using (h.2 w hw).2 h0⟩

lemma exDown_falls (vect : Bool) : ∀ l, l < 4 → Trend false (exC true 0 []) (run (exC true 0 []) 10 vect 4 0 exDown (Sol.init exDown)).1.2 l :=
  C86_drawdown_partial exDown_ready cramer_exact (ex_level _) (by decide +kernel) (runCalmB_all (by cases vect <;> decide +kernel)) (isOk_unit (by cases vect <;> decide +kernel)) 9
    (all_of (p := fun id => exDown.initP id = some 9) (by decide +kernel)) (draws_of (by decide +kernel))

/-- The well reaches its limit on the way, and the pressures do fall. -/
example (vect : Bool) : (run (exC true 0 []) 10 vect 4 0 exDown (Sol.init exDown)).1.1.wells.map (fun w => w.2.con) = [some .pwf] ∧
    (run (exC true 0 []) 10 vect 4 0 exDown (Sol.init exDown)).1.2.at 0 2 ≠ (run (exC true 0 []) 10 vect 4 0 exDown (Sol.init exDown)).1.2.at 4 2 := by cases vect <;> decide +kernel

example (vect : Bool) : ∀ w, w ∈ exDown.wells → rowAt (run (exC true 0 []) 10 vect 4 0 exDown (Sol.init exDown)).1.2.rates 2 0 w.1 ≤ rowAt (run (exC true 0 []) 10 vect 4 0 exDown (Sol.init exDown)).1.2.rates 3 0 w.1 :=
  C86_rates_partial exDown_ready (runCalmB_all (by cases vect <;> decide +kernel)) (isOk_unit (by cases vect <;> decide +kernel)) false 2 (by norm_num) (by norm_num) (exDown_falls vect 2 (by norm_num))

lemma exUp_rises (vect : Bool) : ∀ l, l < 4 → Trend true (exC true 0 []) (run (exC true 0 []) 10 vect 4 0 exUp (Sol.init exUp)).1.2 l :=
  C86_buildup_partial exUp_ready cramer_exact (ex_level _) (by decide +kernel) (runCalmB_all (by cases vect <;> decide +kernel)) (isOk_unit (by cases vect <;> decide +kernel)) 5
    (all_of (p := fun id => exUp.initP id = some 5) (by decide +kernel)) (feeds_of (by decide +kernel))

example (vect : Bool) : (run (exC true 0 []) 10 vect 4 0 exUp (Sol.init exUp)).1.2.at 0 2 ≠ (run (exC true 0 []) 10 vect 4 0 exUp (Sol.init exUp)).1.2.at 4 2 := by cases vect <;> decide +kernel

lemma exF_face : (exC false 0 []).e.transC 0 false = .ok [(1, 1)] := by decide +kernel

/-- The steady state of an incompressible reservoir. -/
example (vect : Bool) : ∃ m0, Ready (exC false 0 []) m0 ∧ ∀ l, 0 < l → l < 3 → ∀ id, id ∈ (exC false 0 []).e.ids →
    ∃ p, (run (exC false 0 []) 10 vect 3 0 m0 (Sol.init m0)).1.2.at l id = some p ∧ (run (exC false 0 []) 10 vect 3 0 m0 (Sol.init m0)).1.2.at (l + 1) id = some p :=
  ⟨exMdl false 0 [] none [(0, "pressure", 10), (3, "rate", 1)] [(2, { q := some (-4), pwf := some 2, r := some 1 })], exMdl_ready (by decide +kernel),
    C86_steady_partial (exMdl_ready (by decide +kernel)) cramer_exact (fun _ => ex_flat _)
      (.inr (.inl ⟨(0, "pressure", 10), 1, 1, by decide +kernel, rfl, exF_face, one_pos⟩)) (by decide +kernel) (runCalmB_all (by cases vect <;> decide +kernel))
      (isOk_unit (by cases vect <;> decide +kernel))⟩

def exTurn : Sol ℚ := (run (exC true 0 []) 10 true 3 0 (exLow 11) (Sol.init (exLow 11))).1.2

lemma trend_of {up : Bool} {c : Ctx ℚ} {s : Sol ℚ} {j : ℕ} (h : (c.e.ids.all fun id => (s.at j id).isSome && (s.at (j + 1) id).isSome &&
    (if up then decide ((s.at j id).getD 0 ≤ (s.at (j + 1) id).getD 0) else decide ((s.at (j + 1) id).getD 0 ≤ (s.at j id).getD 0))) = true) : Trend up c s j := by
  intro id hid
  have := List.all_eq_true.1 h id hid
  rw [Bool.and_eq_true, Bool.and_eq_true] at this
  obtain ⟨⟨h1, h2⟩, h3⟩ := this
  obtain ⟨p, hp⟩ := Option.isSome_iff_exists.1 h1
  obtain ⟨q, hq⟩ := Option.isSome_iff_exists.1 h2
  rw [hp, hq] at h3
  refine ⟨p, q, hp, hq, ?_⟩
  unfold Moves
  cases up <;> simpa using h3

/-- **C86 fails** when a well leaves its limit (vectorised): the pressures of all cells rise in steps 1 and 2, and the pressure of cell 2 falls in step 3. -/
theorem C86_released_well_fails : ∃ (c : Ctx ℚ) (m0 m : Mdl ℚ) (s : Sol ℚ), Ready c m0 ∧ Exact c.lin ∧ c.e.Level ∧ c.e.comp = true ∧ run c 10 true 3 0 m0 (Sol.init m0) = ((m, s), .ok ()) ∧
    Trend true c s 0 ∧ Trend true c s 1 ∧ ∃ id p q, id ∈ c.e.ids ∧ s.at 2 id = some p ∧ s.at 3 id = some q ∧ q < p :=
  ⟨exC true 0 [], exLow 11, _, exTurn, exLow11_ready, cramer_exact, ex_level _, by decide +kernel, Prod.ext rfl (isOk_unit (by decide +kernel)), trend_of (by decide +kernel),
    trend_of (by decide +kernel), 2, 640 / 121, 6504 / 1331, by decide +kernel, by decide +kernel, by decide +kernel, by norm_num⟩

end RF.Fdm
