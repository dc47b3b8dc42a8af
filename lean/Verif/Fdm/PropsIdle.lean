import Verif.Fdm.PropsOrder
/-!
# C97: shut-in wells and closed faces

A well with target rate 0 and a boundary condition of rate or gradient 0 let nothing through. A script that does not make them at all gives the same pressures and rates, as long as the
limit of such a well is not above the pressure in its cell.
-/
set_option linter.unusedSectionVars false
namespace RF.Fdm
open RF RF.Dims RF.Spec Finset

variable {K : Type} [Field K] [LinearOrder K] [IsStrictOrderedRing K]

/-! ### scripts without idle calls -/

/-- The condition is a rate or a gradient of 0. -/
def IdleCond (b : ℕ × String × K) : Prop := b.2.1 ≠ "pressure" ∧ b.2.2 = 0

instance (b : ℕ × String × K) : Decidable (IdleCond b) := by unfold IdleCond; infer_instance

/-- The calls of a script about the boundaries, or about the well in a cell. -/
def about (t : Option ℕ) (l : List (SetCall K)) : List (SetCall K) := l.filter fun x => decide (x.topic = t)

lemma mem_about {t : Option ℕ} {l : List (SetCall K)} {x : SetCall K} : x ∈ about t l ↔ x ∈ l ∧ x.topic = t := by
  unfold about; rw [List.mem_filter, decide_eq_true_eq]

/-- The call shuts a well in, and the script says nothing else about this well. -/
def SetCall.Idle (l : List (SetCall K)) : SetCall K → Prop
  | .bounds _ _ => False
  | .well id a => a.q = some 0 ∧ (about (some id) l).length = 1

instance (l : List (SetCall K)) (x : SetCall K) : Decidable (x.Idle l) := by cases x <;> unfold SetCall.Idle <;> infer_instance

/-- The call without the conditions of rate or gradient 0. -/
def SetCall.trim : SetCall K → SetCall K
  | .bounds b h => .bounds (b.filter fun x => decide (¬ IdleCond x)) (h.sublist (List.filter_sublist.map _))
  | .well id a => .well id a

/-- The script without the wells that are shut in and without the faces that are closed. -/
def spared (l : List (SetCall K)) : List (SetCall K) := (l.filter fun x => decide (¬ x.Idle l)).map SetCall.trim

/-! ### models with additional idle wells and conditions -/

/-- The well has target rate 0. -/
def IdleWell (w : ℕ × Well K) : Prop := w.2.con = some .q ∧ w.2.qsp = some 0

/-- `m` is `m'` with the wells `D` and the conditions `E` in addition, all of them idle. -/
structure AddsIdle (m m' : Mdl K) (D : List (ℕ × Well K)) (E : List (ℕ × String × K)) : Prop where
  wells : m.wells.Perm (m'.wells ++ D)
  idle : ∀ w, w ∈ D → IdleWell w
  bdict : m.bdict.Perm (m'.bdict ++ E)
  closed : ∀ b, b ∈ E → IdleCond b
  initP : m.initP = m'.initP
  initR : m.initR = m'.initR
  reported : ∀ w, w ∈ m'.wells → m.reported w.1 = m'.reported w.1

lemma sum_zero {α : Type} {f : α → K} {l : List α} (h : ∀ x, x ∈ l → f x = 0) : (l.map f).sum = 0 := by
  rw [List.map_congr_left h]
  simp

lemma bIn_idle {e : Env K} {b : ℕ × String × K} (h : IdleCond b) (p : K) (i : ℕ) : bIn e p i b = 0 := by
  unfold bIn boundaryIn
  split
  · rw [if_neg h.1]; split_ifs
    · exact h.2
    · rfl
  · rfl

lemma wIn_idle {e : Env K} {w : ℕ × Well K} (h : IdleWell w) (p : K) (i : ℕ) : wIn e p i w = 0 := by
  unfold wIn
  rw [h.1, h.2]
  split_ifs <;> rfl

lemma topUp_idle {e : Env K} (hB : 0 < e.B) (hmu : 0 < e.mu) {w : ℕ × Well K} (hw : WellOK w.2) (h : IdleWell w) {p : K} {i : ℕ} (hp : w.1 = e.at i → w.2.pwfsp.getD 0 ≤ p) : topUp e p i w = 0 := by
  unfold topUp
  rw [h.1, h.2]
  split_ifs with hi
  · dsimp only [Option.getD_some]
    refine max_eq_left ?_
    have := mul_nonpos_of_nonneg_of_nonpos (windex_pos hB hmu hw).le (sub_nonpos.2 (hp hi))
    linarith
  · rfl

section
variable {c : Ctx K} {m m' : Mdl K} {D : List (ℕ × Well K)} {E : List (ℕ × String × K)}

lemma AddsIdle.limited (h : AddsIdle m m' D E) {e : Env K} (T : ℕ → ℕ → K) (old x : ℕ → K) (i : ℕ) (ht : ∀ w, w ∈ D → topUp e (x i) i w = 0) :
    limited e T m old x i = limited e T m' old x i := by
  unfold Fdm.limited residue
  rw [(h.bdict.map _).sum_eq, (h.wells.map (wIn e (x i) i)).sum_eq, (h.wells.map (topUp e (x i) i)).sum_eq]
  simp only [List.map_append, List.sum_append]
  rw [sum_zero fun b hb => bIn_idle (h.closed b hb) (x i) i, sum_zero fun w hw => wIn_idle (h.idle w hw) (x i) i, sum_zero ht]
  simp only [add_zero]

lemma AddsIdle.mem (h : AddsIdle m m' D E) {w : ℕ × Well K} (hw : w ∈ m'.wells) : w ∈ m.wells := h.wells.mem_iff.2 (List.mem_append_left _ hw)
lemma AddsIdle.memD (h : AddsIdle m m' D E) {w : ℕ × Well K} (hw : w ∈ D) : w ∈ m.wells := h.wells.mem_iff.2 (List.mem_append_right _ hw)
lemma AddsIdle.memB (h : AddsIdle m m' D E) {b : ℕ × String × K} (hb : b ∈ m'.bdict) : b ∈ m.bdict := h.bdict.mem_iff.2 (List.mem_append_left _ hb)

lemma AddsIdle.ready (h : AddsIdle m m' D E) (hr : Ready c m) (hs : Setup c.lower c.e m') : Ready c m' :=
  ⟨hr.ctx, hs, fun x G hx => hr.G x G (h.mem hx), fun x hx => hr.cfg x (h.mem hx), fun x hx => hr.canon x (h.memB hx)⟩

lemma AddsIdle.upd (h : AddsIdle m m' D E) (hs : SetupInv c.e m) (hs' : SetupInv c.e m') (b : ℕ) : b ∈ m.bUpdate ↔ b ∈ m'.bUpdate := by
  rw [hs.upd, hs'.upd]
  simp only [List.mem_map, List.mem_filter, decide_eq_true_eq]
  constructor
  · rintro ⟨x, ⟨h1, h2⟩, rfl⟩
    rcases List.mem_append.1 (h.bdict.mem_iff.1 h1) with h1 | h1
    · exact ⟨x, ⟨h1, h2⟩, rfl⟩
    · exact absurd h2 (h.closed x h1).1
  · rintro ⟨x, ⟨h1, h2⟩, rfl⟩
    exact ⟨x, ⟨h.memB h1, h2⟩, rfl⟩

/-- No rates are stored for interior cells before the first step. -/
lemma Setup.quiet {lower : String → String} {e : Env K} (he : e.WF) {m : Mdl K} (h : Setup lower e m) : ∀ id, id ∈ e.ids → m.initR id = 0 := by
  induction h with
  | init pi => intro id _; rfl
  | bounds _ hb hs ih =>
    intro id hid
    obtain ⟨-, -, -, -, -, -, a6, a7, -⟩ := setBoundaries_ok hb hs
    rw [(a7 id fun H => ?_).1]
    · exact ih id hid
    · obtain ⟨y, hy, rfl⟩ := List.mem_map.1 H
      exact he.disj _ (a6 y hy) hid
  | well _ hs ih =>
    obtain ⟨k, req, r, G, w', wp, rfl, hk, -, -, -, rfl, hw'⟩ := setWell_ok hs
    exact ih

/-- Idle wells and conditions do not change the history. -/
theorem idle_history (h : AddsIdle m m' D E) (hr : Ready c m) (hr' : Ready c m') (hx : Exact c.lin) {vect : Bool} (hv : vect = true → RatesGiven m ∧ c.e.Flat) (han : Anchored c.e m) {f f' N : ℕ} {t t' : K}
    (hP : RunAll c Calm f vect N m { Sol.init m with nsteps := (Sol.init m).nsteps + N }) (hP' : RunAll c Calm f' vect N m' { Sol.init m' with nsteps := (Sol.init m').nsteps + N })
    (hs : (run c f vect N t m (Sol.init m)).2 = .ok ()) (hs' : (run c f' vect N t' m' (Sol.init m')).2 = .ok ())
    (hlim : ∀ w, w ∈ D → ∀ k, 0 < k → k ≤ N → ∀ p, rowAt (run c f' vect N t' m' (Sol.init m')).1.2.press k none w.1 = some p → w.2.pwfsp.getD 0 ≤ p) :
    (run c f vect N t m (Sol.init m)).1.2.tstep = N ∧ (run c f' vect N t' m' (Sol.init m')).1.2.tstep = N ∧
    (∀ k, k ≤ N → ∀ id, rowAt (run c f vect N t m (Sol.init m)).1.2.press k none id = rowAt (run c f' vect N t' m' (Sol.init m')).1.2.press k none id) ∧
    (∀ k, 0 < k → k ≤ N → ∀ id, rowAt (run c f vect N t m (Sol.init m)).1.2.rates k 0 id = rowAt (run c f' vect N t' m' (Sol.init m')).1.2.rates k 0 id) ∧
    (∀ w, w ∈ m'.wells → (run c f vect N t m (Sol.init m)).1.1.reported w.1 = (run c f' vect N t' m' (Sol.init m')).1.1.reported w.1) ∧
    ∀ w, w ∈ D → (run c f vect N t m (Sol.init m)).1.1.reported w.1 = m.reported w.1 ++ (List.range N).map fun k => rowAt (run c f' vect N t' m' (Sol.init m')).1.2.press (k + 1) none w.1 := by
  have hg' : vect = true → RatesGiven m' := fun hh b hb hk => by rw [← h.initR]; exact (hv hh).1 b (h.memB hb) hk
  obtain ⟨b, n, t1, i⟩ := run_limited (el := t) hr hx (fun h => (hv h).1) (fun h => (hv h).2) hP hs
  obtain ⟨b', n', t1', i'⟩ := run_limited (el := t') hr' hx hg' (fun h => (hv h).2) hP' hs'
  have fl := run_fluxes (el := t) hr hP hs
  have fl' := run_fluxes (el := t') hr' hP' hs'
  have hh := Hist.run hr.ctx.lower hr.ctx.wf hr.started.mdl N t .start hP
  have hh' := Hist.run hr'.ctx.lower hr'.ctx.wf hr'.started.mdl N t' .start hP'
  have iv := hr.inv hh
  have iv' := hr'.inv hh'
  have fc := hh.faces hr
  have rp := hh.reports hr
  have rp' := hh'.reports hr'
  generalize (run c f vect N t m (Sol.init m)).1 = R at *
  generalize (run c f' vect N t' m' (Sol.init m')).1 = R' at *
  have he := hr.ctx.wf
  have top : ∀ k, 0 < k → k ≤ N → ∀ w, w ∈ D → ∀ j, j < c.e.n → topUp c.e (R'.2.inner c.e k j) j w = 0 := fun k h0 hk w hw j hj =>
    topUp_idle he.B he.mu (hr.started.mdl.well w (h.memD hw)) (h.idle w hw) fun hwj => hlim w hw k h0 hk _ (by rw [hwj]; exact n' k h0 (by omega) j hj)
  have key : ∀ k, k ≤ N → ∀ j, j < c.e.n → R.2.inner c.e k j = R'.2.inner c.e k j := by
    intro k
    induction k with
    | zero =>
      intro _ j _
      unfold Sol.inner
      rw [i, i', h.initP]
    | succ k ih =>
      intro hk
      refine limited_unique he (hr.ctx.grid.network vect) hr.started.mdl han (old' := R.2.inner c.e k) (old := R'.2.inner c.e k)
        (fun j hj => by rw [ih (by omega) j hj, sub_self, mul_zero]) (fun j hj => ?_) (b.press k (by omega))
      rw [h.limited _ _ _ _ fun w hw => top (k + 1) (by omega) hk w hw j hj]
      exact b'.press k (by omega) j hj
  have press : ∀ k, k ≤ N → ∀ id, rowAt R.2.press k none id = rowAt R'.2.press k none id := fun k hk id => by
    rcases Nat.eq_zero_or_pos k with rfl | h0
    · rw [i, i', h.initP]
    by_cases hid : id ∈ c.e.ids
    · have h1 := n k h0 (by omega) _ (idx_lt c.e hid)
      have h2 := n' k h0 (by omega) _ (idx_lt c.e hid)
      rw [at_idx c.e hid] at h1 h2
      rw [h1, h2, key k hk _ (idx_lt c.e hid)]
    · rw [iv.prow k (by omega) id hid, iv'.prow k (by omega) id hid, h.initP]
  have still : ∀ k, 0 < k → k ≤ N → ∀ w, w ∈ D → rowAt R.2.rates k 0 w.1 = 0 := fun k h0 hk w hw => by
    have hid := idx_lt c.e (hr.started.mdl.wmem w (h.memD hw))
    rw [b.rates k h0 (by omega) w (h.memD hw), key k hk _ hid, wIn_idle (h.idle w hw), top k h0 hk w hw _ hid, add_zero]
  have iv0 := hr.setup.inv
  have iv0' := hr'.setup.inv
  have keys : ∀ w, w ∈ D → w.1 ∉ m'.wells.map (·.1) := fun w hw H => by
    have := (h.wells.map (·.1)).nodup_iff.1 iv0.wkeys
    rw [List.map_append] at this
    exact List.disjoint_of_nodup_append this H (List.mem_map_of_mem hw)
  have rates : ∀ k, 0 < k → k ≤ N → ∀ id, rowAt R.2.rates k 0 id = rowAt R'.2.rates k 0 id := fun k h0 hk id => by
    by_cases hw : id ∈ m.wells.map (·.1)
    · obtain ⟨w, hw1, rfl⟩ := List.mem_map.1 hw
      rcases List.mem_append.1 (h.wells.mem_iff.1 hw1) with hw2 | hw2
      · rw [b.rates k h0 (by omega) w hw1, b'.rates k h0 (by omega) w hw2, key k hk _ (idx_lt c.e (hr.started.mdl.wmem w hw1))]
      · rw [still k h0 hk w hw2, iv'.row k (by omega) w.1 (fun H => ?_) (keys w hw2), hr'.setup.quiet he _ (iv0.wmem w hw1)]
        rw [iv0'.upd] at H
        obtain ⟨y, hy, hy'⟩ := List.mem_map.1 H
        exact he.disj y.1 (iv0'.bmem y (List.mem_filter.1 hy).1) (hy' ▸ iv0.wmem w hw1)
    by_cases hb : id ∈ m.bUpdate
    · obtain ⟨j, T, hF⟩ := fc (by omega) id hb
      obtain ⟨v, hv⟩ := upd_pressure hr.started.mdl hb
      have hv := mem_of_dictGet hv
      have hv' : (id, "pressure", v) ∈ m'.bdict := by
        rcases List.mem_append.1 (h.bdict.mem_iff.1 hv) with H | H
        · exact H
        · exact absurd rfl (h.closed _ H).1
      rw [fl k h0 (by omega) id v j T hv hF, fl' k h0 (by omega) id v j T hv' hF, press k hk]
    · rw [iv.row k (by omega) id hb hw, iv'.row k (by omega) id (fun H => hb ((h.upd iv0 iv0' id).2 H)) (fun H => hw ?_), h.initR]
      obtain ⟨w, hw1, rfl⟩ := List.mem_map.1 H
      exact List.mem_map_of_mem (h.mem hw1)
  refine ⟨t1, t1', press, rates, fun w hw => ?_, fun w hw => ?_⟩
  · rw [rp w (h.mem hw), rp' w hw, h.reported w hw, t1, t1']
    congr 1
    refine List.map_congr_left fun k hk => ?_
    have hk := List.mem_range.1 hk
    rw [press (k + 1) (by omega), rates (k + 1) (by omega) (by omega)]
  · rw [rp w (h.memD hw), t1]
    congr 1
    refine List.map_congr_left fun k hk => ?_
    have hk := List.mem_range.1 hk
    have hid := iv0.wmem w (h.memD hw)
    have h2 := n' (k + 1) (by omega) (by omega) _ (idx_lt c.e hid)
    rw [at_idx c.e hid] at h2
    rw [still (k + 1) (by omega) (by omega) w hw, press (k + 1) (by omega), h2]
    unfold holePressure
    simp

lemma AddsIdle.asRates (h : AddsIdle m m' D E) (hr : Ready c m) : AddsIdle m.asRates m'.asRates D (E.map (plain m.initR)) where
  bdict := by
    show (m.bdict.map (plain m.initR)).Perm (m'.bdict.map (plain m'.initR) ++ E.map (plain m.initR))
    rw [← h.initR, ← List.map_append]; exact h.bdict.map _
  wells := h.wells
  idle := h.idle
  closed b hb := by
    obtain ⟨x, hx, rfl⟩ := List.mem_map.1 hb
    obtain ⟨h1, h2⟩ := h.closed x hx
    rw [plain_ne h1]
    exact ⟨by simp, hr.setup.zero_rates hr.canon x (h.bdict.mem_iff.2 (List.mem_append_right _ hx)) h1 h2⟩
  initP := h.initP
  initR := h.initR
  reported := h.reported

/-! ### setting up -/

lemma dictGet_filter {α : Type} {l : List (ℕ × α)} (hk : (l.map (·.1)).Nodup) (p : ℕ × α → Bool) (k : ℕ) :
    dictGet (l.filter p) k = (dictGet l k).filter fun v => p (k, v) := by
  have hk' : ((l.filter p).map (·.1)).Nodup := hk.sublist (List.filter_sublist.map _)
  rcases hg : dictGet l k with _ | v
  · refine dictGet_none fun H => ?_
    obtain ⟨x, hx, rfl⟩ := List.mem_map.1 H
    rw [dictGet_of_mem hk (List.mem_filter.1 hx).1] at hg
    cases hg
  · by_cases hp : p (k, v) = true
    · rw [dictGet_of_mem hk' (List.mem_filter.2 ⟨mem_of_dictGet hg, hp⟩)]
      simp [Option.filter, hp]
    · have : dictGet (l.filter p) k = none := dictGet_none fun H => by
        obtain ⟨x, hx, rfl⟩ := List.mem_map.1 H
        obtain ⟨h1, h2⟩ := List.mem_filter.1 hx
        rw [dictGet_of_mem hk h1] at hg
        cases hg
        exact hp h2
      rw [this]
      simp [Option.filter, hp]

/-- In a new model, conditions of rate or gradient 0 may be left out. -/
lemma trim_bounds {lower : String → String} {e : Env K} {pi : Option K} {m1 : Mdl K} {b : List (ℕ × String × K)} (hk : (b.map (·.1)).Nodup)
    (hc : ∀ x, x ∈ b → (lower x.2.1 ∈ ["pressure", "press", "p"] ↔ x.2.1 = "pressure")) (h : setBoundaries lower e (Mdl.init e pi) none b = ((m1, none), .ok ())) :
    ∃ n, setBoundaries lower e (Mdl.init e pi) none (b.filter fun x => decide (¬ IdleCond x)) = ((n, none), .ok ()) ∧ n.bdict = (b.filter fun x => decide (¬ IdleCond x)) ∧
      n.initP = m1.initP ∧ n.initR = m1.initR := by
  have hk' : ((b.filter fun x => decide (¬ IdleCond x)).map (·.1)).Nodup := hk.sublist (List.filter_sublist.map _)
  unfold setBoundaries at h
  split at h
  swap
  · rename_i x hx; rw [h] at hx; exact absurd rfl (hx m1 none)
  rename_i m2 s1 hm1
  simp only [Prod.mk.injEq, and_true] at h
  obtain ⟨rfl, rfl⟩ := h
  obtain ⟨i1, i2⟩ := loop_iff (lower := lower) (e := e) b hk { Mdl.init e pi with bdict := b }
  obtain ⟨j1, j2⟩ := loop_iff (lower := lower) (e := e) _ hk' { Mdl.init e pi with bdict := b.filter fun x => decide (¬ IdleCond x) }
  have fine := i1.1 ⟨m2, hm1⟩
  obtain ⟨n1, hn1⟩ := j1.2 fun x hx => fine x (List.mem_filter.1 hx).1
  have hn : setBoundaries lower e (Mdl.init e pi) none (b.filter fun x => decide (¬ IdleCond x)) =
      (({ n1 with bUpdate := ((b.filter fun x => decide (¬ IdleCond x)).filter fun x => decide (x.2.1 = "pressure")).map (·.1) }, none), .ok ()) := by
    unfold setBoundaries
    rw [hn1]
  have both : ∀ k, n1.initP k = m2.initP k ∧ n1.initR k = m2.initR k := fun k => by
    have hd := dictGet_filter hk (fun x => decide (¬ IdleCond x)) k
    rcases hg : dictGet b k with _ | x
    · have h1 := i2 m2 hm1 |>.1 k hg
      have h2 := j2 n1 hn1 |>.1 k (by rw [hd, hg]; rfl)
      exact ⟨h2.1.trans h1.1.symm, h2.2.trans h1.2.symm⟩
    · have h1 := i2 m2 hm1 |>.2 k x hg
      by_cases hi : IdleCond (k, x)
      · have h2 := j2 n1 hn1 |>.1 k (by rw [hd, hg]; simp [Option.filter, hi])
        have hx := mem_of_dictGet hg
        have hp : lower x.1 ∉ ["pressure", "press", "p"] := fun H => hi.1 ((hc _ hx).1 H)
        have h0 : x.2 = 0 := hi.2
        have e1 : leftP lower x ((Mdl.init e pi).initP k) = (Mdl.init e pi).initP k := by
          unfold leftP; rw [if_neg hp]; split_ifs <;> rfl
        have e2 : leftR lower e k x ((Mdl.init e pi).initR k) = (Mdl.init e pi).initR k := by
          unfold leftR
          split_ifs with hq
          · exact h0
          · rcases (fine _ hx).2 with H | H | ⟨-, q, H⟩
            · exact absurd H hq
            · exact absurd H hp
            · obtain ⟨g, -, hg0⟩ := gradientRate_linear H
              dsimp only at H
              rw [H]
              dsimp only at hg0 ⊢
              rw [hg0, h0, mul_zero]; rfl
        exact ⟨h2.1.trans (e1.symm.trans h1.1.symm), h2.2.trans (e2.symm.trans h1.2.symm)⟩
      · have h2 := j2 n1 hn1 |>.2 k x (by rw [hd, hg]; simp [Option.filter, hi])
        exact ⟨h2.1.trans h1.1.symm, h2.2.trans h1.2.symm⟩
  exact ⟨_, hn, (setBoundaries_ok hk' hn).2.1, funext fun k => (both k).1, funext fun k => (both k).2⟩

lemma trim_topic (x : SetCall K) : x.trim.topic = x.topic := by cases x <;> rfl

lemma spared_topic (l : List (SetCall K)) (t : Option ℕ) : about t (spared l) = ((about t l).filter fun x => decide (¬ x.Idle l)).map SetCall.trim := by
  unfold spared about
  rw [List.filter_map, List.filter_filter, List.filter_filter]
  congr 1
  refine List.filter_congr fun x _ => ?_
  simp only [Function.comp, trim_topic]
  exact Bool.and_comm _ _

/-- A call that shuts in a new well leaves one that is idle. -/
lemma shut_new {e : Env K} {pi : Option K} {m1 : Mdl K} {id : ℕ} {a : WellArgs K} (h : setWell e (Mdl.init e pi) none (some id) a = (m1, .ok ())) (hq : a.q = some 0) {w : Well K}
    (hw : dictGet m1.wells id = some w) : IdleWell (id, w) := by
  obtain ⟨k, req, r, G, w', wp, hk, -, -, -, -, rfl, hw'⟩ := setWell_ok h
  cases hk
  dsimp only at hw
  rw [dictGet_set, if_pos rfl] at hw
  cases hw
  have h0 : dictGet (Mdl.init e pi).wells id = none := rfl
  rw [h0] at hw'
  subst hw'
  obtain ⟨q, pw, r, s⟩ := a
  dsimp only at hq
  subst hq
  cases pw <;> cases r <;> cases s <;> exact ⟨rfl, rfl⟩

/-- **C97, setting up.** A script of `set_boundaries` and `set_well` calls goes through, with at most one call of `set_boundaries`. Then it also goes through when the wells that are shut in and
the conditions of rate or gradient 0 are left out, and these are all that the models differ in. -/
theorem C97_setup (lower : String → String) {e : Env K} (he : e.WF) {pi : Option K} {l : List (SetCall K)} {m : Mdl K} (h : setUp lower e pi l = .ok m)
    (h1 : (about none l).length ≤ 1) (hc : Canonical lower m) : ∃ m' D E, setUp lower e pi (spared l) = .ok m' ∧ AddsIdle m m' D E := by
  have H := setup_separate lower he
  have inv := (steps_setup l (.init pi) h).inv
  -- the boundaries
  have hb : ∃ v, steps (SetCall.make lower e) (Mdl.init e pi) (about none (spared l)) = .ok v ∧ v.bdict.Perm (m.bdict.filter fun x => decide (¬ IdleCond x)) ∧
      v.initP = m.initP ∧ v.initR = m.initR := by
    rw [spared_topic]
    obtain ⟨u, k1, k2⟩ := H.project none h (H.refl none _) (l' := about none l) (List.forall₂_same.2 fun x _ => H.like_refl x)
    rcases hl : about none l with _ | ⟨x, l0⟩
    · rw [hl] at k1
      cases k1
      refine ⟨_, rfl, ?_, k2.2.1.symm, k2.2.2.symm⟩
      have : m.bdict = [] := List.perm_nil.1 k2.1
      rw [this]
      exact .nil
    · rw [hl] at h1 k1
      have : l0 = [] := by
        rcases l0 with _ | _
        · rfl
        · simp at h1
      subst this
      have hx : x.topic = none := (mem_about.1 (hl ▸ List.mem_cons_self .. : x ∈ about none l)).2
      rcases x with ⟨b, hb⟩ | ⟨id, a⟩
      swap
      · cases hx
      obtain ⟨u', k3, k4⟩ := steps_cons k1
      cases k4
      have k5 := make_bounds k3
      have hub := (setBoundaries_ok hb k5).2.1
      rw [← hub] at hb k5
      obtain ⟨n, n1, n2, n3, n4⟩ := trim_bounds hb (fun x hx => hc x (k2.1.mem_iff.2 hx)) k5
      refine ⟨n, ?_, ?_, n3.trans k2.2.1.symm, n4.trans k2.2.2.symm⟩
      · rw [List.filter_cons, if_pos (by simp [SetCall.Idle])]
        simp only [List.filter_nil, List.map_cons, List.map_nil, SetCall.trim]
        refine steps_of (s' := n) ?_
        unfold SetCall.make
        dsimp only
        rw [hub] at n1
        rw [n1]
      · rw [n2]
        exact (k2.1.symm).filter _
  -- the wells
  have hw : ∀ id, ∃ v, steps (SetCall.make lower e) (Mdl.init e pi) (about (some id) (spared l)) = .ok v ∧
      ((dictGet v.wells id = dictGet m.wells id ∧ v.reported id = m.reported id) ∨ dictGet v.wells id = none ∧ ∀ w, dictGet m.wells id = some w → IdleWell (id, w)) := fun id => by
    rw [spared_topic]
    obtain ⟨u, k1, k2⟩ := H.project (some id) h (H.refl _ _) (l' := about (some id) l) (List.forall₂_same.2 fun x _ => H.like_refl x)
    by_cases hi : ∃ a : WellArgs K, SetCall.well id a ∈ l ∧ (SetCall.well id a).Idle l
    · obtain ⟨a, a1, a2, a3⟩ := hi
      obtain ⟨x, hx⟩ := List.length_eq_one_iff.1 a3
      have : SetCall.well id a ∈ about (some id) l := List.mem_filter.2 ⟨a1, by simp [SetCall.topic]⟩
      rw [hx, List.mem_singleton] at this
      subst this
      rw [hx] at k1 ⊢
      rw [List.filter_cons, if_neg (by simp [SetCall.Idle, a2, a3])]
      refine ⟨_, rfl, .inr ⟨rfl, fun w hw => ?_⟩⟩
      obtain ⟨u', k3, k4⟩ := steps_cons k1
      cases k4
      exact shut_new (make_well k3) a2 (k2.1 ▸ hw)
    · have : ((about (some id) l).filter fun x => decide (¬ x.Idle l)).map SetCall.trim = about (some id) l := by
        rw [List.filter_eq_self.2 fun x hx => ?_]
        · conv_rhs => rw [← List.map_id (about (some id) l)]
          refine List.map_congr_left fun x hx => ?_
          have := of_decide_eq_true (List.mem_filter.1 hx).2
          rcases x with ⟨b, hb⟩ | ⟨k, a⟩
          · cases this
          · rfl
        · obtain ⟨h1, h2⟩ := List.mem_filter.1 hx
          have := of_decide_eq_true h2
          rcases x with ⟨b, hb⟩ | ⟨k, a⟩
          · cases this
          · cases this
            exact decide_eq_true fun h3 => hi ⟨a, h1, h3⟩
      rw [this]
      exact ⟨u, k1, .inl ⟨k2.1.symm, k2.2.1.symm⟩⟩
  obtain ⟨vb, b1, b2, b3, b4⟩ := hb
  choose vw w1 w2 using hw
  obtain ⟨m', g1, g2⟩ := H.glue (fun t => match t with | none => vb | some id => vw id) (l := spared l) (u := Mdl.init e pi) (fun t => by
    rcases t with _ | id
    · exact b1
    · exact w1 id)
  have inv' := (steps_setup (spared l) (.init pi) g1).inv
  have gb := g2 none
  have gw := fun id => g2 (some id)
  have both : ∀ id, (dictGet m'.wells id = dictGet m.wells id ∧ m'.reported id = m.reported id) ∨ dictGet m'.wells id = none ∧ ∀ w, dictGet m.wells id = some w → IdleWell (id, w) := fun id => by
    obtain ⟨q1, q2, -⟩ := gw id
    rw [← q1, ← q2]
    exact w2 id
  refine ⟨m', m.wells.filter fun w => decide (¬ (dictGet m'.wells w.1).isSome), m.bdict.filter fun x => decide (IdleCond x), g1, ?_, ?_, ?_, ?_, ?_, ?_, ?_⟩
  · have p1 : (m.wells.filter fun w => decide ((dictGet m'.wells w.1).isSome = true)).Perm m'.wells := by
      refine perm_of_get (inv.wkeys.sublist (List.filter_sublist.map _)) inv'.wkeys fun k => ?_
      rw [dictGet_filter inv.wkeys]
      rcases both k with ⟨q1, -⟩ | ⟨q1, -⟩
      · rcases hm : dictGet m.wells k with _ | w <;> rw [hm] at q1 <;> simp [Option.filter, q1]
      · rcases hm : dictGet m.wells k with _ | w <;> simp [Option.filter, q1]
    have p2 := (List.filter_append_perm (fun w : ℕ × Well K => decide ((dictGet m'.wells w.1).isSome = true)) m.wells).symm
    refine p2.trans (p1.append ?_)
    refine .of_eq (List.filter_congr fun x _ => ?_)
    cases dictGet m'.wells x.1 <;> rfl
  · intro w hw
    obtain ⟨h2, h3⟩ := List.mem_filter.1 hw
    rcases both w.1 with ⟨q1, -⟩ | ⟨-, q2⟩
    · rw [show dictGet m.wells w.1 = some w.2 from dictGet_of_mem inv.wkeys h2] at q1
      simp [q1] at h3
    · exact q2 w.2 (dictGet_of_mem inv.wkeys h2)
  · have p2 := (List.filter_append_perm (fun x : ℕ × String × K => decide (¬ IdleCond x)) m.bdict).symm
    refine p2.trans ((b2.symm.trans gb.1).append ?_)
    refine .of_eq (List.filter_congr fun x _ => ?_)
    simp
  · intro b hb
    exact of_decide_eq_true (List.mem_filter.1 hb).2
  · exact b3.symm.trans gb.2.1
  · exact b4.symm.trans gb.2.2
  · intro w hw
    rcases both w.1 with ⟨-, q1⟩ | ⟨q1, -⟩
    · exact q1.symm
    · rw [show dictGet m'.wells w.1 = some w.2 from dictGet_of_mem inv'.wkeys hw] at q1
      cases q1

/-! ### running -/

/-- **C97, running, partial.** A script of set-up calls, with at most one call of `set_boundaries`, leaves a model that is ready to run. Then the script without the wells that are shut in and without
the conditions of rate or gradient 0 also leaves one. In two runs of the same length, in which no well leaves its pressure limit, and in the second of which the pressure in the cell of a well that
is shut in does not fall below the limit of this well (0 if none is given), all recorded pressures and rates of all cells are the same, and so are the reported bottom-hole pressures of the other
wells; the bottom-hole pressure reported for a well that is shut in is the pressure of its cell. Partial: inclined reservoirs with the vectorised assembler are excluded, and incompressible ones
without any given pressure. -/
theorem C97_run_partial {l : List (SetCall K)} {pi : Option K} (h : setUp c.lower c.e pi l = .ok m) (h1 : (about none l).length ≤ 1) (hr : Ready c m) (hx : Exact c.lin) {vect : Bool}
    (hv : vect = true → c.e.Flat) (han : Anchored c.e m) :
    ∃ m', setUp c.lower c.e pi (spared l) = .ok m' ∧ Ready c m' ∧ ∀ (f f' N : ℕ) (t t' : K),
      RunAll c Calm f vect N m { Sol.init m with nsteps := (Sol.init m).nsteps + N } → RunAll c Calm f' vect N m' { Sol.init m' with nsteps := (Sol.init m').nsteps + N } →
      (run c f vect N t m (Sol.init m)).2 = .ok () → (run c f' vect N t' m' (Sol.init m')).2 = .ok () →
      (∀ w, w ∈ m.wells → dictGet m'.wells w.1 = none → ∀ k, 0 < k → k ≤ N → ∀ p, rowAt (run c f' vect N t' m' (Sol.init m')).1.2.press k none w.1 = some p → w.2.pwfsp.getD 0 ≤ p) →
      (run c f vect N t m (Sol.init m)).1.2.tstep = N ∧ (run c f' vect N t' m' (Sol.init m')).1.2.tstep = N ∧
      (∀ k, k ≤ N → ∀ id, rowAt (run c f vect N t m (Sol.init m)).1.2.press k none id = rowAt (run c f' vect N t' m' (Sol.init m')).1.2.press k none id) ∧
      (∀ k, 0 < k → k ≤ N → ∀ id, rowAt (run c f vect N t m (Sol.init m)).1.2.rates k 0 id = rowAt (run c f' vect N t' m' (Sol.init m')).1.2.rates k 0 id) ∧
      (∀ w, w ∈ m'.wells → (run c f vect N t m (Sol.init m)).1.1.reported w.1 = (run c f' vect N t' m' (Sol.init m')).1.1.reported w.1) ∧
      ∀ w, w ∈ m.wells → dictGet m'.wells w.1 = none →
        (run c f vect N t m (Sol.init m)).1.1.reported w.1 = m.reported w.1 ++ (List.range N).map fun k => rowAt (run c f vect N t m (Sol.init m)).1.2.press (k + 1) none w.1 := by
  obtain ⟨m', D, E, h2, h3⟩ := C97_setup c.lower hr.ctx.wf h h1 hr.canon
  have hr' := h3.ready hr (steps_setup _ (.init pi) h2)
  have inv := hr.setup.inv
  have inv' := hr'.setup.inv
  have hD : ∀ w, w ∈ D → dictGet m'.wells w.1 = none := fun w hw => dictGet_none fun H => by
    have := (h3.wells.map (·.1)).nodup_iff.1 inv.wkeys
    rw [List.map_append] at this
    exact List.disjoint_of_nodup_append this H (List.mem_map_of_mem hw)
  have hD' : ∀ w, w ∈ m.wells → dictGet m'.wells w.1 = none → w ∈ D := fun w hw hn => by
    rcases List.mem_append.1 (h3.wells.mem_iff.1 hw) with H | H
    · rw [show dictGet m'.wells w.1 = some w.2 from dictGet_of_mem inv'.wkeys H] at hn
      cases hn
    · exact H
  refine ⟨m', h2, hr', fun f f' N t t' hP hP' hs hs' hlim => ?_⟩
  have hlim' := fun w hw => hlim w (h3.memD hw) (hD w hw)
  have fin : ∀ {R R' : Mdl K × Sol K}, (R.2.tstep = N ∧ R'.2.tstep = N ∧ (∀ k, k ≤ N → ∀ id, rowAt R.2.press k none id = rowAt R'.2.press k none id) ∧
      (∀ k, 0 < k → k ≤ N → ∀ id, rowAt R.2.rates k 0 id = rowAt R'.2.rates k 0 id) ∧ (∀ w, w ∈ m'.wells → R.1.reported w.1 = R'.1.reported w.1) ∧
      ∀ w, w ∈ D → R.1.reported w.1 = m.reported w.1 ++ (List.range N).map fun k => rowAt R'.2.press (k + 1) none w.1) →
      R.2.tstep = N ∧ R'.2.tstep = N ∧ (∀ k, k ≤ N → ∀ id, rowAt R.2.press k none id = rowAt R'.2.press k none id) ∧
      (∀ k, 0 < k → k ≤ N → ∀ id, rowAt R.2.rates k 0 id = rowAt R'.2.rates k 0 id) ∧ (∀ w, w ∈ m'.wells → R.1.reported w.1 = R'.1.reported w.1) ∧
      ∀ w, w ∈ m.wells → dictGet m'.wells w.1 = none → R.1.reported w.1 = m.reported w.1 ++ (List.range N).map fun k => rowAt R.2.press (k + 1) none w.1 := by
    rintro R R' ⟨a1, a2, a3, a4, a5, a6⟩
    refine ⟨a1, a2, a3, a4, a5, fun w hw hn => ?_⟩
    rw [a6 w (hD' w hw hn)]
    congr 1
    exact List.map_congr_left fun k hk => (a3 (k + 1) (by have := List.mem_range.1 hk; omega) _).symm
  cases vect
  · exact fin (idle_history h3 hr hr' hx (fun h => by cases h) han hP hP' hs hs' hlim')
  · have r := run_asRates hr f N t
    have r' := run_asRates hr' f' N t'
    have key := idle_history (vect := true) (t := t) (t' := t') (h3.asRates hr) hr.asRates hr'.asRates hx (fun h => ⟨asRates_given m, hv h⟩) (asRates_anchored.2 han) (r.2.2.2 _ calm_blind hP)
      (r'.2.2.2 _ calm_blind hP') (by rw [r.2.1]; exact hs) (by rw [r'.2.1]; exact hs') (by rw [r'.1]; exact hlim')
    rw [r.1, r'.1, r.2.2.1, r'.2.2.1] at key
    exact fin key

end

/-! ### The hypotheses are met -/

/-- A producer, a well that is shut in, and a closed face. -/
def exIdle (lim : ℚ) : List (SetCall ℚ) :=
  [.well 2 { q := some 0, pwf := some lim, r := some 1 }, .bounds [(3, "rate", 0), (0, "pressure", 10)] (by decide), .well 1 { q := some (-30), pwf := some 3, r := some 1 }]

/-- The script without them. -/
example (lim : ℚ) : spared (exIdle lim) = [.bounds [(0, "pressure", 10)] (by decide), .well 1 { q := some (-30), pwf := some 3, r := some 1 }] := by
  simp [spared, exIdle, SetCall.Idle, about, SetCall.topic, SetCall.trim, IdleCond]

lemma exIdle_ok : isOk (setUp (exC true 0 []).lower (exC true 0 []).e (some 8) (exIdle 1)) = true := by decide +kernel
lemma exIdle'_ok : isOk (setUp (exC true 0 []).lower (exC true 0 []).e (some 8) (spared (exIdle 1))) = true := by decide +kernel

lemma ready_of_setUp {l : List (SetCall ℚ)} {pi : Option ℚ} {m : Mdl ℚ} (h : setUp (exC true 0 []).lower (exC true 0 []).e pi l = .ok m)
    (h1 : ∀ x, x ∈ m.wells → 0 < x.2.G.getD 0 ∧ x.2.con ≠ none) (h2 : ∀ x, x ∈ m.bdict → (x.2.1 ∈ ["pressure", "press", "p"] ↔ x.2.1 = "pressure")) : Ready (exC true 0 []) m :=
  ⟨exC_ok _ _ _, steps_setup _ (.init _) h, fun x G hx hG => by have := (h1 x hx).1; rw [hG] at this; exact this, fun x hx => (h1 x hx).2, h2⟩

lemma exIdle_ready : Ready (exC true 0 []) (getOk _ exIdle_ok) :=
  ready_of_setUp (getOk_eq _ exIdle_ok) (by decide +kernel) (by decide +kernel)

/-- `C97_run_partial` applies to two steps. -/
example (vect : Bool) : ∃ m', setUp (exC true 0 []).lower (exC true 0 []).e (some 8) (spared (exIdle 1)) = .ok m' ∧
    (∀ k, k ≤ 2 → ∀ id, rowAt (run (exC true 0 []) 10 vect 2 0 (getOk _ exIdle_ok) (Sol.init (getOk _ exIdle_ok))).1.2.press k none id =
      rowAt (run (exC true 0 []) 10 vect 2 0 m' (Sol.init m')).1.2.press k none id) := by
  obtain ⟨m', h1, h2, h3⟩ := C97_run_partial (getOk_eq _ exIdle_ok) (by decide +kernel) exIdle_ready cramer_exact (vect := vect) (fun _ => ex_flat _) (.inl (by decide +kernel))
  have : m' = getOk _ exIdle'_ok := Except.ok.inj (h1.symm.trans (getOk_eq _ exIdle'_ok))
  subst this
  obtain ⟨-, -, h4, -⟩ := h3 10 10 2 0 0 (runCalmB_all (by cases vect <;> decide +kernel)) (runCalmB_all (by cases vect <;> decide +kernel)) (isOk_unit (by cases vect <;> decide +kernel))
    (isOk_unit (by cases vect <;> decide +kernel)) (fun w hw hn k h0 hk p hp => by
      have hall : ∀ w, w ∈ (getOk _ exIdle_ok).wells → ∀ k, k < 3 → 0 < k →
          w.2.pwfsp.getD 0 ≤ (rowAt (run (exC true 0 []) 10 vect 2 0 (getOk _ exIdle'_ok) (Sol.init (getOk _ exIdle'_ok))).1.2.press k none w.1).getD 0 := by
        cases vect <;> decide +kernel
      have := hall w hw k (by omega) h0
      rw [hp] at this
      exact this)
  exact ⟨_, h1, h4⟩

/-! ### the limit matters -/

lemma exIdle9_ok : isOk (setUp (exC true 0 []).lower (exC true 0 []).e (some 8) (exIdle 9)) = true := by decide +kernel

/-- **C97 fails** when the limit of a well that is shut in is above the pressure in its cell: the well injects to keep its limit. -/
theorem C97_limit_fails (vect : Bool) : ∃ (c : Ctx ℚ) (l : List (SetCall ℚ)) (m m' : Mdl ℚ), (about none l).length ≤ 1 ∧ setUp c.lower c.e (some 8) l = .ok m ∧ setUp c.lower c.e (some 8) (spared l) = .ok m' ∧
    Ready c m ∧ Exact c.lin ∧ (vect = true → c.e.Flat) ∧ Anchored c.e m ∧ RunAll c Calm 10 vect 1 m { Sol.init m with nsteps := (Sol.init m).nsteps + 1 } ∧
    (run c 10 vect 1 0 m (Sol.init m)).2 = .ok () ∧ (run c 10 vect 1 0 m' (Sol.init m')).2 = .ok () ∧
    dictGet m'.wells 2 = none ∧ 0 < rowAt (run c 10 vect 1 0 m (Sol.init m)).1.2.rates 1 0 2 ∧
    rowAt (run c 10 vect 1 0 m (Sol.init m)).1.2.press 1 none 1 ≠ rowAt (run c 10 vect 1 0 m' (Sol.init m')).1.2.press 1 none 1 := by
  have e : setUp (exC true 0 []).lower (exC true 0 []).e (some 8) (spared (exIdle 9)) = .ok (getOk _ exIdle'_ok) := by
    have : spared (exIdle 9) = spared (exIdle 1) := by simp [spared, exIdle, SetCall.Idle, about, SetCall.topic, SetCall.trim, IdleCond]
    rw [this]
    exact getOk_eq _ exIdle'_ok
  exact ⟨exC true 0 [], exIdle 9, _, _, by decide +kernel, getOk_eq _ exIdle9_ok, e, ready_of_setUp (getOk_eq _ exIdle9_ok) (by decide +kernel) (by decide +kernel), cramer_exact,
    fun _ => ex_flat _, .inl (by decide +kernel), runCalmB_all (by cases vect <;> decide +kernel), isOk_unit (by cases vect <;> decide +kernel), isOk_unit (by cases vect <;> decide +kernel),
    by decide +kernel, by cases vect <;> decide +kernel, by cases vect <;> decide +kernel⟩

end RF.Fdm
