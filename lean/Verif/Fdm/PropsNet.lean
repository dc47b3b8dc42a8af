import Verif.Fdm.PropsIdle
import Verif.Fdm.GradientExamples
/-!
# C98: only the net rate into a cell matters

A rate may enter a cell through a well, through one of the boundary faces of the cell, or be split between them: pressures, and what flows over the other boundaries and through the other wells,
depend on the sum only.
-/
set_option linter.unusedSectionVars false
namespace RF.Fdm
open RF RF.Dims RF.Spec Finset

variable {K : Type} [Field K] [LinearOrder K] [IsStrictOrderedRing K]

/-! ### specification -/

/-- The rate that a condition other than a pressure stands for: the vectorised assembler multiplies gradients by transmissibility and length (C29), the symbolic one takes the value as it is. -/
def readRate (lower : String → String) (e : Env K) (vect : Bool) (b : ℕ × String × K) : K := if vect then rateFactor lower e b.1 b.2.1 * b.2.2 else b.2.2

/-- The sum of the rates imposed on a cell: over its boundary faces and by a well with a target rate. -/
def netRate (lower : String → String) (e : Env K) (vect : Bool) (m : Mdl K) (id : ℕ) : K :=
  (m.bdict.map fun b => if b.2.1 ≠ "pressure" ∧ e.behind b.1 = some id then readRate lower e vect b else 0).sum +
    (m.wells.map fun w => if w.2.con = some .q ∧ w.1 = id then w.2.qsp.getD 0 else 0).sum

/-- The models have the same pressure conditions, the same wells held at a pressure, the same initial pressures and the same net rate into every cell. -/
structure SameNet (lower : String → String) (e : Env K) (vect : Bool) (m m' : Mdl K) : Prop where
  press : (m.bdict.filter fun b => decide (b.2.1 = "pressure")).Perm (m'.bdict.filter fun b => decide (b.2.1 = "pressure"))
  held : (m.wells.filter fun w => decide (w.2.con = some .pwf)).Perm (m'.wells.filter fun w => decide (w.2.con = some .pwf))
  net : ∀ id, id ∈ e.ids → netRate lower e vect m id = netRate lower e vect m' id
  init : ∀ id, id ∈ e.ids → m.initP id = m'.initP id

/-- In the steps recorded in `s` every well with a target rate delivers it. -/
def Met (m : Mdl K) (s : Sol K) : Prop := ∀ k, 0 < k → k ≤ s.tstep → ∀ w, w ∈ m.wells → w.2.con = some .q → w.2.qsp = some (rowAt s.rates k 0 w.1)

/-! ### balances -/

/-- Where targets are met, limits play no role. -/
lemma met_residue {c : Ctx K} {m : Mdl K} {vect : Bool} {s : Sol K} (hr : Ready c m) (hb : Limited c vect m s) (hm : Met m s) :
    ∀ k, k < s.tstep → ∀ j, j < c.e.n → residue c.e (c.e.trans vect) m (s.inner c.e k) (s.inner c.e (k + 1)) j = 0 := fun k hk j hj => by
  have h := hb.press k hk j hj
  unfold limited at h
  rw [sum_zero, add_zero] at h
  · exact h
  intro w hw
  unfold topUp
  split_ifs with hi
  · rcases hc : w.2.con with _ | _ | _
    · rfl
    · have h1 := hb.rates (k + 1) (by omega) (by omega) w hw
      have h2 := hm (k + 1) (by omega) (by omega) w hw hc
      have h3 : c.e.ids.idxOf w.1 = j := by rw [hi]; exact idx_at c.e hr.ctx.wf.nodup hj
      rw [h3] at h1
      unfold wIn topUp at h1
      rw [if_pos hi, if_pos hi, hc, h2] at h1
      rw [h2]
      dsimp only [Option.getD_some] at h1 ⊢
      linarith
    · rfl
  · rfl

lemma bIn_split (e : Env K) (p : K) (i : ℕ) (b : ℕ × String × K) :
    bIn e p i b = (if b.2.1 = "pressure" then bIn e p i b else 0) + (if b.2.1 ≠ "pressure" ∧ e.behind b.1 = some (e.at i) then b.2.2 else 0) := by
  by_cases hb : b.2.1 = "pressure"
  · rw [if_pos hb, if_neg (fun h => h.1 hb), add_zero]
  · rw [if_neg hb, zero_add]
    unfold bIn boundaryIn Env.behind
    split
    · rename_i id T h
      rw [if_neg hb]
      simp [hb]
    · rename_i h
      rw [if_neg]
      rintro ⟨-, h'⟩
      cases h'

lemma wIn_split (e : Env K) (p : K) (i : ℕ) (w : ℕ × Well K) :
    wIn e p i w = (if w.2.con = some .pwf then wIn e p i w else 0) + (if w.2.con = some .q ∧ w.1 = e.at i then w.2.qsp.getD 0 else 0) := by
  unfold wIn
  rcases w.2.con with _ | _ | _ <;> simp

lemma sum_only {α : Type} (p : α → Prop) [DecidablePred p] (f : α → K) (l : List α) : (l.map fun x => if p x then f x else 0).sum = ((l.filter fun x => decide (p x)).map f).sum := by
  induction l with
  | nil => rfl
  | cons a l ih =>
    rw [List.map_cons, List.sum_cons, ih, List.filter_cons]
    by_cases h : p a <;> simp [h]

lemma list_sum_add {α : Type} (f g : α → K) (l : List α) : (l.map fun x => f x + g x).sum = (l.map f).sum + (l.map g).sum := by
  induction l with
  | nil => simp
  | cons a l ih => simp only [List.map_cons, List.sum_cons, ih]; ring

section
variable {c : Ctx K} {m m' : Mdl K}

lemma SameNet.residue (h : SameNet c.lower c.e false m m') (T : ℕ → ℕ → K) (old x : ℕ → K) {i : ℕ} (hi : i < c.e.n) : residue c.e T m old x i = residue c.e T m' old x i := by
  have split : ∀ n : Mdl K, (n.bdict.map (bIn c.e (x i) i)).sum + (n.wells.map (wIn c.e (x i) i)).sum =
      ((n.bdict.filter fun b => decide (b.2.1 = "pressure")).map (bIn c.e (x i) i)).sum + ((n.wells.filter fun w => decide (w.2.con = some .pwf)).map (wIn c.e (x i) i)).sum + netRate c.lower c.e false n (c.e.at i) := fun n => by
    rw [List.map_congr_left (fun b _ => bIn_split c.e (x i) i b), list_sum_add, sum_only, List.map_congr_left (l := n.wells) (fun w _ => wIn_split c.e (x i) i w), list_sum_add,
      sum_only (fun w : ℕ × Well K => w.2.con = some .pwf)]
    unfold netRate
    show _ = _ + ((n.bdict.map fun b => if b.2.1 ≠ "pressure" ∧ c.e.behind b.1 = some (c.e.at i) then b.2.2 else 0).sum + _)
    ring
  unfold Fdm.residue
  rw [split m, split m', (h.press.map _).sum_eq, (h.held.map _).sum_eq, h.net _ (at_mem c.e hi)]

/-- The claim for conditions that are pressures and rates. -/
lemma net_history (h : SameNet c.lower c.e false m m') (hr : Ready c m) (hr' : Ready c m') (hx : Exact c.lin) {vect : Bool} (hv : vect = true → RatesGiven m ∧ RatesGiven m' ∧ c.e.Flat) (han : Anchored c.e m)
    {f f' N : ℕ} {t t' : K} (hP : RunAll c Calm f vect N m { Sol.init m with nsteps := (Sol.init m).nsteps + N })
    (hP' : RunAll c Calm f' vect N m' { Sol.init m' with nsteps := (Sol.init m').nsteps + N })
    (hs : (run c f vect N t m (Sol.init m)).2 = .ok ()) (hs' : (run c f' vect N t' m' (Sol.init m')).2 = .ok ())
    (hm : Met m (run c f vect N t m (Sol.init m)).1.2) (hm' : Met m' (run c f' vect N t' m' (Sol.init m')).1.2) :
    (run c f vect N t m (Sol.init m)).1.2.tstep = N ∧ (run c f' vect N t' m' (Sol.init m')).1.2.tstep = N ∧
    (∀ k, k ≤ N → ∀ id, id ∈ c.e.ids → rowAt (run c f vect N t m (Sol.init m)).1.2.press k none id = rowAt (run c f' vect N t' m' (Sol.init m')).1.2.press k none id) ∧
    (∀ k, 0 < k → k ≤ N → ∀ b v id T, (b, "pressure", v) ∈ m.bdict → c.e.Face b id T →
      rowAt (run c f vect N t m (Sol.init m)).1.2.rates k 0 b = rowAt (run c f' vect N t' m' (Sol.init m')).1.2.rates k 0 b) ∧
    ∀ k, 0 < k → k ≤ N → ∀ w, w ∈ m.wells → w.2.con = some .pwf →
      rowAt (run c f vect N t m (Sol.init m)).1.2.rates k 0 w.1 = rowAt (run c f' vect N t' m' (Sol.init m')).1.2.rates k 0 w.1 := by
  obtain ⟨b, n, t1, i⟩ := run_limited (el := t) hr hx (fun h => (hv h).1) (fun h => (hv h).2.2) hP hs
  obtain ⟨b', n', t1', i'⟩ := run_limited (el := t') hr' hx (fun h => (hv h).2.1) (fun h => (hv h).2.2) hP' hs'
  have fl := run_fluxes (el := t) hr hP hs
  have fl' := run_fluxes (el := t') hr' hP' hs'
  have rs := met_residue hr b hm
  have rs' := met_residue hr' b' hm'
  generalize (run c f vect N t m (Sol.init m)).1 = R at *
  generalize (run c f' vect N t' m' (Sol.init m')).1 = R' at *
  have he := hr.ctx.wf
  have key : ∀ k, k ≤ N → ∀ j, j < c.e.n → R.2.inner c.e k j = R'.2.inner c.e k j := by
    intro k
    induction k with
    | zero =>
      intro _ j hj
      unfold Sol.inner
      rw [i, i', h.init _ (at_mem c.e hj)]
    | succ k ih =>
      intro hk
      refine residue_unique he (hr.ctx.grid.network vect) hr.started.mdl han (old' := R.2.inner c.e k) (old := R'.2.inner c.e k)
        (fun j hj => by rw [ih (by omega) j hj, sub_self, mul_zero]) (fun j hj => ?_) (rs k (by omega))
      rw [h.residue _ _ _ hj]
      exact rs' k (by omega) j hj
  have press : ∀ k, k ≤ N → ∀ id, id ∈ c.e.ids → rowAt R.2.press k none id = rowAt R'.2.press k none id := fun k hk id hid => by
    rcases Nat.eq_zero_or_pos k with rfl | h0
    · rw [i, i', h.init _ hid]
    have h1 := n k h0 (by omega) _ (idx_lt c.e hid)
    have h2 := n' k h0 (by omega) _ (idx_lt c.e hid)
    rw [at_idx c.e hid] at h1 h2
    rw [h1, h2, key k hk _ (idx_lt c.e hid)]
  refine ⟨t1, t1', press, fun k h0 hk x v id T hx hF => ?_, fun k h0 hk w hw hc => ?_⟩
  · have hx' : (x, "pressure", v) ∈ m'.bdict := (List.mem_filter.1 (h.press.mem_iff.1 (List.mem_filter.2 ⟨hx, by simp⟩))).1
    rw [fl k h0 (by omega) x v id T hx hF, fl' k h0 (by omega) x v id T hx' hF, press k hk id ?_]
    rcases he.face x (hr.started.mdl.bmem _ hx) with H | ⟨id', T', H1, -, H2⟩
    · rw [show c.e.transC x false = .ok [(id, T)] from hF] at H; cases H
    · have := (show c.e.transC x false = .ok [(id, T)] from hF).symm.trans H2
      cases this
      exact H1
  · have hw' : w ∈ m'.wells := (List.mem_filter.1 (h.held.mem_iff.1 (List.mem_filter.2 ⟨hw, by simp [hc]⟩))).1
    have hid := idx_lt c.e (hr.started.mdl.wmem w hw)
    rw [b.rates k h0 (by omega) w hw, b'.rates k h0 (by omega) w hw', key k hk _ hid]

lemma plain_filter (r : ℕ → K) (l : List (ℕ × String × K)) : (l.map (plain r)).filter (fun b => decide (b.2.1 = "pressure")) = l.filter fun b => decide (b.2.1 = "pressure") := by
  induction l with
  | nil => rfl
  | cons a l ih =>
    rw [List.map_cons, List.filter_cons, List.filter_cons, ih]
    by_cases h : a.2.1 = "pressure"
    · rw [plain_eq h]
    · rw [if_neg (by simpa [plain_pressure] using h), if_neg (by simpa using h)]

lemma SameNet.asRates (h : SameNet c.lower c.e true m m') (hr : Ready c m) (hr' : Ready c m') : SameNet c.lower c.e false m.asRates m'.asRates where
  press := by
    show ((m.bdict.map (plain m.initR)).filter _).Perm ((m'.bdict.map (plain m'.initR)).filter _)
    rw [plain_filter, plain_filter]
    exact h.press
  held := h.held
  net := by
    have key : ∀ n : Mdl K, Ready c n → ∀ id, netRate c.lower c.e false n.asRates id = netRate c.lower c.e true n id := fun n hn id => by
      unfold netRate
      congr 1
      show ((n.bdict.map (plain n.initR)).map _).sum = _
      rw [List.map_map]
      refine congrArg List.sum (List.map_congr_left fun b hb => ?_)
      dsimp only [Function.comp]
      simp only [plain_key, ne_eq, plain_pressure]
      split_ifs with hp
      · unfold readRate
        rw [plain_ne hp.1]
        simp [hn.factor hb hp.1]
      · rfl
    intro id hid
    rw [key m hr, key m' hr']
    exact h.net id hid
  init := h.init

/-- **C98, partial.** Two models with the same pressure conditions, the same wells held at a pressure, the same initial pressures and the same net rate into every cell, however it is divided between
wells and boundary faces. In runs of the same length in which wells meet their targets and no well leaves its pressure limit, the pressures of all cells are the same at all steps, and so are
the flows recorded for the pressure boundaries and for the wells held at a pressure. Partial: with the vectorised assembler inclined reservoirs are excluded; incompressible reservoirs without
any given pressure are excluded. -/
theorem C98_net_partial {vect : Bool} (h : SameNet c.lower c.e vect m m') (hr : Ready c m) (hr' : Ready c m') (hx : Exact c.lin) (hv : vect = true → c.e.Flat) (han : Anchored c.e m)
    {f f' N : ℕ} {t t' : K} (hP : RunAll c Calm f vect N m { Sol.init m with nsteps := (Sol.init m).nsteps + N })
    (hP' : RunAll c Calm f' vect N m' { Sol.init m' with nsteps := (Sol.init m').nsteps + N })
    (hs : (run c f vect N t m (Sol.init m)).2 = .ok ()) (hs' : (run c f' vect N t' m' (Sol.init m')).2 = .ok ())
    (hm : Met m (run c f vect N t m (Sol.init m)).1.2) (hm' : Met m' (run c f' vect N t' m' (Sol.init m')).1.2) :
    (run c f vect N t m (Sol.init m)).1.2.tstep = N ∧ (run c f' vect N t' m' (Sol.init m')).1.2.tstep = N ∧
    (∀ k, k ≤ N → ∀ id, id ∈ c.e.ids → rowAt (run c f vect N t m (Sol.init m)).1.2.press k none id = rowAt (run c f' vect N t' m' (Sol.init m')).1.2.press k none id) ∧
    (∀ k, 0 < k → k ≤ N → ∀ b v id T, (b, "pressure", v) ∈ m.bdict → c.e.Face b id T →
      rowAt (run c f vect N t m (Sol.init m)).1.2.rates k 0 b = rowAt (run c f' vect N t' m' (Sol.init m')).1.2.rates k 0 b) ∧
    ∀ k, 0 < k → k ≤ N → ∀ w, w ∈ m.wells → w.2.con = some .pwf →
      rowAt (run c f vect N t m (Sol.init m)).1.2.rates k 0 w.1 = rowAt (run c f' vect N t' m' (Sol.init m')).1.2.rates k 0 w.1 := by
  cases vect
  · exact net_history h hr hr' hx (fun h => by cases h) han hP hP' hs hs' hm hm'
  · have r := run_asRates hr f N t
    have r' := run_asRates hr' f' N t'
    have key := net_history (vect := true) (t := t) (t' := t') (h.asRates hr hr') hr.asRates hr'.asRates hx (fun h => ⟨asRates_given m, asRates_given m', hv h⟩) (asRates_anchored.2 han)
      (r.2.2.2 _ calm_blind hP) (r'.2.2.2 _ calm_blind hP') (by rw [r.2.1]; exact hs) (by rw [r'.2.1]; exact hs') (by rw [r.1]; exact hm) (by rw [r'.1]; exact hm')
    rw [r.1, r'.1] at key
    refine ⟨key.1, key.2.1, key.2.2.1, fun k h0 hk b v id T hb => key.2.2.2.1 k h0 hk b v id T ?_, key.2.2.2.2⟩
    exact List.mem_map.2 ⟨_, hb, plain_eq rfl⟩

/-! ### C99: rate and pressure control are equivalent -/

/-- `m'` is `m` with some wells held at a pressure instead of a rate: at the bottom-hole pressure `last` reported for them. -/
structure Traded (e : Env K) (last : ℕ → Option K) (m m' : Mdl K) : Prop where
  bdict : m'.bdict = m.bdict
  initP : ∀ id, id ∈ e.ids → m'.initP id = m.initP id
  wells : List.Forall₂ (fun w w' => w' = w ∨ (w.2.con = some .q ∧ w'.1 = w.1 ∧ w'.2.con = some .pwf ∧ w'.2.G = w.2.G ∧ w'.2.pwfsp = last w.1)) m.wells m'.wells

lemma Traded.anchored {e : Env K} {last : ℕ → Option K} (h : Traded e last m m') (ha : Anchored e m) : Anchored e m' := by
  rcases ha with h1 | ⟨b, id, T, h1, h2⟩ | ⟨w, h1, h2⟩
  · exact .inl h1
  · exact .inr (.inl ⟨b, id, T, h.bdict ▸ h1, h2⟩)
  · obtain ⟨w', hw', H⟩ := (forall2_mem h.wells).2 w h1
    rcases H with rfl | ⟨h3, -⟩
    · exact .inr (.inr ⟨_, hw', h2⟩)
    · rw [h2] at h3; cases h3

lemma sum_forall2_mem {α β : Type} {R : α → β → Prop} {f : α → K} {g : β → K} {l : List α} {l' : List β} (hl : List.Forall₂ R l l') (h : ∀ a b, a ∈ l → R a b → f a = g b) :
    (l.map f).sum = (l'.map g).sum := by
  induction hl with
  | nil => rfl
  | cons h1 _ ih =>
    rw [List.map_cons, List.map_cons, List.sum_cons, List.sum_cons, ih fun a b ha => h a b (List.mem_cons_of_mem _ ha), h _ _ (List.mem_cons_self ..) h1]

/-- The claim for conditions that are pressures and rates. -/
lemma control_history (hr : Ready c m) (hr' : Ready c m') (hx : Exact c.lin) {vect : Bool} (hv : vect = true → RatesGiven m ∧ RatesGiven m' ∧ c.e.Flat) (han : Anchored c.e m)
    {f f' N : ℕ} {t t' : K} (hN : N = 1 ∨ c.e.comp = false) (hP : RunAll c Calm f vect N m { Sol.init m with nsteps := (Sol.init m).nsteps + N })
    (hP' : RunAll c Calm f' vect N m' { Sol.init m' with nsteps := (Sol.init m').nsteps + N })
    (hs : (run c f vect N t m (Sol.init m)).2 = .ok ()) (hs' : (run c f' vect N t' m' (Sol.init m')).2 = .ok ())
    (hm : Met m (run c f vect N t m (Sol.init m)).1.2) (h : Traded c.e (fun id => ((run c f vect N t m (Sol.init m)).1.1.reported id).getLastD none) m m') :
    (run c f vect N t m (Sol.init m)).1.2.tstep = N ∧ (run c f' vect N t' m' (Sol.init m')).1.2.tstep = N ∧
    (∀ k, k ≤ N → ∀ id, id ∈ c.e.ids → rowAt (run c f vect N t m (Sol.init m)).1.2.press k none id = rowAt (run c f' vect N t' m' (Sol.init m')).1.2.press k none id) ∧
    ∀ k, 0 < k → k ≤ N → ∀ w, w ∈ m.wells → rowAt (run c f vect N t m (Sol.init m)).1.2.rates k 0 w.1 = rowAt (run c f' vect N t' m' (Sol.init m')).1.2.rates k 0 w.1 := by
  obtain ⟨b, n, t1, i⟩ := run_limited (el := t) hr hx (fun h => (hv h).1) (fun h => (hv h).2.2) hP hs
  obtain ⟨b', n', t1', i'⟩ := run_limited (el := t') hr' hx (fun h => (hv h).2.1) (fun h => (hv h).2.2) hP' hs'
  have rs := met_residue hr b hm
  have rp := (Hist.run hr.ctx.lower hr.ctx.wf hr.started.mdl N t .start hP).reports hr
  generalize (run c f vect N t m (Sol.init m)).1 = R at *
  generalize (run c f' vect N t' m' (Sol.init m')).1 = R' at *
  have he := hr.ctx.wf
  -- in the first run all steps are like the last one
  have same : ∀ k, k < N → ∀ j, j < c.e.n → R.2.inner c.e (k + 1) j = R.2.inner c.e N j := fun k hk j hj => by
    rcases hN with rfl | hc
    · obtain rfl : k = 0 := by omega
      rfl
    · obtain ⟨N', rfl⟩ : ∃ N', N = N' + 1 := ⟨N - 1, by omega⟩
      exact residue_unique he (hr.ctx.grid.network vect) hr.started.mdl han (old' := R.2.inner c.e k) (old := R.2.inner c.e N') (fun j _ => by rw [he.rhsI hc, zero_mul]) (rs N' (by omega))
        (rs k (by omega)) j hj
  have flow : ∀ k, k < N → ∀ w w', w ∈ m.wells → (w' = w ∨ (w.2.con = some .q ∧ w'.1 = w.1 ∧ w'.2.con = some .pwf ∧ w'.2.G = w.2.G ∧ w'.2.pwfsp = (R.1.reported w.1).getLastD none)) →
      ∀ j, j < c.e.n → wIn c.e (R.2.inner c.e (k + 1) j) j w + topUp c.e (R.2.inner c.e (k + 1) j) j w = wIn c.e (R.2.inner c.e (k + 1) j) j w' + topUp c.e (R.2.inner c.e (k + 1) j) j w' := by
    rintro k hk w w' hw (rfl | ⟨h1, h2, h3, h4, h5⟩) j hj
    · rfl
    by_cases hwj : w.1 = c.e.at j
    swap
    · unfold wIn topUp
      rw [h2, if_neg hwj, if_neg hwj, if_neg hwj, if_neg hwj]
    have hq := hm (k + 1) (by omega) (by omega) w hw h1
    have hqN := hm N (by omega) (by omega) w hw h1
    have hk' := b.rates (k + 1) (by omega) (by omega) w hw
    have hj' : c.e.ids.idxOf w.1 = j := by rw [hwj]; exact idx_at c.e he.nodup hj
    rw [hj'] at hk'
    rw [← hk']
    obtain ⟨N', rfl⟩ : ∃ N', N = N' + 1 := ⟨N - 1, by omega⟩
    have hlast : (R.1.reported w.1).getLastD none = some (holePressure c.e w.2 (R.2.inner c.e (N' + 1) j) (rowAt R.2.rates (N' + 1) 0 w.1)) := by
      rw [rp w hw, t1, List.range_succ, List.map_append, List.map_cons, List.map_nil, ← List.append_assoc, List.getLastD_concat, hwj, n (N' + 1) (by omega) (by omega) j hj]
      rfl
    have hG : windex c.e w'.2 = windex c.e w.2 := by unfold windex; rw [h4]
    have hpos := windex_pos he.B he.mu (hr.started.mdl.well w hw)
    have hqq : rowAt R.2.rates (N' + 1) 0 w.1 = rowAt R.2.rates (k + 1) 0 w.1 := Option.some.inj (hqN.symm.trans hq)
    unfold wIn topUp
    rw [h2, if_pos hwj, if_pos hwj, h3, h5, hlast, hG, same k hk j hj, hqq]
    dsimp only [Option.getD_some]
    unfold holePressure
    field_simp
    ring
  have lim : ∀ k, k < N → ∀ j, j < c.e.n → limited c.e (c.e.trans vect) m' (R.2.inner c.e k) (R.2.inner c.e (k + 1)) j = 0 := fun k hk j hj => by
    rw [← b.press k (by omega) j hj]
    unfold limited residue
    rw [h.bdict]
    have := sum_forall2_mem (f := fun w => wIn c.e (R.2.inner c.e (k + 1) j) j w + topUp c.e (R.2.inner c.e (k + 1) j) j w)
      (g := fun w => wIn c.e (R.2.inner c.e (k + 1) j) j w + topUp c.e (R.2.inner c.e (k + 1) j) j w) h.wells fun w w' hw hR => flow k hk w w' hw hR j hj
    rw [list_sum_add, list_sum_add] at this
    linear_combination -this
  have key : ∀ k, k ≤ N → ∀ j, j < c.e.n → R.2.inner c.e k j = R'.2.inner c.e k j := by
    intro k
    induction k with
    | zero =>
      intro _ j hj
      unfold Sol.inner
      rw [i, i', h.initP _ (at_mem c.e hj)]
    | succ k ih =>
      intro hk
      exact limited_unique he (hr.ctx.grid.network vect) hr'.started.mdl (h.anchored han) (old' := R.2.inner c.e k) (old := R'.2.inner c.e k)
        (fun j hj => by rw [ih (by omega) j hj, sub_self, mul_zero]) (b'.press k (by omega)) (lim k (by omega))
  refine ⟨t1, t1', fun k hk id hid => ?_, fun k h0 hk w hw => ?_⟩
  · rcases Nat.eq_zero_or_pos k with rfl | h0
    · rw [i, i', h.initP _ hid]
    have h1 := n k h0 (by omega) _ (idx_lt c.e hid)
    have h2 := n' k h0 (by omega) _ (idx_lt c.e hid)
    rw [at_idx c.e hid] at h1 h2
    rw [h1, h2, key k hk _ (idx_lt c.e hid)]
  · obtain ⟨w', hw', H⟩ := (forall2_mem h.wells).2 w hw
    obtain ⟨k, rfl⟩ : ∃ k', k = k' + 1 := ⟨k - 1, by omega⟩
    have hid := idx_lt c.e (hr.started.mdl.wmem w hw)
    have e1 : w'.1 = w.1 := by
      rcases H with rfl | H
      · rfl
      · exact H.2.1
    have := b'.rates (k + 1) h0 (by omega) w' hw'
    rw [e1] at this
    rw [b.rates (k + 1) h0 (by omega) w hw, this, ← key (k + 1) hk _ hid]
    exact flow k (by omega) w w' hw H _ hid

/-- **C99, partial.** A run of `N` steps in which the wells meet their target rates; a second model in which some of these wells are held at the bottom-hole pressure reported for them in the last step
instead. If there is one step, or the fluid is incompressible, then the second run gives the same pressures of all cells and the same rates of all wells, at every step. Partial: with the vectorised
assembler inclined reservoirs are excluded; incompressible reservoirs without any given pressure are excluded. -/
theorem C99_control_partial (hr : Ready c m) (hr' : Ready c m') (hx : Exact c.lin) {vect : Bool} (hv : vect = true → c.e.Flat) (han : Anchored c.e m)
    {f f' N : ℕ} {t t' : K} (hN : N = 1 ∨ c.e.comp = false) (hP : RunAll c Calm f vect N m { Sol.init m with nsteps := (Sol.init m).nsteps + N })
    (hP' : RunAll c Calm f' vect N m' { Sol.init m' with nsteps := (Sol.init m').nsteps + N })
    (hs : (run c f vect N t m (Sol.init m)).2 = .ok ()) (hs' : (run c f' vect N t' m' (Sol.init m')).2 = .ok ())
    (hm : Met m (run c f vect N t m (Sol.init m)).1.2) (h : Traded c.e (fun id => ((run c f vect N t m (Sol.init m)).1.1.reported id).getLastD none) m m') :
    (run c f vect N t m (Sol.init m)).1.2.tstep = N ∧ (run c f' vect N t' m' (Sol.init m')).1.2.tstep = N ∧
    (∀ k, k ≤ N → ∀ id, id ∈ c.e.ids → rowAt (run c f vect N t m (Sol.init m)).1.2.press k none id = rowAt (run c f' vect N t' m' (Sol.init m')).1.2.press k none id) ∧
    ∀ k, 0 < k → k ≤ N → ∀ w, w ∈ m.wells → rowAt (run c f vect N t m (Sol.init m)).1.2.rates k 0 w.1 = rowAt (run c f' vect N t' m' (Sol.init m')).1.2.rates k 0 w.1 := by
  cases vect
  · exact control_history hr hr' hx (fun h => by cases h) han hN hP hP' hs hs' hm h
  · have r := run_asRates hr f N t
    have r' := run_asRates hr' f' N t'
    have key := control_history (vect := true) (t := t) (t' := t') hr.asRates hr'.asRates hx (fun h => ⟨asRates_given m, asRates_given m', hv h⟩) (asRates_anchored.2 han) hN
      (r.2.2.2 _ calm_blind hP) (r'.2.2.2 _ calm_blind hP') (by rw [r.2.1]; exact hs) (by rw [r'.2.1]; exact hs') (by rw [r.1]; exact hm)
      ⟨?_, h.initP, by rw [r.2.2.1]; exact h.wells⟩
    · rw [r.1, r'.1] at key
      exact key
    · show m'.bdict.map (plain m'.initR) = m.bdict.map (plain m.initR)
      rw [h.bdict]
      refine List.map_congr_left fun b hb => ?_
      unfold plain
      split_ifs with hp
      · rfl
      · rw [hr.factor hb hp, hr'.factor (h.bdict ▸ hb) hp]

end

/-! ### The hypotheses are met -/

/-- A producer in cell 2, next to a boundary face through which some is produced, too; well 1 is held at a pressure. -/
def exNetA : List (SetCall ℚ) := [.bounds [(0, "pressure", 10), (3, "rate", -1)] (by decide), .well 1 { pwf := some 7, r := some 1 }, .well 2 { q := some (-2), r := some 1 }]

/-- All of it is produced over the face. -/
def exNetB : List (SetCall ℚ) := [.well 1 { pwf := some 7, r := some 1 }, .bounds [(3, "rate", -3), (0, "pressure", 10)] (by decide)]

lemma exNetA_ok (comp : Bool) : isOk (setUp (exC comp 0 []).lower (exC comp 0 []).e (some 8) exNetA) = true := by cases comp <;> decide +kernel
lemma exNetB_ok (comp : Bool) : isOk (setUp (exC comp 0 []).lower (exC comp 0 []).e (some 8) exNetB) = true := by cases comp <;> decide +kernel

lemma ready_of_script {l : List (SetCall ℚ)} {pi : Option ℚ} {comp : Bool} {m : Mdl ℚ} (h : setUp (exC comp 0 []).lower (exC comp 0 []).e pi l = .ok m)
    (h1 : ∀ x, x ∈ m.wells → 0 < x.2.G.getD 0 ∧ x.2.con ≠ none) (h2 : ∀ x, x ∈ m.bdict → (x.2.1 ∈ ["pressure", "press", "p"] ↔ x.2.1 = "pressure")) : Ready (exC comp 0 []) m :=
  ⟨exC_ok _ _ _, steps_setup _ (.init _) h, fun x G hx hG => by have := (h1 x hx).1; rw [hG] at this; exact this, fun x hx => (h1 x hx).2, h2⟩

lemma exNetA_ready (comp : Bool) : Ready (exC comp 0 []) (getOk _ (exNetA_ok comp)) :=
  ready_of_script (getOk_eq _ (exNetA_ok comp)) (by cases comp <;> decide +kernel) (by cases comp <;> decide +kernel)
lemma exNetB_ready (comp : Bool) : Ready (exC comp 0 []) (getOk _ (exNetB_ok comp)) :=
  ready_of_script (getOk_eq _ (exNetB_ok comp)) (by cases comp <;> decide +kernel) (by cases comp <;> decide +kernel)

lemma met_of {c : Ctx ℚ} {m : Mdl ℚ} {vect : Bool} {f N : ℕ} (ht : (run c f vect N 0 m (Sol.init m)).1.2.tstep = N)
    (h : ∀ k, k < N → ∀ w, w ∈ m.wells → w.2.con = some .q → w.2.qsp = some (rowAt (run c f vect N 0 m (Sol.init m)).1.2.rates (k + 1) 0 w.1)) : Met m (run c f vect N 0 m (Sol.init m)).1.2 :=
  fun k h0 hk w hw hc => by
    obtain ⟨k, rfl⟩ : ∃ k', k = k' + 1 := ⟨k - 1, by omega⟩
    exact h k (by omega) w hw hc

/-- `C98_net_partial` applies to two steps. -/
example (comp vect : Bool) : ∀ k, k ≤ 2 → ∀ id, id ∈ (exC comp 0 []).e.ids →
    rowAt (run (exC comp 0 []) 10 vect 2 0 (getOk _ (exNetA_ok comp)) (Sol.init (getOk _ (exNetA_ok comp)))).1.2.press k none id =
      rowAt (run (exC comp 0 []) 10 vect 2 0 (getOk _ (exNetB_ok comp)) (Sol.init (getOk _ (exNetB_ok comp)))).1.2.press k none id :=
  (C98_net_partial (vect := vect) ⟨by cases comp <;> decide +kernel, by cases comp <;> decide +kernel, by cases comp <;> cases vect <;> decide +kernel, by cases comp <;> decide +kernel⟩
    (exNetA_ready comp) (exNetB_ready comp) cramer_exact (fun _ => ex_flat _)
    (.inr (.inr ⟨((getOk _ (exNetA_ok comp)).wells.getD 0 (0, {})), by cases comp <;> decide +kernel, by cases comp <;> decide +kernel⟩))
    (runCalmB_all (by cases comp <;> cases vect <;> decide +kernel)) (runCalmB_all (by cases comp <;> cases vect <;> decide +kernel)) (isOk_unit (by cases comp <;> cases vect <;> decide +kernel))
    (isOk_unit (by cases comp <;> cases vect <;> decide +kernel)) (met_of (by cases comp <;> cases vect <;> decide +kernel) (by cases comp <;> cases vect <;> decide +kernel))
    (met_of (by cases comp <;> cases vect <;> decide +kernel) (by cases comp <;> cases vect <;> decide +kernel))).2.2.1

/-- A rate of 2 instead of a gradient of 4 on the left. -/
def exSlopeRate : Mdl ℚ := mkMdl (exNC true 0 []) (some 8) [(0, "rate", 2), (3, "pressure", 9)] [(2, { q := some (-1), pwf := some (-9), r := some 1 })]

lemma exSlopeRate_ready : Ready (exNC true 0 []) exSlopeRate := mkMdl_ready (exNC_ok _ _ _) (fun _ => rfl) (by decide +kernel)

/-- `C98_net_partial` applies to a gradient and the rate it stands for. -/
example : ∀ k, k ≤ 2 → ∀ id, id ∈ (exNC true 0 []).e.ids →
    rowAt (run (exNC true 0 []) 10 true 2 0 (exSlope 4 (-1)) (Sol.init (exSlope 4 (-1)))).1.2.press k none id =
      rowAt (run (exNC true 0 []) 10 true 2 0 exSlopeRate (Sol.init exSlopeRate)).1.2.press k none id :=
  (C98_net_partial (vect := true) ⟨by decide +kernel, by decide +kernel, by decide +kernel, by decide +kernel⟩ exSlope_ready4 exSlopeRate_ready cramer_exact (fun _ => exNC_flat)
    (.inl (by decide +kernel)) (runCalmB_all (by decide +kernel)) (runCalmB_all (by decide +kernel)) (isOk_unit (by decide +kernel)) (isOk_unit (by decide +kernel))
    (met_of (by decide +kernel) (by decide +kernel)) (met_of (by decide +kernel) (by decide +kernel))).2.2.1

/-- The bottom-hole pressure reported for well 2 after `N` steps. -/
def exLast (comp : Bool) (N : ℕ) : ℚ :=
  (((run (exC comp 0 []) 10 true N 0 (getOk _ (exNetA_ok comp)) (Sol.init (getOk _ (exNetA_ok comp)))).1.1.reported 2).getLastD none).getD 0

/-- Well 2 is held at this pressure. -/
def exNetC (comp : Bool) (N : ℕ) : List (SetCall ℚ) :=
  [.bounds [(0, "pressure", 10), (3, "rate", -1)] (by decide), .well 1 { pwf := some 7, r := some 1 }, .well 2 { pwf := some (exLast comp N), r := some 1 }]

lemma exNetC_ok (comp : Bool) : isOk (setUp (exC comp 0 []).lower (exC comp 0 []).e (some 8) (exNetC comp (if comp then 1 else 2))) = true := by cases comp <;> decide +kernel
lemma exNetC_ready (comp : Bool) : Ready (exC comp 0 []) (getOk _ (exNetC_ok comp)) :=
  ready_of_script (getOk_eq _ (exNetC_ok comp)) (by cases comp <;> decide +kernel) (by cases comp <;> decide +kernel)

/-- `C99_control_partial` applies to one step with a compressible and to two steps with an incompressible fluid. -/
example (comp vect : Bool) : ∀ k, k ≤ (if comp then 1 else 2) → ∀ id, id ∈ (exC comp 0 []).e.ids →
    rowAt (run (exC comp 0 []) 10 vect (if comp then 1 else 2) 0 (getOk _ (exNetA_ok comp)) (Sol.init (getOk _ (exNetA_ok comp)))).1.2.press k none id =
      rowAt (run (exC comp 0 []) 10 vect (if comp then 1 else 2) 0 (getOk _ (exNetC_ok comp)) (Sol.init (getOk _ (exNetC_ok comp)))).1.2.press k none id :=
  (C99_control_partial (vect := vect) (f := 10) (f' := 10) (t := 0) (t' := 0)
    (exNetA_ready comp) (exNetC_ready comp) cramer_exact (fun _ => ex_flat _)
    (.inr (.inr ⟨((getOk _ (exNetA_ok comp)).wells.getD 0 (0, {})), by cases comp <;> decide +kernel, by cases comp <;> decide +kernel⟩)) (by cases comp <;> decide +kernel)
    (runCalmB_all (by cases comp <;> cases vect <;> decide +kernel)) (runCalmB_all (by cases comp <;> cases vect <;> decide +kernel)) (isOk_unit (by cases comp <;> cases vect <;> decide +kernel))
    (isOk_unit (by cases comp <;> cases vect <;> decide +kernel)) (met_of (by cases comp <;> cases vect <;> decide +kernel) (by cases comp <;> cases vect <;> decide +kernel))
    ⟨by cases comp <;> decide +kernel, by cases comp <;> decide +kernel, by cases comp <;> cases vect <;> decide +kernel⟩).2.2.1

lemma exNetD_ok : isOk (setUp (exC true 0 []).lower (exC true 0 []).e (some 8) (exNetC true 2)) = true := by decide +kernel

/-- **C99 fails** for several steps with a compressible fluid: the bottom-hole pressure at a constant rate changes from step to step, so that a well held at the last one delivers another rate in the first step. -/
theorem C99_steps_fails (vect : Bool) : ∃ (c : Ctx ℚ) (m m' : Mdl ℚ), Ready c m ∧ Ready c m' ∧ Exact c.lin ∧ c.e.Flat ∧ RatesGiven m ∧ RatesGiven m' ∧ c.e.comp = true ∧
    (run c 10 vect 2 0 m (Sol.init m)).2 = .ok () ∧ (run c 10 vect 2 0 m' (Sol.init m')).2 = .ok () ∧ Met m (run c 10 vect 2 0 m (Sol.init m)).1.2 ∧
    Traded c.e (fun id => ((run c 10 vect 2 0 m (Sol.init m)).1.1.reported id).getLastD none) m m' ∧
    rowAt (run c 10 vect 2 0 m (Sol.init m)).1.2.press 1 none 2 ≠ rowAt (run c 10 vect 2 0 m' (Sol.init m')).1.2.press 1 none 2 :=
  ⟨exC true 0 [], _, _, exNetA_ready true, ready_of_script (getOk_eq _ exNetD_ok) (by decide +kernel) (by decide +kernel), cramer_exact, ex_flat _, by unfold RatesGiven; decide +kernel,
    by unfold RatesGiven; decide +kernel, by decide +kernel, isOk_unit (by cases vect <;> decide +kernel), isOk_unit (by cases vect <;> decide +kernel),
    met_of (by cases vect <;> decide +kernel) (by cases vect <;> decide +kernel), ⟨by decide +kernel, by decide +kernel, by cases vect <;> decide +kernel⟩, by cases vect <;> decide +kernel⟩

end RF.Fdm
