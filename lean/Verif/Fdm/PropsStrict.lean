import Verif.Fdm.PropsNet
import Verif.Fdm.PropsMulti
/-!
# C100: every cause is felt everywhere, in the first step

The time steps are implicit: raising one boundary pressure, boundary rate, well rate, well pressure or initial pressure raises the pressure of every cell, however far away, from the first step on.
-/
set_option linter.unusedSectionVars false
namespace RF.Fdm
open RF RF.Dims RF.Spec Finset

variable {K : Type} [Field K] [LinearOrder K] [IsStrictOrderedRing K]

/-! ### specification -/

/-- Something is really higher in `n` than in `m`; `s` is what is recorded in the run of `m`. -/
inductive Raise (lower : String → String) (e : Env K) (vect : Bool) (m n : Mdl K) (s : Sol K) : Prop
  /-- a boundary pressure, on a face that conducts -/
  | press (b : ℕ) (v v' : K) (id : ℕ) (T : K) : (b, "pressure", v) ∈ m.bdict → (b, "pressure", v') ∈ n.bdict → v < v' → e.Face b id T → 0 < T → Raise lower e vect m n s
  /-- the rate that another boundary condition stands for -/
  | flow (b : ℕ) (kind : String) (v v' : K) (id : ℕ) (T : K) : (b, kind, v) ∈ m.bdict → (b, kind, v') ∈ n.bdict → kind ≠ "pressure" →
      readRate lower e vect (b, kind, v) < readRate lower e vect (b, kind, v') → e.Face b id T → Raise lower e vect m n s
  /-- the pressure of a well that has no target rate -/
  | held (id : ℕ) (w w' : Well K) (p p' : K) : (id, w) ∈ m.wells → (id, w') ∈ n.wells → w.qsp = none → w.pwfsp = some p → w'.pwfsp = some p' → p < p' → Raise lower e vect m n s
  /-- the target rate of a well, which it meets in the run of `m` -/
  | rate (id : ℕ) (w w' : Well K) (q q' : K) : (id, w) ∈ m.wells → (id, w') ∈ n.wells → w.qsp = some q → w'.qsp = some q' → q < q' →
      (∀ k, 0 < k → k ≤ s.tstep → rowAt s.rates k 0 id = q) → Raise lower e vect m n s
  /-- the target rate and the pressure limit of a well -/
  | both (id : ℕ) (w w' : Well K) (q q' p p' : K) : (id, w) ∈ m.wells → (id, w') ∈ n.wells → w.qsp = some q → w'.qsp = some q' → q < q' → w.pwfsp = some p → w'.pwfsp = some p' → p < p' →
      Raise lower e vect m n s
  /-- an initial pressure -/
  | init (id : ℕ) (p p' : K) : e.comp = true → id ∈ e.ids → m.initP id = some p → n.initP id = some p' → p < p' → Raise lower e vect m n s

/-! ### one step -/

lemma sum_le_forall2 {α β : Type} {R : α → β → Prop} {f : α → K} {g : β → K} {l : List α} {l' : List β} (hl : List.Forall₂ R l l')
    (h : ∀ a b, a ∈ l → b ∈ l' → R a b → f a ≤ g b) : (l.map f).sum ≤ (l'.map g).sum := by
  induction hl with
  | nil => exact le_rfl
  | cons h1 _ ih =>
    rw [List.map_cons, List.map_cons, List.sum_cons, List.sum_cons]
    exact add_le_add (h _ _ (List.mem_cons_self ..) (List.mem_cons_self ..) h1) (ih fun a b ha hb => h a b (List.mem_cons_of_mem _ ha) (List.mem_cons_of_mem _ hb))

lemma sum_lt_forall2 {α β : Type} {R : α → β → Prop} {f : α → K} {g : β → K} {l : List α} {l' : List β} (hl : List.Forall₂ R l l')
    (h : ∀ a b, a ∈ l → b ∈ l' → R a b → f a ≤ g b) {a0 : α} (ha0 : a0 ∈ l) (h0 : ∀ b, b ∈ l' → R a0 b → f a0 < g b) : (l.map f).sum < (l'.map g).sum := by
  induction hl with
  | nil => cases ha0
  | cons h1 h2 ih =>
    rw [List.map_cons, List.map_cons, List.sum_cons, List.sum_cons]
    rcases List.mem_cons.1 ha0 with rfl | ha
    · exact add_lt_add_of_lt_of_le (h0 _ (List.mem_cons_self ..) h1) (sum_le_forall2 h2 fun a b ha hb => h a b (List.mem_cons_of_mem _ ha) (List.mem_cons_of_mem _ hb))
    · exact add_lt_add_of_le_of_lt (h _ _ (List.mem_cons_self ..) (List.mem_cons_self ..) h1)
        (ih (fun a b ha hb => h a b (List.mem_cons_of_mem _ ha) (List.mem_cons_of_mem _ hb)) ha fun b hb => h0 b (List.mem_cons_of_mem _ hb))

/-- What a well delivers into the cell at position `i`, given its target and its limit. -/
def wOut (e : Env K) (p : K) (i : ℕ) (w : ℕ × Well K) : K := wIn e p i w + topUp e p i w

/-- What enters the cell at position `i` from outside. -/
def fromOutside (e : Env K) (m : Mdl K) (p : K) (i : ℕ) : K := (m.bdict.map (bIn e p i)).sum + (m.wells.map (wOut e p i)).sum

lemma limited_outside (e : Env K) (T : ℕ → ℕ → K) (m : Mdl K) (old x : ℕ → K) (i : ℕ) :
    limited e T m old x i = ∑ j ∈ range e.n, T i j * (x j - x i - e.grav * (e.z (e.at j) - e.z (e.at i))) + fromOutside e m (x i) i - e.rhs (e.at i) * (x i - old i) := by
  unfold limited residue fromOutside wOut
  rw [list_sum_add]
  ring

lemma wOut_best {c : Ctx K} {m : Mdl K} (hr : Ready c m) {w : ℕ × Well K} (hw : w ∈ m.wells) (p : K) (i : ℕ) : wOut c.e p i w = if w.1 = c.e.at i then bestRate c.e w.2 p else 0 := by
  unfold wOut wIn topUp
  split_ifs with h
  · have h1 := hr.cfg w hw
    have h2 := hr.setup.target w hw
    have h3 := (hr.started.mdl.well w hw).free
    unfold bestRate
    rcases hc : w.2.con with _ | _ | _
    · exact absurd hc h1
    · rcases hq : w.2.qsp with _ | q
      · exact absurd hc (h3 hq).2
      · dsimp only [Option.getD_some]
        rcases le_total (windex c.e w.2 * (w.2.pwfsp.getD 0 - p)) q with h | h
        · rw [max_eq_left (by linarith), max_eq_left h, add_zero]
        · rw [max_eq_right (by linarith), max_eq_right h]; ring
    · rw [h2 hc]
      simp
  · simp

section
variable {c : Ctx K} {m n : Mdl K}

lemma best_le (hr : Ready c m) {w w' : ℕ × Well K} (hw : w ∈ m.wells)
    (h : w'.1 = w.1 ∧ w'.2.G = w.2.G ∧ (w'.2.qsp.isSome = w.2.qsp.isSome ∧ w.2.qsp.getD 0 ≤ w'.2.qsp.getD 0) ∧ w.2.pwfsp.getD 0 ≤ w'.2.pwfsp.getD 0) (p : K) :
    bestRate c.e w.2 p ≤ bestRate c.e w'.2 p := by
  have hg : windex c.e w'.2 = windex c.e w.2 := by unfold windex; rw [h.2.1]
  have hp := windex_pos hr.ctx.wf.B hr.ctx.wf.mu (hr.started.mdl.well w hw)
  have hm : windex c.e w.2 * (w.2.pwfsp.getD 0 - p) ≤ windex c.e w.2 * (w'.2.pwfsp.getD 0 - p) := mul_le_mul_of_nonneg_left (by linarith [h.2.2.2]) hp.le
  have h1 := h.2.2.1.1
  have h2 := h.2.2.1.2
  unfold bestRate
  rw [hg]
  rcases hq : w.2.qsp with _ | q <;> rcases hq' : w'.2.qsp with _ | q' <;> rw [hq, hq'] at h1 h2
  · exact hm
  · cases h1
  · cases h1
  · exact max_le_max h2 hm

lemma bIn_le (hr : Ready c m) {b b' : ℕ × String × K} (hb : b ∈ m.bdict) (h : b'.1 = b.1 ∧ b'.2.1 = b.2.1 ∧ b.2.2 ≤ b'.2.2) (p : K) (i : ℕ) : bIn c.e p i b ≤ bIn c.e p i b' := by
  unfold bIn boundaryIn
  rw [h.1, h.2.1]
  rcases hr.ctx.wf.face b.1 (hr.started.mdl.bmem _ hb) with hf | ⟨id, T, -, hT, hf⟩
  · rw [hf]
  · rw [show c.e.transC b.1 false = .ok [(id, T)] from hf]
    dsimp only
    split_ifs
    · exact mul_le_mul_of_nonneg_left (by linarith [h.2.2]) (by linarith)
    · exact h.2.2
    · exact le_rfl

lemma outside_le (hr : Ready c m) (hr' : Ready c n) (h : AtMost m n) (p : K) (i : ℕ) : fromOutside c.e m p i ≤ fromOutside c.e n p i := by
  refine add_le_add (sum_le_forall2 h.bd fun b b' hb _ H => bIn_le hr hb H p i) (sum_le_forall2 h.well fun w w' hw hw' H => ?_)
  rw [wOut_best hr hw, wOut_best hr' hw', H.1]
  split_ifs
  · exact best_le hr hw H p
  · exact le_rfl

/-- One step: pressures that are at least as high, with something really higher, are higher in every cell. -/
lemma strict_step {T : ℕ → ℕ → K} (hT : Network c.e.n T) (hr : Ready c m) (hr' : Ready c n) (h : AtMost m n) {old old' x y : ℕ → K} (ho : ∀ i, i < c.e.n → 0 ≤ c.e.rhs (c.e.at i) * (old' i - old i))
    (hx : ∀ i, i < c.e.n → limited c.e T m old x i = 0) (hy : ∀ i, i < c.e.n → limited c.e T n old' y i = 0) (hle : ∀ i, i < c.e.n → x i ≤ y i)
    {j : ℕ} (hj : j < c.e.n) (hs : x j = y j → fromOutside c.e m (x j) j + c.e.rhs (c.e.at j) * old j < fromOutside c.e n (x j) j + c.e.rhs (c.e.at j) * old' j) :
    ∀ i, i < c.e.n → x i < y i := by
  -- where the pressures are equal
  have touch : ∀ i, i < c.e.n → x i = y i → (∀ k, k < c.e.n → 0 < T i k → x k = y k) ∧
      fromOutside c.e m (x i) i + c.e.rhs (c.e.at i) * old i = fromOutside c.e n (x i) i + c.e.rhs (c.e.at i) * old' i := fun i hi he => by
    have h1 := hx i hi
    have h2 := hy i hi
    rw [limited_outside] at h1 h2
    rw [← he] at h2
    have h3 : ∑ j ∈ range c.e.n, T i j * (y j - x i - c.e.grav * (c.e.z (c.e.at j) - c.e.z (c.e.at i))) - ∑ j ∈ range c.e.n, T i j * (x j - x i - c.e.grav * (c.e.z (c.e.at j) - c.e.z (c.e.at i))) =
        ∑ j ∈ range c.e.n, T i j * (y j - x j) := by
      rw [← sum_sub_distrib]; exact sum_congr rfl fun j _ => by ring
    have nn : ∀ k, k ∈ range c.e.n → 0 ≤ T i k * (y k - x k) := fun k hk => mul_nonneg (hT.nonneg i k hi (mem_range.1 hk)) (sub_nonneg.2 (hle k (mem_range.1 hk)))
    have h4 := sum_nonneg nn
    have h5 := outside_le hr hr' h (x i) i
    have h6 := ho i hi
    rw [mul_sub] at h6
    have h7 : ∑ j ∈ range c.e.n, T i j * (y j - x j) = 0 := by linarith
    refine ⟨fun k hk hTk => ?_, by linarith⟩
    have := (sum_eq_zero_iff_of_nonneg nn).1 h7 k (mem_range.2 hk)
    rcases mul_eq_zero.1 this with h | h
    · exact absurd h hTk.ne'
    · linarith
  intro i hi
  rcases (hle i hi).lt_or_eq with h1 | h1
  · exact h1
  have all : x j = y j := by
    have := hT.conn i j hi hj
    clear hs
    induction this with
    | refl => exact h1
    | tail h2 h3 ih =>
      rename_i b d
      have hb : b < c.e.n := by
        rcases Relation.ReflTransGen.cases_tail h2 with rfl | ⟨_, _, h⟩
        · exact hi
        · exact h.1
      exact (touch b hb (ih hb)).1 d h3.1 h3.2
  exact absurd (touch j hj all).2 (hs all).ne

lemma eq_of_key {α β : Type} {l : List (α × β)} (hn : (l.map (·.1)).Nodup) {a b : α × β} (ha : a ∈ l) (hb : b ∈ l) (h : a.1 = b.1) : a = b :=
  List.inj_on_of_nodup_map hn ha hb h

/-- What is raised, acts. -/
lemma Raise.acts (hr : Ready c m) (hr' : Ready c n) (h : AtMost m n) {vect : Bool} {s : Sol K} (hb : Limited c vect m s) (hR : Raise c.lower c.e false m n s) :
    (c.e.comp = true ∧ ∃ id p p', id ∈ c.e.ids ∧ m.initP id = some p ∧ n.initP id = some p' ∧ p < p') ∨
      ∃ j, j < c.e.n ∧ ∀ k, 0 < k → k ≤ s.tstep → fromOutside c.e m (s.inner c.e k j) j < fromOutside c.e n (s.inner c.e k j) j := by
  have wl : ∀ p i, (m.wells.map (wOut c.e p i)).sum ≤ (n.wells.map (wOut c.e p i)).sum := fun p i => sum_le_forall2 h.well fun w w' hw hw' H => by
    rw [wOut_best hr hw, wOut_best hr' hw', H.1]
    split_ifs
    · exact best_le hr hw H p
    · exact le_rfl
  have bl : ∀ p i, (m.bdict.map (bIn c.e p i)).sum ≤ (n.bdict.map (bIn c.e p i)).sum := fun p i => sum_le_forall2 h.bd fun b b' hb _ H => bIn_le hr hb H p i
  -- one face suffices
  have face : ∀ b kind (v v' : K) id T, (b, kind, v) ∈ m.bdict → (b, kind, v') ∈ n.bdict → v < v' → c.e.Face b id T → (kind = "pressure" → 0 < T) →
      ∃ j, j < c.e.n ∧ ∀ k, 0 < k → k ≤ s.tstep → fromOutside c.e m (s.inner c.e k j) j < fromOutside c.e n (s.inner c.e k j) j := fun b kind v v' id T hb hb' hv hF hT => by
    have hid : id ∈ c.e.ids := by
      rcases hr.ctx.wf.face b (hr.started.mdl.bmem _ hb) with H | ⟨id', T', H1, -, H2⟩
      · rw [show c.e.transC b false = .ok [(id, T)] from hF] at H; cases H
      · have := (show c.e.transC b false = .ok [(id, T)] from hF).symm.trans H2
        cases this
        exact H1
    refine ⟨c.e.ids.idxOf id, idx_lt c.e hid, fun k _ _ => add_lt_add_of_lt_of_le (sum_lt_forall2 h.bd (fun b b' hb _ H => bIn_le hr hb H _ _) hb fun a ha Ha => ?_) (wl _ _)⟩
    have : a = (b, kind, v') := eq_of_key hr'.started.mdl.bkeys ha hb' Ha.1
    subst this
    unfold bIn boundaryIn
    rw [show c.e.transC b false = .ok [(id, T)] from hF]
    dsimp only
    rw [at_idx c.e hid, if_pos rfl, if_pos rfl]
    split_ifs with hk
    · exact mul_lt_mul_of_pos_left (by linarith) (by linarith [hT hk])
    · exact hv
  -- one well suffices
  have well : ∀ id (w w' : Well K), (id, w) ∈ m.wells → (id, w') ∈ n.wells →
      (∀ k, 0 < k → k ≤ s.tstep → windex c.e w' = windex c.e w → w.pwfsp.getD 0 ≤ w'.pwfsp.getD 0 →
        bestRate c.e w (s.inner c.e k (c.e.ids.idxOf id)) < bestRate c.e w' (s.inner c.e k (c.e.ids.idxOf id))) →
      ∃ j, j < c.e.n ∧ ∀ k, 0 < k → k ≤ s.tstep → fromOutside c.e m (s.inner c.e k j) j < fromOutside c.e n (s.inner c.e k j) j := fun id w w' hw hw' H => by
    have hid := hr.started.mdl.wmem _ hw
    refine ⟨c.e.ids.idxOf id, idx_lt c.e hid, fun k h0 hk => add_lt_add_of_le_of_lt (bl _ _) (sum_lt_forall2 h.well (fun v v' hv hv' H => ?_) hw fun v' hv' H' => ?_)⟩
    · rw [wOut_best hr hv, wOut_best hr' hv', H.1]
      split_ifs
      · exact best_le hr hv H _
      · exact le_rfl
    · have : v' = (id, w') := eq_of_key hr'.started.mdl.wkeys hv' hw' H'.1
      subst this
      rw [wOut_best hr hw, wOut_best hr' hw', at_idx c.e hid, if_pos rfl, if_pos rfl]
      exact H k h0 hk (by unfold windex; rw [H'.2.1]) H'.2.2.2
  cases hR with
  | press b v v' id T hb hb' hv hF hT => exact .inr (face b "pressure" v v' id T hb hb' hv hF fun _ => hT)
  | flow b kind v v' id T hb hb' _ hv hF => exact .inr (face b kind v v' id T hb hb' hv hF fun h => absurd h ‹_›)
  | held id w w' p p' hw hw' hq hp hp' hlt =>
    refine .inr (well id w w' hw hw' fun k _ _ hg _ => ?_)
    obtain ⟨v', hv', H⟩ := (forall2_mem h.well).2 _ hw
    have : v' = (id, w') := eq_of_key hr'.started.mdl.wkeys hv' hw' H.1
    subst this
    have hq' : w'.qsp = none := by
      have := H.2.2.1.1
      dsimp only at this
      rw [hq] at this
      simpa using this
    unfold bestRate
    rw [hq, hq', hg, hp, hp']
    exact mul_lt_mul_of_pos_left (by simpa using hlt) (windex_pos hr.ctx.wf.B hr.ctx.wf.mu (hr.started.mdl.well _ hw))
  | rate id w w' q q' hw hw' hq hq' hlt hmet =>
    refine .inr (well id w w' hw hw' fun k h0 hk hg hp => ?_)
    have h1 := hb.rates k h0 hk _ hw
    rw [hmet k h0 hk] at h1
    have h2 := wOut_best hr hw (s.inner c.e k (c.e.ids.idxOf id)) (c.e.ids.idxOf id)
    rw [at_idx c.e (hr.started.mdl.wmem _ hw), if_pos rfl] at h2
    rw [← h2]
    unfold wOut
    rw [← h1]
    unfold bestRate
    rw [hq']
    exact lt_of_lt_of_le hlt (le_max_left _ _)
  | both id w w' q q' p p' hw hw' hq hq' hlt hp hp' hlt' =>
    refine .inr (well id w w' hw hw' fun k _ _ hg _ => ?_)
    unfold bestRate
    rw [hq, hq', hg, hp, hp']
    exact max_lt_max hlt (mul_lt_mul_of_pos_left (by simpa using hlt') (windex_pos hr.ctx.wf.B hr.ctx.wf.mu (hr.started.mdl.well _ hw)))
  | init id p p' hc hid h1 h2 h3 => exact .inl ⟨hc, id, p, p', hid, h1, h2, h3⟩

/-- The claim for conditions that are pressures and rates. -/
lemma strict_history (h : AtMost m n) (hr : Ready c m) (hr' : Ready c n) (hx : Exact c.lin) {vect : Bool} (hv : vect = true → RatesGiven m ∧ RatesGiven n ∧ c.e.Flat) (han : Anchored c.e m)
    (hinit : c.e.comp = true → ∀ id, id ∈ c.e.ids → ∃ p q, m.initP id = some p ∧ n.initP id = some q ∧ p ≤ q)
    {f f' N : ℕ} {t t' : K} (hP : RunAll c Calm f vect N m { Sol.init m with nsteps := (Sol.init m).nsteps + N })
    (hP' : RunAll c Calm f' vect N n { Sol.init n with nsteps := (Sol.init n).nsteps + N })
    (hs : (run c f vect N t m (Sol.init m)).2 = .ok ()) (hs' : (run c f' vect N t' n (Sol.init n)).2 = .ok ())
    (hR : Raise c.lower c.e false m n (run c f vect N t m (Sol.init m)).1.2) :
    ∀ k, 0 < k → k ≤ N → ∀ id, id ∈ c.e.ids → ∃ p q, rowAt (run c f vect N t m (Sol.init m)).1.2.press k none id = some p ∧
      rowAt (run c f' vect N t' n (Sol.init n)).1.2.press k none id = some q ∧ p < q := by
  obtain ⟨b, nu, t1, i⟩ := run_limited (el := t) hr hx (fun h => (hv h).1) (fun h => (hv h).2.2) hP hs
  obtain ⟨b', nu', t1', i'⟩ := run_limited (el := t') hr' hx (fun h => (hv h).2.1) (fun h => (hv h).2.2) hP' hs'
  have bel := (C39_run_partial (vect := vect) hr hr' hx h (fun h => (hv h).2.2) han N t t' hinit hP hP' hs hs').2
  have act := hR.acts hr hr' h b
  generalize (run c f vect N t m (Sol.init m)).1 = R at *
  generalize (run c f' vect N t' n (Sol.init n)).1 = R' at *
  rw [t1] at bel
  have le : ∀ k, k ≤ N → (c.e.comp = true ∨ 0 < k) → ∀ j, j < c.e.n → R.2.inner c.e k j ≤ R'.2.inner c.e k j := fun k hk hc j hj => by
    obtain ⟨p, q, h1, h2, h3⟩ := bel k hk hc _ (at_mem c.e hj)
    unfold Sol.inner
    rw [h1, h2]
    exact h3
  have key : ∀ k, k < N → ∀ j, j < c.e.n → R.2.inner c.e (k + 1) j < R'.2.inner c.e (k + 1) j := by
    have old : ∀ k, k < N → ∀ j, j < c.e.n → 0 ≤ c.e.rhs (c.e.at j) * (R'.2.inner c.e k j - R.2.inner c.e k j) := fun k hk j hj => by
      rcases hc : c.e.comp
      · rw [hr.ctx.wf.rhsI hc, zero_mul]
      · exact mul_nonneg (rhs_nonneg hr.ctx.wf (at_mem c.e hj)) (sub_nonneg.2 (le k hk.le (.inl hc) j hj))
    have step : ∀ k, k < N → (∃ j, j < c.e.n ∧ (R.2.inner c.e (k + 1) j = R'.2.inner c.e (k + 1) j → fromOutside c.e m (R.2.inner c.e (k + 1) j) j + c.e.rhs (c.e.at j) * R.2.inner c.e k j <
        fromOutside c.e n (R.2.inner c.e (k + 1) j) j + c.e.rhs (c.e.at j) * R'.2.inner c.e k j)) → ∀ j, j < c.e.n → R.2.inner c.e (k + 1) j < R'.2.inner c.e (k + 1) j := fun k hk ⟨j, hj, H⟩ =>
      strict_step (hr.ctx.grid.network vect) hr hr' h (old k hk) (b.press k (by omega)) (b'.press k (by omega)) (le (k + 1) hk (.inr k.succ_pos)) hj H
    rcases act with ⟨hc, id, p, p', hid, h1, h2, h3⟩ | ⟨j, hj, H⟩
    · have go : ∀ k, k < N → (∃ j, j < c.e.n ∧ R.2.inner c.e k j < R'.2.inner c.e k j) → ∀ j, j < c.e.n → R.2.inner c.e (k + 1) j < R'.2.inner c.e (k + 1) j := fun k hk ⟨j, hj, H⟩ =>
        step k hk ⟨j, hj, fun _ => add_lt_add_of_le_of_lt (outside_le hr hr' h _ _) (mul_lt_mul_of_pos_left H (hr.ctx.wf.rhsC hc _ (at_mem c.e hj)))⟩
      intro k
      induction k with
      | zero =>
        intro hk
        refine go 0 hk ⟨c.e.ids.idxOf id, idx_lt c.e hid, ?_⟩
        unfold Sol.inner
        rw [i, i', at_idx c.e hid, h1, h2]
        exact h3
      | succ k ih =>
        intro hk
        exact go (k + 1) hk ⟨0, hr.ctx.wf.pos, ih (by omega) 0 hr.ctx.wf.pos⟩
    · intro k hk
      have := old k hk j hj
      rw [mul_sub] at this
      exact step k hk ⟨j, hj, fun _ => add_lt_add_of_lt_of_le (H (k + 1) k.succ_pos (by omega)) (by linarith)⟩
  intro k h0 hk id hid
  obtain ⟨k, rfl⟩ : ∃ k', k = k' + 1 := ⟨k - 1, by omega⟩
  have h1 := nu (k + 1) h0 (by omega) _ (idx_lt c.e hid)
  have h2 := nu' (k + 1) h0 (by omega) _ (idx_lt c.e hid)
  rw [at_idx c.e hid] at h1 h2
  exact ⟨_, _, h1, h2, key k (by omega) _ (idx_lt c.e hid)⟩

lemma AtMost.asRates (h : AtMost m n) (hr : Ready c m) (hr' : Ready c n) : AtMost m.asRates n.asRates := by
  refine ⟨?_, h.well⟩
  show List.Forall₂ _ (m.bdict.map (plain m.initR)) (n.bdict.map (plain n.initR))
  rw [List.forall₂_map_left_iff, List.forall₂_map_right_iff]
  have key : ∀ (l l' : List (ℕ × String × K)), (∀ b, b ∈ l → b ∈ m.bdict) → (∀ b, b ∈ l' → b ∈ n.bdict) →
      List.Forall₂ (fun b b' => b'.1 = b.1 ∧ b'.2.1 = b.2.1 ∧ b.2.2 ≤ b'.2.2) l l' →
      List.Forall₂ (fun b b' => (plain n.initR b').1 = (plain m.initR b).1 ∧ (plain n.initR b').2.1 = (plain m.initR b).2.1 ∧ (plain m.initR b).2.2 ≤ (plain n.initR b').2.2) l l' := by
    intro l l' hl hl' H
    induction H with
    | nil => exact .nil
    | cons H1 _ ih =>
      rename_i b b' _ _ _
      refine .cons ⟨(plain_kind ⟨H1.1, H1.2.1⟩).1, (plain_kind ⟨H1.1, H1.2.1⟩).2, ?_⟩ (ih (fun b hb => hl b (List.mem_cons_of_mem _ hb)) fun b hb => hl' b (List.mem_cons_of_mem _ hb))
      by_cases hp : b.2.1 = "pressure"
      · rw [plain_eq hp, plain_eq (H1.2.1.trans hp)]
        exact H1.2.2
      · have hp' : b'.2.1 ≠ "pressure" := by rw [H1.2.1]; exact hp
        rw [plain_ne hp, plain_ne hp']
        show m.initR b.1 ≤ n.initR b'.1
        have hb := hl b (List.mem_cons_self ..)
        rw [hr.factor hb hp, hr'.factor (hl' b' (List.mem_cons_self ..)) hp', H1.1, H1.2.1]
        exact mul_le_mul_of_nonneg_left H1.2.2 (hr.factor_nonneg hb)
  exact key _ _ (fun _ h => h) (fun _ h => h) h.bd

lemma Raise.asRates {s : Sol K} (h : Raise c.lower c.e true m n s) (hr : Ready c m) (hr' : Ready c n) : Raise c.lower c.e false m.asRates n.asRates s := by
  cases h with
  | press b v v' id T hb hb' hv hF hT => exact .press b v v' id T (List.mem_map.2 ⟨_, hb, plain_eq rfl⟩) (List.mem_map.2 ⟨_, hb', plain_eq rfl⟩) hv hF hT
  | flow b kind v v' id T hb hb' hk hv hF =>
    refine .flow b "rate" (m.initR b) (n.initR b) id T (List.mem_map.2 ⟨_, hb, plain_ne hk⟩) (List.mem_map.2 ⟨_, hb', plain_ne hk⟩) (by decide) ?_ hF
    show m.initR b < n.initR b
    rw [hr.factor hb hk, hr'.factor hb' hk]
    exact hv
  | held id w w' p p' hw hw' hq hp hp' hlt => exact .held id w w' p p' hw hw' hq hp hp' hlt
  | rate id w w' q q' hw hw' hq hq' hlt hmet => exact .rate id w w' q q' hw hw' hq hq' hlt hmet
  | both id w w' q q' p p' hw hw' hq hq' hlt hp hp' hlt' => exact .both id w w' q q' p p' hw hw' hq hq' hlt hp hp' hlt'
  | init id p p' hc hid h1 h2 h3 => exact .init id p p' hc hid h1 h2 h3

/-- **C100, partial.** Two runs of the same length on the same grid, the second with conditions, well rates, well pressures and initial pressures that are nowhere lower and with at least one of them really
higher. At every step, from the first on, the pressure of every cell is really higher in the second run. Wells may go to their limits in either run. Partial: no well leaves its limit; with the vectorised
assembler inclined reservoirs are excluded; incompressible reservoirs without any given pressure are excluded. -/
theorem C100_strict_partial (h : AtMost m n) (hr : Ready c m) (hr' : Ready c n) (hx : Exact c.lin) {vect : Bool} (hv : vect = true → c.e.Flat) (han : Anchored c.e m)
    (hinit : c.e.comp = true → ∀ id, id ∈ c.e.ids → ∃ p q, m.initP id = some p ∧ n.initP id = some q ∧ p ≤ q)
    {f f' N : ℕ} {t t' : K} (hP : RunAll c Calm f vect N m { Sol.init m with nsteps := (Sol.init m).nsteps + N })
    (hP' : RunAll c Calm f' vect N n { Sol.init n with nsteps := (Sol.init n).nsteps + N })
    (hs : (run c f vect N t m (Sol.init m)).2 = .ok ()) (hs' : (run c f' vect N t' n (Sol.init n)).2 = .ok ())
    (hR : Raise c.lower c.e vect m n (run c f vect N t m (Sol.init m)).1.2) :
    ∀ k, 0 < k → k ≤ N → ∀ id, id ∈ c.e.ids → ∃ p q, rowAt (run c f vect N t m (Sol.init m)).1.2.press k none id = some p ∧
      rowAt (run c f' vect N t' n (Sol.init n)).1.2.press k none id = some q ∧ p < q := by
  cases vect
  · exact strict_history h hr hr' hx (fun h => by cases h) han hinit hP hP' hs hs' hR
  · have r := run_asRates hr f N t
    have r' := run_asRates hr' f' N t'
    have key := strict_history (vect := true) (t := t) (t' := t') (h.asRates hr hr') hr.asRates hr'.asRates hx (fun h => ⟨asRates_given m, asRates_given n, hv h⟩) (asRates_anchored.2 han) hinit
      (r.2.2.2 _ calm_blind hP) (r'.2.2.2 _ calm_blind hP') (by rw [r.2.1]; exact hs) (by rw [r'.2.1]; exact hs') (by rw [r.1]; exact hR.asRates hr hr')
    rw [r.1, r'.1] at key
    exact key

end

/-! ### examples -/

/-- A given pressure on the left, a well far from it, and a face with a rate; the rate is one higher for `a`. -/
def exRaise (a : Bool) : List (SetCall ℚ) := [.bounds [(0, "pressure", 10), (3, "rate", if a then -1 else -2)] (by simp), .well 1 { q := some (-3), pwf := some 2, r := some 1 }]

lemma exRaise_ok (comp a : Bool) : isOk (setUp (exC comp 0 []).lower (exC comp 0 []).e (some 8) (exRaise a)) = true := by cases comp <;> cases a <;> decide +kernel

lemma exRaise_ready (comp a : Bool) : Ready (exC comp 0 []) (getOk _ (exRaise_ok comp a)) :=
  ready_of_script (getOk_eq _ (exRaise_ok comp a)) (by cases comp <;> cases a <;> decide +kernel) (by cases comp <;> cases a <;> decide +kernel)

lemma exRaise_most (comp : Bool) : AtMost (getOk _ (exRaise_ok comp false)) (getOk _ (exRaise_ok comp true)) :=
  ⟨by cases comp <;> decide +kernel, by cases comp <;> decide +kernel⟩

/-- `C100_strict_partial` applies: the face on the right is felt in the cell at the left, too. -/
example (comp vect : Bool) : ∀ k, 0 < k → k ≤ 2 → ∀ id, id ∈ (exC comp 0 []).e.ids → ∃ p q,
    rowAt (run (exC comp 0 []) 10 vect 2 0 (getOk _ (exRaise_ok comp false)) (Sol.init (getOk _ (exRaise_ok comp false)))).1.2.press k none id = some p ∧
      rowAt (run (exC comp 0 []) 10 vect 2 0 (getOk _ (exRaise_ok comp true)) (Sol.init (getOk _ (exRaise_ok comp true)))).1.2.press k none id = some q ∧ p < q :=
  C100_strict_partial (vect := vect) (exRaise_most comp) (exRaise_ready comp false) (exRaise_ready comp true) cramer_exact
    (fun _ => ex_flat _)
    (.inr (.inl ⟨(0, "pressure", 10), 1, 1, by cases comp <;> decide +kernel, rfl, by unfold Env.Face; cases comp <;> decide +kernel, by norm_num⟩))
    (fun _ id hid => ⟨8, 8, all_of (p := fun id => (getOk _ (exRaise_ok comp false)).initP id = some 8) (by cases comp <;> decide +kernel) id hid,
      all_of (p := fun id => (getOk _ (exRaise_ok comp true)).initP id = some 8) (by cases comp <;> decide +kernel) id hid, le_rfl⟩)
    (runCalmB_all (by cases comp <;> cases vect <;> decide +kernel)) (runCalmB_all (by cases comp <;> cases vect <;> decide +kernel)) (isOk_unit (by cases comp <;> cases vect <;> decide +kernel))
    (isOk_unit (by cases comp <;> cases vect <;> decide +kernel))
    (.flow 3 "rate" (-2) (-1) 2 1 (by cases comp <;> decide +kernel) (by cases comp <;> decide +kernel) (by decide) (by cases comp <;> cases vect <;> decide +kernel)
      (by unfold Env.Face; cases comp <;> decide +kernel))

/-- It applies to a larger gradient, too. -/
example (vect : Bool) : ∀ k, 0 < k → k ≤ 3 → ∀ id, id ∈ (exNC true 0 []).e.ids → ∃ p q,
    rowAt (run (exNC true 0 []) 10 vect 3 0 (exSlope 4 (-1)) (Sol.init (exSlope 4 (-1)))).1.2.press k none id = some p ∧
      rowAt (run (exNC true 0 []) 10 vect 3 0 (exSlope 6 (-1)) (Sol.init (exSlope 6 (-1)))).1.2.press k none id = some q ∧ p < q :=
  C100_strict_partial (vect := vect) exSlope_most exSlope_ready4 exSlope_ready6 cramer_exact (fun _ => exNC_flat) (.inl (by decide +kernel)) (fun _ => exSlope_init (by decide +kernel) _ _ (by decide +kernel))
    (runCalmB_all (by cases vect <;> decide +kernel)) (runCalmB_all (by cases vect <;> decide +kernel)) (isOk_unit (by cases vect <;> decide +kernel)) (isOk_unit (by cases vect <;> decide +kernel))
    (.flow 0 "gradient" 4 6 1 (1 / 2) (by decide +kernel) (by decide +kernel) (by decide) (by cases vect <;> decide +kernel) (by unfold Env.Face; decide +kernel))

end RF.Fdm
