import Verif.Fdm.PropsReciprocal
import Verif.Fdm.SimGrid
/-!
# Folded reservoirs

Cells of a reservoir are mapped to the cells of a smaller one, several cells to one: the layers of a reservoir that does not change from layer to layer to one layer, or the two
halves of a symmetric reservoir to one half. If every cell exchanges with the cells over a neighbour together what its image exchanges with the neighbour, up to a factor of
the cell, then the history of the small reservoir is the history of the large one.
-/
set_option linter.unusedSectionVars false
namespace RF.Fdm
open RF RF.Dims RF.Spec Finset

variable {K : Type} [Field K] [LinearOrder K] [IsStrictOrderedRing K]

/-! ### conductances -/

/-- The cells of `e` lie over the cells of `e'`; a cell `a` conducts `s a` times as much as the cell below. -/
structure Folds (σ : ℕ → ℕ) (s : ℕ → K) (vect : Bool) (e e' : Env K) : Prop where
  mem : ∀ a, a ∈ e.ids → σ a ∈ e'.ids
  comp : e'.comp = e.comp
  trans : ∀ a k, a ∈ e.ids → k ∈ e'.ids → k ≠ σ a →
    ∑ j ∈ range e.n, (if σ (e.at j) = k then e.trans vect (e.ids.idxOf a) j else 0) = s a * e'.trans vect (e'.ids.idxOf (σ a)) (e'.ids.idxOf k)
  rhs : ∀ a, a ∈ e.ids → e.rhs a = s a * e'.rhs (σ a)
  head : ∀ a b, a ∈ e.ids → b ∈ e.ids → e'.grav * (e'.z (σ a) - e'.z (σ b)) = e.grav * (e.z a - e.z b)

/-- The conditions and wells of `m` are those of `m'`, in every cell that lies over a cell with a condition or a well. -/
structure FoldsMdl (σ : ℕ → ℕ) (s : ℕ → K) (e e' : Env K) (m m' : Mdl K) : Prop where
  bd : ∀ a p, a ∈ e.ids → (m.bdict.map (bIn e p (e.ids.idxOf a))).sum = s a * (m'.bdict.map (bIn e' p (e'.ids.idxOf (σ a)))).sum
  well : ∀ a p, a ∈ e.ids → (m.wells.map (wIn e p (e.ids.idxOf a))).sum = s a * (m'.wells.map (wIn e' p (e'.ids.idxOf (σ a)))).sum
  init : e.comp = true → ∀ a, a ∈ e.ids → m.initP a = m'.initP (σ a)

section
variable {σ : ℕ → ℕ} {s : ℕ → K} {vect : Bool} {e e' : Env K} {m m' : Mdl K}

lemma Folds.flow (h : Folds σ s vect e e') (he : e.WF) (he' : e'.WF) {i : ℕ} (hi : i < e.n) (x : ℕ → K) :
    ∑ j ∈ range e.n, e.trans vect i j * (x (e'.ids.idxOf (σ (e.at j))) - x (e'.ids.idxOf (σ (e.at i))) - e.grav * (e.z (e.at j) - e.z (e.at i))) =
      s (e.at i) * ∑ k ∈ range e'.n, e'.trans vect (e'.ids.idxOf (σ (e.at i))) k *
        (x k - x (e'.ids.idxOf (σ (e.at i))) - e'.grav * (e'.z (e'.at k) - e'.z (e'.at (e'.ids.idxOf (σ (e.at i)))))) := by
  have hai := at_mem e hi
  have hm := h.mem _ hai
  rw [at_idx e' hm, mul_sum]
  have h1 : ∀ j, j ∈ range e.n → e.trans vect i j * (x (e'.ids.idxOf (σ (e.at j))) - x (e'.ids.idxOf (σ (e.at i))) - e.grav * (e.z (e.at j) - e.z (e.at i))) =
      ∑ k ∈ range e'.n, (if σ (e.at j) = e'.at k then e.trans vect i j else 0) * (x k - x (e'.ids.idxOf (σ (e.at i))) - e'.grav * (e'.z (e'.at k) - e'.z (σ (e.at i)))) := by
    intro j hj
    have hj' := at_mem e (mem_range.1 hj)
    rw [sum_eq_single (e'.ids.idxOf (σ (e.at j)))]
    · rw [at_idx e' (h.mem _ hj'), if_pos rfl, h.head _ _ hj' hai]
    · intro k hk hne
      rw [if_neg, zero_mul]
      intro H
      exact hne (by rw [H, idx_at e' he'.nodup (mem_range.1 hk)])
    · intro H; exact absurd (mem_range.2 (idx_lt e' (h.mem _ hj'))) H
  rw [sum_congr rfl h1, sum_comm]
  refine sum_congr rfl fun k hk => ?_
  rw [← sum_mul]
  by_cases hki : e'.at k = σ (e.at i)
  · have hk2 : k = e'.ids.idxOf (σ (e.at i)) := by rw [← hki, idx_at e' he'.nodup (mem_range.1 hk)]
    rw [hki, ← hk2]; ring
  · have := h.trans (e.at i) (e'.at k) hai (at_mem e' (mem_range.1 hk)) hki
    have hii : ∑ j ∈ range e.n, (if σ (e.at j) = e'.at k then e.trans vect i j else 0) = s (e.at i) * e'.trans vect (e'.ids.idxOf (σ (e.at i))) k := by
      rw [idx_at e' he'.nodup (mem_range.1 hk)] at this
      rw [← this, idx_at e he.nodup hi]
    rw [hii]; ring

/-- The balances of the large reservoir at the pressures of the small one. -/
lemma Folds.residue (h : Folds σ s vect e e') (hm : FoldsMdl σ s e e' m m') (he : e.WF) (he' : e'.WF) {i : ℕ} (hi : i < e.n) (old x : ℕ → K) :
    residue e (e.trans vect) m (fun j => old (e'.ids.idxOf (σ (e.at j)))) (fun j => x (e'.ids.idxOf (σ (e.at j)))) i =
      s (e.at i) * residue e' (e'.trans vect) m' old x (e'.ids.idxOf (σ (e.at i))) := by
  have hai := at_mem e hi
  have h1 := hm.bd (e.at i) (x (e'.ids.idxOf (σ (e.at i)))) hai
  have h2 := hm.well (e.at i) (x (e'.ids.idxOf (σ (e.at i)))) hai
  rw [idx_at e he.nodup hi] at h1 h2
  unfold RF.Fdm.residue
  rw [h.flow he he' hi x, h1, h2, h.rhs _ hai, at_idx e' (h.mem _ hai)]
  ring

lemma push_self (e : Env K) (m : Mdl K) (i : ℕ) : push e m m i = 0 := by
  unfold push
  rw [List.sum_eq_zero, List.sum_eq_zero, add_zero]
  · intro v hv
    obtain ⟨w, -, rfl⟩ := List.mem_map.1 hv
    unfold wPush
    rw [sub_self, sub_self, mul_zero]
    split_ifs
    · rcases w.2.con with _ | _ | _ <;> rfl
    · rfl
  · intro v hv
    obtain ⟨b, -, rfl⟩ := List.mem_map.1 hv
    unfold bPush
    rw [sub_self]
    split
    · split_ifs <;> simp
    · rfl

/-- A solution of the balances is determined by the old pressures (where there is storage). -/
lemma residue_unique (he : e.WF) {T : ℕ → ℕ → K} (hT : Network e.n T) (hm : MdlOK e m) (ha : Anchored e m) {old old' x y : ℕ → K} (ho : ∀ i, i < e.n → e.rhs (e.at i) * (old' i - old i) = 0)
    (hx : ∀ i, i < e.n → residue e T m old x i = 0) (hy : ∀ i, i < e.n → residue e T m old' y i = 0) : ∀ i, i < e.n → y i = x i := by
  refine Net.eq_of_inflow_eq (anchored_leaky he hT hm ha) fun i hi => ?_
  have h1 := residue_diff (T := T) he hm hm (shape_self m) old old' x y i
  rw [hx i hi, hy i hi, push_self, ho i hi] at h1
  have h2 : Net.inflow e.n T (leak e m) (fun j => y j - x j) i = Net.inflow e.n T (leak e m) y i - Net.inflow e.n T (leak e m) x i := by
    unfold Net.inflow
    have : ∑ j ∈ range e.n, T i j * (y j - y i) - ∑ j ∈ range e.n, T i j * (x j - x i) = ∑ j ∈ range e.n, T i j * (y j - x j - (y i - x i)) := by
      rw [← sum_sub_distrib]; exact sum_congr rfl fun j _ => by ring
    rw [← this]; ring
  rw [h2] at h1
  linear_combination -h1
end

/-- The runs of a large and a small reservoir: at every step the pressure of a cell is the pressure of the cell below. -/
theorem fold_run {σ : ℕ → ℕ} {s : ℕ → K} {vect : Bool} {c c' : Ctx K} {m m' : Mdl K} {f f' N : ℕ} {el el' : K} (h : Folds σ s vect c.e c'.e) (hm : FoldsMdl σ s c.e c'.e m m') (hr : Ready c m) (hr' : Ready c' m')
    (hx : Exact c.lin) (hx' : Exact c'.lin) (hg : vect = true → RatesGiven m ∧ RatesGiven m') (hf : vect = true → c.e.Flat ∧ c'.e.Flat) (han : Anchored c.e m)
    (hP : RunAll c Steady f vect N m { Sol.init m with nsteps := (Sol.init m).nsteps + N }) (hP' : RunAll c' Steady f' vect N m' { Sol.init m' with nsteps := (Sol.init m').nsteps + N })
    (hs : (run c f vect N el m (Sol.init m)).2 = .ok ()) (hs' : (run c' f' vect N el' m' (Sol.init m')).2 = .ok ()) :
    (run c f vect N el m (Sol.init m)).1.2.tstep = N ∧ (run c' f' vect N el' m' (Sol.init m')).1.2.tstep = N ∧
    ∀ k, (0 < k ∨ c.e.comp = true) → k ≤ N → ∀ a, a ∈ c.e.ids →
      rowAt (run c f vect N el m (Sol.init m)).1.2.press k none a = rowAt (run c' f' vect N el' m' (Sol.init m')).1.2.press k none (σ a) := by
  obtain ⟨b, n, t, i⟩ := run_balanced hr hx (fun h => (hg h).1) (fun h => (hf h).1) hP hs
  obtain ⟨b', n', t', i'⟩ := run_balanced hr' hx' (fun h => (hg h).2) (fun h => (hf h).2) hP' hs'
  generalize (run c f vect N el m (Sol.init m)).1.2 = S at *
  generalize (run c' f' vect N el' m' (Sol.init m')).1.2 = S' at *
  have he := hr.ctx.wf
  have he' := hr'.ctx.wf
  have start : ∀ j, j < c.e.n → c.e.rhs (c.e.at j) * (S.inner c.e 0 j - S'.inner c'.e 0 (c'.e.ids.idxOf (σ (c.e.at j)))) = 0 := fun j hj => by
    by_cases hc : c.e.comp = true
    · unfold Sol.inner
      rw [at_idx c'.e (h.mem _ (at_mem c.e hj)), i, i', hm.init hc _ (at_mem c.e hj), sub_self, mul_zero]
    · rw [he.rhsI (by simpa using hc), zero_mul]
  have key : ∀ k, k < N → ∀ j, j < c.e.n → S.inner c.e (k + 1) j = S'.inner c'.e (k + 1) (c'.e.ids.idxOf (σ (c.e.at j))) := by
    intro k
    induction k with
    | zero =>
      intro hk
      refine residue_unique he (hr.ctx.grid.network vect) hr.started.mdl han (old' := S.inner c.e 0) (old := fun j => S'.inner c'.e 0 (c'.e.ids.idxOf (σ (c.e.at j)))) start (fun j hj => ?_) (b 0 (by omega))
      rw [h.residue hm he he' hj, b' 0 (by omega) _ (idx_lt c'.e (h.mem _ (at_mem c.e hj))), mul_zero]
    | succ k ih =>
      intro hk
      refine residue_unique he (hr.ctx.grid.network vect) hr.started.mdl han (old' := S.inner c.e (k + 1)) (old := fun j => S'.inner c'.e (k + 1) (c'.e.ids.idxOf (σ (c.e.at j))))
        (fun j hj => by rw [ih (by omega) j hj, sub_self, mul_zero]) (fun j hj => ?_) (b (k + 1) (by omega))
      rw [h.residue hm he he' hj, b' (k + 1) (by omega) _ (idx_lt c'.e (h.mem _ (at_mem c.e hj))), mul_zero]
  refine ⟨t, t', fun k h0 hk a ha => ?_⟩
  rcases k with _ | k
  · rw [i, i']; exact hm.init (h0.resolve_left (lt_irrefl _)) a ha
  · have h1 := n (k + 1) (Nat.succ_pos _) (by omega) _ (idx_lt c.e ha)
    have h2 := n' (k + 1) (Nat.succ_pos _) (by omega) _ (idx_lt c'.e (h.mem a ha))
    have h3 := key k (by omega) _ (idx_lt c.e ha)
    rw [at_idx c.e ha] at h1 h3
    rw [at_idx c'.e (h.mem a ha)] at h2
    rw [h1, h2, h3]
end RF.Fdm
