import Verif.Fdm.PropsSession
/-!
# Assembly with several threads (fdm.py l.321-346, 374-423 with `threading=True`)

`get_cells_eq(True)` maps `get_cell_eq` over the cells with a pool of threads, `get_matrices_symb(True)` then maps `__update_matrices_symb` over them with a second pool.
The threads share `cells_terms`, and then `A` and `d`. A thread of the first pool is modelled as a sequence of atomic steps on the shared dictionary (`termStep`), a thread
of the second as a sequence of single entries written (`rowWrites`); a schedule is any order of these steps. What the threads only read (grid, fluid, wells, boundary
conditions, pressures) does not change meanwhile. The function caches behind `get_cell_trans` and the like are not shared state here: what they return does not depend on
what is in them (`Verif/Cache`). The pool starts its tasks in order and no more than its size at a time; here any schedule is allowed, so more than it can do.
-/
set_option linter.unusedSectionVars false
namespace RF.Fdm
open RF RF.Dims Finset

variable {K : Type} [Field K] [LinearOrder K] [IsStrictOrderedRing K]

/-- The equation of a cell: coefficients and right-hand side, `none` if symbols are left on the right-hand side. (fdm.py l.312-319) -/
abbrev EqRow (K : Type) := Option ((ℕ → K) × K)

/-- The end of `get_cell_eq` (l.312-319). In `eqRow` a right-hand side with symbols is the exception that is raised when it is stored; here that comes later. -/
def cellRow (c : Ctx K) (t : Terms K) : Except Err (EqRow K) :=
  match eqRow c.scale c.e.ids (Aff.sum t.f) t.a with
  | .ok r => .ok (some r)
  | .error .type => .ok none
  | .error x => .error x

/-- Where a thread in `get_cell_eq(id)` is: at the test whether terms are known (l.257), computing new terms (l.258-288), about to store them (l.290), about to replace the
last flow term (l.296-306), about to replace the accumulation term (l.307-308), about to make the equation (l.310-319), finished. -/
inductive Pc (K : Type) where
  | test
  | build
  | store (t : Terms K)
  | well
  | acc
  | eq
  | done (r : Except Err (EqRow K))

/-- The threads of the first pool: the shared `cells_terms` and where each thread is. (fdm.py l.321-346) -/
structure Pool (K : Type) where
  terms : List (ℕ × Terms K)
  pc : ℕ → Pc K

/-- One atomic step of the thread of cell `id`: new `cells_terms` and place. (fdm.py l.221-319) -/
def termStep (c : Ctx K) (m : Mdl K) (s : Sol K) (id : ℕ) (terms : List (ℕ × Terms K)) : Pc K → List (ℕ × Terms K) × Pc K
  | .test => (terms, if (dictGet terms id).isNone then .build else .well)
  | .build => match buildTerms c.lower c.e m s id with
    | .ok t => (terms, .store t)
    | .error x => (terms, .done (.error x))
  | .store t => (dictSet terms id t, .eq)
  | .well => match dictGet terms id with
    | some t => match refreshWell c.e m id t with
      | .ok t' => (dictSet terms id t', .acc)
      | .error x => (terms, .done (.error x))
    | none => (terms, .done (.error .key))
  | .acc => match dictGet terms id with
    | some t => if c.e.comp then
        match aTerm c.e s id with
        | .ok a => (dictSet terms id { t with a := a }, .eq)
        | .error x => (terms, .done (.error x))
      else (terms, .eq)
    | none => (terms, .done (.error .key))
  | .eq => match dictGet terms id with
    | some t => (terms, .done (cellRow c t))
    | none => (terms, .done (.error .key))
  | .done r => (terms, .done r)

/-- A step of the thread of cell `id` in the pool. (fdm.py l.321-346) -/
def Pool.step (c : Ctx K) (m : Mdl K) (s : Sol K) (P : Pool K) (id : ℕ) : Pool K :=
  let x := termStep c m s id P.terms (P.pc id)
  ⟨x.1, Function.update P.pc id x.2⟩

/-- The pool after the steps of a schedule: the list of the cells whose threads move, one atomic step each. (fdm.py l.321-346) -/
def Pool.run (c : Ctx K) (m : Mdl K) (s : Sol K) (sched : List ℕ) : Pool K := sched.foldl (Pool.step c m s) ⟨m.terms, fun _ => .test⟩

/-- A single entry written: `d[i]` or `A[i, j]`. (fdm.py l.348-372) -/
inductive Entry where
  | d (i : ℕ)
  | A (i j : ℕ)
  deriving DecidableEq

/-- What `__update_matrices_symb(id)` writes (l.365-367), in order: the right-hand side, then the coefficients that are present. If the right-hand side has symbols the first
write raises `TypeError`, and the thread writes nothing. -/
def rowWrites (ids : List ℕ) (id : ℕ) : EqRow K → List (Entry × K)
  | none => []
  | some r => (.d (ids.idxOf id), r.2) :: ((List.range ids.length).filter fun j => decide (r.1 (ids.getD j 0) ≠ 0)).map fun j => (.A (ids.idxOf id) j, r.1 (ids.getD j 0))

/-- One entry written. (fdm.py l.348-372) -/
def write (M : (ℕ → ℕ → K) × (ℕ → K)) (w : Entry × K) : (ℕ → ℕ → K) × (ℕ → K) :=
  match w.1 with
  | .d i => (M.1, Function.update M.2 i w.2)
  | .A i j => (fun a b => if a = i ∧ b = j then w.2 else M.1 a b, M.2)

/-- `w` interleaves the lists of `ls`: the steps of each in order, between them steps of the others. -/
inductive Interleaving {α : Type} : List (List α) → List α → Prop
  | nil {ls} (h : ∀ l, l ∈ ls → l = []) : Interleaving ls []
  | cons {l1 l2 : List (List α)} {x : α} {l : List α} {w : List α} (h : Interleaving (l1 ++ l :: l2) w) : Interleaving (l1 ++ (x :: l) :: l2) (x :: w)

/-- What `get_matrices_symb(threading=True)` may do: raise, or return `A` and `d` and leave `cells_terms`. The first pool has `n // 2` threads, which must not be zero
(`ValueError`). The results of the first pool are taken in the order of the cells, and the first exception among them is raised. The results of the second pool are not
looked at, so exceptions in it are lost. (fdm.py l.374-423) -/
inductive Threaded (c : Ctx K) (m : Mdl K) (s : Sol K) : Except Err (List (ℕ × Terms K) × (ℕ → ℕ → K) × (ℕ → K)) → Prop
  | pool (h : c.e.n / 2 = 0) : Threaded c m s (.error .value)
  | raise {sched : List ℕ} {l1 l2 : List ℕ} {id : ℕ} {x : Err} (h : c.e.n / 2 ≠ 0) (hids : c.e.ids = l1 ++ id :: l2)
      (h1 : ∀ k, k ∈ l1 → ∃ r, (Pool.run c m s sched).pc k = .done (.ok r)) (hx : (Pool.run c m s sched).pc id = .done (.error x)) : Threaded c m s (.error x)
  | ok {sched : List ℕ} {rows : List (ℕ × EqRow K)} {w : List (Entry × K)} (h : c.e.n / 2 ≠ 0)
      (hr : List.Forall₂ (fun id x => x.1 = id ∧ (Pool.run c m s sched).pc id = .done (.ok x.2)) c.e.ids rows)
      (hw : Interleaving (rows.map fun x => rowWrites c.e.ids x.1 x.2) w) :
      Threaded c m s (.ok ((Pool.run c m s sched).terms, (w.foldl write (symbStart s)).1, (w.foldl write (symbStart s)).2))

/-! ### the first pool -/

/-- What the thread of a cell sees: its own terms and its place. -/
def Pool.view (P : Pool K) (id : ℕ) : Option (Terms K) × Pc K := (dictGet P.terms id, P.pc id)

/-- A step of a thread on its own view. -/
def viewStep (c : Ctx K) (m : Mdl K) (s : Sol K) (id : ℕ) (v : Option (Terms K) × Pc K) : Option (Terms K) × Pc K :=
  match v.2 with
  | .test => (v.1, if v.1.isNone then .build else .well)
  | .build => match buildTerms c.lower c.e m s id with
    | .ok t => (v.1, .store t)
    | .error x => (v.1, .done (.error x))
  | .store t => (some t, .eq)
  | .well => match v.1 with
    | some t => match refreshWell c.e m id t with
      | .ok t' => (some t', .acc)
      | .error x => (v.1, .done (.error x))
    | none => (v.1, .done (.error .key))
  | .acc => match v.1 with
    | some t => if c.e.comp then
        match aTerm c.e s id with
        | .ok a => (some { t with a := a }, .eq)
        | .error x => (v.1, .done (.error x))
      else (v.1, .eq)
    | none => (v.1, .done (.error .key))
  | .eq => match v.1 with
    | some t => (v.1, .done (cellRow c t))
    | none => (v.1, .done (.error .key))
  | .done r => (v.1, .done r)

lemma Pool.step_view (c : Ctx K) (m : Mdl K) (s : Sol K) (P : Pool K) (id k : ℕ) :
    (P.step c m s id).view k = if k = id then viewStep c m s id (P.view id) else P.view k := by
  have hpc : ∀ x : Pc K, k ≠ id → Function.update P.pc id x k = P.pc k := fun x h => Function.update_of_ne h _ _
  have hset : ∀ t, k ≠ id → dictGet (dictSet P.terms id t) k = dictGet P.terms k := fun t h => by rw [dictGet_set, if_neg (Ne.symm h)]
  have hself : ∀ t, dictGet (dictSet P.terms id t) id = some t := fun t => by rw [dictGet_set, if_pos rfl]
  unfold Pool.step Pool.view viewStep termStep
  by_cases hk : k = id
  · subst hk
    rw [if_pos rfl]
    dsimp only
    rw [Function.update_self]
    cases hp : P.pc k with
    | test => rfl
    | build => dsimp only; cases buildTerms c.lower c.e m s k <;> rfl
    | store t => dsimp only; rw [hself]
    | well =>
      dsimp only
      cases hd : dictGet P.terms k with
      | none => dsimp only; rw [hd]
      | some t =>
        dsimp only
        cases refreshWell c.e m k t with
        | error x => dsimp only; rw [hd]
        | ok t' => dsimp only; rw [hself]
    | acc =>
      dsimp only
      cases hd : dictGet P.terms k with
      | none => dsimp only; rw [hd]
      | some t =>
        dsimp only
        split_ifs
        · cases aTerm c.e s k with
          | error x => dsimp only; rw [hd]
          | ok t' => dsimp only; rw [hself]
        · dsimp only; rw [hd]
    | eq =>
      dsimp only
      cases hd : dictGet P.terms k with
      | none => dsimp only; rw [hd]
      | some t => dsimp only; rw [hd]
    | done r => rfl
  · rw [if_neg hk]
    dsimp only
    rw [hpc _ hk]
    congr 1
    cases hp : P.pc id with
    | test => rfl
    | build => dsimp only; cases buildTerms c.lower c.e m s id <;> rfl
    | store t => exact hset t hk
    | well =>
      dsimp only
      cases hd : dictGet P.terms id with
      | none => rfl
      | some t => dsimp only; cases refreshWell c.e m id t <;> first | rfl | exact hset _ hk
    | acc =>
      dsimp only
      cases hd : dictGet P.terms id with
      | none => rfl
      | some t =>
        dsimp only
        split_ifs
        · cases aTerm c.e s id <;> first | rfl | exact hset _ hk
        · rfl
    | eq => dsimp only; cases dictGet P.terms id <;> rfl
    | done r => rfl

/-- Under any schedule a thread's view is what it makes alone with as many steps. -/
lemma Pool.run_view (c : Ctx K) (m : Mdl K) (s : Sol K) (sched : List ℕ) (k : ℕ) :
    (Pool.run c m s sched).view k = (viewStep c m s k)^[sched.count k] (dictGet m.terms k, .test) := by
  unfold Pool.run
  have key : ∀ (l : List ℕ) (P : Pool K), (l.foldl (Pool.step c m s) P).view k = (viewStep c m s k)^[l.count k] (P.view k) := by
    intro l
    induction l with
    | nil => intro P; rfl
    | cons a l ih =>
      intro P
      rw [List.foldl_cons, ih, Pool.step_view]
      by_cases ha : k = a
      · subst ha
        rw [if_pos rfl, List.count_cons_self, Function.iterate_succ_apply]
      · rw [if_neg ha, List.count_cons_of_ne (Ne.symm ha)]
  exact key sched _

lemma view_done (c : Ctx K) (m : Mdl K) (s : Sol K) (k n : ℕ) (o : Option (Terms K)) (r : Except Err (EqRow K)) :
    (viewStep c m s k)^[n] (o, .done r) = (o, .done r) := by
  induction n with
  | zero => rfl
  | succ n ih => rw [Function.iterate_succ_apply]; exact ih

/-- A thread that is finished has done the same under every schedule. -/
lemma view_unique {c : Ctx K} {m : Mdl K} {s : Sol K} {k a b : ℕ} {x o o' : Option (Terms K)} {r r' : Except Err (EqRow K)}
    (h : (viewStep c m s k)^[a] (x, .test) = (o, .done r)) (h' : (viewStep c m s k)^[b] (x, .test) = (o', .done r')) : o = o' ∧ r = r' := by
  have key : (o, Pc.done r) = (o', Pc.done r') := by
    rcases le_total a b with hab | hab
    · obtain ⟨d, rfl⟩ := Nat.exists_eq_add_of_le hab
      rw [add_comm, Function.iterate_add_apply, h, view_done] at h'
      exact h'
    · obtain ⟨d, rfl⟩ := Nat.exists_eq_add_of_le hab
      rw [add_comm, Function.iterate_add_apply, h', view_done] at h
      exact h.symm
  simp only [Prod.mk.injEq, Pc.done.injEq] at key
  exact key

/-- What the thread of a cell does alone: the terms it leaves and the equation it returns. -/
lemma view_solo (c : Ctx K) (m : Mdl K) (s : Sol K) (k : ℕ) :
    (∃ t n, cellTerms c.lower c.e m s k = .ok t ∧ (viewStep c m s k)^[n] (dictGet m.terms k, .test) = (some t, .done (cellRow c t))) ∨
    ∃ x o n, cellTerms c.lower c.e m s k = .error x ∧ (viewStep c m s k)^[n] (dictGet m.terms k, .test) = (o, .done (.error x)) := by
  unfold cellTerms
  cases hd : dictGet m.terms k with
  | none =>
    dsimp only
    cases hb : buildTerms c.lower c.e m s k with
    | error x => exact Or.inr ⟨x, none, 2, rfl, by simp [Function.iterate_succ, viewStep, hb]⟩
    | ok t => exact Or.inl ⟨t, 4, rfl, by simp [Function.iterate_succ, viewStep, hb]⟩
  | some t =>
    dsimp only
    unfold refreshTerms
    cases hw : refreshWell c.e m k t with
    | error x => exact Or.inr ⟨x, some t, 2, rfl, by simp [Function.iterate_succ, viewStep, hw]⟩
    | ok t' =>
      cases hc : c.e.comp with
      | false => exact Or.inl ⟨t', 4, by simp, by simp [Function.iterate_succ, viewStep, hw, hc]⟩
      | true =>
        cases ha : aTerm c.e s k with
        | error x => exact Or.inr ⟨x, some t', 3, by simp; rfl, by simp [Function.iterate_succ, viewStep, hw, hc, ha]⟩
        | ok a => exact Or.inl ⟨{ t' with a := a }, 4, by simp; rfl, by simp [Function.iterate_succ, viewStep, hw, hc, ha]⟩

/-- What `get_cell_eq(id)` returns. (fdm.py l.221-319) -/
def soloRow (c : Ctx K) (m : Mdl K) (s : Sol K) (id : ℕ) : Except Err (EqRow K) := do
  let t ← cellTerms c.lower c.e m s id
  cellRow c t

/-- A finished thread returns what it returns alone, and leaves those terms. -/
lemma Pool.done {c : Ctx K} {m : Mdl K} {s : Sol K} {sched : List ℕ} {k : ℕ} {r : Except Err (EqRow K)} (h : (Pool.run c m s sched).pc k = .done r) :
    r = soloRow c m s k ∧ ∀ t, cellTerms c.lower c.e m s k = .ok t → dictGet (Pool.run c m s sched).terms k = some t := by
  have hv := Pool.run_view c m s sched k
  unfold Pool.view at hv
  rw [h] at hv
  rcases view_solo c m s k with ⟨t, n, h1, h2⟩ | ⟨x, o, n, h1, h2⟩
  · obtain ⟨g1, g2⟩ := view_unique hv.symm h2
    refine ⟨by unfold soloRow; rw [h1, g2]; rfl, fun t' ht' => ?_⟩
    rw [h1] at ht'
    simp only [Except.ok.injEq] at ht'
    subst ht'
    exact g1
  · obtain ⟨g1, g2⟩ := view_unique hv.symm h2
    refine ⟨by unfold soloRow; rw [h1, g2]; rfl, fun t' ht' => ?_⟩
    rw [h1] at ht'
    simp at ht'

/-- The terms of cells that have no thread stay. -/
lemma Pool.other {c : Ctx K} {m : Mdl K} {s : Sol K} {sched : List ℕ} {k : ℕ} (h : k ∉ sched) :
    dictGet (Pool.run c m s sched).terms k = dictGet m.terms k := by
  have hv := Pool.run_view c m s sched k
  rw [List.count_eq_zero_of_not_mem h] at hv
  exact congrArg Prod.fst hv

lemma iterate_count_ge {c : Ctx K} {m : Mdl K} {s : Sol K} {k a b : ℕ} {x o : Option (Terms K)} {r : Except Err (EqRow K)} (hab : a ≤ b)
    (h : (viewStep c m s k)^[a] (x, .test) = (o, .done r)) : (viewStep c m s k)^[b] (x, .test) = (o, .done r) := by
  obtain ⟨d, rfl⟩ := Nat.exists_eq_add_of_le hab
  rw [add_comm, Function.iterate_add_apply, h, view_done]

/-- Four steps are enough. -/
lemma view_four (c : Ctx K) (m : Mdl K) (s : Sol K) (k : ℕ) : ∃ o, (viewStep c m s k)^[4] (dictGet m.terms k, .test) = (o, .done (soloRow c m s k)) := by
  unfold soloRow cellTerms
  cases hd : dictGet m.terms k with
  | none =>
    dsimp only
    cases hb : buildTerms c.lower c.e m s k with
    | error x => exact ⟨none, by simp [Function.iterate_succ, viewStep, hb]; rfl⟩
    | ok t => exact ⟨some t, by simp [Function.iterate_succ, viewStep, hb]; rfl⟩
  | some t =>
    dsimp only
    unfold refreshTerms
    cases hw : refreshWell c.e m k t with
    | error x => exact ⟨some t, by simp [Function.iterate_succ, viewStep, hw]; rfl⟩
    | ok t' =>
      cases hc : c.e.comp with
      | false => exact ⟨some t', by simp [Function.iterate_succ, viewStep, hw, hc]; rfl⟩
      | true =>
        cases ha : aTerm c.e s k with
        | error x => exact ⟨some t', by simp [Function.iterate_succ, viewStep, hw, hc, ha]; rfl⟩
        | ok a => exact ⟨some { t' with a := a }, by simp [Function.iterate_succ, viewStep, hw, hc, ha]; rfl⟩

/-- One thread after the other. -/
def inTurn (ids : List ℕ) : List ℕ := ids.flatMap fun id => List.replicate 4 id

lemma inTurn_count (ids : List ℕ) (k : ℕ) (h : k ∈ ids) : 4 ≤ (inTurn ids).count k := by
  induction ids with
  | nil => simp at h
  | cons a l ih =>
    unfold inTurn at ih ⊢
    rw [List.flatMap_cons, List.count_append]
    rcases List.mem_cons.1 h with rfl | h
    · rw [List.count_replicate_self]; omega
    · have := ih h; omega

lemma Pool.inTurn_done (c : Ctx K) (m : Mdl K) (s : Sol K) (ids : List ℕ) {k : ℕ} (h : k ∈ ids) :
    (Pool.run c m s (inTurn ids)).pc k = .done (soloRow c m s k) := by
  obtain ⟨o, ho⟩ := view_four c m s k
  have hv := Pool.run_view c m s (inTurn ids) k
  rw [iterate_count_ge (inTurn_count ids k h) ho] at hv
  exact congrArg Prod.snd hv

/-! ### the second pool -/

lemma Interleaving.mem {α : Type} {ls : List (List α)} {w : List α} (h : Interleaving ls w) (x : α) : x ∈ w ↔ ∃ l, l ∈ ls ∧ x ∈ l := by
  induction h with
  | nil h =>
    refine ⟨fun h => by simp at h, fun ⟨l, hl, hx⟩ => ?_⟩
    rw [h l hl] at hx
    exact hx
  | cons h ih =>
    rw [List.mem_cons, ih]
    constructor
    · rintro (rfl | ⟨l, hl, hx⟩)
      · exact ⟨_, List.mem_append_right _ List.mem_cons_self, List.mem_cons_self⟩
      · rcases List.mem_append.1 hl with hl | hl
        · exact ⟨l, List.mem_append_left _ hl, hx⟩
        · rcases List.mem_cons.1 hl with rfl | hl
          · exact ⟨_, List.mem_append_right _ List.mem_cons_self, List.mem_cons_of_mem _ hx⟩
          · exact ⟨l, List.mem_append_right _ (List.mem_cons_of_mem _ hl), hx⟩
    · rintro ⟨l, hl, hx⟩
      rcases List.mem_append.1 hl with hl | hl
      · exact Or.inr ⟨l, List.mem_append_left _ hl, hx⟩
      · rcases List.mem_cons.1 hl with rfl | hl
        · rcases List.mem_cons.1 hx with rfl | hx
          · exact Or.inl rfl
          · exact Or.inr ⟨_, List.mem_append_right _ List.mem_cons_self, hx⟩
        · exact Or.inr ⟨l, List.mem_append_right _ (List.mem_cons_of_mem _ hl), hx⟩

lemma Interleaving.flatten {α : Type} (ls : List (List α)) : Interleaving ls ls.flatten := by
  have key : ∀ (l2 l1 : List (List α)), (∀ l, l ∈ l1 → l = []) → Interleaving (l1 ++ l2) l2.flatten := by
    intro l2
    induction l2 with
    | nil => intro l1 h; rw [List.append_nil]; exact .nil h
    | cons a l2 ih =>
      intro l1 h
      rw [List.flatten_cons]
      induction a with
      | nil =>
        have := ih (l1 ++ [[]]) fun l hl => by
          rcases List.mem_append.1 hl with hl | hl
          · exact h l hl
          · simpa using hl
        rw [List.append_assoc] at this
        exact this
      | cons x a iha => exact .cons iha
  exact key ls [] (by simp)

/-- Entries written, each always with the same value, in any order. -/
lemma writes_d {w : List (Entry × K)} {V : Entry → K} (h : ∀ x, x ∈ w → x.2 = V x.1) (M : (ℕ → ℕ → K) × (ℕ → K)) (i : ℕ) :
    (w.foldl write M).2 i = if Entry.d i ∈ w.map (·.1) then V (.d i) else M.2 i := by
  induction w generalizing M with
  | nil => simp
  | cons x w ih =>
    rw [List.foldl_cons, ih (fun y hy => h y (by simp [hy])), List.map_cons, if_congr (List.mem_cons) rfl rfl]
    by_cases hm : Entry.d i ∈ w.map (·.1)
    · rw [if_pos hm, if_pos (Or.inr hm)]
    · rw [if_neg hm]
      obtain ⟨l, v⟩ := x
      have hv := h (l, v) (by simp)
      dsimp only at hv ⊢
      cases l with
      | d k =>
        unfold write
        dsimp only
        by_cases hk : i = k
        · subst hk
          rw [Function.update_self, if_pos (Or.inl rfl), hv]
        · rw [Function.update_of_ne hk, if_neg]
          rintro (h' | h')
          · exact hk (by simpa using h')
          · exact hm h'
      | A a b =>
        rw [if_neg]
        · rfl
        · rintro (h' | h')
          · simp at h'
          · exact hm h'

lemma writes_A {w : List (Entry × K)} {V : Entry → K} (h : ∀ x, x ∈ w → x.2 = V x.1) (M : (ℕ → ℕ → K) × (ℕ → K)) (i j : ℕ) :
    (w.foldl write M).1 i j = if Entry.A i j ∈ w.map (·.1) then V (.A i j) else M.1 i j := by
  induction w generalizing M with
  | nil => simp
  | cons x w ih =>
    rw [List.foldl_cons, ih (fun y hy => h y (by simp [hy])), List.map_cons, if_congr (List.mem_cons) rfl rfl]
    by_cases hm : Entry.A i j ∈ w.map (·.1)
    · rw [if_pos hm, if_pos (Or.inr hm)]
    · rw [if_neg hm]
      obtain ⟨l, v⟩ := x
      have hv := h (l, v) (by simp)
      dsimp only at hv ⊢
      cases l with
      | A a b =>
        unfold write
        dsimp only
        by_cases hk : i = a ∧ j = b
        · obtain ⟨rfl, rfl⟩ := hk
          rw [if_pos ⟨rfl, rfl⟩, if_pos (Or.inl rfl), hv]
        · rw [if_neg hk, if_neg]
          rintro (h' | h')
          · simp only [Entry.A.injEq] at h'; exact hk h'
          · exact hm h'
      | d a =>
        rw [if_neg]
        · rfl
        · rintro (h' | h')
          · simp at h'
          · exact hm h'

/-- What all threads together write into an entry, if `row` gives the equations. -/
def entryOf (ids : List ℕ) (row : ℕ → EqRow K) : Entry → K
  | .d i => match row (ids.getD i 0) with | some r => r.2 | none => 0
  | .A i j => match row (ids.getD i 0) with | some r => r.1 (ids.getD j 0) | none => 0

lemma getD_idx {ids : List ℕ} {id : ℕ} (h : id ∈ ids) : ids.getD (ids.idxOf id) 0 = id := by
  rw [List.getD_eq_getElem?_getD, List.getElem?_eq_getElem (List.idxOf_lt_length_of_mem h)]
  simp

lemma rowWrites_val {ids : List ℕ} {row : ℕ → EqRow K} {id : ℕ} (h : id ∈ ids) : ∀ x, x ∈ rowWrites ids id (row id) → x.2 = entryOf ids row x.1 := by
  intro x hx
  unfold rowWrites at hx
  cases hr : row id with
  | none => rw [hr] at hx; simp at hx
  | some r =>
    rw [hr] at hx
    rcases List.mem_cons.1 hx with rfl | hx
    · simp only [entryOf, getD_idx h, hr]
    · obtain ⟨j, -, rfl⟩ := List.mem_map.1 hx
      simp only [entryOf, getD_idx h, hr]

/-- What the rows written by any interleaving give, entry by entry. -/
lemma interleaved {ids : List ℕ} (hn : ids.Nodup) {row : ℕ → EqRow K} {w : List (Entry × K)} (h : Interleaving (ids.map fun id => rowWrites ids id (row id)) w)
    (M : (ℕ → ℕ → K) × (ℕ → K)) :
    (∀ i, (w.foldl write M).2 i = match ids[i]? with | some id => (match row id with | some r => r.2 | none => M.2 i) | none => M.2 i) ∧
    ∀ i j, (w.foldl write M).1 i j = match ids[i]?, ids[j]? with
      | some id, some k => (match row id with | some r => if r.1 k = 0 then M.1 i j else r.1 k | none => M.1 i j)
      | _, _ => M.1 i j := by
  have hV : ∀ x, x ∈ w → x.2 = entryOf ids row x.1 := by
    intro x hx
    obtain ⟨l, hl, hx⟩ := (h.mem x).1 hx
    obtain ⟨id, hid, rfl⟩ := List.mem_map.1 hl
    exact rowWrites_val hid x hx
  have hmem : ∀ l, l ∈ w.map (·.1) ↔ ∃ id, id ∈ ids ∧ l ∈ (rowWrites ids id (row id)).map (·.1) := by
    intro l
    constructor
    · intro hl
      obtain ⟨x, hx, rfl⟩ := List.mem_map.1 hl
      obtain ⟨l', hl', hx⟩ := (h.mem x).1 hx
      obtain ⟨id, hid, rfl⟩ := List.mem_map.1 hl'
      exact ⟨id, hid, List.mem_map_of_mem hx⟩
    · rintro ⟨id, hid, hl⟩
      obtain ⟨x, hx, rfl⟩ := List.mem_map.1 hl
      exact List.mem_map_of_mem ((h.mem x).2 ⟨_, List.mem_map_of_mem hid, hx⟩)
  have hd : ∀ i, Entry.d i ∈ w.map (·.1) ↔ ∃ id r, ids[i]? = some id ∧ row id = some r := by
    intro i
    rw [hmem]
    constructor
    · rintro ⟨id, hid, hl⟩
      unfold rowWrites at hl
      cases hr : row id with
      | none => rw [hr] at hl; simp at hl
      | some r =>
        rw [hr] at hl
        simp only [List.map_cons, List.mem_cons, Entry.d.injEq, List.map_map, List.mem_map, Function.comp_apply, reduceCtorEq, and_false, exists_false, or_false] at hl
        subst hl
        exact ⟨id, r, by rw [List.getElem?_eq_getElem (List.idxOf_lt_length_of_mem hid)]; simp, hr⟩
    · rintro ⟨id, r, h1, h2⟩
      obtain ⟨hi, h3⟩ := List.getElem?_eq_some_iff.1 h1
      refine ⟨id, List.mem_of_getElem? h1, ?_⟩
      rw [h2]
      have : ids.idxOf id = i := by rw [← h3]; exact hn.idxOf_getElem i hi
      simp [rowWrites, this]
  have hA : ∀ i j, Entry.A i j ∈ w.map (·.1) ↔ ∃ id k r, ids[i]? = some id ∧ ids[j]? = some k ∧ row id = some r ∧ r.1 k ≠ 0 := by
    intro i j
    rw [hmem]
    constructor
    · rintro ⟨id, hid, hl⟩
      unfold rowWrites at hl
      cases hr : row id with
      | none => rw [hr] at hl; simp at hl
      | some r =>
        rw [hr] at hl
        simp only [List.map_cons, List.mem_cons, reduceCtorEq, false_or, List.map_map, List.mem_map, List.mem_filter, List.mem_range, decide_eq_true_eq, Function.comp_apply,
          Entry.A.injEq] at hl
        obtain ⟨k, ⟨hk, hne⟩, rfl, rfl⟩ := hl
        rw [List.getD_eq_getElem?_getD, List.getElem?_eq_getElem hk] at hne
        exact ⟨id, ids[k], r, by rw [List.getElem?_eq_getElem (List.idxOf_lt_length_of_mem hid)]; simp, List.getElem?_eq_getElem hk, hr, hne⟩
    · rintro ⟨id, k, r, h1, h1', h2, h3⟩
      obtain ⟨hi, hi'⟩ := List.getElem?_eq_some_iff.1 h1
      obtain ⟨hj, hj'⟩ := List.getElem?_eq_some_iff.1 h1'
      refine ⟨id, List.mem_of_getElem? h1, ?_⟩
      rw [h2]
      have : ids.idxOf id = i := by rw [← hi']; exact hn.idxOf_getElem i hi
      simp only [rowWrites, List.map_cons, List.mem_cons, reduceCtorEq, false_or, List.map_map, List.mem_map, List.mem_filter, List.mem_range, decide_eq_true_eq, Function.comp_apply,
        Entry.A.injEq]
      exact ⟨j, ⟨hj, by rw [List.getD_eq_getElem?_getD, h1']; exact h3⟩, this, rfl⟩
  constructor
  · intro i
    rw [writes_d hV]
    cases h1 : ids[i]? with
    | none => rw [if_neg]; rw [hd]; rintro ⟨id, r, g, -⟩; rw [h1] at g; simp at g
    | some id =>
      dsimp only
      cases h2 : row id with
      | none => rw [if_neg]; rw [hd]; rintro ⟨id', r, g, g'⟩; rw [h1] at g; simp only [Option.some.injEq] at g; subst g; rw [h2] at g'; simp at g'
      | some r =>
        rw [if_pos ((hd i).2 ⟨id, r, h1, h2⟩)]
        simp [entryOf, h1, h2]
  · intro i j
    rw [writes_A hV]
    cases h1 : ids[i]? with
    | none => rw [if_neg]; rw [hA]; rintro ⟨id, k, r, g, -⟩; rw [h1] at g; simp at g
    | some id =>
      cases h1' : ids[j]? with
      | none => rw [if_neg]; rw [hA]; rintro ⟨id, k, r, -, g, -⟩; rw [h1'] at g; simp at g
      | some k =>
        dsimp only
        cases h2 : row id with
        | none => rw [if_neg]; rw [hA]; rintro ⟨id', k, r, g, -, g', -⟩; rw [h1] at g; simp only [Option.some.injEq] at g; subst g; rw [h2] at g'; simp at g'
        | some r =>
          dsimp only
          by_cases h3 : r.1 k = 0
          · rw [if_pos h3, if_neg]
            rw [hA]
            rintro ⟨id', k', r', g, g', g'', g4⟩
            rw [h1] at g; rw [h1'] at g'; simp only [Option.some.injEq] at g g'; subst g g'; rw [h2] at g''; simp only [Option.some.injEq] at g''; subst g''
            exact g4 h3
          · rw [if_neg h3, if_pos ((hA i j).2 ⟨id, k, r, h1, h1', h2, h3⟩)]
            simp [entryOf, h1, h1', h2]

end RF.Fdm
