import Verif.Fdm.Threads
/-!
# Threads change nothing, except for one cell and for exceptions (C33)
-/
set_option linter.unusedSectionVars false
namespace RF.Fdm
open RF RF.Dims Finset

variable {K : Type} [Field K] [LinearOrder K] [IsStrictOrderedRing K]

/-! ### without threads -/

/-- `get_cells_eq(False)` (fdm.py l.336-341): the equations in order, right-hand sides with symbols among them. -/
def cellRows (c : Ctx K) (m : Mdl K) (s : Sol K) : Except Err (List (ℕ × Terms K) × List (ℕ × EqRow K)) :=
  c.e.ids.foldlM (fun (acc : List (ℕ × Terms K) × List (ℕ × EqRow K)) id => do
    let t ← cellTerms c.lower c.e { m with terms := acc.1 } s id
    let r ← cellRow c t
    pure (dictSet acc.1 id t, acc.2 ++ [(id, r)])) (m.terms, [])

lemma cellTerms_local (c : Ctx K) (m : Mdl K) (s : Sol K) (id : ℕ) (ts : List (ℕ × Terms K)) (h : dictGet ts id = dictGet m.terms id) :
    cellTerms c.lower c.e { m with terms := ts } s id = cellTerms c.lower c.e m s id := by
  unfold cellTerms
  dsimp only
  rw [h]
  rfl

lemma cellRows_fold (c : Ctx K) (m : Mdl K) (s : Sol K) (l : List ℕ) (hn : l.Nodup) (acc : List (ℕ × Terms K) × List (ℕ × EqRow K))
    (hacc : ∀ id, id ∈ l → dictGet acc.1 id = dictGet m.terms id) :
    match l.foldlM (fun (acc : List (ℕ × Terms K) × List (ℕ × EqRow K)) id => do
      let t ← cellTerms c.lower c.e { m with terms := acc.1 } s id
      let r ← cellRow c t
      pure (dictSet acc.1 id t, acc.2 ++ [(id, r)])) acc with
    | .ok x => (∃ rows, x.2 = acc.2 ++ rows ∧ List.Forall₂ (fun id y => y.1 = id ∧ soloRow c m s id = .ok y.2) l rows) ∧
        (∀ id, id ∈ l → ∃ t, cellTerms c.lower c.e m s id = .ok t ∧ dictGet x.1 id = some t) ∧ ∀ k, k ∉ l → dictGet x.1 k = dictGet acc.1 k
    | .error x => ∃ l1 id l2, l = l1 ++ id :: l2 ∧ (∀ k, k ∈ l1 → ∃ r, soloRow c m s k = .ok r) ∧ soloRow c m s id = .error x := by
  induction l generalizing acc with
  | nil => exact ⟨⟨[], by simp, .nil⟩, by simp, fun k _ => rfl⟩
  | cons id l ih =>
    rw [List.foldlM_cons]
    rw [cellTerms_local c m s id acc.1 (hacc id (by simp))]
    cases ht : cellTerms c.lower c.e m s id with
    | error x => exact ⟨[], id, l, rfl, by simp, by unfold soloRow; rw [ht]; rfl⟩
    | ok t =>
      simp only [bind_ok]
      cases hr : cellRow c t with
      | error x => exact ⟨[], id, l, rfl, by simp, by unfold soloRow; rw [ht]; exact hr⟩
      | ok r =>
        simp only [bind_ok, bind_pure']
        have hs : soloRow c m s id = .ok r := by unfold soloRow; rw [ht]; exact hr
        have hid : id ∉ l := (List.nodup_cons.1 hn).1
        have := ih (List.nodup_cons.1 hn).2 (dictSet acc.1 id t, acc.2 ++ [(id, r)]) (fun k hk => by
          dsimp only
          rw [dictGet_set, if_neg (fun h : id = k => hid (h ▸ hk))]
          exact hacc k (by simp [hk]))
        revert this
        split
        · rename_i x hx
          rintro ⟨⟨rows, g1, g2⟩, g3, g4⟩
          refine ⟨⟨(id, r) :: rows, by rw [g1]; simp, .cons ⟨rfl, hs⟩ g2⟩, fun k hk => ?_, fun k hk => ?_⟩
          · rcases List.mem_cons.1 hk with rfl | hk
            · exact ⟨t, ht, by rw [g4 _ hid]; dsimp only; rw [dictGet_set, if_pos rfl]⟩
            · exact g3 k hk
          · rw [g4 k (fun h => hk (by simp [h]))]
            dsimp only
            rw [dictGet_set, if_neg (fun h : id = k => hk (by simp [h]))]
        · rename_i x hx
          rintro ⟨l1, k, l2, g1, g2, g3⟩
          refine ⟨id :: l1, k, l2, by rw [g1]; rfl, fun j hj => ?_, g3⟩
          rcases List.mem_cons.1 hj with rfl | hj
          · exact ⟨r, hs⟩
          · exact g2 j hj

lemma cellRows_ok {c : Ctx K} {m : Mdl K} {s : Sol K} (hn : c.e.ids.Nodup) {ts : List (ℕ × Terms K)} {rows : List (ℕ × EqRow K)} (h : cellRows c m s = .ok (ts, rows)) :
    List.Forall₂ (fun id y => y.1 = id ∧ soloRow c m s id = .ok y.2) c.e.ids rows ∧
    (∀ id, id ∈ c.e.ids → ∃ t, cellTerms c.lower c.e m s id = .ok t ∧ dictGet ts id = some t) ∧ ∀ k, k ∉ c.e.ids → dictGet ts k = dictGet m.terms k := by
  have := cellRows_fold c m s c.e.ids hn (m.terms, []) fun _ _ => rfl
  unfold cellRows at h
  rw [h] at this
  obtain ⟨⟨rows', g1, g2⟩, g3, g4⟩ := this
  simp only [List.nil_append] at g1
  subst g1
  exact ⟨g2, g3, g4⟩

lemma cellRows_error {c : Ctx K} {m : Mdl K} {s : Sol K} (hn : c.e.ids.Nodup) {x : Err} (h : cellRows c m s = .error x) :
    ∃ l1 id l2, c.e.ids = l1 ++ id :: l2 ∧ (∀ k, k ∈ l1 → ∃ r, soloRow c m s k = .ok r) ∧ soloRow c m s id = .error x := by
  have := cellRows_fold c m s c.e.ids hn (m.terms, []) fun _ _ => rfl
  unfold cellRows at h
  rw [h] at this
  exact this

/-- The right-hand sides are stored in order; symbols in one raise `TypeError` (l.365-366). -/
def storeRows (ids : List ℕ) : List (ℕ × EqRow K) → (ℕ → ℕ → K) × (ℕ → K) → Except Err ((ℕ → ℕ → K) × (ℕ → K))
  | [], M => .ok M
  | (_, none) :: _, _ => .error .type
  | (id, some r) :: l, M => storeRows ids l (writeRow ids M id r)

/-- `get_matrices_symb(False)` (l.374-423), first the equations, then the matrix. -/
def matricesSeq (c : Ctx K) (m : Mdl K) (s : Sol K) : Except Err (List (ℕ × Terms K) × (ℕ → ℕ → K) × (ℕ → K)) := do
  let (ts, rows) ← cellRows c m s
  let M ← storeRows c.e.ids rows (symbStart s)
  pure (ts, M.1, M.2)

lemma rows_keep (c : Ctx K) (m : Mdl K) (s : Sol K) (l : List ℕ) (acc x : List (ℕ × Terms K) × List (ℕ × EqRow K))
    (h : l.foldlM (fun (acc : List (ℕ × Terms K) × List (ℕ × EqRow K)) id => do
      let t ← cellTerms c.lower c.e { m with terms := acc.1 } s id
      let r ← cellRow c t
      pure (dictSet acc.1 id t, acc.2 ++ [(id, r)])) acc = .ok x) : ∀ y, y ∈ acc.2 → y ∈ x.2 := by
  induction l generalizing acc with
  | nil => rw [List.foldlM_nil, ok_pure] at h; subst h; exact fun _ h => h
  | cons id l ih =>
    rw [List.foldlM_cons, ok_bind] at h
    obtain ⟨a1, h1, h⟩ := h
    rw [ok_bind] at h1
    obtain ⟨t, -, h1⟩ := h1
    rw [ok_bind] at h1
    obtain ⟨r, -, h1⟩ := h1
    rw [ok_pure] at h1
    subst h1
    exact fun y hy => ih _ h y (by simp [hy])

lemma seq_model (c : Ctx K) (m : Mdl K) (s : Sol K) (l : List ℕ) (ts : List (ℕ × Terms K)) (r : List (ℕ × (ℕ → K) × K)) :
    match l.foldlM (fun (acc : Mdl K × List (ℕ × (ℕ → K) × K)) id => do
        let (m, row) ← cellEq c.lower c.scale c.e acc.1 s id
        pure (m, acc.2 ++ [(id, row)])) ({ m with terms := ts }, r) with
    | .ok x => ∃ ts', l.foldlM (fun (acc : List (ℕ × Terms K) × List (ℕ × EqRow K)) id => do
        let t ← cellTerms c.lower c.e { m with terms := acc.1 } s id
        let r ← cellRow c t
        pure (dictSet acc.1 id t, acc.2 ++ [(id, r)])) (ts, r.map fun y => (y.1, some y.2)) = .ok (ts', x.2.map fun y => (y.1, some y.2)) ∧ x.1 = { m with terms := ts' }
    | .error _ => ∀ y, l.foldlM (fun (acc : List (ℕ × Terms K) × List (ℕ × EqRow K)) id => do
        let t ← cellTerms c.lower c.e { m with terms := acc.1 } s id
        let r ← cellRow c t
        pure (dictSet acc.1 id t, acc.2 ++ [(id, r)])) (ts, r.map fun y => (y.1, some y.2)) = .ok y → ∃ z, z ∈ y.2 ∧ z.2 = none := by
  induction l generalizing ts r with
  | nil => exact ⟨ts, rfl, rfl⟩
  | cons id l ih =>
    rw [List.foldlM_cons, List.foldlM_cons]
    unfold cellEq
    cases ht : cellTerms c.lower c.e { m with terms := ts } s id with
    | error x => exact fun y hy => by simp [ht] at hy; exact absurd hy (by intro h; cases h)
    | ok t =>
      simp only [ht, bind_ok]
      cases hr : eqRow c.scale c.e.ids (Aff.sum t.f) t.a with
      | ok row =>
        have hc : cellRow c t = .ok (some row) := by unfold cellRow; rw [hr]
        rw [hc]
        simp only [bind_ok, bind_pure']
        have := ih (dictSet ts id t) (r ++ [(id, row)])
        rw [List.map_append] at this
        exact this
      | error x =>
        intro y hy
        cases hc : cellRow c t with
        | error z => rw [hc] at hy; exact absurd hy (by intro h; cases h)
        | ok q =>
          have hq : q = none := by
            unfold cellRow at hc
            rw [hr] at hc
            revert hc
            split <;> simp_all
          rw [hc] at hy
          simp only [bind_ok, bind_pure'] at hy
          exact ⟨(id, q), rows_keep c m s l _ y hy _ (by simp), hq⟩

lemma storeRows_some (ids : List ℕ) (r : List (ℕ × (ℕ → K) × K)) (M : (ℕ → ℕ → K) × (ℕ → K)) :
    storeRows ids (r.map fun y => (y.1, some y.2)) M = .ok (r.foldl (fun M x => writeRow ids M x.1 x.2) M) := by
  induction r generalizing M with
  | nil => rfl
  | cons x r ih => exact ih _

lemma storeRows_none (ids : List ℕ) (r : List (ℕ × EqRow K)) (M : (ℕ → ℕ → K) × (ℕ → K)) (h : ∃ z, z ∈ r ∧ z.2 = none) : storeRows ids r M = .error .type := by
  induction r generalizing M with
  | nil => simp at h
  | cons x r ih =>
    obtain ⟨id, o⟩ := x
    cases o with
    | none => rfl
    | some o =>
      obtain ⟨z, hz, h⟩ := h
      rcases List.mem_cons.1 hz with rfl | hz
      · simp at h
      · exact ih _ ⟨z, hz, h⟩

/-- It is the assembly of the model (`matricesSymb`), which raises at once what in fact is raised when the right-hand side is stored. -/
lemma matricesSeq_ok {c : Ctx K} {m : Mdl K} {s : Sol K} {m' : Mdl K} {s' : Sol K} {A : ℕ → ℕ → K} {d : ℕ → K} :
    assemble c false m s = .ok (m', s', A, d) ↔ ∃ ts, matricesSeq c m s = .ok (ts, A, d) ∧ m' = { m with terms := ts } ∧ s' = { s with sM := some (A, d) } := by
  have key := seq_model c m s c.e.ids m.terms []
  change match cellsEq c.lower c.scale c.e m s with
    | .ok x => ∃ ts', cellRows c m s = .ok (ts', x.2.map fun y => (y.1, some y.2)) ∧ x.1 = { m with terms := ts' }
    | .error _ => ∀ y, cellRows c m s = .ok y → ∃ z, z ∈ y.2 ∧ z.2 = none at key
  unfold assemble matricesSymb matricesSeq
  simp only [Bool.false_eq_true, if_false]
  revert key
  generalize cellsEq c.lower c.scale c.e m s = q
  intro key
  cases q with
  | error x =>
    dsimp only at key
    refine ⟨fun h => (by cases h), ?_⟩
    rintro ⟨ts, h, -⟩
    rw [ok_bind] at h
    obtain ⟨y, hy, h⟩ := h
    obtain ⟨y1, y2⟩ := y
    dsimp only at h
    rw [storeRows_none _ _ _ (key _ hy)] at h
    cases h
  | ok x =>
    dsimp only at key
    obtain ⟨ts', h1, h2⟩ := key
    obtain ⟨x1, x2⟩ := x
    dsimp only at h1 h2
    subst h2
    rw [h1]
    simp only [bind_ok, storeRows_some, ok_pure, Prod.mk.injEq]
    constructor
    · rintro ⟨rfl, rfl, rfl, rfl⟩
      exact ⟨ts', ⟨rfl, rfl, rfl⟩, rfl, rfl⟩
    · rintro ⟨ts, ⟨rfl, rfl, rfl⟩, rfl, rfl⟩
      exact ⟨rfl, rfl, rfl, rfl⟩

lemma flatten_one {α : Type} {ids : List ℕ} (hn : ids.Nodup) {id : ℕ} (h : id ∈ ids) {f : ℕ → List α} (hf : ∀ k, k ≠ id → f k = []) : (ids.map f).flatten = f id := by
  induction ids with
  | nil => simp at h
  | cons a l ih =>
    rw [List.map_cons, List.flatten_cons]
    rcases List.mem_cons.1 h with rfl | h
    · have : (l.map f).flatten = [] := by
        rw [List.flatten_eq_nil_iff]
        intro x hx
        obtain ⟨k, hk, rfl⟩ := List.mem_map.1 hx
        exact hf k fun h => (List.nodup_cons.1 hn).1 (h ▸ hk)
      rw [this, List.append_nil]
    · rw [ih (List.nodup_cons.1 hn).2 h, hf a fun h' => (List.nodup_cons.1 hn).1 (h' ▸ h), List.nil_append]

lemma writeRow_writes {ids : List ℕ} (hn : ids.Nodup) {id : ℕ} (h : id ∈ ids) (M : (ℕ → ℕ → K) × (ℕ → K)) (r : (ℕ → K) × K) :
    writeRow ids M id r = (rowWrites ids id (some r)).foldl write M := by
  have hi := List.idxOf_lt_length_of_mem h
  have hfl := flatten_one hn h (f := fun k => rowWrites ids k (if k = id then some r else none)) (fun k hk => by rw [if_neg hk]; rfl)
  rw [if_pos rfl] at hfl
  have hint := Interleaving.flatten (ids.map fun k => rowWrites ids k ((fun k => if k = id then some r else none) k))
  obtain ⟨g1, g2⟩ := interleaved hn hint M
  rw [hfl] at g1 g2
  have hne : ∀ {i k : ℕ}, ids[i]? = some k → (k = id ↔ i = ids.idxOf id) := by
    intro i k hk
    obtain ⟨hi', rfl⟩ := List.getElem?_eq_some_iff.1 hk
    constructor
    · rintro rfl; exact (hn.idxOf_getElem i hi').symm
    · rintro rfl; simp
  unfold writeRow
  refine Prod.ext (funext fun i => funext fun j => ?_) (funext fun i => ?_)
  · rw [g2]
    dsimp only
    cases h1 : ids[i]? with
    | none =>
      have : i ≠ ids.idxOf id := by rintro rfl; rw [List.getElem?_eq_getElem hi] at h1; simp at h1
      rw [if_neg this]
    | some k =>
      by_cases hk : k = id
      · rw [if_pos ((hne h1).1 hk)]
        cases h2 : ids[j]? with
        | none => rfl
        | some j' => dsimp only; rw [if_pos hk]
      · rw [if_neg fun h => hk ((hne h1).2 h)]
        cases h2 : ids[j]? with
        | none => rfl
        | some j' => dsimp only; rw [if_neg hk]
  · rw [g1]
    dsimp only
    cases h1 : ids[i]? with
    | none =>
      have : i ≠ ids.idxOf id := by rintro rfl; rw [List.getElem?_eq_getElem hi] at h1; simp at h1
      rw [if_neg this]
    | some k =>
      dsimp only
      by_cases hk : k = id
      · rw [if_pos ((hne h1).1 hk), if_pos hk]
      · rw [if_neg fun h => hk ((hne h1).2 h), if_neg hk]

lemma storeRows_writes {ids : List ℕ} (hn : ids.Nodup) {row : ℕ → EqRow K} (l : List ℕ) (hl : ∀ id, id ∈ l → id ∈ ids) {M M' : (ℕ → ℕ → K) × (ℕ → K)}
    (hs : storeRows ids (l.map fun id => (id, row id)) M = .ok M') : M' = (l.map fun id => rowWrites ids id (row id)).flatten.foldl write M := by
  induction l generalizing M with
  | nil => simp only [List.map_nil, storeRows, Except.ok.injEq] at hs; exact hs.symm
  | cons id l ih =>
    rw [List.map_cons] at hs
    rw [List.map_cons, List.flatten_cons, List.foldl_append]
    cases hr : row id with
    | none => rw [hr] at hs; cases hs
    | some r =>
      rw [hr] at hs
      rw [← writeRow_writes hn (hl id (by simp))]
      exact ih (fun k hk => hl k (by simp [hk])) hs

/-- The order in which the rows are stored does not matter. -/
lemma storeRows_entries {ids : List ℕ} (hn : ids.Nodup) {row : ℕ → EqRow K} {w : List (Entry × K)} (h : Interleaving (ids.map fun id => rowWrites ids id (row id)) w)
    {M M' : (ℕ → ℕ → K) × (ℕ → K)} (hs : storeRows ids (ids.map fun id => (id, row id)) M = .ok M') : w.foldl write M = M' := by
  rw [storeRows_writes hn ids (fun _ h => h) hs]
  obtain ⟨g1, g2⟩ := interleaved hn h M
  obtain ⟨g3, g4⟩ := interleaved hn (Interleaving.flatten _) M
  exact Prod.ext (funext fun i => funext fun j => (g2 i j).trans (g4 i j).symm) (funext fun i => (g1 i).trans (g3 i).symm)

/-! ### any schedule -/

/-- The transmissibilities of a grid without any direction of flow cannot be computed, so a model has at least two cells, and the pool of `n // 2` threads is not empty. -/
lemma FromGrid.two_le {e : Env K} (h : FromGrid e) : 2 ≤ e.n := by
  obtain ⟨M, hp, he⟩ := h
  obtain ⟨e1, -, -, ⟨G, hG, -⟩, -⟩ := env_ok he
  have hn : e.n = M.g.getN false := by unfold Env.n; rw [e1, length_innerIds, getN_false]
  rw [hn, getN_false]
  have hD : M.g.getD ≠ 0 := fun h0 => by
    unfold cellsG at hG
    rw [if_pos h0] at hG
    cases hG
  have hx := M.g.hx
  have hy := M.g.hy
  have hz := M.g.hz
  rw [getD_cases] at hD
  by_cases h1 : 1 < M.g.nx
  · exact le_trans (by omega : 2 ≤ M.g.nx * 1 * 1) (Nat.mul_le_mul (Nat.mul_le_mul le_rfl hy) hz)
  by_cases h2 : 1 < M.g.ny
  · exact le_trans (by omega : 2 ≤ 1 * M.g.ny * 1) (Nat.mul_le_mul (Nat.mul_le_mul hx le_rfl) hz)
  by_cases h3 : 1 < M.g.nz
  · exact le_trans (by omega : 2 ≤ 1 * 1 * M.g.nz) (Nat.mul_le_mul (Nat.mul_le_mul hx hy) le_rfl)
  rw [if_neg h1, if_neg h2, if_neg h3] at hD
  exact absurd rfl hD

lemma forall₂_map {row : ℕ → EqRow K} {ids : List ℕ} {rows : List (ℕ × EqRow K)} (h : List.Forall₂ (fun id y => y.1 = id ∧ y.2 = row id) ids rows) :
    rows = ids.map fun id => (id, row id) := by
  induction h with
  | nil => rfl
  | cons h _ ih => rw [List.map_cons, ← ih, ← h.2, ← h.1]

/-- The equations, where there are any. -/
def rowOf (c : Ctx K) (m : Mdl K) (s : Sol K) (id : ℕ) : EqRow K := match soloRow c m s id with | .ok r => r | .error _ => none

lemma rowOf_eq {c : Ctx K} {m : Mdl K} {s : Sol K} {id : ℕ} {r : EqRow K} (h : soloRow c m s id = .ok r) : rowOf c m s id = r := by unfold rowOf; rw [h]

lemma forall₂_left {α β : Type} {R : α → β → Prop} {l : List α} {l' : List β} (h : List.Forall₂ R l l') : ∀ a, a ∈ l → ∃ b, R a b := by
  induction h with
  | nil => simp
  | cons h _ ih => intro a ha; rcases List.mem_cons.1 ha with rfl | ha; exacts [⟨_, h⟩, ih a ha]

/-- **C33** (nothing raised). Whatever the interleaving of the threads, of both pools, assembly with threads returns the `A` and `d` that assembly without
threads returns, and leaves the same terms of every cell. -/
theorem C33_every_schedule_partial {c : Ctx K} (hg : FromGrid c.e) {m m' : Mdl K} {s s' : Sol K} {A : ℕ → ℕ → K} {d : ℕ → K}
    (h : assemble c false m s = .ok (m', s', A, d)) {out : Except Err (List (ℕ × Terms K) × (ℕ → ℕ → K) × (ℕ → K))} (ht : Threaded c m s out) :
    ∃ ts, out = .ok (ts, A, d) ∧ ∀ k, k ∈ c.e.ids → dictGet ts k = dictGet m'.terms k := by
  have hn := hg.wf.nodup
  have h2 := hg.two_le
  obtain ⟨ts, h1, rfl, rfl⟩ := matricesSeq_ok.1 h
  unfold matricesSeq at h1
  rw [ok_bind] at h1
  obtain ⟨⟨ts', rows⟩, h3, h1⟩ := h1
  dsimp only at h1
  rw [ok_bind] at h1
  obtain ⟨M, h4, h1⟩ := h1
  simp only [ok_pure, Prod.mk.injEq] at h1
  obtain ⟨rfl, rfl, rfl⟩ := h1
  obtain ⟨g1, g2, g3⟩ := cellRows_ok hn h3
  have hrows := forall₂_map (row := rowOf c m s) (g1.imp fun id y hy => ⟨hy.1, (rowOf_eq hy.2).symm⟩)
  have hok : ∀ id, id ∈ c.e.ids → ∃ r, soloRow c m s id = .ok r := fun id hid => by
    obtain ⟨y, hy⟩ := forall₂_left g1 id hid
    exact ⟨_, hy.2⟩
  cases ht with
  | pool h => omega
  | @raise sched l1 l2 id x h hids _ hx =>
    obtain ⟨r, hr⟩ := hok id (by rw [hids]; simp)
    have := (Pool.done hx).1
    rw [hr] at this
    cases this
  | @ok sched rows' w h hr hw =>
    have hrows' := forall₂_map (row := rowOf c m s) (hr.imp fun id y hy => ⟨hy.1, (rowOf_eq (Pool.done hy.2).1.symm).symm⟩)
    rw [hrows', List.map_map] at hw
    rw [hrows] at h4
    have hM := storeRows_entries hn hw h4
    rw [hM]
    refine ⟨_, rfl, fun k hk => ?_⟩
    obtain ⟨t, ht, ht'⟩ := g2 k hk
    obtain ⟨y, hy⟩ := forall₂_left hr k hk
    dsimp only
    rw [ht', (Pool.done hy.2).2 t ht]

lemma pick_rows {c : Ctx K} {m : Mdl K} {s : Sol K} {sched : List ℕ} (l : List ℕ) (h : ∀ id, id ∈ l → ∃ r, (Pool.run c m s sched).pc id = .done (.ok r)) :
    ∃ rows : List (ℕ × EqRow K), List.Forall₂ (fun id x => x.1 = id ∧ (Pool.run c m s sched).pc id = .done (.ok x.2)) l rows := by
  induction l with
  | nil => exact ⟨[], .nil⟩
  | cons id l ih =>
    obtain ⟨rows, hr⟩ := ih fun k hk => h k (by simp [hk])
    obtain ⟨r, hr'⟩ := h id (by simp)
    exact ⟨(id, r) :: rows, .cons ⟨rfl, hr'⟩ hr⟩

/-- There always is an execution: a pool that runs one thread after the other comes to an end. -/
theorem C33_some_schedule {c : Ctx K} (hg : FromGrid c.e) (m : Mdl K) (s : Sol K) : ∃ out, Threaded c m s out := by
  have hn := hg.wf.nodup
  by_cases h2 : c.e.n / 2 = 0
  · exact ⟨_, .pool h2⟩
  · cases hr : cellRows c m s with
    | error x =>
      obtain ⟨l1, id, l2, g1, g2, g3⟩ := cellRows_error hn hr
      refine ⟨.error x, .raise (sched := inTurn c.e.ids) h2 g1 (fun k hk => ?_) ?_⟩
      · obtain ⟨r, hr⟩ := g2 k hk
        exact ⟨r, by rw [Pool.inTurn_done c m s c.e.ids (by rw [g1]; simp [hk]), hr]⟩
      · rw [Pool.inTurn_done c m s c.e.ids (by rw [g1]; simp), g3]
    | ok y =>
      obtain ⟨g1, -, -⟩ := cellRows_ok hn (ts := y.1) (rows := y.2) hr
      obtain ⟨rows, hrows⟩ := pick_rows (c := c) (m := m) (s := s) (sched := inTurn c.e.ids) c.e.ids fun id hid => by
        obtain ⟨z, hz⟩ := forall₂_left g1 id hid
        exact ⟨z.2, by rw [Pool.inTurn_done c m s c.e.ids hid, hz.2]⟩
      exact ⟨_, .ok h2 hrows (Interleaving.flatten _)⟩

/-- **C33** (exceptions while the equations are made). If `get_cells_eq()` raises without threads, every execution with threads raises the same exception. -/
theorem C33_same_exception {c : Ctx K} (hg : FromGrid c.e) {m : Mdl K} {s : Sol K} {x : Err} (h : cellRows c m s = .error x)
    {out : Except Err (List (ℕ × Terms K) × (ℕ → ℕ → K) × (ℕ → K))} (ht : Threaded c m s out) : out = .error x := by
  have hn := hg.wf.nodup
  have h2 := hg.two_le
  obtain ⟨l1, id, l2, g1, g2, g3⟩ := cellRows_error hn h
  cases ht with
  | pool h => omega
  | @raise sched l1' l2' id' x' h hids h1 hx =>
    have hx' := (Pool.done hx).1
    have hsplit : l1' = l1 ∧ id' = id := by
      rw [g1] at hids
      rw [List.append_eq_append_iff] at hids
      rcases hids with ⟨a, ha, hb⟩ | ⟨a, ha, hb⟩
      · cases a with
        | nil => simp only [List.nil_append, List.cons.injEq, List.append_nil] at ha hb; exact ⟨ha, hb.1.symm⟩
        | cons z a =>
          simp only [List.cons_append, List.cons.injEq] at hb
          obtain ⟨r, hr⟩ := h1 id (by rw [ha, hb.1]; simp)
          have := (Pool.done hr).1
          rw [g3] at this
          cases this
      · cases a with
        | nil => simp only [List.nil_append, List.cons.injEq, List.append_nil] at ha hb; exact ⟨ha.symm, hb.1⟩
        | cons z a =>
          simp only [List.cons_append, List.cons.injEq] at hb
          obtain ⟨r, hr⟩ := g2 id' (by rw [ha, hb.1]; simp)
          rw [hr] at hx'
          cases hx'
    rw [hsplit.2, g3] at hx'
    simp only [Except.error.injEq] at hx'
    rw [hx']
  | @ok sched rows' w h hr hw =>
    obtain ⟨y, hy⟩ := forall₂_left hr id (by rw [g1]; simp)
    have := (Pool.done hy.2).1
    rw [g3] at this
    cases this

/-- Rows stored in order, those whose right-hand side has symbols left out. (fdm.py l.348-372) -/
def skipRows (ids : List ℕ) (rows : List (ℕ × EqRow K)) (M : (ℕ → ℕ → K) × (ℕ → K)) : (ℕ → ℕ → K) × (ℕ → K) :=
  rows.foldl (fun M x => match x.2 with | none => M | some r => writeRow ids M x.1 r) M

lemma skipRows_writes {ids : List ℕ} (hn : ids.Nodup) {row : ℕ → EqRow K} (l : List ℕ) (hl : ∀ id, id ∈ l → id ∈ ids) (M : (ℕ → ℕ → K) × (ℕ → K)) :
    skipRows ids (l.map fun id => (id, row id)) M = (l.map fun id => rowWrites ids id (row id)).flatten.foldl write M := by
  induction l generalizing M with
  | nil => rfl
  | cons id l ih =>
    rw [List.map_cons, List.map_cons, List.flatten_cons, List.foldl_append, ← ih fun k hk => hl k (by simp [hk])]
    unfold skipRows
    rw [List.foldl_cons]
    dsimp only
    cases hr : row id with
    | none => rfl
    | some r => dsimp only; rw [writeRow_writes hn (hl id (by simp))]

/-- What assembly with threads does, if all equations can be made: the same as without threads, except that rows which cannot be stored are left out silently. -/
theorem C33_threads_skip {c : Ctx K} (hg : FromGrid c.e) {m : Mdl K} {s : Sol K} {ts : List (ℕ × Terms K)} {rows : List (ℕ × EqRow K)}
    (h : cellRows c m s = .ok (ts, rows)) {out : Except Err (List (ℕ × Terms K) × (ℕ → ℕ → K) × (ℕ → K))} (ht : Threaded c m s out) :
    ∃ ts', out = .ok (ts', skipRows c.e.ids rows (symbStart s)) ∧ ∀ k, k ∈ c.e.ids → dictGet ts' k = dictGet ts k := by
  have hn := hg.wf.nodup
  have h2 := hg.two_le
  obtain ⟨g1, g2, g3⟩ := cellRows_ok hn h
  have hrows := forall₂_map (row := rowOf c m s) (g1.imp fun id y hy => ⟨hy.1, (rowOf_eq hy.2).symm⟩)
  have hok : ∀ id, id ∈ c.e.ids → ∃ r, soloRow c m s id = .ok r := fun id hid => by
    obtain ⟨y, hy⟩ := forall₂_left g1 id hid
    exact ⟨_, hy.2⟩
  cases ht with
  | pool h => omega
  | @raise sched l1 l2 id x h hids _ hx =>
    obtain ⟨r, hr⟩ := hok id (by rw [hids]; simp)
    have := (Pool.done hx).1
    rw [hr] at this
    cases this
  | @ok sched rows' w h hr hw =>
    have hrows' := forall₂_map (row := rowOf c m s) (hr.imp fun id y hy => ⟨hy.1, (rowOf_eq (Pool.done hy.2).1.symm).symm⟩)
    rw [hrows', List.map_map] at hw
    obtain ⟨i1, i2⟩ := interleaved hn hw (symbStart s)
    obtain ⟨i3, i4⟩ := interleaved hn (Interleaving.flatten (c.e.ids.map fun id => rowWrites c.e.ids id (rowOf c m s id))) (symbStart s)
    rw [hrows, skipRows_writes hn _ fun _ h => h]
    have hM : w.foldl write (symbStart s) = (c.e.ids.map fun id => rowWrites c.e.ids id (rowOf c m s id)).flatten.foldl write (symbStart s) :=
      Prod.ext (funext fun i => funext fun j => (i2 i j).trans (i4 i j).symm) (funext fun i => (i1 i).trans (i3 i).symm)
    rw [hM]
    refine ⟨_, rfl, fun k hk => ?_⟩
    obtain ⟨t, ht, ht'⟩ := g2 k hk
    obtain ⟨y, hy⟩ := forall₂_left hr k hk
    rw [ht', (Pool.done hy.2).2 t ht]

/-- **C33 fails** for equations that cannot be stored. Without threads `get_matrices_symb()` raises `TypeError` if symbols are left on the right-hand side of an equation; with
threads the exception is lost: every execution returns, with what was in the row of that cell before. -/
theorem C33_lost_exception {c : Ctx K} (hg : FromGrid c.e) {m : Mdl K} {s : Sol K} {ts : List (ℕ × Terms K)} {rows : List (ℕ × EqRow K)}
    (h : cellRows c m s = .ok (ts, rows)) {id : ℕ} (hid : (id, none) ∈ rows) :
    matricesSeq c m s = .error .type ∧ ∀ out, Threaded c m s out → ∃ ts' A d, out = .ok (ts', A, d) ∧
      d (c.e.ids.idxOf id) = (symbStart s).2 (c.e.ids.idxOf id) ∧ ∀ j, A (c.e.ids.idxOf id) j = (symbStart s).1 (c.e.ids.idxOf id) j := by
  have hn := hg.wf.nodup
  have h2 := hg.two_le
  obtain ⟨g1, g2, g3⟩ := cellRows_ok hn h
  have hrows := forall₂_map (row := rowOf c m s) (g1.imp fun id y hy => ⟨hy.1, (rowOf_eq hy.2).symm⟩)
  have hok : ∀ id, id ∈ c.e.ids → ∃ r, soloRow c m s id = .ok r := fun id hid => by
    obtain ⟨y, hy⟩ := forall₂_left g1 id hid
    exact ⟨_, hy.2⟩
  have hid' : id ∈ c.e.ids ∧ rowOf c m s id = none := by
    rw [hrows] at hid
    obtain ⟨k, hk, hk'⟩ := List.mem_map.1 hid
    simp only [Prod.mk.injEq] at hk'
    obtain ⟨rfl, hk'⟩ := hk'
    exact ⟨hk, hk'⟩
  refine ⟨?_, fun out ht => ?_⟩
  · unfold matricesSeq
    rw [h]
    simp only [bind_ok]
    rw [storeRows_none _ _ _ ⟨_, hid, rfl⟩]
    rfl
  cases ht with
  | pool h => omega
  | @raise sched l1 l2 id x h hids _ hx =>
    obtain ⟨r, hr⟩ := hok id (by rw [hids]; simp)
    have := (Pool.done hx).1
    rw [hr] at this
    cases this
  | @ok sched rows' w h hr hw =>
    have hrows' := forall₂_map (row := rowOf c m s) (hr.imp fun id y hy => ⟨hy.1, (rowOf_eq (Pool.done hy.2).1.symm).symm⟩)
    rw [hrows', List.map_map] at hw
    obtain ⟨i1, i2⟩ := interleaved hn hw (symbStart s)
    have hi : c.e.ids[c.e.ids.idxOf id]? = some id := by rw [List.getElem?_eq_getElem (List.idxOf_lt_length_of_mem hid'.1)]; simp
    refine ⟨_, _, _, rfl, ?_, fun j => ?_⟩
    · rw [i1, hi]
      dsimp only
      rw [hid'.2]
    · rw [i2, hi]
      cases c.e.ids[j]? with
      | none => rfl
      | some k => dsimp only; rw [hid'.2]

/-! ### whole runs -/

/-- An attempt after the assembly (fdm.py l.740-772). -/
def afterAssembly (c : Ctx K) (m : Mdl K) (s : Sol K) (A : ℕ → ℕ → K) (d : ℕ → K) : Except Err (Mdl K × Sol K × Bool) := do
  let x ← c.lin c.e.n A d
  let p := newRow c.e.ids (lastRow s.press none) x
  let r ← updateBounds c.lower c.e m p (lastRow s.rates 0)
  let (ws, r, ps, again) ← updateWells c.e p m.wells r
  let wp := if again then m.wPress else ps.foldl (fun wp x => appendAt wp x.1 (some x.2)) m.wPress
  pure ({ m with wells := ws, wPress := wp },
    { s with tstep := s.tstep + 1, press := s.press ++ [p], rates := s.rates ++ [r], As := s.As ++ [A], ds := s.ds ++ [d] }, again)

lemma attempt_after (c : Ctx K) (vect : Bool) (m : Mdl K) (s : Sol K) :
    attempt c vect m s = (assemble c vect m s).bind fun x => afterAssembly c x.1 x.2.1 x.2.2.1 x.2.2.2 := rfl

/-- `solve(threading=True, vectorize=False)` may lead from one state to another: each attempt is assembled by threads under some schedule. (fdm.py l.690-782) -/
inductive ThreadedSolve (c : Ctx K) : Mdl K → Sol K → Mdl K → Sol K → Prop
  | step {m s ts A d m' s'} (h : Threaded c m s (.ok (ts, A, d))) (ha : afterAssembly c { m with terms := ts } { s with sM := some (A, d) } A d = .ok (m', s', false)) :
      ThreadedSolve c m s m' s'
  | again {m s ts A d m1 s1 m' s'} (h : Threaded c m s (.ok (ts, A, d))) (ha : afterAssembly c { m with terms := ts } { s with sM := some (A, d) } A d = .ok (m1, s1, true))
      (hs : ThreadedSolve c m1 s1.back m' s') : ThreadedSolve c m s m' s'

/-- The loop of `run(nsteps, threading=True, vectorize=False)`. (fdm.py l.784-860) -/
inductive ThreadedRun (c : Ctx K) : ℕ → Mdl K → Sol K → Mdl K → Sol K → Prop
  | nil {m s} : ThreadedRun c 0 m s m s
  | cons {n m s m1 s1 m' s'} (h : ThreadedSolve c m s m1 s1) (hr : ThreadedRun c n m1 s1 m' s') : ThreadedRun c (n + 1) m s m' s'

/-- The same model, except perhaps for the order in which terms of cells were put into `cells_terms`. -/
def SameTerms (c : Ctx K) (m m' : Mdl K) : Prop := ∃ ts, m' = { m with terms := ts } ∧ ∀ id, id ∈ c.e.ids → dictGet ts id = dictGet m.terms id

lemma SameTerms.refl (c : Ctx K) (m : Mdl K) : SameTerms c m m := ⟨m.terms, rfl, fun _ _ => rfl⟩

lemma SameTerms.rows {c : Ctx K} (hn : c.e.ids.Nodup) {m m2 : Mdl K} {s : Sol K} (h : SameTerms c m m2) {ts : List (ℕ × Terms K)} {rows : List (ℕ × EqRow K)}
    (h3 : cellRows c m s = .ok (ts, rows)) : ∃ ts2, cellRows c m2 s = .ok (ts2, rows) ∧ ∀ id, id ∈ c.e.ids → dictGet ts2 id = dictGet ts id := by
  obtain ⟨ts0, rfl, hts⟩ := h
  obtain ⟨g1, g2, -⟩ := cellRows_ok hn h3
  have hct : ∀ id, id ∈ c.e.ids → cellTerms c.lower c.e { m with terms := ts0 } s id = cellTerms c.lower c.e m s id := fun id hid => cellTerms_local c m s id ts0 (hts id hid)
  have hso : ∀ id, id ∈ c.e.ids → soloRow c { m with terms := ts0 } s id = soloRow c m s id := fun id hid => by unfold soloRow; rw [hct id hid]
  cases h5 : cellRows c { m with terms := ts0 } s with
  | error x =>
    obtain ⟨l1, id, l2, i1, -, i3⟩ := cellRows_error hn h5
    have hid : id ∈ c.e.ids := by rw [i1]; simp
    obtain ⟨y, hy⟩ := forall₂_left g1 id hid
    rw [hso id hid, hy.2] at i3
    cases i3
  | ok y =>
    obtain ⟨ts2, rows2⟩ := y
    obtain ⟨i1, i2, -⟩ := cellRows_ok hn h5
    have e1 := forall₂_map (row := rowOf c m s) (g1.imp fun id y hy => ⟨hy.1, (rowOf_eq hy.2).symm⟩)
    have e2 := forall₂_map (row := rowOf c { m with terms := ts0 } s) (i1.imp fun id y hy => ⟨hy.1, (rowOf_eq hy.2).symm⟩)
    have e3 : rows2 = rows := by
      rw [e1, e2]
      exact List.map_congr_left fun id hid => by unfold rowOf; rw [hso id hid]
    subst e3
    refine ⟨ts2, rfl, fun id hid => ?_⟩
    obtain ⟨t, a1, a2⟩ := g2 id hid
    obtain ⟨t', b1, b2⟩ := i2 id hid
    rw [hct id hid, a1] at b1
    simp only [Except.ok.injEq] at b1
    subst b1
    rw [a2, b2]

lemma SameTerms.assemble {c : Ctx K} (hn : c.e.ids.Nodup) {m m2 m' : Mdl K} {s s' : Sol K} {A : ℕ → ℕ → K} {d : ℕ → K} (h : SameTerms c m m2)
    (ha : Fdm.assemble c false m s = .ok (m', s', A, d)) : ∃ m2', Fdm.assemble c false m2 s = .ok (m2', s', A, d) ∧ SameTerms c m' m2' := by
  obtain ⟨ts, h1, rfl, rfl⟩ := matricesSeq_ok.1 ha
  unfold matricesSeq at h1
  rw [ok_bind] at h1
  obtain ⟨⟨ts', rows⟩, h3, h1⟩ := h1
  dsimp only at h1
  rw [ok_bind] at h1
  obtain ⟨M, h4, h1⟩ := h1
  simp only [ok_pure, Prod.mk.injEq] at h1
  obtain ⟨rfl, rfl, rfl⟩ := h1
  obtain ⟨ts2, h5, h6⟩ := h.rows hn h3
  obtain ⟨ts0, rfl, -⟩ := h
  refine ⟨{ m with terms := ts2 }, matricesSeq_ok.2 ⟨ts2, ?_, rfl, rfl⟩, ts2, rfl, h6⟩
  unfold matricesSeq
  rw [h5]
  simp only [bind_ok]
  rw [h4]
  rfl

lemma afterAssembly_terms {c : Ctx K} {m m' : Mdl K} {s s' : Sol K} {A : ℕ → ℕ → K} {d : ℕ → K} {again : Bool} {ts : List (ℕ × Terms K)}
    (h : afterAssembly c m s A d = .ok (m', s', again)) : afterAssembly c { m with terms := ts } s A d = .ok ({ m' with terms := ts }, s', again) ∧ m'.terms = m.terms := by
  unfold afterAssembly at h ⊢
  rw [ok_bind] at h
  obtain ⟨x, h1, h⟩ := h
  dsimp only at h
  rw [ok_bind] at h
  obtain ⟨r, h2, h⟩ := h
  rw [ok_bind] at h
  obtain ⟨⟨ws, r', ps, ag⟩, h3, h⟩ := h
  simp only [ok_pure, Prod.mk.injEq] at h
  obtain ⟨rfl, rfl, rfl⟩ := h
  refine ⟨?_, rfl⟩
  have h2' : updateBounds c.lower c.e { m with terms := ts } (newRow c.e.ids (lastRow s.press none) x) (lastRow s.rates 0) = .ok r := h2
  rw [h1]
  simp only [bind_ok, h2', h3]
  rfl

/-- One attempt: with threads the same comes out. -/
lemma threaded_attempt {c : Ctx K} (hg : FromGrid c.e) {m m2 m' m2' : Mdl K} {s s' s2' : Sol K} {again again2 : Bool} (hm : SameTerms c m m2)
    (h : attempt c false m s = .ok (m', s', again)) {ts : List (ℕ × Terms K)} {A : ℕ → ℕ → K} {d : ℕ → K} (ht : Threaded c m2 s (.ok (ts, A, d)))
    (ha : afterAssembly c { m2 with terms := ts } { s with sM := some (A, d) } A d = .ok (m2', s2', again2)) : SameTerms c m' m2' ∧ s2' = s' ∧ again2 = again := by
  rw [attempt_after] at h
  change (assemble c false m s >>= _) = _ at h
  rw [ok_bind] at h
  obtain ⟨⟨m1, s1, A1, d1⟩, h1, h⟩ := h
  dsimp only at h
  obtain ⟨m21, h3, h4⟩ := hm.assemble hg.wf.nodup h1
  obtain ⟨ts', h5, h6⟩ := C33_every_schedule_partial hg h3 ht
  simp only [Except.ok.injEq, Prod.mk.injEq] at h5
  obtain ⟨rfl, rfl, rfl⟩ := h5
  obtain ⟨ts3, hs3, rfl, rfl⟩ := matricesSeq_ok.1 h1
  obtain ⟨ts4, rfl, h7⟩ := hm
  obtain ⟨ts5, hs5, rfl, -⟩ := matricesSeq_ok.1 h3
  obtain ⟨g1, g2⟩ := afterAssembly_terms (ts := ts) h
  replace ha := g1.symm.trans ha
  simp only [Except.ok.injEq, Prod.mk.injEq] at ha
  obtain ⟨rfl, rfl, rfl⟩ := ha
  refine ⟨⟨ts, rfl, fun id hid => ?_⟩, rfl, rfl⟩
  obtain ⟨ts6, e6, h8⟩ := h4
  rw [g2, h6 id hid]
  have : ts5 = ts6 := congrArg Mdl.terms e6
  subst this
  exact h8 id hid

lemma threaded_some {c : Ctx K} (hg : FromGrid c.e) {m m2 m' : Mdl K} {s s' : Sol K} {again : Bool} (hm : SameTerms c m m2)
    (h : attempt c false m s = .ok (m', s', again)) : ∃ ts A d m2', Threaded c m2 s (.ok (ts, A, d)) ∧
      afterAssembly c { m2 with terms := ts } { s with sM := some (A, d) } A d = .ok (m2', s', again) := by
  have h' := h
  rw [attempt_after] at h
  change (assemble c false m s >>= _) = _ at h
  rw [ok_bind] at h
  obtain ⟨⟨m1, s1, A1, d1⟩, h1, h⟩ := h
  dsimp only at h
  obtain ⟨m21, h3, h4⟩ := hm.assemble hg.wf.nodup h1
  obtain ⟨out, ht⟩ := C33_some_schedule hg m2 s
  obtain ⟨ts, rfl, h6⟩ := C33_every_schedule_partial hg h3 ht
  obtain ⟨ts3, hs3, rfl, rfl⟩ := matricesSeq_ok.1 h1
  obtain ⟨ts4, rfl, h7⟩ := hm
  exact ⟨ts, A1, d1, _, ht, (afterAssembly_terms (ts := ts) h).1⟩

lemma threaded_solve {c : Ctx K} (hg : FromGrid c.e) {fuel : ℕ} {m m2 m' : Mdl K} {s s' : Sol K} (hm : SameTerms c m m2)
    (h : solve c fuel false true m s = .ok (m', s')) :
    (∃ m2' s2', ThreadedSolve c m2 s m2' s2') ∧ ∀ m2' s2', ThreadedSolve c m2 s m2' s2' → SameTerms c m' m2' ∧ s2' = s' := by
  induction fuel generalizing m m2 s with
  | zero => cases h
  | succ fuel ih =>
    unfold solve at h
    simp only [if_true] at h
    rw [ok_bind] at h
    obtain ⟨⟨m1, s1, again⟩, h1, h⟩ := h
    dsimp only at h
    obtain ⟨ts, A, d, m2', g1, g2⟩ := threaded_some hg hm h1
    cases again with
    | false =>
      simp only [Bool.false_eq_true, if_false, ok_pure, Prod.mk.injEq] at h
      obtain ⟨rfl, rfl⟩ := h
      refine ⟨⟨_, _, .step g1 g2⟩, fun m3 s3 h3 => ?_⟩
      cases h3 with
      | step i1 i2 =>
        obtain ⟨j1, rfl, -⟩ := threaded_attempt hg hm h1 i1 i2
        exact ⟨j1, rfl⟩
      | again i1 i2 =>
        obtain ⟨-, -, j⟩ := threaded_attempt hg hm h1 i1 i2
        cases j
    | true =>
      simp only [if_true] at h
      obtain ⟨j1, -, -⟩ := threaded_attempt hg hm h1 g1 g2
      obtain ⟨⟨m4, s4, i4⟩, -⟩ := ih j1 h
      refine ⟨⟨_, _, .again g1 g2 i4⟩, fun m3 s3 h3 => ?_⟩
      cases h3 with
      | step i1 i2 =>
        obtain ⟨-, -, j⟩ := threaded_attempt hg hm h1 i1 i2
        cases j
      | again i1 i2 i3 =>
        obtain ⟨k1, rfl, -⟩ := threaded_attempt hg hm h1 i1 i2
        exact (ih k1 h).2 _ _ i3

/-- **C33** (whole runs). If `run(nsteps, threading=False, vectorize=False)` comes to its end, then so can `run(nsteps, threading=True,
vectorize=False)`, and under every schedule of all its threads it ends with the same pressures, rates and matrices, and with the same model. -/
theorem C33_run_partial {c : Ctx K} (hg : FromGrid c.e) {fuel nsteps : ℕ} {m m' : Mdl K} {s s' : Sol K}
    (h : runLoop c fuel false nsteps m s = ((m', s'), .ok ())) :
    (∃ m2' s2', ThreadedRun c nsteps m s m2' s2') ∧ ∀ m2' s2', ThreadedRun c nsteps m s m2' s2' → SameTerms c m' m2' ∧ s2' = s' := by
  suffices key : ∀ (n : ℕ) (m m2 : Mdl K) (s : Sol K), SameTerms c m m2 → runLoop c fuel false n m s = ((m', s'), .ok ()) →
      (∃ m2' s2', ThreadedRun c n m2 s m2' s2') ∧ ∀ m2' s2', ThreadedRun c n m2 s m2' s2' → SameTerms c m' m2' ∧ s2' = s' from key nsteps m m s (.refl c m) h
  intro n
  induction n with
  | zero =>
    intro m m2 s hm h
    simp only [runLoop, Prod.mk.injEq] at h
    obtain ⟨⟨rfl, rfl⟩, -⟩ := h
    refine ⟨⟨_, _, .nil⟩, fun m3 s3 h3 => ?_⟩
    cases h3
    exact ⟨hm, rfl⟩
  | succ n ih =>
    intro m m2 s hm h
    unfold runLoop at h
    cases h1 : solve c fuel false true m s with
    | error x => rw [h1] at h; simp at h
    | ok y =>
      obtain ⟨m1, s1⟩ := y
      rw [h1] at h
      dsimp only at h
      obtain ⟨⟨m4, s4, i4⟩, i5⟩ := threaded_solve hg hm h1
      obtain ⟨j1, rfl⟩ := i5 _ _ i4
      obtain ⟨⟨m5, s5, k4⟩, -⟩ := ih _ _ _ j1 h
      refine ⟨⟨_, _, .cons i4 k4⟩, fun m3 s3 h3 => ?_⟩
      cases h3 with
      | cons a1 a2 =>
        obtain ⟨j2, rfl⟩ := i5 _ _ a1
        exact (ih _ _ _ j2 h).2 _ _ a2

/-! ### examples -/

/-- The hypotheses are met: two steps of a producer that reaches its pressure limit. -/
example : FromGrid (exC true 0 []).e ∧ isOk (assemble (exC true 0 []) false exA (Sol.init exA)) = true ∧ isOk (runLoop (exC true 0 []) 10 false 2 exA (Sol.init exA)).2 = true :=
  ⟨exE_grid _ _ _, by decide +kernel, by decide +kernel⟩

/-- Whether a thread has finished with an equation. -/
def Pc.hasRow : Pc K → Bool
  | .done (.ok _) => true
  | _ => false

/-- Threads of two cells taking turns finish: a schedule that is not one thread after the other. -/
example : (exC true 0 []).e.ids.all (fun id => (Pool.run (exC true 0 []) exA (Sol.init exA) [1, 2, 1, 2, 2, 1, 1, 2]).pc id |>.hasRow) = true := by decide +kernel


/-- Water taken out on the left. The sum of the rate and the storage term of the first cell is 0 in the second step. -/
def exT : Mdl ℚ := exMdl true 0 [] (some 5) [(0, "rate", -3)] []

lemma exT_ready : Ready (exC true 0 []) exT := exMdl_ready (by decide +kernel)

/-- `C33_lost_exception`, and `C33_same_exception` (a compressible model without initial pressures): the hypotheses are met. -/
example : (isOk (cellRows (exC true 0 []) (exRun (exC true 0 []) false 1 exT).1 (exRun (exC true 0 []) false 1 exT).2) = true ∧
    ∀ h, (getOk (cellRows (exC true 0 []) (exRun (exC true 0 []) false 1 exT).1 (exRun (exC true 0 []) false 1 exT).2) h).2.map (fun y => (y.1, y.2.isNone)) = [(1, true), (2, false)]) ∧
    isOk (cellRows (exC true 0 []) (exMdl true 0 [] none [] []) (Sol.init (exMdl true 0 [] none [] []))) = false :=
  ⟨⟨by decide +kernel, by decide +kernel⟩, by decide +kernel⟩

/-- The state after one step, the equations of the second step, and the matrix threads make of them, whatever their schedule. -/
def exT1 : Mdl ℚ × Sol ℚ := exRun (exC true 0 []) false 1 exT

lemma exT_rows : isOk (cellRows (exC true 0 []) exT1.1 exT1.2) = true := by decide +kernel

def exTM : (ℕ → ℕ → ℚ) × (ℕ → ℚ) := skipRows (exC true 0 []).e.ids (getOk _ exT_rows).2 (symbStart exT1.2)

lemma exT_after : isOk (afterAssembly (exC true 0 []) exT1.1 { exT1.2 with sM := some exTM } exTM.1 exTM.2) = true := by decide +kernel

/-- The state after the second step. -/
def exT2 : Mdl ℚ × Sol ℚ × Bool := getOk _ exT_after

lemma exT_step : solve (exC true 0 []) 10 false true exT (Sol.init exT) = .ok exT1 := by
  have h : isOk (solve (exC true 0 []) 10 false true exT (Sol.init exT)) = true := by decide +kernel
  unfold exT1 exRun exRun
  dsimp only
  rw [getOk_eq _ h]

/-- **C33 fails** without any sign of it: there is a model for which `run(2, threading=False, vectorize=False)` raises `TypeError` in the second step, while with
`threading=True` it ends, under every schedule, with pressures that do not balance, although the linear solver is exact. -/
theorem C33_wrong_pressures : ∃ (c : Ctx ℚ) (m0 : Mdl ℚ) (fuel : ℕ), Ready c m0 ∧ Exact c.lin ∧ (runLoop c fuel false 2 m0 (Sol.init m0)).2 = .error .type ∧
    (∃ m s, ThreadedRun c 2 m0 (Sol.init m0) m s) ∧ ∀ m s, ThreadedRun c 2 m0 (Sol.init m0) m s →
      ∃ i, i < c.e.n ∧ excess c.e c.e.transS m0 (givenRate m0) (s.inner c.e 1) (s.inner c.e 2) i ≠ 0 := by
  have hg : FromGrid (exC true 0 []).e := exE_grid _ _ _
  have hskip : ∀ {m1 : Mdl ℚ} {out}, SameTerms (exC true 0 []) exT1.1 m1 → Threaded (exC true 0 []) m1 exT1.2 out → ∃ ts, out = .ok (ts, exTM) := by
    intro m1 out hm ht
    obtain ⟨ts2, h5, -⟩ := hm.rows hg.wf.nodup (ts := (getOk _ exT_rows).1) (rows := (getOk _ exT_rows).2) (getOk_eq _ exT_rows)
    obtain ⟨ts, h6, -⟩ := C33_threads_skip hg h5 ht
    exact ⟨ts, h6⟩
  have hafter : ∀ {m1 : Mdl ℚ} {ts}, SameTerms (exC true 0 []) exT1.1 m1 →
      afterAssembly (exC true 0 []) { m1 with terms := ts } { exT1.2 with sM := some exTM } exTM.1 exTM.2 = .ok ({ exT2.1 with terms := ts }, exT2.2.1, exT2.2.2) := by
    intro m1 ts hm
    obtain ⟨ts0, rfl, -⟩ := hm
    exact (afterAssembly_terms (ts := ts) (getOk_eq _ exT_after)).1
  have hflag : exT2.2.2 = false := by decide +kernel
  obtain ⟨⟨m1, s1, h1⟩, hall⟩ := threaded_solve hg (SameTerms.refl _ exT) exT_step
  refine ⟨exC true 0 [], exT, 10, exT_ready, cramer_exact, ?_, ?_, ?_⟩
  · have h : ∀ x : Except Err Unit, (match x with | .error .type => true | _ => false) = true → x = .error .type := by
      intro x hx
      revert hx
      split <;> simp
    exact h _ (by decide +kernel)
  · obtain ⟨hm, rfl⟩ := hall _ _ h1
    obtain ⟨out, ht⟩ := C33_some_schedule hg m1 exT1.2
    obtain ⟨ts, rfl⟩ := hskip hm ht
    have := hafter (ts := ts) hm
    rw [hflag] at this
    exact ⟨_, _, .cons h1 (.cons (.step ht this) .nil)⟩
  · intro m s h
    obtain ⟨i, hi, hne⟩ : ∃ i, i < (exC true 0 []).e.n ∧ excess (exC true 0 []).e (exC true 0 []).e.transS exT (givenRate exT) (exT2.2.1.inner (exC true 0 []).e 1)
        (exT2.2.1.inner (exC true 0 []).e 2) i ≠ 0 := ⟨0, by decide +kernel, by decide +kernel⟩
    suffices hs : s = exT2.2.1 by rw [hs]; exact ⟨i, hi, hne⟩
    cases h with
    | cons a b =>
      obtain ⟨hm, rfl⟩ := hall _ _ a
      cases b with
      | cons a' b' =>
        cases b'
        cases a' with
        | step ht ha =>
          obtain ⟨ts, he⟩ := hskip hm ht
          simp only [Except.ok.injEq, Prod.mk.injEq] at he
          obtain ⟨rfl, he⟩ := he
          have e1 := congrArg Prod.fst he
          have e2 := congrArg Prod.snd he
          dsimp only at e1 e2
          rw [he, e1, e2] at ha
          replace ha := (hafter hm).symm.trans ha
          simp only [Except.ok.injEq, Prod.mk.injEq] at ha
          exact ha.2.1.symm
        | again ht ha =>
          obtain ⟨ts, he⟩ := hskip hm ht
          simp only [Except.ok.injEq, Prod.mk.injEq] at he
          obtain ⟨rfl, he⟩ := he
          have e1 := congrArg Prod.fst he
          have e2 := congrArg Prod.snd he
          dsimp only at e1 e2
          rw [he, e1, e2] at ha
          replace ha := (hafter hm).symm.trans ha
          rw [hflag] at ha
          simp at ha

end RF.Fdm
