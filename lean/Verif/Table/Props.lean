import Verif.Table.Model
import Mathlib.Data.List.Induction
/-!
# Properties of the result tables (C53)
-/
set_option linter.unusedSectionVars false
namespace RF
variable {K : Type}

/-! ## Specification -/

/-- The coordinate of a cell along an axis. -/
def coordOf (fdir : List Axis) (centre : List K) (a : Axis) : Option K := centre[fdir.idxOf a]?

/-- A step table lists for every step a row over all cells. -/
def entry (t : List (List (Option K))) (s id : ℕ) : Option K := ((t[s]?).bind (·[id]?)).getD none

variable [Field K] [LinearOrder K] [FloorRing K]

/-- What belongs to step `s` and the `c`-th cell under a label of the melted table. -/
def TInput.expect (t : TInput K) (s c : ℕ) : Lbl → Option (Val K)
  | .id => (t.cells[c]?).map .nat
  | .step => some (.nat s)
  | .axis a => ((t.centers[c]?).bind fun x => coordOf t.fdir x a).map .num
  | .time => some (.num (s * t.dt))
  | .date => some (.day (s * t.dt))
  | .Q => ((t.cells[c]?).bind fun id => entry t.rates s id).map .num
  | .P => ((t.cells[c]?).bind fun id => entry t.press s id).map .num
  | _ => none

/-- The tables of a model whose step counters agree with its tables. -/
structure TInput.Consistent (t : TInput K) : Prop where
  steps : t.nsteps = t.tstep + 1
  press : t.press.length = t.nsteps
  rates : t.rates.length = t.nsteps
  centers : t.centers.length = t.cells.length
  dims : ∀ r ∈ t.centers, r.length = t.fdir.length
  nodup : t.fdir.Nodup
  flow : t.fdir ≠ []
  dt : 0 < t.dt

/-- A column of the melted table in which every (step, cell) pair has its value, pairs in order of step then cell. -/
def TInput.ColOk (t : TInput K) (l : Lbl) (d : List (Option (Val K))) : Prop :=
  d.length = t.nsteps * t.cells.length ∧
    ∀ s < t.nsteps, ∀ c < t.cells.length, d[s * t.cells.length + c]? = some (t.expect s c l)

/-! ## Proofs -/

lemma flatMap_get {α β : Type} (l : List α) (f : α → List β) (k : ℕ) (h : ∀ a ∈ l, (f a).length = k) (s c : ℕ) (hc : c < k) :
    (l.flatMap f)[s * k + c]? = (l[s]?).bind fun a => (f a)[c]? := by
  induction l generalizing s with
  | nil => simp
  | cons a l ih =>
    have ha := h a (by simp)
    rw [List.flatMap_cons]
    cases s with
    | zero =>
      rw [Nat.zero_mul, Nat.zero_add, List.getElem?_append_left (by omega)]
      simp
    | succ s =>
      rw [List.getElem?_append_right (by rw [ha, Nat.succ_mul]; omega)]
      rw [show (s + 1) * k + c - (f a).length = s * k + c by rw [ha, Nat.succ_mul]; omega]
      simpa using ih (fun a ha => h a (by simp [ha])) s

lemma flatMap_length {α β : Type} (l : List α) (f : α → List β) (k : ℕ) (h : ∀ a ∈ l, (f a).length = k) :
    (l.flatMap f).length = l.length * k := by
  induction l with
  | nil => simp
  | cons a l ih =>
    rw [List.flatMap_cons, List.length_append, ih (fun a ha => h a (by simp [ha])), h a (by simp)]
    simp [Nat.succ_mul, Nat.add_comm]

lemma times_eq [IsStrictOrderedRing K] (tstep : ℕ) (dt : K) (h : 0 < dt) :
    times tstep dt = (List.range (tstep + 1)).map fun i : ℕ => (i : K) * dt := by
  unfold times
  rw [mul_div_assoc, div_self h.ne', mul_one, Int.ceil_natCast, Int.toNat_natCast]

lemma rows_le (f : Frame K) (N : ℕ) (h : ∀ c ∈ f, c.2.length = N) : f.rows ≤ N := by
  unfold Frame.rows
  have : ∀ (l : List ℕ) (a : ℕ), a ≤ N → (∀ x ∈ l, x ≤ N) → l.foldl max a ≤ N := by
    intro l
    induction l with
    | nil => intro a ha _; exact ha
    | cons x l ih =>
      intro a ha hl
      exact ih _ (max_le ha (hl x (by simp))) fun y hy => hl y (by simp [hy])
  exact this _ 0 (Nat.zero_le _) (by
    intro x hx
    obtain ⟨c, hc, rfl⟩ := List.mem_map.1 hx
    exact (h c hc).le)

lemma concat_eq (a b : Frame K) (N : ℕ) (ha : ∀ c ∈ a, c.2.length = N) (hb : ∀ c ∈ b, c.2.length = N) :
    a.concat b = a ++ b := by
  unfold Frame.concat
  have h1 := rows_le a N ha
  have h2 := rows_le b N hb
  conv_rhs => rw [← List.map_id (a ++ b)]
  refine List.map_congr_left fun c hc => ?_
  have : c.2.length = N := by
    rcases List.mem_append.1 hc with h | h
    · exact ha c h
    · exact hb c h
  have e : max a.rows b.rows - c.2.length = 0 := by rw [this]; omega
  rw [e]
  simp

section melt
variable [IsStrictOrderedRing K] {t : TInput K}

lemma repeatEach_ok {α : Type} (l : List α) (k s c : ℕ) (hc : c < k) : (repeatEach l k)[s * k + c]? = l[s]? := by
  unfold repeatEach
  rw [flatMap_get l _ k (by simp) s c hc]
  cases h : l[s]? <;> simp [hc]

lemma repeatEach_length {α : Type} (l : List α) (k : ℕ) : (repeatEach l k).length = l.length * k := by
  unfold repeatEach
  exact flatMap_length l _ k (by simp)

lemma tileL_ok {α : Type} (l : List α) (k s c : ℕ) (hs : s < k) (hc : c < l.length) :
    (tileL l k)[s * l.length + c]? = l[c]? := by
  unfold tileL
  rw [flatMap_get _ _ l.length (by simp) s c hc]
  simp [hs]

lemma tileL_length {α : Type} (l : List α) (k : ℕ) : (tileL l k).length = k * l.length := by
  unfold tileL
  rw [flatMap_length _ _ l.length (by simp)]
  simp

lemma flatTable_ok (hs : ∀ a, a = t.press ∨ a = t.rates → a.length = t.nsteps) (a : List (List (Option K)))
    (ha : a = t.press ∨ a = t.rates) (s c : ℕ) (h1 : s < t.nsteps) (h2 : c < t.cells.length) :
    (t.flatTable a)[s * t.cells.length + c]? = some (((t.cells[c]?).bind fun id => entry a s id).map .num) := by
  unfold TInput.flatTable
  rw [flatMap_get _ _ t.cells.length (by simp) s c h2]
  have hl : s < a.length := by rw [hs a ha]; exact h1
  simp [hl, h2, entry]

lemma flatTable_length (a : List (List (Option K))) : (t.flatTable a).length = a.length * t.cells.length := by
  unfold TInput.flatTable
  exact flatMap_length _ _ _ (by simp)

lemma time_ok (h : t.Consistent) : ∀ c ∈ t.timeCol true, t.ColOk c.1 c.2 := by
  intro c hc
  simp only [TInput.timeCol, if_true, List.mem_singleton] at hc
  subst hc
  refine ⟨?_, fun s hs c hc => ?_⟩
  · simp [repeatEach_length, times_eq _ _ h.dt, h.steps]
  · simp only [repeatEach_ok _ _ s c hc, times_eq _ _ h.dt]
    have : s < t.tstep + 1 := by rw [← h.steps]; exact hs
    simp [TInput.expect, this]

lemma date_ok (h : t.Consistent) : ∀ c ∈ t.dateCol true, t.ColOk c.1 c.2 := by
  intro c hc
  simp only [TInput.dateCol, if_true, List.mem_singleton] at hc
  subst hc
  refine ⟨?_, fun s hs c hc => ?_⟩
  · simp [repeatEach_length, h.steps]
  · simp only [repeatEach_ok _ _ s c hc]
    have : s < t.tstep + 1 := by rw [← h.steps]; exact hs
    simp [TInput.expect, this]

lemma tables_len (h : t.Consistent) : ∀ a, a = t.press ∨ a = t.rates → a.length = t.nsteps := by
  rintro a (rfl | rfl)
  · exact h.press
  · exact h.rates

lemma rate_ok (h : t.Consistent) : ∀ c ∈ t.cellsRate true, t.ColOk c.1 c.2 := by
  intro c hc
  simp only [TInput.cellsRate, if_true, List.mem_singleton] at hc
  subst hc
  refine ⟨?_, fun s hs c hc => ?_⟩
  · simp only [flatTable_length, h.rates]
  · exact flatTable_ok (tables_len h) t.rates (.inr rfl) s c hs hc

lemma press_ok (h : t.Consistent) : ∀ c ∈ t.cellsPress true, t.ColOk c.1 c.2 := by
  intro c hc
  simp only [TInput.cellsPress, if_true, List.mem_singleton] at hc
  subst hc
  refine ⟨?_, fun s hs c hc => ?_⟩
  · simp only [flatTable_length, h.press]
  · exact flatTable_ok (tables_len h) t.press (.inl rfl) s c hs hc

lemma xyz_ok (h : t.Consistent) : ∀ c ∈ t.xyz, t.ColOk c.1 c.2 := by
  intro c hc
  simp only [TInput.xyz, List.mem_filterMap, List.mem_range, Option.map_eq_some_iff] at hc
  obtain ⟨j, hj, a, ha, rfl⟩ := hc
  have hd : 0 < t.fdir.length := List.length_pos_iff.2 h.flow
  have hfl : t.centers.flatten.length = t.cells.length * t.fdir.length := by
    have := flatMap_length t.centers id t.fdir.length h.dims
    rw [List.flatMap_id] at this
    rw [this, h.centers]
  have hlen : (tileL t.centers.flatten t.nsteps).length / t.fdir.length = t.nsteps * t.cells.length := by
    rw [tileL_length, hfl, ← Nat.mul_assoc, Nat.mul_div_cancel _ hd]
  refine ⟨?_, fun s hs c hc => ?_⟩
  · simp only [List.length_map, List.length_range, hlen]
  · have hsc : s * t.cells.length + c < t.nsteps * t.cells.length := by
      have : (s + 1) * t.cells.length ≤ t.nsteps * t.cells.length := Nat.mul_le_mul_right _ hs
      rw [Nat.succ_mul] at this
      omega
    rw [List.getElem?_map, List.getElem?_range (by rw [hlen]; exact hsc)]
    simp only [Option.map_some]
    congr 1
    have e : (s * t.cells.length + c) * t.fdir.length + j = s * t.centers.flatten.length + (c * t.fdir.length + j) := by
      rw [hfl]; ring
    have hcj : c * t.fdir.length + j < t.centers.flatten.length := by
      rw [hfl]
      have : (c + 1) * t.fdir.length ≤ t.cells.length * t.fdir.length := Nat.mul_le_mul_right _ hc
      rw [Nat.succ_mul] at this
      omega
    rw [e, tileL_ok _ _ _ _ hs hcj]
    have := flatMap_get t.centers id t.fdir.length h.dims c j hj
    rw [List.flatMap_id] at this
    rw [this]
    simp only [TInput.expect, coordOf, id]
    have hidx : t.fdir.idxOf a = j := by
      obtain ⟨hj', rfl⟩ := List.getElem?_eq_some_iff.1 ha
      exact h.nodup.idxOf_getElem j hj'
    rw [hidx]

/-- The labels the parts of a melted table contribute. -/
def meltLabels : Part → List Lbl
  | .time => [.time] | .date => [.date] | .cellsRate => [.Q] | .cellsPress => [.P] | .wellsRate => [] | .wellsPress => []

/-- What the column names stand for, as documented (black_oil.py l.952-965, short names from l.1007-1014). -/
def documented : List (String × List Part) :=
  [("t", [.time]), ("time", [.time]), ("d", [.date]), ("date", [.date]),
   ("q", [.cellsRate, .wellsRate]), ("rates", [.cellsRate, .wellsRate]), ("p", [.cellsPress, .wellsPress]), ("pressures", [.cellsPress, .wellsPress]),
   ("cells", [.cellsRate, .cellsPress]), ("wells", [.wellsRate, .wellsPress]),
   ("cells_rate", [.cellsRate]), ("cells_pressure", [.cellsPress]), ("wells_rate", [.wellsRate]), ("wells_pressure", [.wellsPress])]

/-- What a documented name stands for. -/
def meaning (s : String) : List Part := (documented.lookup s).getD []

/-- The labels the requested columns contribute, in order. -/
def requested (lower : String → String) (columns : List String) : List Lbl :=
  columns.flatMap fun c => (meaning (lower c)).flatMap meltLabels

lemma documented_none {s : String} (l : List (String × List Part)) (h : s ∉ l.map (·.1)) : l.lookup s = none := by
  induction l with
  | nil => rfl
  | cons a l ih =>
    simp only [List.map_cons, List.mem_cons, not_or] at h
    rw [List.lookup_cons, ih h.2, beq_eq_false_iff_ne.2 h.1]

lemma documented_known {s : String} : (s ∈ documented.map (·.1)) ↔ ∃ p, s ∈ partNames p := by
  constructor
  · intro h
    have : ∀ s ∈ documented.map (·.1), allParts.any (fun p => decide (s ∈ partNames p)) = true := by decide +kernel
    obtain ⟨p, -, hp⟩ := List.any_eq_true.1 (this s h)
    exact ⟨p, of_decide_eq_true hp⟩
  · rintro ⟨p, hp⟩
    have : ∀ p ∈ [Part.time, .date, .cellsRate, .cellsPress, .wellsRate, .wellsPress], ∀ s ∈ partNames p, s ∈ documented.map (·.1) := by decide +kernel
    exact this p (by cases p <;> simp) s hp

lemma parts_documented (s : String) : (allParts.filter fun p => decide (s ∈ partNames p)) = meaning s := by
  by_cases h : s ∈ documented.map (·.1)
  · have : ∀ s ∈ documented.map (·.1), (allParts.filter fun p => decide (s ∈ partNames p)) = meaning s := by decide +kernel
    exact this s h
  · unfold meaning
    rw [documented_none _ h]
    refine List.filter_eq_nil_iff.2 fun p _ hp => h (documented_known.2 ⟨p, of_decide_eq_true hp⟩)

lemma part_ok (h : t.Consistent) (p : Part) : ∃ f, t.part true p = .ok f ∧ (∀ c ∈ f, t.ColOk c.1 c.2) ∧
    f.map (·.1) = meltLabels p := by
  cases p with
  | time => exact ⟨_, rfl, time_ok h, rfl⟩
  | date => exact ⟨_, rfl, date_ok h, rfl⟩
  | cellsRate => exact ⟨_, rfl, rate_ok h, rfl⟩
  | cellsPress => exact ⟨_, rfl, press_ok h, rfl⟩
  | wellsRate => exact ⟨[], rfl, by simp, rfl⟩
  | wellsPress => exact ⟨[], rfl, by simp, rfl⟩

lemma parts_ok (h : t.Consistent) (ps : List Part) (df : Frame K) (hdf : ∀ c ∈ df, t.ColOk c.1 c.2) :
    ∃ f, ps.foldlM (fun df p => do let f ← t.part true p; return df.concat f) df = .ok f ∧
      (∀ c ∈ f, t.ColOk c.1 c.2) ∧ f.map (·.1) = df.map (·.1) ++ ps.flatMap meltLabels := by
  induction ps generalizing df with
  | nil => exact ⟨df, rfl, hdf, by simp⟩
  | cons p ps ih =>
    obtain ⟨g, h1, h2, h3⟩ := part_ok h p
    have hc := concat_eq df g _ (fun c hc => (hdf c hc).1) (fun c hc => (h2 c hc).1)
    obtain ⟨f, h4, h5, h6⟩ := ih (df.concat g) (by
      rw [hc]; intro c hc
      rcases List.mem_append.1 hc with h' | h'
      · exact hdf c h'
      · exact h2 c h')
    refine ⟨f, ?_, h5, ?_⟩
    · rw [List.foldlM_cons, h1]
      exact h4
    · rw [h6, hc, List.map_append, h3, List.flatMap_cons, List.append_assoc]

lemma columns_ok (lower : String → String) (h : t.Consistent) (columns : List String)
    (hk : ∀ c ∈ columns, lower c ∈ documented.map (·.1)) (df : Frame K) (hdf : ∀ c ∈ df, t.ColOk c.1 c.2) :
    ∃ f, columns.foldlM (t.addColumn lower true) df = .ok f ∧
      (∀ c ∈ f, t.ColOk c.1 c.2) ∧ f.map (·.1) = df.map (·.1) ++ requested lower columns := by
  induction columns generalizing df with
  | nil => exact ⟨df, rfl, hdf, by simp [requested]⟩
  | cons c cs ih =>
    obtain ⟨g, h1, h2, h3⟩ := parts_ok h (allParts.filter fun p => decide (lower c ∈ partNames p)) df hdf
    obtain ⟨f, h4, h5, h6⟩ := ih (fun c hc => hk c (by simp [hc])) g h2
    refine ⟨f, ?_, h5, ?_⟩
    · rw [List.foldlM_cons]
      have : t.addColumn lower true df c = .ok g := by
        unfold TInput.addColumn
        rw [if_neg ?_, h1]
        obtain ⟨p, hp⟩ := documented_known.1 (hk c (by simp))
        simp only [List.all_eq_true, decide_eq_true_eq, not_forall, not_not]
        exact ⟨p, by cases p <;> simp [allParts], hp⟩
      rw [this]
      exact h4
    · rw [h6, h3]
      simp [requested, parts_documented, List.append_assoc]

/-- **C53** The melted table before rows are dropped, for every request with known column names: its columns are the cell id,
the step, one coordinate per flow axis and what was requested, and in every column the entry in row `s·n + c` is the one that
belongs to step `s` and the `c`-th cell; there is one row per (step, cell) pair. -/
theorem C53_melt (lower : String → String) (t : TInput K) (h : t.Consistent) (columns : List String)
    (hk : ∀ c ∈ columns, lower c ∈ documented.map (·.1)) (dropZero : Bool) :
    ∃ f, t.getDf lower columns true false dropZero = .ok f ∧
      f.map (·.1) = [.id, .step] ++ t.fdir.map .axis ++ requested lower columns ∧
      ∀ c ∈ f, c.2.length = t.nsteps * t.cells.length ∧
        ∀ s < t.nsteps, ∀ i < t.cells.length, c.2[s * t.cells.length + i]? = some (t.expect s i c.1) := by
  let base : Frame K := [(.id, (tileL t.cells t.nsteps).map fun n => some (.nat n)),
        (.step, (repeatEach (List.range t.nsteps) t.cells.length).map fun n => some (.nat n))]
  have hb : ∀ c ∈ base, t.ColOk c.1 c.2 := by
    intro c hc
    simp only [base, List.mem_cons, List.not_mem_nil, or_false] at hc
    rcases hc with rfl | rfl
    · refine ⟨by simp [tileL_length], fun s hs c hc => ?_⟩
      simp [List.getElem?_map, tileL_ok _ _ s c hs hc, TInput.expect, hc]
    · refine ⟨by simp [repeatEach_length], fun s hs c hc => ?_⟩
      simp [List.getElem?_map, repeatEach_ok _ _ s c hc, TInput.expect, hs]
  have hx : t.xyz.map (·.1) = t.fdir.map Lbl.axis := by
    simp only [TInput.xyz, List.map_filterMap, Option.map_map, Function.comp_def]
    refine List.ext_getElem? fun i => ?_
    have : (List.range t.fdir.length).filterMap (fun j => (t.fdir[j]?).map Lbl.axis) = t.fdir.map Lbl.axis := by
      have e : (fun j : ℕ => (t.fdir[j]?).map Lbl.axis) = fun j : ℕ => ((t.fdir.map Lbl.axis)[j]?) := by
        funext j; rw [List.getElem?_map]
      rw [e]
      have : ∀ l : List Lbl, (List.range l.length).filterMap (fun j => l[j]?) = l := by
        intro l
        have : (List.range l.length).map (fun j => l[j]?) = l.map some := by
          refine List.ext_getElem (by simp) fun i h1 h2 => ?_
          simp at h1
          simp [h1]
        have h2 := congrArg (List.filterMap id) this
        simpa [List.filterMap_map, Function.comp_def] using h2
      simpa using this (t.fdir.map Lbl.axis)
    rw [this]
  have hc := concat_eq base t.xyz _ (fun c hc => (hb c hc).1) (fun c hc => (xyz_ok h c hc).1)
  obtain ⟨f, h1, h2, h3⟩ := columns_ok lower h columns hk (base.concat t.xyz) (by
    rw [hc]; intro c hc
    rcases List.mem_append.1 hc with h' | h'
    · exact hb c h'
    · exact xyz_ok h c h')
  refine ⟨f, ?_, ?_, fun c hc => h2 c hc⟩
  · simp only [TInput.getDf, if_true, Bool.false_eq_true, if_false]
    have : columns.foldlM (t.addColumn lower true) (base.concat t.xyz) = .ok f := h1
    simp only [base] at this
    rw [this]
    rfl
  · rw [h3, hc, List.map_append, hx]
    rfl


/-- All (step, cell position) pairs, in the order of the rows. -/
def TInput.pairs (t : TInput K) : List (ℕ × ℕ) :=
  (List.range t.nsteps).flatMap fun s => (List.range t.cells.length).map fun c => (s, c)

lemma pairs_get (s c : ℕ) (hs : s < t.nsteps) (hc : c < t.cells.length) :
    t.pairs[s * t.cells.length + c]? = some (s, c) := by
  unfold TInput.pairs
  rw [flatMap_get _ _ t.cells.length (by simp) s c hc]
  simp [hs, hc]

lemma pairs_length : t.pairs.length = t.nsteps * t.cells.length := by
  unfold TInput.pairs
  rw [flatMap_length _ _ t.cells.length (by simp)]
  simp

lemma col_eq (l : Lbl) (d : List (Option (Val K))) (h : t.ColOk l d) : d = t.pairs.map fun p => t.expect p.1 p.2 l := by
  refine List.ext_getElem (by rw [h.1, List.length_map, pairs_length]) fun i h1 h2 => ?_
  have hi : i < t.nsteps * t.cells.length := by rw [← h.1]; exact h1
  have hn : 0 < t.cells.length := by
    rcases Nat.eq_zero_or_pos t.cells.length with h0 | h0
    · rw [h0] at hi; simp at hi
    · exact h0
  have hs : i / t.cells.length < t.nsteps := Nat.div_lt_of_lt_mul (by rwa [Nat.mul_comm])
  have hc : i % t.cells.length < t.cells.length := Nat.mod_lt _ hn
  have e : i / t.cells.length * t.cells.length + i % t.cells.length = i := by
    rw [Nat.mul_comm]; exact Nat.div_add_mod _ _
  have a := h.2 _ hs _ hc
  have b := pairs_get (t := t) _ _ hs hc
  rw [e] at a b
  rw [List.getElem?_eq_some_iff] at a b
  obtain ⟨_, a⟩ := a
  obtain ⟨_, b⟩ := b
  rw [a, List.getElem_map, b]

lemma filter_index {α β : Type} (P : List α) (c : α → Bool) (g : α → β) (q : ℕ → Bool)
    (hq : ∀ i (h : i < P.length), q i = c P[i]) :
    ((List.range P.length).filter q).filterMap (fun i => (P.map g)[i]?) = (P.filter c).map g := by
  induction P using List.reverseRecOn with
  | nil => rfl
  | append_singleton P a ih =>
    have ih' := ih (fun i h => by
      have := hq i (by simp; omega)
      rwa [List.getElem_append_left h] at this)
    have hl := hq P.length (by simp)
    rw [List.getElem_concat_length rfl] at hl
    have e1 : ((List.range P.length).filter q).filterMap (fun i => ((P ++ [a]).map g)[i]?) =
        ((List.range P.length).filter q).filterMap (fun i => (P.map g)[i]?) := by
      refine List.filterMap_congr fun i hi => ?_
      have : i < P.length := by simpa using (List.mem_filter.1 hi).1
      rw [List.map_append, List.getElem?_append_left (by simpa using this)]
    rw [List.length_append, List.length_singleton, List.range_succ, List.filter_append, List.filterMap_append, e1, ih',
      List.filter_append, List.map_append]
    congr 1
    by_cases hc : c a
    · simp [hl, hc]
    · simp [hl, hc]

lemma rows_eq (f : Frame K) (N : ℕ) (h : ∀ c ∈ f, c.2.length = N) (hf : f ≠ []) : f.rows = N := by
  refine le_antisymm (rows_le f N h) ?_
  unfold Frame.rows
  obtain ⟨c, f, rfl⟩ := List.exists_cons_of_ne_nil hf
  have : ∀ (l : List ℕ) (a : ℕ), a ≤ l.foldl max a := by
    intro l
    induction l with
    | nil => intro a; exact le_rfl
    | cons x l ih => intro a; exact (le_max_left _ _).trans (ih _)
  rw [List.map_cons, List.foldl_cons, h c (by simp)]
  exact (le_max_right 0 N).trans (this _ _)

/-- **C53** With rows containing NaN dropped (the default), the melted table consists of the rows of exactly those (step, cell)
pairs for which no column is NaN, in order, every entry belonging to its pair. -/
theorem C53_melt_dropped (lower : String → String) (t : TInput K) (h : t.Consistent) (columns : List String)
    (hk : ∀ c ∈ columns, lower c ∈ documented.map (·.1)) (dropZero : Bool) :
    let labels := [Lbl.id, .step] ++ t.fdir.map .axis ++ requested lower columns
    t.getDf lower columns true true dropZero = .ok (labels.map fun l =>
      (l, (t.pairs.filter fun p => labels.all fun l => (t.expect p.1 p.2 l).isSome).map fun p => t.expect p.1 p.2 l)) := by
  intro labels
  obtain ⟨f, h1, h2, h3⟩ := C53_melt lower t h columns hk dropZero
  have hg : t.getDf lower columns true true dropZero = .ok f.dropRows := by
    simp only [TInput.getDf, if_true, Bool.false_eq_true, if_false] at h1 ⊢
    revert h1
    generalize columns.foldlM (t.addColumn lower true) _ = r
    cases r with
    | error e => intro h; cases h
    | ok g => intro h; cases h; rfl
  have hcol : ∀ c ∈ f, c = (c.1, t.pairs.map fun p => t.expect p.1 p.2 c.1) := by
    intro c hc
    rw [← col_eq c.1 c.2 (h3 c hc)]
  have hfm : f = labels.map fun l => (l, t.pairs.map fun p => t.expect p.1 p.2 l) := by
    rw [show labels = f.map (·.1) from h2.symm, List.map_map]
    conv_lhs => rw [← List.map_id f]
    exact List.map_congr_left fun c hc => hcol c hc
  have hne : f ≠ [] := by
    rintro rfl; simp at h2
  have hr : f.rows = t.pairs.length := rows_eq f _ (fun c hc => by rw [(h3 c hc).1, pairs_length]) hne
  rw [hg]
  unfold Frame.dropRows
  simp only [hr]
  rw [hfm, List.map_map]
  congr 1
  refine List.map_congr_left fun l hl => ?_
  simp only [Function.comp]
  congr 1
  refine filter_index t.pairs _ _ _ fun i hi => ?_
  rw [List.all_map]
  congr 1
  funext l
  simp [hi]

lemma parts_error (t : TInput K) (melt : Bool) (ps : List Part) (df : Frame K) {e : Err}
    (h : ps.foldlM (fun df p => do let f ← t.part melt p; return df.concat f) df = .error e) : e = .value := by
  induction ps generalizing df with
  | nil => cases h
  | cons p ps ih =>
    rw [List.foldlM_cons] at h
    cases hp : t.part melt p with
    | ok g => rw [hp] at h; exact ih _ h
    | error x =>
      rw [hp] at h
      change Except.error x = _ at h
      have hx : x = .value := by
        cases p <;> cases melt <;> simp [TInput.part, TInput.wellsPress] at hp
        split at hp
        · cases hp
        · cases hp; rfl
      cases h
      exact hx

lemma columns_error (lower : String → String) (t : TInput K) (melt : Bool) (cs : List String) (df : Frame K) {e : Err}
    (h : cs.foldlM (t.addColumn lower melt) df = .error e) : e = .value := by
  induction cs generalizing df with
  | nil => cases h
  | cons c cs ih =>
    rw [List.foldlM_cons] at h
    cases hc : t.addColumn lower melt df c with
    | ok g => rw [hc] at h; exact ih _ h
    | error x =>
      rw [hc] at h
      cases h
      unfold TInput.addColumn at hc
      split at hc
      · cases hc; rfl
      · exact parts_error t melt _ df hc

/-- **C53** An unknown column name is refused, in both layouts, wherever it stands in the request. -/
theorem C53_unknown (lower : String → String) (t : TInput K) (columns : List String) (c : String) (hm : c ∈ columns)
    (hc : lower c ∉ documented.map (·.1)) (melt dn dz : Bool) : t.getDf lower columns melt dn dz = .error .value := by
  have key : ∀ df : Frame K, columns.foldlM (t.addColumn lower melt) df = .error .value := by
    intro df
    cases hr : columns.foldlM (t.addColumn lower melt) df with
    | error e => rw [columns_error lower t melt columns df hr]
    | ok g =>
      exfalso
      obtain ⟨pre, post, rfl⟩ := List.append_of_mem hm
      rw [List.foldlM_append] at hr
      cases hp : pre.foldlM (t.addColumn lower melt) df with
      | error e => rw [hp] at hr; cases hr
      | ok g' =>
        rw [hp] at hr
        have hadd : t.addColumn lower melt g' c = .error .value := by
          unfold TInput.addColumn
          rw [if_pos]
          simp only [List.all_eq_true, decide_eq_true_eq]
          exact fun p _ hp => hc (documented_known.2 ⟨p, hp⟩)
        change (c :: post).foldlM (t.addColumn lower melt) g' = _ at hr
        rw [List.foldlM_cons, hadd] at hr
        cases hr
  unfold TInput.getDf
  simp only [key]
  rfl

end melt

/-! ## The wide table -/

/-- What belongs to step `s` under a label of the wide table. -/
def TInput.expectWide (t : TInput K) (s : ℕ) : Lbl → Option (Val K)
  | .time => some (.num (s * t.dt))
  | .date => some (.day (s * t.dt))
  | .cellQ id => (entry t.rates s id).map .num
  | .cellP id => (entry t.press s id).map .num
  | .wellQ id => (entry t.rates s id).map .num
  | .wellP id => (((t.wpress.find? fun w => decide (w.1 = id)).bind (·.2[s]?)).getD none).map .num
  | _ => none

/-- Well pressures: one entry per step for every well, wells listed once. -/
structure TInput.WellsConsistent (t : TInput K) : Prop where
  len : ∀ w ∈ t.wpress, w.2.length = t.nsteps
  nodup : (t.wpress.map (·.1)).Nodup

/-- A column of the wide table in which every step has its value. -/
def TInput.WideOk (t : TInput K) (c : Lbl × List (Option (Val K))) : Prop :=
  c.2 = (List.range t.nsteps).map fun s => t.expectWide s c.1

section wide
variable [IsStrictOrderedRing K] {t : TInput K}

lemma colOf_eq (a : List (List (Option K))) (id : ℕ) :
    colOf a id = (List.range a.length).map fun s => entry a s id := by
  unfold colOf entry
  refine List.ext_getElem (by simp) fun i h1 h2 => ?_
  have : i < a.length := by simpa using h1
  simp [this]

/-- The labels the parts of a wide table contribute. -/
def TInput.wideLabels (t : TInput K) : Part → List Lbl
  | .time => [.time] | .date => [.date]
  | .cellsRate => t.cells.map .cellQ | .cellsPress => t.cells.map .cellP
  | .wellsRate => t.wells.map .wellQ | .wellsPress => t.wpress.map fun w => .wellP w.1

/-- The labels of the requested columns, in order. -/
def TInput.wideRequested (t : TInput K) (lower : String → String) (columns : List String) : List Lbl :=
  columns.flatMap fun c => (meaning (lower c)).flatMap t.wideLabels

lemma wide_part_ok (h : t.Consistent) (hw : t.WellsConsistent) (p : Part) : ∃ f, t.part false p = .ok f ∧ (∀ c ∈ f, t.WideOk c) ∧
    f.map (·.1) = t.wideLabels p := by
  cases p with
  | time =>
    refine ⟨_, rfl, fun c hc => ?_, rfl⟩
    simp only [TInput.timeCol, Bool.false_eq_true, if_false, List.mem_singleton] at hc
    subst hc
    simp [TInput.WideOk, times_eq _ _ h.dt, h.steps, TInput.expectWide]
  | date =>
    refine ⟨_, rfl, fun c hc => ?_, rfl⟩
    simp only [TInput.dateCol, Bool.false_eq_true, if_false, List.mem_singleton] at hc
    subst hc
    simp [TInput.WideOk, h.steps, TInput.expectWide]
  | cellsRate =>
    refine ⟨_, rfl, fun c hc => ?_, by simp [TInput.cellsRate, TInput.wideLabels]⟩
    simp only [TInput.cellsRate, Bool.false_eq_true, if_false, List.mem_map] at hc
    obtain ⟨id, _, rfl⟩ := hc
    simp [TInput.WideOk, colOf_eq, h.rates, TInput.expectWide]
  | cellsPress =>
    refine ⟨_, rfl, fun c hc => ?_, by simp [TInput.cellsPress, TInput.wideLabels]⟩
    simp only [TInput.cellsPress, Bool.false_eq_true, if_false, List.mem_map] at hc
    obtain ⟨id, _, rfl⟩ := hc
    simp [TInput.WideOk, colOf_eq, h.press, TInput.expectWide]
  | wellsRate =>
    refine ⟨_, rfl, fun c hc => ?_, by simp [TInput.wellsRate, TInput.wideLabels]⟩
    simp only [TInput.wellsRate, Bool.false_eq_true, if_false, List.mem_map] at hc
    obtain ⟨id, _, rfl⟩ := hc
    simp [TInput.WideOk, colOf_eq, h.rates, TInput.expectWide]
  | wellsPress =>
    have hall : t.wpress.all (fun w => decide (w.2.length = ((t.wpress.head?.map (·.2.length)).getD 0))) = true := by
      rw [List.all_eq_true]
      intro w hw'
      obtain ⟨w0, l, e⟩ := List.exists_cons_of_ne_nil (List.ne_nil_of_mem hw')
      have : t.wpress.head? = some w0 := by rw [e]; rfl
      simp [this, hw.len w hw', hw.len w0 (by rw [e]; simp)]
    refine ⟨t.wpress.map fun w => (.wellP w.1, w.2.map (·.map .num)), ?_, fun c hc => ?_, ?_⟩
    · simp only [TInput.part, Bool.false_eq_true, if_false, TInput.wellsPress, hall, if_true]
    · obtain ⟨w, hw', rfl⟩ := List.mem_map.1 hc
      have hf : t.wpress.find? (fun v => decide (v.1 = w.1)) = some w := by
        have hn := hw.nodup
        revert hw' hn
        generalize t.wpress = L
        intro hw' hn
        induction L with
        | nil => simp at hw'
        | cons v L ih =>
          rw [List.find?_cons]
          simp only [List.map_cons, List.nodup_cons] at hn
          rcases List.mem_cons.1 hw' with rfl | hm
          · simp
          · have : v.1 ≠ w.1 := fun e => hn.1 (e ▸ List.mem_map_of_mem hm)
            simpa [this] using ih hm hn.2
      have hl := hw.len w hw'
      simp only [TInput.WideOk, TInput.expectWide, hf]
      refine List.ext_getElem (by simp [hl]) fun i h1 h2 => ?_
      have : i < w.2.length := by simpa using h1
      simp [this]
    · simp [TInput.wideLabels]

lemma wide_parts_ok (h : t.Consistent) (hw : t.WellsConsistent) (ps : List Part) (df : Frame K) (hdf : ∀ c ∈ df, t.WideOk c) :
    ∃ f, ps.foldlM (fun df p => do let f ← t.part false p; return df.concat f) df = .ok f ∧
      (∀ c ∈ f, t.WideOk c) ∧ f.map (·.1) = df.map (·.1) ++ ps.flatMap t.wideLabels := by
  have len : ∀ c, t.WideOk c → c.2.length = t.nsteps := fun c hc => by rw [hc]; simp
  induction ps generalizing df with
  | nil => exact ⟨df, rfl, hdf, by simp⟩
  | cons p ps ih =>
    obtain ⟨g, h1, h2, h3⟩ := wide_part_ok h hw p
    have hc := concat_eq df g _ (fun c hc => len c (hdf c hc)) (fun c hc => len c (h2 c hc))
    obtain ⟨f, h4, h5, h6⟩ := ih (df.concat g) (by
      rw [hc]; intro c hc
      rcases List.mem_append.1 hc with h' | h'
      · exact hdf c h'
      · exact h2 c h')
    refine ⟨f, ?_, h5, ?_⟩
    · rw [List.foldlM_cons, h1]
      exact h4
    · rw [h6, hc, List.map_append, h3, List.flatMap_cons, List.append_assoc]

lemma wide_columns_ok (lower : String → String) (h : t.Consistent) (hw : t.WellsConsistent) (columns : List String)
    (hk : ∀ c ∈ columns, lower c ∈ documented.map (·.1)) (df : Frame K) (hdf : ∀ c ∈ df, t.WideOk c) :
    ∃ f, columns.foldlM (t.addColumn lower false) df = .ok f ∧
      (∀ c ∈ f, t.WideOk c) ∧ f.map (·.1) = df.map (·.1) ++ t.wideRequested lower columns := by
  induction columns generalizing df with
  | nil => exact ⟨df, rfl, hdf, by simp [TInput.wideRequested]⟩
  | cons c cs ih =>
    obtain ⟨g, h1, h2, h3⟩ := wide_parts_ok h hw (allParts.filter fun p => decide (lower c ∈ partNames p)) df hdf
    obtain ⟨f, h4, h5, h6⟩ := ih (fun c hc => hk c (by simp [hc])) g h2
    refine ⟨f, ?_, h5, ?_⟩
    · rw [List.foldlM_cons]
      have : t.addColumn lower false df c = .ok g := by
        unfold TInput.addColumn
        rw [if_neg ?_, h1]
        obtain ⟨p, hp⟩ := documented_known.1 (hk c (by simp))
        simp only [List.all_eq_true, decide_eq_true_eq, not_forall, not_not]
        exact ⟨p, by cases p <;> simp [allParts], hp⟩
      rw [this]
      exact h4
    · rw [h6, h3]
      simp [TInput.wideRequested, parts_documented, List.append_assoc]

/-- The data of a wide column by its label: one entry per step. -/
def TInput.wideCol (t : TInput K) (l : Lbl) : List (Option (Val K)) := (List.range t.nsteps).map fun s => t.expectWide s l

/-- **C53** The wide table, for every request with known names: the requested columns in order, each holding under its own
label the values of its own cell or well, one per step; dropping removes exactly the columns with nothing but NaN and those
with nothing but zeros. -/
theorem C53_wide (lower : String → String) (t : TInput K) (h : t.Consistent) (hw : t.WellsConsistent) (columns : List String)
    (hk : ∀ c ∈ columns, lower c ∈ documented.map (·.1)) (dropNan dropZero : Bool) :
    t.getDf lower columns false dropNan dropZero = .ok (((t.wideRequested lower columns).filter fun l =>
        (!dropNan || (t.wideCol l).any (·.isSome)) &&
        (!dropZero || (t.wideCol l).any fun v => decide (v ≠ some (.num 0)))).map fun l => (l, t.wideCol l)) := by
  obtain ⟨f, h1, h2, h3⟩ := wide_columns_ok lower h hw columns hk [] (by simp)
  have hfm : f = (t.wideRequested lower columns).map fun l => (l, t.wideCol l) := by
    rw [List.map_nil, List.nil_append] at h3
    rw [← h3, List.map_map]
    conv_lhs => rw [← List.map_id f]
    refine List.map_congr_left fun c hc => ?_
    have := h2 c hc
    simp only [TInput.WideOk] at this
    simp only [id, Function.comp, TInput.wideCol]
    rw [← this]
  have hz : ∀ c ∈ f, c.2.any neZero =
      c.2.any fun v => decide (v ≠ some (.num 0)) := by
    intro c hc
    have hw' := h2 c hc
    simp only [TInput.WideOk] at hw'
    rw [hw', List.any_map, List.any_map]
    congr 1
    funext s
    have key : ∀ v : Option (Val K), (∀ n, v ≠ some (.nat n)) → neZero v = decide (v ≠ some (.num 0)) := by
      intro v hv
      match v with
      | none => simp [neZero]
      | some (.nat n) => exact absurd rfl (hv n)
      | some (.num k) => simp [neZero, Val.isZero]
      | some (.day k) => simp [neZero, Val.isZero]
      | some (.inf k) => simp [neZero, Val.isZero]
    refine key _ fun n hv => ?_
    revert hv
    cases c.1 <;> simp [TInput.expectWide]
  have e : t.getDf lower columns false dropNan dropZero =
      .ok (if dropZero then (if dropNan then f.dropNanCols else f).dropZeroCols else if dropNan then f.dropNanCols else f) := by
    simp only [TInput.getDf, Bool.false_eq_true, if_false, h1]
    rfl
  rw [e]
  have key : (if dropZero then (if dropNan then f.dropNanCols else f).dropZeroCols else if dropNan then f.dropNanCols else f) =
      f.filter fun c => (!dropNan || c.2.any (·.isSome)) && (!dropZero || c.2.any fun v => decide (v ≠ some (.num 0))) := by
    cases dropNan <;> cases dropZero <;> simp only [Bool.not_false, Bool.not_true, Bool.true_or, Bool.false_or,
      Bool.and_true, Bool.true_and, Bool.false_eq_true, if_true, if_false, Frame.dropNanCols, Frame.dropZeroCols]
    · simp
    · exact List.filter_congr hz
    · rw [List.filter_filter]
      refine List.filter_congr fun c hc => ?_
      rw [hz c hc, Bool.and_comm]
  rw [key, hfm, List.filter_map]
  rfl

/-- **C53** If the lists of well pressures differ in length, asking for well pressures raises an error. -/
theorem C53_unequal_wells (t : TInput K) (w w' : ℕ × List (Option K)) (hw : w ∈ t.wpress) (hw' : w' ∈ t.wpress)
    (hne : w.2.length ≠ w'.2.length) : t.part false .wellsPress = .error .value := by
  simp only [TInput.part, Bool.false_eq_true, if_false, TInput.wellsPress]
  rw [if_neg]
  simp only [List.all_eq_true, decide_eq_true_eq, not_forall]
  by_contra hcon
  push Not at hcon
  exact hne ((hcon w hw).trans (hcon w' hw').symm)
end wide

/-! ## Step counters that disagree -/
section bounded
variable [IsStrictOrderedRing K] {t : TInput K}

/-- The first column holds ids: some entries, then padding. -/
def Frame.Padded (f : Frame K) (n : ℕ) : Prop :=
  ∃ d k rest, f = (Lbl.id, d ++ List.replicate k none) :: rest ∧ d.length = n

lemma concat_padded (a b : Frame K) (n : ℕ) (h : a.Padded n) : (a.concat b).Padded n := by
  obtain ⟨d, k, rest, rfl, hd⟩ := h
  unfold Frame.concat
  refine ⟨d, k + (max (Frame.rows ((Lbl.id, d ++ List.replicate k none) :: rest)) b.rows -
    (d ++ List.replicate k none).length), (rest ++ b).map fun c => (c.1, c.2 ++ List.replicate
      (max (Frame.rows ((Lbl.id, d ++ List.replicate k none) :: rest)) b.rows - c.2.length) none), ?_, hd⟩
  simp only [List.cons_append, List.map_cons, List.append_assoc, List.replicate_append_replicate]

lemma parts_padded (melt : Bool) (ps : List Part) (df f : Frame K) (n : ℕ) (h : df.Padded n)
    (hf : ps.foldlM (fun df p => do let f ← t.part melt p; return df.concat f) df = .ok f) : f.Padded n := by
  induction ps generalizing df with
  | nil => cases hf; exact h
  | cons p ps ih =>
    rw [List.foldlM_cons] at hf
    cases hp : t.part melt p with
    | error e => rw [hp] at hf; cases hf
    | ok g =>
      rw [hp] at hf
      exact ih (df.concat g) (concat_padded df g n h) hf

lemma columns_padded (lower : String → String) (melt : Bool) (cs : List String) (df f : Frame K) (n : ℕ) (h : df.Padded n)
    (hf : cs.foldlM (t.addColumn lower melt) df = .ok f) : f.Padded n := by
  induction cs generalizing df with
  | nil => cases hf; exact h
  | cons c cs ih =>
    rw [List.foldlM_cons] at hf
    cases hp : t.addColumn lower melt df c with
    | error e => rw [hp] at hf; cases hf
    | ok g =>
      rw [hp] at hf
      refine ih g ?_ hf
      unfold TInput.addColumn at hp
      split_ifs at hp
      exact parts_padded melt _ df g n h hp

/-- **C53** The number of rows is bounded by the counter of `run` steps: with the default settings the melted table never has
more than `nsteps` times the number of cells, however many steps the pressure table holds. Steps made with `solve()` do not
advance that counter, so they are missing from the table (`C53_solve_only`). -/
theorem C53_rows_bounded (lower : String → String) (t : TInput K) (columns : List String) (dz : Bool) (f : Frame K)
    (hf : t.getDf lower columns true true dz = .ok f) : ∀ c ∈ f, c.2.length ≤ t.nsteps * t.cells.length := by
  let base : Frame K := [(.id, (tileL t.cells t.nsteps).map fun n => some (.nat n)),
        (.step, (repeatEach (List.range t.nsteps) t.cells.length).map fun n => some (.nat n))]
  have hbp : base.Padded (t.nsteps * t.cells.length) :=
    ⟨(tileL t.cells t.nsteps).map fun n => some (.nat n), 0,
      [(.step, (repeatEach (List.range t.nsteps) t.cells.length).map fun n => some (.nat n))],
      by simp [base], by simp [tileL_length]⟩
  simp only [TInput.getDf, if_true] at hf
  cases hg : columns.foldlM (t.addColumn lower true) (base.concat t.xyz) with
  | error e =>
    simp only [base] at hg
    rw [hg] at hf
    cases hf
  | ok g =>
    obtain ⟨d, k, rest, hgd, hd⟩ := columns_padded lower true columns _ g _ (concat_padded base t.xyz _ hbp) hg
    simp only [base] at hg
    rw [hg] at hf
    cases hf
    intro c hc
    unfold Frame.dropRows at hc
    obtain ⟨c0, hc0, rfl⟩ := List.mem_map.1 hc
    simp only
    have hkeep : ∀ i ∈ (List.range g.rows).filter (fun i => g.all fun c => ((c.2[i]?).getD none).isSome),
        i < t.nsteps * t.cells.length := by
      intro i hi
      have := (List.mem_filter.1 hi).2
      rw [List.all_eq_true] at this
      have := this _ (by rw [hgd]; exact List.mem_cons_self)
      by_contra hlt
      simp only at this
      rw [List.getElem?_append_right (by omega)] at this
      rw [List.getElem?_replicate] at this
      split_ifs at this <;> simp at this
    have hnd : ((List.range g.rows).filter (fun i => g.all fun c => ((c.2[i]?).getD none).isSome)).Nodup :=
      List.nodup_range.filter _
    calc _ ≤ ((List.range g.rows).filter (fun i => g.all fun c => ((c.2[i]?).getD none).isSome)).length :=
          List.length_filterMap_le _ _
      _ ≤ (List.range (t.nsteps * t.cells.length)).length := by
          refine List.Subperm.length_le (List.subperm_of_subset hnd fun i hi => ?_)
          simpa using hkeep i hi
      _ = _ := by simp

/-- **C53** After steps made with `solve()` alone the counter is still one: the table has at most the rows of step 0. -/
theorem C53_solve_only (lower : String → String) (t : TInput K) (columns : List String) (dz : Bool) (f : Frame K)
    (h1 : t.nsteps = 1) (hf : t.getDf lower columns true true dz = .ok f) :
    ∀ c ∈ f, c.2.length ≤ t.cells.length := by
  simpa [h1] using C53_rows_bounded lower t columns dz f hf
end bounded

/-- Two steps on two cells and two boundary cells. -/
def demoT : TInput ℚ where
  cells := [0, 1, 2, 3]
  fdir := [.x]
  centers := [[-1/2], [1/2], [3/2], [5/2]]
  nsteps := 2
  tstep := 1
  dt := 1
  press := [[some 4000, some 3000, some 3000, none], [some 4000, some 3400, some 3100, none]]
  rates := [[some 0, some 0, some 0, some 0], [some 12, some 0, some (-5), some 0]]
  wells := [2]
  wpress := [(2, [some 3000, some 2500])]
example : demoT.Consistent := ⟨rfl, rfl, rfl, rfl, by decide, by decide, by decide, by norm_num [demoT]⟩
example : demoT.WellsConsistent := ⟨by decide, by decide⟩
example : ∀ c ∈ ["time", "cells"], ∃ p, c ∈ partNames p := by
  intro c hc
  simp only [List.mem_cons, List.not_mem_nil, or_false] at hc
  rcases hc with rfl | rfl
  · exact ⟨.time, by decide⟩
  · exact ⟨.cellsRate, by decide⟩
end RF
