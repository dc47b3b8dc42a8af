import Verif.Registry.Model
/-!
# Properties of the solution registry (C51, C52)

The specification reads a history from its newest call backwards.
-/
namespace RF
variable (lower : String → String) (name : String)

/-- The compilers made by the successful `compile` calls of a history, newest first. -/
def created : List RCall → List Compiler
  | [] => []
  | .compile s m sp :: past => match mkCompiler lower s m sp with
    | .ok c => c :: created past
    | .error _ => created past
  | .setSolution _ :: past => created past

/-- The solution object last compiled under a name: objects are numbered in order of creation. -/
def latest (n : String) : List RCall → Option ℕ
  | [] => none
  | .compile s m sp :: past => match mkCompiler lower s m sp with
    | .ok c => if c.str name = n then some (created lower past).length else latest n past
    | .error _ => latest n past
  | .setSolution _ :: past => latest n past

/-- The solution compiled or selected last. -/
def active : List RCall → Option ℕ
  | [] => none
  | .compile s m sp :: past => match mkCompiler lower s m sp with
    | .ok _ => some (created lower past).length
    | .error _ => active past
  | .setSolution n :: past => match latest lower name n past with
    | some s => some s
    | none => active past

section dict
variable {α β : Type} [DecidableEq α]

lemma dictGet_set (d : List (α × β)) (k k' : α) (v : β) :
    dictGet (dictSet d k v) k' = if k = k' then some v else dictGet d k' := by
  unfold dictSet
  split_ifs with h1 h2 h2
  · subst h2
    simp only [List.any_eq_true, decide_eq_true_eq] at h1
    induction d with
    | nil => simp at h1
    | cons e d ih =>
      simp only [dictGet, List.map_cons, List.find?_cons]
      by_cases he : e.1 = k
      · simp [he]
      · obtain ⟨x, hx, hk⟩ := h1
        rcases List.mem_cons.1 hx with rfl | hx
        · exact absurd hk he
        · simpa [he, dictGet] using ih ⟨x, hx, hk⟩
  · clear h1
    induction d with
    | nil => rfl
    | cons e d ih =>
      simp only [dictGet, List.map_cons, List.find?_cons]
      by_cases he : e.1 = k
      · have : e.1 ≠ k' := fun h => h2 (he ▸ h)
        simpa [he, h2, this, dictGet] using ih
      · by_cases he' : e.1 = k'
        · rw [if_neg he]
          simp [he']
        · simpa [he, he', dictGet] using ih
  · subst h2
    have : d.find? (fun e => decide (e.1 = k)) = none := by
      rw [List.find?_eq_none]
      intro e he hk
      exact h1 (List.any_eq_true.2 ⟨e, he, hk⟩)
    simp [dictGet, List.find?_append, this]
  · simp [dictGet, List.find?_append, h2]

lemma keys_set (d : List (α × β)) (k : α) (v : β) :
    (dictSet d k v).map (·.1) = if k ∈ d.map (·.1) then d.map (·.1) else d.map (·.1) ++ [k] := by
  unfold dictSet
  have : (d.any fun e => decide (e.1 = k)) = true ↔ k ∈ d.map (·.1) := by simp [List.any_eq_true]
  split_ifs with h1 h2 h2
  · rw [List.map_map]
    refine List.map_congr_left fun e _ => ?_
    by_cases h : e.1 = k <;> simp [h]
  · exact absurd (this.1 h1) h2
  · exact absurd (this.2 h2) h1
  · simp

lemma dictGet_isSome (d : List (α × β)) (k : α) : (dictGet d k).isSome ↔ k ∈ d.map (·.1) := by
  simp [dictGet, List.find?_isSome]
end dict

/-- What is maintained by every call. -/
structure RInv (past : List RCall) (r : Registry) : Prop where
  next : r.next = (created lower past).length
  sol : r.solution = active lower name past
  solve : r.solve = active lower name past
  run : r.run = active lower name past
  comp : r.compiler = (active lower name past).bind (fun i => (created lower past).reverse[i]?)
  get : ∀ n, dictGet r.solutions n = latest lower name n past
  getc : ∀ n, dictGet r.compilers n = (latest lower name n past).bind (fun i => (created lower past).reverse[i]?)
  nodup : r.names.Nodup

lemma latest_lt (n : String) (past : List RCall) (i : ℕ) (h : latest lower name n past = some i) :
    i < (created lower past).length := by
  induction past with
  | nil => simp [latest] at h
  | cons c past ih =>
    cases c with
    | compile s m sp =>
      simp only [latest, created] at h ⊢
      cases hc : mkCompiler lower s m sp with
      | error e => simp only [hc] at h ⊢; exact ih h
      | ok c =>
        simp only [hc] at h ⊢
        split_ifs at h
        · simp at h; simp [← h]
        · simp; have := ih h; omega
    | setSolution m => exact ih h

lemma active_lt (past : List RCall) (i : ℕ) (h : active lower name past = some i) :
    i < (created lower past).length := by
  induction past with
  | nil => simp [active] at h
  | cons c past ih =>
    cases c with
    | compile s m sp =>
      simp only [active, created] at h ⊢
      cases hc : mkCompiler lower s m sp with
      | error e => simp only [hc] at h ⊢; exact ih h
      | ok c => simp only [hc] at h ⊢; simp at h; simp [← h]
    | setSolution m =>
      simp only [active, created] at h ⊢
      cases hl : latest lower name m past with
      | none => rw [hl] at h; exact ih h
      | some s => rw [hl] at h; simp at h; subst h; exact latest_lt lower name m past s hl

lemma bind_snoc (o : Option ℕ) (l : List Compiler) (c : Compiler) (h : ∀ i, o = some i → i < l.length) :
    (o.bind fun i => (c :: l).reverse[i]?) = o.bind fun i => l.reverse[i]? := by
  cases o with
  | none => rfl
  | some i =>
    have := h i rfl
    simp only [Option.bind_some, List.reverse_cons]
    rw [List.getElem?_append_left (by simpa using this)]

lemma inv_step (past : List RCall) (r : Registry) (h : RInv lower name past r) (c : RCall) :
    RInv lower name (c :: past) (r.step lower name c).1 := by
  cases c with
  | compile s m sp =>
    cases hc : mkCompiler lower s m sp with
    | error e =>
      simp only [Registry.step, hc]
      refine ⟨?_, ?_, ?_, ?_, ?_, ?_, ?_, h.nodup⟩ <;> simp only [created, active, latest, hc]
      exacts [h.next, h.sol, h.solve, h.run, h.comp, h.get, h.getc]
    | ok c =>
      simp only [Registry.step, hc]
      refine ⟨?_, ?_, ?_, ?_, ?_, ?_, ?_, ?_⟩ <;> simp only [created, active, latest, hc, h.next]
      · rfl
      · simp
      · intro n
        rw [dictGet_set, h.get]
      · intro n
        rw [dictGet_set, h.getc]
        split_ifs
        · simp
        · rw [bind_snoc _ _ _ fun i hi => latest_lt lower name n past i hi]
      · have := h.nodup
        simp only [Registry.names] at this ⊢
        rw [keys_set]
        split_ifs with hk
        · exact this
        · rw [List.nodup_append]
          exact ⟨this, List.nodup_singleton _, by rintro a ha b hb rfl; simp at hb; exact hk (hb ▸ ha)⟩
  | setSolution n =>
    cases hl : latest lower name n past with
    | none =>
      have : dictGet r.solutions n = none := (h.get n).trans hl
      simp only [Registry.step, this]
      refine ⟨?_, ?_, ?_, ?_, ?_, ?_, ?_, h.nodup⟩ <;> simp only [created, active, latest, hl]
      exacts [h.next, h.sol, h.solve, h.run, h.comp, h.get, h.getc]
    | some i =>
      have e1 : dictGet r.solutions n = some i := (h.get n).trans hl
      have hi := latest_lt lower name n past i hl
      have e2 : dictGet r.compilers n = some ((created lower past).reverse[i]'(by simpa using hi)) := by
        rw [h.getc n, hl]
        exact List.getElem?_eq_getElem (by simpa using hi)
      simp only [Registry.step, e1, e2]
      refine ⟨?_, ?_, ?_, ?_, ?_, ?_, ?_, h.nodup⟩ <;> simp only [created, active, latest, hl]
      exacts [h.next, (List.getElem?_eq_getElem _).symm, h.get, h.getc]

lemma runAll_append (r : Registry) (a b : List RCall) :
    r.runAll lower name (a ++ b) = (r.runAll lower name a).runAll lower name b := by
  induction a generalizing r with
  | nil => rfl
  | cons c a ih => exact ih _

lemma inv_run (past : List RCall) : RInv lower name past (Registry.init.runAll lower name past.reverse) := by
  induction past with
  | nil => exact ⟨rfl, rfl, rfl, rfl, rfl, fun _ => rfl, fun _ => rfl, List.nodup_nil⟩
  | cons c past ih =>
    rw [List.reverse_cons, runAll_append]
    exact inv_step lower name past _ ih c

/-- **C51** After any history, the current solution, `solve` and `run` are those of the solution compiled or selected last, the
current compiler is the one that solution was made with, a name leads to the solution last compiled under it, and every name
is listed once. -/
theorem C51_history (past : List RCall) :
    let r := Registry.init.runAll lower name past.reverse
    r.solution = active lower name past ∧ r.solve = active lower name past ∧ r.run = active lower name past ∧
      r.compiler = (active lower name past).bind (fun i => (created lower past).reverse[i]?) ∧
      (∀ n, dictGet r.solutions n = latest lower name n past) ∧
      r.names.Nodup ∧ (∀ n, n ∈ r.names ↔ ∃ i, latest lower name n past = some i) := by
  intro r
  have h := inv_run lower name past
  refine ⟨h.sol, h.solve, h.run, h.comp, h.get, h.nodup, fun n => ?_⟩
  rw [← Option.isSome_iff_exists, ← h.get n]
  exact (dictGet_isSome _ _).symm

/-- **C51** After any history a call that raises changes nothing. `set_solution` raises exactly for names not listed, `compile`
exactly when it does not make a compiler. -/
theorem C51_refused (past : List RCall) (c : RCall) :
    let r := Registry.init.runAll lower name past.reverse
    (∀ e, (r.step lower name c).2 = .error e → (r.step lower name c).1 = r) ∧
    (∀ n, c = .setSolution n → ((r.step lower name c).2 = .ok () ↔ n ∈ r.names)) ∧
    (∀ s m sp, c = .compile s m sp → ((r.step lower name c).2 = .ok () ↔ ∃ k, mkCompiler lower s m sp = .ok k)) := by
  intro r
  have h := inv_run lower name past
  refine ⟨fun e he => ?_, ?_, ?_⟩
  · cases c with
    | compile s m sp =>
      cases hc : mkCompiler lower s m sp with
      | error e => simp [Registry.step, hc]
      | ok k => simp [Registry.step, hc] at he
    | setSolution n =>
      cases hl : latest lower name n past with
      | none =>
        have : dictGet r.solutions n = none := (h.get n).trans hl
        simp [Registry.step, this]
      | some i =>
        have e1 : dictGet r.solutions n = some i := (h.get n).trans hl
        have hi := latest_lt lower name n past i hl
        have e2 : dictGet r.compilers n = some ((created lower past).reverse[i]'(by simpa using hi)) := by
          rw [h.getc n, hl]
          exact List.getElem?_eq_getElem (by simpa using hi)
        simp [Registry.step, e1, e2] at he
  · rintro n rfl
    rw [Registry.names, ← dictGet_isSome]
    cases hl : latest lower name n past with
    | none =>
      have : dictGet r.solutions n = none := (h.get n).trans hl
      simp [Registry.step, this]
    | some i =>
      have e1 : dictGet r.solutions n = some i := (h.get n).trans hl
      have hi := latest_lt lower name n past i hl
      have e2 : dictGet r.compilers n = some ((created lower past).reverse[i]'(by simpa using hi)) := by
        rw [h.getc n, hl]
        exact List.getElem?_eq_getElem (by simpa using hi)
      simp [Registry.step, e1, e2]
  · rintro s m sp rfl
    cases hc : mkCompiler lower s m sp with
    | error e => simp [Registry.step, hc]
    | ok k => simp [Registry.step, hc]

/-- The part of a compiler's name after the model's name. -/
def Compiler.suffix (c : Compiler) : String :=
  "-" ++ (c.stype.str ++ ("-" ++ (c.method.str ++ ("-" ++ (if c.sparse then "True" else "False")))))

/-- All combinations of type, method and flag. -/
def allCompilers : List Compiler :=
  [SType.numerical, .analytical, .neurical].flatMap fun t =>
    [Method.fdm, .fvm, .fem, .d1p1, .d1p2, .d1p3, .d2p1, .d2p2, .d2p3, .d3p1, .d3p2, .d3p3, .pinn, .deeponet].flatMap fun m =>
      [true, false].map fun s => ⟨t, m, s⟩

/-- **C51** Names are unique per type, method and sparse flag. -/
theorem C51_names (c c' : Compiler) : c.str name = c'.str name ↔ c = c' := by
  constructor
  · intro h
    have key : ∀ c : Compiler, c.str name = name ++ c.suffix := by
      intro c; simp only [Compiler.str, Compiler.suffix, String.append_assoc]
    rw [key, key] at h
    have h2 : c.suffix = c'.suffix := by
      have := congrArg String.toList h
      rw [String.toList_append, String.toList_append] at this
      exact String.toList_inj.1 (List.append_cancel_left this)
    have hn : (allCompilers.map fun c => c.suffix.toList).Nodup := by decide +kernel
    have hm : ∀ c, c ∈ allCompilers := by
      rintro ⟨t, m, s⟩
      cases t <;> cases m <;> cases s <;> decide
    exact List.inj_on_of_nodup_map hn (hm c) (hm c') (by rw [h2])
  · rintro rfl; rfl

/-- **C52** A solution type spelled as listed, in any letter case, resolves to that type; anything else is refused. -/
theorem C52_types (s : String) (t : SType) : setStype lower s = .ok t ↔ lower s ∈ STYPES t := by
  have d : ∀ t t' x, x ∈ STYPES t → x ∈ STYPES t' → t = t' := by
    intro t t' x h h'
    cases t <;> cases t' <;> first | rfl | (exfalso; revert h h'; simp only [STYPES, List.mem_cons, List.not_mem_nil, or_false]
                                            rintro (rfl | rfl | rfl) <;> decide)
  unfold setStype
  constructor
  · intro h
    split_ifs at h with h1 h2 h3 <;> cases h <;> assumption
  · intro h
    split_ifs with h1 h2 h3
    · rw [d _ _ _ h1 h]
    · rw [d _ _ _ h2 h]
    · rw [d _ _ _ h3 h]
    · cases t
      · exact absurd h h1
      · exact absurd h h2
      · exact absurd h h3

/-- The spellings that the table lists for several methods. -/
def ambiguous : List String := ["2d1p", "3d1p"]

/-- **C52** (partial) A method spelled as listed for it, in any letter case, resolves to that method, except for the spellings
`2d1p` and `3d1p`, each listed for three methods; what is listed nowhere is refused, and the answer is unique.
Missing: the shared spellings. -/
theorem C52_methods_partial (t : SType) (m : Method) (hm : m ∈ t.methods) (s : String) :
    (lower s ∈ METHODS m → lower s ∉ ambiguous → setMethod lower t s = .ok m) ∧
    (setMethod lower t s = .ok m → lower s ∈ METHODS m) ∧
    ((∀ m' ∈ t.methods, lower s ∉ METHODS m') → setMethod lower t s = .error .value) := by
  refine ⟨?_, ?_, ?_⟩
  · intro h ha
    have key : ∀ x ∈ METHODS m, x ∉ ambiguous →
        t.methods.find? (fun y => decide (x ∈ METHODS y)) = some m := by
      revert hm
      cases t <;> cases m <;> intro hm <;> first | (exact absurd hm (by decide)) | decide
    unfold setMethod
    rw [key _ h ha]
  · intro h
    unfold setMethod at h
    split at h
    · rename_i x hx
      cases h
      simpa using List.find?_some hx
    · cases h
  · intro h
    unfold setMethod
    have : t.methods.find? (fun x => decide (lower s ∈ METHODS x)) = none := by
      rw [List.find?_eq_none]; intro x hx; simpa using h x hx
    rw [this]

/-- **C52** The shared spellings resolve to the first of their methods, so `2d1p` never means D2P2 or D2P3 although it is listed
for them; the natural spellings of the two- and three-phase methods in two and three dimensions are refused. -/
theorem C52_shared (s : String) :
    (lower s = "2d1p" → setMethod lower .analytical s = .ok .d2p1 ∧ lower s ∈ METHODS .d2p2 ∧ lower s ∈ METHODS .d2p3) ∧
    (lower s = "3d1p" → setMethod lower .analytical s = .ok .d3p1 ∧ lower s ∈ METHODS .d3p2 ∧ lower s ∈ METHODS .d3p3) ∧
    (lower s ∈ ["2d2p", "2d3p", "3d2p", "3d3p"] → setMethod lower .analytical s = .error .value) := by
  refine ⟨fun h => ?_, fun h => ?_, fun h => ?_⟩
  · unfold setMethod; rw [h]; exact ⟨rfl, by decide, by decide⟩
  · unfold setMethod; rw [h]; exact ⟨rfl, by decide, by decide⟩
  · simp only [List.mem_cons, List.not_mem_nil, or_false] at h
    unfold setMethod
    rcases h with h | h | h | h <;> (rw [h]; rfl)

/-- **C52** Compilation goes through exactly if the `sparse` argument is a boolean, the names resolve, and the method is finite
differences or the one-dimensional single-phase formula: every other method of the tables, the neural network included, is
refused after its name has been accepted. The compiler then carries the resolved names and the flag. -/
theorem C52_compile (s m : String) (sp : SparseArg) (c : Compiler) : mkCompiler lower s m sp = .ok c ↔
    sp = .bool c.sparse ∧ setStype lower s = .ok c.stype ∧ setMethod lower c.stype m = .ok c.method ∧
      (c.method = .fdm ∨ c.method = .d1p1) := by
  have hr : ∀ x : Method, x.ready = true ↔ x = .fdm ∨ x = .d1p1 := by intro x; cases x <;> decide
  obtain ⟨t, x, b⟩ := c
  cases sp with
  | other => exact ⟨fun h => (by cases h), fun h => (by cases h.1)⟩
  | bool b' =>
    simp only [mkCompiler, SparseArg.bool.injEq]
    cases ht : setStype lower s with
    | error e => exact ⟨fun h => (by cases h), fun h => (by cases h.2.1)⟩
    | ok t' =>
      cases hm : setMethod lower t' m with
      | error e =>
        refine ⟨fun h => by simp [bind, Except.bind, hm] at h, fun h => ?_⟩
        have := h.2.1; simp only [Except.ok.injEq] at this; subst this
        rw [hm] at h; cases h.2.2.1
      | ok x' =>
        simp only [bind, Except.bind, hm]
        by_cases hx : x'.ready = true
        · rw [if_pos hx]
          constructor
          · intro h; cases h; exact ⟨rfl, rfl, hm, (hr _).mp hx⟩
          · rintro ⟨rfl, h1, h2, _⟩; cases h1; rw [hm] at h2; cases h2; rfl
        · rw [if_neg hx]
          constructor
          · intro h; cases h
          · rintro ⟨rfl, h1, h2, h3⟩; cases h1; rw [hm] at h2; cases h2; exact absurd ((hr _).mpr h3) hx

example : mkCompiler String.toLower "Num" "FDM" (.bool true) = .ok ⟨.numerical, .fdm, true⟩ := by decide +kernel

/-- Two configurations, a refused one, a selection. -/
def demoPast : List RCall :=
  [.setSolution "m-numerical-FDM-True", .compile "a" "2D2P" (.bool true), .compile "Ana" "1D1P" (.bool true),
   .compile "num" "FDM" (.bool true)]
example : active String.toLower "m" demoPast = some 0 := by decide +kernel
example : (created String.toLower demoPast).length = 2 := by decide +kernel
example : String.toLower "Finite Difference Method" ∈ METHODS .fdm := by decide +kernel
end RF
