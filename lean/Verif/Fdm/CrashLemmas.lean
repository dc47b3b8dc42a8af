import Verif.Fdm.Crash
import Verif.Fdm.PropsLook
import Verif.Fdm.PropsWells
/-!
# Interrupted calls: lemmas

The statement-by-statement model ends where the model of whole calls ends, and an interrupted assembly can be repeated.
-/
set_option linter.unusedSectionVars false
namespace RF.Fdm
open RF RF.Dims Finset

variable {K : Type} [Field K] [LinearOrder K] [IsStrictOrderedRing K]

/-! ### the ends agree -/

lemma vBoundsT_out (lower : String → String) (e : Env K) (m : Mdl K) (l : List ℕ) (acc : (ℕ → ℕ → K) × List (ℕ × K × K × ℕ)) :
    (vBoundsT lower e m l acc).2 = l.foldlM (vBound lower e m) acc := by
  induction l generalizing acc with
  | nil => rfl
  | cons b l ih =>
    unfold vBoundsT
    rw [List.foldlM_cons]
    rcases vBound lower e m acc b with x | acc'
    · rfl
    · exact ih acc'

lemma vReadyT_out (lower : String → String) (e : Env K) (m : Mdl K) (s : Sol K) : (vReadyT lower e m s).out = vReady lower e m s := by
  have key : (match (vBoundsT lower e m m.bUpdate (initA e, [])).2 with | .ok x => .ok (x.1, x.2, fun _ => false) | .error x => .error x) = (do
      let (A, bV) ← m.bUpdate.foldlM (vBound lower e m) (initA e, [])
      pure (A, bV, fun _ => false) : Except Err ((ℕ → ℕ → K) × List (ℕ × K × K × ℕ) × (ℕ → Bool))) := by
    rw [vBoundsT_out]
    rcases m.bUpdate.foldlM (vBound lower e m) (initA e, []) with x | x <;> rfl
  unfold vReadyT vReady
  dsimp only
  rcases s.vA with _ | A
  · exact key
  · dsimp only
    split_ifs
    · exact key
    · rfl

lemma vWellsT_out (e : Env K) (s : Sol K) (l : List (ℕ × Well K)) (acc : VAcc K) : (vWellsT e s l acc).2 = l.foldlM (vWell e s) acc := by
  induction l generalizing acc with
  | nil => rfl
  | cons x l ih =>
    unfold vWellsT
    rw [List.foldlM_cons]
    rcases vWell e s acc x with y | acc'
    · rfl
    · exact ih acc'

lemma matricesVectT_out (lower : String → String) (e : Env K) (m : Mdl K) (s : Sol K) : (matricesVectT lower e m s).out = matricesVect lower e m s := by
  unfold matricesVectT matricesVect
  rw [vReadyT_out]
  rcases vReady lower e m s with x | ⟨A, bV, res⟩
  · rfl
  dsimp only [bind, Except.bind]
  rcases initD e s with x | d
  · rfl
  dsimp only
  rw [vWellsT_out]
  rcases m.wells.foldlM (vWell e s) ⟨A, d, res, false⟩ with x | acc
  · rfl
  dsimp only
  rcases m.bdict.foldlM (vBd e s bV) acc.d with x | d
  · rfl
  · rfl

lemma eqsT_out (lower : String → String) (scale : (ℕ → K) → K → K) (e : Env K) (s : Sol K) (l : List ℕ) (acc : Mdl K × List (ℕ × (ℕ → K) × K)) :
    (eqsT lower scale e s l acc).2 = l.foldlM (eqStep lower scale e s) acc := by
  induction l generalizing acc with
  | nil => rfl
  | cons id l ih =>
    unfold eqsT
    rw [List.foldlM_cons]
    unfold eqStep cellEq
    rcases cellTerms lower e acc.1 s id with x | t
    · rfl
    dsimp only [bind, Except.bind]
    rcases eqRow scale e.ids (Aff.sum t.f) t.a with x | row
    · rfl
    · exact ih _

lemma matricesSymbT_out (lower : String → String) (scale : (ℕ → K) → K → K) (e : Env K) (m : Mdl K) (s : Sol K) :
    (matricesSymbT lower scale e m s).out = matricesSymb lower scale e m s := by
  unfold matricesSymbT matricesSymb
  dsimp only
  rw [eqsT_out]
  rw [show cellsEq lower scale e m s = e.ids.foldlM (eqStep lower scale e s) (m, []) from rfl]
  rcases e.ids.foldlM (eqStep lower scale e s) (m, []) with x | ⟨m1, eqs⟩
  · rfl
  · rfl

lemma assembleT_out (c : Ctx K) (vect : Bool) (m : Mdl K) (s : Sol K) : (assembleT c vect m s).out = assemble c vect m s := by
  unfold assembleT assemble
  cases vect
  · exact matricesSymbT_out c.lower c.scale c.e m s
  · simp only [if_true]
    rw [matricesVectT_out]
    rcases matricesVect c.lower c.e m s with x | ⟨s1, A, d⟩ <;> rfl

lemma boundsT_out (lower : String → String) (e : Env K) (m : Mdl K) (p : ℕ → Option K) (l : List ℕ) (r : ℕ → K) :
    (boundsT lower e m p l r).2 = l.foldlM (fun r idb => do
      match ← e.transC idb false with
      | [(id, T)] => pure (Function.update r idb (bTerm lower e m.bdict id idb (Aff.c ((p id).getD 0)) T).const)
      | _ => .error .value) r := by
  induction l generalizing r with
  | nil => rfl
  | cons b l ih =>
    rw [List.foldlM_cons]
    unfold boundsT
    rcases e.transC b false with x | x
    · rfl
    · rcases x with _ | ⟨⟨id, T⟩, _ | ⟨y, x⟩⟩
      · rfl
      · exact ih _
      · rfl

lemma wellT_out (e : Env K) (p : K) (w : Well K) : (wellT e p w).2 = updateWell e p w := by
  unfold wellT updateWell
  rcases estimate e p w with x | est
  · rfl
  dsimp only [bind, Except.bind]
  rcases need w.pwfsp with x | sp
  · rfl
  dsimp only
  split_ifs with hgt
  · rcases wTerm e { w with con := some .q, pwf := some est } (Aff.c p) with x | t <;> rfl
  · rcases wantsAgain est sp w with x | again
    · rfl
    · dsimp only
      rcases wTerm e { w with con := some .pwf, pwf := some sp } (Aff.c p) with x | t <;> rfl

lemma wellsT_out (e : Env K) (p : ℕ → Option K) (done l : List (ℕ × Well K)) (r : ℕ → K) :
    (wellsT e p done l r).2 = match updateWells e p l r with | .ok (ws, r, ps, again) => .ok (done ++ ws, r, ps, again) | .error x => .error x := by
  induction l generalizing done r with
  | nil => simp [wellsT, updateWells]
  | cons y l ih =>
    obtain ⟨id, w⟩ := y
    unfold wellsT updateWells
    dsimp only
    rw [← wellT_out]
    rcases (wellT e ((p id).getD 0) w).2 with x | ⟨w', q, b, again⟩
    · rfl
    · cases again
      · simp only [bind, Except.bind, Bool.false_eq_true, if_false]
        rw [ih]
        rcases updateWells e p l (Function.update r id q) with x | ⟨ws, r', ps, ag⟩
        · rfl
        · simp [pure, Except.pure]
      · rfl

lemma attemptT_out (c : Ctx K) (vect : Bool) (m : Mdl K) (s : Sol K) : (attemptT c vect m s).out = attempt c vect m s := by
  unfold attemptT attempt
  dsimp only
  rw [assembleT_out]
  rcases assemble c vect m s with x | ⟨m1, s1, A, d⟩
  · rfl
  dsimp only [bind, Except.bind]
  rcases c.lin c.e.n A d with x | x
  · rfl
  dsimp only
  rw [show updateBounds c.lower c.e m1 (newRow c.e.ids (lastRow s1.press none) x) (lastRow s1.rates 0) =
    (boundsT c.lower c.e m1 (newRow c.e.ids (lastRow s1.press none) x) m1.bUpdate (lastRow s1.rates 0)).2 from (boundsT_out ..).symm]
  rcases (boundsT c.lower c.e m1 (newRow c.e.ids (lastRow s1.press none) x) m1.bUpdate (lastRow s1.rates 0)).2 with y | r
  · rfl
  dsimp only
  rw [wellsT_out]
  rcases updateWells c.e (newRow c.e.ids (lastRow s1.press none) x) m1.wells r with y | ⟨ws, r', ps, again⟩
  · rfl
  · cases again <;> rfl

/-- The states of a call, one after the other, end where the call ends. -/
lemma solveT_out (c : Ctx K) (fuel : ℕ) (vect : Bool) (m : Mdl K) (s : Sol K) : (solveT c fuel vect m s).out = solve c fuel vect true m s := by
  induction fuel generalizing m s with
  | zero => rfl
  | succ n ih =>
    unfold solveT solve
    dsimp only
    rw [attemptT_out]
    rcases attempt c vect m s with x | ⟨m1, s1, _ | _⟩
    · rfl
    · rfl
    · exact ih m1 s1.back

lemma runLoopT_out (c : Ctx K) (fuel : ℕ) (vect : Bool) (n : ℕ) (m : Mdl K) (s : Sol K) :
    (runLoopT c fuel vect n m s).2 = match runLoop c fuel vect n m s with | (st, .ok ()) => .ok st | (_, .error x) => .error x := by
  induction n generalizing m s with
  | zero => rfl
  | succ n ih =>
    unfold runLoopT runLoop
    dsimp only
    rw [solveT_out]
    rcases solve c fuel vect true m s with x | ⟨m1, s1⟩
    · rfl
    · exact ih m1 s1

/-! ### an interrupted vectorised assembly -/

lemma matricesVect_zero (lower : String → String) (e : Env K) (m : Mdl K) (s : Sol K) (h : s.tstep = 0) (vA : Option (ℕ → ℕ → K)) (bV : List (ℕ × K × K × ℕ)) (res : ℕ → Bool) :
    matricesVect lower e m { s with vA := vA, bV := bV, resolve := res } = matricesVect lower e m s := by
  have hv : vReady lower e m { s with vA := vA, bV := bV, resolve := res } = vReady lower e m s := by
    unfold vReady
    dsimp only
    rcases vA with _ | B <;> rcases s.vA with _ | B' <;> simp only [if_pos h]
  unfold matricesVect
  rw [hv]
  rcases vReady lower e m s with x | ⟨A, bV', res'⟩
  · rfl
  dsimp only [bind, Except.bind]
  rw [show initD e { s with vA := vA, bV := bV, resolve := res } = initD e s from rfl]
  rfl

lemma mem_vReadyT {lower : String → String} {e : Env K} {m : Mdl K} {s : Sol K} {x : Spot × Sol K} (h : x ∈ (vReadyT lower e m s).seen) :
    x.1 = .reset ∧ ∃ vA bV res, x.2 = { s with vA := vA, bV := bV, resolve := res } := by
  have key : ∀ b : List ((ℕ → ℕ → K) × List (ℕ × K × K × ℕ)), x ∈ [(Spot.reset, ({ s with resolve := fun _ => false } : Sol K)), (.reset, { s with resolve := fun _ => false, vA := some e.transV }),
      (.reset, { s with resolve := fun _ => false, vA := some (initA e) }), (.reset, { s with resolve := fun _ => false, vA := some (initA e), bV := [] })] ++
      b.map (fun x => (Spot.reset, ({ s with resolve := fun _ => false, vA := some x.1, bV := x.2 } : Sol K))) →
      x.1 = .reset ∧ ∃ vA bV res, x.2 = { s with vA := vA, bV := bV, resolve := res } := by
    intro b h
    simp only [List.cons_append, List.nil_append, List.mem_cons, List.mem_map] at h
    rcases h with rfl | rfl | rfl | rfl | ⟨y, -, rfl⟩
    · exact ⟨rfl, s.vA, s.bV, _, rfl⟩
    · exact ⟨rfl, _, s.bV, _, rfl⟩
    · exact ⟨rfl, _, s.bV, _, rfl⟩
    · exact ⟨rfl, _, _, _, rfl⟩
    · exact ⟨rfl, _, _, _, rfl⟩
  unfold vReadyT at h
  dsimp only at h
  split at h
  · split_ifs at h
    · exact key _ h
    · simp at h
  · exact key _ h

/-- After the well of an `asm` point the loop can start again. -/
lemma mem_vWellsT {e : Env K} {s : Sol K} (l : List (ℕ × Well K)) (acc : VAcc K) {y : Spot × (ℕ → ℕ → K) × (ℕ → Bool)} (h : y ∈ (vWellsT e s l acc).1) :
    (y.1 = .asm ∨ y.1 = .added) ∧ (y.1 = .asm → l.foldlM (vWell e s) ⟨y.2.1, acc.d, y.2.2, acc.updateZ⟩ = l.foldlM (vWell e s) acc) := by
  suffices hs : (y.1 = .asm ∨ y.1 = .added) ∧ (y.1 = .asm → ∃ l1 l2 acc1, l = l1 ++ l2 ∧ l1.foldlM (vWell e s) acc = .ok acc1 ∧ y.2.1 = acc1.A ∧ y.2.2 = acc1.resolve) by
    refine ⟨hs.1, fun hy => ?_⟩
    obtain ⟨l1, l2, acc1, rfl, h1, e1, e2⟩ := hs.2 hy
    rw [List.foldlM_append, List.foldlM_append, h1, e1, e2, vWells_again l1 h1 acc1.A acc1.resolve (vWells_resolve l1 h1).2]
  induction l generalizing acc with
  | nil => simp [vWellsT] at h
  | cons x l ih =>
    unfold vWellsT at h
    rcases hx : vWell e s acc x with z | acc'
    · rw [hx] at h; simp at h
    · rw [hx] at h
      dsimp only at h
      rw [List.mem_append, List.mem_cons] at h
      have one : [x].foldlM (vWell e s) acc = .ok acc' := by rw [List.foldlM_cons, hx]; rfl
      rcases h with h | rfl | h
      · split_ifs at h
        · rw [List.mem_singleton] at h
          subst h
          exact ⟨.inr rfl, fun h => by cases h⟩
        · simp at h
      · exact ⟨.inl rfl, fun _ => ⟨[x], l, acc', rfl, one, rfl, rfl⟩⟩
      · obtain ⟨i1, i2⟩ := ih acc' h
        refine ⟨i1, fun hy => ?_⟩
        obtain ⟨l1, l2, acc1, rfl, h1, e1, e2⟩ := i2 hy
        refine ⟨x :: l1, l2, acc1, rfl, ?_, e1, e2⟩
        rw [List.foldlM_cons, hx]
        exact h1

/-- A vectorised assembly that was interrupted at an `asm` point, or at step 0, gives the same when it is repeated. -/
lemma matricesVect_resume {lower : String → String} {e : Env K} {m : Mdl K} {s : Sol K} {x : Spot × Sol K} (h : x ∈ (matricesVectT lower e m s).seen) :
    (x.1 = .asm ∨ x.1 = .reset ∨ x.1 = .added) ∧ (∃ vA bV res, x.2 = { s with vA := vA, bV := bV, resolve := res }) ∧
      (x.1 = .asm ∨ s.tstep = 0 → matricesVect lower e m x.2 = matricesVect lower e m s) := by
  suffices hs : (x.1 = .asm ∨ x.1 = .reset ∨ x.1 = .added) ∧ (∃ vA bV res, x.2 = { s with vA := vA, bV := bV, resolve := res }) ∧
      (x.1 = .asm → s.tstep ≠ 0 → matricesVect lower e m x.2 = matricesVect lower e m s) by
    obtain ⟨h1, ⟨vA, bV, res, h2⟩, h3⟩ := hs
    refine ⟨h1, ⟨vA, bV, res, h2⟩, fun h => ?_⟩
    by_cases h0 : s.tstep = 0
    · rw [h2]; exact matricesVect_zero lower e m s h0 _ _ _
    · exact h3 (h.resolve_right h0) h0
  have fst : ∀ {x : Spot × Sol K}, x ∈ (vReadyT lower e m s).seen → (x.1 = .asm ∨ x.1 = .reset ∨ x.1 = .added) ∧
      (∃ vA bV res, x.2 = { s with vA := vA, bV := bV, resolve := res }) ∧ (x.1 = .asm → s.tstep ≠ 0 → matricesVect lower e m x.2 = matricesVect lower e m s) := by
    intro x h
    obtain ⟨h1, h2⟩ := mem_vReadyT h
    exact ⟨.inr (.inl h1), h2, fun h => by rw [h1] at h; cases h⟩
  unfold matricesVectT at h
  rw [vReadyT_out] at h
  rcases hv : vReady lower e m s with z | ⟨A, bV, res⟩
  · rw [hv] at h; exact fst h
  rw [hv] at h
  dsimp only at h
  -- the part after the matrix was made
  have again : ∀ (B : ℕ → ℕ → K) (res' : ℕ → Bool), s.tstep ≠ 0 → (∀ d, initD e s = .ok d → m.wells.foldlM (vWell e s) ⟨B, d, res', false⟩ = m.wells.foldlM (vWell e s) ⟨A, d, res, false⟩) →
      matricesVect lower e m { s with vA := some B, bV := bV, resolve := res' } = matricesVect lower e m s := by
    intro B res' h0 hw
    have hv' : vReady lower e m { s with vA := some B, bV := bV, resolve := res' } = .ok (B, bV, res') := by
      unfold vReady
      dsimp only
      rw [if_neg h0]
    unfold matricesVect
    rw [hv', hv]
    dsimp only [bind, Except.bind]
    rw [show initD e { s with vA := some B, bV := bV, resolve := res' } = initD e s from rfl]
    rcases hd : initD e s with z | d
    · rfl
    dsimp only
    rw [show m.wells.foldlM (vWell e { s with vA := some B, bV := bV, resolve := res' }) ⟨B, d, res', false⟩ = m.wells.foldlM (vWell e s) ⟨B, d, res', false⟩ from rfl, hw d hd]
    rfl
  have zero : (Spot.asm = .asm ∨ Spot.asm = .reset ∨ Spot.asm = .added) ∧ (∃ vA bV' res', ({ s with vA := some A, bV := bV, resolve := res } : Sol K) = { s with vA := vA, bV := bV', resolve := res' }) ∧
      (Spot.asm = .asm → s.tstep ≠ 0 → matricesVect lower e m { s with vA := some A, bV := bV, resolve := res } = matricesVect lower e m s) :=
    ⟨.inl rfl, ⟨_, _, _, rfl⟩, fun _ h0 => again A res h0 fun _ _ => rfl⟩
  rcases hd : initD e s with z | d
  · rw [hd] at h
    dsimp only at h
    rw [List.mem_append, List.mem_singleton] at h
    rcases h with h | rfl
    · exact fst h
    · exact zero
  rw [hd] at h
  dsimp only at h
  have key : x ∈ (vReadyT lower e m s).seen ++ (Spot.asm, ({ s with vA := some A, bV := bV, resolve := res } : Sol K)) ::
      (vWellsT e s m.wells ⟨A, d, res, false⟩).1.map (fun y => (y.1, ({ s with vA := some y.2.1, bV := bV, resolve := y.2.2 } : Sol K))) →
      (x.1 = .asm ∨ x.1 = .reset ∨ x.1 = .added) ∧ (∃ vA bV res, x.2 = { s with vA := vA, bV := bV, resolve := res }) ∧
      (x.1 = .asm → s.tstep ≠ 0 → matricesVect lower e m x.2 = matricesVect lower e m s) := by
    intro h
    rw [List.mem_append, List.mem_cons, List.mem_map] at h
    rcases h with h | rfl | ⟨y, hy, rfl⟩
    · exact fst h
    · exact zero
    · obtain ⟨i1, i2⟩ := mem_vWellsT m.wells _ hy
      refine ⟨i1.imp id .inr, ⟨_, _, _, rfl⟩, fun hy' h0 => again _ _ h0 fun d' hd' => ?_⟩
      rw [hd] at hd'; cases hd'
      exact i2 hy'
  split at h
  · exact key h
  · split at h
    · exact key h
    · exact key h

/-! ### an interrupted symbolic assembly -/

lemma dictSet_again {α β : Type} [DecidableEq α] (d : List (α × β)) (k : α) (v v' : β) : dictSet (dictSet d k v) k v' = dictSet d k v' := by
  unfold dictSet
  by_cases h : d.any (fun x => decide (x.1 = k)) = true
  · rw [if_pos h]
    have h' : (d.map fun x => if x.1 = k then (k, v) else x).any (fun x => decide (x.1 = k)) = true := by
      rw [List.any_eq_true] at h ⊢
      obtain ⟨x, hx, hk⟩ := h
      refine ⟨(k, v), List.mem_map.2 ⟨x, hx, ?_⟩, by simp⟩
      rw [if_pos (of_decide_eq_true hk)]
    rw [if_pos h', if_pos h, List.map_map]
    refine List.map_congr_left fun x _ => ?_
    simp only [Function.comp]
    by_cases h1 : x.1 = k
    · simp only [if_pos h1, if_true]
    · simp only [if_neg h1]
  · rw [if_neg h, if_pos (by simp), if_neg h, List.map_append]
    congr 1
    · conv_rhs => rw [← List.map_id d]
      refine List.map_congr_left fun x hx => ?_
      rw [if_neg, id]
      intro hk
      exact h (List.any_eq_true.2 ⟨x, hx, by simp [hk]⟩)
    · simp

lemma refreshTerms_half {e : Env K} {m : Mdl K} {s : Sol K} {id : ℕ} {t0 t : Terms K} (h : refreshTerms e m s id t0 = .ok t) : refreshTerms e m s id { t0 with f := t.f } = .ok t := by
  have h2 := refreshTerms_again h
  -- only the accumulation term of `t0` differs
  unfold refreshTerms at h h2 ⊢
  have hw : ∀ {t1 : Terms K}, refreshWell e m id t = .ok t1 → refreshWell e m id { t0 with f := t.f } = .ok { t0 with f := t1.f } := by
    intro t1 h1
    unfold refreshWell at h1 ⊢
    rcases hd : dictGet m.wells id with _ | w
    · rw [hd] at h1; dsimp only at h1 ⊢; cases h1; rfl
    · rw [hd] at h1
      dsimp only at h1 ⊢
      split_ifs at h1 ⊢
      · rw [ok_bind] at h1
        obtain ⟨x, hx, h1⟩ := h1
        rw [ok_pure] at h1
        subst h1
        rw [hx]; rfl
      · cases h1; rfl
  rw [ok_bind] at h2
  obtain ⟨t1, h1, h2⟩ := h2
  rw [hw h1, bind_ok]
  rw [ok_bind] at h
  obtain ⟨t2, h3, h⟩ := h
  split_ifs at h h2 ⊢ with hc
  · rw [ok_bind] at h2
    obtain ⟨a, ha, h2⟩ := h2
    rw [ok_pure] at h2
    rw [ha, bind_ok, ok_pure, ← h2]
  · rw [ok_pure] at h h2 ⊢
    subst h2
    have : t1.a = t0.a := by
      rw [← h]
      unfold refreshWell at h3
      rcases hd : dictGet m.wells id with _ | w
      · rw [hd] at h3; dsimp only at h3; cases h3; rfl
      · rw [hd] at h3
        dsimp only at h3
        split_ifs at h3
        · rw [ok_bind] at h3
          obtain ⟨x, hx, h3⟩ := h3
          rw [ok_pure] at h3
          rw [← h3]
        · cases h3; rfl
    rw [← this]

/-- The loop over equations can start again at any of its points. -/
lemma mem_eqsT {lower : String → String} {scale : (ℕ → K) → K → K} {e : Env K} {s : Sol K} {l0 : List ℕ} (hl : l0.Nodup) {m0 : Mdl K} (hm : Tidy m0) {M : Mdl K}
    (h : M ∈ (eqsT lower scale e s l0 (m0, [])).1) :
    ((∃ ts, M = { m0 with terms := ts }) ∧ Tidy M) ∧ l0.foldlM (eqStep lower scale e s) (M, []) = l0.foldlM (eqStep lower scale e s) (m0, []) := by
  have key : ∀ (l2 l1 : List ℕ) (acc : Mdl K × List (ℕ × (ℕ → K) × K)), l1 ++ l2 = l0 → l1.foldlM (eqStep lower scale e s) (m0, []) = .ok acc →
      M ∈ (eqsT lower scale e s l2 acc).1 → ((∃ ts, M = { m0 with terms := ts }) ∧ Tidy M) ∧ l0.foldlM (eqStep lower scale e s) (M, []) = l0.foldlM (eqStep lower scale e s) (m0, []) := by
    intro l2
    induction l2 with
    | nil => intro l1 acc _ _ h; simp [eqsT] at h
    | cons id l2 ih =>
      intro l1 acc hl' h1 h
      obtain ⟨⟨ts, f1⟩, f2, f3, f4⟩ := eqSteps_frame l1 h1
      dsimp only at f1 f2 f3 f4
      have htidy : (acc.1.terms.map (·.1)).Nodup := f4 hm
      rw [← hl', List.nodup_append] at hl
      have hid : id ∉ l1 := fun hx => hl.2.2 id hx id (by simp) rfl
      -- starting again from a model in which only the terms of `id` are new
      have again : ∀ t', eqStep lower scale e s ({ acc.1 with terms := dictSet acc.1.terms id t' }, acc.2) id = eqStep lower scale e s acc id →
          l0.foldlM (eqStep lower scale e s) ({ acc.1 with terms := dictSet acc.1.terms id t' }, []) = l0.foldlM (eqStep lower scale e s) (m0, []) := by
        intro t' ht'
        rw [← hl', List.foldlM_append, List.foldlM_append, h1]
        rw [eqSteps_again l1 hl.1 h1 (M := { acc.1 with terms := dictSet acc.1.terms id t' }) (by rw [f1]) (dictSet_keys _ _ _ htidy).1
          (fun k hk => by dsimp only; rw [dictGet_set, if_neg (fun h => hid (by rw [h]; exact hk))])]
        rw [bind_ok, bind_ok, List.foldlM_cons, List.foldlM_cons, ht']
      have frame : ∀ t', (∃ ts, ({ acc.1 with terms := dictSet acc.1.terms id t' } : Mdl K) = { m0 with terms := ts }) ∧
          Tidy ({ acc.1 with terms := dictSet acc.1.terms id t' } : Mdl K) := fun t' => ⟨⟨_, by rw [f1]⟩, (dictSet_keys _ _ _ htidy).1⟩
      unfold eqsT at h
      rcases ht : cellTerms lower e acc.1 s id with z | t
      · rw [ht] at h; simp at h
      rw [ht] at h
      dsimp only at h
      have set : ∀ t', refreshTerms e acc.1 s id t' = .ok t → eqStep lower scale e s ({ acc.1 with terms := dictSet acc.1.terms id t' }, acc.2) id = eqStep lower scale e s acc id := by
        intro t' hr
        have hr' : refreshTerms e { acc.1 with terms := dictSet acc.1.terms id t' } s id t' = .ok t := hr
        unfold eqStep cellEq
        have : cellTerms lower e { acc.1 with terms := dictSet acc.1.terms id t' } s id = .ok t := by
          unfold cellTerms
          dsimp only
          rw [dictGet_set, if_pos rfl]
          exact hr'
        rw [this, ht]
        dsimp only [bind, Except.bind]
        rcases eqRow scale e.ids (Aff.sum t.f) t.a with z | row
        · rfl
        · simp only [dictSet_again]
      have settled : refreshTerms e acc.1 s id t = .ok t := by
        unfold cellTerms at ht
        rcases hd : dictGet acc.1.terms id with _ | t0
        · rw [hd] at ht; exact buildTerms_settled ht
        · rw [hd] at ht; exact refreshTerms_again ht
      have half : M ∈ (match dictGet acc.1.terms id with
          | some t0 => [({ acc.1 with terms := dictSet acc.1.terms id { t0 with f := t.f } } : Mdl K)]
          | none => []) → ((∃ ts, M = { m0 with terms := ts }) ∧ Tidy M) ∧ l0.foldlM (eqStep lower scale e s) (M, []) = l0.foldlM (eqStep lower scale e s) (m0, []) := by
        intro h
        rcases hd : dictGet acc.1.terms id with _ | t0
        · rw [hd] at h; simp at h
        · rw [hd] at h
          dsimp only at h
          rw [List.mem_singleton] at h
          subst h
          refine ⟨frame _, again _ (set _ ?_)⟩
          unfold cellTerms at ht
          rw [hd] at ht
          exact refreshTerms_half ht
      have whole : M = { acc.1 with terms := dictSet acc.1.terms id t } → ((∃ ts, M = { m0 with terms := ts }) ∧ Tidy M) ∧
          l0.foldlM (eqStep lower scale e s) (M, []) = l0.foldlM (eqStep lower scale e s) (m0, []) := by
        rintro rfl
        exact ⟨frame _, again _ (set _ settled)⟩
      rcases hrow : eqRow scale e.ids (Aff.sum t.f) t.a with z | row
      · rw [hrow] at h
        dsimp only at h
        rw [List.mem_append, List.mem_singleton] at h
        exact h.elim half whole
      · rw [hrow] at h
        dsimp only at h
        rw [List.mem_append, List.mem_cons] at h
        rcases h with h | h | h
        · exact half h
        · exact whole h
        · refine ih (l1 ++ [id]) _ (by rw [← hl']; simp) ?_ h
          rw [List.foldlM_append, h1, bind_ok, List.foldlM_cons]
          unfold eqStep cellEq
          rw [ht]
          dsimp only [bind, Except.bind]
          rw [hrow]
          rfl
  exact key l0 [] (m0, []) rfl rfl h

/-- The rows say what is written, and the rest stays. -/
lemma writeRows_fixed (ids : List ℕ) (l : List (ℕ × (ℕ → K) × K)) :
    ∃ (g : ℕ → ℕ → Option K) (k : ℕ → Option K), ∀ M : (ℕ → ℕ → K) × (ℕ → K),
      l.foldl (fun M x => writeRow ids M x.1 x.2) M = (fun a b => (g a b).getD (M.1 a b), fun a => (k a).getD (M.2 a)) := by
  induction l with
  | nil => exact ⟨fun _ _ => none, fun _ => none, fun M => rfl⟩
  | cons x l ih =>
    obtain ⟨g, k, h⟩ := ih
    refine ⟨fun a b => (g a b).or (if a = ids.idxOf x.1 then (match ids[b]? with | some j => if x.2.1 j = 0 then none else some (x.2.1 j) | none => none) else none),
      fun a => (k a).or (if a = ids.idxOf x.1 then some x.2.2 else none), fun M => ?_⟩
    rw [List.foldl_cons, h]
    unfold writeRow
    refine Prod.ext ?_ ?_
    · funext a b
      dsimp only
      rcases g a b with _ | v
      · simp only [Option.getD_none, Option.none_or]
        split_ifs
        · rcases ids[b]? with _ | j
          · rfl
          · dsimp only; split_ifs <;> rfl
        · rfl
      · simp
    · funext a
      dsimp only
      rcases k a with _ | v
      · simp only [Option.getD_none, Option.none_or]
        split_ifs <;> rfl
      · simp

/-- Writing all rows again after an interruption gives the same. -/
lemma mem_rowsT {ids : List ℕ} {l : List (ℕ × (ℕ → K) × K)} {M N : (ℕ → ℕ → K) × (ℕ → K)} (h : N ∈ rowsT ids l M) :
    l.foldl (fun M x => writeRow ids M x.1 x.2) N = l.foldl (fun M x => writeRow ids M x.1 x.2) M := by
  have key : ∀ (l2 l1 : List (ℕ × (ℕ → K) × K)) (M1 : (ℕ → ℕ → K) × (ℕ → K)), l1 ++ l2 = l → l1.foldl (fun M x => writeRow ids M x.1 x.2) M = M1 → N ∈ rowsT ids l2 M1 →
      l.foldl (fun M x => writeRow ids M x.1 x.2) N = l.foldl (fun M x => writeRow ids M x.1 x.2) M := by
    intro l2
    induction l2 with
    | nil => intro l1 M1 _ _ h; simp [rowsT] at h
    | cons x l2 ih =>
      intro l1 M1 hl h1 h
      unfold rowsT at h
      rw [List.mem_cons, List.mem_cons] at h
      obtain ⟨g1, k1, e1⟩ := writeRows_fixed ids l1
      obtain ⟨g2, k2, e2⟩ := writeRows_fixed ids l2
      rcases h with rfl | rfl | h
      · rw [← hl, List.foldl_append, List.foldl_append, List.foldl_cons, List.foldl_cons, e1, e1, e2, e2, ← h1, e1]
        unfold writeRow
        refine Prod.ext ?_ ?_
        · funext a b
          dsimp only
          congr 1
          rcases g1 a b with _ | v <;> simp
        · funext a
          dsimp only
          congr 1
          split_ifs
          · rfl
          · rcases k1 a with _ | v <;> simp
      · rw [← hl, List.foldl_append, List.foldl_append, List.foldl_cons, List.foldl_cons, e1, e1, e2, e2, ← h1, e1]
        unfold writeRow
        refine Prod.ext ?_ ?_
        · funext a b
          dsimp only
          congr 1
          split_ifs
          · rcases ids[b]? with _ | j
            · dsimp only; rcases g1 a b with _ | v <;> simp
            · dsimp only
              split_ifs
              · rcases g1 a b with _ | v <;> simp
              · rfl
          · rcases g1 a b with _ | v <;> simp
        · funext a
          dsimp only
          congr 1
          split_ifs
          · rfl
          · rcases k1 a with _ | v <;> simp
      · refine ih (l1 ++ [x]) _ (by rw [← hl]; simp) ?_ h
        rw [List.foldl_append, h1]; rfl
  exact key l [] M rfl rfl h

/-- A symbolic assembly that was interrupted anywhere gives the same when it is repeated. -/
lemma matricesSymb_resume {lower : String → String} {scale : (ℕ → K) → K → K} {e : Env K} (he : e.ids.Nodup) {m : Mdl K} (hm : Tidy m) {s : Sol K} {x : Spot × St K}
    (h : x ∈ (matricesSymbT lower scale e m s).seen) :
    x.1 = .asm ∧ ((∃ ts, x.2.1 = { m with terms := ts }) ∧ Tidy x.2.1) ∧ (∃ sM, x.2.2 = { s with sM := sM }) ∧ matricesSymb lower scale e x.2.1 x.2.2 = matricesSymb lower scale e m s := by
  -- an interruption in the loop over equations
  have fst : ∀ M, M ∈ (eqsT lower scale e s e.ids (m, [])).1 → ((∃ ts, M = { m with terms := ts }) ∧ Tidy M) ∧ (∃ sM, s = { s with sM := sM }) ∧
      matricesSymb lower scale e M s = matricesSymb lower scale e m s := by
    intro M hM
    obtain ⟨h1, h2⟩ := mem_eqsT he hm hM
    refine ⟨h1, ⟨s.sM, rfl⟩, ?_⟩
    unfold matricesSymb
    rw [show cellsEq lower scale e M s = e.ids.foldlM (eqStep lower scale e s) (M, []) from rfl, h2]
    rfl
  unfold matricesSymbT at h
  dsimp only at h
  rw [eqsT_out] at h
  rcases hq : e.ids.foldlM (eqStep lower scale e s) (m, []) with z | ⟨m1, eqs⟩
  · rw [hq] at h
    dsimp only at h
    rw [List.mem_map] at h
    obtain ⟨M, hM, rfl⟩ := h
    exact ⟨rfl, fst M hM⟩
  rw [hq] at h
  dsimp only at h
  -- an interruption afterwards
  have snd : ∀ sM, (eqs.foldl (fun M x => writeRow e.ids M x.1 x.2) (symbStart { s with sM := sM }) = eqs.foldl (fun M x => writeRow e.ids M x.1 x.2) (symbStart s)) →
      ((∃ ts, m1 = { m with terms := ts }) ∧ Tidy m1) ∧ (∃ sM', ({ s with sM := sM } : Sol K) = { s with sM := sM' }) ∧
      matricesSymb lower scale e m1 { s with sM := sM } = matricesSymb lower scale e m s := by
    intro sM hs
    obtain ⟨f1, f2, f3, f4⟩ := eqSteps_frame e.ids hq
    refine ⟨⟨f1, f4 hm⟩, ⟨sM, rfl⟩, ?_⟩
    unfold matricesSymb
    rw [show cellsEq lower scale e m1 { s with sM := sM } = e.ids.foldlM (eqStep lower scale e s) (m1, []) from rfl,
      eqSteps_again e.ids he hq (M := m1) (by obtain ⟨ts, f1⟩ := f1; dsimp only at f1 ⊢; rw [f1]) (f4 hm) (fun _ _ => rfl),
      show cellsEq lower scale e m s = e.ids.foldlM (eqStep lower scale e s) (m, []) from rfl, hq]
    dsimp only [bind, Except.bind]
    rw [hs]
  simp only [List.mem_append, List.mem_map] at h
  rcases h with (⟨M, hM, rfl⟩ | ⟨sM, hM, rfl⟩) | ⟨N, hN, rfl⟩
  · exact ⟨rfl, fst M hM⟩
  · refine ⟨rfl, snd sM ?_⟩
    have : symbStart { s with sM := sM } = symbStart s := by
      unfold symbStartT at hM
      unfold symbStart
      dsimp only at hM ⊢
      rcases hsM : s.sM with _ | M
      · rw [hsM] at hM
        simp only [Option.map_none, List.mem_cons, List.not_mem_nil, or_false] at hM
        rcases hM with rfl | rfl
        · rfl
        · dsimp only; split_ifs <;> rfl
      · rw [hsM] at hM
        dsimp only at hM ⊢
        split_ifs at hM ⊢ with h0
        · simp only [Option.map_some, List.mem_cons, List.not_mem_nil, or_false] at hM
          rcases hM with rfl | rfl <;> rfl
        · simp at hM
    rw [this]
  · refine ⟨rfl, snd (some N) ?_⟩
    by_cases h0 : s.tstep = 0
    · have : symbStart { s with sM := some N } = symbStart s := by
        unfold symbStart
        dsimp only
        rw [if_pos h0]
        rcases s.sM with _ | M
        · rfl
        · dsimp only; rw [if_pos h0]
      rw [this]
    · have : symbStart { s with sM := some N } = N := by
        unfold symbStart
        dsimp only
        rw [if_neg h0]
      rw [this]
      exact mem_rowsT hN

/-- An assembly that was interrupted at an `asm` point, or at step 0, gives the same when it is repeated; nothing but remembered terms and matrices has changed. -/
lemma assemble_resume {c : Ctx K} (hc : c.e.ids.Nodup) {vect : Bool} {m : Mdl K} (hm : Tidy m) {s : Sol K} {x : Spot × St K} (h : x ∈ (assembleT c vect m s).seen) :
    (x.1 = .asm ∨ x.1 = .reset ∨ x.1 = .added) ∧ ((∃ ts, x.2.1 = { m with terms := ts }) ∧ Tidy x.2.1) ∧ (∃ vA bV res sM, x.2.2 = { s with vA := vA, bV := bV, resolve := res, sM := sM }) ∧
      (x.1 = .asm ∨ s.tstep = 0 → assemble c vect x.2.1 x.2.2 = assemble c vect m s) := by
  unfold assembleT at h
  unfold assemble
  cases vect
  · simp only [Bool.false_eq_true, if_false] at h ⊢
    obtain ⟨h1, h2, ⟨sM, h3⟩, h4⟩ := matricesSymb_resume hc hm h
    exact ⟨.inl h1, h2, ⟨s.vA, s.bV, s.resolve, sM, h3⟩, fun _ => h4⟩
  · simp only [if_true] at h ⊢
    rw [List.mem_map] at h
    obtain ⟨y, hy, rfl⟩ := h
    obtain ⟨h1, ⟨vA, bV, res, h2⟩, h3⟩ := matricesVect_resume hy
    refine ⟨h1, ⟨⟨m.terms, rfl⟩, hm⟩, ⟨vA, bV, res, s.sM, h2⟩, fun hh => ?_⟩
    dsimp only
    rw [h3 hh]

/-! ### the points of an attempt and of a call -/

lemma mem_wellsT {e : Env K} {p : ℕ → Option K} (done l : List (ℕ × Well K)) (r : ℕ → K) {y : List (ℕ × Well K) × (ℕ → K)} (h : y ∈ (wellsT e p done l r).1) :
    y.1.map (·.1) = (done ++ l).map (·.1) := by
  induction l generalizing done r with
  | nil => simp [wellsT] at h
  | cons x l ih =>
    obtain ⟨id, w⟩ := x
    unfold wellsT at h
    dsimp only at h
    have key : y ∈ (wellT e ((p id).getD 0) w).1.map (fun w => (done ++ (id, w) :: l, r)) → y.1.map (·.1) = (done ++ (id, w) :: l).map (·.1) := by
      intro h
      rw [List.mem_map] at h
      obtain ⟨w', -, rfl⟩ := h
      simp
    split at h
    · exact key h
    · split_ifs at h
      · rw [List.mem_append, List.mem_singleton] at h
        rcases h with h | rfl
        · exact key h
        · simp
      · rw [List.mem_append, List.mem_cons] at h
        rcases h with h | rfl | h
        · exact key h
        · simp
        · rw [ih _ _ h]; simp

lemma mem_listsT (ps : List (ℕ × K)) (d wp : List (ℕ × List (Option K))) (h : wp ∈ listsT ps d) (k : ℕ) : (dictGet d k).getD [] <+: (dictGet wp k).getD [] := by
  induction ps generalizing d with
  | nil => simp [listsT] at h
  | cons x ps ih =>
    have h1 : (dictGet d k).getD [] <+: (dictGet (appendAt d x.1 (some x.2)) k).getD [] := by
      rw [appendAt_get]
      split_ifs
      · exact List.prefix_append _ _
      · exact List.prefix_refl _
    unfold listsT at h
    rw [List.mem_cons] at h
    rcases h with rfl | h
    · exact h1
    · exact h1.trans (ih _ h)

lemma updateWells_keys {e : Env K} {p : ℕ → Option K} (l : List (ℕ × Well K)) {r r' : ℕ → K} {ws : List (ℕ × Well K)} {ps : List (ℕ × K)} {again : Bool}
    (h : updateWells e p l r = .ok (ws, r', ps, again)) : ws.map (·.1) = l.map (·.1) := by
  induction l generalizing r ws ps r' again with
  | nil => simp only [updateWells, Except.ok.injEq, Prod.mk.injEq] at h; obtain ⟨rfl, -⟩ := h; rfl
  | cons y l ih =>
    obtain ⟨id, w⟩ := y
    unfold updateWells at h
    rw [ok_bind] at h
    obtain ⟨⟨w', q, b, ag⟩, -, h⟩ := h
    dsimp only at h
    cases ag
    · simp only [Bool.false_eq_true, if_false] at h
      rw [ok_bind] at h
      obtain ⟨⟨t, r2, ps2, ag2⟩, h2, h⟩ := h
      simp only [ok_pure, Prod.mk.injEq] at h
      obtain ⟨rfl, -⟩ := h
      simp [ih h2]
    · simp only [if_true, ok_pure, Prod.mk.injEq] at h
      obtain ⟨rfl, -⟩ := h
      simp

/-- The points of an attempt after its assembly, with the state `(m, s)` right after the assembly. -/
inductive Later (m : Mdl K) (s : Sol K) : Spot × St K → Prop
  | counted (P : List (ℕ → Option K)) (hP : P.length ≤ 1) : Later m s (.counted, m, { s with tstep := s.tstep + 1, press := s.press ++ P })
  | stored (ws : List (ℕ × Well K)) (p : ℕ → Option K) (r : ℕ → K) (as' : List (ℕ → ℕ → K)) (ds' : List (ℕ → K)) (hw : ws.map (·.1) = m.wells.map (·.1)) :
      Later m s (.stored, { m with wells := ws }, { s with tstep := s.tstep + 1, press := s.press ++ [p], rates := s.rates ++ [r], As := s.As ++ as', ds := s.ds ++ ds' })
  | listed (ws : List (ℕ × Well K)) (wp : List (ℕ × List (Option K))) (p : ℕ → Option K) (r : ℕ → K) (A : ℕ → ℕ → K) (d : ℕ → K)
      (hw : ws.map (·.1) = m.wells.map (·.1)) (hp : ∀ k, (dictGet m.wPress k).getD [] <+: (dictGet wp k).getD []) :
      Later m s (.listed, { m with wells := ws, wPress := wp }, { s with tstep := s.tstep + 1, press := s.press ++ [p], rates := s.rates ++ [r], As := s.As ++ [A], ds := s.ds ++ [d] })

lemma mem_attemptT {c : Ctx K} {vect : Bool} {m : Mdl K} {s : Sol K} {x : Spot × St K} (h : x ∈ (attemptT c vect m s).seen) :
    x = (.asm, m, s) ∨ x ∈ (assembleT c vect m s).seen ∨ ∃ m1 s1 A d, assemble c vect m s = .ok (m1, s1, A, d) ∧ (x = (.asm, m1, s1) ∨ Later m1 s1 x) := by
  unfold attemptT at h
  dsimp only at h
  rw [assembleT_out] at h
  rcases ha : assemble c vect m s with z | ⟨m1, s1, A, d⟩
  · rw [ha] at h
    dsimp only at h
    rw [List.mem_cons] at h
    exact h.imp id .inl
  rw [ha] at h
  dsimp only at h
  have lift : (x = (.asm, m1, s1) ∨ Later m1 s1 x) → x = (.asm, m, s) ∨ x ∈ (assembleT c vect m s).seen ∨
      ∃ m2 s2 A2 d2, (Except.ok (m1, s1, A, d) : Except Err _) = .ok (m2, s2, A2, d2) ∧ (x = (.asm, m2, s2) ∨ Later m2 s2 x) :=
    fun h => .inr (.inr ⟨m1, s1, A, d, rfl, h⟩)
  rcases hl : c.lin c.e.n A d with z | v
  · rw [hl] at h
    simp only [List.cons_append, List.mem_cons, List.mem_append, List.not_mem_nil, or_false] at h
    rcases h with h | h | h
    · exact .inl h
    · exact .inr (.inl h)
    · exact lift (.inl h)
  rw [hl] at h
  dsimp only at h
  set p := newRow c.e.ids (lastRow s1.press none) v
  set r0 := lastRow s1.rates 0
  set b := boundsT c.lower c.e m1 p m1.bUpdate r0
  have head : x ∈ (Spot.asm, m, s) :: (assembleT c vect m s).seen ++ [(Spot.asm, m1, s1), (.counted, m1, { s1 with tstep := s1.tstep + 1 }),
        (.counted, m1, { s1 with tstep := s1.tstep + 1, press := s1.press ++ [lastRow s1.press none] }), (.counted, m1, { s1 with tstep := s1.tstep + 1, press := s1.press ++ [p] }),
        (.stored, m1, { s1 with tstep := s1.tstep + 1, press := s1.press ++ [p], rates := s1.rates ++ [r0] }),
        (.stored, m1, { s1 with tstep := s1.tstep + 1, press := s1.press ++ [p], rates := s1.rates ++ [r0], As := s1.As ++ [A] }),
        (.stored, m1, { s1 with tstep := s1.tstep + 1, press := s1.press ++ [p], rates := s1.rates ++ [r0], As := s1.As ++ [A], ds := s1.ds ++ [d] })] ++
        b.1.map (fun r => (Spot.stored, m1, ({ s1 with tstep := s1.tstep + 1, press := s1.press ++ [p], rates := s1.rates ++ [r], As := s1.As ++ [A], ds := s1.ds ++ [d] } : Sol K))) →
      x = (.asm, m, s) ∨ x ∈ (assembleT c vect m s).seen ∨ ∃ m2 s2 A2 d2, (Except.ok (m1, s1, A, d) : Except Err _) = .ok (m2, s2, A2, d2) ∧ (x = (.asm, m2, s2) ∨ Later m2 s2 x) := by
    intro h
    simp only [List.cons_append, List.mem_cons, List.mem_append, List.not_mem_nil, or_false, List.mem_map] at h
    rcases h with h | (h | h | h | h | h | h | h | h) | ⟨r, -, h⟩
    · exact .inl h
    · exact .inr (.inl h)
    · exact lift (.inl h)
    · refine lift (.inr ?_)
      have := Later.counted (m := m1) (s := s1) [] (by simp)
      rw [List.append_nil] at this
      rw [h]; exact this
    · exact lift (.inr (by rw [h]; exact .counted [_] (by simp)))
    · exact lift (.inr (by rw [h]; exact .counted [_] (by simp)))
    · refine lift (.inr ?_)
      have := Later.stored (m := m1) (s := s1) m1.wells p r0 [] [] rfl
      rw [List.append_nil, List.append_nil] at this
      rw [h]; exact this
    · refine lift (.inr ?_)
      have := Later.stored (m := m1) (s := s1) m1.wells p r0 [A] [] rfl
      rw [List.append_nil] at this
      rw [h]; exact this
    · refine lift (.inr ?_)
      rw [h]; exact Later.stored (m := m1) (s := s1) m1.wells p r0 [A] [d] rfl
    · refine lift (.inr ?_)
      rw [← h]; exact Later.stored (m := m1) (s := s1) m1.wells p r [A] [d] rfl
  split at h
  · exact head h
  · rename_i r hr
    have wells : x ∈ ((wellsT c.e p [] m1.wells r).1.map fun x => (Spot.stored, ({ m1 with wells := x.1 } : Mdl K),
        ({ s1 with tstep := s1.tstep + 1, press := s1.press ++ [p], rates := s1.rates ++ [x.2], As := s1.As ++ [A], ds := s1.ds ++ [d] } : Sol K))) →
        x = (.asm, m, s) ∨ x ∈ (assembleT c vect m s).seen ∨ ∃ m2 s2 A2 d2, (Except.ok (m1, s1, A, d) : Except Err _) = .ok (m2, s2, A2, d2) ∧ (x = (.asm, m2, s2) ∨ Later m2 s2 x) := by
      intro h
      rw [List.mem_map] at h
      obtain ⟨y, hy, rfl⟩ := h
      exact lift (.inr (Later.stored (m := m1) (s := s1) y.1 p y.2 [A] [d] (by simpa using mem_wellsT [] m1.wells r hy)))
    split at h
    · exact (List.mem_append.1 h).elim head wells
    · split_ifs at h
      · exact (List.mem_append.1 h).elim head wells
      · dsimp only at h
        rw [List.mem_append] at h
        rcases h with h | h
        · exact (List.mem_append.1 h).elim head wells
        · rw [List.mem_map] at h
          obtain ⟨wp, hwp, rfl⟩ := h
          refine lift (.inr (Later.listed (m := m1) (s := s1) _ wp p _ A d ?_ (fun k => mem_listsT _ _ _ hwp k)))
          rename_i hws _
          rw [wellsT_out] at hws
          rcases hu : updateWells c.e p m1.wells r with z | ⟨ws', r', ps', ag'⟩
          · rw [hu] at hws; cases hws
          · rw [hu] at hws
            simp only [List.nil_append, Except.ok.injEq, Prod.mk.injEq] at hws
            rw [← hws.1]
            exact updateWells_keys _ hu

end RF.Fdm
