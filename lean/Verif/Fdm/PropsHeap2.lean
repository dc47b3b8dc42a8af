import Verif.Fdm.PropsHeap
import Verif.Fdm.PropsWells
/-!
# Well objects shared with models (C84): other models, what objects show, objects placed twice, setters
-/
set_option linter.unusedSectionVars false
namespace RF.Fdm
open RF RF.Dims

variable {K : Type} [Field K] [LinearOrder K] [IsStrictOrderedRing K]

/-! ## Other models -/

/-- **C84, objects placed once: other models.** A call addressed to one model, a new object, or a setter of an object that a model does not have, leaves that model and its solution as they were. -/
theorem C84_others_partial {cs : ℕ → Ctx K} {fuel : ℕ} {w : World K} (hw : Reach cs fuel w) {ev : HEvent K} (hev : Once w ev) {j : ℕ} (hj : ev.model ≠ some j)
    (hs : ∀ o a, ev = .assign o a → ∀ x, x ∈ (w.site j).refs → x.2 ≠ o) :
    (w.exec cs fuel ev).1.mdl j = w.mdl j ∧ ((w.exec cs fuel ev).1.site j).s = (w.site j).s := by
  have h := hw.alone
  have key : ∀ w' : World K, w'.site j = w.site j → (∀ x, x ∈ (w.site j).refs → w'.heap x.2 = w.heap x.2) → w'.mdl j = w.mdl j ∧ (w'.site j).s = (w.site j).s := by
    intro w' h1 h2
    unfold World.mdl
    rw [h1, lookH_same h2]
    exact ⟨rfl, rfl⟩
  cases ev with
  | create o => exact key _ rfl fun x hx => Function.update_of_ne (h.old j x hx).ne _ _
  | assign o a => exact key _ rfl fun x hx => Function.update_of_ne (hs o a rfl x hx) _ _
  | place i id o =>
    have hij : j ≠ i := fun e => hj (by rw [e]; rfl)
    unfold World.exec
    dsimp only
    split_ifs
    · exact key _ (Function.update_of_ne hij _ _) fun x hx => Function.update_of_ne (hev.2.2 j x hx) _ _
    · exact ⟨rfl, rfl⟩
  | keys i id a =>
    have hij : j ≠ i := fun e => hj (by rw [e]; rfl)
    by_cases hid : id ∈ (cs i).e.ids
    · unfold World.exec
      dsimp only
      rw [if_pos hid]
      exact key _ (Function.update_of_ne hij _ _) fun x hx => Function.update_of_ne (fun he => hij (h.mine i id j hx he).1) _ _
    · unfold World.exec
      dsimp only
      rw [if_neg hid]
      exact ⟨rfl, rfl⟩
  | bounds i b =>
    have hij : j ≠ i := fun e => hj (by rw [e]; rfl)
    exact key _ (Function.update_of_ne hij _ _) fun x hx => rfl
  | compile i =>
    have hij : j ≠ i := fun e => hj (by rw [e]; rfl)
    exact key _ (Function.update_of_ne hij _ _) fun x hx => rfl
  | step i vect =>
    have hij : j ≠ i := fun e => hj (by rw [e]; rfl)
    unfold World.exec
    dsimp only
    split
    · exact ⟨rfl, rfl⟩
    · split
      · exact ⟨rfl, rfl⟩
      · rename_i hh
        refine key _ (Function.update_of_ne hij _ _) fun x hx => (solveH_frame hh).2 _ fun hm => ?_
        obtain ⟨y, hy, he⟩ := List.mem_map.1 hm
        exact hij (h.once j i x y hx hy he.symm).1

/-! ## What objects show -/

lemma updateWell_shows {e : Env K} {p : K} {w w' : Well K} {q b : K} {ag : Bool} (h : updateWell e p w = .ok (w', q, b, ag)) : w'.q = some q ∧ w'.pwf = some b := by
  unfold updateWell at h
  rw [ok_bind] at h
  obtain ⟨est, -, h⟩ := h
  rw [ok_bind] at h
  obtain ⟨sp, -, h⟩ := h
  split_ifs at h
  · rw [ok_bind] at h
    obtain ⟨t, -, h⟩ := h
    rw [ok_pure] at h; cases h
    exact ⟨rfl, rfl⟩
  · rw [ok_bind] at h
    obtain ⟨ag1, -, h⟩ := h
    rw [ok_bind] at h
    obtain ⟨t, -, h⟩ := h
    rw [ok_pure] at h; cases h
    exact ⟨rfl, rfl⟩

lemma updateWellsH_other {e : Env K} {p : ℕ → Option K} {refs : List (ℕ × ℕ)} {h h' : ℕ → Well K} {r r' : ℕ → K} {ps : List (ℕ × K)} {again : Bool}
    (hh : updateWellsH e p refs h r = .ok (h', r', ps, again)) : (∀ k, k ∉ refs.map (·.1) → r' k = r k) ∧ (again = false → ps.map (·.1) = refs.map (·.1)) := by
  induction refs generalizing h r h' r' ps again with
  | nil => cases hh; exact ⟨fun _ _ => rfl, fun _ => rfl⟩
  | cons x t ih =>
    obtain ⟨id, o⟩ := x
    unfold updateWellsH at hh
    rw [ok_bind] at hh
    obtain ⟨⟨w, q, pwf, ag⟩, h1, hh⟩ := hh
    dsimp only at hh
    split_ifs at hh
    · rw [ok_pure] at hh; cases hh
      refine ⟨fun k hk => ?_, fun h => by cases h⟩
      rw [List.map_cons, List.mem_cons, not_or] at hk
      exact Function.update_of_ne hk.1 _ _
    · rw [ok_bind] at hh
      obtain ⟨⟨h2, r2, ps2, ag2⟩, h3, hh⟩ := hh
      rw [ok_pure] at hh; cases hh
      obtain ⟨i1, i2⟩ := ih h3
      refine ⟨fun k hk => ?_, fun h => by rw [List.map_cons, List.map_cons, i2 h]⟩
      rw [List.map_cons, List.mem_cons, not_or] at hk
      exact (i1 k hk.2).trans (Function.update_of_ne hk.1 _ _)

lemma updateWellsH_shows {e : Env K} {p : ℕ → Option K} {refs : List (ℕ × ℕ)} (hk : (refs.map (·.1)).Nodup) (ha : Apart refs) {h h' : ℕ → Well K} {r r' : ℕ → K}
    {ps : List (ℕ × K)} (hh : updateWellsH e p refs h r = .ok (h', r', ps, false)) {x : ℕ × ℕ} (hx : x ∈ refs) :
    (h' x.2).q = some (r' x.1) ∧ ∃ b, (x.1, b) ∈ ps ∧ (h' x.2).pwf = some b := by
  induction refs generalizing h r h' r' ps with
  | nil => cases hx
  | cons y t ih =>
    obtain ⟨id, o⟩ := y
    unfold Apart at ha
    rw [List.map_cons, List.nodup_cons] at hk ha
    unfold updateWellsH at hh
    rw [ok_bind] at hh
    obtain ⟨⟨w, q, pwf, ag⟩, h1, hh⟩ := hh
    dsimp only at hh
    split_ifs at hh
    · rw [ok_pure] at hh; cases hh
    rw [ok_bind] at hh
    obtain ⟨⟨h2, r2, ps2, ag2⟩, h3, hh⟩ := hh
    rw [ok_pure] at hh; cases hh
    rcases List.mem_cons.1 hx with rfl | hx
    · have f := updateWellsH_frame h3 ha.1
      have g := (updateWellsH_other h3).1 id hk.1
      dsimp only at f g ⊢
      rw [f, g, Function.update_self, Function.update_self]
      obtain ⟨s1, s2⟩ := updateWell_shows h1
      exact ⟨s1, pwf, by simp, s2⟩
    · obtain ⟨s1, b, s2, s3⟩ := ih hk.2 ha.2 h3 hx
      exact ⟨s1, b, List.mem_cons_of_mem _ s2, s3⟩

/-- The parts of an attempt. -/
lemma attemptH_parts {c : Ctx K} {vect again : Bool} {h h' : ℕ → Well K} {refs : List (ℕ × ℕ)} {m m' : Mdl K} {s s' : Sol K} (ha : attemptH c vect h refs m s = .ok (h', m', s', again)) :
    ∃ m1 s1 A d x r r' ps, assemble c vect { m with wells := look h refs } s = .ok (m1, s1, A, d) ∧ c.lin c.e.n A d = .ok x ∧
      updateBounds c.lower c.e m1 (newRow c.e.ids (lastRow s1.press none) x) (lastRow s1.rates 0) = .ok r ∧
      updateWellsH c.e (newRow c.e.ids (lastRow s1.press none) x) refs h r = .ok (h', r', ps, again) ∧
      m' = { m1 with wells := look h' refs, wPress := if again then m1.wPress else ps.foldl (fun wp x => appendAt wp x.1 (some x.2)) m1.wPress } ∧
      s' = { s1 with tstep := s1.tstep + 1, press := s1.press ++ [newRow c.e.ids (lastRow s1.press none) x], rates := s1.rates ++ [r'], As := s1.As ++ [A], ds := s1.ds ++ [d] } := by
  unfold attemptH at ha
  rw [ok_bind] at ha
  obtain ⟨⟨m1, s1, A, d⟩, h1, ha⟩ := ha
  dsimp only at ha
  rw [ok_bind] at ha
  obtain ⟨x, h2, ha⟩ := ha
  rw [ok_bind] at ha
  obtain ⟨r, h3, ha⟩ := ha
  rw [ok_bind] at ha
  obtain ⟨⟨h5, r2, ps, ag⟩, h4, ha⟩ := ha
  rw [ok_pure] at ha; cases ha
  exact ⟨_, _, _, _, _, _, _, _, h1, h2, h3, h4, rfl, rfl⟩

/-- A successful `solve` ends with an accepted attempt. -/
lemma solveH_last {c : Ctx K} {fuel : ℕ} {vect : Bool} {h h' : ℕ → Well K} {refs : List (ℕ × ℕ)} {m m' : Mdl K} {s s' : Sol K} (hs : solveH c fuel vect h refs m s = .ok (h', m', s')) :
    ∃ h1 m1 s1, attemptH c vect h1 refs m1 s1 = .ok (h', m', s', false) := by
  induction fuel generalizing h m s with
  | zero => cases hs
  | succ n ih =>
    unfold solveH at hs
    rw [ok_bind] at hs
    obtain ⟨⟨h1, m1, s1, ag⟩, h2, hs⟩ := hs
    dsimp only at hs
    cases ag with
    | true => exact ih hs
    | false =>
      simp only [Bool.false_eq_true, if_false, ok_pure, Prod.mk.injEq] at hs
      obtain ⟨rfl, rfl, rfl⟩ := hs
      exact ⟨_, _, _, h2⟩

/-- **C84, objects placed once: what they show.** After a step of a model, `well.q` of an object placed in it is the rate recorded for its cell in this step, and `well.pwf` the bottom-hole pressure
reported for it. -/
theorem C84_shows_partial {cs : ℕ → Ctx K} {fuel : ℕ} {w : World K} (hw : Reach cs fuel w) {i : ℕ} {vect : Bool} {w' : World K} (h : w.exec cs fuel (.step i vect) = (w', .ok ()))
    {id o : ℕ} (ho : (id, o) ∈ (w.site i).refs) :
    ∃ s q b, (w'.site i).s = some s ∧ lastRow s.rates 0 id = q ∧ (w'.heap o).q = some q ∧ ((w'.mdl i).reported id).getLast? = some (some b) ∧ (w'.heap o).pwf = some b := by
  have ha := hw.alone
  unfold World.exec at h
  dsimp only at h
  split at h
  · cases h
  split at h
  · cases h
  rename_i s0 hs h' m' s' hh
  obtain ⟨rfl, -⟩ := Prod.mk.inj h
  obtain ⟨h1, m1, s1, hat⟩ := solveH_last hh
  obtain ⟨m2, s2, A, d, x, r, r', ps, k1, k2, k3, k4, rfl, rfl⟩ := attemptH_parts hat
  obtain ⟨g1, b, g2, g3⟩ := updateWellsH_shows (ha.keys i) (ha.apart i) k4 ho
  refine ⟨_, r' id, b, by dsimp only; rw [Function.update_self], ?_, g1, ?_, g3⟩
  · unfold lastRow
    dsimp only
    rw [List.getLastD_eq_getLast?, List.getLast?_concat]; rfl
  · unfold Mdl.reported World.mdl
    dsimp only
    rw [Function.update_self]
    simp only [Bool.false_eq_true, if_false]
    have hn : (ps.map (·.1)).Nodup := by rw [(updateWellsH_other k4).2 rfl]; exact ha.keys i
    have e := (appendAll_get ps hn m2.wPress).1 (id, b) g2
    dsimp only at e
    rw [e, List.getLast?_concat]

/-- **C84: object and well are one.** A setter of an object changes the wells of the models that have it, and nothing else of any model. -/
theorem C84_setter {cs : ℕ → Ctx K} {fuel : ℕ} (w : World K) (o : ℕ) (a : Assign K) (j : ℕ) :
    (w.exec cs fuel (.assign o a)).1.mdl j =
      { w.mdl j with wells := (w.site j).refs.map fun x => (x.1, if x.2 = o then a.apply (w.heap o) else w.heap x.2) } ∧
    ((w.exec cs fuel (.assign o a)).1.site j).s = (w.site j).s := by
  refine ⟨?_, rfl⟩
  unfold World.mdl World.exec
  dsimp only
  congr 1
  unfold look
  refine List.map_congr_left fun x _ => ?_
  by_cases h : x.2 = o
  · rw [if_pos h, h, Function.update_self]
  · rw [if_neg h, Function.update_of_ne h]

/-! ## One object in two cells -/

lemma updateWellsH_obj {e : Env K} {p : ℕ → Option K} {G : K} {o : ℕ} {refs : List (ℕ × ℕ)} (hk : (refs.map (·.1)).Nodup) {h h' : ℕ → Well K} {r r' : ℕ → K} {ps : List (ℕ × K)} {again : Bool}
    (ho : ObjWell G (h o)) (hh : updateWellsH e p refs h r = .ok (h', r', ps, again)) :
    ObjWell G (h' o) ∧ ((h o).con = some .pwf → (h' o).con = some .pwf) ∧
      (again = false → ∀ x, x ∈ refs → x.2 = o → r' x.1 = -G / (e.B * e.mu) * ((p x.1).getD 0) ∧ (h' o).con = some .pwf) := by
  induction refs generalizing h r h' r' ps again with
  | nil => cases hh; exact ⟨ho, id, fun _ x hx => by cases hx⟩
  | cons y t ih =>
    obtain ⟨k, o1⟩ := y
    rw [List.map_cons, List.nodup_cons] at hk
    unfold updateWellsH at hh
    rw [ok_bind] at hh
    obtain ⟨⟨w, q, pwf, ag⟩, h1, hh⟩ := hh
    dsimp only at hh
    by_cases he : o1 = o
    · subst he
      rw [updateWell_obj ho] at h1
      simp only [Except.ok.injEq, Prod.mk.injEq] at h1
      obtain ⟨rfl, rfl, rfl, rfl⟩ := h1
      simp only [Bool.false_eq_true, if_false] at hh
      rw [ok_bind] at hh
      obtain ⟨⟨h2, r2, ps2, ag2⟩, h3, hh⟩ := hh
      rw [ok_pure] at hh; cases hh
      obtain ⟨i1, i2, i3⟩ := ih hk.2 (h := Function.update h o1 _) (by rw [Function.update_self]; exact ⟨ho.1, rfl, ho.2.2.1, ho.2.2.2⟩) h3
      rw [Function.update_self] at i2
      refine ⟨i1, fun _ => i2 rfl, fun hag x hx hxo => ?_⟩
      rcases List.mem_cons.1 hx with rfl | hx
      · refine ⟨?_, i2 rfl⟩
        exact ((updateWellsH_other h3).1 k hk.1).trans (Function.update_self _ _ _)
      · exact i3 hag x hx hxo
    · have hne : Function.update h o1 w o = h o := Function.update_of_ne (Ne.symm he) _ _
      split_ifs at hh
      · rw [ok_pure] at hh; cases hh
        refine ⟨by rw [hne]; exact ho, fun h => by rw [hne]; exact h, fun h => by cases h⟩
      · rw [ok_bind] at hh
        obtain ⟨⟨h2, r2, ps2, ag2⟩, h3, hh⟩ := hh
        rw [ok_pure] at hh; cases hh
        obtain ⟨i1, i2, i3⟩ := ih hk.2 (h := Function.update h o1 w) (by rw [hne]; exact ho) h3
        rw [hne] at i2
        refine ⟨i1, i2, fun hag x hx hxo => ?_⟩
        rcases List.mem_cons.1 hx with rfl | hx
        · exact absurd hxo he
        · exact i3 hag x hx hxo

/-- What is known of an object in one or more cells of a model, along its steps. `n` are the lengths of the reports at the start. -/
structure ObjAll (c : Ctx K) (refs : List (ℕ × ℕ)) (o : ℕ) (G : K) (n : ℕ → ℕ) (h : ℕ → Well K) (m : Mdl K) (s : Sol K) : Prop where
  well : ObjWell G (h o)
  lp : s.press.length = s.tstep + 1
  lr : s.rates.length = s.tstep + 1
  con : 0 < s.tstep → (∃ id, (id, o) ∈ refs) → (h o).con = some .pwf
  rate : ∀ x, x ∈ refs → x.2 = o → ∀ t, 1 ≤ t → t ≤ s.tstep → rowAt s.rates t 0 x.1 = -G / (c.e.B * c.e.mu) * ((rowAt s.press t none x.1).getD 0)
  rep : ∀ x, x ∈ refs → (m.reported x.1).length = n x.1 + s.tstep

lemma ObjAll.attempt {c : Ctx K} {refs : List (ℕ × ℕ)} (hk : (refs.map (·.1)).Nodup) {o : ℕ} {G : K} {n : ℕ → ℕ} {vect again : Bool} {h h' : ℕ → Well K} {m m' : Mdl K} {s s' : Sol K}
    (hi : ObjAll c refs o G n h m s) (ha : attemptH c vect h refs m s = .ok (h', m', s', again)) :
    if again then ObjAll c refs o G n h' m' s'.back else ObjAll c refs o G n h' m' s' := by
  obtain ⟨m2, s2, A, d, x, r, r', ps, k1, k2, k3, k4, rfl, rfl⟩ := attemptH_parts ha
  obtain ⟨⟨ts, rfl⟩, vA, bV, res, sM, rfl⟩ := assemble_frame k1
  obtain ⟨j1, j2, j3⟩ := updateWellsH_obj hk hi.well k4
  cases again with
  | true =>
    rw [if_pos rfl]
    have b1 : ∀ {α : Type} (l : List α) (a : α), l.length = s.tstep + 1 → (l ++ [a]).take (s.tstep + 1) = l := fun l a hl => by rw [← hl, List.take_left']; rfl
    refine ⟨j1, ?_, ?_, fun ht hx => j2 (hi.con ht hx), fun x hx hxo t h1 h2 => ?_, fun x hx => hi.rep x hx⟩
    · show ((s.press ++ [_]).take (s.tstep + 1)).length = s.tstep + 1 - 1 + 1
      rw [b1 _ _ hi.lp, hi.lp]; rfl
    · show ((s.rates ++ [_]).take (s.tstep + 1)).length = s.tstep + 1 - 1 + 1
      rw [b1 _ _ hi.lr, hi.lr]; rfl
    · show rowAt ((s.rates ++ [_]).take (s.tstep + 1)) t 0 x.1 = _ * ((rowAt ((s.press ++ [_]).take (s.tstep + 1)) t none x.1).getD 0)
      rw [b1 _ _ hi.lp, b1 _ _ hi.lr]
      exact hi.rate x hx hxo t h1 h2
  | false =>
    rw [if_neg (by decide)]
    refine ⟨j1, ?_, ?_, fun _ ⟨id, hx⟩ => (j3 rfl (id, o) hx rfl).2, fun x hx hxo t h1 h2 => ?_, fun x hx => ?_⟩
    · show (s.press ++ [_]).length = _
      rw [List.length_append, hi.lp]; rfl
    · show (s.rates ++ [_]).length = _
      rw [List.length_append, hi.lr]; rfl
    · show rowAt (s.rates ++ [_]) t 0 x.1 = _ * ((rowAt (s.press ++ [_]) t none x.1).getD 0)
      change t ≤ s.tstep + 1 at h2
      rcases Nat.lt_or_ge s.tstep t with ht | ht
      · obtain rfl : t = s.tstep + 1 := by omega
        rw [rowAt_append_eq hi.lp, rowAt_append_eq hi.lr]
        exact (j3 rfl x hx hxo).1
      · rw [rowAt_append_lt (by rw [hi.lr]; omega), rowAt_append_lt (by rw [hi.lp]; omega)]
        exact hi.rate x hx hxo t h1 ht
    · have e1 := (updateWellsH_other k4).2 rfl
      have hn : (ps.map (·.1)).Nodup := by rw [e1]; exact hk
      have hm : x.1 ∈ ps.map (·.1) := by rw [e1]; exact List.mem_map.2 ⟨x, hx, rfl⟩
      obtain ⟨⟨k, b⟩, hb, hkx⟩ := List.mem_map.1 hm
      dsimp only at hkx
      subst hkx
      have := (appendAll_get ps hn m.wPress).1 (x.1, b) hb
      show ((dictGet (ps.foldl (fun wp x => appendAt wp x.1 (some x.2)) m.wPress) x.1).getD []).length = n x.1 + (s.tstep + 1)
      rw [this, List.length_append, ← Nat.add_assoc, ← hi.rep x hx]; rfl

lemma ObjAll.solve {c : Ctx K} {refs : List (ℕ × ℕ)} (hk : (refs.map (·.1)).Nodup) {o : ℕ} {G : K} {n : ℕ → ℕ} {fuel : ℕ} {vect : Bool} {h h' : ℕ → Well K} {m m' : Mdl K} {s s' : Sol K}
    (hi : ObjAll c refs o G n h m s) (ha : solveH c fuel vect h refs m s = .ok (h', m', s')) : ObjAll c refs o G n h' m' s' := by
  induction fuel generalizing h m s with
  | zero => cases ha
  | succ k ih =>
    unfold solveH at ha
    rw [ok_bind] at ha
    obtain ⟨⟨h1, m1, s1, ag⟩, h2, ha⟩ := ha
    have := hi.attempt hk h2
    dsimp only at ha
    cases ag with
    | true => exact ih this ha
    | false =>
      simp only [Bool.false_eq_true, if_false, ok_pure, Prod.mk.injEq] at ha
      obtain ⟨rfl, rfl, rfl⟩ := ha
      exact this

/-- Along the steps of a model. -/
lemma ObjAll.steps {cs : ℕ → Ctx K} {fuel i o : ℕ} {G : K} {n : ℕ → ℕ} {w : World K} (hk : ((w.site i).refs.map (·.1)).Nodup) {s : Sol K} (hs : (w.site i).s = some s)
    (hi : ObjAll (cs i) (w.site i).refs o G n w.heap (w.site i).m s) (vs : List Bool) :
    ∃ s', ((w.session cs fuel (vs.map (.step i))).site i).s = some s' ∧ ((w.session cs fuel (vs.map (.step i))).site i).refs = (w.site i).refs ∧
      ObjAll (cs i) (w.site i).refs o G n (w.session cs fuel (vs.map (.step i))).heap ((w.session cs fuel (vs.map (.step i))).site i).m s' := by
  induction vs generalizing w s with
  | nil => exact ⟨s, hs, rfl, hi⟩
  | cons v vs ih =>
    show ∃ s', (((w.exec cs fuel (.step i v)).1.session cs fuel (vs.map (.step i))).site i).s = some s' ∧ _
    rcases hh : solveH (cs i) fuel v w.heap (w.site i).refs (w.site i).m s with x | ⟨h', m', s'⟩
    · have e1 : (w.exec cs fuel (.step i v)).1 = w := by
        unfold World.exec; dsimp only; rw [hs]; dsimp only; rw [hh]
      have := ih hk hs hi
      rw [← e1] at this
      rw [e1] at this ⊢
      show ∃ s', ((w.session cs fuel (vs.map (.step i))).site i).s = some s' ∧ (((w.exec cs fuel (.step i v)).1.session cs fuel (vs.map (.step i))).site i).refs = (w.site i).refs ∧
        ObjAll (cs i) (w.site i).refs o G n ((w.exec cs fuel (.step i v)).1.session cs fuel (vs.map (.step i))).heap
          (((w.exec cs fuel (.step i v)).1.session cs fuel (vs.map (.step i))).site i).m s'
      rw [e1]
      exact this
    · have e1 : (w.exec cs fuel (.step i v)).1 = { w with heap := h', site := Function.update w.site i { refs := (w.site i).refs, m := m', s := some s' } } := by
        unfold World.exec; dsimp only; rw [hs]; dsimp only; rw [hh]
      have e2 : ((w.exec cs fuel (.step i v)).1.site i) = { refs := (w.site i).refs, m := m', s := some s' } := by rw [e1]; exact Function.update_self _ _ _
      have e3 : (w.exec cs fuel (.step i v)).1.heap = h' := by rw [e1]
      have := ih (w := (w.exec cs fuel (.step i v)).1) (s := s') (by rw [e2]; exact hk) (by rw [e2]) (by rw [e2, e3]; exact hi.solve hk hh)
      rw [e2] at this
      exact this

lemma place_ok {cs : ℕ → Ctx K} {fuel : ℕ} {w w' : World K} {i id o : ℕ} (h : w.exec cs fuel (.place i id o) = (w', .ok ())) :
    ∃ req r G wp, (cs i).e.wellReq id = .ok req ∧ (w.heap o).r = some r ∧ (cs i).e.wellG id req r (w.heap o).s = .ok G ∧
      wp = (if (w.heap o).pwf.isSome then (w.site i).m.wPress else appendAt (w.site i).m.wPress id (getPressure (w.mdl i) (w.site i).s id)) ∧
      w'.heap = Function.update w.heap o { w.heap o with req := some req, G := some G, pwf := some ((w.heap o).pwf.getD 0),
                                                         pwfsp := if (w.heap o).pwf.isSome then (w.heap o).pwfsp else some 0 } ∧
      (w'.site i).refs = dictSet (w.site i).refs id o ∧ (w'.site i).m.wPress = wp ∧ (∀ j, j ≠ i → w'.site j = w.site j) := by
  unfold World.exec at h
  dsimp only at h
  by_cases hid : id ∈ (cs i).e.ids
  swap
  · rw [if_neg hid] at h; cases h
  rw [if_pos hid] at h
  obtain ⟨rfl, h2⟩ := Prod.mk.inj h
  have hf : finishWell (cs i).e (w.mdl i) (w.site i).s id (w.heap o) = ((finishWell (cs i).e (w.mdl i) (w.site i).s id (w.heap o)).1, .ok ()) := Prod.ext rfl h2
  generalize (finishWell (cs i).e (w.mdl i) (w.site i).s id (w.heap o)).1 = m' at hf ⊢
  unfold finishWell at hf
  split at hf
  · simp at hf
  rename_i req hreq
  dsimp only at hf
  split at hf
  · simp at hf
  rename_i r hr
  split at hf
  · simp at hf
  rename_i G hG
  split at hf
  · rename_i p hp
    simp only [Prod.mk.injEq, and_true] at hf
    subst hf
    refine ⟨req, r, G, _, hreq, hr, hG, rfl, ?_, ?_, ?_, fun j hj => Function.update_of_ne hj _ _⟩
    · dsimp only
      rw [dictGet_set, if_pos rfl]
      simp [hp]
    · dsimp only; rw [Function.update_self]
    · dsimp only; rw [Function.update_self, hp]; rfl
  · rename_i hp
    simp only [Prod.mk.injEq, and_true] at hf
    subst hf
    refine ⟨req, r, G, _, hreq, hr, hG, rfl, ?_, ?_, ?_, fun j hj => Function.update_of_ne hj _ _⟩
    · dsimp only
      rw [dictGet_set, if_pos rfl]
      simp [hp]
    · dsimp only; rw [Function.update_self]
    · dsimp only; rw [Function.update_self, hp]; rfl

lemma dictSet_mem_self (l : List (ℕ × ℕ)) (id o : ℕ) : (id, o) ∈ dictSet l id o := mem_of_dictGet (by rw [dictGet_set, if_pos rfl])

lemma dictSet_mem_other {l : List (ℕ × ℕ)} {id o k v : ℕ} (h : (k, v) ∈ l) (hk : k ≠ id) : (k, v) ∈ dictSet l id o := by
  unfold dictSet
  split_ifs
  · exact List.mem_map.2 ⟨(k, v), h, by rw [if_neg hk]⟩
  · exact List.mem_append_left _ h

/-- **C84 fails for an object that is placed in two cells.** Both cells then have the object's one dictionary, so the well in the first cell gets the well index `G` of the second cell. Whatever
steps follow: every recorded rate of the first well is computed with the index of the second well's cell. The first report has one more entry than the second. -/
theorem C84_shared_fails {cs : ℕ → Ctx K} {fuel : ℕ} {w w1 w2 : World K} (hw : Reach cs fuel w) {i id1 id2 o : ℕ} (ho : Once w (.place i id1 o)) (hne : id1 ≠ id2)
    (h1 : w.exec cs fuel (.place i id1 o) = (w1, .ok ())) (h2 : w1.exec cs fuel (.place i id2 o) = (w2, .ok ())) :
    ∃ req r G, (w.heap o).r = some r ∧ (cs i).e.wellReq id2 = .ok req ∧ (cs i).e.wellG id2 req r (w.heap o).s = .ok G ∧
      ∀ vs : List Bool, ∃ w' s, w' = w2.session cs fuel (.compile i :: vs.map (.step i)) ∧ (w'.site i).s = some s ∧
        (∀ t, 1 ≤ t → t ≤ s.tstep → ∀ id, id = id1 ∨ id = id2 → rowAt s.rates t 0 id = -G / ((cs i).e.B * (cs i).e.mu) * ((rowAt s.press t none id).getD 0)) ∧
        ((w'.mdl i).reported id1).length = ((w.mdl i).reported id1).length + 1 + s.tstep ∧
        ((w'.mdl i).reported id2).length = ((w.mdl i).reported id2).length + s.tstep := by
  have ha := hw.alone
  obtain ⟨-, hd, -⟩ := ho
  have hp0 : (w.heap o).pwf = none := by rw [hd]; rfl
  have hq0 : (w.heap o).qsp = none := by rw [hd]; rfl
  obtain ⟨req1, r1, G1, wp1, a1, a2, a3, rfl, a5, a6, a7, -⟩ := place_ok h1
  obtain ⟨req2, r2, G2, wp2, b1, b2, b3, rfl, b5, b6, b7, -⟩ := place_ok h2
  rw [hp0] at a5 a7
  rw [a5, Function.update_self] at b2 b3 b5 b7
  dsimp only at b2 b3 b5 b7
  simp only [Option.isSome_none, Option.isSome_some, Bool.false_eq_true, if_false, if_true, Option.getD_none, Option.getD_some] at a5 a7 b5 b7
  refine ⟨req2, r2, G2, b2, b1, b3, fun vs => ?_⟩
  have hk : ((w2.site i).refs.map (·.1)).Nodup := by
    rw [b6, a6]
    exact (dictSet_keys _ _ _ (dictSet_keys _ _ _ (ha.keys i)).1).1
  obtain ⟨w3, hw3⟩ : ∃ w3, w3 = (w2.exec cs fuel (.compile i)).1 := ⟨_, rfl⟩
  have s3 : w3.site i = { w2.site i with s := some (Sol.init (w2.mdl i)) } := by rw [hw3]; exact Function.update_self _ _ _
  have hh3 : w3.heap = w2.heap := by rw [hw3]; rfl
  have hO : ObjAll (cs i) (w3.site i).refs o G2 (fun id => ((w2.mdl i).reported id).length) w3.heap (w3.site i).m (Sol.init (w2.mdl i)) := by
    rw [s3, hh3]
    refine ⟨?_, rfl, rfl, fun h => absurd h (lt_irrefl _), fun x _ _ t t1 t2 => absurd (t1.trans t2) (Nat.not_succ_le_zero 0), fun x _ => rfl⟩
    rw [b5, Function.update_self]
    exact ⟨hq0, rfl, rfl, rfl⟩
  obtain ⟨s', k1, k2, k3⟩ := hO.steps (fuel := fuel) (by rw [s3]; exact hk) (by rw [s3]) vs
  refine ⟨_, s', rfl, ?_, ?_⟩
  · show (((w2.exec cs fuel (.compile i)).1.session cs fuel (vs.map (.step i))).site i).s = some s'
    rw [← hw3]; exact k1
  · have m2 : (id2, o) ∈ (w3.site i).refs := by rw [s3]; dsimp only; rw [b6]; exact dictSet_mem_self _ _ _
    have m1 : (id1, o) ∈ (w3.site i).refs := by rw [s3]; dsimp only; rw [b6, a6]; exact dictSet_mem_other (dictSet_mem_self _ _ _) hne
    have hsess : w2.session cs fuel (.compile i :: vs.map (.step i)) = w3.session cs fuel (vs.map (.step i)) := by rw [hw3]; rfl
    rw [hsess]
    have n1 : ((w2.mdl i).reported id1).length = ((w.mdl i).reported id1).length + 1 := by
      show ((dictGet (w2.site i).m.wPress id1).getD []).length = ((dictGet (w.site i).m.wPress id1).getD []).length + 1
      rw [b7, a7, appendAt_get, if_pos rfl, List.length_append]; rfl
    have n2 : ((w2.mdl i).reported id2).length = ((w.mdl i).reported id2).length := by
      show ((dictGet (w2.site i).m.wPress id2).getD []).length = ((dictGet (w.site i).m.wPress id2).getD []).length
      rw [b7, a7, appendAt_get, if_neg (Ne.symm hne)]
    refine ⟨fun t t1 t2 id hid => ?_, ?_, ?_⟩
    · rcases hid with rfl | rfl
      · exact k3.rate _ m1 rfl t t1 t2
      · exact k3.rate _ m2 rfl t t1 t2
    · exact (k3.rep _ m1).trans (by dsimp only; rw [n1])
    · exact (k3.rep _ m2).trans (by dsimp only; rw [n2])

/-- **C84 fails for an object that is placed in two models.** The well of the first model gets the well index of the second model's cell, and all its rates are computed with that. -/
theorem C84_models_fail {cs : ℕ → Ctx K} {fuel : ℕ} {w w1 w2 : World K} (hw : Reach cs fuel w) {i j id1 id2 o : ℕ} (ho : Once w (.place i id1 o)) (hij : i ≠ j)
    (h1 : w.exec cs fuel (.place i id1 o) = (w1, .ok ())) (h2 : w1.exec cs fuel (.place j id2 o) = (w2, .ok ())) :
    ∃ req r G, (w.heap o).r = some r ∧ (cs j).e.wellReq id2 = .ok req ∧ (cs j).e.wellG id2 req r (w.heap o).s = .ok G ∧
      ∀ vs : List Bool, ∃ s, ((w2.session cs fuel (.compile i :: vs.map (.step i))).site i).s = some s ∧
        ∀ t, 1 ≤ t → t ≤ s.tstep → rowAt s.rates t 0 id1 = -G / ((cs i).e.B * (cs i).e.mu) * ((rowAt s.press t none id1).getD 0) := by
  have ha := hw.alone
  obtain ⟨-, hd, -⟩ := ho
  have hp0 : (w.heap o).pwf = none := by rw [hd]; rfl
  have hq0 : (w.heap o).qsp = none := by rw [hd]; rfl
  obtain ⟨req1, r1, G1, wp1, a1, a2, a3, rfl, a5, a6, a7, -⟩ := place_ok h1
  obtain ⟨req2, r2, G2, wp2, b1, b2, b3, rfl, b5, b6, b7, b8⟩ := place_ok h2
  rw [hp0] at a5
  rw [a5, Function.update_self] at b2 b3 b5
  dsimp only at b2 b3 b5
  simp only [Option.isSome_none, Option.isSome_some, Bool.false_eq_true, if_false, if_true, Option.getD_none, Option.getD_some] at a5 b5
  refine ⟨req2, r2, G2, b2, b1, b3, fun vs => ?_⟩
  obtain ⟨w3, hw3⟩ : ∃ w3, w3 = (w2.exec cs fuel (.compile i)).1 := ⟨_, rfl⟩
  have s3 : w3.site i = { w1.site i with s := some (Sol.init (w2.mdl i)) } := by rw [hw3, ← b8 i hij]; exact Function.update_self _ _ _
  have hh3 : w3.heap = w2.heap := by rw [hw3]; rfl
  have hO : ObjAll (cs i) (w3.site i).refs o G2 (fun id => ((w2.mdl i).reported id).length) w3.heap (w3.site i).m (Sol.init (w2.mdl i)) := by
    rw [s3, hh3]
    refine ⟨?_, rfl, rfl, fun h => absurd h (lt_irrefl _), fun x _ _ t t1 t2 => absurd (t1.trans t2) (Nat.not_succ_le_zero 0), fun x _ => ?_⟩
    · rw [b5, Function.update_self]
      exact ⟨hq0, rfl, rfl, rfl⟩
    · unfold World.mdl; rw [b8 i hij]; rfl
  have hk : ((w3.site i).refs.map (·.1)).Nodup := by
    rw [s3]; dsimp only; rw [a6]
    exact (dictSet_keys _ _ _ (ha.keys i)).1
  obtain ⟨s', k1, -, k3⟩ := hO.steps (fuel := fuel) hk (by rw [s3]) vs
  have m1 : (id1, o) ∈ (w3.site i).refs := by rw [s3]; dsimp only; rw [a6]; exact dictSet_mem_self _ _ _
  refine ⟨s', ?_, fun t t1 t2 => k3.rate _ m1 rfl t t1 t2⟩
  show (((w2.exec cs fuel (.compile i)).1.session cs fuel (vs.map (.step i))).site i).s = some s'
  rw [← hw3]; exact k1

end RF.Fdm
