import Verif.Fdm.FoldLimits
import Verif.Fdm.PropsObj
/-!
# C81: the order of set-up calls

A model is set up by calls of `set_boundaries` and `set_well`. Scripts that make the same calls, but in another order between different wells and between wells and boundaries, and that
list the boundary conditions in another order in the dictionaries, set up the same reservoir.
-/
set_option linter.unusedSectionVars false
namespace RF.Fdm
open RF RF.Dims RF.Spec Finset

/-! ### scripts whose calls concern separate topics -/

section machine
variable {S X T : Type} [DecidableEq T]

/-- The calls one after the other, until one fails. -/
def steps (step : S → X → Except Err S) : S → List X → Except Err S
  | s, [] => .ok s
  | s, x :: l => match step s x with
    | .ok s' => steps step s' l
    | .error e => .error e

/-- A call succeeds or fails, and changes what belongs to its topic, depending on what belongs to its topic only. -/
structure Separate (step : S → X → Except Err S) (topic : X → T) (like : X → X → Prop) (agree : T → S → S → Prop) : Prop where
  like_refl : ∀ x, like x x
  like_topic : ∀ x y, like x y → topic y = topic x
  refl : ∀ t s, agree t s s
  symm : ∀ t s u, agree t s u → agree t u s
  trans : ∀ t s u v, agree t s u → agree t u v → agree t s v
  frame : ∀ t s x s', step s x = .ok s' → topic x ≠ t → agree t s s'
  congr : ∀ s u x y s', agree (topic x) s u → like x y → step s x = .ok s' → ∃ u', step u y = .ok u' ∧ agree (topic x) s' u'

variable {step : S → X → Except Err S} {topic : X → T} {like : X → X → Prop} {agree : T → S → S → Prop}

lemma steps_cons {s s1 : S} {x : X} {l : List X} (h : steps step s (x :: l) = .ok s1) : ∃ s', step s x = .ok s' ∧ steps step s' l = .ok s1 := by
  unfold steps at h
  split at h
  · rename_i s' h'; exact ⟨s', h', h⟩
  · cases h

lemma steps_of {s s' : S} {x : X} {l : List X} (h : step s x = .ok s') : steps step s (x :: l) = steps step s' l := by
  conv_lhs => unfold steps
  rw [h]

lemma Separate.project (H : Separate step topic like agree) (t : T) {l l' : List X} {s s1 u : S} (h : steps step s l = .ok s1) (ha : agree t s u)
    (hl : List.Forall₂ like (l.filter fun x => decide (topic x = t)) l') : ∃ u1, steps step u l' = .ok u1 ∧ agree t s1 u1 := by
  induction l generalizing s u l' with
  | nil =>
    cases hl
    cases h
    exact ⟨u, rfl, ha⟩
  | cons x l ih =>
    obtain ⟨s', h1, h2⟩ := steps_cons h
    by_cases hx : topic x = t
    · rw [List.filter_cons, if_pos (by simpa using hx)] at hl
      rcases hl with _ | ⟨hxy, hl⟩
      obtain ⟨u', k1, k2⟩ := H.congr s u x _ s' (hx ▸ ha) hxy h1
      rw [steps_of k1]
      exact ih h2 (hx ▸ k2) hl
    · rw [List.filter_cons, if_neg (by simpa using hx)] at hl
      exact ih h2 (H.trans t s' s u (H.symm t s s' (H.frame t s x s' h1 hx)) ha) hl

lemma Separate.glue (H : Separate step topic like agree) {l : List X} {u : S} (v : T → S) (h : ∀ t, steps step u (l.filter fun x => decide (topic x = t)) = .ok (v t)) :
    ∃ u1, steps step u l = .ok u1 ∧ ∀ t, agree t (v t) u1 := by
  induction l generalizing u v with
  | nil => exact ⟨u, rfl, fun t => by cases h t; exact H.refl t _⟩
  | cons y l ih =>
    have h0 := h (topic y)
    rw [List.filter_cons, if_pos (by simp)] at h0
    obtain ⟨u', h1, h2⟩ := steps_cons h0
    have h3 : ∀ t, ∃ w, steps step u' (l.filter fun x => decide (topic x = t)) = .ok w ∧ agree t (v t) w := fun t => by
      by_cases ht : topic y = t
      · subst ht; exact ⟨_, h2, H.refl _ _⟩
      · have h4 := h t
        rw [List.filter_cons, if_neg (by simpa using ht)] at h4
        refine H.project t h4 (H.frame t u y u' h1 ht) ?_
        rw [List.filter_filter]
        simp only [Bool.and_self]
        exact List.forall₂_same.2 fun x _ => H.like_refl x
    choose w h5 h6 using h3
    obtain ⟨u1, k1, k2⟩ := ih w h5
    exact ⟨u1, by rw [steps_of h1]; exact k1, fun t => H.trans t _ _ _ (h6 t) (k2 t)⟩

/-- Scripts with the same calls on every topic have the same result. -/
theorem Separate.same (H : Separate step topic like agree) {l l' : List X} {s s1 : S} (h : steps step s l = .ok s1)
    (hl : ∀ t, List.Forall₂ like (l.filter fun x => decide (topic x = t)) (l'.filter fun x => decide (topic x = t))) : ∃ u1, steps step s l' = .ok u1 ∧ ∀ t, agree t s1 u1 := by
  have h1 := fun t => H.project t h (H.refl t s) (hl t)
  choose v h2 h3 using h1
  obtain ⟨u1, k1, k2⟩ := H.glue v h2
  exact ⟨u1, k1, fun t => H.trans t _ _ _ (h3 t) (k2 t)⟩

end machine

variable {K : Type} [Field K] [LinearOrder K] [IsStrictOrderedRing K]

/-! ### set-up calls -/

/-- A call made before compiling: `set_boundaries(dictionary)` or `set_well(cell_id, …)`. (black_oil.py l.453, 577) -/
inductive SetCall (K : Type) where
  | bounds (b : List (ℕ × String × K)) (h : (b.map (·.1)).Nodup)
  | well (id : ℕ) (a : WellArgs K)

/-- What the call makes of the model, if it does not raise an exception. (black_oil.py l.453-529, 577-596) -/
def SetCall.make (lower : String → String) (e : Env K) (m : Mdl K) : SetCall K → Except Err (Mdl K)
  | .bounds b _ => match setBoundaries lower e m none b with
    | ((m', _), .ok ()) => .ok m'
    | (_, .error x) => .error x
  | .well id a => match setWell e m none (some id) a with
    | (m', .ok ()) => .ok m'
    | (_, .error x) => .error x

/-- A script: the calls one after the other on a new model with initial pressure `pi`. (black_oil.py l.139-160, 453-596) -/
def setUp (lower : String → String) (e : Env K) (pi : Option K) (l : List (SetCall K)) : Except Err (Mdl K) := steps (SetCall.make lower e) (Mdl.init e pi) l

/-- What a call is about: the boundaries, or the well in a cell. -/
def SetCall.topic : SetCall K → Option ℕ
  | .bounds _ _ => none
  | .well id _ => some id

/-- The same call, up to the order in which a dictionary lists its entries. -/
def SetCall.Like : SetCall K → SetCall K → Prop
  | .bounds b _, .bounds b' _ => b.Perm b'
  | .well id a, .well id' a' => id' = id ∧ a' = a
  | _, _ => False

/-- The scripts make the same calls about the boundaries in the same order, and the same calls about each well in the same order. How the calls about different wells and about the
boundaries follow each other, and the order of the entries in the dictionaries, may differ. -/
def SameCalls (l l' : List (SetCall K)) : Prop :=
  ∀ t, List.Forall₂ SetCall.Like (l.filter fun x => decide (x.topic = t)) (l'.filter fun x => decide (x.topic = t))

/-- What the models agree on. -/
def Agree (e : Env K) : Option ℕ → Mdl K → Mdl K → Prop
  | none, m, n => m.bdict.Perm n.bdict ∧ m.initP = n.initP ∧ m.initR = n.initR
  | some id, m, n => dictGet m.wells id = dictGet n.wells id ∧ m.reported id = n.reported id ∧ (id ∈ e.ids → m.initP id = n.initP id)

/-! #### wells -/

lemma make_well {lower : String → String} {e : Env K} {m m' : Mdl K} {id : ℕ} {a : WellArgs K} (h : (SetCall.well id a).make lower e m = .ok m') : setWell e m none (some id) a = (m', .ok ()) := by
  unfold SetCall.make at h
  dsimp only at h
  split at h
  · rename_i m1 h1; cases h; exact h1
  · cases h

lemma make_bounds {lower : String → String} {e : Env K} {m m' : Mdl K} {b : List (ℕ × String × K)} {hb} (h : (SetCall.bounds b hb).make lower e m = .ok m') :
    setBoundaries lower e m none b = ((m', none), .ok ()) := by
  unfold SetCall.make at h
  dsimp only at h
  split at h
  · rename_i m1 s1 h1
    cases h
    rw [h1, (setBoundaries_ok hb h1).1]
  · cases h

/-- The wells a call of `set_well` does not concern, and the boundaries, are as before. -/
lemma setWell_frame {e : Env K} {m m' : Mdl K} {id : ℕ} {a : WellArgs K} (h : setWell e m none (some id) a = (m', .ok ())) :
    m'.bdict = m.bdict ∧ m'.bUpdate = m.bUpdate ∧ m'.initP = m.initP ∧ m'.initR = m.initR ∧ m'.terms = m.terms ∧
      ∀ k, k ≠ id → dictGet m'.wells k = dictGet m.wells k ∧ m'.reported k = m.reported k := by
  have hrep : ∀ (d : List (ℕ × List (Option K))) (v : Option K) (k : ℕ), k ≠ id → (dictGet (appendAt d id v) k).getD [] = (dictGet d k).getD [] := fun d v k hk => by
    rw [appendAt_get, if_neg hk]
  unfold setWell at h
  dsimp only at h
  split_ifs at h with hid
  · unfold finishWell at h
    dsimp only at h
    split at h
    · cases h
    · split at h
      · cases h
      · split at h
        · cases h
        · split at h
          · cases h
            rcases a.pwf with _ | p <;> dsimp only <;> refine ⟨rfl, rfl, rfl, rfl, rfl, fun k hk => ⟨by rw [dictGet_set, if_neg (Ne.symm hk)], ?_⟩⟩
            · rfl
            · exact hrep _ _ k hk
          · cases h
            rcases a.pwf with _ | p <;> dsimp only <;> refine ⟨rfl, rfl, rfl, rfl, rfl, fun k hk => ⟨by rw [dictGet_set, if_neg (Ne.symm hk)], ?_⟩⟩
            · exact hrep _ _ k hk
            · unfold Mdl.reported
              dsimp only
              rw [hrep _ _ k hk, hrep _ _ k hk]
  · cases h

/-- What a call of `set_well` makes of a well depends on this well and the initial pressure of its cell only. -/
lemma setWell_congr {e : Env K} {m n m' : Mdl K} {id : ℕ} {a : WellArgs K} (h : setWell e m none (some id) a = (m', .ok ())) (h1 : dictGet m.wells id = dictGet n.wells id)
    (h2 : m.reported id = n.reported id) (h3 : id ∈ e.ids → m.initP id = n.initP id) :
    ∃ n', setWell e n none (some id) a = (n', .ok ()) ∧ dictGet m'.wells id = dictGet n'.wells id ∧ m'.reported id = n'.reported id := by
  have hrep : ∀ (d d' : List (ℕ × List (Option K))) (v v' : Option K), (dictGet d id).getD [] = (dictGet d' id).getD [] → v = v' →
      (dictGet (appendAt d id v) id).getD [] = (dictGet (appendAt d' id v') id).getD [] := fun d d' v v' h hv => by
    rw [appendAt_get, appendAt_get, if_pos rfl, if_pos rfl, h, hv]
  unfold Mdl.reported at h2 ⊢
  unfold setWell at h ⊢
  dsimp only at h ⊢
  rw [← h1]
  split_ifs at h ⊢ with hid
  · have hp := h3 hid
    unfold finishWell at h ⊢
    dsimp only at h ⊢
    split at h
    · cases h
    · rename_i req hreq
      split at h
      · cases h
      · rename_i r hr
        split at h
        · cases h
        · rename_i G hG
          split at h
          · rename_i q hq
            cases h
            rw [hq]
            dsimp only
            refine ⟨_, rfl, ?_, ?_⟩
            · dsimp only; rw [dictGet_set, dictGet_set, if_pos rfl, if_pos rfl]
            · rcases a.pwf with _ | p
              · exact h2
              · exact hrep _ _ _ _ h2 hp
          · cases h
            refine ⟨_, rfl, ?_, ?_⟩
            · dsimp only; rw [dictGet_set, dictGet_set, if_pos rfl, if_pos rfl]
            · rcases a.pwf with _ | p
              · exact hrep _ _ _ _ h2 hp
              · exact hrep _ _ _ _ (hrep _ _ _ _ h2 hp) hp
  · cases h

/-! #### boundaries -/

/-- The boundary condition is understood. -/
def Fine (lower : String → String) (e : Env K) (x : ℕ × String × K) : Prop :=
  x.1 ∈ e.bnd ∧ (lower x.2.1 ∈ ["rate", "q"] ∨ lower x.2.1 ∈ ["pressure", "press", "p"] ∨ (lower x.2.1 ∈ ["gradient", "grad", "g"] ∧ ∃ q, gradientRate e x.1 x.2.2 = .ok q))

/-- The initial pressure a condition leaves. -/
def leftP (lower : String → String) (x : String × K) (p : Option K) : Option K := if lower x.1 ∈ ["rate", "q"] then p else if lower x.1 ∈ ["pressure", "press", "p"] then some x.2 else p

/-- The rate a condition leaves. -/
def leftR (lower : String → String) (e : Env K) (b : ℕ) (x : String × K) (q : K) : K :=
  if lower x.1 ∈ ["rate", "q"] then x.2 else if lower x.1 ∈ ["pressure", "press", "p"] then q else match gradientRate e b x.2 with | .ok q' => q' | .error _ => q

lemma loop_iff {lower : String → String} {e : Env K} (l : List (ℕ × String × K)) (hk : (l.map (·.1)).Nodup) (m : Mdl K) :
    ((∃ m', setBoundaryLoop lower e m none l = ((m', none), .ok ())) ↔ ∀ x, x ∈ l → Fine lower e x) ∧
      ∀ m', setBoundaryLoop lower e m none l = ((m', none), .ok ()) → (∀ k, dictGet l k = none → m'.initP k = m.initP k ∧ m'.initR k = m.initR k) ∧
        ∀ k x, dictGet l k = some x → m'.initP k = leftP lower x (m.initP k) ∧ m'.initR k = leftR lower e k x (m.initR k) := by
  induction l generalizing m with
  | nil =>
    refine ⟨⟨fun _ => by simp, fun _ => ⟨m, rfl⟩⟩, fun m' h => ?_⟩
    simp only [setBoundaryLoop, Prod.mk.injEq, and_true] at h
    subst h
    exact ⟨fun _ _ => ⟨rfl, rfl⟩, fun k x hx => by simp [dictGet] at hx⟩
  | cons y l ih =>
    obtain ⟨id, cond, v⟩ := y
    rw [List.map_cons, List.nodup_cons] at hk
    have hnone : dictGet l id = none := dictGet_none hk.1
    by_cases hb : id ∈ e.bnd
    · have one : (Fine lower e (id, cond, v) → ∃ m1, setBoundary lower e m none id cond v = ((m1, none), .ok ()) ∧ (∀ k, k ≠ id → m1.initP k = m.initP k ∧ m1.initR k = m.initR k) ∧
            m1.initP id = leftP lower (cond, v) (m.initP id) ∧ m1.initR id = leftR lower e id (cond, v) (m.initR id)) ∧
          (¬ Fine lower e (id, cond, v) → ∃ z x, setBoundary lower e m none id cond v = (z, .error x)) := by
        unfold setBoundary leftP leftR
        dsimp only
        by_cases h1 : lower cond ∈ ["rate", "q"]
        · refine ⟨fun _ => ?_, fun H => absurd ⟨hb, .inl h1⟩ H⟩
          simp only [if_pos h1, setRate]
          exact ⟨_, rfl, fun k hk => ⟨rfl, Function.update_of_ne hk _ _⟩, rfl, Function.update_self _ _ _⟩
        by_cases h2 : lower cond ∈ ["pressure", "press", "p"]
        · refine ⟨fun _ => ?_, fun H => absurd ⟨hb, .inr (.inl h2)⟩ H⟩
          simp only [if_neg h1, if_pos h2, setPressure]
          exact ⟨_, rfl, fun k hk => ⟨Function.update_of_ne hk _ _, rfl⟩, Function.update_self _ _ _, rfl⟩
        by_cases h3 : lower cond ∈ ["gradient", "grad", "g"]
        · simp only [if_neg h1, if_neg h2, if_pos h3]
          rcases hg : gradientRate e id v with x | q
          · refine ⟨fun H => ?_, fun _ => ⟨_, _, rfl⟩⟩
            rcases H.2 with H | H | ⟨-, q, H⟩
            · exact absurd H h1
            · exact absurd H h2
            · rw [hg] at H; cases H
          · refine ⟨fun _ => ?_, fun H => absurd ⟨hb, .inr (.inr ⟨h3, q, hg⟩)⟩ H⟩
            exact ⟨_, rfl, fun k hk => ⟨rfl, Function.update_of_ne hk _ _⟩, rfl, Function.update_self _ _ _⟩
        · simp only [if_neg h1, if_neg h2, if_neg h3]
          refine ⟨fun H => ?_, fun _ => ⟨_, _, rfl⟩⟩
          rcases H.2 with H | H | H
          · exact absurd H h1
          · exact absurd H h2
          · exact absurd H.1 h3
      by_cases hf : Fine lower e (id, cond, v)
      · obtain ⟨m1, h1, h2, h3, h4⟩ := one.1 hf
        obtain ⟨ih1, ih2⟩ := ih hk.2 m1
        have hloop : setBoundaryLoop lower e m none ((id, cond, v) :: l) = setBoundaryLoop lower e m1 none l := by
          conv_lhs => unfold setBoundaryLoop
          rw [if_pos hb, h1]
        rw [hloop]
        refine ⟨ih1.trans ⟨fun H x hx => ?_, fun H x hx => H x (List.mem_cons_of_mem _ hx)⟩, fun m' hm' => ?_⟩
        · rcases List.mem_cons.1 hx with rfl | hx
          · exact hf
          · exact H x hx
        · obtain ⟨j1, j2⟩ := ih2 m' hm'
          refine ⟨fun k hk' => ?_, fun k x hk' => ?_⟩
          · rw [dictGet_cons] at hk'
            split_ifs at hk' with hkk
            have := j1 k hk'
            have h2' := h2 k (Ne.symm hkk)
            exact ⟨this.1.trans h2'.1, this.2.trans h2'.2⟩
          · rw [dictGet_cons] at hk'
            split_ifs at hk' with hkk
            · cases hk'
              subst hkk
              have := j1 _ hnone
              rw [this.1, this.2]
              exact ⟨h3, h4⟩
            · have := j2 k x hk'
              have h2' := h2 k (Ne.symm hkk)
              rw [h2'.1, h2'.2] at this
              exact this
      · obtain ⟨z, x, h1⟩ := one.2 hf
        have hloop : setBoundaryLoop lower e m none ((id, cond, v) :: l) = (z, .error x) := by
          conv_lhs => unfold setBoundaryLoop
          rw [if_pos hb, h1]
        rw [hloop]
        exact ⟨⟨fun ⟨m', H⟩ => by simp at H, fun H => absurd (H _ (List.mem_cons_self ..)) hf⟩, fun m' H => by simp at H⟩
    · have hloop : setBoundaryLoop lower e m none ((id, cond, v) :: l) = ((m, none), .error .assertion) := by
        conv_lhs => unfold setBoundaryLoop
        rw [if_neg hb]
      rw [hloop]
      exact ⟨⟨fun ⟨m', H⟩ => by simp at H, fun H => absurd (H _ (List.mem_cons_self ..)).1 hb⟩, fun m' H => by simp at H⟩

lemma dictGet_perm {α : Type} {l l' : List (ℕ × α)} (h : l.Perm l') (hk : (l.map (·.1)).Nodup) (k : ℕ) : dictGet l k = dictGet l' k := by
  have hk' : (l'.map (·.1)).Nodup := (h.map _).nodup_iff.1 hk
  by_cases hm : k ∈ l.map (·.1)
  · obtain ⟨v, h1, h2⟩ := dictGet_some_mem hm
    rw [h1]
    have := dictGet_of_mem hk' (h.mem_iff.1 h2)
    exact this.symm
  · have hm' : k ∉ l'.map (·.1) := fun H => hm ((h.map _).mem_iff.2 H)
    rw [dictGet_none hm, dictGet_none hm']

lemma setBoundaries_congr {lower : String → String} {e : Env K} {m n m' : Mdl K} {b b' : List (ℕ × String × K)} (hk : (b.map (·.1)).Nodup) (hb : b.Perm b')
    (h : setBoundaries lower e m none b = ((m', none), .ok ())) (h1 : m.initP = n.initP) (h2 : m.initR = n.initR) :
    ∃ n', setBoundaries lower e n none b' = ((n', none), .ok ()) ∧ m'.bdict.Perm n'.bdict ∧ m'.initP = n'.initP ∧ m'.initR = n'.initR := by
  have hk' : (b'.map (·.1)).Nodup := (hb.map _).nodup_iff.1 hk
  have a1 := (setBoundaries_ok hk h).2.1
  unfold setBoundaries at h
  split at h
  swap
  · rename_i x hx; rw [h] at hx; exact absurd rfl (hx m' none)
  rename_i m1 s1 hm1
  simp only [Prod.mk.injEq, and_true] at h
  obtain ⟨rfl, rfl⟩ := h
  obtain ⟨i1, i2⟩ := loop_iff (lower := lower) (e := e) b hk { m with bdict := b }
  obtain ⟨j1, j2⟩ := loop_iff (lower := lower) (e := e) b' hk' { n with bdict := b' }
  obtain ⟨n1, hn1⟩ := j1.2 fun x hx => i1.1 ⟨m1, hm1⟩ x (hb.mem_iff.2 hx)
  have hn : setBoundaries lower e n none b' = (({ n1 with bUpdate := (b'.filter fun x => decide (x.2.1 = "pressure")).map (·.1) }, none), .ok ()) := by
    unfold setBoundaries
    rw [hn1]
  refine ⟨_, hn, ?_, ?_, ?_⟩
  · rw [(setBoundaries_ok hk' hn).2.1, a1]
    exact hb
  all_goals
    funext k
    dsimp only
    have hd := dictGet_perm hb hk k
    rcases hg : dictGet b k with _ | x
    · have := i2 m1 hm1 |>.1 k hg
      have this' := j2 n1 hn1 |>.1 k (hd ▸ hg)
      simp only [h1, h2] at this
      simp only [this.1, this.2, this'.1, this'.2]
    · have := i2 m1 hm1 |>.2 k x hg
      have this' := j2 n1 hn1 |>.2 k x (hd ▸ hg)
      simp only [h1, h2] at this
      simp only [this.1, this.2, this'.1, this'.2]

/-- Set-up calls about different wells and about the boundaries do not interfere. -/
theorem setup_separate (lower : String → String) {e : Env K} (he : e.WF) : Separate (SetCall.make lower e) SetCall.topic SetCall.Like (Agree e) where
  like_refl x := by cases x <;> simp [SetCall.Like]
  like_topic x y h := by
    cases x <;> cases y <;> simp [SetCall.Like, SetCall.topic] at h ⊢
    exact h.1
  refl t s := by cases t <;> simp [Agree]
  symm t s u h := by
    cases t
    · exact ⟨h.1.symm, h.2.1.symm, h.2.2.symm⟩
    · exact ⟨h.1.symm, h.2.1.symm, fun hi => (h.2.2 hi).symm⟩
  trans t s u v h h' := by
    cases t
    · exact ⟨h.1.trans h'.1, h.2.1.trans h'.2.1, h.2.2.trans h'.2.2⟩
    · exact ⟨h.1.trans h'.1, h.2.1.trans h'.2.1, fun hi => (h.2.2 hi).trans (h'.2.2 hi)⟩
  frame t m x m' h hx := by
    rcases x with ⟨b, hb⟩ | ⟨id, a⟩
    · obtain ⟨-, -, -, a3, a4, -, a6, a7, -⟩ := setBoundaries_ok hb (make_bounds h)
      rcases t with _ | id
      · exact absurd rfl hx
      · refine ⟨by rw [a3], by unfold Mdl.reported; rw [a4], fun hi => (a7 id fun H => ?_).2.symm⟩
        obtain ⟨y, hy, rfl⟩ := List.mem_map.1 H
        exact he.disj _ (a6 y hy) hi
    · obtain ⟨a1, -, a2, a3, -, a4⟩ := setWell_frame (make_well h)
      rcases t with _ | k
      · exact ⟨by rw [a1], a2.symm, a3.symm⟩
      · have hk : k ≠ id := fun H => hx (by rw [H]; rfl)
        exact ⟨(a4 k hk).1.symm, (a4 k hk).2.symm, fun _ => by rw [a2]⟩
  congr m n x y m' ha hl h := by
    rcases x with ⟨b, hb⟩ | ⟨id, a⟩ <;> rcases y with ⟨b', hb'⟩ | ⟨id', a'⟩
    · obtain ⟨n', h1, h2⟩ := setBoundaries_congr hb hl (make_bounds h) ha.2.1 ha.2.2
      exact ⟨n', by unfold SetCall.make; dsimp only; rw [h1], h2⟩
    · exact absurd hl id
    · exact absurd hl (fun h => h)
    · obtain ⟨rfl, rfl⟩ := hl
      obtain ⟨n', h1, h2, h3⟩ := setWell_congr (make_well h) ha.1 ha.2.1 ha.2.2
      refine ⟨n', by unfold SetCall.make; dsimp only; rw [h1], h2, h3, fun hi => ?_⟩
      rw [(setWell_frame (make_well h)).2.2.1, (setWell_frame h1).2.2.1]
      exact ha.2.2 hi

/-! ### C81, setting up -/

lemma steps_setup {lower : String → String} {e : Env K} (l : List (SetCall K)) {m m' : Mdl K} (h : Setup lower e m) (hs : steps (SetCall.make lower e) m l = .ok m') : Setup lower e m' := by
  induction l generalizing m with
  | nil => cases hs; exact h
  | cons x l ih =>
    obtain ⟨m1, h1, h2⟩ := steps_cons hs
    refine ih ?_ h2
    rcases x with ⟨b, hb⟩ | ⟨id, a⟩
    · exact h.bounds hb (make_bounds h1)
    · exact h.well (make_well h1)

/-- The models hold the same data, possibly in another order. -/
structure SameData (m m' : Mdl K) : Prop where
  bdict : m.bdict.Perm m'.bdict
  upd : m.bUpdate.Perm m'.bUpdate
  wells : m.wells.Perm m'.wells
  initP : m.initP = m'.initP
  initR : m.initR = m'.initR
  reported : ∀ id, m.reported id = m'.reported id

lemma perm_of_get {α : Type} {l l' : List (ℕ × α)} (hk : (l.map (·.1)).Nodup) (hk' : (l'.map (·.1)).Nodup) (h : ∀ k, dictGet l k = dictGet l' k) : l.Perm l' := by
  refine (List.perm_ext_iff_of_nodup (List.Nodup.of_map _ hk) (List.Nodup.of_map _ hk')).2 fun x => ⟨fun hx => ?_, fun hx => ?_⟩
  · have := dictGet_of_mem hk hx
    rw [h] at this
    exact mem_of_dictGet this
  · have := dictGet_of_mem hk' hx
    rw [← h] at this
    exact mem_of_dictGet this

/-- **C81, setting up.** If a script of `set_boundaries` and `set_well` calls goes through, then so does every script with the same calls in another order (between different wells, between
wells and boundaries, and within the dictionaries), and the two models hold the same boundary conditions, wells, initial pressures and rates, and reported bottom-hole pressures. -/
theorem C81_setup (lower : String → String) {e : Env K} (he : e.WF) {pi : Option K} {l l' : List (SetCall K)} {m : Mdl K} (h : setUp lower e pi l = .ok m) (hl : SameCalls l l') :
    ∃ m', setUp lower e pi l' = .ok m' ∧ SameData m m' := by
  obtain ⟨m', h1, h2⟩ := (setup_separate lower he).same h hl
  have i := (steps_setup l (.init pi) h).inv
  have i' := (steps_setup l' (.init pi) h1).inv
  refine ⟨m', h1, (h2 none).1, ?_, perm_of_get i.wkeys i'.wkeys fun k => (h2 (some k)).1, (h2 none).2.1, (h2 none).2.2, fun id => (h2 (some id)).2.1⟩
  rw [i.upd, i'.upd]
  exact ((h2 none).1.filter _).map _

/-! ### C81, running -/

section
variable {c : Ctx K} {m m' : Mdl K}

lemma SameData.ready (h : SameData m m') (hr : Ready c m) (hs : Setup c.lower c.e m') : Ready c m' :=
  ⟨hr.ctx, hs, fun x G hx => hr.G x G (h.wells.mem_iff.2 hx), fun x hx => hr.cfg x (h.wells.mem_iff.2 hx), fun x hx => hr.canon x (h.bdict.mem_iff.2 hx)⟩

lemma SameData.limited (h : SameData m m') (e : Env K) (T : ℕ → ℕ → K) (old x : ℕ → K) (i : ℕ) : limited e T m' old x i = limited e T m old x i := by
  unfold Fdm.limited residue
  rw [(h.bdict.map _).sum_eq, (h.wells.map (wIn e (x i) i)).sum_eq, (h.wells.map (topUp e (x i) i)).sum_eq]

/-- When steps have been made, every boundary cell with a pressure has a cell behind it. -/
lemma Hist.faces {P : Bool → Mdl K → Mdl K → Prop} {m0 m : Mdl K} {s : Sol K} (hr : Ready c m0) (hh : Hist c P m0 m s) : 0 < s.tstep → ∀ b, b ∈ m0.bUpdate → ∃ id T, c.e.Face b id T := by
  induction hh with
  | start => intro h; exact absurd h (lt_irrefl 0)
  | @step m s vect m' s' h ha _ ih =>
    intro _ b hb
    have hi := hr.inv h
    obtain ⟨m1, s1, A, d, x, p, r', ps, h1⟩ := attempted hr.ctx.lower hr.ctx.wf hi ha
    obtain ⟨id, T, h2, -⟩ := h1.bound b (by rw [hi.same.upd]; exact hb)
    exact ⟨id, T, h2⟩
  | @again m s vect m' s' h ha _ ih =>
    intro h0
    have hi := hr.inv h
    obtain ⟨m1, s1, A, d, x, p, r', ps, h1⟩ := attempted hr.ctx.lower hr.ctx.wf hi ha
    rw [(back_attempted hi h1).2.2] at h0
    exact ih h0
  | look _ ha ih =>
    obtain ⟨⟨ts, rfl⟩, vA, bV, res, sM, rfl⟩ := assemble_frame ha
    exact ih
  | clock n t _ ih => exact ih

/-- The bottom-hole pressure at which a well with these data delivers `q` from a cell at pressure `p`. -/
def holePressure (e : Env K) (w : Well K) (p q : K) : K := p + q / windex e w

/-- The reported bottom-hole pressures follow from the recorded pressures and rates. -/
lemma Hist.reports {m0 m : Mdl K} {s : Sol K} (hr : Ready c m0) (hh : Hist c Calm m0 m s) : ∀ w, w ∈ m0.wells → m.reported w.1 = m0.reported w.1 ++
    (List.range s.tstep).map fun k => some (holePressure c.e w.2 ((rowAt s.press (k + 1) none w.1).getD 0) (rowAt s.rates (k + 1) 0 w.1)) := by
  induction hh with
  | start => intro w _; exact (List.append_nil _).symm
  | @step m s vect m' s' h ha hp ih =>
    intro w0 hw0
    have hi := hr.inv h
    have he := hr.ctx.wf
    obtain ⟨m1, s1, A, d, x, p, r', ps, h1⟩ := attempted hr.ctx.lower he hi ha
    obtain ⟨w1, hw1, g⟩ := (forall2_mem hi.same.wells).2 w0 hw0
    obtain ⟨w, hw, g'⟩ := (forall2_mem h1.same.wells).2 w1 hw1
    obtain ⟨b, q, k1, k2, k3, k4, k5⟩ := C46_rate_partial hr h ha hp hw
    obtain ⟨w2, b2, -, -, -, k6, k7⟩ := accepted hr.ctx.lower he hi ha hw
    rw [k1] at k6
    cases k6
    have e1 : w.1 = w0.1 := g'.1.trans g.1
    have hG : w.2.G = w0.2.G := g'.2.1.trans g.2.1
    rw [e1] at k7 k4 k5
    rw [k7, ih w0 hw0, h1.tstep, List.range_succ, List.map_append, List.append_assoc]
    congr 1
    congr 1
    · refine List.map_congr_left fun k hk => ?_
      have hk := List.mem_range.1 hk
      rw [h1.press, h1.rates, rowAt_append_lt (by rw [hi.plen]; omega), rowAt_append_lt (by rw [hi.rlen]; omega)]
    · simp only [List.map_cons, List.map_nil]
      rw [h1.tstep] at k4 k5
      rw [k4]
      congr 2
      have hpos := windex_pos he.B he.mu (hr.started.mdl.well w0 hw0)
      rw [hG] at k5
      rw [← windex_eq] at k5
      unfold holePressure
      rw [k5]
      have : windex c.e w0.2 ≠ 0 := hpos.ne'
      field_simp
      ring
  | @again m s vect m' s' h ha _ ih =>
    intro w hw
    have hi := hr.inv h
    obtain ⟨m1, s1, A, d, x, p, r', ps, h1⟩ := attempted hr.ctx.lower hr.ctx.wf hi ha
    obtain ⟨b1, b2, b3⟩ := back_attempted hi h1
    rw [b1, b2, b3, ← ih w hw]
    unfold Mdl.reported
    rw [h1.wPress]; rfl
  | look _ ha ih =>
    obtain ⟨⟨ts, rfl⟩, vA, bV, res, sM, rfl⟩ := assemble_frame ha
    exact ih
  | clock n t _ ih => exact ih

/-- Models with the same data have the same history. -/
theorem same_history (h : SameData m m') (hr : Ready c m) (hr' : Ready c m') (hx : Exact c.lin) {vect : Bool} (hv : vect = true → RatesGiven m ∧ c.e.Flat) (han : Anchored c.e m) {f f' N : ℕ} {t t' : K}
    (hP : RunAll c Calm f vect N m { Sol.init m with nsteps := (Sol.init m).nsteps + N }) (hP' : RunAll c Calm f' vect N m' { Sol.init m' with nsteps := (Sol.init m').nsteps + N })
    (hs : (run c f vect N t m (Sol.init m)).2 = .ok ()) (hs' : (run c f' vect N t' m' (Sol.init m')).2 = .ok ()) :
    (run c f vect N t m (Sol.init m)).1.2.tstep = N ∧ (run c f' vect N t' m' (Sol.init m')).1.2.tstep = N ∧
    (∀ k, k ≤ N → ∀ id, rowAt (run c f vect N t m (Sol.init m)).1.2.press k none id = rowAt (run c f' vect N t' m' (Sol.init m')).1.2.press k none id) ∧
    (∀ k, 0 < k → k ≤ N → ∀ id, rowAt (run c f vect N t m (Sol.init m)).1.2.rates k 0 id = rowAt (run c f' vect N t' m' (Sol.init m')).1.2.rates k 0 id) ∧
    ∀ w, w ∈ m.wells → (run c f vect N t m (Sol.init m)).1.1.reported w.1 = (run c f' vect N t' m' (Sol.init m')).1.1.reported w.1 := by
  have hg' : vect = true → RatesGiven m' := fun hh b hb hk => by rw [← h.initR]; exact (hv hh).1 b (h.bdict.mem_iff.2 hb) hk
  obtain ⟨b, n, t1, i⟩ := run_limited (el := t) hr hx (fun h => (hv h).1) (fun h => (hv h).2) hP hs
  obtain ⟨b', n', t1', i'⟩ := run_limited (el := t') hr' hx hg' (fun h => (hv h).2) hP' hs'
  have fl := run_fluxes (el := t) hr hP hs
  have fl' := run_fluxes (el := t') hr' hP' hs'
  have hh := Hist.run hr.ctx.lower hr.ctx.wf hr.started.mdl N t .start hP
  have hh' := Hist.run hr'.ctx.lower hr'.ctx.wf hr'.started.mdl N t' .start hP'
  have iv := hr.inv hh
  have iv' := hr'.inv hh'
  have fc := hh.faces hr
  have rp := hh.reports hr
  have rp' := hh'.reports hr'
  generalize (run c f vect N t m (Sol.init m)).1 = R at *
  generalize (run c f' vect N t' m' (Sol.init m')).1 = R' at *
  have he := hr.ctx.wf
  have key : ∀ k, k ≤ N → ∀ j, j < c.e.n → R.2.inner c.e k j = R'.2.inner c.e k j := by
    intro k
    induction k with
    | zero =>
      intro _ j _
      unfold Sol.inner
      rw [i, i', h.initP]
    | succ k ih =>
      intro hk
      refine limited_unique he (hr.ctx.grid.network vect) hr.started.mdl han (old' := R.2.inner c.e k) (old := R'.2.inner c.e k)
        (fun j hj => by rw [ih (by omega) j hj, sub_self, mul_zero]) (fun j hj => ?_) (b.press k (by omega))
      rw [← h.limited]
      exact b'.press k (by omega) j hj
  have press : ∀ k, k ≤ N → ∀ id, rowAt R.2.press k none id = rowAt R'.2.press k none id := fun k hk id => by
    rcases Nat.eq_zero_or_pos k with rfl | h0
    · rw [i, i', h.initP]
    by_cases hid : id ∈ c.e.ids
    · have h1 := n k h0 (by omega) _ (idx_lt c.e hid)
      have h2 := n' k h0 (by omega) _ (idx_lt c.e hid)
      rw [at_idx c.e hid] at h1 h2
      rw [h1, h2, key k hk _ (idx_lt c.e hid)]
    · rw [iv.prow k (by omega) id hid, iv'.prow k (by omega) id hid, h.initP]
  have rates : ∀ k, 0 < k → k ≤ N → ∀ id, rowAt R.2.rates k 0 id = rowAt R'.2.rates k 0 id := fun k h0 hk id => by
    by_cases hw : id ∈ m.wells.map (·.1)
    · obtain ⟨w, hw1, rfl⟩ := List.mem_map.1 hw
      rw [b.rates k h0 (by omega) w hw1, b'.rates k h0 (by omega) w (h.wells.mem_iff.1 hw1), key k hk _ (idx_lt c.e (hr.started.mdl.wmem w hw1))]
    by_cases hb : id ∈ m.bUpdate
    · obtain ⟨j, T, hF⟩ := fc (by omega) id hb
      obtain ⟨v, hv⟩ := upd_pressure hr.started.mdl hb
      have hv := mem_of_dictGet hv
      rw [fl k h0 (by omega) id v j T hv hF, fl' k h0 (by omega) id v j T (h.bdict.mem_iff.1 hv) hF, press k hk]
    · rw [iv.row k (by omega) id hb hw, iv'.row k (by omega) id (fun H => hb (h.upd.mem_iff.2 H)) (fun H => hw ((h.wells.map _).mem_iff.2 H)), h.initR]
  refine ⟨t1, t1', press, rates, fun w hw => ?_⟩
  rw [rp w hw, rp' w (h.wells.mem_iff.1 hw), h.reported, t1, t1']
  congr 1
  refine List.map_congr_left fun k hk => ?_
  have hk := List.mem_range.1 hk
  rw [press (k + 1) (by omega), rates (k + 1) (by omega) (by omega)]

lemma SameData.asRates (h : SameData m m') : SameData m.asRates m'.asRates where
  bdict := by
    show (m.bdict.map (plain m.initR)).Perm (m'.bdict.map (plain m'.initR))
    rw [h.initR]; exact h.bdict.map _
  upd := h.upd
  wells := h.wells
  initP := h.initP
  initR := h.initR
  reported := h.reported

/-- **C81, running, partial.** Two scripts with the same set-up calls in another order. If the first goes through and leaves a model that is ready to run, then so does the second, and two
runs of the same length, in which no well leaves its pressure limit, record the same pressures and rates for all cells, boundary cells included, at all steps, and report the same bottom-hole
pressures for every well, whenever and in which order ever wells reach their limits.

Missing: wells that leave their limits, where the order matters (`C81_order_fails`); the vectorised assembler with gravity on inclined reservoirs (C37); unanchored incompressible systems. -/
theorem C81_order_partial {l l' : List (SetCall K)} {pi : Option K} (h : setUp c.lower c.e pi l = .ok m) (hl : SameCalls l l') (hr : Ready c m) (hx : Exact c.lin) {vect : Bool}
    (hv : vect = true → c.e.Flat) (han : Anchored c.e m) :
    ∃ m', setUp c.lower c.e pi l' = .ok m' ∧ Ready c m' ∧ ∀ (f f' N : ℕ) (t t' : K),
      RunAll c Calm f vect N m { Sol.init m with nsteps := (Sol.init m).nsteps + N } → RunAll c Calm f' vect N m' { Sol.init m' with nsteps := (Sol.init m').nsteps + N } →
      (run c f vect N t m (Sol.init m)).2 = .ok () → (run c f' vect N t' m' (Sol.init m')).2 = .ok () →
      (run c f vect N t m (Sol.init m)).1.2.tstep = N ∧ (run c f' vect N t' m' (Sol.init m')).1.2.tstep = N ∧
      (∀ k, k ≤ N → ∀ id, rowAt (run c f vect N t m (Sol.init m)).1.2.press k none id = rowAt (run c f' vect N t' m' (Sol.init m')).1.2.press k none id) ∧
      (∀ k, 0 < k → k ≤ N → ∀ id, rowAt (run c f vect N t m (Sol.init m)).1.2.rates k 0 id = rowAt (run c f' vect N t' m' (Sol.init m')).1.2.rates k 0 id) ∧
      ∀ w, w ∈ m.wells → (run c f vect N t m (Sol.init m)).1.1.reported w.1 = (run c f' vect N t' m' (Sol.init m')).1.1.reported w.1 := by
  obtain ⟨m', h1, h2⟩ := C81_setup c.lower hr.ctx.wf h hl
  have hr' := h2.ready hr (steps_setup l' (.init pi) h1)
  refine ⟨m', h1, hr', fun f f' N t t' hP hP' hs hs' => ?_⟩
  cases vect
  · exact same_history h2 hr hr' hx (fun h => by cases h) han hP hP' hs hs'
  · have r := run_asRates hr f N t
    have r' := run_asRates hr' f' N t'
    have key := same_history (vect := true) (t := t) (t' := t') h2.asRates hr.asRates hr'.asRates hx (fun h => ⟨asRates_given m, hv h⟩) (asRates_anchored.2 han) (r.2.2.2 _ calm_blind hP)
      (r'.2.2.2 _ calm_blind hP') (by rw [r.2.1]; exact hs) (by rw [r'.2.1]; exact hs')
    rw [r.1, r'.1, r.2.2.1, r'.2.2.1] at key
    exact key

end

/-! ### The hypotheses are met -/

instance : DecidableRel (SetCall.Like (K := ℚ)) := fun x y => by
  cases x <;> cases y <;> unfold SetCall.Like <;> infer_instance

lemma sameCalls_of {l l' : List (SetCall ℚ)} (h : ∀ t, t ∈ (l ++ l').map SetCall.topic → List.Forall₂ SetCall.Like (l.filter fun x => decide (x.topic = t)) (l'.filter fun x => decide (x.topic = t))) :
    SameCalls l l' := by
  intro t
  by_cases ht : t ∈ (l ++ l').map SetCall.topic
  · exact h t ht
  · have h0 : ∀ n : List (SetCall ℚ), (∀ x, x ∈ n → x ∈ l ++ l') → n.filter (fun x => decide (x.topic = t)) = [] := fun n hn => by
      rw [List.filter_eq_nil_iff]
      intro x hx hxt
      exact ht (List.mem_map.2 ⟨x, hn x hx, of_decide_eq_true hxt⟩)
    rw [h0 l fun x hx => List.mem_append_left _ hx, h0 l' fun x hx => List.mem_append_right _ hx]
    exact .nil

/-- Boundaries, then two wells; the second well gets its limit in a second call. -/
def exScript : List (SetCall ℚ) :=
  [.bounds [(0, "pressure", 10), (3, "rate", -1)] (by decide), .well 1 { q := some (-30), pwf := some 3, r := some 1 }, .well 2 { q := some (-2), r := some 1 }, .well 2 { pwf := some (-50) }]

/-- The same calls in another order. -/
def exScript' : List (SetCall ℚ) :=
  [.well 2 { q := some (-2), r := some 1 }, .bounds [(3, "rate", -1), (0, "pressure", 10)] (by decide), .well 2 { pwf := some (-50) }, .well 1 { q := some (-30), pwf := some 3, r := some 1 }]

lemma exScript_same : SameCalls exScript exScript' := sameCalls_of (by decide +kernel)

lemma exScript_ok : isOk (setUp (exC true 0 []).lower (exC true 0 []).e (some 8) exScript) = true := by decide +kernel
lemma exScript'_ok : isOk (setUp (exC true 0 []).lower (exC true 0 []).e (some 8) exScript') = true := by decide +kernel

lemma exScript_ready : Ready (exC true 0 []) (getOk _ exScript_ok) := by
  refine ⟨exC_ok _ _ _, steps_setup _ (.init _) (getOk_eq _ exScript_ok), ?_, ?_, ?_⟩
  · intro x G hx hG
    have : ∀ x, x ∈ (getOk _ exScript_ok).wells → 0 < x.2.G.getD 0 := by decide +kernel
    have := this x hx
    rw [hG] at this; exact this
  · intro x hx
    have : ∀ x, x ∈ (getOk _ exScript_ok).wells → x.2.con ≠ none := by decide +kernel
    exact this x hx
  · intro x hx
    have : ∀ x, x ∈ (getOk _ exScript_ok).bdict → (x.2.1 ∈ ["pressure", "press", "p"] ↔ x.2.1 = "pressure") := by decide +kernel
    exact this x hx

/-- The wells are listed in another order. -/
example : (getOk _ exScript_ok).wells.map (·.1) = [1, 2] ∧ (getOk _ exScript'_ok).wells.map (·.1) = [2, 1] := by decide +kernel

/-- Well 1 reaches its limit in the first step, in both orders. -/
example (vect : Bool) : (run (exC true 0 []) 10 vect 1 0 (getOk _ exScript_ok) (Sol.init (getOk _ exScript_ok))).1.1.wells.map (fun w => (w.1, w.2.con)) = [(1, some .pwf), (2, some .q)] := by
  cases vect <;> decide +kernel

/-- `C81_order_partial` applies to two steps of the two scripts. -/
example (vect : Bool) : ∃ m', setUp (exC true 0 []).lower (exC true 0 []).e (some 8) exScript' = .ok m' ∧
    (∀ k, k ≤ 2 → ∀ id, rowAt (run (exC true 0 []) 10 vect 2 0 (getOk _ exScript_ok) (Sol.init (getOk _ exScript_ok))).1.2.press k none id =
      rowAt (run (exC true 0 []) 10 vect 2 0 m' (Sol.init m')).1.2.press k none id) ∧
    (run (exC true 0 []) 10 vect 2 0 (getOk _ exScript_ok) (Sol.init (getOk _ exScript_ok))).1.1.reported 2 = (run (exC true 0 []) 10 vect 2 0 m' (Sol.init m')).1.1.reported 2 := by
  obtain ⟨m', h1, h2, h3⟩ := C81_order_partial (getOk_eq _ exScript_ok) exScript_same exScript_ready cramer_exact (vect := vect) (fun _ => ex_flat _) (.inl (by decide +kernel))
  have : m' = getOk _ exScript'_ok := Except.ok.inj (h1.symm.trans (getOk_eq _ exScript'_ok))
  subst this
  obtain ⟨-, -, h4, -, h5⟩ := h3 10 10 2 0 0 (runCalmB_all (by cases vect <;> decide +kernel)) (runCalmB_all (by cases vect <;> decide +kernel)) (isOk_unit (by cases vect <;> decide +kernel))
    (isOk_unit (by cases vect <;> decide +kernel))
  have h6 : (2 : ℕ) ∈ (getOk _ exScript_ok).wells.map (·.1) := by decide +kernel
  obtain ⟨w, hw, h7⟩ := List.mem_map.1 h6
  exact ⟨_, h1, h4, h7 ▸ h5 w hw⟩

/-! ### the order matters when a well leaves its limit -/

/-- The four wells of `exSwitch`, from the first cell to the last. -/
def exForth : List (SetCall ℚ) :=
  [.well 1 { q := some (-8), pwf := some (-6), r := some 1 }, .well 2 { q := some (-30), pwf := some 4, r := some 1 }, .well 3 { q := some (-30), pwf := some 4, r := some 1 },
    .well 4 { q := some (-8), pwf := some (-6), r := some 1 }]

/-- The same calls, from the last cell to the first. -/
def exBack : List (SetCall ℚ) := exForth.reverse

/-- The solutions met by the two. -/
def exOrderX : List (List ℚ) := exSwitchX ++ exSwitchX.map List.reverse

lemma exForth_ok : isOk (setUp (ex4C exOrderX).lower (ex4C exOrderX).e (some 9) exForth) = true := by decide +kernel
lemma exBack_ok : isOk (setUp (ex4C exOrderX).lower (ex4C exOrderX).e (some 9) exBack) = true := by decide +kernel

lemma exForth_ready : Ready (ex4C exOrderX) (getOk _ exForth_ok) := by
  refine ⟨ex4C_ok _, steps_setup _ (.init _) (getOk_eq _ exForth_ok), ?_, ?_, ?_⟩
  · intro x G hx hG
    have : ∀ x, x ∈ (getOk _ exForth_ok).wells → 0 < x.2.G.getD 0 := by decide +kernel
    have := this x hx
    rw [hG] at this; exact this
  · intro x hx
    have : ∀ x, x ∈ (getOk _ exForth_ok).wells → x.2.con ≠ none := by decide +kernel
    exact this x hx
  · intro x hx
    have : ∀ x, x ∈ (getOk _ exForth_ok).bdict → (x.2.1 ∈ ["pressure", "press", "p"] ↔ x.2.1 = "pressure") := by decide +kernel
    exact this x hx

/-- **C81 fails** when a well leaves its limit: the same four `set_well` calls, made in the opposite order, give other pressures in the first step. Of the wells whose targets cannot be
met, the one listed first is put on its limit and the step is repeated; a well that is found not to need its limit after all is released without repeating the step. -/
theorem C81_order_fails (vect : Bool) : ∃ (c : Ctx ℚ) (l l' : List (SetCall ℚ)) (m m' : Mdl ℚ), SameCalls l l' ∧ setUp c.lower c.e (some 9) l = .ok m ∧ setUp c.lower c.e (some 9) l' = .ok m' ∧
    Ready c m ∧ Ready c m' ∧ Exact c.lin ∧ (vect = true → c.e.Flat) ∧ Anchored c.e m ∧ (run c 10 vect 1 0 m (Sol.init m)).2 = .ok () ∧ (run c 10 vect 1 0 m' (Sol.init m')).2 = .ok () ∧
    rowAt (run c 10 vect 1 0 m (Sol.init m)).1.2.press 1 none 1 ≠ rowAt (run c 10 vect 1 0 m' (Sol.init m')).1.2.press 1 none 1 := by
  have hs : SameCalls exForth exBack := sameCalls_of (by decide +kernel)
  obtain ⟨m', h1, h2⟩ := C81_setup (ex4C exOrderX).lower exForth_ready.ctx.wf (getOk_eq _ exForth_ok) hs
  have : m' = getOk _ exBack_ok := Except.ok.inj (h1.symm.trans (getOk_eq _ exBack_ok))
  subst this
  exact ⟨ex4C exOrderX, exForth, exBack, _, _, hs, getOk_eq _ exForth_ok, h1, exForth_ready, h2.ready exForth_ready (steps_setup _ (.init _) h1), listLin_exact _,
    fun _ => .inl (by decide +kernel), .inl (by decide +kernel), isOk_unit (by cases vect <;> decide +kernel), isOk_unit (by cases vect <;> decide +kernel),
    by cases vect <;> decide +kernel⟩

end RF.Fdm
