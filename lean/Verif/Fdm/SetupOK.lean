import Verif.Fdm.Recorded
/-!
# What `set_boundaries` and `set_well` leave
-/
set_option linter.unusedSectionVars false
namespace RF.Fdm
open RF RF.Dims Finset

variable {K : Type} [Field K] [LinearOrder K] [IsStrictOrderedRing K]

/-! ### boundaries -/

lemma setBoundary_frame {lower : String → String} {e : Env K} {m m' : Mdl K} {id : ℕ} {cond : String} {v : K} {s' : Option (Sol K)}
    (h : setBoundary lower e m none id cond v = ((m', s'), .ok ())) :
    s' = none ∧ m'.bdict = m.bdict ∧ m'.bUpdate = m.bUpdate ∧ m'.wells = m.wells ∧ m'.wPress = m.wPress ∧ m'.terms = m.terms ∧
      (∀ k, k ≠ id → m'.initR k = m.initR k ∧ m'.initP k = m.initP k) ∧
      (lower cond ∈ ["rate", "q"] → m'.initR id = v) ∧
      (lower cond ∉ ["rate", "q"] → lower cond ∈ ["pressure", "press", "p"] → m'.initR id = m.initR id ∧ m'.initP id = some v) ∧
      (lower cond ∉ ["rate", "q"] → lower cond ∉ ["pressure", "press", "p"] → lower cond ∈ ["gradient", "grad", "g"] ∧ gradientRate e id v = .ok (m'.initR id)) := by
  unfold setBoundary at h
  split_ifs at h with h1 h2 h3
  · simp only [setRate, Prod.mk.injEq, and_true] at h
    obtain ⟨rfl, rfl⟩ := h
    exact ⟨rfl, rfl, rfl, rfl, rfl, rfl, fun k hk => ⟨Function.update_of_ne hk _ _, rfl⟩, fun _ => Function.update_self _ _ _, fun h => absurd h1 h, fun h => absurd h1 h⟩
  · simp only [setPressure, Prod.mk.injEq, and_true] at h
    obtain ⟨rfl, rfl⟩ := h
    exact ⟨rfl, rfl, rfl, rfl, rfl, rfl, fun k hk => ⟨rfl, Function.update_of_ne hk _ _⟩, fun h => absurd h h1, fun _ _ => ⟨rfl, Function.update_self _ _ _⟩, fun _ h => absurd h2 h⟩
  · split at h
    · rename_i q hq
      simp only [setRate, Prod.mk.injEq, and_true] at h
      obtain ⟨rfl, rfl⟩ := h
      refine ⟨rfl, rfl, rfl, rfl, rfl, rfl, fun k hk => ⟨Function.update_of_ne hk _ _, rfl⟩, fun h => absurd h h1, fun _ h => absurd h h2, fun _ _ => ⟨h3, ?_⟩⟩
      rw [hq]; simp
    · simp at h
  · simp at h

/-- The loop over the conditions: every given cell is a boundary cell, and what is stored for it is what its condition says. -/
lemma boundaryLoop_ok {lower : String → String} {e : Env K} (l : List (ℕ × String × K)) {m m' : Mdl K} {s' : Option (Sol K)} (hk : (l.map (·.1)).Nodup)
    (h : setBoundaryLoop lower e m none l = ((m', s'), .ok ())) :
    s' = none ∧ m'.bdict = m.bdict ∧ m'.bUpdate = m.bUpdate ∧ m'.wells = m.wells ∧ m'.wPress = m.wPress ∧ m'.terms = m.terms ∧
      (∀ x, x ∈ l → x.1 ∈ e.bnd) ∧ (∀ k, k ∉ l.map (·.1) → m'.initR k = m.initR k ∧ m'.initP k = m.initP k) ∧
      ∀ x, x ∈ l → (lower x.2.1 ∈ ["rate", "q"] → m'.initR x.1 = x.2.2) ∧
        (lower x.2.1 ∉ ["rate", "q"] → lower x.2.1 ∈ ["pressure", "press", "p"] → m'.initR x.1 = m.initR x.1 ∧ m'.initP x.1 = some x.2.2) ∧
        (lower x.2.1 ∉ ["rate", "q"] → lower x.2.1 ∉ ["pressure", "press", "p"] → lower x.2.1 ∈ ["gradient", "grad", "g"] ∧ gradientRate e x.1 x.2.2 = .ok (m'.initR x.1)) := by
  induction l generalizing m with
  | nil =>
    simp only [setBoundaryLoop, Prod.mk.injEq, and_true] at h
    obtain ⟨rfl, rfl⟩ := h
    exact ⟨rfl, rfl, rfl, rfl, rfl, rfl, by simp, fun _ _ => ⟨rfl, rfl⟩, by simp⟩
  | cons x l ih =>
    obtain ⟨id, cond, v⟩ := x
    rw [List.map_cons, List.nodup_cons] at hk
    unfold setBoundaryLoop at h
    split_ifs at h with hb
    · split at h
      · rename_i m1 s1 h1
        obtain ⟨rfl, a1, a2, a3, a4, a5, a6, a7, a8, a9⟩ := setBoundary_frame h1
        obtain ⟨rfl, b1, b2, b3, b4, b5, b6, b7, b8⟩ := ih hk.2 h
        refine ⟨rfl, b1.trans a1, b2.trans a2, b3.trans a3, b4.trans a4, b5.trans a5, ?_, ?_, ?_⟩
        · rintro y hy
          rcases List.mem_cons.1 hy with rfl | hy
          · exact hb
          · exact b6 y hy
        · intro k hk'
          simp only [List.map_cons, List.mem_cons, not_or] at hk'
          exact ⟨(b7 k hk'.2).1.trans (a6 k hk'.1).1, (b7 k hk'.2).2.trans (a6 k hk'.1).2⟩
        · rintro y hy
          rcases List.mem_cons.1 hy with rfl | hy
          · obtain ⟨c1, c2⟩ := b7 id hk.1
            dsimp only
            rw [c1, c2]
            exact ⟨a7, a8, a9⟩
          · obtain ⟨d1, d2, d3⟩ := b8 y hy
            have hne : y.1 ≠ id := fun hh => hk.1 (hh ▸ List.mem_map.2 ⟨y, hy, rfl⟩)
            refine ⟨d1, fun p1 p2 => ?_, d3⟩
            rw [(d2 p1 p2).1, (a6 y.1 hne).1]; exact ⟨rfl, (d2 p1 p2).2⟩
      · simp at h
    · simp at h

lemma setBoundaries_ok {lower : String → String} {e : Env K} {b : List (ℕ × String × K)} {m m' : Mdl K} {s' : Option (Sol K)} (hk : (b.map (·.1)).Nodup)
    (h : setBoundaries lower e m none b = ((m', s'), .ok ())) :
    s' = none ∧ m'.bdict = b ∧ m'.bUpdate = (b.filter fun x => decide (x.2.1 = "pressure")).map (·.1) ∧ m'.wells = m.wells ∧ m'.wPress = m.wPress ∧ m'.terms = m.terms ∧
      (∀ x, x ∈ b → x.1 ∈ e.bnd) ∧ (∀ k, k ∉ b.map (·.1) → m'.initR k = m.initR k ∧ m'.initP k = m.initP k) ∧
      ∀ x, x ∈ b → (lower x.2.1 ∈ ["rate", "q"] → m'.initR x.1 = x.2.2) ∧
        (lower x.2.1 ∉ ["rate", "q"] → lower x.2.1 ∈ ["pressure", "press", "p"] → m'.initR x.1 = m.initR x.1 ∧ m'.initP x.1 = some x.2.2) ∧
        (lower x.2.1 ∉ ["rate", "q"] → lower x.2.1 ∉ ["pressure", "press", "p"] → lower x.2.1 ∈ ["gradient", "grad", "g"] ∧ gradientRate e x.1 x.2.2 = .ok (m'.initR x.1)) := by
  unfold setBoundaries at h
  split at h
  · rename_i m1 s1 h1
    obtain ⟨rfl, a1, a2, a3, a4, a5, a6, a7, a8⟩ := boundaryLoop_ok b hk h1
    simp only [Prod.mk.injEq, and_true] at h
    obtain ⟨rfl, rfl⟩ := h
    exact ⟨rfl, a1, rfl, a3, a4, a5, a6, a7, a8⟩
  · rename_i x hx
    rw [h] at hx
    exact absurd rfl (hx m' s')

/-! ### wells -/

/-- A well before a simulation. -/
structure WellSet (w : Well K) : Prop where
  q : w.q = w.qsp
  pwf : w.pwf = w.pwfsp
  con : w.con = some .q → ∃ q, w.q = some q

lemma mergeArgs_set {w : Well K} (h : WellSet w) (a : WellArgs K) : WellSet (mergeArgs w a) := by
  obtain ⟨h1, h2, h3⟩ := h
  unfold mergeArgs
  rcases a with ⟨q, p, r, s⟩
  cases q <;> cases p <;> cases r <;> cases s <;> refine ⟨?_, ?_, ?_⟩ <;> simp_all
  all_goals
    intro hh
    rcases hq : w.qsp with _ | q
    · rw [hq] at hh; simp at hh
    · exact ⟨_, rfl⟩

lemma finishWell_ok {e : Env K} {m m' : Mdl K} {s : Option (Sol K)} {id : ℕ} {w : Well K} (h : finishWell e m s id w = (m', .ok ())) :
    ∃ req r G w' wp, e.wellReq id = .ok req ∧ w.r = some r ∧ e.wellG id req r w.s = .ok G ∧
      m' = { m with wells := dictSet m.wells id w', wPress := wp } ∧
      w' = { w with req := some req, G := some G, pwf := some (w.pwf.getD 0), pwfsp := if w.pwf.isSome then w.pwfsp else some 0 } := by
  unfold finishWell at h
  split at h
  · simp at h
  · rename_i req hreq
    dsimp only at h
    split at h
    · simp at h
    · rename_i r hr
      split at h
      · simp at h
      · rename_i G hG
        split at h
        · rename_i p hp
          simp only [Prod.mk.injEq, and_true] at h
          subst h
          exact ⟨req, r, G, _, m.wPress, hreq, hr, hG, rfl, by simp [hp]⟩
        · rename_i hp
          simp only [Prod.mk.injEq, and_true] at h
          subst h
          exact ⟨req, r, G, _, _, hreq, hr, hG, rfl, by simp [hp]⟩

lemma dictSet_keys {α β : Type} [DecidableEq α] (d : List (α × β)) (k : α) (v : β) (hk : (d.map (·.1)).Nodup) :
    ((dictSet d k v).map (·.1)).Nodup ∧ ∀ x, x ∈ dictSet d k v → x = (k, v) ∨ (x ∈ d ∧ x.1 ≠ k) := by
  unfold dictSet
  split_ifs with h
  · have : (d.map fun e => if e.1 = k then (k, v) else e).map (·.1) = d.map (·.1) := by
      rw [List.map_map]
      refine List.map_congr_left fun x _ => ?_
      dsimp only [Function.comp]
      split_ifs with hx
      · exact hx.symm
      · rfl
    refine ⟨by rw [this]; exact hk, fun x hx => ?_⟩
    obtain ⟨y, hy, rfl⟩ := List.mem_map.1 hx
    split_ifs with hyk
    · exact Or.inl rfl
    · exact Or.inr ⟨hy, hyk⟩
  · simp only [List.any_eq_true, decide_eq_true_eq, not_exists, not_and] at h
    refine ⟨?_, fun x hx => ?_⟩
    · rw [List.map_append, List.nodup_append]
      refine ⟨hk, by simp, ?_⟩
      intro a ha b hb
      obtain ⟨y, hy, rfl⟩ := List.mem_map.1 ha
      simp only [List.map_cons, List.map_nil, List.mem_singleton] at hb
      subst hb; exact h y hy
    · rcases List.mem_append.1 hx with hx | hx
      · exact Or.inr ⟨hx, h x hx⟩
      · exact Or.inl (by simpa using hx)

/-- What every model built before compiling satisfies. -/
structure SetupInv (e : Env K) (m : Mdl K) : Prop where
  bkeys : (m.bdict.map (·.1)).Nodup
  bmem : ∀ x, x ∈ m.bdict → x.1 ∈ e.bnd
  upd : m.bUpdate = (m.bdict.filter fun x => decide (x.2.1 = "pressure")).map (·.1)
  wkeys : (m.wells.map (·.1)).Nodup
  wmem : ∀ x, x ∈ m.wells → x.1 ∈ e.ids
  well : ∀ x, x ∈ m.wells → WellSet x.2 ∧ (∃ G, x.2.G = some G) ∧ ∃ p, x.2.pwf = some p
  terms : m.terms = []

lemma setWell_ok {e : Env K} {m m' : Mdl K} {s : Option (Sol K)} {id : Option ℕ} {a : WellArgs K} (h : setWell e m s id a = (m', .ok ())) :
    ∃ k req r G w' wp, id = some k ∧ k ∈ e.ids ∧ e.wellReq k = .ok req ∧ (mergeArgs ((dictGet m.wells k).getD {}) a).r = some r ∧
      e.wellG k req r (mergeArgs ((dictGet m.wells k).getD {}) a).s = .ok G ∧ m' = { m with wells := dictSet m.wells k w', wPress := wp } ∧
      w' = { mergeArgs ((dictGet m.wells k).getD {}) a with
        req := some req, G := some G, pwf := some ((mergeArgs ((dictGet m.wells k).getD {}) a).pwf.getD 0)
        pwfsp := if (mergeArgs ((dictGet m.wells k).getD {}) a).pwf.isSome then (mergeArgs ((dictGet m.wells k).getD {}) a).pwfsp else some 0 } := by
  unfold setWell at h
  split at h
  · simp at h
  · rename_i k
    split_ifs at h with hk
    · dsimp only at h
      obtain ⟨req, r, G, w', wp, h1, h2, h3, h4, h5⟩ := finishWell_ok h
      refine ⟨k, req, r, G, w', wp, rfl, hk, h1, h2, h3, ?_, h5⟩
      rw [h4]
      cases a.pwf <;> rfl
    · simp at h

theorem Setup.inv {lower : String → String} {e : Env K} {m : Mdl K} (h : Setup lower e m) : SetupInv e m := by
  induction h with
  | init pi => exact ⟨by simp [Mdl.init], by simp [Mdl.init], rfl, by simp [Mdl.init], by simp [Mdl.init], by simp [Mdl.init], rfl⟩
  | bounds _ hb hs ih =>
    obtain ⟨-, a1, a2, a3, -, a5, a6, -, -⟩ := setBoundaries_ok hb hs
    exact ⟨by rw [a1]; exact hb, by rw [a1]; exact a6, by rw [a1, a2], by rw [a3]; exact ih.wkeys, by rw [a3]; exact ih.wmem, by rw [a3]; exact ih.well, by rw [a5]; exact ih.terms⟩
  | @well m m' id a _ hs ih =>
    obtain ⟨k, req, r, G, w', wp, rfl, hk, -, -, -, rfl, hw'⟩ := setWell_ok hs
    obtain ⟨k1, k2⟩ := dictSet_keys m.wells k w' ih.wkeys
    have hw : WellSet (mergeArgs ((dictGet m.wells k).getD {}) a) := by
      apply mergeArgs_set
      rcases hg : dictGet m.wells k with _ | w
      · exact ⟨rfl, rfl, by simp⟩
      · exact (ih.well _ (mem_of_dictGet hg)).1
    refine ⟨ih.bkeys, ih.bmem, ih.upd, k1, fun x hx => ?_, fun x hx => ?_, ih.terms⟩
    · rcases k2 x hx with rfl | ⟨hx, -⟩
      · exact hk
      · exact ih.wmem x hx
    · rcases k2 x hx with rfl | ⟨hx, -⟩
      · subst hw'
        refine ⟨⟨hw.q, ?_, hw.con⟩, ⟨G, rfl⟩, ⟨_, rfl⟩⟩
        dsimp only
        rw [← hw.pwf]
        cases (mergeArgs ((dictGet m.wells k).getD {}) a).pwf <;> rfl
      · exact ih.well x hx

/-- Every model built by the user starts properly if the well indices are positive, every well was given a rate or a pressure, and
pressure conditions are spelled `"pressure"`. -/
theorem Setup.started {lower : String → String} {e : Env K} {m : Mdl K} (h : Setup lower e m) (hG : ∀ x G, x ∈ m.wells → x.2.G = some G → 0 < G)
    (hc : Configured m) (hcan : Canonical lower m) : Started lower e m := by
  have hi := h.inv
  refine ⟨⟨hi.bkeys, hi.bmem, hi.upd, hi.wkeys, hi.wmem, fun x hx => ?_⟩, hc, hcan, hi.terms, fun x hx _ => (hi.well x hx).1.q⟩
  obtain ⟨hw, ⟨G, hg⟩, ⟨p, hp⟩⟩ := hi.well x hx
  refine ⟨⟨G, hg, hG x G hx hg⟩, ⟨p, hp⟩, ⟨p, by rw [← hw.pwf]; exact hp⟩, hw.con, fun _ => hw.pwf, fun qs hqs => ⟨qs, by rw [hw.q]; exact hqs⟩, fun hn => ⟨hw.pwf, fun hcq => ?_⟩⟩
  obtain ⟨q, hq⟩ := hw.con hcq
  rw [hw.q, hn] at hq; simp at hq

/-- The usual order: boundary conditions once, then wells. -/
inductive Standard (lower : String → String) (e : Env K) (b : List (ℕ × String × K)) : Mdl K → Prop
  | bounds {pi : Option K} {m : Mdl K} (hb : (b.map (·.1)).Nodup) (hs : setBoundaries lower e (Mdl.init e pi) none b = ((m, none), .ok ())) : Standard lower e b m
  | well {m m' : Mdl K} {id : Option ℕ} {a : WellArgs K} (h : Standard lower e b m) (hs : setWell e m none id a = (m', .ok ())) : Standard lower e b m'

lemma Standard.setup {lower : String → String} {e : Env K} {b : List (ℕ × String × K)} {m : Mdl K} (h : Standard lower e b m) : Setup lower e m := by
  induction h with
  | bounds hb hs => exact .bounds (.init _) hb hs
  | well _ hs ih => exact .well ih hs

lemma Standard.rates {lower : String → String} {e : Env K} {b : List (ℕ × String × K)} {m : Mdl K} (h : Standard lower e b m) :
    m.bdict = b ∧ NoLeftover m ∧ ((∀ x, x ∈ b → x.2.1 ≠ "pressure" → lower x.2.1 ∈ ["rate", "q"]) → RatesGiven m) := by
  induction h with
  | bounds hb hs =>
    obtain ⟨-, a1, -, -, -, -, -, a7, a8⟩ := setBoundaries_ok hb hs
    refine ⟨a1, fun id hid => ?_, fun hr x hx hp => ?_⟩
    · rw [a1] at hid; rw [(a7 id hid).1]; rfl
    · rw [a1] at hx; exact (a8 x hx).1 (hr x hx hp)
  | well _ hs ih =>
    obtain ⟨k, req, r, G, w', wp, rfl, hk, -, -, -, rfl, hw'⟩ := setWell_ok hs
    exact ih

end RF.Fdm
