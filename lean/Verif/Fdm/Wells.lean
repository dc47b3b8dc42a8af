import Verif.Fdm.FromGrid2
/-! # What one step does to the wells and to the rate row -/
set_option linter.unusedSectionVars false
namespace RF.Fdm
open RF RF.Dims Finset

variable {K : Type} [Field K] [LinearOrder K] [IsStrictOrderedRing K]

/-- Bottom-hole pressure needed to deliver rate `qs` at cell pressure `p`. -/
def estPwf (e : Env K) (w : Well K) (p qs : K) : K := p + qs * e.B * e.mu / w.G.getD 0

/-- A well held at its limit, at cell pressure `p`. -/
def atLimit (e : Env K) (w : Well K) (p : K) : Well K :=
  { w with con := some .pwf, pwf := w.pwfsp, q := some (windex e w * (w.pwfsp.getD 0 - p)) }

/-- A well held at its target rate, at cell pressure `p`. -/
def atTarget (e : Env K) (w : Well K) (p qs : K) : Well K := { w with con := some .q, pwf := some (estPwf e w p qs) }

/-- What `__update_wells` does with a well: kept at its target rate if that needs more than the limit, otherwise held at the limit. -/
lemma updateWell_ok {e : Env K} {w : Well K} (hw : WellOK w) (p : K) :
    (w.qsp = none → updateWell e p w = .ok (atLimit e w p, windex e w * (w.pwfsp.getD 0 - p), w.pwfsp.getD 0, false)) ∧
    (∀ qs, w.qsp = some qs → w.pwfsp.getD 0 < estPwf e w p qs →
      updateWell e p w = .ok (atTarget e w p qs, w.q.getD 0, estPwf e w p qs, false)) ∧
    (∀ qs, w.qsp = some qs → estPwf e w p qs ≤ w.pwfsp.getD 0 →
      updateWell e p w = .ok (atLimit e w p, windex e w * (w.pwfsp.getD 0 - p), w.pwfsp.getD 0,
        decide (estPwf e w p qs < w.pwfsp.getD 0 ∧ w.q = some qs))) := by
  obtain ⟨G, hG, -⟩ := hw.G
  obtain ⟨pw, hpw⟩ := hw.pwf
  obtain ⟨sp, hsp⟩ := hw.sp
  have lim : ∀ (w' : Well K), w' = { w with con := some Con.pwf, pwf := some sp } → (wTerm e w' (Aff.c p)) = .ok (Aff.smul (-G / (e.B * e.mu)) ((Aff.c p).sub (Aff.c sp))) := by
    rintro w' rfl
    unfold wTerm
    rw [hG]
    split
    · rename_i q _ hc; simp at hc
    · rfl
  have est_n : w.qsp = none → estimate e p w = .ok sp := by
    intro hq; unfold estimate; rw [hq]; dsimp only; rw [(hw.free hq).1, hsp]; rfl
  have est_s : ∀ qs, w.qsp = some qs → estimate e p w = .ok (estPwf e w p qs) := by
    intro qs hq; unfold estimate estPwf; rw [hq]; dsimp only; rw [hG]; rfl
  have spn : need w.pwfsp = .ok sp := by rw [hsp]; rfl
  have spd : w.pwfsp.getD 0 = sp := by rw [hsp]; rfl
  have tail : ∀ ag : Bool, (do
      let t ← wTerm e { w with con := some Con.pwf, pwf := some sp } (Aff.c p)
      pure ({ w with con := some Con.pwf, pwf := some sp, q := some t.const }, t.const, sp, ag) : Except Err _) =
      .ok (atLimit e w p, windex e w * (w.pwfsp.getD 0 - p), w.pwfsp.getD 0, ag) := by
    intro ag
    rw [lim _ rfl, bind_ok]
    simp only [atLimit, windex, spd, Aff.smul, Aff.sub, Aff.c]
    have : -G / (e.B * e.mu) * (p - sp) = w.G.getD 0 / (e.B * e.mu) * (sp - p) := by rw [hG, Option.getD_some]; ring
    rw [this, ← hsp]; rfl
  refine ⟨fun hq => ?_, fun qs hq hlt => ?_, fun qs hq hle => ?_⟩
  · unfold updateWell
    rw [est_n hq, bind_ok, spn, bind_ok, if_neg (lt_irrefl _)]
    unfold wantsAgain
    rw [if_neg (lt_irrefl _), bind_ok]
    exact tail _
  · obtain ⟨q, hqq⟩ := hw.tgt qs hq
    unfold updateWell
    rw [est_s qs hq, bind_ok, spn, bind_ok, if_pos (spd ▸ hlt)]
    have : wTerm e { w with con := some Con.q, pwf := some (estPwf e w p qs) } (Aff.c p) = .ok (Aff.c q) := by
      unfold wTerm; rw [hqq]
    dsimp only
    rw [this, bind_ok]
    simp only [atTarget, hqq, Option.getD_some, Aff.c]
    rw [← hqq]; rfl
  · obtain ⟨q, hqq⟩ := hw.tgt qs hq
    unfold updateWell
    rw [est_s qs hq, bind_ok, spn, bind_ok, if_neg (not_lt.2 (spd ▸ hle))]
    have ag : wantsAgain (estPwf e w p qs) sp w = .ok (decide (estPwf e w p qs < w.pwfsp.getD 0 ∧ w.q = some qs)) := by
      unfold wantsAgain
      rw [spd, hqq, hq]
      by_cases h : estPwf e w p qs < sp
      · rw [if_pos h]; simp [h, need, pure, Except.pure, bind, Except.bind]
      · rw [if_neg h]; simp [h]
    rw [ag, bind_ok]
    exact tail _

/-- What a step may do to a well. -/
def WellMove (e : Env K) (p : K) (w w' : Well K) : Prop :=
  w' = w ∨ w' = atLimit e w p ∨ ∃ qs, w.qsp = some qs ∧ w.pwfsp.getD 0 < estPwf e w p qs ∧ w' = atTarget e w p qs

lemma atLimit_ok {e : Env K} {w : Well K} (hw : WellOK w) (p : K) : WellOK (atLimit e w p) :=
  ⟨hw.G, hw.sp, hw.sp, by simp [atLimit], fun _ => rfl, fun _ _ => ⟨_, rfl⟩, fun _ => ⟨rfl, by simp [atLimit]⟩⟩

lemma atTarget_ok {e : Env K} {w : Well K} (hw : WellOK w) (p : K) {qs : K} (h : w.qsp = some qs) : WellOK (atTarget e w p qs) :=
  ⟨hw.G, ⟨_, rfl⟩, hw.sp, fun _ => hw.tgt qs h, by simp [atTarget], hw.tgt, fun h' => by simp [atTarget, h] at h'⟩

lemma WellMove.ok {e : Env K} {p : K} {w w' : Well K} (h : WellMove e p w w') (hw : WellOK w) : WellOK w' := by
  rcases h with rfl | rfl | ⟨qs, hq, -, rfl⟩
  · exact hw
  · exact atLimit_ok hw p
  · exact atTarget_ok hw p hq

lemma WellMove.same {e : Env K} {p : K} {w w' : Well K} (h : WellMove e p w w') : w'.G = w.G ∧ w'.pwfsp = w.pwfsp ∧ w'.qsp = w.qsp := by
  rcases h with rfl | rfl | ⟨qs, hq, -, rfl⟩ <;> exact ⟨rfl, rfl, rfl⟩

/-- What a completed update does to a well: result, recorded rate, recorded bottom-hole pressure. -/
inductive WellDone (e : Env K) (p : K) (w : Well K) : Well K → K → K → Prop
  | limit (h : ∀ qs, w.qsp = some qs → estPwf e w p qs ≤ w.pwfsp.getD 0) (hq : ∀ qs, w.qsp = some qs → estPwf e w p qs < w.pwfsp.getD 0 → w.q ≠ some qs) :
      WellDone e p w (atLimit e w p) (windex e w * (w.pwfsp.getD 0 - p)) (w.pwfsp.getD 0)
  | target (qs : K) (hq : w.qsp = some qs) (h : w.pwfsp.getD 0 < estPwf e w p qs) :
      WellDone e p w (atTarget e w p qs) (w.q.getD 0) (estPwf e w p qs)

/-- The update that asks for the step to be repeated. -/
def WellAgain (e : Env K) (p : K) (w : Well K) : Prop := ∃ qs, w.qsp = some qs ∧ estPwf e w p qs < w.pwfsp.getD 0 ∧ w.q = some qs

lemma updateWell_cases {e : Env K} {w : Well K} (hw : WellOK w) (p : K) :
    (∃ w' q b, updateWell e p w = .ok (w', q, b, false) ∧ WellDone e p w w' q b) ∨
      (updateWell e p w = .ok (atLimit e w p, windex e w * (w.pwfsp.getD 0 - p), w.pwfsp.getD 0, true) ∧ WellAgain e p w) := by
  obtain ⟨h1, h2, h3⟩ := updateWell_ok (e := e) hw p
  rcases hq : w.qsp with _ | qs
  · exact Or.inl ⟨_, _, _, h1 hq, .limit (by simp [hq]) (by simp [hq])⟩
  · rcases lt_or_ge (w.pwfsp.getD 0) (estPwf e w p qs) with h | h
    · exact Or.inl ⟨_, _, _, h2 qs hq h, .target qs hq h⟩
    · by_cases hag : estPwf e w p qs < w.pwfsp.getD 0 ∧ w.q = some qs
      · refine Or.inr ⟨by rw [h3 qs hq h, decide_eq_true hag], qs, hq, hag⟩
      · refine Or.inl ⟨_, _, _, by rw [h3 qs hq h, decide_eq_false hag], .limit ?_ ?_⟩
        · intro qs' hq'; rw [hq] at hq'; cases hq'; exact h
        · intro qs' hq' hlt; rw [hq] at hq'; cases hq'; exact fun hh => hag ⟨hlt, hh⟩

lemma WellDone.move {e : Env K} {p : K} {w w' : Well K} {q b : K} (h : WellDone e p w w' q b) : WellMove e p w w' := by
  cases h with
  | limit _ _ => exact Or.inr (Or.inl rfl)
  | target qs hq h => exact Or.inr (Or.inr ⟨qs, hq, h, rfl⟩)

/-- Result of the loop over wells. -/
lemma updateWells_ok {e : Env K} (p : ℕ → Option K) (ws : List (ℕ × Well K)) (hws : ∀ x, x ∈ ws → WellOK x.2) (hk : (ws.map (·.1)).Nodup) (r : ℕ → K) :
    ∃ ws' r' ps ag, updateWells e p ws r = .ok (ws', r', ps, ag) ∧ ws'.map (·.1) = ws.map (·.1) ∧
      List.Forall₂ (fun x y => y.1 = x.1 ∧ WellMove e ((p x.1).getD 0) x.2 y.2) ws ws' ∧
      (∀ id, id ∉ ws.map (·.1) → r' id = r id) ∧
      (ag = false → List.Forall₂ (fun x y => y.1 = x.1 ∧ ∃ b, WellDone e ((p x.1).getD 0) x.2 y.2 (r' x.1) b) ws ws' ∧
        List.Forall₂ (fun x y => y.1 = x.1 ∧ ∃ w' q, WellDone e ((p x.1).getD 0) x.2 w' q y.2) ws ps) ∧
      (ag = true → ∃ l1 x l2 l1', ws = l1 ++ x :: l2 ∧ ws' = l1' ++ (x.1, atLimit e x.2 ((p x.1).getD 0)) :: l2 ∧ WellAgain e ((p x.1).getD 0) x.2 ∧
        List.Forall₂ (fun x y => y.1 = x.1 ∧ ∃ q b, WellDone e ((p x.1).getD 0) x.2 y.2 q b) l1 l1') := by
  induction ws generalizing r with
  | nil => exact ⟨[], r, [], false, rfl, rfl, .nil, fun _ _ => rfl, fun _ => ⟨.nil, .nil⟩, by simp⟩
  | cons x t ih =>
    obtain ⟨id, w⟩ := x
    rw [List.map_cons, List.nodup_cons] at hk
    have hw := hws (id, w) (by simp)
    rcases updateWell_cases (e := e) hw ((p id).getD 0) with ⟨w', q, b, h1, h2⟩ | ⟨h1, h2⟩
    · obtain ⟨ws', r', ps, ag, g1, g2, g3, g4, g5, g6⟩ := ih (fun x hx => hws x (by simp [hx])) hk.2 (Function.update r id q)
      have hr : r' id = q := by rw [g4 id hk.1]; simp
      refine ⟨(id, w') :: ws', r', (id, b) :: ps, ag, ?_, ?_, ?_, ?_, ?_, ?_⟩
      · unfold updateWells
        rw [h1]
        simp only [bind_ok, Bool.false_eq_true, if_false]
        rw [g1]; rfl
      · simp [g2]
      · exact .cons ⟨rfl, h2.move⟩ g3
      · intro k hk'
        simp only [List.map_cons, List.mem_cons, not_or] at hk'
        rw [g4 k hk'.2, Function.update_of_ne hk'.1]
      · intro hag
        obtain ⟨j1, j2⟩ := g5 hag
        exact ⟨.cons ⟨rfl, b, by rw [show r' (id, w).1 = q from hr]; exact h2⟩ j1, .cons ⟨rfl, w', q, h2⟩ j2⟩
      · intro hag
        obtain ⟨l1, x, l2, l1', e1, e2, e3, e4⟩ := g6 hag
        exact ⟨(id, w) :: l1, x, l2, (id, w') :: l1', by rw [e1]; rfl, by rw [e2]; rfl, e3, .cons ⟨rfl, q, b, h2⟩ e4⟩
    · refine ⟨(id, atLimit e w ((p id).getD 0)) :: t, Function.update r id (windex e w * (w.pwfsp.getD 0 - (p id).getD 0)), [], true, ?_, ?_, ?_, ?_, by simp, ?_⟩
      · unfold updateWells
        rw [h1]
        simp only [bind_ok, if_true]; rfl
      · simp
      · refine .cons ⟨rfl, Or.inr (Or.inl rfl)⟩ (List.forall₂_same.2 fun x _ => ⟨rfl, Or.inl rfl⟩)
      · intro k hk'
        simp only [List.map_cons, List.mem_cons, not_or] at hk'
        rw [Function.update_of_ne hk'.1]
      · intro _
        exact ⟨[], (id, w), t, [], rfl, rfl, h2, .nil⟩

/-- Result of the loop over pressure boundaries. -/
lemma updateBounds_ok {lower : String → String} {e : Env K} {m : Mdl K} (p : ℕ → Option K) (bs : List ℕ) (r r' : ℕ → K)
    (h : bs.foldlM (fun r idb => do
      match ← e.transC idb false with
      | [(id, T)] => pure (Function.update r idb (bTerm lower e m.bdict id idb (Aff.c ((p id).getD 0)) T).const)
      | _ => .error .value) r = .ok r') :
    (∀ k, k ∉ bs → r' k = r k) ∧ ∀ b, b ∈ bs → ∃ id T, e.Face b id T ∧ r' b = (bTerm lower e m.bdict id b (Aff.c ((p id).getD 0)) T).const := by
  induction bs generalizing r with
  | nil => rw [List.foldlM_nil, ok_pure] at h; subst h; exact ⟨fun _ _ => rfl, by simp⟩
  | cons b bs ih =>
    rw [List.foldlM_cons, ok_bind] at h
    obtain ⟨r1, h1, h⟩ := h
    rw [ok_bind] at h1
    obtain ⟨l, hl, h1⟩ := h1
    split at h1
    · rename_i id T
      rw [ok_pure] at h1
      obtain ⟨i1, i2⟩ := ih r1 h
      refine ⟨fun k hk => ?_, fun k hk => ?_⟩
      · simp only [List.mem_cons, not_or] at hk
        rw [i1 k hk.2, ← h1, Function.update_of_ne hk.1]
      · by_cases hkb : k ∈ bs
        · exact i2 k hkb
        · obtain rfl : k = b := by simpa [hkb] using hk
          exact ⟨id, T, hl, by rw [i1 k hkb, ← h1, Function.update_self]⟩
    · simp at h1

end RF.Fdm
