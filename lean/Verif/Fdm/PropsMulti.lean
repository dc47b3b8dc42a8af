import Verif.Fdm.PropsObj
/-!
# Several solutions of one model (C50)

`compile` can be called more than once and `set_solution` chooses which solution `solve` and `run` belong to (models/model.py
l.77-125). The solutions have their own tables and matrices but work on one model: its wells, its remembered terms
(`cells_terms`) and its record of bottom-hole pressures (`w_pressures`).
-/
set_option linter.unusedSectionVars false
namespace RF.Fdm
open RF RF.Dims Finset

variable {K : Type} [Field K] [LinearOrder K] [IsStrictOrderedRing K]

/-- A call on a model with several solutions: compiling solution `k` (again), or `set_solution(k); solve(vectorize=vect)`. A call
of `run` is a sequence of the latter. (model.py l.77-166) -/
inductive Call where
  | compile (k : ℕ)
  | solve (k : ℕ) (vect : Bool)
  deriving DecidableEq

/-- The solution a call is about. -/
def Call.on : Call → ℕ
  | .compile k => k
  | .solve k _ => k

/-- The calls one after the other on one model with its solutions (model.py l.109-123: `compile` makes the tables anew from the
initial arrays of the model). -/
def multi (c : Ctx K) (fuel : ℕ) : List Call → Mdl K → (ℕ → Sol K) → Except Err (Mdl K × (ℕ → Sol K))
  | [], m, S => .ok (m, S)
  | .compile k :: l, m, S => multi c fuel l m (Function.update S k (Sol.init m))
  | .solve k vect :: l, m, S => do
    let (m', s') ← solve c fuel vect true m (S k)
    multi c fuel l m' (Function.update S k s')

/-- The attempts of all steps satisfy `P`. -/
def MultiAll (c : Ctx K) (P : Bool → Mdl K → Mdl K → Prop) (fuel : ℕ) : List Call → Mdl K → (ℕ → Sol K) → Prop
  | [], _, _ => True
  | .compile k :: l, m, S => MultiAll c P fuel l m (Function.update S k (Sol.init m))
  | .solve k vect :: l, m, S => SolveAll c P fuel vect m (S k) ∧
      ∀ m' s', solve c fuel vect true m (S k) = .ok (m', s') → MultiAll c P fuel l m' (Function.update S k s')

/-- The calls about solution `k`. -/
def callsOn (k : ℕ) (l : List Call) : List Call := l.filter fun x => decide (x.on = k)

/-- No well changes its constraint. -/
def Keeps : Bool → Mdl K → Mdl K → Prop := fun _ m m' => m'.wells.map (fun x => (x.1, x.2.con)) = m.wells.map fun x => (x.1, x.2.con)

/-! ### models with the wells of `m0` as far as the equations go -/

/-- The same well: same constraint, factor, target and limit; the same rate under rate constraint. -/
structure SameW (x y : ℕ × Well K) : Prop where
  key : y.1 = x.1
  con : y.2.con = x.2.con
  G : y.2.G = x.2.G
  qsp : y.2.qsp = x.2.qsp
  sp : y.2.pwfsp = x.2.pwfsp
  q : x.2.con = some .q → y.2.q = x.2.q
  pwf : x.2.con = some .pwf → y.2.pwf = x.2.pwf

/-- A well as it is before a simulation. -/
structure Fresh (w : Well K) : Prop where
  G : ∃ G, w.G = some G
  sp : ∃ p, w.pwfsp = some p
  q : w.con = some .q → ∃ q, w.q = some q ∧ w.qsp = some q
  pwf : w.con ≠ some .q → w.con = some .pwf ∧ w.qsp = none ∧ w.pwf = w.pwfsp

/-- The remembered terms of a cell are the ones the model `m0` gives. -/
def TermsOf (lower : String → String) (e : Env K) (m0 : Mdl K) (id : ℕ) (t : Terms K) : Prop :=
  id ∈ e.ids ∧ ∃ s t0, buildTerms lower e m0 s id = .ok t0 ∧ t.f = t0.f ∧ (e.comp = false → t.a = Aff.c 0)

/-- A model with wells that are the same as those of `m0` and terms of `m0`. -/
structure Like (c : Ctx K) (m0 m : Mdl K) : Prop where
  bd : m.bdict = m0.bdict
  up : m.bUpdate = m0.bUpdate
  ip : m.initP = m0.initP
  ir : m.initR = m0.initR
  wells : List.Forall₂ SameW m0.wells m.wells
  terms : ∀ id t, dictGet m.terms id = some t → TermsOf c.lower c.e m0 id t

lemma SameW.wTerm {x y : ℕ × Well K} (h : SameW x y) (hf : Fresh x.2) (e : Env K) (z : Aff K) : wTerm e y.2 z = wTerm e x.2 z := by
  obtain ⟨k1, w1⟩ := x
  obtain ⟨k2, w2⟩ := y
  obtain ⟨-, h1, h2, h3, h4, h5, h6⟩ := h
  dsimp only at *
  by_cases hq : w1.con = some .q
  · obtain ⟨q, hq1, -⟩ := hf.q hq
    unfold Fdm.wTerm
    rw [h1, h5 hq, hq, hq1]
  · obtain ⟨hc, -, -⟩ := hf.pwf hq
    unfold Fdm.wTerm
    rw [h1, hc, h2, h6 hc]
    rcases w1.q with _ | a <;> rcases w2.q with _ | b <;> rfl

lemma forall2_get {R : ℕ × Well K → ℕ × Well K → Prop} (hk : ∀ x y, R x y → y.1 = x.1) {l l' : List (ℕ × Well K)} (h : List.Forall₂ R l l') (id : ℕ) :
    (dictGet l id = none ∧ dictGet l' id = none) ∨ ∃ w w', dictGet l id = some w ∧ dictGet l' id = some w' ∧ R (id, w) (id, w') ∧ (id, w) ∈ l := by
  induction h with
  | nil => exact .inl ⟨rfl, rfl⟩
  | @cons x y l l' hx _ ih =>
    obtain ⟨k1, w1⟩ := x
    obtain ⟨k2, w2⟩ := y
    have h1 : k2 = k1 := hk _ _ hx
    subst h1
    rw [dictGet_cons, dictGet_cons]
    by_cases he : k2 = id
    · subst he
      rw [if_pos rfl, if_pos rfl]
      exact .inr ⟨w1, w2, rfl, rfl, hx, by simp⟩
    · rw [if_neg he, if_neg he]
      rcases ih with h | ⟨w, w', h1, h2, h3, h4⟩
      · exact .inl h
      · exact .inr ⟨w, w', h1, h2, h3, by simp [h4]⟩

lemma buildTerms_again {lower : String → String} {e : Env K} {m0 : Mdl K} {s0 : Sol K} {id : ℕ} {t0 : Terms K} (hb : buildTerms lower e m0 s0 id = .ok t0) :
    (∀ s, buildTerms lower e m0 s id = aTerm e s id >>= fun a => pure ⟨t0.f, a⟩) ∧
      ∀ w, dictGet m0.wells id = some w → ∃ g x, wTerm e w (Aff.p id) = .ok x ∧ t0.f = g ++ [x] := by
  have hid : id ∈ e.ids := by
    by_contra hid
    unfold buildTerms at hb
    rw [if_pos hid] at hb
    cases hb
  unfold buildTerms at hb ⊢
  rw [if_neg (not_not.2 hid)] at hb
  simp only [if_neg (not_not.2 hid)]
  rw [ok_bind] at hb
  obtain ⟨ns, hns, hb⟩ := hb
  rw [ok_bind] at hb
  obtain ⟨bs, hbs, hb⟩ := hb
  rw [ok_bind] at hb
  obtain ⟨T, hT, hb⟩ := hb
  rw [ok_bind] at hb
  obtain ⟨fn, hfn, hb⟩ := hb
  rw [ok_bind] at hb
  obtain ⟨fb, hfb, hb⟩ := hb
  simp only [hns, hbs, hT, bind_ok, hfn, hfb]
  rcases hg : dictGet m0.wells id with _ | w <;> rw [hg] at hb
  · dsimp only at hb ⊢
    rw [bind_pure', ok_bind] at hb
    obtain ⟨a, ha, hb⟩ := hb
    rw [ok_pure] at hb
    subst hb
    refine ⟨fun s => by rw [bind_pure'], fun w hw => by cases hw⟩
  · dsimp only at hb ⊢
    rw [ok_bind] at hb
    obtain ⟨x, hx, hb⟩ := hb
    rw [bind_pure', ok_bind] at hb
    obtain ⟨a, ha, hb⟩ := hb
    rw [ok_pure] at hb
    subst hb
    refine ⟨fun s => by rw [hx, bind_ok, bind_pure'], fun w' hw => ⟨fn ++ fb, x, ?_, rfl⟩⟩
    obtain rfl := Option.some.inj hw
    exact hx

/-- The terms of a cell do not depend on what was simulated before. -/
lemma Like.cellTerms {c : Ctx K} {m0 m : Mdl K} (h : Like c m0 m) (hf : ∀ x, x ∈ m0.wells → Fresh x.2) (s : Sol K) (id : ℕ) :
    cellTerms c.lower c.e m s id = buildTerms c.lower c.e m0 s id := by
  have hw := forall2_get (fun _ _ h => h.key) h.wells id
  unfold Fdm.cellTerms
  rcases ht : dictGet m.terms id with _ | t
  · dsimp only
    unfold buildTerms
    rw [h.bd]
    rcases hw with ⟨h1, h2⟩ | ⟨w, w', h1, h2, h3, h4⟩
    · rw [h1, h2]
    · rw [h1, h2]
      have := h3.wTerm (hf _ h4) c.e (Aff.p id)
      dsimp only at this ⊢
      rw [this]
  · dsimp only
    obtain ⟨hid, s0, t0, hb, htf, hta⟩ := h.terms id t ht
    obtain ⟨b1, b2⟩ := buildTerms_again hb
    rw [b1 s]
    have hr : refreshWell c.e m id t = .ok t := by
      unfold refreshWell
      rcases hw with ⟨h1, h2⟩ | ⟨w, w', h1, h2, h3, h4⟩
      · rw [h2]
      · rw [h2]
        dsimp only
        split_ifs
        · obtain ⟨g, x, hx, hg⟩ := b2 w h1
          have hxx : wTerm c.e w' (Aff.p id) = .ok x := (h3.wTerm (hf _ h4) c.e (Aff.p id)).trans hx
          rw [hxx, bind_ok]
          obtain ⟨f, a⟩ := t
          dsimp only at htf ⊢
          subst htf
          rw [hg, List.dropLast_concat]
          rfl
        · rfl
    unfold refreshTerms
    rw [hr, bind_ok]
    split_ifs with hc
    · rw [htf]
    · unfold aTerm
      rw [if_neg hc, bind_ok, ← htf, ← hta (by simpa using hc)]

lemma buildTerms_incomp {lower : String → String} {e : Env K} {m0 : Mdl K} {s0 : Sol K} {id : ℕ} {t0 : Terms K} (hb : buildTerms lower e m0 s0 id = .ok t0)
    (hc : e.comp = false) : t0.a = Aff.c 0 := by
  have h := (buildTerms_again hb).1 s0
  rw [hb] at h
  unfold aTerm at h
  rw [hc] at h
  simp only [Bool.false_eq_true, if_false, bind_ok] at h
  exact congrArg Terms.a (Except.ok.inj h)

lemma Like.setTerms {c : Ctx K} {m0 m : Mdl K} (h : Like c m0 m) {ts : List (ℕ × Terms K)} (ht : ∀ id t, dictGet ts id = some t → TermsOf c.lower c.e m0 id t) :
    Like c m0 { m with terms := ts } := ⟨h.bd, h.up, h.ip, h.ir, h.wells, ht⟩

/-- The equations do not depend on what was simulated before. -/
lemma Like.rows {c : Ctx K} {m0 m m2 : Mdl K} (h : Like c m0 m) (h2 : Like c m0 m2) (hf : ∀ x, x ∈ m0.wells → Fresh x.2) (s : Sol K) :
    ERel true (fun (a b : List (ℕ × Terms K) × List (ℕ × EqRow K)) => a.2 = b.2 ∧ (∀ id t, dictGet a.1 id = some t → TermsOf c.lower c.e m0 id t) ∧ ∀ id t, dictGet b.1 id = some t → TermsOf c.lower c.e m0 id t)
      (cellRows c m s) (cellRows c m2 s) := by
  unfold cellRows
  refine ERel.foldlM (Q := fun id id' => id' = id ∧ id ∈ c.e.ids) (forall2_self fun x hx => ⟨rfl, hx⟩) ⟨rfl, h.terms, h2.terms⟩ ?_
  rintro ⟨ta, ra⟩ ⟨tb, rb⟩ ⟨e1, e2, e3⟩ _ id ⟨rfl, hid⟩
  dsimp only at e1 e2 e3 ⊢
  subst e1
  rw [(h.setTerms e2).cellTerms hf, (h2.setTerms e3).cellTerms hf]
  refine ERel.bind (R := fun t t' => t' = t ∧ TermsOf c.lower c.e m0 id t) (ERel.refl _ fun t ht => ⟨rfl, hid, s, t, ht, rfl, fun hc => buildTerms_incomp ht hc⟩) ?_
  rintro t _ ⟨rfl, ht⟩
  refine ERel.bind (R := fun r r' => r' = r) (ERel.refl _ fun _ _ => rfl) ?_
  rintro r _ rfl
  refine ⟨rfl, ?_, ?_⟩
  · intro k t' hk
    rw [dictGet_set] at hk
    split_ifs at hk with he
    · subst he; obtain rfl := Option.some.inj hk; exact ht
    · exact e2 k t' hk
  · intro k t' hk
    rw [dictGet_set] at hk
    split_ifs at hk with he
    · subst he; obtain rfl := Option.some.inj hk; exact ht
    · exact e3 k t' hk

lemma vWell_same (e : Env K) (s : Sol K) (acc : VAcc K) {x y z : ℕ × Well K} (h : SameW x y) (h' : SameW x z) (hf : Fresh x.2) : vWell e s acc z = vWell e s acc y := by
  have e1 := fun a => h.wTerm hf e a
  have e2 := fun a => h'.wTerm hf e a
  have e3 : z.1 = y.1 := h'.key.trans h.key.symm
  have e4 : z.2.con = y.2.con := h'.con.trans h.con.symm
  obtain ⟨k, w⟩ := y
  obtain ⟨k', w'⟩ := z
  dsimp only at e1 e2 e3 e4
  subst e3
  unfold vWell
  dsimp only
  rw [e4]
  rcases w.con with _ | _ | _
  · rfl
  · dsimp only; rw [e2, e1]
  · dsimp only; rw [e2, e1]

lemma Like.assemble {c : Ctx K} {vect : Bool} {m0 m m1 m2 : Mdl K} {s s1 : Sol K} {A : ℕ → ℕ → K} {d : ℕ → K} (h : Like c m0 m) (h2 : Like c m0 m2)
    (hf : ∀ x, x ∈ m0.wells → Fresh x.2) (ha : assemble c vect m s = .ok (m1, s1, A, d)) :
    ∃ ts ts2, m1 = { m with terms := ts } ∧ Like c m0 m1 ∧ Like c m0 { m2 with terms := ts2 } ∧ Fdm.assemble c vect m2 s = .ok ({ m2 with terms := ts2 }, s1, A, d) := by
  cases vect with
  | false =>
    obtain ⟨ts, h1, rfl, rfl⟩ := matricesSeq_ok.1 ha
    have hr := h.rows h2 hf s
    unfold matricesSeq at h1
    rw [ok_bind] at h1
    obtain ⟨⟨ts1, rows⟩, hc1, h1⟩ := h1
    rw [hc1] at hr
    rcases hc2 : cellRows c m2 s with x | ⟨ts2, rows2⟩
    · rw [hc2] at hr
      cases hr
    · rw [hc2] at hr
      obtain ⟨e1, e2, e3⟩ := hr
      dsimp only at e1 e2 e3
      subst e1
      rw [ok_bind] at h1
      obtain ⟨M, hM, h1⟩ := h1
      simp only [ok_pure, Prod.mk.injEq] at h1
      obtain ⟨rfl, rfl, rfl⟩ := h1
      refine ⟨ts1, ts2, rfl, h.setTerms e2, h2.setTerms e3, matricesSeq_ok.2 ⟨ts2, ?_, rfl, rfl⟩⟩
      unfold matricesSeq
      rw [hc2, bind_ok]
      dsimp only
      rw [hM, bind_ok]
      rfl
  | true =>
    unfold Fdm.assemble at ha ⊢
    rw [if_pos rfl] at ha ⊢
    have e1 : matricesVect c.lower c.e m2 s = matricesVect c.lower c.e m s := by
      have hv : vReady c.lower c.e m2 s = vReady c.lower c.e m s := by
        unfold vReady
        have : vBound c.lower c.e m2 = vBound c.lower c.e m := by
          funext acc idb
          unfold vBound
          rw [h2.bd, h.bd]
        rw [this, h2.up, h.up]
      unfold matricesVect
      rw [hv]
      congr 1
      funext x
      obtain ⟨A, bV, res⟩ := x
      dsimp only
      congr 1
      funext d
      rw [h2.bd, h.bd]
      have : ∀ (l0 l l2 : List (ℕ × Well K)) (_ : List.Forall₂ SameW l0 l) (_ : List.Forall₂ SameW l0 l2) (_ : ∀ x, x ∈ l0 → Fresh x.2) acc,
          l2.foldlM (vWell c.e s) acc = l.foldlM (vWell c.e s) acc := by
        intro l0 l l2 ha
        induction ha generalizing l2 with
        | nil => intro hb _ acc; cases hb; rfl
        | @cons x y l0 l hx _ ih =>
          intro hb hf acc
          cases hb with
          | @cons _ z _ l2 hz hb =>
            rw [List.foldlM_cons, List.foldlM_cons, vWell_same c.e s acc hx hz (hf _ (by simp))]
            congr 1
            funext a
            exact ih l2 hb (fun w hw => hf w (by simp [hw])) a
      rw [this _ _ _ h.wells h2.wells hf]
    rw [e1]
    rw [ok_bind] at ha
    obtain ⟨⟨s', A', d'⟩, h1, ha⟩ := ha
    simp only [ok_pure, Prod.mk.injEq] at ha
    obtain ⟨rfl, rfl, rfl, rfl⟩ := ha
    refine ⟨m.terms, m2.terms, rfl, h, h2, ?_⟩
    rw [h1, bind_ok]
    rfl

/-! ### updating the wells -/

lemma updateWell_same {e : Env K} {p : K} {x : ℕ × Well K} (hf : Fresh x.2) {w w' : Well K} {q b : K} {ag : Bool} (h : SameW x (x.1, w))
    (hu : updateWell e p w = .ok (w', q, b, ag)) (hc : w'.con = x.2.con) :
    ag = false ∧ SameW x (x.1, w') ∧ ∀ v, SameW x (x.1, v) → ∃ v', updateWell e p v = .ok (v', q, b, false) ∧ SameW x (x.1, v') := by
  obtain ⟨k, x⟩ := x
  obtain ⟨G, hG⟩ := hf.G
  obtain ⟨sp, hsp⟩ := hf.sp
  dsimp only at *
  by_cases hq : x.con = some .q
  · obtain ⟨q0, hq0, hqs⟩ := hf.q hq
    by_cases hest : p + q0 * e.B * e.mu / G > sp
    · have key : ∀ v, SameW (k, x) (k, v) → updateWell e p v = .ok ({ v with con := some .q, pwf := some (p + q0 * e.B * e.mu / G), q := some q0 }, q0,
          p + q0 * e.B * e.mu / G, false) := by
        intro v hv
        obtain ⟨vq, vqs, vp, vsp, vr, vs, vreq, vG, vc⟩ := v
        obtain rfl : vqs = some q0 := hv.qsp.trans hqs
        obtain rfl : vsp = some sp := hv.sp.trans hsp
        obtain rfl : vG = some G := hv.G.trans hG
        obtain rfl : vq = some q0 := (hv.q hq).trans hq0
        unfold updateWell estimate
        simp only [need, bind_ok, bind_pure', if_pos hest]
        rfl
      rw [key w h] at hu
      simp only [Except.ok.injEq, Prod.mk.injEq] at hu
      obtain ⟨rfl, rfl, rfl, rfl⟩ := hu
      have hsame : ∀ v, SameW (k, x) (k, v) → SameW (k, x) (k, { v with con := some .q, pwf := some (p + q0 * e.B * e.mu / G), q := some q0 }) := fun v hv =>
        ⟨rfl, hq.symm, hv.G, hv.qsp, hv.sp, fun _ => hq0.symm, fun h => by rw [hq] at h; cases h⟩
      exact ⟨rfl, hsame w h, fun v hv => ⟨_, key v hv, hsame v hv⟩⟩
    · exfalso
      unfold updateWell estimate at hu
      rw [show w.qsp = some q0 from h.qsp.trans hqs, show w.pwfsp = some sp from h.sp.trans hsp, show w.G = some G from h.G.trans hG] at hu
      simp only [need, bind_ok, bind_pure', if_neg hest] at hu
      rw [ok_bind] at hu
      obtain ⟨ag', -, hu⟩ := hu
      rw [ok_bind] at hu
      obtain ⟨t, -, hu⟩ := hu
      simp only [ok_pure, Prod.mk.injEq] at hu
      obtain ⟨rfl, -⟩ := hu
      rw [hq] at hc
      cases hc
  · obtain ⟨hcp, hqs, hlim⟩ := hf.pwf hq
    have key : ∀ v, SameW (k, x) (k, v) → updateWell e p v = .ok ({ v with con := some .pwf, pwf := some sp, q := some (-G / (e.B * e.mu) * (p - sp)) },
        -G / (e.B * e.mu) * (p - sp), sp, false) := by
      intro v hv
      obtain ⟨vq, vqs, vp, vsp, vr, vs, vreq, vG, vc⟩ := v
      obtain rfl : vqs = none := hv.qsp.trans hqs
      obtain rfl : vsp = some sp := hv.sp.trans hsp
      obtain rfl : vG = some G := hv.G.trans hG
      obtain rfl : vp = some sp := (hv.pwf hcp).trans (hlim.trans hsp)
      unfold updateWell estimate
      simp only [need, bind_ok, gt_iff_lt, lt_irrefl, if_false, wantsAgain]
      rcases vq with _ | vq <;> rfl
    rw [key w h] at hu
    simp only [Except.ok.injEq, Prod.mk.injEq] at hu
    obtain ⟨rfl, rfl, rfl, rfl⟩ := hu
    have hsame : ∀ v, SameW (k, x) (k, v) → SameW (k, x) (k, { v with con := some .pwf, pwf := some sp, q := some (-G / (e.B * e.mu) * (p - sp)) }) := fun v hv =>
      ⟨rfl, hcp.symm, hv.G, hv.qsp, hv.sp, fun h => absurd h hq, fun _ => (hlim.trans hsp).symm⟩
    exact ⟨rfl, hsame w h, fun v hv => ⟨_, key v hv, hsame v hv⟩⟩

lemma updateWells_same {e : Env K} {p : ℕ → Option K} {l0 l l2 ws : List (ℕ × Well K)} {r r' : ℕ → K} {ps : List (ℕ × K)} {ag : Bool} (hf : ∀ x, x ∈ l0 → Fresh x.2)
    (h : List.Forall₂ SameW l0 l) (h2 : List.Forall₂ SameW l0 l2) (hu : updateWells e p l r = .ok (ws, r', ps, ag))
    (hc : ws.map (fun x => (x.1, x.2.con)) = l0.map fun x => (x.1, x.2.con)) :
    ag = false ∧ List.Forall₂ SameW l0 ws ∧ ∃ ws2, updateWells e p l2 r = .ok (ws2, r', ps, false) ∧ List.Forall₂ SameW l0 ws2 := by
  induction h generalizing l2 ws r r' ps ag with
  | nil =>
    cases h2
    simp only [updateWells, Except.ok.injEq, Prod.mk.injEq] at hu
    obtain ⟨rfl, rfl, rfl, rfl⟩ := hu
    exact ⟨rfl, .nil, [], rfl, .nil⟩
  | @cons x y l0 l hx _ ih =>
    cases h2 with
    | @cons _ z _ l2 hz h2 =>
      obtain ⟨k, w⟩ := y
      obtain ⟨k2, v⟩ := z
      obtain rfl : k = x.1 := hx.key
      obtain rfl : k2 = x.1 := hz.key
      unfold updateWells at hu
      rw [ok_bind] at hu
      obtain ⟨⟨w', q, b, ag1⟩, hu1, hu⟩ := hu
      dsimp only at hu
      have hhead : w'.con = x.2.con := by
        split_ifs at hu
        · simp only [ok_pure, Prod.mk.injEq] at hu
          obtain ⟨rfl, -⟩ := hu
          rw [List.map_cons, List.map_cons] at hc
          exact (Prod.mk.inj (List.cons.inj hc).1).2
        · rw [ok_bind] at hu
          obtain ⟨⟨t, r2, ps2, ag2⟩, -, hu⟩ := hu
          simp only [ok_pure, Prod.mk.injEq] at hu
          obtain ⟨rfl, -⟩ := hu
          rw [List.map_cons, List.map_cons] at hc
          exact (Prod.mk.inj (List.cons.inj hc).1).2
      obtain ⟨rfl, hw', hv⟩ := updateWell_same (hf _ (by simp)) hx hu1 hhead
      simp only [Bool.false_eq_true, if_false] at hu
      rw [ok_bind] at hu
      obtain ⟨⟨t, r2, ps2, ag2⟩, hu2, hu⟩ := hu
      simp only [ok_pure, Prod.mk.injEq] at hu
      obtain ⟨rfl, rfl, rfl, rfl⟩ := hu
      obtain ⟨i1, i2, ws2, i3, i4⟩ := ih (fun y hy => hf y (by simp [hy])) h2 hu2 (by
        rw [List.map_cons, List.map_cons] at hc
        exact (List.cons.inj hc).2)
      obtain ⟨v', hv1, hv2⟩ := hv v hz
      refine ⟨i1, .cons hw' i2, (x.1, v') :: ws2, ?_, .cons hv2 i4⟩
      unfold updateWells
      rw [hv1, bind_ok]
      simp only [Bool.false_eq_true, if_false]
      rw [i3, bind_ok]
      rfl

/-! ### attempts and steps -/

lemma Like.cons {c : Ctx K} {m0 m : Mdl K} (h : Like c m0 m) : m.wells.map (fun x => (x.1, x.2.con)) = m0.wells.map fun x => (x.1, x.2.con) := by
  have key : ∀ {l l' : List (ℕ × Well K)}, List.Forall₂ SameW l l' → l'.map (fun x => (x.1, x.2.con)) = l.map fun x => (x.1, x.2.con) := by
    intro l l' h
    induction h with
    | nil => rfl
    | cons hx _ ih => rw [List.map_cons, List.map_cons, ih, hx.key, hx.con]
  exact key h.wells

lemma Like.attempt {c : Ctx K} {vect ag : Bool} {m0 m m2 m' : Mdl K} {s s' : Sol K} (hf : ∀ x, x ∈ m0.wells → Fresh x.2) (h : Like c m0 m) (h2 : Like c m0 m2)
    (ha : attempt c vect m s = .ok (m', s', ag)) (hk : Keeps vect m m') :
    ag = false ∧ Like c m0 m' ∧ ∃ m2', Fdm.attempt c vect m2 s = .ok (m2', s', false) ∧ Like c m0 m2' := by
  obtain ⟨m1, s1, A, d, x, r, ws, r', ps, h3, h4, h5, h6, rfl, rfl⟩ := attempt_parts ha
  obtain ⟨ts, ts2, rfl, l1, l2, h7⟩ := h.assemble h2 hf h3
  have hc : ws.map (fun x => (x.1, x.2.con)) = m0.wells.map fun x => (x.1, x.2.con) := (show _ = m.wells.map fun x => (x.1, x.2.con) from hk).trans h.cons
  obtain ⟨rfl, i2, ws2, i3, i4⟩ := updateWells_same hf h.wells h2.wells h6 hc
  refine ⟨rfl, ⟨h.bd, h.up, h.ip, h.ir, i2, l1.terms⟩, _, attempt_of h7 h4 ?_ i3, ⟨h2.bd, h2.up, h2.ip, h2.ir, i4, l2.terms⟩⟩
  rw [← h5]
  unfold updateBounds
  show m2.bUpdate.foldlM _ _ = m.bUpdate.foldlM _ _
  rw [h2.up, h.up]
  dsimp only
  rw [h2.bd, h.bd]

lemma Like.solve {c : Ctx K} {fuel : ℕ} {vect : Bool} {m0 m m2 m' : Mdl K} {s s' : Sol K} (hf : ∀ x, x ∈ m0.wells → Fresh x.2) (h : Like c m0 m) (h2 : Like c m0 m2)
    (ha : solve c fuel vect true m s = .ok (m', s')) (hk : SolveAll c Keeps fuel vect m s) :
    Like c m0 m' ∧ ∃ m2', Fdm.solve c fuel vect true m2 s = .ok (m2', s') ∧ Like c m0 m2' := by
  cases fuel with
  | zero => cases ha
  | succ fuel =>
    unfold Fdm.solve at ha ⊢
    rw [if_pos rfl] at ha ⊢
    rw [ok_bind] at ha
    obtain ⟨⟨m1, s1, ag⟩, h1, ha⟩ := ha
    obtain ⟨rfl, l1, m2', h3, l2⟩ := h.attempt hf h2 h1 (hk m1 s1 ag h1).1
    simp only [Bool.false_eq_true, if_false, ok_pure, Prod.mk.injEq] at ha
    obtain ⟨rfl, rfl⟩ := ha
    refine ⟨l1, m2', ?_, l2⟩
    rw [h3, bind_ok]
    rfl

/-! ### wells before a simulation -/

lemma mergeArgs_target {w : Well K} (h1 : w.q = w.qsp) (h : w.con = some .pwf → w.qsp = none) (a : WellArgs K) :
    (mergeArgs w a).con = some .pwf → (mergeArgs w a).qsp = none := by
  unfold mergeArgs
  rcases a with ⟨q, p, r, s⟩
  cases q <;> cases p <;> cases r <;> cases s <;> simp_all
  all_goals
    intro hh
    rcases hq : w.qsp with _ | q
    · rfl
    · rw [hq] at hh; simp only [Option.isSome_some] at hh; exact absurd (h (hh trivial)) (by rw [hq]; simp)

lemma Setup.target {lower : String → String} {e : Env K} {m : Mdl K} (h : Setup lower e m) : ∀ x, x ∈ m.wells → x.2.con = some .pwf → x.2.qsp = none := by
  induction h with
  | init pi => simp [Mdl.init]
  | bounds _ hb hs ih =>
    obtain ⟨-, -, -, a3, -⟩ := setBoundaries_ok hb hs
    rw [a3]; exact ih
  | @well m m' id a hs0 hs ih =>
    obtain ⟨k, req, r, G, w', wp, rfl, hk, -, -, -, rfl, hw'⟩ := setWell_ok hs
    intro x hx
    rcases (dictSet_keys m.wells k w' hs0.inv.wkeys).2 x hx with rfl | ⟨hx, -⟩
    · subst hw'
      dsimp only
      rcases hg : dictGet m.wells k with _ | w
      · exact mergeArgs_target rfl (by simp) a
      · exact mergeArgs_target (hs0.inv.well _ (mem_of_dictGet hg)).1.q (ih _ (mem_of_dictGet hg)) a
    · exact ih x hx

lemma Setup.fresh {lower : String → String} {e : Env K} {m : Mdl K} (h : Setup lower e m) (hc : Configured m) : ∀ x, x ∈ m.wells → Fresh x.2 := by
  intro x hx
  obtain ⟨hw, ⟨G, hg⟩, ⟨p, hp⟩⟩ := h.inv.well x hx
  refine ⟨⟨G, hg⟩, ⟨p, hw.pwf.symm.trans hp⟩, fun hq => ?_, fun hq => ?_⟩
  · obtain ⟨q, hq1⟩ := hw.con hq
    exact ⟨q, hq1, hw.q.symm.trans hq1⟩
  · have : x.2.con = some .pwf := by
      have := hc x hx
      rcases hcon : x.2.con with _ | _ | _
      · exact absurd hcon this
      · exact absurd hcon hq
      · rfl
    exact ⟨this, h.target x hx this, hw.pwf⟩

lemma SameW.refl (x : ℕ × Well K) : SameW x x := ⟨rfl, rfl, rfl, rfl, rfl, fun _ => rfl, fun _ => rfl⟩

lemma Like.start {c : Ctx K} {m0 : Mdl K} (h : m0.terms = []) : Like c m0 m0 :=
  ⟨rfl, rfl, rfl, rfl, List.forall₂_same.2 fun x _ => SameW.refl x, fun id t ht => by rw [h] at ht; cases ht⟩

lemma Like.init {c : Ctx K} {m0 m m2 : Mdl K} (h : Like c m0 m) (h2 : Like c m0 m2) : (Sol.init m : Sol K) = Sol.init m2 := by
  unfold Sol.init
  rw [h.ip, h.ir, h2.ip, h2.ir]

/-! ### the solutions do not disturb each other -/

lemma multi_alone {c : Ctx K} {fuel : ℕ} {m0 : Mdl K} (hf : ∀ x, x ∈ m0.wells → Fresh x.2) (ops : List Call) {m : Mdl K} {S : ℕ → Sol K} {M M' : ℕ → Mdl K} {T T' : ℕ → ℕ → Sol K}
    (hm : Like c m0 m) (hM : ∀ k, Like c m0 (M k)) (hT : ∀ k, T k k = S k) (h : ∀ k, multi c fuel (callsOn k ops) (M k) (T k) = .ok (M' k, T' k))
    (hk : ∀ k, MultiAll c Keeps fuel (callsOn k ops) (M k) (T k)) : ∃ m' S', multi c fuel ops m S = .ok (m', S') ∧ ∀ k, S' k = T' k k := by
  induction ops generalizing m S M T with
  | nil =>
    refine ⟨m, S, rfl, fun k => ?_⟩
    have := Except.ok.inj (h k)
    rw [← hT k, (Prod.mk.inj this).2]
  | cons x ops ih =>
    have hother : ∀ k, x.on ≠ k → callsOn k (x :: ops) = callsOn k ops := fun k hx => by
      unfold callsOn
      rw [List.filter_cons, if_neg (by simpa using hx)]
    have hself : callsOn x.on (x :: ops) = x :: callsOn x.on ops := by
      unfold callsOn
      rw [List.filter_cons, if_pos (by simp)]
    cases x with
    | compile j =>
      have hj := h j
      have hkj := hk j
      rw [show callsOn j (.compile j :: ops) = .compile j :: callsOn j ops from hself] at hj hkj
      unfold multi at hj
      unfold MultiAll at hkj
      unfold multi
      refine ih (M := M) (T := fun k => if j = k then Function.update (T k) j (Sol.init (M j)) else T k) hm hM ?_ ?_ ?_
      · intro k
        by_cases hjk : j = k
        · subst hjk
          rw [if_pos rfl, Function.update_self, Function.update_self]
          exact (hM j).init hm
        · rw [if_neg hjk, Function.update_of_ne (fun h => hjk h.symm)]
          exact hT k
      · intro k
        by_cases hjk : j = k
        · subst hjk; rw [if_pos rfl]; exact hj
        · rw [if_neg hjk, ← hother k hjk]; exact h k
      · intro k
        by_cases hjk : j = k
        · subst hjk; rw [if_pos rfl]; exact hkj
        · rw [if_neg hjk, ← hother k hjk]; exact hk k
    | solve j v =>
      have hj := h j
      have hkj := hk j
      rw [show callsOn j (.solve j v :: ops) = .solve j v :: callsOn j ops from hself] at hj hkj
      unfold multi at hj
      rw [ok_bind] at hj
      obtain ⟨⟨mj, sj⟩, hj1, hj2⟩ := hj
      unfold MultiAll at hkj
      obtain ⟨l1, m2, l2, l3⟩ := (hM j).solve hf hm hj1 hkj.1
      unfold multi
      rw [← hT j, l2, bind_ok]
      dsimp only
      refine ih (M := fun k => if j = k then mj else M k) (T := fun k => if j = k then Function.update (T k) j sj else T k) l3 ?_ ?_ ?_ ?_
      · intro k
        by_cases hjk : j = k
        · rw [if_pos hjk]; exact l1
        · rw [if_neg hjk]; exact hM k
      · intro k
        by_cases hjk : j = k
        · subst hjk
          rw [if_pos rfl, Function.update_self, Function.update_self]
        · rw [if_neg hjk, Function.update_of_ne (fun h => hjk h.symm)]
          exact hT k
      · intro k
        by_cases hjk : j = k
        · subst hjk; rw [if_pos rfl, if_pos rfl]; exact hj2
        · rw [if_neg hjk, if_neg hjk, ← hother k hjk]; exact h k
      · intro k
        by_cases hjk : j = k
        · subst hjk; rw [if_pos rfl, if_pos rfl]; exact hkj.2 mj sj hj1
        · rw [if_neg hjk, if_neg hjk, ← hother k hjk]; exact hk k

/-- C50, what is true: take any number of solutions of a model and any sequence of `compile` and `solve` calls on them, with
either assembler. If each solution by itself, on a model of its own, goes through its calls without a well changing its
constraint, then on the common model all calls succeed and every solution ends in exactly the state it has by itself. -/
theorem C50_independent_partial {c : Ctx K} {m0 : Mdl K} (hs : Setup c.lower c.e m0) (hcfg : Configured m0) {fuel : ℕ} (ops : List Call)
    (hsolo : ∀ k, (∃ mk Sk, multi c fuel (callsOn k ops) m0 (fun _ => Sol.init m0) = .ok (mk, Sk)) ∧ MultiAll c Keeps fuel (callsOn k ops) m0 fun _ => Sol.init m0) :
    ∃ m' S', multi c fuel ops m0 (fun _ => Sol.init m0) = .ok (m', S') ∧
      ∀ k mk Sk, multi c fuel (callsOn k ops) m0 (fun _ => Sol.init m0) = .ok (mk, Sk) → S' k = Sk k := by
  choose h1 h2 using hsolo
  choose M' T' hT using h1
  have hl : Like c m0 m0 := .start hs.inv.terms
  obtain ⟨m', S', h3, h4⟩ := multi_alone (hs.fresh hcfg) ops (M := fun _ => m0) (T := fun _ _ => Sol.init m0) (S := fun _ => Sol.init m0) hl (fun _ => hl) (fun _ => rfl) hT h2
  refine ⟨m', S', h3, fun k mk Sk hk => ?_⟩
  have := Except.ok.inj ((hT k).symm.trans hk)
  rw [h4 k, (Prod.mk.inj this).2]

lemma attempt_nil {c : Ctx K} {vect ag : Bool} {m m' : Mdl K} {s s' : Sol K} (hw : m.wells = []) (h : attempt c vect m s = .ok (m', s', ag)) : m'.wells = [] ∧ ag = false := by
  obtain ⟨m1, s1, A, d, x, r, ws, r', ps, h3, h4, h5, h6, rfl, rfl⟩ := attempt_parts h
  obtain ⟨⟨ts, rfl⟩, -⟩ := assemble_frame h3
  dsimp only at h6
  rw [hw] at h6
  simp only [updateWells, Except.ok.injEq, Prod.mk.injEq] at h6
  exact ⟨h6.1.symm, h6.2.2.2.symm⟩

lemma solveAll_nil {c : Ctx K} {vect : Bool} (fuel : ℕ) {m : Mdl K} {s : Sol K} (hw : m.wells = []) : SolveAll c Keeps fuel vect m s := by
  cases fuel with
  | zero => trivial
  | succ fuel =>
    intro m' s' ag h
    obtain ⟨h1, h2⟩ := attempt_nil hw h
    refine ⟨?_, fun h => by rw [h2] at h; cases h⟩
    unfold Keeps
    rw [h1, hw]

lemma solve_nil {c : Ctx K} {vect : Bool} {fuel : ℕ} {m m' : Mdl K} {s s' : Sol K} (hw : m.wells = []) (h : solve c fuel vect true m s = .ok (m', s')) : m'.wells = [] := by
  cases fuel with
  | zero => cases h
  | succ fuel =>
    unfold solve at h
    rw [if_pos rfl, ok_bind] at h
    obtain ⟨⟨m1, s1, ag⟩, h1, h⟩ := h
    obtain ⟨h2, rfl⟩ := attempt_nil hw h1
    simp only [Bool.false_eq_true, if_false, ok_pure, Prod.mk.injEq] at h
    obtain ⟨rfl, rfl⟩ := h
    exact h2

lemma multiAll_nil {c : Ctx K} {fuel : ℕ} (ops : List Call) {m : Mdl K} {S : ℕ → Sol K} (hw : m.wells = []) : MultiAll c Keeps fuel ops m S := by
  induction ops generalizing m S with
  | nil => trivial
  | cons x ops ih =>
    cases x with
    | compile j => exact ih hw
    | solve j v => exact ⟨solveAll_nil fuel hw, fun m' s' h => ih (solve_nil hw h)⟩

/-- In particular, without wells the solutions never disturb each other. -/
theorem C50_no_wells {c : Ctx K} {m0 : Mdl K} (hs : Setup c.lower c.e m0) (hw : m0.wells = []) {fuel : ℕ} (ops : List Call)
    (hsolo : ∀ k, ∃ mk Sk, multi c fuel (callsOn k ops) m0 (fun _ => Sol.init m0) = .ok (mk, Sk)) :
    ∃ m' S', multi c fuel ops m0 (fun _ => Sol.init m0) = .ok (m', S') ∧
      ∀ k mk Sk, multi c fuel (callsOn k ops) m0 (fun _ => Sol.init m0) = .ok (mk, Sk) → S' k = Sk k :=
  C50_independent_partial hs (fun x hx => by rw [hw] at hx; cases hx) ops fun k => ⟨hsolo k, multiAll_nil _ hw⟩

/-! ### the common record of bottom-hole pressures -/

lemma updateWells_record {e : Env K} {p : ℕ → Option K} {l ws : List (ℕ × Well K)} {r r' : ℕ → K} {ps : List (ℕ × K)} (h : updateWells e p l r = .ok (ws, r', ps, false)) :
    ps.map (·.1) = l.map (·.1) := by
  induction l generalizing r ws r' ps with
  | nil =>
    simp only [updateWells, Except.ok.injEq, Prod.mk.injEq] at h
    obtain ⟨-, -, rfl, -⟩ := h
    rfl
  | cons x l ih =>
    obtain ⟨k, w⟩ := x
    unfold updateWells at h
    rw [ok_bind] at h
    obtain ⟨⟨w1, q1, b1, ag1⟩, h1, h⟩ := h
    dsimp only at h
    split_ifs at h with ha
    · simp only [ok_pure, Prod.mk.injEq] at h
      simp at h
    · rw [ok_bind] at h
      obtain ⟨⟨t2, r2, ps2, ag2⟩, h2, h⟩ := h
      simp only [ok_pure, Prod.mk.injEq] at h
      obtain ⟨-, -, rfl, rfl⟩ := h
      rw [List.map_cons, List.map_cons, ih h2]

/-- How many bottom-hole pressures are recorded for a cell. -/
def recorded (m : Mdl K) (id : ℕ) : ℕ := ((dictGet m.wPress id).getD []).length

lemma append_record (ps : List (ℕ × K)) (wp : List (ℕ × List (Option K))) (id : ℕ) :
    ((dictGet (ps.foldl (fun wp x => appendAt wp x.1 (some x.2)) wp) id).getD []).length = ((dictGet wp id).getD []).length + (ps.map (·.1)).count id := by
  induction ps generalizing wp with
  | nil => rfl
  | cons x ps ih =>
    rw [List.foldl_cons, ih, List.map_cons]
    unfold appendAt
    rw [dictGet_set]
    by_cases he : id = x.1
    · subst he
      rw [if_pos rfl, Option.getD_some, List.length_append, List.count_cons_self]
      simp only [List.length_singleton]
      omega
    · rw [if_neg fun h => he h.symm, List.count_cons_of_ne (fun h => he h.symm)]

lemma attempt_record {c : Ctx K} {vect ag : Bool} {m m' : Mdl K} {s s' : Sol K} (hk : (m.wells.map (·.1)).Nodup) (h : attempt c vect m s = .ok (m', s', ag)) :
    m'.wells.map (·.1) = m.wells.map (·.1) ∧ ∀ id, id ∈ m.wells.map (·.1) → recorded m' id = recorded m id + if ag then 0 else 1 := by
  obtain ⟨m1, s1, A, d, x, r, ws, r', ps, h3, h4, h5, h6, rfl, rfl⟩ := attempt_parts h
  obtain ⟨⟨ts, rfl⟩, -⟩ := assemble_frame h3
  refine ⟨(updateWells_other h6).1, fun id hid => ?_⟩
  cases ag with
  | true => rfl
  | false =>
    show ((dictGet (ps.foldl (fun wp x => appendAt wp x.1 (some x.2)) m.wPress) id).getD []).length = recorded m id + 1
    rw [append_record, updateWells_record h6, List.count_eq_one_of_mem hk hid]
    rfl

lemma solve_record {c : Ctx K} {fuel : ℕ} {vect : Bool} {m m' : Mdl K} {s s' : Sol K} (hk : (m.wells.map (·.1)).Nodup) (h : solve c fuel vect true m s = .ok (m', s')) :
    m'.wells.map (·.1) = m.wells.map (·.1) ∧ ∀ id, id ∈ m.wells.map (·.1) → recorded m' id = recorded m id + 1 := by
  induction fuel generalizing m s with
  | zero => cases h
  | succ fuel ih =>
    unfold solve at h
    rw [if_pos rfl, ok_bind] at h
    obtain ⟨⟨m1, s1, ag⟩, h1, h⟩ := h
    obtain ⟨e1, e2⟩ := attempt_record hk h1
    cases ag with
    | true =>
      obtain ⟨i1, i2⟩ := ih (m := m1) (by rw [e1]; exact hk) h
      exact ⟨i1.trans e1, fun id hid => by rw [i2 id (by rw [e1]; exact hid), e2 id hid]; rfl⟩
    | false =>
      simp only [Bool.false_eq_true, if_false, ok_pure, Prod.mk.injEq] at h
      obtain ⟨rfl, rfl⟩ := h
      exact ⟨e1, e2⟩

/-- Whether a call makes a time step. -/
def Call.steps : Call → Bool
  | .compile _ => false
  | .solve _ _ => true

/-- C50 fails for bottom-hole pressures, whatever the wells do: the record of a well gets one entry for every step of every
solution. -/
theorem C50_shared_record {c : Ctx K} {m0 m' : Mdl K} (hs : Setup c.lower c.e m0) {fuel : ℕ} {ops : List Call} {S S' : ℕ → Sol K}
    (h : multi c fuel ops m0 S = .ok (m', S')) {id : ℕ} (hid : id ∈ m0.wells.map (·.1)) : recorded m' id = recorded m0 id + ops.countP Call.steps := by
  have key : ∀ (ops : List Call) (m : Mdl K) (S : ℕ → Sol K), (m.wells.map (·.1)).Nodup → id ∈ m.wells.map (·.1) → multi c fuel ops m S = .ok (m', S') →
      recorded m' id = recorded m id + ops.countP Call.steps := by
    intro ops
    induction ops with
    | nil =>
      intro m S _ _ h
      obtain ⟨rfl, -⟩ := Prod.mk.inj (Except.ok.inj h)
      rfl
    | cons x ops ih =>
      intro m S hn hid h
      cases x with
      | compile j => exact ih m _ hn hid h
      | solve j v =>
        unfold multi at h
        rw [ok_bind] at h
        obtain ⟨⟨m1, s1⟩, h1, h⟩ := h
        obtain ⟨e1, e2⟩ := solve_record hn h1
        rw [ih m1 _ (by rw [e1]; exact hn) (by rw [e1]; exact hid) h, e2 id hid, List.countP_cons]
        simp only [Call.steps, if_true]
        omega
  exact key ops m0 S hs.inv.wkeys hid h

/-! ### examples -/

/-- `SolveAll c Keeps`, computed. -/
def solveKeepsB (c : Ctx ℚ) : ℕ → Bool → Mdl ℚ → Sol ℚ → Bool
  | 0, _, _, _ => true
  | fuel + 1, vect, m, s => match attempt c vect m s with
    | .error _ => true
    | .ok (m', s', again) => decide (m'.wells.map (fun x => (x.1, x.2.con)) = m.wells.map fun x => (x.1, x.2.con)) && (!again || solveKeepsB c fuel vect m' s'.back)

lemma solveKeepsB_all {c : Ctx ℚ} {fuel : ℕ} {vect : Bool} {m : Mdl ℚ} {s : Sol ℚ} (h : solveKeepsB c fuel vect m s = true) : SolveAll c Keeps fuel vect m s := by
  induction fuel generalizing m s with
  | zero => trivial
  | succ n ih =>
    intro m' s' again ha
    unfold solveKeepsB at h
    rw [ha] at h
    simp only [Bool.and_eq_true, Bool.or_eq_true, Bool.not_eq_true', decide_eq_true_eq] at h
    refine ⟨h.1, fun hag => ih ?_⟩
    rcases h.2 with h' | h'
    · rw [hag] at h'; simp at h'
    · exact h'

/-- `MultiAll c Keeps` and success, computed. -/
def multiKeepsB (c : Ctx ℚ) (fuel : ℕ) : List Call → Mdl ℚ → (ℕ → Sol ℚ) → Bool
  | [], _, _ => true
  | .compile k :: l, m, S => multiKeepsB c fuel l m (Function.update S k (Sol.init m))
  | .solve k vect :: l, m, S => solveKeepsB c fuel vect m (S k) && match solve c fuel vect true m (S k) with
    | .error _ => false
    | .ok (m', s') => multiKeepsB c fuel l m' (Function.update S k s')

lemma multiKeepsB_all {c : Ctx ℚ} {fuel : ℕ} (l : List Call) {m : Mdl ℚ} {S : ℕ → Sol ℚ} (h : multiKeepsB c fuel l m S = true) :
    (∃ m' S', multi c fuel l m S = .ok (m', S')) ∧ MultiAll c Keeps fuel l m S := by
  induction l generalizing m S with
  | nil => exact ⟨⟨m, S, rfl⟩, trivial⟩
  | cons x l ih =>
    cases x with
    | compile k => exact ih h
    | solve k vect =>
      unfold multiKeepsB at h
      rw [Bool.and_eq_true] at h
      obtain ⟨h1, h2⟩ := h
      rcases hs : solve c fuel vect true m (S k) with x | ⟨m', s'⟩
      · rw [hs] at h2; cases h2
      · rw [hs] at h2
        obtain ⟨⟨m2, S2, i1⟩, i2⟩ := ih h2
        refine ⟨⟨m2, S2, ?_⟩, solveKeepsB_all h1, fun m'' s'' h => ?_⟩
        · unfold multi
          rw [hs, bind_ok]
          exact i1
        · rw [hs] at h
          obtain ⟨rfl, rfl⟩ := Prod.mk.inj (Except.ok.inj h)
          exact i2

/-- A producer with a rate it can keep. -/
def exQ : Mdl ℚ := exMdl true 0 [] (some 8) [(0, "pressure", 10), (3, "rate", 1)] [(2, { q := some (-2), pwf := some 1, r := some 1 })]

/-- Two solutions in turns, both assemblers, the second one compiled again in between. -/
def exCalls : List Call := [.solve 0 true, .solve 1 false, .solve 0 true, .solve 1 false, .compile 1, .solve 1 true, .solve 0 false]

/-- The hypotheses of `C50_independent_partial` are met. -/
example : Setup (exC true 0 []).lower (exC true 0 []).e exQ ∧ Configured exQ ∧ exQ.wells ≠ [] ∧
    ∀ k, (∃ mk Sk, multi (exC true 0 []) 10 (callsOn k exCalls) exQ (fun _ => Sol.init exQ) = .ok (mk, Sk)) ∧
      MultiAll (exC true 0 []) Keeps 10 (callsOn k exCalls) exQ fun _ => Sol.init exQ := by
  have hr : Ready (exC true 0 []) exQ := exMdl_ready (by decide +kernel)
  refine ⟨hr.setup, hr.cfg, by decide +kernel, fun k => multiKeepsB_all _ ?_⟩
  rcases k with _ | _ | k
  · decide +kernel
  · decide +kernel
  · have : callsOn (k + 2) exCalls = [] := rfl
    rw [this]; rfl

lemma exDuo1 : isOk (multi (exC true 0 []) 10 [.solve 0 true, .solve 0 true, .solve 0 true, .solve 1 true] exA fun _ => Sol.init exA) = true := by decide +kernel

lemma exDuo2 : isOk (multi (exC true 0 []) 10 (callsOn 1 [.solve 0 true, .solve 0 true, .solve 0 true, .solve 1 true]) exA fun _ => Sol.init exA) = true := by decide +kernel

/-- C50 fails: after three steps of one solution, in which a well has come down to its limit, the first step of another solution
of the same model has other pressures than by itself. -/
theorem C50_changed : ∃ (c : Ctx ℚ) (m0 : Mdl ℚ) (fuel : ℕ) (ops : List Call), Ready c m0 ∧ Exact c.lin ∧
    ∃ m' S' m1 S1, multi c fuel ops m0 (fun _ => Sol.init m0) = .ok (m', S') ∧ multi c fuel (callsOn 1 ops) m0 (fun _ => Sol.init m0) = .ok (m1, S1) ∧
      (S' 1).tstep = 1 ∧ (S1 1).tstep = 1 ∧ rowAt (S' 1).press 1 none 2 = some (72 / 11) ∧ rowAt (S1 1).press 1 none 2 = some (48 / 7) := by
  refine ⟨exC true 0 [], exA, 10, [.solve 0 true, .solve 0 true, .solve 0 true, .solve 1 true], exA_ready, cramer_exact, _, _, _, _, getOk_eq _ exDuo1, getOk_eq _ exDuo2, ?_⟩
  decide +kernel

end RF.Fdm
