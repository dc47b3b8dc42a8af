import Verif.Fdm.PropsStable
/-!
# C71: superposition

As long as no well changes its constraint, pressures depend linearly on the data of the model: initial pressures, boundary values, rates and bottom-hole pressures of wells.
-/
set_option linter.unusedSectionVars false
namespace RF.Fdm
open RF RF.Dims Finset

variable {K : Type} [Field K] [LinearOrder K] [IsStrictOrderedRing K] {ι : Type}

/-! ### Specification -/

/-- The value of the condition on boundary cell `b`. -/
def bValue (m : Mdl K) (b : ℕ) : K := ((dictGet m.bdict b).map (·.2)).getD 0

/-- The target rate of the well in cell `id`. -/
def wRate (m : Mdl K) (id : ℕ) : K := ((dictGet m.wells id).bind (·.qsp)).getD 0

/-- The bottom-hole pressure given for the well in cell `id`. -/
def wPwf (m : Mdl K) (id : ℕ) : K := ((dictGet m.wells id).bind (·.pwfsp)).getD 0

/-- Model `m` has the same kinds of conditions on the same boundary cells and the same wells under the same constraints as the models `M i`, and its values are those of the
`M i` combined with weights `a i`: boundary values, rates of wells controlled by rate, pressures of wells controlled by pressure. -/
structure Combined (S : Finset ι) (a : ι → K) (M : ι → Mdl K) (m : Mdl K) : Prop where
  shape : ∀ i, i ∈ S → Shape m (M i)
  bval : ∀ b, b ∈ m.bdict → b.2.2 = ∑ i ∈ S, a i * bValue (M i) b.1
  rate : ∀ w, w ∈ m.wells → w.2.con = some .q → wRate m w.1 = ∑ i ∈ S, a i * wRate (M i) w.1
  pwf : ∀ w, w ∈ m.wells → w.2.con = some .pwf → wPwf m w.1 = ∑ i ∈ S, a i * wPwf (M i) w.1

/-- All pressures of cells stored in `s` are those stored in the `t i` combined with weights `a i` (from step 1 on if the fluid is incompressible). -/
def Superposed (S : Finset ι) (a : ι → K) (c : Ctx K) (t : ι → Sol K) (s : Sol K) : Prop :=
  (∀ i, i ∈ S → (t i).tstep = s.tstep) ∧ ∀ k, k ≤ s.tstep → (c.e.comp = true ∨ 0 < k) → ∀ id, id ∈ c.e.ids →
    ∃ (p : K) (q : ι → K), rowAt s.press k none id = some p ∧ (∀ i, i ∈ S → rowAt (t i).press k none id = some (q i)) ∧ p = ∑ i ∈ S, a i * q i

/-- No well changes its constraint, and the vectorised assembler is not used with a well held at bottom-hole pressure zero. -/
def Steady : Bool → Mdl K → Mdl K → Prop := fun vect m m' =>
  m'.wells.map (fun x => (x.1, x.2.con)) = m.wells.map (fun x => (x.1, x.2.con)) ∧ (vect = true → NoZeroPwf m)

/-! ### constraints are kept -/

lemma cons_forall2 {l l' : List (ℕ × Well K)} (h : l'.map (fun x => (x.1, x.2.con)) = l.map fun x => (x.1, x.2.con)) :
    List.Forall₂ (fun w w' => w'.1 = w.1 ∧ w'.2.con = w.2.con) l l' := by
  induction l generalizing l' with
  | nil => rcases l' with _ | ⟨b, l'⟩
           · exact .nil
           · simp at h
  | cons a l ih => rcases l' with _ | ⟨b, l'⟩
                   · simp at h
                   · simp only [List.map_cons, List.cons.injEq, Prod.mk.injEq] at h
                     exact .cons h.1 (ih h.2)

lemma same_at {α : Type} {f : α → ℕ} {l l' : List α} {R : α → α → Prop} (hk : (l.map f).Nodup) (h : List.Forall₂ R l l') (hR : ∀ x y, R x y → f y = f x) {x y : α} (hx : x ∈ l) (hy : y ∈ l')
    (e : f x = f y) : R x y := by
  induction h with
  | nil => simp at hx
  | @cons a b l1 l2 h1 h2 ih =>
    rw [List.map_cons, List.nodup_cons] at hk
    rcases List.mem_cons.1 hx with rfl | hx'
    · rcases List.mem_cons.1 hy with rfl | hy'
      · exact h1
      · obtain ⟨x', hx', h3⟩ := (forall2_mem h2).1 y hy'
        exact absurd (List.mem_map.2 ⟨x', hx', by rw [← hR _ _ h3, e]⟩) hk.1
    · rcases List.mem_cons.1 hy with rfl | hy'
      · exact absurd (List.mem_map.2 ⟨x, hx', by rw [e, hR _ _ h1]⟩) hk.1
      · exact ih hk.2 hx' hy'

lemma Steady.calm {e : Env K} {vect : Bool} {m m' : Mdl K} (hm : MdlOK e m) (h : Steady vect m m') : Calm vect m m' :=
  ⟨fun x y hx hy he hc => by
    have := same_at (f := (·.1)) hm.wkeys (cons_forall2 h.1) (fun _ _ h => h.1) hx hy he
    rw [this.2]; exact hc, h.2⟩

/-- The calls of a steady history are calm and keep all constraints. -/
lemma Hist.steady {c : Ctx K} {m0 : Mdl K} (hr : Ready c m0) {m : Mdl K} {s : Sol K} (hh : Hist c Steady m0 m s) :
    Hist c Calm m0 m s ∧ m.wells.map (fun x => (x.1, x.2.con)) = m0.wells.map fun x => (x.1, x.2.con) := by
  induction hh with
  | start => exact ⟨.start, rfl⟩
  | step _ ha hp ih => exact ⟨.step ih.1 ha (hp.calm (hr.inv ih.1).mdl), hp.1.trans ih.2⟩
  | again _ ha hp ih => exact ⟨.again ih.1 ha (hp.calm (hr.inv ih.1).mdl), hp.1.trans ih.2⟩
  | look _ ha ih =>
    refine ⟨.look ih.1 ha, ?_⟩
    obtain ⟨⟨ts, rfl⟩, -⟩ := assemble_frame ha
    exact ih.2
  | clock n t _ ih => exact ⟨.clock n t ih.1, ih.2⟩

/-! ### the balance in terms of the data -/

/-- Flow over the boundary cell of a condition into position `i`, from the given values. -/
def bIn (e : Env K) (p : K) (i : ℕ) (b : ℕ × String × K) : K := boundaryIn e (fun _ => b.2.2) p i b

/-- Flow from a well into position `i`, from the given values. -/
def wIn (e : Env K) (p : K) (i : ℕ) (w : ℕ × Well K) : K :=
  if w.1 = e.at i then
    match w.2.con with
    | some .q => w.2.qsp.getD 0
    | some .pwf => windex e w.2 * (w.2.pwfsp.getD 0 - p)
    | none => 0
  else 0

/-- `excess` in terms of the given values. -/
def residue (e : Env K) (T : ℕ → ℕ → K) (m : Mdl K) (old x : ℕ → K) (i : ℕ) : K :=
  ∑ j ∈ range e.n, T i j * (x j - x i - e.grav * (e.z (e.at j) - e.z (e.at i))) + ((m.bdict.map (bIn e (x i) i)).sum + (m.wells.map (wIn e (x i) i)).sum)
    - e.rhs (e.at i) * (x i - old i)

lemma sum_map_forall2 {α β : Type} {R : α → β → Prop} {f : α → K} {g : β → K} (h : ∀ a b, R a b → f a = g b) {l : List α} {l' : List β} (hl : List.Forall₂ R l l') :
    (l.map f).sum = (l'.map g).sum := by
  induction hl with
  | nil => rfl
  | cons h1 _ ih => simp only [List.map_cons, List.sum_cons, ih, h _ _ h1]

lemma excess_residue {c : Ctx K} {m0 m : Mdl K} {s : Sol K} (hr : Ready c m0) {vect : Bool} (hg : vect = true → RatesGiven m0) (hh : Hist c Steady m0 m s) (T : ℕ → ℕ → K) (old x : ℕ → K) (i : ℕ) :
    excess c.e T m (usedRate vect m s) old x i = residue c.e T m0 old x i := by
  obtain ⟨hc, hcon⟩ := hh.steady hr
  obtain ⟨hi, hq⟩ := hr.calm hc
  unfold excess residue outsideIn
  congr 3
  · rw [hi.same.bdict]
    refine congrArg List.sum (List.map_congr_left fun b hb => ?_)
    unfold bIn boundaryIn
    by_cases hp : b.2.1 = "pressure"
    · simp only [hp, if_true]
    · have := usedRate_eq hr.ctx.wf hr.started.mdl hi vect hb hp
      rw [this]
      cases vect
      · rfl
      · simp only [if_true]; rw [hg rfl b hb hp]
  · symm
    refine sum_map_forall2 (R := fun w w' => ((w'.1 = w.1 ∧ w'.2.G = w.2.G ∧ w'.2.pwfsp = w.2.pwfsp ∧ w'.2.qsp = w.2.qsp) ∧ w'.2.con = w.2.con) ∧ w' ∈ m.wells) (fun w w' h => ?_) ?_
    · obtain ⟨⟨⟨h1, h2, h3, h4⟩, h5⟩, h6⟩ := h
      unfold wIn wellIn
      rw [h1]
      split_ifs with hid
      · unfold wellFlow
        rw [h5]
        rcases hcon : w.2.con with _ | _ | _
        · rfl
        · dsimp only; rw [hq.tame w' h6 (h5.trans hcon), h4]
        · dsimp only
          rw [(hi.mdl.well w' h6).lim (h5.trans hcon), h3, windex, h2]
      · rfl
    · have a := forall2_and hi.same.wells
      refine a.imp fun w w' h => ?_
      have := same_at (f := (·.1)) hr.started.mdl.wkeys (cons_forall2 hcon) (fun _ _ h => h.1) h.2.1 h.2.2 h.1.1.symm
      exact ⟨⟨h.1, this.2⟩, h.2.2⟩

/-! ### linearity -/

lemma sum_list_comb (S : Finset ι) (a : ι → K) {α : Type} (f : ι → α → K) (l : List α) : (l.map fun x => ∑ i ∈ S, a i * f i x).sum = ∑ i ∈ S, a i * (l.map (f i)).sum := by
  induction l with
  | nil => simp
  | cons x l ih => simp only [List.map_cons, List.sum_cons, ih, mul_add, sum_add_distrib]

/-- Gravity is combined with weights that add up to 1, or plays no part. -/
lemma weight_head {S : Finset ι} {a : ι → K} {e : Env K} (ha : ∑ i ∈ S, a i = 1 ∨ e.Level) {id id' : ℕ} (h : id ∈ e.ids ∨ id ∈ e.bnd) (h' : id' ∈ e.ids ∨ id' ∈ e.bnd) :
    (∑ i ∈ S, a i) * (e.grav * (e.z id - e.z id')) = e.grav * (e.z id - e.z id') := by
  rcases ha with ha | ha | ha
  · rw [ha, one_mul]
  · simp [ha]
  · rw [ha id id' h h']; simp

lemma bIn_lin {S : Finset ι} {a : ι → K} {M : ι → Mdl K} {m : Mdl K} {e : Env K} (he : e.WF) (ha : ∑ i ∈ S, a i = 1 ∨ e.Level) (hm : MdlOK e m) (hM : ∀ i, i ∈ S → MdlOK e (M i)) (h : Combined S a M m) (x : ι → K) (j : ℕ) :
    (m.bdict.map (bIn e (∑ i ∈ S, a i * x i) j)).sum = ∑ i ∈ S, a i * ((M i).bdict.map (bIn e (x i) j)).sum := by
  have e1 : ∀ i, i ∈ S → ((M i).bdict.map (bIn e (x i) j)).sum = (m.bdict.map fun b => bIn e (x i) j (b.1, b.2.1, bValue (M i) b.1)).sum := fun i hi => by
    symm
    refine sum_map_forall2 (fun b b' h => ?_) (forall2_and (h.shape i hi).bd)
    have : bValue (M i) b.1 = b'.2.2 := by
      unfold bValue
      rw [← h.1.1, dictGet_of_mem (hM i hi).bkeys h.2.2]; rfl
    rw [this, ← h.1.1, ← h.1.2]
  rw [sum_congr rfl fun i hi => congrArg (a i * ·) (e1 i hi), ← sum_list_comb S a (fun i (b : ℕ × String × K) => bIn e (x i) j (b.1, b.2.1, bValue (M i) b.1))]
  refine congrArg List.sum (List.map_congr_left fun b hb => ?_)
  have hv := h.bval b hb
  unfold bIn boundaryIn
  dsimp only
  split
  · rename_i id T hT
    split_ifs
    · rw [hv]
      have : ∀ g, ∑ i ∈ S, a i * (2 * T * (bValue (M i) b.1 - x i - g)) = 2 * T * (∑ i ∈ S, a i * bValue (M i) b.1 - ∑ i ∈ S, a i * x i - (∑ i ∈ S, a i) * g) := fun g => by
        rw [sum_mul, ← sum_sub_distrib, ← sum_sub_distrib, mul_sum]
        exact sum_congr rfl fun i _ => by ring
      rw [this, weight_head ha (.inr (hm.bmem b hb)) (.inl (face_mem he (hm.bmem b hb) hT).1)]
    · exact hv
    · simp
  · simp

lemma wIn_lin {S : Finset ι} {a : ι → K} {M : ι → Mdl K} {m : Mdl K} {e : Env K} (hm : MdlOK e m) (hM : ∀ i, i ∈ S → MdlOK e (M i)) (h : Combined S a M m) (x : ι → K) (j : ℕ) :
    (m.wells.map (wIn e (∑ i ∈ S, a i * x i) j)).sum = ∑ i ∈ S, a i * ((M i).wells.map (wIn e (x i) j)).sum := by
  have e1 : ∀ i, i ∈ S → ((M i).wells.map (wIn e (x i) j)).sum =
      (m.wells.map fun w => wIn e (x i) j (w.1, { w.2 with qsp := some (wRate (M i) w.1), pwfsp := some (wPwf (M i) w.1) })).sum := fun i hi => by
    symm
    refine sum_map_forall2 (fun w w' h => ?_) (forall2_and (h.shape i hi).well)
    have : wRate (M i) w.1 = w'.2.qsp.getD 0 ∧ wPwf (M i) w.1 = w'.2.pwfsp.getD 0 := by
      unfold wRate wPwf
      rw [← h.1.1, dictGet_of_mem (hM i hi).wkeys h.2.2]; exact ⟨rfl, rfl⟩
    unfold wIn windex
    rw [this.1, this.2, h.1.1, h.1.2.1, h.1.2.2]
    rfl
  rw [sum_congr rfl fun i hi => congrArg (a i * ·) (e1 i hi), ← sum_list_comb S a (fun i (w : ℕ × Well K) => wIn e (x i) j (w.1, { w.2 with qsp := some (wRate (M i) w.1), pwfsp := some (wPwf (M i) w.1) }))]
  refine congrArg List.sum (List.map_congr_left fun w hw => ?_)
  have g1 : w.2.qsp.getD 0 = wRate m w.1 := by unfold wRate; rw [dictGet_of_mem hm.wkeys hw]; rfl
  have g2 : w.2.pwfsp.getD 0 = wPwf m w.1 := by unfold wPwf; rw [dictGet_of_mem hm.wkeys hw]; rfl
  unfold wIn windex
  dsimp only
  split_ifs
  · rcases hc : w.2.con with _ | _ | _
    · simp
    · dsimp only; rw [g1, h.rate w hw hc]; rfl
    · dsimp only
      rw [g2, h.pwf w hw hc, ← sum_sub_distrib, mul_sum]
      refine sum_congr rfl fun i _ => ?_
      show _ = a i * (_ * (wPwf (M i) w.1 - x i))
      ring
  · simp

lemma residue_lin {S : Finset ι} {a : ι → K} {M : ι → Mdl K} {m : Mdl K} {e : Env K} (he : e.WF) (ha : ∑ i ∈ S, a i = 1 ∨ e.Level) (hm : MdlOK e m) (hM : ∀ i, i ∈ S → MdlOK e (M i)) (h : Combined S a M m)
    (T : ℕ → ℕ → K) (old x : ι → ℕ → K) {j : ℕ} (hj : j < e.n) (o : K) (ho : e.rhs (e.at j) * o = e.rhs (e.at j) * ∑ i ∈ S, a i * old i j) :
    residue e T m (fun _ => o) (fun k => ∑ i ∈ S, a i * x i k) j = ∑ i ∈ S, a i * residue e T (M i) (old i) (x i) j := by
  unfold residue
  dsimp only
  rw [bIn_lin he ha hm hM h (fun i => x i j), wIn_lin hm hM h (fun i => x i j)]
  have h1 : ∑ k ∈ range e.n, T j k * (∑ i ∈ S, a i * x i k - ∑ i ∈ S, a i * x i j - e.grav * (e.z (e.at k) - e.z (e.at j))) =
      ∑ i ∈ S, a i * ∑ k ∈ range e.n, T j k * (x i k - x i j - e.grav * (e.z (e.at k) - e.z (e.at j))) := by
    simp only [mul_sum]
    rw [sum_comm]
    refine sum_congr rfl fun k hk => ?_
    have : ∀ g, ∑ i ∈ S, a i * (T j k * (x i k - x i j - g)) = T j k * (∑ i ∈ S, a i * x i k - ∑ i ∈ S, a i * x i j - (∑ i ∈ S, a i) * g) := fun g => by
      rw [sum_mul, ← sum_sub_distrib, ← sum_sub_distrib, mul_sum]
      exact sum_congr rfl fun i _ => by ring
    rw [this, weight_head ha (.inl (at_mem e (mem_range.1 hk))) (.inl (at_mem e hj))]
  have h2 : e.rhs (e.at j) * (∑ i ∈ S, a i * x i j - o) = ∑ i ∈ S, a i * (e.rhs (e.at j) * (x i j - old i j)) := by
    rw [mul_sub, ho, mul_sum, mul_sum, ← sum_sub_distrib]
    exact sum_congr rfl fun i _ => by ring
  rw [h1, h2, ← sum_add_distrib, ← sum_add_distrib, ← sum_sub_distrib]
  exact sum_congr rfl fun i _ => by ring

/-! ### steps and runs -/

lemma step_comb {c : Ctx K} {S : Finset ι} {a : ι → K} {M0 M M' : ι → Mdl K} {m0 m m' : Mdl K} {t t' : ι → Sol K} {s s' : Sol K} {vect : Bool} {f : ℕ} {F : ι → ℕ}
    (ha : ∑ i ∈ S, a i = 1 ∨ c.e.Level) (hr : Ready c m0) (hR : ∀ i, i ∈ S → Ready c (M0 i)) (hx : Exact c.lin) (hc : Combined S a M0 m0)
    (hg : vect = true → RatesGiven m0 ∧ ∀ i, i ∈ S → RatesGiven (M0 i)) (hf : vect = true → c.e.Flat) (han : Anchored c.e m0)
    (hh : Hist c Steady m0 m s) (hH : ∀ i, i ∈ S → Hist c Steady (M0 i) (M i) (t i)) (hP : SolveAll c Steady f vect m s) (hPP : ∀ i, i ∈ S → SolveAll c Steady (F i) vect (M i) (t i))
    (hs : solve c f vect true m s = .ok (m', s')) (hS : ∀ i, i ∈ S → solve c (F i) vect true (M i) (t i) = .ok (M' i, t' i)) (hb : Superposed S a c t s) : Superposed S a c t' s' := by
  obtain ⟨m1, s1, a1, a2, a3, a4, a5, a6⟩ := solve_last hr.ctx.lower hr.ctx.wf hr.started.mdl hh hP hs
  have hT := hr.ctx.grid.network vect
  have he := hr.ctx.wf
  have a1' := (a1.steady hr).1
  obtain ⟨hi, hq⟩ := hr.calm a1'
  obtain ⟨_, _, _, _, _, _, _, _, h1⟩ := attempted hr.ctx.lower he hi a5
  have es : s'.tstep = s.tstep + 1 := by rw [h1.tstep, a4]
  have last : ∀ i, i ∈ S → (∀ j, j < c.e.n → residue c.e (c.e.trans vect) (M0 i) ((t i).inner c.e s.tstep) ((t' i).inner c.e (s.tstep + 1)) j = 0) ∧ (t' i).tstep = s.tstep + 1 ∧
      (∀ j, j < c.e.n → rowAt (t' i).press (s.tstep + 1) none (c.e.at j) = some ((t' i).inner c.e (s.tstep + 1) j)) ∧
      ∀ k, k ≤ s.tstep → ∀ id, rowAt (t' i).press k none id = rowAt (t i).press k none id := by
    intro i hiS
    obtain ⟨n1, t1, b1, b2, b3, b4, b5, b6⟩ := solve_last hr.ctx.lower he (hR i hiS).started.mdl (hH i hiS) (hPP i hiS) (hS i hiS)
    have b1' := (b1.steady (hR i hiS)).1
    obtain ⟨gi, gq⟩ := (hR i hiS).calm b1'
    obtain ⟨_, _, _, _, _, _, _, _, h2⟩ := attempted hr.ctx.lower he gi b5
    have et : t1.tstep = s.tstep := b4.trans (hb.1 i hiS)
    have et' : (t' i).tstep = s.tstep + 1 := by rw [h2.tstep, et]
    refine ⟨fun j hj => ?_, et', fun j hj => ?_, fun k hk id => ?_⟩
    · have := step_balance hr.ctx hx gi gq hf b6.2 b5 j hj
      rw [excess_residue (hR i hiS) (fun hv => (hg hv).2 i hiS) b1, et', et] at this
      have e0 : t1.inner c.e s.tstep = (t i).inner c.e s.tstep := by unfold Sol.inner; rw [b2]
      rw [e0] at this; exact this
    · rw [← et']; exact row_inner (hR i hiS) gi b5 hj
    · rw [h2.press, rowAt_append_lt (by rw [gi.plen]; omega), b2]
  refine ⟨fun i hiS => by rw [(last i hiS).2.1, es], fun k hk hcp id hid => ?_⟩
  by_cases hk' : k = s'.tstep
  · have ek : k = s.tstep + 1 := by rw [hk', es]
    have hj := idx_lt c.e hid
    have r1 := row_inner hr hi a5 hj
    rw [at_idx c.e hid] at r1
    refine ⟨_, fun i => (t' i).inner c.e (s.tstep + 1) (c.e.ids.idxOf id), by rw [hk']; exact r1, fun i hiS => ?_, ?_⟩
    · have := (last i hiS).2.2.1 _ hj
      rw [at_idx c.e hid] at this
      rw [ek]; exact this
    · have key : ∀ j, j < c.e.n → s'.inner c.e s'.tstep j = ∑ i ∈ S, a i * (t' i).inner c.e (s.tstep + 1) j := by
        have b0 := step_balance hr.ctx hx hi hq hf a6.2 a5
        refine Net.eq_of_inflow_eq (anchored_leaky he hT hi.mdl (a1'.anchored hr han)) fun j hj => ?_
        have e1 := excess_linear c.e hT m1 (usedRate vect m1 s1) (s1.inner c.e s1.tstep) (s'.inner c.e s'.tstep) hj
        have e2 := excess_linear c.e hT m1 (usedRate vect m1 s1) (s1.inner c.e s1.tstep) (fun j => ∑ i ∈ S, a i * (t' i).inner c.e (s.tstep + 1) j) hj
        rw [← e1, ← e2, b0 j hj]
        congr 1
        rw [excess_residue hr (fun hv => (hg hv).1) a1]
        symm
        have := residue_lin he ha hr.started.mdl (fun i hiS => (hR i hiS).started.mdl) hc (c.e.trans vect) (fun i => (t i).inner c.e s.tstep) (fun i => (t' i).inner c.e (s.tstep + 1)) hj
          (s1.inner c.e s1.tstep j) (by
            rcases hcm : c.e.comp
            · rw [he.rhsI hcm, zero_mul, zero_mul]
            · congr 1
              obtain ⟨p, q, k1, k2, k3⟩ := hb.2 s.tstep le_rfl (.inl hcm) _ (at_mem c.e hj)
              unfold Sol.inner
              rw [a2, a4, k1]
              show p = _
              rw [k3]
              exact sum_congr rfl fun i hiS => by rw [k2 i hiS]; rfl)
        rw [show residue c.e (c.e.trans vect) m0 (s1.inner c.e s1.tstep) (fun k => ∑ i ∈ S, a i * (t' i).inner c.e (s.tstep + 1) k) j =
          residue c.e (c.e.trans vect) m0 (fun _ => s1.inner c.e s1.tstep j) (fun k => ∑ i ∈ S, a i * (t' i).inner c.e (s.tstep + 1) k) j from rfl, this]
        exact sum_eq_zero fun i hiS => by rw [(last i hiS).1 j hj, mul_zero]
      exact key _ hj
  · have hk2 : k ≤ s.tstep := by omega
    obtain ⟨p, q, k1, k2, k3⟩ := hb.2 k hk2 hcp id hid
    refine ⟨p, q, ?_, fun i hiS => by rw [(last i hiS).2.2.2 k hk2]; exact k2 i hiS, k3⟩
    rw [h1.press, rowAt_append_lt (by rw [hi.plen]; omega), a2]; exact k1

lemma runLoop_comb {c : Ctx K} {S : Finset ι} {a : ι → K} {M0 : ι → Mdl K} {m0 : Mdl K} {vect : Bool} {f : ℕ} {F : ι → ℕ}
    (ha : ∑ i ∈ S, a i = 1 ∨ c.e.Level) (hr : Ready c m0) (hR : ∀ i, i ∈ S → Ready c (M0 i)) (hx : Exact c.lin) (hc : Combined S a M0 m0)
    (hg : vect = true → RatesGiven m0 ∧ ∀ i, i ∈ S → RatesGiven (M0 i)) (hf : vect = true → c.e.Flat) (han : Anchored c.e m0) (k : ℕ) {M : ι → Mdl K} {m : Mdl K} {t : ι → Sol K} {s : Sol K}
    (hh : Hist c Steady m0 m s) (hH : ∀ i, i ∈ S → Hist c Steady (M0 i) (M i) (t i)) (hP : RunAll c Steady f vect k m s) (hPP : ∀ i, i ∈ S → RunAll c Steady (F i) vect k (M i) (t i))
    (hs : (runLoop c f vect k m s).2 = .ok ()) (hS : ∀ i, i ∈ S → (runLoop c (F i) vect k (M i) (t i)).2 = .ok ()) (hb : Superposed S a c t s) :
    Superposed S a c (fun i => (runLoop c (F i) vect k (M i) (t i)).1.2) (runLoop c f vect k m s).1.2 := by
  induction k generalizing m M s t with
  | zero => exact hb
  | succ k ih =>
    have e : ∀ i, i ∈ S → ∃ x, solve c (F i) vect true (M i) (t i) = .ok x := fun i hi => by
      have := hS i hi
      unfold runLoop at this
      rcases h : solve c (F i) vect true (M i) (t i) with y | y
      · rw [h] at this; cases this
      · exact ⟨y, rfl⟩
    classical
    let X : ι → Mdl K × Sol K := fun i => if h : i ∈ S then (e i h).choose else (M i, t i)
    have eX : ∀ i, i ∈ S → solve c (F i) vect true (M i) (t i) = .ok ((X i).1, (X i).2) := fun i hi => by
      have := (e i hi).choose_spec
      simp only [X, dif_pos hi]; exact this
    rcases h1 : solve c f vect true m s with x | ⟨m1, s1⟩
    · unfold runLoop at hs; rw [h1] at hs; cases hs
    have st : (runLoop c f vect (k + 1) m s) = runLoop c f vect k m1 s1 := by conv_lhs => unfold runLoop; rw [h1]
    have sT : ∀ i, i ∈ S → runLoop c (F i) vect (k + 1) (M i) (t i) = runLoop c (F i) vect k (X i).1 (X i).2 := fun i hi => by conv_lhs => unfold runLoop; rw [eX i hi]
    have key := ih (M := fun i => (X i).1) (t := fun i => (X i).2) (hh.solve hr.ctx.lower hr.ctx.wf hr.started.mdl hP.1 h1)
      (fun i hi => (hH i hi).solve hr.ctx.lower hr.ctx.wf (hR i hi).started.mdl (hPP i hi).1 (eX i hi)) (hP.2 _ _ h1) (fun i hi => (hPP i hi).2 _ _ (eX i hi)) (by rw [← st]; exact hs)
      (fun i hi => by rw [← sT i hi]; exact hS i hi)
      (step_comb ha hr hR hx hc hg hf han hh hH hP.1 (fun i hi => (hPP i hi).1) h1 eX hb)
    rw [← st] at key
    refine ⟨fun i hi => by have := key.1 i hi; dsimp only at this; rw [← sT i hi] at this; exact this, fun j hj hcp id hid => ?_⟩
    obtain ⟨p, q, k1, k2, k3⟩ := key.2 j hj hcp id hid
    exact ⟨p, q, k1, fun i hi => by have := k2 i hi; dsimp only at this; rw [← sT i hi] at this; exact this, k3⟩

lemma run_sol {c : Ctx K} {f : ℕ} {vect : Bool} {k : ℕ} {el : K} {m : Mdl K} (h : (run c f vect k el m (Sol.init m)).2 = .ok ()) :
    (runLoop c f vect k m { Sol.init m with nsteps := (Sol.init m).nsteps + k }).2 = .ok () ∧
    (run c f vect k el m (Sol.init m)).1.2.press = (runLoop c f vect k m { Sol.init m with nsteps := (Sol.init m).nsteps + k }).1.2.press ∧
    (run c f vect k el m (Sol.init m)).1.2.tstep = (runLoop c f vect k m { Sol.init m with nsteps := (Sol.init m).nsteps + k }).1.2.tstep := by
  unfold run at h ⊢
  rcases h1 : runLoop c f vect k m { Sol.init m with nsteps := (Sol.init m).nsteps + k } with ⟨⟨m1, s1⟩, x | ⟨⟩⟩
  · rw [h1] at h; cases h
  · exact ⟨rfl, rfl, rfl⟩

/-- `C71_run_partial` for models without gradient conditions, or with the symbolic assembler. -/
lemma run_comb {c : Ctx K} {S : Finset ι} {a : ι → K} {M : ι → Mdl K} {m : Mdl K} {vect : Bool} {f : ℕ} {F : ι → ℕ}
    (ha : ∑ i ∈ S, a i = 1 ∨ c.e.Level) (hr : Ready c m) (hR : ∀ i, i ∈ S → Ready c (M i)) (hx : Exact c.lin) (hc : Combined S a M m)
    (hg : vect = true → RatesGiven m ∧ ∀ i, i ∈ S → RatesGiven (M i)) (hf : vect = true → c.e.Flat) (han : Anchored c.e m) (k : ℕ) (el : K) (el' : ι → K)
    (hinit : c.e.comp = true → ∀ id, id ∈ c.e.ids → ∃ (p : K) (q : ι → K), m.initP id = some p ∧ (∀ i, i ∈ S → (M i).initP id = some (q i)) ∧ p = ∑ i ∈ S, a i * q i)
    (hP : RunAll c Steady f vect k m { Sol.init m with nsteps := (Sol.init m).nsteps + k })
    (hPP : ∀ i, i ∈ S → RunAll c Steady (F i) vect k (M i) { Sol.init (M i) with nsteps := (Sol.init (M i)).nsteps + k })
    (hs : (run c f vect k el m (Sol.init m)).2 = .ok ()) (hS : ∀ i, i ∈ S → (run c (F i) vect k (el' i) (M i) (Sol.init (M i))).2 = .ok ()) :
    Superposed S a c (fun i => (run c (F i) vect k (el' i) (M i) (Sol.init (M i))).1.2) (run c f vect k el m (Sol.init m)).1.2 := by
  obtain ⟨e1, e2, e3⟩ := run_sol hs
  have key := runLoop_comb ha hr hR hx hc hg hf han k (.clock _ (Sol.init m).ctime .start) (fun i _ => .clock _ (Sol.init (M i)).ctime .start) hP hPP e1 (fun i hi => (run_sol (hS i hi)).1)
    ⟨fun _ _ => rfl, fun j hj hcp id hid => by
      have h0 : j = 0 := by simpa [Sol.init] using hj
      subst h0
      rcases hcp with h | h
      · exact hinit h id hid
      · omega⟩
  refine ⟨fun i hi => ?_, fun j hj hcp id hid => ?_⟩
  · rw [(run_sol (hS i hi)).2.2, e3]; exact key.1 i hi
  · rw [e3] at hj
    obtain ⟨p, q, k1, k2, k3⟩ := key.2 j hj hcp id hid
    exact ⟨p, q, by rw [e2]; exact k1, fun i hi => by rw [(run_sol (hS i hi)).2.1]; exact k2 i hi, k3⟩

/-! ### gradient conditions -/

lemma steady_blind : Blind (Steady : Bool → Mdl K → Mdl K → Prop) := fun _ _ _ _ h => h

lemma plain_kind {r r' : ℕ → K} {b b' : ℕ × String × K} (h : b'.1 = b.1 ∧ b'.2.1 = b.2.1) : (plain r' b').1 = (plain r b).1 ∧ (plain r' b').2.1 = (plain r b).2.1 := by
  rw [plain_key, plain_key]
  refine ⟨h.1, ?_⟩
  by_cases hp : b.2.1 = "pressure"
  · rw [plain_eq hp, plain_eq (by rw [h.2]; exact hp)]; exact h.2
  · rw [plain_ne hp, plain_ne (by rw [h.2]; exact hp)]

lemma Shape.asRates {m m' : Mdl K} (h : Shape m m') : Shape m.asRates m'.asRates :=
  ⟨by
    show List.Forall₂ _ (m.bdict.map (plain m.initR)) (m'.bdict.map (plain m'.initR))
    rw [List.forall₂_map_left_iff, List.forall₂_map_right_iff]
    exact h.bd.imp fun _ _ => plain_kind, h.well⟩

lemma dictGet_map_plain (r : ℕ → K) (l : List (ℕ × String × K)) (k : ℕ) : dictGet (l.map (plain r)) k = (dictGet l k).map fun x => (plain r (k, x)).2 := by
  induction l with
  | nil => rfl
  | cons x l ih =>
    unfold dictGet at ih ⊢
    rw [List.map_cons, List.find?_cons, List.find?_cons, plain_key]
    by_cases hk : x.1 = k
    · subst hk; simp
    · simp only [hk, decide_false]; exact ih

lemma bValue_asRates {c : Ctx K} {m : Mdl K} (h : Ready c m) {b : ℕ × String × K} (hb : b ∈ m.bdict) :
    bValue m.asRates b.1 = (if b.2.1 = "pressure" then 1 else rateFactor c.lower c.e b.1 b.2.1) * bValue m b.1 := by
  unfold bValue
  rw [show m.asRates.bdict = m.bdict.map (plain m.initR) from rfl, dictGet_map_plain, dictGet_of_mem h.started.mdl.bkeys hb]
  simp only [Option.map_some, Option.getD_some]
  split_ifs with hp
  · rw [plain_eq hp, one_mul]
  · rw [plain_ne hp]; exact h.factor hb hp

lemma Combined.asRates {c : Ctx K} {S : Finset ι} {a : ι → K} {M : ι → Mdl K} {m : Mdl K} (hr : Ready c m) (hR : ∀ i, i ∈ S → Ready c (M i)) (h : Combined S a M m) :
    Combined S a (fun i => (M i).asRates) m.asRates where
  shape := fun i hi => (h.shape i hi).asRates
  bval := fun b hb => by
    obtain ⟨y, hy, rfl⟩ := List.mem_map.1 (show b ∈ m.bdict.map (plain m.initR) from hb)
    have e1 : (plain m.initR y).2.2 = bValue m.asRates y.1 := by
      unfold bValue
      rw [← plain_key m.initR y, dictGet_of_mem hr.asRates.started.mdl.bkeys hb]; rfl
    have e2 : bValue m y.1 = y.2.2 := by
      unfold bValue
      rw [dictGet_of_mem hr.started.mdl.bkeys hy]; rfl
    rw [e1, bValue_asRates hr hy, e2, h.bval y hy, mul_sum, plain_key]
    refine sum_congr rfl fun i hi => ?_
    obtain ⟨y', hy', f1, f2⟩ := (forall2_mem (h.shape i hi).bd).2 y hy
    rw [← f1, bValue_asRates (hR i hi) hy', f1, f2]
    ring
  rate := h.rate
  pwf := h.pwf

/-- **C71** (superposition), partial: combine the data of any number of models with weights (initial pressures, boundary values, rates and pressures of wells); the
weights add up to 1, or gravity plays no part. After `run` with
any number of steps all stored pressures are those of the models combined with the same weights. Missing: runs in which a well reaches or leaves its limit; that is not linear
(`C71_limit_fails`). -/
theorem C71_run_partial {c : Ctx K} {S : Finset ι} {a : ι → K} {M : ι → Mdl K} {m : Mdl K} {vect : Bool} {f : ℕ} {F : ι → ℕ}
    (ha : ∑ i ∈ S, a i = 1 ∨ c.e.Level) (hr : Ready c m) (hR : ∀ i, i ∈ S → Ready c (M i)) (hx : Exact c.lin) (hc : Combined S a M m)
    (hf : vect = true → c.e.Flat) (han : Anchored c.e m) (k : ℕ) (el : K) (el' : ι → K)
    (hinit : c.e.comp = true → ∀ id, id ∈ c.e.ids → ∃ (p : K) (q : ι → K), m.initP id = some p ∧ (∀ i, i ∈ S → (M i).initP id = some (q i)) ∧ p = ∑ i ∈ S, a i * q i)
    (hP : RunAll c Steady f vect k m { Sol.init m with nsteps := (Sol.init m).nsteps + k })
    (hPP : ∀ i, i ∈ S → RunAll c Steady (F i) vect k (M i) { Sol.init (M i) with nsteps := (Sol.init (M i)).nsteps + k })
    (hs : (run c f vect k el m (Sol.init m)).2 = .ok ()) (hS : ∀ i, i ∈ S → (run c (F i) vect k (el' i) (M i) (Sol.init (M i))).2 = .ok ()) :
    Superposed S a c (fun i => (run c (F i) vect k (el' i) (M i) (Sol.init (M i))).1.2) (run c f vect k el m (Sol.init m)).1.2 := by
  cases vect
  · exact run_comb ha hr hR hx hc (fun h => by cases h) hf han k el el' hinit hP hPP hs hS
  · have key := run_comb (vect := true) (M := fun i => (M i).asRates) (m := m.asRates) (F := F) (f := f) ha hr.asRates (fun i hi => (hR i hi).asRates) hx (hc.asRates hr hR)
      (fun _ => ⟨asRates_given m, fun i _ => asRates_given (M i)⟩) hf (asRates_anchored.2 han) k el el' hinit ((run_asRates hr f k el).2.2.2 _ steady_blind hP)
      (fun i hi => (run_asRates (hR i hi) (F i) k (el' i)).2.2.2 _ steady_blind (hPP i hi)) (by rw [(run_asRates hr f k el).2.1]; exact hs)
      (fun i hi => by rw [(run_asRates (hR i hi) (F i) k (el' i)).2.1]; exact hS i hi)
    rw [(run_asRates hr f k el).1] at key
    refine ⟨fun i hi => by dsimp only; rw [← (run_asRates (hR i hi) (F i) k (el' i)).1]; exact key.1 i hi, fun j hj hcp id hid => ?_⟩
    obtain ⟨p, q, k1, k2, k3⟩ := key.2 j hj hcp id hid
    exact ⟨p, q, k1, fun i hi => by dsimp only; rw [← (run_asRates (hR i hi) (F i) k (el' i)).1]; exact k2 i hi, k3⟩

/-! ### The hypotheses are met -/

/-- `SolveAll c Steady`, computed. -/
def solveSteadyB (c : Ctx ℚ) : ℕ → Bool → Mdl ℚ → Sol ℚ → Bool
  | 0, _, _, _ => true
  | fuel + 1, vect, m, s => match attempt c vect m s with
    | .error _ => true
    | .ok (m', s', again) => decide (m'.wells.map (fun x => (x.1, x.2.con)) = m.wells.map fun x => (x.1, x.2.con)) &&
        (!vect || m.wells.all fun x => decide (x.2.con = some .pwf → x.2.pwfsp ≠ some 0)) && (!again || solveSteadyB c fuel vect m' s'.back)

lemma solveSteadyB_all {c : Ctx ℚ} {fuel : ℕ} {vect : Bool} {m : Mdl ℚ} {s : Sol ℚ} (h : solveSteadyB c fuel vect m s = true) : SolveAll c Steady fuel vect m s := by
  induction fuel generalizing m s with
  | zero => exact trivial
  | succ n ih =>
    intro m' s' again ha
    unfold solveSteadyB at h
    rw [ha] at h
    simp only [Bool.and_eq_true, decide_eq_true_eq, Bool.or_eq_true, Bool.not_eq_true'] at h
    refine ⟨⟨h.1.1, fun hv => ?_⟩, fun hag => ih ?_⟩
    · rcases h.1.2 with h | h
      · rw [hv] at h; cases h
      · exact all_of h
    · rcases h.2 with h | h
      · rw [hag] at h; cases h
      · exact h

/-- `RunAll c Steady`, computed. -/
def runSteadyB (c : Ctx ℚ) (fuel : ℕ) (vect : Bool) : ℕ → Mdl ℚ → Sol ℚ → Bool
  | 0, _, _ => true
  | n + 1, m, s => solveSteadyB c fuel vect m s && match solve c fuel vect true m s with
    | .ok (m', s') => runSteadyB c fuel vect n m' s'
    | .error _ => true

lemma runSteadyB_all {c : Ctx ℚ} {fuel : ℕ} {vect : Bool} {n : ℕ} {m : Mdl ℚ} {s : Sol ℚ} (h : runSteadyB c fuel vect n m s = true) : RunAll c Steady fuel vect n m s := by
  induction n generalizing m s with
  | zero => exact trivial
  | succ n ih =>
    unfold runSteadyB at h
    rw [Bool.and_eq_true] at h
    refine ⟨solveSteadyB_all h.1, fun m' s' hs => ih ?_⟩
    rw [hs] at h; exact h.2

/-- A well with the given rate and limit 1 in a reservoir at pressure 8, fed from a boundary at pressure 10. -/
def exDraw (q : ℚ) : Mdl ℚ := exMdl true 0 [] (some 8) [(0, "pressure", 10), (3, "rate", 0)] [(2, { q := some q, pwf := some 1, r := some 1 })]

/-- The well shut, and with rate -2. -/
def exTwo : Fin 2 → Mdl ℚ := ![exDraw 0, exDraw (-2)]

lemma exTwo_ready (i : Fin 2) : Ready (exC true 0 []) (exTwo i) := by
  fin_cases i
  · exact exMdl_ready (by decide +kernel)
  · exact exMdl_ready (by decide +kernel)

lemma exDraw4_ready : Ready (exC true 0 []) (exDraw (-4)) := exMdl_ready (by decide +kernel)
lemma exDraw6_ready : Ready (exC true 0 []) (exDraw (-6)) := exMdl_ready (by decide +kernel)

/-- Twice the second minus the first. -/
lemma exTwo_four : Combined univ ![-1, 2] exTwo (exDraw (-4)) where
  shape := fun i _ => by fin_cases i <;> exact ⟨by decide +kernel, by decide +kernel⟩
  bval := by decide +kernel
  rate := by decide +kernel
  pwf := by decide +kernel

/-- Three times the second minus twice the first. -/
lemma exTwo_six : Combined univ ![-2, 3] exTwo (exDraw (-6)) where
  shape := fun i _ => by fin_cases i <;> exact ⟨by decide +kernel, by decide +kernel⟩
  bval := by decide +kernel
  rate := by decide +kernel
  pwf := by decide +kernel

lemma exDraw_init (q : ℚ) (h : ((exC true 0 []).e.ids.all fun id => decide ((exDraw q).initP id = some 8)) = true) : ∀ id, id ∈ (exC true 0 []).e.ids → (exDraw q).initP id = some 8 :=
  all_of h

example (vect : Bool) : ∃ (t : Fin 2 → Sol ℚ) (s : Sol ℚ), s.tstep = 2 ∧ Superposed univ ![-1, 2] (exC true 0 []) t s :=
  ⟨_, _, by cases vect <;> decide +kernel, C71_run_partial (f := 10) (F := fun _ => 10) (vect := vect) (M := exTwo) (m := exDraw (-4)) (.inl (by decide +kernel)) exDraw4_ready
    (fun i _ => exTwo_ready i) cramer_exact exTwo_four (fun _ => ex_flat _) (.inl (by decide +kernel)) 2 0 (fun _ => 0)
    (fun _ id hid => ⟨8, fun _ => 8, exDraw_init _ (by decide +kernel) id hid, fun i _ => by fin_cases i <;> exact exDraw_init _ (by decide +kernel) id hid, by decide +kernel⟩)
    (runSteadyB_all (by cases vect <;> decide +kernel)) (fun i _ => by fin_cases i <;> exact runSteadyB_all (by cases vect <;> decide +kernel))
    (isOk_unit (by cases vect <;> decide +kernel)) (fun i _ => by fin_cases i <;> exact isOk_unit (by cases vect <;> decide +kernel))⟩

/-- **C71 fails** when a well reaches its limit: the same two models combined to a rate of -6, which the well cannot sustain. Everything `C71_run_partial` asks for holds, except
that the constraint of the combined well changes. -/
theorem C71_limit_fails (vect : Bool) : ∃ (c : Ctx ℚ) (a : Fin 2 → ℚ) (M : Fin 2 → Mdl ℚ) (m m' : Mdl ℚ) (t : Fin 2 → Sol ℚ) (s : Sol ℚ), ∑ i, a i = 1 ∧ c.e.Level ∧ Ready c m ∧ (∀ i, Ready c (M i)) ∧
    Exact c.lin ∧ Combined univ a M m ∧ c.e.Flat ∧ Anchored c.e m ∧
    (∀ id, id ∈ c.e.ids → ∃ (p : ℚ) (q : Fin 2 → ℚ), m.initP id = some p ∧ (∀ i, (M i).initP id = some (q i)) ∧ p = ∑ i, a i * q i) ∧
    (∀ i, ∃ n, run c 10 vect 1 0 (M i) (Sol.init (M i)) = ((n, t i), .ok ())) ∧ run c 10 vect 1 0 m (Sol.init m) = ((m', s), .ok ()) ∧ ¬Superposed univ a c t s :=
  ⟨exC true 0 [], ![-2, 3], exTwo, exDraw (-6), _, fun i => (run (exC true 0 []) 10 vect 1 0 (exTwo i) (Sol.init (exTwo i))).1.2, _, by decide +kernel, ex_level _, exDraw6_ready, exTwo_ready, cramer_exact, exTwo_six,
    ex_flat _, .inl (by decide +kernel),
    fun id hid => ⟨8, fun _ => 8, exDraw_init _ (by decide +kernel) id hid, fun i => by fin_cases i <;> exact exDraw_init _ (by decide +kernel) id hid, by decide +kernel⟩,
    fun i => ⟨_, Prod.ext rfl (by fin_cases i <;> exact isOk_unit (by cases vect <;> decide +kernel))⟩,
    Prod.ext rfl (isOk_unit (by cases vect <;> decide +kernel)), fun h => by
      obtain ⟨p, q, h1, h2, h3⟩ := h.2 1 (by cases vect <;> decide +kernel) (.inl (by decide +kernel)) 1 (by decide +kernel)
      have e0 := h2 0 (mem_univ _)
      have e1 := h2 1 (mem_univ _)
      have f : rowAt (run (exC true 0 []) 10 vect 1 0 (exDraw (-6)) (Sol.init (exDraw (-6)))).1.2.press 1 none 1 = some (93 / 11) := by cases vect <;> decide +kernel
      have f0 : rowAt (run (exC true 0 []) 10 vect 1 0 (exTwo 0) (Sol.init (exTwo 0))).1.2.press 1 none 1 = some (64 / 7) := by cases vect <;> decide +kernel
      have f1 : rowAt (run (exC true 0 []) 10 vect 1 0 (exTwo 1) (Sol.init (exTwo 1))).1.2.press 1 none 1 = some (62 / 7) := by cases vect <;> decide +kernel
      rw [f0] at e0
      rw [f1] at e1
      rw [f] at h1
      injection e0 with e0
      injection e1 with e1
      injection h1 with h1
      rw [Fin.sum_univ_two, ← e0, ← e1, ← h1] at h3
      norm_num at h3⟩

end RF.Fdm
