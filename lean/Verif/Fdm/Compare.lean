import Verif.Fdm.Ready
/-! # Bounds and comparison of the pressures of a step -/
set_option linter.unusedSectionVars false
namespace RF.Fdm
open RF RF.Dims Finset

variable {K : Type} [Field K] [LinearOrder K] [IsStrictOrderedRing K]

/-! ### what stays true along a history -/

lemma Anchored.move {e : Env K} {m m' : Mdl K} (h : Anchored e m) (hs : SameMdl m m') (hn : NoRelease m m') : Anchored e m' := by
  rcases h with h | ⟨b, id, T, hb, h⟩ | ⟨w, hw, hc⟩
  · exact .inl h
  · exact .inr (.inl ⟨b, id, T, by rw [hs.bdict]; exact hb, h⟩)
  · obtain ⟨y, hy, h1⟩ := (forall2_mem hs.wells).2 w hw
    exact .inr (.inr ⟨y, hy, hn w y hw hy h1.1.symm hc⟩)

lemma Hist.anchored {c : Ctx K} {m0 : Mdl K} (hr : Ready c m0) {m : Mdl K} {s : Sol K} (hh : Hist c Calm m0 m s) (h : Anchored c.e m0) : Anchored c.e m := by
  induction hh with
  | start => exact h
  | step hh ha hp ih =>
    obtain ⟨m1, s1, A, d, x, p, r', ps, h1⟩ := attempted hr.ctx.lower hr.ctx.wf (hr.inv hh) ha
    exact ih.move h1.same hp.1
  | again hh ha hp ih =>
    obtain ⟨m1, s1, A, d, x, p, r', ps, h1⟩ := attempted hr.ctx.lower hr.ctx.wf (hr.inv hh) ha
    exact ih.move h1.same hp.1
  | look hh ha ih =>
    obtain ⟨⟨ts, rfl⟩, -⟩ := assemble_frame ha
    exact ih
  | clock n t _ ih => exact ih

/-- All wells are given a bottom-hole pressure other than zero and no rate. -/
def PressureWells (m : Mdl K) : Prop := ∀ w, w ∈ m.wells → w.2.qsp = none ∧ w.2.pwfsp ≠ some 0

lemma move_pwf {e : Env K} {p : K} {w w' : Well K} (h : WellMove e p w w') (hq : w.qsp = none) (hc : w.con = some .pwf) : w'.con = some .pwf := by
  rcases h with rfl | rfl | ⟨qs, h, -, -⟩
  · exact hc
  · rfl
  · rw [hq] at h; simp at h

/-- Such wells never change their constraint, so every history is calm. -/
lemma Hist.pressureWells {c : Ctx K} {m0 : Mdl K} (hr : Ready c m0) (hw : PressureWells m0) {m : Mdl K} {s : Sol K} (hh : Hist c Any m0 m s) :
    Hist c Calm m0 m s ∧ ∀ w, w ∈ m.wells → w.2.con = some .pwf := by
  have keep : ∀ {m : Mdl K} {s : Sol K}, Hist c Any m0 m s → PressureWells m := by
    intro m s h w hw'
    obtain ⟨x, hx, h1⟩ := (forall2_mem (hr.inv h).same.wells).1 w hw'
    rw [h1.2.2.2, h1.2.2.1]; exact hw x hx
  have move : ∀ {m m' : Mdl K} {s s' : Sol K} {vect again : Bool}, Hist c Any m0 m s → (∀ w, w ∈ m.wells → w.2.con = some .pwf) → attempt c vect m s = .ok (m', s', again) →
      Calm vect m m' ∧ ∀ w, w ∈ m'.wells → w.2.con = some .pwf := by
    intro m m' s s' vect again h hc ha
    obtain ⟨m1, s1, A, d, x, p, r', ps, h1⟩ := attempted hr.ctx.lower hr.ctx.wf (hr.inv h) ha
    have : ∀ w, w ∈ m'.wells → w.2.con = some .pwf := by
      intro w hw'
      obtain ⟨y, hy, h2, h3⟩ := (forall2_mem h1.move).1 w hw'
      exact move_pwf h3 (keep h y hy).1 (hc y hy)
    exact ⟨⟨fun x y _ hy _ _ => this y hy, fun _ x hx _ => (keep h x hx).2⟩, this⟩
  induction hh with
  | start =>
    refine ⟨.start, fun w hw' => ?_⟩
    have h1 := hr.cfg w hw'
    have h2 := ((hr.started.mdl.well w hw').free (hw w hw').1).2
    rcases hc : w.2.con with _ | _ | _
    · exact absurd hc h1
    · exact absurd hc h2
    · rfl
  | step h ha _ ih =>
    obtain ⟨h1, h2⟩ := move h ih.2 ha
    exact ⟨.step ih.1 ha h1, h2⟩
  | again h ha _ ih =>
    obtain ⟨h1, h2⟩ := move h ih.2 ha
    exact ⟨.again ih.1 ha h1, h2⟩
  | look h ha ih =>
    refine ⟨.look ih.1 ha, ?_⟩
    obtain ⟨⟨ts, rfl⟩, -⟩ := assemble_frame ha
    exact ih.2
  | clock n t _ ih => exact ⟨.clock n t ih.1, ih.2⟩

/-! ### bounds -/

/-- No rates are imposed: rate and gradient conditions are zero, and so are the target rates of wells. -/
structure NoSources (m : Mdl K) : Prop where
  bd : ∀ b, b ∈ m.bdict → b.2.1 ≠ "pressure" → b.2.2 = 0
  well : ∀ w, w ∈ m.wells → w.2.qsp = none ∨ w.2.qsp = some 0

/-- A condition that is not a pressure and has value zero has the rate zero stored. -/
lemma Setup.zero_rates {lower : String → String} {e : Env K} {m : Mdl K} (h : Setup lower e m) (hc : Canonical lower m) :
    ∀ b, b ∈ m.bdict → b.2.1 ≠ "pressure" → b.2.2 = 0 → m.initR b.1 = 0 := by
  induction h with
  | init pi => simp [Mdl.init]
  | bounds _ hb hs _ =>
    obtain ⟨-, a1, -, -, -, -, -, -, a8⟩ := setBoundaries_ok hb hs
    intro b hb' hp hv
    have hb2 := hc b hb'
    rw [a1] at hb'
    obtain ⟨h1, -, h3⟩ := a8 b hb'
    by_cases hq : lower b.2.1 ∈ ["rate", "q"]
    · rw [h1 hq, hv]
    · obtain ⟨-, h4⟩ := h3 hq fun h => hp (hb2.1 h)
      unfold gradientRate at h4
      rw [ok_bind] at h4
      obtain ⟨l, -, h4⟩ := h4
      split at h4
      · rw [ok_bind] at h4
        obtain ⟨d, -, h4⟩ := h4
        rw [ok_bind] at h4
        obtain ⟨a, -, h4⟩ := h4
        rw [ok_pure, hv, mul_zero] at h4
        exact h4.symm
      · simp at h4
  | well _ hs ih =>
    obtain ⟨k, req, r, G, w', wp, rfl, hk, -, -, -, rfl, hw'⟩ := setWell_ok hs
    exact ih hc

lemma mem_bdict_not_upd {e : Env K} {m : Mdl K} (hm : MdlOK e m) {b : ℕ × String × K} (hb : b ∈ m.bdict) (hp : b.2.1 ≠ "pressure") : b.1 ∉ m.bUpdate := by
  intro h
  obtain ⟨v, hv⟩ := upd_pressure hm h
  rw [dictGet_of_mem hm.bkeys hb] at hv
  simp only [Option.some.injEq] at hv
  exact hp (by rw [hv])

lemma mem_bdict_not_well {e : Env K} (he : e.WF) {m : Mdl K} (hm : MdlOK e m) {b : ℕ × String × K} (hb : b ∈ m.bdict) : b.1 ∉ m.wells.map (·.1) := by
  intro h
  obtain ⟨w, hw, h1⟩ := List.mem_map.1 h
  exact he.disj b.1 (hm.bmem b hb) (h1 ▸ hm.wmem w hw)

/-- The rate the assembler uses for a condition is the one stored at the start (vectorised) or the given value (symbolic). -/
lemma usedRate_eq {e : Env K} (he : e.WF) {m0 m : Mdl K} {s : Sol K} (h0 : MdlOK e m0) (hi : Inv e m0 m s) (vect : Bool) {b : ℕ × String × K} (hb : b ∈ m0.bdict)
    (hp : b.2.1 ≠ "pressure") : usedRate vect m s b.1 = if vect then m0.initR b.1 else b.2.2 := by
  unfold usedRate
  cases vect
  · simp only [Bool.false_eq_true, if_false]
    unfold givenRate
    rw [hi.same.bdict, dictGet_of_mem h0.bkeys hb]; rfl
  · simp only [if_true]
    exact hi.row s.tstep le_rfl b.1 (mem_bdict_not_upd h0 hb hp) (mem_bdict_not_well he h0 hb)

lemma level_flat {e : Env K} (h : e.Level) : e.Flat := by
  rcases h with h | h
  · exact .inl h
  · by_cases hn : 0 < e.n
    · exact .inr fun i hi => h _ _ (.inl (at_mem e hi)) (.inl (at_mem e hn))
    · exact .inr fun i hi => absurd hi (by omega)

lemma face_mem {e : Env K} (he : e.WF) {b id : ℕ} {T : K} (hb : b ∈ e.bnd) (h : e.Face b id T) : id ∈ e.ids ∧ 0 ≤ T := by
  rcases he.face b hb with h' | ⟨id', T', hid, hT, h'⟩
  · rw [show e.transC b false = _ from h] at h'; simp at h'
  · rw [Env.Face, show e.transC b false = _ from h] at h'
    simp only [Except.ok.injEq, List.cons.injEq, Prod.mk.injEq, and_true] at h'
    rw [h'.1, h'.2]; exact ⟨hid, hT⟩

lemma level_face {e : Env K} (hl : e.Level) {b id : ℕ} (hb : b ∈ e.bnd) (hid : id ∈ e.ids) : e.grav * (e.z b - e.z id) = 0 := by
  rcases hl with h | h
  · simp [h]
  · rw [h b id (.inr hb) (.inl hid)]; simp

/-- Outside inflow at pressure 0 of a pressure condition on a level grid, or of a condition with rate 0. -/
lemma boundaryIn_zero {e : Env K} (he : e.WF) (hl : e.Level) {rate : ℕ → K} (i : ℕ) {b : ℕ × String × K} (hb : b.1 ∈ e.bnd)
    (hq : b.2.1 ≠ "pressure" → rate b.1 = 0) : boundaryIn e rate 0 i b = bLeak e i b * b.2.2 := by
  unfold boundaryIn bLeak faceLeak
  rcases he.face b.1 hb with h | ⟨id, T, hid, -, h⟩
  · rw [h]; simp
  · rw [show e.transC b.1 false = _ from h]
    dsimp only
    by_cases hp : b.2.1 = "pressure"
    · rw [if_pos hp, if_pos hp, level_face hl hb hid]
      split_ifs <;> ring
    · rw [if_neg hp, if_neg hp, hq hp]; simp

lemma wellIn_zero {e : Env K} (i : ℕ) {w : ℕ × Well K} (hw : WellOK w.2) (hq : w.2.con = some .q → w.2.q = some 0) : wellIn e 0 i w = wLeak e i w * w.2.pwfsp.getD 0 := by
  unfold wellIn wLeak wellFlow windex
  rcases h : w.2.con with _ | _ | _
  · simp
  · simp [hq h]
  · have := hw.lim h
    by_cases h1 : w.1 = e.at i <;> simp [h1, this]

/-- Upper and lower bounds of the pressures after an attempt without sources. -/
lemma attempt_bounds {c : Ctx K} {m0 m m' : Mdl K} {s s' : Sol K} {vect again : Bool} (hr : Ready c m0) (hx : Exact c.lin) (hh : Hist c Calm m0 m s)
    (hl : c.e.Level) (ha : Anchored c.e m0) (hns : NoSources m0) (hat : attempt c vect m s = .ok (m', s', again)) (hz : vect = true → NoZeroPwf m) (lo hi : K)
    (hold : c.e.comp = true → ∀ i, i < c.e.n → lo ≤ s.inner c.e s.tstep i ∧ s.inner c.e s.tstep i ≤ hi)
    (hbd : ∀ b, b ∈ m0.bdict → b.2.1 = "pressure" → lo ≤ b.2.2 ∧ b.2.2 ≤ hi)
    (hwl : ∀ w p, w ∈ m0.wells → w.2.pwfsp = some p → lo ≤ p ∧ p ≤ hi) :
    ∀ i, i < c.e.n → lo ≤ s'.inner c.e s'.tstep i ∧ s'.inner c.e s'.tstep i ≤ hi := by
  obtain ⟨hin, hq⟩ := hr.calm hh
  have he := hr.ctx.wf
  have hf := level_flat hl
  have hb := step_balance hr.ctx hx hin hq (fun _ => hf) hz hat
  have han := hh.anchored hr ha
  have hT := hr.ctx.grid.network vect
  have src : ∀ i, source c.e m (usedRate vect m s) (s.inner c.e s.tstep) i = c.e.rhs (c.e.at i) * s.inner c.e s.tstep i + (m.bdict.map fun b => bLeak c.e i b * b.2.2).sum +
      (m.wells.map fun w => wLeak c.e i w * w.2.pwfsp.getD 0).sum := by
    intro i
    unfold source outsideIn
    rw [add_assoc]
    congr 2
    · congr 1
      refine List.map_congr_left fun b hb' => ?_
      have hb0 : b ∈ m0.bdict := by rw [← hin.same.bdict]; exact hb'
      refine boundaryIn_zero he hl i (hin.mdl.bmem b hb') fun hp => ?_
      rw [usedRate_eq he hr.started.mdl hin vect hb0 hp]
      cases vect
      · exact hns.bd b hb0 hp
      · exact hr.setup.zero_rates hr.canon b hb0 hp (hns.bd b hb0 hp)
    · congr 1
      refine List.map_congr_left fun w hw => ?_
      refine wellIn_zero i (hin.mdl.well w hw) fun hcq => ?_
      obtain ⟨x, hx0, h1⟩ := (forall2_mem hin.same.wells).1 w hw
      have h2 := hq.tame w hw hcq
      rw [h1.2.2.2] at h2
      rcases hns.well x hx0 with h3 | h3
      · exact absurd hcq ((hin.mdl.well w hw).free (by rw [h1.2.2.2]; exact h3)).2
      · rw [h2, h3]
  have lk : ∀ i v, leak c.e m i * v = c.e.rhs (c.e.at i) * v + (m.bdict.map fun b => bLeak c.e i b * v).sum + (m.wells.map fun w => wLeak c.e i w * v).sum := by
    intro i v
    unfold leak
    rw [add_mul, add_mul, ← List.sum_map_mul_right, ← List.sum_map_mul_right]
  have bl : ∀ i b, b ∈ m.bdict → 0 ≤ bLeak c.e i b := fun i b hb' => bLeak_nonneg he i (hin.mdl.bmem b hb')
  have wl : ∀ i w, w ∈ m.wells → 0 ≤ wLeak c.e i w := fun i w hw => wLeak_nonneg he i (hin.mdl.well w hw)
  have bv : ∀ i b, b ∈ m.bdict → bLeak c.e i b * lo ≤ bLeak c.e i b * b.2.2 ∧ bLeak c.e i b * b.2.2 ≤ bLeak c.e i b * hi := by
    intro i b hb'
    by_cases hp : b.2.1 = "pressure"
    · obtain ⟨h1, h2⟩ := hbd b (by rw [← hin.same.bdict]; exact hb') hp
      exact ⟨mul_le_mul_of_nonneg_left h1 (bl i b hb'), mul_le_mul_of_nonneg_left h2 (bl i b hb')⟩
    · have : bLeak c.e i b = 0 := by unfold bLeak; rw [if_neg hp]
      simp [this]
  have wv : ∀ i w, w ∈ m.wells → wLeak c.e i w * lo ≤ wLeak c.e i w * w.2.pwfsp.getD 0 ∧ wLeak c.e i w * w.2.pwfsp.getD 0 ≤ wLeak c.e i w * hi := by
    intro i w hw
    obtain ⟨x, hx0, h1⟩ := (forall2_mem hin.same.wells).1 w hw
    obtain ⟨p, hp⟩ := (hin.mdl.well w hw).sp
    obtain ⟨h2, h3⟩ := hwl x p hx0 (by rw [← h1.2.2.1]; exact hp)
    rw [hp, Option.getD_some]
    exact ⟨mul_le_mul_of_nonneg_left h2 (wl i w hw), mul_le_mul_of_nonneg_left h3 (wl i w hw)⟩
  have rv : ∀ i, i < c.e.n → c.e.rhs (c.e.at i) * lo ≤ c.e.rhs (c.e.at i) * s.inner c.e s.tstep i ∧ c.e.rhs (c.e.at i) * s.inner c.e s.tstep i ≤ c.e.rhs (c.e.at i) * hi := by
    intro i hi'
    rcases hcm : c.e.comp
    · simp [he.rhsI hcm]
    · obtain ⟨h1, h2⟩ := hold hcm i hi'
      have := rhs_nonneg he (at_mem c.e hi')
      exact ⟨mul_le_mul_of_nonneg_left h1 this, mul_le_mul_of_nonneg_left h2 this⟩
  intro i hi'
  refine ⟨const_le he hf hT hin.mdl han (fun i hi' => ?_) hb i hi', le_const he hf hT hin.mdl han (fun i hi' => ?_) hb i hi'⟩
  · rw [src, lk]
    exact add_le_add (add_le_add (rv i hi').1 (List.sum_le_sum fun b hb' => (bv i b hb').1)) (List.sum_le_sum fun w hw => (wv i w hw).1)
  · rw [src, lk]
    exact add_le_add (add_le_add (rv i hi').2 (List.sum_le_sum fun b hb' => (bv i b hb').2)) (List.sum_le_sum fun w hw => (wv i w hw).2)

/-! ### comparison -/

/-- The rate a well should have at cell pressure `p`: its target, or what it delivers at its limit if that is more. -/
def bestRate (e : Env K) (w : Well K) (p : K) : K :=
  match w.qsp with
  | some qs => max qs (windex e w * (w.pwfsp.getD 0 - p))
  | none => windex e w * (w.pwfsp.getD 0 - p)

lemma est_lt_iff {e : Env K} (hB : 0 < e.B) (hmu : 0 < e.mu) {w : Well K} (hw : WellOK w) (p qs : K) :
    w.pwfsp.getD 0 < estPwf e w p qs ↔ windex e w * (w.pwfsp.getD 0 - p) < qs := by
  obtain ⟨G, hG, hG0⟩ := hw.G
  unfold estPwf windex
  rw [hG, Option.getD_some, ← sub_lt_iff_lt_add', lt_div_iff₀ hG0, div_mul_eq_mul_div, div_lt_iff₀ (mul_pos hB hmu), mul_comm G, mul_assoc]

lemma done_best {e : Env K} (hB : 0 < e.B) (hmu : 0 < e.mu) {w w' : Well K} (hw : WellOK w) (hc : w.con ≠ none) (ht : w.con = some .q → w.q = w.qsp)
    {p q b : K} (hd : WellDone e p w w' q b) (hr : w.con = some .pwf → w'.con = some .pwf) : q = bestRate e w p := by
  unfold bestRate
  cases hd with
  | limit h1 h2 =>
    rcases hqs : w.qsp with _ | qs
    · rfl
    · have := h1 qs hqs
      rw [← not_lt, est_lt_iff hB hmu hw, not_lt] at this
      exact (max_eq_right this).symm
  | target qs hq h =>
    have hcon : w.con = some .q := by
      rcases hcon : w.con with _ | _ | _
      · exact absurd hcon hc
      · rfl
      · have := hr hcon; simp [atTarget] at this
    rw [ht hcon, hq]
    rw [est_lt_iff hB hmu hw] at h
    exact (max_eq_left h.le).symm

/-- The second model has the same conditions and wells, at values that are at least as high. -/
structure AtMost (m m' : Mdl K) : Prop where
  bd : List.Forall₂ (fun b b' => b'.1 = b.1 ∧ b'.2.1 = b.2.1 ∧ b.2.2 ≤ b'.2.2) m.bdict m'.bdict
  well : List.Forall₂ (fun w w' => w'.1 = w.1 ∧ w'.2.G = w.2.G ∧ (w'.2.qsp.isSome = w.2.qsp.isSome ∧ w.2.qsp.getD 0 ≤ w'.2.qsp.getD 0) ∧
    w.2.pwfsp.getD 0 ≤ w'.2.pwfsp.getD 0) m.wells m'.wells

lemma forall2_comp {α β γ : Type} {R : α → β → Prop} {S : β → γ → Prop} {T : α → γ → Prop} (h : ∀ a b c, R a b → S b c → T a c) {l : List α} {l' : List β} {l'' : List γ}
    (h1 : List.Forall₂ R l l') (h2 : List.Forall₂ S l' l'') : List.Forall₂ T l l'' := by
  induction h1 generalizing l'' with
  | nil => cases h2; exact .nil
  | cons h _ ih => cases h2 with | cons h' h2 => exact .cons (‹∀ a b c, R a b → S b c → T a c› _ _ _ h h') (ih h2)

lemma AtMost.move {m n m' n' : Mdl K} (h : AtMost m n) (h1 : SameMdl m m') (h2 : SameMdl n n') : AtMost m' n' := by
  refine ⟨by rw [h1.bdict, h2.bdict]; exact h.bd, ?_⟩
  have a : List.Forall₂ (fun y x => y.1 = x.1 ∧ y.2.G = x.2.G ∧ y.2.pwfsp = x.2.pwfsp ∧ y.2.qsp = x.2.qsp) m'.wells m.wells := List.Forall₂.flip h1.wells
  refine forall2_comp (fun x y z hxy hyz => ?_) (forall2_comp (T := fun w w' => w'.1 = w.1 ∧ w'.2.G = w.2.G ∧ (w'.2.qsp.isSome = w.2.qsp.isSome ∧ w.2.qsp.getD 0 ≤ w'.2.qsp.getD 0) ∧
    w.2.pwfsp.getD 0 ≤ w'.2.pwfsp.getD 0) (fun x y z hxy hyz => ?_) a h.well) h2.wells
  · rw [hyz.1, hyz.2.1, hyz.2.2.1, hyz.2.2.2]; exact hxy
  · rw [hxy.1, hxy.2.1, hxy.2.2.1, hxy.2.2.2]; exact hyz

lemma sum_le_of_forall2 {α β : Type} {R : α → β → Prop} {f : α → K} {g : β → K} (h : ∀ a b, R a b → f a ≤ g b) {l : List α} {l' : List β} (h2 : List.Forall₂ R l l') :
    (l.map f).sum ≤ (l'.map g).sum := by
  induction h2 with
  | nil => simp
  | cons h1 _ ih => simp only [List.map_cons, List.sum_cons]; exact add_le_add (h _ _ h1) ih

lemma forall2_and {α β : Type} {R : α → β → Prop} {l : List α} {l' : List β} (h : List.Forall₂ R l l') :
    List.Forall₂ (fun a b => R a b ∧ a ∈ l ∧ b ∈ l') l l' := by
  induction h with
  | nil => exact .nil
  | cons h1 _ ih =>
    refine .cons ⟨h1, by simp, by simp⟩ (ih.imp fun a b hab => ⟨hab.1, by simp [hab.2.1], by simp [hab.2.2]⟩)

lemma boundaryIn_mono {e : Env K} (he : e.WF) {rate rate' : ℕ → K} (p : K) (i : ℕ) {b b' : ℕ × String × K} (hb : b.1 ∈ e.bnd) (h1 : b'.1 = b.1) (h2 : b'.2.1 = b.2.1)
    (h3 : b.2.2 ≤ b'.2.2) (hr : b.2.1 ≠ "pressure" → rate b.1 ≤ rate' b.1) : boundaryIn e rate p i b ≤ boundaryIn e rate' p i b' := by
  unfold boundaryIn
  rw [h1, h2]
  rcases he.face b.1 hb with h | ⟨id, T, hid, hT, h⟩
  · rw [h]
  · rw [show e.transC b.1 false = _ from h]
    dsimp only
    split_ifs with ha hp
    · exact mul_le_mul_of_nonneg_left (by linarith) (by linarith)
    · exact hr hp
    · exact le_refl 0

/-- Pressures of two accepted attempts compare like the conditions. -/
lemma attempt_mono {c : Ctx K} {m0 m m' n0 n n' : Mdl K} {s s' t t' : Sol K} {vect again : Bool} (hr : Ready c m0) (hr' : Ready c n0) (hx : Exact c.lin) (hle : AtMost m0 n0)
    (hg : vect = true → ∀ b, b ∈ m0.bdict → b.2.1 ≠ "pressure" → m0.initR b.1 ≤ n0.initR b.1)
    (hh : Hist c Calm m0 m s) (hh' : Hist c Calm n0 n t) (hf : vect = true → c.e.Flat) (han : Anchored c.e m0) (hat : attempt c vect m s = .ok (m', s', again))
    (hz : vect = true → NoZeroPwf m) (hat' : attempt c vect n t = .ok (n', t', false)) (hP : Calm vect n n')
    (hold : c.e.comp = true → ∀ i, i < c.e.n → s.inner c.e s.tstep i ≤ t.inner c.e t.tstep i) :
    ∀ i, i < c.e.n → s'.inner c.e s'.tstep i ≤ t'.inner c.e t'.tstep i := by
  obtain ⟨hi, hq⟩ := hr.calm hh
  obtain ⟨hi', hq'⟩ := hr'.calm hh'
  have he := hr.ctx.wf
  have hb := step_balance hr.ctx hx hi hq hf hz hat
  have hb' := step_balance hr.ctx hx hi' hq' hf hP.2 hat'
  have hT := hr.ctx.grid.network vect
  have hmv := hle.move hi.same hi'.same
  obtain ⟨n1, t1, A, d, x, p, r', ps, ha⟩ := attempted hr.ctx.lower he hi' hat'
  have hdone := (ha.done rfl).1
  refine Net.le_of_inflow_le (anchored_leaky he hT hi.mdl (hh.anchored hr han)) fun i hin => ?_
  have e1 := excess_linear c.e hT m (usedRate vect m s) (s.inner c.e s.tstep) (s'.inner c.e s'.tstep) hin
  have e2 := excess_linear c.e hT m (usedRate vect m s) (s.inner c.e s.tstep) (t'.inner c.e t'.tstep) hin
  rw [← e1, ← e2, hb i hin]
  have key : excess c.e (c.e.trans vect) m (usedRate vect m s) (s.inner c.e s.tstep) (t'.inner c.e t'.tstep) i ≤
      excess c.e (c.e.trans vect) n (usedRate vect n t) (t.inner c.e t.tstep) (t'.inner c.e t'.tstep) i := by
    have k1 : (m.bdict.map (boundaryIn c.e (usedRate vect m s) (t'.inner c.e t'.tstep i) i)).sum ≤
        (n.bdict.map (boundaryIn c.e (usedRate vect n t) (t'.inner c.e t'.tstep i) i)).sum := by
      refine sum_le_of_forall2 (fun b b' h => ?_) (forall2_and hmv.bd)
      obtain ⟨⟨h1, h2, h3⟩, h4, h5⟩ := h
      refine boundaryIn_mono he _ i (hi.mdl.bmem b h4) h1 h2 h3 fun hp => ?_
      have m4 : b ∈ m0.bdict := by rw [← hi.same.bdict]; exact h4
      have m5 : b' ∈ n0.bdict := by rw [← hi'.same.bdict]; exact h5
      have u := usedRate_eq he hr'.started.mdl hi' vect m5 (by rw [h2]; exact hp)
      rw [h1] at u
      rw [usedRate_eq he hr.started.mdl hi vect m4 hp, u]
      cases vect
      · exact h3
      · exact hg rfl b m4 hp
    have k2 : (m.wells.map (wellIn c.e (t'.inner c.e t'.tstep i) i)).sum ≤ (n.wells.map (wellIn c.e (t'.inner c.e t'.tstep i) i)).sum := by
      refine sum_le_of_forall2 (fun w w' h => ?_) (forall2_and hmv.well)
      obtain ⟨⟨h1, h2, ⟨h3, h3'⟩, h4⟩, h5, h6⟩ := h
      unfold wellIn
      rw [h1]
      split_ifs with hid
      · obtain ⟨y, hy, h7, bb, h8⟩ := (forall2_mem hdone).2 w' h6
        have hpx : (p w'.1).getD 0 = t'.inner c.e t'.tstep i := by
          have := ha.inner he hi' hin
          rw [this, ha.peq, h1, hid, newRow_at he.nodup _ _ hin]; rfl
        rw [hpx] at h8
        have hw' := hi'.mdl.well w' h6
        have hrel := hP.1 w' y h6 hy h7.symm
        have f1 := (done_flow he.B he.mu hw' (hq'.cfg w' h6) (hq'.tame w' h6) h8 hrel).1
        have f2 := done_best he.B he.mu hw' (hq'.cfg w' h6) (hq'.tame w' h6) h8 hrel
        rw [f1, f2]
        have hw := hi.mdl.well w h5
        have hwi : windex c.e w'.2 = windex c.e w.2 := by unfold windex; rw [h2]
        have hpos := (windex_pos he.B he.mu hw).le
        have lim : windex c.e w.2 * (w.2.pwfsp.getD 0 - t'.inner c.e t'.tstep i) ≤ bestRate c.e w'.2 (t'.inner c.e t'.tstep i) := by
          have : windex c.e w.2 * (w.2.pwfsp.getD 0 - t'.inner c.e t'.tstep i) ≤ windex c.e w'.2 * (w'.2.pwfsp.getD 0 - t'.inner c.e t'.tstep i) := by
            rw [hwi]; exact mul_le_mul_of_nonneg_left (by linarith) hpos
          refine this.trans ?_
          unfold bestRate
          rcases w'.2.qsp with _ | qs
          · exact le_refl _
          · exact le_max_right _ _
        rcases hcon : w.2.con with _ | _ | _
        · exact absurd hcon (hq.cfg w h5)
        · have hqq := hq.tame w h5 hcon
          unfold wellFlow
          rw [hcon, hqq]
          dsimp only
          rcases hqs : w.2.qsp with _ | qs
          · exact absurd hcon (hw.free hqs).2
          · rw [hqs] at h3 h3'
            rcases hqs' : w'.2.qsp with _ | qs'
            · rw [hqs'] at h3; simp at h3
            · rw [hqs'] at h3'
              unfold bestRate
              rw [hqs']
              exact h3'.trans (le_max_left _ _)
        · have : wellFlow c.e w.2 (t'.inner c.e t'.tstep i) = windex c.e w.2 * (w.2.pwfsp.getD 0 - t'.inner c.e t'.tstep i) := by
            unfold wellFlow windex; rw [hcon, hw.lim hcon]
          rw [this]; exact lim
      · exact le_refl 0
    have k3 : c.e.rhs (c.e.at i) * s.inner c.e s.tstep i ≤ c.e.rhs (c.e.at i) * t.inner c.e t.tstep i := by
      rcases hcm : c.e.comp
      · simp [he.rhsI hcm]
      · exact mul_le_mul_of_nonneg_left (hold hcm i hin) (rhs_nonneg he (at_mem c.e hin))
    unfold excess outsideIn
    rw [mul_sub, mul_sub]
    linarith
  rw [hb' i hin] at key
  linarith

end RF.Fdm
