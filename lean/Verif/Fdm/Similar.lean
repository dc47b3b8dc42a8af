import Verif.Fdm.PropsProgress
/-!
# Similar reservoirs

Two reservoirs whose cells correspond one to one, all conductances of the second being `ℓ` times those of the first, have corresponding simulations: pressures of the
second are `α p + β`, rates `α ℓ q`.
-/
set_option linter.unusedSectionVars false
namespace RF.Fdm
open RF RF.Dims Finset

variable {K : Type} [Field K] [LinearOrder K] [IsStrictOrderedRing K]

/-- Cells of the two reservoirs correspond by `σ`, all conductances of the second are `ℓ` times those of the first and gravity heads `α` times. -/
structure Similar (σ : ℕ → ℕ) (α ℓ : K) (vect : Bool) (e e' : Env K) : Prop where
  perm : e'.ids.Perm (e.ids.map σ)
  inj : ∀ a b, (a ∈ e.ids ∨ a ∈ e.bnd) → (b ∈ e.ids ∨ b ∈ e.bnd) → σ a = σ b → a = b
  comp : e'.comp = e.comp
  trans : ∀ a b, a ∈ e.ids → b ∈ e.ids → e'.trans vect (e'.ids.idxOf (σ a)) (e'.ids.idxOf (σ b)) = ℓ * e.trans vect (e.ids.idxOf a) (e.ids.idxOf b)
  face : ∀ b l, b ∈ e.bnd → e.transC b false = .ok l → e'.transC (σ b) false = .ok (l.map fun x => (σ x.1, ℓ * x.2))
  rhs : ∀ id, id ∈ e.ids → e'.rhs (σ id) = ℓ * e.rhs id
  head : ∀ a b, (a ∈ e.ids ∨ a ∈ e.bnd) → (b ∈ e.ids ∨ b ∈ e.bnd) → e'.grav * (e'.z (σ a) - e'.z (σ b)) = α * (e.grav * (e.z a - e.z b))

/-- A well of the second reservoir corresponds to a well of the first. -/
structure WellSim (α β ℓ : K) (e e' : Env K) (w w' : Well K) : Prop where
  index : windex e' w' = ℓ * windex e w
  q : w'.q = w.q.map fun v => α * ℓ * v
  qsp : w'.qsp = w.qsp.map fun v => α * ℓ * v
  pwf : w'.pwf = w.pwf.map fun v => α * v + β
  pwfsp : w'.pwfsp = w.pwfsp.map fun v => α * v + β
  con : w'.con = w.con

/-- The models correspond before the first step: same kinds of boundary conditions and wells, with corresponding values. -/
structure ModelSim (σ : ℕ → ℕ) (α β ℓ : K) (vect : Bool) (e e' : Env K) (m m' : Mdl K) : Prop where
  bd : List.Forall₂ (fun b b' => b'.1 = σ b.1 ∧ b'.2.1 = b.2.1 ∧ (b.2.1 = "pressure" → b'.2.2 = α * b.2.2 + β) ∧
    (b.2.1 ≠ "pressure" → vect = false → b'.2.2 = α * ℓ * b.2.2)) m.bdict m'.bdict
  wells : List.Forall₂ (fun w w' => w'.1 = σ w.1 ∧ WellSim α β ℓ e e' w.2 w'.2) m.wells m'.wells
  wPress : List.Forall₂ (fun x x' => x.1 ∈ e.ids ∧ x'.1 = σ x.1 ∧ x'.2 = x.2.map (Option.map fun v => α * v + β)) m.wPress m'.wPress
  initP : e.comp = true → ∀ id, id ∈ e.ids → ∃ v, m.initP id = some v ∧ m'.initP (σ id) = some (α * v + β)
  initR : ∀ id, (id ∈ e.ids ∨ id ∈ m.bdict.map (·.1)) → m'.initR (σ id) = α * ℓ * m.initR id

/-- The simulations correspond: as many steps, and at every step corresponding pressures of the cells, rates of the cells and of the faces with conditions, and wells;
corresponding recorded bottom-hole pressures. -/
structure RunSim (σ : ℕ → ℕ) (α β ℓ : K) (e e' : Env K) (m m' : Mdl K) (s s' : Sol K) : Prop where
  tstep : s'.tstep = s.tstep
  wells : List.Forall₂ (fun w w' => w'.1 = σ w.1 ∧ WellSim α β ℓ e e' w.2 w'.2) m.wells m'.wells
  wPress : List.Forall₂ (fun x x' => x.1 ∈ e.ids ∧ x'.1 = σ x.1 ∧ x'.2 = x.2.map (Option.map fun v => α * v + β)) m.wPress m'.wPress
  press : ∀ t, (0 < t ∨ e.comp = true) → ∀ id, id ∈ e.ids → rowAt s'.press t none (σ id) = (rowAt s.press t none id).map fun v => α * v + β
  rates : ∀ t id, (id ∈ e.ids ∨ id ∈ m.bdict.map (·.1)) → rowAt s'.rates t 0 (σ id) = α * ℓ * rowAt s.rates t 0 id

/-! ### positions -/

section
variable {σ : ℕ → ℕ} {α ℓ : K} {vect : Bool} {e e' : Env K}

/-- The position of the cell that corresponds to the cell at position `i`. -/
def tau (σ : ℕ → ℕ) (e e' : Env K) (i : ℕ) : ℕ := e'.ids.idxOf (σ (e.at i))

lemma Similar.mem (h : Similar σ α ℓ vect e e') {id : ℕ} (hid : id ∈ e.ids) : σ id ∈ e'.ids := h.perm.mem_iff.2 (List.mem_map_of_mem hid)

lemma Similar.n (h : Similar σ α ℓ vect e e') : e'.n = e.n := by
  unfold Env.n; rw [h.perm.length_eq, List.length_map]

lemma Similar.tau_lt (h : Similar σ α ℓ vect e e') {i : ℕ} (hi : i < e.n) : tau σ e e' i < e'.n := idx_lt e' (h.mem (at_mem e hi))

lemma Similar.at (h : Similar σ α ℓ vect e e') {i : ℕ} (hi : i < e.n) : e'.at (tau σ e e' i) = σ (e.at i) := at_idx e' (h.mem (at_mem e hi))

lemma Similar.at_inj (h : Similar σ α ℓ vect e e') {i id : ℕ} (hi : i < e.n) (hid : id ∈ e.ids) : σ id = e'.at (tau σ e e' i) ↔ id = e.at i := by
  rw [h.at hi]
  exact ⟨fun H => h.inj _ _ (.inl hid) (.inl (at_mem e hi)) H, fun H => by rw [H]⟩

lemma Similar.sum (h : Similar σ α ℓ vect e e') (he : e.WF) (he' : e'.WF) (F : ℕ → K) : ∑ k ∈ range e'.n, F k = ∑ i ∈ range e.n, F (tau σ e e' i) := by
  symm
  refine sum_bij (fun i _ => tau σ e e' i) (fun i hi => mem_range.2 (h.tau_lt (mem_range.1 hi))) ?_ ?_ fun _ _ => rfl
  · intro i hi j hj hij
    rw [mem_range] at hi hj
    have h1 := h.at hi
    rw [hij, h.at hj] at h1
    have h2 := h.inj _ _ (.inl (at_mem e hj)) (.inl (at_mem e hi)) h1
    rw [← idx_at e he.nodup hi, ← idx_at e he.nodup hj, h2]
  · intro k hk
    rw [mem_range] at hk
    have h1 := h.perm.mem_iff.1 (at_mem e' hk)
    obtain ⟨id, hid, h2⟩ := List.mem_map.1 h1
    refine ⟨e.ids.idxOf id, mem_range.2 (idx_lt e hid), ?_⟩
    unfold tau
    rw [at_idx e hid, h2, idx_at e' he'.nodup hk]

lemma Similar.flat (h : Similar σ α ℓ vect e e') (he : e.WF) (hf : e.Flat) : e'.Flat := by
  by_cases hg : e'.grav = 0
  · exact .inl hg
  right
  have key : ∀ k, k < e'.n → ∃ id, id ∈ e.ids ∧ σ id = e'.at k := fun k hk => by
    obtain ⟨id, hid, h2⟩ := List.mem_map.1 (h.perm.mem_iff.1 (at_mem e' hk))
    exact ⟨id, hid, h2⟩
  intro k hk
  obtain ⟨a, ha, h1⟩ := key k hk
  obtain ⟨b, hb, h2⟩ := key 0 (by omega)
  have h3 := h.head a b (.inl ha) (.inl hb)
  have h4 : e.grav * (e.z a - e.z b) = 0 := by
    rcases hf with hf | hf
    · rw [hf, zero_mul]
    · have x1 := hf _ (idx_lt e ha)
      have x2 := hf _ (idx_lt e hb)
      rw [at_idx e ha] at x1
      rw [at_idx e hb] at x2
      rw [x1, x2, sub_self, mul_zero]
  rw [h4, mul_zero, h1, h2, mul_eq_zero] at h3
  exact sub_eq_zero.1 (h3.resolve_left hg)

/-! ### flows -/

variable {β : K}

lemma boundaryIn_sim (h : Similar σ α ℓ vect e e') (he : e.WF) {rate rate' : ℕ → K} {p p' : K} {i : ℕ} (hi : i < e.n) {b b' : ℕ × String × K} (hb : b.1 ∈ e.bnd)
    (hp : p' = α * p + β) (h1 : b'.1 = σ b.1) (h2 : b'.2.1 = b.2.1) (h3 : b.2.1 = "pressure" → b'.2.2 = α * b.2.2 + β)
    (h4 : b.2.1 ≠ "pressure" → rate' (σ b.1) = α * ℓ * rate b.1) :
    boundaryIn e' rate' p' (tau σ e e' i) b' = α * ℓ * boundaryIn e rate p i b := by
  unfold boundaryIn
  rcases he.face b.1 hb with hF | ⟨id, T, hid, -, hF⟩
  · rw [h1, h.face _ _ hb hF, hF]; simp
  · rw [h1, h.face _ _ hb hF, show e.transC b.1 false = _ from hF]
    simp only [List.map_cons, List.map_nil]
    by_cases hii : id = e.at i
    · rw [if_pos ((h.at_inj hi hid).2 hii), if_pos hii, h2]
      by_cases hc : b.2.1 = "pressure"
      · rw [if_pos hc, if_pos hc, h3 hc, h.head _ _ (.inr hb) (.inl hid), hp]; ring
      · rw [if_neg hc, if_neg hc, h4 hc]
    · rw [if_neg fun H => hii ((h.at_inj hi hid).1 H), if_neg hii, mul_zero]

lemma wellFlow_sim {w w' : Well K} (hw : WellSim α β ℓ e e' w w') {p p' : K} (hp : p' = α * p + β) (hs : ∃ x, w.pwf = some x) : wellFlow e' w' p' = α * ℓ * wellFlow e w p := by
  unfold wellFlow
  rw [hw.con]
  obtain ⟨x, hx⟩ := hs
  rcases w.con with _ | _ | _
  · simp
  · rw [hw.q]; rcases w.q <;> simp
  · have := hw.index
    unfold windex at this
    dsimp only
    rw [this, hw.pwf, hx, hp]
    simp only [Option.map_some, Option.getD_some]
    ring

lemma wellIn_sim (h : Similar σ α ℓ vect e e') {w w' : ℕ × Well K} (h1 : w'.1 = σ w.1) (hw : WellSim α β ℓ e e' w.2 w'.2) {p p' : K} (hp : p' = α * p + β) (hs : ∃ x, w.2.pwf = some x)
    (hid : w.1 ∈ e.ids) {i : ℕ} (hi : i < e.n) : wellIn e' p' (tau σ e e' i) w' = α * ℓ * wellIn e p i w := by
  unfold wellIn
  rw [h1]
  by_cases hii : w.1 = e.at i
  · rw [if_pos ((h.at_inj hi hid).2 hii), if_pos hii, wellFlow_sim hw hp hs]
  · rw [if_neg fun H => hii ((h.at_inj hi hid).1 H), if_neg hii, mul_zero]

lemma sum_of_forall2 {A B : Type} {R : A → B → Prop} {f : A → K} {g : B → K} {k : K} (h : ∀ a b, R a b → g b = k * f a) {l : List A} {l' : List B} (h2 : List.Forall₂ R l l') :
    (l'.map g).sum = k * (l.map f).sum := by
  induction h2 with
  | nil => simp
  | cons h1 _ ih => simp only [List.map_cons, List.sum_cons]; rw [h _ _ h1, ih]; ring

/-- The balance of corresponding cells is proportional. -/
lemma excess_sim (h : Similar σ α ℓ vect e e') (he : e.WF) (he' : e'.WF) {m m' : Mdl K} (hm : MdlOK e m) {rate rate' old old' x x' : ℕ → K}
    (hbd : List.Forall₂ (fun b b' => b'.1 = σ b.1 ∧ b'.2.1 = b.2.1 ∧ (b.2.1 = "pressure" → b'.2.2 = α * b.2.2 + β) ∧ (b.2.1 ≠ "pressure" → rate' (σ b.1) = α * ℓ * rate b.1)) m.bdict m'.bdict)
    (hw : List.Forall₂ (fun w w' => w'.1 = σ w.1 ∧ WellSim α β ℓ e e' w.2 w'.2) m.wells m'.wells)
    (hx : ∀ i, i < e.n → x' (tau σ e e' i) = α * x i + β) (hold : e.comp = true → ∀ i, i < e.n → old' (tau σ e e' i) = α * old i + β) {i : ℕ} (hi : i < e.n) :
    excess e' (e'.trans vect) m' rate' old' x' (tau σ e e' i) = α * ℓ * excess e (e.trans vect) m rate old x i := by
  unfold excess outsideIn
  rw [h.sum he he', hx i hi, h.at hi, h.rhs _ (at_mem e hi)]
  have k1 : ∑ j ∈ range e.n, e'.trans vect (tau σ e e' i) (tau σ e e' j) * (x' (tau σ e e' j) - (α * x i + β) - e'.grav * (e'.z (e'.at (tau σ e e' j)) - e'.z (σ (e.at i)))) =
      α * ℓ * ∑ j ∈ range e.n, e.trans vect i j * (x j - x i - e.grav * (e.z (e.at j) - e.z (e.at i))) := by
    rw [mul_sum]
    refine sum_congr rfl fun j hj => ?_
    rw [mem_range] at hj
    have ht := h.trans _ _ (at_mem e hi) (at_mem e hj)
    rw [idx_at e he.nodup hi, idx_at e he.nodup hj] at ht
    rw [show e'.trans vect (tau σ e e' i) (tau σ e e' j) = _ from ht, hx j hj, h.at hj, h.head _ _ (.inl (at_mem e hj)) (.inl (at_mem e hi))]
    ring
  have k2 : (m'.bdict.map (boundaryIn e' rate' (α * x i + β) (tau σ e e' i))).sum = α * ℓ * (m.bdict.map (boundaryIn e rate (x i) i)).sum :=
    sum_of_forall2 (fun b b' hb => boundaryIn_sim h he hi (hm.bmem b hb.2.1) rfl hb.1.1 hb.1.2.1 hb.1.2.2.1 hb.1.2.2.2) (forall2_and hbd)
  have k3 : (m'.wells.map (wellIn e' (α * x i + β) (tau σ e e' i))).sum = α * ℓ * (m.wells.map (wellIn e (x i) i)).sum :=
    sum_of_forall2 (fun w w' hb => wellIn_sim h hb.1.1 hb.1.2 rfl (hm.well w hb.2.1).pwf (hm.wmem w hb.2.1) hi) (forall2_and hw)
  have k4 : ℓ * e.rhs (e.at i) * (α * x i + β - old' (tau σ e e' i)) = α * ℓ * (e.rhs (e.at i) * (x i - old i)) := by
    rcases hc : e.comp
    · rw [he.rhsI hc]; ring
    · rw [hold hc i hi]; ring
  rw [k1, k2, k3, k4]; ring

/-! ### wells -/

lemma est_sim (hα : 0 < α) (hℓ : 0 < ℓ) (he : e.WF) (he' : e'.WF) {w w' : Well K} (hw : WellSim α β ℓ e e' w w') (hok : WellOK w) (hok' : WellOK w') (p qs : K) :
    estPwf e' w' (α * p + β) (α * ℓ * qs) = α * estPwf e w p qs + β := by
  have hi := hw.index
  obtain ⟨G, hG, hG0⟩ := hok.G
  obtain ⟨G', hG', hG0'⟩ := hok'.G
  unfold windex at hi
  rw [hG, hG', Option.getD_some, Option.getD_some] at hi
  unfold estPwf
  rw [hG, hG', Option.getD_some, Option.getD_some]
  have h1 := he.B; have h2 := he.mu; have h3 := he'.B; have h4 := he'.mu
  have h5 : qs * e.B * e.mu / G = qs / (G / (e.B * e.mu)) := by field_simp
  have h6 : α * ℓ * qs * e'.B * e'.mu / G' = α * ℓ * qs / (G' / (e'.B * e'.mu)) := by field_simp
  rw [h5, h6, hi]
  have h7 : G / (e.B * e.mu) ≠ 0 := by positivity
  generalize G / (e.B * e.mu) = D at h7
  field_simp
  ring

lemma atLimit_sim {w w' : Well K} (hw : WellSim α β ℓ e e' w w') (hok : WellOK w) (p : K) :
    WellSim α β ℓ e e' (atLimit e w p) (atLimit e' w' (α * p + β)) ∧ windex e' w' * (w'.pwfsp.getD 0 - (α * p + β)) = α * ℓ * (windex e w * (w.pwfsp.getD 0 - p)) ∧
      w'.pwfsp.getD 0 = α * w.pwfsp.getD 0 + β := by
  obtain ⟨sp, hsp⟩ := hok.sp
  have h1 : w'.pwfsp.getD 0 = α * w.pwfsp.getD 0 + β := by rw [hw.pwfsp, hsp]; rfl
  have h2 : windex e' w' * (w'.pwfsp.getD 0 - (α * p + β)) = α * ℓ * (windex e w * (w.pwfsp.getD 0 - p)) := by rw [h1, hw.index]; ring
  refine ⟨⟨hw.index, ?_, hw.qsp, hw.pwfsp, hw.pwfsp, rfl⟩, h2, h1⟩
  unfold atLimit
  dsimp only
  rw [h2]; rfl

/-- Corresponding wells make corresponding moves. -/
lemma updateWell_sim (hα : 0 < α) (hℓ : 0 < ℓ) (he : e.WF) (he' : e'.WF) {w w' : Well K} (hw : WellSim α β ℓ e e' w w') (hok : WellOK w) (hok' : WellOK w') (p : K) :
    ∃ w1 q b ag w1', updateWell e p w = .ok (w1, q, b, ag) ∧ updateWell e' (α * p + β) w' = .ok (w1', α * ℓ * q, α * b + β, ag) ∧ WellSim α β ℓ e e' w1 w1' := by
  obtain ⟨a1, a2, a3⟩ := updateWell_ok (e := e) hok p
  obtain ⟨b1, b2, b3⟩ := updateWell_ok (e := e') hok' (α * p + β)
  obtain ⟨l1, l2, l3⟩ := atLimit_sim hw hok p
  have hk : α * ℓ ≠ 0 := (mul_pos hα hℓ).ne'
  rcases hq : w.qsp with _ | qs
  · have hq' : w'.qsp = none := by rw [hw.qsp, hq]; rfl
    refine ⟨_, _, _, _, _, a1 hq, ?_, l1⟩
    rw [b1 hq', l2, l3]
  · have hq' : w'.qsp = some (α * ℓ * qs) := by rw [hw.qsp, hq]; rfl
    have hest := est_sim hα hℓ he he' hw hok hok' p qs
    have hlt : ∀ a b : K, α * a + β < α * b + β ↔ a < b := fun a b => by
      rw [add_lt_add_iff_right, mul_lt_mul_iff_right₀ hα]
    rcases lt_or_ge (w.pwfsp.getD 0) (estPwf e w p qs) with h | h
    · have h' : w'.pwfsp.getD 0 < estPwf e' w' (α * p + β) (α * ℓ * qs) := by rw [hest, l3, hlt]; exact h
      refine ⟨_, _, _, _, atTarget e' w' (α * p + β) (α * ℓ * qs), a2 qs hq h, ?_, ?_⟩
      · obtain ⟨q, hqq⟩ := hok.tgt qs hq
        rw [b2 _ hq' h', hest, hw.q, hqq]; rfl
      · exact ⟨hw.index, hw.q, hw.qsp, by unfold atTarget; dsimp only; rw [hest]; rfl, hw.pwfsp, rfl⟩
    · have h' : estPwf e' w' (α * p + β) (α * ℓ * qs) ≤ w'.pwfsp.getD 0 := by rw [hest, l3, ← not_lt, hlt, not_lt]; exact h
      refine ⟨_, _, _, _, _, a3 qs hq h, ?_, l1⟩
      rw [b3 _ hq' h', l2, l3, hest]
      have : decide (α * estPwf e w p qs + β < α * w.pwfsp.getD 0 + β ∧ w'.q = some (α * ℓ * qs)) = decide (estPwf e w p qs < w.pwfsp.getD 0 ∧ w.q = some qs) := by
        rw [decide_eq_decide, hlt, hw.q]
        refine and_congr_right fun _ => ?_
        rcases w.q with _ | q
        · simp
        · simp only [Option.map_some, Option.some.injEq]
          exact ⟨fun H => mul_left_cancel₀ hk H, fun H => by rw [H]⟩
      rw [this]

/-- Corresponding loops over the wells. -/
lemma updateWells_sim (hα : 0 < α) (hℓ : 0 < ℓ) (he : e.WF) (he' : e'.WF) (S : ℕ → Prop) (hinj : ∀ a b, S a → S b → σ a = σ b → a = b) {p p' : ℕ → Option K}
    {l l' : List (ℕ × Well K)} (hl : List.Forall₂ (fun w w' => w'.1 = σ w.1 ∧ WellSim α β ℓ e e' w.2 w'.2) l l')
    (hok : ∀ x, x ∈ l → WellOK x.2) (hok' : ∀ x, x ∈ l' → WellOK x.2) (hS : ∀ x, x ∈ l → S x.1) (hp : ∀ x, x ∈ l → (p' (σ x.1)).getD 0 = α * (p x.1).getD 0 + β)
    {r r' : ℕ → K} (hr : ∀ k, S k → r' (σ k) = α * ℓ * r k) :
    ∃ ws r1 ps ag ws' r1' ps', updateWells e p l r = .ok (ws, r1, ps, ag) ∧ updateWells e' p' l' r' = .ok (ws', r1', ps', ag) ∧
      List.Forall₂ (fun w w' => w'.1 = σ w.1 ∧ WellSim α β ℓ e e' w.2 w'.2) ws ws' ∧ (∀ k, S k → r1' (σ k) = α * ℓ * r1 k) ∧
      List.Forall₂ (fun x x' => (∃ w, w ∈ l ∧ x.1 = w.1) ∧ x'.1 = σ x.1 ∧ x'.2 = α * x.2 + β) ps ps' := by
  induction hl generalizing r r' with
  | nil => exact ⟨[], r, [], false, [], r', [], rfl, rfl, .nil, hr, .nil⟩
  | @cons x x' t t' hx ht ih =>
    obtain ⟨id, w⟩ := x
    obtain ⟨id', w'⟩ := x'
    obtain ⟨h1, hw⟩ := hx
    dsimp only at h1 hw
    subst h1
    obtain ⟨w1, q, b, ag, w1', g1, g2, g3⟩ := updateWell_sim hα hℓ he he' hw (hok (id, w) (by simp)) (hok' (σ id, w') (by simp)) ((p id).getD 0)
    have hr' : ∀ k, S k → Function.update r' (σ id) (α * ℓ * q) (σ k) = α * ℓ * Function.update r id q k := by
      intro k hk
      by_cases hkid : k = id
      · subst hkid; simp
      · rw [Function.update_of_ne hkid, Function.update_of_ne fun H => hkid (hinj _ _ hk (hS (id, w) (by simp)) H)]
        exact hr k hk
    have hp0 := hp (id, w) (by simp)
    dsimp only at hp0
    cases ag with
    | true =>
      refine ⟨(id, w1) :: t, Function.update r id q, [], true, (σ id, w1') :: t', Function.update r' (σ id) (α * ℓ * q), [], ?_, ?_, .cons ⟨rfl, g3⟩ ht, hr', .nil⟩
      · unfold updateWells; rw [g1]; rfl
      · unfold updateWells; rw [hp0, g2]; rfl
    | false =>
      obtain ⟨ws, r1, ps, ag, ws', r1', ps', f1, f2, f3, f4, f5⟩ := ih (fun x hx => hok x (by simp [hx])) (fun x hx => hok' x (by simp [hx])) (fun x hx => hS x (by simp [hx]))
        (fun x hx => hp x (by simp [hx])) hr'
      refine ⟨(id, w1) :: ws, r1, (id, b) :: ps, ag, (σ id, w1') :: ws', r1', (σ id, α * b + β) :: ps', ?_, ?_, .cons ⟨rfl, g3⟩ f3, f4, .cons ⟨⟨(id, w), by simp, rfl⟩, rfl, rfl⟩ ?_⟩
      · unfold updateWells; rw [g1]; simp only [bind_ok, Bool.false_eq_true, if_false]; rw [f1]; rfl
      · unfold updateWells; rw [hp0, g2]; simp only [bind_ok, Bool.false_eq_true, if_false]; rw [f2]; rfl
      · refine f5.imp fun x x' hx => ⟨?_, hx.2⟩
        obtain ⟨w, hw, h⟩ := hx.1
        exact ⟨w, by simp [hw], h⟩

/-! ### recorded bottom-hole pressures -/

lemma dictGet_sim {A B : Type} {S : ℕ → Prop} (hinj : ∀ a b, S a → S b → σ a = σ b → a = b) {R : A → B → Prop} {d : List (ℕ × A)} {d' : List (ℕ × B)}
    (h : List.Forall₂ (fun x x' => S x.1 ∧ x'.1 = σ x.1 ∧ R x.2 x'.2) d d') {k : ℕ} (hk : S k) :
    (dictGet d k = none ∧ dictGet d' (σ k) = none) ∨ ∃ a b, dictGet d k = some a ∧ dictGet d' (σ k) = some b ∧ R a b := by
  induction h with
  | nil => exact .inl ⟨rfl, rfl⟩
  | @cons x x' t t' hx _ ih =>
    by_cases hxk : x.1 = k
    · exact .inr ⟨x.2, x'.2, by simp [dictGet, hxk], by simp [dictGet, hx.2.1, hxk], hx.2.2⟩
    · have : x'.1 ≠ σ k := fun H => hxk (hinj _ _ hx.1 hk (hx.2.1 ▸ H))
      unfold dictGet at ih ⊢
      rw [List.find?_cons_of_neg (by simpa using hxk), List.find?_cons_of_neg (by simpa using this)]
      exact ih

lemma dictSet_sim {A B : Type} {S : ℕ → Prop} (hinj : ∀ a b, S a → S b → σ a = σ b → a = b) {R : A → B → Prop} {d : List (ℕ × A)} {d' : List (ℕ × B)}
    (h : List.Forall₂ (fun x x' => S x.1 ∧ x'.1 = σ x.1 ∧ R x.2 x'.2) d d') {k : ℕ} (hk : S k) {a : A} {b : B} (hab : R a b) :
    List.Forall₂ (fun x x' => S x.1 ∧ x'.1 = σ x.1 ∧ R x.2 x'.2) (dictSet d k a) (dictSet d' (σ k) b) := by
  have hkey : ∀ (x : ℕ × A) (x' : ℕ × B), S x.1 ∧ x'.1 = σ x.1 ∧ R x.2 x'.2 → (x'.1 = σ k ↔ x.1 = k) := fun x x' hx =>
    ⟨fun H => hinj _ _ hx.1 hk (hx.2.1 ▸ H), fun H => by rw [hx.2.1, H]⟩
  have hany : (d'.any fun e => decide (e.1 = σ k)) = d.any fun e => decide (e.1 = k) := by
    induction h with
    | nil => rfl
    | cons hx _ ih => rw [List.any_cons, List.any_cons, ih, decide_eq_decide.2 (hkey _ _ hx)]
  unfold dictSet
  rw [hany]
  split_ifs with hA
  · clear hany hA
    induction h with
    | nil => exact .nil
    | @cons x x' _ _ hx _ ih =>
      refine .cons ?_ ih
      dsimp only
      by_cases hxk : x.1 = k
      · rw [if_pos hxk, if_pos ((hkey _ _ hx).2 hxk)]; exact ⟨hk, rfl, hab⟩
      · rw [if_neg hxk, if_neg fun H => hxk ((hkey _ _ hx).1 H)]; exact hx
  · exact List.rel_append h (.cons ⟨hk, rfl, hab⟩ .nil)

lemma records_sim {S : ℕ → Prop} (hinj : ∀ a b, S a → S b → σ a = σ b → a = b) {ps ps' : List (ℕ × K)}
    (hps : List.Forall₂ (fun x x' => S x.1 ∧ x'.1 = σ x.1 ∧ x'.2 = α * x.2 + β) ps ps') {d d' : List (ℕ × List (Option K))}
    (h : List.Forall₂ (fun x x' => S x.1 ∧ x'.1 = σ x.1 ∧ x'.2 = x.2.map (Option.map fun v => α * v + β)) d d') :
    List.Forall₂ (fun x x' => S x.1 ∧ x'.1 = σ x.1 ∧ x'.2 = x.2.map (Option.map fun v => α * v + β)) (ps.foldl (fun wp x => appendAt wp x.1 (some x.2)) d)
      (ps'.foldl (fun wp x => appendAt wp x.1 (some x.2)) d') := by
  induction hps generalizing d d' with
  | nil => exact h
  | @cons x x' t t' hx _ ih =>
    refine ih ?_
    unfold appendAt
    dsimp only
    rw [hx.2.1, hx.2.2]
    refine dictSet_sim (R := fun (a b : List (Option K)) => b = a.map (Option.map fun v => α * v + β)) hinj h hx.1 ?_
    rcases dictGet_sim (R := fun (a b : List (Option K)) => b = a.map (Option.map fun v => α * v + β)) hinj h hx.1 with ⟨h1, h2⟩ | ⟨a, b, h1, h2, h3⟩
    · rw [h1, h2]; rfl
    · rw [h1, h2, h3]; simp

/-! ### one attempt -/

lemma rowAt_past {A : Type} {l : List (ℕ → A)} {t : ℕ} (z : A) (h : l.length ≤ t) (id : ℕ) : rowAt l t z id = z := by
  unfold rowAt
  rw [List.getD_eq_getElem?_getD, List.getElem?_eq_none h]; rfl

lemma rowAt_snoc {A : Type} (l : List (ℕ → A)) (r : ℕ → A) (t : ℕ) (z : A) (id : ℕ) :
    rowAt (l ++ [r]) t z id = if t < l.length then rowAt l t z id else if t = l.length then r id else z := by
  split_ifs with h1 h2
  · rw [rowAt_append_lt h1]
  · rw [rowAt_append_eq h2.symm]
  · rw [rowAt_past z]
    rw [List.length_append, List.length_singleton]; omega

lemma attempt_sim {c c' : Ctx K} {m0 m m1 m0' m' m1' : Mdl K} {s s1 s' s1' : Sol K} {ag ag' : Bool} (hα : 0 < α) (hℓ : 0 < ℓ) (hS : Similar σ α ℓ vect c.e c'.e)
    (hr : Ready c m0) (hr' : Ready c' m0') (hx : Exact c.lin) (hx' : Exact c'.lin) (hf : vect = true → c.e.Flat) (han : Anchored c.e m0)
    (h0 : ModelSim σ α β ℓ vect c.e c'.e m0 m0') (hh : Hist c Calm m0 m s) (hh' : Hist c' Calm m0' m' s') (hR : RunSim σ α β ℓ c.e c'.e m m' s s')
    (hz : vect = true → NoZeroPwf m) (hz' : vect = true → NoZeroPwf m')
    (ha : attempt c vect m s = .ok (m1, s1, ag)) (ha' : attempt c' vect m' s' = .ok (m1', s1', ag')) :
    ag' = ag ∧ RunSim σ α β ℓ c.e c'.e m1 m1' s1 s1' := by
  obtain ⟨hi, hq⟩ := hr.calm hh
  obtain ⟨hi', hq'⟩ := hr'.calm hh'
  have he := hr.ctx.wf
  have he' := hr'.ctx.wf
  have hk : α * ℓ ≠ 0 := (mul_pos hα hℓ).ne'
  have hb := step_balance hr.ctx hx hi hq hf hz ha
  have hb' := step_balance hr'.ctx hx' hi' hq' (fun hv => hS.flat he (hf hv)) hz' ha'
  have hT := hr.ctx.grid.network vect
  -- corresponding conditions
  have hbd : List.Forall₂ (fun b b' => b'.1 = σ b.1 ∧ b'.2.1 = b.2.1 ∧ (b.2.1 = "pressure" → b'.2.2 = α * b.2.2 + β) ∧
      (b.2.1 ≠ "pressure" → usedRate vect m' s' (σ b.1) = α * ℓ * usedRate vect m s b.1)) m.bdict m'.bdict := by
    rw [hi.same.bdict, hi'.same.bdict]
    refine (forall2_and h0.bd).imp fun b b' hbb => ⟨hbb.1.1, hbb.1.2.1, hbb.1.2.2.1, fun hp => ?_⟩
    have u := usedRate_eq he' hr'.started.mdl hi' vect hbb.2.2 (by rw [hbb.1.2.1]; exact hp)
    rw [hbb.1.1] at u
    rw [u, usedRate_eq he hr.started.mdl hi vect hbb.2.1 hp]
    cases vect
    · exact hbb.1.2.2.2 hp rfl
    · exact h0.initR _ (.inr (List.mem_map_of_mem hbb.2.1))
  have hold : c.e.comp = true → ∀ i, i < c.e.n → s'.inner c'.e s'.tstep (tau σ c.e c'.e i) = α * s.inner c.e s.tstep i + β := by
    intro hc i hin
    have h1 := hh.known hr (fun id hid => let ⟨v, hv, _⟩ := h0.initP hc id hid; ⟨v, hv⟩) _ le_rfl (c.e.at i) (at_mem _ hin)
    obtain ⟨v, hv⟩ := Option.isSome_iff_exists.1 h1
    unfold Sol.inner
    rw [hS.at hin, hR.tstep, hR.press _ (.inr hc) _ (at_mem _ hin), hv]; rfl
  -- pressures
  have hpress : ∀ i, i < c.e.n → s1'.inner c'.e s1'.tstep (tau σ c.e c'.e i) = α * s1.inner c.e s1.tstep i + β := by
    have key : ∀ i, i < c.e.n → s1.inner c.e s1.tstep i = (s1'.inner c'.e s1'.tstep (tau σ c.e c'.e i) - β) / α := by
      refine Net.eq_of_inflow_eq (anchored_leaky he hT hi.mdl (hh.anchored hr han)) fun i hin => ?_
      have e1 := excess_linear c.e hT m (usedRate vect m s) (s.inner c.e s.tstep) (s1.inner c.e s1.tstep) hin
      have e2 := excess_linear c.e hT m (usedRate vect m s) (s.inner c.e s.tstep) (fun i => (s1'.inner c'.e s1'.tstep (tau σ c.e c'.e i) - β) / α) hin
      rw [← e1, ← e2, hb i hin]
      have e3 := excess_sim (β := β) (x := fun i => (s1'.inner c'.e s1'.tstep (tau σ c.e c'.e i) - β) / α) (x' := s1'.inner c'.e s1'.tstep) hS he he' hi.mdl hbd hR.wells
        (fun j _ => by rw [mul_div_cancel₀ _ hα.ne']; ring) hold hin
      rw [hb' _ (hS.tau_lt hin)] at e3
      rw [(mul_eq_zero.1 e3.symm).resolve_left hk]
    intro i hin
    rw [key i hin, mul_div_cancel₀ _ hα.ne']; ring
  have hkeys : ∀ k, k ∈ m.bdict.map (·.1) → k ∈ c.e.bnd := fun k hk' => by
    obtain ⟨b, hb1, rfl⟩ := List.mem_map.1 hk'
    exact hi.mdl.bmem b hb1
  have hinj : ∀ a b, (a ∈ c.e.ids ∨ a ∈ m.bdict.map (·.1)) → (b ∈ c.e.ids ∨ b ∈ m.bdict.map (·.1)) → σ a = σ b → a = b :=
    fun a b ha1 hb1 => hS.inj a b (ha1.imp_right (hkeys a)) (hb1.imp_right (hkeys b))
  -- the parts of the attempts
  obtain ⟨n1, t1, A, d, x, r, ws, r2, ps, a1, -, a3, a4, rfl, rfl⟩ := attempt_parts ha
  obtain ⟨n1', t1', A', d', x', r', ws', r2', ps', a1', -, a3', a4', rfl, rfl⟩ := attempt_parts ha'
  obtain ⟨⟨ts, rfl⟩, vA, bV, res, sM, rfl⟩ := assemble_frame a1
  obtain ⟨⟨ts', rfl⟩, vA', bV', res', sM', rfl⟩ := assemble_frame a1'
  dsimp only at *
  have hp : ∀ id, id ∈ c.e.ids → newRow c'.e.ids (lastRow s'.press none) x' (σ id) = (newRow c.e.ids (lastRow s.press none) x id).map fun v => α * v + β := by
    intro id hid
    have h1 := hpress _ (idx_lt c.e hid)
    unfold Sol.inner at h1
    rw [rowAt_append_eq hi.plen, rowAt_append_eq hi'.plen, hS.at (idx_lt c.e hid), at_idx c.e hid, newRow_mem hid, newRow_mem (hS.mem hid)] at h1
    rw [newRow_mem hid, newRow_mem (hS.mem hid)]
    simpa using h1
  have hrow : ∀ t id, (id ∈ c.e.ids ∨ id ∈ m.bdict.map (·.1)) → rowAt s'.rates t 0 (σ id) = α * ℓ * rowAt s.rates t 0 id := hR.rates
  -- boundary rates
  have hrb : ∀ k, (k ∈ c.e.ids ∨ k ∈ m.bdict.map (·.1)) → r' (σ k) = α * ℓ * r k := by
    obtain ⟨b1, b2⟩ := updateBounds_ok _ _ _ _ a3
    obtain ⟨b1', b2'⟩ := updateBounds_ok _ _ _ _ a3'
    intro k hkS
    by_cases hku : k ∈ m.bUpdate
    · obtain ⟨v, hv⟩ := upd_pressure hi.mdl hku
      obtain ⟨y, hy, y1, y2, y3, -⟩ := (forall2_mem hbd).2 _ (mem_of_dictGet hv)
      obtain ⟨y0, yc, yv⟩ := y
      dsimp only at y1 y2 y3
      subst y1 y2
      have y4 := y3 rfl
      subst y4
      obtain ⟨id, T, g1, g2⟩ := b2 k hku
      obtain ⟨id', T', g1', g2'⟩ := b2' (σ k) (upd_of_mem hi'.mdl hy rfl)
      have hkb := hi.mdl.bmem _ (mem_of_dictGet hv)
      have hid := (face_mem he hkb g1).1
      have h1 := hS.face _ _ hkb g1
      rw [show c'.e.transC (σ k) false = _ from g1'] at h1
      simp only [List.map_cons, List.map_nil, Except.ok.injEq, List.cons.injEq, Prod.mk.injEq, and_true] at h1
      obtain ⟨rfl, rfl⟩ := h1
      have hgp := hp id hid
      rw [g2, g2', hgp, newRow_mem hid]
      have d1 := dictGet_of_mem hi'.mdl.bkeys hy
      dsimp only at d1
      unfold bTerm
      rw [hv, d1]
      have hh1 := hS.head _ _ (.inr hkb) (.inl hid)
      have l1 : c.lower "pressure" ∈ ["pressure", "press", "p"] := by rw [show c.lower "pressure" = _ from hr.ctx.lower.1]; simp
      have l2 : c'.lower "pressure" ∈ ["pressure", "press", "p"] := by rw [show c'.lower "pressure" = _ from hr'.ctx.lower.1]; simp
      dsimp only
      rw [if_pos l1, if_pos l2]
      simp only [Aff.smul, Aff.sub, Aff.c, Option.map_some, Option.getD_some]
      rw [hh1]; ring
    · have hku' : σ k ∉ m'.bUpdate := by
        intro H
        obtain ⟨v, hv⟩ := upd_pressure hi'.mdl H
        obtain ⟨y, hy, y1, y2, -⟩ := (forall2_mem hbd).1 _ (mem_of_dictGet hv)
        dsimp only at y1 y2
        have h1 := hinj _ _ hkS (.inr (List.mem_map_of_mem hy)) y1
        subst h1
        exact hku (upd_of_mem hi.mdl hy y2.symm)
      rw [b1 k hku, b1' _ hku', lastRow_eq hi.rlen, lastRow_eq hi'.rlen, hR.tstep]
      exact hR.rates _ _ hkS
  obtain ⟨ws1, r3, ps1, ag1, ws1', r3', ps1', g1, g2, g3, g4, g5⟩ := updateWells_sim hα hℓ he he' (fun k => k ∈ c.e.ids ∨ k ∈ m.bdict.map (·.1)) hinj hR.wells hi.mdl.well hi'.mdl.well
    (fun w hw => .inl (hi.mdl.wmem w hw)) (p := newRow c.e.ids (lastRow s.press none) x) (p' := newRow c'.e.ids (lastRow s'.press none) x')
    (fun w hw => by rw [hp _ (hi.mdl.wmem w hw), newRow_mem (hi.mdl.wmem w hw)]; rfl) hrb
  rw [g1] at a4
  rw [g2] at a4'
  simp only [Except.ok.injEq, Prod.mk.injEq] at a4 a4'
  obtain ⟨rfl, rfl, rfl, rfl⟩ := a4
  obtain ⟨rfl, rfl, rfl, rfl⟩ := a4'
  have l1 : s'.press.length = s.press.length := by rw [hi.plen, hi'.plen, hR.tstep]
  have l2 : s'.rates.length = s.rates.length := by rw [hi.rlen, hi'.rlen, hR.tstep]
  refine ⟨rfl, ⟨by dsimp only; rw [hR.tstep], g3, ?_, ?_, ?_⟩⟩
  · dsimp only
    split_ifs
    · exact hR.wPress
    · refine records_sim (S := fun k => k ∈ c.e.ids) (fun a b h1 h2 => hS.inj a b (.inl h1) (.inl h2)) (g5.imp fun y y' hy => ⟨?_, hy.2⟩) hR.wPress
      obtain ⟨w, hw, h⟩ := hy.1
      rw [h]; exact hi.mdl.wmem w hw
  · intro t ht id hid
    dsimp only
    rw [rowAt_snoc, rowAt_snoc, l1]
    split_ifs
    · exact hR.press t ht id hid
    · exact hp id hid
    · rfl
  · intro t id hid
    dsimp only at hid ⊢
    rw [rowAt_snoc, rowAt_snoc, l2]
    split_ifs
    · exact hR.rates t id hid
    · exact g4 id hid
    · rw [mul_zero]

/-! ### whole simulations -/

lemma noZero_sim {e e' : Env K} {m m0' m' : Mdl K} {s s' : Sol K} (hα : 0 < α) (hsame : SameMdl m0' m') (hz : β = 0 ∨ ∀ w, w ∈ m0'.wells → w.2.pwfsp ≠ some 0)
    (hR : RunSim σ α β ℓ e e' m m' s s') (hc : NoZeroPwf m) : NoZeroPwf m' := by
  intro x' hx' hcon
  rcases hz with rfl | hz
  · obtain ⟨x, hx, h1, h2⟩ := (forall2_mem hR.wells).1 x' hx'
    have h3 := hc x hx (by rw [← h2.con]; exact hcon)
    rw [h2.pwfsp]
    intro H
    obtain ⟨v, hv, hv0⟩ := Option.map_eq_some_iff.1 H
    rw [add_zero, mul_eq_zero] at hv0
    exact h3 (by rw [hv, hv0.resolve_left hα.ne'])
  · obtain ⟨x, hx, h1, h2⟩ := (forall2_mem hsame.wells).1 x' hx'
    rw [h2.2.1]; exact hz x hx

/-- The wells of the second simulation are as calm as those of the first. -/
lemma calm_sim {c c' : Ctx K} {m m1 m0' m' m1' : Mdl K} {s s1 s' s1' : Sol K} (hα : 0 < α) (hS : Similar σ α ℓ vect c.e c'.e) (hi : MdlOK c.e m) (hi1 : MdlOK c.e m1) (hsame : SameMdl m0' m')
    (hz : vect = true → β = 0 ∨ ∀ w, w ∈ m0'.wells → w.2.pwfsp ≠ some 0) (hR : RunSim σ α β ℓ c.e c'.e m m' s s') (hR1 : RunSim σ α β ℓ c.e c'.e m1 m1' s1 s1')
    (hc : Calm vect m m1) : Calm vect m' m1' := by
  refine ⟨fun x' y' hx' hy' hxy hcon => ?_, fun hv => ?_⟩
  · obtain ⟨x, hx, h1, h2⟩ := (forall2_mem hR.wells).1 x' hx'
    obtain ⟨y, hy, h3, h4⟩ := (forall2_mem hR1.wells).1 y' hy'
    rw [h4.con]
    refine hc.1 x y hx hy (hS.inj _ _ (.inl (hi.wmem x hx)) (.inl (hi1.wmem y hy)) (by rw [← h1, ← h3, hxy])) ?_
    rw [← h2.con]; exact hcon
  · exact noZero_sim hα hsame (hz hv) hR (hc.2 hv)

lemma attempt_step {c c' : Ctx K} {m0 m m1 m0' m' m1' : Mdl K} {s s1 s' s1' : Sol K} {ag ag' : Bool} (hα : 0 < α) (hℓ : 0 < ℓ) (hS : Similar σ α ℓ vect c.e c'.e)
    (hr : Ready c m0) (hr' : Ready c' m0') (hx : Exact c.lin) (hx' : Exact c'.lin) (hf : vect = true → c.e.Flat) (han : Anchored c.e m0)
    (h0 : ModelSim σ α β ℓ vect c.e c'.e m0 m0') (hz : vect = true → β = 0 ∨ ∀ w, w ∈ m0'.wells → w.2.pwfsp ≠ some 0)
    (hh : Hist c Calm m0 m s) (hh' : Hist c' Calm m0' m' s') (hR : RunSim σ α β ℓ c.e c'.e m m' s s') (hc : Calm vect m m1)
    (ha : attempt c vect m s = .ok (m1, s1, ag)) (ha' : attempt c' vect m' s' = .ok (m1', s1', ag')) :
    ag' = ag ∧ RunSim σ α β ℓ c.e c'.e m1 m1' s1 s1' ∧ Calm vect m' m1' ∧ RunSim σ α β ℓ c.e c'.e m1 m1' s1.back s1'.back := by
  have hi := hr.inv hh
  have hi' := hr'.inv hh'
  obtain ⟨h1, h2⟩ := attempt_sim hα hℓ hS hr hr' hx hx' hf han h0 hh hh' hR hc.2 (fun hv => noZero_sim hα hi'.same (hz hv) hR (hc.2 hv)) ha ha'
  obtain ⟨_, _, _, _, _, _, _, _, g⟩ := attempted hr.ctx.lower hr.ctx.wf hi ha
  obtain ⟨_, _, _, _, _, _, _, _, g'⟩ := attempted hr'.ctx.lower hr'.ctx.wf hi' ha'
  obtain ⟨b1, b2, b3⟩ := back_attempted hi g
  obtain ⟨b1', b2', b3'⟩ := back_attempted hi' g'
  refine ⟨h1, h2, calm_sim hα hS hi.mdl g.core.mdl hi'.same hz hR h2 hc, ⟨by rw [b3, b3', hR.tstep], h2.wells, h2.wPress, ?_, ?_⟩⟩
  · rw [b1, b1']; exact hR.press
  · rw [b2, b2', g.same.bdict]; exact hR.rates

lemma solve_sim {c c' : Ctx K} {m0 m m1 m0' m' m1' : Mdl K} {s s1 s' s1' : Sol K} (hα : 0 < α) (hℓ : 0 < ℓ) (hS : Similar σ α ℓ vect c.e c'.e)
    (hr : Ready c m0) (hr' : Ready c' m0') (hx : Exact c.lin) (hx' : Exact c'.lin) (hf : vect = true → c.e.Flat) (han : Anchored c.e m0)
    (h0 : ModelSim σ α β ℓ vect c.e c'.e m0 m0') (hz : vect = true → β = 0 ∨ ∀ w, w ∈ m0'.wells → w.2.pwfsp ≠ some 0) {fuel fuel' : ℕ}
    (hh : Hist c Calm m0 m s) (hh' : Hist c' Calm m0' m' s') (hR : RunSim σ α β ℓ c.e c'.e m m' s s') (hP : SolveAll c Calm fuel vect m s)
    (hs : solve c fuel vect true m s = .ok (m1, s1)) (hs' : solve c' fuel' vect true m' s' = .ok (m1', s1')) :
    RunSim σ α β ℓ c.e c'.e m1 m1' s1 s1' ∧ Hist c Calm m0 m1 s1 ∧ Hist c' Calm m0' m1' s1' := by
  induction fuel generalizing fuel' m m' s s' with
  | zero => unfold solve at hs; simp at hs
  | succ fuel ih =>
    cases fuel' with
    | zero => unfold solve at hs'; simp at hs'
    | succ fuel' =>
      unfold solve at hs hs'
      simp only [if_true] at hs hs'
      rw [ok_bind] at hs hs'
      obtain ⟨⟨m2, s2, ag⟩, ha, hs⟩ := hs
      obtain ⟨⟨m2', s2', ag'⟩, ha', hs'⟩ := hs'
      obtain ⟨hc, hP2⟩ := hP _ _ _ ha
      obtain ⟨rfl, k1, k2, k3⟩ := attempt_step hα hℓ hS hr hr' hx hx' hf han h0 hz hh hh' hR hc ha ha'
      dsimp only at hs hs'
      cases ag' with
      | true =>
        rw [if_pos rfl] at hs hs'
        exact ih (.again hh ha hc) (.again hh' ha' k2) k3 (hP2 rfl) hs hs'
      | false =>
        rw [if_neg (by simp), ok_pure] at hs hs'
        simp only [Prod.mk.injEq] at hs hs'
        obtain ⟨rfl, rfl⟩ := hs
        obtain ⟨rfl, rfl⟩ := hs'
        exact ⟨k1, .step hh ha hc, .step hh' ha' k2⟩

lemma runLoop_sim {c c' : Ctx K} {m0 m m0' m' : Mdl K} {s s' : Sol K} (hα : 0 < α) (hℓ : 0 < ℓ) (hS : Similar σ α ℓ vect c.e c'.e)
    (hr : Ready c m0) (hr' : Ready c' m0') (hx : Exact c.lin) (hx' : Exact c'.lin) (hf : vect = true → c.e.Flat) (han : Anchored c.e m0)
    (h0 : ModelSim σ α β ℓ vect c.e c'.e m0 m0') (hz : vect = true → β = 0 ∨ ∀ w, w ∈ m0'.wells → w.2.pwfsp ≠ some 0) {fuel fuel' : ℕ}
    (hh : Hist c Calm m0 m s) (hh' : Hist c' Calm m0' m' s') (hR : RunSim σ α β ℓ c.e c'.e m m' s s') (n : ℕ) (hP : RunAll c Calm fuel vect n m s)
    (hs : (runLoop c fuel vect n m s).2 = .ok ()) (hs' : (runLoop c' fuel' vect n m' s').2 = .ok ()) :
    RunSim σ α β ℓ c.e c'.e (runLoop c fuel vect n m s).1.1 (runLoop c' fuel' vect n m' s').1.1 (runLoop c fuel vect n m s).1.2 (runLoop c' fuel' vect n m' s').1.2 ∧
      Hist c' Calm m0' (runLoop c' fuel' vect n m' s').1.1 (runLoop c' fuel' vect n m' s').1.2 := by
  induction n generalizing m m' s s' with
  | zero => exact ⟨hR, hh'⟩
  | succ n ih =>
    unfold runLoop at hs hs' ⊢
    rcases e1 : Fdm.solve c fuel vect true m s with x | ⟨m1, s1⟩
    · rw [e1] at hs; simp at hs
    rcases e2 : Fdm.solve c' fuel' vect true m' s' with x | ⟨m1', s1'⟩
    · rw [e2] at hs'; simp at hs'
    rw [e1] at hs
    rw [e2] at hs'
    obtain ⟨k1, k2, k3⟩ := solve_sim hα hℓ hS hr hr' hx hx' hf han h0 hz hh hh' hR hP.1 e1 e2
    exact ih k2 k3 k1 (hP.2 m1 s1 e1) hs hs'

lemma init_sim {e e' : Env K} {m0 m0' : Mdl K} (h0 : ModelSim σ α β ℓ vect e e' m0 m0') : RunSim σ α β ℓ e e' m0 m0' (Sol.init m0) (Sol.init m0') := by
  refine ⟨rfl, h0.wells, h0.wPress, ?_, ?_⟩
  · intro t ht id hid
    rcases t with _ | t
    · obtain ⟨v, h1, h2⟩ := h0.initP (ht.resolve_left (by simp)) id hid
      show m0'.initP (σ id) = (m0.initP id).map _
      rw [h1, h2]; rfl
    · rw [rowAt_past none (by simp [Sol.init]), rowAt_past none (by simp [Sol.init])]; rfl
  · intro t id hid
    rcases t with _ | t
    · exact h0.initR id hid
    · rw [rowAt_past 0 (by simp [Sol.init]), rowAt_past 0 (by simp [Sol.init]), mul_zero]

end
end RF.Fdm
