import Verif.Fdm.FromGrid
/-! # The balance of a cell as flow in a network, and the rows of the vectorised assembly -/
set_option linter.unusedSectionVars false
namespace RF.Fdm
open RF RF.Dims Finset

variable {K : Type} [Field K] [LinearOrder K] [IsStrictOrderedRing K]

/-- Transmissibilities between `n` cells: symmetric, not negative, none of a cell with itself, all cells connected. -/
structure Network (n : ℕ) (T : ℕ → ℕ → K) : Prop where
  symm : ∀ i j, i < n → j < n → T i j = T j i
  diag : ∀ i, i < n → T i i = 0
  nonneg : ∀ i j, i < n → j < n → 0 ≤ T i j
  conn : ∀ i j, i < n → j < n → Relation.ReflTransGen (Net.Link n T) i j

lemma Env.WF.network {e : Env K} (he : e.WF) : Network e.n e.transV :=
  ⟨fun i j _ _ => he.symm i j, he.diag, he.nonneg, he.conn⟩

/-- What flows into the cell at position `i` at pressure 0. -/
def source (e : Env K) (m : Mdl K) (rate old : ℕ → K) (i : ℕ) : K := e.rhs (e.at i) * old i + outsideIn e m rate 0 i

lemma boundaryIn_eq (e : Env K) (rate : ℕ → K) (p : K) (i : ℕ) (c : ℕ × String × K) :
    boundaryIn e rate p i c = boundaryIn e rate 0 i c - bLeak e i c * p := by
  unfold boundaryIn bLeak faceLeak
  split <;> split_ifs <;> ring

lemma wellIn_eq (e : Env K) (p : K) (i : ℕ) (w : ℕ × Well K) : wellIn e p i w = wellIn e 0 i w - wLeak e i w * p := by
  unfold wellIn wLeak wellFlow windex
  rcases h : w.2.con with _ | _ | _ <;> by_cases h1 : w.1 = e.at i <;> simp [h1] <;> ring

lemma sum_map_sub_mul {α : Type} (l : List α) (f g : α → K) (p : K) :
    (l.map fun x => f x - g x * p).sum = (l.map f).sum - (l.map g).sum * p := by
  induction l with
  | nil => simp
  | cons a l ih => simp only [List.map_cons, List.sum_cons, ih]; ring

lemma outsideIn_eq (e : Env K) (m : Mdl K) (rate : ℕ → K) (p : K) (i : ℕ) :
    outsideIn e m rate p i = outsideIn e m rate 0 i - ((m.bdict.map (bLeak e i)).sum + (m.wells.map (wLeak e i)).sum) * p := by
  unfold outsideIn
  rw [show (boundaryIn e rate p i) = fun c => boundaryIn e rate 0 i c - bLeak e i c * p from funext (boundaryIn_eq e rate p i),
    show (wellIn e p i) = fun w => wellIn e 0 i w - wLeak e i w * p from funext (wellIn_eq e p i), sum_map_sub_mul, sum_map_sub_mul]
  ring

lemma flat_zero {e : Env K} (hf : e.Flat) {i j : ℕ} (hi : i < e.n) (hj : j < e.n) : e.grav * (e.z (e.at j) - e.z (e.at i)) = 0 := by
  rcases hf with h | h
  · simp [h]
  · rw [h i hi, h j hj]; simp

/-- The balance as an equation of a leaking network. -/
lemma excess_eq {e : Env K} (hf : e.Flat) (T : ℕ → ℕ → K) (m : Mdl K) (rate old x : ℕ → K) {i : ℕ} (hi : i < e.n) :
    excess e T m rate old x i = Net.inflow e.n T (leak e m) x i + source e m rate old i := by
  unfold excess Net.inflow source leak
  rw [outsideIn_eq]
  have : ∑ j ∈ range e.n, T i j * (x j - x i - e.grav * (e.z (e.at j) - e.z (e.at i))) = ∑ j ∈ range e.n, T i j * (x j - x i) := by
    refine sum_congr rfl fun j hj => ?_
    rw [flat_zero hf hi (mem_range.1 hj), sub_zero]
  rw [this]; ring

lemma sum_if_single {n i : ℕ} (hi : i < n) (f g : ℕ → K) (v : K) :
    ∑ j ∈ range n, (if i = j then v else f j) * g j = v * g i + ∑ j ∈ range n, f j * g j - f i * g i := by
  have : ∀ j, (if i = j then v else f j) * g j = f j * g j + if i = j then (v - f i) * g i else 0 := by
    intro j; split_ifs with h
    · subst h; ring
    · ring
  rw [sum_congr rfl fun j _ => this j, sum_add_distrib, sum_ite_eq]
  rw [if_pos (mem_range.2 hi)]; ring

/-- Rows of a matrix `VMat` describe a leaking network. -/
lemma row_inflow {e : Env K} (he : e.WF) {m : Mdl K} {res : ℕ → Bool} {A : ℕ → ℕ → K} (hA : VMat e m res A) (x : ℕ → K) {i : ℕ} (hi : i < e.n) :
    ∑ j ∈ range e.n, A i j * x j =
      Net.inflow e.n e.transV (fun i => e.rhs (e.at i) + leakB e m i + leakW e m.wells res i) x i := by
  rw [sum_congr rfl fun j hj => by rw [hA i j hi (mem_range.1 hj)], sum_if_single hi]
  unfold Net.inflow
  have : ∑ j ∈ range e.n, e.transV i j * (x j - x i) = ∑ j ∈ range e.n, e.transV i j * x j - (∑ j ∈ range e.n, e.transV i j) * x i := by
    rw [sum_mul, ← sum_sub_distrib]; exact sum_congr rfl fun j _ => by ring
  rw [this, he.diag i hi]; ring

lemma leakB_eq {e : Env K} {m : Mdl K} (hm : MdlOK e m) (i : ℕ) : leakB e m i = (m.bdict.map (bLeak e i)).sum := by
  unfold leakB
  rw [hm.upd]
  generalize m.bdict = l
  induction l with
  | nil => rfl
  | cons c l ih =>
    rw [List.map_cons (l := l), List.sum_cons]
    by_cases h : c.2.1 = "pressure"
    · rw [List.filter_cons_of_pos (by simpa using h), List.map_cons, List.map_cons, List.sum_cons, ih]
      simp [bLeak, h]
    · rw [List.filter_cons_of_neg (by simpa using h), ih]
      simp [bLeak, h]

/-- Wells entered in the matrix are exactly those that are under pressure constraint now. -/
def NoStale (m : Mdl K) (s : Sol K) : Prop := ∀ x, x ∈ m.wells → flags s x.1 = true → x.2.con = some .pwf

lemma leakW_eq {e : Env K} {m : Mdl K} (hm : MdlOK e m) (hz : NoZeroPwf m) {s : Sol K} (hs : NoStale m s) {res : ℕ → Bool}
    (hr : ∀ k, res k = (flags s k || onPwf m.wells k)) (i : ℕ) : leakW e m.wells res i = (m.wells.map (wLeak e i)).sum := by
  unfold leakW
  congr 1
  refine List.map_congr_left fun x hx => ?_
  have h1 : res x.1 = true ↔ x.2.con = some .pwf := by
    rw [hr, Bool.or_eq_true, onPwf_iff hm.wkeys hx]
    exact ⟨fun h => h.elim (hs x hx) id, Or.inr⟩
  unfold wLeak
  simp only [h1]
  refine if_ctx_congr Iff.rfl (fun h => ?_) fun _ => rfl
  unfold wCond; rw [if_neg (hz x hx h.2)]

lemma wellNum_eq {e : Env K} {m : Mdl K} (hm : MdlOK e m) (hz : NoZeroPwf m) (i : ℕ) :
    (m.wells.map fun x => if x.1 = e.at i then wellNum e x.2 else 0).sum = (m.wells.map (wellIn e 0 i)).sum := by
  congr 1
  refine List.map_congr_left fun x hx => ?_
  unfold wellIn wellNum wellFlow
  rcases h : x.2.con with _ | _ | _
  · rfl
  · rfl
  · have h1 := hz x hx h
    have h2 := (hm.well x hx).lim h
    simp only [h1, if_false, h2, windex, sub_zero]

/-- **Rows of the vectorised assembly.** The residual of row `i` is the balance of the cell at position `i`. -/
theorem vect_residual {lower : String → String} (hl : LowerOK lower) {e : Env K} (he : e.WF) (hf : e.Flat) {m : Mdl K} (hm : MdlOK e m)
    (hz : NoZeroPwf m) {s s' : Sol K} (hv : VInv e m s) (hs : NoStale m s) {A : ℕ → ℕ → K} {d : ℕ → K}
    (h : matricesVect lower e m s = .ok (s', A, d)) (x : ℕ → K) {i : ℕ} (hi : i < e.n) :
    ∑ j ∈ range e.n, A i j * x j - d i = excess e e.transV m (rowAt s.rates s.tstep 0) (s.inner e s.tstep) x i := by
  obtain ⟨bV, res, -, hk, hr, hd⟩ := matricesVect_ok hl he hm hv h
  rw [excess_eq hf _ _ _ _ _ hi, row_inflow he hk.mat x hi, hd i hi (Or.inl hf), wellNum_eq hm hz]
  have : Net.inflow e.n e.transV (fun i => e.rhs (e.at i) + leakB e m i + leakW e m.wells res i) x i = Net.inflow e.n e.transV (leak e m) x i := by
    unfold Net.inflow leak
    dsimp only
    rw [leakB_eq hm, leakW_eq hm hz hs hr]
  rw [this]; unfold source outsideIn; ring

theorem vect_solves {lower : String → String} (hl : LowerOK lower) {e : Env K} (he : e.WF) (hf : e.Flat) {m : Mdl K} (hm : MdlOK e m)
    (hz : NoZeroPwf m) {s s' : Sol K} (hv : VInv e m s) (hs : NoStale m s) {A : ℕ → ℕ → K} {d : ℕ → K}
    (h : matricesVect lower e m s = .ok (s', A, d)) (x : ℕ → K) :
    Solves e.n A d x ↔ ∀ i, i < e.n → excess e e.transV m (rowAt s.rates s.tstep 0) (s.inner e s.tstep) x i = 0 := by
  unfold Solves
  refine forall₂_congr fun i hi => ?_
  rw [← vect_residual hl he hf hm hz hv hs h x hi, sub_eq_zero]

/-! ### consequences of balance -/

/-- Some conductance to a given pressure exists. -/
def HasLeak (e : Env K) (m : Mdl K) : Prop := ∃ i, i < e.n ∧ 0 < leak e m i

lemma faceLeak_nonneg {e : Env K} (he : e.WF) (i : ℕ) {b : ℕ} (hb : b ∈ e.bnd) : 0 ≤ faceLeak e i b := by
  unfold faceLeak
  rcases he.face b hb with h | ⟨id, T, -, hT, h⟩
  · rw [h]
  · rw [show e.transC b false = _ from h]
    dsimp only
    split_ifs
    · positivity
    · exact le_refl 0

lemma bLeak_nonneg {e : Env K} (he : e.WF) (i : ℕ) {c : ℕ × String × K} (hb : c.1 ∈ e.bnd) : 0 ≤ bLeak e i c := by
  unfold bLeak; split_ifs
  · exact faceLeak_nonneg he i hb
  · exact le_refl 0

lemma wLeak_nonneg {e : Env K} (he : e.WF) (i : ℕ) {w : ℕ × Well K} (hw : WellOK w.2) : 0 ≤ wLeak e i w := by
  unfold wLeak; split_ifs
  · exact (windex_pos he.B he.mu hw).le
  · exact le_refl 0

lemma rhs_nonneg {e : Env K} (he : e.WF) {id : ℕ} (h : id ∈ e.ids) : 0 ≤ e.rhs id := by
  rcases hc : e.comp
  · rw [he.rhsI hc]
  · exact (he.rhsC hc id h).le

lemma sum_nonneg' {α : Type} {l : List α} {f : α → K} (h : ∀ x, x ∈ l → 0 ≤ f x) : 0 ≤ (l.map f).sum := by
  apply List.sum_nonneg
  simpa using h

lemma le_sum_of_mem {α : Type} {l : List α} {f : α → K} (h : ∀ x, x ∈ l → 0 ≤ f x) {a : α} (ha : a ∈ l) : f a ≤ (l.map f).sum := by
  induction l with
  | nil => simp at ha
  | cons b l ih =>
    rw [List.map_cons, List.sum_cons]
    have h1 := sum_nonneg' (l := l) (f := f) fun x hx => h x (by simp [hx])
    have h2 := h b (by simp)
    rcases List.mem_cons.1 ha with rfl | ha
    · linarith
    · have := ih (fun x hx => h x (by simp [hx])) ha; linarith

lemma leak_nonneg {e : Env K} (he : e.WF) {m : Mdl K} (hm : MdlOK e m) {i : ℕ} (hi : i < e.n) : 0 ≤ leak e m i := by
  unfold leak
  have h1 := rhs_nonneg he (at_mem e hi)
  have h2 := sum_nonneg' (l := m.bdict) (f := bLeak e i) fun c hc => bLeak_nonneg he i (hm.bmem c hc)
  have h3 := sum_nonneg' (l := m.wells) (f := wLeak e i) fun c hc => wLeak_nonneg he i (hm.well c hc)
  linarith

lemma Anchored.leak {e : Env K} (he : e.WF) {m : Mdl K} (hm : MdlOK e m) (h : Anchored e m) : HasLeak e m := by
  have key : ∀ i, i < e.n → (0 < e.rhs (e.at i) ∨ (∃ c, c ∈ m.bdict ∧ 0 < bLeak e i c) ∨ ∃ w, w ∈ m.wells ∧ 0 < wLeak e i w) → HasLeak e m := by
    intro i hi h
    refine ⟨i, hi, ?_⟩
    unfold Fdm.leak
    have h1 := rhs_nonneg he (at_mem e hi)
    have g2 : ∀ c, c ∈ m.bdict → 0 ≤ bLeak e i c := fun c hc => bLeak_nonneg he i (hm.bmem c hc)
    have g3 : ∀ c, c ∈ m.wells → 0 ≤ wLeak e i c := fun c hc => wLeak_nonneg he i (hm.well c hc)
    have h2 := sum_nonneg' g2
    have h3 := sum_nonneg' g3
    rcases h with h | ⟨c, hc, h⟩ | ⟨c, hc, h⟩
    · linarith
    · have := le_sum_of_mem g2 hc; linarith
    · have := le_sum_of_mem g3 hc; linarith
  rcases h with h | ⟨c, id, T, hc, hp, hF, hT⟩ | ⟨w, hw, hc⟩
  · exact key 0 he.pos (Or.inl (he.rhsC h _ (at_mem e he.pos)))
  · have hid : id ∈ e.ids := by
      rcases he.face c.1 (hm.bmem c hc) with h' | ⟨id', T', hid', -, h'⟩
      · rw [show e.transC c.1 false = _ from hF] at h'; simp at h'
      · rw [Env.Face, show e.transC c.1 false = _ from hF] at h'; simp at h'; rw [h'.1]; exact hid'
    refine key (e.ids.idxOf id) (idx_lt e hid) (Or.inr (Or.inl ⟨c, hc, ?_⟩))
    unfold bLeak faceLeak
    rw [if_pos hp, show e.transC c.1 false = _ from hF]
    dsimp only
    rw [if_pos (at_idx e hid).symm]; positivity
  · have hid := hm.wmem w hw
    refine key (e.ids.idxOf w.1) (idx_lt e hid) (Or.inr (Or.inr ⟨w, hw, ?_⟩))
    unfold wLeak
    rw [if_pos ⟨(at_idx e hid).symm, hc⟩]
    exact windex_pos he.B he.mu (hm.well w hw)

lemma Network.leaky {n : ℕ} {T : ℕ → ℕ → K} (h : Network n T) {D : ℕ → K} (hd : ∀ i, i < n → 0 ≤ D i) (hl : ∃ i, i < n ∧ 0 < D i) :
    Net.Leaky n T D :=
  ⟨fun i j hi hj _ => h.nonneg i j hi hj, hd, fun i hi => by
    obtain ⟨j, hj, h'⟩ := hl
    exact ⟨j, hj, h.conn i j hi hj, h'⟩⟩

lemma anchored_leaky {e : Env K} (he : e.WF) {T : ℕ → ℕ → K} (hT : Network e.n T) {m : Mdl K} (hm : MdlOK e m) (h : Anchored e m) :
    Net.Leaky e.n T (leak e m) := hT.leaky (fun _ => leak_nonneg he hm) (h.leak he hm)

/-- Pressures that balance are unique. -/
theorem balance_unique {e : Env K} (he : e.WF) (hf : e.Flat) {T : ℕ → ℕ → K} (hT : Network e.n T) {m : Mdl K} (hm : MdlOK e m) (ha : Anchored e m)
    {rate old x y : ℕ → K} (hx : ∀ i, i < e.n → excess e T m rate old x i = 0) (hy : ∀ i, i < e.n → excess e T m rate old y i = 0) :
    ∀ i, i < e.n → x i = y i := by
  refine Net.eq_of_inflow_eq (anchored_leaky he hT hm ha) fun i hi => ?_
  have h1 := hx i hi
  have h2 := hy i hi
  rw [excess_eq hf _ _ _ _ _ hi] at h1 h2
  exact add_right_cancel (h1.trans h2.symm)

/-- Comparison: with at least the same source everywhere and the same conductances, pressures are at least as high. -/
theorem balance_mono {e : Env K} (he : e.WF) (hf : e.Flat) {T : ℕ → ℕ → K} (hT : Network e.n T) {m m' : Mdl K} (hm : MdlOK e m) (ha : Anchored e m)
    {rate old x rate' old' x' : ℕ → K} (hk : ∀ i, i < e.n → leak e m' i = leak e m i)
    (hsrc : ∀ i, i < e.n → source e m rate old i ≤ source e m' rate' old' i)
    (hx : ∀ i, i < e.n → excess e T m rate old x i = 0) (hx' : ∀ i, i < e.n → excess e T m' rate' old' x' i = 0) :
    ∀ i, i < e.n → x i ≤ x' i := by
  refine Net.le_of_inflow_le (anchored_leaky he hT hm ha) fun i hi => ?_
  have h1 := hx i hi
  have h2 := hx' i hi
  rw [excess_eq hf _ _ _ _ _ hi] at h1 h2
  have : Net.inflow e.n T (leak e m') x' i = Net.inflow e.n T (leak e m) x' i := by unfold Net.inflow; rw [hk i hi]
  rw [this] at h2
  have := hsrc i hi
  linarith

/-- A constant `c` balances from below if every outside pressure is at least `c`. -/
lemma const_le {e : Env K} (he : e.WF) (hf : e.Flat) {T : ℕ → ℕ → K} (hT : Network e.n T) {m : Mdl K} (hm : MdlOK e m) (ha : Anchored e m)
    {rate old x : ℕ → K} {c : K} (hc : ∀ i, i < e.n → leak e m i * c ≤ source e m rate old i)
    (hx : ∀ i, i < e.n → excess e T m rate old x i = 0) : ∀ i, i < e.n → c ≤ x i := by
  refine Net.le_of_inflow_le (p := fun _ => c) (anchored_leaky he hT hm ha) fun i hi => ?_
  have h1 := hx i hi
  rw [excess_eq hf _ _ _ _ _ hi] at h1
  have h2 := hc i hi
  have : Net.inflow e.n T (leak e m) (fun _ => c) i = -(leak e m i * c) := by unfold Net.inflow; simp
  rw [this]; linarith

lemma le_const {e : Env K} (he : e.WF) (hf : e.Flat) {T : ℕ → ℕ → K} (hT : Network e.n T) {m : Mdl K} (hm : MdlOK e m) (ha : Anchored e m)
    {rate old x : ℕ → K} {c : K} (hc : ∀ i, i < e.n → source e m rate old i ≤ leak e m i * c)
    (hx : ∀ i, i < e.n → excess e T m rate old x i = 0) : ∀ i, i < e.n → x i ≤ c := by
  refine Net.le_of_inflow_le (q := fun _ => c) (anchored_leaky he hT hm ha) fun i hi => ?_
  have h1 := hx i hi
  rw [excess_eq hf _ _ _ _ _ hi] at h1
  have h2 := hc i hi
  have : Net.inflow e.n T (leak e m) (fun _ => c) i = -(leak e m i * c) := by unfold Net.inflow; simp
  rw [this]; linarith

end RF.Fdm
