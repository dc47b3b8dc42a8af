import Verif.Fdm.Examples2
/-! # What enters the equations: gradients, zero pressures, gravity (C29, C48, C49) -/
set_option linter.unusedSectionVars false
namespace RF.Fdm
open RF RF.Dims Finset

section
variable {K : Type} [Field K] [LinearOrder K] [IsStrictOrderedRing K]

/-! ## C29 -/

lemma kind_gradient {x : String} (h : kindOf x = some .gradient) : x ∉ ["rate", "q"] ∧ x ∉ ["pressure", "press", "p"] := by
  unfold kindOf at h
  split_ifs at h with h1 h2 h3
  · simp at h
  · simp at h
  · exact ⟨h1, h2⟩

lemma Setup.gradient {lower : String → String} {e : Env K} {m : Mdl K} (h : Setup lower e m) :
    ∀ b, b ∈ m.bdict → kindOf (lower b.2.1) = some .gradient → gradientRate e b.1 b.2.2 = .ok (m.initR b.1) := by
  induction h with
  | init pi => simp [Mdl.init]
  | bounds _ hb hs _ =>
    obtain ⟨-, a1, -, -, -, -, -, -, a8⟩ := setBoundaries_ok hb hs
    intro b hb' hk
    rw [a1] at hb'
    obtain ⟨h1, h2⟩ := kind_gradient hk
    exact ((a8 b hb').2.2 h1 h2).2
  | well _ hs ih =>
    obtain ⟨k, req, r, G, w', wp, rfl, hk, -, -, -, rfl, hw'⟩ := setWell_ok hs
    exact ih

/-- The rate of a gradient `v` over the face of boundary cell `b`: transmissibility of the face times size of the cell behind it, along the axis on which the two
are neighbours, times the gradient. -/
def GradientFlow (e : Env K) (b : ℕ) (v q : K) : Prop :=
  ∃ id T d a, e.Face b id T ∧ e.nbrs b = .ok d ∧ id ∈ d.get a ∧ q = T * e.size a id * v

lemma gradientRate_ok {e : Env K} {b : ℕ} {v q : K} (h : gradientRate e b v = .ok q) : GradientFlow e b v q := by
  unfold gradientRate at h
  rw [ok_bind] at h
  obtain ⟨l, hl, h⟩ := h
  split at h
  · rename_i id T
    rw [ok_bind] at h
    obtain ⟨d, hd, h⟩ := h
    rw [ok_bind] at h
    obtain ⟨a, ha, h⟩ := h
    rw [ok_pure] at h
    refine ⟨id, T, d, a, hl, hd, ?_, h.symm⟩
    unfold axisOf at ha
    split at ha
    · rename_i a' hf
      simp only [Except.ok.injEq] at ha
      subst ha
      simpa using List.find?_some hf
    · simp at ha
  · simp at h

lemma gradient_not_pressure {c : Ctx K} {m0 : Mdl K} (hr : Ready c m0) {b : ℕ × String × K} (hb : b ∈ m0.bdict) (hk : kindOf (c.lower b.2.1) = some .gradient) : b.2.1 ≠ "pressure" :=
  fun h => (kind_gradient hk).2 ((hr.canon b hb).2 h)

/-- What is recorded for a gradient condition: its flow, in every row. -/
lemma gradient_recorded {c : Ctx K} {m0 : Mdl K} (hr : Ready c m0) {P : Bool → Mdl K → Mdl K → Prop} {m : Mdl K} {s : Sol K} (hh : Hist c P m0 m s) {b : ℕ × String × K} (hb : b ∈ m0.bdict)
    (hk : kindOf (c.lower b.2.1) = some .gradient) : GradientFlow c.e b.1 b.2.2 (m0.initR b.1) ∧ ∀ t, t ≤ s.tstep → rowAt s.rates t 0 b.1 = m0.initR b.1 :=
  ⟨gradientRate_ok (hr.setup.gradient b hb hk), fun t ht => (hr.inv hh).row t ht b.1 (mem_bdict_not_upd hr.started.mdl hb (gradient_not_pressure hr hb hk))
    (mem_bdict_not_well hr.ctx.wf hr.started.mdl hb)⟩

/-- **C29**, partial: with the vectorised assembler the pressures of a step balance with inflows over the faces under a gradient condition of transmissibility times
size times gradient, and that is what is recorded. Missing: the symbolic assembler (`C29_symbolic_fails`), reservoirs with gravity, histories in which a well leaves
its limit. -/
theorem C29_vectorised_partial {c : Ctx K} {m0 : Mdl K} (hr : Ready c m0) (hx : Exact c.lin) (hf : c.e.Flat) {m m' : Mdl K} {s s' : Sol K} (hh : Hist c Calm m0 m s)
    (hz : NoZeroPwf m) {again : Bool} (ha : attempt c true m s = .ok (m', s', again)) :
    ∃ rate : ℕ → K, (∀ i, i < c.e.n → excess c.e (c.e.trans true) m rate (s.inner c.e s.tstep) (s'.inner c.e s'.tstep) i = 0) ∧
      ∀ b, b ∈ m0.bdict → kindOf (c.lower b.2.1) = some .gradient → GradientFlow c.e b.1 b.2.2 (rate b.1) ∧ ∀ t, t ≤ s'.tstep → rowAt s'.rates t 0 b.1 = rate b.1 := by
  obtain ⟨hi, hq⟩ := hr.calm hh
  refine ⟨usedRate true m s, step_balance hr.ctx hx hi hq (fun _ => hf) (fun _ => hz) ha, fun b hb hk => ?_⟩
  obtain ⟨m1, s1, A, d, x, p, r', ps, h⟩ := attempted hr.ctx.lower hr.ctx.wf hi ha
  have hinv : Inv c.e m0 m' s' := h.inv hi
  have h1 := usedRate_eq hr.ctx.wf hr.started.mdl hi true hb (gradient_not_pressure hr hb hk)
  rw [if_pos rfl] at h1
  rw [h1]
  exact ⟨(gradient_recorded hr hh hb hk).1, fun t ht => hinv.row t ht b.1 (mem_bdict_not_upd hr.started.mdl hb (gradient_not_pressure hr hb hk))
    (mem_bdict_not_well hr.ctx.wf hr.started.mdl hb)⟩

/-- **C29 fails** with the symbolic assembler, in every model: the pressures of a step balance with an inflow equal to the gradient itself, whereas transmissibility
times size times gradient is recorded. -/
theorem C29_symbolic_fails {c : Ctx K} {m0 : Mdl K} (hr : Ready c m0) (hx : Exact c.lin) {m m' : Mdl K} {s s' : Sol K} (hh : Hist c Calm m0 m s)
    {again : Bool} (ha : attempt c false m s = .ok (m', s', again)) :
    ∃ rate : ℕ → K, (∀ i, i < c.e.n → excess c.e (c.e.trans false) m rate (s.inner c.e s.tstep) (s'.inner c.e s'.tstep) i = 0) ∧
      ∀ b, b ∈ m0.bdict → kindOf (c.lower b.2.1) = some .gradient → rate b.1 = b.2.2 ∧ ∃ q, GradientFlow c.e b.1 b.2.2 q ∧ ∀ t, t ≤ s'.tstep → rowAt s'.rates t 0 b.1 = q := by
  obtain ⟨hi, hq⟩ := hr.calm hh
  refine ⟨usedRate false m s, step_balance hr.ctx hx hi hq (by simp) (by simp) ha, fun b hb hk => ?_⟩
  obtain ⟨m1, s1, A, d, x, p, r', ps, h⟩ := attempted hr.ctx.lower hr.ctx.wf hi ha
  have hinv : Inv c.e m0 m' s' := h.inv hi
  have h1 := usedRate_eq hr.ctx.wf hr.started.mdl hi false hb (gradient_not_pressure hr hb hk)
  simp only [Bool.false_eq_true, if_false] at h1
  exact ⟨h1, m0.initR b.1, (gradient_recorded hr hh hb hk).1, fun t ht => hinv.row t ht b.1 (mem_bdict_not_upd hr.started.mdl hb (gradient_not_pressure hr hb hk))
    (mem_bdict_not_well hr.ctx.wf hr.started.mdl hb)⟩

/-! ## C49 -/

/-- Interior pressures in hydrostatic balance. -/
def Hydrostatic (e : Env K) (x : ℕ → K) : Prop := ∀ i j, i < e.n → j < e.n → x j - x i = e.grav * (e.z (e.at j) - e.z (e.at i))

/-- **C49**, partial: with the symbolic assembler nothing flows between cells in hydrostatic balance. Without conditions and wells, pressures in hydrostatic balance satisfy
the equations exactly if they store nothing: always in an incompressible reservoir, and for the previous pressures in a compressible one. Missing: the vectorised
assembler (`C49_vectorised_fails`). -/
theorem C49_symbolic_partial {c : Ctx K} {m0 : Mdl K} (hr : Ready c m0) (hb : m0.bdict = []) (hw : m0.wells = []) {m m' : Mdl K} {s s' : Sol K} (hh : Hist c Calm m0 m s)
    {A : ℕ → ℕ → K} {d : ℕ → K} (ha : assemble c false m s = .ok (m', s', A, d)) {x : ℕ → K} (hy : Hydrostatic c.e x) :
    Solves c.e.n A d x ↔ ∀ i, i < c.e.n → c.e.rhs (c.e.at i) * (x i - s.inner c.e s.tstep i) = 0 := by
  obtain ⟨hi, hq⟩ := hr.calm hh
  rw [assemble_solves hr.ctx hi hq (by simp) (by simp) ha]
  refine forall₂_congr fun i hin => ?_
  unfold excess outsideIn
  have hw' : m.wells = [] := by
    have := hi.same.wells.keys
    rw [hw] at this
    simpa using this
  rw [hi.same.bdict, hb, hw']
  rw [sum_eq_zero fun j hj => by rw [hy i j hin (mem_range.1 hj)]; ring]
  simp

/-- A function without sources or sinks on a connected network is constant. -/
lemma Network.harmonic {n : ℕ} {T : ℕ → ℕ → K} (h : Network n T) {u : ℕ → K} (hu : ∀ i, i < n → ∑ j ∈ range n, T i j * (u j - u i) = 0) :
    ∀ i j, i < n → j < n → u i = u j := by
  intro a b ha hb
  let D : ℕ → K := fun i => if i = a then 1 else 0
  have hL : Net.Leaky n T D := h.leaky (fun i _ => by dsimp only [D]; split_ifs; exacts [zero_le_one, le_refl 0]) ⟨a, ha, by simp [D]⟩
  have key := Net.eq_of_inflow_eq (p := fun i => u i - u a) (q := fun _ => 0) hL fun i hi => by
    unfold Net.inflow
    have h1 : ∑ j ∈ range n, T i j * (u j - u a - (u i - u a)) = 0 := by rw [← hu i hi]; exact sum_congr rfl fun j _ => by ring
    rw [h1]
    by_cases hia : i = a
    · subst hia; simp
    · simp [D, hia]
  have := key b hb
  exact (sub_eq_zero.1 this).symm

/-- **C49 fails** with the vectorised assembler, in every reservoir that has cells of different depth, no conditions and no wells: no pressures in hydrostatic balance
that store nothing satisfy the equations, because gravity does not enter them. -/
theorem C49_vectorised_fails {c : Ctx K} {m0 : Mdl K} (hr : Ready c m0) (hb : m0.bdict = []) (hw : m0.wells = []) {P : Bool → Mdl K → Mdl K → Prop} {m m' : Mdl K} {s s' : Sol K}
    (hh : Hist c P m0 m s) (hf : ¬ c.e.Flat) {A : ℕ → ℕ → K} {d : ℕ → K} (ha : assemble c true m s = .ok (m', s', A, d)) {x : ℕ → K} (hy : Hydrostatic c.e x)
    (hx : ∀ i, i < c.e.n → c.e.rhs (c.e.at i) * (x i - s.inner c.e s.tstep i) = 0) : ¬ Solves c.e.n A d x := by
  intro hs
  have hi := hr.inv hh
  have hw' : m.wells = [] := by
    have := hi.same.wells.keys
    rw [hw] at this
    simpa using this
  have hb' : m.bdict = [] := by rw [hi.same.bdict, hb]
  obtain ⟨bV, res, -, hk, -, hd⟩ := matricesVect_ok hr.ctx.lower hr.ctx.wf hi.mdl hi.vinv (assemble_vect ha).2
  have key := hr.ctx.wf.network.harmonic (u := fun i => c.e.grav * c.e.z (c.e.at i)) fun i hin => by
    have h1 := hs i hin
    rw [row_inflow hr.ctx.wf hk.mat _ hin, hd i hin (Or.inr (by rw [hw']; simp))] at h1
    unfold Net.inflow at h1
    dsimp only at h1
    rw [leakB_eq hi.mdl, hb', hw'] at h1
    simp only [leakW, List.map_nil, List.sum_nil, add_zero, sub_zero] at h1
    have h2 : ∑ j ∈ range c.e.n, c.e.transV i j * (c.e.grav * c.e.z (c.e.at j) - c.e.grav * c.e.z (c.e.at i)) =
        ∑ j ∈ range c.e.n, c.e.transV i j * (x j - x i) :=
      sum_congr rfl fun j hj => by rw [hy i j hin (mem_range.1 hj)]; ring
    have h3 := hx i hin
    rw [h2]; linarith
  refine hf ?_
  by_cases hg : c.e.grav = 0
  · exact Or.inl hg
  · refine Or.inr fun i hin => ?_
    exact mul_left_cancel₀ hg (key i 0 hin hr.ctx.wf.pos)

/-! ## C48 -/

/-- **C48**, partial: with the symbolic assembler the equations say that every cell balances, and a well held at bottom-hole pressure 0 takes part in the balance with
`-G/(μB)·(p - 0)`. Wells and boundary pressures of 0 are allowed. Missing: the vectorised assembler (`C48_vectorised_fails`, `C48_boundary_fails`). -/
theorem C48_symbolic_partial {c : Ctx K} {m0 : Mdl K} (hr : Ready c m0) {m m' : Mdl K} {s s' : Sol K} (hh : Hist c Calm m0 m s) {A : ℕ → ℕ → K} {d : ℕ → K}
    (ha : assemble c false m s = .ok (m', s', A, d)) :
    (∀ x, Solves c.e.n A d x ↔ ∀ i, i < c.e.n → excess c.e (c.e.trans false) m (givenRate m) (s.inner c.e s.tstep) x i = 0) ∧
      ∀ w, w ∈ m.wells → w.2.con = some .pwf → w.2.pwfsp = some 0 → ∃ G, w.2.G = some G ∧ ∀ p, wellFlow c.e w.2 p = -(G / (c.e.mu * c.e.B)) * (p - 0) := by
  obtain ⟨hi, hq⟩ := hr.calm hh
  refine ⟨fun x => assemble_solves hr.ctx hi hq (by simp) (by simp) ha x, fun w hw hc h0 => ?_⟩
  obtain ⟨G, hG, -⟩ := (hi.mdl.well w hw).G
  refine ⟨G, hG, fun p => ?_⟩
  have h1 := (hi.mdl.well w hw).lim hc
  unfold wellFlow
  rw [h0] at h1
  simp only [hc, hG, h1, Option.getD_some]
  rw [mul_comm c.e.mu]; ring

/-- A well held at bottom-hole pressure 0 replaced by one producing at the fixed rate `-G/(μB)`. -/
def zeroAsRate (e : Env K) (w : Well K) : Well K := if w.con = some .pwf ∧ w.pwfsp = some 0 then { w with con := some .q, q := some (-windex e w) } else w

/-- **C48 fails** with the vectorised assembler, in every model: a well held at bottom-hole pressure 0 enters the equations as one producing at the fixed rate `-G/(μB)`,
whatever the pressure of its cell. -/
theorem C48_vectorised_fails {c : Ctx K} {m0 : Mdl K} (hr : Ready c m0) (hf : c.e.Flat) {m m' : Mdl K} {s s' : Sol K} (hh : Hist c Calm m0 m s) {A : ℕ → ℕ → K} {d : ℕ → K}
    (ha : assemble c true m s = .ok (m', s', A, d)) (x : ℕ → K) :
    Solves c.e.n A d x ↔ ∀ i, i < c.e.n →
      excess c.e (c.e.trans true) { m with wells := m.wells.map fun w => (w.1, zeroAsRate c.e w.2) } (rowAt s.rates s.tstep 0) (s.inner c.e s.tstep) x i = 0 := by
  obtain ⟨hi, hq⟩ := hr.calm hh
  obtain ⟨bV, res, -, hk, hres, hd⟩ := matricesVect_ok hr.ctx.lower hr.ctx.wf hi.mdl hi.vinv (assemble_vect ha).2
  unfold Solves
  refine forall₂_congr fun i hin => ?_
  rw [← sub_eq_zero, excess_eq hf _ _ _ _ _ hin, row_inflow hr.ctx.wf hk.mat x hin, hd i hin (Or.inl hf)]
  have hw : ∀ w, w ∈ m.wells → (res w.1 = true ↔ w.2.con = some .pwf) := fun w hw => by
    rw [hres, Bool.or_eq_true, onPwf_iff hi.mdl.wkeys hw]
    exact ⟨fun h => h.elim (hq.noStale w hw) id, Or.inr⟩
  have h1 : leakW c.e m.wells res i = ((m.wells.map fun w => (w.1, zeroAsRate c.e w.2)).map (wLeak c.e i)).sum := by
    unfold leakW
    rw [List.map_map]
    congr 1
    refine List.map_congr_left fun w hwm => ?_
    simp only [Function.comp_apply, wLeak, zeroAsRate, hw w hwm, wCond]
    by_cases ha : w.2.con = some .pwf <;> by_cases hb : w.2.pwfsp = some 0 <;> by_cases hc : w.1 = c.e.at i <;> simp [ha, hb, hc]
  have h2 : (m.wells.map fun w => if w.1 = c.e.at i then wellNum c.e w.2 else 0).sum = ((m.wells.map fun w => (w.1, zeroAsRate c.e w.2)).map (wellIn c.e 0 i)).sum := by
    rw [List.map_map]
    congr 1
    refine List.map_congr_left fun w hwm => ?_
    simp only [Function.comp_apply, wellIn, wellFlow, wellNum, zeroAsRate]
    have hlim := (hi.mdl.well w hwm).lim
    rcases ha : w.2.con with _ | _ | _ <;> by_cases hb : w.2.pwfsp = some 0 <;> by_cases hc : w.1 = c.e.at i <;> simp [ha, hb, hc]
    rw [← hlim ha, windex]
  unfold source leak outsideIn Net.inflow
  dsimp only
  rw [h1, h2, leakB_eq hi.mdl]
  refine Eq.congr ?_ rfl
  simp only [Env.trans, if_true]
  ring

lemma foldlM_error {α β : Type} {f : β → α → Except Err β} (l : List α) (b : β) {x : α} (hx : x ∈ l)
    (h : ∀ b a, a ∈ l → f b a = .error .value ∨ ∃ b', f b a = .ok b') (hf : ∀ b, f b x = .error .value) : l.foldlM f b = .error .value := by
  induction l generalizing b with
  | nil => simp at hx
  | cons a l ih =>
    rw [List.foldlM_cons]
    rcases List.mem_cons.1 hx with rfl | hx
    · rw [hf]; rfl
    · rcases h b a (by simp) with h1 | ⟨b', h1⟩
      · rw [h1]; rfl
      · rw [h1, bind_ok]; exact ih b' hx fun b a ha => h b a (by simp [ha])

/-- **C48 fails** for a boundary pressure of 0 (in general, one that equals the gravity term) with the vectorised assembler, in every model: the first assembly raises
`ValueError`, because the equation has no constant to unpack. -/
theorem C48_boundary_fails {c : Ctx K} {m0 : Mdl K} (hr : Ready c m0) {b : ℕ} {v : K} (hb : (b, "pressure", v) ∈ m0.bdict) {id : ℕ} {T : K} (hF : c.e.Face b id T)
    (h0 : v = c.e.grav * (c.e.z b - c.e.z id)) {s : Sol K} (hs : s.vA = none ∨ s.tstep = 0) : assemble c true m0 s = .error .value ∧ attempt c true m0 s = .error .value := by
  have hm := hr.started.mdl
  have key : m0.bUpdate.foldlM (vBound c.lower c.e m0) (initA c.e, []) = .error .value := by
    refine foldlM_error _ _ (x := b) ?_ (fun acc a ha => ?_) fun acc => ?_
    · rw [hm.upd]; exact List.mem_map.2 ⟨_, List.mem_filter.2 ⟨hb, by simp⟩, rfl⟩
    · have hbnd : a ∈ c.e.bnd := by
        rw [hm.upd] at ha
        obtain ⟨y, hy, rfl⟩ := List.mem_map.1 ha
        exact hm.bmem y (List.mem_filter.1 hy).1
      unfold vBound
      rcases hr.ctx.wf.face a hbnd with h | ⟨id', T', hid', -, h⟩
      · rw [h]; exact Or.inl rfl
      · rw [show c.e.transC a false = _ from h, bind_ok]
        dsimp only
        split
        · exact Or.inr ⟨_, by rw [cellIndex_ok.2 ⟨hid', rfl⟩, bind_ok]; rfl⟩
        · exact Or.inl rfl
    · unfold vBound
      rw [show c.e.transC b false = _ from hF, bind_ok]
      dsimp only
      split
      · rename_i v0 v1 hv
        rw [bTerm_pressure hr.ctx.lower (dictGet_of_mem hm.bkeys hb), values_two] at hv
        exact absurd (by simp [Aff.smul, Aff.sub, Aff.p, Aff.c, h0]) hv.1
      · rfl
  have h1 : matricesVect c.lower c.e m0 s = .error .value := by
    unfold matricesVect vReady
    rcases hs with hs | hs
    · rw [hs]; dsimp only; rw [key]; rfl
    · rw [hs]; cases s.vA <;> dsimp only <;> simp only [if_true, key] <;> rfl
  have h2 : assemble c true m0 s = .error .value := by unfold assemble; simp only [if_true]; rw [h1]; rfl
  refine ⟨h2, ?_⟩
  unfold attempt
  rw [h2]; rfl

end

/-! ## Instances -/

/-- What an attempt that succeeded returned. -/
def exAtt (c : Ctx ℚ) (vect : Bool) (x : Mdl ℚ × Sol ℚ) (h : isOk (attempt c vect x.1 x.2) = true) : Mdl ℚ × Sol ℚ × Bool := getOk _ h

lemma exAtt_eq (c : Ctx ℚ) (vect : Bool) (x : Mdl ℚ × Sol ℚ) (h : isOk (attempt c vect x.1 x.2) = true) :
    attempt c vect x.1 x.2 = .ok ((exAtt c vect x h).1, (exAtt c vect x h).2.1, (exAtt c vect x h).2.2) := getOk_eq _ h

/-- A gradient of 4 on the left where transmissibility times size is 1/2. -/
def exGrad : Mdl ℚ := mkMdl (exNC true 0 []) (some 8) [(0, "gradient", 4), (3, "pressure", 8)] [(2, { q := some (-1), pwf := some 1, r := some 1 })]

lemma exGrad_ready : Ready (exNC true 0 []) exGrad := mkMdl_ready (exNC_ok _ _ _) (fun _ => rfl) (by decide +kernel)

lemma exGrad_ok (vect : Bool) : isOk (attempt (exNC true 0 []) vect (exRun (exNC true 0 []) vect 2 exGrad).1 (exRun (exNC true 0 []) vect 2 exGrad).2) = true := by
  cases vect <;> decide +kernel

/-- The hypotheses of both theorems on gradients are met after two steps, and a rate of 2 is recorded. -/
example (vect : Bool) : Hist (exNC true 0 []) Calm exGrad (exRun (exNC true 0 []) vect 2 exGrad).1 (exRun (exNC true 0 []) vect 2 exGrad).2 ∧
    (exNC true 0 []).e.Flat ∧ Exact (exNC true 0 []).lin ∧ NoZeroPwf (exRun (exNC true 0 []) vect 2 exGrad).1 ∧
    isOk (attempt (exNC true 0 []) vect (exRun (exNC true 0 []) vect 2 exGrad).1 (exRun (exNC true 0 []) vect 2 exGrad).2) = true ∧
    (0, "gradient", 4) ∈ exGrad.bdict ∧ kindOf "gradient" = some .gradient ∧ exGrad.initR 0 = 2 :=
  ⟨exRun_hist exGrad_ready (by cases vect <;> decide +kernel), Or.inl (by decide +kernel), cramer_exact, noZeroB_ok (by cases vect <;> decide +kernel), exGrad_ok vect,
    by decide +kernel, by decide +kernel, by decide +kernel⟩

/-- **C29 fails** with the symbolic assembler: the step does not balance with the rate that is recorded. -/
theorem C29_symbolic_unbalanced : ∃ (c : Ctx ℚ) (m0 m' : Mdl ℚ) (s' : Sol ℚ) (again : Bool) (i : ℕ), Ready c m0 ∧ Exact c.lin ∧ c.e.Flat ∧
    attempt c false m0 (Sol.init m0) = .ok (m', s', again) ∧ i < c.e.n ∧
    excess c.e (c.e.trans false) m0 (rowAt s'.rates s'.tstep 0) ((Sol.init m0).inner c.e 0) (s'.inner c.e s'.tstep) i ≠ 0 :=
  ⟨exNC true 0 [], exGrad, _, _, _, 0, exGrad_ready, cramer_exact, Or.inl (by decide +kernel), exAtt_eq _ false (exGrad, Sol.init exGrad) (by decide +kernel),
    by decide +kernel, by decide +kernel⟩

/-- Cells at depths 5 and 7 under gravity, nothing else. -/
def exDeep (comp : Bool) : Mdl ℚ := exMdl comp 3 [5, 5, 7, 7] (some 8) [] []

lemma exDeep_ready (comp : Bool) : Ready (exC comp 3 [5, 5, 7, 7]) (exDeep comp) := exMdl_ready (by cases comp <;> decide +kernel)

/-- The hypotheses of the theorems on hydrostatic balance are met in an incompressible reservoir that is not flat. -/
example (vect : Bool) : (exDeep false).bdict = [] ∧ (exDeep false).wells = [] ∧ isOk (assemble (exC false 3 [5, 5, 7, 7]) vect (exDeep false) (Sol.init (exDeep false))) = true ∧
    Hydrostatic (exC false 3 [5, 5, 7, 7]).e (fun i => 100 + 6 * i) ∧ ¬ (exC false 3 [5, 5, 7, 7]).e.Flat ∧
    ∀ i, i < (exC false 3 [5, 5, 7, 7]).e.n → (exC false 3 [5, 5, 7, 7]).e.rhs ((exC false 3 [5, 5, 7, 7]).e.at i) = 0 := by
  refine ⟨by decide +kernel, by decide +kernel, by cases vect <;> decide +kernel, ?_, ?_, ?_⟩
  · intro i j hi hj
    rw [show (exC false 3 [5, 5, 7, 7]).e.n = 2 by decide +kernel] at hi hj
    have : i = 0 ∨ i = 1 := by omega
    have : j = 0 ∨ j = 1 := by omega
    rcases ‹i = 0 ∨ i = 1› with rfl | rfl <;> rcases ‹j = 0 ∨ j = 1› with rfl | rfl <;> decide +kernel
  · rintro (h | h)
    · exact absurd h (by decide +kernel)
    · exact absurd (h 1 (by decide +kernel)) (by decide +kernel)
  · intro i hi
    rw [show (exC false 3 [5, 5, 7, 7]).e.n = 2 by decide +kernel] at hi
    have : i = 0 ∨ i = 1 := by omega
    rcases this with rfl | rfl <;> decide +kernel

/-- The hypotheses of the theorems on wells held at bottom-hole pressure 0 are met, with a well that is. -/
example (vect : Bool) : Hist (exC true 0 []) Calm exZero exZero (Sol.init exZero) ∧ (exC true 0 []).e.Flat ∧
    isOk (assemble (exC true 0 []) vect exZero (Sol.init exZero)) = true ∧ exZero.wells.map (fun w => (w.1, w.2.con, w.2.pwfsp)) = [(2, some .pwf, some 0)] :=
  ⟨.start, Or.inl (by decide +kernel), by cases vect <;> decide +kernel, by decide +kernel⟩

/-- A boundary pressure of 0. -/
def exZeroB : Mdl ℚ := exMdl true 0 [] (some 8) [(0, "pressure", 0)] []

/-- The hypotheses of `C48_boundary_fails` are met, and the symbolic assembler accepts the same model. -/
example : Ready (exC true 0 []) exZeroB ∧ (0, "pressure", (0 : ℚ)) ∈ exZeroB.bdict ∧ (exC true 0 []).e.transC 0 false = .ok [(1, 1)] ∧ (exC true 0 []).e.grav = 0 ∧
    isOk (attempt (exC true 0 []) false exZeroB (Sol.init exZeroB)) = true :=
  ⟨exMdl_ready (by decide +kernel), by decide +kernel, by
    have h : isOk ((exC true 0 []).e.transC 0 false) = true ∧ ∀ h, getOk ((exC true 0 []).e.transC 0 false) h = [(1, 1)] := ⟨by decide +kernel, by decide +kernel⟩
    rw [getOk_eq _ h.1, h.2], by decide +kernel, by decide +kernel⟩

end RF.Fdm
