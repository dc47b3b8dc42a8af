import Verif.Fdm.PropsPressure
/-!
# C68: small changes of the data have small effects

Two models that differ in initial pressures, boundary pressures and bottom-hole pressures by at most `δ` keep pressures that differ by at most `δ`.
-/
set_option linter.unusedSectionVars false
namespace RF.Fdm
open RF RF.Dims Finset

variable {K : Type} [Field K] [LinearOrder K] [IsStrictOrderedRing K]

/-! ### Specification -/

/-- The same conditions in the same order, the given pressures differing by at most `δ`, the rates and gradients equal. -/
structure Within (δ : K) (m m' : Mdl K) : Prop where
  bd : List.Forall₂ (fun b b' => b'.1 = b.1 ∧ b'.2.1 = b.2.1 ∧ (b.2.1 = "pressure" → |b'.2.2 - b.2.2| ≤ δ) ∧ (b.2.1 ≠ "pressure" → b'.2.2 = b.2.2)) m.bdict m'.bdict
  well : List.Forall₂ (fun w w' => w'.1 = w.1 ∧ w'.2.G = w.2.G ∧ w'.2.qsp = w.2.qsp ∧ |w'.2.pwfsp.getD 0 - w.2.pwfsp.getD 0| ≤ δ) m.wells m'.wells

/-- All pressures of cells stored for step `k` differ by at most `β k` (from step 1 on if the fluid is incompressible). -/
def Close (β : ℕ → K) (c : Ctx K) (s t : Sol K) : Prop :=
  s.tstep = t.tstep ∧ ∀ k, k ≤ s.tstep → (c.e.comp = true ∨ 0 < k) → ∀ id, id ∈ c.e.ids →
    ∃ p q, rowAt s.press k none id = some p ∧ rowAt t.press k none id = some q ∧ |p - q| ≤ β k

/-- A pressure is imposed somewhere: on a face with positive transmissibility or by a well under pressure constraint. -/
def PressureGiven (e : Env K) (m : Mdl K) : Prop :=
  (∃ c id T, c ∈ m.bdict ∧ c.2.1 = "pressure" ∧ e.Face c.1 id T ∧ 0 < T) ∨ ∃ w, w ∈ m.wells ∧ w.2.con = some .pwf

/-! ### one-sided -/

/-- Given pressures are higher by at most `δ`, rates are not higher. -/
structure AtMostBy (δ : K) (m m' : Mdl K) : Prop where
  bd : List.Forall₂ (fun b b' => b'.1 = b.1 ∧ b'.2.1 = b.2.1 ∧ (b.2.1 = "pressure" → b.2.2 ≤ b'.2.2 + δ) ∧ (b.2.1 ≠ "pressure" → b.2.2 ≤ b'.2.2)) m.bdict m'.bdict
  well : List.Forall₂ (fun w w' => w'.1 = w.1 ∧ w'.2.G = w.2.G ∧ (w'.2.qsp.isSome = w.2.qsp.isSome ∧ w.2.qsp.getD 0 ≤ w'.2.qsp.getD 0) ∧
    w.2.pwfsp.getD 0 ≤ w'.2.pwfsp.getD 0 + δ) m.wells m'.wells

lemma Within.most {δ : K} {m n : Mdl K} (h : Within δ m n) : AtMostBy δ m n :=
  ⟨h.bd.imp fun _ _ h => ⟨h.1, h.2.1, fun hp => by linarith [(abs_le.1 (h.2.2.1 hp)).1], fun hp => (h.2.2.2 hp).ge⟩,
    h.well.imp fun _ _ h => ⟨h.1, h.2.1, ⟨by rw [h.2.2.1], by rw [h.2.2.1]⟩, by linarith [(abs_le.1 h.2.2.2).1]⟩⟩

lemma Within.symm {δ : K} {m n : Mdl K} (h : Within δ m n) : Within δ n m :=
  ⟨(h.bd.imp fun _ _ h => (⟨h.1.symm, h.2.1.symm, fun hp => by rw [abs_sub_comm]; exact h.2.2.1 (h.2.1 ▸ hp), fun hp => (h.2.2.2 (h.2.1 ▸ hp)).symm⟩ :
      _ ∧ _ ∧ (_ → _) ∧ (_ → _))).flip,
    (h.well.imp fun _ _ h => (⟨h.1.symm, h.2.1.symm, h.2.2.1.symm, by rw [abs_sub_comm]; exact h.2.2.2⟩ : _ ∧ _ ∧ _ ∧ _)).flip⟩

lemma AtMostBy.move {δ : K} {m n m' n' : Mdl K} (h : AtMostBy δ m n) (h1 : SameMdl m m') (h2 : SameMdl n n') : AtMostBy δ m' n' := by
  refine ⟨by rw [h1.bdict, h2.bdict]; exact h.bd, ?_⟩
  have a : List.Forall₂ (fun y x => y.1 = x.1 ∧ y.2.G = x.2.G ∧ y.2.pwfsp = x.2.pwfsp ∧ y.2.qsp = x.2.qsp) m'.wells m.wells := List.Forall₂.flip h1.wells
  refine forall2_comp (fun x y z hxy hyz => ?_) (forall2_comp (T := fun w w' => w'.1 = w.1 ∧ w'.2.G = w.2.G ∧ (w'.2.qsp.isSome = w.2.qsp.isSome ∧ w.2.qsp.getD 0 ≤ w'.2.qsp.getD 0) ∧
    w.2.pwfsp.getD 0 ≤ w'.2.pwfsp.getD 0 + δ) (fun x y z hxy hyz => ?_) a h.well) h2.wells
  · rw [hyz.1, hyz.2.1, hyz.2.2.1, hyz.2.2.2]; exact hxy
  · rw [hxy.1, hxy.2.1, hxy.2.2.1, hxy.2.2.2]; exact hyz

/-- Conductance of the cell at position `i` to the pressures imposed from outside. -/
def outLeak (e : Env K) (m : Mdl K) (i : ℕ) : K := (m.bdict.map (bLeak e i)).sum + (m.wells.map (wLeak e i)).sum

lemma outLeak_nonneg {e : Env K} (he : e.WF) {m : Mdl K} (hm : MdlOK e m) (i : ℕ) : 0 ≤ outLeak e m i :=
  add_nonneg (sum_nonneg' fun b hb => bLeak_nonneg he i (hm.bmem b hb)) (sum_nonneg' fun c hc => wLeak_nonneg he i (hm.well c hc))

lemma PressureGiven.leak {e : Env K} (he : e.WF) {m : Mdl K} (hm : MdlOK e m) (h : PressureGiven e m) : ∃ i, i < e.n ∧ 0 < outLeak e m i := by
  have key : ∀ i, i < e.n → ((∃ c, c ∈ m.bdict ∧ 0 < bLeak e i c) ∨ ∃ c, c ∈ m.wells ∧ 0 < wLeak e i c) → ∃ i, i < e.n ∧ 0 < outLeak e m i := by
    intro i hi h
    refine ⟨i, hi, ?_⟩
    have g2 : ∀ c, c ∈ m.bdict → 0 ≤ bLeak e i c := fun c hc => bLeak_nonneg he i (hm.bmem c hc)
    have g3 : ∀ c, c ∈ m.wells → 0 ≤ wLeak e i c := fun c hc => wLeak_nonneg he i (hm.well c hc)
    have h2 := sum_nonneg' g2
    have h3 := sum_nonneg' g3
    unfold outLeak
    rcases h with ⟨c, hc, h⟩ | ⟨c, hc, h⟩
    · have := le_sum_of_mem g2 hc; linarith
    · have := le_sum_of_mem g3 hc; linarith
  rcases h with ⟨c, id, T, hc, hp, hF, hT⟩ | ⟨w, hw, hc⟩
  · have hid : id ∈ e.ids := by
      rcases he.face c.1 (hm.bmem c hc) with h' | ⟨id', T', hid', -, h'⟩
      · rw [show e.transC c.1 false = _ from hF] at h'; simp at h'
      · rw [Env.Face, show e.transC c.1 false = _ from hF] at h'; simp at h'; rw [h'.1]; exact hid'
    refine key (e.ids.idxOf id) (idx_lt e hid) (Or.inl ⟨c, hc, ?_⟩)
    unfold bLeak faceLeak
    rw [if_pos hp, show e.transC c.1 false = _ from hF]
    dsimp only
    rw [if_pos (at_idx e hid).symm]; positivity
  · have hid := hm.wmem w hw
    refine key (e.ids.idxOf w.1) (idx_lt e hid) (Or.inr ⟨w, hw, ?_⟩)
    unfold wLeak
    rw [if_pos ⟨(at_idx e hid).symm, hc⟩]
    exact windex_pos he.B he.mu (hm.well w hw)

lemma outLeak_move {e : Env K} (he : e.WF) {m m' : Mdl K} (hm : MdlOK e m) (hs : SameMdl m m') (hn : NoRelease m m') (i : ℕ) : outLeak e m i ≤ outLeak e m' i := by
  unfold outLeak
  rw [hs.bdict]
  refine add_le_add_right (sum_le_of_forall2 (fun w y h => ?_) (forall2_and hs.wells)) _
  obtain ⟨⟨h1, h2, -, -⟩, h3, h4⟩ := h
  have hp := (windex_pos he.B he.mu (hm.well w h3)).le
  have hwi : windex e y.2 = windex e w.2 := by unfold windex; rw [h2]
  unfold wLeak
  rw [h1, hwi]
  by_cases hid : w.1 = e.at i
  · by_cases hc : w.2.con = some .pwf
    · rw [if_pos ⟨hid, hc⟩, if_pos ⟨hid, hn w y h3 h4 h1.symm hc⟩]
    · rw [if_neg fun h => hc h.2]; split_ifs <;> simp [hp]
  · rw [if_neg fun h => hid h.1, if_neg fun h => hid h.1]

lemma Hist.outLeak {c : Ctx K} {m0 : Mdl K} (hr : Ready c m0) {m : Mdl K} {s : Sol K} (hh : Hist c Calm m0 m s) (i : ℕ) : outLeak c.e m0 i ≤ outLeak c.e m i := by
  induction hh with
  | start => exact le_rfl
  | step hh ha hp ih =>
    obtain ⟨m1, s1, A, d, x, p, r', ps, h1⟩ := attempted hr.ctx.lower hr.ctx.wf (hr.inv hh) ha
    exact ih.trans (outLeak_move hr.ctx.wf (hr.inv hh).mdl h1.same hp.1 i)
  | again hh ha hp ih =>
    obtain ⟨m1, s1, A, d, x, p, r', ps, h1⟩ := attempted hr.ctx.lower hr.ctx.wf (hr.inv hh) ha
    exact ih.trans (outLeak_move hr.ctx.wf (hr.inv hh).mdl h1.same hp.1 i)
  | look hh ha ih =>
    obtain ⟨⟨ts, rfl⟩, -⟩ := assemble_frame ha
    exact ih
  | clock n t _ ih => exact ih

lemma boundaryIn_shift {e : Env K} (he : e.WF) {δ σ : K} {rate rate' : ℕ → K} (p : K) (i : ℕ) {b b' : ℕ × String × K} (hb : b.1 ∈ e.bnd) (h1 : b'.1 = b.1) (h2 : b'.2.1 = b.2.1)
    (h3 : b.2.1 = "pressure" → b.2.2 ≤ b'.2.2 + δ) (hr : b.2.1 ≠ "pressure" → rate b.1 ≤ rate' b.1) :
    boundaryIn e rate (p + σ) i b + bLeak e i b * (σ - δ) ≤ boundaryIn e rate' p i b' := by
  unfold boundaryIn bLeak faceLeak
  rw [h1, h2]
  rcases he.face b.1 hb with h | ⟨id, T, hid, hT, h⟩
  · rw [h]; simp
  · rw [show e.transC b.1 false = _ from h]
    dsimp only
    split_ifs with ha hp
    · have : 2 * T * (b.2.2 - (b'.2.2 + δ)) ≤ 0 := mul_nonpos_of_nonneg_of_nonpos (by linarith) (by linarith [h3 ‹_›])
      nlinarith
    · rw [zero_mul, add_zero]; exact hr hp
    · simp
    · simp

lemma sum_shift {α : Type} (f g : α → K) (k : K) (l : List α) : (l.map fun a => f a + g a * k).sum = (l.map f).sum + (l.map g).sum * k := by
  induction l with
  | nil => simp
  | cons a l ih => simp only [List.map_cons, List.sum_cons, ih]; ring

/-- The same with another linear solver. -/
lemma Ready.lin {c : Ctx K} {m : Mdl K} (h : Ready c m) (lin : LinSolver K) : Ready { c with lin := lin } m :=
  ⟨⟨h.ctx.lower, h.ctx.grid, h.ctx.scale⟩, h.setup, h.G, h.cfg, h.canon⟩

/-- Pressures of two accepted attempts, possibly with different solvers, differ by no more than `σ'`, if the previous ones did by no more than `σ`, the given ones by no more than `δ`, and
the balances of the cells are met up to `ε` and `ε'`. -/
lemma attempt_shift_near {c : Ctx K} {lin' : LinSolver K} {m0 m n0 n n' : Mdl K} {s s' t t' : Sol K} {vect : Bool} {δ ε ε' : K} {σ σ' : ℕ → K} (hr : Ready c m0) (hr' : Ready c n0)
    (hb : ∀ i, i < c.e.n → |excess c.e (c.e.trans vect) m (usedRate vect m s) (s.inner c.e s.tstep) (s'.inner c.e s'.tstep) i| ≤ ε)
    (hb' : ∀ i, i < c.e.n → |excess c.e (c.e.trans vect) n (usedRate vect n t) (t.inner c.e t.tstep) (t'.inner c.e t'.tstep) i| ≤ ε')
    (hle : AtMostBy δ m0 n0) (hg : vect = true → ∀ b, b ∈ m0.bdict → b.2.1 ≠ "pressure" → m0.initR b.1 ≤ n0.initR b.1)
    (hh : Hist c Calm m0 m s) (hh' : Hist { c with lin := lin' } Calm n0 n t) (han : Anchored c.e m0)
    (hat' : attempt { c with lin := lin' } vect n t = .ok (n', t', false)) (hP : Calm vect n n') (hδ : ∀ i, i < c.e.n → δ ≤ σ' i)
    (hσ : ∀ i, i < c.e.n → ∑ j ∈ range c.e.n, c.e.trans vect i j * (σ' j - σ' i) + c.e.rhs (c.e.at i) * (σ i - σ' i) + (ε + ε') ≤ outLeak c.e m0 i * (σ' i - δ))
    (hold : c.e.comp = true → ∀ i, i < c.e.n → s.inner c.e s.tstep i ≤ t.inner c.e t.tstep i + σ i) :
    ∀ i, i < c.e.n → s'.inner c.e s'.tstep i ≤ t'.inner c.e t'.tstep i + σ' i := by
  obtain ⟨hi, hq⟩ := hr.calm hh
  obtain ⟨hi', hq'⟩ := (hr'.lin lin').calm hh'
  have he := hr.ctx.wf
  have hT := hr.ctx.grid.network vect
  have hmv := hle.move hi.same hi'.same
  obtain ⟨n1, t1, A, d, x, p, r', ps, ha⟩ := attempted (c := { c with lin := lin' }) hr.ctx.lower he hi' hat'
  have hdone := (ha.done rfl).1
  refine Net.le_of_inflow_le (q := fun i => t'.inner c.e t'.tstep i + σ' i) (anchored_leaky he hT hi.mdl (hh.anchored hr han)) fun i hin => ?_
  have e1 := excess_linear c.e hT m (usedRate vect m s) (s.inner c.e s.tstep) (s'.inner c.e s'.tstep) hin
  have e2 := excess_linear c.e hT m (usedRate vect m s) (s.inner c.e s.tstep) (fun i => t'.inner c.e t'.tstep i + σ' i) hin
  rw [← e1, ← e2]
  have key : excess c.e (c.e.trans vect) m (usedRate vect m s) (s.inner c.e s.tstep) (fun i => t'.inner c.e t'.tstep i + σ' i) i + (ε + ε') ≤
      excess c.e (c.e.trans vect) n (usedRate vect n t) (t.inner c.e t.tstep) (t'.inner c.e t'.tstep) i := by
    have k1 : (m.bdict.map (boundaryIn c.e (usedRate vect m s) (t'.inner c.e t'.tstep i + σ' i) i)).sum + (m.bdict.map (bLeak c.e i)).sum * (σ' i - δ) ≤
        (n.bdict.map (boundaryIn c.e (usedRate vect n t) (t'.inner c.e t'.tstep i) i)).sum := by
      rw [← sum_shift]
      refine sum_le_of_forall2 (fun b b' h => ?_) (forall2_and hmv.bd)
      obtain ⟨⟨h1, h2, h3, h3'⟩, h4, h5⟩ := h
      refine boundaryIn_shift he _ i (hi.mdl.bmem b h4) h1 h2 h3 fun hp => ?_
      have m4 : b ∈ m0.bdict := by rw [← hi.same.bdict]; exact h4
      have m5 : b' ∈ n0.bdict := by rw [← hi'.same.bdict]; exact h5
      have u := usedRate_eq he hr'.started.mdl hi' vect m5 (by rw [h2]; exact hp)
      rw [h1] at u
      rw [usedRate_eq he hr.started.mdl hi vect m4 hp, u]
      cases vect
      · exact h3' hp
      · exact hg rfl b m4 hp
    have k2 : (m.wells.map (wellIn c.e (t'.inner c.e t'.tstep i + σ' i) i)).sum + (m.wells.map (wLeak c.e i)).sum * (σ' i - δ) ≤
        (n.wells.map (wellIn c.e (t'.inner c.e t'.tstep i) i)).sum := by
      rw [← sum_shift]
      refine sum_le_of_forall2 (fun w w' h => ?_) (forall2_and hmv.well)
      obtain ⟨⟨h1, h2, ⟨h3, h3'⟩, h4⟩, h5, h6⟩ := h
      unfold wellIn wLeak
      rw [h1]
      by_cases hid : w.1 = c.e.at i
      · rw [if_pos hid, if_pos hid]
        obtain ⟨y, hy, h7, bb, h8⟩ := (forall2_mem hdone).2 w' h6
        have hpx : (p w'.1).getD 0 = t'.inner c.e t'.tstep i := by
          have := Attempted.inner (c := { c with lin := lin' }) he hi' ha hin
          rw [this, ha.peq, h1, hid, newRow_at he.nodup _ _ hin]; rfl
        rw [hpx] at h8
        have hw' := hi'.mdl.well w' h6
        have hrel := hP.1 w' y h6 hy h7.symm
        have f1 := (done_flow he.B he.mu hw' (hq'.cfg w' h6) (hq'.tame w' h6) h8 hrel).1
        have f2 := done_best he.B he.mu hw' (hq'.cfg w' h6) (hq'.tame w' h6) h8 hrel
        rw [f1, f2]
        have hw := hi.mdl.well w h5
        have hwi : windex c.e w'.2 = windex c.e w.2 := by unfold windex; rw [h2]
        have hpos := (windex_pos he.B he.mu hw).le
        rcases hcon : w.2.con with _ | _ | _
        · exact absurd hcon (hq.cfg w h5)
        · have hqq := hq.tame w h5 hcon
          rw [if_neg (by simp)]
          unfold wellFlow
          rw [hcon, hqq, zero_mul, add_zero]
          dsimp only
          rcases hqs : w.2.qsp with _ | qs
          · exact absurd hcon (hw.free hqs).2
          · rw [hqs] at h3 h3'
            rcases hqs' : w'.2.qsp with _ | qs'
            · rw [hqs'] at h3; simp at h3
            · rw [hqs'] at h3'
              unfold bestRate
              rw [hqs']
              exact h3'.trans (le_max_left _ _)
        · rw [if_pos ⟨hid, rfl⟩]
          have : wellFlow c.e w.2 (t'.inner c.e t'.tstep i + σ' i) = windex c.e w.2 * (w.2.pwfsp.getD 0 - (t'.inner c.e t'.tstep i + σ' i)) := by
            unfold wellFlow windex; rw [hcon, hw.lim hcon]
          rw [this]
          have : windex c.e w.2 * (w.2.pwfsp.getD 0 - (t'.inner c.e t'.tstep i + σ' i)) + windex c.e w.2 * (σ' i - δ) ≤ windex c.e w'.2 * (w'.2.pwfsp.getD 0 - t'.inner c.e t'.tstep i) := by
            rw [hwi, ← mul_add]; exact mul_le_mul_of_nonneg_left (by linarith) hpos
          refine this.trans ?_
          unfold bestRate
          rcases w'.2.qsp with _ | qs
          · exact le_refl _
          · exact le_max_right _ _
      · rw [if_neg hid, if_neg hid, if_neg fun h => hid h.1]; simp
    have k3 : c.e.rhs (c.e.at i) * (s.inner c.e s.tstep i - (t'.inner c.e t'.tstep i + σ' i)) ≤
        c.e.rhs (c.e.at i) * (t.inner c.e t.tstep i - t'.inner c.e t'.tstep i) + c.e.rhs (c.e.at i) * (σ i - σ' i) := by
      rcases hcm : c.e.comp
      · simp [he.rhsI hcm]
      · rw [← mul_add]; exact mul_le_mul_of_nonneg_left (by linarith [hold hcm i hin]) (rhs_nonneg he (at_mem c.e hin))
    have k4 : outLeak c.e m0 i * (σ' i - δ) ≤ outLeak c.e m i * (σ' i - δ) := mul_le_mul_of_nonneg_right (hh.outLeak hr i) (sub_nonneg.2 (hδ i hin))
    have k5 := hσ i hin
    have k6 : ∑ j ∈ range c.e.n, c.e.trans vect i j * (t'.inner c.e t'.tstep j + σ' j - (t'.inner c.e t'.tstep i + σ' i) - c.e.grav * (c.e.z (c.e.at j) - c.e.z (c.e.at i))) =
        ∑ j ∈ range c.e.n, c.e.trans vect i j * (t'.inner c.e t'.tstep j - t'.inner c.e t'.tstep i - c.e.grav * (c.e.z (c.e.at j) - c.e.z (c.e.at i))) +
          ∑ j ∈ range c.e.n, c.e.trans vect i j * (σ' j - σ' i) := by
      rw [← sum_add_distrib]; exact sum_congr rfl fun j _ => by ring
    unfold excess outsideIn
    unfold outLeak at k4 k5
    dsimp only
    rw [k6]
    linarith
  linarith [(abs_le.1 (hb i hin)).1, (abs_le.1 (hb' i hin)).2]

/-- Pressures of two accepted attempts differ by no more than `σ'`, if the previous ones did by no more than `σ` and the given ones by no more than `δ`. -/
lemma attempt_shift {c : Ctx K} {m0 m m' n0 n n' : Mdl K} {s s' t t' : Sol K} {vect again : Bool} {δ : K} {σ σ' : ℕ → K} (hr : Ready c m0) (hr' : Ready c n0) (hx : Exact c.lin)
    (hle : AtMostBy δ m0 n0) (hg : vect = true → ∀ b, b ∈ m0.bdict → b.2.1 ≠ "pressure" → m0.initR b.1 ≤ n0.initR b.1)
    (hh : Hist c Calm m0 m s) (hh' : Hist c Calm n0 n t) (hf : vect = true → c.e.Flat) (han : Anchored c.e m0) (hat : attempt c vect m s = .ok (m', s', again))
    (hz : vect = true → NoZeroPwf m) (hat' : attempt c vect n t = .ok (n', t', false)) (hP : Calm vect n n') (hδ : ∀ i, i < c.e.n → δ ≤ σ' i)
    (hσ : ∀ i, i < c.e.n → ∑ j ∈ range c.e.n, c.e.trans vect i j * (σ' j - σ' i) + c.e.rhs (c.e.at i) * (σ i - σ' i) + 0 ≤ outLeak c.e m0 i * (σ' i - δ))
    (hold : c.e.comp = true → ∀ i, i < c.e.n → s.inner c.e s.tstep i ≤ t.inner c.e t.tstep i + σ i) :
    ∀ i, i < c.e.n → s'.inner c.e s'.tstep i ≤ t'.inner c.e t'.tstep i + σ' i := by
  obtain ⟨hi, hq⟩ := hr.calm hh
  obtain ⟨hi', hq'⟩ := hr'.calm hh'
  exact attempt_shift_near (lin' := c.lin) (ε := 0) (ε' := 0) hr hr' (fun i h => by rw [step_balance hr.ctx hx hi hq hf hz hat i h, abs_zero])
    (fun i h => by rw [step_balance hr.ctx hx hi' hq' hf hP.2 hat' i h, abs_zero]) hle hg hh hh' han hat' hP hδ (fun i h => by rw [add_zero]; exact hσ i h) hold

/-! ### steps and runs -/

/-- `β k i` bounds the differences after `k` steps at position `i`, if balances are met up to `η` together. -/
def Decays (c : Ctx K) (vect : Bool) (m : Mdl K) (δ η : K) (β : ℕ → ℕ → K) : Prop :=
  ∀ k i, i < c.e.n → δ ≤ β (k + 1) i ∧
    ∑ j ∈ range c.e.n, c.e.trans vect i j * (β (k + 1) j - β (k + 1) i) + c.e.rhs (c.e.at i) * (β k i - β (k + 1) i) + η ≤ outLeak c.e m i * (β (k + 1) i - δ)

/-- Every attempt whose right-hand sides so far satisfy `D` meets the balance of every cell up to `ε`. -/
def Meets (c : Ctx K) (vect : Bool) (m0 : Mdl K) (D : (ℕ → K) → Prop) (ε : K) : Prop :=
  ∀ m s m' s' again, Hist c Calm m0 m s → attempt c vect m s = .ok (m', s', again) → (vect = true → NoZeroPwf m) → (∀ d, d ∈ s'.ds → D d) →
    ∀ i, i < c.e.n → |excess c.e (c.e.trans vect) m (usedRate vect m s) (s.inner c.e s.tstep) (s'.inner c.e s'.tstep) i| ≤ ε

lemma Exact.meets {c : Ctx K} (hx : Exact c.lin) {m0 : Mdl K} (hr : Ready c m0) {vect : Bool} (hf : vect = true → c.e.Flat) : Meets c vect m0 (fun _ => True) 0 :=
  fun m s m' s' again hh ha hz _ i hi => by
    obtain ⟨h1, h2⟩ := hr.calm hh
    rw [step_balance hr.ctx hx h1 h2 hf hz ha i hi, abs_zero]

/-- `Close` with a bound for every position. -/
def CloseBy (β : ℕ → ℕ → K) (c : Ctx K) (s t : Sol K) : Prop :=
  s.tstep = t.tstep ∧ ∀ k, k ≤ s.tstep → (c.e.comp = true ∨ 0 < k) → ∀ i, i < c.e.n →
    ∃ p q, rowAt s.press k none (c.e.at i) = some p ∧ rowAt t.press k none (c.e.at i) = some q ∧ |p - q| ≤ β k i

lemma step_close {c : Ctx K} {lin' : LinSolver K} {m0 m m' n0 n n' : Mdl K} {s s' t t' : Sol K} {vect : Bool} {f f' : ℕ} {δ ε ε' : K} {D D' : (ℕ → K) → Prop} {β : ℕ → ℕ → K}
    (hr : Ready c m0) (hr' : Ready c n0) (hx : Meets c vect m0 D ε) (hx' : Meets { c with lin := lin' } vect n0 D' ε')
    (hw : Within δ m0 n0) (han : Anchored c.e m0) (han' : Anchored c.e n0)
    (hd : Decays c vect m0 δ (ε + ε') β) (hd' : Decays c vect n0 δ (ε + ε') β)
    (hh : Hist c Calm m0 m s) (hh' : Hist { c with lin := lin' } Calm n0 n t) (hP : SolveAll c Calm f vect m s) (hP' : SolveAll { c with lin := lin' } Calm f' vect n t)
    (hs : solve c f vect true m s = .ok (m', s')) (hs' : solve { c with lin := lin' } f' vect true n t = .ok (n', t')) (hD : ∀ d, d ∈ s'.ds → D d) (hD' : ∀ d, d ∈ t'.ds → D' d)
    (hb : CloseBy β c s t) : CloseBy β c s' t' := by
  have hr0 := hr'
  replace hr' := hr'.lin lin'
  obtain ⟨m1, s1, a1, a2, a3, a4, a5, a6⟩ := solve_last hr.ctx.lower hr.ctx.wf hr.started.mdl hh hP hs
  obtain ⟨n1, t1, b1, b2, b3, b4, b5, b6⟩ := solve_last hr'.ctx.lower hr'.ctx.wf hr'.started.mdl hh' hP' hs'
  obtain ⟨_, _, _, _, _, _, _, _, h1⟩ := attempted hr.ctx.lower hr.ctx.wf (hr.inv a1) a5
  obtain ⟨_, _, _, _, _, _, _, _, h2⟩ := attempted hr'.ctx.lower hr'.ctx.wf (hr'.inv b1) b5
  have es : s'.tstep = s.tstep + 1 := by rw [h1.tstep, a4]
  have et : t'.tstep = t.tstep + 1 := by rw [h2.tstep, b4]
  have old : c.e.comp = true → ∀ i, i < c.e.n → |s1.inner c.e s1.tstep i - t1.inner c.e t1.tstep i| ≤ β s.tstep i := fun hc i hin => by
    obtain ⟨p, q, k1, k2, k3⟩ := hb.2 s.tstep le_rfl (.inl hc) i hin
    rw [hb.1] at k2
    unfold Sol.inner
    rw [a2, a4, b2, b4, k1, k2]; exact k3
  have rate : vect = true → ∀ b, b ∈ m0.bdict → b.2.1 ≠ "pressure" → m0.initR b.1 = n0.initR b.1 := fun hv b hb' hc => by
    obtain ⟨b', hb2, e1, e2, e3, e4⟩ := (forall2_mem hw.bd).2 b hb'
    rw [hr.factor hb' hc, ← e1, hr'.factor hb2 (by rw [e2]; exact hc), e1, e2, e4 hc]
  have rate' : vect = true → ∀ b, b ∈ n0.bdict → b.2.1 ≠ "pressure" → n0.initR b.1 = m0.initR b.1 := fun hv b hb' hc => by
    obtain ⟨b', hb2, e1, e2, e3, e4⟩ := (forall2_mem hw.symm.bd).2 b hb'
    rw [hr'.factor hb' hc, ← e1, hr.factor hb2 (by rw [e2]; exact hc), e1, e2, e4 hc]
  refine ⟨by rw [es, et, hb.1], fun k hk hc i hi' => ?_⟩
  by_cases hk' : k = s'.tstep
  · have r1 := row_inner hr (hr.inv a1) a5 hi'
    have r2 := row_inner hr' (hr'.inv b1) b5 hi'
    have ek : k = t'.tstep := by rw [hk', es, et, hb.1]
    have ek' : k = s.tstep + 1 := by rw [hk', es]
    refine ⟨_, _, by rw [hk']; exact r1, by rw [ek]; exact r2, ?_⟩
    have e1 := hx _ _ _ _ _ a1 a5 a6.2 hD
    have e2 := hx' _ _ _ _ _ b1 b5 b6.2 hD'
    have u1 := attempt_shift_near hr hr0 e1 e2 hw.most (fun hv b hb' hc => (rate hv b hb' hc).le) a1 b1 han b5 b6 (fun i hi => (hd s.tstep i hi).1) (fun i hi => (hd s.tstep i hi).2)
      (fun hc i hin => by linarith [(abs_le.1 (old hc i hin)).2]) _ hi'
    have u2 := attempt_shift_near (c := { c with lin := lin' }) (lin' := c.lin) hr' (hr.lin lin') e2 e1 hw.symm.most (fun hv b hb' hc => (rate' hv b hb' hc).le) b1 a1 han' a5 a6
      (fun i hi => (hd' s.tstep i hi).1) (fun i hi => by rw [add_comm ε' ε]; exact (hd' s.tstep i hi).2)
      (fun hc i hin => by linarith [(abs_le.1 (old hc i hin)).1]) _ hi'
    rw [ek', abs_le]; constructor <;> linarith
  · have hk2 : k ≤ s.tstep := by omega
    obtain ⟨p, q, k1, k2, k3⟩ := hb.2 k hk2 hc i hi'
    refine ⟨p, q, ?_, ?_, k3⟩
    · rw [h1.press, rowAt_append_lt (by rw [(hr.inv a1).plen]; omega), a2]; exact k1
    · rw [h2.press, rowAt_append_lt (by rw [(hr'.inv b1).plen]; have := hb.1; omega), b2]; exact k2

lemma attempt_ds {c : Ctx K} {vect : Bool} {m m' : Mdl K} {s s' : Sol K} {again : Bool} (h : attempt c vect m s = .ok (m', s', again)) : ∀ d, d ∈ s.ds → d ∈ s'.ds := by
  obtain ⟨m1, s1, A, d, x, r, ws, r', ps, h1, -, -, -, -, rfl⟩ := attempt_parts h
  obtain ⟨-, vA, bV, res, sM, rfl⟩ := assemble_frame h1
  intro d' hd
  simp [hd]

lemma solve_ds {c : Ctx K} {fuel : ℕ} {vect : Bool} {m m' : Mdl K} {s s' : Sol K} (h : solve c fuel vect true m s = .ok (m', s')) : ∀ d, d ∈ s.ds → d ∈ s'.ds := by
  induction fuel generalizing m s with
  | zero => cases h
  | succ n ih =>
    unfold solve at h
    rw [if_pos rfl, ok_bind] at h
    obtain ⟨⟨m1, s1, again⟩, h1, h⟩ := h
    intro d hd
    have := attempt_ds h1 d hd
    cases again
    · simp only [Bool.false_eq_true, if_false, ok_pure, Prod.mk.injEq] at h
      rw [← h.2]; exact this
    · exact ih h d this

lemma runLoop_ds {c : Ctx K} {fuel : ℕ} {vect : Bool} {n : ℕ} {m : Mdl K} {s : Sol K} : ∀ d, d ∈ s.ds → d ∈ (runLoop c fuel vect n m s).1.2.ds := by
  induction n generalizing m s with
  | zero => exact fun _ h => h
  | succ n ih =>
    intro d hd
    unfold runLoop
    rcases h1 : solve c fuel vect true m s with x | ⟨m1, s1⟩
    · exact hd
    · exact ih d (solve_ds h1 d hd)

lemma runLoop_close {c : Ctx K} {lin' : LinSolver K} {m0 n0 : Mdl K} {vect : Bool} {f f' : ℕ} {δ ε ε' : K} {D D' : (ℕ → K) → Prop} {β : ℕ → ℕ → K}
    (hr : Ready c m0) (hr' : Ready c n0) (hx : Meets c vect m0 D ε) (hx' : Meets { c with lin := lin' } vect n0 D' ε') (hw : Within δ m0 n0)
    (han : Anchored c.e m0) (han' : Anchored c.e n0) (hd : Decays c vect m0 δ (ε + ε') β) (hd' : Decays c vect n0 δ (ε + ε') β)
    (k : ℕ) {m n : Mdl K} {s t : Sol K}
    (hh : Hist c Calm m0 m s) (hh' : Hist { c with lin := lin' } Calm n0 n t) (hP : RunAll c Calm f vect k m s) (hP' : RunAll { c with lin := lin' } Calm f' vect k n t)
    (hs : (runLoop c f vect k m s).2 = .ok ()) (hs' : (runLoop { c with lin := lin' } f' vect k n t).2 = .ok ())
    (hD : ∀ d, d ∈ (runLoop c f vect k m s).1.2.ds → D d) (hD' : ∀ d, d ∈ (runLoop { c with lin := lin' } f' vect k n t).1.2.ds → D' d) (hb : CloseBy β c s t) :
    CloseBy β c (runLoop c f vect k m s).1.2 (runLoop { c with lin := lin' } f' vect k n t).1.2 := by
  induction k generalizing m n s t with
  | zero => exact hb
  | succ k ih =>
    unfold runLoop at hs hs' hD hD' ⊢
    rcases h1 : solve c f vect true m s with x | ⟨m1, s1⟩
    · rw [h1] at hs; cases hs
    rcases h2 : solve { c with lin := lin' } f' vect true n t with x | ⟨n1, t1⟩
    · rw [h2] at hs'; cases hs'
    rw [h1] at hs hD
    rw [h2] at hs' hD'
    exact ih (hh.solve hr.ctx.lower hr.ctx.wf hr.started.mdl hP.1 h1) (Hist.solve (c := { c with lin := lin' }) hr'.ctx.lower hr'.ctx.wf hr'.started.mdl hh' hP'.1 h2) (hP.2 _ _ h1) (hP'.2 _ _ h2) hs hs' hD hD'
      (step_close hr hr' hx hx' hw han han' hd hd' hh hh' hP.1 hP'.1 h1 h2 (fun d h => hD d (runLoop_ds d h)) (fun d h => hD' d (runLoop_ds d h)) hb)

lemma run_near {c : Ctx K} {lin' : LinSolver K} {m0 n0 : Mdl K} {vect : Bool} {f f' : ℕ} {δ ε ε' : K} {D D' : (ℕ → K) → Prop} {β : ℕ → ℕ → K}
    (hr : Ready c m0) (hr' : Ready c n0) (hx : Meets c vect m0 D ε) (hx' : Meets { c with lin := lin' } vect n0 D' ε') (hw : Within δ m0 n0)
    (han : Anchored c.e m0) (han' : Anchored c.e n0) (hd : Decays c vect m0 δ (ε + ε') β) (hd' : Decays c vect n0 δ (ε + ε') β)
    (k : ℕ) (el el' : K)
    (hinit : c.e.comp = true → ∀ i, i < c.e.n → ∃ p q, m0.initP (c.e.at i) = some p ∧ n0.initP (c.e.at i) = some q ∧ |p - q| ≤ β 0 i)
    (hP : RunAll c Calm f vect k m0 { Sol.init m0 with nsteps := (Sol.init m0).nsteps + k })
    (hP' : RunAll { c with lin := lin' } Calm f' vect k n0 { Sol.init n0 with nsteps := (Sol.init n0).nsteps + k })
    (hs : (run c f vect k el m0 (Sol.init m0)).2 = .ok ()) (hs' : (run { c with lin := lin' } f' vect k el' n0 (Sol.init n0)).2 = .ok ())
    (hD : ∀ d, d ∈ (run c f vect k el m0 (Sol.init m0)).1.2.ds → D d) (hD' : ∀ d, d ∈ (run { c with lin := lin' } f' vect k el' n0 (Sol.init n0)).1.2.ds → D' d) :
    CloseBy β c (run c f vect k el m0 (Sol.init m0)).1.2 (run { c with lin := lin' } f' vect k el' n0 (Sol.init n0)).1.2 := by
  have key := runLoop_close hr hr' hx hx' hw han han' hd hd' k (.clock _ (Sol.init m0).ctime .start) (.clock _ (Sol.init n0).ctime .start) hP hP'
  unfold run at hs hs' hD hD' ⊢
  rcases h1 : runLoop c f vect k m0 { Sol.init m0 with nsteps := (Sol.init m0).nsteps + k } with ⟨⟨m1, s1⟩, x | ⟨⟩⟩
  · rw [h1] at hs; cases hs
  rcases h2 : runLoop { c with lin := lin' } f' vect k n0 { Sol.init n0 with nsteps := (Sol.init n0).nsteps + k } with ⟨⟨n1, t1⟩, x | ⟨⟩⟩
  · rw [h2] at hs'; cases hs'
  rw [h1, h2] at key
  rw [h1] at hD
  rw [h2] at hD'
  refine key rfl rfl hD hD' ⟨rfl, fun j hj hc i hin => ?_⟩
  have h0 : j = 0 := by simpa [Sol.init] using hj
  subst h0
  rcases hc with hc | hc
  · exact hinit hc i hin
  · omega

lemma run_close {c : Ctx K} {m0 n0 : Mdl K} {vect : Bool} {f f' : ℕ} {δ : K} {β : ℕ → ℕ → K} (hr : Ready c m0) (hr' : Ready c n0) (hx : Exact c.lin) (hw : Within δ m0 n0)
    (hf : vect = true → c.e.Flat) (han : Anchored c.e m0) (han' : Anchored c.e n0) (hd : Decays c vect m0 δ 0 β) (hd' : Decays c vect n0 δ 0 β)
    (k : ℕ) (el el' : K)
    (hinit : c.e.comp = true → ∀ i, i < c.e.n → ∃ p q, m0.initP (c.e.at i) = some p ∧ n0.initP (c.e.at i) = some q ∧ |p - q| ≤ β 0 i)
    (hP : RunAll c Calm f vect k m0 { Sol.init m0 with nsteps := (Sol.init m0).nsteps + k }) (hP' : RunAll c Calm f' vect k n0 { Sol.init n0 with nsteps := (Sol.init n0).nsteps + k })
    (hs : (run c f vect k el m0 (Sol.init m0)).2 = .ok ()) (hs' : (run c f' vect k el' n0 (Sol.init n0)).2 = .ok ()) :
    CloseBy β c (run c f vect k el m0 (Sol.init m0)).1.2 (run c f' vect k el' n0 (Sol.init n0)).1.2 :=
  run_near (lin' := c.lin) (ε := 0) (ε' := 0) hr hr' (hx.meets hr hf) (hx.meets hr' hf) hw han han' (by rw [add_zero]; exact hd) (by rw [add_zero]; exact hd') k el el' hinit hP hP' hs hs'
    (fun _ _ => trivial) (fun _ _ => trivial)

lemma CloseBy.close {β : ℕ → ℕ → K} {γ : ℕ → K} {c : Ctx K} {s t : Sol K} (h : CloseBy β c s t) (hβ : ∀ k i, i < c.e.n → β k i ≤ γ k) : Close γ c s t :=
  ⟨h.1, fun k hk hc id hid => by
    obtain ⟨p, q, h1, h2, h3⟩ := h.2 k hk hc _ (idx_lt c.e hid)
    rw [at_idx c.e hid] at h1 h2
    exact ⟨p, q, h1, h2, h3.trans (hβ k _ (idx_lt c.e hid))⟩⟩

lemma Close.by {γ : ℕ → K} {c : Ctx K} {s t : Sol K} (h : Close γ c s t) : CloseBy (fun k _ => γ k) c s t :=
  ⟨h.1, fun k hk hc _ hi => h.2 k hk hc _ (at_mem c.e hi)⟩

lemma decays_const (c : Ctx K) (vect : Bool) (m : Mdl K) (δ : K) : Decays c vect m δ 0 (fun _ _ => δ) := fun _ _ _ => ⟨le_rfl, by simp⟩

/-- **C68** (one step), partial: change boundary pressures, limits of wells and previous pressures by at most `δ`; then no pressure after the step changes by more. Wells may go
to their limits in either run. Missing: wells that leave their limit (`C68_released_well`). -/
theorem C68_step_partial {c : Ctx K} {m0 m m' n0 n n' : Mdl K} {s s' t t' : Sol K} {vect : Bool} {f f' : ℕ} {δ : K} (hr : Ready c m0) (hr' : Ready c n0)
    (hx : Exact c.lin) (hw : Within δ m0 n0) (hf : vect = true → c.e.Flat) (han : Anchored c.e m0) (han' : Anchored c.e n0)
    (hh : Hist c Calm m0 m s) (hh' : Hist c Calm n0 n t) (hP : SolveAll c Calm f vect m s) (hP' : SolveAll c Calm f' vect n t)
    (hs : solve c f vect true m s = .ok (m', s')) (hs' : solve c f' vect true n t = .ok (n', t')) (hb : Close (fun _ => δ) c s t) : Close (fun _ => δ) c s' t' :=
  (step_close (lin' := c.lin) (ε := 0) (ε' := 0) hr hr' (hx.meets hr hf) (hx.meets hr' hf) hw han han' (by rw [add_zero]; exact decays_const c vect m0 δ)
    (by rw [add_zero]; exact decays_const c vect n0 δ) hh hh' hP hP' hs hs' (fun _ _ => trivial) (fun _ _ => trivial) hb.by).close fun _ _ _ => le_rfl

/-- **C68** (whole run), partial: `run` for any number of steps on two models whose initial pressures, boundary pressures and limits differ by at most `δ`; all stored pressures
differ by at most `δ`. -/
theorem C68_run_partial {c : Ctx K} {m0 n0 : Mdl K} {vect : Bool} {f f' : ℕ} {δ : K} (hr : Ready c m0) (hr' : Ready c n0) (hx : Exact c.lin) (hw : Within δ m0 n0)
    (hf : vect = true → c.e.Flat) (han : Anchored c.e m0) (han' : Anchored c.e n0) (k : ℕ) (el el' : K)
    (hinit : c.e.comp = true → ∀ id, id ∈ c.e.ids → ∃ p q, m0.initP id = some p ∧ n0.initP id = some q ∧ |p - q| ≤ δ)
    (hP : RunAll c Calm f vect k m0 { Sol.init m0 with nsteps := (Sol.init m0).nsteps + k }) (hP' : RunAll c Calm f' vect k n0 { Sol.init n0 with nsteps := (Sol.init n0).nsteps + k })
    (hs : (run c f vect k el m0 (Sol.init m0)).2 = .ok ()) (hs' : (run c f' vect k el' n0 (Sol.init n0)).2 = .ok ()) :
    Close (fun _ => δ) c (run c f vect k el m0 (Sol.init m0)).1.2 (run c f' vect k el' n0 (Sol.init n0)).1.2 :=
  (run_close hr hr' hx hw hf han han' (decays_const c vect m0 δ) (decays_const c vect n0 δ) k el el' (fun hc i hi => hinit hc _ (at_mem c.e hi)) hP hP' hs hs').close fun _ _ _ => le_rfl

/-! ### the initial state is forgotten -/

/-- A positive profile that every step shrinks. -/
lemma profile {c : Ctx K} (hc : CtxOK c) (vect : Bool) {m : Mdl K} (hm : MdlOK c.e m) (h : PressureGiven c.e m) : ∃ (z : ℕ → K) (ρ a b : K), 0 ≤ ρ ∧ ρ < 1 ∧ 0 < a ∧
    (∀ i, i < c.e.n → a ≤ z i ∧ z i ≤ b) ∧
    ∀ i, i < c.e.n → ∑ j ∈ range c.e.n, c.e.trans vect i j * (ρ * z j - ρ * z i) + c.e.rhs (c.e.at i) * (z i - ρ * z i) ≤ outLeak c.e m i * (ρ * z i) := by
  have he := hc.wf
  have hT := hc.grid.network vect
  have hl : Net.Leaky c.e.n (c.e.trans vect) (outLeak c.e m) := hT.leaky (fun i _ => outLeak_nonneg he hm i) (h.leak he hm)
  obtain ⟨z, hz⟩ := Net.exists_inflow hl fun _ => -1
  have h0 := Net.nonneg_of_inflow_nonpos hl (p := z) fun i hi => by rw [hz i hi]; linarith [zero_lt_one (α := K)]
  have hp : ∀ i, i < c.e.n → 0 < z i := fun i hi => by
    refine lt_of_le_of_ne (h0 i hi) fun e => ?_
    have := hz i hi
    unfold Net.inflow at this
    rw [← e, mul_zero, sub_zero] at this
    have : 0 ≤ ∑ j ∈ range c.e.n, c.e.trans vect i j * (z j - 0) := sum_nonneg fun j hj => by
      rw [mem_range] at hj; rw [sub_zero]; exact mul_nonneg (hT.nonneg i j hi hj) (h0 j hj)
    linarith [zero_lt_one (α := K)]
  have ne : (range c.e.n).Nonempty := ⟨0, mem_range.2 he.pos⟩
  obtain ⟨i0, hi0, hmin⟩ := exists_min_image (range c.e.n) z ne
  obtain ⟨i1, hi1, hmax⟩ := exists_max_image (range c.e.n) z ne
  have hR : ∀ i ∈ range c.e.n, 0 ≤ c.e.rhs (c.e.at i) * z i := fun i hi => mul_nonneg (rhs_nonneg he (at_mem c.e (mem_range.1 hi))) (h0 i (mem_range.1 hi))
  have hM := sum_nonneg hR
  generalize hMd : ∑ i ∈ range c.e.n, c.e.rhs (c.e.at i) * z i = M at hM
  refine ⟨z, M / (M + 1), z i0, z i1, by positivity, (div_lt_one (by linarith)).2 (by linarith), hp i0 (mem_range.1 hi0),
    fun i hi => ⟨hmin i (mem_range.2 hi), hmax i (mem_range.2 hi)⟩, fun i hi => ?_⟩
  have h1 := hz i hi
  unfold Net.inflow at h1
  have h2 : ∑ j ∈ range c.e.n, c.e.trans vect i j * (M / (M + 1) * z j - M / (M + 1) * z i) = M / (M + 1) * ∑ j ∈ range c.e.n, c.e.trans vect i j * (z j - z i) := by
    rw [mul_sum]; exact sum_congr rfl fun j _ => by ring
  have h3 : c.e.rhs (c.e.at i) * z i ≤ M := by rw [← hMd]; exact single_le_sum hR (mem_range.2 hi)
  have h4 : c.e.rhs (c.e.at i) * z i ≤ M / (M + 1) * (c.e.rhs (c.e.at i) * z i + 1) := by
    rw [div_mul_eq_mul_div, le_div_iff₀ (by linarith)]; nlinarith
  rw [h2, show ∑ j ∈ range c.e.n, c.e.trans vect i j * (z j - z i) = outLeak c.e m i * z i - 1 by linarith]
  linarith

lemma decays_profile {c : Ctx K} {vect : Bool} {m n : Mdl K} {z : ℕ → K} {ρ : K} (δ C : K) (hC : 0 ≤ C) (hρ : 0 ≤ ρ) (hz : ∀ i, i < c.e.n → 0 ≤ z i) (hl : ∀ i, outLeak c.e n i = outLeak c.e m i)
    (h : ∀ i, i < c.e.n → ∑ j ∈ range c.e.n, c.e.trans vect i j * (ρ * z j - ρ * z i) + c.e.rhs (c.e.at i) * (z i - ρ * z i) ≤ outLeak c.e m i * (ρ * z i)) :
    Decays c vect n δ 0 (fun k i => δ + C * ρ ^ k * z i) := fun k i hi => by
  refine ⟨le_add_of_nonneg_right (mul_nonneg (mul_nonneg hC (pow_nonneg hρ _)) (hz i hi)), ?_⟩
  have h1 : ∑ j ∈ range c.e.n, c.e.trans vect i j * (δ + C * ρ ^ (k + 1) * z j - (δ + C * ρ ^ (k + 1) * z i)) =
      C * ρ ^ k * ∑ j ∈ range c.e.n, c.e.trans vect i j * (ρ * z j - ρ * z i) := by
    rw [mul_sum]; exact sum_congr rfl fun j _ => by ring
  rw [h1, hl, add_zero]
  have h2 := mul_le_mul_of_nonneg_left (h i hi) (mul_nonneg hC (pow_nonneg hρ k))
  calc _ = C * ρ ^ k * (∑ j ∈ range c.e.n, c.e.trans vect i j * (ρ * z j - ρ * z i) + c.e.rhs (c.e.at i) * (z i - ρ * z i)) := by ring
    _ ≤ _ := h2
    _ = _ := by ring

/-- The same kinds of conditions on the same faces and the same wells under the same constraints; pressures and rates may be others. -/
structure Shape (m m' : Mdl K) : Prop where
  bd : List.Forall₂ (fun b b' => b'.1 = b.1 ∧ b'.2.1 = b.2.1) m.bdict m'.bdict
  well : List.Forall₂ (fun w w' => w'.1 = w.1 ∧ w'.2.G = w.2.G ∧ w'.2.con = w.2.con) m.wells m'.wells

lemma sum_eq_of_forall2 {α : Type} {R : α → α → Prop} {f g : α → K} (h : ∀ a b, R a b → f a = g b) {l l' : List α} (hl : List.Forall₂ R l l') : (l.map f).sum = (l'.map g).sum := by
  induction hl with
  | nil => rfl
  | cons h1 _ ih => simp only [List.map_cons, List.sum_cons, ih, h _ _ h1]

lemma Shape.outLeak {e : Env K} {m m' : Mdl K} (h : Shape m m') (i : ℕ) : outLeak e m' i = outLeak e m i := by
  unfold RF.Fdm.outLeak
  rw [sum_eq_of_forall2 (f := bLeak e i) (g := bLeak e i) (fun b b' h => ?_) h.bd, sum_eq_of_forall2 (f := wLeak e i) (g := wLeak e i) (fun w w' h => ?_) h.well]
  · unfold wLeak windex; rw [h.1, h.2.1, h.2.2]
  · unfold bLeak; rw [h.1, h.2]

lemma Shape.pressureGiven {e : Env K} {m m' : Mdl K} (h : Shape m m') (hi : PressureGiven e m) : PressureGiven e m' := by
  rcases hi with ⟨b, id, T, hb, hp, hF, hT⟩ | ⟨w, hw, hc⟩
  · obtain ⟨b', hb', h1, h2⟩ := (forall2_mem h.bd).2 b hb
    exact .inl ⟨b', id, T, hb', by rw [h2]; exact hp, by rw [h1]; exact hF, hT⟩
  · obtain ⟨w', hw', h1, h2, h3⟩ := (forall2_mem h.well).2 w hw
    exact .inr ⟨w', hw', by rw [h3]; exact hc⟩

lemma PressureGiven.anchored {e : Env K} {m : Mdl K} (h : PressureGiven e m) : Anchored e m := .inr h

/-- **C69** (the initial state is forgotten), partial: where a pressure is imposed somewhere there are `A` and `ρ < 1`, depending only on the grid and on which conditions are pressures,
such that two runs of models that differ by at most `D` in initial pressures and by at most `δ` in given pressures differ after `j` steps by at most `δ + A ρ ^ j D`. Missing: wells that
leave their limit. -/
theorem C69_forget_partial {c : Ctx K} {m : Mdl K} (hm : Ready c m) (hx : Exact c.lin) {vect : Bool} (hf : vect = true → c.e.Flat) (hi : PressureGiven c.e m) :
    ∃ A ρ : K, 0 ≤ ρ ∧ ρ < 1 ∧ 0 ≤ A ∧ ∀ (m0 n0 : Mdl K) (δ D : K) (f f' k : ℕ) (el el' : K), Shape m m0 → Shape m n0 → Ready c m0 → Ready c n0 → Within δ m0 n0 → 0 ≤ D → 0 ≤ δ →
      (c.e.comp = true → ∀ id, id ∈ c.e.ids → ∃ p q, m0.initP id = some p ∧ n0.initP id = some q ∧ |p - q| ≤ D) →
      RunAll c Calm f vect k m0 { Sol.init m0 with nsteps := (Sol.init m0).nsteps + k } → RunAll c Calm f' vect k n0 { Sol.init n0 with nsteps := (Sol.init n0).nsteps + k } →
      (run c f vect k el m0 (Sol.init m0)).2 = .ok () → (run c f' vect k el' n0 (Sol.init n0)).2 = .ok () →
      Close (fun j => δ + A * ρ ^ j * D) c (run c f vect k el m0 (Sol.init m0)).1.2 (run c f' vect k el' n0 (Sol.init n0)).1.2 := by
  obtain ⟨z, ρ, a, b, hρ, hρ1, ha, hab, hz⟩ := profile hm.ctx vect hm.started.mdl hi
  have hz0 : ∀ i, i < c.e.n → 0 ≤ z i := fun i hi => ha.le.trans (hab i hi).1
  have hb : 0 ≤ b := (hz0 0 hm.ctx.wf.pos).trans (hab 0 hm.ctx.wf.pos).2
  refine ⟨b / a, ρ, hρ, hρ1, by positivity, fun m0 n0 δ D f f' k el el' s1 s2 hr hr' hw hD hδ hinit hP hP' hs hs' => ?_⟩
  have hC : 0 ≤ D / a := by positivity
  refine (run_close hr hr' hx hw hf (s1.pressureGiven hi).anchored (s2.pressureGiven hi).anchored (decays_profile δ (D / a) hC hρ hz0 s1.outLeak hz)
    (decays_profile δ (D / a) hC hρ hz0 s2.outLeak hz) k el el' (fun hc i hin => ?_) hP hP' hs hs').close fun j i hin => ?_
  · obtain ⟨p, q, h1, h2, h3⟩ := hinit hc _ (at_mem c.e hin)
    refine ⟨p, q, h1, h2, h3.trans ?_⟩
    have : D = D / a * a := by field_simp
    have h4 : D / a * a ≤ D / a * z i := mul_le_mul_of_nonneg_left (hab i hin).1 hC
    rw [pow_zero, mul_one]; linarith
  · have h4 : D / a * ρ ^ j * z i ≤ D / a * ρ ^ j * b := mul_le_mul_of_nonneg_left (hab i hin).2 (mul_nonneg hC (pow_nonneg hρ _))
    have : D / a * ρ ^ j * b = b / a * ρ ^ j * D := by ring
    linarith

/-! ### a simulation settles down -/

/-- Consecutive rows of the table differ by at most `β j i`. -/
def Settles (β : ℕ → ℕ → K) (c : Ctx K) (s : Sol K) : Prop :=
  ∀ j, j < s.tstep → (c.e.comp = true ∨ 0 < j) → ∀ i, i < c.e.n →
    ∃ p q, rowAt s.press j none (c.e.at i) = some p ∧ rowAt s.press (j + 1) none (c.e.at i) = some q ∧ |p - q| ≤ β j i

lemma within_self (m : Mdl K) : Within 0 m m :=
  ⟨List.forall₂_same.2 fun _ _ => ⟨rfl, rfl, fun _ => by simp, fun _ => rfl⟩, List.forall₂_same.2 fun _ _ => ⟨rfl, rfl, rfl, by simp⟩⟩

lemma settle_step {c : Ctx K} {m0 m m1 m2 : Mdl K} {s s1 s2 : Sol K} {vect : Bool} {f : ℕ} {β : ℕ → ℕ → K} (hr : Ready c m0) (hx : Exact c.lin) (hf : vect = true → c.e.Flat)
    (han : Anchored c.e m0) (hd : Decays c vect m0 0 0 β) (hh : Hist c Calm m0 m s) (hP : SolveAll c Calm f vect m s) (hs : solve c f vect true m s = .ok (m1, s1))
    (hP' : SolveAll c Calm f vect m1 s1) (hs' : solve c f vect true m1 s1 = .ok (m2, s2)) (hb : Settles β c s1) : Settles β c s2 := by
  have hh1 := hh.solve hr.ctx.lower hr.ctx.wf hr.started.mdl hP hs
  obtain ⟨m1', s1', a1, a2, a3, a4, a5, a6⟩ := solve_last hr.ctx.lower hr.ctx.wf hr.started.mdl hh hP hs
  obtain ⟨n1, t1, b1, b2, b3, b4, b5, b6⟩ := solve_last hr.ctx.lower hr.ctx.wf hr.started.mdl hh1 hP' hs'
  obtain ⟨_, _, _, _, _, _, _, _, h1⟩ := attempted hr.ctx.lower hr.ctx.wf (hr.inv a1) a5
  obtain ⟨_, _, _, _, _, _, _, _, h2⟩ := attempted hr.ctx.lower hr.ctx.wf (hr.inv b1) b5
  have es : s1.tstep = s.tstep + 1 := by rw [h1.tstep, a4]
  have et : s2.tstep = s1.tstep + 1 := by rw [h2.tstep, b4]
  have keep : ∀ k, k ≤ s1.tstep → ∀ id, rowAt s2.press k none id = rowAt s1.press k none id := fun k hk id => by
    rw [h2.press, rowAt_append_lt (by rw [(hr.inv b1).plen]; omega), b2]
  have keep' : ∀ k, k ≤ s.tstep → ∀ id, rowAt s1.press k none id = rowAt s.press k none id := fun k hk id => by
    rw [h1.press, rowAt_append_lt (by rw [(hr.inv a1).plen]; omega), a2]
  have old : c.e.comp = true → ∀ i, i < c.e.n → |s1'.inner c.e s1'.tstep i - t1.inner c.e t1.tstep i| ≤ β s.tstep i := fun hc i hin => by
    obtain ⟨p, q, k1, k2, k3⟩ := hb s.tstep (by omega) (.inl hc) i hin
    rw [keep' _ le_rfl] at k1
    rw [← es] at k2
    unfold Sol.inner
    rw [a2, a4, b2, b4, k1, k2]; exact k3
  intro j hj hc i hin
  by_cases hk : j = s1.tstep
  · have r1 := row_inner hr (hr.inv a1) a5 hin
    have r2 := row_inner hr (hr.inv b1) b5 hin
    refine ⟨_, _, by rw [keep _ (by omega), hk]; exact r1, by rw [hk, ← et]; exact r2, ?_⟩
    have hw := within_self m0
    have u1 := attempt_shift hr hr hx hw.most (fun _ _ _ _ => le_rfl) a1 b1 hf han a5 a6.2 b5 b6 (fun i hi => (hd s.tstep i hi).1) (fun i hi => (hd s.tstep i hi).2)
      (fun hc i hin => by linarith [(abs_le.1 (old hc i hin)).2]) _ hin
    have u2 := attempt_shift hr hr hx hw.most (fun _ _ _ _ => le_rfl) b1 a1 hf han b5 b6.2 a5 a6 (fun i hi => (hd s.tstep i hi).1) (fun i hi => (hd s.tstep i hi).2)
      (fun hc i hin => by linarith [(abs_le.1 (old hc i hin)).1]) _ hin
    rw [hk, es, abs_le]; constructor <;> rw [es] at u1 u2 <;> linarith
  · obtain ⟨p, q, k1, k2, k3⟩ := hb j (by omega) hc i hin
    exact ⟨p, q, by rw [keep _ (by omega)]; exact k1, by rw [keep _ (by omega)]; exact k2, k3⟩

lemma runLoop_settle {c : Ctx K} {m0 : Mdl K} {vect : Bool} {f : ℕ} {β : ℕ → ℕ → K} (hr : Ready c m0) (hx : Exact c.lin) (hf : vect = true → c.e.Flat)
    (han : Anchored c.e m0) (hd : Decays c vect m0 0 0 β) (k : ℕ) {m m1 : Mdl K} {s s1 : Sol K} (hh : Hist c Calm m0 m s) (hP : SolveAll c Calm f vect m s)
    (hs : solve c f vect true m s = .ok (m1, s1)) (hP' : RunAll c Calm f vect k m1 s1) (hl : (runLoop c f vect k m1 s1).2 = .ok ()) (hb : Settles β c s1) :
    Settles β c (runLoop c f vect k m1 s1).1.2 := by
  induction k generalizing m m1 s s1 with
  | zero => exact hb
  | succ k ih =>
    unfold runLoop at hl ⊢
    rcases h1 : solve c f vect true m1 s1 with x | ⟨m2, s2⟩
    · rw [h1] at hl; cases hl
    rw [h1] at hl
    exact ih (hh.solve hr.ctx.lower hr.ctx.wf hr.started.mdl hP hs) hP'.1 h1 (hP'.2 _ _ h1) hl (settle_step hr hx hf han hd hh hP hs hP'.1 h1 hb)

lemma runLoop_rows {c : Ctx K} {m0 : Mdl K} {vect : Bool} {f : ℕ} (hr : Ready c m0) (k : ℕ) {m : Mdl K} {s : Sol K} (hh : Hist c Calm m0 m s) (hP : RunAll c Calm f vect k m s)
    (hl : (runLoop c f vect k m s).2 = .ok ()) : (runLoop c f vect k m s).1.2.tstep = s.tstep + k ∧
      ∀ j, j ≤ s.tstep → ∀ id, rowAt (runLoop c f vect k m s).1.2.press j none id = rowAt s.press j none id := by
  induction k generalizing m s with
  | zero => exact ⟨rfl, fun _ _ _ => rfl⟩
  | succ k ih =>
    unfold runLoop at hl ⊢
    rcases h1 : solve c f vect true m s with x | ⟨m1, s1⟩
    · rw [h1] at hl; cases hl
    rw [h1] at hl
    obtain ⟨m1', s1', a1, a2, a3, a4, a5, a6⟩ := solve_last hr.ctx.lower hr.ctx.wf hr.started.mdl hh hP.1 h1
    obtain ⟨_, _, _, _, _, _, _, _, h2⟩ := attempted hr.ctx.lower hr.ctx.wf (hr.inv a1) a5
    have es : s1.tstep = s.tstep + 1 := by rw [h2.tstep, a4]
    obtain ⟨k1, k2⟩ := ih (hh.solve hr.ctx.lower hr.ctx.wf hr.started.mdl hP.1 h1) (hP.2 _ _ h1) hl
    refine ⟨by dsimp only; rw [k1]; omega, fun j hj id => ?_⟩
    dsimp only
    rw [k2 j (by omega), h2.press, rowAt_append_lt (by rw [(hr.inv a1).plen]; omega), a2]

/-- A number stored for cell `id` and step `j`. -/
def Sol.at (s : Sol K) (j id : ℕ) : Option K := rowAt s.press j none id

lemma geom_tail {ρ C : K} (h0 : 0 ≤ ρ) (h1 : ρ < 1) (hC : 0 ≤ C) {p : ℕ → K} {j l : ℕ} (h : ∀ i, j ≤ i → i < j + l → |p i - p (i + 1)| ≤ C * ρ ^ i) :
    |p (j + l) - p j| ≤ C * ρ ^ j / (1 - ρ) := by
  have hd : 0 < 1 - ρ := by linarith
  have key : ∀ l', l' ≤ l → |p (j + l') - p j| ≤ C * ρ ^ j / (1 - ρ) * (1 - ρ ^ l') := by
    intro l'
    induction l' with
    | zero => intro _; simp
    | succ l' ih =>
      intro hl
      have h2 := ih (by omega)
      have h3 := h (j + l') (by omega) (by omega)
      have h4 : |p (j + (l' + 1)) - p j| ≤ |p (j + l') - p (j + l' + 1)| + |p (j + l') - p j| := by
        rw [abs_sub_comm (p (j + l'))]
        exact (abs_sub_le _ (p (j + l')) _)
      refine h4.trans ((add_le_add h3 h2).trans (le_of_eq ?_))
      rw [pow_add, pow_succ]; field_simp; ring
  refine (key l le_rfl).trans ?_
  have : 0 ≤ C * ρ ^ j / (1 - ρ) := div_nonneg (mul_nonneg hC (pow_nonneg h0 j)) hd.le
  nlinarith [pow_nonneg h0 l]

/-- **C69** (a simulation settles down), partial: where a pressure is imposed somewhere there are `A` and `ρ < 1` as in `C69_forget_partial` such that, if the first step of a run changes
no pressure by more than `D`, the pressures never leave a band of width `A ρ ^ j D` around those after `j` steps again. -/
theorem C69_settle_partial {c : Ctx K} {m : Mdl K} (hm : Ready c m) (hx : Exact c.lin) {vect : Bool} (hf : vect = true → c.e.Flat) (hi : PressureGiven c.e m) (hc : c.e.comp = true) :
    ∃ A ρ : K, 0 ≤ ρ ∧ ρ < 1 ∧ 0 ≤ A ∧ ∀ (m0 : Mdl K) (D : K) (f k : ℕ) (el : K) (s : Sol K), Shape m m0 → Ready c m0 → 0 ≤ D →
      RunAll c Calm f vect k m0 { Sol.init m0 with nsteps := (Sol.init m0).nsteps + k } → (run c f vect k el m0 (Sol.init m0)).2 = .ok () →
      s = (run c f vect k el m0 (Sol.init m0)).1.2 →
      (∀ id, id ∈ c.e.ids → ∃ p q, s.at 0 id = some p ∧ s.at 1 id = some q ∧ |q - p| ≤ D) →
      ∀ id, id ∈ c.e.ids → ∀ j l, j ≤ l → l ≤ k → ∃ p q, s.at j id = some p ∧ s.at l id = some q ∧ |q - p| ≤ A * ρ ^ j * D := by
  obtain ⟨z, ρ, a, b, hρ, hρ1, ha, hab, hz⟩ := profile hm.ctx vect hm.started.mdl hi
  have hz0 : ∀ i, i < c.e.n → 0 ≤ z i := fun i hi => ha.le.trans (hab i hi).1
  have hb : 0 ≤ b := (hz0 0 hm.ctx.wf.pos).trans (hab 0 hm.ctx.wf.pos).2
  have hd0 : 0 < 1 - ρ := by linarith
  refine ⟨b / a / (1 - ρ), ρ, hρ, hρ1, by positivity, fun m0 D f k el s s1 hr hD hP hs he hfirst id hid j l hjl hlk => ?_⟩
  have hC : 0 ≤ D / a := by positivity
  have hd := decays_profile (n := m0) 0 (D / a) hC hρ hz0 s1.outLeak hz
  have han := (s1.pressureGiven hi).anchored
  have hin := idx_lt c.e hid
  have hh : Hist c Calm m0 m0 { Sol.init m0 with nsteps := (Sol.init m0).nsteps + k } := .clock _ (Sol.init m0).ctime .start
  have hse : s.press = (runLoop c f vect k m0 { Sol.init m0 with nsteps := (Sol.init m0).nsteps + k }).1.2.press ∧
      (runLoop c f vect k m0 { Sol.init m0 with nsteps := (Sol.init m0).nsteps + k }).2 = .ok () := by
    rw [he]
    unfold run at hs ⊢
    rcases h1 : runLoop c f vect k m0 { Sol.init m0 with nsteps := (Sol.init m0).nsteps + k } with ⟨⟨m1, s1⟩, x | ⟨⟩⟩
    · rw [h1] at hs; cases hs
    · exact ⟨rfl, rfl⟩
  obtain ⟨hp, hl⟩ := hse
  have row0 := (runLoop_rows hr k hh hP hl).1
  have row1 : ∀ j, s.at j id = rowAt (runLoop c f vect k m0 { Sol.init m0 with nsteps := (Sol.init m0).nsteps + k }).1.2.press j none id := fun j => by
    unfold Sol.at; rw [hp]
  have key : Settles (fun k i => 0 + D / a * ρ ^ k * z i) c (runLoop c f vect k m0 { Sol.init m0 with nsteps := (Sol.init m0).nsteps + k }).1.2 := by
    have hfirst' : ∀ i, i < c.e.n → ∃ p q, rowAt (runLoop c f vect k m0 { Sol.init m0 with nsteps := (Sol.init m0).nsteps + k }).1.2.press 0 none (c.e.at i) = some p ∧
        rowAt (runLoop c f vect k m0 { Sol.init m0 with nsteps := (Sol.init m0).nsteps + k }).1.2.press 1 none (c.e.at i) = some q ∧ |p - q| ≤ 0 + D / a * ρ ^ 0 * z i := fun i hi => by
      obtain ⟨p, q, h1, h2, h3⟩ := hfirst _ (at_mem c.e hi)
      unfold Sol.at at h1 h2
      rw [hp] at h1 h2
      refine ⟨p, q, h1, h2, ?_⟩
      have : D = D / a * a := by field_simp
      have h4 : D / a * a ≤ D / a * z i := mul_le_mul_of_nonneg_left (hab i hi).1 hC
      rw [abs_sub_comm, pow_zero, mul_one]; linarith
    generalize hK : { Sol.init m0 with nsteps := (Sol.init m0).nsteps + k } = S at *
    have hS : S.tstep = 0 := by rw [← hK]; rfl
    rcases k with _ | k
    · intro j hj
      rw [row0, hS] at hj; omega
    · unfold runLoop at hl hfirst' ⊢
      rcases h1 : solve c f vect true m0 S with x | ⟨m1, s1⟩
      · rw [h1] at hl; cases hl
      rw [h1] at hl hfirst'
      dsimp only at hl hfirst' ⊢
      have hh1 := hh.solve hr.ctx.lower hr.ctx.wf hr.started.mdl hP.1 h1
      obtain ⟨m1', s1', a1, a2, a3, a4, a5, a6⟩ := solve_last hr.ctx.lower hr.ctx.wf hr.started.mdl hh hP.1 h1
      obtain ⟨_, _, _, _, _, _, _, _, h2⟩ := attempted hr.ctx.lower hr.ctx.wf (hr.inv a1) a5
      have es : s1.tstep = 1 := by rw [h2.tstep, a4, hS]
      have hk := (runLoop_rows hr k hh1 (hP.2 _ _ h1) hl).2
      refine runLoop_settle hr hx hf han hd k hh hP.1 h1 (hP.2 _ _ h1) hl fun j hj _ i hi => ?_
      have hj0 : j = 0 := by omega
      subst hj0
      obtain ⟨p, q, k1, k2, k3⟩ := hfirst' i hi
      exact ⟨p, q, by rw [← hk 0 (by omega)]; exact k1, by rw [← hk 1 (by omega)]; exact k2, k3⟩
  have hT : (runLoop c f vect k m0 { Sol.init m0 with nsteps := (Sol.init m0).nsteps + k }).1.2.tstep = k := by rw [row0]; exact Nat.zero_add k
  have some_row : ∀ j, j ≤ k → ∃ p, s.at j id = some p := fun j hj => by
    rw [row1]
    rcases j with _ | j
    · obtain ⟨p, q, h1, -, -⟩ := hfirst id hid
      exact ⟨p, by rw [← row1]; exact h1⟩
    · obtain ⟨p, q, -, h2, -⟩ := key j (by omega) (.inl hc) _ hin
      rw [at_idx c.e hid] at h2
      exact ⟨q, h2⟩
  obtain ⟨p, h1⟩ := some_row j (by omega)
  obtain ⟨q, h2⟩ := some_row l hlk
  refine ⟨p, q, h1, h2, ?_⟩
  have := geom_tail (C := D / a * b) hρ hρ1 (by positivity) (p := fun j => (s.at j id).getD 0) (j := j) (l := l - j) fun i _ hi => by
    obtain ⟨p, q, h1, h2, h3⟩ := key i (by omega) (.inl hc) _ hin
    rw [at_idx c.e hid] at h1 h2
    rw [row1, row1, h1, h2]
    refine h3.trans ?_
    have h4 : D / a * ρ ^ i * z (c.e.ids.idxOf id) ≤ D / a * ρ ^ i * b := mul_le_mul_of_nonneg_left (hab _ hin).2 (mul_nonneg hC (pow_nonneg hρ _))
    dsimp only
    rw [zero_add]
    refine h4.trans (le_of_eq (by ring))
  rw [show j + (l - j) = l by omega, h1, h2] at this
  refine this.trans (le_of_eq ?_)
  field_simp

/-! ### examples and the exception -/

/-- `exA` with other pressures: 12 instead of 10 on the left, 9 instead of 8 at the start, 3 instead of 2 as limit of the well. -/
def exNear : Mdl ℚ := exMdl true 0 [] (some 9) [(0, "pressure", 12), (3, "rate", 1)] [(2, { q := some (-4), pwf := some 3, r := some 1 })]

lemma exNear_ready : Ready (exC true 0 []) exNear := exMdl_ready (by decide +kernel)

lemma exNear_within : Within 2 exA exNear :=
  ⟨by have h1 : exA.bdict = [(0, "pressure", 10), (3, "rate", 1)] := by decide +kernel
      have h2 : exNear.bdict = [(0, "pressure", 12), (3, "rate", 1)] := by decide +kernel
      rw [h1, h2]
      exact .cons ⟨rfl, rfl, fun _ => by norm_num, fun h => absurd rfl h⟩ (.cons ⟨rfl, rfl, fun h => absurd h (by decide), fun _ => rfl⟩ .nil),
   by have h1 : exA.wells = [(2, { G := some 1, q := some (-4), con := some .q, qsp := some (-4), pwf := some 2, pwfsp := some 2, r := some 1, req := some 1 })] := by decide +kernel
      have h2 : exNear.wells = [(2, { G := some 1, q := some (-4), con := some .q, qsp := some (-4), pwf := some 3, pwfsp := some 3, r := some 1, req := some 1 })] := by decide +kernel
      rw [h1, h2]
      exact .cons ⟨rfl, rfl, rfl, by norm_num⟩ .nil⟩

lemma exA_face : (exC true 0 []).e.transC 0 false = .ok [(1, 1)] := by decide +kernel

lemma exA_pgiven : PressureGiven (exC true 0 []).e exA := .inl ⟨(0, "pressure", 10), 1, 1, by decide +kernel, rfl, exA_face, one_pos⟩

lemma shape_self (m : Mdl K) : Shape m m := ⟨List.forall₂_same.2 fun _ _ => ⟨rfl, rfl⟩, List.forall₂_same.2 fun _ _ => ⟨rfl, rfl, rfl⟩⟩

lemma exNear_shape : Shape exA exNear :=
  ⟨by have h1 : exA.bdict = [(0, "pressure", 10), (3, "rate", 1)] := by decide +kernel
      have h2 : exNear.bdict = [(0, "pressure", 12), (3, "rate", 1)] := by decide +kernel
      rw [h1, h2]; simp,
   by have h1 : exA.wells = [(2, { G := some 1, q := some (-4), con := some .q, qsp := some (-4), pwf := some 2, pwfsp := some 2, r := some 1, req := some 1 })] := by decide +kernel
      have h2 : exNear.wells = [(2, { G := some 1, q := some (-4), con := some .q, qsp := some (-4), pwf := some 3, pwfsp := some 3, r := some 1, req := some 1 })] := by decide +kernel
      rw [h1, h2]; simp⟩

lemma exNear_init : ∀ id, id ∈ (exC true 0 []).e.ids → ∃ p q : ℚ, exA.initP id = some p ∧ exNear.initP id = some q ∧ |p - q| ≤ 1 := fun id hid =>
  ⟨8, 9, all_of (p := fun id => exA.initP id = some 8) (by decide +kernel) id hid, all_of (p := fun id => exNear.initP id = some 9) (by decide +kernel) id hid, by norm_num⟩

example (vect : Bool) : ∃ s t : Sol ℚ, s.tstep = 3 ∧ Close (fun _ => 2) (exC true 0 []) s t :=
  ⟨_, _, by cases vect <;> decide +kernel, C68_run_partial (f := 10) (f' := 10) (vect := vect) exA_ready exNear_ready cramer_exact exNear_within
    (fun _ => ex_flat _) (.inl (by decide +kernel)) (.inl (by decide +kernel)) 3 0 0
    (fun _ id hid => by obtain ⟨p, q, h1, h2, h3⟩ := exNear_init id hid; exact ⟨p, q, h1, h2, h3.trans one_le_two⟩)
    (runCalmB_all (by cases vect <;> decide +kernel)) (runCalmB_all (by cases vect <;> decide +kernel))
    (isOk_unit (by cases vect <;> decide +kernel)) (isOk_unit (by cases vect <;> decide +kernel))⟩

example (vect : Bool) : ∃ (A ρ : ℚ) (s t : Sol ℚ), ρ < 1 ∧ s.tstep = 3 ∧ Close (fun j => 2 + A * ρ ^ j * 1) (exC true 0 []) s t := by
  obtain ⟨A, ρ, -, h1, -, h⟩ := C69_forget_partial exA_ready cramer_exact (vect := vect) (fun _ => ex_flat _) exA_pgiven
  exact ⟨A, ρ, _, _, h1, by cases vect <;> decide +kernel, h exA exNear 2 1 10 10 3 0 0 (shape_self _) exNear_shape exA_ready exNear_ready exNear_within zero_le_one zero_le_two
    (fun _ => exNear_init) (runCalmB_all (by cases vect <;> decide +kernel)) (runCalmB_all (by cases vect <;> decide +kernel))
    (isOk_unit (by cases vect <;> decide +kernel)) (isOk_unit (by cases vect <;> decide +kernel))⟩

lemma exA_first (vect : Bool) : ∀ id, id ∈ (exC true 0 []).e.ids → ∃ p q : ℚ, (run (exC true 0 []) 10 vect 3 0 exA (Sol.init exA)).1.2.at 0 id = some p ∧
    (run (exC true 0 []) 10 vect 3 0 exA (Sol.init exA)).1.2.at 1 id = some q ∧ |q - p| ≤ 8 := by
  have h : ∀ id ∈ (exC true 0 []).e.ids, ((run (exC true 0 []) 10 vect 3 0 exA (Sol.init exA)).1.2.at 0 id).isSome = true ∧
      ((run (exC true 0 []) 10 vect 3 0 exA (Sol.init exA)).1.2.at 1 id).isSome = true ∧
      |((run (exC true 0 []) 10 vect 3 0 exA (Sol.init exA)).1.2.at 1 id).getD 0 - ((run (exC true 0 []) 10 vect 3 0 exA (Sol.init exA)).1.2.at 0 id).getD 0| ≤ 8 := by
    cases vect <;> decide +kernel
  intro id hid
  obtain ⟨h1, h2, h3⟩ := h id hid
  obtain ⟨p, hp⟩ := Option.isSome_iff_exists.1 h1
  obtain ⟨q, hq⟩ := Option.isSome_iff_exists.1 h2
  rw [hp, hq] at h3
  exact ⟨p, q, hp, hq, h3⟩

example (vect : Bool) : ∃ (A ρ : ℚ) (s : Sol ℚ), ρ < 1 ∧ s.tstep = 3 ∧ ∀ id, id ∈ (exC true 0 []).e.ids → ∃ p q, s.at 2 id = some p ∧ s.at 3 id = some q ∧ |q - p| ≤ A * ρ ^ 2 * 8 := by
  obtain ⟨A, ρ, -, h1, -, h⟩ := C69_settle_partial exA_ready cramer_exact (vect := vect) (fun _ => ex_flat _) exA_pgiven (by decide +kernel)
  exact ⟨A, ρ, (run (exC true 0 []) 10 vect 3 0 exA (Sol.init exA)).1.2, h1, by cases vect <;> decide +kernel, fun id hid => h exA 8 10 3 0 _ (shape_self _) exA_ready (by norm_num)
    (runCalmB_all (by cases vect <;> decide +kernel)) (isOk_unit (by cases vect <;> decide +kernel)) rfl (exA_first vect) id hid 2 3 (by norm_num) le_rfl⟩

lemma exLow101_ready : Ready (exC true 0 []) (exLow (101 / 10)) := exMdl_ready (by decide +kernel)

lemma exLow_within : Within (1 / 10) (exLow 10) (exLow (101 / 10)) :=
  ⟨by have h1 : (exLow 10).bdict = [(0, "pressure", 10)] := by decide +kernel
      have h2 : (exLow (101 / 10)).bdict = [(0, "pressure", 101 / 10)] := by decide +kernel
      rw [h1, h2]
      exact .cons ⟨rfl, rfl, fun _ => by norm_num, fun h => absurd rfl h⟩ .nil,
   by have h1 : (exLow 10).wells = (exLow (101 / 10)).wells := by decide +kernel
      rw [h1]
      exact List.forall₂_same.2 fun w _ => ⟨rfl, rfl, rfl, by norm_num⟩⟩

/-- **C68 fails** when a well leaves its limit (vectorised): a boundary pressure of 10.1 instead of 10, everything else being equal, changes the pressure in cell 2 after three steps by more than 1. -/
theorem C68_released_well : ∃ (c : Ctx ℚ) (m0 n0 m n : Mdl ℚ) (s t : Sol ℚ), Ready c m0 ∧ Ready c n0 ∧ Exact c.lin ∧ c.e.Level ∧ Within (1 / 10) m0 n0 ∧ Shape m0 n0 ∧
    (∀ id, id ∈ c.e.ids → m0.initP id = n0.initP id) ∧ run c 10 true 3 0 m0 (Sol.init m0) = ((m, s), .ok ()) ∧ run c 10 true 3 0 n0 (Sol.init n0) = ((n, t), .ok ()) ∧
    ∃ id p q, id ∈ c.e.ids ∧ rowAt s.press 3 none id = some p ∧ rowAt t.press 3 none id = some q ∧ 1 < |p - q| :=
  ⟨exC true 0 [], exLow 10, exLow (101 / 10), _, _, _, _, exLow10_ready, exLow101_ready, cramer_exact, ex_level _, exLow_within,
    ⟨by have h1 : (exLow 10).bdict = [(0, "pressure", 10)] := by decide +kernel
        have h2 : (exLow (101 / 10)).bdict = [(0, "pressure", 101 / 10)] := by decide +kernel
        rw [h1, h2]; simp,
     by have h1 : (exLow 10).wells = (exLow (101 / 10)).wells := by decide +kernel
        rw [h1]
        exact List.forall₂_same.2 fun w _ => ⟨rfl, rfl, rfl⟩⟩,
    all_of (p := fun id => (exLow 10).initP id = (exLow (101 / 10)).initP id) (by decide +kernel),
    Prod.ext rfl (isOk_unit (by decide +kernel)), Prod.ext rfl (isOk_unit (by decide +kernel)), 2, 7704 / 1331, 30792 / 6655, by decide +kernel, by decide +kernel, by decide +kernel, by decide +kernel⟩

end RF.Fdm
