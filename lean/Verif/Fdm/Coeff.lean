import Verif.Fdm.PropsSolver
/-!
# Two reservoirs whose coefficients differ a little

The comparison of `PropsStable.lean` for two runs in different environments: the same cells, faces and wells, the same conditions, but other transmissibilities, storages, well indices and
heads. (Used for C93.)
-/
set_option linter.unusedSectionVars false
namespace RF.Fdm
open RF RF.Dims Finset

variable {K : Type} [Field K] [LinearOrder K] [IsStrictOrderedRing K]

/-- The same cells and conditions, and every single flow (between two cells, over a face of given pressure, from a well at its limit, into storage) differs by at most `g` as long as the
pressure difference that drives it is at most `D`. -/
structure Gap (D g : K) (vect : Bool) (e e' : Env K) (m n : Mdl K) : Prop where
  ids : e'.ids = e.ids
  bnd : e'.bnd = e.bnd
  comp : e'.comp = e.comp
  flow : ∀ i j, i < e.n → j < e.n → ∀ u, |u| ≤ D →
    |e'.trans vect i j * (u - e'.grav * (e'.z (e.at j) - e'.z (e.at i))) - e.trans vect i j * (u - e.grav * (e.z (e.at j) - e.z (e.at i)))| ≤ g
  face : ∀ b, b ∈ e.bnd → ∀ (i : ℕ) (rate : ℕ → K) (v p : K), |v - p| ≤ D → |boundaryIn e' rate p i (b, "pressure", v) - boundaryIn e rate p i (b, "pressure", v)| ≤ g
  rate : ∀ b, b ∈ e.bnd → ∀ (i : ℕ) (rate : ℕ → K) (k : String) (v p : K), k ≠ "pressure" → boundaryIn e' rate p i (b, k, v) = boundaryIn e rate p i (b, k, v)
  rhs : ∀ i, i < e.n → ∀ u, |u| ≤ D → |e'.rhs (e.at i) * u - e.rhs (e.at i) * u| ≤ g
  bd : n.bdict = m.bdict
  well : List.Forall₂ (fun w w' => w'.1 = w.1 ∧ w'.2.qsp = w.2.qsp ∧ w'.2.pwfsp = w.2.pwfsp ∧ ∀ u, |u| ≤ D → |windex e' w'.2 * u - windex e w.2 * u| ≤ g) m.wells n.wells

lemma Gap.n {D g : K} {vect : Bool} {e e' : Env K} {m n : Mdl K} (h : Gap D g vect e e' m n) : e'.n = e.n := by unfold Env.n; rw [h.ids]
lemma Gap.at {D g : K} {vect : Bool} {e e' : Env K} {m n : Mdl K} (h : Gap D g vect e e' m n) : e'.at = e.at := by funext i; unfold Env.at; rw [h.ids]
lemma Gap.inner {D g : K} {vect : Bool} {e e' : Env K} {m n : Mdl K} (h : Gap D g vect e e' m n) (s : Sol K) (t : ℕ) : s.inner e' t = s.inner e t := by unfold Sol.inner; rw [h.at]

lemma Gap.symm {D g : K} {vect : Bool} {e e' : Env K} {m n : Mdl K} (h : Gap D g vect e e' m n) : Gap D g vect e' e n m where
  ids := h.ids.symm
  bnd := h.bnd.symm
  comp := h.comp.symm
  flow i j hi hj u hu := by rw [h.n] at hi hj; rw [h.at, abs_sub_comm]; exact h.flow i j hi hj u hu
  face b hb i r v p hp := by rw [abs_sub_comm]; exact h.face b (h.bnd ▸ hb) i r v p hp
  rate b hb i r k v p hp := (h.rate b (h.bnd ▸ hb) i r k v p hp).symm
  rhs i hi u hu := by rw [h.n] at hi; rw [h.at, abs_sub_comm]; exact h.rhs i hi u hu
  bd := h.bd.symm
  well := (h.well.imp fun _ _ hw => (⟨hw.1.symm, hw.2.1.symm, hw.2.2.1.symm, fun u hu => by rw [abs_sub_comm]; exact hw.2.2.2 u hu⟩ : _ ∧ _ ∧ _ ∧ ∀ u, _ → _)).flip

/-- What the mismatches of a cell can add up to. -/
def Gap.total (g : K) (e : Env K) (m : Mdl K) : K := (e.n + m.bdict.length + m.wells.length + 1) * g

/-- All pressures of cells stored in the table (from step 1 on if the fluid is incompressible), all given pressures and all limits of wells lie between `lo` and `lo + D`. -/
structure InBand (lo D : K) (e : Env K) (m0 : Mdl K) (s : Sol K) : Prop where
  cell : ∀ k, k ≤ s.tstep → (e.comp = true ∨ 0 < k) → ∀ id, id ∈ e.ids → ∃ p, rowAt s.press k none id = some p ∧ lo ≤ p ∧ p ≤ lo + D
  bd : ∀ b, b ∈ m0.bdict → b.2.1 = "pressure" → lo ≤ b.2.2 ∧ b.2.2 ≤ lo + D
  well : ∀ w p, w ∈ m0.wells → w.2.pwfsp = some p → lo ≤ p ∧ p ≤ lo + D

lemma sum_plus {α : Type} (f : α → K) (k : K) (l : List α) : (l.map fun a => f a + k).sum = (l.map f).sum + l.length * k := by
  induction l with
  | nil => simp
  | cons a l ih => simp only [List.map_cons, List.sum_cons, ih, List.length_cons]; push_cast; ring

lemma band_diff {lo D p q : K} (h1 : lo ≤ p) (h2 : p ≤ lo + D) (h3 : lo ≤ q) (h4 : q ≤ lo + D) : |p - q| ≤ D := by rw [abs_le]; constructor <;> linarith

/-- Pressures of an attempt in the first and of an accepted attempt in the second reservoir. -/
lemma attempt_shift_gap {c c' : Ctx K} {m0 m n0 n n' : Mdl K} {s s' t t' : Sol K} {vect : Bool} {D g lo : K} {σ σ' : ℕ → K} (hr : Ready c m0) (hr' : Ready c' n0)
    (hb : ∀ i, i < c.e.n → excess c.e (c.e.trans vect) m (usedRate vect m s) (s.inner c.e s.tstep) (s'.inner c.e s'.tstep) i = 0)
    (hb' : ∀ i, i < c'.e.n → excess c'.e (c'.e.trans vect) n (usedRate vect n t) (t.inner c'.e t.tstep) (t'.inner c'.e t'.tstep) i = 0)
    (hgap : Gap D g vect c.e c'.e m0 n0) (hg0 : 0 ≤ g) (hg : vect = true → RatesGiven m0 ∧ RatesGiven n0)
    (hh : Hist c Calm m0 m s) (hh' : Hist c' Calm n0 n t) (han : Anchored c.e m0)
    (hat' : attempt c' vect n t = .ok (n', t', false)) (hP : Calm vect n n') (hδ : ∀ i, i < c.e.n → 0 ≤ σ' i)
    (hσ : ∀ i, i < c.e.n → ∑ j ∈ range c.e.n, c.e.trans vect i j * (σ' j - σ' i) + c.e.rhs (c.e.at i) * (σ i - σ' i) + Gap.total g c.e m0 ≤ outLeak c.e m0 i * σ' i)
    (hold : c.e.comp = true → ∀ i, i < c.e.n → s.inner c.e s.tstep i ≤ t.inner c.e t.tstep i + σ i)
    (band : ∀ i, i < c.e.n → lo ≤ t'.inner c.e t'.tstep i ∧ t'.inner c.e t'.tstep i ≤ lo + D)
    (bandO : c.e.comp = true → ∀ i, i < c.e.n → lo ≤ t.inner c.e t.tstep i ∧ t.inner c.e t.tstep i ≤ lo + D)
    (bandB : ∀ b, b ∈ m0.bdict → b.2.1 = "pressure" → lo ≤ b.2.2 ∧ b.2.2 ≤ lo + D)
    (bandW : ∀ w p, w ∈ m0.wells → w.2.pwfsp = some p → lo ≤ p ∧ p ≤ lo + D) :
    ∀ i, i < c.e.n → s'.inner c.e s'.tstep i ≤ t'.inner c.e t'.tstep i + σ' i := by
  obtain ⟨hi, hq⟩ := hr.calm hh
  obtain ⟨hi', hq'⟩ := hr'.calm hh'
  have he := hr.ctx.wf
  have he' := hr'.ctx.wf
  have hT := hr.ctx.grid.network vect
  obtain ⟨n1, t1, A, d, x, p, r', ps, ha⟩ := attempted hr'.ctx.lower he' hi' hat'
  have hdone := (ha.done rfl).1
  refine Net.le_of_inflow_le (q := fun i => t'.inner c.e t'.tstep i + σ' i) (anchored_leaky he hT hi.mdl (hh.anchored hr han)) fun i hin => ?_
  have e1 := excess_linear c.e hT m (usedRate vect m s) (s.inner c.e s.tstep) (s'.inner c.e s'.tstep) hin
  have e2 := excess_linear c.e hT m (usedRate vect m s) (s.inner c.e s.tstep) (fun i => t'.inner c.e t'.tstep i + σ' i) hin
  rw [← e1, ← e2, hb i hin]
  have hin' : i < c'.e.n := by rw [hgap.n]; exact hin
  rw [← hb' i hin']
  have hbd : n.bdict = m.bdict := by rw [hi.same.bdict, hi'.same.bdict, hgap.bd]
  have k1 : (m.bdict.map (boundaryIn c.e (usedRate vect m s) (t'.inner c.e t'.tstep i + σ' i) i)).sum + (m.bdict.map (bLeak c.e i)).sum * σ' i ≤
      (n.bdict.map (boundaryIn c'.e (usedRate vect n t) (t'.inner c.e t'.tstep i) i)).sum + m.bdict.length * g := by
    rw [← sum_shift, hbd, ← sum_plus]
    refine List.sum_le_sum fun b h4 => ?_
    have m4 : b ∈ m0.bdict := by rw [← hi.same.bdict]; exact h4
    have m5 : b ∈ n0.bdict := by rw [hgap.bd]; exact m4
    have hbb := hi.mdl.bmem b h4
    by_cases hk : b.2.1 = "pressure"
    · obtain ⟨b1, b2, b3⟩ := b
      dsimp only at hk
      subst hk
      have u1 := boundaryIn_shift he (δ := 0) (σ := σ' i) (rate := usedRate vect m s) (rate' := usedRate vect n t) (t'.inner c.e t'.tstep i) i hbb (b' := (b1, "pressure", b3)) rfl rfl
        (fun _ => by simp) (fun h => absurd rfl h)
      have v1 := bandB _ m4 rfl
      have v2 := band i hin
      have u2 := (abs_le.1 (hgap.face b1 hbb i (usedRate vect n t) b3 (t'.inner c.e t'.tstep i) (band_diff v1.1 v1.2 v2.1 v2.2))).1
      rw [sub_zero] at u1
      linarith
    · obtain ⟨b1, b2, b3⟩ := b
      have u1 := boundaryIn_shift he (δ := 0) (σ := σ' i) (rate := usedRate vect m s) (rate' := usedRate vect n t) (t'.inner c.e t'.tstep i) i hbb (b' := (b1, b2, b3)) rfl rfl
        (fun h => absurd h hk) (fun _ => by
          rw [usedRate_eq he hr.started.mdl hi vect m4 hk]
          have u := usedRate_eq he' hr'.started.mdl hi' vect m5 hk
          dsimp only at u ⊢
          rw [u]
          cases vect
          · exact le_rfl
          · have g1 := (hg rfl).1 _ m4 hk
            have g2 := (hg rfl).2 _ m5 hk
            dsimp only at g1 g2
            simp only [if_true]
            rw [g1, g2])
      rw [sub_zero] at u1
      rw [hgap.rate b1 hbb i (usedRate vect n t) b2 b3 _ hk]
      linarith
  have hmv : List.Forall₂ (fun w w' => w'.1 = w.1 ∧ w'.2.qsp = w.2.qsp ∧ w'.2.pwfsp = w.2.pwfsp ∧ ∀ u, |u| ≤ D → |windex c'.e w'.2 * u - windex c.e w.2 * u| ≤ g) m.wells n.wells := by
    have a : List.Forall₂ (fun y x => y.1 = x.1 ∧ y.2.G = x.2.G ∧ y.2.pwfsp = x.2.pwfsp ∧ y.2.qsp = x.2.qsp) m.wells m0.wells := List.Forall₂.flip hi.same.wells
    refine forall2_comp (fun x y z hxy hyz => ?_) (forall2_comp (T := fun w w' => w'.1 = w.1 ∧ w'.2.qsp = w.2.qsp ∧ w'.2.pwfsp = w.2.pwfsp ∧ ∀ u, |u| ≤ D →
      |windex c'.e w'.2 * u - windex c.e w.2 * u| ≤ g) (fun x y z hxy hyz => ?_) a hgap.well) hi'.same.wells
    · have : windex c'.e z.2 = windex c'.e y.2 := by unfold windex; rw [hyz.2.1]
      rw [hyz.1, hyz.2.2.1, hyz.2.2.2, this]; exact hxy
    · have : windex c.e x.2 = windex c.e y.2 := by unfold windex; rw [hxy.2.1]
      rw [hxy.1, hxy.2.2.1, hxy.2.2.2, this]; exact hyz
  have hlen : m.wells.length = m0.wells.length := hi.same.wells.length_eq.symm
  have hlenB : m.bdict.length = m0.bdict.length := by rw [hi.same.bdict]
  have k2 : (m.wells.map (wellIn c.e (t'.inner c.e t'.tstep i + σ' i) i)).sum + (m.wells.map (wLeak c.e i)).sum * σ' i ≤
      (n.wells.map (wellIn c'.e (t'.inner c.e t'.tstep i) i)).sum + m.wells.length * g := by
    rw [← sum_shift, hmv.length_eq, ← sum_plus]
    refine sum_le_of_forall2 (fun w w' h => ?_) (forall2_and hmv)
    obtain ⟨⟨h1, h2, h3, h4⟩, h5, h6⟩ := h
    unfold wellIn wLeak
    rw [h1, hgap.at]
    by_cases hid : w.1 = c.e.at i
    · rw [if_pos hid, if_pos hid]
      obtain ⟨y, hy, h7, bb, h8⟩ := (forall2_mem hdone).2 w' h6
      have hpx : (p w'.1).getD 0 = t'.inner c.e t'.tstep i := by
        have := Attempted.inner he' hi' ha hin'
        rw [← hgap.inner, this, ha.peq, h1, hid, ← hgap.at, newRow_at he'.nodup _ _ hin']; rfl
      rw [hpx] at h8
      have hw' := hi'.mdl.well w' h6
      have hrel := hP.1 w' y h6 hy h7.symm
      have f1 := (done_flow he'.B he'.mu hw' (hq'.cfg w' h6) (hq'.tame w' h6) h8 hrel).1
      have f2 := done_best he'.B he'.mu hw' (hq'.cfg w' h6) (hq'.tame w' h6) h8 hrel
      rw [f1, f2]
      have hw := hi.mdl.well w h5
      have hpos := (windex_pos he.B he.mu hw).le
      rcases hcon : w.2.con with _ | _ | _
      · exact absurd hcon (hq.cfg w h5)
      · have hqq := hq.tame w h5 hcon
        rw [if_neg (by simp)]
        unfold wellFlow
        rw [hcon, hqq, zero_mul, add_zero]
        dsimp only
        rcases hqs : w.2.qsp with _ | qs
        · exact absurd hcon (hw.free hqs).2
        · rw [hqs] at h2
          unfold bestRate
          rw [h2]
          exact (le_max_left qs _).trans (by linarith)
      · rw [if_pos ⟨hid, rfl⟩]
        have e3 : wellFlow c.e w.2 (t'.inner c.e t'.tstep i + σ' i) = windex c.e w.2 * (w.2.pwfsp.getD 0 - (t'.inner c.e t'.tstep i + σ' i)) := by
          unfold wellFlow windex; rw [hcon, hw.lim hcon]
        rw [e3]
        obtain ⟨P, hPs⟩ := hw.sp
        obtain ⟨w0, hw0, -, -, e4, -⟩ := (forall2_mem hi.same.wells).1 w h5
        have v1 := bandW w0 P hw0 (by rw [← e4]; exact hPs)
        have v2 := band i hin
        have u2 := (abs_le.1 (h4 (P - t'.inner c.e t'.tstep i) (band_diff v1.1 v1.2 v2.1 v2.2))).1
        have : windex c.e w.2 * (w.2.pwfsp.getD 0 - (t'.inner c.e t'.tstep i + σ' i)) + windex c.e w.2 * σ' i ≤ windex c'.e w'.2 * (w'.2.pwfsp.getD 0 - t'.inner c.e t'.tstep i) + g := by
          rw [h3, hPs]
          simp only [Option.getD_some]
          linarith
        refine this.trans (add_le_add_left ?_ g)
        unfold bestRate
        rcases w'.2.qsp with _ | qs
        · exact le_refl _
        · exact le_max_right _ _
    · rw [if_neg hid, if_neg hid, if_neg fun h => hid h.1]; simp [hg0]
  have k3 : c.e.rhs (c.e.at i) * (s.inner c.e s.tstep i - (t'.inner c.e t'.tstep i + σ' i)) ≤
      c'.e.rhs (c.e.at i) * (t.inner c.e t.tstep i - t'.inner c.e t'.tstep i) + g + c.e.rhs (c.e.at i) * (σ i - σ' i) := by
    rcases hcm : c.e.comp
    · simp [he.rhsI hcm, he'.rhsI (hgap.comp.trans hcm), hg0]
    · have u1 := mul_le_mul_of_nonneg_left (hold hcm i hin) (rhs_nonneg he (at_mem c.e hin))
      have v1 := bandO hcm i hin
      have v2 := band i hin
      have u2 := (abs_le.1 (hgap.rhs i hin _ (band_diff v1.1 v1.2 v2.1 v2.2))).1
      nlinarith
  have k4 : outLeak c.e m0 i * σ' i ≤ outLeak c.e m i * σ' i := mul_le_mul_of_nonneg_right (hh.outLeak hr i) (hδ i hin)
  have k5 := hσ i hin
  have k6 : ∑ j ∈ range c.e.n, c.e.trans vect i j * (t'.inner c.e t'.tstep j + σ' j - (t'.inner c.e t'.tstep i + σ' i) - c.e.grav * (c.e.z (c.e.at j) - c.e.z (c.e.at i))) ≤
      ∑ j ∈ range c.e.n, c'.e.trans vect i j * (t'.inner c.e t'.tstep j - t'.inner c.e t'.tstep i - c'.e.grav * (c'.e.z (c.e.at j) - c'.e.z (c.e.at i))) + c.e.n * g +
        ∑ j ∈ range c.e.n, c.e.trans vect i j * (σ' j - σ' i) := by
    have : (c.e.n : K) * g = ∑ j ∈ range c.e.n, g := by rw [sum_const, card_range, nsmul_eq_mul]
    rw [this, ← sum_add_distrib, ← sum_add_distrib]
    refine sum_le_sum fun j hj => ?_
    have hj := mem_range.1 hj
    have v1 := band j hj
    have v2 := band i hin
    have u := (abs_le.1 (hgap.flow i j hin hj _ (band_diff v1.1 v1.2 v2.1 v2.2))).1
    linarith
  unfold excess outsideIn
  unfold outLeak at k4 k5
  unfold Gap.total at k5
  rw [hlen] at k2
  rw [hlenB] at k1
  rw [hgap.n, hgap.at, hgap.inner, hgap.inner]
  dsimp only
  linarith

/-! ### steps and runs -/

lemma Gap.wellSp {D g : K} {vect : Bool} {e e' : Env K} {m n : Mdl K} (h : Gap D g vect e e' m n) {lo : K} (hw : ∀ w p, w ∈ n.wells → w.2.pwfsp = some p → lo ≤ p ∧ p ≤ lo + D) :
    ∀ w p, w ∈ m.wells → w.2.pwfsp = some p → lo ≤ p ∧ p ≤ lo + D := fun w p hw0 hp => by
  obtain ⟨w', hw', -, -, h3, -⟩ := (forall2_mem h.well).2 w hw0
  exact hw w' p hw' (by rw [h3]; exact hp)

lemma Gap.total_eq {D g : K} {vect : Bool} {e e' : Env K} {m n : Mdl K} (h : Gap D g vect e e' m n) : Gap.total g e' n = Gap.total g e m := by
  unfold Gap.total; rw [h.n, h.bd, h.well.length_eq]

lemma InBand.inner {lo D : K} {e : Env K} {m0 : Mdl K} {s : Sol K} (h : InBand lo D e m0 s) {k : ℕ} (hk : k ≤ s.tstep) (hc : e.comp = true ∨ 0 < k) {i : ℕ} (hi : i < e.n) :
    lo ≤ s.inner e k i ∧ s.inner e k i ≤ lo + D := by
  obtain ⟨p, h1, h2⟩ := h.cell k hk hc _ (at_mem e hi)
  unfold Sol.inner
  rw [h1]; exact h2

lemma step_gap {c c' : Ctx K} {m0 m m' n0 n n' : Mdl K} {s s' t t' : Sol K} {vect : Bool} {f f' : ℕ} {D g lo lo' : K} {β : ℕ → ℕ → K}
    (hr : Ready c m0) (hr' : Ready c' n0) (hx : Exact c.lin) (hx' : Exact c'.lin) (hf : vect = true → c.e.Flat) (hf' : vect = true → c'.e.Flat)
    (hgap : Gap D g vect c.e c'.e m0 n0) (hg0 : 0 ≤ g) (hg : vect = true → RatesGiven m0 ∧ RatesGiven n0) (han : Anchored c.e m0) (han' : Anchored c'.e n0)
    (hd : Decays c vect m0 0 (Gap.total g c.e m0) β) (hd' : Decays c' vect n0 0 (Gap.total g c.e m0) β)
    (hh : Hist c Calm m0 m s) (hh' : Hist c' Calm n0 n t) (hP : SolveAll c Calm f vect m s) (hP' : SolveAll c' Calm f' vect n t)
    (hs : solve c f vect true m s = .ok (m', s')) (hs' : solve c' f' vect true n t = .ok (n', t')) (hband : InBand lo D c.e m0 s') (hband' : InBand lo' D c'.e n0 t')
    (hb : CloseBy β c s t) : CloseBy β c s' t' := by
  obtain ⟨m1, s1, a1, a2, a3, a4, a5, a6⟩ := solve_last hr.ctx.lower hr.ctx.wf hr.started.mdl hh hP hs
  obtain ⟨n1, t1, b1, b2, b3, b4, b5, b6⟩ := solve_last hr'.ctx.lower hr'.ctx.wf hr'.started.mdl hh' hP' hs'
  obtain ⟨_, _, _, _, _, _, _, _, h1⟩ := attempted hr.ctx.lower hr.ctx.wf (hr.inv a1) a5
  obtain ⟨_, _, _, _, _, _, _, _, h2⟩ := attempted hr'.ctx.lower hr'.ctx.wf (hr'.inv b1) b5
  have es : s'.tstep = s.tstep + 1 := by rw [h1.tstep, a4]
  have et : t'.tstep = t.tstep + 1 := by rw [h2.tstep, b4]
  have old : c.e.comp = true → ∀ i, i < c.e.n → |s1.inner c.e s1.tstep i - t1.inner c.e t1.tstep i| ≤ β s.tstep i := fun hc i hin => by
    obtain ⟨p, q, k1, k2, k3⟩ := hb.2 s.tstep le_rfl (.inl hc) i hin
    rw [hb.1] at k2
    unfold Sol.inner
    rw [a2, a4, b2, b4, k1, k2]; exact k3
  have keepS : ∀ i, s'.inner c.e s.tstep i = s1.inner c.e s1.tstep i := fun i => by
    unfold Sol.inner; rw [h1.press, rowAt_append_lt (by rw [(hr.inv a1).plen]; omega), a4]
  have keepT : ∀ i, t'.inner c'.e t.tstep i = t1.inner c.e t1.tstep i := fun i => by
    rw [hgap.inner]; unfold Sol.inner; rw [h2.press, rowAt_append_lt (by rw [(hr'.inv b1).plen]; omega), b4]
  refine ⟨by rw [es, et, hb.1], fun k hk hc i hi' => ?_⟩
  by_cases hk' : k = s'.tstep
  · have hi2 : i < c'.e.n := by rw [hgap.n]; exact hi'
    have r1 := row_inner hr (hr.inv a1) a5 hi'
    have r2 := row_inner hr' (hr'.inv b1) b5 hi2
    rw [hgap.at, hgap.inner] at r2
    have ek : k = t'.tstep := by rw [hk', es, et, hb.1]
    have ek' : k = s.tstep + 1 := by rw [hk', es]
    refine ⟨_, _, by rw [hk']; exact r1, by rw [ek]; exact r2, ?_⟩
    have c1 := (hr.calm a1)
    have c2 := (hr'.calm b1)
    have e1 := step_balance hr.ctx hx c1.1 c1.2 hf a6.2 a5
    have e2 := step_balance hr'.ctx hx' c2.1 c2.2 hf' b6.2 b5
    have u1 := attempt_shift_gap (lo := lo') (σ := β s.tstep) (σ' := β (s.tstep + 1)) hr hr' e1 e2 hgap hg0 hg a1 b1 han b5 b6 (fun i hi => (hd s.tstep i hi).1)
      (fun i hi => by have := (hd s.tstep i hi).2; rwa [sub_zero] at this) (fun hc i hin => by linarith [(abs_le.1 (old hc i hin)).2])
      (fun i hi => by have := hband'.inner le_rfl (.inr (by omega)) (i := i) (by rw [hgap.n]; exact hi); rwa [hgap.inner] at this)
      (fun hc i hi => by rw [← keepT]; exact hband'.inner (by omega) (.inl (by rw [hgap.comp]; exact hc)) (by rw [hgap.n]; exact hi))
      (fun b hb' hk => hband'.bd b (by rw [hgap.bd]; exact hb') hk) (hgap.wellSp hband'.well) i hi'
    have u2 := attempt_shift_gap (lo := lo) (σ := β s.tstep) (σ' := β (s.tstep + 1)) hr' hr e2 e1 hgap.symm hg0 (fun h => (hg h).symm) b1 a1 han' a5 a6
      (fun i hi => (hd' s.tstep i hi).1)
      (fun i hi => by have := (hd' s.tstep i hi).2; rw [hgap.total_eq]; rwa [sub_zero] at this)
      (fun hc i hin => by rw [hgap.inner, hgap.inner]; linarith [(abs_le.1 (old (by rw [← hgap.comp]; exact hc) i (by rw [← hgap.n]; exact hin))).1])
      (fun i hi => by rw [hgap.inner]; exact hband.inner le_rfl (.inr (by omega)) (by rw [← hgap.n]; exact hi))
      (fun hc i hi => by rw [hgap.inner, ← keepS]; exact hband.inner (by omega) (.inl (by rw [← hgap.comp]; exact hc)) (by rw [← hgap.n]; exact hi))
      (fun b hb' hk => hband.bd b (by rw [← hgap.bd]; exact hb') hk) (hgap.symm.wellSp hband.well) i hi2
    rw [hgap.inner, hgap.inner] at u2
    rw [ek', abs_le]; constructor <;> linarith
  · have hk2 : k ≤ s.tstep := by omega
    obtain ⟨p, q, k1, k2, k3⟩ := hb.2 k hk2 hc i hi'
    refine ⟨p, q, ?_, ?_, k3⟩
    · rw [h1.press, rowAt_append_lt (by rw [(hr.inv a1).plen]; omega), a2]; exact k1
    · rw [h2.press, rowAt_append_lt (by rw [(hr'.inv b1).plen]; have := hb.1; omega), b2]; exact k2

lemma InBand.earlier {lo D : K} {c : Ctx K} {m0 m : Mdl K} {s : Sol K} {vect : Bool} {f k : ℕ} (hr : Ready c m0) (hh : Hist c Calm m0 m s) (hP : RunAll c Calm f vect k m s)
    (hl : (runLoop c f vect k m s).2 = .ok ()) (h : InBand lo D c.e m0 (runLoop c f vect k m s).1.2) : InBand lo D c.e m0 s := by
  obtain ⟨h1, h2⟩ := runLoop_rows hr k hh hP hl
  refine ⟨fun j hj hc id hid => ?_, h.bd, h.well⟩
  rw [← h2 j hj id]
  exact h.cell j (by omega) hc id hid

lemma runLoop_gap {c c' : Ctx K} {m0 n0 : Mdl K} {vect : Bool} {f f' : ℕ} {D g lo lo' : K} {β : ℕ → ℕ → K}
    (hr : Ready c m0) (hr' : Ready c' n0) (hx : Exact c.lin) (hx' : Exact c'.lin) (hf : vect = true → c.e.Flat) (hf' : vect = true → c'.e.Flat)
    (hgap : Gap D g vect c.e c'.e m0 n0) (hg0 : 0 ≤ g) (hg : vect = true → RatesGiven m0 ∧ RatesGiven n0) (han : Anchored c.e m0) (han' : Anchored c'.e n0)
    (hd : Decays c vect m0 0 (Gap.total g c.e m0) β) (hd' : Decays c' vect n0 0 (Gap.total g c.e m0) β) (k : ℕ) {m n : Mdl K} {s t : Sol K}
    (hh : Hist c Calm m0 m s) (hh' : Hist c' Calm n0 n t) (hP : RunAll c Calm f vect k m s) (hP' : RunAll c' Calm f' vect k n t)
    (hs : (runLoop c f vect k m s).2 = .ok ()) (hs' : (runLoop c' f' vect k n t).2 = .ok ())
    (hband : InBand lo D c.e m0 (runLoop c f vect k m s).1.2) (hband' : InBand lo' D c'.e n0 (runLoop c' f' vect k n t).1.2) (hb : CloseBy β c s t) :
    CloseBy β c (runLoop c f vect k m s).1.2 (runLoop c' f' vect k n t).1.2 := by
  induction k generalizing m n s t with
  | zero => exact hb
  | succ k ih =>
    unfold runLoop at hs hs' hband hband' ⊢
    rcases h1 : solve c f vect true m s with x | ⟨m1, s1⟩
    · rw [h1] at hs; cases hs
    rcases h2 : solve c' f' vect true n t with x | ⟨n1, t1⟩
    · rw [h2] at hs'; cases hs'
    rw [h1] at hs hband
    rw [h2] at hs' hband'
    have g1 := hh.solve hr.ctx.lower hr.ctx.wf hr.started.mdl hP.1 h1
    have g2 := hh'.solve hr'.ctx.lower hr'.ctx.wf hr'.started.mdl hP'.1 h2
    exact ih g1 g2 (hP.2 _ _ h1) (hP'.2 _ _ h2) hs hs' hband hband'
      (step_gap hr hr' hx hx' hf hf' hgap hg0 hg han han' hd hd' hh hh' hP.1 hP'.1 h1 h2 (hband.earlier hr g1 (hP.2 _ _ h1) hs) (hband'.earlier hr' g2 (hP'.2 _ _ h2) hs') hb)

lemma run_gap {c c' : Ctx K} {m0 n0 : Mdl K} {vect : Bool} {f f' : ℕ} {D g lo lo' : K} {β : ℕ → ℕ → K}
    (hr : Ready c m0) (hr' : Ready c' n0) (hx : Exact c.lin) (hx' : Exact c'.lin) (hf : vect = true → c.e.Flat) (hf' : vect = true → c'.e.Flat)
    (hgap : Gap D g vect c.e c'.e m0 n0) (hg0 : 0 ≤ g) (hg : vect = true → RatesGiven m0 ∧ RatesGiven n0) (han : Anchored c.e m0) (han' : Anchored c'.e n0)
    (hd : Decays c vect m0 0 (Gap.total g c.e m0) β) (hd' : Decays c' vect n0 0 (Gap.total g c.e m0) β) (k : ℕ) (el el' : K)
    (hinit : c.e.comp = true → ∀ i, i < c.e.n → ∃ p q, m0.initP (c.e.at i) = some p ∧ n0.initP (c.e.at i) = some q ∧ |p - q| ≤ β 0 i)
    (hP : RunAll c Calm f vect k m0 { Sol.init m0 with nsteps := (Sol.init m0).nsteps + k })
    (hP' : RunAll c' Calm f' vect k n0 { Sol.init n0 with nsteps := (Sol.init n0).nsteps + k })
    (hs : (run c f vect k el m0 (Sol.init m0)).2 = .ok ()) (hs' : (run c' f' vect k el' n0 (Sol.init n0)).2 = .ok ())
    (hband : InBand lo D c.e m0 (run c f vect k el m0 (Sol.init m0)).1.2) (hband' : InBand lo' D c'.e n0 (run c' f' vect k el' n0 (Sol.init n0)).1.2) :
    CloseBy β c (run c f vect k el m0 (Sol.init m0)).1.2 (run c' f' vect k el' n0 (Sol.init n0)).1.2 := by
  have key := runLoop_gap hr hr' hx hx' hf hf' hgap hg0 hg han han' hd hd' k (lo := lo) (lo' := lo') (.clock _ (Sol.init m0).ctime .start) (.clock _ (Sol.init n0).ctime .start) hP hP'
  unfold run at hs hs' hband hband' ⊢
  rcases h1 : runLoop c f vect k m0 { Sol.init m0 with nsteps := (Sol.init m0).nsteps + k } with ⟨⟨m1, s1⟩, x | ⟨⟩⟩
  · rw [h1] at hs; cases hs
  rcases h2 : runLoop c' f' vect k n0 { Sol.init n0 with nsteps := (Sol.init n0).nsteps + k } with ⟨⟨n1, t1⟩, x | ⟨⟩⟩
  · rw [h2] at hs'; cases hs'
  rw [h1, h2] at key
  rw [h1] at hband
  rw [h2] at hband'
  refine key rfl rfl ⟨hband.cell, hband.bd, hband.well⟩ ⟨hband'.cell, hband'.bd, hband'.well⟩ ⟨rfl, fun j hj hc i hin => ?_⟩
  have h0 : j = 0 := by simpa [Sol.init] using hj
  subst h0
  rcases hc with hc | hc
  · exact hinit hc i hin
  · omega

end RF.Fdm
