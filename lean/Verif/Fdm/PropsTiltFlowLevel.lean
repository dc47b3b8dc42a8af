import Verif.Fdm.PropsTiltFlow
import Verif.Fdm.PropsInclined
/-!
# Better rock on inclined reservoirs, vectorised assembler (C94)

Between two heads C94 fails on slopes with the vectorised assembler. Without target rates it holds in terms of pressures at the depth of the cell behind: given pressures less the weight of the fluid between
boundary cell and the cell behind it, and bottom-hole pressures.
-/
set_option linter.unusedSectionVars false
namespace RF.Fdm
open RF RF.Dims RF.Spec Finset

variable {K : Type} [Field K] [LinearOrder K] [IsStrictOrderedRing K]

/-! ### specification -/

/-- A pressure given at a boundary cell, carried to the depth of the interior cell behind it. -/
def Env.carried (e : Env K) (b : ℕ) (v : K) : K := match e.behind b with | some i => v - e.grav * (e.z b - e.z i) | none => v

/-- Given pressures, carried to the cells behind, and bottom-hole pressures have one of two values; given rates are zero, no well has a target rate or bottom-hole pressure zero. -/
structure TwoLevels (e : Env K) (P Q : K) (m : Mdl K) : Prop where
  bd : ∀ b, b ∈ m.bdict → b.2.1 = "pressure" → e.carried b.1 b.2.2 = P ∨ e.carried b.1 b.2.2 = Q
  rate : ∀ b, b ∈ m.bdict → b.2.1 ≠ "pressure" → b.2.2 = 0 ∧ m.initR b.1 = 0
  well : ∀ w, w ∈ m.wells → w.2.qsp = none ∧ w.2.pwfsp ≠ some 0 ∧ (w.2.pwfsp.getD 0 = P ∨ w.2.pwfsp.getD 0 = Q)

/-- What is recorded at step `t` as entering the reservoir at the faces and wells with pressure `P`. -/
def entering (e : Env K) (P : K) (m : Mdl K) (s : Sol K) (t : ℕ) : K :=
  (m.bdict.map fun b => if b.2.1 = "pressure" ∧ e.carried b.1 b.2.2 = P then rowAt s.rates t 0 b.1 else 0).sum +
    (m.wells.map fun w => if w.2.pwfsp.getD 0 = P then rowAt s.rates t 0 w.1 else 0).sum

/-! ### proof -/

/-- Depths at which interior cells are at 0 and each boundary cell is as far below as it is below the cell behind it. -/
structure LevelDepths (e : Env K) (z : ℕ → K) : Prop where
  inner : ∀ id, id ∈ e.ids → z id = 0
  bound : ∀ b, b ∈ e.bnd → ∀ v : K, v - e.grav * z b = e.carried b v

lemma levelled_depths {M : GridModel K} (hM : M.Pos) {e : Env K} (he : M.env = .ok e) : LevelDepths e fun id => (levelled M e).getD id 0 := by
  have wf := FromGrid.wf ⟨M, hM, he⟩
  refine ⟨fun id hid => levelled_inner he hid, fun b hb v => ?_⟩
  have hlt : b < M.g.getN true := by
    have := wf.lt b (.inr hb)
    rwa [(env_ok he).2.2.1] at this
  unfold levelled Env.carried
  rw [getD_map_range _ _ _ hlt, if_neg (wf.disj b hb)]
  cases e.behind b <;> simp

lemma MoreFlow.behind {vect : Bool} {e e' : Env K} (h : MoreFlow vect e e') {b : ℕ} (hb : b ∈ e.bnd) : e'.behind b = e.behind b := by
  rcases h.face b hb with ⟨h1, h2⟩ | ⟨id, T, T', -, h1, h2, -⟩
  · unfold Env.behind; rw [h1, h2]
  · rw [behind_of_face h1, behind_of_face h2]

lemma LevelDepths.heads {e : Env K} {z : ℕ → K} {m : Mdl K} (h : LevelDepths e z) (wf : e.WF) (hm : MdlOK e m) : SameHeads e z e.grav m := by
  intro b id T hb _ hf
  have hid : id ∈ e.ids := by
    rcases wf.face b.1 (hm.bmem b hb) with h1 | ⟨id', T', h1, -, h2⟩
    · rw [show e.transC b.1 false = _ from hf] at h1; cases h1
    · have h2' : e.transC b.1 false = .ok [(id', T')] := h2
      rw [show e.transC b.1 false = _ from hf] at h2'; cases h2'; exact h1
  have := h.bound b.1 (hm.bmem b hb) 0
  unfold Env.carried at this
  rw [behind_of_face hf] at this
  rw [h.inner id hid, sub_zero]
  linear_combination -this

lemma TwoLevels.heads {e : Env K} {z : ℕ → K} {m : Mdl K} {P Q : K} (h : TwoLevels e P Q m) (hz : LevelDepths e z) (hm : MdlOK e m) : TwoHeads (e.moved z e.grav) P Q m := by
  have hw : ∀ w, w ∈ m.wells → (e.moved z e.grav).head w.1 (w.2.pwfsp.getD 0) = w.2.pwfsp.getD 0 := fun w hw => by
    show _ - e.grav * z w.1 = _
    rw [hz.inner _ (hm.wmem w hw), mul_zero, sub_zero]
  refine ⟨fun b hb hp => ?_, h.rate, fun w hww => ⟨(h.well w hww).1, ?_⟩⟩
  · have := h.bd b hb hp
    rwa [← hz.bound b.1 (hm.bmem b hb)] at this
  · rw [hw w hww]; exact (h.well w hww).2.2

lemma feed_moved {e : Env K} {z : ℕ → K} {m : Mdl K} {P : K} (hz : LevelDepths e z) (hm : MdlOK e m) (s : Sol K) (t : ℕ) : feed (e.moved z e.grav) P m s t = entering e P m s t := by
  unfold feed entering
  congr 2
  · refine List.map_congr_left fun b hb => ?_
    rw [← hz.bound b.1 (hm.bmem b hb)]; rfl
  · refine List.map_congr_left fun w hw => ?_
    have : (e.moved z e.grav).head w.1 (w.2.pwfsp.getD 0) = w.2.pwfsp.getD 0 := by
      show _ - e.grav * z w.1 = _
      rw [hz.inner _ (hm.wmem w hw), mul_zero, sub_zero]
    rw [this]

lemma runAll_same (c : Ctx K) (fuel : ℕ) (vect : Bool) (n : ℕ) (m : Mdl K) (s : Sol K) : RunAll c (fun v _ _ => v = vect) fuel vect n m s := by
  have one : ∀ fuel (m : Mdl K) (s : Sol K), SolveAll c (fun v _ _ => v = vect) fuel vect m s := by
    intro fuel
    induction fuel with
    | zero => exact fun _ _ => trivial
    | succ n ih => exact fun m s m' s' again _ => ⟨rfl, fun _ => ih m' s'.back⟩
  induction n generalizing m s with
  | zero => trivial
  | succ n ih => exact ⟨one fuel m s, fun m' s' _ => ih m' s'⟩

/-- **C94, inclined reservoirs, vectorised.** Two incompressible reservoirs on the same one- or two-dimensional grid, whatever the depths of its cells, without target rates; given pressures, carried to the depth of the
cells behind, and bottom-hole pressures are `P` or the lower `Q`. Rock and fluid of the second are not worse, and the second has at least the openings of the first. Then in any run what a completed step of the second
records as entering where the pressure is `P` is not less than what a completed step of the first does, and neither is negative. (In terms of heads it is false, C94_vectorised_fails.) -/
theorem C94_inclined_partial {M M' : GridModel K} (hM : M.Pos) (hM' : M'.Pos) (hd : BetterRock M M') (hp : PlainEdge M) (hp' : PlainEdge M') (hv : M.g.getD ≠ 3) {c c' : Ctx K} (he : M.env = .ok c.e)
    (he' : M'.env = .ok c'.e) {m n : Mdl K} (hr : Ready c m) (hr' : Ready c' n) (hx : Exact c.lin) (hx' : Exact c'.lin) (hc : c.e.comp = false) (hc' : c'.e.comp = false) (ho : MoreOpen m n) {P Q : K} (hPQ : Q < P)
    (ht : TwoLevels c.e P Q m) (ht' : TwoLevels c'.e P Q n) {f f' N N' : ℕ} {el el' : K} {t t' : ℕ} (h0 : 0 < t) (htt : t ≤ (run c f true N el m (Sol.init m)).1.2.tstep) (h0' : 0 < t')
    (htt' : t' ≤ (run c' f' true N' el' n (Sol.init n)).1.2.tstep) :
    0 ≤ entering c.e P m (run c f true N el m (Sol.init m)).1.2 t ∧
      entering c.e P m (run c f true N el m (Sol.init m)).1.2 t ≤ entering c'.e P n (run c' f' true N' el' n (Sol.init n)).1.2 t' := by
  have hf := hd.env hM hM' hp hp' he he' (vect := true) (fun _ => hv)
  have hg : c.e.grav = M.grav := (env_ok he).2.2.2.2.2.2.2.2.2.2.2.1
  have hg' : c'.e.grav = c.e.grav := by rw [(env_ok he').2.2.2.2.2.2.2.2.2.2.2.1, hg, hd.grav]
  have hz := levelled_depths hM he
  set L := levelled M c.e with hL
  have hcar : ∀ b, b ∈ c.e.bnd → ∀ v, c'.e.carried b v = c.e.carried b v := fun b hb v => by
    unfold Env.carried
    rw [hf.behind hb]
    rcases hbe : c.e.behind b with _ | i
    · rfl
    · have h1 := congrFun (congrFun hf.head b) 0
      have h2 := congrFun (congrFun hf.head i) 0
      simp only [Env.head] at h1 h2
      show v - c'.e.grav * (c'.e.z b - c'.e.z i) = v - c.e.grav * (c.e.z b - c.e.z i)
      linear_combination h1 - h2
  have hz' : LevelDepths c'.e fun id => L.getD id 0 :=
    ⟨fun id hid => hz.inner id (hf.ids ▸ hid), fun b hb v => by rw [hf.bnd] at hb; rw [hg', hcar b hb]; exact hz.bound b hb v⟩
  have pos : ∀ {M : GridModel K}, M.Pos → ∀ g', (M.moved L g').Pos := fun hM g' => ⟨hM.geom, hM.sizes, hM.rock, hM.perm, hM.permB, hM.β, hM.mu, hM.B, hM.vconv, hM.dt, hM.phi, hM.ct⟩
  have e1 : (M.moved L c.e.grav).env = .ok (c.moved (fun id => L.getD id 0) c.e.grav).e := moved_env he _ _
  have e2 : (M'.moved L c'.e.grav).env = .ok (c'.moved (fun id => L.getD id 0) c'.e.grav).e := moved_env he' _ _
  have r1 : Ready (c.moved (fun id => L.getD id 0) c.e.grav) m := ⟨⟨hr.ctx.lower, ⟨_, pos hM _, e1⟩, hr.ctx.scale⟩, setup_moved hr.setup, hr.G, hr.cfg, hr.canon⟩
  have r2 : Ready (c'.moved (fun id => L.getD id 0) c'.e.grav) n := ⟨⟨hr'.ctx.lower, ⟨_, pos hM' _, e2⟩, hr'.ctx.scale⟩, setup_moved hr'.setup, hr'.G, hr'.cfg, hr'.canon⟩
  have q1 := C49_depths_ignored he L c.e.grav e1 rfl rfl rfl hr (fun w hw => (ht.well w hw).1) (hz.heads hr.ctx.wf hr.started.mdl) f N el
  have q2 := C49_depths_ignored he' L c'.e.grav e2 rfl rfl rfl hr' (fun w hw => (ht'.well w hw).1) (hz'.heads hr'.ctx.wf hr'.started.mdl) f' N' el'
  have flat : ∀ {c : Ctx K}, c.e.WF → LevelDepths c.e (fun id => L.getD id 0) → (c.moved (fun id => L.getD id 0) c.e.grav).e.Flat := fun {c} wf h => .inr fun i hi => by
    show L.getD (c.e.at i) 0 = L.getD (c.e.at 0) 0
    rw [h.inner _ (at_mem c.e hi), h.inner _ (at_mem c.e wf.pos)]
  have H1 := single_hist r1 (flat hr.ctx.wf hz) (fun w hw => (ht.well w hw).2.1)
    (Hist.run r1.ctx.lower r1.ctx.wf r1.started.mdl (fuel := f) N el .start (runAll_same _ f true N _ _))
  have H2 := single_hist r2 (flat hr'.ctx.wf hz') (fun w hw => (ht'.well w hw).2.1)
    (Hist.run r2.ctx.lower r2.ctx.wf r2.started.mdl (fuel := f') N' el' .start (runAll_same _ f' true N' _ _))
  have hd' : BetterRock (M.moved L c.e.grav) (M'.moved L c'.e.grav) := ⟨hd.grid, hd.sizes, rfl, hg', hd.β, hd.perm, hd.mu, hd.B⟩
  have key := C94_flow_partial (pos hM _) (pos hM' _) hd' hp hp' (vect := true) (fun _ => hv) e1 e2 r1 r2 hx hx' hc hc' ho hPQ (ht.heads hz hr.started.mdl) (ht'.heads hz' hr'.started.mdl) H1 H2
    h0 (by rw [q1]; exact htt) h0' (by rw [q2]; exact htt')
  rw [q1, q2] at key
  have f1 := feed_moved (P := P) hz hr.started.mdl (run c f true N el m (Sol.init m)).1.2 t
  have f2 := feed_moved (P := P) hz' hr'.started.mdl (run c' f' true N' el' n (Sol.init n)).1.2 t'
  rw [← f1, ← f2]
  exact key

/-! ### instance -/

def twoLevelsB (e : Env ℚ) (P Q : ℚ) (m : Mdl ℚ) : Bool :=
  m.bdict.all (fun b => decide (b.2.1 = "pressure" → e.carried b.1 b.2.2 = P ∨ e.carried b.1 b.2.2 = Q)) && m.bdict.all (fun b => decide (b.2.1 ≠ "pressure" → b.2.2 = 0 ∧ m.initR b.1 = 0)) &&
    m.wells.all fun w => decide (w.2.qsp = none ∧ w.2.pwfsp ≠ some 0 ∧ (w.2.pwfsp.getD 0 = P ∨ w.2.pwfsp.getD 0 = Q))

lemma twoLevels_of {e : Env ℚ} {P Q : ℚ} {m : Mdl ℚ} (h : twoLevelsB e P Q m = true) : TwoLevels e P Q m := by
  unfold twoLevelsB at h
  simp only [Bool.and_eq_true, List.all_eq_true, decide_eq_true_eq] at h
  exact ⟨h.1.1, h.1.2, h.2⟩

/-- A slope: pressure 10 at depth 4 is 13 in the cell at depth 5; a well at pressure 3 in the cell at depth 7. -/
def exSlopeOne : Mdl ℚ := exMdl false 3 [4, 5, 7, 9] none [(0, "pressure", 10)] [(2, { pwf := some 3, r := some 1 })]
/-- The deep end, at depth 9, is opened at pressure 9, which is 3 in the cell at depth 7. -/
def exSlopeTwo : Mdl ℚ := exMdl false 3 [4, 5, 7, 9] none [(0, "pressure", 10), (3, "pressure", 9)] [(2, { pwf := some 3, r := some 1 })]

/-- The hypotheses of `C94_inclined_partial` are met, and more enters when the deep end is open. -/
example : 0 < entering (exC false 3 [4, 5, 7, 9]).e 13 exSlopeOne (run (exC false 3 [4, 5, 7, 9]) 10 true 2 0 exSlopeOne (Sol.init exSlopeOne)).1.2 2 ∧
    entering (exC false 3 [4, 5, 7, 9]).e 13 exSlopeOne (run (exC false 3 [4, 5, 7, 9]) 10 true 2 0 exSlopeOne (Sol.init exSlopeOne)).1.2 2 <
      entering (exC false 3 [4, 5, 7, 9]).e 13 exSlopeTwo (run (exC false 3 [4, 5, 7, 9]) 10 true 1 0 exSlopeTwo (Sol.init exSlopeTwo)).1.2 1 := ⟨by decide +kernel, by decide +kernel⟩

example : 0 ≤ entering (exC false 3 [4, 5, 7, 9]).e 13 exSlopeOne (run (exC false 3 [4, 5, 7, 9]) 10 true 2 0 exSlopeOne (Sol.init exSlopeOne)).1.2 2 ∧
    entering (exC false 3 [4, 5, 7, 9]).e 13 exSlopeOne (run (exC false 3 [4, 5, 7, 9]) 10 true 2 0 exSlopeOne (Sol.init exSlopeOne)).1.2 2 ≤
      entering (exC false 3 [4, 5, 7, 9]).e 13 exSlopeTwo (run (exC false 3 [4, 5, 7, 9]) 10 true 1 0 exSlopeTwo (Sol.init exSlopeTwo)).1.2 1 :=
  C94_inclined_partial (M := exM false 3 [4, 5, 7, 9]) (M' := exM false 3 [4, 5, 7, 9]) (exM_pos _ _ _) (exM_pos _ _ _) ⟨rfl, rfl, rfl, rfl, rfl, fun _ _ _ => le_rfl, le_rfl, le_rfl⟩ (pM_plain 1) (pM_plain 1)
    (by show g2.getD ≠ 3; decide) (exE_env false 3 [4, 5, 7, 9]) (exE_env false 3 [4, 5, 7, 9]) (exMdl_ready (by decide +kernel)) (exMdl_ready (by decide +kernel)) cramer_exact cramer_exact (by decide +kernel)
    (by decide +kernel) (moreOpen_of (by decide +kernel)) (by norm_num : (3 : ℚ) < 13) (twoLevels_of (by decide +kernel)) (twoLevels_of (by decide +kernel)) two_pos (by decide +kernel) one_pos (by decide +kernel)

end RF.Fdm
