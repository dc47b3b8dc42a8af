import Verif.Fdm.PropsOrder
/-!
# What the stored tables say about boundaries and the start (C85)
-/
set_option linter.unusedSectionVars false
namespace RF.Fdm
open RF RF.Dims

variable {K : Type} [Field K] [LinearOrder K] [IsStrictOrderedRing K]

/-! ## Specification -/

/-- All boundary conditions of a script, in the order in which they were given. -/
def conditions : List (SetCall K) → List (ℕ × String × K)
  | [] => []
  | .bounds b _ :: l => b ++ conditions l
  | .well _ _ :: l => conditions l

/-- The latest condition on boundary `id` among those of the kinds `ks`. -/
def latest (lower : String → String) (ks : List Kind) (l : List (SetCall K)) (id : ℕ) : Option (ℕ × String × K) :=
  ((conditions l).filter fun x => decide (x.1 = id ∧ ∃ k, k ∈ ks ∧ kindOf (lower x.2.1) = some k)).getLast?

/-! ## Set-up calls -/

/-- What a list of conditions leaves of a pressure and a rate. -/
def leaves (lower : String → String) (e : Env K) (id : ℕ) (l : List (ℕ × String × K)) (x : Option K × K) : Option K × K :=
  l.foldl (fun x y => if y.1 = id then (leftP lower y.2 x.1, leftR lower e id y.2 x.2) else x) x

lemma leaves_none {lower : String → String} {e : Env K} {id : ℕ} {l : List (ℕ × String × K)} (h : ∀ y, y ∈ l → y.1 ≠ id) (x : Option K × K) : leaves lower e id l x = x := by
  unfold leaves
  induction l generalizing x with
  | nil => rfl
  | cons y l ih =>
    rw [List.foldl_cons, if_neg (h y List.mem_cons_self)]
    exact ih (fun z hz => h z (List.mem_cons_of_mem _ hz)) x

lemma leaves_one {lower : String → String} {e : Env K} {id : ℕ} {l : List (ℕ × String × K)} (hk : (l.map (·.1)).Nodup) (x : Option K × K) :
    leaves lower e id l x = match dictGet l id with | none => x | some y => (leftP lower y x.1, leftR lower e id y x.2) := by
  induction l generalizing x with
  | nil => rfl
  | cons y l ih =>
    rw [List.map_cons, List.nodup_cons] at hk
    rw [dictGet_cons]
    by_cases hy : y.1 = id
    · rw [if_pos hy]
      show leaves lower e id l (if y.1 = id then _ else x) = _
      rw [if_pos hy, leaves_none fun z hz he => hk.1 (List.mem_map.2 ⟨z, hz, he.trans hy.symm⟩)]
    · rw [if_neg hy]
      show leaves lower e id l (if y.1 = id then _ else x) = _
      rw [if_neg hy]
      exact ih hk.2 x

lemma leaves_append (lower : String → String) (e : Env K) (id : ℕ) (l l' : List (ℕ × String × K)) (x : Option K × K) :
    leaves lower e id (l ++ l') x = leaves lower e id l' (leaves lower e id l x) := by
  unfold leaves; rw [List.foldl_append]

lemma bounds_rows {lower : String → String} {e : Env K} {m m' : Mdl K} {b : List (ℕ × String × K)} (hk : (b.map (·.1)).Nodup) (h : setBoundaries lower e m none b = ((m', none), .ok ())) :
    (∀ x, x ∈ b → Fine lower e x) ∧ ∀ id, (m'.initP id, m'.initR id) = leaves lower e id b (m.initP id, m.initR id) := by
  unfold setBoundaries at h
  split at h
  swap
  · rename_i x hx; rw [h] at hx; exact absurd rfl (hx m' none)
  rename_i m1 s1 hm1
  simp only [Prod.mk.injEq, and_true] at h
  obtain ⟨rfl, rfl⟩ := h
  obtain ⟨i1, i2⟩ := loop_iff (lower := lower) (e := e) b hk { m with bdict := b }
  refine ⟨i1.1 ⟨m1, hm1⟩, fun id => ?_⟩
  rw [leaves_one hk]
  dsimp only
  rcases hg : dictGet b id with _ | x
  · have := (i2 m1 hm1).1 id hg
    rw [this.1, this.2]
  · have := (i2 m1 hm1).2 id x hg
    rw [this.1, this.2]

lemma script_rows {lower : String → String} {e : Env K} (l : List (SetCall K)) {m m' : Mdl K} (h : Fdm.steps (SetCall.make lower e) m l = .ok m') :
    (∀ x, x ∈ conditions l → Fine lower e x) ∧ ∀ id, (m'.initP id, m'.initR id) = leaves lower e id (conditions l) (m.initP id, m.initR id) := by
  induction l generalizing m with
  | nil => cases h; exact ⟨fun x hx => absurd hx List.not_mem_nil, fun id => rfl⟩
  | cons y l ih =>
    obtain ⟨m1, h1, h2⟩ := steps_cons h
    obtain ⟨i1, i2⟩ := ih h2
    rcases y with ⟨b, hb⟩ | ⟨id, a⟩
    · obtain ⟨j1, j2⟩ := bounds_rows hb (make_bounds h1)
      refine ⟨fun x hx => ?_, fun id => ?_⟩
      · rcases List.mem_append.1 hx with hx | hx
        · exact j1 x hx
        · exact i1 x hx
      · show _ = leaves lower e id (b ++ conditions l) _
        rw [leaves_append, ← j2, i2]
    · obtain ⟨-, -, a3, a4, -⟩ := setWell_frame (make_well h1)
      exact ⟨i1, fun id => by rw [i2, a3, a4]; rfl⟩

lemma row_rate {s : String} (h : s ∈ ["rate", "q"]) : kindOf s = some .rate := by unfold kindOf; rw [if_pos h]

lemma row_pressure {s : String} (h1 : s ∉ ["rate", "q"]) (h : s ∈ ["pressure", "press", "p"]) : kindOf s = some .pressure := by unfold kindOf; rw [if_neg h1, if_pos h]

lemma row_gradient {s : String} (h1 : s ∉ ["rate", "q"]) (h2 : s ∉ ["pressure", "press", "p"]) (h : s ∈ ["gradient", "grad", "g"]) : kindOf s = some .gradient := by
  unfold kindOf; rw [if_neg h1, if_neg h2, if_pos h]

/-- What a list of conditions leaves is what the latest ones say. -/
lemma leaves_latest {lower : String → String} {e : Env K} {id : ℕ} (l : List (ℕ × String × K)) (hl : ∀ x, x ∈ l → Fine lower e x) (x : Option K × K) :
    (leaves lower e id l x).1 = (match (l.filter fun x => decide (x.1 = id ∧ ∃ k, k ∈ [Kind.pressure] ∧ kindOf (lower x.2.1) = some k)).getLast? with | none => x.1 | some y => some y.2.2) ∧
    (match (l.filter fun x => decide (x.1 = id ∧ ∃ k, k ∈ [Kind.rate, .gradient] ∧ kindOf (lower x.2.1) = some k)).getLast? with
      | none => (leaves lower e id l x).2 = x.2 | some y => Imposed lower e y (leaves lower e id l x).2) := by
  induction l using List.reverseRecOn with
  | nil => exact ⟨rfl, rfl⟩
  | append_singleton l y ih =>
    obtain ⟨i1, i2⟩ := ih fun z hz => hl z (List.mem_append_left _ hz)
    have hy := hl y (List.mem_append_right _ List.mem_cons_self)
    rw [leaves_append, List.filter_append, List.filter_append]
    by_cases hid : y.1 = id
    swap
    · rw [List.filter_cons, if_neg (by simp [hid]), List.filter_cons, if_neg (by simp [hid]), List.filter_nil, List.append_nil, List.filter_nil, List.append_nil]
      have : leaves lower e id [y] (leaves lower e id l x) = leaves lower e id l x := leaves_none (by simpa using hid) _
      rw [this]
      exact ⟨i1, i2⟩
    · have e1 : leaves lower e id [y] (leaves lower e id l x) = (leftP lower y.2 (leaves lower e id l x).1, leftR lower e id y.2 (leaves lower e id l x).2) := by
        unfold leaves; rw [List.foldl_cons, List.foldl_nil, if_pos hid]
      rw [e1]
      dsimp only
      obtain ⟨-, h1 | h2 | ⟨h3, q, hq⟩⟩ := hy
      · have hk := row_rate h1
        rw [List.filter_cons, if_neg (by simp [hk]), List.filter_cons, if_pos (by simp [hk, hid]), List.filter_nil, List.append_nil, List.filter_nil, List.getLast?_append_cons]
        unfold leftP leftR
        rw [if_pos h1, if_pos h1]
        refine ⟨i1, ?_⟩
        show Imposed lower e y y.2.2
        exact ⟨fun _ => rfl, fun h => by rw [hk] at h; cases h⟩
      · by_cases h1 : lower y.2.1 ∈ ["rate", "q"]
        · exfalso
          simp only [List.mem_cons, List.not_mem_nil, or_false] at h1 h2
          rcases h1 with h1 | h1 <;> rw [h1] at h2 <;> revert h2 <;> decide
        have hk := row_pressure h1 h2
        rw [List.filter_cons, if_pos (by simp [hk, hid]), List.filter_cons, if_neg (by simp [hk]), List.filter_nil, List.filter_nil, List.append_nil, List.getLast?_append_cons]
        unfold leftP leftR
        rw [if_neg h1, if_pos h2, if_neg h1, if_pos h2]
        exact ⟨rfl, i2⟩
      · by_cases h1 : lower y.2.1 ∈ ["rate", "q"]
        · exfalso
          simp only [List.mem_cons, List.not_mem_nil, or_false] at h1 h3
          rcases h1 with h1 | h1 <;> rw [h1] at h3 <;> revert h3 <;> decide
        by_cases h2 : lower y.2.1 ∈ ["pressure", "press", "p"]
        · exfalso
          simp only [List.mem_cons, List.not_mem_nil, or_false] at h2 h3
          rcases h2 with h2 | h2 | h2 <;> rw [h2] at h3 <;> revert h3 <;> decide
        have hk := row_gradient h1 h2 h3
        rw [List.filter_cons, if_neg (by simp [hk]), List.filter_cons, if_pos (by simp [hk, hid]), List.filter_nil, List.append_nil, List.filter_nil, List.getLast?_append_cons]
        unfold leftP leftR
        rw [if_neg h1, if_neg h2, if_neg h1, if_neg h2]
        refine ⟨i1, ?_⟩
        subst hid
        rw [hq]
        show Imposed lower e y q
        exact ⟨fun h => (by rw [hk] at h; cases h), fun _ => gradientRate_ok hq⟩

/-! ## Theorems -/

lemma setup_mdl {lower : String → String} {e : Env K} {m : Mdl K} (h : Setup lower e m) (hG : ∀ x G, x ∈ m.wells → x.2.G = some G → 0 < G) : MdlOK e m := by
  have hi := h.inv
  refine ⟨hi.bkeys, hi.bmem, hi.upd, hi.wkeys, hi.wmem, fun x hx => ?_⟩
  obtain ⟨hw, ⟨G, hg⟩, ⟨p, hp⟩⟩ := hi.well x hx
  refine ⟨⟨G, hg, hG x G hx hg⟩, ⟨p, hp⟩, ⟨p, by rw [← hw.pwf]; exact hp⟩, hw.con, fun _ => hw.pwf, fun qs hqs => ⟨qs, by rw [hw.q]; exact hqs⟩, fun hn => ⟨hw.pwf, fun hcq => ?_⟩⟩
  obtain ⟨q, hq⟩ := hw.con hcq
  rw [hw.q, hn] at hq; simp at hq

/-- **C85, step 0.** After any script of set-up calls, compiling stores the initial pressure `pi` and the rate 0 for every cell. -/
theorem C85_start {c : Ctx K} (hc : CtxOK c) {pi : Option K} {l : List (SetCall K)} {m0 : Mdl K} (hs : setUp c.lower c.e pi l = .ok m0) {id : ℕ} (hid : id ∈ c.e.ids) :
    rowAt (Sol.init m0).press 0 none id = pi ∧ rowAt (Sol.init m0).rates 0 0 id = 0 := by
  obtain ⟨h1, h2⟩ := script_rows l hs
  have h3 := h2 id
  rw [leaves_none fun y hy he => hc.wf.disj y.1 (h1 y hy).1 (he ▸ hid)] at h3
  obtain ⟨h4, h5⟩ := Prod.mk.inj h3
  refine ⟨?_, h5⟩
  show m0.initP id = pi
  rw [h4]
  unfold Mdl.init
  dsimp only
  rw [if_pos hid]

/-- **C85, pressures of boundaries.** After any script of set-up calls and any number of steps, every stored row has, for a boundary, the latest pressure imposed on it, and NaN if
none was. -/
theorem C85_pressures {c : Ctx K} (hc : CtxOK c) {pi : Option K} {l : List (SetCall K)} {m0 : Mdl K} (hs : setUp c.lower c.e pi l = .ok m0) (hG : ∀ x G, x ∈ m0.wells → x.2.G = some G → 0 < G)
    {P : Bool → Mdl K → Mdl K → Prop} {m : Mdl K} {s : Sol K} (hh : Hist c P m0 m s) {t : ℕ} (ht : t ≤ s.tstep) {id : ℕ} (hid : id ∉ c.e.ids) :
    rowAt s.press t none id = (latest c.lower [.pressure] l id).map (·.2.2) := by
  obtain ⟨h1, h2⟩ := script_rows l hs
  have hi := hh.inv hc.lower hc.wf (setup_mdl (steps_setup l (.init pi) hs) hG)
  rw [hi.prow t ht id hid, show m0.initP id = (m0.initP id, m0.initR id).1 from rfl, h2, (leaves_latest _ h1 _).1]
  unfold latest
  rcases List.getLast? _ with _ | y
  · show (Mdl.init c.e pi).initP id = none
    unfold Mdl.init
    dsimp only
    rw [if_neg hid]
  · rfl

/-- **C85, rates of boundaries and cells without wells.** In every stored row the rate of a boundary without a pressure condition is the latest imposed rate, or the flow the latest imposed gradient
stands for, or 0 if nothing was imposed; the rate of a cell without a well is 0. -/
theorem C85_rates {c : Ctx K} (hc : CtxOK c) {pi : Option K} {l : List (SetCall K)} {m0 : Mdl K} (hs : setUp c.lower c.e pi l = .ok m0) (hG : ∀ x G, x ∈ m0.wells → x.2.G = some G → 0 < G)
    {P : Bool → Mdl K → Mdl K → Prop} {m : Mdl K} {s : Sol K} (hh : Hist c P m0 m s) {t : ℕ} (ht : t ≤ s.tstep) {id : ℕ} (hb : ∀ v, (id, "pressure", v) ∉ m0.bdict) (hw : dictGet m0.wells id = none) :
    match latest c.lower [.rate, .gradient] l id with
    | none => rowAt s.rates t 0 id = 0
    | some x => Imposed c.lower c.e x (rowAt s.rates t 0 id) := by
  obtain ⟨h1, h2⟩ := script_rows l hs
  have hm := setup_mdl (steps_setup l (.init pi) hs) hG
  have hi := hh.inv hc.lower hc.wf hm
  have e1 : rowAt s.rates t 0 id = (leaves c.lower c.e id (conditions l) ((Mdl.init c.e pi).initP id, (Mdl.init c.e pi).initR id)).2 := by
    rw [hi.row t ht id (fun h => ?_) fun h => ?_, ← h2]
    · obtain ⟨v, hv⟩ := upd_pressure hm h
      exact hb v (mem_of_dictGet hv)
    · obtain ⟨v, hv, -⟩ := dictGet_some_mem h
      rw [hw] at hv; cases hv
  rw [e1]
  have := (leaves_latest (id := id) _ h1 ((Mdl.init c.e pi).initP id, (Mdl.init c.e pi).initR id)).2
  unfold latest
  split <;> rename_i hx <;> rw [hx] at this <;> exact this

/-- A pressure that is replaced by a rate. -/
def exReplaced : List (SetCall ℚ) := [.bounds [(0, "pressure", 10)] (by decide), .bounds [(0, "rate", 1), (3, "rate", -1)] (by decide)]

lemma exReplaced_ok : isOk (setUp (exC true 0 []).lower (exC true 0 []).e (some 8) exReplaced) = true := by decide +kernel

/-- C85 fails for conditions that are replaced: a boundary whose pressure condition was replaced by a rate shows the old pressure in every stored row, although no pressure is imposed on it. -/
theorem C85_replaced_fails : ∃ (c : Ctx ℚ) (l : List (SetCall ℚ)) (m0 : Mdl ℚ), CtxOK c ∧ setUp c.lower c.e (some 8) l = .ok m0 ∧ m0.bdict = [(0, "rate", 1), (3, "rate", -1)] ∧
    ∀ {P : Bool → Mdl ℚ → Mdl ℚ → Prop} {m : Mdl ℚ} {s : Sol ℚ}, Hist c P m0 m s → ∀ t, t ≤ s.tstep → rowAt s.press t none 0 = some 10 ∧ rowAt s.press t none 3 = none := by
  have hwell : (getOk _ exReplaced_ok).wells = [] := by decide +kernel
  refine ⟨exC true 0 [], _, getOk _ exReplaced_ok, exC_ok _ _ _, getOk_eq _ exReplaced_ok, by decide +kernel, fun hh t ht => ⟨?_, ?_⟩⟩
  · rw [C85_pressures (exC_ok _ _ _) (getOk_eq _ exReplaced_ok) (fun x G hx => by rw [hwell] at hx; cases hx) hh ht (by decide +kernel)]
    decide +kernel
  · rw [C85_pressures (exC_ok _ _ _) (getOk_eq _ exReplaced_ok) (fun x G hx => by rw [hwell] at hx; cases hx) hh ht (by decide +kernel)]
    decide +kernel

/-! ## Examples -/

/-- The hypotheses are met by `exScript`: boundary 0 has the pressure 10, boundary 3 the rate -1, and cells 1 and 2 have wells. -/
example : CtxOK (exC true 0 []) ∧ (∀ x G, x ∈ (getOk _ exScript_ok).wells → x.2.G = some G → 0 < G) ∧ latest (exC true 0 []).lower [.pressure] exScript 0 = some (0, "pressure", 10) ∧
    latest (exC true 0 []).lower [.pressure] exScript 3 = none ∧ latest (exC true 0 []).lower [.rate, .gradient] exScript 3 = some (3, "rate", -1) ∧
    dictGet (getOk _ exScript_ok).wells 3 = none := ⟨exC_ok _ _ _, exScript_ready.G, by decide +kernel, by decide +kernel, by decide +kernel, by decide +kernel⟩

end RF.Fdm
