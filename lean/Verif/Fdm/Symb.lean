import Verif.Fdm.Balance
import Mathlib.Tactic.LinearCombination
/-! # Rows of the symbolic assembly -/
set_option linter.unusedSectionVars false
namespace RF.Fdm
open RF RF.Dims Finset

variable {K : Type} [Field K] [LinearOrder K] [IsStrictOrderedRing K]

/-- Value of an expression for interior pressures given by position. -/
def Aff.ev (a : Aff K) (e : Env K) (x : ℕ → K) : K := ∑ i ∈ range e.n, a.coef (e.at i) * x i + a.const

namespace Aff
lemma ev_c (e : Env K) (x : ℕ → K) (v : K) : (Aff.c v).ev e x = v := by simp [ev, c]
lemma ev_add (e : Env K) (x : ℕ → K) (a b : Aff K) : (a.add b).ev e x = a.ev e x + b.ev e x := by
  simp only [ev, add, add_mul, sum_add_distrib]; ring
lemma ev_sub (e : Env K) (x : ℕ → K) (a b : Aff K) : (a.sub b).ev e x = a.ev e x - b.ev e x := by
  simp only [ev, sub, sub_mul, sum_sub_distrib]; ring
lemma ev_smul (e : Env K) (x : ℕ → K) (k : K) (a : Aff K) : (a.smul k).ev e x = k * a.ev e x := by
  simp only [ev, smul, mul_assoc, ← mul_sum]; ring
lemma ev_p {e : Env K} (hn : e.ids.Nodup) (x : ℕ → K) {i : ℕ} (hi : i < e.n) : (Aff.p (e.at i) : Aff K).ev e x = x i := by
  simp only [ev, p, add_zero]
  rw [sum_eq_single i]
  · simp
  · intro j hj hne
    rw [if_neg fun h => hne ((at_inj e hn (mem_range.1 hj) hi).1 h), zero_mul]
  · intro h; exact absurd (mem_range.2 hi) h
lemma ev_foldl (e : Env K) (x : ℕ → K) (l : List (Aff K)) (a : Aff K) :
    (l.foldl add a).ev e x = a.ev e x + (l.map fun b => b.ev e x).sum := by
  induction l generalizing a with
  | nil => simp
  | cons b l ih => rw [List.foldl_cons, ih, ev_add, List.map_cons, List.sum_cons]; ring
lemma ev_sum (e : Env K) (x : ℕ → K) (l : List (Aff K)) : (sum l).ev e x = (l.map fun b => b.ev e x).sum := by
  unfold sum; rw [ev_foldl, ev_c, zero_add]
end Aff

/-! ### sums -/

lemma sum_keys {α : Type} [DecidableEq α] {β : Type} {B : List α} (hB : B.Nodup) {d : List (α × β)} (hd : (d.map (·.1)).Nodup) {F : α → K}
    (hF : ∀ b, b ∉ d.map (·.1) → F b = 0) : (B.map F).sum = (d.map fun c => if c.1 ∈ B then F c.1 else 0).sum := by
  have h2 : (d.map fun c => if c.1 ∈ B then F c.1 else 0) = (d.map (·.1)).map fun k => if k ∈ B then F k else 0 := by
    rw [List.map_map]; rfl
  rw [h2, ← List.sum_toFinset F hB, ← List.sum_toFinset _ hd]
  rw [← sum_filter]
  refine (sum_subset (fun k hk => ?_) fun k hk hnk => ?_).symm
  · rw [mem_filter] at hk; exact List.mem_toFinset.2 hk.2
  · apply hF
    intro h
    exact hnk (mem_filter.2 ⟨List.mem_toFinset.2 h, List.mem_toFinset.1 hk⟩)

lemma dictGet_none {α β : Type} [DecidableEq α] {d : List (α × β)} {k : α} (h : k ∉ d.map (·.1)) : dictGet d k = none := by
  unfold dictGet
  rw [Option.map_eq_none_iff, List.find?_eq_none]
  intro x hx
  simp only [decide_eq_true_eq]
  rintro rfl
  exact h (List.mem_map.2 ⟨x, hx, rfl⟩)

lemma dictGet_some_mem {α β : Type} [DecidableEq α] {d : List (α × β)} {k : α} (h : k ∈ d.map (·.1)) : ∃ v, dictGet d k = some v ∧ (k, v) ∈ d := by
  rcases hg : dictGet d k with _ | v
  · unfold dictGet at hg
    rw [Option.map_eq_none_iff, List.find?_eq_none] at hg
    obtain ⟨x, hx, rfl⟩ := List.mem_map.1 h
    simpa using hg x hx
  · exact ⟨v, rfl, mem_of_dictGet hg⟩

lemma sum_single {α β : Type} [DecidableEq α] {d : List (α × β)} (hd : (d.map (·.1)).Nodup) (k : α) (F : β → K) :
    (d.map fun x => if x.1 = k then F x.2 else 0).sum = ((dictGet d k).map F).getD 0 := by
  induction d with
  | nil => rfl
  | cons y d ih =>
    rw [List.map_cons, List.nodup_cons] at hd
    rw [List.map_cons, List.sum_cons, ih hd.2]
    by_cases h : y.1 = k
    · subst h
      rw [dictGet_none hd.1]
      unfold dictGet; simp
    · unfold dictGet; simp [h]

/-! ### terms of a cell -/

/-- Neighbour and boundary terms of a cell. -/
def baseTerms (lower : String → String) (e : Env K) (bd : List (ℕ × String × K)) (id : ℕ) : List (Aff K) :=
  match e.nbrs id, e.bnds id, e.transC id true with
  | .ok N, .ok B, .ok l => N.all.map (fun n => nTerm e id n ((dictGet l n).getD 0)) ++
      B.all.map (fun b => bTerm lower e bd id b (Aff.p id) ((dictGet l b).getD 0))
  | _, _, _ => []

lemma base_sum {lower : String → String} {e : Env K} (he : e.WF) (hS : e.Sym) {m : Mdl K} (hm : MdlOK e m)
    (hc : Canonical lower m) (x : ℕ → K) {i : ℕ} (hi : i < e.n) :
    ((baseTerms lower e m.bdict (e.at i)).map fun b => b.ev e x).sum =
      ∑ j ∈ range e.n, e.transS i j * (x j - x i - e.grav * (e.z (e.at j) - e.z (e.at i))) +
        (m.bdict.map (boundaryIn e (givenRate m) (x i) i)).sum := by
  obtain ⟨N, B, l, h1, h2, h3, h4, h5, h6, h7, h8, h9, h10⟩ := hS.cell _ (at_mem e hi)
  unfold baseTerms
  rw [h1, h2, h3]
  dsimp only
  rw [List.map_append, List.sum_append, List.map_map, List.map_map]
  congr 1
  · have e1 : (N.all.map ((fun b => b.ev e x) ∘ fun n => nTerm e (e.at i) n ((dictGet l n).getD 0))).sum =
        (N.all.map fun n => (dictGet l n).getD 0 * (x (e.ids.idxOf n) - x i - e.grav * (e.z n - e.z (e.at i)))).sum := by
      congr 1
      refine List.map_congr_left fun n hn => ?_
      have hid := (h7 n hn).1
      have := Aff.ev_p he.nodup x (idx_lt e hid)
      rw [at_idx e hid] at this
      simp only [Function.comp_apply, nTerm, Aff.ev_smul, Aff.ev_sub, Aff.ev_c, this, Aff.ev_p he.nodup x hi]
    rw [e1]
    have hT : ∀ j, j < e.n → e.transS i j = (dictGet l (e.at j)).getD 0 := fun j _ => by unfold Env.transS; rw [h3]
    rw [← range_sum]
    have e2 : ((List.range e.n).map fun j => e.transS i j * (x j - x i - e.grav * (e.z (e.at j) - e.z (e.at i)))) =
        (e.ids.map fun n => (dictGet l n).getD 0 * (x (e.ids.idxOf n) - x i - e.grav * (e.z n - e.z (e.at i)))) := by
      have hids : e.ids = (List.range e.n).map e.at := by
        refine List.ext_getElem (by simp [Env.n]) fun k h1 h2 => ?_
        rw [List.getElem_map, List.getElem_range, at_eq e h1]
      conv_rhs => rw [hids]
      rw [List.map_map]
      refine List.map_congr_left fun j hj => ?_
      rw [List.mem_range] at hj
      simp only [Function.comp_apply, hT j hj]
      rw [← hids, idx_at e he.nodup hj]
    rw [e2, ← List.sum_toFinset _ h5, ← List.sum_toFinset _ he.nodup]
    refine sum_subset (fun k hk => List.mem_toFinset.2 (h7 k (List.mem_toFinset.1 hk)).1) fun k hk hnk => ?_
    have : k ∉ l.map (·.1) := by
      rw [h9]
      rintro (h | h)
      · exact hnk (List.mem_toFinset.2 h)
      · exact he.disj k (h8 k h) (List.mem_toFinset.1 hk)
    rw [dictGet_none this]; simp
  · have key := sum_keys (K := K) h6 hm.bkeys (F := fun b => (bTerm lower e m.bdict (e.at i) b (Aff.p (e.at i)) ((dictGet l b).getD 0)).ev e x)
      (fun b hb => by
        show (bTerm lower e m.bdict (e.at i) b (Aff.p (e.at i)) ((dictGet l b).getD 0)).ev e x = 0
        unfold bTerm; rw [dictGet_none hb]; exact Aff.ev_c e x 0)
    refine Eq.trans key ?_
    congr 1
    refine List.map_congr_left fun c hcm => ?_
    have hg := dictGet_of_mem hm.bkeys hcm
    have hb := hm.bmem c hcm
    split_ifs with hB
    · have hk : c.1 ∈ l.map (·.1) := (h9 c.1).2 (Or.inr hB)
      obtain ⟨T, hT, hTl⟩ := dictGet_some_mem hk
      have hF := (h10 c.1 T hb).2 hTl
      rw [hT]
      unfold boundaryIn bTerm
      rw [show e.transC c.1 false = _ from hF, hg]
      dsimp only [Option.getD_some]
      rw [if_pos rfl]
      by_cases hp : c.2.1 = "pressure"
      · rw [if_pos ((hc c hcm).2 hp), if_pos hp]
        simp only [Aff.ev_smul, Aff.ev_sub, Aff.ev_c, Aff.ev_p he.nodup x hi]; ring
      · rw [if_neg fun h => hp ((hc c hcm).1 h), if_neg hp, Aff.ev_c]
        unfold givenRate; rw [hg]; rfl
    · unfold boundaryIn
      rcases he.face c.1 hb with h | ⟨id, T, hid, -, hF⟩
      · rw [h]
      · rw [show e.transC c.1 false = _ from hF]
        dsimp only
        rw [if_neg]
        rintro rfl
        have := (h10 c.1 T hb).1 hF
        have := (h9 c.1).1 (List.mem_map.2 ⟨_, this, rfl⟩)
        rcases this with h | h
        · exact he.disj _ hb (h7 _ h).1
        · exact hB h

/-- What the remembered terms of a cell are. -/
structure TermsOK (lower : String → String) (e : Env K) (m : Mdl K) (id : ℕ) (t : Terms K) : Prop where
  f : ∃ wp, t.f = baseTerms lower e m.bdict id ++ wp ∧ (dictGet m.wells id = none → wp = []) ∧
    ∀ w, dictGet m.wells id = some w → ∃ y, wp = [y] ∧ (w.con = some .q → y = Aff.c (w.q.getD 0))
  a : e.comp = false → t.a = Aff.c 0

def TInv (lower : String → String) (e : Env K) (m : Mdl K) : Prop := ∀ id t, dictGet m.terms id = some t → TermsOK lower e m id t

/-- Every well has a constraint. -/
def Configured (m : Mdl K) : Prop := ∀ x, x ∈ m.wells → x.2.con ≠ none

lemma wTerm_ev {e : Env K} (he : e.WF) {w : Well K} (hw : WellOK w) (hc : w.con ≠ none) (x : ℕ → K) {i : ℕ} (hi : i < e.n) :
    ∃ y, wTerm e w (Aff.p (e.at i)) = .ok y ∧ y.ev e x = wellFlow e w (x i) := by
  by_cases hq : w.con = some .q
  · exact ⟨_, wTerm_q hw hq _, by rw [Aff.ev_c]; unfold wellFlow; rw [hq]⟩
  · refine ⟨_, wTerm_pwf hw hq _, ?_⟩
    have hp : w.con = some .pwf := by
      rcases h : w.con with _ | _ | _ <;> simp_all
    rw [Aff.ev_smul, Aff.ev_sub, Aff.ev_c, Aff.ev_p he.nodup x hi]
    unfold wellFlow windex; rw [hp]; dsimp only; ring

/-- The flow terms and the accumulation term used for a cell: their values are the two sides of its balance. -/
structure Good (lower : String → String) (e : Env K) (m : Mdl K) (s : Sol K) (i : ℕ) (t : Terms K) : Prop where
  ok : TermsOK lower e m (e.at i) t
  ev : ∀ x, (Aff.sum t.f).ev e x - t.a.ev e x = excess e e.transS m (givenRate m) (s.inner e s.tstep) x i
  acc : ∀ x, t.a.ev e x = e.rhs (e.at i) * (x i - s.inner e s.tstep i)

lemma aTerm_ev {e : Env K} (he : e.WF) {s : Sol K} {i : ℕ} (hi : i < e.n) {a : Aff K} (h : aTerm e s (e.at i) = .ok a) (x : ℕ → K) :
    a.ev e x = e.rhs (e.at i) * (x i - s.inner e s.tstep i) ∧ (e.comp = false → a = Aff.c 0) := by
  unfold aTerm at h
  rcases hc : e.comp
  · rw [hc] at h
    simp only [Bool.false_eq_true, if_false, Except.ok.injEq] at h
    subst h
    rw [Aff.ev_c, he.rhsI hc]; simp
  · rw [hc] at h
    simp only [if_true] at h
    split at h
    · rename_i p hp
      simp only [Except.ok.injEq] at h
      subst h
      rw [Aff.ev_smul, Aff.ev_sub, Aff.ev_c, Aff.ev_p he.nodup x hi]
      unfold Sol.inner; rw [hp]; simp
    · simp at h

lemma well_sum {e : Env K} {m : Mdl K} (hm : MdlOK e m) (p : K) (i : ℕ) :
    (m.wells.map (wellIn e p i)).sum = ((dictGet m.wells (e.at i)).map fun w => wellFlow e w p).getD 0 :=
  sum_single hm.wkeys (e.at i) fun w => wellFlow e w p

lemma good_of {lower : String → String} {e : Env K} (he : e.WF) (hS : e.Sym) {m : Mdl K} (hm : MdlOK e m) (hc : Canonical lower m) {s : Sol K}
    {i : ℕ} (hi : i < e.n) {t : Terms K} (ht : TermsOK lower e m (e.at i) t) (ha : ∀ x, t.a.ev e x = e.rhs (e.at i) * (x i - s.inner e s.tstep i))
    (hw : ∀ w, dictGet m.wells (e.at i) = some w → ∃ y, t.f = baseTerms lower e m.bdict (e.at i) ++ [y] ∧ ∀ x, y.ev e x = wellFlow e w (x i)) :
    Good lower e m s i t := by
  refine ⟨ht, fun x => ?_, ha⟩
  rw [Aff.ev_sum, ha]
  unfold excess outsideIn
  rw [well_sum hm]
  rcases hg : dictGet m.wells (e.at i) with _ | w
  · obtain ⟨wp, h1, h2, -⟩ := ht.f
    rw [h1, h2 hg, List.append_nil, base_sum he hS hm hc x hi]; simp
  · obtain ⟨y, h1, h2⟩ := hw w hg
    rw [h1, List.map_append, List.sum_append, base_sum he hS hm hc x hi]
    simp [h2 x]; ring

lemma build_good {lower : String → String} {e : Env K} (he : e.WF) (hS : e.Sym) {m : Mdl K} (hm : MdlOK e m) (hc : Canonical lower m)
    (hcf : Configured m) {s : Sol K} {i : ℕ} (hi : i < e.n) {t : Terms K} (h : buildTerms lower e m s (e.at i) = .ok t) : Good lower e m s i t := by
  obtain ⟨N, B, l, h1, h2, h3, h4, h5, h6, h7, h8, h9, h10⟩ := hS.cell _ (at_mem e hi)
  have hget : ∀ k, k ∈ N.all ∨ k ∈ B.all → ∃ T, dictGet l k = some T := fun k hk => by
    obtain ⟨v, hv, -⟩ := dictGet_some_mem ((h9 k).2 hk); exact ⟨v, hv⟩
  unfold buildTerms at h
  rw [if_neg (not_not.2 (at_mem e hi)), h1, h2, h3] at h
  simp only [bind_ok] at h
  rw [mapM_ok _ (fun n => nTerm e (e.at i) n ((dictGet l n).getD 0)) _ (fun k hk => by
      obtain ⟨T, hT⟩ := hget k (Or.inl hk); rw [hT]; rfl), bind_ok,
    mapM_ok _ (fun b => bTerm lower e m.bdict (e.at i) b (Aff.p (e.at i)) ((dictGet l b).getD 0)) _ (fun k hk => by
      obtain ⟨T, hT⟩ := hget k (Or.inr hk); rw [hT]; rfl), bind_ok] at h
  have hbase : baseTerms lower e m.bdict (e.at i) = N.all.map (fun n => nTerm e (e.at i) n ((dictGet l n).getD 0)) ++
      B.all.map (fun b => bTerm lower e m.bdict (e.at i) b (Aff.p (e.at i)) ((dictGet l b).getD 0)) := by
    unfold baseTerms; rw [h1, h2, h3]
  rcases hg : dictGet m.wells (e.at i) with _ | w
  · rw [hg] at h
    simp only [pure_bind] at h
    rw [ok_bind] at h
    obtain ⟨a, ha, h⟩ := h
    rw [ok_pure] at h
    subst h
    refine good_of he hS hm hc hi ⟨⟨[], by simp [hbase], fun _ => rfl, by simp [hg]⟩, fun hcmp => (aTerm_ev he hi ha (fun _ => 0)).2 hcmp⟩
      (fun x => (aTerm_ev he hi ha x).1) (by simp [hg])
  · have hmem := mem_of_dictGet hg
    have hwo := hm.well _ hmem
    have hcn := hcf _ hmem
    rw [hg] at h
    simp only at h
    rw [ok_bind] at h
    obtain ⟨y, hy, h⟩ := h
    rw [bind_pure', ok_bind] at h
    obtain ⟨a, ha, h⟩ := h
    rw [ok_pure] at h
    subst h
    have hye : ∀ x, y.ev e x = wellFlow e w (x i) := by
      intro x
      obtain ⟨y', hy', h'⟩ := wTerm_ev he hwo hcn x hi
      rw [hy] at hy'; simp only [Except.ok.injEq] at hy'; subst hy'; exact h'
    refine good_of he hS hm hc hi ⟨⟨[y], by simp [hbase], by simp [hg], fun w' hw' => ⟨y, rfl, fun hq => ?_⟩⟩,
      fun hcmp => (aTerm_ev he hi ha (fun _ => 0)).2 hcmp⟩ (fun x => (aTerm_ev he hi ha x).1) (fun w' hw' => ⟨y, by simp [hbase], ?_⟩)
    · rw [hg] at hw'; simp only [Option.some.injEq] at hw'; subst hw'
      rw [wTerm_q hwo hq] at hy; simp only [Except.ok.injEq] at hy; exact hy.symm
    · rw [hg] at hw'; simp only [Option.some.injEq] at hw'; subst hw'
      exact hye

lemma refresh_good {lower : String → String} {e : Env K} (he : e.WF) (hS : e.Sym) {m : Mdl K} (hm : MdlOK e m) (hc : Canonical lower m)
    (hcf : Configured m) {s : Sol K} {i : ℕ} (hi : i < e.n) {t t' : Terms K} (ht : TermsOK lower e m (e.at i) t)
    (h : refreshTerms e m s (e.at i) t = .ok t') : Good lower e m s i t' := by
  unfold refreshTerms at h
  rw [ok_bind] at h
  obtain ⟨t1, h1, h⟩ := h
  obtain ⟨wp, f1, f2, f3⟩ := ht.f
  -- the flow terms after the first part
  have hf : t1.a = t.a ∧ TermsOK lower e m (e.at i) t1 ∧ ∀ w, dictGet m.wells (e.at i) = some w →
      ∃ y, t1.f = baseTerms lower e m.bdict (e.at i) ++ [y] ∧ ∀ x, y.ev e x = wellFlow e w (x i) := by
    unfold refreshWell at h1
    rcases hg : dictGet m.wells (e.at i) with _ | w
    · rw [hg] at h1; simp only [Except.ok.injEq] at h1; subst h1
      exact ⟨rfl, ht, by simp⟩
    · have hmem := mem_of_dictGet hg
      have hwo := hm.well _ hmem
      have hcn := hcf _ hmem
      obtain ⟨y, hy, hyq⟩ := f3 w hg
      rw [hg] at h1
      simp only at h1
      split_ifs at h1 with hp
      · rw [ok_bind] at h1
        obtain ⟨y', hy', h1⟩ := h1
        rw [ok_pure] at h1
        subst h1
        have hdrop : t.f.dropLast ++ [y'] = baseTerms lower e m.bdict (e.at i) ++ [y'] := by rw [f1, hy]; simp
        refine ⟨rfl, ⟨⟨[y'], hdrop, by simp [hg], fun w' hw' => ⟨y', rfl, fun hq => ?_⟩⟩, ht.a⟩, fun w' hw' => ⟨y', hdrop, fun x => ?_⟩⟩
        · rw [hg] at hw'; simp only [Option.some.injEq] at hw'; subst hw'
          rw [hp] at hq; simp at hq
        · simp only [Option.some.injEq] at hw'; subst hw'
          obtain ⟨y2, hy2, h'⟩ := wTerm_ev he hwo hcn x hi
          rw [hy'] at hy2; simp only [Except.ok.injEq] at hy2; subst hy2; exact h'
      · simp only [Except.ok.injEq] at h1; subst h1
        refine ⟨rfl, ht, fun w' hw' => ?_⟩
        simp only [Option.some.injEq] at hw'; subst hw'
        have hq : w.con = some .q := by rcases h : w.con with _ | _ | _ <;> simp_all
        refine ⟨y, by rw [f1, hy], fun x => ?_⟩
        rw [hyq hq, Aff.ev_c]; unfold wellFlow; rw [hq]
  obtain ⟨ha1, hf1, hf2⟩ := hf
  rcases hcmp : e.comp
  · rw [hcmp] at h
    simp only [Bool.false_eq_true, if_false] at h
    rw [ok_pure] at h; subst h
    exact good_of he hS hm hc hi hf1 (fun x => by rw [ha1, ht.a hcmp, Aff.ev_c, he.rhsI hcmp, zero_mul]) hf2
  · rw [hcmp] at h
    simp only [if_true] at h
    rw [ok_bind] at h
    obtain ⟨a, ha, h⟩ := h
    rw [ok_pure] at h; subst h
    exact good_of he hS hm hc hi ⟨hf1.f, by simp [hcmp]⟩ (fun x => (aTerm_ev he hi ha x).1) hf2

/-! ### rows -/

/-- A row of the symbolic system for position `i`: the balance of the cell divided by 1 or by a number taken out by sympy. -/
structure RowOK (scale : (ℕ → K) → K → K) (e : Env K) (m : Mdl K) (old : ℕ → K) (i : ℕ) (row : (ℕ → K) × K) : Prop where
  sol : ∃ k, k ≠ 0 ∧ (k = 1 ∨ ∃ a b, k = (scale a b)⁻¹) ∧ ∀ x, ∑ j ∈ range e.n, row.1 (e.at j) * x j - row.2 = k * excess e e.transS m (givenRate m) old x i
  zero : ∀ j, j < e.n → j ≠ i → e.transS i j = 0 → row.1 (e.at j) = 0
  diag : row.1 (e.at i) ≠ 0
  off : ∀ j, j < e.n → j ≠ i → e.transS i j ≠ 0 → row.1 (e.at j) ≠ 0
  const : e.comp = true → excess e e.transS m (givenRate m) old (fun _ => 0) i ≠ 0

/-- The balance is affine in the new pressures, with these coefficients. -/
lemma excess_affine (e : Env K) {T : ℕ → ℕ → K} (hT : Network e.n T) (m : Mdl K) (rate old x : ℕ → K) {i : ℕ} (hi : i < e.n) :
    excess e T m rate old x i = ∑ j ∈ range e.n, (if i = j then -(∑ k ∈ range e.n, T i k) - leak e m i else T i j) * x j +
      excess e T m rate old (fun _ => 0) i := by
  rw [sum_if_single hi, hT.diag i hi]
  unfold excess leak
  rw [outsideIn_eq]
  have h1 : ∑ j ∈ range e.n, T i j * (x j - x i - e.grav * (e.z (e.at j) - e.z (e.at i))) =
      ∑ j ∈ range e.n, T i j * x j - (∑ j ∈ range e.n, T i j) * x i + ∑ j ∈ range e.n, T i j * (0 - 0 - e.grav * (e.z (e.at j) - e.z (e.at i))) := by
    rw [sum_mul, ← sum_sub_distrib, ← sum_add_distrib]; exact sum_congr rfl fun j _ => by ring
  rw [h1]; ring

lemma eqRow_ok {scale : (ℕ → K) → K → K} (hsc : ∀ a b, scale a b ≠ 0) {e : Env K} (he : e.WF) (hT : Network e.n e.transS) {m : Mdl K} (hm : MdlOK e m)
    {old : ℕ → K} {i : ℕ} (hi : i < e.n) {l r : Aff K}
    (hev : ∀ x, l.ev e x - r.ev e x = excess e e.transS m (givenRate m) old x i) (hac : ∀ x, r.ev e x = e.rhs (e.at i) * (x i - old i)) {row : (ℕ → K) × K}
    (h : eqRow scale e.ids l r = .ok row) : RowOK scale e m old i row := by
  -- coefficients of the difference
  have hcoef : ∀ j, j < e.n → l.coef (e.at j) - r.coef (e.at j) =
      if i = j then -(∑ k ∈ range e.n, e.transS i k) - leak e m i else e.transS i j := by
    intro j hj
    have h1 := hev fun k => if k = j then 1 else 0
    have h0 := hev fun _ => 0
    rw [excess_affine e hT m _ _ _ hi] at h1
    simp only [Aff.ev, mul_ite, mul_one, mul_zero, sum_ite_eq', mem_range, hj, if_true, sum_const_zero, zero_add] at h1 h0
    linear_combination h1 - h0
  have hconst : l.const - r.const = excess e e.transS m (givenRate m) old (fun _ => 0) i := by
    have h0 := hev fun _ => 0
    simpa [Aff.ev] using h0
  -- rows are multiples of the difference
  have hrow : ¬ (∀ id, id ∈ e.ids → l.coef id = r.coef id) ∧ ∃ k, k ≠ 0 ∧ (k = 1 ∨ ∃ a b, k = scale a b) ∧ (∀ j, j < e.n → row.1 (e.at j) = (l.coef (e.at j) - r.coef (e.at j)) / k) ∧ row.2 = -(l.const - r.const) / k := by
    unfold eqRow at h
    split_ifs at h with g1 g2 g3
    · refine ⟨by simpa using g1, ?_⟩
      simp only [Except.ok.injEq] at h; subst h
      refine ⟨1, one_ne_zero, .inl rfl, fun j hj => ?_, by simp [g2.1, g2.2]⟩
      rw [List.all_eq_true] at g3
      have := g3 _ (at_mem e hj)
      simp only [decide_eq_true_eq] at this
      rw [this]; simp
    · refine ⟨by simpa using g1, ?_⟩
      dsimp only at h
      split_ifs at h
      simp only [Except.ok.injEq] at h; subst h
      exact ⟨_, hsc _ _, .inr ⟨_, _, rfl⟩, fun j hj => rfl, rfl⟩
  obtain ⟨hne, k, hk, hks, hr1, hr2⟩ := hrow
  refine ⟨⟨k⁻¹, inv_ne_zero hk, hks.imp (fun h => by rw [h, inv_one]) (fun ⟨a, b, h⟩ => ⟨a, b, by rw [h]⟩), fun x => ?_⟩, fun j hj hji hz => ?_, ?_, fun j hj hji hz => ?_, fun hcmp => ?_⟩
  · rw [sum_congr rfl fun j hj => by rw [hr1 j (mem_range.1 hj), hcoef j (mem_range.1 hj)], hr2, hconst, excess_affine e hT m (givenRate m) old x hi]
    simp only [div_mul_eq_mul_div]
    simp only [div_eq_mul_inv]
    rw [← sum_mul]; ring
  · rw [hr1 j hj, hcoef j hj, if_neg (Ne.symm hji), hz, zero_div]
  · rw [hr1 i hi, hcoef i hi, if_pos rfl]
    apply div_ne_zero _ hk
    intro h0
    apply hne
    have h1 : 0 ≤ ∑ k ∈ range e.n, e.transS i k := sum_nonneg fun k hk => hT.nonneg i k hi (mem_range.1 hk)
    have h2 := leak_nonneg he hm hi
    have h3 : ∑ k ∈ range e.n, e.transS i k = 0 := by linarith
    rw [sum_eq_zero_iff_of_nonneg fun k hk => hT.nonneg i k hi (mem_range.1 hk)] at h3
    intro id hid
    have := hcoef _ (idx_lt e hid)
    rw [at_idx e hid] at this
    rw [← sub_eq_zero, this]
    split_ifs
    · exact h0
    · exact h3 _ (mem_range.2 (idx_lt e hid))
  · rw [hr1 j hj, hcoef j hj, if_neg (Ne.symm hji)]
    exact div_ne_zero hz hk
  · rw [← hconst]
    have hri : r.coef (e.at i) ≠ 0 := by
      have h1 := hac fun k => if k = i then 1 else 0
      have h0 := hac fun _ => 0
      simp only [Aff.ev, mul_ite, mul_one, mul_zero, sum_ite_eq', mem_range, hi, if_true, sum_const_zero, zero_add] at h1 h0
      have : r.coef (e.at i) = e.rhs (e.at i) := by linear_combination h1 - h0
      rw [this]; exact (he.rhsC hcmp _ (at_mem e hi)).ne'
    unfold eqRow at h
    split_ifs at h with g1 g2 g3
    · rw [List.all_eq_true] at g3
      have := g3 _ (at_mem e hi)
      rw [decide_eq_true_eq] at this
      exact absurd this hri
    · dsimp only at h
      split_ifs at h with g4
      exact g4

lemma cellEq_ok {lower : String → String} {scale : (ℕ → K) → K → K} (hsc : ∀ a b, scale a b ≠ 0) {e : Env K} (he : e.WF) (hS : e.Sym)
    (hT : Network e.n e.transS) {m m' : Mdl K} (hm : MdlOK e m) (hc : Canonical lower m) (hcf : Configured m) (ht : TInv lower e m)
    {s : Sol K} {id : ℕ} (hid : id ∈ e.ids) {row : (ℕ → K) × K} (h : cellEq lower scale e m s id = .ok (m', row)) :
    (∃ t, m' = { m with terms := dictSet m.terms id t }) ∧ TInv lower e m' ∧ RowOK scale e m (s.inner e s.tstep) (e.ids.idxOf id) row := by
  have hi := idx_lt e hid
  have hat := at_idx e hid
  unfold cellEq at h
  rw [ok_bind] at h
  obtain ⟨t, h1, h⟩ := h
  rw [ok_bind] at h
  obtain ⟨row', h2, h⟩ := h
  simp only [ok_pure, Prod.mk.injEq] at h
  obtain ⟨rfl, rfl⟩ := h
  have hg : Good lower e m s (e.ids.idxOf id) t := by
    unfold cellTerms at h1
    split at h1
    · exact build_good he hS hm hc hcf hi (by rw [hat]; exact h1)
    · rename_i t0 hd
      have := ht _ _ hd
      exact refresh_good he hS hm hc hcf hi (t := t0) (by rw [hat]; exact this) (by rw [hat]; exact h1)
  refine ⟨⟨t, rfl⟩, fun id' t' hd => ?_, eqRow_ok hsc he hT hm hi hg.ev hg.acc h2⟩
  rw [dictGet_set] at hd
  split_ifs at hd with hk
  · simp only [Option.some.injEq] at hd; subst hd hk
    have := hg.ok
    rw [hat] at this
    exact ⟨this.f, this.a⟩
  · have := ht _ _ hd
    exact ⟨this.f, this.a⟩

lemma cellsEq_ok {lower : String → String} {scale : (ℕ → K) → K → K} (hsc : ∀ a b, scale a b ≠ 0) {e : Env K} (he : e.WF) (hS : e.Sym)
    (hT : Network e.n e.transS) {m0 : Mdl K} (hm : MdlOK e m0) (hc : Canonical lower m0) (hcf : Configured m0) {s : Sol K} (l : List ℕ)
    (hl : ∀ id, id ∈ l → id ∈ e.ids) (acc acc' : Mdl K × List (ℕ × (ℕ → K) × K))
    (hacc : (∃ ts, acc.1 = { m0 with terms := ts }) ∧ TInv lower e acc.1)
    (h : l.foldlM (fun acc id => do
      let (m, row) ← cellEq lower scale e acc.1 s id
      pure (m, acc.2 ++ [(id, row)])) acc = .ok acc') :
    ((∃ ts, acc'.1 = { m0 with terms := ts }) ∧ TInv lower e acc'.1) ∧
      ∃ rows, acc'.2 = acc.2 ++ rows ∧ rows.map (·.1) = l ∧ ∀ x, x ∈ rows → RowOK scale e m0 (s.inner e s.tstep) (e.ids.idxOf x.1) x.2 := by
  induction l generalizing acc with
  | nil =>
    rw [List.foldlM_nil, ok_pure] at h; subst h
    exact ⟨hacc, [], by simp, rfl, by simp⟩
  | cons id l ih =>
    rw [List.foldlM_cons, ok_bind] at h
    obtain ⟨acc1, h1, h⟩ := h
    rw [ok_bind] at h1
    obtain ⟨⟨m', row⟩, h2, h1⟩ := h1
    simp only [ok_pure] at h1
    subst h1
    obtain ⟨⟨m1, a2⟩, ts, rfl⟩ : ∃ a : Mdl K × List (ℕ × (ℕ → K) × K), ∃ ts, acc = ({ m0 with terms := ts }, a.2) := by
      obtain ⟨ts, h⟩ := hacc.1
      exact ⟨acc, ts, by rw [← h]⟩
    have hm' : MdlOK e { m0 with terms := ts } := ⟨hm.bkeys, hm.bmem, hm.upd, hm.wkeys, hm.wmem, hm.well⟩
    obtain ⟨⟨t, g1⟩, g2, g3⟩ := cellEq_ok hsc he hS hT hm' hc hcf hacc.2 (hl id (by simp)) h2
    subst g1
    obtain ⟨i1, rows, i2, i3, i4⟩ := ih (fun k hk => hl k (by simp [hk])) _ ⟨⟨_, rfl⟩, g2⟩ h
    refine ⟨i1, (id, row) :: rows, by rw [i2]; simp, by simp [i3], fun x hx => ?_⟩
    rcases List.mem_cons.1 hx with rfl | hx
    · exact ⟨g3.sol, g3.zero, g3.diag, g3.off, g3.const⟩
    · exact i4 x hx

/-- What the stored symbolic matrix keeps between steps: entries of cells without a connection are zero. -/
def SInv (e : Env K) (s : Sol K) : Prop := ∀ M, s.sM = some M → s.tstep ≠ 0 → ∀ i j, i < e.n → j < e.n → j ≠ i → e.transS i j = 0 → M.1 i j = 0

lemma writeRow_ok {scale : (ℕ → K) → K → K} {e : Env K} (he : e.WF) {M : (ℕ → ℕ → K) × (ℕ → K)} {m : Mdl K} {old : ℕ → K} {id : ℕ} (hid : id ∈ e.ids) {row : (ℕ → K) × K}
    (hr : RowOK scale e m old (e.ids.idxOf id) row) (hM : ∀ i j, i < e.n → j < e.n → j ≠ i → e.transS i j = 0 → M.1 i j = 0) :
    (∀ i j, i < e.n → j < e.n → i ≠ e.ids.idxOf id → (writeRow e.ids M id row).1 i j = M.1 i j) ∧
      (∀ i, i ≠ e.ids.idxOf id → (writeRow e.ids M id row).2 i = M.2 i) ∧
      (∀ j, j < e.n → (writeRow e.ids M id row).1 (e.ids.idxOf id) j = row.1 (e.at j)) ∧ (writeRow e.ids M id row).2 (e.ids.idxOf id) = row.2 := by
  refine ⟨fun i j _ _ hi => ?_, fun i hi => ?_, fun j hj => ?_, ?_⟩
  · simp [writeRow, hi]
  · simp [writeRow, hi]
  · have h1 : e.ids[j]? = some (e.at j) := by
      rw [at_eq e hj]; exact List.getElem?_eq_getElem hj
    simp only [writeRow, if_true, h1]
    split_ifs with h0
    · rw [h0]
      have hne : j ≠ e.ids.idxOf id := by rintro rfl; exact hr.diag h0
      refine hM _ j (idx_lt e hid) hj hne ?_
      by_contra hT
      exact hr.off j hj hne hT h0
    · rfl
  · simp [writeRow]

lemma writeRows_ok {scale : (ℕ → K) → K → K} {e : Env K} (he : e.WF) {m : Mdl K} {old : ℕ → K} (rows : List (ℕ × (ℕ → K) × K))
    (hn : (rows.map (·.1)).Nodup) (hid : ∀ x, x ∈ rows → x.1 ∈ e.ids) (hr : ∀ x, x ∈ rows → RowOK scale e m old (e.ids.idxOf x.1) x.2) (M : (ℕ → ℕ → K) × (ℕ → K))
    (hM : ∀ i j, i < e.n → j < e.n → j ≠ i → e.transS i j = 0 → M.1 i j = 0) :
    let M' := rows.foldl (fun M x => writeRow e.ids M x.1 x.2) M
    (∀ i j, i < e.n → j < e.n → j ≠ i → e.transS i j = 0 → M'.1 i j = 0) ∧
      (∀ i j, i < e.n → j < e.n → e.at i ∉ rows.map (·.1) → M'.1 i j = M.1 i j ∧ M'.2 i = M.2 i) ∧
      ∀ x, x ∈ rows → (∀ j, j < e.n → M'.1 (e.ids.idxOf x.1) j = x.2.1 (e.at j)) ∧ M'.2 (e.ids.idxOf x.1) = x.2.2 := by
  induction rows generalizing M with
  | nil => exact ⟨hM, fun _ _ _ _ _ => ⟨rfl, rfl⟩, by simp⟩
  | cons y rows ih =>
    rw [List.map_cons, List.nodup_cons] at hn
    have hy := hid y (by simp)
    obtain ⟨w1, w2, w3, w4⟩ := writeRow_ok he hy (hr y (by simp)) hM
    have hM1 : ∀ i j, i < e.n → j < e.n → j ≠ i → e.transS i j = 0 → (writeRow e.ids M y.1 y.2).1 i j = 0 := by
      intro i j hi hj hji hz
      by_cases h : i = e.ids.idxOf y.1
      · subst h
        rw [w3 j hj]; exact (hr y (by simp)).zero j hj hji hz
      · rw [w1 i j hi hj h]; exact hM i j hi hj hji hz
    obtain ⟨i1, i2, i3⟩ := ih hn.2 (fun x hx => hid x (by simp [hx])) (fun x hx => hr x (by simp [hx])) _ hM1
    refine ⟨i1, fun i j hi hj hni => ?_, fun x hx => ?_⟩
    · rw [List.map_cons, List.mem_cons, not_or] at hni
      have hne : i ≠ e.ids.idxOf y.1 := fun h => hni.1 (by rw [h, at_idx e hy])
      obtain ⟨j1, j2⟩ := i2 i j hi hj hni.2
      rw [List.foldl_cons]
      exact ⟨j1.trans (w1 i j hi hj hne), j2.trans (w2 i hne)⟩
    · rw [List.foldl_cons]
      rcases List.mem_cons.1 hx with rfl | hx
      · have : e.at (e.ids.idxOf x.1) ∉ rows.map (·.1) := by rw [at_idx e hy]; exact hn.1
        refine ⟨fun j hj => ?_, ?_⟩
        · rw [(i2 _ j (idx_lt e hy) hj this).1, w3 j hj]
        · rw [(i2 _ (e.ids.idxOf x.1) (idx_lt e hy) (idx_lt e hy) this).2, w4]
      · exact i3 x hx

/-- **Rows of the symbolic assembly** are multiples of the balance of their cell, which has a number in it if the model is compressible. -/
theorem symb_rows {lower : String → String} {scale : (ℕ → K) → K → K} (hsc : ∀ a b, scale a b ≠ 0) {e : Env K} (he : e.WF) (hS : e.Sym)
    (hT : Network e.n e.transS) {m m' : Mdl K} (hm : MdlOK e m) (hc : Canonical lower m) (hcf : Configured m) (ht : TInv lower e m)
    {s s' : Sol K} (hs : SInv e s) {A : ℕ → ℕ → K} {d : ℕ → K} (h : matricesSymb lower scale e m s = .ok (m', s', A, d)) :
    (∃ ts, m' = { m with terms := ts }) ∧ TInv lower e m' ∧ (∃ M, s' = { s with sM := some M } ∧
      ∀ i j, i < e.n → j < e.n → j ≠ i → e.transS i j = 0 → M.1 i j = 0) ∧
      ∀ i, i < e.n → (∃ k, k ≠ 0 ∧ (k = 1 ∨ ∃ a b, k = (scale a b)⁻¹) ∧ ∀ x, ∑ j ∈ range e.n, A i j * x j - d i = k * excess e e.transS m (givenRate m) (s.inner e s.tstep) x i) ∧
        (e.comp = true → excess e e.transS m (givenRate m) (s.inner e s.tstep) (fun _ => 0) i ≠ 0) := by
  unfold matricesSymb at h
  rw [ok_bind] at h
  obtain ⟨⟨m1, eqs⟩, h1, h⟩ := h
  simp only [ok_pure, Prod.mk.injEq] at h
  obtain ⟨rfl, rfl, rfl, rfl⟩ := h
  unfold cellsEq at h1
  obtain ⟨⟨g1, g2⟩, rows, g3, g4, g5⟩ := cellsEq_ok hsc he hS hT hm hc hcf e.ids (fun _ h => h) (m, []) _ ⟨⟨m.terms, rfl⟩, ht⟩ h1
  simp only [List.nil_append] at g3
  subst g3
  have hz : ∀ i j, i < e.n → j < e.n → j ≠ i → e.transS i j = 0 → (symbStart s).1 i j = 0 := by
    intro i j hi hj hji hz
    unfold symbStart
    split
    · rename_i M hM
      split_ifs with ht0
      · rfl
      · exact hs M hM ht0 i j hi hj hji hz
    · rfl
  have hids : ∀ x, x ∈ eqs → x.1 ∈ e.ids := fun x hx => by rw [← g4]; exact List.mem_map.2 ⟨x, hx, rfl⟩
  obtain ⟨w1, -, w3⟩ := writeRows_ok he eqs (by rw [g4]; exact he.nodup) hids g5 (symbStart s) hz
  refine ⟨g1, g2, ⟨_, rfl, w1⟩, fun i hi => ?_⟩
  have hmem : e.at i ∈ eqs.map (·.1) := by rw [g4]; exact at_mem e hi
  obtain ⟨y, hy, hyi⟩ := List.mem_map.1 hmem
  obtain ⟨a1, a2⟩ := w3 y hy
  have hii : e.ids.idxOf y.1 = i := by rw [hyi]; exact idx_at e he.nodup hi
  rw [hii] at a1 a2
  obtain ⟨k, hk, hks, this⟩ := (g5 y hy).sol
  rw [hii] at this
  refine ⟨⟨k, hk, hks, fun x => ?_⟩, hii ▸ (g5 y hy).const⟩
  rw [sum_congr rfl fun j hj => by rw [a1 j (mem_range.1 hj)], a2]
  exact this x

/-- **Rows of the symbolic assembly** are multiples of the balance of their cell. -/
theorem symb_residual {lower : String → String} {scale : (ℕ → K) → K → K} (hsc : ∀ a b, scale a b ≠ 0) {e : Env K} (he : e.WF) (hS : e.Sym)
    (hT : Network e.n e.transS) {m m' : Mdl K} (hm : MdlOK e m) (hc : Canonical lower m) (hcf : Configured m) (ht : TInv lower e m)
    {s s' : Sol K} (hs : SInv e s) {A : ℕ → ℕ → K} {d : ℕ → K} (h : matricesSymb lower scale e m s = .ok (m', s', A, d)) :
    (∃ ts, m' = { m with terms := ts }) ∧ TInv lower e m' ∧ (∃ M, s' = { s with sM := some M } ∧
      ∀ i j, i < e.n → j < e.n → j ≠ i → e.transS i j = 0 → M.1 i j = 0) ∧
      ∀ i, i < e.n → ∃ k, k ≠ 0 ∧ (k = 1 ∨ ∃ a b, k = (scale a b)⁻¹) ∧ ∀ x, ∑ j ∈ range e.n, A i j * x j - d i = k * excess e e.transS m (givenRate m) (s.inner e s.tstep) x i := by
  obtain ⟨a, b, c, d⟩ := symb_rows hsc he hS hT hm hc hcf ht hs h
  exact ⟨a, b, c, fun i hi => (d i hi).1⟩

end RF.Fdm
