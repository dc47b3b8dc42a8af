import Verif.Fdm.PropsWells
/-! # Simulations that cannot be told apart in the reservoir

Two simulations with the same wells whose conditions mean the same and whose tables agree inside the reservoir go on alike. Used
for the spellings of conditions (C28) and for conditions that are not remembered (C30). -/
set_option linter.unusedSectionVars false
namespace RF.Fdm
open RF RF.Dims Finset

/-- Results are related: both calls succeed with related values, or (`strict`) both raise the same exception. Without `strict`
nothing is said when one of the calls raises. -/
def ERel {α β : Type} (strict : Bool) (R : α → β → Prop) : Except Err α → Except Err β → Prop
  | .ok a, .ok b => R a b
  | .error x, .error y => strict = true → x = y
  | _, _ => strict = false

lemma ERel.bind {α β γ δ : Type} {strict : Bool} {R : α → β → Prop} {S : γ → δ → Prop} {x : Except Err α} {y : Except Err β} {f : α → Except Err γ} {g : β → Except Err δ}
    (h : ERel strict R x y) (hf : ∀ a b, R a b → ERel strict S (f a) (g b)) : ERel strict S (x >>= f) (y >>= g) := by
  cases x <;> cases y
  · exact h
  · rename_i v
    show ERel strict S (.error _) (g v)
    cases hg : g v
    · intro hs; have : strict = false := h; rw [hs] at this; simp at this
    · exact h
  · rename_i v _
    show ERel strict S (f v) (.error _)
    cases hg : f v
    · intro hs; have : strict = false := h; rw [hs] at this; simp at this
    · exact h
  · exact hf _ _ h

lemma ERel.refl {α : Type} {strict : Bool} {R : α → α → Prop} (x : Except Err α) (h : ∀ a, x = .ok a → R a a) : ERel strict R x x := by
  cases x
  · intro _; rfl
  · exact h _ rfl

lemma ERel.and_left {α β : Type} {strict : Bool} {R : α → β → Prop} {S : α → Prop} {x : Except Err α} {y : Except Err β} (h : ERel strict R x y) (hS : ∀ a, x = .ok a → S a) :
    ERel strict (fun a b => R a b ∧ S a) x y := by
  cases x <;> cases y
  · exact h
  · exact h
  · exact h
  · exact ⟨h, hS _ rfl⟩

lemma ERel.foldlM {α β γ δ : Type} {strict : Bool} {R : α → β → Prop} {Q : γ → δ → Prop} {f : α → γ → Except Err α} {g : β → δ → Except Err β} :
    ∀ {l : List γ} {l' : List δ} {a : α} {b : β}, List.Forall₂ Q l l' → R a b → (∀ a b, R a b → ∀ x y, Q x y → ERel strict R (f a x) (g b y)) →
      ERel strict R (l.foldlM f a) (l'.foldlM g b) := by
  intro l l' a b hl
  induction hl generalizing a b with
  | nil => intro h _; exact h
  | cons hx _ ih =>
    intro h hf
    rw [List.foldlM_cons, List.foldlM_cons]
    exact (hf a b h _ _ hx).bind fun a' b' h' => ih h' hf

lemma forall2_self {α : Type} {Q : α → α → Prop} : ∀ {l : List α}, (∀ x, x ∈ l → Q x x) → List.Forall₂ Q l l
  | [], _ => .nil
  | x :: l, h => .cons (h x (by simp)) (forall2_self fun y hy => h y (by simp [hy]))

section
variable {K : Type} [Field K] [LinearOrder K] [IsStrictOrderedRing K]

/-- The names of pressure conditions. -/
abbrev pressureNames : List String := ["pressure", "press", "p"]

/-- Two conditions mean the same: the same boundary cell, the same value, both or neither a pressure; with `strict` both or neither
spelled `"pressure"`. -/
def SameCond (lower : String → String) (strict : Bool) (x y : ℕ × String × K) : Prop :=
  y.1 = x.1 ∧ y.2.2 = x.2.2 ∧ (lower y.2.1 ∈ pressureNames ↔ lower x.2.1 ∈ pressureNames) ∧ (strict = true → (y.2.1 = "pressure" ↔ x.2.1 = "pressure"))

lemma SameCond.dictGet {lower : String → String} {strict : Bool} {b b' : List (ℕ × String × K)} (h : List.Forall₂ (SameCond lower strict) b b') (k : ℕ) :
    (RF.dictGet b k = none ∧ RF.dictGet b' k = none) ∨ ∃ c c' v, RF.dictGet b k = some (c, v) ∧ RF.dictGet b' k = some (c', v) ∧ (lower c' ∈ pressureNames ↔ lower c ∈ pressureNames) := by
  unfold RF.dictGet
  induction h with
  | nil => left; simp
  | @cons x y l l' hx _ ih =>
    obtain ⟨h1, h2, h3, -⟩ := hx
    by_cases hk : x.1 = k
    · right
      refine ⟨x.2.1, y.2.1, x.2.2, ?_, ?_, h3⟩
      · simp [List.find?_cons, hk]
      · rw [← h2]; simp [List.find?_cons, h1, hk]
    · simp only [List.find?_cons, h1, hk, decide_false]
      exact ih

lemma bTerm_same {lower : String → String} {strict : Bool} {e : Env K} {b b' : List (ℕ × String × K)} (h : List.Forall₂ (SameCond lower strict) b b') (id idb : ℕ) (x : Aff K) (T : K) :
    bTerm lower e b' id idb x T = bTerm lower e b id idb x T := by
  unfold bTerm
  rcases SameCond.dictGet h idb with ⟨h1, h2⟩ | ⟨c, c', v, h1, h2, h3⟩
  · rw [h1, h2]
  · rw [h1, h2]
    dsimp only
    by_cases hc : lower c ∈ pressureNames
    · rw [if_pos hc, if_pos (h3.2 hc)]
    · rw [if_neg hc, if_neg fun h => hc (h3.1 h)]

/-- Two simulations that cannot be told apart in the reservoir. -/
structure Alike (c : Ctx K) (strict : Bool) (m m' : Mdl K) (s s' : Sol K) : Prop where
  wells : m'.wells = m.wells
  wPress : m'.wPress = m.wPress
  terms : m'.terms = m.terms
  up : strict = true → m'.bUpdate = m.bUpdate
  bd : List.Forall₂ (SameCond c.lower strict) m.bdict m'.bdict
  wmem : ∀ x, x ∈ m.wells → x.1 ∈ c.e.ids
  umem : ∀ b, b ∈ m.bUpdate → b ∈ c.e.bnd
  umem' : ∀ b, b ∈ m'.bUpdate → b ∈ c.e.bnd
  tstep : s'.tstep = s.tstep
  press : List.Forall₂ (fun p p' : ℕ → Option K => ∀ id, id ∈ c.e.ids → p' id = p id) s.press s'.press
  rates : List.Forall₂ (fun r r' : ℕ → K => ∀ id, id ∈ c.e.ids ∨ (strict = true ∧ id ∈ m.bdict.map (·.1)) → r' id = r id) s.rates s'.rates
  vA : s'.vA = s.vA
  bV : s'.bV = s.bV
  resolve : s'.resolve = s.resolve
  sM : s'.sM = s.sM

lemma forall2_row {α : Type} {Q : (ℕ → α) → (ℕ → α) → Prop} {l l' : List (ℕ → α)} (h : List.Forall₂ Q l l') (z : α) (hz : Q (fun _ => z) fun _ => z) (t : ℕ) :
    Q (rowAt l t z) (rowAt l' t z) := by
  unfold rowAt
  induction h generalizing t with
  | nil => simpa using hz
  | cons hx _ ih =>
    cases t with
    | zero => simpa using hx
    | succ t => simpa using ih t

lemma forall2_last {α : Type} {Q : (ℕ → α) → (ℕ → α) → Prop} {l l' : List (ℕ → α)} (h : List.Forall₂ Q l l') (z : α) (hz : Q (fun _ => z) fun _ => z) :
    Q (lastRow l z) (lastRow l' z) := by
  unfold lastRow
  induction h with
  | nil => simpa using hz
  | @cons x y l l' hx hl ih =>
    cases hl with
    | nil => simpa using hx
    | cons h1 h2 => simpa [List.getLastD] using ih

lemma Alike.pressRow {c : Ctx K} {strict : Bool} {m m' : Mdl K} {s s' : Sol K} (h : Alike c strict m m' s s') {id : ℕ} (hid : id ∈ c.e.ids) :
    rowAt s'.press s'.tstep none id = rowAt s.press s.tstep none id := by
  rw [h.tstep]
  exact forall2_row (Q := fun p p' : ℕ → Option K => ∀ id, id ∈ c.e.ids → p' id = p id) h.press none (fun _ _ => rfl) s.tstep id hid

lemma Alike.rateRow {c : Ctx K} {strict : Bool} {m m' : Mdl K} {s s' : Sol K} (h : Alike c strict m m' s s') (hs : strict = true) {id : ℕ} (hid : id ∈ m.bdict.map (·.1)) :
    rowAt s'.rates s'.tstep 0 id = rowAt s.rates s.tstep 0 id := by
  rw [h.tstep]
  exact forall2_row (Q := fun r r' : ℕ → K => ∀ id, id ∈ c.e.ids ∨ (strict = true ∧ id ∈ m.bdict.map (·.1)) → r' id = r id) h.rates 0 (fun _ _ => rfl) s.tstep id (.inr ⟨hs, hid⟩)

lemma aTerm_alike {c : Ctx K} {strict : Bool} {m m' : Mdl K} {s s' : Sol K} (h : Alike c strict m m' s s') {id : ℕ} (hid : id ∈ c.e.ids) : aTerm c.e s' id = aTerm c.e s id := by
  unfold aTerm
  rw [h.pressRow hid]

lemma buildTerms_alike {c : Ctx K} {strict : Bool} {m m' : Mdl K} {s s' : Sol K} (h : Alike c strict m m' s s') {id : ℕ} (hid : id ∈ c.e.ids) :
    buildTerms c.lower c.e m' s' id = buildTerms c.lower c.e m s id := by
  unfold buildTerms
  rw [aTerm_alike h hid, h.wells]
  simp only [bTerm_same h.bd]

lemma cellTerms_alike {c : Ctx K} {strict : Bool} {m m' : Mdl K} {s s' : Sol K} (h : Alike c strict m m' s s') {id : ℕ} (hid : id ∈ c.e.ids) :
    cellTerms c.lower c.e m' s' id = cellTerms c.lower c.e m s id := by
  unfold cellTerms
  rw [h.terms, buildTerms_alike h hid]
  unfold refreshTerms refreshWell
  rw [h.wells]
  simp only [aTerm_alike h hid]

lemma symb_alike {c : Ctx K} {strict : Bool} {m m' : Mdl K} {s s' : Sol K} (h : Alike c strict m m' s s') :
    ERel strict (fun x y => Alike c strict x.1 y.1 x.2.1 y.2.1 ∧ y.2.2 = x.2.2) (matricesSymb c.lower c.scale c.e m s) (matricesSymb c.lower c.scale c.e m' s') := by
  unfold matricesSymb
  refine ERel.bind (R := fun x y => Alike c strict x.1 y.1 s s' ∧ y.2 = x.2) ?_ ?_
  · unfold cellsEq
    refine ERel.foldlM (Q := fun x y => y = x ∧ x ∈ c.e.ids) (forall2_self fun x hx => ⟨rfl, hx⟩) ⟨h, rfl⟩ ?_
    rintro ⟨m1, l1⟩ ⟨m2, l2⟩ ⟨ha, hl⟩ id _ ⟨rfl, hid⟩
    dsimp only at ha hl ⊢
    subst hl
    refine ERel.bind (R := fun x y => Alike c strict x.1 y.1 s s' ∧ y.2 = x.2) ?_ ?_
    · unfold cellEq
      rw [cellTerms_alike ha hid]
      refine ERel.bind (ERel.refl (R := fun x y => y = x) _ fun _ _ => rfl) ?_
      rintro _ t rfl
      refine ERel.bind (ERel.refl (R := fun x y => y = x) _ fun _ _ => rfl) ?_
      rintro _ row rfl
      exact ⟨⟨ha.wells, ha.wPress, by dsimp only; rw [ha.terms], ha.up, ha.bd, ha.wmem, ha.umem, ha.umem', ha.tstep, ha.press, ha.rates, ha.vA, ha.bV, ha.resolve, ha.sM⟩, rfl⟩
    · rintro ⟨m3, r3⟩ ⟨m4, r4⟩ ⟨ha', hr⟩
      dsimp only at ha' hr ⊢
      subst hr
      exact ⟨ha', rfl⟩
  · rintro ⟨m1, l1⟩ ⟨m2, l2⟩ ⟨ha, hl⟩
    dsimp only at ha hl ⊢
    subst hl
    have hst : symbStart s' = symbStart s := by unfold symbStart; rw [h.sM, h.tstep]
    rw [hst]
    exact ⟨⟨ha.wells, ha.wPress, ha.terms, ha.up, ha.bd, ha.wmem, ha.umem, ha.umem', ha.tstep, ha.press, ha.rates, ha.vA, ha.bV, ha.resolve, rfl⟩, rfl⟩

lemma initD_alike {c : Ctx K} {strict : Bool} {m m' : Mdl K} {s s' : Sol K} (h : Alike c strict m m' s s') :
    ERel strict (fun d d' : ℕ → K => ∀ i, i < c.e.n → d' i = d i) (initD c.e s) (initD c.e s') := by
  have h1 : (c.e.ids.all fun id => (rowAt s'.press s'.tstep none id).isSome) = c.e.ids.all fun id => (rowAt s.press s.tstep none id).isSome := by
    rw [Bool.eq_iff_iff]
    simp only [List.all_eq_true]
    constructor <;> intro H id hid
    · rw [← h.pressRow hid]; exact H id hid
    · rw [h.pressRow hid]; exact H id hid
  unfold initD
  rw [h1]
  split_ifs
  · intro i hi
    dsimp only
    have := h.pressRow (at_mem c.e hi)
    unfold Env.at at this
    rw [this]
  · intro _; rfl
  · intro i _; rfl

/-- A linear solver that only looks at the first `n` entries of the right-hand side. -/
def Local (lin : LinSolver K) : Prop := ∀ n A d d', (∀ i, i < n → d' i = d i) → lin n A d' = lin n A d

lemma vReady_alike {c : Ctx K} {m m' : Mdl K} {s s' : Sol K} (h : Alike c true m m' s s') : vReady c.lower c.e m' s' = vReady c.lower c.e m s := by
  have h1 : vBound c.lower c.e m' = vBound c.lower c.e m := by
    funext acc idb
    unfold vBound
    simp only [bTerm_same h.bd]
  unfold vReady
  rw [h1, h.up rfl, h.vA, h.tstep, h.bV, h.resolve]

lemma bind_pure' {α β : Type} (v : α) (f : α → Except Err β) : ((pure v : Except Err α) >>= f) = f v := rfl

/-- Accumulators of the two loops over wells. -/
def VLike (n : ℕ) (a b : VAcc K) : Prop := b.A = a.A ∧ (∀ i, i < n → b.d i = a.d i) ∧ b.resolve = a.resolve ∧ b.updateZ = a.updateZ

lemma subEntry_like {n : ℕ} {d d' : ℕ → K} (h : ∀ i, i < n → d' i = d i) (k : ℕ) (v : K) : ∀ i, i < n → subEntry d' k v i = subEntry d k v i := by
  intro i hi
  unfold subEntry
  rw [h i hi]

lemma vWell_alike {c : Ctx K} {m m' : Mdl K} {s s' : Sol K} (h : Alike c true m m' s s') {a b : VAcc K} (hab : VLike c.e.n a b) {x : ℕ × Well K} (hx : x ∈ m.wells) :
    ERel true (VLike c.e.n) (vWell c.e s a x) (vWell c.e s' b x) := by
  obtain ⟨id, w⟩ := x
  have hid : id ∈ c.e.ids := h.wmem _ hx
  obtain ⟨h1, h2, h3, h4⟩ := hab
  unfold vWell
  dsimp only
  rw [h.pressRow hid]
  split
  · refine ERel.bind (ERel.refl (R := fun x y => y = x) _ fun _ _ => rfl) ?_
    rintro _ t rfl
    refine ERel.bind (ERel.refl (R := fun x y => y = x) _ fun _ _ => rfl) ?_
    rintro _ i rfl
    exact ⟨h1, subEntry_like h2 _ _, h3, rfl⟩
  · refine ERel.bind (ERel.refl (R := fun x y => y = x) _ fun _ _ => rfl) ?_
    rintro _ t rfl
    split
    · rw [bind_pure', bind_pure']
      refine ERel.bind (ERel.refl (R := fun x y => y = x) _ fun _ _ => rfl) ?_
      rintro _ i rfl
      refine ⟨?_, subEntry_like h2 _ _, ?_, h4⟩
      · dsimp only; rw [h1, h3]
      · dsimp only; rw [h3]
    · rw [bind_pure', bind_pure']
      refine ERel.bind (ERel.refl (R := fun x y => y = x) _ fun _ _ => rfl) ?_
      rintro _ i rfl
      refine ⟨?_, subEntry_like h2 _ _, ?_, h4⟩
      · dsimp only; rw [h1, h3]
      · dsimp only; rw [h3]
    · intro _; rfl
  · exact ⟨h1, h2, h3, h4⟩

lemma vect_alike {c : Ctx K} {m m' : Mdl K} {s s' : Sol K} (h : Alike c true m m' s s') :
    ERel true (fun x y => Alike c true m m' x.1 y.1 ∧ y.2.1 = x.2.1 ∧ ∀ i, i < c.e.n → y.2.2 i = x.2.2 i) (matricesVect c.lower c.e m s) (matricesVect c.lower c.e m' s') := by
  unfold matricesVect
  rw [vReady_alike h, h.wells]
  refine ERel.bind (ERel.refl (R := fun x y => y = x) _ fun _ _ => rfl) ?_
  rintro ⟨A, bV, res⟩ _ rfl
  dsimp only
  refine ERel.bind (initD_alike h) ?_
  intro d d' hd
  refine ERel.bind (R := VLike c.e.n) ?_ ?_
  · exact ERel.foldlM (Q := fun x y => y = x ∧ x ∈ m.wells) (forall2_self fun x hx => ⟨rfl, hx⟩) ⟨rfl, hd, rfl, rfl⟩
      (by rintro a b hab x _ ⟨rfl, hx⟩; exact vWell_alike h hab hx)
  · rintro a b ⟨h1, h2, h3, h4⟩
    refine ERel.bind (R := fun d d' : ℕ → K => ∀ i, i < c.e.n → d' i = d i) ?_ ?_
    · have hbd : List.Forall₂ (fun x y => SameCond c.lower true x y ∧ x ∈ m.bdict) m.bdict m'.bdict := by
        have := h.bd
        generalize m'.bdict = b' at this
        have key : ∀ {l : List (ℕ × String × K)} {l'}, List.Forall₂ (SameCond c.lower true) l l' → ∀ {L : List (ℕ × String × K)}, (∀ x, x ∈ l → x ∈ L) →
            List.Forall₂ (fun x y => SameCond c.lower true x y ∧ x ∈ L) l l' := by
          intro l l' hl
          induction hl with
          | nil => intro _ _; exact .nil
          | cons hx _ ih => intro L hL; exact .cons ⟨hx, hL _ (by simp)⟩ (ih fun y hy => hL y (by simp [hy]))
        exact key this fun _ hx => hx
      refine ERel.foldlM hbd h2 ?_
      rintro d d' hd x y ⟨⟨e1, e2, e3, e4⟩, hx⟩
      unfold vBd
      rw [e1, h.rateRow rfl (List.mem_map_of_mem hx)]
      refine ERel.bind (ERel.refl (R := fun x y => y = x) _ fun _ _ => rfl) ?_
      rintro _ N rfl
      split
      · exact hd
      · refine ERel.bind (ERel.refl (R := fun x y => y = x) _ fun _ _ => rfl) ?_
        rintro _ i rfl
        by_cases hp : x.2.1 = "pressure"
        · rw [if_pos hp, if_pos ((e4 rfl).2 hp)]
          refine ERel.bind (ERel.refl (R := fun x y => y = x) _ fun _ _ => rfl) ?_
          rintro _ v rfl
          exact subEntry_like hd _ _
        · rw [if_neg hp, if_neg fun h => hp ((e4 rfl).1 h)]
          exact subEntry_like hd _ _
    · intro d d' hd
      refine ⟨⟨h.wells, h.wPress, h.terms, h.up, h.bd, h.wmem, h.umem, h.umem', h.tstep, h.press, h.rates, ?_, rfl, h3, h.sM⟩, h1, ?_⟩
      · dsimp only; rw [h1]
      · dsimp only
        rw [h4]
        split_ifs
        · intro i hi
          unfold updateZ
          dsimp only
          split_ifs <;> simp only [hd i hi]
        · exact hd

lemma assemble_alike {c : Ctx K} {strict vect : Bool} (hv : strict = true ∨ vect = false) {m m' : Mdl K} {s s' : Sol K} (h : Alike c strict m m' s s') :
    ERel strict (fun x y => Alike c strict x.1 y.1 x.2.1 y.2.1 ∧ y.2.2.1 = x.2.2.1 ∧ ∀ i, i < c.e.n → y.2.2.2 i = x.2.2.2 i) (assemble c vect m s) (assemble c vect m' s') := by
  unfold assemble
  cases vect with
  | true =>
    have hs : strict = true := by simpa using hv
    subst hs
    rw [if_pos rfl, if_pos rfl]
    refine ERel.bind (vect_alike h) ?_
    rintro ⟨s1, A1, d1⟩ ⟨s2, A2, d2⟩ ⟨h1, h2, h3⟩
    exact ⟨h1, h2, h3⟩
  | false =>
    simp only [Bool.false_eq_true, if_false]
    have := symb_alike h
    revert this
    cases matricesSymb c.lower c.scale c.e m s <;> cases matricesSymb c.lower c.scale c.e m' s'
    · exact id
    · exact id
    · exact id
    · rintro ⟨h1, h2⟩
      exact ⟨h1, by rw [h2], fun i _ => by rw [h2]⟩

lemma updateWells_ext {e : Env K} {p p' : ℕ → Option K} {l : List (ℕ × Well K)} (hp : ∀ x, x ∈ l → p' x.1 = p x.1) {S : ℕ → Prop} {r r' : ℕ → K} (hr : ∀ id, S id → r' id = r id) {strict : Bool} :
    ERel strict (fun x y => y.1 = x.1 ∧ (∀ id, S id → y.2.1 id = x.2.1 id) ∧ y.2.2 = x.2.2) (updateWells e p l r) (updateWells e p' l r') := by
  induction l generalizing r r' with
  | nil => exact ⟨rfl, hr, rfl⟩
  | cons x t ih =>
    obtain ⟨id, w⟩ := x
    unfold updateWells
    rw [hp (id, w) (by simp)]
    refine ERel.bind (ERel.refl (R := fun x y => y = x) _ fun _ _ => rfl) ?_
    rintro ⟨w1, q, pwf, ag⟩ _ rfl
    dsimp only
    have hr' : ∀ k, S k → Function.update r' id q k = Function.update r id q k := by
      intro k hk
      by_cases h : k = id
      · subst h; simp
      · rw [Function.update_of_ne h, Function.update_of_ne h]; exact hr k hk
    split_ifs
    · exact ⟨rfl, hr', rfl⟩
    · refine ERel.bind (ih (fun x hx => hp x (by simp [hx])) hr') ?_
      rintro ⟨t1, r1, ps1, a1⟩ ⟨t2, r2, ps2, a2⟩ ⟨h1, h2, h3⟩
      simp only [Prod.mk.injEq] at h1 h2 h3
      obtain ⟨rfl, rfl⟩ := h3
      subst h1
      exact ⟨rfl, h2, rfl⟩

lemma updateWells_keys' {e : Env K} {p : ℕ → Option K} {l : List (ℕ × Well K)} {r : ℕ → K} {x : List (ℕ × Well K) × (ℕ → K) × List (ℕ × K) × Bool} (h : updateWells e p l r = .ok x) :
    x.1.map (·.1) = l.map (·.1) := by
  induction l generalizing r x with
  | nil =>
    simp only [updateWells, Except.ok.injEq] at h
    subst h; rfl
  | cons y t ih =>
    obtain ⟨id, w⟩ := y
    unfold updateWells at h
    rw [ok_bind] at h
    obtain ⟨⟨w1, q, pwf, ag⟩, -, h⟩ := h
    dsimp only at h
    split_ifs at h
    · simp only [ok_pure] at h
      subst h; rfl
    · rw [ok_bind] at h
      obtain ⟨⟨t1, r1, ps, ag⟩, h1, h⟩ := h
      simp only [ok_pure] at h
      subst h
      have := ih h1
      dsimp only at this
      simp [this]

lemma bnd_target {e : Env K} (he : e.WF) {b id : ℕ} {T : K} (hb : b ∈ e.bnd) (h : e.transC b false = .ok [(id, T)]) : id ∈ e.ids := by
  rcases he.face b hb with h' | ⟨id', T', hid, -, h'⟩
  · rw [h] at h'; simp at h'
  · rw [show e.transC b false = .ok [(id', T')] from h'] at h
    simp only [Except.ok.injEq, List.cons.injEq, Prod.mk.injEq, and_true] at h
    exact h.1 ▸ hid

lemma bounds_outside {lower : String → String} {e : Env K} {m : Mdl K} (he : e.WF) (hu : ∀ b, b ∈ m.bUpdate → b ∈ e.bnd) {p : ℕ → Option K} {r r1 : ℕ → K} (h : updateBounds lower e m p r = .ok r1) :
    ∀ id, id ∈ e.ids → r1 id = r id := by
  unfold updateBounds at h
  generalize m.bUpdate = l at h hu
  induction l generalizing r with
  | nil =>
    simp only [List.foldlM_nil, ok_pure] at h
    intro id _; rw [h]
  | cons b l ih =>
    rw [List.foldlM_cons, ok_bind] at h
    obtain ⟨r2, h1, h⟩ := h
    intro id hid
    rw [ih h (fun b hb => hu b (by simp [hb])) id hid]
    rw [ok_bind] at h1
    obtain ⟨l1, -, h1⟩ := h1
    split at h1
    · simp only [ok_pure] at h1
      rw [← h1, Function.update_of_ne]
      intro hid'
      subst hid'
      exact he.disj _ (hu _ (by simp)) hid
    · simp at h1

lemma bounds_alike {c : Ctx K} (he : c.e.WF) {strict : Bool} {m m' : Mdl K} {s s' : Sol K} (h : Alike c strict m m' s s') {p p' : ℕ → Option K} (hp : ∀ id, id ∈ c.e.ids → p' id = p id)
    {r r' : ℕ → K} (hr : ∀ id, id ∈ c.e.ids ∨ (strict = true ∧ id ∈ m.bdict.map (·.1)) → r' id = r id) :
    ERel strict (fun r r' : ℕ → K => ∀ id, id ∈ c.e.ids ∨ (strict = true ∧ id ∈ m.bdict.map (·.1)) → r' id = r id) (updateBounds c.lower c.e m p r) (updateBounds c.lower c.e m' p' r') := by
  cases strict with
  | true =>
    unfold updateBounds
    rw [h.up rfl]
    refine ERel.foldlM (Q := fun x y => y = x ∧ x ∈ m.bUpdate) (forall2_self fun x hx => ⟨rfl, hx⟩) hr ?_
    rintro r r' hr _ b ⟨rfl, hb⟩
    refine ERel.bind (R := fun x y => y = x ∧ c.e.transC b false = .ok x) (ERel.refl _ fun _ h => ⟨rfl, h⟩) ?_
    rintro l _ ⟨rfl, hl⟩
    split
    · rename_i id T
      have hid := bnd_target he (h.umem _ hb) hl
      intro k hk
      rw [bTerm_same h.bd, hp id hid]
      by_cases hkb : k = b
      · subst hkb; simp
      · rw [Function.update_of_ne hkb, Function.update_of_ne hkb]; exact hr k hk
    · intro _; rfl
  | false =>
    cases h1 : updateBounds c.lower c.e m p r <;> cases h2 : updateBounds c.lower c.e m' p' r'
    · intro h; simp at h
    · rfl
    · rfl
    · intro id hid
      have hid' : id ∈ c.e.ids := by simpa using hid
      rw [bounds_outside he h.umem h1 id hid', bounds_outside he h.umem' h2 id hid']
      exact hr id hid

theorem attempt_alike {c : Ctx K} (he : c.e.WF) {strict vect : Bool} (hv : strict = true ∨ vect = false) (hl : Local c.lin) {m m' : Mdl K} {s s' : Sol K} (h : Alike c strict m m' s s') :
    ERel strict (fun x y => Alike c strict x.1 y.1 x.2.1 y.2.1 ∧ y.2.2 = x.2.2) (attempt c vect m s) (attempt c vect m' s') := by
  unfold attempt
  refine ERel.bind (assemble_alike hv h) ?_
  rintro ⟨m1, s1, A, d⟩ ⟨m2, s2, A', d'⟩ ⟨ha, hA, hd⟩
  dsimp only at ha hA hd ⊢
  subst hA
  rw [hl _ _ _ _ hd]
  refine ERel.bind (ERel.refl (R := fun x y => y = x) _ fun _ _ => rfl) ?_
  rintro _ x rfl
  have hp : ∀ id, id ∈ c.e.ids → newRow c.e.ids (lastRow s2.press none) x id = newRow c.e.ids (lastRow s1.press none) x id := by
    intro id hid
    unfold newRow
    rw [if_pos hid, if_pos hid]
  refine ERel.bind (bounds_alike he ha hp (forall2_last (Q := fun r r' : ℕ → K => ∀ id, id ∈ c.e.ids ∨ (strict = true ∧ id ∈ m1.bdict.map (·.1)) → r' id = r id) ha.rates 0 (fun _ _ => rfl))) ?_
  intro r r' hr
  rw [ha.wells]
  refine ERel.bind (R := fun x y => (y.1 = x.1 ∧ (∀ id, id ∈ c.e.ids ∨ (strict = true ∧ id ∈ m1.bdict.map (·.1)) → y.2.1 id = x.2.1 id) ∧ y.2.2 = x.2.2) ∧ x.1.map (·.1) = m1.wells.map (·.1))
    (ERel.and_left (updateWells_ext (S := fun id => id ∈ c.e.ids ∨ (strict = true ∧ id ∈ m1.bdict.map (·.1))) (fun x hx => hp _ (ha.wmem x hx)) hr) fun _ h => updateWells_keys' h) ?_
  rintro ⟨ws, r1, ps, ag⟩ ⟨ws', r1', ps', ag'⟩ ⟨⟨h1, h2, h3⟩, hk⟩
  simp only [Prod.mk.injEq] at h1 h2 h3
  obtain ⟨rfl, rfl⟩ := h3
  subst h1
  refine ⟨⟨rfl, ?_, ha.terms, ha.up, ha.bd, ?_, ha.umem, ha.umem', ?_, ?_, ?_, ha.vA, ha.bV, ha.resolve, ha.sM⟩, rfl⟩
  · dsimp only; rw [ha.wPress]
  · intro x hx
    dsimp only at hx hk
    have : x.1 ∈ m1.wells.map (·.1) := hk ▸ List.mem_map_of_mem hx
    obtain ⟨y, hy, hxy⟩ := List.mem_map.1 this
    exact hxy ▸ ha.wmem y hy
  · dsimp only; rw [ha.tstep]
  · exact List.rel_append (R := fun p p' : ℕ → Option K => ∀ id, id ∈ c.e.ids → p' id = p id) ha.press (.cons hp .nil)
  · exact List.rel_append (R := fun r r' : ℕ → K => ∀ id, id ∈ c.e.ids ∨ (strict = true ∧ id ∈ m1.bdict.map (·.1)) → r' id = r id) ha.rates (.cons h2 .nil)

lemma Alike.back {c : Ctx K} {strict : Bool} {m m' : Mdl K} {s s' : Sol K} (h : Alike c strict m m' s s') : Alike c strict m m' s.back s'.back := by
  refine ⟨h.wells, h.wPress, h.terms, h.up, h.bd, h.wmem, h.umem, h.umem', ?_, ?_, ?_, h.vA, h.bV, h.resolve, h.sM⟩
  · unfold Sol.back; dsimp only; rw [h.tstep]
  · unfold Sol.back; dsimp only; rw [h.tstep]; exact List.forall₂_take _ h.press
  · unfold Sol.back; dsimp only; rw [h.tstep]; exact List.forall₂_take _ h.rates

theorem solve_alike {c : Ctx K} (he : c.e.WF) {strict vect : Bool} (hv : strict = true ∨ vect = false) (hl : Local c.lin) (upd : Bool) (fuel : ℕ) {m m' : Mdl K} {s s' : Sol K} (h : Alike c strict m m' s s') :
    ERel strict (fun x y => Alike c strict x.1 y.1 x.2 y.2) (solve c fuel vect upd m s) (solve c fuel vect upd m' s') := by
  induction fuel generalizing m m' s s' upd with
  | zero => intro _; rfl
  | succ fuel ih =>
    unfold solve
    cases upd with
    | true =>
      rw [if_pos rfl, if_pos rfl]
      refine ERel.bind (attempt_alike he hv hl h) ?_
      rintro ⟨m1, s1, a1⟩ ⟨m2, s2, a2⟩ ⟨h1, h2⟩
      dsimp only at h1 h2 ⊢
      subst h2
      split_ifs
      · exact ih true h1.back
      · exact h1
    | false =>
      simp only [Bool.false_eq_true, if_false]
      refine ERel.bind (assemble_alike hv h) ?_
      rintro ⟨m1, s1, A, d⟩ ⟨m2, s2, A', d'⟩ ⟨ha, hA, hd⟩
      dsimp only at ha hA hd ⊢
      subst hA
      rw [hl _ _ _ _ hd]
      refine ERel.bind (ERel.refl (R := fun x y => y = x) _ fun _ _ => rfl) ?_
      rintro _ x rfl
      exact ha

/-- What two simulations report for the reservoir is the same: as many rows, the same pressures and rates of the cells of the
reservoir in each, the same wells and bottom-hole pressures. -/
structure SameReports (e : Env K) (m m' : Mdl K) (s s' : Sol K) : Prop where
  tstep : s'.tstep = s.tstep
  rows : s'.press.length = s.press.length ∧ s'.rates.length = s.rates.length
  press : ∀ t id, id ∈ e.ids → rowAt s'.press t none id = rowAt s.press t none id
  rates : ∀ t id, id ∈ e.ids → rowAt s'.rates t 0 id = rowAt s.rates t 0 id
  wells : m'.wells = m.wells
  wPress : m'.wPress = m.wPress

lemma Alike.reports {c : Ctx K} {strict : Bool} {m m' : Mdl K} {s s' : Sol K} (h : Alike c strict m m' s s') : SameReports c.e m m' s s' :=
  ⟨h.tstep, ⟨h.press.length_eq.symm, h.rates.length_eq.symm⟩,
    fun t => forall2_row (Q := fun p p' : ℕ → Option K => ∀ id, id ∈ c.e.ids → p' id = p id) h.press none (fun _ _ => rfl) t,
    fun t id hid => forall2_row (Q := fun r r' : ℕ → K => ∀ id, id ∈ c.e.ids ∨ (strict = true ∧ id ∈ m.bdict.map (·.1)) → r' id = r id) h.rates 0 (fun _ _ => rfl) t id (.inl hid), h.wells, h.wPress⟩

theorem runLoop_alike {c : Ctx K} (he : c.e.WF) {strict vect : Bool} (hv : strict = true ∨ vect = false) (hl : Local c.lin) (fuel n : ℕ) {m m' : Mdl K} {s s' : Sol K} (h : Alike c strict m m' s s') :
    (strict = true → (runLoop c fuel vect n m' s').2 = (runLoop c fuel vect n m s).2) ∧
    (strict = true ∨ ((runLoop c fuel vect n m s).2 = .ok () ∧ (runLoop c fuel vect n m' s').2 = .ok ()) →
      Alike c strict (runLoop c fuel vect n m s).1.1 (runLoop c fuel vect n m' s').1.1 (runLoop c fuel vect n m s).1.2 (runLoop c fuel vect n m' s').1.2) := by
  induction n generalizing m m' s s' with
  | zero => exact ⟨fun _ => rfl, fun _ => h⟩
  | succ n ih =>
    have hs := solve_alike he hv hl true fuel h
    unfold runLoop
    revert hs
    cases solve c fuel vect true m s <;> cases solve c fuel vect true m' s' <;> intro hs
    · refine ⟨fun hst => ?_, fun hst => ?_⟩
      · dsimp only; rw [show _ = _ from hs hst]
      · exact h
    · have hst : strict = false := hs
      subst hst
      refine ⟨fun hst => by simp at hst, fun hst => ?_⟩
      rcases hst with hst | ⟨hst, -⟩
      · simp at hst
      · dsimp only at hst; simp at hst
    · have hst : strict = false := hs
      subst hst
      refine ⟨fun hst => by simp at hst, fun hst => ?_⟩
      rcases hst with hst | ⟨-, hst⟩
      · simp at hst
      · dsimp only at hst; simp at hst
    · exact ih hs

theorem run_alike {c : Ctx K} (he : c.e.WF) {strict vect : Bool} (hv : strict = true ∨ vect = false) (hl : Local c.lin) (fuel n : ℕ) (t t' : K) {m m' : Mdl K} {s s' : Sol K} (h : Alike c strict m m' s s') :
    (strict = true → (run c fuel vect n t' m' s').2 = (run c fuel vect n t m s).2) ∧
    (strict = true ∨ ((run c fuel vect n t m s).2 = .ok () ∧ (run c fuel vect n t' m' s').2 = .ok ()) →
      Alike c strict (run c fuel vect n t m s).1.1 (run c fuel vect n t' m' s').1.1 (run c fuel vect n t m s).1.2 (run c fuel vect n t' m' s').1.2) := by
  have h0 : Alike c strict m m' { s with nsteps := s.nsteps + n } { s' with nsteps := s'.nsteps + n } :=
    ⟨h.wells, h.wPress, h.terms, h.up, h.bd, h.wmem, h.umem, h.umem', h.tstep, h.press, h.rates, h.vA, h.bV, h.resolve, h.sM⟩
  obtain ⟨h1, h2⟩ := runLoop_alike he hv hl fuel n h0
  unfold run
  revert h1 h2
  generalize runLoop c fuel vect n m { s with nsteps := s.nsteps + n } = x
  generalize runLoop c fuel vect n m' { s' with nsteps := s'.nsteps + n } = y
  obtain ⟨⟨m1, s1⟩, r1⟩ := x
  obtain ⟨⟨m2, s2⟩, r2⟩ := y
  intro h1 h2
  dsimp only at h1 h2
  cases r1 <;> cases r2
  · exact ⟨h1, h2⟩
  · refine ⟨fun hs => by have := h1 hs; simp at this, fun hs => ?_⟩
    rcases hs with hs | hs
    · have := h1 hs; simp at this
    · simp at hs
  · refine ⟨fun hs => by have := h1 hs; simp at this, fun hs => ?_⟩
    rcases hs with hs | hs
    · have := h1 hs; simp at this
    · simp at hs
  · refine ⟨fun _ => rfl, fun hs => ?_⟩
    have h3 := h2 (.inr ⟨rfl, rfl⟩)
    exact ⟨h3.wells, h3.wPress, h3.terms, h3.up, h3.bd, h3.wmem, h3.umem, h3.umem', h3.tstep, h3.press, h3.rates, h3.vA, h3.bV, h3.resolve, h3.sM⟩

end
end RF.Fdm
