import Verif.Fdm.Heap
/-!
# Well objects shared with models (C84)
-/
set_option linter.unusedSectionVars false
namespace RF.Fdm
open RF RF.Dims

variable {K : Type} [Field K] [LinearOrder K] [IsStrictOrderedRing K]

/-! ## Specification -/

/-- The object that a dictionary came from. -/
def Well.obj (w : Well K) : WellObj K := { q := w.q, s := w.s, r := w.r, con := w.con }

/-- Objects are placed at most once: the object exists, no model has it, and it never was in one (it has none of the entries a model adds). -/
def Once (w : World K) : HEvent K → Prop
  | .place _ _ o => o < w.next ∧ w.heap o = (w.heap o).obj.dict ∧ ∀ j x, x ∈ (w.site j).refs → x.2 ≠ o
  | _ => True

/-- New models without wells and without solutions, and no objects. -/
def Empty (w : World K) : Prop := w.next = 0 ∧ ∀ i, (w.site i).refs = [] ∧ (w.site i).s = none

/-- The worlds in which every object was placed at most once. -/
inductive Reach (cs : ℕ → Ctx K) (fuel : ℕ) : World K → Prop
  | start {w} (h : Empty w) : Reach cs fuel w
  | next {w ev} (h : Reach cs fuel w) (hev : Once w ev) : Reach cs fuel (w.exec cs fuel ev).1

/-- The model a call is addressed to. -/
def HEvent.model : HEvent K → Option ℕ
  | .create _ | .assign _ _ => none
  | .place i _ _ | .keys i _ _ | .bounds i _ | .compile i | .step i _ => some i

/-! ## References and values -/

lemma lookH_get (h : ℕ → Well K) (refs : List (ℕ × ℕ)) (id : ℕ) : dictGet (look h refs) id = (dictGet refs id).map h := by
  unfold look
  induction refs with
  | nil => rfl
  | cons x l ih =>
    obtain ⟨k, o⟩ := x
    rw [List.map_cons, dictGet_cons, dictGet_cons, ih]
    split_ifs <;> rfl

lemma lookH_other {h : ℕ → Well K} {refs : List (ℕ × ℕ)} {o : ℕ} (ho : ∀ x, x ∈ refs → x.2 ≠ o) (v : Well K) : look (Function.update h o v) refs = look h refs := by
  unfold look
  refine List.map_congr_left fun x hx => ?_
  rw [Function.update_of_ne (ho x hx)]

lemma lookH_same {h h' : ℕ → Well K} {refs : List (ℕ × ℕ)} (hh : ∀ x, x ∈ refs → h' x.2 = h x.2) : look h' refs = look h refs := by
  unfold look
  exact List.map_congr_left fun x hx => by rw [hh x hx]

lemma lookH_set {h : ℕ → Well K} {refs : List (ℕ × ℕ)} {id o : ℕ} (ho : ∀ x, x ∈ refs → x.2 = o → x.1 = id) (v : Well K) :
    look (Function.update h o v) (dictSet refs id o) = dictSet (look h refs) id v := by
  have e1 : ((look h refs).any fun e => decide (e.1 = id)) = refs.any fun e => decide (e.1 = id) := by
    unfold look; rw [List.any_map]; rfl
  unfold dictSet
  rw [e1]
  split_ifs with ha
  · unfold look
    rw [List.map_map, List.map_map]
    refine List.map_congr_left fun x hx => ?_
    dsimp only [Function.comp]
    by_cases hk : x.1 = id
    · rw [if_pos hk, if_pos hk, Function.update_self]
    · rw [if_neg hk, if_neg hk, Function.update_of_ne fun he => hk (ho x hx he)]
  · have hn : ∀ x, x ∈ refs → x.2 ≠ o := fun x hx he => ha (List.any_eq_true.2 ⟨x, hx, decide_eq_true (ho x hx he)⟩)
    unfold look
    rw [List.map_append]
    congr 1
    · exact lookH_other hn v
    · rw [List.map_cons, List.map_nil, Function.update_self]

lemma lookH_keys (h : ℕ → Well K) (refs : List (ℕ × ℕ)) : (look h refs).map (·.1) = refs.map (·.1) := by
  unfold look; rw [List.map_map]; rfl

lemma finishWell_wells (e : Env K) (m : Mdl K) (s : Option (Sol K)) (id : ℕ) (w : Well K) : ∃ w', (finishWell e m s id w).1.wells = dictSet m.wells id w' := by
  unfold finishWell
  split
  · exact ⟨_, rfl⟩
  · dsimp only
    split
    · exact ⟨_, rfl⟩
    · split
      · exact ⟨_, rfl⟩
      · split
        · exact ⟨_, rfl⟩
        · exact ⟨_, rfl⟩

lemma setWell_wells (e : Env K) (m : Mdl K) (s : Option (Sol K)) {id : ℕ} (hid : id ∈ e.ids) (a : WellArgs K) : ∃ w', (setWell e m s (some id) a).1.wells = dictSet m.wells id w' := by
  unfold setWell
  dsimp only
  rw [if_pos hid]
  obtain ⟨w', hw⟩ := finishWell_wells e (match a.pwf with | some _ => { m with wPress := appendAt m.wPress id (getPressure m s id) } | none => m) s id
    (mergeArgs ((dictGet m.wells id).getD {}) a)
  refine ⟨w', hw.trans ?_⟩
  rcases a.pwf <;> rfl

lemma setBoundary_wells (lower : String → String) (e : Env K) (m : Mdl K) (s : Option (Sol K)) (id : ℕ) (cond : String) (v : K) :
    (setBoundary lower e m s id cond v).1.1.wells = m.wells := by
  have h1 : ∀ v, (setRate m s id v).1.wells = m.wells := fun v => by
    unfold setRate
    split
    · rfl
    · split_ifs <;> rfl
  have h2 : (setPressure m s id v).1.wells = m.wells := by
    unfold setPressure
    split
    · rfl
    · split_ifs <;> rfl
  unfold setBoundary
  split_ifs
  · exact h1 v
  · exact h2
  · split
    · exact h1 _
    · rfl
  · rfl

lemma setBoundaries_wells (lower : String → String) (e : Env K) (m : Mdl K) (s : Option (Sol K)) (b : List (ℕ × String × K)) : (setBoundaries lower e m s b).1.1.wells = m.wells := by
  have loop : ∀ (l : List (ℕ × String × K)) (m : Mdl K) (s : Option (Sol K)), (setBoundaryLoop lower e m s l).1.1.wells = m.wells := by
    intro l
    induction l with
    | nil => intro m s; rfl
    | cons x l ih =>
      intro m s
      obtain ⟨id, cond, v⟩ := x
      unfold setBoundaryLoop
      have := setBoundary_wells lower e m s id cond v
      split_ifs
      · rcases hx : setBoundary lower e m s id cond v with ⟨⟨m1, s1⟩, y | ⟨⟩⟩
        · rw [hx] at this; exact this
        · rw [hx] at this; exact (ih m1 s1).trans this
      · rfl
  unfold setBoundaries
  have := loop b { m with bdict := b } s
  rcases hx : setBoundaryLoop lower e { m with bdict := b } s b with ⟨⟨m1, s1⟩, y | ⟨⟩⟩
  · rw [hx] at this; exact this
  · rw [hx] at this; exact this

/-! ### steps -/

/-- No two cells share a dictionary. -/
def Apart (refs : List (ℕ × ℕ)) : Prop := (refs.map (·.2)).Nodup

lemma updateWellsH_frame {e : Env K} {p : ℕ → Option K} {refs : List (ℕ × ℕ)} {h h' : ℕ → Well K} {r r' : ℕ → K} {ps : List (ℕ × K)} {again : Bool}
    (hh : updateWellsH e p refs h r = .ok (h', r', ps, again)) {o : ℕ} (ho : o ∉ refs.map (·.2)) : h' o = h o := by
  induction refs generalizing h r h' r' ps again with
  | nil => cases hh; rfl
  | cons x t ih =>
    obtain ⟨id, o1⟩ := x
    rw [List.map_cons, List.mem_cons, not_or] at ho
    unfold updateWellsH at hh
    rw [ok_bind] at hh
    obtain ⟨⟨w, q, pwf, ag⟩, h1, hh⟩ := hh
    dsimp only at hh
    split_ifs at hh
    · rw [ok_pure] at hh; cases hh
      exact Function.update_of_ne ho.1 _ _
    · rw [ok_bind] at hh
      obtain ⟨⟨h2, r2, ps2, ag2⟩, h3, hh⟩ := hh
      rw [ok_pure] at hh; cases hh
      exact (ih h3 ho.2).trans (Function.update_of_ne ho.1 _ _)

lemma updateWellsH_eq {e : Env K} {p : ℕ → Option K} {refs : List (ℕ × ℕ)} (ha : Apart refs) (h : ℕ → Well K) (r : ℕ → K) :
    updateWells e p (look h refs) r = (updateWellsH e p refs h r).map fun x => (look x.1 refs, x.2) := by
  induction refs generalizing h r with
  | nil => rfl
  | cons x t ih =>
    obtain ⟨id, o⟩ := x
    unfold Apart at ha
    rw [List.map_cons, List.nodup_cons] at ha
    have ht : ∀ x, x ∈ t → x.2 ≠ o := fun x hx he => ha.1 (List.mem_map.2 ⟨x, hx, he⟩)
    show updateWells e p ((id, h o) :: look h t) r = _
    unfold updateWells updateWellsH
    rcases hu : updateWell e ((p id).getD 0) (h o) with x | ⟨w, q, pwf, ag⟩
    · rfl
    · rw [bind_ok, bind_ok]
      dsimp only
      cases ag with
      | true =>
        rw [if_pos rfl, if_pos rfl]
        show Except.ok _ = Except.ok _
        congr 2
        show (id, w) :: look h t = (id, Function.update h o w o) :: look (Function.update h o w) t
        rw [Function.update_self, lookH_other ht]
      | false =>
        simp only [Bool.false_eq_true, if_false]
        have := ih ha.2 (Function.update h o w) (Function.update r id q)
        rw [lookH_other ht] at this
        rw [this]
        rcases hr : updateWellsH e p t (Function.update h o w) (Function.update r id q) with x | ⟨h', r', ps, ag⟩
        · rfl
        · show Except.ok _ = Except.ok _
          congr 2
          show (id, w) :: look h' t = (id, h' o) :: look h' t
          rw [updateWellsH_frame hr ha.1, Function.update_self]

lemma attemptH_eq (c : Ctx K) (vect : Bool) {refs : List (ℕ × ℕ)} (ha : Apart refs) (h : ℕ → Well K) (m : Mdl K) (s : Sol K) :
    attempt c vect { m with wells := look h refs } s = (attemptH c vect h refs m s).map fun x => x.2 := by
  unfold attempt attemptH
  rcases h1 : assemble c vect { m with wells := look h refs } s with x | ⟨m1, s1, A, d⟩
  · rfl
  obtain ⟨⟨ts, rfl⟩, vA, bV, res, sM, rfl⟩ := assemble_frame h1
  rw [bind_ok, bind_ok]
  dsimp only
  rcases c.lin c.e.n A d with x | x
  · rfl
  rw [bind_ok, bind_ok]
  rcases updateBounds c.lower c.e { m with wells := look h refs, terms := ts } (newRow c.e.ids (lastRow s.press none) x) (lastRow s.rates 0) with y | r
  · rfl
  rw [bind_ok, bind_ok, updateWellsH_eq ha]
  rcases updateWellsH c.e (newRow c.e.ids (lastRow s.press none) x) refs h r with y | ⟨h', r', ps, ag⟩
  · rfl
  · rfl

lemma attemptH_frame {c : Ctx K} {vect : Bool} {refs : List (ℕ × ℕ)} {h h' : ℕ → Well K} {m m' : Mdl K} {s s' : Sol K} {again : Bool}
    (ha : attemptH c vect h refs m s = .ok (h', m', s', again)) : m'.wells = look h' refs ∧ ∀ o, o ∉ refs.map (·.2) → h' o = h o := by
  unfold attemptH at ha
  rw [ok_bind] at ha
  obtain ⟨⟨m1, s1, A, d⟩, -, ha⟩ := ha
  dsimp only at ha
  rw [ok_bind] at ha
  obtain ⟨x, -, ha⟩ := ha
  rw [ok_bind] at ha
  obtain ⟨r, -, ha⟩ := ha
  rw [ok_bind] at ha
  obtain ⟨⟨h2, r2, ps, ag⟩, h3, ha⟩ := ha
  rw [ok_pure] at ha; cases ha
  exact ⟨rfl, fun o ho => updateWellsH_frame h3 ho⟩

lemma self_wells {m : Mdl K} {l : List (ℕ × Well K)} (h : m.wells = l) : { m with wells := l } = m := by subst h; rfl

lemma solveH_eq (c : Ctx K) (vect : Bool) {refs : List (ℕ × ℕ)} (ha : Apart refs) (fuel : ℕ) (h : ℕ → Well K) (m : Mdl K) (s : Sol K) :
    solve c fuel vect true { m with wells := look h refs } s = (solveH c fuel vect h refs m s).map fun x => x.2 := by
  induction fuel generalizing h m s with
  | zero => rfl
  | succ n ih =>
    unfold solve solveH
    rw [if_pos rfl, attemptH_eq c vect ha]
    rcases h1 : attemptH c vect h refs m s with x | ⟨h', m', s', ag⟩
    · rfl
    · show (if ag = true then solve c n vect true m' s'.back else pure (m', s')) = Except.map _ (if ag = true then solveH c n vect h' refs m' s'.back else pure (h', m', s'))
      cases ag with
      | true =>
        rw [if_pos rfl, if_pos rfl, ← ih, self_wells (attemptH_frame h1).1]
      | false => rfl

lemma solveH_frame {c : Ctx K} {vect : Bool} {refs : List (ℕ × ℕ)} {fuel : ℕ} {h h' : ℕ → Well K} {m m' : Mdl K} {s s' : Sol K}
    (ha : solveH c fuel vect h refs m s = .ok (h', m', s')) : m'.wells = look h' refs ∧ ∀ o, o ∉ refs.map (·.2) → h' o = h o := by
  induction fuel generalizing h m s with
  | zero => cases ha
  | succ n ih =>
    unfold solveH at ha
    rw [ok_bind] at ha
    obtain ⟨⟨h1, m1, s1, ag⟩, h2, ha⟩ := ha
    obtain ⟨f1, f2⟩ := attemptH_frame h2
    dsimp only at ha
    split_ifs at ha
    · obtain ⟨g1, g2⟩ := ih ha
      exact ⟨g1, fun o ho => (g2 o ho).trans (f2 o ho)⟩
    · rw [ok_pure] at ha; cases ha
      exact ⟨f1, f2⟩

/-! ### the invariant -/

/-- Every dictionary belongs to one cell of one model. -/
structure Alone (w : World K) : Prop where
  keys : ∀ i, ((w.site i).refs.map (·.1)).Nodup
  once : ∀ i j x y, x ∈ (w.site i).refs → y ∈ (w.site j).refs → x.2 = y.2 → i = j ∧ x.1 = y.1
  old : ∀ i x, x ∈ (w.site i).refs → x.2 < w.next

lemma Alone.apart {w : World K} (h : Alone w) (i : ℕ) : Apart (w.site i).refs := by
  unfold Apart
  have hn : (w.site i).refs.Nodup := List.Nodup.of_map _ (h.keys i)
  exact hn.map_on fun x hx y hy he => Prod.ext (h.once i i x y hx hy he).2 he

lemma Alone.set {w : World K} (h : Alone w) (i id o : ℕ) {w' : World K} (hs : ∀ j, (w'.site j).refs = if j = i then dictSet (w.site i).refs id o else (w.site j).refs)
    (hn : w.next ≤ w'.next) (ho : o < w'.next) (hf : ∀ j x, x ∈ (w.site j).refs → x.2 = o → j = i ∧ x.1 = id) : Alone w' := by
  have hx : ∀ j x, x ∈ (w'.site j).refs → (j = i ∧ x = (id, o)) ∨ (x ∈ (w.site j).refs ∧ ¬ (j = i ∧ x.1 = id)) := by
    intro j x hx
    rw [hs] at hx
    split_ifs at hx with hj
    · rcases (dictSet_keys _ _ _ (h.keys i)).2 x hx with rfl | ⟨h1, h2⟩
      · exact .inl ⟨hj, rfl⟩
      · exact .inr ⟨hj ▸ h1, fun H => h2 H.2⟩
    · exact .inr ⟨hx, fun H => hj H.1⟩
  refine ⟨fun j => ?_, fun j k x y h1 h2 he => ?_, fun j x h1 => ?_⟩
  · rw [hs]
    split_ifs
    · exact (dictSet_keys _ _ _ (h.keys i)).1
    · exact h.keys j
  · rcases hx j x h1 with ⟨rfl, rfl⟩ | ⟨h1, n1⟩ <;> rcases hx k y h2 with ⟨rfl, rfl⟩ | ⟨h2, n2⟩
    · exact ⟨rfl, rfl⟩
    · exact absurd (hf k y h2 he.symm) n2
    · exact absurd (hf j x h1 he) n1
    · exact h.once j k x y h1 h2 he
  · rcases hx j x h1 with ⟨-, rfl⟩ | ⟨h1, -⟩
    · exact ho
    · exact (h.old j x h1).trans_le hn

lemma Alone.same {w w' : World K} (h : Alone w) (hs : ∀ j, (w'.site j).refs = (w.site j).refs) (hn : w.next ≤ w'.next) : Alone w' :=
  ⟨fun i => by rw [hs]; exact h.keys i, fun i j x y h1 h2 => by rw [hs] at h1 h2; exact h.once i j x y h1 h2, fun i x h1 => by rw [hs] at h1; exact (h.old i x h1).trans_le hn⟩

lemma site_update {f : ℕ → Site K} {i j : ℕ} {x : Site K} (P : Site K → List (ℕ × ℕ)) : P (Function.update f i x j) = if j = i then P x else P (f j) := by
  by_cases h : j = i
  · subst h; rw [Function.update_self, if_pos rfl]
  · rw [Function.update_of_ne h, if_neg h]

/-- The dictionary a keyword call changes belongs to its cell. -/
lemma Alone.mine {w : World K} (h : Alone w) (i id j : ℕ) {x : ℕ × ℕ} (hx : x ∈ (w.site j).refs) (he : x.2 = (dictGet (w.site i).refs id).getD w.next) : j = i ∧ x.1 = id := by
  rcases hg : dictGet (w.site i).refs id with _ | o
  · rw [hg] at he
    exact absurd (h.old j x hx) (by rw [he]; exact lt_irrefl _)
  · rw [hg] at he
    exact h.once j i x (id, o) hx (mem_of_dictGet hg) he

lemma Alone.exec {cs : ℕ → Ctx K} {fuel : ℕ} {w : World K} (h : Alone w) {ev : HEvent K} (hev : Once w ev) : Alone (w.exec cs fuel ev).1 := by
  cases ev with
  | create o => exact h.same (fun _ => rfl) (Nat.le_succ _)
  | assign o a => exact h.same (fun _ => rfl) le_rfl
  | place i id o =>
    unfold World.exec
    dsimp only
    split_ifs
    · exact h.set i id o (fun j => site_update Site.refs) le_rfl hev.1 fun j x hx he => absurd he (hev.2.2 j x hx)
    · exact h
  | keys i id a =>
    unfold World.exec
    dsimp only
    split_ifs with h1 h2
    · refine h.set i id _ (fun j => site_update Site.refs) le_rfl ?_ fun j x hx he => h.mine i id j hx he
      obtain ⟨o, ho⟩ := Option.isSome_iff_exists.1 h2
      show (dictGet (w.site i).refs id).getD w.next < w.next
      rw [ho]
      exact h.old i (id, o) (mem_of_dictGet ho)
    · refine h.set i id _ (fun j => site_update Site.refs) (Nat.le_succ _) ?_ fun j x hx he => h.mine i id j hx he
      show (dictGet (w.site i).refs id).getD w.next < w.next + 1
      rw [Option.not_isSome_iff_eq_none.1 h2]
      exact Nat.lt_succ_self _
    · exact h
  | bounds i b => exact h.same (fun j => (site_update Site.refs).trans (by split_ifs with hj <;> simp [hj, World.exec])) le_rfl
  | compile i => exact h.same (fun j => (site_update Site.refs).trans (by split_ifs with hj <;> simp [hj])) le_rfl
  | step i vect =>
    unfold World.exec
    dsimp only
    split
    · exact h
    · split
      · exact h
      · exact h.same (fun j => (site_update Site.refs).trans (by split_ifs with hj <;> simp [hj])) le_rfl

lemma Reach.alone {cs : ℕ → Ctx K} {fuel : ℕ} {w : World K} (h : Reach cs fuel w) : Alone w := by
  induction h with
  | start h => exact ⟨fun i => by rw [(h.2 i).1]; exact List.nodup_nil, fun i j x y hx => by rw [(h.2 i).1] at hx; simp at hx, fun i x hx => by rw [(h.2 i).1] at hx; simp at hx⟩
  | next h hev ih => exact ih.exec hev

/-! ## C84 -/

/-- **C84, objects placed once: the model itself.** In every world in which each object was placed at most once, `set_well(well=…)`, `set_well(…)`, `set_boundaries`, `compile` and `solve`
do to their model what they do when wells are values of the model's own, that is what the other properties describe. -/
theorem C84_alone_partial {cs : ℕ → Ctx K} {fuel : ℕ} {w : World K} (hw : Reach cs fuel w) :
    (∀ i id o, Once w (.place i id o) → ((w.exec cs fuel (.place i id o)).1.mdl i, (w.exec cs fuel (.place i id o)).2) =
      setWellObj (cs i).e (w.mdl i) (w.site i).s (some id) (w.heap o).obj) ∧
    (∀ i id a, ((w.exec cs fuel (.keys i id a)).1.mdl i, (w.exec cs fuel (.keys i id a)).2) = setWell (cs i).e (w.mdl i) (w.site i).s (some id) a) ∧
    (∀ i b, (((w.exec cs fuel (.bounds i b)).1.mdl i, ((w.exec cs fuel (.bounds i b)).1.site i).s), (w.exec cs fuel (.bounds i b)).2) =
      setBoundaries (cs i).lower (cs i).e (w.mdl i) (w.site i).s b) ∧
    (∀ i, (w.exec cs fuel (.compile i)).1.mdl i = w.mdl i ∧ ((w.exec cs fuel (.compile i)).1.site i).s = some (Sol.init (w.mdl i))) ∧
    ∀ i vect s, (w.site i).s = some s → match solve (cs i) fuel vect true (w.mdl i) s with
      | .ok (m', s') => (w.exec cs fuel (.step i vect)).1.mdl i = m' ∧ ((w.exec cs fuel (.step i vect)).1.site i).s = some s' ∧ (w.exec cs fuel (.step i vect)).2 = .ok ()
      | .error x => w.exec cs fuel (.step i vect) = (w, .error x) := by
  have h := hw.alone
  refine ⟨fun i id o hev => ?_, fun i id a => ?_, fun i b => ?_, fun i => ?_, fun i vect s hs => ?_⟩
  · unfold World.exec setWellObj
    dsimp only
    split_ifs with hid
    · rw [show ({ q := (w.heap o).obj.q, s := (w.heap o).obj.s, r := (w.heap o).obj.r, con := (w.heap o).obj.con } : Well K) = w.heap o from hev.2.1.symm]
      obtain ⟨w', hw'⟩ := finishWell_wells (cs i).e (w.mdl i) (w.site i).s id (w.heap o)
      refine Prod.ext ?_ rfl
      unfold World.mdl
      dsimp only
      rw [Function.update_self]
      dsimp only
      rw [lookH_set fun x hx he => absurd he (hev.2.2 i x hx)]
      refine self_wells (hw'.trans ?_)
      show dictSet (look _ _) id w' = dictSet (look _ _) id _
      change (finishWell (cs i).e (w.mdl i) (w.site i).s id (w.heap o)).1.wells = _ at hw'
      unfold World.mdl at hw'
      rw [hw', dictGet_set, if_pos rfl]; rfl
    · rfl
  · by_cases hid : id ∈ (cs i).e.ids
    · unfold World.exec
      dsimp only
      rw [if_pos hid]
      obtain ⟨w', hw'⟩ := setWell_wells (cs i).e (w.mdl i) (w.site i).s hid a
      refine Prod.ext ?_ rfl
      show ({ (Function.update w.site i _ i).m with wells := look (Function.update w.heap _ _) (Function.update w.site i _ i).refs } : Mdl K) = _
      rw [Function.update_self]
      dsimp only
      rw [lookH_set fun x hx he => (h.mine i id i hx he).2]
      refine self_wells (hw'.trans ?_)
      rw [hw', dictGet_set, if_pos rfl]; rfl
    · unfold World.exec setWell
      dsimp only
      rw [if_neg hid, if_neg hid]
  · refine Prod.ext (Prod.ext ?_ ?_) rfl
    · show ({ (Function.update w.site i _ i).m with wells := look w.heap (Function.update w.site i _ i).refs } : Mdl K) = _
      rw [Function.update_self]
      refine self_wells ?_
      exact setBoundaries_wells _ _ _ _ _
    · show (Function.update w.site i _ i).s = _
      rw [Function.update_self]
  · constructor
    · show ({ (Function.update w.site i _ i).m with wells := look w.heap (Function.update w.site i _ i).refs } : Mdl K) = _
      rw [Function.update_self]; rfl
    · show (Function.update w.site i _ i).s = _
      rw [Function.update_self]
  · have key := solveH_eq (cs i) vect (h.apart i) fuel w.heap (w.site i).m s
    rw [show ({ (w.site i).m with wells := look w.heap (w.site i).refs } : Mdl K) = w.mdl i from rfl] at key
    rw [key]
    unfold World.exec
    dsimp only
    rw [hs]
    dsimp only
    rcases hh : solveH (cs i) fuel vect w.heap (w.site i).refs (w.site i).m s with x | ⟨h', m', s'⟩
    · rfl
    · refine ⟨?_, ?_, rfl⟩
      · show ({ (Function.update w.site i _ i).m with wells := look h' (Function.update w.site i _ i).refs } : Mdl K) = _
        rw [Function.update_self]
        exact self_wells (solveH_frame hh).1
      · show (Function.update w.site i _ i).s = _
        rw [Function.update_self]

end RF.Fdm
