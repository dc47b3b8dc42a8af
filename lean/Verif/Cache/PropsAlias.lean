import Verif.Cache.Alias
import Verif.Cache.Props
import Mathlib.Tactic.IntervalCases
/-! # C90: what callers write into answers -/
namespace RF.Alias
variable {K : Type} [Field K]

/-- The references a grid holds, but for properties. -/
def Grid.Refs (x : Grid) (r : ℕ) : Prop := (∃ a, r = x.d a) ∨ (∃ a, r = x.A a) ∨ r = x.V ∨ r = x.ids

/-- The memory holds what a grid should show. -/
structure Holds (h : List (Arr K)) (x : Grid) (y : SGrid K) : Prop where
  g : x.g = y.g
  d : ∀ a, h[x.d a]? = some (.num (y.q.d a))
  A : ∀ a, h[x.A a]? = some (.num (y.q.A a))
  V : h[x.V]? = some (.num y.q.V)
  props : ∀ n, (x.props n = none ∧ y.p n = none) ∨ ∃ r l, x.props n = some r ∧ y.p n = some l ∧ h[r]? = some (.num l)
  ids : h[x.ids]? = some (.ids y.g.innerIds)

/-- The owner of an array: a grid, and for the array of a property, its name. -/
abbrev Owner := Option (ℕ × Option PName)

/-- Every array belongs to the grid that holds it or whose cached answer it is; copies belong to no grid. The arrays of grid `o` are as they should be. -/
structure Inv (own : ℕ → Owner) (o : ℕ) (w : World K) (s : List (SGrid K)) : Prop where
  len : w.grids.length = s.length
  mine : ∀ o' x, w.grids[o']? = some x → ∀ r, x.Refs r → own r = some (o', none) ∧ r < w.heap.length
  mineP : ∀ o' x, w.grids[o']? = some x → ∀ n r, x.props n = some r → own r = some (o', some n) ∧ r < w.heap.length
  kept : ∀ f e, e ∈ w.cache f → own e.2 = some (e.1.1, none) ∧ e.2 < w.heap.length ∧ e.1.1 < w.grids.length
  data : ∀ x y, w.grids[o]? = some x → s[o]? = some y → Holds w.heap x y
  right : ∀ f e, e ∈ w.cache f → e.1.1 = o → e.1.2.isProp = false ∧ ∀ y, s[o]? = some y → ∃ a, w.heap[e.2]? = some a ∧ y.answer e.1.2 = .ok a
  logged : ∀ (k : ℕ) L r, w.log[k]? = some L → L.ref = .ok r → r < w.heap.length ∧ own r = if L.query.isProp then none else some (L.obj, none)

lemma Holds.grow {h : List (Arr K)} {x : Grid} {y : SGrid K} (H : Holds h x y) (t : List (Arr K)) : Holds (h ++ t) x y := by
  have key : ∀ {r : ℕ} {a : Arr K}, h[r]? = some a → (h ++ t)[r]? = some a := fun {r a} hr => by
    rw [List.getElem?_append_left (List.getElem?_eq_some_iff.1 hr).1, hr]
  refine ⟨H.g, fun a => key (H.d a), fun a => key (H.A a), key H.V, fun n => ?_, key H.ids⟩
  rcases H.props n with h1 | ⟨r, l, h1, h2, h3⟩
  · exact .inl h1
  · exact .inr ⟨r, l, h1, h2, key h3⟩

/-- New arrays at the end of the memory change nothing. -/
lemma Inv.grow {own : ℕ → Owner} {o : ℕ} {w : World K} {s : List (SGrid K)} (h : Inv own o w s) (own' : ℕ → Owner) (ho : ∀ r, r < w.heap.length → own' r = own r) (t : List (Arr K)) :
    Inv own' o { w with heap := w.heap ++ t } s := by
  have lt : ∀ {r : ℕ}, r < w.heap.length → r < (w.heap ++ t).length := fun h => by simp; omega
  refine ⟨h.len, fun o' x hx r hr => ?_, fun o' x hx n r hr => ?_, fun f e he => ?_, fun x y hx hy => (h.data x y hx hy).grow t, fun f e he ho' => ?_, fun k L r hL hr => ?_⟩
  · obtain ⟨h1, h2⟩ := h.mine o' x hx r hr
    exact ⟨(ho r h2).trans h1, lt h2⟩
  · obtain ⟨h1, h2⟩ := h.mineP o' x hx n r hr
    exact ⟨(ho r h2).trans h1, lt h2⟩
  · obtain ⟨h1, h2, h3⟩ := h.kept f e he
    exact ⟨(ho _ h2).trans h1, lt h2, h3⟩
  · obtain ⟨h1, h2⟩ := h.right f e he ho'
    refine ⟨h1, fun y hy => ?_⟩
    obtain ⟨a, h3, h4⟩ := h2 y hy
    exact ⟨a, by show (w.heap ++ t)[e.2]? = _; rw [List.getElem?_append_left (h.kept f e he).2.1, h3], h4⟩
  · obtain ⟨h1, h2⟩ := h.logged k L r hL hr
    exact ⟨lt h1, (ho r h1).trans h2⟩

/-- What the body of a query amounts to. -/
def World.value (w : World K) : Except Err (ℕ ⊕ Arr K) → Except Err (Arr K)
  | .error e => .error e
  | .ok (.inl r) => w.look r
  | .ok (.inr a) => .ok a

lemma viewOr_value {w : World K} {x : Grid} {y : SGrid K} (H : Holds w.heap x y) {r : ℕ} {l : List K} (hr : w.heap[r]? = some (.num l)) (b : Bool) :
    w.value (w.viewOr x r b) = (Geom.cells y.g l b).map .num := by
  have hn : w.nums r = l := by unfold World.nums; rw [hr]
  have hi : w.idsAt x.ids = y.g.innerIds := by unfold World.idsAt; rw [H.ids]
  cases b with
  | true => simp [World.viewOr, World.value, World.look, hr, Geom.cells, Except.map]
  | false =>
    simp only [World.viewOr, Bool.false_eq_true, if_false, Geom.cells, y.g.getCellsId_false, hn, hi]
    rcases Geom.pick l y.g.innerIds with e | m <;> rfl

lemma body_value {w : World K} {x : Grid} {y : SGrid K} (H : Holds w.heap x y) (q : Query) : w.value (w.body x q) = y.answer q := by
  cases q with
  | size a b f n => exact viewOr_value H (H.d a) b
  | area a b f n => exact viewOr_value H (H.A a) b
  | volume b f n => exact viewOr_value H H.V b
  | ones b f n => simp [World.body, World.value, SGrid.answer, H.g]
  | zeros b f n => simp [World.body, World.value, SGrid.answer, H.g]
  | ids b n =>
    simp only [World.body, SGrid.answer, H.g]
    rcases y.g.getCellsId b with e | l <;> rfl
  | prop n b f =>
    simp only [World.body, SGrid.answer, getProp]
    rcases H.props n with ⟨h1, h2⟩ | ⟨r, l, h1, h2, h3⟩
    · rw [h1, h2]; rfl
    · rw [h1, h2]
      have h4 := viewOr_value H h3 b
      dsimp only
      cases b with
      | true =>
        have hn : w.nums r = l := by unfold World.nums; rw [h3]
        simp [World.viewOr, World.value, Geom.cells, Except.map, hn]
      | false =>
        rw [← h4]
        unfold World.viewOr
        simp only [Bool.false_eq_true, if_false]
        rcases Geom.pick (w.nums r) (w.idsAt x.ids) with e | m <;> rfl

/-- A reference the body hands out is one of the grid's. -/
lemma body_refs {w : World K} {x : Grid} {q : Query} {r : ℕ} (h : w.body x q = .ok (.inl r)) : q.isProp = false ∧ x.Refs r := by
  have view : ∀ {r' b}, w.viewOr x r' b = .ok (.inl r) → r = r' := by
    intro r' b h
    cases b with
    | true => simpa [World.viewOr, eq_comm] using h
    | false =>
      simp only [World.viewOr, Bool.false_eq_true, if_false] at h
      rcases hp : Geom.pick (w.nums r') (w.idsAt x.ids) with e | m <;> rw [hp] at h <;> simp [Except.map] at h
  cases q with
  | size a b f n => exact ⟨rfl, .inl ⟨a, view h⟩⟩
  | area a b f n => exact ⟨rfl, .inr (.inl ⟨a, view h⟩)⟩
  | volume b f n => exact ⟨rfl, .inr (.inr (.inl (view h)))⟩
  | ones b f n => simp [World.body] at h
  | zeros b f n => simp [World.body] at h
  | ids b n =>
    simp only [World.body] at h
    rcases hp : x.g.getCellsId b with e | l <;> rw [hp] at h <;> simp [Except.map] at h
  | prop n b f =>
    simp only [World.body] at h
    rcases hp : x.props n with _ | r'
    · rw [hp] at h; simp at h
    · rw [hp] at h
      dsimp only at h
      rcases hv : w.viewOr x r' b with e | (r'' | a) <;> rw [hv] at h <;> simp at h

lemma mem_of_lookup' {κ α : Type} [DecidableEq κ] {l : List (κ × α)} {k : κ} {v : α} (h : l.lookup k = some v) : (k, v) ∈ l := by
  induction l with
  | nil => simp at h
  | cons a t ih =>
    rw [List.lookup_cons] at h
    rcases hk : k == a.1 with _ | _
    · rw [hk] at h; exact List.mem_cons_of_mem _ (ih h)
    · rw [hk] at h
      have h1 := eq_of_beq hk
      have h2 : a.2 = v := by simpa using h
      subst h1 h2
      exact List.mem_cons_self

lemma lru_cases {κ α : Type} [DecidableEq κ] (max : MaxSize) (f : κ → Except Err α) (c : List (κ × α)) (k : κ) :
    (∃ v, (k, v) ∈ c ∧ (lruCall max f c k).1 = .ok v ∧ ∀ e, e ∈ (lruCall max f c k).2 → e ∈ c) ∨
    (∃ v, f k = .ok v ∧ (lruCall max f c k).1 = .ok v ∧ ∀ e, e ∈ (lruCall max f c k).2 → e ∈ c ∨ e = (k, v)) ∨
    (∃ x, f k = .error x ∧ (lruCall max f c k).1 = .error x ∧ (lruCall max f c k).2 = c) := by
  unfold lruCall
  rcases hl : c.lookup k with _ | v
  · rcases hf : f k with x | v
    · exact .inr (.inr ⟨x, rfl, rfl, rfl⟩)
    · refine .inr (.inl ⟨v, rfl, rfl, fun e he => ?_⟩)
      have : e ∈ (k, v) :: c := by
        dsimp only at he
        cases max with
        | none => exact he
        | some n => exact List.mem_of_mem_take he
      rcases List.mem_cons.1 this with h | h
      · exact .inr h
      · exact .inl h
  · refine .inl ⟨v, mem_of_lookup' hl, rfl, fun e he => ?_⟩
    rcases List.mem_cons.1 he with h | h
    · rw [h]; exact mem_of_lookup' hl
    · exact List.mem_of_mem_filter h

/-- What the body of a query does to the memory. -/
lemma alloc_spec (w : World K) (b : Except Err (ℕ ⊕ Arr K)) :
    (∃ t, (w.alloc b).2 = w.heap ++ t) ∧ ((w.alloc b).1.bind fun r => World.look { w with heap := (w.alloc b).2 } r) = w.value b ∧
    ∀ r, (w.alloc b).1 = .ok r → b = .ok (.inl r) ∨ r = w.heap.length ∧ ∃ a, b = .ok (.inr a) := by
  rcases b with e | (r | a)
  · exact ⟨⟨[], by simp [World.alloc]⟩, rfl, fun r h => by simp [World.alloc] at h⟩
  · exact ⟨⟨[], by simp [World.alloc]⟩, rfl, fun r' h => by simp [World.alloc] at h; simp [h]⟩
  · refine ⟨⟨[a], rfl⟩, ?_, fun r h => .inr ⟨by simp [World.alloc] at h; exact h.symm, a, rfl⟩⟩
    simp [World.alloc, World.value, World.look, Except.bind]

/-- A call keeps the order of things; its answer belongs to the grid asked or is a copy, and about grid `o` it is right. -/
lemma Inv.call {own : ℕ → Owner} {o : ℕ} {w : World K} {s : List (SGrid K)} (h : Inv own o w s) (o' : ℕ) (q : Query) :
    ∃ own', Inv own' o (w.call o' q).2 s ∧ (w.call o' q).2.log = w.log ∧ (w.call o' q).2.grids = w.grids ∧
      (∀ r, (w.call o' q).1 = .ok r → r < (w.call o' q).2.heap.length ∧ own' r = if q.isProp then none else some (o', none)) ∧
      (o' = o → (w.call o' q).1.bind (w.call o' q).2.look = match s[o]? with | some y => y.answer q | none => .error .attribute) := by
  rcases hx : w.grids[o']? with _ | x
  · have e : w.call o' q = (.error .attribute, w) := by unfold World.call; rw [hx]
    rw [e]
    refine ⟨own, h, rfl, rfl, fun r hr => by simp at hr, fun ho => ?_⟩
    subst ho
    have : s[o']? = none := by rw [List.getElem?_eq_none_iff] at hx ⊢; rw [← h.len]; exact hx
    rw [this]; rfl
  · obtain ⟨⟨t, ht⟩, hv, hr⟩ := alloc_spec w (w.body x q)
    set m := w.alloc (w.body x q) with hm
    let own' : ℕ → Owner := fun r => if r < w.heap.length then own r else if q.isProp then none else some (o', none)
    have hg : Inv own' o { w with heap := m.2 } s := by rw [ht]; exact h.grow own' (fun r hr => if_pos hr) t
    have hlt : o' < w.grids.length := (List.getElem?_eq_some_iff.1 hx).1
    have hm1 : ∀ r, m.1 = .ok r → r < m.2.length ∧ own' r = if q.isProp then none else some (o', none) := fun r h1 => by
      rcases hr r h1 with h2 | ⟨h2, a, h3⟩
      · obtain ⟨h3, h4⟩ := body_refs h2
        obtain ⟨h5, h6⟩ := hg.mine o' x hx r h4
        rw [h3]; exact ⟨h6, h5⟩
      · refine ⟨?_, ?_⟩
        · have : m.2 = w.heap ++ [a] := by rw [hm, h3]; rfl
          rw [this, h2]; simp
        · show (if r < w.heap.length then own r else _) = _
          rw [if_neg (by omega)]
    have hval : o' = o → (m.1.bind fun r => World.look { w with heap := m.2 } r) = match s[o]? with | some y => y.answer q | none => .error .attribute := fun ho => by
      subst ho
      have : o' < s.length := by rw [← h.len]; exact hlt
      rw [hv, List.getElem?_eq_getElem this]
      exact body_value (h.data x _ hx (List.getElem?_eq_getElem this)) q
    rcases hp : q.isProp with _ | _
    · -- through the cache
      have e : w.call o' q = ((lruCall q.max (fun _ => m.1) (w.cache q.fn) (o', q)).1,
          { w with heap := m.2, cache := Function.update w.cache q.fn (lruCall q.max (fun _ => m.1) (w.cache q.fn) (o', q)).2 }) := by
        unfold World.call; rw [hx]; simp only [hp, ← hm, Bool.false_eq_true, if_false]
      rw [e]
      rw [hp] at hm1
      simp only [Bool.false_eq_true, if_false] at hm1 ⊢
      set c' := (lruCall q.max (fun _ => m.1) (w.cache q.fn) (o', q)).2 with hc'
      -- the new cache
      have build : (∀ e, e ∈ c' → e ∈ w.cache q.fn ∨ (e.1 = (o', q) ∧ m.1 = .ok e.2)) → Inv own' o { w with heap := m.2, cache := Function.update w.cache q.fn c' } s := by
        intro hmem
        have old : ∀ f e, e ∈ Function.update w.cache q.fn c' f → e ∈ w.cache f ∨ (e.1 = (o', q) ∧ m.1 = .ok e.2) := fun f e he => by
          by_cases hf : f = q.fn
          · subst hf; rw [Function.update_self] at he; exact hmem e he
          · rw [Function.update_of_ne hf] at he; exact .inl he
        refine ⟨hg.len, hg.mine, hg.mineP, fun f e he => ?_, hg.data, fun f e he ho => ?_, hg.logged⟩
        · rcases old f e he with h1 | ⟨h1, h2⟩
          · exact hg.kept f e h1
          · obtain ⟨h3, h4⟩ := hm1 _ h2
            rw [h1]; exact ⟨h4, h3, hlt⟩
        · rcases old f e he with h1 | ⟨h1, h2⟩
          · exact hg.right f e h1 ho
          · rw [h1] at ho ⊢
            refine ⟨hp, fun y hy => ?_⟩
            have h3 := hval ho
            rw [h2, hy] at h3
            simp only [Except.bind, World.look] at h3
            rcases h4 : m.2[e.2]? with _ | a
            · obtain ⟨h5, -⟩ := hm1 _ h2
              rw [List.getElem?_eq_none_iff] at h4; omega
            · rw [h4] at h3
              exact ⟨a, rfl, h3.symm⟩
      rcases lru_cases q.max (fun _ => m.1) (w.cache q.fn) (o', q) with ⟨v, h1, h2, h3⟩ | ⟨v, h1, h2, h3⟩ | ⟨y, h1, h2, h3⟩
      · refine ⟨own', build fun e he => .inl (h3 e he), trivial, trivial, fun r hr' => ?_, fun ho => ?_⟩
        · rw [h2] at hr'
          obtain rfl : v = r := by simpa using hr'
          obtain ⟨h4, h5, -⟩ := hg.kept _ _ h1
          exact ⟨h5, h4⟩
        · rw [h2]
          subst ho
          have hs : o' < s.length := by rw [← h.len]; exact hlt
          obtain ⟨-, h4⟩ := hg.right _ _ h1 rfl
          obtain ⟨a, h5, h6⟩ := h4 _ (List.getElem?_eq_getElem hs)
          rw [List.getElem?_eq_getElem hs]
          show World.look _ v = _
          unfold World.look
          dsimp only at h5 h6 ⊢
          rw [h5, h6]
      · refine ⟨own', build fun e he => ?_, trivial, trivial, fun r hr' => ?_, fun ho => ?_⟩
        · rcases h3 e he with h4 | h4
          · exact .inl h4
          · rw [h4]; exact .inr ⟨rfl, h1⟩
        · rw [h2] at hr'
          obtain rfl : v = r := by simpa using hr'
          exact hm1 _ h1
        · rw [h2, ← hval ho, h1]; rfl
      · refine ⟨own', build fun e he => .inl (h3 ▸ he), trivial, trivial, fun r hr' => ?_, fun ho => ?_⟩
        · rw [h2] at hr'; simp at hr'
        · rw [h2, ← hval ho, h1]; rfl
    · have e : w.call o' q = (m.1, { w with heap := m.2 }) := by
        unfold World.call; rw [hx]; simp only [hp, ← hm, if_true]
      rw [e]
      rw [hp] at hm1
      exact ⟨own', hg, rfl, rfl, fun r h1 => hm1 r h1, hval⟩

/-- Changing an array that is not grid `o`'s. -/
lemma Inv.modify {own : ℕ → Owner} {o : ℕ} {w : World K} {s : List (SGrid K)} (h : Inv own o w s) {r : ℕ} (hr : ∀ n, own r ≠ some (o, n)) (f : Arr K → Arr K) :
    Inv own o { w with heap := w.heap.modify r f } s := by
  have len : (w.heap.modify r f).length = w.heap.length := List.length_modify ..
  have same : ∀ {r' : ℕ} {n : Option PName}, own r' = some (o, n) → (w.heap.modify r f)[r']? = w.heap[r']? := fun {r' n} h' => by
    have : r ≠ r' := fun e => hr n (e ▸ h')
    rw [List.getElem?_modify]; simp [this]
  refine ⟨h.len, fun o' x hx r' hr' => ?_, fun o' x hx n r' hr' => ?_, fun f e he => ?_, fun x y hx hy => ?_, fun f e he ho' => ?_, fun k L r hL hr => ?_⟩
  · obtain ⟨h1, h2⟩ := h.mine o' x hx r' hr'
    exact ⟨h1, by rw [len]; exact h2⟩
  · obtain ⟨h1, h2⟩ := h.mineP o' x hx n r' hr'
    exact ⟨h1, by rw [len]; exact h2⟩
  · obtain ⟨h1, h2, h3⟩ := h.kept f e he
    exact ⟨h1, by rw [len]; exact h2, h3⟩
  · have H := h.data x y hx hy
    have m := h.mine o x hx
    refine ⟨H.g, fun a => ?_, fun a => ?_, ?_, fun n => ?_, ?_⟩
    · rw [same (m _ (.inl ⟨a, rfl⟩)).1]; exact H.d a
    · rw [same (m _ (.inr (.inl ⟨a, rfl⟩))).1]; exact H.A a
    · rw [same (m _ (.inr (.inr (.inl rfl)))).1]; exact H.V
    · rcases H.props n with h1 | ⟨r', l, h1, h2, h3⟩
      · exact .inl h1
      · exact .inr ⟨r', l, h1, h2, by rw [same (h.mineP o x hx n r' h1).1]; exact h3⟩
    · rw [same (m _ (.inr (.inr (.inr rfl)))).1]; exact H.ids
  · obtain ⟨h1, h2⟩ := h.right f e he ho'
    refine ⟨h1, fun y hy => ?_⟩
    obtain ⟨a, h3, h4⟩ := h2 y hy
    refine ⟨a, ?_, h4⟩
    have h5 := (h.kept f e he).1
    rw [ho'] at h5
    show (w.heap.modify r _)[e.2]? = _
    rw [same h5]; exact h3
  · obtain ⟨h1, h2⟩ := h.logged k L r hL hr
    exact ⟨by rw [len]; exact h1, h2⟩

/-- Other grids are of no interest. -/
lemma Inv.other {own : ℕ → Owner} {o : ℕ} {w : World K} {s t : List (SGrid K)} (h : Inv own o w s) (hl : t.length = s.length) (ho : t[o]? = s[o]?) : Inv own o w t := by
  refine ⟨h.len.trans hl.symm, h.mine, h.mineP, h.kept, fun x y hx hy => h.data x y hx (ho ▸ hy), fun f e he ho' => ?_, h.logged⟩
  obtain ⟨h1, h2⟩ := h.right f e he ho'
  exact ⟨h1, fun y hy => h2 y (ho ▸ hy)⟩

lemma setPropCell_put {g : Dims} {p p' : Props K} {n : PName} {v : K} {id : Option ℤ} {coords : Option (ℤ × ℤ × ℤ)} (h : setPropCell g p n v id coords = .ok p') :
    ∃ l l', p n = some l ∧ p' = p.put n l' := by
  have key : ∀ c : Except Err (ℤ × ℤ × ℤ), ((do
      let c ← c
      let ic ← g.getCellIcoords c
      match p n with
      | none => .error .type
      | some l => do
        let l' ← assign l ic v
        pure (p.put n l')) : Except Err (Props K)) = .ok p' → ∃ l l', p n = some l ∧ p' = p.put n l' := by
    intro c h
    rcases c with e | c
    · simp [bind, Except.bind] at h
    simp only [bind, Except.bind] at h
    rcases hi : g.getCellIcoords c with e | ic
    · rw [hi] at h; simp at h
    rw [hi] at h
    rcases hl : p n with _ | l
    · rw [hl] at h; simp at h
    rw [hl] at h
    dsimp only at h
    rcases ha : assign l ic v with e | l'
    · rw [ha] at h; simp at h
    rw [ha] at h
    exact ⟨l, l', rfl, by simpa [pure, Except.pure, eq_comm] using h⟩
  unfold setPropCell at h
  rcases id with _ | i
  · rcases coords with _ | c
    · exact key (.error .value) h
    · exact key (.ok c) h
  · rcases hc : g.getCellCoords i true with e | c
    · simp [hc, bind, Except.bind] at h
    · dsimp only at h
      rw [hc] at h
      exact key (.ok (c.1, c.2.1, c.2.2)) h

/-- The answers about cells do not depend on properties, except those of `get_prop`. -/
lemma answer_of_not_prop {y : SGrid K} {p : Props K} {q : Query} (h : q.isProp = false) : ({ y with p := p } : SGrid K).answer q = y.answer q := by
  cases q <;> first | rfl | simp [Query.isProp] at h

lemma Inv.setCell {own : ℕ → Owner} {o : ℕ} {w : World K} {s : List (SGrid K)} (h : Inv own o w s) (o' : ℕ) (n : PName) (v : K) (id : Option ℤ) (coords : Option (ℤ × ℤ × ℤ)) :
    Inv own o (w.setCell o' n v id coords) (sstep s (.setCell o' n v id coords)) := by
  have other : o' ≠ o → Inv own o w (sstep s (.setCell o' n v id coords)) := fun hne => by
    refine h.other ?_ ?_
    · simp only [sstep]; split <;> [split; skip] <;> simp
    · simp only [sstep]; split <;> [split; skip] <;> simp [hne]
  unfold World.setCell
  rcases hx : w.grids[o']? with _ | x
  · have : s[o']? = none := by rw [List.getElem?_eq_none_iff] at hx ⊢; rw [← h.len]; exact hx
    simp only [sstep, this]; exact h
  have hlt : o' < s.length := by rw [← h.len]; exact (List.getElem?_eq_some_iff.1 hx).1
  have hs := List.getElem?_eq_getElem hlt
  dsimp only
  by_cases ho : o' = o
  · subst ho
    have H := h.data x _ hx hs
    have hp : (fun m => (x.props m).map w.nums) = (s[o']).p := by
      funext m
      rcases H.props m with ⟨h1, h2⟩ | ⟨r, l, h1, h2, h3⟩
      · simp [h1, h2]
      · simp [h1, h2, World.nums, h3]
    rw [hp, H.g]
    simp only [sstep, hs]
    rcases hc : setPropCell s[o'].g s[o'].p n v id coords with e | p
    · exact h
    · obtain ⟨l, l', h1, h2⟩ := setPropCell_put hc
      rcases H.props n with ⟨h3, h4⟩ | ⟨r, l0, h3, h4, h5⟩
      · rw [h1] at h4; simp at h4
      dsimp only
      have hpn : p n = some l' := by rw [h2]; simp [Props.put]
      rw [h3, hpn]
      dsimp only
      obtain ⟨hown, hrl⟩ := h.mineP o' x hx n r h3
      have same : ∀ {r' : ℕ}, own r' ≠ some (o', some n) → (w.heap.set r (.num l'))[r']? = w.heap[r']? := fun {r'} h' => by
        rw [List.getElem?_set_ne]; rintro rfl; exact h' hown
      have m := h.mine o' x hx
      have mm : ∀ r', x.Refs r' → (w.heap.set r (.num l'))[r']? = w.heap[r']? := fun r' hr' => same (by rw [(m r' hr').1]; simp)
      refine ⟨by simp [h.len], fun o1 x1 hx1 r1 hr1 => ?_, fun o1 x1 hx1 n1 r1 hr1 => ?_, fun f e he => ?_, fun x1 y1 hx1 hy1 => ?_, fun f e he ho1 => ?_, fun k L r1 hL hr1 => ?_⟩
      · obtain ⟨a, b⟩ := h.mine o1 x1 hx1 r1 hr1; exact ⟨a, by simpa using b⟩
      · obtain ⟨a, b⟩ := h.mineP o1 x1 hx1 n1 r1 hr1; exact ⟨a, by simpa using b⟩
      · obtain ⟨a, b, c⟩ := h.kept f e he; exact ⟨a, by simpa using b, c⟩
      · obtain rfl : x = x1 := by rw [hx] at hx1; simpa using hx1
        obtain rfl : ({ s[o'] with p := p } : SGrid K) = y1 := by simpa [hlt] using hy1
        refine ⟨H.g, fun a => ?_, fun a => ?_, ?_, fun n1 => ?_, ?_⟩
        · show (w.heap.set r _)[_]? = _; rw [mm _ (.inl ⟨a, rfl⟩)]; exact H.d a
        · show (w.heap.set r _)[_]? = _; rw [mm _ (.inr (.inl ⟨a, rfl⟩))]; exact H.A a
        · show (w.heap.set r _)[_]? = _; rw [mm _ (.inr (.inr (.inl rfl)))]; exact H.V
        · by_cases hn : n1 = n
          · subst hn
            exact .inr ⟨r, l', h3, hpn, by simp [hrl]⟩
          · have hp1 : p n1 = s[o'].p n1 := by rw [h2]; simp [Props.put, hn]
            rcases H.props n1 with ⟨h6, h7⟩ | ⟨r1, l1, h6, h7, h8⟩
            · exact .inl ⟨h6, hp1.trans h7⟩
            · refine .inr ⟨r1, l1, h6, hp1.trans h7, ?_⟩
              show (w.heap.set r _)[_]? = _
              rw [same (by rw [(h.mineP o' x hx n1 r1 h6).1]; simpa using hn)]; exact h8
        · show (w.heap.set r _)[_]? = _; rw [mm _ (.inr (.inr (.inr rfl)))]; exact H.ids
      · obtain ⟨h6, h7⟩ := h.right f e he ho1
        refine ⟨h6, fun y1 hy1 => ?_⟩
        obtain rfl : ({ s[o'] with p := p } : SGrid K) = y1 := by simpa [hlt] using hy1
        obtain ⟨a, h8, h9⟩ := h7 _ hs
        refine ⟨a, ?_, by rw [answer_of_not_prop h6]; exact h9⟩
        show (w.heap.set r _)[_]? = _
        rw [same (by rw [(h.kept f e he).1]; simp)]; exact h8
      · obtain ⟨a, b⟩ := h.logged k L r1 hL hr1; exact ⟨by simpa using a, b⟩
  · rcases setPropCell x.g (fun m => (x.props m).map w.nums) n v id coords with e | p
    · exact other ho
    · dsimp only
      rcases hr : x.props n with _ | r
      · exact other ho
      · rcases p n with _ | l
        · exact other ho
        · dsimp only
          have h1 := (other ho).modify (r := r) (fun k hk => ho (by rw [(h.mineP o' x hx n r hr).1] at hk; simpa using congrArg (Option.map Prod.fst) hk)) (fun _ => .num l)
          have e : w.heap.modify r (fun _ => .num l) = w.heap.set r (.num l) := by
            apply List.ext_getElem?; intro i
            rw [List.getElem?_modify, List.getElem?_set]
            split <;> rename_i hi
            · subst hi
              rcases hh : w.heap[r]? with _ | a
              · have := List.getElem?_eq_none_iff.1 hh; simp; omega
              · have := (List.getElem?_eq_some_iff.1 hh).1; simp [this]
            · simp
          rw [e] at h1; exact h1

lemma times_ones (n : ℕ) (v : PVal K) : times (List.replicate n 1) v = broadcast n v := by
  cases v with
  | num v => simp [times, broadcast]
  | arr l =>
    simp only [times, broadcast, List.length_replicate]
    split
    · rename_i h
      congr 1
      apply List.ext_getElem
      · simp [h]
      · intro i h1 h2; simp
    · rename_i h
      rcases l with _ | ⟨a, _ | ⟨b, l⟩⟩
      · rcases n with _ | _ | n
        · simp at h
        · simp
        · simp [List.replicate_succ]
      · simp
      · rcases n with _ | _ | n
        · simp
        · simp
        · simp [List.replicate_succ]

/-- A grid gets a new array for a property. -/
lemma Inv.setRef {own : ℕ → Owner} {o : ℕ} {w : World K} {s t : List (SGrid K)} (h : Inv own o w s) {o' : ℕ} {x : Grid} (hx : w.grids[o']? = some x) {n : PName} {r : ℕ} {l : List K}
    (ho : own r = some (o', some n)) (hr : w.heap[r]? = some (.num l)) (hl : t.length = s.length) (h1 : o' ≠ o → t[o]? = s[o]?)
    (h2 : o' = o → ∃ y, s[o]? = some y ∧ t[o]? = some { y with p := y.p.put n l }) :
    Inv own o { w with grids := w.grids.set o' { x with props := fun m => if m = n then some r else x.props m } } t := by
  have hlt := (List.getElem?_eq_some_iff.1 hx).1
  have hrl := (List.getElem?_eq_some_iff.1 hr).1
  -- grids afterwards
  have get : ∀ o1 x1, (w.grids.set o' { x with props := fun m => if m = n then some r else x.props m })[o1]? = some x1 →
      (o1 ≠ o' ∧ w.grids[o1]? = some x1) ∨ (o1 = o' ∧ x1 = { x with props := fun m => if m = n then some r else x.props m }) := fun o1 x1 h' => by
    by_cases e : o1 = o'
    · subst e; right; simp only [List.getElem?_set_self hlt] at h'; exact ⟨rfl, by simpa [eq_comm] using h'⟩
    · left; rw [List.getElem?_set_ne (Ne.symm e)] at h'; exact ⟨e, h'⟩
  refine ⟨by simp [h.len, hl], fun o1 x1 hx1 r1 hr1 => ?_, fun o1 x1 hx1 n1 r1 hr1 => ?_, fun f e he => ?_, fun x1 y1 hx1 hy1 => ?_, fun f e he ho1 => ?_, h.logged⟩
  · rcases get o1 x1 hx1 with ⟨-, h3⟩ | ⟨rfl, rfl⟩
    · exact h.mine o1 x1 h3 r1 hr1
    · exact h.mine o1 x hx r1 hr1
  · rcases get o1 x1 hx1 with ⟨-, h3⟩ | ⟨rfl, rfl⟩
    · exact h.mineP o1 x1 h3 n1 r1 hr1
    · dsimp only at hr1
      split at hr1
      · rename_i e; subst e
        obtain rfl : r = r1 := by simpa using hr1
        exact ⟨ho, hrl⟩
      · exact h.mineP o1 x hx n1 r1 hr1
  · obtain ⟨a, b, c⟩ := h.kept f e he
    exact ⟨a, b, by simpa using c⟩
  · rcases get o x1 hx1 with ⟨h3, h4⟩ | ⟨h3, rfl⟩
    · exact h.data x1 y1 h4 (h1 (Ne.symm h3) ▸ hy1)
    · obtain ⟨y, h4, h5⟩ := h2 h3.symm
      subst h3
      obtain rfl : ({ y with p := y.p.put n l } : SGrid K) = y1 := by rw [h5] at hy1; simpa using hy1
      have H := h.data x y hx h4
      refine ⟨H.g, H.d, H.A, H.V, fun n1 => ?_, H.ids⟩
      by_cases e : n1 = n
      · subst e; exact .inr ⟨r, l, by simp, by simp [Props.put], hr⟩
      · rcases H.props n1 with ⟨h6, h7⟩ | ⟨r1, l1, h6, h7, h8⟩
        · exact .inl ⟨by simp [e, h6], by simp [Props.put, e, h7]⟩
        · exact .inr ⟨r1, l1, by simp [e, h6], by simp [Props.put, e, h7], h8⟩
  · obtain ⟨h3, h4⟩ := h.right f e he ho1
    refine ⟨h3, fun y1 hy1 => ?_⟩
    by_cases h5 : o' = o
    · obtain ⟨y, h6, h7⟩ := h2 h5
      obtain rfl : ({ y with p := y.p.put n l } : SGrid K) = y1 := by rw [h7] at hy1; simpa using hy1
      obtain ⟨a, h8, h9⟩ := h4 y h6
      exact ⟨a, h8, by rw [answer_of_not_prop h3]; exact h9⟩
    · exact h4 y1 (h1 h5 ▸ hy1)

lemma Inv.setAll {own : ℕ → Owner} {o : ℕ} {w : World K} {s : List (SGrid K)} (h : Inv own o w s) (o' : ℕ) (n : PName) (v : PVal K) :
    ∃ own', Inv own' o (w.setAll o' n v) (sstep s (.setAll o' n v)) ∧ (w.setAll o' n v).log = w.log := by
  obtain ⟨own1, h1, hlog, hgr, href, hval⟩ := h.call o' (.ones true false 0)
  have other : o' ≠ o → ∀ {own' w'}, Inv own' o w' s → Inv own' o w' (sstep s (.setAll o' n v)) := fun hne own' w' h' => by
    refine h'.other ?_ ?_
    · simp only [sstep]; split <;> [split; skip] <;> simp
    · simp only [sstep]; split <;> [split; skip] <;> simp [hne]
  unfold World.setAll
  set c := w.call o' (.ones true false 0) with hc
  dsimp only
  rcases hx : c.2.grids[o']? with _ | x
  · have hs : s[o']? = none := by rw [List.getElem?_eq_none_iff] at hx ⊢; rw [← h1.len]; exact hx
    refine ⟨own1, ?_, ?_⟩
    · have : sstep s (.setAll o' n v) = s := by simp only [sstep, hs]
      rw [this]; rcases c.1 with _ | _ <;> exact h1
    · rcases c.1 with _ | _ <;> exact hlog
  have hlt : o' < s.length := by rw [← h1.len]; exact (List.getElem?_eq_some_iff.1 hx).1
  have hs := List.getElem?_eq_getElem hlt
  rcases hr : c.1 with e | i
  · exfalso
    have hx' := hx
    rw [hgr] at hx'
    have e1 : c.1 = .error e := hr
    rw [hc] at e1
    unfold World.call at e1
    rw [hx'] at e1
    simp only [Query.isProp, World.body, World.alloc, Bool.false_eq_true, if_false] at e1
    rcases lru_cases (Query.ones true false 0).max (fun _ => Except.ok (ε := Err) w.heap.length) (w.cache (Query.ones true false 0).fn) (o', .ones true false 0) with ⟨v, a, b, -⟩ | ⟨v, a, b, -⟩ | ⟨v, a, b, -⟩
    · rw [b] at e1; simp at e1
    · rw [b] at e1; simp at e1
    · simp at a
  dsimp only
  have hones : o' = o → c.2.nums i = List.replicate (s[o'].g.getN true) 1 := fun ho => by
    have h2 := hval ho
    subst ho
    rw [hr, hs] at h2
    simp only [Except.bind, World.look, SGrid.answer] at h2
    unfold World.nums
    rcases hh : c.2.heap[i]? with _ | a
    · rw [hh] at h2; simp at h2
    · rw [hh] at h2; obtain rfl : a = _ := by simpa using h2
      rfl
  rcases ht : times (c.2.nums i) v with e | l
  · refine ⟨own1, ?_, hlog⟩
    by_cases ho : o' = o
    · have h2 : broadcast (s[o'].g.getN true) v = .error e := by rw [← times_ones, ← hones ho]; exact ht
      have : sstep s (.setAll o' n v) = s := by simp [sstep, hs, setPropAll, h2, bind, Except.bind]
      rw [this]; exact h1
    · exact other ho h1
  · let own' : ℕ → Owner := fun r => if r < c.2.heap.length then own1 r else some (o', some n)
    have h2 : Inv own' o { c.2 with heap := c.2.heap ++ [.num l] } s := h1.grow own' (fun r hr => if_pos hr) [.num l]
    refine ⟨own', ?_, hlog⟩
    refine h2.setRef (o' := o') (x := x) hx (n := n) (r := c.2.heap.length) (l := l) (by show (if _ then _ else _) = _; rw [if_neg (by omega)]) (by simp) ?_ (fun hne => ?_) (fun he => ?_)
    · simp only [sstep]; split <;> [split; skip] <;> simp
    · simp only [sstep]; split <;> [split; skip] <;> simp [hne]
    · have h3 : broadcast (s[o'].g.getN true) v = .ok l := by rw [← times_ones, ← hones he]; exact ht
      subst he
      refine ⟨s[o'], hs, ?_⟩
      simp [sstep, hs, setPropAll, h3, bind, Except.bind, pure, Except.pure, hlt]

/-- The constructor. -/
lemma Inv.create {own : ℕ → Owner} {o : ℕ} {w : World K} {s : List (SGrid K)} (h : Inv own o w s) (g : Dims) (q : Geom K) :
    ∃ own', Inv own' o (w.create g q) (sstep s (.create g q)) ∧ (w.create g q).log = w.log := by
  have hlook : @List.lookup _ _ instBEqOfDecidableEq (w.grids.length, Query.ids false 0) (w.cache 6) = none := by
    rcases hl : @List.lookup _ _ instBEqOfDecidableEq (w.grids.length, Query.ids false 0) (w.cache 6) with _ | r
    · rfl
    · have := (h.kept _ _ (mem_of_lookup' hl)).2.2; simp at this
  let n := w.heap.length
  let x : Grid := ⟨g, fun a => match a with | .x => n | .y => n + 1 | .z => n + 2, fun a => match a with | .x => n + 3 | .y => n + 4 | .z => n + 5, n + 6, fun _ => none, n + 7⟩
  let t : List (Arr K) := [.num q.dx, .num q.dy, .num q.dz, .num (q.A .x), .num (q.A .y), .num (q.A .z), .num q.V, .ids g.innerIds]
  let c' := (((w.grids.length, Query.ids false 0), n + 7) :: w.cache 6).take 4
  have e : w.create g q = { w with heap := w.heap ++ t, grids := w.grids ++ [x], cache := Function.update w.cache 6 c' } := by
    unfold World.create World.call
    simp only [Query.isProp, World.body, Query.fn, Query.max, g.getCellsId_false, Except.map, World.alloc, lruCall, List.getElem?_concat_length, Bool.false_eq_true, if_false]
    rw [hlook]
    simp [x, t, c', n, trunc]
    constructor <;> (funext a; cases a <;> rfl)
  rw [e]
  let own' : ℕ → Owner := fun r => if r < n then own r else some (w.grids.length, none)
  have hg : Inv own' o { w with heap := w.heap ++ t } s := h.grow own' (fun r hr => if_pos hr) t
  have hnew : ∀ k, own' (n + k) = some (w.grids.length, none) := fun k => by show (if _ then _ else _) = _; rw [if_neg (by omega)]
  have hat : ∀ k, (w.heap ++ t)[n + k]? = t[k]? := fun k => by rw [List.getElem?_append_right (by omega)]; congr 1; omega
  have hlen : (w.heap ++ t).length = n + 8 := by simp [t, n]
  have hxr : ∀ r, x.Refs r → ∃ k, k < 8 ∧ r = n + k := fun r hr => by
    rcases hr with ⟨a, rfl⟩ | ⟨a, rfl⟩ | rfl | rfl
    · cases a; exacts [⟨0, by omega, rfl⟩, ⟨1, by omega, rfl⟩, ⟨2, by omega, rfl⟩]
    · cases a; exacts [⟨3, by omega, rfl⟩, ⟨4, by omega, rfl⟩, ⟨5, by omega, rfl⟩]
    · exact ⟨6, by omega, rfl⟩
    · exact ⟨7, by omega, rfl⟩
  have get : ∀ o1 x1, (w.grids ++ [x])[o1]? = some x1 → w.grids[o1]? = some x1 ∨ (o1 = w.grids.length ∧ x1 = x) := fun o1 x1 h' => by
    rcases lt_trichotomy o1 w.grids.length with h1 | h1 | h1
    · left; rwa [List.getElem?_append_left h1] at h'
    · right; subst h1; simp at h'; exact ⟨rfl, h'.symm⟩
    · rw [List.getElem?_eq_none (by simp; omega)] at h'; simp at h'
  have old : ∀ f e, e ∈ Function.update w.cache 6 c' f → e ∈ w.cache f ∨ e = ((w.grids.length, Query.ids false 0), n + 7) := fun f e he => by
    by_cases hf : f = 6
    · subst hf; rw [Function.update_self] at he
      rcases List.mem_cons.1 (List.mem_of_mem_take he) with h1 | h1
      · exact .inr h1
      · exact .inl h1
    · rw [Function.update_of_ne hf] at he; exact .inl he
  have hs : sstep s (.create g q) = s ++ [⟨g, q, fun _ => none⟩] := rfl
  rw [hs]
  refine ⟨own', ⟨by simp [h.len], fun o1 x1 hx1 r1 hr1 => ?_, fun o1 x1 hx1 n1 r1 hr1 => ?_, fun f e he => ?_, fun x1 y1 hx1 hy1 => ?_, fun f e he ho1 => ?_, hg.logged⟩, rfl⟩
  · rcases get o1 x1 hx1 with h1 | ⟨rfl, rfl⟩
    · exact hg.mine o1 x1 h1 r1 hr1
    · obtain ⟨k, hk, rfl⟩ := hxr r1 hr1
      exact ⟨hnew k, by rw [hlen]; omega⟩
  · rcases get o1 x1 hx1 with h1 | ⟨rfl, rfl⟩
    · exact hg.mineP o1 x1 h1 n1 r1 hr1
    · simp [x] at hr1
  · rcases old f e he with h1 | h1
    · obtain ⟨a, b, c⟩ := hg.kept f e h1
      exact ⟨a, b, by simp only [List.length_append]; exact Nat.lt_add_right _ c⟩
    · rw [h1]; exact ⟨hnew 7, by rw [hlen]; omega, by simp⟩
  · rcases get o x1 hx1 with h1 | ⟨h1, rfl⟩
    · have h2 := (List.getElem?_eq_some_iff.1 h1).1
      rw [List.getElem?_append_left (by rw [← h.len]; exact h2)] at hy1
      exact hg.data x1 y1 h1 hy1
    · subst h1
      rw [h.len] at hy1
      obtain rfl : (⟨g, q, fun _ => none⟩ : SGrid K) = y1 := by simpa using hy1
      refine ⟨rfl, fun a => ?_, fun a => ?_, hat 6, fun n1 => .inl ⟨rfl, rfl⟩, hat 7⟩
      · cases a; exacts [hat 0, hat 1, hat 2]
      · cases a; exacts [hat 3, hat 4, hat 5]
  · rcases old f e he with h1 | h1
    · obtain ⟨h2, h3⟩ := hg.right f e h1 ho1
      refine ⟨h2, fun y1 hy1 => h3 y1 ?_⟩
      have h4 := (h.kept f e h1).2.2
      rw [ho1, h.len] at h4
      rwa [List.getElem?_append_left h4] at hy1
    · subst h1
      refine ⟨rfl, fun y1 hy1 => ?_⟩
      dsimp only at ho1
      subst ho1
      rw [h.len] at hy1
      obtain rfl : (⟨g, q, fun _ => none⟩ : SGrid K) = y1 := by simpa using hy1
      exact ⟨.ids g.innerIds, hat 7, by simp [SGrid.answer, g.getCellsId_false, Except.map]⟩

lemma Inv.ask {own : ℕ → Owner} {o : ℕ} {w : World K} {s : List (SGrid K)} (h : Inv own o w s) (o' : ℕ) (q : Query) :
    ∃ own', Inv own' o (w.ask o' q) s ∧ ∃ L : Entry K, (w.ask o' q).log = w.log ++ [L] ∧ L.obj = o' ∧ L.query = q ∧
      (o' = o → L.shown = match s[o]? with | some y => y.answer q | none => .error .attribute) := by
  obtain ⟨own1, h1, hlog, hgr, href, hval⟩ := h.call o' q
  refine ⟨own1, ⟨h1.len, h1.mine, h1.mineP, h1.kept, h1.data, h1.right, fun k L r hL hr => ?_⟩, _, rfl, rfl, rfl, hval⟩
  have hL' : (w.log ++ [(⟨o', q, (w.call o' q).1, (w.call o' q).1.bind (w.call o' q).2.look⟩ : Entry K)])[k]? = some L := hL
  rcases lt_trichotomy k w.log.length with h2 | h2 | h2
  · rw [List.getElem?_append_left h2] at hL'
    exact h1.logged k L r (by rw [hlog]; exact hL') hr
  · subst h2
    simp only [List.getElem?_concat_length, Option.some.injEq] at hL'
    subst hL'
    exact href r hr
  · rw [List.getElem?_eq_none (by simp; omega)] at hL'; simp at hL'

lemma Inv.written {own : ℕ → Owner} {o : ℕ} {w : World K} {s : List (SGrid K)} (h : Inv own o w s) (k : ℕ) (hk : ∀ L, w.log[k]? = some L → L.obj ≠ o ∨ L.query.isProp = true) (f : Arr K → Arr K) :
    Inv own o (match w.answer k with | some r => { w with heap := w.heap.modify r f } | none => w) s := by
  unfold World.answer
  rcases hL : w.log[k]? with _ | L
  · exact h
  · rcases hr : L.ref with e | r
    · simpa [hr] using h
    · simp only [Option.bind_some, hr]
      refine h.modify (fun n hn => ?_) f
      rw [(h.logged k L r hL hr).2] at hn
      rcases hk L hL with h1 | h1
      · split at hn
        · simp at hn
        · simp only [Option.some.injEq, Prod.mk.injEq] at hn; exact h1 hn.1
      · simp [h1] at hn

/-- The grids and the expected answers. -/
def expectedStep (st : List (SGrid K) × List (ℕ × Query × Except Err (Arr K))) (e : Event K) : List (SGrid K) × List (ℕ × Query × Except Err (Arr K)) :=
  (sstep st.1 e, match e with
      | .ask o q => st.2 ++ [(o, q, match st.1[o]? with | some x => x.answer q | none => .error .attribute)]
      | _ => st.2)

lemma run_append (es : List (Event K)) (e : Event K) : run (es ++ [e]) = (run es).step e := by simp [run]
lemma expected_append (es : List (Event K)) (e : Event K) : expected (es ++ [e]) = expected es ++ (match e with
      | .ask o q => [(o, q, match (sgrids es)[o]? with | some x => x.answer q | none => .error .attribute)]
      | _ => []) := by
  have h1 : ∀ (es : List (Event K)) st, (es.foldl expectedStep st).1 = es.foldl sstep st.1 := fun es => by
    induction es with
    | nil => intro st; rfl
    | cons e es ih => intro st; rw [List.foldl_cons, List.foldl_cons, ih]; rfl
  have h2 : ∀ es : List (Event K), expected es = (es.foldl expectedStep ([], [])).2 := fun es => rfl
  rw [h2, h2, List.foldl_append, List.foldl_cons, List.foldl_nil]
  have h3 : (es.foldl expectedStep ([], [])).1 = sgrids es := h1 es _
  rw [← h3]
  cases e <;> simp [expectedStep]

lemma history (o : ℕ) (es : List (Event K)) (h : Spares o es) :
    ∃ own, Inv own o (run es) (sgrids es) ∧ (shown es).filter (fun a => a.1 = o) = (expected es).filter (fun a => a.1 = o) := by
  induction es using List.reverseRecOn with
  | nil => exact ⟨fun _ => none, ⟨rfl, by simp [run], by simp [run], by simp [run], by simp [run], by simp [run], by simp [run]⟩, rfl⟩
  | append_singleton es e ih =>
    obtain ⟨own, hi, hf⟩ := ih fun pre e' post k L he => h pre e' (post ++ [e]) k L (by rw [he]; simp)
    have hsp : ∀ k L, e.target = some k → (run es).log[k]? = some L → L.obj ≠ o ∨ L.query.isProp = true := fun k L => h es e [] k L rfl
    have hsg : sgrids (es ++ [e]) = sstep (sgrids es) e := by simp [sgrids]
    rw [hsg, expected_append]
    unfold shown
    rw [run_append]
    have plain : ((run es).step e).log = (run es).log → (∀ o q, e ≠ .ask o q) →
        List.filter (fun a => a.1 = o) (((run es).step e).log.map fun e => (e.obj, e.query, e.shown)) = List.filter (fun a => a.1 = o) (expected es ++ (match e with
      | .ask o q => [(o, q, match (sgrids es)[o]? with | some x => x.answer q | none => .error .attribute)]
      | _ => [])) := fun hl hne => by
      rw [hl]
      cases e with
      | ask o q => exact absurd rfl (hne o q)
      | _ => simpa [shown] using hf
    cases e with
    | create g q =>
      obtain ⟨own', h1, h2⟩ := hi.create g q
      exact ⟨own', h1, plain h2 (by simp)⟩
    | setAll o' n v =>
      obtain ⟨own', h1, h2⟩ := hi.setAll o' n v
      exact ⟨own', h1, plain h2 (by simp)⟩
    | setCell o' n v id coords =>
      refine ⟨own, hi.setCell o' n v id coords, plain ?_ (by simp)⟩
      simp only [World.step, World.setCell]
      split
      · rfl
      · split
        · rfl
        · split <;> rfl
    | write k i v =>
      refine ⟨own, hi.written k (fun L => hsp k L rfl) _, plain ?_ (by simp)⟩
      simp only [World.step]; split <;> rfl
    | writeId k i v =>
      refine ⟨own, hi.written k (fun L => hsp k L rfl) _, plain ?_ (by simp)⟩
      simp only [World.step]; split <;> rfl
    | ask o' q =>
      obtain ⟨own', h1, L, h2, h3, h4, h5⟩ := hi.ask o' q
      refine ⟨own', h1, ?_⟩
      have e1 : ((run es).step (.ask o' q)).log = (run es).log ++ [L] := h2
      rw [e1, List.map_append, List.filter_append, List.filter_append]
      have hf' : List.filter (fun a => a.1 = o) ((run es).log.map fun e => (e.obj, e.query, e.shown)) = List.filter (fun a => a.1 = o) (expected es) := hf
      rw [hf']
      congr 1
      simp only [List.map_cons, List.map_nil, h3, h4]
      by_cases ho : o' = o
      · rw [h5 ho]; subst ho; rfl
      · simp [ho]

/-- **C90** (answers are the grid's own), partial: in every history of grids being made, properties set, questions asked and arrays handed out being written into, the questions about a grid are answered from the sizes it was made
with and the properties set last, provided that what was written into were answers about other grids and answers of `get_prop` and the like. -/
theorem C90_own_data_partial (o : ℕ) (es : List (Event K)) (h : Spares o es) : (shown es).filter (fun a => a.1 = o) = (expected es).filter (fun a => a.1 = o) :=
  (history o es h).choose_spec.2

/-- Without writing, every answer is right. -/
theorem C90_no_writes (es : List (Event K)) (h : ∀ e, e ∈ es → e.target = none) (o : ℕ) : (shown es).filter (fun a => a.1 = o) = (expected es).filter (fun a => a.1 = o) :=
  C90_own_data_partial o es fun pre e post k L he hk => by
    have := h e (by rw [he]; simp)
    rw [this] at hk; simp at hk

/-! ## What writing into a grid's answers does -/

/-- The first grid. -/
def firstGrid (g : Dims) : Grid := ⟨g, fun a => match a with | .x => 0 | .y => 1 | .z => 2, fun a => match a with | .x => 3 | .y => 4 | .z => 5, 6, fun _ => none, 7⟩

lemma create_first (g : Dims) (q : Geom K) : ({} : World K).create g q =
    { heap := [.num q.dx, .num q.dy, .num q.dz, .num (q.A .x), .num (q.A .y), .num (q.A .z), .num q.V, .ids g.innerIds], grids := [firstGrid g],
      cache := Function.update (fun _ => []) 6 [((0, Query.ids false 0), 7)], log := [] } := by
  unfold World.create World.call
  simp only [Query.isProp, World.body, Query.fn, Query.max, g.getCellsId_false, Except.map, World.alloc, lruCall, List.getElem?_concat_length, Bool.false_eq_true, if_false]
  simp [firstGrid, trunc]
  constructor <;> (funext a; cases a <;> rfl)

lemma beq_no {α : Type} [DecidableEq α] {a b : α} (h : a ≠ b) : (a == b) = false := by simpa using h

/-- **C90** fails: `get_cells_d(dir, True)` hands out the grid's own array. Whatever is written into it is the size of that cell from then on, in every later answer, while areas and volumes stay those of the old size. -/
theorem C90_sizes_fails (g : Dims) (q : Geom K) (a b : Axis) (f f' f2 f3 : Bool) (n n' n2 n3 i : ℕ) (v : K) :
    (shown [.create g q, .ask 0 (.size a true f n), .write 0 i v, .ask 0 (.size a true f' n'), .ask 0 (.area b true f2 n2), .ask 0 (.volume true f3 n3)]).map (·.2.2) =
      [.ok (.num (q.d a)), .ok (.num ((q.d a).set i v)), .ok (.num (q.A b)), .ok (.num q.V)] := by
  unfold shown run
  simp only [List.foldl_cons, List.foldl_nil, World.step, create_first]
  by_cases hq : Query.size a true f' n' = Query.size a true f n
  · cases a <;> cases b <;> simp [World.ask, World.call, Query.isProp, World.body, Query.fn, Query.max, World.viewOr, World.alloc, lruCall, trunc, List.lookup_cons, hq, firstGrid, World.answer, Except.bind, World.look, Arr.setNum, Geom.d]
  · have hb := beq_no (a := ((0 : ℕ), Query.size a true f' n')) (b := (0, Query.size a true f n)) (by simpa using hq)
    cases a <;> cases b <;> simp [World.ask, World.call, Query.isProp, World.body, Query.fn, Query.max, World.viewOr, World.alloc, lruCall, trunc, List.lookup_cons, hb, firstGrid, World.answer, Except.bind, World.look, Arr.setNum, Geom.d]

/-- **C90** fails: `get_cells_d(dir, False)` hands out a copy, but the cache keeps it. What is written into it is seen by the same call again, and not by a call that spells its arguments differently. -/
theorem C90_copies_fails (g : Dims) (q : Geom K) (a : Axis) (f : Bool) {n n' : ℕ} (hn : n' ≠ n) (i : ℕ) (v : K) {l : List K} (hl : Geom.cells g (q.d a) false = .ok l) :
    (shown [.create g q, .ask 0 (.size a false f n), .write 0 i v, .ask 0 (.size a false f n), .ask 0 (.size a false f n')]).map (·.2.2) =
      [.ok (.num l), .ok (.num (l.set i v)), .ok (.num l)] := by
  have hp : Geom.pick (q.d a) g.innerIds = .ok l := by simpa [Geom.cells, g.getCellsId_false] using hl
  have hb := beq_no (a := ((0 : ℕ), Query.size a false f n')) (b := (0, Query.size a false f n)) (by simpa using hn)
  unfold shown run
  simp only [List.foldl_cons, List.foldl_nil, World.step, create_first]
  cases a <;> simp only [Geom.d] at hp <;>
    simp [World.ask, World.call, Query.isProp, World.body, Query.fn, Query.max, World.viewOr, World.nums, World.idsAt, hp, Except.map, World.alloc, lruCall, trunc, List.lookup_cons, hb, firstGrid, World.answer, Except.bind, World.look, Arr.setNum]

lemma times_set {n : ℕ} {c : PVal K} {l : List K} (h : broadcast n c = .ok l) (hn : l.length = n) (i : ℕ) (v : K) :
    times ((List.replicate n 1).set i v) c = .ok (l.set i (v * l.getD i 0)) := by
  have hrep : ∀ a : K, ((List.replicate n 1).set i v).map (· * a) = (List.replicate n a).set i (v * (List.replicate n a).getD i 0) := fun a => by
    apply List.ext_getElem
    · simp
    · intro j h1 h2
      simp only [List.length_map, List.length_set, List.length_replicate] at h1
      by_cases hj : i = j
      · subst hj; simp [h1]
      · simp [List.getElem_set, hj]
  cases c with
  | num a =>
    cases h
    exact congrArg Except.ok (hrep a)
  | arr m =>
    simp only [times, broadcast, List.length_set, List.length_replicate] at h ⊢
    split at h
    · rename_i hm
      cases h
      rw [if_pos hm]
      congr 1
      apply List.ext_getElem
      · simp [hm]
      · intro j h1 h2
        simp only [List.length_set] at h2
        by_cases hj : i = j
        · subst hj; simp [h2]
        · simp [List.getElem_set, hj]
    · rename_i hm
      rw [if_neg hm]
      split at h
      · cases h
        exact congrArg Except.ok (hrep _)
      · split at h
        · cases h
          exact absurd hn hm
        · cases h

/-- **C90** fails: `set_prop` multiplies its value with the array `get_ones` keeps. After a write into an answer of `get_ones(True, False, False)`, a property set to a number, an array with one item or an array of all cells
is multiplied with what was written in that cell. -/
theorem C90_ones_fails (g : Dims) (q : Geom K) (i : ℕ) (v : K) (c : PVal K) (p : PName) (f : Bool) {l : List K} (hl : broadcast (g.getN true) c = .ok l) (hn : l.length = g.getN true) :
    (shown [.create g q, .ask 0 (.ones true false 0), .write 0 i v, .setAll 0 p c, .ask 0 (.prop p true f)]).map (·.2.2) =
      [.ok (.num (List.replicate (g.getN true) 1)), .ok (.num (l.set i (v * l.getD i 0)))] := by
  have ht := times_set hl hn i v
  unfold shown run
  simp only [List.foldl_cons, List.foldl_nil, World.step, create_first]
  simp [World.ask, World.call, World.setAll, ht, Query.isProp, World.body, Query.fn, Query.max, World.viewOr, World.nums, Except.map, World.alloc, lruCall, trunc, List.lookup_cons, firstGrid, World.answer,
    Except.bind, World.look, Arr.setNum]

/-- **C90** fails: the grid picks the cells of its answers with the array that `get_cells_id(False, False, "array")` hands out. After a write into it, answers for cells without boundary are those of other cells. -/
theorem C90_ids_fails (g : Dims) (q : Geom K) (i j : ℕ) (p : PName) (c : PVal K) (f : Bool) {l m : List K} (hl : broadcast (g.getN true) c = .ok l) (hm : Geom.pick l (g.innerIds.set i j) = .ok m) :
    (shown [.create g q, .setAll 0 p c, .ask 0 (.ids false 0), .writeId 0 i j, .ask 0 (.prop p false f)]).map (·.2.2) = [.ok (.ids g.innerIds), .ok (.num m)] := by
  unfold shown run
  simp only [List.foldl_cons, List.foldl_nil, World.step, create_first]
  simp [World.ask, World.call, World.setAll, times_ones, hl, hm, Query.isProp, World.body, Query.fn, Query.max, World.viewOr, World.nums, World.idsAt, g.getCellsId_false, Except.map, World.alloc, lruCall, trunc, List.lookup_cons, firstGrid, World.answer,
    Except.bind, World.look, Arr.setId]

/-! ## Concrete histories -/

/-- A grid with three cells and boundary cells of different sizes. -/
def exAliasGrid : Dims := ⟨3, 1, 1, false, by decide, by decide, by decide⟩
-- what `C90_ones_fails` asks of the value, for an array with one item
example : ∃ l, broadcast (exAliasGrid.getN true) (.arr [(20 : ℚ)]) = .ok l ∧ l.length = exAliasGrid.getN true ∧ l.set 2 (7 * l.getD 2 0) ≠ l := ⟨[20, 20, 20, 20, 20], by rfl, by rfl, by decide +kernel⟩
/-- Its sizes. -/
def exAliasGeom : Geom ℚ := ⟨[1, 2, 3, 4, 5], [6], [7], [1, 2, 3, 4, 5], [6, 6, 6, 6, 6], [7, 7, 7, 7, 7]⟩
/-- Two grids; sizes of the second and the answer about permeabilities of the first are overwritten by the caller; then the first grid is asked. -/
def exAliasHist : List (Event ℚ) :=
  [.create exAliasGrid exAliasGeom, .create exAliasGrid exAliasGeom, .setAll 0 .kx (.num 20), .ask 1 (.size .x true false 0), .write 0 2 100, .ask 0 (.prop .kx true false), .write 1 3 7, .setCell 0 .kx 30 (some 2) none,
    .ask 0 (.size .x true false 0), .ask 0 (.prop .kx false false), .ask 1 (.size .x true false 0)]

deriving instance DecidableEq for Except

lemma exAliasHist_spares : Spares 0 exAliasHist := by
  intro pre e post k L he hk hL
  have hlen : pre.length ≤ 10 := by have := congrArg List.length he; simp [exAliasHist] at this; omega
  have hpre : pre = exAliasHist.take pre.length := by rw [he]; simp
  have hee : exAliasHist[pre.length]? = some e := by rw [he]; simp
  generalize pre.length = j at hlen hpre hee
  subst hpre
  have h4 : j = 4 ∨ j = 6 := by
    interval_cases j <;> simp [exAliasHist] at hee <;> subst hee <;> simp [Event.target] at hk <;> simp
  rcases h4 with rfl | rfl
  · obtain rfl : k = 0 := by simp [exAliasHist] at hee; subst hee; simpa [Event.target, eq_comm] using hk
    have : ((run (exAliasHist.take 4)).log[0]?).map (fun L => decide (L.obj ≠ 0)) = some true := by decide +kernel
    rw [hL] at this
    left; simpa using this
  · obtain rfl : k = 1 := by simp [exAliasHist] at hee; subst hee; simpa [Event.target, eq_comm] using hk
    have : ((run (exAliasHist.take 6)).log[1]?).map (fun L => L.query.isProp) = some true := by decide +kernel
    rw [hL] at this
    right; simpa using this

example : (shown exAliasHist).map (·.2.2) = [.ok (.num [1, 2, 3, 4, 5]), .ok (.num [20, 20, 20, 20, 20]), .ok (.num [1, 2, 3, 4, 5]), .ok (.num [20, 30, 20]), .ok (.num [1, 2, 100, 4, 5])] := by
  decide +kernel
example : (shown exAliasHist).filter (fun a => a.1 = 0) = (expected exAliasHist).filter (fun a => a.1 = 0) := C90_own_data_partial 0 _ exAliasHist_spares

/-- **C90** as one would like it fails: there is a history after which a grid does not answer from its own data. -/
theorem C90_fails : ¬ ∀ (es : List (Event ℚ)) (o : ℕ), (shown es).filter (fun a => a.1 = o) = (expected es).filter (fun a => a.1 = o) := by
  intro h
  have h1 := congrArg (List.map fun a => a.2.2) (h exAliasHist 1)
  revert h1
  decide +kernel

example : Geom.cells exAliasGrid (exAliasGeom.d .x) false = .ok [2, 3, 4] := by decide +kernel
example : broadcast (exAliasGrid.getN true) (.arr [1, 2, 3, 4, 5] : PVal ℚ) = .ok [1, 2, 3, 4, 5] ∧ Geom.pick [1, 2, 3, 4, 5] (exAliasGrid.innerIds.set 0 4) = .ok ([5, 3, 4] : List ℚ) := by decide +kernel

end RF.Alias
