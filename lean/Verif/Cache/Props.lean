import Verif.Cache.Model
import Verif.Geom.Props
import Verif.Trans.Lemmas3
/-!
# Properties of stored values and of caching (C17, C19)
-/
set_option linter.unusedSimpArgs false
set_option linter.unusedSectionVars false
namespace RF
open Spec Dims

/-! ## C19 -/

section Lru
variable {κ α : Type} [DecidableEq κ]

/-- Everything stored is right. -/
def Sound (f : κ → Except Err α) (c : List (κ × α)) : Prop := ∀ e ∈ c, f e.1 = .ok e.2

lemma mem_of_lookup {c : List (κ × α)} {k : κ} {v : α} (h : c.lookup k = some v) : (k, v) ∈ c := by
  induction c with
  | nil => cases h
  | cons e t ih =>
    obtain ⟨k', v'⟩ := e
    rw [List.lookup_cons] at h
    by_cases hk : k = k'
    · subst hk; simp at h; subst h; simp
    · rw [beq_false_of_ne hk] at h; exact List.mem_cons_of_mem _ (ih h)

lemma lookup_none {c : List (κ × α)} {k : κ} (h : c.lookup k = none) : k ∉ c.map Prod.fst := by
  induction c with
  | nil => simp
  | cons e t ih =>
    obtain ⟨k', v'⟩ := e
    rw [List.lookup_cons] at h
    by_cases hk : k = k'
    · subst hk; simp at h
    · rw [beq_false_of_ne hk] at h; simp only [List.map_cons, List.mem_cons, not_or]; exact ⟨hk, ih h⟩

lemma trunc_sublist {β : Type} (m : MaxSize) (l : List β) : (trunc m l).Sublist l := by
  cases m with
  | none => exact List.Sublist.refl _
  | some n => exact List.take_sublist _ _

/-- What holds of the cache at all times. -/
def Good (max : MaxSize) (f : κ → Except Err α) (c : List (κ × α)) : Prop :=
  Sound f c ∧ (c.map Prod.fst).Nodup ∧ ∀ n, max = some n → c.length ≤ n

lemma lruCall_good (max : MaxSize) (f : κ → Except Err α) (c : List (κ × α)) (k : κ) (h : Good max f c) :
    (lruCall max f c k).1 = f k ∧ Good max f (lruCall max f c k).2 := by
  obtain ⟨h1, h2, h3⟩ := h
  unfold lruCall
  cases hl : c.lookup k with
  | some v =>
    have hm := mem_of_lookup hl
    refine ⟨(h1 _ hm).symm, ?_, ?_, ?_⟩
    · intro e he
      rcases List.mem_cons.1 he with rfl | he
      · exact h1 _ hm
      · exact h1 _ (List.mem_of_mem_filter he)
    · simp only [List.map_cons, List.nodup_cons]
      refine ⟨?_, (List.Sublist.map _ List.filter_sublist).nodup h2⟩
      intro hc
      obtain ⟨e, he, e1⟩ := List.mem_map.1 hc
      have := (List.mem_filter.1 he).2
      simp only [ne_eq, decide_not, Bool.not_eq_eq_eq_not, Bool.not_true, decide_eq_false_iff_not] at this
      exact this e1
    · intro n hn
      have : (c.filter (fun e => e.1 ≠ k)).length < c.length := by
        rw [List.length_filter_lt_length_iff_exists]
        exact ⟨_, hm, by simp⟩
      have := h3 n hn
      simp only [List.length_cons]; omega
  | none =>
    cases hf : f k with
    | error e => exact ⟨rfl, h1, h2, h3⟩
    | ok v =>
      refine ⟨rfl, ?_, ?_, ?_⟩
      · intro e he
        rcases List.mem_cons.1 ((trunc_sublist max _).subset he) with rfl | he
        · exact hf
        · exact h1 _ he
      · exact ((trunc_sublist max _).map _).nodup (by simp only [List.map_cons, List.nodup_cons]; exact ⟨lookup_none hl, h2⟩)
      · rintro n rfl; simp only [trunc, List.length_take]; omega

lemma lruRun_good (max : MaxSize) (f : κ → Except Err α) (ks : List κ) (c : List (κ × α)) (h : Good max f c) :
    (lruRun max f c ks).1 = ks.map f ∧ Good max f (lruRun max f c ks).2 := by
  induction ks generalizing c with
  | nil => exact ⟨rfl, h⟩
  | cons k t ih =>
    obtain ⟨e1, g1⟩ := lruCall_good max f c k h
    obtain ⟨e2, g2⟩ := ih _ g1
    exact ⟨by simp only [lruRun, List.map_cons, e1, e2], g2⟩

/-- **C19** For a function of its arguments, every answer of the cached version is the answer of the function, after any
sequence of calls and for every cache size; the cache never holds more entries than its size, at most one for each key. -/
theorem C19_transparent (max : MaxSize) (f : κ → Except Err α) (ks : List κ) :
    (lruRun max f [] ks).1 = ks.map f ∧ (∀ n, max = some n → (lruRun max f [] ks).2.length ≤ n) ∧
      ((lruRun max f [] ks).2.map Prod.fst).Nodup := by
  obtain ⟨h1, _, h3, h4⟩ := lruRun_good max f ks [] ⟨by simp [Sound], by simp, by simp⟩
  exact ⟨h1, h4, h3⟩

/-- An unbounded cache evaluates the function at most once for each key: a key answered once is answered from the store
whatever the function would say later. -/
theorem C19_hit (max : MaxSize) (f f' : κ → Except Err α) (c : List (κ × α)) (k : κ) (v : α)
    (h : (lruCall max f c k).1 = .ok v) (hmax : max ≠ some 0) : (lruCall max f' (lruCall max f c k).2 k).1 = .ok v := by
  have key : ∀ l : List (κ × α), (trunc max ((k, v) :: l)).lookup k = some v := by
    intro l
    cases max with
    | none => simp [trunc]
    | some n => cases n with
      | zero => exact absurd rfl hmax
      | succ n => simp [trunc]
  unfold lruCall at h ⊢
  cases hl : c.lookup k with
  | some w =>
    rw [hl] at h
    simp only [Except.ok.injEq] at h
    subst h
    simp
  | none =>
    rw [hl] at h
    cases hf : f k with
    | error e => rw [hf] at h; simp at h
    | ok w =>
      rw [hf] at h
      simp only [Except.ok.injEq] at h
      subst h
      simp only [key]
end Lru

/-- Three calls through a cache of size one: the third is evaluated again because the second replaced the first. -/
example : (lruRun (some 1) (fun n : ℕ => if n = 7 then .error .value else .ok (n * n)) [] [3, 4, 3, 7]).2 = [(3, 9)] := by decide
example : (lruRun none (fun n : ℕ => if n = 7 then .error .value else .ok (n * n)) [] [3, 4, 3, 7]).2 = [(3, 9), (4, 16)] := by decide

/-! ## C17 -/

section
variable {K : Type}

/-- Value of a property at a cell. -/
def Props.at? (g : Dims) (p : Props K) (n : PName) (c : Cell) : Option K := (p n).bind fun l => l[cellNumber g.nx g.ny c]?

lemma mem_interior (g : Dims) : g.getCellsId false = .ok g.innerIds := g.getCellsId_false

lemma put_self (p : Props K) (n : PName) (l : List K) : p.put n l n = some l := by simp [Props.put]
lemma put_other (p : Props K) {n m : PName} (h : m ≠ n) (l : List K) : p.put n l m = p m := by simp [Props.put, h]

/-- **C17** Setting a number without a cell sets every cell, boundary cells included, and nothing else. -/
theorem C17_set_all (g : Dims) (p : Props K) (n : PName) (v : K) : ∃ p', setPropAll g p n (.num v) = .ok p' ∧
    (∀ c, InGrid g.nx g.ny g.nz c → p'.at? g n c = some v) ∧ (∀ m, m ≠ n → p' m = p m) ∧
    getProp g p' n true = .ok (List.replicate (g.getN true) v) ∧ getProp g p' n false = .ok (List.replicate (g.getN false) v) := by
  refine ⟨p.put n (List.replicate (g.getN true) v), rfl, ?_, fun m hm => put_other _ hm _, ?_, ?_⟩
  · intro c hc
    simp only [Props.at?, put_self, Option.bind_some]
    exact List.getElem?_replicate_of_lt (g.num_lt hc)
  · simp [getProp, put_self, Geom.cells]
  · have := cells_false g (fun _ => v)
    rw [getN_false]
    simp only [getProp, put_self]
    rw [List.map_const', List.length_range] at this
    rw [this, List.map_const', length_innerIds]

/-- **C17** Setting a list with one value for each cell of the padded grid stores exactly that list; a list of any other
length is refused, except that a one-element list counts as a number. -/
theorem C17_set_list (g : Dims) (p : Props K) (n : PName) (l : List K) :
    (l.length = padded g.nx * padded g.ny * padded g.nz → ∃ p', setPropAll g p n (.arr l) = .ok p' ∧
      (∀ c, InGrid g.nx g.ny g.nz c → p'.at? g n c = l[cellNumber g.nx g.ny c]?) ∧ (∀ m, m ≠ n → p' m = p m) ∧
      getProp g p' n true = .ok l) ∧
    (l.length ≠ padded g.nx * padded g.ny * padded g.nz → l.length ≠ 1 → 1 < padded g.nx * padded g.ny * padded g.nz →
      setPropAll g p n (.arr l) = .error .value) ∧
    (∀ v, l = [v] → setPropAll g p n (.arr l) = setPropAll g p n (.num v)) := by
  refine ⟨fun h => ?_, fun h h1 h2 => ?_, ?_⟩
  · refine ⟨p.put n l, ?_, ?_, fun m hm => put_other _ hm _, ?_⟩
    · simp only [setPropAll, broadcast]; rw [if_pos (by rw [getN_true, h])]; rfl
    · intro c _; simp [Props.at?, put_self]
    · simp [getProp, put_self, Geom.cells]
  · simp only [setPropAll, broadcast]; rw [if_neg (by rw [getN_true]; exact h)]
    match l, h1 with
    | [], _ => simp only []; rw [if_neg (by rw [getN_true]; omega)]; rfl
    | a :: b :: t, _ => simp only []; rw [if_neg (by rw [getN_true]; omega)]; rfl
  · rintro v rfl
    simp only [setPropAll, broadcast]
    split_ifs with h
    · rw [← h]; rfl
    · rfl

/-- The cell the caller means: by id, by coordinates, or both (the id wins). -/
inductive Selects (g : Dims) (c : Cell) : Option ℤ → Option (ℤ × ℤ × ℤ) → Prop where
  | id (co : Option (ℤ × ℤ × ℤ)) : Selects g c (some (cellNumber g.nx g.ny c : ℤ)) co
  | coords : Selects g c none (some ((c.1 : ℤ), (c.2.1 : ℤ), (c.2.2 : ℤ)))

lemma setPropCell_eq (g : Dims) (p : Props K) (n : PName) (v : K) {c : Cell} (hc : InGrid g.nx g.ny g.nz c) {id co}
    (hs : Selects g c id co) : setPropCell g p n v id co = (g.getCellIcoords ((c.1 : ℤ), (c.2.1 : ℤ), (c.2.2 : ℤ)) >>= fun ic =>
      match p n with
      | none => .error .type
      | some l => assign l ic v >>= fun l' => pure (p.put n l')) := by
  cases hs with
  | coords => rfl
  | id co =>
    have := g.getCellCoords_true (g.num_lt hc)
    rw [g.dec_num hc] at this
    simp only [setPropCell]
    rw [show ((cellNumber g.nx g.ny c : ℕ) : ℤ) = ((g.num c : ℕ) : ℤ) from rfl, this]
    rfl

/-- **C17, partial.** On a one-dimensional grid created with `unify=False`, setting a property at any cell but the first
changes exactly that cell. Missing: every other grid and the first cell, where the call is refused (`C17_cell_refused`). -/
theorem C17_set_cell_partial (g : Dims) (p : Props K) (n : PName) (v : K) (c : Cell) (hc : InGrid g.nx g.ny g.nz c)
    (hD : g.getD = 1) (hu : g.unify = false) (h0 : c ≠ (0, 0, 0)) (l : List K) (hl : p n = some l)
    (hlen : l.length = padded g.nx * padded g.ny * padded g.nz) {id co} (hs : Selects g c id co) :
    ∃ p', setPropCell g p n v id co = .ok p' ∧ p'.at? g n c = some v ∧
      (∀ c', InGrid g.nx g.ny g.nz c' → c' ≠ c → p'.at? g n c' = p.at? g n c') ∧ (∀ m, m ≠ n → p' m = p m) := by
  have hic : g.getCellIcoords ((c.1 : ℤ), (c.2.1 : ℤ), (c.2.2 : ℤ)) = .ok [g.num c] := by
    rw [icoords_eq g c hc, if_pos ⟨hu, by omega⟩]
    obtain ⟨i, j, k⟩ := c
    obtain ⟨a, b, d⟩ := hc
    refine g.cases8 ?_ ?_ ?_ ?_ ?_ ?_ ?_ ?_ <;> intro h1 h2 h3 <;>
      simp [getD_cases, h1, h2, h3, padded, num, cellNumber, number] at hD a b d h0 ⊢ <;>
      (try subst a) <;> (try subst b) <;> (try subst d) <;> simp at h0 ⊢ <;> simp [h0, Nat.pos_of_ne_zero]
  have hb : g.num c < l.length := by rw [hlen, ← getN_true]; exact g.num_lt hc
  refine ⟨p.put n (l.set (g.num c) v), ?_, ?_, ?_, fun m hm => put_other _ hm _⟩
  · rw [setPropCell_eq g p n v hc hs, hic, bind_ok, hl]
    simp only [assign]; rw [if_pos hb]; rfl
  · simp only [Props.at?, put_self, Option.bind_some]
    rw [show cellNumber g.nx g.ny c = g.num c from rfl, List.getElem?_set_self hb]
  · intro c' hc' hne
    simp only [Props.at?, put_self, hl, Option.bind_some]
    rw [List.getElem?_set_ne]
    intro h; exact hne (g.num_inj hc hc' h).symm

/-- **C17 fails** for every grid created with `unify=True`, every two- and three-dimensional grid, and the first cell of a
one-dimensional one: setting a property at a cell raises, so the property cannot be set there. -/
theorem C17_cell_refused (g : Dims) (p : Props K) (n : PName) (v : K) (c : Cell) (hc : InGrid g.nx g.ny g.nz c) {id co}
    (hs : Selects g c id co) (h : g.unify = true ∨ 2 ≤ g.getD ∨ (g.getD = 1 ∧ c = (0, 0, 0))) :
    ∃ e, setPropCell g p n v id co = .error e := by
  rw [setPropCell_eq g p n v hc hs, icoords_eq g c hc]
  have long : ∀ ic : List ℕ, 2 ≤ ic.length → ∃ e, ((Except.ok ic : Except Err (List ℕ)) >>= fun ic =>
      match p n with
      | none => .error .type
      | some l => assign l ic v >>= fun l' => pure (p.put n l')) = .error e := by
    intro ic hi
    rw [bind_ok]
    cases p n with
    | none => exact ⟨_, rfl⟩
    | some l => match ic, hi with
      | a :: b :: t, _ => exact ⟨_, rfl⟩
  by_cases hu : g.unify = false ∧ g.getD ≤ 2
  · rw [if_pos hu]
    by_cases hl : ([c.2.2, c.2.1, c.1].filter (0 < ·)).length = g.getD
    · rw [if_pos hl]
      rcases h with h | h | ⟨h, rfl⟩
      · rw [hu.1] at h; cases h
      · exact long _ (by omega)
      · simp [h] at hl
    · rw [if_neg hl]; exact ⟨_, rfl⟩
  · rw [if_neg hu]; exact long _ (by simp)

end

/-- The second cell of a non-unified column is set; other cells keep their value. -/
example : ∃ p', setPropCell g141 (fun _ => some [1, 2, 3, 4, 5, 6]) .kx (9 : ℚ) (some 2) none = .ok p' ∧
    p' .kx = some [1, 2, 9, 4, 5, 6] := ⟨_, rfl, rfl⟩
/-- On a unified or 2D grid the same call raises `IndexError`. -/
example : setPropCell g321 (fun _ => some (List.replicate 20 1)) .kx (9 : ℚ) (some 7) none = .error .index := rfl
example : g141.getD = 1 ∧ g141.unify = false ∧ Selects g141 (0, 2, 0) (some 2) none ∧ InGrid 1 4 1 (0, 2, 0) :=
  ⟨by decide, rfl, .id none, by decide⟩

end RF
