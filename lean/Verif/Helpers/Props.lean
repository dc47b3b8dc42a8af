import Verif.Helpers.Model
/-!
# Properties of the container helpers (C60)
-/
namespace RF

/-- The elements of a container. -/
def PyData.content : PyData → List Elem
  | .arr1 l => l.map .id
  | .arr2 l => l.map .pt
  | .list l | .tuple l | .set l | .obj l => l
  | .dict l => l.flatMap (·.2)

/-- All elements are ids, or all are points. -/
def Uniform (l : List Elem) : Prop := (∃ a : List ℤ, l = a.map .id) ∨ ∃ a : List Pt, l = a.map .pt

/-- Containers holding uniform data. Arrays always do, and a 0-d object array is not a container. -/
def PyData.Good : PyData → Prop
  | .obj _ => False
  | .set _ => True
  | d => Uniform d.content

lemma npArray_uniform (l : List Elem) (h : Uniform l) : ∃ out, npArray l = .ok out ∧ out.content = l ∧
    ((∃ a, out = .arr1 a) ∨ ∃ a, out = .arr2 a) := by
  rcases h with ⟨a, rfl⟩ | ⟨a, rfl⟩
  · rcases a with _ | ⟨x, a⟩
    · exact ⟨.arr1 [], by simp [npArray], rfl, .inl ⟨_, rfl⟩⟩
    · refine ⟨.arr1 (x :: a), ?_, rfl, .inl ⟨_, rfl⟩⟩
      simp [npArray, Elem.isPt, List.filterMap_map, Function.comp_def]
  · rcases a with _ | ⟨x, a⟩
    · exact ⟨.arr1 [], by simp [npArray], rfl, .inl ⟨_, rfl⟩⟩
    · refine ⟨.arr2 (x :: a), ?_, rfl, .inr ⟨_, rfl⟩⟩
      simp [npArray, Elem.isPt, List.filterMap_map, Function.comp_def]

lemma ispoints_ok (d : PyData) (h : d.Good) : ∃ b, ispoints d = .ok b := by
  have key : ∃ o, toArray d = .ok o := by
    cases d with
    | arr1 l => exact ⟨_, rfl⟩
    | arr2 l => exact ⟨_, rfl⟩
    | list l => obtain ⟨o, h, _⟩ := npArray_uniform l h; exact ⟨o, h⟩
    | tuple l => obtain ⟨o, h, _⟩ := npArray_uniform l h; exact ⟨o, h⟩
    | set l => exact ⟨_, rfl⟩
    | dict l => exact ⟨_, rfl⟩
    | obj l => exact absurd h id
  obtain ⟨o, ho⟩ := key
  unfold ispoints
  rw [ho]
  cases o <;> exact ⟨_, rfl⟩

/-- **C60** `reformat` to a list or tuple keeps the elements in order; to a set keeps exactly the elements, each once; to an
array keeps the elements in order unless the input is a set; a dictionary asked for as dictionary is returned unchanged. -/
theorem C60_reformat (d : PyData) (h : d.Good) :
    reformat d "list" = .ok (.list d.content) ∧
    reformat d "tuple" = .ok (.tuple d.content) ∧
    (∃ l, reformat d "set" = .ok (.set l) ∧ l.Nodup ∧ ∀ e, e ∈ l ↔ e ∈ d.content) ∧
    ((∀ l, d ≠ .set l) → ∃ out, reformat d "array" = .ok out ∧ out.content = d.content ∧
      ((∃ a, out = .arr1 a) ∨ ∃ a, out = .arr2 a)) ∧
    (∀ l, d = .dict l → reformat d "dict" = .ok d) := by
  have hd' : d.undict.Good := by cases d <;> exact h
  obtain ⟨b, hb⟩ := ispoints_ok d.undict hd'
  have hi : d.undict.iter = .ok d.content := by cases d <;> first | rfl | exact absurd h id
  have hr : ∀ fmt, fmt ≠ "dict" → reformat d fmt = (if fmt = "list" then .ok (.list d.content)
      else if fmt = "tuple" then .ok (.tuple d.content) else if fmt = "set" then .ok (.set d.content.dedup)
      else if fmt = "array" then toArray d.undict else .error .value) := by
    intro fmt hf
    unfold reformat
    rw [if_neg (by simp [hf]), hb, hi]
    rfl
  refine ⟨?_, ?_, ?_, ?_, ?_⟩
  · rw [hr _ (by decide), if_pos rfl]
  · rw [hr _ (by decide), if_neg (by decide), if_pos rfl]
  · refine ⟨d.content.dedup, ?_, List.nodup_dedup _, fun e => List.mem_dedup⟩
    rw [hr _ (by decide), if_neg (by decide), if_neg (by decide), if_pos rfl]
  · intro hs
    rw [hr _ (by decide), if_neg (by decide), if_neg (by decide), if_neg (by decide), if_pos rfl]
    cases d with
    | arr1 l => exact ⟨_, rfl, rfl, .inl ⟨_, rfl⟩⟩
    | arr2 l => exact ⟨_, rfl, rfl, .inr ⟨_, rfl⟩⟩
    | list l => exact npArray_uniform l h
    | tuple l => exact npArray_uniform l h
    | set l => exact absurd rfl (hs l)
    | dict l => exact npArray_uniform _ h
    | obj l => exact absurd h id
  · rintro l rfl; rfl

/-- **C60** Any other format is refused, and so is turning something else into a dictionary. -/
theorem C60_reformat_refused (d : PyData) (h : d.Good) (fmt : String) (h1 : fmt ∉ ["list", "tuple", "set", "array"])
    (h2 : fmt = "dict" → ∀ l, d ≠ .dict l) : reformat d fmt = .error .value := by
  have hd' : d.undict.Good := by cases d <;> exact h
  obtain ⟨b, hb⟩ := ispoints_ok d.undict hd'
  have hn : ¬ (d.isDict ∧ fmt = "dict") := by
    rintro ⟨a, b⟩
    cases d <;> first | exact h2 b _ rfl | exact absurd a (by simp [PyData.isDict])
  unfold reformat
  rw [if_neg hn, hb]
  simp only [List.mem_cons, List.not_mem_nil, or_false, not_or] at h1
  simp only [h1.1, h1.2.1, h1.2.2.1, h1.2.2.2, if_false]
  rfl

/-- **C60** A set asked for as an array is lost: the result is a 0-d array that cannot be iterated over. -/
theorem C60_set_to_array (l : List Elem) : ∃ out, reformat (.set l) "array" = .ok out ∧ out.iter = .error .type :=
  ⟨.obj l, rfl, rfl⟩

/-- **C60** `isin` tells exactly whether the element is in the container: for every list, tuple and set, every array of
points, and ids in an array of ids. -/
theorem C60_isin (x : Elem) (d : PyData) (h : d.Good) (hd : ∀ l, d ≠ .dict l) (hp : ∀ l p, d = .arr1 l → x ≠ .pt p) :
    ∃ b, isin x d = .ok b ∧ (b = true ↔ x ∈ d.content) := by
  cases d with
  | arr1 l =>
    cases x with
    | id n => exact ⟨_, rfl, by simp [PyData.content]⟩
    | pt p => exact absurd rfl (hp l p rfl)
  | arr2 l => exact ⟨_, rfl, by simp [PyData.content]⟩
  | list l => exact ⟨_, rfl, by simp [PyData.content]⟩
  | tuple l => exact ⟨_, rfl, by simp [PyData.content]⟩
  | set l => exact ⟨_, rfl, by simp [PyData.content]⟩
  | dict l => exact absurd rfl (hd l)
  | obj l => exact absurd h id

/-- **C60** `ispoints` answers yes for every array of points and every non-empty list or tuple of points, and no for
ids, empty sequences, sets and dictionaries (whatever they hold). -/
theorem C60_ispoints (d : PyData) (h : d.Good) : ∃ b, ispoints d = .ok b ∧ (b = true ↔ (∃ a, d = .arr2 a) ∨
    ∃ p a, d = .list (List.map .pt (p :: a)) ∨ d = .tuple (List.map .pt (p :: a))) := by
  have key : ∀ l, Uniform l → ∃ b, (do match ← npArray l with
      | .arr2 _ => (pure true : Except Err Bool)
      | _ => pure false) = .ok b ∧ (b = true ↔ ∃ p a, l = List.map .pt (p :: a)) := by
    rintro l (⟨a, rfl⟩ | ⟨a, rfl⟩)
    · refine ⟨false, ?_, by simp only [Bool.false_eq_true, false_iff]; rintro ⟨p, b, hb⟩; cases a <;> simp at hb⟩
      cases a with
      | nil => rfl
      | cons x a => simp [npArray, Elem.isPt]; rfl
    · cases a with
      | nil => exact ⟨false, rfl, by simp⟩
      | cons x a => exact ⟨true, by simp [npArray, Elem.isPt]; rfl, by simp only [true_iff]; exact ⟨x, a, rfl⟩⟩
  cases d with
  | arr1 l => exact ⟨false, rfl, by simp⟩
  | arr2 l => exact ⟨true, rfl, by simp⟩
  | list l => obtain ⟨b, h1, h2⟩ := key l h; exact ⟨b, h1, by rw [h2]; simp⟩
  | tuple l => obtain ⟨b, h1, h2⟩ := key l h; exact ⟨b, h1, by rw [h2]; simp⟩
  | set l => exact ⟨false, rfl, by simp⟩
  | dict l => exact ⟨false, rfl, by simp⟩
  | obj l => exact absurd h id

/-- **C60** A point looked up in an array of ids: refused unless the array has one or three entries; then the answer is yes
if some coordinate equals the only entry, or the entry at its place. -/
theorem C60_isin_point_flat (i j k : ℤ) (l : List ℤ) :
    (isin (.pt (i, j, k)) (.arr1 l) = .error .value ↔ l.length ≠ 1 ∧ l.length ≠ 3) ∧
    (isin (.pt (i, j, k)) (.arr1 l) = .ok true ↔
      (l.length = 1 ∧ (l[0]? = some i ∨ l[0]? = some j ∨ l[0]? = some k)) ∨
      (l.length = 3 ∧ (l[0]? = some i ∨ l[1]? = some j ∨ l[2]? = some k))) := by
  match l with
  | [] => simp [isin]
  | [a] => simp [isin, or_assoc]
  | [a, b] => simp [isin]
  | [a, b, c] => simp [isin, or_assoc]
  | a :: b :: c :: d :: l => simp [isin]

/-- **C60** Asking whether a point is in an array of three ids can answer yes: the comparison is broadcast. -/
theorem C60_isin_point_in_ids : isin (.pt (7, 8, 9)) (.arr1 [7, 0, 0]) = .ok true ∧
    Elem.pt (7, 8, 9) ∉ (PyData.arr1 [7, 0, 0]).content := by
  constructor
  · rfl
  · decide

/-- **C60** `intersection` returns exactly the points common to both arrays, in the order of one of them; without repetitions
if the inputs have none. -/
theorem C60_intersection (a b : List Pt) (fmt : String) (hf : fmt ∈ ["list", "tuple", "array"]) :
    ∃ (out : PyData) (l : List Pt), intersection a b fmt = .ok out ∧ out.content = l.map .pt ∧ (∀ p, p ∈ l ↔ p ∈ a ∧ p ∈ b) ∧
      (l.Sublist a ∨ l.Sublist b) ∧ (a.Nodup → b.Nodup → l.Nodup) := by
  let l := if max a.length 3 ≤ max b.length 3 then a.filter (fun p => b.any fun q => decide (Elem.pt q = Elem.pt p))
    else b.filter (fun p => a.any fun q => decide (Elem.pt q = Elem.pt p))
  have hm : ∀ p, p ∈ l ↔ p ∈ a ∧ p ∈ b := by
    intro p
    simp only [l]
    split_ifs <;> simp [List.mem_filter, and_comm]
  have hs : l.Sublist a ∨ l.Sublist b := by
    simp only [l]
    split_ifs
    · exact .inl List.filter_sublist
    · exact .inr List.filter_sublist
  have hn : a.Nodup → b.Nodup → l.Nodup := fun ha hb => hs.elim (fun h => ha.sublist h) fun h => hb.sublist h
  simp only [List.mem_cons, List.not_mem_nil, or_false] at hf
  by_cases h : fmt = "array"
  · obtain ⟨o, h1, h2, _⟩ := npArray_uniform (l.map .pt) (.inr ⟨l, rfl⟩)
    refine ⟨o, l, ?_, h2, hm, hs, hn⟩
    subst h
    exact h1
  · refine ⟨.list (l.map .pt), l, ?_, rfl, hm, hs, hn⟩
    have : fmt = "tuple" ∨ fmt = "list" := by tauto
    simp only [intersection, this, if_true]
    rfl

lemma chunks_flatten {α} (k : ℕ) (L : List (List α)) (h : ∀ r ∈ L, r.length = k) :
    (List.range L.length).map (fun i => (L.flatten.drop (i * k)).take k) = L := by
  induction L with
  | nil => rfl
  | cons r L ih =>
    have hr := h r (by simp)
    rw [List.length_cons, List.range_succ_eq_map, List.map_cons, List.map_map]
    congr 1
    · simp [← hr]
    · conv_rhs => rw [← ih (fun r' h' => h r' (by simp [h']))]
      refine List.map_congr_left fun i _ => ?_
      simp only [Function.comp, List.flatten_cons, Nat.succ_mul]
      rw [show i * k + k = r.length + i * k by omega, List.drop_append]
      simp [List.drop_eq_nil_of_le]

lemma enum_erase {α} (r : List α) (i : ℕ) :
    (enum r).filterMap (fun jv => if i ≠ jv.1 then some jv.2 else none) = r.eraseIdx i := by
  have key : ∀ (r : List α) (i s : ℕ), s ≤ i → ((List.range' s r.length).zip r).filterMap
      (fun jv => if i ≠ jv.1 then some jv.2 else none) = r.eraseIdx (i - s) := by
    intro r
    induction r with
    | nil => intro i s h; simp
    | cons a r ih =>
      intro i s h
      simp only [List.length_cons, List.range'_succ, List.zip_cons_cons, List.filterMap_cons]
      by_cases e : i = s
      · subst e
        simp only [ne_eq, not_true_eq_false, if_false, Nat.sub_self, List.eraseIdx_cons_zero]
        have : ∀ (r : List α) (s : ℕ), i < s → ((List.range' s r.length).zip r).filterMap
            (fun jv => if ¬ i = jv.1 then some jv.2 else none) = r := by
          intro r
          induction r with
          | nil => simp
          | cons a r ih => 
            intro s h
            simp only [List.length_cons, List.range'_succ, List.zip_cons_cons, List.filterMap_cons]
            rw [if_pos (by omega), ih _ (by omega)]
        exact this r _ (by omega)
      · rw [if_pos e, ih i (s + 1) (by omega), show i - s = (i - (s + 1)) + 1 by omega, List.eraseIdx_cons_succ]
  have := key r i 0 (Nat.zero_le _)
  rwa [← List.range_eq_range', Nat.sub_zero] at this

/-- **C60** `remove_diag` of any square matrix with at least one row: every row without its own diagonal entry, in order. -/
theorem C60_remove_diag {K : Type} (m : List (List K)) (h0 : m ≠ []) (hsq : ∀ r ∈ m, r.length = m.length) :
    ∃ out, removeDiag m = .ok out ∧ out.length = m.length ∧ ∀ i (hi : i < m.length), out[i]? = some (m[i].eraseIdx i) := by
  have h1 : m.any (fun r => decide (r.length ≠ m.length)) = false := by
    rw [List.any_eq_false]; intro r hr; simp [hsq r hr]
  have h2 : m.length ≠ 0 := by simpa using h0
  let L := (enum m).map fun ir => ir.2.eraseIdx ir.1
  have hL : L.length = m.length := by simp [L, enum]
  have hk : ∀ r ∈ L, r.length = m.length - 1 := by
    intro r hr
    simp only [L, List.mem_map] at hr
    obtain ⟨⟨i, r'⟩, h, rfl⟩ := hr
    have hi : i < m.length := by
      have := (List.of_mem_zip h).1
      simpa using this
    have hr' := hsq r' (List.of_mem_zip h).2
    rw [List.length_eraseIdx, if_pos (by simp only; omega), hr']
  have hf : ((enum m).flatMap fun ir => (enum ir.2).filterMap fun jv => if ir.1 ≠ jv.1 then some jv.2 else none)
      = L.flatten := by
    rw [List.flatMap_def]
    congr 1
    refine List.map_congr_left fun ir _ => enum_erase _ _
  refine ⟨L, ?_, hL, fun i hi => ?_⟩
  · unfold removeDiag
    simp only [h1, h2, hf]
    have := chunks_flatten _ L hk
    rw [hL] at this
    simp [this]
  · rw [List.getElem?_eq_getElem (by omega)]
    simp [L, enum]

/-- **C60** Anything that is not square is refused. -/
theorem C60_remove_diag_refused {K : Type} (m : List (List K)) (h : ∃ r ∈ m, r.length ≠ m.length) :
    removeDiag m = .error .index := by
  unfold removeDiag
  have : m.any (fun r => decide (r.length ≠ m.length)) = true := by
    rw [List.any_eq_true]; obtain ⟨r, h, h'⟩ := h; exact ⟨r, h, by simp [h']⟩
  simp only [this, if_true]

example : (PyData.dict [("x", [.id 4, .id 2]), ("y", [.id 4])]).Good := .inl ⟨[4, 2, 4], rfl⟩
example : reformat (.dict [("x", [.id 4, .id 2]), ("y", [.id 4])]) "list" = .ok (.list [.id 4, .id 2, .id 4]) := rfl
example : reformat (.arr2 [(1, 0, 0), (2, 0, 0)]) "tuple" = .ok (.tuple [.pt (1, 0, 0), .pt (2, 0, 0)]) := rfl
example : intersection [(1, 0, 0), (2, 0, 0)] [(2, 0, 0), (5, 5, 5)] "list" = .ok (.list [.pt (2, 0, 0)]) := rfl
example : removeDiag [[1, 2, 3], [4, 5, 6], [7, 8, 9]] = .ok [[2, 3], [4, 6], [7, 8]] := rfl
end RF
