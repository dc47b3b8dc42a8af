import Verif.Objects.Fluid
/-!
# Well objects and reports (C83)
-/
set_option linter.unusedSectionVars false
namespace RF.Objects
open RF

namespace Well
variable {K : Type} [Field K] [LinearOrder K] [IsStrictOrderedRing K]

/-! ## Specification -/

/-- The properties of a well object. -/
inductive Prp where | cell | q | s | r | con
  deriving DecidableEq

/-- The attribute that shows a property. -/
def Prp.attr : Prp → String
  | .cell => "cell_id" | .q => "q" | .s => "s" | .r => "r" | .con => "constrain"

/-- The method that sets a property. -/
def Prp.setter : Prp → String
  | .cell => "set_cell_id" | .q => "set_q" | .s => "set_s" | .r => "set_r" | .con => "set_constrain"

/-- The values that arguments `cell_id, q, s, r, constrain` give: values that are neither `None` nor zero (nor an empty text), and always a constraint. -/
def fromArgs (args : List (Val K)) : List (Prp × Val K) :=
  ((List.zip [Prp.cell, .q, .s, .r] args).filter fun e => e.2 ≠ Val.none ∧ e.2 ≠ .num 0 ∧ e.2 ≠ .str "" ∧ e.2 ≠ .flag false) ++ [(.con, args.getD 4 .none)]

/-- The values given by a call. -/
def gives : Call K → List (Prp × Val K)
  | .call "set_cell_id" [v] => [(.cell, v)]
  | .call "set_q" [v] => [(.q, v)]
  | .call "set_s" [v] => [(.s, v)]
  | .call "set_r" [v] => [(.r, v)]
  | .call "set_constrain" [v] => [(.con, v)]
  | .call "set_props" args => if args.length ≤ 5 then fromArgs args else []
  | _ => []

/-- The last value given for a property. -/
def last (p : Prp) : List (Prp × Val K) → Option (Val K)
  | [] => none
  | e :: l => (last p l).or (if e.1 = p then some e.2 else none)

/-- Calls of the methods by their short names. -/
def Plain : Call K → Prop
  | .call name _ => name ∈ ["set_cell_id", "set_q", "set_s", "set_r", "set_constrain", "set_props", "allow_synonyms"]
  | .units _ => True

/-- Long names of methods, and the short ones. -/
def long : List (String × String) := [("set_properties", "set_props"), ("set_rate", "set_q"), ("set_skin", "set_s"), ("set_radius", "set_r")]

/-- Long names of attributes, and the short ones. -/
def longAttrs : List (String × String) := [("rate", "q"), ("skin", "s"), ("radius", "r")]

/-! ### states -/

/-- All names of attributes a well can have. -/
def names : List String :=
  ["unit", "units", "factors", "cell_id", "q", "s", "r", "constrain", "set_properties", "set_rate", "rate", "set_skin", "skin", "set_radius", "radius"]

/-- The states of a well. -/
structure We (o : Obj K) : Prop where
  only : ∀ n, n ∉ names → dictGet o n = none
  meth : ∀ e ∈ long, dictGet o e.1 = none ∨ dictGet o e.1 = some (.method e.2)

/-- The assignments of several setters. -/
def assigns (l : List (Prp × Val K)) (o : Obj K) : Obj K := l.foldl (fun o e => dictSet o e.1.attr e.2) o

lemma attr_inj {p q : Prp} : p.attr = q.attr ↔ p = q := by cases p <;> cases q <;> simp [Prp.attr]

lemma attr_names (p : Prp) : p.attr ∈ names := by cases p <;> decide

lemma attr_long (p : Prp) : ∀ e ∈ long, p.attr ≠ e.1 := by
  intro e he
  simp only [long, List.mem_cons, List.not_mem_nil, or_false] at he
  rcases he with rfl | rfl | rfl | rfl <;> cases p <;> decide

lemma attr_longAttrs (p : Prp) : ∀ e ∈ longAttrs, p.attr ≠ e.1 := by
  intro e he
  simp only [longAttrs, List.mem_cons, List.not_mem_nil, or_false] at he
  rcases he with rfl | rfl | rfl <;> cases p <;> decide

lemma get_assigns_not (l : List (Prp × Val K)) (o : Obj K) {n : String} (h : ∀ p : Prp, p.attr ≠ n) : dictGet (assigns l o) n = dictGet o n := by
  induction l generalizing o with
  | nil => rfl
  | cons e l ih => exact (ih _).trans (by rw [dictGet_set, if_neg (h e.1)])

lemma assigns_own (l : List (Prp × Val K)) (o : Obj K) (p : Prp) : dictGet (assigns l o) p.attr = (last p l).or (dictGet o p.attr) := by
  induction l generalizing o with
  | nil => rfl
  | cons e l ih =>
    show dictGet (assigns l (dictSet o e.1.attr e.2)) p.attr = ((last p l).or (if e.1 = p then some e.2 else none)).or _
    rw [ih, dictGet_set, Option.or_assoc]
    congr 1
    by_cases he : e.1 = p
    · rw [if_pos (attr_inj.2 he), if_pos he]; rfl
    · rw [if_neg (mt attr_inj.1 he), if_neg he]; rfl

lemma We.assigned {o : Obj K} (h : We o) (l : List (Prp × Val K)) : We (assigns l o) where
  only n hn := by rw [get_assigns_not l o (n := n) fun p e => hn (e ▸ attr_names p), h.only n hn]
  meth e he := by rw [get_assigns_not _ _ fun p => attr_long p e he]; exact h.meth e he

lemma We.empty : We ([] : Obj K) := ⟨fun _ _ => rfl, fun _ _ => .inl rfl⟩

/-- What `allow_synonyms` may assign. -/
def SynW (n : String) (v : Val K) : Prop :=
  n ∈ ["set_properties", "set_rate", "rate", "set_skin", "skin", "set_radius", "radius"] ∧ ∀ e ∈ long, n = e.1 → v = .method e.2

lemma synonyms_writes : Writes SynW (allowSynonyms : Act K) := by
  refine Writes.each fun a ha => ?_
  simp only [List.mem_cons, List.not_mem_nil, or_false] at ha
  rcases ha with rfl | rfl | rfl | rfl | rfl | rfl | rfl
  all_goals first
    | exact Writes.put ⟨by simp, by simp [long]⟩
    | exact Writes.copy fun v => ⟨by simp, by simp [long]⟩

lemma syn_kept (o : Obj K) {n : String} (h : n ∉ ["set_properties", "set_rate", "rate", "set_skin", "skin", "set_radius", "radius"]) :
    dictGet (allowSynonyms o).1 n = dictGet o n := (synonyms_writes o n).resolve_right fun ⟨_, h1, _⟩ => h h1.1

lemma We.synonyms {o : Obj K} (h : We o) : We (allowSynonyms o).1 where
  only n hn := by
    rw [syn_kept _ fun H => hn ?_, h.only n hn]
    simp at H
    rcases H with rfl | rfl | rfl | rfl | rfl | rfl | rfl <;> simp [names]
  meth e he := by
    rcases synonyms_writes o e.1 with H | ⟨v, h1, h2⟩
    · rw [H]; exact h.meth e he
    · rw [h2, h1.2 e he rfl]; exact .inr rfl

lemma We.units {o : Obj K} (h : We o) (u : String) : We (setUnits u o).1 ∧ ∀ n, n ∉ ["unit", "units", "factors"] → dictGet (setUnits u o).1 n = dictGet o n := by
  by_cases hu : Known u
  · rw [setUnits_known hu]
    have key : ∀ n, n ∉ ["unit", "units", "factors"] → dictGet (puts [("unit", Val.str u), ("units", .units u), ("factors", .factors u)] o) n = dictGet o n :=
      fun n hn => get_puts_not _ _ hn
    refine ⟨⟨fun n hn => ?_, fun e he => ?_⟩, key⟩
    · rw [key n fun H => hn (by simp at H; rcases H with rfl | rfl | rfl <;> simp [names]), h.only n hn]
    · rw [key]
      · exact h.meth e he
      · simp only [long, List.mem_cons, List.not_mem_nil, or_false] at he
        rcases he with rfl | rfl | rfl | rfl <;> decide
  · rw [setUnits_unknown hu]
    exact ⟨h, fun _ _ => rfl⟩

lemma truthy_iff (v : Val K) : truthy v = true ↔ v ≠ .none ∧ v ≠ .num 0 ∧ v ≠ .str "" ∧ v ≠ .flag false := by
  cases v <;> simp [truthy]

/-- What an argument gives that may be left out. -/
def opt (p : Prp) (v : Val K) : List (Prp × Val K) := if truthy v then [(p, v)] else []

lemma ifTrue_eq (p : Prp) (v : Val K) (o : Obj K) : ifTrue p.attr v o = (assigns (opt p v) o, .ok ()) := by
  unfold ifTrue opt
  split_ifs <;> rfl

lemma setProps_eq (c q s r k : Val K) (o : Obj K) : setProps c q s r k o = (assigns (opt .cell c ++ opt .q q ++ opt .s s ++ opt .r r ++ [(.con, k)]) o, .ok ()) := by
  have e1 : ifTrue "cell_id" c o = _ := ifTrue_eq .cell c o
  have e2 : ifTrue "q" q _ = _ := ifTrue_eq .q q (assigns (opt .cell c) o)
  have e3 : ifTrue "s" s _ = _ := ifTrue_eq .s s (assigns (opt .q q) (assigns (opt .cell c) o))
  have e4 : ifTrue "r" r _ = _ := ifTrue_eq .r r (assigns (opt .s s) (assigns (opt .q q) (assigns (opt .cell c) o)))
  have e5 : (ifTrue "cell_id" c ;; ifTrue "q" q ;; ifTrue "s" s ;; ifTrue "r" r) o = _ :=
    (Fluid.then_ok ((Fluid.then_ok ((Fluid.then_ok e1).trans e2)).trans e3)).trans e4
  refine (Fluid.then_ok e5).trans ?_
  have ap : ∀ (l l' : List (Prp × Val K)) (o : Obj K), assigns (l ++ l') o = assigns l' (assigns l o) := fun _ _ _ => List.foldl_append
  rw [ap, ap, ap, ap]; rfl

lemma opt_filter (p : Prp) (v : Val K) (l : List (Prp × Val K)) :
    ((p, v) :: l).filter (fun e => decide (e.2 ≠ Val.none ∧ e.2 ≠ .num 0 ∧ e.2 ≠ .str "" ∧ e.2 ≠ .flag false)) =
      opt p v ++ l.filter fun e => decide (e.2 ≠ Val.none ∧ e.2 ≠ .num 0 ∧ e.2 ≠ .str "" ∧ e.2 ≠ .flag false) := by
  unfold opt
  by_cases h : truthy v = true
  · rw [if_pos h, List.filter_cons_of_pos (by simpa using (truthy_iff v).1 h)]; rfl
  · rw [if_neg h, List.filter_cons_of_neg (fun H => h ((truthy_iff v).2 (by simpa using H)))]; rfl

lemma opt_none (p : Prp) : opt p (Val.none : Val K) = [] := rfl

lemma fromArgs_pad {args : List (Val K)} (h : args.length ≤ 5) :
    opt .cell (Fluid.arg args 0) ++ opt .q (Fluid.arg args 1) ++ opt .s (Fluid.arg args 2) ++ opt .r (Fluid.arg args 3) ++ [(.con, Fluid.arg args 4)] = fromArgs args := by
  unfold fromArgs
  match args, h with
  | [], _ => rfl
  | [a], _ => simp only [List.zip_cons_cons, List.zip_nil_right, opt_filter, List.filter_nil, Fluid.arg]; simp [opt_none]
  | [a, b], _ => simp only [List.zip_cons_cons, List.zip_nil_right, opt_filter, List.filter_nil, Fluid.arg]; simp [opt_none]
  | [a, b, c], _ => simp only [List.zip_cons_cons, List.zip_nil_right, opt_filter, List.filter_nil, Fluid.arg]; simp [opt_none]
  | [a, b, c, d], _ => simp only [List.zip_cons_cons, List.zip_nil_right, opt_filter, List.filter_nil, Fluid.arg]; simp [opt_none]
  | [a, b, c, d, e], _ => simp only [List.zip_cons_cons, List.zip_nil_left, opt_filter, List.filter_nil, Fluid.arg]; simp [opt_none]
  | _ :: _ :: _ :: _ :: _ :: _ :: _, h => simp at h

lemma make_eq (c q s r k : Val K) : make c q s r k = assigns (fromArgs [c, q, s, r, k]) [] := by
  unfold make
  rw [setProps_eq, ← fromArgs_pad (by simp)]; rfl

lemma invoke_class {o : Obj K} (h : We o) {n : String} (hn : n ∉ names) {f : List (Val K) → Act K} (hf : cls n = some f) (args : List (Val K)) :
    invoke cls n args o = f args o := by
  unfold invoke
  rw [h.only n hn]
  dsimp only
  rw [hf]

lemma We.calls {o : Obj K} (h : We o) {c : Call K} (hc : Plain c) :
    (∃ l, c = .call "allow_synonyms" l ∧ ((c.act cls o).1 = o ∨ l = [] ∧ (c.act cls o).1 = (allowSynonyms o).1) ∧ gives c = []) ∨ (∃ u', c = .units u' ∧ gives c = []) ∨
      (c.act cls o).1 = assigns (gives c) o ∧ ∀ l, c ≠ .call "allow_synonyms" l := by
  cases c with
  | units u' => exact .inr (.inl ⟨u', rfl, rfl⟩)
  | call name args =>
    simp only [Plain, List.mem_cons, List.not_mem_nil, or_false] at hc
    have setter : ∀ (p : Prp), cls (K := K) p.setter = some (one (put p.attr)) → p.setter ∉ names → (gives (.call p.setter args) = match args with | [v] => [(p, v)] | _ => []) →
        (invoke cls p.setter args o).1 = assigns (gives (.call p.setter args)) o := by
      intro p hp hn hs
      rw [invoke_class h hn hp, hs]
      match args with
      | [] => rfl
      | [v] => rfl
      | _ :: _ :: _ => rfl
    rcases hc with rfl | rfl | rfl | rfl | rfl | rfl | rfl
    · exact .inr (.inr ⟨setter .cell rfl (by decide) (by match args with | [] => rfl | [v] => rfl | _ :: _ :: _ => rfl), by simp⟩)
    · exact .inr (.inr ⟨setter .q rfl (by decide) (by match args with | [] => rfl | [v] => rfl | _ :: _ :: _ => rfl), by simp⟩)
    · exact .inr (.inr ⟨setter .s rfl (by decide) (by match args with | [] => rfl | [v] => rfl | _ :: _ :: _ => rfl), by simp⟩)
    · exact .inr (.inr ⟨setter .r rfl (by decide) (by match args with | [] => rfl | [v] => rfl | _ :: _ :: _ => rfl), by simp⟩)
    · exact .inr (.inr ⟨setter .con rfl (by decide) (by match args with | [] => rfl | [v] => rfl | _ :: _ :: _ => rfl), by simp⟩)
    · refine .inr (.inr ⟨?_, by simp⟩)
      show (invoke cls "set_props" args o).1 = _
      rw [invoke_class h (by decide) rfl]
      show _ = assigns (if args.length ≤ 5 then fromArgs args else []) o
      by_cases hl : args.length ≤ 5
      · rw [if_pos hl, if_pos hl, setProps_eq, fromArgs_pad hl]
      · rw [if_neg hl, if_neg hl]; rfl
    · refine .inl ⟨args, rfl, ?_, rfl⟩
      show (invoke cls "allow_synonyms" args o).1 = _ ∨ _ ∧ (invoke cls "allow_synonyms" args o).1 = _
      rw [invoke_class h (by decide) rfl]
      by_cases hl : args = []
      · rw [if_pos hl]; exact .inr ⟨hl, rfl⟩
      · rw [if_neg hl]; exact .inl rfl

lemma We.step {o : Obj K} (h : We o) {c : Call K} (hc : Plain c) :
    We (c.act cls o).1 ∧ ∀ p : Prp, dictGet (c.act cls o).1 p.attr = (last p (gives c)).or (dictGet o p.attr) := by
  rcases h.calls hc with ⟨l, rfl, H | ⟨-, H⟩, hs⟩ | ⟨u', rfl, hs⟩ | ⟨H, -⟩
  · exact ⟨by rw [H]; exact h, fun p => by rw [H, hs]; rfl⟩
  · refine ⟨by rw [H]; exact h.synonyms, fun p => ?_⟩
    rw [H, hs, syn_kept]
    · rfl
    · cases p <;> decide
  · refine ⟨(h.units u').1, fun p => ?_⟩
    rw [hs]
    exact (h.units u').2 _ (by cases p <;> decide)
  · exact ⟨by rw [H]; exact h.assigned _, fun p => by rw [H, assigns_own]⟩

lemma last_append (p : Prp) (l l' : List (Prp × Val K)) : last p (l ++ l') = (last p l').or (last p l) := by
  induction l with
  | nil => simp [last]
  | cons e l ih => rw [List.cons_append, last, ih, last, Option.or_assoc]

lemma We.afters {o : Obj K} (h : We o) {cs : List (Call K)} (hcs : ∀ c ∈ cs, Plain c) :
    We (after cls o cs) ∧ ∀ p : Prp, dictGet (after cls o cs) p.attr = (last p (cs.flatMap gives)).or (dictGet o p.attr) := by
  induction cs generalizing o with
  | nil => exact ⟨h, fun p => rfl⟩
  | cons c cs ih =>
    obtain ⟨h1, r1⟩ := h.step (hcs c (by simp))
    obtain ⟨h2, r2⟩ := ih h1 fun c hc => hcs c (by simp [hc])
    refine ⟨h2, fun p => ?_⟩
    rw [List.flatMap_cons, last_append, Option.or_assoc, ← r1]
    exact r2 p

/-! ### synonyms -/

lemma synonyms_eq {o : Obj K} : (∀ q s r, dictGet o "q" = some q → dictGet o "s" = some s → dictGet o "r" = some r → allowSynonyms o = (puts [("set_properties", .method "set_props"),
      ("set_rate", .method "set_q"), ("rate", q), ("set_skin", .method "set_s"), ("skin", s), ("set_radius", .method "set_r"), ("radius", r)] o, .ok ())) ∧
    (dictGet o "q" = none ∨ dictGet o "s" = none ∨ dictGet o "r" = none → (allowSynonyms o).2 = .error .attribute) := by
  refine ⟨fun q s r hq hs hr => ?_, ?_⟩
  · unfold allowSynonyms
    rw [Fluid.each_put, Fluid.each_put, Fluid.each_copy (v := q) (by simp [dictGet_set, hq]), Fluid.each_put, Fluid.each_copy (v := s) (by simp [dictGet_set, hs]), Fluid.each_put,
      Fluid.each_copy (v := r) (by simp [dictGet_set, hr])]
    simp only [puts_cons, puts_nil, Fluid.each_nil]
  · intro h
    unfold allowSynonyms
    rcases hq : dictGet o "q" with _ | q
    · rw [Fluid.each_put, Fluid.each_put, Fluid.each_copy_none (by simp [dictGet_set, hq])]
    rcases hs : dictGet o "s" with _ | s
    · rw [Fluid.each_put, Fluid.each_put, Fluid.each_copy (v := q) (by simp [dictGet_set, hq]), Fluid.each_put, Fluid.each_copy_none (by simp [dictGet_set, hs])]
    have hr : dictGet o "r" = none := by rw [hq, hs] at h; simpa using h
    rw [Fluid.each_put, Fluid.each_put, Fluid.each_copy (v := q) (by simp [dictGet_set, hq]), Fluid.each_put, Fluid.each_copy (v := s) (by simp [dictGet_set, hs]), Fluid.each_put,
      Fluid.each_copy_none (by simp [dictGet_set, hr])]

lemma synonyms_ok (o : Obj K) :
    ((allowSynonyms o).2 = .ok () ↔ dictGet o "q" ≠ none ∧ dictGet o "s" ≠ none ∧ dictGet o "r" ≠ none) ∧
    ((allowSynonyms o).2 = .ok () → (∀ e ∈ longAttrs, dictGet (allowSynonyms o).1 e.1 = dictGet (allowSynonyms o).1 e.2) ∧ ∀ e ∈ long, dictGet (allowSynonyms o).1 e.1 = some (.method e.2)) := by
  obtain ⟨k1, k2⟩ := synonyms_eq (o := o)
  rcases hq : dictGet o "q" with _ | q
  · rw [k2 (.inl hq)]; simp
  rcases hs : dictGet o "s" with _ | s
  · rw [k2 (.inr (.inl hs))]; simp
  rcases hr : dictGet o "r" with _ | r
  · rw [k2 (.inr (.inr hr))]; simp
  rw [k1 q s r hq hs hr]
  refine ⟨by simp, fun _ => ⟨fun e he => ?_, fun e he => ?_⟩⟩
  · simp only [longAttrs, List.mem_cons, List.not_mem_nil, or_false] at he
    rcases he with rfl | rfl | rfl <;> simp [puts, dictGet_set, hq, hs, hr]
  · simp only [long, List.mem_cons, List.not_mem_nil, or_false] at he
    rcases he with rfl | rfl | rfl | rfl <;> simp [puts, dictGet_set]

lemma We.method_stays {o : Obj K} (h : We o) {c : Call K} (hc : Plain c) {e : String × String} (he : e ∈ long) (hm : dictGet o e.1 = some (.method e.2)) :
    dictGet (c.act cls o).1 e.1 = some (.method e.2) := by
  rcases h.calls hc with ⟨l, rfl, H | ⟨-, H⟩, hs⟩ | ⟨u', rfl, hs⟩ | ⟨H, -⟩
  · rw [H]; exact hm
  · rw [H]
    rcases synonyms_writes o e.1 with H | ⟨v, h1, h2⟩
    · rw [H]; exact hm
    · rw [h2, h1.2 e he rfl]
  · refine ((h.units u').2 e.1 ?_).trans hm
    simp only [long, List.mem_cons, List.not_mem_nil, or_false] at he
    rcases he with rfl | rfl | rfl | rfl <;> decide
  · rw [H, get_assigns_not _ _ fun p => attr_long p e he]
    exact hm

/-! ## C83 -/

/-- The well objects a user can have. -/
def Reached (o : Obj K) : Prop := ∃ c q s r k cs, (∀ x ∈ cs, Plain x) ∧ o = after cls (make c q s r k) cs

lemma Reached.we {o : Obj K} (h : Reached o) : We o := by
  obtain ⟨c, q, s, r, k, cs, hcs, rfl⟩ := h
  rw [make_eq]
  exact ((We.empty.assigned _).afters hcs).1

/-- **C83, wells: values, partial.** After the constructor and any sequence of calls, `well.cell_id`, `well.q`, `well.s`, `well.r` and `well.constrain` are the last values given, by a setter, or
by the constructor or `set_props` and not zero. Missing: zeros in the constructor and in `set_props` (`C83_well_zero_fails`); and `set_props` without a constraint removes it
(`C83_well_constraint_fails`). -/
theorem C83_well_values_partial (c q s r k : Val K) {cs : List (Call K)} (hcs : ∀ x ∈ cs, Plain x) (p : Prp) :
    dictGet (after cls (make c q s r k) cs) p.attr = last p (fromArgs [c, q, s, r, k] ++ cs.flatMap gives) := by
  rw [make_eq, ((We.empty.assigned _).afters hcs).2 p, assigns_own, last_append, show dictGet ([] : Obj K) p.attr = none from rfl, Option.or_none]

/-- **C83 fails** for zeros: whatever the well, `set_props(q=0)` leaves its rate as it was, while `set_q(0)` sets it. -/
theorem C83_well_zero_fails {o : Obj K} (h : Reached o) :
    (∀ p : Prp, p ≠ .con → dictGet (after cls o [.call "set_props" [.num 0, .num 0, .num 0, .num 0]]) p.attr = dictGet o p.attr) ∧
    (∀ p : Prp, dictGet (after cls o [.call p.setter [.num 0]]) p.attr = some (.num 0)) := by
  refine ⟨fun p hp => ?_, fun p => ?_⟩
  · rw [(h.we.afters (cs := [.call "set_props" [.num 0, .num 0, .num 0, .num 0]]) (by simp [Plain])).2]
    have : [Call.call "set_props" [.num 0, .num 0, .num 0, .num 0]].flatMap (gives (K := K)) = [(.con, .none)] := by
      show fromArgs _ ++ [] = _
      simp [fromArgs]
    rw [this, last, last, if_neg (Ne.symm hp)]; rfl
  · rw [(h.we.afters (cs := [.call p.setter [.num 0]]) (by cases p <;> simp [Plain, Prp.setter])).2]
    cases p <;> simp [gives, Prp.setter, last]

/-- **C83 fails** for the constraint: whatever the well, `set_props` with any other property removes its constraint. -/
theorem C83_well_constraint_fails {o : Obj K} (h : Reached o) {args : List (Val K)} (hl : args.length ≤ 4) :
    dictGet (after cls o [.call "set_props" args]) "constrain" = some .none := by
  have := (h.we.afters (cs := [.call "set_props" args]) (by simp [Plain])).2 .con
  refine this.trans ?_
  have e : [Call.call "set_props" args].flatMap (gives (K := K)) = fromArgs args := by
    show (if args.length ≤ 5 then fromArgs args else []) ++ [] = _
    rw [if_pos (by omega), List.append_nil]
  rw [e, fromArgs, last_append, List.getD_eq_getElem?_getD, List.getElem?_eq_none (by omega)]
  rfl

/-- **C83, wells: long names, partial.** `allow_synonyms()` returns exactly when the well has a rate, a skin and a radius. Then every long name shows the value of its short name; and from then on a method
called by its long name does exactly what it does by its short name. Missing: values set later (`C83_well_long_fails`). -/
theorem C83_well_long_partial {o : Obj K} (h : Reached o) :
    ((invoke cls "allow_synonyms" [] o).2 = .ok () ↔ dictGet o "q" ≠ none ∧ dictGet o "s" ≠ none ∧ dictGet o "r" ≠ none) ∧
    ((invoke cls "allow_synonyms" [] o).2 = .ok () →
      (∀ e ∈ [("rate", "q"), ("skin", "s"), ("radius", "r")], dictGet (after cls o [.call "allow_synonyms" []]) e.1 = dictGet (after cls o [.call "allow_synonyms" []]) e.2) ∧
      ∀ cs : List (Call K), (∀ c ∈ cs, Plain c) → ∀ e ∈ [("set_properties", "set_props"), ("set_rate", "set_q"), ("set_skin", "set_s"), ("set_radius", "set_r")],
        ∀ args, invoke cls e.1 args (after cls o (.call "allow_synonyms" [] :: cs)) = invoke cls e.2 args (after cls o (.call "allow_synonyms" [] :: cs))) := by
  have h := h.we
  have e1 : invoke cls "allow_synonyms" [] o = allowSynonyms o := by rw [invoke_class h (by decide) rfl, if_pos rfl]
  have e2 : ∀ cs, after cls o (.call "allow_synonyms" [] :: cs) = after cls (allowSynonyms o).1 cs := fun cs => by
    show after cls (invoke cls "allow_synonyms" [] o).1 cs = _
    rw [e1]
  obtain ⟨s1, s2⟩ := synonyms_ok o
  rw [e1]
  refine ⟨s1, fun hok => ⟨fun e he => ?_, fun cs hcs e he args => ?_⟩⟩
  · rw [e2]
    exact (s2 hok).1 e he
  · rw [e2]
    have key : ∀ (cs : List (Call K)) (o : Obj K), We o → (∀ c ∈ cs, Plain c) → dictGet o e.1 = some (.method e.2) →
        We (after cls o cs) ∧ dictGet (after cls o cs) e.1 = some (.method e.2) := by
      intro cs
      induction cs with
      | nil => intro o h _ hm; exact ⟨h, hm⟩
      | cons c cs ih =>
        intro o h hcs hm
        exact ih _ (h.step (hcs c (by simp))).1 (fun c hc => hcs c (by simp [hc])) (h.method_stays (hcs c (by simp)) he hm)
    obtain ⟨h2, hm⟩ := key cs _ h.synonyms hcs ((s2 hok).2 e he)
    unfold invoke
    have hne : e.2 ∉ names := by
      simp only [List.mem_cons, List.not_mem_nil, or_false] at he
      rcases he with rfl | rfl | rfl | rfl <;> decide
    rw [hm, h2.only _ hne]

/-- **C83 fails** for long names of values: after `allow_synonyms()`, a new rate is not shown by `well.rate`, whatever the well. -/
theorem C83_well_long_fails {o : Obj K} (h : Reached o) (hs : (invoke cls "allow_synonyms" [] o).2 = .ok ()) {v : Val K} (hv : dictGet o "q" ≠ some v) :
    dictGet (after cls o [.call "allow_synonyms" [], .call "set_q" [v]]) "q" = some v ∧
    dictGet (after cls o [.call "allow_synonyms" [], .call "set_q" [v]]) "rate" = dictGet o "q" ∧
    dictGet (after cls o [.call "allow_synonyms" [], .call "set_q" [v]]) "rate" ≠ dictGet (after cls o [.call "allow_synonyms" [], .call "set_q" [v]]) "q" := by
  have h := h.we
  have e1 : invoke cls "allow_synonyms" [] o = allowSynonyms o := by rw [invoke_class h (by decide) rfl, if_pos rfl]
  rw [e1] at hs
  have e2 : after cls o [.call "allow_synonyms" [], .call "set_q" [v]] = dictSet (allowSynonyms o).1 "q" v := by
    show (invoke cls "set_q" [v] (invoke cls "allow_synonyms" [] o).1).1 = _
    rw [e1, invoke_class h.synonyms (by decide) rfl]; rfl
  have h1 := ((synonyms_ok o).2 hs).1 ("rate", "q") (by simp [longAttrs])
  rw [e2, dictGet_set, dictGet_set, if_pos rfl, if_neg (by decide), h1, syn_kept _ (by decide)]
  exact ⟨rfl, rfl, hv⟩

/-- `SingleCell(4, -600, 1.5, 3.5)` and some calls. -/
example : ∃ o : Obj ℚ, Reached o ∧ (invoke cls "allow_synonyms" [] o).2 = .ok () ∧ dictGet o "q" = some (.num (-5)) ∧ dictGet o "cell_id" = some (.num 4) ∧ dictGet o "s" = some (.num 0) ∧
    dictGet o "constrain" = some (.str "q") ∧ dictGet o "q" ≠ some (.num 7) := by
  refine ⟨after cls (make (.num 4) (.num (-600)) (.num (3/2)) (.num (7/2)) .none) [.call "set_s" [.num 0], .call "set_props" [.none, .num (-5), .none, .none, .str "q"]],
    ⟨_, _, _, _, _, _, ?_, rfl⟩, ?_⟩
  · intro x hx
    simp only [List.mem_cons, List.not_mem_nil, or_false] at hx
    rcases hx with rfl | rfl <;> simp [Plain]
  · decide +kernel

end Well

/-! ## Reports -/

section
variable {K : Type} [Field K] [LinearOrder K] [IsStrictOrderedRing K]

lemma nodup_dictSet {o : Obj K} (h : (o.map (·.1)).Nodup) (n : String) (v : Val K) : ((dictSet o n v).map (·.1)).Nodup := by
  rw [keys_set]
  split_ifs with hm
  · exact h
  · exact List.nodup_append.2 ⟨h, by simp, by intro a ha b hb; simp at hb; subst hb; exact fun e => hm (e ▸ ha)⟩

/-- No name twice. -/
def Keeps (a : Act K) : Prop := ∀ o : Obj K, (o.map (·.1)).Nodup → ((a o).1.map (·.1)).Nodup

lemma Keeps.put (n : String) (v : Val K) : Keeps (put n v) := fun _ h => nodup_dictSet h n v

lemma Keeps.skip : Keeps (skip : Act K) := fun _ h => h

lemma Keeps.error (x : Err) : Keeps (fun o : Obj K => (o, .error x)) := fun _ h => h

lemma Keeps.copy (n m : String) : Keeps (copy n m : Act K) := fun o h => by
  unfold Objects.copy
  cases dictGet o m with
  | none => exact h
  | some v => exact nodup_dictSet h n v

lemma Keeps.andThen {a b : Act K} (ha : Keeps a) (hb : Keeps b) : Keeps (a ;; b) := fun o h => by
  unfold Objects.andThen
  have h1 := ha o h
  rcases e : a o with ⟨o', _ | ⟨⟩⟩
  · rw [e] at h1; exact h1
  · rw [e] at h1; exact hb o' h1

lemma Keeps.each : ∀ {l : List (Act K)}, (∀ a ∈ l, Keeps a) → Keeps (each l)
  | [], _ => Keeps.skip
  | a :: l, h => (h a (by simp)).andThen (Keeps.each fun b hb => h b (by simp [hb]))

lemma Keeps.units (u : String) : Keeps (setUnits u : Act K) := by
  unfold setUnits
  split_ifs
  · exact ((Keeps.put _ _).andThen (Keeps.put _ _)).andThen (Keeps.put _ _)
  · exact Keeps.error _

lemma Keeps.rho (v : Val K) : Keeps (Fluid.setRho v) := (Keeps.put _ _).andThen fun o h => by
  unfold Fluid.gravity
  split
  · split
    · exact nodup_dictSet h _ _
    · exact h
  · exact h

lemma Keeps.comp (v : Val K) : Keeps (Fluid.setComp v) := (Keeps.put _ _).andThen (by
  unfold Fluid.classify
  split
  · split_ifs
    · exact Keeps.put _ _
    · exact Keeps.put _ _
    · exact (Keeps.put _ _).andThen (Keeps.error _)
  · exact Keeps.error _)

lemma Keeps.given {f : Val K → Act K} (hf : ∀ v, Keeps (f v)) (v : Val K) : Keeps (Fluid.given f v) := by
  unfold Fluid.given
  split_ifs
  · exact Keeps.skip
  · exact hf v

lemma Keeps.default {f : Val K → Act K} (hf : ∀ v, Keeps (f v)) (n : String) : Keeps (Fluid.default n f) := fun o h => by
  unfold Fluid.default
  split_ifs
  · exact h
  · exact hf _ o h

lemma Keeps.fluidProps (a b c d : Val K) : Keeps (Fluid.setProps a b c d) :=
  (((((Keeps.given (fun v => Keeps.put _ v) a).andThen (Keeps.given (fun v => Keeps.put _ v) b)).andThen (Keeps.given Keeps.rho c)).andThen (Keeps.given Keeps.comp d)).andThen
    (Keeps.default Keeps.rho _)).andThen (Keeps.default Keeps.comp _)

lemma Keeps.one {f : Val K → Act K} (hf : ∀ v, Keeps (f v)) (args : List (Val K)) : Keeps (one f args) := by
  unfold Objects.one
  split
  · exact hf _
  · exact Keeps.error _

lemma Keeps.fluid (n : String) (f : List (Val K) → Act K) (h : Fluid.cls n = some f) (args : List (Val K)) : Keeps (f args) := by
  unfold Fluid.cls at h
  split at h <;> cases h
  · exact Keeps.one (fun v => Keeps.put _ v) _
  · exact Keeps.one (fun v => Keeps.put _ v) _
  · exact Keeps.one Keeps.rho _
  · exact Keeps.one Keeps.comp _
  · dsimp only
    split_ifs
    · exact Keeps.fluidProps _ _ _ _
    · exact Keeps.error _
  · dsimp only
    split_ifs
    · refine Keeps.each fun a ha => ?_
      simp only [List.mem_cons, List.not_mem_nil, or_false] at ha
      rcases ha with rfl | rfl | rfl | rfl | rfl | rfl | rfl | rfl | rfl | rfl
      all_goals first | exact Keeps.put _ _ | exact Keeps.copy _ _
    · exact Keeps.error _

lemma Keeps.ifTrue (n : String) (v : Val K) : Keeps (Well.ifTrue n v) := by
  unfold Well.ifTrue
  split_ifs
  · exact Keeps.put _ _
  · exact Keeps.skip

lemma Keeps.wellProps (a b c d e : Val K) : Keeps (Well.setProps a b c d e) :=
  ((((Keeps.ifTrue _ a).andThen (Keeps.ifTrue _ b)).andThen (Keeps.ifTrue _ c)).andThen (Keeps.ifTrue _ d)).andThen (Keeps.put _ e)

lemma Keeps.well (n : String) (f : List (Val K) → Act K) (h : Well.cls n = some f) (args : List (Val K)) : Keeps (f args) := by
  unfold Well.cls at h
  split at h <;> cases h
  · exact Keeps.one (fun v => Keeps.put _ v) _
  · exact Keeps.one (fun v => Keeps.put _ v) _
  · exact Keeps.one (fun v => Keeps.put _ v) _
  · exact Keeps.one (fun v => Keeps.put _ v) _
  · exact Keeps.one (fun v => Keeps.put _ v) _
  · dsimp only
    split_ifs
    · exact Keeps.wellProps _ _ _ _ _
    · exact Keeps.error _
  · dsimp only
    split_ifs
    · refine Keeps.each fun a ha => ?_
      simp only [List.mem_cons, List.not_mem_nil, or_false] at ha
      rcases ha with rfl | rfl | rfl | rfl | rfl | rfl | rfl
      all_goals first | exact Keeps.put _ _ | exact Keeps.copy _ _
    · exact Keeps.error _

lemma Keeps.after {cls : String → Option (List (Val K) → Act K)} (hc : ∀ n f, cls n = some f → ∀ args, Keeps (f args)) {o : Obj K} (h : (o.map (·.1)).Nodup) (cs : List (Call K)) :
    ((after cls o cs).map (·.1)).Nodup := by
  induction cs generalizing o with
  | nil => exact h
  | cons c cs ih =>
    refine ih ?_
    cases c with
    | units u => exact Keeps.units u o h
    | call n args =>
      show ((invoke cls n args o).1.map (·.1)).Nodup
      unfold invoke
      split
      · split
        · exact hc _ _ (by assumption) _ o h
        · exact h
      · exact h
      · split
        · exact hc _ _ (by assumption) _ o h
        · exact h

/-- **C83, reports.** For a fluid or well made by the constructor and changed by any calls, `report()` lists every attribute exactly once, with the value it shows, except `units` and `factors` and
three names of grids; `report(name)` shows that value, and says "unknown" exactly if there is no such attribute. -/
theorem C83_report {o : Obj K} (h : (∃ mu B rho comp unit dtype verbose o0 cs, Fluid.make mu B rho comp unit dtype verbose = .ok o0 ∧ o = after Fluid.cls o0 cs) ∨
      ∃ c q s r k cs, o = after Well.cls (Well.make c q s r k) cs) :
    (∃ rows, report o none = .table rows ∧ (rows.map (·.1)).Nodup ∧
      ∀ n v, (n, v) ∈ rows ↔ dictGet o n = some v ∧ n ∉ ["units", "factors", "pv_grid", "corners", "centers"]) ∧
    ∀ n, report o (some n) = match dictGet o n with | some v => .line n v | none => .unknown := by
  have hn : (o.map (·.1)).Nodup := by
    rcases h with ⟨mu, B, rho, comp, unit, dtype, verbose, o0, cs, h, rfl⟩ | ⟨c, q, s, r, k, cs, rfl⟩
    · refine Keeps.after Keeps.fluid ?_ cs
      unfold Fluid.make at h
      have := (((Keeps.units unit).andThen (Keeps.put "dtype" (.str dtype))).andThen (Keeps.put "verbose" (.flag verbose))).andThen (Keeps.fluidProps mu B rho comp) [] (by simp)
      split at h
      · cases h
        rename_i e
        rw [show (setUnits unit ;; put "dtype" (.str dtype) ;; put "verbose" (.flag verbose) ;; Fluid.setProps mu B rho comp) = (baseInit unit dtype verbose ;; Fluid.setProps mu B rho comp) from rfl, e] at this
        exact this
      · cases h
    · exact Keeps.after Keeps.well (Keeps.wellProps c q s r k [] (by simp)) cs
  refine ⟨⟨_, rfl, (List.filter_sublist.map _).nodup hn, fun n v => ?_⟩, fun n => rfl⟩
  rw [List.mem_filter, decide_eq_true_eq]
  refine and_congr_left fun _ => ?_
  clear h
  induction o with
  | nil => simp [dictGet]
  | cons e o ih =>
    rw [List.map_cons, List.nodup_cons] at hn
    have e1 : dictGet (e :: o) n = if e.1 = n then some e.2 else dictGet o n := by
      unfold dictGet
      rw [List.find?_cons]
      by_cases he : e.1 = n <;> simp [he]
    rw [List.mem_cons, ih hn.2, e1]
    by_cases he : e.1 = n
    · rw [if_pos he]
      constructor
      · rintro (rfl | H)
        · rfl
        · exact absurd ((dictGet_isSome o n).1 (by rw [H]; rfl)) (he ▸ hn.1)
      · intro H
        cases H
        exact .inl (by rw [← he])
    · rw [if_neg he]
      exact ⟨fun H => H.resolve_left fun H => he (by rw [← H]), .inr⟩

/-- A fluid. -/
example : ∃ o, Fluid.exFluid = .ok o ∧ report o (some "rho") = .line "rho" (.num 50) ∧ report o (some "viscosity") = .unknown := by
  have : (match Fluid.exFluid with | .ok o => decide (report o (some "rho") = .line "rho" (.num 50) ∧ report o (some "viscosity") = .unknown) | .error _ => false) = true := by decide +kernel
  rcases h : Fluid.exFluid with x | o
  · rw [h] at this; cases this
  · rw [h] at this; exact ⟨o, rfl, of_decide_eq_true this⟩
end
end RF.Objects
