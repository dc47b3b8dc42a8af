import Verif.Table.PropsScaled
import Verif.Scaler.Props
/-!
# The text of column labels (`models/black_oil.py` l.658-776, 1020-1026)
-/
namespace RF
variable {K : Type}

/-! ## Model -/

/-- A label without units. (black_oil.py l.673, 687, 705, 708, 727, 730, 743, 760, 774, 1024, 1025) -/
def Lbl.name : Lbl → String
  | .id => "id"
  | .step => "Step"
  | .axis .x => "x"
  | .axis .y => "y"
  | .axis .z => "z"
  | .time => "Time"
  | .date => "Date"
  | .Q => "Q"
  | .P => "P"
  | .cellQ c => "Q" ++ c.repr
  | .cellP c => "P" ++ c.repr
  | .wellQ c => "Qw" ++ c.repr
  | .wellP c => "Pwf" ++ c.repr

/-- What the text of labels depends on besides the column: the arguments `units` and `scale`, the unit names of the model (`self.units`) and `scalers_dict`. (black_oil.py l.658-765) -/
structure LabelOpts (K : Type) where
  units : Bool
  scale : Bool
  unitOf : Quantity → String
  entry : Quantity → Option (String × (K × K))

/-- `" [scaled]"` or the unit of the model. (black_oil.py l.659-665, 692-698, 714-720, 736-742, 753-759) -/
def LabelOpts.unitText (o : LabelOpts K) (q : Quantity) : String :=
  if o.scale && (o.entry q).isSome then " [scaled]" else " [" ++ o.unitOf q ++ "]"

/-- What is appended to a label. Ids, steps and coordinates get nothing. (black_oil.py l.659-667, 676-679, 767-776) -/
def LabelOpts.suffix (o : LabelOpts K) (l : Lbl) : String :=
  if o.units then
    match l with
    | .id | .step | .axis _ => ""
    | .date => " [d.m.y]"
    | .time => o.unitText .time
    | .Q | .cellQ _ | .wellQ _ => o.unitText .rate
    | .P | .cellP _ | .wellP _ => o.unitText .pressure
  else ""

/-- The text of a label. (black_oil.py l.673, 687, 705-708, 727-730, 743, 760) -/
def LabelOpts.text (o : LabelOpts K) (l : Lbl) : String := l.name ++ o.suffix l

/-- The table with its labels as text. (black_oil.py l.936-1060) -/
def LabelOpts.named (o : LabelOpts K) (f : Frame K) : List (String × List (Option (Val K))) := f.map fun c => (o.text c.1, c.2)

section
variable [Field K]

/-- The scalers of a new model: the default dictionary is handed to `set_scalers`. (black_oil.py l.165-171) -/
def defaultScalers (lower : String → String) : ScalerState K × Except Err Unit :=
  setScalers lower ⟨fun _ => .dummy, fun _ => none⟩
    [⟨"time", some "MinMaxScaler", some (0, 1)⟩, ⟨"space", some "MinMaxScaler", some (-1, 1)⟩, ⟨"pressure", some "MinMaxScaler", some (-1, 1)⟩, ⟨"rate", none, none⟩]
end

/-! ## Different columns have different labels -/

lemma repr_digit {n : ℕ} {c : Char} (h : c ∈ n.repr.toList) : c.isDigit = true := by
  rw [Nat.toList_repr] at h
  exact Nat.isDigit_of_mem_toDigits (b := 10) (by norm_num) le_rfl h

lemma repr_inj' {m n : ℕ} (h : m.repr.toList = n.repr.toList) : m = n := by
  rw [Nat.toList_repr, Nat.toList_repr] at h
  rw [← Nat.ofDigitChars_ten_toDigits (n := m), h, Nat.ofDigitChars_ten_toDigits]

lemma repr_ne {n : ℕ} : n.repr.toList ≠ [] := by
  rw [Nat.toList_repr]
  exact Nat.toDigits_ne_nil

lemma repr_head {n : ℕ} {l : List Char} (h : Nat.toDigits 10 n = 'w' :: l) : False := by
  have : 'w'.isDigit = true := repr_digit (n := n) (by rw [Nat.toList_repr, h]; simp)
  exact absurd this (by decide)

/-- No space in a name. -/
lemma name_nospace (l : Lbl) : ' ' ∉ l.name.toList := by
  have hd : ∀ n : ℕ, ' ' ∉ n.repr.toList := fun n h => absurd (repr_digit h) (by decide)
  rcases l with _ | _ | a | _ | _ | _ | _ | n | n | n | n
  case axis => cases a <;> decide
  all_goals first
    | decide
    | (simp only [Lbl.name, String.toList_append, List.mem_append, not_or]
       exact ⟨by decide, hd n⟩)

lemma name_injective : Function.Injective Lbl.name := by
  intro a b h
  have h' := congrArg String.toList h
  rcases a with _ | _ | a | _ | _ | _ | _ | n | n | n | n <;> rcases b with _ | _ | b | _ | _ | _ | _ | m | m | m | m <;>
    (try cases a) <;> (try cases b) <;>
    first
    | rfl
    | (exfalso; revert h; decide)
    | (simp only [Lbl.name, String.toList_append] at h'
       first
       | (have e := repr_inj' (List.append_cancel_left h'); subst e; rfl)
       | (exfalso
          simp at h'
          done)
       | (exfalso
          simp at h'
          first
          | exact repr_head h'
          | exact repr_head h'.symm))
lemma suffix_cases (o : LabelOpts K) (l : Lbl) : o.suffix l = "" ∨ ∃ r, (o.suffix l).toList = ' ' :: r := by
  have hu : ∀ q, ∃ r, (o.unitText q).toList = ' ' :: r := by
    intro q
    unfold LabelOpts.unitText
    split <;> simp
  unfold LabelOpts.suffix
  split
  · cases l <;> first
      | exact Or.inl rfl
      | exact Or.inr (hu _)
      | exact Or.inr ⟨"[d.m.y]".toList, show " [d.m.y]".toList = _ by decide⟩
  · exact Or.inl rfl

/-- The name is what stands before the first space. -/
lemma text_name (o : LabelOpts K) (l : Lbl) : (o.text l).toList.takeWhile (· ≠ ' ') = l.name.toList := by
  have hn := name_nospace l
  have ht : l.name.toList.takeWhile (· ≠ ' ') = l.name.toList := by
    have := List.takeWhile_append_of_pos (p := (· ≠ ' ')) (l₁ := l.name.toList) (l₂ := []) (by intro c hc; simpa using fun e : c = ' ' => hn (e ▸ hc))
    simpa using this
  unfold LabelOpts.text
  rw [String.toList_append]
  rcases suffix_cases o l with h | ⟨r, h⟩
  · rw [h]; simpa using ht
  · rw [h, List.takeWhile_append_of_pos (by intro c hc; simpa using fun e : c = ' ' => hn (e ▸ hc))]
    simp

/-- C53: whatever the units, the scaling and the scalers, two columns never carry the same label; in a table without repeated columns the labels are pairwise different, and each label stands over
the column it names. -/
theorem C53_labels (o : LabelOpts K) : (∀ l l' : Lbl, o.text l = o.text l' → l = l') ∧
    ∀ f : Frame K, (f.map (·.1)).Nodup → ((o.named f).map (·.1)).Nodup ∧ ∀ l col, (l, col) ∈ f → ∀ col', (o.text l, col') ∈ o.named f ↔ col' = col := by
  have hinj : ∀ l l' : Lbl, o.text l = o.text l' → l = l' := by
    intro l l' h
    apply name_injective
    have h2 := text_name o l
    rw [h, text_name] at h2
    exact String.toList_inj.mp h2.symm
  refine ⟨hinj, fun f hf => ⟨?_, ?_⟩⟩
  · have : (o.named f).map (·.1) = (f.map (·.1)).map o.text := by simp [LabelOpts.named, Function.comp_def]
    rw [this]
    exact hf.map hinj
  · intro l col hm col'
    unfold LabelOpts.named
    rw [List.mem_map]
    constructor
    · rintro ⟨⟨l2, c2⟩, h2, e⟩
      simp only [Prod.mk.injEq] at e
      have e1 := hinj _ _ e.1
      subst e1
      rw [← e.2]
      exact congrArg Prod.snd (List.inj_on_of_nodup_map hf h2 hm rfl)
    · rintro rfl
      exact ⟨_, hm, rfl⟩

/-! ## What "[scaled]" means -/
section
variable [Field K]

/-- The scaler settings a program can reach: those of a new model and those after any call of `set_scalers`, also one that raises. -/
inductive ScalersReach (lower : String → String) : ScalerState K → Prop
  | new : ScalersReach lower (defaultScalers lower).1
  | set (s : ScalerState K) (es : List (Setting K)) : ScalersReach lower s → ScalersReach lower (setScalers lower s es).1

/-- The dictionary shows what the objects are. -/
def ScalerState.Truthful (s : ScalerState K) : Prop :=
  ∀ q, match s.entry q with
    | none => s.obj q = .dummy
    | some (n, r) => n = "MinMax" ∧ s.obj q = .minmax r.1 r.2

omit [Field K] in
lemma setOne_truthful (lower : String → String) {s s' : ScalerState K} (e : Setting K) (hs : s.Truthful) (h : setOne lower s e = .ok s') : s'.Truthful := by
  unfold setOne at h
  cases hq : quantityOf lower e.column with
  | none => rw [hq] at h; cases h
  | some q =>
    rw [hq] at h
    rcases e with ⟨c, _ | t, _ | r⟩
    all_goals simp only [createScaler] at h
    all_goals try split at h
    all_goals first
      | (cases h; done)
      | (cases h
         intro q'
         by_cases hqq : q' = q
         · subst hqq; simp
         · have := hs q'
           simp only [Function.update_of_ne hqq]
           exact this)

omit [Field K] in
lemma setScalers_truthful (lower : String → String) (es : List (Setting K)) : ∀ {s : ScalerState K}, s.Truthful → (setScalers lower s es).1.Truthful := by
  induction es with
  | nil => intro s h; exact h
  | cons e es ih =>
    intro s h
    unfold setScalers
    cases ho : setOne lower s e with
    | error x => exact h
    | ok s' => exact ih (setOne_truthful lower e h ho)

lemma reach_truthful {lower : String → String} {s : ScalerState K} (h : ScalersReach lower s) : s.Truthful := by
  induction h with
  | new => exact setScalers_truthful lower _ (fun _ => rfl)
  | set s es _ ih => exact setScalers_truthful lower es ih

/-- The quantity a column shows; ids, steps, dates and coordinates carry no unit of a quantity. -/
def Lbl.quantity : Lbl → Option Quantity
  | .time => some .time
  | .Q | .cellQ _ | .wellQ _ => some .rate
  | .P | .cellP _ | .wellP _ => some .pressure
  | _ => none

omit [Field K] in
lemma text_quantity (o : LabelOpts K) (ho : o.units = true) {l : Lbl} {q : Quantity} (hl : l.quantity = some q) : o.text l = l.name ++ o.unitText q := by
  unfold LabelOpts.text LabelOpts.suffix
  rw [if_pos ho]
  cases l <;> cases hl <;> rfl

lemma append_left_inj' {a b c : String} : a ++ b = a ++ c ↔ b = c := by
  constructor
  · intro h
    have := congrArg String.toList h
    rw [String.toList_append, String.toList_append] at this
    exact String.toList_inj.mp (List.append_cancel_left this)
  · rintro rfl; rfl

lemma bracket_ne {u : String} (h : u ≠ "scaled") : " [scaled]" ≠ " [" ++ u ++ "]" := by
  intro e
  have := congrArg String.toList e
  rw [String.toList_append, String.toList_append] at this
  have e2 : " [scaled]".toList = " [".toList ++ "scaled".toList ++ "]".toList := by decide
  rw [e2] at this
  exact h (String.toList_inj.mp (List.append_cancel_left (List.append_cancel_right this))).symm

/-- C55: a new model scales times to 0..1, coordinates and pressures to −1..1, and leaves rates as they are, as documented. -/
theorem C55_default {lower : String → String} (h : ∀ s ∈ ["time", "space", "pressure", "rate"], lower s = s) (hm : lower "MinMaxScaler" = "minmaxscaler") :
    (defaultScalers (K := K) lower).2 = .ok () ∧ (defaultScalers (K := K) lower).1.obj .time = .minmax 0 1 ∧ (defaultScalers (K := K) lower).1.obj .space = .minmax (-1) 1 ∧
    (defaultScalers (K := K) lower).1.obj .pressure = .minmax (-1) 1 ∧ (defaultScalers (K := K) lower).1.obj .rate = .dummy := by
  have h1 : quantityOf lower "time" = some .time := by
    unfold quantityOf; rw [h _ (by decide)]; decide
  have h2 : quantityOf lower "space" = some .space := by
    unfold quantityOf; rw [h _ (by decide)]; decide
  have h3 : quantityOf lower "pressure" = some .pressure := by
    unfold quantityOf; rw [h _ (by decide)]; decide
  have h4 : quantityOf lower "rate" = some .rate := by
    unfold quantityOf; rw [h _ (by decide)]; decide
  have k : ∀ lo hi : K, createScaler lower (some "MinMaxScaler") (some (lo, hi)) = .ok (.minmax lo hi, some "MinMax") := by
    intro lo hi
    simp [createScaler, hm]
  have k0 : createScaler (K := K) lower none none = .ok (.dummy, none) := rfl
  have e : ∀ (s : ScalerState K) (c : String) (q : Quantity) (lo hi : K) (es : List (Setting K)), quantityOf lower c = some q →
      setScalers lower s (⟨c, some "MinMaxScaler", some (lo, hi)⟩ :: es) =
        setScalers lower ⟨Function.update s.obj q (.minmax lo hi), Function.update s.entry q (some ("MinMax", (lo, hi)))⟩ es := by
    intro s c q lo hi es hq
    rw [setScalers, setOne, hq]
    simp only [k]
    rfl
  have e0 : ∀ (s : ScalerState K) (c : String) (q : Quantity) (es : List (Setting K)), quantityOf lower c = some q →
      setScalers lower s (⟨c, none, none⟩ :: es) = setScalers lower ⟨Function.update s.obj q .dummy, Function.update s.entry q none⟩ es := by
    intro s c q es hq
    rw [setScalers, setOne, hq]
    rfl
  unfold defaultScalers
  rw [e _ _ _ _ _ _ h1, e _ _ _ _ _ _ h2, e _ _ _ _ _ _ h3, e0 _ _ _ _ h4]
  simp [setScalers, Function.update]

variable [LinearOrder K] [FloorRing K]

/-- C70: the label of a column of times, rates or pressures says truthfully whether its numbers are scaled. With `units=True` it ends in `[scaled]` exactly if the table is scaled and the quantity
has a MinMax scaler, and else in the unit of the model; in the second case the numbers are those of the unscaled table. This holds after any calls of `set_scalers`, also refused ones. -/
theorem C70_label {lower : String → String} {st : ScalerState K} (hst : ScalersReach lower st) (t : SInput K) (ht : t.scaler = st.obj) {F : Fits K} (hF : t.fits lower = .ok F)
    (unitOf : Quantity → String) (hu : ∀ q, unitOf q ≠ "scaled") (l : Lbl) (q : Quantity) (hl : l.quantity = some q) (scale : Bool) :
    let text := (LabelOpts.mk true scale unitOf st.entry).text l
    (text = l.name ++ " [scaled]" ↔ scale = true ∧ ∃ lo hi, t.scaler q = .minmax lo hi) ∧
    (text = l.name ++ (" [" ++ unitOf q ++ "]") ↔ scale = false ∨ t.scaler q = .dummy) ∧
    (t.scaler q = .dummy → ∀ v, scaleVal (F.of t.fdir l) v = v) ∧
    (∀ lo hi, t.scaler q = .minmax lo hi → ∃ r, F.of t.fdir l = some (.minmax lo hi r)) := by
  intro text
  have hte : text = l.name ++ (LabelOpts.mk true scale unitOf st.entry).unitText q := text_quantity _ rfl hl
  have htr := reach_truthful hst q
  rw [ht, hte, append_left_inj', append_left_inj']
  have hfit : ∃ v, ∃ f, F.of t.fdir l = some f ∧ (t.scaler q).fit v = .ok f := by
    obtain ⟨h1, -, h3, h4⟩ := fits_ok hF
    have h3' := h3
    have h4' := h4
    unfold SInput.fitPress at h3'
    unfold SInput.fitRate at h4'
    cases hg : t.whole.getDf lower ["cells_pressure"] false true true with
    | error e => rw [hg] at h3'; cases h3'
    | ok g =>
      cases hg' : t.whole.getDf lower ["rates"] false true true with
      | error e => rw [hg'] at h4'; cases h4'
      | ok g' =>
        rw [hg] at h3'
        rw [hg'] at h4'
        cases l <;> cases hl
        · exact ⟨_, _, rfl, h1⟩
        · exact ⟨_, _, rfl, h4'⟩
        · exact ⟨_, _, rfl, h3'⟩
        · exact ⟨_, _, rfl, h4'⟩
        · exact ⟨_, _, rfl, h3'⟩
        · exact ⟨_, _, rfl, h4'⟩
        · exact ⟨_, _, rfl, h3'⟩
  obtain ⟨v, f, hf, hfv⟩ := hfit
  rw [ht] at hfv
  have hne := bracket_ne (hu q)
  refine ⟨?_, ?_, ?_, ?_⟩
  · unfold LabelOpts.unitText
    cases he : st.entry q with
    | none =>
      have hd : st.obj q = .dummy := by simpa only [he] using htr
      simp only [he, hd, Option.isSome_none, Bool.and_false, Bool.false_eq_true, if_false]
      exact ⟨fun h => absurd h.symm hne, fun h => by obtain ⟨-, lo, hi, h⟩ := h; cases h⟩
    | some e =>
      have hd : st.obj q = .minmax e.2.1 e.2.2 := by have := htr; rw [he] at this; exact this.2
      cases scale
      · simp only [Bool.false_and, Bool.false_eq_true, if_false, false_and, iff_false]
        exact fun h => hne h.symm
      · simp only [he, Option.isSome_some, Bool.and_self, if_true, true_and, true_iff]
        exact ⟨_, _, hd⟩
  · unfold LabelOpts.unitText
    cases he : st.entry q with
    | none =>
      have hd : st.obj q = .dummy := by simpa only [he] using htr
      simp only [he, hd, Option.isSome_none, Bool.and_false, Bool.false_eq_true, if_false, or_true]
    | some e =>
      have hd : st.obj q = .minmax e.2.1 e.2.2 := by have := htr; rw [he] at this; exact this.2
      cases scale
      · simp only [Bool.false_and, Bool.false_eq_true, if_false, true_or]
      · simp only [he, hd, Option.isSome_some, Bool.and_self, if_true]
        exact ⟨fun h => absurd h hne, fun h => by rcases h with h | h <;> cases h⟩
  · intro hd w
    rw [hd] at hfv
    cases hfv
    rw [hf]
    rcases w with _ | w
    · rfl
    · cases w <;> rfl
  · intro lo hi hm
    obtain ⟨r, hr, -⟩ := fit_minmax hm hfv
    exact ⟨r, hf.trans (by rw [hr])⟩

/-- **C70 fails** for coordinates: their label is the bare axis, scaled or not. -/
theorem C70_axis_label_fails (o : LabelOpts K) (a : Axis) : o.text (.axis a) = (Lbl.axis a).name := by
  unfold LabelOpts.text LabelOpts.suffix
  cases o.units <;> simp
end

/-! ## Examples -/

/-- Field units. -/
def fieldUnit : Quantity → String
  | .time => "day"
  | .space => "ft"
  | .pressure => "psia"
  | .rate => "stb/day"

/-- `str.lower` on the words used here. -/
def lowerW (s : String) : String := if s = "MinMaxScaler" then "minmaxscaler" else s

/-- The settings of a new model are those of `demoS`. -/
lemma demoS_new : demoS.scaler = (defaultScalers (K := ℚ) lowerW).1.obj := by
  obtain ⟨-, h1, h2, h3, h4⟩ := C55_default (K := ℚ) (lower := lowerW) (by decide) rfl
  funext q
  cases q
  · exact h1.symm
  · exact h2.symm
  · exact h3.symm
  · exact h4.symm

example : (LabelOpts.mk true true fieldUnit (defaultScalers (K := ℚ) lowerW).1.entry).text (.cellP 12) = "P12 [scaled]" ∧
    (LabelOpts.mk true true fieldUnit (defaultScalers (K := ℚ) lowerW).1.entry).text (.wellQ 3) = "Qw3 [stb/day]" ∧
    (LabelOpts.mk true false fieldUnit (defaultScalers (K := ℚ) lowerW).1.entry).text (.wellP 3) = "Pwf3 [psia]" := by decide +kernel

example : ∃ F, demoS.fits lowerW = .ok F ∧ ∀ v, scaleVal (F.of demoS.fdir (.wellQ 2)) v = v := by
  obtain ⟨F, hF⟩ := fitsB_ok (lower := lowerW) (t := demoS) (by decide +kernel)
  have h := C70_label .new demoS demoS_new hF fieldUnit (by intro q; cases q <;> decide) (.wellQ 2) .rate rfl true
  exact ⟨F, hF, h.2.2.1 rfl⟩

/-- The labels of a wide table of pressures with a well in cell 2. -/
example : (((LabelOpts.mk true false fieldUnit (defaultScalers (K := ℚ) lowerW).1.entry).named
    [(.cellP 1, [some (.num 3000)]), (.cellP 2, [some (.num 3100)]), (.wellP 2, [some (.num 2500)])]).map (·.1)) = ["P1 [psia]", "P2 [psia]", "Pwf2 [psia]"] := by decide +kernel
end RF
