import Verif.Cache.Props
/-!
# Answers after settings and queries (C18)
-/
set_option linter.unusedSimpArgs false
set_option linter.unusedSectionVars false
namespace RF
open Spec Dims

variable {K : Type} [Field K] [DecidableEq K]

/-! ## Cached programs that agree with their uncached reading -/

/-- Under `I`, the program answers `r` and keeps `I`. -/
def Agrees {α : Type} (I : Caches K → Prop) (m : CM K α) (r : Except Err α) : Prop := ∀ c, I c → (m c).1 = r ∧ I (m c).2

lemma cm_bind {α β : Type} (m : CM K α) (f : α → CM K β) (c : Caches K) : (m >>= f) c = match (m c).1 with
    | .ok a => f a (m c).2
    | .error e => (.error e, (m c).2) := by
  cases hm : m c with
  | mk a s =>
    show ExceptT.bind m f c = _
    simp only [ExceptT.bind, ExceptT.mk, bind, StateT.bind]
    rw [show (m c : Id (Except Err α × Caches K)) = (a, s) from hm]
    cases a <;> rfl

lemma agrees_bind {α β : Type} {I : Caches K → Prop} {m : CM K α} {r : Except Err α} {f : α → CM K β} {h : α → Except Err β}
    (h1 : Agrees I m r) (h2 : ∀ a, Agrees I (f a) (h a)) : Agrees I (m >>= f) (r >>= h) := by
  intro c hc
  obtain ⟨e1, i1⟩ := h1 c hc
  rw [cm_bind, e1]
  cases r with
  | ok a => exact h2 a _ i1
  | error e => exact ⟨rfl, i1⟩

lemma agrees_pure {α : Type} {I : Caches K → Prop} (a : α) : Agrees I (pure a : CM K α) (pure a) := fun _ hc => ⟨rfl, hc⟩

lemma agrees_noCache {α : Type} {I : Caches K → Prop} (r : Except Err α) : Agrees I (noCache r : CM K α) r :=
  fun _ hc => ⟨rfl, hc⟩

lemma agrees_mapM {α β : Type} {I : Caches K → Prop} {f : α → CM K β} {h : α → Except Err β} (l : List α)
    (hf : ∀ a, Agrees I (f a) (h a)) : Agrees I (l.mapM f) (l.mapM h) := by
  induction l with
  | nil => exact agrees_pure _
  | cons a t ih =>
    rw [List.mapM_cons, List.mapM_cons]
    exact agrees_bind (hf a) fun b => agrees_bind ih fun bs => agrees_pure _

lemma agrees_body {I : Caches K → Prop} (x : GObj K) {getK : Axis → ℤ → CM K K} {iso : CM K Bool}
    (hk : ∀ a i, Agrees I (getK a i) (x.cellK a (some i) none)) (hi : Agrees I iso x.isIsotropic) (id : ℤ) (b : Bool) :
    Agrees I (cellGBody (m := CM K) x noCache noCache getK iso id b) (x.cellG id b) := by
  unfold GObj.cellG cellGBody
  refine agrees_bind (agrees_noCache _) fun nb => agrees_bind (agrees_mapM _ fun a => ?_) fun ps => agrees_pure _
  refine agrees_bind (agrees_noCache _) fun d => agrees_bind (agrees_noCache _) fun A => agrees_bind (hk a id) fun k => ?_
  refine agrees_mapM _ fun n => agrees_bind (agrees_noCache _) fun dn => agrees_bind (agrees_noCache _) fun An => ?_
  exact agrees_bind (hk a n) fun kn => agrees_bind hi fun i => agrees_pure _

/-! ## Caches that match the stored values -/

/-- Every cached value of an object in `S` is the current one. -/
def Fresh (S : ℕ → Prop) (w : ℕ → GObj K) (c : Caches K) : Prop :=
  (∀ e ∈ c.kc, S e.1.o → (w e.1.o).cellK e.1.a e.1.id e.1.co = .ok e.2) ∧
  (∀ e ∈ c.iso, S e.1 → (w e.1).isIsotropic = .ok e.2) ∧
  (∀ e ∈ c.gc, S e.1.o → (w e.1.o).cellG e.1.id e.1.b = .ok e.2)

section
variable {κ α : Type} [DecidableEq κ]
/-- A call whose stored entries for `P`-keys are right gives the right answer on a `P`-key and keeps them right. -/
lemma lruCall_on (max : MaxSize) (f : κ → Except Err α) (P : κ → Prop) (c : List (κ × α)) (k : κ)
    (h : ∀ e ∈ c, P e.1 → f e.1 = .ok e.2) : (P k → (lruCall max f c k).1 = f k) ∧
      ∀ e ∈ (lruCall max f c k).2, P e.1 → f e.1 = .ok e.2 := by
  unfold lruCall
  cases hl : c.lookup k with
  | some v =>
    have hm := mem_of_lookup hl
    refine ⟨fun hp => (h _ hm hp).symm, fun e he hp => ?_⟩
    rcases List.mem_cons.1 he with rfl | he
    · exact h _ hm hp
    · exact h _ (List.mem_of_mem_filter he) hp
  | none =>
    cases hf : f k with
    | error e => exact ⟨fun _ => rfl, h⟩
    | ok v =>
      refine ⟨fun _ => rfl, fun e he hp => ?_⟩
      rcases List.mem_cons.1 ((trunc_sublist max _).subset he) with rfl | he
      · exact hf
      · exact h _ he hp
end

lemma cachedK_fresh (S : ℕ → Prop) (w : ℕ → GObj K) (o : ℕ) (a : Axis) (id co) (c : Caches K) (h : Fresh S w c) :
    (S o → (cachedK w o a id co c).1 = (w o).cellK a id co) ∧ Fresh S w (cachedK w o a id co c).2 := by
  obtain ⟨h1, h2, h3⟩ := h
  have := lruCall_on none (fun k : KKey => (w k.o).cellK k.a k.id k.co) (fun k => S k.o) c.kc ⟨o, a, id, co⟩ h1
  exact ⟨this.1, this.2, h2, h3⟩

lemma cachedIso_fresh (S : ℕ → Prop) (w : ℕ → GObj K) (o : ℕ) (c : Caches K) (h : Fresh S w c) :
    (S o → (cachedIso w o c).1 = (w o).isIsotropic) ∧ Fresh S w (cachedIso w o c).2 := by
  obtain ⟨h1, h2, h3⟩ := h
  have := lruCall_on (some 1) (fun k => (w k).isIsotropic) S c.iso o h2
  exact ⟨this.1, h1, this.2, h3⟩

/-- The program changes nothing that an invariant of the elementary cached calls forbids. -/
def Keeps {α : Type} (I : Caches K → Prop) (m : CM K α) : Prop := ∀ c, I c → I (m c).2

lemma keeps_bind {α β : Type} {I : Caches K → Prop} {m : CM K α} {f : α → CM K β}
    (h1 : Keeps I m) (h2 : ∀ a, Keeps I (f a)) : Keeps I (m >>= f) := by
  intro c hc
  have i1 := h1 c hc
  rw [cm_bind]
  cases (m c).1 with
  | ok a => exact h2 a _ i1
  | error e => exact i1

lemma keeps_pure {α : Type} {I : Caches K → Prop} (a : α) : Keeps I (pure a : CM K α) := fun _ hc => hc
lemma keeps_noCache {α : Type} {I : Caches K → Prop} (r : Except Err α) : Keeps I (noCache r : CM K α) := fun _ hc => hc

lemma keeps_mapM {α β : Type} {I : Caches K → Prop} {f : α → CM K β} (l : List α)
    (hf : ∀ a, Keeps I (f a)) : Keeps I (l.mapM f) := by
  induction l with
  | nil => exact keeps_pure _
  | cons a t ih => rw [List.mapM_cons]; exact keeps_bind (hf a) fun b => keeps_bind ih fun bs => keeps_pure _

lemma keeps_body {I : Caches K → Prop} (x : GObj K) {getK : Axis → ℤ → CM K K} {iso : CM K Bool}
    (hk : ∀ a i, Keeps I (getK a i)) (hi : Keeps I iso) (id : ℤ) (b : Bool) :
    Keeps I (cellGBody (m := CM K) x noCache noCache getK iso id b) := by
  unfold cellGBody
  refine keeps_bind (keeps_noCache _) fun nb => keeps_bind (keeps_mapM _ fun a => ?_) fun ps => keeps_pure _
  refine keeps_bind (keeps_noCache _) fun d => keeps_bind (keeps_noCache _) fun A => keeps_bind (hk a id) fun k => ?_
  refine keeps_mapM _ fun n => keeps_bind (keeps_noCache _) fun dn => keeps_bind (keeps_noCache _) fun An => ?_
  exact keeps_bind (hk a n) fun kn => keeps_bind hi fun i => keeps_pure _

lemma cachedG_fresh (S : ℕ → Prop) (w : ℕ → GObj K) (o : ℕ) (id : ℤ) (b : Bool) (c : Caches K) (h : Fresh S w c) :
    (S o → (cachedG w o id b c).1 = (w o).cellG id b) ∧ Fresh S w (cachedG w o id b c).2 := by
  have h' := h
  obtain ⟨h1, h2, h3⟩ := h
  unfold cachedG
  cases hl : c.gc.lookup ⟨o, id, b⟩ with
  | some v =>
    have hm := mem_of_lookup hl
    refine ⟨fun hp => (h3 _ hm hp).symm, h1, h2, fun e he hp => ?_⟩
    rcases List.mem_cons.1 he with rfl | he
    · exact h3 _ hm hp
    · exact h3 _ (List.mem_of_mem_filter he) hp
  | none =>
    have hk : Keeps (Fresh S w) (cellGBody (m := CM K) (w o) noCache noCache (fun a i => cachedK w o a (some i) none)
        (cachedIso w o) id b) :=
      keeps_body _ (fun a i c hc => (cachedK_fresh S w o a _ _ c hc).2) (fun c hc => (cachedIso_fresh S w o c hc).2) _ _
    have ha : S o → Agrees (Fresh S w) (cellGBody (m := CM K) (w o) noCache noCache (fun a i => cachedK w o a (some i) none)
        (cachedIso w o) id b) ((w o).cellG id b) := fun hs =>
      agrees_body _ (fun a i c hc => ⟨(cachedK_fresh S w o a _ _ c hc).1 hs, (cachedK_fresh S w o a _ _ c hc).2⟩)
        (fun c hc => ⟨(cachedIso_fresh S w o c hc).1 hs, (cachedIso_fresh S w o c hc).2⟩) _ _
    have k := hk c h'
    have a := fun hs => (ha hs c h').1
    simp only
    generalize hr : (cellGBody (m := CM K) (w o) noCache noCache (fun a i => cachedK w o a (some i) none)
        (cachedIso w o) id b) c = r at k a ⊢
    obtain ⟨v, c'⟩ := r
    cases v with
    | error e => exact ⟨a, k⟩
    | ok v =>
      refine ⟨a, k.1, k.2.1, fun e he hp => ?_⟩
      rcases List.mem_cons.1 he with rfl | he
      · exact (a hp).symm
      · exact k.2.2 _ he hp

/-! ## Histories -/

/-- The object an event is about. -/
def GEvent.obj : GEvent K → ℕ
  | .setAll o _ _ => o | .setCell o _ _ _ _ => o | .getK o _ _ _ => o | .getIso o => o | .getG o _ _ => o
/-- The event sets a property. -/
def GEvent.isSet : GEvent K → Bool
  | .setAll _ _ _ => true | .setCell _ _ _ _ _ => true | _ => false

/-- What an event should answer: computed from the values stored at that moment. -/
def truth (w : ℕ → GObj K) : GEvent K → Answer K
  | .setAll _ _ _ => .none
  | .setCell _ _ _ _ _ => .none
  | .getK o a id co => .k (RF.cellK (w o).g (w o).p.rock a id co)
  | .getIso o => .iso (RF.isIsotropic (w o).g (w o).p.rock)
  | .getG o id b => .g ((w o).cellG id b)

/-- The stored values after an event: caches play no part. -/
def wstep (w : ℕ → GObj K) : GEvent K → ℕ → GObj K
  | .setAll o n v => putProps w o (setPropAll (w o).g (w o).p n v)
  | .setCell o n v id co => putProps w o (setPropCell (w o).g (w o).p n v id co)
  | _ => w

/-- The answers a history should give. -/
def truths : (ℕ → GObj K) → List (GEvent K) → List (Answer K)
  | _, [] => []
  | w, e :: es => truth w e :: truths (wstep w e) es

/-- Settings of a grid come before the questions about that grid. -/
def SetFirst (es : List (GEvent K)) : Prop :=
  es.Pairwise fun e e' => e.isSet = false → e'.isSet = true → e.obj ≠ e'.obj

/-- No cache has an entry for the object. -/
def Absent (c : Caches K) (o : ℕ) : Prop :=
  (∀ e ∈ c.kc, e.1.o ≠ o) ∧ (∀ e ∈ c.iso, e.1 ≠ o) ∧ (∀ e ∈ c.gc, e.1.o ≠ o)

section
variable {κ α : Type} [DecidableEq κ]
lemma lruCall_keys (max : MaxSize) (f : κ → Except Err α) (c : List (κ × α)) (k : κ) :
    ∀ e ∈ (lruCall max f c k).2, e.1 = k ∨ e ∈ c := by
  unfold lruCall
  cases hl : c.lookup k with
  | some v =>
    intro e he
    rcases List.mem_cons.1 he with rfl | he
    · exact .inl rfl
    · exact .inr (List.mem_of_mem_filter he)
  | none =>
    cases hf : f k with
    | error e => exact fun e he => .inr he
    | ok v =>
      intro e he
      rcases List.mem_cons.1 ((trunc_sublist max _).subset he) with rfl | he
      · exact .inl rfl
      · exact .inr he
end

lemma cachedK_absent (w : ℕ → GObj K) (o o' : ℕ) (h : o ≠ o') (a id co) (c : Caches K) (hc : Absent c o') :
    Absent (cachedK w o a id co c).2 o' :=
  ⟨fun e he => by
    rcases lruCall_keys _ _ _ _ e he with h' | h'
    · rw [h']; exact h
    · exact hc.1 e h', hc.2⟩

lemma cachedIso_absent (w : ℕ → GObj K) (o o' : ℕ) (h : o ≠ o') (c : Caches K) (hc : Absent c o') :
    Absent (cachedIso w o c).2 o' :=
  ⟨hc.1, fun e he => by
    rcases lruCall_keys _ _ _ _ e he with h' | h'
    · rw [h']; exact h
    · exact hc.2.1 e h', hc.2.2⟩

lemma cachedG_absent (w : ℕ → GObj K) (o o' : ℕ) (h : o ≠ o') (id : ℤ) (b : Bool) (c : Caches K) (hc : Absent c o') :
    Absent (cachedG w o id b c).2 o' := by
  unfold cachedG
  cases hl : c.gc.lookup ⟨o, id, b⟩ with
  | some v =>
    refine ⟨hc.1, hc.2.1, fun e he => ?_⟩
    rcases List.mem_cons.1 he with rfl | he
    · exact h
    · exact hc.2.2 _ (List.mem_of_mem_filter he)
  | none =>
    have hk : Keeps (fun c => Absent c o') (cellGBody (m := CM K) (w o) noCache noCache
        (fun a i => cachedK w o a (some i) none) (cachedIso w o) id b) :=
      keeps_body _ (fun a i c hc => cachedK_absent w o o' h a _ _ c hc) (fun c hc => cachedIso_absent w o o' h c hc) _ _
    have k := hk c hc
    simp only
    generalize hr : (cellGBody (m := CM K) (w o) noCache noCache (fun a i => cachedK w o a (some i) none)
        (cachedIso w o) id b) c = r at k ⊢
    obtain ⟨v, c'⟩ := r
    cases v with
    | error e => exact k
    | ok v =>
      refine ⟨k.1, k.2.1, fun e he => ?_⟩
      rcases List.mem_cons.1 he with rfl | he
      · exact h
      · exact k.2.2 _ he

lemma putProps_other (w : ℕ → GObj K) (o o' : ℕ) (h : o' ≠ o) (r : Except Err (Props K)) : putProps w o r o' = w o' := by
  cases r with
  | ok p => simp [putProps, Function.update, h]
  | error e => rfl

lemma fresh_put (w : ℕ → GObj K) (o : ℕ) (r : Except Err (Props K)) (c : Caches K) (h : Fresh (fun _ => True) w c)
    (ha : Absent c o) : Fresh (fun _ => True) (putProps w o r) c := by
  obtain ⟨h1, h2, h3⟩ := h
  refine ⟨fun e he _ => ?_, fun e he _ => ?_, fun e he _ => ?_⟩
  · rw [putProps_other w o _ (ha.1 e he)]; exact h1 e he trivial
  · rw [putProps_other w o _ (ha.2.1 e he)]; exact h2 e he trivial
  · rw [putProps_other w o _ (ha.2.2 e he)]; exact h3 e he trivial

lemma gstep_world (w : ℕ → GObj K) (c : Caches K) (e : GEvent K) : (gstep w c e).2.1 = wstep w e := by cases e <;> rfl

lemma gstep_fresh (w : ℕ → GObj K) (c : Caches K) (e : GEvent K) (h : Fresh (fun _ => True) w c)
    (ha : e.isSet = true → Absent c e.obj) :
    (gstep w c e).1 = truth w e ∧ Fresh (fun _ => True) (wstep w e) (gstep w c e).2.2 := by
  cases e with
  | setAll o n v => exact ⟨rfl, fresh_put _ _ _ _ h (ha rfl)⟩
  | setCell o n v id co => exact ⟨rfl, fresh_put _ _ _ _ h (ha rfl)⟩
  | getK o a id co =>
    have := cachedK_fresh _ w o a id co c h
    exact ⟨congrArg Answer.k (this.1 trivial), this.2⟩
  | getIso o =>
    have := cachedIso_fresh _ w o c h
    exact ⟨congrArg Answer.iso (this.1 trivial), this.2⟩
  | getG o id b =>
    have := cachedG_fresh _ w o id b c h
    exact ⟨congrArg Answer.g (this.1 trivial), this.2⟩

lemma gstep_absent (w : ℕ → GObj K) (c : Caches K) (e : GEvent K) (o' : ℕ) (h : e.isSet = true ∨ e.obj ≠ o')
    (hc : Absent c o') : Absent (gstep w c e).2.2 o' := by
  cases e with
  | setAll o n v => exact hc
  | setCell o n v id co => exact hc
  | getK o a id co => exact cachedK_absent w o o' (by simpa [GEvent.isSet, GEvent.obj] using h) a id co c hc
  | getIso o => exact cachedIso_absent w o o' (by simpa [GEvent.isSet, GEvent.obj] using h) c hc
  | getG o id b => exact cachedG_absent w o o' (by simpa [GEvent.isSet, GEvent.obj] using h) id b c hc

lemma grun_fresh (es : List (GEvent K)) (w : ℕ → GObj K) (c : Caches K) (h : Fresh (fun _ => True) w c) (hp : SetFirst es)
    (ha : ∀ e ∈ es, e.isSet = true → Absent c e.obj) : (grun w c es).1 = truths w es := by
  induction es generalizing w c with
  | nil => rfl
  | cons e es ih =>
    obtain ⟨p1, p2⟩ := List.pairwise_cons.1 hp
    obtain ⟨e1, f1⟩ := gstep_fresh w c e h (ha e (by simp))
    simp only [grun, truths, e1]
    rw [gstep_world, ih _ _ f1 p2]
    intro e' he' hs
    refine gstep_absent w c e e'.obj ?_ (ha e' (by simp [he']) hs)
    by_cases hset : e.isSet = true
    · exact .inl hset
    · exact .inr (p1 e' he' (by simpa using hset) hs)

/-- **C18, partial.** In every history of settings and questions over any number of grids in which the settings of a grid
precede the questions about that grid, every answer of `get_cell_k`, `is_isotropic` and `get_cell_G` is the one computed from
the values stored at that moment. Missing: settings after the first question, where the answer can be stale
(`C18_k_stale`, `C18_G_stale`, `C18_isotropic_stale`). -/
theorem C18_latest_partial (w : ℕ → GObj K) (es : List (GEvent K)) (h : SetFirst es) :
    (grun w .empty es).1 = truths w es :=
  grun_fresh es w _ ⟨by simp [Caches.empty], by simp [Caches.empty], by simp [Caches.empty]⟩ h fun e _ _ =>
    ⟨by simp [Caches.empty], by simp [Caches.empty], by simp [Caches.empty]⟩

/-! ## Stale answers -/

section
variable {κ α : Type} [DecidableEq κ]
lemma lookup_filter {c : List (κ × α)} {k k' : κ} (h : k ≠ k') : (c.filter (fun e => e.1 ≠ k')).lookup k = c.lookup k := by
  induction c with
  | nil => rfl
  | cons e t ih =>
    obtain ⟨a, b⟩ := e
    by_cases ha : a = k'
    · subst ha
      rw [List.filter_cons_of_neg (by simp), ih, List.lookup_cons, beq_false_of_ne h]
    · rw [List.filter_cons_of_pos (by simpa using ha), List.lookup_cons, List.lookup_cons, ih]

/-- An unbounded cache never forgets. -/
lemma lruCall_keep (f : κ → Except Err α) (c : List (κ × α)) (k k' : κ) (v : α) (h : c.lookup k = some v) :
    (lruCall none f c k').2.lookup k = some v := by
  unfold lruCall
  by_cases hk : k = k'
  · subst hk; rw [h]; simp
  · cases hl : c.lookup k' with
    | some w => simp only [List.lookup_cons]; rw [beq_false_of_ne hk]; rw [lookup_filter hk]; exact h
    | none => cases f k' with
      | error e => exact h
      | ok w => simp only [trunc, List.lookup_cons]; rw [beq_false_of_ne hk]; exact h

lemma lruCall_stored (f : κ → Except Err α) (c : List (κ × α)) (k : κ) (v : α) (h : (lruCall none f c k).1 = .ok v) :
    (lruCall none f c k).2.lookup k = some v := by
  unfold lruCall at h ⊢
  cases hl : c.lookup k with
  | some w => rw [hl] at h; simp only [Except.ok.injEq] at h; subst h; simp
  | none =>
    rw [hl] at h
    cases hf : f k with
    | error e => rw [hf] at h; simp at h
    | ok w => rw [hf] at h; simp only [Except.ok.injEq] at h; subst h; simp [trunc]

lemma lruCall_hit (f : κ → Except Err α) (c : List (κ × α)) (k : κ) (v : α) (h : c.lookup k = some v) (m : MaxSize) :
    (lruCall m f c k).1 = .ok v := by unfold lruCall; rw [h]
end

/-- The permeability cache holds `v` for the key. -/
def HoldsK (k : KKey) (v : K) (c : Caches K) : Prop := c.kc.lookup k = some v

lemma gstep_holdsK (w : ℕ → GObj K) (c : Caches K) (e : GEvent K) (k : KKey) (v : K) (h : HoldsK k v c) :
    HoldsK k v (gstep w c e).2.2 := by
  have hk : ∀ o a id co (c : Caches K), HoldsK k v c → HoldsK k v (cachedK w o a id co c).2 :=
    fun o a id co c hc => lruCall_keep _ _ _ _ _ hc
  cases e with
  | setAll o n v => exact h
  | setCell o n v id co => exact h
  | getK o a id co => exact hk o a id co c h
  | getIso o => exact h
  | getG o id b =>
    show HoldsK k v (cachedG w o id b c).2
    unfold cachedG
    cases hl : c.gc.lookup ⟨o, id, b⟩ with
    | some v => exact h
    | none =>
      have kk : Keeps (HoldsK k v) (cellGBody (m := CM K) (w o) noCache noCache (fun a i => cachedK w o a (some i) none)
        (cachedIso w o) id b) := keeps_body _ (fun a i c hc => hk o a _ _ c hc) (fun c hc => hc) _ _
      have k1 := kk c h
      simp only
      generalize hr : (cellGBody (m := CM K) (w o) noCache noCache (fun a i => cachedK w o a (some i) none)
        (cachedIso w o) id b) c = r at k1 ⊢
      obtain ⟨u, c'⟩ := r
      cases u <;> exact k1

lemma grun_holdsK (es : List (GEvent K)) (w : ℕ → GObj K) (c : Caches K) (k : KKey) (v : K) (h : HoldsK k v c) :
    HoldsK k v (grun w c es).2.2 := by
  induction es generalizing w c with
  | nil => exact h
  | cons e es ih => exact ih _ _ (gstep_holdsK w c e k v h)

/-- **C18 fails for `get_cell_k`.** Once a permeability has been answered, the same question gets the same answer for ever,
whatever is set in between. -/
theorem C18_k_stale (w : ℕ → GObj K) (c : Caches K) (o : ℕ) (a : Axis) (id co) (v : K) (es : List (GEvent K))
    (h : (gstep w c (.getK o a id co)).1 = .k (.ok v)) :
    (gstep (grun w (gstep w c (.getK o a id co)).2.2 es).2.1 (grun w (gstep w c (.getK o a id co)).2.2 es).2.2
      (.getK o a id co)).1 = .k (.ok v) := by
  have h0 : (cachedK w o a id co c).1 = .ok v := by
    have : Answer.k (cachedK w o a id co c).1 = .k (.ok v) := h
    injection this
  have h1 : HoldsK ⟨o, a, id, co⟩ v (gstep w c (.getK o a id co)).2.2 := lruCall_stored _ _ _ _ h0
  have h2 := grun_holdsK es w _ _ _ h1
  exact congrArg Answer.k (lruCall_hit _ _ _ _ h2 none)

/-- The cache of geometric factors holds `v` for the key. -/
def HoldsG (k : GKey) (v : List (ℕ × K)) (c : Caches K) : Prop := c.gc.lookup k = some v

lemma gstep_holdsG (w : ℕ → GObj K) (c : Caches K) (e : GEvent K) (k : GKey) (v : List (ℕ × K)) (h : HoldsG k v c) :
    HoldsG k v (gstep w c e).2.2 := by
  cases e with
  | setAll o n v => exact h
  | setCell o n v id co => exact h
  | getK o a id co => exact h
  | getIso o => exact h
  | getG o id b =>
    show HoldsG k v (cachedG w o id b c).2
    unfold cachedG
    by_cases hk : k = ⟨o, id, b⟩
    · subst hk
      unfold HoldsG at h ⊢
      rw [h]; simp
    · cases hl : c.gc.lookup ⟨o, id, b⟩ with
      | some u =>
        show List.lookup k ((⟨o, id, b⟩, u) :: _) = some v
        rw [List.lookup_cons, beq_false_of_ne hk]; simp only; rw [lookup_filter hk]; exact h
      | none =>
        have kk : Keeps (HoldsG k v) (cellGBody (m := CM K) (w o) noCache noCache (fun a i => cachedK w o a (some i) none)
          (cachedIso w o) id b) := keeps_body _ (fun a i c hc => hc) (fun c hc => hc) _ _
        have k1 := kk c h
        simp only
        generalize hr : (cellGBody (m := CM K) (w o) noCache noCache (fun a i => cachedK w o a (some i) none)
          (cachedIso w o) id b) c = r at k1 ⊢
        obtain ⟨u, c'⟩ := r
        cases u with
        | error e => exact k1
        | ok u =>
          show List.lookup k ((⟨o, id, b⟩, u) :: _) = some v
          rw [List.lookup_cons, beq_false_of_ne hk]; exact k1

lemma cachedG_stored (w : ℕ → GObj K) (o : ℕ) (id : ℤ) (b : Bool) (c : Caches K) (v : List (ℕ × K))
    (h : (cachedG w o id b c).1 = .ok v) : HoldsG ⟨o, id, b⟩ v (cachedG w o id b c).2 := by
  unfold cachedG at h ⊢
  cases hl : c.gc.lookup ⟨o, id, b⟩ with
  | some u => rw [hl] at h; simp only [Except.ok.injEq] at h; subst h; simp [HoldsG]
  | none =>
    rw [hl] at h
    simp only at h ⊢
    generalize hr : (cellGBody (m := CM K) (w o) noCache noCache (fun a i => cachedK w o a (some i) none)
          (cachedIso w o) id b) c = r at h ⊢
    obtain ⟨u, c'⟩ := r
    cases u with
    | error e => simp at h
    | ok u => simp only [Except.ok.injEq] at h; subst h; simp [HoldsG]

lemma cachedG_hit (w : ℕ → GObj K) (o : ℕ) (id : ℤ) (b : Bool) (c : Caches K) (v : List (ℕ × K))
    (h : HoldsG ⟨o, id, b⟩ v c) : (cachedG w o id b c).1 = .ok v := by
  unfold cachedG; rw [show c.gc.lookup ⟨o, id, b⟩ = some v from h]

lemma grun_holdsG (es : List (GEvent K)) (w : ℕ → GObj K) (c : Caches K) (k : GKey) (v : List (ℕ × K)) (h : HoldsG k v c) :
    HoldsG k v (grun w c es).2.2 := by
  induction es generalizing w c with
  | nil => exact h
  | cons e es ih => exact ih _ _ (gstep_holdsG w c e k v h)

/-- **C18 fails for `get_cell_G`** in the same way. -/
theorem C18_G_stale (w : ℕ → GObj K) (c : Caches K) (o : ℕ) (id : ℤ) (b : Bool) (v : List (ℕ × K)) (es : List (GEvent K))
    (h : (gstep w c (.getG o id b)).1 = .g (.ok v)) :
    (gstep (grun w (gstep w c (.getG o id b)).2.2 es).2.1 (grun w (gstep w c (.getG o id b)).2.2 es).2.2
      (.getG o id b)).1 = .g (.ok v) := by
  have h0 : (cachedG w o id b c).1 = .ok v := by
    have : Answer.g (cachedG w o id b c).1 = .g (.ok v) := h
    injection this
  have h2 := grun_holdsG es w _ _ _ (cachedG_stored w o id b c v h0)
  exact congrArg Answer.g (cachedG_hit _ o id b _ v h2)

/-- The isotropy cache holds the answer for the object. -/
def HoldsI (o : ℕ) (v : Bool) (c : Caches K) : Prop := c.iso = [(o, v)]

lemma gstep_holdsI (w : ℕ → GObj K) (c : Caches K) (e : GEvent K) (o : ℕ) (v : Bool) (h : HoldsI o v c)
    (he : e.isSet = true ∨ e.obj = o) : HoldsI o v (gstep w c e).2.2 := by
  have hi : ∀ c : Caches K, HoldsI o v c → HoldsI o v (cachedIso w o c).2 := by
    intro c hc
    unfold HoldsI at hc ⊢
    simp [cachedIso, lruCall, hc]
  cases e with
  | setAll o n v => exact h
  | setCell o n v id co => exact h
  | getK o a id co => exact h
  | getIso o' =>
    have : o' = o := by simpa [GEvent.isSet, GEvent.obj] using he
    subst this; exact hi c h
  | getG o' id b =>
    have : o' = o := by simpa [GEvent.isSet, GEvent.obj] using he
    subst this
    show HoldsI _ v (cachedG w _ id b c).2
    unfold cachedG
    cases hl : c.gc.lookup ⟨o', id, b⟩ with
    | some v => exact h
    | none =>
      have kk : Keeps (HoldsI o' v) (cellGBody (m := CM K) (w o') noCache noCache (fun a i => cachedK w o' a (some i) none)
        (cachedIso w o') id b) := keeps_body _ (fun a i c hc => hc) hi _ _
      have k1 := kk c h
      simp only
      generalize hr : (cellGBody (m := CM K) (w o') noCache noCache (fun a i => cachedK w o' a (some i) none)
        (cachedIso w o') id b) c = r at k1 ⊢
      obtain ⟨u, c'⟩ := r
      cases u <;> exact k1

lemma grun_holdsI (es : List (GEvent K)) (w : ℕ → GObj K) (c : Caches K) (o : ℕ) (v : Bool) (h : HoldsI o v c)
    (he : ∀ e ∈ es, e.isSet = true ∨ e.obj = o) : HoldsI o v (grun w c es).2.2 := by
  induction es generalizing w c with
  | nil => exact h
  | cons e es ih =>
    exact ih _ _ (gstep_holdsI w c e o v h (he e (by simp))) fun e' h' => he e' (by simp [h'])

/-- **C18 fails for `is_isotropic`**: its answer is repeated whatever is set, as long as no other grid is asked in between. -/
theorem C18_isotropic_stale (w : ℕ → GObj K) (o : ℕ) (v : Bool) (es : List (GEvent K)) (c : Caches K)
    (h : (gstep w c (.getIso o)).1 = .iso (.ok v)) (hc : c.iso.length ≤ 1)
    (he : ∀ e ∈ es, e.isSet = true ∨ e.obj = o) :
    (gstep (grun w (gstep w c (.getIso o)).2.2 es).2.1 (grun w (gstep w c (.getIso o)).2.2 es).2.2
      (.getIso o)).1 = .iso (.ok v) := by
  have h0 : (cachedIso w o c).1 = .ok v := by
    have : Answer.iso (cachedIso w o c).1 = .iso (.ok v) := h
    injection this
  have h1 : HoldsI o v (cachedIso w o c).2 := by
    unfold cachedIso lruCall at h0
    unfold HoldsI cachedIso lruCall
    cases hl : c.iso.lookup o with
    | some u =>
      rw [hl] at h0
      simp only [Except.ok.injEq] at h0
      subst h0
      have hm := mem_of_lookup hl
      match hi : c.iso, hc, hm with
      | [e], _, hm => simp at hm; subst hm; simp
    | none =>
      rw [hl] at h0
      cases hf : (w o).isIsotropic with
      | error e => simp [hf] at h0
      | ok u => simp only [hf, Except.ok.injEq] at h0; subst h0; simp [trunc, hf]
  have h2 : (grun w (gstep w c (.getIso o)).2.2 es).2.2.iso = [(o, v)] := grun_holdsI es w _ o v h1 he
  refine congrArg Answer.iso ?_
  refine lruCall_hit _ _ _ _ ?_ (some 1)
  rw [h2]; simp


/-! ## The uncached factor is the one of C20 -/

lemma mapM_congr_ok {α β : Type} {f h : α → Except Err β} (l : List α) (e : ∀ a ∈ l, f a = h a) : l.mapM f = l.mapM h := by
  induction l with
  | nil => rfl
  | cons a t ih => rw [List.mapM_cons, List.mapM_cons, e a (by simp), ih fun b hb => e b (by simp [hb])]

/-- The geometric factor used here is the one C20 is about, whenever the isotropy test succeeds. -/
theorem C18_uncached_factor (x : GObj K) (id : ℤ) (b i : Bool) (h : x.isIsotropic = .ok i) :
    x.cellG id b = RF.cellG x.g x.q x.p.rock x.β id b := by
  unfold GObj.cellG cellGBody RF.cellG
  rw [h, show RF.isIsotropic x.g x.p.rock = .ok i from h]
  rfl

/-! ## Concrete histories -/

/-- A 1×4×1 grid of unit cells. -/
def o141 : GObj ℚ := ⟨g141, ⟨[1], List.replicate 6 1, [1], List.replicate 6 1, List.replicate 6 1, List.replicate 6 1⟩, 1, fun _ => none⟩

/-- A list of answers as numbers. -/
def shown : Answer ℚ → Option ℚ
  | .k (.ok v) => some v
  | _ => none

/-- Set, ask, set again, ask again: the second answer is the first value, not the second. -/
theorem C18_stale_history : (grun (fun _ => o141) .empty
      [.setAll 0 .ky (.num 100), .getK 0 .y (some 2) none, .setAll 0 .ky (.num 5), .getK 0 .y (some 2) none]).1.map shown =
    [none, some 100, none, some 100] ∧
    (truths (fun _ => o141)
      [.setAll 0 .ky (.num 100), .getK 0 .y (some 2) none, .setAll 0 .ky (.num 5), .getK 0 .y (some 2) none]).map shown =
    [none, some 100, none, some 5] := by decide +kernel

/-- A history that meets the condition of `C18_latest_partial`, with two grids. -/
example : SetFirst (K := ℚ) [.setAll 0 .ky (.num 100), .setAll 0 .ky (.num 7), .getK 0 .y (some 2) none, .setAll 1 .kx (.num 5),
    .getG 0 2 true, .getIso 0, .getIso 1] := by
  simp [SetFirst, GEvent.isSet, GEvent.obj]
example : (grun (fun _ => o141) .empty [.setAll 0 .ky (.num 100), .setAll 0 .ky (.num 7), .getK 0 .y (some 2) none,
    .setAll 1 .ky (.num 5), .getK 1 .y (some 2) none, .getK 0 .y (some 2) none]).1.map shown =
    [none, none, some 7, none, some 5, some 7] := by decide +kernel

end RF
