import Verif.Lemmas.Multipoles
import Verif.Lemmas.RequestsErrors
import Verif.Spec.SharedTables
/-
Systematic multipole errors which share the memory of the caller's tables.
-/
namespace PySC
set_option linter.unusedSectionVars false
open Py Spec
variable {K : Type} [Field K] [LinearOrder K] [FloorRing K]

/-- a stored column -/
def readCol (r : Ring K) (i : Nat) (a : String) (o : Nat) : Option (List K) :=
  match r.attr i a with
  | some (.multip d) => Dict.get? d o
  | _ => none

theorem readCol_of_attr {r : Ring K} {i : Nat} {a : String} {d : List (Nat × List K)} (h : r.attr i a = some (.multip d)) (o : Nat) :
    readCol r i a o = Dict.get? d o := by unfold readCol; rw [h]

theorem readCol_congr {r r' : Ring K} {i : Nat} {a : String} (h : r'.attr i a = r.attr i a) (o : Nat) :
    readCol r' i a o = readCol r i a o := by unfold readCol; rw [h]

theorem readCol_some {r : Ring K} {i : Nat} {a : String} {o : Nat} {x : List K} (h : readCol r i a o = some x) :
    ∃ d, r.attr i a = some (.multip d) ∧ Dict.get? d o = some x := by
  unfold readCol at h
  split at h
  · rename_i d hd; exact ⟨d, hd, h⟩
  · cases h

theorem Ring.attr_lt {r : Ring K} {i : Nat} {a : String} {v : Attr K} (h : r.attr i a = some v) : i < r.length := by
  by_contra hlt
  unfold Ring.attr at h
  rw [List.getElem?_eq_none (by omega)] at h
  cases h

/-- the same place -/
def View.Same (v w : View) : Prop := v.elem = w.elem ∧ v.attr = w.attr ∧ v.order = w.order

theorem showView_self {BA : List (K × K)} {r : Ring K} {v : View} {x : List K} (h : readCol r v.elem v.attr v.order = some x) :
    readCol (showView BA r v) v.elem v.attr v.order = some (tableColumn BA v.skew) := by
  obtain ⟨d, hd, -⟩ := readCol_some h
  unfold showView
  rw [hd]
  dsimp only
  rw [readCol_of_attr (Ring.attr_setAttr_same (Ring.attr_lt hd)), Dict.get?_set, if_pos rfl]

theorem showView_other {BA : List (K × K)} {r : Ring K} {v : View} {i : Nat} {a : String} {o : Nat}
    (h : ¬ (v.elem = i ∧ v.attr = a ∧ v.order = o)) : readCol (showView BA r v) i a o = readCol r i a o := by
  unfold showView
  split
  · rename_i d hd
    by_cases hia : i = v.elem ∧ a = v.attr
    · obtain ⟨rfl, rfl⟩ := hia
      rw [readCol_of_attr (Ring.attr_setAttr_same (Ring.attr_lt hd)), Dict.get?_set, if_neg (fun ho => h ⟨rfl, rfl, ho.symm⟩),
        readCol_of_attr hd]
    · refine readCol_congr ?_ o
      rw [Ring.attr_setAttr, if_neg hia]
  · rfl

/-- showing views of a table: the places which are not among them keep their column -/
theorem showViews_other {BA : List (K × K)} {i : Nat} {a : String} {o : Nat} (L : List View) (r : Ring K)
    (h : ∀ v ∈ L, ¬ (v.elem = i ∧ v.attr = a ∧ v.order = o)) : readCol (L.foldl (showView BA) r) i a o = readCol r i a o := by
  induction L generalizing r with
  | nil => rfl
  | cons v L ih =>
    rw [List.foldl_cons, ih _ (fun w hw => h w (List.mem_cons_of_mem _ hw)), showView_other (h v (by simp))]

/-- … and the others show the table -/
theorem showViews_mem {BA : List (K × K)} {v : View} (L : List View) (r : Ring K) (hv : v ∈ L)
    (huniq : ∀ w ∈ L, w.Same v → w = v) {x : List K} (hx : readCol r v.elem v.attr v.order = some x) :
    readCol (L.foldl (showView BA) r) v.elem v.attr v.order = some (tableColumn BA v.skew) := by
  induction L generalizing r x with
  | nil => cases hv
  | cons w L ih =>
    rw [List.foldl_cons]
    have hu : ∀ w ∈ L, w.Same v → w = v := fun w hw => huniq w (List.mem_cons_of_mem _ hw)
    by_cases hw : w.Same v
    · obtain rfl := huniq w (by simp) hw
      by_cases hin : w ∈ L
      · exact ih _ hin hu (showView_self hx)
      · rw [showViews_other _ _ (fun u hu' he => hin ((hu u hu' he) ▸ hu'))]
        exact showView_self hx
    · rcases List.mem_cons.1 hv with rfl | hin
      · exact absurd ⟨rfl, rfl, rfl⟩ hw
      · exact ih _ hin hu (x := x) (by rw [showView_other hw]; exact hx)

/-- every view shows its table, and there is one view at most at a place -/
structure Live (st : Shared K) : Prop where
  shows : ∀ v ∈ st.views, ∃ BA, st.tables[v.table]? = some BA ∧
    readCol st.sc.RING v.elem v.attr v.order = some (tableColumn BA v.skew)
  unique : ∀ v ∈ st.views, ∀ w ∈ st.views, w.Same v → w = v

theorem Live.none {st : Shared K} (h : st.views = []) : Live st :=
  ⟨fun v hv => (by rw [h] at hv; cases hv), fun v hv => (by rw [h] at hv; cases hv)⟩

theorem Live.write {st : Shared K} (h : Live st) (t : Nat) (BA : List (K × K)) : Live (writeTable t BA st).state := by
  refine ⟨fun v hv => ?_, fun v hv w hw => h.unique v hv w hw⟩
  replace hv : v ∈ st.views := hv
  obtain ⟨B, hB, hx⟩ := h.shows v hv
  change ∃ BA', (st.tables.set t BA)[v.table]? = some BA' ∧ readCol ((st.views.filter _).foldl (showView BA) st.sc.RING) _ _ _ = _
  by_cases ht : v.table = t
  · subst ht
    refine ⟨BA, ?_, showViews_mem _ _ (List.mem_filter.2 ⟨hv, by simp⟩) (fun w hw => h.unique v hv w (List.mem_filter.1 hw).1) hx⟩
    rw [List.getElem?_set_self (List.getElem?_eq_some_iff.1 hB).1]
  · refine ⟨B, by rw [List.getElem?_set_ne (Ne.symm ht)]; exact hB, ?_⟩
    rw [showViews_other, hx]
    intro w hw he
    obtain ⟨hw1, hw2⟩ := List.mem_filter.1 hw
    obtain rfl := h.unique v hv w hw1 he
    exact ht (by simpa using hw2)

theorem setSysPol_error {i : Nat} {a : String} {order : Nat} {v : List K} {s s' : SC K} {e : Err}
    (h : setSysPol i a order v s = .error e s') : s' = s := by
  unfold setSysPol at h
  simp only [bind_eq_error, rd_eq_error, rd_eq_ok] at h
  rcases h with ⟨-, rfl⟩ | ⟨b, s1, ⟨-, rfl⟩, h⟩
  · rfl
  · split at h
    · simp only [bind_eq_error, rd_eq_error, rd_eq_ok, lift_eq_error, lift_eq_ok] at h
      rcases h with ⟨-, rfl⟩ | ⟨b, s1, ⟨-, rfl⟩, ⟨-, rfl⟩ | ⟨d, s2, ⟨-, rfl⟩, h⟩⟩
      · rfl
      · rfl
      · exact setAttr_error h
    · exact setAttr_error h

theorem onMachine_state {α : Type} (m : Py (SC K) α) (st : Shared K) :
    (onMachine m st).state = { st with sc := (m st.sc).state } := by
  unfold onMachine; cases m st.sc <;> rfl

/-! ### storing a view -/

theorem storeView_error {col : List K} {v : View} {st st' : Shared K} {e : Err} (h : storeView col v st = .error e st') : st' = st := by
  unfold storeView at h
  rw [bind_apply] at h
  unfold onMachine at h
  cases hm : setSysPol v.elem v.attr v.order col st.sc with
  | ok a s => rw [hm] at h; cases h
  | error e' s =>
    rw [hm] at h
    cases h
    rw [setSysPol_error hm]

theorem storeView_ok {col : List K} {v : View} {st st' : Shared K} (h : storeView col v st = .ok () st') :
    ∃ s', setSysPol v.elem v.attr v.order col st.sc = .ok () s' ∧ st' = ⟨s', st.tables,
      v :: st.views.filter (fun w => decide (¬ (w.elem = v.elem ∧ w.attr = v.attr ∧ w.order = v.order)))⟩ := by
  unfold storeView at h
  rw [bind_apply] at h
  unfold onMachine at h
  cases hm : setSysPol v.elem v.attr v.order col st.sc with
  | ok a s => rw [hm] at h; cases h; exact ⟨s, rfl, rfl⟩
  | error e' s => rw [hm] at h; cases h

/-- every place but this one keeps its column -/
theorem setSysPol_other {i : Nat} {a : String} {order : Nat} {col : List K} {s s' : SC K} (h : setSysPol i a order col s = .ok () s')
    {j : Nat} {b : String} {o : Nat} (hne : ¬ (j = i ∧ b = a ∧ o = order)) {x : List K} (hx : readCol s.RING j b o = some x) :
    readCol s'.RING j b o = some x := by
  by_cases hjb : j = i ∧ b = a
  · obtain ⟨rfl, rfl⟩ := hjb
    obtain ⟨d, hd, hdx⟩ := readCol_some hx
    rw [readCol_of_attr (setSysPol_ok h), Dict.get?_set, if_neg (fun ho => hne ⟨rfl, rfl, ho⟩), tableAt, hd]
    exact hdx
  · rw [readCol_congr (((setSysPol_rel (W := fun j' b' => j' = i ∧ b' = a) ⟨rfl, rfl⟩).ok h).attr j b hjb), hx]

theorem setSysPol_self {i : Nat} {a : String} {order : Nat} {col : List K} {s s' : SC K} (h : setSysPol i a order col s = .ok () s') :
    readCol s'.RING i a order = some col := by
  rw [readCol_of_attr (setSysPol_ok h), Dict.get?_set, if_pos rfl]

theorem Live.store {st : Shared K} (h : Live st) {v : View} {BA : List (K × K)} (hB : st.tables[v.table]? = some BA) :
    Live (storeView (tableColumn BA v.skew) v st).state := by
  cases hm : storeView (tableColumn BA v.skew) v st with
  | error e st' => rw [show st' = st from storeView_error hm] at *; exact h
  | ok u st' =>
    obtain ⟨s', hs, rfl⟩ := storeView_ok hm
    have hmem : ∀ w ∈ v :: st.views.filter (fun w => decide (¬ (w.elem = v.elem ∧ w.attr = v.attr ∧ w.order = v.order))),
        w = v ∨ (w ∈ st.views ∧ ¬ (w.elem = v.elem ∧ w.attr = v.attr ∧ w.order = v.order)) := by
      intro w hw
      rcases List.mem_cons.1 hw with rfl | hw
      · exact Or.inl rfl
      · exact Or.inr ⟨(List.mem_filter.1 hw).1, of_decide_eq_true (List.mem_filter.1 hw).2⟩
    refine ⟨fun w hw => ?_, fun w hw u hu hsm => ?_⟩
    · rcases hmem w hw with rfl | ⟨h1, h2⟩
      · exact ⟨BA, hB, setSysPol_self hs⟩
      · obtain ⟨B, hB', hx⟩ := h.shows w h1
        exact ⟨B, hB', setSysPol_other hs h2 hx⟩
    · rcases hmem w hw with rfl | ⟨h1, h2⟩ <;> rcases hmem u hu with rfl | ⟨h3, h4⟩
      · rfl
      · exact absurd hsm h4
      · exact absurd ⟨hsm.1.symm, hsm.2.1.symm, hsm.2.2.symm⟩ h2
      · exact h.unique w h1 u h3 hsm

theorem storeView_tables (col : List K) (v : View) (st : Shared K) : (storeView col v st).state.tables = st.tables := by
  cases hm : storeView col v st with
  | error e st' => rw [show st' = st from storeView_error hm]; rfl
  | ok u st' => obtain ⟨s', -, rfl⟩ := storeView_ok hm; rfl

theorem storeView_new {col : List K} {v : View} {st st' : Shared K} (h : storeView col v st = .ok () st') : v ∈ st'.views := by
  obtain ⟨s', -, rfl⟩ := storeView_ok h; simp

/-- a view elsewhere stays; one at the same place is replaced -/
theorem storeView_keeps {col : List K} {v w : View} {st : Shared K} (hw : w ∈ st.views) (hsame : w.Same v → w = v) :
    w ∈ (storeView col v st).state.views := by
  cases hm : storeView col v st with
  | error e st' => rw [show st' = st from storeView_error hm]; exact hw
  | ok u st' =>
    obtain ⟨s', -, rfl⟩ := storeView_ok hm
    by_cases hs : w.Same v
    · exact List.mem_cons.2 (Or.inl (hsame hs))
    · exact List.mem_cons_of_mem _ (List.mem_filter.2 ⟨hw, decide_eq_true hs⟩)

theorem storeView_views {col : List K} {v w : View} {st : Shared K} (hw : w ∈ (storeView col v st).state.views) :
    w ∈ st.views ∨ w = v := by
  cases hm : storeView col v st with
  | error e st' => rw [hm, show st' = st from storeView_error hm] at hw; exact Or.inl hw
  | ok u st' =>
    rw [hm] at hw
    obtain ⟨s', -, rfl⟩ := storeView_ok hm
    rcases List.mem_cons.1 hw with rfl | hw
    · exact Or.inr rfl
    · exact Or.inl (List.mem_filter.1 hw).1

/-! ### the loop -/

theorem forEach_keeps {σ α : Type _} {P : σ → Prop} {l : List α} {f : α → Py σ Unit} (hf : ∀ x ∈ l, ∀ s, P s → P (f x s).state) {s : σ}
    (h : P s) : P (forEach l f s).state := by
  induction l generalizing s with
  | nil => exact h
  | cons x l ih =>
    rw [forEach_cons, bind_apply]
    have h1 := hf x (by simp) s h
    cases hx : f x s with
    | ok a s' => rw [hx] at h1; exact ih (fun y hy => hf y (List.mem_cons_of_mem _ hy)) h1
    | error e s' => rw [hx] at h1; exact h1

/-- the view a call stores -/
def callView (c : SysCall) (i : Nat) (target : String) : View :=
  ⟨i, "SysPol" ++ target ++ "From" ++ sourceOf c.skew, c.order, c.table, c.skew⟩

/-- the loop of a call -/
def callLoop (c : SysCall) (BA : List (K × K)) : Py (Shared K) Unit :=
  forEach c.ords (fun i => forEach ["A", "B"] (fun target => storeView (tableColumn BA c.skew) (callView c i target)))

theorem callLoop_keeps {P : Shared K → Prop} {c : SysCall} {BA : List (K × K)}
    (h : ∀ i ∈ c.ords, ∀ target ∈ ["A", "B"], ∀ st, P st → P (storeView (tableColumn BA c.skew) (callView c i target) st).state)
    {st : Shared K} (hst : P st) : P (callLoop c BA st).state :=
  forEach_keeps (fun i hi _ h1 => forEach_keeps (fun target ht _ h2 => h i hi target ht _ h2) h1) hst

theorem lift_idx_none {σ α : Type _} {l : List α} {n : Nat} {s : σ} (h : l[n]? = none) : lift (idx l n) s = .error .indexError s := by
  unfold lift idx; rw [h]

theorem lift_idx_some {σ α : Type _} {l : List α} {n : Nat} {s : σ} {x : α} (h : l[n]? = some x) : lift (idx l n) s = .ok x s := by
  unfold lift idx; rw [h]

/-- a call either finds no table or no entry and does nothing, or clears the entry and enters the loop -/
theorem shared_call (c : SysCall) (st : Shared K) :
    (∃ e, setSystematicShared c.ords c.table c.order c.skew st = .error e st ∧
      ∀ BA, st.tables[c.table]? = some BA → BA.length ≤ c.order) ∨
    ∃ BA, st.tables[c.table]? = some BA ∧ c.order < BA.length ∧ setSystematicShared c.ords c.table c.order c.skew st =
      callLoop c (clearEntry BA c.order c.skew) (writeTable c.table (clearEntry BA c.order c.skew) st).state := by
  unfold setSystematicShared
  rw [bind_apply, get_apply]
  dsimp only
  rw [bind_apply]
  cases ht : st.tables[c.table]? with
  | none => rw [lift_idx_none ht]; exact Or.inl ⟨.indexError, rfl, fun BA h => (by cases h)⟩
  | some BA =>
    rw [lift_idx_some ht]
    dsimp only
    rw [bind_apply]
    cases ho : BA[c.order]? with
    | none => rw [lift_idx_none ho]; exact Or.inl ⟨.indexError, rfl, fun B h => (by cases h; exact List.getElem?_eq_none_iff.1 ho)⟩
    | some p => rw [lift_idx_some ho]; exact Or.inr ⟨BA, rfl, (List.getElem?_eq_some_iff.1 ho).1, rfl⟩

theorem Live.call {st : Shared K} (h : Live st) (c : SysCall) : Live (setSystematicShared c.ords c.table c.order c.skew st).state := by
  rcases shared_call c st with ⟨e, he, -⟩ | ⟨BA, hB, ho, he⟩
  · rw [he]; exact h
  · rw [he]
    have key : Live (callLoop c (clearEntry BA c.order c.skew) (writeTable c.table (clearEntry BA c.order c.skew) st).state).state ∧ _ :=
      callLoop_keeps (P := fun st' => Live st' ∧ st'.tables[c.table]? = some (clearEntry BA c.order c.skew))
      (fun i _ target _ st' hst => ⟨hst.1.store hst.2, by rw [storeView_tables]; exact hst.2⟩)
      ⟨h.write _ _, List.getElem?_set_self (List.getElem?_eq_some_iff.1 hB).1⟩
    exact key.1

theorem Live.step {st : Shared K} (h : Live st) (x : TableStep K) : Live (tableStep st x) := by
  cases x with
  | call c => exact h.call c
  | write t BA => exact h.write t BA

theorem Live.steps {st : Shared K} (h : Live st) (l : List (TableStep K)) : Live (tableSteps l st) := by
  induction l generalizing st with
  | nil => exact h
  | cons x l ih => exact ih (h.step x)

theorem sourceOf_mem (skew : Bool) : sourceOf skew ∈ ["A", "B"] := by cases skew <;> decide

theorem callView_inj {c d : SysCall} {i j : Nat} {t u : String} (ht : t ∈ ["A", "B"]) (hu : u ∈ ["A", "B"])
    (h : (callView c i t).Same (callView d j u)) : i = j ∧ t = u ∧ c.order = d.order ∧ c.skew = d.skew := by
  obtain ⟨h1, h2, h3⟩ := h
  have names : ∀ s s' : Bool, ∀ t ∈ ["A", "B"], ∀ u ∈ ["A", "B"],
      "SysPol" ++ t ++ "From" ++ sourceOf s = "SysPol" ++ u ++ "From" ++ sourceOf s' → t = u ∧ s = s' := by decide +kernel
  obtain ⟨h4, h5⟩ := names _ _ t ht u hu h2
  exact ⟨h1, h4, h3, h5⟩

/-- after a successful call its views are there -/
theorem call_views {c : SysCall} {st st' : Shared K} (h : setSystematicShared c.ords c.table c.order c.skew st = .ok () st')
    {i : Nat} (hi : i ∈ c.ords) {target : String} (ht : target ∈ ["A", "B"]) : callView c i target ∈ st'.views := by
  rcases shared_call c st with ⟨e, he, -⟩ | ⟨BA, hB, ho, he⟩
  · rw [he] at h; cases h
  · rw [he] at h
    generalize (writeTable c.table (clearEntry BA c.order c.skew) st).state = st1 at h
    have stay : ∀ j, ∀ u ∈ ["A", "B"], ∀ (st : Shared K) (k : Nat), ∀ w ∈ ["A", "B"], callView c k w ∈ st.views →
        callView c k w ∈ (storeView (tableColumn (clearEntry BA c.order c.skew) c.skew) (callView c j u) st).state.views :=
      fun j u hu st k w hw hm => storeView_keeps hm (fun hs => by
        obtain ⟨rfl, rfl, -⟩ := callView_inj hw hu hs; rfl)
    have body : ∀ j (s s' : Shared K), forEach ["A", "B"] (fun target =>
        storeView (tableColumn (clearEntry BA c.order c.skew) c.skew) (callView c j target)) s = .ok () s' →
        ∀ u ∈ ["A", "B"], callView c j u ∈ s'.views := by
      intro j s s' hf
      refine forEach_post (I := fun _ => True) (P := fun u (s : Shared K) => callView c j u ∈ s.views) (fun _ _ _ _ _ => trivial)
        (fun u hu s s' _ hs => storeView_new hs) ?_ hf trivial
      intro x hx y hy s s' _ _ hP hs
      have := stay j x hx s j y hy hP
      rwa [hs] at this
    refine forEach_post (I := fun _ => True) (P := fun k (s : Shared K) => ∀ u ∈ ["A", "B"], callView c k u ∈ s.views)
      (fun _ _ _ _ _ => trivial) (fun u _ s s' _ hs => body u s s' hs) ?_ h trivial i hi target ht
    intro x hx y hy s s' _ _ hP hs u hu
    have := forEach_keeps (P := fun (s : Shared K) => callView c y u ∈ s.views) (l := ["A", "B"])
      (f := fun target => storeView (tableColumn (clearEntry BA c.order c.skew) c.skew) (callView c x target))
      (fun w hw s hs => stay x w hw s y u hu hs) (hP u hu)
    rwa [hs] at this

/-- a step which does not set these errors keeps the view -/
theorem step_views {c : SysCall} {i : Nat} {target : String} (ht : target ∈ ["A", "B"]) {x : TableStep K}
    (hx : ¬ x.sets i c.order c.skew) {st : Shared K} (h : callView c i target ∈ st.views) :
    callView c i target ∈ (tableStep st x).views := by
  cases x with
  | write t BA => exact h
  | call d =>
    change _ ∈ (setSystematicShared d.ords d.table d.order d.skew st).state.views
    rcases shared_call d st with ⟨e, he, -⟩ | ⟨BA, hB, ho, he⟩
    · rw [he]; exact h
    · rw [he]
      refine callLoop_keeps (P := fun st => callView c i target ∈ st.views) (fun j hj u hu st' hm => storeView_keeps hm (fun hs => ?_)) h
      obtain ⟨rfl, rfl, h1, h2⟩ := callView_inj ht hu hs
      exact absurd ⟨hj, h1.symm, h2.symm⟩ hx

theorem steps_views {c : SysCall} {i : Nat} {target : String} (ht : target ∈ ["A", "B"]) (l : List (TableStep K))
    (hl : ∀ x ∈ l, ¬ x.sets i c.order c.skew) {st : Shared K} (h : callView c i target ∈ st.views) :
    callView c i target ∈ (tableSteps l st).views := by
  induction l generalizing st with
  | nil => exact h
  | cons x l ih => exact ih (fun y hy => hl y (List.mem_cons_of_mem _ hy)) (step_views ht (hl x (by simp)) h)

theorem call_tables (c : SysCall) (st : Shared K) : (setSystematicShared c.ords c.table c.order c.skew st).state.tables =
    match st.tables[c.table]? with
    | some BA => if c.order < BA.length then st.tables.set c.table (clearEntry BA c.order c.skew) else st.tables
    | none => st.tables := by
  rcases shared_call c st with ⟨e, he, hno⟩ | ⟨BA, hB, ho, he⟩
  · rw [he]
    split
    · rename_i BA hB
      rw [if_neg (by have := hno BA hB; omega)]; rfl
    · rfl
  · rw [he, hB]
    dsimp only
    rw [if_pos ho]
    exact callLoop_keeps (P := fun st' => st'.tables = st.tables.set c.table (clearEntry BA c.order c.skew))
      (fun i _ target _ st' hst => by rw [storeView_tables]; exact hst) rfl

/-! ### with tables of their own the calls do what they do with copies -/

theorem storeView_sc (col : List K) (v : View) (st : Shared K) : (storeView col v st).state.sc = (setSysPol v.elem v.attr v.order col st.sc).state ∧
    (storeView col v st).err? = (setSysPol v.elem v.attr v.order col st.sc).err? := by
  unfold storeView
  rw [bind_apply]
  unfold onMachine
  cases setSysPol v.elem v.attr v.order col st.sc <;> exact ⟨rfl, rfl⟩

theorem forEach_tracks {α σ τ : Type} {p : σ → τ} {f : α → Py σ Unit} {g : α → Py τ Unit} {l : List α}
    (h : ∀ x ∈ l, ∀ s, p (f x s).state = (g x (p s)).state ∧ (f x s).err? = (g x (p s)).err?) (s : σ) :
    p (forEach l f s).state = (forEach l g (p s)).state ∧ (forEach l f s).err? = (forEach l g (p s)).err? := by
  induction l generalizing s with
  | nil => exact ⟨rfl, rfl⟩
  | cons x l ih =>
    rw [forEach_cons, bind_apply, forEach_cons, bind_apply]
    obtain ⟨h1, h2⟩ := h x (by simp) s
    cases hf : f x s with
    | ok a s' =>
      cases hg : g x (p s) with
      | ok b t' =>
        rw [hf, hg] at h1
        have h1' : p s' = t' := h1
        subst h1'
        exact ih (fun y hy => h y (List.mem_cons_of_mem _ hy)) s'
      | error e t' => rw [hf, hg] at h2; cases h2
    | error e s' =>
      cases hg : g x (p s) with
      | ok b t' => rw [hf, hg] at h2; cases h2
      | error e' t' => rw [hf, hg] at h1 h2; exact ⟨h1, h2⟩

theorem systematic_call (ords : List Nat) (BA : List (K × K)) (order : Nat) (skew : Bool) (s : SC K) :
    (setSystematicMultipoles ords BA order skew s).state = (if order < BA.length then
      (forEach ords (fun i => forEach ["A", "B"] (fun target =>
        setSysPol i ("SysPol" ++ target ++ "From" ++ sourceOf skew) order (tableColumn (clearEntry BA order skew) skew))) s).state else s) ∧
    (setSystematicMultipoles ords BA order skew s).err? = (if order < BA.length then
      (forEach ords (fun i => forEach ["A", "B"] (fun target =>
        setSysPol i ("SysPol" ++ target ++ "From" ++ sourceOf skew) order (tableColumn (clearEntry BA order skew) skew))) s).err? else
      some .indexError) := by
  unfold setSystematicMultipoles
  rw [bind_apply]
  cases ho : BA[order]? with
  | none =>
    have hle : ¬ order < BA.length := by have := List.getElem?_eq_none_iff.1 ho; omega
    rw [lift_idx_none ho]
    simp only [if_neg hle]
    exact ⟨rfl, rfl⟩
  | some q =>
    rw [lift_idx_some ho, if_pos (List.getElem?_eq_some_iff.1 ho).1, if_pos (List.getElem?_eq_some_iff.1 ho).1]
    dsimp only
    rw [bind_apply]
    unfold sourceOf tableColumn
    split <;> rename_i hf <;> rw [hf] <;> exact ⟨rfl, rfl⟩

theorem callLoop_sc (c : SysCall) (B : List (K × K)) (st : Shared K) :
    (callLoop c B st).state.sc = (forEach c.ords (fun i => forEach ["A", "B"] (fun target =>
        setSysPol i ("SysPol" ++ target ++ "From" ++ sourceOf c.skew) c.order (tableColumn B c.skew))) st.sc).state ∧
    (callLoop c B st).err? = (forEach c.ords (fun i => forEach ["A", "B"] (fun target =>
        setSysPol i ("SysPol" ++ target ++ "From" ++ sourceOf c.skew) c.order (tableColumn B c.skew))) st.sc).err? := by
  unfold callLoop
  refine forEach_tracks (p := Shared.sc) ?_ st
  intro i _ s
  refine forEach_tracks (p := Shared.sc) ?_ s
  intro target _ s
  exact storeView_sc (tableColumn B c.skew) (callView c i target) s

/-- a call whose table has no views yet -/
theorem call_fresh {c : SysCall} {st : Shared K} {BA : List (K × K)} (hB : st.tables[c.table]? = some BA)
    (hno : ∀ v ∈ st.views, v.table ≠ c.table) :
    (setSystematicShared c.ords c.table c.order c.skew st).state.sc = (setSystematicMultipoles c.ords BA c.order c.skew st.sc).state ∧
    (setSystematicShared c.ords c.table c.order c.skew st).err? = (setSystematicMultipoles c.ords BA c.order c.skew st.sc).err? := by
  obtain ⟨k1, k2⟩ := systematic_call c.ords BA c.order c.skew st.sc
  rw [k1, k2]
  rcases shared_call c st with ⟨e, he, hle⟩ | ⟨B, hB', ho, he⟩
  · have := hle BA hB
    rw [if_neg (by omega), if_neg (by omega)]
    refine ⟨by rw [he]; rfl, ?_⟩
    unfold setSystematicShared
    rw [bind_apply, get_apply]
    dsimp only
    rw [bind_apply, lift_idx_some hB]
    dsimp only
    rw [bind_apply, lift_idx_none (List.getElem?_eq_none this)]
    rfl
  · obtain rfl : BA = B := by rw [hB] at hB'; exact Option.some.inj hB'
    rw [if_pos ho, if_pos ho, he]
    have hf : st.views.filter (fun v => decide (v.table = c.table)) = [] :=
      List.filter_eq_nil_iff.2 (fun v hv => by simpa using hno v hv)
    have hsc : (writeTable c.table (clearEntry BA c.order c.skew) st).state.sc = st.sc := by
      unfold writeTable
      rw [modify_apply]
      simp only [hf, List.foldl_nil, Res.state]
    rw [← hsc]
    generalize (writeTable c.table (clearEntry BA c.order c.skew) st).state = st1
    exact callLoop_sc c (clearEntry BA c.order c.skew) st1

theorem call_views_from (c : SysCall) (st : Shared K) : ∀ v ∈ (setSystematicShared c.ords c.table c.order c.skew st).state.views,
    v ∈ st.views ∨ v.table = c.table := by
  rcases shared_call c st with ⟨e, he, hle⟩ | ⟨B, hB', ho, he⟩
  · rw [he]; exact fun v hv => Or.inl hv
  · rw [he]
    refine callLoop_keeps (P := fun st' => ∀ v ∈ st'.views, v ∈ st.views ∨ v.table = c.table) ?_ (fun v hv => Or.inl hv)
    intro i hi target ht st' h v hv
    rcases storeView_views hv with h1 | rfl
    · exact h v h1
    · exact Or.inr rfl

theorem call_tables_ne (c : SysCall) (st : Shared K) {t : Nat} (h : t ≠ c.table) :
    (setSystematicShared c.ords c.table c.order c.skew st).state.tables[t]? = st.tables[t]? := by
  rw [call_tables]
  split
  · split
    · exact List.getElem?_set_ne (Ne.symm h)
    · rfl
  · rfl

theorem call_absent {c : SysCall} {st : Shared K} (h : st.tables[c.table]? = none) :
    (setSystematicShared c.ords c.table c.order c.skew st).state.sc = st.sc := by
  rcases shared_call c st with ⟨e, he, hle⟩ | ⟨B, hB', ho, he⟩
  · rw [he]; rfl
  · rw [h] at hB'; cases hB'

theorem calls_copied (calls : List SysCall) (hnd : (calls.map SysCall.table).Nodup) (tables : List (List (K × K))) (st : Shared K)
    (ht : ∀ c ∈ calls, st.tables[c.table]? = tables[c.table]?) (hno : ∀ c ∈ calls, ∀ v ∈ st.views, v.table ≠ c.table) :
    (sharedCalls calls st).sc = copiedCalls tables calls st.sc := by
  induction calls generalizing st with
  | nil => rfl
  | cons c calls ih =>
    rw [List.map_cons, List.nodup_cons] at hnd
    have hne : ∀ d ∈ calls, d.table ≠ c.table := fun d hd he => hnd.1 (he ▸ List.mem_map_of_mem hd)
    have key : (setSystematicShared c.ords c.table c.order c.skew st).state.sc = (match tables[c.table]? with
        | some BA => (setSystematicMultipoles c.ords BA c.order c.skew st.sc).state
        | none => st.sc) := by
      have h1 := ht c (by simp)
      cases hB : tables[c.table]? with
      | none => exact call_absent (h1.trans hB)
      | some BA => exact (call_fresh (h1.trans hB) (hno c (by simp))).1
    change (sharedCalls calls (setSystematicShared c.ords c.table c.order c.skew st).state).sc = copiedCalls tables calls _
    rw [ih hnd.2, key]
    · rfl
    · intro d hd
      rw [call_tables_ne c st (hne d hd)]
      exact ht d (List.mem_cons_of_mem _ hd)
    · intro d hd v hv
      rcases call_views_from c st v hv with h1 | h1
      · exact hno d (List.mem_cons_of_mem _ hd) v h1
      · rw [h1]; exact Ne.symm (hne d hd)

end PySC
