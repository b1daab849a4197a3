import Verif.Lemmas.SharedTables
import Verif.Props.Multipoles
/-
C92: systematic multipole errors stay what they were set to.
-/
namespace PySC
set_option linter.unusedSectionVars false
open Py Spec
variable {K : Type} [Field K] [LinearOrder K] [FloorRing K] {i : Nat}

/-- **C92, partial**: if every call has a table of its own, the machine is the one the calls would make if they copied their
tables – whatever the calls, in whatever order, and even if some of them fail. -/
theorem C92_own_tables_partial (calls : List SysCall) (hown : (calls.map SysCall.table).Nodup) (st : Shared K)
    (hno : ∀ c ∈ calls, ∀ v ∈ st.views, v.table ≠ c.table) :
    (sharedCalls calls st).sc = copiedCalls st.tables calls st.sc :=
  calls_copied calls hown st.tables st (fun _ _ => rfl) hno

/-- what is stored is not the content of the table at the time of the call, but the table: after any steps which do not set
these errors again the magnet has the column the caller's table has now -/
theorem C92_follows_table (st st1 : Shared K) (hnew : st.views = []) (before after : List (TableStep K)) (c : SysCall)
    (hok : setSystematicShared c.ords c.table c.order c.skew (tableSteps before st) = .ok () st1)
    (hafter : ∀ x ∈ after, ¬ x.sets i c.order c.skew) (hi : i ∈ c.ords) (target : String) (ht : target ∈ ["A", "B"]) :
    ∃ BA, (tableSteps after st1).tables[c.table]? = some BA ∧
      systematic (tableSteps after st1).sc i target (sourceOf c.skew) c.order = some (tableColumn BA c.skew) := by
  have hl1 : Live st1 := by
    have := ((Live.none hnew).steps before).call c
    rwa [hok] at this
  exact (hl1.steps after).shows _ (steps_views ht after hafter (call_views hok hi ht))

/-- **C92, partial**: the errors given to a magnet stay until they are set again, as long as nobody uses the same table for
another call or writes into it. -/
theorem C92_stay_partial (st st1 : Shared K) (hnew : st.views = []) (before after : List (TableStep K)) (c : SysCall)
    (hok : setSystematicShared c.ords c.table c.order c.skew (tableSteps before st) = .ok () st1)
    (hafter : ∀ x ∈ after, ¬ x.sets i c.order c.skew) (hi : i ∈ c.ords) (target : String) (ht : target ∈ ["A", "B"])
    (huse : ∀ x ∈ after, match x with
      | .call d => d.table ≠ c.table
      | .write t _ => t ≠ c.table) :
    ∃ BA col, (tableSteps before st).tables[c.table]? = some BA ∧
      systematic (tableSteps after st1).sc i target (sourceOf c.skew) c.order = some col ∧
      ∀ k, coef col k = if k = c.order then 0 else entry BA (sourceOf c.skew) k := by
  obtain ⟨BA, h1, h2⟩ := C92_follows_table st st1 hnew before after c hok hafter hi target ht
  have hkeep : ∀ (l : List (TableStep K)) (s : Shared K), (∀ x ∈ l, match x with
      | .call d => d.table ≠ c.table
      | .write t _ => t ≠ c.table) → (tableSteps l s).tables[c.table]? = s.tables[c.table]? := by
    intro l
    induction l with
    | nil => exact fun s _ => rfl
    | cons x l ih =>
      intro s hl
      refine (ih (tableStep s x) (fun y hy => hl y (List.mem_cons_of_mem _ hy))).trans ?_
      have hx := hl x (by simp)
      cases x with
      | call d => exact call_tables_ne d s (Ne.symm hx)
      | write t B => exact List.getElem?_set_ne hx
  rw [hkeep after st1 huse] at h1
  rcases shared_call c (tableSteps before st) with ⟨e, he, -⟩ | ⟨B, hB, ho, he⟩
  · rw [he] at hok; cases hok
  · have ht1 := call_tables c (tableSteps before st)
    rw [hok, hB] at ht1
    dsimp only [Res.state] at ht1
    rw [if_pos ho] at ht1
    rw [ht1, List.getElem?_set_self (List.getElem?_eq_some_iff.1 hB).1] at h1
    cases h1
    exact ⟨B, _, hB, h2, coef_reducedColumn B c.order c.skew⟩

/-- **C92 is violated**: a second call with the same table for another component – for whichever magnets, on whichever
machine – erases that component from the errors the first call has given to its magnets. -/
theorem C92_violated_second_call (st st1 : Shared K) (hnew : st.views = []) (before : List (TableStep K)) (c d : SysCall)
    (hok : setSystematicShared c.ords c.table c.order c.skew (tableSteps before st) = .ok () st1)
    (htable : d.table = c.table) (hskew : d.skew = c.skew) (horder : d.order ≠ c.order)
    (hrow : ∀ BA, st1.tables[c.table]? = some BA → d.order < BA.length)
    (hi : i ∈ c.ords) (target : String) (ht : target ∈ ["A", "B"]) :
    ∃ col, systematic (setSystematicShared d.ords d.table d.order d.skew st1).state.sc i target (sourceOf c.skew) c.order = some col ∧
      coef col d.order = 0 := by
  obtain ⟨BA, h1, h2⟩ := C92_follows_table st st1 hnew before [.call d] c hok (by
    intro x hx hs
    obtain rfl := List.mem_singleton.1 hx
    exact horder hs.2.1) hi target ht
  refine ⟨_, h2, ?_⟩
  change (setSystematicShared d.ords d.table d.order d.skew st1).state.tables[c.table]? = some BA at h1
  obtain ⟨B, h3, -⟩ := C92_follows_table st st1 hnew before [] c hok (fun x hx => by cases hx) hi target ht
  replace h3 : st1.tables[c.table]? = some B := h3
  rw [call_tables, htable, h3] at h1
  dsimp only at h1
  rw [if_pos (hrow B h3), List.getElem?_set_self (List.getElem?_eq_some_iff.1 h3).1] at h1
  cases h1
  rw [hskew]
  exact (coef_reducedColumn B d.order c.skew d.order).trans (if_pos rfl)

/-- **C92 is violated**: what the caller writes into the table after the call becomes the errors of the magnets, without any
call of a method. -/
theorem C92_violated_write (st st1 : Shared K) (hnew : st.views = []) (before : List (TableStep K)) (c : SysCall)
    (hok : setSystematicShared c.ords c.table c.order c.skew (tableSteps before st) = .ok () st1) (BA : List (K × K))
    (hi : i ∈ c.ords) (target : String) (ht : target ∈ ["A", "B"]) :
    systematic (tableStep st1 (.write c.table BA)).sc i target (sourceOf c.skew) c.order = some (tableColumn BA c.skew) := by
  obtain ⟨B, h1, h2⟩ := C92_follows_table st st1 hnew before [.write c.table BA] c hok (by
    intro x hx hs
    obtain rfl := List.mem_singleton.1 hx
    exact hs) hi target ht
  obtain ⟨B', h3, -⟩ := C92_follows_table st st1 hnew before [] c hok (fun x hx => by cases hx) hi target ht
  replace h3 : st1.tables[c.table]? = some B' := h3
  change (st1.tables.set c.table BA)[c.table]? = some B at h1
  rw [List.getElem?_set_self (List.getElem?_eq_some_iff.1 h3).1] at h1
  cases h1
  exact h2

/-- a machine without errors and two tables in the hands of the user -/
def Example.shelf : Shared ℚ := ⟨Example.ideal, [[(1/10, 0), (1, 0), (1/50, 1), (1/100, 0)], [(1, 2), (3, 4)]], []⟩

example : (setSystematicShared [2] 0 1 false Example.shelf).isOk = true ∧
    (systematic (tableSteps [.call ⟨[2], 0, 1, false⟩] Example.shelf).sc 2 "B" "B" 1 = some [1/10, 0, 1/50, 1/100]) ∧
    -- a bending magnet gets errors from the same table: the quadrupole loses its dipole error
    (systematic (tableSteps [.call ⟨[2], 0, 1, false⟩, .call ⟨[3], 0, 0, false⟩] Example.shelf).sc 2 "B" "B" 1 = some [0, 0, 1/50, 1/100]) ∧
    -- with another table it keeps it
    (systematic (tableSteps [.call ⟨[2], 0, 1, false⟩, .call ⟨[3], 1, 0, false⟩] Example.shelf).sc 2 "B" "B" 1 = some [1/10, 0, 1/50, 1/100]) ∧
    (systematic (tableSteps [.call ⟨[2], 0, 1, false⟩, .write 0 [(7, 8), (9, 0), (5, 0), (3, 0)]] Example.shelf).sc 2 "A" "B" 1 = some [7, 9, 5, 3]) ∧
    (systematic (tableSteps [.call ⟨[2], 0, 1, false⟩, .call ⟨[2], 1, 1, false⟩, .write 0 [(7, 8), (9, 0), (5, 0), (3, 0)]] Example.shelf).sc 2 "A" "B" 1 = some [1, 0]) ∧
    ([(⟨[2, 3], 0, 1, false⟩ : SysCall), ⟨[9], 1, 0, true⟩].map SysCall.table).Nodup ∧
    (setSystematicShared [2, 99] 1 0 true Example.shelf).err? = some .indexError ∧
    (setSystematicShared [2] 1 5 true Example.shelf).err? = some .indexError := by decide +kernel

/-- **C92 is violated**: the field of the first magnet changes because errors are set for another one. -/
theorem C92_violated_field : ∃ (st : Shared ℚ) (c d : SysCall), st.views = [] ∧ (∀ i ∈ c.ords, i ∉ d.ords) ∧
    (setSystematicShared c.ords c.table c.order c.skew st).isOk = true ∧
    (setSystematicShared d.ords d.table d.order d.skew (tableSteps [.call c] st)).isOk = true ∧
    multipole (tableSteps [.call c] st).sc.RING 2 2 "B" 0 ≠ multipole (tableSteps [.call c, .call d] st).sc.RING 2 2 "B" 0 :=
  ⟨Example.shelf, ⟨[2], 0, 1, false⟩, ⟨[3], 0, 0, false⟩, rfl, by decide, by decide +kernel, by decide +kernel, by decide +kernel⟩

end PySC
