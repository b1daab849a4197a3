import Verif.Lemmas.Restore
import Verif.Lemmas.HistoryDesign
/-
The fields of magnets do not depend on the fields of cavities.
-/
namespace PySC
open Py Spec
set_option linter.unusedSectionVars false
variable {K : Type} [Field K] [LinearOrder K]

section
variable {r r' : Ring K} (hl : r'.length = r.length) (h : ∀ i a, a ∉ rfProperties → r'.attr i a = r.attr i a)
include hl h

theorem magnetValues_blind_rf (src tgt : Nat) : magnetValues r' src tgt = magnetValues r src tgt := by
  have g : ∀ i a, a ∉ rfProperties → r'.getA i a = r.getA i a := fun i a ha => Ring.getA_congr hl (h i a ha)
  have k : ∀ i a, a ∉ rfProperties → r'.hasA i a = r.hasA i a := fun i a ha => Ring.hasA_congr hl (h i a ha)
  simp (disch := decide +kernel) only [magnetValues, polynoms, newPolynom, addSystematic, bendingErrorTerm, combinedFunctionTerm,
    isCombinedFunction, Ring.getVecAt, Ring.getVec, Ring.getNum, Ring.getStr, g, k]

theorem magnetLoop_blind_rf (l : List Nat) : loopWrites magnetFamilyWrites l r' = loopWrites magnetFamilyWrites l r := by
  have h1 : ∀ src tgt, oneMagnetWrites src tgt r' = oneMagnetWrites src tgt r := fun src tgt => by
    simp only [oneMagnetWrites, magnetValues_blind_rf hl h, Ring.valid, hl]
  have h2 : ∀ i (ch : List Nat), loopWrites (fun child => oneMagnetWrites i child) ch r' =
      loopWrites (fun child => oneMagnetWrites i child) ch r := by
    intro i ch
    induction ch with
    | nil => rfl
    | cons c ch ih => simp only [loopWrites, h1, ih]
  have h3 : ∀ i, childrenOf r' i = childrenOf r i := fun i => by
    simp only [childrenOf, Ring.getA_congr hl (h i "MasterOf" (by decide +kernel)), Ring.hasA_congr hl (h i "MasterOf" (by decide +kernel))]
  have h4 : ∀ i, magnetFamilyWrites i r' = magnetFamilyWrites i r := fun i => by simp only [magnetFamilyWrites, h1, h2, h3]
  induction l with
  | nil => rfl
  | cons i l ih => simp only [loopWrites, h4, ih]

end

/-- fields of magnets that are up to date stay so when fields of cavities are changed -/
theorem Spec.Settled.keep_rf {s s' : SC K} {l : List Nat} (h : Settled s l) (f : Frame (fun _ a => a ∈ rfProperties) s s') :
    Settled s' l := by
  obtain ⟨W, hW, he⟩ := ((updateMagnets_writer l).ok _ _ _).1 h
  have hW' : loopWrites magnetFamilyWrites l s'.RING = .ok W := by rw [magnetLoop_blind_rf f.len f.attr, hW]
  refine ((updateMagnets_writer l).ok _ _ _).2 ⟨W, hW', ?_⟩
  have e : s.RING = s.RING.write W := congrArg SC.RING he
  have hin := (updateMagnets_writer l).within _ _ hW
  have hr : s'.RING.write W = s'.RING := by
    refine Ring.ext_attr (by simp) (fun i a => ?_)
    rw [Ring.attr_write]
    cases hw : lastWrite W i a with
    | none => rfl
    | some v =>
      have ha : a ∈ magnetWrites := hin _ (lastWrite_isSome_mem hw)
      have hn : a ∉ rfProperties := by
        revert ha; simp only [magnetWrites, List.mem_cons, List.not_mem_nil, or_false]
        rintro (rfl | rfl | rfl | rfl) <;> decide +kernel
      rw [f.attr i a hn]
      conv_rhs => rw [e, Ring.attr_write, hw]
      simp only [f.len]
  simp only [SC.write, hr]

end PySC
