import Verif.Lemmas.Alignment
import Verif.Lemmas.HistoryDesign
import Verif.Props.LocoWrapper
import Verif.Props.Consistent
/-
C84: alignment of magnets and BPMs is settled by `update_supports`.
-/
namespace PySC
open Py Spec
set_option linter.unusedSectionVars false
variable {K : Type} [Field K] [LinearOrder K] [FloorRing K]

/-- **C84**: `update_supports` is idempotent, for every choice of its flags. -/
theorem C84_idempotent (E : Env K) (b m : Bool) (s s' : SC K) (h : updateSupports E b m s = .ok () s') :
    updateSupports E b m s' = .ok () s' := updateSupports_idem h

/-- **C84**: after `apply_errors` the offsets, rolls and transformations of all magnets and BPMs are those implied by the supports and the
alignment errors. -/
theorem C84_apply_errors (E : Env K) (n : K) (s s' : SC K) (h : applyErrors E n s = .ok () s') : Aligned E s' := by
  obtain ⟨s1, s2, s3, s4, s5, s6, s7, s8, -, -, -, -, -, -, h7, h8, h9⟩ := applyErrors_eq_ok h
  have a7 : Aligned E s7 := updateSupports_idem h7
  have a8 : Aligned E s8 := by
    rcases when_eq_ok h8 with ⟨-, h8⟩ | ⟨-, rfl⟩
    · have f := updateMagnets_modifies (K := K) none s7
      rw [h8] at f
      exact updateSupports_keep a7 f.ord f.len (fun i a ha => f.attr i a ((by decide +kernel : ∀ a ∈ supportReads ++ supportWrites, a ∉ magnetWrites) a ha))
    · exact a7
  rcases when_eq_ok h9 with ⟨-, h9⟩ | ⟨-, rfl⟩
  · have f := updateCavities_frame (K := K) none s8
    rw [h9] at f
    exact updateSupports_keep a8 f.ord f.len (fun i a ha => f.attr i a ((by decide +kernel : ∀ a ∈ supportReads ++ supportWrites, a ∉ rfProperties) a ha))
  · exact a8

/-- **C84**: and this stays so through every sequence of operations with any outcome, if no BPM gets its alignment from a magnet:
`update_supports` with any flags changes nothing. -/
theorem C84_operations (W : World K) (n : K) (s s' t : SC K) (h : applyErrors W.E n s = .ok () s') (ha : BpmsApart s')
    (ho : Operated W s' t) (b m : Bool) : updateSupports W.E b m t = .ok () t := by
  obtain ⟨h1, h2⟩ := ho.aligned (C84_apply_errors W.E n s s' h) ha
  exact updateSupports_aligned h1 h2 b m

-- the alignment of the magnets and of the BPM is not trivial ...
example : (applyErrors Example.env 2 Example.lab).isOk ∧ Example.misaligned.RING.attr 1 "T1" ≠ Example.lab.RING.attr 1 "T1" ∧
    Example.misaligned.RING.attr 0 "SupportOffset" ≠ Example.lab.RING.attr 0 "SupportOffset" ∧
    Example.lab.RING.attr 0 "SupportOffset" ≠ none ∧ (updateSupports Example.env true true Example.lab).isOk := by decide +kernel

theorem Example.misaligned_apart : BpmsApart Example.misaligned := by
  have h0 : Example.misaligned.ORD.Magnet = [1, 2, 3] ∧ Example.misaligned.ORD.BPM = [0] := by decide +kernel
  have h1 : ∀ o ∈ [1, 2, 3], Example.misaligned.RING.attr o "MasterOf" = none := by decide +kernel
  intro o ho t ht a
  rw [h0.1] at ho
  rw [h0.2] at ht
  simp only [Affects, h1 o ho, reduceCtorEq, false_and, exists_false, or_false] at a
  subst a
  revert t; decide

-- ... and stays so when a corrector is set and another call fails
example (t : SC ℚ) (ht : Operated Example.world Example.misaligned t) : updateSupports Example.env false true t = .ok () t :=
  C84_operations Example.world 2 Example.lab Example.misaligned t Example.misaligned_ok Example.misaligned_apart ht false true
example : Operated Example.world Example.misaligned
    (Call.run Example.world (.setCM [1] ⟨false, [1, 2]⟩ false "abs")
      (Call.run Example.world (.setCM [1] ⟨false, [1/2000]⟩ false "abs") Example.misaligned).state).state ∧
    (Call.run Example.world (.setCM [1] ⟨false, [1/2000]⟩ false "abs") Example.misaligned).isOk ∧
    (Call.run Example.world (.setCM [1] ⟨false, [1, 2]⟩ false "abs")
      (Call.run Example.world (.setCM [1] ⟨false, [1/2000]⟩ false "abs") Example.misaligned).state).isOk = false :=
  ⟨.operation (.operation (.start _) (.setCM [1] ⟨false, [1/2000]⟩ false "abs") trivial) (.setCM [1] ⟨false, [1, 2]⟩ false "abs") trivial, by decide +kernel, by decide +kernel⟩

end PySC
