import Verif.Lemmas.Beam
/-
Averages over turns ('PORB' mode).
-/
set_option linter.unusedSectionVars false
namespace PySC
open Py Spec
variable {K : Type} [Field K] [LinearOrder K]

/-- the sum of the weights of the shots is zero where their mean is not a number -/
theorem shotMean_none {l : List (Option ((K × K) × K))} (h : shotMean l = none) : ((l.filterMap id).map Prod.snd).sum = 0 := by
  unfold shotMean at h
  simp only at h
  split at h
  · assumption
  · cases h

/-- averaging over turns, when missing readings have no weight -/
theorem porbAverage_spec {n : Nat} {v : Nat → Option K} {w : Nat → K} {y : Option K}
    (h : porbAverage n v w = .ok y) (hv : ∀ t < n, v t = none → w t = 0) :
    y = turnMean ((List.range n).map (fun t => (v t, w t))) ∧ y.isSome = true := by
  unfold porbAverage at h
  simp only at h
  have hall : ∀ l : List Nat, (∀ t ∈ l, v t = none → w t = 0) →
      ((l.map (fun t => (v t, w t))).filterMap (fun p => p.1.map (fun x => (x, p.2)))).map (fun p => p.1 * p.2) =
        l.filterMap (fun t => (v t).map (fun x => x * w t)) ∧
      (((l.map (fun t => (v t, w t))).filterMap (fun p => p.1.map (fun x => (x, p.2)))).map Prod.snd).sum = (l.map w).sum := by
    intro l
    induction l with
    | nil => intro _; simp
    | cons a l ih =>
      intro hl
      obtain ⟨i1, i2⟩ := ih (fun t ht => hl t (by simp [ht]))
      have ha := hl a (by simp)
      cases hva : v a with
      | none => simp only [List.map_cons, List.filterMap_cons, hva, Option.map_none]; exact ⟨i1, by rw [i2]; simp [ha hva]⟩
      | some x =>
        simp only [List.map_cons, List.filterMap_cons, hva, Option.map_some, List.sum_cons]
        exact ⟨by rw [i1], by rw [i2]⟩
  obtain ⟨a1, a2⟩ := hall (List.range n) (fun t ht => hv t (by simpa using ht))
  split at h
  · cases h
  · rename_i hW
    split at h
    · rename_i he
      exfalso
      apply hW
      rw [← a2]
      have : ((List.range n).map (fun t => (v t, w t))).filterMap (fun p => p.1.map (fun x => (x, p.2))) = [] := by
        have := congrArg List.length a1
        rw [List.isEmpty_iff.1 he] at this
        simpa using this
      rw [this]; simp
    · cases h
      refine ⟨?_, rfl⟩
      unfold turnMean
      simp only
      rw [a1, a2, if_neg hW]

end PySC
