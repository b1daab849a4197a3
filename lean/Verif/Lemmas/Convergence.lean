import Verif.Spec.Convergence
import Verif.Lemmas.Orbit
import Mathlib.Algebra.Order.BigOperators.Group.Finset
import Mathlib.Algebra.BigOperators.Ring.Finset
/-
Corrections with an approximate inverse of the response matrix converge.
-/
set_option linter.unusedSectionVars false
namespace PySC
open Py Spec Finset
variable {K : Type} [Field K] [LinearOrder K] [IsStrictOrderedRing K]

theorem sum_range_list (n : Nat) (f : Nat → K) : ((List.range n).map f).sum = ∑ j ∈ range n, f j := by
  induction n with
  | zero => simp
  | succ n ih => rw [List.range_succ, List.map_append, List.sum_append, Finset.sum_range_succ, ih]; simp

theorem clip_inside {l : Lim K} {x : K} (h : Inside l (clip l x)) : clip l x = x := by
  cases l with
  | inf => rfl
  | fin l =>
    have h : |max (-l) (min x l)| < l := h
    show max (-l) (min x l) = x
    rw [abs_lt] at h
    rcases le_total x l with h1 | h1
    · rw [min_eq_left h1] at h ⊢
      rcases le_total (-l) x with h2 | h2
      · rw [max_eq_right h2]
      · rw [max_eq_left h2] at h; exact absurd h.1 (lt_irrefl _)
    · rw [min_eq_right h1] at h ⊢
      exfalso
      rcases le_total (-l) l with h2 | h2
      · rw [max_eq_right h2] at h; exact absurd h.2 (lt_irrefl _)
      · rw [max_eq_left h2] at h; exact absurd h.1 (lt_irrefl _)

theorem Spec.OnlyCorrectors.limit {H V F : List Nat} {s s' : SC K} (h : OnlyCorrectors H V F s s') (i : Nat) (sk : Bool) :
    kickLimit s'.RING i sk = kickLimit s.RING i sk := by
  unfold kickLimit
  rw [h.frame.attr i "CMlimit" (by simp [correctorWrites])]

/-- the kicks after a step in which no corrector reached its limit -/
theorem steered_kicks {cms : CMs} {d : Nat → K} {F : List Nat} {s s' : SC K} (h : Steered cms (fun i => i ∈ cms.1 ++ cms.2) d s s')
    (ho : OnlyCorrectors cms.1 cms.2 F s s') (hu : Unsaturated cms s') (k : Nat) (hk : k < numCMs cms) :
    kickNo cms s' k = kickNo cms s k - d k := by
  unfold kickNo
  by_cases h1 : k < cms.1.length
  · rw [if_pos h1, if_pos h1]
    have hg : cms.1[k]? = some (cms.1.getD k 0) := by rw [List.getD_eq_getElem?_getD, List.getElem?_eq_getElem h1]; rfl
    have hm := List.mem_of_getElem? hg
    have e := h.hor k _ hg (List.mem_append_left _ hm)
    have hi := hu.1 _ hm
    rw [ho.limit, e] at hi
    rw [e, clip_inside hi]
  · rw [if_neg h1, if_neg h1]
    have h2 : k - cms.1.length < cms.2.length := by unfold numCMs at hk; omega
    have hg : cms.2[k - cms.1.length]? = some (cms.2.getD (k - cms.1.length) 0) := by
      rw [List.getD_eq_getElem?_getD, List.getElem?_eq_getElem h2]; rfl
    have hm := List.mem_of_getElem? hg
    have e := h.ver _ _ hg (List.mem_append_right _ hm)
    have hi := hu.2 _ hm
    rw [ho.limit, e] at hi
    rw [e, clip_inside hi, show cms.1.length + (k - cms.1.length) = k from by omega]

/-- one step in numbers: deviations shrink -/
theorem contraction {n c : Nat} {R M : Nat → Nat → K} {q D : K} {e e' : Nat → K}
    (hq : ∀ i < n, ∑ j ∈ range n, |(if i = j then 1 else 0) - ∑ k ∈ range c, R i k * M k j| ≤ q)
    (he : ∀ j < n, |e j| ≤ D) (hs : ∀ i < n, e' i = e i - ∑ k ∈ range c, R i k * ∑ j ∈ range n, M k j * e j) :
    ∀ i < n, |e' i| ≤ q * D := by
  intro i hi
  have key : e' i = ∑ j ∈ range n, ((if i = j then 1 else 0) - ∑ k ∈ range c, R i k * M k j) * e j := by
    rw [hs i hi]
    simp only [sub_mul, Finset.sum_sub_distrib]
    congr 1
    · simp [hi]
    · simp only [Finset.mul_sum, Finset.sum_mul]
      rw [Finset.sum_comm]
      refine Finset.sum_congr rfl (fun j _ => Finset.sum_congr rfl (fun k _ => by ring))
  have hD : 0 ≤ D := le_trans (abs_nonneg _) (he i hi)
  rw [key]
  calc |∑ j ∈ range n, ((if i = j then 1 else 0) - ∑ k ∈ range c, R i k * M k j) * e j|
      ≤ ∑ j ∈ range n, |((if i = j then 1 else 0) - ∑ k ∈ range c, R i k * M k j) * e j| := Finset.abs_sum_le_sum_abs _ _
    _ ≤ ∑ j ∈ range n, |(if i = j then 1 else 0) - ∑ k ∈ range c, R i k * M k j| * D := by
        refine Finset.sum_le_sum (fun j hj => ?_)
        rw [abs_mul]
        exact mul_le_mul_of_nonneg_left (he j (Finset.mem_range.1 hj)) (abs_nonneg _)
    _ = (∑ j ∈ range n, |(if i = j then 1 else 0) - ∑ k ∈ range c, R i k * M k j|) * D := (Finset.sum_mul _ _ _).symm
    _ ≤ q * D := mul_le_mul_of_nonneg_right (hq i hi) hD

theorem isReading_kicks {E : Env K} {B : BeamEnv K} {bpms : List Nat} {l : Log K} [FloorRing K] (h : IsReading E B bpms l) (cms : CMs) (k : Nat) :
    kickNo cms l.after k = kickNo cms l.before k := by
  obtain ⟨r, hr, -⟩ := h
  have : l.after.RING = l.before.RING := by
    have := (bpmReading_onlyRng E B _ _).ok hr
    rw [this.1]
  unfold kickNo
  rw [this]

/-- the deviations after `k` steps -/
theorem run_converges [FloorRing K] {E : Env K} {B : BeamEnv K} {bpms : List Nat} {cms : CMs} {M : List (List K)} {m : Log K → Nat → K}
    {ref : Nat → K} {n : Nat} {R : Nat → Nat → K} {q D : K} {s : SC K} {logs : List (Log K)} {step : List (Log K) → Log K → Log K → Prop}
    (hrun : Run E B bpms step s logs)
    (hstep : ∀ hist l l', step hist l l' → Steered cms (fun i => i ∈ cms.1 ++ cms.2) (correction M (m l) ref n) l.after l'.before ∧
      ∃ F, OnlyCorrectors cms.1 cms.2 F l.after l'.before)
    (hlin : Responds m R cms n logs) (hq : Inverts q R M cms n) (hu : ∀ l ∈ logs, Unsaturated cms l.before)
    (h0 : ∀ l, logs[0]? = some l → ∀ j < n, |m l j - ref j| ≤ D) (k : Nat) (l : Log K) (hk : logs[k]? = some l) :
    ∀ j < n, |m l j - ref j| ≤ q ^ k * D := by
  induction k generalizing l with
  | zero => rw [pow_zero, one_mul]; exact h0 l hk
  | succ k ih =>
    have hlt : k < logs.length := by
      have := (List.getElem?_eq_some_iff.1 hk).1
      omega
    have hp : logs[k]? = some logs[k] := List.getElem?_eq_getElem hlt
    obtain ⟨st, F, ho⟩ := hstep _ _ _ (hrun.steps k _ _ hp hk)
    have hm0 := List.mem_of_getElem? hp
    have hm1 := List.mem_of_getElem? hk
    have kicks := steered_kicks st ho (hu l hm1)
    rw [pow_succ', mul_assoc]
    refine contraction (R := R) (M := fun k j => coef (M.getD k []) j) hq (ih _ hp) (fun i hi => ?_)
    have hr := hlin _ hm0 _ hm1 i hi
    have : m l i - ref i = (m logs[k] i - ref i) + (m l i - m logs[k] i) := by ring
    rw [this, hr, sub_eq_add_neg _ (∑ k ∈ range _, _), ← Finset.sum_neg_distrib]
    congr 1
    refine Finset.sum_congr rfl (fun c hc => ?_)
    rw [kicks c (Finset.mem_range.1 hc), isReading_kicks (hrun.genuine _ hm0), correction, sum_range_list]
    ring

end PySC
