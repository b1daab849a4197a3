import Verif.Lemmas.LocoJacobian
import Verif.Props.Response
import Verif.Props.BeamLoss
/-
C73 (the Jacobian for LOCO).
-/
set_option linter.unusedSectionVars false
namespace PySC
open Py Spec
variable {K : Type} [Field K] [LinearOrder K] [IsStrictOrderedRing K] [FloorRing K]

/-- **C73**: the first matrices of the Jacobian belong to the quadrupoles, in the given order: each entry is the change of the response
matrix divided by the change of strength, where the response matrix is the one of the model of the machine with this one quadrupole, and
no other, changed (or of the design lattice, see `C73_violated_ideal`).  The machine itself is left alone.  Which process calculates
which quadrupole does not matter, though the calls of one process share a machine, change it and change it back.  (Set-points are added
to; limits of skew quadrupoles must not be in the way.) -/
theorem C73_quads (B : BeamEnv K) (rows : Nat) (C : List (List (Option K))) (bpms : List Nat) (cms : List Nat × List Nat)
    (chunks : List (List Nat)) (dkick dk : K) (mode : String) (useIdeal skew : Bool) (order : Nat) (full : Bool) (s s' : SC K)
    (J : List (List (List (Option K))))
    (hlim : ∀ o ∈ chunks.flatten, skew = true → order = 1 → skewLimit s.RING o = .inf)
    (h : jacobian B rows C bpms cms chunks dkick dk mode useIdeal skew order "add" none full s = .ok J s') :
    s' = s ∧ ∀ (q o : Nat), chunks.flatten[q]? = some o → ∃ r RM Jq, QuadLattice s useIdeal skew order dk o r ∧
      modelRM B bpms cms mode (List.replicate 6 0) 1 dkick true (withDesign s r) = .ok RM (withDesign s r) ∧
      RM.map List.length = C.map List.length ∧ J[q]? = some Jq ∧ dk ≠ 0 ∧
      ∀ j k x, cell Jq j k = some x ↔ ∃ a b, cell RM j k = some a ∧ cell C j k = some b ∧ x = quotient dk a b := by
  obtain ⟨rfl, res, h1, h2, h3, h4⟩ := jacobian_eq_ok h
  refine ⟨rfl, fun q o hq => ?_⟩
  have hf := poolMap_ok hlim h1
  have hlen := hf.length_eq
  obtain ⟨hql, hqo⟩ := List.getElem?_eq_some_iff.1 hq
  have hqr : q < res.length := by omega
  have hR := List.Forall₂.get hf hql hqr
  simp only [List.get_eq_getElem, hqo] at hR
  obtain ⟨r, RM, M0, k1, k2, k3, k4⟩ := hR
  refine ⟨r, RM, divMatrix dk M0, k1, k2 _, (subMatrix_eq_ok k3).1, ?_, h2 (by intro hr; rw [hr] at hqr; simp at hqr), divMatrix_subMatrix k3⟩
  have hJq : (res.map (divMatrix dk))[q]? = some (divMatrix dk M0) := by
    rw [List.getElem?_map, List.getElem?_eq_getElem hqr, k4]; rfl
  cases full with
  | false => rw [h3 rfl]; exact hJq
  | true =>
    obtain ⟨-, -, jc, jb, -, -, rfl⟩ := h4 rfl
    rw [List.append_assoc, List.getElem?_append_left (by simpa using hqr)]
    exact hJq

/-- **C73**: the result does not depend on how the quadrupoles are distributed over the processes. -/
theorem C73_schedule (B : BeamEnv K) (rows : Nat) (C : List (List (Option K))) (bpms : List Nat) (cms : List Nat × List Nat)
    (chunks chunks' : List (List Nat)) (dkick dk : K) (mode : String) (useIdeal skew : Bool) (order : Nat) (disp : Option (List Nat × K))
    (full : Bool) (s s1 s2 : SC K) (J J' : List (List (List (Option K)))) (hsame : chunks.flatten = chunks'.flatten)
    (hlim : ∀ o ∈ chunks.flatten, skew = true → order = 1 → skewLimit s.RING o = .inf)
    (h : jacobian B rows C bpms cms chunks dkick dk mode useIdeal skew order "add" disp full s = .ok J s1)
    (h' : jacobian B rows C bpms cms chunks' dkick dk mode useIdeal skew order "add" disp full s = .ok J' s2) : J = J' := by
  obtain ⟨-, res, h1, -, h3, h4⟩ := jacobian_eq_ok h
  obtain ⟨-, res', g1, -, g3, g4⟩ := jacobian_eq_ok h'
  have hf := poolMap_ok hlim h1
  have hf' := poolMap_ok (hsame ▸ hlim) g1
  rw [← hsame] at hf'
  have hres : res = res' := by
    have key : ∀ (l : List Nat) (a b : List (List (List (Option K)))),
        List.Forall₂ (QuadResult B C bpms cms dkick dk mode useIdeal skew order disp s) l a →
        List.Forall₂ (QuadResult B C bpms cms dkick dk mode useIdeal skew order disp s) l b → a = b := by
      intro l a b ha
      induction ha generalizing b with
      | nil => intro hb; cases hb; rfl
      | cons x _ ih => intro hb; cases hb with | cons y hb => rw [quadResult_unique x y, ih _ hb]
    exact key _ _ _ hf hf'
  subst hres
  cases full with
  | false => rw [h3 rfl, g3 rfl]
  | true =>
    obtain ⟨-, -, jc, jb, a1, a2, rfl⟩ := h4 rfl
    obtain ⟨-, -, jc', jb', b1, b2, rfl⟩ := g4 rfl
    rw [a1] at b1; rw [a2] at b2
    cases b1; cases b2; rfl

/-- **C73**: in the full Jacobian the quadrupoles are followed by the correctors (horizontal ones first) and the BPMs (all of x before all
of y).  The matrix of a corrector is its column of the response matrix, the matrix of a BPM its row, and zero elsewhere: the
derivative with respect to gains. -/
theorem C73_gains (B : BeamEnv K) (rows : Nat) (C : List (List (Option K))) (hrows : ∀ c ∈ C, c.length = rows) (bpms : List Nat)
    (cms : List Nat × List Nat) (chunks : List (List Nat)) (dkick dk : K) (mode : String) (useIdeal skew : Bool) (order : Nat) (s s' : SC K)
    (J : List (List (List (Option K))))
    (hlim : ∀ o ∈ chunks.flatten, skew = true → order = 1 → skewLimit s.RING o = .inf)
    (h : jacobian B rows C bpms cms chunks dkick dk mode useIdeal skew order "add" none true s = .ok J s') :
    J.length = chunks.flatten.length + (cms.1.length + cms.2.length) + 2 * bpms.length ∧
    (∀ i < cms.1.length + cms.2.length, ∃ M, J[chunks.flatten.length + i]? = some M ∧
      ∀ j k x, cell M j k = some x ↔ ∃ y, cell C j k = some y ∧ x = if k = i then y else some 0) ∧
    (∀ i < 2 * bpms.length, ∃ M, J[chunks.flatten.length + (cms.1.length + cms.2.length) + i]? = some M ∧
      ∀ j k x, cell M j k = some x ↔ ∃ y, cell C j k = some y ∧ x = if j = i then y else some 0) := by
  obtain ⟨-, res, h1, -, -, h4⟩ := jacobian_eq_ok h
  obtain ⟨-, -, jc, jb, a1, a2, rfl⟩ := h4 rfl
  have hl := (poolMap_ok hlim h1).length_eq
  have l1 := mapM_except_length a1
  have l2 := mapM_except_length a2
  rw [List.length_range] at l1 l2
  rw [Nat.mul_comm 2 bpms.length, hl]
  refine ⟨by simp [l1, l2]; omega, fun i hi => ?_, fun i hi => ?_⟩
  · obtain ⟨M, hM, hM'⟩ := mapM_except_get a1 (List.getElem?_range hi)
    refine ⟨M, ?_, gainColumn_eq_ok hM'⟩
    rw [List.append_assoc, List.getElem?_append_right (by simp), List.getElem?_append_left (by simp [l1]; omega), ← hM]
    congr 1; simp
  · obtain ⟨M, hM, hM'⟩ := mapM_except_get a2 (List.getElem?_range hi)
    refine ⟨M, ?_, gainRow_eq_ok hrows hM'⟩
    rw [List.getElem?_append_right (by simp [l1]), ← hM]
    congr 1; simp [l1]

/-- **C73** is violated with the default `useIdealRing=True`: the response matrix is taken of the design lattice, in which nothing has
been changed, so all quadrupoles have the same matrix; if the model is the response matrix of the design lattice, the matrices are zero. -/
theorem C73_violated_ideal (B : BeamEnv K) (rows : Nat) (C : List (List (Option K))) (bpms : List Nat) (cms : List Nat × List Nat)
    (chunks : List (List Nat)) (dkick dk : K) (mode : String) (skew : Bool) (order : Nat) (full : Bool) (s s' : SC K)
    (J : List (List (List (Option K))))
    (hlim : ∀ o ∈ chunks.flatten, skew = true → order = 1 → skewLimit s.RING o = .inf)
    (hC : modelRM B bpms cms mode (List.replicate 6 0) 1 dkick true s = .ok C s)
    (h : jacobian B rows C bpms cms chunks dkick dk mode true skew order "add" none full s = .ok J s') :
    ∀ q < chunks.flatten.length, ∃ Jq, J[q]? = some Jq ∧ ∀ j k x, cell Jq j k = some (some x) → x = 0 := by
  intro q hq
  obtain ⟨-, hJ⟩ := C73_quads B rows C bpms cms chunks dkick dk mode true skew order full s s' J hlim h
  obtain ⟨r, RM, Jq, k1, k2, -, k4, -, k5⟩ := hJ q _ (List.getElem?_eq_getElem hq)
  refine ⟨Jq, k4, fun j k x hx => ?_⟩
  have hr : withDesign s r = s := by rw [k1.1 rfl]; rfl
  rw [hr, hC] at k2
  cases k2
  obtain ⟨a, b, e1, e2, e3⟩ := (k5 j k (some x)).1 hx
  rw [e1] at e2; cases e2
  cases a with
  | none => cases e3
  | some a => simpa [quotient] using e3

/-- **C73** is violated with `includeDispersion=True`: the full Jacobian is never returned, because the matrices of the quadrupoles have
a column more than those of correctors and BPMs. -/
theorem C73_violated_dispersion_full (B : BeamEnv K) (rows : Nat) (C : List (List (Option K))) (bpms : List Nat) (cms : List Nat × List Nat)
    (chunks : List (List Nat)) (dkick dk : K) (mode : String) (useIdeal skew : Bool) (order : Nat) (method : String) (d : List Nat × K)
    (s s' : SC K) (J : List (List (List (Option K)))) :
    jacobian B rows C bpms cms chunks dkick dk mode useIdeal skew order method (some d) true s ≠ .ok J s' := by
  intro h
  obtain ⟨-, res, h1, -, -, h4⟩ := jacobian_eq_ok h
  obtain ⟨hne, hl, -⟩ := h4 rfl
  obtain ⟨m, hm⟩ := List.exists_mem_of_ne_nil res hne
  have e1 := hl m hm
  have e2 := poolMap_all (P := fun M => M.length = C.length + 1) (fun _ _ _ _ h => quadResponse_extra h) h1 m hm
  omega

/-- **C73** is violated with `includeDispersion=True`: otherwise the additional column is the same for all quadrupoles, as it is always
taken of the design lattice.  It contains the difference between two frequency steps; with the default step it is zero. -/
theorem C73_violated_dispersion (B : BeamEnv K) (rows : Nat) (C : List (List (Option K))) (bpms : List Nat) (cms : List Nat × List Nat)
    (chunks : List (List Nat)) (dkick dk : K) (mode : String) (useIdeal skew : Bool) (order : Nat) (cavs : List Nat) (rfStep : K) (s s' : SC K)
    (J : List (List (List (Option K))))
    (hlim : ∀ o ∈ chunks.flatten, skew = true → order = 1 → skewLimit s.RING o = .inf)
    (h : jacobian B rows C bpms cms chunks dkick dk mode useIdeal skew order "add" (some (cavs, rfStep)) false s = .ok J s') :
    (∀ Jq ∈ J, Jq.length = C.length + 1) ∧
    (∀ Jq ∈ J, ∀ Jp ∈ J, ∀ j, cell Jq j C.length = cell Jp j C.length) ∧
    (rfStep = 1000 → ∀ Jq ∈ J, ∀ j x, cell Jq j C.length = some (some x) → x = 0) := by
  obtain ⟨-, res, h1, -, h3, -⟩ := jacobian_eq_ok h
  have hJ := h3 rfl
  subst hJ
  have hf := poolMap_ok hlim h1
  have hall : ∀ M ∈ res, ∃ M0 d0 d1, M0.length = C.length ∧ modelDispersion B bpms cavs "ORB" (List.replicate 6 0) 1 1000 true s = .ok d0 s ∧
      modelDispersion B bpms cavs "ORB" (List.replicate 6 0) 1 rfStep true s = .ok d1 s ∧ M = M0 ++ [List.zipWith optSub d1 d0] := by
    intro M hM
    obtain ⟨q, hq, rfl⟩ := List.mem_iff_getElem.1 hM
    have := List.Forall₂.get hf (by rw [hf.length_eq]; exact hq) hq
    obtain ⟨r, RM, M0, -, -, k3, d0, d1, k4, k5, k6⟩ := this
    exact ⟨M0, d0, d1, subMatrix_length k3, k4, k5, k6⟩
  have hent : ∀ (M0 : List (List (Option K))) (d0 d1 : List (Option K)) (j : Nat), M0.length = C.length →
      cell (divMatrix dk (M0 ++ [List.zipWith optSub d1 d0])) j C.length = ((List.zipWith optSub d1 d0)[j]?).map (fun x => x.map (· / dk)) := by
    intro M0 d0 d1 j hl
    unfold cell divMatrix
    rw [List.getElem?_map, List.getElem?_append_right (by omega), hl, Nat.sub_self, ← List.getElem?_map]
    show (List.map (fun x => Option.map (fun x => x / dk) x) (List.zipWith optSub d1 d0))[j]? = _
    rw [List.getElem?_map]
  refine ⟨?_, ?_, ?_⟩
  · intro Jq hq
    obtain ⟨M, hM, rfl⟩ := List.mem_map.1 hq
    obtain ⟨M0, d0, d1, e1, -, -, rfl⟩ := hall M hM
    simp [divMatrix_length, e1]
  · intro Jq hq Jp hp j
    obtain ⟨M, hM, rfl⟩ := List.mem_map.1 hq
    obtain ⟨N, hN, rfl⟩ := List.mem_map.1 hp
    obtain ⟨M0, d0, d1, e1, e2, e3, rfl⟩ := hall M hM
    obtain ⟨N0, c0, c1, f1, f2, f3, rfl⟩ := hall N hN
    rw [e2] at f2; rw [e3] at f3
    cases f2; cases f3
    rw [hent _ _ _ _ e1, hent _ _ _ _ f1]
  · rintro rfl Jq hq j x hx
    obtain ⟨M, hM, rfl⟩ := List.mem_map.1 hq
    obtain ⟨M0, d0, d1, e1, e2, e3, rfl⟩ := hall M hM
    rw [e2] at e3; cases e3
    rw [hent _ _ _ _ e1, List.getElem?_zipWith] at hx
    cases hd : d0[j]? with
    | none => rw [hd] at hx; simp at hx
    | some a =>
      rw [hd] at hx
      cases a with
      | none => simp [optSub] at hx
      | some a => simpa [optSub, eq_comm] using hx

/-! ### Example: a corrector (element 1), quadrupole components in elements 2 and 4 -/

def Example.locoBeam : BeamEnv ℚ := { Example.modelBeam with
  orbit := fun r _ => (some (coef (vecAt r 1 "KickAngle") 0 * (1 + coef (vecAt r 2 "PolynomB") 1)),
    some (coef (vecAt r 1 "KickAngle") 0 * coef (vecAt r 4 "PolynomB") 1 + 1 / numAt r 5 "Frequency")) }

/-- the response matrix of the design -/
example : (modelRM Example.locoBeam [0] ([1], []) "ORB" (List.replicate 6 0) 1 (1/100) true Example.modelled).value? =
    some [[some 3, some (-1)]] := by decide +kernel

/-- the full Jacobian: two quadrupoles, one corrector, both planes of one BPM -/
example : (jacobian Example.locoBeam 2 [[some 3, some (-1)]] [0] ([1], []) [[2], [4]] (1/100) (1/10) "ORB" false false 1 "add" none true
    Example.modelled).value? =
    some [[[some 1, some 0]], [[some 0, some 1]], [[some 3, some (-1)]], [[some 3, some 0]], [[some 0, some (-1)]]] := by decide +kernel

/-- the same with one process -/
example : (jacobian Example.locoBeam 2 [[some 3, some (-1)]] [0] ([1], []) [[2, 4]] (1/100) (1/10) "ORB" false false 1 "add" none true
    Example.modelled).value? =
    some [[[some 1, some 0]], [[some 0, some 1]], [[some 3, some (-1)]], [[some 3, some 0]], [[some 0, some (-1)]]] := by decide +kernel

/-- with the default, the matrices of the quadrupoles are zero although the orbit depends on them -/
example : (jacobian Example.locoBeam 2 [[some 3, some (-1)]] [0] ([1], []) [[2, 4]] (1/100) (1/10) "ORB" true false 1 "add" none true
    Example.modelled).value? =
    some [[[some 0, some 0]], [[some 0, some 0]], [[some 3, some (-1)]], [[some 3, some 0]], [[some 0, some (-1)]]] := by decide +kernel

/-- with dispersion -/
example : (jacobian Example.locoBeam 2 [[some 3, some (-1)]] [0] ([1], []) [[2, 4]] (1/100) (1/10) "ORB" false false 1 "add"
    (some ([5], 100)) false Example.modelled).value? =
    some [[[some 1, some 0], [some 0, some (99/100000)]], [[some 0, some 1], [some 0, some (99/100000)]]] := by decide +kernel
example : (jacobian Example.locoBeam 2 [[some 3, some (-1)]] [0] ([1], []) [[2, 4]] (1/100) (1/10) "ORB" false false 1 "add"
    (some ([5], 1000)) false Example.modelled).value? =
    some [[[some 1, some 0], [some 0, some 0]], [[some 0, some 1], [some 0, some 0]]] := by decide +kernel
example : (jacobian Example.locoBeam 2 [[some 3, some (-1)]] [0] ([1], []) [[2, 4]] (1/100) (1/10) "ORB" false false 1 "add"
    (some ([5], 100)) true Example.modelled).err? = some .valueError := by decide +kernel

end PySC
