import Verif.Lemmas.Orbit
import Verif.Props.BeamLoss
/-
C37-C40: first turn threading, orbit correction, stitching and balancing.
-/
namespace PySC
set_option linter.unusedSectionVars false
variable {K : Type} [Field K] [LinearOrder K] [FloorRing K]
open Py Spec

omit [FloorRing K] in
theorem checkOrds_eq_ok {s : SC K} {rows cols : Nat} {reference : Option (List K)} {bpms : Option (List Nat)} {cms : Option CMs}
    {c : List Nat × CMs × List K} (h : checkOrds s rows cols reference bpms cms = .ok c) :
    c = (bpmsOf s bpms, correctorsOf s cms, reference.getD (List.replicate rows 0)) ∧
    rows = 2 * (bpmsOf s bpms).length * s.INJ.nTurns ∧
    cols = (correctorsOf s cms).1.length + (correctorsOf s cms).2.length ∧ c.2.2.length = rows := by
  unfold checkOrds at h
  simp only at h
  split at h
  · cases h
  · rename_i h1
    split at h
    · cases h
    · rename_i h2
      push Not at h1 h2
      cases reference with
      | none => cases h; exact ⟨rfl, h1, h2, by simp⟩
      | some r =>
        simp only at h
        split at h
        · cases h
        · rename_i h3
          cases h
          exact ⟨rfl, h1, h2, by simpa using h3⟩

omit [FloorRing K] in
theorem checkOrds_ok {s : SC K} {rm : List (List K)} {reference : Option (List K)} {bpms : Option (List Nat)} {cms : Option CMs}
    (hrows : rm.length = 2 * (bpmsOf s bpms).length * s.INJ.nTurns)
    (hcols : width rm = (correctorsOf s cms).1.length + (correctorsOf s cms).2.length)
    (href : (referenceOf rm reference).length = rm.length) :
    checkOrds s rm.length (numCols rm) reference bpms cms = .ok (bpmsOf s bpms, correctorsOf s cms, referenceOf rm reference) := by
  have h1 : ¬ rm.length ≠ 2 * (bpms.getD s.ORD.BPM).length * s.INJ.nTurns := not_not.2 hrows
  have h2 : ¬ numCols rm ≠ (cms.getD (s.ORD.HCM, s.ORD.VCM)).1.length + (cms.getD (s.ORD.HCM, s.ORD.VCM)).2.length :=
    not_not.2 hcols
  unfold checkOrds
  simp only
  rw [if_neg h1, if_neg h2]
  cases reference with
  | none => rfl
  | some q => simp only; rw [if_neg (not_not.2 (show q.length = rm.length from href))]; rfl

theorem inject_eq {E : Env K} {B : BeamEnv K} {bpms : List Nat} {s s1 : SC K} {r : Reading K}
    (hr : bpmReading E B (some bpms) false s = .ok r s1) : inject E B bpms s = .ok ⟨s, r.x, r.y, s1⟩ s1 := by
  unfold inject
  rw [bind_apply]; simp only [get_apply]
  rw [bind_apply, hr]; rfl

section C37
variable [IsStrictOrderedRing K]

/-- **C37**: a call that returns made at most `maxsteps` corrections, each of which steers just the correctors upstream of
the last BPM reached (as far as the pseudo-inverse asks and the limits allow), and ended with five readings in a row in
which the beam reached every BPM. -/
theorem C37_first_turn (E : Env K) (B : BeamEnv K) (O : OrbitEnv K) (rm : List (List K)) (reference : Option (List K))
    (cms : Option CMs) (bpms : Option (List Nat)) (maxsteps : Nat) (s s' : SC K) (logs : List (Log K))
    (h : firstTurn E B O rm reference cms bpms maxsteps s = .ok logs s') (hp : PinvShape O rm)
    (hH : (correctorsOf s cms).1.Pairwise (· < ·)) (hV : (correctorsOf s cms).2.Pairwise (· < ·))
    (hl : SaneLimits s (correctorsOf s cms)) :
    ∃ mplus, O.pinv rm = .ok mplus ∧
      Run E B (bpmsOf s bpms) (FirstTurnStep E B (bpmsOf s bpms) (correctorsOf s cms) mplus (referenceOf rm reference)) s logs ∧
      (∃ l, logs.getLast? = some l ∧ l.after = s') ∧
      logs.length ≤ maxsteps + 1 ∧ 5 ≤ logs.length ∧ ∀ l ∈ tail 5 logs, Complete l := by
  unfold firstTurn at h
  have h := bindGet_eq_ok.1 h
  obtain ⟨c, hc, h⟩ := bindLift_eq_ok.1 h
  obtain ⟨l, s1, hl1, h⟩ := bind_eq_ok.1 h
  obtain ⟨mplus, hm, h⟩ := bindLift_eq_ok.1 h
  obtain ⟨rfl, e1, e2, e3⟩ := checkOrds_eq_ok hc
  obtain ⟨g, gb, ga⟩ := inject_ok hl1
  subst ga
  have hw : mplus.length = (correctorsOf s cms).1.length + (correctorsOf s cms).2.length := by rw [hp _ hm, ← e2]; rfl
  obtain ⟨l', i1, i2, i3, i4⟩ := firstTurnLoop_ok h hH hV hw hl.1 hl.2
    (RunInv.single g (by rw [gb]; exact OnlyCorrectors.refl _ _ _ _) gb) (Or.inl rfl)
  exact ⟨mplus, hm, i1.run, ⟨l', i1.last, i2⟩, by simp at i3; omega, i4⟩

/-- **C37**: whatever the outcome, nothing but the set-points and fields of the given correctors changes. -/
theorem C37_only_correctors (E : Env K) (B : BeamEnv K) (O : OrbitEnv K) (rm : List (List K)) (reference : Option (List K))
    (cms : Option CMs) (bpms : Option (List Nat)) (maxsteps : Nat) (s : SC K) :
    OnlyCorrectors (correctorsOf s cms).1 (correctorsOf s cms).2 [] s
      (firstTurn E B O rm reference cms bpms maxsteps s).state := by
  have : Rel (OnlyCorrectors (correctorsOf s cms).1 (correctorsOf s cms).2 [])
      (lift (checkOrds s rm.length (numCols rm) reference bpms cms) >>= fun c => inject E B c.1 >>= fun l =>
        lift (O.pinv rm) >>= fun mplus => firstTurnLoop E B O c.1 c.2.1 mplus c.2.2 maxsteps [l] l) := by
    refine Rels.bindLift (fun c hc => Rels.bind (inject_only E B _) (fun l => Rels.bind (Rels.lift _) (fun mplus => ?_)))
    rw [(checkOrds_eq_ok hc).1]
    exact firstTurnLoop_only E B O _ _ _ _ _ _ _
  exact this s

/-- **C37**: without any beam at the BPMs it gives up at once, without touching a corrector. -/
theorem C37_no_beam (E : Env K) (B : BeamEnv K) (O : OrbitEnv K) (rm mplus : List (List K)) (reference : Option (List K))
    (cms : Option CMs) (bpms : Option (List Nat)) (maxsteps : Nat) (s s1 : SC K) (r : Reading K)
    (hrows : rm.length = 2 * (bpmsOf s bpms).length * s.INJ.nTurns)
    (hcols : width rm = (correctorsOf s cms).1.length + (correctorsOf s cms).2.length)
    (href : (referenceOf rm reference).length = rm.length) (hp : O.pinv rm = .ok mplus) (hmax : maxsteps ≠ 0)
    (hr : bpmReading E B (some (bpmsOf s bpms)) false s = .ok r s1) (hno : ∀ v ∈ r.x, v = none) :
    firstTurn E B O rm reference cms bpms maxsteps s = .error .runtimeError s1 := by
  have hc := checkOrds_ok hrows hcols href
  have hi := inject_eq hr
  have hz : (⟨s, r.x, r.y, s1⟩ : Log K).reached = 0 := by
    unfold Log.reached
    rw [List.length_eq_zero_iff, List.filter_eq_nil_iff]
    intro v hv
    rw [hno v hv]; simp
  unfold firstTurn
  rw [bind_apply]; simp only [get_apply]
  rw [bind_apply, hc]; simp only [lift_ok_apply]
  rw [bind_apply, hi]; simp only
  rw [bind_apply, hp]; simp only [lift_ok_apply]
  obtain ⟨n, rfl⟩ := Nat.exists_eq_succ_of_ne_zero hmax
  unfold firstTurnLoop
  rw [if_pos hz]; rfl

end C37

/-! A transfer line with two correctors and two BPMs.  The beam comes with a horizontal offset; it is lost before the second
BPM if it is too far off at the first. -/

/-- integer square root by Newton's method -/
def Example.isqrt (n : Nat) : Nat := (List.range 100).foldl (fun x _ => if x = 0 then 0 else min x ((x + n / x) / 2)) n

/-- square root of rational squares -/
def Example.qsqrt (v : ℚ) : Option ℚ :=
  let r : ℚ := (Example.isqrt v.num.natAbs : ℚ) / (Example.isqrt v.den : ℚ)
  if r * r = v then some r else none

def Example.lineBeam : BeamEnv ℚ where
  track := fun r Z i t =>
    let k0 := coef (vecAt r 0 "PolynomB") 0
    let k2 := coef (vecAt r 2 "PolynomB") 0
    Z.map (fun p =>
      let x := coef p 0 + 1/1000 + k0
      let y := coef p 2 + 1/2000
      if i ≤ 1 ∧ t = 0 then (some x, some y)
      else if 3/2000 < |x| then (none, none)
      else (some (x + k2), some y))
  orbit := fun _ _ => (none, none)
  eig := fun _ => ([], [])
  cosSin := fun _ => (1, 0)
  sqrt := Example.qsqrt
  postFun := id

def Example.line (k0 : ℚ) (turns : Nat) : SC ℚ where
  RING := [(Example.cm.set "SetPointB" (.vec [k0])).set "PolynomB" (.vec [k0]), Example.bpm.set "Offset" (.vec [0, 0]),
    Example.cm.set "CMlimit" (.lims [.inf, .fin (1/10)]), Example.bpm.set "Offset" (.vec [0, 0])]
  IDEALRING := []
  INJ := { beamLostAt := 1/2, Z0ideal := [0, 0, 0, 0, 0, 0], Z0 := [0, 0, 0, 0, 0, 0], beamSize := [],
           randomInjectionZ := [0, 0, 0, 0, 0, 0], staticInjectionZ := [0, 0, 0, 0, 0, 0], nParticles := 1, nTurns := turns,
           nShots := 1, trackMode := "TBT" }
  SIG := ⟨[], [], [], [], [], [], 0⟩
  ORD := ⟨[1, 3], [], [0, 2], [], [0, 2], [0, 2], [], [], []⟩
  rng := 0

/-- the first horizontal corrector is steered by the first BPM, the second by the second -/
def Example.lineOrbit : OrbitEnv ℚ where
  pinv := fun _ => .ok [[1, 0, 0, 0], [0, 1/2, 0, 0], [0, 0, 0, 0], [0, 0, 0, 0]]
  donut := [(1/10000, 0), (-1/5000, 1/10000)]

def Example.lineRM : List (List ℚ) := [[1, 0, 0, 0], [1, 1, 0, 0], [0, 0, 1, 0], [0, 0, 1, 1]]

/-- the beam is lost at first, then reaches both BPMs -/
example : (firstTurn Example.rand Example.lineBeam Example.lineOrbit Example.lineRM none none none 10 (Example.line (1/1000) 1)).value?.map
      (fun logs => logs.map seen) = some [1, 2, 2, 2, 2, 2] ∧
    (firstTurn Example.rand Example.lineBeam Example.lineOrbit Example.lineRM none none none 3 (Example.line (1/1000) 1)).err? =
      some .runtimeError ∧
    PinvShape Example.lineOrbit Example.lineRM ∧
    (correctorsOf (Example.line (1/1000) 1) none).1.Pairwise (· < ·) ∧ (correctorsOf (Example.line (1/1000) 1) none).2.Pairwise (· < ·) ∧
    SaneLimits (Example.line (1/1000) 1) (correctorsOf (Example.line (1/1000) 1) none) := by
  refine ⟨by decide +kernel, by decide +kernel, ?_, by decide +kernel, by decide +kernel, ?_, ?_⟩
  · intro p hp; cases hp; rfl
  · intro i hi
    have : i = 0 ∨ i = 2 := by simpa [correctorsOf, Example.line] using hi
    rcases this with rfl | rfl <;> decide +kernel
  · intro i hi
    have : i = 0 ∨ i = 2 := by simpa [correctorsOf, Example.line] using hi
    rcases this with rfl | rfl <;> decide +kernel

/-! ### Orbit correction -/

section C38
variable [IsStrictOrderedRing K]

/-- **C38**: a call that returns made between one and `maxsteps` corrections, each of which steers all the correctors (and
with `scaleDisp` the frequency) as the pseudo-inverse asks and the limits allow; every reading after a correction saw the
beam at every BPM; and either just one step was allowed, or the root mean square readings varied by less than `eps` over the
last five (or `maxsteps`, if less) readings.

Partial: the variation is the standard deviation, not the documented coefficient of variation. -/
theorem C38_correct_partial (E : Env K) (B : BeamEnv K) (O : OrbitEnv K) (rm : List (List K)) (reference : Option (List K))
    (cms : Option CMs) (bpms : Option (List Nat)) (eps target : K) (maxsteps : Nat) (scaleDisp : K) (s s' : SC K)
    (logs : List (Log K)) (h : correct E B O rm reference cms bpms eps target maxsteps scaleDisp s = .ok logs s')
    (hp : PinvShape O rm) (hw : scaleDisp ≠ 0 → width rm ≠ 0) (hsq : SqrtSound B.sqrt) (hmax : maxsteps ≠ 0)
    (hH : (correctorsOf s cms).1.Nodup) (hV : (correctorsOf s cms).2.Nodup) (hl : SaneLimits s (correctorsOf s cms)) :
    ∃ mplus, O.pinv rm = .ok mplus ∧
      Run E B (bpmsOf s bpms) (CorrectStep (correctorsOf s cms) mplus (referenceOf rm reference) scaleDisp) s logs ∧
      (∃ l, logs.getLast? = some l ∧ l.after = s' ∧ Complete l) ∧
      2 ≤ logs.length ∧ logs.length ≤ maxsteps + 1 ∧ (∀ k l, logs[k + 1]? = some l → Complete l) ∧
      (maxsteps = 1 ∨
       (min 5 maxsteps ≤ logs.length ∧ SpreadBelow eps (tail (min 5 maxsteps) logs) ∧
          (logs.length = maxsteps + 1 ∨ ∃ l a b, logs.getLast? = some l ∧ IsRms l (a, b) ∧ a < target ∧ b < target)) ∨
       (5 ≤ logs.length ∧ SpreadBelow eps (tail 5 logs))) := by
  unfold correct at h
  have h := bindGet_eq_ok.1 h
  obtain ⟨c, hc, h⟩ := bindLift_eq_ok.1 h
  obtain ⟨l, s1, hl1, h⟩ := bind_eq_ok.1 h
  obtain ⟨mplus, hm, h⟩ := bindLift_eq_ok.1 h
  obtain ⟨rfl, e1, e2, e3⟩ := checkOrds_eq_ok hc
  obtain ⟨g, gb, ga⟩ := inject_ok hl1
  subst ga
  have hwid : mplus.length = (correctorsOf s cms).1.length + (correctorsOf s cms).2.length + if scaleDisp = 0 then 0 else 1 := by
    rw [hp _ hm]
    by_cases hz : scaleDisp = 0
    · rw [if_pos hz]
      rw [if_neg (not_not.2 hz)] at e2
      exact e2
    · rw [if_neg hz]
      rw [if_pos hz] at e2
      have := hw hz
      have e : numCols rm = width rm := rfl
      omega
  obtain ⟨l', i1, i2, i3, i4, i5, i6, i7⟩ := correctLoop_ok hsq hmax h hH hV hwid hl.1 hl.2 rfl
    (RunInv.single g (by rw [gb]; exact OnlyCorrectors.refl _ _ _ _) gb)
  have i6 := i6 hmax
  simp only [List.length_singleton] at i3 i4 i6 i7
  have hcl : Complete l' := by
    have : logs[logs.length - 1]? = some l' := by rw [← List.getLast?_eq_getElem?]; exact i1.last
    exact i4 _ (by omega) _ this
  refine ⟨mplus, hm, i1.run, ⟨l', i1.last, i2, hcl⟩, by omega, by omega, fun k a ha => i4 (k + 1) (by omega) a ha, ?_⟩
  rcases i7 with ⟨a, -⟩ | ⟨a, b, d⟩ | a
  · exact Or.inl a
  · refine Or.inr (Or.inl ⟨a, b, ?_⟩)
    rcases d with d | ⟨p, q, d⟩
    · exact Or.inl (by omega)
    · exact Or.inr ⟨l', p, q, i1.last, d⟩
  · exact Or.inr (Or.inr a)

/-- **C38**: whatever the outcome, nothing but the set-points and fields of the given correctors, and with `scaleDisp` the
frequency of the cavities, changes. -/
theorem C38_only_correctors (E : Env K) (B : BeamEnv K) (O : OrbitEnv K) (rm : List (List K)) (reference : Option (List K))
    (cms : Option CMs) (bpms : Option (List Nat)) (eps target : K) (maxsteps : Nat) (scaleDisp : K) (s : SC K) :
    OnlyCorrectors (correctorsOf s cms).1 (correctorsOf s cms).2 (if scaleDisp = 0 then [] else s.ORD.RF) s
      (correct E B O rm reference cms bpms eps target maxsteps scaleDisp s).state := by
  unfold correct
  rw [bind_apply]; simp only [get_apply]
  rw [bind_apply]
  cases hc : checkOrds s rm.length (if scaleDisp ≠ 0 then numCols rm - 1 else numCols rm) reference bpms cms with
  | error e => exact OnlyCorrectors.refl _ _ _ _
  | ok c =>
    simp only [lift_ok_apply]
    obtain ⟨rfl, -⟩ := checkOrds_eq_ok hc
    rw [bind_apply]
    have hi := inject_onlyRng E B (bpmsOf s bpms) s
    cases hj : inject E B (bpmsOf s bpms) s with
    | error e s1 => rw [hj] at hi; exact hi.onlyCorrectors
    | ok l s1 =>
      rw [hj] at hi
      have o1 : OnlyCorrectors (correctorsOf s cms).1 (correctorsOf s cms).2 (if scaleDisp = 0 then [] else s.ORD.RF) s s1 :=
        hi.onlyCorrectors
      simp only
      rw [bind_apply]
      cases hp : O.pinv rm with
      | error e => exact o1
      | ok mplus =>
        simp only [lift_ok_apply]
        have o2 := correctLoop_only E B (bpmsOf s bpms) (correctorsOf s cms) mplus (reference.getD (List.replicate rm.length 0)) eps
          target scaleDisp maxsteps maxsteps [l] l s1
        rw [o1.frame.ord] at o2
        exact o1.trans o2

end C38

section violations

omit [FloorRing K] in
theorem Spec.IsRms.unique [IsStrictOrderedRing K] {l : Log K} {p q : K × K} (hp : IsRms l p) (hq : IsRms l q) : p = q := by
  obtain ⟨v, -, v1, v2, v3, v4, v5⟩ := hp
  obtain ⟨w, -, w1, w2, w3, w4, w5⟩ := hq
  have hvw : v = w := by
    rw [v1] at w1
    refine List.map_injective_iff.2 ?_ w1
    intro a b hab
    simp only [Prod.mk.injEq, Option.some.injEq] at hab
    exact Prod.ext hab.1 hab.2
  subst hvw
  rw [← w4] at v4
  rw [← w5] at v5
  exact Prod.ext ((sq_eq_sq₀ v2 w2).1 v4) ((sq_eq_sq₀ v3 w3).1 v5)

theorem Example.qsqrt_sound : SqrtSound Example.qsqrt := by
  intro v r h
  unfold Example.qsqrt at h
  simp only at h
  split at h
  · rename_i h1
    cases h
    refine ⟨by positivity, ?_⟩
    rw [pow_two]; exact h1
  · cases h

/-- the line with perfect correctors -/
def Example.straight (k0 : ℚ) (turns : Nat) : SC ℚ :=
  { Example.line k0 turns with
    RING := [((Example.cm.set "SetPointB" (.vec [k0])).set "PolynomB" (.vec [k0])).set "CalErrorB" (.vec [0]),
      Example.bpm.set "Offset" (.vec [0, 0]), Example.cm.set "CMlimit" (.lims [.inf, .fin (1/10)]),
      Example.bpm.set "Offset" (.vec [0, 0])] }

/-- one BPM steers one horizontal corrector -/
def Example.oneBpm : OrbitEnv ℚ where
  pinv := fun _ => .ok [[1, 0], [0, 0]]
  donut := []

/-- a correction of the first corrector with the first BPM -/
abbrev Example.oneCorrection : Res (SC ℚ) (List (Log ℚ)) :=
  correct Example.rand Example.lineBeam Example.oneBpm [[1, 0], [0, 1]] none (some ([0], [0])) (some [1]) (1/1000) 0 10 0
    (Example.straight (1/1000) 1)

/-- the trajectory is corrected from 2 mm to 0 in the first step; the vertical offset of 0.5 mm stays -/
example : Example.oneCorrection.value?.map (fun logs => logs.map (fun l => (l.x, l.y))) =
      some (([some (1/500)], [some (1/2000)]) :: List.replicate 5 ([some 0], [some (1/2000)])) ∧
    PinvShape Example.oneBpm [[1, 0], [0, 1]] ∧
    SaneLimits (Example.straight (1/1000) 1) (correctorsOf (Example.straight (1/1000) 1) (some ([0], [0]))) := by
  refine ⟨by decide +kernel, ?_, ?_, ?_⟩
  · intro p hp; cases hp; rfl
  · intro i hi
    have : i = 0 := by simpa [correctorsOf] using hi
    subst this; decide +kernel
  · intro i hi
    have : i = 0 := by simpa [correctorsOf] using hi
    subst this; decide +kernel

theorem value_of_map {σ α β : Type} {r : Res σ α} {f : α → β} {b : β} (h : r.value?.map f = some b) :
    ∃ a s, r = .ok a s ∧ f a = b := by
  cases r with
  | ok a s => exact ⟨a, s, rfl, by simpa [Res.value?] using h⟩
  | error e s => simp [Res.value?] at h

/-- **C38** is violated: the correction above returns with `eps = 1/1000` although the coefficient of variation of the
readings it accepts is 1. -/
theorem C38_violated_criterion :
    ∃ logs s', Example.oneCorrection = .ok logs s' ∧ ¬ VariationBelow (1/1000 : ℚ) (tail 5 logs) := by
  obtain ⟨logs, s', h, hm⟩ := value_of_map (r := Example.oneCorrection)
    (f := fun logs => (tail 5 logs).map (fun l => (l.x, l.y))) (b := List.replicate 5 ([some 0], [some (1/2000)]))
    (by decide +kernel)
  refine ⟨logs, s', h, ?_⟩
  rintro ⟨ps, hps, sd, h0, h1, h2⟩
  have hall : ∀ l p, l ∈ tail 5 logs → IsRms l p → p = (0, 1/2000) := by
    intro l p hl hp
    have hx : (l.x, l.y) = ([some 0], [some (1/2000)]) := by
      have := List.mem_map_of_mem (f := fun l : Log ℚ => (l.x, l.y)) hl
      rw [hm] at this
      exact List.eq_of_mem_replicate this
    refine hp.unique ⟨[(0, 1/2000)], by simp, ?_, by norm_num, by norm_num, by norm_num [mean], by norm_num [mean]⟩
    simp only [Prod.mk.injEq] at hx
    rw [hx.1, hx.2]
    rfl
  have hlen : (tail 5 logs).length = 5 := by simpa using congrArg List.length hm
  have hrep : ps = List.replicate 5 (0, 1/2000) := by
    rw [List.eq_replicate_iff]
    refine ⟨by rw [← hps.length_eq, hlen], ?_⟩
    intro p hp
    obtain ⟨k, hk, rfl⟩ := List.getElem_of_mem hp
    have hk' : k < (tail 5 logs).length := by rw [hps.length_eq]; exact hk
    exact hall _ _ (List.getElem_mem hk') (List.Forall₂.get hps hk' hk)
  rw [hrep] at h1 h2
  have e1 : variance ((List.replicate 5 ((0 : ℚ), (1/2000 : ℚ))).flatMap (fun p => [p.1, p.2])) = (1/4000) ^ 2 := by
    decide +kernel
  have e2 : mean ((List.replicate 5 ((0 : ℚ), (1/2000 : ℚ))).flatMap (fun p => [p.1, p.2])) = 1/4000 := by decide +kernel
  rw [e1] at h1
  rw [e2] at h2
  have : sd = 1/4000 := (sq_eq_sq₀ h0 (by norm_num)).1 h1
  rw [this] at h2
  norm_num at h2

/-- a beam which is always 1 mm off in both planes -/
def Example.steadyBeam : BeamEnv ℚ := { Example.lineBeam with track := fun _ Z _ _ => Z.map (fun _ => (some (1/1000), some (1/1000))) }

/-- **C38** is violated: a perfectly steady orbit meets the documented criterion for every `eps`, but is refused. -/
theorem C38_violated_steady :
    (correct Example.rand Example.steadyBeam Example.oneBpm [[1, 0], [0, 1]] none (some ([0], [0])) (some [1]) (1/1000) 0 10 0
      (Example.straight 0 1)).err? = some .runtimeError ∧
    ∀ (eps : ℚ) (logs : List (Log ℚ)), 0 < eps → logs ≠ [] →
      (∀ l ∈ logs, l.x = [some (1/1000)] ∧ l.y = [some (1/1000)]) → VariationBelow eps logs := by
  refine ⟨by decide +kernel, ?_⟩
  intro eps logs he hne hl
  refine ⟨List.replicate logs.length (1/1000, 1/1000), ?_, 0, le_refl _, ?_, ?_⟩
  · rw [List.forall₂_iff_get]
    refine ⟨by simp, ?_⟩
    intro i h1 h2
    obtain ⟨hx, hy⟩ := hl _ (List.get_mem logs ⟨i, h1⟩)
    simp only [List.get_eq_getElem, List.getElem_replicate] at hx hy ⊢
    refine ⟨[(1/1000, 1/1000)], by simp, ?_, by norm_num, by norm_num, by norm_num [mean], by norm_num [mean]⟩
    rw [hx, hy]; rfl
  all_goals
    have hf : (List.replicate logs.length ((1/1000 : ℚ), (1/1000 : ℚ))).flatMap (fun p => [p.1, p.2]) =
        List.replicate (2 * logs.length) (1/1000) := by
      rw [List.eq_replicate_iff]
      constructor
      · rw [List.length_flatMap]; simp [mul_comm]
      · intro b hb
        obtain ⟨p, hp, hb⟩ := List.mem_flatMap.1 hb
        rw [List.eq_of_mem_replicate hp] at hb
        simpa using hb
    have hpos : (0 : ℚ) < 2 * logs.length := by
      have : 0 < logs.length := List.length_pos_of_ne_nil hne
      positivity
    have hmean : mean (List.replicate (2 * logs.length) (1/1000 : ℚ)) = 1/1000 := by
      unfold mean
      rw [List.sum_replicate, List.length_replicate, nsmul_eq_mul]
      push_cast
      have : (logs.length : ℚ) ≠ 0 := by intro h; rw [h] at hpos; norm_num at hpos
      field_simp
  · rw [hf]
    unfold variance
    rw [hmean, List.map_replicate]
    unfold mean
    simp
  · rw [hf, hmean]; positivity

/-- **C38** is violated: with no steps allowed the call may return although the beam does not reach all BPMs (and without
any correction). -/
theorem C38_violated_no_steps :
    ∃ logs s', correct Example.rand Example.lineBeam Example.lineOrbit Example.lineRM none none none (1/1000) 0 0 0
      (Example.line (1/1000) 1) = .ok logs s' ∧ ∃ l ∈ logs, ¬ Complete l := by
  obtain ⟨logs, s', h, hm⟩ := value_of_map (r := correct Example.rand Example.lineBeam Example.lineOrbit Example.lineRM none none
    none (1/1000) 0 0 0 (Example.line (1/1000) 1)) (f := fun logs => logs.map (fun l => l.x)) (b := [[some (1/500), none]])
    (by decide +kernel)
  refine ⟨logs, s', h, ?_⟩
  have : [some (1/500), none] ∈ logs.map (fun l => l.x) := by rw [hm]; exact List.mem_singleton.2 rfl
  obtain ⟨l, hl, he⟩ := List.mem_map.1 this
  refine ⟨l, hl, fun hc => ?_⟩
  have := hc none (by rw [he]; simp)
  cases this

end violations

/-! ### Two turns -/

section C39
variable [IsStrictOrderedRing K]

/-- **C39**: a call of `stitch` that returns made at most `maxsteps` corrections, possibly after a search for transmission
in the second turn, each of which steers all correctors as the pseudo-inverse asks and the limits allow; and it ended with five
readings in a row in which the beam reached every BPM in both turns. -/
theorem C39_stitch_partial (E : Env K) (B : BeamEnv K) (O : OrbitEnv K) (rm : List (List K)) (reference : Option (List K))
    (cms : Option CMs) (bpms : Option (List Nat)) (nBpms maxsteps : Nat) (s s' : SC K) (logs : List (Log K))
    (h : stitch E B O rm reference cms bpms nBpms maxsteps s = .ok logs s') (hp : PinvShape O rm)
    (hH : (correctorsOf s cms).1.Nodup) (hV : (correctorsOf s cms).2.Nodup) (hl : SaneLimits s (correctorsOf s cms)) :
    ∃ mplus, O.pinv rm = .ok mplus ∧
      Run E B (bpmsOf s bpms) (StitchStep (bpmsOf s bpms) (correctorsOf s cms) mplus (referenceOf rm reference) nBpms) s logs ∧
      (∃ l, logs.getLast? = some l ∧ l.after = s') ∧ (∃ l, logs.head? = some l ∧ (bpmsOf s bpms).length ≤ seen l) ∧
      logs.length ≤ maxsteps + 2 ∧ 5 ≤ logs.length ∧ ∀ l ∈ tail 5 logs, Complete l := by
  unfold stitch at h
  have h := bindGet_eq_ok.1 h
  by_cases hn : s.INJ.nTurns = 2
  swap
  · rw [if_pos hn] at h; cases h
  rw [if_neg (not_not.2 hn)] at h
  obtain ⟨c, hc, h⟩ := bindLift_eq_ok.1 h
  obtain ⟨l, s1, hl1, h⟩ := bind_eq_ok.1 h
  obtain ⟨rfl, e1, e2, e3⟩ := checkOrds_eq_ok hc
  obtain ⟨g, gb, ga⟩ := inject_ok hl1
  subst ga
  rw [hn] at e1
  have hone : ∀ step, RunInv E B (bpmsOf s bpms) (correctorsOf s cms) [] step s [l] l := fun step =>
    RunInv.single g (by rw [gb]; exact OnlyCorrectors.refl _ _ _ _) gb
  have hwid : ∀ mplus, O.pinv rm = .ok mplus → mplus.length = (correctorsOf s cms).1.length + (correctorsOf s cms).2.length := by
    intro mplus hm; rw [hp _ hm, ← e2]; rfl
  have href : (referenceOf rm reference).length = 4 * (bpmsOf s bpms).length := by
    have : (referenceOf rm reference).length = rm.length := e3
    omega
  by_cases h1 : l.reached < (bpmsOf s bpms).length
  · rw [if_pos h1] at h; cases h
  rw [if_neg h1] at h
  have hhead : ∀ {logs : List (Log K)} {l' : Log K} {step}, RunInv E B (bpmsOf s bpms) (correctorsOf s cms) [] step s logs l' →
      [l] <+: logs → ∃ l, logs.head? = some l ∧ (bpmsOf s bpms).length ≤ seen l := by
    intro logs l' step _ hpre
    obtain ⟨t, rfl⟩ := hpre
    exact ⟨l, rfl, by push Not at h1; exact h1⟩
  by_cases h2 : l.reached < (bpmsOf s bpms).length + nBpms
  · rw [if_pos h2] at h
    obtain ⟨w, s2, hw, h⟩ := bind_eq_ok.1 h
    obtain ⟨l', s3, hl3, h⟩ := bind_eq_ok.1 h
    obtain ⟨g', gb', ga'⟩ := inject_ok hl3
    subst ga'
    by_cases h3 : l'.reached < (bpmsOf s bpms).length + nBpms
    · rw [if_pos h3] at h; cases h
    rw [if_neg h3] at h
    obtain ⟨mplus, hm, h⟩ := bindLift_eq_ok.1 h
    have ow : OnlyCorrectors (correctorsOf s cms).1 (correctorsOf s cms).2 [] l.after l'.before := by
      rw [gb']
      exact (wiggling_only E B O _ _ _).ok hw
    have hi : RunInv E B (bpmsOf s bpms) (correctorsOf s cms) []
        (StitchStep (bpmsOf s bpms) (correctorsOf s cms) mplus (referenceOf rm reference) nBpms) s [l, l'] l' :=
      (hone _).snoc g' (Or.inl ⟨rfl, h2, by push Not at h3; exact h3, ow⟩) ((hone (fun _ _ _ => True)).after.trans ow)
    obtain ⟨l2, i1, i2, i3, i4, i5, i6⟩ := stitchLoop_ok h hH hV (hwid _ hm) href hl.1 hl.2
      (fun h a b hs _ _ => Or.inr hs) hi
    simp only [List.length_cons, List.length_nil] at i3
    exact ⟨mplus, hm, i1.run, ⟨l2, i1.last, i2⟩, hhead i1 ((List.prefix_append [l] [l']).trans i6), by omega, i4, i5⟩
  · rw [if_neg h2] at h
    obtain ⟨mplus, hm, h⟩ := bindLift_eq_ok.1 h
    obtain ⟨l2, i1, i2, i3, i4, i5, i6⟩ := stitchLoop_ok h hH hV (hwid _ hm) href hl.1 hl.2
      (fun h a b hs _ _ => Or.inr hs) (hone (StitchStep (bpmsOf s bpms) (correctorsOf s cms) mplus (referenceOf rm reference) nBpms))
    simp only [List.length_cons, List.length_nil] at i3
    exact ⟨mplus, hm, i1.run, ⟨l2, i1.last, i2⟩, hhead i1 i6, by omega, i4, i5⟩

/-- **C39**: a call of `balance` that returns made at most `maxsteps` corrections, each of which steers all correctors as the
pseudo-inverse asks and the limits allow; every reading saw the beam at every BPM in both turns; and the root mean square
readings varied by less than `eps` over the last five readings. -/
theorem C39_balance (E : Env K) (B : BeamEnv K) (O : OrbitEnv K) (rm : List (List K)) (reference : Option (List K))
    (cms : Option CMs) (bpms : Option (List Nat)) (eps : K) (maxsteps : Nat) (s s' : SC K) (logs : List (Log K))
    (h : balance E B O rm reference cms bpms eps maxsteps s = .ok logs s') (hp : PinvShape O rm) (hsq : SqrtSound B.sqrt)
    (hH : (correctorsOf s cms).1.Nodup) (hV : (correctorsOf s cms).2.Nodup) (hl : SaneLimits s (correctorsOf s cms)) :
    ∃ mplus, O.pinv rm = .ok mplus ∧
      Run E B (bpmsOf s bpms)
        (TwoTurnStep (bpmsOf s bpms) (correctorsOf s cms) mplus (referenceOf rm reference) (bpmsOf s bpms).length) s logs ∧
      (∃ l, logs.getLast? = some l ∧ l.after = s') ∧
      logs.length ≤ maxsteps + 1 ∧ (∀ l ∈ logs, Complete l) ∧ 5 ≤ logs.length ∧ SpreadBelow eps (tail 5 logs) := by
  unfold balance at h
  have h := bindGet_eq_ok.1 h
  by_cases hn : s.INJ.nTurns = 2
  swap
  · rw [if_pos hn] at h; cases h
  rw [if_neg (not_not.2 hn)] at h
  obtain ⟨c, hc, h⟩ := bindLift_eq_ok.1 h
  obtain ⟨l, s1, hl1, h⟩ := bind_eq_ok.1 h
  obtain ⟨rfl, e1, e2, e3⟩ := checkOrds_eq_ok hc
  obtain ⟨g, gb, ga⟩ := inject_ok hl1
  subst ga
  rw [hn] at e1
  have href : (referenceOf rm reference).length = 4 * (bpmsOf s bpms).length := by
    have : (referenceOf rm reference).length = rm.length := e3
    omega
  by_cases h1 : l.reached < l.x.length
  · rw [if_pos h1] at h; cases h
  rw [if_neg h1] at h
  obtain ⟨mplus, hm, h⟩ := bindLift_eq_ok.1 h
  obtain ⟨l2, i1, i2, i3, i4⟩ := balanceLoop_ok hsq h hH hV (by rw [hp _ hm, ← e2]; rfl) href hl.1 hl.2
    (RunInv.single g (by rw [gb]; exact OnlyCorrectors.refl _ _ _ _) gb)
    (by
      intro a ha
      rw [List.mem_singleton.1 ha]
      exact reached_complete (le_antisymm (List.length_filter_le _ _) (by push Not at h1; exact h1)))
  simp only [List.length_singleton] at i3
  exact ⟨mplus, hm, i1.run, ⟨l2, i1.last, i2⟩, by omega, i4⟩

/-- **C39**: whatever the outcome, nothing but the set-points and fields of the given correctors changes. -/
theorem C39_stitch_only_correctors (E : Env K) (B : BeamEnv K) (O : OrbitEnv K) (rm : List (List K)) (reference : Option (List K))
    (cms : Option CMs) (bpms : Option (List Nat)) (nBpms maxsteps : Nat) (s : SC K) :
    OnlyCorrectors (correctorsOf s cms).1 (correctorsOf s cms).2 [] s (stitch E B O rm reference cms bpms nBpms maxsteps s).state := by
  unfold stitch
  rw [bind_apply]; simp only [get_apply]
  by_cases hn : s.INJ.nTurns = 2
  swap
  · rw [if_pos hn]; exact OnlyCorrectors.refl _ _ _ _
  rw [if_neg (not_not.2 hn)]
  refine Rels.bindLift (R := OnlyCorrectors (correctorsOf s cms).1 (correctorsOf s cms).2 []) (fun c hc => ?_) s
  rw [(checkOrds_eq_ok hc).1]
  refine Rels.bind (inject_only E B _) (fun l => Rels.ite (Rels.throw _) (Rels.ite ?_ ?_))
  · refine Rels.bind (wiggling_only E B O _ _ _) (fun _ => Rels.bind (inject_only E B _) (fun l' => Rels.ite (Rels.throw _) ?_))
    exact Rels.bind (Rels.lift _) (fun mplus => stitchLoop_only E B _ _ _ _ _ _ _ _)
  · exact Rels.bind (Rels.lift _) (fun mplus => stitchLoop_only E B _ _ _ _ _ _ _ _)

theorem C39_balance_only_correctors (E : Env K) (B : BeamEnv K) (O : OrbitEnv K) (rm : List (List K)) (reference : Option (List K))
    (cms : Option CMs) (bpms : Option (List Nat)) (eps : K) (maxsteps : Nat) (s : SC K) :
    OnlyCorrectors (correctorsOf s cms).1 (correctorsOf s cms).2 [] s (balance E B O rm reference cms bpms eps maxsteps s).state := by
  unfold balance
  rw [bind_apply]; simp only [get_apply]
  by_cases hn : s.INJ.nTurns = 2
  swap
  · rw [if_pos hn]; exact OnlyCorrectors.refl _ _ _ _
  rw [if_neg (not_not.2 hn)]
  refine Rels.bindLift (R := OnlyCorrectors (correctorsOf s cms).1 (correctorsOf s cms).2 []) (fun c hc => ?_) s
  rw [(checkOrds_eq_ok hc).1]
  refine Rels.bind (inject_only E B _) (fun l => Rels.ite (Rels.throw _) ?_)
  exact Rels.bind (Rels.lift _) (fun mplus => balanceLoop_only E B _ _ _ _ _ _ _ _)

/-- **C39**: neither starts correcting without transmission through the first turn, or in another mode than two turns. -/
theorem C39_stitch_refuses (E : Env K) (B : BeamEnv K) (O : OrbitEnv K) (rm : List (List K)) (reference : Option (List K))
    (cms : Option CMs) (bpms : Option (List Nat)) (nBpms maxsteps : Nat) (s : SC K) :
    (s.INJ.nTurns ≠ 2 → stitch E B O rm reference cms bpms nBpms maxsteps s = .error .valueError s) ∧
    (∀ r s1, s.INJ.nTurns = 2 → rm.length = 4 * (bpmsOf s bpms).length →
      width rm = (correctorsOf s cms).1.length + (correctorsOf s cms).2.length →
      (referenceOf rm reference).length = rm.length →
      bpmReading E B (some (bpmsOf s bpms)) false s = .ok r s1 →
      (r.x.filter (fun v => v.isSome)).length < (bpmsOf s bpms).length →
      stitch E B O rm reference cms bpms nBpms maxsteps s = .error .runtimeError s1) := by
  constructor
  · intro hn
    unfold stitch
    rw [bind_apply]; simp only [get_apply]
    rw [if_pos hn]; rfl
  · intro r s1 hn hrows hcols href hr hfew
    have hc := checkOrds_ok (reference := reference) (by rw [hn, hrows]; ring) hcols href
    unfold stitch
    rw [bind_apply]; simp only [get_apply]
    rw [if_neg (not_not.2 hn), bind_apply, hc]; simp only [lift_ok_apply]
    rw [bind_apply, inject_eq hr]; simp only
    rw [if_pos (show (⟨s, r.x, r.y, s1⟩ : Log K).reached < (bpmsOf s bpms).length from hfew)]; rfl

end C39

/-- a beam which is lost in the second turn for one setting of the first corrector -/
def Example.gapBeam : BeamEnv ℚ :=
  { Example.lineBeam with track := fun r Z _ t => Z.map (fun _ =>
      if t ≠ 0 ∧ coef (vecAt r 0 "PolynomB") 0 = -1/1000 then (none, none) else (some (1/1000), some 0)) }

def Example.twoTurns : OrbitEnv ℚ where
  pinv := fun _ => .ok [[1, 0, 0, 0], [0, 0, 0, 0]]
  donut := [(1/1000, 0), (1/1000, 1/1000)]

abbrev Example.rm4 : List (List ℚ) := [[1, 0], [0, 0], [0, 1], [0, 0]]

/-- **C39** is violated: the transmission drops in a step and `stitch` neither stops nor reports it. -/
theorem C39_violated_setback :
    ∃ logs s', stitch Example.rand Example.gapBeam Example.twoTurns Example.rm4 none (some ([0], [0])) (some [1]) 1 20
        (Example.straight 0 2) = .ok logs s' ∧ logs.map seen = [2, 1, 2, 2, 2, 2, 2] :=
  value_of_map (f := fun logs : List (Log ℚ) => logs.map seen) (by decide +kernel)

/-- starting at the setting with loss: the search first finds transmission, then the corrections begin -/
example : (stitch Example.rand Example.gapBeam Example.twoTurns Example.rm4 none (some ([0], [0])) (some [1]) 1 20
        (Example.straight (-1/1000) 2)).value?.map (fun logs => logs.map seen) = some [1, 2, 2, 1, 2, 2, 2, 2, 2] ∧
    (balance Example.rand Example.gapBeam Example.twoTurns Example.rm4 none (some ([0], [0])) (some [1]) (1/1000) 20
        (Example.straight (-3/2000) 2)).value?.map (fun logs => logs.map seen) = some [2, 2, 2, 2, 2] ∧
    (balance Example.rand Example.gapBeam Example.twoTurns Example.rm4 none (some ([0], [0])) (some [1]) (1/1000) 20
        (Example.straight 0 2)).err? = some .runtimeError ∧
    (stitch Example.rand Example.gapBeam Example.twoTurns Example.rm4 none (some ([0], [0])) (some [1]) 1 20
        (Example.straight 0 1)).err? = some .valueError ∧
    SaneLimits (Example.straight 0 2) (correctorsOf (Example.straight 0 2) (some ([0], [0]))) ∧
    SqrtSound Example.gapBeam.sqrt ∧ PinvShape Example.twoTurns Example.rm4 := by
  refine ⟨by decide +kernel, by decide +kernel, by decide +kernel, by decide +kernel, ⟨?_, ?_⟩, Example.qsqrt_sound, ?_⟩
  · intro i hi
    have : i = 0 := by simpa [correctorsOf] using hi
    subst this; decide +kernel
  · intro i hi
    have : i = 0 := by simpa [correctorsOf] using hi
    subst this; decide +kernel
  · intro p hp; cases hp; rfl

/-! ### The last correctors before the beam loss -/

theorem zipIdx_filter_fst (p : Nat → Bool) (l : List Nat) (k : Nat) :
    ((l.zipIdx k).filter (fun q => p q.1)).map Prod.fst = l.filter p := by
  induction l generalizing k with
  | nil => rfl
  | cons a l ih =>
    rw [List.zipIdx_cons, List.filter_cons, List.filter_cons]
    cases h : p a <;> simp [ih, h]

theorem map_tail {α β : Type} (f : α → β) (n : Nat) (l : List α) : (tail n l).map f = tail n (l.map f) := by
  unfold tail; rw [List.map_drop, List.length_map]

/-- **C40**: if the beam is lost after BPM number `k` of the first turn, the last `n` (or all, if there are fewer) of the
given correctors which are not after that BPM are returned, together with their positions in the list, and an exception
is raised just if there are none. -/
theorem C40_upstream (k n : Nat) (bpms cms : List Nat) (b : Nat) (hb : bpms[k]? = some b) (hn : n ≠ 0) :
    (cms.filter (fun c => decide (c ≤ b)) = [] → getLastCM k n bpms cms = .error .runtimeError) ∧
    (cms.filter (fun c => decide (c ≤ b)) ≠ [] →
      ∃ pos : List Nat, getLastCM k n bpms cms = .ok (tail n (cms.filter (fun c => decide (c ≤ b))), pos.map (fun (p : Nat) => (p : Int))) ∧
        pos.map (fun p => cms[p]?) = (tail n (cms.filter (fun c => decide (c ≤ b)))).map some ∧ pos.Pairwise (· < ·)) := by
  have hk : k < bpms.length := (List.getElem?_eq_some_iff.1 hb).1
  have hi : pyIndex bpms (k : Int) = .ok b := by
    unfold pyIndex
    rw [if_pos (by omega), Int.toNat_natCast]
    exact idx_eq_ok.2 hb
  have hf := zipIdx_filter_fst (fun c => decide (c ≤ b)) cms 0
  have hlt : ¬ ((bpms.length : Int) ≤ (k : Int)) := by omega
  constructor
  · intro he
    unfold getLastCM
    rw [if_neg hlt, hi]
    have : cms.zipIdx.filter (fun p => decide (p.1 ≤ b)) = [] := by
      rw [he] at hf; exact List.map_eq_nil_iff.1 hf
    show (if (cms.zipIdx.filter (fun p => decide (p.1 ≤ b))).isEmpty then _ else _) = _
    rw [this]; rfl
  · intro he
    have hne : (cms.zipIdx.filter (fun p => decide (p.1 ≤ b))).isEmpty = false := by
      rw [List.isEmpty_eq_false_iff]
      intro h; rw [h] at hf; exact he hf.symm
    refine ⟨(tail n (cms.zipIdx.filter (fun p => decide (p.1 ≤ b)))).map Prod.snd, ?_, ?_, ?_⟩
    · unfold getLastCM
      rw [if_neg hlt, hi]
      show (if (cms.zipIdx.filter (fun p => decide (p.1 ≤ b))).isEmpty = true then _ else _) = _
      rw [hne, if_neg (by simp), lastN_eq_tail hn, map_tail, hf, List.map_map]
      rfl
    · rw [← hf, ← map_tail, List.map_map, List.map_map]
      refine List.map_congr_left (fun q hq => ?_)
      have hq' : q ∈ cms.zipIdx := List.mem_of_mem_filter (List.mem_of_mem_drop hq)
      have := List.mem_zipIdx_iff_getElem?.1 hq'
      simpa using this
    · have hs : (cms.zipIdx.map Prod.snd).Pairwise (· < ·) := by
        rw [List.zipIdx_map_snd]; exact List.pairwise_lt_range' 
      rw [List.pairwise_map] at hs ⊢
      exact (hs.filter _).drop

/-- **C40**: if the beam survives the first turn, the last `n` correctors (or all, if there are fewer) are returned, with
their positions if there are as many. -/
theorem C40_full_turn (k n : Nat) (bpms cms : List Nat) (hk : bpms.length ≤ k) (hn : n ≠ 0) :
    ∃ pos, getLastCM k n bpms cms = .ok (tail n cms, pos) ∧
      (n ≤ cms.length → pos = (List.range n).map (fun j => ((cms.length - n + j : Nat) : Int)) ∧
        (List.range n).map (fun j => cms[cms.length - n + j]?) = (tail n cms).map some) := by
  refine ⟨(List.range n).map (fun (k : Nat) => (cms.length : Int) - n + (k : Int)), ?_, ?_⟩
  · unfold getLastCM
    rw [if_pos (by exact_mod_cast hk), lastN_eq_tail hn]
  · intro hl
    constructor
    · refine List.map_congr_left (fun j _ => ?_)
      push_cast [Nat.cast_sub hl]
      rfl
    · unfold tail
      refine List.ext_getElem (by simp; omega) (fun j h1 h2 => ?_)
      simp only [List.getElem_map, List.getElem_range, List.getElem_drop]
      rw [List.getElem?_eq_getElem]

/-- two BPMs and three correctors -/
example : getLastCM 1 2 [2, 5, 9] [1, 3, 4, 7] = .ok ([3, 4], [1, 2]) ∧ getLastCM 1 5 [2, 5, 9] [1, 3, 4, 7] = .ok ([1, 3, 4], [0, 1, 2]) ∧
    getLastCM 0 1 [2, 5, 9] [3, 4, 7] = .error .runtimeError ∧ getLastCM 3 2 [2, 5, 9] [1, 3, 4, 7] = .ok ([4, 7], [2, 3]) := by
  decide +kernel

/-- **C40** is violated: if the beam survives and there are fewer than `n` correctors, the positions do not match. -/
theorem C40_violated_positions : getLastCM 3 2 [2, 5, 9] [1] = .ok ([1], [-1, 0]) := by decide +kernel

/-- **C40** is violated: without any reading (position -1) the correctors before the last BPM are returned. -/
theorem C40_violated_no_reading : getLastCM (-1) 1 [2, 5, 9] [1, 3, 4, 7] = .ok ([7], [3]) := by decide +kernel

end PySC
