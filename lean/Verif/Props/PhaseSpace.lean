import Verif.Lemmas.PhaseSpace
import Verif.Lemmas.ApplicableSupports
import Verif.Props.BeamLoss
/-
C121: the figure of the phase space.
-/
namespace PySC
set_option linter.unusedSectionVars false
variable {K : Type} [Field K] [LinearOrder K] [IsStrictOrderedRing K]
open Py Spec

theorem plotPhaseSpace_ok {E : Env K} {B : BeamEnv K} {P : PhaseEnv K} {ords : List Nat} {bunch : Option (List (List K))}
    {np nt : Option Nat} {co : Bool} {s t : SC K} {F : PhaseFigure K} (h : plotPhaseSpace E B P ords bunch np nt co s = .ok F t) :
    ∃ o Z n m slip T, ords = [o] ∧ phaseInput E B bunch np nt s = .ok (Z, n, m) t ∧ slippage t = .ok slip ∧ 0 < n ∧ o < t.RING.length ∧
      (List.range n).mapM (fun i => (List.range m).mapM (fun u => do
        let z ← idx (P.track t.RING Z o u) i
        Except.ok (slipped slip u (maskLost z)))) = .ok T ∧
      F = ⟨T.map (fun ts => ts.map inUnits), inUnits (t.INJ.Z0.map some),
        if co then some (inUnits (closedOrbit6 P t.RING o T)) else none⟩ := by
  unfold plotPhaseSpace at h
  obtain ⟨⟨Z, n, m⟩, s1, h1, g1⟩ := bind_eq_ok.1 h
  obtain ⟨s0, s2, h0, g2⟩ := bind_eq_ok.1 g1
  have e0 : s0 = s1 ∧ s2 = s1 := by cases h0; exact ⟨rfl, rfl⟩
  rw [e0.1, e0.2] at g2
  obtain ⟨slip, h2, g3⟩ := bindLift_eq_ok.1 g2
  match ords, g3 with
  | [o], g3 =>
    obtain ⟨T, h3, g4⟩ := bindLift_eq_ok.1 g3
    split at g4
    · cases g4
    · next hn =>
      obtain ⟨e, h4, g5⟩ := bindLift_eq_ok.1 g4
      rw [Ring.getE_eq_ok] at h4
      cases g5
      exact ⟨o, Z, n, m, slip, T, rfl, h1, h2, Nat.pos_of_ne_zero hn, (List.getElem?_eq_some_iff.1 h4).1, h3, rfl⟩
  | [], g3 => cases g3
  | _ :: _ :: _, g3 => cases g3

/-- **C121** (the points) When a figure is drawn, it is that of one element of the ring, and nothing but the position in the
sequence of random numbers has changed.  Each particle appears in each turn with the coordinates it has in that turn at
that element, with the slip since the injection subtracted from its path length, and there is nothing else; lost
particles do not appear. -/
theorem C121_points_partial (E : Env K) (B : BeamEnv K) (P : PhaseEnv K) (ords : List Nat) (bunch : Option (List (List K)))
    (np nt : Option Nat) (co : Bool) (s t : SC K) (F : PhaseFigure K) (h6 : s.INJ.randomInjectionZ.length = 6)
    (h : plotPhaseSpace E B P ords bunch np nt co s = .ok F t) :
    OnlyRng s t ∧ ∃ o Z n slip, ords = [o] ∧ o < s.RING.length ∧ ShownBunch E B s t bunch np Z n ∧ SlipPerTurn s slip ∧ F.points.length = n ∧
      ∀ i < n, (F.points.getD i []).length = nt.getD s.INJ.nTurns ∧ ∀ u < nt.getD s.INJ.nTurns, ∃ z,
        (P.track s.RING Z o u)[i]? = some z ∧ Appears (slip * (u : K)) z ((F.points.getD i []).getD u []) := by
  obtain ⟨o, Z, n, m, slip, T, rfl, hi, hs, hn, ho, hT, rfl⟩ := plotPhaseSpace_ok h
  obtain ⟨rfl, hin⟩ := phaseInput_ok hi
  have hst : OnlyRng s t ∧ ShownBunch E B s t bunch np Z n := by
    rcases hin with ⟨rows, rfl, rfl, hr, rfl, rfl, rfl⟩ | ⟨rfl, rfl, hg⟩
    · refine ⟨OnlyRng.refl _, rfl, rfl, by simp, fun i hi k => ?_⟩
      have e : ((List.range (rows.headD []).length).map (columnOf rows)).getD i [] = columnOf rows i := by
        rw [List.getD_eq_getElem?_getD, List.getElem?_map, List.getElem?_range hi]; rfl
      rw [e, columnOf, List.getD_eq_getElem?_getD, List.getElem?_map, List.getD_eq_getElem?_getD (l := rows)]
      cases rows[k]? <;> simp
    · have := generateBunches_ok h6 hg
      exact ⟨this.1, rfl, this.2⟩
  obtain ⟨h1, h2⟩ := hst
  have er : t.RING = s.RING := by rw [h1.1]
  have hsl := slippage_ok hs
  rw [er] at hT ho
  have hsl' : SlipPerTurn s slip := by
    have e2 : t.ORD = s.ORD := by rw [h1.1]
    unfold SlipPerTurn at hsl ⊢
    rw [er, e2] at hsl
    exact hsl
  obtain ⟨hl, hT⟩ := mapM_except_eq_ok hT
  refine ⟨h1, o, Z, n, slip, rfl, ho, h2, hsl', by simp [hl], fun i hi => ?_⟩
  obtain ⟨ts, h3, h4⟩ := hT i i (by rw [List.getElem?_range hi])
  obtain ⟨hl2, h3⟩ := mapM_except_eq_ok h3
  have e3 : (T.map (fun ts => ts.map inUnits)).getD i [] = ts.map inUnits := by
    rw [List.getD_eq_getElem?_getD, List.getElem?_map, h4]; rfl
  rw [e3]
  refine ⟨by simp [hl2], fun u hu => ?_⟩
  obtain ⟨w, h5, h7⟩ := h3 u u (by rw [List.getElem?_range hu])
  simp only [Except.bind_eq_ok', idx_eq_ok] at h5
  obtain ⟨z, h8, h9⟩ := h5
  cases h9
  refine ⟨z, h8, ?_⟩
  rw [List.getD_eq_getElem?_getD, List.getElem?_map, h7]
  exact appears_of slip u z

/-- **C121** (injection point and closed orbit) The injection point appears like a particle in the first turn.  The closed
orbit appears only if asked for, and like a particle too: it is the closed orbit at the element, or the one found from
another starting point if there is none at first, or nothing. -/
theorem C121_marks_partial (E : Env K) (B : BeamEnv K) (P : PhaseEnv K) (o : Nat) (bunch : Option (List (List K)))
    (np nt : Option Nat) (co : Bool) (s t : SC K) (F : PhaseFigure K) (hz : s.INJ.Z0 ≠ []) (h6 : s.INJ.randomInjectionZ.length = 6)
    (h : plotPhaseSpace E B P [o] bunch np nt co s = .ok F t) :
    Appears 0 (s.INJ.Z0.map some) F.injection ∧
    (co = false → F.orbit = none) ∧
    (co = true → ∃ p guess, F.orbit = some p ∧
      ((coordinate (P.orbit s.RING o none) 0 ≠ none ∧ Appears 0 (P.orbit s.RING o none) p) ∨
       (coordinate (P.orbit s.RING o none) 0 = none ∧ Appears 0 (P.orbit s.RING o (some guess)) p))) := by
  have hO := (C121_points_partial E B P [o] bunch np nt co s t F h6 h).1
  obtain ⟨o', Z, n, m, slip, T, ho', hi, hs, hn, ho, hT, rfl⟩ := plotPhaseSpace_ok h
  cases ho'
  have er : t.RING = s.RING := by rw [hO.1]
  have ej : t.INJ = s.INJ := by rw [hO.1]
  have app : ∀ z : List (Option K), coordinate z 0 ≠ none → Appears 0 z (inUnits z) := by
    intro z hz
    have := appears_of (0 : K) 0 z
    have e : maskLost z = z := by
      unfold maskLost; rw [if_neg]
      show ¬ (coordinate z 0).isNone = true
      intro hn; exact hz (Option.isNone_iff_eq_none.1 hn)
    rw [e, zero_mul] at this
    refine ⟨fun h => absurd h hz, fun _ => ⟨fun k hk => ?_, ?_, ?_⟩⟩
    · rw [← (this.2 hz).1 k hk]
      interval_cases k <;> rfl
    · show coordinate z 5 = _
      cases coordinate z 5 <;> simp
    · rw [← (this.2 hz).2.2]; rfl
  refine ⟨?_, fun h => by rw [h]; rfl, fun h => ?_⟩
  · rw [ej]
    refine app _ ?_
    cases hz' : s.INJ.Z0 with
    | nil => exact absurd hz' hz
    | cons a l => simp [coordinate]
  · rw [h, er]
    refine ⟨_, ((List.range 6).map (fun k => nanmean (T.flatten.map (fun z => z.getD k none)))), rfl, ?_⟩
    unfold closedOrbit6
    by_cases h1 : coordinate (P.orbit s.RING o none) 0 = none
    · refine Or.inr ⟨h1, ?_⟩
      have h1' : ((P.orbit s.RING o none).getD 0 none).isNone = true := by
        show (coordinate _ 0).isNone = true; rw [h1]; rfl
      simp only [h1', if_true]
      split
      · next h2 =>
        refine ⟨fun _ k => ?_, fun h3 => absurd (Option.isNone_iff_eq_none.1 h2) h3⟩
        match k with
        | 0 | 1 | 2 | 3 | 4 | 5 => rfl
        | (k + 6) => rfl
      · next h2 => exact app _ (fun h3 => h2 (by show (coordinate _ 0).isNone = true; rw [h3]; rfl))
    · refine Or.inl ⟨h1, ?_⟩
      have h1' : ¬ ((P.orbit s.RING o none).getD 0 none).isNone = true := fun h2 => h1 (Option.isNone_iff_eq_none.1 h2)
      simp only [h1']
      exact app _ h1

/-- **C121** (bad requests) A bunch together with a number of particles, or a bunch which does not have six rows, is
refused before anything happens. -/
theorem C121_refused (E : Env K) (B : BeamEnv K) (P : PhaseEnv K) (ords : List Nat) (rows : List (List K)) (np nt : Option Nat) (co : Bool)
    (s : SC K) (h : np ≠ none ∨ rows.length ≠ 6) : plotPhaseSpace E B P ords (some rows) np nt co s = .error .valueError s := by
  have : phaseInput E B (some rows) np nt s = .error .valueError s := by
    unfold phaseInput
    refine bind_eq_error.2 (Or.inr ⟨s, s, rfl, ?_⟩)
    cases np with
    | some k => rfl
    | none =>
      dsimp only
      rw [if_pos (by simpa using h)]
      rfl
  unfold plotPhaseSpace
  exact bind_eq_error.2 (Or.inl this)

/-- **C121** (when there is a figure) For one element of the ring, with a bunch of six rows and at least one particle, a
registered cavity whose frequency and harmonic number can be read if it is on, and tracking which returns all particles,
the figure is drawn. -/
theorem C121_drawn_partial (E : Env K) (B : BeamEnv K) (P : PhaseEnv K) (o : Nat) (rows : List (List K)) (nt : Option Nat) (co : Bool)
    (s : SC K) (ho : o < s.RING.length) (hr : rows.length = 6) (hn : 0 < (rows.headD []).length) (hc : CavityKnown s)
    (ht : ∀ Z u, (P.track s.RING Z o u).length = Z.length) :
    ∃ F, plotPhaseSpace E B P [o] (some rows) none nt co s = .ok F s := by
  have hi : phaseInput E B (some rows) none nt s =
      .ok ((List.range (rows.headD []).length).map (columnOf rows), (rows.headD []).length, nt.getD s.INJ.nTurns) s := by
    unfold phaseInput
    refine bind_eq_ok.2 ⟨s, s, rfl, ?_⟩
    dsimp only
    rw [if_neg (by simpa using hr)]
    rfl
  obtain ⟨slip, hs⟩ : ∃ slip, slippage s = .ok slip := by
    obtain ⟨cav, h1, pm, h2, h3⟩ := hc
    unfold slippage
    simp only [Except.bind_eq_ok', idx_eq_ok, Ring.getStr_eq_ok]
    by_cases h : pm = "RFCavityPass"
    · obtain ⟨a, f, h4, h5, h6⟩ := h3 h
      refine ⟨speedOfLight * a / f - (findspos s.RING).getLastD 0, cav, by rw [← h1, List.head?_eq_getElem?], pm, h2, ?_⟩
      rw [if_pos h]
      simp only [Except.bind_eq_ok', Ring.getNum_eq_ok, divE_eq_ok]
      exact ⟨a, h4, f, h5, _, ⟨h6, rfl⟩, rfl⟩
    · exact ⟨0, cav, by rw [← h1, List.head?_eq_getElem?], pm, h2, by rw [if_neg h]⟩
  obtain ⟨T, hT⟩ : ∃ T, (List.range (rows.headD []).length).mapM (fun i => (List.range (nt.getD s.INJ.nTurns)).mapM (fun u => do
      let z ← idx (P.track s.RING ((List.range (rows.headD []).length).map (columnOf rows)) o u) i
      Except.ok (slipped slip u (maskLost z)))) = .ok T := by
    refine mapM_except_total (fun i hi => mapM_except_total (fun u _ => ?_))
    have hl := ht ((List.range (rows.headD []).length).map (columnOf rows)) u
    rw [List.length_map, List.length_range] at hl
    have hi' := List.mem_range.1 hi
    simp only [Except.bind_eq_ok', idx_eq_ok]
    exact ⟨_, _, List.getElem?_eq_getElem (by omega), rfl⟩
  refine ⟨⟨T.map (fun ts => ts.map inUnits), inUnits (s.INJ.Z0.map some),
    if co then some (inUnits (closedOrbit6 P s.RING o T)) else none⟩, ?_⟩
  unfold plotPhaseSpace
  refine bind_eq_ok.2 ⟨_, s, hi, bind_eq_ok.2 ⟨s, s, rfl, bindLift_eq_ok.2 ⟨slip, hs, bindLift_eq_ok.2 ⟨T, hT, ?_⟩⟩⟩⟩
  rw [if_neg (by omega)]
  exact bindLift_eq_ok.2 ⟨_, Ring.getE_eq_ok.2 (List.getElem?_eq_getElem ho), rfl⟩

/-- **C121 violated** for several elements: there is no figure, although there is one for each of them. -/
theorem C121_violated (E : Env K) (B : BeamEnv K) (P : PhaseEnv K) (o o' : Nat) (ords : List Nat) (rows : List (List K)) (nt : Option Nat)
    (co : Bool) (s : SC K) (F : PhaseFigure K) (h : plotPhaseSpace E B P [o] (some rows) none nt co s = .ok F s) :
    plotPhaseSpace E B P (o :: o' :: ords) (some rows) none nt co s = .error .valueError s := by
  obtain ⟨_, Z, n, m, slip, T, -, hi, hs, -⟩ := plotPhaseSpace_ok h
  unfold plotPhaseSpace
  exact bind_eq_error.2 (Or.inr ⟨_, s, hi, bind_eq_error.2 (Or.inr ⟨s, s, rfl,
    bind_eq_error.2 (Or.inr ⟨slip, s, by rw [hs]; rfl, rfl⟩)⟩)⟩)

/-! ### examples -/

/-- a machine of circumference 6 whose cavity asks for 8 per turn -/
def Example.orbiting : SC ℚ := { Example.sc with
  RING := Ring.setAttr (Ring.setAttr Example.ring 5 "HarmNumber" (.num 1)) 5 "Frequency" (.num (299792458 / 8)) }

/-- the second particle loses its x in the second turn; the others get ahead by two per turn, gain energy and oscillate -/
def Example.turning : PhaseEnv ℚ where
  track := fun _ Z o u => Z.zipIdx.map (fun (z, j) => if j = 1 ∧ 1 ≤ u then [none, some 1, some 1, some 1, some 1, some 1]
    else [some ((-1) ^ u * z.getD 0 0), some (o : ℚ), some (z.getD 2 0), some 0, some (u / 1000), some (z.getD 5 0 + 2 * u)])
  orbit := fun _ _ guess => match guess with
    | none => []
    | some g => g

def Example.threeParticles : List (List ℚ) := [[1/1000, 2/1000, 3/1000], [0, 0, 0], [0, 1/1000, 0], [0, 0, 0], [0, 0, 0], [0, 0, 1/2]]

-- three particles at element 1 in two turns
example : (plotPhaseSpace Example.rand Example.beam Example.turning [1] (some Example.threeParticles) none (some 2) true Example.orbiting).value?.map
    (fun F => F.points) = some
    [[[some 1000, some 1000000, some 0, some 0, some 0, some 0], [some (-1000), some 1000000, some 0, some 0, some 0, some (1/10)]],
     [[some 2000, some 1000000, some 1000, some 0, some 0, some 0], [none, none, none, none, none, none]],
     [[some 3000, some 1000000, some 0, some 0, some (1/2), some 0], [some (-3000), some 1000000, some 0, some 0, some (1/2), some (1/10)]]] := by
  decide +kernel
example : CavityKnown Example.orbiting ∧ ∀ Z u, (Example.turning.track Example.orbiting.RING Z 1 u).length = Z.length :=
  ⟨⟨5, rfl, "RFCavityPass", by decide +kernel, fun _ => ⟨1, 299792458 / 8, by decide +kernel, by decide +kernel, by decide +kernel⟩⟩,
    fun Z u => by simp [Example.turning]⟩
-- a generated bunch, and a closed orbit found from the mean of the particles
example : (plotPhaseSpace Example.rand Example.beam Example.turning [1] none (some 2) (some 2) true Example.orbiting).isOk = true := by decide +kernel
example : (plotPhaseSpace Example.rand Example.beam Example.turning [1] (some Example.threeParticles) none (some 2) true Example.orbiting).value?.map
    (fun F => (F.orbit.map (fun p => p.getD 0 none), F.injection.length)) = some (some (some 400), 6) := by decide +kernel
example : Example.orbiting.INJ.randomInjectionZ.length = 6 ∧ Example.orbiting.INJ.Z0 ≠ [] := by decide +kernel
-- figures for each of two elements, but not for both
example : (plotPhaseSpace Example.rand Example.beam Example.turning [2] (some Example.threeParticles) none (some 2) true Example.orbiting).isOk = true ∧
    (plotPhaseSpace Example.rand Example.beam Example.turning [1, 2] (some Example.threeParticles) none (some 2) true Example.orbiting).err? =
      some .valueError := by decide +kernel

end PySC
