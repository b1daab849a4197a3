import Verif.Lemmas.PseudoOrbit
import Verif.Spec.Example
/-
C33 BPM reading formula and order.  C34 Lost beam.  C35 beam_transmission.
-/
set_option linter.unusedSectionVars false
namespace PySC
open Py Spec
variable {K : Type} [Field K] [LinearOrder K]

/-- **C33** In the modes 'TBT' and 'ORB' a reading has one column for each turn and BPM, turn by turn and within a turn in
ring order of the registered BPMs among the requested ones.  The column of BPM `b` in turn `t` holds the mean over the
shots, weighted with their sum signals, of (rotated beam centre - offset - support offset) * (1 + calibration error)
+ noise / sum signal (`Spec.shotReading`), only those shots counting in which the beam was seen (`Spec.Seen`), or NaN if
there are none.  The last array holds the mean sum signal.  Only random numbers are consumed; each shot, plane, BPM and
turn has random numbers of its own. -/
theorem C33_reading {E : Env K} {B : BeamEnv K} {req : Option (List Nat)} {ce : Bool} {s s' : SC K} {out : Reading K}
    (hmode : s.INJ.trackMode ≠ "PORB") (h6 : s.INJ.randomInjectionZ.length = 6)
    (hloss : ∀ Z i t, WholeLoss (seenAt B s Z i t)) (h : bpmReading E B req ce s = .ok out s') :
    (s' = { s with rng := s'.rng } ∧ s.rng ≤ s'.rng) ∧ ∃ ords, Requested s.ORD.BPM req ords ∧
      out.x.length = s.INJ.nTurns * ords.length ∧ out.y.length = s.INJ.nTurns * ords.length ∧
      out.sums.length = s.INJ.nTurns * ords.length ∧
      ∃ e Z z, Shots E B s s' ords e Z z ∧ ∀ b t i, ords[b]? = some i → t < s.INJ.nTurns →
        out.x[t * ords.length + b]? = some ((shotMean (shotsAt B s e Z z b t i)).map Prod.fst) ∧
        out.y[t * ords.length + b]? = some ((shotMean (shotsAt B s e Z z b t i)).map Prod.snd) ∧
        out.sums[t * ords.length + b]? =
          some ((((shotsAt B s e Z z b t i).filterMap id).map Prod.snd).sum / (s.INJ.nShots : K)) := by
  obtain ⟨ords, hr, ho, hn, e, Z, z, hs, mx, my, sm, hc, hout, -⟩ := bpmReading_ok h6 hloss h
  obtain ⟨hx, hy, hsum⟩ := hout hmode
  refine ⟨ho, ords, hr, by rw [hx, flatten2_length], by rw [hy, flatten2_length], by rw [hsum, flatten2_length],
    e, Z, z, hs, fun b t i hb ht => ?_⟩
  have hbl : b < ords.length := (List.getElem?_eq_some_iff.1 hb).1
  obtain ⟨c1, c2, c3⟩ := hc b t i hb ht
  rw [hx, hy, hsum, flatten2_get _ hbl ht, flatten2_get _ hbl ht, flatten2_get _ hbl ht, c1, c2, c3]
  exact ⟨rfl, rfl, rfl⟩

/-- **C33** In 'PORB' mode a successful reading has one column for each BPM, holding the mean over the turns weighted with
the mean sum signals of the readings described in `C33_reading`, only those turns counting in which the beam was seen. -/
theorem C33_reading_porb {E : Env K} {B : BeamEnv K} {req : Option (List Nat)} {ce : Bool} {s s' : SC K} {out : Reading K}
    (hmode : s.INJ.trackMode = "PORB") (h6 : s.INJ.randomInjectionZ.length = 6)
    (hloss : ∀ Z i t, WholeLoss (seenAt B s Z i t)) (h : bpmReading E B req ce s = .ok out s') :
    (s' = { s with rng := s'.rng } ∧ s.rng ≤ s'.rng) ∧ ∃ ords, Requested s.ORD.BPM req ords ∧
      out.x.length = ords.length ∧ out.y.length = ords.length ∧
      ∃ e Z z, Shots E B s s' ords e Z z ∧ ∀ b i, ords[b]? = some i →
        let w := fun t => (((shotsAt B s e Z z b t i).filterMap id).map Prod.snd).sum / (s.INJ.nShots : K)
        out.x[b]? = some (turnMean ((List.range s.INJ.nTurns).map (fun t =>
          ((shotMean (shotsAt B s e Z z b t i)).map Prod.fst, w t)))) ∧
        out.y[b]? = some (turnMean ((List.range s.INJ.nTurns).map (fun t =>
          ((shotMean (shotsAt B s e Z z b t i)).map Prod.snd, w t)))) ∧
        out.sums[b]? = some (((List.range s.INJ.nTurns).map w).sum / (s.INJ.nTurns : K)) := by
  obtain ⟨ords, hr, ho, hn, e, Z, z, hs, mx, my, sm, hc, -, hout⟩ := bpmReading_ok h6 hloss h
  obtain ⟨hx, hy, hsum⟩ := hout hmode
  obtain ⟨lx, gx⟩ := tabulate_eq_ok hx
  obtain ⟨ly, gy⟩ := tabulate_eq_ok hy
  refine ⟨ho, ords, hr, by simpa using lx, by simpa using ly, e, Z, z, hs, fun b i hb => ?_⟩
  simp only
  have hbl : b < ords.length := (List.getElem?_eq_some_iff.1 hb).1
  obtain ⟨yx, f1, f2⟩ := gx b 0 hbl (by omega)
  obtain ⟨yy, f3, f4⟩ := gy b 0 hbl (by omega)
  have hzero : ∀ t < s.INJ.nTurns, shotMean (shotsAt B s e Z z b t i) = none → sm b t = 0 := by
    intro t ht hnone
    rw [(hc b t i hb ht).2.2, shotMean_none hnone]; simp
  have e1 := (porbAverage_spec f1 (fun t ht hv => hzero t ht (by
    rw [(hc b t i hb ht).1] at hv; simpa using hv))).1
  have e2 := (porbAverage_spec f3 (fun t ht hv => hzero t ht (by
    rw [(hc b t i hb ht).2.1] at hv; simpa using hv))).1
  simp only [Nat.zero_mul, Nat.zero_add] at f2 f4
  have hw : (List.range s.INJ.nTurns).map (sm b) = (List.range s.INJ.nTurns).map (fun t =>
      (((shotsAt B s e Z z b t i).filterMap id).map Prod.snd).sum / (s.INJ.nShots : K)) :=
    List.map_congr_left (fun t ht => (hc b t i hb (by simpa using ht)).2.2)
  refine ⟨?_, ?_, ?_⟩
  · rw [f2, e1]
    congr 2
    exact List.map_congr_left (fun t ht => by
      obtain ⟨c1, -, c3⟩ := hc b t i hb (by simpa using ht)
      rw [c1, c3])
  · rw [f4, e2]
    congr 2
    exact List.map_congr_left (fun t ht => by
      obtain ⟨-, c2, c3⟩ := hc b t i hb (by simpa using ht)
      rw [c2, c3])
  · rw [hsum]
    have := flatten2_get (nt := 1) (fun b (_ : Nat) => ((List.range s.INJ.nTurns).map (sm b)).sum / (s.INJ.nTurns : K)) hbl (by omega : 0 < 1)
    simp only [Nat.zero_mul, Nat.zero_add] at this
    rw [this, hw]

/-- **C33** A request without any registered BPM raises ValueError and consumes nothing. -/
theorem C33_no_registered_bpm (E : Env K) (B : BeamEnv K) (l : List Nat) (ce : Bool) (s : SC K)
    (h : ∀ i ∈ l, i ∉ s.ORD.BPM) : bpmReading E B (some l) ce s = .error .valueError s := by
  unfold bpmReading
  have : registeredBpms s.ORD.BPM (some l) = .error .valueError := by
    unfold registeredBpms
    simp only
    rw [if_pos]
    rw [List.isEmpty_iff, List.filter_eq_nil_iff]
    intro i hi
    simpa using fun hl => h i hl hi
  rw [show (Py.get >>= _ : Py (SC K) (Reading K)) s = _ from bind_apply _ _ _]
  simp only [get_apply]
  rw [bind_apply, this]
  rfl

end PySC
