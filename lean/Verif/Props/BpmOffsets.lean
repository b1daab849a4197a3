import Verif.Lemmas.BpmOffsets
import Verif.Props.BpmSubset
/-
C128: the offsets of BPMs shift their readings by constants and do not enter measured responses.
-/
namespace PySC
set_option linter.unusedSectionVars false
variable {K : Type} [Field K] [LinearOrder K] [FloorRing K]
open Py Spec

theorem Spec.SameButOffsets.displaced {s t : SC K} (h : SameButOffsets s t) (hm : s.INJ.trackMode ≠ "PORB") :
    Displaced (lessBy s.RING t.RING) s.ORD.BPM s.INJ.nTurns s t := ⟨h, fun _ _ _ _ => rfl, rfl, rfl, hm⟩

/-- **C128** If the offsets of BPMs are changed, and nothing else, they read less by the change of the offset, seen with their
calibration, in every turn.  This is so with noise, too, for the same random numbers, whatever other errors there are. -/
theorem C128_reading (E : Env K) {B : BeamEnv K} (hB : IgnoresRecords B) {s t : SC K} (h : SameButOffsets s t) (hm : s.INJ.trackMode ≠ "PORB")
    (req : Option (List Nat)) (errors : Bool) :
    (∃ out out' s' t', bpmReading E B req errors s = .ok out s' ∧ bpmReading E B req errors t = .ok out' t' ∧
      ReadsLess (readBpms s.ORD.BPM req) s.INJ.nTurns (lessBy s.RING t.RING) out out' ∧ SameButOffsets s' t') ∨
    (∃ e s' t', bpmReading E B req errors s = .error e s' ∧ bpmReading E B req errors t = .error e t' ∧ SameButOffsets s' t') := by
  rcases disp_reading (E := E) hB req errors s t (h.displaced hm) with ⟨a, b, s', t', h1, h2, h3, h4⟩ | ⟨e, s', t', h1, h2, h3⟩
  · exact Or.inl ⟨a, b, s', t', h1, h2, h3, h4.offs⟩
  · exact Or.inr ⟨e, s', t', h1, h2, h3.offs⟩

/-! ### Readings as one vector -/

/-- vectors of readings which differ by the constants `L` -/
def VecLess (L : List K) (r r' : List (Option K)) : Prop :=
  r.length = L.length ∧ r'.length = L.length ∧ ∀ (k : Nat) (x : K), L[k]? = some x → ∃ v : Option K, r[k]? = some v ∧ r'[k]? = some (v.map (fun y => y - x))

section
variable {d : Nat → Nat → K} {bp : List Nat} {nt : Nat} {E : Env K} {B : BeamEnv K} {L : List K}

theorem VecLess.append {L' : List K} {r r' q q' : List (Option K)} (h : VecLess L r r') (g : VecLess L' q q') : VecLess (L ++ L') (r ++ q) (r' ++ q') := by
  refine ⟨by simp [h.1, g.1], by simp [h.2.1, g.2.1], fun k x hk => ?_⟩
  by_cases hlt : k < L.length
  · rw [List.getElem?_append_left hlt] at hk
    rw [List.getElem?_append_left (by rw [h.1]; exact hlt), List.getElem?_append_left (by rw [h.2.1]; exact hlt)]
    exact h.2.2 k x hk
  · rw [List.getElem?_append_right (by omega)] at hk
    rw [List.getElem?_append_right (by rw [h.1]; omega), List.getElem?_append_right (by rw [h.2.1]; omega), h.1, h.2.1]
    exact g.2.2 _ x hk

theorem VecLess.zip {r r' q q' : List (Option K)} (h : VecLess L r r') (g : VecLess L q q') {β : Type} {f : Option K → Option K → β}
    (hf : ∀ a b x, f (a.map (fun y => y - x)) (b.map (fun y => y - x)) = f a b) : List.zipWith f r' q' = List.zipWith f r q := by
  apply List.ext_getElem (by simp [h.1, h.2.1, g.1, g.2.1])
  intro k h1 h2
  have hk : k < L.length := by simp only [List.length_zipWith, h.2.1, g.2.1] at h1; omega
  obtain ⟨v, v1, v2⟩ := h.2.2 k _ (List.getElem?_eq_getElem hk)
  obtain ⟨w, w1, w2⟩ := g.2.2 k _ (List.getElem?_eq_getElem hk)
  simp only [List.getElem_zipWith]
  rw [(List.getElem?_eq_some_iff.1 v1).2, (List.getElem?_eq_some_iff.1 v2).2, (List.getElem?_eq_some_iff.1 w1).2, (List.getElem?_eq_some_iff.1 w2).2, hf]

theorem VecLess.some {r r' : List (Option K)} (h : VecLess L r r') : r'.map Option.isSome = r.map Option.isSome := by
  apply List.ext_getElem (by simp [h.1, h.2.1])
  intro k h1 h2
  have hk : k < L.length := by simp only [List.length_map, h.2.1] at h1; omega
  obtain ⟨v, v1, v2⟩ := h.2.2 k _ (List.getElem?_eq_getElem hk)
  simp only [List.getElem_map]
  rw [(List.getElem?_eq_some_iff.1 v1).2, (List.getElem?_eq_some_iff.1 v2).2]
  simp

theorem VecLess.seen {r r' : List (Option K)} (h : VecLess L r r') : numSeen r' = numSeen r := by
  have e : ∀ v : List (Option K), numSeen v = ((v.map Option.isSome).filter id).length := fun v => by
    unfold numSeen
    rw [List.filter_map, List.length_map]
    rfl
  rw [e, e, h.some]

theorem VecLess.none {r r' : List (Option K)} (h : VecLess L r r') : r'.any Option.isNone = r.any Option.isNone := by
  have e : ∀ v : List (Option K), v.any Option.isNone = (v.map Option.isSome).any not := fun v => by
    rw [List.any_map]
    congr 1
    funext o
    cases o <;> rfl
  rw [e, e, h.some]

theorem diffQuot_less (k : K) (a b : Option K) (x : K) : diffQuot k (a.map (fun y => y - x)) (b.map (fun y => y - x)) = diffQuot k a b := by
  rcases a with _ | a <;> rcases b with _ | b <;> simp [diffQuot]

theorem nanSub_less (a b : Option K) (x : K) : nanSub (a.map (fun y => y - x)) (b.map (fun y => y - x)) = nanSub a b := by
  rcases a with _ | a <;> rcases b with _ | b <;> simp [nanSub]

theorem vecLess_plane {l : List Nat} {v v' : List (Option K)} {c : Nat → K} (h1 : v.length = nt * l.length) (h2 : v'.length = nt * l.length)
    (h : ∀ b i, l[b]? = some i → ∀ t < nt, ∃ o, v[t * l.length + b]? = some o ∧ v'[t * l.length + b]? = some (o.map (fun x => x - c i))) :
    VecLess (flatten2 l.length nt (fun b _ => c (l.getD b 0))) v v' := by
  refine ⟨by rw [h1, flatten2_length], by rw [h2, flatten2_length], fun k x hk => ?_⟩
  have hlt := (List.getElem?_eq_some_iff.1 hk).1
  rw [flatten2_length] at hlt
  have hn : 0 < l.length := by
    rcases Nat.eq_zero_or_pos l.length with e | e
    · rw [e] at hlt; simp at hlt
    · exact e
  have ht : k / l.length < nt := (Nat.div_lt_iff_lt_mul hn).2 hlt
  have hb : k % l.length < l.length := Nat.mod_lt _ hn
  have e : k / l.length * l.length + k % l.length = k := by rw [Nat.mul_comm]; exact Nat.div_add_mod _ _
  have hk' := flatten2_get (fun b (_ : Nat) => c (l.getD b 0)) hb ht
  rw [e, hk] at hk'
  cases hk'
  have := h (k % l.length) _ (List.getElem?_eq_getElem hb) (k / l.length) ht
  rw [e] at this
  rw [getD_lt _ _ hb]
  exact this

/-- by how much the vectors of readings differ -/
def allLess (d : Nat → Nat → K) (l : List Nat) (nt : Nat) : List K :=
  flatten2 l.length nt (fun b _ => d (l.getD b 0) 0) ++ flatten2 l.length nt (fun b _ => d (l.getD b 0) 1)

theorem disp_ravel (hB : IgnoresRecords B) (bpms : List Nat) :
    Sync (Displaced d bp nt) (VecLess (allLess d (readBpms bp (some bpms)) nt)) (ravelReading E B bpms) (ravelReading E B bpms) := by
  unfold ravelReading
  exact Sync.bind (disp_reading hB _ _) (fun r r' h => Sync.pure
    ((vecLess_plane (c := fun i => d i 0) h.sizes.1 h.sizes.2.2.1 h.x).append (vecLess_plane (c := fun i => d i 1) h.sizes.2.1 h.sizes.2.2.2 h.y)))

/-! ### Measurements -/

theorem disp_orbitColumn (hB : IgnoresRecords B) {bpms : List Nat} {o o' : List (Option K)}
    (ho : VecLess (allLess d (readBpms bp (some bpms)) nt) o o') (isInt : Bool) (dkick : K) (c : Bool × Nat) :
    Sync (Displaced d bp nt) Eq (orbitColumn E B bpms isInt dkick o c) (orbitColumn E B bpms isInt dkick o' c) := by
  unfold orbitColumn
  refine Sync.seq (disp_setCM _ _ _ _) (fun _ => Sync.bind (disp_ravel hB _) (fun r r' hr => Sync.seq (disp_setCM _ _ _ _) (fun _ => ?_)))
  rw [ho.2.1, ← ho.1]
  exact Sync.ite (Sync.throw _) (Sync.ite (Sync.throw _) (Sync.pure (hr.zip ho (diffQuot_less dkick)).symm))

theorem disp_dispersion (hB : IgnoresRecords B) (isInt : Bool) (step : K) (bpms cavs : Option (List Nat)) (n : Nat) :
    Sync (Displaced d bp nt) Eq (dispersion E B isInt step bpms cavs n) (dispersion E B isInt step bpms cavs n) := by
  unfold dispersion
  refine Sync.bind Sync.get (fun u v huv => ?_)
  rw [huv.ords]
  refine Sync.bind (disp_ravel hB _) (fun o o' ho => ?_)
  refine Sync.ite (Sync.seq (disp_setCavity _ _ _ _) (fun _ => Sync.bind (disp_ravel hB _) (fun r r' hr =>
    Sync.seq (disp_setCavity _ _ _ _) (fun _ => Sync.ite (Sync.throw _) (Sync.pure (hr.zip ho (diffQuot_less step)).symm))))) ?_
  refine Sync.seq (disp_rd (fun r r' h => ?_)) (fun st => Sync.seq (disp_rd (fun r r' h => ?_)) (fun rf => Sync.seq (Sync.forEach (fun k _ => ?_)) (fun _ =>
    Sync.seq (disp_setCavity _ _ _ _) (fun _ => Sync.throw _))))
  · congr 1
    funext c
    unfold freqSteps
    rw [h.getNum c (by decide)]
  · congr 1
    funext c
    exact h.getNum c (by decide)
  · exact Sync.seq (disp_setCavity _ _ _ _) (fun _ => Sync.bind (disp_ravel hB _) (fun _ _ _ => Sync.pure rfl))

theorem disp_trySetpoint (hB : IgnoresRecords B) (bpms : List Nat) (cm : Nat) (start step : K) (sk : Bool) :
    Sync (Displaced d bp nt) (fun x y => x.1 = y.1 ∧ VecLess (allLess d (readBpms bp (some bpms)) nt) x.2 y.2) (trySetpoint E B bpms cm start step sk)
      (trySetpoint E B bpms cm start step sk) :=
  Sync.seq (disp_setCM _ _ _ _) (fun _ => Sync.seq (disp_getCM _ _) (fun _ => Sync.seq (Sync.lift _) (fun _ =>
    Sync.seq (Sync.when (disp_setCM _ _ _ _)) (fun _ => Sync.bind (disp_ravel hB _) (fun _ _ h => Sync.pure ⟨rfl, h⟩)))))

theorem disp_kickLoop (hB : IgnoresRecords B) {bpms : List Nat} {o o' : List (Option K)}
    (ho : VecLess (allLess d (readBpms bp (some bpms)) nt) o o') (cm : Nat) (start amp : K) (sk : Bool) (mode : String) :
    ∀ (n : Nat) (step : K), Sync (Displaced d bp nt) Eq (kickLoop E B o bpms cm start amp sk mode n step) (kickLoop E B o' bpms cm start amp sk mode n step)
  | 0, step => Sync.pure rfl
  | n + 1, step => by
    unfold kickLoop
    refine Sync.bind (disp_trySetpoint hB _ _ _ _ _) (fun x y hxy => ?_)
    rw [hxy.2.seen, ho.seen, ← hxy.1]
    refine Sync.ite (Sync.ite ?_ (Sync.pure rfl)) (Sync.throw _)
    have e : largestDiff y.2 o' = largestDiff x.2 o := by
      unfold largestDiff
      rw [hxy.2.zip ho nanSub_less]
    rw [e]
    exact Sync.seq (Sync.lift _) (fun _ => Sync.seq (Sync.lift _) (fun q => disp_kickLoop hB ho cm start amp sk mode n q))

theorem disp_kickAmplitude (hB : IgnoresRecords B) {bpms : List Nat} {o o' : List (Option K)}
    (ho : VecLess (allLess d (readBpms bp (some bpms)) nt) o o') (cm : Nat) (amp : K) (sk : Bool) (mode : String) :
    Sync (Displaced d bp nt) Eq (kickAmplitude E B o bpms cm amp sk mode) (kickAmplitude E B o' bpms cm amp sk mode) :=
  Sync.seq (disp_getCM _ _) (fun _ => Sync.seq (Sync.lift _) (fun _ => Sync.seq (Sync.ite (Sync.pure rfl) (Sync.ite (Sync.pure rfl) (Sync.throw _))) (fun _ =>
    Sync.seq (disp_kickLoop hB ho _ _ _ _ _ _ _) (fun _ => Sync.bind (disp_ravel hB _) (fun _ _ h => Sync.pure (by rw [h.zip ho nanSub_less]))))))

theorem disp_kickStep (hB : IgnoresRecords B) {bpms : List Nat} {o o' : List (Option K)}
    (ho : VecLess (allLess d (readBpms bp (some bpms)) nt) o o') (cm : Nat) (start step : K) (sk : Bool) (x : K) :
    Sync (Displaced d bp nt) Eq (kickStep E B o bpms cm start step sk x) (kickStep E B o' bpms cm start step sk x) :=
  Sync.ite (Sync.seq (disp_setCM _ _ _ _) (fun _ => Sync.seq (disp_getCM _ _) (fun _ => Sync.seq (Sync.lift _) (fun _ =>
    Sync.bind (disp_ravel hB _) (fun _ _ h => Sync.pure (by rw [h.zip ho nanSub_less])))))) (Sync.pure rfl)

theorem disp_responseColumn (hB : IgnoresRecords B) {bpms : List Nat} {o o' : List (Option K)}
    (ho : VecLess (allLess d (readBpms bp (some bpms)) nt) o o') (rows : Nat) (mode : String) (n : Nat) (sk : Bool) (cm : Nat) (start amp : K) :
    Sync (Displaced d bp nt) Eq (responseColumn E B o bpms rows mode n sk cm start amp) (responseColumn E B o' bpms rows mode n sk cm start amp) := by
  unfold responseColumn
  refine Sync.seq (disp_kickAmplitude hB ho _ _ _ _) (fun x => Sync.ite (Sync.throw _) (Sync.ite (Sync.throw _)
    (Sync.seq (Sync.mapEach (fun _ _ => disp_kickStep hB ho _ _ _ _ _)) (fun steps => ?_))))
  rw [ho.2.1, ← ho.1]
  split
  · exact Sync.ite (Sync.throw _) (Sync.ite (Sync.throw _) (Sync.seq (disp_setCM _ _ _ _) (fun _ => Sync.pure rfl)))
  · exact Sync.throw _

theorem disp_responseMatrix (hB : IgnoresRecords B) (amp : List K × List K) (bpms : List Nat) (cms : List Nat × List Nat) (mode : String) (n : Nat) :
    Sync (Displaced d bp nt) Eq (responseMatrix E B amp bpms cms mode n) (responseMatrix E B amp bpms cms mode n) := by
  unfold responseMatrix
  refine Sync.bind Sync.get (fun u v huv => ?_)
  rw [huv.injection]
  refine Sync.ite (Sync.throw _) (Sync.bind (disp_ravel hB _) (fun o o' ho => ?_))
  rw [ho.none]
  refine Sync.ite (Sync.throw _) ?_
  have plane : ∀ rows sk l a, Sync (Displaced d bp nt) Eq (responsePlane E B o bpms rows mode n sk l a) (responsePlane E B o' bpms rows mode n sk l a) :=
    fun rows sk l a => Sync.seq (disp_getCM _ _) (fun _ => Sync.mapEach (fun _ _ => disp_responseColumn hB ho _ _ _ _ _ _ _))
  exact Sync.seq (plane _ _ _ _) (fun _ => Sync.seq (plane _ _ _ _) (fun _ => Sync.pure rfl))

end

theorem Sync.same_but_offsets {α : Type} {d : Nat → Nat → K} {bp : List Nat} {nt : Nat} {m : Py (SC K) α} (hm : Sync (Displaced d bp nt) Eq m m)
    {s t : SC K} (h : Displaced d bp nt s t) :
    (m s).value? = (m t).value? ∧ (m s).err? = (m t).err? ∧ SameButOffsets (m s).state (m t).state := by
  obtain ⟨h1, h2, h3⟩ := hm.sameRun s t h
  exact ⟨h1, h2, h3.offs⟩

/-- **C128** The offsets of the BPMs do not enter the measured closed orbit response matrix: with the same random numbers it is the same, or
the same exception is raised. -/
theorem C128_orbit_response (E : Env K) {B : BeamEnv K} (hB : IgnoresRecords B) {s t : SC K} (h : SameButOffsets s t) (bpms : List Nat)
    (cms : List Nat × List Nat) (isInt : Bool) (dkick : K) :
    (measureOrbitResponse E B bpms cms isInt dkick s).value? = (measureOrbitResponse E B bpms cms isInt dkick t).value? ∧
    (measureOrbitResponse E B bpms cms isInt dkick s).err? = (measureOrbitResponse E B bpms cms isInt dkick t).err? ∧
    SameButOffsets (measureOrbitResponse E B bpms cms isInt dkick s).state (measureOrbitResponse E B bpms cms isInt dkick t).state := by
  have h' : SameButOffsets { s with INJ := { s.INJ with trackMode := "ORB" } } { t with INJ := { t.INJ with trackMode := "ORB" } } := by
    refine ⟨?_, h.length, h.attr, h.pairs⟩
    conv_lhs => rw [h.same]
  have e : ∀ u : SC K, measureOrbitResponse E B bpms cms isInt dkick u = (ravelReading E B bpms >>= fun orbit0 =>
      mapEach (cms.1.map (fun c => (false, c)) ++ cms.2.map (fun c => (true, c))) (orbitColumn E B bpms isInt dkick orbit0))
      { u with INJ := { u.INJ with trackMode := "ORB" } } := fun u => rfl
  rw [e s, e t]
  generalize cms.1.map (fun c => (false, c)) ++ cms.2.map (fun c => (true, c)) = l
  have key : ∀ d bp nt, Sync (Displaced d bp nt) Eq (ravelReading E B bpms >>= fun orbit0 => mapEach l (orbitColumn E B bpms isInt dkick orbit0))
      (ravelReading E B bpms >>= fun orbit0 => mapEach l (orbitColumn E B bpms isInt dkick orbit0)) := fun d bp nt =>
    Sync.bind (disp_ravel hB bpms) (fun o o' ho => Sync.mapEach (fun c _ => disp_orbitColumn hB ho _ _ _))
  exact Sync.same_but_offsets (key _ _ _) (h'.displaced (by simp))

/-- **C128** The offsets of the BPMs do not enter the measured dispersion. -/
theorem C128_dispersion (E : Env K) {B : BeamEnv K} (hB : IgnoresRecords B) {s t : SC K} (h : SameButOffsets s t) (hm : s.INJ.trackMode ≠ "PORB")
    (isInt : Bool) (step : K) (bpms cavs : Option (List Nat)) (n : Nat) :
    (dispersion E B isInt step bpms cavs n s).value? = (dispersion E B isInt step bpms cavs n t).value? ∧
    (dispersion E B isInt step bpms cavs n s).err? = (dispersion E B isInt step bpms cavs n t).err? ∧
    SameButOffsets (dispersion E B isInt step bpms cavs n s).state (dispersion E B isInt step bpms cavs n t).state :=
  Sync.same_but_offsets (disp_dispersion hB _ _ _ _ _) (h.displaced hm)

/-- **C128** The offsets of the BPMs do not enter the measured response matrix, although the kicks are chosen from readings. -/
theorem C128_response_matrix (E : Env K) {B : BeamEnv K} (hB : IgnoresRecords B) {s t : SC K} (h : SameButOffsets s t) (hm : s.INJ.trackMode ≠ "PORB")
    (amp : List K × List K) (bpms : List Nat) (cms : List Nat × List Nat) (mode : String) (n : Nat) :
    (responseMatrix E B amp bpms cms mode n s).value? = (responseMatrix E B amp bpms cms mode n t).value? ∧
    (responseMatrix E B amp bpms cms mode n s).err? = (responseMatrix E B amp bpms cms mode n t).err? ∧
    SameButOffsets (responseMatrix E B amp bpms cms mode n s).state (responseMatrix E B amp bpms cms mode n t).state :=
  Sync.same_but_offsets (disp_responseMatrix hB _ _ _ _ _) (h.displaced hm)

/-! ### Examples -/

theorem Example.thread_ignores : IgnoresRecords Example.thread := by
  intro r r' h
  have e1 : vecAt r 1 "KickAngle" = vecAt r' 1 "KickAngle" := by unfold vecAt; rw [h.attr 1 "KickAngle" (by decide)]
  have e2 : numAt r 3 "Frequency" = numAt r' 3 "Frequency" := by unfold numAt; rw [h.attr 3 "Frequency" (by decide)]
  have e3 : ∀ i, Example.skewDipole r i = Example.skewDipole r' i := fun i => by
    unfold Example.skewDipole vecAt
    rw [h.attr i "PassMethod" (by decide), h.attr i "PolynomA" (by decide)]
  have ex : Example.opticalX r = Example.opticalX r' := by funext i; simp only [Example.opticalX, e1, e2]
  have ey : Example.opticalY r = Example.opticalY r' := by funext i; simp only [Example.opticalY, e1, e3]
  exact ⟨by funext Z i t; simp only [Example.thread, Example.opticalBeam, ex, ey], by funext i; simp only [Example.thread, Example.opticalBeam, ex, ey]⟩

/-- noisy BPMs, one of them with a calibration error, which is moved in the second machine -/
def Example.murmur : SC ℚ := { Example.replay with
  INJ := { Example.replay.INJ with nTurns := 1 }
  RING := ((Example.replay.RING.setAttr 4 "Noise" (.vec [1/1000, 1/2000])).setAttr 0 "NoiseCO" (.vec [1/3000, 0])).setAttr 4 "CalError" (.vec [1/10, 0]) }

def Example.nudged : SC ℚ := { Example.murmur with RING := Example.murmur.RING.setAttr 4 "Offset" (.vec [1/100, -1/50]) }

def Example.throws : Env ℚ := { Example.rand with randn := fun k => if k % 5 = 0 then 1/2 else if k % 2 = 1 then -1/3 else 1 }

-- the BPM reads less horizontally by 1/100 with its calibration, more vertically by 1/50
example : SameButOffsets Example.murmur Example.nudged ∧ Example.murmur.INJ.trackMode ≠ "PORB" ∧
    lessBy Example.murmur.RING Example.nudged.RING 4 0 = 11/1000 ∧ lessBy Example.murmur.RING Example.nudged.RING 4 1 = -1/50 ∧
    lessBy Example.murmur.RING Example.nudged.RING 0 0 = 0 ∧
    (bpmReading Example.throws Example.thread none true Example.murmur).isOk ∧
    (bpmReading Example.throws Example.thread none true Example.murmur).value?.map (fun r => r.x) ≠
      (bpmReading Example.throws Example.thread none true Example.nudged).value?.map (fun r => r.x) := by
  refine ⟨⟨rfl, by decide +kernel, fun i a h1 h2 => ?_, fun i hi => ?_⟩, by decide +kernel, by decide +kernel, by decide +kernel, by decide +kernel,
    by decide +kernel, by decide +kernel⟩
  · exact (Ring.attr_setAttr_ne h1).symm
  · have hi : i = 0 ∨ i = 4 := by simpa [Example.murmur, Example.replay, Example.clean] using hi
    rcases hi with rfl | rfl
    · exact ⟨⟨0, 0, by decide +kernel⟩, ⟨0, 0, by decide +kernel⟩, ⟨0, 0, by decide +kernel⟩, ⟨0, 0, by decide +kernel⟩⟩
    · exact ⟨⟨0, 0, by decide +kernel⟩, ⟨0, 0, by decide +kernel⟩, ⟨1/100, -1/50, by decide +kernel⟩, ⟨0, 0, by decide +kernel⟩⟩

-- the orbit response, the dispersion and the response matrix are those of the BPM which has not been moved
example :
    (measureOrbitResponse Example.throws Example.thread [0, 4] ([1], [1, 2]) false (1/2000) Example.nudged).isOk ∧
    (dispersion Example.throws Example.thread false 10 (some [0, 4]) (some [3]) 2 Example.nudged).isOk ∧
    (responseMatrix Example.throws Example.thread ([1/2000], [1/2000, 1/2000]) [0, 4] ([1], [1, 2]) "fixedKick" 1 Example.nudged).isOk := by
  decide +kernel

end PySC
