import Verif.Spec.BpmSubset
import Verif.Lemmas.Noiseless
import Verif.Lemmas.Measurement
/-
Without noise the readings of some BPMs are part of the readings of all of them.
-/
namespace PySC
set_option linter.unusedSectionVars false
open Py Spec

/-! ### One run follows another one -/

/-- if the first method returns, so does the second one on a related state, with related values and states -/
def Follows {σ α β : Type _} (R : σ → σ → Prop) (V : α → β → Prop) (m : Py σ α) (m' : Py σ β) : Prop :=
  ∀ s t, R s t → ∀ a s', m s = .ok a s' → ∃ b t', m' t = .ok b t' ∧ V a b ∧ R s' t'

namespace Follows
variable {σ α β γ δ : Type _} {R : σ → σ → Prop} {V : α → β → Prop} {W : γ → δ → Prop}

theorem of_sync {m : Py σ α} {m' : Py σ β} (h : Sync R V m m') : Follows R V m m' := by
  intro s t hr a s' e
  rcases h s t hr with ⟨a', b, s'', t', h1, h2, hv, hr'⟩ | ⟨e', s'', t', h1, -, -⟩
  · rw [e] at h1; cases h1; exact ⟨b, t', h2, hv, hr'⟩
  · rw [e] at h1; cases h1

theorem bind {m : Py σ α} {m' : Py σ β} {f : α → Py σ γ} {f' : β → Py σ δ} (hm : Follows R V m m') (hf : ∀ a b, V a b → Follows R W (f a) (f' b)) :
    Follows R W (m >>= f) (m' >>= f') := by
  intro s t hr c s'' e
  obtain ⟨a, s', h1, h2⟩ := bind_eq_ok.1 e
  obtain ⟨b, t', h3, hv, hr'⟩ := hm s t hr a s' h1
  obtain ⟨d, t'', h4, hw, hr''⟩ := hf a b hv s' t' hr' c s'' h2
  exact ⟨d, t'', bind_eq_ok.2 ⟨b, t', h3, h4⟩, hw, hr''⟩

theorem pure {a : α} {b : β} (h : V a b) : Follows R V (Py.pure a) (Py.pure b) := of_sync (Sync.pure h)
theorem throw (e : Err) (m' : Py σ β) : Follows R V (Py.throw e) m' := fun _ _ _ _ _ h => by cases h
theorem get : Follows R R Py.get Py.get := of_sync Sync.get

theorem seq {m m' : Py σ α} {f : α → Py σ γ} {f' : α → Py σ δ} (hm : Sync R Eq m m') (hf : ∀ a, Follows R W (f a) (f' a)) :
    Follows R W (m >>= f) (m' >>= f') := bind (of_sync hm) (fun a b h => by subst h; exact hf a)

theorem mapEach {ι : Type} {l : List ι} {f : ι → Py σ α} {f' : ι → Py σ β} (hf : ∀ x ∈ l, Follows R V (f x) (f' x)) :
    Follows R (List.Forall₂ V) (Py.mapEach l f) (Py.mapEach l f') := by
  induction l with
  | nil => exact pure List.Forall₂.nil
  | cons x l ih =>
    exact bind (hf x (by simp)) (fun a b hab => bind (ih (fun y hy => hf y (by simp [hy]))) (fun _ _ h => pure (List.Forall₂.cons hab h)))

end Follows

/-! ### Choosing -/

section
variable {α β γ : Type} {all part : List Nat}

theorem chosen_flatten {nt : Nat} {f g : Nat → Nat → α} (h : ∀ b b' i, all[b]? = some i → part[b']? = some i → ∀ t < nt, f b t = g b' t) :
    Chosen all part (flatten2 all.length nt f) (flatten2 part.length nt g) := by
  refine ⟨nt, flatten2_length _ _ _, flatten2_length _ _ _, fun t ht b b' i hb hb' => ?_⟩
  rw [flatten2_get _ (List.getElem?_eq_some_iff.1 hb').1 ht, flatten2_get _ (List.getElem?_eq_some_iff.1 hb).1 ht, h b b' i hb hb' t ht]

theorem chosen_tabulate {nt : Nat} {f g : Nat → Nat → Except Err α} (hs : ∀ i ∈ part, i ∈ all)
    (h : ∀ b b' i, all[b]? = some i → part[b']? = some i → ∀ t < nt, f b t = g b' t) {l : List α} (hl : tabulate all.length nt f = .ok l) :
    ∃ l', tabulate part.length nt g = .ok l' ∧ Chosen all part l l' := by
  obtain ⟨h1, h2⟩ := tabulate_eq_ok hl
  obtain ⟨l', hl'⟩ : ∃ l', tabulate part.length nt g = .ok l' := by
    refine tabulate_total (fun b' hb' t ht => ?_)
    obtain ⟨b, hb⟩ := List.mem_iff_getElem?.1 (hs _ (List.getElem_mem hb'))
    obtain ⟨y, hy, -⟩ := h2 b t (List.getElem?_eq_some_iff.1 hb).1 ht
    rw [h b b' _ hb (List.getElem?_eq_getElem hb') t ht] at hy
    exact ⟨y, hy⟩
  obtain ⟨h3, h4⟩ := tabulate_eq_ok hl'
  refine ⟨l', hl', nt, h1, h3, fun t ht b b' i hb hb' => ?_⟩
  obtain ⟨y, hy, hy'⟩ := h2 b t (List.getElem?_eq_some_iff.1 hb).1 ht
  obtain ⟨z, hz, hz'⟩ := h4 b' t (List.getElem?_eq_some_iff.1 hb').1 ht
  rw [h b b' i hb hb' t ht, hz] at hy
  cases hy
  rw [hy', hz']

theorem Spec.Chosen.append {x y x' y' : List α} (hx : Chosen all part x x') (hy : Chosen all part y y') : Chosen all part (x ++ y) (x' ++ y') := by
  obtain ⟨n, a1, a2, a3⟩ := hx
  obtain ⟨m, b1, b2, b3⟩ := hy
  refine ⟨n + m, by rw [List.length_append, a1, b1]; ring, by rw [List.length_append, a2, b2]; ring, fun t ht b b' i hb hb' => ?_⟩
  have hbl := (List.getElem?_eq_some_iff.1 hb).1
  have hbl' := (List.getElem?_eq_some_iff.1 hb').1
  by_cases h : t < n
  · rw [List.getElem?_append_left (by rw [a2]; exact index_lt h hbl'), List.getElem?_append_left (by rw [a1]; exact index_lt h hbl)]
    exact a3 t h b b' i hb hb'
  · obtain ⟨k, rfl⟩ : ∃ k, t = n + k := ⟨t - n, by omega⟩
    rw [List.getElem?_append_right (by rw [a2, Nat.add_mul]; omega), List.getElem?_append_right (by rw [a1, Nat.add_mul]; omega), a1, a2,
      show (n + k) * part.length + b' - n * part.length = k * part.length + b' by rw [Nat.add_mul]; omega,
      show (n + k) * all.length + b - n * all.length = k * all.length + b by rw [Nat.add_mul]; omega]
    exact b3 k (by omega) b b' i hb hb'

theorem Spec.Chosen.zipWith {x y : List α} {x' y' : List α} (f : α → α → β) (hx : Chosen all part x x')
    (hy : Chosen all part y y') : Chosen all part (List.zipWith f x y) (List.zipWith f x' y') := by
  obtain ⟨n, a1, a2, a3⟩ := hx
  obtain ⟨m, b1, b2, b3⟩ := hy
  have key : ∀ k, min (n * k) (m * k) = min n m * k := fun k => by
    rcases Nat.le_total n m with h | h
    · rw [Nat.min_eq_left h, Nat.min_eq_left (Nat.mul_le_mul_right k h)]
    · rw [Nat.min_eq_right h, Nat.min_eq_right (Nat.mul_le_mul_right k h)]
  refine ⟨min n m, by rw [List.length_zipWith, a1, b1, key], by rw [List.length_zipWith, a2, b2, key],
    fun t ht b b' i hb hb' => ?_⟩
  rw [List.getElem?_zipWith, List.getElem?_zipWith, a3 t (by omega) b b' i hb hb', b3 t (by omega) b b' i hb hb']

end

/-! ### Readings -/

section
variable {K : Type} [Field K] [LinearOrder K] [FloorRing K] [IsStrictOrderedRing K]
variable {B : BeamEnv K} {bp : List Nat} {E : Env K} {all part : List Nat}

/-- the cells of the same BPM are equal -/
def SameCells (all part : List Nat) (nt : Nat) (c c' : Nat → Nat → Cell K) : Prop :=
  ∀ b b' i, all[b]? = some i → part[b']? = some i → ∀ t < nt, c b t = c' b' t

theorem follow_tracking (hE : Delivers E) (h0 : B.sqrt 0 = some 0) (all part : List Nat) :
    Sync (Calm Eq B bp) (fun trk trk' => ∃ P : Nat → Nat → List (Option K × Option K), trk = (fun b t => P (all.getD b 0) t) ∧
      trk' = fun b t => P (part.getD b 0) t) (tracking E B all) (tracking E B part) := by
  unfold tracking
  refine Sync.bind Sync.get (fun s t h => ?_)
  rw [h.inj, h.ring]
  exact Sync.ite (Sync.pure ⟨fun i _ => [maskY (B.orbit s.RING i)], rfl, rfl⟩)
    (Sync.seq (calm_bunches hE h0 _) (fun Z => Sync.pure ⟨fun i t => (B.track s.RING Z i t).map maskY, rfl, rfl⟩))

/-- BPMs without noise give a reading if their data are there and the beam is -/
theorem quiet_reads (hE : Delivers E) {s : SC K} (hq : Noiseless B s) (hp : ∀ i ∈ part, i ∈ s.ORD.BPM) {e : Nat → BpmErr K}
    (he : ∀ i ∈ part, BpmAt s.RING (if s.INJ.trackMode = "ORB" then "NoiseCO" else "Noise") i (e i)) {nt : Nat}
    {P : Nat → Nat → List (Option K × Option K)} (hf : ∀ i ∈ part, ∀ t < nt, cellInfinite (e i) (P i t) 0 = false) :
    ∃ c s', realBpmReading E B part nt (fun b t => P (part.getD b 0) t) s = .ok c s' ∧
      ∀ b i, part[b]? = some i → ∀ t < nt, c b t = realReading1 B s.INJ.beamLostAt (e i) (P i t) 0 0 0 := by
  have zero : ∀ i ∈ part, (e i).noise = (0, 0) ∧ (e i).sum = 0 := by
    intro i hi
    have h1 := hq.bpms i (hp i hi)
    have h2 := (he i hi).noise
    have h3 := (he i hi).sum
    rw [h1.2.2] at h3
    simp only [Option.some.injEq, Attr.num.injEq] at h3
    refine ⟨?_, h3.symm⟩
    split at h2
    · rw [h1.2.1] at h2
      simp only [Option.some.injEq, Attr.vec.injEq, List.cons.injEq, and_true] at h2
      exact Prod.ext h2.1.symm h2.2.symm
    · rw [h1.1] at h2
      simp only [Option.some.injEq, Attr.vec.injEq, List.cons.injEq, and_true] at h2
      exact Prod.ext h2.1.symm h2.2.symm
  have run : ∃ c s', realBpmReading E B part nt (fun b t => P (part.getD b 0) t) s = .ok c s' := by
    obtain ⟨noise, hn⟩ : ∃ w, part.mapM (fun i => s.RING.getPair i (if s.INJ.trackMode = "ORB" then "NoiseCO" else "Noise")) = .ok w :=
      mapM_except_total (fun i hi => ⟨_, Ring.getPair_eq_ok.2 (he i hi).noise⟩)
    obtain ⟨p, hz⟩ := hE 2 (Or.inl rfl) (2 * part.length * nt) s.rng
    have h1 : randnc E 2 (2 * part.length * nt) s = .ok p.1 { s with rng := p.2 } := by unfold randnc; rw [hz]
    obtain ⟨q, hz'⟩ := hE 2 (Or.inl rfl) (part.length * nt) p.2
    have h2 : randnc E 2 (part.length * nt) { s with rng := p.2 } = .ok q.1 { s with rng := q.2 } := by unfold randnc; rw [hz']
    obtain ⟨hnl, hn'⟩ := mapM_except_eq_ok hn
    obtain ⟨errs, herr⟩ : ∃ w, (part.zip noise).mapM (fun (i, n) => do
        let o ← s.RING.getPair i "Offset"
        let so ← s.RING.getPair i "SupportOffset"
        let c ← s.RING.getPair i "CalError"
        let ro ← s.RING.getNum i "Roll"
        let sr ← s.RING.getNum i "SupportRoll"
        let su ← s.RING.getNum i "SumError"
        .ok { noise := n, offset := (o.1 + so.1, o.2 + so.2), cal := c, roll := ro + sr, sum := su : BpmErr K }) = .ok w :=
      mapM_except_total (fun p hp => by
        have he := he p.1 (List.of_mem_zip hp).1
        obtain ⟨ox, oy, sx, sy, h1, h2, -⟩ := he.offset
        obtain ⟨a, b, h3, h4, -⟩ := he.roll
        have g1 : s.RING.getPair p.1 "Offset" = .ok (ox, oy) := Ring.getPair_eq_ok.2 h1
        have g2 : s.RING.getPair p.1 "SupportOffset" = .ok (sx, sy) := Ring.getPair_eq_ok.2 h2
        have g3 : s.RING.getPair p.1 "CalError" = .ok (e p.1).cal := Ring.getPair_eq_ok.2 he.cal
        have g4 : s.RING.getNum p.1 "Roll" = .ok a := Ring.getNum_eq_ok.2 h3
        have g5 : s.RING.getNum p.1 "SupportRoll" = .ok b := Ring.getNum_eq_ok.2 h4
        have g6 : s.RING.getNum p.1 "SumError" = .ok (e p.1).sum := Ring.getNum_eq_ok.2 he.sum
        simp only [g1, g2, g3, g4, g5, g6]
        exact ⟨_, rfl⟩)
    unfold realBpmReading
    refine ⟨fun b t => realReading1 B s.INJ.beamLostAt (errs.getD b ⟨(0, 0), (0, 0), (0, 0), 0, 0⟩) (P (part.getD b 0) t) (p.1.getD (b * nt + t) 0)
      (p.1.getD (part.length * nt + b * nt + t) 0) (q.1.getD (b * nt + t) 0), { s with rng := q.2 }, bindGet_eq_ok.2 (bindRd_eq_ok.2 ⟨noise, hn, bind_eq_ok.2 ⟨_, _, h1, bindRd_eq_ok.2 ⟨errs, herr, bind_eq_ok.2 ⟨_, _, h2, ?_⟩⟩⟩⟩)⟩
    dsimp only
    rw [if_neg]
    · rfl
    · rw [Bool.not_eq_true, List.any_eq_false]
      intro b hb
      rw [Bool.not_eq_true, List.any_eq_false]
      intro t ht
      rw [Bool.not_eq_true]
      have hb1 := List.mem_range.1 hb
      have hmem := List.getElem_mem hb1
      obtain ⟨hel, he'⟩ := mapM_except_eq_ok herr
      obtain ⟨n, hn2, hn1⟩ := hn' b part[b] (List.getElem?_eq_getElem hb1)
      obtain ⟨y, hy1, hy2⟩ := he' b (part[b], n) (by rw [List.getElem?_zip_eq_some]; exact ⟨List.getElem?_eq_getElem hb1, hn1⟩)
      simp only [Except.bind_eq_ok', Ring.getPair_eq_ok, Ring.getNum_eq_ok] at hy1
      obtain ⟨o, ho, so, hso, cc, hcc, ro, hro, sr, hsr, su, hsu, hy1⟩ := hy1
      cases hy1
      have hat : BpmAt s.RING (if s.INJ.trackMode = "ORB" then "NoiseCO" else "Noise") part[b]
          ⟨n, (o.1 + so.1, o.2 + so.2), cc, ro + sr, su⟩ :=
        ⟨Ring.getPair_eq_ok.1 hn2, ⟨o.1, o.2, so.1, so.2, ho, hso, rfl⟩, ⟨ro, sr, hro, hsr, rfl⟩, hcc, hsu⟩
      rw [List.getD_eq_getElem?_getD, hy2, Option.getD_some, getD_lt _ _ hb1, ← BpmAt_unique (he _ hmem) hat,
        cellInfinite_quiet (zero _ hmem).2 _ _ 0]
      exact hf _ hmem t (List.mem_range.1 ht)
  obtain ⟨c, s', hc⟩ := run
  refine ⟨c, s', hc, fun b i hb t ht => ?_⟩
  obtain ⟨-, e', z, h1, -, h3⟩ := realBpmReading_ok hc
  have hi : i ∈ part := List.mem_of_getElem? hb
  have := (h3 b t (List.getElem?_eq_some_iff.1 hb).1 ht).1
  rw [← BpmAt_unique (he i hi) (h1 b i hb), getD_of hb] at this
  rw [this]
  exact realReading1_quiet (zero i hi).1 (zero i hi).2 _ _ _ _ _ _ _

theorem follow_realReading (hE : Delivers E) (hall : ∀ i ∈ all, i ∈ bp) (hs : ∀ i ∈ part, i ∈ all) (nt : Nat)
    (P : Nat → Nat → List (Option K × Option K)) :
    Follows (Calm Eq B bp) (SameCells all part nt) (realBpmReading E B all nt (fun b t => P (all.getD b 0) t))
      (realBpmReading E B part nt (fun b t => P (part.getD b 0) t)) := by
  intro s u h c s' hc
  obtain ⟨o1, e, z, h1, -, h3⟩ := realBpmReading_ok hc
  have hq := h.other.1
  have hinj : u.INJ = s.INJ := by rw [h.inj, ← h.shots]
  -- the errors of a BPM by its ordinate
  have key : ∀ i ∈ part, ∃ y, BpmAt u.RING (if u.INJ.trackMode = "ORB" then "NoiseCO" else "Noise") i y ∧
      ∀ t < nt, cellInfinite y (P i t) 0 = false := by
    intro i hi
    obtain ⟨b, hb⟩ := List.mem_iff_getElem?.1 (hs i hi)
    have hbl := (List.getElem?_eq_some_iff.1 hb).1
    have ha := h1 b i hb
    rw [← h.ring, ← hinj] at ha
    refine ⟨e b, ha, fun t ht => ?_⟩
    have hsum : (e b).sum = 0 := by
      have h5 := ha.sum
      rw [(hq.bpms i (by rw [h.other.2]; exact hall i (hs i hi))).2.2] at h5
      simp only [Option.some.injEq, Attr.num.injEq] at h5
      exact h5.symm
    have := (h3 b t hbl ht).2
    rw [getD_of hb, cellInfinite_quiet hsum _ _ 0] at this
    exact this
  choose! y hy using key
  obtain ⟨c', u', g1, g2⟩ := quiet_reads hE hq (fun i hi => by rw [h.other.2]; exact hall i (hs i hi)) (fun i hi => (hy i hi).1)
    (fun i hi t ht => (hy i hi).2 t ht)
  refine ⟨c', u', g1, ?_, ?_⟩
  · intro b b' i hb hb' t ht
    have hi : i ∈ part := List.mem_of_getElem? hb'
    rw [g2 b' i hb' t ht]
    obtain ⟨c2, s2, k1, k2⟩ := quiet_reads hE h.quiet (part := all) (nt := nt) (P := P) (e := fun i => if hi : i ∈ all then e (all.idxOf i) else e 0)
      (fun i hi => by rw [h.bpm]; exact hall i hi) (fun i hi => by
        simp only [hi, dite_true]
        exact h1 _ i (List.getElem?_idxOf hi)) (fun i hi t ht => by
        simp only [hi, dite_true]
        have hsum : (e (all.idxOf i)).sum = 0 := by
          have h5 := (h1 _ i (List.getElem?_idxOf hi)).sum
          rw [(h.quiet.bpms i (by rw [h.bpm]; exact hall i hi)).2.2] at h5
          simp only [Option.some.injEq, Attr.num.injEq] at h5
          exact h5.symm
        have := (h3 _ t (List.getElem?_eq_some_iff.1 (List.getElem?_idxOf hi)).1 ht).2
        rw [getD_of (List.getElem?_idxOf hi), cellInfinite_quiet hsum _ _ 0] at this
        exact this)
    rw [hc] at k1
    cases k1
    have hia := hs i hi
    have := k2 b i hb t ht
    simp only [hia, dite_true] at this
    rw [this, hinj]
    congr 1
    have a1 := h1 _ i (List.getElem?_idxOf hia)
    have a2 := (hy i hi).1
    rw [h.ring, hinj] at a2
    exact BpmAt_unique a1 a2
  · have o2 := (realBpmReading_onlyRng E B part nt (fun b t => P (part.getD b 0) t)).ok g1
    exact h.steps ((Calm.refl h.quiet h.bpm).step o1) ((Calm.refl hq h.other.2).step o2)

theorem porbAverage_congr {nt : Nat} {v v' : Nat → Option K} {w w' : Nat → K} (hv : ∀ t < nt, v t = v' t) (hw : ∀ t < nt, w t = w' t) :
    porbAverage nt v w = porbAverage nt v' w' := by
  have e1 : (List.range nt).map w = (List.range nt).map w' := List.map_congr_left (fun t ht => hw t (List.mem_range.1 ht))
  have e2 : (List.range nt).filterMap (fun t => (v t).map (fun x => x * w t)) = (List.range nt).filterMap (fun t => (v' t).map (fun x => x * w' t)) :=
    List.filterMap_congr (fun t ht => by rw [hv t (List.mem_range.1 ht), hw t (List.mem_range.1 ht)])
  unfold porbAverage
  rw [e1, e2]

theorem cells_shots {nt : Nat} {l l' : List (Nat → Nat → Cell K)} (h : List.Forall₂ (SameCells all part nt) l l') {b b' i : Nat} (hb : all[b]? = some i)
    (hb' : part[b']? = some i) {t : Nat} (ht : t < nt) {α : Type} (f : Cell K → α) : l.map (fun c => f (c b t)) = l'.map (fun c => f (c b' t)) := by
  induction h with
  | nil => rfl
  | cons h1 _ ih => rw [List.map_cons, List.map_cons, ih, h1 b b' i hb hb' t ht]

theorem follow_reading (hE : Delivers E) (h0 : B.sqrt 0 = some 0) {req req' : Option (List Nat)} (ha : registeredBpms bp req = .ok all)
    (hp : registeredBpms bp req' = .ok part) (hs : ∀ i ∈ part, i ∈ all) (ce : Bool) :
    Follows (Calm Eq B bp) (ChosenReading all part) (bpmReading E B req ce) (bpmReading E B req' ce) := by
  have hall : ∀ i ∈ all, i ∈ bp := fun i hi => (registeredBpms_ok ha).1.subset hi
  unfold bpmReading
  refine Follows.bind Follows.get (fun s t h => ?_)
  have hinj : t.INJ = s.INJ := by rw [h.inj, ← h.shots]
  rw [hinj, h.ord, h.bpm, ha, hp]
  have e : ∀ (l : List Nat) (f : List Nat → Py (SC K) (Reading K)), (Py.lift (Except.ok l) >>= f) = f l := fun l f => rfl
  rw [e, e]
  dsimp only
  refine Follows.bind (V := List.Forall₂ (SameCells all part s.INJ.nTurns)) (Follows.mapEach (fun _ _ => ?_)) (fun shots shots' hsh => ?_)
  · refine Follows.bind (Follows.of_sync (follow_tracking hE h0 all part)) ?_
    rintro trk trk' ⟨P, rfl, rfl⟩
    by_cases hm : s.INJ.trackMode = "ORB"
    · rw [if_pos hm, if_pos hm]
      exact Follows.bind (follow_realReading hE hall hs 1 P) (fun c c' hc => Follows.pure (fun b b' i hb hb' t _ => hc b b' i hb hb' 0 (by omega)))
    · rw [if_neg hm, if_neg hm]
      exact follow_realReading hE hall hs _ P
  · have hx : ∀ b b' i, all[b]? = some i → part[b']? = some i → ∀ t < s.INJ.nTurns,
        shots.map (fun c => ((c b t).x, (c b t).sum)) = shots'.map (fun c => ((c b' t).x, (c b' t).sum)) :=
      fun b b' i hb hb' t ht => cells_shots hsh hb hb' ht (fun c => (c.x, c.sum))
    have hy : ∀ b b' i, all[b]? = some i → part[b']? = some i → ∀ t < s.INJ.nTurns,
        shots.map (fun c => ((c b t).y, (c b t).sum)) = shots'.map (fun c => ((c b' t).y, (c b' t).sum)) :=
      fun b b' i hb hb' t ht => cells_shots hsh hb hb' ht (fun c => (c.y, c.sum))
    have hz : ∀ b b' i, all[b]? = some i → part[b']? = some i → ∀ t < s.INJ.nTurns,
        shots.map (fun c => (c b t).sum) = shots'.map (fun c => (c b' t).sum) :=
      fun b b' i hb hb' t ht => cells_shots hsh hb hb' ht (fun c => c.sum)
    split
    · exact Follows.throw _ _
    split
    · have porb : ∀ (f : Cell K → Option K × Option K), (∀ b b' i, all[b]? = some i → part[b']? = some i → ∀ t < s.INJ.nTurns,
          shots.map (fun c => f (c b t)) = shots'.map (fun c => f (c b' t))) → ∀ b b' i, all[b]? = some i → part[b']? = some i → ∀ t < 1,
          porbAverage s.INJ.nTurns (fun t => maskedAverage (shots.map (fun c => f (c b t)))) (fun t => nansum (shots.map (fun c => (c b t).sum)) / (s.INJ.nShots : K)) =
          porbAverage s.INJ.nTurns (fun t => maskedAverage (shots'.map (fun c => f (c b' t)))) (fun t => nansum (shots'.map (fun c => (c b' t).sum)) / (s.INJ.nShots : K)) := by
        intro f hf b b' i hb hb' _ _
        exact porbAverage_congr (fun t ht => by rw [hf b b' i hb hb' t ht]) (fun t ht => by rw [hz b b' i hb hb' t ht])
      intro u v huv a u' hu
      obtain ⟨x, hx1, hu⟩ := bindLift_eq_ok.1 hu
      obtain ⟨y, hy1, hu⟩ := bindLift_eq_ok.1 hu
      cases hu
      obtain ⟨x', hx2, hx3⟩ := chosen_tabulate (part := part) hs (porb (fun c => (c.x, c.sum)) hx) hx1
      obtain ⟨y', hy2, hy3⟩ := chosen_tabulate (part := part) hs (porb (fun c => (c.y, c.sum)) hy) hy1
      refine ⟨_, _, bindLift_eq_ok.2 ⟨x', hx2, bindLift_eq_ok.2 ⟨y', hy2, rfl⟩⟩, ⟨hx3, hy3, ?_, Or.inl ⟨rfl, rfl⟩⟩, huv⟩
      dsimp only
      refine chosen_flatten (fun b b' i hb hb' _ _ => ?_)
      congr 2
      exact List.map_congr_left (fun t ht => by rw [hz b b' i hb hb' t (List.mem_range.1 ht)])
    have fx := chosen_flatten (nt := s.INJ.nTurns) (f := fun b t => maskedAverage (shots.map (fun c => ((c b t).x, (c b t).sum))))
      (g := fun b t => maskedAverage (shots'.map (fun c => ((c b t).x, (c b t).sum)))) (fun b b' i hb hb' t ht => by rw [hx b b' i hb hb' t ht])
    have fy := chosen_flatten (nt := s.INJ.nTurns) (f := fun b t => maskedAverage (shots.map (fun c => ((c b t).y, (c b t).sum))))
      (g := fun b t => maskedAverage (shots'.map (fun c => ((c b t).y, (c b t).sum)))) (fun b b' i hb hb' t ht => by rw [hy b b' i hb hb' t ht])
    have fz := chosen_flatten (nt := s.INJ.nTurns) (f := fun b t => nansum (shots.map (fun c => (c b t).sum)) / (s.INJ.nShots : K))
      (g := fun b t => nansum (shots'.map (fun c => (c b t).sum)) / (s.INJ.nShots : K)) (fun b b' i hb hb' t ht => by rw [hz b b' i hb hb' t ht])
    split
    · intro u v huv a u' hu
      obtain ⟨x, hx1, hu⟩ := bindLift_eq_ok.1 hu
      obtain ⟨y, hy1, hu⟩ := bindLift_eq_ok.1 hu
      cases hu
      obtain ⟨x', hx2, hx3⟩ := chosen_tabulate (part := part) hs (fun b b' i hb hb' t ht => by rw [hx b b' i hb hb' t ht]) hx1
      obtain ⟨y', hy2, hy3⟩ := chosen_tabulate (part := part) hs (fun b b' i hb hb' t ht => by rw [hy b b' i hb hb' t ht]) hy1
      exact ⟨_, _, bindLift_eq_ok.2 ⟨x', hx2, bindLift_eq_ok.2 ⟨y', hy2, rfl⟩⟩, ⟨fx, fy, fz, Or.inr ⟨_, _, rfl, rfl, hx3, hy3⟩⟩, huv⟩
    · exact Follows.pure ⟨fx, fy, fz, Or.inl ⟨rfl, rfl⟩⟩

end
end PySC
