import Verif.Spec.Noiseless
import Verif.Lemmas.Records
import Verif.Lemmas.Beam
import Verif.Lemmas.Orbit
import Mathlib.Tactic.FieldSimp
/-
Without noise the random numbers have no influence.
-/
namespace PySC
set_option linter.unusedSectionVars false
variable {K : Type} [Field K] [LinearOrder K] [FloorRing K]
open Py Spec

/-- two runs on a machine without noise, whose BPMs are `bp`; `N` relates the numbers of shots of a BPM reading -/
structure Calm (N : Nat → Nat → Prop) (B : BeamEnv K) (bp : List Nat) (s t : SC K) : Prop where
  same : t = { s with rng := t.rng, INJ := { s.INJ with nShots := t.INJ.nShots } }
  shots : N s.INJ.nShots t.INJ.nShots
  quiet : Noiseless B s
  bpm : s.ORD.BPM = bp

section
variable {N : Nat → Nat → Prop} {B : BeamEnv K} {bp : List Nat} {E : Env K}

theorem Calm.ring {s t : SC K} (h : Calm N B bp s t) : t.RING = s.RING := by conv_lhs => rw [h.same]
theorem Calm.inj {s t : SC K} (h : Calm N B bp s t) : t.INJ = { s.INJ with nShots := t.INJ.nShots } := by conv_lhs => rw [h.same]
theorem Calm.ord {s t : SC K} (h : Calm N B bp s t) : t.ORD = s.ORD := by conv_lhs => rw [h.same]
theorem Calm.design {s t : SC K} (h : Calm N B bp s t) : t.IDEALRING = s.IDEALRING := by conv_lhs => rw [h.same]

/-- the data of the noise of BPMs -/
def noiseNames : List String := ["Noise", "NoiseCO", "SumError"]

theorem calm_setAttr {a : String} (ha : a ∉ noiseNames) (i : Nat) (v : Attr K) : Sync (Calm N B bp) Eq (setAttr i a v) (setAttr i a v) := by
  intro s t h
  rw [setAttr_run, setAttr_run, h.ring]
  by_cases hi : i < s.RING.length
  · rw [if_pos hi, if_pos hi]
    refine Or.inl ⟨(), (), _, _, rfl, rfl, rfl, ?_, h.shots, ⟨fun j hj => ?_, h.quiet.jitter, h.quiet.point⟩, h.bpm⟩
    · show ({ t with RING := _ } : SC K) = _
      conv_lhs => rw [h.same]
    · have hq := h.quiet.bpms j hj
      have e : ∀ b ∈ noiseNames, (s.RING.setAttr i a v).attr j b = s.RING.attr j b := fun b hb => by
        have : b ≠ a := fun e => ha (e ▸ hb)
        simp [Ring.attr_setAttr, this]
      rw [e "Noise" (by decide), e "NoiseCO" (by decide), e "SumError" (by decide)]
      exact hq
  · rw [if_neg hi, if_neg hi]; exact Or.inr ⟨_, _, _, rfl, rfl, h⟩

theorem calm_rd {α : Type} (f : Ring K → Except Err α) : Sync (Calm N B bp) Eq (rd f) (rd f) := Sync.rd (fun _ _ h => by rw [h.ring])

/-- what is read has a property -/
theorem calm_rdWith {α : Type} {P : α → Prop} (f : Ring K → Except Err α) (hP : ∀ s t, Calm N B bp s t → ∀ a, f s.RING = .ok a → P a) :
    Sync (Calm N B bp) (fun a b => a = b ∧ P a) (rd f) (rd f) := by
  intro s t h
  unfold rd
  rw [h.ring]
  cases hf : f s.RING with
  | ok a => exact Or.inl ⟨a, a, s, t, rfl, rfl, ⟨rfl, hP s t h a hf⟩, h⟩
  | error e => exact Or.inr ⟨e, s, t, rfl, rfl, h⟩

theorem calm_addTerm (i : Nat) (x : Option K) : Sync (Calm N B bp) Eq (addTerm i x) (addTerm i x) := by
  cases x with
  | none => exact Sync.pure rfl
  | some x => exact Sync.seq (calm_rd _) (fun _ => Sync.seq (Sync.lift _) (fun _ => calm_setAttr (by decide) _ _))

theorem calm_updateMagnet (i j : Nat) : Sync (Calm N B bp) Eq (updateMagnet i j) (updateMagnet i j) :=
  Sync.seq (calm_rd _) (fun p => Sync.seq (Sync.forEach (fun a ha => by
      have ha : a = "A" ∨ a = "B" := by simpa using ha
      exact Sync.seq (calm_rd _) (fun v => calm_setAttr (by rcases ha with rfl | rfl <;> decide) _ _)))
    (fun _ => Sync.seq (calm_rd _) (fun x => Sync.seq (calm_addTerm j x) (fun _ =>
      Sync.seq (calm_rd _) (fun y => Sync.seq (calm_addTerm j y) (fun _ =>
      Sync.seq (calm_rd _) (fun pass => Sync.seq (Sync.when (Sync.seq (calm_rd _) (fun _ =>
        calm_setAttr (by decide) _ _))) (fun _ => Sync.seq (calm_rd _) (fun _ => calm_setAttr (by decide) _ _)))))))))

theorem calm_updateMagnets (l : Option (List Nat)) : Sync (Calm N B bp) Eq (updateMagnets l) (updateMagnets l) := by
  unfold updateMagnets
  refine Sync.bind Sync.get (fun s t h => ?_)
  rw [h.ord]
  exact Sync.forEach (fun i _ => Sync.seq (calm_updateMagnet i i) (fun _ => Sync.seq (calm_rd _) (fun ch =>
    Sync.forEach (fun j _ => calm_updateMagnet i j))))

theorem setPoint_calm (sk : Bool) : "SetPoint" ++ letter sk ∉ noiseNames := by cases sk <;> decide

theorem calm_setCM (l : List Nat) (sp : NpArr K) (sk : Bool) (m : String) :
    Sync (Calm N B bp) Eq (setCMSetpoints l sp sk m) (setCMSetpoints l sp sk m) :=
  Sync.seq (Sync.lift _) (fun _ => Sync.seq (Sync.forEach (fun p _ => Sync.seq (calm_rd _) (fun _ =>
    calm_setAttr (setPoint_calm sk) _ _))) (fun _ => calm_updateMagnets _))

theorem calm_dipoleCompensation (i : Nat) (x : K) : Sync (Calm N B bp) Eq (dipoleCompensation i x) (dipoleCompensation i x) := by
  unfold dipoleCompensation
  refine Sync.seq (calm_rd _) (fun ba => Sync.bind Sync.get (fun s t h => ?_))
  rw [h.ord]
  exact Sync.when (Sync.seq (calm_rd _) (fun _ => calm_setCM _ _ _ _))

theorem calm_setMagnet (l : List Nat) (sp : NpArr K) (sk : Bool) (k : Nat) (m : String) (d : Bool) :
    Sync (Calm N B bp) Eq (setMagnetSetpoints l sp sk k m d) (setMagnetSetpoints l sp sk k m d) :=
  Sync.seq (calm_rd _) (fun _ => Sync.seq (Sync.forEach (fun p _ =>
    Sync.seq (calm_rd _) (fun _ => Sync.seq (Sync.when (calm_dipoleCompensation _ _)) (fun _ =>
      Sync.seq (calm_rd _) (fun _ => calm_setAttr (setPoint_calm sk) _ _))))) (fun _ => calm_updateMagnets _))

theorem setPoint_not_noise (p : String) : p ++ "SetPoint" ∉ noiseNames := by
  intro h
  have hl : (p ++ "SetPoint").toList.reverse.take 3 = ['t', 'n', 'i'] := by simp [String.toList_append]
  have key : ∀ q ∈ noiseNames, q.toList.reverse.take 3 ≠ ['t', 'n', 'i'] := by decide
  exact key _ h hl

theorem calm_setCavity (l : List Nat) (sp : NpArr K) (p m : String) :
    Sync (Calm N B bp) Eq (setCavitySetpoints l sp p m) (setCavitySetpoints l sp p m) := by
  unfold setCavitySetpoints
  refine Sync.seq (calm_rd _) (fun _ => Sync.seq (Sync.forEach (fun q _ => calm_setAttr (setPoint_not_noise p) _ _))
    (fun _ => ?_))
  unfold updateCavities
  refine Sync.bind Sync.get (fun s t h => ?_)
  exact Sync.forEach (fun i _ => Sync.forEach (fun f hf => Sync.seq (calm_rd _) (fun _ =>
    calm_setAttr (by revert f; decide) _ _)))

/-! ### Readings -/

/-- the numbers differ, but there are as many of them -/
theorem calm_randnc (hE : Delivers E) {c : K} (hc : c = 2 ∨ c = 3) (n : Nat) :
    Sync (Calm N B bp) (fun a b => a.length = n ∧ b.length = n) (randnc E c n) (randnc E c n) := by
  intro s t h
  obtain ⟨p, hp⟩ := hE c hc n s.rng
  obtain ⟨q, hq⟩ := hE c hc n t.rng
  have h1 : randnc E c n s = .ok p.1 { s with rng := p.2 } := by unfold randnc; rw [hp]
  have h2 : randnc E c n t = .ok q.1 { t with rng := q.2 } := by unfold randnc; rw [hq]
  refine Or.inl ⟨_, _, _, _, h1, h2, ⟨(randnc_fresh h1).2.1, (randnc_fresh h2).2.1⟩, ?_, h.shots, ⟨h.quiet.bpms, h.quiet.jitter, h.quiet.point⟩, h.bpm⟩
  show ({ t with rng := _ } : SC K) = _
  conv_lhs => rw [h.same]

theorem dot_zero {row : List K} (h : ∀ x ∈ row, x = 0) (v : List K) : dot row v = 0 := by
  unfold dot
  apply List.sum_eq_zero
  intro y hy
  obtain ⟨a, ha, b, -, rfl⟩ : ∃ a, a ∈ row ∧ ∃ b, b ∈ v ∧ a * b = y := by
    rw [List.mem_iff_getElem?] at hy
    obtain ⟨k, hk⟩ := hy
    rw [List.getElem?_zipWith_eq_some] at hk
    obtain ⟨a, b, h1, h2, h3⟩ := hk
    exact ⟨a, List.mem_of_getElem? h1, b, List.mem_of_getElem? h2, h3⟩
  rw [h a ha, zero_mul]

theorem bunchMatrix_point (h0 : B.sqrt 0 = some 0) {size : List (List K)} (hp : ∀ v ∈ (B.eig size).1, v = 0) {m : List (List K)}
    (h : bunchMatrix B size = .ok m) : ∀ row ∈ m, ∀ x ∈ row, x = 0 := by
  unfold bunchMatrix at h
  rw [Except.bind_eq_ok'] at h
  obtain ⟨q, h1, h2⟩ := h
  have hq : ∀ d ∈ q, d = 0 := by
    intro d hd
    obtain ⟨k, hk⟩ := List.mem_iff_getElem?.1 hd
    obtain ⟨hl, hg⟩ := mapM_except_eq_ok h1
    have hlt : k < (B.eig size).1.length := by
      have := (List.getElem?_eq_some_iff.1 hk).1
      omega
    obtain ⟨y, hy, hy'⟩ := hg k _ (List.getElem?_eq_getElem hlt)
    rw [hp _ (List.getElem_mem hlt), h0] at hy
    cases hy
    rw [hk] at hy'
    cases hy'
    rfl
  cases h2
  intro row hr x hx
  rw [List.mem_iff_getElem?] at hr
  obtain ⟨k, hk⟩ := hr
  rw [List.getElem?_zipWith_eq_some] at hk
  obtain ⟨d, w, h3, -, rfl⟩ := hk
  obtain ⟨y, -, rfl⟩ := List.mem_map.1 hx
  rw [hq d (List.mem_of_getElem? h3), zero_mul]

theorem zip_zero {n : Nat} {z z' : List K} (h : z.length = n) (h' : z'.length = n) :
    bmul (List.replicate n (0 : K)) z = bmul (List.replicate n 0) z' := by
  unfold bmul
  rw [if_pos (by simp [h]), if_pos (by simp [h'])]
  congr 1
  apply List.ext_getElem (by simp [h, h'])
  intro k h1 h2
  simp

theorem calm_bunches (hE : Delivers E) (h0 : B.sqrt 0 = some 0) (n : Option Nat) :
    Sync (Calm N B bp) Eq (generateBunches E B n) (generateBunches E B n) := by
  unfold generateBunches
  refine Sync.bind Sync.get (fun s t h => ?_)
  rw [h.inj]
  refine Sync.bind (calm_randnc hE (Or.inl rfl) 6) (fun z z' hz => ?_)
  rw [h.quiet.jitter, zip_zero hz.1 hz.2]
  refine Sync.seq (Sync.lift _) (fun j => Sync.seq (Sync.lift _) (fun centre => Sync.ite (Sync.pure rfl) ?_))
  cases hm : bunchMatrix B s.INJ.beamSize with
  | error e => exact Sync.throw e
  | ok m =>
    have e : ∀ f : List (List K) → Py (SC K) (List (List K)), (Py.lift (Except.ok m) >>= f) = f m := fun f => rfl
    rw [e]
    have hv : ∀ v v' : List K, matVec m v = matVec m v' := fun v v' => by
      unfold matVec
      refine List.map_congr_left (fun row hr => ?_)
      rw [dot_zero (bunchMatrix_point h0 h.quiet.point hm row hr), dot_zero (bunchMatrix_point h0 h.quiet.point hm row hr)]
    refine Sync.bind (calm_randnc hE (Or.inr rfl) _) (fun w w' _ => ?_)
    rw [show (fun j => vadd centre (matVec m (column6 w (n.getD s.INJ.nParticles) j))) =
      (fun j => vadd centre (matVec m (column6 w' (n.getD s.INJ.nParticles) j))) from funext (fun j => by rw [hv])]
    exact Sync.seq (Sync.lift _) (fun _ => Sync.pure rfl)

theorem calm_transmission (hE : Delivers E) (h0 : B.sqrt 0 = some 0) (n m : Option Nat) :
    Sync (Calm N B bp) Eq (beamTransmission E B n m) (beamTransmission E B n m) := by
  unfold beamTransmission
  refine Sync.bind Sync.get (fun s t h => ?_)
  rw [h.inj, h.ring]
  exact Sync.seq (calm_bunches hE h0 _) (fun _ => Sync.ite (Sync.throw _) (Sync.ite (Sync.throw _) (Sync.pure rfl)))

theorem calm_tracking (hE : Delivers E) (h0 : B.sqrt 0 = some 0) (l : List Nat) : Sync (Calm N B bp) Eq (tracking E B l) (tracking E B l) := by
  unfold tracking
  refine Sync.bind Sync.get (fun s t h => ?_)
  rw [h.inj, h.ring]
  exact Sync.ite (Sync.pure rfl) (Sync.seq (calm_bunches hE h0 _) (fun _ => Sync.pure rfl))

/-- a BPM without noise and without error of the sum signal does not use random numbers -/
theorem realReading1_quiet {lost : K} {e : BpmErr K} (hn : e.noise = (0, 0)) (hs : e.sum = 0) (P : List (Option K × Option K)) (x y z x' y' z' : K) :
    realReading1 B lost e P x y z = realReading1 B lost e P x' y' z' := by
  have ht : transmission e P z = transmission e P z' := by unfold transmission; rw [hs, zero_mul, zero_mul]
  unfold realReading1
  rw [ht, hn]
  simp only [zero_mul, zero_div]

theorem cellInfinite_quiet {e : BpmErr K} (hs : e.sum = 0) (P : List (Option K × Option K)) (z z' : K) :
    cellInfinite e P z = cellInfinite e P z' := by
  unfold cellInfinite transmission
  rw [hs, zero_mul, zero_mul]

theorem calm_realReading (hE : Delivers E) {l : List Nat} (hl : ∀ i ∈ l, i ∈ bp) (nt : Nat) (trk : Nat → Nat → List (Option K × Option K)) :
    Sync (Calm N B bp) Eq (realBpmReading E B l nt trk) (realBpmReading E B l nt trk) := by
  unfold realBpmReading
  refine Sync.bind Sync.get (fun s t h => ?_)
  rw [h.inj]
  refine Sync.bind (calm_rdWith (P := fun noise => ∀ p ∈ noise, p = (0, 0)) _ ?_) (fun noise noise' hnoise => ?_)
  · intro s' t' h' noise hr p hp
    obtain ⟨k, hk⟩ := List.mem_iff_getElem?.1 hp
    obtain ⟨hlen, hg⟩ := mapM_except_eq_ok hr
    have hlt : k < l.length := by
      have := (List.getElem?_eq_some_iff.1 hk).1
      omega
    obtain ⟨y, hy, hy'⟩ := hg k _ (List.getElem?_eq_getElem hlt)
    rw [hk] at hy'
    cases hy'
    have hq := h'.quiet.bpms l[k] (h'.bpm ▸ hl _ (List.getElem_mem hlt))
    rw [Ring.getPair_eq_ok] at hy
    split at hy
    · rw [hq.2.1] at hy
      simp only [Option.some.injEq, Attr.vec.injEq, List.cons.injEq, and_true] at hy
      exact Prod.ext hy.1.symm hy.2.symm
    · rw [hq.1] at hy
      simp only [Option.some.injEq, Attr.vec.injEq, List.cons.injEq, and_true] at hy
      exact Prod.ext hy.1.symm hy.2.symm
  obtain ⟨rfl, hz⟩ := hnoise
  refine Sync.bind (calm_randnc hE (Or.inl rfl) _) (fun zn zn' _ => ?_)
  refine Sync.bind (calm_rdWith (P := fun errs : List (BpmErr K) => ∀ e ∈ errs, e.noise = (0, 0) ∧ e.sum = 0) _ ?_) (fun errs errs' herrs => ?_)
  · intro s' t' h' errs hr e he
    obtain ⟨k, hk⟩ := List.mem_iff_getElem?.1 he
    obtain ⟨hlen, hg⟩ := mapM_except_eq_ok hr
    have hlt : k < (l.zip noise).length := by
      have := (List.getElem?_eq_some_iff.1 hk).1
      omega
    obtain ⟨y, hy, hy'⟩ := hg k _ (List.getElem?_eq_getElem hlt)
    rw [hk] at hy'
    cases hy'
    have hmem := List.getElem_mem hlt
    have h1 := (List.of_mem_zip hmem).1
    have h2 := hz _ (List.of_mem_zip hmem).2
    have hq := h'.quiet.bpms (l.zip noise)[k].1 (h'.bpm ▸ hl _ h1)
    simp only [Except.bind_eq_ok'] at hy
    obtain ⟨o, -, so, -, c, -, ro, -, sr, -, su, hsu, hy⟩ := hy
    cases hy
    rw [Ring.getNum_eq_ok, hq.2.2] at hsu
    cases hsu
    exact ⟨h2, rfl⟩
  obtain ⟨rfl, hq⟩ := herrs
  have hd : ∀ b, (errs.getD b ⟨(0, 0), (0, 0), (0, 0), 0, 0⟩).noise = (0, 0) ∧ (errs.getD b ⟨(0, 0), (0, 0), (0, 0), 0, 0⟩).sum = 0 := by
    intro b
    by_cases hb : b < errs.length
    · rw [getD_lt _ _ hb]; exact hq _ (List.getElem_mem hb)
    · rw [List.getD_eq_getElem?_getD, List.getElem?_eq_none (by omega)]; exact ⟨rfl, rfl⟩
  refine Sync.bind (calm_randnc hE (Or.inl rfl) _) (fun zs zs' _ => ?_)
  dsimp only
  have hany : ((List.range l.length).any (fun b => (List.range nt).any (fun t => cellInfinite (errs.getD b ⟨(0, 0), (0, 0), (0, 0), 0, 0⟩) (trk b t) (zs.getD (b * nt + t) 0)))) =
      ((List.range l.length).any (fun b => (List.range nt).any (fun t => cellInfinite (errs.getD b ⟨(0, 0), (0, 0), (0, 0), 0, 0⟩) (trk b t) (zs'.getD (b * nt + t) 0)))) := by
    congr 1
    funext b
    congr 1
    funext t
    exact cellInfinite_quiet (hd b).2 _ _ _
  rw [hany]
  refine Sync.ite (Sync.throw _) (Sync.pure ?_)
  funext b t
  exact realReading1_quiet (hd b).1 (hd b).2 _ _ _ _ _ _ _

/-! #### many shots -/

theorem Calm.refl {s : SC K} (hq : Noiseless B s) (hb : s.ORD.BPM = bp) : Calm Eq B bp s s := ⟨rfl, rfl, hq, hb⟩

theorem Calm.step {s u u' : SC K} (h : Calm N B bp s u) (hr : OnlyRng u u') : Calm N B bp s u' := by
  have e : u'.INJ = u.INJ := by rw [hr.1]
  refine ⟨?_, by rw [e]; exact h.shots, h.quiet, h.bpm⟩
  rw [e]
  conv_lhs => rw [hr.1, h.same]

theorem Calm.other {s t : SC K} (h : Calm N B bp s t) : Noiseless B t ∧ t.ORD.BPM = bp := by
  refine ⟨⟨?_, ?_, ?_⟩, by rw [h.ord]; exact h.bpm⟩
  · rw [h.ord, h.ring]; exact h.quiet.bpms
  · rw [h.inj]; exact h.quiet.jitter
  · rw [h.inj]; exact h.quiet.point

theorem Calm.steps {s t s' t' : SC K} (h : Calm N B bp s t) (hs : Calm Eq B bp s s') (ht : Calm Eq B bp t t') : Calm N B bp s' t' := by
  have e1 : s'.INJ = s.INJ := by rw [hs.inj, ← hs.shots]
  have e2 : t'.INJ = t.INJ := by rw [ht.inj, ← ht.shots]
  refine ⟨?_, by rw [e1, e2]; exact h.shots, hs.other.1, hs.other.2⟩
  have a : t' = { t with rng := t'.rng, INJ := t.INJ } := by
    conv_lhs => rw [ht.same, ← ht.shots]
  have b : s' = { s with rng := s'.rng, INJ := s.INJ } := by
    conv_lhs => rw [hs.same, ← hs.shots]
  rw [e2]
  conv_lhs => rw [a, h.same]
  conv_rhs => rw [b]

/-- all shots give the same -/
theorem calm_mapEach_same {α β : Type} {m : Py (SC K) α} (hm : Sync (Calm Eq B bp) Eq m m) (hr : Rel OnlyRng m) {s s1 : SC K} {c : α}
    (h1 : m s = .ok c s1) : ∀ (l : List β) (u : SC K), Calm Eq B bp s u →
    ∃ u', mapEach l (fun _ => m) u = .ok (List.replicate l.length c) u' ∧ Calm Eq B bp s u'
  | [], u, h => ⟨u, rfl, h⟩
  | x :: l, u, h => by
    rcases hm s u h with ⟨a, b, s', u', g1, g2, hab, -⟩ | ⟨e, s', u', g1, -, -⟩
    · rw [h1] at g1
      cases g1
      cases hab
      obtain ⟨u'', g3, g4⟩ := calm_mapEach_same hm hr h1 l u' (h.step (hr.ok g2))
      refine ⟨u'', ?_, g4⟩
      show (m >>= fun a => mapEach l (fun _ => m) >>= fun as => Py.pure (a :: as)) u = _
      rw [bind_apply, g2]
      show (mapEach l (fun _ => m) >>= fun as => Py.pure (c :: as)) u' = _
      rw [bind_apply, g3]
      rfl
    · rw [h1] at g1; cases g1

theorem calm_mapEach {α β : Type} {m : Py (SC K) α} (hm : Sync (Calm Eq B bp) Eq m m) (hm' : Sync (Calm N B bp) Eq m m) (hr : Rel OnlyRng m)
    (l l' : List β) (hl : l ≠ []) (hl' : l' ≠ []) :
    Sync (Calm N B bp) (fun a b => ∃ c, a = List.replicate l.length c ∧ b = List.replicate l'.length c)
      (mapEach l (fun _ => m)) (mapEach l' (fun _ => m)) := by
  intro s t h
  rcases hm' s t h with ⟨a, b, s', t', g1, g2, hab, -⟩ | ⟨e, s', t', g1, g2, hst⟩
  · cases hab
    obtain ⟨u, e1, c1⟩ := calm_mapEach_same hm hr g1 l s (Calm.refl h.quiet h.bpm)
    obtain ⟨v, e2, c2⟩ := calm_mapEach_same hm hr g2 l' t (Calm.refl h.other.1 h.other.2)
    exact Or.inl ⟨_, _, u, v, e1, e2, ⟨a, rfl, rfl⟩, h.steps c1 c2⟩
  · have key : ∀ {l : List β} {u u' : SC K}, l ≠ [] → m u = .error e u' → mapEach l (fun _ => m) u = .error e u' := by
      intro l u u' hl hu
      cases l with
      | nil => exact absurd rfl hl
      | cons x l =>
        show (m >>= fun a => mapEach l (fun _ => m) >>= fun as => Py.pure (a :: as)) u = _
        rw [bind_apply, hu]
    exact Or.inr ⟨e, s', t', key hl g1, key hl' g2, hst⟩

section
variable [IsStrictOrderedRing K]

theorem valid_replicate (n : Nat) (p : Option K × Option K) :
    valid (List.replicate n p) = [] ∧ (∀ m, valid (List.replicate m p) = []) ∨ ∃ q, ∀ m, valid (List.replicate m p) = List.replicate m q := by
  obtain ⟨x, w⟩ := p
  cases x with
  | none => left; simp [valid]
  | some x =>
    cases w with
    | none => left; simp [valid]
    | some w => right; exact ⟨(x, w), fun m => by simp [valid]⟩

theorem maskedAverage_shots {n k : Nat} (hn : n ≠ 0) (hk : k ≠ 0) (p : Option K × Option K) :
    maskedAverage (List.replicate n p) = maskedAverage (List.replicate k p) := by
  have hn' : (n : K) ≠ 0 := Nat.cast_ne_zero.2 hn
  have hk' : (k : K) ≠ 0 := Nat.cast_ne_zero.2 hk
  unfold maskedAverage
  rcases valid_replicate n p with ⟨-, h⟩ | ⟨q, h⟩
  · rw [h n, h k]
  · rw [h n, h k]
    simp only [List.map_replicate, List.sum_replicate, nsmul_eq_mul]
    by_cases hw : q.2 = 0
    · simp [hw]
    · rw [if_neg (mul_ne_zero hn' hw), if_neg (mul_ne_zero hk' hw)]
      congr 1
      field_simp

theorem nansum_shots {n k : Nat} (hn : n ≠ 0) (hk : k ≠ 0) (x : Option K) :
    nansum (List.replicate n x) / (n : K) = nansum (List.replicate k x) / (k : K) := by
  have hn' : (n : K) ≠ 0 := Nat.cast_ne_zero.2 hn
  have hk' : (k : K) ≠ 0 := Nat.cast_ne_zero.2 hk
  unfold nansum
  cases x with
  | none => simp
  | some x => simp [hn', hk']

theorem orbitError_shots {n k : Nat} (hn : n ≠ 0) (hk : k ≠ 0) (mean : Option K) (p : Option K × Option K) :
    orbitError B mean (List.replicate n p) = orbitError B mean (List.replicate k p) := by
  have hn' : (n : K) ≠ 0 := Nat.cast_ne_zero.2 hn
  have hk' : (k : K) ≠ 0 := Nat.cast_ne_zero.2 hk
  have ha : (List.replicate n p).any (fun p => p.1.isNone) = (List.replicate k p).any (fun p => p.1.isNone) := by
    simp [List.any_replicate, hn, hk]
  unfold orbitError
  rw [ha]
  split
  · rfl
  · rcases valid_replicate n p with ⟨-, h⟩ | ⟨q, h⟩
    · rw [h n, h k]
    · rw [h n, h k]
      simp only [List.map_replicate, List.sum_replicate, nsmul_eq_mul]
      by_cases hw : q.2 = 0
      · simp [hw]
      · rw [if_neg (mul_ne_zero hn' hw), if_neg (mul_ne_zero hk' hw)]
        congr 2
        field_simp

theorem calm_reading (hN : ∀ n m, N n m → (n = 0 ↔ m = 0)) (hE : Delivers E) (h0 : B.sqrt 0 = some 0) (b : Option (List Nat)) (c : Bool) :
    Sync (Calm N B bp) Eq (bpmReading E B b c) (bpmReading E B b c) := by
  unfold bpmReading
  refine Sync.bind Sync.get (fun s t h => ?_)
  rw [h.inj, h.ord]
  cases hr : registeredBpms s.ORD.BPM b with
  | error e => exact Sync.throw e
  | ok ords =>
    have e : ∀ f : List Nat → Py (SC K) (Reading K), (Py.lift (Except.ok ords) >>= f) = f ords := fun f => rfl
    rw [e, e]
    have hl : ∀ i ∈ ords, i ∈ bp := by
      intro i hi
      rw [← h.bpm]
      unfold registeredBpms at hr
      split at hr
      · cases hr; exact hi
      · split at hr
        · cases hr
        · cases hr; exact (List.mem_filter.1 hi).1
    dsimp only
    have hshot : ∀ N, Sync (Calm N B bp) Eq (tracking E B ords >>= fun trk => if s.INJ.trackMode = "ORB" then
        realBpmReading E B ords 1 trk >>= fun c => Py.pure (fun b (_ : Nat) => c b 0) else realBpmReading E B ords s.INJ.nTurns trk)
        (tracking E B ords >>= fun trk => if s.INJ.trackMode = "ORB" then
        realBpmReading E B ords 1 trk >>= fun c => Py.pure (fun b (_ : Nat) => c b 0) else realBpmReading E B ords s.INJ.nTurns trk) := fun N =>
      Sync.seq (calm_tracking hE h0 _) (fun _ =>
        Sync.ite (Sync.seq (calm_realReading hE hl _ _) (fun _ => Sync.pure rfl)) (calm_realReading hE hl _ _))
    by_cases hn : s.INJ.nShots = 0
    · have hk : t.INJ.nShots = 0 := (hN _ _ h.shots).1 hn
      rw [hn, hk]
      exact Sync.seq (Sync.mapEach (fun _ _ => hshot N)) (fun _ => Sync.ite (Sync.throw _) (Sync.ite (Sync.seq (Sync.lift _) (fun _ => Sync.seq (Sync.lift _) (fun _ => Sync.pure rfl)))
        (Sync.ite (Sync.seq (Sync.lift _) (fun _ => Sync.seq (Sync.lift _) (fun _ => Sync.pure rfl))) (Sync.pure rfl))))
    · have hk : t.INJ.nShots ≠ 0 := fun hk => hn ((hN _ _ h.shots).2 hk)
      refine Sync.bind (calm_mapEach (hshot Eq) (hshot N) ?_ _ _ (by simpa using hn) (by simpa using hk)) ?_
      · rels
        all_goals first | exact tracking_onlyRng _ _ _ | exact realBpmReading_onlyRng _ _ _ _ _
      · rintro a b ⟨x, rfl, rfl⟩
        simp only [List.length_range, List.map_replicate, maskedAverage_shots hn hk, nansum_shots hn hk, orbitError_shots hn hk, if_neg hn, if_neg hk]
        exact Sync.ite (Sync.seq (Sync.lift _) (fun _ => Sync.seq (Sync.lift _) (fun _ => Sync.pure rfl)))
          (Sync.ite (Sync.seq (Sync.lift _) (fun _ => Sync.seq (Sync.lift _) (fun _ => Sync.pure rfl))) (Sync.pure rfl))

/-- changes of the injection settings which keep the relation -/
def CalmChange (N : Nat → Nat → Prop) (f : Inj K → Inj K) : Prop :=
  ∀ j n, N j.nShots n → (f j).randomInjectionZ = j.randomInjectionZ ∧ (f j).beamSize = j.beamSize ∧
    ∃ m, N (f j).nShots m ∧ f { j with nShots := n } = { f j with nShots := m }

theorem calm_instruments (hN : ∀ n m, N n m → (n = 0 ↔ m = 0)) (hE : Delivers E) (h0 : B.sqrt 0 = some 0) (bp : List Nat) :
    SameInstruments E B (Calm N B bp) (CalmChange N) where
  view := fun s t h => ⟨h.ord.symm, by rw [h.inj], h.design.symm, by rw [h.ring], fun i a _ => by rw [h.ring], fun i => by rw [h.ring]⟩
  reading := fun b c => (calm_reading hN hE h0 b c).sameRun
  transmission := fun n m => (calm_transmission hE h0 n m).sameRun
  correctors := fun l sp sk m => (calm_setCM l sp sk m).sameRun
  magnets := fun l sp sk k m d => (calm_setMagnet l sp sk k m d).sameRun
  cavities := fun l sp p m => (calm_setCavity l sp p m).sameRun
  refresh := fun l => (calm_updateMagnets l).sameRun
  injection := fun f hf s t h => by
    have hk : CalmChange N f := by
      rcases hf with hf | hf
      · exact fun j n hn => ⟨(hf j).1, (hf j).2.1, n, by rw [(hf j).2.2.1]; exact hn, (hf j).2.2.2 n⟩
      · exact hf
    obtain ⟨k1, k2, m, k3, k4⟩ := hk s.INJ t.INJ.nShots h.shots
    have e : f t.INJ = { f s.INJ with nShots := m } := by rw [h.inj]; exact k4
    refine ⟨?_, ?_, ⟨h.quiet.bpms, by rw [k1]; exact h.quiet.jitter, by rw [k2]; exact h.quiet.point⟩, h.bpm⟩
    · show ({ t with INJ := _ } : SC K) = _
      rw [e]
      conv_lhs => rw [h.same]
    · show N (f s.INJ).nShots (f t.INJ).nShots
      rw [e]; exact k3
  stored := fun i v a ha => (calm_setAttr (by revert a; decide) i _).sameRun
  bpmOffset := fun i p d => Sync.sameRun (Sync.seq (calm_rd _) (fun _ => Sync.seq (Sync.lift _) (fun _ => calm_setAttr (by decide) _ _)))
  bpmGain := fun i p d => Sync.sameRun (Sync.seq (calm_rd _) (fun _ => Sync.seq (Sync.lift _) (fun _ => calm_setAttr (by decide) _ _)))
  bpmRoll := fun i d => Sync.sameRun (Sync.seq (calm_rd _) (fun _ => calm_setAttr (by decide) _ _))

end
end
end PySC
