import Verif.Lemmas.Supports
import Verif.Lemmas.ApplyErrors
/-
What `update_supports` stores in magnets and BPMs.
-/
namespace PySC
set_option linter.unusedSectionVars false
open Py Spec
variable {K : Type} [Field K] [LinearOrder K]

section ord
variable [IsStrictOrderedRing K]

/-! ### the geometry only depends on lengths and support errors -/

/-- two rings with the same lengths and support errors -/
structure SameSupports (r r' : Ring K) : Prop where
  len : r'.length = r.length
  attr : ∀ i a, a ∈ "Length" :: supportNamesList → r'.attr i a = r.attr i a

theorem vecAt_congr {r r' : Ring K} {i : Nat} {a : String} (h : r'.attr i a = r.attr i a) : vecAt r' i a = vecAt r i a := by
  unfold vecAt; rw [h]
theorem numAt_congr {r r' : Ring K} {i : Nat} {a : String} (h : r'.attr i a = r.attr i a) : numAt r' i a = numAt r i a := by
  unfold numAt; rw [h]

namespace SameSupports
variable {r r' : Ring K} (h : SameSupports r r')
include h
theorem sPos (k : Nat) : sPos r' k = sPos r k := sPos_congr (fun i => h.attr i _ (by simp)) k
theorem circumference : circumference r' = circumference r := by unfold Spec.circumference; rw [h.sPos, h.len]
theorem along (p : Nat × Nat) (k : Nat) : along r' p k = along r p k := by unfold Spec.along; rw [h.sPos, h.circumference]
theorem ride (l : List (Nat × Nat)) (shift base : Nat → K) : ride r' l shift base = ride r l shift base := by
  funext k; unfold Spec.ride; simp only [h.along]
theorem displacement (o : Ords) (dim : Nat) : displacement r' o dim = displacement r o dim := by
  unfold Spec.displacement
  simp only [h.ride]
  have : ∀ a ∈ "Length" :: supportNamesList, (fun i => coef (vecAt r' i a) dim) = fun i => coef (vecAt r i a) dim :=
    fun a ha => funext (fun i => by rw [vecAt_congr (h.attr i a ha)])
  rw [this "GirderOffset" (by decide), this "PlinthOffset" (by decide), this "SectionOffset" (by decide)]
theorem rollAt (o : Ords) (k : Nat) : rollAt r' o k = rollAt r o k := by
  unfold Spec.rollAt
  congr 1
  refine List.map_congr_left (fun p hp => ?_)
  have hp := (List.mem_filter.1 hp).1
  have : p.1 ∈ "Length" :: supportNamesList := by
    simp only [supportList, List.mem_append, List.mem_map] at hp
    rcases hp with (⟨q, -, rfl⟩ | ⟨q, -, rfl⟩) | ⟨q, -, rfl⟩ <;> simp [supportNamesList]
  rw [vecAt_congr (h.attr _ _ this)]
theorem slopeAt (o : Ords) (dim k : Nat) : slopeAt r' o dim k = slopeAt r o dim k := by
  unfold Spec.slopeAt
  simp only [h.displacement, h.along]
theorem forward (hf : Forward r) : Forward r' := fun i => by rw [numAt_congr (h.attr i "Length" (by simp))]; exact hf i
theorem layout {l : List (Nat × Nat)} (hL : Layout r l) : Layout r' l := ⟨hL.apart, fun p hp => by rw [h.sPos, h.sPos]; exact hL.open_ p hp⟩
theorem layouts {o : Ords} (hL : Layouts r o) : Layouts r' o := ⟨h.layout hL.girder, h.layout hL.plinth, h.layout hL.section_⟩
theorem symm : SameSupports r' r := ⟨h.len.symm, fun i a ha => (h.attr i a ha).symm⟩
theorem firstThere {i j : Nat} (hj : FirstThere r i j) : FirstThere r' i j :=
  ⟨hj.1, by rw [h.sPos, h.sPos]; exact hj.2.1, fun j' hj' => by rw [h.sPos, h.sPos]; exact hj.2.2 j' hj'⟩
end SameSupports

theorem sameSupports_of_frame {W : Nat → String → Prop} {s s' : SC K} (h : Frame W s s')
    (hW : ∀ i a, a ∈ "Length" :: supportNamesList → ¬ W i a) : SameSupports s.RING s'.RING :=
  ⟨h.len, fun i a ha => h.attr i a (hW i a ha)⟩

/-! ### values -/

theorem supportAt_eq {r : Ring K} (hf : Forward r) {o : Ords} (hL : Layouts r o) {ords : List Nat}
    (hlt : ords.length ≤ r.length) {offs rolls : List (List K)} (h : supportAt r o ords = .ok (offs, rolls)) :
    ∃ x y z roll pitch yaw : List K, offs = [x, y, z] ∧ rolls = [roll, pitch, yaw] ∧
    ∀ (m : Nat) i j, ords[m]? = some i → FirstThere r i j → x[m]? = some (displacement r o 0 j) ∧
      y[m]? = some (displacement r o 1 j) ∧ z[m]? = some (displacement r o 2 j) ∧
      (NoWrap o → roll[m]? = some (rollAt r o j) ∧ pitch[m]? = some (slopeAt r o 1 j) ∧ yaw[m]? = some (slopeAt r o 0 j)) := by
  unfold supportAt positions at h
  rw [Except.bind_eq_ok'] at h
  obtain ⟨locs, h1, h2⟩ := h
  obtain ⟨hl1, hv1⟩ := mapM_except_eq_ok h1
  unfold supportOffsetAndRoll at h2
  simp only [Except.bind_eq_ok'] at h2
  obtain ⟨x, hx, y, hy, z, hz, rr, hr, h3⟩ := h2
  have hne : locs ≠ findspos r := fun he => by
    have := congrArg List.length he
    rw [length_findspos] at this
    omega
  rw [if_pos hne] at h3
  simp only [Except.bind_eq_ok', Except.ok.injEq, Prod.mk.injEq] at h3
  obtain ⟨off, hoff, rl, hrl, rfl, rfl⟩ := h3
  have hrr : ∃ a b c, rr = [a, b, c] := by
    unfold rollRows at hr
    simp only [Except.bind_eq_ok', Except.ok.injEq] at hr
    obtain ⟨a, -, b, -, c, -, rfl⟩ := hr
    exact ⟨a, b, c, rfl⟩
  obtain ⟨ra, rb, rc, rfl⟩ := hrr
  simp only [List.mapM_cons, List.mapM_nil, Except.bind_eq_ok', pure, Except.pure, Except.ok.injEq] at hoff hrl
  obtain ⟨x', hx', _, ⟨y', hy', _, ⟨z', hz', _, rfl, rfl⟩, rfl⟩, rfl⟩ := hoff
  obtain ⟨a', ha', _, ⟨b', hb', _, ⟨c', hc', _, rfl, rfl⟩, rfl⟩, rfl⟩ := hrl
  refine ⟨x', y', z', a', b', c', rfl, rfl, fun m i j hm hj => ?_⟩
  obtain ⟨pos, hpos, hpm⟩ := hv1 m i hm
  rw [idx_eq_ok, findspos_get] at hpos
  obtain ⟨hi, rfl⟩ := hpos
  have hfa := firstAt_findspos hi hj
  have hjl : j ≤ r.length := le_trans hj.1 hi
  obtain ⟨⟨-, ex⟩, -⟩ := offsetRow_eq hf hL hx
  obtain ⟨⟨-, ey⟩, -⟩ := offsetRow_eq hf hL hy
  obtain ⟨⟨-, ez⟩, -⟩ := offsetRow_eq hf hL hz
  refine ⟨?_, ?_, ?_, fun hn => ?_⟩
  · rw [(interpRow_eq hx').2 m _ j hpm hfa, ex j hjl]
  · rw [(interpRow_eq hy').2 m _ j hpm hfa, ey j hjl]
  · rw [(interpRow_eq hz').2 m _ j hpm hfa, ez j hjl]
  · obtain ⟨roll, pitch, yaw, hrows, -, -, -, hv⟩ := rollRows_eq hf hL hn hx hy hr
    simp only [List.cons.injEq, and_true] at hrows
    obtain ⟨rfl, rfl, rfl⟩ := hrows
    obtain ⟨v1, v2, v3⟩ := hv j hjl
    refine ⟨?_, ?_, ?_⟩
    · rw [(interpRow_eq ha').2 m _ j hpm hfa, v1]
    · rw [(interpRow_eq hb').2 m _ j hpm hfa, v2]
    · rw [(interpRow_eq hc').2 m _ j hpm hfa, v3]

theorem column3 {x y z v : List K} {m : Nat} (h : column [x, y, z] m = .ok v) :
    ∃ a b c, x[m]? = some a ∧ y[m]? = some b ∧ z[m]? = some c ∧ v = [a, b, c] := by
  unfold column at h
  simp only [List.mapM_cons, List.mapM_nil, Except.bind_eq_ok', pure, Except.pure, Except.ok.injEq, idx_eq_ok] at h
  obtain ⟨a, ha, _, ⟨b, hb, _, ⟨c, hc, _, rfl, rfl⟩, rfl⟩, rfl⟩ := h
  exact ⟨a, b, c, ha, hb, hc, rfl⟩

/-! ### one pass of the loop over the magnets -/

theorem numOr0_eq_ok {r : Ring K} {i : Nat} {a : String} {x : K} (h : numOr0 r i a = .ok x) : x = numAt r i a := by
  unfold numOr0 at h
  simp only [Except.bind_eq_ok', Ring.hasA_eq_ok] at h
  obtain ⟨b, ⟨-, rfl⟩, h⟩ := h
  split at h
  · rw [Ring.getNum_eq_ok] at h; simp [numAt, h]
  · rename_i hh
    cases h
    have hh : r.attr i a = none := by simpa using hh
    simp [numAt, hh]

theorem copyTransformation_frame (ind child : Nat) :
    Modifies (K := K) (fun i a => i = child ∧ a ∈ transformAttrs) (copyTransformation ind child) := by
  unfold copyTransformation
  exact Modifies.forEach (fun f hf => Modifies.bind (Modifies.rd _) (fun _ => Modifies.setAttr ⟨rfl, hf⟩))

/-- what the pass for magnet `i` writes -/
def passWrites (r : Ring K) (i j : Nat) (a : String) : Prop :=
  (j = i ∧ a ∈ supportWrites) ∨ (a ∈ transformAttrs ∧ ∃ l, r.attr i "MasterOf" = some (.ords l) ∧ j ∈ l)

theorem masterChildren_eq_ok {r : Ring K} {i : Nat} {ch : List Nat} (h : masterChildren r i = .ok ch) {j : Nat} :
    j ∈ ch ↔ ∃ l, r.attr i "MasterOf" = some (.ords l) ∧ j ∈ l := by
  unfold masterChildren at h
  simp only [Except.bind_eq_ok', Ring.hasA_eq_ok] at h
  obtain ⟨b, ⟨-, rfl⟩, h⟩ := h
  split at h
  · rw [Except.bind_eq_ok'] at h
    obtain ⟨m, h1, h2⟩ := h
    rw [Ring.getA_eq_ok] at h1
    cases m <;> simp [Attr.toOrds] at h2
    subst h2
    simp [h1]
  · rename_i hh
    cases h
    have hh : r.attr i "MasterOf" = none := by simpa using hh
    simp [hh]

theorem copyTransformation_ok {ind child : Nat} {s s' : SC K} (h : copyTransformation ind child s = .ok () s') :
    ∀ a ∈ transformAttrs, s'.RING.attr child a = s.RING.attr ind a ∧ s'.RING.attr ind a = s.RING.attr ind a := by
  have key := forEach_post (I := fun t : SC K => ∀ a, t.RING.attr ind a = s.RING.attr ind a)
    (P := fun a t => t.RING.attr child a = s.RING.attr ind a ∧ t.RING.attr ind a = s.RING.attr ind a)
    (f := fun field => (do
      let v ← rd (fun r => r.getA ind field)
      setAttr child field v : Py (SC K) Unit)) (l := ["T1", "T2", "R1", "R2"]) ?_ ?_ ?_ h (fun _ => rfl)
  · exact key
  · intro f t t' ht hf a
    simp only [bind_eq_ok, rd_eq_ok, setAttr_eq_ok, Ring.getA_eq_ok] at hf
    obtain ⟨v, t1, ⟨hv, ht1⟩, hlt, rfl⟩ := hf
    subst ht1
    rw [Ring.attr_setAttr]
    split
    · rename_i hh; rw [hh.2, ← ht f]; exact hv.symm
    · exact ht a
  · intro f _ t t' ht hf
    simp only [bind_eq_ok, rd_eq_ok, setAttr_eq_ok, Ring.getA_eq_ok] at hf
    obtain ⟨v, t1, ⟨hv, ht1⟩, hlt, rfl⟩ := hf
    subst ht1
    refine ⟨?_, ?_⟩
    · simp only
      rw [Ring.attr_setAttr_same hlt, ← ht f]; exact hv.symm
    · simp only
      rw [Ring.attr_setAttr]
      split
      · rw [← ht f]; simp [hv]
      · exact ht f
  · intro f _ g _ t t' ht hfg hp hf
    simp only [bind_eq_ok, rd_eq_ok, setAttr_eq_ok, Ring.getA_eq_ok] at hf
    obtain ⟨v, t1, ⟨hv, ht1⟩, hlt, rfl⟩ := hf
    subst ht1
    simp only [Ring.attr_setAttr_ne (Ne.symm hfg)]
    exact hp

theorem copyLoop_ok {ind : Nat} {ch : List Nat} {s s' : SC K} (h : forEach ch (copyTransformation ind) s = .ok () s') :
    (∀ a ∈ transformAttrs, s'.RING.attr ind a = s.RING.attr ind a) ∧
    ∀ c ∈ ch, ∀ a ∈ transformAttrs, s'.RING.attr c a = s.RING.attr ind a := by
  let I : SC K → Prop := fun t => ∀ a ∈ transformAttrs, t.RING.attr ind a = s.RING.attr ind a
  have hI : ∀ (x : Nat) (t t' : SC K), I t → copyTransformation ind x t = .ok () t' → I t' :=
    fun x t t' ht hx a ha => ((copyTransformation_ok hx a ha).2).trans (ht a ha)
  refine ⟨?_, forEach_post (I := I) (P := fun c t => ∀ a ∈ transformAttrs, t.RING.attr c a = s.RING.attr ind a) hI ?_ ?_ h
    (fun _ _ => rfl)⟩
  · exact forEach_inv (I := I) (fun x _ => hI x) h (fun _ _ => rfl)
  · exact fun c _ t t' ht hc a ha => ((copyTransformation_ok hc a ha).1).trans (ht a ha)
  · intro x _ y _ t t' ht hxy hp hx a ha
    rw [← hp a ha]
    have := (copyTransformation_frame ind x).ok hx
    exact this.attr _ _ (fun hh => hxy hh.1.symm)

/-- a magnet's pass: values stored, and everything else left alone -/
theorem updateMagnetSupport_ok {E : Env K} {x y z ro pi ya : List K} {p : Nat × Nat} {s s' : SC K}
    (h : updateMagnetSupport E [x, y, z] [ro, pi, ya] p s = .ok () s') :
    Frame (passWrites s.RING p.1) s s' ∧ p.1 < s.RING.length ∧
    (∃ a b c, x[p.2]? = some a ∧ y[p.2]? = some b ∧ z[p.2]? = some c ∧
      s'.RING.attr p.1 "SupportOffset" = some (.vec [a, b, c])) ∧
    (∃ a b c, ro[p.2]? = some a ∧ pi[p.2]? = some b ∧ ya[p.2]? = some c ∧
      s'.RING.attr p.1 "SupportRoll" = some (.vec [a, b, c])) ∧
    Placed E s'.RING p.1 ∧
    (∀ l, s.RING.attr p.1 "MasterOf" = some (.ords l) → ∀ c ∈ l, ∀ a ∈ transformAttrs,
      s'.RING.attr c a = s'.RING.attr p.1 a) := by
  obtain ⟨i, m⟩ := p
  unfold updateMagnetSupport updateTransformation at h
  simp only [bind_eq_ok, lift_eq_ok, rd_eq_ok] at h
  obtain ⟨off, s0, ⟨hoff, hs0⟩, ⟨⟩, s1, h1, roll, s1', ⟨hroll, rfl⟩, ⟨⟩, s2, h2, ⟨⟩, s6, ⟨inp, s2', ⟨hinp, rfl⟩, t, s2', ⟨ht, rfl⟩,
    ⟨⟩, s3, h3, ⟨⟩, s4, h4, ⟨⟩, s5, h5, h6⟩, ch, s6', ⟨hch, rfl⟩, h7⟩ := h
  subst hs0
  rw [setAttr_eq_ok] at h1 h2 h3 h4 h5 h6
  obtain ⟨hlt, rfl⟩ := h1
  obtain ⟨-, rfl⟩ := h2
  obtain ⟨-, rfl⟩ := h3
  obtain ⟨-, rfl⟩ := h4
  obtain ⟨-, rfl⟩ := h5
  obtain ⟨-, rfl⟩ := h6
  obtain ⟨a, b, c, xa, yb, zc, rfl⟩ := column3 hoff
  obtain ⟨a', b', c', xa', yb', zc', rfl⟩ := column3 hroll
  have hmaster : ∀ j, j ∈ ch ↔ ∃ l, s0.RING.attr i "MasterOf" = some (.ords l) ∧ j ∈ l := by
    intro j
    rw [masterChildren_eq_ok hch]
    simp [Ring.attr_setAttr]
  have f7 := (Modifies.forEach (l := ch) (W := fun j a => a ∈ transformAttrs ∧ j ∈ ch) (fun x hx =>
    (copyTransformation_frame i x).mono (fun j a hh => ⟨hh.2, hh.1 ▸ hx⟩))).ok h7
  obtain ⟨hs, hc⟩ := copyLoop_ok h7
  have hlt' : i < s0.RING.length := hlt
  have other : ∀ a, a ∉ transformAttrs → s'.RING.attr i a = _ := fun a ha => f7.attr i a (fun hh => ha hh.1)
  have hso : s'.RING.attr i "SupportOffset" = some (.vec [a, b, c]) := by
    rw [other _ (by decide)]; simp [Ring.attr_setAttr, hlt']
  have hsr : s'.RING.attr i "SupportRoll" = some (.vec [a', b', c']) := by
    rw [other _ (by decide)]; simp [Ring.attr_setAttr, hlt']
  refine ⟨?_, hlt, ⟨a, b, c, xa, yb, zc, hso⟩, ⟨a', b', c', xa', yb', zc', hsr⟩, ?_, ?_⟩
  · refine Frame.trans _ _ _ ?_ (f7.mono (fun j a hh => Or.inr ⟨hh.1, (hmaster j).1 hh.2⟩))
    refine ⟨rfl, rfl, rfl, rfl, rfl, by simp, fun j d hj => ?_⟩
    have hj : ¬ (j = i ∧ d ∈ supportWrites) := fun hh => hj (Or.inl hh)
    have : ∀ e ∈ supportWrites, ¬ (j = i ∧ d = e) := fun e he hh => hj ⟨hh.1, hh.2 ▸ he⟩
    simp only [Ring.attr_setAttr, if_neg (this _ (show "SupportOffset" ∈ supportWrites by decide)),
      if_neg (this _ (show "SupportRoll" ∈ supportWrites by decide)), if_neg (this _ (show "R1" ∈ supportWrites by decide)),
      if_neg (this _ (show "R2" ∈ supportWrites by decide)), if_neg (this _ (show "T1" ∈ supportWrites by decide)),
      if_neg (this _ (show "T2" ∈ supportWrites by decide))]
  · unfold transformInput at hinp
    simp only [Except.bind_eq_ok', Ring.getVec_eq_ok, Except.ok.injEq, vadd] at hinp
    obtain ⟨len, hlen, th, hth, so, hso', mo, hmo, offs, hoffs, mr, hmr, sr, hsr', rls, hrls, rfl⟩ := hinp
    have e1 := numOr0_eq_ok hlen
    have e2 := numOr0_eq_ok hth
    simp [Ring.attr_setAttr, hlt'] at hso' hsr' hmo hmr
    subst hso' hsr'
    rw [Except.ite_eq_ok] at hoffs hrls
    rcases hoffs with ⟨hl, hoffs⟩ | ⟨-, hoffs⟩
    swap
    · cases hoffs
    rcases hrls with ⟨hl', hrls⟩ | ⟨-, hrls⟩
    swap
    · cases hrls
    cases hoffs
    cases hrls
    obtain ⟨mx, my, mz, rfl⟩ : ∃ x y z, mo = [x, y, z] := by
      match mo, hl with
      | [x, y, z], _ => exact ⟨x, y, z, rfl⟩
    obtain ⟨mx', my', mz', rfl⟩ : ∃ x y z, mr = [x, y, z] := by
      match mr, hl' with
      | [x, y, z], _ => exact ⟨x, y, z, rfl⟩
    refine ⟨a, b, c, mx, my, mz, a', b', c', mx', my', mz', t, hso, ?_, hsr, ?_, ?_, ?_, ?_, ?_, ?_⟩
    · rw [other _ (by decide)]; simp [Ring.attr_setAttr, hmo]
    · rw [other _ (by decide)]; simp [Ring.attr_setAttr, hmr]
    · rw [numAt_congr (other "Length" (by decide)), numAt_congr (other "BendingAngle" (by decide))]
      rw [e1, e2] at ht
      simp only [numAt, Ring.attr_setAttr] at ht ⊢
      simpa [rollLeft] using ht
    · rw [hs _ (by decide)]; simp [Ring.attr_setAttr, hlt']
    · rw [hs _ (by decide)]; simp [Ring.attr_setAttr, hlt']
    · rw [hs _ (by decide)]; simp [Ring.attr_setAttr, hlt']
    · rw [hs _ (by decide)]; simp [Ring.attr_setAttr, hlt']
  · intro l hl c hcl d hd
    rw [hc c ((hmaster c).2 ⟨l, hl, hcl⟩) d hd, hs d hd]

/-! ### the whole of `update_supports` -/

theorem zipIdx_fst_inj {l : List Nat} (hl : l.Nodup) {p q : Nat × Nat} (hp : p ∈ l.zipIdx) (hq : q ∈ l.zipIdx) (h : p ≠ q) :
    p.1 ≠ q.1 := by
  intro he
  obtain ⟨i, m⟩ := p
  obtain ⟨j, n⟩ := q
  simp only at he
  subst he
  rw [List.mem_zipIdx_iff_getElem?] at hp hq
  simp only at hp hq
  have hm := (List.getElem?_eq_some_iff.1 hp)
  have hn := (List.getElem?_eq_some_iff.1 hq)
  have : m = n := (List.Nodup.getElem_inj_iff hl (hi := hm.1) (hj := hn.1)).1 (hm.2.trans hn.2.symm)
  exact h (by rw [this])

theorem Increasing.nodup {l : List Nat} (h : Increasing l) : l.Nodup := List.Pairwise.imp (fun h => Nat.ne_of_lt h) h

theorem length_le_of_lt {l : List Nat} (h : Increasing l) {n : Nat} (hn : ∀ i ∈ l, i < n) : l.length ≤ n := by
  have := (List.subperm_of_subset h.nodup (l₂ := List.range n) (fun i hi => by simpa using hn i hi)).length_le
  simpa using this

theorem placed_congr {E : Env K} {r r' : Ring K} {i : Nat} (h : ∀ a, r'.attr i a = r.attr i a) (hp : Placed E r i) :
    Placed E r' i := by
  unfold Placed at *
  simp only [numAt, h] at *
  exact hp

theorem updateBpmSupport_ok {x y z ro pi ya : List K} {p : Nat × Nat} {s s' : SC K}
    (h : updateBpmSupport [x, y, z] [ro, pi, ya] p s = .ok () s') :
    Frame (fun j a => j = p.1 ∧ a ∈ ["SupportOffset", "SupportRoll"]) s s' ∧ p.1 < s.RING.length ∧
    (∃ a b, x[p.2]? = some a ∧ y[p.2]? = some b ∧ s'.RING.attr p.1 "SupportOffset" = some (.vec [a, b])) ∧
    (∃ a, ro[p.2]? = some a ∧ s'.RING.attr p.1 "SupportRoll" = some (.num a)) := by
  have hf : Modifies (fun j a => j = p.1 ∧ a ∈ ["SupportOffset", "SupportRoll"])
      (updateBpmSupport [x, y, z] [ro, pi, ya] p) := by
    unfold updateBpmSupport
    exact Modifies.bind (Modifies.lift _) (fun _ => Modifies.bind (Modifies.setAttr ⟨rfl, by simp⟩) (fun _ =>
      Modifies.bind (Modifies.lift _) (fun _ => Modifies.bind (Modifies.lift _) (fun _ => Modifies.setAttr ⟨rfl, by simp⟩))))
  refine ⟨hf.ok h, ?_⟩
  unfold updateBpmSupport column at h
  simp only [List.take_succ_cons, List.take_zero, List.mapM_cons, List.mapM_nil, bind_eq_ok, lift_eq_ok, setAttr_eq_ok] at h
  obtain ⟨off, s0, ⟨hoff, hs0⟩, ⟨⟩, s1, ⟨hlt, rfl⟩, row, s1', ⟨hrow, hs1⟩, v, s2, ⟨hv, hs2⟩, -, rfl⟩ := h
  subst hs0 hs1 hs2
  simp only [Except.bind_eq_ok', pure, Except.pure, Except.ok.injEq, idx_eq_ok] at hoff hrow hv
  obtain ⟨a, ha, _, ⟨b, hb, _, rfl, rfl⟩, rfl⟩ := hoff
  simp only [List.getElem?_cons_zero, Option.some.injEq] at hrow
  subst hrow
  refine ⟨hlt, ⟨a, b, ha, hb, ?_⟩, v, hv, ?_⟩
  · simp [Ring.attr_setAttr, hlt]
  · simp [Ring.attr_setAttr, hlt]

theorem updateMagnetSupport_lt {E : Env K} {offs rolls : List (List K)} {p : Nat × Nat} {s s' : SC K}
    (h : updateMagnetSupport E offs rolls p s = .ok () s') : p.1 < s.RING.length := by
  unfold updateMagnetSupport at h
  simp only [bind_eq_ok, lift_eq_ok, setAttr_eq_ok] at h
  obtain ⟨off, s0, ⟨hoff, hs0⟩, ⟨⟩, s1, ⟨hlt, rfl⟩, -⟩ := h
  rw [hs0] at hlt
  exact hlt

theorem updateBpmSupport_lt {offs rolls : List (List K)} {p : Nat × Nat} {s s' : SC K}
    (h : updateBpmSupport offs rolls p s = .ok () s') : p.1 < s.RING.length := by
  unfold updateBpmSupport at h
  simp only [bind_eq_ok, lift_eq_ok, setAttr_eq_ok] at h
  obtain ⟨off, s0, ⟨hoff, hs0⟩, ⟨⟩, s1, ⟨hlt, rfl⟩, -⟩ := h
  rw [hs0] at hlt
  exact hlt

theorem updateMagnetSupport_frame (E : Env K) (offs rolls : List (List K)) (p : Nat × Nat) :
    Rel (Frame (K := K) (fun _ a => a ∈ supportWrites)) (updateMagnetSupport E offs rolls p) := by
  unfold updateMagnetSupport updateTransformation copyTransformation
  rels <;> first
    | exact Frame.setAttr (by decide)
    | (rename_i h _ _; refine Frame.setAttr ?_; simp [supportWrites] at h ⊢; tauto)

theorem updateBpmSupport_frame (offs rolls : List (List K)) (p : Nat × Nat) :
    Rel (Frame (K := K) (fun _ a => a ∈ supportWrites)) (updateBpmSupport offs rolls p) := by
  unfold updateBpmSupport
  rels <;> exact Frame.setAttr (by decide)

/-- every pass of a loop over elements succeeds only for elements of the ring -/
theorem loop_lt {l : List Nat} {f : Nat × Nat → Py (SC K) Unit} {W : Nat → String → Prop}
    (hW : ∀ p, Rel (Frame W) (f p)) (hlt : ∀ p s s', f p s = .ok () s' → p.1 < s.RING.length) {s s' : SC K}
    (h : forEach l.zipIdx f s = .ok () s') : ∀ i ∈ l, i < s.RING.length := by
  intro i hi
  obtain ⟨m, hm, rfl⟩ := List.mem_iff_getElem.1 hi
  have hz : (l[m], m) ∈ l.zipIdx := by rw [List.mem_zipIdx_iff_getElem?]; simp [hm]
  exact forEach_post (I := fun t => t.RING.length = s.RING.length) (P := fun p _ => p.1 < s.RING.length)
    (fun p t t' ht hp => ((hW p).ok hp).len.trans ht) (fun p _ t t' ht hp => ht ▸ hlt p t t' hp)
    (fun _ _ _ _ _ _ _ _ h _ => h) h rfl (l[m], m) hz

/-- what a magnet carries after the loop over the magnets -/
theorem magnetLoop_ok {E : Env K} {x y z ro pi ya : List K} {l : List Nat} (hl : Increasing l) {s s' : SC K}
    (h : forEach l.zipIdx (updateMagnetSupport E [x, y, z] [ro, pi, ya]) s = .ok () s') :
    ∀ p ∈ l.zipIdx,
      (∃ a b c, x[p.2]? = some a ∧ y[p.2]? = some b ∧ z[p.2]? = some c ∧
        s'.RING.attr p.1 "SupportOffset" = some (.vec [a, b, c])) ∧
      (∃ a b c, ro[p.2]? = some a ∧ pi[p.2]? = some b ∧ ya[p.2]? = some c ∧
        s'.RING.attr p.1 "SupportRoll" = some (.vec [a, b, c])) ∧
      ((∀ i ∈ l, i ≠ p.1 → ¬ ChildOf s.RING i p.1) → Placed E s'.RING p.1 ∧
        ∀ c, ChildOf s.RING p.1 c → (∀ i ∈ l, i ≠ p.1 → c ≠ i ∧ ¬ ChildOf s.RING i c) →
          ∀ a ∈ transformAttrs, s'.RING.attr c a = s'.RING.attr p.1 a) := by
  let I : SC K → Prop := fun t => Frame (fun _ a => a ∈ supportWrites) s t
  have hmo : ∀ t, I t → ∀ i, t.RING.attr i "MasterOf" = s.RING.attr i "MasterOf" := fun t ht i => ht.attr i _ (by decide)
  refine forEach_post (I := I) (P := fun p t =>
      (∃ a b c, x[p.2]? = some a ∧ y[p.2]? = some b ∧ z[p.2]? = some c ∧
        t.RING.attr p.1 "SupportOffset" = some (.vec [a, b, c])) ∧
      (∃ a b c, ro[p.2]? = some a ∧ pi[p.2]? = some b ∧ ya[p.2]? = some c ∧
        t.RING.attr p.1 "SupportRoll" = some (.vec [a, b, c])) ∧
      ((∀ i ∈ l, i ≠ p.1 → ¬ ChildOf s.RING i p.1) → Placed E t.RING p.1 ∧
        ∀ c, ChildOf s.RING p.1 c → (∀ i ∈ l, i ≠ p.1 → c ≠ i ∧ ¬ ChildOf s.RING i c) →
          ∀ a ∈ transformAttrs, t.RING.attr c a = t.RING.attr p.1 a)) (fun p t t' ht hp => Frame.trans _ _ _ ht ((updateMagnetSupport_frame E _ _ p).ok hp)) ?_ ?_ h
    (Frame.refl s)
  · intro p _ t t' ht hp
    obtain ⟨-, -, h1, h2, h3, h4⟩ := updateMagnetSupport_ok hp
    refine ⟨h1, h2, fun _ => ⟨h3, fun c hc _ a ha => ?_⟩⟩
    obtain ⟨l', hl', hcl⟩ := hc
    exact h4 l' (by rw [hmo t ht]; exact hl') c hcl a ha
  · intro q hq p hp t t' ht hne hP hf
    have hne1 := zipIdx_fst_inj hl.nodup hq hp hne
    obtain ⟨hfr, -⟩ := updateMagnetSupport_ok hf
    obtain ⟨h1, h2, h3⟩ := hP
    have hql : q.1 ∈ l := List.fst_mem_of_mem_zipIdx hq
    have keep : ∀ c a, c ≠ q.1 → (a ∈ transformAttrs → ¬ ChildOf s.RING q.1 c) → t'.RING.attr c a = t.RING.attr c a := by
      intro c a hc ha
      refine hfr.attr c a ?_
      rintro (⟨hh, -⟩ | ⟨hh, l', hl', hcl⟩)
      · exact hc hh
      · exact ha hh ⟨l', by rw [← hmo t ht]; exact hl', hcl⟩
    refine ⟨?_, ?_, fun hno => ?_⟩
    · rw [keep p.1 _ (Ne.symm hne1) (fun hh => absurd hh (by decide))]; exact h1
    · rw [keep p.1 _ (Ne.symm hne1) (fun hh => absurd hh (by decide))]; exact h2
    · obtain ⟨h4, h5⟩ := h3 hno
      have hq' := hno q.1 hql hne1
      refine ⟨placed_congr (fun a => keep p.1 a (Ne.symm hne1) (fun _ => hq')) h4, fun c hc hcno a ha => ?_⟩
      obtain ⟨g1, g2⟩ := hcno q.1 hql hne1
      rw [keep c a g1 (fun _ => g2), keep p.1 a (Ne.symm hne1) (fun _ => hq')]
      exact h5 c hc hcno a ha

theorem bpmLoop_ok {x y z ro pi ya : List K} {l : List Nat} (hl : Increasing l) {s s' : SC K}
    (h : forEach l.zipIdx (updateBpmSupport [x, y, z] [ro, pi, ya]) s = .ok () s') :
    (∀ p ∈ l.zipIdx,
      (∃ a b, x[p.2]? = some a ∧ y[p.2]? = some b ∧ s'.RING.attr p.1 "SupportOffset" = some (.vec [a, b])) ∧
      (∃ a, ro[p.2]? = some a ∧ s'.RING.attr p.1 "SupportRoll" = some (.num a))) ∧
    Frame (fun j a => j ∈ l ∧ a ∈ ["SupportOffset", "SupportRoll"]) s s' := by
  refine ⟨forEach_post (I := fun _ => True) (P := fun p t =>
      (∃ a b, x[p.2]? = some a ∧ y[p.2]? = some b ∧ t.RING.attr p.1 "SupportOffset" = some (.vec [a, b])) ∧
      (∃ a, ro[p.2]? = some a ∧ t.RING.attr p.1 "SupportRoll" = some (.num a))) (fun _ _ _ _ _ => trivial) ?_ ?_ h trivial, ?_⟩
  · intro p _ t t' _ hp
    obtain ⟨-, -, h1, h2⟩ := updateBpmSupport_ok hp
    exact ⟨h1, h2⟩
  · intro q hq p hp t t' _ hne hP hf
    have hne1 := zipIdx_fst_inj hl.nodup hq hp hne
    obtain ⟨hfr, -⟩ := updateBpmSupport_ok hf
    have keep : ∀ a, t'.RING.attr p.1 a = t.RING.attr p.1 a := fun a => hfr.attr _ _ (fun hh => hne1 hh.1.symm)
    simp only [keep]
    exact hP
  · refine forEach_inv (I := fun t => Frame _ s t) (fun p hp t t' ht hf => ?_) h (Frame.refl s)
    obtain ⟨hfr, -⟩ := updateBpmSupport_ok hf
    exact Frame.trans _ _ _ ht (hfr.mono (fun j a hh => ⟨hh.1 ▸ List.fst_mem_of_mem_zipIdx hp, hh.2⟩))

theorem updateSupports_ok {E : Env K} {s s' : SC K} (ht : Tidy s.ORD) (hf : Forward s.RING) (hL : Layouts s.RING s.ORD)
    (h : updateSupports E true true s = .ok () s') :
    (∀ i ∈ s.ORD.Magnet, i ∉ s.ORD.BPM → ∀ j, FirstThere s.RING i j →
      s'.RING.attr i "SupportOffset" = some (.vec [displacement s.RING s.ORD 0 j, displacement s.RING s.ORD 1 j,
        displacement s.RING s.ORD 2 j]) ∧
      (NoWrap s.ORD → s'.RING.attr i "SupportRoll" =
        some (.vec [rollAt s.RING s.ORD j, slopeAt s.RING s.ORD 1 j, slopeAt s.RING s.ORD 0 j]))) ∧
    (∀ i ∈ s.ORD.BPM, ∀ j, FirstThere s.RING i j →
      s'.RING.attr i "SupportOffset" = some (.vec [displacement s.RING s.ORD 0 j, displacement s.RING s.ORD 1 j]) ∧
      (NoWrap s.ORD → s'.RING.attr i "SupportRoll" = some (.num (rollAt s.RING s.ORD j)))) ∧
    (∀ i ∈ s.ORD.Magnet, i ∉ s.ORD.BPM → (∀ i' ∈ s.ORD.Magnet, i' ≠ i → ¬ ChildOf s.RING i' i) → Placed E s'.RING i) ∧
    (∀ i ∈ s.ORD.Magnet, (∀ i' ∈ s.ORD.Magnet, i' ≠ i → ¬ ChildOf s.RING i' i) → ∀ c, ChildOf s.RING i c →
      (∀ i' ∈ s.ORD.Magnet, i' ≠ i → c ≠ i' ∧ ¬ ChildOf s.RING i' c) →
        ∀ a ∈ transformAttrs, s'.RING.attr c a = s'.RING.attr i a) := by
  unfold updateSupports at h
  simp only [bind_eq_ok] at h
  obtain ⟨s0, s0', h0, ⟨⟩, s1, h1, h2⟩ := h
  cases h0
  -- magnets
  have mag : Frame (fun _ a => a ∈ supportWrites) s s1 ∧ ∀ (m i : Nat), s.ORD.Magnet[m]? = some i →
      (∀ j, FirstThere s.RING i j →
      s1.RING.attr i "SupportOffset" = some (.vec [displacement s.RING s.ORD 0 j, displacement s.RING s.ORD 1 j,
        displacement s.RING s.ORD 2 j]) ∧
      (NoWrap s.ORD → s1.RING.attr i "SupportRoll" =
        some (.vec [rollAt s.RING s.ORD j, slopeAt s.RING s.ORD 1 j, slopeAt s.RING s.ORD 0 j]))) ∧
      ((∀ i' ∈ s.ORD.Magnet, i' ≠ i → ¬ ChildOf s.RING i' i) → Placed E s1.RING i ∧
        ∀ c, ChildOf s.RING i c → (∀ i' ∈ s.ORD.Magnet, i' ≠ i → c ≠ i' ∧ ¬ ChildOf s.RING i' c) →
          ∀ a ∈ transformAttrs, s1.RING.attr c a = s1.RING.attr i a) := by
    by_cases he : s.ORD.Magnet = []
    · rw [he] at h1
      simp [Py.when, Py.pure] at h1
      subst h1
      exact ⟨Frame.refl s, fun m i hm => by rw [he] at hm; simp at hm⟩
    · have hc : (true && !s.ORD.Magnet.isEmpty) = true := by simp [he]
      rw [hc] at h1
      simp only [Py.when, if_true, bind_eq_ok, rd_eq_ok] at h1
      obtain ⟨⟨offs, rolls⟩, s', ⟨hor, rfl⟩, h1⟩ := h1
      have hlt := loop_lt (fun p => updateMagnetSupport_frame E _ _ p) (fun p t t' => updateMagnetSupport_lt) h1
      obtain ⟨x, y, z, ro, pi, ya, rfl, rfl, hv⟩ := supportAt_eq hf hL (length_le_of_lt ht.Magnet hlt) hor
      refine ⟨(Rels.forEach (fun p _ => updateMagnetSupport_frame E _ _ p)).ok h1, fun m i hm => ?_⟩
      obtain ⟨⟨a, b, c, ha, hb, hc, h3⟩, ⟨a', b', c', ha', hb', hc', h4⟩, h5⟩ :=
        magnetLoop_ok ht.Magnet h1 (i, m) (by rw [List.mem_zipIdx_iff_getElem?]; exact hm)
      refine ⟨fun j hj => ?_, h5⟩
      obtain ⟨g1, g2, g3, g4⟩ := hv m i j hm hj
      simp only at ha hb hc ha' hb' hc' h3 h4
      rw [g1] at ha; rw [g2] at hb; rw [g3] at hc
      cases ha; cases hb; cases hc
      refine ⟨h3, fun hn => ?_⟩
      obtain ⟨g5, g6, g7⟩ := g4 hn
      rw [g5] at ha'; rw [g6] at hb'; rw [g7] at hc'
      cases ha'; cases hb'; cases hc'
      exact h4
  obtain ⟨fm, mag⟩ := mag
  have hss : SameSupports s.RING s1.RING := sameSupports_of_frame fm (fun i a ha => by
    have : ∀ a ∈ "Length" :: supportNamesList, a ∉ supportWrites := by decide
    exact this a ha)
  -- BPMs
  have bpm : Frame (fun j a => j ∈ s.ORD.BPM ∧ a ∈ ["SupportOffset", "SupportRoll"]) s1 s' ∧ ∀ (m i : Nat), s.ORD.BPM[m]? = some i →
      ∀ j, FirstThere s.RING i j →
      s'.RING.attr i "SupportOffset" = some (.vec [displacement s.RING s.ORD 0 j, displacement s.RING s.ORD 1 j]) ∧
      (NoWrap s.ORD → s'.RING.attr i "SupportRoll" = some (.num (rollAt s.RING s.ORD j))) := by
    by_cases he : s.ORD.BPM = []
    · rw [he] at h2
      simp [Py.when, Py.pure] at h2
      subst h2
      exact ⟨Frame.refl s1, fun m i hm => by rw [he] at hm; simp at hm⟩
    · have hc : (true && !s.ORD.BPM.isEmpty) = true := by simp [he]
      rw [hc] at h2
      simp only [Py.when, if_true, bind_eq_ok, rd_eq_ok] at h2
      obtain ⟨⟨offs, rolls⟩, s2, ⟨hor, hs2⟩, h2⟩ := h2
      subst hs2
      have hlt := loop_lt (fun p => updateBpmSupport_frame _ _ p) (fun p t t' => updateBpmSupport_lt) h2
      obtain ⟨x, y, z, ro, pi, ya, rfl, rfl, hv⟩ :=
        supportAt_eq (hss.forward hf) (hss.layouts hL) (length_le_of_lt ht.BPM hlt) hor
      obtain ⟨hb1, hb2⟩ := bpmLoop_ok ht.BPM h2
      refine ⟨hb2, fun m i hm j hj => ?_⟩
      obtain ⟨⟨a, b, ha, hb, h3⟩, ⟨a', ha', h4⟩⟩ := hb1 (i, m) (by rw [List.mem_zipIdx_iff_getElem?]; exact hm)
      obtain ⟨g1, g2, g3, g4⟩ := hv m i j hm (hss.firstThere hj)
      simp only [hss.displacement, hss.rollAt] at ha hb ha' h3 h4 g1 g2 g4
      rw [g1] at ha; rw [g2] at hb
      cases ha; cases hb
      refine ⟨h3, fun hn => ?_⟩
      have g5 := (g4 hn).1
      rw [g5] at ha'
      cases ha'
      exact h4
  obtain ⟨fb, bpm⟩ := bpm
  refine ⟨fun i hi hib j hj => ?_, fun i hi j hj => ?_, fun i hi hib hno => ?_, fun i hi hno c hc hcno a ha => ?_⟩
  · obtain ⟨m, hm⟩ := List.mem_iff_getElem?.1 hi
    have := (mag m i hm).1 j hj
    rw [fb.attr i _ (fun hh => hib hh.1), fb.attr i _ (fun hh => hib hh.1)]
    exact this
  · obtain ⟨m, hm⟩ := List.mem_iff_getElem?.1 hi
    exact bpm m i hm j hj
  · obtain ⟨m, hm⟩ := List.mem_iff_getElem?.1 hi
    exact placed_congr (fun a => fb.attr i a (fun hh => hib hh.1)) ((mag m i hm).2 hno).1
  · obtain ⟨m, hm⟩ := List.mem_iff_getElem?.1 hi
    have hna : a ∉ ["SupportOffset", "SupportRoll"] := by
      have : ∀ a ∈ transformAttrs, a ∉ ["SupportOffset", "SupportRoll"] := by decide
      exact this a ha
    rw [fb.attr c a (fun hh => hna hh.2), fb.attr i a (fun hh => hna hh.2)]
    exact ((mag m i hm).2 hno).2 c hc hcno a ha

/-! ### the flags of `update_supports` -/

/-- `support_offset_and_roll` gives three rows of offsets and three of rolls -/
theorem supportAt_rows {r : Ring K} {o : Ords} {ords : List Nat} {or : List (List K) × List (List K)}
    (h : supportAt r o ords = .ok or) :
    ∃ x y z roll pitch yaw : List K, or = ([x, y, z], [roll, pitch, yaw]) := by
  unfold supportAt positions at h
  rw [Except.bind_eq_ok'] at h
  obtain ⟨locs, h1, h2⟩ := h
  unfold supportOffsetAndRoll at h2
  simp only [Except.bind_eq_ok'] at h2
  obtain ⟨x, hx, y, hy, z, hz, rr, hr, h3⟩ := h2
  have hrr : ∃ a b c, rr = [a, b, c] := by
    unfold rollRows at hr
    simp only [Except.bind_eq_ok', Except.ok.injEq] at hr
    obtain ⟨a, -, b, -, c, -, rfl⟩ := hr
    exact ⟨a, b, c, rfl⟩
  obtain ⟨ra, rb, rc, rfl⟩ := hrr
  by_cases hne : locs ≠ findspos r
  · rw [if_pos hne] at h3
    simp only [Except.bind_eq_ok', Except.ok.injEq] at h3
    obtain ⟨off, hoff, rl, hrl, rfl⟩ := h3
    simp only [List.mapM_cons, List.mapM_nil, Except.bind_eq_ok', pure, Except.pure, Except.ok.injEq] at hoff hrl
    obtain ⟨x', hx', _, ⟨y', hy', _, ⟨z', hz', _, rfl, rfl⟩, rfl⟩, rfl⟩ := hoff
    obtain ⟨a', ha', _, ⟨b', hb', _, ⟨c', hc', _, rfl, rfl⟩, rfl⟩, rfl⟩ := hrl
    exact ⟨x', y', z', a', b', c', rfl⟩
  · rw [if_neg hne] at h3
    cases h3
    exact ⟨x, y, z, ra, rb, rc, rfl⟩

theorem updateSupports_none (E : Env K) (s : SC K) : updateSupports E false false s = .ok () s := by
  unfold updateSupports
  simp only [Bool.false_and]
  rfl

theorem updateSupports_bpms {E : Env K} {s s' : SC K} (ht : Tidy s.ORD) (h : updateSupports E true false s = .ok () s') :
    Frame (fun i a => i ∈ s.ORD.BPM ∧ a ∈ ["SupportOffset", "SupportRoll"]) s s' := by
  unfold updateSupports at h
  simp only [bind_eq_ok] at h
  obtain ⟨s0, s0', h0, ⟨⟩, s1, h1, h2⟩ := h
  cases h0
  simp only [Bool.false_and, Py.when] at h1
  cases h1
  by_cases he : s.ORD.BPM = []
  · rw [he] at h2
    simp [Py.when, Py.pure] at h2
    subst h2
    exact Frame.refl s
  · have hc : (true && !s.ORD.BPM.isEmpty) = true := by simp [he]
    rw [hc] at h2
    simp only [Py.when, if_true, bind_eq_ok, rd_eq_ok] at h2
    obtain ⟨or, s2, ⟨hor, hs2⟩, h2⟩ := h2
    subst hs2
    obtain ⟨x, y, z, ro, pi, ya, rfl⟩ := supportAt_rows hor
    exact (bpmLoop_ok ht.BPM h2).2

theorem updateSupports_magnets {E : Env K} {s s' : SC K} (h : updateSupports E false true s = .ok () s') :
    Frame (fun i a => (i ∈ s.ORD.Magnet ∧ a ∈ supportWrites) ∨
      (a ∈ transformAttrs ∧ ∃ m ∈ s.ORD.Magnet, ChildOf s.RING m i)) s s' := by
  unfold updateSupports at h
  simp only [bind_eq_ok] at h
  obtain ⟨s0, s0', h0, ⟨⟩, s1, h1, h2⟩ := h
  cases h0
  simp only [Bool.false_and, Py.when] at h2
  cases h2
  by_cases he : s.ORD.Magnet = []
  · rw [he] at h1
    simp [Py.when, Py.pure] at h1
    subst h1
    exact Frame.refl s
  · have hc : (true && !s.ORD.Magnet.isEmpty) = true := by simp [he]
    rw [hc] at h1
    simp only [Py.when, if_true, bind_eq_ok, rd_eq_ok] at h1
    obtain ⟨or, s2, ⟨hor, hs2⟩, h1⟩ := h1
    subst hs2
    obtain ⟨x, y, z, ro, pi, ya, rfl⟩ := supportAt_rows hor
    refine forEach_inv (I := fun t => Frame _ s2 t) (fun p hp t t' hI hf => ?_) h1 (Frame.refl _)
    obtain ⟨hfr, -⟩ := updateMagnetSupport_ok hf
    have hm := List.fst_mem_of_mem_zipIdx hp
    refine Frame.trans _ _ _ hI (hfr.mono (fun j a hh => ?_))
    rcases hh with ⟨rfl, ha⟩ | ⟨ha, l, hl, hj⟩
    · exact Or.inl ⟨hm, ha⟩
    · refine Or.inr ⟨ha, p.1, hm, l, ?_, hj⟩
      rw [← hI.attr p.1 "MasterOf" (by rintro (⟨-, hh⟩ | ⟨hh, -⟩) <;> revert hh <;> decide)]
      exact hl

theorem updateSupports_split {E : Env K} {s s' : SC K} : updateSupports E true true s = .ok () s' ↔
    ∃ s1, updateSupports E false true s = .ok () s1 ∧ updateSupports E true false s1 = .ok () s' := by
  have hord : ∀ s1, updateSupports E false true s = .ok () s1 → s1.ORD = s.ORD := fun s1 h =>
    ((updateSupports_frame E false true).ok h).ord
  constructor
  · intro h
    unfold updateSupports at h
    simp only [bind_eq_ok] at h
    obtain ⟨s0, s0', h0, ⟨⟩, s1, h1, h2⟩ := h
    cases h0
    have g1 : updateSupports E false true s = .ok () s1 := by
      unfold updateSupports
      simp only [bind_eq_ok]
      exact ⟨s, s, rfl, (), s1, h1, rfl⟩
    refine ⟨s1, g1, ?_⟩
    unfold updateSupports
    simp only [bind_eq_ok]
    refine ⟨s1, s1, rfl, (), s1, rfl, ?_⟩
    rw [hord s1 g1]
    exact h2
  · rintro ⟨s1, h1, h2⟩
    have ho := hord s1 h1
    unfold updateSupports at h1 h2 ⊢
    simp only [bind_eq_ok] at h1 h2 ⊢
    obtain ⟨s0, s0', h0, ⟨⟩, s1', h1, h1'⟩ := h1
    cases h0
    cases h1'
    obtain ⟨s0, s0', h0, ⟨⟩, s2, h2', h2⟩ := h2
    cases h0
    cases h2'
    rw [ho] at h2
    exact ⟨s, s, rfl, (), s1, h1, h2⟩

theorem childOf_congr {r r' : Ring K} {i c : Nat} (h : r'.attr i "MasterOf" = r.attr i "MasterOf") :
    ChildOf r' i c ↔ ChildOf r i c := by unfold ChildOf; rw [h]

theorem updateSupports_onSupports {E : Env K} {s s' : SC K} (ht : Tidy s.ORD) (hf : Forward s.RING)
    (hL : Layouts s.RING s.ORD) (h : updateSupports E true true s = .ok () s') : OnSupports E s'.RING s.ORD := by
  have fr := (updateSupports_frame E true true).ok h
  have hss : SameSupports s.RING s'.RING := sameSupports_of_frame fr (fun i a ha => by
    have : ∀ a ∈ "Length" :: supportNamesList, a ∉ supportWrites := by decide
    exact this a ha)
  have hc : ∀ i c, ChildOf s'.RING i c ↔ ChildOf s.RING i c := fun i c => childOf_congr (fr.attr i _ (by decide))
  obtain ⟨h1, h2, h3, h4⟩ := updateSupports_ok ht hf hL h
  constructor
  · intro i hi hb j hj
    rw [hss.displacement, hss.displacement, hss.displacement, hss.rollAt, hss.slopeAt, hss.slopeAt]
    exact h1 i hi hb j (hss.symm.firstThere hj)
  · intro i hi j hj
    rw [hss.displacement, hss.displacement, hss.rollAt]
    exact h2 i hi j (hss.symm.firstThere hj)
  · intro i hi hb hno
    simp only [hc] at hno
    exact h3 i hi hb hno
  · intro i hi hno c hcc hno' a ha
    simp only [hc] at hno hcc hno'
    exact h4 i hi hno c hcc hno' a ha

theorem onSupports_congr {E : Env K} {r r' : Ring K} {o : Ords} (hss : SameSupports r r')
    (ha : ∀ i a, a ∈ ["SupportOffset", "SupportRoll", "MagnetOffset", "MagnetRoll", "Length", "BendingAngle", "T1", "T2", "R1", "R2",
      "MasterOf"] → r'.attr i a = r.attr i a) (h : OnSupports E r o) : OnSupports E r' o := by
  have hc : ∀ i c, ChildOf r' i c ↔ ChildOf r i c := fun i c => childOf_congr (ha i _ (by simp))
  constructor
  · intro i hi hb j hj
    rw [hss.displacement, hss.displacement, hss.displacement, hss.rollAt, hss.slopeAt, hss.slopeAt, ha i _ (by simp), ha i _ (by simp)]
    exact h.magnet i hi hb j (hss.symm.firstThere hj)
  · intro i hi j hj
    rw [hss.displacement, hss.displacement, hss.rollAt, ha i _ (by simp), ha i _ (by simp)]
    exact h.bpm i hi j (hss.symm.firstThere hj)
  · intro i hi hb hno
    simp only [hc] at hno
    have := h.placed i hi hb hno
    unfold Placed at *
    rw [ha i "SupportOffset" (by simp), ha i "MagnetOffset" (by simp), ha i "SupportRoll" (by simp), ha i "MagnetRoll" (by simp),
      ha i "T1" (by simp), ha i "T2" (by simp), ha i "R1" (by simp), ha i "R2" (by simp), numAt_congr (ha i "Length" (by simp)),
      numAt_congr (ha i "BendingAngle" (by simp))]
    exact this
  · intro i hi hno c hcc hno' a haa
    simp only [hc] at hno hcc hno'
    have hm : a ∈ ["SupportOffset", "SupportRoll", "MagnetOffset", "MagnetRoll", "Length", "BendingAngle", "T1", "T2", "R1", "R2",
      "MasterOf"] := by
      have : ∀ a ∈ transformAttrs, a ∈ ["SupportOffset", "SupportRoll", "MagnetOffset", "MagnetRoll", "Length", "BendingAngle",
        "T1", "T2", "R1", "R2", "MasterOf"] := by decide
      exact this a haa
    rw [ha c a hm, ha i a hm]
    exact h.children i hi hno c hcc hno' a haa

end ord
end PySC
