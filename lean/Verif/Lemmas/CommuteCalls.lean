import Verif.Lemmas.Commute
/-
Which elements the methods of `SimulatedCommissioning` read and write (C91).
-/
namespace PySC
set_option linter.unusedSectionVars false
variable {K : Type} [Field K] [LinearOrder K] [FloorRing K]
open Py Spec

variable {o : List Nat} {S : Nat → Prop}

theorem mapM_except_congr {α β : Type _} {f g : α → Except Err β} {l : List α} (h : ∀ x ∈ l, f x = g x) : l.mapM f = l.mapM g := by
  induction l with
  | nil => rfl
  | cons x xs ih =>
    rw [List.mapM_cons, List.mapM_cons, h x (by simp), ih (fun y hy => h y (by simp [hy]))]

/-! ### magnets -/

theorem polynoms_local {r r' : Ring K} {i : Nat} (h : r[i]? = r'[i]?) : polynoms r i = polynoms r' i := by
  simp only [polynoms, Ring.getVec, Ring.getA, Ring.getE, h]
theorem addSystematic_local {r r' : Ring K} {i : Nat} (h : r[i]? = r'[i]?) (p : List K × List K) (a b : String) (v : List K) :
    addSystematic r i p a b v = addSystematic r' i p a b v := by
  simp only [addSystematic, Ring.hasA, Ring.getA, Ring.getE, h]
theorem newPolynom_local {r r' : Ring K} {i : Nat} (h : r[i]? = r'[i]?) (p : List K × List K) (a : String) :
    newPolynom r i p a = newPolynom r' i p a := by
  simp only [newPolynom, addSystematic_local h, Ring.hasA, Ring.getA, Ring.getE, h]
theorem bendingErrorTerm_local {r r' : Ring K} {i j : Nat} (h : r[i]? = r'[i]?) (h' : r[j]? = r'[j]?) :
    bendingErrorTerm r i j = bendingErrorTerm r' i j := by
  simp only [bendingErrorTerm, Ring.getNum, Ring.hasA, Ring.getA, Ring.getE, h, h']
theorem combinedFunctionTerm_local {r r' : Ring K} {i j : Nat} (h : r[i]? = r'[i]?) (h' : r[j]? = r'[j]?) :
    combinedFunctionTerm r i j = combinedFunctionTerm r' i j := by
  simp only [combinedFunctionTerm, isCombinedFunction, Ring.getVecAt, Ring.getVec, Ring.getNum, Ring.hasA, Ring.getA, Ring.getE, h, h']

theorem addTerm_loc {i : Nat} (hi : S i) (x : Option K) : Loc o S (fun _ => True) (addTerm (K := K) i x) := by
  cases x with
  | none => exact Loc.pure' trivial
  | some x =>
    refine Loc.bind (Loc.read (fun r r' h => by simp only [Ring.getVec, Ring.getA, Ring.getE, h i hi])) (fun _ _ => ?_)
    refine Loc.bind (Loc.lift (Q := fun _ => True) (fun _ _ => trivial)) (fun _ _ => ?_)
    exact Loc.setAttr hi (Or.inr (by decide))

theorem updateMagnet_loc {i j : Nat} (hi : S i) (hj : S j) : Loc o S (fun _ => True) (updateMagnet (K := K) i j) := by
  unfold updateMagnet
  refine Loc.bind (Loc.read (fun r r' h => polynoms_local (h i hi))) (fun p _ => ?_)
  refine Loc.bind (Loc.forEach (fun x hx => ?_)) (fun _ _ => ?_)
  · refine Loc.bind (Loc.read (fun r r' h => newPolynom_local (h j hj) p x)) (fun v _ => ?_)
    refine Loc.setAttr hj (Or.inr ?_)
    simp only [List.mem_cons, List.not_mem_nil, or_false] at hx
    rcases hx with rfl | rfl <;> decide
  refine Loc.bind (Loc.read (fun r r' h => bendingErrorTerm_local (h i hi) (h j hj))) (fun x _ => ?_)
  refine Loc.bind (addTerm_loc hj x) (fun _ _ => ?_)
  refine Loc.bind (Loc.read (fun r r' h => combinedFunctionTerm_local (h i hi) (h j hj))) (fun x _ => ?_)
  refine Loc.bind (addTerm_loc hj x) (fun _ _ => ?_)
  refine Loc.bind (Loc.read (fun r r' h => by simp only [Ring.getStr, Ring.getA, Ring.getE, h i hi])) (fun pass _ => ?_)
  refine Loc.bind (Loc.when ?_) (fun _ _ => ?_)
  · refine Loc.bind (Loc.read (fun r r' h => by
      simp only [kickAngle, Ring.getVecAt, Ring.getVec, Ring.getA, Ring.getE, h j hj])) (fun k _ => ?_)
    exact Loc.setAttr hj (Or.inr (by decide))
  refine Loc.bind (Loc.read (fun r r' h => by simp only [Ring.getVec, Ring.getA, Ring.getE, h j hj])) (fun p _ => ?_)
  exact Loc.setAttr hj (Or.inr (by decide))

theorem updateMagnetAndChildren_loc {i : Nat} (hi : i ∈ o) (ho : ∀ i ∈ o, S i) :
    Loc o S (fun _ => True) (updateMagnetAndChildren (K := K) i) := by
  unfold updateMagnetAndChildren
  refine Loc.bind (updateMagnet_loc (ho i hi) (ho i hi)) (fun _ _ => ?_)
  refine Loc.bind (Loc.rd (Q := fun l => ∀ j ∈ l, S j) (fun r r' h => by
    simp only [childrenOf, Ring.hasA, Ring.getA, Ring.getE, h i (ho i hi)]) (fun s hk l hl => ?_)) (fun l hl => ?_)
  · rcases childrenOf_eq_ok hl with rfl | h
    · simp
    · exact (hk i hi).2 l h
  · exact Loc.forEach (fun j hj => updateMagnet_loc (ho i hi) (hl j hj))

theorem updateMagnets_loc {l : List Nat} (hl : ∀ i ∈ l, i ∈ o) (ho : ∀ i ∈ o, S i) :
    Loc o S (fun _ => True) (updateMagnets (K := K) (some l)) :=
  Loc.getBind (fun _ _ _ => rfl) (fun _ => Loc.forEach (fun i hi => updateMagnetAndChildren_loc (hl i hi) ho))

theorem setCM1_loc {i : Nat} (hi : S i) (sk : Bool) (m : String) (b : Bool) (x : K) : Loc o S (fun _ => True) (setCM1 sk m b i x) := by
  unfold setCM1
  refine Loc.bind (Loc.read (fun r r' h => by
    simp only [newCM, normBy, clipCM, Ring.getStr, Ring.getNum, Ring.getVec, Ring.hasA, Ring.getA, Ring.getE, h i hi])) (fun v _ => ?_)
  exact Loc.setAttr hi (Or.inr (by revert sk; decide))

theorem setCMSetpoints_loc {l : List Nat} (hl : ∀ i ∈ l, i ∈ o) (ho : ∀ i ∈ o, S i) (sp : NpArr K) (sk : Bool) (m : String) :
    Loc o S (fun _ => True) (setCMSetpoints l sp sk m) := by
  unfold setCMSetpoints
  refine Loc.bind (Loc.lift (Q := fun _ => True) (fun _ _ => trivial)) (fun sps _ => ?_)
  refine Loc.bind (Loc.forEach (fun p hp => ?_)) (fun _ _ => updateMagnets_loc hl ho)
  exact setCM1_loc (ho _ (hl _ (List.of_mem_zip hp).1)) _ _ _ _

theorem dipoleCompensation_loc {i : Nat} (hi : i ∈ o) (ho : ∀ i ∈ o, S i) (x : K) :
    Loc o S (fun _ => True) (dipoleCompensation i x) := by
  unfold dipoleCompensation
  refine Loc.bind (Loc.read (fun r r' h => by
    simp only [bendingAngleOr0, Ring.getNum, Ring.hasA, Ring.getA, Ring.getE, h i (ho i hi)])) (fun ba _ => ?_)
  refine Loc.getBind (fun s t h => ?_) (fun s => Loc.when ?_)
  · simp only [(h i (ho i hi)).oHcm]
  · refine Loc.bind (Loc.read (fun r r' h => by
      simp only [compensatingKick, Ring.getVecAt, Ring.getVec, Ring.getNum, Ring.hasA, Ring.getA, Ring.getE, h i (ho i hi)])) (fun k _ => ?_)
    exact setCMSetpoints_loc (by simpa using hi) ho _ _ _

theorem setMagnet1_loc {i : Nat} (hi : i ∈ o) (ho : ∀ i ∈ o, S i) (sk : Bool) (k : Nat) (b d : Bool) (x : K) :
    Loc o S (fun _ => True) (setMagnet1 sk k b d i x) := by
  unfold setMagnet1
  refine Loc.bind (Loc.read (fun r r' h => by simp only [clipSkew, Ring.hasA, Ring.getA, Ring.getE, h i (ho i hi)])) (fun v _ => ?_)
  refine Loc.bind (Loc.when (dipoleCompensation_loc hi ho v)) (fun _ _ => ?_)
  refine Loc.bind (Loc.read (fun r r' h => by
    simp only [newSetpoint, Ring.getVec, Ring.getA, Ring.getE, h i (ho i hi)])) (fun v _ => ?_)
  exact Loc.setAttr (ho i hi) (Or.inr (by revert sk; decide))

theorem fieldValues_local {r r' : Ring K} {l : List Nat} (h : ∀ i ∈ l, r[i]? = r'[i]?) (a : String) (k : Nat) :
    fieldValues r l a k = fieldValues r' l a k :=
  mapM_except_congr (fun i hi => by simp only [Ring.getVecAt, Ring.getVec, Ring.getA, Ring.getE, h i hi])

theorem setMagnetSetpoints_loc {l : List Nat} (hl : ∀ i ∈ l, i ∈ o) (ho : ∀ i ∈ o, S i) (sp : NpArr K) (sk : Bool) (k : Nat)
    (m : String) (d : Bool) : Loc o S (fun _ => True) (setMagnetSetpoints l sp sk k m d) := by
  unfold setMagnetSetpoints
  refine Loc.bind (Loc.read (fun r r' h => ?_)) (fun sps _ => ?_)
  · simp only [magnetRequest, fieldValues_local (fun i hi => h i (ho i (hl i hi)))]
  refine Loc.bind (Loc.forEach (fun p hp => ?_)) (fun _ _ => updateMagnets_loc hl ho)
  exact setMagnet1_loc (hl _ (List.of_mem_zip hp).1) ho _ _ _ _ _

theorem getCMSetpoints_loc {l : List Nat} (hl : ∀ i ∈ l, S i) (sk : Bool) :
    Loc o S (fun _ => True) (getCMSetpoints (K := K) l sk) :=
  Loc.read (fun r r' h => mapM_except_congr (fun i hi => by
    simp only [getCM1, normBy, Ring.getStr, Ring.getNum, Ring.getVecAt, Ring.getVec, Ring.getA, Ring.getE, h i (hl i hi)]))

/-! ### cavities -/

theorem updateCavityField_loc {i : Nat} (hi : S i) (f : String) : Loc [] S (fun _ => True) (updateCavityField (K := K) i f) := by
  unfold updateCavityField
  refine Loc.bind (Loc.read (fun r r' h => by simp only [cavityField, Ring.getNum, Ring.getA, Ring.getE, h i hi])) (fun x _ => ?_)
  exact Loc.setAttr hi (Or.inl rfl)

theorem updateCavities_loc {l : List Nat} (hl : ∀ i ∈ l, S i) : Loc [] S (fun _ => True) (updateCavities (K := K) (some l)) :=
  Loc.getBind (fun _ _ _ => rfl) (fun _ => Loc.forEach (fun i hi => Loc.forEach (fun _ _ => updateCavityField_loc (hl i hi) _)))

theorem setCavitySetpoints_loc {l : List Nat} (hl : ∀ i ∈ l, S i) (sp : NpArr K) (p m : String) :
    Loc [] S (fun _ => True) (setCavitySetpoints l sp p m) := by
  unfold setCavitySetpoints
  refine Loc.bind (Loc.read (fun r r' h => ?_)) (fun sps _ => ?_)
  · have : l.mapM (fun o => r.getNum o (p ++ "SetPoint")) = l.mapM (fun o => r'.getNum o (p ++ "SetPoint")) :=
      mapM_except_congr (fun i hi => by simp only [Ring.getNum, Ring.getA, Ring.getE, h i (hl i hi)])
    simp only [cavityRequest, this]
  refine Loc.bind (Loc.forEach (fun q hq => ?_)) (fun _ _ => updateCavities_loc hl)
  exact Loc.setAttr (hl _ (List.of_mem_zip hq).1) (Or.inl rfl)

/-! ### multipole errors -/

theorem setSysPol_loc {i : Nat} (hi : S i) (a : String) (k : Nat) (v : List K) :
    Loc [] S (fun _ => True) (setSysPol i a k v) := by
  unfold setSysPol
  refine Loc.bind (Loc.read (fun r r' h => by simp only [Ring.hasA, Ring.getE, h i hi])) (fun b _ => Loc.ite ?_ ?_)
  · refine Loc.bind (Loc.read (fun r r' h => by simp only [Ring.getA, Ring.getE, h i hi])) (fun v _ => ?_)
    refine Loc.bind (Loc.lift (Q := fun _ => True) (fun _ _ => trivial)) (fun _ _ => Loc.setAttr hi (Or.inl rfl))
  · exact Loc.setAttr hi (Or.inl rfl)

theorem setSystematicMultipoles_loc {l : List Nat} (hl : ∀ i ∈ l, S i) (ba : List (K × K)) (k : Nat) (sk : Bool) :
    Loc [] S (fun _ => True) (setSystematicMultipoles l ba k sk) := by
  unfold setSystematicMultipoles
  refine Loc.bind (Loc.lift (Q := fun _ => True) (fun _ _ => trivial)) (fun _ _ => ?_)
  exact Loc.bind (Loc.forEach (fun i hi => Loc.forEach (fun _ _ => setSysPol_loc (hl i hi) _ _ _))) (fun _ _ => Loc.pure' trivial)

/-! ### registration -/

theorem mem_npUnique_congr {a b l : List Nat} {i : Nat} (h : i ∈ a ↔ i ∈ b) : i ∈ npUnique (a ++ l) ↔ i ∈ npUnique (b ++ l) := by
  simp only [mem_npUnique, List.mem_append, h]
theorem mem_npUnique_other {a l : List Nat} {i : Nat} (h : i ∉ l) : i ∈ a ↔ i ∈ npUnique (a ++ l) := by
  simp only [mem_npUnique, List.mem_append, h, or_false]

theorem sigUpdate_get (d : Dict Nat (Kwargs K)) (i j : Nat) (kw : Kwargs K) :
    (sigUpdate d i kw).get? j = if j = i then some (((d.get? i).getD []).update kw) else d.get? j := by
  unfold sigUpdate; rw [Dict.get?_set]

theorem Kids.nil (s : SC K) : Kids [] S s := fun _ h => by simp at h

theorem sigBpm_loc {i : Nat} (hi : S i) (kw : Kwargs K) :
    Loc [] S (fun _ => True) (modSig (fun g => { g with BPM := sigUpdate g.BPM i kw }) : Py (SC K) Unit) := by
  refine Loc.modify (fun s _ => Kids.nil _) (fun s t h j hj => { h j hj with bpm := ?_ })
    (fun s => ⟨fun j hj => { SameAt.refl j s with bpm := ?_ }, { SameWhole.refl s with }⟩)
  · simp only [sigUpdate_get, (h i hi).bpm, (h j hj).bpm]
  · simp only [sigUpdate_get]; rw [if_neg (fun h : j = i => hj (h ▸ hi))]
theorem sigRf_loc {i : Nat} (hi : S i) (kw : Kwargs K) :
    Loc [] S (fun _ => True) (modSig (fun g => { g with RF := sigUpdate g.RF i kw }) : Py (SC K) Unit) := by
  refine Loc.modify (fun s _ => Kids.nil _) (fun s t h j hj => { h j hj with rf := ?_ })
    (fun s => ⟨fun j hj => { SameAt.refl j s with rf := ?_ }, { SameWhole.refl s with }⟩)
  · simp only [sigUpdate_get, (h i hi).rf, (h j hj).rf]
  · simp only [sigUpdate_get]; rw [if_neg (fun h : j = i => hj (h ▸ hi))]
theorem sigMagnet_loc {i : Nat} (hi : S i) (kw : Kwargs K) :
    Loc [] S (fun _ => True) (modSig (fun g => { g with Magnet := sigUpdate g.Magnet i kw }) : Py (SC K) Unit) := by
  refine Loc.modify (fun s _ => Kids.nil _) (fun s t h j hj => { h j hj with magnet := ?_ })
    (fun s => ⟨fun j hj => { SameAt.refl j s with magnet := ?_ }, { SameWhole.refl s with }⟩)
  · simp only [sigUpdate_get, (h i hi).magnet, (h j hj).magnet]
  · simp only [sigUpdate_get]; rw [if_neg (fun h : j = i => hj (h ▸ hi))]

theorem registerBpms_loc {l : List Nat} (hl : ∀ i ∈ l, S i) (kw : Kwargs K) : Loc [] S (fun _ => True) (registerBpms l kw) := by
  unfold registerBpms
  refine Loc.bind (Loc.lift (Q := fun _ => True) (fun _ _ => trivial)) (fun _ _ => ?_)
  refine Loc.bind (Loc.modify (fun s _ => Kids.nil _) (fun s t h j hj => { h j hj with oBpm := mem_npUnique_congr (h j hj).oBpm })
    (fun s => ⟨fun j hj => { SameAt.refl j s with oBpm := mem_npUnique_other (fun h => hj (hl j h)) }, { SameWhole.refl s with }⟩))
    (fun _ _ => Loc.forEach (fun i hi => ?_))
  rw [mem_npUnique] at hi
  exact Loc.bind (sigBpm_loc (hl i hi) kw) (fun _ _ => Loc.forEach (fun _ _ => Loc.setAttr (hl i hi) (Or.inl rfl)))

theorem registerCavities_loc {l : List Nat} (hl : ∀ i ∈ l, S i) (kw : Kwargs K) : Loc [] S (fun _ => True) (registerCavities l kw) := by
  unfold registerCavities
  refine Loc.bind (Loc.lift (Q := fun _ => True) (fun _ _ => trivial)) (fun _ _ => ?_)
  refine Loc.bind (Loc.modify (fun s _ => Kids.nil _) (fun s t h j hj => { h j hj with oRf := mem_npUnique_congr (h j hj).oRf })
    (fun s => ⟨fun j hj => { SameAt.refl j s with oRf := mem_npUnique_other (fun h => hj (hl j h)) }, { SameWhole.refl s with }⟩))
    (fun _ _ => Loc.forEach (fun i hi => ?_))
  rw [mem_npUnique] at hi
  refine Loc.bind (sigRf_loc (hl i hi) kw) (fun _ _ => Loc.forEach (fun f _ => ?_))
  refine Loc.bind (Loc.read (fun r r' h => by simp only [Ring.getA, Ring.getE, h i (hl i hi)])) (fun _ _ => ?_)
  refine Loc.bind (Loc.setAttr (hl i hi) (Or.inl rfl)) (fun _ _ => ?_)
  exact Loc.bind (Loc.setAttr (hl i hi) (Or.inl rfl)) (fun _ _ => Loc.setAttr (hl i hi) (Or.inl rfl))

theorem withKey_loc {kw : Kwargs K} {key : String} {body : Attr K → Py (SC K) Unit} (h : ∀ v, Loc o S (fun _ => True) (body v)) :
    Loc o S (fun _ => True) (withKey kw key body) := by
  unfold withKey
  split
  · exact h _
  · exact Loc.pure' trivial

theorem setCMlimit_loc {i : Nat} (hi : S i) (k : Nat) (v : Attr K) : Loc [] S (fun _ => True) (setCMlimit i k v) := by
  unfold setCMlimit
  refine Loc.bind (Loc.read (fun r r' h => by simp only [Ring.getA, Ring.getE, h i hi])) (fun _ _ => ?_)
  refine Loc.bind (Loc.lift (Q := fun _ => True) (fun _ _ => trivial)) (fun _ _ => ?_)
  refine Loc.bind (Loc.lift (Q := fun _ => True) (fun _ _ => trivial)) (fun _ _ => ?_)
  exact Loc.bind (Loc.lift (Q := fun _ => True) (fun _ _ => trivial)) (fun _ _ => Loc.setAttr hi (Or.inl rfl))

theorem addPolynom_loc {i : Nat} (hi : S i) (f ab : String) : Loc [] S (fun _ => True) (addPolynom (K := K) i f ab) := by
  unfold addPolynom
  refine Loc.bind (Loc.read (fun r r' h => by simp only [Ring.getVec, Ring.getA, Ring.getE, h i hi])) (fun _ _ => ?_)
  refine Loc.bind (Loc.read (fun r r' h => by simp only [Ring.getVec, Ring.getA, Ring.getE, h i hi])) (fun _ _ => ?_)
  exact Loc.setAttr hi (Or.inl rfl)

theorem registerMagnet1_loc {i : Nat} (hi : S i) (l : List Nat) (kw : Kwargs K) :
    Loc [] S (fun _ => True) (registerMagnet1 l kw i) := by
  unfold registerMagnet1
  refine Loc.bind (sigMagnet_loc hi _) (fun _ _ => ?_)
  refine Loc.bind (Loc.forEach (fun ab _ => ?_)) (fun _ _ => ?_)
  · refine Loc.bind (Loc.read (fun r r' h => by simp only [Ring.getVec, Ring.getA, Ring.getE, h i hi])) (fun _ _ => ?_)
    exact Loc.forEach (fun _ _ => Loc.setAttr hi (Or.inl rfl))
  refine Loc.bind (addPolynom_loc hi _ _) (fun _ _ => ?_)
  refine Loc.bind (addPolynom_loc hi _ _) (fun _ _ => ?_)
  refine Loc.bind (addPolynom_loc hi _ _) (fun _ _ => ?_)
  refine Loc.bind (addPolynom_loc hi _ _) (fun _ _ => ?_)
  refine Loc.bind (Loc.forEach (fun _ _ => Loc.setAttr hi (Or.inl rfl))) (fun _ _ => ?_)
  unfold optionalMagnetFields
  refine Loc.bind (withKey_loc (fun _ => Loc.setAttr hi (Or.inl rfl))) (fun _ _ => ?_)
  refine Loc.bind (Loc.when ?_) (fun _ _ => ?_)
  · refine Loc.bind (Loc.read (fun r r' h => by simp only [Ring.hasA, Ring.getE, h i hi])) (fun _ _ => ?_)
    exact Loc.when (Loc.setAttr hi (Or.inl rfl))
  refine Loc.bind (withKey_loc (fun _ => setCMlimit_loc hi _ _)) (fun _ _ => ?_)
  refine Loc.bind (withKey_loc (fun _ => setCMlimit_loc hi _ _)) (fun _ _ => ?_)
  refine Loc.bind (withKey_loc (fun _ => Loc.setAttr hi (Or.inl rfl))) (fun _ _ => ?_)
  refine withKey_loc (fun _ => Loc.bind (Loc.lift (Q := fun _ => True) (fun _ _ => trivial)) (fun _ _ => Loc.setAttr hi (Or.inl rfl)))

theorem registerMagnets_loc {l : List Nat} (hl : ∀ i ∈ l, S i) (kw : Kwargs K) : Loc [] S (fun _ => True) (registerMagnets l kw) := by
  unfold registerMagnets
  refine Loc.bind (Loc.lift (Q := fun _ => True) (fun _ _ => trivial)) (fun _ _ => ?_)
  refine Loc.bind (Loc.modify (fun s _ => Kids.nil _) (fun s t h j hj => { h j hj with oMagnet := ?_, oSkew := ?_, oHcm := ?_, oVcm := ?_ })
    (fun s => ⟨fun j hj => { SameAt.refl j s with oMagnet := ?_, oSkew := ?_, oHcm := ?_, oVcm := ?_ }, { SameWhole.refl s with }⟩))
    (fun _ _ => Loc.forEach (fun i hi => registerMagnet1_loc (hl i hi) l kw))
  · exact mem_npUnique_congr (h j hj).oMagnet
  · dsimp only [magnetOrds]; split
    · exact mem_npUnique_congr (h j hj).oSkew
    · exact (h j hj).oSkew
  · dsimp only [magnetOrds]; split
    · exact mem_npUnique_congr (h j hj).oHcm
    · exact (h j hj).oHcm
  · dsimp only [magnetOrds]; split
    · exact mem_npUnique_congr (h j hj).oVcm
    · exact (h j hj).oVcm
  · exact mem_npUnique_other (fun h => hj (hl j h))
  · dsimp only [magnetOrds]; split
    · exact mem_npUnique_other (fun h => hj (hl j h))
    · exact .rfl
  · dsimp only [magnetOrds]; split
    · exact mem_npUnique_other (fun h => hj (hl j h))
    · exact .rfl
  · dsimp only [magnetOrds]; split
    · exact mem_npUnique_other (fun h => hj (hl j h))
    · exact .rfl

end PySC
