import Verif.Lemmas.SupportWriter
import Verif.Lemmas.RequestsRun
import Verif.Spec.Alignment
/-
Alignment through sequences of operations.
-/
namespace PySC
open Py Spec
set_option linter.unusedSectionVars false
variable {K : Type} [Field K] [LinearOrder K] [FloorRing K]

/-- the relation: an aligned machine stays aligned -/
def AlignKept (E : Env K) (s s' : SC K) : Prop := Aligned E s → BpmsApart s → Aligned E s' ∧ BpmsApart s'

instance (E : Env K) : PreRel (AlignKept E) :=
  ⟨fun _ h1 h2 => ⟨h1, h2⟩, fun _ _ _ f g h1 h2 => by obtain ⟨h3, h4⟩ := f h1 h2; exact g h3 h4⟩

theorem Spec.BpmsApart.keep {s s' : SC K} (h : BpmsApart s) (ho : s'.ORD = s.ORD)
    (hm : ∀ i, s'.RING.attr i "MasterOf" = s.RING.attr i "MasterOf") : BpmsApart s' := by
  intro i hi t ht
  rw [ho] at hi ht
  have := h i hi t ht
  unfold Affects at *
  rwa [hm]

theorem alignKept_of_same {E : Env K} {s s' : SC K} (ho : s'.ORD = s.ORD) (hl : s'.RING.length = s.RING.length)
    (ha : ∀ i a, a ∈ supportReads ++ supportWrites → s'.RING.attr i a = s.RING.attr i a) : AlignKept E s s' :=
  fun h1 h2 => ⟨updateSupports_keep h1 ho hl ha, h2.keep ho (fun i => ha i _ (by decide +kernel))⟩

theorem alignKept_of_frame {E : Env K} {P : Nat → String → Prop} {s s' : SC K} (f : Frame P s s')
    (h : ∀ i a, a ∈ supportReads ++ supportWrites → ¬ P i a) : AlignKept E s s' :=
  alignKept_of_same f.ord f.len (fun i a ha => f.attr i a (h i a ha))

/-- `update_supports` with any flags changes nothing on an aligned machine -/
theorem updateSupports_aligned {E : Env K} {s : SC K} (h : Aligned E s) (ha : BpmsApart s) (b m : Bool) :
    updateSupports E b m s = .ok () s := by
  obtain ⟨W, hW, he⟩ := (updateSupports_writes E true true _ _ _).1 h
  have e : s.RING = s.RING.write W := congrArg SC.RING he
  simp only [allSupportWrites, Except.bind_eq_ok'] at hW
  obtain ⟨W1, h1, W2, h2, hW⟩ := hW
  cases hW
  have k1 : s.RING.write W1 = s.RING := by
    refine Ring.ext_attr (by simp) (fun i a => ?_)
    rw [Ring.attr_write]
    cases hw : lastWrite W1 i a with
    | none => rfl
    | some v =>
      obtain ⟨j, hj, haf⟩ := magnetsSupportWrites_elem h1 (lastWrite_isSome_mem hw)
      have h2n : ∀ v, (i, a, v) ∉ W2 := fun v hv => ha j hj i (bpmsSupportWrites_elem h2 hv) haf
      conv_rhs => rw [e, Ring.write_append, Ring.attr_write_of_not_mem h2n, Ring.attr_write, hw]
  have k2 : s.RING.write W2 = s.RING := by
    conv_rhs => rw [e, Ring.write_append, k1]
  have p1 : ∃ W1', magnetsSupportWrites E s.ORD m s.RING = .ok W1' ∧ (W1' = W1 ∨ W1' = []) := by
    cases m
    · exact ⟨[], rfl, .inr rfl⟩
    · exact ⟨W1, h1, .inl rfl⟩
  have p2 : ∃ W2', bpmsSupportWrites s.ORD b s.RING = .ok W2' ∧ (W2' = W2 ∨ W2' = []) := by
    cases b
    · exact ⟨[], rfl, .inr rfl⟩
    · exact ⟨W2, h2, .inl rfl⟩
  obtain ⟨W1', q1, q1'⟩ := p1
  obtain ⟨W2', q2, q2'⟩ := p2
  refine (updateSupports_writes E b m _ _ _).2 ⟨W1' ++ W2', ?_, ?_⟩
  · simp only [allSupportWrites, Except.bind_eq_ok']
    exact ⟨W1', q1, W2', q2, rfl⟩
  · have : s.RING.write (W1' ++ W2') = s.RING := by
      rw [Ring.write_append]
      have r1 : s.RING.write W1' = s.RING := by rcases q1' with rfl | rfl; exacts [k1, rfl]
      have r2 : s.RING.write W2' = s.RING := by rcases q2' with rfl | rfl; exacts [k2, rfl]
      rw [r1, r2]
    simp only [SC.write, this]

theorem setPoint_not_support (p : String) : p ++ "SetPoint" ∉ supportReads ++ supportWrites := by
  intro h
  have hl : (p ++ "SetPoint").toList.reverse.take 3 = ['t', 'n', 'i'] := by
    rw [String.toList_append, List.reverse_append]
    rfl
  have hall : ∀ a ∈ supportReads ++ supportWrites, a.toList.reverse.take 3 ≠ ['t', 'n', 'i'] := by decide +kernel
  exact hall _ h hl

theorem operates_align (E : Env K) : Operates E (AlignKept E) where
  setCM o sp sk m := Rel.mono (fun _ _ h => alignKept_of_frame h (fun i a ha hh => by
      rcases hh with ⟨-, rfl⟩ | hh
      · revert ha; cases sk <;> decide +kernel
      · revert hh; revert a; decide +kernel)) (setCMSetpoints_modifies o sp sk m)
  setMagnet o sp sk k m d := Rel.mono (fun _ _ h => alignKept_of_frame h (fun i a ha hh => by
      rcases hh with ⟨-, rfl | ⟨-, rfl⟩⟩ | hh
      · revert ha; cases sk <;> decide +kernel
      · revert ha; decide +kernel
      · revert hh; revert a; decide +kernel)) (setMagnetSetpoints_modifies o sp sk k m d)
  setCavity o sp p m := Rel.mono (fun _ _ h => alignKept_of_frame h (fun i a ha hh => by
      rcases hh.2 with rfl | hh
      · exact setPoint_not_support p ha
      · exact (by decide +kernel : ∀ a ∈ supportReads ++ supportWrites, ¬ a ∈ rfProperties) a ha hh)) (setCavitySetpoints_modifies o sp p m)
  magnets o := Rel.mono (fun _ _ h => alignKept_of_frame h (fun _ => by decide +kernel)) (updateMagnets_modifies o)
  cavities o := Rel.mono (fun _ _ h => alignKept_of_frame h (fun _ => by decide +kernel)) (updateCavities_frame o)
  supports b m := fun s h1 h2 => by
    rw [updateSupports_aligned h1 h2 b m]
    exact ⟨h1, h2⟩
  rng s s' h := by rw [h.1]; exact alignKept_of_same rfl rfl (fun _ _ _ => rfl)
  inj s i := alignKept_of_same rfl rfl (fun _ _ _ => rfl)

theorem Spec.Operated.aligned {W : World K} {s t : SC K} (h : Operated W s t) (h1 : Aligned W.E s) (h2 : BpmsApart s) :
    Aligned W.E t ∧ BpmsApart t := by
  induction h with
  | start => exact ⟨h1, h2⟩
  | @operation t _ c hc ih =>
    obtain ⟨h3, h4⟩ := ih
    exact (operates_align W.E).run W rfl c hc t h3 h4

end PySC
