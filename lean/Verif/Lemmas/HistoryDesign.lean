import Verif.Lemmas.HistoryReg
import Verif.Props.Orbit
/-
Only registration of magnets writes the design data of magnets.
-/
namespace PySC
set_option linter.unusedSectionVars false
variable {K : Type} [Field K] [LinearOrder K] [IsStrictOrderedRing K] [FloorRing K]
open Py Spec

/-- the design data of every element stay -/
def DesignKept (r r' : Ring K) : Prop := ∀ i, ∀ a ∈ designNames, r'.attr i a = r.attr i a

instance : PreRel (fun s s' : SC K => DesignKept s.RING s'.RING) :=
  ⟨fun _ _ _ _ => rfl, fun _ _ _ h1 h2 i a ha => (h2 i a ha).trans (h1 i a ha)⟩
instance : PreRel (DesignKept (K := K)) :=
  ⟨fun _ _ _ _ => rfl, fun _ _ _ h1 h2 i a ha => (h2 i a ha).trans (h1 i a ha)⟩

theorem setPoint_not_design (p : String) : p ++ "SetPoint" ∉ designNames := by
  have hl : ∀ q : String, (q ++ "SetPoint").toList.reverse.take 2 = ['t', 'n'] := by
    intro q
    rw [String.toList_append, List.reverse_append]
    rfl
  intro h
  simp only [designNames, List.mem_cons, List.not_mem_nil, or_false] at h
  have := hl p
  rcases h with h | h | h | h | h | h | h <;> rw [h] at this <;> revert this <;> decide +kernel

theorem design_of_frame {W : Nat → String → Prop} {s s' : SC K} (h : ∀ i a, ¬ W i a → s'.RING.attr i a = s.RING.attr i a)
    (hw : ∀ i, ∀ a ∈ designNames, ¬ W i a) : DesignKept s.RING s'.RING := fun i a ha => h i a (hw i a ha)

/-- membership of a design name in a list of other names -/
theorem design_not {l : List String} (h : ∀ a ∈ designNames, a ∉ l) : ∀ _ : Nat, ∀ a ∈ designNames, ¬ a ∈ l := fun _ => h

theorem corrector_not_design {r : Ring K} {H V F : List Nat} : ∀ i, ∀ a ∈ designNames, ¬ correctorWrites r H V F i a := by
  intro i a ha h
  rcases h with ⟨-, rfl⟩ | ⟨-, rfl⟩ | ⟨-, h⟩ | ⟨-, h⟩
  · revert ha; decide +kernel
  · revert ha; decide +kernel
  · simp only [List.mem_cons, List.not_mem_nil, or_false] at h
    rcases h with rfl | rfl | rfl | rfl <;> revert ha <;> decide +kernel
  · simp only [List.mem_cons, List.not_mem_nil, or_false] at h
    rcases h with rfl | rfl | rfl | rfl <;> revert ha <;> decide +kernel

theorem magnetWrites_not_design : ∀ a ∈ designNames, a ∉ magnetWrites := by decide +kernel
theorem rfProperties_not_design : ∀ a ∈ designNames, a ∉ rfProperties := by decide +kernel
theorem supportWrites_not_design : ∀ a ∈ designNames, a ∉ supportWrites := by decide +kernel

theorem plane_not_design (sk : Bool) : "SetPoint" ++ plane sk ∉ designNames := by
  cases sk <;> decide +kernel

theorem applyErrors_design (E : Env K) (n : K) (s : SC K) (hw : WellRegistered s.SIG) :
    DesignKept s.RING (applyErrors E n s).state.RING := by
  refine design_of_frame (applyErrors_frame hw).attr (fun i a ha h => ?_)
  rcases h with ⟨-, n, v, hv, rfl⟩ | ⟨-, n, v, hv, rfl⟩ | ⟨-, n, v, hv, rfl⟩ | rfl | h | h | h | h
  · have := hw.rfNames _ _ _ hv
    simp only [List.mem_cons, List.not_mem_nil, or_false, id] at this ha
    rcases this with rfl | rfl | rfl | rfl | rfl | rfl | rfl | rfl | rfl <;> revert ha <;> decide +kernel
  · have := hw.bpmNames _ _ _ hv
    simp only [List.mem_cons, List.not_mem_nil, or_false, id] at this ha
    rcases this with rfl | rfl | rfl | rfl | rfl | rfl <;> revert ha <;> decide +kernel
  · have := hw.magnetNames _ _ _ hv
    simp only [List.mem_cons, List.not_mem_nil, or_false] at this ha
    rcases this with rfl | rfl | rfl | rfl | rfl <;> revert ha <;> decide +kernel
  · revert ha; decide +kernel
  · have := supportDrawn_name h
    replace this : a ∈ ["SectionOffset", "SectionRoll", "PlinthOffset", "PlinthRoll", "GirderOffset", "GirderRoll"] := this
    simp only [List.mem_cons, List.not_mem_nil, or_false] at this
    rcases this with rfl | rfl | rfl | rfl | rfl | rfl <;> revert ha <;> decide +kernel
  · exact supportWrites_not_design a ha h
  · exact magnetWrites_not_design a ha h
  · exact rfProperties_not_design a ha h

theorem onlyRng_design {s s' : SC K} (h : OnlyRng s s') : DesignKept s.RING s'.RING := by
  rw [show s'.RING = s.RING from by rw [h.1]]
  exact fun _ _ _ => rfl

theorem switch_design (args : List String) : Rel (DesignKept (K := K)) (switchCavityAndRadiation args) := by
  have h0 : ∀ i m, Rel (DesignKept (K := K)) (setPassMethod i m) := by
    intro i m r; unfold setPassMethod
    split
    · intro j a ha
      show (Ring.setAttr r i "PassMethod" _).attr j a = _
      refine Ring.attr_setAttr_ne (fun h => ?_)
      revert ha; rw [h]; decide +kernel
    · exact fun _ _ _ => rfl
  have h1 : ∀ ms o n, Rel (DesignKept (K := K)) (replacePass ms o n) := by
    intro ms o n; unfold replacePass
    refine Rels.bind Rels.get (fun r => Rels.forEach (fun i _ => Rels.bind ?_ (fun _ => Rels.ite (h0 _ _) (Rels.pure' _))))
    intro r; unfold passMethod
    split
    · exact fun _ _ _ => rfl
    · split <;> exact fun _ _ _ => rfl
  have h2 : ∀ o b, Rel (DesignKept (K := K)) (switchRf o b) := by
    intro o b; unfold switchRf
    exact Rels.bind Rels.get (fun r => Rels.ite (Rels.forEach (fun i _ => h0 _ _)) (Rels.throw _))
  unfold switchCavityAndRadiation
  refine Rels.ite (Rels.throw _) ?_
  rels <;> first | exact h1 _ _ _ | exact h2 _ _

/-- calls other than registrations keep the design data -/
theorem run_design (W : World K) (c : Call K) (h : ¬ c.IsRegistration) (s : SC K) (hw : WellRegistered s.SIG) :
    DesignKept s.RING (c.run W s).state.RING := by
  let R : SC K → SC K → Prop := fun s s' => DesignKept s.RING s'.RING
  have hd : ∀ {α : Type} {m : Py (SC K) α}, R s (m s).state → R s ((do let _ ← m; Py.pure ()) s).state := by
    intro α m hm
    rw [bind_apply]
    cases hq : m s with
    | ok a t => rw [hq] at hm; exact hm
    | error e t => rw [hq] at hm; exact hm
  have hrefl : R s s := fun _ _ _ => rfl
  cases c with
  | register c => exact absurd trivial h
  | systematicMultipoles o ba k sk =>
    refine hd (design_of_frame (setSystematicMultipoles_rel o ba k sk s).attr (fun i a ha hh => ?_))
    obtain ⟨-, t, ht, rfl⟩ := hh
    simp only [List.mem_cons, List.not_mem_nil, or_false] at ht
    revert ha
    rcases ht with rfl | rfl <;> cases sk <;> decide +kernel
  | randomMultipoles o ba =>
    refine (show Rel R (setRandomMultipoles W.E o ba) from ?_) s
    unfold setRandomMultipoles
    have : PreRel R := inferInstanceAs (PreRel (fun s s' : SC K => DesignKept s.RING s'.RING))
    refine Rels.forEach (fun i _ => Rel.mono (fun s s' h => ?_) (randomMultipole1_rel i))
    refine design_of_frame h.attr (fun j a ha hh => ?_)
    exact (show ∀ a ∈ designNames, a ∉ offsetAttrs by decide +kernel) a ha hh.2
  | applyErrors n => exact applyErrors_design _ _ _ hw
  | updateCavities o => exact design_of_frame (updateCavities_frame o s).attr (fun i => rfProperties_not_design)
  | updateMagnets o => exact design_of_frame (updateMagnets_modifies o s).attr (fun i => magnetWrites_not_design)
  | updateSupports b m => exact design_of_frame (updateSupports_frame _ b m s).attr (fun i => supportWrites_not_design)
  | setCavity o sp p m =>
    refine design_of_frame (setCavitySetpoints_modifies o sp p m s).attr (fun i a ha hh => ?_)
    rcases hh.2 with rfl | hh
    · exact setPoint_not_design p ha
    · exact rfProperties_not_design a ha hh
  | getCM o sk => exact hd ((show Rel R _ from Rels.rd _) s)
  | setCM o sp sk m =>
    refine design_of_frame (setCMSetpoints_modifies o sp sk m s).attr (fun i a ha hh => ?_)
    rcases hh with ⟨-, rfl⟩ | hh
    · exact plane_not_design sk ha
    · exact magnetWrites_not_design a ha hh
  | setMagnet o sp sk k m d =>
    refine design_of_frame (setMagnetSetpoints_modifies o sp sk k m d s).attr (fun i a ha hh => ?_)
    rcases hh with ⟨-, rfl | ⟨-, rfl⟩⟩ | hh
    · exact plane_not_design sk ha
    · exact plane_not_design false ha
    · exact magnetWrites_not_design a ha hh
  | veryDeepCopy =>
    refine hd ((show Rel R _ from ?_) s)
    unfold veryDeepCopy
    exact Rels.bind Rels.get (fun s => Rels.ite (Rels.throw _) (Rels.pure' _))
  | verify => exact (show Rel R _ from Rels.bind Rels.get (fun s => Rels.lift _)) s
  | switches a =>
    have := switch_design a s.RING
    show DesignKept s.RING (onRing (switchCavityAndRadiation a) s).state.RING
    unfold onRing
    cases hm : switchCavityAndRadiation a s.RING <;> rw [hm] at this <;> exact this
  | trackMode m =>
    show DesignKept s.RING (onInj (setTrackMode m) s).state.RING
    unfold onInj
    cases setTrackMode m s.INJ <;> exact hrefl
  | setInjection f => exact hrefl
  | bunches n => exact hd (onlyRng_design (generateBunches_onlyRng _ _ _ s))
  | transmission n t =>
    refine hd ((show Rel R _ from ?_) s)
    unfold beamTransmission
    refine Rels.bind Rels.get (fun s => Rels.bind (Rel.mono (fun _ _ => onlyRng_design) (generateBunches_onlyRng _ _ _)) (fun z => ?_))
    rels
  | reading b cc => exact hd (onlyRng_design (bpmReading_onlyRng _ _ _ _ s))
  | firstTurn rm r c b n => exact hd (design_of_frame (C37_only_correctors W.E W.B W.O rm r c b n s).frame.attr corrector_not_design)
  | stitch rm r c b k n =>
    exact hd (design_of_frame (C39_stitch_only_correctors W.E W.B W.O rm r c b k n s).frame.attr corrector_not_design)
  | balance rm r c b e n =>
    exact hd (design_of_frame (C39_balance_only_correctors W.E W.B W.O rm r c b e n s).frame.attr corrector_not_design)
  | correct rm r c b e t n d =>
    exact hd (design_of_frame (C38_only_correctors W.E W.B W.O rm r c b e t n d s).frame.attr corrector_not_design)

end PySC
