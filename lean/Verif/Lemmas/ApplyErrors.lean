import Verif.Lemmas.Random
import Verif.Lemmas.Register
import Verif.Model.ApplyErrors
import Verif.Spec.Errors
/-
What `apply_errors` writes.
-/
namespace PySC
set_option linter.unusedSectionVars false
variable {K : Type} [Field K] [LinearOrder K]
open Py Spec

namespace DrawFrame
variable {W W' : Nat → String → Prop}
theorem refl (s : SC K) : DrawFrame W s s := ⟨rfl, rfl, rfl, rfl, rfl, fun _ _ _ => rfl⟩
theorem trans (a b c : SC K) (h1 : DrawFrame W a b) (h2 : DrawFrame W b c) : DrawFrame W a c :=
  ⟨h2.ideal.trans h1.ideal, h2.inj.trans h1.inj, h2.sig.trans h1.sig, h2.ord.trans h1.ord,
   h2.len.trans h1.len, fun i a h => (h2.attr i a h).trans (h1.attr i a h)⟩
theorem mono (hW : ∀ i a, W i a → W' i a) {s s' : SC K} (h : DrawFrame W s s') : DrawFrame W' s s' :=
  ⟨h.ideal, h.inj, h.sig, h.ord, h.len, fun i a hn => h.attr i a (fun hw => hn (hW i a hw))⟩
theorem of_frame {s s' : SC K} (h : Frame W s s') : DrawFrame W s s' :=
  ⟨h.ideal, h.inj, h.sig, h.ord, h.len, h.attr⟩
theorem setAttr {s : SC K} {i a v} (h : W i a) : DrawFrame W s { s with RING := s.RING.setAttr i a v } :=
  of_frame (Frame.setAttr h)
end DrawFrame

instance (W : Nat → String → Prop) : PreRel (DrawFrame (K := K) W) := ⟨DrawFrame.refl, DrawFrame.trans⟩

namespace ErrFrame
variable {W W' : Nat → String → Prop}
theorem refl (s : SC K) : ErrFrame W s s := ⟨rfl, ⟨_, _, rfl⟩, rfl, rfl, rfl, fun _ _ _ => rfl⟩
theorem trans (a b c : SC K) (h1 : ErrFrame W a b) (h2 : ErrFrame W b c) : ErrFrame W a c := by
  refine ⟨h2.ideal.trans h1.ideal, ?_, h2.sig.trans h1.sig, h2.ord.trans h1.ord,
   h2.len.trans h1.len, fun i a h => (h2.attr i a h).trans (h1.attr i a h)⟩
  obtain ⟨z, j, h1⟩ := h1.inj
  obtain ⟨z', j', h2⟩ := h2.inj
  exact ⟨z', j', by rw [h2, h1]⟩
theorem mono (hW : ∀ i a, W i a → W' i a) {s s' : SC K} (h : ErrFrame W s s') : ErrFrame W' s s' :=
  ⟨h.ideal, h.inj, h.sig, h.ord, h.len, fun i a hn => h.attr i a (fun hw => hn (hW i a hw))⟩
theorem of_draw {s s' : SC K} (h : DrawFrame W s s') : ErrFrame W s s' :=
  ⟨h.ideal, ⟨s.INJ.Z0, s.INJ.randomInjectionZ, h.inj⟩, h.sig, h.ord, h.len, h.attr⟩
end ErrFrame

instance (W : Nat → String → Prop) : PreRel (ErrFrame (K := K) W) := ⟨ErrFrame.refl, ErrFrame.trans⟩

/-! ### single draws -/

theorem randnc_eq_ok {E : Env K} {cut : K} {n : Nat} {s s' : SC K} {l : List K} :
    randnc E cut n s = .ok l s' ↔ ∃ pos, randncFrom E cut n s.rng = .ok (l, pos) ∧ s' = { s with rng := pos } := by
  unfold randnc
  cases h : randncFrom E cut n s.rng with
  | error e => simp
  | ok p =>
    obtain ⟨l', pos⟩ := p
    simp only [Except.ok.injEq, Prod.mk.injEq]
    constructor
    · intro h; cases h; exact ⟨pos, ⟨rfl, rfl⟩, rfl⟩
    · rintro ⟨p, ⟨rfl, rfl⟩, rfl⟩; rfl

theorem randnc_rel {R : SC K → SC K → Prop} [PreRel R] (hR : ∀ s p, R s { s with rng := p }) (E : Env K) (cut : K) (n : Nat) :
    Rel R (randnc E cut n) := by
  intro s
  unfold randnc
  cases h : randncFrom E cut n s.rng with
  | error e => exact PreRel.refl s
  | ok p => exact hR s p.2

theorem scaledRandn_rel {R : SC K → SC K → Prop} [PreRel R] (hR : ∀ s p, R s { s with rng := p }) (E : Env K) (cut : K)
    (v : Attr K) : Rel R (scaledRandn E cut v) := by
  unfold scaledRandn
  split
  · exact Rels.bind (randnc_rel hR _ _ _) (fun _ => Rels.pure' _)
  · exact Rels.bind (randnc_rel hR _ _ _) (fun _ => Rels.pure' _)
  · exact Rels.throw _

theorem randnCutoff_rel {R : SC K → SC K → Prop} [PreRel R] (hR : ∀ s p, R s { s with rng := p }) (E : Env K) (cut : K)
    (v : Attr K) : Rel R (randnCutoff E v cut) := by
  unfold randnCutoff
  split <;> exact scaledRandn_rel hR _ _ _

theorem drawInto_rel {W : Nat → String → Prop} {E : Env K} {c : K} {i : Nat} {n : String} {v : Attr K} (h : W i n) :
    Rel (DrawFrame W) (drawInto E c i n v) :=
  Rels.bind (randnCutoff_rel (fun _ _ => ⟨rfl, rfl, rfl, rfl, rfl, fun _ _ _ => rfl⟩) _ _ _)
    (fun _ => Rels.setAttr (fun _ => DrawFrame.setAttr h))

section ord
variable [IsStrictOrderedRing K]

theorem scaledRandn_truncated {E : Env K} {cut : K} {sig err : Attr K} {s s' : SC K}
    (h : scaledRandn E cut sig s = .ok err s') : Truncated cut sig err ∧ ∃ p, s' = { s with rng := p } := by
  unfold scaledRandn at h
  split at h
  · rename_i x
    rw [bind_eq_ok] at h
    obtain ⟨z, s1, h1, h2⟩ := h
    obtain ⟨pos, h3, rfl⟩ := randnc_eq_ok.1 h1
    cases h2
    obtain ⟨hz, hlen, -, -⟩ := randncFrom_eq_ok h3
    refine ⟨?_, pos, rfl⟩
    obtain ⟨y, rfl⟩ := List.length_eq_one_iff.1 hlen
    simp only [Truncated, List.headD_cons, abs_mul]
    rw [mul_comm]
    exact mul_le_mul_of_nonneg_right (hz y (by simp)) (abs_nonneg _)
  · rename_i v
    rw [bind_eq_ok] at h
    obtain ⟨z, s1, h1, h2⟩ := h
    obtain ⟨pos, h3, rfl⟩ := randnc_eq_ok.1 h1
    cases h2
    obtain ⟨hz, hlen, -, -⟩ := randncFrom_eq_ok h3
    have hlv : v.length ≤ z.length := by rw [hlen]; split <;> omega
    refine ⟨⟨by simp [hlv], fun k => ?_⟩, pos, rfl⟩
    unfold coef
    by_cases hk : k < v.length
    · have hkz : k < z.length := by omega
      rw [List.getD_eq_getElem?_getD, List.getElem?_zipWith, List.getD_eq_getElem?_getD, List.getElem?_eq_getElem hk,
        List.getElem?_eq_getElem hkz]
      simp only [Option.getD_some, abs_mul]
      rw [mul_comm]
      exact mul_le_mul_of_nonneg_right (hz _ (List.getElem_mem _)) (abs_nonneg _)
    · rw [List.getD_eq_getElem?_getD, List.getD_eq_getElem?_getD, List.getElem?_eq_none (by simp; omega),
        List.getElem?_eq_none (by omega)]
      simp
  · cases h

theorem randnCutoff_errorFor {E : Env K} {cut : K} {sig err : Attr K} {s s' : SC K}
    (h : randnCutoff E sig cut s = .ok err s') : ErrorFor cut sig err ∧ ∃ p, s' = { s with rng := p } := by
  unfold randnCutoff at h
  unfold ErrorFor
  cases sig <;> exact scaledRandn_truncated h

theorem drawInto_ok {E : Env K} {c : K} {i : Nat} {n : String} {sig : Attr K} {s s' : SC K}
    (h : drawInto E c i n sig s = .ok () s') : ∃ err, s'.RING.attr i n = some err ∧ ErrorFor c sig err := by
  unfold drawInto at h
  rw [bind_eq_ok] at h
  obtain ⟨v, s1, h1, h2⟩ := h
  obtain ⟨hlt, rfl⟩ := setAttr_eq_ok.1 h2
  exact ⟨v, Ring.attr_setAttr_same hlt, (randnCutoff_errorFor h1).1⟩
end ord

/-! ### loops over registered uncertainties -/

theorem entries_get (d : Dict Nat (Kwargs K)) (i : Nat) (n : String) : Dict.get? (entries d i) n = sigma d i n := by
  unfold entries sigma
  cases d.get? i <;> rfl

theorem Dict.get?_of_mem {κ v : Type _} [DecidableEq κ] {d : Dict κ v} (hd : d.keys.Nodup) {p : κ × v} (hp : p ∈ d) :
    d.get? p.1 = some p.2 := by
  induction d with
  | nil => simp at hp
  | cons q r ih =>
    obtain ⟨k, x⟩ := q
    simp only [Dict.keys, List.map_cons, List.nodup_cons] at hd
    rcases List.mem_cons.1 hp with rfl | hp
    · simp [Dict.get?]
    · have hne : k ≠ p.1 := fun h => hd.1 (by rw [h]; exact List.mem_map_of_mem hp)
      rw [Dict.get?, if_neg hne]
      exact ih hd.2 hp

theorem Dict.mem_of_get? {κ v : Type _} [DecidableEq κ] {d : Dict κ v} {k : κ} {x : v} (h : d.get? k = some x) :
    (k, x) ∈ d := by
  induction d with
  | nil => simp [Dict.get?] at h
  | cons q r ih =>
    obtain ⟨k', y⟩ := q
    rw [Dict.get?] at h
    split at h
    · rename_i he; cases h; rw [he]; simp
    · exact List.mem_cons_of_mem _ (ih h)

theorem entries_mem {d : Dict Nat (Kwargs K)} {i : Nat} (hd : SingleEntries d) {kv : String × Attr K} :
    kv ∈ entries d i ↔ sigma d i kv.1 = some kv.2 := by
  rw [← entries_get]
  constructor
  · intro h
    refine Dict.get?_of_mem ?_ h
    unfold entries
    cases hg : d.get? i with
    | none => simp [Dict.keys]
    | some e => exact hd.2 i e hg
  · intro h; exact Dict.mem_of_get? h

theorem sigma_keys {d : Dict Nat (Kwargs K)} {i : Nat} {n : String} {v : Attr K} (h : sigma d i n = some v) :
    i ∈ d.keys := by
  unfold sigma at h
  cases hg : d.get? i with
  | none => rw [hg] at h; simp at h
  | some e =>
    have := Dict.mem_of_get? hg
    exact List.mem_map_of_mem (f := Prod.fst) this

theorem mem_intersect {a b : List Nat} {x : Nat} : x ∈ intersect a b ↔ x ∈ a ∧ x ∈ b := by
  unfold intersect; simp

/-- attributes written when the errors of one kind are drawn -/
def drawn (ords : List Nat) (d : Dict Nat (Kwargs K)) (attrOf : String → String) (i : Nat) (a : String) : Prop :=
  i ∈ ords ∧ ∃ n v, sigma d i n = some v ∧ a = attrOf n

theorem drawLoop_rel {ords : List Nat} {d : Dict Nat (Kwargs K)} (hd : SingleEntries d) {attrOf : String → String}
    {f : Nat → String × Attr K → Py (SC K) Unit}
    (hf : ∀ i kv, Rel (DrawFrame (fun j a => j = i ∧ a = attrOf kv.1)) (f i kv)) :
    Rel (DrawFrame (drawn ords d attrOf)) (forEach (intersect ords d.keys) (fun i => forEach (entries d i) (f i))) := by
  refine Rels.forEach (fun i hi => Rels.forEach (fun kv hkv => ?_))
  refine Rel.mono (fun s s' h => h.mono ?_) (hf i kv)
  rintro j a ⟨rfl, rfl⟩
  exact ⟨(mem_intersect.1 hi).1, kv.1, kv.2, (entries_mem hd).1 hkv, rfl⟩

theorem drawLoop_post {ords : List Nat} {d : Dict Nat (Kwargs K)} (hd : SingleEntries d) {attrOf : String → String}
    {names : List String} (hn : OnlyNames d names) (hinj : ∀ m ∈ names, ∀ n ∈ names, attrOf m = attrOf n → m = n)
    {f : Nat → String × Attr K → Py (SC K) Unit} {Q : String → Attr K → Attr K → Prop}
    (hf : ∀ i kv, Rel (DrawFrame (fun j a => j = i ∧ a = attrOf kv.1)) (f i kv))
    (hQ : ∀ i kv s s', f i kv s = .ok () s' → ∃ err, s'.RING.attr i (attrOf kv.1) = some err ∧ Q kv.1 kv.2 err)
    {s s' : SC K} (h : forEach (intersect ords d.keys) (fun i => forEach (entries d i) (f i)) s = .ok () s') :
    ∀ i ∈ ords, ∀ name sig, sigma d i name = some sig →
      ∃ err, s'.RING.attr i (attrOf name) = some err ∧ Q name sig err := by
  have key : ∀ i ∈ intersect ords d.keys, ∀ kv ∈ entries d i,
      ∃ err, s'.RING.attr i (attrOf kv.1) = some err ∧ Q kv.1 kv.2 err := by
    refine forEach_post (I := fun _ => True)
      (P := fun i s => ∀ kv ∈ entries d i, ∃ err, s.RING.attr i (attrOf kv.1) = some err ∧ Q kv.1 kv.2 err)
      (fun _ _ _ _ _ => trivial) (fun i hi s s' _ h => ?_) (fun i hi j hj s s' _ hij hP h kv hkv => ?_) h trivial
    · refine forEach_post (I := fun _ => True)
        (P := fun kv s => ∃ err, s.RING.attr i (attrOf kv.1) = some err ∧ Q kv.1 kv.2 err)
        (fun _ _ _ _ _ => trivial) (fun kv hkv s s' _ h => hQ i kv s s' h) (fun kv hkv kv' hkv' s s' _ hne hP h => ?_) h trivial
      have hfr := (hf i kv).ok h
      rw [hfr.attr _ _ (fun hw => ?_)]
      · exact hP
      · have h1 := (entries_mem hd).1 hkv
        have h2 := (entries_mem hd).1 hkv'
        have heq := hinj _ (hn _ _ _ h2) _ (hn _ _ _ h1) hw.2
        refine hne (Prod.ext heq.symm ?_)
        rw [heq] at h2
        rw [h1] at h2; exact Option.some.inj h2
    · have hfr := (Rels.forEach (l := entries d i) (f := f i) (R := DrawFrame (fun j _ => j = i)) (fun kv _ =>
        Rel.mono (fun s s' h => h.mono (fun j a h => h.1)) (hf i kv))).ok h
      rw [hfr.attr _ _ (fun hw => hij hw.symm)]
      exact hP kv hkv
  intro i hi name sig hs
  exact key i (mem_intersect.2 ⟨hi, sigma_keys hs⟩) (name, sig) ((entries_mem hd).2 hs)

/-! ### the phases of `apply_errors` -/
section phases
variable [FloorRing K]

/-- where the error drawn for an uncertainty of a magnet is stored -/
def magnetAttrOf (n : String) : String := if n = "BendingAngle" then "BendingAngleError" else n

theorem applyRf_frame {E : Env K} {n : K} {s : SC K} (hw : WellRegistered s.SIG) :
    DrawFrame (drawn s.ORD.RF s.SIG.RF id) s (applyRf E n s).state :=
  drawLoop_rel hw.rfSingle (fun _ _ => drawInto_rel ⟨rfl, rfl⟩) s

theorem bpmBody_rel {E : Env K} {n : K} (i : Nat) (kv : String × Attr K) :
    Rel (DrawFrame (fun j a => j = i ∧ a = id kv.1))
      (if strContains "Noise" kv.1 then setAttr i kv.1 kv.2 else drawInto E n i kv.1 kv.2) :=
  Rels.ite (Rels.setAttr (fun _ => DrawFrame.setAttr ⟨rfl, rfl⟩)) (drawInto_rel ⟨rfl, rfl⟩)

theorem applyBpm_frame {E : Env K} {n : K} {s : SC K} (hw : WellRegistered s.SIG) :
    DrawFrame (drawn s.ORD.BPM s.SIG.BPM id) s (applyBpm E n s).state :=
  drawLoop_rel hw.bpmSingle bpmBody_rel s

theorem applyMagnet_frame {E : Env K} {n : K} {s : SC K} (hw : WellRegistered s.SIG) :
    DrawFrame (drawn s.ORD.Magnet s.SIG.Magnet magnetAttrOf) s (applyMagnet E n s).state :=
  drawLoop_rel hw.magnetSingle (fun _ _ => drawInto_rel ⟨rfl, rfl⟩) s

section ord
variable [IsStrictOrderedRing K]

theorem applyRf_stored {E : Env K} {n : K} {s s' : SC K} (hw : WellRegistered s.SIG) (h : applyRf E n s = .ok () s') :
    ErrorsStored s'.RING s.ORD.RF s.SIG.RF [] id n := by
  have := drawLoop_post (attrOf := id) (Q := fun _ sig err => ErrorFor n sig err) hw.rfSingle hw.rfNames
    (fun _ _ _ _ h => h) (fun i kv => drawInto_rel (E := E) (c := n) ⟨rfl, rfl⟩) (fun i kv s s' h => drawInto_ok h) h
  intro i hi name sig hs
  simpa using this i hi name sig hs

theorem noise_names {m : String} (hm : m ∈ ["Noise", "NoiseCO", "Offset", "Roll", "CalError", "SumError"]) :
    strContains "Noise" m = true ↔ m ∈ ["Noise", "NoiseCO"] := by
  revert hm m; decide +kernel

theorem applyBpm_stored {E : Env K} {n : K} {s s' : SC K} (hw : WellRegistered s.SIG) (h : applyBpm E n s = .ok () s') :
    ErrorsStored s'.RING s.ORD.BPM s.SIG.BPM ["Noise", "NoiseCO"] id n := by
  have := drawLoop_post (attrOf := id)
    (Q := fun m sig err => if strContains "Noise" m then err = sig else ErrorFor n sig err) hw.bpmSingle hw.bpmNames
    (fun _ _ _ _ h => h) (bpmBody_rel (E := E) (n := n)) (fun i kv s s' h => ?_) h
  · intro i hi name sig hs
    obtain ⟨err, h1, h2⟩ := this i hi name sig hs
    refine ⟨err, h1, ?_⟩
    simpa only [noise_names (hw.bpmNames _ _ _ hs)] using h2
  · split at h
    · rename_i hc
      obtain ⟨hlt, rfl⟩ := setAttr_eq_ok.1 h
      exact ⟨kv.2, Ring.attr_setAttr_same hlt, by rw [if_pos hc]⟩
    · rename_i hc
      obtain ⟨err, h1, h2⟩ := drawInto_ok h
      exact ⟨err, h1, by rw [if_neg hc]; exact h2⟩

theorem applyMagnet_stored {E : Env K} {n : K} {s s' : SC K} (hw : WellRegistered s.SIG)
    (h : applyMagnet E n s = .ok () s') :
    ErrorsStored s'.RING s.ORD.Magnet s.SIG.Magnet [] magnetAttrOf n := by
  have := drawLoop_post (attrOf := magnetAttrOf) (Q := fun _ sig err => ErrorFor n sig err) hw.magnetSingle hw.magnetNames
    (by decide +kernel) (fun i kv => drawInto_rel (E := E) (c := n) ⟨rfl, rfl⟩) (fun i kv s s' h => drawInto_ok h) h
  intro i hi name sig hs
  simpa using this i hi name sig hs

theorem applyInjection_ok {E : Env K} {n : K} {s s' : SC K} (h6 : s.SIG.staticInjectionZ.length = 6)
    (h : applyInjection E n s = .ok () s') :
    ∃ z0 pos, s' = { s with rng := pos, INJ := { s.INJ with Z0 := z0, randomInjectionZ := s.SIG.randomInjectionZ } } ∧
      z0.length = s.INJ.Z0ideal.length ∧
      ∀ k, |coef z0 k - coef s.INJ.Z0ideal k| ≤ |n| * |coef s.SIG.staticInjectionZ k| := by
  unfold applyInjection at h
  rw [bind_eq_ok] at h
  obtain ⟨z, s1, h1, h⟩ := h
  obtain ⟨pos, h3, rfl⟩ := randnc_eq_ok.1 h1
  obtain ⟨hz, hlen, -, -⟩ := randncFrom_eq_ok h3
  rw [bind_eq_ok] at h
  obtain ⟨s2, s3, h4, h⟩ := h
  cases h4
  rw [bind_eq_ok] at h
  obtain ⟨d, s4, h4, h⟩ := h
  obtain ⟨hd, rfl⟩ := lift_eq_ok.1 h4
  rw [bind_eq_ok] at h
  obtain ⟨z0, s5, h5, h⟩ := h
  obtain ⟨hz0, rfl⟩ := lift_eq_ok.1 h5
  cases h
  unfold bmul at hd
  simp only at hd hz0
  rw [if_pos (by rw [h6, hlen])] at hd
  cases hd
  unfold vadd at hz0
  split at hz0
  · rename_i hl
    cases hz0
    refine ⟨_, pos, rfl, by simp [h6, hlen] at hl ⊢; omega, fun k => ?_⟩
    unfold coef
    simp only [List.length_zipWith, h6, hlen] at hl
    by_cases hk : k < 6
    · simp only [List.getD_eq_getElem?_getD, List.getElem?_zipWith, List.getElem?_eq_getElem (show k < s.INJ.Z0ideal.length by
        rw [hl]; exact hk), List.getElem?_eq_getElem (show k < z.length by omega),
        List.getElem?_eq_getElem (show k < s.SIG.staticInjectionZ.length by omega), Option.getD_some]
      rw [add_sub_cancel_left, abs_mul, mul_comm]
      exact mul_le_mul_of_nonneg_right (hz _ (List.getElem_mem _)) (abs_nonneg _)
    · simp only [List.getD_eq_getElem?_getD]
      rw [List.getElem?_eq_none (by simp; omega), List.getElem?_eq_none (by omega), List.getElem?_eq_none (by omega)]
      simp
  · cases hz0
end ord

theorem applyInjection_frame (E : Env K) (n : K) :
    Rel (ErrFrame (K := K) (fun _ _ => False)) (applyInjection E n) := by
  refine Rels.bind (randnc_rel (fun _ _ => ⟨rfl, ⟨_, _, rfl⟩, rfl, rfl, rfl, fun _ _ _ => rfl⟩) _ _ _) (fun z => ?_)
  refine Rels.bind Rels.get (fun s => Rels.bind (Rels.lift _) (fun d => Rels.bind (Rels.lift _) (fun z0 =>
    Rels.modify (fun s => ⟨rfl, ⟨_, _, rfl⟩, rfl, rfl, rfl, fun _ _ _ => rfl⟩))))

/-! circumference -/

theorem Ring.attr_map {r : Ring K} {f : Elem K → Elem K} {i : Nat} {a : String} (h : ∀ e : Elem K, f e a = e a) :
    Ring.attr (r.map f) i a = r.attr i a := by
  unfold Ring.attr
  rw [List.getElem?_map]
  cases r[i]? with
  | none => rfl
  | some e => exact h e

theorem scaleCircumference_attr {r r' : Ring K} {c : K} {m : String} (h : scaleCircumference r c m = .ok r') :
    r'.length = r.length ∧ ∀ i a, a ≠ "Length" → r'.attr i a = r.attr i a := by
  unfold scaleCircumference at h
  split at h
  · cases h
  · split at h
    · cases h; exact ⟨rfl, fun _ _ _ => rfl⟩
    · rw [Except.bind_eq_ok'] at h
      obtain ⟨q, -, h⟩ := h
      cases h
      refine ⟨by simp, fun i a ha => Ring.attr_map (fun e => ?_)⟩
      split
      · rw [Elem.set_apply, if_neg ha]
      · rfl

theorem applyCircumference_frame (E : Env K) (n : K) :
    Rel (DrawFrame (K := K) (fun _ a => a = "Length")) (applyCircumference E n) := by
  refine Rels.bind (randnc_rel (fun _ _ => ⟨rfl, rfl, rfl, rfl, rfl, fun _ _ _ => rfl⟩) _ _ _) (fun z => ?_)
  intro s
  change DrawFrame _ s ((lift (scaleCircumference s.RING (1 + s.SIG.Circumference * z.headD 0) "rel") >>= fun r =>
    modify (fun s => { s with RING := r })) s).state
  cases h : scaleCircumference s.RING (1 + s.SIG.Circumference * z.headD 0) "rel" with
  | error e => exact DrawFrame.refl s
  | ok r =>
    obtain ⟨h1, h2⟩ := scaleCircumference_attr h
    exact ⟨rfl, rfl, rfl, rfl, h1, fun i a ha => h2 i a ha⟩

/-! supports -/

/-- the attributes written when the errors of a support are drawn -/
def supportDrawn (t : String) (p : Nat × Nat) (i : Nat) (a : String) : Prop :=
  (i = p.1 ∨ i = p.2) ∧ (a = t ++ "Offset" ∨ a = t ++ "Roll")

theorem strContains_supports {t m : String} (ht : t ∈ supportTypes)
    (hm : m ∈ ["SectionOffset", "SectionRoll", "PlinthOffset", "PlinthRoll", "GirderOffset", "GirderRoll"]) :
    strContains t m = true ↔ m = t ++ "Offset" ∨ m = t ++ "Roll" := by
  have : ∀ t ∈ supportTypes, ∀ m ∈ ["SectionOffset", "SectionRoll", "PlinthOffset", "PlinthRoll", "GirderOffset",
      "GirderRoll"], (strContains t m = true ↔ m = t ++ "Offset" ∨ m = t ++ "Roll") := by decide +kernel
  exact this t ht m hm

theorem drawSupport_rel {E : Env K} {n : K} {t : String} {p : Nat × Nat} {e : Option (Kwargs K)} {kv : String × Attr K}
    (h : strContains t kv.1 = true → kv.1 = t ++ "Offset" ∨ kv.1 = t ++ "Roll") :
    Rel (DrawFrame (supportDrawn t p)) (drawSupport E n t p e kv) := by
  unfold drawSupport
  split
  · rename_i hc
    refine Rels.bind (drawInto_rel ⟨Or.inl rfl, h hc⟩) (fun _ => ?_)
    split
    · exact Rels.throw _
    · exact Rels.ite (drawInto_rel ⟨Or.inr rfl, h hc⟩) (Rels.bind (Rels.rd _) (fun _ => Rels.setAttr (fun _ =>
        DrawFrame.setAttr ⟨Or.inr rfl, h hc⟩)))
  · exact Rels.pure' _

theorem applySupport_frame {E : Env K} {n : K} {sp : List K} {t : String} {p : Nat × Nat} (ht : t ∈ supportTypes)
    {s : SC K} (hw : WellRegistered s.SIG) : DrawFrame (supportDrawn t p) s (applySupport E n sp t p s).state := by
  unfold applySupport
  change DrawFrame _ s ((match s.SIG.Support.get? p.1 with
    | none => Py.pure ()
    | some sig0 => _) s).state
  cases hg : s.SIG.Support.get? p.1 with
  | none => exact DrawFrame.refl s
  | some sig0 =>
    have hk : ∀ kv ∈ sig0, kv.1 ∈ ["SectionOffset", "SectionRoll", "PlinthOffset", "PlinthRoll", "GirderOffset", "GirderRoll"] := by
      intro kv hkv
      refine hw.supportNames p.1 kv.1 kv.2 ((entries_mem hw.supportSingle).1 ?_)
      unfold entries; rw [hg]; exact hkv
    refine (Rels.bind (R := DrawFrame (supportDrawn t p)) (Rels.forEach (fun kv hkv => ?_)) (fun _ =>
      Rels.bind (Rels.rd _) (fun _ => Rels.bind (Rels.setAttr (fun _ => ?_)) (fun _ =>
      Rels.bind (Rels.setAttr (fun _ => ?_)) (fun _ => Rels.setAttr (fun _ => ?_)))))) s
    · exact drawSupport_rel (fun hc => (strContains_supports ht (hk kv hkv)).1 hc)
    · exact DrawFrame.setAttr ⟨Or.inl rfl, Or.inr rfl⟩
    · exact DrawFrame.setAttr ⟨Or.inl rfl, Or.inl rfl⟩
    · exact DrawFrame.setAttr ⟨Or.inr rfl, Or.inl rfl⟩

theorem typedPairs_type {o : Ords} {tp : String × (Nat × Nat)} (h : tp ∈ typedPairs o) :
    tp.1 ∈ supportTypes ∧ tp.2 ∈ o.pairs tp.1 := by
  unfold typedPairs at h
  simp only [List.mem_flatMap, List.mem_map] at h
  obtain ⟨t, ht, p, hp, rfl⟩ := h
  exact ⟨ht, hp⟩

theorem applySupports_frame {E : Env K} {n : K} {s : SC K} (hw : WellRegistered s.SIG) :
    DrawFrame (fun i a => ∃ tp ∈ typedPairs s.ORD, supportDrawn tp.1 tp.2 i a) s (applySupports E n s).state := by
  have key : Rel (fun a b : SC K => WellRegistered a.SIG →
      DrawFrame (fun i a => ∃ tp ∈ typedPairs s.ORD, supportDrawn tp.1 tp.2 i a) a b)
      (forEach (typedPairs s.ORD) (fun tp => applySupport E n (findspos s.RING) tp.1 tp.2)) := by
    refine Rel.forEach (fun _ _ => DrawFrame.refl _) (fun a b c h1 h2 ha => ?_) (fun tp htp a ha => ?_)
    · have := h1 ha
      exact DrawFrame.trans _ _ _ this (h2 (this.sig ▸ ha))
    · exact (applySupport_frame (typedPairs_type htp).1 ha).mono (fun i a h => ⟨tp, htp, h⟩)
  exact key s hw

/-- attributes written by `update_supports` -/
def supportWrites : List String := ["SupportOffset", "SupportRoll", "R1", "T1", "T2", "R2"]

omit [FloorRing K] in
theorem updateSupports_frame (E : Env K) (b m : Bool) :
    Rel (Frame (K := K) (fun _ a => a ∈ supportWrites)) (updateSupports E b m) := by
  unfold updateSupports updateMagnetSupport updateBpmSupport updateTransformation copyTransformation
  rels <;> first
    | exact Frame.setAttr (by decide)
    | (rename_i h _ _; refine Frame.setAttr ?_; simp [supportWrites] at h ⊢; tauto)

theorem updateCavities_frame (o : Option (List Nat)) :
    Rel (Frame (K := K) (fun _ a => a ∈ rfProperties)) (updateCavities o) := by
  unfold updateCavities
  refine Rels.bind Rels.get (fun _ => Rels.forEach (fun i _ => Rels.forEach (fun f hf => ?_)))
  unfold updateCavityField
  exact Rels.bind (Rels.rd _) (fun _ => Rels.setAttr (fun _ => Frame.setAttr hf))

/-! ### the whole of `apply_errors` -/

theorem applyErrors_eq_ok {E : Env K} {n : K} {s s' : SC K} (h : applyErrors E n s = .ok () s') :
    ∃ s1 s2 s3 s4 s5 s6 s7 s8, applyRf E n s = .ok () s1 ∧ applyBpm E n s1 = .ok () s2 ∧ applyMagnet E n s2 = .ok () s3 ∧
      applyInjection E n s3 = .ok () s4 ∧ applyCircumference E n s4 = .ok () s5 ∧ applySupports E n s5 = .ok () s6 ∧
      updateSupports E true true s6 = .ok () s7 ∧ when (!s7.ORD.Magnet.isEmpty) (updateMagnets none) s7 = .ok () s8 ∧
      when (!s7.ORD.RF.isEmpty && !s7.SIG.RF.isEmpty) (updateCavities none) s8 = .ok () s' := by
  unfold applyErrors at h
  simp only [bind_eq_ok] at h
  obtain ⟨⟨⟩, s1, h1, ⟨⟩, s2, h2, ⟨⟩, s3, h3, ⟨⟩, s4, h4, ⟨⟩, s5, h5, ⟨⟩, s6, h6, ⟨⟩, s7, h7, t, s8, h8, ⟨⟩, s9, h9, h10⟩ := h
  cases h8
  exact ⟨s1, s2, s3, s4, s5, s6, s7, s9, h1, h2, h3, h4, h5, h6, h7, h9, h10⟩

/-- every attribute `apply_errors` may write -/
def errorAttrs (s : SC K) (i : Nat) (a : String) : Prop :=
  drawn s.ORD.RF s.SIG.RF id i a ∨ drawn s.ORD.BPM s.SIG.BPM id i a ∨ drawn s.ORD.Magnet s.SIG.Magnet magnetAttrOf i a ∨
  a = "Length" ∨ (∃ tp ∈ typedPairs s.ORD, supportDrawn tp.1 tp.2 i a) ∨ a ∈ supportWrites ∨ a ∈ magnetWrites ∨
  a ∈ rfProperties

theorem errorAttrs_congr {s t : SC K} (h1 : s.SIG = t.SIG) (h2 : s.ORD = t.ORD) : errorAttrs s = errorAttrs t := by
  funext i a; unfold errorAttrs; rw [h1, h2]

theorem applyErrors_frame {E : Env K} {n : K} {s : SC K} (hw : WellRegistered s.SIG) :
    ErrFrame (errorAttrs s) s (applyErrors E n s).state := by
  let R : SC K → SC K → Prop := fun a b => a.SIG = s.SIG ∧ a.ORD = s.ORD → ErrFrame (errorAttrs s) a b
  have : PreRel R := ⟨fun a _ => ErrFrame.refl a, fun a b c h1 h2 h => by
    have h1 := h1 h
    exact ErrFrame.trans _ _ _ h1 (h2 ⟨h1.sig.trans h.1, h1.ord.trans h.2⟩)⟩
  have hof : ∀ {α : Type} {m : Py (SC K) α} {W : SC K → Nat → String → Prop},
      (∀ a : SC K, WellRegistered a.SIG → DrawFrame (W a) a (m a).state) →
      (∀ a i x, W a i x → errorAttrs a i x) → Rel R m := by
    intro α m W h1 h2 a ha
    refine ErrFrame.of_draw ((h1 a (ha.1 ▸ hw)).mono (fun i x hx => ?_))
    rw [← errorAttrs_congr ha.1 ha.2]; exact h2 a i x hx
  refine (show Rel R (applyErrors E n) from ?_) s ⟨rfl, rfl⟩
  unfold applyErrors
  refine Rels.bind (hof (fun a ha => applyRf_frame ha) (fun a i x h => Or.inl h)) (fun _ =>
    Rels.bind (hof (fun a ha => applyBpm_frame ha) (fun a i x h => Or.inr (Or.inl h))) (fun _ =>
    Rels.bind (hof (fun a ha => applyMagnet_frame ha) (fun a i x h => Or.inr (Or.inr (Or.inl h)))) (fun _ =>
    Rels.bind (fun a _ => (applyInjection_frame E n a).mono (fun i x h => h.elim)) (fun _ =>
    Rels.bind (hof (W := fun _ _ a => a = "Length") (fun a _ => applyCircumference_frame E n a)
      (fun a i x h => Or.inr (Or.inr (Or.inr (Or.inl h))))) (fun _ =>
    Rels.bind (hof (fun a ha => applySupports_frame ha) (fun a i x h => Or.inr (Or.inr (Or.inr (Or.inr (Or.inl h)))))) (fun _ =>
    Rels.bind (hof (W := fun _ _ a => a ∈ supportWrites) (fun a _ => DrawFrame.of_frame (updateSupports_frame E true true a))
      (fun a i x h => Or.inr (Or.inr (Or.inr (Or.inr (Or.inr (Or.inl h))))))) (fun _ => Rels.bind Rels.get (fun _ =>
    Rels.bind (Rels.when (hof (W := fun _ _ a => a ∈ magnetWrites) (fun a _ => DrawFrame.of_frame (updateMagnets_modifies none a))
      (fun a i x h => Or.inr (Or.inr (Or.inr (Or.inr (Or.inr (Or.inr (Or.inl h))))))))) (fun _ =>
    Rels.when (hof (W := fun _ _ a => a ∈ rfProperties) (fun a _ => DrawFrame.of_frame (updateCavities_frame none a))
      (fun a i x h => Or.inr (Or.inr (Or.inr (Or.inr (Or.inr (Or.inr (Or.inr h)))))))))))))))))

section ord
variable [IsStrictOrderedRing K]

theorem errorsStored_congr {r r' : Ring K} {ords : List Nat} {d : Dict Nat (Kwargs K)} {raw : List String}
    {attrOf : String → String} {n : K} (h : ErrorsStored r ords d raw attrOf n)
    (he : ∀ i name sig, sigma d i name = some sig → r'.attr i (attrOf name) = r.attr i (attrOf name)) :
    ErrorsStored r' ords d raw attrOf n := by
  intro i hi name sig hs
  rw [he i name sig hs]
  exact h i hi name sig hs

/-- names in the three groups of uncertainties and attributes written afterwards are all different -/
def rfNamesList : List String := ["VoltageSetpoint", "VoltageOffset", "VoltageCalError", "FrequencySetpoint", "FrequencyOffset",
    "FrequencyCalError", "TimeLagSetpoint", "TimeLagOffset", "TimeLagCalError"]
def bpmNamesList : List String := ["Noise", "NoiseCO", "Offset", "Roll", "CalError", "SumError"]
def magnetNamesList : List String := ["MagnetOffset", "MagnetRoll", "CalErrorA", "CalErrorB", "BendingAngle"]
def supportNamesList : List String := ["SectionOffset", "SectionRoll", "PlinthOffset", "PlinthRoll", "GirderOffset", "GirderRoll"]

theorem supportDrawn_name {o : Ords} {i : Nat} {a : String} (h : ∃ tp ∈ typedPairs o, supportDrawn tp.1 tp.2 i a) :
    a ∈ supportNamesList := by
  obtain ⟨tp, htp, -, h⟩ := h
  have ht := (typedPairs_type htp).1
  have : ∀ t ∈ supportTypes, t ++ "Offset" ∈ supportNamesList ∧ t ++ "Roll" ∈ supportNamesList := by decide +kernel
  rcases h with rfl | rfl
  · exact (this _ ht).1
  · exact (this _ ht).2

/-- attributes with these names are not touched after the BPM, cavity and magnet errors have been drawn -/
theorem applyErrors_tail {E : Env K} {n : K} {s3 s4 s5 s6 s7 s8 s' : SC K} (hw : WellRegistered s3.SIG)
    (h4 : applyInjection E n s3 = .ok () s4) (h5 : applyCircumference E n s4 = .ok () s5)
    (h6 : applySupports E n s5 = .ok () s6) (h7 : updateSupports E true true s6 = .ok () s7)
    (h8 : when (!s7.ORD.Magnet.isEmpty) (updateMagnets none) s7 = .ok () s8)
    (h9 : when (!s7.ORD.RF.isEmpty && !s7.SIG.RF.isEmpty) (updateCavities none) s8 = .ok () s') {a : String}
    (ha : a ∉ "Length" :: (supportNamesList ++ supportWrites ++ magnetWrites ++ rfProperties)) (i : Nat) :
    s'.RING.attr i a = s3.RING.attr i a := by
  simp only [List.mem_cons, List.mem_append, not_or] at ha
  obtain ⟨hL, ⟨⟨hs, hu⟩, hm⟩, hr⟩ := ha
  have f4 := (applyInjection_frame E n).ok h4
  have f5 := (applyCircumference_frame E n).ok h5
  have f6 := applySupports_frame (E := E) (n := n) (s := s5) (by rw [f5.sig, f4.sig]; exact hw)
  rw [h6] at f6
  have f7 := (updateSupports_frame E true true).ok h7
  have f8 := (Rels.when (updateMagnets_modifies none)).ok h8
  have f9 := (Rels.when (updateCavities_frame none)).ok h9
  rw [f9.attr _ _ hr, f8.attr _ _ hm, f7.attr _ _ hu, show s6.RING.attr i a = s5.RING.attr i a from
    f6.attr _ _ (fun hh => hs (supportDrawn_name hh)), f5.attr _ _ hL, f4.attr _ _ (fun h => h)]

theorem drawn_name {ords : List Nat} {d : Dict Nat (Kwargs K)} {f : String → String} {L : List String} (h : OnlyNames d L)
    {i : Nat} {a : String} (hd : drawn ords d f i a) : a ∈ L.map f := by
  obtain ⟨-, n, v, hv, rfl⟩ := hd
  exact List.mem_map_of_mem (h _ _ _ hv)

theorem applyErrors_stored {E : Env K} {n : K} {s s' : SC K} (hw : WellRegistered s.SIG)
    (h : applyErrors E n s = .ok () s') :
    ErrorsStored s'.RING s.ORD.RF s.SIG.RF [] id n ∧
    ErrorsStored s'.RING s.ORD.BPM s.SIG.BPM ["Noise", "NoiseCO"] id n ∧
    ErrorsStored s'.RING s.ORD.Magnet s.SIG.Magnet [] magnetAttrOf n := by
  obtain ⟨s1, s2, s3, s4, s5, s6, s7, s8, h1, h2, h3, h4, h5, h6, h7, h8, h9⟩ := applyErrors_eq_ok h
  have f1 := applyRf_frame (E := E) (n := n) hw
  rw [h1] at f1
  have w1 : WellRegistered s1.SIG := f1.sig ▸ hw
  have f2 := applyBpm_frame (E := E) (n := n) w1
  rw [h2] at f2
  have w2 : WellRegistered s2.SIG := f2.sig ▸ w1
  have f3 := applyMagnet_frame (E := E) (n := n) w2
  rw [h3] at f3
  have w3 : WellRegistered s3.SIG := f3.sig ▸ w2
  have tail := fun (a : String) ha i => applyErrors_tail w3 h4 h5 h6 h7 h8 h9 (a := a) ha i
  have p1 := applyRf_stored hw h1
  have p2 := applyBpm_stored w1 h2
  have p3 := applyMagnet_stored w2 h3
  have e1 : s1.SIG = s.SIG := f1.sig
  have e2 : s2.SIG = s.SIG := f2.sig.trans e1
  have o1 : s1.ORD = s.ORD := f1.ord
  have o2 : s2.ORD = s.ORD := f2.ord.trans o1
  rw [e1, o1] at p2
  rw [e2, o2] at p3
  simp only [Res.state] at f1 f2 f3
  refine ⟨errorsStored_congr p1 (fun i name sig hs => ?_), errorsStored_congr p2 (fun i name sig hs => ?_), errorsStored_congr p3 (fun i name sig hs => ?_)⟩
  · have hn := hw.rfNames _ _ _ hs
    have k1 : ∀ m ∈ rfNamesList, m ∉ "Length" :: (supportNamesList ++ supportWrites ++ magnetWrites ++ rfProperties) ∧
        m ∉ magnetNamesList.map magnetAttrOf ∧ m ∉ bpmNamesList.map id := by decide +kernel
    rw [id, tail _ (k1 _ hn).1, f3.attr _ _ (fun hd => (k1 _ hn).2.1 (drawn_name w2.magnetNames hd)),
      f2.attr _ _ (fun hd => (k1 _ hn).2.2 (drawn_name w1.bpmNames hd))]
  · have hn := hw.bpmNames _ _ _ hs
    have k1 : ∀ m ∈ bpmNamesList, m ∉ "Length" :: (supportNamesList ++ supportWrites ++ magnetWrites ++ rfProperties) ∧
        m ∉ magnetNamesList.map magnetAttrOf := by decide +kernel
    rw [id, tail _ (k1 _ hn).1, f3.attr _ _ (fun hd => (k1 _ hn).2 (drawn_name w2.magnetNames hd))]
  · have hn := hw.magnetNames _ _ _ hs
    have k1 : ∀ m ∈ magnetNamesList, magnetAttrOf m ∉
        "Length" :: (supportNamesList ++ supportWrites ++ magnetWrites ++ rfProperties) := by decide +kernel
    rw [tail _ (k1 _ hn)]

theorem applyErrors_injection {E : Env K} {n : K} {s s' : SC K} (hw : WellRegistered s.SIG)
    (h6 : s.SIG.staticInjectionZ.length = 6) (h : applyErrors E n s = .ok () s') :
    ∃ z0, s'.INJ = { s.INJ with Z0 := z0, randomInjectionZ := s.SIG.randomInjectionZ } ∧
      z0.length = s.INJ.Z0ideal.length ∧
      ∀ k, |coef z0 k - coef s.INJ.Z0ideal k| ≤ |n| * |coef s.SIG.staticInjectionZ k| := by
  obtain ⟨s1, s2, s3, s4, s5, s6, s7, s8, h1, h2, h3, h4, h5, h6', h7, h8, h9⟩ := applyErrors_eq_ok h
  have f1 := applyRf_frame (E := E) (n := n) hw
  rw [h1] at f1
  have w1 : WellRegistered s1.SIG := f1.sig ▸ hw
  have f2 := applyBpm_frame (E := E) (n := n) w1
  rw [h2] at f2
  have w2 : WellRegistered s2.SIG := f2.sig ▸ w1
  have f3 := applyMagnet_frame (E := E) (n := n) w2
  rw [h3] at f3
  simp only [Res.state] at f1 f2 f3
  have e3 : s3.SIG = s.SIG := f3.sig.trans (f2.sig.trans f1.sig)
  have i3 : s3.INJ = s.INJ := f3.inj.trans (f2.inj.trans f1.inj)
  obtain ⟨z0, pos, rfl, hl, hb⟩ := applyInjection_ok (by rw [e3]; exact h6) h4
  have f5 := (applyCircumference_frame E n).ok h5
  have f6 := applySupports_frame (E := E) (n := n) (s := s5) (by rw [f5.sig, e3]; exact hw)
  rw [h6'] at f6
  simp only [Res.state] at f6
  have f7 := (updateSupports_frame E true true).ok h7
  have f8 := (Rels.when (updateMagnets_modifies none)).ok h8
  have f9 := (Rels.when (updateCavities_frame none)).ok h9
  refine ⟨z0, ?_, by rw [← i3]; exact hl, by rw [← i3, ← e3]; exact hb⟩
  rw [f9.inj, f8.inj, f7.inj, f6.inj, f5.inj]
  simp only [i3, e3]
end ord

end phases
end PySC
