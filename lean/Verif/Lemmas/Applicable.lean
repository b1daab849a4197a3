import Verif.Lemmas.Settles
import Verif.Lemmas.RequestsSession
import Verif.Lemmas.SupportErrors
import Verif.Spec.Applicable
/-
Errors can be applied to a machine in order: the stages in which random numbers are drawn.
-/
namespace PySC
set_option linter.unusedSectionVars false
open Py Spec
variable {K : Type} [Field K] [LinearOrder K] [FloorRing K] {Bad : Err → SC K → Prop}

theorem randnc_settles {E : Env K} (hE : KeepsDrawing E.randn) {cut : K} (hc : cut ≠ 0) (n : Nat) (s : SC K) :
    Settles Bad (fun f => randnc (E.passes f) cut n) s (fun l t => (l.length = n ∧ ∀ x ∈ l, |x| ≤ |cut|) ∧ ∃ pos, t = { s with rng := pos }) := by
  obtain ⟨f0, ⟨l, pos⟩, h⟩ := resample_terminates (hE cut hc) ((List.range n).map (fun k => E.randn (s.rng + k))) (s.rng + n)
  have h' : ∀ f, f0 ≤ f → randncFrom (E.passes f) cut n s.rng = .ok (l, pos) := fun f hf => resample_mono hf h
  obtain ⟨h1, h2, -, -⟩ := randncFrom_eq_ok (h' f0 (le_refl _))
  exact ⟨f0, .ok l { s with rng := pos }, fun f hf => randnc_eq_ok.2 ⟨pos, h' f hf, rfl⟩, Or.inl ⟨l, _, rfl, ⟨h2, h1⟩, pos, rfl⟩⟩

theorem scaledRandn_settles {E : Env K} (hE : KeepsDrawing E.randn) {cut : K} (hc : cut ≠ 0) {sig : Attr K}
    (hs : (∃ x, sig = .num x) ∨ ∃ v, sig = .vec v) (s : SC K) :
    Settles Bad (fun f => scaledRandn (E.passes f) cut sig) s (fun _ t => ∃ pos, t = { s with rng := pos }) := by
  rcases hs with ⟨x, rfl⟩ | ⟨v, rfl⟩
  · exact (randnc_settles hE hc _ s).bind (fun z t ht => Settles.pure ht.2)
  · exact (randnc_settles hE hc _ s).bind (fun z t ht => Settles.pure ht.2)

theorem randnCutoff_settles {E : Env K} (hE : KeepsDrawing E.randn) {n : K} (hn : n ≠ 0) {sig : Attr K} (hs : Drawable sig) (s : SC K) :
    Settles Bad (fun f => randnCutoff (E.passes f) sig n) s (fun _ t => ∃ pos, t = { s with rng := pos }) := by
  cases sig with
  | num x => exact scaledRandn_settles hE hn (Or.inl ⟨x, rfl⟩) s
  | vec v => exact scaledRandn_settles hE hn (Or.inr ⟨v, rfl⟩) s
  | pair v c =>
    cases v with
    | num x => exact scaledRandn_settles hE hs (Or.inl ⟨x, rfl⟩) s
    | vec v => exact scaledRandn_settles hE hs (Or.inr ⟨v, rfl⟩) s
    | _ => exact hs.elim
  | _ => exact hs.elim

theorem drawInto_settles {E : Env K} (hE : KeepsDrawing E.randn) {n : K} (hn : n ≠ 0) {sig : Attr K} (hs : Drawable sig) {s : SC K} {i : Nat}
    (hi : i < s.RING.length) (a : String) :
    Settles Bad (fun f => drawInto (E.passes f) n i a sig) s (fun _ t => t.RING.length = s.RING.length) := by
  refine (randnCutoff_settles hE hn hs s).bind (fun v t ht => ?_)
  obtain ⟨pos, rfl⟩ := ht
  exact Settles.setAttr hi (Ring.length_setAttr ..)

/-- a loop over registered uncertainties -/
theorem drawLoop_settles {ords : List Nat} {d : Dict Nat (Kwargs K)} (hd : SingleEntries d) {f : Nat → Nat → String × Attr K → Py (SC K) Unit}
    {s : SC K} (hf : ∀ i ∈ ords, ∀ kv : String × Attr K, sigma d i kv.1 = some kv.2 → ∀ t : SC K, t.RING.length = s.RING.length →
      Settles Bad (fun k => f k i kv) t (fun _ t' => t'.RING.length = t.RING.length)) :
    Settles Bad (fun k => forEach (intersect ords d.keys) (fun i => forEach (entries d i) (f k i))) s (fun _ _ => True) := by
  refine Settles.mono (P := fun _ t => t.RING.length = s.RING.length) ?_ (fun _ _ _ => trivial)
  refine Settles.forEach (I := fun t : SC K => t.RING.length = s.RING.length) (fun i hi t ht => ?_) rfl
  refine Settles.forEach (I := fun t : SC K => t.RING.length = s.RING.length) (fun kv hkv u hu => ?_) ht
  exact (hf i (mem_intersect.1 hi).1 kv ((entries_mem hd).1 hkv) u hu).mono (fun _ _ h => h.trans hu)

theorem applyRf_settles {E : Env K} (hE : KeepsDrawing E.randn) {n : K} (hn : n ≠ 0) {s : SC K} (hw : WellRegistered s.SIG)
    (hi : ∀ i ∈ s.ORD.RF, i < s.RING.length) (hs : ∀ i ∈ s.ORD.RF, ∀ name sig, sigma s.SIG.RF i name = some sig → Drawable sig) :
    Settles Bad (fun f => applyRf (E.passes f) n) s (fun _ _ => True) :=
  (Settles.get (P := fun a t => a = s ∧ t = s) ⟨rfl, rfl⟩).bind (fun _ _ h => by
    obtain ⟨rfl, rfl⟩ := h
    exact drawLoop_settles hw.rfSingle (fun i h1 kv h2 t ht => drawInto_settles hE hn (hs i h1 _ _ h2) (ht ▸ hi i h1) _))

theorem applyBpm_settles {E : Env K} (hE : KeepsDrawing E.randn) {n : K} (hn : n ≠ 0) {s : SC K} (hw : WellRegistered s.SIG)
    (hi : ∀ i ∈ s.ORD.BPM, i < s.RING.length)
    (hs : ∀ i ∈ s.ORD.BPM, ∀ name sig, sigma s.SIG.BPM i name = some sig → name ∉ ["Noise", "NoiseCO"] → Drawable sig) :
    Settles Bad (fun f => applyBpm (E.passes f) n) s (fun _ _ => True) :=
  (Settles.get (P := fun a t => a = s ∧ t = s) ⟨rfl, rfl⟩).bind (fun _ _ h => by
    obtain ⟨rfl, rfl⟩ := h
    refine drawLoop_settles hw.bpmSingle (fun i h1 kv h2 t ht => ?_)
    by_cases hc : strContains "Noise" kv.1 = true
    · simp only [if_pos hc]
      exact Settles.setAttr (ht ▸ hi i h1) (Ring.length_setAttr ..)
    · simp only [if_neg hc]
      exact drawInto_settles hE hn (hs i h1 _ _ h2 (fun hh => hc ((noise_names (hw.bpmNames _ _ _ h2)).2 hh))) (ht ▸ hi i h1) _)

theorem applyMagnet_settles {E : Env K} (hE : KeepsDrawing E.randn) {n : K} (hn : n ≠ 0) {s : SC K} (hw : WellRegistered s.SIG)
    (hi : ∀ i ∈ s.ORD.Magnet, i < s.RING.length) (hs : ∀ i ∈ s.ORD.Magnet, ∀ name sig, sigma s.SIG.Magnet i name = some sig → Drawable sig) :
    Settles Bad (fun f => applyMagnet (E.passes f) n) s (fun _ _ => True) :=
  (Settles.get (P := fun a t => a = s ∧ t = s) ⟨rfl, rfl⟩).bind (fun _ _ h => by
    obtain ⟨rfl, rfl⟩ := h
    exact drawLoop_settles hw.magnetSingle (fun i h1 kv h2 t ht => drawInto_settles hE hn (hs i h1 _ _ h2) (ht ▸ hi i h1) _))

theorem applyInjection_settles {E : Env K} (hE : KeepsDrawing E.randn) {n : K} (hn : n ≠ 0) {s : SC K}
    (hz : s.SIG.staticInjectionZ.length = 6 ∧ s.INJ.Z0ideal.length = 6) :
    Settles Bad (fun f => applyInjection (E.passes f) n) s (fun _ _ => True) := by
  refine (randnc_settles hE hn 6 s).bind (fun z t ht => ?_)
  obtain ⟨⟨hl, -⟩, pos, rfl⟩ := ht
  refine (Settles.get (P := fun a t => a = { s with rng := pos } ∧ t = { s with rng := pos }) ⟨rfl, rfl⟩).bind (fun _ _ h => ?_)
  obtain ⟨rfl, rfl⟩ := h
  have h1 : bmul s.SIG.staticInjectionZ z = .ok (List.zipWith (· * ·) s.SIG.staticInjectionZ z) := by
    unfold bmul; rw [if_pos (by rw [hz.1, hl])]
  refine (Settles.lift (P := fun a t => a = List.zipWith (· * ·) s.SIG.staticInjectionZ z) h1 rfl).bind (fun _ t h => ?_)
  subst h
  have h2 : ∃ y, vadd s.INJ.Z0ideal (List.zipWith (· * ·) s.SIG.staticInjectionZ z) = .ok y := by
    unfold vadd; rw [if_pos (by simp [hz.1, hz.2, hl])]; exact ⟨_, rfl⟩
  obtain ⟨y, h2⟩ := h2
  exact (Settles.lift (P := fun _ _ => True) h2 trivial).bind (fun _ t _ => Settles.modify trivial)

section ord
variable [IsStrictOrderedRing K]

/-- the uncertainty of the circumference can be taken up by the drifts -/
def Stretchable (n : K) (s : SC K) : Prop := (∀ i < s.RING.length, ¬ DriftAt s.RING i) ∨
    |s.SIG.Circumference| * |n| * circumference s.RING < driftLength s.RING

theorem isEmpty_drifts {r : Ring K} (h : ∀ i < r.length, ¬ DriftAt r i) : (r.filter isDrift).isEmpty = true := by
  rw [List.isEmpty_iff, List.filter_eq_nil_iff]
  intro e he hd
  obtain ⟨i, hi, rfl⟩ := List.getElem_of_mem he
  refine h i hi ?_
  unfold DriftAt Ring.attr
  rw [List.getElem?_eq_getElem hi]
  simpa [isDrift] using hd

/-- drifts are scaled by a positive factor -/
def Scaled (r r' : Ring K) : Prop := r'.length = r.length ∧ ∃ q : K, 0 < q ∧ ∀ i < r.length, ∀ a, r'.attr i a =
  if a = "Length" ∧ DriftAt r i then some (.num (q * numAt r i "Length")) else r.attr i a

theorem scaled_pos {r r' : Ring K} {q : K} (h : ∀ i < r.length, ∀ a, r'.attr i a =
    if a = "Length" ∧ DriftAt r i then some (.num (q * numAt r i "Length")) else r.attr i a) (n : Nat) (hn : n ≤ r.length) :
    sPos r' n = sPos r n + (q - 1) * ((List.range n).map (fun i => if DriftAt r i then numAt r i "Length" else 0)).sum := by
  induction n with
  | zero => simp [sPos]
  | succ n ih =>
    rw [sPos_succ, sPos_succ, ih (by omega), List.range_succ]
    simp only [List.map_append, List.sum_append, List.map_cons, List.map_nil, List.sum_cons, List.sum_nil]
    have := h n (by omega) "Length"
    by_cases hd : DriftAt r n
    · rw [if_pos ⟨rfl, hd⟩] at this
      rw [show numAt r' n "Length" = q * numAt r n "Length" by rw [numAt, this], if_pos hd]; ring
    · rw [if_neg (fun hh => hd hh.2)] at this
      rw [show numAt r' n "Length" = numAt r n "Length" by rw [numAt, this]; rfl, if_neg hd]; ring

theorem scaleCircumference_scaled {r : Ring K} {c b : K} (hf : Forward r) (hc : |c| ≤ b)
    (h : (∀ i < r.length, ¬ DriftAt r i) ∨ b * circumference r < driftLength r) :
    ∃ r', scaleCircumference r (1 + c) "rel" = .ok r' ∧ Scaled r r' := by
  rcases h with h | h
  · refine ⟨r, ?_, rfl, 1, one_pos, fun i hi a => by rw [if_neg (fun hh => h i hi hh.2)]⟩
    unfold scaleCircumference
    rw [if_neg (by decide)]
    simp only
    rw [if_pos (isEmpty_drifts h)]
  · have hC : 0 ≤ circumference r := sPos_nonneg hf _
    have hb : 0 ≤ b := le_trans (abs_nonneg _) hc
    have hD : 0 < driftLength r := lt_of_le_of_lt (mul_nonneg hb hC) h
    obtain ⟨r', q, h1, h2, h3, h4⟩ := scaleCircumference_spec (r := r) (c := 1 + c) (mode := "rel") (by simp) hD.ne'
    refine ⟨r', h1, h2, q, ?_, h3⟩
    have h5 := scaled_pos h3 r.length (le_refl _)
    have h6 : circumference r' = circumference r + (q - 1) * driftLength r := by
      unfold circumference; rw [h2]; exact h5
    rw [if_pos rfl, h6] at h4
    have h7 : q * driftLength r = driftLength r + c * circumference r := by linear_combination h4
    have h8 : -(b * circumference r) ≤ c * circumference r := by
      rw [← neg_mul]
      exact mul_le_mul_of_nonneg_right (neg_le_of_abs_le hc) hC
    have h9 : 0 < q * driftLength r := by rw [h7]; linarith
    exact pos_of_mul_pos_left h9 hD.le

theorem applyCircumference_settles {E : Env K} (hE : KeepsDrawing E.randn) {n : K} (hn : n ≠ 0) {s : SC K} (hf : Forward s.RING)
    (h : Stretchable n s) :
    Settles Bad (fun f => applyCircumference (E.passes f) n) s (fun _ t => Scaled s.RING t.RING) := by
  refine (randnc_settles hE hn 1 s).bind (fun z t ht => ?_)
  obtain ⟨⟨hl, hz⟩, pos, rfl⟩ := ht
  refine (Settles.get (P := fun a t => a = { s with rng := pos } ∧ t = { s with rng := pos }) ⟨rfl, rfl⟩).bind (fun _ _ h => ?_)
  obtain ⟨rfl, rfl⟩ := h
  obtain ⟨x, rfl⟩ := List.length_eq_one_iff.1 hl
  have hx : |s.SIG.Circumference * x| ≤ |s.SIG.Circumference| * |n| := by
    rw [abs_mul]
    exact mul_le_mul_of_nonneg_left (hz x (by simp)) (abs_nonneg _)
  obtain ⟨r', h1, h2⟩ := scaleCircumference_scaled hf hx h
  exact (Settles.lift (P := fun a _ => a = r') h1 rfl).bind (fun a t h => by subst h; exact Settles.modify h2)
end ord
end PySC
