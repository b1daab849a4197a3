import Verif.Lemmas.Draws
import Verif.Lemmas.TruncatedLabels
import Verif.Lemmas.TruncatedMoments
import Verif.Spec.ErrorLaw
/-
The calls of `randnc` made by `apply_errors`.
-/
namespace PySC
open Py Spec
set_option linter.unusedSectionVars false

theorem returns_of {E : Env ℝ} {cut : ℝ} {n pos : ℕ} {o : List ℝ} {p : ℕ} (h : randncFrom E cut n pos = .ok (o, p)) :
    Returns E E.randn cut n pos o p := ⟨E.fuel, h⟩

theorem returns_none (E : Env ℝ) (x : ℕ → ℝ) (cut : ℝ) (pos : ℕ) : Returns E x cut 0 pos [] pos := by
  refine ⟨0, ?_⟩
  unfold randncFrom resample
  simp

theorem returnsAll_append {E : Env ℝ} {x : ℕ → ℝ} {a b : List (ℝ × ℕ)} {oa ob : List (List ℝ)} {m q : ℕ} : ∀ {pos : ℕ},
    ReturnsAll E x a pos oa m → ReturnsAll E x b m ob q → ReturnsAll E x (a ++ b) pos (oa ++ ob) q := by
  induction a generalizing oa with
  | nil =>
    rintro pos ⟨rfl, rfl⟩ h
    exact h
  | cons c a ih =>
    rintro pos ⟨o, k, r, rfl, h1, h2⟩ h
    exact ⟨o, k, r ++ ob, rfl, h1, ih h2 h⟩

/-- a loop whose steps make one call each -/
theorem forEach_calls {α : Type} {E : Env ℝ} {f : α → Py (SC ℝ) Unit} {call : α → ℝ × ℕ} {Q : α → List ℝ → SC ℝ → Prop}
    {l : List α} (hl : l.Nodup)
    (hstep : ∀ x ∈ l, ∀ s s', f x s = .ok () s' → ∃ o, Returns E E.randn (call x).1 (call x).2 s.rng o s'.rng ∧ Q x o s')
    (hkeep : ∀ x ∈ l, ∀ y ∈ l, x ≠ y → ∀ o s s', Q y o s → f x s = .ok () s' → Q y o s')
    {s s' : SC ℝ} (h : forEach l f s = .ok () s') :
    ∃ o : α → List ℝ, ReturnsAll E E.randn (l.map call) s.rng (l.map o) s'.rng ∧ ∀ x ∈ l, Q x (o x) s' := by
  classical
  induction l generalizing s with
  | nil => simp at h; subst h; exact ⟨fun _ => [], ⟨rfl, rfl⟩, by simp⟩
  | cons x l ih =>
    rw [forEach_cons, bind_eq_ok] at h
    obtain ⟨⟨⟩, s1, h1, h2⟩ := h
    obtain ⟨o, hr, hQ⟩ := hstep x (by simp) s s1 h1
    obtain ⟨d, hd, hd'⟩ := ih (List.nodup_cons.1 hl).2 (fun y hy => hstep y (by simp [hy]))
      (fun y hy z hz => hkeep y (by simp [hy]) z (by simp [hz])) h2
    have hx : x ∉ l := (List.nodup_cons.1 hl).1
    have hQ' : Q x o s' := forEach_inv (I := fun t => Q x o t)
      (fun y hy t t' ht hf => hkeep y (by simp [hy]) x (by simp) (fun e => hx (e ▸ hy)) o t t' ht hf) h2 hQ
    have hm : l.map (fun y => if y = x then o else d y) = l.map d :=
      List.map_congr_left (fun y hy => if_neg (fun (e : y = x) => hx (e ▸ hy)))
    refine ⟨fun y => if y = x then o else d y, ⟨o, s1.rng, l.map d, ?_, hr, hd⟩, fun y hy => ?_⟩
    · rw [List.map_cons, if_pos rfl, hm]
    · by_cases e : y = x
      · subst e; simpa using hQ'
      · have hy' : y ∈ l := (List.mem_cons.1 hy).resolve_left e
        simpa [e] using hd' y hy'

/-- the call made for an uncertainty -/
noncomputable def callFor (nsigmas : ℝ) : Attr ℝ → ℝ × ℕ
  | .num _ => (nsigmas, 1)
  | .vec v => (nsigmas, if v.length < 1 then 1 else v.length)
  | .pair (.num _) c => (c, 1)
  | .pair (.vec v) c => (c, if v.length < 1 then 1 else v.length)
  | .pair _ c => (c, 0)
  | _ => (nsigmas, 0)

theorem callFor_cut (nsigmas : ℝ) (sig : Attr ℝ) : (callFor nsigmas sig).1 = cutoffFor nsigmas sig := by
  cases sig <;> try rfl
  rename_i v c
  cases v <;> rfl

theorem callFor_numbers (nsigmas : ℝ) (sig : Attr ℝ) : numbersFor sig ≤ (callFor nsigmas sig).2 := by
  cases sig with
  | vec v => simp only [numbersFor, callFor]; split <;> omega
  | pair v c =>
    cases v with
    | vec w => simp only [numbersFor, callFor]; split <;> omega
    | _ => simp [numbersFor, callFor]
  | _ => simp [numbersFor, callFor]

theorem drawInto_call {E : Env ℝ} {c : ℝ} {i : Nat} {n : String} {sig : Attr ℝ} {s s' : SC ℝ}
    (h : drawInto E c i n sig s = .ok () s') :
    ∃ o, Returns E E.randn (callFor c sig).1 (callFor c sig).2 s.rng o s'.rng ∧
      ∃ err, s'.RING.attr i n = some err ∧ MadeFrom sig err (fun k => o.getD k 0) := by
  have vecCase : ∀ (v z : List ℝ) (m : ℕ), m = (if v.length < 1 then 1 else v.length) → z.length = m →
      (List.zipWith (· * ·) v z).length = v.length ∧ ∀ k < v.length, coef (List.zipWith (· * ·) v z) k = coef v k * z.getD k 0 := by
    intro v z m hm hz
    have hle : v.length ≤ z.length := by rw [hz, hm]; split <;> omega
    refine ⟨by simp [hle], fun k hk => ?_⟩
    have hk' : k < z.length := lt_of_lt_of_le hk hle
    simp [coef, hk, hk']
  unfold drawInto at h
  rw [bind_eq_ok] at h
  obtain ⟨v, s1, h1, h2⟩ := h
  obtain ⟨hlt, rfl⟩ := setAttr_eq_ok.1 h2
  have hattr : ∀ w : Attr ℝ, (s1.RING.setAttr i n w).attr i n = some w := fun w => Ring.attr_setAttr_same hlt
  unfold randnCutoff at h1
  have numCase : ∀ (x cut : ℝ), scaledRandn E cut (.num x) s = .ok v s1 →
      ∃ o, Returns E E.randn cut 1 s.rng o s1.rng ∧ ∃ e, v = .num e ∧ e = x * o.getD 0 0 := by
    intro x cut hh
    unfold scaledRandn at hh
    rw [bind_eq_ok] at hh
    obtain ⟨z, s2, g1, g2⟩ := hh
    obtain ⟨pos, g3, rfl⟩ := randnc_eq_ok.1 g1
    cases g2
    exact ⟨z, returns_of g3, _, rfl, by cases z <;> rfl⟩
  have vecCase' : ∀ (w : List ℝ) (cut : ℝ), scaledRandn E cut (.vec w) s = .ok v s1 →
      ∃ o, Returns E E.randn cut (if w.length < 1 then 1 else w.length) s.rng o s1.rng ∧
        ∃ e, v = .vec e ∧ e.length = w.length ∧ ∀ k < w.length, coef e k = coef w k * o.getD k 0 := by
    intro w cut hh
    unfold scaledRandn at hh
    rw [bind_eq_ok] at hh
    obtain ⟨z, s2, g1, g2⟩ := hh
    obtain ⟨pos, g3, rfl⟩ := randnc_eq_ok.1 g1
    cases g2
    exact ⟨z, returns_of g3, _, rfl, vecCase w z _ rfl (randncFrom_eq_ok g3).2.1⟩
  have bad : ∀ (w : Attr ℝ) (cut : ℝ), (∀ x, w ≠ .num x) → (∀ x, w ≠ .vec x) → scaledRandn E cut w s = .ok v s1 → False := by
    intro w cut hn hv hh
    unfold scaledRandn at hh
    split at hh
    · exact hn _ rfl
    · exact hv _ rfl
    · cases hh
  cases sig with
  | num x =>
    obtain ⟨o, g1, e, rfl, g2⟩ := numCase x c h1
    exact ⟨o, g1, _, hattr _, g2⟩
  | vec w =>
    obtain ⟨o, g1, e, rfl, g2⟩ := vecCase' w c h1
    exact ⟨o, g1, _, hattr _, g2⟩
  | pair w cut =>
    cases w with
    | num x =>
      obtain ⟨o, g1, e, rfl, g2⟩ := numCase x cut h1
      exact ⟨o, g1, _, hattr _, g2⟩
    | vec w =>
      obtain ⟨o, g1, e, rfl, g2⟩ := vecCase' w cut h1
      exact ⟨o, g1, _, hattr _, g2⟩
    | _ => exact (bad _ _ (by simp) (by simp) h1).elim
  | _ => exact (bad _ _ (by simp) (by simp) h1).elim

/-- the registered uncertainties of one kind, in the order in which `apply_errors` visits them -/
def visits (ords : List Nat) (d : Dict Nat (Kwargs ℝ)) : List (Nat × (String × Attr ℝ)) :=
  (intersect ords d.keys).flatMap (fun a => (entries d a).map (fun b => (a, b)))

theorem mem_visits {ords : List Nat} {d : Dict Nat (Kwargs ℝ)} (hd : SingleEntries d) (x : Nat × (String × Attr ℝ)) :
    x ∈ visits ords d ↔ x.1 ∈ ords ∧ sigma d x.1 x.2.1 = some x.2.2 := by
  obtain ⟨i, kv⟩ := x
  simp only [visits, List.mem_flatMap, List.mem_map, Prod.mk.injEq]
  constructor
  · rintro ⟨a, ha, b, hb, rfl, rfl⟩
    exact ⟨(mem_intersect.1 ha).1, (entries_mem hd).1 hb⟩
  · rintro ⟨h1, h2⟩
    exact ⟨i, mem_intersect.2 ⟨h1, sigma_keys h2⟩, kv, (entries_mem hd).2 h2, rfl, rfl⟩

theorem nodup_visits {ords : List Nat} (ho : ords.Nodup) {d : Dict Nat (Kwargs ℝ)} (hd : SingleEntries d) : (visits ords d).Nodup := by
  unfold visits
  rw [List.nodup_flatMap]
  refine ⟨fun a ha => List.Nodup.map (fun x y h => by simpa using h) ?_, ?_⟩
  · have : ((entries d a).map Prod.fst).Nodup := by
      unfold entries
      cases hg : d.get? a with
      | none => simp
      | some e => exact hd.2 a e hg
    exact List.Nodup.of_map _ this
  · refine List.Pairwise.imp ?_ (show (intersect ords d.keys).Pairwise (· ≠ ·) from ho.filter _)
    intro a b hab x hx hx'
    simp only [List.mem_map] at hx hx'
    obtain ⟨u, -, rfl⟩ := hx
    obtain ⟨w, -, hw⟩ := hx'
    exact hab (congrArg Prod.fst hw).symm

/-- the loops over the registered uncertainties of one kind: `mk` names the causes, `call` tells the call for each cause -/
theorem drawLoop_calls {ords : List Nat} (ho : ords.Nodup) {d : Dict Nat (Kwargs ℝ)} (hd : SingleEntries d) {attrOf : String → String}
    {names : List String} (hn : OnlyNames d names) (hinj : ∀ m ∈ names, ∀ n ∈ names, attrOf m = attrOf n → m = n)
    {E : Env ℝ} {f : Nat → String × Attr ℝ → Py (SC ℝ) Unit} {Q : String → Attr ℝ → Attr ℝ → List ℝ → Prop}
    {call : Nat → String → ℝ × ℕ}
    (hf : ∀ i kv, Rel (DrawFrame (fun j a => j = i ∧ a = attrOf kv.1)) (f i kv))
    (hQ : ∀ i kv s s', i ∈ ords → sigma d i kv.1 = some kv.2 → f i kv s = .ok () s' → ∃ o,
      Returns E E.randn (call i kv.1).1 (call i kv.1).2 s.rng o s'.rng ∧
      ∃ err, s'.RING.attr i (attrOf kv.1) = some err ∧ Q kv.1 kv.2 err o)
    {s s' : SC ℝ} (h : forEach (intersect ords d.keys) (fun i => forEach (entries d i) (f i)) s = .ok () s') :
    ∃ o : Nat → String → List ℝ,
      ReturnsAll E E.randn ((visits ords d).map (fun x => call x.1 x.2.1)) s.rng ((visits ords d).map (fun x => o x.1 x.2.1)) s'.rng ∧
      ∀ i ∈ ords, ∀ name sig, sigma d i name = some sig → ∃ err, s'.RING.attr i (attrOf name) = some err ∧ Q name sig err (o i name) := by
  rw [forEach_pairs] at h
  have hmem := mem_visits (ords := ords) hd
  obtain ⟨o, h1, h2⟩ := forEach_calls (E := E) (call := fun x => call x.1 x.2.1)
    (Q := fun x o t => ∃ err, t.RING.attr x.1 (attrOf x.2.1) = some err ∧ Q x.2.1 x.2.2 err o) (nodup_visits ho hd)
    (fun x hx t t' ht => hQ x.1 x.2 t t' ((hmem x).1 hx).1 ((hmem x).1 hx).2 ht) (fun x hx y hy hxy o t t' hP ht => by
      obtain ⟨err, he, hq⟩ := hP
      refine ⟨err, ?_, hq⟩
      have hfr := (hf x.1 x.2).ok ht
      rw [hfr.attr _ _ (fun hw => hxy ?_)]
      · exact he
      · have hx' := ((hmem x).1 hx).2
        have hy' := ((hmem y).1 hy).2
        obtain ⟨xi, xn, xv⟩ := x
        obtain ⟨yi, yn, yv⟩ := y
        simp only at hw hx' hy'
        obtain ⟨rfl, hw⟩ := hw
        have := hinj _ (hn _ _ _ hy') _ (hn _ _ _ hx') hw
        subst this
        rw [hx'] at hy'
        cases hy'
        rfl) h
  refine ⟨fun i name => match sigma d i name with | some v => o (i, (name, v)) | none => [], ?_, fun i hi name sig hs => ?_⟩
  · have : (visits ords d).map (fun x => (match sigma d x.1 x.2.1 with | some v => o (x.1, (x.2.1, v)) | none => [])) =
        (visits ords d).map o := by
      refine List.map_congr_left (fun x hx => ?_)
      rw [((hmem x).1 hx).2]
    rw [this]
    exact h1
  · simp only [hs]
    exact h2 (i, (name, sig)) ((hmem _).2 ⟨hi, hs⟩)

theorem uncertainty_cavity (s : SC ℝ) (i : Nat) (name : String) :
    uncertaintyOf s (.cavity i name) = if i ∈ s.ORD.RF then sigma s.SIG.RF i name else none := rfl
theorem uncertainty_bpm (s : SC ℝ) (i : Nat) (name : String) :
    uncertaintyOf s (.bpm i name) = if i ∈ s.ORD.BPM ∧ name ∉ ["Noise", "NoiseCO"] then sigma s.SIG.BPM i name else none := rfl
theorem uncertainty_magnet (s : SC ℝ) (i : Nat) (name : String) :
    uncertaintyOf s (.magnet i name) = if i ∈ s.ORD.Magnet then sigma s.SIG.Magnet i name else none := rfl

/-- the call made for a cause (none for noise levels) -/
noncomputable def callOf (nsigmas : ℝ) (s : SC ℝ) (x : Cause) : ℝ × ℕ :=
  match uncertaintyOf s x with
  | some sig => callFor nsigmas sig
  | none => (nsigmas, 0)

theorem callOf_cut (nsigmas : ℝ) (s : SC ℝ) (x : Cause) : (callOf nsigmas s x).1 = cutoffOf nsigmas s x := by
  unfold callOf cutoffOf
  cases uncertaintyOf s x with
  | some sig => exact callFor_cut _ _
  | none => rfl

/-- all causes, in the order in which `apply_errors` visits them -/
def causes (s : SC ℝ) : List Cause :=
  (visits s.ORD.RF s.SIG.RF).map (fun x => .cavity x.1 x.2.1) ++ ((visits s.ORD.BPM s.SIG.BPM).map (fun x => .bpm x.1 x.2.1) ++
    ((visits s.ORD.Magnet s.SIG.Magnet).map (fun x => .magnet x.1 x.2.1) ++ [.injection, .circumference]))

theorem mem_causes {s : SC ℝ} (hw : WellRegistered s.SIG) {x : Cause} {sig : Attr ℝ} (h : uncertaintyOf s x = some sig) : x ∈ causes s := by
  unfold causes
  simp only [List.mem_append, List.mem_map]
  cases x with
  | cavity i name =>
    rw [uncertainty_cavity] at h
    split at h
    · rename_i hi
      exact .inl ⟨(i, (name, sig)), (mem_visits hw.rfSingle _).2 ⟨hi, h⟩, rfl⟩
    · cases h
  | bpm i name =>
    rw [uncertainty_bpm] at h
    split at h
    · rename_i hi
      exact .inr (.inl ⟨(i, (name, sig)), (mem_visits hw.bpmSingle _).2 ⟨hi.1, h⟩, rfl⟩)
    · cases h
  | magnet i name =>
    rw [uncertainty_magnet] at h
    split at h
    · rename_i hi
      exact .inr (.inr (.inl ⟨(i, (name, sig)), (mem_visits hw.magnetSingle _).2 ⟨hi, h⟩, rfl⟩))
    · cases h
  | injection => exact .inr (.inr (.inr (by simp)))
  | circumference => exact .inr (.inr (.inr (by simp)))

/-- the calls made before supports are misaligned -/
theorem stages_calls {E : Env ℝ} {n : ℝ} {s s1 s2 s3 s4 s5 s6 s7 s8 s' : SC ℝ} (ht : Tidy s.ORD) (hw : WellRegistered s.SIG)
    (h6 : s.SIG.staticInjectionZ.length = 6)
    (h1 : applyRf E n s = .ok () s1) (h2 : applyBpm E n s1 = .ok () s2) (h3 : applyMagnet E n s2 = .ok () s3)
    (h4 : applyInjection E n s3 = .ok () s4) (h5 : applyCircumference E n s4 = .ok () s5)
    (hs6 : applySupports E n s5 = .ok () s6) (h7 : updateSupports E true true s6 = .ok () s7)
    (h8 : when (!s7.ORD.Magnet.isEmpty) (updateMagnets none) s7 = .ok () s8)
    (h9 : when (!s7.ORD.RF.isEmpty && !s7.SIG.RF.isEmpty) (updateCavities none) s8 = .ok () s') :
    ∃ o : Cause → List ℝ, ReturnsAll E E.randn ((causes s).map (callOf n s)) s.rng ((causes s).map o) s5.rng ∧
      ErrorsMadeFrom s s' (fun x k => (o x).getD k 0) := by
  obtain ⟨q, ⟨-, hq⟩, -, hcirc⟩ := stages_circumference hw h1 h2 h3 h4 h5 hs6 h7 h8 h9
  have f1 := applyRf_frame (E := E) (n := n) hw
  rw [h1] at f1
  have w1 : WellRegistered s1.SIG := f1.sig ▸ hw
  have f2 := applyBpm_frame (E := E) (n := n) w1
  rw [h2] at f2
  have w2 : WellRegistered s2.SIG := f2.sig ▸ w1
  have f3 := applyMagnet_frame (E := E) (n := n) w2
  rw [h3] at f3
  have w3 : WellRegistered s3.SIG := f3.sig ▸ w2
  simp only [Res.state] at f1 f2 f3
  have e1 : s1.SIG = s.SIG := f1.sig
  have e2 : s2.SIG = s.SIG := f2.sig.trans e1
  have e3 : s3.SIG = s.SIG := f3.sig.trans e2
  have o1 : s1.ORD = s.ORD := f1.ord
  have o2 : s2.ORD = s.ORD := f2.ord.trans o1
  have i3 : s3.INJ = s.INJ := f3.inj.trans (f2.inj.trans f1.inj)
  have tail := fun (a : String) ha i => applyErrors_tail w3 h4 h5 hs6 h7 h8 h9 (a := a) ha i
  have f5 := (applyCircumference_frame E n).ok h5
  have f4 := (applyInjection_frame E n).ok h4
  have f6 := applySupports_frame (E := E) (n := n) (s := s5) (by rw [f5.sig, f4.sig]; exact w3)
  rw [hs6] at f6
  simp only [Res.state] at f6
  have f7 := (updateSupports_frame E true true).ok h7
  have f8 := (Rels.when (updateMagnets_modifies none)).ok h8
  have f9 := (Rels.when (updateCavities_frame none)).ok h9
  have z' : s'.INJ.Z0 = s4.INJ.Z0 := by rw [f9.inj, f8.inj, f7.inj, f6.inj, f5.inj]
  have hdis : ∀ a, (a ∈ rfNamesList.map id → a ∉ bpmNamesList.map id ∧ a ∉ magnetNamesList.map magnetAttrOf) ∧
      (a ∈ bpmNamesList.map id → a ∉ magnetNamesList.map magnetAttrOf) := by
    have k1 : ∀ m ∈ rfNamesList.map id, m ∉ bpmNamesList.map id ∧ m ∉ magnetNamesList.map magnetAttrOf := by decide +kernel
    have k2 : ∀ m ∈ bpmNamesList.map id, m ∉ magnetNamesList.map magnetAttrOf := by decide +kernel
    exact fun a => ⟨k1 a, k2 a⟩
  -- the calls of the loops
  obtain ⟨O1, r1, p1⟩ : ∃ o : Nat → String → List ℝ, ReturnsAll E E.randn ((visits s.ORD.RF s.SIG.RF).map
        (fun x => callOf n s (.cavity x.1 x.2.1))) s.rng ((visits s.ORD.RF s.SIG.RF).map (fun x => o x.1 x.2.1)) s1.rng ∧
      ∀ i ∈ s.ORD.RF, ∀ name sig, sigma s.SIG.RF i name = some sig →
        ∃ err, s1.RING.attr i (id name) = some err ∧ MadeFrom sig err (fun k => (o i name).getD k 0) :=
    drawLoop_calls (attrOf := id) (call := fun i name => callOf n s (.cavity i name))
      (Q := fun _ sig err o => MadeFrom sig err (fun k => o.getD k 0))
      (List.Pairwise.imp (fun h => ne_of_lt h) ht.RF) hw.rfSingle hw.rfNames
      (fun _ _ _ _ h => h) (fun i kv => drawInto_rel (E := E) (c := n) ⟨rfl, rfl⟩) (fun i kv t t' hi hs ht => by
        have hu : callOf n s (.cavity i kv.1) = callFor n kv.2 := by simp [callOf, uncertaintyOf, hi, hs]
        rw [hu]
        exact drawInto_call ht) h1
  obtain ⟨O2, r2, p2⟩ : ∃ o : Nat → String → List ℝ, ReturnsAll E E.randn ((visits s.ORD.BPM s.SIG.BPM).map
        (fun x => callOf n s (.bpm x.1 x.2.1))) s1.rng ((visits s.ORD.BPM s.SIG.BPM).map (fun x => o x.1 x.2.1)) s2.rng ∧
      ∀ i ∈ s.ORD.BPM, ∀ name sig, sigma s.SIG.BPM i name = some sig →
        ∃ err, s2.RING.attr i (id name) = some err ∧ (name ∉ ["Noise", "NoiseCO"] → MadeFrom sig err (fun k => (o i name).getD k 0)) := by
    have h2' := h2
    unfold applyBpm at h2'
    rw [bindGet_eq_ok, e1, o1] at h2'
    exact drawLoop_calls (attrOf := id) (call := fun i name => callOf n s (.bpm i name))
      (Q := fun m sig err o => m ∉ ["Noise", "NoiseCO"] → MadeFrom sig err (fun k => o.getD k 0))
      (List.Pairwise.imp (fun h => ne_of_lt h) ht.BPM) hw.bpmSingle hw.bpmNames
      (fun _ _ _ _ h => h) (bpmBody_rel (E := E) (n := n)) (fun i kv t t' hi hs ht => by
        have hnn := noise_names (hw.bpmNames _ _ _ hs)
        by_cases hc : strContains "Noise" kv.1 = true
        · rw [if_pos hc] at ht
          obtain ⟨hlt, rfl⟩ := setAttr_eq_ok.1 ht
          have hu : callOf n s (.bpm i kv.1) = (n, 0) := by
            have : ¬ (i ∈ s.ORD.BPM ∧ kv.1 ∉ ["Noise", "NoiseCO"]) := fun hh => hh.2 (hnn.1 hc)
            unfold callOf
            rw [uncertainty_bpm, if_neg this]
          rw [hu]
          exact ⟨[], returns_none _ _ _ _, kv.2, Ring.attr_setAttr_same hlt, fun hh => absurd (hnn.1 hc) hh⟩
        · rw [if_neg hc] at ht
          have hu : callOf n s (.bpm i kv.1) = callFor n kv.2 := by
            have : i ∈ s.ORD.BPM ∧ kv.1 ∉ ["Noise", "NoiseCO"] := ⟨hi, fun hh => hc (hnn.2 hh)⟩
            unfold callOf
            rw [uncertainty_bpm, if_pos this, hs]
          rw [hu]
          obtain ⟨o, g1, err, g2, g3⟩ := drawInto_call ht
          exact ⟨o, g1, err, g2, fun _ => g3⟩) h2'
  obtain ⟨O3, r3, p3⟩ : ∃ o : Nat → String → List ℝ, ReturnsAll E E.randn ((visits s.ORD.Magnet s.SIG.Magnet).map
        (fun x => callOf n s (.magnet x.1 x.2.1))) s2.rng ((visits s.ORD.Magnet s.SIG.Magnet).map (fun x => o x.1 x.2.1)) s3.rng ∧
      ∀ i ∈ s.ORD.Magnet, ∀ name sig, sigma s.SIG.Magnet i name = some sig →
        ∃ err, s3.RING.attr i (magnetAttrOf name) = some err ∧ MadeFrom sig err (fun k => (o i name).getD k 0) := by
    have h3' := h3
    unfold applyMagnet at h3'
    rw [bindGet_eq_ok, e2, o2] at h3'
    exact drawLoop_calls (attrOf := magnetAttrOf) (call := fun i name => callOf n s (.magnet i name))
      (Q := fun _ sig err o => MadeFrom sig err (fun k => o.getD k 0))
      (List.Pairwise.imp (fun h => ne_of_lt h) ht.Magnet) hw.magnetSingle hw.magnetNames
      (by decide +kernel) (fun i kv => drawInto_rel (E := E) (c := n) ⟨rfl, rfl⟩) (fun i kv t t' hi hs ht => by
        have hu : callOf n s (.magnet i kv.1) = callFor n kv.2 := by simp [callOf, uncertaintyOf, hi, hs]
        rw [hu]
        exact drawInto_call ht) h3'
  -- the injected trajectory
  obtain ⟨O4, r4, p4⟩ : ∃ o : List ℝ, Returns E E.randn n 6 s3.rng o s4.rng ∧
      ∀ k < 6, coef s4.INJ.Z0 k = coef s.INJ.Z0ideal k + coef s.SIG.staticInjectionZ k * o.getD k 0 := by
    unfold applyInjection at h4
    simp only [bind_eq_ok, randnc_eq_ok, lift_eq_ok] at h4
    obtain ⟨z, t1, ⟨pos, g3, rfl⟩, t2, t3, g4, d, t4, ⟨hd, rfl⟩, z0, t5, ⟨hz0, rfl⟩, g⟩ := h4
    cases g4
    cases g
    obtain ⟨-, hlen, -⟩ := randncFrom_eq_ok g3
    unfold bmul at hd
    simp only [e3, i3] at hd hz0
    rw [if_pos (by rw [h6, hlen])] at hd
    cases hd
    unfold vadd at hz0
    split at hz0
    · rename_i hl
      cases hz0
      simp only [List.length_zipWith, h6, hlen] at hl
      refine ⟨z, returns_of g3, fun k hk => ?_⟩
      unfold coef
      simp only [List.getD_eq_getElem?_getD, List.getElem?_zipWith, List.getElem?_eq_getElem (show k < z.length by omega),
        List.getElem?_eq_getElem (show k < s.INJ.Z0ideal.length by omega),
        List.getElem?_eq_getElem (show k < s.SIG.staticInjectionZ.length by omega), Option.getD_some]
    · cases hz0
  let O : Cause → List ℝ := fun x => match x with
    | .cavity i name => O1 i name
    | .bpm i name => O2 i name
    | .magnet i name => O3 i name
    | .injection => O4
    | .circumference => [E.randn q]
  refine ⟨O, ?_, ⟨fun i hi name sig hs => ?_, fun i hi name sig hs hn => ?_, fun i hi name sig hs => ?_, ?_, fun hdr => ?_⟩⟩
  · unfold causes
    simp only [List.map_append, List.map_map]
    have c4 : callOf n s .injection = (n, 6) := by simp [callOf, uncertaintyOf, callFor, h6]
    have c5 : callOf n s .circumference = (n, 1) := by simp [callOf, uncertaintyOf, callFor]
    refine returnsAll_append r1 (returnsAll_append r2 (returnsAll_append r3 ?_))
    simp only [List.map_cons, List.map_nil, c4, c5]
    exact ⟨O4, s4.rng, _, rfl, r4, [E.randn q], s5.rng, _, rfl, returns_of hq, rfl, rfl⟩
  · have hn := hw.rfNames _ _ _ hs
    have k1 : ∀ m ∈ rfNamesList, m ∉ "Length" :: (supportNamesList ++ supportWrites ++ magnetWrites ++ rfProperties) := by decide +kernel
    have hm : name ∈ rfNamesList.map id := by rw [List.map_id]; exact hn
    obtain ⟨k2, k3⟩ := (hdis _).1 hm
    obtain ⟨err, g1, g2⟩ := p1 i hi name sig hs
    refine ⟨err, ?_, g2⟩
    rw [tail _ (k1 _ hn), f3.attr _ _ (fun hd => k3 (drawn_name w2.magnetNames hd)), f2.attr _ _ (fun hd => k2 (drawn_name w1.bpmNames hd))]
    exact g1
  · have hb := hw.bpmNames _ _ _ hs
    have k1 : ∀ m ∈ bpmNamesList, m ∉ "Length" :: (supportNamesList ++ supportWrites ++ magnetWrites ++ rfProperties) := by decide +kernel
    have hm : name ∈ bpmNamesList.map id := by rw [List.map_id]; exact hb
    have k3 := (hdis _).2 hm
    obtain ⟨err, g1, g2⟩ := p2 i hi name sig hs
    refine ⟨err, ?_, g2 hn⟩
    rw [tail _ (k1 _ hb), f3.attr _ _ (fun hd => k3 (drawn_name w2.magnetNames hd))]
    exact g1
  · have hb := hw.magnetNames _ _ _ hs
    have k1 : ∀ m ∈ magnetNamesList, magnetAttrOf m ∉
        "Length" :: (supportNamesList ++ supportWrites ++ magnetWrites ++ rfProperties) := by decide +kernel
    obtain ⟨err, g1, g2⟩ := p3 i hi name sig hs
    refine ⟨err, ?_, g2⟩
    change s'.RING.attr i (magnetAttrOf name) = some err
    rw [tail _ (k1 _ hb)]
    exact g1
  · rw [z']
    exact p4
  · rcases hcirc with ⟨-, hc⟩ | ⟨hc, -⟩
    · exact hc
    · obtain ⟨i, hi, hd⟩ := hdr
      exact absurd hd (hc i hi)

theorem applyErrors_calls {E : Env ℝ} {n : ℝ} {s s' : SC ℝ} (ht : Tidy s.ORD) (hw : WellRegistered s.SIG)
    (h6 : s.SIG.staticInjectionZ.length = 6) (h : applyErrors E n s = .ok () s') :
    ∃ (o : Cause → List ℝ) (mid : ℕ), ReturnsAll E E.randn ((causes s).map (callOf n s)) s.rng ((causes s).map o) mid ∧
      ErrorsMadeFrom s s' (fun x k => (o x).getD k 0) := by
  obtain ⟨s1, s2, s3, s4, s5, s6, s7, s8, h1, h2, h3, h4, h5, hs6, h7, h8, h9⟩ := applyErrors_eq_ok h
  obtain ⟨o, h⟩ := stages_calls ht hw h6 h1 h2 h3 h4 h5 hs6 h7 h8 h9
  exact ⟨o, s5.rng, h⟩

theorem returnsAll_env {E : Env ℝ} {x : ℕ → ℝ} {y : ℕ → ℝ} {fuel : ℕ} {calls : List (ℝ × ℕ)} : ∀ {pos : ℕ} {outs : List (List ℝ)} {p : ℕ},
    ReturnsAll { E with randn := y, fuel := fuel } x calls pos outs p → ReturnsAll E x calls pos outs p := by
  induction calls with
  | nil => exact fun h => h
  | cons c calls ih =>
    rintro pos outs p ⟨o, m, r, rfl, ⟨f, h1⟩, h2⟩
    exact ⟨o, m, r, rfl, ⟨f, h1⟩, ih h2⟩

theorem MadeFrom.congr {sig err : Attr ℝ} {z w : ℕ → ℝ} (h : MadeFrom sig err z) (hzw : ∀ k < numbersFor sig, z k = w k) :
    MadeFrom sig err w := by
  unfold MadeFrom at h ⊢
  split at h
  · rw [← hzw 0 (by simp [numbersFor])]; exact h
  · exact ⟨h.1, fun k hk => by rw [← hzw k (by simpa [numbersFor] using hk)]; exact h.2 k hk⟩
  · rw [← hzw 0 (by simp [numbersFor])]; exact h
  · exact ⟨h.1, fun k hk => by rw [← hzw k (by simpa [numbersFor] using hk)]; exact h.2 k hk⟩
  · exact h.elim

theorem ErrorsMadeFrom.congr {s s' : SC ℝ} {z w : Cause → ℕ → ℝ} (h6 : s.SIG.staticInjectionZ.length = 6) (h : ErrorsMadeFrom s s' z)
    (hzw : ∀ x sig, uncertaintyOf s x = some sig → ∀ k < numbersFor sig, z x k = w x k) : ErrorsMadeFrom s s' w := by
  refine ⟨fun i hi name sig hs => ?_, fun i hi name sig hs hn => ?_, fun i hi name sig hs => ?_, fun k hk => ?_, fun hd => ?_⟩
  · obtain ⟨err, h1, h2⟩ := h.cavities i hi name sig hs
    exact ⟨err, h1, MadeFrom.congr h2 (hzw _ _ (by simp [uncertaintyOf, hi, hs]))⟩
  · obtain ⟨err, h1, h2⟩ := h.bpms i hi name sig hs hn
    refine ⟨err, h1, MadeFrom.congr h2 (hzw _ _ ?_)⟩
    rw [uncertainty_bpm, if_pos ⟨hi, hn⟩]
    exact hs
  · obtain ⟨err, h1, h2⟩ := h.magnets i hi name sig hs
    exact ⟨err, h1, MadeFrom.congr h2 (hzw _ _ (by simp [uncertaintyOf, hi, hs]))⟩
  · rw [h.injection k hk, hzw .injection _ rfl k (by simpa [numbersFor, h6] using hk)]
  · rw [h.circumference hd, hzw .circumference _ rfl 0 (by simp [numbersFor])]

section law
open MeasureTheory ProbabilityTheory
variable {Ω : Type} [MeasurableSpace Ω] {P : Measure Ω} [IsProbabilityMeasure P]

theorem applyErrors_law (E : Env ℝ) {X : ℕ → Ω → ℝ} (hX : StandardNormal P X) (n : ℝ) (s : SC ℝ) (ht : Tidy s.ORD)
    (hw : WellRegistered s.SIG) (h6 : s.SIG.staticInjectionZ.length = 6) (hn : n ≠ 0)
    (hc : ∀ x sig, uncertaintyOf s x = some sig → cutoffFor n sig ≠ 0) :
    ∃ Z : Cause → ℕ → Ω → ℝ,
      IndependentWithLaws P (fun c : Component s => Z c.1.1 c.1.2) (fun c => truncatedNormal (cutoffOf n s c.1.1)) ∧
      ∀ ω fuel s', applyErrors { E with randn := fun k => X k ω, fuel := fuel } n s = .ok () s' →
        ErrorsMadeFrom s s' (fun x k => Z x k ω) := by
  have hcut : ∀ x, cutoffOf n s x ≠ 0 := by
    intro x
    unfold cutoffOf
    split
    · rename_i sig hs; exact hc x sig hs
    · exact hn
  have hnum : ∀ x sig, uncertaintyOf s x = some sig → numbersFor sig ≤ (callOf n s x).2 := by
    intro x sig hs
    unfold callOf
    rw [hs]
    exact callFor_numbers n sig
  obtain ⟨Z, h1, h2⟩ := labelled_law (P := P) (causes s) (callOf n s) (μ := gaussianReal 0 1)
    (fun x _ => by rw [callOf_cut]; exact gaussian_within_pos (hcut x)) E hX s.rng
  refine ⟨Z, ?_, fun ω fuel s' h => ?_⟩
  · have := h1 (fun c : Component s => c.1) Subtype.val_injective (fun c => by
      obtain ⟨sig, hs, hk⟩ := c.2
      exact ⟨mem_causes hw hs, lt_of_lt_of_le hk (hnum _ _ hs)⟩)
    simp only [callOf_cut] at this
    exact this
  · obtain ⟨o, mid, hr, hm⟩ := applyErrors_calls ht hw h6 h
    refine ErrorsMadeFrom.congr h6 hm (fun x sig hs k hk => ?_)
    exact h2 ω o mid (returnsAll_env hr) x (mem_causes hw hs) k (lt_of_lt_of_le hk (hnum _ _ hs))

end law
end PySC
