import Verif.Lemmas.CommuteSwap
import Verif.Spec.Pieces
/-
Methods which change one element at a time, and loops of them over elements in any order (C101).
-/
namespace PySC
set_option linter.unusedSectionVars false
variable {K : Type} [Field K] [LinearOrder K]
open Py Spec

theorem py_assoc {σ α β γ : Type _} (m : Py σ α) (f : α → Py σ β) (g : β → Py σ γ) : ((m >>= f) >>= g) = (m >>= fun a => f a >>= g) := by
  funext s
  show Py.bind (Py.bind m f) g s = Py.bind m (fun a => Py.bind (f a) g) s
  unfold Py.bind
  cases m s <;> rfl

/-- `m` replaces element `i` by one related to it, or fails if there is none -/
def ActsOn (i : Nat) (m : Py (SC K) Unit) (R : Elem K → Elem K → Prop) : Prop :=
  ∀ s s', m s = .ok () s' ↔ ∃ e e', s.RING[i]? = some e ∧ R e e' ∧ s' = { s with RING := s.RING.set i e' }

/-- relations in turn -/
def Seq (R S : Elem K → Elem K → Prop) (e e' : Elem K) : Prop := ∃ d, R e d ∧ S d e'

theorem list_set_self {α : Type _} {l : List α} {i : Nat} {x : α} (h : l[i]? = some x) : l.set i x = l := by
  apply List.ext_getElem?
  intro j
  rw [List.getElem?_set]
  split
  · rename_i hj
    subst hj
    obtain ⟨hl, -⟩ := List.getElem?_eq_some_iff.1 h
    rw [if_pos hl, h]
  · rfl

theorem list_getElem?_set_self {α : Type _} {l : List α} {i : Nat} {x y : α} (h : l[i]? = some x) : (l.set i y)[i]? = some y := by
  obtain ⟨hl, -⟩ := List.getElem?_eq_some_iff.1 h
  rw [List.getElem?_set_self hl]

namespace ActsOn
variable {i : Nat} {m n : Py (SC K) Unit} {R S : Elem K → Elem K → Prop}

theorem congr (hm : ActsOn i m R) (h : ∀ e e', R e e' ↔ S e e') : ActsOn i m S := by
  intro s s'
  rw [hm s s']
  simp only [h]

theorem bind (hm : ActsOn i m R) (hn : ActsOn i n S) : ActsOn i (m >>= fun _ => n) (Seq R S) := by
  intro s s'
  rw [bind_eq_ok]
  constructor
  · rintro ⟨⟨⟩, s1, h1, h2⟩
    obtain ⟨e, e1, he, hr, rfl⟩ := (hm s s1).1 h1
    obtain ⟨e1', e2, he1, hs, rfl⟩ := (hn _ s').1 h2
    have h3 : some e1 = some e1' := (list_getElem?_set_self he).symm.trans he1
    cases h3
    refine ⟨e, e2, he, ⟨e1, hr, hs⟩, ?_⟩
    simp only [List.set_set]
  · rintro ⟨e, e2, he, ⟨e1, hr, hs⟩, rfl⟩
    refine ⟨(), _, (hm s _).2 ⟨e, e1, he, hr, rfl⟩, (hn _ _).2 ⟨e1, e2, list_getElem?_set_self he, hs, ?_⟩⟩
    simp only [List.set_set]

theorem setAttr (a : String) (v : Attr K) : ActsOn i (PySC.setAttr i a v) (fun e e' => e' = e.set a v) := by
  intro s s'
  rw [setAttr_eq_ok]
  constructor
  · rintro ⟨h, rfl⟩
    refine ⟨s.RING[i], _, List.getElem?_eq_getElem h, rfl, ?_⟩
    unfold Ring.setAttr
    rw [List.modify_eq_set_getElem?, List.getElem?_eq_getElem h]; rfl
  · rintro ⟨e, e', he, rfl, rfl⟩
    obtain ⟨h, h'⟩ := List.getElem?_eq_some_iff.1 he
    refine ⟨h, ?_⟩
    unfold Ring.setAttr
    rw [List.modify_eq_set_getElem?, he]; rfl

theorem rd {α : Type} {f : Ring K → Except Err α} {g : Elem K → α → Prop} {k : α → Py (SC K) Unit} {R : α → Elem K → Elem K → Prop}
    (hf : ∀ r x, f r = .ok x ↔ ∃ e, r[i]? = some e ∧ g e x) (hk : ∀ x, ActsOn i (k x) (R x)) :
    ActsOn i (PySC.rd f >>= k) (fun e e' => ∃ x, g e x ∧ R x e e') := by
  intro s s'
  rw [bindRd_eq_ok]
  constructor
  · rintro ⟨x, hx, h⟩
    obtain ⟨e, he, hg⟩ := (hf _ x).1 hx
    obtain ⟨e1, e', he1, hr, rfl⟩ := (hk x s s').1 h
    cases he.symm.trans he1
    exact ⟨e, e', he, ⟨x, hg, hr⟩, rfl⟩
  · rintro ⟨e, e', he, ⟨x, hg, hr⟩, rfl⟩
    exact ⟨x, (hf _ x).2 ⟨e, he, hg⟩, (hk x s _).2 ⟨e, e', he, hr, rfl⟩⟩

theorem lift {α : Type} {y : Except Err α} {k : α → Py (SC K) Unit} {R : α → Elem K → Elem K → Prop} (hk : ∀ x, ActsOn i (k x) (R x)) :
    ActsOn i (Py.lift y >>= k) (fun e e' => ∃ x, y = .ok x ∧ R x e e') := by
  intro s s'
  rw [bindLift_eq_ok]
  constructor
  · rintro ⟨x, hx, h⟩
    obtain ⟨e, e', he, hr, rfl⟩ := (hk x s s').1 h
    exact ⟨e, e', he, ⟨x, hx, hr⟩, rfl⟩
  · rintro ⟨e, e', he, ⟨x, hx, hr⟩, rfl⟩
    exact ⟨x, hx, (hk x s _).2 ⟨e, e', he, hr, rfl⟩⟩

end ActsOn

/-- after `R`, which reads the attributes in `D` and writes those in `W`, doing it again changes nothing -/
def Settling (D W : List String) (R : Elem K → Elem K → Prop) : Prop :=
  ∀ e e', R e e' → (∀ b ∉ W, e' b = e b) ∧ ∀ d : Elem K, (∀ b ∈ D ++ W, d b = e' b) → R d d

theorem Settling.seq {D₁ W₁ D₂ W₂ : List String} {R S : Elem K → Elem K → Prop} (hR : Settling D₁ W₁ R) (hS : Settling D₂ W₂ S)
    (h : ∀ b ∈ W₂, b ∉ D₁ ++ W₁) : Settling (D₁ ++ D₂) (W₁ ++ W₂) (Seq R S) := by
  rintro e e' ⟨e1, h1, h2⟩
  obtain ⟨a1, a2⟩ := hR e e1 h1
  obtain ⟨b1, b2⟩ := hS e1 e' h2
  refine ⟨fun b hb => ?_, fun d hd => ⟨d, a2 d (fun b hb => ?_), b2 d (fun b hb => hd b ?_)⟩⟩
  · simp only [List.mem_append, not_or] at hb
    rw [b1 b hb.2, a1 b hb.1]
  · rw [hd b (by simp only [List.mem_append] at hb ⊢; tauto), b1 b (fun hw => h b hw hb)]
  · simp only [List.mem_append] at hb ⊢; tauto

theorem Elem.set_self {e : Elem K} {a : String} {v : Attr K} (h : e a = some v) : e = e.set a v := by
  funext b
  unfold Elem.set
  split
  · rename_i hb; rw [hb, h]
  · rfl

theorem settling_set (a : String) (v : Attr K) : Settling [] [a] (fun e e' : Elem K => e' = e.set a v) := by
  rintro e e' rfl
  refine ⟨fun b hb => ?_, fun d hd => Elem.set_self (by rw [hd a (by simp)]; simp [Elem.set])⟩
  simp only [List.mem_singleton] at hb
  simp [Elem.set, hb]

/-! ### one loop -/

/-- one of the dictionaries of uncertainties -/
structure SigLens (K : Type) where
  get : Sigs K → Dict Nat (Kwargs K)
  put : Sigs K → Dict Nat (Kwargs K) → Sigs K
  get_put : ∀ g d, get (put g d) = d
  put_put : ∀ g d d', put (put g d) d' = put g d'
  put_get : ∀ g, put g (get g) = g

/-- the loop of a registration has been done for the elements in `l` -/
def LoopDone (L : SigLens K) (R : Nat → Elem K → Elem K → Prop) (F : Option (Kwargs K) → Kwargs K) (l : List Nat) (s s' : SC K) : Prop :=
  ∃ (r : Ring K) (d : Dict Nat (Kwargs K)), s' = { s with RING := r, SIG := L.put s.SIG d } ∧ r.length = s.RING.length ∧
    (∀ j, j ∉ l → r[j]? = s.RING[j]?) ∧
    (∀ j ∈ l, ∃ e e', s.RING[j]? = some e ∧ R j e e' ∧ r[j]? = some e') ∧
    ∀ j, d.get? j = if j ∈ l then some (F ((L.get s.SIG).get? j)) else (L.get s.SIG).get? j

/-- the loop can be done -/
def LoopFits (R : Nat → Elem K → Elem K → Prop) (l : List Nat) (s : SC K) : Prop :=
  ∀ j ∈ l, ∃ e e', s.RING[j]? = some e ∧ R j e e'

theorem Dict.set_get {κ v : Type _} [DecidableEq κ] {d : Dict κ v} {k : κ} {x : v} (h : d.get? k = some x) : d.set k x = d := by
  induction d with
  | nil => simp [Dict.get?] at h
  | cons p r ih =>
    obtain ⟨k', y⟩ := p
    simp only [Dict.get?, Dict.set] at h ⊢
    split
    · rename_i hk; rw [if_pos hk] at h; cases h; rfl
    · rename_i hk; rw [if_neg hk] at h; rw [ih h]

theorem Dict.update_of_get {κ v : Type _} [DecidableEq κ] {d e : Dict κ v} (h : ∀ p ∈ e, d.get? p.1 = some p.2) : d.update e = d := by
  induction e with
  | nil => rfl
  | cons p r ih => rw [Dict.update_cons, Dict.set_get (h p (by simp)), ih (fun q hq => h q (by simp [hq]))]

theorem Dict.update_update {κ v : Type _} [DecidableEq κ] (d : Dict κ v) {e : Dict κ v} (he : e.keys.Nodup) :
    (d.update e).update e = d.update e := by
  refine Dict.update_of_get (fun p hp => ?_)
  rw [Dict.get?_update he, Dict.get?_of_mem he hp]; rfl

section loop
variable {L : SigLens K} {R : Nat → Elem K → Elem K → Prop} {F : Option (Kwargs K) → Kwargs K} {f : Nat → Py (SC K) Unit} {s s' t : SC K}
  {l l' : List Nat}

theorem LoopDone.trans (hk : ∀ o, F (some (F o)) = F o) (hfun : ∀ i e a b, R i e a → R i e b → a = b) (hset : ∀ i e e', R i e e' → R i e' e')
    {c : List Nat} (hc : ∀ i, i ∈ c ↔ i ∈ l ∨ i ∈ l') (h : LoopDone L R F l s s') (h' : LoopDone L R F l' s' t) :
    LoopDone L R F c s t := by
  obtain ⟨r, d, rfl, hl, hoff, hon, hd⟩ := h
  obtain ⟨r', d', rfl, hl', hoff', hon', hd'⟩ := h'
  refine ⟨r', d', by simp only [L.put_put], hl'.trans hl, fun j hj => ?_, fun j hj => ?_, fun j => ?_⟩
  · rw [hc, not_or] at hj
    rw [hoff' j hj.2, hoff j hj.1]
  · by_cases h2 : j ∈ l'
    · obtain ⟨e1, e2, he1, hr, he2⟩ := hon' j h2
      dsimp only at he1
      by_cases h1 : j ∈ l
      · obtain ⟨e, e', he, hr1, he'⟩ := hon j h1
        cases he'.symm.trans he1
        have := hfun _ _ _ _ hr (hset _ _ _ hr1)
        subst this
        exact ⟨e, e2, he, hr1, he2⟩
      · rw [hoff j h1] at he1
        exact ⟨e1, e2, he1, hr, he2⟩
    · have h1 := ((hc j).1 hj).resolve_right h2
      obtain ⟨e, e', he, hr1, he'⟩ := hon j h1
      exact ⟨e, e', he, hr1, (hoff' j h2).trans he'⟩
  · rw [hd' j]
    simp only [L.get_put, hd j]
    by_cases h1 : j ∈ l <;> by_cases h2 : j ∈ l' <;> simp [hc, h1, h2, hk]

theorem LoopDone.fits (hfun : ∀ i e a b, R i e a → R i e b → a = b) (hset : ∀ i e e', R i e e' → R i e' e') (h : LoopDone L R F l s s') :
    LoopFits R l' s' ↔ LoopFits R l' s := by
  obtain ⟨r, d, rfl, hl, hoff, hon, hd⟩ := h
  refine forall_congr' (fun j => forall_congr' (fun hj => ?_))
  by_cases h1 : j ∈ l
  · obtain ⟨e, e', he, hr, he'⟩ := hon j h1
    exact ⟨fun _ => ⟨e, e', he, hr⟩, fun _ => ⟨e', e', he', hset _ _ _ hr⟩⟩
  · simp only [hoff j h1]

/-- the body of the loop of a registration -/
def LoopBody (L : SigLens K) (R : Nat → Elem K → Elem K → Prop) (F : Option (Kwargs K) → Kwargs K) (f : Nat → Py (SC K) Unit) : Prop :=
  ∀ i s s', f i s = .ok () s' ↔ ∃ e e', s.RING[i]? = some e ∧ R i e e' ∧
    s' = { s with RING := s.RING.set i e', SIG := L.put s.SIG ((L.get s.SIG).set i (F ((L.get s.SIG).get? i))) }

theorem loopBody_sigFirst (h : ∀ i, ∃ m, ActsOn i m (R i) ∧
    f i = (modSig (fun g => L.put g ((L.get g).set i (F ((L.get g).get? i)))) >>= fun _ => m)) : LoopBody L R F f := by
  intro i s s'
  obtain ⟨m, hm, hfi⟩ := h i
  rw [hfi]
  unfold modSig
  rw [bind_apply, modify_apply]
  dsimp only
  rw [hm]

theorem loopBody_sigLast (h : ∀ i, ∃ m, ActsOn i m (R i) ∧
    f i = (m >>= fun _ => modSig (fun g => L.put g ((L.get g).set i (F ((L.get g).get? i)))))) : LoopBody L R F f := by
  intro i s s'
  obtain ⟨m, hm, hfi⟩ := h i
  rw [hfi, bind_eq_ok]
  constructor
  · rintro ⟨⟨⟩, s1, h1, h2⟩
    obtain ⟨e, e', he, hr, rfl⟩ := (hm _ _).1 h1
    cases h2
    exact ⟨e, e', he, hr, rfl⟩
  · rintro ⟨e, e', he, hr, rfl⟩
    exact ⟨(), _, (hm _ _).2 ⟨e, e', he, hr, rfl⟩, rfl⟩

theorem LoopBody.done (hf : LoopBody L R F f) (i : Nat) : f i s = .ok () s' → LoopDone L R F [i] s s' := by
  intro h
  obtain ⟨e, e', he, hr, rfl⟩ := (hf i _ _).1 h
  refine ⟨_, _, rfl, by simp, fun j hj => ?_, fun j hj => ?_, fun j => ?_⟩
  · simp only [List.mem_singleton] at hj
    rw [List.getElem?_set_ne (Ne.symm hj)]
  · simp only [List.mem_singleton] at hj
    subst hj
    exact ⟨e, e', he, hr, list_getElem?_set_self he⟩
  · rw [Dict.get?_set]
    simp only [List.mem_singleton]
    split
    · rename_i hj; subst hj; rfl
    · rfl

theorem LoopBody.total (hf : LoopBody L R F f) (i : Nat) (h : LoopFits R [i] s) : ∃ s', f i s = .ok () s' := by
  obtain ⟨e, e', he, hr⟩ := h i (by simp)
  exact ⟨_, (hf i _ _).2 ⟨e, e', he, hr, rfl⟩⟩

theorem LoopBody.loop (hk : ∀ o, F (some (F o)) = F o) (hfun : ∀ i e a b, R i e a → R i e b → a = b) (hset : ∀ i e e', R i e e' → R i e' e')
    (hf : LoopBody L R F f) : forEach l f s = .ok () s' → LoopDone L R F l s s' := by
  induction l generalizing s with
  | nil =>
    intro h
    have h' : s' = s := by cases h; rfl
    subst h'
    exact ⟨s'.RING, L.get s'.SIG, (by rw [L.put_get]), rfl, fun _ _ => rfl, (fun _ h => by simp at h), (fun _ => by simp)⟩
  | cons i l ih =>
    rw [forEach_cons, bind_eq_ok]
    rintro ⟨⟨⟩, s1, h1, h2⟩
    exact LoopDone.trans hk hfun hset (fun j => by simp) (hf.done i h1) (ih h2)

theorem LoopBody.loop_total (hk : ∀ o, F (some (F o)) = F o) (hfun : ∀ i e a b, R i e a → R i e b → a = b)
    (hset : ∀ i e e', R i e e' → R i e' e') (hf : LoopBody L R F f) (h : LoopFits R l s) : ∃ s', forEach l f s = .ok () s' := by
  induction l generalizing s with
  | nil => exact ⟨s, rfl⟩
  | cons i l ih =>
    obtain ⟨s1, h1⟩ := hf.total i (s := s) (fun j hj => h j (by simp_all))
    obtain ⟨s2, h2⟩ := ih (((hf.done i h1).fits hfun hset).2 (fun j hj => h j (by simp [hj])))
    exact ⟨s2, by rw [forEach_cons]; exact bind_eq_ok.2 ⟨(), s1, h1, h2⟩⟩

theorem LoopDone.toFits (h : LoopDone L R F l s s') : LoopFits R l s := by
  obtain ⟨r, d, -, -, -, hon, -⟩ := h
  exact fun j hj => let ⟨e, e', he, hr, _⟩ := hon j hj; ⟨e, e', he, hr⟩

end loop

/-! ### BPMs -/

/-- attributes set one after another -/
def setAll (l : List (String × Attr K)) (e : Elem K) : Elem K := l.foldl (fun e p => e.set p.1 p.2) e

theorem bind_forEach_nil {σ α : Type _} (m : Py σ Unit) (f : α → Py σ Unit) : (m >>= fun _ => forEach [] f) = m := by
  funext s
  show Py.bind m _ s = m s
  unfold Py.bind
  cases m s <;> rfl

theorem acts_setAll (i : Nat) (l : List (String × Attr K)) (hl : l ≠ []) :
    ActsOn i (forEach l (fun p => setAttr i p.1 p.2)) (fun e e' => e' = setAll l e) := by
  induction l with
  | nil => exact absurd rfl hl
  | cons p l ih =>
    cases l with
    | nil =>
      rw [forEach_cons, bind_forEach_nil]
      exact ActsOn.setAttr (i := i) p.1 p.2
    | cons q l =>
      rw [forEach_cons]
      refine ((ActsOn.setAttr p.1 p.2).bind (ih (by simp))).congr (fun e e' => ?_)
      simp [Seq, setAll]

theorem setAll_other {l : List (String × Attr K)} {e : Elem K} {b : String} (h : b ∉ l.map Prod.fst) : setAll l e b = e b := by
  induction l generalizing e with
  | nil => rfl
  | cons p l ih =>
    simp only [List.map_cons, List.mem_cons, not_or] at h
    show setAll l (e.set p.1 p.2) b = e b
    rw [ih h.2]
    simp [Elem.set, h.1]

theorem setAll_mem {l : List (String × Attr K)} (hl : (l.map Prod.fst).Nodup) {e : Elem K} {p : String × Attr K} (hp : p ∈ l) :
    setAll l e p.1 = some p.2 := by
  induction l generalizing e with
  | nil => simp at hp
  | cons q l ih =>
    simp only [List.map_cons, List.nodup_cons] at hl
    show setAll l (e.set q.1 q.2) p.1 = some p.2
    rcases List.mem_cons.1 hp with rfl | hp
    · rw [setAll_other hl.1]; simp [Elem.set]
    · exact ih hl.2 hp

theorem setAll_self {l : List (String × Attr K)} {e : Elem K} (h : ∀ p ∈ l, e p.1 = some p.2) : setAll l e = e := by
  induction l with
  | nil => rfl
  | cons p l ih =>
    show setAll l (e.set p.1 p.2) = e
    rw [← Elem.set_self (h p (by simp))]
    exact ih (fun q hq => h q (by simp [hq]))

theorem settling_setAll {l : List (String × Attr K)} (hl : (l.map Prod.fst).Nodup) :
    Settling [] (l.map Prod.fst) (fun e e' : Elem K => e' = setAll l e) := by
  rintro e e' rfl
  refine ⟨fun b hb => setAll_other hb, fun d hd => (setAll_self (fun p hp => ?_)).symm⟩
  rw [hd p.1 (by simp only [List.nil_append]; exact List.mem_map_of_mem hp), setAll_mem hl hp]

theorem Settling.again {D W : List String} {R : Elem K → Elem K → Prop} (h : Settling D W R) {e e' : Elem K} (hr : R e e') : R e' e' :=
  (h e e' hr).2 e' (fun _ _ => rfl)

def bpmLens : SigLens K := ⟨fun g => g.BPM, fun g d => { g with BPM := d }, fun _ _ => rfl, fun _ _ _ => rfl, fun _ => rfl⟩
def rfLens : SigLens K := ⟨fun g => g.RF, fun g d => { g with RF := d }, fun _ _ => rfl, fun _ _ _ => rfl, fun _ => rfl⟩
def magnetLens : SigLens K :=
  ⟨fun g => g.Magnet, fun g d => { g with Magnet := d }, fun _ _ => rfl, fun _ _ _ => rfl, fun _ => rfl⟩

theorem bpm_body (kw : Kwargs K) : LoopBody bpmLens (fun _ e e' => e' = setAll bpmInit e) (fun o => (o.getD []).update kw) (registerBpm1 kw) :=
  loopBody_sigFirst fun i => ⟨_, acts_setAll i bpmInit (by simp [bpmInit]), rfl⟩

theorem bpm_again (e e' : Elem K) (h : e' = setAll bpmInit e) : e' = setAll bpmInit e' :=
  (settling_setAll (l := bpmInit) (by simp [bpmInit])).again h

/-! ### cavities -/

theorem getA_local {r : Ring K} {i : Nat} {a : String} {v : Attr K} : r.getA i a = .ok v ↔ ∃ e, r[i]? = some e ∧ e a = some v := by
  unfold Ring.getA Ring.getE
  cases h : r[i]? with
  | none => simp [bind, Except.bind]
  | some e => cases h2 : e a <;> simp [bind, Except.bind, h2]

/-- what is written for one property of a cavity -/
def rfEntries (field : String) (v : Attr K) : List (String × Attr K) :=
  [(field ++ "SetPoint", v), (field ++ "Offset", .num 0), (field ++ "CalError", .num 0)]

def RfField (field : String) (e e' : Elem K) : Prop := ∃ v, e field = some v ∧ e' = setAll (rfEntries field v) e

theorem rfField_acts (i : Nat) (field : String) : ActsOn i (registerRfField (K := K) i field) (RfField field) := by
  unfold registerRfField
  refine ActsOn.rd (fun r x => getA_local) (fun v => ?_)
  have := acts_setAll i (rfEntries field v) (by simp [rfEntries])
  refine (((ActsOn.setAttr _ v).bind ((ActsOn.setAttr _ _).bind (ActsOn.setAttr _ _)))).congr (fun e e' => ?_)
  simp [Seq, setAll, rfEntries]

theorem rfField_settling (field : String) (h : ∀ a ∈ ["SetPoint", "Offset", "CalError"], field ++ a ≠ field)
    (hn : ((rfEntries (K := K) field (.num 0)).map Prod.fst).Nodup) :
    Settling [field] ((rfEntries (K := K) field (.num 0)).map Prod.fst) (RfField (K := K) field) := by
  rintro e e' ⟨v, hv, rfl⟩
  have hs := settling_setAll (K := K) (l := rfEntries field v) hn e _ rfl
  refine ⟨hs.1, fun d hd => ⟨v, ?_, hs.2 d (fun b hb => hd b (List.mem_append_right _ ?_))⟩⟩
  · rw [hd field (by simp), setAll_other (by simp only [rfEntries, List.map_cons, List.map_nil, List.mem_cons, List.not_mem_nil, or_false, not_or]; exact ⟨Ne.symm (h _ (by simp)), Ne.symm (h _ (by simp)), Ne.symm (h _ (by simp))⟩), hv]
  · exact hb

def RfBody : Elem K → Elem K → Prop := Seq (RfField "Voltage") (Seq (RfField "Frequency") (RfField "TimeLag"))

theorem rf_body (kw : Kwargs K) : LoopBody rfLens (fun _ => RfBody) (fun o => (o.getD []).update kw) (registerCavity1 kw) := by
  refine loopBody_sigFirst fun i => ⟨_, ?_, rfl⟩
  simp only [rfProperties, forEach_cons, bind_forEach_nil]
  exact (rfField_acts (K := K) i "Voltage").bind ((rfField_acts i "Frequency").bind (rfField_acts i "TimeLag"))

theorem rf_again (e e' : Elem K) (h : RfBody e e') : RfBody e' e' := by
  have h1 := rfField_settling (K := K) "Voltage" (by decide) (by simp [rfEntries])
  have h2 := rfField_settling (K := K) "Frequency" (by decide) (by simp [rfEntries])
  have h3 := rfField_settling (K := K) "TimeLag" (by decide) (by simp [rfEntries])
  exact (h1.seq (h2.seq h3 (by simp [rfEntries])) (by simp [rfEntries])).again h

/-! ### magnets -/

theorem getVec_local {r : Ring K} {i : Nat} {a : String} {v : List K} : r.getVec i a = .ok v ↔ ∃ e, r[i]? = some e ∧ e a = some (.vec v) := by
  unfold Ring.getVec
  rw [Except.bind_eq_ok']
  constructor
  · rintro ⟨x, hx, hv⟩
    obtain ⟨e, he, ha⟩ := getA_local.1 hx
    cases x <;> simp [Attr.toVec] at hv
    exact ⟨e, he, hv ▸ ha⟩
  · rintro ⟨e, he, ha⟩
    exact ⟨_, getA_local.2 ⟨e, he, ha⟩, rfl⟩

def zeroEntries (ab : String) (n : Nat) : List (String × Attr K) :=
  [("NomPolynom" ++ ab, .vec (zeros n)), ("SetPoint" ++ ab, .vec (zeros n)), ("CalError" ++ ab, .vec (zeros n))]

theorem registerZeros_acts (i : Nat) (ab : String) : ActsOn i (registerZeros (K := K) i ab)
    (fun e e' => ∃ p, e ("Polynom" ++ ab) = some (.vec p) ∧ e' = setAll (zeroEntries ab p.length) e) := by
  unfold registerZeros
  refine ActsOn.rd (fun r x => getVec_local) (fun p => ?_)
  have := acts_setAll i (zeroEntries (K := K) ab p.length) (by simp [zeroEntries])
  simp only [zeroEntries, forEach_cons, bind_forEach_nil] at this
  simp only [forEach_cons, bind_forEach_nil]
  exact this

theorem addPolynom_acts (i : Nat) (field ab : String) : ActsOn i (addPolynom (K := K) i field ab)
    (fun e e' => ∃ z, e (field ++ ab) = some (.vec z) ∧ ∃ p, e ("Polynom" ++ ab) = some (.vec p) ∧
      e' = e.set (field ++ ab) (.vec (List.zipWith (· + ·) z p))) := by
  unfold addPolynom
  refine ActsOn.rd (fun r x => getVec_local) (fun z => ?_)
  exact ActsOn.rd (fun r x => getVec_local) (fun p => ActsOn.setAttr _ _)

theorem zipWith_zeros (p : List K) : List.zipWith (· + ·) (zeros p.length) p = p := by
  unfold zeros
  induction p with
  | nil => rfl
  | cons x p ih => rw [List.length_cons, List.replicate_succ, List.zipWith_cons_cons, zero_add, ih]

/-- what is written first for a magnet -/
def polyEntries (pa pb : List K) : List (String × Attr K) :=
  [("NomPolynomA", .vec pa), ("SetPointA", .vec pa), ("CalErrorA", .vec (zeros pa.length)),
   ("NomPolynomB", .vec pb), ("SetPointB", .vec pb), ("CalErrorB", .vec (zeros pb.length))]

def PolyBlock (e e' : Elem K) : Prop :=
  ∃ pa pb, e "PolynomA" = some (.vec pa) ∧ e "PolynomB" = some (.vec pb) ∧ e' = setAll (polyEntries pa pb) e

theorem polyBlock_acts (i : Nat) : ActsOn (K := K) i (forEach ["A", "B"] (registerZeros i) >>= fun _ => addPolynom i "NomPolynom" "B" >>= fun _ =>
    addPolynom i "NomPolynom" "A" >>= fun _ => addPolynom i "SetPoint" "B" >>= fun _ => addPolynom i "SetPoint" "A") PolyBlock := by
  simp only [forEach_cons, bind_forEach_nil]
  refine ((((registerZeros_acts i "A").bind (registerZeros_acts i "B"))).bind ((addPolynom_acts i "NomPolynom" "B").bind
    ((addPolynom_acts i "NomPolynom" "A").bind ((addPolynom_acts i "SetPoint" "B").bind (addPolynom_acts i "SetPoint" "A"))))).congr
    (fun e e' => ?_)
  constructor
  · rintro ⟨_, ⟨_, ⟨pa, ha, rfl⟩, ⟨pb, hb, rfl⟩⟩, _, ⟨z1, h1, p1, k1, rfl⟩, _, ⟨z2, h2, p2, k2, rfl⟩, _, ⟨z3, h3, p3, k3, rfl⟩, z4, h4, p4, k4, rfl⟩
    simp [setAll, zeroEntries, Elem.set] at hb h1 k1 h2 k2 h3 k3 h4 k4 ha
    rw [hb] at k1 k3
    rw [ha] at k2 k4
    cases k1; cases k2; cases k3; cases k4
    subst h1 h2 h3 h4
    refine ⟨_, _, ha, hb, ?_⟩
    simp only [zipWith_zeros]
    funext b
    simp [setAll, zeroEntries, polyEntries, Elem.set]
    split_ifs <;> simp_all
  · rintro ⟨pa, pb, ha, hb, rfl⟩
    refine ⟨_, ⟨_, ⟨pa, ha, rfl⟩, ⟨pb, ?_, rfl⟩⟩, _, ⟨zeros pb.length, ?_, pb, ?_, rfl⟩, _, ⟨zeros pa.length, ?_, pa, ?_, rfl⟩, _,
      ⟨zeros pb.length, ?_, pb, ?_, rfl⟩, zeros pa.length, ?_, pa, ?_, ?_⟩
    · simp [setAll, zeroEntries, Elem.set, hb]
    · simp [setAll, zeroEntries, Elem.set]
    · simp [setAll, zeroEntries, Elem.set, hb]
    · simp [setAll, zeroEntries, Elem.set]
    · simp [setAll, zeroEntries, Elem.set, ha]
    · simp [setAll, zeroEntries, Elem.set]
    · simp [setAll, zeroEntries, Elem.set, hb]
    · simp [setAll, zeroEntries, Elem.set]
    · simp [setAll, zeroEntries, Elem.set, ha]
    · simp only [zipWith_zeros]
      funext b
      simp [setAll, zeroEntries, polyEntries, Elem.set]
      split_ifs <;> simp_all

theorem polyBlock_settling : Settling ["PolynomA", "PolynomB"] ((polyEntries (K := K) [] []).map Prod.fst) (PolyBlock (K := K)) := by
  rintro e e' ⟨pa, pb, ha, hb, rfl⟩
  have hs := settling_setAll (K := K) (l := polyEntries pa pb) (by simp [polyEntries]) e _ rfl
  refine ⟨hs.1, fun d hd => ⟨pa, pb, ?_, ?_, hs.2 d (fun b hb => hd b (List.mem_append_right _ hb))⟩⟩
  · rw [hd "PolynomA" (by simp), setAll_other (by simp [polyEntries]), ha]
  · rw [hd "PolynomB" (by simp), setAll_other (by simp [polyEntries]), hb]

/-- as `ActsOn`, provided that element `i` exists -/
def ActsIf (i : Nat) (m : Py (SC K) Unit) (R : Elem K → Elem K → Prop) : Prop :=
  ∀ s s' e, s.RING[i]? = some e → (m s = .ok () s' ↔ ∃ e', R e e' ∧ s' = { s with RING := s.RING.set i e' })

namespace ActsIf
variable {i : Nat} {m n : Py (SC K) Unit} {R S : Elem K → Elem K → Prop}

theorem of (h : ActsOn i m R) : ActsIf i m R := by
  intro s s' e he
  rw [h s s']
  constructor
  · rintro ⟨e1, e', he1, hr, rfl⟩
    cases he.symm.trans he1
    exact ⟨e', hr, rfl⟩
  · rintro ⟨e', hr, rfl⟩
    exact ⟨e, e', he, hr, rfl⟩

theorem after (hm : ActsOn i m R) (hn : ActsIf i n S) : ActsOn i (m >>= fun _ => n) (Seq R S) := by
  intro s s'
  rw [bind_eq_ok]
  constructor
  · rintro ⟨⟨⟩, s1, h1, h2⟩
    obtain ⟨e, e1, he, hr, rfl⟩ := (hm s s1).1 h1
    obtain ⟨e2, hs, rfl⟩ := (hn _ s' _ (list_getElem?_set_self he)).1 h2
    refine ⟨e, e2, he, ⟨e1, hr, hs⟩, ?_⟩
    simp only [List.set_set]
  · rintro ⟨e, e2, he, ⟨e1, hr, hs⟩, rfl⟩
    refine ⟨(), _, (hm s _).2 ⟨e, e1, he, hr, rfl⟩, (hn _ _ _ (list_getElem?_set_self he)).2 ⟨e2, hs, ?_⟩⟩
    simp only [List.set_set]

theorem bind (hm : ActsIf i m R) (hn : ActsIf i n S) : ActsIf i (m >>= fun _ => n) (Seq R S) := by
  intro s s' e he
  rw [bind_eq_ok]
  constructor
  · rintro ⟨⟨⟩, s1, h1, h2⟩
    obtain ⟨e1, hr, rfl⟩ := (hm s s1 e he).1 h1
    obtain ⟨e2, hs, rfl⟩ := (hn _ s' _ (list_getElem?_set_self he)).1 h2
    refine ⟨e2, ⟨e1, hr, hs⟩, ?_⟩
    simp only [List.set_set]
  · rintro ⟨e2, ⟨e1, hr, hs⟩, rfl⟩
    refine ⟨(), _, (hm s _ e he).2 ⟨e1, hr, rfl⟩, (hn _ _ _ (list_getElem?_set_self he)).2 ⟨e2, hs, ?_⟩⟩
    simp only [List.set_set]

theorem skip : ActsIf i (Py.pure () : Py (SC K) Unit) (fun e e' => e' = e) := by
  intro s s' e he
  constructor
  · intro h
    have h' : s' = s := by cases h; rfl
    subst h'
    exact ⟨e, rfl, by rw [list_set_self he]⟩
  · rintro ⟨e', rfl, rfl⟩
    rw [list_set_self he]; rfl

theorem withKey {kw : Kwargs K} {key : String} {body : Attr K → Py (SC K) Unit} {R : Attr K → Elem K → Elem K → Prop}
    (h : ∀ v, ActsIf i (body v) (R v)) :
    ActsIf i (PySC.withKey kw key body) (fun e e' => match kw.get? key with | some v => R v e e' | none => e' = e) := by
  unfold PySC.withKey
  cases kw.get? key with
  | none => exact skip
  | some v => exact h v

end ActsIf

/-- a limit for one plane -/
def LimitSet (k : Nat) (v : Attr K) (e e' : Elem K) : Prop :=
  ∃ ls l, e "CMlimit" = some (.lims ls) ∧ v.toLim = .ok l ∧ k < ls.length ∧ e' = e.set "CMlimit" (.lims (ls.set k l))

theorem setCMlimit_acts (i k : Nat) (v : Attr K) : ActsOn i (setCMlimit i k v) (LimitSet k v) := by
  unfold setCMlimit
  refine (ActsOn.rd (fun r x => getA_local) (fun a => ActsOn.lift (fun ls => ActsOn.lift (fun l => ActsOn.lift (fun _ =>
    ActsOn.setAttr _ _))))).congr (fun e e' => ?_)
  constructor
  · rintro ⟨a, ha, ls, hls, l, hl, x, hx, rfl⟩
    cases a <;> simp [Attr.toLims] at hls
    subst hls
    refine ⟨_, l, ha, hl, ?_, rfl⟩
    unfold idx at hx
    split at hx
    · rename_i h; exact (List.getElem?_eq_some_iff.1 h).1
    · cases hx
  · rintro ⟨ls, l, ha, hl, hk, rfl⟩
    exact ⟨_, ha, ls, rfl, l, hl, ls[k], by unfold idx; rw [List.getElem?_eq_getElem hk], rfl⟩

def LimitMade (c : Bool) (e e' : Elem K) : Prop :=
  e' = if c && (e "CMlimit").isNone then e.set "CMlimit" (.lims [.fin 0, .fin 0]) else e

theorem hasA_local {r : Ring K} {i : Nat} {a : String} {b : Bool} : r.hasA i a = .ok b ↔ ∃ e, r[i]? = some e ∧ b = (e a).isSome := by
  unfold Ring.hasA Ring.getE Elem.has
  cases h : r[i]? with
  | none => simp [bind, Except.bind]
  | some e => simp [bind, Except.bind, eq_comm]

theorem ensure_acts (i : Nat) (c : Bool) : ActsIf i (Py.when c (ensureCMlimit (K := K) i)) (LimitMade c) := by
  cases c with
  | false => exact ActsIf.skip
  | true =>
    show ActsIf i (ensureCMlimit i) _
    unfold ensureCMlimit
    intro s s' e he
    rw [bindRd_eq_ok]
    simp only [hasA_local, he, Option.some.injEq, exists_eq_left', LimitMade, Bool.true_and]
    cases h : e "CMlimit" with
    | none =>
      simp only [Option.isSome_none, exists_eq_left, Bool.not_false, Option.isNone_none, if_true]
      have := ActsIf.of (ActsOn.setAttr "CMlimit" (.lims [.fin 0, .fin 0])) s s' e he
      simp only [exists_eq_left] at this
      exact this
    | some x =>
      simp only [Option.isSome_some, exists_eq_left, Bool.not_true, Option.isNone_some, Bool.false_eq_true, if_false]
      have := ActsIf.skip s s' e he
      simp only [exists_eq_left] at this
      exact this

def Opt (o : Option (Attr K)) (R : Attr K → Elem K → Elem K → Prop) (e e' : Elem K) : Prop :=
  match o with | some v => R v e e' | none => e' = e

def LimitBlock (kw : Kwargs K) : Elem K → Elem K → Prop :=
  Seq (LimitMade (kw.has "HCM" || kw.has "VCM")) (Seq (Opt (kw.get? "HCM") (LimitSet 0)) (Opt (kw.get? "VCM") (LimitSet 1)))

theorem limitSet_settled {k : Nat} {v : Attr K} {d : Elem K} {ls : List (Lim K)} {l : Lim K} (hd : d "CMlimit" = some (.lims ls))
    (hv : v.toLim = .ok l) (hk : ls[k]? = some l) : LimitSet k v d d := by
  refine ⟨ls, l, hd, hv, (List.getElem?_eq_some_iff.1 hk).1, ?_⟩
  rw [list_set_self hk]
  exact Elem.set_self hd

theorem limitMade_settled {c : Bool} {d : Elem K} {x : Attr K} (hd : d "CMlimit" = some x) : LimitMade c d d := by
  simp [LimitMade, hd]

theorem limitMade_other {c : Bool} {e e' : Elem K} (h : LimitMade c e e') {b : String} (hb : b ≠ "CMlimit") : e' b = e b := by
  unfold LimitMade at h
  subst h
  split
  · simp [Elem.set, hb]
  · rfl

theorem limitSet_other {k : Nat} {v : Attr K} {e e' : Elem K} (h : LimitSet k v e e') {b : String} (hb : b ≠ "CMlimit") : e' b = e b := by
  obtain ⟨ls, l, -, -, -, rfl⟩ := h
  simp [Elem.set, hb]

theorem limitBlock_settling (kw : Kwargs K) : Settling [] ["CMlimit"] (LimitBlock kw) := by
  rintro e e' ⟨e1, h1, e2, h2, h3⟩
  refine ⟨fun b hb => ?_, fun d hd => ?_⟩
  · simp only [List.mem_singleton] at hb
    have k1 := limitMade_other h1 hb
    unfold Opt at h2 h3
    have k2 : e2 b = e1 b := by
      split at h2
      · exact limitSet_other h2 hb
      · rw [h2]
    have k3 : e' b = e2 b := by
      split at h3
      · exact limitSet_other h3 hb
      · rw [h3]
    rw [k3, k2, k1]
  · have hd := hd "CMlimit" (by simp)
    unfold LimitBlock
    cases hH : kw.get? "HCM" with
    | none =>
      rw [hH] at h2
      have h2 : e2 = e1 := h2
      subst h2
      cases hV : kw.get? "VCM" with
      | none =>
        refine ⟨d, ?_, d, rfl, rfl⟩
        have e1 : kw.has "HCM" = false := by simpa [Dict.has] using Dict.get?_eq_none_iff.1 hH
        have e2 : kw.has "VCM" = false := by simpa [Dict.has] using Dict.get?_eq_none_iff.1 hV
        simp [LimitMade, e1, e2]
      | some v =>
        rw [hV] at h3
        obtain ⟨ls, l, ha, hl, hk, rfl⟩ := h3
        have hd : d "CMlimit" = some (.lims (ls.set 1 l)) := by rw [hd]; simp [Elem.set]
        exact ⟨d, limitMade_settled hd, d, rfl, limitSet_settled hd hl (by rw [List.getElem?_set_self hk])⟩
    | some v0 =>
      rw [hH] at h2
      obtain ⟨ls, l, ha, hl, hk, rfl⟩ := h2
      cases hV : kw.get? "VCM" with
      | none =>
        rw [hV] at h3
        have h3 : e' = _ := h3
        subst h3
        have hd : d "CMlimit" = some (.lims (ls.set 0 l)) := by rw [hd]; simp [Elem.set]
        exact ⟨d, limitMade_settled hd, d, limitSet_settled hd hl (by rw [List.getElem?_set_self hk]), rfl⟩
      | some v =>
        rw [hV] at h3
        obtain ⟨ls', l', ha', hl', hk', rfl⟩ := h3
        have hls : ls' = ls.set 0 l := by simp [Elem.set] at ha'; exact ha'.symm
        subst hls
        have hd : d "CMlimit" = some (.lims ((ls.set 0 l).set 1 l')) := by rw [hd]; simp [Elem.set]
        refine ⟨d, limitMade_settled hd, d, limitSet_settled hd hl ?_, limitSet_settled hd hl' (by rw [List.getElem?_set_self hk'])⟩
        rw [List.getElem?_set_ne (by decide), List.getElem?_set_self hk]

/-- what the loop does to a magnet -/
def MagnetBody (children : Except Err (List Nat)) (kw : Kwargs K) : Elem K → Elem K → Prop :=
  Seq PolyBlock (Seq (fun e e' => e' = setAll magnetInit e) (Seq (Opt (kw.get? "CF") (fun _ e e' => e' = e.set "CombinedFunction" (.flag true)))
    (Seq (LimitBlock kw) (Seq (Opt (kw.get? "SkewQuad") (fun v e e' => e' = e.set "SkewQuadLimit" v))
      (Opt (kw.get? "MasterOf") (fun _ e e' => ∃ l, children = .ok l ∧ e' = e.set "MasterOf" (.ords l)))))))

theorem settling_opt {D W : List String} {o : Option (Attr K)} {R : Attr K → Elem K → Elem K → Prop} (h : ∀ v, Settling D W (R v)) :
    Settling D W (Opt o R) := by
  cases o with
  | none => rintro e e' rfl; exact ⟨fun _ _ => rfl, fun _ _ => rfl⟩
  | some v => exact h v

theorem magnetBody_again (c : Except Err (List Nat)) (kw : Kwargs K) (e e' : Elem K) (h : MagnetBody c kw e e') : MagnetBody c kw e' e' := by
  have h1 := polyBlock_settling (K := K)
  have h2 := settling_setAll (K := K) (l := magnetInit) (by simp [magnetInit])
  have h3 : Settling [] ["CombinedFunction"] (Opt (kw.get? "CF") (fun _ (e e' : Elem K) => e' = e.set "CombinedFunction" (.flag true))) :=
    settling_opt (fun _ => settling_set _ _)
  have h4 := limitBlock_settling kw
  have h5 : Settling [] ["SkewQuadLimit"] (Opt (kw.get? "SkewQuad") (fun v (e e' : Elem K) => e' = e.set "SkewQuadLimit" v)) :=
    settling_opt (fun _ => settling_set _ _)
  have h6 : Settling [] ["MasterOf"] (Opt (kw.get? "MasterOf") (fun _ (e e' : Elem K) => ∃ l, c = .ok l ∧ e' = e.set "MasterOf" (.ords l))) := by
    refine settling_opt (fun _ => ?_)
    rintro e e' ⟨l, hl, rfl⟩
    have := settling_set (K := K) "MasterOf" (.ords l) e _ rfl
    exact ⟨this.1, fun d hd => ⟨l, hl, this.2 d hd⟩⟩
  exact (h1.seq (h2.seq (h3.seq (h4.seq (h5.seq h6 (by simp)) (by simp)) (by simp)) (by simp [magnetInit])) (by simp [magnetInit, polyEntries])).again h

theorem magnet_acts (ords : List Nat) (kw : Kwargs K) (i : Nat) : ∃ m, ActsOn i m (MagnetBody (match kw.get? "MasterOf" with
    | some v => masterOf ords i v | none => .ok []) kw) ∧ registerMagnet1 ords kw i =
    (modSig (fun g => { g with Magnet := sigUpdate g.Magnet i (kw.filter (fun p => p.1 ∉ magnetTypeFields)) }) >>= fun _ => m) := by
  refine ⟨_, ?_, rfl⟩
  have hopt : ActsIf i (optionalMagnetFields i ords kw) (Seq (Opt (kw.get? "CF") (fun _ e e' => e' = e.set "CombinedFunction" (.flag true)))
      (Seq (LimitBlock kw) (Seq (Opt (kw.get? "SkewQuad") (fun v e e' => e' = e.set "SkewQuadLimit" v))
      (Opt (kw.get? "MasterOf") (fun _ e e' => ∃ l, (match kw.get? "MasterOf" with
        | some v => masterOf ords i v | none => .ok []) = .ok l ∧ e' = e.set "MasterOf" (.ords l)))))) := by
    unfold optionalMagnetFields
    refine (ActsIf.withKey (fun _ => .of (ActsOn.setAttr _ _))).bind ?_
    have h : ActsIf i (Py.when (kw.has "HCM" || kw.has "VCM") (ensureCMlimit (K := K) i) >>= fun _ =>
        withKey kw "HCM" (setCMlimit i 0) >>= fun _ => withKey kw "VCM" (setCMlimit i 1)) (LimitBlock kw) :=
      (ensure_acts i _).bind ((ActsIf.withKey (fun v => .of (setCMlimit_acts i 0 v))).bind
        (ActsIf.withKey (fun v => .of (setCMlimit_acts i 1 v))))
    have h' := h.bind (n := withKey kw "SkewQuad" (setAttr i "SkewQuadLimit") >>= fun _ => withKey kw "MasterOf" (fun v => do
      let l ← lift (masterOf ords i v)
      setAttr i "MasterOf" (.ords l))) ((ActsIf.withKey (fun v => .of (ActsOn.setAttr _ _))).bind
        (ActsIf.withKey (fun v => .of (ActsOn.lift (fun l => ActsOn.setAttr _ _)))))
    simp only [py_assoc] at h'
    intro s s' e he
    rw [h' s s' e he]
    unfold Opt
    cases kw.get? "MasterOf" <;> rfl
  have := polyBlock_acts (K := K) i
  have := ActsIf.after (polyBlock_acts (K := K) i) (ActsIf.of (ActsIf.after (acts_setAll i magnetInit (by simp [magnetInit])) hopt))
  simp only [py_assoc] at this
  exact this

theorem magnet_body (ords : List Nat) (kw : Kwargs K) : LoopBody magnetLens (fun i => MagnetBody (match kw.get? "MasterOf" with
    | some v => masterOf ords i v | none => .ok []) kw) (fun o => (o.getD []).update (kw.filter (fun p => decide (p.1 ∉ magnetTypeFields))))
    (registerMagnet1 ords kw) :=
  loopBody_sigFirst (fun i => magnet_acts ords kw i)

/-! ### one result -/

def Functional (R : Elem K → Elem K → Prop) : Prop := ∀ e a b, R e a → R e b → a = b

theorem Functional.seq {R S : Elem K → Elem K → Prop} (hR : Functional R) (hS : Functional S) : Functional (Seq R S) := by
  rintro e a b ⟨d, h1, h2⟩ ⟨d', h3, h4⟩
  cases hR _ _ _ h1 h3
  exact hS _ _ _ h2 h4

theorem Functional.opt {o : Option (Attr K)} {R : Attr K → Elem K → Elem K → Prop} (h : ∀ v, Functional (R v)) : Functional (Opt o R) := by
  cases o with
  | none => rintro e a b rfl h2; exact h2.symm
  | some v => exact h v

theorem functional_eq (f : Elem K → Elem K) : Functional (fun e e' => e' = f e) := by
  rintro e a b rfl rfl; rfl

theorem rfField_functional (field : String) : Functional (RfField (K := K) field) := by
  rintro e a b ⟨v, hv, rfl⟩ ⟨v', hv', rfl⟩
  cases hv.symm.trans hv'
  rfl

theorem rf_functional : Functional (RfBody (K := K)) := (rfField_functional _).seq ((rfField_functional _).seq (rfField_functional _))

theorem magnetBody_functional (c : Except Err (List Nat)) (kw : Kwargs K) : Functional (MagnetBody c kw) := by
  refine .seq ?_ (.seq (functional_eq _) (.seq (.opt (fun _ => functional_eq _)) (.seq (.seq (functional_eq _) (.seq (.opt (fun v => ?_))
    (.opt (fun v => ?_)))) (.seq (.opt (fun _ => functional_eq _)) (.opt (fun _ => ?_))))))
  · rintro e a b ⟨pa, pb, h1, h2, rfl⟩ ⟨pa', pb', h1', h2', rfl⟩
    cases h1.symm.trans h1'
    cases h2.symm.trans h2'
    rfl
  · rintro e a b ⟨ls, l, h1, h2, -, rfl⟩ ⟨ls', l', h1', h2', -, rfl⟩
    cases h1.symm.trans h1'
    cases h2.symm.trans h2'
    rfl
  · rintro e a b ⟨ls, l, h1, h2, -, rfl⟩ ⟨ls', l', h1', h2', -, rfl⟩
    cases h1.symm.trans h1'
    cases h2.symm.trans h2'
    rfl
  · rintro e a b ⟨l, h, rfl⟩ ⟨l', h', rfl⟩
    cases h.symm.trans h'
    rfl

/-! ### registrations in pieces -/

section pieces
variable {L : SigLens K} {R : Nat → Elem K → Elem K → Prop} {F : Option (Kwargs K) → Kwargs K} {f : Nat → Py (SC K) Unit} {s : SC K}

/-- a registration: check the keywords, extend the index lists, and do the loop -/
def registration (ok : Except Err Unit) (o : Ords → Ords) (l : List Nat) (f : Nat → Py (SC K) Unit) : Py (SC K) Unit := do
  lift ok
  modOrd o
  forEach l f

theorem LoopDone.withOrd {l : List Nat} {s t : SC K} (o : Ords) (h : LoopDone L R F l s t) :
    LoopDone L R F l { s with ORD := o } { t with ORD := o } := by
  obtain ⟨r, d, rfl, h⟩ := h
  exact ⟨r, d, rfl, h⟩

theorem loopDone_ord {l : List Nat} {s t : SC K} (h : LoopDone L R F l s t) : t.ORD = s.ORD := by
  obtain ⟨r, d, rfl, h⟩ := h
  rfl

/-- the machines left by a loop over the same elements in any order cannot be told apart -/
theorem loopDone_unique (hfun : ∀ i, Functional (R i)) (hL : ∀ (g : Sigs K) (d d' : Dict Nat (Kwargs K)), (∀ j, d.get? j = d'.get? j) →
    ∀ (t : SC K), Alike { t with SIG := L.put g d } { t with SIG := L.put g d' })
    {l l' : List Nat} (hl : ∀ i, i ∈ l ↔ i ∈ l') {s t t' : SC K} (h : LoopDone L R F l s t)
    (h' : LoopDone L R F l' s t') : Alike t t' := by
  obtain ⟨r, d, rfl, h1, h2, h3, h4⟩ := h
  obtain ⟨r', d', rfl, h1', h2', h3', h4'⟩ := h'
  have hr : r = r' := by
    apply List.ext_getElem?
    intro j
    by_cases hj : j ∈ l
    · obtain ⟨e, e1, he, hr, hx⟩ := h3 j hj
      obtain ⟨e', e1', he', hr', hx'⟩ := h3' j ((hl j).1 hj)
      cases he.symm.trans he'
      cases hfun j _ _ _ hr hr'
      rw [hx, hx']
    · rw [h2 j hj, h2' j (fun h => hj ((hl j).2 h))]
  subst hr
  refine hL s.SIG d d' (fun j => ?_) { s with RING := r }
  rw [h4, h4']
  by_cases hj : j ∈ l
  · rw [if_pos hj, if_pos ((hl j).1 hj)]
  · rw [if_neg hj, if_neg (fun h => hj ((hl j).2 h))]

theorem registration_pieces (hk : ∀ o, F (some (F o)) = F o) (hfun : ∀ i, Functional (R i)) (hset : ∀ i e e', R i e e' → R i e' e')
    (hL : ∀ (g : Sigs K) (d d' : Dict Nat (Kwargs K)), (∀ j, d.get? j = d'.get? j) →
      ∀ (t : SC K), Alike { t with SIG := L.put g d } { t with SIG := L.put g d' })
    (hf : LoopBody L R F f) {a b c : List Nat} (hc : ∀ i, i ∈ c ↔ i ∈ a ∨ i ∈ b) (ok : Except Err Unit) (oa ob oc : Ords → Ords)
    (ho : oc s.ORD = ob (oa s.ORD)) :
    SameResult (registration ok oc c f s) ((registration ok oa a f >>= fun _ => registration ok ob b f) s) := by
  have hfun' : ∀ i e a b, R i e a → R i e b → a = b := fun i => hfun i
  cases ok with
  | error e => exact trivial
  | ok u =>
    have e1 : registration (.ok u) oc c f s = forEach c f { s with ORD := oc s.ORD } := rfl
    have e2 : ∀ s, registration (.ok u) ob b f s = forEach b f { s with ORD := ob s.ORD } := fun _ => rfl
    have e3 : (registration (.ok u) oa a f >>= fun _ => registration (.ok u) ob b f) s =
        (forEach a f >>= fun _ => registration (.ok u) ob b f) { s with ORD := oa s.ORD } := rfl
    rw [e1, e3]
    by_cases hfit : LoopFits R c s
    · obtain ⟨t, ht⟩ := hf.loop_total hk hfun' hset (s := { s with ORD := oc s.ORD }) (l := c) hfit
      obtain ⟨t1, ht1⟩ := hf.loop_total hk hfun' hset (s := { s with ORD := oa s.ORD }) (l := a) (fun j hj => hfit j ((hc j).2 (Or.inl hj)))
      have hd1 := hf.loop hk hfun' hset ht1
      have hfit2 : LoopFits R b { t1 with ORD := ob t1.ORD } :=
        (hd1.fits hfun' hset (l' := b)).2 (fun j hj => hfit j ((hc j).2 (Or.inr hj)))
      obtain ⟨t2, ht2⟩ := hf.loop_total hk hfun' hset hfit2
      have hd2 := hf.loop hk hfun' hset ht2
      have hd := hf.loop hk hfun' hset ht
      rw [ht, bind_apply, ht1]
      dsimp only
      rw [e2, ht2]
      have h12 := LoopDone.trans hk hfun' hset hc (hd1.withOrd (ob t1.ORD)) hd2
      have : ob t1.ORD = oc s.ORD := by rw [loopDone_ord hd1]; exact ho.symm
      rw [this] at h12
      exact loopDone_unique hfun hL (fun _ => Iff.rfl) hd h12
    · have h1 : ∃ e t, forEach c f { s with ORD := oc s.ORD } = .error e t := by
        cases h : forEach c f { s with ORD := oc s.ORD } with
        | error e t => exact ⟨e, t, rfl⟩
        | ok x t => exact absurd (hf.loop hk hfun' hset h).toFits hfit
      obtain ⟨e, t, h1⟩ := h1
      rw [h1]
      cases h : (forEach a f >>= fun _ => registration (.ok u) ob b f) { s with ORD := oa s.ORD } with
      | error e t => exact trivial
      | ok x t2 =>
        exfalso
        rw [bind_eq_ok] at h
        obtain ⟨⟨⟩, t1, ht1, ht2⟩ := h
        rw [e2] at ht2
        have hd1 := hf.loop hk hfun' hset ht1
        have hd2 := (hf.loop hk hfun' hset ht2).toFits
        refine hfit (fun j hj => ?_)
        rcases (hc j).1 hj with ha | hb
        · exact hd1.toFits j ha
        · exact (hd1.fits hfun' hset (l' := b)).1 hd2 j hb

end pieces

end PySC
