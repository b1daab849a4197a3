import Verif.Spec.Scaling
import Verif.Lemmas.ApplyErrors
import Verif.Lemmas.Supports
import Verif.Lemmas.Beam
import Verif.Lemmas.Circumference
import Mathlib.Tactic.Ring
import Mathlib.Tactic.FieldSimp
/-
Two runs of apply_errors with the same random numbers, the uncertainties of the second being multiples of those of the first.
-/
namespace PySC
set_option linter.unusedSectionVars false
variable {K : Type} [Field K] [LinearOrder K] [FloorRing K]
open Py Spec

/-! ### pairs of runs which both succeed -/

def Both {α β : Type} (R R' : SC K → SC K → Prop) (V : α → β → Prop) (m : Py (SC K) α) (m' : Py (SC K) β) : Prop :=
  ∀ s t a b s' t', R s t → m s = .ok a s' → m' t = .ok b t' → V a b ∧ R' s' t'

def BothE {α β : Type} (V : α → β → Prop) (x : Except Err α) (y : Except Err β) : Prop := ∀ a b, x = .ok a → y = .ok b → V a b

namespace Both
variable {α β γ δ : Type} {R R' R'' : SC K → SC K → Prop} {V : α → β → Prop} {W : γ → δ → Prop}

theorem bind {m : Py (SC K) α} {m' : Py (SC K) β} {f : α → Py (SC K) γ} {f' : β → Py (SC K) δ} (hm : Both R R' V m m')
    (hf : ∀ a b, V a b → Both R' R'' W (f a) (f' b)) : Both R R'' W (m >>= f) (m' >>= f') := by
  intro s t a b s' t' h h1 h2
  rw [bind_eq_ok] at h1 h2
  obtain ⟨a1, s1, h1, h1'⟩ := h1
  obtain ⟨b1, t1, h2, h2'⟩ := h2
  obtain ⟨hv, hr⟩ := hm s t a1 b1 s1 t1 h h1 h2
  exact hf a1 b1 hv _ _ _ _ _ _ hr h1' h2'

theorem pure {a : α} {b : β} (h : V a b) : Both R R V (Py.pure a) (Py.pure b) := by
  intro s t a' b' s' t' hr h1 h2
  cases h1; cases h2; exact ⟨h, hr⟩

theorem get : Both R R R Py.get Py.get := by
  intro s t a b s' t' hr h1 h2
  cases h1; cases h2; exact ⟨hr, hr⟩

theorem lift {x : Except Err α} {y : Except Err β} (h : BothE V x y) : Both R R V (Py.lift x) (Py.lift y) := by
  intro s t a b s' t' hr h1 h2
  rw [lift_eq_ok] at h1 h2
  obtain ⟨h1, rfl⟩ := h1
  obtain ⟨h2, rfl⟩ := h2
  exact ⟨h a b h1 h2, hr⟩

theorem rd {f : Ring K → Except Err α} {g : Ring K → Except Err β} (h : ∀ s t, R s t → BothE V (f s.RING) (g t.RING)) :
    Both R R V (PySC.rd f) (PySC.rd g) := by
  intro s t a b s' t' hr h1 h2
  rw [rd_eq_ok] at h1 h2
  obtain ⟨h1, rfl⟩ := h1
  obtain ⟨h2, rfl⟩ := h2
  exact ⟨h _ _ hr a b h1 h2, hr⟩

theorem modify {f g : SC K → SC K} (h : ∀ s t, R s t → R' (f s) (g t)) : Both R R' Eq (Py.modify f) (Py.modify g) := by
  intro s t a b s' t' hr h1 h2
  cases h1; cases h2; exact ⟨rfl, h s t hr⟩

theorem forEach {l : List α} {f g : α → Py (SC K) Unit} (h : ∀ x ∈ l, Both R R Eq (f x) (g x)) : Both R R Eq (Py.forEach l f) (Py.forEach l g) := by
  induction l with
  | nil => exact pure rfl
  | cons x l ih => exact bind (h x (by simp)) (fun _ _ _ => ih (fun y hy => h y (by simp [hy])))

/-- loops over two lists whose entries correspond -/
theorem forEach_map {l : List α} {φ : α → β} {f : α → Py (SC K) Unit} {g : β → Py (SC K) Unit} (h : ∀ x ∈ l, Both R R Eq (f x) (g (φ x))) :
    Both R R Eq (Py.forEach l f) (Py.forEach (l.map φ) g) := by
  induction l with
  | nil => exact pure rfl
  | cons x l ih => exact bind (h x (by simp)) (fun _ _ _ => ih (fun y hy => h y (by simp [hy])))

theorem when {c : Bool} {m m' : Py (SC K) Unit} (h : Both R R Eq m m') : Both R R Eq (Py.when c m) (Py.when c m') := by
  unfold Py.when
  cases c
  · exact pure rfl
  · exact h
end Both

theorem BothE.bind {α β γ δ : Type} {V : α → β → Prop} {W : γ → δ → Prop} {x : Except Err α} {y : Except Err β} {f : α → Except Err γ}
    {g : β → Except Err δ} (h : BothE V x y) (hf : ∀ a b, V a b → BothE W (f a) (g b)) : BothE W (x >>= f) (y >>= g) := by
  intro a b h1 h2
  rw [Except.bind_eq_ok'] at h1 h2
  obtain ⟨a1, h1, h1'⟩ := h1
  obtain ⟨b1, h2, h2'⟩ := h2
  exact hf a1 b1 (h a1 b1 h1 h2) a b h1' h2'

theorem BothE.ok {α β : Type} {V : α → β → Prop} {a : α} {b : β} (h : V a b) : BothE V (.ok a) (.ok b) := by
  intro a' b' h1 h2; cases h1; cases h2; exact h

theorem BothE.refl {α : Type} (x : Except Err α) : BothE Eq x x := by
  intro a b h1 h2; rw [h1] at h2; cases h2; rfl

theorem BothE.of_eq {α : Type} {x y : Except Err α} (h : x = y) : BothE Eq x y := h ▸ BothE.refl x

theorem BothE.mapM {α β γ δ : Type} {W : γ → δ → Prop} {l : List α} {φ : α → β} {f : α → Except Err γ} {g : β → Except Err δ}
    (h : ∀ x ∈ l, BothE W (f x) (g (φ x))) : BothE (List.Forall₂ W) (l.mapM f) ((l.map φ).mapM g) := by
  induction l with
  | nil => intro a b h1 h2; cases h1; cases h2; exact List.Forall₂.nil
  | cons x l ih =>
    rw [List.map_cons, List.mapM_cons, List.mapM_cons]
    refine BothE.bind (h x (by simp)) (fun a b hab => BothE.bind (ih (fun y hy => h y (by simp [hy]))) (fun as bs hs => ?_))
    exact BothE.ok (List.Forall₂.cons hab hs)

theorem BothE.foldlM {α β γ δ : Type} {V : α → β → Prop} {W : γ → δ → Prop} {l : List α} {l' : List β} {f : γ → α → Except Err γ}
    {g : δ → β → Except Err δ} (hl : List.Forall₂ V l l') (h : ∀ x y a b, V x y → W a b → BothE W (f a x) (g b y)) {a : γ} {b : δ} (hab : W a b) :
    BothE W (l.foldlM f a) (l'.foldlM g b) := by
  induction hl generalizing a b with
  | nil => exact BothE.ok hab
  | cons hxy _ ih =>
    rw [List.foldlM_cons, List.foldlM_cons]
    exact BothE.bind (h _ _ _ _ hxy hab) (fun a b hab => ih hab)

/-! ### multiples -/

/-- the second array is `c` times the first one -/
def Mul (c : K) (v w : List K) : Prop := w = v.map (fun x => c * x)

theorem Mul.length {c : K} {v w : List K} (h : Mul c v w) : w.length = v.length := by rw [h]; simp

theorem Mul.idx {c : K} {v w : List K} (h : Mul c v w) (k : Nat) : BothE (fun x y => y = c * x) (idx v k) (idx w k) := by
  intro a b h1 h2
  rw [idx_eq_ok] at h1 h2
  rw [h, List.getElem?_map, h1] at h2
  simpa using h2.symm

theorem Mul.zeros (c : K) (n : Nat) : Mul c (zeros n) (zeros n) := by unfold Mul PySC.zeros; simp

theorem Mul.vadd {c : K} {v w v' w' : List K} (h : Mul c v w) (h' : Mul c v' w') : BothE (Mul c) (vadd v v') (vadd w w') := by
  intro a b h1 h2
  unfold PySC.vadd at h1 h2
  split at h1 <;> [skip; cases h1]
  split at h2 <;> [skip; cases h2]
  cases h1; cases h2
  rw [h, h']
  unfold Mul
  rw [List.zipWith_map, List.map_zipWith]
  congr 1
  funext x y; ring

theorem lineInterp_mul (c x0 f0 x1 f1 x : K) : lineInterp x0 (c * f0) x1 (c * f1) x = c * lineInterp x0 f0 x1 f1 x := by
  unfold lineInterp
  split_ifs <;> ring

theorem assignWhere_mul {c : K} {off off' : List K} (h : Mul c off off') (s : List K) (P : Nat → Bool) {g g' : K → K} (hg : ∀ x, g' x = c * g x) :
    Mul c (assignWhere off s P g) (assignWhere off' s P g') := by
  unfold Mul assignWhere
  rw [h]
  apply List.ext_getElem?
  intro k
  rw [List.zip_map_left]
  simp only [List.getElem?_mapIdx, List.getElem?_map, Option.map_map]
  congr 1
  funext p
  simp only [Function.comp, Prod.map, id]
  split
  · exact hg _
  · rfl

theorem sInterpolation1_mul {c : K} (s : List K) (C : K) {off off' : List K} (h : Mul c off off') (a b : Nat) (f1 f2 : K) :
    BothE (Mul c) (sInterpolation1 s C off a b f1 f2) (sInterpolation1 s C off' a b (c * f1) (c * f2)) := by
  unfold sInterpolation1
  refine BothE.bind (BothE.refl _) (fun x y hxy => BothE.bind (BothE.refl _) (fun z w hzw => ?_))
  subst hxy hzw
  split
  · intro p q h1 h2
    split at h1 <;> [cases h1; skip]
    split at h2 <;> [cases h2; skip]
    cases h1; cases h2
    exact assignWhere_mul h _ _ (fun _ => rfl)
  · split
    · exact BothE.ok (assignWhere_mul h _ _ (fun _ => lineInterp_mul _ _ _ _ _ _))
    · exact BothE.ok (assignWhere_mul (assignWhere_mul h _ _ (fun _ => lineInterp_mul _ _ _ _ _ _)) _ _ (fun _ => lineInterp_mul _ _ _ _ _ _))

theorem npInterp_mul (c : K) : ∀ (pts : List (K × K)) (x : K), BothE (fun a b => b = c * a) (npInterp pts x) (npInterp (pts.map (fun p => (p.1, c * p.2))) x)
  | [], _ => by intro a b h1; cases h1
  | [(_, f0)], _ => BothE.ok rfl
  | (x0, f0) :: (x1, f1) :: r, x => by
    have ih := npInterp_mul c ((x1, f1) :: r) x
    simp only [List.map_cons, npInterp] at ih ⊢
    split
    · exact BothE.ok rfl
    · split
      · exact BothE.ok (by ring)
      · exact ih

theorem interpRow_mul {c : K} (s : List K) {row row' : List K} (h : Mul c row row') (locs : List K) :
    BothE (Mul c) (interpRow s row locs) (interpRow s row' locs) := by
  unfold interpRow
  have h1 := BothE.mapM (W := fun (p q : K × K) => q = (p.1, c * p.2)) (l := uniquePos s) (φ := id)
    (f := fun p => do let f ← PySC.idx row p.2; .ok (p.1, f)) (g := fun p => do let f ← PySC.idx row' p.2; .ok (p.1, f))
    (fun x _ => BothE.bind (h.idx _) (fun a b hab => BothE.ok (by rw [hab]; rfl)))
  rw [List.map_id] at h1
  refine BothE.bind h1 (fun pts pts' hp => ?_)
  have : pts' = pts.map (fun p => (p.1, c * p.2)) := by
    clear h1
    induction hp with
    | nil => rfl
    | cons h _ ih => rw [List.map_cons, ← ih, h]
  subst this
  have h2 := BothE.mapM (W := fun (a b : K) => b = c * a) (l := locs) (φ := id) (fun x _ => npInterp_mul c pts x)
  rw [List.map_id] at h2
  intro a b ha hb
  have := h2 a b ha hb
  unfold Mul
  clear ha hb h2
  induction this with
  | nil => rfl
  | cons h _ ih => rw [List.map_cons, ← ih, h]


/-! ### lattices with errors in proportion -/

/-- what `update_transformation` writes, and the set-points of cavities -/
def derivedNames : List String := ["R1", "T1", "T2", "R2", "VoltageSetpoint", "FrequencySetpoint", "TimeLagSetpoint"]

theorem supportError_mem {a : String} (h : a ∈ supportErrorNames) : a ∈ errorNames := by revert a; decide

/-- the errors of the second lattice are multiples of those of the first; transformations are left open -/
structure RingMul (F : Nat → String → K) (c : K) (r r' : Ring K) : Prop where
  common : ∀ i, ∀ a ∈ supportErrorNames, F i a = c
  length : r'.length = r.length
  errors : ∀ i, ∀ a ∈ errorNames, r'.attr i a = (r.attr i a).map (scaleAttr (F i a))
  same : ∀ i a, a ∉ errorNames → a ∉ derivedNames → r'.attr i a = r.attr i a

namespace RingMul
variable {F : Nat → String → K} {c : K} {r r' : Ring K} (h : RingMul F c r r')
include h

theorem getVec (i : Nat) {a : String} (ha : a ∈ supportErrorNames) : BothE (Mul c) (r.getVec i a) (r'.getVec i a) := by
  intro v w h1 h2
  rw [Ring.getVec_eq_ok] at h1 h2
  rw [h.errors i a (supportError_mem ha), h1, h.common i a ha] at h2
  simpa [scaleAttr, eq_comm, Mul] using h2

theorem getVecAt (i : Nat) {a : String} (ha : a ∈ supportErrorNames) (k : Nat) : BothE (fun x y => y = c * x) (r.getVecAt i a k) (r'.getVecAt i a k) :=
  BothE.bind (h.getVec i ha) (fun _ _ hv => hv.idx k)

theorem setError (i : Nat) {a : String} (ha : a ∈ errorNames) (v : Attr K) : RingMul F c (r.setAttr i a v) (r'.setAttr i a (scaleAttr (F i a) v)) where
  common := h.common
  length := by simp [h.length]
  errors := fun j b hb => by
    rw [Ring.attr_setAttr, Ring.attr_setAttr, h.length]
    split
    · rename_i hh
      obtain ⟨rfl, rfl⟩ := hh
      split <;> rfl
    · exact h.errors j b hb
  same := fun j b hb hb' => by
    rw [Ring.attr_setAttr, Ring.attr_setAttr, h.length, h.same j b hb hb']
    have : b ≠ a := fun e => hb (e ▸ ha)
    simp [this]

theorem setDerived (i : Nat) {a : String} (ha : a ∈ derivedNames) (v w : Attr K) : RingMul F c (r.setAttr i a v) (r'.setAttr i a w) where
  common := h.common
  length := by simp [h.length]
  errors := fun j b hb => by
    have : b ≠ a := by
      rintro rfl
      have : ∀ x ∈ derivedNames, x ∉ errorNames := by decide
      exact this _ ha hb
    rw [Ring.attr_setAttr, Ring.attr_setAttr, if_neg (by tauto), if_neg (by tauto)]
    exact h.errors j b hb
  same := fun j b hb hb' => by
    have : b ≠ a := fun e => hb' (e ▸ ha)
    rw [Ring.attr_setAttr, Ring.attr_setAttr, if_neg (by tauto), if_neg (by tauto)]
    exact h.same j b hb hb'

theorem elems {α : Type} (f : Elem K → α) (names : List String) (hf : ∀ e e' : Elem K, (∀ a ∈ names, e a = e' a) → f e = f e')
    (hn : ∀ a ∈ names, a ∉ errorNames ∧ a ∉ derivedNames) : r'.map f = r.map f := by
  apply List.ext_getElem (by simp [h.length])
  intro i h1 h2
  simp only [List.getElem_map]
  refine hf _ _ (fun a ha => ?_)
  have := h.same i a (hn a ha).1 (hn a ha).2
  unfold Ring.attr at this
  simp only [List.length_map] at h1 h2
  simpa [h1, h2] using this

theorem findspos : PySC.findspos r' = PySC.findspos r := by
  unfold PySC.findspos lengths
  rw [h.elems _ ["Length"] (fun e e' he => by rw [he "Length" (by simp)]) (by decide)]

theorem hasA (i : Nat) {a : String} (ha : a ∉ errorNames) (hb : a ∉ derivedNames) : r'.hasA i a = r.hasA i a := Ring.hasA_congr h.length (h.same i a ha hb)
theorem getA (i : Nat) {a : String} (ha : a ∉ errorNames) (hb : a ∉ derivedNames) : r'.getA i a = r.getA i a := Ring.getA_congr h.length (h.same i a ha hb)

theorem masterChildren (i : Nat) : PySC.masterChildren r' i = PySC.masterChildren r i := by
  unfold PySC.masterChildren
  rw [h.hasA i (by decide) (by decide), h.getA i (by decide) (by decide)]

theorem circumference {f : K} {mode : String} : BothE (RingMul F c) (scaleCircumference r f mode) (scaleCircumference r' f mode) := by
  have hd : r'.map (fun e => (isDrift e, elemLength e)) = r.map (fun e => (isDrift e, elemLength e)) :=
    h.elems _ ["PassMethod", "Length"] (fun e e' he => by
      unfold isDrift elemLength
      rw [he "PassMethod" (by simp), he "Length" (by simp)]) (by decide)
  have hfil : ∀ q : Ring K, (q.filter isDrift).map elemLength = ((q.map (fun e => (isDrift e, elemLength e))).filter Prod.fst).map Prod.snd := by
    intro q
    rw [List.filter_map, List.map_map]
    rfl
  have hl : (r'.filter isDrift).map elemLength = (r.filter isDrift).map elemLength := by rw [hfil, hfil, hd]
  have he : (r'.filter isDrift).isEmpty = (r.filter isDrift).isEmpty := by
    have := congrArg List.isEmpty hl
    simpa using this
  unfold scaleCircumference
  rw [hl, he, h.findspos]
  split
  · intro a b h1; cases h1
  · dsimp only
    split
    · exact BothE.ok h
    · refine BothE.bind (BothE.refl _) (fun q q' hq => BothE.ok ?_)
      subst hq
      have key : ∀ i a, (a = "Length" → (Ring.attr (r'.map (fun e => if isDrift e then e.set "Length" (.num (elemLength e * (1 - q))) else e)) i a) =
          (Ring.attr (r.map (fun e => if isDrift e then e.set "Length" (.num (elemLength e * (1 - q))) else e)) i a)) := by
        rintro i a rfl
        have hm := h.elems (fun e => (if isDrift e then e.set "Length" (.num (elemLength e * (1 - q))) else e) "Length") ["PassMethod", "Length"]
          (fun e e' he => by
            unfold isDrift elemLength
            rw [he "PassMethod" (by simp), he "Length" (by simp)]
            split <;> simp [Elem.set_apply, he "Length" (by simp)]) (by decide)
        have hg := congrArg (fun l => l[i]?) hm
        simp only [List.getElem?_map] at hg
        unfold Ring.attr
        rw [List.getElem?_map, List.getElem?_map]
        cases h1 : r'[i]? <;> cases h2 : r[i]? <;> simp_all
      have other : ∀ (x : Ring K) i a, a ≠ "Length" → (Ring.attr (x.map (fun e => if isDrift e then e.set "Length" (.num (elemLength e * (1 - q))) else e)) i a) =
          x.attr i a := by
        intro x i a ha
        refine Ring.attr_map (fun e => ?_)
        split
        · rw [Elem.set_apply, if_neg ha]
        · rfl
      refine ⟨h.common, by simp [h.length], fun i a ha => ?_, fun i a ha hb => ?_⟩
      · have : a ≠ "Length" := by rintro rfl; revert ha; decide
        rw [other _ _ _ this, other _ _ _ this, h.errors i a ha]
      · by_cases hal : a = "Length"
        · exact key i a hal
        · rw [other _ _ _ hal, other _ _ _ hal, h.same i a ha hb]
end RingMul

theorem supportType_names {t : String} (ht : t ∈ supportTypes) : t ++ "Offset" ∈ supportErrorNames ∧ t ++ "Roll" ∈ supportErrorNames := by
  revert t; decide

section
variable {F : Nat → String → K} {c : K} {r r' : Ring K} (h : RingMul F c r r')
include h

theorem applySupportType_mul (o : Ords) (s : List K) (C : K) (dim : Nat) {t : String} (ht : t ∈ supportTypes) {off off' : List K} (hoff : Mul c off off') :
    BothE (Mul c) (applySupportType r o s C dim t off) (applySupportType r' o s C dim t off') := by
  unfold applySupportType
  have h1 := BothE.mapM (W := fun (p q : (Nat × Nat) × K × K) => q = (p.1, c * p.2.1, c * p.2.2)) (l := o.pairs t) (φ := id)
    (f := fun p => do
      let oa ← idx off p.1
      let xa ← supportValue r p.1 (t ++ "Offset") dim
      let ob ← idx off p.2
      let xb ← supportValue r p.2 (t ++ "Offset") dim
      .ok (p, oa + xa, ob + xb))
    (g := fun p => do
      let oa ← idx off' p.1
      let xa ← supportValue r' p.1 (t ++ "Offset") dim
      let ob ← idx off' p.2
      let xb ← supportValue r' p.2 (t ++ "Offset") dim
      .ok (p, oa + xa, ob + xb))
    (fun p _ => BothE.bind (hoff.idx _) (fun a a' ha => BothE.bind (h.getVecAt _ (supportType_names ht).1 _) (fun x x' hx =>
      BothE.bind (hoff.idx _) (fun b b' hb => BothE.bind (h.getVecAt _ (supportType_names ht).1 _) (fun y y' hy =>
        BothE.ok (by rw [ha, hx, hb, hy, ← mul_add, ← mul_add]; rfl))))))
  rw [List.map_id] at h1
  refine BothE.bind h1 (fun e e' he => BothE.foldlM he (fun x y a b hxy hab => ?_) hoff)
  rw [hxy]
  exact sInterpolation1_mul s C hab _ _ _ _

theorem offsetRow_mul (o : Ords) (dim : Nat) : BothE (Mul c) (offsetRow r o dim) (offsetRow r' o dim) := by
  unfold offsetRow
  rw [h.findspos]
  have aux : ∀ l : List String, (∀ t ∈ l, t ∈ supportTypes) → ∀ off off' : List K, Mul c off off' →
      BothE (Mul c) (l.foldlM (fun off t => applySupportType r o (findspos r) ((findspos r).getLastD 0) dim t off) off)
        (l.foldlM (fun off t => applySupportType r' o (findspos r) ((findspos r).getLastD 0) dim t off) off') := by
    intro l
    induction l with
    | nil => intro _ off off' ho; exact BothE.ok ho
    | cons t l ih =>
      intro hl off off' ho
      rw [List.foldlM_cons, List.foldlM_cons]
      exact BothE.bind (applySupportType_mul h o _ _ dim (hl t (by simp)) ho) (fun a b hab => ih (fun x hx => hl x (by simp [hx])) a b hab)
  exact aux _ (fun t ht => ht) _ _ (Mul.zeros c _)

theorem addRoll_mul {t : String} (ht : t ∈ supportTypes) {row row' : List K} (hr : Mul c row row') (p : Nat × Nat) :
    BothE (Mul c) (addRoll r t row p) (addRoll r' t row' p) := by
  refine BothE.bind (h.getVecAt _ (supportType_names ht).2 _) (fun x y hxy => BothE.ok ?_)
  unfold Mul
  rw [hr]
  apply List.ext_getElem?
  intro k
  simp only [List.getElem?_mapIdx, List.getElem?_map, Option.map_map]
  congr 1
  funext z
  simp only [Function.comp]
  split
  · rw [hxy]; ring
  · rfl
omit h in
theorem setTilt_mul (s : List K) (C : K) {off off' row row' : List K} (ho : Mul c off off') (hr : Mul c row row') (p : Nat × Nat) :
    BothE (Mul c) (setTilt s C off row p) (setTilt s C off' row' p) := by
  refine BothE.bind (ho.idx _) (fun x y hxy => BothE.bind (ho.idx _) (fun z w hzw => BothE.bind (BothE.refl _) (fun l l' hl => ?_)))
  subst hl
  intro a b h1 h2
  rw [Except.bind_eq_ok'] at h1 h2
  obtain ⟨q, hq, h1⟩ := h1
  obtain ⟨q', hq', h2⟩ := h2
  cases h1; cases h2
  rw [divE_eq_ok] at hq hq'
  have hqq : q' = c * q := by rw [hq.2, hq'.2, hxy, hzw]; ring
  unfold Mul
  rw [hr]
  apply List.ext_getElem?
  intro k
  simp only [List.getElem?_mapIdx, List.getElem?_map, Option.map_map]
  congr 1
  funext z
  simp only [Function.comp]
  split
  · rw [hqq]
  · rfl

theorem rollRows_mul (o : Ords) {x x' y y' : List K} (hx : Mul c x x') (hy : Mul c y y') :
    BothE (List.Forall₂ (Mul c)) (rollRows r o x y) (rollRows r' o x' y') := by
  unfold rollRows
  rw [h.findspos]
  dsimp only
  have hz := Mul.zeros c (findspos r).length
  have refl2 : ∀ l : List (String × (Nat × Nat)), List.Forall₂ (fun a b => a = b ∧ a ∈ l) l l := by
    intro l
    rw [List.forall₂_same]
    exact fun x hx => ⟨rfl, hx⟩
  refine BothE.bind (BothE.foldlM (refl2 _) (fun tp tq a b htp hab => ?_) hz) (fun roll roll' h1 =>
    BothE.bind (BothE.foldlM (refl2 _) (fun tp tq a b htp hab => ?_) hz) (fun p p' h2 =>
      BothE.bind (BothE.foldlM (refl2 _) (fun tp tq a b htp hab => ?_) hz) (fun w w' h3 => BothE.ok ?_)))
  · obtain ⟨rfl, hm⟩ := htp
    exact addRoll_mul h (typedPairs_type hm).1 hab _
  · obtain ⟨rfl, hm⟩ := htp
    exact setTilt_mul _ _ hy hab _
  · obtain ⟨rfl, hm⟩ := htp
    exact setTilt_mul _ _ hx hab _
  · exact .cons h1 (.cons h2 (.cons h3 .nil))

omit h in
theorem interpRows_mul (s : List K) {rows rows' : List (List K)} (hr : List.Forall₂ (Mul c) rows rows') (locs : List K) :
    BothE (List.Forall₂ (Mul c)) (rows.mapM (fun row => interpRow s row locs)) (rows'.mapM (fun row => interpRow s row locs)) := by
  induction hr with
  | nil => exact BothE.ok .nil
  | cons h1 _ ih =>
    rw [List.mapM_cons, List.mapM_cons]
    exact BothE.bind (interpRow_mul s h1 locs) (fun a b hab => BothE.bind ih (fun as bs hs => BothE.ok (.cons hab hs)))

theorem supportAt_mul (o : Ords) (l : List Nat) :
    BothE (fun p q => List.Forall₂ (Mul c) p.1 q.1 ∧ List.Forall₂ (Mul c) p.2 q.2) (supportAt r o l) (supportAt r' o l) := by
  unfold supportAt positions
  rw [h.findspos]
  refine BothE.bind (BothE.refl _) (fun locs locs' hl => ?_)
  subst hl
  unfold supportOffsetAndRoll
  refine BothE.bind (offsetRow_mul h o 0) (fun x x' hx => BothE.bind (offsetRow_mul h o 1) (fun y y' hy =>
    BothE.bind (offsetRow_mul h o 2) (fun z z' hz => BothE.bind (rollRows_mul h o hx hy) (fun q q' hq => ?_))))
  rw [h.findspos]
  have hxyz : List.Forall₂ (Mul c) [x, y, z] [x', y', z'] := .cons hx (.cons hy (.cons hz .nil))
  split
  · exact BothE.bind (interpRows_mul _ hxyz _) (fun a b hab => BothE.bind (interpRows_mul _ hq _) (fun u v huv => BothE.ok ⟨hab, huv⟩))
  · exact BothE.ok ⟨hxyz, hq⟩
end

theorem column_mul {c : K} {rows rows' : List (List K)} (hr : List.Forall₂ (Mul c) rows rows') (i : Nat) :
    BothE (Mul c) (column rows i) (column rows' i) := by
  unfold column
  induction hr with
  | nil => exact BothE.ok rfl
  | cons h1 _ ih =>
    rw [List.mapM_cons, List.mapM_cons]
    exact BothE.bind (h1.idx i) (fun a b hab => BothE.bind ih (fun as bs hs => BothE.ok (by rw [hab, hs]; rfl)))

/-! ### machines -/

/-- the uncertainties and errors of `t` are `c` times those of `s`; the injection settings are related by `P` -/
structure Stretch (F : Nat → String → K) (c : K) (P : Inj K → Inj K → Prop) (s t : SC K) : Prop where
  ords : t.ORD = s.ORD
  sig : t.SIG = scaleSigmas F c s.SIG
  rng : t.rng = s.rng
  inj : P s.INJ t.INJ
  ring : RingMul F c s.RING t.RING

section
variable {F : Nat → String → K} {c : K} {P : Inj K → Inj K → Prop}

theorem setError_both (i : Nat) {a : String} (ha : a ∈ errorNames) {v w : Attr K} (hw : w = scaleAttr (F i a) v) :
    Both (Stretch F c P) (Stretch F c P) Eq (setAttr i a v) (setAttr i a w) := by
  intro s t x y s' t' h h1 h2
  rw [setAttr_eq_ok] at h1 h2
  obtain ⟨-, rfl⟩ := h1
  obtain ⟨-, rfl⟩ := h2
  exact ⟨rfl, h.ords, h.sig, h.rng, h.inj, hw ▸ h.ring.setError i ha v⟩

theorem setDerived_both (i : Nat) {a : String} (ha : a ∈ derivedNames) (v w : Attr K) :
    Both (Stretch F c P) (Stretch F c P) Eq (setAttr i a v) (setAttr i a w) := by
  intro s t x y s' t' h h1 h2
  rw [setAttr_eq_ok] at h1 h2
  obtain ⟨-, rfl⟩ := h1
  obtain ⟨-, rfl⟩ := h2
  exact ⟨rfl, h.ords, h.sig, h.rng, h.inj, h.ring.setDerived i ha v w⟩

theorem randnc_both (E : Env K) (cut : K) (n : Nat) : Both (Stretch F c P) (Stretch F c P) Eq (randnc E cut n) (randnc E cut n) := by
  intro s t x y s' t' h h1 h2
  rw [randnc_eq_ok] at h1 h2
  obtain ⟨p, h1, rfl⟩ := h1
  obtain ⟨q, h2, rfl⟩ := h2
  rw [h.rng, h1] at h2
  cases h2
  exact ⟨rfl, h.ords, h.sig, rfl, h.inj, h.ring⟩

theorem scaledRandn_both (f : K) (E : Env K) (cut : K) (a : Attr K) :
    Both (Stretch F c P) (Stretch F c P) (fun v w => w = scaleAttr f v) (scaledRandn E cut a) (scaledRandn E cut (scaleAttr f a)) := by
  cases a with
  | num x => exact Both.bind (randnc_both E cut 1) (fun z z' hz => Both.pure (by subst hz; simp [scaleAttr, mul_assoc]))
  | vec v =>
    simp only [scaleAttr, scaledRandn, List.length_map]
    refine Both.bind (randnc_both E cut _) (fun z z' hz => Both.pure ?_)
    subst hz
    simp only [scaleAttr, List.zipWith_map_left, List.map_zipWith, mul_assoc]
  | _ => intro s t x y s' t' h h1; cases h1

theorem randnCutoff_both (f : K) (E : Env K) (a : Attr K) (n : K) :
    Both (Stretch F c P) (Stretch F c P) (fun v w => w = scaleAttr f v) (randnCutoff E a n) (randnCutoff E (scaleAttr f a) n) := by
  cases a with
  | pair v k => exact scaledRandn_both f E k v
  | num x => exact scaledRandn_both f E n (.num x)
  | vec v => exact scaledRandn_both f E n (.vec v)
  | _ => intro s t x y s' t' h h1; cases h1

theorem drawInto_both (E : Env K) (n : K) (i : Nat) {a : String} (ha : a ∈ errorNames) (v : Attr K) :
    Both (Stretch F c P) (Stretch F c P) Eq (drawInto E n i a v) (drawInto E n i a (scaleAttr (F i a) v)) :=
  Both.bind (randnCutoff_both _ E v n) (fun _ _ hw => setError_both i ha hw)

theorem scaleTable_keys (d : Dict Nat (Dict String (Attr K))) : (scaleTable F d).keys = d.keys := by
  unfold scaleTable Dict.keys; simp

theorem scaleTable_get (d : Dict Nat (Dict String (Attr K))) (i : Nat) :
    (scaleTable F d).get? i = (d.get? i).map (fun e => e.map (fun kv => (kv.1, scaleAttr (F i kv.1) kv.2))) := by
  unfold scaleTable
  induction d with
  | nil => rfl
  | cons x d ih =>
    rw [List.map_cons]
    unfold Dict.get?
    split
    · rename_i hh
      rw [hh]; rfl
    · rename_i hh
      exact ih

theorem scaleTable_entries (d : Dict Nat (Dict String (Attr K))) (i : Nat) :
    entries (scaleTable F d) i = (entries d i).map (fun kv => (kv.1, scaleAttr (F i kv.1) kv.2)) := by
  unfold entries
  rw [scaleTable_get]
  cases d.get? i <;> rfl

/-- the names in an entry -/
theorem entries_names {d : Dict Nat (Dict String (Attr K))} {names : List String} (hd : SingleEntries d) (hn : OnlyNames d names) {i : Nat}
    {kv : String × Attr K} (h : kv ∈ entries d i) : kv.1 ∈ names := hn i kv.1 kv.2 ((entries_mem hd).1 h)


/-- a table of uncertainties and its multiple -/
theorem applyTable_both {names : List String} {o : List Nat} {d : Dict Nat (Dict String (Attr K))} (hd : SingleEntries d) (hn : OnlyNames d names)
    {f : Nat → String × Attr K → Py (SC K) Unit}
    {G : Nat → String → K}
    (hf : ∀ i, ∀ kv : String × Attr K, kv.1 ∈ names → Both (Stretch F c P) (Stretch F c P) Eq (f i kv) (f i (kv.1, scaleAttr (G i kv.1) kv.2))) :
    Both (Stretch F c P) (Stretch F c P) Eq (forEach (intersect o d.keys) (fun i => forEach (entries d i) (f i)))
      (forEach (intersect o (scaleTable G d).keys) (fun i => forEach (entries (scaleTable G d) i) (f i))) := by
  rw [scaleTable_keys]
  refine Both.forEach (fun i _ => ?_)
  rw [scaleTable_entries]
  exact Both.forEach_map (fun kv hkv => hf i kv (entries_names hd hn hkv))

/-- the two states are looked at first -/
theorem Both.ofGet {α β : Type} {R R' : SC K → SC K → Prop} {V : α → β → Prop} {f : SC K → Py (SC K) α} {g : SC K → Py (SC K) β}
    (h : ∀ s t, R s t → ∀ a b s' t', f s s = .ok a s' → g t t = .ok b t' → V a b ∧ R' s' t') : Both R R' V (Py.get >>= f) (Py.get >>= g) := by
  intro s t a b s' t' hr h1 h2
  rw [bindGet_eq_ok] at h1 h2
  exact h s t hr a b s' t' h1 h2

theorem applyRf_both (E : Env K) (n : K) {s t s' t' : SC K} (hw : WellRegistered s.SIG) (h : Stretch F c P s t) (h1 : applyRf E n s = .ok () s')
    (h2 : applyRf E n t = .ok () t') : Stretch F c P s' t' := by
  unfold applyRf at h1 h2
  rw [bindGet_eq_ok] at h1 h2
  rw [h.ords, h.sig] at h2
  refine (applyTable_both hw.rfSingle hw.rfNames (f := fun i kv => drawInto E n i kv.1 kv.2) (fun i kv hkv => ?_) s t () () s' t' h h1 h2).2
  have hm : kv.1 ∈ errorNames ∨ kv.1 ∈ derivedNames := by revert hkv; generalize kv.1 = x; revert x; decide
  rcases hm with hm | hm
  · exact drawInto_both E n i hm kv.2
  · exact Both.bind (randnCutoff_both _ E kv.2 n) (fun _ _ _ => setDerived_both i hm _ _)

theorem applyBpm_both (E : Env K) (n : K) {s t s' t' : SC K} (hw : WellRegistered s.SIG) (h : Stretch F c P s t) (h1 : applyBpm E n s = .ok () s')
    (h2 : applyBpm E n t = .ok () t') : Stretch F c P s' t' := by
  unfold applyBpm at h1 h2
  rw [bindGet_eq_ok] at h1 h2
  rw [h.ords, h.sig] at h2
  refine (applyTable_both hw.bpmSingle hw.bpmNames
    (f := fun i kv => if strContains "Noise" kv.1 then setAttr i kv.1 kv.2 else drawInto E n i kv.1 kv.2) (fun i kv hkv => ?_) s t () () s' t' h h1 h2).2
  have hm : kv.1 ∈ errorNames := by revert hkv; generalize kv.1 = x; revert x; decide
  dsimp only
  split
  · exact setError_both i hm rfl
  · exact drawInto_both E n i hm kv.2

theorem applyMagnet_both (E : Env K) (n : K) {s t s' t' : SC K} (hw : WellRegistered s.SIG) (h : Stretch F c P s t) (h1 : applyMagnet E n s = .ok () s')
    (h2 : applyMagnet E n t = .ok () t') : Stretch F c P s' t' := by
  unfold applyMagnet at h1 h2
  rw [bindGet_eq_ok] at h1 h2
  rw [h.ords, h.sig] at h2
  refine (applyTable_both hw.magnetSingle hw.magnetNames
    (f := fun i kv => drawInto E n i (if kv.1 = "BendingAngle" then "BendingAngleError" else kv.1) kv.2)
    (G := fun i name => F i (magnetErrorName name)) (fun i kv hkv => ?_) s t () () s' t' h h1 h2).2
  exact drawInto_both E n i (by revert hkv; generalize kv.1 = x; revert x; decide) kv.2

/-- the static errors at injection are in proportion, and so is the jitter -/
def InjMul (c : K) (j j' : Inj K) : Prop :=
  j'.Z0ideal = j.Z0ideal ∧ (j'.Z0.length = j.Z0.length ∧ ∀ (k : Nat) x y i, j.Z0[k]? = some x → j'.Z0[k]? = some y → j.Z0ideal[k]? = some i →
    y - i = c * (x - i)) ∧ j'.randomInjectionZ = j.randomInjectionZ.map (fun x => c * x)

theorem bmul_mul {v v' : List K} (h : Mul c v v') (z : List K) : BothE (Mul c) (bmul v z) (bmul v' z) := by
  unfold bmul
  rw [h.length]
  split
  · refine BothE.ok ?_
    unfold Mul
    rw [h]
    simp only [List.zipWith_map_left, List.map_zipWith, mul_assoc]
  · split
    · refine BothE.ok ?_
      unfold Mul
      rw [h]
      simp only [List.map_map]
      congr 1
      funext y
      cases v <;> simp [mul_assoc]
    · split
      · refine BothE.ok ?_
        unfold Mul
        rw [h]
        simp only [List.map_map]
        congr 1
        funext y
        simp [mul_assoc]
      · intro a b h1; cases h1

theorem applyInjection_both (E : Env K) (n : K) {s t s' t' : SC K} (h : Stretch F c Eq s t) (h1 : applyInjection E n s = .ok () s')
    (h2 : applyInjection E n t = .ok () t') : Stretch F c (InjMul c) s' t' := by
  unfold applyInjection at h1 h2
  rw [bind_eq_ok] at h1 h2
  obtain ⟨z, s1, h1, h1'⟩ := h1
  obtain ⟨z', t1, h2, h2'⟩ := h2
  obtain ⟨rfl, hs⟩ := randnc_both E n 6 s t z z' s1 t1 h h1 h2
  rw [bindGet_eq_ok, bindLift_eq_ok] at h1' h2'
  obtain ⟨d, hd, h1'⟩ := h1'
  obtain ⟨d', hd', h2'⟩ := h2'
  rw [bindLift_eq_ok] at h1' h2'
  obtain ⟨x, hx, h1'⟩ := h1'
  obtain ⟨y, hy, h2'⟩ := h2'
  cases h1'; cases h2'
  rw [hs.sig] at hd'
  have hdd : Mul c d d' := bmul_mul rfl z d d' hd hd'
  refine ⟨hs.ords, hs.sig, hs.rng, ⟨?_, ?_, ?_⟩, hs.ring⟩
  · have : t1.INJ.Z0ideal = s1.INJ.Z0ideal := by rw [hs.inj]
    exact this
  · rw [← hs.inj] at hy
    unfold vadd at hx hy
    split at hx <;> [skip; cases hx]
    split at hy <;> [skip; cases hy]
    cases hx; cases hy
    rename_i e1 e2
    refine ⟨by simp [← e1, ← e2], fun k u v i hu hv hi => ?_⟩
    dsimp only at hu hv hi
    rw [hdd] at hv
    simp only [List.getElem?_zipWith, hi, List.getElem?_map] at hu hv
    cases hk : d[k]? with
    | none => rw [hk] at hu; cases hu
    | some q =>
      rw [hk] at hu hv
      simp only [Option.map_some, Option.some.injEq] at hu hv
      rw [← hu, ← hv]; ring
  · dsimp only; rw [hs.sig]; rfl

theorem applyCircumference_both (E : Env K) (n : K) {s t s' t' : SC K} (h : Stretch F c P s t) (h1 : applyCircumference E n s = .ok () s')
    (h2 : applyCircumference E n t = .ok () t') : Stretch F c P s' t' := by
  unfold applyCircumference at h1 h2
  rw [bind_eq_ok] at h1 h2
  obtain ⟨z, s1, h1, h1'⟩ := h1
  obtain ⟨z', t1, h2, h2'⟩ := h2
  obtain ⟨rfl, hs⟩ := randnc_both E n 1 s t z z' s1 t1 h h1 h2
  rw [bindGet_eq_ok, bindLift_eq_ok] at h1' h2'
  obtain ⟨d, hd, h1'⟩ := h1'
  obtain ⟨d', hd', h2'⟩ := h2'
  cases h1'; cases h2'
  rw [hs.sig] at hd'
  exact ⟨hs.ords, hs.sig, hs.rng, hs.inj, hs.ring.circumference d d' hd hd'⟩

/-! ### supports -/

theorem tiltAndOffsets_mul (tilt o0 o1 len : K) (b : Except Err Bool) :
    BothE (fun p q => q = (c * p.1, c * p.2.1, c * p.2.2)) (tiltAndOffsets tilt o0 o1 len b) (tiltAndOffsets (c * tilt) (c * o0) (c * o1) len b) := by
  intro p q h1 h2
  unfold tiltAndOffsets at h1 h2
  by_cases ht : tilt = 0
  · rw [if_neg (by simpa using ht), Except.bind_eq_ok'] at h1
    rw [if_neg (by simp [ht]), Except.bind_eq_ok'] at h2
    obtain ⟨x, hx, h1⟩ := h1
    obtain ⟨y, hy, h2⟩ := h2
    cases h1; cases h2
    rw [divE_eq_ok] at hx hy
    rw [hx.2, hy.2]
    simp only [Prod.mk.injEq, and_true]
    ring
  · rw [if_pos ht, Except.bind_eq_ok'] at h1
    obtain ⟨x, hx, h1⟩ := h1
    split at h1 <;> [cases h1; skip]
    cases h1
    by_cases hc : c = 0
    · subst hc
      rw [if_neg (by simp), Except.bind_eq_ok'] at h2
      obtain ⟨y, hy, h2⟩ := h2
      cases h2
      rw [divE_eq_ok] at hy
      rw [hy.2]
      simp
    · rw [if_pos (mul_ne_zero hc ht), Except.bind_eq_ok'] at h2
      obtain ⟨y, hy, h2⟩ := h2
      split at h2 <;> [cases h2; skip]
      cases h2
      simp only [Prod.mk.injEq, true_and]
      constructor <;> ring

theorem Mul.set {v w : List K} (h : Mul c v w) (k : Nat) (x : K) : Mul c (v.set k x) (w.set k (c * x)) := by
  unfold Mul; rw [h, List.map_set]

theorem scaledEntry_has (G : String → K) (l : Dict String (Attr K)) (n : String) :
    Dict.has (κ := String) (v := Attr K) (l.map (fun kv => (kv.1, scaleAttr (G kv.1) kv.2))) n = l.has n := by
  unfold Dict.has Dict.keys
  simp

/-- two entries with the same names -/
def SameNames (e e' : Option (Kwargs K)) : Prop :=
  (e = none ∧ e' = none) ∨ ∃ l l', e = some l ∧ e' = some l' ∧ ∀ n, Dict.has l' n = Dict.has l n

theorem newSupportErrors_mul {F : Nat → String → K} {r r' : Ring K} (h : RingMul F c r r') (sPos : List K) {t : String} (ht : t ∈ supportTypes) (p : Nat × Nat)
    {e e' : Option (Kwargs K)} (he : SameNames e e') :
    BothE (fun x y => Mul c x.1 y.1 ∧ Mul c x.2.1 y.2.1 ∧ Mul c x.2.2 y.2.2) (newSupportErrors r sPos t p e)
      (newSupportErrors r' sPos t p e') := by
  have key : ∀ both : Except Err Bool, BothE (fun x y => Mul c x.1 y.1 ∧ Mul c x.2.1 y.2.1 ∧ Mul c x.2.2 y.2.2)
      (do
        let s0 ← idx sPos p.1
        let s1 ← idx sPos p.2
        let len ← npRemainder (s1 - s0) (sPos.getLastD 0)
        let rolls ← r.getVec p.1 (t ++ "Roll")
        let off0 ← r.getVec p.1 (t ++ "Offset")
        let off1 ← r.getVec p.2 (t ++ "Offset")
        let r1 ← idx rolls 1
        let a1 ← idx off0 1
        let b1 ← idx off1 1
        let x ← tiltAndOffsets r1 a1 b1 len both
        let r2 ← idx rolls 2
        let a0 ← idx off0 0
        let b0 ← idx off1 0
        let y ← tiltAndOffsets r2 a0 b0 len both
        .ok ((rolls.set 1 x.1).set 2 y.1, (off0.set 1 x.2.1).set 0 y.2.1, (off1.set 1 x.2.2).set 0 y.2.2))
      (do
        let s0 ← idx sPos p.1
        let s1 ← idx sPos p.2
        let len ← npRemainder (s1 - s0) (sPos.getLastD 0)
        let rolls ← r'.getVec p.1 (t ++ "Roll")
        let off0 ← r'.getVec p.1 (t ++ "Offset")
        let off1 ← r'.getVec p.2 (t ++ "Offset")
        let r1 ← idx rolls 1
        let a1 ← idx off0 1
        let b1 ← idx off1 1
        let x ← tiltAndOffsets r1 a1 b1 len both
        let r2 ← idx rolls 2
        let a0 ← idx off0 0
        let b0 ← idx off1 0
        let y ← tiltAndOffsets r2 a0 b0 len both
        .ok ((rolls.set 1 x.1).set 2 y.1, (off0.set 1 x.2.1).set 0 y.2.1, (off1.set 1 x.2.2).set 0 y.2.2)) := by
    intro both
    refine BothE.bind (BothE.refl _) (fun s0 s0' h0 => BothE.bind (BothE.refl _) (fun s1 s1' h1 => BothE.bind (BothE.of_eq (by rw [h0, h1]))
      (fun len len' hl => BothE.bind (h.getVec _ (supportType_names ht).2) (fun ro ro' hr => BothE.bind (h.getVec _ (supportType_names ht).1)
      (fun a a' ha => BothE.bind (h.getVec _ (supportType_names ht).1) (fun b b' hb' => ?_))))))
    subst hl
    refine BothE.bind (hr.idx _) (fun r1 r1' e1 => BothE.bind (ha.idx _) (fun a1 a1' e2 => BothE.bind (hb'.idx _) (fun b1 b1' e3 => ?_)))
    subst e1 e2 e3
    refine BothE.bind (tiltAndOffsets_mul _ _ _ _ _) (fun x x' hx => BothE.bind (hr.idx _) (fun r2 r2' e1 => BothE.bind (ha.idx _)
      (fun a0 a0' e2 => BothE.bind (hb'.idx _) (fun b0 b0' e3 => ?_))))
    subst e1 e2 e3
    refine BothE.bind (tiltAndOffsets_mul _ _ _ _ _) (fun y y' hy => BothE.ok ?_)
    subst hx hy
    exact ⟨(hr.set _ _).set _ _, (ha.set _ _).set _ _, (hb'.set _ _).set _ _⟩
  rcases he with ⟨rfl, rfl⟩ | ⟨l, l', rfl, rfl, hn⟩
  · exact key _
  · have := key (.ok (Dict.has l (t ++ "Offset")))
    unfold newSupportErrors
    dsimp only
    rw [hn]
    exact this

theorem drawSupport_both (E : Env K) (n : K) (t : String) (p : Nat × Nat) {e e' : Option (Kwargs K)} (he : SameNames e e') {kv : String × Attr K}
    (hk : kv.1 ∈ supportErrorNames) (hF : ∀ i, ∀ a ∈ supportErrorNames, F i a = c) :
    Both (Stretch F c P) (Stretch F c P) Eq (drawSupport E n t p e kv) (drawSupport E n t p e' (kv.1, scaleAttr (F p.1 kv.1) kv.2)) := by
  have hkv := supportError_mem hk
  unfold drawSupport
  dsimp only
  split
  · refine Both.bind (drawInto_both E n _ hkv _) (fun _ _ _ => ?_)
    rcases he with ⟨rfl, rfl⟩ | ⟨l, l', rfl, rfl, hn⟩
    · intro s t x y s' t' h h1; cases h1
    · dsimp only
      rw [hn]
      split
      · rw [show F p.1 kv.1 = F p.2 kv.1 by rw [hF _ _ hk, hF _ _ hk]]
        exact drawInto_both E n _ hkv _
      · refine Both.bind (V := fun v w => w = scaleAttr (F p.2 kv.1) v) (Both.rd (fun s t h a b h1 h2 => ?_)) (fun v w hvw => setError_both _ hkv hvw)
        rw [Ring.getA_eq_ok] at h1 h2
        rw [h.ring.errors _ _ hkv, h1, show F p.1 kv.1 = F p.2 kv.1 by rw [hF _ _ hk, hF _ _ hk]] at h2
        simpa [eq_comm] using h2
  · exact Both.pure rfl

theorem applySupport_both (E : Env K) (n : K) (sPos : List K) {t : String} (ht : t ∈ supportTypes) (p : Nat × Nat) {s u s' u' : SC K}
    (hw : WellRegistered s.SIG) (h : Stretch F c P s u)
    (h1 : applySupport E n sPos t p s = .ok () s') (h2 : applySupport E n sPos t p u = .ok () u') : Stretch F c P s' u' := by
  unfold applySupport at h1 h2
  rw [bindGet_eq_ok] at h1 h2
  have hu : u.SIG.Support = scaleTable F s.SIG.Support := by rw [h.sig]; rfl
  have names : ∀ i, SameNames (s.SIG.Support.get? i) (u.SIG.Support.get? i) := by
    intro i
    rw [hu, scaleTable_get]
    cases hg : s.SIG.Support.get? i with
    | none => exact Or.inl ⟨rfl, rfl⟩
    | some l => exact Or.inr ⟨l, _, rfl, rfl, fun n => scaledEntry_has _ l n⟩
  have hn2 := names p.2
  cases hg : s.SIG.Support.get? p.1 with
  | none =>
    rw [hg] at h1
    rw [hu, scaleTable_get, hg] at h2
    cases h1; cases h2
    exact h
  | some l =>
    rw [hg] at h1
    have hl : ∀ kv ∈ l, kv.1 ∈ supportErrorNames := by
      intro kv hkv
      have := entries_names hw.supportSingle hw.supportNames (i := p.1) (kv := kv) (by unfold entries; rw [hg]; exact hkv)
      revert this; generalize kv.1 = x; revert x; decide
    have hgu : u.SIG.Support.get? p.1 = some (l.map (fun kv => (kv.1, scaleAttr (F p.1 kv.1) kv.2))) := by rw [hu, scaleTable_get, hg]; rfl
    rw [hgu] at h2
    refine (Both.bind (Both.forEach_map (fun kv hkv => drawSupport_both E n t p hn2 (hl kv hkv) h.ring.common)) (fun _ _ _ =>
      Both.bind (Both.rd (fun a b hab => newSupportErrors_mul hab.ring sPos ht p hn2)) (fun x y hxy =>
        Both.bind (setError_both _ (supportError_mem (supportType_names ht).2) ?_) (fun _ _ _ => Both.bind (setError_both _ (supportError_mem (supportType_names ht).1) ?_) (fun _ _ _ =>
          setError_both _ (supportError_mem (supportType_names ht).1) ?_)))) s u () () s' u' h h1 h2).2
    · rw [hxy.1, h.ring.common _ _ (supportType_names ht).2]; rfl
    · rw [hxy.2.1, h.ring.common _ _ (supportType_names ht).1]; rfl
    · rw [hxy.2.2, h.ring.common _ _ (supportType_names ht).1]; rfl

theorem applySupports_both (E : Env K) (n : K) {s u s' u' : SC K} (hw : WellRegistered s.SIG) (h : Stretch F c P s u)
    (h1 : applySupports E n s = .ok () s') (h2 : applySupports E n u = .ok () u') : Stretch F c P s' u' := by
  unfold applySupports at h1 h2
  rw [bindGet_eq_ok] at h1 h2
  rw [h.ords, h.ring.findspos] at h2
  have := Both.forEach (R := fun a b => Stretch F c P a b ∧ a.SIG = s.SIG) (l := typedPairs s.ORD)
    (f := fun tp => applySupport E n (findspos s.RING) tp.1 tp.2) (g := fun tp => applySupport E n (findspos s.RING) tp.1 tp.2)
    (fun tp htp a b x y a' b' hab ha hb => ⟨rfl, applySupport_both E n _ (typedPairs_type htp).1 tp.2 (hab.2 ▸ hw) hab.1 ha hb, ?_⟩)
    s u () () s' u' ⟨h, rfl⟩ h1 h2
  · exact this.2.1
  · have f := (applySupport_frame (E := E) (n := n) (sp := findspos s.RING) (p := tp.2) (typedPairs_type htp).1 (s := a) (hab.2 ▸ hw)).sig
    rw [ha] at f
    exact f.trans hab.2

theorem updateTransformation_both (E : Env K) (i : Nat) :
    Both (Stretch F c P) (Stretch F c P) Eq (updateTransformation E i) (updateTransformation E i) := by
  unfold updateTransformation
  refine Both.bind (V := fun _ _ => True) (Both.rd (fun _ _ _ _ _ _ _ => trivial)) (fun x y _ =>
    Both.bind (V := fun _ _ => True) (Both.lift (fun _ _ _ _ => trivial)) (fun T T' _ => ?_))
  exact Both.bind (setDerived_both i (by decide) _ _) (fun _ _ _ => Both.bind (setDerived_both i (by decide) _ _) (fun _ _ _ =>
    Both.bind (setDerived_both i (by decide) _ _) (fun _ _ _ => setDerived_both i (by decide) _ _)))

theorem copyTransformation_both (i j : Nat) :
    Both (Stretch F c P) (Stretch F c P) Eq (copyTransformation i j) (copyTransformation i j) := by
  unfold copyTransformation
  refine Both.forEach (fun a ha => Both.bind (V := fun _ _ => True) (Both.rd (fun _ _ _ _ _ _ _ => trivial)) (fun x y _ => setDerived_both j ?_ _ _))
  revert a; decide

theorem updateSupports_both (E : Env K) (b m : Bool) : Both (Stretch F c P) (Stretch F c P) Eq (updateSupports E b m) (updateSupports E b m) := by
  unfold updateSupports
  refine Both.bind Both.get (fun s t h => ?_)
  rw [h.ords]
  refine Both.bind (Both.when (Both.bind (Both.rd (fun a b hab => supportAt_mul hab.ring s.ORD s.ORD.Magnet)) (fun p q hpq =>
    Both.forEach (fun x _ => ?_)))) (fun _ _ _ => Both.when (Both.bind (Both.rd (fun a b hab => supportAt_mul hab.ring s.ORD s.ORD.BPM))
      (fun p q hpq => Both.forEach (fun x _ => ?_))))
  · unfold updateMagnetSupport
    refine Both.bind (Both.lift (column_mul hpq.1 _)) (fun v w hvw => Both.bind (setError_both _ (by decide) (by rw [hvw, h.ring.common _ _ (by decide)]; rfl)) (fun _ _ _ =>
      Both.bind (Both.lift (column_mul hpq.2 _)) (fun v w hvw => Both.bind (setError_both _ (by decide) (by rw [hvw, h.ring.common _ _ (by decide)]; rfl)) (fun _ _ _ =>
        Both.bind (updateTransformation_both E _) (fun _ _ _ => Both.bind (V := Eq)
          (Both.rd (fun a b hab => BothE.of_eq (hab.ring.masterChildren _).symm)) (fun l l' hl => ?_))))))
    subst hl
    exact Both.forEach (fun j _ => copyTransformation_both _ _)
  · unfold updateBpmSupport
    refine Both.bind (Both.lift (column_mul ?_ _)) (fun v w hvw => Both.bind (setError_both _ (by decide) (by rw [hvw, h.ring.common _ _ (by decide)]; rfl)) (fun _ _ _ =>
      Both.bind (V := Mul c) (Both.lift ?_) (fun v w hvw => Both.bind (Both.lift (hvw.idx _)) (fun x y hxy => setError_both _ (by decide) (by rw [hxy, h.ring.common _ _ (by decide)]; rfl)))))
    · exact List.forall₂_take 2 hpq.1
    · intro x y hx hy
      rw [idx_eq_ok] at hx hy
      have hf := hpq.2
      revert hf hx hy
      generalize p.2 = l
      generalize q.2 = l'
      intro hx hy hf
      cases hf with
      | nil => cases hx
      | cons h1 _ => simp at hx hy; subst hx hy; exact h1

end

/-! ### the whole of `apply_errors` -/

theorem applyErrors_scaled {F : Nat → String → K} {c : K} (hF : ∀ i, ∀ a ∈ supportErrorNames, F i a = c) (E : Env K) (n : K) {s s' t' : SC K} (hw : WellRegistered s.SIG) (h0 : WithoutErrors s)
    (h1 : applyErrors E n s = .ok () s') (h2 : applyErrors E n { s with SIG := scaleSigmas F c s.SIG } = .ok () t') :
    ScaledErrors F c s' t' ∧ s'.rng = t'.rng := by
  obtain ⟨s1, s2, s3, s4, s5, s6, s7, s8, a1, a2, a3, a4, a5, a6, a7, a8, a9⟩ := applyErrors_eq_ok h1
  obtain ⟨t1, t2, t3, t4, t5, t6, t7, t8, b1, b2, b3, b4, b5, b6, b7, b8, b9⟩ := applyErrors_eq_ok h2
  have r0 : Stretch F c Eq s { s with SIG := scaleSigmas F c s.SIG } := by
    refine ⟨rfl, rfl, rfl, rfl, hF, rfl, fun i a ha => ?_, fun _ _ _ _ => rfl⟩
    cases hv : s.RING.attr i a with
    | none => simp [hv]
    | some v =>
      rcases h0 i a ha v hv with rfl | ⟨m, rfl⟩ <;> simp [hv, scaleAttr]
  have r1 := applyRf_both E n hw r0 a1 b1
  have g1 := (applyRf_frame (E := E) (n := n) hw).sig; rw [a1] at g1
  have w1 : WellRegistered s1.SIG := by rw [show s1.SIG = s.SIG from g1]; exact hw
  have r2 := applyBpm_both E n w1 r1 a2 b2
  have g2 := (applyBpm_frame (E := E) (n := n) w1).sig; rw [a2] at g2
  have w2 : WellRegistered s2.SIG := by rw [show s2.SIG = s1.SIG from g2]; exact w1
  have r3 := applyMagnet_both E n w2 r2 a3 b3
  have g3 := (applyMagnet_frame (E := E) (n := n) w2).sig; rw [a3] at g3
  have w3 : WellRegistered s3.SIG := by rw [show s3.SIG = s2.SIG from g3]; exact w2
  have r4 := applyInjection_both E n r3 a4 b4
  have g4 := (applyInjection_frame E n s3).sig; rw [a4] at g4
  have w4 : WellRegistered s4.SIG := by rw [show s4.SIG = s3.SIG from g4]; exact w3
  have r5 := applyCircumference_both E n r4 a5 b5
  have g5 := (applyCircumference_frame E n s4).sig; rw [a5] at g5
  have w5 : WellRegistered s5.SIG := by rw [show s5.SIG = s4.SIG from g5]; exact w4
  have r6 := applySupports_both E n w5 r5 a6 b6
  have r7 := (updateSupports_both E true true s6 t6 () () s7 t7 r6 a7 b7).2
  have fin : ∀ {q : Bool} {x y z : SC K} {q' : Bool}, Py.when q (updateMagnets none) x = .ok () y → Py.when q' (updateCavities none) y = .ok () z →
      (∀ i, ∀ a ∈ errorNames, z.RING.attr i a = x.RING.attr i a) ∧ z.INJ = x.INJ ∧ z.rng = x.rng := by
    intro q x y z q' hx hy
    have f1 := Rel.ok (Modifies.when (c := q) (updateMagnets_modifies (K := K) none)) hx
    have f2 := Rel.ok (Modifies.when (c := q') (updateCavities_modifies (K := K) none)) hy
    have hm : ∀ a ∈ errorNames, a ∉ magnetWrites ∧ a ∉ rfProperties := by decide
    exact ⟨fun i a ha => (f2.attr i a (fun hh => (hm a ha).2 hh.2)).trans (f1.attr i a (hm a ha).1), f2.inj.trans f1.inj, f2.rng.trans f1.rng⟩
  obtain ⟨e1, e2, e3⟩ := fin a8 a9
  obtain ⟨d1, d2, d3⟩ := fin b8 b9
  refine ⟨⟨fun i a ha => ?_, ?_, ?_, ?_⟩, ?_⟩
  · rw [d1 i a ha, e1 i a ha, r7.ring.errors i a ha]
  · rw [d2, e2]; exact r7.inj.1
  · rw [d2, e2]; exact r7.inj.2.1
  · rw [d2, e2]; exact r7.inj.2.2
  · rw [d3, e3, r7.rng]
end PySC
