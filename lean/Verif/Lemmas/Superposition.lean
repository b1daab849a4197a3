import Verif.Spec.Superposition
import Verif.Lemmas.SupportWriter
import Verif.Lemmas.SupportUpdate
/-
Sums of misalignments of supports.
-/
set_option linter.unusedSectionVars false
namespace PySC
open Py Spec
variable {K : Type} [Field K] [LinearOrder K]

/-- if the first two computations succeed then so does the third, and the results are in the relation -/
def SumE {α : Type} (V : α → α → α → Prop) (x y z : Except Err α) : Prop := ∀ a b, x = .ok a → y = .ok b → ∃ c, z = .ok c ∧ V a b c

theorem SumE.bind {α β : Type} {V : α → α → α → Prop} {W : β → β → β → Prop} {x y z : Except Err α} {f g k : α → Except Err β}
    (h : SumE V x y z) (h' : ∀ a b c, V a b c → SumE W (f a) (g b) (k c)) : SumE W (x >>= f) (y >>= g) (z >>= k) := by
  intro p q hp hq
  rw [Except.bind_eq_ok'] at hp hq
  obtain ⟨a, ha, hp⟩ := hp
  obtain ⟨b, hb, hq⟩ := hq
  obtain ⟨c, hc, hv⟩ := h a b ha hb
  obtain ⟨d, hd, hw⟩ := h' a b c hv p q hp hq
  exact ⟨d, by rw [hc]; exact hd, hw⟩

theorem SumE.ok {α : Type} {V : α → α → α → Prop} {a b c : α} (h : V a b c) : SumE V (.ok a) (.ok b) (.ok c) := by
  intro p q hp hq
  cases hp; cases hq
  exact ⟨c, rfl, h⟩

/-- all three are the same -/
def Same3 {α : Type} (a b c : α) : Prop := a = c ∧ b = c

theorem SumE.refl {α : Type} (x : Except Err α) : SumE Same3 x x x := by
  intro a b ha hb
  rw [ha] at hb
  cases hb
  exact ⟨a, ha, rfl, rfl⟩

theorem SumE.of_eq {α : Type} {x y z : Except Err α} (h1 : x = z) (h2 : y = z) : SumE Same3 x y z := by subst h1 h2; exact SumE.refl _

/-- lists with members in the relation -/
inductive All3 {α : Type} (V : α → α → α → Prop) : List α → List α → List α → Prop
  | nil : All3 V [] [] []
  | cons {a b c : α} {as bs cs : List α} (h : V a b c) (hs : All3 V as bs cs) : All3 V (a :: as) (b :: bs) (c :: cs)

theorem SumE.mapM {α β : Type} {W : β → β → β → Prop} {l : List α} {f g k : α → Except Err β} (h : ∀ x ∈ l, SumE W (f x) (g x) (k x)) :
    SumE (All3 W) (l.mapM f) (l.mapM g) (l.mapM k) := by
  induction l with
  | nil => exact SumE.ok .nil
  | cons x l ih =>
    rw [List.mapM_cons, List.mapM_cons, List.mapM_cons]
    exact SumE.bind (h x (by simp)) (fun a b c hv => SumE.bind (ih (fun y hy => h y (by simp [hy]))) (fun _ _ _ hs => SumE.ok (.cons hv hs)))

theorem SumE.mapM3 {α β : Type} {V : α → α → α → Prop} {W : β → β → β → Prop} {l l' l'' : List α} {f g k : α → Except Err β} (hl : All3 V l l' l'')
    (h : ∀ x y z, V x y z → SumE W (f x) (g y) (k z)) : SumE (All3 W) (l.mapM f) (l'.mapM g) (l''.mapM k) := by
  induction hl with
  | nil => exact SumE.ok .nil
  | cons h1 _ ih =>
    rw [List.mapM_cons, List.mapM_cons, List.mapM_cons]
    exact SumE.bind (h _ _ _ h1) (fun a b c hv => SumE.bind ih (fun _ _ _ hs => SumE.ok (.cons hv hs)))

theorem SumE.foldlM {α β : Type} {V : α → α → α → Prop} {W : β → β → β → Prop} {l l' l'' : List α} {f g k : β → α → Except Err β} (hl : All3 V l l' l'')
    (h : ∀ x y z a b c, V x y z → W a b c → SumE W (f a x) (g b y) (k c z)) {a b c : β} (hab : W a b c) :
    SumE W (l.foldlM f a) (l'.foldlM g b) (l''.foldlM k c) := by
  induction hl generalizing a b c with
  | nil => exact SumE.ok hab
  | cons h1 _ ih =>
    rw [List.foldlM_cons, List.foldlM_cons, List.foldlM_cons]
    exact SumE.bind (h _ _ _ _ _ _ h1 hab) (fun a b c hv => ih hv)

theorem All3.same {α : Type} (l : List α) : All3 (fun a b c => Same3 a b c ∧ c ∈ l) l l l := by
  suffices ∀ m : List α, (∀ x ∈ m, x ∈ l) → All3 (fun a b c => Same3 a b c ∧ c ∈ l) m m m from this l (fun _ h => h)
  intro m
  induction m with
  | nil => exact fun _ => .nil
  | cons x m ih => exact fun h => .cons ⟨⟨rfl, rfl⟩, h x (by simp)⟩ (ih (fun y hy => h y (by simp [hy])))

/-! ### sums of arrays -/

/-- the third array is the sum of the others -/
def SumRow (v w u : List K) : Prop := v.length = w.length ∧ u = plus v w

/-- the third number is the sum of the others -/
def SumNum (x y z : K) : Prop := z = x + y

theorem SumRow.idx {v w u : List K} (h : SumRow v w u) (k : Nat) : SumE SumNum (idx v k) (idx w k) (idx u k) := by
  intro a b h1 h2
  rw [idx_eq_ok] at h1 h2
  refine ⟨a + b, ?_, rfl⟩
  rw [idx_eq_ok, h.2, plus, List.getElem?_zipWith, h1, h2]

theorem SumRow.zeros (n : Nat) : SumRow (K := K) (zeros n) (zeros n) (zeros n) := by
  refine ⟨rfl, ?_⟩
  unfold plus PySC.zeros
  rw [List.zipWith_replicate]
  simp

theorem SumRow.get {v w u : List K} (h : SumRow v w u) (k : Nat) : u[k]? = (do let a ← v[k]?; let b ← w[k]?; pure (a + b)) := by
  rw [h.2, plus, List.getElem?_zipWith]
  cases v[k]? <;> cases w[k]? <;> rfl

theorem SumRow.mapIdx {v w u : List K} (h : SumRow v w u) {f g k : Nat → K → K} (hf : ∀ i x y, k i (x + y) = f i x + g i y) :
    SumRow (v.mapIdx f) (w.mapIdx g) (u.mapIdx k) := by
  refine ⟨by simp [h.1], ?_⟩
  apply List.ext_getElem?
  intro i
  rw [plus, List.getElem?_zipWith, List.getElem?_mapIdx, List.getElem?_mapIdx, List.getElem?_mapIdx, h.get]
  cases v[i]? <;> cases w[i]? <;> simp [hf]

theorem lineInterp_sum (x0 f0 g0 x1 f1 g1 x : K) : lineInterp x0 (f0 + g0) x1 (f1 + g1) x = lineInterp x0 f0 x1 f1 x + lineInterp x0 g0 x1 g1 x := by
  unfold lineInterp
  split_ifs <;> ring

theorem assignWhere_sum {v w u : List K} (h : SumRow v w u) (s : List K) (P : Nat → Bool) {f g k : K → K} (hf : ∀ x, k x = f x + g x) :
    SumRow (assignWhere v s P f) (assignWhere w s P g) (assignWhere u s P k) := by
  unfold assignWhere
  refine ⟨by simp [h.1], ?_⟩
  apply List.ext_getElem?
  intro i
  rw [plus, List.getElem?_zipWith]
  simp only [List.getElem?_mapIdx, List.zip, List.getElem?_zipWith, h.get]
  cases v[i]? <;> cases w[i]? <;> cases s[i]? <;> simp
  split <;> simp [hf]

theorem sInterpolation1_sum (s : List K) (C : K) {v w u : List K} (h : SumRow v w u) (a b : Nat) {f1 f2 g1 g2 k1 k2 : K} (h1 : SumNum f1 g1 k1)
    (h2 : SumNum f2 g2 k2) : SumE SumRow (sInterpolation1 s C v a b f1 f2) (sInterpolation1 s C w a b g1 g2) (sInterpolation1 s C u a b k1 k2) := by
  unfold sInterpolation1
  rw [h1, h2]
  refine SumE.bind (SumE.refl _) (fun x y z hx => SumE.bind (SumE.refl _) (fun x' y' z' hx' => ?_))
  obtain ⟨rfl, rfl⟩ := hx
  obtain ⟨rfl, rfl⟩ := hx'
  split
  · intro p q hp hq
    split at hp <;> [cases hp; skip]
    split at hq <;> [cases hq; skip]
    rename_i e1 e2
    rw [not_ne_iff] at e1 e2
    cases hp; cases hq
    rw [if_neg (by rw [e1, e2]; simp)]
    exact ⟨_, rfl, assignWhere_sum h _ _ (fun _ => rfl)⟩
  · split
    · exact SumE.ok (assignWhere_sum h _ _ (fun _ => lineInterp_sum _ _ _ _ _ _ _))
    · exact SumE.ok (assignWhere_sum (assignWhere_sum h _ _ (fun _ => lineInterp_sum _ _ _ _ _ _ _)) _ _ (fun _ => lineInterp_sum _ _ _ _ _ _ _))

theorem npInterp_sum {p q t : List (K × K)} (h : All3 (fun a b c => a.1 = c.1 ∧ b.1 = c.1 ∧ c.2 = a.2 + b.2) p q t) (x : K) :
    SumE SumNum (npInterp p x) (npInterp q x) (npInterp t x) := by
  induction h with
  | nil => intro a b ha; cases ha
  | @cons a b c as bs cs h hs ih =>
    cases hs with
    | nil => exact SumE.ok h.2.2
    | @cons a' b' c' as bs cs h' hs =>
      obtain ⟨a1, a2⟩ := a; obtain ⟨b1, b2⟩ := b; obtain ⟨c1, c2⟩ := c
      obtain ⟨a1', a2'⟩ := a'; obtain ⟨b1', b2'⟩ := b'; obtain ⟨c1', c2'⟩ := c'
      obtain ⟨rfl, rfl, rfl⟩ := h
      obtain ⟨rfl, rfl, rfl⟩ := h'
      simp only [npInterp] at ih ⊢
      split
      · exact SumE.ok rfl
      · split
        · exact SumE.ok (by unfold SumNum; ring)
        · exact ih

theorem All3.sumRow {v w u : List K} (h : All3 SumNum v w u) : SumRow v w u := by
  induction h with
  | nil => exact ⟨rfl, rfl⟩
  | cons h _ ih => exact ⟨by simp [ih.1], by rw [h, ih.2]; rfl⟩

theorem SumE.imp {α : Type} {V W : α → α → α → Prop} {x y z : Except Err α} (h : SumE V x y z) (hvw : ∀ a b c, V a b c → W a b c) : SumE W x y z :=
  fun a b ha hb => let ⟨c, hc, hv⟩ := h a b ha hb; ⟨c, hc, hvw _ _ _ hv⟩

theorem interpRow_sum (s : List K) {v w u : List K} (h : SumRow v w u) (locs : List K) :
    SumE SumRow (interpRow s v locs) (interpRow s w locs) (interpRow s u locs) := by
  unfold interpRow
  refine SumE.bind (SumE.mapM (W := fun (a b c : K × K) => a.1 = c.1 ∧ b.1 = c.1 ∧ c.2 = a.2 + b.2) (fun p _ =>
    SumE.bind (h.idx p.2) (fun a b c hc => SumE.ok ⟨rfl, rfl, hc⟩))) (fun p q t hp => ?_)
  exact SumE.imp (SumE.mapM (fun x _ => npInterp_sum hp x)) (fun _ _ _ h => h.sumRow)

/-! ### lattices -/

section
variable {r₁ r₂ r : Ring K} (h : Superposed r₁ r₂ r)
include h

theorem Spec.Superposed.getVecAt (i : Nat) {a : String} (ha : a ∈ misalignments) (k : Nat) :
    SumE SumNum (r₁.getVecAt i a k) (r₂.getVecAt i a k) (r.getVecAt i a k) := by
  refine SumE.bind (V := SumRow) (fun v w hv hw => ?_) (fun _ _ _ hs => hs.idx k)
  rw [Ring.getVec_eq_ok] at hv hw
  have := h.sum i a ha v w hv hw
  exact ⟨plus v w, (Ring.getVec_eq_ok ..).2 this.2, this.1, rfl⟩

theorem Spec.Superposed.findspos : PySC.findspos r₁ = PySC.findspos r ∧ PySC.findspos r₂ = PySC.findspos r := by
  have aux : ∀ r' : Ring K, r'.length = r.length → (∀ i, r'.attr i "Length" = r.attr i "Length") → PySC.findspos r' = PySC.findspos r := by
    intro r' hl ha
    unfold PySC.findspos
    congr 1
    refine List.ext_getElem (by simp [lengths, hl]) (fun i h1 h2 => ?_)
    have := ha i
    simp only [lengths, List.length_map] at h1 h2
    simp only [Ring.attr, List.getElem?_eq_getElem h1, List.getElem?_eq_getElem h2, Option.bind_some] at this
    simp only [lengths, List.getElem_map, this]
  exact ⟨aux _ h.length₁ (fun i => h.same₁ i _ (by simp)), aux _ h.length₂ (fun i => h.same₂ i _ (by simp))⟩

omit h in
theorem kind_names {t : String} (ht : t ∈ supportTypes) : t ++ "Offset" ∈ misalignments ∧ t ++ "Roll" ∈ misalignments := by
  revert t; decide

theorem applySupportType_sum (o : Ords) (s : List K) (C : K) (dim : Nat) {t : String} (ht : t ∈ supportTypes) {v w u : List K} (hv : SumRow v w u) :
    SumE SumRow (applySupportType r₁ o s C dim t v) (applySupportType r₂ o s C dim t w) (applySupportType r o s C dim t u) := by
  unfold applySupportType
  refine SumE.bind (SumE.mapM (W := fun (a b c : (Nat × Nat) × K × K) => a.1 = c.1 ∧ b.1 = c.1 ∧ SumNum a.2.1 b.2.1 c.2.1 ∧ SumNum a.2.2 b.2.2 c.2.2) (fun p _ =>
    SumE.bind (hv.idx p.1) (fun a b c h1 => SumE.bind (h.getVecAt p.1 (kind_names ht).1 dim) (fun a' b' c' h2 =>
      SumE.bind (hv.idx p.2) (fun a'' b'' c'' h3 => SumE.bind (h.getVecAt p.2 (kind_names ht).1 dim) (fun a''' b''' c''' h4 =>
        SumE.ok ⟨rfl, rfl, ?_, ?_⟩)))))) (fun e e' e'' he => SumE.foldlM he (fun x y z a b c hx ha => ?_) hv)
  · unfold SumNum at *; rw [h1, h2]; ring
  · unfold SumNum at *; rw [h3, h4]; ring
  · obtain ⟨h1, h2, h3, h4⟩ := hx
    rw [h1, h2]
    exact sInterpolation1_sum s C ha _ _ h3 h4

theorem offsetRow_sum (o : Ords) (dim : Nat) : SumE SumRow (offsetRow r₁ o dim) (offsetRow r₂ o dim) (offsetRow r o dim) := by
  unfold offsetRow
  rw [h.findspos.1, h.findspos.2]
  refine SumE.foldlM (All3.same _) (fun x y z a b c hx ha => ?_) (SumRow.zeros _)
  obtain ⟨⟨rfl, rfl⟩, hm⟩ := hx
  exact applySupportType_sum h o _ _ dim hm ha

theorem addRoll_sum {t : String} (ht : t ∈ supportTypes) {v w u : List K} (hv : SumRow v w u) (p : Nat × Nat) :
    SumE SumRow (addRoll r₁ t v p) (addRoll r₂ t w p) (addRoll r t u p) := by
  refine SumE.bind (h.getVecAt _ (kind_names ht).2 0) (fun x y z hz => SumE.ok (hv.mapIdx (fun i a b => ?_)))
  unfold SumNum at hz
  split
  · rw [hz]; ring
  · rfl

omit h in
theorem setTilt_sum (s : List K) (C : K) {v w u v' w' u' : List K} (ho : SumRow v w u) (hr : SumRow v' w' u') (p : Nat × Nat) :
    SumE SumRow (setTilt s C v v' p) (setTilt s C w w' p) (setTilt s C u u' p) := by
  refine SumE.bind (ho.idx _) (fun a b c h1 => SumE.bind (ho.idx _) (fun a' b' c' h2 => SumE.bind (SumE.refl _) (fun l l' l'' hl => ?_)))
  obtain ⟨rfl, rfl⟩ := hl
  refine SumE.bind (V := SumNum) (fun x y hx hy => ?_) (fun x y z hz => SumE.ok (hr.mapIdx (fun i a b => ?_)))
  · rw [divE_eq_ok] at hx hy
    refine ⟨x + y, (divE_eq_ok ..).2 ⟨hx.1, ?_⟩, rfl⟩
    unfold SumNum at h1 h2
    rw [hx.2, hy.2, h1, h2]; ring
  · split
    · exact hz
    · rfl

theorem rollRows_sum (o : Ords) {x x' x'' y y' y'' : List K} (hx : SumRow x x' x'') (hy : SumRow y y' y'') :
    SumE (All3 SumRow) (rollRows r₁ o x y) (rollRows r₂ o x' y') (rollRows r o x'' y'') := by
  unfold rollRows
  rw [h.findspos.1, h.findspos.2]
  dsimp only
  have hz := SumRow.zeros (K := K) (findspos r).length
  refine SumE.bind (SumE.foldlM (All3.same _) (fun x y z a b c hx ha => ?_) hz) (fun _ _ _ h1 =>
    SumE.bind (SumE.foldlM (All3.same _) (fun x y z a b c hx ha => ?_) hz) (fun _ _ _ h2 =>
      SumE.bind (SumE.foldlM (All3.same _) (fun x y z a b c hx ha => ?_) hz) (fun _ _ _ h3 => SumE.ok (.cons h1 (.cons h2 (.cons h3 .nil))))))
  · obtain ⟨⟨rfl, rfl⟩, hm⟩ := hx
    exact addRoll_sum h (typedPairs_type hm).1 ha _
  · obtain ⟨⟨rfl, rfl⟩, hm⟩ := hx
    exact setTilt_sum _ _ hy ha _
  · obtain ⟨⟨rfl, rfl⟩, hm⟩ := hx
    exact setTilt_sum _ _ (by assumption) ha _

/-- the two arrays of the third are the sums -/
def Sum2 (a b c : List (List K) × List (List K)) : Prop := All3 SumRow a.1 b.1 c.1 ∧ All3 SumRow a.2 b.2 c.2

theorem supportOffsetAndRoll_sum (o : Ords) (locs : List K) :
    SumE Sum2 (supportOffsetAndRoll r₁ o locs) (supportOffsetAndRoll r₂ o locs) (supportOffsetAndRoll r o locs) := by
  unfold supportOffsetAndRoll
  refine SumE.bind (offsetRow_sum h o 0) (fun x x' x'' hx => SumE.bind (offsetRow_sum h o 1) (fun y y' y'' hy =>
    SumE.bind (offsetRow_sum h o 2) (fun z z' z'' hz => SumE.bind (rollRows_sum h o hx hy) (fun q q' q'' hq => ?_))))
  rw [h.findspos.1, h.findspos.2]
  have hxyz : All3 SumRow [x, y, z] [x', y', z'] [x'', y'', z''] := .cons hx (.cons hy (.cons hz .nil))
  split
  · exact SumE.bind (SumE.mapM3 hxyz (fun _ _ _ h => interpRow_sum _ h _)) (fun _ _ _ h1 =>
      SumE.bind (SumE.mapM3 hq (fun _ _ _ h => interpRow_sum _ h _)) (fun _ _ _ h2 => SumE.ok ⟨h1, h2⟩))
  · exact SumE.ok ⟨hxyz, hq⟩

theorem supportAt_sum (o : Ords) (l : List Nat) : SumE Sum2 (supportAt r₁ o l) (supportAt r₂ o l) (supportAt r o l) := by
  unfold supportAt positions
  rw [h.findspos.1, h.findspos.2]
  refine SumE.bind (SumE.refl _) (fun a b c hc => ?_)
  obtain ⟨rfl, rfl⟩ := hc
  exact supportOffsetAndRoll_sum h o _
end

theorem All3.plusRows {a b c : List (List K)} (h : All3 SumRow a b c) : c = Spec.plusRows a b := by
  induction h with
  | nil => rfl
  | cons h _ ih => rw [h.2, ih]; rfl

/-! ### assignments of `update_supports` -/

/-- three lists of assignments to the same attributes; the offsets and rolls assigned by the third are the sums -/
def Par : Writes K → Writes K → Writes K → Prop := All3 (fun p q t => p.1 = t.1 ∧ q.1 = t.1 ∧ p.2.1 = t.2.1 ∧ q.2.1 = t.2.1 ∧
  (t.2.1 ∈ ["SupportOffset", "SupportRoll"] → SumOf (some p.2.2) (some q.2.2) (some t.2.2)))

theorem All3.append {α : Type} {V : α → α → α → Prop} {a b c a' b' c' : List α} (h : All3 V a b c) (h' : All3 V a' b' c') :
    All3 V (a ++ a') (b ++ b') (c ++ c') := by
  induction h with
  | nil => exact h'
  | cons h _ ih => exact .cons h ih

/-- if all three computations succeed the results are in the relation -/
def TriE {α : Type} (V : α → α → α → Prop) (x y z : Except Err α) : Prop := ∀ a b c, x = .ok a → y = .ok b → z = .ok c → V a b c

theorem SumE.tri {α : Type} {V : α → α → α → Prop} {x y z : Except Err α} (h : SumE V x y z) : TriE V x y z := by
  intro a b c ha hb hc
  obtain ⟨d, hd, hv⟩ := h a b ha hb
  rw [hc] at hd
  cases hd
  exact hv

theorem TriE.bind {α β : Type} {V : α → α → α → Prop} {W : β → β → β → Prop} {x y z : Except Err α} {f g k : α → Except Err β}
    (h : TriE V x y z) (h' : ∀ a b c, V a b c → TriE W (f a) (g b) (k c)) : TriE W (x >>= f) (y >>= g) (z >>= k) := by
  intro p q t hp hq ht
  rw [Except.bind_eq_ok'] at hp hq ht
  obtain ⟨a, ha, hp⟩ := hp
  obtain ⟨b, hb, hq⟩ := hq
  obtain ⟨c, hc, ht⟩ := ht
  exact h' a b c (h a b c ha hb hc) p q t hp hq ht

theorem TriE.any {α : Type} (x y z : Except Err α) : TriE (fun _ _ _ => True) x y z := fun _ _ _ _ _ _ => trivial

theorem TriE.ok {α : Type} {V : α → α → α → Prop} {a b c : α} (h : V a b c) : TriE V (.ok a) (.ok b) (.ok c) := (SumE.ok h).tri

theorem TriE.loop {α : Type} {r₁ r₂ r : Ring K} {f g k : α → Ring K → Except Err (Writes K)} (l : List α)
    (h : ∀ x, TriE Par (f x r₁) (g x r₂) (k x r)) : TriE Par (loopWrites f l r₁) (loopWrites g l r₂) (loopWrites k l r) := by
  induction l with
  | nil => exact TriE.ok .nil
  | cons x l ih => exact TriE.bind (h x) (fun _ _ _ h1 => TriE.bind ih (fun _ _ _ h2 => TriE.ok (h1.append h2)))

theorem column_sum {a b c : List (List K)} (h : All3 SumRow a b c) (i : Nat) : SumE SumRow (column a i) (column b i) (column c i) := by
  unfold column
  induction h with
  | nil => exact SumE.ok ⟨rfl, rfl⟩
  | cons h1 _ ih =>
    rw [List.mapM_cons, List.mapM_cons, List.mapM_cons]
    exact SumE.bind (h1.idx i) (fun _ _ _ h2 => SumE.bind ih (fun _ _ _ h3 => SumE.ok ⟨by simp [h3.1], by rw [h2, h3.2]; rfl⟩))

theorem All3.take {α : Type} {V : α → α → α → Prop} {a b c : List α} (h : All3 V a b c) (n : Nat) : All3 V (a.take n) (b.take n) (c.take n) := by
  induction h generalizing n with
  | nil => simp only [List.take_nil]; exact .nil
  | cons h _ ih => cases n with
    | zero => exact .nil
    | succ n => exact .cons h (ih n)

theorem SumRow.sumOf {v w u : List K} (h : SumRow v w u) : SumOf (some (.vec v)) (some (.vec w)) (some (.vec u)) :=
  .inl ⟨v, w, rfl, rfl, h.1, by rw [h.2]⟩

section
variable {r₁ r₂ r : Ring K} (h : Superposed r₁ r₂ r)
include h

theorem masterChildren_same (i : Nat) : masterChildren r₁ i = masterChildren r i ∧ masterChildren r₂ i = masterChildren r i := by
  unfold masterChildren
  rw [Ring.hasA_congr h.length₁ (h.same₁ i "MasterOf" (by simp)), Ring.getA_congr h.length₁ (h.same₁ i "MasterOf" (by simp)),
    Ring.hasA_congr h.length₂ (h.same₂ i "MasterOf" (by simp)), Ring.getA_congr h.length₂ (h.same₂ i "MasterOf" (by simp))]
  exact ⟨rfl, rfl⟩

theorem magnetSupportWrites_sum (E : Env K) {a b c a' b' c' : List (List K)} (ho : All3 SumRow a b c) (hr : All3 SumRow a' b' c') (p : Nat × Nat) :
    TriE Par (magnetSupportWrites E a a' p r₁) (magnetSupportWrites E b b' p r₂) (magnetSupportWrites E c c' p r) := by
  unfold magnetSupportWrites
  refine TriE.bind (column_sum ho _).tri (fun v w u h1 => TriE.bind (TriE.any _ _ _) (fun _ _ _ _ => TriE.bind (column_sum hr _).tri
    (fun v' w' u' h2 => TriE.bind (TriE.any _ _ _) (fun t t' t'' _ => ?_))))
  rw [(masterChildren_same h _).1, (masterChildren_same h _).2]
  refine TriE.bind (SumE.refl _).tri (fun l l' l'' hl => ?_)
  obtain ⟨rfl, rfl⟩ := hl
  refine TriE.bind (TriE.loop _ (fun x => ?_)) (fun W W' W'' hW => TriE.ok ?_)
  · refine TriE.bind (TriE.any _ _ _) (fun _ _ _ _ => TriE.ok ?_)
    refine .cons ⟨rfl, rfl, rfl, rfl, by simp⟩ (.cons ⟨rfl, rfl, rfl, rfl, by simp⟩ (.cons ⟨rfl, rfl, rfl, rfl, by simp⟩
      (.cons ⟨rfl, rfl, rfl, rfl, by simp⟩ .nil)))
  · refine All3.append (.cons ⟨rfl, rfl, rfl, rfl, fun _ => h1.sumOf⟩ (.cons ⟨rfl, rfl, rfl, rfl, fun _ => h2.sumOf⟩
      (.cons ⟨rfl, rfl, rfl, rfl, by simp⟩ (.cons ⟨rfl, rfl, rfl, rfl, by simp⟩ (.cons ⟨rfl, rfl, rfl, rfl, by simp⟩
        (.cons ⟨rfl, rfl, rfl, rfl, by simp⟩ .nil)))))) hW

omit h in
theorem bpmSupportWrites_sum {a b c a' b' c' : List (List K)} (ho : All3 SumRow a b c) (hr : All3 SumRow a' b' c') (p : Nat × Nat) :
    TriE Par (bpmSupportWrites a a' p r₁) (bpmSupportWrites b b' p r₂) (bpmSupportWrites c c' p r) := by
  unfold bpmSupportWrites
  refine TriE.bind (column_sum (ho.take 2) _).tri (fun v w u h1 => TriE.bind (TriE.any _ _ _) (fun _ _ _ _ => TriE.bind (V := SumRow) ?_
    (fun x y z h2 => TriE.bind (h2.idx _).tri (fun _ _ _ h3 => TriE.ok ?_))))
  · intro x y z hx hy hz
    rw [idx_eq_ok] at hx hy hz
    cases hr with
    | nil => cases hx
    | cons h1 _ => simp at hx hy hz; subst hx hy hz; exact h1
  · exact .cons ⟨rfl, rfl, rfl, rfl, fun _ => h1.sumOf⟩ (.cons ⟨rfl, rfl, rfl, rfl, fun _ => .inr ⟨_, _, rfl, rfl, by rw [h3]⟩⟩ .nil)

theorem allSupportWrites_sum (E : Env K) (o : Ords) (b m : Bool) :
    TriE Par (allSupportWrites E o b m r₁) (allSupportWrites E o b m r₂) (allSupportWrites E o b m r) := by
  unfold allSupportWrites magnetsSupportWrites bpmsSupportWrites
  refine TriE.bind (V := Par) ?_ (fun _ _ _ h1 => TriE.bind (V := Par) ?_ (fun _ _ _ h2 => TriE.ok (h1.append h2)))
  · split
    · exact TriE.bind (supportAt_sum h o _).tri (fun x y z hx => TriE.loop _ (fun p => magnetSupportWrites_sum h E hx.1 hx.2 p))
    · exact TriE.ok .nil
  · split
    · exact TriE.bind (supportAt_sum h o _).tri (fun x y z hx => TriE.loop _ (fun p => bpmSupportWrites_sum hx.1 hx.2 p))
    · exact TriE.ok .nil
end

/-- what is assigned last -/
theorem Par.last {W W' W'' : Writes K} (h : Par W W' W'') {j : Nat} {b : String} (hb : b ∈ ["SupportOffset", "SupportRoll"]) :
    (lastWrite W j b = none ∧ lastWrite W' j b = none ∧ lastWrite W'' j b = none) ∨
      SumOf (lastWrite W j b) (lastWrite W' j b) (lastWrite W'' j b) := by
  have key : ∀ x y z : Option (Attr K), ((x = none ∧ y = none ∧ z = none) ∨ SumOf x y z) →
      ((W.foldl (fun acc p => if j = p.1 ∧ b = p.2.1 then some p.2.2 else acc) x = none ∧
        W'.foldl (fun acc p => if j = p.1 ∧ b = p.2.1 then some p.2.2 else acc) y = none ∧
        W''.foldl (fun acc p => if j = p.1 ∧ b = p.2.1 then some p.2.2 else acc) z = none) ∨
      SumOf (W.foldl (fun acc p => if j = p.1 ∧ b = p.2.1 then some p.2.2 else acc) x)
        (W'.foldl (fun acc p => if j = p.1 ∧ b = p.2.1 then some p.2.2 else acc) y)
        (W''.foldl (fun acc p => if j = p.1 ∧ b = p.2.1 then some p.2.2 else acc) z)) := by
    induction h with
    | nil => exact fun x y z hx => hx
    | @cons p q t _ _ _ h _ ih =>
      intro x y z hx
      rw [List.foldl_cons, List.foldl_cons, List.foldl_cons]
      refine ih _ _ _ ?_
      obtain ⟨h1, h2, h3, h4, h5⟩ := h
      rw [h1, h2, h3, h4]
      split
      · rename_i hh
        exact .inr (h5 (hh.2 ▸ hb))
      · exact hx
  exact key none none none (.inl ⟨rfl, rfl, rfl⟩)

theorem loopWrites_sub {α : Type} {g : α → Ring K → Except Err (Writes K)} {r : Ring K} {l : List α} {W : Writes K} (h : loopWrites g l r = .ok W)
    {x : α} (hx : x ∈ l) : ∃ W', g x r = .ok W' ∧ ∀ p ∈ W', p ∈ W := by
  induction l generalizing W with
  | nil => cases hx
  | cons y l ih =>
    simp only [loopWrites, Except.bind_eq_ok', Except.ok.injEq] at h
    obtain ⟨W1, h1, W2, h2, rfl⟩ := h
    rcases List.mem_cons.1 hx with rfl | hx
    · exact ⟨W1, h1, fun p hp => List.mem_append_left _ hp⟩
    · obtain ⟨W', h', hs⟩ := ih h2 hx
      exact ⟨W', h', fun p hp => List.mem_append_right _ (hs p hp)⟩

theorem lastWrite_some_of_mem {W : Writes K} {j : Nat} {b : String} {v : Attr K} (h : (j, b, v) ∈ W) : ∃ v, lastWrite W j b = some v := by
  induction W using List.reverseRecOn with
  | nil => cases h
  | append_singleton W p ih =>
    rw [lastWrite_append_single]
    split
    · exact ⟨_, rfl⟩
    · rename_i hn
      rcases List.mem_append.1 h with h | h
      · exact ih h
      · simp only [List.mem_singleton] at h
        subst h
        exact absurd ⟨rfl, rfl⟩ hn

theorem mem_zipIdx_of_mem {l : List Nat} {i : Nat} (h : i ∈ l) : ∃ k, (i, k) ∈ l.zipIdx := by
  obtain ⟨k, hk, rfl⟩ := List.mem_iff_getElem.1 h
  exact ⟨k, by rw [List.mk_mem_zipIdx_iff_getElem?]; exact List.getElem?_eq_getElem hk⟩

theorem allSupportWrites_has {E : Env K} {o : Ords} {b m : Bool} {r : Ring K} {W : Writes K} (h : allSupportWrites E o b m r = .ok W) {i : Nat}
    (hi : (m = true ∧ i ∈ o.Magnet) ∨ (b = true ∧ i ∈ o.BPM)) {a : String} (ha : a ∈ ["SupportOffset", "SupportRoll"]) :
    i < r.length ∧ ∃ v, lastWrite W i a = some v := by
  simp only [allSupportWrites, Except.bind_eq_ok', Except.ok.injEq] at h
  obtain ⟨W1, h1, W2, h2, rfl⟩ := h
  have hne : ∀ {l : List Nat}, i ∈ l → l.isEmpty = false := by
    intro l hl; cases l <;> simp at hl ⊢
  rcases hi with ⟨rfl, hi⟩ | ⟨rfl, hi⟩
  · rw [magnetsSupportWrites, if_pos (by simp [hne hi]), Except.bind_eq_ok'] at h1
    obtain ⟨or, -, h1⟩ := h1
    obtain ⟨k, hk⟩ := mem_zipIdx_of_mem hi
    obtain ⟨W', h', hs⟩ := loopWrites_sub h1 hk
    simp only [magnetSupportWrites, Except.bind_eq_ok', Except.ok.injEq] at h'
    obtain ⟨v, -, u, hv, w, -, t, -, c, -, W3, -, rfl⟩ := h'
    refine ⟨Ring.valid_eq_ok.1 hv, ?_⟩
    simp only [List.mem_cons, List.not_mem_nil, or_false] at ha
    rcases ha with rfl | rfl
    · exact lastWrite_some_of_mem (v := .vec v) (List.mem_append_left _ (hs _ (by simp)))
    · exact lastWrite_some_of_mem (v := .vec w) (List.mem_append_left _ (hs _ (by simp)))
  · rw [bpmsSupportWrites, if_pos (by simp [hne hi]), Except.bind_eq_ok'] at h2
    obtain ⟨or, -, h2⟩ := h2
    obtain ⟨k, hk⟩ := mem_zipIdx_of_mem hi
    obtain ⟨W', h', hs⟩ := loopWrites_sub h2 hk
    simp only [bpmSupportWrites, Except.bind_eq_ok', Except.ok.injEq] at h'
    obtain ⟨v, -, u, hv, w, -, x, -, rfl⟩ := h'
    refine ⟨Ring.valid_eq_ok.1 hv, ?_⟩
    simp only [List.mem_cons, List.not_mem_nil, or_false] at ha
    rcases ha with rfl | rfl
    · exact lastWrite_some_of_mem (v := .vec v) (List.mem_append_right _ (hs _ (by simp)))
    · exact lastWrite_some_of_mem (v := .num x) (List.mem_append_right _ (hs _ (by simp)))

theorem updateSupports_sum {E : Env K} {b m : Bool} {s₁ s₂ s t₁ t₂ t : SC K} (h : Superposed s₁.RING s₂.RING s.RING) (ho1 : s₁.ORD = s.ORD)
    (ho2 : s₂.ORD = s.ORD) (h1 : updateSupports E b m s₁ = .ok () t₁) (h2 : updateSupports E b m s₂ = .ok () t₂)
    (h3 : updateSupports E b m s = .ok () t) {i : Nat} (hi : (m = true ∧ i ∈ s.ORD.Magnet) ∨ (b = true ∧ i ∈ s.ORD.BPM)) {a : String}
    (ha : a ∈ ["SupportOffset", "SupportRoll"]) : SumOf (t₁.RING.attr i a) (t₂.RING.attr i a) (t.RING.attr i a) := by
  obtain ⟨W1, hW1, rfl⟩ := (updateSupports_writes ..).1 h1
  obtain ⟨W2, hW2, rfl⟩ := (updateSupports_writes ..).1 h2
  obtain ⟨W, hW, rfl⟩ := (updateSupports_writes ..).1 h3
  rw [ho1] at hW1
  rw [ho2] at hW2
  have hp := allSupportWrites_sum h E s.ORD b m _ _ _ hW1 hW2 hW
  obtain ⟨hlt, v, hv⟩ : i < s.RING.length ∧ ∃ v, lastWrite W i a = some v := allSupportWrites_has hW hi ha
  simp only [SC.write, Ring.attr_write, h.length₁, h.length₂, hlt, if_true]
  rcases hp.last (j := i) ha with ⟨-, -, hn⟩ | hs
  · rw [hn] at hv; cases hv
  · revert hs
    rcases lastWrite W1 i a <;> rcases lastWrite W2 i a <;> rcases lastWrite W i a <;> simp [SumOf]

end PySC
