import Verif.Lemmas.Pieces
import Verif.Lemmas.Draws
import Verif.Lemmas.BbaEval
/-
Registering supports in pieces (C101).
-/
namespace PySC
set_option linter.unusedSectionVars false
variable {K : Type} [Field K] [LinearOrder K]
open Py Spec

theorem sorted_ext {α : Type _} {r : α → α → Prop} (hirr : ∀ a, ¬ r a a) (htr : ∀ a b c, r a b → r b c → r a c) {l m : List α}
    (hl : l.Pairwise r) (hm : m.Pairwise r) (h : ∀ i, i ∈ l ↔ i ∈ m) : l = m := by
  induction l generalizing m with
  | nil =>
    cases m with
    | nil => rfl
    | cons y ys => exact absurd ((h y).2 (by simp)) (by simp)
  | cons x xs ih =>
    cases m with
    | nil => exact absurd ((h x).1 (by simp)) (by simp)
    | cons y ys =>
      have hx := List.pairwise_cons.1 hl
      have hy := List.pairwise_cons.1 hm
      have hxy : x = y := by
        rcases List.mem_cons.1 ((h x).1 (by simp)) with h1 | h1
        · exact h1
        · rcases List.mem_cons.1 ((h y).2 (by simp)) with h2 | h2
          · exact h2.symm
          · exact absurd (htr _ _ _ (hx.1 y h2) (hy.1 x h1)) (hirr _)
      subst hxy
      congr 1
      refine ih hx.2 hy.2 (fun i => ?_)
      have hi := h i
      simp only [List.mem_cons] at hi
      constructor
      · intro h1
        rcases hi.1 (Or.inr h1) with h2 | h2
        · exact absurd (h2 ▸ hx.1 i h1) (hirr _)
        · exact h2
      · intro h1
        rcases hi.2 (Or.inr h1) with h2 | h2
        · exact absurd (h2 ▸ hy.1 i h1) (hirr _)
        · exact h2

theorem sortedPairs_ext {l m : List (Nat × Nat)} (hl : SortedPairs l) (hm : SortedPairs m) (h : ∀ p, p ∈ l ↔ p ∈ m) : l = m :=
  sorted_ext (r := PairLt) (fun a h => by unfold PairLt at h; omega) (fun a b c h k => by unfold PairLt at h k ⊢; omega) hl hm h

/-! ### storing uncertainties -/

/-- what is stored for one support and one uncertainty -/
def storeOps (t : String) (pr : Nat × Nat) (kv : String × Attr K) : Except Err (List (Nat × String × Attr K)) :=
  match kv.2 with
  | .pair (.vec v) c => .ok [(pr.1, t ++ kv.1, .pair (.vec v) c)]
  | .pair (.mat m) c => do
    let v0 ← idx m 0
    let v1 ← idx m 1
    .ok [(pr.1, t ++ kv.1, .pair (.vec v0) c), (pr.2, t ++ kv.1, .pair (.vec v1) c)]
  | .vec v => .ok [(pr.1, t ++ kv.1, .vec v)]
  | .mat m => do
    let v0 ← idx m 0
    let v1 ← idx m 1
    .ok [(pr.1, t ++ kv.1, .vec v0), (pr.2, t ++ kv.1, .vec v1)]
  | _ => .error .attributeError

def putOp (d : Dict Nat (Kwargs K)) (op : Nat × String × Attr K) : Dict Nat (Kwargs K) :=
  d.set op.1 (((d.get? op.1).getD []).set op.2.1 op.2.2)

def putOps (ops : List (Nat × String × Attr K)) (d : Dict Nat (Kwargs K)) : Dict Nat (Kwargs K) := ops.foldl putOp d

theorem putOps_append (a b : List (Nat × String × Attr K)) (d : Dict Nat (Kwargs K)) : putOps (a ++ b) d = putOps b (putOps a d) :=
  List.foldl_append ..

theorem store_ok (t : String) (pr : Nat × Nat) (kv : String × Attr K) (s s' : SC K) : storeSupportSig t pr kv s = .ok () s' ↔
    ∃ o, storeOps t pr kv = .ok o ∧ s' = { s with SIG := { s.SIG with Support := putOps o s.SIG.Support } } := by
  have hset : ∀ i n (v : Attr K) (s : SC K), setSupportSig i n v s =
      .ok () { s with SIG := { s.SIG with Support := putOps [(i, n, v)] s.SIG.Support } } := fun _ _ _ _ => rfl
  have one : ∀ i n (v : Attr K), setSupportSig i n v s = .ok () s' ↔
      ∃ o, (Except.ok [(i, n, v)] : Except Err _) = .ok o ∧ s' = { s with SIG := { s.SIG with Support := putOps o s.SIG.Support } } := by
    intro i n v
    rw [hset]
    constructor
    · intro h; cases h; exact ⟨_, rfl, rfl⟩
    · rintro ⟨o, ho, rfl⟩; cases ho; rfl
  have two : ∀ (m : List (List K)) (n : String) (f : List K → Attr K),
      (do let v0 ← lift (idx m 0); setSupportSig pr.1 n (f v0); let v1 ← lift (idx m 1); setSupportSig pr.2 n (f v1) : Py (SC K) Unit) s = .ok () s' ↔
      ∃ o, (do let v0 ← idx m 0; let v1 ← idx m 1; .ok [(pr.1, n, f v0), (pr.2, n, f v1)] : Except Err (List (Nat × String × Attr K))) = .ok o ∧
        s' = { s with SIG := { s.SIG with Support := putOps o s.SIG.Support } } := by
    intro m n f
    rw [bindLift_eq_ok]
    simp only [Except.bind_eq_ok']
    constructor
    · rintro ⟨v0, h0, h⟩
      rw [bind_eq_ok] at h
      obtain ⟨⟨⟩, s1, h1, h⟩ := h
      rw [hset] at h1
      cases h1
      rw [bindLift_eq_ok] at h
      obtain ⟨v1, h1, h⟩ := h
      rw [hset] at h
      cases h
      exact ⟨_, ⟨v0, h0, v1, h1, rfl⟩, rfl⟩
    · rintro ⟨o, ⟨v0, h0, v1, h1, ho⟩, rfl⟩
      cases ho
      refine ⟨v0, h0, ?_⟩
      rw [bind_eq_ok]
      refine ⟨(), _, hset _ _ _ _, ?_⟩
      rw [bindLift_eq_ok]
      exact ⟨v1, h1, hset _ _ _ _⟩
  have bad : (Py.throw .attributeError : Py (SC K) Unit) s = .ok () s' ↔ ∃ o, (.error .attributeError : Except Err (List (Nat × String × Attr K))) = .ok o ∧
      s' = { s with SIG := { s.SIG with Support := putOps o s.SIG.Support } } := by
    constructor
    · intro h; cases h
    · rintro ⟨o, ho, -⟩; cases ho
  obtain ⟨n, v⟩ := kv
  cases v with
  | vec v => exact one _ _ _
  | mat m => exact two m _ (fun v => .vec v)
  | pair p c =>
    cases p with
    | vec v => exact one _ _ _
    | mat m => exact two m _ (fun v => .pair (.vec v) c)
    | _ => exact bad
  | _ => exact bad

/-- the pairs of supports and uncertainties -/
def storeList (pairs : List (Nat × Nat)) (kw : Kwargs K) : List ((Nat × Nat) × (String × Attr K)) :=
  pairs.flatMap (fun pr => kw.map (fun kv => (pr, kv)))

theorem stores_ok (t : String) (l : List ((Nat × Nat) × (String × Attr K))) (s s' : SC K) :
    forEach l (fun p => storeSupportSig t p.1 p.2) s = .ok () s' ↔
    ∃ o, l.mapM (fun p => storeOps t p.1 p.2) = .ok o ∧ s' = { s with SIG := { s.SIG with Support := putOps o.flatten s.SIG.Support } } := by
  induction l generalizing s with
  | nil =>
    constructor
    · intro h; cases h; exact ⟨[], rfl, rfl⟩
    · rintro ⟨o, ho, rfl⟩; cases ho; rfl
  | cons p l ih =>
    rw [forEach_cons, bind_eq_ok, List.mapM_cons]
    constructor
    · rintro ⟨⟨⟩, s1, h1, h2⟩
      obtain ⟨o, ho, rfl⟩ := (store_ok _ _ _ _ _).1 h1
      obtain ⟨os, hos, rfl⟩ := (ih _).1 h2
      refine ⟨o :: os, ?_, ?_⟩
      · rw [Except.bind_eq_ok']
        refine ⟨o, ho, ?_⟩
        rw [Except.bind_eq_ok']
        exact ⟨os, hos, rfl⟩
      · simp only [List.flatten_cons, putOps_append]
    · rintro ⟨_, h, rfl⟩
      rw [Except.bind_eq_ok'] at h
      obtain ⟨o, ho, h⟩ := h
      rw [Except.bind_eq_ok'] at h
      obtain ⟨os, hos, h⟩ := h
      cases h
      refine ⟨(), _, (store_ok _ _ _ _ _).2 ⟨o, ho, rfl⟩, (ih _).2 ⟨os, hos, ?_⟩⟩
      simp only [List.flatten_cons, putOps_append]

theorem putOps_get (ops : List (Nat × String × Attr K)) (d : Dict Nat (Kwargs K)) (j : Nat) :
    (putOps ops d).get? j = (ops.filter (fun op => decide (op.1 = j))).foldl (fun o op => some (Dict.set (o.getD []) op.2.1 op.2.2)) (d.get? j) := by
  induction ops generalizing d with
  | nil => rfl
  | cons op ops ih =>
    show (putOps ops (putOp d op)).get? j = _
    rw [ih, List.filter_cons]
    unfold putOp
    rw [Dict.get?_set]
    by_cases h : op.1 = j
    · subst h; simp
    · simp [h, Ne.symm h]

theorem storeOps_keys {t : String} {pr : Nat × Nat} {kv : String × Attr K} {o : List (Nat × String × Attr K)} (h : storeOps t pr kv = .ok o) :
    ∀ op ∈ o, op.1 = pr.1 ∨ op.1 = pr.2 := by
  unfold storeOps at h
  split at h
  · cases h; simp
  · simp only [Except.bind_eq_ok'] at h
    obtain ⟨v0, -, v1, -, h⟩ := h
    cases h; simp
  · cases h; simp
  · simp only [Except.bind_eq_ok'] at h
    obtain ⟨v0, -, v1, -, h⟩ := h
    cases h; simp
  · cases h

theorem storeList_keys {t : String} {pairs : List (Nat × Nat)} {kw : Kwargs K} {o : List (List (Nat × String × Attr K))}
    (h : (storeList pairs kw).mapM (fun p => storeOps t p.1 p.2) = .ok o) : ∀ op ∈ o.flatten, ∃ pr ∈ pairs, op.1 = pr.1 ∨ op.1 = pr.2 := by
  intro op hop
  obtain ⟨os, hos, hop⟩ := List.mem_flatten.1 hop
  obtain ⟨p, hp, hpo⟩ := mapM_except_src h hos
  obtain ⟨pr, hpr, hp⟩ := List.mem_flatMap.1 hp
  obtain ⟨kv, -, rfl⟩ := List.mem_map.1 hp
  exact ⟨pr, hpr, storeOps_keys hpo op hop⟩

/-! ### the loop over the ends -/

def supportLens : SigLens K :=
  ⟨fun g => g.Support, fun g d => { g with Support := d }, fun _ _ => rfl, fun _ _ _ => rfl, fun _ => rfl⟩

def endEntries (t : String) : List (String × Attr K) := [(t ++ "Offset", .vec (zeros 3)), (t ++ "Roll", .vec (zeros 3))]

theorem init_body (t : String) : LoopBody (K := K) supportLens (fun _ e e' => e' = setAll (endEntries t) e) (fun _ => []) (initSupport t) := by
  refine loopBody_sigLast (fun i => ?_)
  have h := acts_setAll (K := K) i (endEntries t) (by simp [endEntries])
  simp only [endEntries, forEach_cons, bind_forEach_nil] at h
  refine ⟨_, h, ?_⟩
  unfold initSupport
  simp only [py_assoc]
  rfl

theorem flatten_pair {α : Type _} (a b : List α) : [a, b].flatten = a ++ b := by simp

/-- the loops of `register_supports`, explicitly -/
theorem supportLoops_ok (a b : List Nat) (t : String) (kw : Kwargs K) (s s' : SC K) : supportLoops [a, b] t kw s = .ok () s' ↔
    ∃ s1, forEach (a ++ b) (initSupport t) s = .ok () s1 ∧ ∃ o, (storeList (a.zip b) kw).mapM (fun p => storeOps t p.1 p.2) = .ok o ∧
      s' = { s1 with SIG := { s1.SIG with Support := putOps o.flatten s1.SIG.Support } } := by
  unfold supportLoops
  rw [flatten_pair, bind_eq_ok, forEach_pairs]
  constructor
  · rintro ⟨⟨⟩, s1, h1, h2⟩
    exact ⟨s1, h1, (stores_ok t _ s1 s').1 h2⟩
  · rintro ⟨s1, h1, h2⟩
    exact ⟨(), s1, h1, (stores_ok t _ s1 s').2 h2⟩

theorem init_loop {t : String} {l : List Nat} {s s' : SC K} (h : forEach l (initSupport t) s = .ok () s') :
    LoopDone supportLens (fun _ e e' => e' = setAll (endEntries t) e) (fun _ => []) l s s' :=
  (init_body t).loop (fun _ => rfl) (fun _ => functional_eq _) (fun _ _ _ h =>
    (settling_setAll (l := endEntries t) (by simp [endEntries])).again h) h

theorem init_loop_total {t : String} {l : List Nat} {s : SC K} (h : ∀ i ∈ l, i < s.RING.length) :
    ∃ s', forEach l (initSupport t) s = .ok () s' :=
  (init_body t).loop_total (fun _ => rfl) (fun _ => functional_eq _) (fun _ _ _ h =>
    (settling_setAll (l := endEntries t) (by simp [endEntries])).again h)
    (fun i hi => ⟨s.RING[i]'(h i hi), _, List.getElem?_eq_getElem (h i hi), rfl⟩)

/-- what the loops leave behind -/
structure SupportsDone (t : String) (l : List Nat) (ops : List (Nat × String × Attr K)) (s s' : SC K) : Prop where
  ends : ∀ i ∈ l, i < s.RING.length
  ring : ∀ j, s'.RING[j]? = if j ∈ l then (s.RING[j]?).map (setAll (endEntries t)) else s.RING[j]?
  support : ∀ j, s'.SIG.Support.get? j = (ops.filter (fun op => decide (op.1 = j))).foldl (fun o op => some (Dict.set (o.getD []) op.2.1 op.2.2))
    (if j ∈ l then some [] else s.SIG.Support.get? j)
  rest : s' = { s with RING := s'.RING, SIG := { s.SIG with Support := s'.SIG.Support } }

theorem supportLoops_done {a b : List Nat} {t : String} {kw : Kwargs K} {s s' : SC K} (h : supportLoops [a, b] t kw s = .ok () s') :
    ∃ o, (storeList (a.zip b) kw).mapM (fun p => storeOps t p.1 p.2) = .ok o ∧ SupportsDone t (a ++ b) o.flatten s s' := by
  obtain ⟨s1, h1, o, ho, rfl⟩ := (supportLoops_ok _ _ _ _ _ _).1 h
  obtain ⟨r, d, rfl, hl, hoff, hon, hd⟩ := init_loop h1
  refine ⟨o, ho, fun i hi => ?_, fun j => ?_, fun j => ?_, rfl⟩
  · obtain ⟨e, -, he, -⟩ := hon i hi
    exact (List.getElem?_eq_some_iff.1 he).1
  · dsimp only
    split
    · rename_i hj
      obtain ⟨e, e', he, rfl, he'⟩ := hon j hj
      rw [he', he]; rfl
    · rename_i hj; exact hoff j hj
  · dsimp only
    rw [putOps_get]
    congr 1
    exact hd j

theorem supportLoops_total {a b : List Nat} {t : String} {kw : Kwargs K} {s : SC K} (h : ∀ i ∈ a ++ b, i < s.RING.length)
    {o : List (List (Nat × String × Attr K))} (ho : (storeList (a.zip b) kw).mapM (fun p => storeOps t p.1 p.2) = .ok o) :
    ∃ s', supportLoops [a, b] t kw s = .ok () s' := by
  obtain ⟨s1, h1⟩ := init_loop_total (t := t) h
  exact ⟨_, (supportLoops_ok _ _ _ _ _ _).2 ⟨s1, h1, o, ho, rfl⟩⟩

theorem registerSupports_runs {a b : List Nat} {t : String} {kw : Kwargs K} {s : SC K} {new : List (Nat × Nat)} (ht : t ∈ supportTypes)
    (hk : checkKwargs kw supportErrorFields = .ok ()) (hn : updateDoubleOrdinates (s.ORD.pairs t) (a.zip b) = .ok new) :
    registerSupports [a, b] t kw s = supportLoops [a, b] t kw { s with ORD := s.ORD.setPairs t new } := by
  unfold registerSupports
  rw [if_neg (by simpa using ht), hk, bind_apply, lift_ok_apply]
  simp only
  rw [if_neg (by simp), bind_apply, get_apply]
  simp only
  have hn' : updateDoubleOrdinates (s.ORD.pairs t) (([a, b].getD 0 []).zip ([a, b].getD 1 [])) = .ok new := hn
  rw [hn']
  rfl

theorem registerSupports_ok' {a b : List Nat} {t : String} {kw : Kwargs K} {s s' : SC K} (h : registerSupports [a, b] t kw s = .ok () s') :
    t ∈ supportTypes ∧ checkKwargs kw supportErrorFields = .ok () ∧ ∃ new, updateDoubleOrdinates (s.ORD.pairs t) (a.zip b) = .ok new ∧
      supportLoops [a, b] t kw { s with ORD := s.ORD.setPairs t new } = .ok () s' := by
  rcases registerSupports_shape [a, b] t kw s with ⟨e, he⟩ | ⟨ht, hk, -, new, hn, he⟩
  · rw [he] at h; cases h
  · exact ⟨ht, checkKwargs_eq_ok.2 hk, new, hn, he ▸ h⟩

theorem pairs_setPairs {t : String} (ht : t ∈ supportTypes) (o : Ords) (v : List (Nat × Nat)) : (o.setPairs t v).pairs t = v := by
  simp only [supportTypes, List.mem_cons, List.not_mem_nil, or_false] at ht
  rcases ht with rfl | rfl | rfl <;> simp [Ords.pairs, Ords.setPairs]

theorem setPairs_setPairs (t : String) (o : Ords) (v w : List (Nat × Nat)) : (o.setPairs t v).setPairs t w = o.setPairs t w := by
  unfold Ords.setPairs
  split
  · rfl
  · split <;> rfl

theorem udo_total {o p : List (Nat × Nat)} (h : o ++ p ≠ []) : ∃ l, updateDoubleOrdinates o p = .ok l := by
  unfold updateDoubleOrdinates
  rw [if_neg h]
  exact ⟨_, rfl⟩

theorem udo_pieces {o p q l l1 l2 : List (Nat × Nat)} (h : updateDoubleOrdinates o (p ++ q) = .ok l) (h1 : updateDoubleOrdinates o p = .ok l1)
    (h2 : updateDoubleOrdinates l1 q = .ok l2) : l = l2 := by
  obtain ⟨a1, a2⟩ := updateDoubleOrdinates_eq_ok h
  obtain ⟨b1, b2⟩ := updateDoubleOrdinates_eq_ok h1
  obtain ⟨c1, c2⟩ := updateDoubleOrdinates_eq_ok h2
  refine sortedPairs_ext a1 c1 (fun x => ?_)
  rw [a2, c2, b2, List.mem_append]; tauto

theorem mapM_append_ok {α β : Type _} {f : α → Except Err β} {l m : List α} {w : List β} : (l ++ m).mapM f = .ok w ↔
    ∃ u v, l.mapM f = .ok u ∧ m.mapM f = .ok v ∧ w = u ++ v := by
  rw [List.mapM_append]
  simp only [Except.bind_eq_ok']
  constructor
  · rintro ⟨u, hu, v, hv, h⟩; cases h; exact ⟨u, v, hu, hv, rfl⟩
  · rintro ⟨u, v, hu, hv, rfl⟩; exact ⟨u, hu, v, hv, rfl⟩

theorem storeList_append (p q : List (Nat × Nat)) (kw : Kwargs K) : storeList (p ++ q) kw = storeList p kw ++ storeList q kw := by
  simp [storeList]

theorem supports_pieces {a₁ a₂ b₁ b₂ : List Nat} {t : String} {kw : Kwargs K} {s : SC K} (ha : a₁.length = a₂.length)
    (hne : a₁ ≠ []) (hd : ∀ i ∈ a₁ ++ a₂, i ∉ b₁ ++ b₂) :
    SameSupportResult (registerSupports [a₁ ++ b₁, a₂ ++ b₂] t kw s)
      ((registerSupports [a₁, a₂] t kw >>= fun _ => registerSupports [b₁, b₂] t kw) s) := by
  have hzip : (a₁ ++ b₁).zip (a₂ ++ b₂) = a₁.zip a₂ ++ b₁.zip b₂ := List.zip_append ha
  have hza : a₁.zip a₂ ≠ [] := by
    cases a₁ with
    | nil => exact absurd rfl hne
    | cons x a₁ =>
      cases a₂ with
      | nil => simp at ha
      | cons y a₂ => simp
  have hkeysA : ∀ {o : List (List (Nat × String × Attr K))}, (storeList (a₁.zip a₂) kw).mapM (fun p => storeOps t p.1 p.2) = .ok o →
      ∀ j, j ∉ a₁ ++ a₂ → o.flatten.filter (fun op => decide (op.1 = j)) = [] := by
    intro o ho j hj
    rw [List.filter_eq_nil_iff]
    intro op hop
    obtain ⟨pr, hpr, h⟩ := storeList_keys ho op hop
    have h1 := (List.of_mem_zip hpr).1
    have h2 := (List.of_mem_zip hpr).2
    simp only [decide_eq_true_eq]
    rintro rfl
    exact hj (List.mem_append.2 (by rcases h with h | h <;> rw [h] <;> [exact Or.inl h1; exact Or.inr h2]))
  have hkeysB : ∀ {o : List (List (Nat × String × Attr K))}, (storeList (b₁.zip b₂) kw).mapM (fun p => storeOps t p.1 p.2) = .ok o →
      ∀ j, j ∉ b₁ ++ b₂ → o.flatten.filter (fun op => decide (op.1 = j)) = [] := by
    intro o ho j hj
    rw [List.filter_eq_nil_iff]
    intro op hop
    obtain ⟨pr, hpr, h⟩ := storeList_keys ho op hop
    have h1 := (List.of_mem_zip hpr).1
    have h2 := (List.of_mem_zip hpr).2
    simp only [decide_eq_true_eq]
    rintro rfl
    exact hj (List.mem_append.2 (by rcases h with h | h <;> rw [h] <;> [exact Or.inl h1; exact Or.inr h2]))
  have hmem : ∀ j, j ∈ (a₁ ++ b₁) ++ (a₂ ++ b₂) ↔ j ∈ a₁ ++ a₂ ∨ j ∈ b₁ ++ b₂ := by
    intro j; simp only [List.mem_append]; tauto
  -- the results of successful calls agree
  have agree : ∀ t0 t1 t2, registerSupports [a₁ ++ b₁, a₂ ++ b₂] t kw s = .ok () t0 → registerSupports [a₁, a₂] t kw s = .ok () t1 →
      registerSupports [b₁, b₂] t kw t1 = .ok () t2 → AlikeSupports t0 t2 := by
    intro t0 t1 t2 h0 h1 h2
    obtain ⟨ht, -, n0, hn0, h0⟩ := registerSupports_ok' h0
    obtain ⟨-, -, n1, hn1, h1⟩ := registerSupports_ok' h1
    obtain ⟨-, -, n2, hn2, h2⟩ := registerSupports_ok' h2
    obtain ⟨o0, ho0, d0⟩ := supportLoops_done h0
    obtain ⟨o1, ho1, d1⟩ := supportLoops_done h1
    obtain ⟨o2, ho2, d2⟩ := supportLoops_done h2
    rw [hzip, storeList_append] at ho0
    obtain ⟨u, v, hu, hv, rfl⟩ := mapM_append_ok.1 ho0
    cases hu.symm.trans ho1
    cases hv.symm.trans ho2
    have ho1 : t1.ORD = s.ORD.setPairs t n1 := by rw [d1.rest]
    have hord : s.ORD.setPairs t n0 = t1.ORD.setPairs t n2 := by
      rw [ho1, setPairs_setPairs]
      rw [ho1, pairs_setPairs ht] at hn2
      rw [hzip] at hn0
      rw [udo_pieces hn0 hn1 hn2]
    have hring : t0.RING = t2.RING := by
      apply List.ext_getElem?
      intro j
      rw [d0.ring, d2.ring, d1.ring]
      simp only [hmem]
      by_cases hA : j ∈ a₁ ++ a₂
      · simp only [if_pos hA, if_neg (hd j hA), if_pos (Or.inl hA : j ∈ a₁ ++ a₂ ∨ _)]
      · by_cases hB : j ∈ b₁ ++ b₂
        · simp only [if_pos hB, if_neg hA, if_pos (Or.inr hB : _ ∨ j ∈ b₁ ++ b₂)]
        · simp only [hA, hB, if_false, or_false]
    have hsup : ∀ j, t0.SIG.Support.get? j = t2.SIG.Support.get? j := by
      intro j
      rw [d0.support, d2.support, d1.support, List.flatten_append, List.filter_append]
      simp only [hmem]
      by_cases hA : j ∈ a₁ ++ a₂
      · have hB := hd j hA
        rw [hkeysB hv j hB, List.append_nil]
        simp only [if_pos hA, if_neg hB, if_pos (Or.inl hA : j ∈ a₁ ++ a₂ ∨ _)]
        rfl
      · rw [hkeysA hu j hA, List.nil_append]
        by_cases hB : j ∈ b₁ ++ b₂
        · simp only [if_pos hB, if_pos (Or.inr hB : _ ∨ j ∈ b₁ ++ b₂)]
        · simp only [hA, hB, if_false, or_false]
          rfl
    refine ⟨?_, hsup⟩
    have r0 := d0.rest
    have r1 := d1.rest
    have r2 := d2.rest
    have e : ∀ {β : Type} (f : SC K → β) (hf : ∀ (x : SC K) r d o, f { x with RING := r, SIG := { x.SIG with Support := d }, ORD := o } = f x),
        f t0 = f t2 := by
      intro β f hf
      have g0 : f t0 = f s := (congrArg f r0).trans (hf s t0.RING t0.SIG.Support (s.ORD.setPairs t n0))
      have g1 : f t1 = f s := (congrArg f r1).trans (hf s t1.RING t1.SIG.Support (s.ORD.setPairs t n1))
      have g2 : f t2 = f t1 := (congrArg f r2).trans (hf t1 t2.RING t2.SIG.Support (t1.ORD.setPairs t n2))
      rw [g0, g2, g1]
    exact ⟨hring, e SC.IDEALRING (fun _ _ _ _ => rfl), e SC.INJ (fun _ _ _ _ => rfl),
      (congrArg SC.ORD r0).trans (hord.trans (congrArg SC.ORD r2).symm), e SC.rng (fun _ _ _ _ => rfl),
      fun i => e (fun x => x.SIG.BPM.get? i) (fun _ _ _ _ => rfl), fun i => e (fun x => x.SIG.RF.get? i) (fun _ _ _ _ => rfl),
      fun i => e (fun x => x.SIG.Magnet.get? i) (fun _ _ _ _ => rfl), rfl, e (fun x => x.SIG.randomInjectionZ) (fun _ _ _ _ => rfl),
      e (fun x => x.SIG.staticInjectionZ) (fun _ _ _ _ => rfl), e (fun x => x.SIG.Circumference) (fun _ _ _ _ => rfl)⟩
  -- both succeed or both fail
  have both : (∃ t0, registerSupports [a₁ ++ b₁, a₂ ++ b₂] t kw s = .ok () t0) ↔
      ∃ t2, (registerSupports [a₁, a₂] t kw >>= fun _ => registerSupports [b₁, b₂] t kw) s = .ok () t2 := by
    constructor
    · rintro ⟨t0, h0⟩
      obtain ⟨ht, hk, n0, hn0, h0⟩ := registerSupports_ok' h0
      obtain ⟨o0, ho0, d0⟩ := supportLoops_done h0
      rw [hzip, storeList_append] at ho0
      obtain ⟨u, v, hu, hv, rfl⟩ := mapM_append_ok.1 ho0
      obtain ⟨n1, hn1⟩ := udo_total (o := s.ORD.pairs t) (p := a₁.zip a₂) (by simp [hza])
      obtain ⟨t1, h1⟩ := supportLoops_total (s := { s with ORD := s.ORD.setPairs t n1 }) (fun i hi => d0.ends i ((hmem i).2 (Or.inl hi))) hu
      obtain ⟨_, -, d1⟩ := supportLoops_done h1
      have ho1 : t1.ORD = s.ORD.setPairs t n1 := congrArg SC.ORD d1.rest
      have hl : ∀ i, i < s.RING.length → i < t1.RING.length := by
        intro i hi
        have := d1.ring i
        dsimp only at this
        rw [List.getElem?_eq_getElem hi] at this
        by_contra hc
        rw [List.getElem?_eq_none (Nat.not_lt.1 hc)] at this
        split at this <;> cases this
      obtain ⟨n2, hn2⟩ := udo_total (o := t1.ORD.pairs t) (p := b₁.zip b₂) (by
        rw [ho1, pairs_setPairs ht]
        intro hnil
        obtain ⟨x, hx⟩ := List.exists_mem_of_ne_nil _ hza
        have := ((updateDoubleOrdinates_eq_ok hn1).2 x).2 (Or.inr hx)
        rw [(List.append_eq_nil_iff.1 hnil).1] at this
        simp at this)
      obtain ⟨t2, h2⟩ := supportLoops_total (s := { t1 with ORD := t1.ORD.setPairs t n2 })
        (fun i hi => hl i (d0.ends i ((hmem i).2 (Or.inr hi)))) hv
      refine ⟨t2, bind_eq_ok.2 ⟨(), t1, ?_, ?_⟩⟩
      · rw [registerSupports_runs ht hk hn1, h1]
      · rw [registerSupports_runs ht hk hn2, h2]
    · rintro ⟨t2, h⟩
      obtain ⟨⟨⟩, t1, h1, h2⟩ := bind_eq_ok.1 h
      obtain ⟨ht, hk, n1, hn1, h1⟩ := registerSupports_ok' h1
      obtain ⟨-, -, n2, hn2, h2⟩ := registerSupports_ok' h2
      obtain ⟨o1, ho1, d1⟩ := supportLoops_done h1
      obtain ⟨o2, ho2, d2⟩ := supportLoops_done h2
      obtain ⟨n0, hn0⟩ := udo_total (o := s.ORD.pairs t) (p := a₁.zip a₂ ++ b₁.zip b₂) (by simp [hza])
      have hl : ∀ i, i < t1.RING.length → i < s.RING.length := by
        intro i hi
        have := d1.ring i
        dsimp only at this
        rw [List.getElem?_eq_getElem hi] at this
        by_contra hc
        rw [List.getElem?_eq_none (Nat.not_lt.1 hc)] at this
        split at this <;> cases this
      have hop : (storeList ((a₁ ++ b₁).zip (a₂ ++ b₂)) kw).mapM (fun p => storeOps t p.1 p.2) = .ok (o1 ++ o2) := by
        rw [hzip, storeList_append]
        exact mapM_append_ok.2 ⟨o1, o2, ho1, ho2, rfl⟩
      obtain ⟨t0, h0⟩ := supportLoops_total (s := { s with ORD := s.ORD.setPairs t n0 }) (fun i hi => by
        rcases (hmem i).1 hi with h | h
        · exact d1.ends i h
        · exact hl i (d2.ends i h)) hop
      exact ⟨t0, by rw [registerSupports_runs ht hk (by rw [hzip]; exact hn0), h0]⟩
  cases h0 : registerSupports [a₁ ++ b₁, a₂ ++ b₂] t kw s with
  | ok x t0 =>
    obtain ⟨t2, h2⟩ := both.1 ⟨t0, h0⟩
    rw [h2]
    obtain ⟨⟨⟩, t1, h1, h2⟩ := bind_eq_ok.1 h2
    exact agree t0 t1 t2 h0 h1 h2
  | error e t0 =>
    cases h2 : (registerSupports [a₁, a₂] t kw >>= fun _ => registerSupports [b₁, b₂] t kw) s with
    | error e t2 => exact trivial
    | ok x t2 =>
      obtain ⟨t0', h⟩ := both.2 ⟨t2, h2⟩
      rw [h0] at h; cases h

end PySC
