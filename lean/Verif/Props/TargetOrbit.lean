import Verif.Spec.TargetOrbit
import Verif.Props.BpmOffsets
import Verif.Lemmas.Orbit
import Verif.Props.Convergence
/-
C129: a target orbit takes the place of offsets of the BPMs in the orbit correction.
-/
namespace PySC
set_option linter.unusedSectionVars false
variable {K : Type} [Field K] [LinearOrder K] [FloorRing K]
open Py Spec

theorem Sync.both {α β : Type} {R : SC K → SC K → Prop} {V : α → β → Prop} {m : Py (SC K) α} {m' : Py (SC K) β} (h : Sync R V m m') {s t s' t' : SC K}
    {a : α} {b : β} (hst : R s t) (h1 : m s = .ok a s') (h2 : m' t = .ok b t') : V a b ∧ R s' t' := by
  rcases h s t hst with ⟨a1, b1, s1, t1, e1, e2, hv, hr⟩ | ⟨e, s1, t1, e1, e2, hr⟩
  · rw [e1] at h1; rw [e2] at h2
    cases h1; cases h2
    exact ⟨hv, hr⟩
  · rw [e1] at h1; cases h1

theorem all_some {α : Type} {m : List (Option α)} (h : m.any (fun v => v.isNone) = false) : m = (m.filterMap id).map some := by
  induction m with
  | nil => rfl
  | cons x l ih =>
    cases x with
    | none => simp at h
    | some x =>
      simp only [List.any_cons, Option.isNone_some, Bool.false_or] at h
      simpa using ih h

section
variable {d : Nat → Nat → K} {bp : List Nat} {nt : Nat} {E : Env K} {B : BeamEnv K} {L : List K}

theorem sub_somes (w ref : List K) : List.zipWith nanSub (w.map some) (ref.map some) = (List.zipWith (· - ·) w ref).map some := by
  rw [List.zipWith_map, List.map_zipWith]
  rfl

theorem differences_less {m m' : List (Option K)} {ref ref' : List K} (h : VecLess L m m') (g : VecLess L (ref.map some) (ref'.map some))
    (hn : m.any (fun v => v.isNone) = false) :
    List.zipWith (· - ·) (m'.filterMap id) ref' = List.zipWith (· - ·) (m.filterMap id) ref := by
  have hn' : m'.any (fun v => v.isNone) = false := by rw [← hn]; exact h.none
  have := h.zip g nanSub_less
  rw [all_some hn, all_some hn', sub_somes, sub_somes] at this
  exact List.map_injective_iff.2 (Option.some_injective _) this

theorem Spec.TargetLess.vec {l : List Nat} {ref ref' : List K} (h : TargetLess l nt d ref ref') : VecLess (allLess d l nt) (ref.map some) (ref'.map some) := by
  have e : ∀ r : List K, r.map some = (r.take (nt * l.length)).map some ++ (r.drop (nt * l.length)).map some := fun r => by
    rw [← List.map_append, List.take_append_drop]
  have hlt : ∀ b i, l[b]? = some i → ∀ t < nt, t * l.length + b < nt * l.length := fun b i hb t ht => by
    have := (List.getElem?_eq_some_iff.1 hb).1
    calc t * l.length + b < t * l.length + l.length := by omega
      _ = (t + 1) * l.length := by ring
      _ ≤ nt * l.length := Nat.mul_le_mul_right _ ht
  rw [e ref, e ref']
  refine (vecLess_plane (c := fun i => d i 0) (by simp [h.sizes.1]) (by simp [h.sizes.2]) (fun b i hb t ht => ?_)).append
    (vecLess_plane (c := fun i => d i 1) (by simp [h.sizes.1]) (by simp [h.sizes.2]) (fun b i hb t ht => ?_))
  · obtain ⟨v, h1, h2⟩ := h.x b i hb t ht
    refine ⟨some v, ?_, ?_⟩
    · rw [List.getElem?_map, List.getElem?_take_of_lt (hlt b i hb t ht), h1]; rfl
    · rw [List.getElem?_map, List.getElem?_take_of_lt (hlt b i hb t ht), h2]; rfl
  · obtain ⟨v, h1, h2⟩ := h.y b i hb t ht
    refine ⟨some v, ?_, ?_⟩
    · rw [List.getElem?_map, List.getElem?_drop, h1]; rfl
    · rw [List.getElem?_map, List.getElem?_drop, h2]; rfl

/-- readings which differ by constants, made on machines which differ in the offsets of the BPMs -/
structure LogLess (d : Nat → Nat → K) (bp : List Nat) (nt : Nat) (L : List K) (l l' : Log K) : Prop where
  before : Displaced d bp nt l.before l'.before
  after : Displaced d bp nt l.after l'.after
  sizes : l.x.length = l'.x.length ∧ l.y.length = l'.y.length
  x : l.x.map Option.isSome = l'.x.map Option.isSome
  vec : VecLess L (l.x ++ l.y) (l'.x ++ l'.y)

/-- both planes of such readings -/
structure PlanesLess (d : Nat → Nat → K) (l : List Nat) (nt : Nat) (a b : Log K) : Prop where
  x : VecLess (flatten2 l.length nt (fun b _ => d (l.getD b 0) 0)) a.x b.x
  y : VecLess (flatten2 l.length nt (fun b _ => d (l.getD b 0) 1)) a.y b.y

theorem disp_inject (hB : IgnoresRecords B) (bpms : List Nat) :
    Sync (Displaced d bp nt) (LogLess d bp nt (allLess d (readBpms bp (some bpms)) nt)) (inject E B bpms) (inject E B bpms) := by
  unfold inject
  refine Sync.bind Sync.get (fun u v huv => Sync.bind (disp_reading hB _ _) (fun r r' h => Sync.bind Sync.get (fun u' v' huv' => Sync.pure ?_)))
  have hx := vecLess_plane (c := fun i => d i 0) h.sizes.1 h.sizes.2.2.1 h.x
  exact ⟨huv, huv', ⟨h.sizes.1.trans h.sizes.2.2.1.symm, h.sizes.2.1.trans h.sizes.2.2.2.symm⟩, hx.some.symm,
    hx.append (vecLess_plane (c := fun i => d i 1) h.sizes.2.1 h.sizes.2.2.2 h.y)⟩

theorem LogLess.planes {l : List Nat} {a b : Log K} (h : LogLess d bp nt (allLess d l nt) a b) (hx : a.x.length = nt * l.length) :
    PlanesLess d l nt a b := by
  have hl := h.vec.1
  simp only [allLess, List.length_append, flatten2_length] at hl
  refine ⟨⟨by rw [hx, flatten2_length], by rw [← h.sizes.1, hx, flatten2_length], fun k x hk => ?_⟩,
    ⟨by rw [flatten2_length]; omega, by rw [← h.sizes.2, flatten2_length]; omega, fun k x hk => ?_⟩⟩
  · have hlt := (List.getElem?_eq_some_iff.1 hk).1
    have hlt' := hlt
    rw [flatten2_length, ← hx] at hlt'
    obtain ⟨v, h1, h2⟩ := h.vec.2.2 k x (by rw [allLess, List.getElem?_append_left hlt]; exact hk)
    rw [List.getElem?_append_left hlt'] at h1
    rw [List.getElem?_append_left (by rw [← h.sizes.1]; exact hlt')] at h2
    exact ⟨v, h1, h2⟩
  · obtain ⟨v, h1, h2⟩ := h.vec.2.2 (a.x.length + k) x (by
      rw [allLess, List.getElem?_append_right (by rw [flatten2_length]; omega), flatten2_length, hx, Nat.add_sub_cancel_left]
      exact hk)
    rw [List.getElem?_append_right (by omega), Nat.add_sub_cancel_left] at h1
    rw [List.getElem?_append_right (by rw [← h.sizes.1]; omega), ← h.sizes.1, Nat.add_sub_cancel_left] at h2
    exact ⟨v, h1, h2⟩

theorem disp_stepAll (cms : CMs) (dphi : List K) : Sync (Displaced d bp nt) Eq (stepAll cms dphi) (stepAll cms dphi) :=
  Sync.seq (disp_setCM _ _ _ _) (fun _ => disp_setCM _ _ _ _)

theorem disp_correctStep (cms : CMs) (sd : K) (dphi : List K) : Sync (Displaced d bp nt) Eq (correctStep cms sd dphi) (correctStep cms sd dphi) := by
  unfold correctStep
  refine Sync.ite (Sync.bind Sync.get (fun u v huv => ?_)) (disp_stepAll _ _)
  rw [huv.ords]
  exact Sync.seq (disp_setCavity _ _ _ _) (fun _ => disp_stepAll _ _)

/-- the correction found from the readings is the same -/
theorem LogLess.kicks {l l' : Log K} (h : LogLess d bp nt L l l') {ref ref' : List K} (g : VecLess L (ref.map some) (ref'.map some)) (mplus : List (List K)) :
    (do let m ← measured l' ref'; let m ← noNan m; Except.ok (kicksFor mplus m ref')) =
      (do let m ← measured l ref; let m ← noNan m; Except.ok (kicksFor mplus m ref) : Except Err (List K)) := by
  have hl : ref.length = ref'.length := by simpa using g.1.trans g.2.1.symm
  unfold measured
  rw [← h.sizes.1, ← h.sizes.2, ← hl]
  by_cases c : l.x.length + l.y.length ≠ ref.length
  · rw [if_pos c, if_pos c]; rfl
  · rw [if_neg c, if_neg c]
    show (noNan _).bind _ = (noNan _).bind _
    unfold noNan
    have e : (l'.x ++ l'.y).any (fun v => v.isNone) = (l.x ++ l.y).any (fun v => v.isNone) := h.vec.none
    rw [e]
    by_cases c2 : (l.x ++ l.y).any (fun v => v.isNone) = true
    · rw [if_pos c2, if_pos c2]; rfl
    · rw [if_neg c2, if_neg c2]
      show Except.ok (kicksFor mplus _ ref') = Except.ok (kicksFor mplus _ ref)
      unfold kicksFor
      rw [differences_less h.vec g (by simpa only [Bool.not_eq_true] using c2)]

/-! ### Two turns -/

theorem VecLess.take {r r' : List (Option K)} (h : VecLess L r r') (n : Nat) : VecLess (L.take n) (r.take n) (r'.take n) := by
  refine ⟨by simp [h.1], by simp [h.2.1], fun k x hk => ?_⟩
  have hlt : k < n := by have := (List.getElem?_eq_some_iff.1 hk).1; simp at this; omega
  rw [List.getElem?_take_of_lt hlt] at hk
  rw [List.getElem?_take_of_lt hlt, List.getElem?_take_of_lt hlt]
  exact h.2.2 k x hk

theorem VecLess.drop {r r' : List (Option K)} (h : VecLess L r r') (n : Nat) : VecLess (L.drop n) (r.drop n) (r'.drop n) := by
  refine ⟨by simp [h.1], by simp [h.2.1], fun k x hk => ?_⟩
  rw [List.getElem?_drop] at hk
  rw [List.getElem?_drop, List.getElem?_drop]
  exact h.2.2 _ x hk

theorem vecLess_zero (r : List (Option K)) : VecLess (List.replicate r.length (0 : K)) r r := by
  refine ⟨by simp, by simp, fun k x hk => ?_⟩
  obtain ⟨hlt, e⟩ := List.getElem?_eq_some_iff.1 hk
  rw [List.getElem_replicate] at e
  rw [List.length_replicate] at hlt
  refine ⟨r[k], List.getElem?_eq_getElem hlt, ?_⟩
  rw [List.getElem?_eq_getElem hlt, ← e]
  cases r[k] <;> simp

theorem flatten2_two (n : Nat) (c : Nat → K) : flatten2 n 2 (fun b _ => c b) = (List.range n).map c ++ (List.range n).map c := by
  unfold flatten2
  simp [List.range_succ]

theorem VecLess.turnDiff {c : Nat → K} {n m : Nat} {r r' : List (Option K)} (h : VecLess (flatten2 n 2 (fun b _ => c b)) r r') (hm : m ≤ n) :
    PySC.turnDiff n m r' = PySC.turnDiff n m r := by
  unfold PySC.turnDiff
  congr 1
  have h1 := (h.drop n).take m
  have h2 := h.take m
  have e : ((flatten2 n 2 (fun b _ => c b)).drop n).take m = (flatten2 n 2 (fun b _ => c b)).take m := by
    rw [flatten2_two, List.drop_left' (by simp), List.take_append_of_le_length (by simpa using hm)]
  rw [e] at h1
  exact h1.zip h2 nanSub_less

/-- by how much first turns differ, followed by differences of turns, which are equal -/
def turnLess (d : Nat → Nat → K) (l : List Nat) : List K :=
  (List.range l.length).map (fun b => d (l.getD b 0) 0) ++ List.replicate l.length 0 ++
    ((List.range l.length).map (fun b => d (l.getD b 0) 1) ++ List.replicate l.length 0)

theorem turnDiff_length {n : Nat} {r : List (Option K)} (hr : r.length = 2 * n) : (turnDiff n n r).length = n := by
  unfold turnDiff
  simp
  omega

theorem plane_two {c : Nat → K} {n : Nat} {r r' : List (Option K)} (h : VecLess (flatten2 n 2 (fun b _ => c b)) r r') :
    VecLess ((List.range n).map c ++ List.replicate n 0) (r.take n ++ turnDiff n n r) (r'.take n ++ turnDiff n n r') := by
  have h1 := h.take n
  rw [flatten2_two, List.take_append_of_le_length (by simp), List.take_of_length_le (by simp)] at h1
  refine h1.append ?_
  rw [h.turnDiff le_rfl]
  have := vecLess_zero (turnDiff n n r)
  rw [turnDiff_length (by rw [h.1, flatten2_length])] at this
  exact this

theorem Spec.TargetLess.zeroed {l : List Nat} {ref ref' : List K} (h : TargetLess l 2 d ref ref') :
    VecLess (turnLess d l) ((secondTurnZero ref l.length).map some) ((secondTurnZero ref' l.length).map some) := by
  have hv := h.vec
  have e1 : ref.length / 2 = 2 * l.length := by rw [h.sizes.1]; omega
  have e2 : ref'.length / 2 = 2 * l.length := by rw [h.sizes.2]; omega
  unfold secondTurnZero
  rw [e1, e2]
  simp only [List.map_append, List.map_take, List.map_drop, List.map_replicate]
  have z : VecLess (List.replicate l.length (0 : K)) (List.replicate (2 * l.length - l.length) (some 0)) (List.replicate (2 * l.length - l.length) (some 0)) := by
    rw [show 2 * l.length - l.length = l.length by omega]
    simpa using vecLess_zero (List.replicate l.length (some (0 : K)))
  have p1 := (hv.take (2 * l.length)).take l.length
  have p2 := (hv.drop (2 * l.length)).take l.length
  unfold allLess at p1 p2
  have f : ∀ c : Nat → K, (flatten2 l.length 2 (fun b _ => c b)).length = 2 * l.length := fun c => flatten2_length _ _ _
  rw [List.take_left' (f (fun b => d (l.getD b 0) 0)), flatten2_two _ (fun b => d (l.getD b 0) 0), List.take_left' (by simp)] at p1
  rw [List.drop_left' (f (fun b => d (l.getD b 0) 0)), flatten2_two _ (fun b => d (l.getD b 0) 1), List.take_left' (by simp)] at p2
  exact (p1.append z).append (p2.append z)

/-- one round of `correct` -/
def correctRound (E : Env K) (B : BeamEnv K) (bpms : List Nat) (cms : CMs) (mplus : List (List K)) (ref : List K) (sd : K) (l : Log K) : Py (SC K) (Log K) := do
  let k ← lift (do let m ← measured l ref; let m ← noNan m; Except.ok (kicksFor mplus m ref))
  correctStep cms sd k
  inject E B bpms

theorem disp_correctRound (hB : IgnoresRecords B) {bpms : List Nat} {ref ref' : List K} (cms : CMs) (mplus : List (List K))
    (g : VecLess (allLess d (readBpms bp (some bpms)) nt) (ref.map some) (ref'.map some)) (sd : K) {l l' : Log K}
    (h : LogLess d bp nt (allLess d (readBpms bp (some bpms)) nt) l l') :
    Sync (Displaced d bp nt) (LogLess d bp nt (allLess d (readBpms bp (some bpms)) nt)) (correctRound E B bpms cms mplus ref sd l)
      (correctRound E B bpms cms mplus ref' sd l') := by
  unfold correctRound
  rw [h.kicks g mplus]
  exact Sync.seq (Sync.lift _) (fun _ => Sync.seq (disp_correctStep _ _ _) (fun _ => disp_inject hB _))

theorem correctLoop_round (bpms : List Nat) (cms : CMs) (mplus : List (List K)) (ref : List K) (eps target sd : K) (ms n : Nat) (hist : List (Log K)) (l : Log K)
    (s : SC K) : correctLoop E B bpms cms mplus ref eps target sd ms (n + 1) hist l s = (correctRound E B bpms cms mplus ref sd l >>= fun l' =>
      if l'.x.any (fun v => v.isNone) then throw .runtimeError
      else if below target (l'.rms B) && isStable B (min NREPRO ms) eps ((hist ++ [l']).map (Log.rms B)) then Py.pure (hist ++ [l'])
      else if isStable B NREPRO eps ((hist ++ [l']).map (Log.rms B)) then Py.pure (hist ++ [l'])
      else correctLoop E B bpms cms mplus ref eps target sd ms n (hist ++ [l']) l') s := by
  unfold correctRound
  rw [correctLoop]
  simp only [bind_apply, lift]
  rcases measured l ref with e | m
  · rfl
  · have e : (do let m ← Except.ok m; let m ← noNan m; Except.ok (kicksFor mplus m ref) : Except Err (List K)) =
        (noNan m).bind (fun m => Except.ok (kicksFor mplus m ref)) := rfl
    rw [e]
    dsimp only
    rcases noNan m with e | k
    · rfl
    · simp only [Except.bind]
      cases correctStep cms sd (kicksFor mplus k ref) s <;> rfl

theorem correctLoop_prefix (bpms : List Nat) (cms : CMs) (mplus : List (List K)) (ref : List K) (eps target sd : K) (ms : Nat) :
    ∀ (n : Nat) {hist out : List (Log K)} {l : Log K} {s s' : SC K}, correctLoop E B bpms cms mplus ref eps target sd ms n hist l s = .ok out s' →
      ∃ more, out = hist ++ more
  | 0, hist, out, l, s, s', h => by
    unfold correctLoop at h
    split at h
    · cases h; exact ⟨[], by simp⟩
    · cases h
  | n + 1, hist, out, l, s, s', h => by
    rw [correctLoop_round] at h
    obtain ⟨l1, s1, h1, h2⟩ := bind_eq_ok.1 h
    split at h2
    · cases h2
    · split at h2
      · cases h2; exact ⟨[l1], rfl⟩
      · split at h2
        · cases h2; exact ⟨[l1], rfl⟩
        · obtain ⟨more, e⟩ := correctLoop_prefix bpms cms mplus ref eps target sd ms n h2
          exact ⟨l1 :: more, by rw [e]; simp⟩

/-- the readings correspond as long as there are readings in both lists -/
def SameWhile (V : Log K → Log K → Prop) (out out' : List (Log K)) : Prop := ∀ (k : Nat) (a b : Log K), out[k]? = some a → out'[k]? = some b → V a b

theorem sameWhile_of {V : Log K → Log K → Prop} {h h' : List (Log K)} (hv : List.Forall₂ V h h') (more : List (Log K)) : SameWhile V h (h' ++ more) ∧ SameWhile V (h ++ more) h' := by
  induction hv with
  | nil => exact ⟨fun k a b h => by simp at h, fun k a b _ h => by simp at h⟩
  | cons hx _ ih =>
    refine ⟨fun k a b h1 h2 => ?_, fun k a b h1 h2 => ?_⟩
    · cases k with
      | zero => simp at h1 h2; rw [← h1, ← h2]; exact hx
      | succ k => exact ih.1 k a b (by simpa using h1) (by simpa using h2)
    · cases k with
      | zero => simp at h1 h2; rw [← h1, ← h2]; exact hx
      | succ k => exact ih.2 k a b (by simpa using h1) (by simpa using h2)

theorem disp_correctLoop (hB : IgnoresRecords B) {bpms : List Nat} {ref ref' : List K} (cms : CMs) (mplus : List (List K))
    (g : VecLess (allLess d (readBpms bp (some bpms)) nt) (ref.map some) (ref'.map some)) (eps target sd : K) (ms : Nat) :
    ∀ (n : Nat) {hist hist' : List (Log K)} {l l' : Log K} {s t : SC K}, Displaced d bp nt s t →
      LogLess d bp nt (allLess d (readBpms bp (some bpms)) nt) l l' → List.Forall₂ (LogLess d bp nt (allLess d (readBpms bp (some bpms)) nt)) hist hist' →
      ∀ {out out' s' t'}, correctLoop E B bpms cms mplus ref eps target sd ms n hist l s = .ok out s' →
        correctLoop E B bpms cms mplus ref' eps target sd ms n hist' l' t = .ok out' t' →
        SameWhile (LogLess d bp nt (allLess d (readBpms bp (some bpms)) nt)) out out'
  | 0, hist, hist', l, l', s, t, hst, hl, hh, out, out', s', t', h, h' => by
    unfold correctLoop at h h'
    split at h
    · split at h'
      · cases h; cases h'
        simpa using (sameWhile_of hh []).1
      · cases h'
    · cases h
  | n + 1, hist, hist', l, l', s, t, hst, hl, hh, out, out', s', t', h, h' => by
    rw [correctLoop_round] at h h'
    obtain ⟨l1, s1, h1, h2⟩ := bind_eq_ok.1 h
    obtain ⟨l1', t1, h1', h2'⟩ := bind_eq_ok.1 h'
    obtain ⟨hl1, hst1⟩ := (disp_correctRound hB cms mplus g sd hl).both hst h1 h1'
    have hh1 : List.Forall₂ (LogLess d bp nt (allLess d (readBpms bp (some bpms)) nt)) (hist ++ [l1]) (hist' ++ [l1']) :=
      List.rel_append hh (List.Forall₂.cons hl1 List.Forall₂.nil)
    have k1 : out = hist ++ [l1] ∨ correctLoop E B bpms cms mplus ref eps target sd ms n (hist ++ [l1]) l1 s1 = .ok out s' := by
      split at h2
      · cases h2
      · split at h2
        · cases h2; exact Or.inl rfl
        · split at h2
          · cases h2; exact Or.inl rfl
          · exact Or.inr h2
    have k2 : out' = hist' ++ [l1'] ∨ correctLoop E B bpms cms mplus ref' eps target sd ms n (hist' ++ [l1']) l1' t1 = .ok out' t' := by
      split at h2'
      · cases h2'
      · split at h2'
        · cases h2'; exact Or.inl rfl
        · split at h2'
          · cases h2'; exact Or.inl rfl
          · exact Or.inr h2'
    rcases k1 with rfl | k1 <;> rcases k2 with rfl | k2
    · simpa using (sameWhile_of hh1 []).1
    · obtain ⟨more, rfl⟩ := correctLoop_prefix _ _ _ _ _ _ _ _ n k2
      exact (sameWhile_of hh1 more).1
    · obtain ⟨more, rfl⟩ := correctLoop_prefix _ _ _ _ _ _ _ _ n k1
      exact (sameWhile_of hh1 more).2
    · exact disp_correctLoop hB cms mplus g eps target sd ms n hst1 hl1 hh1 k1 k2

/-! ### Balancing two turns -/

theorem PlanesLess.twoTurns {l : List Nat} {a b : Log K} (h : PlanesLess d l 2 a b) :
    ∃ m m', PySC.twoTurns a l.length l.length = .ok m ∧ PySC.twoTurns b l.length l.length = .ok m' ∧ VecLess (turnLess d l) m m' := by
  refine ⟨_, _, if_neg ?_, if_neg ?_, (plane_two (c := fun b => d (l.getD b 0) 0) h.x).append (plane_two (c := fun b => d (l.getD b 0) 1) h.y)⟩
  · rw [h.x.1, flatten2_length]; simp
  · rw [h.x.2.1, flatten2_length]; simp

/-- the correction found from two turns is the same -/
theorem LogLess.balanceKicks {bpms : List Nat} {l l' : Log K} (h : LogLess d bp 2 (allLess d (readBpms bp (some bpms)) 2) l l') {ref ref' : List K}
    (g : TargetLess (readBpms bp (some bpms)) 2 d ref ref') (hx : l.x.length = 2 * (readBpms bp (some bpms)).length) (mplus : List (List K)) :
    (do let m ← PySC.twoTurns l' bpms.length bpms.length; let m ← noNan m; Except.ok (kicksFor mplus m (secondTurnZero ref' bpms.length))) =
      (do let m ← PySC.twoTurns l bpms.length bpms.length; let m ← noNan m; Except.ok (kicksFor mplus m (secondTurnZero ref bpms.length)) : Except Err (List K)) := by
  by_cases hb : bpms.length = (readBpms bp (some bpms)).length
  · rw [hb]
    obtain ⟨m, m', e, e', hm⟩ := (h.planes hx).twoTurns
    rw [e, e']
    show (noNan m').bind _ = (noNan m).bind _
    unfold noNan
    have e : m'.any (fun v => v.isNone) = m.any (fun v => v.isNone) := hm.none
    rw [e]
    by_cases c2 : m.any (fun v => v.isNone) = true
    · rw [if_pos c2, if_pos c2]; rfl
    · rw [if_neg c2, if_neg c2]
      show Except.ok (kicksFor mplus _ _) = Except.ok (kicksFor mplus _ _)
      unfold kicksFor
      rw [differences_less hm g.zeroed (by simpa only [Bool.not_eq_true] using c2)]
  · have e1 : PySC.twoTurns l bpms.length bpms.length = .error .valueError := if_pos (Or.inl (by rw [hx]; omega))
    have e2 : PySC.twoTurns l' bpms.length bpms.length = .error .valueError := if_pos (Or.inl (by rw [← h.sizes.1, hx]; omega))
    rw [e1, e2]
    rfl

/-- one round of `balance` -/
def balanceRound (E : Env K) (B : BeamEnv K) (bpms : List Nat) (cms : CMs) (mplus : List (List K)) (ref : List K) (l : Log K) : Py (SC K) (Log K) := do
  let k ← lift (do let m ← twoTurns l bpms.length bpms.length; let m ← noNan m; Except.ok (kicksFor mplus m ref))
  stepAll cms k
  inject E B bpms

theorem balanceLoop_round (bpms : List Nat) (cms : CMs) (mplus : List (List K)) (ref : List K) (eps : K) (n : Nat) (hist : List (Log K)) (l : Log K)
    (s : SC K) : balanceLoop E B bpms cms mplus ref eps (n + 1) hist l s = (balanceRound E B bpms cms mplus ref l >>= fun l' =>
      if l'.reached < l'.x.length then throw .runtimeError
      else if isStable B NREPRO eps ((hist ++ [l']).map (Log.rms B)) then Py.pure (hist ++ [l'])
      else balanceLoop E B bpms cms mplus ref eps n (hist ++ [l']) l') s := by
  unfold balanceRound
  rw [balanceLoop]
  simp only [bind_apply, lift]
  rcases twoTurns l bpms.length bpms.length with e | m
  · rfl
  · have e : (do let m ← Except.ok m; let m ← noNan m; Except.ok (kicksFor mplus m ref) : Except Err (List K)) =
        (noNan m).bind (fun m => Except.ok (kicksFor mplus m ref)) := rfl
    rw [e]
    dsimp only
    rcases noNan m with e | k
    · rfl
    · simp only [Except.bind]
      cases stepAll cms (kicksFor mplus k ref) s <;> rfl

theorem balanceLoop_prefix (bpms : List Nat) (cms : CMs) (mplus : List (List K)) (ref : List K) (eps : K) :
    ∀ (n : Nat) {hist out : List (Log K)} {l : Log K} {s s' : SC K}, balanceLoop E B bpms cms mplus ref eps n hist l s = .ok out s' →
      ∃ more, out = hist ++ more
  | 0, hist, out, l, s, s', h => by unfold balanceLoop at h; cases h
  | n + 1, hist, out, l, s, s', h => by
    rw [balanceLoop_round] at h
    obtain ⟨l1, s1, h1, h2⟩ := bind_eq_ok.1 h
    split at h2
    · cases h2
    · split at h2
      · cases h2; exact ⟨[l1], rfl⟩
      · obtain ⟨more, e⟩ := balanceLoop_prefix bpms cms mplus ref eps n h2
        exact ⟨l1 :: more, by rw [e]; simp⟩

/-- readings in two turns which differ by constants -/
structure TwoLess (d : Nat → Nat → K) (bp bpms : List Nat) (a b : Log K) : Prop where
  logs : LogLess d bp 2 (allLess d (readBpms bp (some bpms)) 2) a b
  size : a.x.length = 2 * (readBpms bp (some bpms)).length

theorem disp_injectTwo (hB : IgnoresRecords B) (bpms : List Nat) :
    Sync (Displaced d bp 2) (TwoLess d bp bpms) (inject E B bpms) (inject E B bpms) := by
  unfold inject
  refine Sync.bind Sync.get (fun u v huv => Sync.bind (disp_reading hB _ _) (fun r r' h => Sync.bind Sync.get (fun u' v' huv' => Sync.pure ?_)))
  have hx := vecLess_plane (c := fun i => d i 0) h.sizes.1 h.sizes.2.2.1 h.x
  exact ⟨⟨huv, huv', ⟨h.sizes.1.trans h.sizes.2.2.1.symm, h.sizes.2.1.trans h.sizes.2.2.2.symm⟩, hx.some.symm,
    hx.append (vecLess_plane (c := fun i => d i 1) h.sizes.2.1 h.sizes.2.2.2 h.y)⟩, h.sizes.1⟩

theorem disp_balanceRound (hB : IgnoresRecords B) {bpms : List Nat} {ref ref' : List K} (cms : CMs) (mplus : List (List K))
    (g : TargetLess (readBpms bp (some bpms)) 2 d ref ref') {l l' : Log K} (h : TwoLess d bp bpms l l') :
    Sync (Displaced d bp 2) (TwoLess d bp bpms) (balanceRound E B bpms cms mplus (secondTurnZero ref bpms.length) l)
      (balanceRound E B bpms cms mplus (secondTurnZero ref' bpms.length) l') := by
  unfold balanceRound
  rw [h.logs.balanceKicks g h.size mplus]
  exact Sync.seq (Sync.lift _) (fun _ => Sync.seq (disp_stepAll _ _) (fun _ => disp_injectTwo hB _))

theorem disp_balanceLoop (hB : IgnoresRecords B) {bpms : List Nat} {ref ref' : List K} (cms : CMs) (mplus : List (List K))
    (g : TargetLess (readBpms bp (some bpms)) 2 d ref ref') (eps : K) :
    ∀ (n : Nat) {hist hist' : List (Log K)} {l l' : Log K} {s t : SC K}, Displaced d bp 2 s t →
      TwoLess d bp bpms l l' → List.Forall₂ (TwoLess d bp bpms) hist hist' →
      ∀ {out out' s' t'}, balanceLoop E B bpms cms mplus (secondTurnZero ref bpms.length) eps n hist l s = .ok out s' →
        balanceLoop E B bpms cms mplus (secondTurnZero ref' bpms.length) eps n hist' l' t = .ok out' t' →
        SameWhile (TwoLess d bp bpms) out out'
  | 0, hist, hist', l, l', s, t, hst, hl, hh, out, out', s', t', h, h' => by unfold balanceLoop at h; cases h
  | n + 1, hist, hist', l, l', s, t, hst, hl, hh, out, out', s', t', h, h' => by
    rw [balanceLoop_round] at h h'
    obtain ⟨l1, s1, h1, h2⟩ := bind_eq_ok.1 h
    obtain ⟨l1', t1, h1', h2'⟩ := bind_eq_ok.1 h'
    obtain ⟨hl1, hst1⟩ := (disp_balanceRound hB cms mplus g hl).both hst h1 h1'
    have hh1 : List.Forall₂ (TwoLess d bp bpms) (hist ++ [l1]) (hist' ++ [l1']) := List.rel_append hh (List.Forall₂.cons hl1 List.Forall₂.nil)
    have k1 : out = hist ++ [l1] ∨ balanceLoop E B bpms cms mplus (secondTurnZero ref bpms.length) eps n (hist ++ [l1]) l1 s1 = .ok out s' := by
      split at h2
      · cases h2
      · split at h2
        · cases h2; exact Or.inl rfl
        · exact Or.inr h2
    have k2 : out' = hist' ++ [l1'] ∨ balanceLoop E B bpms cms mplus (secondTurnZero ref' bpms.length) eps n (hist' ++ [l1']) l1' t1 = .ok out' t' := by
      split at h2'
      · cases h2'
      · split at h2'
        · cases h2'; exact Or.inl rfl
        · exact Or.inr h2'
    rcases k1 with rfl | k1 <;> rcases k2 with rfl | k2
    · simpa using (sameWhile_of hh1 []).1
    · obtain ⟨more, rfl⟩ := balanceLoop_prefix _ _ _ _ _ n k2
      exact (sameWhile_of hh1 more).1
    · obtain ⟨more, rfl⟩ := balanceLoop_prefix _ _ _ _ _ n k1
      exact (sameWhile_of hh1 more).2
    · exact disp_balanceLoop hB cms mplus g eps n hst1 hl1 hh1 k1 k2

theorem disp_correctOnce (hB : IgnoresRecords B) {bpms : List Nat} {ref ref' : List K} (cms : CMs) (mplus : List (List K))
    (g : VecLess (allLess d (readBpms bp (some bpms)) nt) (ref.map some) (ref'.map some)) (eps target sd : K) {l l' : Log K}
    (hl : LogLess d bp nt (allLess d (readBpms bp (some bpms)) nt) l l') :
    Sync (Displaced d bp nt) (fun _ _ => True) (correctLoop E B bpms cms mplus ref eps target sd 1 1 [l] l)
      (correctLoop E B bpms cms mplus ref' eps target sd 1 1 [l'] l') := by
  have e : ∀ ref l, correctLoop E B bpms cms mplus ref eps target sd 1 1 [l] l = (correctRound E B bpms cms mplus ref sd l >>= fun l' =>
      if l'.x.any (fun v => v.isNone) then throw .runtimeError else Py.pure [l, l']) := fun ref l => by
    funext s
    rw [correctLoop_round, bind_apply, bind_apply]
    cases correctRound E B bpms cms mplus ref sd l s with
    | error e s' => rfl
    | ok l' s' =>
      dsimp only
      split
      · rfl
      · split
        · rfl
        · split
          · rfl
          · unfold correctLoop
            rw [if_pos (by simp)]
            rfl
  rw [e, e]
  refine Sync.bind (disp_correctRound hB cms mplus g sd hl) (fun a b hab => ?_)
  have : b.x.any (fun v => v.isNone) = a.x.any (fun v => v.isNone) := by
    have e : ∀ v : List (Option K), v.any Option.isNone = (v.map Option.isSome).any not := fun v => by
      rw [List.any_map]
      congr 1
      funext o
      cases o <;> rfl
    exact (e b.x).trans ((congrArg (fun l => l.any not) hab.x.symm).trans (e a.x).symm)
  rw [this]
  exact Sync.ite (Sync.throw _) (Sync.pure trivial)

end

theorem getThen {α : Type} (f : SC K → Py (SC K) α) (s : SC K) : (get >>= f) s = f s s := rfl

theorem liftOk_bind {α β : Type} (c : α) (f : α → Py (SC K) β) (s : SC K) : (lift (Except.ok c) >>= f) s = f c s := rfl

theorem checkOrds_same {s t : SC K} (ho : s.ORD = t.ORD) (hi : s.INJ = t.INJ) (rows cols : Nat) {ref ref' : List K} (hr : ref.length = ref'.length)
    (bpms : Option (List Nat)) (cms : Option CMs) :
    checkOrds t rows cols (some ref') bpms cms = (checkOrds s rows cols (some ref) bpms cms).map (fun c => (c.1, c.2.1, ref')) ∧
    ∀ c, checkOrds s rows cols (some ref) bpms cms = .ok c → c.1 = bpms.getD s.ORD.BPM ∧ c.2.2 = ref := by
  unfold checkOrds
  rw [← ho, ← hi]
  dsimp only
  rw [← hr]
  split
  · exact ⟨rfl, fun c h => by cases h⟩
  · split
    · exact ⟨rfl, fun c h => by cases h⟩
    · split
      · exact ⟨rfl, fun c h => by cases h⟩
      · exact ⟨rfl, fun c h => by cases h; exact ⟨rfl, rfl⟩⟩

/-- **C129** If the target orbit is moved together with the BPMs, a single step of the orbit correction is the same: the machines still differ only
in the offsets of the BPMs, or the same exception is raised. -/
theorem C129_single_step (E : Env K) {B : BeamEnv K} (hB : IgnoresRecords B) (O : OrbitEnv K) (rm : List (List K)) (cms : Option CMs)
    (bpms : Option (List Nat)) (eps target sd : K) {s t : SC K} (h : SameButOffsets s t) (hm : s.INJ.trackMode ≠ "PORB") {ref ref' : List K}
    (hr : TargetLess (readBpms s.ORD.BPM (some (bpms.getD s.ORD.BPM))) s.INJ.nTurns (lessBy s.RING t.RING) ref ref') :
    (correct E B O rm (some ref) cms bpms eps target 1 sd s).err? = (correct E B O rm (some ref') cms bpms eps target 1 sd t).err? ∧
    SameButOffsets (correct E B O rm (some ref) cms bpms eps target 1 sd s).state (correct E B O rm (some ref') cms bpms eps target 1 sd t).state := by
  have hd := h.displaced hm
  have hc := checkOrds_same hd.ords hd.injection rm.length (if sd ≠ 0 then numCols rm - 1 else numCols rm) (ref := ref) (ref' := ref')
    (hr.sizes.1.trans hr.sizes.2.symm) bpms cms
  unfold correct
  rw [getThen, getThen, hc.1]
  cases e : checkOrds s rm.length (if sd ≠ 0 then numCols rm - 1 else numCols rm) (some ref) bpms cms with
  | error x => exact ⟨rfl, h⟩
  | ok c =>
    obtain ⟨e1, e2⟩ := hc.2 c e
    simp only [Except.map, liftOk_bind]
    rw [e1, e2]
    have key := Sync.bind (disp_inject (E := E) hB (bpms.getD s.ORD.BPM)) (fun l l' hl => Sync.seq (Sync.lift (O.pinv rm)) (fun mplus =>
      disp_correctOnce (E := E) hB c.2.1 mplus hr.vec eps target sd hl)) s t hd
    rcases key with ⟨a, b, s', t', h1, h2, _, h3⟩ | ⟨x, s', t', h1, h2, h3⟩
    · rw [h1, h2]
      exact ⟨rfl, h3.offs⟩
    · rw [h1, h2]
      exact ⟨rfl, h3.offs⟩

/-- **C129** If the target orbit is moved together with the BPMs, the orbit correction makes the same steps: after as many steps the machines differ
only in the offsets of the BPMs.  (Partial: it may stop after a different number of steps, see `C129_violated_stop`.) -/
theorem C129_same_steps_partial (E : Env K) {B : BeamEnv K} (hB : IgnoresRecords B) (O : OrbitEnv K) (rm : List (List K)) (cms : Option CMs)
    (bpms : Option (List Nat)) (eps target sd : K) (maxsteps : Nat) {s t : SC K} (h : SameButOffsets s t) (hm : s.INJ.trackMode ≠ "PORB")
    {ref ref' : List K} (hr : TargetLess (readBpms s.ORD.BPM (some (bpms.getD s.ORD.BPM))) s.INJ.nTurns (lessBy s.RING t.RING) ref ref')
    {logs logs' : List (Log K)} {s' t' : SC K} (h1 : correct E B O rm (some ref) cms bpms eps target maxsteps sd s = .ok logs s')
    (h2 : correct E B O rm (some ref') cms bpms eps target maxsteps sd t = .ok logs' t') :
    ∀ (k : Nat) (a b : Log K), logs[k]? = some a → logs'[k]? = some b → SameButOffsets a.before b.before ∧ SameButOffsets a.after b.after := by
  have hd := h.displaced hm
  have hc := checkOrds_same hd.ords hd.injection rm.length (if sd ≠ 0 then numCols rm - 1 else numCols rm) (ref := ref) (ref' := ref')
    (hr.sizes.1.trans hr.sizes.2.symm) bpms cms
  unfold correct at h1 h2
  rw [getThen] at h1 h2
  rw [hc.1] at h2
  cases e : checkOrds s rm.length (if sd ≠ 0 then numCols rm - 1 else numCols rm) (some ref) bpms cms with
  | error x => rw [e] at h1; cases h1
  | ok c =>
    obtain ⟨e1, e2⟩ := hc.2 c e
    rw [e] at h1 h2
    simp only [Except.map, liftOk_bind] at h1 h2
    rw [e1, e2] at h1
    rw [e1] at h2
    obtain ⟨l, s1, i1, h1⟩ := bind_eq_ok.1 h1
    obtain ⟨l', t1, i2, h2⟩ := bind_eq_ok.1 h2
    obtain ⟨hl, hst⟩ := (disp_inject (E := E) hB (bpms.getD s.ORD.BPM)).both hd i1 i2
    cases ep : O.pinv rm with
    | error x => rw [ep] at h1; cases h1
    | ok mplus =>
      rw [ep, liftOk_bind] at h1 h2
      have := disp_correctLoop hB c.2.1 mplus hr.vec eps target sd maxsteps maxsteps hst hl (List.Forall₂.cons hl List.Forall₂.nil) h1 h2
      exact fun k a b ha hb => ⟨(this k a b ha hb).before.offs, (this k a b ha hb).after.offs⟩

/-- **C129** If the target orbit is moved together with the BPMs, balancing two turns makes the same steps.  (Partial: as for `correct` it may
stop after a different number of steps.) -/
theorem C129_balance_partial (E : Env K) {B : BeamEnv K} (hB : IgnoresRecords B) (O : OrbitEnv K) (rm : List (List K)) (cms : Option CMs)
    (bpms : Option (List Nat)) (eps : K) (maxsteps : Nat) {s t : SC K} (h : SameButOffsets s t) (hm : s.INJ.trackMode ≠ "PORB")
    {ref ref' : List K} (hr : TargetLess (readBpms s.ORD.BPM (some (bpms.getD s.ORD.BPM))) s.INJ.nTurns (lessBy s.RING t.RING) ref ref')
    {logs logs' : List (Log K)} {s' t' : SC K} (h1 : balance E B O rm (some ref) cms bpms eps maxsteps s = .ok logs s')
    (h2 : balance E B O rm (some ref') cms bpms eps maxsteps t = .ok logs' t') :
    ∀ (k : Nat) (a b : Log K), logs[k]? = some a → logs'[k]? = some b → SameButOffsets a.before b.before ∧ SameButOffsets a.after b.after := by
  have hd := h.displaced hm
  have hc := checkOrds_same hd.ords hd.injection rm.length (numCols rm) (ref := ref) (ref' := ref') (hr.sizes.1.trans hr.sizes.2.symm) bpms cms
  unfold balance at h1 h2
  rw [getThen] at h1 h2
  rw [← hd.injection] at h2
  by_cases ht : s.INJ.nTurns ≠ 2
  · rw [if_pos ht] at h1; cases h1
  · rw [if_neg ht] at h1 h2
    have ht : s.INJ.nTurns = 2 := by simpa using ht
    rw [ht] at hd hr
    rw [hc.1] at h2
    cases e : checkOrds s rm.length (numCols rm) (some ref) bpms cms with
    | error x => rw [e] at h1; cases h1
    | ok c =>
      obtain ⟨e1, e2⟩ := hc.2 c e
      rw [e] at h1 h2
      simp only [Except.map, liftOk_bind] at h1 h2
      rw [e1, e2] at h1
      rw [e1] at h2
      obtain ⟨l, s1, i1, h1⟩ := bind_eq_ok.1 h1
      obtain ⟨l', t1, i2, h2⟩ := bind_eq_ok.1 h2
      obtain ⟨hl, hst⟩ := (disp_injectTwo (E := E) hB (bpms.getD s.ORD.BPM)).both hd i1 i2
      split at h1
      · cases h1
      · split at h2
        · cases h2
        · cases ep : O.pinv rm with
          | error x => rw [ep] at h1; cases h1
          | ok mplus =>
            rw [ep, liftOk_bind] at h1 h2
            have := disp_balanceLoop hB c.2.1 mplus hr eps maxsteps hst hl (List.Forall₂.cons hl List.Forall₂.nil) h1 h2
            exact fun k a b ha hb => ⟨(this k a b ha hb).logs.before.offs, (this k a b ha hb).logs.after.offs⟩

/-! ### Examples -/

theorem Example.linearBeam_ignores : IgnoresRecords Example.linearBeam := by
  intro r r' h
  have e : ∀ a, a ∉ alignmentNames → vecAt r 0 a = vecAt r' 0 a := fun a ha => by
    unfold vecAt; rw [h.attr 0 a ha]
  refine ⟨?_, rfl⟩
  funext Z i t
  simp only [Example.linearBeam, e "PolynomB" (by decide), e "PolynomA" (by decide)]

/-- the BPM of the straight line is moved -/
def Example.shoved (x : ℚ) : SC ℚ := { Example.straight (1/1000) 1 with
  RING := (Example.straight (1/1000) 1).RING.setAttr 1 "Offset" (.vec [x, 0]) }

theorem Example.shoved_same (x y : ℚ) : SameButOffsets (Example.shoved x) (Example.shoved y) := by
  have e : ∀ (x : ℚ) (i : Nat) (a : String), a ≠ "Offset" → (Example.shoved x).RING.attr i a = (Example.straight (1/1000) 1).RING.attr i a :=
    fun x i a h => Ring.attr_setAttr_ne h
  have p1 : ∀ x : ℚ, (Example.shoved x).RING.attr 1 "Offset" = some (.vec [x, 0]) := fun x => Ring.attr_setAttr_same (by decide +kernel)
  have p3 : ∀ x : ℚ, (Example.shoved x).RING.attr 3 "Offset" = some (.vec [0, 0]) := fun x => by
    rw [show (Example.shoved x).RING.attr 3 "Offset" = (Example.straight (1/1000) 1).RING.attr 3 "Offset" from Ring.attr_setAttr_ne' (by decide)]
    decide +kernel
  have q : ∀ (x : ℚ) (i : Nat), i = 1 ∨ i = 3 → (Example.shoved x).RING.attr i "SupportOffset" = some (.vec [0, 0]) := fun x i hi => by
    rw [e x i _ (by decide)]
    rcases hi with rfl | rfl <;> decide +kernel
  refine ⟨rfl, by simp [Example.shoved, Ring.length_setAttr], fun i a h1 _ => by rw [e x i a h1, e y i a h1], fun i hi => ?_⟩
  have hi : i = 1 ∨ i = 3 := by simpa [Example.shoved, Example.straight, Example.line] using hi
  rcases hi with rfl | rfl
  · exact ⟨⟨_, _, p1 x⟩, ⟨_, _, q x 1 (Or.inl rfl)⟩, ⟨_, _, p1 y⟩, ⟨_, _, q y 1 (Or.inl rfl)⟩⟩
  · exact ⟨⟨_, _, p3 x⟩, ⟨_, _, q x 3 (Or.inr rfl)⟩, ⟨_, _, p3 y⟩, ⟨_, _, q y 3 (Or.inr rfl)⟩⟩

/-- steering the beam to the target with the exact inverse of the response -/
abbrev Example.aim (target x : ℚ) (maxsteps : Nat) : Res (SC ℚ) (List (Log ℚ)) :=
  correct Example.rand Example.linearBeam ⟨fun _ => .ok [[1, 0], [0, 1]], []⟩ [[1, 0], [0, 1]] (some [target, 0]) (some ([0], [0])) (some [1]) (1/10000) 0 maxsteps 0
    (Example.shoved x)

theorem target_of_one {d : Nat → Nat → ℚ} {x y x' y' : ℚ} (hx : x' = x - d 1 0) (hy : y' = y - d 1 1) : TargetLess [1] 1 d [x, y] [x', y'] := by
  have one : ∀ b i : Nat, [1][b]? = some i → b = 0 ∧ i = 1 := fun b i h => by
    cases b with
    | zero => exact ⟨rfl, by simpa using h.symm⟩
    | succ b => simp at h
  refine ⟨⟨rfl, rfl⟩, fun b i hb t ht => ?_, fun b i hb t ht => ?_⟩
  · obtain ⟨rfl, rfl⟩ := one b i hb
    obtain rfl : t = 0 := by omega
    exact ⟨x, rfl, by rw [← hx]; rfl⟩
  · obtain ⟨rfl, rfl⟩ := one b i hb
    obtain rfl : t = 0 := by omega
    exact ⟨y, rfl, by rw [← hy]; rfl⟩

-- the BPM reads less by 1/50000, and so does the target: the corrections stop after five steps, and the first step is the same
example : TargetLess (readBpms (Example.shoved (1/50000)).ORD.BPM (some [1])) (Example.shoved (1/50000)).INJ.nTurns
      (lessBy (Example.shoved (1/50000)).RING (Example.shoved (1/25000)).RING) [-1/50000, 0] [-1/25000, 0] ∧
    (Example.shoved (1/50000)).INJ.trackMode ≠ "PORB" ∧
    (Example.aim (-1/50000) (1/50000) 10).value?.map (fun l => l.map (fun l => (l.x, l.y))) =
      some (([some (99/50000)], [some 0]) :: List.replicate 5 ([some (-1/50000)], [some 0])) ∧
    (Example.aim (-1/25000) (1/25000) 10).value?.map (fun l => l.map (fun l => (l.x, l.y))) =
      some (([some (49/25000)], [some 0]) :: List.replicate 5 ([some (-1/25000)], [some 0])) ∧
    (Example.aim (-1/50000) (1/50000) 1).isOk ∧
    (Example.aim (-1/50000) (1/50000) 1).state.RING.attr 0 "SetPointB" = some (.vec [-1/1000]) ∧
    (Example.shoved (1/50000)).RING.attr 0 "SetPointB" = some (.vec [1/1000]) :=
  ⟨target_of_one (by decide +kernel) (by decide +kernel), by decide +kernel, by decide +kernel, by decide +kernel, by decide +kernel,
    by decide +kernel, by decide +kernel⟩

/-- **C129** is violated: whether the correction stops is decided from the readings, not from their deviations from the target.  Two machines differ in
the offset of a BPM, the target orbits differ alike, and the correction of one of them comes to an end, that of the other one fails. -/
theorem C129_violated_stop : ∃ (s t : SC ℚ) (ref ref' : List ℚ), SameButOffsets s t ∧ s.INJ.trackMode ≠ "PORB" ∧
    TargetLess (readBpms s.ORD.BPM (some [1])) s.INJ.nTurns (lessBy s.RING t.RING) ref ref' ∧
    (correct Example.rand Example.linearBeam ⟨fun _ => .ok [[1, 0], [0, 1]], []⟩ [[1, 0], [0, 1]] (some ref) (some ([0], [0])) (some [1]) (1/10000) 0 10 0 s).err? =
      some .runtimeError ∧
    (correct Example.rand Example.linearBeam ⟨fun _ => .ok [[1, 0], [0, 1]], []⟩ [[1, 0], [0, 1]] (some ref') (some ([0], [0])) (some [1]) (1/10000) 0 10 0 t).err? =
      none :=
  ⟨Example.shoved 0, Example.shoved (1/50000), [0, 0], [-1/50000, 0], Example.shoved_same _ _, by decide +kernel,
    target_of_one (by decide +kernel) (by decide +kernel), by decide +kernel, by decide +kernel⟩

/-- the second corrector acts in the second turn only -/
def Example.laps : BeamEnv ℚ := { Example.linearBeam with
  track := fun r Z _ t => Z.map (fun _ => (some (1/1000 + coef (vecAt r 0 "PolynomB") 0 + t * coef (vecAt r 2 "PolynomB") 0),
    some (coef (vecAt r 0 "PolynomA") 0 + t * coef (vecAt r 2 "PolynomA") 0))) }

theorem Example.laps_ignores : IgnoresRecords Example.laps := by
  intro r r' h
  have e : ∀ i a, a ∉ alignmentNames → vecAt r i a = vecAt r' i a := fun i a ha => by
    unfold vecAt; rw [h.attr i a ha]
  refine ⟨?_, rfl⟩
  funext Z i t
  simp only [Example.laps, e _ "PolynomB" (by decide), e _ "PolynomA" (by decide)]

def Example.shovedTwo (x : ℚ) : SC ℚ := { Example.shoved x with INJ := { (Example.shoved x).INJ with nTurns := 2 } }

/-- balancing the turns around the target -/
abbrev Example.level (target x : ℚ) : Res (SC ℚ) (List (Log ℚ)) :=
  balance Example.rand Example.laps ⟨fun _ => .ok [[1, 0, 0, 0], [0, 10/11, 0, 0], [0, 0, 1, 0], [0, 0, 0, 1]], []⟩ [[1, 0, 0, 0], [0, 1, 0, 0], [0, 0, 1, 0], [0, 0, 0, 1]]
    (some [target, target, 0, 0]) (some ([0, 2], [0, 2])) (some [1]) (1/10000) 10 (Example.shovedTwo x)

-- both corrections of two turns come to an end
example : SameButOffsets (Example.shovedTwo (1/50000)) (Example.shovedTwo (1/25000)) ∧ IgnoresRecords Example.laps ∧
    TargetLess (readBpms (Example.shovedTwo (1/50000)).ORD.BPM (some [1])) (Example.shovedTwo (1/50000)).INJ.nTurns
      (lessBy (Example.shovedTwo (1/50000)).RING (Example.shovedTwo (1/25000)).RING) [-1/50000, -1/50000, 0, 0] [-1/25000, -1/25000, 0, 0] ∧
    (Example.shovedTwo (1/50000)).INJ.trackMode ≠ "PORB" ∧
    (Example.level (-1/50000) (1/50000)).isOk ∧ (Example.level (-1/25000) (1/25000)).isOk ∧
    (Example.level (-1/25000) (1/25000)).state.RING.attr 0 "SetPointB" = some (.vec [-1/1000]) ∧
    (Example.shovedTwo (1/25000)).RING.attr 0 "SetPointB" = some (.vec [1/1000]) := by
  have h := Example.shoved_same (1/50000) (1/25000)
  refine ⟨⟨rfl, h.length, h.attr, h.pairs⟩, Example.laps_ignores, ?_, by decide +kernel, by decide +kernel, by decide +kernel, by decide +kernel, by decide +kernel⟩
  have one : ∀ b i : Nat, [1][b]? = some i → b = 0 ∧ i = 1 := fun b i h => by
    cases b with
    | zero => exact ⟨rfl, by simpa using h.symm⟩
    | succ b => simp at h
  refine ⟨⟨rfl, rfl⟩, fun b i hb t ht => ?_, fun b i hb t ht => ?_⟩
  · obtain ⟨rfl, rfl⟩ := one b i hb
    have ht : t = 0 ∨ t = 1 := by have : t < 2 := ht; omega
    rcases ht with rfl | rfl <;> exact ⟨-1/50000, by decide +kernel, by decide +kernel⟩
  · obtain ⟨rfl, rfl⟩ := one b i hb
    have ht : t = 0 ∨ t = 1 := by have : t < 2 := ht; omega
    rcases ht with rfl | rfl <;> exact ⟨0, by decide +kernel, by decide +kernel⟩

/-- the beam is lost before it reaches the second BPM -/
def Example.blocked : BeamEnv ℚ := { Example.linearBeam with
  track := fun r Z i t => if i = 3 then Z.map (fun _ => (none, none)) else Example.linearBeam.track r Z i t }

/-- the second BPM of the straight line is moved -/
def Example.beyond (x : ℚ) : SC ℚ := { Example.straight (1/1000) 1 with
  RING := (Example.straight (1/1000) 1).RING.setAttr 3 "Offset" (.vec [x, 0]) }

theorem Example.beyond_same (x y : ℚ) : SameButOffsets (Example.beyond x) (Example.beyond y) := by
  have e : ∀ (x : ℚ) (i : Nat) (a : String), a ≠ "Offset" → (Example.beyond x).RING.attr i a = (Example.straight (1/1000) 1).RING.attr i a :=
    fun x i a h => Ring.attr_setAttr_ne h
  have p3 : ∀ x : ℚ, (Example.beyond x).RING.attr 3 "Offset" = some (.vec [x, 0]) := fun x => Ring.attr_setAttr_same (by decide +kernel)
  have p1 : ∀ x : ℚ, (Example.beyond x).RING.attr 1 "Offset" = some (.vec [0, 0]) := fun x => by
    rw [show (Example.beyond x).RING.attr 1 "Offset" = (Example.straight (1/1000) 1).RING.attr 1 "Offset" from Ring.attr_setAttr_ne' (by decide)]
    decide +kernel
  have q : ∀ (x : ℚ) (i : Nat), i = 1 ∨ i = 3 → (Example.beyond x).RING.attr i "SupportOffset" = some (.vec [0, 0]) := fun x i hi => by
    rw [e x i _ (by decide)]
    rcases hi with rfl | rfl <;> decide +kernel
  refine ⟨rfl, by simp [Example.beyond, Ring.length_setAttr], fun i a h1 _ => by rw [e x i a h1, e y i a h1], fun i hi => ?_⟩
  have hi : i = 1 ∨ i = 3 := by simpa [Example.beyond, Example.straight, Example.line] using hi
  rcases hi with rfl | rfl
  · exact ⟨⟨_, _, p1 x⟩, ⟨_, _, q x 1 (Or.inl rfl)⟩, ⟨_, _, p1 y⟩, ⟨_, _, q y 1 (Or.inl rfl)⟩⟩
  · exact ⟨⟨_, _, p3 x⟩, ⟨_, _, q x 3 (Or.inr rfl)⟩, ⟨_, _, p3 y⟩, ⟨_, _, q y 3 (Or.inr rfl)⟩⟩

/-- one step of the threading of the first turn to the target -/
abbrev Example.grope (target x : ℚ) : Res (SC ℚ) (List (Log ℚ)) :=
  firstTurn Example.rand Example.blocked ⟨fun _ => .ok [[1/2, 1/2, 0, 0], [0, 0, 1/2, 1/2]], []⟩ [[1, 0], [1, 0], [0, 1], [0, 1]] (some [0, target, 0, 0])
    (some ([0], [0])) (some [1, 3]) 1 (Example.beyond x)

/-- **C129** is violated by the threading of the first turn: a BPM which the beam does not reach counts as reading zero, although no beam
is there and the target is somewhere else.  Two machines differ in the offset of such a BPM, the targets differ alike, and the correctors are set to
different values. -/
theorem C129_violated_first_turn : SameButOffsets (Example.beyond 0) (Example.beyond (1/1000)) ∧
    TargetLess (readBpms (Example.beyond 0).ORD.BPM (some [1, 3])) (Example.beyond 0).INJ.nTurns (lessBy (Example.beyond 0).RING (Example.beyond (1/1000)).RING)
      [0, 0, 0, 0] [0, -1/1000, 0, 0] ∧
    (bpmReading Example.rand Example.blocked (some [1, 3]) false (Example.beyond 0)).value?.map (fun r => r.x) = some [some (1/500), none] ∧
    (bpmReading Example.rand Example.blocked (some [1, 3]) false (Example.beyond (1/1000))).value?.map (fun r => r.x) = some [some (1/500), none] ∧
    (Example.grope 0 0).state.RING.attr 0 "SetPointB" = some (.vec [0]) ∧
    (Example.grope (-1/1000) (1/1000)).state.RING.attr 0 "SetPointB" = some (.vec [-1/2000]) := by
  refine ⟨Example.beyond_same _ _, ⟨⟨rfl, rfl⟩, fun b i hb t ht => ?_, fun b i hb t ht => ?_⟩, by decide +kernel, by decide +kernel, by decide +kernel,
    by decide +kernel⟩
  · have hb : [1, 3][b]? = some i := hb
    obtain rfl : t = 0 := by have : t < 1 := ht; omega
    match b, hb with
    | 0, hb => cases hb; exact ⟨0, by decide +kernel, by decide +kernel⟩
    | 1, hb => cases hb; exact ⟨0, by decide +kernel, by decide +kernel⟩
  · have hb : [1, 3][b]? = some i := hb
    obtain rfl : t = 0 := by have : t < 1 := ht; omega
    match b, hb with
    | 0, hb => cases hb; exact ⟨0, by decide +kernel, by decide +kernel⟩
    | 1, hb => cases hb; exact ⟨0, by decide +kernel, by decide +kernel⟩

end PySC
