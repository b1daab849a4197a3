import Verif.Spec.Arrays
import Mathlib.Tactic.Common
import Mathlib.Data.List.Nodup
/-
Which arrays are shared.
-/
namespace PySC.Arrays
variable {K : Type} [Mul K] [Zero K]

/-- a value refers to the array at `p` -/
def Refs : Option (Val K) → Nat → Prop
  | some (.arr q), p => q = p
  | some (.cut q _), p => q = p
  | _, _ => False

/-- attributes refer to arrays of their own or, noise only, to arrays of the caller; the uncertainties refer to arrays of the caller; `ok n i f` says
that array `n` may be used for field `f` of BPM `i` -/
structure Inv (ok : Nat → Nat → String → Prop) (w : World K) : Prop where
  ring_lt : ∀ i f p, Refs (w.ring i f) p → p < w.next
  given_lt : ∀ p ∈ w.given, p < w.next
  sig_given : ∀ i f p, Refs (w.sig i f) p → p ∈ w.given
  own : ∀ i f j g p, Refs (w.ring i f) p → Refs (w.ring j g) p → p ∉ w.given → j = i ∧ g = f
  noise : ∀ i f p, Refs (w.ring i f) p → p ∈ w.given → isNoise f = true
  ring_ok : ∀ i f n p, w.given[n]? = some p → Refs (w.ring i f) p → ok n i f
  sig_ok : ∀ i f n p, w.given[n]? = some p → Refs (w.sig i f) p → ok n i f

variable {ok : Nat → Nat → String → Prop} {w : World K}

theorem Inv.empty : Inv ok (World.empty : World K) := by
  constructor <;> simp [World.empty, Refs]

theorem Inv.array (h : Inv ok w) (v : List K) : Inv ok { alloc v w with given := w.given ++ [w.next] } where
  ring_lt := fun i f p hp => Nat.lt_succ_of_lt (h.ring_lt i f p hp)
  given_lt := fun p hp => by
    have hp : p ∈ w.given ++ [w.next] := hp
    rcases List.mem_append.1 hp with hp | hp
    · exact Nat.lt_succ_of_lt (h.given_lt p hp)
    · rw [List.mem_singleton.1 hp]; exact Nat.lt_succ_self _
  sig_given := fun i f p hp => List.mem_append_left _ (h.sig_given i f p hp)
  own := fun i f j g p h1 h2 hp => h.own i f j g p h1 h2 (fun hc => hp (List.mem_append_left _ hc))
  noise := fun i f p h1 hp => by
    have hp : p ∈ w.given ++ [w.next] := hp
    rcases List.mem_append.1 hp with hp | hp
    · exact h.noise i f p h1 hp
    · rw [List.mem_singleton.1 hp] at h1; exact absurd (h.ring_lt i f _ h1) (Nat.lt_irrefl _)
  ring_ok := fun i f n p hn h1 => by
    have hn : (w.given ++ [w.next])[n]? = some p := hn
    rw [List.getElem?_append] at hn
    split at hn
    · exact h.ring_ok i f n p hn h1
    · have := List.mem_of_getElem? hn
      rw [List.mem_singleton.1 this] at h1; exact absurd (h.ring_lt i f _ h1) (Nat.lt_irrefl _)
  sig_ok := fun i f n p hn h1 => by
    have hn : (w.given ++ [w.next])[n]? = some p := hn
    rw [List.getElem?_append] at hn
    split at hn
    · exact h.sig_ok i f n p hn h1
    · have := List.mem_of_getElem? hn
      rw [List.mem_singleton.1 this] at h1; exact absurd (h.given_lt _ (h.sig_given i f _ h1)) (Nat.lt_irrefl _)

theorem Inv.putSig (h : Inv ok w) (i : Nat) (f : String) (v : Val K) (hv : ∀ p, Refs (some v) p → p ∈ w.given)
    (ho : ∀ n p, w.given[n]? = some p → Refs (some v) p → ok n i f) : Inv ok (putSig i f v w) where
  ring_lt := h.ring_lt
  given_lt := h.given_lt
  sig_given := fun j g p hp => by
    simp only [Arrays.putSig] at hp
    split at hp
    · exact hv p hp
    · exact h.sig_given j g p hp
  own := h.own
  noise := h.noise
  ring_ok := h.ring_ok
  sig_ok := fun j g n p hn hp => by
    simp only [Arrays.putSig] at hp
    split at hp
    · next e => rw [e.1, e.2]; exact ho n p hn hp
    · exact h.sig_ok j g n p hn hp

theorem Inv.putRing (h : Inv ok w) (i : Nat) (f : String) (v : Val K) (hv : ∀ p, Refs (some v) p → p ∈ w.given ∧ isNoise f = true)
    (ho : ∀ n p, w.given[n]? = some p → Refs (some v) p → ok n i f) : Inv ok (putRing i f v w) where
  ring_lt := fun j g p hp => by
    simp only [Arrays.putRing] at hp
    split at hp
    · exact h.given_lt p (hv p hp).1
    · exact h.ring_lt j g p hp
  given_lt := h.given_lt
  sig_given := h.sig_given
  own := fun a b c d p h1 h2 hp => by
    simp only [Arrays.putRing] at h1 h2
    split at h1
    · exact absurd (hv p h1).1 hp
    · split at h2
      · exact absurd (hv p h2).1 hp
      · exact h.own a b c d p h1 h2 hp
  noise := fun j g p h1 hp => by
    simp only [Arrays.putRing] at h1
    split at h1
    · next e => rw [e.2]; exact (hv p h1).2
    · exact h.noise j g p h1 hp
  ring_ok := fun j g n p hn hp => by
    simp only [Arrays.putRing] at hp
    split at hp
    · next e => rw [e.1, e.2]; exact ho n p hn hp
    · exact h.ring_ok j g n p hn hp
  sig_ok := h.sig_ok

theorem Inv.putNew (h : Inv ok w) (i : Nat) (f : String) (v : List K) : Inv ok (putNew i f v w) where
  ring_lt := fun j g p hp => by
    simp only [Arrays.putNew, Arrays.putRing, alloc] at hp ⊢
    split at hp
    · simp only [Refs] at hp; omega
    · exact Nat.lt_succ_of_lt (h.ring_lt j g p hp)
  given_lt := fun p hp => Nat.lt_succ_of_lt (h.given_lt p hp)
  sig_given := h.sig_given
  own := fun a b c d p h1 h2 hp => by
    simp only [Arrays.putNew, Arrays.putRing, alloc] at h1 h2
    split at h1
    · next e1 =>
      split at h2
      · next e2 => exact ⟨e2.1.trans e1.1.symm, e2.2.trans e1.2.symm⟩
      · have := h.ring_lt c d p h2
        simp only [Refs] at h1; omega
    · split at h2
      · have := h.ring_lt a b p h1
        simp only [Refs] at h2; omega
      · exact h.own a b c d p h1 h2 hp
  noise := fun j g p h1 hp => by
    simp only [Arrays.putNew, Arrays.putRing, alloc] at h1
    split at h1
    · have := h.given_lt p hp
      simp only [Refs] at h1; omega
    · exact h.noise j g p h1 hp
  ring_ok := fun j g n p hn hp => by
    simp only [Arrays.putNew, Arrays.putRing, alloc] at hp
    split at hp
    · have := h.given_lt p (List.mem_of_getElem? hn)
      simp only [Refs] at hp; omega
    · exact h.ring_ok j g n p hn hp
  sig_ok := h.sig_ok

theorem Inv.cells (h : Inv ok w) (c : Nat → List K) : Inv ok { w with cell := c } := ⟨h.1, h.2, h.3, h.4, h.5, h.6, h.7⟩

theorem Inv.bpms (h : Inv ok w) (l : List Nat) : Inv ok { w with bpms := l } := ⟨h.1, h.2, h.3, h.4, h.5, h.6, h.7⟩

theorem poke_state (p k : Nat) (x : K) (w : World K) : ∃ c, (poke p k x w).state = { w with cell := c } := by
  unfold poke; split
  · exact ⟨_, rfl⟩
  · exact ⟨w.cell, rfl⟩

theorem Inv.poke (h : Inv ok w) (p k : Nat) (x : K) : Inv ok (poke p k x w).state := by
  obtain ⟨c, e⟩ := poke_state p k x w
  rw [e]; exact h.cells c

/-- arguments refer to arrays of the caller that may be used -/
def Good (ok : Nat → Nat → String → Prop) (given : List Nat) (i : Nat) (kw : List (String × Val K)) : Prop :=
  ∀ q ∈ kw, (∀ p, Refs (some q.2) p → p ∈ given) ∧ ∀ n p, given[n]? = some p → Refs (some q.2) p → ok n i q.1

theorem updateSig_given (i : Nat) : ∀ (kw : List (String × Val K)) (w : World K), (updateSig i kw w).given = w.given
  | [], _ => rfl
  | _ :: kw, w => updateSig_given i kw _

theorem Inv.updateSig {i : Nat} : ∀ {kw : List (String × Val K)} {w : World K}, Inv ok w → Good ok w.given i kw → Inv ok (updateSig i kw w)
  | [], _, h, _ => h
  | (f, v) :: kw, w, h, hg => by
    have a := hg (f, v) (List.mem_cons_self ..)
    exact Inv.updateSig (kw := kw) (h.putSig i f v a.1 a.2) (fun q hq => hg q (List.mem_cons_of_mem _ hq))

theorem Inv.registerBpm (h : Inv ok w) {i : Nat} {kw : List (String × Val K)} (hg : Good ok w.given i kw) : Inv ok (registerBpm kw i w) := by
  have num : ∀ {w : World K} (f : String), Inv ok w → Inv ok (Arrays.putRing i f (.num 0) w) :=
    fun f h => h.putRing i f _ (fun p hp => hp.elim) (fun n p _ hp => hp.elim)
  unfold Arrays.registerBpm
  exact num _ ((num _ (num _ (((((h.updateSig hg).putNew i _ _).putNew i _ _).putNew i _ _).putNew i _ _))).putNew i _ _)

theorem registerBpm_given (kw : List (String × Val K)) (i : Nat) (w : World K) : (registerBpm kw i w).given = w.given := by
  unfold registerBpm putNew putRing alloc
  exact updateSig_given i kw w

theorem Inv.registerAll {kw : List (String × Val K)} : ∀ {ords : List Nat} {w : World K}, Inv ok w → (∀ i ∈ ords, Good ok w.given i kw) →
    Inv ok (ords.foldl (fun w i => Arrays.registerBpm kw i w) w)
  | [], _, h, _ => h
  | i :: ords, w, h, hg => by
    refine Inv.registerAll (ords := ords) (h.registerBpm (hg i (List.mem_cons_self ..))) (fun j hj => ?_)
    rw [registerBpm_given]
    exact hg j (List.mem_cons_of_mem _ hj)

theorem resolve_spec : ∀ {kw : List (String × Arg K)} {kv : List (String × Val K)}, resolve w kw = .ok kv →
    ∀ q ∈ kv, ∃ a, (q.1, a) ∈ kw ∧ a.val w = .ok q.2
  | [], kv, h => by
    simp only [resolve, Except.ok.injEq] at h
    subst h; simp
  | (f, a) :: kw, kv, h => by
    unfold resolve at h
    cases hv : a.val w with
    | error e => rw [hv] at h; cases h
    | ok v =>
      cases hr : resolve w kw with
      | error e => rw [hv, hr] at h; cases h
      | ok rest =>
        rw [hv, hr] at h
        cases h
        intro q hq
        rcases List.mem_cons.1 hq with rfl | hq
        · exact ⟨a, List.mem_cons_self .., hv⟩
        · obtain ⟨b, hb, hb'⟩ := resolve_spec hr q hq
          exact ⟨b, List.mem_cons_of_mem _ hb, hb'⟩

theorem val_refs {a : Arg K} {v : Val K} (h : a.val w = .ok v) {p : Nat} (hp : Refs (some v) p) : ∃ n, a.index = some n ∧ w.given[n]? = some p := by
  cases a with
  | num x => cases h; exact hp.elim
  | array n =>
    unfold Arg.val at h
    cases hg : w.given[n]? with
    | none => simp [hg] at h
    | some q => simp only [hg, Except.ok.injEq] at h; subst h; exact ⟨n, rfl, by rw [hg]; exact congrArg some hp⟩
  | cut n c =>
    unfold Arg.val at h
    cases hg : w.given[n]? with
    | none => simp [hg] at h
    | some q => simp only [hg, Except.ok.injEq] at h; subst h; exact ⟨n, rfl, by rw [hg]; exact congrArg some hp⟩

theorem Inv.applyField (h : Inv ok w) (rand : Nat → String → Nat → K) (i : Nat) (f : String) : Inv ok (applyField rand i w f) := by
  unfold Arrays.applyField
  cases hs : w.sig i f with
  | none => exact h
  | some v =>
    simp only
    split
    · next hn =>
      exact h.putRing i f v (fun p hp => ⟨h.sig_given i f p (by rw [hs]; exact hp), hn⟩) (fun n p hn hp => h.sig_ok i f n p hn (by rw [hs]; exact hp))
    · cases v with
      | num x => exact h.putRing i f _ (fun p hp => hp.elim) (fun n p _ hp => hp.elim)
      | arr p => exact h.putNew i f _
      | cut p c => exact h.putNew i f _

theorem Inv.applyBpmErrors (h : Inv ok w) (rand : Nat → String → Nat → K) : Inv ok (applyBpmErrors rand w) := by
  unfold Arrays.applyBpmErrors
  have inner : ∀ (fs : List String) (i : Nat) {w : World K}, Inv ok w → Inv ok (fs.foldl (Arrays.applyField rand i) w) := by
    intro fs i
    induction fs with
    | nil => intro w h; exact h
    | cons f fs ih => intro w h; exact ih (h.applyField rand i f)
  have outer : ∀ (l : List Nat) {w : World K}, Inv ok w → Inv ok (l.foldl (fun w i => bpmErrorFields.foldl (Arrays.applyField rand i) w) w) := by
    intro l
    induction l with
    | nil => intro w h; exact h
    | cons i l ih => intro w h; exact ih (inner _ i h)
  exact outer _ h

/-- the arrays may be used as a call uses them; several indices stand for different arrays -/
def Fits (ok : Nat → Nat → String → Prop) : Call K → Prop
  | .register ords kw => ∀ i ∈ ords, ∀ p ∈ kw, ∀ n, p.2.index = some n → ok n i p.1
  | _ => True

theorem given_nodup_array (h : Inv ok w) (hn : w.given.Nodup) : (w.given ++ [w.next]).Nodup := by
  rw [List.nodup_append]
  refine ⟨hn, by simp, fun a ha b hb => ?_⟩
  rw [List.mem_singleton.1 hb]
  have := h.given_lt a ha
  omega

theorem run_inv (h : Inv ok w) (hn : w.given.Nodup) (c : Call K) (hc : Fits ok c) : Inv ok (c.run w).state ∧ (c.run w).state.given.Nodup := by
  cases c with
  | array v => exact ⟨h.array v, given_nodup_array h hn⟩
  | register ords kw =>
    show Inv ok (registerBpms ords kw w).state ∧ (registerBpms ords kw w).state.given.Nodup
    unfold registerBpms
    cases hr : resolve w kw with
    | error e => exact ⟨h, hn⟩
    | ok kv =>
      simp only
      split
      · have hg : ∀ i ∈ ords, Good ok w.given i kv := by
          intro i hi q hq
          obtain ⟨a, ha, hv⟩ := resolve_spec hr q hq
          refine ⟨fun p hp => ?_, fun n p hnp hp => ?_⟩
          · obtain ⟨n, -, hn⟩ := val_refs hv hp
            exact List.mem_of_getElem? hn
          · obtain ⟨m, hm, hmp⟩ := val_refs hv hp
            have : m = n := by
              have h1 := (List.getElem?_eq_some_iff.1 hmp)
              have h2 := (List.getElem?_eq_some_iff.1 hnp)
              obtain ⟨l1, e1⟩ := h1
              obtain ⟨l2, e2⟩ := h2
              exact (List.Nodup.getElem_inj_iff hn).1 (e1.trans e2.symm)
            subst this
            exact hc i hi _ ha m hm
        refine ⟨(h.bpms _).registerAll hg, ?_⟩
        have : ∀ (l : List Nat) (w : World K), (l.foldl (fun w i => registerBpm kv i w) w).given = w.given := by
          intro l
          induction l with
          | nil => intro w; rfl
          | cons i l ih => intro w; rw [List.foldl_cons, ih, registerBpm_given]
        simp only [Res.state]
        rw [this]
        exact hn
      · exact ⟨h, hn⟩
  | applyErrors rand =>
    refine ⟨h.applyBpmErrors rand, ?_⟩
    have f1 : ∀ (f : String) (i : Nat) (w : World K), (applyField rand i w f).given = w.given := by
      intro f i w
      unfold applyField
      split
      · rfl
      · split
        · rfl
        · split <;> rfl
    have f2 : ∀ (fs : List String) (i : Nat) (w : World K), (fs.foldl (applyField rand i) w).given = w.given := by
      intro fs i
      induction fs with
      | nil => intro w; rfl
      | cons f fs ih => intro w; rw [List.foldl_cons, ih, f1]
    have f3 : ∀ (l : List Nat) (w : World K), (l.foldl (fun w i => bpmErrorFields.foldl (applyField rand i) w) w).given = w.given := by
      intro l
      induction l with
      | nil => intro w; rfl
      | cons i l ih => intro w; rw [List.foldl_cons, ih, f2]
    show (applyBpmErrors rand w).given.Nodup
    unfold applyBpmErrors
    rw [f3]
    exact hn
  | change i f k x =>
    show Inv ok (pokeRing i f k x w).state ∧ (pokeRing i f k x w).state.given.Nodup
    unfold pokeRing
    split
    · exact ⟨h, hn⟩
    · exact ⟨h, hn⟩
    · exact ⟨h, hn⟩
    · next p _ =>
      obtain ⟨c, e⟩ := poke_state p k x w
      exact ⟨h.poke p k x, by rw [e]; exact hn⟩
  | changeGiven n k x =>
    have e : (Call.changeGiven n k x).run w = (match w.given[n]? with | some p => Arrays.poke p k x w | none => .error .indexError w) := rfl
    rw [e]
    split
    · next p _ =>
      obtain ⟨c, e⟩ := poke_state p k x w
      exact ⟨h.poke p k x, by rw [e]; exact hn⟩
    · exact ⟨h, hn⟩
  | assign i f v => exact ⟨h.putNew i f v, hn⟩

theorem Inv.runAll : ∀ {cs : List (Call K)} {w : World K}, Inv ok w → w.given.Nodup → (∀ c ∈ cs, Fits ok c) →
    Inv ok (runAll cs w) ∧ (runAll cs w).given.Nodup
  | [], _, h, hn, _ => ⟨h, hn⟩
  | c :: cs, w, h, hn, hf => by
    obtain ⟨a, b⟩ := run_inv h hn c (hf c (List.mem_cons_self ..))
    exact Inv.runAll (cs := cs) a b (fun d hd => hf d (List.mem_cons_of_mem _ hd))

/-- contents which do not refer to the array written to -/
theorem content_poke {p k : Nat} {x : K} {v : Option (Val K)} (hv : ¬ Refs v p) :
    v.map (content (poke p k x w).state) = v.map (content w) := by
  unfold poke
  split
  · cases v with
    | none => rfl
    | some v =>
      cases v with
      | num y => rfl
      | arr q => simp only [Res.state, Option.map_some, content, Option.some.injEq, Content.vec.injEq]; exact if_neg hv
      | cut q c => simp only [Res.state, Option.map_some, content, Option.some.injEq, Content.cut.injEq, and_true]; exact if_neg hv
  · rfl

end PySC.Arrays
