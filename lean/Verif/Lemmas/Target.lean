import Verif.Spec.Target
import Verif.Lemmas.Beam
import Verif.Lemmas.Orbit
/-
Lemmas for C113.
-/
set_option linter.unusedSectionVars false
namespace PySC
variable {K : Type} [Field K] [LinearOrder K] [FloorRing K]
open Py Spec

/-- `stitch` is its beginning followed by the pseudo-inverse and the loop -/
theorem stitch_start (E : Env K) (B : BeamEnv K) (O : OrbitEnv K) (rm : List (List K)) (reference : Option (List K))
    (cms : Option CMs) (bpms : Option (List Nat)) (nBpms maxsteps : Nat) (s : SC K) :
    stitch E B O rm reference cms bpms nBpms maxsteps s = (stitchStart E B O rm reference cms bpms nBpms >>= fun p => do
      let mplus ← lift (O.pinv rm)
      stitchLoop E B p.1.1 p.1.2.1 mplus (secondTurnZero p.1.2.2 p.1.1.length) nBpms maxsteps p.2.1 p.2.2) s := by
  simp only [stitch, stitchStart, bind_apply, Py.get]
  split
  · rfl
  · simp only [bind_apply]
    cases checkOrds s rm.length (numCols rm) reference bpms cms with
    | error e => rfl
    | ok c =>
      simp only [lift]
      cases hi : inject E B c.1 s with
      | error e s1 => rfl
      | ok l s1 =>
        simp only
        split
        · rfl
        · split
          · simp only [bind_apply]
            cases wiggling E B O c.1 c.2.1 (c.1.length + nBpms) s1 with
            | error e s2 => rfl
            | ok w s2 =>
              simp only
              cases inject E B c.1 s2 with
              | error e s3 => rfl
              | ok l' s3 =>
                simp only
                split
                · rfl
                · rfl
          · rfl

/-- `balance` is its beginning followed by the pseudo-inverse and the loop -/
theorem balance_start (E : Env K) (B : BeamEnv K) (O : OrbitEnv K) (rm : List (List K)) (reference : Option (List K))
    (cms : Option CMs) (bpms : Option (List Nat)) (eps : K) (maxsteps : Nat) (s : SC K) :
    balance E B O rm reference cms bpms eps maxsteps s = (balanceStart E B rm reference cms bpms >>= fun p => do
      let mplus ← lift (O.pinv rm)
      balanceLoop E B p.1.1 p.1.2.1 mplus (secondTurnZero p.1.2.2 p.1.1.length) eps maxsteps p.2.1 p.2.2) s := by
  simp only [balance, balanceStart, bind_apply, Py.get]
  split
  · rfl
  · simp only [bind_apply]
    cases checkOrds s rm.length (numCols rm) reference bpms cms with
    | error e => rfl
    | ok c =>
      simp only [lift]
      cases inject E B c.1 s with
      | error e s1 => rfl
      | ok l s1 =>
        simp only
        split
        · rfl
        · rfl

theorem stitchStart_length {E : Env K} {B : BeamEnv K} {O : OrbitEnv K} {rm : List (List K)} {ref : List K}
    {cms : Option CMs} {bpms : Option (List Nat)} {nBpms : Nat} {s s' : SC K} {p : (List Nat × CMs × List K) × List (Log K) × Log K}
    (h : stitchStart E B O rm (some ref) cms bpms nBpms s = .ok p s') : ref.length = 4 * p.1.1.length := by
  have h := bindGet_eq_ok.1 h
  by_cases hn : s.INJ.nTurns = 2
  swap
  · rw [if_pos hn] at h; cases h
  rw [if_neg (not_not.2 hn)] at h
  obtain ⟨c, hc, h⟩ := bindLift_eq_ok.1 h
  have hlen : ref.length = 4 * c.1.length := by
    unfold checkOrds at hc
    simp only [hn] at hc
    split at hc
    · cases hc
    · rename_i h1
      split at hc
      · cases hc
      · split at hc
        · cases hc
        · rename_i h2
          cases hc
          simp only
          push Not at h1 h2
          omega
  obtain ⟨l, s1, hl1, h⟩ := bind_eq_ok.1 h
  split at h
  · cases h
  · split at h
    · obtain ⟨_, s2, _, h⟩ := bind_eq_ok.1 h
      obtain ⟨l', s3, _, h⟩ := bind_eq_ok.1 h
      split at h
      · cases h
      · cases h; exact hlen
    · cases h; exact hlen

theorem balanceStart_length {E : Env K} {B : BeamEnv K} {rm : List (List K)} {ref : List K}
    {cms : Option CMs} {bpms : Option (List Nat)} {s s' : SC K} {p : (List Nat × CMs × List K) × List (Log K) × Log K}
    (h : balanceStart E B rm (some ref) cms bpms s = .ok p s') : ref.length = 4 * p.1.1.length := by
  have h := bindGet_eq_ok.1 h
  by_cases hn : s.INJ.nTurns = 2
  swap
  · rw [if_pos hn] at h; cases h
  rw [if_neg (not_not.2 hn)] at h
  obtain ⟨c, hc, h⟩ := bindLift_eq_ok.1 h
  have hlen : ref.length = 4 * c.1.length := by
    unfold checkOrds at hc
    simp only [hn] at hc
    split at hc
    · cases hc
    · rename_i h1
      split at hc
      · cases hc
      · split at hc
        · cases hc
        · rename_i h2
          cases hc
          simp only
          push Not at h1 h2
          omega
  obtain ⟨l, s1, hl1, h⟩ := bind_eq_ok.1 h
  split at h
  · cases h
  · cases h; exact hlen

theorem secondTurnZero_length {ref : List K} {nb : Nat} (h : ref.length = 4 * nb) : (secondTurnZero ref nb).length = ref.length := by
  simp only [secondTurnZero, List.length_append, List.length_take, List.length_drop, List.length_replicate]
  omega

/-- the entries of the prepared array -/
theorem secondTurnZero_get {ref : List K} {nb : Nat} (h : ref.length = 4 * nb) {k : Nat} (hk : k < ref.length)
    (hk' : k < (secondTurnZero ref nb).length) :
    (secondTurnZero ref nb)[k] = if k % (ref.length / 2) < ref.length / 4 then ref[k] else 0 := by
  have h2 : ref.length / 2 = 2 * nb := by omega
  have h4 : ref.length / 4 = nb := by omega
  rw [h2, h4]
  simp only [secondTurnZero, h2]
  have hmod : k % (2 * nb) = if k < 2 * nb then k else k - 2 * nb := by
    split
    · rename_i h1; exact Nat.mod_eq_of_lt h1
    · rename_i h1
      rw [Nat.mod_eq_sub_mod (by omega), Nat.mod_eq_of_lt (by omega)]
  rw [hmod]
  have l1 : (((ref.take (2 * nb)).take nb)).length = nb := by simp only [List.length_take]; omega
  have l2 : (((ref.drop (2 * nb)).take nb)).length = nb := by simp only [List.length_take, List.length_drop]; omega
  have l3 : ((ref.take (2 * nb)).take nb ++ List.replicate (2 * nb - nb) (0 : K)).length = 2 * nb := by
    simp only [List.length_append, l1, List.length_replicate]; omega
  by_cases h1 : k < 2 * nb
  · rw [if_pos h1, List.getElem_append_left (by rw [l3]; exact h1)]
    by_cases h3 : k < nb
    · rw [if_pos h3, List.getElem_append_left (by rw [l1]; exact h3)]
      simp only [List.getElem_take]
    · rw [if_neg h3, List.getElem_append_right (by rw [l1]; omega), List.getElem_replicate]
  · rw [if_neg h1, List.getElem_append_right (by rw [l3]; omega)]
    by_cases h3 : k - 2 * nb < nb
    · rw [if_pos h3, List.getElem_append_left (by rw [l2, l3]; exact h3)]
      simp only [List.getElem_take, List.getElem_drop, l3]
      congr 1; omega
    · rw [if_neg h3, List.getElem_append_right (by rw [l2, l3]; omega), List.getElem_replicate]

theorem secondTurnZero_kept {ref : List K} {nb : Nat} (h : ref.length = 4 * nb) :
    FirstTurnKept ref (secondTurnZero ref nb) := by
  refine ⟨secondTurnZero_length h, fun k hk hk' ho => ?_, Or.inr (fun k hk ho => ?_)⟩
  · rw [secondTurnZero_get h hk hk']; exact if_pos ho
  · rw [secondTurnZero_length h] at ho
    rw [secondTurnZero_get h (by rwa [secondTurnZero_length h] at hk) hk]; exact if_neg ho

theorem Spec.FirstTurnKept.refl (ref : List K) : FirstTurnKept ref ref := ⟨rfl, fun _ _ _ _ => rfl, Or.inl rfl⟩

theorem Spec.FirstTurnKept.trans {a b c : List K} (h1 : FirstTurnKept a b) (h2 : FirstTurnKept b c) : FirstTurnKept a c := by
  obtain ⟨l1, f1, z1⟩ := h1
  obtain ⟨l2, f2, z2⟩ := h2
  refine ⟨l2.trans l1, fun k hk hk' ho => ?_, ?_⟩
  · rw [f2 k (by omega) hk' (by rw [l1]; exact ho), f1 k hk (by omega) ho]
  · rcases z2 with rfl | z2
    · exact z1
    · exact Or.inr z2

/-- nothing is left to be lost -/
theorem Spec.FirstTurnKept.eq {a b : List K} (h : FirstTurnKept a b) (hz : NoSecondTurn a) : b = a := by
  obtain ⟨l, f, z⟩ := h
  rcases z with rfl | z
  · rfl
  · refine List.ext_getElem l (fun k h1 h2 => ?_)
    by_cases ho : OfFirstTurn a.length k
    · exact f k h2 h1 ho
    · rw [z k h1 (by rw [l]; exact ho), hz k h2 ho]

theorem preparedArray_kept {ref : List K} {r : Res (SC K) ((List Nat × CMs × List K) × List (Log K) × Log K)}
    (h : ∀ p s', r = .ok p s' → ref.length = 4 * p.1.1.length) : FirstTurnKept ref (preparedArray ref r) := by
  cases r with
  | error e s => exact FirstTurnKept.refl _
  | ok p s' =>
    obtain ⟨c, hist, l⟩ := p
    simp only [preparedArray]
    split
    · exact secondTurnZero_kept (h _ _ rfl)
    · exact FirstTurnKept.refl _

theorem array_kept (W : World K) (s : SC K) (ref : List K) (c : TargetCall K) : FirstTurnKept ref (c.array W s ref) := by
  cases c with
  | stitch rm c b k n => exact preparedArray_kept (fun p s' hp => stitchStart_length hp)
  | balance rm c b e n => exact preparedArray_kept (fun p s' hp => balanceStart_length hp)
  | other c => exact FirstTurnKept.refl _
  | firstTurn => exact FirstTurnKept.refl _
  | correct => exact FirstTurnKept.refl _

theorem targetHistory_cons (W : World K) (c : TargetCall K) (cs : List (TargetCall K)) (s : SC K) (ref : List K) :
    targetHistory W (c :: cs) s ref = targetHistory W cs ((c.call ref).run W s).state (c.array W s ref) := rfl

theorem copiesHistory_cons (W : World K) (c : TargetCall K) (cs : List (TargetCall K)) (s : SC K) (ref : List K) :
    copiesHistory W (c :: cs) s ref = copiesHistory W cs ((c.call ref).run W s).state ref := rfl

theorem targetHistory_kept (W : World K) (calls : List (TargetCall K)) (s : SC K) (ref : List K) :
    FirstTurnKept ref (targetHistory W calls s ref).2 := by
  induction calls generalizing s ref with
  | nil => exact FirstTurnKept.refl _
  | cons c cs ih =>
    rw [targetHistory_cons]
    exact (array_kept W s ref c).trans (ih _ _)

theorem targetHistory_fixed (W : World K) (calls : List (TargetCall K)) (s : SC K) (ref : List K)
    (h : ∀ c ∈ calls, ∀ t, c.array W t ref = ref) :
    targetHistory W calls s ref = (copiesHistory W calls s ref, ref) := by
  induction calls generalizing s with
  | nil => rfl
  | cons c cs ih =>
    rw [targetHistory_cons, copiesHistory_cons, h c (List.mem_cons_self ..),
      ih _ (fun d hd => h d (List.mem_cons_of_mem _ hd))]

/-- a `stitch` that returns has written into the array -/
theorem stitch_array {W : World K} {rm : List (List K)} {ref : List K} {c : Option CMs} {b : Option (List Nat)} {k n : Nat}
    {s s' : SC K} (h : ((TargetCall.stitch rm c b k n).call ref).run W s = .ok () s') :
    NoSecondTurn ((TargetCall.stitch rm c b k n).array W s ref) := by
  obtain ⟨logs, s1, h, _⟩ := bind_eq_ok.1 h
  rw [stitch_start] at h
  obtain ⟨⟨p, hist, l⟩, s2, hp, h⟩ := bind_eq_ok.1 h
  obtain ⟨mplus, _, h⟩ := bindLift_eq_ok.1 h
  have hlen := stitchStart_length hp
  have hx : l.x.length = 2 * p.1.length := by
    cases n with
    | zero => cases h
    | succ n =>
      unfold stitchLoop at h
      obtain ⟨m, hm, _⟩ := bindLift_eq_ok.1 h
      unfold twoTurns at hm
      split at hm
      · cases hm
      · rename_i hh; push Not at hh; exact hh.1
  simp only [TargetCall.array, hp, preparedArray]
  rw [if_pos (by simp only at hlen; omega)]
  intro k hk ho
  have hl := secondTurnZero_length hlen
  simp only at hlen hl
  rw [hl] at ho
  rw [secondTurnZero_get hlen (by rwa [hl] at hk) hk]; exact if_neg ho

/-- a `balance` that returns has written into the array -/
theorem balance_array {W : World K} {rm : List (List K)} {ref : List K} {c : Option CMs} {b : Option (List Nat)} {e : K} {n : Nat}
    {s s' : SC K} (h : ((TargetCall.balance rm c b e n).call ref).run W s = .ok () s') :
    NoSecondTurn ((TargetCall.balance rm c b e n).array W s ref) := by
  obtain ⟨logs, s1, h, _⟩ := bind_eq_ok.1 h
  rw [balance_start] at h
  obtain ⟨⟨p, hist, l⟩, s2, hp, h⟩ := bind_eq_ok.1 h
  obtain ⟨mplus, _, h⟩ := bindLift_eq_ok.1 h
  have hlen := balanceStart_length hp
  have hx : l.x.length = 2 * p.1.length := by
    cases n with
    | zero => cases h
    | succ n =>
      unfold balanceLoop at h
      obtain ⟨m, hm, _⟩ := bindLift_eq_ok.1 h
      unfold twoTurns at hm
      split at hm
      · cases hm
      · rename_i hh; push Not at hh; exact hh.1
  simp only [TargetCall.array, hp, preparedArray]
  rw [if_pos (by simp only at hlen; omega)]
  intro k hk ho
  have hl := secondTurnZero_length hlen
  simp only at hlen hl
  rw [hl] at ho
  rw [secondTurnZero_get hlen (by rwa [hl] at hk) hk]; exact if_neg ho

end PySC
