import Verif.Lemmas.Arrays
import Mathlib.Algebra.Ring.Rat
/-
C119: the errors of a BPM are its own.
-/
namespace PySC
variable {K : Type} [Mul K] [Zero K]
open Arrays

/-- what writing into an attribute can change -/
theorem pokeRing_state (i : Nat) (f : String) (k : Nat) (x : K) (w : World K) :
    (pokeRing i f k x w).state = w ∨ ∃ p, Refs (w.ring i f) p ∧ (pokeRing i f k x w).state = (poke p k x w).state := by
  unfold pokeRing
  split
  · exact Or.inl rfl
  · exact Or.inl rfl
  · exact Or.inl rfl
  · next p e => exact Or.inr ⟨p, by rw [e]; rfl, rfl⟩

theorem poke_refs (p k : Nat) (x : K) (w : World K) : (poke p k x w).state.ring = w.ring ∧ (poke p k x w).state.sig = w.sig ∧
    (poke p k x w).state.given = w.given ∧ ∀ q, q ≠ p → (poke p k x w).state.cell q = w.cell q := by
  unfold poke
  split
  · exact ⟨rfl, rfl, rfl, fun q hq => if_neg hq⟩
  · exact ⟨rfl, rfl, rfl, fun q hq => rfl⟩

/-- **C119**: after any history, writing into an error of a BPM other than its noise changes no other error of any BPM, no registered uncertainty and no
array of the caller. -/
theorem C119_own_partial (cs : List (Call K)) (i : Nat) (f : String) (hf : f ≠ "Noise" ∧ f ≠ "NoiseCO") (k : Nat) (x : K) (w w' : World K)
    (hw : w = runAll cs World.empty) (hw' : w' = ((Call.change i f k x).run w).state) :
    (∀ j g, ¬ (j = i ∧ g = f) → errorOf w' j g = errorOf w j g) ∧ (∀ j g, uncertaintyOf w' j g = uncertaintyOf w j g) ∧
    ∀ n, givenArray w' n = givenArray w n := by
  have inv : Inv (fun _ _ _ => True) w := by
    rw [hw]
    exact (Inv.empty.runAll (by simp [World.empty]) (fun c _ => by cases c <;> simp [Fits])).1
  have e : w' = (pokeRing i f k x w).state := hw'
  rcases pokeRing_state i f k x w with h | ⟨p, hp, h⟩
  · rw [e, h]; exact ⟨fun _ _ _ => rfl, fun _ _ => rfl, fun _ => rfl⟩
  · have hpg : p ∉ w.given := by
      intro hg
      have := inv.noise i f p hp hg
      simp [isNoise, hf.1, hf.2] at this
    obtain ⟨r1, r2, r3, r4⟩ := poke_refs p k x w
    rw [e, h]
    refine ⟨fun j g hjg => ?_, fun j g => ?_, fun n => ?_⟩
    · unfold errorOf; rw [r1]
      exact content_poke (fun hr => hjg (inv.own i f j g p hp hr hpg))
    · unfold uncertaintyOf; rw [r2]
      exact content_poke (fun hr => hpg (inv.sig_given j g p hr))
    · unfold givenArray; rw [r3]
      cases hn : w.given[n]? with
      | none => rfl
      | some q => exact congrArg some (r4 q (fun e => hpg (e ▸ List.mem_of_getElem? hn)))

/-- **C119**: writing into the noise of a BPM changes no other error of any BPM if every array was registered for one field of one BPM only. -/
theorem C119_noise_partial (cs : List (Call K)) (hg : GivenOnce cs) (i : Nat) (f : String) (k : Nat) (x : K) (w w' : World K)
    (hw : w = runAll cs World.empty) (hw' : w' = ((Call.change i f k x).run w).state) :
    ∀ j g, ¬ (j = i ∧ g = f) → errorOf w' j g = errorOf w j g := by
  obtain ⟨owner, ho⟩ := hg
  have inv : Inv (fun n j g => owner n = (j, g)) w := by
    rw [hw]
    refine (Inv.empty.runAll (by simp [World.empty]) (fun c hc => ?_)).1
    cases c with
    | register ords kw => exact ho ords kw hc
    | _ => trivial
  intro j g hjg
  have e : w' = (pokeRing i f k x w).state := hw'
  rcases pokeRing_state i f k x w with h | ⟨p, hp, h⟩
  · rw [e, h]
  · obtain ⟨r1, r2, r3, r4⟩ := poke_refs p k x w
    rw [e, h]
    unfold errorOf; rw [r1]
    refine content_poke (fun hr => ?_)
    by_cases hpg : p ∈ w.given
    · obtain ⟨n, hn⟩ := List.getElem?_of_mem hpg
      have := (inv.ring_ok i f n p hn hp).symm.trans (inv.ring_ok j g n p hn hr)
      simp only [Prod.mk.injEq] at this
      exact hjg ⟨this.1.symm, this.2.symm⟩
    · exact hjg (inv.own i f j g p hp hr hpg)

/-- **C119**: assigning a new array to an error of a BPM, also to its noise, changes only this error. -/
theorem C119_assign (cs : List (Call K)) (i : Nat) (f : String) (v : List K) (w w' : World K)
    (hw : w = runAll cs World.empty) (hw' : w' = ((Call.assign i f v).run w).state) :
    errorOf w' i f = some (.vec v) ∧ (∀ j g, ¬ (j = i ∧ g = f) → errorOf w' j g = errorOf w j g) ∧
    (∀ j g, uncertaintyOf w' j g = uncertaintyOf w j g) ∧ ∀ n, givenArray w' n = givenArray w n := by
  have inv : Inv (fun _ _ _ => True) w := by
    rw [hw]
    exact (Inv.empty.runAll (by simp [World.empty]) (fun c _ => by cases c <;> simp [Fits])).1
  have old : ∀ val : Option (Val K), (∀ p, Refs val p → p < w.next) → val.map (content (putNew i f v w)) = val.map (content w) := by
    intro val hv
    cases val with
    | none => rfl
    | some val =>
      cases val with
      | num y => rfl
      | arr q =>
        have := hv q rfl
        simp only [Option.map_some, content, putNew, putRing, alloc]
        rw [if_neg (by omega)]
      | cut q c =>
        have := hv q rfl
        simp only [Option.map_some, content, putNew, putRing, alloc]
        rw [if_neg (by omega)]
  have e : w' = putNew i f v w := hw'
  subst e
  refine ⟨?_, fun j g hjg => ?_, fun j g => ?_, fun n => ?_⟩
  · simp [errorOf, putNew, putRing, alloc, content]
  · have : (putNew i f v w).ring j g = w.ring j g := if_neg hjg
    unfold errorOf; rw [this]
    exact old _ (inv.ring_lt j g)
  · exact old _ (fun p hp => inv.given_lt p (inv.sig_given j g p hp))
  · show (w.given[n]?).map (putNew i f v w).cell = (w.given[n]?).map w.cell
    cases hn : w.given[n]? with
    | none => rfl
    | some q =>
      have := inv.given_lt q (List.mem_of_getElem? hn)
      simp only [Option.map_some, putNew, putRing, alloc]
      rw [if_neg (by omega)]

/-- a history: two BPMs registered with different noise, a third one with an offset -/
def Example.noisy : List (Call ℚ) :=
  [.array [1, 2], .array [3, 4], .register [5] [("Noise", .array 0)], .register [7] [("Noise", .array 1), ("Offset", .num 1)],
   .applyErrors (fun i _ k => i + k)]

theorem Example.noisy_once : GivenOnce Example.noisy := by
  refine ⟨fun n => if n = 0 then (5, "Noise") else (7, "Noise"), ?_⟩
  intro ords kw h i hi p hp n hn
  simp only [Example.noisy, List.mem_cons, List.not_mem_nil, or_false, reduceCtorEq, false_or, Call.register.injEq] at h
  rcases h with ⟨rfl, rfl⟩ | ⟨rfl, rfl⟩
  · simp only [List.mem_singleton] at hi hp
    subst hi hp
    cases hn; rfl
  · simp only [List.mem_singleton, List.mem_cons, List.not_mem_nil, or_false] at hi hp
    subst hi
    rcases hp with rfl | rfl
    · cases hn; rfl
    · cases hn

example : GivenOnce Example.noisy ∧ errorOf (runAll Example.noisy World.empty) 5 "Noise" = some (.vec [1, 2]) ∧
    errorOf (runAll Example.noisy World.empty) 7 "Noise" = some (.vec [3, 4]) ∧
    errorOf ((Call.change 5 "Noise" 0 9).run (runAll Example.noisy World.empty)).state 5 "Noise" = some (.vec [9, 2]) ∧
    errorOf ((Call.change 7 "CalError" 1 9).run (runAll Example.noisy World.empty)).state 7 "CalError" = some (.vec [0, 9]) :=
  ⟨Example.noisy_once, by decide +kernel, by decide +kernel, by decide +kernel, by decide +kernel⟩

/-- **C119 is violated**: two BPMs are registered in one call.  Writing into the noise of one of them changes that of the other one, the registered
uncertainties and the array of the caller, and applying errors again does not bring the registered noise back. -/
theorem C119_violated : ∃ (cs : List (Call ℚ)) (w w' : World ℚ), w = runAll cs World.empty ∧ w' = ((Call.change 5 "Noise" 0 0).run w).state ∧
    cs = [.array [1, 2], .register [5, 7] [("Noise", .array 0)], .applyErrors (fun _ _ _ => 1)] ∧
    errorOf w 7 "Noise" = some (.vec [1, 2]) ∧ errorOf w' 7 "Noise" = some (.vec [0, 2]) ∧
    uncertaintyOf w 7 "Noise" = some (.vec [1, 2]) ∧ uncertaintyOf w' 7 "Noise" = some (.vec [0, 2]) ∧
    givenArray w' 0 = some [0, 2] ∧
    errorOf ((Call.applyErrors (fun _ _ _ => 1)).run w').state 5 "Noise" = some (.vec [0, 2]) :=
  ⟨_, _, _, rfl, rfl, rfl, by decide +kernel, by decide +kernel, by decide +kernel, by decide +kernel, by decide +kernel, by decide +kernel⟩

end PySC
