import Verif.Spec.Chroma
import Verif.Props.Setpoints
import Verif.Props.Bba
/-
C74 (chromaticity and tune fits).
-/
set_option linter.unusedSectionVars false
namespace PySC
open Py Spec
variable {K : Type} [Field K] [LinearOrder K] [IsStrictOrderedRing K] [FloorRing K]

theorem Spec.OnlySextupoles.refl (fams : List (List Nat)) (s : SC K) : OnlySextupoles fams s s := ⟨fun _ _ _ _ => rfl, Frame.refl _⟩

theorem Spec.OnlySextupoles.trans {fams : List (List Nat)} {s t u : SC K} (h1 : OnlySextupoles fams s t) (h2 : OnlySextupoles fams t u) :
    OnlySextupoles fams s u :=
  ⟨fun i sk k h => (h2.setpoints i sk k h).trans (h1.setpoints i sk k h), Frame.trans _ _ _ h1.rest h2.rest⟩

theorem Spec.OnlySextupoles.mono {fams fams' : List (List Nat)} {s t : SC K} (hf : ∀ o ∈ fams.flatten, o ∈ fams'.flatten)
    (h : OnlySextupoles fams s t) : OnlySextupoles fams' s t :=
  ⟨fun i sk k hn => h.setpoints i sk k (fun hh => hn ⟨hf _ hh.1, hh.2⟩),
    h.rest.mono (by rintro i a (⟨h1, h2⟩ | h1); exacts [Or.inl ⟨hf _ h1, h2⟩, Or.inr h1])⟩

theorem setSextupoles_only {ords : List Nat} {v : NpArr K} {s s' : SC K} {u : Unit} (h : setMagnetSetpoints ords v false 2 "abs" true s = .ok u s') :
    OnlySextupoles [ords] s s' := by
  refine ⟨fun i sk k hn => setMagnetSetpoints_other h i sk k (Or.inr (Or.inr (by norm_num))) ?_, ?_⟩
  · simp only [List.flatten_cons, List.flatten_nil, List.append_nil] at hn
    tauto
  · refine ((setMagnetSetpoints_modifies ords v false 2 "abs" true).ok h).mono ?_
    rintro i a (⟨h1, h2 | ⟨-, h2⟩⟩ | h)
    · exact Or.inl ⟨by simpa using h1, h2⟩
    · exact Or.inl ⟨by simpa using h1, h2⟩
    · right; simpa [magnetWrites] using h

theorem chromaSet_ok {x : List K} {n : Nat} {fams : List (List Nat)} {sp0 : List (List K)} {s s' : SC K} {u : Unit} (hnd : fams.flatten.Nodup)
    (hlen : ∀ (j : Nat) fam v, fams[j]? = some fam → sp0[j]? = some v → v.length = fam.length)
    (h : chromaSet x n fams sp0 s = .ok u s') :
    OnlySextupoles fams s s' ∧ ∀ (j : Nat) (fam : List Nat), fams[j]? = some fam → ∃ xn v, x[n + j]? = some xn ∧ sp0[j]? = some v ∧
      ∀ (k o : Nat) w, fam[k]? = some o → v[k]? = some w → setpoint s'.RING o false 2 = xn + w := by
  induction fams generalizing n sp0 s with
  | nil => cases h; exact ⟨OnlySextupoles.refl _ _, by simp⟩
  | cons fam fams ih =>
    unfold chromaSet at h
    rw [bindLift_eq_ok] at h
    obtain ⟨xn, hx, h⟩ := h
    cases sp0 with
    | nil => cases h
    | cons v sp0 =>
      simp only [bind_eq_ok] at h
      obtain ⟨_, s1, h1, h2⟩ := h
      rw [List.flatten_cons, List.nodup_append] at hnd
      obtain ⟨hn1, hn2, hdis⟩ := hnd
      obtain ⟨k1, k2⟩ := ih hn2 (fun j fam w hf hw => hlen (j + 1) fam w (by simpa using hf) (by simpa using hw)) h2
      have o1 := setSextupoles_only h1
      refine ⟨(o1.mono (fun o ho => by simp at ho; simp [ho])).trans (k1.mono (fun o ho => by rw [List.flatten_cons]; exact List.mem_append_right _ ho)), ?_⟩
      intro j fam' hj
      cases j with
      | succ j =>
        obtain ⟨xn', v', e1, e2, e3⟩ := k2 j fam' (by simpa using hj)
        exact ⟨xn', v', by rw [← e1]; congr 1; omega, by simpa using e2, e3⟩
      | zero =>
        simp only [List.getElem?_cons_zero, Option.some.injEq] at hj
        subst hj
        refine ⟨xn, v, by simpa using idx_eq_ok.1 hx, by simp, fun k o w hk hw => ?_⟩
        have ho : o ∈ fam := List.mem_of_getElem? hk
        rw [k1.setpoints o false 2 (fun hh => hdis o ho o hh.1 rfl)]
        have hlast : LastAt fam k o := by
          refine ⟨hk, fun j hj hjo => ?_⟩
          obtain ⟨p1, p2⟩ := List.getElem?_eq_some_iff.1 hk
          obtain ⟨q1, q2⟩ := List.getElem?_eq_some_iff.1 hjo
          have := (List.Nodup.getElem_inj_iff hn1 (hi := p1) (hj := q1)).1 (p2.trans q2.symm)
          omega
        rw [setMagnetSetpoints_setpoint h1 hlast]
        have hl := hlen 0 fam v (by simp) (by simp)
        have hv : valueFor (v.map (fun s => xn + s)) k = xn + w := by
          unfold valueFor
          rw [List.length_map]
          obtain ⟨p1, -⟩ := List.getElem?_eq_some_iff.1 hk
          by_cases h1 : v.length = 1
          · have hk0 : k = 0 := by omega
            subst hk0
            rw [if_pos h1]
            exact coef_of_getElem? (by rw [List.getElem?_map, hw]; rfl)
          · rw [if_neg h1]
            exact coef_of_getElem? (by rw [List.getElem?_map, hw]; rfl)
        simp [magnetAsked, asked, hv]

theorem chromaSetpoints_ok {r : Ring K} {fams : List (List Nat)} {sp0 : List (List K)} (h : chromaSetpoints r fams = .ok sp0) :
    sp0.length = fams.length ∧ ∀ (j : Nat) fam, fams[j]? = some fam → sp0[j]? = some (fam.map (fun o => truncZ (setpoint r o false 2))) := by
  obtain ⟨h1, h2⟩ := mapM_except_eq_ok h
  refine ⟨h1, fun j fam hj => ?_⟩
  obtain ⟨v, e1, e2⟩ := h2 j fam hj
  rw [e2]
  congr 1
  refine mapM_except_map (fun o _ y hy => ?_) e1
  rw [Except.bind_eq_ok'] at hy
  obtain ⟨w, hw, hy⟩ := hy
  rw [Except.bind_eq_ok'] at hy
  obtain ⟨z, hz, hy⟩ := hy
  cases hy
  rw [setpoint_of_attr (Ring.getVec_eq_ok.1 hw), coef_of_getElem? (idx_eq_ok.1 hz)]

theorem minimise_ok {σ : Type} {m : Minimiser K} {x0 : List K} {f : List K → Py σ (Option K)} {P : σ → Prop} {Q : List K → σ → Prop}
    (hf : ∀ x s y s', P s → f x s = .ok y s' → P s' ∧ Q x s') {fuel : Nat} {hist : List (List K × Option K)} {s s' : σ} {x : List K}
    (hP : P s) (h : minimise m x0 f fuel hist s = .ok x s') :
    ∃ l, Asked m x0 hist l ∧ P s' ∧ (l = [] → s' = s) ∧ ∀ p, l.getLast? = some p → Q p.1 s' := by
  induction fuel generalizing hist s with
  | zero =>
    unfold minimise at h
    cases hn : m.next x0 hist with
    | inl z => rw [hn] at h; cases h
    | inr z => rw [hn] at h; cases h; exact ⟨[], .done hn, hP, fun _ => rfl, by simp⟩
  | succ fuel ih =>
    unfold minimise at h
    cases hn : m.next x0 hist with
    | inr z => rw [hn] at h; cases h; exact ⟨[], .done hn, hP, fun _ => rfl, by simp⟩
    | inl z =>
      rw [hn] at h
      simp only [bind_eq_ok] at h
      obtain ⟨y, s1, h1, h2⟩ := h
      obtain ⟨p1, q1⟩ := hf z s y s1 hP h1
      obtain ⟨l, a1, a2, a3, a4⟩ := ih p1 h2
      refine ⟨(z, y) :: l, .step hn a1, a2, by simp, fun p hp => ?_⟩
      cases l with
      | nil =>
        simp only [List.getLast?_singleton, Option.some.injEq] at hp
        subst hp
        rw [a3 rfl]; exact q1
      | cons b l => exact a4 p (by rw [List.getLast?_cons_cons] at hp; exact hp)

/-- **C74** (partial, see the violations below): whatever the minimiser does, nothing but the sextupole set-points of the given families (and the
fields realising them) differs afterwards.  They are those before the call, rounded towards zero, plus one number per family: the point
the minimiser asked for last. -/
theorem C74_chroma_partial (m : Minimiser K) (fuel : Nat) (merit : K × K → Ring K → Option K) (design : Ring K → Option K × Option K)
    (fams : List (List Nat)) (hnd : fams.flatten.Nodup) (target : Option (Option K × Option K)) (x0 : List K) (s s' : SC K)
    (h : fitChroma m fuel merit design fams target x0 s = .ok () s') :
    s' = s ∨ OnlySextupoles fams s s' ∧ ∃ l x y, Asked m x0 [] (l ++ [(x, y)]) ∧ SextupolesAt s s' fams x := by
  unfold fitChroma at h
  rw [bindGet_eq_ok] at h
  cases ht : target.getD (design s.IDEALRING) with
  | mk a b =>
    rw [ht] at h
    cases a with
    | none => cases h; exact Or.inl rfl
    | some a =>
      cases b with
      | none => cases h; exact Or.inl rfl
      | some b =>
        simp only at h
        rw [bindRd_eq_ok] at h
        obtain ⟨sp0, h0, h⟩ := h
        rw [bind_eq_ok] at h
        obtain ⟨z, s1, h1, h⟩ := h
        cases h
        obtain ⟨l0, hsp⟩ := chromaSetpoints_ok h0
        obtain ⟨l, a1, a2, a3, a4⟩ := minimise_ok (P := fun t => OnlySextupoles fams s t) (Q := fun x t => SextupolesAt s t fams x) (f := chromaFun (merit (a, b)) fams sp0)
          (fun x t y t' hP hf => by
            unfold chromaFun at hf
            rw [bind_eq_ok] at hf
            obtain ⟨_, t1, hf, hf'⟩ := hf
            rw [bindGet_eq_ok] at hf'
            cases hf'
            obtain ⟨c1, c2⟩ := chromaSet_ok hnd (fun j fam v hj hv => by rw [hsp j fam hj] at hv; cases hv; simp) hf
            refine ⟨hP.trans c1, fun n fam hn => ?_⟩
            obtain ⟨xn, v, e1, e2, e3⟩ := c2 n fam hn
            refine ⟨xn, by simpa using e1, fun o ho => ?_⟩
            obtain ⟨k, hk⟩ := List.mem_iff_getElem?.1 ho
            rw [hsp n fam hn] at e2; cases e2
            exact e3 k o _ hk (by rw [List.getElem?_map, hk]; rfl)) (OnlySextupoles.refl fams s) h1
        rcases List.eq_nil_or_concat l with rfl | ⟨l', p, rfl⟩
        · exact Or.inl (a3 rfl)
        · rw [List.concat_eq_append] at a1 a4
          exact Or.inr ⟨a2, l', p.1, p.2, a1, a4 p (by simp)⟩

/-- **C74**: a target which is not a number leaves the machine as it is; no exception is raised. -/
theorem C74_nan_target (m : Minimiser K) (fuel : Nat) (merit : K × K → Ring K → Option K) (design : Ring K → Option K × Option K)
    (fams : List (List Nat)) (a b : Option K) (h : a = none ∨ b = none) (x0 : List K) (s : SC K) :
    fitChroma m fuel merit design fams (some (a, b)) x0 s = .ok () s := by
  unfold fitChroma
  rw [bind_apply, get_apply]
  simp only [Option.getD_some]
  rcases h with rfl | rfl
  · rfl
  · cases a <;> rfl

/-- **C74** is violated: the tune fit raises an exception for every machine, and leaves the machine as it is. -/
theorem C74_violated_tune (tune : Ring K → Except Err Unit) (fams : List (List Nat)) (given : Bool) (s : SC K) :
    ∃ e, fitTune tune fams given s = .error e s := by
  unfold fitTune
  simp only [bind_apply, get_apply]
  cases h1 : (if given = true then Except.ok () else tune s.IDEALRING) with
  | error e => exact ⟨e, rfl⟩
  | ok u =>
    simp only [lift_ok_apply]
    cases h2 : tune s.RING with
    | error e => exact ⟨e, rfl⟩
    | ok u =>
      simp only [lift_ok_apply]
      unfold rd
      cases h3 : tuneSetpoints s.RING fams with
      | error e => exact ⟨e, by simp only [h3]⟩
      | ok v => exact ⟨.typeError, by simp only [h3]; rfl⟩

/-! ### Example: a minimiser which asks for the values at the start and one further point, and returns the better one -/

def Example.twoPoints : Minimiser ℚ := ⟨fun x0 hist =>
  match hist with
  | [] => .inl x0
  | [_] => .inl (x0.map (· + 1))
  | (x, some y) :: (x', some y') :: _ => if y ≤ y' then .inr x else .inr x'
  | (x, _) :: _ => .inr x⟩

/-- a machine with two sextupoles of strength 1/2 and 3/2 (elements 2 and 4) -/
def Example.sextupoles : SC ℚ :=
  let e : ℚ → Elem ℚ := fun k => Elem.ofList [("PassMethod", .str "StrMPoleSymplectic4Pass"), ("Length", .num 1), ("MaxOrder", .num 2),
    ("PolynomA", .vec [0, 0, 0]), ("PolynomB", .vec [0, 0, k]), ("SetPointA", .vec [0, 0, 0]), ("SetPointB", .vec [0, 0, k]),
    ("CalErrorA", .vec [0, 0, 0]), ("CalErrorB", .vec [0, 0, 0])]
  { Example.sc with RING := [Example.bpm, Example.bpm, e (1/2), Example.bpm, e (3/2)], IDEALRING := [] }

/-- the chromaticity is the sum of both strengths in the first plane and their difference in the second -/
def Example.chromMerit (t : ℚ × ℚ) (r : Ring ℚ) : Option ℚ :=
  some (|setpoint r 2 false 2 + setpoint r 4 false 2 - t.1| + |setpoint r 4 false 2 - setpoint r 2 false 2 - t.2|)

/-- the minimiser returns the better one of the points it has asked for -/
example (x x' : List ℚ) (y y' : ℚ) (x0 : List ℚ) (hist : List (List ℚ × Option ℚ)) :
    Example.twoPoints.next x0 ((x, some y) :: (x', some y') :: hist) = .inr (if y ≤ y' then x else x') := by
  simp only [Example.twoPoints]; split <;> rfl

/-- **C74** is violated: the solution is not set.  The minimiser finds that the first point is right and returns it, but the machine is left
at the point it has tried last: a machine which had the target chromaticity does not have it after the fit. -/
theorem C74_violated_solution : ∃ s', fitChroma Example.twoPoints 5 Example.chromMerit (fun _ => (none, none)) [[2], [4]] (some (some 2, some 1))
      [1/2, 1/2] Example.sextupoles = .ok () s' ∧
    Example.chromMerit (2, 1) Example.sextupoles.RING = some 0 ∧ Example.chromMerit (2, 1) s'.RING = some 2 := by
  refine ⟨_, ok_of_isOk (by decide +kernel), by decide +kernel, by decide +kernel⟩

/-- a minimiser which only asks for the value at the start, and returns the start -/
def Example.onePoint : Minimiser ℚ := ⟨fun x0 hist => if hist.isEmpty then .inl x0 else .inr x0⟩

/-- **C74** is violated: the set-points to which changes are added are rounded.  A change by nothing sets the sextupoles of strengths 1/2 and 3/2 to 0
and 1. -/
theorem C74_violated_rounding : ∃ s', fitChroma Example.onePoint 5 Example.chromMerit (fun _ => (none, none)) [[2], [4]] (some (some 2, some 1))
      [0, 0] Example.sextupoles = .ok () s' ∧
    setpoint Example.sextupoles.RING 2 false 2 = 1/2 ∧ setpoint s'.RING 2 false 2 = 0 ∧
    setpoint Example.sextupoles.RING 4 false 2 = 3/2 ∧ setpoint s'.RING 4 false 2 = 1 := by
  refine ⟨_, ok_of_isOk (by decide +kernel), by decide +kernel, by decide +kernel, by decide +kernel, by decide +kernel⟩

end PySC
