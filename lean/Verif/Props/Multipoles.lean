import Verif.Lemmas.Multipoles
import Verif.Props.Perfect
/-
C56 (systematic multipole errors), C57 (random multipole errors).
-/
namespace PySC
open Py Spec
set_option linter.unusedSectionVars false
variable {K : Type} [Field K] [LinearOrder K] [FloorRing K]

/-! ### C57 -/
section ord
variable [IsStrictOrderedRing K]

/-- **C57**: `set_random_multipole_errors(ords, BA)` draws one table of errors within two times the amplitudes `BA` for
every ordinate given, and adds its columns to the offsets of the skew and normal multipoles of that element (as often as
the element is given), the shorter array being padded with zeros. -/
theorem C57_random_multipoles (E : Env K) (ords : List Nat) (BA : List (K × K)) (s s' : SC K)
    (h : setRandomMultipoles E ords BA s = .ok () s') :
    ∃ ts : List (List (K × K)), ts.length = ords.length ∧ (∀ t ∈ ts, Within2 BA t) ∧
      ∀ i, ∀ ab ∈ ["A", "B"], ∀ k, coef (vecAt s'.RING i ("Polynom" ++ ab ++ "Offset")) k =
        coef (vecAt s.RING i ("Polynom" ++ ab ++ "Offset")) k +
          ((ords.zip ts).map (fun p => if p.1 = i then entry p.2 ab k else 0)).sum :=
  setRandomMultipoles_ok h

/-- the state after several calls, each with its own magnets and amplitudes -/
def randomMultipolesTimes (E : Env K) (calls : List (List Nat × List (K × K))) : Py (SC K) Unit :=
  Py.forEach calls (fun c => setRandomMultipoles E c.1 c.2)

/-- **C57**: several calls accumulate: the offset of a multipole grows at most by two times the sum of the amplitudes given
for the element in all the calls. -/
theorem C57_calls_accumulate (E : Env K) (calls : List (List Nat × List (K × K))) (s s' : SC K)
    (h : randomMultipolesTimes E calls s = .ok () s') (i : Nat) (ab : String) (hab : ab ∈ ["A", "B"]) (k : Nat) :
    |coef (vecAt s'.RING i ("Polynom" ++ ab ++ "Offset")) k - coef (vecAt s.RING i ("Polynom" ++ ab ++ "Offset")) k| ≤
      2 * (calls.map (fun c => (c.1.count i : K) * |entry c.2 ab k|)).sum := by
  unfold randomMultipolesTimes at h
  induction calls generalizing s with
  | nil => cases h; simp
  | cons c cs ih =>
    rw [forEach_cons, bind_eq_ok] at h
    obtain ⟨⟨⟩, s1, h1, h2⟩ := h
    have e2 := ih s1 h2
    obtain ⟨ts, hl, hw, e1⟩ := setRandomMultipoles_ok h1
    have e1 := e1 i ab hab k
    have hsum : ∀ (o : List Nat) (ts : List (List (K × K))), ts.length = o.length → (∀ t ∈ ts, Within2 c.2 t) →
        |((o.zip ts).map (fun p => if p.1 = i then entry p.2 ab k else 0)).sum| ≤ 2 * ((o.count i : K) * |entry c.2 ab k|) := by
      intro o
      induction o with
      | nil => intro ts _ _; simp
      | cons j o ih =>
        intro ts hl hw
        match ts, hl with
        | t :: ts, hl =>
          have g1 := ih ts (by simpa using hl) (fun t ht => hw t (by simp [ht]))
          have g2 := (hw t (by simp)).2 ab hab k
          rw [List.zip_cons_cons, List.map_cons, List.sum_cons, List.count_cons]
          refine le_trans (abs_add_le _ _) ?_
          by_cases hj : j = i
          · subst hj
            simp only [if_true, beq_self_eq_true, Nat.cast_add, Nat.cast_one, add_mul, one_mul, mul_add] at g1 g2 ⊢
            linarith
          · have : (j == i) = false := by simpa using hj
            simp only [hj, this, if_false, abs_zero, zero_add] at g1 ⊢
            simpa using g1
    have e3 := hsum c.1 ts hl hw
    rw [List.map_cons, List.sum_cons, mul_add]
    have key : ∀ x y z S : K, y = z + S → |x - z| ≤ |x - y| + |S| := fun x y z S hy => by
      rw [show x - z = (x - y) + S by rw [hy]; ring]; exact abs_add_le _ _
    refine le_trans (key _ _ _ _ e1) ?_
    rw [add_comm]
    exact add_le_add e3 e2

/-- **C57**: the stored arrays are as long as the longer of the old array and the table. -/
theorem C57_padded (E : Env K) (i : Nat) (BA : List (K × K)) (s s' : SC K) (h : setRandomMultipoles E [i] BA s = .ok () s')
    (ab : String) (hab : ab ∈ ["A", "B"]) :
    ∃ v, s'.RING.attr i ("Polynom" ++ ab ++ "Offset") = some (.vec v) ∧
      v.length = max (vecAt s.RING i ("Polynom" ++ ab ++ "Offset")).length BA.length := by
  unfold setRandomMultipoles at h
  rw [forEach_cons, bind_eq_ok] at h
  obtain ⟨⟨⟩, s1, h1, h2⟩ := h
  cases h2
  obtain ⟨t, -, ht⟩ := randomMultipole1_ok h1
  obtain ⟨v, h1, -, h3⟩ := ht ab hab
  exact ⟨v, h1, h3⟩

end ord

/-- **C57**: nothing else is touched, even if the call fails. -/
theorem C57_nothing_else (E : Env K) (ords : List Nat) (BA : List (K × K)) (s : SC K) :
    DrawFrame (fun i a => i ∈ ords ∧ a ∈ ["PolynomAOffset", "PolynomBOffset"]) s (setRandomMultipoles E ords BA s).state := by
  unfold setRandomMultipoles
  exact (Rels.forEach (R := DrawFrame (fun i a => i ∈ ords ∧ a ∈ ["PolynomAOffset", "PolynomBOffset"])) (fun i hi =>
    Rel.mono (fun s s' h => h.mono (fun j a hh => ⟨hh.1 ▸ hi, hh.2⟩)) (randomMultipole1_rel i))) s

example : (setRandomMultipoles Example.env [2, 3, 2] [(1, 1/10), (2, 0), (1/100, 1)] Example.sc).isOk = true ∧
    (setRandomMultipoles Example.env [2, 3, 2] [(1, 1/10), (2, 0), (1/100, 1), (1, 1)] Example.sc).state.RING.attr 2 "PolynomBOffset" =
      some (.vec [1/6, -4/3, 1801/600, 1]) := by decide +kernel

/-! ### C56 -/

theorem okVal_of_isOk {σ α : Type _} {r : Res σ α} {a : α} (h : r.value? = some a) : r = .ok a r.state := by
  cases r with
  | ok b s => cases h; rfl
  | error e s => cases h


/-- **C56**: `set_systematic_multipole_errors(ords, BA, order, skewness)` stores for every magnet given one table entry for
the multipole `order`: the column of `BA` which belongs to `skewness`, with the main component removed.  Entries for other
orders stay.  The full claim (column A acts on PolynomA, column B on PolynomB, the caller's table is not changed) fails, see
`C56_violated_columns` and `C56_violated_table`. -/
theorem C56_tables_partial (ords : List Nat) (BA BA' : List (K × K)) (order : Nat) (skew : Bool) (s s' : SC K)
    (h : setSystematicMultipoles ords BA order skew s = .ok BA' s') (i : Nat) (hi : i ∈ ords) (target : String)
    (ht : target ∈ ["A", "B"]) :
    ∃ d col, s'.RING.attr i ("SysPol" ++ target ++ "From" ++ (if skew then "A" else "B")) = some (.multip d) ∧
      Dict.get? d order = some col ∧ (∀ k, coef col k = if k = order then 0 else entry BA (if skew then "A" else "B") k) ∧
      ∀ o, o ≠ order → Dict.get? d o =
        Dict.get? (tableAt s.RING i ("SysPol" ++ target ++ "From" ++ (if skew then "A" else "B"))) o := by
  obtain ⟨-, -, h3⟩ := setSystematicMultipoles_ok h
  refine ⟨_, _, h3 i hi target ht, ?_, coef_reducedColumn BA order skew, fun o ho => ?_⟩
  · rw [Dict.get?_set, if_pos rfl]
  · rw [Dict.get?_set, if_neg ho]; rfl

/-- **C56**: nothing else in the machine is touched, even if the call fails. -/
theorem C56_nothing_else (ords : List Nat) (BA : List (K × K)) (order : Nat) (skew : Bool) (s : SC K) :
    Frame (fun i a => i ∈ ords ∧ ∃ target ∈ ["A", "B"], a = "SysPol" ++ target ++ "From" ++ (if skew then "A" else "B")) s
      (setSystematicMultipoles ords BA order skew s).state :=
  setSystematicMultipoles_rel ords BA order skew s

/-- **C56**: the effect on the field.  Of a magnet without systematic errors so far, both polynomials change by the main
field of the given order times the stored column.  With zero main field no systematic error acts. -/
theorem C56_effect_partial (ords : List Nat) (BA BA' : List (K × K)) (order : Nat) (skew : Bool) (s s' : SC K)
    (h : setSystematicMultipoles ords BA order skew s = .ok BA' s') (i : Nat) (hi : i ∈ ords)
    (hno : ∀ target ∈ ["A", "B"], s.RING.attr i ("SysPol" ++ target ++ "From" ++ (if skew then "A" else "B")) = none)
    (target : String) (ht : target ∈ ["A", "B"]) (k : Nat) :
    multipole s'.RING i i target k = multipole s.RING i i target k +
      mainField s.RING i (if skew then "A" else "B") order * (if k = order then 0 else entry BA (if skew then "A" else "B") k) := by
  obtain ⟨-, -, h3⟩ := setSystematicMultipoles_ok h
  have fr := (setSystematicMultipoles_rel ords BA order skew).ok h
  have hc := coef_reducedColumn BA order skew k
  have names : ∀ src ∈ ["A", "B"], ∀ a ∈ ["SetPointA", "SetPointB", "CalErrorA", "CalErrorB", "PolynomAOffset", "PolynomBOffset"],
      ∀ t ∈ ["A", "B"], a ≠ "SysPol" ++ t ++ "From" ++ src := by decide +kernel
  have names2 : ∀ src ∈ ["A", "B"], ∀ src' ∈ ["A", "B"], ∀ t ∈ ["A", "B"], ∀ t' ∈ ["A", "B"],
      "SysPol" ++ t ++ "From" ++ src = "SysPol" ++ t' ++ "From" ++ src' → src = src' := by decide +kernel
  have hsrc : (if skew then "A" else "B") ∈ ["A", "B"] := by cases skew <;> decide
  generalize hsk : (if skew then "A" else "B") = src at *
  have same : ∀ a ∈ ["SetPointA", "SetPointB", "CalErrorA", "CalErrorB", "PolynomAOffset", "PolynomBOffset"],
      s'.RING.attr i a = s.RING.attr i a := fun a ha => fr.attr i a (fun ⟨_, t, htt, hh⟩ => names src hsrc a ha t htt hh)
  have mf : ∀ x ∈ ["A", "B"], ∀ n, mainField s'.RING i x n = mainField s.RING i x n := by
    intro x hx n
    have k1 : ∀ x ∈ ["A", "B"], "SetPoint" ++ x ∈ ["SetPointA", "SetPointB", "CalErrorA", "CalErrorB", "PolynomAOffset", "PolynomBOffset"] ∧
      "CalError" ++ x ∈ ["SetPointA", "SetPointB", "CalErrorA", "CalErrorB", "PolynomAOffset", "PolynomBOffset"] := by decide +kernel
    unfold mainField
    unfold vecAt
    rw [same _ (k1 x hx).1, same _ (k1 x hx).2]
  have off : vecAt s'.RING i ("Polynom" ++ target ++ "Offset") = vecAt s.RING i ("Polynom" ++ target ++ "Offset") := by
    have k1 : ∀ x ∈ ["A", "B"], "Polynom" ++ x ++ "Offset" ∈
      ["SetPointA", "SetPointB", "CalErrorA", "CalErrorB", "PolynomAOffset", "PolynomBOffset"] := by decide +kernel
    unfold vecAt
    rw [same _ (k1 target ht)]
  have sysNew : systematicFrom s'.RING i i target src k = mainField s.RING i src order * (if k = order then 0 else entry BA src k) := by
    unfold systematicFrom tableAt
    rw [show s'.RING.attr i ("SysPol" ++ target ++ "From" ++ src) = _ from h3 i hi target ht]
    simp only [tableAt, sysAttr, hno target ht, Dict.set, List.map_cons, List.map_nil, List.sum_cons, List.sum_nil, add_zero]
    rw [mf src hsrc, hc]
  have sysOld : systematicFrom s.RING i i target src k = 0 := by
    unfold systematicFrom tableAt
    rw [hno target ht]; rfl
  have sysOther : ∀ x ∈ ["A", "B"], x ≠ src → systematicFrom s'.RING i i target x k = systematicFrom s.RING i i target x k := by
    intro x hx hne
    unfold systematicFrom tableAt
    rw [fr.attr i _ (fun ⟨_, t, htt, hh⟩ => hne (names2 x hx src hsrc target ht t htt hh))]
    congr 1
    exact List.map_congr_left (fun ne _ => by rw [mf x hx])
  unfold multipole
  rw [mf target ht, off]
  have hs : src = "A" ∨ src = "B" := by simpa using hsrc
  rcases hs with rfl | rfl
  · rw [sysNew, sysOld, sysOther "B" (by simp) (by decide)]; ring
  · rw [sysNew, sysOld, sysOther "A" (by simp) (by decide)]; ring

/-- **C56 is violated**: the other column of the table is ignored, so for a normal field the skew errors have no effect
whatever they are ... -/
theorem C56_violated_columns (ords : List Nat) (BA BA2 : List (K × K)) (order : Nat) (s : SC K)
    (hsame : BA.map Prod.fst = BA2.map Prod.fst) :
    (setSystematicMultipoles ords BA order false s).state = (setSystematicMultipoles ords BA2 order false s).state := by
  have hlen : BA.length = BA2.length := by simpa using congrArg List.length hsame
  have hcol : (clearEntry BA order false).map (fun p => p.1) = (clearEntry BA2 order false).map (fun p => p.1) := by
    have : ∀ B : List (K × K), (clearEntry B order false).map (fun p => p.1) = (B.map Prod.fst).modify order (fun _ => 0) := by
      intro B
      apply List.ext_getElem?
      intro k
      unfold clearEntry
      simp only [List.getElem?_map, List.getElem?_modify]
      cases hB : B[k]? with
      | none => simp
      | some p => by_cases ho : order = k <;> simp [ho]
    rw [this, this, hsame]
  unfold setSystematicMultipoles
  simp only [Bool.false_eq_true, if_false, hcol]
  by_cases ho : order < BA.length
  · have e1 : idx BA order = .ok BA[order] := by rw [idx_eq_ok]; exact List.getElem?_eq_getElem ho
    have e2 : idx BA2 order = .ok (BA2[order]'(hlen ▸ ho)) := by rw [idx_eq_ok]; exact List.getElem?_eq_getElem _
    rw [e1, e2]
    change Res.state ((_ >>= fun _ => Py.pure (clearEntry BA order false)) s) = Res.state ((_ >>= fun _ => Py.pure (clearEntry BA2 order false)) s)
    change Res.state (Py.bind _ _ s) = Res.state (Py.bind _ _ s)
    unfold Py.bind
    split <;> rfl
  · have e1 : idx BA order = .error .indexError := by unfold idx; rw [List.getElem?_eq_none (not_lt.1 ho)]
    have e2 : idx BA2 order = .error .indexError := by unfold idx; rw [List.getElem?_eq_none (by omega)]
    rw [e1, e2]; rfl

/-- ... and the normal column acts on `PolynomA` as well: a quadrupole with normal systematic errors only gets skew fields. -/
theorem C56_violated_skew_from_normal : ∃ (s s' : SC ℚ) (BA BA' : List (ℚ × ℚ)), (∀ p ∈ BA, p.2 = 0) ∧
    setSystematicMultipoles [2] BA 1 false s = .ok BA' s' ∧
    multipole s.RING 2 2 "A" 3 = 0 ∧ multipole s'.RING 2 2 "A" 3 ≠ 0 :=
  ⟨Example.ideal, _, [(0, 0), (1, 0), (0, 0), (1/100, 0)], _, by decide +kernel,
    okVal_of_isOk (a := [(0, 0), (0, 0), (0, 0), (1/100, 0)]) (by decide +kernel), by decide +kernel, by decide +kernel⟩

/-- **C56 is violated**: the caller's table is changed by the call. -/
theorem C56_violated_table (ords : List Nat) (BA BA' : List (K × K)) (order : Nat) (s s' : SC K)
    (h : setSystematicMultipoles ords BA order false s = .ok BA' s') (hmain : entry BA "B" order ≠ 0) : BA' ≠ BA := by
  obtain ⟨rfl, ho, -⟩ := setSystematicMultipoles_ok h
  intro he
  apply hmain
  have := coef_reducedColumn BA order false order
  rw [if_pos rfl] at this
  unfold reducedColumn at this
  rw [he] at this
  rw [← coef_fst]; simpa using this

example : (setSystematicMultipoles [2, 3] [(0, 1), (1, 1), (1/100, 3)] 1 false Example.ideal).isOk = true ∧
    (setSystematicMultipoles [2, 3] [(0, 1), (1, 1), (1/100, 3)] 1 false Example.ideal).state.RING.attr 2 "SysPolBFromB" =
      some (.multip [(1, [0, 0, 1/100])]) ∧
    entry [((0 : ℚ), (1 : ℚ)), (1, 1), (1/100, 3)] "B" 1 ≠ 0 ∧
    ∀ target ∈ ["A", "B"], Example.ideal.RING.attr 2 ("SysPol" ++ target ++ "From" ++ (if false then "A" else "B")) = none := by
  decide +kernel

end PySC
