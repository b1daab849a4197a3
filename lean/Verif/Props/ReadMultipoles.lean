import Verif.Model.ReadMultipoles
import Verif.Spec.ReadMultipoles
import Verif.Props.MatlabIndex
/-
C81: tables of multipoles read from a file.
-/
set_option linter.unusedSectionVars false
namespace PySC
open Py Spec
variable {K : Type} [Field K] [LinearOrder K]

theorem fileOf_numbers (rows : List (K × K × K)) :
    (fileOf rows).mapM numberOf = .ok (rows.flatMap (fun r => [r.1, r.2.1, r.2.2])) := by
  have e : fileOf rows = (rows.flatMap (fun r => [r.1, r.2.1, r.2.2])).map some := by
    unfold fileOf
    rw [List.map_flatMap]
    rfl
  rw [e]
  generalize rows.flatMap (fun r => [r.1, r.2.1, r.2.2]) = l
  rw [List.mapM_map]
  exact (mapM_except_ok (g := fun x => x) (fun x _ => rfl)).trans (by rw [List.map_id'])

theorem lastTwoOfThree_rows (rows : List (K × K × K)) : lastTwoOfThree (rows.flatMap (fun r => [r.1, r.2.1, r.2.2])) = rows.map Prod.snd := by
  induction rows with
  | nil => rfl
  | cons r rows ih => simp [lastTwoOfThree, ih]

theorem length_rows (rows : List (K × K × K)) : (rows.flatMap (fun r => [r.1, r.2.1, r.2.2])).length % 3 = 0 := by
  induction rows with
  | nil => rfl
  | cons r rows ih => simp [List.length_flatMap]; omega

theorem mem_onesOf {rows : List (K × K × K)} {n c : Nat} :
    (n, c) ∈ onesOf (rows.map Prod.snd) ↔ (c = 0 ∧ IsOne rows n true) ∨ (c = 1 ∧ IsOne rows n false) := by
  unfold onesOf IsOne
  simp only [List.mem_flatMap, List.mem_append]
  constructor
  · rintro ⟨⟨p, m⟩, hp, h⟩
    rw [List.mem_zipIdx_iff_getElem?] at hp
    simp only [List.getElem?_map, Option.map_eq_some_iff] at hp
    obtain ⟨r, hr, rfl⟩ := hp
    rcases h with h | h
    · left
      split at h
      · simp at h; obtain ⟨rfl, rfl⟩ := h
        exact ⟨rfl, r, hr, by simpa⟩
      · simp at h
    · right
      split at h
      · simp at h; obtain ⟨rfl, rfl⟩ := h
        exact ⟨rfl, r, hr, by simpa⟩
      · simp at h
  · rintro (⟨rfl, r, hr, h⟩ | ⟨rfl, r, hr, h⟩)
    · refine ⟨(r.2, n), ?_, Or.inl ?_⟩
      · rw [List.mem_zipIdx_iff_getElem?]; simp [hr]
      · simp at h; simp [h]
    · refine ⟨(r.2, n), ?_, Or.inr ?_⟩
      · rw [List.mem_zipIdx_iff_getElem?]; simp [hr]
      · simp at h; simp [h]

theorem nodup_onesOf (AB : List (K × K)) : (onesOf AB).Nodup := by
  unfold onesOf
  rw [List.nodup_flatMap]
  constructor
  · intro r _
    by_cases h1 : r.1.1 = 1 <;> by_cases h2 : r.1.2 = 1 <;> simp [h1, h2]
  · have hn : (AB.zipIdx.map Prod.snd).Nodup := by rw [List.zipIdx_map_snd]; exact List.nodup_range'
    have hp : AB.zipIdx.Pairwise (fun a b => a.2 ≠ b.2) := by
      rw [List.nodup_iff_pairwise_ne] at hn
      exact List.pairwise_map.1 hn
    refine hp.imp (fun {a b} hab => ?_)
    intro x hx hy
    have key : ∀ c : (K × K) × Nat, x ∈ (if c.1.1 = 1 then [(c.2, 0)] else []) ++ (if c.1.2 = 1 then [(c.2, 1)] else []) → x.1 = c.2 := by
      intro c hc
      rw [List.mem_append] at hc
      rcases hc with h | h <;> split at h <;> simp at h <;> rw [h]
    exact hab ((key a hx).symm.trans (key b hy))

/-- **C81**: a file with a unique main component: the table is returned with the normal components first, and the row and the kind of
the main component are found: type 0 skew, 1 normal. -/
theorem C81_read (rows : List (K × K × K)) (n : Nat) (skew : Bool) (h : MainComponent rows n skew) :
    readMultipoles (fileOf rows) = .ok (some (rows.map (fun r => (r.2.2, r.2.1)), n, if skew = true then 0 else 1)) := by
  have hone : onesOf (rows.map Prod.snd) = [(n, if skew = true then 0 else 1)] := by
    have hmem : ∀ x, x ∈ onesOf (rows.map Prod.snd) ↔ x = (n, if skew = true then 0 else 1) := by
      rintro ⟨m, c⟩
      rw [mem_onesOf]
      constructor
      · rintro (⟨rfl, hm⟩ | ⟨rfl, hm⟩)
        · obtain ⟨rfl, rfl⟩ := h.2 m _ hm; simp
        · obtain ⟨rfl, rfl⟩ := h.2 m _ hm; simp
      · intro he
        simp only [Prod.mk.injEq] at he
        obtain ⟨rfl, rfl⟩ := he
        cases skew
        · exact Or.inr ⟨rfl, h.1⟩
        · exact Or.inl ⟨rfl, h.1⟩
    have hnd := nodup_onesOf (rows.map Prod.snd)
    have hperm : List.Perm (onesOf (rows.map Prod.snd)) [(n, if skew = true then 0 else 1)] :=
      (List.perm_ext_iff_of_nodup hnd (by simp)).2 (fun x => by rw [hmem]; simp)
    exact List.perm_singleton.1 hperm
  unfold readMultipoles
  rw [fileOf_numbers, Except.ok_bind', if_neg (by simp [length_rows]), lastTwoOfThree_rows, hone]
  simp [Function.comp_def, Prod.swap]

/-- **C81** is violated: without a unique main component the function does not continue, as its warning says, but raises. -/
theorem C81_violated_ambiguous (rows : List (K × K × K)) (h : ¬ ∃ n skew, MainComponent rows n skew) :
    readMultipoles (fileOf rows) = .error .typeError := by
  have hone : ∀ x, onesOf (rows.map Prod.snd) ≠ [x] := by
    rintro ⟨n, c⟩ he
    have hmem : (n, c) ∈ onesOf (rows.map Prod.snd) := by rw [he]; simp
    have hall : ∀ m c', (m, c') ∈ onesOf (rows.map Prod.snd) → m = n ∧ c' = c := by
      intro m c' hm
      rw [he] at hm
      simpa using hm
    rw [mem_onesOf] at hmem
    rcases hmem with ⟨rfl, hn⟩ | ⟨rfl, hn⟩
    · refine h ⟨n, true, hn, fun m sk hm => ?_⟩
      cases sk
      · exact absurd (hall m 1 (mem_onesOf.2 (Or.inr ⟨rfl, hm⟩))).2 (by decide)
      · exact ⟨(hall m 0 (mem_onesOf.2 (Or.inl ⟨rfl, hm⟩))).1, rfl⟩
    · refine h ⟨n, false, hn, fun m sk hm => ?_⟩
      cases sk
      · exact ⟨(hall m 1 (mem_onesOf.2 (Or.inr ⟨rfl, hm⟩))).1, rfl⟩
      · exact absurd (hall m 0 (mem_onesOf.2 (Or.inl ⟨rfl, hm⟩))).2 (by decide)
  unfold readMultipoles
  rw [fileOf_numbers, Except.ok_bind', if_neg (by simp [length_rows]), lastTwoOfThree_rows]
  split
  · rename_i o t he
    exact absurd he (hone _)
  · rfl

/-- **C81**: a file with an incomplete row is not used; one with a word which is not a number is refused. -/
theorem C81_incomplete (words : List (Option K)) :
    (none ∉ words → words.length % 3 ≠ 0 → readMultipoles words = .ok none) ∧ (none ∈ words → readMultipoles words = .error .valueError) := by
  constructor
  · intro h1 h2
    obtain ⟨l, rfl⟩ : ∃ l : List K, words = l.map some := by
      refine ⟨words.filterMap (fun x => x), ?_⟩
      clear h2
      induction words with
      | nil => rfl
      | cons w words ih =>
        cases w with
        | none => simp at h1
        | some x =>
          have := ih (fun hh => h1 (List.mem_cons_of_mem _ hh))
          simp only [List.filterMap_cons, List.map_cons]
          rw [← this]
    unfold readMultipoles
    rw [List.mapM_map]
    have e : l.mapM (numberOf ∘ some) = Except.ok (ε := Err) l := (mapM_except_ok (g := fun x => x) (fun x _ => rfl)).trans (by rw [List.map_id'])
    rw [e, Except.ok_bind', if_pos (by simpa using h2)]
  · intro h
    have e : words.mapM numberOf = Except.error (α := List K) Err.valueError := by
      induction words with
      | nil => simp at h
      | cons w words ih =>
        rw [List.mapM_cons]
        cases w with
        | none => rfl
        | some x =>
          have := ih (by simpa using h)
          simp only [this]
          rfl
    unfold readMultipoles
    rw [e]
    rfl

/-- a normal quadrupole with an octupole error, and a skew one -/
example : MainComponent [((0 : ℚ), 0, 0), (1, 0, 1), (2, 1/100, 0), (3, 0, 1/1000)] 1 false := by
  refine ⟨⟨_, rfl, rfl⟩, fun m sk ⟨r, hr, h⟩ => ?_⟩
  rcases m with _ | _ | _ | _ | m <;> simp at hr <;> subst hr <;> cases sk <;> simp at h <;> norm_num at h <;> simp

/-- **C81** is violated: the result can not be passed on to `SCsetMultipoles`: the type of a skew magnet is refused, ... -/
theorem C81_violated_skew (E : Env K) (rows : List (K × K × K)) (n : Nat) (h : MainComponent rows n true) (ords : List Nat) (method : String)
    (s : SC K) : ∃ t ty, readMultipoles (fileOf rows) = .ok (some (t, n, ty)) ∧
      scSetMultipoles E ords t method (some n) (some (ty : Int)) s = .error .valueError s := by
  refine ⟨_, _, C81_read rows n true h, ?_⟩
  unfold scSetMultipoles
  rw [if_pos (by simp)]
  rfl

/-- ... and a normal quadrupole becomes a skew dipole. -/
theorem C81_violated_normal : ∃ t n ty, readMultipoles (fileOf [((0 : ℚ), 0, 0), (1, 0, 1), (2, 1/100, 0), (3, 0, 1/1000)]) = .ok (some (t, n, ty)) ∧
    (scSetMultipoles Example.env [4] t "sys" (some n) (some (ty : Int)) Example.sc).isOk = true ∧
    (scSetMultipoles Example.env [4] t "sys" (some n) (some (ty : Int)) Example.sc).state.RING.attr 4 "SysPolBFromB" = none ∧
    (scSetMultipoles Example.env [4] t "sys" (some n) (some (ty : Int)) Example.sc).state.RING.attr 4 "SysPolBFromA" =
      some (.multip [(0, [0, 1, 0, 1/1000])]) :=
  ⟨[(0, 0), (1, 0), (0, 1/100), (1/1000, 0)], 1, 1, by decide +kernel, by decide +kernel, by decide +kernel, by decide +kernel⟩

/-- **C81**: with the kind turned into the flag of `set_systematic_multipole_errors`, the magnet gets the multipoles of the file, other
than the main one, in proportion to its main field (with the restriction of C56: both polynomials get the column of the main
component). -/
theorem C81_apply_partial [FloorRing K] [IsStrictOrderedRing K] (rows : List (K × K × K)) (n : Nat) (skew : Bool) (h : MainComponent rows n skew)
    (ords : List Nat) (s s' : SC K) (BA' : List (K × K)) (i : Nat) (hi : i ∈ ords) (t : List (K × K)) (ty : Nat)
    (hread : readMultipoles (fileOf rows) = .ok (some (t, n, ty)))
    (hset : setSystematicMultipoles ords t n (decide (ty = 0)) s = .ok BA' s')
    (hno : ∀ target ∈ ["A", "B"], s.RING.attr i ("SysPol" ++ target ++ "From" ++ plane skew) = none)
    (target : String) (ht : target ∈ ["A", "B"]) (k : Nat) (r : K × K × K) (hr : rows[k]? = some r) :
    multipole s'.RING i i target k = multipole s.RING i i target k +
      mainField s.RING i (plane skew) n * (if k = n then 0 else if skew = true then r.2.1 else r.2.2) := by
  rw [C81_read rows n skew h] at hread
  simp only [Except.ok.injEq, Option.some.injEq, Prod.mk.injEq] at hread
  obtain ⟨rfl, -, rfl⟩ := hread
  have hsk : decide ((if skew = true then 0 else 1) = 0) = skew := by cases skew <;> rfl
  rw [hsk] at hset
  have hp : (if skew = true then "A" else "B") = plane skew := rfl
  have := C56_effect_partial ords _ BA' n skew s s' hset i hi (by rw [hp]; exact hno) target ht k
  rw [this, hp]
  congr 2
  split
  · rfl
  · unfold entry
    rw [List.getElem?_map, hr]
    cases skew <;> rfl

end PySC
