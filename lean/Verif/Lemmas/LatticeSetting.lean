import Verif.Model.LatticeSetting
import Verif.Spec.LatticeSetting
import Verif.Lemmas.Rels
/-
Lemmas about `switch_cavity_and_radiation`.
-/
namespace PySC
open Py Spec
variable {K : Type}

/-- a loop whose body changes the element `i` by `g` -/
theorem forEach_modify {f : Nat → Py (Ring K) Unit} {g : Elem K → Elem K} {Good : Elem K → Prop}
    (hf : ∀ (i : Nat) (r : Ring K) (e : Elem K), r[i]? = some e → Good e → f i r = .ok () (r.modify i g)) :
    ∀ (l : List Nat), l.Nodup → ∀ r : Ring K, (∀ i ∈ l, ∃ e, r[i]? = some e ∧ Good e) →
      ∃ r', forEach l f r = .ok () r' ∧ ∀ i, r'[i]? = if i ∈ l then r[i]?.map g else r[i]? := by
  intro l
  induction l with
  | nil => intro _ r _; exact ⟨r, rfl, by simp⟩
  | cons j l ih =>
    intro hnd r hg
    obtain ⟨e, he, hge⟩ := hg j (by simp)
    have hj : j ∉ l := (List.nodup_cons.1 hnd).1
    obtain ⟨r', h1, h2⟩ := ih (List.nodup_cons.1 hnd).2 (r.modify j g) (by
      intro i hi
      obtain ⟨e', he', hge'⟩ := hg i (by simp [hi])
      refine ⟨e', ?_, hge'⟩
      have hji : j ≠ i := fun h => hj (h ▸ hi)
      rw [List.getElem?_modify, he']
      simp [hji])
    refine ⟨r', ?_, fun i => ?_⟩
    · rw [forEach_cons, bind_eq_ok]
      exact ⟨(), _, hf j r e he hge, h1⟩
    · rw [h2, List.getElem?_modify]
      by_cases hij : i = j
      · subst hij
        simp [hj]
      · have : j ≠ i := fun h => hij h.symm
        by_cases hil : i ∈ l <;> simp [hil, hij, this]

/-- every element has a pass method -/
def HasPass (r : Ring K) : Prop := ∀ e ∈ r, ∃ m, e "PassMethod" = some (.str m)

/-- what the loops do with one element -/
def replaceElem (methods : List String) (old new : String) (e : Elem K) : Elem K :=
  match e "PassMethod" with
  | some (.str m) => if m ∈ methods then e.set "PassMethod" (.str (strReplace m old new)) else e
  | _ => e

theorem get_ok {σ : Type _} (s : σ) : (get : Py σ σ) s = .ok s s := rfl

theorem replacePass_ok (methods : List String) (old new : String) {r : Ring K} (h : HasPass r) :
    replacePass methods old new r = .ok () (r.map (replaceElem methods old new)) := by
  unfold replacePass
  obtain ⟨r', h1, h2⟩ := forEach_modify (f := fun ind => do
      let m ← passMethod ind
      if m ∈ methods then setPassMethod ind (strReplace m old new) else Py.pure ())
    (g := replaceElem methods old new) (Good := fun e => ∃ m, e "PassMethod" = some (.str m))
    (by
      intro i r e he ⟨m, hm⟩
      have hlt : i < r.length := (List.getElem?_eq_some_iff.1 he).1
      have h1 : passMethod i r = .ok m r := by unfold passMethod; rw [he]; simp only [hm]
      change Py.bind (passMethod i) _ r = _
      unfold Py.bind
      rw [h1]
      simp only
      by_cases hmem : m ∈ methods
      · rw [if_pos hmem]
        unfold setPassMethod
        rw [if_pos hlt]
        congr 1
        apply List.ext_getElem?
        intro k
        unfold Ring.setAttr
        rw [List.getElem?_modify, List.getElem?_modify]
        by_cases hk : i = k
        · subst hk; rw [he]; simp [replaceElem, hm, hmem]
        · simp [hk]
      · rw [if_neg hmem]
        change Res.ok () r = _
        congr 1
        apply List.ext_getElem?
        intro k
        rw [List.getElem?_modify]
        by_cases hk : i = k
        · subst hk; rw [he]; simp [replaceElem, hm, hmem]
        · simp [hk])
    (List.range r.length) List.nodup_range r (by
      intro i hi
      have hlt : i < r.length := by simpa using hi
      exact ⟨r[i], List.getElem?_eq_getElem hlt, h _ (List.getElem_mem hlt)⟩)
  rw [bind_eq_ok]
  refine ⟨r, r, rfl, ?_⟩
  rw [h1]
  congr 1
  apply List.ext_getElem?
  intro k
  rw [h2, List.getElem?_map]
  by_cases hk : k ∈ List.range r.length
  · rw [if_pos hk]
  · rw [if_neg hk]
    have : r[k]? = none := List.getElem?_eq_none (by simpa using hk)
    rw [this]; rfl

/-- what `switch_rf` does with one element -/
def rfElem (state : Bool) (e : Elem K) : Elem K :=
  if (e "Frequency").isSome then e.set "PassMethod" (.str (if state then "RFCavityPass" else "IdentityPass")) else e

theorem switchRf_ok (state : Bool) (r : Ring K) :
    switchRf (List.range r.length) state r = .ok () (r.map (rfElem state)) := by
  unfold switchRf
  obtain ⟨r', h1, h2⟩ := forEach_modify (f := fun ind => setPassMethod ind (if state then "RFCavityPass" else "IdentityPass"))
    (g := fun e : Elem K => e.set "PassMethod" (.str (if state then "RFCavityPass" else "IdentityPass"))) (Good := fun _ => True)
    (by
      intro i r e he _
      unfold setPassMethod
      rw [if_pos (List.getElem?_eq_some_iff.1 he).1]
      rfl)
    ((List.range r.length).filter (fun i => (r.attr i "Frequency").isSome)) (List.nodup_range.filter _) r (by
      intro i hi
      have hlt : i < r.length := by simpa using (List.mem_filter.1 hi).1
      exact ⟨r[i], List.getElem?_eq_getElem hlt, trivial⟩)
  rw [bind_eq_ok]
  refine ⟨r, r, rfl, ?_⟩
  rw [if_pos (by simp)]
  rw [h1]
  congr 1
  apply List.ext_getElem?
  intro k
  rw [h2, List.getElem?_map]
  by_cases hk : k < r.length
  · rw [List.getElem?_eq_getElem hk]
    simp only [List.mem_filter, List.mem_range, hk, true_and, Ring.attr, List.getElem?_eq_getElem hk, Option.bind_some, Option.map_some]
    unfold rfElem
    by_cases hf : (r[k] "Frequency").isSome <;> simp [hf]
  · have : r[k]? = none := List.getElem?_eq_none (by omega)
    rw [this]
    simp

/-- what the call does with one element -/
def switchElem (args : List String) (e : Elem K) : Elem K :=
  let e1 := if "radiationoff" ∈ args then replaceElem radPassMethods "Rad" "" e
    else if "radiationon" ∈ args then replaceElem nonRadPassMethods "Pass" "RadPass" e else e
  if "cavityoff" ∈ args then rfElem false e1 else if "cavityon" ∈ args then rfElem true e1 else e1

theorem switch_ok {args : List String} (ha : ∀ a ∈ args, a ∈ validSwitches) {r : Ring K} (h : HasPass r) :
    switchCavityAndRadiation args r = .ok () (r.map (switchElem args)) := by
  unfold switchCavityAndRadiation
  rw [if_neg (by simpa using ha)]
  have tail : ∀ r1 : Ring K, ((do
      let r ← Py.get
      if "cavityoff" ∈ args then switchRf (List.range r.length) false
      else if "cavityon" ∈ args then switchRf (List.range r.length) true
      else Py.pure ()) : Py (Ring K) Unit) r1 = .ok () (r1.map (fun e =>
        if "cavityoff" ∈ args then rfElem false e else if "cavityon" ∈ args then rfElem true e else e)) := by
    intro r1
    rw [bind_eq_ok]
    refine ⟨r1, r1, rfl, ?_⟩
    by_cases h3 : "cavityoff" ∈ args
    · simp only [h3, if_true]; exact switchRf_ok _ _
    · by_cases h4 : "cavityon" ∈ args
      · simp only [h3, h4, if_true, if_false]; exact switchRf_ok _ _
      · simp only [h3, h4, if_false]; simp [Py.pure]
  have fin : ∀ f : Elem K → Elem K, (f = fun e => if "radiationoff" ∈ args then replaceElem radPassMethods "Rad" "" e
        else if "radiationon" ∈ args then replaceElem nonRadPassMethods "Pass" "RadPass" e else e) →
      (r.map f).map (fun e =>
        if "cavityoff" ∈ args then rfElem false e else if "cavityon" ∈ args then rfElem true e else e) =
        r.map (switchElem args) := by
    rintro f rfl
    rw [List.map_map]
    rfl
  by_cases h1 : "radiationoff" ∈ args
  · rw [if_pos h1]
    refine (bind_eq_ok ..).2 ⟨(), _, replacePass_ok _ _ _ h, ?_⟩
    exact (tail _).trans (congrArg _ (fin _ (by simp [h1])))
  · rw [if_neg h1]
    by_cases h2 : "radiationon" ∈ args
    · rw [if_pos h2]
      refine (bind_eq_ok ..).2 ⟨(), _, replacePass_ok _ _ _ h, ?_⟩
      exact (tail _).trans (congrArg _ (fin _ (by simp [h1, h2])))
    · rw [if_neg h2]
      refine (bind_eq_ok ..).2 ⟨(), r, rfl, ?_⟩
      have := fin id (by simp [h1, h2]; rfl)
      rw [List.map_id] at this
      exact (tail _).trans (congrArg _ this)

theorem off_table : ∀ m ∈ radPassMethods, strReplace m "Rad" "" = radiationOff m := by decide +kernel
theorem on_table : ∀ m ∈ nonRadPassMethods, strReplace m "Pass" "RadPass" = radiationOn m := by decide +kernel
theorem rad_names : radPassMethods = radiationPairs.map Prod.snd := by decide +kernel
theorem nonRad_names : nonRadPassMethods = radiationPairs.map Prod.fst := by decide +kernel

theorem off_other {m : String} (h : m ∉ radPassMethods) : radiationOff m = m := by
  unfold radiationOff
  rw [rad_names] at h
  rw [List.find?_eq_none.2 (fun p hp => by
    intro he
    exact h (List.mem_map.2 ⟨p, hp, of_decide_eq_true he⟩))]

theorem on_other {m : String} (h : m ∉ nonRadPassMethods) : radiationOn m = m := by
  unfold radiationOn
  rw [nonRad_names] at h
  rw [List.find?_eq_none.2 (fun p hp => by
    intro he
    exact h (List.mem_map.2 ⟨p, hp, of_decide_eq_true he⟩))]

theorem replaceElem_other (methods : List String) (old new : String) (e : Elem K) {a : String} (ha : a ≠ "PassMethod") :
    replaceElem methods old new e a = e a := by
  unfold replaceElem
  rcases e "PassMethod" with _ | x
  · rfl
  cases x <;> try rfl
  rename_i m
  simp only
  by_cases h : m ∈ methods
  · rw [if_pos h]; simp [Elem.set, ha]
  · rw [if_neg h]

theorem rfElem_other (state : Bool) (e : Elem K) {a : String} (ha : a ≠ "PassMethod") : rfElem state e a = e a := by
  unfold rfElem
  split
  · simp [Elem.set, ha]
  · rfl

/-- the radiation part of the call -/
def radElem (args : List String) (e : Elem K) : Elem K :=
  if "radiationoff" ∈ args then replaceElem radPassMethods "Rad" "" e
  else if "radiationon" ∈ args then replaceElem nonRadPassMethods "Pass" "RadPass" e else e

/-- the cavity part of the call -/
def cavElem (args : List String) (e : Elem K) : Elem K :=
  if "cavityoff" ∈ args then rfElem false e else if "cavityon" ∈ args then rfElem true e else e

theorem switchElem_eq (args : List String) (e : Elem K) : switchElem args e = cavElem args (radElem args e) := rfl

theorem radElem_other (args : List String) (e : Elem K) {a : String} (ha : a ≠ "PassMethod") : radElem args e a = e a := by
  unfold radElem
  by_cases h1 : "radiationoff" ∈ args
  · rw [if_pos h1]; exact replaceElem_other _ _ _ _ ha
  · rw [if_neg h1]
    by_cases h2 : "radiationon" ∈ args
    · rw [if_pos h2]; exact replaceElem_other _ _ _ _ ha
    · rw [if_neg h2]

theorem cavElem_other (args : List String) (e : Elem K) {a : String} (ha : a ≠ "PassMethod") : cavElem args e a = e a := by
  unfold cavElem
  by_cases h1 : "cavityoff" ∈ args
  · rw [if_pos h1]; exact rfElem_other _ _ ha
  · rw [if_neg h1]
    by_cases h2 : "cavityon" ∈ args
    · rw [if_pos h2]; exact rfElem_other _ _ ha
    · rw [if_neg h2]

theorem switchElem_other (args : List String) (e : Elem K) {a : String} (ha : a ≠ "PassMethod") :
    switchElem args e a = e a := by
  rw [switchElem_eq, cavElem_other _ _ ha, radElem_other _ _ ha]

theorem replaceElem_off (e : Elem K) {m : String} (hm : e "PassMethod" = some (.str m)) :
    replaceElem radPassMethods "Rad" "" e "PassMethod" = some (.str (radiationOff m)) := by
  unfold replaceElem
  rw [hm]
  simp only
  by_cases h : m ∈ radPassMethods
  · rw [if_pos h, off_table m h]; simp [Elem.set]
  · rw [if_neg h, off_other h, hm]

theorem replaceElem_on (e : Elem K) {m : String} (hm : e "PassMethod" = some (.str m)) :
    replaceElem nonRadPassMethods "Pass" "RadPass" e "PassMethod" = some (.str (radiationOn m)) := by
  unfold replaceElem
  rw [hm]
  simp only
  by_cases h : m ∈ nonRadPassMethods
  · rw [if_pos h, on_table m h]; simp [Elem.set]
  · rw [if_neg h, on_other h, hm]

theorem switchElem_pass (args : List String) (e : Elem K) {m : String} (hm : e "PassMethod" = some (.str m)) :
    switchElem args e "PassMethod" = some (.str (switched args (e "Frequency").isSome m)) := by
  have hF : ∀ e1 : Elem K, e1 "Frequency" = e "Frequency" → ∀ m1, e1 "PassMethod" = some (.str m1) →
      cavElem args e1 "PassMethod" =
      some (.str (if (e "Frequency").isSome && decide ("cavityoff" ∈ args) then "IdentityPass"
        else if (e "Frequency").isSome && decide ("cavityon" ∈ args) then "RFCavityPass" else m1)) := by
    intro e1 h1 m1 h2
    unfold cavElem
    by_cases h3 : "cavityoff" ∈ args
    · by_cases h5 : (e "Frequency").isSome <;> simp [h3, rfElem, h1, h5, Elem.set, h2]
    · by_cases h4 : "cavityon" ∈ args
      · by_cases h5 : (e "Frequency").isSome <;> simp [h3, h4, rfElem, h1, h5, Elem.set, h2]
      · simp [h3, h4, h2]
  rw [switchElem_eq, hF _ (radElem_other _ _ (by decide)) (if "radiationoff" ∈ args then radiationOff m
    else if "radiationon" ∈ args then radiationOn m else m)]
  · unfold switched; rfl
  · unfold radElem
    by_cases h1 : "radiationoff" ∈ args
    · rw [if_pos h1, if_pos h1]; exact replaceElem_off e hm
    · rw [if_neg h1, if_neg h1]
      by_cases h2 : "radiationon" ∈ args
      · rw [if_pos h2, if_pos h2]; exact replaceElem_on e hm
      · rw [if_neg h2, if_neg h2]; exact hm

theorem switch_rejects {args : List String} (ha : ¬ ∀ a ∈ args, a ∈ validSwitches) (r : Ring K) :
    switchCavityAndRadiation args r = .error .valueError r := by
  unfold switchCavityAndRadiation
  rw [if_pos (by simpa using ha)]
  rfl

theorem off_off (m : String) : radiationOff (radiationOff m) = radiationOff m := by
  by_cases h : m ∈ radPassMethods
  · have : ∀ m ∈ radPassMethods, radiationOff (radiationOff m) = radiationOff m := by decide +kernel
    exact this m h
  · rw [off_other h, off_other h]

theorem on_on (m : String) : radiationOn (radiationOn m) = radiationOn m := by
  by_cases h : m ∈ nonRadPassMethods
  · have : ∀ m ∈ nonRadPassMethods, radiationOn (radiationOn m) = radiationOn m := by decide +kernel
    exact this m h
  · rw [on_other h, on_other h]

theorem off_on {m : String} (hm : m ∉ radiationPairs.map Prod.snd) : radiationOff (radiationOn m) = m := by
  by_cases h : m ∈ nonRadPassMethods
  · have : ∀ m ∈ nonRadPassMethods, radiationOff (radiationOn m) = m := by decide +kernel
    exact this m h
  · rw [on_other h, off_other (by rw [rad_names]; exact hm)]

theorem off_none (m : String) : radiationOff m ∉ radiationPairs.map Prod.snd := by
  by_cases h : m ∈ radPassMethods
  · have : ∀ m ∈ radPassMethods, radiationOff m ∉ radiationPairs.map Prod.snd := by decide +kernel
    exact this m h
  · rw [off_other h]; rw [rad_names] at h; exact h

end PySC
