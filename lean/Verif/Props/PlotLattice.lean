import Verif.Lemmas.PlotLattice
import Verif.Props.Supports
/-
C122: the figure of the lattice; C123: its apertures.
-/
namespace PySC
set_option linter.unusedSectionVars false
variable {K : Type} [Field K] [LinearOrder K] [IsStrictOrderedRing K]
open Py Spec

/-- **C122** When the figure is drawn, it shows the range asked for of the lattice asked for, and afterwards lattices, ranges and
font size are what they were. -/
theorem C122_restored_partial (draw : Ring K → K × K → Option Err) (range : Option (K × K)) (indices : Option (List Nat)) (sectors : Option Nat)
    (idealRing : Bool) (fontSize : K) (w w' : Bench K) (p : K × K)
    (h : plotLattice draw range indices sectors idealRing fontSize w = .ok p w') :
    w' = w ∧ RangeAsked (if idealRing then w.ideal else w.ring) (if idealRing then w.idealRange else w.range) range indices sectors p ∧
      draw (if idealRing then w.ideal else w.ring) p = none := by
  unfold plotLattice at h
  dsimp only at h
  cases idealRing
  all_goals
    simp only [Bool.false_eq_true, if_true, if_false] at h ⊢
    split at h
    · cases h
    · next q hq =>
      split at h
      · cases h
      · next hd =>
        cases h
        exact ⟨rfl, sRange_ok hq, hd⟩

/-- **C122** (the lattices) Whatever happens, the elements of both lattices stay as they are, and so does the range of the lattice that
is not drawn. -/
theorem C122_elements (draw : Ring K → K × K → Option Err) (range : Option (K × K)) (indices : Option (List Nat)) (sectors : Option Nat)
    (idealRing : Bool) (fontSize : K) (w : Bench K) :
    let w' := (plotLattice draw range indices sectors idealRing fontSize w).state
    w'.ring = w.ring ∧ w'.ideal = w.ideal ∧ (idealRing = true → w'.range = w.range) ∧ (idealRing = false → w'.idealRange = w.idealRange) := by
  dsimp only
  unfold plotLattice
  dsimp only
  cases idealRing
  all_goals
    simp only [Bool.false_eq_true, if_true, if_false]
    split
    · exact ⟨rfl, rfl, by simp [Res.state], by simp [Res.state]⟩
    · split
      · exact ⟨rfl, rfl, by simp [Res.state], by simp [Res.state]⟩
      · exact ⟨rfl, rfl, by simp [Res.state], by simp [Res.state]⟩

/-- **C122 violated** by a figure which fails, as the optics of an unstable machine do: the range of the figure stays the range of
the lattice and the font size stays that of the figure, so that the next figure without a range is another one. -/
theorem C122_violated (draw : Ring K → K × K → Option Err) (q : K × K) (fontSize : K) (w : Bench K) (e : Err)
    (hf : draw w.ring q = some e) (hq : q ≠ w.range) (hfont : fontSize ≠ w.font) :
    ∃ w', plotLattice draw (some q) none none false fontSize w = .error e w' ∧ w'.range ≠ w.range ∧ w'.font ≠ w.font ∧
      ∀ draw', draw' w.ring q = none → plotLattice draw' none none none false fontSize w' = .ok q w' := by
  refine ⟨{ w with range := q, font := fontSize }, ?_, hq, hfont, fun draw' hd => ?_⟩
  · unfold plotLattice
    simp [sRange, hf]
  · unfold plotLattice
    simp [sRange, hd]

theorem plotDataApertures_ok {r : Ring K} {refpts : List Nat} {cut : Option K} {curves : List (List (K × Option K))}
    (h : plotDataApertures r refpts cut = .ok curves) :
    ∃ (refs : List Nat) (e a : List ((Option K × Option K) × (Option K × Option K))), (∀ k, k ∈ refs ↔ k ∈ refpts ∧ k < r.length) ∧ e.length = refs.length ∧ a.length = refs.length ∧
      (∀ (j k : Nat), refs[j]? = some k → ∃ q, ellipticLimits r k = .ok q ∧ e[j]? = some q) ∧
      (∀ (j k : Nat), refs[j]? = some k → ∃ q, rectangularLimits r k = .ok q ∧ a[j]? = some q) ∧
      curves = [joinedCurve (refs.map (sPos r)) (e.map (fun q => (apertureMm cut q.1.1, apertureMm cut q.1.2))),
        joinedCurve (refs.map (sPos r)) (e.map (fun q => (apertureMm cut q.2.1, apertureMm cut q.2.2))),
        joinedCurve (refs.map (sPos r)) (a.map (fun q => (apertureMm cut q.1.1, apertureMm cut q.1.2))),
        joinedCurve (refs.map (sPos r)) (a.map (fun q => (apertureMm cut q.2.1, apertureMm cut q.2.2)))] := by
  unfold plotDataApertures at h
  simp only [Except.bind_eq_ok'] at h
  obtain ⟨last, h1, allE, h2, allR, h3, pos, h4, e, h5, a, h6, h7⟩ := h
  have hlast : refpts.getLast? = some last := by
    rw [List.getLast?_eq_getElem?]; exact idx_eq_ok.1 h1
  obtain ⟨l2, g2⟩ := mapM_except_eq_ok h2
  obtain ⟨l3, g3⟩ := mapM_except_eq_ok h3
  obtain ⟨l5, g5⟩ := mapM_except_eq_ok h5
  obtain ⟨l6, g6⟩ := mapM_except_eq_ok h6
  rw [List.length_range] at l2 l3
  have hpos := mapM_except_map (g := sPos r) (fun o _ y hy => (findspos_get.1 (idx_eq_ok.1 hy)).2) h4
  split at h7
  · cases h7
  cases h7
  subst hpos
  have hlt : ∀ k ∈ (if last = r.length then refpts.dropLast else refpts), k < r.length := by
    intro k hk
    obtain ⟨y, hy⟩ := mapM_except_mem h5 k hk
    rw [idx_eq_ok] at hy
    have := (List.getElem?_eq_some_iff.1 hy).1
    omega
  refine ⟨_, e, a, fun k => ⟨fun hk => ⟨?_, hlt k hk⟩, fun hk => ?_⟩, l5, l6, ?_, ?_, rfl⟩
  · split at hk
    · exact List.mem_of_mem_dropLast hk
    · exact hk
  · split
    · next hl =>
      have e0 : refpts = refpts.dropLast ++ [last] := by
        obtain ⟨ys, rfl⟩ := List.getLast?_eq_some_iff.1 hlast
        simp
      rw [e0, List.mem_append, List.mem_singleton] at hk
      rcases hk.1 with h | h
      · exact h
      · exact absurd hk.2 (by omega)
    · exact hk.1
  · intro j k hk
    obtain ⟨q, hq, he⟩ := g5 j k hk
    have hk' := hlt k (List.mem_iff_getElem?.2 ⟨j, hk⟩)
    obtain ⟨q', hq', he'⟩ := g2 k k (List.getElem?_range hk')
    rw [idx_eq_ok] at hq
    rw [hq] at he'
    cases he'
    exact ⟨q, hq', he⟩
  · intro j k hk
    obtain ⟨q, hq, he⟩ := g6 j k hk
    have hk' := hlt k (List.mem_iff_getElem?.2 ⟨j, hk⟩)
    obtain ⟨q', hq', he'⟩ := g3 k k (List.getElem?_range hk')
    rw [idx_eq_ok] at hq
    rw [hq] at he'
    cases he'
    exact ⟨q, hq', he⟩

/-- **C123** The curves of the apertures go through exactly the limits of the elements asked for: there is a point at `x` and `v` if and
only if `x` is the position of one of these elements and `v` is one of its limits in millimetres that is not beyond the
cut-off. -/
theorem C123_apertures (r : Ring K) (refpts : List Nat) (cut : Option K) (curves : List (List (K × Option K)))
    (h : plotDataApertures r refpts cut = .ok curves) :
    curves.length = 4 ∧ ∀ c < 4, ∀ x v, (x, some v) ∈ curves.getD c [] ↔
      ∃ k ∈ refpts, k < r.length ∧ x = sPos r k ∧ ∃ w, Limits r k c w ∧ (∀ b, cut = some b → |w| ≤ b) ∧ v = 1000 * w := by
  obtain ⟨refs, e, a, hr, le, la, he, ha, rfl⟩ := plotDataApertures_ok h
  have key : ∀ (l : List ((Option K × Option K) × (Option K × Option K))) (g : (Option K × Option K) × (Option K × Option K) → Option K × Option K)
      (c : Nat) (F : Nat → Except Err ((Option K × Option K) × (Option K × Option K))), l.length = refs.length →
      (∀ (j k : Nat), refs[j]? = some k → ∃ q, F k = .ok q ∧ l[j]? = some q) →
      (∀ k q w, F k = .ok q → (Limits r k c w ↔ (g q).1 = some w ∨ (g q).2 = some w)) →
      ∀ x v, (x, some v) ∈ joinedCurve (refs.map (sPos r)) (l.map (fun q => (apertureMm cut (g q).1, apertureMm cut (g q).2))) ↔
        ∃ k ∈ refpts, k < r.length ∧ x = sPos r k ∧ ∃ w, Limits r k c w ∧ (∀ b, cut = some b → |w| ≤ b) ∧ v = 1000 * w := by
    intro l g c F hl hF hL x v
    rw [mem_joinedCurve (by simp [hl])]
    constructor
    · rintro ⟨j, p, h1, h2, h3⟩
      rw [List.getElem?_map, Option.map_eq_some_iff] at h1 h2
      obtain ⟨k, hk, rfl⟩ := h1
      obtain ⟨q, hq, rfl⟩ := h2
      obtain ⟨q', hq', hq''⟩ := hF j k hk
      rw [hq] at hq''
      cases hq''
      have hm := (hr k).1 (List.mem_iff_getElem?.2 ⟨j, hk⟩)
      refine ⟨k, hm.1, hm.2, rfl, ?_⟩
      simp only [apertureMm_some] at h3
      rcases h3 with ⟨w, h4, h5, h6⟩ | ⟨w, h4, h5, h6⟩
      · exact ⟨w, (hL k q w hq').2 (Or.inl h4), h5, h6⟩
      · exact ⟨w, (hL k q w hq').2 (Or.inr h4), h5, h6⟩
    · rintro ⟨k, hk, hlt, rfl, w, h1, h2, h3⟩
      obtain ⟨j, hj⟩ := List.mem_iff_getElem?.1 ((hr k).2 ⟨hk, hlt⟩)
      obtain ⟨q, hq, hq'⟩ := hF j k hj
      refine ⟨j, (apertureMm cut (g q).1, apertureMm cut (g q).2), by rw [List.getElem?_map, hj]; rfl, by rw [List.getElem?_map, hq']; rfl, ?_⟩
      simp only [apertureMm_some]
      rcases (hL k q w hq).1 h1 with h | h
      · exact Or.inl ⟨w, h, h2, h3⟩
      · exact Or.inr ⟨w, h, h2, h3⟩
  refine ⟨rfl, fun c hc => ?_⟩
  match c, hc with
  | 0, _ => exact key e (·.1) 0 _ le he (fun k q w hq => (ellipticLimits_ok hq w).1)
  | 1, _ => exact key e (·.2) 1 _ le he (fun k q w hq => (ellipticLimits_ok hq w).2)
  | 2, _ => exact key a (·.1) 2 _ la ha (fun k q w hq => (rectangularLimits_ok hq w).1)
  | 3, _ => exact key a (·.2) 3 _ la ha (fun k q w hq => (rectangularLimits_ok hq w).2)

/-! ### examples -/

/-- two elements with apertures, one of which is far away -/
def Example.pipe : Ring ℚ :=
  Ring.setAttr (Ring.setAttr (Ring.setAttr Example.ring 1 "EApertures" (.vec [1/100, 1/50])) 3 "RApertures" (.vec [-1/10, 3, -1/50, 1/50])) 3 "EApertures" (.vec [1/25, 1/2])

example : (plotDataApertures Example.pipe [1, 3, Example.pipe.length] (some (1/5))) = .ok
    [[(0, some (-10)), (1/2, some (-40)), (1/2, none), (0, none), (0, some 10), (1/2, some 40)],
     [(0, some (-20)), (1/2, none), (1/2, none), (0, none), (0, some 20), (1/2, none)],
     [(0, none), (1/2, some (-100)), (1/2, none), (0, none), (0, none), (1/2, none)],
     [(0, none), (1/2, some (-20)), (1/2, none), (0, none), (0, none), (1/2, some 20)]] := by decide +kernel
example : Limits Example.pipe 3 2 3 ∧ Limits Example.pipe 3 2 (-1/10) :=
  ⟨⟨-1/10, 3, -1/50, 1/50, by decide +kernel, Or.inr rfl⟩, ⟨-1/10, 3, -1/50, 1/50, by decide +kernel, Or.inl rfl⟩⟩

/-- both lattices of the example with the ranges of the whole ring -/
def Example.bench : Bench ℚ := ⟨Example.ring, Example.ring, (0, 6), (0, 6), 10⟩

-- elements two to four, a third of the ring, and an explicit range with priority
example : (plotLattice (fun _ _ => none) none (some [4, 2, 3]) (some 3) false 8 Example.bench).value? = some (0, 1) ∧
    (plotLattice (fun _ _ => none) none none (some 3) true 8 Example.bench).value? = some (0, 2) ∧
    (plotLattice (fun _ _ => none) (some (1, 2)) (some [4, 2, 3]) (some 3) false 8 Example.bench).value? = some (1, 2) := by decide +kernel
-- optics that fail
example : ∃ w', plotLattice (fun _ _ => some .linAlgError) (some (1, 2)) none none false 8 Example.bench = .error .linAlgError w' ∧
    w'.range ≠ Example.bench.range ∧ w'.font ≠ Example.bench.font := by
  obtain ⟨w', h1, h2, h3, -⟩ := C122_violated (fun _ _ => some .linAlgError) (1, 2) 8 Example.bench .linAlgError rfl (by decide +kernel) (by decide +kernel)
  exact ⟨w', h1, h2, h3⟩

end PySC
