import Verif.Lemmas.PlotSupport
import Verif.Props.Supports
/-
C117: the figure of the supports shows each support as the machine has it.
-/
namespace PySC
set_option linter.unusedSectionVars false
variable {K : Type} [Field K] [LinearOrder K] [FloorRing K] [IsStrictOrderedRing K]
open Py Spec

/-- **C117**: if the figure is drawn at all, it shows for each support a line that passes, at each element standing on the support, through
the offset (in micrometres) of the straight line between the ends of this support, also across the origin, and through its roll. -/
theorem C117_shown_partial (r : Ring K) (hf : Forward r) (o : Ords) (t : String) (hL : Layout r (o.pairs t)) (dim : Nat) (lim : Option (K × K))
    (out : List (List (Seg K) × List (Seg K))) (h : plotSupports r o t dim lim = .ok out) :
    out.length = (o.pairs t).length ∧ ∀ (j : Nat) (p : Nat × Nat), (o.pairs t)[j]? = some p → ∃ g, out[j]? = some g ∧ ∀ k ≤ r.length, covers p k →
      Drawn g.1 (sPos r k) (10 ^ 6 * line (along r p p.1) (coef (vecAt r p.1 (t ++ "Offset")) dim)
        (along r p p.2) (coef (vecAt r p.2 (t ++ "Offset")) dim) (along r p k)) ∧
      Drawn g.2 (sPos r k) (10 ^ 6 * coef (vecAt r p.1 (t ++ "Roll")) dim) := by
  unfold plotSupports at h
  simp only [Except.bind_eq_ok'] at h
  obtain ⟨data, hd, h⟩ := h
  have ed := collectSupports_eq hd
  obtain ⟨h1, h2, h3⟩ := drawSupports_eq h
  refine ⟨h1, fun j p hp => ?_⟩
  have hne : o.pairs t ≠ [] := by rintro e; rw [e] at hp; simp at hp
  rw [if_neg hne, ed, List.length_map] at h2
  have hfil : (o.pairs t).filter (fun p => decide (Touches r (lim.getD (0, (findspos r).getLastD 0)) p)) = o.pairs t :=
    List.filter_sublist.eq_of_length_le (by omega)
  rw [hfil] at ed
  obtain ⟨d, g, hdj, hg, l0, l1, go, gr⟩ := h3 j p hp
  have hdd : d = dataOf r t dim p := by
    rw [ed, Nat.zero_add, List.getElem?_map, hp] at hdj
    simpa using hdj.symm
  subst hdd
  refine ⟨g, hg, fun k hk hc => ?_⟩
  have ho := hL.open_ p (List.mem_of_getElem? hp)
  have a := go.shows hf ho l0 hk hc
  have b := gr.shows hf ho l0 hk hc
  refine ⟨?_, ?_⟩
  · have e : ∀ xa xb x : K, line xa (10 ^ 6 * (dataOf r t dim p).1) xb (10 ^ 6 * (dataOf r t dim p).2.1) x =
        10 ^ 6 * line xa (dataOf r t dim p).1 xb (dataOf r t dim p).2.1 x := by intros; unfold line; ring
    rw [e] at a
    exact a
  · have e : ∀ xa xb x : K, line xa (10 ^ 6 * (dataOf r t dim p).2.2) xb (10 ^ 6 * (dataOf r t dim p).2.2) x =
        10 ^ 6 * (dataOf r t dim p).2.2 := by intros; unfold line; ring
    rw [e] at b
    exact b

/-- **C117**: for girders on the floor the line passes through the offsets which the machine uses for the elements on them (those of C25). -/
theorem C117_agrees_partial (r : Ring K) (hf : Forward r) (o : Ords) (hS : o.Section = []) (hP : o.Plinth = []) (hL : Layouts r o) (dim : Nat) (hd : dim < 3)
    (lim : Option (K × K)) (out : List (List (Seg K) × List (Seg K))) (h : plotSupports r o "Girder" dim lim = .ok out)
    (off roll : List (List K)) (hm : supportOffsetAndRoll r o (findspos r) = .ok (off, roll)) (j : Nat) (p : Nat × Nat) (hp : o.Girder[j]? = some p) :
    ∃ g, out[j]? = some g ∧ ∀ k ≤ r.length, covers p k → Drawn g.1 (sPos r k) (10 ^ 6 * coef (off.getD dim []) k) := by
  obtain ⟨g, hg, hs⟩ := (C117_shown_partial r hf o "Girder" hL.girder dim lim out h).2 j p hp
  refine ⟨g, hg, fun k hk hc => ?_⟩
  have := (hs k hk hc).1
  rw [C25_straight_line r o hf hL off roll hm dim hd p (List.mem_of_getElem? hp) k hk hc]
  have u : ∀ i, underGirders r o dim i = 0 := by
    intro i
    simp [underGirders, displacement, ride, hS, hP]
  rw [u, u, zero_add, zero_add]
  exact this

/-- **C117**: the figure of the whole ring is drawn for every machine whose supports have offsets and rolls. -/
theorem C117_drawn (r : Ring K) (hf : Forward r) (o : Ords) (t : String) (dim : Nat) (hd : dim < 3) (hp : ∀ p ∈ o.pairs t, HasData r t p ∧ Extended r p) :
    ∃ out, plotSupports r o t dim none = .ok out := by
  obtain ⟨data, hdata⟩ := collectSupports_total (lim := (0, (findspos r).getLastD 0)) hd (fun p h => (hp p h).1)
  have ed := collectSupports_eq hdata
  have hall : (o.pairs t).filter (fun p => decide (Touches r (0, (findspos r).getLastD 0) p)) = o.pairs t := by
    refine List.filter_eq_self.2 (fun p h => ?_)
    simp only [decide_eq_true_eq, findspos_last]
    exact Or.inl ⟨sPos_nonneg hf _, sPos_mono hf (hasVec3_lt (hp p h).1.1).le⟩
  rw [hall] at ed
  have hlen : data.length = (o.pairs t).length := by rw [ed, List.length_map]
  obtain ⟨out, ho⟩ := drawSupports_total (r := r) (data := data) (ps := o.pairs t) (i := 0) (by omega)
    (fun p h => ⟨(hasVec3_lt (hp p h).1.1).le, (hasVec3_lt (hp p h).1.2.1).le, (hp p h).2.plotted hf⟩)
  exact ⟨out, by unfold plotSupports; simp only [Except.bind_eq_ok']; exact ⟨data, hdata, ho⟩⟩

/-- **C117** is violated: with limits that leave out one support the figure is not drawn, an `IndexError` is raised. -/
theorem C117_violated (r : Ring K) (hf : Forward r) (o : Ords) (t : String) (dim : Nat) (hd : dim < 3)
    (hp : ∀ p ∈ o.pairs t, HasData r t p ∧ Extended r p) (lim : K × K) (p : Nat × Nat) (hpm : p ∈ o.pairs t) (hout : ¬ Touches r lim p) :
    plotSupports r o t dim (some lim) = .error .indexError := by
  obtain ⟨data, hdata⟩ := collectSupports_total (lim := lim) hd (fun p h => (hp p h).1)
  have ed := collectSupports_eq hdata
  have hlt : data.length < (o.pairs t).length := by
    rw [ed, List.length_map]
    refine lt_of_le_of_ne (List.length_filter_le _ _) (fun e => ?_)
    have := List.filter_eq_self.1 (List.filter_sublist.eq_of_length e) p hpm
    simp only [decide_eq_true_eq] at this
    exact hout this
  unfold plotSupports
  dsimp only
  have hd' : collectSupports r t dim ((some lim).getD (0, (findspos r).getLastD 0)) (o.pairs t) = .ok data := hdata
  rw [hd']
  exact drawSupports_short (Nat.zero_le _) (by omega)
    (fun p h => ⟨(hasVec3_lt (hp p h).1.1).le, (hasVec3_lt (hp p h).1.2.1).le, (hp p h).2.plotted hf⟩)

/-- two girders, one of them across the origin -/
def Example.floor : SC ℚ :=
  let m (l : ℚ) : Elem ℚ := Elem.ofList [("FamName", .str "M"), ("PassMethod", .str "IdentityPass"), ("Length", .num l),
    ("GirderOffset", .vec [l, 2, 0]), ("GirderRoll", .vec [l / 10, 0, 0])]
  { Example.wrapped with RING := [m 1, m 2, m 1, m 2, m 3], ORD := ⟨[], [], [], [], [], [], [(4, 1), (2, 3)], [], []⟩ }

theorem Example.floor_data : ∀ p ∈ Example.floor.ORD.pairs "Girder", HasData Example.floor.RING "Girder" p ∧ Extended Example.floor.RING p := by
  intro p hp
  have : p = (4, 1) ∨ p = (2, 3) := by simpa [Example.floor, Ords.pairs] using hp
  rcases this with rfl | rfl
  · exact ⟨⟨⟨3, 2, 0, by decide +kernel⟩, ⟨2, 2, 0, by decide +kernel⟩, ⟨3/10, 0, 0, by decide +kernel⟩⟩, by unfold Extended; decide +kernel⟩
  · exact ⟨⟨⟨1, 2, 0, by decide +kernel⟩, ⟨2, 2, 0, by decide +kernel⟩, ⟨1/10, 0, 0, by decide +kernel⟩⟩, by unfold Extended; decide +kernel⟩

theorem Example.floor_layout : Layouts Example.floor.RING Example.floor.ORD := by
  refine ⟨⟨?_, by decide +kernel⟩, ⟨by simp [Example.floor], by simp [Example.floor]⟩, ⟨by simp [Example.floor], by simp [Example.floor]⟩⟩
  simp only [Example.floor, List.pairwise_cons, List.mem_cons, List.not_mem_nil, or_false, forall_eq, and_true, List.Pairwise.nil]
  refine ⟨?_, by simp⟩
  intro k
  simp only [covers]
  norm_num
  omega

example : Forward Example.floor.RING ∧ Layouts Example.floor.RING Example.floor.ORD ∧
    (∀ p ∈ Example.floor.ORD.pairs "Girder", HasData Example.floor.RING "Girder" p ∧ Extended Example.floor.RING p) ∧
    plotSupports Example.floor.RING Example.floor.ORD "Girder" 0 none =
      .ok [([⟨6, 3 * 10 ^ 6, 9, 9 / 4 * 10 ^ 6⟩, ⟨0, 9 / 4 * 10 ^ 6, 1, 2 * 10 ^ 6⟩], [⟨6, 3 * 10 ^ 5, 9, 3 * 10 ^ 5⟩, ⟨0, 3 * 10 ^ 5, 1, 3 * 10 ^ 5⟩]),
        ([⟨3, 1 * 10 ^ 6, 4, 2 * 10 ^ 6⟩], [⟨3, 1 * 10 ^ 5, 4, 1 * 10 ^ 5⟩])] ∧
    (supportOffsetAndRoll Example.floor.RING Example.floor.ORD (findspos Example.floor.RING)).isOk = true ∧
    ¬ Touches Example.floor.RING (5, 10) (2, 3) ∧ plotSupports Example.floor.RING Example.floor.ORD "Girder" 0 (some (5, 10)) = .error .indexError :=
  ⟨forward_of_all (by decide +kernel), Example.floor_layout, Example.floor_data, by decide +kernel, by decide +kernel, by decide +kernel, by decide +kernel⟩

end PySC
