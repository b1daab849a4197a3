import Verif.Lemmas.LocoFit
import Verif.Props.Setpoints
import Verif.Props.Orbit
import Mathlib.Data.Fin.VecNotation
/-
C58 (LOCO fit and correction), C59 (equally spaced selection).
-/
set_option linter.unusedSectionVars false
namespace PySC
open Py Spec

/-! ### C59 -/

/-- **C59**: if at least two of enough elements are requested, the first element and then every `step`-th one is returned, in order.
(Partial: the number of elements is not the requested one, see below.) -/
theorem C59_subsequence_partial {α : Type} (l : List α) (n : Nat) (hn : 2 ≤ n) (hl : n ≤ l.length + 1) :
    ∃ sub step, selectEqually l n = .ok sub ∧ 1 ≤ step ∧ step * (n - 1) ≤ l.length ∧ l.length < (step + 1) * (n - 1) ∧ EverySo l sub step ∧
      sub.Sublist l := by
  obtain ⟨k, rfl⟩ : ∃ k, n = k + 1 := ⟨n - 1, by omega⟩
  have hk : 0 < k := by omega
  have hd : l.length / k ≠ 0 := by
    rw [Nat.div_ne_zero_iff]; omega
  have h := selectEqually_pos (l := l) hk
  rw [if_neg hd] at h
  refine ⟨_, _, by push_cast; exact h, Nat.pos_of_ne_zero hd, ?_, ?_, everyNth_eq l (Nat.pos_of_ne_zero hd), ?_⟩
  · exact Nat.div_mul_le_self _ _
  · have := Nat.lt_div_mul_add (a := l.length) hk
    rw [Nat.add_mul]; simpa using this
  · unfold everyNth
    generalize hstep : l.length / k = step at hd ⊢
    have key : ∀ (N : Nat) (f : Nat → Nat), (∀ i j, i < j → f i < f j) → ∀ M, ((List.range' M N).filterMap (fun i => l[f i]?)).Sublist (l.drop (f M)) := by
      intro N f hf
      induction N with
      | zero => intro M; simp
      | succ N ih =>
        intro M
        rw [List.range'_succ, List.filterMap_cons]
        have h1 : (l.drop (f (M + 1))).Sublist (l.drop (f M + 1)) := by
          have := hf M (M + 1) (by omega)
          obtain ⟨d, hd⟩ : ∃ d, f (M + 1) = f M + 1 + d := ⟨f (M + 1) - (f M + 1), by omega⟩
          rw [hd, ← List.drop_drop]
          exact List.drop_sublist _ _
        cases hg : l[f M]? with
        | none => exact (ih (M + 1)).trans (h1.trans (by rw [← List.drop_drop]; exact List.drop_sublist _ _))
        | some x =>
          obtain ⟨hlt, hx⟩ := List.getElem?_eq_some_iff.1 hg
          rw [List.drop_eq_getElem_cons hlt, hx]
          exact ((ih (M + 1)).trans h1).cons_cons x
    have := key ((l.length + step - 1) / step) (fun i => i * step) (fun i j hij => Nat.mul_lt_mul_of_pos_right hij (Nat.pos_of_ne_zero hd)) 0
    simpa [List.range_eq_range'] using this

/-- **C59**: how many elements there are: one less than requested if the number of intervals divides the number of elements, the
requested number if little remains, and up to nearly twice as many otherwise. -/
theorem C59_count {α : Type} (l : List α) (n : Nat) (hn : 2 ≤ n) (hl : n ≤ l.length + 1) (sub : List α) (h : selectEqually l n = .ok sub) :
    (sub.length = n - 1 ↔ l.length % (n - 1) = 0) ∧
    (sub.length = n ↔ 0 < l.length % (n - 1) ∧ l.length % (n - 1) ≤ l.length / (n - 1)) ∧
    n - 1 ≤ sub.length ∧ sub.length < 2 * (n - 1) := by
  obtain ⟨k, rfl⟩ : ∃ k, n = k + 1 := ⟨n - 1, by omega⟩
  have hk : 0 < k := by omega
  have hd : l.length / k ≠ 0 := by
    rw [Nat.div_ne_zero_iff]; omega
  have h' := selectEqually_pos (l := l) hk
  rw [if_neg hd] at h'
  push_cast at h
  rw [h'] at h
  cases h
  have hlen := everyNth_length l (Nat.pos_of_ne_zero hd)
  generalize hL : (everyNth l (l.length / k)).length = L at *
  generalize hq : l.length / k = q at *
  have hdiv := Nat.div_add_mod l.length k
  rw [hq] at hdiv
  generalize hr : l.length % k = r at *
  have hrk : r < k := by rw [← hr]; exact Nat.mod_lt _ hk
  have hqpos : 0 < q := Nat.pos_of_ne_zero hd
  rw [Nat.add_sub_cancel]
  have e1 : ∀ i, i < L ↔ i * q < k * q + r := by intro i; rw [hlen, ← hdiv, Nat.mul_comm k q, Nat.mul_comm q k]
  have hge : k ≤ L := by
    by_contra hc
    have h1 := (e1 L).2 (by
      have : L * q ≤ (k - 1) * q := Nat.mul_le_mul_right _ (by omega)
      have h2 : (k - 1) * q + q = k * q := by rw [← Nat.succ_mul]; congr 1; omega
      omega)
    omega
  have hkL : k < L ↔ 0 < r := by rw [e1]; omega
  have hkL1 : k + 1 < L ↔ q < r := by rw [e1, Nat.succ_mul]; omega
  refine ⟨by omega, by omega, hge, ?_⟩
  by_contra hc
  have h1 := (e1 (2 * k - 1)).1 (by omega)
  have h2 : (2 * k - 1) * q = k * q + (k - 1) * q := by rw [← Nat.add_mul]; congr 1; omega
  have h3 : (k - 1) * 1 ≤ (k - 1) * q := Nat.mul_le_mul_left _ hqpos
  omega

/-- **C59**: a single element cannot be requested, nor more than one more than there are. -/
theorem C59_refuses {α : Type} (l : List α) :
    selectEqually l 1 = .error .zeroDivision ∧ ∀ n : Nat, 2 ≤ n → l.length + 1 < n → selectEqually l n = .error .valueError := by
  refine ⟨by simp [selectEqually], fun n hn hl => ?_⟩
  obtain ⟨k, rfl⟩ : ∃ k, n = k + 1 := ⟨n - 1, by omega⟩
  have h := selectEqually_pos (l := l) (n := k) (by omega)
  rw [if_pos (Nat.div_eq_of_lt (by omega))] at h
  push_cast
  exact h

/-- **C59 violated**: five of twenty elements are requested and four returned; of nineteen elements eleven are requested and all
returned. -/
theorem C59_violated_count : selectEqually (List.range 20) 5 = .ok [0, 5, 10, 15] ∧
    selectEqually (List.range 19) 11 = .ok (List.range 19) := by decide +kernel

example : selectEqually (List.range 10) 4 = .ok [0, 3, 6, 9] := by decide +kernel
/-- zero elements: the list is returned from the end -/
example : selectEqually (List.range 3) 0 = .ok [2] ∧ selectEqually (List.range 3) (-1) = .ok [2, 0] := by decide +kernel

/-! ### C58 -/

theorem getD_within {α : Type} {l : List α} {i : Nat} {d : α} (h : i < l.length) : l.getD i d = l[i] := by
  rw [List.getD_eq_getElem?_getD, List.getElem?_eq_getElem h]; rfl

section
variable {K : Type} [Field K] [LinearOrder K] {m c : Nat}

/-- **C58**: exactly the parameters of the requested groups are fitted, in their order; their number is the sum of the sizes of the
groups. -/
theorem C58_groups (sqrt : K → K) (solve : (List K → Except Err (Matrix (Fin c) (Fin m) K)) → List K → Except Err (List K)) (guess : List K)
    (model measured : Matrix (Fin m) (Fin c) K) (J : List (Matrix (Fin m) (Fin c) K)) (lengths : Nat × Nat × Nat) (fit : List String)
    (W : Matrix (Fin m) (Fin m) K) (hg : guess.length = lengths.1 + lengths.2.1 + lengths.2.2)
    (hJ : J.length = lengths.1 + lengths.2.1 + lengths.2.2) :
    locoLm sqrt solve guess model measured J lengths fit W =
      solve (fun p => objective sqrt p (measured - model) (ofGroups fit lengths J) W) (ofGroups fit lengths guess) ∧
    (ofGroups fit lengths guess).length = (if "quads" ∈ fit then lengths.1 else 0) + (if "cor" ∈ fit then lengths.2.1 else 0) +
      (if "bpm" ∈ fit then lengths.2.2 else 0) := by
  constructor
  · unfold locoLm
    rw [maskSelect_eq, if_pos hg]
    show (maskSelect _ J >>= _) = _
    rw [maskSelect_eq, if_pos hJ]
    rfl
  · have key : ∀ (l : List K) (k : Nat), ((l.zipIdx k).filter (fun p => decide (groupOf lengths p.2 ∈ fit))).length =
        ((List.range' k l.length).filter (fun i => decide (groupOf lengths i ∈ fit))).length := by
      intro l
      induction l with
      | nil => intro k; simp
      | cons x l ih =>
        intro k
        rw [List.zipIdx_cons, List.length_cons, List.range'_succ, List.filter_cons, List.filter_cons]
        split <;> simp [ih]
    unfold ofGroups
    rw [List.length_map, key, hg]
    rw [← List.range'_append_1, ← List.range'_append_1, List.filter_append, List.filter_append, List.length_append, List.length_append]
    have piece : ∀ (a n : Nat) (g : String), (∀ i, a ≤ i → i < a + n → groupOf lengths i = g) →
        ((List.range' a n).filter (fun i => decide (groupOf lengths i ∈ fit))).length = if g ∈ fit then n else 0 := by
      intro a n g h
      rw [List.filter_congr (q := fun _ => decide (g ∈ fit)) (by
        intro i hi
        rw [List.mem_range'_1] at hi
        rw [h i hi.1 hi.2])]
      by_cases hgf : g ∈ fit <;> simp [hgf]
    rw [piece 0 lengths.1 "quads" (by intro i _ hi; unfold groupOf; rw [if_pos (by omega)]),
      piece (0 + lengths.1) lengths.2.1 "cor" (by intro i h1 h2; unfold groupOf; rw [if_neg (by omega), if_pos (by omega)]),
      piece (0 + (lengths.1 + lengths.2.1)) lengths.2.2 "bpm" (by intro i h1 h2; unfold groupOf; rw [if_neg (by omega), if_neg (by omega)])]

/-- **C58**: vectors which do not have one entry per parameter are refused. -/
theorem C58_refuses (sqrt : K → K) (solve : (List K → Except Err (Matrix (Fin c) (Fin m) K)) → List K → Except Err (List K)) (guess : List K)
    (model measured : Matrix (Fin m) (Fin c) K) (J : List (Matrix (Fin m) (Fin c) K)) (lengths : Nat × Nat × Nat) (fit : List String)
    (W : Matrix (Fin m) (Fin m) K)
    (h : ¬ (guess.length = lengths.1 + lengths.2.1 + lengths.2.2 ∧ J.length = lengths.1 + lengths.2.1 + lengths.2.2)) :
    locoLm sqrt solve guess model measured J lengths fit W = .error .indexError := by
  unfold locoLm
  rw [maskSelect_eq]
  by_cases hg : guess.length = lengths.1 + lengths.2.1 + lengths.2.2
  · rw [if_pos hg]
    show (maskSelect _ J >>= _) = _
    rw [maskSelect_eq, if_neg (by tauto)]
    rfl
  · rw [if_neg hg]; rfl

/-- **C58**: the residual is an affine function of the parameters: each of them adds a fixed multiple of its own matrix. -/
theorem C58_linear (sqrt : K → K) (R : Matrix (Fin m) (Fin c) K) (J : List (Matrix (Fin m) (Fin c) K)) (W : Matrix (Fin m) (Fin m) K) :
    ∃ G : List (Matrix (Fin c) (Fin m) K), G.length = J.length ∧
    ∀ p : List K, p.length = J.length → objective sqrt p R J W = .ok (R.transpose * W.map sqrt - combination p G) := by
  refine ⟨J.map (fun M => M.transpose * W.map sqrt), by simp, fun p hp => ?_⟩
  rw [objective_eq hp, Matrix.transpose_sub, Matrix.sub_mul]
  congr 2
  induction J generalizing p with
  | nil => cases p <;> simp [combination]
  | cons M J ih =>
    cases p with
    | nil => simp at hp
    | cons x p =>
      rw [combination_cons, List.map_cons, combination_cons, Matrix.transpose_add, Matrix.add_mul, ih p (by simpa using hp),
        Matrix.transpose_smul, Matrix.smul_mul]

/-- **C58**: if the measured response matrix is the model one changed linearly by parameters `p` of the fitted groups, a least squares
solver makes the residual vanish, and finds exactly `p` if the parameters are independent. -/
theorem C58_recovers [IsStrictOrderedRing K] (sqrt : K → K) (solve : (List K → Except Err (Matrix (Fin c) (Fin m) K)) → List K → Except Err (List K))
    (hs : LeastSquares solve) (guess x p : List K) (model measured : Matrix (Fin m) (Fin c) K) (J : List (Matrix (Fin m) (Fin c) K))
    (lengths : Nat × Nat × Nat) (fit : List String) (W : Matrix (Fin m) (Fin m) K) (hp : p.length = (ofGroups fit lengths J).length)
    (hm : measured = model + combination p (ofGroups fit lengths J))
    (h : locoLm sqrt solve guess model measured J lengths fit W = .ok x) :
    objective sqrt x (measured - model) (ofGroups fit lengths J) W = .ok 0 ∧
    (Independent sqrt (ofGroups fit lengths J) W → x = p) := by
  have hl : guess.length = lengths.1 + lengths.2.1 + lengths.2.2 ∧ J.length = lengths.1 + lengths.2.1 + lengths.2.2 := by
    by_contra hc
    rw [C58_refuses sqrt solve guess model measured J lengths fit W hc] at h
    cases h
  have hlen : (ofGroups fit lengths guess).length = (ofGroups fit lengths J).length := by
    have h1 := (C58_groups sqrt solve guess model measured J lengths fit W hl.1 hl.2).2
    rw [h1]
    have h2 := (C58_groups sqrt solve (List.replicate J.length 0) model measured J lengths fit W (by simpa using hl.2) hl.2).2
    rw [← h2]
    have : ∀ {α β : Type} (a : List α) (b : List β) (k : Nat), a.length = b.length →
        ((a.zipIdx k).filter (fun p => decide (groupOf lengths p.2 ∈ fit))).length = ((b.zipIdx k).filter (fun p => decide (groupOf lengths p.2 ∈ fit))).length := by
      intro α β a
      induction a with
      | nil => intro b k hb; cases b <;> simp at hb ⊢
      | cons x a ih =>
        intro b k hb
        cases b with
        | nil => simp at hb
        | cons y b =>
          rw [List.zipIdx_cons, List.zipIdx_cons, List.filter_cons, List.filter_cons]
          split <;> simp [ih b (k + 1) (by simpa using hb)]
    unfold ofGroups
    rw [List.length_map, List.length_map]
    exact this _ _ 0 (by simp)
  rw [(C58_groups sqrt solve guess model measured J lengths fit W hl.1 hl.2).1] at h
  obtain ⟨hx, y, hy, hmin⟩ := hs _ _ _ h
  have hR : measured - model = combination p (ofGroups fit lengths J) := by rw [hm, add_sub_cancel_left]
  have hz := hmin p 0 (by rw [hp, hlen]) (by rw [objective_eq hp, hR, sub_self]; simp)
  have hy0 : y = 0 := squares_zero (le_trans hz (by simp [squares]))
  subst hy0
  refine ⟨hy, fun hind => ?_⟩
  obtain ⟨hxl, he⟩ := objective_eq_ok hy
  rw [hR, ← combination_sub hp hxl] at he
  exact (eq_of_sub_zero (by rw [hp, hxl]) (hind _ (by simp [hp, hxl]) he.symm)).symm

/-- **C58**, Gauss-Newton fit: if all groups are fitted with equal weights, without damping and without removing singular values, the
result is the difference between the true parameters and the initial guess, provided that the sums of the matrices over the correctors
are independent. -/
theorem C58_gauss_newton_partial [IsStrictOrderedRing K] (sqrt : K → K) (h0 : sqrt 0 = 0) (h1 : sqrt 1 = 1)
    (svd : (n : Nat) → Matrix (Fin n) (Fin n) K → Svd K n n n) (guess p : List K) (model measured : Matrix (Fin m) (Fin c) K)
    (J : List (Matrix (Fin m) (Fin c) K)) (hsvd : IsSvd (normalMatrix J 1 0) (svd _ (normalMatrix J 1 0)))
    (lengths : Nat × Nat × Nat) (fit : List String) (hfit : ∀ i, groupOf lengths i ∈ fit) (sCut : Int) (hcut : (J.length : Int) ≤ sCut)
    (hJ : J.length = lengths.1 + lengths.2.1 + lengths.2.2) (hg : guess.length = J.length) (hp : p.length = J.length)
    (hm : measured = model + combination p J) (hind : SumsIndependent J) :
    locoNg sqrt svd guess model measured J lengths fit sCut 1 0 = .ok (List.zipWith (· - ·) p guess) := by
  unfold locoNg
  rw [maskSelect_eq, if_pos (by rw [hg, hJ]), ofGroups_all guess hfit]
  show (maskSelect _ J >>= _) = _
  rw [maskSelect_eq, if_pos hJ, ofGroups_all J hfit]
  show (objective sqrt guess (measured - model) J 1 >>= _) = _
  rw [objective_eq hg, hm, add_sub_cancel_left, ← combination_sub hp hg]
  have hW : (1 : Matrix (Fin m) (Fin m) K).map sqrt = 1 := by
    ext a b
    rw [Matrix.map_apply, Matrix.one_apply]
    split <;> simp [h0, h1]
  rw [hW, Matrix.mul_one]
  show Except.ok _ = _
  congr 1
  have hq : (List.zipWith (· - ·) p guess).length = J.length := by simp [hp, hg]
  generalize List.zipWith (· - ·) p guess = q at hq
  have hmat : normalMatrix J 1 0 = columnSums J * (columnSums J).transpose := by simp [normalMatrix]
  have hb : (fun i : Fin J.length => ∑ a, ∑ b, ((J.getD i.1 0).transpose * (1 : Matrix (Fin m) (Fin m) K) * (combination q J).transpose.transpose) a b) =
      (normalMatrix J 1 0).mulVec (fun i => q.getD i.1 0) := by
    funext i
    rw [Matrix.mul_one, Matrix.transpose_transpose, sum_sum_mul (n := 0), hmat, ← Matrix.mulVec_mulVec]
    simp only [Matrix.mulVec, dotProduct]
    refine Finset.sum_congr rfl (fun k _ => ?_)
    have hi : J.getD i.1 0 = J.get i := by rw [getD_within i.2]; rfl
    rw [combination_sums hq, hi]
    rfl
  rw [hb]
  unfold getInverse
  have hnr : (J.length : Int) - min (J.length : Int) sCut = 0 := by rw [min_eq_left hcut, sub_self]
  rw [hnr, pseudo_left_inverse (C47_moore_penrose _ _ hsvd) (fun v hv => ?_)]
  · apply List.ext_getElem
    · simp [hq]
    · intro i h1 h2
      rw [List.getElem_ofFn]
      exact getD_within h2
  · rw [hmat] at hv
    refine gram_injective (columnSums J) (fun v hv => ?_) v hv
    have hl : (List.ofFn v).length = J.length := by simp
    have hgd : (fun i : Fin J.length => (List.ofFn v).getD i.1 0) = v := by
      funext i
      rw [getD_within (by simp)]
      simp
    have := hind (List.ofFn v) hl (fun a => by rw [combination_sums hl, hgd, hv]; rfl)
    funext i
    exact this (v i) (by rw [List.mem_ofFn]; exact ⟨i, rfl⟩)

end

/-- square roots of squares, the singular value decomposition of a number, and a solver which tries [1] -/
def Example.sqrtOf (x : ℚ) : ℚ := (Example.qsqrt x).getD 0

def Example.svd1 (n : Nat) (a : Matrix (Fin n) (Fin n) ℚ) : Svd ℚ n n n :=
  ⟨1, fun i => |a i i|, fun i j => if i = j then (if a i i < 0 then -1 else 1) else 0⟩

def Example.tryOne {m c : Nat} (f : List ℚ → Except Err (Matrix (Fin c) (Fin m) ℚ)) (x0 : List ℚ) : Except Err (List ℚ) :=
  match f [1] with
  | .ok y => if x0.length = 1 ∧ squares y = 0 then .ok [1] else .error .runtimeError
  | .error e => .error e

theorem Example.tryOne_least {m c : Nat} : LeastSquares (Example.tryOne (m := m) (c := c)) := by
  intro f x0 x h
  unfold Example.tryOne at h
  cases hy : f [1] with
  | error e => rw [hy] at h; cases h
  | ok y =>
    rw [hy] at h
    simp only at h
    split at h
    · rename_i hc
      cases h
      refine ⟨by simp [hc.1], y, hy, fun x' y' _ _ => ?_⟩
      rw [hc.2]
      exact squares_nonneg _
    · cases h

/-- the gain of the corrector is found although the quadrupole is not fitted -/
example : locoLm (m := 1) (c := 1) Example.sqrtOf Example.tryOne [0, 0] 0 !![2] [!![1], !![2]] (1, 1, 0) ["cor"] 4 = .ok [1] ∧
    (!![2] : Matrix (Fin 1) (Fin 1) ℚ) = 0 + combination [1] (ofGroups ["cor"] (1, 1, 0) [!![1], !![2]]) := by decide +kernel

example : Independent (m := 1) (c := 1) Example.sqrtOf [!![2]] 4 ∧ SumsIndependent (m := 1) (c := 1) [(!![2] : Matrix (Fin 1) (Fin 1) ℚ)] := by
  constructor
  · intro q hq h x hx
    match q, hq with
    | [y], _ =>
      have := congrFun (congrFun h 0) 0
      have h4 : Example.sqrtOf 4 = 2 := by decide +kernel
      rw [Matrix.mul_apply] at this
      simp [combination, Matrix.smul_apply] at this
      simp only [List.mem_singleton] at hx
      subst hx
      have e : (4 : Matrix (Fin 1) (Fin 1) ℚ) 0 0 = 4 := by decide +kernel
      rw [e, h4] at this
      simpa using this
  · intro q hq h x hx
    match q, hq with
    | [y], _ =>
      have := h 0
      simp [combination, Matrix.smul_apply] at this
      simp only [List.mem_singleton] at hx
      subst hx
      exact this

/-- both parameters are found by the Gauss-Newton fit -/
example : locoNg (m := 1) (c := 2) Example.sqrtOf Example.svd1 [1/2] 0 !![2, 4] [!![1, 2]] (1, 0, 0) ["quads", "cor", "bpm"] 5 1 0 = .ok [3/2] ∧
    (!![2, 4] : Matrix (Fin 1) (Fin 2) ℚ) = 0 + combination [2] [!![1, 2]] := by decide +kernel

example : IsSvd (normalMatrix (m := 1) (c := 2) [(!![1, 2] : Matrix (Fin 1) (Fin 2) ℚ)] 1 0)
    (Example.svd1 _ (normalMatrix (m := 1) (c := 2) [(!![1, 2] : Matrix (Fin 1) (Fin 2) ℚ)] 1 0)) := by
  refine ⟨?_, ?_, ?_, ?_, ?_⟩ <;> decide +kernel

/-- **C58 violated**, Gauss-Newton fit of some groups: the right hand side is made from the first parameters instead of the selected
ones.  Here the corrector gain 1 is expected, but 1/2 returned. -/
theorem C58_violated_gauss_newton_groups :
    locoNg (m := 1) (c := 1) Example.sqrtOf Example.svd1 [0, 0] 0 !![2] [!![1], !![2]] (1, 1, 0) ["cor"] 5 1 0 = .ok [1/2] ∧
    (!![2] : Matrix (Fin 1) (Fin 1) ℚ) = 0 + combination [1] (ofGroups ["cor"] (1, 1, 0) [!![1], !![2]]) ∧
    IsSvd (normalMatrix (m := 1) (c := 1) [(!![2] : Matrix (Fin 1) (Fin 1) ℚ)] 1 0)
      (Example.svd1 _ (normalMatrix (m := 1) (c := 1) [(!![2] : Matrix (Fin 1) (Fin 1) ℚ)] 1 0)) := by
  refine ⟨by decide +kernel, by decide +kernel, ?_, ?_, ?_, ?_, ?_⟩ <;> decide +kernel

/-- **C58 violated**, Gauss-Newton fit with weights: they enter the right hand side once more as a square root.  With the same weight 4
for everything, twice the correct value 1 is returned. -/
theorem C58_violated_gauss_newton_weights :
    locoNg (m := 1) (c := 1) Example.sqrtOf Example.svd1 [0] 0 !![1] [!![1]] (1, 0, 0) ["quads"] 5 4 0 = .ok [2] ∧
    (!![1] : Matrix (Fin 1) (Fin 1) ℚ) = 0 + combination [1] [!![1]] ∧
    IsSvd (normalMatrix (m := 1) (c := 1) [(!![1] : Matrix (Fin 1) (Fin 1) ℚ)] 4 0)
      (Example.svd1 _ (normalMatrix (m := 1) (c := 1) [(!![1] : Matrix (Fin 1) (Fin 1) ℚ)] 4 0)) := by
  refine ⟨by decide +kernel, by decide +kernel, ?_, ?_, ?_, ?_, ?_⟩ <;> decide +kernel

/-- **C58 violated**, Gauss-Newton fit of a parameter which changes the columns in opposite directions: only sums over the correctors are
used, so it is not seen (nor is the start value), although it is independent. -/
theorem C58_violated_gauss_newton_sums :
    locoNg (m := 1) (c := 2) Example.sqrtOf Example.svd1 [0] 0 !![1, -1] [!![1, -1]] (1, 0, 0) ["quads"] 5 1 0 = .ok [0] ∧
    (!![1, -1] : Matrix (Fin 1) (Fin 2) ℚ) = 0 + combination [1] [!![1, -1]] ∧
    locoLm (m := 1) (c := 2) Example.sqrtOf Example.tryOne [0] 0 !![1, -1] [!![1, -1]] (1, 0, 0) ["quads"] 1 = .ok [1] ∧
    IsSvd (normalMatrix (m := 1) (c := 2) [(!![1, -1] : Matrix (Fin 1) (Fin 2) ℚ)] 1 0)
      (Example.svd1 _ (normalMatrix (m := 1) (c := 2) [(!![1, -1] : Matrix (Fin 1) (Fin 2) ℚ)] 1 0)) := by
  refine ⟨by decide +kernel, by decide +kernel, by decide +kernel, ?_, ?_, ?_, ?_, ?_⟩ <;> decide +kernel

section
variable {K : Type} [Field K] [LinearOrder K] [IsStrictOrderedRing K] [FloorRing K]

theorem valueFor_neg (r : List K) (k : Nat) : valueFor (r.map (fun x => -x)) k = - valueFor r k := by
  have : ∀ j, coef (r.map (fun x => -x)) j = - coef r j := by
    intro j
    simp only [coef, List.getD_eq_getElem?_getD, List.getElem?_map]
    cases r[j]? <;> simp
  unfold valueFor
  rw [List.length_map, this, this]
  split <;> rfl

/-- **C58**: `set_correction` subtracts the fitted values from the set-points of the given magnets (a skew quadrupole is then limited
as usual), and changes no other set-point, except that dipole compensation may change horizontal correctors among them. -/
theorem C58_set_correction (r : List K) (ords : List Nat) (hnd : ords.Nodup) (skew : Bool) (order : Nat) (comp : Bool) (s s' : SC K)
    (h : setCorrection ⟨false, r⟩ ords skew order "add" comp s = .ok () s') :
    (∀ k o, ords[k]? = some o → Lim.Nonneg (skewLimit s.RING o) →
      setpoint s'.RING o skew order = magnetStored s.RING o skew order (setpoint s.RING o skew order - valueFor r k)) ∧
    (∀ i sk k, (k ≠ 0 ∨ comp = false ∨ order ≠ 1) → (i ∉ ords ∨ sk ≠ skew ∨ k ≠ order) → setpoint s'.RING i sk k = setpoint s.RING i sk k) := by
  unfold setCorrection at h
  refine ⟨fun k o hk hlim => ?_, fun i sk k h1 h2 => setMagnetSetpoints_other h i sk k h1 h2⟩
  have hlast : LastAt ords k o := by
    refine ⟨hk, fun j hj hjo => ?_⟩
    obtain ⟨h1, h1'⟩ := List.getElem?_eq_some_iff.1 hk
    obtain ⟨h2, h2'⟩ := List.getElem?_eq_some_iff.1 hjo
    have := (List.Nodup.getElem_inj_iff hnd (hi := h1) (hj := h2)).1 (by rw [h1', h2'])
    omega
  rw [C11_magnets ords _ skew order "add" comp s s' h k o hlast hlim, magnetAsked, asked, if_neg (by decide), if_pos rfl,
    if_neg (by decide), valueFor_neg]
  congr 1; ring

/-- **C58**: with families, each member of a family gets the value of its family subtracted. -/
theorem C58_set_correction_families (r : List K) (fams : List (List Nat)) (hnd : fams.flatten.Nodup) (skew : Bool) (order : Nat) (comp : Bool)
    (s s' : SC K) (h : setCorrectionFamilies ⟨false, r⟩ fams skew order "add" comp s = .ok () s') :
    (∀ (f : Nat) (fam : List Nat), fams[f]? = some fam → ∀ o ∈ fam, Lim.Nonneg (skewLimit s.RING o) → ∃ x, r[f]? = some x ∧
      setpoint s'.RING o skew order = magnetStored s.RING o skew order (setpoint s.RING o skew order - x)) ∧
    (∀ i sk k, (k ≠ 0 ∨ comp = false ∨ order ≠ 1) → ((∀ fam ∈ fams, i ∉ fam) ∨ sk ≠ skew ∨ k ≠ order) →
      setpoint s'.RING i sk k = setpoint s.RING i sk k) := by
  unfold setCorrectionFamilies at h
  have key : ∀ (l : List (List Nat)) (n : Nat) (s s' : SC K), l.flatten.Nodup →
      forEach (l.zipIdx n) (fun f => do
        let x ← lift (idx r f.2)
        setMagnetSetpoints f.1 ⟨false, [-x]⟩ skew order "add" comp) s = .ok () s' →
      (∀ (f : Nat) (fam : List Nat), l[f]? = some fam → ∀ o ∈ fam, Lim.Nonneg (skewLimit s.RING o) → ∃ x, r[f + n]? = some x ∧
        setpoint s'.RING o skew order = magnetStored s.RING o skew order (setpoint s.RING o skew order - x)) ∧
      (∀ i sk k, (k ≠ 0 ∨ comp = false ∨ order ≠ 1) → ((∀ fam ∈ l, i ∉ fam) ∨ sk ≠ skew ∨ k ≠ order) →
        setpoint s'.RING i sk k = setpoint s.RING i sk k) := by
    intro l
    induction l with
    | nil => intro n s s' _ h; cases h; simp
    | cons fam l ih =>
      intro n s s' hnd h
      rw [List.flatten_cons, List.nodup_append] at hnd
      rw [List.zipIdx_cons, forEach_cons, bind_eq_ok] at h
      obtain ⟨_, s1, h1, h2⟩ := h
      rw [bindLift_eq_ok] at h1
      obtain ⟨x, hx, h1⟩ := h1
      rw [idx_eq_ok] at hx
      obtain ⟨i1, i2⟩ := ih (n + 1) s1 s' hnd.2.1 h2
      have hlim1 : ∀ o, skewLimit s1.RING o = skewLimit s.RING o := fun o =>
        skewLimit_congr (((setMagnetSetpoints_modifies fam ⟨false, [-x]⟩ skew order "add" comp).ok h1).attr _ _ (by
          rintro (⟨-, h⟩ | h)
          · exact magSP_ne (by simp [spNames]) h
          · simp [magnetWrites] at h))
      have hor : order ≠ 0 ∨ comp = false ∨ order ≠ 1 := by omega
      refine ⟨fun f fam' hf o ho hlim => ?_, fun i sk k g1 g2 => ?_⟩
      · cases f with
        | zero =>
          rw [List.getElem?_cons_zero, Option.some.injEq] at hf
          subst hf
          refine ⟨x, by simpa using hx, ?_⟩
          rw [i2 o skew order hor (Or.inl (fun fam' hfam' hin => hnd.2.2 o ho o (List.mem_flatten.2 ⟨fam', hfam', hin⟩) rfl))]
          obtain ⟨k, hk⟩ := exists_lastAt fam ho
          rw [C11_magnets fam _ skew order "add" comp s s1 h1 k o hk hlim, magnetAsked, asked, if_neg (by decide), if_pos rfl,
            if_neg (by decide)]
          simp only [valueFor, List.length_singleton, if_true, coef, List.getD_cons_zero]
          congr 1; ring
        | succ f =>
          rw [List.getElem?_cons_succ] at hf
          obtain ⟨x', hx', e⟩ := i1 f fam' hf o ho (by rw [hlim1]; exact hlim)
          refine ⟨x', by rw [← hx']; congr 1; omega, ?_⟩
          have hno : o ∉ fam := fun hin => hnd.2.2 o hin o (List.mem_flatten.2 ⟨fam', List.mem_of_getElem? hf, ho⟩) rfl
          rw [e, setMagnetSetpoints_other h1 o skew order hor (Or.inl hno)]
          simp only [magnetStored, hlim1]
      · rw [i2 i sk k g1 (g2.imp_left (fun g fam' hf => g fam' (List.mem_cons_of_mem _ hf)))]
        exact setMagnetSetpoints_other h1 i sk k g1 (g2.imp_left (fun g => g fam List.mem_cons_self))
  have := key fams 0 s s' hnd h
  simpa using this

example : (setCorrection ⟨false, [1/10, -1/5]⟩ [2, 4] false 1 "add" true Example.sc).isOk = true ∧
    setpoint Example.sc.RING 2 false 1 = 2 ∧
    setpoint (setCorrection ⟨false, [1/10, -1/5]⟩ [2, 4] false 1 "add" true Example.sc).state.RING 2 false 1 = 19/10 := by decide +kernel
example : (setCorrectionFamilies ⟨false, [1/10, -1/5]⟩ [[2], [4]] false 1 "add" true Example.sc).isOk = true ∧
    setpoint (setCorrectionFamilies ⟨false, [1/10, -1/5]⟩ [[2], [4]] false 1 "add" true Example.sc).state.RING 2 false 1 = 19/10 := by decide +kernel

end

section
variable {K : Type} [Field K] [LinearOrder K] [IsStrictOrderedRing K]

/-- **C58**: the reported beta beating is the root mean square of the relative differences, and zero if and only if all beta functions
are those of the model. -/
theorem C58_beta_beat (sqrt : K → K) (hs : ∀ x, 0 ≤ x → 0 ≤ sqrt x ∧ sqrt x ^ 2 = x) (beta beta0 : List K) (bb : K)
    (h : betaBeat sqrt beta beta0 = .ok bb) :
    0 ≤ bb ∧ bb ^ 2 * beta.length = ((beta.zip beta0).map (fun p => ((p.1 - p.2) / p.2) ^ 2)).sum ∧ (bb = 0 ↔ beta = beta0) := by
  unfold betaBeat at h
  split at h
  · cases h
  rename_i hl
  split at h
  · cases h
  rename_i hne
  push Not at hl hne
  cases h
  have hsum : (List.zipWith (fun b b0 => (b / b0 - 1) ^ 2) beta beta0).sum = ((beta.zip beta0).map (fun p => ((p.1 - p.2) / p.2) ^ 2)).sum := by
    rw [List.zip, List.map_zipWith]
    congr 1
    have : ∀ (a b : List K), (0 : K) ∉ b → List.zipWith (fun b b0 => (b / b0 - 1) ^ 2) a b = List.zipWith (fun x y => ((x - y) / y) ^ 2) a b := by
      intro a
      induction a with
      | nil => intro b _; simp
      | cons x a ih =>
        intro b hb
        cases b with
        | nil => simp
        | cons y b =>
          rw [List.mem_cons, not_or] at hb
          rw [List.zipWith_cons_cons, List.zipWith_cons_cons, ih b hb.2]
          have : y ≠ 0 := fun h => hb.1 h.symm
          congr 2
          field_simp
    exact this _ _ hne.2
  have hn : 0 ≤ (List.zipWith (fun b b0 => (b / b0 - 1) ^ 2) beta beta0).sum := by
    refine List.sum_nonneg (fun x hx => ?_)
    rw [List.mem_iff_getElem?] at hx
    obtain ⟨i, hi⟩ := hx
    rw [List.getElem?_zipWith] at hi
    cases h1 : beta[i]? <;> cases h2 : beta0[i]? <;> simp [h1, h2] at hi
    rw [← hi]; exact sq_nonneg _
  have hpos : (0 : K) < beta.length := by
    have := List.length_pos_iff.2 hne.1
    exact_mod_cast this
  obtain ⟨hs1, hs2⟩ := hs _ (div_nonneg hn hpos.le)
  refine ⟨hs1, ?_, ?_⟩
  · rw [hs2, div_mul_cancel₀ _ hpos.ne', hsum]
  · have hz : ∀ (a b : List K), a.length = b.length → (0 : K) ∉ b → ((List.zipWith (fun b b0 => (b / b0 - 1) ^ 2) a b).sum = 0 ↔ a = b) := by
      intro a
      induction a with
      | nil => intro b hb _; cases b <;> simp at hb ⊢
      | cons x a ih =>
        intro b hb h0
        cases b with
        | nil => simp at hb
        | cons y b =>
          rw [List.mem_cons, not_or] at h0
          have hy : y ≠ 0 := fun h => h0.1 h.symm
          have hnn : 0 ≤ (List.zipWith (fun b b0 => (b / b0 - 1) ^ 2) a b).sum := by
            refine List.sum_nonneg (fun x hx => ?_)
            rw [List.mem_iff_getElem?] at hx
            obtain ⟨i, hi⟩ := hx
            rw [List.getElem?_zipWith] at hi
            cases h1 : a[i]? <;> cases h2 : b[i]? <;> simp [h1, h2] at hi
            rw [← hi]; exact sq_nonneg _
          rw [List.zipWith_cons_cons, List.sum_cons, add_eq_zero_iff_of_nonneg (sq_nonneg _) hnn, ih b (by simpa using hb) h0.2,
            pow_eq_zero_iff (by norm_num), sub_eq_zero, div_eq_one_iff_eq hy, List.cons.injEq]
    rw [← hz beta beta0 hl hne.2]
    constructor
    · intro e
      rw [e] at hs2
      have : (List.zipWith (fun b b0 => (b / b0 - 1) ^ 2) beta beta0).sum / (beta.length : K) = 0 := by rw [← hs2]; ring
      rcases div_eq_zero_iff.1 this with h | h
      · exact h
      · exact absurd h hpos.ne'
    · intro e
      rw [e, zero_div] at hs2 ⊢
      exact pow_eq_zero_iff (by norm_num) |>.1 hs2

example : betaBeat Example.sqrtOf [2, 3, 4, 5] [1, 3, 4, 5] = .ok (1/2) := by
  decide +kernel

end

end PySC
