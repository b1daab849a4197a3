import Verif.Lemmas.PiecesSupports
import Verif.Props.Commute
/-
C101: elements can be registered in one call or in several.
-/
namespace PySC
set_option linter.unusedSectionVars false
variable {K : Type} [Field K] [LinearOrder K]
open Py Spec

theorem npUnique_pieces {o a b c : List Nat} (hc : ∀ i, i ∈ c ↔ i ∈ a ∨ i ∈ b) :
    npUnique (o ++ c) = npUnique (npUnique (o ++ a) ++ b) :=
  increasing_ext (npUnique_increasing _) (npUnique_increasing _) (fun i => by
    simp only [mem_npUnique, List.mem_append, hc]; tauto)

/-- **C101**, BPMs: registering them all in one call or some in a first and the others (or some of them again) in a second one
has the same result: both raise an exception, or the machines cannot be told apart. -/
theorem C101_bpms (kw : Kwargs K) (hk : kw.keys.Nodup) (a b c : List Nat) (hc : ∀ i, i ∈ c ↔ i ∈ a ∨ i ∈ b) (s : SC K) :
    SameResult (registerBpms c kw s) ((registerBpms a kw >>= fun _ => registerBpms b kw) s) := by
  refine registration_pieces (L := bpmLens) (R := fun _ e e' => e' = setAll bpmInit e) (F := fun o => (o.getD []).update kw) (fun o => Dict.update_update _ hk) (fun _ => functional_eq _) (fun _ => bpm_again)
    (fun g d d' h t => ?_) (bpm_body kw) (a := npUnique a) (b := npUnique b) (c := npUnique c)
    (fun i => by simp only [mem_npUnique]; exact hc i) _ _ _ _ ?_
  · exact ⟨rfl, rfl, rfl, rfl, rfl, h, fun _ => rfl, fun _ => rfl, rfl, rfl, rfl, rfl⟩
  · simp only [npUnique_pieces hc]

/-- **C101**, cavities -/
theorem C101_cavities (kw : Kwargs K) (hk : kw.keys.Nodup) (a b c : List Nat) (hc : ∀ i, i ∈ c ↔ i ∈ a ∨ i ∈ b) (s : SC K) :
    SameResult (registerCavities c kw s) ((registerCavities a kw >>= fun _ => registerCavities b kw) s) := by
  refine registration_pieces (L := rfLens) (R := fun _ => RfBody) (F := fun o => (o.getD []).update kw) (fun o => Dict.update_update _ hk) (fun _ => rf_functional) (fun _ => rf_again)
    (fun g d d' h t => ?_) (rf_body kw) (a := npUnique a) (b := npUnique b) (c := npUnique c)
    (fun i => by simp only [mem_npUnique]; exact hc i) _ _ _ _ ?_
  · exact ⟨rfl, rfl, rfl, rfl, rfl, fun _ => rfl, h, fun _ => rfl, rfl, rfl, rfl, rfl⟩
  · simp only [npUnique_pieces hc]

theorem magnetOrds_pieces {a b c : List Nat} (hc : ∀ i, i ∈ c ↔ i ∈ a ∨ i ∈ b) (kw : Kwargs K) (o : Ords) :
    magnetOrds o c kw = magnetOrds (magnetOrds o a kw) b kw := by
  unfold magnetOrds
  simp only [npUnique_pieces hc]
  congr 1 <;> split <;> rfl

theorem keys_filter_nodup {kw : Kwargs K} (hk : kw.keys.Nodup) (p : String × Attr K → Bool) : (Dict.keys (kw.filter p)).Nodup :=
  hk.sublist (List.Sublist.map _ List.filter_sublist)

theorem magnets_pieces {kw : Kwargs K} (hk : kw.keys.Nodup) (cs : List Nat) {a b c : List Nat} (hc : ∀ i, i ∈ c ↔ i ∈ a ∨ i ∈ b)
    (ok : Except Err Unit) (oa ob oc : Ords → Ords) (s : SC K) (ho : oc s.ORD = ob (oa s.ORD)) :
    SameResult (registration ok oc c (registerMagnet1 cs kw) s)
      ((registration ok oa a (registerMagnet1 cs kw) >>= fun _ => registration ok ob b (registerMagnet1 cs kw)) s) := by
  refine registration_pieces (L := magnetLens) (R := fun i => MagnetBody (match kw.get? "MasterOf" with
    | some v => masterOf cs i v | none => .ok []) kw) (F := fun o => (o.getD []).update (kw.filter (fun p => decide (p.1 ∉ magnetTypeFields)))) (fun o => Dict.update_update _ (keys_filter_nodup hk _)) (fun _ => magnetBody_functional _ _)
    (fun _ => magnetBody_again _ _) (fun g d d' h t => ?_) (magnet_body cs kw) hc _ _ _ _ ho
  exact ⟨rfl, rfl, rfl, rfl, rfl, fun _ => rfl, fun _ => rfl, h, rfl, rfl, rfl, rfl⟩

theorem registerMagnet1_congr {l l' : List Nat} {kw : Kwargs K} (h : kw.get? "MasterOf" = none) (i : Nat) :
    registerMagnet1 l kw i = registerMagnet1 l' kw i := by
  unfold registerMagnet1 optionalMagnetFields withKey
  simp only [h]

/-- **C101**, magnets which drive no others -/
theorem C101_magnets (kw : Kwargs K) (hk : kw.keys.Nodup) (hm : "MasterOf" ∉ kw.keys) (a b c : List Nat)
    (hc : ∀ i, i ∈ c ↔ i ∈ a ∨ i ∈ b) (s : SC K) :
    SameResult (registerMagnets c kw s) ((registerMagnets a kw >>= fun _ => registerMagnets b kw) s) := by
  have hm := Dict.get?_eq_none_iff.2 hm
  have ha : ∀ l, registerMagnets l kw = registration (checkKwargs kw (magnetTypeFields ++ magnetErrorFields)) (fun o => magnetOrds o l kw) l
      (registerMagnet1 c kw) := by
    intro l
    unfold registerMagnets registration
    rw [show registerMagnet1 l kw = registerMagnet1 c kw from funext (registerMagnet1_congr hm)]
  rw [ha a, ha b, ha c]
  exact magnets_pieces hk c hc _ _ _ _ s (magnetOrds_pieces hc kw s.ORD)

theorem forEach_congr {σ α : Type _} {l : List α} {f g : α → Py σ Unit} (h : ∀ x ∈ l, f x = g x) : forEach l f = forEach l g := by
  induction l with
  | nil => rfl
  | cons x l ih => rw [forEach_cons, forEach_cons, h x (by simp), ih (fun y hy => h y (by simp [hy]))]

theorem withChildren_get (kw : Kwargs K) (m : List (List Nat)) {key : String} (h : key ≠ "MasterOf") :
    (withChildren kw m).get? key = kw.get? key := by
  unfold withChildren
  induction kw with
  | nil => simp [Dict.get?, Ne.symm h]
  | cons p r ih => simp only [List.cons_append, Dict.get?, ih]

theorem withChildren_master {kw : Kwargs K} (hm : "MasterOf" ∉ kw.keys) (m : List (List Nat)) :
    (withChildren kw m).get? "MasterOf" = some (.ordMat m) := by
  unfold withChildren
  induction kw with
  | nil => simp [Dict.get?]
  | cons p r ih =>
    simp only [Dict.keys, List.map_cons, List.mem_cons, not_or] at hm ih
    simp only [List.cons_append, Dict.get?, if_neg (Ne.symm hm.1), ih hm.2]

theorem withChildren_keys (kw : Kwargs K) (m : List (List Nat)) : (withChildren kw m).keys = kw.keys ++ ["MasterOf"] := by
  simp [withChildren, Dict.keys]

theorem withChildren_has (kw : Kwargs K) (m m' : List (List Nat)) (key : String) :
    (withChildren kw m).has key = (withChildren kw m').has key := by
  simp only [Dict.has, withChildren_keys]

theorem withChildren_filter (kw : Kwargs K) (m m' : List (List Nat)) :
    (withChildren kw m).filter (fun p => decide (p.1 ∉ magnetTypeFields)) = (withChildren kw m').filter (fun p => decide (p.1 ∉ magnetTypeFields)) := by
  unfold withChildren
  rw [List.filter_append, List.filter_append]
  congr 1

theorem registerMagnets_withChildren {kw : Kwargs K} (hm : "MasterOf" ∉ kw.keys) (m m' : List (List Nat)) (l c : List Nat)
    (h : ∀ i ∈ l, masterOf l i (.ordMat m : Attr K) = masterOf c i (.ordMat m' : Attr K)) :
    registerMagnets l (withChildren kw m) = registration (checkKwargs (withChildren kw m') (magnetTypeFields ++ magnetErrorFields))
      (fun o => magnetOrds o l (withChildren kw m')) l (registerMagnet1 c (withChildren kw m')) := by
  have e1 : checkKwargs (withChildren kw m) (magnetTypeFields ++ magnetErrorFields) =
      checkKwargs (withChildren kw m') (magnetTypeFields ++ magnetErrorFields) := by
    simp only [checkKwargs, withChildren_keys]
  have e2 : ∀ o, magnetOrds o l (withChildren kw m) = magnetOrds o l (withChildren kw m') := by
    intro o; simp only [magnetOrds, withChildren_has kw m m']
  unfold registerMagnets registration
  rw [e1]
  simp only [e2]
  rw [forEach_congr (l := l) (g := registerMagnet1 c (withChildren kw m'))]
  intro i hi
  unfold registerMagnet1 optionalMagnetFields withKey
  rw [withChildren_filter kw m m', withChildren_has kw m m', withChildren_has kw m m']
  simp only [withChildren_get kw _ (show "CF" ≠ "MasterOf" by decide), withChildren_get kw _ (show "HCM" ≠ "MasterOf" by decide),
    withChildren_get kw _ (show "VCM" ≠ "MasterOf" by decide), withChildren_get kw _ (show "SkewQuad" ≠ "MasterOf" by decide),
    withChildren_master hm, h i hi]

theorem column_left {a : List Nat} {ma mb : List (List Nat)} (hl : ma.length = mb.length) (hma : ∀ row ∈ ma, row.length = a.length) {j : Nat}
    (hj : j < a.length) : (sideBySide ma mb).mapM (fun row => idx row j) = ma.mapM (fun row => idx row j) := by
  unfold sideBySide
  induction ma generalizing mb with
  | nil => rfl
  | cons r ma ih =>
    cases mb with
    | nil => simp at hl
    | cons q mb =>
      have : idx (r ++ q) j = idx r j := by
        unfold idx
        rw [List.getElem?_append_left (by rw [hma r (by simp)]; exact hj)]
      rw [List.zipWith_cons_cons, List.mapM_cons, List.mapM_cons, this, ih (by simpa using hl) (fun row h => hma row (by simp [h]))]

theorem column_right {a : List Nat} {ma mb : List (List Nat)} (hl : ma.length = mb.length) (hma : ∀ row ∈ ma, row.length = a.length) (j : Nat) :
    (sideBySide ma mb).mapM (fun row => idx row (a.length + j)) = mb.mapM (fun row => idx row j) := by
  unfold sideBySide
  induction ma generalizing mb with
  | nil => cases mb with
    | nil => rfl
    | cons q mb => simp at hl
  | cons r ma ih =>
    cases mb with
    | nil => simp at hl
    | cons q mb =>
      have : idx (r ++ q) (a.length + j) = idx q j := by
        unfold idx
        rw [List.getElem?_append_right (by rw [hma r (by simp)]; omega), hma r (by simp), Nat.add_sub_cancel_left]
      rw [List.zipWith_cons_cons, List.mapM_cons, List.mapM_cons, this, ih (by simpa using hl) (fun row h => hma row (by simp [h]))]

/-- **C101**, magnets which drive others: the columns of the array of children go with the magnets -/
theorem C101_masters (kw : Kwargs K) (hk : kw.keys.Nodup) (hm : "MasterOf" ∉ kw.keys) (a b : List Nat) (hab : (a ++ b).Nodup)
    (ma mb : List (List Nat)) (hl : ma.length = mb.length) (hma : ∀ row ∈ ma, row.length = a.length) (s : SC K) :
    SameResult (registerMagnets (a ++ b) (withChildren kw (sideBySide ma mb)) s)
      ((registerMagnets a (withChildren kw ma) >>= fun _ => registerMagnets b (withChildren kw mb)) s) := by
  obtain ⟨hna, hnb, hd⟩ := List.nodup_append.1 hab
  have hcount : ∀ {l : List Nat} {i}, l.Nodup → ¬ 1 < l.count i := fun h => Nat.not_lt.2 (List.nodup_iff_count_le_one.1 h _)
  rw [registerMagnets_withChildren hm (sideBySide ma mb) (sideBySide ma mb) (a ++ b) (a ++ b) (fun _ _ => rfl),
    registerMagnets_withChildren hm ma (sideBySide ma mb) a (a ++ b) (fun i hi => ?_),
    registerMagnets_withChildren hm mb (sideBySide ma mb) b (a ++ b) (fun i hi => ?_)]
  · refine magnets_pieces ?_ (a ++ b) (fun i => List.mem_append) _ _ _ _ s (magnetOrds_pieces (fun i => List.mem_append) _ s.ORD)
    rw [withChildren_keys]
    exact List.nodup_append.2 ⟨hk, by simp, fun x hx y hy => by simp at hy; subst hy; exact fun h => hm (h ▸ hx)⟩
  · simp only [masterOf, if_neg (hcount hab), if_neg (hcount hnb)]
    rw [List.idxOf_append, if_neg (fun h => hd i h i hi rfl), Nat.add_comm, column_right hl hma]
  · simp only [masterOf, if_neg (hcount hab), if_neg (hcount hna)]
    rw [List.idxOf_append, if_pos hi, column_left hl hma (List.idxOf_lt_length_of_mem hi)]

/-- **C101**, supports: if no element is an end of supports of both calls -/
theorem C101_supports_partial (support_type : String) (kw : Kwargs K) (a₁ a₂ b₁ b₂ : List Nat) (ha : a₁.length = a₂.length) (hne : a₁ ≠ [])
    (hd : ∀ i ∈ a₁ ++ a₂, i ∉ b₁ ++ b₂) (s : SC K) :
    SameSupportResult (registerSupports [a₁ ++ b₁, a₂ ++ b₂] support_type kw s)
      ((registerSupports [a₁, a₂] support_type kw >>= fun _ => registerSupports [b₁, b₂] support_type kw) s) :=
  supports_pieces ha hne hd

/-- **C101 is violated** by supports which meet at an element: registered in one call, the girder from 4 to 7 keeps its
uncertainty; registered before the girder from 0 to 4 it loses it. -/
theorem C101_violated_supports : ∃ (s s' s'' : SC ℚ) (kw : Kwargs ℚ), registerSupports [[4, 0], [7, 4]] "Girder" kw s = .ok () s' ∧
    (registerSupports [[4], [7]] "Girder" kw >>= fun _ => registerSupports [[0], [4]] "Girder" kw) s = .ok () s'' ∧
    sigma s'.SIG.Support 4 "GirderOffset" = some (.vec [1, 1, 0]) ∧ sigma s''.SIG.Support 4 "GirderOffset" = none :=
  ⟨Example.raw, _, _, [("Offset", .vec [1, 1, 0])], ok_of_isOk (by decide +kernel), ok_of_isOk (by decide +kernel),
    by decide +kernel, by decide +kernel⟩

-- registrations of the example lattice which return, in both ways
example : (∀ i, i ∈ [0, 5] ↔ i ∈ [5] ∨ i ∈ [0, 5]) ∧
    (registerBpms [0, 5] [("Offset", .vec [1, 2])] Example.raw).isOk = true := ⟨by simp, by decide +kernel⟩

example : (∀ i, i ∈ [4] ↔ i ∈ [4] ∨ i ∈ [4]) ∧
    (registerCavities [4] [("VoltageOffset", .num 1)] Example.raw).isOk = true := ⟨by simp, by decide +kernel⟩

example : "MasterOf" ∉ Dict.keys [("HCM", Attr.num (1 : ℚ)), ("MagnetOffset", .vec [1, 2, 0])] ∧ (∀ i, i ∈ [3, 1, 2] ↔ i ∈ [1] ∨ i ∈ [2, 3]) ∧
    (registerMagnets [3, 1, 2] [("HCM", Attr.num (1 : ℚ)), ("MagnetOffset", .vec [1, 2, 0])] Example.raw).isOk = true :=
  ⟨by decide, by simp; omega, by decide +kernel⟩

example : ([1] ++ [2]).Nodup ∧ (∀ row ∈ [[3]], row.length = [1].length) ∧ sideBySide [[3]] [[1]] = [[3, 1]] ∧
    (registerMagnets ([1] ++ [2]) (withChildren [("CF", Attr.num (1 : ℚ))] (sideBySide [[3]] [[1]])) Example.raw).isOk = true :=
  ⟨by decide, by decide, by decide, by decide +kernel⟩

example : (∀ i ∈ [0] ++ [4], i ∉ [5] ++ [7]) ∧
    (registerSupports [[0] ++ [5], [4] ++ [7]] "Girder" [("Offset", Attr.mat [[1, 1, 0], [(2 : ℚ), 1, 0]])] Example.raw).isOk = true :=
  ⟨by decide, by decide +kernel⟩

end PySC
