import Verif.Model.Rsb
import Verif.Props.C01
import Verif.Props.C38
import Verif.Props.C58
import Verif.Props.C63

/-!
# C86: SMOTE_RSB keeps the generated rows least similar to the majority class

`C86_rsb` says which of the rows of SMOTE are returned, `C86_none` and `C86_short` that the number may be smaller than requested.
-/

namespace Verif

/-! ## Specification -/

/-- The range of a column of `S`; for a constant column its value, if that is greater than one, otherwise one. -/
def columnWidth (S : List Row) (j : Nat) : ℚ :=
  let hi := maxL (S.map (fun r => r.getD j 0))
  let lo := minL (S.map (fun r => r.getD j 0))
  if hi = lo then max hi 1 else hi - lo

/-- One minus the mean over the columns of the distance in units of the width. -/
def similarityTo (d : Nat) (S : List Row) (x m : Row) : ℚ :=
  1 - ((List.range d).map (fun j => |x.getD j 0 - m.getD j 0| / columnWidth S j)).sum / d

/-- No row of `B` is more similar to the row than `v`. -/
def Dissimilar (d : Nat) (S B : List Row) (v : ℚ) (i : Nat) : Prop := ∀ m ∈ B, similarityTo d S (S.getD i []) m ≤ v

/-! ## The loop -/

theorem rsbLoop_spec {sim : List (List ℚ)} {limit : Nat} {Fits : ℚ → Nat → Prop}
    (hfit : ∀ v i, i < sim.length → ((sim.getD i []).countP (fun q => decide (v < q)) = 0 ↔ Fits v i))
    (hmono : ∀ u v i, u ≤ v → Fits u i → Fits v i) {levels : List ℚ} (hsort : levels.Pairwise (· < ·)) :
    ∀ (vs P : List ℚ) (acc : List Nat), levels = P ++ vs →
      acc.Nodup → (∀ i, i ∈ acc ↔ i < sim.length ∧ ∃ v ∈ P, Fits v i) →
      acc.Pairwise (fun i j => ∀ v ∈ levels, Fits v j → Fits v i) →
      ∃ Q R, levels = Q ++ R ∧ (rsbLoop sim limit vs acc).Nodup ∧
        (∀ i, i ∈ rsbLoop sim limit vs acc ↔ i < sim.length ∧ ∃ v ∈ Q, Fits v i) ∧
        (rsbLoop sim limit vs acc).Pairwise (fun i j => ∀ v ∈ levels, Fits v j → Fits v i) ∧
        (limit ≤ (rsbLoop sim limit vs acc).length ∨ R = [])
  | [], P, acc, hl, h1, h2, h3 => ⟨P, [], hl, h1, h2, h3, Or.inr rfl⟩
  | w :: vs, P, acc, hl, h1, h2, h3 => by
    unfold rsbLoop
    by_cases hlim : acc.length < limit
    · rw [if_pos hlim]
      set new := (List.range sim.length).filter (fun i =>
        decide ((sim.getD i []).countP (fun q => decide (w < q)) = 0) && ! acc.contains i) with hnew
      have hmem : ∀ i, i ∈ new ↔ i < sim.length ∧ Fits w i ∧ i ∉ acc := by
        intro i
        rw [hnew, List.mem_filter, List.mem_range, Bool.and_eq_true, decide_eq_true_eq, Bool.not_eq_true', ← Bool.not_eq_true,
          List.contains_iff_mem]
        constructor
        · rintro ⟨a, b, c⟩; exact ⟨a, (hfit w i a).1 b, c⟩
        · rintro ⟨a, b, c⟩; exact ⟨a, (hfit w i a).2 b, c⟩
      have hge : ∀ j ∈ new, ∀ v ∈ levels, Fits v j → w ≤ v := by
        intro j hj v hv hf
        rw [hl] at hv hsort
        obtain ⟨_, hc, hcross⟩ := List.pairwise_append.1 hsort
        rcases List.mem_append.1 hv with hv | hv
        · exact absurd ((h2 j).2 ⟨((hmem j).1 hj).1, v, hv, hf⟩) ((hmem j).1 hj).2.2
        · rcases List.mem_cons.1 hv with rfl | hv
          · exact le_rfl
          · exact ((List.pairwise_cons.1 hc).1 v hv).le
      refine rsbLoop_spec hfit hmono hsort vs (P ++ [w]) (acc ++ new) (by rw [hl, List.append_assoc]; rfl) ?_ ?_ ?_
      · refine List.Nodup.append h1 (List.Nodup.filter _ List.nodup_range) ?_
        intro i hi hi'
        exact ((hmem i).1 hi').2.2 hi
      · intro i
        rw [List.mem_append, hmem, h2]
        constructor
        · rintro (⟨a, v, b, c⟩ | ⟨a, b, _⟩)
          · exact ⟨a, v, List.mem_append_left _ b, c⟩
          · exact ⟨a, w, by simp, b⟩
        · rintro ⟨a, v, b, c⟩
          rcases List.mem_append.1 b with b | b
          · exact Or.inl ⟨a, v, b, c⟩
          · rw [List.mem_singleton] at b
            subst b
            by_cases hacc : i < sim.length ∧ ∃ v ∈ P, Fits v i
            · exact Or.inl hacc
            · exact Or.inr ⟨a, c, hacc⟩
      · rw [List.pairwise_append]
        refine ⟨h3, ?_, ?_⟩
        · rw [List.pairwise_iff_forall_sublist]
          intro i j hij v hv hf
          have hi : i ∈ new := hij.subset (by simp)
          have hj : j ∈ new := hij.subset (by simp)
          exact hmono w v i (hge j hj v hv hf) ((hmem i).1 hi).2.1
        · intro i hi j hj v hv hf
          obtain ⟨_, u, hu, hfu⟩ := (h2 i).1 hi
          have hw := hge j hj v hv hf
          rw [hl] at hsort
          have := (List.pairwise_append.1 hsort).2.2 u hu w (by simp)
          exact hmono u v i (this.le.trans hw) hfu
    · rw [if_neg hlim]
      exact ⟨P, w :: vs, hl, h1, h2, h3, Or.inl (by omega)⟩

theorem rsbFactor_getD {d : Nat} {S : List Row} {j : Nat} (hj : j < d) : (rsbFactor d S).getD j 0 = columnWidth S j := by
  unfold rsbFactor columnWidth
  rw [List.getD_eq_getElem?_getD, List.getElem?_map, List.getElem?_range hj]
  simp only [Option.map_some, Option.getD_some, sub_eq_zero]

theorem columnWidth_pos {S : List Row} (hS : S ≠ []) (j : Nat) : 0 < columnWidth S j := by
  unfold columnWidth
  dsimp only
  split
  · exact lt_of_lt_of_le one_pos (le_max_right _ _)
  · rename_i h
    have hne : S.map (fun r => r.getD j 0) ≠ [] := by simpa using hS
    exact sub_pos.2 (lt_of_le_of_ne ((minL_spec hne).2 _ (maxL_spec hne).1) (Ne.symm h))

theorem rsbSimilarity_eq {d : Nat} {S : List Row} (hS : S ≠ []) (x m : Row) : rsbSimilarity d (rsbFactor d S) x m = similarityTo d S x m := by
  unfold rsbSimilarity similarityTo
  congr 3
  apply List.map_congr_left
  intro j hj
  rw [rsbFactor_getD (List.mem_range.1 hj), ← sub_div, abs_div, abs_of_pos (columnWidth_pos hS j)]

/-- **SMOTE_RSB.** `S` are the rows SMOTE generates. Of them different rows are appended, at most as many as the classes differ by: only
rows no more similar than the highest level to every majority row, all of these if they are fewer, and none less dissimilar than a row
left out. -/
theorem C86_rsb {levels : List ℚ} {par : SmoteParams} {vol : List Row → ℚ} {dr : Draws} {d : Nat} {knn : Nat → List Row → List (List Nat)}
    {X : List Row} {y : List Int} {a b : Int} (hwf : WF d X y) (hk : KnnOK knn) (hdr : dr.OK) (hpos : ∀ i j, 0 < dr.simplexU i j)
    (hg : par.ss.gaussian = .none) (hmin : IsMinority y a b) (h2 : 2 < y.count a) (hd : 1 ≤ par.ss.nDim)
    (hmode : par.ss.simplexSampling = .random ∨ par.ss.simplexSampling = .deterministic ∨
      (par.ss.simplexSampling = .volume ∧ ∀ vs, 0 < vol vs))
    (hwi : par.ss.within = .random ∨ (par.ss.within = .deterministic ∧ par.ss.nDim ≤ 2)) (hlev : levels.Pairwise (· < ·)) :
    ∃ (S : List Row) (pos : List Nat), smoteSample par vol dr d knn X y = .ok (X ++ S, y ++ List.replicate S.length a) ∧
      S.length = requested par.proportion (y.count b) (y.count a) ∧ (∀ x ∈ S, InHull d (classRows X y a) x) ∧
      sample defaultChecks d (rsbAlg levels par vol dr d knn) X y =
        .ok (X ++ pos.map (fun i => S.getD i []), y ++ List.replicate pos.length a) ∧
      pos.Nodup ∧ (∀ i ∈ pos, i < S.length) ∧ pos.length ≤ y.count b - y.count a ∧
      (∀ i ∈ pos, ∃ v ∈ levels, Dissimilar d S (classRows X y b) v i) ∧
      (pos.length < y.count b - y.count a → ∀ i, i < S.length → (∃ v ∈ levels, Dissimilar d S (classRows X y b) v i) → i ∈ pos) ∧
      pos.Pairwise (fun i j => ∀ v ∈ levels, Dissimilar d S (classRows X y b) v j → Dissimilar d S (classRows X y b) v i) ∧
      (∀ i ∈ pos, ∀ j, j < S.length → j ∉ pos → ∀ v ∈ levels, Dissimilar d S (classRows X y b) v j → Dissimilar d S (classRows X y b) v i) := by
  obtain ⟨⟨Xs, ys⟩, hsm⟩ := C01_smote_total (par := par) (vol := vol) hwf hk hdr hpos hmin hd hmode hwi
  obtain ⟨s, hs, rfl, rfl⟩ := stats_of_isMinority hmin
  obtain ⟨S, rfl, rfl, hS, hull⟩ := smoteStep_of hwf hk hdr hg hs h2 hsm
  have hA := classRows_length hwf.1 s.minLabel
  have hB := classRows_length hwf.1 s.majLabel
  set A := classRows X y s.minLabel with hAdef
  set B := classRows X y s.majLabel with hBdef
  have hfirst : smoteSample par vol dr d knn X y = .ok (X ++ S, y ++ List.replicate S.length s.minLabel) := by rw [hsm, hS]
  by_cases hS0 : S.length = 0
  · obtain rfl := List.length_eq_zero_iff.1 hS0
    refine ⟨[], [], hfirst, hS, hull, ?_, by simp, by simp, by simp, by simp, by simp, by simp, by simp⟩
    rw [sample_default hs, if_neg (by omega)]
    unfold rsbAlg
    rw [hsm, ok_bind]
    simp
  have hSne : S ≠ [] := fun h => hS0 (by rw [h]; rfl)
  set sim := S.map (fun x => B.map (rsbSimilarity d (rsbFactor d S) x)) with hsim
  have hlen : sim.length = S.length := by rw [hsim, List.length_map]
  have hfit : ∀ v i, i < sim.length → ((sim.getD i []).countP (fun q => decide (v < q)) = 0 ↔ Dissimilar d S B v i) := by
    intro v i hi
    rw [hlen] at hi
    have e1 : sim.getD i [] = B.map (similarityTo d S S[i]) := by
      rw [hsim, List.getD_eq_getElem?_getD, List.getElem?_map, List.getElem?_eq_getElem hi]
      simp only [Option.map_some, Option.getD_some]
      exact List.map_congr_left (fun m _ => rsbSimilarity_eq hSne _ m)
    have e2 : S.getD i [] = S[i] := by rw [List.getD_eq_getElem?_getD, List.getElem?_eq_getElem hi]; rfl
    rw [e1, List.countP_eq_zero]
    unfold Dissimilar
    rw [e2]
    constructor
    · intro h m hm
      have := h _ (List.mem_map_of_mem hm)
      simpa using this
    · intro h q hq
      obtain ⟨m, hm, rfl⟩ := List.mem_map.1 hq
      simpa using h m hm
  obtain ⟨Q, R, hQR, l1, l2, l3, l4⟩ := rsbLoop_spec (limit := B.length - A.length) hfit
    (fun u v i huv h m hm => (h m hm).trans huv) hlev levels [] [] rfl List.nodup_nil (by simp) List.Pairwise.nil
  set L := rsbLoop sim (B.length - A.length) levels [] with hL
  have hLlt : ∀ i ∈ L, i < S.length := fun i hi => by rw [← hlen]; exact ((l2 i).1 hi).1
  have hsub : ∀ i ∈ L.take (B.length - A.length), i ∈ L := fun i hi => List.mem_of_mem_take hi
  refine ⟨S, L.take (B.length - A.length), hfirst, hS, hull, ?_, l1.sublist (List.take_sublist _ _), fun i hi => hLlt i (hsub i hi), ?_, ?_, ?_,
    l3.sublist (List.take_sublist _ _), ?_⟩
  · rw [sample_default hs, if_neg (by omega)]
    unfold rsbAlg
    rw [hsm, ok_bind]
    simp only [List.drop_left, selectLabel_eq_classRows]
    rw [if_neg hS0, ← hAdef, ← hBdef, ← hsim, ← hL, takeRows_map_getD [] hLlt, ok_bind, ← List.map_take, List.length_map]
    rfl
  · rw [List.length_take, hA, hB]; omega
  · intro i hi
    obtain ⟨_, v, hv, hf⟩ := (l2 i).1 (hsub i hi)
    exact ⟨v, by rw [hQR]; exact List.mem_append_left _ hv, hf⟩
  · intro hlt i hi hex
    rw [List.length_take, ← hA, ← hB] at hlt
    rw [List.take_of_length_le (by omega), l2, hlen]
    rcases l4 with h | h
    · omega
    · rw [hQR, h, List.append_nil] at hex
      exact ⟨hi, hex⟩
  · intro i hi j hj hjn v hv hf
    by_cases hjL : j ∈ L
    · have hsplit := List.take_append_drop (B.length - A.length) L
      rw [← hsplit] at l3 hjL
      rcases List.mem_append.1 hjL with h | h
      · exact absurd h hjn
      · exact (List.pairwise_append.1 l3).2.2 i hi j h v hv hf
    · obtain ⟨_, u, hu, hfu⟩ := (l2 i).1 (hsub i hi)
      rw [hQR] at hv hlev
      rcases List.mem_append.1 hv with hv | hv
      · exact absurd ((l2 j).2 ⟨by rw [hlen]; exact hj, v, hv, hf⟩) hjL
      · have := (List.pairwise_append.1 hlev).2.2 u hu v hv
        exact fun m hm => (hfu m hm).trans this.le

/-- The levels of the code increase. -/
theorem rsbLevels_sorted : rsbLevels.Pairwise (· < ·) := by decide +kernel

/-- What counts in `C86_rsb` is the last level, 0.9: a row can be taken if and only if no majority row is more similar to it than 0.9. -/
theorem C86_level (d : Nat) (S B : List Row) (i : Nat) : (∃ v ∈ rsbLevels, Dissimilar d S B v i) ↔ Dissimilar d S B (9 / 10) i := by
  constructor
  · rintro ⟨v, hv, h⟩ m hm
    have h9 : ∀ v ∈ rsbLevels, v ≤ 9 / 10 := by decide +kernel
    exact (h m hm).trans (h9 v hv)
  · intro h
    exact ⟨9 / 10, by decide +kernel, h⟩

/-- **Nothing may be added**: if every generated row is more similar than 0.9 to some majority row the input comes back, although rows
were requested. -/
theorem C86_none {par : SmoteParams} {vol : List Row → ℚ} {dr : Draws} {d : Nat} {knn : Nat → List Row → List (List Nat)}
    {X : List Row} {y : List Int} {a b : Int} (hwf : WF d X y) (hk : KnnOK knn) (hdr : dr.OK) (hpos : ∀ i j, 0 < dr.simplexU i j)
    (hg : par.ss.gaussian = .none) (hmin : IsMinority y a b) (h2 : 2 < y.count a) (hd : 1 ≤ par.ss.nDim)
    (hmode : par.ss.simplexSampling = .random ∨ par.ss.simplexSampling = .deterministic ∨
      (par.ss.simplexSampling = .volume ∧ ∀ vs, 0 < vol vs))
    (hwi : par.ss.within = .random ∨ (par.ss.within = .deterministic ∧ par.ss.nDim ≤ 2)) {S : List Row}
    (hS : smoteSample par vol dr d knn X y = .ok (X ++ S, y ++ List.replicate S.length a))
    (hsimilar : ∀ x ∈ S, ∃ m ∈ classRows X y b, 9 / 10 < similarityTo d S x m) :
    sample defaultChecks d (rsbAlg rsbLevels par vol dr d knn) X y = .ok (X, y) := by
  obtain ⟨S', pos, h1, _, _, h3, _, h4, _, h5, _⟩ := C86_rsb (levels := rsbLevels) hwf hk hdr hpos hg hmin h2 hd hmode hwi rsbLevels_sorted
  rw [hS] at h1
  injection h1 with h1
  obtain ⟨e, _⟩ := Prod.mk.inj h1
  obtain rfl := List.append_cancel_left e
  cases pos with
  | nil => simpa using h3
  | cons i pos =>
    exfalso
    obtain ⟨v, hv, hf⟩ := h5 i (by simp)
    have hi := h4 i (by simp)
    obtain ⟨m, hm, hlt⟩ := hsimilar (S.getD i []) (by
      rw [List.getD_eq_getElem?_getD, List.getElem?_eq_getElem hi]; exact List.getElem_mem hi)
    have h9 : ∀ v ∈ rsbLevels, v ≤ 9 / 10 := by decide +kernel
    have := hf m hm
    have := h9 v hv
    linarith

/-! ## Examples -/

def rsX : List Row := [[0], [100], [200], [62], [76], [140], [80], [141]]
def rsY : List Int := [1, 1, 1, 0, 0, 0, 0, 0]

/-- **Fewer rows than requested**: here none of the two. -/
theorem C86_short : requested 1 (rsY.count 0) (rsY.count 1) = 2 ∧
    sample defaultChecks 1 (rsbAlg rsbLevels exPar (fun _ => 1) exDraws 1 exKnn) rsX rsY = .ok (rsX, rsY) := by decide +kernel

example : WF 2 exX exY ∧ IsMinority exY 1 0 ∧ exDraws.OK ∧ (∀ i j, 0 < exDraws.simplexU i j) ∧ KnnOK exKnn ∧ exPar.ss.gaussian = .none ∧
    2 < exY.count 1 ∧ 1 ≤ exPar.ss.nDim ∧ exPar.ss.simplexSampling = .random ∧ exPar.ss.within = .random ∧ rsbLevels.Pairwise (· < ·) :=
  ⟨⟨by decide, by decide +kernel⟩, exY_min, exDraws_ok, fun i j => by simp only [exDraws]; positivity,
    exKnn_ok, rfl, by decide, by decide, rfl, rfl, rsbLevels_sorted⟩

/-- Here both rows are appended. -/
example : (match sample defaultChecks 2 (rsbAlg rsbLevels exPar (fun _ => 1) exDraws 2 exKnn) exX exY with
    | .ok r => decide (r.2 = exY ++ [1, 1]) | .error _ => false) = true := by decide +kernel

end Verif
