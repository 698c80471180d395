import Verif.Model.Ndo
import Verif.Lemmas.ClassRows
import Verif.Lemmas.Clusters
import Verif.Lemmas.Interp
import Verif.Lemmas.SmoteExample
import Verif.Props.C01
import Verif.Props.C02
import Verif.Props.C47

/-!
# C81: NDO_sampling

`C81_ndo`: which branch is taken and what it returns. `C81_one_more`: the loop may return one row too many. `C81_default_k`: the SMOTE
branch does not depend on `n_neighbors`.
-/

namespace Verif

/-- The neighbours of the minority rows: the entries of the table from the second on, with their labels and distances. -/
def ndoPairs (dist : Row → Row → ℚ) (X : List Row) (y : List Int) (A : List Row) (ind : List (List Nat)) : List (Int × ℚ) :=
  (A.zip ind).flatMap (fun p => (p.2.drop 1).map (fun j => (y.getD j 0, dist p.1 (X.getD j []))))

/-- The mean distance of the pairs with label `l` is `m`; there is such a pair. -/
def MeanOf (pairs : List (Int × ℚ)) (l : Int) (m : ℚ) : Prop :=
  (∃ p ∈ pairs, p.1 = l) ∧ m * (pairs.countP (fun p => decide (p.1 = l)) : Nat) = ((pairs.filter (fun p => decide (p.1 = l))).map Prod.snd).sum

/-- The test of NDO_sampling: there is no minority neighbour (and `0 < T`), or the mean distance of the minority neighbours is less than
`T` times the mean distance of the majority neighbours, which is not zero. -/
def Clustered (pairs : List (Int × ℚ)) (a b : Int) (T : ℚ) : Prop :=
  ((∀ p ∈ pairs, p.1 ≠ a) ∧ 0 < T) ∨ ∃ mi me, MeanOf pairs a mi ∧ MeanOf pairs b me ∧ me ≠ 0 ∧ mi / me < T

/-- A row of the loop: at most half-way from a minority row to one of its neighbours, or from a neighbour of the minority class to the row. -/
def NdoOrigin (d : Nat) (X : List Row) (y : List Int) (a : Int) (A : List Row) (ind : List (List Nat)) (z : Row) : Prop :=
  z.length = d ∧ ∃ (i : Nat) (x q : Row) (row : List Nat) (j : Nat) (u : ℚ), A[i]? = some x ∧ ind[i]? = some row ∧ j ∈ row.drop 1 ∧
    X[j]? = some q ∧ 0 ≤ u ∧ u < 1 / 2 ∧
    ((∀ k, k < d → z.getD k 0 = x.getD k 0 + u * (q.getD k 0 - x.getD k 0)) ∨
      (y[j]? = some a ∧ ∀ k, k < d → z.getD k 0 = q.getD k 0 + u * (x.getD k 0 - q.getD k 0)))

theorem countP_eq_filter_map (pairs : List (Int × ℚ)) (l : Int) :
    ((pairs.filter (fun p => decide (p.1 = l))).map Prod.snd).length = pairs.countP (fun p => decide (p.1 = l)) := by
  rw [List.length_map, List.countP_eq_length_filter]

theorem meanOf_unique {pairs : List (Int × ℚ)} {l : Int} {m : ℚ} (h : MeanOf pairs l m) :
    m = ((pairs.filter (fun p => decide (p.1 = l))).map Prod.snd).sum / (((pairs.filter (fun p => decide (p.1 = l))).map Prod.snd).length : Nat) := by
  obtain ⟨⟨p, hp, hl⟩, h⟩ := h
  have : 0 < pairs.countP (fun p => decide (p.1 = l)) := List.countP_pos_iff.2 ⟨p, hp, by simpa using hl⟩
  rw [countP_eq_filter_map, ← h]
  field_simp

theorem meanOf_mean {pairs : List (Int × ℚ)} {l : Int}
    (h : ((pairs.filter (fun p => decide (p.1 = l))).map Prod.snd).length ≠ 0) :
    MeanOf pairs l (((pairs.filter (fun p => decide (p.1 = l))).map Prod.snd).sum /
      (((pairs.filter (fun p => decide (p.1 = l))).map Prod.snd).length : Nat)) := by
  rw [countP_eq_filter_map] at h ⊢
  obtain ⟨p, hp, hl⟩ := List.countP_pos_iff.1 (Nat.pos_of_ne_zero h)
  refine ⟨⟨p, hp, by simpa using hl⟩, ?_⟩
  field_simp

theorem no_pair_iff {pairs : List (Int × ℚ)} {l : Int} :
    ((pairs.filter (fun p => decide (p.1 = l))).map Prod.snd).length = 0 ↔ ∀ p ∈ pairs, p.1 ≠ l := by
  rw [countP_eq_filter_map, List.countP_eq_zero]
  simp

/-- The computed quotient decides the branch as described. -/
theorem ndoAlpha_spec {pairs : List (Int × ℚ)} {a b : Int} {T : ℚ} :
    (∃ al, ndoAlpha a b pairs = some al ∧ al < T) ↔ Clustered pairs a b T := by
  unfold ndoAlpha Clustered
  dsimp only
  split
  · rename_i h
    have h' := no_pair_iff.1 h
    constructor
    · rintro ⟨al, e, hlt⟩
      injection e with e
      exact Or.inl ⟨h', e ▸ hlt⟩
    · rintro (⟨_, h2⟩ | ⟨_, _, ⟨⟨p, hp, e⟩, _⟩, _⟩)
      · exact ⟨0, rfl, h2⟩
      · exact absurd e (h' p hp)
  · rename_i h
    split
    · rename_i h2
      have h2' := no_pair_iff.1 h2
      constructor
      · rintro ⟨_, e, _⟩; cases e
      · rintro (⟨h3, _⟩ | ⟨_, _, _, ⟨⟨p, hp, e⟩, _⟩, _⟩)
        · exact absurd (no_pair_iff.2 h3) h
        · exact absurd e (h2' p hp)
    · rename_i h2
      split
      · rename_i h3
        constructor
        · rintro ⟨_, e, _⟩; cases e
        · rintro (⟨h4, _⟩ | ⟨_, me, _, hm, hne, _⟩)
          · exact absurd (no_pair_iff.2 h4) h
          · rw [meanOf_unique hm] at hne
            exact absurd h3 hne
      · rename_i h3
        constructor
        · rintro ⟨al, e, hlt⟩
          injection e with e
          exact Or.inr ⟨_, _, meanOf_mean h, meanOf_mean h2, h3, by rw [e]; exact hlt⟩
        · rintro (⟨h4, _⟩ | ⟨mi, me, hi, hm, hne, hlt⟩)
          · exact absurd (no_pair_iff.2 h4) h
          · rw [meanOf_unique hm, meanOf_unique hi] at hlt
            exact ⟨_, rfl, hlt⟩

theorem ndoNeighbours_spec {dist : Row → Row → ℚ} {X : List Row} {y : List Int} {x : Row} {ind : List Nat} (hxy : X.length = y.length)
    (h : ∀ i ∈ ind, i < X.length) :
    ndoNeighbours dist X y x ind = .ok ((ind.drop 1).map (fun j => (y.getD j 0, dist x (X.getD j [])))) := by
  unfold ndoNeighbours
  rw [mapM_ok_iff, List.forall₂_map_right_iff, List.forall₂_same]
  intro j hj
  have hj := h j (List.mem_of_mem_drop hj)
  rw [getRow_ok.2 (List.getElem?_eq_getElem (by omega : j < y.length)), ok_bind, getRow_ok.2 (List.getElem?_eq_getElem hj), ok_bind,
    List.getD_eq_getElem?_getD, List.getElem?_eq_getElem (by omega), List.getD_eq_getElem?_getD, List.getElem?_eq_getElem hj]
  rfl

theorem ndoLoop_spec {d n k : Nat} {a : Int} {pick nbr : Nat → Nat → Nat} {u : Nat → Nat → ℚ} {X : List Row} {y : List Int}
    {A : List Row} {ind : List (List Nat)} (hxy : X.length = y.length) (hX : ∀ r ∈ X, r.length = d) (hA : ∀ r ∈ A, r.length = d) (hne : 0 < A.length)
    (hl : ind.length = A.length) (ht : TableOK ind k X.length) (hk : 2 ≤ k) (hp : ∀ t m, 0 < m → pick t m < m)
    (hn : ∀ t m, 0 < m → nbr t m < m) (hu : ∀ t j, 0 ≤ u t j ∧ u t j < 1) :
    ∀ (f t : Nat) (acc : List Row), n ≤ acc.length + f → acc.length ≤ n + 1 → (∀ z ∈ acc, NdoOrigin d X y a A ind z) →
      ∃ out, ndoLoop n a pick nbr u X y A ind f t acc = .ok out ∧ n ≤ out.length ∧ out.length ≤ n + 1 ∧
        ∀ z ∈ out, NdoOrigin d X y a A ind z := by
  intro f
  induction f with
  | zero => intro t acc h1 h2 h3; exact ⟨acc, rfl, by omega, h2, h3⟩
  | succ f ih =>
    intro t acc h1 h2 h3
    unfold ndoLoop
    split
    · exact ⟨acc, rfl, by assumption, h2, h3⟩
    · rename_i hlt
      have hi := hp t A.length hne
      have hi' : pick t A.length < ind.length := by omega
      set i := pick t A.length with hid
      obtain ⟨t1, t2⟩ := ht ind[i] (List.getElem_mem hi')
      have hdl : (ind[i].drop 1).length = k - 1 := by rw [List.length_drop, t1]
      have hj := hn t (ind[i].drop 1).length (by omega)
      set j := nbr t (ind[i].drop 1).length with hjd
      have hm : (ind[i].drop 1)[j] ∈ ind[i].drop 1 := List.getElem_mem hj
      have hr := t2 _ (List.mem_of_mem_drop hm)
      set r := (ind[i].drop 1)[j] with hrd
      rw [getRow_ok.2 (List.getElem?_eq_getElem hi), ok_bind, getRow_ok.2 (List.getElem?_eq_getElem hi'), ok_bind,
        if_neg (by omega : ¬ (ind[i].drop 1).length = 0), ← hjd,
        getRow_ok.2 (List.getElem?_eq_getElem hj)]
      show ∃ out, (do
        let q ← getRow X r
        let l ← getRow y r
        ndoLoop n a pick nbr u X y A ind f (t + 1) (if l = a then acc ++ [mixRow A[i] q (fun _ => u t 0 / 2)] ++
          [mixRow q A[i] (fun _ => u t 1 / 2)] else acc ++ [mixRow A[i] q (fun _ => u t 0 / 2)])) = .ok out ∧ _
      rw [getRow_ok.2 (List.getElem?_eq_getElem hr), ok_bind, getRow_ok.2 (List.getElem?_eq_getElem (by omega : r < y.length)), ok_bind]
      have hx := hA A[i] (List.getElem_mem hi)
      have hq := hX X[r] (List.getElem_mem hr)
      have o1 : NdoOrigin d X y a A ind (mixRow A[i] X[r] (fun _ => u t 0 / 2)) := by
        refine ⟨mixRow_length hx hq, i, A[i], X[r], ind[i], r, u t 0 / 2, List.getElem?_eq_getElem hi, List.getElem?_eq_getElem hi', hm,
          List.getElem?_eq_getElem hr, by have := (hu t 0).1; linarith, by have := (hu t 0).2; linarith, Or.inl ?_⟩
        intro c hc
        rw [mixRow_getD hx hq hc]; ring
      split
      · rename_i hla
        apply ih
        · simp; omega
        · simp; omega
        · intro z hz
          rw [List.mem_append, List.mem_append] at hz
          rcases hz with (hz | hz) | hz
          · exact h3 z hz
          · rw [List.mem_singleton.1 hz]; exact o1
          · rw [List.mem_singleton.1 hz]
            refine ⟨mixRow_length hq hx, i, A[i], X[r], ind[i], r, u t 1 / 2, List.getElem?_eq_getElem hi, List.getElem?_eq_getElem hi', hm,
              List.getElem?_eq_getElem hr, by have := (hu t 1).1; linarith, by have := (hu t 1).2; linarith, Or.inr ⟨?_, ?_⟩⟩
            · rw [List.getElem?_eq_getElem (by omega), hla]
            · intro c hc
              rw [mixRow_getD hq hx hc]; ring
      · apply ih
        · simp; omega
        · simp; omega
        · intro z hz
          rw [List.mem_append] at hz
          rcases hz with hz | hz
          · exact h3 z hz
          · rw [List.mem_singleton.1 hz]; exact o1

/-- **NDO_sampling.** When the minority class is clustered, the result is that of SMOTE with five neighbours. Otherwise the requested
number of rows, or one more, is appended, each at most half-way from a row to a neighbour. -/
theorem C81_ndo {par : SmoteParams} {T : ℚ} {dist : Row → Row → ℚ} {vol : List Row → ℚ} {dr : Draws} {d : Nat} {pick nbr : Nat → Nat → Nat}
    {u : Nat → Nat → ℚ} {query : Nat → List Row → List Row → List (List Nat)} {knn : Nat → List Row → List (List Nat)}
    {X : List Row} {y : List Int} {a b : Int} (hwf : WF d X y) (hmin : IsMinority y a b) (h3 : 2 < y.count a) (hq : KnnQueryOK query)
    (hp : ∀ t m, 0 < m → pick t m < m) (hn : ∀ t m, 0 < m → nbr t m < m) (hu : ∀ t j, 0 ≤ u t j ∧ u t j < 1) (hk : 1 ≤ par.nNeighbors)
    (hr : 0 < requested par.proportion (y.count b) (y.count a)) :
    let ind := query (min X.length (par.nNeighbors + 1)) X (classRows X y a)
    (Clustered (ndoPairs dist X y (classRows X y a) ind) a b T →
      sample defaultChecks d (ndoAlg par T dist vol dr d pick nbr u query knn) X y =
        smoteSample { par with nNeighbors := 5 } vol dr d knn X y) ∧
    (¬ Clustered (ndoPairs dist X y (classRows X y a) ind) a b T →
      ∃ new, sample defaultChecks d (ndoAlg par T dist vol dr d pick nbr u query knn) X y = .ok (X ++ new, y ++ List.replicate new.length a) ∧
        (new.length = requested par.proportion (y.count b) (y.count a) ∨ new.length = requested par.proportion (y.count b) (y.count a) + 1) ∧
        ∀ z ∈ new, NdoOrigin d X y a (classRows X y a) ind z) := by
  intro ind
  obtain ⟨s, hs, rfl, rfl⟩ := stats_of_isMinority hmin
  obtain ⟨hm, hM, hab⟩ := stats_min_mem hs
  have hA : (classRows X y s.minLabel).length = y.count s.minLabel := classRows_length hwf.1 _
  have hxy := hwf.1
  have hcl : y.count s.minLabel ≤ y.length := List.count_le_length
  set A := classRows X y s.minLabel with hAd
  set n := requested par.proportion (y.count s.majLabel) (y.count s.minLabel) with hnd
  have hlen : ∀ r ∈ A, r.length = d := fun r hr => hwf.2 r (mem_of_mem_classRows hr)
  obtain ⟨q1, q2⟩ := hq (min X.length (par.nNeighbors + 1)) X A (by omega)
  have hnb : (A.zip ind).mapM (fun p => ndoNeighbours dist X y p.1 p.2) =
      .ok ((A.zip ind).map (fun p => (p.2.drop 1).map (fun j => (y.getD j 0, dist p.1 (X.getD j []))))) := by
    rw [mapM_ok_iff, List.forall₂_map_right_iff, List.forall₂_same]
    intro p hp
    exact ndoNeighbours_spec hxy (q2 p.2 (List.of_mem_zip hp).2).2
  have hfl : ((A.zip ind).map (fun p => (p.2.drop 1).map (fun j => (y.getD j 0, dist p.1 (X.getD j []))))).flatten =
      ndoPairs dist X y A ind := by
    rw [← List.flatMap_def]; rfl
  have hrun : ∀ r, (match ndoAlpha s.minLabel s.majLabel (ndoPairs dist X y A ind) with
      | some alpha =>
        if alpha < T then smoteSample { par with nNeighbors := 5 } vol dr d knn X y
        else do
          let samples ← ndoLoop n s.minLabel pick nbr u X y A ind n 0 []
          return withSamples X y s.minLabel samples
      | none => do
        let samples ← ndoLoop n s.minLabel pick nbr u X y A ind n 0 []
        return withSamples X y s.minLabel samples) = r →
      sample defaultChecks d (ndoAlg par T dist vol dr d pick nbr u query knn) X y = r := by
    intro r h
    rw [sample_default hs, if_neg (by omega)]
    unfold ndoAlg
    rw [stats_count hs hm, stats_count hs hM, detN_eq_requested, ok_bind, if_neg (by omega)]
    simp only [selectLabel_eq_classRows, ← hAd, ← hnd]
    rw [show query (min X.length (par.nNeighbors + 1)) X A = ind from rfl, hnb, ok_bind, hfl]
    exact h
  constructor
  · intro h
    obtain ⟨al, e, hlt⟩ := ndoAlpha_spec.2 h
    apply hrun
    rw [e]
    dsimp only
    rw [if_pos hlt]
  · intro h
    obtain ⟨out, e1, e2, e3, e4⟩ := ndoLoop_spec (d := d) (n := n) (a := s.minLabel) (pick := pick) (nbr := nbr) (u := u) hxy hwf.2 hlen
      (by omega) q1 q2 (by omega) hp hn hu n 0 [] (by simp) (by simp) (by simp)
    refine ⟨out, ?_, by omega, e4⟩
    apply hrun
    have hno : ∀ al, ndoAlpha s.minLabel s.majLabel (ndoPairs dist X y A ind) = some al → ¬ al < T :=
      fun al e hlt => h (ndoAlpha_spec.1 ⟨al, e, hlt⟩)
    cases hal : ndoAlpha s.minLabel s.majLabel (ndoPairs dist X y A ind) with
    | none => dsimp only; rw [e1]; rfl
    | some al => dsimp only; rw [if_neg (hno al hal), e1]; rfl

/-! ## Examples -/

def ndX : List Row := [[0], [10], [20], [1], [11], [21], [30], [40]]
def ndY : List Int := [1, 1, 1, 0, 0, 0, 0, 0]

/-- One-dimensional distance. -/
def ndDist (a b : Row) : ℚ := |a.getD 0 0 - b.getD 0 0|

/-- **One row too many**: two rows are requested, three are appended. -/
theorem C81_one_more : requested 1 (ndY.count 0) (ndY.count 1) = 2 ∧
    sample defaultChecks 1 (ndoAlg { exPar with proportion := 1, nNeighbors := 3 } (1 / 2) ndDist (fun _ => 1) exDraws 1 (fun t m => t % m)
      (fun t m => (2 * t) % m) (fun _ _ => 1 / 2) bruteQuery exKnn) ndX ndY =
      .ok (ndX ++ [[1 / 4], [15 / 2], [5 / 2]], ndY ++ [1, 1, 1]) := by
  refine ⟨by decide +kernel, ?_⟩
  decide +kernel

example : WF 1 ndX ndY ∧ IsMinority ndY 1 0 ∧ 2 < ndY.count 1 ∧ KnnQueryOK bruteQuery ∧ (∀ t m : Nat, 0 < m → t % m < m) ∧
    (∀ t m : Nat, 0 < m → (2 * t) % m < m) :=
  ⟨⟨by decide, by decide +kernel⟩, ⟨by decide, by decide, by decide, Or.inl (by decide)⟩, by decide, bruteQuery_ok,
    fun _ _ h => Nat.mod_lt _ h, fun _ _ h => Nat.mod_lt _ h⟩

/-- Rows far from the majority class are clustered. -/
example : Clustered [(1, 1), (1, 3), (0, 10)] 1 0 (1 / 2) :=
  Or.inr ⟨2, 10, ⟨⟨(1, 1), by simp, rfl⟩, by decide +kernel⟩, ⟨⟨(0, 10), by simp, rfl⟩, by decide +kernel⟩, by norm_num, by norm_num⟩

/-- **`n_neighbors` is ignored by the SMOTE branch**: two values for which the test holds give the same result. -/
theorem C81_default_k {par : SmoteParams} {k : Nat} {T : ℚ} {dist : Row → Row → ℚ} {vol : List Row → ℚ} {dr : Draws} {d : Nat}
    {pick nbr : Nat → Nat → Nat} {u : Nat → Nat → ℚ} {query : Nat → List Row → List Row → List (List Nat)}
    {knn : Nat → List Row → List (List Nat)} {X : List Row} {y : List Int} {a b : Int} (hwf : WF d X y) (hmin : IsMinority y a b)
    (h3 : 2 < y.count a) (hq : KnnQueryOK query) (hp : ∀ t m, 0 < m → pick t m < m) (hn : ∀ t m, 0 < m → nbr t m < m)
    (hu : ∀ t j, 0 ≤ u t j ∧ u t j < 1) (hk : 1 ≤ par.nNeighbors) (hk' : 1 ≤ k)
    (hr : 0 < requested par.proportion (y.count b) (y.count a))
    (h1 : Clustered (ndoPairs dist X y (classRows X y a) (query (min X.length (par.nNeighbors + 1)) X (classRows X y a))) a b T)
    (h2 : Clustered (ndoPairs dist X y (classRows X y a) (query (min X.length (k + 1)) X (classRows X y a))) a b T) :
    sample defaultChecks d (ndoAlg par T dist vol dr d pick nbr u query knn) X y =
      sample defaultChecks d (ndoAlg { par with nNeighbors := k } T dist vol dr d pick nbr u query knn) X y := by
  rw [(C81_ndo hwf hmin h3 hq hp hn hu hk hr).1 h1, (C81_ndo (par := { par with nNeighbors := k }) hwf hmin h3 hq hp hn hu hk' hr).1 h2]

end Verif
