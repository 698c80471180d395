import Verif.Model.Regions
import Verif.Props.C33
import Verif.Props.C48
import Verif.Lemmas.SimplexAlg
import Verif.Lemmas.SamplerTotal

/-!
# C56: NT_SMOTE and RWO_sampling: n_dim nearest rows, and a random walk that leaves constant features alone
-/

namespace Verif

/-! ## Specification -/

/-- `x` is a convex combination of a minority row and of the rows which follow the first one in the list of its `n` nearest
minority rows. -/
def InNearestSimplex (knn : Nat → List Row → List Row → List (List Nat)) (n d : Nat) (A : List Row) (x : Row) : Prop :=
  ∃ (j : Nat) (base : Row) (row : List Nat) (nbrs : List Row) (w : List ℚ), A[j]? = some base ∧
    (knn n A A)[j]? = some row ∧ List.Forall₂ (fun i r => A[i]? = some r) (row.drop 1) nbrs ∧
    IsConvexComb d w (base :: nbrs) x

/-- The random walk: in coordinate `k` the draw `z k` times the standard error of that coordinate is added. -/
def Walked (d : Nat) (err : Nat → ℚ) (z : Nat → ℚ) (g r : Row) : Prop :=
  r.length = d ∧ ∀ k, k < d → r.getD k 0 = g.getD k 0 + z k * err k

/-- Contract of the standard deviation: that of a constant column is zero. -/
def StdZeroOnConstant (colStd : List Row → Nat → ℚ) : Prop :=
  ∀ (rows : List Row) (k : Nat) (c : ℚ), (∀ r ∈ rows, r.getD k 0 = c) → colStd rows k = 0

/-! ## Helpers -/

theorem addColumnNoise_spec {d : Nat} {err : Nat → ℚ} (u : Nat → Nat → ℚ) {gen : List Row} (hl : ∀ r ∈ gen, r.length = d)
    {i : Nat} {g : Row} (hi : gen[i]? = some g) :
    ∃ r, (addColumnNoise u ((List.range d).map err) gen)[i]? = some r ∧ Walked d err (u i) g r := by
  have hgl := hl g (List.mem_of_getElem? hi)
  refine ⟨List.zipWith (· + ·) g (((List.range d).map err).zipIdx.map (fun q => u i q.2 * q.1)), ?_, by simp [hgl], ?_⟩
  · unfold addColumnNoise
    rw [List.getElem?_map, List.getElem?_zipIdx, hi]
    simp
  · intro k hk
    rw [List.getD_eq_getElem?_getD, List.getElem?_zipWith, List.getElem?_eq_getElem (by omega : k < g.length),
      List.getElem?_map, List.getElem?_zipIdx, List.getElem?_map, List.getElem?_range hk, List.getD_eq_getElem?_getD,
      List.getElem?_eq_getElem (by omega : k < g.length)]
    simp

theorem addColumnNoise_length (u : Nat → Nat → ℚ) (stds : List ℚ) (gen : List Row) :
    (addColumnNoise u stds gen).length = gen.length := by
  unfold addColumnNoise; simp

/-- A coordinate shared by all rows of `S` is shared by all points of the hull. -/
theorem inHull_constant {d : Nat} {S : List Row} {x : Row} {k : Nat} {c : ℚ} (hk : k < d) (hS : ∀ r ∈ S, r.getD k 0 = c)
    (h : InHull d S x) : x.getD k 0 = c := by
  obtain ⟨_, hb⟩ := h.inBox
  obtain ⟨⟨r, hr, h1⟩, ⟨q, hq, h2⟩⟩ := hb k hk
  rw [hS r hr] at h1
  rw [hS q hq] at h2
  exact le_antisymm h2 h1

/-- With as many columns as vertices, `sample_simplex` uses all entries of a row of the table. -/
theorem sampleSimplex_full {ss : SSParams} {vol : List Row → ℚ} {dr : Draws} {d : Nat} {A : List Row}
    {knn : Nat → List Row → List Row → List (List Nat)} {n : Nat} {out : List Row} (hk : KnnQueryOK knn) (hdr : dr.OK)
    (hA : ∀ r ∈ A, r.length = d) (hd : ss.nDim ≤ A.length) (hg : ss.gaussian = .none) (hvol : ∀ vs, 0 ≤ vol vs)
    (h : sampleSimplex ss vol dr d A (knn ss.nDim A A) ss.nDim n {} = .ok out) :
    out.length = n ∧ ∀ x ∈ out, InNearestSimplex knn ss.nDim d A x := by
  obtain ⟨hk1, hk2⟩ := hk ss.nDim A A hd
  obtain ⟨g1, g2⟩ := sampleSimplex_weighted (cap := fun _ => 1) hA (by intro V hV; cases hV) (by intro V hV; cases hV)
    (by intro hV; cases hV) hdr (by rw [hk1]) hg (by intro w hw; cases hw) (by intro w hw; cases hw) hvol
    ⟨fun _ _ => le_refl _, by intro ws hws; cases hws⟩ h
  refine ⟨g1, fun x hx => ?_⟩
  obtain ⟨j, ps, vs, ⟨⟨row, hrow, hf⟩, hsub, hlen, _⟩, base, nbrs, w0, wr, hbase, hnb, hcx, _⟩ := g2 x hx
  refine ⟨j, base, row, nbrs, w0 :: wr, hbase, hrow, ?_, hcx⟩
  rw [Nat.min_self] at hlen
  have hps : ps = List.range' 1 (ss.nDim - 1) := hsub.eq_of_length (by rw [List.length_range']; omega)
  have hrl := (hk2 row (List.mem_of_getElem? hrow)).1
  have hvs : vs = row.drop 1 := by
    apply List.ext_getElem?
    intro i
    by_cases hi : i < vs.length
    · obtain ⟨p, hp, hpv⟩ := forall₂_get_right hf (List.getElem?_eq_getElem hi)
      rw [hps] at hp
      rw [List.getElem?_range' (by have := hf.length_eq; omega)] at hp
      injection hp with hp
      rw [List.getElem?_drop, List.getElem?_eq_getElem hi, ← hpv, ← hp]
      congr 1
      omega
    · rw [List.getElem?_eq_none (by omega), List.getElem?_eq_none]
      rw [List.length_drop, hrl]
      have := hf.length_eq
      omega
  rw [← hvs]
  exact hnb

/-! ## NT_SMOTE -/

/-- **NT_SMOTE**: the requested number of rows, each a convex combination of a minority row and of the rows which follow in
the list of its `n_dim` nearest minority rows. -/
theorem C56_nt {par : NbParams} {vol : List Row → ℚ} {dr : Draws} {d : Nat}
    {knn : Nat → List Row → List Row → List (List Nat)} {X X' : List Row} {y y' : List Int} {a b : Int} (hwf : WF d X y)
    (hk : KnnQueryOK knn) (hdr : dr.OK) (hmin : IsMinority y a b) (hg : par.ss.gaussian = .none) (hvol : ∀ vs, 0 ≤ vol vs)
    (h3 : 2 < y.count a) (h : sample defaultChecks d (ntSmoteAlg par vol dr d knn) X y = .ok (X', y')) :
    OversampledBy X y a (requested par.proportion (y.count b) (y.count a))
      (InNearestSimplex knn par.ss.nDim d (classRows X y a)) X' y' := by
  obtain ⟨s, hs, rfl, rfl⟩ := stats_of_isMinority hmin
  obtain ⟨hm, hM, _⟩ := stats_min_mem hs
  rw [sample_default hs, if_neg (by omega)] at h
  unfold ntSmoteAlg at h
  rw [stats_count hs hm, stats_count hs hM, detN_eq_requested, ok_bind] at h
  have hAd : ∀ r ∈ classRows X y s.minLabel, r.length = d := by
    intro r hr; rw [← selectLabel_eq_classRows] at hr; exact mem_selectLabel_length hwf hr
  simp only [selectLabel_eq_classRows] at h
  split at h
  · rename_i h0
    rw [h0]
    obtain ⟨rfl, rfl⟩ := Prod.mk.inj (pure_ok.1 h)
    exact oversampledBy_none _ _ _ _
  split at h
  · cases h
  rename_i hd
  obtain ⟨out, hout, h⟩ := bind_ok.1 h
  have h := pure_ok.1 h
  obtain ⟨g1, g2⟩ := sampleSimplex_full hk hdr hAd (by omega) hg hvol hout
  exact withSamples_oversampledBy g1 g2 h

/-- What NT_SMOTE does on a two-class data set with more than two minority rows and rows to add: it raises `ValueError` if
`n_dim` exceeds the number of minority rows, and returns otherwise. (SMOTE reduces the number of neighbours instead.) -/
theorem C56_nt_raises_iff {par : NbParams} {vol : List Row → ℚ} {dr : Draws} {d : Nat}
    {knn : Nat → List Row → List Row → List (List Nat)} {X : List Row} {y : List Int} {a b : Int} (hwf : WF d X y)
    (hk : KnnQueryOK knn) (hdr : dr.OK) (hu : ∀ i j, 0 < dr.simplexU i j) (hmin : IsMinority y a b) (hd : 1 ≤ par.ss.nDim)
    (h3 : 2 < y.count a) (hn : 0 < requested par.proportion (y.count b) (y.count a))
    (hmode : par.ss.simplexSampling = .random ∨ par.ss.simplexSampling = .deterministic ∨
      (par.ss.simplexSampling = .volume ∧ ∀ vs, 0 < vol vs))
    (hwi : par.ss.within = .random ∨ (par.ss.within = .deterministic ∧ par.ss.nDim ≤ 2)) :
    if y.count a < par.ss.nDim then sample defaultChecks d (ntSmoteAlg par vol dr d knn) X y = .error .valueError
    else ∃ r, sample defaultChecks d (ntSmoteAlg par vol dr d knn) X y = .ok r := by
  obtain ⟨s, hs, rfl, rfl⟩ := stats_of_isMinority hmin
  obtain ⟨hm, hM, _⟩ := stats_min_mem hs
  have h3' : ¬ y.count s.minLabel ≤ 2 := by omega
  have hn' : ¬ requested par.proportion (y.count s.majLabel) (y.count s.minLabel) = 0 := by omega
  rw [sample_default hs, if_neg h3']
  unfold ntSmoteAlg
  rw [stats_count hs hm, stats_count hs hM, detN_eq_requested, ok_bind, if_neg hn']
  dsimp only
  have hla := selectLabel_length hwf.1 s.minLabel
  split
  · rename_i h
    rw [if_pos (by omega)]
    rfl
  · rename_i h
    rw [if_neg (by omega)]
    obtain ⟨hk1, hk2⟩ := hk par.ss.nDim (selectLabel X y s.minLabel) (selectLabel X y s.minLabel) (by omega)
    obtain ⟨out, hout⟩ := sampleSimplex_ok (ss := par.ss) (vol := vol) (dr := dr) (d := d)
      (X := selectLabel X y s.minLabel)
      (indices := knn par.ss.nDim (selectLabel X y s.minLabel) (selectLabel X y s.minLabel)) (k := par.ss.nDim)
      (n := requested par.proportion (y.count s.majLabel) (y.count s.minLabel)) (a := {})
      hk2 (by rw [hk1]) (by intro he; rw [he, List.length_nil] at hk1; omega)
      (by omega) hd rfl (by intro ws hws; cases hws) (by intro hV; cases hV) hmode hdr.choice hu
      (by
        rcases hwi with h | ⟨h, h'⟩
        · exact .inl h
        · exact .inr ⟨h, by omega⟩)
    rw [hout]; exact ⟨_, rfl⟩

/-- With the default `n_dim = 3` NT_SMOTE never raises on a two-class data set. -/
theorem C56_nt_default {par : NbParams} {vol : List Row → ℚ} {dr : Draws} {d : Nat}
    {knn : Nat → List Row → List Row → List (List Nat)} {X : List Row} {y : List Int} {a b : Int} (hwf : WF d X y)
    (hk : KnnQueryOK knn) (hdr : dr.OK) (hu : ∀ i j, 0 < dr.simplexU i j) (hmin : IsMinority y a b) (hd : par.ss.nDim = 3)
    (hmode : par.ss.simplexSampling = .random) (hwi : par.ss.within = .random) :
    ∃ r, sample defaultChecks d (ntSmoteAlg par vol dr d knn) X y = .ok r := by
  by_cases h3 : 2 < y.count a
  · by_cases hn : 0 < requested par.proportion (y.count b) (y.count a)
    · have := C56_nt_raises_iff (par := par) (vol := vol) (knn := knn) hwf hk hdr hu hmin (by omega) h3 hn (.inl hmode)
        (.inl hwi)
      rwa [if_neg (by omega)] at this
    · obtain ⟨s, hs, rfl, rfl⟩ := stats_of_isMinority hmin
      obtain ⟨hm, hM, _⟩ := stats_min_mem hs
      rw [sample_default hs, if_neg (by omega)]
      unfold ntSmoteAlg
      rw [stats_count hs hm, stats_count hs hM, detN_eq_requested, ok_bind, if_pos (by omega)]
      exact ⟨_, rfl⟩
  · obtain ⟨s, hs, rfl, rfl⟩ := stats_of_isMinority hmin
    rw [sample_default hs, if_pos (by omega)]
    exact ⟨_, rfl⟩

/-! ## RWO_sampling -/

/-- **RWO_sampling**: the requested number of rows; the `i`-th is generated from a minority row and rows among its `n_dim` nearest,
then moved in every coordinate by a normal draw times the standard error of that coordinate in the minority. -/
theorem C56_rwo {par : NbParams} {colStd : List Row → Nat → ℚ} {vol : List Row → ℚ} {dr : Draws} {walkU : Nat → Nat → ℚ}
    {d : Nat} {knn : Nat → List Row → List Row → List (List Nat)} {X X' : List Row} {y y' : List Int} {a b : Int}
    (hwf : WF d X y) (hk : KnnQueryOK knn) (hdr : dr.OK) (hmin : IsMinority y a b) (hg : par.ss.gaussian = .none)
    (hvol : ∀ vs, 0 ≤ vol vs) (h3 : 2 < y.count a) (h : sample defaultChecks d (rwoAlg par colStd vol dr walkU d knn) X y = .ok (X', y')) :
    ∃ gen new : List Row, X' = X ++ new ∧
      y' = y ++ List.replicate (requested par.proportion (y.count b) (y.count a)) a ∧
      gen.length = requested par.proportion (y.count b) (y.count a) ∧ new.length = gen.length ∧
      (∀ g ∈ gen, InNearestSimplex knn par.ss.nDim d (classRows X y a) g) ∧
      ∀ (i : Nat) (g : Row), gen[i]? = some g →
        ∃ r, new[i]? = some r ∧ Walked d (colStd (classRows X y a)) (walkU i) g r := by
  obtain ⟨s, hs, rfl, rfl⟩ := stats_of_isMinority hmin
  obtain ⟨hm, hM, _⟩ := stats_min_mem hs
  rw [sample_default hs, if_neg (by omega)] at h
  unfold rwoAlg at h
  rw [stats_count hs hm, stats_count hs hM, detN_eq_requested, ok_bind] at h
  have hAd : ∀ r ∈ classRows X y s.minLabel, r.length = d := by
    intro r hr; rw [← selectLabel_eq_classRows] at hr; exact mem_selectLabel_length hwf hr
  simp only [selectLabel_eq_classRows] at h
  split at h
  · rename_i h0
    obtain ⟨rfl, rfl⟩ := Prod.mk.inj (pure_ok.1 h)
    exact ⟨[], [], by simp, by rw [h0]; simp, by rw [h0]; rfl, rfl, by simp, by simp⟩
  split at h
  · cases h
  rename_i hd
  obtain ⟨out, hout, h⟩ := bind_ok.1 h
  have h := pure_ok.1 h
  obtain ⟨g1, g2⟩ := sampleSimplex_full hk hdr hAd (by omega) hg hvol hout
  unfold withSamples at h
  obtain ⟨rfl, rfl⟩ := Prod.mk.inj h
  refine ⟨out, _, rfl, by rw [addColumnNoise_length, g1], g1, addColumnNoise_length _ _ _, g2, ?_⟩
  intro i g hi
  refine addColumnNoise_spec walkU ?_ hi
  intro r hr
  obtain ⟨_, _, _, _, _, _, _, _, hc⟩ := g2 r hr
  exact hc.2.2.2.1

/-- With the default `n_dim = 1` the points that are moved are minority rows. -/
theorem C56_rwo_rows {par : NbParams} {colStd : List Row → Nat → ℚ} {vol : List Row → ℚ} {dr : Draws} {walkU : Nat → Nat → ℚ}
    {d : Nat} {knn : Nat → List Row → List Row → List (List Nat)} {X X' : List Row} {y y' : List Int} {a b : Int}
    (hwf : WF d X y) (hk : KnnQueryOK knn) (hdr : dr.OK) (hmin : IsMinority y a b) (hg : par.ss.gaussian = .none)
    (hvol : ∀ vs, 0 ≤ vol vs) (h1 : par.ss.nDim = 1)
    (h3 : 2 < y.count a) (h : sample defaultChecks d (rwoAlg par colStd vol dr walkU d knn) X y = .ok (X', y')) :
    ∃ new : List Row, X' = X ++ new ∧ ∀ (i : Nat) (r : Row), new[i]? = some r →
      ∃ g ∈ classRows X y a, Walked d (colStd (classRows X y a)) (walkU i) g r := by
  obtain ⟨gen, new, e1, e2, e3, e4, e5, e6⟩ := C56_rwo hwf hk hdr hmin hg hvol h3 h
  refine ⟨new, e1, fun i r hr => ?_⟩
  have hi : i < gen.length := by rw [← e4]; exact (List.getElem?_eq_some_iff.1 hr).1
  obtain ⟨r', hr', hw⟩ := e6 i gen[i] (List.getElem?_eq_getElem hi)
  rw [hr] at hr'
  injection hr' with hr'
  subst hr'
  refine ⟨gen[i], ?_, hw⟩
  obtain ⟨j, base, row, nbrs, w, f1, f2, f4, f5⟩ := e5 gen[i] (List.getElem_mem hi)
  have hA : (classRows X y a).length = y.count a := by
    rw [← selectLabel_eq_classRows]; exact selectLabel_length hwf.1 a
  have hrl := ((hk par.ss.nDim (classRows X y a) (classRows X y a) (by omega)).2 row (List.mem_of_getElem? f2)).1
  have hrow : row.drop 1 = [] := List.length_eq_zero_iff.1 (by rw [List.length_drop]; omega)
  rw [hrow] at f4
  cases f4
  have hAd : ∀ r ∈ classRows X y a, r.length = d := by
    intro r hr; rw [← selectLabel_eq_classRows] at hr; exact mem_selectLabel_length hwf hr
  have hb := List.mem_of_getElem? f1
  have : gen[i] = base := by
    apply row_ext f5.2.2.2.1 (hAd _ hb)
    intro k hk'
    exact inHull_constant hk' (S := [base]) (by simp) ⟨[base], w, fun v hv => hv, f5⟩
  rw [this]
  exact hb

/-- A feature with the same value in all minority rows has that value in all new rows. -/
theorem C56_rwo_constant {par : NbParams} {colStd : List Row → Nat → ℚ} {vol : List Row → ℚ} {dr : Draws}
    {walkU : Nat → Nat → ℚ} {d : Nat} {knn : Nat → List Row → List Row → List (List Nat)} {X X' : List Row} {y y' : List Int}
    {a b : Int} (hwf : WF d X y) (hk : KnnQueryOK knn) (hdr : dr.OK) (hstd : StdZeroOnConstant colStd)
    (hmin : IsMinority y a b) (hg : par.ss.gaussian = .none)
    (hvol : ∀ vs, 0 ≤ vol vs) (h3 : 2 < y.count a) (h : sample defaultChecks d (rwoAlg par colStd vol dr walkU d knn) X y = .ok (X', y'))
    {k : Nat} (hkd : k < d) {c : ℚ} (hc : ∀ r ∈ classRows X y a, r.getD k 0 = c) :
    ∀ r ∈ X'.drop X.length, r.getD k 0 = c := by
  obtain ⟨gen, new, rfl, e2, e3, e4, e5, e6⟩ := C56_rwo hwf hk hdr hmin hg hvol h3 h
  intro r hr
  rw [List.drop_left] at hr
  obtain ⟨i, hi, rfl⟩ := List.getElem_of_mem hr
  obtain ⟨r', hr', hw⟩ := e6 i gen[i] (List.getElem?_eq_getElem (by omega))
  rw [List.getElem?_eq_getElem hi] at hr'
  injection hr' with hr'
  rw [hr', hw.2 k hkd, hstd _ k c hc, mul_zero, add_zero]
  obtain ⟨j, base, row, nbrs, w, f1, f2, f4, f5⟩ := e5 gen[i] (List.getElem_mem _)
  refine inHull_constant hkd hc ⟨base :: nbrs, w, ?_, f5⟩
  intro v hv
  rcases List.mem_cons.1 hv with rfl | hv
  · exact List.mem_of_getElem? f1
  · obtain ⟨_, _, hi⟩ := forall2_mem_right f4 hv
    exact List.mem_of_getElem? hi

/-- RWO_sampling raises `ValueError` exactly when `n_dim` exceeds the number of minority rows (and rows have to be added). -/
theorem C56_rwo_raises_iff {par : NbParams} {colStd : List Row → Nat → ℚ} {vol : List Row → ℚ} {dr : Draws}
    {walkU : Nat → Nat → ℚ} {d : Nat} {knn : Nat → List Row → List Row → List (List Nat)} {X : List Row} {y : List Int}
    {a b : Int} (hwf : WF d X y)
    (hk : KnnQueryOK knn) (hdr : dr.OK) (hu : ∀ i j, 0 < dr.simplexU i j) (hmin : IsMinority y a b) (hd : 1 ≤ par.ss.nDim)
    (h3 : 2 < y.count a) (hn : 0 < requested par.proportion (y.count b) (y.count a))
    (hmode : par.ss.simplexSampling = .random ∨ par.ss.simplexSampling = .deterministic ∨
      (par.ss.simplexSampling = .volume ∧ ∀ vs, 0 < vol vs))
    (hwi : par.ss.within = .random ∨ (par.ss.within = .deterministic ∧ par.ss.nDim ≤ 2)) :
    if y.count a < par.ss.nDim then
      sample defaultChecks d (rwoAlg par colStd vol dr walkU d knn) X y = .error .valueError
    else ∃ r, sample defaultChecks d (rwoAlg par colStd vol dr walkU d knn) X y = .ok r := by
  have hnt := C56_nt_raises_iff (par := par) (vol := vol) (knn := knn) hwf hk hdr hu hmin hd h3 hn hmode hwi
  obtain ⟨s, hs, rfl, rfl⟩ := stats_of_isMinority hmin
  obtain ⟨hm, hM, _⟩ := stats_min_mem hs
  have h3' : ¬ y.count s.minLabel ≤ 2 := by omega
  have hn' : ¬ requested par.proportion (y.count s.majLabel) (y.count s.minLabel) = 0 := by omega
  rw [sample_default hs, if_neg h3'] at hnt ⊢
  unfold rwoAlg
  unfold ntSmoteAlg at hnt
  rw [stats_count hs hm, stats_count hs hM, detN_eq_requested, ok_bind, if_neg hn'] at hnt ⊢
  dsimp only at hnt ⊢
  have hla := selectLabel_length hwf.1 s.minLabel
  by_cases hc : y.count s.minLabel < par.ss.nDim
  · rw [if_pos hc, if_pos (by omega)]
    rfl
  · rw [if_neg hc] at hnt ⊢
    rw [if_neg (by omega)] at hnt ⊢
    obtain ⟨r, hr⟩ := hnt
    obtain ⟨out, hout, _⟩ := bind_ok.1 hr
    rw [hout]
    exact ⟨_, rfl⟩

/-! ## Concrete cases -/

def ntX : List Row := [[0, 7], [1, 7], [2, 7], [6, 7], [10, 9], [4, 7], [12, 8], [13, 7], [14, 7]]
def ntY : List Int := [1, 1, 1, 1, 0, 0, 0, 0, 0]
def ntPar (n : Nat) : NbParams := { proportion := 1, nNeighbors := 2, ss := { exPar.ss with nDim := n } }
/-- A stand-in for the standard error: the range of the column. -/
def colRange (rows : List Row) (k : Nat) : ℚ := (rows.map (fun r => r.getD k 0 - (rows.getD 0 []).getD k 0)).foldr max 0

theorem colRange_constant : StdZeroOnConstant colRange := by
  intro rows k c h
  unfold colRange
  have : ∀ (l : List Row), (∀ r ∈ l, r ∈ rows) → (l.map (fun r => r.getD k 0 - (rows.getD 0 []).getD k 0)).foldr max 0 = 0 := by
    intro l
    induction l with
    | nil => intro _; rfl
    | cons r l ih =>
      intro hl
      rw [List.map_cons, List.foldr_cons, ih (fun r hr => hl r (by simp [hr])), h r (hl r (by simp))]
      cases rows with
      | nil => exact absurd (hl r (by simp)) (by simp)
      | cons r0 rows => rw [List.getD_cons_zero, h r0 (by simp)]; simp
  exact this rows (fun r hr => hr)

example : WF 2 ntX ntY ∧ IsMinority ntY 1 0 ∧ KnnQueryOK bruteQuery ∧ StdZeroOnConstant colRange ∧
    (∀ r ∈ classRows ntX ntY 1, r.getD 1 0 = 7) ∧
    (match sample defaultChecks 2 (ntSmoteAlg (ntPar 3) (fun _ => 1) exDraws 2 bruteQuery) ntX ntY with
     | .ok r => decide (r.1.length = 10)
     | .error _ => false) = true ∧
    (match sample defaultChecks 2 (rwoAlg (ntPar 1) colRange (fun _ => 1) exDraws (fun _ _ => 1) 2 bruteQuery) ntX ntY with
     | .ok r => decide ((r.1.drop 9).map (fun q => q.getD 1 0) = [7])
     | .error _ => false) = true ∧
    sample defaultChecks 2 (ntSmoteAlg (ntPar 5) (fun _ => 1) exDraws 2 bruteQuery) ntX ntY = .error .valueError := by
  refine ⟨⟨by decide, by decide +kernel⟩, ⟨by decide, by decide, by decide, Or.inl (by decide)⟩, bruteQuery_ok,
    colRange_constant, by decide +kernel, by decide +kernel, by decide +kernel, by decide +kernel⟩

end Verif
