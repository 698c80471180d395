import Verif.Model.Gasmote
import Verif.Props.C01
import Verif.Lemmas.Interp
import Verif.Lemmas.Clusters
import Verif.Lemmas.SmoteExample
import Mathlib.Data.List.Sort
import Mathlib.Data.List.SplitLengths
import Mathlib.Tactic.Linarith
import Mathlib.Tactic.Positivity

/-!
# C96: GASMOTE
-/

namespace Verif

/-! ## Specification -/

/-- The rows generated for the numbers `conf`: as many rows around the `i`-th row of `A` as `conf` says, each a convex combination of that row
and rows the neighbour table lists for it. -/
def SampledBy (d : Nat) (A : List Row) (ind : List (List Nat)) (conf : List Nat) (S : List Row) : Prop :=
  ∃ parts : List (List Row), S = parts.flatten ∧ parts.length = conf.length ∧ ∀ (i n : Nat), conf[i]? = some n →
    ∃ part p row, parts[i]? = some part ∧ A[i]? = some p ∧ ind[i]? = some row ∧ part.length = n ∧
      ∀ x ∈ part, GeneratedFrom d [p] A [row] x

/-- `preds` are the labels given to the rows in a cross validation: the data is cut into `k` consecutive blocks, the first ones one row longer
if need be, and the labels of a block come from the classifier trained with the others. -/
def CrossPredicted (predict : List Row → List Int → List Row → Res (List Int)) (k : Nat) (X : List Row) (y preds : List Int) : Prop :=
  ∃ (blocks : List (List (Row × Int))) (parts : List (List Int)), blocks.flatten = X.zip y ∧
    blocks.map List.length = (List.range k).map (fun i => X.length / k + if i < X.length % k then 1 else 0) ∧
    preds = parts.flatten ∧ parts.length = k ∧ ∀ (i : Nat) (block : List (Row × Int)), blocks[i]? = some block →
      ∃ part, parts[i]? = some part ∧ part.length = block.length ∧
        predict ((blocks.eraseIdx i).flatten.map Prod.fst) ((blocks.eraseIdx i).flatten.map Prod.snd) (block.map Prod.fst) = .ok part

/-- The share of the rows labelled `l` that are predicted correctly. -/
def hitRate (l : Int) (y preds : List Int) : ℚ := ((y.zip preds).count (l, l) : ℚ) / (y.count l : ℚ)

/-- `score` is the geometric mean of the hit rates after adding rows generated for `conf`. -/
def GaScored (c : GaCtx) (conf : List Nat) (score : ℚ) : Prop :=
  ∃ (S : List Row) (preds : List Int), SampledBy c.d c.Xmin c.ind conf S ∧
    CrossPredicted c.env.predict (min c.X.length 5) (c.X ++ S) (c.y ++ List.replicate conf.sum c.a) preds ∧
    score = c.env.sqrt (hitRate c.a (c.y ++ List.replicate conf.sum c.a) preds * hitRate c.b (c.y ++ List.replicate conf.sum c.a) preds)

/-- A mutation in the generation `g` of `ge`: with `pm = 1` never, with `pm = 0` always, all numbers move towards `maxn` or 0 by a share that
is a power of a number in `[0, 1)`. -/
def MutatedBy (pow : ℚ → ℚ → ℚ) (maxn ge : Nat) (pm : ℚ) (g : Nat) (conf conf' : List Nat) : Prop :=
  (0 < pm ∧ conf' = conf) ∨ (pm < 1 ∧ List.Forall₂ (fun (n n' : Nat) => ∃ u : ℚ, 0 ≤ u ∧ u < 1 ∧
    (n' = ⌊(n : ℚ) + ((maxn : ℚ) - n) * pow u ((1 - (g : ℚ) / ge) ^ 3)⌋.toNat ∨
     n' = ⌊(n : ℚ) - n * pow u ((1 - (g : ℚ) / ge) ^ 3)⌋.toNat)) conf conf')

/-- The history of the search: `E` is everything evaluated in `g` generations (numbers with score), `P` the population. From the population the
best `keep` and the best `nPop - keep` are kept. Then there are `nPop / 2` crossovers with two children each, the second of which equals a
parent, and `nPop / 2` mutations; all parents are among those kept. -/
inductive GaHistory (pow : ℚ → ℚ → ℚ) (par : GaParams) (keep m : Nat) : Nat → List (List Nat × ℚ) → List (List Nat × ℚ) → Prop
  | start {E} : E.length = par.nPop → (∀ e ∈ E, e.1.length = m ∧ ∀ n ∈ e.1, n < par.maxn) → GaHistory pow par keep m 0 E E
  | next {g : Nat} {E P R Q C M : List (List Nat × ℚ)} : GaHistory pow par keep m g E P → R.Perm P → R.Pairwise (fun p q => q.2 ≤ p.2) →
      Q = R.take keep ++ R.take (par.nPop - keep) →
      C.length = 2 * (par.nPop / 2) → (∀ j, j < par.nPop / 2 → ∃ p ∈ Q, ∃ q ∈ Q, ∃ (k : Nat) (f f' : ℚ), k ≤ m ∧
        C[2 * j]? = some (p.1.take k ++ q.1.drop k, f) ∧ C[2 * j + 1]? = some (q.1, f')) →
      M.length = par.nPop / 2 → (∀ e ∈ M, ∃ p ∈ Q, MutatedBy pow par.maxn par.ge par.pm g p.1 e.1) →
      GaHistory pow par keep m (g + 1) (E ++ (C ++ M)) (Q ++ (C ++ M))

/-- What is assumed of the environment. -/
structure GaEnv.OK (env : GaEnv) (par : GaParams) : Prop where
  knn : KnnOK env.knn
  predict : ∀ Xtr (ytr : List Int) Xte, Xtr.length = ytr.length → ytr ≠ [] → ∃ p, env.predict Xtr ytr Xte = .ok p ∧ p.length = Xte.length
  dr : ∀ t i, (env.dr t i).OK
  pos : ∀ t i a b, 0 < (env.dr t i).simplexU a b
  init : ∀ j i, env.init j i < par.maxn
  pick : ∀ g t, env.pick g t < par.nPop
  cut : ∀ g j r m, 0 < m → env.cut g j r m < m
  gate : ∀ g j, 0 ≤ env.gate g j ∧ env.gate g j < 1
  rand : ∀ g j i, 0 ≤ env.rand g j i ∧ env.rand g j i < 1

/-- Parameters the constructor accepts, with a sampling mode that is available. -/
structure GaParams.OK (par : GaParams) (vol : List Row → ℚ) : Prop where
  maxn : 1 ≤ par.maxn
  nPop : 1 ≤ par.nPop
  pr : 0 ≤ par.pr ∧ par.pr ≤ 1
  dim : 1 ≤ par.ss.nDim
  mode : par.ss.simplexSampling = .random ∨ par.ss.simplexSampling = .deterministic ∨ (par.ss.simplexSampling = .volume ∧ ∀ vs, 0 < vol vs)
  within : par.ss.within = .random ∨ (par.ss.within = .deterministic ∧ par.ss.nDim ≤ 2)
  gaussian : par.ss.gaussian = .none

/-- The situation in which the search runs. -/
structure GaCtx.OK (c : GaCtx) : Prop where
  env : c.env.OK c.par
  par : c.par.OK c.vol
  rows : ∀ r ∈ c.Xmin, r.length = c.d
  indLen : c.ind.length = c.Xmin.length
  ind : TableOK c.ind c.k c.Xmin.length
  k : 1 ≤ c.k
  ne : c.Xmin ≠ []
  len : c.X.length = c.y.length
  two : 2 ≤ c.X.length
  memA : c.a ∈ c.y
  memB : c.b ∈ c.y

/-! ## Generated rows -/

theorem gaSamples_spec {c : GaCtx} (hc : c.OK) {dr : Nat → Draws} (hdr : ∀ i, (dr i).OK) (hpos : ∀ i a b, 0 < (dr i).simplexU a b)
    {conf : List Nat} (hl : conf.length = c.Xmin.length) :
    ∃ S, gaSamples c dr conf = .ok S ∧ SampledBy c.d c.Xmin c.ind conf S ∧ S.length = conf.sum := by
  unfold gaSamples
  have hone : ∀ p ∈ conf.zipIdx, ∃ part, (do
      let x ← getRow c.Xmin p.2
      let row ← getRow c.ind p.2
      sampleSimplex c.par.ss c.vol (dr p.2) c.d [x] [row] c.k p.1 { Xv := some c.Xmin } : Res (List Row)) = .ok part := by
    intro p hp
    have hi : p.2 < conf.length := by
      have := List.snd_lt_of_mem_zipIdx hp
      omega
    rw [getRow_ok.2 (List.getElem?_eq_getElem (by omega : p.2 < c.Xmin.length)), ok_bind]
    rw [getRow_ok.2 (List.getElem?_eq_getElem (by have := hc.indLen; omega : p.2 < c.ind.length)), ok_bind]
    refine sampleSimplex_ok (a := { Xv := some c.Xmin }) ?_ (by simp) (by simp) hc.k hc.par.dim rfl (by intro ws hws; cases hws)
      (by intro h; cases h) hc.par.mode (hdr _).choice (hpos _) (hc.par.within.imp id (fun h => ⟨h.1, by have := h.2; omega⟩))
    intro row hrow
    rw [List.mem_singleton] at hrow
    subst hrow
    exact hc.ind _ (List.getElem_mem _)
  obtain ⟨parts, hparts⟩ := mapM_exists_ok hone
  rw [hparts, ok_bind]
  have hlen : parts.length = conf.length := by rw [mapM_ok_length hparts]; simp
  have hget : ∀ (i n : Nat), conf[i]? = some n → ∃ part p row, parts[i]? = some part ∧ c.Xmin[i]? = some p ∧ c.ind[i]? = some row ∧
      part.length = n ∧ ∀ x ∈ part, GeneratedFrom c.d [p] c.Xmin [row] x := by
    intro i n hn
    have hi : i < conf.length := (List.getElem?_eq_some_iff.1 hn).1
    have hz : conf.zipIdx[i]? = some (n, i) := by
      rw [List.getElem?_zipIdx, hn]
      simp
    obtain ⟨part, hp, hpart⟩ := mapM_ok_get hparts hz
    simp only at hpart
    rw [getRow_ok.2 (List.getElem?_eq_getElem (by omega : i < c.Xmin.length)), ok_bind,
      getRow_ok.2 (List.getElem?_eq_getElem (by have := hc.indLen; omega : i < c.ind.length)), ok_bind] at hpart
    obtain ⟨gen, g1, g2, g3⟩ := sampleSimplex_sound (by
        intro r hr
        rw [List.mem_singleton] at hr
        subst hr
        exact hc.rows _ (List.getElem_mem _)) (by
        intro V hV
        injection hV with hV
        subst hV
        exact hc.rows) (by intro ws hws; cases hws) (by intro h; cases h) (fun a b => ((hdr i).simplex a b).1) (by simp) hpart
    rw [hc.par.gaussian] at g3
    have : part = gen := by rw [g3]; rfl
    subst this
    exact ⟨part, _, _, hp, List.getElem?_eq_getElem _, List.getElem?_eq_getElem _, g1, g2⟩
  refine ⟨parts.flatten, rfl, ⟨parts, rfl, hlen, hget⟩, ?_⟩
  rw [List.length_flatten]
  congr 1
  apply List.ext_getElem
  · simp [hlen]
  · intro i h1 h2
    obtain ⟨part, p, row, e1, _, _, e4, _⟩ := hget i _ (List.getElem?_eq_getElem h2)
    rw [List.getElem_map, ← e4]
    rw [List.length_map] at h1
    rw [List.getElem?_eq_getElem h1] at e1
    injection e1 with e1
    rw [e1]

/-! ## Scores -/

theorem gaCross_spec {predict : List Row → List Int → List Row → Res (List Int)} {X : List Row} {y : List Int} (hxy : X.length = y.length)
    (hp : ∀ Xtr (ytr : List Int) Xte, Xtr.length = ytr.length → ytr ≠ [] → ∃ p, predict Xtr ytr Xte = .ok p ∧ p.length = Xte.length)
    (sizes : List Nat) (i : Nat) (hs : i + sizes.sum = X.length) (hlt : ∀ s ∈ sizes, s < X.length) :
    ∃ parts : List (List Int), gaCross predict X y sizes i = .ok (parts.flatten, y.drop i) ∧ parts.length = sizes.length ∧
      ∀ (j s : Nat), sizes[j]? = some s → ∃ part, parts[j]? = some part ∧ part.length = s ∧
        predict (X.take (i + (sizes.take j).sum) ++ X.drop (i + (sizes.take j).sum + s))
          (y.take (i + (sizes.take j).sum) ++ y.drop (i + (sizes.take j).sum + s)) ((X.drop (i + (sizes.take j).sum)).take s) = .ok part := by
  induction sizes generalizing i with
  | nil =>
    refine ⟨[], ?_, rfl, by simp⟩
    simp only [List.sum_nil, Nat.add_zero] at hs
    rw [List.drop_eq_nil_of_le (by omega)]
    rfl
  | cons s sizes ih =>
    rw [List.sum_cons] at hs
    obtain ⟨parts, h1, h2, h3⟩ := ih (i + s) (by omega) (fun t ht => hlt t (by simp [ht]))
    have hsl := hlt s (by simp)
    obtain ⟨p, hp1, hp2⟩ := hp (X.take i ++ X.drop (i + s)) (y.take i ++ y.drop (i + s)) ((X.drop i).take s) (by simp [hxy]) (by
      apply List.length_pos_iff.1
      rw [List.length_append, List.length_take, List.length_drop]
      omega)
    have hpl : p.length = s := by
      rw [hp2, List.length_take, List.length_drop]
      omega
    refine ⟨p :: parts, ?_, by simp [h2], ?_⟩
    · rw [gaCross, hp1, ok_bind, h1, ok_bind]
      show Except.ok (p ++ parts.flatten, (y.drop i).take s ++ y.drop (i + s)) = _
      rw [List.flatten_cons, ← List.drop_drop, List.take_append_drop]
    · intro j t hj
      cases j with
      | zero =>
        simp only [List.getElem?_cons_zero, Option.some.injEq] at hj
        subst hj
        exact ⟨p, rfl, hpl, by simpa using hp1⟩
      | succ j =>
        rw [List.getElem?_cons_succ] at hj
        obtain ⟨part, e1, e2, e3⟩ := h3 j t hj
        refine ⟨part, by simpa using e1, e2, ?_⟩
        rw [List.take_succ_cons, List.sum_cons, ← Nat.add_assoc]
        exact e3

theorem splitLengths_eraseIdx {α : Type} (sizes : List Nat) (l : List α) (hs : sizes.sum = l.length) (j s : Nat) (hj : sizes[j]? = some s) :
    ((sizes.splitLengths l).eraseIdx j).flatten = l.take (sizes.take j).sum ++ l.drop ((sizes.take j).sum + s) ∧
    (sizes.splitLengths l)[j]? = some ((l.drop (sizes.take j).sum).take s) := by
  induction sizes generalizing l j with
  | nil => simp at hj
  | cons t sizes ih =>
    rw [List.sum_cons] at hs
    rw [List.splitLengths_cons]
    cases j with
    | zero =>
      simp only [List.getElem?_cons_zero, Option.some.injEq] at hj
      subst hj
      refine ⟨?_, by simp⟩
      rw [List.eraseIdx_cons_zero, List.flatten_splitLengths _ _ (by rw [List.length_drop]; omega)]
      simp
    | succ j =>
      rw [List.getElem?_cons_succ] at hj
      obtain ⟨e1, e2⟩ := ih (l.drop t) (by rw [List.length_drop]; omega) j hj
      rw [List.eraseIdx_cons_succ, List.flatten_cons, e1, List.getElem?_cons_succ, e2, List.take_succ_cons, List.sum_cons, List.drop_drop, List.drop_drop]
      refine ⟨?_, rfl⟩
      rw [← List.append_assoc, ← List.take_add, Nat.add_assoc]

theorem foldSizes_sum (n k : Nat) (hk : 0 < k) : (gaFoldSizes n k).sum = n := by
  have key : ∀ (q r m : Nat), r ≤ m → ((List.range m).map (fun i => q + if i < r then 1 else 0)).sum = m * q + r := by
    intro q r m
    induction m generalizing r with
    | zero => intro h; simp; omega
    | succ m ih =>
      intro h
      rw [List.range_succ, List.map_append, List.sum_append, List.map_singleton, List.sum_singleton]
      by_cases hr : r ≤ m
      · rw [ih r hr, if_neg (by omega)]
        ring_nf
      · have : ((List.range m).map (fun i => q + if i < r then 1 else 0)) = ((List.range m).map (fun i => q + if i < m then 1 else 0)) := by
          apply List.map_congr_left
          intro i hi
          rw [List.mem_range] at hi
          rw [if_pos (by omega), if_pos (by omega)]
        rw [this, ih m (le_refl _), if_pos (by omega)]
        have : r = m + 1 := by omega
        subst this
        ring_nf
  unfold gaFoldSizes
  rw [key _ _ _ (Nat.mod_lt _ hk).le]
  exact Nat.div_add_mod n k

theorem foldSizes_lt (n k : Nat) (hk : 2 ≤ k) (hn : k ≤ n) : ∀ s ∈ gaFoldSizes n k, s < n := by
  intro s hs
  unfold gaFoldSizes at hs
  obtain ⟨i, _, rfl⟩ := List.mem_map.1 hs
  have h1 := Nat.div_add_mod n k
  have h2 : 1 ≤ n / k := (Nat.one_le_div_iff (by omega)).2 hn
  have h3 : 2 * (n / k) ≤ k * (n / k) := Nat.mul_le_mul_right _ hk
  split <;> omega

theorem zip_split_count {y p : List Int} (h : p.length = y.length) (l : Int) :
    ((y.zip p).filter (fun q => decide (q.1 = l) && decide (q.1 = q.2))).length = (y.zip p).count (l, l) ∧
    ((y.zip p).filter (fun q => decide (q.1 = l) && decide (q.1 = q.2))).length +
      ((y.zip p).filter (fun q => decide (q.1 = l) && decide (q.1 ≠ q.2))).length = y.count l := by
  induction y generalizing p with
  | nil => simp
  | cons t y ih =>
    cases p with
    | nil => simp at h
    | cons q p =>
      obtain ⟨h1, h2⟩ := ih (p := p) (by simpa using h)
      rw [List.zip_cons_cons, List.filter_cons, List.filter_cons, List.count_cons, List.count_cons, ← h1, ← h2]
      by_cases e1 : t = l
      · subst e1
        by_cases e2 : t = q
        · subst e2; simp; omega
        · simp [e2, Ne.symm e2]; omega
      · simp [e1]

theorem gaScore_spec {sqrt : ℚ → ℚ} {a b : Int} {y p : List Int} (h : p.length = y.length) (ha : a ∈ y) (hb : b ∈ y) :
    gaScore sqrt a b y p = .ok (sqrt (hitRate a y p * hitRate b y p)) := by
  obtain ⟨a1, a2⟩ := zip_split_count h a
  obtain ⟨b1, b2⟩ := zip_split_count h b
  have ca := List.count_pos_iff.2 ha
  have cb := List.count_pos_iff.2 hb
  unfold gaScore hitRate
  simp only
  rw [if_neg (by omega)]
  rw [a2, Nat.add_comm (List.length (List.filter (fun p => decide (p.1 = b) && decide (p.1 ≠ p.2)) (y.zip p))), b2, a1, b1]

theorem gaFitness_spec {c : GaCtx} (hc : c.OK) (t : Nat) {conf : List Nat} (hl : conf.length = c.Xmin.length) :
    ∃ f, gaFitness c t conf = .ok f ∧ GaScored c conf f := by
  obtain ⟨S, hS, hSb, hSl⟩ := gaSamples_spec hc (hc.env.dr t) (hc.env.pos t) hl
  unfold gaFitness
  rw [hS, ok_bind]
  have h2 := hc.two
  have hlen := hc.len
  simp only
  rw [if_neg (by rw [List.length_append]; omega), hSl]
  obtain ⟨k, hk⟩ : ∃ k, k = min c.X.length 5 := ⟨_, rfl⟩
  rw [← hk]
  have hk2 : 2 ≤ k := by omega
  obtain ⟨Xn, hXn⟩ : ∃ Xn, Xn = c.X ++ S := ⟨_, rfl⟩
  obtain ⟨yn, hyn⟩ : ∃ yn, yn = c.y ++ List.replicate conf.sum c.a := ⟨_, rfl⟩
  rw [← hXn, ← hyn]
  have hxy : Xn.length = yn.length := by rw [hXn, hyn]; simp [hSl, hlen]
  have hkn : k ≤ Xn.length := by rw [hXn, List.length_append]; omega
  have hsum := foldSizes_sum Xn.length k (by omega)
  obtain ⟨parts, h1, h3, h4⟩ := gaCross_spec (predict := c.env.predict) hxy hc.env.predict (gaFoldSizes Xn.length k) 0 (by omega)
    (foldSizes_lt _ _ hk2 hkn)
  rw [h1, ok_bind]
  have hpl : parts.flatten.length = yn.length := by
    rw [List.length_flatten, ← hxy, ← hsum]
    congr 1
    apply List.ext_getElem
    · simp [h3]
    · intro i h5 h6
      obtain ⟨part, e1, e2, _⟩ := h4 i _ (List.getElem?_eq_getElem h6)
      rw [List.getElem_map, ← e2]
      rw [List.length_map] at h5
      rw [List.getElem?_eq_getElem h5] at e1
      injection e1 with e1
      rw [e1]
  simp only [List.drop_zero]
  rw [gaScore_spec hpl (by rw [hyn]; simp [hc.memA]) (by rw [hyn]; simp [hc.memB])]
  refine ⟨_, rfl, S, parts.flatten, hSb, ?_, by rw [hyn]⟩
  rw [← hXn, ← hyn, ← hk]
  have hz : (Xn.zip yn).length = Xn.length := by rw [List.length_zip]; omega
  refine ⟨(gaFoldSizes Xn.length k).splitLengths (Xn.zip yn), parts, ?_, ?_, rfl, by rw [h3]; simp [gaFoldSizes], ?_⟩
  · exact List.flatten_splitLengths _ _ (by omega)
  · rw [List.map_splitLengths_length _ _ (by omega)]
    rfl
  · intro i block hb
    have hi : i < (gaFoldSizes Xn.length k).length := by
      have := (List.getElem?_eq_some_iff.1 hb).1
      rwa [List.length_splitLengths] at this
    obtain ⟨part, e1, e2, e3⟩ := h4 i _ (List.getElem?_eq_getElem hi)
    obtain ⟨e4, e5⟩ := splitLengths_eraseIdx (gaFoldSizes Xn.length k) (Xn.zip yn) (by omega) i _ (List.getElem?_eq_getElem hi)
    rw [hb] at e5
    injection e5 with e5
    have hsm : ((gaFoldSizes Xn.length k).take i).sum + (gaFoldSizes Xn.length k)[i] ≤ Xn.length := by
      have h7 : ((gaFoldSizes Xn.length k).take (i + 1)).sum ≤ (gaFoldSizes Xn.length k).sum := by
        conv_rhs => rw [← List.take_append_drop (i + 1) (gaFoldSizes Xn.length k), List.sum_append]
        omega
      rw [List.take_succ_eq_append_getElem hi, List.sum_append, List.sum_singleton] at h7
      omega
    refine ⟨part, e1, ?_, ?_⟩
    · rw [e2, e5, List.length_take, List.length_drop, hz]
      omega
    · rw [e4, e5]
      rw [Nat.zero_add] at e3
      rw [List.map_append, List.map_append, List.map_take, List.map_take, List.map_take, List.map_drop, List.map_drop, List.map_drop,
        List.map_fst_zip (by omega), List.map_snd_zip (by omega)]
      exact e3

/-! ## The search -/

theorem gaCrossover_spec (cuts : List Nat) (ca cb : List Nat) (hl : ca.length = cb.length) (hc : ∀ k ∈ cuts, k ≤ ca.length) :
    ∃ k, k ≤ ca.length ∧ gaCrossover cuts ca cb = (ca.take k ++ cb.drop k, cb) := by
  induction cuts generalizing ca with
  | nil => exact ⟨ca.length, le_refl _, by simp [gaCrossover, hl]⟩
  | cons k0 cuts ih =>
    have hk0 := hc k0 (by simp)
    obtain ⟨ca', hca'⟩ : ∃ ca', ca' = ca.take k0 ++ cb.drop k0 := ⟨_, rfl⟩
    have hl' : ca'.length = ca.length := by
      rw [hca', List.length_append, List.length_take, List.length_drop]
      omega
    have hcb : cb.take k0 ++ ca'.drop k0 = cb := by
      rw [hca', List.drop_left' (by rw [List.length_take]; omega), List.take_append_drop]
    rw [gaCrossover, ← hca', hcb]
    obtain ⟨k1, h1, h2⟩ := ih ca' (by omega) (fun k hk => by rw [hl']; exact hc k (by simp [hk]))
    refine ⟨min k0 k1, by omega, ?_⟩
    rw [h2]
    congr 1
    rw [hca']
    by_cases h : k1 ≤ k0
    · rw [Nat.min_eq_right h, List.take_append_of_le_length (by rw [List.length_take]; omega), List.take_take, Nat.min_eq_left h]
    · push Not at h
      rw [Nat.min_eq_left h.le, List.take_append, List.take_of_length_le (by rw [List.length_take]; omega), List.append_assoc]
      congr 1
      rw [List.length_take, Nat.min_eq_left hk0]
      have : cb.drop k1 = (cb.drop k0).drop (k1 - k0) := by rw [List.drop_drop]; congr 1; omega
      rw [this, List.take_append_drop]

theorem gaMutation_length (c : GaCtx) (g j : Nat) (conf : List Nat) : (gaMutation c g j conf).length = conf.length := by
  unfold gaMutation
  split <;> simp

theorem gaMutation_spec {c : GaCtx} (hc : c.OK) (g j : Nat) (conf : List Nat) :
    MutatedBy c.env.pow c.par.maxn c.par.ge c.par.pm g conf (gaMutation c g j conf) := by
  have hg := hc.env.gate g j
  unfold gaMutation
  split
  · rename_i h
    refine Or.inr ⟨by linarith, ?_⟩
    rw [List.forall₂_iff_get]
    refine ⟨by simp, ?_⟩
    intro i h1 h2
    refine ⟨c.env.rand g j i, (hc.env.rand g j i).1, (hc.env.rand g j i).2, ?_⟩
    simp only [List.get_eq_getElem, List.getElem_map, List.getElem_zipIdx, Nat.zero_add]
    split
    · exact Or.inl rfl
    · exact Or.inr rfl
  · rename_i h
    exact Or.inl ⟨by linarith, rfl⟩

theorem gaSort_spec (P : List (List Nat × ℚ)) : (gaSort P).Perm P ∧ (gaSort P).Pairwise (fun p q => q.2 ≤ p.2) := by
  unfold gaSort
  have : Std.Total (fun p q : List Nat × ℚ => q.2 ≤ p.2) := ⟨fun a b => le_total _ _⟩
  have : IsTrans (List Nat × ℚ) (fun p q => q.2 ≤ p.2) := ⟨fun a b c h1 h2 => le_trans h2 h1⟩
  exact ⟨List.perm_insertionSort _ _, List.pairwise_insertionSort _ _⟩

theorem gaCross_loop {c : GaCtx} (hc : c.OK) (g : Nat) {Q : List (List Nat × ℚ)} (hQ : Q.length = c.par.nPop)
    (hQl : ∀ e ∈ Q, e.1.length = c.Xmin.length) (t h : Nat) :
    ∃ C : List (List Nat × ℚ), (List.range h).foldlM (gaCrossStep c g) (Q, t) = .ok (Q ++ C, t + 2 * h) ∧ C.length = 2 * h ∧
      (∀ e ∈ C, e.1.length = c.Xmin.length ∧ GaScored c e.1 e.2) ∧
      ∀ j, j < h → ∃ p ∈ Q, ∃ q ∈ Q, ∃ (k : Nat) (f f' : ℚ), k ≤ c.Xmin.length ∧
        C[2 * j]? = some (p.1.take k ++ q.1.drop k, f) ∧ C[2 * j + 1]? = some (q.1, f') := by
  induction h with
  | zero => exact ⟨[], by simp [pure, Except.pure], by simp, by simp, by omega⟩
  | succ h ih =>
    obtain ⟨C, h1, h2, h3, h4⟩ := ih
    rw [List.range_succ, List.foldlM_append, h1, ok_bind]
    simp only [List.foldlM_cons, List.foldlM_nil]
    have hp0 := hc.env.pick g (2 * h)
    have hp1 := hc.env.pick g (2 * h + 1)
    obtain ⟨p, hp⟩ : ∃ p, p = Q[c.env.pick g (2 * h)]'(by omega) := ⟨_, rfl⟩
    obtain ⟨q, hq⟩ : ∃ q, q = Q[c.env.pick g (2 * h + 1)]'(by omega) := ⟨_, rfl⟩
    have hpm : p ∈ Q := by rw [hp]; exact List.getElem_mem _
    have hqm : q ∈ Q := by rw [hq]; exact List.getElem_mem _
    have hlp := hQl p hpm
    have hlq := hQl q hqm
    have g0 : getRow (Q ++ C) (c.env.pick g (2 * h)) = .ok p := by
      rw [getRow_ok, List.getElem?_append_left (by omega), List.getElem?_eq_getElem (by omega), hp]
    have g1 : getRow (Q ++ C) (c.env.pick g (2 * h + 1)) = .ok q := by
      rw [getRow_ok, List.getElem?_append_left (by omega), List.getElem?_eq_getElem (by omega), hq]
    obtain ⟨k, hk1, hk2⟩ := gaCrossover_spec ((List.range c.par.popl3).map (fun r => c.env.cut g h r p.1.length)) p.1 q.1 (by omega) (by
      intro k hk
      obtain ⟨r, _, rfl⟩ := List.mem_map.1 hk
      rcases Nat.eq_zero_or_pos p.1.length with h0 | h0
      · rw [h0]
        have hx := hc.indLen
        have hxm : c.Xmin.length = 0 := by omega
        exfalso
        exact hc.ne (List.length_eq_zero_iff.1 hxm)
      · exact (hc.env.cut g h r _ h0).le)
    have hlen : (p.1.take k ++ q.1.drop k).length = c.Xmin.length := by
      rw [List.length_append, List.length_take, List.length_drop]
      omega
    obtain ⟨fa, ha1, ha2⟩ := gaFitness_spec hc (t + 2 * h) hlen
    obtain ⟨fb, hb1, hb2⟩ := gaFitness_spec hc (t + 2 * h + 1) hlq
    have hstep : gaCrossStep c g (Q ++ C, t + 2 * h) h =
        .ok (Q ++ C ++ [(p.1.take k ++ q.1.drop k, fa), (q.1, fb)], t + 2 * h + 2) := by
      unfold gaCrossStep
      simp only
      rw [g0, ok_bind, g1, ok_bind, hk2]
      simp only
      rw [ha1, ok_bind, hb1, ok_bind]
      rfl
    rw [hstep, ok_bind]
    refine ⟨C ++ [(p.1.take k ++ q.1.drop k, fa), (q.1, fb)], ?_, by simp [h2]; omega, ?_, ?_⟩
    · rw [← List.append_assoc]; rfl
    · intro e he
      rw [List.mem_append] at he
      rcases he with he | he
      · exact h3 e he
      · simp only [List.mem_cons, List.not_mem_nil, or_false] at he
        rcases he with rfl | rfl
        · exact ⟨hlen, ha2⟩
        · exact ⟨hlq, hb2⟩
    · intro j hj
      rcases Nat.lt_or_eq_of_le (Nat.lt_succ_iff.1 hj) with h5 | h5
      · obtain ⟨p', e1, q', e2, k', f, f', e3, e4, e5⟩ := h4 j h5
        exact ⟨p', e1, q', e2, k', f, f', e3, by rw [List.getElem?_append_left (by omega)]; exact e4,
          by rw [List.getElem?_append_left (by omega)]; exact e5⟩
      · subst h5
        refine ⟨p, hpm, q, hqm, k, fa, fb, by omega, ?_, ?_⟩
        · rw [List.getElem?_append_right (by omega)]
          simp [h2]
        · rw [List.getElem?_append_right (by omega)]
          simp [h2]

theorem gaMut_loop {c : GaCtx} (hc : c.OK) (g : Nat) {Q C : List (List Nat × ℚ)} (hQ : Q.length = c.par.nPop)
    (hQl : ∀ e ∈ Q, e.1.length = c.Xmin.length) (t h : Nat) :
    ∃ M : List (List Nat × ℚ), (List.range h).foldlM (gaMutStep c g) (Q ++ C, t) = .ok (Q ++ (C ++ M), t + h) ∧ M.length = h ∧
      (∀ e ∈ M, e.1.length = c.Xmin.length ∧ GaScored c e.1 e.2 ∧ ∃ p ∈ Q, MutatedBy c.env.pow c.par.maxn c.par.ge c.par.pm g p.1 e.1) := by
  induction h with
  | zero => exact ⟨[], by simp [pure, Except.pure], by simp, by simp⟩
  | succ h ih =>
    obtain ⟨M, h1, h2, h3⟩ := ih
    rw [List.range_succ, List.foldlM_append, h1, ok_bind]
    simp only [List.foldlM_cons, List.foldlM_nil]
    have hp0 := hc.env.pick g (2 * (c.par.nPop / 2) + h)
    obtain ⟨p, hp⟩ : ∃ p, p = Q[c.env.pick g (2 * (c.par.nPop / 2) + h)]'(by omega) := ⟨_, rfl⟩
    have hpm : p ∈ Q := by rw [hp]; exact List.getElem_mem _
    have hlp := hQl p hpm
    have g0 : getRow (Q ++ (C ++ M)) (c.env.pick g (2 * (c.par.nPop / 2) + h)) = .ok p := by
      rw [getRow_ok, List.getElem?_append_left (by omega), List.getElem?_eq_getElem (by omega), hp]
    have hlen : (gaMutation c g h p.1).length = c.Xmin.length := by rw [gaMutation_length, hlp]
    obtain ⟨fa, ha1, ha2⟩ := gaFitness_spec hc (t + h) hlen
    have hstep : gaMutStep c g (Q ++ (C ++ M), t + h) h = .ok (Q ++ (C ++ M) ++ [(gaMutation c g h p.1, fa)], t + h + 1) := by
      unfold gaMutStep
      simp only
      rw [g0, ok_bind, ha1, ok_bind]
      rfl
    rw [hstep, ok_bind]
    refine ⟨M ++ [(gaMutation c g h p.1, fa)], ?_, by simp [h2], ?_⟩
    · rw [← List.append_assoc, ← List.append_assoc, ← List.append_assoc]; rfl
    · intro e he
      rw [List.mem_append] at he
      rcases he with he | he
      · exact h3 e he
      · simp only [List.mem_cons, List.not_mem_nil, or_false] at he
        subst he
        exact ⟨hlen, ha2, p, hpm, gaMutation_spec hc g h p.1⟩

theorem gaKeep_le {par : GaParams} (h : 0 ≤ par.pr ∧ par.pr ≤ 1) : gaKeep par ≤ par.nPop := by
  unfold gaKeep
  have : ⌊(par.nPop : ℚ) * par.pr⌋ ≤ (par.nPop : ℤ) := by
    have h1 : (par.nPop : ℚ) * par.pr ≤ ((par.nPop : ℤ) : ℚ) := by
      have : (0 : ℚ) ≤ par.nPop := by positivity
      push_cast
      nlinarith [h.2]
    exact_mod_cast (Int.floor_le _).trans h1
  omega

/-- One generation of the code is one step of the history. -/
theorem gaGeneration_spec {c : GaCtx} (hc : c.OK) {g : Nat} {E P : List (List Nat × ℚ)}
    (hH : GaHistory c.env.pow c.par (gaKeep c.par) c.Xmin.length g E P) (hP : c.par.nPop ≤ P.length)
    (hl : ∀ e ∈ P, e.1.length = c.Xmin.length) (hE : ∀ e ∈ E, GaScored c e.1 e.2) (t : Nat) :
    ∃ E' P', gaGeneration c (P, t) g = .ok (P', t + 3 * (c.par.nPop / 2)) ∧
      GaHistory c.env.pow c.par (gaKeep c.par) c.Xmin.length (g + 1) E' P' ∧ c.par.nPop ≤ P'.length ∧
      (∀ e ∈ P', e.1.length = c.Xmin.length) ∧ (∀ e ∈ E', GaScored c e.1 e.2) ∧ E'.length = E.length + 3 * (c.par.nPop / 2) := by
  obtain ⟨hs1, hs2⟩ := gaSort_spec P
  have hkeep := gaKeep_le hc.par.pr
  have hsl : (gaSort P).length = P.length := hs1.length_eq
  obtain ⟨Q, hQ⟩ : ∃ Q, Q = (gaSort P).take (gaKeep c.par) ++ (gaSort P).take (c.par.nPop - gaKeep c.par) := ⟨_, rfl⟩
  have hQlen : Q.length = c.par.nPop := by
    rw [hQ, List.length_append, List.length_take, List.length_take]
    omega
  have hQl : ∀ e ∈ Q, e.1.length = c.Xmin.length := by
    intro e he
    rw [hQ, List.mem_append] at he
    exact hl e (hs1.mem_iff.1 (he.elim List.mem_of_mem_take List.mem_of_mem_take))
  obtain ⟨C, c1, c2, c3, c4⟩ := gaCross_loop hc g hQlen hQl t (c.par.nPop / 2)
  obtain ⟨M, m1, m2, m3⟩ := gaMut_loop (C := C) hc g hQlen hQl (t + 2 * (c.par.nPop / 2)) (c.par.nPop / 2)
  refine ⟨E ++ (C ++ M), Q ++ (C ++ M), ?_, ?_, ?_, ?_, ?_, ?_⟩
  · unfold gaGeneration
    simp only
    rw [← hQ, c1, ok_bind, m1]
    congr 2
    omega
  · exact .next hH hs1 hs2 hQ c2 c4 m2 (fun e he => (m3 e he).2.2)
  · rw [List.length_append]; omega
  · intro e he
    rw [List.mem_append, List.mem_append] at he
    rcases he with he | he | he
    · exact hQl e he
    · exact (c3 e he).1
    · exact (m3 e he).1
  · intro e he
    rw [List.mem_append, List.mem_append] at he
    rcases he with he | he | he
    · exact hE e he
    · exact (c3 e he).2
    · exact (m3 e he).2.1
  · rw [List.length_append, List.length_append]; omega

/-- The best of all evaluated so far is in the population. -/
theorem gaHistory_best {pow : ℚ → ℚ → ℚ} {par : GaParams} {keep m g : Nat} {E P : List (List Nat × ℚ)} (hn : 1 ≤ par.nPop)
    (h : GaHistory pow par keep m g E P) : (∀ e ∈ P, e ∈ E) ∧ ∃ e ∈ P, ∀ e' ∈ E, e'.2 ≤ e.2 := by
  have hmax : ∀ L : List (List Nat × ℚ), L ≠ [] → ∃ e ∈ L, ∀ e' ∈ L, e'.2 ≤ e.2 := by
    intro L hL
    obtain ⟨h1, h2⟩ := gaSort_spec L
    cases hs : gaSort L with
    | nil =>
      rw [hs] at h1
      exact absurd h1.symm.eq_nil hL
    | cons x l =>
      rw [hs] at h1 h2
      refine ⟨x, h1.mem_iff.1 (by simp), ?_⟩
      intro e he
      rcases List.mem_cons.1 (h1.mem_iff.2 he) with rfl | h
      · exact le_refl _
      · exact (List.pairwise_cons.1 h2).1 e h
  induction h with
  | start h1 _ => exact ⟨fun e he => he, hmax _ (List.length_pos_iff.1 (by omega))⟩
  | @next g E P R Q C M _ hperm hsort hQ _ _ _ _ ih =>
    obtain ⟨i1, e, i2, i3⟩ := ih
    have hQP : ∀ e ∈ Q, e ∈ P := by
      intro e he
      rw [hQ, List.mem_append] at he
      exact hperm.mem_iff.1 (he.elim List.mem_of_mem_take List.mem_of_mem_take)
    refine ⟨?_, ?_⟩
    · intro e' he'
      rw [List.mem_append] at he' ⊢
      exact he'.imp (fun h => i1 _ (hQP _ h)) id
    · cases hR : R with
      | nil =>
        rw [hR] at hperm
        rw [hperm.symm.eq_nil] at i2
        exact absurd i2 (by simp)
      | cons x l =>
        rw [hR] at hperm hsort hQ
        have hx : x ∈ Q := by
          rw [hQ, List.mem_append]
          rcases Nat.eq_zero_or_pos keep with h0 | h0
          · right
            rw [show par.nPop - keep = (par.nPop - keep - 1) + 1 by omega, List.take_succ_cons]
            simp
          · left
            rw [show keep = (keep - 1) + 1 by omega, List.take_succ_cons]
            simp
        have hxe : e.2 ≤ x.2 := by
          rcases List.mem_cons.1 (hperm.mem_iff.2 i2) with rfl | h
          · exact le_refl _
          · exact (List.pairwise_cons.1 hsort).1 e h
        obtain ⟨z, hz1, hz2⟩ := hmax (Q ++ (C ++ M)) (by
          intro h
          rw [List.append_eq_nil_iff] at h
          rw [h.1] at hx
          simp at hx)
        refine ⟨z, hz1, ?_⟩
        intro e' he'
        rw [List.mem_append] at he'
        rcases he' with h | h
        · exact (i3 e' h).trans (hxe.trans (hz2 x (by simp [hx])))
        · exact hz2 e' (by rw [List.mem_append]; exact Or.inr h)

theorem gaLoop_spec {c : GaCtx} (hc : c.OK) {E : List (List Nat × ℚ)} (hE0 : E.length = c.par.nPop)
    (hE1 : ∀ e ∈ E, e.1.length = c.Xmin.length ∧ ∀ n ∈ e.1, n < c.par.maxn) (hE2 : ∀ e ∈ E, GaScored c e.1 e.2) (t g : Nat) :
    ∃ E' P', (List.range g).foldlM (gaGeneration c) (E, t) = .ok (P', t + g * (3 * (c.par.nPop / 2))) ∧
      GaHistory c.env.pow c.par (gaKeep c.par) c.Xmin.length g E' P' ∧ c.par.nPop ≤ P'.length ∧
      (∀ e ∈ P', e.1.length = c.Xmin.length) ∧ (∀ e ∈ E', GaScored c e.1 e.2) ∧ E'.length = c.par.nPop + g * (3 * (c.par.nPop / 2)) := by
  induction g with
  | zero => exact ⟨E, E, by simp [pure, Except.pure], .start hE0 hE1, by omega, fun e he => (hE1 e he).1, hE2, by omega⟩
  | succ g ih =>
    obtain ⟨E', P', h1, h2, h3, h4, h5, h6⟩ := ih
    obtain ⟨E2, P2, k1, k2, k3, k4, k5, k6⟩ := gaGeneration_spec hc h2 h3 h4 h5 (t + g * (3 * (c.par.nPop / 2)))
    refine ⟨E2, P2, ?_, k2, k3, k4, k5, by rw [k6, h6, Nat.add_mul g 1, Nat.one_mul]; omega⟩
    rw [List.range_succ, List.foldlM_append, h1, ok_bind]
    simp only [List.foldlM_cons, List.foldlM_nil]
    rw [k1, ok_bind, Nat.add_mul g 1, Nat.one_mul, ← Nat.add_assoc]
    rfl

theorem gaSearch_spec {c : GaCtx} (hc : c.OK) :
    ∃ (E P : List (List Nat × ℚ)) (conf : List Nat) (score : ℚ), gaSearch c = .ok (conf, E.length) ∧
      GaHistory c.env.pow c.par (gaKeep c.par) c.Xmin.length c.par.ge E P ∧ (∀ e ∈ E, GaScored c e.1 e.2) ∧
      E.length = c.par.nPop + c.par.ge * (3 * (c.par.nPop / 2)) ∧ (conf, score) ∈ P ∧ (∀ e ∈ E, e.2 ≤ score) ∧ conf.length = c.Xmin.length := by
  have hone : ∀ j ∈ List.range c.par.nPop, ∃ e, (do
      let conf := (List.range c.Xmin.length).map (c.env.init j)
      let f ← gaFitness c j conf
      return (conf, f) : Res (List Nat × ℚ)) = .ok e ∧ (e.1.length = c.Xmin.length ∧ ∀ n ∈ e.1, n < c.par.maxn) ∧ GaScored c e.1 e.2 := by
    intro j _
    obtain ⟨f, h1, h2⟩ := gaFitness_spec hc j (conf := (List.range c.Xmin.length).map (c.env.init j)) (by simp)
    refine ⟨_, by simp only [h1, ok_bind]; rfl, ⟨by simp, ?_⟩, h2⟩
    intro n hn
    obtain ⟨i, _, rfl⟩ := List.mem_map.1 hn
    exact hc.env.init j i
  obtain ⟨E0, hE0⟩ := mapM_exists_ok (fun j hj => let ⟨e, he, _⟩ := hone j hj; ⟨e, he⟩)
  have hmem : ∀ e ∈ E0, (e.1.length = c.Xmin.length ∧ ∀ n ∈ e.1, n < c.par.maxn) ∧ GaScored c e.1 e.2 := by
    intro e he
    obtain ⟨j, hj, h1⟩ := mapM_ok_mem hE0 he
    obtain ⟨e', h2, h3⟩ := hone j hj
    rw [h1] at h2
    injection h2 with h2
    rw [h2]
    exact h3
  have hlen : E0.length = c.par.nPop := by rw [mapM_ok_length hE0]; simp
  obtain ⟨E, P, h1, h2, h3, h4, h5, h6⟩ := gaLoop_spec hc hlen (fun e he => (hmem e he).1) (fun e he => (hmem e he).2) c.par.nPop c.par.ge
  obtain ⟨b1, e, b2, b3⟩ := gaHistory_best hc.par.nPop h2
  obtain ⟨s1, s2⟩ := gaSort_spec P
  unfold gaSearch
  rw [hE0, ok_bind, h1, ok_bind]
  simp only
  cases hs : gaSort P with
  | nil =>
    rw [hs] at s1
    rw [s1.symm.eq_nil] at b2
    simp at b2
  | cons x l =>
    rw [hs] at s1 s2
    have hx : x ∈ P := s1.mem_iff.1 (by simp)
    refine ⟨E, P, x.1, x.2, by rw [h6]; rfl, h2, h5, h6, hx, ?_, h4 x hx⟩
    intro e' he'
    refine (b3 e' he').trans ?_
    rcases List.mem_cons.1 (s1.mem_iff.2 b2) with rfl | h
    · exact le_refl _
    · exact (List.pairwise_cons.1 s2).1 e h

/-! ## The property -/

/-- **GASMOTE.** The result is the input with as many rows around each minority row as the best configuration says: the search evaluates
`nPop + 3 (nPop / 2) ge` configurations, and none of them has a better score than the one returned. -/
theorem C96_gasmote {env : GaEnv} {par : GaParams} {vol : List Row → ℚ} {d : Nat} {X : List Row} {y : List Int} {a b : Int}
    (hwf : WF d X y) (henv : env.OK par) (hpar : par.OK vol) (hmin : IsMinority y a b) (h3 : 2 < y.count a) :
    ∃ (c : GaCtx) (E P : List (List Nat × ℚ)) (conf : List Nat) (score : ℚ) (S : List Row),
      c = ⟨env, par, vol, d, classRows X y a, env.knn (min (par.nNeighbors + 1) (y.count a)) (classRows X y a),
        min (par.nNeighbors + 1) (y.count a), X, y, a, b⟩ ∧
      GaHistory env.pow par ⌊(par.nPop : ℚ) * par.pr⌋.toNat (y.count a) par.ge E P ∧
      E.length = par.nPop + par.ge * (3 * (par.nPop / 2)) ∧ (∀ e ∈ E, GaScored c e.1 e.2) ∧
      (conf, score) ∈ E ∧ (∀ e ∈ E, e.2 ≤ score) ∧ conf.length = y.count a ∧
      SampledBy d (classRows X y a) (env.knn (min (par.nNeighbors + 1) (y.count a)) (classRows X y a)) conf S ∧ S.length = conf.sum ∧
      sample defaultChecks d (gaAlg env par vol d) X y = .ok (X ++ S, y ++ List.replicate conf.sum a) := by
  obtain ⟨s, hs, rfl, rfl⟩ := stats_of_isMinority hmin
  obtain ⟨hm, hM, hab⟩ := stats_min_mem hs
  have hxy := hwf.1
  have hA := classRows_length hxy s.minLabel
  obtain ⟨c, hcdef⟩ : ∃ c : GaCtx, c = ⟨env, par, vol, d, classRows X y s.minLabel,
      env.knn (min (par.nNeighbors + 1) (y.count s.minLabel)) (classRows X y s.minLabel), min (par.nNeighbors + 1) (y.count s.minLabel), X, y,
      s.minLabel, s.majLabel⟩ := ⟨_, rfl⟩
  have hkk := henv.knn (min (par.nNeighbors + 1) (y.count s.minLabel)) (classRows X y s.minLabel) (by omega)
  have hc : c.OK := by
    rw [hcdef]
    exact { env := henv, par := hpar, rows := fun r hr => hwf.2 r (mem_of_mem_classRows hr), indLen := hkk.1, ind := hkk.2,
            k := by show 1 ≤ min (par.nNeighbors + 1) _; omega, len := hxy, two := by
              show 2 ≤ X.length
              have := List.count_le_length (a := s.minLabel) (l := y)
              omega
            memA := hmin.1, memB := hmin.2.1, ne := by
              intro h
              simp only at h
              rw [h] at hA
              simp at hA
              omega }
  obtain ⟨E, P, conf, score, r1, r2, r3, r4, r5, r6, r7⟩ := gaSearch_spec hc
  obtain ⟨S, t1, t2, t3⟩ := gaSamples_spec hc (hc.env.dr E.length) (hc.env.pos E.length) r7
  obtain ⟨b1, _⟩ := gaHistory_best hc.par.nPop r2
  refine ⟨c, E, P, conf, score, S, hcdef, ?_, ?_, r3, b1 _ r5, r6, ?_, ?_, t3, ?_⟩
  · rw [hcdef] at r2
    simp only [hA] at r2
    exact r2
  · rw [hcdef] at r4
    exact r4
  · rw [r7, hcdef]
    exact hA
  · rw [hcdef] at t2
    exact t2
  · rw [sample_default hs, if_neg (by omega)]
    unfold gaAlg
    simp only [selectLabel_eq_classRows]
    rw [hA, ← hcdef, r1, ok_bind]
    have : c.env = env := by rw [hcdef]
    rw [this] at t1
    simp only
    rw [t1, ok_bind, t3]
    rfl

theorem gaHistory_all {pow : ℚ → ℚ → ℚ} {par : GaParams} {keep m g : Nat} {E P : List (List Nat × ℚ)} (good : Nat → Prop)
    (hstart : ∀ n, n < par.maxn → good n) (hmut : ∀ g' n n' : Nat, g' < g → good n → (∃ u : ℚ, 0 ≤ u ∧ u < 1 ∧
      (n' = ⌊(n : ℚ) + ((par.maxn : ℚ) - n) * pow u ((1 - (g' : ℚ) / par.ge) ^ 3)⌋.toNat ∨
       n' = ⌊(n : ℚ) - n * pow u ((1 - (g' : ℚ) / par.ge) ^ 3)⌋.toNat)) → good n')
    (h : GaHistory pow par keep m g E P) : (∀ e ∈ E, ∀ n ∈ e.1, good n) ∧ ∀ e ∈ P, ∀ n ∈ e.1, good n := by
  induction h with
  | start _ h2 => exact ⟨fun e he n hn => hstart n ((h2 e he).2 n hn), fun e he n hn => hstart n ((h2 e he).2 n hn)⟩
  | @next g E P R Q C M _ hperm _ hQ hC1 hC2 _ hM ih =>
    obtain ⟨i1, i2⟩ := ih (fun g' n n' hg => hmut g' n n' (by omega))
    have hq : ∀ e ∈ Q, ∀ n ∈ e.1, good n := by
      intro e he
      rw [hQ, List.mem_append] at he
      exact i2 e (hperm.mem_iff.1 (he.elim List.mem_of_mem_take List.mem_of_mem_take))
    have hk : ∀ e ∈ C ++ M, ∀ n ∈ e.1, good n := by
      intro e he
      rw [List.mem_append] at he
      rcases he with he | he
      · obtain ⟨i, hi, hie⟩ := List.getElem_of_mem he
        obtain ⟨p, hp, q, hq', k, f, f', _, e1, e2⟩ := hC2 (i / 2) (by omega)
        have hor : i = 2 * (i / 2) ∨ i = 2 * (i / 2) + 1 := by omega
        rcases hor with h | h
        · rw [← h, List.getElem?_eq_getElem hi, hie] at e1
          injection e1 with e1
          rw [e1]
          intro n hn
          simp only [List.mem_append] at hn
          exact hn.elim (fun h => hq p hp n (List.mem_of_mem_take h)) (fun h => hq q hq' n (List.mem_of_mem_drop h))
        · rw [← h, List.getElem?_eq_getElem hi, hie] at e2
          injection e2 with e2
          rw [e2]
          exact hq q hq'
      · obtain ⟨p, hp, hmu⟩ := hM e he
        rcases hmu with ⟨_, h⟩ | ⟨_, h⟩
        · rw [h]
          exact hq p hp
        · intro n' hn'
          obtain ⟨n, hn, hu⟩ := forall₂_mem_right h hn'
          exact hmut g n n' (by omega) (hq p hp n hn) hu
    refine ⟨?_, ?_⟩ <;> intro e he <;> rw [List.mem_append] at he
    · exact he.elim (i1 e) (hk e)
    · exact he.elim (hq e) (hk e)

/-- **How many rows.** At most `maxn` rows are generated around each minority row, if powers of numbers in `[0, 1)` with positive exponents are
in `[0, 1]`; less than `maxn` rows if they are below 1. In particular nothing is generated for `maxn = 1` in the second case. -/
theorem C96_numbers {pow : ℚ → ℚ → ℚ} {par : GaParams} {keep m : Nat} {E P : List (List Nat × ℚ)}
    (h : GaHistory pow par keep m par.ge E P) (hpow : ∀ u e : ℚ, 0 ≤ u → u < 1 → 0 < e → 0 ≤ pow u e ∧ pow u e ≤ 1) :
    (∀ e ∈ E, ∀ n ∈ e.1, n ≤ par.maxn) ∧
    ((∀ u e : ℚ, 0 ≤ u → u < 1 → 0 < e → pow u e < 1) → ∀ e ∈ E, ∀ n ∈ e.1, n < par.maxn) := by
  have hex : ∀ g' : Nat, g' < par.ge → (0 : ℚ) < (1 - (g' : ℚ) / par.ge) ^ 3 := by
    intro g' hg
    apply pow_pos
    have h1 : (0 : ℚ) < par.ge := by exact_mod_cast (by omega : 0 < par.ge)
    have h2 : (g' : ℚ) < par.ge := by exact_mod_cast hg
    rw [sub_pos, div_lt_one h1]
    exact h2
  constructor
  · refine (gaHistory_all (fun n => n ≤ par.maxn) (fun n hn => hn.le) ?_ h).1
    rintro g' n n' hg hn ⟨u, h0, h1, hor⟩
    obtain ⟨p0, p1⟩ := hpow u _ h0 h1 (hex g' hg)
    have hnq : (n : ℚ) ≤ par.maxn := by exact_mod_cast hn
    have hn0 : (0 : ℚ) ≤ n := by positivity
    rcases hor with rfl | rfl
    · have : ⌊(n : ℚ) + ((par.maxn : ℚ) - n) * pow u ((1 - (g' : ℚ) / par.ge) ^ 3)⌋ ≤ (par.maxn : ℤ) := by
        have h3 : (n : ℚ) + ((par.maxn : ℚ) - n) * pow u ((1 - (g' : ℚ) / par.ge) ^ 3) ≤ ((par.maxn : ℤ) : ℚ) := by
          push_cast
          nlinarith
        exact_mod_cast (Int.floor_le _).trans h3
      omega
    · have : ⌊(n : ℚ) - n * pow u ((1 - (g' : ℚ) / par.ge) ^ 3)⌋ ≤ (par.maxn : ℤ) := by
        have h3 : (n : ℚ) - n * pow u ((1 - (g' : ℚ) / par.ge) ^ 3) ≤ ((par.maxn : ℤ) : ℚ) := by
          push_cast
          nlinarith
        exact_mod_cast (Int.floor_le _).trans h3
      omega
  · intro hstrict
    refine (gaHistory_all (fun n => n < par.maxn) (fun n hn => hn) ?_ h).1
    rintro g' n n' hg hn ⟨u, h0, h1, hor⟩
    obtain ⟨p0, p1⟩ := hpow u _ h0 h1 (hex g' hg)
    have p2 := hstrict u _ h0 h1 (hex g' hg)
    have hnq : (n : ℚ) < par.maxn := by exact_mod_cast hn
    have hn0 : (0 : ℚ) ≤ n := by positivity
    rcases hor with rfl | rfl
    · have : ⌊(n : ℚ) + ((par.maxn : ℚ) - n) * pow u ((1 - (g' : ℚ) / par.ge) ^ 3)⌋ < (par.maxn : ℤ) := by
        rw [Int.floor_lt]
        push_cast
        nlinarith
      omega
    · have : ⌊(n : ℚ) - n * pow u ((1 - (g' : ℚ) / par.ge) ^ 3)⌋ < (par.maxn : ℤ) := by
        rw [Int.floor_lt]
        push_cast
        nlinarith
      omega

/-- **`maxn = 1`.** The constructor accepts it; then the input is returned, however large the difference of the classes is. -/
theorem C96_nothing {env : GaEnv} {par : GaParams} {vol : List Row → ℚ} {d : Nat} {X : List Row} {y : List Int} {a b : Int}
    (hwf : WF d X y) (henv : env.OK par) (hpar : par.OK vol) (hmin : IsMinority y a b) (h3 : 2 < y.count a) (h1 : par.maxn = 1)
    (hpow : ∀ u e : ℚ, 0 ≤ u → u < 1 → 0 < e → 0 ≤ env.pow u e ∧ env.pow u e < 1) :
    sample defaultChecks d (gaAlg env par vol d) X y = .ok (X, y) := by
  obtain ⟨c, E, P, conf, score, S, _, r1, _, _, r4, _, _, _, r8, r9⟩ := C96_gasmote hwf henv hpar hmin h3
  have hz := (C96_numbers r1 (fun u e a b c => ⟨(hpow u e a b c).1, (hpow u e a b c).2.le⟩)).2 (fun u e a b c => (hpow u e a b c).2) _ r4
  have hsum : conf.sum = 0 := by
    apply List.sum_eq_zero
    intro n hn
    have := hz n hn
    omega
  rw [r9, hsum]
  rw [hsum] at r8
  rw [List.length_eq_zero_iff.1 r8]
  simp

/-! ## Examples -/

/-- The tree labels a row by its first coordinate; the initial numbers are `c`. -/
def gaEnvOf (c : Nat) : GaEnv where
  knn := exKnn
  predict := fun _ _ Xte => .ok (Xte.map (fun r => if r.getD 0 0 < 4 then 1 else 0))
  sqrt := fun x => x
  pow := fun u _ => u
  dr := fun _ _ => exDraws
  init := fun _ _ => c
  pick := fun g t => (g + t) % 2
  cut := fun _ _ r m => r % m
  gate := fun _ _ => 1 / 2
  rand := fun _ _ _ => 1 / 2
  coin := fun _ _ i => i % 2 == 0

def gaParOf (maxn : Nat) : GaParams := ⟨2, ⟨2, .random, .random, .none⟩, maxn, 2, 1, 3 / 10, 1 / 5, 2⟩

theorem gaPar_ok {maxn : Nat} (h : 1 ≤ maxn) : (gaParOf maxn).OK (fun _ => 1) :=
  ⟨h, by show 1 ≤ 2; omega, by unfold gaParOf; norm_num, by show 1 ≤ 2; omega, Or.inl rfl, Or.inl rfl, rfl⟩

theorem gaEnv_ok {c maxn : Nat} (h : c < maxn) : (gaEnvOf c).OK (gaParOf maxn) where
  knn := exKnn_ok
  predict := fun _ _ Xte _ _ => ⟨_, rfl, by simp⟩
  dr := fun _ _ => exDraws_ok
  pos := fun _ _ a b => by show (0 : ℚ) < exDraws.simplexU a b; unfold exDraws; positivity
  init := fun _ _ => h
  pick := fun _ _ => Nat.mod_lt _ (by decide)
  cut := fun _ _ _ _ h => Nat.mod_lt _ h
  gate := fun _ _ => by show (0 : ℚ) ≤ 1 / 2 ∧ (1 : ℚ) / 2 < 1; norm_num
  rand := fun _ _ _ => by show (0 : ℚ) ≤ 1 / 2 ∧ (1 : ℚ) / 2 < 1; norm_num

/-- The hypotheses of `C96_gasmote` hold: two generations of a population of two, one row around each minority row. -/
example : sample defaultChecks 2 (gaAlg (gaEnvOf 1) (gaParOf 3) (fun _ => 1) 2) exX exY =
      .ok (exX ++ [[0, 2 / 5], [3 / 5, 0], [2 / 5, 3 / 5]], exY ++ [1, 1, 1]) ∧
    (WF 2 exX exY ∧ (gaEnvOf 1).OK (gaParOf 3) ∧ (gaParOf 3).OK (fun _ => 1) ∧ IsMinority exY 1 0 ∧ 2 < exY.count 1) :=
  ⟨by decide +kernel, by decide, gaEnv_ok (by decide), gaPar_ok (by decide), exY_min, by decide⟩

/-- `C96_nothing` applies to `maxn = 1`. -/
example : sample defaultChecks 2 (gaAlg (gaEnvOf 0) (gaParOf 1) (fun _ => 1) 2) exX exY = .ok (exX, exY) :=
  C96_nothing (b := 0) (by decide) (gaEnv_ok (by decide)) (gaPar_ok (by decide)) exY_min (by decide) rfl (fun _ _ h0 h1 _ => ⟨h0, h1⟩)

/-- **The balance is not looked at.** Three minority and five majority rows become 21 minority and five majority rows. -/
theorem C96_overshoot : ∃ (env : GaEnv) (par : GaParams) (X' : List Row) (y' : List Int), env.OK par ∧ par.OK (fun _ => 1) ∧
    sample defaultChecks 2 (gaAlg env par (fun _ => 1) 2) exX exY = .ok (X', y') ∧ y'.count 1 = 21 ∧ y'.count 0 = 5 := by
  obtain ⟨X', y', h1, h2, h3⟩ : ∃ X' y', sample defaultChecks 2 (gaAlg (gaEnvOf 6) (gaParOf 7) (fun _ => 1) 2) exX exY = .ok (X', y') ∧
      y'.count 1 = 21 ∧ y'.count 0 = 5 :=
    ⟨exX ++ (List.replicate 6 [0, 2 / 5] ++ List.replicate 6 [3 / 5, 0] ++ List.replicate 6 [2 / 5, 3 / 5]), exY ++ List.replicate 18 1,
      by decide +kernel, by decide, by decide⟩
  exact ⟨_, _, X', y', gaEnv_ok (by decide), gaPar_ok (by decide), h1, h2, h3⟩

end Verif
