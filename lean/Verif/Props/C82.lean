import Verif.Model.Mot2ld
import Verif.Lemmas.Noise
import Verif.Props.C58
import Verif.Props.C63
import Verif.Props.C80

/-!
# C82: MOT2LD deletes the wrong rows

The positions of the noisy rows among the minority rows are deleted from the whole data set. `C82_mot` says what is returned,
`C82_wrong_rows` is a data set where a majority row is deleted and the noisy minority row stays, `C82_minority_first` says that the right
rows are deleted when the minority rows come first.
-/

namespace Verif

/-! ## Specification -/

/-- The contracts of the external calls. -/
structure MotEnv.OK (env : MotEnv) : Prop where
  tsne : ∀ X, (env.tsne X).length = X.length
  query : KnnQueryOK env.query
  radius : ∀ r X x, x ∈ X → 1 ≤ env.radius r X x
  peaks : ∀ l, ∀ i ∈ env.peaks l, i < l.length
  order : ∀ l, (env.setOrder l).Perm l

/-- The radius: the parameter, or the largest distance to the second row listed. -/
def motRadius (env : MotEnv) (dCut : Option ℚ) (T A : List Row) (indices : List (List Nat)) : ℚ :=
  match dCut with
  | some r => r
  | none => maxL ((A.zip indices).map (fun p => env.dist p.1 (T.getD (p.2.getD 1 0) [])))

/-- The number of rows within the radius of minority row `i`, in the embedding `T`. -/
def motRho (env : MotEnv) (par : MotParams) (T A : List Row) (i : Nat) : Nat :=
  env.radius (motRadius env par.dCut T A (env.query (min A.length (par.k + 1)) T A)) T (A.getD i [])

/-- The number of minority rows among the neighbours of minority row `i`, in the embedding. -/
def motCount (env : MotEnv) (par : MotParams) (a : Int) (T : List Row) (y : List Int) (A : List Row) (i : Nat) : Nat :=
  ((((env.query (min A.length (par.k + 1)) T A).getD i []).drop 1).map (fun j => y.getD j 0)).count a

/-- Minority row `i` is noise: alone within the radius, or without a minority row among its neighbours. -/
def MotNoisy (env : MotEnv) (par : MotParams) (a : Int) (T : List Row) (y : List Int) (A : List Row) (i : Nat) : Prop :=
  motRho env par T A i = 1 ∨ motCount env par a T y A i = 0

instance (env : MotEnv) (par : MotParams) (a : Int) (T : List Row) (y : List Int) (A : List Row) (i : Nat) :
    Decidable (MotNoisy env par a T y A i) := by unfold MotNoisy; infer_instance

/-- The weight of a minority row: none for noise, otherwise the number of minority neighbours over the number of rows within the radius. -/
def motWeight (env : MotEnv) (par : MotParams) (a : Int) (T : List Row) (y : List Int) (A : List Row) (i : Nat) : ℚ :=
  if MotNoisy env par a T y A i then 0 else (motCount env par a T y A i : ℚ) / (motRho env par T A i : ℚ)

/-- `R` consists of the entries of `X` at the positions which are not listed in `del`, in order. -/
def DeletedAt {α : Type} (del : List Nat) (X R : List α) : Prop :=
  ∃ pos : List Nat, pos.Pairwise (· < ·) ∧ (∀ i, i ∈ pos ↔ i < X.length ∧ i ∉ del) ∧ List.Forall₂ (fun i r => X[i]? = some r) pos R

theorem npDelete_deletedAt {α : Type} (X : List α) (del : List Nat) : DeletedAt del X (npDelete X del) :=
  ⟨kept X.length del, List.Pairwise.filter _ List.pairwise_lt_range, fun _ => mem_kept, npDelete_forall X del⟩

/-! ## The samples -/

theorem motSamples_spec {ss : SSParams} {vol : List Row → ℚ} {cu : Nat → ℚ} {drs : Nat → Draws} {d n : Nat} {A : List Row}
    {clusters : List (List Nat)} {prob : List ℚ} (hA : ∀ r ∈ A, r.length = d) (hn : 0 < n)
    (hcl : ∀ c ∈ clusters, ∀ i ∈ c, i < A.length ∧ 0 < prob.getD i 0) (hne : ∃ c ∈ clusters, c ≠ [])
    (hcu : ∀ i, 0 ≤ cu i ∧ cu i < 1) (hdr : ∀ i, (drs i).OK) (hu : ∀ t i j, 0 < (drs t).simplexU i j) (hg : ss.gaussian = .none)
    (hvol : ∀ vs, 0 ≤ vol vs) (hd : 1 ≤ ss.nDim) (hwi : ss.within = .random ∨ (ss.within = .deterministic ∧ ss.nDim ≤ 2)) :
    ∃ sel out, motSamples ss vol cu drs d n A clusters prob = .ok out ∧ out.length = n ∧
      DrawnByShares (shares (clusters.map (fun c => (c.map (fun i => prob.getD i 0)).sum))) cu n sel ∧
      ByCluster clusters.length sel (fun c => ClusterSimplex d (min ss.nDim (clusters.getD c []).length)
        ((clusters.getD c []).map (fun i => A.getD i [])) (fun _ => True)) out := by
  set ws := clusters.map (fun c => (c.map (fun i => prob.getD i 0)).sum) with hws
  have hsum : ∀ c ∈ clusters, c ≠ [] → 0 < (c.map (fun i => prob.getD i 0)).sum := by
    intro c hc hne
    apply sum_pos_of_all (by simpa using hne)
    intro x hx
    obtain ⟨i, hi, rfl⟩ := List.mem_map.1 hx
    exact (hcl c hc i hi).2
  have h0 : ∀ x ∈ ws, 0 ≤ x := by
    intro x hx
    obtain ⟨c, hc, rfl⟩ := List.mem_map.1 hx
    apply List.sum_nonneg
    intro z hz
    obtain ⟨i, hi, rfl⟩ := List.mem_map.1 hz
    exact (hcl c hc i hi).2.le
  have hpos : 0 < ws.sum := by
    obtain ⟨c, hc, hcne⟩ := hne
    exact lt_of_lt_of_le (hsum c hc hcne) (List.single_le_sum h0 _ (List.mem_map_of_mem hc))
  have hsh : shares ws = ws.map (fun q => q / ws.sum) := by unfold shares; rw [if_neg hpos.ne']
  have hnorm : normalize ws = .ok (shares ws) := by unfold normalize; rw [if_neg hpos.ne', hsh]
  have hsl : (shares ws).length = clusters.length := by rw [hsh, List.length_map, hws, List.length_map]
  obtain ⟨sel, hsel, hl, hmem⟩ := npChoice_ok (n := n) (p := shares ws) rfl (by
      intro x hx
      rw [hsh] at hx
      obtain ⟨q, hq, rfl⟩ := List.mem_map.1 hx
      exact div_nonneg (h0 q hq) hpos.le) (by rw [hsh, sum_map_div, div_self hpos.ne']) hcu
  have hselc : ∀ c ∈ sel, c < clusters.length ∧ clusters.getD c [] ∈ clusters ∧ clusters.getD c [] ≠ [] := by
    intro c hc
    obtain ⟨x, hx, hxpos⟩ := hmem c hc
    have hlt : c < clusters.length := by rw [← hsl]; exact (List.getElem?_eq_some_iff.1 hx).1
    have e : clusters.getD c [] = clusters[c] := by rw [List.getD_eq_getElem?_getD, List.getElem?_eq_getElem hlt]; rfl
    refine ⟨hlt, by rw [e]; exact List.getElem_mem hlt, ?_⟩
    intro h
    rw [hsh, List.getElem?_map, hws, List.getElem?_map, List.getElem?_eq_getElem hlt, ← e, h] at hx
    simp at hx
    rw [← hx] at hxpos
    exact lt_irrefl _ hxpos
  have htask : ∀ c ∈ sel, ∃ within, normalize ((clusters.getD c []).map (fun i => prob.getD i 0)) = .ok within ∧
      within.length = (clusters.getD c []).length ∧ (∀ x ∈ within, 0 ≤ x) ∧ within.sum = 1 ∧
      (do
        let cl ← getRow clusters c
        let rows ← takeRows A cl
        let within ← normalize (cl.map (fun i => prob.getD i 0))
        return ({ rows := rows, indices := circulant rows.length, k := rows.length, args := { baseWeights := some within } } : ClusterTask)) =
        .ok { rows := (clusters.getD c []).map (fun i => A.getD i []), indices := circulant (clusters.getD c []).length,
              k := (clusters.getD c []).length, args := { baseWeights := some within } } := by
    intro c hc
    obtain ⟨hlt, hcm, hcne⟩ := hselc c hc
    obtain ⟨w, h1, h2, h3, h4⟩ := normalize_ok (w := (clusters.getD c []).map (fun i => prob.getD i 0)) (by
      intro z hz
      obtain ⟨i, hi, rfl⟩ := List.mem_map.1 hz
      exact (hcl _ hcm i hi).2.le) (hsum _ hcm hcne)
    refine ⟨w, h1, by rw [h2, List.length_map], h3, h4, ?_⟩
    have e : clusters[c]? = some (clusters.getD c []) := by rw [List.getD_eq_getElem?_getD, List.getElem?_eq_getElem hlt]; rfl
    rw [getRow_ok.2 e, ok_bind, takeRows_map_getD [] (fun i hi => (hcl _ hcm i hi).1), ok_bind, h1, ok_bind, List.length_map]
    rfl
  obtain ⟨out, hout⟩ := sampleInClusters_ok (ss := ss) (vol := vol) (drs := drs) (d := d) (sel := sel)
    (task := fun c => do
      let cl ← getRow clusters c
      let rows ← takeRows A cl
      let within ← normalize (cl.map (fun i => prob.getD i 0))
      return { rows := rows, indices := circulant rows.length, k := rows.length, args := { baseWeights := some within } })
    (by intro h; rw [h, List.length_nil] at hl; omega) (by
      intro c i hc
      obtain ⟨w, _, w1, w2, w3, w4⟩ := htask c hc
      obtain ⟨_, _, hcne⟩ := hselc c hc
      have hlp := List.length_pos_iff.2 hcne
      refine ⟨_, w4, ?_⟩
      refine sampleSimplex_ok (by dsimp only; simpa using circulant_tableOK _) (by rw [circulant_length, List.length_map])
        (by intro he; have := circulant_length (clusters.getD c []).length; dsimp only at he; rw [he, List.length_nil] at this; omega)
        hlp hd rfl (by intro ws hws; cases hws) (by intro hV; cases hV)
        ⟨by rw [circulant_length, w1], w2, by rw [w3]; norm_num⟩ (hdr i).choice (hu i) (by
          rcases hwi with h | ⟨h, h'⟩
          · exact .inl h
          · exact .inr ⟨h, by omega⟩))
  have hby := sampleInClusters_sound (m := clusters.length) (P := fun c => ClusterSimplex d (min ss.nDim (clusters.getD c []).length)
        ((clusters.getD c []).map (fun i => A.getD i [])) (fun _ => True)) (fun c hc => (hselc c hc).1) (by
      intro c t i o hc ht ho
      obtain ⟨w, _, w1, w2, w3, w4⟩ := htask c hc
      obtain ⟨_, hcm, hcne⟩ := hselc c hc
      rw [w4] at ht
      injection ht with ht
      subst ht
      dsimp only at ho
      have hci : circulant (clusters.getD c []).length = circulant ((clusters.getD c []).map (fun i => A.getD i [])).length := by
        rw [List.length_map]
      obtain ⟨g1, g2⟩ := sampleSimplex_simplexOf (by
          intro r hr
          obtain ⟨j, hj, rfl⟩ := List.mem_map.1 hr
          have hj' := (hcl _ hcm j hj).1
          rw [List.getD_eq_getElem?_getD, List.getElem?_eq_getElem hj']
          exact hA _ (List.getElem_mem hj')) (by intro V hV; cases hV) rfl
        (by intro hV; cases hV) (hdr i) (by rw [circulant_length, List.length_map]) hg
        (by
          intro w' hw'
          injection hw' with hw'
          subst hw'
          rw [circulant_length, w1]
          exact ⟨rfl, w2⟩) rfl hvol ho
      refine ⟨g1, fun x hx => ?_⟩
      have := g2 x hx
      rw [hci] at this
      obtain ⟨bb, base, nbIdx, nbrs, w', e1, _, e3⟩ := this.circulant
      exact ⟨bb, base, nbIdx, nbrs, w', e1, trivial, e3⟩) hout
  have hlen := ByCluster.length hby (fun c hc => (hselc c hc).1)
  refine ⟨sel, out, ?_, by rw [hlen, hl], npChoice_drawn hcu hsel, hby⟩
  unfold motSamples
  rw [← hws, hnorm, ok_bind, hsel, ok_bind]
  exact hout

/-! ## The clustering -/

theorem le_foldr_max {l : List Nat} {v : Nat} (h : v ∈ l) : v ≤ l.foldr max 0 := by
  induction l with
  | nil => simp at h
  | cons x l ih =>
    rw [List.foldr_cons]
    rcases List.mem_cons.1 h with rfl | h
    · exact le_max_left _ _
    · exact (ih h).trans (le_max_right _ _)

theorem motCut_spec {env : MotEnv} {dCut : Option ℚ} {T A : List Row} {indices : List (List Nat)} {k : Nat}
    (ht : TableOK indices k T.length) (hk : 2 ≤ k) : motCut env dCut T A indices = .ok (motRadius env dCut T A indices) := by
  unfold motCut motRadius
  cases dCut with
  | some r => rfl
  | none =>
    dsimp only
    rw [mapM_ok_of (g := fun p : Row × List Nat => env.dist p.1 (T.getD (p.2.getD 1 0) [])) ?_, ok_bind]
    · rfl
    · intro p hp
      obtain ⟨h1, h2⟩ := ht p.2 (List.of_mem_zip hp).2
      have hl : 1 < p.2.length := by omega
      have hj := h2 _ (List.getElem_mem hl)
      rw [getRow_ok.2 (List.getElem?_eq_getElem hl), ok_bind, getRow_ok.2 (List.getElem?_eq_getElem hj), ok_bind,
        List.getD_eq_getElem?_getD (l := p.2), List.getElem?_eq_getElem hl, List.getD_eq_getElem?_getD, Option.getD_some,
        List.getElem?_eq_getElem hj]
      rfl

theorem motDelta_ok {rho : List Nat} {indMin : List (List Nat)} {distMin : List (List ℚ)} {k : Nat}
    (ht : TableOK indMin k rho.length) (hl : indMin.length = rho.length) (hd : distMin.length = rho.length)
    (hdd : ∀ r ∈ distMin, r.length = k) : ∃ delta, motDelta rho indMin distMin = .ok delta ∧ delta.length = rho.length := by
  obtain ⟨delta, h⟩ := mapM_exists_ok (l := rho.zipIdx) (f := fun p : Nat × Nat => do
    let row ← getRow indMin p.2
    let dens ← row.mapM (getRow rho)
    match dens.findIdx? (fun v => decide (p.1 < v)) with
    | some q => do
      let ds ← getRow distMin p.2
      getRow ds q
    | none => return maxL distMin.flatten) (by
      intro p hp
      have hp2 : p.2 < rho.length := by
        have := List.mem_zipIdx_iff_getElem?.1 hp
        exact (List.getElem?_eq_some_iff.1 this).1
      obtain ⟨t1, t2⟩ := ht indMin[p.2] (List.getElem_mem (by omega))
      rw [getRow_ok.2 (List.getElem?_eq_getElem (by omega : p.2 < indMin.length)), ok_bind]
      obtain ⟨dens, hdens⟩ := takeRows_ok_of_lt (X := rho) (idx := indMin[p.2]) t2
      have hdl := takeRows_length hdens
      unfold takeRows at hdens
      rw [hdens, ok_bind]
      cases hf : dens.findIdx? (fun v => decide (p.1 < v)) with
      | none => exact ⟨_, rfl⟩
      | some q =>
        dsimp only
        have hq : q < dens.length := (List.findIdx?_eq_some_iff_getElem.1 hf).1
        have hdr := hdd distMin[p.2] (List.getElem_mem (by omega))
        rw [getRow_ok.2 (List.getElem?_eq_getElem (by omega : p.2 < distMin.length)), ok_bind]
        exact ⟨_, getRow_ok.2 (List.getElem?_eq_getElem (by omega))⟩)
  exact ⟨delta, h, by rw [mapM_ok_length h, List.length_zipIdx]⟩

theorem motCentres_spec {env : MotEnv} {A : List Row} {rho : List Nat} {delta : List ℚ} (hp : ∀ l, ∀ i ∈ env.peaks l, i < l.length)
    (hr : rho.length = A.length) (hd : delta.length = A.length) (h3 : 3 ≤ A.length) :
    ∃ ds, ds.length = A.length ∧ ((env.peaks ds = [] ∧ motCentres env A rho delta = .error .valueError) ∨
      (env.peaks ds ≠ [] ∧ ∃ centres, motCentres env A rho delta = .ok centres ∧ 1 ≤ centres.length)) := by
  have hperm := List.perm_insertionSort (fun i j => rho.getD i 0 ≤ rho.getD j 0) (List.range rho.length)
  set idx := (List.range rho.length).insertionSort (fun i j => rho.getD i 0 ≤ rho.getD j 0) with hidx
  have hlt : ∀ i ∈ idx, i < A.length := fun i hi => by rw [← hr]; exact List.mem_range.1 (hperm.subset hi)
  have hil : idx.length = A.length := by rw [hperm.length_eq, List.length_range, hr]
  obtain ⟨ds, hds⟩ := takeRows_ok_of_lt (X := delta) (idx := idx) (fun i hi => by rw [hd]; exact hlt i hi)
  have hdl : ds.length = A.length := by rw [takeRows_length hds, hil]
  refine ⟨ds, hdl, ?_⟩
  unfold motCentres
  dsimp only
  rw [← hidx, hds, ok_bind, if_neg (by omega)]
  by_cases hpk : env.peaks ds = []
  · left
    refine ⟨hpk, ?_⟩
    rw [hpk]
    rfl
  · right
    refine ⟨hpk, ?_⟩
    have hpl := List.length_pos_iff.2 hpk
    obtain ⟨at', ha⟩ := takeRows_ok_of_lt (X := idx) (idx := env.peaks ds) (fun i hi => by rw [hil, ← hdl]; exact hp ds i hi)
    obtain ⟨cs, hc⟩ := takeRows_ok_of_lt (X := A) (idx := at') (fun i hi => hlt i (takeRows_mem ha hi))
    refine ⟨cs, ?_, by rw [takeRows_length hc, takeRows_length ha]; omega⟩
    rw [if_neg (by omega), ha]
    exact hc

theorem getD_map_range {β : Type} {n i : Nat} (h : i < n) (f : Nat → β) (dflt : β) : ((List.range n).map f).getD i dflt = f i := by
  rw [List.getD_eq_getElem?_getD, List.getElem?_map, List.getElem?_range h]; rfl

/-- What the clustering computes. -/
theorem motClustering_spec {env : MotEnv} (he : env.OK) {par : MotParams} {a : Int} {T : List Row} {y : List Int} (hT : T.length = y.length)
    (h3 : 3 ≤ (classRows T y a).length) (hk : 1 ≤ par.k) :
    ∃ ds : List ℚ, ds.length = (classRows T y a).length ∧
      if env.peaks ds = [] ∨ ∀ i, i < (classRows T y a).length → MotNoisy env par a T y (classRows T y a) i then
        motClustering env par.k par.dCut a T y (classRows T y a) = .error .valueError
      else ∃ (clusters : List (List Nat)) (labels : List Nat) (prob : List ℚ) (noise : List Nat) (S : ℚ),
        motClustering env par.k par.dCut a T y (classRows T y a) = .ok (clusters, prob, noise) ∧
        (∀ i, i ∈ noise ↔ i < (classRows T y a).length ∧ MotNoisy env par a T y (classRows T y a) i) ∧
        0 < S ∧ (∀ i, i < (classRows T y a).length → prob.getD i 0 = motWeight env par a T y (classRows T y a) i / S) ∧
        (∀ c ∈ clusters, c.Nodup) ∧
        (∀ i, i < (classRows T y a).length → labels.getD i 0 < clusters.length) ∧
        (∀ c i, c < clusters.length → (i ∈ clusters.getD c [] ↔ i < (classRows T y a).length ∧ labels.getD i 0 = c ∧
          ¬ MotNoisy env par a T y (classRows T y a) i)) := by
  set A := classRows T y a with hA
  have hmemA : ∀ r ∈ A, r ∈ T := fun r hr => mem_of_mem_classRows hr
  have hAT : A.length ≤ T.length := by
    rw [hA, classRows_length hT, hT]; exact List.count_le_length
  obtain ⟨i1, i2⟩ := he.query (min A.length (par.k + 1)) T A (by omega)
  obtain ⟨m1, m2⟩ := he.query A.length A A le_rfl
  set indices := env.query (min A.length (par.k + 1)) T A with hind
  set indMin := env.query A.length A A with him
  have hcut := motCut_spec (env := env) (dCut := par.dCut) (A := A) i2 (by omega)
  set cut := motRadius env par.dCut T A indices with hcutd
  set rho := A.map (env.radius cut T) with hrho
  have hrl : rho.length = A.length := List.length_map _
  have hrg : ∀ i, i < A.length → rho.getD i 0 = motRho env par T A i := by
    intro i hi
    unfold motRho
    rw [← hind, ← hcutd, List.getD_eq_getElem?_getD, hrho, List.getElem?_map, List.getElem?_eq_getElem hi, List.getD_eq_getElem?_getD,
      List.getElem?_eq_getElem hi]
    rfl
  set distMin := (A.zip indMin).map (fun p => p.2.map (fun j => env.dist p.1 (A.getD j []))) with hdm
  obtain ⟨delta, d1, d2⟩ := motDelta_ok (rho := rho) (indMin := indMin) (distMin := distMin) (k := A.length) (by rw [hrl]; exact m2)
    (by omega) (by rw [hdm, List.length_map, List.length_zip]; omega) (by
      intro r hr
      obtain ⟨p, hp, rfl⟩ := List.mem_map.1 hr
      rw [List.length_map]
      exact (m2 p.2 (List.of_mem_zip hp).2).1)
  obtain ⟨ds, hdsl, hcen⟩ := motCentres_spec (env := env) (A := A) he.peaks hrl (by omega : delta.length = A.length) h3
  refine ⟨ds, hdsl, ?_⟩
  set cnt := indices.map (fun row => ((row.drop 1).map (fun j => y.getD j 0)).count a) with hcnt
  have hcntl : cnt.length = A.length := by rw [hcnt, List.length_map, i1]
  have hcntm : indices.mapM (fun row => do
      let ls ← takeRows y (row.drop 1)
      return ls.count a) = .ok cnt := by
    apply mapM_ok_of
    intro row hrow
    rw [takeRows_map_getD 0 (fun j hj => by rw [← hT]; exact (i2 row hrow).2 j (List.mem_of_mem_drop hj)), ok_bind]
    rfl
  have hcg : ∀ i, i < A.length → cnt.getD i 0 = motCount env par a T y A i := by
    intro i hi
    unfold motCount
    have hi' : i < indices.length := by omega
    rw [← hind, List.getD_eq_getElem?_getD, hcnt, List.getElem?_map, List.getElem?_eq_getElem hi', List.getD_eq_getElem?_getD,
      List.getElem?_eq_getElem hi']
    rfl
  set noise := (List.range A.length).filter (fun i => decide (rho.getD i 0 = 1 ∨ cnt.getD i 0 = 0)) with hnoise
  have hnm : ∀ i, i ∈ noise ↔ i < A.length ∧ MotNoisy env par a T y A i := by
    intro i
    rw [hnoise, List.mem_filter, List.mem_range, decide_eq_true_eq]
    constructor
    · rintro ⟨h1, h2⟩; rw [hrg i h1, hcg i h1] at h2; exact ⟨h1, h2⟩
    · rintro ⟨h1, h2⟩; rw [hrg i h1, hcg i h1]; exact ⟨h1, h2⟩
  set W := (List.range A.length).map (fun i => if i ∈ noise then (0 : ℚ) else (cnt.getD i 0 : ℚ) / (rho.getD i 0 : ℚ)) with hW
  have hWg : ∀ i, i < A.length → (if i ∈ noise then (0 : ℚ) else (cnt.getD i 0 : ℚ) / (rho.getD i 0 : ℚ)) = motWeight env par a T y A i := by
    intro i hi
    unfold motWeight
    rw [hrg i hi, hcg i hi]
    by_cases h : MotNoisy env par a T y A i
    · rw [if_pos h, if_pos ((hnm i).2 ⟨hi, h⟩)]
    · rw [if_neg h, if_neg (fun h' => h ((hnm i).1 h').2)]
  have hrpos : ∀ i, i < A.length → 1 ≤ motRho env par T A i := by
    intro i hi
    unfold motRho
    apply he.radius
    rw [List.getD_eq_getElem?_getD, List.getElem?_eq_getElem hi]
    exact hmemA _ (List.getElem_mem hi)
  have hwpos : ∀ i, i < A.length → ¬ MotNoisy env par a T y A i → 0 < motWeight env par a T y A i := by
    intro i hi h
    unfold motWeight
    rw [if_neg h]
    have h1 := hrpos i hi
    have h2 : 0 < motCount env par a T y A i := Nat.pos_of_ne_zero (fun h' => h (Or.inr h'))
    have h1' : (0 : ℚ) < (motRho env par T A i : ℚ) := by exact_mod_cast h1
    have h2' : (0 : ℚ) < (motCount env par a T y A i : ℚ) := by exact_mod_cast h2
    exact div_pos h2' h1'
  have hw0 : ∀ i, MotNoisy env par a T y A i → motWeight env par a T y A i = 0 := by
    intro i h; unfold motWeight; rw [if_pos h]
  have hW0 : ∀ x ∈ W, 0 ≤ x := by
    intro x hx
    obtain ⟨i, hi, rfl⟩ := List.mem_map.1 hx
    rw [List.mem_range] at hi
    show 0 ≤ if i ∈ noise then (0 : ℚ) else (cnt.getD i 0 : ℚ) / (rho.getD i 0 : ℚ)
    rw [hWg i hi]
    by_cases h : MotNoisy env par a T y A i
    · rw [hw0 i h]
    · exact (hwpos i hi h).le
  unfold motClustering
  dsimp only
  rw [← hind, ← him, hcut, ok_bind, ← hrho, ← hdm, d1, ok_bind]
  rcases hcen with ⟨hpk, hcen⟩ | ⟨hpk, centres, hcen, hcl⟩
  · rw [if_pos (Or.inl hpk), hcen]
    rfl
  rw [hcen, ok_bind, hcntm, ok_bind, ← hnoise]
  obtain ⟨l1, l2⟩ := he.query 1 centres A hcl
  set labels := (env.query 1 centres A).map (fun row => row.getD 0 0) with hlab
  have hlabm : (env.query 1 centres A).mapM (fun row => getRow row 0) = .ok labels := by
    apply mapM_ok_of
    intro row hrow
    have := (l2 row hrow).1
    rw [getRow_ok, List.getD_eq_getElem?_getD, List.getElem?_eq_getElem (by omega)]
    rfl
  have hlabl : labels.length = A.length := by rw [hlab, List.length_map, l1]
  rw [hlabm, ok_bind, ← hW]
  by_cases hall : ∀ i, i < A.length → MotNoisy env par a T y A i
  · rw [if_pos (Or.inr hall), if_pos]
    · rfl
    · apply List.sum_eq_zero
      intro x hx
      obtain ⟨i, hi, rfl⟩ := List.mem_map.1 hx
      rw [List.mem_range] at hi
      show (if i ∈ noise then (0 : ℚ) else (cnt.getD i 0 : ℚ) / (rho.getD i 0 : ℚ)) = 0
      rw [if_pos ((hnm i).2 ⟨hi, hall i hi⟩)]
  rw [if_neg (by rintro (h | h); exacts [hpk h, hall h])]
  push Not at hall
  obtain ⟨i0, hi0, hn0⟩ := hall
  have hS : 0 < W.sum := by
    refine lt_of_lt_of_le (hwpos i0 hi0 hn0) (List.single_le_sum hW0 _ ?_)
    rw [← hWg i0 hi0]
    exact List.mem_map.2 ⟨i0, List.mem_range.2 hi0, rfl⟩
  rw [if_neg hS.ne']
  set clusters := (List.range (labels.foldr max 0 + 1)).map (fun c =>
    env.setOrder ((List.range A.length).filter (fun i => decide (labels.getD i 0 = c ∧ i ∉ noise)))) with hclu
  have hclen : clusters.length = labels.foldr max 0 + 1 := by rw [hclu, List.length_map, List.length_range]
  have hlablt : ∀ i, i < A.length → labels.getD i 0 < clusters.length := by
    intro i hi
    rw [hclen, List.getD_eq_getElem?_getD, List.getElem?_eq_getElem (by omega)]
    have := le_foldr_max (List.getElem_mem (by omega : i < labels.length))
    simp only [Option.getD_some]
    omega
  have hclg : ∀ c i, c < clusters.length → (i ∈ clusters.getD c [] ↔ i < A.length ∧ labels.getD i 0 = c ∧ ¬ MotNoisy env par a T y A i) := by
    intro c i hc
    rw [hclu, getD_map_range (by rw [← hclen]; exact hc), (he.order _).mem_iff, List.mem_filter, List.mem_range, decide_eq_true_eq, hnm]
    constructor
    · rintro ⟨h1, h2, h3⟩; exact ⟨h1, h2, fun h => h3 ⟨h1, h⟩⟩
    · rintro ⟨h1, h2, h3⟩; exact ⟨h1, h2, fun h => h3 h.2⟩
  have hi0c := (hclg _ i0 (hlablt i0 hi0)).2 ⟨hi0, rfl, hn0⟩
  have hnall : ¬ (clusters.all (fun c => decide (c.length = 0)) = true) := by
    intro h
    rw [List.all_eq_true] at h
    have hlt := hlablt i0 hi0
    have := h (clusters.getD (labels.getD i0 0) []) (by
      rw [List.getD_eq_getElem?_getD (l := clusters), List.getElem?_eq_getElem hlt]
      exact List.getElem_mem hlt)
    rw [decide_eq_true_eq, List.length_eq_zero_iff] at this
    rw [this] at hi0c
    simp at hi0c
  rw [if_neg hnall]
  set P1 := W.map (fun q => q / W.sum) with hP1
  have hP1g : ∀ i, i < A.length → P1.getD i 0 = motWeight env par a T y A i / W.sum := by
    intro i hi
    rw [hP1, List.getD_eq_getElem?_getD, List.getElem?_map, hW, List.getElem?_map, List.getElem?_range hi]
    simp only [Option.map_some, Option.getD_some]
    rw [hWg i hi]
  have hP2 : (List.range A.length).map (fun i => if (clusters.getD (labels.getD i 0) []).length = 0 then 0 else P1.getD i 0) = P1 := by
    apply List.ext_getElem
    · simp [hP1, hW]
    · intro i h1 h2
      have hi : i < A.length := by simpa using h1
      have hg : P1[i] = P1.getD i 0 := by rw [List.getD_eq_getElem?_getD, List.getElem?_eq_getElem h2]; rfl
      rw [List.getElem_map, List.getElem_range, hg]
      split
      · rename_i h
        rw [hP1g i hi, hw0 i, zero_div]
        by_contra hn
        have := (hclg _ i (hlablt i hi)).2 ⟨hi, rfl, hn⟩
        rw [List.length_eq_zero_iff.1 h] at this
        simp at this
      · rfl
  have hP1s : P1.sum = 1 := by rw [hP1, sum_map_div, div_self hS.ne']
  rw [hP2, hP1s]
  refine ⟨clusters, labels, P1.map (fun q => q / 1), noise, W.sum, rfl, hnm, hS, ?_, ?_, hlablt, hclg⟩
  · intro i hi
    simp only [div_one, List.map_id']
    exact hP1g i hi
  · intro c hc
    obtain ⟨c', _, rfl⟩ := List.mem_map.1 hc
    exact (he.order _).nodup_iff.2 (List.nodup_range.filter _)

theorem shares_div {l : List ℚ} {S : ℚ} (hS : S ≠ 0) : shares (l.map (fun q => q / S)) = shares l := by
  unfold shares
  rw [sum_map_div, List.length_map]
  by_cases h : l.sum = 0
  · rw [h, zero_div, if_pos rfl, if_pos rfl]
  · rw [if_neg h, if_neg (div_ne_zero h hS), List.map_map]
    apply List.map_congr_left
    intro q _
    show q / S / (l.sum / S) = q / l.sum
    rw [div_div_div_cancel_right₀ hS]

/-! ## The theorems -/

/-- C82: the input is returned when no peak of the density is found or all the minority rows are noise. Otherwise the rows listed in
`noise` are deleted from the data and the requested number of rows is appended; `noise` holds the positions of the noisy rows among the
minority rows. Each new row is a convex combination of minority rows of one cluster; the cluster is drawn in proportion to the sum of the
weights of its rows. The embedding is used for finding the noise, the clusters and the weights only. -/
theorem C82_mot {par : MotParams} {env : MotEnv} {vol : List Row → ℚ} {cu : Nat → ℚ} {drs : Nat → Draws} {d : Nat} {X : List Row}
    {y : List Int} {a b : Int} (he : env.OK) (hwf : WF d X y) (hmin : IsMinority y a b) (h3 : 2 < y.count a) (hk : 1 ≤ par.k)
    (hn : 0 < requested par.proportion (y.count b) (y.count a)) (hcu : ∀ i, 0 ≤ cu i ∧ cu i < 1) (hdr : ∀ i, (drs i).OK)
    (hu : ∀ t i j, 0 < (drs t).simplexU i j) (hg : par.ss.gaussian = .none) (hvol : ∀ vs, 0 ≤ vol vs) (hd : 1 ≤ par.ss.nDim)
    (hwi : par.ss.within = .random ∨ (par.ss.within = .deterministic ∧ par.ss.nDim ≤ 2)) :
    let A := classRows X y a
    let T := env.tsne X
    let AT := classRows T y a
    ∃ ds : List ℚ, ds.length = y.count a ∧
      if env.peaks ds = [] ∨ ∀ i, i < y.count a → MotNoisy env par a T y AT i then
        sample defaultChecks d (motAlg par env vol cu drs d) X y = .ok (X, y)
      else ∃ (clusters : List (List Nat)) (labels noise sel : List Nat) (kX new : List Row) (kY : List Int),
        sample defaultChecks d (motAlg par env vol cu drs d) X y =
          .ok (kX ++ new, kY ++ List.replicate (requested par.proportion (y.count b) (y.count a)) a) ∧
        (∀ i, i ∈ noise ↔ i < y.count a ∧ MotNoisy env par a T y AT i) ∧ DeletedAt noise X kX ∧ DeletedAt noise y kY ∧
        new.length = requested par.proportion (y.count b) (y.count a) ∧
        (∀ c ∈ clusters, c.Nodup) ∧ (∀ i, i < y.count a → labels.getD i 0 < clusters.length) ∧
        (∀ c i, c < clusters.length → (i ∈ clusters.getD c [] ↔ i < y.count a ∧ labels.getD i 0 = c ∧ ¬ MotNoisy env par a T y AT i)) ∧
        DrawnByShares (shares (clusters.map (fun c => (c.map (motWeight env par a T y AT)).sum))) cu
          (requested par.proportion (y.count b) (y.count a)) sel ∧
        ByCluster clusters.length sel (fun c => ClusterSimplex d (min par.ss.nDim (clusters.getD c []).length)
          ((clusters.getD c []).map (fun i => A.getD i [])) (fun _ => True)) new := by
  intro A T AT
  have hTl : T.length = y.length := by rw [← hwf.1]; exact he.tsne X
  have hATl : AT.length = y.count a := classRows_length hTl _
  have hAl : A.length = y.count a := classRows_length hwf.1 _
  obtain ⟨ds, hds, hcl⟩ := motClustering_spec (a := a) he (par := par) hTl (by rw [show classRows T y a = AT from rfl]; omega) hk
  rw [show classRows T y a = AT from rfl, hATl] at hcl
  refine ⟨ds, by rw [hds]; exact hATl, ?_⟩
  have hlenA : ∀ r ∈ A, r.length = d := fun r hr => hwf.2 r (mem_of_mem_classRows hr)
  obtain ⟨s, hs, rfl, rfl⟩ := stats_of_isMinority hmin
  obtain ⟨hm, hM, hab⟩ := stats_min_mem hs
  have hrun : sample defaultChecks d (motAlg par env vol cu drs d) X y =
      (match motClustering env par.k par.dCut s.minLabel T y AT with
      | .error .valueError => .ok (X, y)
      | .error e => throw e
      | .ok r => do
        let samples ← motSamples par.ss vol cu drs d (requested par.proportion (y.count s.majLabel) (y.count s.minLabel)) A r.1 r.2.1
        return withSamples (npDelete X r.2.2) (npDelete y r.2.2) s.minLabel samples) := by
    rw [sample_default hs, if_neg (by omega)]
    unfold motAlg
    rw [stats_count hs hm, stats_count hs hM, detN_eq_requested, ok_bind, if_neg (by omega)]
    simp only [selectLabel_eq_classRows]
    rfl
  by_cases hc : env.peaks ds = [] ∨ ∀ i, i < y.count s.minLabel → MotNoisy env par s.minLabel T y AT i
  · rw [if_pos hc] at hcl ⊢
    rw [hrun, hcl]
  · rw [if_neg hc] at hcl ⊢
    obtain ⟨clusters, labels, prob, noise, S, e, c1, c2, c3, c4, c5, c6⟩ := hcl
    push Not at hc
    obtain ⟨i0, hi0, hn0⟩ := hc.2
    have hpos : ∀ i, i < y.count s.minLabel → ¬ MotNoisy env par s.minLabel T y AT i → 0 < motWeight env par s.minLabel T y AT i := by
      intro i hi h
      unfold motWeight
      rw [if_neg h]
      have h1 : 1 ≤ motRho env par T AT i := by
        unfold motRho
        apply he.radius
        rw [List.getD_eq_getElem?_getD, List.getElem?_eq_getElem (by omega)]
        exact mem_of_mem_classRows (List.getElem_mem (by omega : i < AT.length))
      have h2 : 0 < motCount env par s.minLabel T y AT i := Nat.pos_of_ne_zero (fun h' => h (Or.inr h'))
      have h1' : (0 : ℚ) < (motRho env par T AT i : ℚ) := by exact_mod_cast h1
      have h2' : (0 : ℚ) < (motCount env par s.minLabel T y AT i : ℚ) := by exact_mod_cast h2
      exact div_pos h2' h1'
    have hmemc : ∀ c ∈ clusters, ∀ i ∈ c, i < y.count s.minLabel ∧ ¬ MotNoisy env par s.minLabel T y AT i := by
      intro c hc i hi
      obtain ⟨j, hj, rfl⟩ := List.mem_iff_getElem.1 hc
      have := (c6 j i hj).1 (by rw [List.getD_eq_getElem?_getD, List.getElem?_eq_getElem hj]; exact hi)
      exact ⟨this.1, this.2.2⟩
    obtain ⟨sel, new, m1, m2, m3, m4⟩ := motSamples_spec (ss := par.ss) (vol := vol) (cu := cu) (drs := drs) (d := d)
      (clusters := clusters) (prob := prob) (A := A) hlenA hn (by
        intro c hc i hi
        obtain ⟨h1, h2⟩ := hmemc c hc i hi
        refine ⟨by omega, ?_⟩
        rw [c3 i h1]
        exact div_pos (hpos i h1 h2) c2) (by
        have hlt := c5 i0 hi0
        have hm0 := (c6 _ i0 hlt).2 ⟨hi0, rfl, hn0⟩
        refine ⟨clusters.getD (labels.getD i0 0) [], ?_, List.ne_nil_of_mem hm0⟩
        rw [List.getD_eq_getElem?_getD (l := clusters), List.getElem?_eq_getElem hlt]
        exact List.getElem_mem hlt) hcu hdr hu hg hvol hd hwi
    refine ⟨clusters, labels, noise, sel, npDelete X noise, new, npDelete y noise, ?_, c1, npDelete_deletedAt X noise,
      npDelete_deletedAt y noise, m2, c4, c5, c6, ?_, m4⟩
    · rw [hrun, e]
      dsimp only
      rw [m1, ok_bind]
      unfold withSamples
      rw [m2]
      rfl
    · have : clusters.map (fun c => (c.map (fun i => prob.getD i 0)).sum) =
          (clusters.map (fun c => (c.map (motWeight env par s.minLabel T y AT)).sum)).map (fun q => q / S) := by
        rw [List.map_map]
        apply List.map_congr_left
        intro c hc
        show _ = (c.map (motWeight env par s.minLabel T y AT)).sum / S
        rw [← sum_map_div, List.map_map]
        congr 1
        apply List.map_congr_left
        intro i hi
        rw [c3 i (hmemc c hc i hi).1]
        rfl
      rw [this, shares_div c2.ne'] at m3
      exact m3

theorem classRows_append_left {α : Type} {X : List α} {m : Nat} {a : Int} {rest : List Int} (hx : X.length = m + rest.length) (ha : a ∉ rest) :
    classRows X (List.replicate m a ++ rest) a = X.take m := by
  induction m generalizing X with
  | zero =>
    rw [List.replicate_zero, List.nil_append, List.take_zero, ← List.length_eq_zero_iff, classRows_length (by omega)]
    exact List.count_eq_zero.2 ha
  | succ m ih =>
    cases X with
    | nil => simp at hx; omega
    | cons x X =>
      have := ih (X := X) (by simp at hx; omega)
      unfold classRows at this ⊢
      rw [List.replicate_succ, List.cons_append, List.zip_cons_cons, List.filter_cons_of_pos (by simp), List.map_cons, this]
      rfl

/-- C82: when the minority rows come first, the row deleted for the noisy minority row `i` is that row. -/
theorem C82_minority_first {X : List Row} {y rest : List Int} {a : Int} {m : Nat} {noise : List Nat} (hxy : X.length = y.length)
    (hy : y = List.replicate m a ++ rest) (ha : a ∉ rest) (hno : ∀ i ∈ noise, i < y.count a) :
    ∀ i ∈ noise, y[i]? = some a ∧ X[i]? = (classRows X y a)[i]? := by
  subst hy
  intro i hi
  have hc : (List.replicate m a ++ rest).count a = m := by
    rw [List.count_append, List.count_replicate_self, List.count_eq_zero.2 ha, Nat.add_zero]
  have him := hno i hi
  rw [hc] at him
  rw [classRows_append_left (by simpa using hxy) ha]
  constructor
  · rw [List.getElem?_append_left (by simpa using him), List.getElem?_replicate, if_pos him]
  · rw [List.getElem?_take, if_pos him]

/-! ## Example: a majority row is deleted -/

def mtX : List Row := [[0], [1], [2], [3], [4], [5], [12/5], [100], [101], [102]]
def mtY : List Int := [0, 0, 0, 0, 0, 0, 1, 1, 1, 1]

def mtEnv : MotEnv :=
  { tsne := id, query := bruteQuery, dist := fun p q => sqDist p q,
    radius := fun r X x => max 1 (X.filter (fun z => decide (sqDist x z ≤ r))).length,
    peaks := fun l => if l = [] then [] else [l.length - 1], setOrder := id }

theorem mtEnv_ok : mtEnv.OK := by
  refine ⟨fun _ => rfl, bruteQuery_ok, fun r X x _ => le_max_left _ _, ?_, fun _ => List.Perm.refl _⟩
  intro l i hi
  show i < l.length
  by_cases h : l = []
  · have : i ∈ (if l = [] then [] else [l.length - 1]) := hi
    rw [if_pos h] at this
    simp at this
  · have : i ∈ (if l = [] then [] else [l.length - 1]) := hi
    rw [if_neg h, List.mem_singleton] at this
    have := List.length_pos_iff.2 h
    omega

def mtPar : MotParams :=
  { proportion := 1, k := 1, dCut := some 4, ss := exPar.ss }

/-- C82: the first minority row (12/5, among the majority rows) is noise; the first row of the data, a majority row, is deleted, and
the noisy row is returned with its label. -/
theorem C82_wrong_rows : WF 1 mtX mtY ∧ IsMinority mtY 1 0 ∧ mtEnv.OK ∧ MotNoisy mtEnv mtPar 1 mtX mtY (classRows mtX mtY 1) 0 ∧
    (∀ i, i < 4 → MotNoisy mtEnv mtPar 1 mtX mtY (classRows mtX mtY 1) i → i = 0) ∧
    mtX[0]? = some [0] ∧ mtY[0]? = some 0 ∧ (classRows mtX mtY 1)[0]? = some [12/5] ∧
    ∃ new, sample defaultChecks 1 (motAlg mtPar mtEnv (fun _ => 1) (fun _ => 1/2) (fun _ => exDraws) 1) mtX mtY =
      .ok ([[1], [2], [3], [4], [5], [12/5], [100], [101], [102]] ++ new, [0, 0, 0, 0, 0, 1, 1, 1, 1, 1, 1]) := by
  refine ⟨⟨by decide, by decide +kernel⟩, ⟨by decide, by decide, by decide, Or.inl (by decide)⟩, mtEnv_ok, by decide +kernel,
    by decide +kernel, rfl, rfl, by decide +kernel, ?_⟩
  have h : (match sample defaultChecks 1 (motAlg mtPar mtEnv (fun _ => 1) (fun _ => 1/2) (fun _ => exDraws) 1) mtX mtY with
     | .ok r => decide (r.1.take 9 = [[1], [2], [3], [4], [5], [12/5], [100], [101], [102]] ∧ r.2 = [0, 0, 0, 0, 0, 1, 1, 1, 1, 1, 1])
     | .error _ => false) = true := by decide +kernel
  cases hr : sample defaultChecks 1 (motAlg mtPar mtEnv (fun _ => 1) (fun _ => 1/2) (fun _ => exDraws) 1) mtX mtY with
  | error e => rw [hr] at h; exact absurd h (by simp)
  | ok r =>
    rw [hr] at h
    have h' := of_decide_eq_true h
    refine ⟨r.1.drop 9, ?_⟩
    rw [← h'.1, List.take_append_drop, ← h'.2]

/-- The hypotheses of `C82_mot` hold for the example, with some of the rows noise. -/
example : 2 < mtY.count 1 ∧ 1 ≤ mtPar.k ∧ 0 < requested mtPar.proportion (mtY.count 0) (mtY.count 1) ∧
    (∀ i : Nat, (0 : ℚ) ≤ (fun _ : Nat => (1/2 : ℚ)) i ∧ (fun _ : Nat => (1/2 : ℚ)) i < 1) ∧ exDraws.OK ∧
    (∀ i j, 0 < exDraws.simplexU i j) ∧ mtPar.ss.gaussian = .none ∧ 1 ≤ mtPar.ss.nDim ∧ mtPar.ss.within = .random ∧
    motWeight mtEnv mtPar 1 mtX mtY (classRows mtX mtY 1) 1 = 1/3 := by
  refine ⟨by decide, by decide, by decide +kernel, fun _ => by norm_num, exDraws_ok, ?_, rfl, by decide, rfl, by decide +kernel⟩
  intro i j
  simp only [exDraws]
  positivity

/-- The hypotheses of `C82_minority_first`. -/
example : ([[7], [8], [0]] : List Row).length = ([1, 1, 0] : List Int).length ∧ ([1, 1, 0] : List Int) = List.replicate 2 1 ++ [0] ∧
    (1 : Int) ∉ ([0] : List Int) ∧ ∀ i ∈ [1], i < ([1, 1, 0] : List Int).count 1 := by decide

end Verif
