import Verif.Lemmas.Clusters
import Mathlib.Algebra.BigOperators.Ring.List

/-! # Which base row `sample_simplex` draws for each sample -/

namespace Verif

/-- The number `u` falls into the share of position `b` when the unit interval is divided in proportion to the weights. -/
def DrawsShare (w : List ℚ) (u : ℚ) (b : Nat) : Prop :=
  b < w.length ∧ (w.take b).sum ≤ u * w.sum ∧ u * w.sum < (w.take (b + 1)).sum

theorem forall2_getElem_right {α β : Type} {R : α → β → Prop} {l : List α} {m : List β} (h : List.Forall₂ R l m) {i : Nat} {b : β}
    (hb : m[i]? = some b) : ∃ a, l[i]? = some a ∧ R a b := by
  induction h generalizing i with
  | nil => simp at hb
  | cons h1 h2 ih =>
    cases i with
    | zero => simp only [List.getElem?_cons_zero, Option.some.injEq] at hb; subst hb; exact ⟨_, rfl, h1⟩
    | succ i => exact ih (by simpa using hb)

theorem getElem?_flatMap_const {α β : Type} {l : List α} {f : α → List β} {c : Nat} (hc : 0 < c) (h : ∀ a ∈ l, (f a).length = c)
    (j : Nat) : (l.flatMap f)[j]? = (l[j / c]?).bind (fun a => (f a)[j % c]?) := by
  induction l generalizing j with
  | nil => simp
  | cons a l ih =>
    have ha := h a (by simp)
    rw [List.flatMap_cons]
    by_cases hj : j < c
    · rw [List.getElem?_append_left (by omega), Nat.div_eq_of_lt hj, Nat.mod_eq_of_lt hj]
      rfl
    · rw [List.getElem?_append_right (by omega), ha, ih (fun b hb => h b (by simp [hb]))]
      have e1 : j / c = (j - c) / c + 1 := by
        rw [← Nat.add_div_right _ hc]; congr 1; omega
      have e2 : j % c = (j - c) % c := by
        conv_lhs => rw [show j = (j - c) + c by omega, Nat.add_mod_right]
      rw [e1, e2, List.getElem?_cons_succ]

theorem sum_take_flatMap_replicate (w : List ℚ) (c b : Nat) :
    ((w.flatMap (fun x => List.replicate c x)).take (b * c)).sum = (c : ℚ) * (w.take b).sum := by
  induction w generalizing b with
  | nil => simp
  | cons a w ih =>
    cases b with
    | zero => simp
    | succ b =>
      rw [List.flatMap_cons, List.take_append, List.take_of_length_le (by rw [List.length_replicate, Nat.succ_mul]; omega),
        List.sum_append, List.length_replicate, show (b + 1) * c - c = b * c by rw [Nat.succ_mul]; omega, ih, List.take_succ_cons,
        List.sum_cons, List.sum_replicate]
      simp only [nsmul_eq_mul]
      ring

theorem sum_take_mono {l : List ℚ} (h : ∀ x ∈ l, 0 ≤ x) {a b : Nat} (hab : a ≤ b) : (l.take a).sum ≤ (l.take b).sum := by
  have : l.take b = l.take a ++ (l.take b).drop a := by
    conv_lhs => rw [← List.take_append_drop a (l.take b)]
    rw [List.take_take, Nat.min_eq_left hab]
  rw [this, List.sum_append]
  have : 0 ≤ ((l.take b).drop a).sum :=
    List.sum_nonneg (fun x hx => h x (List.mem_of_mem_take (List.mem_of_mem_drop hx)))
  linarith

/-- A draw among copies of the weights selects the position by its share. -/
theorem drawsShare_of_copies {w : List ℚ} {c j : Nat} {u S : ℚ} (hc : 0 < c) (h0 : ∀ x ∈ w, 0 ≤ x)
    (hS : S = (w.flatMap (fun x => List.replicate c x)).sum) (hS0 : S ≠ 0)
    (hl : j < (w.flatMap (fun x => List.replicate c x)).length)
    (h1 : (((w.flatMap (fun x => List.replicate c x)).map (· / S)).take j).sum ≤ u)
    (h2 : u < (((w.flatMap (fun x => List.replicate c x)).map (· / S)).take (j + 1)).sum) : DrawsShare w u (j / c) := by
  have hfl : (w.flatMap (fun x => List.replicate c x)).length = w.length * c := by
    simp [List.length_flatMap]
  have hf0 : ∀ x ∈ w.flatMap (fun x => List.replicate c x), 0 ≤ x := by
    intro x hx
    obtain ⟨a, ha, hx⟩ := List.mem_flatMap.1 hx
    rw [List.eq_of_mem_replicate hx]; exact h0 a ha
  have hSp : 0 < S := lt_of_le_of_ne (by rw [hS]; exact List.sum_nonneg hf0) (Ne.symm hS0)
  have hSw : S = (c : ℚ) * w.sum := by
    have := sum_take_flatMap_replicate w c w.length
    rwa [List.take_of_length_le (by rw [hfl]), List.take_length, ← hS] at this
  have hdiv : ∀ i, (((w.flatMap (fun x => List.replicate c x)).map (· / S)).take i).sum =
      ((w.flatMap (fun x => List.replicate c x)).take i).sum / S := by
    intro i
    rw [← List.map_take]
    simp only [div_eq_mul_inv]
    rw [List.sum_map_mul_right, List.map_id']
  rw [hdiv, div_le_iff₀ hSp] at h1
  rw [hdiv, lt_div_iff₀ hSp] at h2
  have hcq : (0 : ℚ) < c := by exact_mod_cast hc
  have hdm := Nat.div_add_mod j c
  have hml := Nat.mod_lt j hc
  have e1 : ((w.flatMap (fun x => List.replicate c x)).take (j / c * c)).sum ≤
      ((w.flatMap (fun x => List.replicate c x)).take j).sum := sum_take_mono hf0 (Nat.div_mul_le_self j c)
  have e2 : ((w.flatMap (fun x => List.replicate c x)).take (j + 1)).sum ≤
      ((w.flatMap (fun x => List.replicate c x)).take ((j / c + 1) * c)).sum := sum_take_mono hf0 (by
        rw [Nat.succ_mul, Nat.mul_comm]; omega)
  rw [sum_take_flatMap_replicate] at e1 e2
  refine ⟨Nat.div_lt_of_lt_mul (by rw [Nat.mul_comm, ← hfl]; exact hl), ?_, ?_⟩
  · have : (c : ℚ) * (w.take (j / c)).sum ≤ c * (u * w.sum) := by rw [hSw] at h1; nlinarith
    exact le_of_mul_le_mul_left this hcq
  · have : (c : ℚ) * (u * w.sum) < c * (w.take (j / c + 1)).sum := by rw [hSw] at h2; nlinarith
    exact lt_of_mul_lt_mul_left this hcq.le

/-- In a random selection with base weights, the base of the `i`-th selected simplex is the one in whose share the `i`-th number
falls. -/
theorem simplicesSel_drawn {mode : SimplexSampling} {vol : List Row → ℚ} {cu : Nat → ℚ} {X : List Row} {n : Nat} {w : List ℚ}
    {indices : List (List Nat)} {k : Nat} {Xv : Option (List Row)} {nDim : Nat} {sel : List (List Nat)}
    (hmode : mode ≠ .deterministic) (hu : ∀ i, 0 ≤ cu i ∧ cu i < 1) (hwl : w.length = indices.length) (hw0 : ∀ x ∈ w, 0 ≤ x)
    (h : simplicesSel mode vol cu X n (some w) indices k Xv none nDim = .ok sel) :
    ∀ (i : Nat) (b : Nat) (vs : List Nat), sel[i]? = some (b :: vs) → DrawsShare w (cu i) b := by
  unfold simplicesSel at h
  rw [bind_ok] at h
  obtain ⟨all, hall, h⟩ := h
  rw [bind_ok] at h
  obtain ⟨nw, hnw, h⟩ := h
  rw [bind_ok] at h
  obtain ⟨wf, hwf, h⟩ := h
  obtain ⟨hd, _⟩ := allNeighbor_sound hall
  by_cases hlw : wf.length ≠ nw.length
  · rw [if_pos hlw] at h
    simp [throw, throwThe, MonadExceptOf.throw, bind, Except.bind] at h
  rw [if_neg hlw] at h
  rw [bind_ok] at h
  obtain ⟨p, hp, h⟩ := h
  rw [if_neg hmode] at h
  rw [bind_ok] at h
  obtain ⟨js, hjs, h⟩ := h
  obtain ⟨-, hdk, hall⟩ := allNeighbor_unfold hall
  have hall2 := mapM_ok_iff.1 hall
  have hallen : all.length = indices.length * Nat.choose (k - 1) (nDim - 1) := by
    rw [← hall2.length_eq, length_posSimplices]
  simp only [determineWeights] at hwf
  split at hwf
  · cases hwf
  rename_i hwne
  injection hwf with hwf
  have hcdiv : all.length / w.length = Nat.choose (k - 1) (nDim - 1) := by
    rw [hallen, hwl, Nat.mul_div_cancel_left _ (by omega)]
  rw [hcdiv] at hwf
  simp only [nodeWeights] at hnw
  injection hnw with hnw
  have hnwl : nw.length = wf.length := (not_not.1 hlw).symm
  have hzip : List.zipWith (· * ·) wf nw = wf := by
    have : nw = List.replicate wf.length 1 := by rw [← hnw]; congr 1; rw [← hnwl, ← hnw, List.length_replicate]
    rw [this]
    clear * -
    induction wf with
    | nil => rfl
    | cons a l ih => simp [List.replicate_succ, ih]
  rw [hzip] at hp
  unfold normalize at hp
  split at hp
  · cases hp
  rename_i hS
  injection hp with hp
  obtain ⟨_, hdr⟩ := npChoice_drawn hu hjs
  have hc : 0 < Nat.choose (k - 1) (nDim - 1) := by
    rcases Nat.eq_zero_or_pos (Nat.choose (k - 1) (nDim - 1)) with h0 | h0
    · exfalso; apply hS; rw [← hwf, h0]; clear * -; induction w with
      | nil => rfl
      | cons a l ih => simpa using ih
    · exact h0
  intro i b vs hi
  obtain ⟨j, hj, hjb⟩ := forall2_getElem_right (takeRows_forall h) hi
  obtain ⟨g1, g2, g3⟩ := hdr i j hj
  rw [← hp] at g1 g2 g3
  rw [List.length_map] at g1
  subst hwf
  have key := drawsShare_of_copies (u := cu i) hc hw0 rfl hS g1 g2 g3
  obtain ⟨s, hs, hsb⟩ := forall2_getElem_right hall2 hjb
  unfold posSimplices at hs
  rw [getElem?_flatMap_const hc (by intro a _; rw [List.length_map, length_combinations, List.length_range'])] at hs
  rw [Option.bind_eq_some_iff] at hs
  obtain ⟨b', hb', hs⟩ := hs
  have hb'' : b' = j / Nat.choose (k - 1) (nDim - 1) := by
    obtain ⟨hlt, hji⟩ := List.getElem?_eq_some_iff.1 hb'
    rw [← hji, List.getElem_range]
  rw [List.getElem?_map, Option.map_eq_some_iff] at hs
  obtain ⟨ps, _, rfl⟩ := hs
  simp only [realIdxRow] at hsb
  rw [bind_ok] at hsb
  obtain ⟨nb, _, hsb⟩ := hsb
  rw [bind_ok] at hsb
  obtain ⟨vs', _, hsb⟩ := hsb
  simp only [pure_ok, List.cons.injEq] at hsb
  rw [← hsb.1, hb'']
  exact key

/-- The `i`-th row that `sample_simplex` generates from base weights belongs to the base in whose share the `i`-th number falls
(random selection, random points). -/
theorem sampleSimplex_drawn {ss : SSParams} {vol : List Row → ℚ} {dr : Draws} {d : Nat} {X : List Row}
    {indices : List (List Nat)} {k n : Nat} {a : SSArgs} {out : List Row} {w : List ℚ} (hX : ∀ r ∈ X, r.length = d)
    (hV : ∀ V, a.Xv = some V → ∀ r ∈ V, r.length = d) (hvw : ∀ ws, a.vertexWeights = some ws → ∀ c ∈ ws, 0 ≤ c ∧ c ≤ 1)
    (hdr : dr.OK) (hI : indices.length ≤ X.length) (hg : ss.gaussian = .none)
    (hbw : a.baseWeights = some w) (hwl : w.length = indices.length) (hw0 : ∀ x ∈ w, 0 ≤ x) (hsw : a.simplexWeights = none)
    (hvol : ∀ vs, 0 ≤ vol vs) (hmode : ss.simplexSampling ≠ .deterministic) (hwi : ss.within = .random)
    (h : sampleSimplex ss vol dr d X indices k n a = .ok out) :
    ∀ (i : Nat) (x : Row), out[i]? = some x → ∃ b, DrawsShare w (dr.choiceU i) b ∧
      SimplexOf d (min ss.nDim k) X (a.Xv.getD X) indices (fun c => c = b) x := by
  unfold sampleSimplex at h
  split at h
  · simp only [pure_ok] at h; subst h; simp
  simp only at h
  rw [bind_ok] at h
  obtain ⟨sel, hsel, h⟩ := h
  rw [hbw, hsw] at hsel
  have hw := simplicesSel_weighted hdr.choice (by intro w' hw'; injection hw' with hw'; subst hw'; exact ⟨hwl, hw0⟩)
    (by intro m hm; cases hm) hvol hsel
  have hdrawn := simplicesSel_drawn hmode hdr.choice hwl hw0 hsel
  rw [hwi] at h
  simp only at h
  rw [bind_ok] at h
  obtain ⟨samples, hsam, h⟩ := h
  simp only [pure_ok, hg, addGaussianNoise] at h
  subst h
  unfold randomSamplesFromSimplices at hsam
  intro i x hx
  obtain ⟨⟨s, i'⟩, hsi, hgen⟩ := forall2_getElem_right (mapM_ok_iff.1 hsam) hx
  rw [List.getElem?_zipIdx, Option.map_eq_some_iff] at hsi
  obtain ⟨s', hs', he⟩ := hsi
  have he1 : s' = s := congrArg Prod.fst he
  have he2 : i' = i := by have := congrArg Prod.snd he; simpa using this.symm
  subst he1
  subst he2
  have hsm := List.mem_of_getElem? hs'
  obtain ⟨b0, ps, vs0, hs0, hps⟩ := hw _ hsm
  have hshape : SimplexShape indices (min ss.nDim k) s' := by rw [hs0]; exact hps.shape
  obtain ⟨b, ns, rfl, base, nbrs, w0, wr, hbase, hnb, hcx, _⟩ := randomSample_mixed (so := false) (cap := fun _ => 1) hX hV hvw
    (fun j => (hdr.simplex i' j).1) hI hshape
    ⟨fun _ _ => le_refl _, fun ws hws i c hc => (hvw ws hws c (List.mem_of_getElem? hc)).2⟩ hgen
  injection hs0 with h1 h2
  subst h1
  subst h2
  obtain ⟨⟨row, hrow, hf⟩, hsub, hlen, _⟩ := hps
  exact ⟨b, hdrawn _ _ _ hs', b, base, row, ns, nbrs, w0 :: wr, hbase, rfl, hrow, sublist_drop_of_positions hsub hf,
    by rw [← hf.length_eq]; exact hlen, hnb, hcx⟩

end Verif
