import Verif.Model.Deago
import Verif.Props.C01
import Verif.Props.C33
import Verif.Props.C38
import Verif.Lemmas.Clusters
import Verif.Lemmas.SmoteExample

/-!
# C108: DEAGO replaces the rows of SMOTE by the answers of a network trained on the minority
-/

namespace Verif

/-! ## Specification -/

/-- `x` is the point `o` plus a combination of the directions `W` with coefficients which are not negative. -/
def InCone (d : Nat) (o : Row) (W : List Row) (x : Row) : Prop :=
  x.length = d ∧ ∃ c : List ℚ, c.length = W.length ∧ (∀ t ∈ c, 0 ≤ t) ∧
    ∀ k, k < d → x.getD k 0 = o.getD k 0 + (List.zipWith (fun t (w : Row) => t * w.getD k 0) c W).sum

/-- The rows for training and for validation: with more than ten rows the last fifth is held back. -/
def HeldOut (A train : List Row) (val : Option (List Row)) : Prop :=
  (A.length ≤ 10 ∧ train = A ∧ val = none) ∨
  (10 < A.length ∧ ∃ v, val = some v ∧ train ++ v = A ∧ v.length = A.length / 5 ∧ 2 ≤ v.length ∧ 4 * v.length ≤ train.length)

/-! ## Helpers -/

theorem heldOut_split (A : List Row) : HeldOut A (deagoSplit A).1 (deagoSplit A).2 := by
  unfold deagoSplit
  by_cases h : 10 < A.length
  · rw [if_pos h]
    refine Or.inr ⟨h, _, rfl, List.take_append_drop _ _, ?_, ?_, ?_⟩
    · simp only [List.length_drop]; omega
    · simp only [List.length_drop]; omega
    · simp only [List.length_drop, List.length_take]; omega
  · rw [if_neg h]
    exact Or.inl ⟨by omega, rfl, rfl⟩

theorem deagoPredict_length (d : Nat) (net : DeagoNet) (x : Row) : (deagoPredict d net x).length = d := by simp [deagoPredict]

theorem deagoPredict_getD {d : Nat} (net : DeagoNet) (x : Row) {k : Nat} (hk : k < d) :
    (deagoPredict d net x).getD k 0 = net.bias.getD k 0 + (net.units.map (fun u => deagoAct u x * u.2.2.getD k 0)).sum := by
  simp [deagoPredict, List.getD_eq_getElem?_getD, hk]

/-- The directions of the network in the coordinates of the data. -/
def deagoDirs (sc : Row) (net : DeagoNet) : List Row := net.units.map (fun u => List.zipWith (· * ·) u.2.2 sc)

theorem predict_inCone {d : Nat} {m sc : Row} (hm : m.length = d) (hs : sc.length = d) (net : DeagoNet)
    (hb : net.bias.length = d) (hu : ∀ u ∈ net.units, u.2.2.length = d) (x : Row) :
    InCone d (unscaleRow m sc net.bias) (deagoDirs sc net) (unscaleRow m sc (deagoPredict d net x)) := by
  refine ⟨unscaleRow_length hm hs (deagoPredict_length _ _ _), net.units.map (fun u => deagoAct u x), by simp [deagoDirs], ?_, ?_⟩
  · intro t ht
    obtain ⟨u, _, rfl⟩ := List.mem_map.1 ht
    exact le_max_left _ _
  · intro k hk
    rw [unscaleRow_getD hm hs (deagoPredict_length _ _ _) hk, unscaleRow_getD hm hs hb hk, deagoPredict_getD _ _ hk]
    have : ∀ us : List (Row × ℚ × Row), (∀ u ∈ us, u.2.2.length = d) →
        (List.zipWith (fun t (w : Row) => t * w.getD k 0) (us.map (fun u => deagoAct u x))
          (us.map (fun u => List.zipWith (· * ·) u.2.2 sc))).sum =
        (us.map (fun u => deagoAct u x * u.2.2.getD k 0)).sum * sc.getD k 0 := by
      intro us
      induction us with
      | nil => intro _; simp
      | cons u us ih =>
        intro h
        have hul := h u (by simp)
        have hg : (List.zipWith (· * ·) u.2.2 sc).getD k 0 = u.2.2.getD k 0 * sc.getD k 0 := by
          simp [List.getD_eq_getElem?_getD, hul, hs, hk]
        rw [List.map_cons, List.map_cons, List.zipWith_cons_cons, List.sum_cons, ih (fun v hv => h v (by simp [hv])), hg, List.map_cons,
          List.sum_cons]
        ring
    unfold deagoDirs
    rw [this net.units hu]
    ring

/-! ## The properties -/

/-- **DEAGO.** SMOTE makes the requested number of rows; the result is the input followed by the answers of the network to them (in
standardised coordinates), one per row and in the same order, labelled as the minority. The network was trained on the standardised
minority rows and nothing else. -/
theorem C108_deago {par : DeagoParams} {fitScaler : List Row → Row × Row}
    {fit : Nat → Nat → List Row → Option (List Row) → DeagoNet} {vol : List Row → ℚ} {dr : Draws} {d : Nat}
    {knn : Nat → List Row → List (List Nat)} {X : List Row} {y : List Int} {a b : Int} (hwf : WF d X y) (hk : KnnOK knn) (hdr : dr.OK)
    (hpos : ∀ i j, 0 < dr.simplexU i j) (hg : par.smote.ss.gaussian = .none) (hmin : IsMinority y a b) (h2 : 2 < y.count a)
    (hd : 1 ≤ par.smote.ss.nDim)
    (hmode : par.smote.ss.simplexSampling = .random ∨ par.smote.ss.simplexSampling = .deterministic ∨
      (par.smote.ss.simplexSampling = .volume ∧ ∀ vs, 0 < vol vs))
    (hwi : par.smote.ss.within = .random ∨ (par.smote.ss.within = .deterministic ∧ par.smote.ss.nDim ≤ 2))
    (hreq : requested par.smote.proportion (y.count b) (y.count a) ≠ 0) :
    ∃ init train val new, smoteSample par.smote vol dr d knn X y =
        .ok (X ++ init, y ++ List.replicate (requested par.smote.proportion (y.count b) (y.count a)) a) ∧
      (∀ x ∈ init, InHull d (classRows X y a) x) ∧
      HeldOut ((classRows X y a).map (scaleRow (fitScaler (classRows X y a)).1 (fitScaler (classRows X y a)).2)) train val ∧
      sample defaultChecks d (deagoAlg par fitScaler fit vol dr d knn) X y =
        .ok (X ++ new, y ++ List.replicate (requested par.smote.proportion (y.count b) (y.count a)) a) ∧
      new.length = requested par.smote.proportion (y.count b) (y.count a) ∧
      ∀ (i : Nat) (x : Row), init[i]? = some x → new[i]? = some (unscaleRow (fitScaler (classRows X y a)).1 (fitScaler (classRows X y a)).2
        (deagoPredict d (fit (deagoUnits d par.h) (deagoEpochs par.e (y.count a)) train val)
          (scaleRow (fitScaler (classRows X y a)).1 (fitScaler (classRows X y a)).2 x))) := by
  obtain ⟨⟨Xs, ys⟩, hsm⟩ := C01_smote_total (par := par.smote) (vol := vol) hwf hk hdr hpos hmin hd hmode hwi
  obtain ⟨s, hs, rfl, rfl⟩ := stats_of_isMinority hmin
  obtain ⟨hm, hM, hab⟩ := stats_min_mem hs
  have hA := classRows_length hwf.1 s.minLabel
  obtain ⟨init, rfl, rfl, hn, hhull⟩ := smoteStep_of hwf hk hdr hg hs h2 hsm
  set A := classRows X y s.minLabel with hAd
  set sc := fitScaler A with hsc
  set An := A.map (scaleRow sc.1 sc.2) with hAn
  have hAnl : An.length = y.count s.minLabel := by rw [hAn, List.length_map, hA]
  refine ⟨init, (deagoSplit An).1, (deagoSplit An).2, (init.map (scaleRow sc.1 sc.2)).map (fun x => unscaleRow sc.1 sc.2
    (deagoPredict d (fit (deagoUnits d par.h) (deagoEpochs par.e (y.count s.minLabel)) (deagoSplit An).1 (deagoSplit An).2) x)),
    hsm, hhull, heldOut_split An, ?_, by simp [hn], ?_⟩
  · rw [sample_default hs, if_neg (by omega)]
    unfold deagoAlg
    rw [stats_count hs hm, stats_count hs hM, detN_eq_requested, ok_bind, if_neg hreq, hsm, ok_bind]
    simp only [selectLabel_eq_classRows, ← hAd, ← hsc, ← hAn, hAnl, List.drop_left]
    unfold withSamples
    rw [List.length_map, List.length_map, hn]
    rfl
  · intro i x hx
    rw [List.getElem?_map, List.getElem?_map, hx]
    rfl

/-- **The new rows lie in a cone with few edges.** Whatever the training does, the new rows are the bias of the output layer plus a
combination of as many directions as the network has hidden units, with coefficients that are not negative. -/
theorem C108_cone {par : DeagoParams} {fitScaler : List Row → Row × Row}
    {fit : Nat → Nat → List Row → Option (List Row) → DeagoNet} {vol : List Row → ℚ} {dr : Draws} {d : Nat}
    {knn : Nat → List Row → List (List Nat)} {X : List Row} {y : List Int} {a b : Int} (hwf : WF d X y) (hk : KnnOK knn) (hdr : dr.OK)
    (hpos : ∀ i j, 0 < dr.simplexU i j) (hg : par.smote.ss.gaussian = .none) (hmin : IsMinority y a b) (h2 : 2 < y.count a)
    (hd : 1 ≤ par.smote.ss.nDim)
    (hmode : par.smote.ss.simplexSampling = .random ∨ par.smote.ss.simplexSampling = .deterministic ∨
      (par.smote.ss.simplexSampling = .volume ∧ ∀ vs, 0 < vol vs))
    (hwi : par.smote.ss.within = .random ∨ (par.smote.ss.within = .deterministic ∧ par.smote.ss.nDim ≤ 2))
    (hreq : requested par.smote.proportion (y.count b) (y.count a) ≠ 0)
    (hscl : (fitScaler (classRows X y a)).1.length = d ∧ (fitScaler (classRows X y a)).2.length = d)
    (hfit : ∀ u e t v, (fit u e t v).units.length = u ∧ (fit u e t v).bias.length = d ∧
      ∀ w ∈ (fit u e t v).units, w.2.2.length = d) :
    ∃ new o W, sample defaultChecks d (deagoAlg par fitScaler fit vol dr d knn) X y =
        .ok (X ++ new, y ++ List.replicate (requested par.smote.proportion (y.count b) (y.count a)) a) ∧
      W.length = deagoUnits d par.h ∧ ∀ x ∈ new, InCone d o W x := by
  obtain ⟨init, train, val, new, h1, _, _, h3, h4, h5⟩ :=
    C108_deago (fitScaler := fitScaler) (fit := fit) (vol := vol) hwf hk hdr hpos hg hmin h2 hd hmode hwi hreq
  obtain ⟨f1, f2, f3⟩ := hfit (deagoUnits d par.h) (deagoEpochs par.e (y.count a)) train val
  have hil : init.length = new.length := by
    obtain ⟨s, hs, rfl, rfl⟩ := stats_of_isMinority hmin
    obtain ⟨init', e1, e2, hn, _⟩ := smoteStep_of hwf hk hdr hg hs h2 h1
    rw [List.append_cancel_left e1, hn, h4]
  refine ⟨new, unscaleRow (fitScaler (classRows X y a)).1 (fitScaler (classRows X y a)).2
    (fit (deagoUnits d par.h) (deagoEpochs par.e (y.count a)) train val).bias, deagoDirs (fitScaler (classRows X y a)).2 (fit (deagoUnits d par.h) (deagoEpochs par.e (y.count a)) train val), h3,
    by rw [deagoDirs, List.length_map, f1], ?_⟩
  intro x hx
  obtain ⟨i, hi, rfl⟩ := List.getElem_of_mem hx
  have hx' := h5 i init[i] (List.getElem?_eq_getElem (by omega))
  rw [List.getElem?_eq_getElem hi] at hx'
  injection hx' with hx'
  rw [hx']
  exact predict_inCone hscl.1 hscl.2 _ f2 f3 _

/-- The network has at least two hidden units; it is trained for at least `e` rounds, and for so many that one
round more over the minority makes more than five thousand rows. -/
theorem C108_training (d : Nat) (h : ℚ) (e n : Nat) (hn : 0 < n) :
    2 ≤ deagoUnits d h ∧ e ≤ deagoEpochs e n ∧ 5000 < (deagoEpochs e n + 1) * n := by
  refine ⟨le_max_left _ _, le_max_left _ _, ?_⟩
  have h1 : 5000 / n ≤ deagoEpochs e n := le_max_right _ _
  calc 5000 < (5000 / n + 1) * n := by
        have := Nat.div_add_mod 5000 n
        have := Nat.mod_lt 5000 hn
        rw [Nat.add_mul, Nat.mul_comm]
        omega
    _ ≤ (deagoEpochs e n + 1) * n := Nat.mul_le_mul_right _ (by omega)

/-- **A network without output weights.** A network that has learned nothing answers with its bias: with the bias 0, every
new row is the mean of the minority. -/
theorem C108_untrained {d : Nat} {m sc : Row} {net : DeagoNet} (hm : m.length = d) (hs : sc.length = d)
    (hb : ∀ k, k < d → net.bias.getD k 0 = 0) (hdead : ∀ u ∈ net.units, ∀ k, k < d → u.2.2.getD k 0 = 0) (x : Row) :
    unscaleRow m sc (deagoPredict d net x) = m := by
  have hl := unscaleRow_length hm hs (deagoPredict_length d net x)
  apply List.ext_getElem (by rw [hl, hm])
  intro k h1 h2
  have hk : k < d := by omega
  have := unscaleRow_getD hm hs (deagoPredict_length d net x) hk
  rw [deagoPredict_getD _ _ hk, hb k hk, List.sum_eq_zero] at this
  · simpa [List.getD_eq_getElem?_getD, h1, h2] using this
  · intro t ht
    obtain ⟨u, hu, rfl⟩ := List.mem_map.1 ht
    rw [hdead u hu k hk, mul_zero]

/-! ## The hypotheses can be met -/

/-- A network with two hidden units which passes on the positive parts of the coordinates. -/
def deagoExFit (_u _e : Nat) (_t : List Row) (_v : Option (List Row)) : DeagoNet := ⟨[([1, 0], 0, [1, 0]), ([0, 1], 0, [0, 1])], [0, 0]⟩

example : deagoUnits 2 (1 / 2) = 2 := by decide +kernel
example : deagoUnits 30 (1 / 10) = 3 := by decide +kernel
example : deagoEpochs 40 20 = 250 := by decide +kernel
example : (deagoSplit (List.replicate 13 [1])).1.length = 11 := by decide +kernel
example : sample defaultChecks 2 (deagoAlg ⟨exPar, 40, 1 / 2⟩ (fun _ => ([1, 1], [2, 2])) deagoExFit (fun _ => 1) exDraws 2 exKnn) exX exY =
    .ok (exX ++ [[1, 1], [1, 1]], exY ++ [1, 1]) := by decide +kernel
example : sample defaultChecks 2 (deagoAlg ⟨exPar, 40, 1 / 2⟩ (fun _ => ([0, 0], [1, 1])) deagoExFit (fun _ => 1) exDraws 2 exKnn) exX exY =
    smoteSample exPar (fun _ => 1) exDraws 2 exKnn exX exY := by decide +kernel
example : WF 2 exX exY ∧ KnnOK exKnn ∧ exDraws.OK ∧ IsMinority exY 1 0 ∧ 2 < exY.count 1 ∧
    requested exPar.proportion (exY.count 0) (exY.count 1) ≠ 0 :=
  ⟨⟨rfl, by decide +kernel⟩, exKnn_ok, exDraws_ok, exY_min, by decide, by decide +kernel⟩

end Verif
