import Verif.Model.Plots
import Verif.Props.C112
import Verif.Props.C59

/-!
# C140: what the plots show, and what they do to the frame they are given
-/

namespace Verif

/-- The name of the class of a point. -/
def classOf (k : Row) : LabName := if k.getLastD 0 = 1 then .minority else .majority

/-! ## Lemmas -/

theorem relabelCol_binary {v : List ℚ} (hv : ∀ l ∈ v, l = 0 ∨ l = 1) (h0 : 0 ∈ v) (h1 : 1 ∈ v) :
    relabelCol (.nums v) = v.map (fun l => if l = 1 then .minority else .majority) := by
  have hu : npUnique v = [0, 1] := by
    have h : (npUnique v).Perm [0, 1] := by
      rw [List.perm_ext_iff_of_nodup (npUnique_nodup v) (by decide +kernel)]
      intro a
      rw [mem_npUnique]
      constructor
      · intro ha; rcases hv a ha with rfl | rfl <;> simp
      · intro ha; simp only [List.mem_cons, List.not_mem_nil, or_false] at ha; rcases ha with rfl | rfl <;> assumption
    exact h.eq_of_pairwise (le := (· < ·)) (fun a b _ _ h1 h2 => absurd h1 (not_lt.2 h2.le)) (npUnique_sorted v) (by decide +kernel)
  unfold relabelCol
  simp only [hu]
  rw [if_pos (by rfl)]
  apply List.map_congr_left
  intro l hl
  rcases hv l hl with rfl | rfl <;> simp

theorem zip_map_self {α β : Type} (g : α → β) (l : List α) : l.zip (l.map g) = l.map (fun x => (x, g x)) := by
  induction l with
  | nil => rfl
  | cons x l ih => rw [List.map_cons, List.zip_cons_cons, ih, List.map_cons]

theorem filter_map_pair {α β γ : Type} (g : α → β) (q : α → Bool) (f : α × β → γ) (l : List α) :
    ((l.map (fun x => (x, g x))).filter (fun p => q p.1)).map f = (l.filter q).map (fun x => f (x, g x)) := by
  rw [List.filter_map, List.map_map]
  rfl

theorem occurrences_ne {coords : List Nat} {X : List Row} {y : List Int} {k : Row} (h : occurrences coords X y k ≠ 0) :
    ∃ r l, (r, l) ∈ X.zip y ∧ pointOf coords r l = k := by
  have := List.count_pos_iff.1 (Nat.pos_of_ne_zero h)
  rw [← List.map_uncurry_zip_eq_zipWith] at this
  obtain ⟨p, hp, e⟩ := List.mem_map.1 this
  exact ⟨p.1, p.2, hp, e⟩

theorem occurrences_of {coords : List Nat} {X : List Row} {y : List Int} {r : Row} {l : Int} (h : (r, l) ∈ X.zip y) :
    occurrences coords X y (pointOf coords r l) ≠ 0 := by
  apply Nat.ne_of_gt
  apply List.count_pos_iff.2
  rw [← List.map_uncurry_zip_eq_zipWith]
  exact List.mem_map.2 ⟨(r, l), h, rfl⟩

theorem pointOf_last (coords : List Nat) (r : Row) {l : Int} (hl : l = 0 ∨ l = 1) :
    (pointOf coords r l).getLastD 0 = (l : ℚ) ∧ pointOf coords r l = (pointOf coords r l).dropLast ++ [(l : ℚ)] := by
  have e : round4 (l : ℚ) = l := by rcases hl with rfl | rfl <;> decide +kernel
  unfold pointOf
  rw [e]
  simp [List.getLastD_eq_getLast?]

theorem zip_has_label {X : List Row} {y : List Int} (h : X.length = y.length) {l : Int} (hl : l ∈ y) : ∃ r, (r, l) ∈ X.zip y := by
  have e : y = (X.zip y).map Prod.snd := by rw [List.map_snd_zip (by omega)]
  rw [e] at hl
  obtain ⟨p, hp, rfl⟩ := List.mem_map.1 hl
  exact ⟨p.1, hp⟩

/-- The frame of two classes: every row has the label 0 or 1, and the names are those of the classes. -/
theorem fresh_names {coords : List Nat} {d : Nat} {X Xs : List Row} {y ys : List Int} {out : List LabRow} (hxy : X.length = y.length)
    (hX : ∀ r ∈ X, r.length = d) (hXs : ∀ r ∈ Xs, r.length = d) (hc : ∀ c, c ∈ coords ↔ c < d) (hy : ∀ l ∈ y, l = 0 ∨ l = 1)
    (hys : ∀ l ∈ ys, l = 0 ∨ l = 1) (h0 : 0 ∈ y) (h1 : 1 ∈ y) (h : vectorLabeling coords X y Xs ys = .ok out) :
    relabelCol (freshFrame out).y = out.map (fun o => classOf o.key) ∧
      ∀ o ∈ out, (o.key.getLastD 0 = 0 ∨ o.key.getLastD 0 = 1) ∧ o.key = o.key.dropLast ++ [o.key.getLastD 0] := by
  obtain ⟨out', h', hs, hm, -⟩ := C112_labeling (y := y) (ys := ys) hX hXs hc
  rw [h] at h'
  injection h' with h'
  subst h'
  have hk : ∀ o ∈ out, (o.key.getLastD 0 = 0 ∨ o.key.getLastD 0 = 1) ∧ o.key = o.key.dropLast ++ [o.key.getLastD 0] := by
    intro o ho
    have key : ∀ (X : List Row) (y : List Int), (∀ l ∈ y, l = 0 ∨ l = 1) → occurrences coords X y o.key ≠ 0 →
        (o.key.getLastD 0 = 0 ∨ o.key.getLastD 0 = 1) ∧ o.key = o.key.dropLast ++ [o.key.getLastD 0] := by
      intro X y hy hne
      obtain ⟨r, l, hz, e⟩ := occurrences_ne hne
      have hl := hy l (List.of_mem_zip hz).2
      obtain ⟨a1, a2⟩ := pointOf_last coords r hl
      rw [e] at a1 a2
      rw [a1]
      refine ⟨?_, a2⟩
      rcases hl with rfl | rfl
      · left; rfl
      · right; rfl
    rcases (hm o.key).1 (List.mem_map.2 ⟨o, ho, rfl⟩) with hne | hne
    · exact key X y hy hne
    · exact key Xs ys hys hne
  refine ⟨?_, hk⟩
  have has : ∀ l : Int, l ∈ y → (l = 0 ∨ l = 1) → (l : ℚ) ∈ out.map (fun r => r.key.getLastD 0) := by
    intro l hl h01
    obtain ⟨r, hr⟩ := zip_has_label hxy hl
    obtain ⟨o, ho, e⟩ := List.mem_map.1 ((hm _).2 (Or.inl (occurrences_of (coords := coords) hr)))
    refine List.mem_map.2 ⟨o, ho, ?_⟩
    rw [e]
    exact (pointOf_last coords r h01).1
  unfold freshFrame
  rw [relabelCol_binary, List.map_map]
  · rfl
  · intro l hl
    obtain ⟨o, ho, rfl⟩ := List.mem_map.1 hl
    exact (hk o ho).1
  · exact_mod_cast has 0 h0 (Or.inl rfl)
  · exact_mod_cast has 1 h1 (Or.inr rfl)

theorem figure_of_fresh {mem : Nat → LabFrame} {i : Nat} {out : List LabRow} {g : LabRow → LabName} (hi : mem i = freshFrame out)
    (hn : relabelCol (freshFrame out).y = out.map g) :
    (plotSampling mem i).1.original = (out.filter (fun o => o.originalFlag)).map (fun o => ⟨o.key.dropLast, g o, o.countsOld, none⟩) ∧
    (plotSampling mem i).1.resampled = (out.filter (fun o => decide (o.flag ≠ some .removed))).map (fun o => ⟨o.key.dropLast, g o, o.counts, o.flag⟩) ∧
    (plotSampling mem i).1.removed = (out.filter (fun o => decide (o.flag = some .removed))).map (fun o => ⟨o.key.dropLast, g o, none, none⟩) := by
  have e : (relabelFrame mem i) i = ⟨out, .names (out.map g)⟩ := by
    unfold relabelFrame
    rw [Function.update_self, hi, hn]
    rfl
  unfold plotSampling
  dsimp only
  rw [e]
  unfold figureOf originalPanel resampledPanel removedPanel LabFrame.hues
  dsimp only
  rw [zip_map_self]
  exact ⟨filter_map_pair g (fun o => o.originalFlag) _ out, filter_map_pair g (fun o => decide (o.flag ≠ some .removed)) _ out,
    filter_map_pair g (fun o => decide (o.flag = some .removed)) _ out⟩

/-- **The first plot.** With the labels 0 and 1 and coordinates covering all columns: the left part shows every point of the original data once, with its class
and its number of occurrences; the right part every point of the new data once, with its class, number of occurrences and flag, and faintly every point of the
original data which the new data do not contain. -/
theorem C140_plot {coords : List Nat} {d : Nat} {X Xs : List Row} {y ys : List Int} {out : List LabRow} {mem : Nat → LabFrame} {i : Nat}
    (hxy : X.length = y.length) (hX : ∀ r ∈ X, r.length = d) (hXs : ∀ r ∈ Xs, r.length = d) (hc : ∀ c, c ∈ coords ↔ c < d)
    (hy : ∀ l ∈ y, l = 0 ∨ l = 1) (hys : ∀ l ∈ ys, l = 0 ∨ l = 1) (h0 : 0 ∈ y) (h1 : 1 ∈ y)
    (h : vectorLabeling coords X y Xs ys = .ok out) (hi : mem i = freshFrame out) :
    let old := occurrences coords X y
    let new := occurrences coords Xs ys
    let fig := (plotSampling mem i).1
    (∀ p, p ∈ fig.original ↔ ∃ k, old k ≠ 0 ∧ p = ⟨k.dropLast, classOf k, some (old k), none⟩) ∧
    (∀ p, p ∈ fig.resampled ↔ ∃ k, new k ≠ 0 ∧ p = ⟨k.dropLast, classOf k, some (new k),
      some (if old k = 0 then .new else if old k = new k then .untouched else .countChanged)⟩) ∧
    (∀ p, p ∈ fig.removed ↔ ∃ k, old k ≠ 0 ∧ new k = 0 ∧ p = ⟨k.dropLast, classOf k, none, none⟩) ∧
    fig.original.Nodup ∧ fig.resampled.Nodup ∧ fig.removed.Nodup := by
  obtain ⟨hn, hk⟩ := fresh_names hxy hX hXs hc hy hys h0 h1 h
  obtain ⟨e1, e2, e3⟩ := figure_of_fresh hi hn
  obtain ⟨out', h', hs, hm, hcnt⟩ := C112_labeling (y := y) (ys := ys) hX hXs hc
  rw [h] at h'
  injection h' with h'
  subst h'
  have hfl := fun o ho => C112_flags (o := o) hX hXs hc h ho
  intro old new fig
  have hnd : (out.map (·.key)).Nodup := hs.imp (fun h => ne_of_lt h)
  have hkeys : ∀ o ∈ out, ∀ o' ∈ out, o.key.dropLast = o'.key.dropLast → classOf o.key = classOf o'.key → o = o' := by
    intro o ho o' ho' hd hcl
    refine List.inj_on_of_nodup_map hnd ho ho' ?_
    obtain ⟨a1, a2⟩ := hk o ho
    obtain ⟨b1, b2⟩ := hk o' ho'
    have hl : o.key.getLastD 0 = o'.key.getLastD 0 := by
      unfold classOf at hcl
      rcases a1 with a1 | a1 <;> rcases b1 with b1 | b1 <;> rw [a1, b1] at hcl ⊢ <;> simp at hcl
    show o.key = o'.key
    rw [a2, b2, hd, hl]
  have hon : out.Nodup := List.Nodup.of_map _ hnd
  have find : ∀ k, old k ≠ 0 ∨ new k ≠ 0 → ∃ o ∈ out, o.key = k := fun k hne => by
    obtain ⟨o, ho, e⟩ := List.mem_map.1 ((hm k).2 hne)
    exact ⟨o, ho, e⟩
  refine ⟨fun p => ?_, fun p => ?_, fun p => ?_, ?_, ?_, ?_⟩
  · show p ∈ (plotSampling mem i).1.original ↔ _
    rw [e1, List.mem_map]
    constructor
    · rintro ⟨o, ho, rfl⟩
      obtain ⟨ho, hf⟩ := List.mem_filter.1 ho
      have hne := (hfl o ho).2.2.2.2.1 hf
      refine ⟨o.key, hne, ?_⟩
      rw [(hcnt o ho).1, shownCount, if_neg hne]
    · rintro ⟨k, hne, rfl⟩
      obtain ⟨o, ho, rfl⟩ := find k (Or.inl hne)
      refine ⟨o, List.mem_filter.2 ⟨ho, (hfl o ho).2.2.2.2.2 hne⟩, ?_⟩
      rw [(hcnt o ho).1, shownCount, if_neg hne]
  · have flagEq : ∀ o ∈ out, new o.key ≠ 0 → o.flag = some (if old o.key = 0 then .new else if old o.key = new o.key then .untouched else .countChanged) := by
      intro o ho hne
      obtain ⟨f1, f2, f3, f4, -⟩ := hfl o ho
      split
      · rename_i hz; exact f2.2 hz
      · rename_i hz
        split
        · rename_i he; exact f1.2 he
        · rename_i he; exact f4.2 ⟨hz, hne, he⟩
    show p ∈ (plotSampling mem i).1.resampled ↔ _
    rw [e2, List.mem_map]
    constructor
    · rintro ⟨o, ho, rfl⟩
      obtain ⟨ho, hf⟩ := List.mem_filter.1 ho
      have hne : new o.key ≠ 0 := fun hz => (of_decide_eq_true hf) ((hfl o ho).2.2.1.2 hz)
      refine ⟨o.key, hne, ?_⟩
      rw [(hcnt o ho).2, shownCount, if_neg hne, flagEq o ho hne]
    · rintro ⟨k, hne, rfl⟩
      obtain ⟨o, ho, rfl⟩ := find k (Or.inr hne)
      refine ⟨o, List.mem_filter.2 ⟨ho, decide_eq_true (fun hf => hne ((hfl o ho).2.2.1.1 hf))⟩, ?_⟩
      rw [(hcnt o ho).2, shownCount, if_neg hne, flagEq o ho hne]
  · show p ∈ (plotSampling mem i).1.removed ↔ _
    rw [e3, List.mem_map]
    constructor
    · rintro ⟨o, ho, rfl⟩
      obtain ⟨ho, hf⟩ := List.mem_filter.1 ho
      have hz := (hfl o ho).2.2.1.1 (of_decide_eq_true hf)
      refine ⟨o.key, ?_, hz, rfl⟩
      rcases (hm o.key).1 (List.mem_map.2 ⟨o, ho, rfl⟩) with h | h
      · exact h
      · exact absurd hz h
    · rintro ⟨k, hne, hz, rfl⟩
      obtain ⟨o, ho, rfl⟩ := find k (Or.inl hne)
      exact ⟨o, List.mem_filter.2 ⟨ho, decide_eq_true ((hfl o ho).2.2.1.2 hz)⟩, rfl⟩
  · show (plotSampling mem i).1.original.Nodup
    rw [e1]
    refine List.Nodup.map_on (fun o ho o' ho' e => ?_) (hon.filter _)
    injection e with e1 e2
    exact hkeys o (List.mem_filter.1 ho).1 o' (List.mem_filter.1 ho').1 e1 e2
  · show (plotSampling mem i).1.resampled.Nodup
    rw [e2]
    refine List.Nodup.map_on (fun o ho o' ho' e => ?_) (hon.filter _)
    injection e with e1 e2
    exact hkeys o (List.mem_filter.1 ho).1 o' (List.mem_filter.1 ho').1 e1 e2
  · show (plotSampling mem i).1.removed.Nodup
    rw [e3]
    refine List.Nodup.map_on (fun o ho o' ho' e => ?_) (hon.filter _)
    injection e with e1 e2
    exact hkeys o (List.mem_filter.1 ho).1 o' (List.mem_filter.1 ho').1 e1 e2

/-! ## Plotting again -/

theorem panel_hue {rows : List LabRow} {hues : List LabName} {p : PlotPoint}
    (h : p ∈ originalPanel rows hues ∨ p ∈ resampledPanel rows hues ∨ p ∈ removedPanel rows hues) : p.hue ∈ hues := by
  rcases h with h | h | h <;>
  · obtain ⟨q, hq, rfl⟩ := List.mem_map.1 h
    exact (List.of_mem_zip (List.mem_filter.1 hq).1).2

theorem relabelCol_names_not_majority (v : List LabName) : LabName.majority ∉ relabelCol (.names v) := by
  unfold relabelCol
  dsimp only
  split
  · intro h; obtain ⟨_, _, e⟩ := List.mem_map.1 h; cases e
  · intro h; obtain ⟨_, _, e⟩ := List.mem_map.1 h; cases e

/-- **A frame can be plotted once.** `plot_sampling` changes the frame it is given; plotted again, whatever the classes, no point is shown as majority. -/
theorem C140_again (mem : Nat → LabFrame) (i : Nat) {p : PlotPoint}
    (hp : p ∈ (plotSampling (plotSampling mem i).2 i).1.original ∨ p ∈ (plotSampling (plotSampling mem i).2 i).1.resampled ∨
      p ∈ (plotSampling (plotSampling mem i).2 i).1.removed) : p.hue ≠ .majority := by
  have e : (relabelFrame (relabelFrame mem i) i) i = ⟨(mem i).rows, .names (relabelCol (.names (relabelCol (mem i).y)))⟩ := by
    unfold relabelFrame
    simp only [Function.update_self]
  unfold plotSampling at hp
  dsimp only at hp
  rw [e] at hp
  have := panel_hue hp
  intro hm
  rw [hm] at this
  exact relabelCol_names_not_majority _ this

/-- The names of two classes, relabelled again, are all the same. -/
theorem relabel_twice {v : List LabName} (h : ∀ n ∈ v, n = .minority ∨ n = .majority) (h1 : LabName.minority ∈ v) (h2 : LabName.majority ∈ v) :
    relabelCol (.names v) = v.map (fun _ => .dummy) := by
  have hu : (npUnique (v.map LabName.text)).length = 2 := by
    have h : (npUnique (v.map LabName.text)).Perm [LabName.text .majority, LabName.text .minority] := by
      rw [List.perm_ext_iff_of_nodup (npUnique_nodup _) (by decide)]
      intro a
      rw [mem_npUnique]
      constructor
      · intro ha
        obtain ⟨n, hn, rfl⟩ := List.mem_map.1 ha
        rcases h n hn with rfl | rfl <;> simp
      · intro ha
        simp only [List.mem_cons, List.not_mem_nil, or_false] at ha
        rcases ha with rfl | rfl
        · exact List.mem_map.2 ⟨_, h2, rfl⟩
        · exact List.mem_map.2 ⟨_, h1, rfl⟩
    exact h.length_eq
  unfold relabelCol
  dsimp only
  rw [if_pos hu]

/-- **Two classes.** In the second plot of the frame, and in the comparison of a frame with itself, all points have the name `dummy`. -/
theorem C140_dummy {coords : List Nat} {d : Nat} {X Xs : List Row} {y ys : List Int} {out : List LabRow} {mem : Nat → LabFrame} {i : Nat}
    (hxy : X.length = y.length) (hX : ∀ r ∈ X, r.length = d) (hXs : ∀ r ∈ Xs, r.length = d) (hc : ∀ c, c ∈ coords ↔ c < d)
    (hy : ∀ l ∈ y, l = 0 ∨ l = 1) (hys : ∀ l ∈ ys, l = 0 ∨ l = 1) (h0 : 0 ∈ y) (h1 : 1 ∈ y)
    (h : vectorLabeling coords X y Xs ys = .ok out) (hi : mem i = freshFrame out) {p : PlotPoint} :
    (p ∈ (plotSampling (plotSampling mem i).2 i).1.original ∨ p ∈ (plotSampling (plotSampling mem i).2 i).1.resampled ∨
      p ∈ (plotSampling (plotSampling mem i).2 i).1.removed → p.hue = .dummy) ∧
    (p ∈ (plotComparison mem i i).1.original ∨ p ∈ (plotComparison mem i i).1.resampled ∨ p ∈ (plotComparison mem i i).1.removed → p.hue = .dummy) := by
  obtain ⟨hn, hk⟩ := fresh_names hxy hX hXs hc hy hys h0 h1 h
  have cls : ∀ l : Int, l ∈ y → (l = 0 ∨ l = 1) → (if (l : ℚ) = 1 then LabName.minority else .majority) ∈ out.map (fun o => classOf o.key) := by
    intro l hl h01
    obtain ⟨out', h', hs, hm, -⟩ := C112_labeling (y := y) (ys := ys) hX hXs hc
    rw [h] at h'
    injection h' with h'
    subst h'
    obtain ⟨r, hr⟩ := zip_has_label hxy hl
    obtain ⟨o, ho, e⟩ := List.mem_map.1 ((hm _).2 (Or.inl (occurrences_of (coords := coords) hr)))
    refine List.mem_map.2 ⟨o, ho, ?_⟩
    show classOf o.key = _
    rw [e, classOf, (pointOf_last coords r h01).1]
  have e : (relabelFrame (relabelFrame mem i) i) i = ⟨out, .names ((out.map (fun o => classOf o.key)).map (fun _ => .dummy))⟩ := by
    unfold relabelFrame
    simp only [Function.update_self]
    rw [hi, hn, relabel_twice]
    · rfl
    · intro n hn
      obtain ⟨o, _, rfl⟩ := List.mem_map.1 hn
      unfold classOf
      split
      · left; rfl
      · right; rfl
    · have := cls 1 h1 (Or.inr rfl)
      simpa using this
    · have := cls 0 h0 (Or.inl rfl)
      simpa using this
  have key : ∀ p : PlotPoint, p ∈ (figureOf ((relabelFrame (relabelFrame mem i) i) i)).original ∨
      p ∈ (figureOf ((relabelFrame (relabelFrame mem i) i) i)).resampled ∨
      p ∈ (figureOf ((relabelFrame (relabelFrame mem i) i) i)).removed → p.hue = .dummy := by
    intro p hp
    rw [e] at hp
    have := panel_hue hp
    obtain ⟨_, _, e⟩ := List.mem_map.1 this
    exact e.symm
  exact ⟨key p, key p⟩

/-- Other frames are not touched, so the comparison of two different frames shows each as `plot_sampling` shows it. -/
theorem C140_comparison (mem : Nat → LabFrame) {i j : Nat} (hij : i ≠ j) :
    (plotComparison mem i j).1 = (plotSampling mem i).1 ∧ (plotComparison mem i j).2.1 = (plotSampling mem j).1 := by
  unfold plotComparison plotSampling relabelFrame
  dsimp only
  constructor
  · rw [Function.update_of_ne hij]
  · rw [Function.update_self, Function.update_self, Function.update_of_ne hij.symm]

/-! ## plot_oversampled -/

/-- **plot_oversampled.** Of the rows of the new data, exactly those after as many rows as the original data have are flagged as new. -/
theorem C140_oversampled {coords : List Nat} {X Xs : List Row} {ys : List Int} {out : List OverPoint} (hlen : Xs.length = ys.length)
    (h : plotOversampled coords X Xs ys = .ok out) : out.length = Xs.length ∧
    ∀ (j : Nat) (hj : j < out.length) (hx : j < Xs.length), coords.mapM (getRow Xs[j]) = .ok out[j].coords ∧
      some out[j].hue = (relabelY ys)[j]? ∧ (out[j].isNew = true ↔ X.length ≤ j) := by
  unfold plotOversampled at h
  obtain ⟨pts, hp, h⟩ := bind_ok.1 h
  injection h with h
  have hl := mapM_ok_length hp
  have hr : (relabelY ys).length = ys.length := by
    unfold relabelY
    dsimp only
    split <;> simp
  subst h
  have e : (List.map (fun p : (Row × LabName) × Nat => (⟨p.1.1, p.1.2, decide (X.length ≤ p.2)⟩ : OverPoint)) (pts.zip (relabelY ys)).zipIdx).length
      = Xs.length := by
    simp [hl, hr, hlen]
  refine ⟨e, fun j hj hx => ?_⟩
  obtain ⟨b, hb, hf⟩ := mapM_ok_get hp (List.getElem?_eq_getElem hx)
  obtain ⟨hbj, hbe⟩ := List.getElem?_eq_some_iff.1 hb
  have hjr : j < (relabelY ys).length := by omega
  simp only [List.getElem_map, List.getElem_zipIdx, List.getElem_zip, Nat.zero_add, decide_eq_true_eq]
  refine ⟨?_, ?_, trivial⟩
  · rw [hbe]; exact hf
  · rw [List.getElem?_eq_getElem hjr]

def plX : List Row := nrX.map (fun r => r ++ [0])
def plRun : Res (List Row × List Int) :=
  sample defaultChecks 2 (nrasAlg nrPar (1 / 2) (fun _ => ([0, 0], [100, 1])) (fun X _ => X.map (fun _ => 0)) (fun _ => 1) nrDraws 2 bruteQuery) plX nrY

/-- **plot_oversampled after an oversampler which removes rows.** NRAS removes a row and makes two; one of the two is flagged as original. -/
theorem C140_oversampled_wrong : ∃ X' y' out, plRun = .ok (X', y') ∧ plotOversampled [0, 1] plX X' y' = .ok out ∧
    out[10]? = some ⟨[49 / 5, 0], .minority, false⟩ ∧ ([49 / 5, 0] : Row) ∉ plX := by
  refine ⟨([[21], [22], [23], [24], [25], [100], [0], [1], [2], [3], [49 / 5], [49 / 5]] : List Row).map (fun r => r ++ [0]),
    [0, 0, 0, 0, 0, 0, 1, 1, 1, 1, 1, 1], ((([[21], [22], [23], [24], [25], [100], [0], [1], [2], [3], [49 / 5], [49 / 5]] : List Row).map
      (fun r => r ++ [0])).zip (List.replicate 6 LabName.majority ++ List.replicate 6 .minority)).zipIdx.map
        (fun p => ⟨p.1.1, p.1.2, decide (11 ≤ p.2)⟩), by decide +kernel, by decide +kernel, by decide +kernel, by decide +kernel⟩

/-- Non-vacuity: a frame of two classes, plotted twice. -/
example : ∃ out, vectorLabeling [0, 1] [[0, 0], [1, 1], [1, 1]] [0, 1, 1] [[0, 0], [1, 1], [2, 2]] [0, 1, 1] = .ok out ∧
    (plotSampling (fun _ => freshFrame out) 0).1.resampled =
      [⟨[0, 0], .majority, some 1, some .untouched⟩, ⟨[1, 1], .minority, some 1, some .countChanged⟩, ⟨[2, 2], .minority, some 1, some .new⟩] ∧
    (plotSampling (plotSampling (fun _ => freshFrame out) 0).2 0).1.original = [⟨[0, 0], .dummy, some 1, none⟩, ⟨[1, 1], .dummy, some 2, none⟩] :=
  ⟨[⟨[0, 0, 0], some 1, some 1⟩, ⟨[1, 1, 1], some 1, some 2⟩, ⟨[2, 2, 1], some 1, none⟩], by decide +kernel, by decide +kernel, by decide +kernel⟩

end Verif
