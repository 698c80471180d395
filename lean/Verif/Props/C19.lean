import Verif.Model.Multiclass
import Verif.Lemmas.ClassRows
import Verif.Lemmas.Under
import Verif.Lemmas.Stats
import Verif.Lemmas.Smote
import Verif.Lemmas.SmoteExample

/-!
# C19 Multiclass balancing
-/

namespace Verif

/-- Contract of the inner binary oversampler on 0/1 data whose minority class is 1: it extends the data by rows
of class 1 of the right length; if the minority has more than two rows it adds exactly the requested number, and it
rejects NaN as proportion with `ValueError`. -/
structure BinOverOK (d : Nat) (over : BinOver) : Prop where
  extends_ : ∀ i p X y X' y', WF d X y → IsMinority y 1 0 → over i p X y = .ok (X', y') →
    (∃ n, Extends X y 1 n X' y') ∧ ∀ r ∈ X', r.length = d
  exact_ : ∀ i q X y X' y', WF d X y → IsMinority y 1 0 → 2 < y.count 1 → 0 ≤ q →
    over i (.fin q) X y = .ok (X', y') → Extends X y 1 (requested q (y.count 0) (y.count 1)) X' y'
  nan_ : ∀ i X y, WF d X y → IsMinority y 1 0 → 2 < y.count 1 → over i .nan X y = .error .valueError

/-! ## Lemmas -/

theorem sortedClasses_perm (s : Stats) : (sortedClasses s).Perm s.classStats :=
  List.perm_insertionSort _ _

theorem sortedClasses_sorted (s : Stats) : (sortedClasses s).Pairwise (fun a b => b.2 ≤ a.2) := by
  have : Std.Total (fun (a b : Int × Nat) => b.2 ≤ a.2) := ⟨fun a b => le_total _ _⟩
  have : IsTrans (Int × Nat) (fun a b => b.2 ≤ a.2) := ⟨fun a b c h1 h2 => le_trans h2 h1⟩
  exact List.pairwise_insertionSort _ _

/-- Labels of the two-class training set. -/
theorem train_isMinority {m n : Nat} (hn : 0 < n) (hmn : n ≤ m) :
    IsMinority (List.replicate m (0 : Int) ++ List.replicate n 1) 1 0 ∧
    (List.replicate m (0 : Int) ++ List.replicate n 1).count 1 = n ∧
    (List.replicate m (0 : Int) ++ List.replicate n 1).count 0 = m := by
  have h1 : (List.replicate m (0 : Int) ++ List.replicate n 1).count 1 = n := by
    simp [List.count_replicate]
  have h0 : (List.replicate m (0 : Int) ++ List.replicate n 1).count 0 = m := by
    simp [List.count_replicate]
  refine ⟨⟨?_, ?_, ?_, ?_⟩, h1, h0⟩
  · simp; omega
  · simp; omega
  · intro l hl
    rcases List.mem_append.1 hl with h | h
    · exact Or.inr (List.eq_of_mem_replicate h)
    · exact Or.inl (List.eq_of_mem_replicate h)
  · rw [h1, h0]
    rcases Nat.lt_or_ge n m with h | h
    · exact Or.inl h
    · exact Or.inr ⟨by omega, by decide⟩

theorem newOnes_extends {X X' : List Row} {y y' : List Int} {n : Nat} (hl : X.length = y.length)
    (h : Extends X y 1 n X' y') : (newOnes X.length (X', y')).length = n := by
  obtain ⟨new, rfl, rfl, hn⟩ := h
  unfold newOnes
  simp only
  rw [List.drop_left, hl, List.drop_left, selectLabel_eq_classRows, classRows_length (by simp [hn])]
  simp

theorem classRows_append {X X2 : List Row} {y y2 : List Int} (h : X.length = y.length) (l : Int) :
    classRows (X ++ X2) (y ++ y2) l = classRows X y l ++ classRows X2 y2 l := by
  unfold classRows
  rw [List.zip_append h, List.filter_append, List.map_append]

theorem selectNot_length {α : Type} {X : List α} {y : List Int} (h : X.length = y.length) (l : Int) :
    (selectNotLabel X y l).length = X.length - y.count l ∧ ∀ r ∈ selectNotLabel X y l, r ∈ X := by
  have hle : ∀ (y : List Int), y.count l ≤ y.length := fun y => List.count_le_length
  unfold selectNotLabel maskRows
  induction X generalizing y with
  | nil => cases y with
    | nil => simp
    | cons b y => simp at h
  | cons a X ih => cases y with
    | nil => simp at h
    | cons b y =>
      obtain ⟨h1, h2⟩ := ih (y := y) (by simpa using h)
      have := hle y
      have hl : X.length = y.length := by simpa using h
      simp only [List.map_cons, List.zip_cons_cons, List.filterMap_cons]
      by_cases hb : b = l
      · subst hb
        simp only [bne_self_eq_false, Bool.false_eq_true, if_false, List.count_cons_self, List.length_cons]
        exact ⟨by omega, fun r hr => by simp [h2 r hr]⟩
      · have hb' : (b != l) = true := by simpa using hb
        simp only [hb', if_true, List.length_cons]
        rw [List.count_cons_of_ne hb]
        refine ⟨by omega, fun r hr => ?_⟩
        rcases List.mem_cons.1 hr with rfl | hr
        · simp
        · simp [h2 r hr]

theorem mem_of_classRows {X : List Row} {y : List Int} {l : Int} {r : Row} (h : r ∈ classRows X y l) : r ∈ X :=
  (List.of_mem_zip (mem_classRows.1 h)).1

/-- Labels of the results are the labels of the processed classes. -/
theorem equalizeLoop_labels {over : BinOver} {X : List Row} {y : List Int} {nMaj : Nat} :
    ∀ {cs : List (Int × Nat)} {idx : Nat} {res}, equalizeLoop over X y nMaj idx cs = .ok res →
      res.map Prod.fst = cs.map Prod.fst := by
  intro cs
  induction cs with
  | nil => intro idx res h; unfold equalizeLoop at h; injection h with h; subst h; rfl
  | cons c cs ih =>
    intro idx res h
    unfold equalizeLoop at h
    dsimp only at h
    obtain ⟨r, _, h⟩ := bind_ok.1 h
    obtain ⟨more, hm, h⟩ := bind_ok.1 h
    have h := pure_ok.1 h
    subst h
    simp [ih hm]

theorem successiveLoop_labels {over : BinOver} {X : List Row} {y : List Int} {nMaj : Nat} :
    ∀ {cs : List (Int × Nat)} {idx : Nat} {Xmaj : List Row} {res},
      successiveLoop over X y nMaj idx Xmaj cs = .ok res →
      res.map Prod.fst = cs.map Prod.fst := by
  intro cs
  induction cs with
  | nil => intro idx Xmaj res h; unfold successiveLoop at h; injection h with h; subst h; rfl
  | cons c cs ih =>
    intro idx Xmaj res h
    unfold successiveLoop at h
    dsimp only at h
    obtain ⟨r, _, h⟩ := bind_ok.1 h
    obtain ⟨more, hm, h⟩ := bind_ok.1 h
    have h := pure_ok.1 h
    subst h
    simp [ih hm]

theorem requested_one {m n : Nat} (h : n ≤ m) : requested 1 m n = m - n := by
  unfold requested
  rw [mul_one]
  have : (m : ℚ) - (n : ℚ) = (((m : ℤ) - (n : ℤ) : ℤ) : ℚ) := by push_cast; ring
  rw [this, Int.floor_intCast]
  omega

theorem requested_succ {m n k : Nat} (hn : n < m) (hk : 1 ≤ k) :
    requested ((((m : Int) - n : Int) : ℚ) / ((((k : Int) * m - n) : Int) : ℚ)) (k * m) n = m - n := by
  unfold requested
  have hkm : m ≤ k * m := Nat.le_mul_of_pos_left m hk
  have hne : ((((k : Int) * m - n) : Int) : ℚ) ≠ 0 := by
    have : ((k : Int) * m - n) ≠ 0 := by
      have h1 : (m : Int) ≤ (k : Int) * m := by exact_mod_cast hkm
      omega
    exact_mod_cast this
  have e : ((k * m : Nat) : ℚ) - (n : ℚ) = ((((k : Int) * m - n) : Int) : ℚ) := by push_cast; ring
  rw [e, mul_div_cancel₀ _ hne, Int.floor_intCast]
  omega

theorem equalizeLoop_counts {d : Nat} {over : BinOver} (ho : BinOverOK d over) {X : List Row} {y : List Int}
    (hwf : WF d X y) {nMaj : Nat} :
    ∀ {cs : List (Int × Nat)} {idx : Nat} {res},
      (∀ c ∈ cs, c.2 = y.count c.1 ∧ 2 < c.2 ∧ c.2 < nMaj ∧ c.2 + nMaj ≤ y.length) →
      equalizeLoop over X y nMaj idx cs = .ok res →
      List.Forall₂ (fun c r => r.1 = c.1 ∧ r.2.length = y.length - c.2 - c.2) cs res := by
  intro cs
  induction cs with
  | nil => intro idx res _ h; unfold equalizeLoop at h; injection h with h; subst h; exact .nil
  | cons c cs ih =>
    intro idx res hc h
    unfold equalizeLoop at h
    dsimp only at h
    obtain ⟨⟨X', y'⟩, hr, h⟩ := bind_ok.1 h
    obtain ⟨more, hm, h⟩ := bind_ok.1 h
    have h := pure_ok.1 h
    subst h
    refine .cons ⟨rfl, ?_⟩ (ih (fun c hc' => hc c (by simp [hc'])) hm)
    obtain ⟨hcc, h2, hlt, htot⟩ := hc c (by simp)
    obtain ⟨hnl, hnm⟩ := selectNot_length hwf.1 c.1
    have hol : (selectLabel X y c.1).length = c.2 := by rw [selectLabel_length hwf.1, hcc]
    have hrl : (selectNotLabel X y c.1).length = y.length - c.2 := by rw [hnl, hwf.1, hcc]
    obtain ⟨hmin, hc1, hc0⟩ := train_isMinority (m := (selectNotLabel X y c.1).length)
      (n := (selectLabel X y c.1).length) (by omega) (by omega)
    have hlen : (selectNotLabel X y c.1 ++ selectLabel X y c.1).length =
        (List.replicate (selectNotLabel X y c.1).length (0:Int) ++
          List.replicate (selectLabel X y c.1).length 1).length := by simp
    have hp : proportion1VsMany nMaj c.2 = .fin 1 := by
      unfold proportion1VsMany npDiv
      rw [if_neg (by omega), div_self]
      have : ((nMaj : Int) - c.2) ≠ 0 := by omega
      exact_mod_cast this
    rw [hp] at hr
    have hext := ho.exact_ idx 1 _ _ X' y' ⟨hlen, ?_⟩ hmin (by omega) (by norm_num) hr
    · rw [hc1, hc0, requested_one (by omega)] at hext
      rw [newOnes_extends hlen hext, hrl, hol]
    · intro r hr
      rcases List.mem_append.1 hr with hr | hr
      · exact hwf.2 r (hnm r hr)
      · exact hwf.2 r (selectLabel_mem hr)

theorem successiveLoop_counts {d : Nat} {over : BinOver} (ho : BinOverOK d over) {X : List Row} {y : List Int}
    (hwf : WF d X y) {nMaj : Nat} :
    ∀ {cs : List (Int × Nat)} {idx : Nat} {Xmaj : List Row} {res}, 1 ≤ idx → Xmaj.length = idx * nMaj →
      (∀ r ∈ Xmaj, r.length = d) →
      (∀ c ∈ cs, c.2 = y.count c.1 ∧ 2 < c.2 ∧ c.2 < nMaj) →
      successiveLoop over X y nMaj idx Xmaj cs = .ok res →
      List.Forall₂ (fun c r => r.1 = c.1 ∧ r.2.length = nMaj - c.2) cs res := by
  intro cs
  induction cs with
  | nil => intro idx Xmaj res _ _ _ _ h; unfold successiveLoop at h; injection h with h; subst h; exact .nil
  | cons c cs ih =>
    intro idx Xmaj res hidx hXl hXd hc h
    unfold successiveLoop at h
    dsimp only at h
    obtain ⟨⟨X', y'⟩, hr, h⟩ := bind_ok.1 h
    obtain ⟨more, hm, h⟩ := bind_ok.1 h
    have h := pure_ok.1 h
    subst h
    obtain ⟨hcc, h2, hlt⟩ := hc c (by simp)
    have hol : (selectLabel X y c.1).length = c.2 := by rw [selectLabel_length hwf.1, hcc]
    have hkm : nMaj ≤ idx * nMaj := Nat.le_mul_of_pos_left nMaj hidx
    obtain ⟨hmin, hc1, hc0⟩ := train_isMinority (m := Xmaj.length)
      (n := (selectLabel X y c.1).length) (by omega) (by omega)
    have hlen : (Xmaj ++ selectLabel X y c.1).length =
        (List.replicate Xmaj.length (0:Int) ++
          List.replicate (selectLabel X y c.1).length 1).length := by simp
    have hwf' : WF d (Xmaj ++ selectLabel X y c.1) (List.replicate Xmaj.length (0:Int) ++
          List.replicate (selectLabel X y c.1).length 1) := by
      refine ⟨hlen, ?_⟩
      intro r hr
      rcases List.mem_append.1 hr with hr | hr
      · exact hXd r hr
      · exact hwf.2 r (selectLabel_mem hr)
    have hden : ((idx : Int) * nMaj - c.2) ≠ 0 := by
      have : (nMaj : Int) ≤ (idx : Int) * nMaj := by exact_mod_cast hkm
      omega
    have hp : proportion1VsManySucc nMaj c.2 idx =
        .fin ((((nMaj : Int) - c.2 : Int) : ℚ) / ((((idx : Int) * nMaj - c.2) : Int) : ℚ)) := by
      unfold proportion1VsManySucc npDiv
      rw [if_neg hden]
    rw [hp] at hr
    have hpos : (0:ℚ) ≤ (((nMaj : Int) - c.2 : Int) : ℚ) / ((((idx : Int) * nMaj - c.2) : Int) : ℚ) := by
      apply div_nonneg
      · have : (0:Int) ≤ (nMaj : Int) - c.2 := by omega
        exact_mod_cast this
      · have h0 : (nMaj : Int) ≤ (idx : Int) * nMaj := by exact_mod_cast hkm
        have : (0:Int) ≤ (idx : Int) * nMaj - c.2 := by omega
        exact_mod_cast this
    have hext := ho.exact_ idx _ _ _ X' y' hwf' hmin (by omega) hpos hr
    rw [hc1, hc0, hXl, hol, requested_succ hlt hidx] at hext
    have hdim := (ho.extends_ idx _ _ _ X' y' hwf' hmin hr).2
    refine .cons ⟨rfl, newOnes_extends hlen (by rw [hXl]; rw [← hol] at hext ⊢; exact hext)⟩ ?_
    refine ih (by omega) ?_ ?_ (fun c hc' => hc c (by simp [hc'])) hm
    · rw [List.length_append, hXl, selectLabel_eq_classRows]
      have : X'.length = y'.length := by
        obtain ⟨new, e1, e2, e3⟩ := hext
        rw [e1, e2]; simp [e3, hXl, hol]
      rw [classRows_length this]
      obtain ⟨new, e1, e2, e3⟩ := hext
      rw [e2]
      simp [List.count_replicate, Nat.add_mul]
      omega
    · intro r hr
      rcases List.mem_append.1 hr with hr | hr
      · exact hXd r hr
      · exact hdim r (selectLabel_mem hr)

theorem count_stack {results : List (Int × List Row)} (hnd : (results.map Prod.fst).Nodup) {r : Int × List Row}
    (hr : r ∈ results) :
    ((results.map (fun r => List.replicate r.2.length r.1)).flatten).count r.1 = r.2.length := by
  induction results with
  | nil => simp at hr
  | cons a rs ih =>
    rw [List.map_cons, List.nodup_cons] at hnd
    rw [List.map_cons, List.flatten_cons, List.count_append]
    rcases List.mem_cons.1 hr with rfl | hr
    · rw [List.count_replicate_self]
      have : ((rs.map (fun r => List.replicate r.2.length r.1)).flatten).count r.1 = 0 := by
        rw [List.count_eq_zero]
        intro hmem
        obtain ⟨l, hl, hm⟩ := List.mem_flatten.1 hmem
        obtain ⟨r', hr', rfl⟩ := List.mem_map.1 hl
        exact hnd.1 (List.eq_of_mem_replicate hm ▸ List.mem_map.2 ⟨r', hr', rfl⟩)
      omega
    · rw [ih hnd.2 hr]
      have : a.1 ≠ r.1 := fun e => hnd.1 (e ▸ List.mem_map.2 ⟨r, hr, rfl⟩)
      rw [List.count_replicate]
      simp [this]

theorem count_stack_notMem {results : List (Int × List Row)} {l : Int} (h : l ∉ results.map Prod.fst) :
    ((results.map (fun r => List.replicate r.2.length r.1)).flatten).count l = 0 := by
  rw [List.count_eq_zero]
  intro hmem
  obtain ⟨s, hs, hm⟩ := List.mem_flatten.1 hmem
  obtain ⟨r', hr', rfl⟩ := List.mem_map.1 hs
  exact h (List.eq_of_mem_replicate hm ▸ List.mem_map.2 ⟨r', hr', rfl⟩)

/-- The class list computed from the labels: the first entry is a largest class, the others are the remaining
classes with their sizes. -/
theorem sortedClasses_shape {y : List Int} {s : Stats} (hs : classLabelStatistics y = .ok s) :
    ∃ maj cs, sortedClasses s = maj :: cs ∧ maj.2 = y.count maj.1 ∧ maj.1 ∈ y ∧
      (∀ l ∈ y, y.count l ≤ maj.2) ∧
      (∀ c ∈ cs, c.2 = y.count c.1 ∧ c.1 ∈ y ∧ c.1 ≠ maj.1) ∧ (cs.map Prod.fst).Nodup ∧
      (∀ l ∈ y, l ≠ maj.1 → ∃ c ∈ cs, c.1 = l) ∧ cs.Pairwise (fun a b => b.2 ≤ a.2) ∧ cs ≠ [] := by
  obtain ⟨u0, u1, rest, hu, hcs, _, _⟩ := stats_shape hs
  have hp := sortedClasses_perm s
  have hsort := sortedClasses_sorted s
  rw [hcs] at hp
  have hmem : ∀ c, c ∈ sortedClasses s ↔ c.2 = y.count c.1 ∧ c.1 ∈ y := by
    intro c
    rw [hp.mem_iff]
    unfold npUniqueCounts
    rw [List.mem_map]
    constructor
    · rintro ⟨v, hv, rfl⟩; exact ⟨rfl, mem_npUnique.1 hv⟩
    · rintro ⟨h1, h2⟩; exact ⟨c.1, mem_npUnique.2 h2, by rw [← h1]⟩
  have hnd : ((sortedClasses s).map Prod.fst).Nodup := by
    rw [(hp.map Prod.fst).nodup_iff]
    unfold npUniqueCounts
    rw [List.map_map]
    have : (Prod.fst ∘ fun v => (v, List.count v y)) = id := rfl
    rw [this, List.map_id]
    exact npUnique_nodup y
  have hlen : (sortedClasses s).length = rest.length + 2 := by
    rw [hp.length_eq]
    unfold npUniqueCounts
    rw [List.length_map, hu]
    simp
  cases hsc : sortedClasses s with
  | nil => rw [hsc] at hlen; simp at hlen
  | cons maj cs =>
    rw [hsc] at hmem hnd hsort hlen
    rw [List.map_cons, List.nodup_cons] at hnd
    rw [List.pairwise_cons] at hsort
    refine ⟨maj, cs, rfl, ((hmem maj).1 (by simp)).1, ((hmem maj).1 (by simp)).2, ?_, ?_, hnd.2, ?_, hsort.2, ?_⟩
    · intro l hl
      have := (hmem (l, y.count l)).2 ⟨rfl, hl⟩
      rcases List.mem_cons.1 this with h | h
      · rw [← h]
      · exact hsort.1 _ h
    · intro c hc
      obtain ⟨h1, h2⟩ := (hmem c).1 (by simp [hc])
      exact ⟨h1, h2, fun e => hnd.1 (e ▸ List.mem_map.2 ⟨c, hc, rfl⟩)⟩
    · intro l hl hne
      have := (hmem (l, y.count l)).2 ⟨rfl, hl⟩
      rcases List.mem_cons.1 this with h | h
      · exact absurd (by rw [← h]) hne
      · exact ⟨_, h, rfl⟩
    · rintro rfl
      simp at hlen

theorem count_pair_le {y : List Int} {a b : Int} (h : a ≠ b) : y.count a + y.count b ≤ y.length := by
  induction y with
  | nil => simp
  | cons c y ih =>
    simp only [List.count_cons, List.length_cons]
    have : ¬ (c = a ∧ c = b) := fun ⟨h1, h2⟩ => h (h1 ▸ h2)
    by_cases h1 : c = a <;> by_cases h2 : c = b <;> simp_all <;> omega

/-! ## Property theorems -/

/-- The data is kept as a prefix; every new row is labelled with an existing class, never with the class treated
as the majority `m` (a class of maximal size). -/
theorem C19_extends_input {strategy : MultiStrategy} {over : BinOver} {X X' : List Row} {y y' : List Int}
    (h : multiclassSample strategy over X y = .ok (X', y')) :
    ∃ (newX : List Row) (newy : List Int) (m : Int), X' = X ++ newX ∧ y' = y ++ newy ∧
      newX.length = newy.length ∧ m ∈ y ∧ (∀ l ∈ y, y.count l ≤ y.count m) ∧ ∀ l ∈ newy, l ∈ y ∧ l ≠ m := by
  unfold multiclassSample at h
  obtain ⟨s, hs, h⟩ := bind_ok.1 h
  obtain ⟨maj, cs, hsc, hmc, hmy, hmax, hcs, hnd, _, _, _⟩ := sortedClasses_shape hs
  rw [hsc] at h
  dsimp only at h
  obtain ⟨results, hres, h⟩ := bind_ok.1 h
  have h := pure_ok.1 h
  injection h with e1 e2
  have hlab : results.map Prod.fst = cs.map Prod.fst := by
    cases strategy with
    | equalize => exact equalizeLoop_labels hres
    | successive => exact successiveLoop_labels hres
  refine ⟨_, _, maj.1, e1.symm, e2.symm, ?_, hmy, by rw [← hmc]; exact hmax, ?_⟩
  · simp only [List.length_flatten, List.map_map]
    congr 1
    apply List.map_congr_left
    intro r _
    simp
  · intro l hl
    obtain ⟨seg, hseg, hm⟩ := List.mem_flatten.1 hl
    obtain ⟨r, hr, rfl⟩ := List.mem_map.1 hseg
    have : l = r.1 := List.eq_of_mem_replicate hm
    subst this
    have : r.1 ∈ cs.map Prod.fst := hlab ▸ List.mem_map.2 ⟨r, hr, rfl⟩
    obtain ⟨c, hc, e⟩ := List.mem_map.1 this
    rw [← e]
    exact ⟨(hcs c hc).2.1, (hcs c hc).2.2⟩

/-- The successive strategy brings every class to the size of the largest class, when that size is attained by one
class only and the other classes have more than two rows (exact arithmetic). -/
theorem C19_successive_balances {d : Nat} {over : BinOver} (ho : BinOverOK d over) {X X' : List Row}
    {y y' : List Int} (hwf : WF d X y) {m : Int} (hm : m ∈ y)
    (hother : ∀ l ∈ y, l ≠ m → 2 < y.count l ∧ y.count l < y.count m)
    (h : multiclassSample .successive over X y = .ok (X', y')) :
    ∀ l ∈ y, y'.count l = y.count m := by
  unfold multiclassSample at h
  obtain ⟨s, hs, h⟩ := bind_ok.1 h
  obtain ⟨maj, cs, hsc, hmc, hmy, hmax, hcs, hnd, hall, _, _⟩ := sortedClasses_shape hs
  rw [hsc] at h
  dsimp only at h
  obtain ⟨results, hres, h⟩ := bind_ok.1 h
  have h := pure_ok.1 h
  injection h with e1 e2
  have hmm : maj.1 = m := by
    by_contra hne
    have h1 := (hother maj.1 hmy hne).2
    have h2 := hmax m hm
    omega
  have hf := successiveLoop_counts ho hwf (by omega) (by rw [selectLabel_length hwf.1, ← hmc]; omega)
    (fun r hr => hwf.2 r (selectLabel_mem hr)) (by
      intro c hc
      obtain ⟨c1, c2, c3⟩ := hcs c hc
      have := hother c.1 c2 (hmm ▸ c3)
      rw [hmc, hmm, c1]
      exact ⟨rfl, this⟩) hres
  have hlab := successiveLoop_labels hres
  intro l hl
  rw [← e2, List.count_append]
  by_cases hlm : l = m
  · subst hlm
    rw [count_stack_notMem]
    · omega
    · rw [hlab]
      intro hmem
      obtain ⟨c, hc, e⟩ := List.mem_map.1 hmem
      exact (hcs c hc).2.2 (e.trans hmm.symm)
  · obtain ⟨c, hc, rfl⟩ := hall l hl (hmm ▸ hlm)
    obtain ⟨r, hr, hr1, hr2⟩ := forall₂_mem_left hf hc
    rw [← hr1, count_stack (hlab ▸ hnd) hr, hr2, hr1, ← (hcs c hc).1, hmc, hmm]
    have := (hother c.1 (hcs c hc).2.1 (hmm ▸ (hcs c hc).2.2)).2
    have := (hcs c hc).1
    omega

/-- The equalize strategy brings class `l` up to the number of all other rows, `N - n_l`. -/
theorem C19_equalize_size {d : Nat} {over : BinOver} (ho : BinOverOK d over) {X X' : List Row}
    {y y' : List Int} (hwf : WF d X y) {m : Int} (hm : m ∈ y)
    (hother : ∀ l ∈ y, l ≠ m → 2 < y.count l ∧ y.count l < y.count m)
    (h : multiclassSample .equalize over X y = .ok (X', y')) :
    y'.count m = y.count m ∧ ∀ l ∈ y, l ≠ m → y'.count l = y.length - y.count l := by
  unfold multiclassSample at h
  obtain ⟨s, hs, h⟩ := bind_ok.1 h
  obtain ⟨maj, cs, hsc, hmc, hmy, hmax, hcs, hnd, hall, _, _⟩ := sortedClasses_shape hs
  rw [hsc] at h
  dsimp only at h
  obtain ⟨results, hres, h⟩ := bind_ok.1 h
  have h := pure_ok.1 h
  injection h with e1 e2
  have hmm : maj.1 = m := by
    by_contra hne
    have h1 := (hother maj.1 hmy hne).2
    have h2 := hmax m hm
    omega
  have hf := equalizeLoop_counts ho hwf (by
      intro c hc
      obtain ⟨c1, c2, c3⟩ := hcs c hc
      have := hother c.1 c2 (hmm ▸ c3)
      have hp := count_pair_le (y := y) c3
      rw [hmc, c1]
      rw [hmm] at hp ⊢
      exact ⟨rfl, this.1, this.2, hp⟩) hres
  have hlab := equalizeLoop_labels hres
  constructor
  · rw [← e2, List.count_append, count_stack_notMem]
    · rfl
    · rw [hlab]
      intro hmem
      obtain ⟨c, hc, e⟩ := List.mem_map.1 hmem
      exact (hcs c hc).2.2 (e.trans hmm.symm)
  · intro l hl hlm
    rw [← e2, List.count_append]
    obtain ⟨c, hc, rfl⟩ := hall l hl (hmm ▸ hlm)
    obtain ⟨r, hr, hr1, hr2⟩ := forall₂_mem_left hf hc
    rw [← hr1, count_stack (hlab ▸ hnd) hr, hr2, hr1, ← (hcs c hc).1]
    have h1 := count_pair_le (y := y) (hcs c hc).2.2
    have h2 := (hother c.1 (hcs c hc).2.1 (hmm ▸ (hcs c hc).2.2)).2
    rw [hmm] at h1
    have := (hcs c hc).1
    omega

/-- Hence with three or more classes the equalize strategy does not equalize: every other class ends up larger than
the largest one. -/
theorem C19_equalize_overshoots {d : Nat} {over : BinOver} (ho : BinOverOK d over) {X X' : List Row}
    {y y' : List Int} (hwf : WF d X y) {m l l' : Int} (hm : m ∈ y) (hl : l ∈ y) (hl' : l' ∈ y)
    (h1 : l ≠ m) (h2 : l' ≠ m) (h3 : l ≠ l')
    (hother : ∀ l ∈ y, l ≠ m → 2 < y.count l ∧ y.count l < y.count m)
    (h : multiclassSample .equalize over X y = .ok (X', y')) : y'.count m < y'.count l := by
  obtain ⟨e1, e2⟩ := C19_equalize_size ho hwf hm hother h
  rw [e1, e2 l hl h1]
  have hpos := (hother l' hl' h2).1
  have : ∀ (y : List Int), y.count m + y.count l + y.count l' ≤ y.length := by
    intro y
    induction y with
    | nil => simp
    | cons c y ih =>
      simp only [List.count_cons, List.length_cons]
      by_cases q1 : c = m <;> by_cases q2 : c = l <;> by_cases q3 : c = l' <;> simp_all <;> omega
  have := this y
  omega

/-- If the largest class size is attained by two classes (of more than two rows each), both strategies raise
`ValueError`: the first processed class asks for a proportion of 0/0. -/
theorem C19_tied_largest_raises {d : Nat} {over : BinOver} (ho : BinOverOK d over) (strategy : MultiStrategy)
    {X : List Row} {y : List Int} (hwf : WF d X y) {m m' : Int} (hm : m ∈ y) (hm' : m' ∈ y) (hne : m ≠ m')
    (hmax : ∀ l ∈ y, y.count l ≤ y.count m) (htie : y.count m' = y.count m) (h2 : 2 < y.count m) :
    multiclassSample strategy over X y = .error .valueError := by
  have hst : ∃ s, classLabelStatistics y = .ok s := by
    unfold classLabelStatistics npUniqueCounts
    have hu : m ∈ npUnique y := mem_npUnique.2 hm
    have hu' : m' ∈ npUnique y := mem_npUnique.2 hm'
    match hq : npUnique y with
    | [] => rw [hq] at hu; simp at hu
    | [a] => rw [hq] at hu hu'; simp at hu hu'; exact absurd (hu.trans hu'.symm) hne
    | a :: b :: r => exact ⟨_, rfl⟩
  obtain ⟨s, hs⟩ := hst
  obtain ⟨maj, cs, hsc, hmc, hmy, hmajmax, hcs, hnd, hall, hsort, hcne⟩ := sortedClasses_shape hs
  have hmaj : maj.2 = y.count m := le_antisymm (hmc ▸ hmax _ hmy) (hmajmax m hm)
  unfold multiclassSample
  rw [hs, ok_bind, hsc]
  dsimp only
  cases cs with
  | nil => exact absurd rfl hcne
  | cons c cs =>
    obtain ⟨hcc, hcy, hcm⟩ := hcs c (by simp)
    rw [List.pairwise_cons] at hsort
    have hc2 : c.2 = y.count m := by
      have hle : c.2 ≤ y.count m := hcc ▸ hmax _ hcy
      refine le_antisymm hle ?_
      have : ∃ l, (l = m ∨ l = m') ∧ l ≠ maj.1 := by
        by_cases h : m = maj.1
        · exact ⟨m', Or.inr rfl, fun e => hne (h.trans e.symm)⟩
        · exact ⟨m, Or.inl rfl, h⟩
      obtain ⟨l, hl, hlm⟩ := this
      have hly : l ∈ y := by rcases hl with rfl | rfl <;> assumption
      have hlc : y.count l = y.count m := by rcases hl with rfl | rfl <;> first | rfl | exact htie
      obtain ⟨c', hc', rfl⟩ := hall l hly hlm
      rcases List.mem_cons.1 hc' with rfl | h
      · rw [hcc, hlc]
      · have := hsort.1 c' h
        have := (hcs c' (by simp [h])).1
        omega
    have hol : (selectLabel X y c.1).length = y.count m := by rw [selectLabel_length hwf.1, ← hcc, hc2]
    cases strategy with
    | equalize =>
      unfold equalizeLoop
      dsimp only
      have hp : proportion1VsMany maj.2 c.2 = .nan := by
        unfold proportion1VsMany npDiv
        rw [if_pos (by omega), if_pos (by omega)]
      obtain ⟨hnl, hnm⟩ := selectNot_length hwf.1 c.1
      have hpair := count_pair_le (y := y) hcm
      have hxy := hwf.1
      obtain ⟨hmin, hc1, _⟩ := train_isMinority (m := (selectNotLabel X y c.1).length)
        (n := (selectLabel X y c.1).length) (by omega) (by omega)
      rw [hp, ho.nan_ _ _ _ ⟨by simp, ?_⟩ hmin (by omega)]
      · rfl
      · intro r hr
        rcases List.mem_append.1 hr with hr | hr
        · exact hwf.2 r (hnm r hr)
        · exact hwf.2 r (selectLabel_mem hr)
    | successive =>
      unfold successiveLoop
      dsimp only
      have hp : proportion1VsManySucc maj.2 c.2 1 = .nan := by
        unfold proportion1VsManySucc npDiv
        rw [if_pos (by push_cast; omega), if_pos (by omega)]
      have hml : (selectLabel X y maj.1).length = y.count m := by rw [selectLabel_length hwf.1, ← hmc, hmaj]
      obtain ⟨hmin, hc1, _⟩ := train_isMinority (m := (selectLabel X y maj.1).length)
        (n := (selectLabel X y c.1).length) (by omega) (by omega)
      rw [hp, ho.nan_ _ _ _ ⟨by simp, ?_⟩ hmin (by omega)]
      · rfl
      · intro r hr
        rcases List.mem_append.1 hr with hr | hr
        · exact hwf.2 r (selectLabel_mem hr)
        · exact hwf.2 r (selectLabel_mem hr)

/-- With a single class the call raises `IndexError`. -/
theorem C19_single_class_raises (strategy : MultiStrategy) (over : BinOver) (X : List Row) {y : List Int} {l : Int}
    (h : ∀ l' ∈ y, l' = l) : multiclassSample strategy over X y = .error .indexError := by
  have : classLabelStatistics y = .error .indexError := by
    cases hc : classLabelStatistics y with
    | error e =>
      unfold classLabelStatistics at hc
      split at hc
      · cases hc
      · injection hc with hc; rw [← hc]
    | ok s =>
      obtain ⟨h1, h2, h3⟩ := stats_min_mem hc
      exact absurd ((h _ h1).trans (h _ h2).symm) h3
  unfold multiclassSample
  rw [this]
  rfl

/-- SMOTE without a gaussian component meets the contract of the inner oversampler. -/
theorem C19_smote_meets_contract {par : SmoteParams} (hg : par.ss.gaussian = .none) {vol : List Row → ℚ}
    {dr : Nat → Draws} (hdr : ∀ i, (dr i).OK) {d : Nat} {knn : Nat → List Row → List (List Nat)} (hk : KnnOK knn) :
    BinOverOK d (smoteOver par vol dr d knn) := by
  have hnonfin : ∀ (X : List Row) (y : List Int) (s : Stats), classLabelStatistics y = .ok s →
      sample defaultChecks d (fun _ _ _ => (.error .valueError : Res (List Row × List Int))) X y =
        if y.count s.minLabel ≤ 2 then .ok (X, y) else .error .valueError := by
    intro X y s hs
    unfold sample
    rw [hs, ok_bind, stats_count hs (stats_min_mem hs).1, checksFire_default]
    by_cases h2 : y.count s.minLabel ≤ 2
    · simp [h2]; try rfl
    · simp [h2]
  have hfin : ∀ (i : Nat) (q : ℚ) (X : List Row) (y : List Int) (X' : List Row) (y' : List Int), WF d X y →
      IsMinority y 1 0 → smoteSample { par with proportion := q } vol (dr i) d knn X y = .ok (X', y') →
      (y.count 1 ≤ 2 → X' = X ∧ y' = y) ∧
      (2 < y.count 1 → Extends X y 1 (requested q (y.count 0) (y.count 1)) X' y') ∧ ∀ r ∈ X', r.length = d := by
    intro i q X y X' y' hwf hmin h
    obtain ⟨s, hs, e1, e2⟩ := stats_of_isMinority hmin
    obtain ⟨h1, h2⟩ := smote_sound hwf hk (hdr i) hs h
    rw [e1, e2] at *
    refine ⟨h1, fun hc => ?_, ?_⟩
    · obtain ⟨gen, g1, g2, g3, _⟩ := h2 hc
      exact ⟨_, g2, by rw [g3, g1], by rw [addGaussianNoise_length, g1]⟩
    · intro r hr
      by_cases hc : y.count 1 ≤ 2
      · rw [(h1 hc).1] at hr; exact hwf.2 r hr
      · obtain ⟨gen, _, g2, _, g4⟩ := h2 (by omega)
        rw [g2] at hr
        rcases List.mem_append.1 hr with hr | hr
        · exact hwf.2 r hr
        · dsimp only at hr
          rw [hg] at hr
          obtain ⟨_, _, _, _, _, _, _, _, _, _, hcomb⟩ := g4 r hr
          exact hcomb.2.2.2.1
  constructor
  · intro i p X y X' y' hwf hmin h
    have nf : sample defaultChecks d (fun _ _ _ => (.error .valueError : Res (List Row × List Int))) X y
        = .ok (X', y') → (∃ n, Extends X y 1 n X' y') ∧ ∀ r ∈ X', r.length = d := by
      intro h
      obtain ⟨s, hs, e1, e2⟩ := stats_of_isMinority hmin
      rw [hnonfin X y s hs] at h
      split at h
      · injection h with h
        injection h with h1 h2
        subst h1 h2
        exact ⟨⟨0, [], by simp⟩, hwf.2⟩
      · cases h
    cases p with
    | fin q =>
      obtain ⟨h1, h2, h3⟩ := hfin i q X y X' y' hwf hmin h
      refine ⟨?_, h3⟩
      by_cases hc : y.count 1 ≤ 2
      · obtain ⟨rfl, rfl⟩ := h1 hc
        exact ⟨0, [], by simp⟩
      · exact ⟨_, h2 (by omega)⟩
    | posInf => exact nf h
    | negInf => exact nf h
    | nan => exact nf h
  · intro i q X y X' y' hwf hmin h2 _ h
    exact (hfin i q X y X' y' hwf hmin h).2.1 h2
  · intro i X y hwf hmin h2
    obtain ⟨s, hs, e1, e2⟩ := stats_of_isMinority hmin
    show sample defaultChecks d (fun _ _ _ => (.error .valueError : Res (List Row × List Int))) X y = _
    rw [hnonfin X y s hs, e1, if_neg (by omega)]

/-- A concrete three-class case: sizes 5, 4, 3 become 5, 5, 5 (successive) and 5, 8, 9 (equalize). -/
example : WF 2 (exX ++ [[9, 9], [9, 8], [8, 9], [8, 8]]) (exY ++ [2, 2, 2, 2]) ∧
    (∀ l ∈ exY ++ [2, 2, 2, 2], l ≠ 0 → 2 < (exY ++ [2, 2, 2, 2]).count l ∧
      (exY ++ [2, 2, 2, 2]).count l < (exY ++ [2, 2, 2, 2]).count 0) ∧
    ((multiclassSample .successive (smoteOver exPar (fun _ => 1) (fun _ => exDraws) 2 exKnn)
      (exX ++ [[9, 9], [9, 8], [8, 9], [8, 8]]) (exY ++ [2, 2, 2, 2])).map Prod.snd
        = .ok (exY ++ [2, 2, 2, 2] ++ [2] ++ [1, 1])) ∧
    ((multiclassSample .equalize (smoteOver exPar (fun _ => 1) (fun _ => exDraws) 2 exKnn)
      (exX ++ [[9, 9], [9, 8], [8, 9], [8, 8]]) (exY ++ [2, 2, 2, 2])).map Prod.snd
        = .ok (exY ++ [2, 2, 2, 2] ++ [2, 2, 2, 2] ++ [1, 1, 1, 1, 1, 1])) := by
  refine ⟨by decide, by decide, ?_, ?_⟩ <;> decide +kernel

end Verif
