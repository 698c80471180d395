import Verif.Lemmas.Drawn
import Verif.Model.MergeAlgs
import Verif.Props.C58
import Verif.Props.C91

/-! # Drawing clusters in proportion to their weights and sampling in them -/

namespace Verif

/-- What `sample_simplex` needs for the rows of a cluster: rows of the right length, a neighbour table of positive width with a line for
every row, and base weights (if any) which are not negative and not all zero. -/
structure TaskOK (ss : SSParams) (vol : List Row → ℚ) (d : Nat) (t : ClusterTask) : Prop where
  rows : ∀ r ∈ t.rows, r.length = d
  ne : t.rows ≠ []
  table : TableOK t.indices t.k t.rows.length
  len : t.indices.length = t.rows.length
  width : 1 ≤ t.k
  args : t.args = { baseWeights := t.args.baseWeights }
  weights : WeightsOK ss.simplexSampling vol t.args.baseWeights t.rows.length

theorem shares_nonzero {l : List ℚ} (h : l.sum ≠ 0) : shares l = l.map (fun q => q / l.sum) := by unfold shares; rw [if_neg h]

theorem shares_len (l : List ℚ) : (shares l).length = l.length := by unfold shares; split <;> simp

theorem ByCluster.imp {m : Nat} {sel : List Nat} {P Q : Nat → Row → Prop} {new : List Row} (h : ByCluster m sel P new)
    (hPQ : ∀ c ∈ sel, ∀ x, P c x → Q c x) : ByCluster m sel Q new := by
  obtain ⟨parts, h1, h2⟩ := h
  refine ⟨parts, h1, fun j hj => ⟨(h2 j hj).1, fun x hx => ?_⟩⟩
  refine hPQ j ?_ x ((h2 j hj).2 x hx)
  have := (h2 j hj).1
  by_contra hc
  rw [List.count_eq_zero_of_not_mem hc, List.length_eq_zero_iff] at this
  rw [this] at hx
  simp at hx

/-- `x` belongs to the base row in whose share of the weights some number of the generator falls. -/
def DrawnBase (drs : Nat → Draws) (w : List ℚ) (d nDim : Nat) (rows : List Row) (table : List (List Nat)) (x : Row) : Prop :=
  ∃ t i b, DrawsShare w ((drs t).choiceU i) b ∧ SimplexOf d nDim rows rows table (fun c => c = b) x

/-- The clusters drawn have positive weights, and every cluster contributes as many rows as it was drawn, made of its rows. -/
theorem drawClusters_strong {ss : SSParams} {vol : List Row → ℚ} {cu : Nat → ℚ} {drs : Nat → Draws} {d n : Nat} {ws : List ℚ}
    {task : Nat → Res ClusterTask} {T : Nat → ClusterTask} (hn : 0 < n) (h0 : ∀ x ∈ ws, 0 ≤ x) (hpos : 0 < ws.sum)
    (htask : ∀ c x, ws[c]? = some x → 0 < x → task c = .ok (T c) ∧ TaskOK ss vol d (T c))
    (hcu : ∀ i, 0 ≤ cu i ∧ cu i < 1) (hdr : ∀ i, (drs i).OK) (hu : ∀ t i j, 0 < (drs t).simplexU i j) (hg : ss.gaussian = .none)
    (hvol : ∀ vs, 0 ≤ vol vs) (hd : 1 ≤ ss.nDim) (hwi : ss.within = .random ∨ (ss.within = .deterministic ∧ ss.nDim ≤ 2)) :
    ∃ sel out, drawClusters ss vol cu drs d n ws task = .ok out ∧ out.length = n ∧ DrawnByShares (shares ws) cu n sel ∧
      (∀ c ∈ sel, ∃ x, ws[c]? = some x ∧ 0 < x) ∧
      ByCluster ws.length sel (fun c x => SimplexOf d (min ss.nDim (T c).k) (T c).rows (T c).rows (T c).indices
        (fun b => ∀ w, (T c).args.baseWeights = some w → ∃ q, w[b]? = some q ∧ 0 < q) x ∧
        (ss.simplexSampling ≠ .deterministic → ss.within = .random → ∀ w, (T c).args.baseWeights = some w →
          DrawnBase drs w d (min ss.nDim (T c).k) (T c).rows (T c).indices x)) out := by
  have hsh := shares_nonzero hpos.ne'
  have hnorm : normalize ws = .ok (shares ws) := by unfold normalize; rw [if_neg hpos.ne', hsh]
  obtain ⟨sel, hsel, hl, hmem⟩ := npChoice_ok (n := n) (p := shares ws) rfl (by
      intro x hx
      rw [hsh] at hx
      obtain ⟨q, hq, rfl⟩ := List.mem_map.1 hx
      exact div_nonneg (h0 q hq) hpos.le) (by rw [hsh, sum_map_div, div_self hpos.ne']) hcu
  have hselc : ∀ c ∈ sel, ∃ x, ws[c]? = some x ∧ 0 < x := by
    intro c hc
    obtain ⟨x, hx, hxpos⟩ := hmem c hc
    rw [hsh, List.getElem?_map, Option.map_eq_some_iff] at hx
    obtain ⟨q, hq, rfl⟩ := hx
    refine ⟨q, hq, ?_⟩
    by_contra hq0
    have : q = 0 := le_antisymm (not_lt.1 hq0) (h0 q (List.mem_of_getElem? hq))
    rw [this, zero_div] at hxpos
    exact lt_irrefl _ hxpos
  have hlt : ∀ c ∈ sel, c < ws.length := by
    intro c hc
    obtain ⟨x, hx, _⟩ := hselc c hc
    exact (List.getElem?_eq_some_iff.1 hx).1
  obtain ⟨out, hout⟩ := sampleInClusters_ok (ss := ss) (vol := vol) (drs := drs) (d := d) (sel := sel) (task := task)
    (by intro h; rw [h, List.length_nil] at hl; omega) (by
      intro c i hc
      obtain ⟨x, hx, hxp⟩ := hselc c hc
      obtain ⟨h1, h2⟩ := htask c x hx hxp
      refine ⟨_, h1, ?_⟩
      have hlen := List.length_pos_iff.2 h2.ne
      have hargs := h2.args
      refine sampleSimplex_ok (a := (T c).args) ?_ (by rw [h2.len])
        (by intro he; have := h2.len; rw [he, List.length_nil] at this; omega)
        h2.width hd ?_ ?_ ?_ ?_ (hdr i).choice (hu i) (by
          rcases hwi with h | ⟨h, h'⟩
          · exact .inl h
          · exact .inr ⟨h, by omega⟩)
      · rw [hargs]; exact h2.table
      · rw [hargs]
      · rw [hargs]; intro ws hws; cases hws
      · rw [hargs]; intro hV; cases hV
      · rw [h2.len]; exact h2.weights)
  have hby := sampleInClusters_sound (m := ws.length) (P := fun c x => SimplexOf d (min ss.nDim (T c).k) (T c).rows (T c).rows
        (T c).indices (fun b => ∀ w, (T c).args.baseWeights = some w → ∃ q, w[b]? = some q ∧ 0 < q) x ∧
        (ss.simplexSampling ≠ .deterministic → ss.within = .random → ∀ w, (T c).args.baseWeights = some w →
          DrawnBase drs w d (min ss.nDim (T c).k) (T c).rows (T c).indices x)) hlt (by
      intro c t i o hc ht ho
      obtain ⟨x, hx, hxp⟩ := hselc c hc
      obtain ⟨h1, h2⟩ := htask c x hx hxp
      rw [h1] at ht
      injection ht with ht
      subst ht
      have hargs := h2.args
      have hxv : (T c).args.Xv = none := by rw [hargs]
      obtain ⟨g1, g2⟩ := sampleSimplex_simplexOf h2.rows (by rw [hxv]; intro V hV; cases hV) (by rw [hargs])
        (by rw [hargs]; intro hV; cases hV) (hdr i) (by rw [h2.len]) hg
        (by
          intro w hw
          have := h2.weights
          rw [hw] at this
          rw [h2.len]
          exact ⟨this.1, this.2.1⟩) (by rw [hargs]) hvol ho
      refine ⟨g1, fun x hx => ?_⟩
      have := g2 x hx
      rw [hxv] at this
      refine ⟨this, fun hmode hran w hw => ?_⟩
      obtain ⟨l, hl⟩ := List.mem_iff_getElem?.1 hx
      have hwo := h2.weights
      rw [hw] at hwo
      obtain ⟨b, hb1, hb2⟩ := sampleSimplex_drawn h2.rows (by rw [hxv]; intro V hV; cases hV)
        (by rw [hargs]; intro ws hws; cases hws) (hdr i) (by rw [h2.len]) hg hw (by rw [h2.len]; exact hwo.1) hwo.2.1
        (by rw [hargs]) hvol hmode hran ho l x hl
      rw [hxv] at hb2
      exact ⟨i, l, b, hb1, hb2⟩) hout
  have hlen := ByCluster.length hby hlt
  refine ⟨sel, out, ?_, by rw [hlen, hl], npChoice_drawn hcu hsel, hselc, hby⟩
  unfold drawClusters
  rw [hnorm, ok_bind, hsel, ok_bind]
  exact hout

theorem drawClusters_spec {ss : SSParams} {vol : List Row → ℚ} {cu : Nat → ℚ} {drs : Nat → Draws} {d n : Nat} {ws : List ℚ}
    {task : Nat → Res ClusterTask} {T : Nat → ClusterTask} (hn : 0 < n) (h0 : ∀ x ∈ ws, 0 ≤ x) (hpos : 0 < ws.sum)
    (htask : ∀ c x, ws[c]? = some x → 0 < x → task c = .ok (T c) ∧ TaskOK ss vol d (T c))
    (hcu : ∀ i, 0 ≤ cu i ∧ cu i < 1) (hdr : ∀ i, (drs i).OK) (hu : ∀ t i j, 0 < (drs t).simplexU i j) (hg : ss.gaussian = .none)
    (hvol : ∀ vs, 0 ≤ vol vs) (hd : 1 ≤ ss.nDim) (hwi : ss.within = .random ∨ (ss.within = .deterministic ∧ ss.nDim ≤ 2)) :
    ∃ sel out, drawClusters ss vol cu drs d n ws task = .ok out ∧ out.length = n ∧ DrawnByShares (shares ws) cu n sel ∧
      (∀ c ∈ sel, ∃ x, ws[c]? = some x ∧ 0 < x) ∧
      ByCluster ws.length sel (fun c => SimplexOf d (min ss.nDim (T c).k) (T c).rows (T c).rows (T c).indices
        (fun b => ∀ w, (T c).args.baseWeights = some w → ∃ q, w[b]? = some q ∧ 0 < q)) out := by
  obtain ⟨sel, out, h1, h2, h3, h4, h5⟩ := drawClusters_strong hn h0 hpos htask hcu hdr hu hg hvol hd hwi
  exact ⟨sel, out, h1, h2, h3, h4, h5.imp (fun c _ x h => h.1)⟩

end Verif
