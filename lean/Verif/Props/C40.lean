import Verif.Model.Amsco
import Verif.Lemmas.Smote
import Verif.Lemmas.SmoteExample
import Verif.Lemmas.Interp
import Verif.Lemmas.Noise
import Verif.Props.C37

/-!
# C40: AMSCO
-/

namespace Verif

/-! ## The choice between four combinations -/

/-- `x` is a number and larger than the three others. -/
def StrictlyBest (x u v w : ℚ) : Prop := u < x ∧ v < x ∧ w < x

theorem maxNan_some (a b c d : ℚ) : maxNan [some a, some b, some c, some d] = some (max (max (max a b) c) d) := rfl

/-- What is continued with when one of the four combinations is strictly the best one. The combination (new minority, old
majority) and the combination (old minority, new majority) are stored correctly; when (old, old) is best, (old, new) is stored;
when (new, new) is best, (new, old) is stored. -/
theorem C40_choice (newOld oldOld newNew oldNew : ℚ) (current : List Row × List Row) (newMin newMaj : List Row) :
    (StrictlyBest newOld oldOld newNew oldNew →
      chooseCurrent (some newOld) (some oldOld) (some newNew) (some oldNew) current newMin newMaj = (newMin, current.2)) ∧
    (StrictlyBest oldNew newOld oldOld newNew →
      chooseCurrent (some newOld) (some oldOld) (some newNew) (some oldNew) current newMin newMaj = (current.1, newMaj)) ∧
    (StrictlyBest oldOld newOld newNew oldNew →
      chooseCurrent (some newOld) (some oldOld) (some newNew) (some oldNew) current newMin newMaj = (current.1, newMaj)) ∧
    (StrictlyBest newNew newOld oldOld oldNew →
      chooseCurrent (some newOld) (some oldOld) (some newNew) (some oldNew) current newMin newMaj = (newMin, current.2)) := by
  unfold chooseCurrent StrictlyBest
  rw [maxNan_some]
  unfold inPair
  refine ⟨?_, ?_, ?_, ?_⟩ <;> rintro ⟨h1, h2, h3⟩
  · have hm : max (max (max newOld oldOld) newNew) oldNew = newOld := by
      rw [max_eq_left h1.le, max_eq_left h2.le, max_eq_left h3.le]
    rw [hm]
    simp [h1.ne', h3.ne']
  · have hm : max (max (max newOld oldOld) newNew) oldNew = oldNew := by
      apply max_eq_right
      exact max_le (max_le h1.le h2.le) h3.le
    rw [hm]
    simp [h1.ne', h3.ne']
  · have hm : max (max (max newOld oldOld) newNew) oldNew = oldOld := by
      rw [max_eq_right h1.le, max_eq_left h2.le, max_eq_left h3.le]
    rw [hm]
    simp [h1.ne', h2.ne']
  · have hm : max (max (max newOld oldOld) newNew) oldNew = newNew := by
      rw [max_eq_right (max_le h1.le h2.le), max_eq_left h3.le]
    rw [hm]
    simp [h2.ne', h3.ne']

/-- So the claim that the best of the four combinations is kept is false. -/
theorem C40_best_is_not_kept : ¬ ∀ (f0 f1 f2 f3 : ℚ) (current : List Row × List Row) (newMin newMaj : List Row),
    StrictlyBest f1 f0 f2 f3 →
    chooseCurrent (some f0) (some f1) (some f2) (some f3) current newMin newMaj = current := by
  intro h
  have h1 := h 0 1 0 0 ([[0]], [[1]]) [[2]] [[3]] (by unfold StrictlyBest; norm_num)
  have h2 := (C40_choice 0 1 0 0 ([[0]], [[1]]) [[2]] [[3]]).2.2.1 (by unfold StrictlyBest; norm_num)
  rw [h2] at h1
  exact absurd h1 (by decide +kernel)

/-- If one of the four fitness values is NaN, the round changes nothing. -/
theorem C40_nan {f0 f1 f2 f3 : Option ℚ} (h : f0 = none ∨ f1 = none ∨ f2 = none ∨ f3 = none) (current : List Row × List Row)
    (newMin newMaj : List Row) : chooseCurrent f0 f1 f2 f3 current newMin newMaj = current := by
  have hm : maxNan [f0, f1, f2, f3] = none := by
    unfold maxNan
    rw [if_pos]
    rcases h with rfl | rfl | rfl | rfl <;> simp
  unfold chooseCurrent
  rw [hm]
  simp [inPair]

/-! ## The swarm that tunes SMOTE -/

/-- An evaluated candidate. -/
structure Evaluated where
  data : List Row × List Row
  score : AScore

theorem gtNan_iff {a b : Option ℚ} : gtNan a b = true ↔ ∃ x y, a = some x ∧ b = some y ∧ y < x := by
  cases a <;> cases b <;> simp [gtNan]

/-- `g'` records the best of `g` and the candidates. -/
def BestOf (g : OGlobal) (cs : List Evaluated) (g' : OGlobal) : Prop :=
  (g'.data = g.data ∧ g'.score = g.score ∧ ∀ c ∈ cs, ¬ gtNan c.score.joint g.score.joint = true) ∨
  ∃ c ∈ cs, g'.data = some c.data ∧ g'.score = c.score ∧ gtNan c.score.joint g.score.joint = true ∧
    ∀ c' ∈ cs, ¬ gtNan c'.score.joint c.score.joint = true

theorem gtNan_not {a b c : Option ℚ} (h : gtNan b c = true) (h' : ¬ gtNan a c = true) : ¬ gtNan a b = true := by
  rw [gtNan_iff] at *
  obtain ⟨x, z, rfl, rfl, hx⟩ := h
  rintro ⟨x', y, rfl, e, hy⟩
  injection e with e
  subst e
  exact h' ⟨x', z, rfl, rfl, by linarith⟩

theorem gtNan_trans {a b c : Option ℚ} (h : gtNan a b = true) (h' : gtNan b c = true) : gtNan a c = true := by
  rw [gtNan_iff] at *
  obtain ⟨x, z, rfl, rfl, hx⟩ := h
  obtain ⟨x', y, e, rfl, hy⟩ := h'
  injection e with e
  subst e
  exact ⟨x, y, rfl, rfl, by linarith⟩

theorem gtNan_irrefl (a : Option ℚ) : ¬ gtNan a a = true := by
  rw [gtNan_iff]
  rintro ⟨x, y, rfl, e, h⟩
  injection e with e
  subst e
  exact lt_irrefl _ h

theorem BestOf.append {g g' g'' : OGlobal} {cs cs' : List Evaluated} (h : BestOf g cs g') (h' : BestOf g' cs' g'') :
    BestOf g (cs ++ cs') g'' := by
  rcases h with ⟨e1, e2, e3⟩ | ⟨c, hc, e1, e2, e3, e4⟩ <;> rcases h' with ⟨f1, f2, f3⟩ | ⟨c', hc', f1, f2, f3, f4⟩
  · left
    refine ⟨f1.trans e1, f2.trans e2, ?_⟩
    intro c hc
    rcases List.mem_append.1 hc with hc | hc
    · exact e3 c hc
    · rw [← e2]; exact f3 c hc
  · right
    rw [e2] at f3
    refine ⟨c', List.mem_append_right _ hc', f1, f2, f3, ?_⟩
    intro c hc
    rcases List.mem_append.1 hc with hc | hc
    · exact gtNan_not f3 (e3 c hc)
    · exact f4 c hc
  · right
    refine ⟨c, List.mem_append_left _ hc, f1.trans e1, f2.trans e2, e3, ?_⟩
    intro c' hc'
    rcases List.mem_append.1 hc' with hc' | hc'
    · exact e4 c' hc'
    · rw [← e2]; exact f3 c' hc'
  · right
    rw [e2] at f3
    refine ⟨c', List.mem_append_right _ hc', f1, f2, gtNan_trans f3 e3, ?_⟩
    intro c'' hc''
    rcases List.mem_append.1 hc'' with hc'' | hc''
    · exact gtNan_not f3 (e4 c'' hc'')
    · exact f4 c'' hc''

theorem updateScores_best (g : OGlobal) (p : OParticle) (score : AScore) (data : List Row × List Row) :
    BestOf g [⟨data, score⟩] (updateScores g p score data).1 := by
  unfold updateScores
  by_cases h : gtNan score.joint g.score.joint = true
  · right
    refine ⟨⟨data, score⟩, by simp, by simp [h], by simp [h], h, ?_⟩
    intro c' hc'
    rw [List.mem_singleton] at hc'
    subst hc'
    exact gtNan_irrefl _
  · left
    refine ⟨by simp [h], by simp [h], ?_⟩
    intro c hc
    rw [List.mem_singleton] at hc
    subst hc
    exact h

/-- The position of the particle is inside the search region. -/
def InLimits (q : ℚ × ℚ) : Prop := 1/4 ≤ q.1 ∧ q.1 ≤ 4 ∧ 3 ≤ q.2 ∧ q.2 ≤ 10

theorem npClip_bounds {x lo hi : ℚ} (h : lo ≤ hi) : lo ≤ npClip x lo hi ∧ npClip x lo hi ≤ hi := by
  unfold npClip
  exact ⟨le_min (le_max_right _ _) h, min_le_right _ _⟩

theorem updatePosition_limits (p : OParticle) : InLimits (updatePosition p).pos := by
  unfold updatePosition InLimits
  have h1 := npClip_bounds (x := p.pos.1 + p.vel.1) (lo := 1/4) (hi := 4) (by norm_num)
  have h2 := npClip_bounds (x := p.pos.2 + p.vel.2) (lo := 3) (hi := 10) (by norm_num)
  exact ⟨h1.1, h1.2, h2.1, h2.2⟩

theorem evaluateOsmote_spec {cand : Nat → ℚ × ℚ → Res (List Row × List Row)} {fit : Fit} :
    ∀ {ps ps' : List OParticle} {g g' : OGlobal} {i : Nat}, (∀ p ∈ ps, InLimits p.pos) →
      evaluateOsmote cand fit g i ps = .ok (g', ps') →
      ps'.length = ps.length ∧ ∃ cs : List Evaluated, cs.length = ps.length ∧ BestOf g cs g' ∧
        ∀ c ∈ cs, ∃ j q, InLimits q ∧ cand j q = .ok c.data ∧ fit c.data.1 c.data.2 = .ok c.score
  | [], ps', g, g', i, _, h => by
    injection h with h
    obtain ⟨rfl, rfl⟩ := Prod.mk.inj h
    exact ⟨rfl, [], rfl, Or.inl ⟨rfl, rfl, by simp⟩, by simp⟩
  | p :: ps, ps', g, g', i, hp, h => by
    unfold evaluateOsmote at h
    rw [bind_ok] at h
    obtain ⟨c, hc, h⟩ := h
    rw [bind_ok] at h
    obtain ⟨sc, hsc, h⟩ := h
    dsimp only at h
    rw [bind_ok] at h
    obtain ⟨⟨g1, ps1⟩, hr, h⟩ := h
    rw [pure_ok] at h
    obtain ⟨rfl, rfl⟩ := Prod.mk.inj h
    obtain ⟨hl, cs, hcl, hb, hcs⟩ := evaluateOsmote_spec (fun q hq => hp q (List.mem_cons_of_mem _ hq)) hr
    refine ⟨by simp [hl], ⟨c, sc⟩ :: cs, by simp [hcl], ?_, ?_⟩
    · exact (updateScores_best g p sc c).append hb
    · intro c' hc'
      rcases List.mem_cons.1 hc' with rfl | hc'
      · exact ⟨i, p.pos, hp p (by simp), hc, hsc⟩
      · exact hcs c' hc'

theorem osmoteLoop_spec {par : AmscoParams} {cand : Nat → Nat → ℚ × ℚ → Res (List Row × List Row)} {fit : Fit} :
    ∀ {left t : Nat} {g g' : OGlobal} {ps : List OParticle}, osmoteLoop par cand fit left t g ps = .ok g' →
      ∃ cs : List Evaluated, cs.length = left * ps.length ∧ BestOf g cs g' ∧
        ∀ c ∈ cs, ∃ t j q, InLimits q ∧ cand t j q = .ok c.data ∧ fit c.data.1 c.data.2 = .ok c.score
  | 0, t, g, g', ps, h => by
    injection h with h
    subst h
    exact ⟨[], by simp, Or.inl ⟨rfl, rfl, by simp⟩, by simp⟩
  | left + 1, t, g, g', ps, h => by
    unfold osmoteLoop at h
    rw [bind_ok] at h
    obtain ⟨⟨g1, ps1⟩, hr, h⟩ := h
    obtain ⟨hl, cs, hcl, hb, hcs⟩ := evaluateOsmote_spec (by
      intro p hp
      rw [List.mem_map] at hp
      obtain ⟨q, _, rfl⟩ := hp
      exact updatePosition_limits _) hr
    obtain ⟨cs', hcl', hb', hcs'⟩ := osmoteLoop_spec h
    rw [List.length_map] at hl hcl
    refine ⟨cs ++ cs', ?_, hb.append hb', ?_⟩
    · rw [List.length_append, hcl, hcl', hl]; ring
    · intro c hc
      rcases List.mem_append.1 hc with hc | hc
      · obtain ⟨j, q, h⟩ := hcs c hc
        exact ⟨t, j, q, h⟩
      · exact hcs' c hc

/-- The tuning returns the best of all candidates it has evaluated, one per particle and iteration; their proportions are in
`[1/4, 4]` and their numbers of neighbours in `[3, 10]`. -/
theorem C40_osmote {par : AmscoParams} {cand : Nat → Nat → ℚ × ℚ → Res (List Row × List Row)} {fit : Fit}
    {inits : List (ℚ × ℚ)} {r : List Row × List Row} (h : osmote par cand fit inits = .ok r) :
    ∃ cs : List Evaluated, cs.length = par.nIter * inits.length ∧
      (∀ c ∈ cs, ∃ t j q, InLimits q ∧ cand t j q = .ok c.data ∧ fit c.data.1 c.data.2 = .ok c.score) ∧
      ∃ c ∈ cs, c.data = r ∧ ∃ v, c.score.joint = some v ∧ 0 < v ∧ ∀ c' ∈ cs, ∀ v', c'.score.joint = some v' → v' ≤ v := by
  unfold osmote at h
  dsimp only at h
  rw [bind_ok] at h
  obtain ⟨first, _, h⟩ := h
  rw [bind_ok] at h
  obtain ⟨g, hg, h⟩ := h
  obtain ⟨cs, hl, hb, hcs⟩ := osmoteLoop_spec hg
  rw [List.length_map] at hl
  refine ⟨cs, hl, hcs, ?_⟩
  rcases hb with ⟨e1, _, _⟩ | ⟨c, hc, e1, e2, e3, e4⟩
  · rw [e1] at h
    cases h
  · rw [e1] at h
    dsimp only at h
    rw [pure_ok] at h
    refine ⟨c, hc, h, ?_⟩
    obtain ⟨x, z, hx, hz, hlt⟩ := gtNan_iff.1 e3
    have hz0 : z = 0 := by
      simp only [AScore.joint, Option.map_some, Option.some.injEq] at hz
      rw [← hz]; norm_num
    refine ⟨x, hx, by linarith, ?_⟩
    intro c' hc' v' hv'
    by_contra hlt'
    exact e4 c' hc' (gtNan_iff.2 ⟨v', x, hv', hx, not_le.1 hlt'⟩)

theorem evaluateOsmote_ok {cand : Nat → ℚ × ℚ → Res (List Row × List Row)} {fit : Fit}
    (hc : ∀ i q, ∃ c, cand i q = .ok c) (hf : ∀ a b, ∃ s, fit a b = .ok s) :
    ∀ (ps : List OParticle) (g : OGlobal) (i : Nat), ∃ r, evaluateOsmote cand fit g i ps = .ok r
  | [], g, i => ⟨_, rfl⟩
  | p :: ps, g, i => by
    obtain ⟨c, hc'⟩ := hc i p.pos
    obtain ⟨s, hs⟩ := hf c.1 c.2
    obtain ⟨r, hr⟩ := evaluateOsmote_ok hc hf ps (updateScores g p s c).1 (i + 1)
    refine ⟨(r.1, (updateScores g p s c).2 :: r.2), ?_⟩
    unfold evaluateOsmote
    rw [hc', ok_bind, hs, ok_bind]
    dsimp only
    rw [hr]; rfl

theorem osmoteLoop_ok {par : AmscoParams} {cand : Nat → Nat → ℚ × ℚ → Res (List Row × List Row)} {fit : Fit}
    (hc : ∀ t i q, ∃ c, cand t i q = .ok c) (hf : ∀ a b, ∃ s, fit a b = .ok s) :
    ∀ (left t : Nat) (g : OGlobal) (ps : List OParticle), ∃ r, osmoteLoop par cand fit left t g ps = .ok r
  | 0, t, g, ps => ⟨_, rfl⟩
  | left + 1, t, g, ps => by
    obtain ⟨r, hr⟩ := evaluateOsmote_ok (hc t) hf (ps.map (fun p => updatePosition (updateVelocity par g p))) g 0
    obtain ⟨r', hr'⟩ := osmoteLoop_ok hc hf left (t + 1) r.1 r.2
    exact ⟨r', by unfold osmoteLoop; rw [hr, ok_bind]; exact hr'⟩

theorem npClip_mem {x lo hi : ℚ} (h : lo ≤ hi) : lo ≤ npClip x lo hi ∧ npClip x lo hi ≤ hi :=
  ⟨le_min (le_max_right _ _) h, min_le_right _ _⟩

theorem npClip_dist {x v lo hi : ℚ} (h1 : lo ≤ x) (h2 : x ≤ hi) : |npClip (x + v) lo hi - x| ≤ |v| := by
  unfold npClip
  rw [abs_le]
  have h3 := neg_abs_le v
  have h4 := le_abs_self v
  constructor
  · rcases le_total (x + v) lo with h | h
    · rw [max_eq_right h]
      rcases le_total lo hi with h' | h'
      · rw [min_eq_left h']; linarith
      · rw [min_eq_right h']; linarith [abs_nonneg v]
    · rw [max_eq_left h]
      rcases le_total (x + v) hi with h' | h'
      · rw [min_eq_left h']; linarith
      · rw [min_eq_right h']; linarith [abs_nonneg v]
  · have : min (max (x + v) lo) hi ≤ max (x + v) lo := min_le_left _ _
    rcases le_total (x + v) lo with h | h
    · rw [max_eq_right h] at this ⊢; linarith [abs_nonneg v]
    · rw [max_eq_left h] at this ⊢; linarith

/-- In one iteration the proportion of a particle changes by at most 2 and its number of neighbours by at most 5. -/
theorem C40_step {par : AmscoParams} {g : OGlobal} {p : OParticle} (hp : InLimits p.pos) :
    |(updatePosition (updateVelocity par g p)).pos.1 - p.pos.1| ≤ 2 ∧ |(updatePosition (updateVelocity par g p)).pos.2 - p.pos.2| ≤ 5 := by
  obtain ⟨h1, h2, h3, h4⟩ := hp
  unfold updatePosition updateVelocity
  dsimp only
  constructor
  · refine le_trans (npClip_dist h1 h2) ?_
    obtain ⟨e1, e2⟩ := npClip_mem (x := p.vel.1 * par.omega + par.r1 * (p.localBest.1 - p.vel.1) + par.r2 * (g.best.1 - p.vel.1))
      (show (-4 / 2 : ℚ) ≤ 4 / 2 by norm_num)
    rw [abs_le]
    constructor <;> linarith
  · refine le_trans (npClip_dist h3 h4) ?_
    obtain ⟨e1, e2⟩ := npClip_mem (x := p.vel.2 * par.omega + par.r1 * (p.localBest.2 - p.vel.2) + par.r2 * (g.best.2 - p.vel.2))
      (show (-10 / 2 : ℚ) ≤ 10 / 2 by norm_num)
    rw [abs_le]
    constructor <;> linarith

example : InLimits ((1, 5) : ℚ × ℚ) := by unfold InLimits; norm_num

/-- If no candidate has a positive product of kappa and accuracy (for instance a classifier that always predicts one class has
kappa zero), the tuning raises `TypeError`. -/
theorem C40_no_positive_score_raises {par : AmscoParams} {cand : Nat → Nat → ℚ × ℚ → Res (List Row × List Row)} {fit : Fit}
    {inits : List (ℚ × ℚ)} (hne : inits ≠ []) (hc : ∀ t i q, ∃ c, cand t i q = .ok c) (hf : ∀ a b, ∃ s, fit a b = .ok s)
    (hbad : ∀ a b s v, fit a b = .ok s → s.joint = some v → v ≤ 0) : osmote par cand fit inits = .error .typeError := by
  unfold osmote
  dsimp only
  have h0 : 0 < inits.length := List.length_pos_iff.2 hne
  rw [getRow_lt h0, ok_bind]
  obtain ⟨g, hg⟩ := osmoteLoop_ok (par := par) hc hf par.nIter 0 { best := inits[0], score := ⟨some 0, 0⟩, data := none }
    (inits.map (fun q => ({ pos := q, vel := (1/10, 1), localBest := q, localScore := ⟨some 0, 0⟩ } : OParticle)))
  rw [hg, ok_bind]
  obtain ⟨cs, _, hb, hcs⟩ := osmoteLoop_spec hg
  rcases hb with ⟨e1, _, _⟩ | ⟨c, hc, e1, e2, e3, e4⟩
  · rw [e1]; rfl
  · exfalso
    obtain ⟨x, z, hx, hz, hlt⟩ := gtNan_iff.1 e3
    have hz0 : z = 0 := by
      simp only [AScore.joint, Option.map_some, Option.some.injEq] at hz
      rw [← hz]; norm_num
    obtain ⟨_, _, _, _, _, hfit⟩ := hcs c hc
    have := hbad _ _ _ _ hfit hx
    linarith

/-! ## The instance selection -/

/-- What numpy guarantees for the random choices of the instance selection among `nMaj` majority rows: the initial particles
have at least `nMin` and less than `nMaj` entries, fewer rows than the root of the size are removed, and fewer rows than are
missing are added. -/
structure SisRand.OK (rnd : SisRand) (nMin nMaj : Nat) : Prop where
  init : ∀ i, nMin ≤ (rnd.init i).length ∧ (rnd.init i).length < nMaj ∧ ∀ j ∈ rnd.init i, j < nMaj
  remove : ∀ t i p, Nat.sqrt p.length ≠ 0 → (rnd.remove t i p).length < Nat.sqrt p.length ∧ ∀ j ∈ rnd.remove t i p, j < p.length
  add : ∀ t i l, l ≠ [] → (rnd.add t i l).length < min 10 l.length ∧ ∀ j ∈ rnd.add t i l, j ∈ l

theorem npDelete_length_ge {α : Type} (X : List α) (rem : List Nat) : X.length ≤ (npDelete X rem).length + rem.length := by
  have h1 : (npDelete X rem).length = (kept X.length rem).length := (npDelete_forall X rem).length_eq.symm
  rw [h1]
  have h2 := List.length_eq_length_filter_add (l := List.range X.length) (fun i => ! rem.contains i)
  rw [List.length_range] at h2
  have h3 : ((List.range X.length).filter (fun i => ! ! rem.contains i)).length ≤ rem.length := by
    apply List.Subperm.length_le
    apply List.subperm_of_subset
    · exact List.Nodup.filter _ List.nodup_range
    · intro i hi
      have := (List.mem_filter.1 hi).2
      simpa using this
  unfold kept
  omega

/-- The invariant of a particle. -/
def SisPart (nMaj : Nat) (p : List Nat) : Prop := p ≠ [] ∧ (∀ j ∈ p, j < nMaj) ∧ missingFrom nMaj p ≠ []

theorem missing_of_short {nMaj : Nat} {p : List Nat} (h : p.length < nMaj) : missingFrom nMaj p ≠ [] := by
  intro h0
  unfold missingFrom at h0
  rw [List.filter_eq_nil_iff] at h0
  have hs : List.range nMaj ⊆ p := by
    intro i hi
    have := h0 i hi
    simpa using this
  have := (List.subperm_of_subset List.nodup_range hs).length_le
  rw [List.length_range] at this
  omega

theorem mutant_ok {nMaj : Nat} {p : List Nat} (hp : SisPart nMaj p) {rem add : List Nat → List Nat}
    (hadd : ∀ l, l ≠ [] → (add l).length < min 10 l.length ∧ ∀ j ∈ add l, j ∈ l) :
    ∃ m0 m, removeElements rem p = .ok m0 ∧ addElements add nMaj p m0 = .ok m ∧ SisPart nMaj m := by
  obtain ⟨h1, h2, h3⟩ := hp
  have hlen : 0 < p.length := List.length_pos_iff.2 h1
  have hs : Nat.sqrt p.length ≠ 0 := by
    have := Nat.sqrt_pos.2 hlen
    omega
  have hm0 : ∃ m0, removeElements rem p = .ok m0 ∧ m0 ≠ [] ∧ ∀ j ∈ m0, j ∈ p := by
    unfold removeElements
    rw [if_neg hs]
    split
    · exact ⟨p, rfl, h1, fun j h => h⟩
    · rename_i hge
      refine ⟨_, rfl, ?_, ?_⟩
      · intro h0
        have := npDelete_length_ge p (rem p)
        rw [h0] at this
        simp at this
        omega
      · intro j hj
        obtain ⟨i, _, hi⟩ := forall₂_mem_right (npDelete_forall p (rem p)) hj
        exact List.mem_of_getElem? hi
  obtain ⟨m0, hm0, hne, hsub⟩ := hm0
  obtain ⟨ha1, ha2⟩ := hadd _ h3
  have hml : (missingFrom nMaj p).length ≠ 0 := fun h => h3 (List.length_eq_zero_iff.1 h)
  refine ⟨m0, m0 ++ add (missingFrom nMaj p), hm0, by unfold addElements; rw [if_neg hml], ?_, ?_, ?_⟩
  · intro h
    exact hne (List.append_eq_nil_iff.1 h).1
  · intro j hj
    rcases List.mem_append.1 hj with hj | hj
    · exact h2 j (hsub j hj)
    · exact List.mem_range.1 (List.mem_filter.1 (ha2 j hj)).1
  · intro h0
    have hall : missingFrom nMaj p ⊆ add (missingFrom nMaj p) := by
      intro i hi
      have hi' := List.mem_filter.1 hi
      unfold missingFrom at h0
      rw [List.filter_eq_nil_iff] at h0
      have := h0 i hi'.1
      simp only [Bool.not_eq_true', Bool.not_eq_false, List.contains_eq_mem, decide_eq_true_eq] at this
      simp only [List.mem_append] at this
      rcases this with h | h
      · have := hi'.2
        simp at this
        exact absurd (hsub i h) this
      · simpa [missingFrom] using h
    have hnd : (missingFrom nMaj p).Nodup := List.Nodup.filter _ List.nodup_range
    have := (List.subperm_of_subset hnd hall).length_le
    omega

/-- `b'` records the most accurate of `b` and the selections. -/
def SisBestOf (b : SisBest) (cs : List (List Nat × ℚ)) (b' : SisBest) : Prop :=
  (b' = b ∧ ∀ c ∈ cs, c.2 ≤ b.acc) ∨
  ∃ c ∈ cs, b'.data = some c.1 ∧ b'.acc = c.2 ∧ b.acc < c.2 ∧ ∀ c' ∈ cs, c'.2 ≤ c.2

theorem SisBestOf.append {g g' g'' : SisBest} {cs cs' : List (List Nat × ℚ)} (h : SisBestOf g cs g')
    (h' : SisBestOf g' cs' g'') : SisBestOf g (cs ++ cs') g'' := by
  rcases h with ⟨e1, e3⟩ | ⟨c, hc, e1, e2, e3, e4⟩ <;> rcases h' with ⟨f1, f3⟩ | ⟨c', hc', f1, f2, f3, f4⟩
  · left
    refine ⟨f1.trans e1, ?_⟩
    intro c hc
    rcases List.mem_append.1 hc with hc | hc
    · exact e3 c hc
    · rw [← e1]; exact f3 c hc
  · right
    rw [e1] at f3
    refine ⟨c', List.mem_append_right _ hc', f1, f2, f3, ?_⟩
    intro c hc
    rcases List.mem_append.1 hc with hc | hc
    · exact le_trans (e3 c hc) f3.le
    · exact f4 c hc
  · right
    refine ⟨c, List.mem_append_left _ hc, by rw [f1, e1], by rw [f1, e2], e3, ?_⟩
    intro c' hc'
    rcases List.mem_append.1 hc' with hc' | hc'
    · exact e4 c' hc'
    · rw [← e2]; exact f3 c' hc'
  · right
    rw [e2] at f3
    refine ⟨c', List.mem_append_right _ hc', f1, f2, lt_trans e3 f3, ?_⟩
    intro c'' hc''
    rcases List.mem_append.1 hc'' with hc'' | hc''
    · exact le_trans (e4 c'' hc'') f3.le
    · exact f4 c'' hc''

/-- The selections are valid and evaluated. -/
def SisEvaluated (fit : List Nat → Res AScore) (nMaj : Nat) (cs : List (List Nat × ℚ)) : Prop :=
  ∀ c ∈ cs, (∀ j ∈ c.1, j < nMaj) ∧ ∃ k, fit c.1 = .ok ⟨k, c.2⟩

theorem sisRound_ok {fit : List Nat → Res AScore} {nMaj : Nat} (hfit : ∀ p, (∀ j ∈ p, j < nMaj) → ∃ s, fit p = .ok s)
    {rem add : Nat → List Nat → List Nat}
    (hadd : ∀ i l, l ≠ [] → (add i l).length < min 10 l.length ∧ ∀ j ∈ add i l, j ∈ l) :
    ∀ (ps : List (List Nat × ℚ)) (b : SisBest) (i : Nat), (∀ p ∈ ps, SisPart nMaj p.1) →
      ∃ b' ps' cs, sisRound fit rem add nMaj b i ps = .ok (b', ps') ∧ (∀ p ∈ ps', SisPart nMaj p.1) ∧
        ps'.length = ps.length ∧ cs.length = ps.length ∧ SisEvaluated fit nMaj cs ∧ SisBestOf b cs b'
  | [], b, i, _ => ⟨b, [], [], rfl, by simp, rfl, rfl, by intro c hc; simp at hc, Or.inl ⟨rfl, by simp⟩⟩
  | p :: ps, b, i, hp => by
    obtain ⟨m0, m, h1, h2, h3⟩ := mutant_ok (rem := rem i) (hp p (by simp)) (hadd i)
    obtain ⟨sc, hsc⟩ := hfit m h3.2.1
    obtain ⟨b', ps', cs, hr, hps, hl, hl', hev, hb⟩ := sisRound_ok hfit hadd ps
      (if sc.acc > b.acc then { acc := sc.acc, data := some m } else b) (i + 1) (fun q hq => hp q (List.mem_cons_of_mem _ hq))
    refine ⟨b', (if sc.acc > p.2 then (m, sc.acc) else p) :: ps', (m, sc.acc) :: cs, ?_, ?_, by simp [hl], by simp [hl'], ?_, ?_⟩
    · unfold sisRound
      rw [h1, ok_bind, h2, ok_bind, hsc, ok_bind]
      dsimp only
      rw [hr]; rfl
    · intro q hq
      rcases List.mem_cons.1 hq with rfl | hq
      · split
        · exact h3
        · exact hp p (by simp)
      · exact hps q hq
    · intro c hc
      rcases List.mem_cons.1 hc with rfl | hc
      · exact ⟨h3.2.1, sc.kappa, hsc⟩
      · exact hev c hc
    · have hone : SisBestOf b [(m, sc.acc)] (if sc.acc > b.acc then { acc := sc.acc, data := some m } else b) := by
        by_cases hgt : sc.acc > b.acc
        · rw [if_pos hgt]
          right
          exact ⟨(m, sc.acc), by simp, rfl, rfl, hgt, by simp⟩
        · rw [if_neg hgt]
          left
          exact ⟨rfl, by simpa using hgt⟩
      exact hone.append hb

theorem sisLoop_ok {fit : List Nat → Res AScore} {nMin nMaj : Nat} (hfit : ∀ p, (∀ j ∈ p, j < nMaj) → ∃ s, fit p = .ok s)
    {rnd : SisRand} (hrnd : rnd.OK nMin nMaj) :
    ∀ (left t : Nat) (b : SisBest) (ps : List (List Nat × ℚ)), (∀ p ∈ ps, SisPart nMaj p.1) →
      ∃ b' cs, sisLoop fit rnd nMaj left t b ps = .ok b' ∧ cs.length = left * ps.length ∧ SisEvaluated fit nMaj cs ∧
        SisBestOf b cs b'
  | 0, t, b, ps, _ => ⟨b, [], rfl, by simp, by intro c hc; simp at hc, Or.inl ⟨rfl, by simp⟩⟩
  | left + 1, t, b, ps, hp => by
    obtain ⟨b1, ps1, cs, hr, hps, hl, hl', hev, hb⟩ := sisRound_ok (rem := rnd.remove t) hfit
      (fun i l h => hrnd.add t i l h) ps b 0 hp
    obtain ⟨b2, cs2, hr2, hl2, hev2, hb2⟩ := sisLoop_ok hfit hrnd left (t + 1) b1 ps1 hps
    refine ⟨b2, cs ++ cs2, ?_, ?_, ?_, hb.append hb2⟩
    · unfold sisLoop
      rw [hr, ok_bind]
      exact hr2
    · rw [List.length_append, hl', hl2, hl]; ring
    · intro c hc
      rcases List.mem_append.1 hc with hc | hc
      · exact hev c hc
      · exact hev2 c hc

/-- The selection never runs out of rows to add or to remove; it returns the most accurate of the selections it has evaluated,
one per particle and iteration, and raises only if none of them has a positive accuracy. -/
theorem C40_sis {par : AmscoParams} {fit : Fit} {rnd : SisRand} {Xmin Xmaj : List Row} (h1 : 1 ≤ Xmin.length)
    (hlt : Xmin.length < Xmaj.length) (hrnd : rnd.OK Xmin.length Xmaj.length) (hf : ∀ a b, ∃ s, fit a b = .ok s) :
    ∃ cs : List (List Nat × ℚ), cs.length = par.nIter * par.nPop ∧
      (∀ c ∈ cs, (∀ j ∈ c.1, j < Xmaj.length) ∧ ∃ rows k, takeRows Xmaj c.1 = .ok rows ∧ fit Xmin rows = .ok ⟨k, c.2⟩) ∧
      ((sis par fit rnd Xmin Xmaj = .error .valueError ∧ ∀ c ∈ cs, c.2 ≤ 0) ∨
       ∃ c ∈ cs, ∃ rows, takeRows Xmaj c.1 = .ok rows ∧ sis par fit rnd Xmin Xmaj = .ok rows ∧ 0 < c.2 ∧
        ∀ c' ∈ cs, c'.2 ≤ c.2) := by
  have hfit : ∀ p : List Nat, (∀ j ∈ p, j < Xmaj.length) → ∃ s, (do
      let rows ← takeRows Xmaj p
      fit Xmin rows : Res AScore) = .ok s := by
    intro p hp
    obtain ⟨rows, hrows⟩ := takeRows_ok_of_lt hp
    obtain ⟨s, hs⟩ := hf Xmin rows
    exact ⟨s, by rw [hrows, ok_bind, hs]⟩
  obtain ⟨ps, hps⟩ := mapM_exists_ok (f := fun i => (do
      let sc ← (do
        let rows ← takeRows Xmaj (rnd.init i)
        fit Xmin rows : Res AScore)
      pure (rnd.init i, sc.acc) : Res (List Nat × ℚ))) (l := List.range par.nPop) (by
    intro i _
    obtain ⟨s, hs⟩ := hfit (rnd.init i) (hrnd.init i).2.2
    exact ⟨(rnd.init i, s.acc), by rw [hs, ok_bind]; rfl⟩)
  have hpart : ∀ p ∈ ps, SisPart Xmaj.length p.1 := by
    intro p hp
    obtain ⟨i, _, hi⟩ := mapM_ok_mem hps hp
    rw [bind_ok] at hi
    obtain ⟨sc, _, hi⟩ := hi
    rw [pure_ok] at hi
    subst hi
    obtain ⟨e1, e2, e3⟩ := hrnd.init i
    exact ⟨List.ne_nil_of_length_pos (Nat.lt_of_lt_of_le (by omega) e1), e3, missing_of_short e2⟩
  obtain ⟨b, cs, hr, hl, hev, hb⟩ := sisLoop_ok hfit hrnd par.nIter 0 { acc := 0, data := none } ps hpart
  have hrun : sis par fit rnd Xmin Xmaj = (match b.data with
      | some idx => takeRows Xmaj idx
      | none => .error .valueError) := by
    unfold sis
    rw [if_neg (by omega)]
    dsimp only
    rw [hps, ok_bind, hr, ok_bind]
    cases b.data <;> rfl
  have hpl := mapM_ok_length hps
  rw [List.length_range] at hpl
  refine ⟨cs, by rw [hl, hpl], ?_, ?_⟩
  · intro c hc
    obtain ⟨e1, k, e2⟩ := hev c hc
    rw [bind_ok] at e2
    obtain ⟨rows, e3, e4⟩ := e2
    exact ⟨e1, rows, k, e3, e4⟩
  · rcases hb with ⟨e1, e3⟩ | ⟨c, hc, e1, e2, e3, e4⟩
    · left
      refine ⟨by rw [hrun, e1], e3⟩
    · right
      obtain ⟨rows, hrows⟩ := takeRows_ok_of_lt (hev c hc).1
      refine ⟨c, hc, rows, hrows, by rw [hrun, e1]; exact hrows, e3, e4⟩

/-! ## The output -/

theorem labels_two {nMaj nMin : Nat} {a b l : Int} (h : l ∈ List.replicate nMaj b ++ List.replicate nMin a) : l = a ∨ l = b := by
  rcases List.mem_append.1 h with h | h
  · exact Or.inr (List.eq_of_mem_replicate h)
  · exact Or.inl (List.eq_of_mem_replicate h)

theorem inHull_mono {d : Nat} {S T : List Row} {x : Row} (h : InHull d S x) (hST : ∀ r ∈ S, r ∈ T) : InHull d T x := by
  obtain ⟨V, w, hV, hc⟩ := h
  exact ⟨V, w, fun v hv => hST v (hV v hv), hc⟩

/-- A candidate consists of the majority rows it was given and of the minority rows followed by rows in the hull of all of
them. -/
theorem osmoteCandidate_sound {par : AmscoParams} {vol : List Row → ℚ} {dr : Draws} {d : Nat}
    {knn : Nat → List Row → List (List Nat)} {a b : Int} {Xmin Xmaj : List Row} {pos : ℚ × ℚ} {c : List Row × List Row}
    (hk : KnnOK knn) (hdr : dr.OK) (hg : par.ss.gaussian = .none) (hlen : ∀ r ∈ Xmaj ++ Xmin, r.length = d)
    (h : osmoteCandidate par vol dr d knn a b Xmin Xmaj pos = .ok c) :
    c.2 = Xmaj ∧ ∃ new, c.1 = Xmin ++ new ∧ ∀ x ∈ new, InHull d (Xmaj ++ Xmin) x := by
  unfold osmoteCandidate at h
  dsimp only at h
  rw [bind_ok] at h
  obtain ⟨⟨X', y'⟩, hsm, h⟩ := h
  rw [pure_ok] at h
  subst h
  have hst : ∃ s, classLabelStatistics (List.replicate Xmaj.length b ++ List.replicate Xmin.length a) = .ok s := by
    unfold smoteSample sample at hsm
    rw [bind_ok] at hsm
    exact ⟨_, hsm.choose_spec.1⟩
  obtain ⟨s, hs⟩ := hst
  have hwf : WF d (Xmaj ++ Xmin) (List.replicate Xmaj.length b ++ List.replicate Xmin.length a) := ⟨by simp, hlen⟩
  obtain ⟨h1, h2⟩ := smote_sound hwf hk hdr hs hsm
  have : ∃ new, X' = (Xmaj ++ Xmin) ++ new ∧ ∀ x ∈ new, InHull d (Xmaj ++ Xmin) x := by
    by_cases hc : (List.replicate Xmaj.length b ++ List.replicate Xmin.length a).count s.minLabel ≤ 2
    · exact ⟨[], by rw [(h1 hc).1]; simp, by simp⟩
    · obtain ⟨gen, _, e1, _, e2⟩ := h2 (by omega)
      dsimp only at e1
      rw [hg] at e1
      refine ⟨gen, e1, ?_⟩
      intro x hx
      exact generatedFrom_inHull (e2 x hx) (fun _ h => selectLabel_mem h) (fun _ h => selectLabel_mem h)
  obtain ⟨new, rfl, hnew⟩ := this
  refine ⟨?_, new, ?_, hnew⟩
  · dsimp only
    rw [List.append_assoc, List.take_left]
  · dsimp only
    rw [List.append_assoc, List.drop_left]

/-- When fewer majority than minority rows are left, SMOTE oversamples the majority: the rows added to the minority are convex
combinations of majority rows. -/
theorem C40_reversed {par : AmscoParams} {vol : List Row → ℚ} {dr : Draws} {d : Nat}
    {knn : Nat → List Row → List (List Nat)} {a b : Int} {Xmin Xmaj : List Row} {pos : ℚ × ℚ} {c : List Row × List Row}
    (hk : KnnOK knn) (hdr : dr.OK) (hg : par.ss.gaussian = .none) (hlen : ∀ r ∈ Xmaj ++ Xmin, r.length = d) (hab : a ≠ b)
    (h3 : 2 < Xmaj.length) (hlt : Xmaj.length < Xmin.length)
    (h : osmoteCandidate par vol dr d knn a b Xmin Xmaj pos = .ok c) :
    ∃ new, c.1 = Xmin ++ new ∧ new.length = requested pos.1 Xmin.length Xmaj.length ∧ ∀ x ∈ new, InHull d Xmaj x := by
  unfold osmoteCandidate at h
  dsimp only at h
  rw [bind_ok] at h
  obtain ⟨⟨X', y'⟩, hsm, h⟩ := h
  rw [pure_ok] at h
  subst h
  have hwf : WF d (Xmaj ++ Xmin) (List.replicate Xmaj.length b ++ List.replicate Xmin.length a) := ⟨by simp, hlen⟩
  have hca : (List.replicate Xmaj.length b ++ List.replicate Xmin.length a).count a = Xmin.length := by
    rw [List.count_append, List.count_replicate, List.count_replicate]
    simp [hab.symm]
  have hcb : (List.replicate Xmaj.length b ++ List.replicate Xmin.length a).count b = Xmaj.length := by
    rw [List.count_append, List.count_replicate, List.count_replicate]
    simp [hab]
  have hmin : IsMinority (List.replicate Xmaj.length b ++ List.replicate Xmin.length a) b a := by
    refine ⟨?_, ?_, fun l hl => (labels_two hl).symm, Or.inl (by rw [hca, hcb]; exact hlt)⟩
    · rw [← List.one_le_count_iff, hcb]; omega
    · rw [← List.one_le_count_iff, hca]; omega
  obtain ⟨s, hs, e1, e2⟩ := stats_of_isMinority hmin
  obtain ⟨gen, g1, g2, _, g4⟩ := (smote_sound hwf hk hdr hs hsm).2 (by rw [e1, hcb]; exact h3)
  rw [e1, e2, hca, hcb] at g1
  dsimp only at g1 g2
  rw [hg] at g2
  refine ⟨gen, ?_, g1, ?_⟩
  · dsimp only
    rw [g2]
    simp only [addGaussianNoise]
    rw [List.append_assoc, List.drop_left]
  · intro x hx
    have hsel : ∀ r ∈ selectLabel (Xmaj ++ Xmin) (List.replicate Xmaj.length b ++ List.replicate Xmin.length a) b, r ∈ Xmaj := by
      intro r hr
      rw [mem_selectLabel_iff, List.zip_append (by simp)] at hr
      rcases List.mem_append.1 hr with hr | hr
      · exact (List.of_mem_zip hr).1
      · have := List.eq_of_mem_replicate (List.of_mem_zip hr).2
        exact absurd this.symm hab
    have := g4 x hx
    rw [e1] at this
    exact inHull_mono (generatedFrom_inHull this (fun _ h => h) (fun _ h => h)) hsel

theorem chooseCurrent_cases (f0 f1 f2 f3 : Option ℚ) (current : List Row × List Row) (newMin newMaj : List Row) :
    ((chooseCurrent f0 f1 f2 f3 current newMin newMaj).1 = current.1 ∨
      (chooseCurrent f0 f1 f2 f3 current newMin newMaj).1 = newMin) ∧
    ((chooseCurrent f0 f1 f2 f3 current newMin newMaj).2 = current.2 ∨
      (chooseCurrent f0 f1 f2 f3 current newMin newMaj).2 = newMaj) := by
  unfold chooseCurrent
  dsimp only
  split <;> split <;> simp

theorem sis_rows {par : AmscoParams} {fit : Fit} {rnd : SisRand} {Xmin Xmaj rows : List Row}
    (h : sis par fit rnd Xmin Xmaj = .ok rows) : ∀ r ∈ rows, r ∈ Xmaj := by
  unfold sis at h
  split at h
  · rw [pure_ok] at h
    subst h
    exact fun _ h => h
  · dsimp only at h
    rw [bind_ok] at h
    obtain ⟨ps, _, h⟩ := h
    rw [bind_ok] at h
    obtain ⟨b, _, h⟩ := h
    cases hb : b.data with
    | none => rw [hb] at h; cases h
    | some idx =>
      rw [hb] at h
      exact fun r hr => takeRows_mem h hr

theorem amscoLoop_sound {par : AmscoParams} {vol : List Row → ℚ} {rnd : AmscoRand} {d : Nat}
    {knn : Nat → List Row → List (List Nat)} {fit : Fit} {a b : Int} {Xmin Xmaj : List Row} (hk : KnnOK knn)
    (hdr : ∀ it t i, (rnd.draws it t i).OK) (hg : par.ss.gaussian = .none) (hlen : ∀ r ∈ Xmaj ++ Xmin, r.length = d) :
    ∀ {left it : Nat} {current c : List Row × List Row},
      (∃ new, current.1 = Xmin ++ new ∧ ∀ x ∈ new, InHull d (Xmaj ++ Xmin) x) → (∀ r ∈ current.2, r ∈ Xmaj) →
      amscoLoop par vol rnd d knn fit a b Xmin Xmaj left it current = .ok c →
      (∃ new, c.1 = Xmin ++ new ∧ ∀ x ∈ new, InHull d (Xmaj ++ Xmin) x) ∧ (∀ r ∈ c.2, r ∈ Xmaj)
  | 0, it, current, c, h1, h2, h => by
    injection h with h
    subst h
    exact ⟨h1, h2⟩
  | left + 1, it, current, c, h1, h2, h => by
    unfold amscoLoop at h
    rw [bind_ok] at h
    obtain ⟨om, hom, h⟩ := h
    rw [bind_ok] at h
    obtain ⟨newMaj, hsis, h⟩ := h
    rw [bind_ok] at h
    obtain ⟨c1, hc1, h⟩ := h
    obtain ⟨cs, _, hcs, e, he, hed, _⟩ := C40_osmote hom
    obtain ⟨t, j, q, _, hcand, _⟩ := hcs e he
    rw [hed] at hcand
    obtain ⟨_, new, hnew, hhull⟩ := osmoteCandidate_sound hk (hdr it t j) hg (by
      intro r hr
      rcases List.mem_append.1 hr with hr | hr
      · exact hlen r (List.mem_append_left _ (h2 r hr))
      · exact hlen r (List.mem_append_right _ hr)) hcand
    have hom1 : ∃ new, om.1 = Xmin ++ new ∧ ∀ x ∈ new, InHull d (Xmaj ++ Xmin) x := by
      refine ⟨new, hnew, fun x hx => inHull_mono (hhull x hx) ?_⟩
      intro r hr
      rcases List.mem_append.1 hr with hr | hr
      · exact List.mem_append_left _ (h2 r hr)
      · exact List.mem_append_right _ hr
    have hmaj := sis_rows hsis
    unfold amscoEvaluate at hc1
    rw [bind_ok] at hc1
    obtain ⟨f0, _, hc1⟩ := hc1
    rw [bind_ok] at hc1
    obtain ⟨f1, _, hc1⟩ := hc1
    rw [bind_ok] at hc1
    obtain ⟨f2, _, hc1⟩ := hc1
    rw [bind_ok] at hc1
    obtain ⟨f3, _, hc1⟩ := hc1
    rw [pure_ok] at hc1
    obtain ⟨k1, k2⟩ := chooseCurrent_cases f0.joint f1.joint f2.joint f3.joint current om.1 newMaj
    rw [hc1] at k1 k2
    apply amscoLoop_sound hk hdr hg hlen _ _ h
    · rcases k1 with k1 | k1 <;> rw [k1]
      · exact h1
      · exact hom1
    · rcases k2 with k2 | k2 <;> rw [k2]
      · exact h2
      · exact hmaj

theorem sample_amsco {d : Nat} {alg : Stats → List Row → List Int → Res (List Row × List Int)} {X : List Row}
    {y : List Int} {s : Stats} (hs : classLabelStatistics y = .ok s) :
    sample amscoChecks d alg X y = if y.count s.minLabel ≤ 4 then .ok (X, y) else alg s X y := by
  obtain ⟨hm, hM, _⟩ := stats_min_mem hs
  unfold sample
  rw [hs, ok_bind, stats_count hs hm]
  by_cases h : y.count s.minLabel ≤ 4
  · rw [if_pos h, if_pos]
    · rfl
    · have : (y.count s.minLabel : ℚ) ≤ 4 := by exact_mod_cast h
      simp [amscoChecks, checksFire, this]
  · rw [if_neg h, if_neg]
    have : ¬ (y.count s.minLabel : ℚ) ≤ 4 := by exact_mod_cast h
    simp [amscoChecks, checksFire, this]

/-- The output of AMSCO for every classifier and all random choices: majority rows of the input (possibly fewer, possibly
repeated), then all minority rows of the input, then new rows with the minority label, which are convex combinations of rows of
the input. -/
theorem C40_output {par : AmscoParams} {vol : List Row → ℚ} {rnd : AmscoRand} {d : Nat}
    {knn : Nat → List Row → List (List Nat)} {fit : Fit} {X X' : List Row} {y y' : List Int} {a b : Int} (hwf : WF d X y)
    (hmin : IsMinority y a b) (hk : KnnOK knn) (hdr : ∀ it t i, (rnd.draws it t i).OK) (hg : par.ss.gaussian = .none)
    (h : sample amscoChecks d (amscoAlg par vol rnd d knn fit) X y = .ok (X', y')) :
    (y.count a ≤ 4 ∧ X' = X ∧ y' = y) ∨
    (4 < y.count a ∧ ∃ maj new, X' = maj ++ (classRows X y a ++ new) ∧
      y' = List.replicate maj.length b ++ List.replicate (classRows X y a ++ new).length a ∧
      (∀ r ∈ maj, r ∈ classRows X y b) ∧ ∀ x ∈ new, InHull d X x) := by
  obtain ⟨s, hs, rfl, rfl⟩ := stats_of_isMinority hmin
  rw [sample_amsco hs] at h
  by_cases h4 : y.count s.minLabel ≤ 4
  · rw [if_pos h4] at h
    injection h with h
    obtain ⟨rfl, rfl⟩ := Prod.mk.inj h
    exact Or.inl ⟨h4, rfl, rfl⟩
  rw [if_neg h4] at h
  right
  refine ⟨by omega, ?_⟩
  unfold amscoAlg at h
  dsimp only at h
  rw [bind_ok] at h
  obtain ⟨c, hc, h⟩ := h
  rw [pure_ok] at h
  obtain ⟨rfl, rfl⟩ := Prod.mk.inj h
  have hlen : ∀ r ∈ selectLabel X y s.majLabel ++ selectLabel X y s.minLabel, r.length = d := by
    intro r hr
    rcases List.mem_append.1 hr with hr | hr <;> exact mem_selectLabel_length hwf hr
  obtain ⟨⟨new, hnew, hh⟩, hm⟩ := amscoLoop_sound hk hdr hg hlen
    (current := (selectLabel X y s.minLabel, selectLabel X y s.majLabel)) ⟨[], by simp, by simp⟩ (fun _ h => h) hc
  rw [selectLabel_eq_classRows] at hnew hm
  refine ⟨c.2, new, by rw [hnew], by rw [hnew], hm, ?_⟩
  intro x hx
  refine inHull_mono (hh x hx) ?_
  intro r hr
  rcases List.mem_append.1 hr with hr | hr <;> exact selectLabel_mem hr

/-! ## A run that gives a majority point the minority label -/

def c40X : List Row := [[0], [1], [2], [3], [4], [100], [101], [102], [103], [104], [105]]
def c40Y : List Int := [1, 1, 1, 1, 1, 0, 0, 0, 0, 0, 0]
def c40Par : AmscoParams := { nPop := 1, nIter := 2, omega := 0, r1 := 0, r2 := 0, ss := exPar.ss }
def c40Sis : SisRand :=
  { init := fun _ => [0, 1, 2, 3, 4], remove := fun _ _ p => if Nat.sqrt p.length ≤ 1 then [] else [0], add := fun _ _ _ => [] }
def c40Rand : AmscoRand := { draws := fun _ _ _ => exDraws, inits := fun _ => [(1, 5)], sis := fun _ => c40Sis }
/-- A fitness that prefers few majority rows, and most of all minority rows that lie among the majority. -/
def c40Fit : Fit := fun mn mj =>
  .ok ⟨some 1, if mn.any (fun r => decide (r.getD 0 0 > 50)) then 1 else if mn.length = 5 ∧ mj.length = 4 then 3/4 else 1/2⟩

theorem c40Sis_ok : c40Sis.OK 5 6 := by
  refine ⟨?_, ?_, ?_⟩
  · intro i; simp only [c40Sis]; decide
  · intro t i p hp
    simp only [c40Sis]
    split
    · exact ⟨by simp; omega, by simp⟩
    · refine ⟨by simp; omega, ?_⟩
      intro j hj
      rw [List.mem_singleton] at hj
      subst hj
      by_contra h
      have : p.length = 0 := by omega
      rw [this] at hp
      exact hp rfl
  · intro t i l hl
    refine ⟨?_, by simp [c40Sis]⟩
    have := List.length_pos_iff.2 hl
    simp only [c40Sis, List.length_nil]
    omega

/-- All conditions of `C40_output` hold, and the point 103.5 (the minority is below 4, the majority above 100) gets the minority
label. -/
theorem C40_majority_point_relabelled : WF 1 c40X c40Y ∧ IsMinority c40Y 1 0 ∧ KnnOK bruteKnn ∧ exDraws.OK ∧
    c40Sis.OK 5 6 ∧
    (match sample amscoChecks 1 (amscoAlg c40Par (fun _ => 1) c40Rand 1 bruteKnn c40Fit) c40X c40Y with
     | .ok r => (r.1.zip r.2).any (fun p => decide (p.2 = 1 ∧ 100 ≤ p.1.getD 0 0))
     | .error _ => false) = true := by
  refine ⟨⟨by decide, by decide +kernel⟩, ⟨by decide, by decide, by decide, Or.inl (by decide)⟩, bruteKnn_ok, exDraws_ok,
    c40Sis_ok, by decide +kernel⟩

/-- A constant fitness of kappa zero meets the hypotheses of `C40_no_positive_score_raises`. -/
example : osmote c40Par (fun _ _ _ => .ok ([[1]], [[0]])) (fun _ _ => .ok ⟨some 0, 1/2⟩) [(1, 5)] = .error .typeError := by
  apply C40_no_positive_score_raises (by simp) (fun _ _ _ => ⟨_, rfl⟩) (fun _ _ => ⟨_, rfl⟩)
  intro a b s v h hv
  injection h with h
  subst h
  simp [AScore.joint] at hv
  rw [← hv]

end Verif
