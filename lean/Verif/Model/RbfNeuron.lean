import Verif.Py

/-! The neurons of DSRBF, oversampling/_dsrbf.py:23-165. Model/Dsrbf has the search, where a neuron is a parameter. -/

namespace Verif

/-- A generator: what its `t`-th call answers, counted from its start. `sample`: `random_sample()`, `samples t m`:
`random_sample(size=m)`, `normal t m s` and `normals t c s`: `normal` with a number or an array as the mean, `rnd t m`: `randint(m)` (and
the position of `choice`). Used for oversampling/_dsrbf.py:57-62, 112-135 and 141-165. -/
structure NeuronGen where
  sample : Nat → ℚ
  samples : Nat → Nat → Row
  normal : Nat → ℚ → ℚ → ℚ
  normals : Nat → Row → ℚ → Row
  rnd : Nat → Nat → Nat

/-- `self.params` of a neuron, oversampling/_dsrbf.py:64-73. `beta` and `input_weights` are the arguments of the constructor. -/
structure NeuronParams where
  iB : ℚ
  oB : ℚ
  connMask : List Nat
  connWeights : Row
  ranges : Row
  mins : Row
  beta : Option ℚ
  weights : Option Row

/-- A neuron, oversampling/_dsrbf.py:55-73; `calls` counts the calls of its generator. The attribute `init_conn_mask` is written but
never read and is left out. -/
structure RbfNeuron where
  center : Row
  beta : ℚ
  mask : List Nat
  weights : Row
  radius : ℚ
  params : NeuronParams
  gen : NeuronGen
  calls : Nat

/-- The constructor, oversampling/_dsrbf.py:28-73, for a generator at its start: both random numbers are drawn even if they are not used.
The argument `mask` goes to the attribute `init_conn_mask` only. -/
def RbfNeuron.make (g : NeuronGen) (p : NeuronParams) (center : Row) (radius : Option ℚ) : RbfNeuron :=
  { center := center, beta := p.beta.getD ((g.sample 0 - 1 / 2) * p.oB), mask := p.connMask, weights := p.weights.getD p.connWeights,
    radius := radius.getD (g.sample 1), params := p, gen := g, calls := 2 }

/-- `create_new_node`, oversampling/_dsrbf.py:246-262, with the chosen row as the centre. -/
def RbfNeuron.node (g : NeuronGen) (iB oB : ℚ) (connMask : List Nat) (connWeights ranges mins center : Row) : RbfNeuron :=
  RbfNeuron.make g ⟨iB, oB, connMask, connWeights, ranges, mins, none, none⟩ center none

/-- `RBFNeuron.clone`, oversampling/_dsrbf.py:78-91; `g` is the generator made of `_random_state_init`. -/
def RbfNeuron.clone (g : NeuronGen) (n : RbfNeuron) : RbfNeuron := RbfNeuron.make g n.params n.center (some n.radius)

/-- `np.mean` and `np.var` of the ranges. Used for oversampling/_dsrbf.py:120 and oversampling/_dsrbf.py:131-133. -/
def rowMean (r : Row) : ℚ := r.sum / r.length
/-- `np.var`. Used for oversampling/_dsrbf.py:120. -/
def rowVar (r : Row) : ℚ := rowMean (r.map (fun v => (v - rowMean r) ^ 2))

/-- `mutate`, oversampling/_dsrbf.py:108-135. -/
def RbfNeuron.mutate (n : RbfNeuron) : RbfNeuron :=
  let r := n.gen.sample n.calls
  if r < 1 / 5 then { n with center := n.gen.normals (n.calls + 1) n.center n.radius, calls := n.calls + 2 }
  else if r < 2 / 5 then
    let tmp := n.gen.normal (n.calls + 1) n.radius (rowVar n.params.ranges)
    { n with radius := if 0 < tmp then tmp else n.radius, calls := n.calls + 2 }
  else if r < 3 / 5 then
    { n with center := List.zipWith (· + ·) (List.zipWith (· * ·) (n.gen.samples (n.calls + 1) n.center.length) n.params.ranges) n.params.mins,
             calls := n.calls + 2 }
  else if r < 4 / 5 then { n with radius := n.gen.sample (n.calls + 1) * rowMean n.params.ranges, calls := n.calls + 2 }
  else { n with beta := n.gen.normal (n.calls + 1) n.beta n.params.oB, calls := n.calls + 2 }

/-- `add_connection`, oversampling/_dsrbf.py:137-156. -/
def RbfNeuron.addConnection (n : RbfNeuron) : RbfNeuron :=
  if n.mask.length < n.center.length then
    let domain := (List.range n.center.length).filter (fun j => j ∉ n.mask)
    { n with mask := n.mask ++ [domain.getD (n.gen.rnd n.calls domain.length) 0],
             weights := n.weights ++ [(n.gen.sample (n.calls + 1) - 1 / 2) * n.params.iB], calls := n.calls + 2 }
  else n

/-- `delete_connection`, oversampling/_dsrbf.py:158-165. -/
def RbfNeuron.deleteConnection (n : RbfNeuron) : RbfNeuron :=
  if 1 < n.mask.length then
    let i := n.gen.rnd n.calls n.mask.length
    { n with mask := n.mask.eraseIdx i, weights := n.weights.eraseIdx i, calls := n.calls + 1 }
  else n

end Verif
