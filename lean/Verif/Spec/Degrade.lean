import Verif.Model.Sim
import Verif.Spec.Helpers
import Verif.Spec.Minimize
import Verif.Spec.Sim

/-!
# Specification vocabulary for the degradation of one sample in a stress step
-/

namespace Gerabaldi.Spec

variable {W V : Type} [PyNum V]

/-- The mechanism's equation works on each sample separately (as `g`), accepts the arguments it is
given, and all conditions and latent values are arrays with one entry per sample. -/
structure SampleWise (m : MechMdl W V) (g : Dict (PyVal V) → V) (conds lat : Dict (Arr3 V))
    (L C D : Nat) : Prop where
  eqn : Elementwise m.mdl.compute g
  condDims : ∀ k a, conds.get? k = some a → a.HasDims L C D
  latDims : ∀ k a, lat.get? k = some a → a.HasDims L C D
  acc : ∀ times, m.mdl.compute.accepts (m.args times conds lat) = true

/-- The degradation curve of the sample `(l, c, d)`: the mechanism's equation as a function of time, with
the sample's own conditions and latent values. -/
def curve (m : MechMdl W V) (g : Dict (PyVal V) → V) (conds lat : Dict (Arr3 V)) (L C D : Nat)
    (l c d : Nat) (t : V) : V :=
  g (sampleArgs (m.args (Arr3.full L C D t) conds lat) l c d)

/-- The search for the equivalent times stops by itself, before its iteration limit. -/
def Converges (m : MechMdl W V) (cur : Arr3 V) (conds lat : Dict (Arr3 V)) (L C D : Nat) : Prop :=
  ∀ w, (minimize (equivTimeCfg V) (logged (m.residue cur conds lat L C D)) cur.data.length
    (w, [])).2.2.length < 51

/-- The inputs of mechanism `mech` of parameter `prm` in a stress step: the previous values `pre` of the
mechanism, its conditions `cs` and its latent values `lat`, for `n` devices per chip. -/
structure MechInputs (q : Quantities) (conds : Dict (Dict (Arr3 V))) (s : SimState V)
    (prm mech : String) (pre : Arr3 V) (cs lat : Dict (Arr3 V)) (n : Nat) : Prop where
  preIs : mechVal s prm mech = some pre
  countIs : q.devCounts.get? prm = some n
  condsIs : conds.get? prm = some cs
  latIs : ∃ lats, s.latents.get? prm = some lats ∧ subLatents lats mech = .ok lat

/-- A successful stress step `st` leads from `s` to `s'`; `k` is the mechanism `mech` of the device
parameter `prm`, with the given inputs and one previous value per sample. -/
structure StressedMech [Rng W V] (ord : SetOrder) (dev : DeviceMdl W V) (env : PhysTestEnv V)
    (st : StrsSpec V) (i : Nat) (s : SimState V) (r : SimReport V) (w : W) (s' : SimState V)
    (prm mech : String) (k : MechMdl W V) (pre : Arr3 V) (cs lat : Dict (Arr3 V)) (n : Nat) :
    Prop where
  run : ∃ r' w', simStress ord dev env st i (s, r) w = (.ok (s', r'), w')
  unique : dev.prms.Nodup
  mechIs : ∃ m, dev.prms.get? prm = some (.deg m) ∧ m.mechs.Nodup ∧ m.mechs.get? mech = some k
  inputs : ∃ conds w1, env.genEnvCondVals ord st.conditions (.names (dev.degPrms.map (·.1)))
    (some r.info) (some dev) .stress 1 1 w = (.ok conds, w1) ∧
    MechInputs r.info conds s prm mech pre cs lat n
  dims : pre.HasDims r.info.numLots r.info.numChps n

end Gerabaldi.Spec
