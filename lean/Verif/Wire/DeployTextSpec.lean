import Verif.Wire.DeployText
import Verif.Wire.InstantiateSpec
import Verif.Chain.DeploySpec

/-!
# Specification for C105 as text
-/

namespace Amp.Wire

open Amp.Chain (Setup)

variable (G : Texture)

/-- what an instantiation says -/
def founding : TextStep → Option Chain.Step
  | .tx _ => none
  | .found a p height text => (readOrder G p text).map (fun o => .found a (o.kind height))

/-- the contracts of a history -/
def textSetup (ts : List TextStep) : Setup := Chain.setupOf (ts.filterMap (founding G))

/-- what a step says, in a history with these contracts -/
def stepMeaning (setup : Setup) : TextStep → Option Chain.Step
  | .tx t => some (.tx (meaning G setup t))
  | s => founding G s

/-- what a history says -/
def steps (ts : List TextStep) : List Chain.Step := ts.filterMap (stepMeaning G (textSetup G ts))

/-- heights, times and amounts are in the range of their types -/
def StepInRange : TextStep → Prop
  | .tx t => InRange t
  | .found _ _ height _ => height ≤ u64Max

/-- no contract has the address of a user or of a contract outside the model -/
def TextApart (ts : List TextStep) : Prop :=
  ∀ t, .tx t ∈ ts → ∀ a, textSetup G ts a ≠ none → t.sender ≠ a ∧ t.accepts a = false

end Amp.Wire
