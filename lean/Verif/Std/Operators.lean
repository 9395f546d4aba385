import Verif.Base.Prelude
import Mathlib.Data.List.Lex

/-!
# `packages/axelar-wasm-std/src/operators.rs`
-/

namespace Amp.Std

/-- byte strings -/
abbrev Bytes := List Nat

/-- `operators.rs:8-12` (`Operators`): address bytes with weights, and a threshold. -/
structure Operators where
  weights : List (Bytes × Nat)
  threshold : Nat
  deriving DecidableEq, Repr

/-- one step of a stable insertion sort by address bytes -/
def insertByAddr (x : Bytes × Nat) : List (Bytes × Nat) → List (Bytes × Nat)
  | [] => [x]
  | y :: t => if x.1 ≤ y.1 then x :: y :: t else y :: insertByAddr x t

/-- `slice::sort_by_key(|op| op.0)`: a stable sort by address bytes -/
def sortByAddr : List (Bytes × Nat) → List (Bytes × Nat)
  | [] => []
  | x :: t => insertByAddr x (sortByAddr t)

/-- `operators.rs:15-22` (`Operators::new`) -/
def Operators.new (ws : List (Bytes × Nat)) (threshold : Nat) : Operators :=
  ⟨sortByAddr ws, threshold⟩

end Amp.Std
