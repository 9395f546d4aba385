import Verif.Ampd.Broadcaster

/-!
# The account of the daemon, on the chain

The daemon reads the sequence number of its account once, when it starts (`ampd/src/lib.rs:104-117`), and counts from there
(`ampd/src/broadcaster.rs:150`).  The chain counts every transaction of the account that gets into a block, whether it then
executes or fails, and takes only the one with the next number (`x/auth`, not part of `/repo`).  The commands of the daemon,
run as processes of their own, use the same account (`ampd/src/commands/mod.rs:73-112`).
-/

namespace Amp.Ampd

/-- the daemon and the account: `running` is false after the first broadcast that failed, which ends the task
(`queue/queued_broadcaster.rs:117-143`), as far as anything is sent after -/
structure Account (M : Type) where
  client : Client M
  expected : Nat
  running : Bool

/-- what happens: the daemon broadcasts, and its transaction gets into a block with a result code or not; or someone else uses
the account -/
inductive Use (M : Type)
  | daemon (msgs : List M) (r : Replies) (included : Option Nat)
  | other

/-- one use of the account -/
def Account.use {M : Type} (cfg : BroadcastCfg) (a : Account M) : Use M → Account M
  | .other => { a with expected := a.expected + 1 }
  | .daemon msgs r included =>
    if a.running then
      let p := broadcast cfg a.client msgs r
      ⟨p.1, if included.isSome then a.expected + 1 else a.expected, p.2.isOk⟩
    else a

/-- the account after some uses -/
def Account.after {M : Type} (cfg : BroadcastCfg) (a : Account M) (us : List (Use M)) : Account M := us.foldl (Account.use cfg) a

/-- The chain and its nodes: a transaction gets into a block only if it was made and has the number that is expected; and what
a node finds is what is in a block. -/
def Account.Truthful {M : Type} (a : Account M) : Use M → Prop
  | .other => True
  | .daemon _ r included =>
    (included.isSome → r.gas.isSome ∧ r.signed = true ∧ a.client.sequence = a.expected) ∧
      ∀ i code, r.lookups i = .found code → included = some code

/-- the same for every use in a history -/
def Account.AllTruthful {M : Type} (cfg : BroadcastCfg) : Account M → List (Use M) → Prop
  | _, [] => True
  | a, u :: us => a.Truthful u ∧ Account.AllTruthful cfg (a.use cfg u) us

/-- nobody else uses the account -/
def Use.alone {M : Type} : Use M → Bool
  | .other => false
  | .daemon _ _ _ => true

end Amp.Ampd
