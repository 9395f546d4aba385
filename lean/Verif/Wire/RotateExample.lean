import Verif.Wire.RotateProps
import Verif.Wire.PollLogExample
import Verif.Chain.RotationExample

/-!
# Concrete cases for C115

The contracts of `EndToEndExample`, with another gateway on Sui.  Worker 8 replaces worker 5.
-/

namespace Amp.Wire

open Amp.Chain (Entry exP exTx svc eth sui)
open Amp.Multisig (WorkerSet)
open Amp.Std (Operators)

/-! ### The history -/

def rotVerifier : VV.Config := ⟨10, svc, "0x0202".toList, ⟨2, 3⟩, 10, 1, sui, 11⟩

def rotOrders : List (Addr × Order) := [(10, .registry 1), (11, .rewards ⟨1, "axl".toList⟩ ⟨100, 1000, ⟨1, 2⟩⟩),
  (12, .verifier e2eVerifier), (13, .gateway ⟨12, 14⟩), (14, .router ⟨1, 1, 15⟩),
  (15, .nexus ⟨2, 14⟩), (16, .verifier rotVerifier), (17, .gateway ⟨16, 14⟩),
  (18, .multisig ⟨1, 11, 5⟩), (19, .prover 1 ⟨17, 18, 10, 16, 10, ⟨2, 3⟩, sui, 1, .bcs⟩ svc .ecdsa)]

/-- the new set, as Sui knows it -/
def rotOperators : Operators := ⟨[(List.replicate 33 8, 1)], 1⟩

def rotAsk : Chain.Tx := exTx 9 24 16 (.verifier (.verifyWorkerSet "cdcd:3".toList rotOperators))
def rotVote : Chain.Tx := exTx 8 25 16 (.verifier (.vote 1 [.succeededOnChain]))
def rotConfirm : Chain.Tx := exTx 9 26 19 (.prover .confirmWorkerSet)

/-- the first set is installed, worker 8 replaces worker 5, and the new set takes over -/
def rotTxs : List Chain.Tx := [
  exTx 1 1 10 (.registry (.registerService svc ⟨10, "axl".toList, 1⟩)),
  exTx 5 1 10 (.registry (.bondWorker svc)) [("axl".toList, 10)],
  exTx 5 1 10 (.registry (.declareChainSupport svc [sui])),
  exTx 1 2 10 (.registry (.authorizeWorkers [5] svc)),
  exTx 1 2 18 (.multisig (.authorizeCaller 19)),
  exTx 5 2 18 (.multisig (.registerPublicKey .ecdsa (List.replicate 33 5))),
  exTx 9 3 19 (.prover .updateWorkerSet),
  exTx 8 21 10 (.registry (.bondWorker svc)) [("axl".toList, 10)],
  exTx 8 21 10 (.registry (.declareChainSupport svc [sui])),
  exTx 1 22 10 (.registry (.authorizeWorkers [8] svc)),
  exTx 1 22 10 (.registry (.unauthorizeWorkers [5] svc)),
  exTx 8 22 18 (.multisig (.registerPublicKey .ecdsa (List.replicate 33 8))),
  exTx 9 23 19 (.prover .updateWorkerSet),
  rotAsk, rotVote, rotConfirm]

/-- the contracts and the first `n` transactions, as texts -/
def rotUpTo (n : Nat) : List TextStep :=
  rotOrders.map (fun x => .found x.1 x.2.conf.party 1 (writeOrder exTexture x.2)) ++
    (rotTxs.take n).map (fun tx => .tx (written exTexture tx))

def rotPlain (n : Nat) : List Chain.Step := rotOrders.map (fun x => .found x.1 (x.2.kind 1)) ++ (rotTxs.take n).map .tx

theorem rot_succ {n : Nat} {tx : Chain.Tx} (h : rotTxs[n]? = some tx) : rotUpTo (n + 1) = rotUpTo n ++ [.tx (written exTexture tx)] := by
  unfold rotUpTo
  rw [List.append_assoc, List.take_add_one, h, List.map_append]
  rfl

theorem rot_range (n : Nat) : ∀ s ∈ rotUpTo n, StepInRange s := by
  intro s hs
  rcases List.mem_append.mp hs with hs | hs
  · obtain ⟨x, -, rfl⟩ := List.mem_map.mp hs
    show (1 : Nat) ≤ u64Max
    decide
  · obtain ⟨tx, htx, rfl⟩ := List.mem_map.mp hs
    have h : ∀ t ∈ rotTxs, t.block.height ≤ u64Max ∧ t.block.time ≤ u64Max ∧ ∀ m ∈ t.msgs, ∀ c ∈ m.2.1, c.2 ≤ u128Max := by
      decide +kernel
    obtain ⟨h1, h2, h3⟩ := h tx (List.mem_of_mem_take htx)
    refine ⟨h1, h2, ?_⟩
    intro m hm
    obtain ⟨m', hm', rfl⟩ := List.mem_map.mp hm
    exact h3 m' hm'

theorem rot_orders : ∀ x ∈ rotOrders, readOrder exTexture x.2.conf.party (writeOrder exTexture x.2) = some x.2 := by
  decide +kernel

theorem rot_founding (n : Nat) : (rotUpTo n).filterMap (founding exTexture) = rotOrders.map (fun x => .found x.1 (x.2.kind 1)) := by
  unfold rotUpTo
  rw [List.filterMap_append, List.filterMap_map, List.filterMap_map]
  have h1 : rotOrders.filterMap (founding exTexture ∘ fun x => .found x.1 x.2.conf.party 1 (writeOrder exTexture x.2)) =
      rotOrders.map (fun x => .found x.1 (x.2.kind 1)) := by
    refine filterMap_all (fun x hx => ?_)
    show (readOrder exTexture _ _).map _ = _
    rw [rot_orders x hx]
    rfl
  have h2 : (rotTxs.take n).filterMap (founding exTexture ∘ fun tx => .tx (written exTexture tx)) = [] :=
    List.filterMap_eq_nil_iff.mpr (fun x _ => rfl)
  rw [h1, h2, List.append_nil]

def rotSetup : Chain.Setup := fun a => (rotOrders.map (fun x => (x.1, x.2.kind 1))).lookup a

theorem rot_setup (n : Nat) : textSetup exTexture (rotUpTo n) = rotSetup := by
  funext a
  unfold textSetup rotSetup
  rw [rot_founding]
  generalize rotOrders = l
  induction l with
  | nil => rfl
  | cons x t ih =>
    simp only [List.map_cons, Chain.setupOf, List.lookup_cons]
    by_cases hab : a = x.1
    · simp [hab]
    · have : (a == x.1) = false := by simpa using hab
      rw [if_neg hab, this]
      exact ih

theorem rot_read : ∀ tx ∈ rotTxs, ∀ m ∈ tx.msgs,
    (partyAt rotSetup m.1).bind (fun k => readFor exTexture k (write exTexture m.2.2)) = some m.2.2 := by
  decide +kernel

theorem rot_meaning {tx : Chain.Tx} (h : tx ∈ rotTxs) : meaning exTexture rotSetup (written exTexture tx) = tx := by
  have key : tx.msgs.map ((fun m => (m.1, m.2.1, meant exTexture rotSetup m.1 m.2.2)) ∘
      (fun m => (m.1, m.2.1, write exTexture m.2.2))) = tx.msgs := by
    refine (List.map_congr_left (fun m hm => ?_)).trans (List.map_id _)
    have := rot_read tx h m hm
    show (m.1, m.2.1, meant exTexture rotSetup m.1 (write exTexture m.2.2)) = m
    have e : meant exTexture rotSetup m.1 (write exTexture m.2.2) = m.2.2 := by
      unfold partyAt at this
      unfold meant
      cases hs : rotSetup m.1 with
      | none => rw [hs] at this; cases this
      | some k =>
        rw [hs] at this
        have this : readFor exTexture (party k.init) (write exTexture m.2.2) = some m.2.2 := this
        simp only [this]
    rw [e]
  unfold meaning written
  rw [List.map_map, key]

theorem rot_plain (n : Nat) : steps exTexture (rotUpTo n) = rotPlain n := by
  unfold steps
  rw [rot_setup]
  unfold rotUpTo rotPlain
  rw [List.filterMap_append, List.filterMap_map, List.filterMap_map]
  refine congrArg₂ (· ++ ·) ?_ ?_
  · refine filterMap_all (fun x hx => ?_)
    show (readOrder exTexture _ _).map _ = _
    rw [rot_orders x hx]
    rfl
  · refine filterMap_all (fun tx htx => ?_)
    show some (Chain.Step.tx (meaning exTexture rotSetup (written exTexture tx))) = _
    rw [rot_meaning (List.mem_of_mem_take htx)]

theorem rot_apart (n : Nat) : TextApart exTexture (rotUpTo n) := by
  intro t ht a ha
  have hm : a ∈ rotOrders.map Prod.fst := by
    rw [rot_setup] at ha
    by_contra h
    refine ha (List.lookup_eq_none_iff.mpr (fun p hp => ?_))
    obtain ⟨x, hx, rfl⟩ := List.mem_map.mp hp
    have : a ≠ x.1 := by rintro rfl; exact h (List.mem_map_of_mem hx)
    simpa using this
  rcases List.mem_append.mp ht with ht | ht
  · obtain ⟨x, -, hx⟩ := List.mem_map.mp ht
    cases hx
  · obtain ⟨tx, htx, hx⟩ := List.mem_map.mp ht
    cases hx
    have h : ∀ tx ∈ rotTxs, ∀ a ∈ rotOrders.map Prod.fst, tx.sender ≠ a ∧ tx.accepts a = false := by decide +kernel
    exact h tx (List.mem_of_mem_take htx) a hm

theorem rot_world (n : Nat) : textDeployedWorld exTexture exP (rotUpTo n) = Chain.deployedWorld exP (rotPlain n) := by
  rw [(C105_text (P := exP) ex_sound exP_bytes (rotUpTo n) (rot_range n)).1, rot_plain]

theorem rot_log (n : Nat) : textDeployedLog exTexture exP (rotUpTo n) = Chain.deployedLog exP (rotPlain n) := by
  rw [(C105_text (P := exP) ex_sound exP_bytes (rotUpTo n) (rot_range n)).2.1, rot_plain]

def rotCalls (n : Nat) : List Entry := Chain.log exP rotSetup (Chain.succeeded exP (rotPlain n))

theorem rot_calls (n : Nat) :
    rotCalls n = Chain.log exP (textSetup exTexture (rotUpTo n)) (Chain.succeeded exP (steps exTexture (rotUpTo n))) := by
  rw [rot_plain, rot_setup]; rfl

example : (rotCalls 16).map (fun e => (e.p.sender, e.p.target)) =
    [(1, 10), (5, 10), (5, 10), (1, 10), (1, 18), (5, 18), (9, 19), (19, 18), (8, 10), (8, 10), (1, 10), (1, 10), (8, 18),
      (9, 19), (19, 18), (9, 16), (8, 16), (9, 19), (19, 18)] := by
  decide +kernel

def rotOld : WorkerSet := ⟨[(5, ⟨5, 1, .ecdsa (List.replicate 33 5)⟩)], 1, 3⟩
def rotNew : WorkerSet := ⟨[(8, ⟨8, 1, .ecdsa (List.replicate 33 8)⟩)], 1, 23⟩

theorem rot_keys {w : Chain.World} {workers : List Registry.Worker}
    (key : workers.all (fun x => (Chain.answer (Chain.askKey w 18 .ecdsa x.address)).isSome) = true) :
    ∀ x ∈ workers, ∃ k, Chain.askKey w 18 .ecdsa x.address = .ok k := by
  intro x hx
  have := List.all_eq_true.mp key x hx
  cases h : Chain.askKey w 18 .ecdsa x.address with
  | error e => rw [h] at this; simp [Chain.answer] at this
  | ok k => exact ⟨k, rfl⟩

theorem rot_answer {α : Type} {x : Except Encoding.Err α} {y : α} (h : Chain.answer x = some y) : x = .ok y := by
  cases x with
  | ok b => simp only [Chain.answer, Option.some.injEq] at h; rw [h]
  | error e => simp [Chain.answer] at h

/-! ### The theorems apply -/

def rotFirst : Chain.Tx := exTx 9 3 19 (.prover .updateWorkerSet)
def rotAgain : Chain.Tx := exTx 9 23 19 (.prover .updateWorkerSet)

def rotWorkers5 : List Registry.Worker := [⟨5, .bonded 10, .authorized, svc⟩]
def rotWorkers8 : List Registry.Worker := [⟨8, .bonded 10, .authorized, svc⟩]

set_option maxRecDepth 10000 in
/-- `C115_first` -/
example : ∃ ws reply, query exTexture exP (textDeployedWorld exTexture exP (rotUpTo 7)) 19
      (UserQuestion.currentSet.json exTexture.T).render = some reply ∧
    UserQuestion.currentSet.readText exTexture reply = some (.set ws) := by
  have hsucc := rot_succ (n := 6) (tx := rotFirst) rfl
  obtain ⟨ws, -, -, ⟨reply, h1, h2⟩, -⟩ := C115_first (P := exP) ex_sound exP_octets exP_four (rotUpTo 6) (written exTexture rotFirst)
    (by rw [← hsucc]; exact rot_range 7) (by rw [← hsucc]; exact rot_apart 7) 19 Chain.exProver svc .ecdsa (by rw [rot_setup]; rfl)
    ⟨1, 11, 5⟩ (by rw [rot_setup]; rfl) [] (write exTexture (.prover .updateWorkerSet)) rfl (by decide +kernel) (by decide)
    (by rw [rot_world]; decide +kernel) rotWorkers5 (by rw [rot_world]; decide +kernel) (by decide) (by decide)
    (by rw [rot_world]; exact rot_keys (by decide +kernel))
  rw [← hsucc] at h1
  exact ⟨ws, reply, h1, h2⟩

/-- the active workers, as a set -/
theorem rot_setOf : Prover.SetOf Chain.exProver.signingThreshold (Chain.askKey (Chain.deployedWorld exP (rotPlain 12)) 18 .ecdsa) 23
    rotWorkers8 rotNew := by
  have hmk := rot_answer (x := Prover.makeWorkerSet Chain.exProver (Chain.proverEnv exP (Chain.deployedWorld exP (rotPlain 12))
    rotAgain.block Chain.exProver svc .ecdsa)) (y := rotNew) (by decide +kernel)
  obtain ⟨workers, hw, hset⟩ := Prover.setOf_makeWorkerSet hmk
  have hact : Chain.askWorkers (Chain.deployedWorld exP (rotPlain 12)) 10 svc sui = some rotWorkers8 := by decide +kernel
  have : workers = rotWorkers8 := by
    unfold Chain.proverEnv at hw
    simp only at hw
    rw [show Chain.askWorkers (Chain.deployedWorld exP (rotPlain 12)) Chain.exProver.serviceRegistry svc Chain.exProver.chainName =
      some rotWorkers8 from hact] at hw
    simp only [Except.ok.injEq] at hw
    exact hw.symm
  rw [← this]
  exact hset

theorem rot_buildable : Chain.Buildable exP (Chain.deployedWorld exP (rotPlain 12)) 19 Chain.exProver svc .ecdsa 23 [] rotOld
    rotWorkers8 := by
  refine ⟨by decide +kernel, by decide, rot_keys (by decide +kernel), by simp, ?_,
    show Chain.exProver.destinationChainId ≤ u64Max by decide, by decide +kernel⟩
  intro new _ _
  refine ⟨?_, fun _ _ => trivial⟩
  intro n hn
  have : Chain.pendingSet (Chain.deployedWorld exP (rotPlain 12)) 19 = none := by decide +kernel
  rw [this] at hn
  cases hn

set_option maxRecDepth 10000 in
/-- `C115_handover` -/
example : ∃ new b sid digest reply,
    publishMultisig exTexture.T 18 (.signingStarted sid (Prover.workerSetId exP.X rotOld) rotOld.pubKeys digest sui) ∈
      eventStream exTexture.T (textDeployedLog exTexture exP (rotUpTo 13)) ∧
    query exTexture exP (textDeployedWorld exTexture exP (rotUpTo 13)) 19 ((UserQuestion.proof sid).json exTexture.T).render =
      some reply ∧
    (UserQuestion.proof sid).readText exTexture reply = some (.proof sid ⟨[], b, .pending⟩) ∧
    Chain.pendingSet (textDeployedWorld exTexture exP (rotUpTo 13)) 19 = some new := by
  have hsucc := rot_succ (n := 12) (tx := rotAgain) rfl
  obtain ⟨new, b, sid, digest, reply, -, -, h2, -, h5, h8, h9, h10⟩ := C115_handover (P := exP) ex_sound exP_octets exP_four (rotUpTo 12)
    (written exTexture rotAgain) (by rw [← hsucc]; exact rot_range 13) (by rw [← hsucc]; exact rot_apart 13) 19 Chain.exProver svc .ecdsa
    (by rw [rot_setup]; rfl) ⟨1, 11, 5⟩ (by rw [rot_setup]; rfl)
    (by rw [rot_log]; exact Chain.setsDistinctAt_of (sets := [rotOld]) (by decide +kernel) (by decide +kernel))
    (by rw [rot_log]; decide +kernel) [] (write exTexture (.prover .updateWorkerSet)) rfl (by decide +kernel) (by decide) rotOld
    (by rw [rot_world]; decide +kernel) (by rw [rot_world]; exact Chain.mayAsk_of (by decide +kernel)) rotWorkers8
    (by rw [rot_world]; exact rot_buildable) (by
      intro new hnew
      rw [rot_world] at hnew
      have := Chain.setOf_signers hnew rot_setOf
      unfold Prover.membershipChanges Prover.missingFrom
      rw [this]
      decide +kernel)
  rw [← hsucc] at h5 h8 h10
  rw [h2.ids] at h9
  exact ⟨new, b.data, sid, digest, reply, h5, h8, h9, h10⟩

/-! ### The poll -/

def rotMeta : VV.PollMeta := ⟨1, sui, "0x0202".toList, 1, 34, [8]⟩

theorem rot_unconfirmed : Chain.askSet exP (Chain.deployedWorld exP (rotPlain 13)) 16 rotOperators = .ok false :=
  rot_answer (by decide +kernel)

set_option maxRecDepth 10000 in
/-- `C115_asked` -/
example : ∃ pm, pm.expiresAt = 34 ∧
    publishVerifier exTexture.T 16 (.workerSetPollStarted "cdcd".toList 3 rotOperators pm) ∈
      eventStream exTexture.T (textDeployedLog exTexture exP (rotUpTo 14)) ∧
    LastSetPoll exP (rotCalls 14) 16 rotOperators rotWorkers8 "cdcd".toList 3 pm := by
  have hsucc := rot_succ (n := 13) (tx := rotAsk) rfl
  obtain ⟨-, pm, -, -, -, h4, -, h6, h7⟩ := C115_asked (P := exP) ex_sound exP_bytes (rotUpTo 13) (written exTexture rotAsk)
    (by rw [← hsucc]; exact rot_range 14) (by rw [← hsucc]; exact rot_apart 14) 16 rotVerifier (by rw [rot_setup]; rfl)
    (by rw [rot_log]; decide +kernel) "cdcd:3".toList rotOperators "cdcd".toList 3 (by decide +kernel)
    (by rw [rot_world]; exact rot_unconfirmed) rotWorkers8 (by rw [rot_world]; decide +kernel) (by decide) (by decide) []
    (write exTexture (.verifier (.verifyWorkerSet "cdcd:3".toList rotOperators))) rfl (by decide +kernel) (by decide) (by decide)
    (rotCalls 14) (by rw [← hsucc]; exact rot_calls 14)
  rw [← hsucc] at h6
  exact ⟨pm, h4, h6, h7⟩

/-- the call with number 15 opens the poll, and no later one asks again -/
def rotOpens (l : List Entry) : Bool :=
  match l.drop 15 with
  | e :: l₂ => match e.act with
    | .verifier c r => decide (e.p.target = 16 ∧ c.msg = .verifyWorkerSet "cdcd:3".toList rotOperators ∧ c.workers = some rotWorkers8 ∧
        r.event = some (.workerSetPollStarted "cdcd".toList 3 rotOperators rotMeta)) &&
      l₂.all (fun x => match x.p.msg with
        | .verifier (.verifyWorkerSet _ _) => false
        | _ => true)
    | _ => false
  | [] => false

theorem rot_opened_of {l : List Entry} (h : rotOpens l = true) :
    LastSetPoll exP l 16 rotOperators rotWorkers8 "cdcd".toList 3 rotMeta := by
  unfold rotOpens at h
  split at h
  · rename_i e l₂ hd
    split at h
    · rename_i c r hact
      simp only [Bool.and_eq_true, decide_eq_true_eq] at h
      obtain ⟨⟨h1, h2, h3, h4⟩, h5⟩ := h
      refine ⟨l.take 15, e, l₂, c, r, _, by rw [← hd, List.take_append_drop], h1, hact, h2, h3, h4, ?_⟩
      intro x hx _ mid' o' hm
      have := List.all_eq_true.mp h5 x hx
      rw [hm] at this
      cases this
    · cases h
  · cases h

theorem rot_opened14 : LastSetPoll exP (rotCalls 14) 16 rotOperators rotWorkers8 "cdcd".toList 3 rotMeta :=
  rot_opened_of (by decide +kernel)

theorem rot_opened15 : LastSetPoll exP (rotCalls 15) 16 rotOperators rotWorkers8 "cdcd".toList 3 rotMeta :=
  rot_opened_of (by decide +kernel)

/-! ### The vote -/

theorem rot_voteText : (written exTexture rotVote).msgs = [(16, [], (jsonMsg (.vote 1 [.succeededOnChain])).render)] := by
  show [(16, [], write exTexture (.verifier (.vote 1 [.succeededOnChain])))] = _
  refine congrArg (fun t => [((16 : Addr), ([] : List Registry.Coin), t)]) ?_
  exact congrArg Json.render (rfl : jsonOf exTexture.T exTexture.u (.verifier (.vote 1 [.succeededOnChain])) =
    jsonMsg (.vote 1 [.succeededOnChain]))

/-- `C115_accepted` -/
theorem rot_taken : ∃ x, execText exTexture exP (textDeployedWorld exTexture exP (rotUpTo 14)) (written exTexture rotVote) = .ok x := by
  refine (C115_accepted (P := exP) ex_sound exP_bytes (rotUpTo 14) (written exTexture rotVote)
    (by rw [← rot_succ (n := 14) (tx := rotVote) rfl]; exact rot_range 15)
    (by rw [← rot_succ (n := 14) (tx := rotVote) rfl]; exact rot_apart 15) _ (rot_calls 14) 16 rotVerifier
    (by rw [rot_setup]; rfl) rotOperators rotWorkers8 _ _ rotMeta rot_opened14 ⟨_, List.mem_cons_self .., rfl⟩ [] [.succeededOnChain]
    rfl rot_voteText (by decide) (by decide)).resolve_right ?_
  rintro ⟨e, he, hs, ht, -⟩
  have key : (textDeployedLog exTexture exP (rotUpTo 14)).all (fun e => decide (¬ (e.p.sender = 8 ∧ e.p.target = 16))) = true := by
    rw [rot_log]; decide +kernel
  exact of_decide_eq_true (List.all_eq_true.mp key e he) ⟨hs, ht⟩

/-- `C115_verified_partial` -/
theorem rot_verified : Chain.askSet exP (textDeployedWorld exTexture exP (rotUpTo 15)) 16 rotOperators = .ok true := by
  refine C115_verified_partial (P := exP) ex_sound exP_bytes (rotUpTo 15) (rot_range 15) (rot_apart 15) _ (rot_calls 15) 16 rotVerifier
    (by rw [rot_setup]; rfl) rotOperators rotWorkers8 _ _ rotMeta rot_opened15 [8] (by simp) ?_ (by decide) ?_
  · intro a ha
    obtain rfl : a = 8 := by simpa using ha
    exact ⟨_, List.mem_cons_self .., rfl⟩
  · intro a ha
    obtain rfl : a = 8 := by simpa using ha
    refine ⟨rotUpTo 14, written exTexture rotVote, [], [], rot_succ (n := 14) (tx := rotVote) rfl, rfl, ?_, by decide, rot_taken⟩
    rw [rot_voteText]
    exact List.mem_cons_self ..

/-! ### The new set -/

set_option maxRecDepth 10000 in
/-- `C115_confirmed` -/
theorem rot_confirmed : (∃ x, execText exTexture exP (textDeployedWorld exTexture exP (rotUpTo 15)) (written exTexture rotConfirm) = .ok x) ∧
    ∃ reply, query exTexture exP (textDeployedWorld exTexture exP (rotUpTo 16)) 19 (UserQuestion.currentSet.json exTexture.T).render =
        some reply ∧
      UserQuestion.currentSet.readText exTexture reply = some (.set rotNew) := by
  have hsucc := rot_succ (n := 15) (tx := rotConfirm) rfl
  obtain ⟨h1, h2, -, -⟩ := C115_confirmed (P := exP) ex_sound exP_octets exP_four (rotUpTo 15) (written exTexture rotConfirm)
    (by rw [← hsucc]; exact rot_range 16) (by rw [← hsucc]; exact rot_apart 16) 19 Chain.exProver svc .ecdsa (by rw [rot_setup]; rfl)
    ⟨1, 11, 5⟩ (by rw [rot_setup]; rfl) [] (write exTexture (.prover .confirmWorkerSet)) rfl (by decide +kernel) (by decide)
    rotNew (by rw [rot_world]; decide +kernel) (by decide) rotOperators ⟨rfl, by decide, List.Perm.refl _⟩ rot_verified
  rw [← hsucc] at h2
  exact ⟨h1, h2⟩

/-! ### The daemon -/

/-- the contents of the event -/
def rotData : Encoding.Bytes :=
  match Ampd.Sui.operatorsData ⟨[205, 205], 3, rotOperators.weights, rotOperators.threshold⟩ with
  | .ok b => b
  | .error _ => []

def rotEvent : Ampd.Sui.SuiEvent Json :=
  ⟨3, ⟨[2, 2], "validators".toList, "OperatorshipTransferred".toList, []⟩, shownTransfer rotData⟩

/-- the transaction block of the handover -/
def rotBlock : Ampd.Sui.TxBlock Json := ⟨[205, 205], some 7, some [rotEvent]⟩

/-- the node knows this block only -/
def rotEnv : Ampd.Sui.Env Json :=
  ⟨24, ⟨fun d => if d = [205, 205] then some rotBlock else none, fun _ => none⟩, true, id⟩

def rotSource : TextSource := .sui (fun _ E => E = rotEnv) (fun b => b = rotBlock)

def rotStarted : VV.Event := .workerSetPollStarted "cdcd".toList 3 rotOperators rotMeta

theorem rot_fits : EventFits rotStarted := by
  refine ⟨⟨by decide, by decide, by decide⟩, ?_⟩
  exact ⟨by decide, ⟨by unfold IsBytes; decide, by decide, by decide⟩⟩

/-- `C115_votes_sui`: worker 8 votes for the set -/
theorem rot_ballot : ∃ e, decodeEvent exTexture.finite (publishVerifier exTexture.T 16 rotStarted) = some e ∧
    (Ampd.Sui.handleWorkerSet suiJson (Sui.deserWorkerSetPoll exTexture.T) ⟨8, 16⟩ rotEnv (.abci e)).sent =
      [⟨8, 16, .vote 1 [.succeededOnChain]⟩] := by
  refine C115_votes_sui ex_sound 8 16 rotEnv "cdcd".toList 3 rotOperators rotMeta rot_fits (by decide) (by decide) (by decide) [205, 205]
    (by decide +kernel) [2, 2] (by decide +kernel) rotBlock rfl ?_ rfl rfl [rotEvent] rfl rotEvent (List.mem_cons_self ..) rfl rfl rotData
    (C112_shown_transfer (fun _ => true) _ (by unfold IsBytes; decide +kernel)).1 (by decide +kernel)
  intro es hes
  simp only [rotBlock, Option.some.injEq] at hes
  subst hes
  simp

/-! ### Safety -/

theorem rot16 : (Chain.verifierLog 16 (rotCalls 16)).map Chain.exView =
    [(9, .verifyWorkerSet "cdcd:3".toList rotOperators, some [8], some rotStarted),
     (8, .vote 1 [.succeededOnChain], some [8], some (.voted 1 8))] := by
  decide +kernel

theorem rot_event : publishVerifier exTexture.T 16 rotStarted ∈ eventStream exTexture.T (textDeployedLog exTexture exP (rotUpTo 16)) := by
  rw [eventStream_blind (C105_history (P := exP) ex_sound exP_bytes _ (rot_range 16) (rot_apart 16)).2.1, ← rot_calls]
  have h : (9, .verifyWorkerSet "cdcd:3".toList rotOperators, some [8], some rotStarted) ∈
      (Chain.verifierLog 16 (rotCalls 16)).map Chain.exView := by
    rw [rot16]; exact List.mem_cons_self ..
  obtain ⟨x, hx, e⟩ := List.mem_map.mp h
  obtain ⟨en, hen, ht, hact⟩ := Chain.mem_verifierLog.mp hx
  have hev : x.2.event = some rotStarted := congrArg (fun y => y.2.2.2) e
  refine List.mem_flatMap.mpr ⟨en, hen, ?_⟩
  rw [ht, hact]
  show _ ∈ x.2.event.toList.map _
  rw [hev]
  exact List.mem_cons_self ..

/-- worker 8 sends no other vote than the text of its daemon -/
theorem rot_honest : TextHonest exTexture exP (rotUpTo 16) rotSource rotVerifier 16 8 := by
  refine ⟨?_, ?_⟩
  · intro t ht hs m hm hV _
    rcases List.mem_append.mp ht with ht | ht
    · obtain ⟨x, -, hx⟩ := List.mem_map.mp ht
      cases hx
    · obtain ⟨tx, htx, hx⟩ := List.mem_map.mp ht
      cases hx
      obtain ⟨m', hm', rfl⟩ := List.mem_map.mp hm
      have h : ∀ tx ∈ rotTxs, tx.sender = 8 → ∀ m ∈ tx.msgs, m.1 = 16 → m.2.2 = .verifier (.vote 1 [.succeededOnChain]) := by
        decide +kernel
      have hmsg := h tx (List.mem_of_mem_take htx) hs m' hm' hV
      refine ⟨_, rot_event, .vote 1 [.succeededOnChain], ?_, ?_⟩
      · obtain ⟨e, h1, h2⟩ := rot_ballot
        refine ⟨e, h1, rotEnv, rfl, Or.inr ?_⟩
        rw [h2]
        exact List.mem_cons_self ..
      · show write exTexture m'.2.2 = _
        rw [hmsg]
        exact congrArg Json.render (rfl : jsonOf exTexture.T exTexture.u (.verifier (.vote 1 [.succeededOnChain])) =
          jsonMsg (.vote 1 [.succeededOnChain]))
  · rintro E b rfl h _
    rcases h with ⟨ds, bs, h, _⟩ | ⟨d, h⟩
    · simp [rotEnv] at h
    · simp only [rotEnv] at h
      split at h
      · exact (Option.some.inj h).symm
      · simp at h

theorem rot_watched : TextWatched exTexture exP (rotUpTo 16) (rotCalls 16) 16 rotVerifier rotSource := by
  intro l₁ e l₂ hl ht c r pm hact hpm ws hws voters hnd hsub hq
  have hi := Chain.inv exP rotSetup (Chain.succeeded exP (rotPlain 16))
  have hmem : (c, r) ∈ Chain.verifierLog 16 (rotCalls 16) := Chain.mem_verifierLog.mpr ⟨e, by rw [hl]; simp, ht, hact⟩
  rw [rot_setup] at hws
  obtain ⟨c', r', g1, _, _, g2⟩ := hi.verifier_call hl (cfg := rotVerifier) (by unfold VV.Config.Valid; decide) (by rw [ht]; rfl)
  rw [hact] at g1
  simp only [Chain.Act.verifier.injEq] at g1
  obtain ⟨rfl, rfl⟩ := g1
  have hall : ((Chain.verifierLog 16 (rotCalls 16)).map Chain.exView).all (fun x => x.2.2.1 = some [8]) = true := by rw [rot16]; rfl
  have h2 : c.workers.map (fun l => l.map (fun x => x.address)) = some [8] :=
    of_decide_eq_true (List.all_eq_true.mp hall _ (List.mem_map_of_mem hmem))
  rw [g2, hws] at h2
  have hws' : ws.map (·.address) = [8] := Option.some.inj h2
  have hlen : ws.length = 1 := by simpa using congrArg List.length hws'
  rw [hlen] at hq
  match voters, hsub, hq with
  | [], _, hq => exact absurd hq (by decide)
  | a :: t, hsub, _ =>
    obtain ⟨w, hw, rfl⟩ := hsub a (List.mem_cons_self ..)
    have : w.address ∈ ws.map (·.address) := List.mem_map_of_mem hw
    rw [hws'] at this
    have h8 : w.address = 8 := by simpa using this
    refine ⟨w.address, List.mem_cons_self .., ?_⟩
    rw [h8]
    exact rot_honest

/-- `C115_transferred`: Sui shows the handover -/
example : ∃ o, Prover.IsOperators exP.X .bcs rotNew o ∧ rotSource.ShowsHandover exTexture rotVerifier o := by
  have hsplit : ∃ e l₂, (rotCalls 16).drop 17 = e :: l₂ := by
    cases h : (rotCalls 16).drop 17 with
    | nil =>
      have h1 : ((rotCalls 16).drop 17).length = 2 := by decide +kernel
      rw [h] at h1
      cases h1
    | cons e l₂ => exact ⟨e, l₂, rfl⟩
  obtain ⟨e, l₂, hd⟩ := hsplit
  have hl : rotCalls 16 = (rotCalls 16).take 17 ++ e :: l₂ := by rw [← hd, List.take_append_drop]
  have he : (rotCalls 16).take 17 ++ [e] = (rotCalls 16).take 18 := by
    rw [show 18 = 17 + 1 from rfl, List.take_add, hd]
    rfl
  exact (C115_transferred (P := exP) ex_sound exP_bytes (rotUpTo 16) (rot_range 16) (rot_apart 16) (rotCalls 16) (rot_calls 16) 19
    Chain.exProver svc .ecdsa (by rw [rot_setup]; rfl) rotVerifier (by rw [rot_setup]; rfl) rotSource trivial rot_watched _ l₂ e hl
    rotOld rotNew (by rw [rot_setup]; decide +kernel) (by rw [rot_setup, he]; decide +kernel) (by decide)).2

/-! ### The daemon on an EVM chain -/

def rotEvmOperators : Operators := ⟨[(List.replicate 20 8, 1)], 1⟩

def rotEvmData : Encoding.Bytes :=
  match Encoding.Abi.ethabiEncode [.array (rotEvmOperators.weights.map (fun o => .address o.1)),
      .array (rotEvmOperators.weights.map (fun o => .uint o.2)), .elem (.uint rotEvmOperators.threshold)] with
  | .ok b => b
  | .error _ => []

def rotEvmLog : Ampd.Evm.Log Ampd.Evm.RawLog :=
  ⟨List.replicate 20 17,
    { topics := [Ampd.Evm.exLib.keccak (utf8Bytes "OperatorshipTransferred(bytes)".toList)]
      data := match Encoding.Abi.ethabiEncode [.elem (.bytes rotEvmData)] with
        | .ok b => b
        | .error _ => [] }, some (List.replicate 32 170), some 1⟩

def rotReceipt : Ampd.Evm.Receipt Ampd.Evm.RawLog := ⟨List.replicate 32 170, some 80, [rotEvmLog]⟩

def rotEvmEnv : Ampd.Evm.Env Ampd.Evm.RawLog where
  latestBlock := 5
  node := { finalizedBlock := none, blockNumber := some 100, receipt := fun _ => some (some rotReceipt) }
  accepted := true
  order := id

/-- `C115_votes_evm` -/
example : ∃ e, decodeEvent exTexture.finite (publishVerifier exTexture.T 12 (.workerSetPollStarted e2eHash 1 rotEvmOperators
      ⟨3, eth, e2eGateway, 1, 14, [5]⟩)) = some e ∧
    (Ampd.Evm.handleWorkerSet (Ampd.Evm.decodeLog Ampd.Evm.exLib) (Evm.deserWorkerSetPoll exTexture.L exTexture.T) ⟨5, 12, .other eth⟩
      rotEvmEnv (.abci e)).sent = [⟨5, 12, .vote 3 [.succeededOnChain]⟩] :=
  C115_votes_evm ex_sound Ampd.Evm.exLib (by unfold Ampd.Evm.TopicsApart; decide +kernel) 5 12 (.other eth) rotEvmEnv
    (by constructor <;> intro x hx <;> (simp [rotEvmEnv] at hx; try (subst hx; decide))) e2eHash 1 rotEvmOperators
    ⟨3, eth, e2eGateway, 1, 14, [5]⟩
    ⟨⟨by decide, by decide, by decide⟩, ⟨by decide, ⟨by unfold IsBytes; decide, by decide, by decide⟩⟩⟩ (by decide) (by decide) (by decide)
    (List.replicate 32 170) (by decide +kernel) (List.replicate 20 17) (by decide +kernel) eth (by decide +kernel) (by decide +kernel)
    ⟨100, rfl, by decide⟩ rotReceipt 80 rfl (by unfold Ampd.Evm.DistinctLogs rotReceipt; simp) rfl ⟨100, rfl, by decide⟩ rfl rotEvmLog
    rotEvmData (List.mem_cons_self ..) rfl rfl rfl ⟨rfl, by decide +kernel⟩ (by decide +kernel)

end Amp.Wire
