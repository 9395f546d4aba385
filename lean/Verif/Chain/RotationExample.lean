import Verif.Chain.RotationProps
import Verif.Chain.ProofExample

/-!
# C86 in a concrete history

Worker 8 replaces worker 7.  The prover of `sui` asks the old set to sign the handover, two workers that run the daemon
see it on Sui, and the new set is confirmed.
-/

namespace Amp.Chain

open Amp.Router (ChainName CCId Message)
open Amp.Multisig (WorkerSet)

/-- worker 8 joins, worker 7 is no longer authorized -/
def exJoin : List Tx := [
  exTx 8 21 10 (.registry (.bondWorker svc)) [("axl".toList, 10)],
  exTx 8 21 10 (.registry (.declareChainSupport svc [sui])),
  exTx 1 22 10 (.registry (.authorizeWorkers [8] svc)),
  exTx 1 22 10 (.registry (.unauthorizeWorkers [7] svc)),
  exTx 8 22 18 (.multisig (.registerPublicKey .ecdsa (List.replicate 33 8)))]

/-- the new set, as Sui knows it -/
def exOperators : Std.Operators := ⟨[5, 6, 8].map (fun a => (List.replicate 33 a, 1)), 2⟩

/-- the handover is asked for, happens on Sui and is voted on -/
def exHandover : List Tx := [
  exTx 9 23 19 (.prover .updateWorkerSet),
  exTx 9 24 16 (.verifier (.verifyWorkerSet "0xcd:3".toList exOperators)),
  exTx 5 25 16 (.verifier (.vote 1 [.succeededOnChain])),
  exTx 6 25 16 (.verifier (.vote 1 [.succeededOnChain]))]

def exConfirm : Tx := exTx 9 26 19 (.prover .confirmWorkerSet)

def exRotated : List Tx := exTxs ++ exJoin ++ exHandover

def exNewSet : WorkerSet := ⟨[5, 6, 8].map (fun a => (a, ⟨a, 1, .ecdsa (List.replicate 33 a)⟩)), 2, 23⟩

/-- the prover has no worker set yet; three workers are active -/
def exBefore : List Tx := exTxs0.dropLast

/-- `C86_first`: anyone installs the active workers -/
example : ∃ ws, Installs exP (worldAfter exP exSetup exBefore) (exTx 9 3 19 (.prover .updateWorkerSet)) 19 exProver ws := by
  obtain ⟨ws, _, h⟩ := C86_first exP exSetup exBefore 19 exProver svc .ecdsa rfl 2 3 (by decide +kernel) _ rfl
    (exTx 9 3 19 (.prover .updateWorkerSet)) ⟨⟨[], rfl⟩, rfl, by decide⟩ (by decide) (by decide +kernel) exWorkers
    (by decide +kernel) (by decide +kernel) (by decide +kernel) (by
      intro x hx
      have key : exWorkers.all (fun x => (answer (askKey (worldAfter exP exSetup exBefore) 18 .ecdsa
        x.address)).isSome) = true := by decide +kernel
      have h := List.all_eq_true.mp key x hx
      change ∃ k, askKey (worldAfter exP exSetup exBefore) 18 .ecdsa x.address = .ok k
      cases hk : askKey (worldAfter exP exSetup exBefore) 18 .ecdsa x.address with
      | ok k => exact ⟨k, rfl⟩
      | error e => rw [hk] at h; simp [answer] at h)
  exact ⟨ws, h⟩

/-- the members of a set of workers are determined by the workers and their keys -/
theorem setOf_signers {th : Std.MajorityThreshold} {keys : Addr → Except Encoding.Err Multisig.PublicKey} {h h' : Nat}
    {workers : List Registry.Worker} {a b : WorkerSet} (ha : Prover.SetOf th keys h workers a)
    (hb : Prover.SetOf th keys h' workers b) : a.signers = b.signers := by
  have srt : ∀ {x : WorkerSet}, (x.signers.map Prod.fst).Pairwise (· < ·) →
      x.signers.Pairwise (fun p q => p.1 < q.1) := fun h => List.pairwise_map.mp h
  have nd : ∀ {x : WorkerSet}, (x.signers.map Prod.fst).Pairwise (· < ·) → x.signers.Nodup := fun h =>
    (srt h).imp (fun h e => by rw [e] at h; exact lt_irrefl _ h)
  refine ((List.perm_ext_iff_of_nodup (nd ha.sorted) (nd hb.sorted)).mpr ?_).eq_of_pairwise
    (fun p q _ _ h1 h2 => absurd h1 (lt_asymm h2)) (srt ha.sorted) (srt hb.sorted)
  rintro ⟨x, sg⟩
  rw [ha.signers, hb.signers]

set_option maxRecDepth 20000 in
theorem exJoinAllowed : MayAsk (worldAfter exP exSetup (exTxs ++ exJoin)) 18 19 := mayAsk_of (by decide +kernel)

set_option maxRecDepth 20000 in
/-- `C86_requested`: a signing session for the handover is started -/
example : ∃ new b, Prover.IsBatch exP.X exProver (some new) [] b ∧ new.signers = exNewSet.signers ∧
    Starts exP (worldAfter exP exSetup (exTxs ++ exJoin)) (exTx 9 23 19 (.prover .updateWorkerSet)) 19 exProver exCurrent
      b := by
  have hmk : answer (Prover.makeWorkerSet exProver (proverEnv exP (worldAfter exP exSetup (exTxs ++ exJoin))
      (exTx 9 23 19 (.prover .updateWorkerSet)).block exProver svc .ecdsa)) = some exNewSet := by decide +kernel
  have hmk' : Prover.makeWorkerSet exProver (proverEnv exP (worldAfter exP exSetup (exTxs ++ exJoin))
      (exTx 9 23 19 (.prover .updateWorkerSet)).block exProver svc .ecdsa) = .ok exNewSet := by
    cases h : Prover.makeWorkerSet exProver (proverEnv exP (worldAfter exP exSetup (exTxs ++ exJoin))
        (exTx 9 23 19 (.prover .updateWorkerSet)).block exProver svc .ecdsa) with
    | ok ws => rw [h] at hmk; simp only [answer, Option.some.injEq] at hmk; rw [hmk]
    | error e => rw [h] at hmk; simp [answer] at hmk
  obtain ⟨workers, hw, hset⟩ := Prover.setOf_makeWorkerSet hmk'
  have hact : askWorkers (worldAfter exP exSetup (exTxs ++ exJoin)) 10 svc sui = some workers := by
    unfold proverEnv at hw
    simp only at hw
    cases h : askWorkers (worldAfter exP exSetup (exTxs ++ exJoin)) exProver.serviceRegistry svc exProver.chainName with
    | none => rw [h] at hw; simp at hw
    | some x => rw [h] at hw; simp only [Except.ok.injEq] at hw; rw [← hw]; exact h
  have hlen : workers.length = 3 := by
    have : (askWorkers (worldAfter exP exSetup (exTxs ++ exJoin)) 10 svc sui).map List.length = some 3 := by decide +kernel
    rw [hact] at this
    exact Option.some.inj this
  obtain ⟨new, b, h1, h2, h3, _⟩ := C86_requested exP exSetup (exTxs ++ exJoin) 19 exProver svc .ecdsa rfl 2 3
    (by decide +kernel) _ rfl (setsDistinctAt_of
      (sets := [⟨[5, 6, 7].map (fun a => (a, ⟨a, 1, .ecdsa (List.replicate 33 a)⟩)), 2, 3⟩]) (by decide +kernel)
      (by decide +kernel)) (by decide +kernel) (exTx 9 23 19 (.prover .updateWorkerSet))
    ⟨⟨[], rfl⟩, rfl, by decide +kernel⟩ exCurrent (by decide +kernel) exJoinAllowed workers
    ⟨hact, hset.nonEmpty, Prover.setOf_keys hmk' hw, by simp, fun new _ _ => ⟨fun n hn => by
      have : pendingSet (worldAfter exP exSetup (exTxs ++ exJoin)) 19 = none := by decide +kernel
      rw [this] at hn
      simp at hn, fun _ _ => trivial⟩, show 10 ≤ u64Max by decide, by rw [hlen]; decide⟩
    (fun new hnew => by
      have := setOf_signers hnew hset
      unfold Prover.membershipChanges Prover.missingFrom
      rw [this]
      decide +kernel)
  exact ⟨new, b, h2, setOf_signers h1 hset, h3⟩

/-- `C86_confirmed`: the new set is installed -/
theorem exSetConfirmed : Installs exP (worldAfter exP exSetup exRotated) exConfirm 19 exProver exNewSet := by
  refine C86_confirmed exP exSetup exRotated 19 exProver svc .ecdsa rfl _ rfl exConfirm ⟨⟨[], rfl⟩, rfl, by decide⟩
    exNewSet ?_ (by decide) exOperators ⟨rfl, by decide, List.Perm.refl _⟩ ?_
  · decide +kernel
  · have key : (answer (askSet exP (worldAfter exP exSetup exRotated) 16 exOperators)) = some true := by decide +kernel
    change askSet exP (worldAfter exP exSetup exRotated) 16 exOperators = .ok true
    cases h : askSet exP (worldAfter exP exSetup exRotated) 16 exOperators with
    | ok b => rw [h] at key; simp only [answer, Option.some.injEq] at key; rw [key]
    | error e => rw [h] at key; simp [answer] at key

/-! ### The workers -/

/-- strings are read as their code points -/
def suiReader : Ampd.Reader := ⟨some, fun _ => none, fun _ => none, fun s => some (s.map Char.toNat),
  fun s => some (s.map Char.toNat)⟩

/-- the contents of the event: what `sui/verifier.rs:67-77` expects -/
def exHandoverData : Encoding.Bytes :=
  match Ampd.Sui.operatorsData ⟨codes "0xcd", 3, exOperators.weights, exOperators.threshold⟩ with
  | .ok b => b
  | .error _ => []

/-- the transaction block of the handover -/
def exBlock : Ampd.Sui.TxBlock Encoding.Bytes where
  digest := codes "0xcd"
  checkpoint := some 7
  events := some [⟨3, ⟨codes "0x2", "validators".toList, "OperatorshipTransferred".toList, []⟩, exHandoverData⟩]

/-- the node knows this block only -/
def exSuiEnv : Ampd.Sui.Env Encoding.Bytes where
  latestBlock := 24
  node := { getBlock := fun d => if d = codes "0xcd" then some exBlock else none, multiGet := fun _ => none }
  accepted := true
  order := id

def exSuiChain : Source := .sui Encoding.Bytes Router.asciiLower suiReader ⟨fun _ => none, some⟩
  (fun _ E => E = exSuiEnv) (fun b => b = exBlock)

def exSetPoll : VV.Event := .workerSetPollStarted "0xcd".toList 3 exOperators ⟨1, sui, "0x2".toList, 1, 34, [5, 6, 8]⟩

def exAll : List Tx := exRotated ++ [exConfirm]

theorem exRotationLog : (verifierLog 16 (log exP exSetup exAll)).map exView =
    [(9, .verifyWorkerSet "0xcd:3".toList exOperators, some [5, 6, 8], some exSetPoll),
     (5, .vote 1 [.succeededOnChain], some [5, 6, 8], some (.voted 1 5)),
     (6, .vote 1 [.succeededOnChain], some [5, 6, 8], some (.voted 1 6))] := by
  decide +kernel

/-- what the daemon of worker `w` sends upon the poll -/
def exSetBallot (w : Addr) : List Ampd.ExecTx :=
  (Ampd.Sui.handleWorkerSet (⟨fun _ => none, some⟩ : Ampd.Sui.Json Encoding.Bytes) (Ampd.Sui.readWorkerSetPoll suiReader)
    ⟨w, 16⟩ exSuiEnv (.abci (Ampd.announced 16 exSetPoll))).sent

/-- workers 5 and 6 run the daemon -/
theorem exSuiHonest (vc : VV.Config) (w : Addr) (hw : w = 5 ∨ w = 6) :
    exSuiChain.Honest vc 16 (verifierLog 16 (log exP exSetup exAll)) w := by
  have hview := exRotationLog
  generalize verifierLog 16 (log exP exSetup exAll) = lg at hview
  constructor
  · have hst : some exSetPoll ∈ (lg.map exView).map (fun x => x.2.2.2) := by rw [hview]; simp
    obtain ⟨x, hx, hxe⟩ := List.mem_map.mp hst
    obtain ⟨e0, h0, rfl⟩ := List.mem_map.mp hx
    intro e he hs id votes hm
    refine ⟨e0, h0, exSetPoll, exSuiEnv, hxe, rfl, Or.inr ?_⟩
    have he' : exView e ∈ lg.map exView := List.mem_map_of_mem he
    have key : (lg.map exView).all (fun x => match x.2.1 with
      | .vote id votes => decide (x.1 = w → (⟨w, 16, .vote id votes⟩ : Ampd.ExecTx) ∈ exSetBallot w)
      | _ => true) = true := by
      rw [hview]
      rcases hw with rfl | rfl <;> decide +kernel
    have := List.all_eq_true.mp key _ he'
    simp only [hm] at this
    exact of_decide_eq_true this hs
  · rintro E b rfl h _
    rcases h with ⟨ds, bs, h, _⟩ | ⟨d, h⟩
    · simp [exSuiEnv] at h
    · simp only [exSuiEnv] at h
      split at h
      · exact (Option.some.inj h).symm
      · simp at h

theorem exSuiWatched : Watched exP exSetup (log exP exSetup exAll) 16
    ⟨10, svc, "0x2".toList, ⟨2, 3⟩, 10, 1, sui, 11⟩ exSuiChain := by
  intro l₁ e l₂ hl ht c r pm hact hpm ws hws voters hnd hsub hq
  have hi := inv exP exSetup exAll
  have hmem : (c, r) ∈ verifierLog 16 (log exP exSetup exAll) := by
    unfold verifierLog
    refine List.mem_filterMap.mpr ⟨e.act, ?_, by rw [hact]⟩
    rw [← ht]
    exact actsAt_mem (by rw [hl]; simp)
  obtain ⟨c', r', g1, _, _, g2⟩ := hi.verifier_call hl (cfg := ⟨10, svc, "0x2".toList, ⟨2, 3⟩, 10, 1, sui, 11⟩)
    (by unfold VV.Config.Valid; decide) (by rw [ht]; rfl)
  rw [hact] at g1
  simp only [Act.verifier.injEq] at g1
  obtain ⟨rfl, rfl⟩ := g1
  have hws' : ws.map (·.address) = [5, 6, 8] := by
    have he' : exView (c, r) ∈ (verifierLog 16 (log exP exSetup exAll)).map exView := List.mem_map_of_mem hmem
    have hall : ((verifierLog 16 (log exP exSetup exAll)).map exView).all (fun x => x.2.2.1 = some [5, 6, 8]) = true := by
      rw [exRotationLog]; rfl
    have h2 : c.workers.map (fun l => l.map (fun x => x.address)) = some [5, 6, 8] :=
      of_decide_eq_true (List.all_eq_true.mp hall _ he')
    rw [g2, hws] at h2
    exact Option.some.inj h2
  have hlen : ws.length = 3 := by
    have := congrArg List.length hws'
    simpa using this
  have h56 : ∃ a ∈ voters, a = 5 ∨ a = 6 := by
    by_contra hno
    have h8 : ∀ a ∈ voters, a = 8 := by
      intro a ha
      obtain ⟨w, hw, rfl⟩ := hsub a ha
      have : w.address ∈ ws.map (·.address) := List.mem_map_of_mem hw
      rw [hws'] at this
      simp only [List.mem_cons, List.not_mem_nil, or_false] at this
      rcases this with h | h | h
      · exact absurd ⟨_, ha, Or.inl h⟩ hno
      · exact absurd ⟨_, ha, Or.inr h⟩ hno
      · exact h
    simp only [hlen] at hq
    match voters, hnd, h8, hq with
    | [], _, _, hq => simp at hq
    | [_], _, _, hq => simp at hq
    | x :: y :: t, hnd, h8, _ =>
      have hx := h8 x (by simp)
      have hy := h8 y (by simp)
      subst hx; subst hy
      simp at hnd
  obtain ⟨a, ha, h⟩ := h56
  exact ⟨a, ha, exSuiHonest _ a h⟩

/-- `C86_rotation_transferred`: the new set took over on Sui -/
example : ∃ o, Prover.IsOperators exP.X .bcs exNewSet o ∧
    exSuiChain.Transferred ⟨10, svc, "0x2".toList, ⟨2, 3⟩, 10, 1, sui, 11⟩ o := by
  have hsplit : ∃ e l₂, log exP exSetup exAll = log exP exSetup exRotated ++ e :: l₂ := by
    obtain ⟨w', es, hx, _⟩ := exSetConfirmed
    have h : log exP exSetup exAll = log exP exSetup exRotated ++ es := by
      unfold exAll log
      rw [outs_snoc (s' := w') (r := es) hx]
      simp
    have hne : es ≠ [] := by
      intro h0
      have h1 : (log exP exSetup exAll).length = (log exP exSetup exRotated).length + 2 := by decide +kernel
      rw [h, h0] at h1
      simp at h1
    obtain ⟨e, t, rfl⟩ := List.exists_cons_of_ne_nil hne
    exact ⟨e, t, h⟩
  obtain ⟨e, l₂, hl⟩ := hsplit
  have he : (log exP exSetup exRotated ++ [e]) = (log exP exSetup exAll).take 48 := by
    rw [hl, List.take_append, List.take_of_length_le (by decide +kernel)]
    have : 48 - (log exP exSetup exRotated).length = 1 := by decide +kernel
    rw [this]
    rfl
  exact (C86_rotation_transferred exP exSetup exAll 19 exProver svc .ecdsa rfl _ rfl
    (by unfold VV.Config.Valid; decide) exSuiChain exSuiWatched _ l₂ e hl exCurrent exNewSet
    (by rw [← (inv exP exSetup exRotated).world]; decide +kernel)
    (by rw [he]; decide +kernel) (by decide)).2

end Amp.Chain
