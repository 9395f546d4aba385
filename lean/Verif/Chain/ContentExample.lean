import Verif.Chain.ContentProps
import Verif.Chain.RotationExample

/-!
# C109 in concrete histories
-/

namespace Amp.Chain

open Amp.Router (ChainName CCId Message)
open Amp.Multisig (WorkerSet)

/-! ### The hypothesis can be decided -/

/-- the set of given workers is determined by their keys -/
theorem setOf_unique {th : Std.MajorityThreshold} {keys : Addr → Except Encoding.Err Multisig.PublicKey} {h : Nat}
    {workers : List Registry.Worker} {a b : WorkerSet} {n d : Nat} (hth : Std.MajorityThreshold.ofPair n d = .ok th)
    (ha : Prover.SetOf th keys h workers a) (hb : Prover.SetOf th keys h workers b) : a = b := by
  have h1 := setOf_signers ha hb
  have h2 : a.threshold = b.threshold := Nat.le_antisymm
    ((ha.threshold n d hth _).mpr ((hb.threshold n d hth _).mp (le_refl _)))
    ((hb.threshold n d hth _).mpr ((ha.threshold n d hth _).mp (le_refl _)))
  have h3 : a.createdAt = b.createdAt := by rw [ha.createdAt, hb.createdAt]
  cases a
  cases b
  simp only at h1 h2 h3
  rw [h1, h2, h3]

/-- the set made of the active workers, with their keys, in the block `height` -/
def setThen (P : Params) (w : World) (pc : Prover.Config) (sv : Str) (kt : Multisig.KeyType) (height : Nat) :
    Except Encoding.Err WorkerSet := Prover.makeWorkerSet pc (proverEnv P w ⟨height, 0⟩ pc sv kt)

/-- the batches that a call of the prover may have begun; nothing if the set cannot be made -/
def mayBegin (P : Params) (w : World) (pc : Prover.Config) (sv : Str) (kt : Multisig.KeyType) (height : Nat) :
    Msg → Option (List (Option WorkerSet × List Message))
  | .prover (.constructProof ids) =>
    match setThen P w pc sv kt height, askGateway w pc.gateway ids with
    | .ok new, .ok msgs => some [(none, msgs), (some new, msgs)]
    | _, _ => none
  | .prover .updateWorkerSet =>
    match setThen P w pc sv kt height with
    | .ok new => some [(some new, [])]
    | .error _ => none
  | _ => some []

/-- the batches that may have been begun, for each entry of the history -/
def begunLists (P : Params) (setup : Setup) (l : List Entry) (Q : Addr) (pc : Prover.Config) (sv : Str)
    (kt : Multisig.KeyType) : List (Option (List (Option WorkerSet × List Message))) :=
  (List.range l.length).map (fun i => match l[i]? with
    | some e => if e.p.target = Q then
        match proverHeight e with
        | some h => mayBegin P (worldOf P setup (l.take i)) pc sv kt h e.p.msg
        | none => none
      else some []
    | none => none)

theorem begun_mem {P : Params} {setup : Setup} {l : List Entry} {Q : Addr} {pc : Prover.Config} {sv : Str}
    {kt : Multisig.KeyType} {n d : Nat} (hth : Std.MajorityThreshold.ofPair n d = .ok pc.signingThreshold)
    {begun : List (Option WorkerSet × List Message)}
    (hb : (begunLists P setup l Q pc sv kt).all (fun x => match x with
      | some y => y.all (fun z => begun.contains z)
      | none => false) = true) {o : Option WorkerSet} {msgs : List Message}
    (h : BegunAt P setup l Q pc sv kt o msgs) : (o, msgs) ∈ begun := by
  obtain ⟨l₁, e, l₂, height, workers, new, cur, rfl, ht, hh, hwk, hset, _, hcur, ho, hm⟩ := h
  have htake : (l₁ ++ e :: l₂).take l₁.length = l₁ := by simp
  have hget : (l₁ ++ e :: l₂)[l₁.length]? = some e := by simp
  have key := List.all_eq_true.mp hb (mayBegin P (worldOf P setup l₁) pc sv kt height e.p.msg) (by
    unfold begunLists
    refine List.mem_map.mpr ⟨l₁.length, List.mem_range.mpr (by simp), ?_⟩
    rw [hget]
    simp only
    rw [if_pos ht, hh]
    simp only
    rw [htake])
  have hact : (proverEnv P (worldOf P setup l₁) ⟨height, 0⟩ pc sv kt).activeWorkers = .ok workers := by
    unfold proverEnv
    simp only
    rw [hwk]
  have hnew : ∀ ws, setThen P (worldOf P setup l₁) pc sv kt height = .ok ws → ws = new := by
    intro ws hws
    obtain ⟨workers', hact', hset'⟩ := Prover.setOf_makeWorkerSet hws
    rw [hact] at hact'
    simp only [Except.ok.injEq] at hact'
    subst hact'
    exact setOf_unique hth hset' hset
  have ho' : o = none ∨ o = some new := by
    rw [ho]
    split
    · exact Or.inr rfl
    · exact Or.inl rfl
  rcases hm with ⟨ids, hmsg, hg, _, _⟩ | ⟨hmsg, hms, hno⟩
  · rw [hmsg] at key
    unfold mayBegin at key
    simp only [hg] at key
    cases hs : setThen P (worldOf P setup l₁) pc sv kt height with
    | error x => rw [hs] at key; simp at key
    | ok ws =>
      rw [hs, hnew ws hs] at key
      simp only [List.all_eq_true, List.contains_iff_mem] at key
      rcases ho' with rfl | rfl
      · exact key _ List.mem_cons_self
      · exact key _ (List.mem_cons_of_mem _ List.mem_cons_self)
  · rw [hmsg] at key
    unfold mayBegin at key
    simp only at key
    cases hs : setThen P (worldOf P setup l₁) pc sv kt height with
    | error x => rw [hs] at key; simp at key
    | ok ws =>
      rw [hs, hnew ws hs] at key
      simp only [List.all_eq_true, List.contains_iff_mem] at key
      rcases ho' with h | rfl
      · exact absurd h hno
      · subst hms
        exact key _ List.mem_cons_self

theorem batchIdsApart_of {P : Params} {setup : Setup} {l : List Entry} {Q : Addr} {pc : Prover.Config} {sv : Str}
    {kt : Multisig.KeyType} {n d : Nat} (hth : Std.MajorityThreshold.ofPair n d = .ok pc.signingThreshold)
    (begun : List (Option WorkerSet × List Message))
    (hb : (begunLists P setup l Q pc sv kt).all (fun x => match x with
      | some y => y.all (fun z => begun.contains z)
      | none => false) = true)
    (h : ∀ x ∈ begun, ∀ y ∈ begun, y.1 ≠ none → Prover.batchId P.X (x.2.map (·.ccId)) x.1 =
      Prover.batchId P.X (y.2.map (·.ccId)) y.1 → x = y) : BatchIdsApart P setup l Q pc sv kt := by
  intro o msgs ws msgs' h1 h2 hid
  have := h (o, msgs) (begun_mem hth hb h1) (some ws, msgs') (begun_mem hth hb h2) (by simp) hid
  simp only [Prod.mk.injEq] at this
  exact this

/-! ### A history -/

/-- the messages have been routed, and worker 8 has replaced worker 7 -/
def exRoutedJoined : List Tx := exTxs0 ++ exTxs1 ++ exJoin

/-- two proofs are asked for in the same block, both hand over to the new set; the first is signed -/
def exTransfer : List Tx := exRoutedJoined ++ [
  exTx 9 23 19 (.prover (.constructProof [exMsg1.ccId, exMsg3.ccId])),
  exTx 9 23 19 (.prover (.constructProof [exMsg3.ccId])),
  exTx 5 24 18 (.multisig (.submitSignature 1 (List.replicate 64 5))),
  exTx 7 24 18 (.multisig (.submitSignature 1 (List.replicate 64 7)))]

theorem exTransferWired : Wired exSetup (log exP exSetup exTransfer) 14 ⟨1, 1, 15⟩ ⟨2, 14⟩ := by
  refine ⟨rfl, rfl, ?_⟩
  intro e he _ n g hm
  have key : (log exP exSetup exTransfer).all (fun e => exRegisters e.p.msg) = true := by decide +kernel
  have h := List.all_eq_true.mp key e he
  have hg : g = 13 ∨ g = 17 := by
    rcases hm with hm | hm <;> rw [hm] at h <;> exact of_decide_eq_true h
  rcases hg with rfl | rfl
  · exact ⟨_, _, rfl, rfl, by unfold VV.Config.Valid; decide⟩
  · exact ⟨_, _, rfl, rfl, by unfold VV.Config.Valid; decide⟩

theorem exTransferDistinct : SetsDistinctAt exP (log exP exSetup exTransfer) 18 := by
  refine setsDistinctAt_of
    (sets := [⟨[5, 6, 7].map (fun a => (a, ⟨a, 1, .ecdsa (List.replicate 33 a)⟩)), 2, 3⟩]) ?_ ?_
  · decide +kernel
  · decide +kernel

def exInstalled : WorkerSet := ⟨[5, 6, 7].map (fun a => (a, ⟨a, 1, .ecdsa (List.replicate 33 a)⟩)), 2, 3⟩

def exBegun : List (Option WorkerSet × List Message) := [(some exInstalled, []), (none, [exMsg1, exMsg3]),
  (some exNewSet, [exMsg1, exMsg3]), (none, [exMsg3]), (some exNewSet, [exMsg3])]

/-- no batch with a transfer has the id of another batch -/
theorem exApart : BatchIdsApart exP exSetup (log exP exSetup exTransfer) 19 exProver svc .ecdsa :=
  batchIdsApart_of (n := 2) (d := 3) (by decide +kernel) exBegun (by decide +kernel) (by decide +kernel)

/-- the first proof is complete -/
theorem exTransferProof : ∃ p d, askProof exP (worldAfter exP exSetup exTransfer) 19 1 = .ok p ∧
    p.status = .completed d ∧ p.messageIds = [exMsg1.ccId, exMsg3.ccId] ∧ p.data.commands.length = 3 := by
  have key : (match askProof exP (worldAfter exP exSetup exTransfer) 19 1 with
      | .ok p => match p.status with
        | .completed _ => decide (p.messageIds = [exMsg1.ccId, exMsg3.ccId] ∧ p.data.commands.length = 3)
        | .pending => false
      | .error _ => false) = true := by decide +kernel
  split at key
  · rename_i p hp
    split at key
    · rename_i d hd
      have := of_decide_eq_true key
      exact ⟨p, d, hp, hd, this.1, this.2⟩
    · simp at key
  · simp at key

/-- `C109_content_partial` applies: the payload is what was signed -/
example : ∃ p d cur digest signers, askProof exP (worldAfter exP exSetup exTransfer) 19 1 = .ok p ∧
    p.data.commands.length = 3 ∧ Prover.dataDigest exP.X .bcs p.data = .ok digest ∧
    Prover.QuorumSigned exP.C cur digest signers ∧
    Prover.executeDataOf exP.X .bcs p.data cur.threshold signers = .ok d := by
  obtain ⟨p, d, h1, h2, _, h3⟩ := exTransferProof
  obtain ⟨_, _, _, cur, digest, signers, _, _, _, _, _, _, _, _, _, hd, hq, hx, _⟩ :=
    C109_content_partial exP exSetup exTransfer 14 _ _ exTransferWired 19 exProver svc .ecdsa rfl _ rfl _ rfl rfl
      exTransferDistinct exApart 1 p d h1 h2
  exact ⟨p, d, cur, digest, signers, h1, h3, hd, hq, hx⟩

/-! ### C109 is false in general -/

/-- as before, but the second proof is asked for with the same messages in another order -/
def exReordered : List Tx := exRoutedJoined ++ [
  exTx 9 23 19 (.prover (.constructProof [exMsg1.ccId, exMsg3.ccId])),
  exTx 9 23 19 (.prover (.constructProof [exMsg3.ccId, exMsg1.ccId])),
  exTx 5 24 18 (.multisig (.submitSignature 1 (List.replicate 64 5))),
  exTx 7 24 18 (.multisig (.submitSignature 1 (List.replicate 64 7)))]

/-- C109 is false in general: anyone can have the prover make a second batch with the id of the first, so that the
proof that is shown as completed has a content that nobody signed in its session. -/
theorem C109_counterexample : ∃ p d m se digest,
    worldAfter exP exSetup exReordered 18 = some (.multisig m) ∧
    askProof exP (worldAfter exP exSetup exReordered) 19 1 = .ok p ∧ p.status = .completed d ∧
    m.sessions 1 = some se ∧ Prover.dataDigest exP.X exProver.encoder p.data = .ok digest ∧ digest ≠ se.msg := by
  have key : (match worldAfter exP exSetup exReordered 18, askProof exP (worldAfter exP exSetup exReordered) 19 1 with
      | some (.multisig m), .ok p => match p.status, m.sessions 1, Prover.dataDigest exP.X exProver.encoder p.data with
        | .completed _, some se, .ok digest => decide (digest ≠ se.msg)
        | _, _, _ => false
      | _, _ => false) = true := by decide +kernel
  split at key
  · rename_i m p hm hp
    split at key
    · rename_i d se digest h1 h2 h3
      exact ⟨p, d, m, se, digest, hm, hp, h1, h2, h3, of_decide_eq_true key⟩
    · simp at key
  · simp at key

end Amp.Chain
