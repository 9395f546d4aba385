import Verif.Prover.SystemProps

/-!
# Completed proofs: C58, continued
-/

namespace Amp.Prover

open Amp.Encoding
open Amp.Multisig (Signature PublicKey Signer WorkerSet Crypto)
open Amp.Router (CCId Message ChainName)

variable (X : Ext) (C : Crypto) (self : Addr) (cfg : Config) (mcfg : Multisig.Config)

/-! ### Specification -/

/-- the calls the multisig contract received in a history, from the prover and from others -/
def multisigCalls (self : Addr) (log : List (Step Sys Op SysResp)) : List Multisig.Call :=
  log.filterMap (fun e => match e.call with
    | .multisig c => some c
    | .prover _ env => match e.resp with
      | some pr => some ⟨self, env.height, pr.out.toMultisig⟩
      | none => none)

/-- no two different worker sets registered in this history have the same id -/
def SetsDistinct (ops : List Op) : Prop :=
  Multisig.NoCollision (workerSetId X) (Multisig.trace C (workerSetId X) mcfg
    (multisigCalls self (sysLog X C self cfg mcfg ops)))

/-- the payload for the gateway of the destination chain: the content with the signatures -/
def executeDataOf (X : Ext) (enc : Encoder) (d : Data) (quorum : Nat)
    (signers : List (Signer × Option Signature)) : Except Err Bytes :=
  match enc with
  | .abi => Abi.encodeExecuteData X d quorum signers
  | .bcs => Bcs.encodeExecuteData X d quorum signers

/-- `signers` lists the members of `cur`, some with a signature of `digest`; the signatures are valid and
reach the threshold -/
structure QuorumSigned (C : Crypto) (cur : WorkerSet) (digest : Bytes)
    (signers : List (Signer × Option Signature)) : Prop where
  members : (signers.map Prod.fst).Perm (cur.signers.map Prod.snd)
  valid : ∀ sg sig, (sg, some sig) ∈ signers → Multisig.Valid C digest sg.pubKey sig
  quorum : cur.threshold ≤ weightOf (signed signers)

/-! ### Helper lemmas -/

theorem executeData_eq {b : Batch} {enc : Encoder} (h : b.encoder = enc) (q : Nat)
    (signers : List (Signer × Option Signature)) :
    b.executeData X q signers = executeDataOf X enc b.data q signers := by
  unfold Batch.executeData executeDataOf
  subst h
  cases b.encoder <;> rfl

theorem set_last {K V : Type} [LinearOrder K] {l : List (K × V)} {e : K × V} (h : ∀ x ∈ l, x.1 < e.1) :
    OMap.set l e.1 e.2 = l ++ [e] := by
  induction l with
  | nil => rfl
  | cons x t ih =>
    obtain ⟨k, v⟩ := x
    have hx : k < e.1 := h (k, v) List.mem_cons_self
    unfold OMap.set
    rw [if_neg (not_lt.mpr hx.le), if_neg (ne_of_gt hx), ih (fun y hy => h y (by simp [hy]))]
    rfl

theorem ofList_of_sorted {K V : Type} [LinearOrder K] (l : List (K × V)) :
    OMap.Sorted l → OMap.ofList l = l := by
  induction l using List.reverseRecOn with
  | nil => intro _; rfl
  | append_singleton l e ih =>
    intro h
    obtain ⟨h1, _, h3⟩ := List.pairwise_append.mp h
    rw [ofList_snoc, ih h1]
    exact set_last (fun x hx => h3 x hx e (by simp))

theorem mapE_id {A B E : Type} {f : A → Except E B} {g : A → B} (h : ∀ a b, f a = .ok b → b = g a)
    {l : List A} {r : List B} (hx : mapE f l = .ok r) : r = l.map g := by
  induction l generalizing r with
  | nil => simp only [mapE, Except.ok.injEq] at hx; subst hx; rfl
  | cons a t ih =>
    obtain ⟨b, r', h1, h2, rfl⟩ := mapE_cons_ok.mp hx
    rw [List.map_cons, h a b h1, ih h2]

/-- what the multisig contract decodes is what the prover sent -/
theorem decode_toRaw {ws ws' : WorkerSet} (hs : OMap.Sorted ws.signers)
    (h : (toRaw ws).decode = .ok ws') : ws' = ws := by
  unfold Multisig.RawWorkerSet.decode at h
  split at h
  · simp at h
  split at h
  · simp at h
  · rename_i l hm
    simp only [Except.ok.injEq] at h
    have key : l = ws.signers := by
      have := mapE_id (g := fun e : Addr × Multisig.RawSigner => (e.1, (⟨e.2.address, e.2.weight,
        match e.2.keyType with
        | .ecdsa => .ecdsa e.2.key
        | .ed25519 => .ed25519 e.2.key⟩ : Signer))) ?_ hm
      · rw [this]
        simp only [toRaw, List.map_map]
        conv => rhs; rw [← List.map_id ws.signers]
        apply List.map_congr_left
        intro e _
        obtain ⟨a, ad, w, k⟩ := e
        cases k <;> rfl
      · intro e b hb
        cases hd : Multisig.RawSigner.decode e.2 with
        | error x => rw [hd] at hb; simp at hb
        | ok s =>
          rw [hd] at hb
          simp only [Except.ok.injEq] at hb
          subst hb
          unfold Multisig.RawSigner.decode at hd
          split at hd
          · simp at hd
          cases hk : PublicKey.tryFrom e.2.keyType e.2.key with
          | error x => rw [hk] at hd; simp at hd
          | ok k =>
            rw [hk] at hd
            simp only [Except.ok.injEq] at hd
            obtain ⟨_, h2, h3⟩ := Multisig.key_ok.mp hk
            rw [← hd]
            congr 2
            rw [← h2, ← h3]
            cases k <;> rfl
    rw [← h, key, ofList_of_sorted _ hs]
    rfl

variable {X C self cfg mcfg}

theorem multisigCalls_snoc (log : List (Step Sys Op SysResp)) (e : Step Sys Op SysResp) :
    multisigCalls self (log ++ [e]) = multisigCalls self log ++ multisigCalls self [e] := by
  unfold multisigCalls
  rw [List.filterMap_append]

/-- the multisig contract is in the state its calls lead to; the worker sets that were current are
registered -/
theorem sys_multisig (ops : List Op) :
    (sysAfter X C self cfg mcfg ops).multisig = Multisig.stateAfter C (workerSetId X) mcfg
      (multisigCalls self (sysLog X C self cfg mcfg ops)) ∧
    (∀ cur, (sysAfter X C self cfg mcfg ops).prover.current = some cur →
      Multisig.Registered (Multisig.trace C (workerSetId X) mcfg
        (multisigCalls self (sysLog X C self cfg mcfg ops))) cur) ∧
    (∀ e ∈ sysLog X C self cfg mcfg ops, ∀ cur, e.pre.prover.current = some cur →
      Multisig.Registered (Multisig.trace C (workerSetId X) mcfg
        (multisigCalls self (sysLog X C self cfg mcfg ops))) cur) := by
  unfold sysAfter sysLog
  refine (steps_inv (sysExec X C self) (P := fun log S =>
    (∃ pcs, S.prover = stateAfter X cfg pcs) ∧
    S.multisig = Multisig.stateAfter C (workerSetId X) mcfg (multisigCalls self log) ∧
    (∀ cur, S.prover.current = some cur →
      Multisig.Registered (Multisig.trace C (workerSetId X) mcfg (multisigCalls self log)) cur) ∧
    (∀ e ∈ log, ∀ cur, e.pre.prover.current = some cur →
      Multisig.Registered (Multisig.trace C (workerSetId X) mcfg (multisigCalls self log)) cur))
    (sysInit cfg mcfg) ⟨⟨[], rfl⟩, rfl, by intro cur h; simp [sysInit, init] at h, by simp⟩ ?_ ops).2
  rintro log S op S' r ⟨hp, hm, hcur, hall⟩ hx
  obtain ⟨_, hp'⟩ := sys_reach hx ⟨_, hm⟩ hp
  have mono : ∀ ws e, Multisig.Registered (Multisig.trace C (workerSetId X) mcfg (multisigCalls self log)) ws →
      Multisig.Registered (Multisig.trace C (workerSetId X) mcfg (multisigCalls self (log ++ [e]))) ws := by
    intro ws e h
    rw [multisigCalls_snoc, Multisig.trace_append]
    exact h.mono
  have reach : ∀ c mr, multisigCalls self [⟨S, op, r, S'⟩] = [c] →
      Multisig.exec C (workerSetId X) S.multisig c = .ok (S'.multisig, mr) →
      S'.multisig = Multisig.stateAfter C (workerSetId X) mcfg (multisigCalls self (log ++ [⟨S, op, r, S'⟩])) ∧
      Multisig.trace C (workerSetId X) mcfg (multisigCalls self (log ++ [⟨S, op, r, S'⟩])) =
        Multisig.trace C (workerSetId X) mcfg (multisigCalls self log) ++ [⟨S.multisig, c, mr, S'.multisig⟩] := by
    intro c mr hc h1
    rw [multisigCalls_snoc, hc]
    have h1' := h1
    rw [hm] at h1
    refine ⟨reach_snoc _ h1, ?_⟩
    rw [Multisig.trace_append, ← hm, steps_cons_ok _ h1']
    rfl
  have fin : (∀ cur, S'.prover.current = some cur → S.prover.current = some cur ∨
      Multisig.Registered (Multisig.trace C (workerSetId X) mcfg
        (multisigCalls self (log ++ [⟨S, op, r, S'⟩]))) cur) →
      (∀ cur, S'.prover.current = some cur → Multisig.Registered (Multisig.trace C (workerSetId X) mcfg
        (multisigCalls self (log ++ [⟨S, op, r, S'⟩]))) cur) ∧
      (∀ e ∈ log ++ [⟨S, op, r, S'⟩], ∀ cur, e.pre.prover.current = some cur →
        Multisig.Registered (Multisig.trace C (workerSetId X) mcfg
          (multisigCalls self (log ++ [⟨S, op, r, S'⟩]))) cur) := by
    intro h
    constructor
    · intro cur hc
      rcases h cur hc with h | h
      · exact mono _ _ (hcur cur h)
      · exact h
    · intro e he cur hc
      rcases List.mem_append.mp he with he | he
      · exact mono _ _ (hall e he cur hc)
      · rw [List.mem_singleton] at he
        subst he
        exact mono _ _ (hcur cur hc)
  rcases sys_ok hx with ⟨c, mr, rfl, h1, h2, rfl⟩ | ⟨msg, env, pr, mr, rfl, rfl, h1, h2⟩
  · exact ⟨hp', (reach c mr rfl h1).1, fin (fun cur hc => Or.inl (by rw [← h2]; exact hc))⟩
  · obtain ⟨g1, g2⟩ := reach _ mr rfl h2
    refine ⟨hp', g1, fin ?_⟩
    have reg : ∀ ws, pr.out = .registerWorkerSet ws → OMap.Sorted ws.signers →
        Multisig.Registered (Multisig.trace C (workerSetId X) mcfg
          (multisigCalls self (log ++ [⟨S, .prover msg env, some pr, S'⟩]))) ws := by
      intro ws ho hs
      rw [g2]
      refine ⟨_, List.mem_append_right _ (List.mem_singleton_self _), toRaw ws, ?_, ?_⟩
      · simp only [ho, Out.toMultisig]
      · rw [ho] at h2
        simp only [Out.toMultisig, Multisig.exec, Multisig.registerWorkerSet] at h2
        cases hd : (toRaw ws).decode with
        | error e => rw [hd] at h2; simp at h2
        | ok ws' => rw [decode_toRaw hs hd]
    obtain ⟨pcs', hp''⟩ := hp'
    have hwf := (current_wf X cfg pcs').1
    rw [← hp''] at hwf
    cases exec_effect h1 with
    | first new hm' hc hn hs hr' =>
      intro cur hc'
      have hw := hwf cur hc'
      rw [hs] at hc'
      simp only [Option.some.injEq] at hc'
      subst hc'
      exact Or.inr (reg new (by rw [hr']) hw.sorted)
    | confirmed ws ops hm' hpend ho hv hs hr' =>
      intro cur hc'
      have hw := hwf cur hc'
      rw [hs] at hc'
      simp only [Option.some.injEq] at hc'
      subst hc'
      exact Or.inr (reg ws (by rw [hr']) hw.sorted)
    | reused ids b cur' digest sid' hm' hb hg hc hd ha hs hr' =>
      intro cur hc'
      rw [hs] at hc'
      exact Or.inl hc'
    | built ids msgs ws b cur' digest sid' hm' hw hb hpend hc hd ha hs hr' =>
      intro cur hc'
      rw [hs] at hc'
      exact Or.inl hc'

theorem weightOf_signed (l : List (Signer × Option Signature)) :
    weightOf (signed l) = (l.map (fun p => match p.2 with
      | none => 0
      | some _ => p.1.weight)).sum := by
  induction l with
  | nil => rfl
  | cons e t ih =>
    obtain ⟨sg, sig⟩ := e
    cases sig with
    | none => rw [signed_cons_none, ih]; simp
    | some x =>
      rw [signed_cons_some]
      have : weightOf ((sg, some x) :: signed t) = sg.weight + weightOf (signed t) := by simp [weightOf]
      rw [this, ih]
      simp

/-! ### C58 -/

variable (X C self cfg mcfg)

/-- C58: the current worker set of the prover is registered with the multisig contract under its id. -/
theorem C58_current_registered (ops : List Op) (hd : SetsDistinct X C self cfg mcfg ops) (cur : WorkerSet)
    (h : (sysAfter X C self cfg mcfg ops).prover.current = some cur) :
    Multisig.getWorkerSet (sysAfter X C self cfg mcfg ops).multisig (workerSetId X cur) = some cur := by
  obtain ⟨h1, h2, _⟩ := sys_multisig (X := X) (C := C) (self := self) (cfg := cfg) (mcfg := mcfg) ops
  rw [h1]
  exact (Multisig.C49_stable C (workerSetId X) mcfg _ hd _ cur).mpr ⟨rfl, h2 cur h⟩

/-- C58: a completed proof shows the content of the stored batch, and its payload is that content with
signatures of the digest the session was opened with, valid and reaching the threshold, by members of the
worker set that was current then. -/
theorem C58_signed (ops : List Op) (hd : SetsDistinct X C self cfg mcfg ops) (sid : Nat) (p : Proof)
    (d : Bytes) (h : sysProof X (sysAfter X C self cfg mcfg ops) sid = .ok p)
    (hc : p.status = .completed d) :
    ∃ e ∈ sysLog X C self cfg mcfg ops, ∃ bid b cur digest signers, Opened X cfg e sid bid b cur digest ∧
      QuorumSigned C cur digest signers ∧
      executeDataOf X cfg.encoder p.data cur.threshold signers = .ok d := by
  obtain ⟨hms, _, hreg⟩ := sys_multisig (X := X) (C := C) (self := self) (cfg := cfg) (mcfg := mcfg) ops
  have hcfg : (sysAfter X C self cfg mcfg ops).prover.config = cfg := by
    have := runCalls_inv (sysExec X C self) (P := fun S : Sys =>
      (∃ mcs, S.multisig = Multisig.stateAfter C (workerSetId X) mcfg mcs) ∧
      (∃ pcs, S.prover = stateAfter X cfg pcs))
      (fun S op S' r hi hx => sys_reach hx hi.1 hi.2) (sysInit cfg mcfg) ⟨⟨[], rfl⟩, ⟨[], rfl⟩⟩ ops
    obtain ⟨_, pcs, hp⟩ := this
    show (runCalls (sysExec X C self) (sysInit cfg mcfg) ops).prover.config = cfg
    rw [hp]
    exact config_stateAfter X cfg pcs
  have hsess := C58_session X C self cfg mcfg ops sid
  unfold sysProof at h
  obtain ⟨bid, b, m, r, h1, h2, h3, h4, h5, at', h6⟩ := C55_proof X _ _ sid p d h hc
  have hdata : p.data = b.data ∧ b.encoder = cfg.encoder := by
    unfold getProof at h
    rw [h1] at h
    simp only at h
    rw [h2] at h
    simp only at h
    by_cases he : b.encoder ≠ (sysAfter X C self cfg mcfg ops).prover.config.encoder
    · rw [if_pos he] at h; simp at h
    rw [if_neg he, h3] at h
    simp only [h6, h4, h5, Except.ok.injEq] at h
    refine ⟨by rw [← h], ?_⟩
    have := not_not.mp he
    rw [this, hcfg]
  obtain ⟨e, he, b', cur, digest, se, hop, hse, hmsg, hwid⟩ := hsess bid h1
  have hcur : Multisig.getWorkerSet (sysAfter X C self cfg mcfg ops).multisig (workerSetId X cur) = some cur := by
    rw [hms]
    exact (Multisig.C49_stable C (workerSetId X) mcfg _ hd _ cur).mpr ⟨rfl, hreg e he cur hop.current⟩
  obtain ⟨hb, hi⟩ := Multisig.invariants C (workerSetId X) mcfg
    (multisigCalls self (sysLog X C self cfg mcfg ops))
  have hi := hi hd
  rw [← hms] at hb hi
  unfold Multisig.getWorkerSet at hcur
  have hm : m = ⟨se.state, cur.threshold, cur.signers.map (fun e => (e.2,
      ((sysAfter X C self cfg mcfg ops).multisig.signatures sid).get? e.1))⟩ := by
    unfold Multisig.getMultisig at h3
    rw [hse] at h3
    simp only at h3
    rw [hwid, hcur] at h3
    simp only [Option.some.injEq] at h3
    rw [← h3, (hb.sess sid se hse).1]
  have hcomp : se.state = .completed at' := by rw [hm] at h6; exact h6
  have hle := hi.completed sid se cur at' hse (by rw [hwid]; exact hcur) hcomp
  have hso := (hb.sets _ _ hcur).2.2
  obtain ⟨⟨l', hperm, hf⟩, hq, hmin⟩ := C55_fewest _ _ _ h4
  have hms' : m.signers.map Prod.fst = cur.signers.map Prod.snd := by
    rw [hm]
    simp [Function.comp_def]
  have hquor : m.quorum = cur.threshold := by rw [hm]
  have hfst : ∀ {a b : List (Signer × Option Signature)}, List.Forall₂ KeptOrDropped a b →
      b.map Prod.fst = a.map Prod.fst := by
    intro a b h
    induction h with
    | nil => rfl
    | cons h _ ih => rw [List.map_cons, List.map_cons, ih, h.1]
  refine ⟨e, he, bid, b', cur, digest, r, hop, ⟨?_, ?_, ?_⟩, ?_⟩
  · rw [hfst hf, ← hms']
    exact hperm.map _
  · intro sg sig hmem
    have hmem' : (sg, some sig) ∈ l' := by
      clear hq h4 h5 hperm hmin
      induction hf with
      | nil => simp at hmem
      | cons hk _ ih =>
        rcases List.mem_cons.mp hmem with h | h
        · subst h
          obtain ⟨k1, k2⟩ := hk
          rcases k2 with k2 | k2
          · rw [List.mem_cons]
            left
            exact Prod.ext k1 k2
          · simp at k2
        · exact List.mem_cons_of_mem _ (ih h)
    have hmem2 := hperm.subset hmem'
    rw [hm] at hmem2
    simp only [List.mem_map, Prod.mk.injEq, Prod.exists] at hmem2
    obtain ⟨a, sg', h7, rfl, h8⟩ := hmem2
    obtain ⟨sg2, h9, h10⟩ := hi.sig sid a sig se cur h8 hse (by rw [hwid]; exact hcur)
    rw [OMap.get?_of_mem hso h7] at h9
    simp only [Option.some.injEq] at h9
    subst h9
    rw [← hmsg]
    exact h10
  · rw [← hquor]
    apply hq
    rw [weightOf_signed, hquor, hm]
    simp only [List.map_map]
    exact hle
  · rw [hdata.1, ← hquor, ← executeData_eq X hdata.2]
    exact h5

/-- C58, end to end, partially: what is missing is said at `C58_bound_partial`. A completed proof carries,
with the content it shows, signatures of the digest of exactly this content, valid and reaching the
threshold, by members of the worker set that was current when the proof was requested. -/
theorem C58_proof_partial (ops : List Op) (hd : SetsDistinct X C self cfg mcfg ops)
    (hown : OwnIds (sysLog X C self cfg mcfg ops))
    (hnc : NoCollisions X cfg (sysLog X C self cfg mcfg ops))
    (hone : OneRotationPerBlock (sysLog X C self cfg mcfg ops)) (sid : Nat) (p : Proof) (d : Bytes)
    (h : sysProof X (sysAfter X C self cfg mcfg ops) sid = .ok p) (hc : p.status = .completed d) :
    ∃ cur digest signers,
      (∃ e ∈ sysLog X C self cfg mcfg ops, e.pre.prover.current = some cur ∧
        ∃ pr bid, e.resp = some pr ∧ pr.event = some (sid, bid)) ∧
      dataDigest X cfg.encoder p.data = .ok digest ∧ QuorumSigned C cur digest signers ∧
      executeDataOf X cfg.encoder p.data cur.threshold signers = .ok d := by
  obtain ⟨e, he, bid, b, cur, digest, signers, hop, hq, hx⟩ :=
    C58_signed X C self cfg mcfg ops hd sid p d h hc
  obtain ⟨se, hse, hdig⟩ := C58_bound_partial X C self cfg mcfg ops hown hnc hone sid p h
  have hm : se.msg = digest := by
    have h1 := hop.session
    obtain ⟨⟨ops₁, ops₂, hops, hpre⟩, hx'⟩ := steps_mem (sysExec X C self) he
    have hpost : e.post = sysAfter X C self cfg mcfg (ops₁ ++ [e.call]) := by
      unfold sysAfter
      rw [runCalls_append, runCalls_cons, ← hpre, hx']
      rfl
    have key : ∀ ops₂, ∃ se', (sysAfter X C self cfg mcfg (ops₁ ++ [e.call] ++ ops₂)).multisig.sessions sid =
        some se' ∧ se'.msg = digest := by
      intro ops₂
      induction ops₂ using List.reverseRecOn with
      | nil => rw [List.append_nil, ← hpost]; exact ⟨_, h1, rfl⟩
      | append_singleton l op ih =>
        obtain ⟨se', k1, k2⟩ := ih
        obtain ⟨km, _⟩ := sys_multisig (X := X) (C := C) (self := self) (cfg := cfg) (mcfg := mcfg)
          (ops₁ ++ [e.call] ++ l)
        rw [← List.append_assoc]
        unfold sysAfter at k1 km ⊢
        rw [runCalls_append (cs := ops₁ ++ [e.call] ++ l), runCalls_cons, runCalls_nil]
        cases hx2 : sysExec X C self
            (runCalls (sysExec X C self) (sysInit cfg mcfg) (ops₁ ++ [e.call] ++ l)) op with
        | error _ => exact ⟨se', k1, k2⟩
        | ok y =>
          obtain ⟨S', r⟩ := y
          obtain ⟨se2, q1, _, q2⟩ := session_kept hx2 ⟨_, km⟩ k1
          exact ⟨se2, q1, by rw [q2, k2]⟩
    obtain ⟨se', k1, k2⟩ := key ops₂
    have heq : ops₁ ++ [e.call] ++ ops₂ = ops := by rw [hops]; simp
    rw [heq, hse] at k1
    simp only [Option.some.injEq] at k1
    rw [k1, k2]
  obtain ⟨pr, hpr, hev⟩ := hop.event
  exact ⟨cur, digest, signers, ⟨e, he, hop.current, pr, bid, hpr, hev⟩, by rw [hdig, hm], hq, hx⟩

end Amp.Prover
