import Verif.Ampd.StallProps
import Verif.Base.Hex
import Verif.Multisig.Props

/-!
# C77: signing sessions and the signing handler of the daemon
-/

namespace Amp.Ampd.Signing

open Amp.Encoding (Bytes)
open Amp.Multisig (PublicKey Signature WorkerSet Crypto Call State Resp)

/-! ### From the event of the multisig contract to what the handler reads -/

/-- How the daemon reads parts of the event.  The digest is written as hexadecimal text; the attribute is first tried
as JSON (`packages/events/src/event.rs:53-62`) and must then be a string: `attr`.  Public keys must be points of
their curve (`handlers/multisig.rs:39-67`): `key`; the contract only checks their length. -/
structure Reader where
  attr : Str → Option Str
  key : PublicKey → Option Bytes

/-- the type of an event as seen outside the contract (`contracts/multisig/src/events.rs:46-95`) -/
def eventType : Multisig.Event → Str
  | .signingStarted .. => "wasm-signing_started".toList
  | .signatureSubmitted .. => "wasm-signature_submitted".toList
  | .signingCompleted .. => "wasm-signing_completed".toList
  | .publicKeyRegistered .. => "wasm-public_key_registered".toList
  | .callerAuthorized .. => "wasm-caller_authorized".toList
  | .callerUnauthorized .. => "wasm-caller_unauthorized".toList

/-- an event of the multisig contract at `contract`, as published -/
def announced (contract : Addr) (ev : Multisig.Event) : Abci (Addr × Multisig.Event) := ⟨eventType ev, (contract, ev)⟩

/-- one entry of the map of keys -/
def readKey (R : Reader) (p : Addr × PublicKey) : Option (Addr × Bytes) :=
  match R.key p.2 with
  | none => none
  | some k => some (p.1, k)

/-- `handlers/multisig.rs:27-67` (`SigningStartedEvent`, `deserialize_public_keys`), `tofnd/mod.rs:36-42`
(`MessageDigest`: 32 bytes).  The addresses in the map are opaque here. -/
def readSigning (R : Reader) (v : Addr × Multisig.Event) : Option SigningStarted :=
  match v.2 with
  | .signingStarted id _ keys msg _ =>
    match readAll (readKey R) keys with
    | none => none
    | some ks =>
      match (R.attr (encodeHex msg)).bind decodeHex with
      | none => none
      | some m => if m.length = 32 then some ⟨v.1, id, ks, m⟩ else none
  | _ => none

/-- a reader that takes strings as they are -/
def Reader.Plain (R : Reader) (msg : Bytes) : Prop := R.attr (encodeHex msg) = some (encodeHex msg)

/-! ### Helper lemmas -/

theorem readAll_some {α β : Type} {f : α → Option β} {l : List α} {m : List β} (h : readAll f l = some m) :
    l.map f = m.map some := by
  induction l generalizing m with
  | nil => simp only [readAll, Option.some.injEq] at h; subst h; rfl
  | cons a t ih =>
    unfold readAll at h
    split at h
    · simp at h
    rename_i b hb
    split at h
    · simp at h
    rename_i bs hbs
    simp only [Option.some.injEq] at h
    subst h
    simp only [List.map_cons, hb, ih hbs]

theorem readAll_ok {α β : Type} {f : α → Option β} {l : List α} (h : ∀ a ∈ l, (f a).isSome) :
    ∃ m, readAll f l = some m := by
  induction l with
  | nil => exact ⟨[], rfl⟩
  | cons a t ih =>
    obtain ⟨m, hm⟩ := ih (fun a ha => h a (List.mem_cons_of_mem _ ha))
    obtain ⟨b, hb⟩ := Option.isSome_iff_exists.mp (h a (List.mem_cons_self ..))
    exact ⟨b :: m, by unfold readAll; rw [hb, hm]⟩

theorem readSigning_some {R : Reader} {x : Addr} {ev : Multisig.Event} {s : SigningStarted}
    (h : readSigning R (x, ev) = some s) :
    ∃ id wid keys msg chain ks, ev = .signingStarted id wid keys msg chain ∧ readAll (readKey R) keys = some ks ∧
      (R.attr (encodeHex msg)).bind decodeHex = some s.msg ∧ s.msg.length = 32 ∧
      s.contract = x ∧ s.sessionId = id ∧ s.pubKeys = ks := by
  unfold readSigning at h
  split at h
  · rename_i id wid keys msg chain hev
    simp only at hev
    split at h
    · simp at h
    rename_i ks hks
    split at h
    · simp at h
    rename_i m hm
    split at h
    · rename_i hl
      simp only [Option.some.injEq] at h
      subst h
      exact ⟨id, wid, keys, msg, chain, ks, hev, hks, hm, hl, rfl, rfl, rfl⟩
    · simp at h
  · simp at h

theorem readKeys_mem {R : Reader} {keys : List (Addr × PublicKey)} {ks : List (Addr × Bytes)} {a : Addr} {k : Bytes}
    (h : readAll (readKey R) keys = some ks) (hm : (a, k) ∈ ks) :
    ∃ pk, (a, pk) ∈ keys ∧ R.key pk = some k := by
  have h1 := readAll_some h
  have : some (a, k) ∈ keys.map (readKey R) := by rw [h1]; exact List.mem_map_of_mem hm
  obtain ⟨⟨a', pk⟩, hp, hk⟩ := List.mem_map.mp this
  unfold readKey at hk
  split at hk
  · simp at hk
  · rename_i k' hk'
    simp only [Option.some.injEq, Prod.mk.injEq] at hk
    obtain ⟨rfl, rfl⟩ := hk
    exact ⟨pk, hp, hk'⟩

theorem readKeys_of_mem {R : Reader} {keys : List (Addr × PublicKey)} {ks : List (Addr × Bytes)} {a : Addr}
    {pk : PublicKey} {k : Bytes} (h : readAll (readKey R) keys = some ks) (hm : (a, pk) ∈ keys)
    (hk : R.key pk = some k) : (a, k) ∈ ks := by
  have h1 := readAll_some h
  have : readKey R (a, pk) ∈ keys.map (readKey R) := List.mem_map_of_mem hm
  rw [h1] at this
  obtain ⟨y, hy, hye⟩ := List.mem_map.mp this
  unfold readKey at hye
  simp only [hk, Option.some.injEq] at hye
  rw [← hye]; exact hy

theorem tryFrom_ok {V P : Type} {ty : Str} {deser : V → Option P} {a : Abci V} {s : P} (hty : a.type = ty)
    (hd : deser a.attributes = some s) : tryFrom ty deser (.abci a) = .ok s := by
  unfold tryFrom
  dsimp only
  rw [if_pos hty, hd]

theorem lastWith_unique {A B C : Type} [DecidableEq A] {f : B → Option C} {l : List (A × B)} {m : List (A × C)} {a : A}
    {b : B} {c : C} (hl : (l.map Prod.fst).Nodup) (hb : (a, b) ∈ l) (hc : f b = some c)
    (hm : ∀ a c, (a, c) ∈ m ↔ ∃ b, (a, b) ∈ l ∧ f b = some c) : lastWith a m = some c := by
  cases hw : lastWith a m with
  | none => exact absurd ((hm a c).mpr ⟨b, hb, hc⟩) (lastWith_none hw c)
  | some c' =>
    obtain ⟨b', h1, h2⟩ := (hm a c').mp (lastWith_mem hw)
    have : b' = b := by
      clear hm hw h2 hc
      induction l with
      | nil => simp at hb
      | cons y t ih =>
        rw [List.map_cons, List.nodup_cons] at hl
        rcases List.mem_cons.mp hb with g1 | g1 <;> rcases List.mem_cons.mp h1 with g2 | g2
        · exact (Prod.mk.inj (g2.trans g1.symm)).2
        · exact absurd (List.mem_map.mpr ⟨_, g2, by rw [← g1]⟩) hl.1
        · exact absurd (List.mem_map.mpr ⟨_, g1, by rw [← g2]⟩) hl.1
        · exact ih hl.2 g1 g2
    rw [this, hc] at h2
    exact h2.symm

/-! ### C77 -/

/-- C77, soundness: whatever event is published, the signing handler sends at most one transaction, and only if the
event announces a session of the configured multisig contract that lists the worker; it submits, for that session,
what the key manager returned for the announced digest and the worker's listed key. -/
theorem C77_submits_only (R : Reader) (H : Handler) (E : Env) (x : Addr) (ev : Multisig.Event) (t : ExecTx)
    (hmsg : ∀ id wid keys msg chain, ev = .signingStarted id wid keys msg chain → IsBytes msg ∧ R.Plain msg)
    (h : t ∈ (handle (readSigning R) H E (.abci (announced x ev))).sent) :
    ∃ id wid keys msg chain pk k sig, x = H.multisig ∧ ev = .signingStarted id wid keys msg chain ∧
      (H.worker, pk) ∈ keys ∧ R.key pk = some k ∧ E.sign H.multisig msg k = some sig ∧
      t = ⟨H.worker, H.multisig, .submitSignature id sig⟩ ∧
      (handle (readSigning R) H E (.abci (announced x ev))).sent = [t] := by
  unfold handle tryFrom at h ⊢
  split at h
  · simp [Outcome.ignored] at h
  · simp [Outcome.failed] at h
  · rename_i s hs
    simp only at hs
    split at hs
    · rename_i hty
      split at hs
      · simp at hs
      · rename_i s' hs'
        simp only [Decoded.ok.injEq] at hs
        subst hs
        obtain ⟨id, wid, keys, msg, chain, ks, rfl, hks, hm, hl, hc, hi, hp⟩ := readSigning_some hs'
        obtain ⟨hb, hpl⟩ := hmsg _ _ _ _ _ rfl
        unfold Reader.Plain at hpl
        rw [hpl] at hm
        simp only [Option.bind_some, decodeHex_encodeHex hb, Option.some.injEq] at hm
        split at h
        · simp [Outcome.ignored] at h
        · rename_i hx
          simp only [ne_eq, not_not] at hx
          rw [if_neg (by simpa using hx)]
          split at h
          · simp [Outcome.ignored] at h
          · rename_i key hkey
            split at h
            · simp [Outcome.failed] at h
            · rename_i sig hsig
              simp only [broadcastTx, List.mem_singleton] at h ⊢
              subst h
              rw [hp] at hkey
              obtain ⟨pk, h1, h2⟩ := readKeys_mem hks (lastWith_mem hkey)
              refine ⟨id, wid, keys, msg, chain, pk, key, sig, by rw [hx, hc], rfl, h1, h2, by rw [hm]; exact hsig,
                by rw [hi], rfl⟩
    · simp at hs

/-- C77: the key manager is not consulted about anything else: what the handler does is the same with any two key
managers that agree on the announced digest and the listed keys of the worker. -/
theorem C77_consults_only (R : Reader) (H : Handler) (E E' : Env) (x : Addr) (ev : Multisig.Event)
    (hmsg : ∀ id wid keys msg chain, ev = .signingStarted id wid keys msg chain → IsBytes msg ∧ R.Plain msg)
    (ha : E.accepted = E'.accepted)
    (hs : ∀ id wid keys msg chain pk k, x = H.multisig → ev = .signingStarted id wid keys msg chain →
      (H.worker, pk) ∈ keys → R.key pk = some k → E.sign H.multisig msg k = E'.sign H.multisig msg k) :
    handle (readSigning R) H E (.abci (announced x ev)) = handle (readSigning R) H E' (.abci (announced x ev)) := by
  unfold handle
  split
  · rfl
  · rfl
  · rename_i s hd
    split
    · rfl
    · rename_i hx
      simp only [ne_eq, not_not] at hx
      split
      · rfl
      · rename_i key hkey
        have hsig : E.sign H.multisig s.msg key = E'.sign H.multisig s.msg key := by
          unfold tryFrom at hd
          simp only at hd
          split at hd
          · split at hd
            · simp at hd
            · rename_i s' hs'
              simp only [Decoded.ok.injEq] at hd
              subst hd
              obtain ⟨id, wid, keys, msg, chain, ks, rfl, hks, hm, _, hc, _, hp⟩ := readSigning_some hs'
              obtain ⟨hb, hpl⟩ := hmsg _ _ _ _ _ rfl
              unfold Reader.Plain at hpl
              rw [hpl] at hm
              simp only [Option.bind_some, decodeHex_encodeHex hb, Option.some.injEq] at hm
              rw [hp] at hkey
              obtain ⟨pk, h1, h2⟩ := readKeys_mem hks (lastWith_mem hkey)
              rw [← hm]
              exact hs id wid keys msg chain pk key (by rw [hx, hc]) rfl h1 h2
          · simp at hd
        rw [hsig, ha]

/-- C77, completeness: if the configured multisig contract announces a session that lists the worker, all listed keys
are points of their curves, and the key manager signs, then the handler submits the signature. -/
theorem C77_submits (R : Reader) (H : Handler) (E : Env) (id : Nat) (wid : Str) (keys : List (Addr × PublicKey))
    (msg : Bytes) (chain : Str) (hb : IsBytes msg) (hl : msg.length = 32) (hpl : R.Plain msg)
    (hkeys : ∀ p ∈ keys, (R.key p.2).isSome) (hnd : (keys.map Prod.fst).Nodup) (pk : PublicKey) (k sig : Bytes)
    (hpk : (H.worker, pk) ∈ keys) (hk : R.key pk = some k) (hs : E.sign H.multisig msg k = some sig) :
    (handle (readSigning R) H E (.abci (announced H.multisig (.signingStarted id wid keys msg chain)))).sent =
      [⟨H.worker, H.multisig, .submitSignature id sig⟩] ∧
    ((handle (readSigning R) H E (.abci (announced H.multisig (.signingStarted id wid keys msg chain)))).succeeded ↔
      E.accepted = true) := by
  obtain ⟨ks, hks⟩ := readAll_ok (f := readKey R) (l := keys) (by
    intro p hp
    obtain ⟨k, hk⟩ := Option.isSome_iff_exists.mp (hkeys p hp)
    simp [readKey, hk])
  have hread : readSigning R (H.multisig, .signingStarted id wid keys msg chain) = some ⟨H.multisig, id, ks, msg⟩ := by
    unfold Reader.Plain at hpl
    simp only [readSigning, hks, hpl, Option.bind_some, decodeHex_encodeHex hb, if_pos hl]
  have hlast : lastWith H.worker ks = some k :=
    lastWith_unique (f := R.key) hnd hpk hk (fun a c => ⟨readKeys_mem hks,
      fun ⟨_, h1, h2⟩ => readKeys_of_mem hks h1 h2⟩)
  have hh : handle (readSigning R) H E (.abci (announced H.multisig (.signingStarted id wid keys msg chain))) =
      broadcastTx E.accepted ⟨H.worker, H.multisig, .submitSignature id sig⟩ := by
    have htry := tryFrom_ok (deser := readSigning R) (s := ⟨H.multisig, id, ks, msg⟩)
      (a := announced H.multisig (.signingStarted id wid keys msg chain)) (ty := "wasm-signing_started".toList) rfl hread
    unfold handle
    rw [htry]
    dsimp only
    rw [if_neg (by simp), hlast]
    dsimp only
    rw [hs]
  rw [hh]
  refine ⟨rfl, ?_⟩
  unfold broadcastTx Outcome.succeeded
  cases E.accepted <;> simp

/-! #### The contract accepts it -/

/-- the multisig contract announced session `id` in this history -/
def Announced (log : List (Step State Call Resp)) (id : Nat) (wid : Str) (keys : List (Addr × PublicKey))
    (msg : Bytes) (chain : Str) : Prop :=
  ∃ st ∈ log, Multisig.Event.signingStarted id wid keys msg chain ∈ st.resp.events

theorem announced_step {C : Crypto} {idOf : WorkerSet → Str} {s s' : State} {c : Call} {r : Resp} {id : Nat}
    {wid : Str} {keys : List (Addr × PublicKey)} {msg : Bytes} {chain : Str}
    (hx : Multisig.exec C idOf s c = .ok (s', r))
    (hev : Multisig.Event.signingStarted id wid keys msg chain ∈ r.events) :
    ∃ ws, s'.sessions id = some ⟨id, wid, msg, .pending⟩ ∧ s'.workerSets wid = some ws ∧ keys = ws.pubKeys := by
  rcases Multisig.exec_ok hx with ⟨wid', msg', chain', ok, hm, h⟩ | ⟨i, b, hm, h⟩ | ⟨raw, ws, hm, hd, e1, e2⟩ |
    ⟨kt, b, k, hm, hk, e1, e2⟩ | ⟨a, hm, hg, e1, e2⟩ | ⟨a, hm, hg, e1, e2⟩
  · obtain ⟨_, _, _, _, ws, hw, e1, e2⟩ := Multisig.start_ok.mp h
    rw [e2] at hev
    simp only [List.mem_singleton, Multisig.Event.signingStarted.injEq] at hev
    obtain ⟨rfl, rfl, rfl, rfl, rfl⟩ := hev
    rw [e1]
    exact ⟨ws, by simp [KV.set_apply], hw, rfl⟩
  · exfalso
    obtain ⟨_, _, _, _, _, _, _, _, _, _, _, _, _, _, e2⟩ := Multisig.submit_ok.mp h
    rw [e2] at hev
    unfold Multisig.signingResponse at hev
    simp only [List.mem_cons, List.mem_append, reduceCtorEq, false_or] at hev
    split at hev <;> simp at hev
  all_goals
    rw [e2] at hev
    simp at hev

theorem announced_state (C : Crypto) (idOf : WorkerSet → Str) (cfg : Multisig.Config) (cs : List Call)
    (hnc : Multisig.NoCollision idOf (Multisig.trace C idOf cfg cs)) (id : Nat)
    (wid : Str) (keys : List (Addr × PublicKey)) (msg : Bytes) (chain : Str)
    (h : Announced (Multisig.trace C idOf cfg cs) id wid keys msg chain) :
    ∃ se ws, (Multisig.stateAfter C idOf cfg cs).sessions id = some se ∧ se.workerSetId = wid ∧ se.msg = msg ∧
      (Multisig.stateAfter C idOf cfg cs).workerSets wid = some ws ∧ keys = ws.pubKeys ∧ OMap.Sorted ws.signers := by
  obtain ⟨st, hst, hev⟩ := h
  obtain ⟨⟨cs₁, cs₂, hcs, hpre⟩, hx⟩ := steps_mem _ hst
  obtain ⟨ws, h1, h2, h3⟩ := announced_step hx hev
  have hpost : st.post = Multisig.stateAfter C idOf cfg (cs₁ ++ [st.call]) := by
    unfold Multisig.stateAfter
    rw [runCalls_append, ← hpre]
    simp only [runCalls, List.foldl_cons, List.foldl_nil, hx, commit]
  have hcs' : cs = (cs₁ ++ [st.call]) ++ cs₂ := by rw [hcs]; simp
  rw [hpost] at h1 h2
  obtain ⟨se, g1, _, g3, g4⟩ := Multisig.C48_immutable C idOf cfg _ cs₂ id _ h1
  have g5 := Multisig.C49_forever C idOf cfg _ cs₂ (by rw [← hcs']; exact hnc) wid ws h2
  rw [← hcs'] at g1 g5
  exact ⟨se, ws, g1, g3, g4, g5, h3, ((Multisig.invariants C idOf cfg cs).1.sets wid ws g5).2.2⟩

theorem pubKeys_get {ws : WorkerSet} (hs : OMap.Sorted ws.signers) {a : Addr} {pk : PublicKey}
    (h : (a, pk) ∈ ws.pubKeys) : ∃ sg, ws.signers.get? a = some sg ∧ sg.pubKey = pk := by
  unfold WorkerSet.pubKeys at h
  obtain ⟨⟨a', sg⟩, hm, he⟩ := List.mem_map.mp h
  simp only [Prod.mk.injEq] at he
  obtain ⟨rfl, rfl⟩ := he
  exact ⟨sg, OMap.get?_of_mem hs hm, rfl⟩

/-- total weight of a worker set -/
def totalWeight (ws : WorkerSet) : Nat := (ws.signers.map (fun e => e.2.weight)).sum

/-- total weight of those members of a worker set that are in `Q` -/
def weightIn (ws : WorkerSet) (Q : List Addr) : Nat :=
  ((ws.signers.filter (fun e => decide (e.1 ∈ Q))).map (fun e => e.2.weight)).sum

/-- the part of a member in the recorded weight -/
def partOf (s : State) (id : Nat) (e : Addr × Multisig.Signer) : Nat :=
  match (s.signatures id).get? e.1 with
  | none => 0
  | some _ => e.2.weight

theorem recordedWeight_eq (s : State) (id : Nat) (ws : WorkerSet) :
    Multisig.recordedWeight s id ws = (ws.signers.map (partOf s id)).sum := rfl

theorem partOf_le (s : State) (id : Nat) (e : Addr × Multisig.Signer) : partOf s id e ≤ e.2.weight := by
  unfold partOf; split <;> omega

theorem recordedWeight_room {s : State} {id : Nat} {ws : WorkerSet} {a : Addr} {sg : Multisig.Signer}
    (h : ws.signers.get? a = some sg) (hn : (s.signatures id).get? a = none) :
    Multisig.recordedWeight s id ws + sg.weight ≤ totalWeight ws := by
  have hm := OMap.mem_of_get? h
  rw [recordedWeight_eq]
  unfold totalWeight
  generalize ws.signers = l at hm
  clear h
  have hle : ∀ l : OMap Addr Multisig.Signer, (l.map (partOf s id)).sum ≤ (l.map (fun e => e.2.weight)).sum := by
    intro l
    induction l with
    | nil => simp
    | cons e t ih =>
      simp only [List.map_cons, List.sum_cons]
      have := partOf_le s id e
      omega
  induction l with
  | nil => simp at hm
  | cons e t ih =>
    simp only [List.map_cons, List.sum_cons]
    rcases List.mem_cons.mp hm with hm | hm
    · subst hm
      have := hle t
      have h0 : partOf s id (a, sg) = 0 := by simp only [partOf, hn]
      rw [h0]
      simp only
      omega
    · have := ih hm
      have := partOf_le s id e
      omega

/-- C77: the signature is accepted. In every history in which the contract announced the session, a member listed
with a key may submit a signature of the announced digest that is valid under that key, as long as the session is open
and they have not signed it yet. -/
theorem C77_accepted (C : Crypto) (idOf : WorkerSet → Str) (cfg : Multisig.Config) (cs : List Call)
    (hnc : Multisig.NoCollision idOf (Multisig.trace C idOf cfg cs)) (id : Nat) (wid : Str)
    (keys : List (Addr × PublicKey)) (msg : Bytes) (chain : Str)
    (h : Announced (Multisig.trace C idOf cfg cs) id wid keys msg chain)
    (hw : ∀ ws, Multisig.getWorkerSet (Multisig.stateAfter C idOf cfg cs) wid = some ws →
      totalWeight ws ≤ u256Max) (a : Addr) (pk : PublicKey) (sig : Signature) (height : Nat) (ha : (a, pk) ∈ keys)
    (hv : Multisig.Valid C msg pk sig)
    (hn : ((Multisig.stateAfter C idOf cfg cs).signatures id).get? a = none)
    (ho : ∀ se, (Multisig.stateAfter C idOf cfg cs).sessions id = some se →
      Multisig.Open se.state (Multisig.stateAfter C idOf cfg cs).config.gracePeriod height) :
    ∃ s' r, Multisig.exec C idOf (Multisig.stateAfter C idOf cfg cs) ⟨a, height, .submitSignature id sig.bytes⟩ =
      .ok (s', r) ∧ ∃ sig', sig'.bytes = sig.bytes ∧ (s'.signatures id).get? a = some sig' := by
  obtain ⟨se, ws, h1, h2, h3, h4, h5, h6⟩ := announced_state C idOf cfg cs hnc id wid keys msg chain h
  rw [h5] at ha
  obtain ⟨sg, g1, g2⟩ := pubKeys_get h6 ha
  obtain ⟨hacc, hrec⟩ := Multisig.C47_acceptance C idOf cfg cs hnc a height id sig.bytes
  obtain ⟨s', r, hx⟩ := hacc.mpr ⟨se, ws, sg, sig, h1, by rw [h2]; exact h4, g1, hn, rfl, by rw [h3, g2]; exact hv,
    ho se h1, Nat.le_trans (recordedWeight_room g1 hn) (hw ws h4)⟩
  obtain ⟨sig', k1, k2, _⟩ := hrec s' r hx
  exact ⟨s', r, hx, sig', k1, k2⟩

/-- C77, progress: if members of a worker set whose weights reach the threshold submit, at any time after the session
was announced, signatures of the announced digest valid under their listed keys, the session is completed. -/
theorem C77_completes (C : Crypto) (idOf : WorkerSet → Str) (cfg : Multisig.Config) (cs₁ cs₂ : List Call)
    (hnc : Multisig.NoCollision idOf (Multisig.trace C idOf cfg (cs₁ ++ cs₂))) (id : Nat) (wid : Str)
    (keys : List (Addr × PublicKey)) (msg : Bytes) (chain : Str)
    (h : Announced (Multisig.trace C idOf cfg cs₁) id wid keys msg chain) (ws : WorkerSet)
    (hws : Multisig.getWorkerSet (Multisig.stateAfter C idOf cfg cs₁) wid = some ws)
    (hw : totalWeight ws ≤ u256Max) (Q : List Addr) (hQ : Q ≠ []) (hth : ws.threshold ≤ weightIn ws Q)
    (hsub : ∀ a ∈ Q, ∃ pk sig height, (a, pk) ∈ keys ∧ Multisig.Valid C msg pk sig ∧
      ⟨a, height, .submitSignature id sig.bytes⟩ ∈ cs₂) :
    ∃ m height, Multisig.getMultisig (Multisig.stateAfter C idOf cfg (cs₁ ++ cs₂)) id = some m ∧
      m.state = .completed height := by
  have hmono : ∀ {c₁ c₂ : List Call}, Multisig.NoCollision idOf (Multisig.trace C idOf cfg (c₁ ++ c₂)) →
      Multisig.NoCollision idOf (Multisig.trace C idOf cfg c₁) := by
    intro c₁ c₂ hn w w' r1 r2
    rw [Multisig.trace_append] at hn
    exact hn w w' r1.mono r2.mono
  have hann : ∀ c₂, Announced (Multisig.trace C idOf cfg (cs₁ ++ c₂)) id wid keys msg chain := by
    intro c₂
    obtain ⟨st, hst, hev⟩ := h
    refine ⟨st, ?_, hev⟩
    rw [Multisig.trace_append]
    exact List.mem_append_left _ hst
  obtain ⟨se, ws', h1, h2, h3, h4, h5, h6⟩ :=
    announced_state C idOf cfg (cs₁ ++ cs₂) hnc id wid keys msg chain (hann cs₂)
  have hwsEnd := Multisig.C49_forever C idOf cfg cs₁ cs₂ hnc wid ws hws
  have hww : ws' = ws := by
    have : some ws' = some ws := h4.symm.trans hwsEnd
    simpa using this
  subst hww
  have hdone : ∃ height, se.state = .completed height := by
    cases hst : se.state with
    | completed height => exact ⟨height, rfl⟩
    | pending =>
      -- the session was pending at all times, so everybody in `Q` is recorded
      have hrec : ∀ a ∈ Q, ∃ sig, ((Multisig.stateAfter C idOf cfg (cs₁ ++ cs₂)).signatures id).get? a = some sig := by
        intro a ha
        obtain ⟨pk, sig, height, g1, g2, g3⟩ := hsub a ha
        obtain ⟨d₁, d₂, rfl⟩ := List.append_of_mem g3
        have hassoc : cs₁ ++ (d₁ ++ ⟨a, height, .submitSignature id sig.bytes⟩ :: d₂) =
            (cs₁ ++ d₁) ++ (⟨a, height, .submitSignature id sig.bytes⟩ :: d₂) := by simp
        have hassoc2 : cs₁ ++ (d₁ ++ ⟨a, height, .submitSignature id sig.bytes⟩ :: d₂) =
            ((cs₁ ++ d₁) ++ [⟨a, height, .submitSignature id sig.bytes⟩]) ++ d₂ := by simp
        have hnc1 := hnc
        rw [hassoc] at hnc1
        have hnc1 := hmono hnc1
        cases hn : ((Multisig.stateAfter C idOf cfg (cs₁ ++ d₁)).signatures id).get? a with
        | some sig' =>
          rw [hassoc]
          exact ⟨sig', Multisig.C46_signatures_permanent C idOf cfg (cs₁ ++ d₁) _ id a sig' hn⟩
        | none =>
          have hopen : ∀ se', (Multisig.stateAfter C idOf cfg (cs₁ ++ d₁)).sessions id = some se' →
              se'.state = .pending := by
            intro se' hse'
            cases hst' : se'.state with
            | pending => rfl
            | completed c =>
              obtain ⟨ws0, hw0⟩ := (Multisig.invariants C idOf cfg (cs₁ ++ d₁)).1.set id se' hse'
              have hget : ∃ m, Multisig.getMultisig (Multisig.stateAfter C idOf cfg (cs₁ ++ d₁)) id = some m ∧
                  m.state = .completed c := by
                refine ⟨⟨se'.state, ws0.threshold, ws0.signers.map (fun e =>
                  (e.2, ((Multisig.stateAfter C idOf cfg (cs₁ ++ d₁)).signatures se'.id).get? e.1))⟩, ?_, hst'⟩
                unfold Multisig.getMultisig
                simp only [hse', hw0]
              obtain ⟨m, hm1, hm2⟩ := hget
              obtain ⟨m', hm3, hm4⟩ := Multisig.C46_permanent C idOf cfg (cs₁ ++ d₁)
                (⟨a, height, .submitSignature id sig.bytes⟩ :: d₂) id c m hm1 hm2
              rw [← hassoc] at hm3
              unfold Multisig.getMultisig at hm3
              simp only [h1, h2, h4] at hm3
              simp only [Option.some.injEq] at hm3
              rw [← hm3, hst] at hm4
              simp at hm4
          obtain ⟨s', r, hx, sig', _, k2⟩ := C77_accepted C idOf cfg (cs₁ ++ d₁) hnc1 id wid keys msg chain (hann d₁)
            (by
              intro ws0 hw0
              have := Multisig.C49_forever C idOf cfg cs₁ d₁ hnc1 wid ws' hws
              rw [this] at hw0
              simp only [Option.some.injEq] at hw0
              rw [← hw0]; exact hw)
            a pk sig height g1 g2 hn (fun se' hse' => Or.inl (hopen se' hse'))
          refine ⟨sig', ?_⟩
          rw [hassoc2]
          refine Multisig.C46_signatures_permanent C idOf cfg _ d₂ id a sig' ?_
          rw [Multisig.stateAfter_append]
          simp only [runCalls, List.foldl_cons, List.foldl_nil, hx, commit]
          exact k2
      have hne : (Multisig.stateAfter C idOf cfg (cs₁ ++ cs₂)).signatures id ≠ [] := by
        obtain ⟨a, t, rfl⟩ := List.exists_cons_of_ne_nil hQ
        obtain ⟨sig, hsig⟩ := hrec a (List.mem_cons_self ..)
        intro h0
        rw [h0] at hsig
        simp at hsig
      have hge : weightIn ws' Q ≤ Multisig.recordedWeight (Multisig.stateAfter C idOf cfg (cs₁ ++ cs₂)) id ws' := by
        rw [recordedWeight_eq]
        unfold weightIn
        generalize ws'.signers = l
        induction l with
        | nil => simp
        | cons e t ih =>
          simp only [List.map_cons, List.sum_cons]
          by_cases he : e.1 ∈ Q
          · rw [List.filter_cons_of_pos (by simpa using he)]
            obtain ⟨sig, hsig⟩ := hrec e.1 he
            have h0 : partOf (Multisig.stateAfter C idOf cfg (cs₁ ++ cs₂)) id e = e.2.weight := by
              simp only [partOf, hsig]
            simp only [List.map_cons, List.sum_cons]
            omega
          · rw [List.filter_cons_of_neg (by simpa using he)]
            omega
      have := Multisig.C46_no_delay C idOf cfg (cs₁ ++ cs₂) hnc id se ws' h1 (by rw [h2]; exact h4) hne
        (Nat.le_trans hth hge)
      rw [hst] at this
      exact this
  obtain ⟨height, hh⟩ := hdone
  refine ⟨⟨se.state, ws'.threshold, ws'.signers.map (fun e =>
    (e.2, ((Multisig.stateAfter C idOf cfg (cs₁ ++ cs₂)).signatures se.id).get? e.1))⟩, height, ?_, hh⟩
  unfold Multisig.getMultisig
  simp only [h1, h2, h4]

/-- the call made by a transaction of the handler when it is included at a height -/
def callOf (t : ExecTx) (height : Nat) : Option Call :=
  match t.msg with
  | .submitSignature id b => some ⟨t.sender, height, .submitSignature id b⟩
  | .vote .. => none

/-- C77, the daemons complete sessions: if the daemons of members reaching the threshold read the announcement, hold
working keys, and their transactions are included, the session is completed. -/
theorem C77_daemons_complete (C : Crypto) (idOf : WorkerSet → Str) (cfg : Multisig.Config) (cs₁ cs₂ : List Call)
    (hnc : Multisig.NoCollision idOf (Multisig.trace C idOf cfg (cs₁ ++ cs₂))) (x : Addr) (id : Nat) (wid : Str)
    (keys : List (Addr × PublicKey)) (msg : Bytes) (chain : Str)
    (h : Announced (Multisig.trace C idOf cfg cs₁) id wid keys msg chain) (hb : IsBytes msg) (ws : WorkerSet)
    (hws : Multisig.getWorkerSet (Multisig.stateAfter C idOf cfg cs₁) wid = some ws)
    (hw : totalWeight ws ≤ u256Max) (Q : List Addr) (hQ : Q ≠ []) (hth : ws.threshold ≤ weightIn ws Q)
    (R : Reader) (hR : R.Plain msg) (hkeys : ∀ p ∈ keys, (R.key p.2).isSome) (E : Addr → Env)
    (hsign : ∀ a ∈ Q, ∃ pk k sig, (a, pk) ∈ keys ∧ R.key pk = some k ∧
      (E a).sign x msg k = some (Signature.bytes sig) ∧ Multisig.Valid C msg pk sig)
    (hincl : ∀ a ∈ Q, ∀ t ∈ (handle (readSigning R) ⟨a, x⟩ (E a)
      (.abci (announced x (.signingStarted id wid keys msg chain)))).sent, ∃ height, ∃ c ∈ callOf t height, c ∈ cs₂) :
    ∃ m height, Multisig.getMultisig (Multisig.stateAfter C idOf cfg (cs₁ ++ cs₂)) id = some m ∧
      m.state = .completed height := by
  have hnc1 : Multisig.NoCollision idOf (Multisig.trace C idOf cfg cs₁) := by
    intro w w' r1 r2
    rw [Multisig.trace_append] at hnc
    exact hnc w w' r1.mono r2.mono
  obtain ⟨se, ws', h1, _, h3, _, h5, h6⟩ := announced_state C idOf cfg cs₁ hnc1 id wid keys msg chain h
  have hl : msg.length = 32 := by rw [← h3]; exact (Multisig.C48_origin C idOf cfg cs₁ id se h1).2
  have hnd : (keys.map Prod.fst).Nodup := by
    rw [h5]
    unfold WorkerSet.pubKeys
    rw [List.map_map]
    exact OMap.keys_nodup h6
  refine C77_completes C idOf cfg cs₁ cs₂ hnc id wid keys msg chain h ws hws hw Q hQ hth ?_
  intro a ha
  obtain ⟨pk, k, sig, g1, g2, g3, g4⟩ := hsign a ha
  obtain ⟨hsent, _⟩ := C77_submits R ⟨a, x⟩ (E a) id wid keys msg chain hb hl hR hkeys hnd pk k _ g1 g2 g3
  obtain ⟨height, c, hc, hmem⟩ := hincl a ha ⟨a, x, .submitSignature id sig.bytes⟩ (by
    rw [hsent]
    simp)
  unfold callOf at hc
  simp only [Option.mem_def, Option.some.injEq] at hc
  subst hc
  exact ⟨pk, sig, height, g1, g4, hmem⟩

/-! ### When the handler is stuck -/

/-- what the signing handler can do with an event, over all replies of the key manager and the queue -/
def can {V : Type} (deser : V → Option SigningStarted) (H : Handler) (e : Event (Abci V)) (o : Outcome) : Prop :=
  ∃ E : Env, o = handle deser H E e

theorem poisoned {R V : Type} {W : World R (Abci V)} {deser : V → Option SigningStarted} {H : Handler} {b : Nat} {r : R}
    {a : Abci V} (hr : r ∈ contents (W.chain b)) (hd : W.decode r = some a)
    (hty : a.type = "wasm-signing_started".toList) (hdes : deser a.attributes = none) :
    Poisoned W (can deser H) b := by
  refine ⟨r, a, hr, hd, ?_⟩
  rintro o ⟨E, rfl⟩ hs
  have : tryFrom "wasm-signing_started".toList deser (.abci a) = .malformed := by
    unfold tryFrom
    dsimp only
    rw [if_pos hty, hdes]
  unfold handle at hs
  rw [this] at hs
  simp [Outcome.failed, Outcome.succeeded] at hs

/-- One key that is not a point of its curve stops everybody: if any multisig contract `x` announces a session whose
worker set contains such a key - the contract only checks the length of keys - the signing handler of every daemon is
stuck at that block, in every history of runs. -/
theorem C77_bad_key_stalls {A : Type} (W : World A (Abci (Addr × Multisig.Event))) (R : Reader) (H : Handler) (l : Label)
    (rs : List Run) (h : Sane W l [] rs)
    (hf : EachRun W (fun f r => Faithful W (can (readSigning R) H) f r l) [] rs) (b : Nat) (r : A) (x : Addr) (id : Nat)
    (wid : Str) (keys : List (Addr × PublicKey)) (msg : Bytes) (chain : Str) (hr : r ∈ contents (W.chain b))
    (hd : W.decode r = some (announced x (.signingStarted id wid keys msg chain))) (p : Addr × PublicKey)
    (hp : p ∈ keys) (hno : R.key p.2 = none) :
    b ∉ durableAcks W l [] rs ∧
      ∀ first ∈ (durableAcks W l [] rs).head?, first < b → ∀ n ∈ (fileAfterAll W rs).get? l, n < b := by
  refine C70_stall W _ l rs h hf b (poisoned hr hd rfl ?_)
  have : readAll (readKey R) keys = none := readAll_none hp (by unfold readKey; rw [hno])
  simp only [announced, readSigning, this]

/-- The same happens if the digest, written as hexadecimal text, is not read back as a string: `event.rs` reads what
looks like JSON as JSON, so that a digest whose text consists of decimal digits becomes a number. -/
theorem C77_unreadable_digest_stalls {A : Type} (W : World A (Abci (Addr × Multisig.Event))) (R : Reader) (H : Handler)
    (l : Label) (rs : List Run) (h : Sane W l [] rs)
    (hf : EachRun W (fun f r => Faithful W (can (readSigning R) H) f r l) [] rs) (b : Nat) (r : A) (x : Addr) (id : Nat)
    (wid : Str) (keys : List (Addr × PublicKey)) (msg : Bytes) (chain : Str) (hr : r ∈ contents (W.chain b))
    (hd : W.decode r = some (announced x (.signingStarted id wid keys msg chain)))
    (hno : R.attr (encodeHex msg) = none) :
    b ∉ durableAcks W l [] rs ∧
      ∀ first ∈ (durableAcks W l [] rs).head?, first < b → ∀ n ∈ (fileAfterAll W rs).get? l, n < b := by
  refine C70_stall W _ l rs h hf b (poisoned hr hd rfl ?_)
  simp only [announced, readSigning, hno, Option.bind_none]
  split <;> rfl

/-! ### Concrete cases -/

/-- keys that begin with 9 are no points -/
def exReader : Reader where
  attr := some
  key := fun
    | .ecdsa b => if b.head? = some 9 then none else some b
    | .ed25519 b => some b

/-- the key manager signs with the key it is asked for -/
def exEnv : Env := ⟨fun _ _ k => k.head?.map (fun x => List.replicate 64 x), true⟩

def exKeys : List (Addr × PublicKey) :=
  [(21, .ecdsa (List.replicate 33 1)), (22, .ecdsa (List.replicate 33 2)), (23, .ecdsa (List.replicate 65 3))]

def exEvent : Multisig.Event :=
  .signingStarted 1 "1".toList exKeys (List.replicate 32 7) "eth".toList

/-- the event is the one the contract emits -/
theorem exAnnounced : Announced (Multisig.trace Multisig.exCrypto Multisig.exId Multisig.exCfg (Multisig.exCalls.take 3))
    1 "1".toList exKeys (List.replicate 32 7) "eth".toList := by
  refine ⟨_, List.mem_of_getElem? (i := 2) rfl, ?_⟩
  exact List.mem_singleton.mpr rfl

/-- the daemon of 22 signs and submits; one that is not a member, or is configured for another contract, does not -/
example : (handle (readSigning exReader) ⟨22, 18⟩ exEnv (.abci (announced 18 exEvent))).sent =
      [⟨22, 18, .submitSignature 1 (List.replicate 64 2)⟩] ∧
    (handle (readSigning exReader) ⟨24, 18⟩ exEnv (.abci (announced 18 exEvent))).sent = [] ∧
    (handle (readSigning exReader) ⟨22, 17⟩ exEnv (.abci (announced 18 exEvent))).sent = [] := by decide +kernel

/-- the hypotheses of `C77_daemons_complete` hold: 21 and 22 reach the threshold of 20, their transactions are included
in the rest of the history, and the session is completed -/
example : ∃ m height, Multisig.getMultisig (Multisig.stateAfter Multisig.exCrypto Multisig.exId Multisig.exCfg
    (Multisig.exCalls.take 3 ++ Multisig.exCalls.drop 3)) 1 = some m ∧ m.state = .completed height := by
  refine C77_daemons_complete Multisig.exCrypto Multisig.exId Multisig.exCfg _ _ ?_ 18 1 "1".toList exKeys
    (List.replicate 32 7) "eth".toList exAnnounced ?_ _ rfl ?_ [21, 22] (by simp) ?_ exReader rfl ?_
    (fun _ => exEnv) ?_ ?_
  · rw [List.take_append_drop]; exact Multisig.ex_noCollision
  · unfold IsBytes; decide
  · decide +kernel
  · decide +kernel
  · decide +kernel
  · intro a ha
    simp only [List.mem_cons, List.not_mem_nil, or_false] at ha
    rcases ha with rfl | rfl
    · exact ⟨.ecdsa (List.replicate 33 1), _, .ecdsa (List.replicate 64 1), List.mem_of_getElem? (i := 0) rfl, rfl, rfl,
        rfl, rfl⟩
    · exact ⟨.ecdsa (List.replicate 33 2), _, .ecdsa (List.replicate 64 2), List.mem_of_getElem? (i := 1) rfl, rfl, rfl,
        rfl, rfl⟩
  · intro a ha t ht
    simp only [List.mem_cons, List.not_mem_nil, or_false] at ha
    rcases ha with rfl | rfl
    · have : t = ⟨21, 18, .submitSignature 1 (List.replicate 64 1)⟩ := by
        have h : (handle (readSigning exReader) ⟨21, 18⟩ exEnv (.abci (announced 18 exEvent))).sent =
          [⟨21, 18, .submitSignature 1 (List.replicate 64 1)⟩] := by decide +kernel
        exact List.mem_singleton.mp (h ▸ ht)
      subst this
      exact ⟨4, _, rfl, List.mem_of_getElem? (i := 3) rfl⟩
    · have : t = ⟨22, 18, .submitSignature 1 (List.replicate 64 2)⟩ := by
        have h : (handle (readSigning exReader) ⟨22, 18⟩ exEnv (.abci (announced 18 exEvent))).sent =
          [⟨22, 18, .submitSignature 1 (List.replicate 64 2)⟩] := by decide +kernel
        exact List.mem_singleton.mp (h ▸ ht)
      subst this
      exact ⟨3, _, rfl, List.mem_of_getElem? (i := 1) rfl⟩

/-- worker 23 registered 33 bytes that are no point; the contract accepts them and starts the session -/
def badCalls : List Call := [
  ⟨23, 1, .registerPublicKey .ecdsa (List.replicate 33 9)⟩,
  ⟨9, 1, .registerWorkerSet ⟨[(22, ⟨22, 10, .ecdsa, List.replicate 33 2⟩), (23, ⟨23, 1, .ecdsa, List.replicate 33 9⟩)],
    10, 1⟩⟩,
  ⟨1, 1, .authorizeCaller 30⟩,
  ⟨30, 2, .startSigningSession "1".toList (List.replicate 32 7) "eth".toList true⟩]

def badEvent : Multisig.Event := .signingStarted 1 "1".toList
  [(22, .ecdsa (List.replicate 33 2)), (23, .ecdsa (List.replicate 33 9))] (List.replicate 32 7) "eth".toList

example : (Multisig.trace Multisig.exCrypto Multisig.exId Multisig.exCfg badCalls).length = 4 := by decide +kernel

example : Announced (Multisig.trace Multisig.exCrypto Multisig.exId Multisig.exCfg badCalls) 1 "1".toList
    [(22, .ecdsa (List.replicate 33 2)), (23, .ecdsa (List.replicate 33 9))] (List.replicate 32 7) "eth".toList := by
  refine ⟨_, List.mem_of_getElem? (i := 3) rfl, ?_⟩
  exact List.mem_singleton.mpr rfl

/-- block 6 contains the event -/
def badWorld : World (Abci (Addr × Multisig.Event)) (Abci (Addr × Multisig.Event)) where
  chain h := { beginBlock := none
               txs := some [[announced 18 (if h = 6 then badEvent else .signingCompleted 3 4)]]
               endBlock := none }
  decode := some

theorem bad_sane : Sane badWorld 1 [] stallRuns := by
  refine ⟨⟨?_, ?_, trivial⟩, ⟨?_, ?_, trivial⟩, ?_⟩ <;> decide +kernel

/-- the daemon of worker 22, which has done nothing wrong, is stopped by it, and again after a restart -/
example : EachRun badWorld (fun f r => Faithful badWorld (can (readSigning exReader) ⟨22, 18⟩) f r 1) [] stallRuns := by
  refine ⟨faithful_of_zip (fun e => handle (readSigning exReader) ⟨22, 18⟩ exEnv e) (fun e => ⟨exEnv, rfl⟩) ?_,
    faithful_of_zip (fun e => handle (readSigning exReader) ⟨22, 18⟩ exEnv e) (fun e => ⟨exEnv, rfl⟩) ?_,
    trivial⟩
  · decide +kernel
  · decide +kernel

example : durableAcks badWorld 1 [] stallRuns = [5] ∧ (fileAfterAll badWorld stallRuns).get? 1 = some 5 := by
  decide +kernel

end Amp.Ampd.Signing
