import Verif.Wire.ReadLemmas
import Verif.VV.Props
import Verif.Multisig.Props

/-!
# Lemmas for C94: events of the contracts are in the range of their types
-/

namespace Amp.Wire

open Amp.Encoding (Bytes)
open Amp.Multisig (PublicKey)

/-- the numbers and bytes of an event are in the range of their types -/
def EventFits : VV.Event → Prop
  | .messagesPollStarted confs pm => MetaFits pm ∧ ∀ c ∈ confs, ConfirmationFits c
  | .workerSetPollStarted _ i o pm => MetaFits pm ∧ i ≤ u64Max ∧ OperatorsFit o
  | .voted _ _ => True
  | .pollEnded _ _ => True

/-- the same for the multisig contract -/
def SigningFits : Multisig.Event → Prop
  | .signingStarted id _ keys msg _ => id ≤ u64Max ∧ (∀ p ∈ keys, KeyFits p.2) ∧ IsBytes msg
  | _ => True

/-- arguments of a call of the verifier have the types of its messages: hashes are `[u8; 32]`, addresses of operators
bytes, weights and threshold `Uint256` -/
def TypedCall (c : VV.Call) : Prop :=
  (∀ ms, c.msg = .verifyMessages ms → ∀ m ∈ ms, IsBytes m.payloadHash ∧ m.payloadHash.length = 32) ∧
    ∀ mid o, c.msg = .verifyWorkerSet mid o → OperatorsFit o

/-- arguments of a call of the multisig contract: binary data are bytes -/
def TypedSigningCall (c : Multisig.Call) : Prop :=
  (∀ wid msg chain ok, c.msg = .startSigningSession wid msg chain ok → IsBytes msg) ∧
    ∀ ws, c.msg = .registerWorkerSet ws → ∀ e ∈ ws.signers, IsBytes e.2.key

theorem parseMessageId_le {id tx : Str} {n : Nat} (h : VV.parseMessageId id = some (tx, n)) : n ≤ u64Max := by
  unfold VV.parseMessageId at h
  split at h
  · split at h
    · simp at h
    · split at h
      · simp at h
      · rename_i m hm
        simp only [Option.some.injEq, Prod.mk.injEq] at h
        rw [← h.2]; exact parseU64_le hm
  · simp at h

theorem createPoll_fits {s s1 : VV.State} {height : Nat} {snap : Std.Snapshot} {k : VV.PollKind} {n id : Nat}
    (h : VV.createPoll s height snap k n = .ok (id, s1)) (hc : s.config.confirmationHeight ≤ u64Max) :
    MetaFits (VV.metaOf s.config id height snap) := by
  unfold VV.createPoll at h
  split at h
  · simp at h
  · rename_i i hi
    unfold Std.counterIncr at hi
    split at hi
    · rename_i hle
      simp only [Option.some.injEq] at hi
      split at h
      · simp at h
      · rename_i hexp
        simp only [Except.ok.injEq, Prod.mk.injEq] at h
        refine ⟨?_, hc, ?_⟩
        · show id ≤ u64Max
          rw [← h.1, ← hi]; exact hle
        · show height + s.config.blockExpiry ≤ u64Max
          omega
    · simp at hi

theorem confirmation_fits {m : Router.Message} {cf : VV.TxConfirmation} (h : VV.confirmationOf m = .ok cf)
    (hb : IsBytes m.payloadHash) (hl : m.payloadHash.length = 32) : ConfirmationFits cf := by
  unfold VV.confirmationOf at h
  split at h
  · simp at h
  · rename_i tx n hn
    simp only [Except.ok.injEq] at h
    subst h
    exact ⟨parseMessageId_le hn, hb, hl⟩

theorem verify_event_fits {H : VV.Hashes} {s s' : VV.State} {c : VV.Call} {ms : List Router.Message} {r : VV.Resp}
    (h : VV.verifyMessages H s c ms = .ok (s', r)) (hc : s.config.confirmationHeight ≤ u64Max)
    (ht : ∀ m ∈ ms, IsBytes m.payloadHash ∧ m.payloadHash.length = 32) :
    ∀ ev, r.event = some ev → EventFits ev := by
  unfold VV.verifyMessages at h
  split at h
  · simp at h
  split at h
  · simp at h
  split at h
  · simp at h
  split at h
  · simp at h
  rename_i sts hsts
  dsimp only at h
  split at h
  · simp only [Except.ok.injEq, Prod.mk.injEq] at h
    intro ev hev
    rw [← h.2] at hev
    simp at hev
  split at h
  · simp at h
  split at h
  · simp at h
  rename_i id s1 hcp
  split at h
  · simp at h
  split at h
  · simp at h
  rename_i confs hconf
  simp only [Except.ok.injEq, Prod.mk.injEq] at h
  intro ev hev
  rw [← h.2] at hev
  simp only [Option.some.injEq] at hev
  subst hev
  refine ⟨createPoll_fits hcp hc, fun cf hcf => ?_⟩
  obtain ⟨m, hm, hmc⟩ := mapE_mem_right hconf hcf
  obtain ⟨p, hp, rfl⟩ := List.mem_map.mp hm
  have := ht p.2 (List.of_mem_zip (List.mem_filter.mp hp).1).2
  exact confirmation_fits hmc this.1 this.2

theorem verify_set_fits {H : VV.Hashes} {s s' : VV.State} {c : VV.Call} {mid : Str} {o : Std.Operators} {r : VV.Resp}
    (h : VV.verifyWorkerSet H s c mid o = .ok (s', r)) (hc : s.config.confirmationHeight ≤ u64Max) (ht : OperatorsFit o) :
    ∀ ev, r.event = some ev → EventFits ev := by
  unfold VV.verifyWorkerSet at h
  split at h
  · simp at h
  · simp at h
  split at h
  · simp at h
  split at h
  · simp at h
  rename_i id s1 hcp
  split at h
  · simp at h
  rename_i tx n hn
  simp only [Except.ok.injEq, Prod.mk.injEq] at h
  intro ev hev
  rw [← h.2] at hev
  simp only [Option.some.injEq] at hev
  subst hev
  exact ⟨createPoll_fits hcp hc, parseMessageId_le hn, ht⟩

theorem exec_event_fits {H : VV.Hashes} {s s' : VV.State} {c : VV.Call} {r : VV.Resp}
    (h : VV.exec H s c = .ok (s', r)) (hc : s.config.confirmationHeight ≤ u64Max) (ht : TypedCall c) :
    ∀ ev, r.event = some ev → EventFits ev := by
  unfold VV.exec at h
  split at h
  · rename_i ms hm
    exact verify_event_fits h hc (ht.1 ms hm)
  · obtain ⟨_, _, _, _, _, rfl⟩ := VV.vote_ok h
    intro ev hev
    simp only [Option.some.injEq] at hev
    subst hev; trivial
  · obtain ⟨_, _, _, _, _, rfl⟩ := VV.endPoll_ok h
    intro ev hev
    simp only [Option.some.injEq] at hev
    subst hev; trivial
  · rename_i mid o hm
    exact verify_set_fits h hc (ht.2 mid o hm)

/-! ### The multisig contract -/

theorem tryFrom_fits {kt : Multisig.KeyType} {b : Bytes} {k : PublicKey} (h : PublicKey.tryFrom kt b = .ok k)
    (hb : IsBytes b) : KeyFits k := by
  unfold PublicKey.tryFrom at h
  split at h
  · split at h
    · simp at h
    · rename_i hl
      simp only [Except.ok.injEq] at h
      subst h
      refine ⟨hb, ?_⟩
      simp only [not_and, not_not, ne_eq] at hl
      by_cases h33 : b.length = 33
      · exact Or.inl h33
      · exact Or.inr (hl h33)
  · split at h
    · simp at h
    · rename_i hl
      simp only [Except.ok.injEq] at h
      subst h
      exact ⟨hb, not_not.mp hl⟩

theorem mem_set {m : OMap Addr Multisig.Signer} {k : Addr} {v : Multisig.Signer} {e : Addr × Multisig.Signer}
    (h : e ∈ m.set k v) : e = (k, v) ∨ e ∈ m := by
  induction m with
  | nil => exact Or.inl (List.mem_singleton.mp h)
  | cons x t ih =>
    obtain ⟨k', v'⟩ := x
    unfold OMap.set at h
    split at h
    · rcases List.mem_cons.mp h with h | h
      · exact Or.inl h
      · exact Or.inr h
    · split at h
      · rcases List.mem_cons.mp h with h | h
        · exact Or.inl h
        · exact Or.inr (List.mem_cons_of_mem _ h)
      · rcases List.mem_cons.mp h with h | h
        · exact Or.inr (h ▸ List.mem_cons_self ..)
        · rcases ih h with h | h
          · exact Or.inl h
          · exact Or.inr (List.mem_cons_of_mem _ h)

theorem mem_ofList {l : List (Addr × Multisig.Signer)} {e : Addr × Multisig.Signer} (h : e ∈ OMap.ofList l) : e ∈ l := by
  suffices H : ∀ (l : List (Addr × Multisig.Signer)) (m : OMap Addr Multisig.Signer),
      e ∈ l.foldl (fun m e => m.set e.1 e.2) m → e ∈ m ∨ e ∈ l by
    rcases H l [] h with h | h
    · simp at h
    · exact h
  intro l
  induction l with
  | nil => intro m h; exact Or.inl h
  | cons x t ih =>
    intro m h
    rcases ih _ h with h | h
    · rcases mem_set h with h | h
      · exact Or.inr (h ▸ List.mem_cons_self ..)
      · exact Or.inl h
    · exact Or.inr (List.mem_cons_of_mem _ h)

theorem decode_fits {r : Multisig.RawWorkerSet} {ws : Multisig.WorkerSet} (h : r.decode = .ok ws)
    (hb : ∀ e ∈ r.signers, IsBytes e.2.key) : ∀ e ∈ ws.signers, KeyFits e.2.pubKey := by
  unfold Multisig.RawWorkerSet.decode at h
  split at h
  · simp at h
  split at h
  · simp at h
  rename_i l hl
  simp only [Except.ok.injEq] at h
  subst h
  intro e he
  have hm : e ∈ l := mem_ofList he
  obtain ⟨x, hx, hxe⟩ := mapE_mem_right hl hm
  split at hxe
  · simp at hxe
  rename_i s hs
  simp only [Except.ok.injEq] at hxe
  subst hxe
  unfold Multisig.RawSigner.decode at hs
  split at hs
  · simp at hs
  split at hs
  · simp at hs
  rename_i k hk
  simp only [Except.ok.injEq] at hs
  subst hs
  exact tryFrom_fits hk (hb x hx)

theorem exec_signing_fits {C : Multisig.Crypto} {idOf : Multisig.WorkerSet → Str} {cfg : Multisig.Config}
    {cs : List Multisig.Call} {c : Multisig.Call} {s' : Multisig.State} {r : Multisig.Resp}
    (h : Multisig.exec C idOf (Multisig.stateAfter C idOf cfg cs) c = .ok (s', r)) (ht : TypedSigningCall c)
    (hts : ∀ c ∈ cs, TypedSigningCall c) : ∀ ev ∈ r.events, SigningFits ev := by
  have hb := (Multisig.invariants C idOf cfg cs).1
  intro ev hev
  rcases Multisig.exec_ok h with ⟨wid, msg, chain, ok, hm, h⟩ | ⟨i, b, hm, h⟩ | ⟨raw, ws, hm, hd, e1, e2⟩ |
    ⟨kt, b, k, hm, hk, e1, e2⟩ | ⟨a, hm, hg, e1, e2⟩ | ⟨a, hm, hg, e1, e2⟩
  · obtain ⟨_, _, hl, hc, ws, hw, e1, e2⟩ := Multisig.start_ok.mp h
    rw [e2] at hev
    simp only [List.mem_singleton] at hev
    subst hev
    refine ⟨hc, fun p hp => ?_, ht.1 _ _ _ _ hm⟩
    obtain ⟨_, ⟨st, hst, raw, hr, hdec⟩, _⟩ := hb.sets wid ws hw
    obtain ⟨⟨cs₁, cs₂, hcs, _⟩, _⟩ := steps_mem _ hst
    have := hts st.call (by rw [hcs]; simp)
    obtain ⟨e, he, rfl⟩ := List.mem_map.mp hp
    exact decode_fits hdec (this.2 raw hr) e he
  · obtain ⟨se0, ws, sg, sig', w, k1, k2, k3, k4, k5, k6, k7, k8, e1, e2⟩ := Multisig.submit_ok.mp h
    rw [e2] at hev
    unfold Multisig.signingResponse at hev
    cases ev with
    | signingStarted id wid keys msg chain =>
      exfalso
      dsimp only at hev
      repeat' split at hev
      all_goals simp at hev
    | _ => trivial
  all_goals
    rw [e2] at hev
    simp only [List.mem_singleton, List.not_mem_nil] at hev
    try subst hev
    try trivial

end Amp.Wire
