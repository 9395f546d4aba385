import Verif.Chain.ProofLemmas
import Verif.Ampd.Commands
import Mathlib.Data.List.Induction

/-!
# Lemmas about what stays done at the registry and at the multisig contract
-/

namespace Amp.Registry

open Amp.Router (ChainName)

variable {s s' : State} {c : Call} {r : Resp} {n : Str} {a : Addr} {sv : Service} {ch : ChainName} {k : Nat}

theorem keep_service (hx : exec s c = .ok (s', r)) (h : findService s.services n = some sv) :
    findService s'.services n = some sv := by
  rcases (services_step hx).2 with ⟨m, sv', _, _, _, h2⟩ | ⟨_, h2⟩
  · rw [h2, findService_append, h]
  · rw [h2, h]

theorem keep_declared (hi : Inv s) (hx : exec s c = .ok (s', r)) (h : a ∈ declared s n ch) : a ∈ declared s' n ch := by
  rcases exec_ok hx with ⟨m, sv, hm, _, hy⟩ | ⟨m, ws, x, _, hm, hy⟩ | ⟨m, chains, hm, hy⟩ |
    ⟨m, hm, hy⟩ | ⟨m, hm, hy⟩ | ⟨m, hm, hy⟩
  · obtain ⟨_, _, rfl⟩ := register_ok hy; exact h
  · obtain ⟨sv, hsv, _, rfl⟩ := updateAuth_ok hy
    unfold declared; rw [(foldAuth m x ws s).2.2.1]; exact h
  · obtain ⟨sv, w, _, _, _, rfl⟩ := declare_ok hy
    rw [mem_declared] at h ⊢
    exact ((foldDeclare m c.sender chains s.perChain (fun k m hk => hi.chainSorted k.1 k.2 m hk)).2 n ch a).mpr
      (Or.inl h)
  · obtain ⟨sv, _, _, rfl, _⟩ := bond_ok hy; exact h
  · obtain ⟨sv, w, _, _, _, rfl, _⟩ := unbond_ok hy; exact h
  · obtain ⟨sv, w, t, _, _, _, _, rfl, _⟩ := claim_ok hy; exact h

/-- a bond stays unless the worker unbonds -/
theorem keep_bond (hx : exec s c = .ok (s', r)) (hu : ¬ (c.sender = a ∧ c.msg = .unbondWorker n))
    (h : ∃ w m, findWorker s n a = some w ∧ w.bonding = .bonded m ∧ k ≤ m) :
    ∃ w m, findWorker s' n a = some w ∧ w.bonding = .bonded m ∧ k ≤ m := by
  obtain ⟨w, b, hw, hb, hk⟩ := h
  rcases exec_ok hx with ⟨m, sv, hm, _, hy⟩ | ⟨m, ws, x, _, hm, hy⟩ | ⟨m, chains, hm, hy⟩ |
    ⟨m, hm, hy⟩ | ⟨m, hm, hy⟩ | ⟨m, hm, hy⟩
  · obtain ⟨_, _, rfl⟩ := register_ok hy; exact ⟨w, b, hw, hb, hk⟩
  · obtain ⟨sv, hsv, _, rfl⟩ := updateAuth_ok hy
    rw [(foldAuth m x ws s).2.2.2 n a]
    split
    · refine ⟨_, b, rfl, ?_, hk⟩
      unfold base
      rw [hw]; exact hb
    · exact ⟨w, b, hw, hb, hk⟩
  · obtain ⟨sv, w, _, _, _, rfl⟩ := declare_ok hy; exact ⟨_, b, hw, hb, hk⟩
  · obtain ⟨sv, _, _, rfl, _⟩ := bond_ok hy
    rw [findWorker_save]
    split
    · rename_i hh
      refine ⟨_, _, rfl, rfl, ?_⟩
      have : stakeOf s m c.sender = b := by
        unfold stakeOf; rw [← hh.1, ← hh.2, hw]; simp [hb, BondingState.amount]
      omega
    · exact ⟨w, b, hw, hb, hk⟩
  · obtain ⟨sv, w', _, _, _, rfl, _⟩ := unbond_ok hy
    rw [findWorker_save]
    split
    · rename_i hh
      exact absurd ⟨hh.2.symm, by rw [hm, hh.1]⟩ hu
    · exact ⟨w, b, hw, hb, hk⟩
  · obtain ⟨sv, w', t, _, hw', hb', _, rfl, _⟩ := claim_ok hy
    rw [findWorker_save]
    split
    · rename_i hh
      rw [← hh.1, ← hh.2, hw] at hw'
      simp only [Option.some.injEq] at hw'
      rw [← hw', hb] at hb'
      simp at hb'
    · exact ⟨w, b, hw, hb, hk⟩

/-- an authorisation stays unless governance withdraws it -/
theorem keep_auth (hx : exec s c = .ok (s', r)) (hu : ∀ ws, c.msg = .unauthorizeWorkers ws n → a ∉ ws)
    (h : ∃ w, findWorker s n a = some w ∧ w.auth = .authorized) :
    ∃ w, findWorker s' n a = some w ∧ w.auth = .authorized := by
  obtain ⟨w, hw, hb⟩ := h
  rcases exec_ok hx with ⟨m, sv, hm, _, hy⟩ | ⟨m, ws, x, _, hm, hy⟩ | ⟨m, chains, hm, hy⟩ |
    ⟨m, hm, hy⟩ | ⟨m, hm, hy⟩ | ⟨m, hm, hy⟩
  · obtain ⟨_, _, rfl⟩ := register_ok hy; exact ⟨w, hw, hb⟩
  · obtain ⟨sv, hsv, _, rfl⟩ := updateAuth_ok hy
    rw [(foldAuth m x ws s).2.2.2 n a]
    split
    · rename_i hh
      refine ⟨_, rfl, ?_⟩
      rcases hm with ⟨_, rfl⟩ | ⟨hm, _⟩
      · rfl
      · exact absurd hh.2 (hu ws (by rw [hm, hh.1]))
    · exact ⟨w, hw, hb⟩
  · obtain ⟨sv, w, _, _, _, rfl⟩ := declare_ok hy; exact ⟨_, hw, hb⟩
  · obtain ⟨sv, _, _, rfl, _⟩ := bond_ok hy
    rw [findWorker_save]
    split
    · rename_i hh
      refine ⟨_, rfl, ?_⟩
      unfold base
      rw [← hh.1, ← hh.2, hw]; exact hb
    · exact ⟨w, hw, hb⟩
  · obtain ⟨sv, w', _, hw', _, rfl, _⟩ := unbond_ok hy
    rw [findWorker_save]
    split
    · rename_i hh
      rw [← hh.1, ← hh.2, hw] at hw'
      simp only [Option.some.injEq] at hw'
      exact ⟨_, rfl, by rw [← hw']; exact hb⟩
    · exact ⟨w, hw, hb⟩
  · obtain ⟨sv, w', t, _, hw', hb', _, rfl, _⟩ := claim_ok hy
    rw [findWorker_save]
    split
    · rename_i hh
      rw [← hh.1, ← hh.2, hw] at hw'
      simp only [Option.some.injEq] at hw'
      exact ⟨_, rfl, by rw [← hw']; exact hb⟩
    · exact ⟨w, hw, hb⟩

/-- a worker stays known -/
theorem keep_worker {w : Worker} (hx : exec s c = .ok (s', r)) (hw : findWorker s n a = some w) :
    ∃ w', findWorker s' n a = some w' := by
  rcases exec_ok hx with ⟨m, sv, hm, _, hy⟩ | ⟨m, ws, x, _, hm, hy⟩ | ⟨m, chains, hm, hy⟩ |
    ⟨m, hm, hy⟩ | ⟨m, hm, hy⟩ | ⟨m, hm, hy⟩
  · obtain ⟨_, _, rfl⟩ := register_ok hy; exact ⟨w, hw⟩
  · obtain ⟨sv, hsv, _, rfl⟩ := updateAuth_ok hy
    rw [(foldAuth m x ws s).2.2.2 n a]
    split
    · exact ⟨_, rfl⟩
    · exact ⟨w, hw⟩
  · obtain ⟨sv, w, _, _, _, rfl⟩ := declare_ok hy; exact ⟨_, hw⟩
  · obtain ⟨sv, _, _, rfl, _⟩ := bond_ok hy
    rw [findWorker_save]
    split
    · exact ⟨_, rfl⟩
    · exact ⟨w, hw⟩
  · obtain ⟨sv, w', _, hw', _, rfl, _⟩ := unbond_ok hy
    rw [findWorker_save]
    split
    · exact ⟨_, rfl⟩
    · exact ⟨w, hw⟩
  · obtain ⟨sv, w', t, _, hw', hb', _, rfl, _⟩ := claim_ok hy
    rw [findWorker_save]
    split
    · exact ⟨_, rfl⟩
    · exact ⟨w, hw⟩

end Amp.Registry

namespace Amp.Chain

variable {P : Params} {setup : Setup} {l l₁ l₂ : List Entry} {w : World} {R M gov : Addr} {e : Entry}
  {mc : Multisig.Config}

/-! ### Specification -/

/-- the chain executed a message for which `done` holds, and after it none for which `undone` holds -/
def Stands (l : List Entry) (done undone : Pending → Prop) : Prop :=
  ∃ l₁ e l₂, l = l₁ ++ e :: l₂ ∧ done e.p ∧ ∀ e' ∈ l₂, ¬ undone e'.p

/-! ### Lemmas -/

theorem Inv.registry_snoc (hi : Inv P setup (l₁ ++ [e]) w) (hk : setup e.p.target = some (.registry gov)) :
    ∃ t m r, e.p.msg = .registry m ∧
      Registry.exec (Registry.stateAfter gov (registryCalls e.p.target l₁)) ⟨e.p.sender, e.p.funds, t, m⟩ =
        .ok (Registry.stateAfter gov (registryCalls e.p.target (l₁ ++ [e])), r) := by
  obtain ⟨m, t, r, s', h1, h2, h3⟩ := hi.registry_call (l₂ := []) rfl hk
  refine ⟨t, m, r, h1, ?_⟩
  rw [h3]
  have : registryCalls e.p.target (l₁ ++ [e]) =
      registryCalls e.p.target l₁ ++ [⟨e.p.sender, e.p.funds, t, m⟩] := by
    unfold registryCalls
    rw [actsAt_append, actsAt_self _ e rfl, List.filterMap_append, h2]
    rfl
  rw [this]
  unfold Registry.stateAfter
  rw [runCalls_snoc h3]

/-- what a message does at the registry stays if no other message undoes it -/
theorem Inv.registry_stands (hi : Inv P setup l w) (hk : setup R = some (.registry gov)) {done undone : Pending → Prop}
    {I : Registry.State → Prop}
    (htarget : ∀ p, done p → p.target = R)
    (hdone : ∀ s t snd funds m s' r, Registry.Inv s → Registry.exec s ⟨snd, funds, t, m⟩ = .ok (s', r) →
      done ⟨snd, R, funds, .registry m⟩ → I s')
    (hstep : ∀ s t snd funds m s' r, Registry.Inv s → Registry.exec s ⟨snd, funds, t, m⟩ = .ok (s', r) →
      ¬ undone ⟨snd, R, funds, .registry m⟩ → I s → I s')
    (h : Stands l done undone) : I (Registry.stateAfter gov (registryCalls R l)) := by
  obtain ⟨l₁, e, l₂, rfl, hd, hu⟩ := h
  induction l₂ using List.reverseRecOn generalizing w with
  | nil =>
    have ht := htarget _ hd
    obtain ⟨t, m, r, h1, h2⟩ := hi.registry_snoc (by rw [ht]; exact hk)
    rw [ht] at h2
    refine hdone _ _ _ _ _ _ _ (Registry.inv_reachable _ _) h2 ?_
    rw [← h1, ← ht]; exact hd
  | append_singleton l₂ x ih =>
    have ih' := ih (w := worldOf P setup (l₁ ++ e :: l₂)) (hi.prefix (l₂ := [x]) (by simp)) (fun e' he' => hu e' (by simp [he']))
    rw [show l₁ ++ e :: (l₂ ++ [x]) = (l₁ ++ e :: l₂) ++ [x] by simp] at hi ⊢
    by_cases ht : x.p.target = R
    · obtain ⟨t, m, r, h1, h2⟩ := hi.registry_snoc (by rw [ht]; exact hk)
      rw [ht] at h2
      refine hstep _ _ _ _ _ _ _ (Registry.inv_reachable _ _) h2 ?_ ih'
      rw [← h1, ← ht]; exact hu x (by simp)
    · unfold registryCalls
      rw [actsAt_append, actsAt_other R x ht, List.append_nil]
      exact ih'

theorem Inv.multisig_state (hi : Inv P setup l w) (hk : setup M = some (.multisig mc)) :
    w M = some (.multisig (Multisig.stateAfter P.C (Prover.workerSetId P.X) mc (multisigCalls M l))) := by
  rw [hi.world]
  simp [worldOf, hk, replay, Multisig.stateAfter, multisigCalls]

theorem Inv.multisig_snoc (hi : Inv P setup (l₁ ++ [e]) w) (hk : setup e.p.target = some (.multisig mc)) :
    ∃ h m r, e.p.msg = .multisig m ∧
      Multisig.exec P.C (Prover.workerSetId P.X)
        (Multisig.stateAfter P.C (Prover.workerSetId P.X) mc (multisigCalls e.p.target l₁)) ⟨e.p.sender, h, m⟩ =
        .ok (Multisig.stateAfter P.C (Prover.workerSetId P.X) mc (multisigCalls e.p.target (l₁ ++ [e])), r) := by
  obtain ⟨_, b, reply, s', hc⟩ := hi.genuine l₁ e [] rfl
  have hw := (hi.prefix (l₂ := [e]) rfl).multisig_state hk
  unfold call at hc
  rw [hw] at hc
  simp only at hc
  cases hm : e.p.msg with
  | multisig m =>
    rw [hm] at hc
    simp only at hc
    split at hc
    · simp at hc
    · rename_i s1 r1 hx
      simp only [Except.ok.injEq, Prod.mk.injEq] at hc
      refine ⟨b.height, m, r1, rfl, ?_⟩
      rw [hx]
      have : multisigCalls e.p.target (l₁ ++ [e]) =
          multisigCalls e.p.target l₁ ++ [⟨e.p.sender, b.height, m⟩] := by
        unfold multisigCalls
        rw [actsAt_append, actsAt_self _ e rfl, List.filterMap_append, ← hc.2]
        rfl
      rw [this]
      unfold Multisig.stateAfter at hx ⊢
      rw [runCalls_snoc hx]
  | _ => rw [hm] at hc; simp at hc

/-- what a message does at the multisig contract stays if no other message undoes it -/
theorem Inv.multisig_stands (hi : Inv P setup l w) (hk : setup M = some (.multisig mc)) {done undone : Pending → Prop}
    {I : Multisig.State → Prop}
    (htarget : ∀ p, done p → p.target = M)
    (hdone : ∀ s h snd funds m s' r, Multisig.exec P.C (Prover.workerSetId P.X) s ⟨snd, h, m⟩ = .ok (s', r) →
      done ⟨snd, M, funds, .multisig m⟩ → I s')
    (hstep : ∀ s h snd funds m s' r, Multisig.exec P.C (Prover.workerSetId P.X) s ⟨snd, h, m⟩ = .ok (s', r) →
      ¬ undone ⟨snd, M, funds, .multisig m⟩ → I s → I s')
    (h : Stands l done undone) :
    I (Multisig.stateAfter P.C (Prover.workerSetId P.X) mc (multisigCalls M l)) := by
  obtain ⟨l₁, e, l₂, rfl, hd, hu⟩ := h
  induction l₂ using List.reverseRecOn generalizing w with
  | nil =>
    have ht := htarget _ hd
    obtain ⟨h, m, r, h1, h2⟩ := hi.multisig_snoc (by rw [ht]; exact hk)
    rw [ht] at h2
    refine hdone _ _ _ e.p.funds _ _ _ h2 ?_
    rw [← h1, ← ht]; exact hd
  | append_singleton l₂ x ih =>
    have ih' := ih (w := worldOf P setup (l₁ ++ e :: l₂)) (hi.prefix (l₂ := [x]) (by simp)) (fun e' he' => hu e' (by simp [he']))
    rw [show l₁ ++ e :: (l₂ ++ [x]) = (l₁ ++ e :: l₂) ++ [x] by simp] at hi ⊢
    by_cases ht : x.p.target = M
    · obtain ⟨h, m, r, h1, h2⟩ := hi.multisig_snoc (by rw [ht]; exact hk)
      rw [ht] at h2
      refine hstep _ _ _ x.p.funds _ _ _ h2 ?_ ih'
      rw [← h1, ← ht]; exact hu x (by simp)
    · unfold multisigCalls
      rw [actsAt_append, actsAt_other M x ht, List.append_nil]
      exact ih'

end Amp.Chain
