import Verif.Wire.StoredFits2
import Verif.Wire.TextChainLemmas

/-!
# Lemmas for C98: in every history, what contracts store is in range
-/

namespace Amp.Wire

open Amp.Router (ChainName Lowering CCId Message)
open Amp.Chain (Msg Params Block World Store Setup Pending Entry Tx Act)

variable {L : Lowering} {G : Texture} {P : Params}

/-- everything that contracts store is in range -/
def WorldFits (L : Lowering) (w : World) : Prop := ∀ a s, w a = some s → StoreFits L s

theorem WorldFits.set {w : World} (h : WorldFits L w) {a : Addr} {s : Store} (hs : StoreFits L s) :
    WorldFits L (w.set a s) := by
  intro x t hx
  by_cases hxa : x = a
  · subst hxa
    rw [KV.set_self] at hx
    simp only [Option.some.injEq] at hx
    rw [← hx]; exact hs
  · rw [KV.set_ne _ _ hxa] at hx; exact h x t hx

theorem call_fits (hX : Octets P.X) {b : Block} {w : World} (hw : WorldTyped L w) (hf : WorldFits L w)
    (hb : b.height ≤ u64Max) (htm : b.time ≤ u64Max) {p : Pending} (hp : Typed L p.msg) (hc : CoinsFit p.funds)
    {reply : Option (Option Nat)} {st : Store} {a : Act} (h : Chain.call P b w p reply = .ok (st, a)) : StoreFits L st := by
  have ht := (call_typed hX.keccak hw hb htm hp hc h).1
  unfold Chain.call at h
  split at h
  · simp at h
  · rename_i s hs
    split at h
    · rename_i m hm
      dsimp only at h
      split at h
      · simp at h
      · rename_i hx
        simp only [Except.ok.injEq, Prod.mk.injEq] at h
        rw [← h.1]
        rw [hm] at hp
        exact fits_verifier.mpr (verifier_kept hx hp (fits_verifier.mp (hf _ _ hs)))
    · simp at h
  · rename_i s hs
    split at h
    · try dsimp only at h
      split at h
      · simp at h
      · simp only [Except.ok.injEq, Prod.mk.injEq] at h
        rw [← h.1] at ht ⊢
        exact fits_gateway ht
    · simp at h
  · rename_i s hs
    split at h
    · rename_i m hm
      try dsimp only at h
      split at h
      · simp at h
      · rename_i hx
        simp only [Except.ok.injEq, Prod.mk.injEq] at h
        rw [← h.1]
        refine fits_router.mpr (router_kept hx ?_ (fits_router.mp (hf _ _ hs)))
        cases hmm : p.msg <;> rw [hmm] at hm hp <;> simp only [Msg.toRouter, Option.some.injEq, reduceCtorEq] at hm
        · rw [← hm]; exact hp
        · rw [← hm]; exact hp
    · simp at h
  · split at h
    · try dsimp only at h
      split at h
      · simp at h
      · simp only [Except.ok.injEq, Prod.mk.injEq] at h
        rw [← h.1]
        exact fits_nexus
    · simp at h
  · rename_i s hs
    split at h
    · rename_i m hm
      split at h
      · simp at h
      · rename_i hx
        simp only [Except.ok.injEq, Prod.mk.injEq] at h
        rw [← h.1] at ht ⊢
        rw [hm] at hp
        exact (fits_registry ht).mpr (registry_kept hx hp ((fits_registry (hw _ _ hs)).mp (hf _ _ hs)))
    · simp at h
  · rename_i s hs
    split at h
    · rename_i m hm
      split at h
      · simp at h
      · rename_i hx
        simp only [Except.ok.injEq, Prod.mk.injEq] at h
        rw [← h.1]
        rw [hm] at hp
        exact fits_rewards.mpr (rewards_kept hx hp hb (fits_rewards.mp (hf _ _ hs)))
    · simp at h
  · rename_i s hs
    split at h
    · rename_i m hm
      split at h
      · simp at h
      · rename_i hx
        simp only [Except.ok.injEq, Prod.mk.injEq] at h
        rw [← h.1] at ht ⊢
        rw [hm] at hp
        exact (fits_multisig ht).mpr (multisig_kept hx hp ((fits_multisig (hw _ _ hs)).mp (hf _ _ hs)))
    · simp at h
  · rename_i s sv kt hs
    split at h
    · rename_i m hm
      try dsimp only at h
      split at h
      · simp at h
      · rename_i s' r hx
        simp only [Except.ok.injEq, Prod.mk.injEq] at h
        rw [← h.1]
        exact fits_prover.mpr (prover_kept hX hw hb (fits_prover.mp (hf _ _ hs)) hx)
    · simp at h

theorem deliver_fits (hX : Octets P.X) {b : Block} {w w' : World} (hw : WorldTyped L w) (hf : WorldFits L w)
    (hb : b.height ≤ u64Max) (htm : b.time ≤ u64Max) {p : Pending} (hc : CoinsFit p.funds) {es : List Entry}
    {ps : List Pending} (h : Chain.deliver P b w p = .ok (w', es, ps)) (he : ∀ e ∈ es, EntryTyped L e) :
    WorldTyped L w' ∧ WorldFits L w' ∧ ∀ q ∈ ps, CoinsFit q.funds := by
  have sent : ∀ e : Entry, ∀ q ∈ Entry.sent e, CoinsFit q.funds := by
    intro e q hq
    obtain ⟨o, _, rfl⟩ := List.mem_map.mp hq
    exact coinsFit_nil
  unfold Chain.deliver at h
  split at h
  · rename_i s sv kt hs
    split at h
    · rename_i m hm
      split at h
      · simp at h
      rename_i s1 out ho
      dsimp only at h
      split at h
      · rename_i ms mc mr hcq
        split at h
        · simp at h
        rename_i s' a hcp
        simp only [Except.ok.injEq, Prod.mk.injEq] at h
        obtain ⟨rfl, rfl, rfl⟩ := h
        have hp1 : Typed L p.msg := (he ⟨p, a⟩ (List.mem_cons_self ..)).1
        have hq1 := (he _ (List.mem_cons_of_mem _ (List.mem_cons_self ..))).1
        have c1 := call_fits hX hw hf hb htm hq1 coinsFit_nil hcq
        have c2 := call_fits hX hw hf hb htm hp1 hc hcp
        have t1 := (call_typed hX.keccak hw hb htm hq1 coinsFit_nil hcq).1
        have t2 := (call_typed hX.keccak hw hb htm hp1 hc hcp).1
        exact ⟨(hw.set t2).set t1, (hf.set c2).set c1, sent _⟩
      · simp at h
    · simp at h
  · split at h
    · simp at h
    rename_i s' a hcp
    simp only [Except.ok.injEq, Prod.mk.injEq] at h
    obtain ⟨rfl, rfl, rfl⟩ := h
    have hp1 : Typed L p.msg := (he ⟨p, a⟩ (List.mem_cons_self ..)).1
    exact ⟨hw.set (call_typed hX.keccak hw hb htm hp1 hc hcp).1, hf.set (call_fits hX hw hf hb htm hp1 hc hcp), sent _⟩

theorem run_fits (hX : Octets P.X) {b : Block} (hb : b.height ≤ u64Max) (htm : b.time ≤ u64Max) (accepts : Addr → Bool)
    (n : Nat) : ∀ {w w' : World} {ps : List Pending} {es : List Entry}, WorldTyped L w → WorldFits L w →
      (∀ p ∈ ps, CoinsFit p.funds) → Chain.run P b accepts n w ps = .ok (w', es) → (∀ e ∈ es, EntryTyped L e) →
      WorldFits L w' := by
  induction n with
  | zero =>
    intro w w' ps es hw hf hc h he
    cases ps with
    | nil =>
      simp only [Chain.run, Except.ok.injEq, Prod.mk.injEq] at h
      rw [← h.1]; exact hf
    | cons p t => simp [Chain.run] at h
  | succ n ih =>
    intro w w' ps es hw hf hc h he
    cases ps with
    | nil =>
      simp only [Chain.run, Except.ok.injEq, Prod.mk.injEq] at h
      rw [← h.1]; exact hf
    | cons p t =>
      have hct : ∀ q ∈ t, CoinsFit q.funds := fun q hq => hc q (List.mem_cons_of_mem _ hq)
      unfold Chain.run at h
      split at h
      · exact ih hw hf hct h he
      split at h
      · simp at h
      rename_i w1 es1 out hd
      split at h
      · simp at h
      rename_i w2 es2 hr
      simp only [Except.ok.injEq, Prod.mk.injEq] at h
      obtain ⟨rfl, rfl⟩ := h
      obtain ⟨h1, h2, h3⟩ := deliver_fits hX hw hf hb htm (hc p (List.mem_cons_self ..)) hd
        (fun e hx => he e (List.mem_append_left _ hx))
      exact ih h1 h2 (fun q hq => (List.mem_append.mp hq).elim (h3 q) (hct q)) hr
        (fun e hx => he e (List.mem_append_right _ hx))

theorem says_coins {σ : Addr → Option Party} {qs : List TextPending} {ps : List Pending} (h : List.Forall₂ (Says G σ) qs ps) :
    ∀ p ∈ ps, CoinsFit p.funds := by
  induction h with
  | nil => intro p hp; exact (List.not_mem_nil hp).elim
  | cons h1 _ ih =>
    intro p hp
    rcases List.mem_cons.mp hp with rfl | hp
    · exact h1.2.2.2.1
    · exact ih p hp

theorem history_fits (hG : Sound G) (hX : Octets P.X) {σ : Addr → Option Party}
    {ts : List TextTx} {txs : List Tx} (h : List.Forall₂ (TxSays G σ) ts txs) :
    ∀ {w : World}, Parties w σ → WorldTyped G.L w → WorldFits G.L w → (∀ t ∈ ts, InRange t) →
      WorldFits G.L (runCalls (execText G P) w ts) := by
  induction h with
  | nil => intro w _ _ hf _; exact hf
  | cons h1 h2 ih =>
    rename_i t tx ts txs
    intro w hσ hw hf hb
    have hb' : ∀ t ∈ ts, InRange t := fun x hx => hb x (List.mem_cons_of_mem _ hx)
    have hb1 := hb t (List.mem_cons_self ..)
    have hs := exec_same (P := P) hG hX.keccak hσ hw hb1 h1
    rw [runCalls_cons]
    cases hq : execText G P w t with
    | error e => exact ih hσ hw hf hb'
    | ok x =>
      cases hp : Chain.exec P w tx with
      | error e' => rw [hq, hp] at hs; exact hs.elim
      | ok y =>
        obtain ⟨w1, es⟩ := x
        obtain ⟨w1', es'⟩ := y
        rw [hq, hp] at hs
        obtain ⟨rfl, rfl, hσ1, hw1, ht1⟩ := hs
        refine ih hσ1 hw1 ?_ hb'
        obtain ⟨e1, e2, e3, e4, hm⟩ := h1
        unfold Chain.exec at hp
        split at hp
        · simp at hp
        refine run_fits hX (by rw [← e2]; exact hb1.height) (by rw [← e2]; exact hb1.time) _ _ hw hf ?_ hp ht1
        exact says_coins hm

theorem fits_genesis {setup : Setup} (hr : SetupInRange setup) : WorldFits L (Chain.genesis setup) := by
  intro a s hs
  unfold Chain.genesis at hs
  cases hk : setup a with
  | none => rw [hk] at hs; cases hs
  | some k =>
    rw [hk] at hs
    simp only [Option.map_some, Option.some.injEq] at hs
    rw [← hs]
    cases k with
    | verifier cfg =>
      exact fits_verifier.mpr ⟨Nat.zero_le _, fun _ _ h => (by cases h), fun _ _ h => (by cases h), fun _ _ h => (by cases h)⟩
    | gateway cfg => exact fits_gateway (fun _ _ h => by cases h)
    | router cfg => exact fits_router.mpr (fun _ _ h => by cases h)
    | nexus cfg => exact fits_nexus
    | registry g =>
      refine ⟨?_, fun p sv kt e => by cases e⟩
      intro k v hv
      cases k <;> cases hv
    | rewards cfg p h =>
      obtain ⟨hp, hh⟩ := hr.1 a cfg p h hk
      exact fits_rewards.mpr ⟨hp, ⟨Nat.zero_le _, hh⟩, fun _ _ h => (by cases h), fun _ _ h => (by cases h),
        fun _ _ h => (by cases h), fun _ _ h => (by cases h)⟩
    | multisig cfg =>
      refine ⟨?_, fun p sv kt e => by cases e⟩
      intro k v hv
      cases k <;> simp only [Chain.Kind.init, stored, Multisig.init, KV.empty, OMap.get?_nil, Option.map_none, reduceCtorEq,
        Option.some.injEq] at hv
      rw [← hv]; exact Nat.zero_le _
    | prover cfg sv kt =>
      exact fits_prover.mpr ⟨hr.2 a cfg sv kt hk, fun _ _ h => (by cases h), fun _ _ h => (by cases h), fun _ h => (by cases h),
        fun _ h => (by cases h), fun _ h => (by cases h)⟩

end Amp.Wire
