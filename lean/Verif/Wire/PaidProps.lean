import Verif.Wire.RotateProps
import Verif.Chain.BooksProps
import Verif.Chain.BankProps

/-!
# C117: rewards follow the work and are paid, in texts
-/

namespace Amp.Wire

open Amp.Chain (Params Entry)

variable {G : Texture} {P : Params}

/-! ### Helper lemmas -/

/-- a request to distribute rewards, executed -/
theorem exec_distribute {w : Chain.World} {R : Addr} {s : Rewards.State} (hw : w R = some (.rewards s)) {tx : Chain.Tx}
    (hs : w tx.sender = none) {funds : List Registry.Coin} {k : Addr} {n : Option Nat}
    (hm : tx.msgs = [(R, funds, .rewards (.distributeRewards k n))]) (hg : 1 ≤ tx.gas) :
    (∀ s' r, Rewards.exec s ⟨tx.sender, funds, tx.block.height, .distributeRewards k n⟩ = .ok (s', r) →
      Chain.exec P w tx = .ok (KV.set w R (.rewards s'), [⟨⟨tx.sender, R, funds, .rewards (.distributeRewards k n)⟩,
        .rewards ⟨tx.sender, funds, tx.block.height, .distributeRewards k n⟩ r⟩])) ∧
    (∀ x, Chain.exec P w tx = .ok x → ∃ y, Rewards.exec s ⟨tx.sender, funds, tx.block.height, .distributeRewards k n⟩ = .ok y) := by
  obtain ⟨g, hg⟩ : ∃ k, tx.gas = k + 1 := ⟨tx.gas - 1, by omega⟩
  constructor
  · intro s' r hx
    unfold Chain.exec
    rw [if_neg (by simp [hs]), hm, hg]
    simp only [List.map_cons, List.map_nil]
    rw [Chain.run, if_neg (by simp [hw])]
    unfold Chain.deliver
    simp only [hw]
    unfold Chain.call
    simp only [hw, hx, Chain.Entry.sent, Chain.Act.outs, List.map_nil, List.append_nil]
    cases g <;> simp [Chain.run]
  · intro x h
    cases hx : Rewards.exec s ⟨tx.sender, funds, tx.block.height, .distributeRewards k n⟩ with
    | ok y => exact ⟨y, rfl⟩
    | error e =>
      unfold Chain.exec at h
      rw [if_neg (by simp [hs]), hm, hg] at h
      simp only [List.map_cons, List.map_nil] at h
      rw [Chain.run, if_neg (by simp [hw])] at h
      unfold Chain.deliver at h
      simp only [hw] at h
      unfold Chain.call at h
      simp [hw, hx] at h

/-- what the text of such a request means -/
theorem paid_meaning (hG : Sound G) {ts : List TextStep} {t : TextTx} (ha : TextApart G (ts ++ [.tx t])) {R : Addr}
    {rc : Rewards.Config} {rp : Rewards.Params} {h0 : Nat} (hR : textSetup G ts R = some (.rewards rc rp h0)) {k : Addr}
    {n : Option Nat} (hn : ∀ x, n = some x → x ≤ u64Max) {funds : List Registry.Coin}
    (hm : t.msgs = [(R, funds, write G (.rewards (.distributeRewards k n)))]) (hg : 1 ≤ t.gas) :
    (meaning G (textSetup G ts) t).msgs = [(R, funds, .rewards (.distributeRewards k n))] ∧
      textSetup G ts (meaning G (textSetup G ts) t).sender = none ∧ 1 ≤ (meaning G (textSetup G ts) t).gas := by
  have hs : textSetup G ts t.sender = none := by
    by_contra h
    refine (ha t (by simp) t.sender ?_).1 rfl
    cases hk : textSetup G ts t.sender with
    | none => exact absurd hk h
    | some k => rw [textSetup_mono ts _ hk]; simp
  refine ⟨?_, hs, hg⟩
  unfold meaning
  rw [hm]
  simp only [List.map_cons, List.map_nil]
  congr 3
  unfold meant
  rw [hR]
  simp only
  rw [C95_read hG (.rewards (.distributeRewards k n)) hn]
  rfl

theorem paid_config (cfg : Rewards.Config) (p : Rewards.Params) (h : Nat) (cs : List Rewards.Call) :
    (Rewards.stateAfter cfg p h cs).config = cfg := by
  have := runCalls_inv Rewards.exec (P := fun s => Rewards.Inv s ∧ s.config = cfg)
    (fun _ _ _ _ hi hx => ⟨Rewards.inv_step hi.1 hx, by rw [(Rewards.step_frame hi.1 hx).1, hi.2]⟩) _
    ⟨Rewards.inv_init cfg p h, rfl⟩ cs
  exact this.2

/-! ### The property -/

/-- C117, signing: from a chain without contracts, whatever texts are sent to it: what workers are due from the pool of a multisig
contract follows the signatures recorded there. -/
theorem C117_signing (hG : Sound G) (hX : ∀ b, IsBytes (P.X.keccak b)) (ts : List TextStep) (hb : ∀ s ∈ ts, StepInRange s)
    (ha : TextApart G ts) (M : Addr) (mc : Multisig.Config) (hM : textSetup G ts M = some (.multisig mc)) (rc : Rewards.Config)
    (rp : Rewards.Params) (h0 : Nat) (hR : textSetup G ts mc.rewards = some (.rewards rc rp h0)) :
    ∃ m s, textDeployedWorld G P ts M = some (.multisig m) ∧ textDeployedWorld G P ts mc.rewards = some (.rewards s) ∧
      Rewards.FollowsWork s M (Chain.signedFor m) := by
  obtain ⟨w1, -, -, -, -⟩ := C105_history (P := P) hG hX ts hb ha
  rw [w1]
  exact Chain.C84_signing_rewards P _ _ M mc hM rc rp h0 hR

/-- C117, voting: the same for the pool of a voting verifier and the polls there, if the blocks are in order. -/
theorem C117_voting (hG : Sound G) (hX : ∀ b, IsBytes (P.X.keccak b)) (ts : List TextStep) (hb : ∀ s ∈ ts, StepInRange s)
    (ha : TextApart G ts) (ho : TextInOrder ts) (V : Addr) (vc : VV.Config) (hV : textSetup G ts V = some (.verifier vc))
    (rc : Rewards.Config) (rp : Rewards.Params) (h0 : Nat) (hR : textSetup G ts vc.rewards = some (.rewards rc rp h0)) :
    ∃ v s, textDeployedWorld G P ts V = some (.verifier v) ∧ textDeployedWorld G P ts vc.rewards = some (.rewards s) ∧
      Rewards.FollowsWork s V (Chain.agreedIn v) := by
  obtain ⟨w1, -, -, -, w5⟩ := C105_history (P := P) hG hX ts hb ha
  rw [w1]
  exact Chain.C84_voting_rewards P _ _ (succeeded_inOrder ho) V vc (w5 V vc hV) hV rc rp h0 hR

/-- C117, paying: the text that asks to distribute the rewards of pool `k` is taken exactly if there is an epoch to pay, at least two
before the current one, and the pool can pay for all epochs up to the last one asked for.  Then every worker is paid what it is due for
these epochs, in the denomination of the contract and in one transfer, the pool of `k` becomes smaller by just the sum, no other pool
changes, and these epochs are not paid again. -/
theorem C117_paid (hG : Sound G) (hX : ∀ b, IsBytes (P.X.keccak b)) (ts : List TextStep) (t : TextTx)
    (hb : ∀ s ∈ ts ++ [.tx t], StepInRange s) (ha : TextApart G (ts ++ [.tx t])) (R : Addr) (rc : Rewards.Config) (rp : Rewards.Params)
    (h0 : Nat) (hR : textSetup G ts R = some (.rewards rc rp h0)) (k : Addr) (n : Option Nat) (hn : ∀ x, n = some x → x ≤ u64Max)
    (funds : List Registry.Coin) (hm : t.msgs = [(R, funds, write G (.rewards (.distributeRewards k n)))]) (hg : 1 ≤ t.gas)
    (s : Rewards.State) (hs : textDeployedWorld G P ts R = some (.rewards s)) (e : Nat)
    (he : Rewards.epochNum s t.block.height = some e) (hov : Rewards.done s k + n.getD 10 ≤ u64Max) (target : Nat)
    (ht : target = min (max (Rewards.done s k + n.getD 10) 1) (e - 1)) :
    ((∃ x, execText G P (textDeployedWorld G P ts) t = .ok x) ↔
      2 ≤ e ∧ Rewards.done s k < target ∧
      ((List.range' (Rewards.done s k) (target - Rewards.done s k)).map (Rewards.dueTotal s k)).sum ≤ Rewards.poolOf s k) ∧
    ((∃ x, execText G P (textDeployedWorld G P ts) t = .ok x) →
      ∃ s' r, textDeployedWorld G P (ts ++ [.tx t]) R = some (.rewards s') ∧
        (∀ a, a ≠ R → textDeployedWorld G P (ts ++ [.tx t]) a = textDeployedWorld G P ts a) ∧
        (textDeployedLog G P (ts ++ [.tx t])).map Entry.blind = (textDeployedLog G P ts).map Entry.blind ++
          [⟨⟨t.sender, R, funds, .rewards (.distributeRewards k n)⟩,
            .rewards ⟨t.sender, funds, t.block.height, .distributeRewards k n⟩ r⟩] ∧
        Rewards.done s' k = target ∧
        (∀ a, Rewards.paidTo r a =
          ((List.range' (Rewards.done s k) (target - Rewards.done s k)).map (Rewards.due s k a)).sum) ∧
        (r.sends.map Prod.fst).Nodup ∧ (∀ x ∈ r.sends, x.2.1 = rc.denom) ∧
        Rewards.poolOf s k = Rewards.poolOf s' k + Rewards.paidOut r ∧
        (∀ k', k' ≠ k → Rewards.poolOf s' k' = Rewards.poolOf s k')) := by
  have hbt : ∀ x ∈ ts, StepInRange x := fun x hx => hb x (List.mem_append_left _ hx)
  have hat := textApart_prefix ha
  have hin : InRange t := hb (.tx t) (by simp)
  obtain ⟨w1, w2, -, -, -⟩ := C105_history (P := P) hG hX ts hbt hat
  have hi := Chain.inv P (textSetup G ts) (Chain.succeeded P (steps G ts))
  have hst := hi.rewards_state hR
  have hs' := hs
  rw [w1, hst] at hs'
  simp only [Option.some.injEq, Chain.Store.rewards.injEq] at hs'
  obtain ⟨hmsgs, hsend, hgas⟩ := paid_meaning hG ha hR hn hm hg
  have hnone : Chain.worldAfter P (textSetup G ts) (Chain.succeeded P (steps G ts)) (meaning G (textSetup G ts) t).sender = none := by
    rw [hi.world]
    simp only [Chain.worldOf, hsend]
    rfl
  have hw : Chain.worldAfter P (textSetup G ts) (Chain.succeeded P (steps G ts)) R = some (.rewards s) := by rw [← w1]; exact hs
  obtain ⟨x1, x2⟩ := exec_distribute (P := P) hw hnone hmsgs hgas
  have hInv : Rewards.Inv s := by rw [← hs']; exact Rewards.inv_reachable _ _ _ _
  have hcfg : s.config = rc := by rw [← hs']; exact paid_config _ _ _ _
  subst hs'
  obtain ⟨y1, y2⟩ := Rewards.C38_extent rc rp h0 _ ⟨t.sender, funds, t.block.height, .distributeRewards k n⟩ k n rfl e he hov target ht
  constructor
  · rw [← y1]
    constructor
    · rintro ⟨x, hx⟩
      obtain ⟨⟨a, b⟩, hy⟩ := x2 x ((exec_after hG hX ts hbt hat t hin).mp hx)
      exact ⟨a, b, hy⟩
    · rintro ⟨a, b, hy⟩
      exact ⟨_, (exec_after hG hX ts hbt hat t hin).mpr (x1 a b hy)⟩
  · rintro ⟨x, hx⟩
    obtain ⟨⟨s', r⟩, hy⟩ := x2 x ((exec_after hG hX ts hbt hat t hin).mp hx)
    obtain ⟨-, -, v3, v4⟩ := deployed_snoc hG hX ts t hb ha (x1 s' r hy)
    obtain ⟨e', -, -, -, -, z4, z5, z6, z7, z8, z9, -⟩ := Rewards.distribution hInv hy rfl
    have hd := y2 s' r hy
    rw [hd] at z4
    refine ⟨s', r, by rw [v3]; simp [KV.set], ?_, ?_, hd, z4, ?_, ?_, z6, z7⟩
    · intro a hne
      rw [v3, w1]
      simp [KV.set, hne]
    · rw [v4, List.map_append, w2]
      rfl
    · exact z8.imp (fun h => Nat.ne_of_lt h)
    · rw [hcfg] at z9
      exact z9

end Amp.Wire
