import Verif.Wire.PaidProps
import Verif.Wire.JoinTextExample

/-!
# Concrete cases for C117

The history of `EndToEndExample`; then the poll is ended, somebody pays for the pool of the multisig contract, and somebody asks for
the rewards of its first epoch.
-/

namespace Amp.Wire

open Amp.Chain (Entry exP exTx svc eth sui)

def paidAsk : Chain.Tx := exTx 9 250 11 (.rewards (.distributeRewards 18 none))

def paidTxs : List Chain.Tx := e2eTxs ++ [
  exTx 9 20 12 (.verifier (.endPoll 1)),
  exTx 9 21 11 (.rewards (.addRewards 18)) [("axl".toList, 5000)],
  paidAsk]

/-- the contracts and the first `n` transactions, as texts -/
def paidUpTo (n : Nat) : List TextStep :=
  e2eOrders.map (fun x => .found x.1 x.2.conf.party 1 (writeOrder exTexture x.2)) ++
    (paidTxs.take n).map (fun tx => .tx (written exTexture tx))

def paidPlain (n : Nat) : List Chain.Step := e2eOrders.map (fun x => .found x.1 (x.2.kind 1)) ++ (paidTxs.take n).map .tx

theorem paid_succ {n : Nat} {tx : Chain.Tx} (h : paidTxs[n]? = some tx) : paidUpTo (n + 1) = paidUpTo n ++ [.tx (written exTexture tx)] := by
  unfold paidUpTo
  rw [List.append_assoc, List.take_add_one, h, List.map_append]
  rfl

theorem paid_range (n : Nat) : ∀ s ∈ paidUpTo n, StepInRange s := by
  intro s hs
  rcases List.mem_append.mp hs with hs | hs
  · obtain ⟨x, -, rfl⟩ := List.mem_map.mp hs
    show (1 : Nat) ≤ u64Max
    decide
  · obtain ⟨tx, htx, rfl⟩ := List.mem_map.mp hs
    have h : ∀ t ∈ paidTxs, t.block.height ≤ u64Max ∧ t.block.time ≤ u64Max ∧ ∀ m ∈ t.msgs, ∀ c ∈ m.2.1, c.2 ≤ u128Max := by
      decide +kernel
    obtain ⟨h1, h2, h3⟩ := h tx (List.mem_of_mem_take htx)
    refine ⟨h1, h2, ?_⟩
    intro m hm
    obtain ⟨m', hm', rfl⟩ := List.mem_map.mp hm
    exact h3 m' hm'

theorem paid_founding (n : Nat) : (paidUpTo n).filterMap (founding exTexture) = e2eOrders.map (fun x => .found x.1 (x.2.kind 1)) := by
  unfold paidUpTo
  rw [List.filterMap_append, List.filterMap_map, List.filterMap_map]
  have h1 : e2eOrders.filterMap (founding exTexture ∘ fun x => .found x.1 x.2.conf.party 1 (writeOrder exTexture x.2)) =
      e2eOrders.map (fun x => .found x.1 (x.2.kind 1)) := by
    refine filterMap_all (fun x hx => ?_)
    show (readOrder exTexture _ _).map _ = _
    rw [e2e_orders x hx]
    rfl
  have h2 : (paidTxs.take n).filterMap (founding exTexture ∘ fun tx => .tx (written exTexture tx)) = [] :=
    List.filterMap_eq_nil_iff.mpr (fun x _ => rfl)
  rw [h1, h2, List.append_nil]

theorem paid_setup (n : Nat) : textSetup exTexture (paidUpTo n) = e2eSetup := by
  funext a
  unfold textSetup e2eSetup
  rw [paid_founding]
  generalize e2eOrders = l
  induction l with
  | nil => rfl
  | cons x t ih =>
    simp only [List.map_cons, Chain.setupOf, List.lookup_cons]
    by_cases hab : a = x.1
    · simp [hab]
    · have : (a == x.1) = false := by simpa using hab
      rw [if_neg hab, this]
      exact ih

theorem paid_read : ∀ tx ∈ paidTxs, ∀ m ∈ tx.msgs,
    (partyAt e2eSetup m.1).bind (fun k => readFor exTexture k (write exTexture m.2.2)) = some m.2.2 := by
  decide +kernel

theorem paid_means {tx : Chain.Tx} (h : tx ∈ paidTxs) : meaning exTexture e2eSetup (written exTexture tx) = tx := by
  have key : tx.msgs.map ((fun m => (m.1, m.2.1, meant exTexture e2eSetup m.1 m.2.2)) ∘
      (fun m => (m.1, m.2.1, write exTexture m.2.2))) = tx.msgs := by
    refine (List.map_congr_left (fun m hm => ?_)).trans (List.map_id _)
    have := paid_read tx h m hm
    show (m.1, m.2.1, meant exTexture e2eSetup m.1 (write exTexture m.2.2)) = m
    have e : meant exTexture e2eSetup m.1 (write exTexture m.2.2) = m.2.2 := by
      unfold partyAt at this
      unfold meant
      cases hs : e2eSetup m.1 with
      | none => rw [hs] at this; cases this
      | some k =>
        rw [hs] at this
        have this : readFor exTexture (party k.init) (write exTexture m.2.2) = some m.2.2 := this
        simp only [this]
    rw [e]
  unfold meaning written
  rw [List.map_map, key]

theorem paid_plain (n : Nat) : steps exTexture (paidUpTo n) = paidPlain n := by
  unfold steps
  rw [paid_setup]
  unfold paidUpTo paidPlain
  rw [List.filterMap_append, List.filterMap_map, List.filterMap_map]
  refine congrArg₂ (· ++ ·) ?_ ?_
  · refine filterMap_all (fun x hx => ?_)
    show (readOrder exTexture _ _).map _ = _
    rw [e2e_orders x hx]
    rfl
  · refine filterMap_all (fun tx htx => ?_)
    show some (Chain.Step.tx (meaning exTexture e2eSetup (written exTexture tx))) = _
    rw [paid_means (List.mem_of_mem_take htx)]

theorem paid_apart (n : Nat) : TextApart exTexture (paidUpTo n) := by
  intro t ht a ha
  have hm : a ∈ e2eOrders.map Prod.fst := by
    rw [paid_setup] at ha
    by_contra h
    refine ha (List.lookup_eq_none_iff.mpr (fun p hp => ?_))
    obtain ⟨x, hx, rfl⟩ := List.mem_map.mp hp
    have : a ≠ x.1 := by rintro rfl; exact h (List.mem_map_of_mem hx)
    simpa using this
  rcases List.mem_append.mp ht with ht | ht
  · obtain ⟨x, -, hx⟩ := List.mem_map.mp ht
    cases hx
  · obtain ⟨tx, htx, hx⟩ := List.mem_map.mp ht
    cases hx
    have h : ∀ tx ∈ paidTxs, ∀ a ∈ e2eOrders.map Prod.fst, tx.sender ≠ a ∧ tx.accepts a = false := by decide +kernel
    exact h tx (List.mem_of_mem_take htx) a hm

theorem paid_world (n : Nat) : textDeployedWorld exTexture exP (paidUpTo n) = Chain.deployedWorld exP (paidPlain n) := by
  rw [(C105_text (P := exP) ex_sound exP_bytes (paidUpTo n) (paid_range n)).1, paid_plain]

theorem paid_log (n : Nat) : textDeployedLog exTexture exP (paidUpTo n) = Chain.deployedLog exP (paidPlain n) := by
  rw [(C105_text (P := exP) ex_sound exP_bytes (paidUpTo n) (paid_range n)).2.1, paid_plain]

theorem paid_inOrder (n : Nat) : TextInOrder (paidUpTo n) := by
  have h : (paidTxs.map (fun t => t.block.height)).Pairwise (· ≤ ·) := by decide +kernel
  unfold TextInOrder paidUpTo
  rw [List.filterMap_append, List.filterMap_map, List.filterMap_map]
  have h1 : e2eOrders.filterMap (TextStep.height? ∘ fun x => .found x.1 x.2.conf.party 1 (writeOrder exTexture x.2)) = [] :=
    List.filterMap_eq_nil_iff.mpr (fun x _ => rfl)
  have h2 : (paidTxs.take n).filterMap (TextStep.height? ∘ fun tx => .tx (written exTexture tx)) =
      (paidTxs.take n).map (fun t => t.block.height) := filterMap_all (fun x _ => rfl)
  rw [h1, h2, List.nil_append, List.map_take]
  exact h.sublist (List.take_sublist _ _)

/-- `C117_signing` applies: worker 5 signed -/
example : ∃ m s, textDeployedWorld exTexture exP (paidUpTo 16) 18 = some (.multisig m) ∧
    textDeployedWorld exTexture exP (paidUpTo 16) 11 = some (.rewards s) ∧ Rewards.FollowsWork s 18 (Chain.signedFor m) ∧
    Chain.signedFor m 1 5 = true := by
  obtain ⟨m, s, h1, h2, h3⟩ := C117_signing (P := exP) ex_sound exP_bytes (paidUpTo 16) (paid_range 16) (paid_apart 16) 18 ⟨1, 11, 5⟩
    (by rw [paid_setup]; rfl) ⟨1, "axl".toList⟩ ⟨100, 1000, ⟨1, 2⟩⟩ 1 (by rw [paid_setup]; rfl)
  refine ⟨m, s, h1, h2, h3, ?_⟩
  have key : (match Chain.deployedWorld exP (paidPlain 16) 18 with
      | some (.multisig m) => Chain.signedFor m 1 5
      | _ => false) = true := by decide +kernel
  rw [paid_world] at h1
  rw [h1] at key
  exact key

/-- `C117_voting` applies: worker 5 voted with the consensus -/
example : ∃ v s, textDeployedWorld exTexture exP (paidUpTo 16) 12 = some (.verifier v) ∧
    textDeployedWorld exTexture exP (paidUpTo 16) 11 = some (.rewards s) ∧ Rewards.FollowsWork s 12 (Chain.agreedIn v) ∧
    Chain.agreedIn v 1 5 = true := by
  obtain ⟨v, s, h1, h2, h3⟩ := C117_voting (P := exP) ex_sound exP_bytes (paidUpTo 16) (paid_range 16) (paid_apart 16)
    (paid_inOrder 16) 12 e2eVerifier (by rw [paid_setup]; rfl) ⟨1, "axl".toList⟩ ⟨100, 1000, ⟨1, 2⟩⟩ 1 (by rw [paid_setup]; rfl)
  refine ⟨v, s, h1, h2, h3, ?_⟩
  have key : (match Chain.deployedWorld exP (paidPlain 16) 12 with
      | some (.verifier v) => Chain.agreedIn v 1 5
      | _ => false) = true := by decide +kernel
  rw [paid_world] at h1
  rw [h1] at key
  exact key

/-- the state of the rewards contract before the request -/
theorem paid_state : ∃ s, Chain.deployedWorld exP (paidPlain 16) 11 = some (.rewards s) ∧ Rewards.epochNum s 250 = some 2 ∧
    Rewards.done s 18 = 0 ∧ Rewards.poolOf s 18 = 5000 ∧ Rewards.dueTotal s 18 0 = 1000 ∧ Rewards.due s 18 5 0 = 1000 := by
  have key : (match Chain.deployedWorld exP (paidPlain 16) 11 with
      | some (.rewards s) => decide (Rewards.epochNum s 250 = some 2 ∧
          Rewards.done s 18 = 0 ∧ Rewards.poolOf s 18 = 5000 ∧ Rewards.dueTotal s 18 0 = 1000 ∧ Rewards.due s 18 5 0 = 1000)
      | _ => false) = true := by decide +kernel
  revert key
  generalize Chain.deployedWorld exP (paidPlain 16) 11 = w
  intro key
  match w, key with
  | some (.rewards s), key => exact ⟨s, rfl, of_decide_eq_true key⟩

/-- `C117_paid` applies: worker 5 is paid 1000 from the pool, which had 5000 -/
example : ∃ s' r, textDeployedWorld exTexture exP (paidUpTo 17) 11 = some (.rewards s') ∧ Rewards.done s' 18 = 1 ∧
    Rewards.paidTo r 5 = 1000 ∧ Rewards.poolOf s' 18 + Rewards.paidOut r = 5000 := by
  have hsucc := paid_succ (n := 16) (tx := paidAsk) rfl
  obtain ⟨s, h1, h2, h3, h4, h5, h6⟩ := paid_state
  obtain ⟨a, b⟩ := C117_paid (P := exP) ex_sound exP_bytes (paidUpTo 16) (written exTexture paidAsk)
    (by rw [← hsucc]; exact paid_range 17) (by rw [← hsucc]; exact paid_apart 17) 11 ⟨1, "axl".toList⟩ ⟨100, 1000, ⟨1, 2⟩⟩ 1
    (by rw [paid_setup]; rfl) 18 none (by intro x h; cases h) [] rfl (by decide) s (by rw [paid_world]; exact h1) 2 h2
    (by rw [h3]; decide) 1 (by rw [h3]; decide)
  obtain ⟨s', r, g1, -, -, g4, g5, -, -, g8, -⟩ := b (a.mpr ⟨by decide, by rw [h3]; decide, by
    rw [h3, h4]
    simp [h5]⟩)
  rw [← hsucc] at g1
  refine ⟨s', r, g1, g4, ?_, by rw [← g8, h4]⟩
  rw [g5 5, h3]
  simp [h6]

end Amp.Wire
