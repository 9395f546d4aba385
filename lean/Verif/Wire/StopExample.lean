import Verif.Wire.StopProps
import Verif.Wire.LeaveExample

/-!
# Concrete cases for C119

The history of `EndToEndExample` until the message was routed; then the admin freezes `eth`, and unfreezes what goes out to it.
-/

namespace Amp.Wire

open Amp.Chain (Entry exP exTx svc eth sui)
open Amp.Router (gatewayAfter frozenAfter)

def stopFreeze : Chain.Tx := exTx 1 8 14 (.router (.freezeChain eth .bidirectional))
def stopUnfreeze : Chain.Tx := exTx 1 9 14 (.router (.unfreezeChain eth .outgoing))

def stopTxs : List Chain.Tx := e2eTxs.take 12 ++ [stopFreeze, stopUnfreeze]

/-- the contracts and the first `n` transactions, as texts -/
def stopUpTo (n : Nat) : List TextStep :=
  e2eOrders.map (fun x => .found x.1 x.2.conf.party 1 (writeOrder exTexture x.2)) ++
    (stopTxs.take n).map (fun tx => .tx (written exTexture tx))

def stopPlain (n : Nat) : List Chain.Step := e2eOrders.map (fun x => .found x.1 (x.2.kind 1)) ++ (stopTxs.take n).map .tx

theorem stop_succ {n : Nat} {tx : Chain.Tx} (h : stopTxs[n]? = some tx) : stopUpTo (n + 1) = stopUpTo n ++ [.tx (written exTexture tx)] := by
  unfold stopUpTo
  rw [List.append_assoc, List.take_add_one, h, List.map_append]
  rfl

theorem stop_range (n : Nat) : ∀ s ∈ stopUpTo n, StepInRange s := by
  intro s hs
  rcases List.mem_append.mp hs with hs | hs
  · obtain ⟨x, -, rfl⟩ := List.mem_map.mp hs
    show (1 : Nat) ≤ u64Max
    decide
  · obtain ⟨tx, htx, rfl⟩ := List.mem_map.mp hs
    have h : ∀ t ∈ stopTxs, t.block.height ≤ u64Max ∧ t.block.time ≤ u64Max ∧ ∀ m ∈ t.msgs, ∀ c ∈ m.2.1, c.2 ≤ u128Max := by
      decide +kernel
    obtain ⟨h1, h2, h3⟩ := h tx (List.mem_of_mem_take htx)
    refine ⟨h1, h2, ?_⟩
    intro m hm
    obtain ⟨m', hm', rfl⟩ := List.mem_map.mp hm
    exact h3 m' hm'

theorem stop_founding (n : Nat) : (stopUpTo n).filterMap (founding exTexture) = e2eOrders.map (fun x => .found x.1 (x.2.kind 1)) := by
  unfold stopUpTo
  rw [List.filterMap_append, List.filterMap_map, List.filterMap_map]
  have h1 : e2eOrders.filterMap (founding exTexture ∘ fun x => .found x.1 x.2.conf.party 1 (writeOrder exTexture x.2)) =
      e2eOrders.map (fun x => .found x.1 (x.2.kind 1)) := by
    refine filterMap_all (fun x hx => ?_)
    show (readOrder exTexture _ _).map _ = _
    rw [e2e_orders x hx]
    rfl
  have h2 : (stopTxs.take n).filterMap (founding exTexture ∘ fun tx => .tx (written exTexture tx)) = [] :=
    List.filterMap_eq_nil_iff.mpr (fun x _ => rfl)
  rw [h1, h2, List.append_nil]

theorem stop_setup (n : Nat) : textSetup exTexture (stopUpTo n) = e2eSetup := by
  funext a
  unfold textSetup e2eSetup
  rw [stop_founding]
  generalize e2eOrders = l
  induction l with
  | nil => rfl
  | cons x t ih =>
    simp only [List.map_cons, Chain.setupOf, List.lookup_cons]
    by_cases hab : a = x.1
    · simp [hab]
    · have : (a == x.1) = false := by simpa using hab
      rw [if_neg hab, this]
      exact ih

theorem stop_read : ∀ tx ∈ stopTxs, ∀ m ∈ tx.msgs,
    (partyAt e2eSetup m.1).bind (fun k => readFor exTexture k (write exTexture m.2.2)) = some m.2.2 := by
  decide +kernel

theorem stop_means {tx : Chain.Tx} (h : tx ∈ stopTxs) : meaning exTexture e2eSetup (written exTexture tx) = tx := by
  have key : tx.msgs.map ((fun m => (m.1, m.2.1, meant exTexture e2eSetup m.1 m.2.2)) ∘
      (fun m => (m.1, m.2.1, write exTexture m.2.2))) = tx.msgs := by
    refine (List.map_congr_left (fun m hm => ?_)).trans (List.map_id _)
    have := stop_read tx h m hm
    show (m.1, m.2.1, meant exTexture e2eSetup m.1 (write exTexture m.2.2)) = m
    have e : meant exTexture e2eSetup m.1 (write exTexture m.2.2) = m.2.2 := by
      unfold partyAt at this
      unfold meant
      cases hs : e2eSetup m.1 with
      | none => rw [hs] at this; cases this
      | some k =>
        rw [hs] at this
        have this : readFor exTexture (party k.init) (write exTexture m.2.2) = some m.2.2 := this
        simp only [this]
    rw [e]
  unfold meaning written
  rw [List.map_map, key]

theorem stop_plain (n : Nat) : steps exTexture (stopUpTo n) = stopPlain n := by
  unfold steps
  rw [stop_setup]
  unfold stopUpTo stopPlain
  rw [List.filterMap_append, List.filterMap_map, List.filterMap_map]
  refine congrArg₂ (· ++ ·) ?_ ?_
  · refine filterMap_all (fun x hx => ?_)
    show (readOrder exTexture _ _).map _ = _
    rw [e2e_orders x hx]
    rfl
  · refine filterMap_all (fun tx htx => ?_)
    show some (Chain.Step.tx (meaning exTexture e2eSetup (written exTexture tx))) = _
    rw [stop_means (List.mem_of_mem_take htx)]

theorem stop_apart (n : Nat) : TextApart exTexture (stopUpTo n) := by
  intro t ht a ha
  have hm : a ∈ e2eOrders.map Prod.fst := by
    rw [stop_setup] at ha
    by_contra h
    refine ha (List.lookup_eq_none_iff.mpr (fun p hp => ?_))
    obtain ⟨x, hx, rfl⟩ := List.mem_map.mp hp
    have : a ≠ x.1 := by rintro rfl; exact h (List.mem_map_of_mem hx)
    simpa using this
  rcases List.mem_append.mp ht with ht | ht
  · obtain ⟨x, -, hx⟩ := List.mem_map.mp ht
    cases hx
  · obtain ⟨tx, htx, hx⟩ := List.mem_map.mp ht
    cases hx
    have h : ∀ tx ∈ stopTxs, ∀ a ∈ e2eOrders.map Prod.fst, tx.sender ≠ a ∧ tx.accepts a = false := by decide +kernel
    exact h tx (List.mem_of_mem_take htx) a hm

theorem stop_world (n : Nat) : textDeployedWorld exTexture exP (stopUpTo n) = Chain.deployedWorld exP (stopPlain n) := by
  rw [(C105_text (P := exP) ex_sound exP_bytes (stopUpTo n) (stop_range n)).1, stop_plain]

theorem stop_log (n : Nat) : textDeployedLog exTexture exP (stopUpTo n) = Chain.deployedLog exP (stopPlain n) := by
  rw [(C105_text (P := exP) ex_sound exP_bytes (stopUpTo n) (stop_range n)).2.1, stop_plain]

set_option maxRecDepth 10000 in
theorem stop_handled : handled 14 (Chain.deployedLog exP (stopPlain 12)) =
    (handled 14 (Chain.deployedLog exP (stopPlain 12))).take 2 ++ (⟨13, .routeMessages [e2eMsg]⟩,
      ⟨[⟨17, [e2eMsg]⟩], [.messageRouted e2eMsg]⟩) :: [] := by decide +kernel

/-- `C119_stopped` applies to the batch that the router routed -/
example : ∃ n, gatewayAfter n ((handled 14 (Chain.deployedLog exP (stopPlain 12))).take 2) = some 13 ∧
    frozenAfter n .incoming ((handled 14 (Chain.deployedLog exP (stopPlain 12))).take 2) = false ∧ e2eMsg.ccId.chain = n := by
  obtain ⟨h1, -⟩ := C119_stopped (P := exP) ex_sound exP_bytes (stopUpTo 12) (stop_range 12) (stop_apart 12) 14 ⟨1, 1, 15⟩
    (by rw [stop_setup]; rfl) _ [] _ _ [e2eMsg] (by rw [stop_log]; exact stop_handled) rfl
  rcases h1 with h1 | ⟨n, h1, h2, h3⟩
  · exact absurd h1 (by decide)
  · exact ⟨n, h1, h2, h3 _ (List.mem_singleton.mpr rfl)⟩

theorem stop_known (n : Nat) (h : n = 12 ∨ n = 13) : (gatewayAfter eth (handled 14 (Chain.deployedLog exP (stopPlain n)))).isSome = true := by
  rcases h with rfl | rfl <;> decide +kernel

/-- `C119_freeze` applies: nothing from `eth` comes in any more, and nothing goes out to it -/
example : ∀ w, frozenAfter eth w (handled 14 (textDeployedLog exTexture exP (stopUpTo 13))) = true := by
  have hsucc := stop_succ (n := 12) (tx := stopFreeze) rfl
  obtain ⟨a, b⟩ := C119_freeze (P := exP) ex_sound exP_bytes (stopUpTo 12) (written exTexture stopFreeze)
    (by rw [← hsucc]; exact stop_range 13) (by rw [← hsucc]; exact stop_apart 13) 14 ⟨1, 1, 15⟩ (by rw [stop_setup]; rfl) eth
    ⟨by decide, by decide, by decide⟩ .bidirectional [] rfl (by decide)
  intro w
  rw [hsucc, b (a.mpr ⟨rfl, by rw [stop_log]; exact stop_known 12 (.inl rfl)⟩) eth w]
  cases w <;> simp [Router.Direction.covers]

/-- `C119_unfreeze` applies: messages go out to `eth` again -/
example : frozenAfter eth .outgoing (handled 14 (textDeployedLog exTexture exP (stopUpTo 14))) = false := by
  have hsucc := stop_succ (n := 13) (tx := stopUnfreeze) rfl
  obtain ⟨a, b⟩ := C119_unfreeze (P := exP) ex_sound exP_bytes (stopUpTo 13) (written exTexture stopUnfreeze)
    (by rw [← hsucc]; exact stop_range 14) (by rw [← hsucc]; exact stop_apart 14) 14 ⟨1, 1, 15⟩ (by rw [stop_setup]; rfl) eth
    ⟨by decide, by decide, by decide⟩ .outgoing [] rfl (by decide)
  rw [hsucc, b (a.mpr ⟨rfl, by rw [stop_log]; exact stop_known 13 (.inr rfl)⟩) eth .outgoing]
  simp [Router.Direction.covers]

end Amp.Wire
