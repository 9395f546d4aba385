import Verif.Wire.TextChainLemmas
import Verif.Chain.Structure

/-!
# C95: messages between contracts survive being written and read

The chain of `Chain/Model.lean` hands typed messages from contract to contract.  Here they are the JSON texts they are on
the real chain, and it makes no difference.
-/

namespace Amp.Wire

open Amp.Router (ChainName Lowering CCId Message)
open Amp.Chain (Msg Params Block World Store Setup Pending Entry Tx Act)

variable {G : Texture} {P : Params} {setup : Setup}

/-- C95: what is written as text is read by each kind of contract exactly as it was meant if it is for that kind of
contract, and refused if it is not. -/
theorem C95_read (hG : Sound G) (m : Msg) (h : Typed G.L m) (p : Party) :
    readFor G p (write G m) = understood p m := readFor_write hG h p

/-- C95: whatever a text says, what a contract reads is of its type and is one of its own messages. -/
theorem C95_typed (p : Party) (t : Str) (m : Msg) (h : readFor G p t = some m) :
    Typed G.L m ∧ understood p m = some m := readFor_typed h

/-- C95: two messages with the same text are the same message, or both are the `RouteMessages` of the same messages. -/
theorem C95_distinct (hG : Sound G) (m m' : Msg) (h : Typed G.L m) (h' : Typed G.L m') (e : write G m = write G m') :
    m = m' ∨ ∃ ms, routed m = some ms ∧ routed m' = some ms := by
  have key : ∀ p, understood p m = understood p m' := fun p => by
    rw [← readFor_write hG h p, ← readFor_write hG h' p, e]
  cases hr : routed m with
  | some ms =>
    right
    refine ⟨ms, rfl, ?_⟩
    have := key .gateway
    simp only [understood, hr] at this
    cases hr' : routed m' with
    | some ms' =>
      rw [hr'] at this
      simp only [Option.some.injEq, Msg.route.injEq] at this
      rw [this]
    | none =>
      rw [hr'] at this
      cases m' <;> simp at this
  | none =>
    left
    cases hr' : routed m' with
    | some ms' =>
      have := key .gateway
      simp only [understood, hr, hr'] at this
      cases m <;> simp at this
    | none =>
      cases m with
      | verifier x => have := key .verifier; cases m' <;> simp_all [understood]
      | gateway x => have := key .gateway; cases m' <;> simp_all [understood]
      | router x => have := key .router; cases m' <;> simp_all [understood]
      | nexus x => have := key .nexus; cases m' <;> simp_all [understood]
      | registry x => have := key .registry; cases m' <;> simp_all [understood]
      | rewards x => have := key .rewards; cases m' <;> simp_all [understood]
      | multisig x => have := key .multisig; cases m' <;> simp_all [understood]
      | prover x => have := key .prover; cases m' <;> simp_all [understood]
      | route ms => simp [routed] at hr

/-! ### Histories -/

/-- the kinds of contracts -/
def partyAt (setup : Setup) (a : Addr) : Option Party := (setup a).map (fun k => party k.init)

theorem parties_genesis (setup : Setup) : Parties (Chain.genesis setup) (partyAt setup) := by
  intro a
  unfold Chain.genesis partyAt
  cases setup a <;> rfl

theorem typed_genesis {L : Lowering} (h : SetupTyped L setup) : WorldTyped L (Chain.genesis setup) := by
  intro a s hs
  unfold Chain.genesis at hs
  cases hk : setup a with
  | none => rw [hk] at hs; cases hs
  | some k =>
    rw [hk] at hs
    simp only [Option.map_some, Option.some.injEq] at hs
    rw [← hs]
    cases k with
    | multisig cfg =>
      refine ⟨fun b k hb => ?_, fun i ws hb => ?_, fun i ws hb => ?_, fun i se hb => ?_, fun i x sig hb => ?_⟩
      · cases hb
      · cases hb
      · cases hb
      · cases hb
      · cases hb
    | prover cfg sv kt =>
      exact ⟨h.1 a cfg sv kt hk, fun ws hws => by cases hws⟩
    | verifier cfg => exact h.2 a cfg hk
    | gateway cfg => intro i m hm; cases hm
    | registry cfg => intro n b x hx; cases hx
    | _ => trivial

theorem noise_none (p : Party) : understood p (noise p) = none := by cases p <;> rfl

theorem says_meaning (t : TextTx) (hb : InRange t) : TxSays G (partyAt setup) t (meaning G setup t) := by
  refine ⟨rfl, rfl, rfl, rfl, ?_⟩
  have hf := hb.funds
  unfold meaning
  rw [List.map_map]
  revert hf
  generalize t.msgs = l
  intro hf
  induction l with
  | nil => exact List.Forall₂.nil
  | cons m rest ih =>
    refine List.Forall₂.cons ⟨rfl, rfl, rfl, hf m (List.mem_cons_self ..), ?_⟩
      (ih (fun x hx => hf x (List.mem_cons_of_mem _ hx)))
    intro k hk
    show readFor G k m.2.2 = some (meant G setup m.1 m.2.2) ∨
      (readFor G k m.2.2 = none ∧ understood k (meant G setup m.1 m.2.2) = none)
    have hk : partyAt setup m.1 = some k := hk
    unfold partyAt at hk
    unfold meant
    cases hs : setup m.1 with
    | none => rw [hs] at hk; cases hk
    | some kd =>
      rw [hs] at hk
      simp only [Option.map_some, Option.some.injEq] at hk
      subst hk
      dsimp only
      cases hr : readFor G (party kd.init) m.2.2 with
      | some x => exact Or.inl rfl
      | none => exact Or.inr ⟨rfl, noise_none _⟩

theorem forall₂_map {A B : Type} {R : A → B → Prop} {f : A → B} (l : List A) (h : ∀ a ∈ l, R a (f a)) :
    List.Forall₂ R l (l.map f) := by
  induction l with
  | nil => exact List.Forall₂.nil
  | cons a t ih =>
    exact List.Forall₂.cons (h a (List.mem_cons_self ..)) (ih (fun x hx => h x (List.mem_cons_of_mem _ hx)))

/-- C95: with messages as text, every history of transactions, whatever their texts, goes exactly as it goes for the typed
messages that the texts stand for: the same calls succeed, with the same effects, and storage is the same. -/
theorem C95_history (hG : Sound G) (hX : ∀ b, IsBytes (P.X.keccak b)) (hs : SetupTyped G.L setup) (ts : List TextTx)
    (hb : ∀ t ∈ ts, InRange t) :
    textWorldAfter G P setup ts = Chain.worldAfter P setup (ts.map (meaning G setup)) ∧
      textLog G P setup ts = Chain.log P setup (ts.map (meaning G setup)) :=
  have h := history_same (P := P) hG hX (forall₂_map ts (fun t ht => says_meaning t (hb t ht))) (parties_genesis setup) (typed_genesis hs) hb
  ⟨h.1, h.2.1⟩

/-- C95: in every such history, whatever is delivered is of its type: chain names are valid, numbers in range and binary data
bytes, without any contract checking it. -/
theorem C95_delivered (hG : Sound G) (hX : ∀ b, IsBytes (P.X.keccak b)) (hs : SetupTyped G.L setup) (ts : List TextTx)
    (hb : ∀ t ∈ ts, InRange t) (e : Entry) (he : e ∈ textLog G P setup ts) : Typed G.L e.p.msg :=
  ((history_same (P := P) hG hX (forall₂_map ts (fun t ht => says_meaning (setup := setup) t (hb t ht))) (parties_genesis setup)
    (typed_genesis hs) hb).2.2 e he).1

/-- C95: in every such history, what a contract sends is read as it was meant by every contract it is for. -/
theorem C95_sent (hG : Sound G) (hX : ∀ b, IsBytes (P.X.keccak b)) (hs : SetupTyped G.L setup) (ts : List TextTx)
    (hb : ∀ t ∈ ts, InRange t) (e : Entry) (he : e ∈ textLog G P setup ts) (a : Addr) (m : Msg)
    (ho : (a, m) ∈ e.act.outs) (p : Party) (hp : understood p m ≠ none) : readFor G p (write G m) = some m := by
  have h := (history_same (P := P) hG hX (forall₂_map ts (fun t ht => says_meaning (setup := setup) t (hb t ht))) (parties_genesis setup)
    (typed_genesis hs) hb).2.2 e he
  obtain ⟨ht, hc⟩ := h.2 (a, m) ho
  rw [readFor_write hG ht p]
  rcases hc p with h0 | h1
  · exact absurd h0 hp
  · exact h1

/-- C95: conversely, every history of typed messages is what happens to the texts they are written as.  (`RouteMessages` is
written the same for every contract and is to be given as `route`.) -/
theorem C95_written (hG : Sound G) (hX : ∀ b, IsBytes (P.X.keccak b)) (hs : SetupTyped G.L setup) (txs : List Tx)
    (hb : ∀ tx ∈ txs, InRange (written G tx))
    (ht : ∀ tx ∈ txs, ∀ m ∈ tx.msgs, Typed G.L m.2.2 ∧ ∀ ms, routed m.2.2 = some ms → m.2.2 = .route ms) :
    textWorldAfter G P setup (txs.map (written G)) = Chain.worldAfter P setup txs ∧
      textLog G P setup (txs.map (written G)) = Chain.log P setup txs := by
  have canon : ∀ m : Msg, (∀ ms, routed m = some ms → m = .route ms) → Canon m := by
    intro m hm p
    cases hr : routed m with
    | some ms => rw [hm ms hr]; exact canon_route ms p
    | none => cases p <;> cases m <;> simp_all [understood]
  have key : List.Forall₂ (TxSays G (partyAt setup)) (txs.map (written G)) txs := by
    induction txs with
    | nil => exact List.Forall₂.nil
    | cons tx rest ih =>
      refine List.Forall₂.cons ⟨rfl, rfl, rfl, rfl, ?_⟩ (ih (fun x hx => hb x (List.mem_cons_of_mem _ hx))
        (fun x hx => ht x (List.mem_cons_of_mem _ hx)))
      have ht := ht tx (List.mem_cons_self ..)
      have hf : ∀ m ∈ tx.msgs, CoinsFit m.2.1 := fun m hm =>
        (hb tx (List.mem_cons_self ..)).funds _ (List.mem_map.mpr ⟨m, hm, rfl⟩)
      unfold written
      rw [List.map_map]
      dsimp only
      revert ht hf
      generalize tx.msgs = l
      intro ht hf
      induction l with
      | nil => exact List.Forall₂.nil
      | cons m l ihl =>
        refine List.Forall₂.cons ⟨rfl, rfl, rfl, hf m (List.mem_cons_self ..), ?_⟩
          (ihl (fun x hx => ht x (List.mem_cons_of_mem _ hx)) (fun x hx => hf x (List.mem_cons_of_mem _ hx)))
        intro k _
        obtain ⟨h1, h2⟩ := ht m (List.mem_cons_self ..)
        show readFor G k (write G m.2.2) = some m.2.2 ∨ (readFor G k (write G m.2.2) = none ∧ understood k m.2.2 = none)
        rw [readFor_write hG h1 k]
        rcases canon m.2.2 h2 k with h0 | h0
        · exact Or.inr ⟨h0, h0⟩
        · exact Or.inl h0
  have h := history_same (P := P) hG hX key (parties_genesis setup) (typed_genesis hs) (fun t ht => by
    obtain ⟨tx, htx, rfl⟩ := List.mem_map.mp ht
    exact hb tx htx)
  exact ⟨h.1, h.2.1⟩

end Amp.Wire
