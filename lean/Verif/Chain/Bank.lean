import Verif.Chain.Model

/-!
# All contracts together, with the bank

The coins attached to a message are moved before the call, the bank messages of a response
(`service-registry/src/contract.rs:317-325`, `rewards/src/contract.rs:95-106`) after it.  If a movement fails, the
whole transaction fails.  Balances of contracts at the beginning are arbitrary.
-/

namespace Amp.Chain

open Amp.Registry (Coin)

/-- the balances kept by the bank module: account, denomination, amount -/
abbrev Bank := Addr → Str → Nat

/-- why the bank module refuses to move a coin -/
inductive MoveErr
  | zeroAmount
  | insufficient
  deriving DecidableEq, Repr

def Bank.add (B : Bank) (a : Addr) (c : Coin) : Bank :=
  fun x d => if x = a ∧ d = c.1 then B x d + c.2 else B x d

def Bank.sub (B : Bank) (a : Addr) (c : Coin) : Bank :=
  fun x d => if x = a ∧ d = c.1 then B x d - c.2 else B x d

/-- The bank module moves a coin from `src` to `dst`.  `zero` tells whether it lets zero amounts pass (the Cosmos
SDK has done either). -/
def Bank.move (zero : Bool) (B : Bank) (src dst : Addr) (c : Coin) : Except MoveErr Bank :=
  if c.2 = 0 then
    if zero then .ok B else .error .zeroAmount
  else if B src c.1 < c.2 then .error .insufficient
  else .ok ((B.sub src c).add dst c)

/-- one movement after the other, all from `src` -/
def Bank.moveAll (zero : Bool) (B : Bank) (src : Addr) : List (Addr × Coin) → Except MoveErr Bank
  | [] => .ok B
  | (dst, c) :: t =>
    match B.move zero src dst c with
    | .error e => .error e
    | .ok B' => B'.moveAll zero src t

/-- the bank messages of a response -/
def Act.sends : Act → List (Addr × Coin)
  | .registry _ r => r.sends
  | .rewards _ r => r.sends
  | _ => []

/-- the contracts pay what their responses say -/
def payAll (zero : Bool) (B : Bank) : List Entry → Except MoveErr Bank
  | [] => .ok B
  | e :: t =>
    match B.moveAll zero e.p.target e.act.sends with
    | .error x => .error x
    | .ok B' => payAll zero B' t

/-- why a transaction fails: a call fails, the sender does not have the coins it attaches, a contract cannot pay
what its response says, the gas is used up, the sender is a contract -/
inductive Why
  | call
  | funds
  | payment (e : MoveErr)
  | gas
  | sender
  deriving DecidableEq, Repr

/-- one message is delivered, with the coins attached and paid (`deliver`) -/
def deliverB (P : Params) (zero : Bool) (b : Block) (w : World) (B : Bank) (p : Pending) :
    Except Why (World × Bank × List Entry × List Pending) :=
  match B.moveAll zero p.sender (p.funds.map (fun c => (p.target, c))) with
  | .error _ => .error .funds
  | .ok B1 =>
    match deliver P b w p with
    | .error _ => .error .call
    | .ok (w', es, out) =>
      match payAll zero B1 es with
      | .error e => .error (.payment e)
      | .ok B2 => .ok (w', B2, es, out)

/-- `run` with balances -/
def runB (P : Params) (zero : Bool) (b : Block) (accepts : Addr → Bool) :
    Nat → World → Bank → List Pending → Except Why (World × Bank × List Entry)
  | _, w, B, [] => .ok (w, B, [])
  | 0, _, _, _ :: _ => .error .gas
  | n + 1, w, B, p :: rest =>
    if (w p.target).isNone ∧ accepts p.target = true then
      match B.moveAll zero p.sender (p.funds.map (fun c => (p.target, c))) with
      | .error _ => .error .funds
      | .ok B1 => runB P zero b accepts n w B1 rest
    else
      match deliverB P zero b w B p with
      | .error e => .error e
      | .ok (w', B', es, out) =>
        match runB P zero b accepts n w' B' (out ++ rest) with
        | .error e => .error e
        | .ok (w'', B'', es') => .ok (w'', B'', es ++ es')

/-- `exec` with balances -/
def execB (P : Params) (zero : Bool) (w : World) (B : Bank) (tx : Tx) : Except Why (World × Bank × List Entry) :=
  if (w tx.sender).isSome then .error .sender
  else runB P zero tx.block tx.accepts tx.gas w B (tx.msgs.map (fun m => ⟨tx.sender, m.1, m.2.1, m.2.2⟩))

/-- what happens on the chain: transactions to contracts, and transfers, minting and burning of coins -/
inductive Op
  | tx (t : Tx)
  | transfer (src dst : Addr) (c : Coin)
  | mint (dst : Addr) (c : Coin)
  | burn (src : Addr) (c : Coin)

/-- contracts do not transfer or burn coins, other than by their responses -/
def execOp (P : Params) (zero : Bool) (s : World × Bank) : Op → Except Why ((World × Bank) × List Entry)
  | .tx t =>
    match execB P zero s.1 s.2 t with
    | .error e => .error e
    | .ok (w, B, es) => .ok ((w, B), es)
  | .transfer src dst c =>
    if (s.1 src).isSome then .error .sender
    else
      match s.2.move zero src dst c with
      | .error _ => .error .funds
      | .ok B => .ok ((s.1, B), [])
  | .mint dst c => .ok ((s.1, s.2.add dst c), [])
  | .burn src c =>
    if (s.1 src).isSome then .error .sender
    else if s.2 src c.1 < c.2 then .error .funds
    else .ok ((s.1, s.2.sub src c), [])

/-- contracts and balances after a history that starts with balances `B` -/
def bankedAfter (P : Params) (zero : Bool) (setup : Setup) (B : Bank) (ops : List Op) : World × Bank :=
  runCalls (execOp P zero) (genesis setup, B) ops

/-- the delivered messages of such a history -/
def bankedLog (P : Params) (zero : Bool) (setup : Setup) (B : Bank) (ops : List Op) : List Entry :=
  (outs (execOp P zero) (genesis setup, B) ops).flatMap Prod.snd

end Amp.Chain
