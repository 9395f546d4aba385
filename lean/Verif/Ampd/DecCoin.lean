import Verif.Base.Strings

/-!
# `ampd/src/broadcaster/dec_coin.rs`: the gas price

`f64` is a parameter: its values, which are finite, how they are parsed and how they are displayed.  `char::is_numeric` and
`char::is_alphabetic` (Unicode) are parameters too.
-/

namespace Amp.Ampd.DecCoin

/-- what is used of the standard library -/
structure Lib (F : Type) where
  /-- `str::parse::<f64>` -/
  parse : Str → Option F
  /-- neither NaN nor infinite -/
  finite : F → Bool
  /-- `Display for f64` -/
  text : F → Str
  numeric : Char → Bool
  alphabetic : Char → Bool

/-- `dec_coin.rs:16-24` (`Error`) -/
inductive Err
  | parsingFailed
  | amountIsNaN
  | denomIsEmpty
  deriving DecidableEq, Repr

/-- `dec_coin.rs:26-31` (`DecCoin`) -/
structure DecCoin (F : Type) where
  denom : Str
  amount : F
  deriving DecidableEq

variable {F : Type} (L : Lib F)

/-- `dec_coin.rs:114-121` (`TryFrom<f64> for FiniteAmount`) -/
def finiteAmount (x : F) : Except Err F := if L.finite x then .ok x else .error .amountIsNaN

/-- `dec_coin.rs:123-130` (`FromStr for FiniteAmount`) -/
def parseAmount (s : Str) : Except Err F :=
  match L.parse s with
  | none => .error .parsingFailed
  | some x => finiteAmount L x

/-- characters that denominations are made of (`cosmrs::Denom::from_str`, not part of `/repo`) -/
def denomChar (c : Char) : Bool := c.isAlphanum || c = '/'

/-- `dec_coin.rs:158-174` (`TryFrom<cosmrs::Denom>`, `FromStr for Denom`) -/
def parseDenom (s : Str) : Except Err Str :=
  if s.all denomChar then (if s = [] then .error .denomIsEmpty else .ok s) else .error .parsingFailed

/-- `dec_coin.rs:33-40` (`new`): the amount is looked at first -/
def new (x : F) (denom : Str) : Except Err (DecCoin F) :=
  match finiteAmount L x, parseDenom denom with
  | .error e, _ => .error e
  | _, .error e => .error e
  | .ok x, .ok d => .ok ⟨d, x⟩

/-- `dec_coin.rs:42-59` (`TryFrom<proto::DecCoin>`) -/
def ofProto (denom amount : Str) : Except Err (DecCoin F) :=
  match parseAmount L amount, parseDenom denom with
  | .error e, _ => .error e
  | _, .error e => .error e
  | .ok x, .ok d => .ok ⟨d, x⟩

/-- `dec_coin.rs:94-101` (`From<&DecCoin> for proto::DecCoin`): denomination and amount -/
def toProto (c : DecCoin F) : Str × Str := (c.denom, L.text c.amount)

/-- `str::find` of a character -/
def find (p : Char → Bool) : Str → Option Nat
  | [] => none
  | c :: t => if p c then some 0 else (find p t).map (· + 1)

/-- `dec_coin.rs:76-92` (`TryFrom<&str>`); the denomination is looked at first.  Positions count characters, not bytes: only
whether the first is 0 matters, and where to split. -/
def ofText (s : Str) : Except Err (DecCoin F) :=
  match find L.numeric s, find L.alphabetic s with
  | some 0, some i =>
    match parseDenom (s.drop i), parseAmount L (s.take i) with
    | .error e, _ => .error e
    | _, .error e => .error e
    | .ok d, .ok x => .ok ⟨d, x⟩
  | _, _ => .error .parsingFailed

/-- `dec_coin.rs:103-108` (`Display for DecCoin`) -/
def toText (c : DecCoin F) : Str := L.text c.amount ++ c.denom

end Amp.Ampd.DecCoin
