import Verif.Wire.ApiProps
import Verif.Wire.StoredExamples

/-!
# Concrete cases for C106
-/

namespace Amp.Wire.Api

open Amp.Router (asciiLower)

/-! the names that the tests of the package try (`primitives.rs:130-142`) -/

example : ["Ethereum", "ethereum", "a", "terra2", "terra-2", "", "ETHEREUM", "ethereuM", "e2e", "e:e", "polygon-0-1", "A",
    "a-", "-1"].map (fun s => chainName s.toList) =
    [true, true, true, true, true, false, false, false, false, false, false, false, false, false] := by decide +kernel

theorem exNamed : Named "Ethereum".toList := (C106_name _).mp (by decide +kernel)

theorem exNamed2 : Named "terra-2".toList := (C106_name _).mp (by decide +kernel)

example : OnAscii asciiLower := fun _ _ => rfl

example : sameName asciiLower "Ethereum".toList "ethereum".toList = true := by decide +kernel

def exMessage : Message := ⟨"0xab:1".toList, "Ethereum".toList, "0xfrom".toList, "terra-2".toList, "to".toList, List.replicate 32 7⟩

theorem exMessageOk : MessageOk exMessage :=
  ⟨exNamed, by decide, exNamed2, by decide, by intro b hb; rw [(List.mem_replicate.mp hb).2]; decide, rfl⟩

/-! a client asks to freeze a chain; the router reads its name in small letters -/

example : (jsonRouter (.freezeChain "Ethereum".toList .incoming)).render =
    "{\"freeze_chain\":{\"chain\":\"Ethereum\",\"direction\":\"Incoming\"}}".toList := by decide +kernel

example : readFor exTexture .router (jsonRouter (.freezeChain "Ethereum".toList .incoming)).render =
    some (.router (.freezeChain "ethereum".toList .incoming)) := by decide +kernel

example : readFor exTexture .router (jsonRouter (.registerChain "Ethereum".toList "axelar15".toList)).render =
    some (.router (.registerChain "ethereum".toList 5)) := by decide +kernel

example : readFor exTexture .router (jsonRouter (.registerChain "Ethereum".toList "gateway".toList)).render = none := by
  decide +kernel

example : readFor exTexture .router (jsonRouter (.routeMessages [])).render = some (.route []) := by decide +kernel

/-! a client asks to route a message; the router does not read it, the client's own library does -/

example : readFor exTexture .router (jsonRouter (.routeMessages [exMessage])).render = none := by decide +kernel

example : (fromStr exTexture.finite (jsonGateway (.verifyMessages [exMessage])).render).bind readGateway =
    some (.verifyMessages [exMessage]) := by decide +kernel

example : RouterOk (.routeMessages [exMessage]) := by
  intro m hm
  rw [List.mem_singleton.mp hm]
  exact exMessageOk

end Amp.Wire.Api
