import Verif.Periphery.Exec
/-!
# Simulation queries of the periphery

Models `/repo/contracts/periphery/src/query.rs`.
-/

namespace Ibcx.Periphery
open Ibcx Ibcx.Pool Ibcx.Core

/-- The four responses, `/repo/packages/interface/src/periphery.rs:168-194`, which have the same shape. -/
structure SimResp where
  amount : Nat
  coins : List Coin
  swapResult : Coin
deriving DecidableEq, Repr

/-- `simulate_mint_exact_amount_in`, `/repo/contracts/periphery/src/query.rs:13-45`. -/
def simMintExactIn (p : PEnv) (coreAddr : Addr) (input : Coin) (infos : List SwapInfo) : Res SimResp := do
  let core ← findCore p coreAddr
  let fee ← getFee core p.env none
  let portfolio ← getPortfolio core p.env none
  let sim ← makeSim p infos portfolio.units
  let (res, _) ← estIndexForInput sim input none none
  let rate ← expandFee fee.mintFee
  let a ← mulInt rate res.index
  let amount ← sub a 100
  let coins ← basketCoins portfolio.units amount
  .ok { amount := amount, coins := coins, swapResult := ⟨input.denom, res.spent⟩ }

/-- `simulate_mint_exact_amount_out`, `/repo/contracts/periphery/src/query.rs:47-79`. -/
def simMintExactOut (p : PEnv) (coreAddr : Addr) (index : Nat) (input : Denom) (infos : List SwapInfo) :
    Res SimResp := do
  let core ← findCore p coreAddr
  let fee ← getFee core p.env none
  let portfolio ← getPortfolio core p.env none
  let sim ← makeSim p infos portfolio.units
  let rate ← deductFee fee.mintFee
  let amount ← mulInt rate index
  let coins ← basketCoins portfolio.units amount
  let (total, _) ← tokenGivenIndexOut sim amount input
  .ok { amount := amount, coins := coins, swapResult := ⟨input, total⟩ }

/-- `simulate_burn_exact_amount_in`, `/repo/contracts/periphery/src/query.rs:81-113`. -/
def simBurnExactIn (p : PEnv) (coreAddr : Addr) (index : Nat) (output : Denom) (infos : List SwapInfo) :
    Res SimResp := do
  let core ← findCore p coreAddr
  let fee ← getFee core p.env none
  let portfolio ← getPortfolio core p.env none
  let sim ← makeSim p infos portfolio.units
  let rate ← deductFee fee.burnFee
  let amount ← mulInt rate index
  let coins ← basketCoins portfolio.units amount
  let (total, _) ← tokenGivenIndexIn sim amount output
  .ok { amount := amount, coins := coins, swapResult := ⟨output, total⟩ }

/-- `simulate_burn_exact_amount_out`, `/repo/contracts/periphery/src/query.rs:115-147`. -/
def simBurnExactOut (p : PEnv) (coreAddr : Addr) (output : Coin) (infos : List SwapInfo) : Res SimResp := do
  let core ← findCore p coreAddr
  let fee ← getFee core p.env none
  let portfolio ← getPortfolio core p.env none
  let sim ← makeSim p infos portfolio.units
  let (res, _) ← estIndexForOutput sim output none none
  let rate ← expandFee fee.burnFee
  let amount ← mulInt rate res.index
  let coins ← basketCoins portfolio.units amount
  .ok { amount := amount, coins := coins, swapResult := ⟨output.denom, res.received⟩ }

end Ibcx.Periphery
