import Verif.Json.ContractQuery
import Verif.Json.Pools
import Verif.Chain.ZapWorld
/-!
# The periphery contract as the chain runs it

The handlers of `Verif/Periphery` with bytes at every border: the message, the questions to the core contract and its answers,
the answers about pools, and the calls of contracts that are sent.  Simplified: the contract's own balance
(`/repo/contracts/periphery/src/execute.rs:322`) is a number and not read from a text.
-/

namespace Ibcx.Json
open Ibcx Ibcx.Pool Ibcx.Core Ibcx.Periphery Ibcx.Chain
open Ibcx.Storage (Bytes Raw textBytes)

/-- What the contract can ask: block and address validation, the pools (`/repo/packages/pool/src/query.rs:9-40`), other contracts
with `WasmQuery::Smart` (`/repo/packages/interface/src/helpers/core.rs:53-61`), and its own balance. -/
structure ByteEnv where
  env : Env
  pool : Nat → Res Bytes
  smart : Addr → Bytes → Res Bytes
  balance : Denom → Nat

/-- Messages of the periphery, those to contracts with their text: `WasmMsg::Execute`,
`/repo/packages/interface/src/helpers/core.rs:32-45`, `/repo/contracts/periphery/src/execute.rs:50-57`. -/
inductive WMsg where
  | chain (m : Msg)
  | wasm (addr : Addr) (text : Bytes) (funds : List Coin)
deriving DecidableEq, Repr

/-- `querier.query` of a `WasmQuery::Smart`, `/repo/packages/interface/src/helpers/core.rs:47-99`. -/
def askCore {α : Type} (p : ByteEnv) (addr : Addr) (q : CoreQuery) (c : Codec α) : Res α := do
  let b ← p.smart addr (coreQuery.toText q)
  readMsg c b

/-- `Simulator::new` with the pools of the routes, `/repo/contracts/periphery/src/execute.rs:31-35` and its copies. -/
def byteSim (p : ByteEnv) (infos : List SwapInfo) (units : Core.Units) : Res Simulator := do
  let pools ← queryRawPools p.pool (fun v => (fromUtf8 v).isSome) readPool (extractPoolIds infos)
  .ok { env := p.env, pools := pools, swapInfo := infos, units := units }

/-- `IbcCore::call_with_funds`, `/repo/packages/interface/src/helpers/core.rs:32-45`. -/
def coreMsg (addr : Addr) (msg : Core.ExecMsg) (funds : List Coin) : WMsg := .wasm addr (callCore msg) funds

/-- The call to itself, `/repo/contracts/periphery/src/execute.rs:50-57`, and its copies. -/
def finishMsg (p : ByteEnv) (refundTo : Addr) (asset : Denom) : WMsg :=
  .wasm p.env.contract (zapExecute.toText (.finishOperation refundTo asset)) []

/-! ## Handlers -/

/-- `mint_exact_amount_in`, `/repo/contracts/periphery/src/execute.rs:12-90`. -/
def byteMintExactIn (p : ByteEnv) (info : Info) (coreAddr : Addr) (denom : Denom) (minIndex : Nat)
    (infos : List SwapInfo) : Res (List WMsg) := do
  let addr ← validate p.env coreAddr
  let coreFee ← askCore p addr (.getFee none) fee
  let _ ← askCore p addr (.getConfig none) configResp
  let portfolio ← askCore p addr (.getPortfolio none) portfolioResp
  let paid ← mustPay info denom
  let sim ← byteSim p infos portfolio.units
  let (_, est) ← estIndexForInput sim ⟨denom, paid⟩ (some minIndex) (some minIndex)
  match est with
  | none => .error .panic
  | some est => do
    let budget ← add est.spent 10000
    let swaps ← inMsgs est.routes p.env.contract budget
    let funds ← basketCoins portfolio.units est.index
    let rate ← deductFee coreFee.mintFee
    let _ ← mulInt rate est.index
    .ok (swaps.map WMsg.chain ++
      [coreMsg addr (.mint est.index (some info.sender) (some info.sender)) funds, finishMsg p info.sender denom])

/-- `mint_exact_amount_out`, `/repo/contracts/periphery/src/execute.rs:92-162`. -/
def byteMintExactOut (p : ByteEnv) (info : Info) (coreAddr : Addr) (index : Nat) (denom : Denom)
    (infos : List SwapInfo) : Res (List WMsg) := do
  let addr ← validate p.env coreAddr
  let coreFee ← askCore p addr (.getFee none) fee
  let _ ← askCore p addr (.getConfig none) configResp
  let portfolio ← askCore p addr (.getPortfolio none) portfolioResp
  let paid ← mustPay info denom
  let sim ← byteSim p infos portfolio.units
  let (total, routes) ← tokenGivenIndexOut sim index denom
  let _ ← sub paid total
  let swaps ← inMsgs routes p.env.contract paid
  let funds ← basketCoins portfolio.units index
  let rate ← deductFee coreFee.mintFee
  let _ ← mulInt rate index
  .ok (swaps.map WMsg.chain ++
    [coreMsg addr (.mint index (some info.sender) (some info.sender)) funds, finishMsg p info.sender denom])

/-- `burn_exact_amount_in`, `/repo/contracts/periphery/src/execute.rs:164-223`. -/
def byteBurnExactIn (p : ByteEnv) (info : Info) (coreAddr : Addr) (output : Denom) (minOutput : Nat)
    (infos : List SwapInfo) : Res (List WMsg) := do
  let addr ← validate p.env coreAddr
  let coreFee ← askCore p addr (.getFee none) fee
  let config ← askCore p addr (.getConfig none) configResp
  let portfolio ← askCore p addr (.getPortfolio none) portfolioResp
  let paid ← mustPay info config.indexDenom
  let sim ← byteSim p infos portfolio.units
  let rate ← deductFee coreFee.burnFee
  let burnt ← mulInt rate paid
  let (_, routes) ← tokenGivenIndexIn sim burnt output
  let swaps ← outMsgs routes p.env.contract minOutput
  .ok (coreMsg addr (.burn none) [⟨config.indexDenom, paid⟩] :: (swaps.map WMsg.chain ++
    [finishMsg p info.sender output]))

/-- `burn_exact_amount_out`, `/repo/contracts/periphery/src/execute.rs:225-306`. -/
def byteBurnExactOut (p : ByteEnv) (info : Info) (coreAddr : Addr) (desired : Coin)
    (infos : List SwapInfo) : Res (List WMsg) := do
  let addr ← validate p.env coreAddr
  let coreFee ← askCore p addr (.getFee none) fee
  let config ← askCore p addr (.getConfig none) configResp
  let portfolio ← askCore p addr (.getPortfolio none) portfolioResp
  let paid ← mustPay info config.indexDenom
  let sim ← byteSim p infos portfolio.units
  let (min, _) ← estIndexForOutput sim desired (some paid) (some paid)
  let rate ← expandFee coreFee.burnFee
  let burn1 ← mulInt rate min.index
  let burn ← sub burn1 1
  require (¬ paid < burn) .tradeAmountExceeded
  let rate' ← deductFee coreFee.burnFee
  let burnt ← mulInt rate' burn
  let (total, routes) ← tokenGivenIndexIn sim burnt desired.denom
  let swaps ← outMsgs routes p.env.contract total
  .ok (coreMsg addr (.burn none) [⟨config.indexDenom, burn⟩] :: (swaps.map WMsg.chain ++
    [finishMsg p info.sender config.indexDenom, finishMsg p info.sender desired.denom]))

/-- `finish_operation`, `/repo/contracts/periphery/src/execute.rs:308-335`. -/
def byteFinishOperation (p : ByteEnv) (info : Info) (refundTo : Addr) (asset : Denom) : Res (List WMsg) := do
  require (info.sender = p.env.contract) .panic
  let _ ← validate p.env refundTo
  .ok [.chain (.send refundTo [⟨asset, p.balance asset⟩])]

/-! ## Simulations -/

/-- `simulate_mint_exact_amount_in`, `/repo/contracts/periphery/src/query.rs:13-45`. -/
def byteSimMintExactIn (p : ByteEnv) (coreAddr : Addr) (input : Coin) (infos : List SwapInfo) : Res SimResp := do
  let addr ← validate p.env coreAddr
  let coreFee ← askCore p addr (.getFee none) fee
  let portfolio ← askCore p addr (.getPortfolio none) portfolioResp
  let sim ← byteSim p infos portfolio.units
  let (res, _) ← estIndexForInput sim input none none
  let rate ← expandFee coreFee.mintFee
  let a ← mulInt rate res.index
  let amount ← sub a 100
  let coins ← basketCoins portfolio.units amount
  .ok { amount := amount, coins := coins, swapResult := ⟨input.denom, res.spent⟩ }

/-- `simulate_mint_exact_amount_out`, `/repo/contracts/periphery/src/query.rs:47-79`. -/
def byteSimMintExactOut (p : ByteEnv) (coreAddr : Addr) (index : Nat) (input : Denom) (infos : List SwapInfo) :
    Res SimResp := do
  let addr ← validate p.env coreAddr
  let coreFee ← askCore p addr (.getFee none) fee
  let portfolio ← askCore p addr (.getPortfolio none) portfolioResp
  let sim ← byteSim p infos portfolio.units
  let rate ← deductFee coreFee.mintFee
  let amount ← mulInt rate index
  let coins ← basketCoins portfolio.units amount
  let (total, _) ← tokenGivenIndexOut sim amount input
  .ok { amount := amount, coins := coins, swapResult := ⟨input, total⟩ }

/-- `simulate_burn_exact_amount_in`, `/repo/contracts/periphery/src/query.rs:81-113`. -/
def byteSimBurnExactIn (p : ByteEnv) (coreAddr : Addr) (index : Nat) (output : Denom) (infos : List SwapInfo) :
    Res SimResp := do
  let addr ← validate p.env coreAddr
  let coreFee ← askCore p addr (.getFee none) fee
  let portfolio ← askCore p addr (.getPortfolio none) portfolioResp
  let sim ← byteSim p infos portfolio.units
  let rate ← deductFee coreFee.burnFee
  let amount ← mulInt rate index
  let coins ← basketCoins portfolio.units amount
  let (total, _) ← tokenGivenIndexIn sim amount output
  .ok { amount := amount, coins := coins, swapResult := ⟨output, total⟩ }

/-- `simulate_burn_exact_amount_out`, `/repo/contracts/periphery/src/query.rs:115-147`. -/
def byteSimBurnExactOut (p : ByteEnv) (coreAddr : Addr) (output : Coin) (infos : List SwapInfo) : Res SimResp := do
  let addr ← validate p.env coreAddr
  let coreFee ← askCore p addr (.getFee none) fee
  let portfolio ← askCore p addr (.getPortfolio none) portfolioResp
  let sim ← byteSim p infos portfolio.units
  let (res, _) ← estIndexForOutput sim output none none
  let rate ← expandFee coreFee.burnFee
  let amount ← mulInt rate res.index
  let coins ← basketCoins portfolio.units amount
  .ok { amount := amount, coins := coins, swapResult := ⟨output.denom, res.received⟩ }

/-! ## Entry points -/

/-- `execute`, `/repo/contracts/periphery/src/contract.rs:23-92`, on a message that has been read. -/
def byteExecute (p : ByteEnv) (info : Info) : PExecMsg → Res (List WMsg)
  | .mintExactIn core input min si => do
    let infos ← parseInfos si
    byteMintExactIn p info core input min infos
  | .mintExactOut core output input si => do
    let infos ← parseInfos si
    byteMintExactOut p info core output input infos
  | .burnExactIn core output min si => do
    let infos ← parseInfos si
    byteBurnExactIn p info core output min infos
  | .burnExactOut core output si => do
    let infos ← parseInfos si
    byteBurnExactOut p info core output infos
  | .finishOperation refundTo asset => byteFinishOperation p info refundTo asset

/-- `query`, `/repo/contracts/periphery/src/contract.rs:100-155`, on a question that has been read. -/
def byteAnswer (p : ByteEnv) : ZapQuery → Res Bytes
  | .mintExactIn core input si => answer zapMintResp (do
      let infos ← parseInfos si
      byteSimMintExactIn p core input infos)
  | .mintExactOut core output input si => answer zapMintResp (do
      let infos ← parseInfos si
      byteSimMintExactOut p core output input infos)
  | .burnExactIn core input output si => answer zapBurnResp (do
      let infos ← parseInfos si
      byteSimBurnExactIn p core input output infos)
  | .burnExactOut core output si => answer zapBurnResp (do
      let infos ← parseInfos si
      byteSimBurnExactOut p core output infos)

/-- `execute`, `/repo/contracts/periphery/src/contract.rs:23-92`.  It does not touch the storage. -/
def zapWasmExecute (p : ByteEnv) (info : Info) (text : Bytes) : Res (List WMsg) := do
  let msg ← readMsg zapExecute text
  byteExecute p info msg

/-- `query`, `/repo/contracts/periphery/src/contract.rs:100-155`. -/
def zapWasmQuery (p : ByteEnv) (text : Bytes) : Res Bytes := do
  let q ← readMsg zapQuery text
  byteAnswer p q

/-- `CONTRACT: Item<ContractVersion>` of cw2 1.1.2, under `/repo/contracts/periphery/src/contract.rs:16,160,162`. -/
def versionKey : Bytes := textBytes "contract_info"

/-- `instantiate`, `/repo/contracts/periphery/src/contract.rs:9-21`; `v` is the name and version of the code. -/
def zapWasmInstantiate (v : Iface.ContractVersion) (text : Bytes) : Res (Raw Bytes) := do
  let _ ← readMsg emptyMsg text
  .ok (KV.set [] versionKey (versionRecord.toText v))

/-- `migrate`, `/repo/contracts/periphery/src/contract.rs:157-166`, with `store_version` of
`/repo/packages/utils/src/lib.rs:7-31`; `v` is the name and version of the new code, `parse` is `Version::parse`. -/
def zapWasmMigrate (parse : String → Option Iface.Version) (v : Iface.ContractVersion) (b : Raw Bytes) (text : Bytes) :
    Res (Raw Bytes) := do
  let force ← readMsg migrateMsg text
  if force.getD false = false then
    match b.get versionKey with
    | none => .error .notFound
    | some t => do
      let stored ← readMsg versionRecord t
      require (stored.contract = v.contract) .generic
      match parse stored.version, parse v.version with
      | some cv, some nv => do
        require (Iface.cmpVersion cv nv = .lt) .generic
        .ok (KV.set b versionKey (versionRecord.toText v))
      | _, _ => .error .generic
  else .ok (KV.set b versionKey (versionRecord.toText v))

/-! ## Both contracts on their chain -/

/-- The storage of the core contract, the bank, and the addresses of both contracts.  Chain side of the messages of
`/repo/contracts/periphery/src/execute.rs:12-335`. -/
structure WWorld where
  core : Raw Bytes
  coreAddr : Addr
  zap : Addr
  bank : Bank

/-- What the periphery sees of the world; no other contract answers.  Chain side of the messages of
`/repo/contracts/periphery/src/execute.rs:12-335`. -/
def WWorld.benv (w : WWorld) (env : Env) (pool : Nat → Res Bytes) : ByteEnv :=
  { env := env
    pool := pool
    smart := fun a text =>
      if a = w.coreAddr then coreWasmQuery w.bank.bal w.core { env with contract := w.coreAddr } text else .error .querier
    balance := w.bank.bal w.zap }

/-- A call of the core contract by the periphery, with its messages; the wasm module drops zero coins from the attached funds.
`WasmMsg::Execute` of `/repo/packages/interface/src/helpers/core.rs:32-45`. -/
def deliverCore (w : WWorld) (env : Env) (text : Bytes) (funds : List Coin) : Res WWorld := do
  let funds := funds.filter fun c => c.amount ≠ 0
  let b ← w.bank.send w.zap w.coreAddr funds
  let (core, ms) ← coreWasmExecute w.core { env with contract := w.coreAddr } ⟨w.zap, funds⟩ text
  let b ← runMsgs w.coreAddr b [] ms
  .ok { w with core := core, bank := b }

/-- The messages of the periphery, in order, and the messages of calls to itself before the next one; the first argument bounds
how deep such calls may go.  Chain side of the messages of `/repo/contracts/periphery/src/execute.rs:12-335`. -/
def runWasm (pool : Nat → Res Bytes) (env : Env) : Nat → WWorld → List Nat → List WMsg → Res (WWorld × List Nat)
  | 0, _, _, _ => .error .panic
  | depth + 1, w, market, ms => ms.foldlM (fun (st : WWorld × List Nat) m =>
      match m with
      | .chain m => do
        let (b, market) ← runMsg st.1.zap st.1.bank st.2 m
        .ok ({ st.1 with bank := b }, market)
      | .wasm addr text funds =>
        if addr = st.1.coreAddr then do
          let w ← deliverCore st.1 env text funds
          .ok (w, st.2)
        else if addr = st.1.zap then do
          let funds := funds.filter fun c => c.amount ≠ 0
          let b ← st.1.bank.send st.1.zap st.1.zap funds
          let w := { st.1 with bank := b }
          let ms ← zapWasmExecute (w.benv env pool) ⟨w.zap, funds⟩ text
          runWasm pool env depth w st.2 ms
        else .error .querier) (w, market)

/-- A transaction calling the periphery with a text.  `pool` is what the chain answers about pools and `market` holds the amounts
at which the swaps settle.  Chain side of the messages of `/repo/contracts/periphery/src/execute.rs:12-335`. -/
def zapWasmTx (w : WWorld) (env : Env) (pool : Nat → Res Bytes) (market : List Nat) (depth : Nat) (info : Info)
    (text : Bytes) : Res WWorld := do
  require (env.contract = w.zap ∧ w.zap ≠ w.coreAddr ∧ info.sender ≠ w.zap ∧ info.sender ≠ w.coreAddr ∧
    (info.funds.map (·.denom)).Nodup) .bank
  let b ← w.bank.send info.sender w.zap info.funds
  let w := { w with bank := b }
  let ms ← zapWasmExecute (w.benv env pool) info text
  let (w, _) ← runWasm pool env depth w market ms
  .ok w

end Ibcx.Json
