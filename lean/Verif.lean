import Verif.Num
import Verif.KV
import Verif.Core.State
import Verif.Core.Units
import Verif.Core.Fee
import Verif.Core.Token
import Verif.Core.Gov
import Verif.Core.Rebalance
import Verif.Core.Exec
import Verif.Core.Query
import Verif.NumLemmas
import Verif.Core.UnitsLemmas
import Verif.Core.Lemmas
import Verif.Core.RebLemmas
import Verif.Core.Inv
import Verif.Core.Accrual
import Verif.Spec.Core
import Verif.Spec.Link
import Verif.Props.Demo
import Verif.Props.Token
import Verif.Props.Sim
import Verif.Props.Fees
import Verif.Props.Ledger
import Verif.Core.Frame
import Verif.Core.Phase
import Verif.Props.Gov
import Verif.Props.Rebalance
import Verif.Core.Split
import Verif.Props.Trades
import Verif.Props.Swaps
import Verif.Chain.World
import Verif.Chain.Lemmas
import Verif.Props.Collateral
import Verif.Props.CollateralAll
import Verif.Iface.Page
import Verif.Airdrop.Verify
import Verif.Airdrop.State
import Verif.Airdrop.Exec
import Verif.Airdrop.Query
import Verif.Spec.Airdrop
import Verif.Airdrop.Lemmas
import Verif.Airdrop.Inv
import Verif.Props.AirdropDemo
import Verif.Props.Airdrop
import Verif.Chain.AirdropWorld
import Verif.Props.AirdropChain
import Verif.Spec.Merkle
import Verif.Airdrop.TextLemmas
import Verif.Props.Merkle
import Verif.Props.VerifyClaim
import Verif.KVLemmas
import Verif.Props.AirdropMore
import Verif.Spec.Page
import Verif.Iface.PageLemmas
import Verif.Props.Paging
import Verif.Iface.Version
import Verif.Props.Version
import Verif.Math.Pow
import Verif.Math.PowLemmas
import Verif.Math.Series
import Verif.Math.ApproxLemmas
import Verif.Props.Power
import Verif.Pool.Weighted
import Verif.Pool.Sim
import Verif.Spec.Zap
import Verif.Pool.Lemmas
import Verif.Props.Zap
import Verif.Spec.PoolBalance
import Verif.Props.WeightedPool
import Verif.Periphery.Text
import Verif.Periphery.Exec
import Verif.Periphery.Query
import Verif.Periphery.Lemmas
import Verif.Chain.ZapWorld
import Verif.Chain.ZapLemmas
import Verif.Props.ZapBasket
import Verif.Props.ZapMint
import Verif.Props.ZapBurn
import Verif.Props.ZapAnyRoute
import Verif.Props.Periphery
import Verif.Core.PowTight
import Verif.Pool.Decode
import Verif.Props.PoolKinds
import Verif.Props.FeePath
import Verif.Props.Stray
import Verif.Spec.Route
import Verif.Props.Route
import Verif.Spec.Text
import Verif.Props.RouteText
import Verif.Math.Binomial
import Verif.Math.Accuracy
import Verif.Props.Accuracy
import Verif.Props.PoolAccuracy
import Verif.Pool.Stable
import Verif.Props.Stable
import Verif.Spec.Accept
import Verif.Spec.AcceptDrop
import Verif.Props.Accept
import Verif.Props.AcceptGov
import Verif.Props.AcceptDrop
import Verif.Events.Core
import Verif.Events.Airdrop
import Verif.Events.Periphery
import Verif.Spec.Events
import Verif.Spec.EventsDrop
import Verif.Spec.EventsZap
import Verif.Props.Events
import Verif.Props.EventsDrop
import Verif.Props.EventsZap
import Verif.Spec.ZapAccept
import Verif.Props.ZapAccept
import Verif.Props.ZapBudget
import Verif.Airdrop.Digest
import Verif.Conformance.Core
import Verif.Conformance.Secp256k1
import Verif.Conformance.Airdrop
import Verif.Conformance.Packages
import Verif.Spec.Address
import Verif.Airdrop.DigestLemmas
import Verif.Props.Address
import Verif.Props.Dilution
import Verif.Props.AirdropLive
import Verif.Props.Settle
import Verif.Props.Semver
import Verif.Storage.Raw
import Verif.Storage.Contracts
import Verif.Storage.Lemmas
import Verif.Storage.PlaceLemmas
import Verif.Storage.ListLemmas
import Verif.Props.Storage
import Verif.Storage.Exec
import Verif.Storage.ExecLemmas
import Verif.Props.StorageRun
import Verif.Spec.Answers
import Verif.Props.Volume
import Verif.Props.Answers
import Verif.Storage.CoreExec
import Verif.Storage.CoreExecLemmas
import Verif.Props.CoreStorageRun
import Verif.Spec.Closing
import Verif.Props.Completion
import Verif.Props.MessageText
import Verif.Spec.Fits
import Verif.Spec.QueryTexts
import Verif.Core.NumbersFit
import Verif.Airdrop.NumbersFit
import Verif.Json.History
import Verif.Json.QueryTextSpec
import Verif.Props.TextHistory
import Verif.Props.QueryText
import Verif.Spec.StoredTexts
import Verif.Json.Contract
import Verif.Json.ContractQuery
import Verif.Json.SizeLemmas
import Verif.Json.StoredTextSpec
import Verif.Props.ByteContract
import Verif.Props.ByteQueries
import Verif.Spec.JsonText
import Verif.Json.GrammarLemmas
import Verif.Json.GrammarLemmas2
import Verif.Props.JsonText
import Verif.Spec.Schema
import Verif.Json.SchemaLemmas
import Verif.Json.SchemaLemmas2
import Verif.Props.Schema
import Verif.Json.Pools
import Verif.Spec.Pools
import Verif.Json.PoolsLemmas
import Verif.Props.PoolText
import Verif.Json.Zap
import Verif.Json.ZapLemmas
import Verif.Json.ZapLemmas2
import Verif.Props.ByteZap
import Verif.Spec.Proto
import Verif.Proto.Wire
import Verif.Proto.WireLemmas
import Verif.Props.Proto
import Verif.Spec.Hash
import Verif.Airdrop.HashLemmas
import Verif.Props.Hash
import Verif.Json.Response
import Verif.Json.ResponseLemmas
import Verif.Spec.Response
import Verif.Props.Response
import Verif.Props.SettleTrade
import Verif.Spec.Reasons
import Verif.Core.ErrorLemmas
import Verif.Props.Reasons
import Verif.Props.ReasonsDrop
import Verif.Spec.ReasonsZap
import Verif.Props.ReasonsPool
import Verif.Props.ReasonsZap
import Verif.Props.Ordering
import Verif.Props.OrderingDrop
import Verif.Props.WorstFee
import Verif.Props.Isolation
import Verif.Props.Stuck
import Verif.Props.AirdropExact
import Verif.Props.SimDeviation
import Verif.Props.QueryAnswer
import Verif.Props.StuckRebalance
import Verif.Props.Griefing
import Verif.Props.DropAnswers
import Verif.Props.Doomed
import Verif.Props.DropListings
import Verif.Props.Leave
import Verif.Props.ReasonsSim
import Verif.Props.ConstantProduct
import Verif.Props.OneHopEndless
import Verif.Props.Relay
import Verif.Props.WeightedPair
import Verif.Props.ManySales
import Verif.Spec.Series
import Verif.Props.Series
import Verif.Audit
