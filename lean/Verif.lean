import Verif.Basic.Math
import Verif.Basic.AMap
import Verif.Basic.Bytes
import Verif.BigInt.TwosComplement
import Verif.BigInt.Context
import Verif.State.Types
import Verif.State.Machine
import Verif.Ctx.Output
import Verif.Ctx.Metering
import Verif.Ctx.Blockchain
import Verif.Ctx.Storage
import Verif.Ctx.Runtime
import Verif.Host.Exec
import Verif.Host.Top
import Verif.Spec.Arith
import Verif.Props.Arith
import Verif.Eei.Base
import Verif.Eei.Elrond
import Verif.Eei.BigInt
import Verif.Eei.Crypto
import Verif.Eei.Api
import Verif.Eei.Run
import Verif.Eei.Commands
import Verif.Fixture
import Verif.Spec.BigInt
import Verif.Props.BigInt
import Verif.Spec.Memory
import Verif.Props.Memory
import Verif.Errors.Wrapping
import Verif.Props.Errors
import Verif.Host.Trace
import Verif.Host.Sim
import Verif.Host.SimCall
import Verif.Host.Frame
import Verif.Host.Calls
import Verif.Host.TopSim
import Verif.Host.Blind
import Verif.Host.Compare
import Verif.Ctx.OutputLemmas
import Verif.Spec.Calls
import Verif.Props.Calls
import Verif.Host.Inv
import Verif.Host.Limit
import Verif.Spec.Depth
import Verif.Props.Depth
import Verif.Host.Rel
import Verif.Host.TxOut
import Verif.Host.Accounts
import Verif.Host.OutInv
import Verif.Spec.Storage
import Verif.Props.StorageLemmas
import Verif.Props.Storage
import Verif.Host.Triple
import Verif.Host.Outcome
import Verif.Spec.Outcome
import Verif.Props.Outcome
import Verif.Host.Gas
import Verif.Spec.Gas
import Verif.Props.Gas
import Verif.Host.Points
import Verif.Host.ApiGas
import Verif.Props.ApiGas
import Verif.Spec.Value
import Verif.Host.Value
import Verif.Props.Value
import Verif.Spec.Effects
import Verif.Host.Effects
import Verif.Props.Effects
import Verif.Spec.Async
import Verif.Props.Async
import Verif.Props.Groups
import Verif.Spec.Order
import Verif.Props.Order
import Verif.Host.AccInv
import Verif.Spec.Deploy
import Verif.Props.Deploy
import Verif.Ipc.Pipe
import Verif.Ipc.Output
import Verif.Ipc.Messages
import Verif.Ipc.Parts
import Verif.Spec.Ipc
import Verif.Props.Ipc
import Verif.Props.IpcOutput
import Verif.Props.IpcParts
import Verif.Config.Fields
import Verif.Config.Schedule
import Verif.Spec.Config
import Verif.Props.Config
import Verif.Mandos.Json
import Verif.Spec.Json
import Verif.Props.Json
import Verif.Mandos.Expr
import Verif.Mandos.Reconstruct
import Verif.Mandos.ExprLemmas
import Verif.Spec.Expr
import Verif.Props.Expr
import Verif.Props.ExprBytes
import Verif.World.Mock
import Verif.Spec.World
import Verif.Props.World
import Verif.World.Executor
import Verif.Spec.Executor
import Verif.Props.Executor
import Verif.Props.Independent
import Verif.Spec.Payment
import Verif.Props.Payment
import Verif.Host.Refund
import Verif.Spec.Refund
import Verif.Props.Refund
import Verif.Spec.ReadOnly
import Verif.Props.ReadOnly
import Verif.Spec.Cache
import Verif.Props.Cache
import Verif.Spec.Callback
import Verif.Props.Callback
import Verif.Spec.Nonce
import Verif.Props.Nonce
import Verif.Spec.Aggregate
import Verif.Props.Aggregate
import Verif.World.Esdt
import Verif.World.Check
import Verif.World.Convert
import Verif.World.ToyCodec
import Verif.Spec.Check
import Verif.Spec.SetCheck
import Verif.Props.Check
import Verif.Props.SetCheck
import Verif.World.Scenario
import Verif.Spec.Scenario
import Verif.Props.Scenario
import Verif.Spec.Tokens
import Verif.Props.Tokens
import Verif.Spec.Arrival
import Verif.Props.Arrival
import Verif.Spec.Getters
import Verif.Props.Getters
import Verif.Mandos.ScenarioModel
import Verif.Mandos.ScenarioParse
import Verif.Mandos.ScenarioWrite
import Verif.Mandos.ScenarioDec
import Verif.Spec.Rewrite
import Verif.Mandos.ScenarioLemmas
import Verif.Props.RewriteParts
import Verif.Props.RewriteTokens
import Verif.Props.RewriteAccounts
import Verif.Props.RewriteSteps
import Verif.Props.Rewrite
import Verif.Spec.Reply
import Verif.Props.Reply
import Verif.Spec.Entries
import Verif.Props.Entries
import Verif.Spec.Requests
import Verif.Props.Requests
import Verif.Props.Asks
import Verif.Spec.Numbers
import Verif.Props.Numbers
import Verif.Spec.Balances
import Verif.Props.Balances
import Verif.Props.Others
import Verif.Spec.Attribution
import Verif.Props.Attribution
import Verif.Ipc.Driver
import Verif.Spec.Driver
import Verif.Props.Driver
import Verif.World.Debug
import Verif.Spec.Debug
import Verif.Props.DebugText
import Verif.Props.Debug
import Verif.Host.ApiPrice
import Verif.Spec.Price
import Verif.Props.Price
import Verif.Host.Parallel
import Verif.Spec.Parallel
import Verif.Props.Parallel
import Verif.Mandos.OldTest
import Verif.Spec.OldTest
import Verif.Props.OldTest
import Verif.World.OldTest
import Verif.Spec.TestRun
import Verif.Props.TestRun
import Verif.Spec.Instances
import Verif.Props.Instances
import Verif.Spec.Reading
import Verif.Props.Reading
import Verif.Props.ReadingParts
import Verif.Props.ReadingAccounts
import Verif.Props.ReadingSteps
import Verif.Props.ReadingFile
import Verif.World.Files
import Verif.Spec.Files
import Verif.Props.FilesAs
import Verif.Props.Files
import Verif.Props.FilesCases
import Verif.World.Command
import Verif.Spec.Command
import Verif.Props.ReadingTests
import Verif.Props.Command
import Verif.Props.CommandCases
import Verif.Spec.Blocks
import Verif.Props.Blocks
import Verif.Ipc.Launch
import Verif.Spec.Launch
import Verif.Props.Launch
import Verif.World.DebugServer
import Verif.Spec.DebugServer
import Verif.Props.DebugServer
import Verif.Mandos.Kast
import Verif.Spec.Kast
import Verif.Props.Kast
import Verif.Crypto.Signing
import Verif.Spec.Signing
import Verif.Props.Signing
import Verif.Eei.Imports
import Verif.Spec.Imports
import Verif.Props.Imports
import Verif.Eei.Exports
import Verif.Spec.Exports
import Verif.Props.Exports
import Verif.World.Dump
import Verif.Spec.Dump
import Verif.Props.DumpParts
import Verif.Props.Dump
import Verif.World.DebugCli
import Verif.Spec.DebugCli
import Verif.Props.DebugCli
import Verif.Props.DebugCommands
import Verif.World.Builtins
import Verif.Spec.Builtins
import Verif.Props.Builtins
import Verif.Config.Texts
import Verif.World.Schedules
import Verif.Spec.Schedules
import Verif.Props.Schedules
import Verif.Props.ScheduleTexts
import Verif.World.Roulette
import Verif.Spec.Roulette
import Verif.Props.Roulette
import Verif.World.Events
import Verif.Props.Events
import Verif.Ipc.Path
import Verif.Spec.Path
import Verif.Props.Path
