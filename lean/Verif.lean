import Verif.Lemmas.Among
import Verif.Lemmas.Api
import Verif.Lemmas.Arrive
import Verif.Lemmas.Bits
import Verif.Lemmas.Buffer
import Verif.Lemmas.Build
import Verif.Lemmas.BuildBack
import Verif.Lemmas.BuildInv
import Verif.Lemmas.BuildTable
import Verif.Lemmas.CfgVal
import Verif.Lemmas.Checksum
import Verif.Lemmas.Clean
import Verif.Lemmas.Cli
import Verif.Lemmas.Code
import Verif.Lemmas.CodeLink
import Verif.Lemmas.CodegenCreate
import Verif.Lemmas.CodegenEnum
import Verif.Lemmas.CodegenExtend
import Verif.Lemmas.CodegenParse
import Verif.Lemmas.CodegenRecv
import Verif.Lemmas.CodegenSend
import Verif.Lemmas.CodegenSerde
import Verif.Lemmas.CodegenTop
import Verif.Lemmas.CodegenValidate
import Verif.Lemmas.Decode
import Verif.Lemmas.Deliver
import Verif.Lemmas.Derive
import Verif.Lemmas.Device
import Verif.Lemmas.Dispatch
import Verif.Lemmas.DualBuffer
import Verif.Lemmas.Emit
import Verif.Lemmas.EmitEnum
import Verif.Lemmas.EmitEnum2
import Verif.Lemmas.EmitFlags
import Verif.Lemmas.EmitParse
import Verif.Lemmas.EmitRecv
import Verif.Lemmas.EmitRecv2
import Verif.Lemmas.EmitSend
import Verif.Lemmas.EmitSend2
import Verif.Lemmas.EmitSend3
import Verif.Lemmas.EmitSmall
import Verif.Lemmas.EmitStep
import Verif.Lemmas.Eval
import Verif.Lemmas.EvalParser
import Verif.Lemmas.Exact
import Verif.Lemmas.Exec
import Verif.Lemmas.ExecAccess
import Verif.Lemmas.ExecDebug
import Verif.Lemmas.ExecIter
import Verif.Lemmas.ExecMeta
import Verif.Lemmas.ExecPack
import Verif.Lemmas.ExecTypes
import Verif.Lemmas.Extend
import Verif.Lemmas.Float
import Verif.Lemmas.GenCfgNames
import Verif.Lemmas.GenCode
import Verif.Lemmas.GenCode2
import Verif.Lemmas.GenCode2a
import Verif.Lemmas.GenCode2b
import Verif.Lemmas.GenCode2c
import Verif.Lemmas.GenExec
import Verif.Lemmas.GenMacro
import Verif.Lemmas.GenMeth
import Verif.Lemmas.GenQuote
import Verif.Lemmas.GenSource
import Verif.Lemmas.GenSource1
import Verif.Lemmas.GenSource2
import Verif.Lemmas.GenSource3
import Verif.Lemmas.Ieee
import Verif.Lemmas.Input
import Verif.Lemmas.InputDecl
import Verif.Lemmas.InputTypes
import Verif.Lemmas.Iter
import Verif.Lemmas.Junk
import Verif.Lemmas.Keys
import Verif.Lemmas.Knf
import Verif.Lemmas.Layout
import Verif.Lemmas.LibMacros
import Verif.Lemmas.Link
import Verif.Lemmas.LinkCrate
import Verif.Lemmas.Macro
import Verif.Lemmas.MacroItems
import Verif.Lemmas.MacroText
import Verif.Lemmas.Messages
import Verif.Lemmas.Meth
import Verif.Lemmas.MethNew
import Verif.Lemmas.Parser
import Verif.Lemmas.Position
import Verif.Lemmas.Quote
import Verif.Lemmas.Raw
import Verif.Lemmas.RustAttr
import Verif.Lemmas.RustEval
import Verif.Lemmas.Scale
import Verif.Lemmas.Serialize
import Verif.Lemmas.Session
import Verif.Lemmas.Sim
import Verif.Lemmas.Source
import Verif.Lemmas.SourceText
import Verif.Lemmas.Stream
import Verif.Lemmas.Time
import Verif.Lemmas.Types
import Verif.Lemmas.Utf8
import Verif.Lemmas.Validate
import Verif.Lemmas.Whole
import Verif.Lemmas.WholeFns
import Verif.Lemmas.WholeInto
import Verif.Lemmas.WholeItems
import Verif.Lemmas.WholeTable
import Verif.Lemmas.WholeVal
import Verif.Model.Ack
import Verif.Model.Basic
import Verif.Model.Buffer
import Verif.Model.CfgProgram
import Verif.Model.CfgVal
import Verif.Model.Checksum
import Verif.Model.Cli
import Verif.Model.Code
import Verif.Model.Codegen
import Verif.Model.Debug
import Verif.Model.Default
import Verif.Model.Derive
import Verif.Model.Device
import Verif.Model.Dispatch
import Verif.Model.DualBuffer
import Verif.Model.Error
import Verif.Model.Eval
import Verif.Model.Exec
import Verif.Model.Float
import Verif.Model.GenCfgVal
import Verif.Model.GenCode
import Verif.Model.GenCode2
import Verif.Model.GenDecls
import Verif.Model.GenError
import Verif.Model.GenMacro
import Verif.Model.GenMeth
import Verif.Model.GenPackets
import Verif.Model.GenQuote
import Verif.Model.GenSource
import Verif.Model.GenText
import Verif.Model.GenTypes
import Verif.Model.Input
import Verif.Model.Iter
import Verif.Model.Lex
import Verif.Model.LibMacros
import Verif.Model.Macro
import Verif.Model.Messages
import Verif.Model.Meth
import Verif.Model.Pack
import Verif.Model.Parser
import Verif.Model.Position
import Verif.Model.Program
import Verif.Model.Quote
import Verif.Model.Raw
import Verif.Model.Reset
import Verif.Model.Rust
import Verif.Model.Scale
import Verif.Model.Serialize
import Verif.Model.Time
import Verif.Model.Tokens
import Verif.Model.Types
import Verif.Model.Whole
import Verif.Props.Ack
import Verif.Props.AidIni
import Verif.Props.Among
import Verif.Props.AnyDamage
import Verif.Props.Buffer
import Verif.Props.Build
import Verif.Props.CfgExec
import Verif.Props.CfgText
import Verif.Props.CfgVal
import Verif.Props.CfgValSet
import Verif.Props.Checksum
import Verif.Props.Cli
import Verif.Props.Code
import Verif.Props.Codegen
import Verif.Props.CodegenParse
import Verif.Props.CodegenSerde
import Verif.Props.Codes
import Verif.Props.Damage
import Verif.Props.Debug
import Verif.Props.Default
import Verif.Props.Delay
import Verif.Props.Derive
import Verif.Props.Device
import Verif.Props.EndToEnd
import Verif.Props.ErrorText
import Verif.Props.Exec
import Verif.Props.Extend
import Verif.Props.Generators
import Verif.Props.Generators2
import Verif.Props.Ieee
import Verif.Props.Inf
import Verif.Props.Input
import Verif.Props.Iter
import Verif.Props.Junk
import Verif.Props.Keys
import Verif.Props.Macros
import Verif.Props.Messages
import Verif.Props.Methods
import Verif.Props.Names
import Verif.Props.OldBytes
import Verif.Props.Order
import Verif.Props.OwnBuffer
import Verif.Props.Packet
import Verif.Props.ParserDecode
import Verif.Props.ParserSafety
import Verif.Props.Prompt
import Verif.Props.Protocol
import Verif.Props.Reading
import Verif.Props.Rebuild
import Verif.Props.Reset
import Verif.Props.Scale
import Verif.Props.Serialize
import Verif.Props.Smallest
import Verif.Props.Source
import Verif.Props.Time
import Verif.Props.Types
import Verif.Props.VelEcef
import Verif.Props.Whole
import Verif.Spec.Api
import Verif.Spec.Bits
import Verif.Spec.Build
import Verif.Spec.Cfg
import Verif.Spec.CfgText
import Verif.Spec.Cli
import Verif.Spec.Client
import Verif.Spec.Codegen
import Verif.Spec.Codes
import Verif.Spec.Damage
import Verif.Spec.Debug
import Verif.Spec.Derive
import Verif.Spec.Device
import Verif.Spec.Emit
import Verif.Spec.EndToEnd
import Verif.Spec.Exec
import Verif.Spec.Frame
import Verif.Spec.Ieee
import Verif.Spec.Input
import Verif.Spec.Iter
import Verif.Spec.Junk
import Verif.Spec.Keys
import Verif.Spec.Link
import Verif.Spec.Methods
import Verif.Spec.Names
import Verif.Spec.OwnBuffer
import Verif.Spec.Packet
import Verif.Spec.Position
import Verif.Spec.Protocol
import Verif.Spec.Queue
import Verif.Spec.Report
import Verif.Spec.Scale
import Verif.Spec.Serialize
import Verif.Spec.Source
import Verif.Spec.Stream
import Verif.Spec.Text
import Verif.Spec.Time
import Verif.Spec.Values
import Verif.Spec.Wire
import Verif.Validation.Buffer
import Verif.Validation.Codegen
import Verif.Validation.Float
import Verif.Validation.Parser
