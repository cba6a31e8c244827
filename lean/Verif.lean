import Verif.Xdr.Lib
import Verif.Spec.Bytes
import Verif.Spec.Rfc4506
import Verif.Xdr.BytesLemmas
import Verif.Gen.CompileThm
import Verif.Gen.Supported
import Verif.Props.Library
import Verif.Props.Codec
import Verif.Props.Unions
import Verif.Props.Limits
import Verif.Props.Shipped
import Verif.Spec.Rpc
import Verif.Rpc.Msg
import Verif.Rpc.MsgLink
import Verif.Rpc.MsgLemmas
import Verif.Rpc.Proc
import Verif.Rpc.Server
import Verif.Rpc.Stream
import Verif.Rpc.Client
import Verif.Rpc.ServerLemmas
import Verif.Rpc.StreamLemmas
import Verif.Rpc.ClientLemmas
import Verif.Props.Server
import Verif.Props.Stream
import Verif.Props.Client
import Verif.Rpc.Wrapper
import Verif.Rpc.WrapperLemmas
import Verif.Props.Program
import Verif.Props.EndToEnd
import Verif.Rpc.Machine
import Verif.Rpc.MachineLemmas
import Verif.Rpc.MachineInv
import Verif.Rpc.Linear
import Verif.Rpc.Progress
import Verif.Rpc.Slices
import Verif.Props.Concurrent
import Verif.Props.Idents
import Verif.Tool.Main
import Verif.Props.Tool
import Verif.Text.XdrGrammar
import Verif.Text.XdrPrint
import Verif.Text.XdrPrintLemmas
import Verif.Text.XdrParse
import Verif.Text.Scan
import Verif.Text.Lex
import Verif.Text.Layout
import Verif.Props.Parsing
import Verif.Text.GoSyn
import Verif.Text.GoParse
import Verif.Text.GoFile
import Verif.Text.GoLower
import Verif.Text.Emit
import Verif.Text.Frag
import Verif.Text.EmitNames
import Verif.Text.EmitType
import Verif.Text.EmitXdr
import Verif.Text.EmitDefn
import Verif.Text.EmitProg
import Verif.Text.Spells
import Verif.Text.EmitSpec
import Verif.Text.ReadNames
import Verif.Props.Emission
import Verif.Text.Pieces
import Verif.Inst.Text1057
import Verif.Inst.Text1813
import Verif.Inst.Read1057
import Verif.Inst.Read1813
import Verif.Props.ShippedText
import Verif.Props.Run
import Verif.Spec.GoStatic
import Verif.Gen.Checks
import Verif.Gen.StaticLemmas
import Verif.Gen.StaticThm
import Verif.Gen.StaticPkg
import Verif.Gen.FixedArray
import Verif.Props.Typing
import Verif.Props.Fuzz
import Verif.Rpc.Shared
import Verif.Props.Shared
import Verif.Props.Resources
import Verif.Lang.Syntax
import Verif.Lang.Lex
import Verif.Lang.Parse
import Verif.Lang.Files
import Verif.Lang.Ast
import Verif.Lang.Read
import Verif.Lang.Sem
import Verif.Lang.Prog
import Verif.Lang.Attr
import Verif.Lang.Wp
import Verif.Lang.Facts
import Verif.Lang.Simps
import Verif.Lang.LibSpec
import Verif.Lang.LibScalar
import Verif.Lang.LibBytes
import Verif.Lang.LibVar
import Verif.Lang.MsgSpec
import Verif.Lang.Obj
import Verif.Lang.CallSpec
import Verif.Lang.TableSpec
import Verif.Lang.ServeSpec
import Verif.Lang.RunSpec
import Verif.Lang.TypesSpec
import Verif.Lang.SeqSpec
import Verif.Lang.DemoNet
import Verif.Props.GoLibrary
import Verif.Props.GoClient
import Verif.Props.GoServer
import Verif.Props.GoExchange
import Verif.Lang.Yacc
import Verif.Lang.GenFiles
import Verif.Lang.GenAst
import Verif.Lang.GenRead
import Verif.Lang.GenProg
import Verif.Lang.GenAttr
import Verif.Lang.GenFacts
import Verif.Lang.Pure
import Verif.Lang.PureSim
import Verif.Lang.OutSpec
import Verif.Lang.OutType
import Verif.Lang.OutXdr
import Verif.Lang.OutEmit
import Verif.Lang.OutRun
import Verif.Props.GoOut
import Verif.Lang.Mono
import Verif.Lang.Tree
import Verif.Lang.Actions
import Verif.Lang.Runs
import Verif.Lang.Rules
import Verif.Lang.Derive
import Verif.Props.GoYacc
import Verif.Lang.World
import Verif.Lang.Stops
import Verif.Lang.LexSpec
import Verif.Lang.LexAll
import Verif.Props.GoLex
import Verif.Lang.ToolExt
import Verif.Lang.Ends
import Verif.Lang.RefmtSpec
import Verif.Lang.MainSpec
import Verif.Props.GoTool
import Verif.Lang.Lr
import Verif.Lang.XdrTable
import Verif.Lang.XdrLr
import Verif.Props.GoParser
import Verif.Lang.YaccRun
import Verif.Lang.YaccMono
import Verif.Lang.YaccSim
import Verif.Lang.YaccParse
import Verif.Lang.YaccDoes
import Verif.Lang.GenCode
import Verif.Lang.GenRep
import Verif.Lang.GenSim
import Verif.Lang.GenBlock
import Verif.Lang.GenPtr
import Verif.Lang.GenArr
import Verif.Lang.GenUnion
import Verif.Lang.GenThm
import Verif.Lang.GenMeth
import Verif.Lang.GenLink
import Verif.Lang.GenConst
import Verif.Lang.GenPkg
import Verif.Lang.GenBuf
import Verif.Lang.GenShipped
import Verif.Lang.GoTr
import Verif.Lang.GoRead
import Verif.Lang.GoStmt
import Verif.Lang.GoDecl
import Verif.Lang.GoLow
import Verif.Lang.GoPlain
import Verif.Lang.GoLex
import Verif.Lang.GoPkg
import Verif.Props.GoGenerated
import Verif.Props.GoWhole
import Verif.Props.GoEndToEnd
import Verif.Lang.Static
import Verif.Lang.WrapCode
import Verif.Lang.WrapSpec
import Verif.Lang.WrapText
import Verif.Lang.RegsSpec
import Verif.Props.GoWrapper
import Verif.Props.GoRegs
import Verif.Props.GoRemote
import Verif.Props.GoSession
import Verif.Props.GoFailure
import Verif.Props.GoMany
import Verif.Props.GoVersions
import Verif.Props.GoNetwork
import Verif.Props.GoAbsent
