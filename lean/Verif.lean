import Verif.Model.Analyse
import Verif.Model.Apply
import Verif.Model.Ast
import Verif.Model.Driver
import Verif.Model.Flags
import Verif.Model.Gen
import Verif.Model.GenBinary
import Verif.Model.GenExpr
import Verif.Model.GenUnary
import Verif.Model.Json
import Verif.Model.Main
import Verif.Model.MiniC
import Verif.Model.Ops
import Verif.Model.Prelude
import Verif.Model.PreludeProg
import Verif.Model.PreludeText
import Verif.Model.PreludeThreads
import Verif.Model.Query
import Verif.Model.QueryMain
import Verif.Model.RewriteBuffer
import Verif.Model.Rewriter
import Verif.Model.Sites
import Verif.Model.StmtEnd
import Verif.Model.Text
import Verif.Model.TextFacts
import Verif.Model.Tracking
import Verif.Model.TransUnit
import Verif.Model.Tree
import Verif.Model.Types
import Verif.Model.Util
import Verif.Model.Visitor
import Verif.Model.Write
import Verif.Proofs.Align
import Verif.Proofs.Before
import Verif.Proofs.CGrammar
import Verif.Proofs.CLogical
import Verif.Proofs.CRead
import Verif.Proofs.CReadFns
import Verif.Proofs.CReadSem
import Verif.Proofs.CSem
import Verif.Proofs.CSemFile
import Verif.Proofs.CSemSample
import Verif.Proofs.Clauses
import Verif.Proofs.Comments
import Verif.Proofs.Complete
import Verif.Proofs.Consts
import Verif.Proofs.Decimal
import Verif.Proofs.Decls
import Verif.Proofs.Devices
import Verif.Proofs.Eligible
import Verif.Proofs.Exact
import Verif.Proofs.Exec
import Verif.Proofs.Grammar
import Verif.Proofs.GrammarLex
import Verif.Proofs.IntMachine
import Verif.Proofs.Integer
import Verif.Proofs.Lambda
import Verif.Proofs.Layout
import Verif.Proofs.LayoutClear
import Verif.Proofs.Lex
import Verif.Proofs.LexCut
import Verif.Proofs.LexDecls
import Verif.Proofs.LexEdits
import Verif.Proofs.LexFile
import Verif.Proofs.LexGlue
import Verif.Proofs.LexTexts
import Verif.Proofs.Lines
import Verif.Proofs.Names
import Verif.Proofs.Nesting
import Verif.Proofs.OptVisit
import Verif.Proofs.Order
import Verif.Proofs.Places
import Verif.Proofs.Prelude
import Verif.Proofs.PreludeCall
import Verif.Proofs.PreludeExec
import Verif.Proofs.PreludeLines
import Verif.Proofs.PreludeParts
import Verif.Proofs.PreludeRead
import Verif.Proofs.PreludeReads
import Verif.Proofs.PreludeText
import Verif.Proofs.PreludeToks
import Verif.Proofs.Prog
import Verif.Proofs.Quiet
import Verif.Proofs.Ranges
import Verif.Proofs.Records
import Verif.Proofs.Rewrite
import Verif.Proofs.RewriteBuffer
import Verif.Proofs.Run
import Verif.Proofs.SiteExec
import Verif.Proofs.Source
import Verif.Proofs.SourceVisit
import Verif.Proofs.StmtEnd
import Verif.Proofs.StmtEndLex
import Verif.Proofs.Tidy
import Verif.Proofs.Track
import Verif.Proofs.TrackCall
import Verif.Proofs.Tracking
import Verif.Proofs.TreeRun
import Verif.Proofs.Visitor
import Verif.Props.C01
import Verif.Props.C02
import Verif.Props.C03
import Verif.Props.C04
import Verif.Props.C05
import Verif.Props.C06
import Verif.Props.C07
import Verif.Props.C08
import Verif.Props.C09
import Verif.Props.C11
import Verif.Props.C12
import Verif.Props.C13
import Verif.Props.C14
import Verif.Props.C15
import Verif.Props.C15Neg
import Verif.Props.C16
import Verif.Props.C17
import Verif.Props.C18
import Verif.Props.C20
import Verif.Props.C22
import Verif.Props.C23
import Verif.Props.C24
import Verif.Props.C25
import Verif.Props.C27
import Verif.Props.C28
import Verif.Props.C29
import Verif.Props.C30
import Verif.Props.C31
import Verif.Props.C32
import Verif.Props.C32Visitor
import Verif.Props.C33
import Verif.Props.C35
import Verif.Props.C36
import Verif.Props.C37
import Verif.Props.C39
import Verif.Props.C40
import Verif.Props.C41
import Verif.Props.C42
import Verif.Props.C43
import Verif.Props.C43Source
import Verif.Props.C44
import Verif.Props.C45
import Verif.Props.C46
import Verif.Props.C47
import Verif.Props.C48
import Verif.Props.C51
import Verif.Props.C53
import Verif.Props.C54
import Verif.Props.C55
import Verif.Props.C57
import Verif.Props.C58
import Verif.Props.C58Source
import Verif.Props.C59
import Verif.Props.C60
import Verif.Props.C61
import Verif.Props.C62
import Verif.Props.C63
import Verif.Props.C64
import Verif.Props.C65
import Verif.Props.C66
import Verif.Props.C67
import Verif.Props.C68
import Verif.Props.C70
import Verif.Props.C71
import Verif.Props.C72
import Verif.Props.C73
import Verif.Props.C74
import Verif.Props.C75
import Verif.Props.C76
import Verif.Props.C77
import Verif.Props.C78
import Verif.Props.C79
import Verif.Props.C80
import Verif.Props.C81
import Verif.Props.C82
import Verif.Props.C83
import Verif.Props.C84
import Verif.Props.C85
import Verif.Props.C86
import Verif.Props.C87
import Verif.Props.C88
import Verif.Props.C89
import Verif.Props.C90
import Verif.Props.C91
import Verif.Props.C92
import Verif.Props.Source
import Verif.Sem.Comp
import Verif.Sem.Congr
import Verif.Sem.Cov
import Verif.Sem.Devices
import Verif.Sem.Exec
import Verif.Sem.Interp
import Verif.Sem.Lambda
import Verif.Sem.Linked
import Verif.Sem.Machine
import Verif.Sem.Prog
import Verif.Sem.Sim
import Verif.Spec.Action
import Verif.Spec.Address
import Verif.Spec.Align
import Verif.Spec.CGrammar
import Verif.Spec.CRead
import Verif.Spec.CSem
import Verif.Spec.CSemSample
import Verif.Spec.CType
import Verif.Spec.Coherent
import Verif.Spec.Comments
import Verif.Spec.CommentsAdded
import Verif.Spec.ConstArg
import Verif.Spec.Constant
import Verif.Spec.Covered
import Verif.Spec.Delete
import Verif.Spec.Each
import Verif.Spec.Eligible
import Verif.Spec.Env
import Verif.Spec.Floating
import Verif.Spec.Grammar
import Verif.Spec.Headers
import Verif.Spec.InfoRead
import Verif.Spec.IntMachine
import Verif.Spec.Integer
import Verif.Spec.Layout
import Verif.Spec.Lex
import Verif.Spec.LexSource
import Verif.Spec.Marker
import Verif.Spec.Mutant
import Verif.Spec.Nesting
import Verif.Spec.Optimised
import Verif.Spec.Order
import Verif.Spec.Parens
import Verif.Spec.PreludeRead
import Verif.Spec.Proto
import Verif.Spec.QuerySays
import Verif.Spec.Reading
import Verif.Spec.Run
import Verif.Spec.SampleAst
import Verif.Spec.SampleMachine
import Verif.Spec.Samples
import Verif.Spec.Shift
import Verif.Spec.Source
import Verif.Spec.Syntax
import Verif.Spec.TextRead
import Verif.Spec.Track
import Verif.Spec.Tree
import Verif.Spec.Truth
import Verif.Spec.Typing
import Verif.Spec.UsedValue
import Verif.Tests.Case
import Verif.Tests.Cases1
import Verif.Tests.Cases2
import Verif.Tests.Cases3
import Verif.Tests.Cases4
import Verif.Tests.Cases5
import Verif.Tests.Flow
