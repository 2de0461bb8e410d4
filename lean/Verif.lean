import Verif.Py
import Verif.Constraint
import Verif.Spec.Constraint
import Verif.Lemmas.Constraint
import Verif.Lemmas.ConstraintUnique
import Verif.Lemmas.ConstraintElems
import Verif.Props.C01_C04
import Verif.Outcome
import Verif.Dist
import Verif.Spec.Dist
import Verif.Lemmas.Dict
import Verif.Lemmas.Dist
import Verif.Lemmas.Hist
import Verif.Props.C05_C07
import Verif.Props.C08_C11
import Verif.Props.C41
import Verif.Unicode
import Verif.Regex
import Verif.Text
import Verif.DiceText
import Verif.Rand
import Verif.State
import Verif.Expr
import Verif.Interp
import Verif.Spec.Dice
import Verif.Lemmas.Text
import Verif.Lemmas.Dice
import Verif.Lemmas.KeepDrop
import Verif.Props.C12_C13
import Verif.Props.C16_C20
import Verif.Spec.Notation
import Verif.Lemmas.Regex
import Verif.Lemmas.Notation
import Verif.Props.C14_C15
import Verif.Spec.Expr
import Verif.Lemmas.Eval
import Verif.Lemmas.State
import Verif.Props.C34_C39
import Verif.Spec.State
import Verif.Lemmas.Names
import Verif.Lemmas.Tidy
import Verif.Lemmas.Reach
import Verif.Props.C27_C29
import Verif.Lemmas.ConstraintProps
import Verif.Lemmas.Convolve
import Verif.Lemmas.Summary
import Verif.Lemmas.Plot
import Verif.Lemmas.DiceTerm
import Verif.Lemmas.DropKeepTerm
import Verif.Spec.Interp
import Verif.Lemmas.Frame
import Verif.Lemmas.Runs
import Verif.Props.C30_C33
import Verif.Lemmas.Logic
import Verif.Props.C22
import Verif.Spec.RollWays
import Verif.Lemmas.RollExact
import Verif.Props.C22_Rolls
import Verif.Spec.Program
import Verif.Lemmas.Ways
import Verif.Lemmas.History
import Verif.Lemmas.Worlds
import Verif.Lemmas.Gentle
import Verif.Lemmas.Law
import Verif.Props.C25_C26
import Verif.Lemmas.Extreme
import Verif.Props.C23_C24
import Verif.Lemmas.RollLaw
import Verif.Props.C21
import Verif.Spec.Uses
import Verif.Spec.OneDie
import Verif.Lemmas.LawExact
import Verif.Lemmas.OneDie
import Verif.Spec.Claimed
import Verif.Lemmas.Claimed
import Verif.Props.C24_Law
import Verif.Props.C26_Exact
import Verif.Lexer
import Verif.Spec.Lexer
import Verif.Lemmas.Match
import Verif.Lemmas.Lexer
import Verif.Props.C36_C37
import Verif.Parser
import Verif.Spec.Parser
import Verif.Lemmas.Parser
import Verif.Lemmas.Tokens
import Verif.Props.C38
import Verif.Lemmas.Print
import Verif.Props.C40
import Verif.Spec.Errors
import Verif.Lemmas.Errors
import Verif.Props.C43
import Verif.Float
import Verif.Spec.Float
import Verif.Lemmas.Float
import Verif.Lemmas.Cost
import Verif.FloatDist
import Verif.Lemmas.FloatDist
import Verif.Lemmas.Dicts
import Verif.Lemmas.Figures
import Verif.Props.C44
import Verif.Spec.Layout
import Verif.Lemmas.Layout
import Verif.Props.C45
import Verif.Props.Texts
import Verif.Spec.Rolls
import Verif.Lemmas.Rolls
import Verif.Spec.Nested
import Verif.Lemmas.Nested
import Verif.Props.C46
import Verif.Spec.Lalr
import Verif.Lemmas.Lalr
import Verif.RandF
import Verif.Spec.Draws
import Verif.Lemmas.RandF
import Verif.Lemmas.Draws
import Verif.Props.C47
import Verif.Heap
import Verif.Spec.Heap
import Verif.Lemmas.Heap
import Verif.Props.C48
import Verif.Spec.Script
import Verif.Lemmas.Meaning
import Verif.Lemmas.Script
import Verif.Props.C49
import Verif.Lemmas.Algebra
import Verif.Props.C50
import Verif.Spec.Twin
import Verif.Lemmas.Abstract
import Verif.Lemmas.AbsInterp
import Verif.Lemmas.Rename
import Verif.Props.C51_C52
import Verif.Repr
import Verif.Spec.Repr
import Verif.Lemmas.Repr
import Verif.Lemmas.ReprNames
import Verif.Props.C53
import Verif.Spec.Naming
import Verif.Lemmas.Naming
import Verif.Props.C54
import Verif.Spec.Separate
import Verif.Lemmas.Separate
import Verif.Lemmas.SeparateCalls
import Verif.Props.C55
import Verif.FloatPlot
import Verif.Spec.Drawn
import Verif.Lemmas.FloatPlot
import Verif.Lemmas.FloatShow
import Verif.Props.C56
import Verif.Spec.Cost
import Verif.Spec.Identities
import Verif.Lemmas.Identities
import Verif.Props.C57
import Verif.Spec.Sources
import Verif.Lemmas.Sources
import Verif.Props.C58_C59
import Verif.ParserError
import Verif.Spec.Syntax
import Verif.Lemmas.Syntax
import Verif.Props.C60
import Verif.Messages
import Verif.Spec.Messages
import Verif.Lemmas.Messages
import Verif.Lemmas.MessagesRoll
import Verif.Lemmas.MessagesLines
import Verif.Props.C61
import Verif.Spec.Unfold
import Verif.Lemmas.Unfold
import Verif.Props.C62
import Verif.Spec.Reckon
import Verif.Lemmas.Reckon
import Verif.Props.C63
import Verif.Dynamic
import Verif.Spec.Dynamic
import Verif.Lemmas.Dynamic
import Verif.Props.C64_C67
import Verif.Work
import Verif.Spec.Work
import Verif.Lemmas.Work
import Verif.Lemmas.Keys
import Verif.Props.C68_C69
import Verif.Spec.Order
import Verif.Lemmas.Order
import Verif.Props.C70
import Verif.Spec.Bell
import Verif.Lemmas.Bell
import Verif.Props.C71
import Verif.Source.Attr
import Verif.Source.Syntax
import Verif.Source.Text
import Verif.Source.Semantics
import Verif.Source.World
import Verif.Spec.Source
import Verif.Source.Run
import Verif.Lemmas.Source
import Verif.Props.C72
import Verif.Lemmas.SourceDice
import Verif.Spec.SourceClass
import Verif.Props.C73
import Verif.Lemmas.SourceDist
import Verif.Props.C74
import Verif.Lemmas.SourceConstraint
import Verif.Props.C75
import Verif.Props.C76
import Verif.Props.C77
import Verif.Source.Plot
import Verif.Spec.SourcePlot
import Verif.Lemmas.SourcePlot
import Verif.Lemmas.SourcePlotFloat
import Verif.Props.C78
import Verif.Props.C79
import Verif.Props.C80
import Verif.Props.C81
import Verif.Props.C82
import Verif.Lemmas.IntHash
import Verif.Props.C83
import Verif.Conform.Source
import Verif.Conform.Grammar
import Verif.Conform.Basic
import Verif.Conform.Syntax
import Verif.Conform.Lexer
import Verif.Conform.Parser
import Verif.Conform.Interpreter
import Verif.Conform.Dice
import Verif.Conform.DropKeep
import Verif.Conform.Nodes
import Verif.Conform.Distribution
import Verif.Conform.Readme
