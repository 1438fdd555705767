import Verif.Model.Prim
import Verif.Model.Tables
import Verif.Model.Bin2Char
import Verif.Model.Decimal
import Verif.Model.Cmp
import Verif.Model.Round
import Verif.Model.Convert
import Verif.Model.AddSub
import Verif.Model.Mul
import Verif.Model.Div
import Verif.Model.Ops
import Verif.Model.Parse
import Verif.Model.Format
import Verif.Spec.Value
import Verif.Proofs.Base
import Verif.Proofs.Dec
import Verif.Proofs.CmpLemmas
import Verif.Proofs.AddLemmas
import Verif.Props.Samples
import Verif.Props.Cmp
import Verif.Proofs.NoErr
import Verif.Proofs.SubLemmas
import Verif.Props.AddSub
import Verif.Spec.Rounding
import Verif.Proofs.RoundLemmas
import Verif.Proofs.RoundTo
import Verif.Proofs.RoundVal
import Verif.Proofs.RoundExt
import Verif.Proofs.RoundWide
import Verif.Props.Round
import Verif.Props.Convert
import Verif.Spec.Product
import Verif.Proofs.MulLemmas
import Verif.Proofs.MulAbs
import Verif.Props.Mul
import Verif.Proofs.MulRows
import Verif.Spec.Numeral
import Verif.Proofs.ParseLoops
import Verif.Proofs.ParseWrite
import Verif.Proofs.ParseScan
import Verif.Proofs.ParseExp
import Verif.Proofs.ParseTop
import Verif.Proofs.ParseMisc
import Verif.Props.Parse
import Verif.Spec.Text
import Verif.Proofs.FormatLemmas
import Verif.Proofs.FormatTop
import Verif.Proofs.FormatMisc
import Verif.Props.Format
import Verif.Spec.Quotient
import Verif.Proofs.DivLemmas
import Verif.Proofs.DivShort
import Verif.Proofs.DivPlan
import Verif.Proofs.DivFit
import Verif.Proofs.DivTail
import Verif.Proofs.DivLong
import Verif.Proofs.DivLoop
import Verif.Proofs.DivLongTail
import Verif.Proofs.QuoRun
import Verif.Proofs.DivRun
import Verif.Proofs.DivLongRes
import Verif.Proofs.DivTop
import Verif.Proofs.DivVal
import Verif.Props.Div
import Verif.Props.Product
import Verif.Spec.Remainder
import Verif.Spec.LongDivision
import Verif.Proofs.RemLoop
import Verif.Proofs.RunLemmas
import Verif.Proofs.RemLong
import Verif.Proofs.RemTop
import Verif.Proofs.RemRes
import Verif.Proofs.RemLongRes
import Verif.Proofs.RemVal
import Verif.Props.Rem
import Verif.Props.Ints
import Verif.Props.Api
import Verif.Props.History
import Verif.Props.Signs
import Verif.Props.Ledger
import Verif.Props.TextLaws
import Verif.Props.Laws
import Verif.Proofs.Modes
import Verif.Props.Modes
import Verif.Spec.Panics
import Verif.Proofs.Halts
import Verif.Proofs.HaltsDiv
import Verif.Props.Halts
import Verif.Spec.Reference
import Verif.Spec.ReferenceDiv
import Verif.Props.Reference
import Verif.Props.ReferenceRound
import Verif.Props.ReferenceDiv
import Verif.Spec.ReferenceParse
import Verif.Proofs.ParseExact
import Verif.Proofs.ParseWrap
import Verif.Props.ReferenceParse
import Verif.Spec.ReferenceEdges
import Verif.Props.ReferenceEdges
import Verif.Props.Closed
import Verif.Spec.Machine
import Verif.Spec.Trace
import Verif.Props.Machine
import Verif.Props.Trace
import Verif.Props.DebugRuns
import Verif.Spec.Stale
import Verif.Proofs.Stale
import Verif.Proofs.StaleDiv
import Verif.Proofs.StaleRound
import Verif.Props.Stale
import Verif.Model.OrdProvided
import Verif.Props.Order
import Verif.Props.Finance
import Verif.Props.TextUses
import Verif.Model.ErrorText
import Verif.Props.Errors
import Verif.Props.TextSize
import Verif.Props.Shares
import Verif.Spec.Stored
import Verif.Proofs.Stored
import Verif.Props.Stored
import Verif.Spec.Limited
import Verif.Proofs.Limited
import Verif.Props.Limited
import Verif.Proofs.NoTrap
import Verif.Proofs.NoTrapOps
import Verif.Proofs.NoTrapRem
import Verif.Props.NoWrap
import Verif.Props.Traps
import Verif.Props.Ends
import Verif.Props.Quotients
import Verif.Props.Stops
import Verif.Props.Remainders
import Verif.Props.Integers
import Verif.Props.IntsLarge
import Verif.Props.Roots
import Verif.Props.Compact
import Verif.Props.Horner
import Verif.Model.DebugText
import Verif.Props.DebugText
import Verif.Props.Schedule
import Verif.Props.Search
import Verif.Props.Brackets
import Verif.Props.Bezout
import Verif.Props.ProRata
import Verif.Props.Dot
import Verif.Props.IntsExact
import Verif.Props.DebugQuotients
import Verif.Props.LeadingUnit
import Verif.Props.Bisect
import Verif.Props.RoundingModes
import Verif.Props.Series
import Verif.Props.NearMisses
import Verif.Props.Rare
import Verif.Props.Nines
import Verif.Props.Fractions
import Verif.Props.Json
import Verif.Props.LiteralIndex
import Verif.Props.Moving
import Verif.Props.Columns
import Verif.Props.Applied
import Verif.Tests
