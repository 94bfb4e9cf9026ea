import Verif.Basic
import Verif.Model.Puny
import Verif.Spec.Punycode
import Verif.Spec.Ascii
import Verif.Proof.PunyArith
import Verif.Proof.PunySpec
import Verif.Proof.PunyEnc
import Verif.Proof.PunyDec
import Verif.Proof.PunyDecLong
import Verif.Props.Puny
import Verif.Data.Vectors
import Verif.Props.PunyAscii
import Verif.Model.Mem
import Verif.Model.Utf8
import Verif.Model.Tables
import Verif.Model.Env
import Verif.Model.Context
import Verif.Model.Bidi
import Verif.Model.LabelTest
import Verif.Model.Lookup
import Verif.Model.Decode
import Verif.Model.Register
import Verif.Model.Error
import Verif.Spec.Tables
import Verif.Spec.Label
import Verif.Proof.Utf8
import Verif.Proof.Label
import Verif.Proof.LabelTest
import Verif.Model.Gen
import Verif.Proof.Bsearch
import Verif.Proof.GenStream
import Verif.Proof.GenScan
import Verif.Spec.Laws
import Verif.Proof.GenOut
import Verif.Proof.Gen
import Verif.Proof.DataLaws
import Verif.Data.Csv
import Verif.Data.Map
import Verif.Data.Qc
import Verif.Data.Check
import Verif.Data.Laws
import Verif.Props.Tables
import Verif.Data.Sample
import Verif.Props.Label
import Verif.Props.Error
import Verif.Spec.Domain
import Verif.Spec.Tr46
import Verif.Proof.Domain
import Verif.Proof.LookupP
import Verif.Proof.Tr46P
import Verif.Proof.LabelP
import Verif.Proof.Errors
import Verif.Spec.Api
import Verif.Props.Lookup
import Verif.Spec.Utf8
import Verif.Proof.DecodeP
import Verif.Props.Entry
import Verif.Props.Unicode
import Verif.Props.PunyIff
import Verif.Proof.RegisterP
import Verif.Props.Register
import Verif.Spec.ToAscii
import Verif.Proof.ToAsciiP
import Verif.Props.ToAscii
import Verif.Props.Stable
import Verif.Props.Inverse
import Verif.Props.Uts46
import Verif.Props.NfcInput
import Verif.Spec.Heap
import Verif.Proof.HeapP
import Verif.Proof.HeapEntry
import Verif.Props.Heap
import Verif.Spec.ToUnicode
import Verif.Props.ToUnicode
import Verif.Model.GenText
import Verif.Spec.Text
import Verif.Proof.GenText
import Verif.Proof.GenTextEval
import Verif.Data.CsvText
import Verif.Data.MapText
import Verif.Data.QcText
import Verif.Data.CsvTextCheck
import Verif.Data.MapTextCheck
import Verif.Data.QcTextCheck
import Verif.Props.GenText
import Verif.Props.GenTextTiny
import Verif.Props.RegisterIff
import Verif.Spec.ToAsciiErr
import Verif.Proof.LookupErr
import Verif.Props.LookupErr
import Verif.Spec.ToAsciiNfc
import Verif.Proof.LookupNfc
import Verif.Props.LookupNfc
import Verif.Spec.Register
import Verif.Model.Cli
import Verif.Spec.Cli
import Verif.Proof.Cli
import Verif.Props.Cli
import Verif.Model.CmdLine
import Verif.Spec.CmdLine
import Verif.Props.CmdLine
import Verif.Spec.PunyDecode
import Verif.Proof.PunyDecExact
import Verif.Props.PunyDecode
import Verif.Spec.PunyEncode
import Verif.Props.PunyEncode
import Verif.Spec.Flags
import Verif.Spec.Lookup
import Verif.Proof.FirstFault
import Verif.Proof.LookupExact
import Verif.Props.LabelExact
import Verif.Props.LookupExact
import Verif.Props.RegisterExact
import Verif.Spec.CText
import Verif.Model.GenPrint
import Verif.Proof.GenPrint
import Verif.Proof.GenPrintOk
import Verif.Props.GenPrint
import Verif.Spec.Version
import Verif.Model.Version
import Verif.Proof.Version
import Verif.Props.Version
import Verif.Model.Fuzz
import Verif.Props.Fuzz
import Verif.Spec.FuzzCalls
import Verif.Props.FuzzCalls
import Verif.Spec.Answer
import Verif.Props.Answer
import Verif.Model.Examples
import Verif.Spec.Examples
import Verif.Props.Examples
import Verif.Spec.FlagBits
import Verif.Props.FlagBits
import Verif.Spec.CExpr
import Verif.Model.Compat
import Verif.Proof.CExpr
import Verif.Props.Compat
import Verif.Spec.Extension
import Verif.Props.Extension
import Verif.Model.FuzzMain
import Verif.Spec.FuzzMain
import Verif.Props.FuzzMain
import Verif.Spec.Uax15
import Verif.Proof.Uax15
import Verif.Props.Uax15
import Verif.Spec.Std3
import Verif.Props.Std3
import Verif.Spec.Collision
import Verif.Props.Collision
import Verif.Props.CollisionRaw
import Verif.Props.Relax
import Verif.Spec.Closed
import Verif.Proof.Closed
import Verif.Data.Closed
import Verif.Props.Closed
import Verif.Props.RegisterBack
import Verif.Props.Compose
import Verif.Spec.BidiName
import Verif.Props.BidiName
import Verif.Props.UniCompose
import Verif.Props.Empty
import Verif.Props.AnyCase
import Verif.Props.Deviation
import Verif.Props.LetterCase
import Verif.Spec.Codes
import Verif.Props.Codes
import Verif.Model.TestLookup
import Verif.Spec.IdnaTest
import Verif.Proof.TestLookup
import Verif.Props.TestLookup
import Verif.Model.TestLookupCalls
import Verif.Props.TestLookupCalls
import Verif.Model.TestPrograms
import Verif.Spec.TestPrograms
import Verif.Props.TestPrograms
import Verif.Model.TestGlibc
import Verif.Spec.TestGlibc
import Verif.Props.TestGlibc
import Verif.Spec.Uts46
import Verif.Props.Conform
import Verif.Props.ConformNot
import Verif.Props.ConformUni
import Verif.Props.Rfc5891
import Verif.Props.GenAccept
import Verif.Props.Versions
import Verif.Props.Separators
import Verif.Props.Delims
import Verif.Props.HostName
import Verif.Props.Rfc5892
import Verif.Props.Nv8
import Verif.Props.DeviationData
import Verif.Spec.Casefold
import Verif.Data.Fold
import Verif.Props.Casefold
import Verif.Spec.Exclusion
import Verif.Props.Exclusion
import Verif.Props.Bounded
import Verif.Props.Passes
import Verif.Props.Invisible
import Verif.Spec.Exports
import Verif.Data.Exports
import Verif.Props.Exports
import Verif.Props.Shown
