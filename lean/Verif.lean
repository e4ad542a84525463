import Verif.Lemmas.AdiInj
import Verif.Lemmas.Alias
import Verif.Lemmas.Avail
import Verif.Lemmas.AvailAny
import Verif.Lemmas.Backtrack
import Verif.Lemmas.BacktrackRx
import Verif.Lemmas.Base64Pads
import Verif.Lemmas.BinChars
import Verif.Lemmas.BinOk
import Verif.Lemmas.BinSplit
import Verif.Lemmas.Binary
import Verif.Lemmas.BinaryMore
import Verif.Lemmas.Bits
import Verif.Lemmas.Bridge
import Verif.Lemmas.Call
import Verif.Lemmas.Char
import Verif.Lemmas.Class
import Verif.Lemmas.Decode
import Verif.Lemmas.DecodeAll
import Verif.Lemmas.Dispatch
import Verif.Lemmas.Elem
import Verif.Lemmas.ElemDispatch
import Verif.Lemmas.ElemParse
import Verif.Lemmas.Encode
import Verif.Lemmas.Escape
import Verif.Lemmas.Fields
import Verif.Lemmas.FieldsAll
import Verif.Lemmas.Foreign
import Verif.Lemmas.Forward
import Verif.Lemmas.Frame
import Verif.Lemmas.FromTag
import Verif.Lemmas.Grammar
import Verif.Lemmas.HexForm
import Verif.Lemmas.HexIn
import Verif.Lemmas.History
import Verif.Lemmas.Int
import Verif.Lemmas.Key
import Verif.Lemmas.KeyForms
import Verif.Lemmas.KeySource
import Verif.Lemmas.Layout
import Verif.Lemmas.LayoutAdi
import Verif.Lemmas.LayoutEnc
import Verif.Lemmas.LayoutSix
import Verif.Lemmas.LayoutText
import Verif.Lemmas.Limit
import Verif.Lemmas.LowerBin
import Verif.Lemmas.Made
import Verif.Lemmas.Monad
import Verif.Lemmas.New
import Verif.Lemmas.NewMore
import Verif.Lemmas.Numeric
import Verif.Lemmas.ParseTag
import Verif.Lemmas.Partition
import Verif.Lemmas.Pattern
import Verif.Lemmas.Pieces
import Verif.Lemmas.PortableUri
import Verif.Lemmas.Program
import Verif.Lemmas.Reencode
import Verif.Lemmas.RegexLang
import Verif.Lemmas.Relay
import Verif.Lemmas.Rewrite
import Verif.Lemmas.Script
import Verif.Lemmas.Serial
import Verif.Lemmas.SerialText
import Verif.Lemmas.Seven
import Verif.Lemmas.Shape
import Verif.Lemmas.Shared
import Verif.Lemmas.Signature
import Verif.Lemmas.Six
import Verif.Lemmas.Source
import Verif.Lemmas.Span
import Verif.Lemmas.SpecDigits
import Verif.Lemmas.Str
import Verif.Lemmas.TagErr
import Verif.Lemmas.TagForm
import Verif.Lemmas.TagUri
import Verif.Lemmas.Tame
import Verif.Lemmas.Threads
import Verif.Lemmas.Transport
import Verif.Lemmas.Unescape
import Verif.Lemmas.Unusual
import Verif.Lemmas.Uri
import Verif.Lemmas.VarBinary
import Verif.Lemmas.Verify
import Verif.Model.Adi
import Verif.Model.Base
import Verif.Model.Bic
import Verif.Model.Calls
import Verif.Model.Classes
import Verif.Model.Common
import Verif.Model.Cpi
import Verif.Model.Foreign
import Verif.Model.Gdti
import Verif.Model.Giai
import Verif.Model.Gid
import Verif.Model.Ginc
import Verif.Model.Grai
import Verif.Model.Gsin
import Verif.Model.Gsrn
import Verif.Model.Gsrnp
import Verif.Model.Imovn
import Verif.Model.Itip
import Verif.Model.Lgtin
import Verif.Model.Limit
import Verif.Model.Numbers
import Verif.Model.Parsers
import Verif.Model.Pgln
import Verif.Model.Regexes
import Verif.Model.Sgcn
import Verif.Model.Sgln
import Verif.Model.Sgtin
import Verif.Model.Sscc
import Verif.Model.Threads
import Verif.Model.Upui
import Verif.Model.Usdod
import Verif.Props.C01
import Verif.Props.C02
import Verif.Props.C03
import Verif.Props.C04
import Verif.Props.C05
import Verif.Props.C06
import Verif.Props.C07
import Verif.Props.C08
import Verif.Props.C09
import Verif.Props.C10
import Verif.Props.C100
import Verif.Props.C101
import Verif.Props.C102
import Verif.Props.C103
import Verif.Props.C104
import Verif.Props.C105
import Verif.Props.C106
import Verif.Props.C107
import Verif.Props.C108
import Verif.Props.C109
import Verif.Props.C11
import Verif.Props.C110
import Verif.Props.C111
import Verif.Props.C112
import Verif.Props.C12
import Verif.Props.C13
import Verif.Props.C14
import Verif.Props.C15
import Verif.Props.C16
import Verif.Props.C17
import Verif.Props.C18
import Verif.Props.C19
import Verif.Props.C20
import Verif.Props.C21
import Verif.Props.C22
import Verif.Props.C23
import Verif.Props.C24
import Verif.Props.C25
import Verif.Props.C26
import Verif.Props.C27
import Verif.Props.C28
import Verif.Props.C29
import Verif.Props.C30
import Verif.Props.C31
import Verif.Props.C32
import Verif.Props.C33
import Verif.Props.C34
import Verif.Props.C35
import Verif.Props.C36
import Verif.Props.C37
import Verif.Props.C38
import Verif.Props.C39
import Verif.Props.C40
import Verif.Props.C41
import Verif.Props.C42
import Verif.Props.C43
import Verif.Props.C44
import Verif.Props.C45
import Verif.Props.C46
import Verif.Props.C47
import Verif.Props.C48
import Verif.Props.C49
import Verif.Props.C50
import Verif.Props.C51
import Verif.Props.C52
import Verif.Props.C53
import Verif.Props.C54
import Verif.Props.C55
import Verif.Props.C56
import Verif.Props.C57
import Verif.Props.C58
import Verif.Props.C59
import Verif.Props.C60
import Verif.Props.C61
import Verif.Props.C62
import Verif.Props.C63
import Verif.Props.C64
import Verif.Props.C65
import Verif.Props.C66
import Verif.Props.C67
import Verif.Props.C68
import Verif.Props.C69
import Verif.Props.C70
import Verif.Props.C71
import Verif.Props.C72
import Verif.Props.C73
import Verif.Props.C75
import Verif.Props.C76
import Verif.Props.C78
import Verif.Props.C79
import Verif.Props.C81
import Verif.Props.C82
import Verif.Props.C83
import Verif.Props.C84
import Verif.Props.C85
import Verif.Props.C86
import Verif.Props.C87
import Verif.Props.C88
import Verif.Props.C89
import Verif.Props.C90
import Verif.Props.C91
import Verif.Props.C92
import Verif.Props.C93
import Verif.Props.C94
import Verif.Props.C95
import Verif.Props.C96
import Verif.Props.C97
import Verif.Props.C98
import Verif.Props.C99
import Verif.Py.Backtrack
import Verif.Py.Base64
import Verif.Py.Basic
import Verif.Py.Call
import Verif.Py.Class
import Verif.Py.Int
import Verif.Py.Pattern
import Verif.Py.ReSplit
import Verif.Py.Regex
import Verif.Py.Threads
import Verif.Refine.Adi
import Verif.Refine.Base
import Verif.Refine.Bic
import Verif.Refine.Classes
import Verif.Refine.Common
import Verif.Refine.Cpi
import Verif.Refine.Foreign.Adi
import Verif.Refine.Foreign.Cpi
import Verif.Refine.Foreign.Gdti
import Verif.Refine.Foreign.Giai
import Verif.Refine.Foreign.Gid
import Verif.Refine.Foreign.Grai
import Verif.Refine.Foreign.Gsrn
import Verif.Refine.Foreign.Gsrnp
import Verif.Refine.Foreign.Itip
import Verif.Refine.Foreign.Sgcn
import Verif.Refine.Foreign.Sgln
import Verif.Refine.Foreign.Sgtin
import Verif.Refine.Foreign.Sscc
import Verif.Refine.Foreign.Usdod
import Verif.Refine.Format
import Verif.Refine.Gdti
import Verif.Refine.Giai
import Verif.Refine.Gid
import Verif.Refine.Ginc
import Verif.Refine.Grai
import Verif.Refine.Gsin
import Verif.Refine.Gsrn
import Verif.Refine.Gsrnp
import Verif.Refine.Imovn
import Verif.Refine.Itip
import Verif.Refine.Lazy
import Verif.Refine.Lgtin
import Verif.Refine.Loop
import Verif.Refine.More
import Verif.Refine.Numbers
import Verif.Refine.Parsers
import Verif.Refine.PatsAttr
import Verif.Refine.Patterns
import Verif.Refine.Pgln
import Verif.Refine.Schemes
import Verif.Refine.Sgcn
import Verif.Refine.Sgln
import Verif.Refine.Sgtin
import Verif.Refine.Split
import Verif.Refine.Sscc
import Verif.Refine.Table
import Verif.Refine.Upui
import Verif.Refine.Usdod
import Verif.Spec.Basic
import Verif.Spec.Call
import Verif.Spec.Class
import Verif.Spec.Commission
import Verif.Spec.Denotes
import Verif.Spec.Digits
import Verif.Spec.Elem
import Verif.Spec.Encode
import Verif.Spec.Errors
import Verif.Spec.Family
import Verif.Spec.Field
import Verif.Spec.Fields
import Verif.Spec.Forward
import Verif.Spec.FromTag
import Verif.Spec.Grammar
import Verif.Spec.Hex
import Verif.Spec.History
import Verif.Spec.Key
import Verif.Spec.KeyText
import Verif.Spec.Layout
import Verif.Spec.Members
import Verif.Spec.Mistype
import Verif.Spec.Numbers
import Verif.Spec.Objects
import Verif.Spec.Pieces
import Verif.Spec.Program
import Verif.Spec.Relay
import Verif.Spec.Script
import Verif.Spec.Serial
import Verif.Spec.Shared
import Verif.Spec.Signature
import Verif.Spec.Six
import Verif.Spec.Source
import Verif.Spec.Span
import Verif.Spec.Tables
import Verif.Spec.Transport
import Verif.Spec.Unusual
import Verif.Src.Attr
import Verif.Src.Code.Adi
import Verif.Src.Code.BaseScheme
import Verif.Src.Code.Bic
import Verif.Src.Code.Common
import Verif.Src.Code.Cpi
import Verif.Src.Code.Gdti
import Verif.Src.Code.Giai
import Verif.Src.Code.Gid
import Verif.Src.Code.Ginc
import Verif.Src.Code.Grai
import Verif.Src.Code.Gsin
import Verif.Src.Code.Gsrn
import Verif.Src.Code.Gsrnp
import Verif.Src.Code.Imovn
import Verif.Src.Code.Itip
import Verif.Src.Code.Lgtin
import Verif.Src.Code.Parsers
import Verif.Src.Code.Pgln
import Verif.Src.Code.Regex
import Verif.Src.Code.Sgcn
import Verif.Src.Code.Sgln
import Verif.Src.Code.Sgtin
import Verif.Src.Code.Sscc
import Verif.Src.Code.Upui
import Verif.Src.Code.Usdod
import Verif.Src.Interp
import Verif.Src.Lookup
import Verif.Src.Names
import Verif.Src.Program
import Verif.Src.Simp
import Verif.Src.Syntax
import Verif.Tests.Adi
import Verif.Tests.Bic
import Verif.Tests.Cpi
import Verif.Tests.Gdti
import Verif.Tests.Giai
import Verif.Tests.Gid
import Verif.Tests.Ginc
import Verif.Tests.Grai
import Verif.Tests.Gsin
import Verif.Tests.Gsrn
import Verif.Tests.Gsrnp
import Verif.Tests.Imovn
import Verif.Tests.Itip
import Verif.Tests.Lgtin
import Verif.Tests.Parsers
import Verif.Tests.Pgln
import Verif.Tests.Readme
import Verif.Tests.Sgcn
import Verif.Tests.Sgln
import Verif.Tests.Sgtin
import Verif.Tests.Sscc
import Verif.Tests.Upui
import Verif.Tests.Usdod
