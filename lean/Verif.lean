import Verif.Basic
import Verif.Loop
import Verif.Spec
import Verif.Contract
import Verif.RunLemmas
import Verif.LoopProofs
import Verif.Api
import Verif.ResetProofs
import Verif.ApiProofs
import Verif.Simple
import Verif.Mark
import Verif.Codec.Utf8
import Verif.Codec.Utf8Proofs
import Verif.Codec.Wide
import Verif.Codec.WideProofs
import Verif.SingleByte
import Verif.Gen.Index
import Verif.Gen.SbTables
import Verif.Gen.SbData0
import Verif.Gen.SbData1
import Verif.Gen.SbData2
import Verif.Gen.SbData3
import Verif.Gen.SbData4
import Verif.Gen.SbData5
import Verif.Gen.SbCheck0
import Verif.Gen.SbCheck1
import Verif.Gen.SbCheck2
import Verif.Gen.SbCheck3
import Verif.Gen.SbCheck4
import Verif.Gen.SbCheck5
import Verif.History
import Verif.Session
import Verif.Entry
import Verif.Gen.SbEntries
import Verif.OneShot
import Verif.Props.Convert
import Verif.Props.OneShot
import Verif.Text
import Verif.Exact
import Verif.Props.Unicode
import Verif.Props.Bom
import Verif.Props.Single
import Verif.Props.RoundTrip
import Verif.Props.Stream
import Verif.Gen.Aliases
import Verif.Gen.Names
import Verif.Gen.NamePos
import Verif.Lookup
import Verif.LookupProofs
import Verif.NameSpec
import Verif.NameCheck
import Verif.Props.Lookup
import Verif.Props.Open
import Verif.Locale
import Verif.Props.Locale
import Verif.Cpp
import Verif.Props.Cpp
import Verif.Gen.CompTables
import Verif.Codec.Comp
import Verif.Codec.CompProofs
import Verif.Gen.CompData
import Verif.CompEntries
import Verif.Props.Comp
import Verif.Props.CompRead
import Verif.Codec.Tree
import Verif.Codec.Charset
import Verif.Codec.TreeTac
import Verif.Codec.Fast
import Verif.Codec.TableCheck
import Verif.Gen.CsKr
import Verif.Gen.CsJp
import Verif.Gen.CsCn
import Verif.Gen.CsTw
import Verif.Gen.CsBig5
import Verif.Codec.Kr
import Verif.Gen.TabEucKr
import Verif.Gen.TabCp949
import Verif.Gen.TabJohab
import Verif.Gen.UnKr
import Verif.Gen.UnJp
import Verif.Gen.UnCn
import Verif.Gen.UnTw
import Verif.Gen.UnBig5
import Verif.Gen.CsGb
import Verif.Codec.Jp
import Verif.Codec.Cn
import Verif.Codec.GbCheck
import Verif.Gen.TabEucJp
import Verif.Gen.TabSjis
import Verif.Gen.TabCp932
import Verif.Gen.TabDecKanji
import Verif.Gen.TabEucCn
import Verif.Gen.TabGbk
import Verif.Gen.TabCp936
import Verif.Gen.TabGb2022
import Verif.Gen.TabGb2005
import Verif.Codec.Tw
import Verif.Gen.B5Case
import Verif.Codec.Big5
import Verif.Gen.TabBig5
import Verif.Gen.TabCp950
import Verif.Gen.TabBig52003
import Verif.Gen.TabDecHanyu
import Verif.Gen.TabEucTw0
import Verif.Gen.TabEucTwW1
import Verif.Gen.TabEucTwW2
import Verif.Gen.TabEucTwW3
import Verif.Gen.TabEucTwW4
import Verif.Gen.TabEucTwR
import Verif.Gen.TabEucTwS
import Verif.Gen.TabEucTw
import Verif.Codec.Stateful
import Verif.Codec.Escape
import Verif.Props.Escape
import Verif.Props.Multi
import Verif.Props.MultiRows
import Verif.Props.Gb18030
import Verif.Props.Gb2005
import Verif.Codec.Hz
import Verif.Codec.Back
import Verif.Codec.Sim
import Verif.Gen.BackKr
import Verif.Gen.BackCn
import Verif.Gen.BackJp
import Verif.Gen.BackTw0
import Verif.Gen.BackTwA
import Verif.Gen.BackTwB
import Verif.Gen.BackTw
import Verif.Codec.SimIso
import Verif.Codec.Cset
import Verif.Gen.TabIr165
import Verif.Gen.TabGb2312
import Verif.Gen.TabKsc5601
import Verif.Gen.TabJisx0208
import Verif.Gen.TabJisx0212
import Verif.Codec.CnExt
import Verif.Codec.SimCnExt
import Verif.Gen.JpmsTables
import Verif.Codec.Jpms
import Verif.Codec.SimJpms
import Verif.Codec.Utf7
import Verif.Codec.Utf7Sim
import Verif.Props.Utf7
import Verif.Props.Shift
import Verif.Codec.Pair
import Verif.Codec.PairText
import Verif.Codec.Hkscs
import Verif.Codec.Jisx0213
import Verif.Codec.Jp3
import Verif.Codec.SimJp3
import Verif.Gen.JxTables
import Verif.Gen.TabEucJx
import Verif.Gen.TabSjx
import Verif.Gen.TabHk1999
import Verif.Gen.TabHk2001
import Verif.Gen.TabHk2004
import Verif.Gen.TabHk2008
import Verif.Props.Pair
import Verif.Props.Lines
import Verif.Iso2022
import Verif.Codec.IsoRead
import Verif.Codec.IsoFollow
import Verif.Codec.IsoFollow2
import Verif.Props.Iso2022
import Verif.Codec.Jp2
import Verif.Codec.SimJp2
import Verif.Codec.IsoFollow3
import Verif.Codec.Covers
import Verif.Registry
import Verif.Props.Registry
import Verif.World
import Verif.Props.World
import Verif.Props.WorldAll
import Verif.Props.Pivot
import Verif.Props.PivotExact
import Verif.Props.Kinds
import Verif.Props.Rev
import Verif.Props.Ascii
import Verif.Codec.Caps
import Verif.Props.Bounds
import Verif.Props.Flush
import Verif.Props.Exact
import Verif.Props.Join
import Verif.Props.Sizes
import Verif.Cp50221
import Verif.Codec.IsoFollow4
import Verif.Props.Cp50221
import Verif.Rfc2152
import Verif.Codec.Utf7Read
import Verif.Props.Utf7Read
import Verif.Props.MarkRead
import Verif.Props.EscRead
import Verif.Codec.Scalars
import Verif.Codec.Scalars2
import Verif.Props.Scalars
import Verif.Props.LookupExact
import Verif.Props.Args
import Verif.Props.Tags
import Verif.Threads
import Verif.Props.Threads
import Verif.Props.IsoWrite
import Verif.Props.Jp3Write
import Verif.Props.Utf7Write
import Verif.Props.JpmsWrite
import Verif.Props.Lossy
import Verif.Discard
import Verif.DiscardKinds
import Verif.Short
import Verif.Props.Skip
import Verif.Props.Short
import Verif.KeepTables
import Verif.Props.Keep
import Verif.Props.Hub
import Verif.Props.ExtendProbe
import Verif.Props.Extend
