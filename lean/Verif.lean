import Verif.Go.Utf8
import Verif.Props.Hangul
import Verif.Props.Word
import Verif.Props.Hanja
import Verif.Props.Cp949
import Verif.Props.Reader
import Verif.Props.Writer
import Verif.Props.Encoding
import Verif.Props.Mem
import Verif.Props.Chart
import Verif.Props.HanjaChart
import Verif.Props.Stream
import Verif.Props.XText
import Verif.Props.Conc
import Verif.Props.Cost
import Verif.Props.Normal
import Verif.Validation
import Verif.Props.XString
import Verif.Props.XOther
import Verif.Props.CutLines
import Verif.Props.CutParts
import Verif.Props.Letters
import Verif.Props.HangulConc
import Verif.Props.Names
import Verif.Props.Nfc
import Verif.Props.ReaderAny
import Verif.Props.Cut
import Verif.Props.Stray
import Verif.Props.ReaderCost
import Verif.Props.Ascii
import Verif.Props.Resync
import Verif.Props.ReaderSpace
import Verif.Props.Program
import Verif.Props.ReaderExact
import Verif.Props.ReadAll
import Verif.Props.Buffered
import Verif.Props.Copy
import Verif.Props.Goroutines
import Verif.Props.Unsupported
import Verif.Props.Scanner
import Verif.Props.Lines
import Verif.Props.Search
import Verif.Props.Parser
import Verif.Props.BufReader
import Verif.Props.Multi
import Verif.Props.ReadFull
import Verif.Props.Pipe
import Verif.Props.Retry
import Verif.Props.Sections
import Verif.Props.Seek
import Verif.Props.CutHanja
import Verif.Props.Sniff
import Verif.Props.Initials
import Verif.Props.Trim
import Verif.Props.Visible
import Verif.Props.InitialLaw
import Verif.Props.ReadString
import Verif.Props.History
import Verif.Props.Replace
import Verif.Props.Postpositions
import Verif.Props.Typing
import Verif.Props.CopyReport
