import Verif.Cim.Ops
import Verif.Cim.Args
import Verif.Gen.All
import Verif.Props.Assoc
import Verif.Props.Frame
import Verif.Props.AssocEx
import Verif.Props.Tables
import Verif.Props.Xml
import Verif.Props.Pretty
import Verif.Cim.Quiet
import Verif.Props.Reader
import Verif.Props.ReaderEx
import Verif.Cim.Pass2
import Verif.Cim.Links
import Verif.Cim.Create
import Verif.Spec.Doc
import Verif.Cim.Den
import Verif.Cim.Idle
import Verif.Cim.Write
import Verif.Cim.WriteDoc
import Verif.Gen.Ident
import Verif.Gen.Check18
import Verif.Props.ReadDoc
import Verif.Props.ReadSame
import Verif.Cim.Skip
import Verif.Props.ReadDocEx
import Verif.Cim.Exact
import Verif.Props.ReadExact
import Verif.Props.ReadExactEx
import Verif.Cim.Bad
import Verif.Props.ReadNested
import Verif.Props.ReadNestedEx
import Verif.Props.ReadSkip
import Verif.Props.ReadSkipEx
import Verif.Props.Write
import Verif.Gen.RoundCls
import Verif.Gen.Found
import Verif.Props.RoundDoc
import Verif.Props.RoundFits
import Verif.Props.Round
import Verif.Props.RoundTrip
import Verif.Props.RoundTripEx
import Verif.Props.Declared
import Verif.Props.Alias
import Verif.Spec.Log
import Verif.Cim.Logs
import Verif.Props.ReadLog
import Verif.Props.RoundLog
import Verif.Props.Ascii
import Verif.Xml.Serial
import Verif.Xml.SerialLex
import Verif.Xml.SerialNs
import Verif.Xml.SerialTree
import Verif.Xml.Legal
import Verif.Xml.Same
import Verif.Props.PrettyDoc
import Verif.Props.PrettyDocEx
import Verif.Spec.Equal
import Verif.Props.Rename
import Verif.Props.ReadParts
import Verif.Props.ReadMany
import Verif.Props.ReadPartsEx
import Verif.Props.ReadPairs
import Verif.Props.ReadPairsEx
import Verif.Spec.Schema
import Verif.Gen.Models
import Verif.Props.Schema
import Verif.Props.SchemaEx
import Verif.Py.Bytes
import Verif.Xml.File
import Verif.Xml.Morph
import Verif.Cim.WriteOut
import Verif.Cim.Morph
import Verif.Cim.Source
import Verif.Props.Files
import Verif.Props.FilesEx
import Verif.Props.ReadVoid
import Verif.Props.ReadClosed
import Verif.Props.ReadCopy
import Verif.Props.SchemaMore
import Verif.Spec.Content
import Verif.Xml.Insert
import Verif.Props.Content
import Verif.Props.ContentEx
import Verif.Spec.Comment
import Verif.Props.Comments
import Verif.Props.Plain
import Verif.Props.Lines
import Verif.Props.LinesEx
import Verif.Props.Foreign
import Verif.Props.ForeignEx
import Verif.Props.Depends
import Verif.Props.Parts
import Verif.Props.DependsEx
import Verif.Props.Pieces
import Verif.Props.PiecesEx
import Verif.Props.Lost
import Verif.Props.LostEx
import Verif.Props.Uuid
import Verif.Props.Replaced
import Verif.Props.Control
import Verif.Props.ControlEx
import Verif.Props.Kept
import Verif.Props.KeptEx
