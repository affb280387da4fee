import Verif.Model.Api
import Verif.Proofs.Descend
import Verif.Proofs.First
import Verif.Proofs.ApiAddr
import Verif.Proofs.ApiDate
import Verif.Proofs.Preferred
import Verif.Proofs.Utf8
import Verif.Proofs.Quoted
import Verif.Proofs.ClearList
import Verif.Props.Core
import Verif.Props.History
import Verif.Props.Dates
import Verif.Props.Shape
import Verif.Props.Clear
import Verif.Proofs.ObsList
import Verif.Props.Items
import Verif.Props.Mime
import Verif.Props.Format
import Verif.Props.Independent
import Verif.Props.Local
import Verif.Props.Names
import Verif.Props.Concurrent
import Verif.Props.Bounds
import Verif.Props.Exact
import Verif.Props.Groups
import Verif.Props.Atn
import Verif.Props.Generated
import Verif.Props.Source
import Verif.Props.Shared
import Verif.Props.Rfc5322
import Verif.Props.G4
import Verif.Props.RfcMeaning
import Verif.Props.AllStar
import Verif.Props.Recovery
import Verif.Props.LexerSim
import Verif.Props.Whole
import Verif.Props.RfcObsDate
import Verif.Props.RfcObsolete
import Verif.Props.RfcNames
import Verif.Props.Effects
import Verif.Props.RfcChanges
import Verif.Props.GoFormat
import Verif.Props.Messages
import Verif.Props.FirstError
import Verif.Props.Sensible
import Verif.Tests.Repo
