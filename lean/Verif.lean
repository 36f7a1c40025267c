import Verif.Model.Annotate
import Verif.Model.AnnotateText
import Verif.Model.AnnotatedJson
import Verif.Model.Api
import Verif.Model.Base
import Verif.Model.Core
import Verif.Model.CsvText
import Verif.Model.DataInfo
import Verif.Model.Decimal
import Verif.Model.Decryption
import Verif.Model.Display
import Verif.Model.F64
import Verif.Model.Frontend
import Verif.Model.Hex
import Verif.Model.Hexview
import Verif.Model.Highlight
import Verif.Model.JsonText
import Verif.Model.Legacy
import Verif.Model.LegacyDiagram
import Verif.Model.LegacyJson
import Verif.Model.Manufacturers
import Verif.Model.MbusData
import Verif.Model.Messages
import Verif.Model.Names
import Verif.Model.Output
import Verif.Model.RealText
import Verif.Model.Record
import Verif.Model.RecordOutput
import Verif.Model.Render
import Verif.Model.Security
import Verif.Model.Serialize
import Verif.Model.Stack
import Verif.Model.UserData
import Verif.Model.Utf8Lossy
import Verif.Model.ValueInfo
import Verif.Model.Wired
import Verif.Model.Wireless
import Verif.Model.Xml
import Verif.Model.XmlFloat
import Verif.Model.XmlProduct
import Verif.Spec.Aes
import Verif.Spec.Annotate
import Verif.Spec.AnnotateText
import Verif.Spec.AnnotatedJson
import Verif.Spec.Api
import Verif.Spec.Checksums
import Verif.Spec.Core
import Verif.Spec.Crc
import Verif.Spec.CsvText
import Verif.Spec.Damage
import Verif.Spec.DataInfo
import Verif.Spec.Decimal
import Verif.Spec.Decryption
import Verif.Spec.Display
import Verif.Spec.Formats
import Verif.Spec.Frontend
import Verif.Spec.Hex
import Verif.Spec.Hexview
import Verif.Spec.Highlight
import Verif.Spec.Joined
import Verif.Spec.Json
import Verif.Spec.JsonSchema
import Verif.Spec.KeyUnused
import Verif.Spec.KeyUse
import Verif.Spec.Legacy
import Verif.Spec.LegacyDiagram
import Verif.Spec.LegacyJson
import Verif.Spec.Messages
import Verif.Spec.OlderLink
import Verif.Spec.OlderMeter
import Verif.Spec.OlderPart
import Verif.Spec.OlderUnit
import Verif.Spec.Outcome
import Verif.Spec.Output
import Verif.Spec.PlainAnswers
import Verif.Spec.PlainText
import Verif.Spec.Product
import Verif.Spec.ReadAgain
import Verif.Spec.RealText
import Verif.Spec.Record
import Verif.Spec.RecordOutput
import Verif.Spec.Render
import Verif.Spec.SealedData
import Verif.Spec.Sent
import Verif.Spec.SentBareWide
import Verif.Spec.SentBytes
import Verif.Spec.SentCsv
import Verif.Spec.SentDiagram
import Verif.Spec.SentEll
import Verif.Spec.SentFixed
import Verif.Spec.SentFixedOlder
import Verif.Spec.SentIdentity
import Verif.Spec.SentJson
import Verif.Spec.SentLink
import Verif.Spec.SentReset
import Verif.Spec.SentSecurity
import Verif.Spec.SentStatus
import Verif.Spec.SentTable
import Verif.Spec.SentTooltip
import Verif.Spec.SentXml
import Verif.Spec.SentXmlHeader
import Verif.Spec.Serialize
import Verif.Spec.Spelling
import Verif.Spec.Stack
import Verif.Spec.Tooltip
import Verif.Spec.Ucum
import Verif.Spec.Units
import Verif.Spec.UserData
import Verif.Spec.ValueInfo
import Verif.Spec.Wired
import Verif.Spec.Wireless
import Verif.Spec.Xml
import Verif.Spec.XmlFloat
import Verif.Lemmas.Aes
import Verif.Lemmas.Annotate
import Verif.Lemmas.AnnotateAgree
import Verif.Lemmas.AnnotateApp
import Verif.Lemmas.AnnotateFrame
import Verif.Lemmas.AnnotateRecords
import Verif.Lemmas.AnnotateText
import Verif.Lemmas.Base
import Verif.Lemmas.Builds
import Verif.Lemmas.Core
import Verif.Lemmas.Crc
import Verif.Lemmas.CsvText
import Verif.Lemmas.DataInfo
import Verif.Lemmas.Decimal
import Verif.Lemmas.Decryption
import Verif.Lemmas.Display
import Verif.Lemmas.F64
import Verif.Lemmas.Formats
import Verif.Lemmas.Hex
import Verif.Lemmas.Hexview
import Verif.Lemmas.HexviewFrame
import Verif.Lemmas.HexviewPanic
import Verif.Lemmas.HexviewView
import Verif.Lemmas.Highlight
import Verif.Lemmas.Json
import Verif.Lemmas.JsonFields
import Verif.Lemmas.JsonSchema
import Verif.Lemmas.Legacy
import Verif.Lemmas.LegacyDiagram
import Verif.Lemmas.LegacyJson
import Verif.Lemmas.Output
import Verif.Lemmas.OutputFields
import Verif.Lemmas.PlainText
import Verif.Lemmas.Product
import Verif.Lemmas.RealText
import Verif.Lemmas.Record
import Verif.Lemmas.RecordOutput
import Verif.Lemmas.Sent
import Verif.Lemmas.SentDiagram
import Verif.Lemmas.SentTable
import Verif.Lemmas.SentTooltip
import Verif.Lemmas.SentXml
import Verif.Lemmas.Tooltip
import Verif.Lemmas.Ucum
import Verif.Lemmas.UserData
import Verif.Lemmas.Utf8Lossy
import Verif.Lemmas.ValueInfo
import Verif.Lemmas.Wired
import Verif.Lemmas.Wireless
import Verif.Lemmas.Xml
import Verif.Lemmas.XmlDoc
import Verif.Lemmas.XmlFloat
import Verif.Lemmas.XmlUnique
import Verif.Lemmas.XmlValue
import Verif.Props.Aes
import Verif.Props.Annotate
import Verif.Props.AnnotateText
import Verif.Props.AnnotatedJson
import Verif.Props.Api
import Verif.Props.Builds
import Verif.Props.Checksums
import Verif.Props.Core
import Verif.Props.Csv
import Verif.Props.CsvText
import Verif.Props.CutOff
import Verif.Props.Damage
import Verif.Props.DataInfo
import Verif.Props.Decimal
import Verif.Props.Decryption
import Verif.Props.Diagram
import Verif.Props.Display
import Verif.Props.Errors
import Verif.Props.Formats
import Verif.Props.Frontend
import Verif.Props.Hex
import Verif.Props.Hexview
import Verif.Props.HexviewCrc
import Verif.Props.Highlight
import Verif.Props.Joined
import Verif.Props.Json
import Verif.Props.JsonSchema
import Verif.Props.KeyUnused
import Verif.Props.KeyUse
import Verif.Props.Legacy
import Verif.Props.LegacyDiagram
import Verif.Props.LegacyDiagramText
import Verif.Props.LegacyJson
import Verif.Props.LegacyRecord
import Verif.Props.Messages
import Verif.Props.OlderLink
import Verif.Props.OlderMeter
import Verif.Props.OlderPart
import Verif.Props.OlderUnit
import Verif.Props.Output
import Verif.Props.OutputFields
import Verif.Props.OutputRecords
import Verif.Props.PlainAnswers
import Verif.Props.PlainText
import Verif.Props.PlainTextOlder
import Verif.Props.Product
import Verif.Props.PyRecords
import Verif.Props.ReadAgain
import Verif.Props.RealText
import Verif.Props.Record
import Verif.Props.RecordOutput
import Verif.Props.Render
import Verif.Props.SealedAnswers
import Verif.Props.SealedData
import Verif.Props.Sent
import Verif.Props.SentBare
import Verif.Props.SentBareWide
import Verif.Props.SentBytes
import Verif.Props.SentCsv
import Verif.Props.SentDiagram
import Verif.Props.SentEll
import Verif.Props.SentFixed
import Verif.Props.SentFixedOlder
import Verif.Props.SentFixedWide
import Verif.Props.SentIdentity
import Verif.Props.SentJson
import Verif.Props.SentLink
import Verif.Props.SentReset
import Verif.Props.SentSecurity
import Verif.Props.SentStatus
import Verif.Props.SentTable
import Verif.Props.SentTooltip
import Verif.Props.SentXml
import Verif.Props.SentXmlHeader
import Verif.Props.Serialize
import Verif.Props.Spelling
import Verif.Props.Stack
import Verif.Props.Tooltip
import Verif.Props.Ucum
import Verif.Props.UserData
import Verif.Props.ValueInfo
import Verif.Props.Wired
import Verif.Props.Wireless
import Verif.Props.WrongKey
import Verif.Props.Xml
import Verif.Props.XmlDecrypt
import Verif.Props.XmlDoc
import Verif.Props.XmlFloat
import Verif.Props.XmlNames
import Verif.Props.XmlUnique
import Verif.Props.XmlUnits
