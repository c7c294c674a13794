import Verif.Model.Prelude
import Verif.Model.Types
import Verif.Model.Enums
import Verif.Model.Decimal
import Verif.Model.Link
import Verif.Model.Version
import Verif.Spec.Regex
import Verif.Proofs.Link
import Verif.Props.Link
import Verif.Props.Version
import Verif.Model.Recurse
import Verif.Model.Convert
import Verif.Spec.Schema
import Verif.Spec.Gating
import Verif.Spec.Locate
import Verif.Proofs.ConvertFields
import Verif.Proofs.Convert
import Verif.Proofs.Support
import Verif.Props.Support
import Verif.Props.Gating
import Verif.Props.Steps
import Verif.Props.Lists
import Verif.Spec.Keeps
import Verif.Props.Keeps
import Verif.Json.Value
import Verif.Json.Codec
import Verif.Json.Laws
import Verif.Json.Height
import Verif.Json.Knot
import Verif.Json.Structs
import Verif.Json.CustomLaws
import Verif.Json.StructLaws
import Verif.Spec.Plain
import Verif.Json.PlainLaws
import Verif.Json.Document
import Verif.Spec.JsonNames
import Verif.Spec.JsonDoc
import Verif.Json.Obs
import Verif.Json.ObsLaws
import Verif.Json.FloatExample
import Verif.Props.Json
import Verif.Props.JsonContent
import Verif.Spec.Writable
import Verif.Json.WritableLaws
import Verif.Props.JsonChoice
import Verif.Model.Gob
import Verif.Spec.Copyable
import Verif.Proofs.Gob
import Verif.Spec.Canonical
import Verif.Json.CanonicalLaws
import Verif.Proofs.GobRegular
import Verif.Proofs.Preserve
import Verif.Proofs.CanonFixed
import Verif.Json.EncodeVersion
import Verif.Props.EncodeVersion
import Verif.Model.Heap
import Verif.Model.Trees
import Verif.Proofs.Heap
import Verif.Proofs.Trees
import Verif.Props.Heap
import Verif.Json.Number
import Verif.Spec.JsonText
import Verif.Json.Text
import Verif.Json.NumberLaws
import Verif.Json.StringLaws
import Verif.Json.TextLaws
import Verif.Json.Encoder
import Verif.Props.JsonText
import Verif.Xml.Value
import Verif.Xml.Codec
import Verif.Xml.Laws
import Verif.Xml.Structs
import Verif.Xml.Knot
import Verif.Xml.CustomLaws
import Verif.Xml.StructLaws
import Verif.Spec.XmlPlain
import Verif.Xml.PlainLaws
import Verif.Xml.Document
import Verif.Xml.FloatExample
import Verif.Props.Xml
import Verif.Spec.XmlWritable
import Verif.Spec.GoInts
import Verif.Xml.WritableLaws
import Verif.Proofs.GobXml
import Verif.Proofs.PreserveXml
import Verif.Props.XmlVersion
import Verif.Spec.JsonSchema
import Verif.Spec.JsonFits
import Verif.Json.FitsLaws
import Verif.Spec.JsonFitsCopied
import Verif.Proofs.FitsCopied
import Verif.Spec.JsonFitsConverted
import Verif.Proofs.FitsConverted
import Verif.Props.JsonSchema
import Verif.Spec.XmlSchema
import Verif.Xml.SchemaLaws
import Verif.Xml.SchemaFields
import Verif.Spec.XmlFits
import Verif.Xml.FitsLaws
import Verif.Spec.XmlFitsConverted
import Verif.Proofs.XFitsConverted
import Verif.Props.XmlSchema
import Verif.Xml.Text
import Verif.Spec.XmlText
import Verif.Xml.TextLaws
import Verif.Xml.SpaceLaws
import Verif.Xml.SafeLaws
import Verif.Spec.XmlStrict
import Verif.Xml.PrintLaws
import Verif.Xml.StrictLaws
import Verif.Xml.Encoder
import Verif.Props.XmlText
import Verif.Props.Formats
import Verif.Model.FieldNumbers
import Verif.Model.Mem
import Verif.Model.GoConvert
import Verif.Proofs.Own
import Verif.Proofs.Collect
import Verif.Proofs.Typed
import Verif.Proofs.Fields
import Verif.Proofs.GoConvert
import Verif.Proofs.GoTools
import Verif.Proofs.GoBOM
import Verif.Proofs.BuildOwn
import Verif.Proofs.TreeInj
import Verif.Props.Refine
import Verif.Spec.Members
import Verif.Json.MemberLaws
import Verif.Props.JsonMembers
import Verif.Props.JsonForms
import Verif.Spec.JsonRequired
import Verif.Json.RequiredLaws
import Verif.Proofs.CompleteConverted
import Verif.Props.JsonRequired
import Verif.Spec.JsonEnums
import Verif.Json.EnumLaws
import Verif.Spec.JsonListedConverted
import Verif.Proofs.ListedConverted
import Verif.Props.JsonEnums
import Verif.Spec.JsonRefused
import Verif.Json.ReadLaws
import Verif.Props.JsonRead
import Verif.Spec.JsonCarried
import Verif.Json.CarriedLaws
import Verif.Props.JsonCarried
import Verif.Json.Blind
import Verif.Json.BlindLaws
import Verif.Json.Idem
import Verif.Json.IdemLaws
import Verif.Xml.Blind
import Verif.Xml.BlindLaws
import Verif.Props.DecodeInto
import Verif.Spec.XmlRefused
import Verif.Xml.Total
import Verif.Xml.TotalLaws
import Verif.Xml.Read
import Verif.Xml.ReadLaws
import Verif.Xml.ValidCheck
import Verif.Props.XmlRead
import Verif.Spec.XmlCarried
import Verif.Xml.Carry
import Verif.Xml.CarryCustom
import Verif.Xml.CarryLaws
import Verif.Props.XmlCarried
import Verif.Spec.XmlEnums
import Verif.Spec.XmlListedConverted
import Verif.Xml.Listed
import Verif.Xml.ListedLaws
import Verif.Proofs.XListedConverted
import Verif.Props.XmlEnums
import Verif.Model.Utf8
import Verif.Spec.Utf8
import Verif.Proofs.Utf8
import Verif.Model.Reader
import Verif.Spec.Reader
import Verif.Proofs.Reader
import Verif.Props.Reader
import Verif.Model.Format
import Verif.Props.Bytes
import Verif.Spec.Elements
import Verif.Xml.ElementLaws
import Verif.Props.XmlElements
import Verif.Props.XmlForms
import Verif.Spec.BomRefs
import Verif.Spec.Graph
import Verif.Json.RefLaws
import Verif.Xml.RefLaws
import Verif.Proofs.RefsCopied
import Verif.Proofs.RefsConverted
import Verif.Props.Refs
import Verif.Spec.Pointers
import Verif.Props.Pointers
import Verif.Spec.Settled
import Verif.Proofs.Settled
import Verif.Proofs.Conforming
import Verif.Proofs.XConforming
import Verif.Props.Settled
import Verif.Spec.LinkSchema
import Verif.Props.LinkSchema
import Verif.Props.JsonExclusive
import Verif.Props.Reencoded
import Verif.Spec.JsonScant
import Verif.Json.FullLaws
import Verif.Props.Recompleted
import Verif.Props.Relisted
import Verif.Props.Reexclusive
import Verif.Props.ReencodedVersion
import Verif.Spec.JsonSays
import Verif.Json.SaysLaws
import Verif.Props.Resaid
import Verif.Props.XmlResaid
