import Verif.Py
import Verif.Model.Admin
import Verif.Model.Archive
import Verif.Model.Assign
import Verif.Model.Assoc
import Verif.Model.Citations
import Verif.Model.ClassTables
import Verif.Model.Classes
import Verif.Model.Comments
import Verif.Model.ConvLog
import Verif.Model.DataTables
import Verif.Model.Dates
import Verif.Model.DotDict
import Verif.Model.Driver
import Verif.Model.EcsFlows
import Verif.Model.EcsProps
import Verif.Model.EcsVars
import Verif.Model.Energy
import Verif.Model.FileNames
import Verif.Model.Fill
import Verif.Model.FirstPass
import Verif.Model.FlowFiles
import Verif.Model.GeoTable
import Verif.Model.IlcdFlows
import Verif.Model.IlcdList
import Verif.Model.IlcdProps
import Verif.Model.IlcdVars
import Verif.Model.Included
import Verif.Model.Inputs
import Verif.Model.LangText
import Verif.Model.MapFile
import Verif.Model.MappingKeys
import Verif.Model.Naming
import Verif.Model.Options
import Verif.Model.OutputName
import Verif.Model.Params
import Verif.Model.PlaceIndex
import Verif.Model.Products
import Verif.Model.PyVal
import Verif.Model.RefUnitTables
import Verif.Model.RefUnits
import Verif.Model.Refs
import Verif.Model.RepTexts
import Verif.Model.Reviews
import Verif.Model.RoundTrip
import Verif.Model.Schema
import Verif.Model.Sentences
import Verif.Model.Session
import Verif.Model.Settings
import Verif.Model.Shapes
import Verif.Model.Stats
import Verif.Model.TextImage
import Verif.Model.TextSplit
import Verif.Model.UncText
import Verif.Model.Uncertainty
import Verif.Model.LeftOut
import Verif.Model.Carried
import Verif.Model.ListSession
import Verif.Model.Unconverted
import Verif.Model.UnitNames
import Verif.Model.UnitTables
import Verif.Model.Uuid
import Verif.Model.Validators
import Verif.Model.XmlStream
import Verif.Spec.Admin
import Verif.Spec.Archive
import Verif.Spec.Assign
import Verif.Spec.Citations
import Verif.Spec.Classes
import Verif.Spec.Comments
import Verif.Spec.ConvLog
import Verif.Spec.DotDict
import Verif.Spec.Driver
import Verif.Spec.EcsFlows
import Verif.Spec.EcsProps
import Verif.Spec.EcsVars
import Verif.Spec.Energy
import Verif.Spec.FileNames
import Verif.Spec.Fill
import Verif.Spec.FirstPass
import Verif.Spec.FlowFiles
import Verif.Spec.IlcdFlows
import Verif.Spec.IlcdList
import Verif.Spec.IlcdProps
import Verif.Spec.IlcdUnc
import Verif.Spec.IlcdVars
import Verif.Spec.Included
import Verif.Spec.Inputs
import Verif.Spec.LangText
import Verif.Spec.MapFile
import Verif.Spec.Mapping
import Verif.Spec.Naming
import Verif.Spec.Never
import Verif.Spec.Params
import Verif.Spec.PlaceIndex
import Verif.Spec.Products
import Verif.Spec.RefUnits
import Verif.Spec.Refs
import Verif.Spec.RepTexts
import Verif.Spec.Reviews
import Verif.Spec.RoundTrip
import Verif.Spec.Sentences
import Verif.Spec.Session
import Verif.Spec.Settings
import Verif.Spec.Shapes
import Verif.Spec.Stats
import Verif.Spec.TextImage
import Verif.Spec.TextSplit
import Verif.Spec.UncText
import Verif.Spec.Uncertainty
import Verif.Spec.LeftOut
import Verif.Spec.Carried
import Verif.Spec.ListSession
import Verif.Spec.Unconverted
import Verif.Spec.UnitNames
import Verif.Spec.Validators
import Verif.Spec.XmlStream
import Verif.Lemmas.Archive
import Verif.Lemmas.Assign
import Verif.Lemmas.AssignSample
import Verif.Lemmas.Assoc
import Verif.Lemmas.Comments
import Verif.Lemmas.ConvLog
import Verif.Lemmas.DotDict
import Verif.Lemmas.Driver
import Verif.Lemmas.EcsFlows
import Verif.Lemmas.EcsFormulas
import Verif.Lemmas.EcsMerge
import Verif.Lemmas.EcsProps
import Verif.Lemmas.EcsVars
import Verif.Lemmas.FileNames
import Verif.Lemmas.Fill
import Verif.Lemmas.FirstPass
import Verif.Lemmas.FlowFiles
import Verif.Lemmas.IlcdFlows
import Verif.Lemmas.IlcdProps
import Verif.Lemmas.IlcdVars
import Verif.Lemmas.Inputs
import Verif.Lemmas.LangText
import Verif.Lemmas.MapFile
import Verif.Lemmas.Mapping
import Verif.Lemmas.Naming
import Verif.Lemmas.Never
import Verif.Lemmas.Num
import Verif.Lemmas.Numerals
import Verif.Lemmas.Params
import Verif.Lemmas.Products
import Verif.Lemmas.Py
import Verif.Lemmas.RoundTrip
import Verif.Lemmas.RoundSums
import Verif.Lemmas.Segs
import Verif.Lemmas.SentenceDots
import Verif.Lemmas.Sentences
import Verif.Lemmas.Session
import Verif.Lemmas.TextSplit
import Verif.Lemmas.UncText
import Verif.Lemmas.Uncertainty
import Verif.Lemmas.LeftOut
import Verif.Lemmas.Carried
import Verif.Lemmas.ListSession
import Verif.Lemmas.Unconverted
import Verif.Lemmas.UnitNames
import Verif.Lemmas.Uuid
import Verif.Lemmas.Validators
import Verif.Lemmas.XmlStream
import Verif.Lemmas.XmlValue
import Verif.Props.Admin
import Verif.Props.Archive
import Verif.Props.Assign
import Verif.Props.Citations
import Verif.Props.Classes
import Verif.Props.Comments
import Verif.Props.CommentsBack
import Verif.Props.ConvLog
import Verif.Props.DotDict
import Verif.Props.Driver
import Verif.Props.DriverDatabase
import Verif.Props.EcsFlows
import Verif.Props.EcsMerge
import Verif.Props.EcsProps
import Verif.Props.EcsVars
import Verif.Props.Energy
import Verif.Props.FileNames
import Verif.Props.Fill
import Verif.Props.FirstPass
import Verif.Props.FlowFiles
import Verif.Props.IlcdFlows
import Verif.Props.IlcdList
import Verif.Props.IlcdMerge
import Verif.Props.IlcdProps
import Verif.Props.IlcdUnc
import Verif.Props.IlcdVars
import Verif.Props.Included
import Verif.Props.Inputs
import Verif.Props.LangText
import Verif.Props.LangOrder
import Verif.Props.MapFile
import Verif.Props.Mapping
import Verif.Props.Naming
import Verif.Props.Never
import Verif.Props.Options
import Verif.Props.OutputName
import Verif.Props.Params
import Verif.Props.PlaceIndex
import Verif.Props.PlainSentences
import Verif.Props.Products
import Verif.Props.PropsRound
import Verif.Props.RefUnits
import Verif.Props.Refs
import Verif.Props.RepTexts
import Verif.Props.Reviews
import Verif.Props.RoundSums
import Verif.Props.RoundTrip
import Verif.Props.Schema
import Verif.Props.Sentences
import Verif.Props.Session
import Verif.Props.Settings
import Verif.Props.Shapes
import Verif.Props.Stats
import Verif.Props.Tables
import Verif.Props.TextImage
import Verif.Props.TextSplit
import Verif.Props.TextLimits
import Verif.Props.UncText
import Verif.Props.Uncertainty
import Verif.Props.LeftOut
import Verif.Props.Carried
import Verif.Props.ListSession
import Verif.Props.Unconverted
import Verif.Props.UnitNames
import Verif.Props.Uuid
import Verif.Props.Validators
import Verif.Props.ReviewDates
import Verif.Props.XmlStream
import Verif.Model.RoundIlcd
import Verif.Spec.RoundIlcd
import Verif.Lemmas.RoundIlcd
import Verif.Props.RoundIlcd
import Verif.Props.RoundIlcdSums
import Verif.Props.RoundIlcdUnits
import Verif.Props.RoundIlcdExamples
import Verif.Model.PropUnc
import Verif.Spec.PropUnc
import Verif.Lemmas.PropUnc
import Verif.Props.PropUnc
import Verif.Props.PropUncStops
import Verif.Model.IlcdPropUnc
import Verif.Model.XmlFile
import Verif.Model.XmlParse
import Verif.Model.XmlWrite
import Verif.Model.CopyFile
import Verif.Spec.IlcdPropUnc
import Verif.Spec.XmlWrite
import Verif.Lemmas.ScaleLaw
import Verif.Lemmas.IlcdPropUnc
import Verif.Lemmas.XmlText
import Verif.Lemmas.XmlTree
import Verif.Lemmas.XmlDoc
import Verif.Lemmas.XmlResolve
import Verif.Lemmas.XmlBack
import Verif.Lemmas.XmlPath
import Verif.Lemmas.XmlSchema
import Verif.Lemmas.XmlFile
import Verif.Props.IlcdPropUnc
import Verif.Props.XmlWrite
import Verif.Props.ExchComments
import Verif.Props.ReviewTexts
import Verif.Props.ReviewDetails
import Verif.Props.CopyFile
import Verif.Props.Dates
import Verif.Spec.Dates
import Verif.Props.ArchiveRefs
import Verif.Props.UnitJoined
